import Verif.Model.Util
/-! Model of /repo/pythoncard/framework/apdu.py. -/
namespace Verif.Model
open Verif.Py

/-- `for i in range(n): dst[dOff+i] = src[sOff+i]` for two different lists, from index `i`:
the copying loops of apdu.py:170-171 and 184-185 (and 65-66, 74-75). -/
def copyRange (src : List Int) (sOff : Int) (dst : List Int) (dOff : Int) (i : Nat) :
    Nat → Res (List Int) Unit
  | 0 => (.ok (), dst)
  | n + 1 =>
    match get src (sOff + i) with
    | .error e => (.error e, dst)
    | .ok v =>
      match set dst (dOff + i) v with
      | .error e => (.error e, dst)
      | .ok l => copyRange src sOff l dOff (i + 1) n

/-- Fields of an `APDU` object, apdu.py:59-114. `raw` is the private `__buffer` (the caller's
list, later overwritten with the response), `buffer` the public 257-byte buffer,
`cur` is `_curoutgoinglength`, an attribute that does not exist before `setOutgoing`. -/
structure APDU where
  raw : List Int
  buffer : List Int
  offsetincoming : Int
  state : Int
  broken : Bool
  cdataoffs : Int
  type : Int
  Nc : Int
  Ne : Option Int
  lelength : Int
  outgoinglength : Int
  cur : Option Int
  deriving DecidableEq, Repr

namespace APDU

/-- Constants, apdu.py:23-24, 38-44. -/
def IN_BLOCKSIZE : Int := 0x80
def OUT_BLOCKSIZE : Int := 0x100
def STATE_INITIAL : Int := 0
def STATE_PARTIAL_INCOMING : Int := 1
def STATE_FULL_INCOMING : Int := 2
def STATE_OUTGOING : Int := 3
def STATE_OUTGOING_LENGTH_KNOWN : Int := 4
def STATE_PARTIAL_OUTGOING : Int := 5
def STATE_FULL_OUTGOING : Int := 6

/-- Reason codes, /repo/pythoncard/framework/__init__.py:42-46. -/
def BAD_LENGTH : Err := .apdu 0
def BUFFER_BOUNDS : Err := .apdu 1
def ILLEGAL_USE : Err := .apdu 2
/-- `ISOException(SW_WRONG_LENGTH)`, /repo/pythoncard/framework/ISO7816.py:47. -/
def SW_WRONG_LENGTH : Err := .iso 0x6700

/-- `__getInLengths`, apdu.py:117-123 (`OFFSET_LC = 4`). -/
def getInLengths (raw : List Int) : Except Err (Int × Int) := do
  let lc ← get raw 4
  if lc = 0 then
    let a ← get raw (4 + 1)
    let b ← get raw (4 + 2)
    return (u1 a * 256 + u1 b, 3)
  else
    return (u1 lc, 1)

/-- `__getOutLengths`, apdu.py:125-139. -/
def getOutLengths (raw : List Int) (length : Int) : Except Err (Int × Int) := do
  let length := length - 1
  let last ← get raw length
  if last = 0 then
    if length ≠ 4 then
      let lc ← get raw 4
      if lc = 0 then
        let prev ← get raw (length - 1)
        if prev = 0 then
          return (65536, 2)
    return (256, 1)
  else
    if length ≠ 4 then
      let lc ← get raw 4
      if lc = 0 then
        let prev ← get raw (length - 1)
        return (u1 prev * 256 + u1 last, 2)
    return (u1 last, 1)

/-- Loop result as a list, for loops that cannot be observed half-way (`self` is unreachable
when the constructor raises). -/
def done (r : Res (List Int) Unit) : Except Err (List Int) :=
  match r with
  | (.ok (), l) => .ok l
  | (.error e, _) => .error e

/-- `APDU.__init__`, apdu.py:59-114. The global `_current` is not part of this function's
result (see `construct`). -/
def init (bytesarr : List Int) : Except Err APDU := do
  let n : Int := bytesarr.length
  if n < 4 then throw BAD_LENGTH
  let buffer := fresh (255 + 2) (0 : Int)
  -- for i in range(4): self.buffer[i] = bytesarr[i]
  let buffer ← done (copyRange bytesarr 0 buffer 0 0 4)
  -- there is a P3
  let (buffer, offsetincoming) ←
    if n > 4 then do
      let lc ← get bytesarr 4
      let p3len : Int := if lc = 0 ∧ n > 4 + 3 then 3 else 1
      let buffer ← done (copyRange bytesarr 4 buffer 4 0 p3len.toNat)
      pure (buffer, 4 + p3len)
    else pure (buffer, (4 : Int))
  let base : APDU :=
    { raw := bytesarr, buffer := buffer, offsetincoming := offsetincoming,
      state := STATE_INITIAL, broken := false, cdataoffs := 5, type := 0, Nc := 0,
      Ne := none, lelength := 0, outgoinglength := 0, cur := none }
  if n = 4 then
    return { base with type := 1, Nc := 0, Ne := none, lelength := 0 }
  else
    let b4 ← get bytesarr 4
    if n = 5 ∨ (b4 = 0 ∧ n = 7) then
      let (ne, lelen) ← getOutLengths bytesarr n
      return { base with type := 2, Nc := 0, Ne := some ne, lelength := lelen }
    else
      -- `len == b4 + 5 or len == __getInLengths()[0] + 5`: the second is evaluated lazily
      let c3 ← if n = b4 + 5 then pure true
               else do let (nc, _) ← getInLengths bytesarr; pure (decide (n = nc + 5))
      if c3 then
        let (nc, lclength) ← getInLengths bytesarr
        return { base with type := 3, Nc := nc, Ne := none, lelength := 0,
                           cdataoffs := 5 + (lclength - 1) }
      else
        let (nc, lclength) ← getInLengths bytesarr
        let (ne, lelen) ← getOutLengths bytesarr n
        return { base with type := 4, Nc := nc, Ne := some ne, lelength := lelen,
                           cdataoffs := 5 + (lclength - 1),
                           broken := decide (4 + lclength + lelen + nc ≠ n) }

/-- `tobeprocessed`, apdu.py:169 and 183. -/
def toBeProcessed (a : APDU) : Int :=
  min IN_BLOCKSIZE ((a.raw.length : Int) - a.offsetincoming - a.lelength)

/-- `setIncomingAndReceive`, apdu.py:160-177. -/
def setIncomingAndReceive (a : APDU) : Res APDU Int :=
  if a.state ≠ STATE_INITIAL then (.error ILLEGAL_USE, a)
  else if a.broken then (.error SW_WRONG_LENGTH, a)
  else
    let t := a.toBeProcessed
    match copyRange a.raw a.offsetincoming a.buffer a.offsetincoming 0 (rangeLen t) with
    | (.error e, b) => (.error e, { a with buffer := b })
    | (.ok (), b) =>
      let off := a.offsetincoming + t
      let st := if off = (a.raw.length : Int) - a.lelength then STATE_FULL_INCOMING
                else STATE_PARTIAL_INCOMING
      (.ok t, { a with buffer := b, offsetincoming := off, state := st })

/-- `receiveBytes`, apdu.py:179-191. -/
def receiveBytes (a : APDU) (bOffs : Int) : Res APDU Int :=
  if a.state < STATE_PARTIAL_INCOMING ∨ a.state ≥ STATE_OUTGOING then (.error ILLEGAL_USE, a)
  else
    let t := a.toBeProcessed
    match copyRange a.raw a.offsetincoming a.buffer bOffs 0 (rangeLen t) with
    | (.error e, b) => (.error e, { a with buffer := b })
    | (.ok (), b) =>
      let off := a.offsetincoming + t
      let st := if off = (a.raw.length : Int) - a.lelength then STATE_FULL_INCOMING
                else STATE_PARTIAL_INCOMING
      (.ok t, { a with buffer := b, offsetincoming := off, state := st })

/-- `_getOutgoingLength`, apdu.py:276-278. -/
def getOutgoingLength (a : APDU) : Int :=
  match a.Ne with
  | some n => n
  | none => 0

/-- `setOutgoing`, apdu.py:193-200. -/
def setOutgoing (a : APDU) : Res APDU Int :=
  if a.state ≥ STATE_OUTGOING then (.error ILLEGAL_USE, a)
  else (.ok a.getOutgoingLength,
        { a with state := STATE_OUTGOING, cur := some 0, outgoinglength := a.getOutgoingLength })

/-- `(self.Ne is not None) and (len > self.Ne)`, apdu.py:208. -/
def tooLong (a : APDU) (len : Int) : Bool :=
  match a.Ne with
  | some ne => decide (len > ne)
  | none => false

/-- `setOutgoingLength`, apdu.py:205-212. -/
def setOutgoingLength (a : APDU) (len : Int) : Res APDU Unit :=
  if a.state < STATE_OUTGOING then (.error ILLEGAL_USE, a)
  else if a.tooLong len then (.error BAD_LENGTH, a)
  else (.ok (), { a with state := STATE_OUTGOING_LENGTH_KNOWN, cur := some 0, outgoinglength := len })

/-- Common tail of `sendBytes` and `sendBytesLong`, apdu.py:217-224 and 229-236: append
`data[bOffs:bOffs+len]` to the response area. -/
def sendFrom (a : APDU) (data : List Int) (bOffs len : Int) : Res APDU Unit :=
  match a.cur with
  | none => (.error .attributeError, a)
  | some cur =>
    if cur + len > OUT_BLOCKSIZE then (.error BUFFER_BOUNDS, a)
    else
      let raw := setSlice a.raw cur (cur + len) (slice data bOffs (bOffs + len))
      let cur' := cur + len
      let st := if cur' < a.outgoinglength then STATE_PARTIAL_OUTGOING else STATE_FULL_OUTGOING
      (.ok (), { a with raw := raw, cur := some cur', state := st })

/-- `sendBytes`, apdu.py:214-224. -/
def sendBytes (a : APDU) (bOffs len : Int) : Res APDU Unit :=
  if a.state < STATE_OUTGOING then (.error ILLEGAL_USE, a)
  else a.sendFrom a.buffer bOffs len

/-- `sendBytesLong`, apdu.py:226-236 (the guard is the chained comparison
`STATE_PARTIAL_OUTGOING < state < STATE_OUTGOING_LENGTH_KNOWN`). `outData` is a list different
from the private buffer (it may be the public buffer). -/
def sendBytesLong (a : APDU) (outData : List Int) (bOffs len : Int) : Res APDU Unit :=
  if STATE_PARTIAL_OUTGOING < a.state ∧ a.state < STATE_OUTGOING_LENGTH_KNOWN then
    (.error ILLEGAL_USE, a)
  else a.sendFrom outData bOffs len

/-- `setOutgoingAndSend`, apdu.py:238-241. -/
def setOutgoingAndSend (a : APDU) (bOffs len : Int) : Res APDU Unit :=
  match a.setOutgoing with
  | (.error e, a) => (.error e, a)
  | (.ok _, a) =>
    match a.setOutgoingLength len with
    | (.error e, a) => (.error e, a)
    | (.ok _, a) => a.sendBytes bOffs len

/-- The applet stores into the list returned by `getBuffer()` (apdu.py:142-143):
`buffer[i] = v`. -/
def poke (a : APDU) (i v : Int) : Res APDU Unit :=
  match set a.buffer i v with
  | .error e => (.error e, a)
  | .ok b => (.ok (), { a with buffer := b })

/-- `isCommandChainingCLA`, apdu.py:262-264. -/
def isCommandChainingCLA (a : APDU) : Except Err Bool :=
  match get a.raw 0 with
  | .error e => .error e
  | .ok cla => .ok (decide (iand cla 0x10 ≠ 0))

/-- `isISOInterindustryCLA`, apdu.py:269-271. -/
def isISOInterindustryCLA (a : APDU) : Except Err Bool :=
  match get a.raw 0 with
  | .error e => .error e
  | .ok cla => .ok (decide (iand cla 0x80 = 0x00))

/-- `getCLAChannel`, apdu.py:254-256, where `a` is the current APDU. -/
def getCLAChannel (a : APDU) : Except Err Int :=
  match get a.buffer 0 with
  | .error e => .error e
  | .ok cla => .ok (iand cla 0x3)

/-- `getCurrentState`, apdu.py:243-244. -/
def getCurrentState (a : APDU) : Int := a.state

/-- `getIncomingLength`, apdu.py:273-274. -/
def getIncomingLength (a : APDU) : Int := a.Nc

/-- `getOffsetCdata`, apdu.py:280-281. -/
def getOffsetCdata (a : APDU) : Int := a.cdataoffs

/-- `getProtocol`, apdu.py:153-155. -/
def getProtocol : Int := ior (shl 2 4) 6

/-- The response as the surrounding system reads it (see /repo/test/testApplet.py:74):
`apdu._APDU__buffer[:apdu._outgoinglength]`. -/
def response (a : APDU) : List Int := sliceTo a.raw a.outgoinglength

/-- A call on an APDU object (or a store into its buffer by the applet). -/
inductive Op where
  | setIncomingAndReceive
  | receiveBytes (bOffs : Int)
  | setOutgoing
  | setOutgoingLength (len : Int)
  | sendBytes (bOffs len : Int)
  | sendBytesLong (outData : List Int) (bOffs len : Int)
  | setOutgoingAndSend (bOffs len : Int)
  | poke (i v : Int)
  deriving Repr

/-- One call: the value returned (0 for calls returning `None`) or the exception, and the
object afterwards. -/
def step (a : APDU) : Op → Res APDU Int
  | .setIncomingAndReceive => a.setIncomingAndReceive
  | .receiveBytes o => a.receiveBytes o
  | .setOutgoing => a.setOutgoing
  | .setOutgoingLength l => let r := a.setOutgoingLength l; (r.1.map fun _ => 0, r.2)
  | .sendBytes o l => let r := a.sendBytes o l; (r.1.map fun _ => 0, r.2)
  | .sendBytesLong d o l => let r := a.sendBytesLong d o l; (r.1.map fun _ => 0, r.2)
  | .setOutgoingAndSend o l => let r := a.setOutgoingAndSend o l; (r.1.map fun _ => 0, r.2)
  | .poke i v => let r := a.poke i v; (r.1.map fun _ => 0, r.2)

/-- The object after a history of calls. -/
def run (a : APDU) (ops : List Op) : APDU := ops.foldl (fun a op => (step a op).2) a

end APDU
end Verif.Model
