import Verif.Model.APDU
/-! Several APDU objects, the lists they were made from, and the current APDU. Models the sharing in
/repo/pythoncard/framework/apdu.py: an object keeps the caller's list itself (line 62, `self.__buffer = bytesarr`) and writes the
response into it (lines 219, 231), and the module variable `_current` (lines 30-31, 78-79, 246-256). -/
namespace Verif.Model
open Verif.Py

/-- An object left behind by a constructor that raised after `_current = self`, apdu.py:78-95: it has a list, a buffer
and a state, but not the attributes `Nc`, `Ne`, `_lelength`, `_outgoinglength`. -/
structure HalfAPDU where
  buffer : List Int
  state : Int
  deriving DecidableEq, Repr

namespace HalfAPDU

/-- The calls of apdu.py:160-241 on such an object: those that pass the check of the phase need a missing attribute.
`setOutgoing` has changed the phase by then (lines 196-197). -/
def step (h : HalfAPDU) : APDU.Op → Res HalfAPDU Int
  | .setIncomingAndReceive => if h.state ≠ APDU.STATE_INITIAL then (.error APDU.ILLEGAL_USE, h) else (.error .attributeError, h)
  | .receiveBytes _ =>
    if h.state < APDU.STATE_PARTIAL_INCOMING ∨ h.state ≥ APDU.STATE_OUTGOING then (.error APDU.ILLEGAL_USE, h) else (.error .attributeError, h)
  | .setOutgoing | .setOutgoingAndSend _ _ =>
    if h.state ≥ APDU.STATE_OUTGOING then (.error APDU.ILLEGAL_USE, h) else (.error .attributeError, ⟨h.buffer, APDU.STATE_OUTGOING⟩)
  | .setOutgoingLength _ | .sendBytes _ _ =>
    if h.state < APDU.STATE_OUTGOING then (.error APDU.ILLEGAL_USE, h) else (.error .attributeError, h)
  | .sendBytesLong _ _ _ => (.error .attributeError, h)
  | .poke i v =>
    match set h.buffer i v with
    | .error e => (.error e, h)
    | .ok b => (.ok 0, ⟨b, h.state⟩)

end HalfAPDU

/-- An APDU object. In `full a` the field `a.raw` is not used: the list is found in the world. -/
inductive APDUObj where
  | full (a : APDU)
  | half (h : HalfAPDU)
  deriving DecidableEq, Repr

/-- The caller's lists by reference, the objects made so far with the reference of their list, and `_current`. -/
structure World where
  lists : Nat → List Int
  objs : List (Nat × APDUObj)
  current : Option Nat

namespace World

/-- No APDU yet, `_current = None`, apdu.py:31. -/
def init (lists : Nat → List Int) : World := ⟨lists, [], none⟩

/-- The object with its list put in place. -/
def view (w : World) (i : Nat) : Option APDUObj :=
  match w.objs[i]? with
  | some (r, .full a) => some (.full { a with raw := w.lists r })
  | some (_, .half h) => some (.half h)
  | none => none

/-- The buffer made by apdu.py:63-76, before `_current` is set. -/
def headerBuffer (bytesarr : List Int) : Except Err (List Int) := do
  let buffer ← APDU.done (copyRange bytesarr 0 (fresh (255 + 2) 0) 0 0 4)
  if (bytesarr.length : Int) > 4 then
    let lc ← get bytesarr 4
    APDU.done (copyRange bytesarr 4 buffer 4 0 (if lc = 0 ∧ (bytesarr.length : Int) > 4 + 3 then 3 else 1))
  else pure buffer

/-- `APDU(lists[r])`, apdu.py:59-114. `_current` is set (line 79) before the lengths are determined, so a constructor that raises
there leaves a half-made object as the current one. The value is the number of the new object. -/
def construct (w : World) (r : Nat) : Res World Int :=
  let bytes := w.lists r
  if (bytes.length : Int) < 4 then (.error APDU.BAD_LENGTH, w)
  else match headerBuffer bytes with
    | .error e => (.error e, w)
    | .ok buffer =>
      match APDU.init bytes with
      | .ok a => (.ok w.objs.length, ⟨w.lists, w.objs ++ [(r, .full a)], some w.objs.length⟩)
      | .error e => (.error e, ⟨w.lists, w.objs ++ [(r, .half ⟨buffer, APDU.STATE_INITIAL⟩)], some w.objs.length⟩)

/-- A call on object `i`; a response is written into the shared list. -/
def call (w : World) (i : Nat) (op : APDU.Op) : Res World Int :=
  match w.objs[i]? with
  | none => (.error .nameError, w)          -- no such object: the caller has no variable for it
  | some (r, .half h) => let x := h.step op; (x.1, ⟨w.lists, w.objs.set i (r, .half x.2), w.current⟩)
  | some (r, .full a) =>
    let x := APDU.step { a with raw := w.lists r } op
    (x.1, ⟨fun q => if q = r then x.2.raw else w.lists q, w.objs.set i (r, .full x.2), w.current⟩)

/-- `APDU.getCurrentAPDU()`, apdu.py:246-248. -/
def getCurrentAPDU (w : World) : Option Nat := w.current

/-- `getBuffer()` of an object, apdu.py:142-143. -/
def bufferOf (w : World) (i : Nat) : Option (List Int) :=
  match w.objs[i]? with
  | some (_, .full a) => some a.buffer
  | some (_, .half h) => some h.buffer
  | none => none

/-- `APDU.getCurrentAPDUBuffer()`, apdu.py:250-252: `None` has no `getBuffer`. -/
def getCurrentAPDUBuffer (w : World) : Except Err (List Int) :=
  match w.current with
  | none => .error .attributeError
  | some i => match w.bufferOf i with
    | some b => .ok b
    | none => .error .attributeError

/-- `APDU.getCLAChannel()`, apdu.py:254-256: static, whatever object it is called on. -/
def getCLAChannel (w : World) : Except Err Int :=
  match w.getCurrentAPDUBuffer with
  | .error e => .error e
  | .ok b => match get b 0 with
    | .error e => .error e
    | .ok cla => .ok (iand cla 0x3)

/-- One step of a program using APDUs: make one from a list, call one, or change a list. -/
inductive Step where
  | construct (r : Nat)
  | call (i : Nat) (op : APDU.Op)
  | write (r : Nat) (l : List Int)

/-- One step. -/
def step (w : World) : Step → Res World Int
  | .construct r => w.construct r
  | .call i op => w.call i op
  | .write r l => (.ok 0, ⟨fun q => if q = r then l else w.lists q, w.objs, w.current⟩)

/-- The world after a program. -/
def run (w : World) : List Step → World
  | [] => w
  | s :: ss => run (w.step s).2 ss

/-- The outcomes of the steps of a program. -/
def outcomes (w : World) : List Step → List (Step × Except Err Int)
  | [] => []
  | s :: ss => (s, (w.step s).1) :: outcomes (w.step s).2 ss

end World
end Verif.Model
