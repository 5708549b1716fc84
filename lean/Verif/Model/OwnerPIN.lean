import Verif.Model.Utils
/-! Model of /repo/pythoncard/framework/ownerpin.py. -/
namespace Verif.Model
open Verif.Py

/-- The `pin` argument of `check`/`update`: a Python `str` (given by the code points
`ord(char)` of its characters) or a list of integers. -/
inductive PinArg where
  | str (codes : List Int)
  | arr (bytes : List Int)
  deriving DecidableEq, Repr

/-- `len(pin)`. -/
def PinArg.length : PinArg → Nat
  | .str l => l.length
  | .arr l => l.length

/-- Fields of an `OwnerPIN`, ownerpin.py:10-15. -/
structure OwnerPIN where
  trylimit : Int
  triesremaining : Int
  maxpinsize : Int
  pin : List Int
  validated : Bool
  deriving DecidableEq, Repr

namespace OwnerPIN

/-- `OwnerPIN.__init__`, ownerpin.py:10-15. -/
def init (tryLimit maxPINSize : Int) : OwnerPIN :=
  { trylimit := tryLimit, triesremaining := 0, maxpinsize := maxPINSize,
    pin := fresh maxPINSize 0, validated := false }

/-- `for char in pin[offset:offset+length]: buf[i] = ord(char); i += 1`,
ownerpin.py:38-41 and 72-75. -/
def strLoop (buf : List Int) (i : Nat) : List Int → Res (List Int) Unit
  | [] => (.ok (), buf)
  | c :: cs =>
    match set buf (i : Int) c with
    | .error e => (.error e, buf)
    | .ok b => strLoop b (i + 1) cs

/-- `for i in range(offset, offset+length): buf[offset - i] = pin[i]`,
ownerpin.py:45-46 and 77-78; `j` is `i - offset`, so the target index is `-j`. -/
def arrLoop (pin : List Int) (offset : Int) (buf : List Int) (j : Nat) : Nat → Res (List Int) Unit
  | 0 => (.ok (), buf)
  | n + 1 =>
    match get pin (offset + j) with
    | .error e => (.error e, buf)
    | .ok v =>
      match set buf (offset - (offset + j)) v with
      | .error e => (.error e, buf)
      | .ok b => arrLoop pin offset b (j + 1) n

/-- `for i in range(i0, i0+n): buf[i] = 0`, ownerpin.py:42-43, 47-48 and 80-81. -/
def zeroLoop (buf : List Int) (i : Int) : Nat → Res (List Int) Unit
  | 0 => (.ok (), buf)
  | n + 1 =>
    match set buf i 0 with
    | .error e => (.error e, buf)
    | .ok b => zeroLoop b (i + 1) n

/-- Filling a PIN buffer from the argument: the two loops of ownerpin.py:37-48 (on the local
`Pin` in `check`) and of ownerpin.py:71-81 (on `self.__pin` in `update`). -/
def fill (buf : List Int) (pin : PinArg) (offset length maxpinsize : Int) : Res (List Int) Unit :=
  let r := match pin with
    | .str codes => strLoop buf 0 (slice codes offset (offset + length))
    | .arr bytes => arrLoop bytes offset buf 0 (rangeLen length)
  match r with
  | (.error e, b) => (.error e, b)
  | (.ok (), b) => zeroLoop b length (rangeLen (maxpinsize - length))

/-- `check`, ownerpin.py:26-56. -/
def check (p : OwnerPIN) (pin : PinArg) (offset length : Int) : Res OwnerPIN Bool :=
  let p := { p with validated := false }
  if p.triesremaining ≤ 0 then (.ok false, p)
  else if (pin.length : Int) < offset ∨ (pin.length : Int) < offset + length then
    (.error .arrayIndexOutOfBounds, { p with triesremaining := p.triesremaining - 1 })
  else
    match fill (fresh p.maxpinsize 0) pin offset length p.maxpinsize with
    | (.error e, _) => (.error e, p)
    | (.ok (), buf) =>
      if p.pin ≠ buf then (.ok false, { p with triesremaining := p.triesremaining - 1 })
      else (.ok true, { p with validated := true, triesremaining := p.trylimit })

/-- `resetAndUnblock`, ownerpin.py:85-87. -/
def resetAndUnblock (p : OwnerPIN) : OwnerPIN :=
  { p with validated := false, triesremaining := p.trylimit }

/-- `reset`, ownerpin.py:61-63. -/
def reset (p : OwnerPIN) : OwnerPIN := if p.validated then p.resetAndUnblock else p

/-- `update`, ownerpin.py:65-83. `PINException(length)` carries the length as reason. When a
store fails half-way the stores done so far remain. -/
def update (p : OwnerPIN) (pin : PinArg) (offset length : Int) : Res OwnerPIN Unit :=
  if length > p.maxpinsize then (.error (.pin length), p)
  else if length + offset > pin.length then (.error .arrayIndexOutOfBounds, p)
  else
    match fill p.pin pin offset length p.maxpinsize with
    | (.error e, buf) => (.error e, { p with pin := buf })
    | (.ok (), buf) =>
      (.ok (), { p with pin := buf, validated := true, triesremaining := p.trylimit })

/-- `setValidatedFlag`, ownerpin.py:20-21. -/
def setValidatedFlag (p : OwnerPIN) (v : Bool) : OwnerPIN := { p with validated := v }

/-- `isValidated` / `getValidatedFlag`, ownerpin.py:17-18, 58-59. -/
def isValidated (p : OwnerPIN) : Bool := p.validated

/-- `getTriesRemaining`, ownerpin.py:23-24. -/
def getTriesRemaining (p : OwnerPIN) : Int := p.triesremaining

/-- A call on an `OwnerPIN` object. -/
inductive Op where
  | check (pin : PinArg) (offset length : Int)
  | update (pin : PinArg) (offset length : Int)
  | reset
  | resetAndUnblock
  | setValidatedFlag (v : Bool)
  deriving Repr

/-- What the caller observes of a call. -/
inductive Out where
  | checked (r : Except Err Bool)
  | updated (r : Except Err Unit)
  | done
  deriving DecidableEq

/-- One call: what the caller sees, and the object afterwards. -/
def step (p : OwnerPIN) : Op → Out × OwnerPIN
  | .check a o l => let r := p.check a o l; (.checked r.1, r.2)
  | .update a o l => let r := p.update a o l; (.updated r.1, r.2)
  | .reset => (.done, p.reset)
  | .resetAndUnblock => (.done, p.resetAndUnblock)
  | .setValidatedFlag v => (.done, p.setValidatedFlag v)

/-- The object after a history of calls. -/
def run (p : OwnerPIN) (ops : List Op) : OwnerPIN := ops.foldl (fun p op => (step p op).2) p

end OwnerPIN
end Verif.Model
