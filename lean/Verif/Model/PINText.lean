import Verif.Model.OwnerPIN
/-! `OwnerPIN` (/repo/pythoncard/framework/ownerpin.py) with arguments that hold characters: a Python 2 `unicode` (which is no `str`, so ownerpin.py:37 and 71 take the
branch for arrays), or a list of one-character strings, of numbers, or of both. The characters are stored as they are, and `self.__pin != Pin` (ownerpin.py:50) compares
them with numbers. Simplification: a character is its code, whether it comes from a `unicode` or a byte `str`; Python 2 takes the two for equal only below 128, so of
higher characters the model speaks for those of one kind only. -/
namespace Verif.Model.PINText
open Verif.Py Verif.Model

/-- A cell of a PIN: a number, or a one-character string. Python's `==` never takes a number for a string. -/
inductive Cell where
  | num (v : Int)
  | chr (code : Nat)
  deriving DecidableEq, Repr

/-- The `pin` argument: a `str`, or any other sequence (`isinstance(pin, str)` is false). -/
inductive Arg where
  | str (codes : List Int)
  | seq (cells : List Cell)
  deriving DecidableEq, Repr

/-- `len(pin)`. -/
def Arg.length : Arg → Nat
  | .str l => l.length
  | .seq l => l.length

/-- Fields of the object, ownerpin.py:10-15. -/
structure Obj where
  trylimit : Int
  triesremaining : Int
  maxpinsize : Int
  pin : List Cell
  validated : Bool
  deriving DecidableEq, Repr

/-- `OwnerPIN.__init__`, ownerpin.py:10-15. -/
def init (tryLimit maxPINSize : Int) : Obj :=
  { trylimit := tryLimit, triesremaining := 0, maxpinsize := maxPINSize, pin := fresh maxPINSize (.num 0), validated := false }

/-- ownerpin.py:38-41 and 72-75: the characters of a `str`, as numbers. -/
def strLoop (buf : List Cell) (i : Nat) : List Int → Res (List Cell) Unit
  | [] => (.ok (), buf)
  | c :: cs =>
    match set buf (i : Int) (.num c) with
    | .error e => (.error e, buf)
    | .ok b => strLoop b (i + 1) cs

/-- ownerpin.py:45-46 and 77-78: the elements of another sequence, as they are; `j` is `i - offset`. -/
def arrLoop (pin : List Cell) (offset : Int) (buf : List Cell) (j : Nat) : Nat → Res (List Cell) Unit
  | 0 => (.ok (), buf)
  | n + 1 =>
    match get pin (offset + j) with
    | .error e => (.error e, buf)
    | .ok v =>
      match set buf (offset - (offset + j)) v with
      | .error e => (.error e, buf)
      | .ok b => arrLoop pin offset b (j + 1) n

/-- ownerpin.py:42-43, 47-48 and 80-81: `for i in range(i0, i0+n): buf[i] = 0`. -/
def zeroLoop (buf : List Cell) (i : Int) : Nat → Res (List Cell) Unit
  | 0 => (.ok (), buf)
  | n + 1 =>
    match set buf i (.num 0) with
    | .error e => (.error e, buf)
    | .ok b => zeroLoop b (i + 1) n

/-- Filling a PIN buffer, ownerpin.py:37-48 (`check`) and 71-81 (`update`). -/
def fill (buf : List Cell) (pin : Arg) (offset length maxpinsize : Int) : Res (List Cell) Unit :=
  let r := match pin with
    | .str codes => strLoop buf 0 (slice codes offset (offset + length))
    | .seq cells => arrLoop cells offset buf 0 (rangeLen length)
  match r with
  | (.error e, b) => (.error e, b)
  | (.ok (), b) => zeroLoop b length (rangeLen (maxpinsize - length))

/-- `check`, ownerpin.py:26-56. -/
def check (p : Obj) (pin : Arg) (offset length : Int) : Res Obj Bool :=
  let p := { p with validated := false }
  if p.triesremaining ≤ 0 then (.ok false, p)
  else if (pin.length : Int) < offset ∨ (pin.length : Int) < offset + length then
    (.error .arrayIndexOutOfBounds, { p with triesremaining := p.triesremaining - 1 })
  else
    match fill (fresh p.maxpinsize (.num 0)) pin offset length p.maxpinsize with
    | (.error e, _) => (.error e, p)
    | (.ok (), buf) =>
      if p.pin ≠ buf then (.ok false, { p with triesremaining := p.triesremaining - 1 })
      else (.ok true, { p with validated := true, triesremaining := p.trylimit })

/-- `resetAndUnblock`, ownerpin.py:85-87. -/
def resetAndUnblock (p : Obj) : Obj := { p with validated := false, triesremaining := p.trylimit }

/-- `reset`, ownerpin.py:61-63. -/
def reset (p : Obj) : Obj := if p.validated then resetAndUnblock p else p

/-- `update`, ownerpin.py:65-83. -/
def update (p : Obj) (pin : Arg) (offset length : Int) : Res Obj Unit :=
  if length > p.maxpinsize then (.error (.pin length), p)
  else if length + offset > pin.length then (.error .arrayIndexOutOfBounds, p)
  else
    match fill p.pin pin offset length p.maxpinsize with
    | (.error e, buf) => (.error e, { p with pin := buf })
    | (.ok (), buf) => (.ok (), { p with pin := buf, validated := true, triesremaining := p.trylimit })

/-- A call on the object. -/
inductive Op where
  | check (pin : Arg) (offset length : Int)
  | update (pin : Arg) (offset length : Int)
  | reset
  | resetAndUnblock
  | setValidatedFlag (v : Bool)
  deriving Repr

/-- One call: what the caller sees, and the object afterwards. -/
def step (p : Obj) : Op → OwnerPIN.Out × Obj
  | .check a o l => let r := check p a o l; (.checked r.1, r.2)
  | .update a o l => let r := update p a o l; (.updated r.1, r.2)
  | .reset => (.done, reset p)
  | .resetAndUnblock => (.done, resetAndUnblock p)
  | .setValidatedFlag v => (.done, { p with validated := v })

/-- The object after a history of calls. -/
def run (p : Obj) (ops : List Op) : Obj := ops.foldl (fun p op => (step p op).2) p

/-- The answers the caller sees. -/
def outs (p : Obj) : List Op → List OwnerPIN.Out
  | [] => []
  | op :: ops => (step p op).1 :: outs (step p op).2 ops

end Verif.Model.PINText
