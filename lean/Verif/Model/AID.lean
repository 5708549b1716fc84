import Verif.Model.Utils
/-! Model of /repo/pythoncard/framework/aid.py. -/
namespace Verif.Model
open Verif.Py

/-- An `AID` object, aid.py:3-9: its byte list (a slice, hence a copy of the caller's list). -/
structure AID where
  aid : List Int
  deriving DecidableEq, Repr

namespace AID

/-- `AID.__init__`, aid.py:4-9. -/
def mk' (bArray : List Int) (offset length : Int) : Except Err AID :=
  if length < 5 ∨ length > 16 then .error .valueError
  else if (bArray.length : Int) < offset + length then .error .arrayIndexOutOfBounds
  else .ok ⟨slice bArray offset (offset + length)⟩

/-- `AID.equals`, aid.py:11-14. -/
def equals (a : AID) (bArray : List Int) (offset length : Int) : Except Err Bool :=
  if (bArray.length : Int) < offset + length then .error .arrayIndexOutOfBounds
  else .ok (decide (a.aid = slice bArray offset (offset + length)))

/-- `AID.getBytes`, aid.py:16-20: the destination is changed by slice assignment. -/
def getBytes (a : AID) (dest : List Int) (offset : Int) : Res (List Int) Int :=
  if (dest.length : Int) < offset + a.aid.length then (.error .arrayIndexOutOfBounds, dest)
  else (.ok a.aid.length, setSlice dest offset (offset + a.aid.length) a.aid)

/-- `AID.getPartialBytes`, aid.py:22-30. The slice assignment on line 29 evaluates the
undefined name `aidOfset` first, so it raises `NameError` before storing. -/
def getPartialBytes (a : AID) (aidOffset : Int) (dest : List Int) (oOffset oLength : Int) :
    Res (List Int) Int :=
  let oLength := if oLength = 0 then (a.aid.length : Int) else oLength
  if (dest.length : Int) < oOffset + oLength then (.error .arrayIndexOutOfBounds, dest)
  else if (a.aid.length : Int) < aidOffset + oLength then (.error .arrayIndexOutOfBounds, dest)
  else (.error .nameError, dest)

/-- `AID.partialEquals`, aid.py:32-37. -/
def partialEquals (a : AID) (bArray : List Int) (offset length : Int) : Except Err Bool :=
  if (a.aid.length : Int) < length then .error .arrayIndexOutOfBounds
  else if (bArray.length : Int) < offset + length then .error .arrayIndexOutOfBounds
  else .ok (decide (sliceTo a.aid length = slice bArray offset (offset + length)))

/-- `AID.RIDEquals`, aid.py:39-40. -/
def RIDEquals (a other : AID) : Bool := decide (sliceTo a.aid 5 = sliceTo other.aid 5)

/-- `AID.__eq__`, aid.py:42-43. -/
def eq (a other : AID) : Bool := decide (a.aid = other.aid)

end AID
end Verif.Model
