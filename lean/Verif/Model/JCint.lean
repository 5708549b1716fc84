import Verif.Model.Utils
/-! Model of /repo/pythoncardx/framework/util/intx.py. -/
namespace Verif.Model
open Verif.Py

namespace JCint

/-- `sanatize`, intx.py:19-21. -/
def sanatize (array : List Int) : List Int := array.map s1

/-- `makeInt` with four arguments, intx.py:33-38. -/
def makeInt4 (b1 b2 b3 b4 : Int) : Int := s4 (shl b1 24 + shl b2 16 + shl b3 8 + b4)

/-- `makeInt` with two arguments, intx.py:39-42. -/
def makeInt2 (a b : Int) : Int := s4 (shl a 16 + b)

/-- `getInt`, intx.py:25-31 (out-of-range reads escape as `IndexError`). -/
def getInt (bArray : List Int) (bOff : Int) : Except Err Int := do
  let b0 ← get bArray bOff
  let b1 ← get bArray (bOff + 1)
  let b2 ← get bArray (bOff + 2)
  let b3 ← get bArray (bOff + 3)
  return s4 (shl b0 24 + shl b1 16 + shl b2 8 + b3)

/-- `makeTransientIntArray`, intx.py:44-47 (the warning is not modelled). -/
def makeTransientIntArray (length _event : Int) : List Int := List.replicate (rangeLen length) 0

/-- `setInt`, intx.py:49-57; stores already done remain when a later one fails. -/
def setInt (bArray : List Int) (bOff iValue1 iValue2 : Int) : Res (List Int) Int :=
  let iVal := makeInt2 iValue1 iValue2
  match set bArray bOff (s1 (iand (shr iVal 24) 0xff)) with
  | .error e => (.error e, bArray)
  | .ok l1 =>
    match set l1 (bOff + 1) (s1 (iand (shr iVal 16) 0xff)) with
    | .error e => (.error e, l1)
    | .ok l2 =>
      match set l2 (bOff + 2) (s1 (iand (shr iVal 8) 0xff)) with
      | .error e => (.error e, l2)
      | .ok l3 =>
        match set l3 (bOff + 3) (s1 (iand iVal 0xff)) with
        | .error e => (.error e, l3)
        | .ok l4 => (.ok (bOff + 4), l4)

end JCint
end Verif.Model
