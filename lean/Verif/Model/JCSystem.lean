import Verif.Model.Utils
/-! Model of /repo/pythoncard/framework/jcsystem.py. Warnings (`warnings.warn`) are not
modelled. -/
namespace Verif.Model
open Verif.Py

/-- Mutable lists reachable by reference: used where two arguments of a call may be the
same list. -/
abbrev Heap := Nat → List Int

/-- Replace the list behind reference `r`. -/
def Heap.upd (h : Heap) (r : Nat) (l : List Int) : Heap := fun q => if q = r then l else h q

namespace JCSystem

/-- `abortTransaction`, jcsystem.py:19-20: does nothing. -/
def abortTransaction (h : Heap) : Heap := h

/-- `beginTransaction`, jcsystem.py:22-23: does nothing. -/
def beginTransaction (h : Heap) : Heap := h

/-- `commitTransaction`, jcsystem.py:25-26: does nothing. -/
def commitTransaction (h : Heap) : Heap := h

/-- Values held by the arrays `jcsystem` creates: an int, a bool or `None`. -/
inductive Val where
  | int (v : Int) | bool (b : Bool) | none
  deriving DecidableEq, Repr

/-- `makeTransientShortArray` / `makeTransientByteArray`, jcsystem.py:28-32 (also
`JCint.makeTransientIntArray`, intx.py:44-47). The event is ignored by the code. -/
def makeTransientShortArray (length : Int) (_event : Int) : List Val := fresh length (.int 0)

/-- `makeTransientBooleanArray`, jcsystem.py:34-36. -/
def makeTransientBooleanArray (length : Int) (_event : Int) : List Val := fresh length (.bool false)

/-- `makeTransientObjectArray`, jcsystem.py:39-41. -/
def makeTransientObjectArray (length : Int) (_event : Int) : List Val := fresh length .none

/-- `getAvailableMemory` called with one argument, jcsystem.py:46-50. -/
def getAvailableMemory1 (_memoryType : Int) : Except Err Int := .ok 0x7fff

/-- `getAvailableMemory` called with three arguments, jcsystem.py:51-59. The names
`NullPointerException` and `ArrayIndexOutOfBoundsException` are not imported in this module,
so raising them is a `NameError`. The first element store is visible if the second fails. -/
def getAvailableMemory3 (buffer : Option (List Int)) (offset : Int) (_memoryType : Int) :
    Res (Option (List Int)) Unit :=
  match buffer with
  | none => (.error .nameError, none)
  | some b =>
    match set b offset 0x7f with
    | .error _ => (.error .nameError, some b)
    | .ok b1 =>
      match set b1 (offset + 1) 0xff with
      | .error _ => (.error .nameError, some b1)
      | .ok b2 => (.ok (), some b2)

/-- `makeGlobalArray`, jcsystem.py:63-72. `NegativeArraySizeException` is not defined, so a
negative length is a `NameError`; an unknown type is a `KeyError`. -/
def makeGlobalArray (type length : Int) : Except Err (List Val) :=
  if length < 0 then .error .nameError
  else if type = 1 then .ok (fresh length (.bool false))     -- ARRAY_TYPE_BOOLEAN
  else if type = 2 then .ok (fresh length (.int 0))          -- ARRAY_TYPE_BYTE
  else if type = 4 then .ok (fresh length (.int 0))          -- ARRAY_TYPE_INT
  else if type = 5 then .ok (fresh length .none)             -- ARRAY_TYPE_OBJECT
  else if type = 3 then .ok (fresh length (.int 0))          -- ARRAY_TYPE_SHORT
  else .error .keyError

end JCSystem
end Verif.Model
