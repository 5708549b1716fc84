import Verif.Model.JCSystem
/-! Model of /repo/pythoncard/framework/util.py. -/
namespace Verif.Model
open Verif.Py

namespace Util

/-- Loop body of `arrayCompare`, util.py:12-16, from index `i` for `n` more iterations.
`src[srcOff+i]` and `dest[destOff+i]` are read twice in the code; reading does not change
them. -/
def compareLoop (src : List Int) (srcOff : Int) (dest : List Int) (destOff : Int) (i : Nat) :
    Nat → Except Err Int
  | 0 => .ok 0
  | n + 1 =>
    match get src (srcOff + i), get dest (destOff + i) with
    | .ok a, .ok b =>
      if a > b then .ok 1
      else if a < b then .ok (-1)
      else compareLoop src srcOff dest destOff (i + 1) n
    | _, _ => .error .indexError

/-- `arrayCompare`, util.py:10-19. -/
def arrayCompare (src : List Int) (srcOff : Int) (dest : List Int) (destOff : Int) (length : Int) :
    Except Err Int :=
  mapIndexError .arrayIndexOutOfBounds (compareLoop src srcOff dest destOff 0 (rangeLen length))

/-- The copying loop of `arrayCopy` / `arrayCopyNonAtomic`, util.py:24-25 and 37-38, from index
`i` for `n` more iterations; `s` and `d` are references and may be the same list. -/
def copyLoop (h : Heap) (s : Nat) (srcOff : Int) (d : Nat) (destOff : Int) (i : Nat) :
    Nat → Res Heap Unit
  | 0 => (.ok (), h)
  | n + 1 =>
    match get (h s) (srcOff + i) with
    | .error e => (.error e, h)
    | .ok v =>
      match set (h d) (destOff + i) v with
      | .error e => (.error e, h)
      | .ok l => copyLoop (h.upd d l) s srcOff d destOff (i + 1) n

/-- `arrayCopy`, util.py:21-32, on references. -/
def arrayCopyRef (h : Heap) (s : Nat) (srcOff : Int) (d : Nat) (destOff length : Int) :
    Res Heap Unit :=
  let h := JCSystem.beginTransaction h
  match copyLoop h s srcOff d destOff 0 (rangeLen length) with
  | (.ok (), h) => (.ok (), JCSystem.commitTransaction h)
  | (.error .indexError, h) => (.error .arrayIndexOutOfBounds, JCSystem.abortTransaction h)
  | (.error e, h) => (.error e, JCSystem.abortTransaction h)

/-- `arrayCopyNonAtomic`, util.py:35-40, on references. The exception name is misspelt
(`ArrayIndexoutOfBoundsException`), so an `IndexError` turns into a `NameError`. -/
def arrayCopyNonAtomicRef (h : Heap) (s : Nat) (srcOff : Int) (d : Nat) (destOff length : Int) :
    Res Heap Unit :=
  match copyLoop h s srcOff d destOff 0 (rangeLen length) with
  | (.error .indexError, h) => (.error .nameError, h)
  | r => r

/-- A heap with two different lists: reference 0 and reference 1. -/
def twoLists (a b : List Int) : Heap := fun r => if r = 0 then a else if r = 1 then b else []

/-- `arrayCopy` called with two different list objects; the result is the outcome and the
destination afterwards. -/
def arrayCopy (src : List Int) (srcOff : Int) (dest : List Int) (destOff length : Int) :
    Res (List Int) Unit :=
  let r := arrayCopyRef (twoLists src dest) 0 srcOff 1 destOff length
  (r.1, r.2 1)

/-- `arrayCopyNonAtomic` called with two different list objects. -/
def arrayCopyNonAtomic (src : List Int) (srcOff : Int) (dest : List Int) (destOff length : Int) :
    Res (List Int) Unit :=
  let r := arrayCopyNonAtomicRef (twoLists src dest) 0 srcOff 1 destOff length
  (r.1, r.2 1)

/-- `arrayCopy(a, srcOff, a, destOff, length)`: source and destination are the same list. -/
def arrayCopySelf (a : List Int) (srcOff destOff length : Int) : Res (List Int) Unit :=
  let r := arrayCopyRef (twoLists a []) 0 srcOff 0 destOff length
  (r.1, r.2 0)

/-- Loop of `arrayFillNonAtomic`, util.py:44-45. -/
def fillLoop (bArray : List Int) (bOff : Int) (bValue : Int) (i : Nat) : Nat → Res (List Int) Unit
  | 0 => (.ok (), bArray)
  | n + 1 =>
    match set bArray (bOff + i) bValue with
    | .error e => (.error e, bArray)
    | .ok l => fillLoop l bOff bValue (i + 1) n

/-- `arrayFillNonAtomic`, util.py:42-47. -/
def arrayFillNonAtomic (bArray : List Int) (bOff bLen bValue : Int) : Res (List Int) Unit :=
  match fillLoop bArray bOff bValue 0 (rangeLen bLen) with
  | (.error .indexError, l) => (.error .arrayIndexOutOfBounds, l)
  | r => r

/-- `makeShort`, util.py:49-51. -/
def makeShort (b1 b2 : Int) : Int := s2 (ior (iand (shl b1 8) 0xFF00) (iand b2 0xFF))

/-- `getShort`, util.py:53-57. -/
def getShort (bArray : List Int) (bOff : Int) : Except Err Int :=
  mapIndexError .arrayIndexOutOfBounds
    (match get bArray bOff with
     | .error e => .error e
     | .ok a =>
       match get bArray (bOff + 1) with
       | .error e => .error e
       | .ok b => .ok (makeShort a b))

/-- `setShort`, util.py:59-66. The first store is visible if the second fails. -/
def setShort (bArray : List Int) (bOff sValue : Int) : Res (List Int) Unit :=
  let b1 := s1 (shr (iand sValue 0xFF00) 8)
  let b2 := s1 (iand sValue 0xFF)
  match set bArray bOff b1 with
  | .error _ => (.error .arrayIndexOutOfBounds, bArray)
  | .ok l =>
    match set l (bOff + 1) b2 with
    | .error _ => (.error .arrayIndexOutOfBounds, l)
    | .ok l' => (.ok (), l')

end Util
end Verif.Model
