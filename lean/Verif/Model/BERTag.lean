import Verif.Model.Utils
/-! Model of /repo/pythoncardx/framework/tlv/bertag.py. -/
namespace Verif.Model
open Verif.Py

/-- `sanitycheck`, bertag.py:10-14: every element above 127 is replaced in place. -/
def sanitycheck (array : List Int) : List Int :=
  array.map fun x => if x > shl 1 (8 - 1) - 1 then -(iand (inot (x - 1)) (shl 1 8 - 1)) else x

/-- A tag object (`PrimitiveBERTag` or `ConstructedBERTag`), bertag.py:26-29, 133-167; `none` is
Python `None`. `tagConstr` distinguishes the two classes. -/
structure BERTag where
  tagClass : Option Int
  tagConstr : Bool
  tagNumber : Option Int
  size : Int
  deriving DecidableEq, Repr

namespace BERTag

/-- `PrimitiveBERTag()` / `ConstructedBERTag()`, bertag.py:26-29, 134-136, 153-155. -/
def new (constructed : Bool) : BERTag :=
  { tagClass := some 0, tagConstr := constructed, tagNumber := some 0, size := 0 }

/-- `TLVException(MALFORMED_TAG)`, /repo/pythoncardx/framework/tlv/__init__.py:9. -/
def MALFORMED_TAG : Err := .tlv 5

/-- The loop over the continuation bytes, bertag.py:48-55: outcome (`bLen` of the last byte) and
the tag number accumulated. `n` is the number of list cells left, so `0` means the next index is
out of range. -/
def numLoop (bArray : List Int) (bOff : Int) (num bLen : Int) : Nat → Res Int Int
  | 0 => (.error .indexError, num)
  | n + 1 =>
    match get bArray (bOff + bLen) with
    | .error e => (.error e, num)
    | .ok b =>
      if iand b 0x80 = 0x80 then
        numLoop bArray bOff (shl num 7 + iand b 0x7f) (bLen + 1) n
      else (.ok bLen, shl num 7 + iand b 0x7f)

/-- `BERTag.init`, bertag.py:43-59. -/
def baseInit (t : BERTag) (bArray : List Int) (bOff : Int) : Res BERTag Unit :=
  match get bArray bOff with
  | .error e => (.error e, t)
  | .ok b =>
    let t := { t with tagClass := some (shr (iand b 0xff) 6), tagConstr := decide (iand b 0x20 ≠ 0) }
    if iand b 0x1f = 0x1f then
      match numLoop bArray bOff 0 1 ((bArray.length : Int) - (bOff + 1)).toNat with
      | (.error e, num) => (.error e, { t with tagNumber := some num })
      | (.ok bLen, num) => (.ok (), { t with tagNumber := some num, size := bLen })
    else (.ok (), { t with tagNumber := some (iand b 0x1f), size := 1 })

/-- `PrimitiveBERTag.init(list, off)` and `ConstructedBERTag.init(list, off)`,
bertag.py:138-145 and 157-164. -/
def initArray (t : BERTag) (bArray : List Int) (bOff : Int) : Res BERTag Unit :=
  let t := { t with tagClass := none, tagNumber := none }
  match get bArray bOff with
  | .error e => (.error e, t)
  | .ok b =>
    if t.tagConstr then
      if iand b 0x20 = 0 then (.error MALFORMED_TAG, t) else t.baseInit bArray bOff
    else
      if iand b 0x20 = 0x20 then (.error MALFORMED_TAG, t) else t.baseInit bArray bOff

/-- `init(tagClass, tagNumber)`, bertag.py:146-150 and 165-167: the size is not set. -/
def initNumber (t : BERTag) (tagClass tagNumber : Int) : BERTag :=
  { t with tagClass := some tagClass, tagNumber := some tagNumber }

/-- `BERTag.getInstance`, bertag.py:31-41. -/
def getInstance (bArray : List Int) (bOff : Int) : Except Err BERTag :=
  mapIndexError .arrayIndexOutOfBounds
    (match get bArray bOff with
     | .error e => .error e
     | .ok b =>
       match (new (decide (iand (shr b 5) 0x1 ≠ 0))).initArray bArray bOff with
       | (.error e, _) => .error e
       | (.ok (), t) => .ok t)

/-- `while tagNumber > 0: chunks.append(tagNumber & 0x7f); tagNumber = tagNumber >> 7`,
bertag.py:71-74; `fuel` bounds the iterations, `chunks` supplies enough. -/
def chunksF : Nat → Int → List Int
  | 0, _ => []
  | f + 1, v => if v > 0 then iand v 0x7f :: chunksF f (shr v 7) else []

/-- The chunk loop with enough fuel. -/
def chunks (tagNumber : Int) : List Int := chunksF tagNumber.toNat tagNumber

/-- `for i in reversed(chunks): outBuf[bOffset+bLen] = 0x80; outBuf[bOffset+bLen] += i; bLen += 1`,
bertag.py:76-79 (the two stores to one cell are one here). -/
def writeChunks (outBuf : List Int) (bOffset : Int) (bLen : Int) : List Int → Res (List Int) Int
  | [] => (.ok bLen, outBuf)
  | i :: rest =>
    match set outBuf (bOffset + bLen) (0x80 + i) with
    | .error e => (.error e, outBuf)
    | .ok b => writeChunks b bOffset (bLen + 1) rest

/-- Bound `toBytes`, bertag.py:61-83. The additions to `outBuf[bOffset]` are done in one store.
A tag whose class or number is `None` gives a `TypeError`: before any store when the class is
`None` (they are only `None` together, after a failed `init`). -/
def toBytes (t : BERTag) (outBuf : List Int) (bOffset : Int) : Res (List Int) Int :=
  match t.tagClass, t.tagNumber with
  | some cls, some num =>
    let first := shl cls 6 + shl (if t.tagConstr then 1 else 0) 5
    if num ≤ 30 then
      match set outBuf bOffset (first + num) with
      | .error e => (.error e, outBuf)
      | .ok b => (.ok 1, sanitycheck b)
    else
      match set outBuf bOffset (first + 0x1f) with
      | .error e => (.error e, outBuf)
      | .ok b =>
        match writeChunks b bOffset 1 (chunks num).reverse with
        | (.error e, b) => (.error e, b)
        | (.ok bLen, b) =>
          match get b (bOffset + bLen - 1) with
          | .error e => (.error e, b)
          | .ok last =>
            match set b (bOffset + bLen - 1) (iand last 0x7f) with
            | .error e => (.error e, b)
            | .ok b => (.ok bLen, sanitycheck b)
  | _, _ => (.error .typeError, outBuf)

/-- Static `toBytes(tagClass, isConstructed, tagNumber, outArray, bOff)`, bertag.py:84-89. -/
def toBytesStatic (tagClass : Int) (isConstructed : Bool) (tagNumber : Int) (outArray : List Int)
    (bOff : Int) : Res (List Int) Int :=
  ((new isConstructed).initNumber tagClass tagNumber).toBytes outArray bOff

/-- Static `size(berTagArray, bOff)`, bertag.py:94-98: out of range is a raw `IndexError`. The
instance is of the base class (no `_tagConstr` before `init`). -/
def sizeStatic (berTagArray : List Int) (bOff : Int) : Except Err Int :=
  match (new false).baseInit berTagArray bOff with
  | (.error e, _) => .error e
  | (.ok (), t) => .ok t.size

/-- Static `isConstructed`, bertag.py:103-106. -/
def isConstructedStatic (berTagArray : List Int) (bOff : Int) : Except Err Bool :=
  (getInstance berTagArray bOff).map (·.tagConstr)

/-- Static `tagClass`, bertag.py:111-114. -/
def tagClassStatic (berTagArray : List Int) (bOff : Int) : Except Err (Option Int) :=
  (getInstance berTagArray bOff).map (·.tagClass)

/-- Static `tagNumber`, bertag.py:119-122. -/
def tagNumberStatic (berTagArray : List Int) (bOff : Int) : Except Err (Option Int) :=
  (getInstance berTagArray bOff).map (·.tagNumber)

/-- `__eq__`, bertag.py:128-131, between two tags (the size is not compared). -/
def eq (a b : BERTag) : Bool :=
  decide (a.tagClass = b.tagClass) && decide (a.tagConstr = b.tagConstr) &&
    decide (a.tagNumber = b.tagNumber)

/-- Python's `'%d' % n`, as characters. -/
def fmtD (n : Int) : List Char := if n < 0 then '-' :: Nat.toDigits 10 n.natAbs else Nat.toDigits 10 n.natAbs

/-- `__str__`, bertag.py:125-126: `'<BERTag: %d%s, %d>'`; formatting `None` is a `TypeError`. -/
def str (t : BERTag) : Except Err (List Char) :=
  match t.tagClass, t.tagNumber with
  | some cls, some num =>
    .ok ("<BERTag: ".toList ++ fmtD cls ++ (if t.tagConstr then ", CONSTR".toList else []) ++ ", ".toList ++ fmtD num ++ ">".toList)
  | _, _ => .error .typeError

end BERTag
end Verif.Model
