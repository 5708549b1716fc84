import Verif.Model.BERTag
import Verif.Model.Util
/-! Model of /repo/pythoncardx/framework/tlv/bertlv.py.

Loops whose termination the code does not guarantee (`_find` and the loop of `findNext`) take a
number of iterations as fuel and return `none` when it is used up. -/
namespace Verif.Model
open Verif.Py

/-- `_getLength`, bertlv.py:13-24: `(length, value)`. -/
def getLengthField (bArray : List Int) : Except Err (Int × Int) :=
  match get bArray 0 with
  | .error e => .error e
  | .ok b =>
    if iand b 0x80 = 0x80 then
      let length := iand b 0x7f
      .ok (length, (slice bArray 1 (length + 1)).reverse.foldl (fun value i => shl value 8 + i) 0)
    else .ok (1, b)

/-- `getLengthLen`, bertlv.py:26-31. -/
def getLengthLen (length : Int) : Int := if length > 127 then length / 127 + 1 else 1

/-- A TLV object, bertlv.py:34-37; `constructed` tells `ConstructedBERTLV` from
`PrimitiveBERTLV`; `none` is Python `None` (before `init`). -/
structure BERTLV where
  constructed : Bool
  tag : Option BERTag
  length : Int
  value : Option (List Int)
  deriving DecidableEq, Repr

namespace BERTLV

/-- `ConstructedBERTLV(n)` / `PrimitiveBERTLV(n)`, bertlv.py:34-37, 99-100, 205-206. -/
def new (constructed : Bool) : BERTLV :=
  { constructed := constructed, tag := none, length := 0, value := none }

/-- `size`, bertlv.py:74-75. -/
def size (t : BERTLV) : Except Err Int :=
  match t.tag with
  | none => .error .attributeError
  | some tag => .ok (tag.size + getLengthLen t.length + t.length)

/-- `init(tag, vArray, vOff, vLen)`, bertlv.py:102-109 and 208-215. -/
def initTag (t : BERTLV) (tag : BERTag) (vArray : List Int) (vOff vLen : Int) : BERTLV :=
  { t with tag := some tag, length := vLen, value := some (slice vArray vOff (vOff + vLen)) }

/-- Static `getLength`, bertlv.py:66-71. -/
def getLengthStatic (berTLVArray : List Int) (bOff : Int) : Except Err Int := do
  let tag ← BERTag.getInstance berTLVArray bOff
  let lenOff := bOff + tag.size
  let (llen, length) ← getLengthField (sliceFrom berTLVArray lenOff)
  return tag.size + llen + length

/-- `BERTLV.getInstance`, bertlv.py:39-54 (`bLen = none` is Python `None`). -/
def getInstance (bArray : List Int) (bOff : Int) (bLen : Option Int) : Except Err BERTLV := do
  let bLen ← match bLen with
    | none => getLengthStatic bArray bOff
    | some n => pure n
  let tag ← BERTag.getInstance bArray bOff
  let bOff := bOff + tag.size
  let (l, _) ← getLengthField (sliceFrom bArray bOff)
  return (new tag.tagConstr).initTag tag bArray (bOff + l) (bLen - tag.size - l)

/-- `init(bArray, bOff, bLen)` on a TLV object, bertlv.py:56-59 through 110-113 and 216-219:
the local name `self` is rebound, so the object itself (second component) does not change. -/
def initArray (t : BERTLV) (bArray : List Int) (bOff bLen : Int) : Res BERTLV Int :=
  match getInstance bArray bOff (some bLen) with
  | .error e => (.error e, t)
  | .ok self => (self.size, t)

/-- `toBytes`, bertlv.py:77-96. For a length above 127 the undefined name `chunk` on line 85 is
a `NameError` (after the tag has been written; the loop before it terminates and has no effect
on the buffer). -/
def toBytes (t : BERTLV) (outBuf : List Int) (bOff : Int) : Res (List Int) Int :=
  match t.tag with
  | none => (.error .attributeError, outBuf)
  | some tag =>
    match tag.toBytes outBuf bOff with
    | (.error e, b) => (.error e, b)
    | (.ok bLen, b) =>
      if t.length > 127 then (.error .nameError, b)
      else
        match set b (bOff + bLen) t.length with
        | .error e => (.error e, b)
        | .ok b =>
          let bLen := bLen + 1
          match Util.arrayCopy (t.value.getD []) 0 b (bOff + bLen) t.length with
          | (.error e, b) => (.error e, b)
          | (.ok (), b) => (.ok (bLen + t.length), b)

/-- Bound `append`, bertlv.py:115-120 (`ConstructedBERTLV` only; on a primitive TLV the attribute
does not exist). Before `init` there is no value list to extend. -/
def append (t aTLV : BERTLV) : Res BERTLV Int :=
  if ¬ t.constructed then (.error .attributeError, t)
  else
    match aTLV.size with
    | .error e => (.error e, t)
    | .ok n =>
      match aTLV.toBytes (fresh n 0) 0 with
      | (.error e, _) => (.error e, t)
      | (.ok _, array) =>
        match t.value with
        | none => (.error .attributeError, t)
        | some v =>
          let t := { t with value := some (v ++ array), length := t.length + n }
          (t.size, t)

/-- Static `append`, bertlv.py:121-128: the result is written back over the out array. -/
def appendStatic (berTLVInArray : List Int) (bTLVInOff : Int) (berTLVOutArray : List Int)
    (bTLVOutOff : Int) : Res (List Int) Int :=
  match getInstance berTLVInArray bTLVInOff none with
  | .error e => (.error e, berTLVOutArray)
  | .ok intlv =>
    match getInstance berTLVOutArray bTLVOutOff none with
    | .error e => (.error e, berTLVOutArray)
    | .ok outtlv =>
      match outtlv.append intlv with
      | (.error e, _) => (.error e, berTLVOutArray)
      | (.ok _, outtlv) => outtlv.toBytes berTLVOutArray bTLVOutOff

/-- `_find`, bertlv.py:131-138, with at most `fuel` iterations. Comparing a tag with `None`
(`tag = none`) is an `AttributeError` (bertag.py:129-130). -/
def find_ (t : BERTLV) (tag : Option BERTag) (offset : Int) : Nat → Option (Except Err Int)
  | 0 => none
  | fuel + 1 =>
    if offset < t.length then
      match getInstance (t.value.getD []) offset none with
      | .error e => some (.error e)
      | .ok tlv =>
        match tlv.tag, tag with
        | some a, some b =>
          if a.eq b then some (.ok offset)
          else
            match tlv.size with
            | .error e => some (.error e)
            | .ok n => find_ t tag (offset + n) fuel
        | _, _ => some (.error .attributeError)
    else some (.ok (-1))

/-- Bound `find`, bertlv.py:140-150 (`ConstructedBERTLV` only; on a primitive TLV the attribute does
not exist). -/
def find (t : BERTLV) (tag : Option BERTag) (fuel : Nat) : Option (Except Err (Option BERTLV)) :=
  if ¬ t.constructed then some (.error .attributeError) else
  match tag with
  | none =>
    if t.length > 0 then some ((getInstance (t.value.getD []) 0 none).map some)
    else some (.ok none)
  | some tag =>
    match t.find_ (some tag) 0 fuel with
    | none => none
    | some (.error e) => some (.error e)
    | some (.ok offset) =>
      if offset = -1 then some (.ok none)
      else some ((getInstance (t.value.getD []) offset none).map some)

/-- Static `find`, bertlv.py:151-164. `_find` does not exist on a primitive TLV. -/
def findStatic (berTLVArray : List Int) (bTLVOff : Int) (berTagArray : Option (List Int))
    (bTagOff : Int) (fuel : Nat) : Option (Except Err Int) :=
  match getInstance berTLVArray bTLVOff none with
  | .error e => some (.error e)
  | .ok tlv =>
    match tlv.tag with
    | none => some (.error .attributeError)
    | some tag =>
      let firstOff := bTLVOff + tag.size + getLengthLen tlv.length
      match berTagArray with
      | none => if tlv.length > 0 then some (.ok firstOff) else some (.ok (-1))
      | some ta =>
        if ¬ tlv.constructed then some (.error .attributeError)
        else
          match BERTag.getInstance ta bTagOff with
          | .error e => some (.error e)
          | .ok wanted =>
            match tlv.find_ (some wanted) 0 fuel with
            | none => none
            | some (.error e) => some (.error e)
            | some (.ok offset) =>
              if offset = -1 then some (.ok (-1)) else some (.ok (firstOff + offset))

/-- The counting loop of `findNext`, bertlv.py:168-178, from `i` and `offset`: the offset reached,
inner `none` when `_find` found nothing (`return None`, lines 173-174). -/
def skipLoop (t : BERTLV) (tlvtag : Option BERTag) (aValue : Option (List Int)) (occurrenceNum : Int)
    (i : Int) (offset : Int) (findFuel : Nat) : Nat → Option (Except Err (Option Int))
  | 0 => none
  | fuel + 1 =>
    if i < occurrenceNum then
      match t.find_ tlvtag offset findFuel with
      | none => none
      | some (.error e) => some (.error e)
      | some (.ok offset) =>
        if offset = -1 then some (.ok none)
        else
          match getInstance (t.value.getD []) offset none with
          | .error e => some (.error e)
          | .ok tlv =>
            match tlv.size with
            | .error e => some (.error e)
            | .ok n =>
              skipLoop t tlvtag aValue occurrenceNum (if tlv.value = aValue then i + 1 else i)
                (offset + n) findFuel fuel
    else some (.ok (some offset))

/-- Bound `findNext`, bertlv.py:167-184 (`ConstructedBERTLV` only); `fuel` bounds the iterations of
every loop. On a TLV that was never initialised the value is None, which has no cells (TypeError); everywhere else in this file the value is
read only when the length is positive, and then there is one. -/
def findNext (t : BERTLV) (tag : Option BERTag) (aTLV : BERTLV) (occurrenceNum : Int) (fuel : Nat) :
    Option (Except Err (Option BERTLV)) :=
  if ¬ t.constructed then some (.error .attributeError) else
  match t.skipLoop aTLV.tag aTLV.value occurrenceNum 0 0 fuel fuel with
  | none => none
  | some (.error e) => some (.error e)
  | some (.ok none) => some (.ok none)
  | some (.ok (some offset)) =>
    match tag with
    | none =>
      match t.value with
      | none => some (.error .typeError)
      | some v => some ((getInstance v offset none).map some)
    | some tag =>
      match t.find_ (some tag) offset fuel with
      | none => none
      | some (.error e) => some (.error e)
      | some (.ok res) =>
        if res = -1 then some (.ok none)
        else some ((getInstance (t.value.getD []) res none).map some)

/-- The alignment loop of static `findNext`, bertlv.py:189-193: `_find(None, …)` either raises or
returns `-1`, so the loop body runs at most once; result: `-1` (returned at once) or `0`.
`tlv._find` does not exist on a primitive TLV. -/
def alignLoop (tlv : BERTLV) (firstOff startOffset : Int) : Except Err Int :=
  if firstOff + 0 < startOffset then
    if ¬ tlv.constructed then .error .attributeError
    else
      match tlv.find_ none 0 1 with
      | some (.error e) => .error e
      | some (.ok r) => .ok r
      | none => .error .attributeError      -- unreachable: one iteration always decides
  else .ok 0

/-- Static `findNext`, bertlv.py:185-201: line 195 uses the undefined name `startOff`. -/
def findNextStatic (berTLVArray : List Int) (bTLVOff startOffset : Int)
    (_berTagArray : Option (List Int)) (_bTagOff : Int) : Except Err Int :=
  match getInstance berTLVArray bTLVOff none with
  | .error e => .error e
  | .ok tlv =>
    match tlv.tag with
    | none => .error .attributeError
    | some tag =>
      let firstOff := bTLVOff + tag.size + getLengthLen tlv.length
      match alignLoop tlv firstOff startOffset with
      | .error e => .error e
      | .ok c =>
        if c = -1 then .ok (-1)
        else if ¬ tlv.constructed then .error .attributeError
        else .error .nameError

/-- `PrimitiveBERTLV.getValueOffset`, bertlv.py:221-224. -/
def getValueOffset (berTLVArray : List Int) (bTLVOff : Int) : Except Err Int :=
  match getInstance berTLVArray bTLVOff none with
  | .error e => .error e
  | .ok tlv =>
    match tlv.tag with
    | none => .error .attributeError
    | some tag => .ok (bTLVOff + tag.size + getLengthLen tlv.length)

/-- `PrimitiveBERTLV.getValue`, bertlv.py:226-228: outcome and destination (a constructed TLV has no
such attribute). -/
def getValue (t : BERTLV) (tlvValue : List Int) (tOff : Int) : Res (List Int) Int :=
  if t.constructed then (.error .attributeError, tlvValue) else
  match Util.arrayCopy (t.value.getD []) 0 tlvValue tOff t.length with
  | (.error e, l) => (.error e, l)
  | (.ok (), l) => (.ok t.length, l)

/-- `PrimitiveBERTLV.replaceValue`, bertlv.py:230-233: when the copy fails the value has already
been replaced but the length has not (a constructed TLV has no such attribute). -/
def replaceValue (t : BERTLV) (vArray : List Int) (vOff vLen : Int) : Res BERTLV Unit :=
  if t.constructed then (.error .attributeError, t) else
  match Util.arrayCopy vArray vOff (fresh vLen 0) 0 vLen with
  | (.error e, l) => (.error e, { t with value := some l })
  | (.ok (), l) => (.ok (), { t with value := some l, length := vLen })

end BERTLV
end Verif.Model
