import Verif.Model.BERTLV
/-! Tag objects, TLV objects and the caller's arrays by reference: the sharing in /repo/pythoncardx/framework/tlv/bertag.py and bertlv.py.
A TLV object keeps a copy of the tag object it is given (`copy(tag)`, bertlv.py:106, 212) and of the cells of the array it is given (a
slice, bertlv.py:108, 214), but `getTag` (bertlv.py:61-62) hands out the object it keeps. -/
namespace Verif.Model
open Verif.Py

/-- A TLV object, bertlv.py:34-37, with the number of its tag object (`none` is Python `None`). -/
structure TLVRef where
  constructed : Bool
  tag : Option Nat
  length : Int
  value : Option (List Int)
  deriving DecidableEq, Repr

/-- The caller's lists by reference, all tag objects and all TLV objects in the order they were made (objects nobody can reach, such as
the tag of bertlv.py:45 once it is copied, are left out). -/
structure TLVWorld where
  arrays : Nat → List Int
  tags : List BERTag
  tlvs : List TLVRef

namespace TLVWorld

/-- What a call returns: nothing, a number, a tag object, a TLV object. -/
inductive Out where
  | nothing
  | int (n : Int)
  | tag (g : Nat)
  | tlv (k : Nat)
  deriving DecidableEq, Repr

/-- The TLV object `k` with its tag put in place. -/
def view (w : TLVWorld) (k : Nat) : Option BERTLV :=
  (w.tlvs[k]?).map fun t => { constructed := t.constructed, tag := t.tag.bind fun g => w.tags[g]?, length := t.length, value := t.value }

/-- The tag object of the TLV object `k`. -/
def tagOf (w : TLVWorld) (k : Nat) : Option Nat := (w.tlvs[k]?).bind TLVRef.tag

/-- The caller's list `r` replaced. -/
def setArray (w : TLVWorld) (r : Nat) (l : List Int) : TLVWorld := { w with arrays := fun q => if q = r then l else w.arrays q }

/-- A new TLV object, its tag (if it has one) a new object too. -/
def addTLV (w : TLVWorld) (t : BERTLV) : TLVWorld :=
  match t.tag with
  | none => { w with tlvs := w.tlvs ++ [⟨t.constructed, none, t.length, t.value⟩] }
  | some g => { w with tags := w.tags ++ [g], tlvs := w.tlvs ++ [⟨t.constructed, some w.tags.length, t.length, t.value⟩] }

/-- Length and value of the TLV object `k` changed to those of `t`, as `append` and `replaceValue` do. -/
def setTLV (w : TLVWorld) (k : Nat) (t : BERTLV) : TLVWorld :=
  { w with tlvs := w.tlvs.modify k fun x => { x with length := t.length, value := t.value } }

/-- One call of a program, or a change it makes to one of its lists. -/
inductive Step where
  | newTag (constructed : Bool)
  | tagGetInstance (r : Nat) (off : Int)
  | tagInitArray (g r : Nat) (off : Int)
  | tagInitNumber (g : Nat) (tagClass tagNumber : Int)
  | tagToBytes (g r : Nat) (off : Int)
  | newTLV (constructed : Bool)
  | getInstance (r : Nat) (off : Int) (len : Option Int)
  | init (k g r : Nat) (off len : Int)
  | initArray (k r : Nat) (off len : Int)
  | getTag (k : Nat)
  | append (k j : Nat)
  | appendStatic (r : Nat) (off : Int) (r' : Nat) (off' : Int)
  | find (k : Nat) (g : Option Nat)
  | findNext (k : Nat) (g : Option Nat) (j : Nat) (n : Int)
  | getValue (k r : Nat) (off : Int)
  | replaceValue (k r : Nat) (off len : Int)
  | toBytes (k r : Nat) (off : Int)
  | write (r : Nat) (l : List Int)
  deriving DecidableEq, Repr

/-- The argument `tag` of `find` and `findNext`: `None` or a tag object; the outer `none` when there is no such object. -/
def tagArg (w : TLVWorld) : Option Nat → Option (Option BERTag)
  | none => some none
  | some g => (w.tags[g]?).map some

/-- The end of `find` and `findNext`: `None`, or a TLV object made from the bytes found (bertlv.py:146, 150, 181, 184). -/
def found (w : TLVWorld) : Except Err (Option BERTLV) → Res TLVWorld Out
  | .error e => (.error e, w)
  | .ok none => (.ok .nothing, w)
  | .ok (some t) => (.ok (.tlv w.tlvs.length), w.addTLV t)

/-- One step, the functions of bertag.py and bertlv.py applied to the objects named; `none` when a search does not end within `fuel`
iterations. A step on an object that does not exist (no program has a variable for it) is a NameError. -/
def step (fuel : Nat) (w : TLVWorld) : Step → Option (Res TLVWorld Out)
  | .newTag c => some (.ok (.tag w.tags.length), { w with tags := w.tags ++ [BERTag.new c] })
  | .tagGetInstance r off => match BERTag.getInstance (w.arrays r) off with
    | .error e => some (.error e, w)
    | .ok g => some (.ok (.tag w.tags.length), { w with tags := w.tags ++ [g] })
  | .tagInitArray g r off => match w.tags[g]? with
    | none => some (.error .nameError, w)
    | some t => some ((t.initArray (w.arrays r) off).1.map fun _ => .nothing, { w with tags := w.tags.set g (t.initArray (w.arrays r) off).2 })
  | .tagInitNumber g cls num => match w.tags[g]? with
    | none => some (.error .nameError, w)
    | some t => some (.ok .nothing, { w with tags := w.tags.set g (t.initNumber cls num) })
  | .tagToBytes g r off => match w.tags[g]? with
    | none => some (.error .nameError, w)
    | some t => some ((t.toBytes (w.arrays r) off).1.map .int, w.setArray r (t.toBytes (w.arrays r) off).2)
  | .newTLV c => some (.ok (.tlv w.tlvs.length), w.addTLV (BERTLV.new c))
  | .getInstance r off len => match BERTLV.getInstance (w.arrays r) off len with
    | .error e => some (.error e, w)
    | .ok t => some (.ok (.tlv w.tlvs.length), w.addTLV t)
  | .init k g r off len => match w.view k, w.tags[g]? with
    | some t, some tag =>
      some ((t.initTag tag (w.arrays r) off len).size.map .int,
        { w with
          tags := w.tags ++ [tag]
          tlvs := w.tlvs.set k ⟨t.constructed, some w.tags.length, (t.initTag tag (w.arrays r) off len).length, (t.initTag tag (w.arrays r) off len).value⟩ })
    | _, _ => some (.error .nameError, w)
  | .initArray k r off len => match w.view k with
    | none => some (.error .nameError, w)
    | some t => some ((t.initArray (w.arrays r) off len).1.map .int, w.setTLV k (t.initArray (w.arrays r) off len).2)
  | .getTag k => match w.tlvs[k]? with
    | none => some (.error .nameError, w)
    | some t => some (.ok (t.tag.elim .nothing .tag), w)
  | .append k j => match w.view k, w.view j with
    | some t, some a => some ((t.append a).1.map .int, w.setTLV k (t.append a).2)
    | _, _ => some (.error .nameError, w)
  | .appendStatic r off r' off' =>
    some ((BERTLV.appendStatic (w.arrays r) off (w.arrays r') off').1.map .int,
      w.setArray r' (BERTLV.appendStatic (w.arrays r) off (w.arrays r') off').2)
  | .find k g => match w.view k, w.tagArg g with
    | some t, some tag => (t.find tag fuel).map w.found
    | _, _ => some (.error .nameError, w)
  | .findNext k g j n => match w.view k, w.tagArg g, w.view j with
    | some t, some tag, some a => (t.findNext tag a n fuel).map w.found
    | _, _, _ => some (.error .nameError, w)
  | .getValue k r off => match w.view k with
    | none => some (.error .nameError, w)
    | some t => some ((t.getValue (w.arrays r) off).1.map .int, w.setArray r (t.getValue (w.arrays r) off).2)
  | .replaceValue k r off len => match w.view k with
    | none => some (.error .nameError, w)
    | some t => some ((t.replaceValue (w.arrays r) off len).1.map fun _ => .nothing, w.setTLV k (t.replaceValue (w.arrays r) off len).2)
  | .toBytes k r off => match w.view k with
    | none => some (.error .nameError, w)
    | some t => some ((t.toBytes (w.arrays r) off).1.map .int, w.setArray r (t.toBytes (w.arrays r) off).2)
  | .write r l => some (.ok .nothing, w.setArray r l)

/-- The world after a program, whatever its steps raised; `none` when one of them does not return. -/
def run (fuel : Nat) (w : TLVWorld) : List Step → Option TLVWorld
  | [] => some w
  | s :: ss => match w.step fuel s with
    | none => none
    | some (_, w) => run fuel w ss

/-- No tag or TLV objects yet. -/
def start (arrays : Nat → List Int) : TLVWorld := ⟨arrays, [], []⟩

end TLVWorld
end Verif.Model
