import Verif.Model.AID
import Verif.Model.BERTag
import Verif.Model.BigNumber
/-! Objects of the package under Python's own operations: `==`, `!=`, `in`, `index`, `count`, `remove` on lists of them, and their use as keys of a dictionary,
under Python 2 and Python 3; and the operations of a `BigNumber` that was never initialised under Python 2.

`AID` (/repo/pythoncard/framework/aid.py:3-43) and `BERTag` (/repo/pythoncardx/framework/tlv/bertag.py:15-131) are subclasses of `object` that define `__eq__`
(aid.py:42-43, bertag.py:128-131) and neither `__ne__` nor `__hash__`. The rest is Python's data model, not code of the package:

* Python 3 takes the negation of `__eq__` for `!=` and sets `__hash__` to `None` in such a class, so that hashing an object raises TypeError;
* Python 2 compares the addresses of the objects for `!=`, and hashes an object by its address;
* operations on lists and dictionaries take an object to be equal to itself without calling `__eq__`. -/
namespace Verif.Model.Objects
open Verif.Py Verif.Model

/-- A reference to an object by its address, or Python's `None` (Lean's `none`). -/
abbrev Ref := Option Nat

variable {α : Type}

/-- `x == y`. `eq` is the class's `__eq__` on the contents of two objects of the class, `h` gives the content of the object at each address. `__eq__` reads the
attributes of the other object whatever it is (aid.py:43, bertag.py:129), so comparing with `None`, on either side, raises AttributeError. -/
def eqOp (eq : α → α → Bool) (h : Nat → α) : Ref → Ref → Except Err Bool
  | none, none => .ok true
  | some a, some b => .ok (eq (h a) (h b))
  | _, _ => .error .attributeError

/-- `x != y`: the negation of `==` under Python 3, a comparison of addresses under Python 2. -/
def neOp (py3 : Bool) (eq : α → α → Bool) (h : Nat → α) (x y : Ref) : Except Err Bool :=
  if py3 then (eqOp eq h x y).map (fun b => !b) else .ok (decide (x ≠ y))

/-- The comparison lists make: an object is equal to itself; other objects are compared with `==`. -/
def cellEq (eq : α → α → Bool) (h : Nat → α) (x y : Ref) : Except Err Bool :=
  if x = y then .ok true else eqOp eq h x y

/-- `l.index(x)`, from position `i`: the first place of the list that compares equal; ValueError when there is none. -/
def indexFrom (eq : α → α → Bool) (h : Nat → α) (x : Ref) : Nat → List Ref → Except Err Nat
  | _, [] => .error .valueError
  | i, y :: l =>
    match cellEq eq h x y with
    | .error e => .error e
    | .ok true => .ok i
    | .ok false => indexFrom eq h x (i + 1) l

/-- `x in l`. -/
def isIn (eq : α → α → Bool) (h : Nat → α) (x : Ref) : List Ref → Except Err Bool
  | [] => .ok false
  | y :: l =>
    match cellEq eq h x y with
    | .error e => .error e
    | .ok true => .ok true
    | .ok false => isIn eq h x l

/-- `l.count(x)`. -/
def count (eq : α → α → Bool) (h : Nat → α) (x : Ref) : List Ref → Except Err Nat
  | [] => .ok 0
  | y :: l =>
    match cellEq eq h x y with
    | .error e => .error e
    | .ok b => (count eq h x l).map (fun n => if b then n + 1 else n)

/-- `l.remove(x)`: outcome and the list afterwards; the first place that compares equal is removed, ValueError when there is none. -/
def remove (eq : α → α → Bool) (h : Nat → α) (x : Ref) (l : List Ref) : Res (List Ref) Unit :=
  match indexFrom eq h x 0 l with
  | .error e => (.error e, l)
  | .ok i => (.ok (), l.eraseIdx i)

/-- A dictionary whose keys are objects of the class: its entries, a key's hash value being stored with the key when the entry is made. -/
abbrev Dict (β : Type) := List (Int × Nat × β)

/-- Does an entry stand for the key `x`? The hash values agree, and the key is `x` itself or compares equal. -/
def matchesKey (eq : α → α → Bool) (h : Nat → α) (hash : Nat → Int) (x : Nat) {β : Type} (e : Int × Nat × β) : Bool :=
  decide (e.1 = hash x) && (decide (e.2.1 = x) || eq (h e.2.1) (h x))

/-- One operation on a dictionary keyed by objects (`d[x] = v`, `del d[x]`), or anything else the program does, which may change the content of the objects. -/
inductive DictOp (α β : Type) where
  | put (x : Nat) (v : β)
  | del (x : Nat)
  | other (h : Nat → α)

/-- `d[x] = v`: the value of the entry that stands for `x` is replaced, the key in it stays; without such an entry a new one is made. Python 3 raises TypeError. -/
def putItem {β : Type} (py3 : Bool) (eq : α → α → Bool) (h : Nat → α) (hash : Nat → Int) (d : Dict β) (x : Nat) (v : β) : Res (Dict β) Unit :=
  if py3 then (.error .typeError, d)
  else if d.any (matchesKey eq h hash x) then (.ok (), d.map (fun e => if matchesKey eq h hash x e then (e.1, e.2.1, v) else e))
  else (.ok (), d ++ [(hash x, x, v)])

/-- `del d[x]`: KeyError when no entry stands for `x`. Python 3 raises TypeError. -/
def delItem {β : Type} (py3 : Bool) (eq : α → α → Bool) (h : Nat → α) (hash : Nat → Int) (d : Dict β) (x : Nat) : Res (Dict β) Unit :=
  if py3 then (.error .typeError, d)
  else if d.any (matchesKey eq h hash x) then (.ok (), d.filter (fun e => !matchesKey eq h hash x e))
  else (.error .keyError, d)

/-- `d[x]`. -/
def getItem {β : Type} (py3 : Bool) (eq : α → α → Bool) (h : Nat → α) (hash : Nat → Int) (d : Dict β) (x : Nat) : Except Err β :=
  if py3 then .error .typeError
  else match d.find? (matchesKey eq h hash x) with
    | some e => .ok e.2.2
    | none => .error .keyError

/-- `x in d`. -/
def hasKey {β : Type} (py3 : Bool) (eq : α → α → Bool) (h : Nat → α) (hash : Nat → Int) (d : Dict β) (x : Nat) : Except Err Bool :=
  if py3 then .error .typeError else .ok (d.any (matchesKey eq h hash x))

/-- A history of operations; a refused one leaves the dictionary as it was, and the program goes on. -/
def dictRun {β : Type} (py3 : Bool) (eq : α → α → Bool) (hash : Nat → Int) (s : (Nat → α) × Dict β) (ops : List (DictOp α β)) : (Nat → α) × Dict β :=
  ops.foldl (fun s op => match op with
    | .put x v => (s.1, (putItem py3 eq s.1 hash s.2 x v).2)
    | .del x => (s.1, (delItem py3 eq s.1 hash s.2 x).2)
    | .other h => (h, s.2)) s

/-- `BigNumber.compareTo` with a `BigNumber`, math.py:87-95, under Python 2, where `None` is less than every number. -/
def compareTo2 (x y : BigNumber) : Int :=
  if x.value = y.value then 0
  else match x.value, y.value with
    | some a, some b => if a > b then 1 else -1
    | some _, none => 1
    | none, _ => -1

/-- `BigNumber.compareTo` with an array, math.py:96-101, under Python 2. -/
def compareToArray2 (x : BigNumber) (bArray : Option (List Int)) (bOff bLen fmt : Int) : Except Err Int :=
  match BigNumber.operand bArray bOff bLen fmt with
  | .error e => .error e
  | .ok v => .ok (compareTo2 x ⟨none, some v⟩)

/-- `BigNumber.toBytes`, math.py:103-121, under Python 2: `None > 0` is false, so the loops are not entered. -/
def toBytes2 (x : BigNumber) (outBuf : List Int) (bOff numBytes arrayFormat : Int) : Res (List Int) Unit :=
  if arrayFormat = BigNumber.FORMAT_BCD ∨ arrayFormat = BigNumber.FORMAT_HEX then
    let array := match x.value with
      | none => []
      | some value => if arrayFormat = BigNumber.FORMAT_BCD then BigNumber.digits 100 toBcd value else BigNumber.digits (2 ^ 8) toHex value
    if numBytes < array.length then (.error .arithmetic, outBuf)
    else Util.arrayCopy (array ++ fresh (numBytes - array.length) 0).reverse 0 outBuf bOff numBytes
  else (.error .arithmetic, outBuf)

end Verif.Model.Objects
