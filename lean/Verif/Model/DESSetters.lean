import Verif.Model.DES
/-! Model of the setters and getters of the pyDes objects (/repo/pyDes/pyDes.py), with the key they remember. -/
namespace Verif.Model
open Verif.Py

namespace PyDes

/-- A `des` object with the key of `getKey`, pyDes.py:126-133, 397-414. -/
structure PDes where
  key : List Nat
  des : Des
  deriving DecidableEq, Repr

/-- `des.__init__`, pyDes.py:397-409. -/
def PDes.new (key : List Nat) (mode : Nat) (iv : List Nat) (pad : Option Nat) (padmode : Nat) : Except Err PDes :=
  match Des.new key mode iv pad padmode with
  | .error e => .error e
  | .ok d => .ok ⟨key, d⟩

/-- `des.setKey`, pyDes.py:411-414 and 130-133, 460-484: the length is not checked; the key is stored first, and the permutation
PC-1 raises IndexError when there are fewer than 64 bits, leaving the subkeys as they were. -/
def PDes.setKey (o : PDes) (key : List Nat) : Except Err Unit × PDes :=
  if key.length < 8 then (.error .indexError, ⟨key, o.des⟩)
  else (.ok (), ⟨key, ⟨o.des.base, createSubKeys key⟩⟩)

/-- `setMode`, pyDes.py:139-141. -/
def PDes.setMode (o : PDes) (mode : Nat) : PDes :=
  ⟨o.key, ⟨⟨mode, o.des.base.iv, o.des.base.padding, o.des.base.padmode⟩, o.des.Kn⟩⟩

/-- `setPadding`, pyDes.py:147-151. -/
def PDes.setPadding (o : PDes) (pad : Option Nat) : PDes :=
  ⟨o.key, ⟨⟨o.des.base.mode, o.des.base.iv, pad, o.des.base.padmode⟩, o.des.Kn⟩⟩

/-- `setPadMode`, pyDes.py:157-159. -/
def PDes.setPadMode (o : PDes) (padmode : Nat) : PDes :=
  ⟨o.key, ⟨⟨o.des.base.mode, o.des.base.iv, o.des.base.padding, padmode⟩, o.des.Kn⟩⟩

/-- `setIV`, pyDes.py:165-170. -/
def PDes.setIV (o : PDes) (iv : List Nat) : Except Err Unit × PDes :=
  match o.des.setIV iv with
  | .error e => (.error e, o)
  | .ok d => (.ok (), ⟨o.key, d⟩)

/-- `getKey`, pyDes.py:126-128. -/
def PDes.getKey (o : PDes) : List Nat := o.key
/-- `getMode`, pyDes.py:135-137. -/
def PDes.getMode (o : PDes) : Nat := o.des.base.mode
/-- `getPadding`, pyDes.py:143-145 (`none`: no pad character). -/
def PDes.getPadding (o : PDes) : Option Nat := o.des.base.padding
/-- `getPadMode`, pyDes.py:153-155. -/
def PDes.getPadMode (o : PDes) : Nat := o.des.base.padmode
/-- `getIV`, pyDes.py:161-163 (`[]`: no IV). -/
def PDes.getIV (o : PDes) : List Nat := o.des.base.iv

/-- The calls that can be made on a pyDes object. -/
inductive Call
  | setKey (key : List Nat)
  | setMode (mode : Nat)
  | setPadding (pad : Option Nat)
  | setPadMode (padmode : Nat)
  | setIV (iv : List Nat)
  | encrypt (data : List Nat) (pad padmode : Option Nat)
  | decrypt (data : List Nat) (pad padmode : Option Nat)
  deriving DecidableEq, Repr

/-- One call on a `des` object: what it returns (nothing for a setter) or raises, and the object afterwards. -/
def PDes.call (o : PDes) : Call → Except Err (List Nat) × PDes
  | .setKey k => match o.setKey k with
    | (.error e, o) => (.error e, o)
    | (.ok _, o) => (.ok [], o)
  | .setMode m => (.ok [], o.setMode m)
  | .setPadding p => (.ok [], o.setPadding p)
  | .setPadMode m => (.ok [], o.setPadMode m)
  | .setIV iv => match o.setIV iv with
    | (.error e, o) => (.error e, o)
    | (.ok _, o) => (.ok [], o)
  | .encrypt m pad padmode => (o.des.encrypt m pad padmode, o)
  | .decrypt m pad padmode => (o.des.decrypt m pad padmode, o)

/-- The object after a sequence of calls, whatever they raised. -/
def PDes.run (o : PDes) : List Call → PDes
  | [] => o
  | c :: cs => (o.call c).2.run cs

/-- A `triple_des` object with the key of `getKey`, pyDes.py:708-736. -/
structure PTriple where
  key : List Nat
  t : Triple
  deriving DecidableEq, Repr

/-- `triple_des.__init__`, pyDes.py:708-710. -/
def PTriple.new (key : List Nat) (mode : Nat) (iv : List Nat) (pad : Option Nat) (padmode : Nat) : Except Err PTriple :=
  match Triple.new key mode iv pad padmode with
  | .error e => .error e
  | .ok t => .ok ⟨key, t⟩

/-- `getKey` of a `triple_des` object, pyDes.py:126-128. -/
def PTriple.getKey (o : PTriple) : List Nat := o.key
/-- `getMode`, pyDes.py:135-137. -/
def PTriple.getMode (o : PTriple) : Nat := o.t.base.mode
/-- `getPadding`, pyDes.py:143-145. -/
def PTriple.getPadding (o : PTriple) : Option Nat := o.t.base.padding
/-- `getPadMode`, pyDes.py:153-155. -/
def PTriple.getPadMode (o : PTriple) : Nat := o.t.base.padmode
/-- `getIV`, pyDes.py:161-163. -/
def PTriple.getIV (o : PTriple) : List Nat := o.t.base.iv

/-- The IV stored by `triple_des.setKey` before the inner objects are made, pyDes.py:720-725. -/
def Base.defaultIV (b : Base) (key : List Nat) : Base :=
  if b.mode = CBC ∧ b.iv = [] then ⟨b.mode, key.take 8, b.padding, b.padmode⟩ else b

/-- `triple_des.setKey`, pyDes.py:712-736. A wrong length leaves the object as it was (up to the attribute `key_size`); when the
inner objects cannot be made (a pad character is set together with PKCS5) the first of them already raises, and the default IV
has been stored. -/
def PTriple.setKey (o : PTriple) (key : List Nat) : Except Err Unit × PTriple :=
  if key.length ≠ 24 ∧ key.length ≠ 16 then (.error .valueError, o)
  else match Triple.ofBase o.t.base key with
    | .error e => (.error e, ⟨o.key, ⟨o.t.base.defaultIV key, o.t.key1, o.t.key2, o.t.key3⟩⟩)
    | .ok t => (.ok (), ⟨key, t⟩)

/-- The same change made to the base and to the three inner objects, pyDes.py:739-761 (with a 16-byte key the third is the first,
and is changed twice to the same value). -/
def Triple.setAll (t : Triple) (f : Base → Base) : Triple :=
  ⟨f t.base, ⟨f t.key1.base, t.key1.Kn⟩, ⟨f t.key2.base, t.key2.Kn⟩, ⟨f t.key3.base, t.key3.Kn⟩⟩

/-- `triple_des.setMode`, pyDes.py:739-743. -/
def Triple.setMode (t : Triple) (mode : Nat) : Triple := t.setAll fun b => ⟨mode, b.iv, b.padding, b.padmode⟩

/-- `triple_des.setPadding`, pyDes.py:745-749. -/
def Triple.setPadding (t : Triple) (pad : Option Nat) : Triple := t.setAll fun b => ⟨b.mode, b.iv, pad, b.padmode⟩

/-- `triple_des.setPadMode`, pyDes.py:751-755. -/
def Triple.setPadMode (t : Triple) (padmode : Nat) : Triple := t.setAll fun b => ⟨b.mode, b.iv, b.padding, padmode⟩

/-- `triple_des.setIV`, pyDes.py:757-761. -/
def Triple.setIV (t : Triple) (iv : List Nat) : Except Err Triple :=
  match t.base.setIV iv with
  | .error e => .error e
  | .ok b => (⟨b, t.key1, t.key2, t.key3⟩ : Triple).setIVs iv

/-- The object `t` with some IVs in the inner objects. A failing `encrypt` or `decrypt` leaves the inner IVs of the last block
processed; which ones is left open here. -/
def Triple.SameButIVs (t t' : Triple) : Prop :=
  ∃ v1 v2 v3, t' = ⟨t.base, ⟨⟨t.key1.base.mode, v1, t.key1.base.padding, t.key1.base.padmode⟩, t.key1.Kn⟩,
    ⟨⟨t.key2.base.mode, v2, t.key2.base.padding, t.key2.base.padmode⟩, t.key2.Kn⟩,
    ⟨⟨t.key3.base.mode, v3, t.key3.base.padding, t.key3.base.padmode⟩, t.key3.Kn⟩⟩

/-- One call on a `triple_des` object, as a relation: object, call, what it returns or raises, object afterwards. -/
inductive PTriple.Call : PTriple → PyDes.Call → Except Err (List Nat) → PTriple → Prop
  | setKey {o k o'} : o.setKey k = (.ok (), o') → Call o (.setKey k) (.ok []) o'
  | setKeyFails {o k e o'} : o.setKey k = (.error e, o') → Call o (.setKey k) (.error e) o'
  | setMode {o m} : Call o (.setMode m) (.ok []) ⟨o.key, o.t.setMode m⟩
  | setPadding {o p} : Call o (.setPadding p) (.ok []) ⟨o.key, o.t.setPadding p⟩
  | setPadMode {o m} : Call o (.setPadMode m) (.ok []) ⟨o.key, o.t.setPadMode m⟩
  | setIV {o iv t} : o.t.setIV iv = .ok t → Call o (.setIV iv) (.ok []) ⟨o.key, t⟩
  | setIVFails {o iv e} : o.t.setIV iv = .error e → Call o (.setIV iv) (.error e) o
  | encrypt {o m pad padmode r t} : o.t.encrypt m pad padmode = .ok (r, t) → Call o (.encrypt m pad padmode) (.ok r) ⟨o.key, t⟩
  | encryptFails {o m pad padmode e t} : o.t.encrypt m pad padmode = .error e → o.t.SameButIVs t →
      Call o (.encrypt m pad padmode) (.error e) ⟨o.key, t⟩
  | decrypt {o m pad padmode r t} : o.t.decrypt m pad padmode = .ok (r, t) → Call o (.decrypt m pad padmode) (.ok r) ⟨o.key, t⟩
  | decryptFails {o m pad padmode e t} : o.t.decrypt m pad padmode = .error e → o.t.SameButIVs t →
      Call o (.decrypt m pad padmode) (.error e) ⟨o.key, t⟩

/-- The objects reachable by a sequence of calls. -/
inductive PTriple.Run (o0 : PTriple) : List PyDes.Call → PTriple → Prop
  | nil : Run o0 [] o0
  | snoc {cs c o o' r} : Run o0 cs o → PTriple.Call o c r o' → Run o0 (cs ++ [c]) o'

end PyDes
end Verif.Model
