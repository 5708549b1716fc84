import Verif.Model.DESText
import Verif.Model.DESPads
/-! Model of /repo/pyDes/pyDes.py without the simplifications of the other DES files: every string argument may be None, bytes or text, pads
have any length, `padmode` may be None, all setters, the public `crypt` with any `crypt_type`, and exactly the state a failing call leaves.
Arguments of other types (lists, bytearrays, numbers) are not modelled. `py3` says which Python runs. -/
namespace Verif.Model
namespace PyDes
open Verif.Py

/-- The characters of an argument; none for None. Truth of an argument is "has characters", `len` is their number. -/
def optChars : Option Data → List Nat
  | none => []
  | some d => d.chars

/-- `if x: x = self._guardAgainstUnicode(x)`, pyDes.py:109-112: an empty string stays what it is. -/
def guardIf (py3 : Bool) : Option Data → Except Err (Option Data)
  | none => .ok none
  | some d =>
    if d.chars = [] then .ok (some d)
    else match d.guard py3 with
      | .error e => .error e
      | .ok b => .ok (some (.bytes b))

/-- `if x is not None: x = self._guardAgainstUnicode(x)`, pyDes.py:149-150, 655-656, 676-677, 777-778, 824-825. -/
def guardSome (py3 : Bool) : Option Data → Except Err (Option Data)
  | none => .ok none
  | some d => match d.guard py3 with
    | .error e => .error e
    | .ok b => .ok (some (.bytes b))

/-- The attributes of `_baseDes`, pyDes.py:120-124. -/
structure FBase where
  mode : Nat
  iv : Option Data
  padding : Option Data
  padmode : Option Nat
  deriving DecidableEq, Repr

/-- `_baseDes.__init__`, pyDes.py:108-124. -/
def FBase.new (py3 : Bool) (mode : Nat) (iv pad : Option Data) (padmode : Option Nat) : Except Err FBase :=
  match guardIf py3 iv with
  | .error e => .error e
  | .ok iv => match guardIf py3 pad with
    | .error e => .error e
    | .ok pad =>
      if optChars pad ≠ [] ∧ padmode = some PAD_PKCS5 then .error .valueError
      else if optChars iv ≠ [] ∧ (optChars iv).length ≠ 8 then .error .valueError
      else .ok ⟨mode, iv, pad, padmode⟩

/-- `_baseDes.setPadding`, pyDes.py:147-151. -/
def FBase.setPadding (py3 : Bool) (b : FBase) (pad : Option Data) : Except Err Unit × FBase :=
  match guardSome py3 pad with
  | .error e => (.error e, b)
  | .ok pad => (.ok (), { b with padding := pad })

/-- `_baseDes.setIV`, pyDes.py:165-170: `not IV or len(IV) != 8`, then the guard. -/
def FBase.setIV (py3 : Bool) (b : FBase) (iv : Option Data) : Except Err Unit × FBase :=
  match iv with
  | none => (.error .valueError, b)
  | some d =>
    if d.chars = [] ∨ d.chars.length ≠ 8 then (.error .valueError, b)
    else match d.guard py3 with
      | .error e => (.error e, b)
      | .ok v => (.ok (), { b with iv := some (.bytes v) })

/-- `_padData`, pyDes.py:172-199. -/
def FBase.padData (b : FBase) (data : List Nat) (pad : Option Data) (padmode : Option Nat) : Except Err (List Nat) :=
  let padmode := padmode <|> b.padmode
  if optChars pad ≠ [] ∧ padmode = some PAD_PKCS5 then .error .valueError
  else if padmode = some PAD_NORMAL then
    if data.length % 8 = 0 then .ok data
    else
      let pad := if optChars pad = [] then b.padding else pad
      if optChars pad = [] then .error .valueError
      else .ok (appendPads data (optChars pad))
  else if padmode = some PAD_PKCS5 then
    .ok (data ++ List.replicate (8 - data.length % 8) (8 - data.length % 8))
  else .ok data

/-- `_unpadData`, pyDes.py:201-226, on data that is not empty (empty data is given back as it is). -/
def FBase.unpadData (b : FBase) (data : List Nat) (pad : Option Data) (padmode : Option Nat) : Except Err (List Nat) :=
  if optChars pad ≠ [] ∧ padmode = some PAD_PKCS5 then .error .valueError
  else
    let padmode := padmode <|> b.padmode
    if padmode = some PAD_NORMAL then
      let pad := if optChars pad = [] then b.padding else pad
      if optChars pad = [] then .ok data
      else .ok (sliceTo data (-8) ++ rstripSet (sliceFrom data (-8)) (optChars pad))
    else if padmode = some PAD_PKCS5 then .ok (sliceTo data (-((data.getLast?.getD 0 : Nat) : Int)))
    else .ok data

/-- A `des` object, pyDes.py:397-414. -/
structure FDes where
  base : FBase
  key : List Nat
  Kn : List Bits
  deriving DecidableEq, Repr

/-- `des.__init__`, pyDes.py:397-409: eight characters of key are certain when `setKey` is reached. -/
def FDes.new (py3 : Bool) (key : Data) (mode : Nat) (iv pad : Option Data) (padmode : Option Nat) : Except Err FDes :=
  if key.chars.length ≠ 8 then .error .valueError
  else match FBase.new py3 mode iv pad padmode with
    | .error e => .error e
    | .ok b => match key.guard py3 with
      | .error e => .error e
      | .ok k => .ok ⟨b, k, createSubKeys k⟩

/-- `des.setKey`, pyDes.py:411-414, 130-133, 460-484: guard, store, then make the subkeys, which needs eight bytes. -/
def FDes.setKey (py3 : Bool) (o : FDes) (key : Data) : Except Err Unit × FDes :=
  match key.guard py3 with
  | .error e => (.error e, o)
  | .ok k =>
    if k.length < 8 then (.error .indexError, { o with key := k })
    else (.ok (), { o with key := k, Kn := createSubKeys k })

/-- The block loop of `crypt`, pyDes.py:594-633, for any `crypt_type`: only 0 xors before, only 1 xors after, and everything but 0 runs the
rounds backwards (pyDes.py:493-500). -/
def cryptLoopT (Kn : List Bits) (type : Nat) (cbc : Bool) (iv : Bits) : List Bits → List Bits
  | [] => []
  | block :: rest =>
    if cbc then
      let block := if type = 0 then xorBits block iv else block
      let out := desCrypt Kn (decide (type = 0)) block
      if type = 1 then xorBits out iv :: cryptLoopT Kn type cbc block rest
      else out :: cryptLoopT Kn type cbc out rest
    else desCrypt Kn (decide (type = 0)) block :: cryptLoopT Kn type cbc iv rest

/-- `crypt`, pyDes.py:564-640, on bytes. A last block still short after padding: see `MDes.crypt`. -/
def FDes.crypt (py3 : Bool) (d : FDes) (data : List Nat) (type : Nat) : Except Err (List Nat) :=
  if data = [] then .ok []
  else
    let padded : Except Err (List Nat) :=
      if data.length % 8 ≠ 0 then
        if type = 1 then .error .valueError
        else if optChars d.base.padding = [] then .error .valueError
        else .ok (appendPads data (optChars d.base.padding))
      else .ok data
    match padded with
    | .error e => .error e
    | .ok data =>
      if d.base.mode = CBC ∧ optChars d.base.iv = [] then .error .valueError
      else if data.length % 8 ≠ 0 then
        if d.base.mode = CBC ∧ type = 0 ∧ py3 = false then .error .typeError else .error .indexError
      else
        .ok ((cryptLoopT d.Kn type (decide (d.base.mode = CBC)) (stringToBits (optChars d.base.iv)) ((blocks data).map stringToBits)).flatMap bitsToString)

/-- The calls on a pyDes object. -/
inductive CallF
  | setKey (key : Data)
  | setMode (mode : Nat)
  | setPadding (pad : Option Data)
  | setPadMode (padmode : Option Nat)
  | setIV (iv : Option Data)
  | encrypt (data : Data) (pad : Option Data) (padmode : Option Nat)
  | decrypt (data : Data) (pad : Option Data) (padmode : Option Nat)
  | crypt (data : List Nat) (type : Nat)
  | getKey
  | getMode
  | getPadding
  | getPadMode
  | getIV
  deriving DecidableEq, Repr

/-- What a call gives back. -/
inductive Ret
  | nothing
  | data (d : Option Data)
  | number (n : Option Nat)
  deriving DecidableEq, Repr

/-- `des.encrypt`, pyDes.py:642-659. -/
def FDes.encrypt (py3 : Bool) (d : FDes) (data : Data) (pad : Option Data) (padmode : Option Nat) : Except Err Data :=
  match data.guard py3 with
  | .error e => .error e
  | .ok m => match guardSome py3 pad with
    | .error e => .error e
    | .ok pad => match d.base.padData m pad padmode with
      | .error e => .error e
      | .ok m => match d.crypt py3 m 0 with
        | .error e => .error e
        | .ok r => .ok (resultT py3 r)

/-- `des.decrypt`, pyDes.py:661-680. -/
def FDes.decrypt (py3 : Bool) (d : FDes) (data : Data) (pad : Option Data) (padmode : Option Nat) : Except Err Data :=
  match data.guard py3 with
  | .error e => .error e
  | .ok m => match guardSome py3 pad with
    | .error e => .error e
    | .ok pad => match d.crypt py3 m 1 with
      | .error e => .error e
      | .ok r =>
        if r = [] then .ok (resultT py3 [])
        else match d.base.unpadData r pad padmode with
          | .error e => .error e
          | .ok m => .ok (.bytes m)

/-- The outcome of a setter. -/
def setterRet : Except Err Unit → Except Err Ret
  | .error e => .error e
  | .ok () => .ok .nothing

/-- The outcome of `encrypt`, `decrypt` and `crypt`. -/
def dataRet : Except Err Data → Except Err Ret
  | .error e => .error e
  | .ok d => .ok (.data (some d))

/-- One call on a `des` object: outcome and the object afterwards. Setters: pyDes.py:139-141, 147-151, 157-159, 165-170, 411-414; getters:
pyDes.py:126-128, 135-137, 143-145, 153-155, 161-163. -/
def FDes.call (py3 : Bool) (o : FDes) : CallF → Except Err Ret × FDes
  | .setKey k => (setterRet (o.setKey py3 k).1, (o.setKey py3 k).2)
  | .setMode m => (.ok .nothing, { o with base := { o.base with mode := m } })
  | .setPadding p => (setterRet (o.base.setPadding py3 p).1, { o with base := (o.base.setPadding py3 p).2 })
  | .setPadMode m => (.ok .nothing, { o with base := { o.base with padmode := m } })
  | .setIV v => (setterRet (o.base.setIV py3 v).1, { o with base := (o.base.setIV py3 v).2 })
  | .encrypt m pad padmode => (dataRet (o.encrypt py3 m pad padmode), o)
  | .decrypt m pad padmode => (dataRet (o.decrypt py3 m pad padmode), o)
  | .crypt m type => (dataRet ((o.crypt py3 m type).map (resultT py3)), o)
  | .getKey => (.ok (.data (some (.bytes o.key))), o)
  | .getMode => (.ok (.number (some o.base.mode)), o)
  | .getPadding => (.ok (.data o.base.padding), o)
  | .getPadMode => (.ok (.number o.base.padmode), o)
  | .getIV => (.ok (.data o.base.iv), o)

/-- A `triple_des` object, pyDes.py:708-736. With a 16-byte key the third inner object is the first; every operation of the code changes both
alike, and a replaced first object leaves the third behind, so they are separate values here. -/
structure FTriple where
  base : FBase
  key : List Nat
  key1 : FDes
  key2 : FDes
  key3 : FDes
  deriving DecidableEq, Repr

/-- An inner object, pyDes.py:726-735. -/
def FTriple.inner (py3 : Bool) (b : FBase) (key : Data) : Except Err FDes := FDes.new py3 key b.mode b.iv b.padding b.padmode

/-- The end of `triple_des.setKey`, pyDes.py:726-736: each inner object replaces the old one as soon as it is made; the key is guarded and
stored last. -/
def FTriple.setInner (py3 : Bool) (o : FTriple) (key : Data) : Except Err Unit × FTriple :=
  match FTriple.inner py3 o.base (key.slice 0 8) with
  | .error e => (.error e, o)
  | .ok k1 => match FTriple.inner py3 o.base (key.slice 8 16) with
    | .error e => (.error e, { o with key1 := k1 })
    | .ok k2 => match (if key.chars.length = 16 then .ok k1 else FTriple.inner py3 o.base (key.slice 16 24)) with
      | .error e => (.error e, { o with key1 := k1, key2 := k2 })
      | .ok k3 => match key.guard py3 with
        | .error e => (.error e, { o with key1 := k1, key2 := k2, key3 := k3 })
        | .ok k => (.ok (), ⟨o.base, k, k1, k2, k3⟩)

/-- `triple_des.setKey`, pyDes.py:712-736. -/
def FTriple.setKey (py3 : Bool) (o : FTriple) (key : Data) : Except Err Unit × FTriple :=
  if key.chars.length ≠ 24 ∧ key.chars.length ≠ 16 then (.error .valueError, o)
  else
    let o := if o.base.mode = CBC ∧ optChars o.base.iv = [] then { o with base := { o.base with iv := some (key.slice 0 8) } } else o
    if o.base.mode = CBC ∧ (optChars o.base.iv).length ≠ 8 then (.error .valueError, o)
    else o.setInner py3 key

/-- No inner object yet, for the constructor. -/
def noFDes : FDes := ⟨⟨0, none, none, none⟩, [], []⟩

/-- `triple_des.__init__`, pyDes.py:708-710. -/
def FTriple.new (py3 : Bool) (key : Data) (mode : Nat) (iv pad : Option Data) (padmode : Option Nat) : Except Err FTriple :=
  match FBase.new py3 mode iv pad padmode with
  | .error e => .error e
  | .ok b => match FTriple.setKey py3 ⟨b, [], noFDes, noFDes, noFDes⟩ key with
    | (.error e, _) => .error e
    | (.ok (), o) => .ok o

/-- `setIV` on an inner object. -/
def FDes.setIV (py3 : Bool) (d : FDes) (iv : Option Data) : Except Err Unit × FDes :=
  ((d.base.setIV py3 iv).1, { d with base := (d.base.setIV py3 iv).2 })

/-- `self.__key1.setIV(x); self.__key2.setIV(x); self.__key3.setIV(x)`, pyDes.py:783-785, 793-795, 830-832, 840-842, and the loop 760-761. -/
def FTriple.setIVs (py3 : Bool) (t : FTriple) (iv : Option Data) : Except Err Unit × FTriple :=
  match t.key1.setIV py3 iv with
  | (.error e, k1) => (.error e, { t with key1 := k1 })
  | (.ok (), k1) => match t.key2.setIV py3 iv with
    | (.error e, k2) => (.error e, { t with key1 := k1, key2 := k2 })
    | (.ok (), k2) => match t.key3.setIV py3 iv with
      | (.error e, k3) => (.error e, { t with key1 := k1, key2 := k2, key3 := k3 })
      | (.ok (), k3) => (.ok (), { t with key1 := k1, key2 := k2, key3 := k3 })

/-- `setPadding` on an inner object. -/
def FDes.setPadding (py3 : Bool) (d : FDes) (pad : Option Data) : FDes := { d with base := (d.base.setPadding py3 pad).2 }

/-- One block of three: `crypt` with the objects and directions given. -/
def crypt3 (py3 : Bool) (a b c : FDes) (first : Nat) (data : List Nat) : Except Err (List Nat) :=
  match a.crypt py3 data first with
  | .error e => .error e
  | .ok x => match b.crypt py3 x (1 - first) with
    | .error e => .error e
    | .ok y => c.crypt py3 y first

/-- The CBC loop of `encrypt`, pyDes.py:787-797: the bytes or the exception, and the object with the inner IVs as they then are. -/
def FTriple.encLoop (py3 : Bool) (t : FTriple) : List (List Nat) → Except Err (List Nat) × FTriple
  | [] => (.ok [], t)
  | blk :: rest =>
    match crypt3 py3 t.key1 t.key2 t.key3 0 blk with
    | .error e => (.error e, t)
    | .ok block => match t.setIVs py3 (some (.bytes block)) with
      | (.error e, t) => (.error e, t)
      | (.ok (), t) => match FTriple.encLoop py3 t rest with
        | (.error e, t) => (.error e, t)
        | (.ok r, t) => (.ok (block ++ r), t)

/-- The CBC loop of `decrypt`, pyDes.py:833-844. -/
def FTriple.decLoop (py3 : Bool) (t : FTriple) : List (List Nat) → Except Err (List Nat) × FTriple
  | [] => (.ok [], t)
  | iv :: rest =>
    match crypt3 py3 t.key3 t.key2 t.key1 1 iv with
    | .error e => (.error e, t)
    | .ok block => match t.setIVs py3 (some (.bytes iv)) with
      | (.error e, t) => (.error e, t)
      | (.ok (), t) => match FTriple.decLoop py3 t rest with
        | (.error e, t) => (.error e, t)
        | (.ok r, t) => (.ok (block ++ r), t)

/-- `triple_des.encrypt`, pyDes.py:763-805. -/
def FTriple.encrypt (py3 : Bool) (t : FTriple) (data : Data) (pad : Option Data) (padmode : Option Nat) : Except Err Data × FTriple :=
  match data.guard py3 with
  | .error e => (.error e, t)
  | .ok m => match guardSome py3 pad with
    | .error e => (.error e, t)
    | .ok pad => match t.base.padData m pad padmode with
      | .error e => (.error e, t)
      | .ok m =>
        if t.base.mode = CBC then
          match t.setIVs py3 t.base.iv with
          | (.error e, t) => (.error e, t)
          | (.ok (), t) => match t.encLoop py3 (blocks m) with
            | (.error e, t) => (.error e, t)
            | (.ok r, t) => (.ok (.bytes r), t)
        else match crypt3 py3 t.key1 t.key2 t.key3 0 m with
          | .error e => (.error e, t)
          | .ok r => (.ok (resultT py3 r), t)

/-- The end of `triple_des.decrypt`, pyDes.py:852: `empty` is what empty data is given back as. -/
def unpadF (b : FBase) (empty : Data) (r : List Nat) (pad : Option Data) (padmode : Option Nat) : Except Err Data :=
  if r = [] then .ok empty
  else match b.unpadData r pad padmode with
    | .error e => .error e
    | .ok m => .ok (.bytes m)

/-- `triple_des.decrypt`, pyDes.py:807-852. -/
def FTriple.decrypt (py3 : Bool) (t : FTriple) (data : Data) (pad : Option Data) (padmode : Option Nat) : Except Err Data × FTriple :=
  match data.guard py3 with
  | .error e => (.error e, t)
  | .ok m => match guardSome py3 pad with
    | .error e => (.error e, t)
    | .ok pad =>
      if t.base.mode = CBC then
        match t.setIVs py3 t.base.iv with
        | (.error e, t) => (.error e, t)
        | (.ok (), t) => match t.decLoop py3 (blocks m) with
          | (.error e, t) => (.error e, t)
          | (.ok r, t) => (unpadF t.base (.bytes []) r pad padmode, t)
      else match crypt3 py3 t.key3 t.key2 t.key1 1 m with
        | .error e => (.error e, t)
        | .ok r => (unpadF t.base (resultT py3 []) r pad padmode, t)

/-- `triple_des.setPadding`, pyDes.py:745-749. -/
def FTriple.setPadding (py3 : Bool) (t : FTriple) (pad : Option Data) : Except Err Unit × FTriple :=
  match t.base.setPadding py3 pad with
  | (.error e, b) => (.error e, { t with base := b })
  | (.ok (), b) => (.ok (), ⟨b, t.key, t.key1.setPadding py3 pad, t.key2.setPadding py3 pad, t.key3.setPadding py3 pad⟩)

/-- `triple_des.setIV`, pyDes.py:757-761. -/
def FTriple.setIV (py3 : Bool) (t : FTriple) (iv : Option Data) : Except Err Unit × FTriple :=
  match t.base.setIV py3 iv with
  | (.error e, b) => (.error e, { t with base := b })
  | (.ok (), b) => FTriple.setIVs py3 { t with base := b } iv

/-- The mode of an inner object, pyDes.py:739-743. -/
def FDes.setMode (d : FDes) (mode : Nat) : FDes := { d with base := { d.base with mode := mode } }
/-- The padding mode of an inner object, pyDes.py:751-755. -/
def FDes.setPadMode (d : FDes) (padmode : Option Nat) : FDes := { d with base := { d.base with padmode := padmode } }

/-- One call on a `triple_des` object: outcome and the object afterwards; the class has no `crypt`. -/
def FTriple.call (py3 : Bool) (o : FTriple) : CallF → Except Err Ret × FTriple
  | .setKey k => (setterRet (o.setKey py3 k).1, (o.setKey py3 k).2)
  | .setMode m => (.ok .nothing, ⟨{ o.base with mode := m }, o.key, o.key1.setMode m, o.key2.setMode m, o.key3.setMode m⟩)
  | .setPadding p => (setterRet (o.setPadding py3 p).1, (o.setPadding py3 p).2)
  | .setPadMode m => (.ok .nothing, ⟨{ o.base with padmode := m }, o.key, o.key1.setPadMode m, o.key2.setPadMode m, o.key3.setPadMode m⟩)
  | .setIV v => (setterRet (o.setIV py3 v).1, (o.setIV py3 v).2)
  | .encrypt m pad padmode => (dataRet (o.encrypt py3 m pad padmode).1, (o.encrypt py3 m pad padmode).2)
  | .decrypt m pad padmode => (dataRet (o.decrypt py3 m pad padmode).1, (o.decrypt py3 m pad padmode).2)
  | .crypt _ _ => (.error .attributeError, o)
  | .getKey => (.ok (.data (some (.bytes o.key))), o)
  | .getMode => (.ok (.number (some o.base.mode)), o)
  | .getPadding => (.ok (.data o.base.padding), o)
  | .getPadMode => (.ok (.number o.base.padmode), o)
  | .getIV => (.ok (.data o.base.iv), o)

/-- An object of either class. -/
inductive FObj
  | single (d : FDes)
  | triple (t : FTriple)
  deriving DecidableEq, Repr

/-- A constructor call: `des(...)` or `triple_des(...)`. -/
def FObj.new (py3 triple : Bool) (key : Data) (mode : Nat) (iv pad : Option Data) (padmode : Option Nat) : Except Err FObj :=
  if triple then (FTriple.new py3 key mode iv pad padmode).map .triple else (FDes.new py3 key mode iv pad padmode).map .single

/-- One call on either. -/
def FObj.call (py3 : Bool) (o : FObj) (c : CallF) : Except Err Ret × FObj :=
  match o with
  | .single d => ((d.call py3 c).1, .single (d.call py3 c).2)
  | .triple t => ((t.call py3 c).1, .triple (t.call py3 c).2)

/-- The object after a sequence of calls, whatever they raised. -/
def FObj.run (py3 : Bool) (o : FObj) : List CallF → FObj
  | [] => o
  | c :: cs => FObj.run py3 (o.call py3 c).2 cs

/-- What a sequence of calls gives back or raises, call by call. -/
def FObj.trace (py3 : Bool) (o : FObj) : List CallF → List (Except Err Ret)
  | [] => []
  | c :: cs => (o.call py3 c).1 :: FObj.trace py3 (o.call py3 c).2 cs

end PyDes
end Verif.Model
