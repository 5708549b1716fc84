import Verif.Model.DESSetters
/-! Model of pyDes objects whose arguments may be text: `_guardAgainstUnicode` in /repo/pyDes/pyDes.py, and where it is called. -/
namespace Verif.Model
open Verif.Py

namespace PyDes

/-- A `bytes` object (a Python 2 `str`), or a text string (Python 3 `str`, Python 2 `unicode`) as its list of code points. -/
inductive Data
  | bytes (b : List Nat)
  | text (s : List Nat)
  deriving DecidableEq, Repr

/-- The characters, for `len` and truth. -/
def Data.chars : Data → List Nat
  | .bytes b => b
  | .text s => s

/-- `data[i:j]`. -/
def Data.slice (i j : Nat) : Data → Data
  | .bytes b => .bytes ((b.drop i).take (j - i))
  | .text s => .text ((s.drop i).take (j - i))

/-- `_guardAgainstUnicode`, pyDes.py:228-242. -/
def Data.guard (py3 : Bool) : Data → Except Err (List Nat)
  | .bytes b => .ok b
  | .text s => if py3 = true ∧ s.all (· < 128) = true then .ok s else .error .valueError

/-- A pad argument: one byte or one text character. -/
inductive PadArg
  | byte (c : Nat)
  | char (c : Nat)
  deriving DecidableEq, Repr

/-- `_guardAgainstUnicode` on a pad argument, pyDes.py:228-242. -/
def PadArg.guard (py3 : Bool) : PadArg → Except Err Nat
  | .byte c => .ok c
  | .char c => if py3 = true ∧ c < 128 then .ok c else .error .valueError

/-- `if pad: pad = self._guardAgainstUnicode(pad)`, pyDes.py:111-112 (and 649-650 etc. for calls): nothing for None. -/
def guardPad (py3 : Bool) : Option PadArg → Except Err (Option Nat)
  | none => .ok none
  | some p => match p.guard py3 with
    | .error e => .error e
    | .ok c => .ok (some c)

/-- `des.__init__`, pyDes.py:397-414 and 108-124. -/
def PDes.newT (py3 : Bool) (key : Data) (mode : Nat) (iv : Data) (pad : Option PadArg) (padmode : Nat) : Except Err PDes :=
  if key.chars.length ≠ 8 then .error .valueError
  else match iv.guard py3 with
    | .error e => .error e
    | .ok iv => match guardPad py3 pad with
      | .error e => .error e
      | .ok pad => match Base.new mode iv pad padmode with
        | .error e => .error e
        | .ok b => match key.guard py3 with
          | .error e => .error e
          | .ok key => .ok ⟨key, ⟨b, createSubKeys key⟩⟩

/-- The calls, with text. -/
inductive CallT
  | setKey (key : Data)
  | setMode (mode : Nat)
  | setPadding (pad : Option PadArg)
  | setPadMode (padmode : Nat)
  | setIV (iv : Data)
  | encrypt (data : Data) (pad : Option PadArg) (padmode : Option Nat)
  | decrypt (data : Data) (pad : Option PadArg) (padmode : Option Nat)
  deriving DecidableEq, Repr

/-- What `crypt` gives back, pyDes.py:568-569, 637-640: the empty *text* for empty data on Python 3. -/
def resultT (py3 : Bool) (r : List Nat) : Data := if py3 = true ∧ r = [] then .text [] else .bytes r

/-- `des.encrypt`, pyDes.py:642-659. -/
def Des.encryptT (py3 : Bool) (d : Des) (data : Data) (pad : Option PadArg) (padmode : Option Nat) : Except Err Data :=
  match data.guard py3 with
  | .error e => .error e
  | .ok data => match guardPad py3 pad with
    | .error e => .error e
    | .ok pad => match d.base.padData data pad padmode with
      | .error e => .error e
      | .ok data => match d.crypt data true with
        | .error e => .error e
        | .ok r => .ok (resultT py3 r)

/-- `des.decrypt`, pyDes.py:661-680: `_unpadData` gives back an empty argument as it is, otherwise a slice of the bytes. -/
def Des.decryptT (py3 : Bool) (d : Des) (data : Data) (pad : Option PadArg) (padmode : Option Nat) : Except Err Data :=
  match data.guard py3 with
  | .error e => .error e
  | .ok data => match guardPad py3 pad with
    | .error e => .error e
    | .ok pad => match d.crypt data false with
      | .error e => .error e
      | .ok r => if r = [] then .ok (resultT py3 []) else match d.base.unpadData r pad padmode with
        | .error e => .error e
        | .ok m => .ok (.bytes m)

/-- A setter: no result. -/
def noResult {σ} : Except Err Unit × σ → Except Err (Option Data) × σ
  | (.error e, s) => (.error e, s)
  | (.ok _, s) => (.ok none, s)

/-- One call on a `des` object; `none` is Python's None. Lines: setKey 130-133 and 411-414, setPadding 147-151, setIV 165-170 (the length is
tested before the guard). -/
def PDes.callT (py3 : Bool) (o : PDes) : CallT → Except Err (Option Data) × PDes
  | .setKey k => match k.guard py3 with
    | .error e => (.error e, o)
    | .ok k => noResult (o.setKey k)
  | .setMode m => (.ok none, o.setMode m)
  | .setPadding p => match guardPad py3 p with
    | .error e => (.error e, o)
    | .ok p => (.ok none, o.setPadding p)
  | .setPadMode m => (.ok none, o.setPadMode m)
  | .setIV v => if v.chars.length ≠ 8 then (.error .valueError, o) else match v.guard py3 with
    | .error e => (.error e, o)
    | .ok v => noResult (o.setIV v)
  | .encrypt m pad padmode => ((o.des.encryptT py3 m pad padmode).map some, o)
  | .decrypt m pad padmode => ((o.des.decryptT py3 m pad padmode).map some, o)

/-- The object after a sequence of calls, whatever they raised. -/
def PDes.runT (py3 : Bool) (o : PDes) : List CallT → PDes
  | [] => o
  | c :: cs => (o.callT py3 c).2.runT py3 cs

/-- A `triple_des` object, pyDes.py:708-736; unlike the IVs of the inner objects, its own IV may be text, as it may be cut from a text
key (pyDes.py:723). -/
structure TTriple where
  key : List Nat
  mode : Nat
  iv : Data
  padding : Option Nat
  padmode : Nat
  key1 : Des
  key2 : Des
  key3 : Des
  deriving DecidableEq, Repr

/-- The object with its IV as bytes. -/
def TTriple.asTriple (o : TTriple) : Triple := ⟨⟨o.mode, o.iv.chars, o.padding, o.padmode⟩, o.key1, o.key2, o.key3⟩

/-- An inner object `des(key, self._mode, self._iv, self._padding, self._padmode)`, pyDes.py:726-735. -/
def TTriple.inner (py3 : Bool) (o : TTriple) (key : Data) : Except Err Des :=
  match PDes.newT py3 key o.mode o.iv (o.padding.map .byte) o.padmode with
  | .error e => .error e
  | .ok d => .ok d.des

/-- The end of `triple_des.setKey`, pyDes.py:730-736: the third object is made last and the key stored at the very end. -/
def TTriple.setThird (py3 : Bool) (o : TTriple) (key : Data) : Except Err Unit × TTriple :=
  if key.chars.length = 16 then
    match key.guard py3 with
    | .error e => (.error e, ⟨o.key, o.mode, o.iv, o.padding, o.padmode, o.key1, o.key2, o.key1⟩)
    | .ok k => (.ok (), ⟨k, o.mode, o.iv, o.padding, o.padmode, o.key1, o.key2, o.key1⟩)
  else match o.inner py3 (key.slice 16 24) with
    | .error e => (.error e, o)
    | .ok k3 => match key.guard py3 with
      | .error e => (.error e, ⟨o.key, o.mode, o.iv, o.padding, o.padmode, o.key1, o.key2, k3⟩)
      | .ok k => (.ok (), ⟨k, o.mode, o.iv, o.padding, o.padmode, o.key1, o.key2, k3⟩)

/-- The middle of `triple_des.setKey`, pyDes.py:726-736: each inner object replaces the old one as soon as it is made. -/
def TTriple.setInner (py3 : Bool) (o : TTriple) (key : Data) : Except Err Unit × TTriple :=
  match o.inner py3 (key.slice 0 8) with
  | .error e => (.error e, o)
  | .ok k1 => match o.inner py3 (key.slice 8 16) with
    | .error e => (.error e, ⟨o.key, o.mode, o.iv, o.padding, o.padmode, k1, o.key2, o.key3⟩)
    | .ok k2 => TTriple.setThird py3 ⟨o.key, o.mode, o.iv, o.padding, o.padmode, k1, k2, o.key3⟩ key

/-- `triple_des.setKey`, pyDes.py:712-736: the IV of CBC mode is taken from the key before anything else. -/
def TTriple.setKey (py3 : Bool) (o : TTriple) (key : Data) : Except Err Unit × TTriple :=
  if key.chars.length ≠ 24 ∧ key.chars.length ≠ 16 then (.error .valueError, o)
  else if o.mode = CBC ∧ o.iv.chars = [] then
    TTriple.setInner py3 ⟨o.key, o.mode, key.slice 0 8, o.padding, o.padmode, o.key1, o.key2, o.key3⟩ key
  else if o.mode = CBC ∧ o.iv.chars.length ≠ 8 then (.error .valueError, o)
  else TTriple.setInner py3 o key

/-- An object without inner objects, for the constructor. -/
def noDes : Des := ⟨⟨0, [], none, 0⟩, []⟩

/-- `triple_des.__init__`, pyDes.py:708-710: the base's IV is guarded (pyDes.py:109-110), then `setKey`. -/
def TTriple.new (py3 : Bool) (key : Data) (mode : Nat) (iv : Data) (pad : Option PadArg) (padmode : Nat) : Except Err TTriple :=
  match iv.guard py3 with
  | .error e => .error e
  | .ok iv => match guardPad py3 pad with
    | .error e => .error e
    | .ok pad => match Base.new mode iv pad padmode with
      | .error e => .error e
      | .ok b => match TTriple.setKey py3 ⟨[], b.mode, .bytes b.iv, b.padding, b.padmode, noDes, noDes, noDes⟩ key with
        | (.error e, _) => .error e
        | (.ok _, o) => .ok o

/-- The object with another base and inner objects, the IV as it is. -/
def TTriple.withTriple (o : TTriple) (t : Triple) : TTriple := ⟨o.key, t.base.mode, o.iv, t.base.padding, t.base.padmode, t.key1, t.key2, t.key3⟩

/-- `triple_des.setIV`, pyDes.py:757-761. -/
def TTriple.setIV (py3 : Bool) (o : TTriple) (iv : Data) : Except Err Unit × TTriple :=
  if iv.chars.length ≠ 8 then (.error .valueError, o) else
  match iv.guard py3 with
  | .error e => (.error e, o)
  | .ok v => match o.asTriple.setIV v with
    | .error e => (.error e, o)
    | .ok t => (.ok (), ⟨o.key, t.base.mode, .bytes v, t.base.padding, t.base.padmode, t.key1, t.key2, t.key3⟩)

/-- What `triple_des.encrypt` and `decrypt` give back, pyDes.py:799-805: in CBC mode the blocks are joined to bytes. -/
def TTriple.result (py3 : Bool) (o : TTriple) (r : List Nat) : Data := if o.mode = CBC then .bytes r else resultT py3 r

/-- `triple_des.encrypt`, pyDes.py:763-805. In CBC mode the inner `setIV` calls guard the IV (which the model of bytes cannot fail on); this may
come after padding, but both raise ValueError. -/
def TTriple.encrypt (py3 : Bool) (o : TTriple) (data : Data) (pad : Option PadArg) (padmode : Option Nat) : Except Err (Data × TTriple) :=
  match data.guard py3 with
  | .error e => .error e
  | .ok data => match guardPad py3 pad with
    | .error e => .error e
    | .ok pad => match (if o.mode = CBC then o.iv.guard py3 else .ok o.iv.chars) with
      | .error e => .error e
      | .ok _ => match o.asTriple.encrypt data pad padmode with
        | .error e => .error e
        | .ok (r, t) => .ok (o.result py3 r, o.withTriple t)

/-- `triple_des.decrypt`, pyDes.py:807-852: for data that is not empty the result is a slice of bytes. -/
def TTriple.decrypt (py3 : Bool) (o : TTriple) (data : Data) (pad : Option PadArg) (padmode : Option Nat) : Except Err (Data × TTriple) :=
  match data.guard py3 with
  | .error e => .error e
  | .ok data => match guardPad py3 pad with
    | .error e => .error e
    | .ok pad => match (if o.mode = CBC then o.iv.guard py3 else .ok o.iv.chars) with
      | .error e => .error e
      | .ok _ => match o.asTriple.decrypt data pad padmode with
        | .error e => .error e
        | .ok (r, t) => .ok (if data = [] then o.result py3 r else .bytes r, o.withTriple t)

/-- One call on a `triple_des` object with text arguments: object, call, outcome (`none` is None), object afterwards. An `encrypt`
or `decrypt` refusing its arguments changes nothing; after one that fails later the IVs of the inner objects are left open, as in `PTriple.Call`. -/
inductive TTriple.Call (py3 : Bool) : TTriple → CallT → Except Err (Option Data) → TTriple → Prop
  | setKey {o k r o'} : o.setKey py3 k = (r, o') → Call py3 o (.setKey k) (r.map fun _ => none) o'
  | setMode {o m} : Call py3 o (.setMode m) (.ok none) (o.withTriple (o.asTriple.setMode m))
  | setPadding {o p q} : guardPad py3 p = .ok q → Call py3 o (.setPadding p) (.ok none) (o.withTriple (o.asTriple.setPadding q))
  | setPaddingFails {o p e} : guardPad py3 p = .error e → Call py3 o (.setPadding p) (.error e) o
  | setPadMode {o m} : Call py3 o (.setPadMode m) (.ok none) (o.withTriple (o.asTriple.setPadMode m))
  | setIV {o iv r o'} : o.setIV py3 iv = (r, o') → Call py3 o (.setIV iv) (r.map fun _ => none) o'
  | encrypt {o m pad padmode r o'} : o.encrypt py3 m pad padmode = .ok (r, o') → Call py3 o (.encrypt m pad padmode) (.ok (some r)) o'
  | encryptRefused {o m pad padmode e} : o.encrypt py3 m pad padmode = .error e → (m.guard py3 = .error e ∨ guardPad py3 pad = .error e) →
      Call py3 o (.encrypt m pad padmode) (.error e) o
  | encryptFails {o m pad padmode b q e t} : o.encrypt py3 m pad padmode = .error e → m.guard py3 = .ok b → guardPad py3 pad = .ok q →
      o.asTriple.SameButIVs t → Call py3 o (.encrypt m pad padmode) (.error e) (o.withTriple t)
  | decrypt {o m pad padmode r o'} : o.decrypt py3 m pad padmode = .ok (r, o') → Call py3 o (.decrypt m pad padmode) (.ok (some r)) o'
  | decryptRefused {o m pad padmode e} : o.decrypt py3 m pad padmode = .error e → (m.guard py3 = .error e ∨ guardPad py3 pad = .error e) →
      Call py3 o (.decrypt m pad padmode) (.error e) o
  | decryptFails {o m pad padmode b q e t} : o.decrypt py3 m pad padmode = .error e → m.guard py3 = .ok b → guardPad py3 pad = .ok q →
      o.asTriple.SameButIVs t → Call py3 o (.decrypt m pad padmode) (.error e) (o.withTriple t)

/-- The objects reachable by a sequence of calls. -/
inductive TTriple.Run (py3 : Bool) (o0 : TTriple) : List CallT → TTriple → Prop
  | nil : Run py3 o0 [] o0
  | snoc {cs c o o' r} : Run py3 o0 cs o → TTriple.Call py3 o c r o' → Run py3 o0 (cs ++ [c]) o'

end PyDes
end Verif.Model
