import Verif.Model.DES
/-! Model of the pad arguments of /repo/pyDes/pyDes.py as byte strings of any length. The documentation asks for one byte, the code accepts any
(`_guardAgainstUnicode` is the identity on bytes). The empty string stands for `None` as well: the code only tests whether a pad is true. `py3`
says which Python runs: the two differ in what `map` does with lists of different lengths. -/
namespace Verif.Model
namespace PyDes
open Verif.Py

/-- `(self.block_size - (len(data) % self.block_size)) * pad` appended to the data, pyDes.py:190, 577. -/
def appendPads (data pad : List Nat) : List Nat := data ++ (List.replicate (8 - data.length % 8) pad).flatten

/-- A `des` object whose padding is a byte string, pyDes.py:397-414. -/
structure MDes where
  mode : Nat
  iv : List Nat
  padding : List Nat
  padmode : Nat
  Kn : List Bits
  deriving DecidableEq, Repr

/-- `des.__init__`, pyDes.py:397-414 and 108-124. -/
def MDes.new (key : List Nat) (mode : Nat) (iv pad : List Nat) (padmode : Nat) : Except Err MDes :=
  if key.length ≠ 8 then .error .valueError
  else if pad ≠ [] ∧ padmode = PAD_PKCS5 then .error .valueError
  else if iv ≠ [] ∧ iv.length ≠ 8 then .error .valueError
  else .ok ⟨mode, iv, pad, padmode, createSubKeys key⟩

/-- `_padData`, pyDes.py:172-199. -/
def padDataM (padding : List Nat) (mode : Nat) (data pad : List Nat) (padmode : Option Nat) : Except Err (List Nat) :=
  let padmode := padmode.getD mode
  if pad ≠ [] ∧ padmode = PAD_PKCS5 then .error .valueError
  else if padmode = PAD_NORMAL then
    if data.length % 8 = 0 then .ok data
    else
      let pad := if pad = [] then padding else pad
      if pad = [] then .error .valueError
      else .ok (appendPads data pad)
  else if padmode = PAD_PKCS5 then
    let padLen := 8 - data.length % 8
    .ok (data ++ List.replicate padLen padLen)
  else .ok data

/-- `bytes.rstrip(chars)`: every byte of the set `chars` goes from the end. -/
def rstripSet (data chars : List Nat) : List Nat := (data.reverse.dropWhile fun x => chars.contains x).reverse

/-- `_unpadData`, pyDes.py:201-226. -/
def unpadDataM (padding : List Nat) (mode : Nat) (data pad : List Nat) (padmode : Option Nat) : Except Err (List Nat) :=
  match data.getLast? with
  | none => .ok data
  | some last =>
    if pad ≠ [] ∧ padmode = some PAD_PKCS5 then .error .valueError
    else
      let padmode := padmode.getD mode
      if padmode = PAD_NORMAL then
        let pad := if pad = [] then padding else pad
        if pad = [] then .ok data
        else .ok (sliceTo data (-8) ++ rstripSet (sliceFrom data (-8)) pad)
      else if padmode = PAD_PKCS5 then .ok (sliceTo data (-(last : Int)))
      else .ok data

/-- `crypt`, pyDes.py:564-640. If the padded data is still not whole blocks, the last, short block makes `__permutate` raise IndexError
(pyDes.py:451-453, 487); when encrypting in CBC mode Python 2's `map` has first filled it up with None, and TypeError is raised (pyDes.py:606-607). -/
def MDes.crypt (py3 : Bool) (d : MDes) (data : List Nat) (encrypt : Bool) : Except Err (List Nat) :=
  if data = [] then .ok []
  else
    let padded : Except Err (List Nat) :=
      if data.length % 8 ≠ 0 then
        if ¬ encrypt then .error .valueError
        else if d.padding = [] then .error .valueError
        else .ok (appendPads data d.padding)
      else .ok data
    match padded with
    | .error e => .error e
    | .ok data =>
      if d.mode = CBC ∧ d.iv = [] then .error .valueError
      else if data.length % 8 ≠ 0 then
        if d.mode = CBC ∧ encrypt = true ∧ py3 = false then .error .typeError else .error .indexError
      else
        .ok ((cryptLoop d.Kn encrypt (decide (d.mode = CBC)) (stringToBits d.iv) ((blocks data).map stringToBits)).flatMap bitsToString)

/-- `des.encrypt`, pyDes.py:642-659. -/
def MDes.encrypt (py3 : Bool) (d : MDes) (data pad : List Nat) (padmode : Option Nat) : Except Err (List Nat) :=
  match padDataM d.padding d.padmode data pad padmode with
  | .error e => .error e
  | .ok data => d.crypt py3 data true

/-- `des.decrypt`, pyDes.py:661-680. -/
def MDes.decrypt (py3 : Bool) (d : MDes) (data pad : List Nat) (padmode : Option Nat) : Except Err (List Nat) :=
  match d.crypt py3 data false with
  | .error e => .error e
  | .ok data => unpadDataM d.padding d.padmode data pad padmode

/-- `setIV` on the inner objects, pyDes.py:165-170. -/
def MDes.setIV (d : MDes) (iv : List Nat) : Except Err MDes :=
  if iv = [] ∨ iv.length ≠ 8 then .error .valueError else .ok ⟨d.mode, iv, d.padding, d.padmode, d.Kn⟩

/-- A `triple_des` object whose padding is a byte string, pyDes.py:708-736. -/
structure MTriple where
  mode : Nat
  iv : List Nat
  padding : List Nat
  padmode : Nat
  key1 : MDes
  key2 : MDes
  key3 : MDes
  deriving DecidableEq, Repr

/-- `triple_des.__init__` and `setKey`, pyDes.py:708-736. -/
def MTriple.new (key : List Nat) (mode : Nat) (iv pad : List Nat) (padmode : Nat) : Except Err MTriple :=
  if pad ≠ [] ∧ padmode = PAD_PKCS5 then .error .valueError
  else if iv ≠ [] ∧ iv.length ≠ 8 then .error .valueError
  else if key.length ≠ 24 ∧ key.length ≠ 16 then .error .valueError
  else
    let iv := if mode = CBC ∧ iv = [] then key.take 8 else iv
    if mode = CBC ∧ iv.length ≠ 8 then .error .valueError
    else do
      let k1 ← MDes.new (key.take 8) mode iv pad padmode
      let k2 ← MDes.new ((key.drop 8).take 8) mode iv pad padmode
      let k3 ← if key.length = 16 then pure k1 else MDes.new (key.drop 16) mode iv pad padmode
      return ⟨mode, iv, pad, padmode, k1, k2, k3⟩

/-- `self.__key1.setIV(x); self.__key2.setIV(x); self.__key3.setIV(x)`. -/
def MTriple.setIVs (t : MTriple) (iv : List Nat) : Except Err MTriple := do
  let k1 ← t.key1.setIV iv
  let k2 ← t.key2.setIV iv
  let k3 ← t.key3.setIV iv
  return ⟨t.mode, t.iv, t.padding, t.padmode, k1, k2, k3⟩

/-- The CBC loop of `encrypt`, pyDes.py:786-798. -/
def MTriple.encLoop (py3 : Bool) (t : MTriple) : List (List Nat) → Except Err (List Nat × MTriple)
  | [] => .ok ([], t)
  | blk :: rest => do
    let block ← t.key1.crypt py3 blk true
    let block ← t.key2.crypt py3 block false
    let block ← t.key3.crypt py3 block true
    let t ← t.setIVs block
    let (r, t) ← MTriple.encLoop py3 t rest
    return (block ++ r, t)

/-- `triple_des.encrypt`, pyDes.py:763-805. -/
def MTriple.encrypt (py3 : Bool) (t : MTriple) (data pad : List Nat) (padmode : Option Nat) : Except Err (List Nat × MTriple) := do
  let data ← padDataM t.padding t.padmode data pad padmode
  if t.mode = CBC then
    let t ← t.setIVs t.iv
    t.encLoop py3 (blocks data)
  else
    let data ← t.key1.crypt py3 data true
    let data ← t.key2.crypt py3 data false
    let data ← t.key3.crypt py3 data true
    return (data, t)

/-- The CBC loop of `decrypt`, pyDes.py:832-844. -/
def MTriple.decLoop (py3 : Bool) (t : MTriple) : List (List Nat) → Except Err (List Nat × MTriple)
  | [] => .ok ([], t)
  | iv :: rest => do
    let block ← t.key3.crypt py3 iv false
    let block ← t.key2.crypt py3 block true
    let block ← t.key1.crypt py3 block false
    let t ← t.setIVs iv
    let (r, t) ← MTriple.decLoop py3 t rest
    return (block ++ r, t)

/-- `triple_des.decrypt`, pyDes.py:807-852. -/
def MTriple.decrypt (py3 : Bool) (t : MTriple) (data pad : List Nat) (padmode : Option Nat) : Except Err (List Nat × MTriple) := do
  if t.mode = CBC then
    let t ← t.setIVs t.iv
    let (data, t) ← t.decLoop py3 (blocks data)
    let data ← unpadDataM t.padding t.padmode data pad padmode
    return (data, t)
  else
    let data ← t.key3.crypt py3 data false
    let data ← t.key2.crypt py3 data true
    let data ← t.key1.crypt py3 data false
    let data ← unpadDataM t.padding t.padmode data pad padmode
    return (data, t)

end PyDes
end Verif.Model
