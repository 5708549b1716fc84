import Verif.Py.Core
/-! Model of /repo/pyDes/pyDes.py. Byte strings are lists of naturals (< 256), bits are Booleans
(the code uses the integers 0 and 1). Python 3 branch of every version test. -/
namespace Verif.Model
open Verif.Py

namespace PyDes

/-- Tables, pyDes.py:268-276. -/
def pc1 : List Nat := [56, 48, 40, 32, 24, 16, 8,
  0, 57, 49, 41, 33, 25, 17,
  9, 1, 58, 50, 42, 34, 26,
  18, 10, 2, 59, 51, 43, 35,
  62, 54, 46, 38, 30, 22, 14,
  6, 61, 53, 45, 37, 29, 21,
  13, 5, 60, 52, 44, 36, 28,
  20, 12, 4, 27, 19, 11, 3]

/-- pyDes.py:279-281. -/
def leftRotations : List Nat := [1, 1, 2, 2, 2, 2, 2, 2, 1, 2, 2, 2, 2, 2, 2, 1]

/-- pyDes.py:284-293. -/
def pc2 : List Nat := [13, 16, 10, 23, 0, 4,
  2, 27, 14, 5, 20, 9,
  22, 18, 11, 3, 25, 7,
  15, 6, 26, 19, 12, 1,
  40, 51, 30, 36, 46, 54,
  29, 39, 50, 44, 32, 47,
  43, 48, 38, 55, 33, 52,
  45, 41, 49, 35, 28, 31]

/-- pyDes.py:296-304. -/
def ip : List Nat := [57, 49, 41, 33, 25, 17, 9, 1,
  59, 51, 43, 35, 27, 19, 11, 3,
  61, 53, 45, 37, 29, 21, 13, 5,
  63, 55, 47, 39, 31, 23, 15, 7,
  56, 48, 40, 32, 24, 16, 8, 0,
  58, 50, 42, 34, 26, 18, 10, 2,
  60, 52, 44, 36, 28, 20, 12, 4,
  62, 54, 46, 38, 30, 22, 14, 6]

/-- pyDes.py:307-316. -/
def expansionTable : List Nat := [31, 0, 1, 2, 3, 4,
  3, 4, 5, 6, 7, 8,
  7, 8, 9, 10, 11, 12,
  11, 12, 13, 14, 15, 16,
  15, 16, 17, 18, 19, 20,
  19, 20, 21, 22, 23, 24,
  23, 24, 25, 26, 27, 28,
  27, 28, 29, 30, 31, 0]

/-- pyDes.py:319-367. -/
def sbox : List (List Nat) := [
  [14, 4, 13, 1, 2, 15, 11, 8, 3, 10, 6, 12, 5, 9, 0, 7,
   0, 15, 7, 4, 14, 2, 13, 1, 10, 6, 12, 11, 9, 5, 3, 8,
   4, 1, 14, 8, 13, 6, 2, 11, 15, 12, 9, 7, 3, 10, 5, 0,
   15, 12, 8, 2, 4, 9, 1, 7, 5, 11, 3, 14, 10, 0, 6, 13],
  [15, 1, 8, 14, 6, 11, 3, 4, 9, 7, 2, 13, 12, 0, 5, 10,
   3, 13, 4, 7, 15, 2, 8, 14, 12, 0, 1, 10, 6, 9, 11, 5,
   0, 14, 7, 11, 10, 4, 13, 1, 5, 8, 12, 6, 9, 3, 2, 15,
   13, 8, 10, 1, 3, 15, 4, 2, 11, 6, 7, 12, 0, 5, 14, 9],
  [10, 0, 9, 14, 6, 3, 15, 5, 1, 13, 12, 7, 11, 4, 2, 8,
   13, 7, 0, 9, 3, 4, 6, 10, 2, 8, 5, 14, 12, 11, 15, 1,
   13, 6, 4, 9, 8, 15, 3, 0, 11, 1, 2, 12, 5, 10, 14, 7,
   1, 10, 13, 0, 6, 9, 8, 7, 4, 15, 14, 3, 11, 5, 2, 12],
  [7, 13, 14, 3, 0, 6, 9, 10, 1, 2, 8, 5, 11, 12, 4, 15,
   13, 8, 11, 5, 6, 15, 0, 3, 4, 7, 2, 12, 1, 10, 14, 9,
   10, 6, 9, 0, 12, 11, 7, 13, 15, 1, 3, 14, 5, 2, 8, 4,
   3, 15, 0, 6, 10, 1, 13, 8, 9, 4, 5, 11, 12, 7, 2, 14],
  [2, 12, 4, 1, 7, 10, 11, 6, 8, 5, 3, 15, 13, 0, 14, 9,
   14, 11, 2, 12, 4, 7, 13, 1, 5, 0, 15, 10, 3, 9, 8, 6,
   4, 2, 1, 11, 10, 13, 7, 8, 15, 9, 12, 5, 6, 3, 0, 14,
   11, 8, 12, 7, 1, 14, 2, 13, 6, 15, 0, 9, 10, 4, 5, 3],
  [12, 1, 10, 15, 9, 2, 6, 8, 0, 13, 3, 4, 14, 7, 5, 11,
   10, 15, 4, 2, 7, 12, 9, 5, 6, 1, 13, 14, 0, 11, 3, 8,
   9, 14, 15, 5, 2, 8, 12, 3, 7, 0, 4, 10, 1, 13, 11, 6,
   4, 3, 2, 12, 9, 5, 15, 10, 11, 14, 1, 7, 6, 0, 8, 13],
  [4, 11, 2, 14, 15, 0, 8, 13, 3, 12, 9, 7, 5, 10, 6, 1,
   13, 0, 11, 7, 4, 9, 1, 10, 14, 3, 5, 12, 2, 15, 8, 6,
   1, 4, 11, 13, 12, 3, 7, 14, 10, 15, 6, 8, 0, 5, 9, 2,
   6, 11, 13, 8, 1, 4, 10, 7, 9, 5, 0, 15, 14, 2, 3, 12],
  [13, 2, 8, 4, 6, 15, 11, 1, 10, 9, 3, 14, 5, 0, 12, 7,
   1, 15, 13, 8, 10, 3, 7, 4, 12, 5, 6, 11, 0, 14, 9, 2,
   7, 11, 4, 1, 9, 12, 14, 2, 0, 6, 10, 13, 15, 3, 5, 8,
   2, 1, 14, 7, 4, 10, 8, 13, 15, 12, 9, 0, 3, 5, 6, 11]]

/-- pyDes.py:371-378. -/
def p : List Nat := [15, 6, 19, 20, 28, 11,
  27, 16, 0, 14, 22, 25,
  4, 17, 30, 9, 1, 7,
  23, 13, 31, 26, 2, 8,
  18, 12, 29, 5, 21, 10,
  3, 24]

/-- pyDes.py:381-390. -/
def fp : List Nat := [39, 7, 47, 15, 55, 23, 63, 31,
  38, 6, 46, 14, 54, 22, 62, 30,
  37, 5, 45, 13, 53, 21, 61, 29,
  36, 4, 44, 12, 52, 20, 60, 28,
  35, 3, 43, 11, 51, 19, 59, 27,
  34, 2, 42, 10, 50, 18, 58, 26,
  33, 1, 41, 9, 49, 17, 57, 25,
  32, 0, 40, 8, 48, 16, 56, 24]

abbrev Bits := List Bool

/-- The bits of one byte, most significant first, pyDes.py:427-433. -/
def byteBits (ch : Nat) : Bits :=
  [ch.testBit 7, ch.testBit 6, ch.testBit 5, ch.testBit 4, ch.testBit 3, ch.testBit 2,
   ch.testBit 1, ch.testBit 0]

/-- `__String_to_BitList`, pyDes.py:416-435. -/
def stringToBits (data : List Nat) : Bits := data.flatMap byteBits

/-- Loop of `__BitList_to_String`, pyDes.py:440-447. -/
def bitsToStringGo (pos c : Nat) : Bits → List Nat
  | [] => []
  | b :: rest =>
    let c := c + b.toNat <<< (7 - pos % 8)
    if pos % 8 = 7 then c :: bitsToStringGo (pos + 1) 0 rest else bitsToStringGo (pos + 1) c rest

/-- `__BitList_to_String`, pyDes.py:437-452. -/
def bitsToString (data : Bits) : List Nat := bitsToStringGo 0 0 data

/-- `__permutate`, pyDes.py:454-456. An index out of range would be an `IndexError`; every table
is used on a block long enough for it (theorem `permutate_in_range`), so the default is never
taken. -/
def permutate (table : List Nat) (block : Bits) : Bits := table.map fun x => block[x]?.getD false

/-- `L.append(L[0]); del L[0]`, pyDes.py:472-476. -/
def rotl1 : Bits → Bits
  | [] => []
  | x :: xs => xs ++ [x]

/-- `n` single left rotations, pyDes.py:471-479. -/
def rotl (b : Bits) : Nat → Bits
  | 0 => b
  | n + 1 => rotl (rotl1 b) n

/-- Loop of `__create_sub_keys`, pyDes.py:468-484. -/
def subKeysGo (L R : Bits) : List Nat → List Bits
  | [] => []
  | r :: rest =>
    let L := rotl L r
    let R := rotl R r
    permutate pc2 (L ++ R) :: subKeysGo L R rest

/-- `__create_sub_keys`, pyDes.py:460-484. -/
def createSubKeys (key : List Nat) : List Bits :=
  let k := permutate pc1 (stringToBits key)
  subKeysGo (k.take 28) (k.drop 28) leftRotations

/-- `list(map(lambda x, y: x ^ y, a, b))`. -/
def xorBits (a b : Bits) : Bits := List.zipWith xor a b

/-- The six-bit groups `B`, pyDes.py:514. -/
def groups (R : Bits) : List Bits :=
  [R.take 6, (R.drop 6).take 6, (R.drop 12).take 6, (R.drop 18).take 6, (R.drop 24).take 6,
   (R.drop 30).take 6, (R.drop 36).take 6, R.drop 42]

/-- One S-box substitution, pyDes.py:529-540: the four output bits for group `B[j]`. -/
def sboxBits (box : List Nat) (b : Bits) : Bits :=
  let bit := fun i => (b[i]?.getD false).toNat
  let m := bit 0 <<< 1 + bit 5
  let n := bit 1 <<< 3 + bit 2 <<< 2 + bit 3 <<< 1 + bit 4
  let v := box[m <<< 4 + n]?.getD 0
  [v.testBit 3, v.testBit 2, v.testBit 1, v.testBit 0]

/-- The round function before the final xor, pyDes.py:509-547. -/
def roundF (R K : Bits) : Bits :=
  let x := xorBits (permutate expansionTable R) K
  permutate p ((List.zipWith sboxBits sbox (groups x)).flatten)

/-- The sixteen rounds, pyDes.py:503-559: the pair (L, R) after using the given subkeys in order. -/
def rounds (L R : Bits) : List Bits → Bits × Bits
  | [] => (L, R)
  | K :: rest => rounds R (xorBits (roundF R K) L) rest

/-- `__des_crypt`, pyDes.py:485-562; decryption uses the subkeys in reverse order. -/
def desCrypt (Kn : List Bits) (encrypt : Bool) (block : Bits) : Bits :=
  let b := permutate ip block
  let r := rounds (b.take 32) (b.drop 32) (if encrypt then Kn else Kn.reverse)
  permutate fp (r.2 ++ r.1)

/-! ### `_baseDes` and `des` -/

/-- Modes, pyDes.py:94-99. -/
def ECB : Nat := 0
def CBC : Nat := 1
def PAD_NORMAL : Nat := 1
def PAD_PKCS5 : Nat := 2

/-- State of `_baseDes`, pyDes.py:108-124. `iv = []` stands for `None` (both are false in the
tests of the code); `padding` is the single pad byte or `None` (the documentation requires one
byte). -/
structure Base where
  mode : Nat
  iv : List Nat
  padding : Option Nat
  padmode : Nat
  deriving DecidableEq, Repr

/-- `_baseDes.__init__`, pyDes.py:108-124. -/
def Base.new (mode : Nat) (iv : List Nat) (pad : Option Nat) (padmode : Nat) : Except Err Base :=
  if pad.isSome ∧ padmode = PAD_PKCS5 then .error .valueError
  else if iv ≠ [] ∧ iv.length ≠ 8 then .error .valueError
  else .ok ⟨mode, iv, pad, padmode⟩

/-- `setIV`, pyDes.py:165-170. -/
def Base.setIV (b : Base) (iv : List Nat) : Except Err Base :=
  if iv = [] ∨ iv.length ≠ 8 then .error .valueError else .ok { b with iv := iv }

/-- `_padData`, pyDes.py:172-199. -/
def Base.padData (b : Base) (data : List Nat) (pad : Option Nat) (padmode : Option Nat) :
    Except Err (List Nat) :=
  let padmode := padmode.getD b.padmode
  if pad.isSome ∧ padmode = PAD_PKCS5 then .error .valueError
  else if padmode = PAD_NORMAL then
    if data.length % 8 = 0 then .ok data
    else match pad <|> b.padding with
      | none => .error .valueError
      | some c => .ok (data ++ List.replicate (8 - data.length % 8) c)
  else if padmode = PAD_PKCS5 then
    let padLen := 8 - data.length % 8
    .ok (data ++ List.replicate padLen padLen)
  else .ok data

/-- `bytes.rstrip` of one character. -/
def rstrip (data : List Nat) (c : Nat) : List Nat := (data.reverse.dropWhile (· == c)).reverse

/-- `_unpadData`, pyDes.py:201-226. -/
def Base.unpadData (b : Base) (data : List Nat) (pad : Option Nat) (padmode : Option Nat) :
    Except Err (List Nat) :=
  match data.getLast? with
  | none => .ok data
  | some last =>
    if pad.isSome ∧ padmode = some PAD_PKCS5 then .error .valueError
    else
      let padmode := padmode.getD b.padmode
      if padmode = PAD_NORMAL then
        match pad <|> b.padding with
        | none => .ok data
        | some c => .ok (sliceTo data (-8) ++ rstrip (sliceFrom data (-8)) c)
      else if padmode = PAD_PKCS5 then .ok (sliceTo data (-(last : Int)))
      else .ok data

/-- A `des` object, pyDes.py:397-414; `Kn` is the list of subkeys (`L`, `R` and `final` are
scratch attributes overwritten by every use). -/
structure Des where
  base : Base
  Kn : List Bits
  deriving DecidableEq, Repr

/-- `des.__init__`, pyDes.py:397-414. -/
def Des.new (key : List Nat) (mode : Nat) (iv : List Nat) (pad : Option Nat) (padmode : Nat) :
    Except Err Des :=
  if key.length ≠ 8 then .error .valueError
  else match Base.new mode iv pad padmode with
    | .error e => .error e
    | .ok b => .ok ⟨b, createSubKeys key⟩

/-- The data cut into 8-byte blocks `data[i:i+8]` for `i = 0, 8, …`, pyDes.py:589-603; `n` bounds
the number of blocks. -/
def blocksF : Nat → List Nat → List (List Nat)
  | 0, _ => []
  | n + 1, data => if data = [] then [] else data.take 8 :: blocksF n (data.drop 8)

/-- All blocks of the data. -/
def blocks (data : List Nat) : List (List Nat) := blocksF data.length data

/-- The block loop of `crypt`, pyDes.py:594-633: the processed blocks as bits. -/
def cryptLoop (Kn : List Bits) (encrypt cbc : Bool) (iv : Bits) : List Bits → List Bits
  | [] => []
  | block :: rest =>
    if cbc then
      if encrypt then
        let out := desCrypt Kn true (xorBits block iv)
        out :: cryptLoop Kn encrypt cbc out rest
      else
        xorBits (desCrypt Kn false block) iv :: cryptLoop Kn encrypt cbc block rest
    else desCrypt Kn encrypt block :: cryptLoop Kn encrypt cbc iv rest

/-- `crypt`, pyDes.py:564-640. -/
def Des.crypt (d : Des) (data : List Nat) (encrypt : Bool) : Except Err (List Nat) :=
  if data = [] then .ok []
  else
    let padded : Except Err (List Nat) :=
      if data.length % 8 ≠ 0 then
        if ¬ encrypt then .error .valueError
        else match d.base.padding with
          | none => .error .valueError
          | some c => .ok (data ++ List.replicate (8 - data.length % 8) c)
      else .ok data
    match padded with
    | .error e => .error e
    | .ok data =>
      if d.base.mode = CBC ∧ d.base.iv = [] then .error .valueError
      else
        .ok ((cryptLoop d.Kn encrypt (decide (d.base.mode = CBC)) (stringToBits d.base.iv)
          ((blocks data).map stringToBits)).flatMap bitsToString)

/-- `des.encrypt`, pyDes.py:642-659 (`_guardAgainstUnicode` is the identity on bytes). -/
def Des.encrypt (d : Des) (data : List Nat) (pad : Option Nat) (padmode : Option Nat) :
    Except Err (List Nat) :=
  match d.base.padData data pad padmode with
  | .error e => .error e
  | .ok data => d.crypt data true

/-- `des.decrypt`, pyDes.py:661-680. -/
def Des.decrypt (d : Des) (data : List Nat) (pad : Option Nat) (padmode : Option Nat) :
    Except Err (List Nat) :=
  match d.crypt data false with
  | .error e => .error e
  | .ok data => d.base.unpadData data pad padmode

/-- `setIV` on a `des`. -/
def Des.setIV (d : Des) (iv : List Nat) : Except Err Des :=
  match d.base.setIV iv with
  | .error e => .error e
  | .ok b => .ok { d with base := b }

/-! ### `triple_des` -/

/-- A `triple_des` object, pyDes.py:708-736. With a 16-byte key `key3` is the same object as
`key1`; every operation of the code keeps the two equal, so they are separate fields here. -/
structure Triple where
  base : Base
  key1 : Des
  key2 : Des
  key3 : Des
  deriving DecidableEq, Repr

/-- `triple_des.setKey` on the given base, pyDes.py:712-736. -/
def Triple.ofBase (b : Base) (key : List Nat) : Except Err Triple :=
  if key.length ≠ 24 ∧ key.length ≠ 16 then .error .valueError
  else
    let b := if b.mode = CBC ∧ b.iv = [] then { b with iv := key.take 8 } else b
    if b.mode = CBC ∧ b.iv.length ≠ 8 then .error .valueError
    else do
      let k1 ← Des.new (key.take 8) b.mode b.iv b.padding b.padmode
      let k2 ← Des.new ((key.drop 8).take 8) b.mode b.iv b.padding b.padmode
      let k3 ← if key.length = 16 then pure k1
               else Des.new (key.drop 16) b.mode b.iv b.padding b.padmode
      return ⟨b, k1, k2, k3⟩

/-- `triple_des.__init__`, pyDes.py:708-710. -/
def Triple.new (key : List Nat) (mode : Nat) (iv : List Nat) (pad : Option Nat) (padmode : Nat) :
    Except Err Triple :=
  match Base.new mode iv pad padmode with
  | .error e => .error e
  | .ok b => Triple.ofBase b key

/-- `self.__key1.setIV(x); self.__key2.setIV(x); self.__key3.setIV(x)`. -/
def Triple.setIVs (t : Triple) (iv : List Nat) : Except Err Triple := do
  let k1 ← t.key1.setIV iv
  let k2 ← t.key2.setIV iv
  let k3 ← t.key3.setIV iv
  return { t with key1 := k1, key2 := k2, key3 := k3 }

/-- The CBC loop of `encrypt`, pyDes.py:786-798: the concatenated result and the object. -/
def Triple.encLoop (t : Triple) : List (List Nat) → Except Err (List Nat × Triple)
  | [] => .ok ([], t)
  | blk :: rest => do
    let block ← t.key1.crypt blk true
    let block ← t.key2.crypt block false
    let block ← t.key3.crypt block true
    let t ← t.setIVs block
    let (r, t) ← Triple.encLoop t rest
    return (block ++ r, t)

/-- `triple_des.encrypt`, pyDes.py:763-805: result and the object afterwards (the inner IVs
change in CBC mode). -/
def Triple.encrypt (t : Triple) (data : List Nat) (pad : Option Nat) (padmode : Option Nat) :
    Except Err (List Nat × Triple) := do
  let data ← t.base.padData data pad padmode
  if t.base.mode = CBC then
    let t ← t.setIVs t.base.iv
    t.encLoop (blocks data)
  else
    let data ← t.key1.crypt data true
    let data ← t.key2.crypt data false
    let data ← t.key3.crypt data true
    return (data, t)

/-- The CBC loop of `decrypt`, pyDes.py:832-844. -/
def Triple.decLoop (t : Triple) : List (List Nat) → Except Err (List Nat × Triple)
  | [] => .ok ([], t)
  | iv :: rest => do
    let block ← t.key3.crypt iv false
    let block ← t.key2.crypt block true
    let block ← t.key1.crypt block false
    let t ← t.setIVs iv
    let (r, t) ← Triple.decLoop t rest
    return (block ++ r, t)

/-- `triple_des.decrypt`, pyDes.py:807-852. -/
def Triple.decrypt (t : Triple) (data : List Nat) (pad : Option Nat) (padmode : Option Nat) :
    Except Err (List Nat × Triple) := do
  if t.base.mode = CBC then
    let t ← t.setIVs t.base.iv
    let (data, t) ← t.decLoop (blocks data)
    let data ← t.base.unpadData data pad padmode
    return (data, t)
  else
    let data ← t.key3.crypt data false
    let data ← t.key2.crypt data true
    let data ← t.key1.crypt data false
    let data ← t.base.unpadData data pad padmode
    return (data, t)

end PyDes
end Verif.Model
