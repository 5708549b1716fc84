/-! The Data Encryption Standard, written from FIPS PUB 46-3 (bits of a block are numbered from 1, leftmost first) and the
modes of operation (FIPS PUB 81, ANSI X9.52). Nothing here refers to the model. -/
namespace Verif.Spec.DES

abbrev Bits := List Bool

/-- Bit `i` of a block, numbered from 1 on the left. -/
def bit (b : Bits) (i : Nat) : Bool := b[i - 1]?.getD false

/-- The block whose bits are the bits `table` of `b`. -/
def select (table : List Nat) (b : Bits) : Bits := table.map (bit b)

def xorB (a b : Bits) : Bits := List.zipWith xor a b

/-- Initial permutation. -/
def IP : List Nat := [
  58, 50, 42, 34, 26, 18, 10, 2, 60, 52, 44, 36, 28, 20, 12, 4,
  62, 54, 46, 38, 30, 22, 14, 6, 64, 56, 48, 40, 32, 24, 16, 8,
  57, 49, 41, 33, 25, 17,  9, 1, 59, 51, 43, 35, 27, 19, 11, 3,
  61, 53, 45, 37, 29, 21, 13, 5, 63, 55, 47, 39, 31, 23, 15, 7]

/-- Inverse initial permutation. -/
def IPinv : List Nat := [
  40, 8, 48, 16, 56, 24, 64, 32, 39, 7, 47, 15, 55, 23, 63, 31,
  38, 6, 46, 14, 54, 22, 62, 30, 37, 5, 45, 13, 53, 21, 61, 29,
  36, 4, 44, 12, 52, 20, 60, 28, 35, 3, 43, 11, 51, 19, 59, 27,
  34, 2, 42, 10, 50, 18, 58, 26, 33, 1, 41,  9, 49, 17, 57, 25]

/-- E bit-selection table. -/
def E : List Nat := [
  32,  1,  2,  3,  4,  5,  4,  5,  6,  7,  8,  9,
   8,  9, 10, 11, 12, 13, 12, 13, 14, 15, 16, 17,
  16, 17, 18, 19, 20, 21, 20, 21, 22, 23, 24, 25,
  24, 25, 26, 27, 28, 29, 28, 29, 30, 31, 32,  1]

/-- Permutation P. -/
def P : List Nat := [
  16,  7, 20, 21, 29, 12, 28, 17,  1, 15, 23, 26,  5, 18, 31, 10,
   2,  8, 24, 14, 32, 27,  3,  9, 19, 13, 30,  6, 22, 11,  4, 25]

/-- Permuted choice 1, the half that gives C0 ... -/
def PC1C : List Nat := [57, 49, 41, 33, 25, 17, 9, 1, 58, 50, 42, 34, 26, 18, 10, 2, 59, 51, 43, 35, 27, 19, 11, 3, 60, 52, 44, 36]
/-- ... and the half that gives D0. -/
def PC1D : List Nat := [63, 55, 47, 39, 31, 23, 15, 7, 62, 54, 46, 38, 30, 22, 14, 6, 61, 53, 45, 37, 29, 21, 13, 5, 28, 20, 12, 4]

/-- Permuted choice 2. -/
def PC2 : List Nat := [
  14, 17, 11, 24,  1,  5,  3, 28, 15,  6, 21, 10, 23, 19, 12,  4, 26,  8, 16,  7, 27, 20, 13,  2,
  41, 52, 31, 37, 47, 55, 30, 40, 51, 45, 33, 48, 44, 49, 39, 56, 34, 53, 46, 42, 50, 36, 29, 32]

/-- Number of left shifts at iteration `n` (1 to 16). -/
def shifts (n : Nat) : Nat := if n = 1 ∨ n = 2 ∨ n = 9 ∨ n = 16 then 1 else 2

/-- The selection functions S1 to S8: rows 0 to 3, columns 0 to 15. -/
def S : List (List (List Nat)) := [
 [[14,  4, 13,  1,  2, 15, 11,  8,  3, 10,  6, 12,  5,  9,  0,  7],
  [ 0, 15,  7,  4, 14,  2, 13,  1, 10,  6, 12, 11,  9,  5,  3,  8],
  [ 4,  1, 14,  8, 13,  6,  2, 11, 15, 12,  9,  7,  3, 10,  5,  0],
  [15, 12,  8,  2,  4,  9,  1,  7,  5, 11,  3, 14, 10,  0,  6, 13]],
 [[15,  1,  8, 14,  6, 11,  3,  4,  9,  7,  2, 13, 12,  0,  5, 10],
  [ 3, 13,  4,  7, 15,  2,  8, 14, 12,  0,  1, 10,  6,  9, 11,  5],
  [ 0, 14,  7, 11, 10,  4, 13,  1,  5,  8, 12,  6,  9,  3,  2, 15],
  [13,  8, 10,  1,  3, 15,  4,  2, 11,  6,  7, 12,  0,  5, 14,  9]],
 [[10,  0,  9, 14,  6,  3, 15,  5,  1, 13, 12,  7, 11,  4,  2,  8],
  [13,  7,  0,  9,  3,  4,  6, 10,  2,  8,  5, 14, 12, 11, 15,  1],
  [13,  6,  4,  9,  8, 15,  3,  0, 11,  1,  2, 12,  5, 10, 14,  7],
  [ 1, 10, 13,  0,  6,  9,  8,  7,  4, 15, 14,  3, 11,  5,  2, 12]],
 [[ 7, 13, 14,  3,  0,  6,  9, 10,  1,  2,  8,  5, 11, 12,  4, 15],
  [13,  8, 11,  5,  6, 15,  0,  3,  4,  7,  2, 12,  1, 10, 14,  9],
  [10,  6,  9,  0, 12, 11,  7, 13, 15,  1,  3, 14,  5,  2,  8,  4],
  [ 3, 15,  0,  6, 10,  1, 13,  8,  9,  4,  5, 11, 12,  7,  2, 14]],
 [[ 2, 12,  4,  1,  7, 10, 11,  6,  8,  5,  3, 15, 13,  0, 14,  9],
  [14, 11,  2, 12,  4,  7, 13,  1,  5,  0, 15, 10,  3,  9,  8,  6],
  [ 4,  2,  1, 11, 10, 13,  7,  8, 15,  9, 12,  5,  6,  3,  0, 14],
  [11,  8, 12,  7,  1, 14,  2, 13,  6, 15,  0,  9, 10,  4,  5,  3]],
 [[12,  1, 10, 15,  9,  2,  6,  8,  0, 13,  3,  4, 14,  7,  5, 11],
  [10, 15,  4,  2,  7, 12,  9,  5,  6,  1, 13, 14,  0, 11,  3,  8],
  [ 9, 14, 15,  5,  2,  8, 12,  3,  7,  0,  4, 10,  1, 13, 11,  6],
  [ 4,  3,  2, 12,  9,  5, 15, 10, 11, 14,  1,  7,  6,  0,  8, 13]],
 [[ 4, 11,  2, 14, 15,  0,  8, 13,  3, 12,  9,  7,  5, 10,  6,  1],
  [13,  0, 11,  7,  4,  9,  1, 10, 14,  3,  5, 12,  2, 15,  8,  6],
  [ 1,  4, 11, 13, 12,  3,  7, 14, 10, 15,  6,  8,  0,  5,  9,  2],
  [ 6, 11, 13,  8,  1,  4, 10,  7,  9,  5,  0, 15, 14,  2,  3, 12]],
 [[13,  2,  8,  4,  6, 15, 11,  1, 10,  9,  3, 14,  5,  0, 12,  7],
  [ 1, 15, 13,  8, 10,  3,  7,  4, 12,  5,  6, 11,  0, 14,  9,  2],
  [ 7, 11,  4,  1,  9, 12, 14,  2,  0,  6, 10, 13, 15,  3,  5,  8],
  [ 2,  1, 14,  7,  4, 10,  8, 13, 15, 12,  9,  0,  3,  5,  6, 11]]]

/-- The number written by bits, most significant first. -/
def number (b : Bits) : Nat := b.foldl (fun acc x => 2 * acc + x.toNat) 0

/-- The four bits of a number below 16. -/
def fourBits (v : Nat) : Bits := [v / 8 % 2 == 1, v / 4 % 2 == 1, v / 2 % 2 == 1, v % 2 == 1]

/-- S_i (i from 1) on a block of six bits: the first and the last bit give the row, the middle four the column. -/
def substitute (i : Nat) (b : Bits) : Bits :=
  fourBits ((((S[i - 1]?.getD [])[number [bit b 1, bit b 6]]?).getD [])[number [bit b 2, bit b 3, bit b 4, bit b 5]]?.getD 0)

/-- The i-th group of six bits, i from 1. -/
def sixBits (i : Nat) (b : Bits) : Bits := (b.drop (6 * (i - 1))).take 6

/-- The cipher function f(R, K) = P(S1(B1) S2(B2) ... S8(B8)) where B1 B2 ... B8 = K xor E(R). -/
def f (R K : Bits) : Bits :=
  let B := xorB K (select E R)
  select P (substitute 1 (sixBits 1 B) ++ substitute 2 (sixBits 2 B) ++ substitute 3 (sixBits 3 B) ++ substitute 4 (sixBits 4 B) ++
    substitute 5 (sixBits 5 B) ++ substitute 6 (sixBits 6 B) ++ substitute 7 (sixBits 7 B) ++ substitute 8 (sixBits 8 B))

/-- Left shift (rotation) by `k` places. -/
def leftShift (k : Nat) (b : Bits) : Bits := b.drop k ++ b.take k

def C (KEY : Bits) : Nat → Bits
  | 0 => select PC1C KEY
  | n + 1 => leftShift (shifts (n + 1)) (C KEY n)
def D (KEY : Bits) : Nat → Bits
  | 0 => select PC1D KEY
  | n + 1 => leftShift (shifts (n + 1)) (D KEY n)

/-- The key schedule: K_n = KS(n, KEY) = PC-2(C_n D_n). -/
def KS (KEY : Bits) (n : Nat) : Bits := select PC2 (C KEY n ++ D KEY n)

/-- (L_n, R_n): L_n = R_(n-1), R_n = L_(n-1) xor f(R_(n-1), K_n), using `K n` at iteration `n`. -/
def iterate (K : Nat → Bits) (L0 R0 : Bits) : Nat → Bits × Bits
  | 0 => (L0, R0)
  | n + 1 =>
    let (L, R) := iterate K L0 R0 n
    (R, xorB L (f R (K (n + 1))))

/-- Enciphering with the round keys `K 1`, ..., `K 16`; the preoutput block is R16 L16. -/
def run (K : Nat → Bits) (input : Bits) : Bits :=
  let b := select IP input
  let (L16, R16) := iterate K (b.take 32) (b.drop 32) 16
  select IPinv (R16 ++ L16)

/-- The bits of a byte, most significant first. -/
def byteToBits (n : Nat) : Bits :=
  [n / 128 % 2 == 1, n / 64 % 2 == 1, n / 32 % 2 == 1, n / 16 % 2 == 1, n / 8 % 2 == 1, n / 4 % 2 == 1, n / 2 % 2 == 1, n % 2 == 1]

def toBits (bytes : List Nat) : Bits := bytes.flatMap byteToBits

/-- The byte number `i` (from 0) of a bit block. -/
def byteOf (b : Bits) (i : Nat) : Nat := number ((b.drop (8 * i)).take 8)

/-- The eight bytes of a 64-bit block. -/
def toBytes (b : Bits) : List Nat := [byteOf b 0, byteOf b 1, byteOf b 2, byteOf b 3, byteOf b 4, byteOf b 5, byteOf b 6, byteOf b 7]

/-- DES enciphering of one 8-byte block under an 8-byte key. -/
def encipher (key block : List Nat) : List Nat := toBytes (run (KS (toBits key)) (toBits block))

/-- DES deciphering: K16 is used in the first iteration, K15 in the second, and so on. -/
def decipher (key block : List Nat) : List Nat := toBytes (run (fun n => KS (toBits key) (17 - n)) (toBits block))

/-- Triple DES (TDEA): encipher with key 1, decipher with key 2, encipher with key 3, and its inverse. -/
def encipher3 (k1 k2 k3 block : List Nat) : List Nat := encipher k3 (decipher k2 (encipher k1 block))
def decipher3 (k1 k2 k3 block : List Nat) : List Nat := decipher k1 (encipher k2 (decipher k3 block))

/-- An 8-byte block. -/
def IsBlock (b : List Nat) : Prop := b.length = 8 ∧ ∀ x ∈ b, x < 256

/-! ### Modes of operation, for any block cipher -/

/-- Bytewise exclusive or. -/
def xorBytes (a b : List Nat) : List Nat := List.zipWith (· ^^^ ·) a b

/-- Electronic codebook. -/
def ecb (F : List Nat → List Nat) (blocks : List (List Nat)) : List (List Nat) := blocks.map F

/-- Cipher block chaining, enciphering: C_j = F(P_j xor C_(j-1)), C_0 = iv. -/
def cbcEncrypt (F : List Nat → List Nat) (iv : List Nat) : List (List Nat) → List (List Nat)
  | [] => []
  | p :: ps => F (xorBytes p iv) :: cbcEncrypt F (F (xorBytes p iv)) ps

/-- Cipher block chaining, deciphering: P_j = G(C_j) xor C_(j-1). -/
def cbcDecrypt (G : List Nat → List Nat) (iv : List Nat) : List (List Nat) → List (List Nat)
  | [] => []
  | c :: cs => xorBytes (G c) iv :: cbcDecrypt G c cs

end Verif.Spec.DES
