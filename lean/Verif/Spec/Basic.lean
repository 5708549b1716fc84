/-! Small specifications the property theorems are stated with. Nothing here refers to the model. -/
namespace Verif.Spec

/-- `v` is a Java byte (signed, 8 bits). -/
def IsByte (v : Int) : Prop := -128 ≤ v ∧ v ≤ 127

/-- `v` is a Java short (signed, 16 bits). -/
def IsShort (v : Int) : Prop := -32768 ≤ v ∧ v ≤ 32767

/-- `v` is a Java int (signed, 32 bits). -/
def IsInt32 (v : Int) : Prop := -2147483648 ≤ v ∧ v ≤ 2147483647

/-- `s` is the two's-complement reading of the low `w` bits of `v`: it lies in the signed range
of `w` bits and differs from `v` by a multiple of `2^w`. -/
def IsSignedOf (w : Nat) (v s : Int) : Prop :=
  -(2 ^ (w - 1)) ≤ s ∧ s < 2 ^ (w - 1) ∧ (2 ^ w : Int) ∣ v - s

/-- `b` spells the byte value `n` (0..255): unsigned, or signed (-128..-1 for 128..255). -/
def Spells (b : Int) (n : Nat) : Prop := n < 256 ∧ (b = n ∨ (128 ≤ n ∧ b = n - 256))

/-- Every element of the list is a Java byte. -/
def Bytes (l : List Int) : Prop := ∀ x ∈ l, IsByte x

/-- `new` is `old` with exactly the cells `off, …, off + vs.length - 1` replaced by `vs`:
same length, those cells hold `vs`, every other cell is unchanged. -/
def Written (old new : List Int) (off : Nat) (vs : List Int) : Prop :=
  off + vs.length ≤ old.length ∧ new.length = old.length ∧
  (∀ i, (h : i < vs.length) → new[off + i]? = some vs[i]) ∧
  (∀ j, (j < off ∨ off + vs.length ≤ j) → new[j]? = old[j]?)

/-- The `n` cells of `l` from `off` on (`l[off .. off+n-1]`), when they exist. -/
def range (l : List Int) (off n : Nat) : List Int := (l.drop off).take n

end Verif.Spec
