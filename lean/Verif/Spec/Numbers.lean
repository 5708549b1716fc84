import Verif.Spec.Basic
/-! Numbers written in positional notation. -/
namespace Verif.Spec

/-- The number written by the digits `l` in the given base, most significant first. -/
def positional (base : Nat) (l : List Nat) : Nat := l.foldl (fun acc d => acc * base + d) 0

/-- The bytes `bs` (signed or unsigned) spell, one by one, the byte values `ns`. -/
def SpellsAll : List Int → List Nat → Prop
  | [], [] => True
  | b :: bs, n :: ns => Spells b n ∧ SpellsAll bs ns
  | _, _ => False

/-- The bytes `bs` spell, two per byte, the decimal digits `ds` (packed BCD). -/
def SpellsBCD : List Int → List Nat → Prop
  | [], [] => True
  | b :: bs, h :: l :: ds => h < 10 ∧ l < 10 ∧ Spells b (16 * h + l) ∧ SpellsBCD bs ds
  | _, _ => False

end Verif.Spec
