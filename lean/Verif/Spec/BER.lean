import Verif.Spec.Numbers
/-! The identifier and length octets of BER (ITU-T X.690, 8.1.2 and 8.1.3), and sequences of short TLVs. Nothing here refers to the model. -/
namespace Verif.Spec

/-- The leading identifier octet: class in bits 8-7, constructed flag in bit 6, `low` in bits 5-1 (X.690 8.1.2.2-8.1.2.5). -/
def leading (cls : Nat) (constructed : Bool) (low : Nat) : Nat := 64 * cls + (if constructed then 32 else 0) + low

/-- `ns` are identifier octets of the tag: low-tag-number form (8.1.2.2), or leading octet with bits 5-1 all ones
followed by the base-128 digits of the number, bit 8 set in all but the last (8.1.2.4). Leading zero digits are let through. -/
def TagOctets (cls : Nat) (constructed : Bool) (num : Nat) (ns : List Nat) : Prop :=
  cls < 4 ∧
  ((num ≤ 30 ∧ ns = [leading cls constructed num]) ∨
   ∃ ds last, ns = leading cls constructed 31 :: (ds.map (128 + ·) ++ [last]) ∧ (∀ d ∈ ds, d < 128) ∧ last < 128 ∧
     positional 128 (ds ++ [last]) = num)

/-- The canonical identifier octets: the short form for numbers up to 30 only, the long form only above and without
leading zero digit (8.1.2.4.2 c). -/
def CanonicalTag (cls : Nat) (constructed : Bool) (num : Nat) (ns : List Nat) : Prop :=
  cls < 4 ∧
  ((num ≤ 30 ∧ ns = [leading cls constructed num]) ∨
   (31 ≤ num ∧ ∃ ds last, ns = leading cls constructed 31 :: (ds.map (128 + ·) ++ [last]) ∧ (∀ d ∈ ds, d < 128) ∧ last < 128 ∧
     positional 128 (ds ++ [last]) = num ∧ (ds ++ [last]).head? ≠ some 0))

/-- Definite-form length octets (8.1.3.3-8.1.3.5): short form for 0..127, or `0x80 + k` followed by `k` base-256 digits. -/
def LengthOctets (len : Nat) (ns : List Nat) : Prop :=
  (len ≤ 127 ∧ ns = [len]) ∨
  ∃ ds, 0 < ds.length ∧ ds.length ≤ 126 ∧ (∀ d ∈ ds, d < 256) ∧ positional 256 ds = len ∧ ns = (128 + ds.length) :: ds

/-- A TLV with a one-byte tag and at most 127 value bytes. -/
structure Node where
  cls : Nat
  constructed : Bool
  num : Nat
  value : List Int
  deriving DecidableEq, Repr

/-- The cells `l` are the encoding of the node: tag byte (signed or unsigned), length, value. -/
def Encodes (n : Node) (l : List Int) : Prop :=
  n.cls < 4 ∧ n.num ≤ 30 ∧ n.value.length ≤ 127 ∧
  ∃ b, Spells b (leading n.cls n.constructed n.num) ∧ l = b :: (n.value.length : Int) :: n.value

/-- The cells `l` are the encodings of the nodes, one after the other. -/
def EncodesAll : List Node → List Int → Prop
  | [], l => l = []
  | n :: ns, l => ∃ a b, l = a ++ b ∧ Encodes n a ∧ EncodesAll ns b

/-- A data object: a primitive one with its value, or a constructed one with its children (X.690 8.1.4), to any depth. -/
inductive Tree where
  | leaf (cls num : Nat) (value : List Int)
  | node (cls num : Nat) (children : List Tree)

mutual
/-- The cells `l` are the encoding of the data object, with one-byte tags and lengths. -/
def EncodesTree : Tree → List Int → Prop
  | .leaf cls num v, l => Encodes ⟨cls, false, num, v⟩ l
  | .node cls num cs, l => ∃ v, EncodesForest cs v ∧ Encodes ⟨cls, true, num, v⟩ l
/-- The cells `l` are the encodings of the data objects, one after the other. -/
def EncodesForest : List Tree → List Int → Prop
  | [], l => l = []
  | t :: ts, l => ∃ a b, l = a ++ b ∧ EncodesTree t a ∧ EncodesForest ts b
end

/-- Class, constructed flag and number. -/
def Tree.tag : Tree → Nat × Bool × Nat
  | .leaf c k _ => (c, false, k)
  | .node c k _ => (c, true, k)

/-- Where a path of tags leads. -/
inductive Found where
  /-- to this data object -/
  | found (t : Tree)
  /-- at some step no child had the wanted tag -/
  | missing
  /-- at some step a child was wanted of a primitive data object -/
  | primitive

/-- Follow the path, at each step to the first child with the tag. -/
def lookup : Tree → List (Nat × Bool × Nat) → Found
  | t, [] => .found t
  | .leaf _ _ _, _ :: _ => .primitive
  | .node _ _ cs, w :: ws =>
    match cs.find? (fun c => decide (c.tag = w)) with
    | none => .missing
    | some c => lookup c ws

end Verif.Spec
