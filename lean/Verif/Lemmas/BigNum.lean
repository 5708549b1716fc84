import Verif.Spec.Numbers
import Verif.Lemmas.Arrays
import Verif.Lemmas.Signed
import Verif.Model.BigNumber
/-! Lemmas about the digit loops of BigNumber. -/
namespace Verif.Model
open Verif.Py Verif.Spec
namespace BigNumber

theorem positional_append (base : Nat) (l m : List Nat) :
    positional base (l ++ m) = positional base l * base ^ m.length + positional base m := by
  have aux : ∀ (m : List Nat) (acc : Nat), m.foldl (fun acc d => acc * base + d) acc =
      acc * base ^ m.length + m.foldl (fun acc d => acc * base + d) 0 := by
    intro m
    induction m with
    | nil => simp
    | cons d m ih =>
      intro acc
      rw [List.foldl_cons, ih, List.foldl_cons, ih (0 * base + d)]
      simp only [List.length_cons, Nat.pow_succ, Nat.zero_mul, Nat.zero_add]
      rw [Nat.add_mul, Nat.mul_assoc, Nat.mul_comm base, Nat.add_assoc]
  unfold positional
  rw [List.foldl_append, aux]

theorem positional_cons (base d : Nat) (l : List Nat) :
    positional base (d :: l) = d * base ^ l.length + positional base l := by
  have := positional_append base [d] l
  simpa [positional] using this

theorem positional_nil (base : Nat) : positional base [] = 0 := rfl

theorem positional_zeros (base k : Nat) (l : List Nat) :
    positional base (List.replicate k 0 ++ l) = positional base l := by
  induction k with
  | zero => rfl
  | succ k ih => rw [List.replicate_succ, List.cons_append, positional_cons, ih]; simp

theorem positional_snoc (base d : Nat) (l : List Nat) :
    positional base (l ++ [d]) = positional base l * base + d := by
  rw [positional_append]; simp [positional]

theorem positional_lt (base : Nat) (l : List Nat) (h : ∀ d ∈ l, d < base) :
    positional base l < base ^ l.length := by
  induction l with
  | nil => simp [positional]
  | cons d l ih =>
    rw [positional_cons, List.length_cons, Nat.pow_succ]
    have h1 := ih fun x hx => h x (List.mem_cons_of_mem _ hx)
    have h2 := h d List.mem_cons_self
    calc d * base ^ l.length + positional base l < d * base ^ l.length + base ^ l.length := by omega
      _ = (d + 1) * base ^ l.length := by rw [Nat.add_mul, Nat.one_mul]
      _ ≤ base * base ^ l.length := Nat.mul_le_mul_right _ h2
      _ = base ^ l.length * base := Nat.mul_comm _ _

/-- Positional notation with a given number of digits is unique. -/
theorem positional_inj (base : Nat) (l m : List Nat) (hl : ∀ d ∈ l, d < base) (hm : ∀ d ∈ m, d < base)
    (hlen : l.length = m.length) (h : positional base l = positional base m) : l = m := by
  induction l generalizing m with
  | nil =>
    cases m with
    | nil => rfl
    | cons => simp at hlen
  | cons d l ih =>
    cases m with
    | nil => simp at hlen
    | cons e m =>
      rw [positional_cons, positional_cons] at h
      have hlen' : l.length = m.length := by simpa using hlen
      have h1 := positional_lt base l fun x hx => hl x (List.mem_cons_of_mem _ hx)
      have h2 := positional_lt base m fun x hx => hm x (List.mem_cons_of_mem _ hx)
      rw [hlen'] at h h1
      generalize base ^ m.length = B at *
      have hde : d = e := by
        have k1 : (d * B + positional base l) / B = d := by
          rw [Nat.mul_comm, Nat.mul_add_div (by omega), Nat.div_eq_of_lt h1, Nat.add_zero]
        have k2 : (e * B + positional base m) / B = e := by
          rw [Nat.mul_comm, Nat.mul_add_div (by omega), Nat.div_eq_of_lt h2, Nat.add_zero]
        rw [← k1, ← k2, h]
      subst hde
      congr 1
      exact ih m (fun x hx => hl x (List.mem_cons_of_mem _ hx)) (fun x hx => hm x (List.mem_cons_of_mem _ hx)) hlen' (by omega)

/-- Digits of `v`, least significant first. -/
def ledigits (base : Nat) : Nat → Nat → List Nat
  | 0, _ => []
  | f + 1, v => if v > 0 then v % base :: ledigits base f (v / base) else []

theorem digitsF_eq (base : Nat) (conv : Int → Int) (f v : Nat) :
    digitsF (base : Int) conv f (v : Int) = (ledigits base f v).map fun d : Nat => conv (d : Int) := by
  induction f generalizing v with
  | zero => rfl
  | succ f ih =>
    unfold digitsF ledigits
    by_cases hv : v > 0
    · rw [if_pos hv, if_pos (by omega)]
      rw [show ((v : Int) / (base : Int)) = ((v / base : Nat) : Int) from (Int.natCast_ediv v base).symm, ih]
      simp
    · rw [if_neg hv, if_neg (by omega)]; rfl

theorem ledigits_lt (base : Nat) (hb : 2 ≤ base) (f v : Nat) : ∀ d ∈ ledigits base f v, d < base := by
  induction f generalizing v with
  | zero => simp [ledigits]
  | succ f ih =>
    unfold ledigits
    split
    · intro d hd
      rcases List.mem_cons.1 hd with rfl | hd
      · exact Nat.mod_lt _ (by omega)
      · exact ih _ d hd
    · simp

theorem ledigits_val (base : Nat) (hb : 2 ≤ base) (f v : Nat) (hf : v ≤ f) :
    positional base (ledigits base f v).reverse = v := by
  induction f generalizing v with
  | zero => simp [ledigits, positional]; omega
  | succ f ih =>
    unfold ledigits
    split
    · next hv =>
      have hlt : v / base < v := Nat.div_lt_self hv (by omega)
      rw [List.reverse_cons, positional_snoc, ih _ (by omega)]
      rw [Nat.mul_comm]; exact Nat.div_add_mod v base
    · simp [positional]; omega

theorem ledigits_length (base : Nat) (hb : 2 ≤ base) (f v n : Nat) (hf : v ≤ f) :
    (ledigits base f v).length ≤ n ↔ v < base ^ n := by
  induction f generalizing v n with
  | zero =>
    have : v = 0 := by omega
    subst this
    simp only [ledigits, List.length_nil, Nat.zero_le, true_iff]
    exact Nat.pow_pos (by omega)
  | succ f ih =>
    unfold ledigits
    split
    · next hv =>
      have hlt : v / base < v := Nat.div_lt_self hv (by omega)
      cases n with
      | zero => simp; omega
      | succ n =>
        rw [List.length_cons, Nat.add_le_add_iff_right, ih _ _ (by omega), Nat.pow_succ, Nat.div_lt_iff_lt_mul (by omega)]
    · next hv =>
      simp only [List.length_nil, Nat.zero_le, true_iff]
      have : 0 < base ^ n := Nat.pow_pos (by omega)
      omega

/-- The reading loop in range: positional value of the decoded cells, appended to the accumulator. -/
theorem initLoop_eq (base : Int) (conv : Int → Int) (arr : List Int) (off acc : Int) (o i n : Nat) (ho : off = o)
    (h : o + i + n ≤ arr.length) :
    initLoop base conv arr off acc i n =
      (.ok (), ((arr.drop (o + i)).take n).foldl (fun a b => a * base + conv b) acc) := by
  induction n generalizing acc i with
  | zero => simp [initLoop]
  | succ n ih =>
    unfold initLoop
    rw [ho, get_step arr o i (by omega)]
    simp only
    rw [← ho, ih _ _ (by omega), List.drop_eq_getElem_cons (show o + i < arr.length by omega)]
    simp only [List.take_succ_cons, List.foldl_cons]
    congr 1

/-- ... out of range: IndexError. -/
theorem initLoop_out (base : Int) (conv : Int → Int) (arr : List Int) (off acc : Int) (o i n : Nat) (ho : off = o)
    (h : arr.length < o + i + n) (hoi : o + i ≤ arr.length) :
    initLoop base conv arr off acc i n =
      (.error .indexError, (arr.drop (o + i)).foldl (fun a b => a * base + conv b) acc * base) := by
  induction n generalizing acc i with
  | zero => omega
  | succ n ih =>
    unfold initLoop
    by_cases hi : o + i < arr.length
    · rw [ho, get_step arr o i hi]
      simp only
      rw [← ho, ih _ _ (by omega) (by omega), List.drop_eq_getElem_cons hi, List.foldl_cons]
      congr 1
    · rw [ho, get_step_out arr o i (by omega)]
      simp only
      rw [List.drop_eq_nil_of_le (by omega)]
      rfl

theorem fold_hex (bs : List Int) (ns : List Nat) (h : SpellsAll bs ns) (acc : Nat) :
    bs.foldl (fun a b => a * (2 ^ 8) + fromHex b) (acc : Int) =
      ((ns.foldl (fun a d => a * 256 + d) acc : Nat) : Int) := by
  induction bs generalizing ns acc with
  | nil => cases ns with
    | nil => rfl
    | cons => exact absurd h id
  | cons b bs ih => cases ns with
    | nil => exact absurd h id
    | cons n ns =>
      obtain ⟨h1, h2⟩ := h
      rw [List.foldl_cons, List.foldl_cons]
      have : (acc : Int) * (2 ^ 8) + fromHex b = ((acc * 256 + n : Nat) : Int) := by
        obtain ⟨h3, h4⟩ := h1
        simp only [fromHex, iand_ff]
        omega
      rw [this]
      exact ih ns h2 _

theorem fromBcd_eq (b : Int) (h l : Nat) (hh : h < 16) (hl : l < 16) (hs : Spells b (16 * h + l)) :
    fromBcd b = (10 * h + l : Nat) := by
  obtain ⟨h1, h2⟩ := hs
  simp only [fromBcd, iand_ff, iand_0f, shr]
  omega

theorem fold_bcd (bs : List Int) (ds : List Nat) (h : SpellsBCD bs ds) (acc : Nat) :
    bs.foldl (fun a b => a * 100 + fromBcd b) (acc : Int) =
      ((ds.foldl (fun a d => a * 10 + d) acc : Nat) : Int) := by
  induction bs generalizing ds acc with
  | nil => cases ds with
    | nil => rfl
    | cons => exact absurd h id
  | cons b bs ih =>
    match ds, h with
    | x :: y :: ds, h =>
      obtain ⟨h1, h2, h3, h4⟩ := h
      rw [List.foldl_cons, List.foldl_cons, List.foldl_cons]
      have : (acc : Int) * 100 + fromBcd b = (((acc * 10 + x) * 10 + y : Nat) : Int) := by
        rw [fromBcd_eq b x y (by omega) (by omega) h3]; omega
      rw [this]
      exact ih ds h4 _

/-- Decimal digits of packed pairs. -/
def pairs (ds : List Nat) : List Nat := ds.flatMap fun d => [d / 10, d % 10]

theorem positional_pairs (ds : List Nat) : positional 10 (pairs ds) = positional 100 ds := by
  have len : ∀ ds, (pairs ds).length = 2 * ds.length := by
    intro ds
    induction ds with
    | nil => rfl
    | cons d ds ih => simp only [pairs, List.flatMap_cons, List.length_append, List.length_cons, List.length_nil] at *; omega
  induction ds with
  | nil => rfl
  | cons d ds ih =>
    have e : pairs (d :: ds) = d / 10 :: d % 10 :: pairs ds := by simp [pairs]
    rw [e, positional_cons, positional_cons, positional_cons, ih, List.length_cons, len, Nat.pow_succ, Nat.pow_mul]
    have : (10 : Nat) ^ 2 = 100 := rfl
    rw [this]
    generalize 100 ^ ds.length = B
    have hd := Nat.div_add_mod d 10
    calc d / 10 * (B * 10) + (d % 10 * B + positional 100 ds)
        = (10 * (d / 10) + d % 10) * B + positional 100 ds := by
          rw [Nat.add_mul, Nat.mul_comm 10, Nat.mul_assoc, Nat.mul_comm 10]; omega
      _ = d * B + positional 100 ds := by rw [hd]

theorem toHex_spells (d : Nat) (h : d < 256) : Spells (toHex d) d ∧ IsByte (toHex d) := by
  simp only [toHex, iand_ff]
  have e : (d : Int) % 256 = d := by omega
  rw [e, s1_eq]
  refine ⟨⟨h, ?_⟩, ?_, ?_⟩ <;> split <;> omega

theorem toBcd_spells (d : Nat) (h : d < 100) : Spells (toBcd d) (16 * (d / 10) + d % 10) ∧ IsByte (toBcd d) := by
  simp only [toBcd, iand_ff, shl]
  have e : (d : Int) % 256 = d := by omega
  have e2 : (d : Int) / 10 * 2 ^ 4 + (d : Int) % 10 = ((16 * (d / 10) + d % 10 : Nat) : Int) := by omega
  rw [e, e2, s1_eq]
  refine ⟨⟨by omega, ?_⟩, ?_, ?_⟩ <;> split <;> omega

theorem spellsAll_map (ds : List Nat) (h : ∀ d ∈ ds, d < 256) : SpellsAll (ds.map fun d : Nat => toHex (d : Int)) ds := by
  induction ds with
  | nil => trivial
  | cons d ds ih =>
    exact ⟨(toHex_spells d (h d List.mem_cons_self)).1, ih fun x hx => h x (List.mem_cons_of_mem _ hx)⟩

theorem spellsBCD_map (ds : List Nat) (h : ∀ d ∈ ds, d < 100) : SpellsBCD (ds.map fun d : Nat => toBcd (d : Int)) (pairs ds) := by
  induction ds with
  | nil => trivial
  | cons d ds ih =>
    have hd := h d List.mem_cons_self
    have e : pairs (d :: ds) = d / 10 :: d % 10 :: pairs ds := by simp [pairs]
    rw [e]
    exact ⟨by omega, by omega, (toBcd_spells d hd).1, ih fun x hx => h x (List.mem_cons_of_mem _ hx)⟩

theorem spellsAll_length {bs : List Int} {ns : List Nat} (h : SpellsAll bs ns) : bs.length = ns.length := by
  induction bs generalizing ns with
  | nil => cases ns with
    | nil => rfl
    | cons => exact absurd h id
  | cons b bs ih => cases ns with
    | nil => exact absurd h id
    | cons n ns => simp [ih h.2]

theorem spellsAll_lt {bs : List Int} {ns : List Nat} (h : SpellsAll bs ns) : ∀ n ∈ ns, n < 256 := by
  induction bs generalizing ns with
  | nil => cases ns with
    | nil => simp
    | cons => exact absurd h id
  | cons b bs ih => cases ns with
    | nil => exact absurd h id
    | cons n ns =>
      intro m hm
      rcases List.mem_cons.1 hm with rfl | hm
      · exact h.1.1
      · exact ih h.2 m hm

/-- Signed bytes are determined by the values they spell. -/
theorem spellsAll_inj {as bs : List Int} {ns : List Nat} (ha : SpellsAll as ns) (hb : SpellsAll bs ns)
    (sa : Bytes as) (sb : Bytes bs) : as = bs := by
  induction as generalizing bs ns with
  | nil => cases ns with
    | nil => cases bs with
      | nil => rfl
      | cons => exact absurd hb id
    | cons => exact absurd ha id
  | cons a as ih => cases ns with
    | nil => exact absurd ha id
    | cons n ns => cases bs with
      | nil => exact absurd hb id
      | cons b bs =>
        have h1 := ha.1
        have h2 := hb.1
        have h3 := sa a List.mem_cons_self
        have h4 := sb b List.mem_cons_self
        unfold Spells at h1 h2
        unfold IsByte at h3 h4
        have : a = b := by omega
        subst this
        congr 1
        exact ih ha.2 hb.2 (fun x hx => sa x (List.mem_cons_of_mem _ hx)) (fun x hx => sb x (List.mem_cons_of_mem _ hx))

/-- The bytes `toBytes` writes for `v`. -/
def outBytes (base : Nat) (conv : Int → Int) (v n : Nat) : List Int :=
  ((ledigits base v v).map (fun d : Nat => conv (d : Int)) ++ List.replicate (n - (ledigits base v v).length) 0).reverse

/-- The digits written: leading zeros, then the digits of `v`. -/
def outDigits (base v n : Nat) : List Nat :=
  List.replicate (n - (ledigits base v v).length) 0 ++ (ledigits base v v).reverse

theorem outBytes_eq (base : Nat) (conv : Int → Int) (h0 : conv 0 = 0) (v n : Nat) :
    outBytes base conv v n = (outDigits base v n).map fun d : Nat => conv (d : Int) := by
  simp [outBytes, outDigits, List.map_append, List.map_reverse, h0]

theorem outDigits_props (base : Nat) (hb : 2 ≤ base) (v n : Nat) (h : v < base ^ n) :
    (outDigits base v n).length = n ∧ positional base (outDigits base v n) = v ∧ ∀ d ∈ outDigits base v n, d < base := by
  have hl := (ledigits_length base hb v v n (Nat.le_refl v)).2 h
  refine ⟨by simp [outDigits]; omega, ?_, ?_⟩
  · unfold outDigits
    rw [positional_zeros]
    exact ledigits_val base hb v v (Nat.le_refl v)
  · intro d hd
    rcases List.mem_append.1 hd with hd | hd
    · rw [List.eq_of_mem_replicate hd]; omega
    · exact ledigits_lt base hb v v d (List.mem_reverse.1 hd)

/-- The common tail of `toBytes` once the digits are known. -/
theorem finish (base : Nat) (hb : 2 ≤ base) (conv : Int → Int) (v : Nat) (buf : List Int) (off : Int) (n : Nat) (array : List Int)
    (e : array = (ledigits base v v).map fun d : Nat => conv (d : Int)) :
    (if (n : Int) < array.length then ((.error .arithmetic, buf) : Res (List Int) Unit)
      else Util.arrayCopy (array ++ fresh ((n : Int) - array.length) 0).reverse 0 buf off n) =
      if v < base ^ n then Util.arrayCopy (outBytes base conv v n) 0 buf off n else (.error .arithmetic, buf) := by
  have hl := ledigits_length base hb v v n (Nat.le_refl v)
  subst e
  simp only [List.length_map]
  by_cases hv : v < base ^ n
  · rw [if_pos hv, if_neg (by have := hl.2 hv; omega)]
    have : fresh ((n : Int) - ((ledigits base v v).length : Int)) (0 : Int) = List.replicate (n - (ledigits base v v).length) 0 := by
      unfold fresh rangeLen; congr 1; omega
    rw [this]; rfl
  · rw [if_neg hv, if_pos]
    have : ¬ (ledigits base v v).length ≤ n := fun h => hv (hl.1 h)
    omega

theorem toBytes_hex (m : Option Int) (v : Nat) (buf : List Int) (off : Int) (n : Nat) :
    toBytes ⟨m, some (v : Int)⟩ buf off n FORMAT_HEX =
      if v < 256 ^ n then Util.arrayCopy (outBytes 256 toHex v n) 0 buf off n else (.error .arithmetic, buf) :=
  finish 256 (by omega) toHex v buf off n (digits (2 ^ 8) toHex (v : Int)) (digitsF_eq 256 toHex v v)

theorem toBytes_bcd (m : Option Int) (v : Nat) (buf : List Int) (off : Int) (n : Nat) :
    toBytes ⟨m, some (v : Int)⟩ buf off n FORMAT_BCD =
      if v < 100 ^ n then Util.arrayCopy (outBytes 100 toBcd v n) 0 buf off n else (.error .arithmetic, buf) :=
  finish 100 (by omega) toBcd v buf off n (digits 100 toBcd (v : Int)) (digitsF_eq 100 toBcd v v)

end BigNumber
end Verif.Model
