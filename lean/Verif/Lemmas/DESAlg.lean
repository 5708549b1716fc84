import Verif.Lemmas.DESModes
/-! Bit-level lemmas for the algebraic properties of DES: parity bits, complementation, weak keys. -/
namespace Verif.Model.PyDes
open Verif.Py Verif.Spec.DES

/-! ### One bit of a byte string -/

theorem stringToBits_getElem? (d : List Nat) (i j : Nat) (hj : j < 8) :
    (stringToBits d)[8 * i + j]? = (d[i]?).map fun x => x.testBit (7 - j) := by
  induction d generalizing i with
  | nil => simp [stringToBits]
  | cons x xs ih =>
    have hs : stringToBits (x :: xs) = byteBits x ++ stringToBits xs := by simp [stringToBits]
    rw [hs]
    cases i with
    | zero =>
      rw [List.getElem?_append_left (by simp; omega)]
      simp only [Nat.mul_zero, Nat.zero_add, List.getElem?_cons_zero, Option.map_some]
      match j, hj with
      | 0, _ => rfl
      | 1, _ => rfl
      | 2, _ => rfl
      | 3, _ => rfl
      | 4, _ => rfl
      | 5, _ => rfl
      | 6, _ => rfl
      | 7, _ => rfl
    | succ i =>
      rw [List.getElem?_append_right (by simp; omega)]
      simp only [byteBits_length, List.getElem?_cons_succ]
      rw [show 8 * (i + 1) + j - 8 = 8 * i + j by omega]
      exact ih i

/-! ### Parity bits -/

theorem pc1_no_parity : (pc1.all (fun x => x % 8 != 7)) = true := by decide

theorem permutate_congr (t : List Nat) (a b : Bits) (h : ∀ x ∈ t, a[x]? = b[x]?) : permutate t a = permutate t b := by
  unfold permutate
  apply List.map_congr_left
  intro x hx
  rw [h x hx]

theorem createSubKeys_parity (k k' : List Nat) (h : k.map (· / 2) = k'.map (· / 2)) : createSubKeys k = createSubKeys k' := by
  have hp : permutate pc1 (stringToBits k) = permutate pc1 (stringToBits k') := by
    apply permutate_congr
    intro x hx
    have hx7 : x % 8 ≠ 7 := by
      have := List.all_eq_true.1 pc1_no_parity x hx
      simpa using this
    rw [show x = 8 * (x / 8) + x % 8 by omega, stringToBits_getElem? _ _ _ (by omega), stringToBits_getElem? _ _ _ (by omega)]
    have e : (k.map (· / 2))[x / 8]? = (k'.map (· / 2))[x / 8]? := by rw [h]
    simp only [List.getElem?_map] at e
    obtain ⟨w, hw⟩ : ∃ w, 7 - x % 8 = w + 1 := ⟨6 - x % 8, by omega⟩
    rw [hw]
    cases h1 : k[x / 8]? with
    | none => rw [h1] at e; cases h2 : k'[x / 8]? with
      | none => rfl
      | some b => rw [h2] at e; cases e
    | some a => rw [h1] at e; cases h2 : k'[x / 8]? with
      | none => rw [h2] at e; cases e
      | some b =>
        rw [h2] at e
        simp only [Option.map_some, Option.some.injEq] at e ⊢
        rw [Nat.testBit_succ, Nat.testBit_succ, e]
  unfold createSubKeys
  simp only [hp]

/-- Only the first eight bytes of a key matter. -/
theorem createSubKeys_take (k : List Nat) : createSubKeys k = createSubKeys (k.take 8) := by
  have hp : permutate pc1 (stringToBits k) = permutate pc1 (stringToBits (k.take 8)) := by
    apply permutate_congr
    intro x hx
    have hx6 : x < 64 := by
      have := List.all_eq_true.1 tables_in_range.1 x hx
      simpa using this
    rw [show x = 8 * (x / 8) + x % 8 by omega, stringToBits_getElem? _ _ _ (by omega), stringToBits_getElem? _ _ _ (by omega)]
    rw [List.getElem?_take_of_lt (by omega)]
  unfold createSubKeys
  simp only [hp]

/-! ### Complementation -/

def cmpl (b : Bits) : Bits := b.map (!·)

@[simp] theorem cmpl_length (b : Bits) : (cmpl b).length = b.length := by simp [cmpl]

theorem cmpl_append (a b : Bits) : cmpl (a ++ b) = cmpl a ++ cmpl b := by simp [cmpl]
theorem cmpl_take (a : Bits) (n : Nat) : (cmpl a).take n = cmpl (a.take n) := by simp [cmpl, List.map_take]
theorem cmpl_drop (a : Bits) (n : Nat) : (cmpl a).drop n = cmpl (a.drop n) := by simp [cmpl, List.map_drop]

theorem permutate_cmpl (t : List Nat) (b : Bits) (h : ∀ x ∈ t, x < b.length) : permutate t (cmpl b) = cmpl (permutate t b) := by
  unfold permutate cmpl
  rw [List.map_map]
  apply List.map_congr_left
  intro x hx
  have := h x hx
  simp [this]

theorem permutate_cmpl' (t : List Nat) (b : Bits) (n : Nat) (ht : (t.all (· < n)) = true) (h : n ≤ b.length) : permutate t (cmpl b) = cmpl (permutate t b) :=
  permutate_cmpl t b fun x hx => by have := List.all_eq_true.1 ht x hx; simp only [decide_eq_true_eq] at this; omega

theorem xorBits_cmpl (a b : Bits) : xorBits (cmpl a) (cmpl b) = xorBits a b := by
  unfold xorBits cmpl
  rw [List.zipWith_map]
  congr 1
  funext x y
  cases x <;> cases y <;> rfl

theorem xorBits_cmpl_right (a b : Bits) : xorBits a (cmpl b) = cmpl (xorBits a b) := by
  unfold xorBits cmpl
  rw [List.map_zipWith, List.zipWith_map_right]
  congr 1
  funext x y
  cases x <;> cases y <;> rfl

theorem rotl1_cmpl (b : Bits) : rotl1 (cmpl b) = cmpl (rotl1 b) := by cases b <;> simp [rotl1, cmpl]

theorem rotl_cmpl (b : Bits) (n : Nat) : rotl (cmpl b) n = cmpl (rotl b n) := by
  induction n generalizing b with
  | zero => rfl
  | succ n ih => rw [rotl, rotl, rotl1_cmpl, ih]

theorem subKeysGo_cmpl (L R : Bits) (hL : L.length = 28) (hR : R.length = 28) (rs : List Nat) : subKeysGo (cmpl L) (cmpl R) rs = (subKeysGo L R rs).map cmpl := by
  induction rs generalizing L R with
  | nil => rfl
  | cons r rs ih =>
    simp only [subKeysGo, List.map_cons]
    rw [rotl_cmpl, rotl_cmpl, ih _ _ (by simp [hL]) (by simp [hR]), ← cmpl_append, permutate_cmpl' _ _ 56 tables_in_range.2.1 (by simp [hL, hR])]

theorem subKeysGo_lengths (L R : Bits) (rs : List Nat) : ∀ K ∈ subKeysGo L R rs, K.length = 48 := by
  induction rs generalizing L R with
  | nil => intro K h; simp [subKeysGo] at h
  | cons r rs ih =>
    intro K h
    simp only [subKeysGo, List.mem_cons] at h
    rcases h with rfl | h
    · rw [permutate_length]; rfl
    · exact ih _ _ K h

/-- The complement of a byte string. -/
def cmplBytes (d : List Nat) : List Nat := d.map (255 - ·)

theorem byteBits_cmpl (x : Nat) (h : x < 256) : byteBits (255 - x) = cmpl (byteBits x) := by
  have : ∀ i, i < 8 → (255 - x).testBit i = !x.testBit i := by
    intro i hi
    have := Nat.testBit_two_pow_sub_succ (n := 8) (x := x) h i
    rw [show (2 : Nat) ^ 8 - (x + 1) = 255 - x by omega] at this
    simp [this, hi]
  simp only [byteBits, cmpl, List.map_cons, List.map_nil]
  rw [this 7 (by omega), this 6 (by omega), this 5 (by omega), this 4 (by omega), this 3 (by omega), this 2 (by omega), this 1 (by omega), this 0 (by omega)]

theorem stringToBits_cmpl (d : List Nat) (h : ∀ x ∈ d, x < 256) : stringToBits (cmplBytes d) = cmpl (stringToBits d) := by
  induction d with
  | nil => rfl
  | cons x xs ih =>
    show byteBits (255 - x) ++ stringToBits (cmplBytes xs) = cmpl (byteBits x ++ stringToBits xs)
    rw [cmpl_append, byteBits_cmpl x (h x (by simp)), ih (fun y hy => h y (by simp [hy]))]

theorem createSubKeys_cmpl (key : List Nat) (hk : 8 ≤ key.length) (h : ∀ x ∈ key, x < 256) :
    createSubKeys (cmplBytes key) = (createSubKeys key).map cmpl := by
  unfold createSubKeys
  simp only
  rw [stringToBits_cmpl key h, permutate_cmpl' _ _ 64 tables_in_range.1 (by simp; omega), cmpl_take, cmpl_drop,
    subKeysGo_cmpl _ _ (by simp [pc1]) (by simp [pc1])]

theorem roundF_cmpl (R K : Bits) (hR : R.length = 32) : roundF (cmpl R) (cmpl K) = roundF R K := by
  unfold roundF
  simp only
  rw [permutate_cmpl' _ _ 32 (by decide) (by omega), xorBits_cmpl]

theorem rounds_cmpl (L R : Bits) (hL : L.length = 32) (hR : R.length = 32) (ks : List Bits) :
    rounds (cmpl L) (cmpl R) (ks.map cmpl) = (cmpl (rounds L R ks).1, cmpl (rounds L R ks).2) := by
  induction ks generalizing L R with
  | nil => rfl
  | cons K ks ih =>
    simp only [rounds, List.map_cons]
    rw [roundF_cmpl R K hR, xorBits_cmpl_right, ih _ _ hR (by simp [hL])]

theorem desCrypt_cmpl (Kn : List Bits) (e : Bool) (b : Bits) (h : b.length = 64) : desCrypt (Kn.map cmpl) e (cmpl b) = cmpl (desCrypt Kn e b) := by
  unfold desCrypt
  simp only
  have hip : permutate ip (cmpl b) = cmpl (permutate ip b) := permutate_cmpl' _ _ 64 tables_in_range.2.2.1 (by omega)
  have hks : (if e = true then Kn.map cmpl else (Kn.map cmpl).reverse) = (if e = true then Kn else Kn.reverse).map cmpl := by
    cases e <;> simp
  have hl := rounds_length ((permutate ip b).take 32) ((permutate ip b).drop 32) (if e = true then Kn else Kn.reverse) (by simp [ip]) (by simp [ip])
  rw [hip, hks, cmpl_take, cmpl_drop, rounds_cmpl _ _ (by simp [ip]) (by simp [ip])]
  simp only
  rw [← cmpl_append, permutate_cmpl' _ _ 64 (by decide) (by simp only [List.length_append]; omega)]

theorem bitsToString_cmpl (n : Nat) (b : Bits) (h : b.length = 8 * n) : bitsToString (cmpl b) = cmplBytes (bitsToString b) := by
  obtain ⟨h1, h2, h3⟩ := stringToBits_bitsToString n b h
  have := stringToBits_cmpl (bitsToString b) h3
  rw [h1] at this
  rw [← this, bitsToString_stringToBits]
  intro x hx
  simp only [cmplBytes, List.mem_map] at hx
  obtain ⟨y, _, rfl⟩ := hx
  omega

theorem blockF_cmpl (key b : List Nat) (hk : 8 ≤ key.length) (hx : ∀ x ∈ key, x < 256) (hb : IsBlock b) (e : Bool) :
    blockF (createSubKeys (cmplBytes key)) e (cmplBytes b) = cmplBytes (blockF (createSubKeys key) e b) := by
  unfold blockF
  rw [createSubKeys_cmpl key hk hx, stringToBits_cmpl b hb.2, desCrypt_cmpl _ _ _ (by rw [stringToBits_length, hb.1]), bitsToString_cmpl 8 _ (by simp)]

/-! ### Weak keys -/

theorem blockF_reverse (Kn Kn' : List Bits) (h : Kn' = Kn.reverse) (e : Bool) : blockF Kn' e = blockF Kn (!e) := by
  funext b
  unfold blockF desCrypt
  subst h
  cases e <;> simp

end Verif.Model.PyDes
