import Verif.Spec.DES
import Verif.Model.DES
/-! Lemmas about the DES model: tables, Feistel inversion, bit/byte conversions, agreement with FIPS 46-3. -/
namespace Verif.Model.PyDes
open Verif.Py

/-! ### Lengths -/

@[simp] theorem permutate_length (t : List Nat) (b : Bits) : (permutate t b).length = t.length := by simp [permutate]
@[simp] theorem xorBits_length (a b : Bits) : (xorBits a b).length = min a.length b.length := by simp [xorBits]
@[simp] theorem rotl1_length (b : Bits) : (rotl1 b).length = b.length := by cases b <;> simp [rotl1]
@[simp] theorem rotl_length (b : Bits) (n : Nat) : (rotl b n).length = b.length := by
  induction n generalizing b with
  | zero => rfl
  | succ n ih => rw [rotl, ih, rotl1_length]
@[simp] theorem byteBits_length (n : Nat) : (byteBits n).length = 8 := rfl
@[simp] theorem stringToBits_length (d : List Nat) : (stringToBits d).length = 8 * d.length := by
  induction d with
  | nil => rfl
  | cons x xs ih =>
    have : stringToBits (x :: xs) = byteBits x ++ stringToBits xs := rfl
    rw [this, List.length_append, ih, byteBits_length, List.length_cons]; omega
@[simp] theorem roundF_length (R K : Bits) : (roundF R K).length = 32 := by
  unfold roundF
  rw [permutate_length]; rfl
@[simp] theorem desCrypt_length (Kn : List Bits) (e : Bool) (b : Bits) : (desCrypt Kn e b).length = 64 := by
  unfold desCrypt
  rw [permutate_length]; rfl

/-- Every index of every table is within the block it is applied to, so the default of `permutate` is never used: on a
block of the right length `permutate` reads existing cells only. -/
theorem permutate_in_range (t : List Nat) (b : Bits) (n : Nat) (ht : (t.all (· < n)) = true) (hb : n ≤ b.length) :
    ∀ i, (h : i < t.length) → ∃ h' : t[i] < b.length, (permutate t b)[i]? = some b[t[i]] := by
  intro i h
  have h' : t[i] < b.length := by
    have := List.all_eq_true.1 ht t[i] (List.getElem_mem h)
    simp at this
    omega
  refine ⟨h', ?_⟩
  simp [permutate, h, h']

theorem tables_in_range : (pc1.all (· < 64)) = true ∧ (pc2.all (· < 56)) = true ∧ (ip.all (· < 64)) = true ∧
    (expansionTable.all (· < 32)) = true ∧ (p.all (· < 32)) = true ∧ (fp.all (· < 64)) = true := by decide

/-! ### Permutations -/

theorem permutate_comp (t u : List Nat) (b : Bits) (ht : (t.all (· < u.length)) = true) :
    permutate t (permutate u b) = permutate (t.map fun x => u[x]?.getD 0) b := by
  unfold permutate
  rw [List.map_map]
  apply List.map_congr_left
  intro x hx
  have : x < u.length := by simpa using List.all_eq_true.1 ht x hx
  simp [this]

theorem permutate_range (n : Nat) (b : Bits) (h : b.length = n) : permutate (List.range n) b = b := by
  apply List.ext_getElem
  · simp [h]
  · intro i h1 h2
    simp [permutate, h2]

theorem fp_ip (b : Bits) (h : b.length = 64) : permutate fp (permutate ip b) = b := by
  rw [permutate_comp fp ip b (by decide)]
  have : (fp.map fun x => ip[x]?.getD 0) = List.range 64 := by decide
  rw [this, permutate_range 64 b h]

theorem ip_fp (b : Bits) (h : b.length = 64) : permutate ip (permutate fp b) = b := by
  rw [permutate_comp ip fp b (by decide)]
  have : (ip.map fun x => fp[x]?.getD 0) = List.range 64 := by decide
  rw [this, permutate_range 64 b h]

/-! ### Feistel rounds -/

theorem xorBits_cancel (a b : Bits) (h : b.length ≤ a.length) : xorBits a (xorBits a b) = b := by
  apply List.ext_getElem
  · simp; omega
  · intro i h1 h2
    simp [xorBits]

theorem xorBits_comm (a b : Bits) : xorBits a b = xorBits b a := by
  unfold xorBits
  rw [List.zipWith_comm]
  congr 1
  funext x y
  exact Bool.xor_comm y x

theorem rounds_append (L R : Bits) (k1 k2 : List Bits) : rounds L R (k1 ++ k2) = rounds (rounds L R k1).1 (rounds L R k1).2 k2 := by
  induction k1 generalizing L R with
  | nil => rfl
  | cons K ks ih => exact ih _ _

theorem rounds_length (L R : Bits) (ks : List Bits) (hL : L.length = 32) (hR : R.length = 32) :
    (rounds L R ks).1.length = 32 ∧ (rounds L R ks).2.length = 32 := by
  induction ks generalizing L R with
  | nil => exact ⟨hL, hR⟩
  | cons K ks ih => exact ih _ _ hR (by simp [hL])

theorem rounds_inverse (L R : Bits) (ks : List Bits) (hL : L.length = 32) (hR : R.length = 32) :
    rounds (rounds L R ks).2 (rounds L R ks).1 ks.reverse = (R, L) := by
  induction ks generalizing L R with
  | nil => rfl
  | cons K ks ih =>
    have e : rounds L R (K :: ks) = rounds R (xorBits (roundF R K) L) ks := rfl
    rw [e, List.reverse_cons, rounds_append, ih R _ hR (by simp [hL])]
    show (R, xorBits (roundF R K) (xorBits (roundF R K) L)) = (R, L)
    rw [xorBits_cancel _ _ (by simp [hL])]

theorem desCrypt_inverse (Kn : List Bits) (e : Bool) (b : Bits) (h : b.length = 64) : desCrypt Kn (!e) (desCrypt Kn e b) = b := by
  have key : ∀ ks : List Bits, (let b' := permutate ip b; let r := rounds (b'.take 32) (b'.drop 32) ks
      let c := permutate ip (permutate fp (r.2 ++ r.1)); let s := rounds (c.take 32) (c.drop 32) ks.reverse
      permutate fp (s.2 ++ s.1)) = b := by
    intro ks
    have hb : (permutate ip b).length = 64 := by rw [permutate_length]; rfl
    have hL : ((permutate ip b).take 32).length = 32 := by rw [List.length_take, hb]; rfl
    have hR : ((permutate ip b).drop 32).length = 32 := by rw [List.length_drop, hb]
    obtain ⟨g1, g2⟩ := rounds_length _ _ ks hL hR
    have hi := rounds_inverse _ _ ks hL hR
    simp only
    generalize rounds ((permutate ip b).take 32) ((permutate ip b).drop 32) ks = r at g1 g2 hi ⊢
    rw [ip_fp _ (by rw [List.length_append, g1, g2])]
    rw [show (r.2 ++ r.1).take 32 = r.2 from by rw [← g2, List.take_left], show (r.2 ++ r.1).drop 32 = r.1 from by rw [← g2, List.drop_left], hi]
    show permutate fp ((permutate ip b).take 32 ++ (permutate ip b).drop 32) = b
    rw [List.take_append_drop, fp_ip b h]
  cases e with
  | true => exact key Kn
  | false =>
    have := key Kn.reverse
    rw [List.reverse_reverse] at this
    exact this

/-! ### Bytes and bits -/

theorem testBit_sum (n : Nat) (h : n < 256) :
    (n.testBit 7).toNat * 128 + (n.testBit 6).toNat * 64 + (n.testBit 5).toNat * 32 + (n.testBit 4).toNat * 16 +
    (n.testBit 3).toNat * 8 + (n.testBit 2).toNat * 4 + (n.testBit 1).toNat * 2 + (n.testBit 0).toNat = n := by
  have e : ∀ i, (n.testBit i).toNat = n / 2 ^ i % 2 := by
    intro i
    rw [Nat.testBit_eq_decide_div_mod_eq]
    rcases Nat.mod_two_eq_zero_or_one (n / 2 ^ i) with h | h <;> simp [h]
  simp only [e]
  omega

theorem bitsToStringGo_byte (b0 b1 b2 b3 b4 b5 b6 b7 : Bool) (pos : Nat) (hp : pos % 8 = 0) (rest : Bits) :
    bitsToStringGo pos 0 (b0 :: b1 :: b2 :: b3 :: b4 :: b5 :: b6 :: b7 :: rest) =
      (b0.toNat * 128 + b1.toNat * 64 + b2.toNat * 32 + b3.toNat * 16 + b4.toNat * 8 + b5.toNat * 4 + b6.toNat * 2 + b7.toNat) ::
        bitsToStringGo (pos + 8) 0 rest := by
  have e0 : (pos + 1) % 8 = 1 := by omega
  have e1 : (pos + 1 + 1) % 8 = 2 := by omega
  have e2 : (pos + 1 + 1 + 1) % 8 = 3 := by omega
  have e3 : (pos + 1 + 1 + 1 + 1) % 8 = 4 := by omega
  have e4 : (pos + 1 + 1 + 1 + 1 + 1) % 8 = 5 := by omega
  have e5 : (pos + 1 + 1 + 1 + 1 + 1 + 1) % 8 = 6 := by omega
  have e6 : (pos + 1 + 1 + 1 + 1 + 1 + 1 + 1) % 8 = 7 := by omega
  simp only [bitsToStringGo, hp, e0, e1, e2, e3, e4, e5, e6]
  simp [Nat.shiftLeft_eq]

theorem bitsToString_byte (rest : Bits) (pos : Nat) (hp : pos % 8 = 0) :
    bitsToStringGo pos 0 rest = bitsToStringGo 0 0 rest := by
  have : ∀ (n : Nat) (rest : Bits) (pos c pos' : Nat), pos % 8 = pos' % 8 → rest.length ≤ n → bitsToStringGo pos c rest = bitsToStringGo pos' c rest := by
    intro n
    induction n with
    | zero => intro rest pos c pos' _ hn; match rest, hn with | [], _ => rfl
    | succ n ih =>
      intro rest pos c pos' hpp hn
      match rest, hn with
      | [], _ => rfl
      | b :: r, hn =>
        simp only [List.length_cons] at hn
        simp only [bitsToStringGo, hpp]
        split
        · rw [ih r (pos + 1) 0 (pos' + 1) (by omega) (by omega)]
        · rw [ih r (pos + 1) _ (pos' + 1) (by omega) (by omega)]
  exact this rest.length rest pos 0 0 (by omega) (Nat.le_refl _)

theorem bitsToString_cons8 (b0 b1 b2 b3 b4 b5 b6 b7 : Bool) (rest : Bits) :
    bitsToString (b0 :: b1 :: b2 :: b3 :: b4 :: b5 :: b6 :: b7 :: rest) =
      (b0.toNat * 128 + b1.toNat * 64 + b2.toNat * 32 + b3.toNat * 16 + b4.toNat * 8 + b5.toNat * 4 + b6.toNat * 2 + b7.toNat) :: bitsToString rest := by
  unfold bitsToString
  rw [bitsToStringGo_byte _ _ _ _ _ _ _ _ 0 rfl]
  rw [bitsToString_byte rest 8 rfl]

theorem bitsToString_stringToBits (d : List Nat) (h : ∀ x ∈ d, x < 256) : bitsToString (stringToBits d) = d := by
  induction d with
  | nil => rfl
  | cons x xs ih =>
    have e : stringToBits (x :: xs) = x.testBit 7 :: x.testBit 6 :: x.testBit 5 :: x.testBit 4 :: x.testBit 3 :: x.testBit 2 :: x.testBit 1 :: x.testBit 0 :: stringToBits xs := rfl
    rw [e, bitsToString_cons8, ih (fun y hy => h y (by simp [hy])), testBit_sum x (h x (by simp))]

theorem byteBits_of_sum (b0 b1 b2 b3 b4 b5 b6 b7 : Bool) :
    byteBits (b0.toNat * 128 + b1.toNat * 64 + b2.toNat * 32 + b3.toNat * 16 + b4.toNat * 8 + b5.toNat * 4 + b6.toNat * 2 + b7.toNat) =
      [b0, b1, b2, b3, b4, b5, b6, b7] := by
  revert b0 b1 b2 b3 b4 b5 b6 b7
  decide

theorem stringToBits_bitsToString (n : Nat) (b : Bits) (h : b.length = 8 * n) :
    stringToBits (bitsToString b) = b ∧ (bitsToString b).length = n ∧ ∀ x ∈ bitsToString b, x < 256 := by
  induction n generalizing b with
  | zero =>
    match b, h with
    | [], _ => exact ⟨rfl, rfl, by intro x hx; cases hx⟩
  | succ n ih =>
    match b, h with
    | b0 :: b1 :: b2 :: b3 :: b4 :: b5 :: b6 :: b7 :: rest, h =>
      simp only [List.length_cons] at h
      obtain ⟨h1, h2, h3⟩ := ih rest (by omega)
      rw [bitsToString_cons8]
      refine ⟨?_, by simp [h2], ?_⟩
      · have e : ∀ x xs, stringToBits (x :: xs) = byteBits x ++ stringToBits xs := fun _ _ => rfl
        rw [e, byteBits_of_sum, h1]; rfl
      · intro x hx
        rcases List.mem_cons.1 hx with rfl | hx
        · have := Bool.toNat_le b0
          have := Bool.toNat_le b1
          have := Bool.toNat_le b2
          have := Bool.toNat_le b3
          have := Bool.toNat_le b4
          have := Bool.toNat_le b5
          have := Bool.toNat_le b6
          have := Bool.toNat_le b7
          omega
        · exact h3 x hx

theorem stringToBits_xor (a b : List Nat) : stringToBits (Spec.DES.xorBytes a b) = xorBits (stringToBits a) (stringToBits b) := by
  induction a generalizing b with
  | nil => cases b <;> rfl
  | cons x xs ih =>
    cases b with
    | nil =>
      show [] = xorBits (stringToBits (x :: xs)) []
      unfold xorBits
      rw [List.zipWith_nil_right]
    | cons y ys =>
      have e : ∀ x xs, stringToBits (x :: xs) = byteBits x ++ stringToBits xs := fun _ _ => rfl
      have e2 : Spec.DES.xorBytes (x :: xs) (y :: ys) = (x ^^^ y) :: Spec.DES.xorBytes xs ys := rfl
      rw [e2, e, e, e, ih]
      simp only [byteBits, xorBits, Nat.testBit_xor, List.cons_append, List.nil_append, List.zipWith_cons_cons]


/-! ### Agreement with FIPS 46-3 -/

theorem select_eq (t : List Nat) (b : Bits) : Spec.DES.select (t.map (· + 1)) b = permutate t b := by
  unfold Spec.DES.select permutate
  rw [List.map_map]
  rfl

theorem tables_eq : Spec.DES.IP = ip.map (· + 1) ∧ Spec.DES.IPinv = fp.map (· + 1) ∧ Spec.DES.E = expansionTable.map (· + 1) ∧
    Spec.DES.P = p.map (· + 1) ∧ Spec.DES.PC1C ++ Spec.DES.PC1D = pc1.map (· + 1) ∧ Spec.DES.PC2 = pc2.map (· + 1) := by decide

theorem xorB_eq (a b : Bits) : Spec.DES.xorB a b = xorBits a b := rfl

theorem rotl_eq (k : Nat) (b : Bits) (h : k ≤ b.length) : rotl b k = Spec.DES.leftShift k b := by
  unfold Spec.DES.leftShift
  induction k generalizing b with
  | zero => simp [rotl]
  | succ k ih =>
    match b, h with
    | x :: xs, h =>
      simp only [List.length_cons] at h
      rw [rotl, rotl1, ih _ (by simp; omega)]
      rw [List.drop_append_of_le_length (by omega), List.take_append_of_le_length (by omega)]
      simp

theorem CD_length (KEY : Bits) (n : Nat) : (Spec.DES.C KEY n).length = 28 ∧ (Spec.DES.D KEY n).length = 28 := by
  induction n with
  | zero => exact ⟨by simp [Spec.DES.C, Spec.DES.select, Spec.DES.PC1C], by simp [Spec.DES.D, Spec.DES.select, Spec.DES.PC1D]⟩
  | succ n ih =>
    constructor
    · simp [Spec.DES.C, Spec.DES.leftShift, ih.1]; unfold Spec.DES.shifts; split <;> omega
    · simp [Spec.DES.D, Spec.DES.leftShift, ih.2]; unfold Spec.DES.shifts; split <;> omega

theorem subKeysGo_eq (KEY : Bits) (n : Nat) (m : Nat) :
    subKeysGo (Spec.DES.C KEY n) (Spec.DES.D KEY n) ((List.range m).map fun i => Spec.DES.shifts (n + i + 1)) =
      (List.range m).map fun i => Spec.DES.KS KEY (n + i + 1) := by
  induction m generalizing n with
  | zero => rfl
  | succ m ih =>
    rw [List.range_succ_eq_map, List.map_cons, List.map_cons, List.map_map, List.map_map]
    have hs : Spec.DES.shifts (n + 0 + 1) ≤ 28 := by unfold Spec.DES.shifts; split <;> omega
    rw [subKeysGo]
    rw [rotl_eq _ _ (by rw [(CD_length KEY n).1]; exact hs), rotl_eq _ _ (by rw [(CD_length KEY n).2]; exact hs)]
    have e := ih (n + 1)
    have f1 : ((fun i => Spec.DES.shifts (n + i + 1)) ∘ Nat.succ) = fun i => Spec.DES.shifts (n + 1 + i + 1) := by
      funext i; simp only [Function.comp]; congr 1; omega
    have f2 : ((fun i => Spec.DES.KS KEY (n + i + 1)) ∘ Nat.succ) = fun i => Spec.DES.KS KEY (n + 1 + i + 1) := by
      funext i; simp only [Function.comp]; congr 1; omega
    rw [f1, f2, ← e]
    congr 1

theorem byteToBits_eq (n : Nat) : Spec.DES.byteToBits n = byteBits n := by
  unfold Spec.DES.byteToBits byteBits
  simp only [Nat.testBit_eq_decide_div_mod_eq]
  simp [Bool.beq_eq_decide_eq]

theorem toBits_eq (d : List Nat) : Spec.DES.toBits d = stringToBits d := by
  unfold Spec.DES.toBits stringToBits
  congr 1
  funext n
  exact byteToBits_eq n

theorem createSubKeys_eq (key : List Nat) : createSubKeys key = (List.range 16).map fun i => Spec.DES.KS (Spec.DES.toBits key) (i + 1) := by
  have h := subKeysGo_eq (Spec.DES.toBits key) 0 16
  have e : (List.range 16).map (fun i => Spec.DES.shifts (0 + i + 1)) = leftRotations := by decide
  rw [e] at h
  have h1 : (permutate pc1 (stringToBits key)).take 28 = Spec.DES.C (Spec.DES.toBits key) 0 := by
    rw [← select_eq, ← tables_eq.2.2.2.2.1, toBits_eq]
    unfold Spec.DES.select
    rw [List.map_append]
    exact List.take_left' (by simp [Spec.DES.PC1C])
  have h2 : (permutate pc1 (stringToBits key)).drop 28 = Spec.DES.D (Spec.DES.toBits key) 0 := by
    rw [← select_eq, ← tables_eq.2.2.2.2.1, toBits_eq]
    unfold Spec.DES.select
    rw [List.map_append]
    exact List.drop_left' (by simp [Spec.DES.PC1C])
  unfold createSubKeys
  simp only
  rw [h1, h2, h]
  simp

theorem sbox_eq : ∀ a b c d e f : Bool,
    sboxBits (sbox[0]?.getD []) [a, b, c, d, e, f] = Spec.DES.substitute 1 [a, b, c, d, e, f] ∧
    sboxBits (sbox[1]?.getD []) [a, b, c, d, e, f] = Spec.DES.substitute 2 [a, b, c, d, e, f] ∧
    sboxBits (sbox[2]?.getD []) [a, b, c, d, e, f] = Spec.DES.substitute 3 [a, b, c, d, e, f] ∧
    sboxBits (sbox[3]?.getD []) [a, b, c, d, e, f] = Spec.DES.substitute 4 [a, b, c, d, e, f] ∧
    sboxBits (sbox[4]?.getD []) [a, b, c, d, e, f] = Spec.DES.substitute 5 [a, b, c, d, e, f] ∧
    sboxBits (sbox[5]?.getD []) [a, b, c, d, e, f] = Spec.DES.substitute 6 [a, b, c, d, e, f] ∧
    sboxBits (sbox[6]?.getD []) [a, b, c, d, e, f] = Spec.DES.substitute 7 [a, b, c, d, e, f] ∧
    sboxBits (sbox[7]?.getD []) [a, b, c, d, e, f] = Spec.DES.substitute 8 [a, b, c, d, e, f] := by decide

theorem six (b : Bits) (h : b.length = 6) : ∃ a0 a1 a2 a3 a4 a5, b = [a0, a1, a2, a3, a4, a5] := by
  match b, h with
  | [a0, a1, a2, a3, a4, a5], _ => exact ⟨a0, a1, a2, a3, a4, a5, rfl⟩

theorem roundF_eq (R K : Bits) (hK : K.length = 48) : roundF R K = Spec.DES.f R K := by
  unfold roundF Spec.DES.f
  simp only
  have hx : xorBits (permutate expansionTable R) K = Spec.DES.xorB K (Spec.DES.select Spec.DES.E R) := by
    rw [tables_eq.2.2.1, select_eq, xorB_eq, xorBits_comm]
  rw [hx]
  generalize hB : Spec.DES.xorB K (Spec.DES.select Spec.DES.E R) = B
  have hBl : B.length = 48 := by rw [← hB, xorB_eq, xorBits_length, hK]; simp [Spec.DES.select, Spec.DES.E]
  rw [tables_eq.2.2.2.1, select_eq]
  congr 1
  have h1 : (Spec.DES.sixBits 1 B).length = 6 := by simp [Spec.DES.sixBits, hBl]
  have h2 : (Spec.DES.sixBits 2 B).length = 6 := by simp [Spec.DES.sixBits, hBl]
  have h3 : (Spec.DES.sixBits 3 B).length = 6 := by simp [Spec.DES.sixBits, hBl]
  have h4 : (Spec.DES.sixBits 4 B).length = 6 := by simp [Spec.DES.sixBits, hBl]
  have h5 : (Spec.DES.sixBits 5 B).length = 6 := by simp [Spec.DES.sixBits, hBl]
  have h6 : (Spec.DES.sixBits 6 B).length = 6 := by simp [Spec.DES.sixBits, hBl]
  have h7 : (Spec.DES.sixBits 7 B).length = 6 := by simp [Spec.DES.sixBits, hBl]
  have h8 : (Spec.DES.sixBits 8 B).length = 6 := by simp [Spec.DES.sixBits, hBl]
  have hg : groups B = [Spec.DES.sixBits 1 B, Spec.DES.sixBits 2 B, Spec.DES.sixBits 3 B, Spec.DES.sixBits 4 B, Spec.DES.sixBits 5 B,
      Spec.DES.sixBits 6 B, Spec.DES.sixBits 7 B, Spec.DES.sixBits 8 B] := by
    unfold groups Spec.DES.sixBits
    have : List.drop 42 B = List.take 6 (List.drop (6 * (8 - 1)) B) := by
      rw [List.take_of_length_le (by simp [hBl])]
    rw [← this]
    rfl
  rw [hg]
  generalize Spec.DES.sixBits 1 B = B1 at *
  generalize Spec.DES.sixBits 2 B = B2 at *
  generalize Spec.DES.sixBits 3 B = B3 at *
  generalize Spec.DES.sixBits 4 B = B4 at *
  generalize Spec.DES.sixBits 5 B = B5 at *
  generalize Spec.DES.sixBits 6 B = B6 at *
  generalize Spec.DES.sixBits 7 B = B7 at *
  generalize Spec.DES.sixBits 8 B = B8 at *
  have e : sbox = [sbox[0]?.getD [], sbox[1]?.getD [], sbox[2]?.getD [], sbox[3]?.getD [], sbox[4]?.getD [], sbox[5]?.getD [], sbox[6]?.getD [], sbox[7]?.getD []] := rfl
  have s1 : sboxBits (sbox[0]?.getD []) B1 = Spec.DES.substitute 1 B1 := by
    obtain ⟨a, b, c, d, e, f, rfl⟩ := six B1 h1; exact (sbox_eq a b c d e f).1
  have s2 : sboxBits (sbox[1]?.getD []) B2 = Spec.DES.substitute 2 B2 := by
    obtain ⟨a, b, c, d, e, f, rfl⟩ := six B2 h2; exact (sbox_eq a b c d e f).2.1
  have s3 : sboxBits (sbox[2]?.getD []) B3 = Spec.DES.substitute 3 B3 := by
    obtain ⟨a, b, c, d, e, f, rfl⟩ := six B3 h3; exact (sbox_eq a b c d e f).2.2.1
  have s4 : sboxBits (sbox[3]?.getD []) B4 = Spec.DES.substitute 4 B4 := by
    obtain ⟨a, b, c, d, e, f, rfl⟩ := six B4 h4; exact (sbox_eq a b c d e f).2.2.2.1
  have s5 : sboxBits (sbox[4]?.getD []) B5 = Spec.DES.substitute 5 B5 := by
    obtain ⟨a, b, c, d, e, f, rfl⟩ := six B5 h5; exact (sbox_eq a b c d e f).2.2.2.2.1
  have s6 : sboxBits (sbox[5]?.getD []) B6 = Spec.DES.substitute 6 B6 := by
    obtain ⟨a, b, c, d, e, f, rfl⟩ := six B6 h6; exact (sbox_eq a b c d e f).2.2.2.2.2.1
  have s7 : sboxBits (sbox[6]?.getD []) B7 = Spec.DES.substitute 7 B7 := by
    obtain ⟨a, b, c, d, e, f, rfl⟩ := six B7 h7; exact (sbox_eq a b c d e f).2.2.2.2.2.2.1
  have s8 : sboxBits (sbox[7]?.getD []) B8 = Spec.DES.substitute 8 B8 := by
    obtain ⟨a, b, c, d, e, f, rfl⟩ := six B8 h8; exact (sbox_eq a b c d e f).2.2.2.2.2.2.2
  rw [e]
  simp only [List.zipWith_cons_cons, List.zipWith_nil_right, List.flatten_cons, List.flatten_nil]
  rw [s1, s2, s3, s4, s5, s6, s7, s8]
  simp

theorem rounds_eq (K : Nat → Bits) (hK : ∀ n, (K n).length = 48) (L R : Bits) (n : Nat) :
    rounds L R ((List.range n).map fun i => K (i + 1)) = Spec.DES.iterate K L R n := by
  induction n with
  | zero => rfl
  | succ n ih =>
    rw [List.range_succ, List.map_append, rounds_append, ih]
    generalize hp : Spec.DES.iterate K L R n = q
    obtain ⟨a, b⟩ := q
    show (b, xorBits (roundF b (K (n + 1))) a) = Spec.DES.iterate K L R (n + 1)
    unfold Spec.DES.iterate
    rw [hp]
    simp only
    rw [roundF_eq _ _ (hK _), xorB_eq, xorBits_comm]

theorem KS_length (KEY : Bits) (n : Nat) : (Spec.DES.KS KEY n).length = 48 := by
  simp [Spec.DES.KS, Spec.DES.select, Spec.DES.PC2]

theorem run_eq (K : Nat → Bits) (hK : ∀ n, (K n).length = 48) (b : Bits) :
    Spec.DES.run K b = (let c := permutate ip b
      let r := rounds (c.take 32) (c.drop 32) ((List.range 16).map fun i => K (i + 1))
      permutate fp (r.2 ++ r.1)) := by
  unfold Spec.DES.run
  simp only
  rw [tables_eq.1, select_eq, rounds_eq K hK, tables_eq.2.1, select_eq]

theorem desCrypt_enc_eq (key : List Nat) (b : Bits) : desCrypt (createSubKeys key) true b = Spec.DES.run (Spec.DES.KS (Spec.DES.toBits key)) b := by
  rw [run_eq _ (KS_length _), createSubKeys_eq]
  rfl

theorem desCrypt_dec_eq (key : List Nat) (b : Bits) :
    desCrypt (createSubKeys key) false b = Spec.DES.run (fun n => Spec.DES.KS (Spec.DES.toBits key) (17 - n)) b := by
  rw [run_eq _ (fun n => KS_length _ _)]
  unfold desCrypt
  simp only [Bool.false_eq_true, if_false]
  have : (createSubKeys key).reverse = (List.range 16).map fun i => Spec.DES.KS (Spec.DES.toBits key) (17 - (i + 1)) := by
    rw [createSubKeys_eq, ← List.map_reverse]
    have e : (List.range 16).reverse = (List.range 16).map fun i => 15 - i := by decide
    rw [e, List.map_map]
    apply List.map_congr_left
    intro i hi
    have := List.mem_range.1 hi
    simp only [Function.comp]
    congr 1
    omega
  rw [this]

theorem number_eight (b0 b1 b2 b3 b4 b5 b6 b7 : Bool) : Spec.DES.number [b0, b1, b2, b3, b4, b5, b6, b7] =
    b0.toNat * 128 + b1.toNat * 64 + b2.toNat * 32 + b3.toNat * 16 + b4.toNat * 8 + b5.toNat * 4 + b6.toNat * 2 + b7.toNat := by
  simp only [Spec.DES.number, List.foldl_cons, List.foldl_nil]
  omega

theorem bitsToString_eq_map (n : Nat) (b : Bits) (h : b.length = 8 * n) : bitsToString b = (List.range n).map (Spec.DES.byteOf b) := by
  induction n generalizing b with
  | zero => match b, h with | [], _ => rfl
  | succ n ih =>
    match b, h with
    | b0 :: b1 :: b2 :: b3 :: b4 :: b5 :: b6 :: b7 :: rest, h =>
      simp only [List.length_cons] at h
      rw [bitsToString_cons8, ih rest (by omega), List.range_succ_eq_map, List.map_cons, List.map_map]
      congr 1
      · rw [← number_eight]; rfl

theorem toBytes_eq (b : Bits) (h : b.length = 64) : Spec.DES.toBytes b = bitsToString b := by
  rw [bitsToString_eq_map 8 b h]
  rfl

theorem encipher_eq (key block : List Nat) : Spec.DES.encipher key block = bitsToString (desCrypt (createSubKeys key) true (stringToBits block)) := by
  rw [desCrypt_enc_eq, ← toBits_eq]
  unfold Spec.DES.encipher
  rw [toBytes_eq _ (by simp [Spec.DES.run, Spec.DES.select, Spec.DES.IPinv])]

theorem decipher_eq (key block : List Nat) : Spec.DES.decipher key block = bitsToString (desCrypt (createSubKeys key) false (stringToBits block)) := by
  rw [desCrypt_dec_eq, ← toBits_eq]
  unfold Spec.DES.decipher
  rw [toBytes_eq _ (by simp [Spec.DES.run, Spec.DES.select, Spec.DES.IPinv])]

end Verif.Model.PyDes
