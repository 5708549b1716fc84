import Verif.Props.Cipher
/-! C63, C64: RSA ciphering. -/
namespace Verif.Props
open Verif.Py Verif.Model Verif.Spec

/-! ### C63 -/

/-- `B` is an EME-PKCS1-v1_5 block of `k` bytes for the message `M` (PKCS#1 v2.1, 7.2.1): `00 02 PS 00 M` with at least
eight non-zero random bytes `PS`. -/
def IsPKCS1Block (k : Int) (M B : List Int) : Prop :=
  ∃ PS : List Int, B = 0 :: 2 :: (PS ++ 0 :: M) ∧ 8 ≤ PS.length ∧ (∀ x ∈ PS, 1 ≤ x ∧ x ≤ 255) ∧ (B.length : Int) = k

/-- C63. A message that is too long raises ILLEGAL_VALUE, whatever the random source. -/
theorem C63_too_long (rnd : List Nat) (size : Int) (M : List Int) (h : size / 8 < M.length + 11) :
    RSACipher.emeEnc rnd size M = some (.error (.crypto 1)) := by
  unfold RSACipher.emeEnc
  rw [if_pos (by omega)]
  rfl

/-- C63. Every message of at most size/8 - 11 bytes is padded to a PKCS#1 block, as soon as the source of random bytes `rnd`
has delivered enough non-zero bytes; zeros drawn are skipped. -/
theorem C63_block (rnd : List Nat) (hr : ∀ b ∈ rnd, b < 256) (size : Int) (M : List Int) (h : M.length + 11 ≤ size / 8) :
    (∀ B, RSACipher.emeEnc rnd size M = some (.ok B) → IsPKCS1Block (size / 8) M B) ∧
    (∀ e, RSACipher.emeEnc rnd size M ≠ some (.error e)) ∧
    (size / 8 ≤ M.length + 3 + rnd.countP (· ≠ 0) → ∃ B, RSACipher.emeEnc rnd size M = some (.ok B)) := by
  unfold RSACipher.emeEnc RSACipher.zeroFreeRandom
  rw [if_neg (by omega)]
  simp only
  by_cases hn : (rnd.filter (· ≠ 0)).length < (size / 8 - M.length - 3).toNat
  · rw [if_pos hn]
    refine ⟨fun B hB => by simp at hB, fun e he => by simp at he, fun hc => ?_⟩
    rw [List.countP_eq_length_filter] at hc
    omega
  · rw [if_neg hn]
    refine ⟨fun B hB => ?_, fun e he => by simp at he, fun _ => ⟨_, rfl⟩⟩
    simp only [Option.some.injEq, Except.ok.injEq] at hB
    subst hB
    refine ⟨((rnd.filter (· ≠ 0)).take (size / 8 - M.length - 3).toNat).map fun (x : Nat) => (x : Int), by simp, ?_, ?_, ?_⟩
    · simp only [List.length_map, List.length_take]; omega
    · intro x hx
      obtain ⟨y, hy, rfl⟩ := List.mem_map.1 hx
      have hy := List.mem_of_mem_take hy
      have := hr y (List.mem_filter.1 hy).1
      have h0 : y ≠ 0 := by simpa using (List.mem_filter.1 hy).2
      omega
    · simp only [List.length_append, List.length_cons, List.length_nil, List.length_map, List.length_take]; omega

theorem findIdx?_zero (PS : List Int) (M : List Int) (h : ∀ x ∈ PS, x ≠ 0) : (PS ++ 0 :: M).findIdx? (· = 0) = some PS.length := by
  induction PS with
  | nil => rw [List.nil_append, List.findIdx?_cons]; simp
  | cons x xs ih =>
    have hx : x ≠ 0 := h x (by simp)
    rw [List.cons_append, List.findIdx?_cons]
    simp only [hx, decide_false, Bool.false_eq_true, if_false]
    rw [ih (fun y hy => h y (by simp [hy]))]
    simp

theorem findIdx?_zero_none (l : List Int) (h : l.findIdx? (· = 0) = none) : ∀ x ∈ l, x ≠ 0 := by
  intro x hx
  have := List.findIdx?_eq_none_iff.1 h x hx
  simpa using this

theorem split_at_zero (l : List Int) : (∀ x ∈ l, x ≠ 0) ∨ ∃ PS M, l = PS ++ 0 :: M ∧ ∀ x ∈ PS, x ≠ 0 := by
  induction l with
  | nil => exact .inl (by simp)
  | cons x xs ih =>
    by_cases hx : x = 0
    · subst hx; exact .inr ⟨[], xs, rfl, by simp⟩
    · rcases ih with h | ⟨PS, M, rfl, h⟩
      · left
        intro y hy
        rcases List.mem_cons.1 hy with rfl | hy
        · exact hx
        · exact h y hy
      · right
        refine ⟨x :: PS, M, rfl, ?_⟩
        intro y hy
        rcases List.mem_cons.1 hy with rfl | hy
        · exact hx
        · exact h y hy

theorem emeDec_eq (p : Int) (PS M : List Int) (h : ∀ x ∈ PS, x ≠ 0) : RSACipher.emeDec (0 :: 2 :: p :: (PS ++ 0 :: M)) = .ok M := by
  unfold RSACipher.emeDec RSACipher.index0From3
  have hs : sliceTo (0 :: 2 :: p :: (PS ++ 0 :: M)) 2 = [0, 2] := by
    unfold sliceTo
    have : bound (0 :: 2 :: p :: (PS ++ 0 :: M)).length 2 = 2 := by
      unfold bound; simp only [List.length_cons]; split
      · omega
      · omega
    rw [this]; rfl
  rw [if_neg (by rw [hs]; simp)]
  rw [show List.drop 3 (0 :: 2 :: p :: (PS ++ 0 :: M)) = PS ++ 0 :: M from rfl, findIdx?_zero PS M h]
  simp only [Except.ok.injEq]
  unfold sliceFrom
  have : bound (0 :: 2 :: p :: (PS ++ 0 :: M)).length (((PS.length + 3 : Nat) : Int) + 1) = PS.length + 4 := by
    unfold bound; simp only [List.length_cons, List.length_append]; split
    · omega
    · omega
  rw [this, show PS.length + 4 = PS.length + 1 + 1 + 1 + 1 from rfl]
  simp

/-- C63. Exactly which blocks `EME_PKCS1_v1_5_dec` accepts, and what it returns: `00 02`, one arbitrary byte, then non-zero
bytes up to the first 0, then the message. In particular fewer than eight padding bytes, and a padding starting with 0,
are accepted. A block not starting with `00 02` raises ILLEGAL_VALUE, one without the separator ValueError. -/
theorem C63_unpad (B : List Int) :
    (∀ M, RSACipher.emeDec B = .ok M ↔ ∃ p PS, B = 0 :: 2 :: p :: (PS ++ 0 :: M) ∧ ∀ x ∈ PS, x ≠ 0) ∧
    (B.take 2 ≠ [0, 2] → RSACipher.emeDec B = .error (.crypto 1)) ∧
    (B.take 2 = [0, 2] → (∀ x ∈ B.drop 3, x ≠ 0) → RSACipher.emeDec B = .error .valueError) := by
  have hs : sliceTo B 2 = B.take 2 := by
    unfold sliceTo bound
    rw [if_pos (show (0 : Int) ≤ 2 by decide)]
    rcases Nat.lt_or_ge B.length 2 with h | h
    · have : min (Int.toNat 2) B.length = B.length := by show min 2 B.length = _; omega
      rw [this, List.take_of_length_le (by omega), List.take_of_length_le (by omega)]
    · have : min (Int.toNat 2) B.length = 2 := by show min 2 B.length = _; omega
      rw [this]
  have h2 : B.take 2 ≠ [0, 2] → RSACipher.emeDec B = .error (.crypto 1) := by
    intro h
    unfold RSACipher.emeDec
    rw [if_pos (by rw [hs]; exact h)]
    rfl
  have h3 : B.take 2 = [0, 2] → (∀ x ∈ B.drop 3, x ≠ 0) → RSACipher.emeDec B = .error .valueError := by
    intro h hz
    unfold RSACipher.emeDec RSACipher.index0From3
    rw [if_neg (by rw [hs]; exact fun g => g h)]
    have : (B.drop 3).findIdx? (· = 0) = none := by
      rw [List.findIdx?_eq_none_iff]
      intro x hx
      simpa using hz x hx
    rw [this]
  refine ⟨fun M => ⟨fun h => ?_, ?_⟩, h2, h3⟩
  · by_cases ht : B.take 2 = [0, 2]
    · rcases split_at_zero (B.drop 3) with hz | ⟨PS, M', hd, hz⟩
      · rw [h3 ht hz] at h; cases h
      · match B, ht, hd with
        | [], ht, _ => simp at ht
        | [_], ht, _ => simp at ht
        | [_, _], _, hd => simp at hd
        | a :: b :: p :: rest, ht, hd =>
          simp only [List.take_succ_cons, List.take_zero, List.cons.injEq, and_true] at ht
          obtain ⟨rfl, rfl⟩ := ht
          have hd : rest = PS ++ 0 :: M' := by simpa using hd
          subst hd
          rw [emeDec_eq p PS M' hz] at h
          injection h with h
          subst h
          exact ⟨p, PS, rfl, hz⟩
    · rw [h2 ht] at h; cases h
  · rintro ⟨p, PS, rfl, hz⟩
    exact emeDec_eq p PS M hz

/-- C63. Unpadding a PKCS#1 block returns its message. -/
theorem C63_unpad_block (k : Int) (M B : List Int) (h : IsPKCS1Block k M B) : RSACipher.emeDec B = .ok M := by
  obtain ⟨PS, rfl, hl, hz, _⟩ := h
  match PS, hl, hz with
  | p :: PS, _, hz => exact emeDec_eq p PS M (fun x hx => by have := hz x (by simp [hx]); omega)

/-- C63. Padding then unpadding gives the message back, for every random source. -/
theorem C63_roundtrip (rnd : List Nat) (hr : ∀ b ∈ rnd, b < 256) (size : Int) (M B : List Int) (h : RSACipher.emeEnc rnd size M = some (.ok B)) :
    RSACipher.emeDec B = .ok M := by
  by_cases hl : M.length + 11 ≤ size / 8
  · exact C63_unpad_block _ M B ((C63_block rnd hr size M hl).1 B h)
  · rw [C63_too_long rnd size M (by omega)] at h; simp at h

/-- C63, what fails: unpadding accepts a block with no padding at all, against PKCS#1 (7.2.2 step 3). -/
theorem C63_no_minimum (M : List Int) : RSACipher.emeDec (0 :: 2 :: 0 :: 0 :: M) = .ok M :=
  emeDec_eq 0 [] M (by simp)

example : RSACipher.emeEnc [0, 5, 0, 6, 7, 8, 9, 10, 11, 12, 13] 96 [42] = some (.ok [0, 2, 5, 6, 7, 8, 9, 10, 11, 12, 0, 42]) := rfl
example : IsPKCS1Block 12 [42] [0, 2, 5, 6, 7, 8, 9, 10, 11, 12, 0, 42] :=
  ⟨[5, 6, 7, 8, 9, 10, 11, 12], rfl, by decide, by decide, by decide⟩

/-! ### C64 -/

/-- The cipher has been initialised in this mode with an RSA key of this size that holds the library key `h`. -/
def RSAReady (heap : KeyHeap) (c : RSACipher) (alg mode : Int) (isPublic : Bool) (size : Int) (h : KeyHandle) : Prop :=
  c.base.initialized = true ∧ c.base.algorithm = alg ∧ c.base.mode = some mode ∧
  ∃ r k, c.theKey = some r ∧ heap r = .rsa k ∧ k.isPublic = isPublic ∧ k.size = size ∧ k.theKey = some h

/-- C64. Such ciphers are what `getInstance` and `init` with a generated key give. -/
theorem C64_ready (heap : KeyHeap) (alg mode : Int) (r : Nat) (k : RSAKey) (h : KeyHandle) (hm : mode = 1 ∨ mode = 2)
    (hk : heap r = .rsa k) (hi : k.initialized = true) (ht : k.theKey = some h) :
    ((RSACipher.new alg).init heap (.key r) mode).1 = .ok () ∧
    RSAReady heap ((RSACipher.new alg).init heap (.key r) mode).2 alg mode k.isPublic k.size h := by
  have hi : (KeyObj.rsa k).isInitialized = true := hi
  have hm : mode = MODE_ENCRYPT ∨ mode = MODE_DECRYPT := by unfold MODE_ENCRYPT MODE_DECRYPT; omega
  refine ⟨by simp [RSACipher.init, CipherBase.init, hi, hm, hk], ?_⟩
  refine ⟨by simp [RSACipher.init, CipherBase.init, hi, hm, hk], by simp [RSACipher.init, CipherBase.init, hi, hm, hk, RSACipher.new, CipherBase.new],
    by simp [RSACipher.init, CipherBase.init, hi, hm, hk], r, k, by simp [RSACipher.init, CipherBase.init, hi, hm, hk], hk, rfl, rfl, ht⟩

theorem data_copy (a : List Int) (off n : Nat) :
    (off + n ≤ a.length → Util.arrayCopy a off (fresh n 0) 0 n = (.ok (), range a off n)) ∧
    (0 < n → a.length < off + n → ∃ l, Util.arrayCopy a off (fresh n 0) 0 n = (.error .arrayIndexOutOfBounds, l)) := by
  have hf : (fresh (n : Int) (0 : Int)).length = n := by rw [fresh_length]; omega
  constructor
  · intro h
    have := arrayCopy_ok a (fresh n 0) off 0 n h (by omega)
    rw [show ((0 : Nat) : Int) = 0 from rfl] at this
    rw [this]
    congr 1
    have hr : ((a.drop off).take n).length = n := by simp; omega
    unfold splice range
    have hz : List.drop (0 + n) (fresh (n : Int) (0 : Int)) = [] := List.drop_eq_nil_of_le (by omega)
    rw [hr, hz]
    simp
  · intro hn h
    have := arrayCopy_eq a (fresh n 0) off 0 n
    rw [show ((0 : Nat) : Int) = 0 from rfl] at this
    rw [this]
    simp only
    rw [if_neg (by omega)]
    exact ⟨_, rfl⟩

/-- The last part of `doFinal`: write the result. -/
def rsaOutput (buf : List Int) (outB : List Int) (oo : Int) : Option (Res (List Int) Int) :=
  match Util.arrayCopy buf 0 outB oo buf.length with
  | (.error e, o) => some (.error e, o)
  | (.ok (), o) => some (.ok buf.length, o)

theorem rsaOutput_ok (buf outB : List Int) (oo : Nat) (h : oo + buf.length ≤ outB.length) :
    ∃ o, rsaOutput buf outB oo = some (.ok buf.length, o) ∧ Written outB o oo buf := by
  unfold rsaOutput
  have := arrayCopy_ok buf outB 0 oo buf.length (by omega) h
  rw [show ((0 : Nat) : Int) = 0 from rfl] at this
  rw [this]
  refine ⟨_, rfl, ?_⟩
  have := written_splice outB oo buf h
  simpa using this


theorem rsa_doFinal {heap : KeyHeap} {c : RSACipher} {alg mode : Int} {isPublic : Bool} {size : Int} {h : KeyHandle}
    (hr : RSAReady heap c alg mode isPublic size h) (ops : RSAOps) (ls : Bool) (rnd : List Nat) (inB outB : List Int) (io n : Nat) (oo : Int)
    (hin : io + n ≤ inB.length) :
    c.doFinal heap ops ls rnd inB io n outB oo =
      match (if alg = 10 ∧ mode = 2 then RSACipher.emeEnc rnd size (range inB io n) else some (.ok (range inB io n))) with
      | none => none
      | some (.error e) => some (.error e, outB)
      | some (.ok d) =>
        if (d.length : Int) ≠ size / 8 then some (.error (.crypto 1), outB)
        else match (if mode = 2 ∨ isPublic = true then ops.enc h (arrayToLong d) else ops.dec h (arrayToLong d)) with
        | .error e => some (.error e, outB)
        | .ok res => match (if alg = 10 ∧ mode = 1 then RSACipher.emeDec (longToArray ls res) else .ok (longToArray ls res)) with
          | .error e => some (.error e, outB)
          | .ok b => rsaOutput b outB oo := by
  obtain ⟨h1, h2, h3, r, k, h4, h5, h6, h7, h8⟩ := hr
  unfold RSACipher.doFinal
  rw [if_neg (by simp [h1]), h4, Option.map_some, h5]
  simp only
  rw [(data_copy inB io n).1 hin]
  simp only [h2, h3, h7, h8, MODE_ENCRYPT, MODE_DECRYPT, Option.some.injEq, ILLEGAL_VALUE]
  generalize (if alg = 10 ∧ mode = 2 then RSACipher.emeEnc rnd size (range inB io n) else some (.ok (range inB io n))) = pd
  match pd with
  | none => rfl
  | some (.error e) => rfl
  | some (.ok d) =>
    simp only
    by_cases hd : (d.length : Int) ≠ size / 8
    · rw [if_pos hd, if_pos hd]
    · rw [if_neg hd, if_neg hd]
      have e : (if mode = 2 then ops.enc h (arrayToLong d) else if k.isPublic = true then ops.enc h (arrayToLong d) else ops.dec h (arrayToLong d)) =
          (if mode = 2 ∨ isPublic = true then ops.enc h (arrayToLong d) else ops.dec h (arrayToLong d)) := by
        rw [h6]
        by_cases hm : mode = 2
        · simp [hm]
        · by_cases hp : isPublic = true
          · simp [hm, hp]
          · simp [hm, hp]
      rw [e]
      rfl

theorem arrayToLong_zeros (z : Nat) : arrayToLong (List.replicate z 0) = 0 := by
  induction z with
  | zero => rfl
  | succ z ih => rw [List.replicate_succ, arrayToLong_cons, ih]; rfl

theorem arrayToLong_append_zeros (l : List Int) (z : Nat) : arrayToLong (l ++ List.replicate z 0) = arrayToLong l := by
  rw [arrayToLong_append, arrayToLong_zeros]; simp

/-- The cells are unsigned bytes. -/
def Unsigned (l : List Int) : Prop := ∀ x ∈ l, 0 ≤ x ∧ x ≤ 255

theorem unsigned_nats (l : List Int) (h : Unsigned l) : l = (l.map Int.toNat).map (fun b : Nat => (b : Int)) := by
  apply List.ext_getElem
  · simp
  · intro i h1 h2
    simp only [List.getElem_map]
    have := h l[i] (List.getElem_mem h1)
    omega

theorem longToArray_unsigned (l : List Int) (h : Unsigned l) (hne : l ≠ []) (hl : l.getLast? ≠ some 0) (n : Nat) (hn : (n : Int) = arrayToLong l) :
    longToArray true n = l := by
  have e := unsigned_nats l h
  have hv := arrayToLong_nats (l.map Int.toNat)
  rw [← e, ← hn] at hv
  have : n = positional 256 (l.map Int.toNat).reverse := by omega
  rw [this, longToArray_of_le _ _ (by simpa using hne), ← e]
  · rw [List.getLast?_map]
    cases hg : l.getLast? with
    | none => simp
    | some x =>
      have hx := h x (List.mem_of_getLast? hg)
      simp only [Option.map_some, ne_eq, Option.some.injEq]
      intro h0
      apply hl
      rw [hg]
      congr 1
      omega
  · intro d hd
    obtain ⟨x, hx, rfl⟩ := List.mem_map.1 hd
    have := h x hx
    omega

theorem arrayToLong_ge (l : List Int) (h : Unsigned l) : 0 ≤ arrayToLong l := by
  induction l with
  | nil => decide
  | cons x xs ih =>
    have := ih (fun y hy => h y (by simp [hy]))
    have hx := h x (by simp)
    rw [arrayToLong_cons]; omega

theorem arrayToLong_top (l : List Int) (h : Unsigned l) (hne : l ≠ []) (hl : l.getLast? ≠ some 0) : (256 : Int) ^ (l.length - 1) ≤ arrayToLong l := by
  induction l with
  | nil => exact absurd rfl hne
  | cons x xs ih =>
    have hx := h x (by simp)
    rw [arrayToLong_cons]
    cases xs with
    | nil =>
      simp only [List.getLast?_singleton, ne_eq, Option.some.injEq] at hl
      rw [arrayToLong_nil]
      simp only [List.length_cons, List.length_nil, Nat.zero_add, Nat.sub_self, Int.pow_zero]
      omega
    | cons y ys =>
      have := ih (fun z hz => h z (by simp [hz])) (by simp) (by simpa [List.getLast?_cons_cons] using hl)
      simp only [List.length_cons, Nat.add_sub_cancel] at this ⊢
      rw [Int.pow_succ]
      omega

theorem longToArray_props (n : Nat) : Unsigned (longToArray true n) ∧ longToArray true n ≠ [] ∧ (0 < n → (longToArray true n).getLast? ≠ some 0) := by
  obtain ⟨bs, h1, h2, h3, _, h5⟩ := longToArray_suffix n
  rw [h1]
  refine ⟨?_, by simpa using h3, ?_⟩
  · intro x hx
    obtain ⟨b, hb, rfl⟩ := List.mem_map.1 hx
    have := h2 b hb
    omega
  · intro hn
    have := h5 hn
    rw [List.getLast?_map]
    cases hg : bs.getLast? with
    | none => simp
    | some x =>
      rw [hg] at this
      simp only [Option.map_some, ne_eq, Option.some.injEq] at this ⊢
      omega

theorem longToArray_length (n k : Nat) (hk : 0 < k) (hn : n < 256 ^ k) : (longToArray true n).length ≤ k := by
  obtain ⟨h1, h2, h3⟩ := longToArray_props n
  rcases Nat.eq_zero_or_pos n with rfl | hp
  · show 1 ≤ k; omega
  · have ht := arrayToLong_top _ h1 h2 (h3 hp)
    rw [C50_py2] at ht
    rcases Nat.lt_or_ge k (longToArray true n).length with hlt | hge
    · have hp : 256 ^ k ≤ 256 ^ ((longToArray true n).length - 1) := Nat.pow_le_pow_right (by decide) (by omega)
      have hc : ((256 ^ ((longToArray true n).length - 1) : Nat) : Int) = (256 : Int) ^ ((longToArray true n).length - 1) := by
        rw [Int.natCast_pow]; rfl
      omega
    · exact hge

theorem longToArray_length_full (n k : Nat) (hk : 256 ^ (k - 1) ≤ n) (hn : n < 256 ^ k) (h0 : 0 < k) : (longToArray true n).length = k := by
  have h1 := longToArray_length n k h0 hn
  rcases Nat.lt_or_ge (longToArray true n).length k with h | h
  · exfalso
    obtain ⟨g1, g2, g3⟩ := longToArray_props n
    have hlen : 0 < (longToArray true n).length := List.length_pos_iff.2 g2
    obtain ⟨bs, e1, e2, _, e4, _⟩ := longToArray_suffix n
    have hb : ∀ l : List Nat, (∀ b ∈ l, b < 256) → positional 256 l.reverse < 256 ^ l.length := by
      intro l
      induction l with
      | nil => intro _; decide
      | cons x xs ih =>
        intro hx
        have := ih (fun y hy => hx y (by simp [hy]))
        have := hx x (by simp)
        rw [positional_reverse_cons, List.length_cons, Nat.pow_succ]
        omega
    have hlt := hb bs e2
    rw [e4] at hlt
    have hl : bs.length = (longToArray true n).length := by rw [e1]; simp
    have : 256 ^ bs.length ≤ 256 ^ (k - 1) := Nat.pow_le_pow_right (by decide) (by omega)
    omega
  · omega

/-- The public and the private operation of a key pair with modulus `N` invert each other on 0 .. N-1. -/
def Inverts (ops : RSAOps) (N : Nat) (h h' : KeyHandle) : Prop :=
  ∀ x : Nat, x < N → ∃ y : Nat, y < N ∧ ops.enc h x = .ok y ∧ ops.dec h' y = .ok x

/-- C64. Python 2, PKCS#1 padding: encryption writes a ciphertext `ct` of at most size/8 unsigned bytes and decryption of `ct`,
completed to size/8 bytes with zeros, writes the message without its trailing zero bytes (so the message itself exactly when
its last byte is not zero). -/
theorem C64_pkcs1_roundtrip (heap heap' : KeyHeap) (c c' : RSACipher) (pub : Bool) (size : Int) (h h' : KeyHandle) (N : Nat)
    (he : RSAReady heap c 10 2 pub size h) (hd : RSAReady heap' c' 10 1 false size h')
    (ops : RSAOps) (hinv : Inverts ops N h h') (hN : N ≤ 256 ^ (size / 8).toNat)
    (rnd rnd' : List Nat) (hrnd : ∀ b ∈ rnd, b < 256) (inB outB : List Int) (io n oo : Nat) (hin : io + n ≤ inB.length)
    (hu : Unsigned (range inB io n)) (B : List Int) (hB : RSACipher.emeEnc rnd size (range inB io n) = some (.ok B)) (hBN : arrayToLong B < N)
    (hout : oo + (size / 8).toNat ≤ outB.length) :
    ∃ ct out, c.doFinal heap ops true rnd inB io n outB oo = some (.ok ct.length, out) ∧ Written outB out oo ct ∧ Unsigned ct ∧
      (ct.length : Int) ≤ size / 8 ∧
      ∀ (inB' outB' : List Int) (io' oo' : Nat), io' + (size / 8).toNat ≤ inB'.length →
        range inB' io' (size / 8).toNat = ct ++ List.replicate ((size / 8).toNat - ct.length) 0 →
        ∀ M' z, range inB io n = M' ++ List.replicate z 0 → M'.getLast? ≠ some 0 → oo' + M'.length ≤ outB'.length →
          (M' ≠ [] → ∃ out', c'.doFinal heap' ops true rnd' inB' io' (size / 8).toNat outB' oo' = some (.ok M'.length, out') ∧ Written outB' out' oo' M') ∧
          (M' = [] → c'.doFinal heap' ops true rnd' inB' io' (size / 8).toNat outB' oo' = some (.error .valueError, outB')) := by
  have hlen : ((range inB io n).length : Int) + 11 ≤ size / 8 := by
    by_cases hl : ((range inB io n).length : Int) + 11 ≤ size / 8
    · exact hl
    · rw [C63_too_long rnd size _ (by omega)] at hB; simp at hB
  have hblock := (C63_block rnd hrnd size _ hlen).1 B hB
  obtain ⟨PS, hBe, hPl, hPz, hBl⟩ := hblock
  have hBu : Unsigned B := by
    rw [hBe]
    intro x hx
    simp only [List.mem_cons, List.mem_append] at hx
    rcases hx with rfl | rfl | hx | rfl | hx
    · decide
    · decide
    · have := hPz x hx; omega
    · decide
    · exact hu x hx
  have hB0 := arrayToLong_ge B hBu
  obtain ⟨x, hx⟩ : ∃ x : Nat, (x : Int) = arrayToLong B := ⟨(arrayToLong B).toNat, by omega⟩
  obtain ⟨y, hy1, hy2, hy3⟩ := hinv x (by omega)
  have hk0 : 0 < (size / 8).toNat := by omega
  have hctl := longToArray_length y _ hk0 (show y < 256 ^ (size / 8).toNat by omega)
  obtain ⟨out, ho1, ho2⟩ := rsaOutput_ok (longToArray true y) outB oo (by omega)
  refine ⟨longToArray true y, out, ?_, ho2, (longToArray_props y).1, by omega, ?_⟩
  · rw [rsa_doFinal he ops true rnd inB outB io n oo hin]
    simp only [true_and, if_true]
    rw [hB]
    simp only
    rw [if_neg (by omega)]
    simp only [true_or, if_true]
    rw [← hx, hy2]
    simp only
    rw [if_neg (by decide)]
    exact ho1
  · intro inB' outB' io' oo' hin' hrg M' z hM hlast hout'
    have hr := rsa_doFinal hd ops true rnd' inB' outB' io' (size / 8).toNat oo' hin'
    rw [if_neg (show ¬ ((10 : Int) = 10 ∧ (1 : Int) = 2) by decide), hrg] at hr
    simp only at hr
    rw [if_neg (by simp only [List.length_append, List.length_replicate]; omega), arrayToLong_append_zeros, C50_py2] at hr
    rw [if_neg (show ¬ ((1 : Int) = 2 ∨ false = true) by decide), hy3] at hr
    simp only [true_and, if_true] at hr
    have hM'u : Unsigned M' := fun w hw => hu w (by rw [hM]; simp [hw])
    have hPSu : Unsigned PS := fun w hw => by have := hPz w hw; omega
    constructor
    · intro hne
      have hD : longToArray true x = 0 :: 2 :: (PS ++ 0 :: M') := by
        apply longToArray_unsigned
        · intro w hw
          simp only [List.mem_cons, List.mem_append] at hw
          rcases hw with rfl | rfl | hw | rfl | hw
          · decide
          · decide
          · exact hPSu w hw
          · decide
          · exact hM'u w hw
        · simp
        · have e : (0 :: 2 :: (PS ++ 0 :: M')).getLast? = M'.getLast? := by
            have : (0 :: 2 :: (PS ++ 0 :: M')) = (0 :: 2 :: PS ++ [0]) ++ M' := by simp
            rw [this, List.getLast?_append]
            cases hg : M'.getLast? with
            | none => exact absurd (List.getLast?_eq_none_iff.1 hg) hne
            | some v => simp
          rw [e]; exact hlast
        · rw [hx, hBe, hM]
          have : (0 :: 2 :: (PS ++ 0 :: (M' ++ List.replicate z 0))) = (0 :: 2 :: (PS ++ 0 :: M')) ++ List.replicate z 0 := by simp
          rw [this, arrayToLong_append_zeros]
      rw [hD] at hr
      have hdec : RSACipher.emeDec (0 :: 2 :: (PS ++ 0 :: M')) = .ok M' := by
        match PS, hPl, hPz with
        | p :: PS, _, hz => exact emeDec_eq p PS M' (fun x hx => by have := hz x (by simp [hx]); omega)
      rw [hdec] at hr
      rw [hr]
      exact rsaOutput_ok M' outB' oo' hout'
    · intro hnil
      subst hnil
      have hD : longToArray true x = 0 :: 2 :: PS := by
        apply longToArray_unsigned
        · intro w hw
          simp only [List.mem_cons] at hw
          rcases hw with rfl | rfl | hw
          · decide
          · decide
          · exact hPSu w hw
        · simp
        · match PS, hPl, hPz with
          | p :: PS, _, hz =>
            intro hg
            have e : (0 :: 2 :: p :: PS).getLast? = (p :: PS).getLast? := by
              rw [List.getLast?_cons_cons, List.getLast?_cons_cons]
            rw [e] at hg
            have := hz 0 (List.mem_of_getLast? hg)
            omega
        · rw [hx, hBe, hM]
          have : (0 :: 2 :: (PS ++ 0 :: ([] ++ List.replicate z 0))) = (0 :: 2 :: PS) ++ List.replicate (z + 1) 0 := by
            simp [List.replicate_succ]
          rw [this, arrayToLong_append_zeros]
      rw [hD] at hr
      have hdec : RSACipher.emeDec (0 :: 2 :: PS) = .error .valueError := by
        refine (C63_unpad _).2.2 rfl ?_
        intro w hw
        have : w ∈ PS := by
          have : List.drop 3 (0 :: 2 :: PS) = PS.drop 1 := rfl
          rw [this] at hw
          exact List.mem_of_mem_drop hw
        have := hPz w this
        omega
      rw [hdec] at hr
      exact hr

/-- C64. Python 2, no padding: the same for blocks of exactly size/8 unsigned bytes whose number is below the modulus; a block
of zeros comes back as one zero byte. -/
theorem C64_nopad_roundtrip (heap heap' : KeyHeap) (c c' : RSACipher) (pub : Bool) (size : Int) (h h' : KeyHandle) (N : Nat)
    (he : RSAReady heap c 12 2 pub size h) (hd : RSAReady heap' c' 12 1 false size h')
    (ops : RSAOps) (hinv : Inverts ops N h h') (hN : N ≤ 256 ^ (size / 8).toNat) (hk0 : 0 < size / 8)
    (rnd rnd' : List Nat) (inB outB : List Int) (io oo : Nat) (hin : io + (size / 8).toNat ≤ inB.length)
    (hu : Unsigned (range inB io (size / 8).toNat)) (hBN : arrayToLong (range inB io (size / 8).toNat) < N)
    (hout : oo + (size / 8).toNat ≤ outB.length) :
    ∃ ct out, c.doFinal heap ops true rnd inB io (size / 8).toNat outB oo = some (.ok ct.length, out) ∧ Written outB out oo ct ∧ Unsigned ct ∧
      (ct.length : Int) ≤ size / 8 ∧
      ∀ (inB' outB' : List Int) (io' oo' : Nat), io' + (size / 8).toNat ≤ inB'.length →
        range inB' io' (size / 8).toNat = ct ++ List.replicate ((size / 8).toNat - ct.length) 0 →
        ∀ M' z, range inB io (size / 8).toNat = M' ++ List.replicate z 0 → M'.getLast? ≠ some 0 → oo' + M'.length < outB'.length →
          ∃ out', c'.doFinal heap' ops true rnd' inB' io' (size / 8).toNat outB' oo' = some (.ok (if M' = [] then 1 else (M'.length : Int)), out') ∧
            Written outB' out' oo' (if M' = [] then [0] else M') := by
  have hB0 := arrayToLong_ge _ hu
  obtain ⟨x, hx⟩ : ∃ x : Nat, (x : Int) = arrayToLong (range inB io (size / 8).toNat) := ⟨(arrayToLong (range inB io (size / 8).toNat)).toNat, by omega⟩
  obtain ⟨y, hy1, hy2, hy3⟩ := hinv x (by omega)
  have hctl := longToArray_length y _ (show 0 < (size / 8).toNat by omega) (show y < 256 ^ (size / 8).toNat by omega)
  obtain ⟨out, ho1, ho2⟩ := rsaOutput_ok (longToArray true y) outB oo (by omega)
  have hrl : (range inB io (size / 8).toNat).length = (size / 8).toNat := by simp [range]; omega
  refine ⟨longToArray true y, out, ?_, ho2, (longToArray_props y).1, by omega, ?_⟩
  · rw [rsa_doFinal he ops true rnd inB outB io _ oo hin]
    rw [if_neg (show ¬ ((12 : Int) = 10 ∧ (2 : Int) = 2) by decide)]
    simp only
    rw [if_neg (by omega)]
    simp only [true_or, if_true]
    rw [← hx, hy2]
    simp only
    rw [if_neg (by decide)]
    exact ho1
  · intro inB' outB' io' oo' hin' hrg M' z hM hlast hout'
    have hr := rsa_doFinal hd ops true rnd' inB' outB' io' (size / 8).toNat oo' hin'
    rw [if_neg (show ¬ ((12 : Int) = 10 ∧ (1 : Int) = 2) by decide), hrg] at hr
    simp only at hr
    rw [if_neg (by simp only [List.length_append, List.length_replicate]; omega), arrayToLong_append_zeros, C50_py2] at hr
    rw [if_neg (show ¬ ((1 : Int) = 2 ∨ false = true) by decide), hy3] at hr
    simp only at hr
    rw [if_neg (show ¬ ((12 : Int) = 10 ∧ True) by decide)] at hr
    simp only at hr
    have hM'u : Unsigned M' := fun w hw => hu w (by rw [hM]; simp [hw])
    rw [hM, arrayToLong_append_zeros] at hx
    by_cases hne : M' = []
    · subst hne
      have : x = 0 := by rw [arrayToLong_nil] at hx; omega
      subst this
      rw [hr, if_pos rfl, if_pos rfl]
      exact rsaOutput_ok [0] outB' oo' hout'
    · rw [longToArray_unsigned M' hM'u hne hlast x hx] at hr
      rw [hr, if_neg hne, if_neg hne]
      exact rsaOutput_ok M' outB' oo' (by omega)

/-- C64. Any input of another length than size/8 is refused with ILLEGAL_VALUE (except when encrypting with padding, where
only messages that are too long are), and nothing is written. -/
theorem C64_wrong_length (heap : KeyHeap) (c : RSACipher) (alg mode : Int) (pub : Bool) (size : Int) (h : KeyHandle)
    (hr : RSAReady heap c alg mode pub size h) (ops : RSAOps) (ls : Bool) (rnd : List Nat) (inB outB : List Int) (io n : Nat) (oo : Int)
    (hin : io + n ≤ inB.length) :
    (¬ (alg = 10 ∧ mode = 2) → (n : Int) ≠ size / 8 → c.doFinal heap ops ls rnd inB io n outB oo = some (.error (.crypto 1), outB)) ∧
    (alg = 10 ∧ mode = 2 → size / 8 < n + 11 → c.doFinal heap ops ls rnd inB io n outB oo = some (.error (.crypto 1), outB)) := by
  have hrl : (range inB io n).length = n := by simp [range]; omega
  have e := rsa_doFinal hr ops ls rnd inB outB io n oo hin
  constructor
  · intro h1 h2
    rw [e, if_neg h1]
    simp only
    rw [if_pos (by omega)]
  · intro h1 h2
    rw [e, if_pos h1, C63_too_long rnd size _ (by omega)]

/-- C64, what fails: `doFinal` announces and writes fewer than size/8 bytes when the ciphertext number `y` is small - its leading
zeros are dropped - and decrypting exactly the announced bytes is then refused; it is accepted exactly for full-length numbers. -/
theorem C64_short_ciphertext (heap' : KeyHeap) (c' : RSACipher) (alg : Int) (pub : Bool) (size : Int) (h' : KeyHandle)
    (hd : RSAReady heap' c' alg 1 pub size h') (ops : RSAOps) (rnd : List Nat) (y : Nat) (hy : y < 256 ^ (size / 8).toNat) (hk0 : 0 < size / 8)
    (inB outB : List Int) (io : Nat) (oo : Int) (hin : io + (longToArray true y).length ≤ inB.length) :
    ((longToArray true y).length = (size / 8).toNat ↔ (256 ^ ((size / 8).toNat - 1) ≤ y ∨ size / 8 = 1)) ∧
    (y < 256 ^ ((size / 8).toNat - 1) → 1 < size / 8 →
      c'.doFinal heap' ops true rnd inB io (longToArray true y).length outB oo = some (.error (.crypto 1), outB)) := by
  have hiff : (longToArray true y).length = (size / 8).toNat ↔ (256 ^ ((size / 8).toNat - 1) ≤ y ∨ size / 8 = 1) := by
    constructor
    · intro hl
      rcases Nat.eq_zero_or_pos y with rfl | hp
      · right
        have : (longToArray true 0).length = 1 := rfl
        omega
      · left
        obtain ⟨g1, g2, g3⟩ := longToArray_props y
        have ht := arrayToLong_top _ g1 g2 (g3 hp)
        rw [C50_py2, hl] at ht
        have hc : ((256 ^ ((size / 8).toNat - 1) : Nat) : Int) = (256 : Int) ^ ((size / 8).toNat - 1) := by
          rw [Int.natCast_pow]; rfl
        omega
    · rintro (hl | hl)
      · exact longToArray_length_full y _ hl hy (by omega)
      · have h1 := longToArray_length y _ (show 0 < (size / 8).toNat by omega) hy
        have h2 := List.length_pos_iff.2 (longToArray_props y).2.1
        omega
  refine ⟨hiff, fun h1 h2 => ?_⟩
  refine (C64_wrong_length heap' c' alg 1 pub size h' hd ops true rnd inB outB io _ oo hin).1 (fun h => by omega) ?_
  intro hl
  have := hiff.1 (by omega)
  omega

/-- C64, what fails under Python 3: decryption of every correctly padded block raises ILLEGAL_VALUE, because the last
hexadecimal digit of the number is dropped. -/
theorem C64_py3_pkcs1 (heap : KeyHeap) (c : RSACipher) (size : Int) (h : KeyHandle) (hr : RSAReady heap c 10 1 false size h)
    (ops : RSAOps) (rnd : List Nat) (inB outB : List Int) (io n : Nat) (oo : Int) (hin : io + n ≤ inB.length)
    (x : Nat) (hdec : ops.dec h (arrayToLong (range inB io n)) = .ok x) (k : Int) (M B : List Int) (hB : IsPKCS1Block k M B) (hx : (x : Int) = arrayToLong B) :
    c.doFinal heap ops false rnd inB io n outB oo = some (.error (.crypto 1), outB) := by
  have hrl : (range inB io n).length = n := by simp [range]; omega
  rw [rsa_doFinal hr ops false rnd inB outB io n oo hin]
  rw [if_neg (show ¬ ((10 : Int) = 10 ∧ (1 : Int) = 2) by decide)]
  simp only
  by_cases hl : ((range inB io n).length : Int) ≠ size / 8
  · rw [if_pos hl]
  · rw [if_neg hl, if_neg (show ¬ ((1 : Int) = 2 ∨ false = true) by decide), hdec]
    simp only [true_and, if_true]
    obtain ⟨PS, rfl, hPl, _, _⟩ := hB
    rw [arrayToLong_cons, arrayToLong_cons] at hx
    have hmod : x / 16 % 256 = 32 := by omega
    have hbig : 16 ≤ x := by
      have := hmod
      rcases Nat.lt_or_ge x 16 with h | h
      · rw [Nat.div_eq_of_lt h] at this; cases this
      · exact h
    have hd : (RSACipher.emeDec (longToArray false x)) = .error (.crypto 1) := by
      refine (C63_unpad _).2.1 ?_
      rw [longToArray_no_suffix, if_neg (by omega)]
      obtain ⟨bs, h1, h2, h3, h4, _⟩ := longToArray_suffix (x / 16)
      rw [h1]
      match bs, h2, h3, h4 with
      | b :: bs, h2, _, h4 =>
        rw [positional_reverse_cons] at h4
        have := h2 b (by simp)
        have hb : b = 32 := by omega
        subst hb
        simp
    rw [hd]

/-- C64, what fails under Python 3: every result loses its last hexadecimal digit, so what is written without padding is
the number divided by 16. -/
theorem C64_py3_digit_lost (heap : KeyHeap) (c : RSACipher) (mode : Int) (pub : Bool) (size : Int) (h : KeyHandle) (hr : RSAReady heap c 12 mode pub size h)
    (ops : RSAOps) (rnd : List Nat) (inB outB : List Int) (io n oo : Nat) (hin : io + n ≤ inB.length) (hn : (n : Int) = size / 8)
    (x : Nat) (henc : ops.enc h (arrayToLong (range inB io n)) = .ok x) (hdec : ops.dec h (arrayToLong (range inB io n)) = .ok x)
    (hx : x < 256 ^ n) (hout : oo + n ≤ outB.length) :
    ∃ w out, c.doFinal heap ops false rnd inB io n outB oo = some (.ok w.length, out) ∧ Written outB out oo w ∧ arrayToLong w = (x / 16 : Nat) := by
  have hrl : (range inB io n).length = n := by simp [range]; omega
  have hlen : (longToArray false x).length ≤ n := by
    rw [longToArray_no_suffix]
    split
    · simp
    · have : 0 < n := by
        rcases Nat.eq_zero_or_pos n with rfl | h
        · simp at hx; omega
        · exact h
      exact longToArray_length (x / 16) n this (by omega)
  obtain ⟨out, ho1, ho2⟩ := rsaOutput_ok (longToArray false x) outB oo (by omega)
  refine ⟨longToArray false x, out, ?_, ho2, C50_py3 x⟩
  rw [rsa_doFinal hr ops false rnd inB outB io n oo hin]
  rw [if_neg (show ¬ ((12 : Int) = 10 ∧ mode = 2) from fun h => by omega)]
  simp only
  rw [if_neg (by omega)]
  have e : (if mode = 2 ∨ pub = true then ops.enc h (arrayToLong (range inB io n)) else ops.dec h (arrayToLong (range inB io n))) = .ok x := by
    split
    · exact henc
    · exact hdec
  rw [e]
  simp only
  rw [if_neg (show ¬ ((12 : Int) = 10 ∧ mode = 1) from fun h => by omega)]
  exact ho1

/-- C64, what fails: cells are not reduced to bytes, so a message of signed bytes whose last byte is negative is handed to the
library as a negative number. -/
theorem C64_signed_input (heap : KeyHeap) (c : RSACipher) (pub : Bool) (size : Int) (h : KeyHandle) (hr : RSAReady heap c 12 2 pub size h)
    (ops : RSAOps) (hneg : ∀ v, v < 0 → ops.enc h v = .error .valueError) (ls : Bool) (rnd : List Nat) (M outB : List Int) (hM : Bytes M) (x : Int) (hx : x < 0)
    (hl : (M.length : Int) + 1 = size / 8) (oo : Int) :
    c.doFinal heap ops ls rnd (M ++ [x]) (0 : Nat) ((M.length + 1 : Nat) : Int) outB oo = some (.error .valueError, outB) := by
  have hrg : range (M ++ [x]) 0 (M.length + 1) = M ++ [x] := by simp [range, List.take_of_length_le]
  rw [rsa_doFinal hr ops ls rnd (M ++ [x]) outB 0 (M.length + 1) oo (by simp)]
  rw [if_neg (show ¬ ((12 : Int) = 10 ∧ (2 : Int) = 2) by decide), hrg]
  simp only
  rw [if_neg (by simp only [List.length_append, List.length_cons, List.length_nil]; omega)]
  simp only [true_or, if_true]
  rw [hneg _ (C50_signed_negative M x hM hx)]

/-- A toy key pair for the examples: both operations map `x` to `N - 1 - x`. -/
def toyOps (N : Nat) : RSAOps := ⟨fun _ x => .ok (N - 1 - x.toNat), fun _ x => .ok (N - 1 - x.toNat)⟩

theorem toy_inverts (N : Nat) (h h' : KeyHandle) : Inverts (toyOps N) N h h' := by
  intro x hx
  refine ⟨N - 1 - x, by omega, by simp [toyOps], ?_⟩
  simp only [toyOps, Int.toNat_natCast]
  congr 1
  omega

example : Inverts (toyOps 1000) 1000 (.given ⟨1000, 3, 7⟩) (.given ⟨1000, 3, 7⟩) := toy_inverts _ _ _
example : RSAReady (fun _ => .rsa ((RSAKey.new true 96).setTheKey true true ⟨1000, 3, 7⟩).2)
    ((RSACipher.new 10).init (fun _ => .rsa ((RSAKey.new true 96).setTheKey true true ⟨1000, 3, 7⟩).2) (.key 5) 2).2 10 2 true 96 (.given ⟨1000, 3, 7⟩) :=
  (C64_ready (fun _ => .rsa ((RSAKey.new true 96).setTheKey true true ⟨1000, 3, 7⟩).2) 10 2 5
    ((RSAKey.new true 96).setTheKey true true ⟨1000, 3, 7⟩).2 (.given ⟨1000, 3, 7⟩) (.inr rfl) rfl rfl rfl).2
end Verif.Props
