import Verif.Props.CipherHist
/-! C106: what a DES cipher makes of any data whatsoever, and every exception `doFinal` and `init` raise. -/
namespace Verif.Props
open Verif.Py Verif.Model Verif.Model.PyDes Verif.Spec Verif.Spec.DES

/-- Specification: a decrypted text without the padding its last byte announces: nothing is left when that byte is 0 or larger than the text. -/
def stripped (p : List Nat) : List Nat :=
  match p.getLast? with
  | none => []
  | some k => if k = 0 then [] else p.take (p.length - k)

/-- Specification: the algorithm without padding that chains like `alg` (1, 4: CBC; 5, 8: ECB). -/
def unpaddedAlg (alg : Int) : Int := if alg = 1 ∨ alg = 4 then 1 else 5

theorem decBlock_block (key b : List Nat) : IsBlock (decBlock key b) := by
  unfold decBlock
  split
  · exact decipher_block _ _
  · exact decipher3_block _ _ _ _

theorem blockCipher_dec (key : List Nat) (hk : key.length = 8 ∨ key.length = 16 ∨ key.length = 24) (b : List Nat) (hb : IsBlock b) :
    blockCipher key (decBlock key b) = b := by
  rcases hk with hk | hk
  · rw [decBlock_eq key hk, blockCipher_eq key hk]; exact (C57_standard key b hb).2
  · rw [decBlock3_eq key (by omega), blockCipher3_eq key hk]; exact (C61_standard _ _ _ b hb).2

theorem xor_twice (a v : List Nat) (ha : IsBlock a) (hv : IsBlock v) : xorBytes (xorBytes a v) v = a := by
  have hl : a.length = v.length := by rw [ha.1, hv.1]
  unfold xorBytes
  apply List.ext_getElem
  · simp [hl]
  · intro i h1 h2
    simp [Nat.xor_assoc]

theorem flatten_inj8 (as bs : List (List Nat)) (ha : ∀ b ∈ as, b.length = 8) (hb : ∀ b ∈ bs, b.length = 8) (h : as.flatten = bs.flatten) : as = bs := by
  induction as generalizing bs with
  | nil =>
    cases bs with
    | nil => rfl
    | cons b bs =>
      have := congrArg List.length h
      have h8 := hb b (by simp)
      simp only [List.flatten_nil, List.flatten_cons, List.length_append, List.length_nil] at this
      omega
  | cons a as ih =>
    cases bs with
    | nil =>
      have := congrArg List.length h
      have h8 := ha a (by simp)
      simp only [List.flatten_nil, List.flatten_cons, List.length_append, List.length_nil] at this
      omega
    | cons b bs =>
      simp only [List.flatten_cons] at h
      obtain ⟨h1, h2⟩ := List.append_inj h (by rw [ha a (by simp), hb b (by simp)])
      rw [h1, ih bs (fun x hx => ha x (by simp [hx])) (fun x hx => hb x (by simp [hx])) h2]

theorem cbc_surj (F G : List Nat → List Nat) (h : ∀ b, IsBlock b → F (G b) = b) (hG : ∀ b, IsBlock b → IsBlock (G b)) (iv : List Nat) (hiv : IsBlock iv)
    (cs : List (List Nat)) (hc : ∀ b ∈ cs, IsBlock b) : cbcEncrypt F iv (cbcDecrypt G iv cs) = cs := by
  induction cs generalizing iv with
  | nil => rfl
  | cons c cs ih =>
    have hcb := hc c (by simp)
    simp only [cbcDecrypt, cbcEncrypt]
    rw [xor_twice _ _ (hG c hcb) hiv, h c hcb, ih c hcb (fun b hb => hc b (by simp [hb]))]

theorem unpad_any (alg : Int) (mode : Nat) (iv p : List Nat) :
    (Base.mk mode iv none (if alg = 5 ∨ alg = 1 then 1 else 2)).unpadData p none none = .ok (if alg = 1 ∨ alg = 5 then p else stripped p) := by
  by_cases ha : alg = 5 ∨ alg = 1
  · rw [if_pos ha, if_pos (show alg = 1 ∨ alg = 5 by omega)]
    exact unpadData_none _ rfl rfl p
  · rw [if_neg ha, if_neg (show ¬ (alg = 1 ∨ alg = 5) by omega)]
    unfold Base.unpadData stripped
    cases hl : p.getLast? with
    | none =>
      have : p = [] := by simpa using hl
      rw [this]
    | some k =>
      simp only
      rw [if_neg (by simp), if_neg (by simp [PAD_NORMAL]), if_pos (by simp [PAD_PKCS5])]
      congr 1
      by_cases hk : k = 0
      · rw [if_pos hk, hk]; rfl
      · rw [if_neg hk]; exact sliceTo_neg _ _ (by omega)

theorem stripped_sub (p : List Nat) : ∀ x ∈ stripped p, x ∈ p := by
  intro x hx
  unfold stripped at hx
  split at hx
  · simp at hx
  · split at hx
    · simp at hx
    · exact List.mem_of_mem_take hx

/-- The plaintext of any whole blocks: it exists, it is the only one, and it is as long. -/
theorem plaintext (alg : Int) (halg : alg = 1 ∨ alg = 4 ∨ alg = 5 ∨ alg = 8) (key iv ct : List Nat) (hkl : key.length = 8 ∨ key.length = 16 ∨ key.length = 24)
    (hiv : IsBlock iv) (hx : ∀ x ∈ ct, x < 256) (h8 : ct.length % 8 = 0) :
    ∃ cs : List (List Nat), cs.flatten = ct ∧ (∀ b ∈ cs, IsBlock b) ∧
      ∃ p, p = (if alg = 5 ∨ alg = 8 then ecb (decBlock key) cs else cbcDecrypt (decBlock key) iv cs).flatten ∧ (∀ x ∈ p, x < 256) ∧ p.length = ct.length ∧
        Encrypts (unpaddedAlg alg) key iv p ct ∧ ∀ p', Encrypts (unpaddedAlg alg) key iv p' ct → p' = p := by
  obtain ⟨cs, h1, h2⟩ := exists_blocks ct h8 hx
  have hua : unpaddedAlg alg = 1 ∨ unpaddedAlg alg = 4 ∨ unpaddedAlg alg = 5 ∨ unpaddedAlg alg = 8 := by unfold unpaddedAlg; split <;> omega
  have hue : (unpaddedAlg alg = 5 ∨ unpaddedAlg alg = 8) ↔ (alg = 5 ∨ alg = 8) := by unfold unpaddedAlg; split <;> omega
  have hup : unpaddedAlg alg = 5 ∨ unpaddedAlg alg = 1 := by unfold unpaddedAlg; split <;> omega
  have hbl : (∀ b ∈ (if alg = 5 ∨ alg = 8 then ecb (decBlock key) cs else cbcDecrypt (decBlock key) iv cs), IsBlock b) ∧
      (if alg = 5 ∨ alg = 8 then ecb (decBlock key) cs else cbcDecrypt (decBlock key) iv cs).length = cs.length := by
    split
    · exact ecb_blocks _ (fun b _ => decBlock_block key b) cs h2
    · exact cbcDecrypt_blocks _ (fun b _ => decBlock_block key b) iv hiv cs h2
  refine ⟨cs, h1, h2, _, rfl, flatten_bytes _ hbl.1, ?_, ?_, ?_⟩
  · rw [flatten_length8 _ (fun b h => (hbl.1 b h).1), hbl.2, ← flatten_length8 cs (fun b h => (h2 b h).1), h1]
  · refine (encrypts_iff _ hua key iv _ _).2 ⟨_, hbl.1, by rw [if_pos hup], ?_⟩
    rw [← h1]
    congr 1
    by_cases he : alg = 5 ∨ alg = 8
    · rw [if_pos (hue.2 he), if_pos he]
      exact (ecb_inverse _ _ (blockCipher_dec key hkl) cs h2).symm
    · rw [if_neg (fun h => he (hue.1 h)), if_neg he]
      exact (cbc_surj _ _ (blockCipher_dec key hkl) (fun b _ => decBlock_block key b) iv hiv cs h2).symm
  · intro p' hp'
    obtain ⟨bs, g1, g2, g3⟩ := (encrypts_iff _ hua key iv _ _).1 hp'
    rw [if_pos hup] at g2
    rw [← g2]
    congr 1
    have hc : ∀ b ∈ (if alg = 5 ∨ alg = 8 then ecb (blockCipher key) bs else cbcEncrypt (blockCipher key) iv bs), IsBlock b :=
      (chained_blocks alg key iv hiv bs g1).1
    have e : (if alg = 5 ∨ alg = 8 then ecb (blockCipher key) bs else cbcEncrypt (blockCipher key) iv bs) = cs := by
      apply flatten_inj8 _ _ (fun b h => (hc b h).1) (fun b h => (h2 b h).1)
      rw [h1, g3]
      congr 1
      by_cases he : alg = 5 ∨ alg = 8
      · rw [if_pos he, if_pos (hue.2 he)]
      · rw [if_neg he, if_neg (fun h => he (hue.1 h))]
    rw [← e]
    split
    · exact (ecb_inverse _ _ (dec_blockCipher key hkl) bs g1).symm
    · exact (cbc_inverse _ _ (dec_blockCipher key hkl) (fun b _ => blockCipher_block key b) iv hiv bs g1).symm

/-- C106. Decrypting any whole blocks, after any history, under any key: there is exactly one text whose encryption without padding they are; a
NOPAD cipher returns it, a PKCS5 cipher returns it without as many bytes as its last byte says, nothing if that is 0 or too many. The padding is
never checked: no exception tells a wrong key or damaged data. -/
theorem C106_decrypt_any (alg : Int) (halg : alg = 1 ∨ alg = 4 ∨ alg = 5 ∨ alg = 8) (h : List DCall) (key iv : List Nat) (hm : modeAfter h = some 1)
    (hk : keyAfter h = some (key, iv)) (inB : List Int) (io il : Int) (hin : il ≤ 0 ∨ Reachable inB.length io il.toNat) (h8 : il.toNat % 8 = 0) :
    ∃ p, (Encrypts (unpaddedAlg alg) key iv p ((cellsFrom inB io il.toNat).map valueOf) ∧ p.length = il.toNat ∧ (∀ x ∈ p, x < 256) ∧
        ∀ p', Encrypts (unpaddedAlg alg) key iv p' ((cellsFrom inB io il.toNat).map valueOf) → p' = p) ∧
      ∀ m, m = (if alg = 1 ∨ alg = 5 then p else stripped p) → ∀ outB oo,
        (m = [] ∨ Reachable outB.length oo m.length → ∃ out c', (desAfter alg h).doFinal inB io il outB oo = (.ok m.length, out, c') ∧
          Stored outB out oo m.length (fun j => signedCell (m.getD j 0))) ∧
        (¬ (m = [] ∨ Reachable outB.length oo m.length) → ((desAfter alg h).doFinal inB io il outB oo).1 = .error .arrayIndexOutOfBounds) := by
  obtain ⟨hr, hiv⟩ := histReady alg h 1 key iv hm hk
  obtain ⟨o, ho1, ho2⟩ := hr.obj
  have hkl : key.length = 8 ∨ key.length = 16 ∨ key.length = 24 := by
    rcases ho2 with ⟨h, _⟩ | ⟨h, _⟩
    · exact .inl h
    · exact .inr h
  have hml : ((cellsFrom inB io il.toNat).map valueOf).length = il.toNat := by rw [List.length_map, cellsFrom_length]
  obtain ⟨cs, h1, h2, p, hp, px, pl, pe, pu⟩ := plaintext alg halg key iv _ hkl hiv (values_lt (cellsFrom inB io il.toNat)) (by rw [hml]; exact h8)
  refine ⟨p, ⟨pe, by rw [pl, hml], px, pu⟩, ?_⟩
  rintro m rfl outB oo
  obtain ⟨o', e⟩ := runObj_decrypt o key iv _ _ ho2 hiv (by split <;> simp) _ cs h2 (by rw [mode_if, ← hp]; exact unpad_any alg _ iv p)
  have hx : ∀ x ∈ (if alg = 1 ∨ alg = 5 then p else stripped p), x < 256 := by
    intro x hx
    split at hx
    · exact px x hx
    · exact px x (stripped_sub p x hx)
  have := doFinal_any _ o o' false hr.init (by rw [hr.mode]; rfl) ho1 inB io il hin _ (by rw [← h1]; exact e) hx outB oo
  exact ⟨fun h => let ⟨out, a, b⟩ := this.1 h; ⟨out, _, a, b⟩, this.2⟩

/-- C106. Every text can be reached: for a decrypting cipher and any bytes `m` there is data on which it returns `m`. -/
theorem C106_reaches (alg : Int) (halg : alg = 1 ∨ alg = 4 ∨ alg = 5 ∨ alg = 8) (h : List DCall) (key iv : List Nat) (hm : modeAfter h = some 1)
    (hk : keyAfter h = some (key, iv)) (m : List Nat) (hx : ∀ x ∈ m, x < 256) (h8 : alg = 1 ∨ alg = 5 → m.length % 8 = 0) :
    ∃ ct : List Nat, (∀ x ∈ ct, x < 256) ∧ ∃ out c', (desAfter alg h).doFinal (ct.map signedCell) 0 ct.length (List.replicate m.length 0) 0 = (.ok m.length, out, c') ∧
      out = m.map signedCell := by
  obtain ⟨hr, hiv⟩ := histReady alg h 1 key iv hm hk
  obtain ⟨bs, hb, hb1, _⟩ := pad_code alg 0 iv m (by intro h; exact h8 (by omega)) hx
  obtain ⟨g1, g2⟩ := chained_blocks alg key iv hiv bs hb
  have he := (encrypts_iff alg halg key iv m _).2 ⟨bs, hb, hb1, rfl⟩
  generalize hct : (if alg = 5 ∨ alg = 8 then ecb (blockCipher key) bs else cbcEncrypt (blockCipher key) iv bs).flatten = ct at he
  have hcx : ∀ x ∈ ct, x < 256 := by rw [← hct]; exact flatten_bytes _ g1
  refine ⟨ct, hcx, ?_⟩
  have hcells : (cellsFrom (ct.map signedCell) 0 ct.length).map valueOf = ct := by
    apply List.ext_getElem
    · simp [cellsFrom]
    · intro i h1 h2
      simp only [cellsFrom, List.getElem_map, List.getElem_range, cellAt]
      rw [if_neg (by omega), show (0 + (i : Int)).toNat = i by omega, List.getD_eq_getElem?_getD, List.getElem?_map, List.getElem?_eq_getElem h2]
      exact value_cell _ (hcx _ (List.getElem_mem h2))
  obtain ⟨out, c', e, hs⟩ := (C99_decrypt alg halg h key iv hm hk m ct hx he (ct.map signedCell) 0 ct.length
    (.inr (by unfold Reachable; simp)) (by simpa using hcells) (List.replicate m.length 0) 0).1 (.inr (by unfold Reachable; simp))
  refine ⟨out, c', e, ?_⟩
  apply List.ext_getElem?
  intro i
  rcases hs.2.2 i with ⟨j, hj, hn, hv, _⟩ | ⟨hn, hv⟩
  · have hij : i = j := by
      obtain ⟨h1, h2 | h2⟩ := hn <;> omega
    subst hij
    rw [hv, List.getElem?_map, List.getElem?_eq_getElem hj]
    simp only [List.getD_eq_getElem?_getD]
    rw [List.getElem?_eq_getElem hj]
    rfl
  · have hi : ¬ i < m.length := fun hi => hn i hi ⟨by simpa using hi, .inl (by omega)⟩
    rw [hv, List.getElem?_eq_none (by simp; omega), List.getElem?_eq_none (by simp; omega)]

/-- C106. Every exception of `doFinal` on a DES cipher, after any history: INVALID_INIT exactly when no `init` has succeeded, ValueError exactly when a
readable input is not whole blocks where it must be, and otherwise only ArrayIndexOutOfBoundsException. -/
theorem C106_des_verdict (alg : Int) (halg : alg = 1 ∨ alg = 4 ∨ alg = 5 ∨ alg = 8) (h : List DCall) (inB : List Int) (io il : Int) (outB : List Int) (oo : Int) :
    (((desAfter alg h).doFinal inB io il outB oo).1 = .error (.crypto 4) ↔ keyAfter h = none) ∧
    (((desAfter alg h).doFinal inB io il outB oo).1 = .error .valueError ↔
      keyAfter h ≠ none ∧ (il ≤ 0 ∨ Reachable inB.length io il.toNat) ∧ il.toNat % 8 ≠ 0 ∧ (modeAfter h = some 1 ∨ alg = 1 ∨ alg = 5)) ∧
    (∀ e, ((desAfter alg h).doFinal inB io il outB oo).1 = .error e → e = .crypto 4 ∨ e = .valueError ∨ e = .arrayIndexOutOfBounds) := by
  cases hk : keyAfter h with
  | none =>
    rw [((C99_unready alg h).1 hk).2]
    simp only [Except.error.injEq]
    refine ⟨by simp, ⟨(fun h => nomatch h), fun h => absurd rfl h.1⟩, fun e he => .inl he.symm⟩
  | some kv =>
    obtain ⟨key, iv⟩ := kv
    have hm := ((C99_unready alg h).2 key iv hk).2
    obtain ⟨m, hmm, h12⟩ : ∃ m, modeAfter h = some m ∧ (m = 1 ∨ m = 2) := by
      rcases hm with h' | h'
      · exact ⟨1, h', .inl rfl⟩
      · exact ⟨2, h', .inr rfl⟩
    obtain ⟨r1, r2⟩ := C99_refused alg h key iv m hmm hk inB io il outB oo
    by_cases hin : il ≤ 0 ∨ Reachable inB.length io il.toNat
    · by_cases hbad : il.toNat % 8 ≠ 0 ∧ (m = 1 ∨ alg = 1 ∨ alg = 5)
      · rw [r2 hin hbad.1 hbad.2]
        simp only [Except.error.injEq]
        refine ⟨by simp, ⟨fun _ => ⟨by simp, hin, hbad.1, ?_⟩, fun _ => trivial⟩, fun e he => .inr (.inl he.symm)⟩
        rcases hbad.2 with h' | h'
        · exact .inl (by rw [hmm, h'])
        · exact .inr h'
      · have hno : ¬ (keyAfter h ≠ none ∧ (il ≤ 0 ∨ Reachable inB.length io il.toNat) ∧ il.toNat % 8 ≠ 0 ∧ (modeAfter h = some 1 ∨ alg = 1 ∨ alg = 5)) := by
          rintro ⟨_, _, h8, h'⟩
          refine hbad ⟨h8, ?_⟩
          rcases h' with h' | h'
          · rw [hmm] at h'; injection h' with h'; exact .inl h'
          · exact .inr h'
        have key : (∃ v, ((desAfter alg h).doFinal inB io il outB oo).1 = .ok v) ∨ ((desAfter alg h).doFinal inB io il outB oo).1 = .error .arrayIndexOutOfBounds := by
          rcases h12 with rfl | rfl
          · obtain ⟨p, _, hp⟩ := C106_decrypt_any alg halg h key iv hmm hk inB io il hin (by
              by_cases h8 : il.toNat % 8 = 0
              · exact h8
              · exact absurd ⟨h8, .inl rfl⟩ hbad)
            obtain ⟨q1, q2⟩ := hp _ rfl outB oo
            by_cases hf : (if alg = 1 ∨ alg = 5 then p else stripped p) = [] ∨ Reachable outB.length oo (if alg = 1 ∨ alg = 5 then p else stripped p).length
            · obtain ⟨out, c', e, _⟩ := q1 hf
              exact .inl ⟨_, by rw [e]⟩
            · exact .inr (q2 hf)
          · obtain ⟨ct, _, _, hp⟩ := C99_encrypt alg halg h key iv hmm hk inB io il hin (by
              intro ha
              by_cases h8 : il.toNat % 8 = 0
              · exact h8
              · exact absurd ⟨h8, .inr ha⟩ hbad)
            obtain ⟨q1, q2⟩ := hp outB oo
            by_cases hf : ct = [] ∨ Reachable outB.length oo ct.length
            · obtain ⟨out, c', e, _⟩ := q1 hf
              exact .inl ⟨_, by rw [e]⟩
            · exact .inr (q2 hf)
        rw [hk] at hno
        rcases key with ⟨v, e⟩ | e
        · rw [e]
          refine ⟨⟨(fun h => nomatch h), (fun h => nomatch h)⟩, ⟨(fun h => nomatch h), fun h => absurd h hno⟩, (fun e he => nomatch he)⟩
        · rw [e]
          simp only [Except.error.injEq]
          refine ⟨⟨(fun h => nomatch h), (fun h => nomatch h)⟩, ⟨(fun h => nomatch h), fun h => absurd h hno⟩, fun e he => .inr (.inr he.symm)⟩
    · rw [r1 hin]
      simp only [Except.error.injEq]
      exact ⟨⟨(fun h => nomatch h), (fun h => nomatch h)⟩, ⟨(fun h => nomatch h), fun h => absurd h.2.1 hin⟩, fun e he => .inr (.inr he.symm)⟩

/-- Specification: the exception of `init` on a DES cipher. -/
def desInitVerdict (heap : KeyHeap) (key : KeyArg) (mode : Int) (iv : List Int) (off len : Int) : Option Err :=
  match key with
  | .notKey => some (.crypto 1)
  | .key r =>
    if (heap r).isInitialized = false then some (.crypto 2)
    else if ¬ (mode = 1 ∨ mode = 2) then some (.crypto 1)
    else match heap r with
      | .rsa _ => some (.crypto 1)
      | .des k =>
        if len ≠ 8 then some (.crypto 1)
        else if ¬ Reachable iv.length off 8 then some .arrayIndexOutOfBounds
        else match k.key with
          | none => some .typeError
          | some b =>
            if (if k.size = 64 then b.length = 8 else b.length = 16 ∨ b.length = 24) then none else some .valueError


/-- C106. Every exception of `init` on a DES cipher, after any history, is given by its arguments alone. -/
theorem C106_des_init_verdict (alg : Int) (h : List DCall) (heap : KeyHeap) (key : KeyArg) (mode : Int) (iv : List Int) (off len : Int) :
    ((desAfter alg h).init heap key mode iv off len).1 =
      match desInitVerdict heap key mode iv off len with
      | none => .ok ()
      | some e => .error e := by
  generalize desAfter alg h = c
  unfold DESCipher.init CipherBase.init desInitVerdict
  cases key with
  | notKey => rfl
  | key r =>
    simp only
    by_cases hi : (heap r).isInitialized = true
    · rw [if_neg (show ¬ ¬ (heap r).isInitialized = true from fun h => h hi), if_neg (show ¬ (heap r).isInitialized = false by rw [hi]; simp)]
      by_cases hm : mode = 1 ∨ mode = 2
      · rw [if_neg (show ¬ ¬ (mode = MODE_ENCRYPT ∨ mode = MODE_DECRYPT) by unfold MODE_ENCRYPT MODE_DECRYPT; omega), if_neg (show ¬ ¬ (mode = 1 ∨ mode = 2) from fun h => h hm)]
        simp only
        cases heap r with
        | rsa k => rfl
        | des k =>
          simp only
          by_cases hl : len = 8
          · rw [if_neg (show ¬ len ≠ 8 from fun h => h hl), if_neg (show ¬ len ≠ 8 from fun h => h hl)]
            subst hl
            by_cases hr : Reachable iv.length off 8
            · rw [if_neg (show ¬ ¬ Reachable iv.length off 8 from fun h => h hr), (copy_cells iv off 8).1 (.inr hr)]
              simp only
              cases k.key with
              | none => rfl
              | some b =>
                have hivl : (arrayToBinary (cellsFrom iv off (8 : Int).toNat)).length = 8 := by simp [arrayToBinary, cellsFrom]
                simp only
                by_cases h64 : k.size = 64
                · rw [if_pos h64]
                  by_cases hb : b.length = 8
                  · rw [(desNew_eq b _ _ _ hivl).1 hb, if_pos (by rw [if_pos h64]; exact hb)]
                  · rw [(desNew_eq b _ _ _ hivl).2 hb, if_neg (by rw [if_pos h64]; exact hb)]
                · rw [if_neg h64]
                  by_cases hb : b.length = 16 ∨ b.length = 24
                  · simp only [(tripleNew_eq b _ _ _ hivl).1 hb]; rw [if_pos (show (if k.size = 64 then b.length = 8 else b.length = 16 ∨ b.length = 24) by rw [if_neg h64]; exact hb)]
                  · rw [(tripleNew_eq b _ _ _ hivl).2 hb, if_neg (by rw [if_neg h64]; exact hb)]
            · obtain ⟨l, hl⟩ := (copy_cells iv off 8).2 (by intro h; rcases h with h | h; omega; exact hr h)
              rw [if_pos hr, show fresh 8 0 = fresh (8 : Int) (0 : Int) from rfl, hl]
          · rw [if_pos hl, if_pos hl]; rfl
      · rw [if_pos (show ¬ (mode = MODE_ENCRYPT ∨ mode = MODE_DECRYPT) by unfold MODE_ENCRYPT MODE_DECRYPT; omega), if_pos hm]; rfl
    · rw [if_pos hi, if_pos (by simpa using hi)]; rfl

/-! Garbage decrypts: the cells 1..8 are no PKCS5 ciphertext anybody made, yet a PKCS5 cipher returns a text for them. -/
example : unpaddedAlg 4 = 1 ∧ unpaddedAlg 8 = 5 ∧ stripped [1, 2, 3, 4, 5, 6, 7, 0] = [] ∧ stripped [1, 2, 3, 4, 5, 6, 7, 3] = [1, 2, 3, 4, 5] ∧
    stripped [1, 2, 3, 4, 5, 6, 7, 200] = [] ∧ stripped [9, 9, 9, 9, 9, 9, 9, 1] = [9, 9, 9, 9, 9, 9, 9] := by decide

/-- The history of C99, on which the cipher decrypts, meets the hypotheses. -/
example : modeAfter demoCalls = some 1 ∧ keyAfter demoCalls ≠ none ∧ (8 : Int).toNat % 8 = 0 ∧ Reachable [1, 2, 3, 4, 5, 6, 7, 8].length (-8) 8 := by decide

end Verif.Props
