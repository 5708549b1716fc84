import Verif.Lemmas.DESAlg
import Verif.Props.TripleDES
/-! C74-C78: algebraic properties of the DES objects: parity bits, complementation, weak keys, degenerate triple DES, locality
of the modes. -/
namespace Verif.Props
open Verif.Py Verif.Model Verif.Model.PyDes Verif.Spec.DES

/-! ### C74: parity bits -/

/-- C74. Two keys whose bytes agree in their upper seven bits make the same `des` object: the same acceptance, the same results of
every later call. -/
theorem C74_des (k k' : List Nat) (h : k.map (· / 2) = k'.map (· / 2)) (mode : Nat) (iv : List Nat) (pad : Option Nat) (padmode : Nat) :
    Des.new k mode iv pad padmode = Des.new k' mode iv pad padmode := by
  have hl : k.length = k'.length := by simpa using congrArg List.length h
  unfold Des.new
  rw [hl, createSubKeys_parity k k' h]

theorem map_half_take (k k' : List Nat) (h : k.map (· / 2) = k'.map (· / 2)) (a b : Nat) :
    ((k.drop a).take b).map (· / 2) = ((k'.drop a).take b).map (· / 2) := by
  rw [List.map_take, List.map_take, List.map_drop, List.map_drop, h]

/-- C74. The same for triple DES, when the IV is given or the mode is not CBC. -/
theorem C74_triple (k k' : List Nat) (h : k.map (· / 2) = k'.map (· / 2)) (mode : Nat) (iv : List Nat) (pad : Option Nat) (padmode : Nat)
    (hiv : iv ≠ [] ∨ mode ≠ 1) : Triple.new k mode iv pad padmode = Triple.new k' mode iv pad padmode := by
  have hl : k.length = k'.length := by simpa using congrArg List.length h
  unfold Triple.new
  cases hb : Base.new mode iv pad padmode with
  | error e => rfl
  | ok b =>
    have hbe : b.mode = mode ∧ b.iv = iv := by
      unfold Base.new at hb
      split at hb
      · cases hb
      · split at hb
        · cases hb
        · injection hb with hb; subst hb; exact ⟨rfl, rfl⟩
    have hc : ¬ (b.mode = CBC ∧ b.iv = []) := by
      rw [hbe.1, hbe.2]
      rintro ⟨h1, h2⟩
      rcases hiv with h | h
      · exact h h2
      · exact h h1
    simp only
    unfold Triple.ofBase
    simp only [if_neg hc, hl]
    have e1 := C74_des (k.take 8) (k'.take 8) (by have := map_half_take k k' h 0 8; simpa using this) b.mode b.iv b.padding b.padmode
    have e2 := C74_des _ _ (map_half_take k k' h 8 8) b.mode b.iv b.padding b.padmode
    have e3 := C74_des (k.drop 16) (k'.drop 16) (by rw [List.map_drop, List.map_drop, h]) b.mode b.iv b.padding b.padmode
    rw [e1, e2, e3]

/-- C74. With CBC and no IV the parity bits do matter to triple DES, because the IV is copied from the key: the two objects have
the same subkeys and settings, and the IVs `k[:8]` and `k'[:8]`. -/
theorem C74_triple_default_iv (k k' : List Nat) (h : k.map (· / 2) = k'.map (· / 2)) (hk : k.length = 16 ∨ k.length = 24) (padmode : Nat) :
    Triple.new k 1 [] none padmode = Triple.new k 1 (k.take 8) none padmode ∧
    Triple.new k' 1 [] none padmode = Triple.new k 1 (k'.take 8) none padmode := by
  have hl : k.length = k'.length := by simpa using congrArg List.length h
  refine ⟨C61_default_iv k hk padmode, ?_⟩
  rw [C61_default_iv k' (by omega) padmode]
  have hne : k'.take 8 ≠ [] := by
    intro h'
    have := congrArg List.length h'
    rw [List.length_take, List.length_nil] at this
    omega
  exact C74_triple k' k h.symm 1 _ none padmode (.inl hne)

example : Des.new [1, 0x22, 3, 4, 5, 6, 7, 0xFE] 0 [] none 1 = Des.new [0, 0x23, 2, 5, 4, 7, 6, 0xFF] 0 [] none 1 :=
  C74_des _ _ (by decide) _ _ _ _

/-! ### C75: complementation -/

theorem cmpl_block (b : List Nat) (h : b.length = 8) : IsBlock (b.map (255 - ·)) := by
  refine ⟨by simp [h], ?_⟩
  intro x hx
  simp only [List.mem_map] at hx
  obtain ⟨y, _, rfl⟩ := hx
  omega

/-- C75. FIPS 46-3 DES: complementing key and block complements the result. -/
theorem C75_standard (key block : List Nat) (hk : IsBlock key) (hb : IsBlock block) :
    encipher (key.map (255 - ·)) (block.map (255 - ·)) = (encipher key block).map (255 - ·) ∧
    decipher (key.map (255 - ·)) (block.map (255 - ·)) = (decipher key block).map (255 - ·) := by
  rw [← enc_eq, ← enc_eq, ← dec_eq, ← dec_eq]
  exact ⟨blockF_cmpl key block (by rw [hk.1]; omega) hk.2 hb true, blockF_cmpl key block (by rw [hk.1]; omega) hk.2 hb false⟩

theorem ecb_cmpl (F G : List Nat → List Nat) (h : ∀ b, IsBlock b → G (b.map (255 - ·)) = (F b).map (255 - ·)) (bs : List (List Nat)) (hb : ∀ b ∈ bs, IsBlock b) :
    (ecb G (bs.map (·.map (255 - ·)))).flatten = ((ecb F bs).flatten).map (255 - ·) := by
  unfold ecb
  rw [List.map_map, List.map_flatten, List.map_map]
  congr 1
  apply List.map_congr_left
  intro b hb'
  exact h b (hb b hb')

/-- C75. The library in ECB mode: complementing the key and the message complements the result, for messages of any number of
blocks, in both directions. -/
theorem C75_library (key m : List Nat) (hk : IsBlock key) (hm : m.length % 8 = 0) (hx : ∀ x ∈ m, x < 256) :
    ∃ d d' c p, Des.new key 0 [] none 1 = .ok d ∧ Des.new (key.map (255 - ·)) 0 [] none 1 = .ok d' ∧
      d.encrypt m none none = .ok c ∧ d'.encrypt (m.map (255 - ·)) none none = .ok (c.map (255 - ·)) ∧
      d.decrypt m none none = .ok p ∧ d'.decrypt (m.map (255 - ·)) none none = .ok (p.map (255 - ·)) := by
  obtain ⟨bs, rfl, hb⟩ := exists_blocks m hm hx
  obtain ⟨d, h1, h2, h3⟩ := C59_ecb key [] hk.1 (.inl rfl) bs hb
  have hb' : ∀ b ∈ bs.map (·.map (255 - ·)), IsBlock b := by
    intro b h
    obtain ⟨a, ha, rfl⟩ := List.mem_map.1 h
    exact cmpl_block a (hb a ha).1
  obtain ⟨d', g1, g2, g3⟩ := C59_ecb (key.map (255 - ·)) [] (by simp [hk.1]) (.inl rfl) _ hb'
  rw [← List.map_flatten] at g2 g3
  refine ⟨d, d', _, _, h1, g1, h2, ?_, h3, ?_⟩
  · rw [g2, ecb_cmpl (encipher key) _ (fun b hb => (C75_standard key b hk hb).1) bs hb]
  · rw [g3, ecb_cmpl (decipher key) _ (fun b hb => (C75_standard key b hk hb).2) bs hb]

/-- C75. Triple DES has the same property. -/
theorem C75_triple (k1 k2 k3 block : List Nat) (h1 : IsBlock k1) (h2 : IsBlock k2) (h3 : IsBlock k3) (hb : IsBlock block) :
    encipher3 (k1.map (255 - ·)) (k2.map (255 - ·)) (k3.map (255 - ·)) (block.map (255 - ·)) = (encipher3 k1 k2 k3 block).map (255 - ·) ∧
    decipher3 (k1.map (255 - ·)) (k2.map (255 - ·)) (k3.map (255 - ·)) (block.map (255 - ·)) = (decipher3 k1 k2 k3 block).map (255 - ·) := by
  unfold encipher3 decipher3
  constructor
  · rw [(C75_standard k1 block h1 hb).1, (C75_standard k2 _ h2 (encipher_block _ _)).2, (C75_standard k3 _ h3 (decipher_block _ _)).1]
  · rw [(C75_standard k3 block h3 hb).2, (C75_standard k2 _ h2 (decipher_block _ _)).1, (C75_standard k1 _ h1 (encipher_block _ _)).2]

/-! ### C76: weak and semi-weak keys -/

/-- The four weak keys and the six pairs of semi-weak keys of DES (NIST SP 800-67, section 3.4.2). -/
def weakKeys : List (List Nat) :=
  [[0x01, 0x01, 0x01, 0x01, 0x01, 0x01, 0x01, 0x01], [0xFE, 0xFE, 0xFE, 0xFE, 0xFE, 0xFE, 0xFE, 0xFE],
   [0xE0, 0xE0, 0xE0, 0xE0, 0xF1, 0xF1, 0xF1, 0xF1], [0x1F, 0x1F, 0x1F, 0x1F, 0x0E, 0x0E, 0x0E, 0x0E]]
def semiWeakPairs : List (List Nat × List Nat) :=
  [([0x01, 0xFE, 0x01, 0xFE, 0x01, 0xFE, 0x01, 0xFE], [0xFE, 0x01, 0xFE, 0x01, 0xFE, 0x01, 0xFE, 0x01]),
   ([0x1F, 0xE0, 0x1F, 0xE0, 0x0E, 0xF1, 0x0E, 0xF1], [0xE0, 0x1F, 0xE0, 0x1F, 0xF1, 0x0E, 0xF1, 0x0E]),
   ([0x01, 0xE0, 0x01, 0xE0, 0x01, 0xF1, 0x01, 0xF1], [0xE0, 0x01, 0xE0, 0x01, 0xF1, 0x01, 0xF1, 0x01]),
   ([0x1F, 0xFE, 0x1F, 0xFE, 0x0E, 0xFE, 0x0E, 0xFE], [0xFE, 0x1F, 0xFE, 0x1F, 0xFE, 0x0E, 0xFE, 0x0E]),
   ([0x01, 0x1F, 0x01, 0x1F, 0x01, 0x0E, 0x01, 0x0E], [0x1F, 0x01, 0x1F, 0x01, 0x0E, 0x01, 0x0E, 0x01]),
   ([0xE0, 0xFE, 0xE0, 0xFE, 0xF1, 0xFE, 0xF1, 0xFE], [0xFE, 0xE0, 0xFE, 0xE0, 0xFE, 0xF1, 0xFE, 0xF1])]

/-- All pairs `(k, k')` such that enciphering with `k'` undoes enciphering with `k`. -/
def inversePairs : List (List Nat × List Nat) :=
  weakKeys.map (fun k => (k, k)) ++ semiWeakPairs ++ semiWeakPairs.map (fun p => (p.2, p.1))

-- one theorem for each pair: the kernel's memory is released between them
theorem weak_schedule0 : createSubKeys (weakKeys.getD 0 []) = (createSubKeys (weakKeys.getD 0 [])).reverse := by decide +kernel
theorem weak_schedule1 : createSubKeys (weakKeys.getD 1 []) = (createSubKeys (weakKeys.getD 1 [])).reverse := by decide +kernel
theorem weak_schedule2 : createSubKeys (weakKeys.getD 2 []) = (createSubKeys (weakKeys.getD 2 [])).reverse := by decide +kernel
theorem weak_schedule3 : createSubKeys (weakKeys.getD 3 []) = (createSubKeys (weakKeys.getD 3 [])).reverse := by decide +kernel
theorem semiWeak_schedule0 : createSubKeys (semiWeakPairs.getD 0 ([], [])).2 = (createSubKeys (semiWeakPairs.getD 0 ([], [])).1).reverse := by decide +kernel
theorem semiWeak_schedule1 : createSubKeys (semiWeakPairs.getD 1 ([], [])).2 = (createSubKeys (semiWeakPairs.getD 1 ([], [])).1).reverse := by decide +kernel
theorem semiWeak_schedule2 : createSubKeys (semiWeakPairs.getD 2 ([], [])).2 = (createSubKeys (semiWeakPairs.getD 2 ([], [])).1).reverse := by decide +kernel
theorem semiWeak_schedule3 : createSubKeys (semiWeakPairs.getD 3 ([], [])).2 = (createSubKeys (semiWeakPairs.getD 3 ([], [])).1).reverse := by decide +kernel
theorem semiWeak_schedule4 : createSubKeys (semiWeakPairs.getD 4 ([], [])).2 = (createSubKeys (semiWeakPairs.getD 4 ([], [])).1).reverse := by decide +kernel
theorem semiWeak_schedule5 : createSubKeys (semiWeakPairs.getD 5 ([], [])).2 = (createSubKeys (semiWeakPairs.getD 5 ([], [])).1).reverse := by decide +kernel
theorem inverse_schedules : ∀ p ∈ inversePairs, createSubKeys p.2 = (createSubKeys p.1).reverse := by
  have w : ∀ k ∈ weakKeys, createSubKeys k = (createSubKeys k).reverse := by
    intro k hk
    simp only [weakKeys, List.mem_cons, List.not_mem_nil, or_false] at hk
    rcases hk with rfl | rfl | rfl | rfl
    · exact weak_schedule0
    · exact weak_schedule1
    · exact weak_schedule2
    · exact weak_schedule3
  have s : ∀ p ∈ semiWeakPairs, createSubKeys p.2 = (createSubKeys p.1).reverse := by
    intro p hp
    simp only [semiWeakPairs, List.mem_cons, List.not_mem_nil, or_false] at hp
    rcases hp with rfl | rfl | rfl | rfl | rfl | rfl
    · exact semiWeak_schedule0
    · exact semiWeak_schedule1
    · exact semiWeak_schedule2
    · exact semiWeak_schedule3
    · exact semiWeak_schedule4
    · exact semiWeak_schedule5
  intro p hp
  simp only [inversePairs, List.mem_append, List.mem_map] at hp
  rcases hp with (⟨k, hk, rfl⟩ | hp) | ⟨q, hq, rfl⟩
  · exact w k hk
  · exact s p hp
  · rw [s q hq, List.reverse_reverse]

/-- C76. For a weak key, and for each semi-weak pair, enciphering with the second key is deciphering with the first: enciphering
twice gives every block back. -/
theorem C76_standard (k k' : List Nat) (h : (k, k') ∈ inversePairs) (block : List Nat) (hb : IsBlock block) :
    encipher k' block = decipher k block ∧ encipher k' (encipher k block) = block := by
  have he : encipher k' = decipher k := by
    rw [← enc_eq, ← dec_eq]
    exact blockF_reverse _ _ (inverse_schedules (k, k') h) true
  rw [he]
  exact ⟨rfl, (C57_standard k block hb).1⟩

theorem inverse_length : ∀ p ∈ inversePairs, p.1.length = 8 ∧ p.2.length = 8 := by decide +kernel

/-- C76. The library accepts these keys like any other, and then encrypting twice, with the key and with its partner, returns
every message (ECB, whole blocks): the second `encrypt` does what `decrypt` should do. -/
theorem C76_library (k k' : List Nat) (h : (k, k') ∈ inversePairs) (m : List Nat) (hm : m.length % 8 = 0) (hx : ∀ x ∈ m, x < 256) :
    ∃ d d' c, Des.new k 0 [] none 1 = .ok d ∧ Des.new k' 0 [] none 1 = .ok d' ∧ d.encrypt m none none = .ok c ∧
      d'.encrypt c none none = .ok m ∧ d'.encrypt m none none = d.decrypt m none none := by
  obtain ⟨bs, rfl, hb⟩ := exists_blocks m hm hx
  obtain ⟨l1, l2⟩ := inverse_length (k, k') h
  obtain ⟨d, h1, h2, h3⟩ := C59_ecb k [] l1 (.inl rfl) bs hb
  obtain ⟨g1, _⟩ := ecb_blocks (encipher k) (fun b _ => encipher_block k b) bs hb
  obtain ⟨d', f1, f2, _⟩ := C59_ecb k' [] l2 (.inl rfl) bs hb
  obtain ⟨d'', e1, e2, _⟩ := C59_ecb k' [] l2 (.inl rfl) _ g1
  rw [f1] at e1; injection e1 with e1; subst e1
  refine ⟨d, d', _, h1, f1, h2, ?_, ?_⟩
  · rw [e2, ecb_inverse _ _ (fun b hb => (C76_standard k k' h b hb).2) bs hb]
  · have he : ecb (encipher k') bs = ecb (decipher k) bs := by
      unfold ecb
      exact List.map_congr_left fun b hb' => (C76_standard k k' h b (hb b hb')).1
    rw [f2, h3, he]

/-! ### C77: degenerate triple DES -/

theorem ecb_congr (F G : List Nat → List Nat) (h : ∀ b, IsBlock b → F b = G b) (bs : List (List Nat)) (hb : ∀ b ∈ bs, IsBlock b) : ecb F bs = ecb G bs := by
  unfold ecb
  exact List.map_congr_left fun b hb' => h b (hb b hb')

theorem cbcEncrypt_congr (F G : List Nat → List Nat) (h : ∀ b, IsBlock b → F b = G b) (hF : ∀ b, IsBlock b → IsBlock (F b)) (iv : List Nat) (hiv : IsBlock iv)
    (bs : List (List Nat)) (hb : ∀ b ∈ bs, IsBlock b) : cbcEncrypt F iv bs = cbcEncrypt G iv bs := by
  induction bs generalizing iv with
  | nil => rfl
  | cons b bs ih =>
    have hx := xorBytes_block b iv (hb b (by simp)) hiv
    simp only [cbcEncrypt]
    rw [← h _ hx, ih _ (hF _ hx) (fun c hc => hb c (by simp [hc]))]

theorem cbcDecrypt_congr (F G : List Nat → List Nat) (h : ∀ b, IsBlock b → F b = G b) (iv : List Nat)
    (bs : List (List Nat)) (hb : ∀ b ∈ bs, IsBlock b) : cbcDecrypt F iv bs = cbcDecrypt G iv bs := by
  induction bs generalizing iv with
  | nil => rfl
  | cons b bs ih =>
    simp only [cbcDecrypt]
    rw [← h b (hb b (by simp)), ih _ (fun c hc => hb c (by simp [hc]))]

/-- Padding yields whole blocks. -/
theorem padData_blocks (b : Base) (hp : b.padmode = 1 ∨ b.padmode = 2) (hn : b.padding = none) (m m' : List Nat) (hx : ∀ x ∈ m, x < 256)
    (h : b.padData m none none = .ok m') : m'.length % 8 = 0 ∧ ∀ x ∈ m', x < 256 := by
  rcases hp with hp | hp
  · by_cases h8 : m.length % 8 = 0
    · rw [padData_none b hp m h8] at h
      injection h with h
      subst h
      exact ⟨h8, hx⟩
    · rw [padData_none_err b hp hn m h8] at h; cases h
  · obtain ⟨m'', p1, p2, p3, _⟩ := unpad_pad_pkcs5 b b hp hp m
    rw [p1] at h
    injection h with h
    subst h
    refine ⟨by omega, ?_⟩
    intro x h
    rcases p3 x h with h | h
    · exact hx x h
    · omega

theorem like_decrypt_short (t : Triple) (b : Base) (k1 k2 k3 : List Nat) (hl : Like t b k1 k2 k3) (hiv : IsBlock b.iv) (m : List Nat) (hm : m.length % 8 ≠ 0)
    (hx : ∀ x ∈ m, x < 256) (pad padmode : Option Nat) : t.decrypt m pad padmode = .error .valueError := by
  unfold Triple.decrypt
  simp only [bind, Except.bind, hl.base]
  by_cases hc : b.mode = CBC
  · rw [if_pos hc, setIVs_ok t b.iv hiv.1]
    simp only
    obtain ⟨bs, r, g1, g2, g3, g4⟩ := blocks_rest m hx hm
    rw [g4, decLoop_short _ hc _ _ _ bs g1 r (by omega) t hl b.iv hiv]
  · rw [if_neg hc, crypt_short _ m hm]

/-- When the three passes compose to one, the triple object answers like the single one. -/
theorem like_single (t : Triple) (b : Base) (k1 k2 k3 k : List Nat) (h : Like t b k1 k2 k3) (hp : b.padmode = 1 ∨ b.padmode = 2) (hn : b.padding = none)
    (hiv : IsBlock b.iv) (hE : ∀ x, IsBlock x → encipher3 k1 k2 k3 x = encipher k x) (hD : ∀ x, IsBlock x → decipher3 k1 k2 k3 x = decipher k x)
    (m : List Nat) (hx : ∀ x ∈ m, x < 256) :
    (t.encrypt m none none).map Prod.fst = (Des.mk b (createSubKeys k)).encrypt m none none ∧
    (t.decrypt m none none).map Prod.fst = (Des.mk b (createSubKeys k)).decrypt m none none := by
  constructor
  · cases hpd : b.padData m none none with
    | error e =>
      have e1 : t.encrypt m none none = .error e := by
        unfold Triple.encrypt
        simp only [bind, Except.bind, h.base, hpd]
      have e2 : (Des.mk b (createSubKeys k)).encrypt m none none = .error e := by
        unfold Des.encrypt
        simp only [hpd]
      rw [e1, e2]; rfl
    | ok m' =>
      obtain ⟨h8, hx'⟩ := padData_blocks b hp hn m m' hx hpd
      obtain ⟨bs, rfl, hb⟩ := exists_blocks m' h8 hx'
      have e2 : (Des.mk b (createSubKeys k)).encrypt m none none = (Des.mk b (createSubKeys k)).crypt bs.flatten true := by
        unfold Des.encrypt
        simp only [hpd]
      rw [e2]
      by_cases hc : b.mode = CBC
      · obtain ⟨t', ht'⟩ := (like_encrypt t b k1 k2 k3 h bs hb m none none hpd).2 hc hiv
        rw [ht', crypt_cbc_enc (Des.mk b (createSubKeys k)) hc (iv_block_ne _ hiv) bs (fun b h => (hb b h).1)]
        show Except.ok _ = _
        rw [enc_eq, cbcEncrypt_congr _ _ hE (fun x _ => encipher3_block _ _ _ x) _ hiv bs hb]
      · obtain ⟨t', ht'⟩ := (like_encrypt t b k1 k2 k3 h bs hb m none none hpd).1 hc
        rw [ht', crypt_ecb (Des.mk b (createSubKeys k)) hc true bs (fun b h => (hb b h).1)]
        show Except.ok _ = _
        rw [enc_eq, ecb_congr _ _ hE bs hb]
  · by_cases h8 : m.length % 8 = 0
    · obtain ⟨bs, rfl, hb⟩ := exists_blocks m h8 hx
      have hu : ∀ x : List Nat, ∃ r, b.unpadData x none none = .ok r := by
        intro x
        unfold Base.unpadData
        cases x.getLast? with
        | none => exact ⟨_, rfl⟩
        | some v =>
          simp only
          rw [if_neg (by simp)]
          rcases hp with hp | hp
          · simp only [Option.getD_none, hp]
            rw [if_pos (by rfl)]
            simp [hn]
          · simp only [Option.getD_none, hp]
            rw [if_neg (by simp [PAD_NORMAL]), if_pos (by rfl)]
            exact ⟨_, rfl⟩
      by_cases hc : b.mode = CBC
      · obtain ⟨r, hr⟩ := hu (cbcDecrypt (decipher3 k1 k2 k3) b.iv bs).flatten
        obtain ⟨t', ht'⟩ := (like_decrypt t b k1 k2 k3 h bs hb none none).2 hc hiv r hr
        rw [ht']
        unfold Des.decrypt
        rw [crypt_cbc_dec (Des.mk b (createSubKeys k)) hc hiv bs hb]
        simp only
        rw [dec_eq, ← cbcDecrypt_congr _ _ hD _ bs hb, hr]
        rfl
      · obtain ⟨r, hr⟩ := hu (ecb (decipher3 k1 k2 k3) bs).flatten
        obtain ⟨t', ht'⟩ := (like_decrypt t b k1 k2 k3 h bs hb none none).1 hc r hr
        rw [ht']
        unfold Des.decrypt
        rw [crypt_ecb (Des.mk b (createSubKeys k)) hc false bs (fun b h => (hb b h).1)]
        simp only
        rw [dec_eq, ← ecb_congr _ _ hD bs hb, hr]
        rfl
    · rw [like_decrypt_short t b k1 k2 k3 h hiv m h8 hx]
      unfold Des.decrypt
      rw [crypt_short _ m h8]
      rfl

/-- C77. A triple DES object whose first and second key are equal is single DES with the third key; one whose second and third
key are equal is single DES with the first: for every mode, IV, padding mode (none or PKCS5), history of calls and message, the
result or the exception of `encrypt` and of `decrypt` is the one of the `des` object. -/
theorem C77_degenerate (k k' : List Nat) (hk : k.length = 8) (hk' : k'.length = 8) (key : List Nat) (hkey : key = k ++ k ++ k' ∨ key = k' ++ k ++ k)
    (mode : Nat) (iv : List Nat) (hiv : IsBlock iv) (padmode : Nat) (hp : padmode = 1 ∨ padmode = 2) :
    ∃ t0 d, Triple.new key mode iv none padmode = .ok t0 ∧ Des.new k' mode iv none padmode = .ok d ∧
      ∀ t, Used t0 t → ∀ m : List Nat, (∀ x ∈ m, x < 256) →
        (t.encrypt m none none).map Prod.fst = d.encrypt m none none ∧ (t.decrypt m none none).map Prod.fst = d.decrypt m none none := by
  have hl : key.length = 24 := by rcases hkey with rfl | rfl <;> simp [hk, hk']
  obtain ⟨t0, h0⟩ := (C61_constructor key mode iv padmode).2.2 (.inr hl) hiv.1
  have hd := (C59_constructor k' mode iv none padmode).1 ⟨hk', .inr hiv.1, by simp⟩
  refine ⟨t0, _, h0, hd, ?_⟩
  intro t ht m hx
  have hlike := triple_like key mode iv padmode (.inr hl) hiv.1 t0 t h0 ht
  have h3 : third key = key.drop 16 := by unfold third; rw [if_neg (by omega)]
  rw [h3] at hlike
  refine like_single t _ _ _ _ k' hlike hp rfl hiv ?_ ?_ m hx
  · intro x hxb
    rcases hkey with rfl | rfl
    · have e1 : (k ++ k ++ k').take 8 = k := by simp [hk]
      have e2 : ((k ++ k ++ k').drop 8).take 8 = k := by simp [hk]
      have e3 : (k ++ k ++ k').drop 16 = k' := by rw [List.drop_left' (by simp [hk])]
      rw [e1, e2, e3]
      unfold encipher3
      rw [(C57_standard k x hxb).1]
    · have e1 : (k' ++ k ++ k).take 8 = k' := by simp [hk']
      have e2 : ((k' ++ k ++ k).drop 8).take 8 = k := by simp [hk, hk']
      have e3 : (k' ++ k ++ k).drop 16 = k := by rw [List.drop_left' (by simp [hk, hk'])]
      rw [e1, e2, e3]
      unfold encipher3
      rw [(C57_standard k _ (encipher_block _ _)).2]
  · intro x hxb
    rcases hkey with rfl | rfl
    · have e1 : (k ++ k ++ k').take 8 = k := by simp [hk]
      have e2 : ((k ++ k ++ k').drop 8).take 8 = k := by simp [hk]
      have e3 : (k ++ k ++ k').drop 16 = k' := by rw [List.drop_left' (by simp [hk])]
      rw [e1, e2, e3]
      unfold decipher3
      rw [(C57_standard k _ (decipher_block _ _)).1]
    · have e1 : (k' ++ k ++ k).take 8 = k' := by simp [hk']
      have e2 : ((k' ++ k ++ k).drop 8).take 8 = k := by simp [hk, hk']
      have e3 : (k' ++ k ++ k).drop 16 = k := by rw [List.drop_left' (by simp [hk, hk'])]
      rw [e1, e2, e3]
      unfold decipher3
      rw [(C57_standard k x hxb).2]

/-- C77. A 16-byte key with equal halves is single DES. -/
theorem C77_sixteen (k : List Nat) (hk : k.length = 8) (mode : Nat) (iv : List Nat) (hiv : IsBlock iv) (padmode : Nat) (hp : padmode = 1 ∨ padmode = 2) :
    ∃ t0 d, Triple.new (k ++ k) mode iv none padmode = .ok t0 ∧ Des.new k mode iv none padmode = .ok d ∧
      ∀ t, Used t0 t → ∀ m : List Nat, (∀ x ∈ m, x < 256) →
        (t.encrypt m none none).map Prod.fst = d.encrypt m none none ∧ (t.decrypt m none none).map Prod.fst = d.decrypt m none none := by
  have hl : (k ++ k).length = 16 := by simp [hk]
  obtain ⟨t0, h0⟩ := (C61_constructor (k ++ k) mode iv padmode).2.2 (.inl hl) hiv.1
  have hd := (C59_constructor k mode iv none padmode).1 ⟨hk, .inr hiv.1, by simp⟩
  refine ⟨t0, _, h0, hd, ?_⟩
  intro t ht m hx
  have hlike := triple_like (k ++ k) mode iv padmode (.inl hl) hiv.1 t0 t h0 ht
  have h3 : third (k ++ k) = k := by unfold third; rw [if_pos hl]; simp [hk]
  have e1 : (k ++ k).take 8 = k := by simp [hk]
  have e2 : ((k ++ k).drop 8).take 8 = k := by rw [List.drop_left' hk, List.take_of_length_le (by omega)]
  rw [h3, e1, e2] at hlike
  exact like_single t _ _ _ _ k hlike hp rfl hiv (fun x hxb => (C61_single k x hxb).1) (fun x hxb => (C61_single k x hxb).2) m hx

example : ∃ t0 d, Triple.new (List.replicate 24 7) 1 [1, 2, 3, 4, 5, 6, 7, 8] none 2 = .ok t0 ∧ Des.new (List.replicate 8 7) 1 [1, 2, 3, 4, 5, 6, 7, 8] none 2 = .ok d ∧
    (t0.encrypt [1, 2, 3] none none).map Prod.fst = d.encrypt [1, 2, 3] none none := by
  obtain ⟨t0, d, h1, h2, h3⟩ := C77_degenerate (List.replicate 8 7) (List.replicate 8 7) rfl rfl (List.replicate 24 7) (.inl rfl) 1 [1, 2, 3, 4, 5, 6, 7, 8]
    ⟨rfl, by decide⟩ 2 (.inr rfl)
  exact ⟨t0, d, h1, h2, (h3 t0 .new [1, 2, 3] (by decide)).1⟩

/-! ### C78: how far a change of the message reaches -/

theorem ecb_append (F : List Nat → List Nat) (as bs : List (List Nat)) : ecb F (as ++ bs) = ecb F as ++ ecb F bs := by simp [ecb]

/-- The block that chains into the next one. -/
theorem cbcEncrypt_append (F : List Nat → List Nat) (iv : List Nat) (as bs : List (List Nat)) :
    cbcEncrypt F iv (as ++ bs) = cbcEncrypt F iv as ++ cbcEncrypt F ((cbcEncrypt F iv as).getLast?.getD iv) bs := by
  induction as generalizing iv with
  | nil => rfl
  | cons a as ih =>
    simp only [List.cons_append, cbcEncrypt]
    rw [ih]
    congr 3
    cases h : cbcEncrypt F (F (xorBytes a iv)) as with
    | nil => rfl
    | cons x xs => simp [List.getLast?_cons]

theorem cbcDecrypt_append (G : List Nat → List Nat) (iv : List Nat) (as bs : List (List Nat)) :
    cbcDecrypt G iv (as ++ bs) = cbcDecrypt G iv as ++ cbcDecrypt G (as.getLast?.getD iv) bs := by
  induction as generalizing iv with
  | nil => rfl
  | cons a as ih =>
    simp only [List.cons_append, cbcDecrypt]
    rw [ih]
    congr 3
    cases as with
    | nil => rfl
    | cons x xs => simp [List.getLast?_cons]

/-- C78, ECB: the message can be cut anywhere at a block boundary; each part is encrypted and decrypted independently of the
other. -/
theorem C78_ecb (key : List Nat) (hk : key.length = 8) (m1 m2 : List Nat) (h1 : m1.length % 8 = 0) (h2 : m2.length % 8 = 0)
    (hx1 : ∀ x ∈ m1, x < 256) (hx2 : ∀ x ∈ m2, x < 256) :
    ∃ d c1 c2 p1 p2, Des.new key 0 [] none 1 = .ok d ∧ d.encrypt m1 none none = .ok c1 ∧ d.encrypt m2 none none = .ok c2 ∧
      d.encrypt (m1 ++ m2) none none = .ok (c1 ++ c2) ∧
      d.decrypt m1 none none = .ok p1 ∧ d.decrypt m2 none none = .ok p2 ∧ d.decrypt (m1 ++ m2) none none = .ok (p1 ++ p2) := by
  obtain ⟨as, rfl, ha⟩ := exists_blocks m1 h1 hx1
  obtain ⟨bs, rfl, hb⟩ := exists_blocks m2 h2 hx2
  obtain ⟨d, n1, e1, d1⟩ := C59_ecb key [] hk (.inl rfl) as ha
  obtain ⟨d', n2, e2, d2⟩ := C59_ecb key [] hk (.inl rfl) bs hb
  obtain ⟨d'', n3, e3, d3⟩ := C59_ecb key [] hk (.inl rfl) (as ++ bs) (by
    intro b h; rcases List.mem_append.1 h with h | h
    · exact ha b h
    · exact hb b h)
  rw [n1] at n2 n3
  injection n2 with n2; injection n3 with n3; subst n2; subst n3
  rw [List.flatten_append, ecb_append, List.flatten_append] at e3 d3
  exact ⟨d, _, _, _, _, n1, e1, e2, e3, d1, d2, d3⟩

/-- C78, CBC encryption: the ciphertext of a longer message begins with the ciphertext of its beginning, and goes on with the
ciphertext of the rest made with the last ciphertext block as the IV: a message can be encrypted in pieces. -/
theorem C78_cbc_encrypt (key : List Nat) (hk : key.length = 8) (iv : List Nat) (hiv : IsBlock iv) (m1 m2 : List Nat) (h1 : m1.length % 8 = 0) (h1' : m1 ≠ [])
    (h2 : m2.length % 8 = 0) (hx1 : ∀ x ∈ m1, x < 256) (hx2 : ∀ x ∈ m2, x < 256) :
    ∃ d d' c1 last c2, Des.new key 1 iv none 1 = .ok d ∧ last.length = 8 ∧ d.encrypt m1 none none = .ok (c1 ++ last) ∧
      Des.new key 1 last none 1 = .ok d' ∧ d'.encrypt m2 none none = .ok c2 ∧ d.encrypt (m1 ++ m2) none none = .ok (c1 ++ last ++ c2) := by
  obtain ⟨as, rfl, ha⟩ := exists_blocks m1 h1 hx1
  obtain ⟨bs, rfl, hb⟩ := exists_blocks m2 h2 hx2
  obtain ⟨d, n1, e1, _⟩ := C59_cbc key iv hk hiv as ha
  obtain ⟨d'', n3, e3, _⟩ := C59_cbc key iv hk hiv (as ++ bs) (by
    intro b h; rcases List.mem_append.1 h with h | h
    · exact ha b h
    · exact hb b h)
  rw [n1] at n3
  injection n3 with n3; subst n3
  rw [List.flatten_append, cbcEncrypt_append, List.flatten_append] at e3
  obtain ⟨g1, g2⟩ := cbcEncrypt_blocks (encipher key) (fun b _ => encipher_block key b) iv hiv as ha
  have hne : cbcEncrypt (encipher key) iv as ≠ [] := by
    intro h
    rw [h] at g2
    have : as = [] := List.length_eq_zero_iff.1 g2.symm
    subst this
    exact h1' rfl
  generalize hC : cbcEncrypt (encipher key) iv as = C at *
  obtain ⟨ys, y, rfl⟩ : ∃ ys y, C = ys ++ [y] := ⟨C.dropLast, C.getLast hne, (List.dropLast_concat_getLast hne).symm⟩
  have hy : IsBlock y := g1 y (by simp)
  rw [List.getLast?_concat] at e3
  simp only [Option.getD_some] at e3
  obtain ⟨d', n2, e2, _⟩ := C59_cbc key y hk hy bs hb
  have ef : (ys ++ [y]).flatten = ys.flatten ++ y := by simp
  rw [ef] at e1 e3
  exact ⟨d, d', ys.flatten, y, _, n1, hy.1, e1, n2, e2, e3⟩

theorem xorBytes_diff (g c c' : List Nat) (h1 : g.length = c.length) (h2 : c.length = c'.length) :
    xorBytes g c' = xorBytes (xorBytes g c) (xorBytes c c') := by
  apply List.ext_getElem
  · simp only [xorBytes_length]; omega
  · intro i h1 h2
    simp only [xorBytes, List.getElem_zipWith]
    rw [Nat.xor_assoc, ← Nat.xor_assoc (c[i]'(by simp only [xorBytes_length] at h1; omega)), Nat.xor_self, Nat.zero_xor]

/-- C78, CBC decryption: replacing one ciphertext block changes the plaintext of that block and, in the next block, exactly the
bits that were changed; nothing before or after. -/
theorem C78_cbc_error (key : List Nat) (hk : key.length = 8) (iv : List Nat) (hiv : IsBlock iv) (before after : List Nat) (c c' next : List Nat)
    (hb1 : before.length % 8 = 0) (hb2 : ∀ x ∈ before, x < 256) (ha1 : after.length % 8 = 0) (ha2 : ∀ x ∈ after, x < 256)
    (hc : IsBlock c) (hc' : IsBlock c') (hn : IsBlock next) :
    ∃ d P p p' q S, Des.new key 1 iv none 1 = .ok d ∧ P.length = before.length ∧ p.length = 8 ∧ p'.length = 8 ∧ q.length = 8 ∧
      d.decrypt (before ++ c ++ next ++ after) none none = .ok (P ++ p ++ q ++ S) ∧
      d.decrypt (before ++ c' ++ next ++ after) none none = .ok (P ++ p' ++ xorBytes q (xorBytes c c') ++ S) ∧
      (p = p' ↔ c = c') := by
  obtain ⟨as, rfl, ha⟩ := exists_blocks before hb1 hb2
  obtain ⟨bs, rfl, hb⟩ := exists_blocks after ha1 ha2
  have key1 : ∀ c, IsBlock c → ∃ d, Des.new key 1 iv none 1 = .ok d ∧ d.decrypt (as.flatten ++ c ++ next ++ bs.flatten) none none =
      .ok ((cbcDecrypt (decipher key) iv as).flatten ++ xorBytes (decipher key c) (as.getLast?.getD iv) ++ xorBytes (decipher key next) c ++ (cbcDecrypt (decipher key) next bs).flatten) := by
    intro c hc
    obtain ⟨d, n, _, e⟩ := C59_cbc key iv hk hiv (as ++ c :: next :: bs) (by
      intro b h
      simp only [List.mem_append, List.mem_cons] at h
      rcases h with h | rfl | rfl | h
      · exact ha b h
      · exact hc
      · exact hn
      · exact hb b h)
    refine ⟨d, n, ?_⟩
    rw [cbcDecrypt_append] at e
    simp only [cbcDecrypt, List.flatten_append, List.flatten_cons, ← List.append_assoc] at e
    exact e
  obtain ⟨d, n1, e1⟩ := key1 c hc
  obtain ⟨d', n2, e2⟩ := key1 c' hc'
  rw [n1] at n2; injection n2 with n2; subst n2
  have hl : IsBlock (as.getLast?.getD iv) := by
    cases h : as.getLast? with
    | none => exact hiv
    | some v => exact ha v (List.mem_of_getLast? h)
  obtain ⟨g1, g2⟩ := cbcDecrypt_blocks (decipher key) (fun b _ => decipher_block key b) iv hiv as ha
  refine ⟨d, _, _, xorBytes (decipher key c') (as.getLast?.getD iv), _, _, n1, ?_, ?_, ?_, ?_, e1, ?_, ?_⟩
  · rw [flatten_length8 _ (fun b h => (g1 b h).1), flatten_length8 _ (fun b h => (ha b h).1), g2]
  · exact (xorBytes_block _ _ (decipher_block _ _) hl).1
  · exact (xorBytes_block _ _ (decipher_block _ _) hl).1
  · exact (xorBytes_block _ _ (decipher_block _ _) hc).1
  · rw [e2, xorBytes_diff (decipher key next) c c' (by rw [(decipher_block _ _).1, hc.1]) (by rw [hc.1, hc'.1])]
  · constructor
    · intro h
      have := congrArg (fun z => xorBytes z (as.getLast?.getD iv)) h
      rw [xorBytes_cancel _ _ (by rw [(decipher_block _ _).1, hl.1]), xorBytes_cancel _ _ (by rw [(decipher_block _ _).1, hl.1])] at this
      rw [← (C57_standard key c hc).2, this, (C57_standard key c' hc').2]
    · intro h; rw [h]

end Verif.Props
