import Verif.Model.DESPads
import Verif.Props.TripleDES
/-! C101: pads of several bytes in pyDes. -/
namespace Verif.Props
open Verif.Py Verif.Model Verif.Model.PyDes Verif.Spec.DES

/-! ### Specification -/

/-- `s` followed by as many copies of `pad` as bytes are missing in the last block; `s` itself if none is. -/
def topUp (pad s : List Nat) : List Nat := if s.length % 8 = 0 then s else s ++ (List.replicate (8 - s.length % 8) pad).flatten

/-- The pad in force: the argument if there is one, else the object's. -/
def padInForce (arg object : List Nat) : List Nat := if arg = [] then object else arg

/-! ### Lengths -/

theorem copies_length (n : Nat) (pad : List Nat) : (List.replicate n pad).flatten.length = n * pad.length := by
  induction n with
  | zero => simp
  | succ n ih => rw [List.replicate_succ, List.flatten_cons, List.length_append, ih, Nat.succ_mul, Nat.add_comm]

theorem topUp_length (pad s : List Nat) (h : s.length % 8 ≠ 0) : (topUp pad s).length = s.length + (8 - s.length % 8) * pad.length := by
  unfold topUp
  rw [if_neg h, List.length_append, copies_length]

/-- Adding `(8 - r) * n` to a number of remainder `r` leaves `- r * (n - 1)` modulo 8. -/
theorem fill_mod (a n : Nat) (hn : 0 < n) : (a + (8 - a % 8) * n + a * (n - 1)) % 8 = 0 := by
  obtain ⟨k, rfl⟩ : ∃ k, n = k + 1 := ⟨n - 1, by omega⟩
  have h1 : a = 8 * (a / 8) + a % 8 := by omega
  have hr : a % 8 < 8 := by omega
  generalize a % 8 = r at h1 hr
  generalize a / 8 = q at h1
  subst h1
  have e1 : (8 - r) * (k + 1) + r * (k + 1) = 8 * (k + 1) := by rw [← Nat.add_mul]; congr 1; omega
  have e2 : r * (k + 1) = r * k + r := Nat.mul_succ r k
  have e3 : (8 * q + r) * (k + 1 - 1) = 8 * (q * k) + r * k := by rw [Nat.add_sub_cancel, Nat.add_mul, Nat.mul_assoc]
  rw [e3]
  omega

theorem mul_mod8 (a b n : Nat) (h : (a + b) % 8 = 0) : (a * n) % 8 = 0 ↔ (b * n) % 8 = 0 := by
  have : (a * n + b * n) % 8 = 0 := by rw [← Nat.add_mul, Nat.mul_mod, h]; simp
  omega

theorem topUp_mod (pad s : List Nat) (hp : pad ≠ []) : ((topUp pad s).length + s.length * (pad.length - 1)) % 8 = 0 := by
  have hl : 0 < pad.length := List.length_pos_iff.2 hp
  by_cases h : s.length % 8 = 0
  · unfold topUp
    rw [if_pos h, Nat.add_mod, h, Nat.mul_mod, h]
    simp
  · rw [topUp_length pad s h]
    exact fill_mod s.length pad.length hl

/-- C101. A message of `s` bytes filled up with a pad of `n` bytes is whole blocks exactly if 8 divides `s * (n - 1)`; filled up again, with a
pad of `k` bytes, exactly if 8 divides `s * (n - 1) * (k - 1)`. -/
theorem C101_lengths (pad again s : List Nat) (hp : pad ≠ []) (ha : again ≠ []) :
    ((topUp pad s).length % 8 = 0 ↔ s.length * (pad.length - 1) % 8 = 0) ∧
    ((topUp again (topUp pad s)).length % 8 = 0 ↔ s.length * (pad.length - 1) * (again.length - 1) % 8 = 0) := by
  have h1 := topUp_mod pad s hp
  have h2 := topUp_mod again (topUp pad s) ha
  have h3 := mul_mod8 _ _ (again.length - 1) h1
  constructor
  · omega
  · rw [← h3]; omega

example : (topUp [1, 2, 3] [9, 9, 9, 9]).length = 16 ∧ (topUp [1, 2] [9, 9, 9, 9]).length = 12 ∧ (topUp [1, 2, 3] (topUp [1, 2, 3] [9, 9])).length = 32 := by
  decide

/-! ### Pads of at most one byte -/

/-- A `des` object of the one-byte model as one of this model. -/
def asM (d : Des) : MDes := ⟨d.base.mode, d.base.iv, d.base.padding.toList, d.base.padmode, d.Kn⟩

theorem rstripSet_one (l : List Nat) (c : Nat) : rstripSet l [c] = rstrip l c := by
  unfold rstripSet rstrip
  congr 2
  funext x
  simp only [List.contains_cons, List.contains_nil, Bool.or_false]

theorem replicate_one (n c : Nat) : (List.replicate n [c]).flatten = List.replicate n c := by
  induction n with
  | zero => rfl
  | succ n ih => rw [List.replicate_succ, List.flatten_cons, ih, List.replicate_succ]; rfl

theorem padDataM_one (b : Base) (m : List Nat) (p pm : Option Nat) : padDataM b.padding.toList b.padmode m p.toList pm = b.padData m p pm := by
  unfold padDataM Base.padData appendPads
  cases p <;> cases hb : b.padding <;> simp [replicate_one]

theorem unpadDataM_one (b : Base) (m : List Nat) (p pm : Option Nat) : unpadDataM b.padding.toList b.padmode m p.toList pm = b.unpadData m p pm := by
  unfold unpadDataM Base.unpadData
  cases hl : m.getLast? with
  | none => rfl
  | some v => cases p <;> cases hb : b.padding <;> simp [rstripSet_one]

theorem cryptM_one (py3 : Bool) (d : Des) (m : List Nat) (e : Bool) : (asM d).crypt py3 m e = d.crypt m e := by
  unfold MDes.crypt Des.crypt asM appendPads
  by_cases hm : m = []
  · rw [if_pos hm, if_pos hm]
  rw [if_neg hm, if_neg hm]
  simp only
  by_cases h8 : m.length % 8 = 0
  · rw [if_neg (show ¬ (m.length % 8 ≠ 0) by omega), if_neg (show ¬ (m.length % 8 ≠ 0) by omega)]
    simp only
    rw [if_neg (show ¬ (m.length % 8 ≠ 0) by omega)]
  · rw [if_pos h8, if_pos h8]
    cases e with
    | false => rfl
    | true =>
      rw [if_neg (show ¬ ¬ (true = true) by simp), if_neg (show ¬ ¬ (true = true) by simp)]
      cases d.base.padding with
      | none => rfl
      | some c =>
        rw [if_neg (by simp)]
        simp only [Option.toList_some, replicate_one]
        rw [if_neg (show ¬ ((m ++ List.replicate (8 - m.length % 8) c).length % 8 ≠ 0) by rw [List.length_append, List.length_replicate]; omega)]

/-- C101. With pads of at most one byte this model is the one the other properties of pyDes are about, under both Pythons. -/
theorem C101_one_byte (py3 : Bool) (key : List Nat) (mode : Nat) (iv m : List Nat) (pad p pm : Option Nat) (padmode : Nat) (d : Des) :
    MDes.new key mode iv pad.toList padmode = (Des.new key mode iv pad padmode).map asM ∧
    (asM d).encrypt py3 m p.toList pm = d.encrypt m p pm ∧ (asM d).decrypt py3 m p.toList pm = d.decrypt m p pm := by
  refine ⟨?_, ?_, ?_⟩
  · unfold MDes.new Des.new Base.new asM
    by_cases hk : key.length ≠ 8
    · rw [if_pos hk, if_pos hk]; rfl
    rw [if_neg hk, if_neg hk]
    have hp : (pad.toList ≠ [] ∧ padmode = PAD_PKCS5) ↔ (pad.isSome = true ∧ padmode = PAD_PKCS5) := by cases pad <;> simp
    by_cases h1 : pad.isSome = true ∧ padmode = PAD_PKCS5
    · rw [if_pos (hp.2 h1), if_pos h1]; rfl
    rw [if_neg (fun h => h1 (hp.1 h)), if_neg h1]
    by_cases h2 : iv ≠ [] ∧ iv.length ≠ 8
    · rw [if_pos h2, if_pos h2]; rfl
    rw [if_neg h2, if_neg h2]; rfl
  · unfold MDes.encrypt Des.encrypt
    rw [show padDataM (asM d).padding (asM d).padmode m p.toList pm = d.base.padData m p pm from padDataM_one d.base m p pm]
    cases d.base.padData m p pm with
    | error e => rfl
    | ok r => exact cryptM_one py3 d r true
  · unfold MDes.decrypt Des.decrypt
    rw [cryptM_one]
    cases d.crypt m false with
    | error e => rfl
    | ok r => exact unpadDataM_one d.base r p pm

/-! ### Pads of any length -/

/-- The object without its pad. -/
def plain (d : MDes) : Des := ⟨⟨d.mode, d.iv, none, d.padmode⟩, d.Kn⟩

theorem cryptM_aligned (py3 : Bool) (d : MDes) (m : List Nat) (e : Bool) (h : m.length % 8 = 0) : d.crypt py3 m e = (plain d).crypt m e := by
  unfold MDes.crypt Des.crypt plain
  by_cases hm : m = []
  · rw [if_pos hm, if_pos hm]
  rw [if_neg hm, if_neg hm]
  simp only
  rw [if_neg (show ¬ (m.length % 8 ≠ 0) by omega), if_neg (show ¬ (m.length % 8 ≠ 0) by omega)]
  simp only
  rw [if_neg (show ¬ (m.length % 8 ≠ 0) by omega)]

theorem appendPads_eq (pad s : List Nat) (h : s.length % 8 ≠ 0) : appendPads s pad = topUp pad s := by
  unfold appendPads topUp
  rw [if_neg h]

/-- `crypt` on data that is not whole blocks. -/
theorem cryptM_short (py3 : Bool) (d : MDes) (m : List Nat) (hiv : ¬ (d.mode = 1 ∧ d.iv = [])) (h : m.length % 8 ≠ 0) :
    d.crypt py3 m true = if d.padding = [] then .error .valueError
      else if (topUp d.padding m).length % 8 ≠ 0 then .error (if d.mode = 1 ∧ py3 = false then .typeError else .indexError)
      else (plain d).crypt (topUp d.padding m) true := by
  have hm : m ≠ [] := by rintro rfl; simp at h
  by_cases hp : d.padding = []
  · unfold MDes.crypt
    rw [if_neg hm, if_pos hp]
    simp only
    rw [if_pos h, if_neg (show ¬ ¬ True by simp), if_pos hp]
  · rw [if_neg hp]
    have hT : topUp d.padding m ≠ [] := by
      unfold topUp; rw [if_neg h]; simp [hm]
    by_cases ht : (topUp d.padding m).length % 8 = 0
    · rw [if_neg (by omega), ← cryptM_aligned py3 d _ true ht]
      unfold MDes.crypt
      rw [if_neg hm, if_neg hT]
      simp only
      rw [if_pos h, if_neg (show ¬ ¬ True by simp), if_neg hp, if_neg (show ¬ ((topUp d.padding m).length % 8 ≠ 0) by omega), appendPads_eq _ _ h]
    · rw [if_pos ht]
      unfold MDes.crypt
      rw [if_neg hm]
      simp only
      rw [if_pos h, if_neg (show ¬ ¬ True by simp), if_neg hp]
      simp only
      rw [if_neg (show ¬ (d.mode = CBC ∧ d.iv = []) from hiv), appendPads_eq _ _ h, if_pos ht]
      by_cases hc : d.mode = 1 ∧ py3 = false
      · rw [if_pos ⟨hc.1, trivial, hc.2⟩, if_pos hc]
      · rw [if_neg (fun h => hc ⟨h.1, h.2.2⟩), if_neg hc]

theorem newM (key iv q : List Nat) (mode : Nat) (hk : key.length = 8) (hiv : IsBlock iv) :
    MDes.new key mode iv q 1 = .ok ⟨mode, iv, q, 1, createSubKeys key⟩ := by
  unfold MDes.new
  rw [if_neg (by omega), if_neg (by rintro ⟨_, h⟩; exact absurd h (by decide)), if_neg (fun h => h.2 hiv.1)]

theorem padDataM_normal (q p m : List Nat) (pm : Option Nat) (hpm : pm = none ∨ pm = some 1) :
    padDataM q 1 m p pm = if m.length % 8 ≠ 0 ∧ padInForce p q = [] then .error .valueError else .ok (topUp (padInForce p q) m) := by
  have hg : pm.getD 1 = PAD_NORMAL := by rcases hpm with rfl | rfl <;> rfl
  unfold padDataM topUp
  simp only [hg]
  rw [if_neg (by rintro ⟨_, h⟩; exact absurd h (by decide)), if_pos trivial]
  by_cases h8 : m.length % 8 = 0
  · rw [if_pos h8, if_neg (fun h => h.1 h8), if_pos h8]
  · rw [if_neg h8, if_neg h8]
    show (if padInForce p q = [] then _ else _) = _
    by_cases hP : padInForce p q = []
    · rw [if_pos hP, if_pos ⟨h8, hP⟩]
    · rw [if_neg hP, if_neg (show ¬ (m.length % 8 ≠ 0 ∧ padInForce p q = []) from fun h => hP h.2)]; rfl

/-- C101. Encrypting a message that is not whole blocks: it is filled up with the pad in force and, if that does not give whole blocks, again
with the object's own pad; what is encrypted is the outcome. Without a pad to use ValueError is raised; if the second filling does not give whole
blocks either, IndexError (TypeError under Python 2 in CBC mode). -/
theorem C101_encrypt (py3 : Bool) (key iv q p m : List Nat) (mode : Nat) (hk : key.length = 8) (hiv : IsBlock iv)
    (h8 : m.length % 8 ≠ 0) (pm : Option Nat) (hpm : pm = none ∨ pm = some 1) :
    ∃ d d0, MDes.new key mode iv q 1 = .ok d ∧ Des.new key mode iv none 1 = .ok d0 ∧
      d.encrypt py3 m p pm =
        if padInForce p q = [] then .error .valueError
        else if (topUp (padInForce p q) m).length % 8 = 0 then d0.encrypt (topUp (padInForce p q) m) none none
        else if q = [] then .error .valueError
        else if (topUp q (topUp (padInForce p q) m)).length % 8 = 0 then d0.encrypt (topUp q (topUp (padInForce p q) m)) none none
        else .error (if mode = 1 ∧ py3 = false then .typeError else .indexError) := by
  refine ⟨_, _, newM key iv q mode hk hiv, (C59_constructor key mode iv none 1).1 ⟨hk, .inr hiv.1, by simp⟩, ?_⟩
  unfold MDes.encrypt
  rw [show padDataM _ _ m p pm = _ from padDataM_normal q p m pm hpm]
  by_cases hP : padInForce p q = []
  · rw [if_pos ⟨h8, hP⟩, if_pos hP]
  rw [if_neg (fun h => hP h.2), if_neg hP]
  simp only
  generalize topUp (padInForce p q) m = T
  by_cases ht : T.length % 8 = 0
  · rw [if_pos ht, cryptM_aligned py3 _ T true ht, encrypt_none _ (by rfl) T ht]
    rfl
  rw [if_neg ht, cryptM_short py3 _ T (fun h => iv_block_ne iv hiv h.2) ht]
  show (if q = [] then _ else if (topUp q T).length % 8 ≠ 0 then _ else _) = _
  by_cases hq : q = []
  · rw [if_pos hq, if_pos hq]
  rw [if_neg hq, if_neg hq]
  by_cases h2 : (topUp q T).length % 8 = 0
  · rw [if_neg (by omega), if_pos h2, encrypt_none _ (by rfl) _ h2]
    rfl
  · rw [if_pos h2, if_neg h2]

/-- What decryption does with the plaintext. -/
theorem unpadDataM_normal (q p t : List Nat) (pm : Option Nat) (hpm : pm = none ∨ pm = some 1) (h : 8 ≤ t.length) :
    unpadDataM q 1 t p pm = .ok (t.take (t.length - 8) ++ rstripSet (t.drop (t.length - 8)) (padInForce p q)) := by
  have hg : pm.getD 1 = PAD_NORMAL := by rcases hpm with rfl | rfl <;> rfl
  unfold unpadDataM
  cases hl : t.getLast? with
  | none => rw [List.getLast?_eq_none_iff] at hl; rw [hl] at h; simp at h
  | some v =>
    simp only [hg]
    rw [if_neg (by rintro ⟨_, h⟩; rcases hpm with rfl | rfl <;> exact absurd h (by decide)), if_pos trivial]
    show (if padInForce p q = [] then _ else _) = _
    by_cases hP : padInForce p q = []
    · rw [if_pos hP, hP]
      have : rstripSet (t.drop (t.length - 8)) [] = t.drop (t.length - 8) := by
        unfold rstripSet
        have : (fun x : Nat => ([] : List Nat).contains x) = fun _ => false := by funext x; rfl
        rw [this]
        cases hr : (t.drop (t.length - 8)).reverse with
        | nil => rw [List.reverse_eq_nil_iff] at hr; rw [hr]; rfl
        | cons a as => rw [List.dropWhile_cons_of_neg (by simp), ← hr, List.reverse_reverse]
      rw [this, List.take_append_drop]
    · rw [if_neg hP, show (-8 : Int) = -((8 : Nat) : Int) from rfl, sliceTo_neg t 8 (by omega), sliceFrom_neg t 8 (by omega)]; rfl

/-! ### Decrypting again -/

theorem rstripSet_spec (l s : List Nat) : ∃ r z, rstripSet l s = r ∧ l = r ++ z ∧ (∀ x ∈ z, x ∈ s) ∧ (∀ x, r.getLast? = some x → x ∉ s) := by
  have h : ∀ r : List Nat, ∃ r' z, r.dropWhile (fun x => s.contains x) = r' ∧ r = z ++ r' ∧ (∀ x ∈ z, x ∈ s) ∧ (∀ x, r'.head? = some x → x ∉ s) := by
    intro r
    induction r with
    | nil => exact ⟨[], [], rfl, rfl, by simp, by simp⟩
    | cons x xs ih =>
      by_cases hx : x ∈ s
      · obtain ⟨r', z, h1, h2, h3, h4⟩ := ih
        refine ⟨r', x :: z, by rw [List.dropWhile_cons_of_pos (by simpa using hx), h1], by rw [List.cons_append, ← h2], ?_, h4⟩
        intro y hy
        rcases List.mem_cons.1 hy with rfl | hy
        · exact hx
        · exact h3 y hy
      · refine ⟨x :: xs, [], by simp [hx], rfl, by simp, ?_⟩
        intro y hy
        simp at hy
        subst hy
        exact hx
  obtain ⟨r', z, h1, h2, h3, h4⟩ := h l.reverse
  refine ⟨r'.reverse, z.reverse, by unfold rstripSet; rw [h1], ?_, by simpa using h3, by simpa using h4⟩
  have := congrArg List.reverse h2
  simpa using this

theorem rstripSet_all (l s : List Nat) (h : ∀ x ∈ l, x ∈ s) : rstripSet l s = [] := by
  obtain ⟨r, z, h1, h2, h3, h4⟩ := rstripSet_spec l s
  rw [h1]
  cases hr : r.getLast? with
  | none => exact List.getLast?_eq_none_iff.1 hr
  | some x =>
    refine absurd (h x ?_) (h4 x hr)
    rw [h2]
    exact List.mem_append_left _ (List.mem_of_getLast? hr)

theorem copies_mem (n : Nat) (pad : List Nat) (x : Nat) (h : x ∈ (List.replicate n pad).flatten) : x ∈ pad := by
  rw [List.mem_flatten] at h
  obtain ⟨l, h1, h2⟩ := h
  rw [List.eq_of_mem_replicate h1] at h2
  exact h2

theorem topUp_bytes (pad s : List Nat) (hp : ∀ x ∈ pad, x < 256) (hs : ∀ x ∈ s, x < 256) : ∀ x ∈ topUp pad s, x < 256 := by
  unfold topUp
  split
  · exact hs
  · intro x hx
    rcases List.mem_append.1 hx with h | h
    · exact hs x h
    · exact hp x (copies_mem _ _ x h)

theorem topUp_prefix (pad s : List Nat) : ∃ x, topUp pad s = s ++ x := by
  unfold topUp
  split
  · exact ⟨[], by simp⟩
  · exact ⟨_, rfl⟩

/-- Whole blocks encrypted come back, up to the removal of pad bytes from the last block. -/
theorem decryptM_back (py3 : Bool) (key iv q p : List Nat) (mode : Nat) (hmode : mode = 0 ∨ mode = 1) (hiv : IsBlock iv)
    (pm : Option Nat) (hpm : pm = none ∨ pm = some 1) (t c : List Nat) (ht8 : 8 ≤ t.length) (ht : t.length % 8 = 0) (hx : ∀ x ∈ t, x < 256)
    (hc : (Des.mk ⟨mode, iv, none, 1⟩ (createSubKeys key)).encrypt t none none = .ok c) :
    (MDes.mk mode iv q 1 (createSubKeys key)).decrypt py3 c p pm = .ok (t.take (t.length - 8) ++ rstripSet (t.drop (t.length - 8)) (padInForce p q)) := by
  obtain ⟨c', g1, g2, g3, g4⟩ := crypt_roundtrip (Des.mk ⟨mode, iv, none, 1⟩ (createSubKeys key)) hmode hiv t ht hx
  rw [encrypt_none _ (by rfl) t ht, g1] at hc
  injection hc with hc
  subst hc
  unfold MDes.decrypt
  rw [cryptM_aligned py3 _ c' false (by omega)]
  have : (plain (MDes.mk mode iv q 1 (createSubKeys key))).crypt c' false = .ok t := g4
  rw [this]
  exact unpadDataM_normal q p t pm hpm ht8

/-- C101. A message that is not whole blocks, encrypted with a pad of two bytes or more, never comes back: whatever pad is given for decryption,
the result is the message followed by at least one pad byte. -/
theorem C101_never_restored (py3 : Bool) (key iv q p p' m : List Nat) (mode : Nat) (hmode : mode = 0 ∨ mode = 1) (hk : key.length = 8) (hiv : IsBlock iv)
    (hq : ∀ x ∈ q, x < 256) (hp : ∀ x ∈ p, x < 256) (hx : ∀ x ∈ m, x < 256) (h8 : m.length % 8 ≠ 0) (h2 : 2 ≤ (padInForce p q).length)
    (pm pm' : Option Nat) (hpm : pm = none ∨ pm = some 1) (hpm' : pm' = none ∨ pm' = some 1) (d : MDes) (hd : MDes.new key mode iv q 1 = .ok d)
    (c : List Nat) (hc : d.encrypt py3 m p pm = .ok c) :
    ∃ x, x ≠ [] ∧ d.decrypt py3 c p' pm' = .ok (m ++ x) := by
  obtain ⟨d1, d0, e1, e2, e3⟩ := C101_encrypt py3 key iv q p m mode hk hiv h8 pm hpm
  rw [hd] at e1
  injection e1 with e1
  subst e1
  rw [newM key iv q mode hk hiv] at hd
  injection hd with hd
  rw [(C59_constructor key mode iv none 1).1 ⟨hk, .inr hiv.1, by simp⟩] at e2
  injection e2 with e2
  have hP : padInForce p q ≠ [] := by intro h; rw [h] at h2; simp at h2
  have hPb : ∀ x ∈ padInForce p q, x < 256 := by unfold padInForce; split <;> assumption
  have hl1 := topUp_length (padInForce p q) m h8
  have h3 : (8 - m.length % 8) * 2 ≤ (8 - m.length % 8) * (padInForce p q).length := Nat.mul_le_mul_left _ h2
  obtain ⟨y, hy⟩ := topUp_prefix (padInForce p q) m
  have hTb := topUp_bytes (padInForce p q) m hPb hx
  have fin : ∀ t y, t = m ++ y → (∀ x ∈ t, x < 256) → t.length % 8 = 0 → m.length + (8 - m.length % 8) * 2 ≤ t.length → d0.encrypt t none none = .ok c →
      ∃ x, x ≠ [] ∧ d.decrypt py3 c p' pm' = .ok (m ++ x) := by
    intro t y ht htb ht8 htl hte
    subst e2 hd
    have hyl : t.length = m.length + y.length := by rw [ht, List.length_append]
    rw [decryptM_back py3 key iv q p' mode hmode hiv pm' hpm' t c (by omega) ht8 htb hte]
    refine ⟨y.take (y.length - 8) ++ rstripSet (t.drop (t.length - 8)) (padInForce p' q), ?_, ?_⟩
    · intro h
      have := congrArg List.length h
      rw [List.length_append, List.length_take] at this
      simp only [List.length_nil] at this
      omega
    · rw [← List.append_assoc]
      congr 2
      rw [ht, List.take_append, List.length_append, List.take_of_length_le (by omega)]
      congr 2
      omega
  rw [e3, if_neg hP] at hc
  generalize hT : topUp (padInForce p q) m = T at *
  by_cases ht : T.length % 8 = 0
  · rw [if_pos ht] at hc
    exact fin T y hy hTb ht (by omega) hc
  rw [if_neg ht] at hc
  by_cases hqe : q = []
  · rw [if_pos hqe] at hc; cases hc
  rw [if_neg hqe] at hc
  by_cases ht2 : (topUp q T).length % 8 = 0
  · rw [if_pos ht2] at hc
    obtain ⟨y2, hy2⟩ := topUp_prefix q T
    exact fin (topUp q T) (y ++ y2) (by rw [hy2, hy, List.append_assoc]) (topUp_bytes q T hq hTb) ht2
      (by rw [hy2, List.length_append]; omega) hc
  · rw [if_neg ht2] at hc; cases hc

/-- C101. With a pad argument of two bytes or more and no pad in the object, whenever encryption succeeds decryption with the same pad gives the
message and the copies of the pad but for the last eight bytes. -/
theorem C101_leftover (py3 : Bool) (key iv p m : List Nat) (mode : Nat) (hmode : mode = 0 ∨ mode = 1) (hk : key.length = 8) (hiv : IsBlock iv)
    (hp : ∀ x ∈ p, x < 256) (hx : ∀ x ∈ m, x < 256) (h8 : m.length % 8 ≠ 0) (h2 : 2 ≤ p.length) :
    ∃ d, MDes.new key mode iv [] 1 = .ok d ∧
      (m.length * (p.length - 1) % 8 ≠ 0 → d.encrypt py3 m p none = .error .valueError) ∧
      (m.length * (p.length - 1) % 8 = 0 → ∃ c, d.encrypt py3 m p none = .ok c ∧ c.length = m.length + (8 - m.length % 8) * p.length ∧
        d.decrypt py3 c p none = .ok (m ++ (List.replicate (8 - m.length % 8) p).flatten.take ((8 - m.length % 8) * p.length - 8))) := by
  obtain ⟨d, d0, e1, e2, e3⟩ := C101_encrypt py3 key iv [] p m mode hk hiv h8 none (.inl rfl)
  have hpn : p ≠ [] := by rintro rfl; simp at h2
  have hP : padInForce p [] = p := by unfold padInForce; rw [if_neg hpn]
  rw [hP, if_neg hpn] at e3
  have hlen := (C101_lengths p p m hpn hpn).1
  refine ⟨d, e1, ?_, ?_⟩
  · intro h
    rw [e3, if_neg (fun h' => h (hlen.1 h')), if_pos rfl]
  · intro h
    have hT := hlen.2 h
    rw [if_pos hT] at e3
    rw [newM key iv [] mode hk hiv] at e1
    injection e1 with e1
    rw [(C59_constructor key mode iv none 1).1 ⟨hk, .inr hiv.1, by simp⟩] at e2
    injection e2 with e2
    subst e1 e2
    obtain ⟨c, g1, g2, g3, g4⟩ := crypt_roundtrip (Des.mk ⟨mode, iv, none, 1⟩ (createSubKeys key)) hmode hiv (topUp p m) hT (topUp_bytes p m hp hx)
    have hl := topUp_length p m h8
    have h3 : (8 - m.length % 8) * 2 ≤ (8 - m.length % 8) * p.length := Nat.mul_le_mul_left _ h2
    have hc : (Des.mk ⟨mode, iv, none, 1⟩ (createSubKeys key)).encrypt (topUp p m) none none = .ok c := by rw [encrypt_none _ (by rfl) _ hT]; exact g1
    refine ⟨c, by rw [e3]; exact hc, by rw [g2, hl], ?_⟩
    rw [decryptM_back py3 key iv [] p mode hmode hiv none (.inl rfl) (topUp p m) c (by omega) hT (topUp_bytes p m hp hx) hc, hP]
    have ht : topUp p m = m ++ (List.replicate (8 - m.length % 8) p).flatten := by unfold topUp; rw [if_neg h8]
    have hcl := copies_length (8 - m.length % 8) p
    rw [hl, ht]
    generalize hcp : (List.replicate (8 - m.length % 8) p).flatten = cp at *
    have hmem : ∀ x ∈ cp, x ∈ p := by rw [← hcp]; exact copies_mem _ p
    rw [List.take_append, List.take_of_length_le (by omega), List.drop_append, List.drop_of_length_le (by omega), List.nil_append,
      rstripSet_all _ p (fun x hx => hmem x (List.mem_of_mem_drop hx)), List.append_nil, ← hcl]
    congr 3
    omega

/-- C101. A message of whole blocks is not padded, but decryption takes from the end of its last block the bytes that occur anywhere in the pad. -/
theorem C101_whole_blocks (py3 : Bool) (key iv q p m : List Nat) (mode : Nat) (hmode : mode = 0 ∨ mode = 1) (hk : key.length = 8) (hiv : IsBlock iv)
    (hx : ∀ x ∈ m, x < 256) (h8 : m.length % 8 = 0) (hm : m ≠ []) :
    ∃ d c m' z, MDes.new key mode iv q 1 = .ok d ∧ d.encrypt py3 m p none = .ok c ∧ c.length = m.length ∧ d.decrypt py3 c p none = .ok m' ∧
      m = m' ++ z ∧ z.length ≤ 8 ∧ (∀ x ∈ z, x ∈ padInForce p q) ∧ (z.length < 8 → ∀ x, m'.getLast? = some x → x ∉ padInForce p q) := by
  have hl : 8 ≤ m.length := by have := List.length_pos_iff.2 hm; omega
  obtain ⟨c, g1, g2, g3, g4⟩ := crypt_roundtrip (Des.mk ⟨mode, iv, none, 1⟩ (createSubKeys key)) hmode hiv m h8 hx
  have hc : (Des.mk ⟨mode, iv, none, 1⟩ (createSubKeys key)).encrypt m none none = .ok c := by rw [encrypt_none _ (by rfl) _ h8]; exact g1
  obtain ⟨r, z, s1, s2, s3, s4⟩ := rstripSet_spec (m.drop (m.length - 8)) (padInForce p q)
  have hzl : r.length + z.length = 8 := by
    have := congrArg List.length s2
    rw [List.length_append, List.length_drop] at this
    omega
  refine ⟨_, c, m.take (m.length - 8) ++ r, z, newM key iv q mode hk hiv, ?_, g2, ?_, ?_, by omega, s3, ?_⟩
  · unfold MDes.encrypt
    rw [show padDataM _ _ m p none = _ from padDataM_normal q p m none (.inl rfl), if_neg (fun h => h.1 h8)]
    have : topUp (padInForce p q) m = m := by unfold topUp; rw [if_pos h8]
    rw [this]
    exact (cryptM_aligned py3 _ m true h8).trans g1
  · rw [decryptM_back py3 key iv q p mode hmode hiv none (.inl rfl) m c hl h8 hx hc, s1]
  · rw [List.append_assoc, ← s2, List.take_append_drop]
  · intro hz x hx'
    rw [List.getLast?_append] at hx'
    cases hr : r.getLast? with
    | none => rw [List.getLast?_eq_none_iff.1 hr] at hzl; simp at hzl; omega
    | some v =>
      rw [hr] at hx'
      simp at hx'
      subst hx'
      exact s4 v hr

/-- C101. With the pad in the object and none given: encryption of a message of `s` bytes succeeds exactly if 8 divides `s * (n - 1) * (n - 1)`, so
never for a pad of an even number of bytes and a message that is not whole blocks. -/
theorem C101_own_pad (py3 : Bool) (key iv q m : List Nat) (mode : Nat) (hmode : mode = 0 ∨ mode = 1) (hk : key.length = 8) (hiv : IsBlock iv) (hq : q ≠ [])
    (hqb : ∀ x ∈ q, x < 256) (hx : ∀ x ∈ m, x < 256) (h8 : m.length % 8 ≠ 0) :
    ∃ d, MDes.new key mode iv q 1 = .ok d ∧
      (m.length * (q.length - 1) * (q.length - 1) % 8 = 0 → ∃ c, d.encrypt py3 m [] none = .ok c) ∧
      (m.length * (q.length - 1) * (q.length - 1) % 8 ≠ 0 →
        d.encrypt py3 m [] none = .error (if mode = 1 ∧ py3 = false then .typeError else .indexError)) ∧
      (q.length % 2 = 0 → d.encrypt py3 m [] none = .error (if mode = 1 ∧ py3 = false then .typeError else .indexError)) := by
  obtain ⟨d, d0, e1, e2, e3⟩ := C101_encrypt py3 key iv q [] m mode hk hiv h8 none (.inl rfl)
  have hP : padInForce [] q = q := rfl
  rw [hP, if_neg hq, if_neg hq] at e3
  obtain ⟨hl1, hl2⟩ := C101_lengths q q m hq hq
  rw [(C59_constructor key mode iv none 1).1 ⟨hk, .inr hiv.1, by simp⟩] at e2
  injection e2 with e2
  have ok : ∀ t : List Nat, (∀ x ∈ t, x < 256) → t.length % 8 = 0 → ∃ c, d0.encrypt t none none = .ok c := by
    intro t ht ht8
    obtain ⟨c, g1, _⟩ := crypt_roundtrip (Des.mk ⟨mode, iv, none, 1⟩ (createSubKeys key)) hmode hiv t ht8 ht
    exact ⟨c, by rw [← e2, encrypt_none _ (by rfl) _ ht8]; exact g1⟩
  have bad : m.length * (q.length - 1) * (q.length - 1) % 8 ≠ 0 →
      d.encrypt py3 m [] none = .error (if mode = 1 ∧ py3 = false then .typeError else .indexError) := by
    intro h
    have h1 : ¬ (topUp q m).length % 8 = 0 := by
      intro h'
      have := hl1.1 h'
      exact h (by rw [Nat.mul_mod, this]; simp)
    rw [e3, if_neg h1, if_neg (fun h' => h (hl2.1 h'))]
  refine ⟨d, e1, ?_, bad, ?_⟩
  · intro h
    rw [e3]
    have hb := topUp_bytes q m hqb hx
    by_cases h1 : (topUp q m).length % 8 = 0
    · rw [if_pos h1]; exact ok _ hb h1
    · rw [if_neg h1, if_pos (hl2.2 h)]
      exact ok _ (topUp_bytes q _ hqb hb) (hl2.2 h)
  · intro heven
    apply bad
    have hq0 : 0 < q.length := List.length_pos_iff.2 hq
    obtain ⟨j, hj⟩ : ∃ j, q.length - 1 = 2 * j + 1 := ⟨(q.length - 2) / 2, by omega⟩
    rw [hj]
    have hj' : (2 * j + 1) * (2 * j + 1) % 8 = 1 := by
      have : (2 * j + 1) % 8 = 1 ∨ (2 * j + 1) % 8 = 3 ∨ (2 * j + 1) % 8 = 5 ∨ (2 * j + 1) % 8 = 7 := by omega
      rcases this with h | h | h | h <;> rw [Nat.mul_mod, h]
    rw [Nat.mul_assoc, Nat.mul_mod, hj', Nat.mul_one, Nat.mod_mod]
    exact h8

/-- Three bytes missing and the pad `ab` (four and six bytes): IndexError; four bytes missing and the pad `abc`: the message comes back with four
bytes of padding. -/
example : ∃ d, MDes.new [1, 2, 3, 4, 5, 6, 7, 8] 0 [] [97, 98] 1 = .ok d ∧ d.encrypt true [1, 2, 3, 4, 5] [] none = .error .indexError ∧
    d.encrypt true [1, 2, 3, 4, 5] [99] none ≠ .error .indexError := by
  exact ⟨_, rfl, rfl, by decide +kernel⟩

example : ∃ d c, MDes.new [1, 2, 3, 4, 5, 6, 7, 8] 0 [] [] 1 = .ok d ∧ d.encrypt true [1, 2, 3, 4] [97, 98, 99] none = .ok c ∧
    d.decrypt true c [97, 98, 99] none = .ok [1, 2, 3, 4, 97, 98, 99, 97] := by
  refine ⟨_, _, rfl, rfl, by decide +kernel⟩

end Verif.Props
