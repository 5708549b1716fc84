import Verif.Props.CryptoWorld
/-! C108, continued: generating a key pair in the midst of any program. -/
namespace Verif.Props
open Verif.Py Verif.Model Verif.Spec

namespace CW
open CryptoWorld

theorem newPair_inv {env : CryptoEnv} {w0 w1 : CryptoWorld} {alg len : Int} {p : Nat} (h : w0.step env (.newPair alg len) = some (.ok (.pair p), w1)) :
    (alg = 1 ∨ alg = 2) ∧ w1.pairs[p]? = some ⟨some alg, some len, w0.keys.length, w0.keys.length + 1⟩ ∧
      w1.keys[w0.keys.length]? = some (.rsa (RSAKey.new true len)) ∧ w1.keys[w0.keys.length + 1]? = some (.rsa (RSAKey.new false len)) := by
  simp only [CryptoWorld.step] at h
  split at h
  · next ha =>
    injection h with h; injection h with h h'; injection h with h; injection h with h
    subst h; subst h'
    refine ⟨ha, by simp, by simp, ?_⟩
    simp only
    rw [List.getElem?_append_right (by omega)]
    simp
  · injection h with h; injection h with h; cases h

theorem getPublic_inv {env : CryptoEnv} {w w' : CryptoWorld} {p i : Nat} (h : w.step env (.getPublic p) = some (.ok (.key i), w')) :
    ∃ q, w.pairs[p]? = some q ∧ q.publicKey = i := by
  simp only [CryptoWorld.step] at h
  split at h
  · injection h with h; injection h with h; cases h
  · next q hq => injection h with h; injection h with h; injection h with h; injection h with h; exact ⟨q, hq, h⟩

theorem getPrivate_inv {env : CryptoEnv} {w w' : CryptoWorld} {p i : Nat} (h : w.step env (.getPrivate p) = some (.ok (.key i), w')) :
    ∃ q, w.pairs[p]? = some q ∧ q.privateKey = i := by
  simp only [CryptoWorld.step] at h
  split at h
  · injection h with h; injection h with h; cases h
  · next q hq => injection h with h; injection h with h; injection h with h; injection h with h; exact ⟨q, hq, h⟩

theorem init_later {env : CryptoEnv} {w w' : CryptoWorld} {P : List Step} (h : w.run env P = some w') {k : Nat} {x : KeyObj} (hk : w.keys[k]? = some x)
    (hi : x.isInitialized = true) : ∃ x', w'.keys[k]? = some x' ∧ x'.isInitialized = true := by
  obtain ⟨x', h1, h2⟩ := C108_keys_last env w w' P h k x hk
  refine ⟨x', h1, ?_⟩
  cases x <;> cases x' <;> simp only [Grown] at h2
  · exact h2.2.2.2 hi
  · exact h2.2.2 hi

/-- C108. A pair one of whose two key objects is initialised – by a generation, or by a program that set the key itself – is not generated: ILLEGAL_VALUE, and
nothing changes, now and for ever after. -/
theorem C108_generate_refused (env : CryptoEnv) (w w2 : CryptoWorld) (p i j : Nat) (hi : w.step env (.getPublic p) = some (.ok (.key i), w))
    (hj : w.step env (.getPrivate p) = some (.ok (.key j), w)) (k : Nat) (hk : k = i ∨ k = j) (x : KeyObj) (hx : w.keys[k]? = some x)
    (hinit : x.isInitialized = true) (P : List Step) (hP : w.run env P = some w2) (t : TheKey) :
    w2.step env (.genKeyPair p t) = some (.error (.crypto 1), w2) ∧ w2.step env (.getPublic p) = some (.ok (.key i), w2) ∧
      w2.step env (.getPrivate p) = some (.ok (.key j), w2) := by
  obtain ⟨q, hq, q1⟩ := getPublic_inv hi
  obtain ⟨q', hq', q2⟩ := getPrivate_inv hj
  rw [hq] at hq'; injection hq' with hq'; subst hq'
  have now : ∀ w : CryptoWorld, w.pairs[p]? = some q → ∀ x, w.keys[k]? = some x → x.isInitialized = true → ∀ t,
      w.step env (.genKeyPair p t) = some (.error (.crypto 1), w) := by
    intro w hq x hx hinit t
    simp only [CryptoWorld.step, hq]
    unfold CryptoWorld.gen
    rw [if_pos]
    · rfl
    · rcases hk with rfl | rfl
      · left; rw [q1, heap_get _ _ _ hx]; exact hinit
      · right; rw [q2, heap_get _ _ _ hx]; exact hinit
  have main : w2.pairs[p]? = some q := by
    clear hi hj
    induction P generalizing w x with
    | nil => injection hP with hP; subst hP; exact hq
    | cons s P ih =>
      obtain ⟨o, w1, h1, h2⟩ := run_cons hP
      obtain ⟨y, y1, y2⟩ := init_later (env := env) (P := [s]) (w' := w1) (by simp only [CryptoWorld.run, h1]) hx hinit
      refine ih w1 y y1 y2 h2 ?_
      by_cases hs : pairOf s = some p
      · cases s <;> simp only [pairOf, Option.some.injEq, reduceCtorEq] at hs
        subst hs
        rw [now w hq x hx hinit] at h1
        injection h1 with h1; injection h1 with _ h1; subst h1; exact hq
      · exact (step_frame env w w1 s o h1).pairs p q hs hq
  obtain ⟨y, y1, y2⟩ := init_later hP hx hinit
  exact ⟨now w2 main y y1 y2 t, by simp only [CryptoWorld.step, main, q1], by simp only [CryptoWorld.step, main, q2]⟩

/-- C108. A pair made for an algorithm is generated, with the RSA library, after any program that did not generate it and did not set its two keys: getPublic and
getPrivate then return two key objects that did not exist before, initialised, of the pair's length and holding the generated key; the two objects they returned
before are left as they were, uninitialised; a second generation is refused, whatever happens in between, and the pair keeps its keys. -/
theorem C108_generate (env : CryptoEnv) (w0 w1 w2 : CryptoWorld) (alg len : Int) (p i j : Nat) (h0 : w0.step env (.newPair alg len) = some (.ok (.pair p), w1))
    (hi : w1.step env (.getPublic p) = some (.ok (.key i), w1)) (hj : w1.step env (.getPrivate p) = some (.ok (.key j), w1)) (P : List Step)
    (hP : w1.run env P = some w2) (hg : ∀ s ∈ P, pairOf s ≠ some p) (hk : ∀ s ∈ P, keyOf s ≠ some i ∧ keyOf s ≠ some j) (t : TheKey) :
    (env.pycrypto = false → w2.step env (.genKeyPair p t) = some (.error (.crypto 3), w2)) ∧
    (env.pycrypto = true → ∃ w3 i' j' pub priv, w2.step env (.genKeyPair p t) = some (.ok .nothing, w3) ∧
      w3.step env (.getPublic p) = some (.ok (.key i'), w3) ∧ w3.step env (.getPrivate p) = some (.ok (.key j'), w3) ∧
      w2.keys[i']? = none ∧ w2.keys[j']? = none ∧ i' ≠ j' ∧
      w3.keys[i']? = some (.rsa pub) ∧ pub.isPublic = true ∧ pub.initialized = true ∧ pub.size = len ∧ pub.theKey = some (.given t) ∧
      w3.keys[j']? = some (.rsa priv) ∧ priv.isPublic = false ∧ priv.initialized = true ∧ priv.size = len ∧ priv.theKey = some (.given t) ∧
      (∃ old old', w3.keys[i]? = some old ∧ old.isInitialized = false ∧ w3.keys[j]? = some old' ∧ old'.isInitialized = false) ∧
      ∀ Q w4, w3.run env Q = some w4 → ∀ t', w4.step env (.genKeyPair p t') = some (.error (.crypto 1), w4) ∧
        w4.step env (.getPublic p) = some (.ok (.key i'), w4) ∧ w4.step env (.getPrivate p) = some (.ok (.key j'), w4)) := by
  obtain ⟨halg, a1, a2, a3⟩ := newPair_inv h0
  obtain ⟨q, hq, q1⟩ := getPublic_inv hi
  obtain ⟨q', hq', q2⟩ := getPrivate_inv hj
  rw [a1] at hq hq'
  injection hq with hq; injection hq' with hq'; subst hq; subst hq'
  simp only at q1 q2
  subst q1; subst q2
  have fr := C108_frame env w1 w2 P hP
  have b1 := fr.2.2.1 p _ hg a1
  have b2 := fr.2.1 _ _ (fun s hs => (hk s hs).1) a2
  have b3 := fr.2.1 _ _ (fun s hs => (hk s hs).2) a3
  have hgen : w2.step env (.genKeyPair p t) = some (w2.gen env p ⟨some alg, some len, w0.keys.length, w0.keys.length + 1⟩ t) := by
    simp only [CryptoWorld.step, b1]
  have hno : ¬ ((w2.heap w0.keys.length).isInitialized = true ∨ (w2.heap (w0.keys.length + 1)).isInitialized = true) := by
    rw [heap_get _ _ _ b2, heap_get _ _ _ b3]
    rintro (h | h) <;> cases h
  constructor
  · intro hpc
    rw [hgen]
    unfold CryptoWorld.gen
    rw [if_neg hno, if_pos (by rw [hpc]; exact Bool.false_ne_true)]
    rfl
  · intro hpc
    have hs : ∀ b, ((RSAKey.new b len).setTheKey env.pycrypto env.longSuffix t).2.isPublic = b ∧ ((RSAKey.new b len).setTheKey env.pycrypto env.longSuffix t).2.initialized = true ∧
        ((RSAKey.new b len).setTheKey env.pycrypto env.longSuffix t).2.size = len ∧ ((RSAKey.new b len).setTheKey env.pycrypto env.longSuffix t).2.theKey = some (.given t) := by
      intro b
      unfold RSAKey.setTheKey RSAKey.afterSet RSAKey.new
      cases b <;> simp
    obtain ⟨pub, hpub⟩ : ∃ k, k = ((RSAKey.new true len).setTheKey env.pycrypto env.longSuffix t).2 := ⟨_, rfl⟩
    obtain ⟨priv, hpriv⟩ : ∃ k, k = ((RSAKey.new false len).setTheKey env.pycrypto env.longSuffix t).2 := ⟨_, rfl⟩
    have s1 := hs true
    have s2 := hs false
    obtain ⟨w3, hw3⟩ : ∃ w3 : CryptoWorld, w3 = ⟨w2.arrays, w2.keys ++ [.rsa pub, .rsa priv], w2.pairs.set p ⟨some alg, some len, w2.keys.length, w2.keys.length + 1⟩,
        w2.des, w2.rsa, w2.digests⟩ := ⟨_, rfl⟩
    have hstep : w2.step env (.genKeyPair p t) = some (.ok .nothing, w3) := by
      rw [hgen]
      unfold CryptoWorld.gen
      rw [if_neg hno, if_neg (by rw [hpc]; exact fun h => h rfl)]
      simp only
      rw [if_neg (by omega), hw3, hpub, hpriv]
    rw [← hpub] at s1
    rw [← hpriv] at s2
    have k1 : w3.keys[w2.keys.length]? = some (.rsa pub) := by rw [hw3]; simp
    have k2 : w3.keys[w2.keys.length + 1]? = some (.rsa priv) := by
      rw [hw3]; simp only; rw [List.getElem?_append_right (by omega)]; simp
    have pp : w3.pairs[p]? = some ⟨some alg, some len, w2.keys.length, w2.keys.length + 1⟩ := by
      rw [hw3]; exact List.getElem?_set_self (lt_of_getElem? b1)
    have g1 : w3.step env (.getPublic p) = some (.ok (.key w2.keys.length), w3) := by simp only [CryptoWorld.step, pp]
    have g2 : w3.step env (.getPrivate p) = some (.ok (.key (w2.keys.length + 1)), w3) := by simp only [CryptoWorld.step, pp]
    have fr3 := step_frame env w2 w3 _ _ hstep
    exact ⟨w3, w2.keys.length, w2.keys.length + 1, pub, priv, hstep, g1, g2, List.getElem?_eq_none (Nat.le_refl _), List.getElem?_eq_none (Nat.le_succ _), by omega,
      k1, s1.1, s1.2.1, s1.2.2.1, s1.2.2.2, k2, s2.1, s2.2.1, s2.2.2.1, s2.2.2.2,
      ⟨_, _, fr3.keys _ _ (fun h => nomatch h) b2, rfl, fr3.keys _ _ (fun h => nomatch h) b3, rfl⟩,
      fun Q w4 hQ t' => C108_generate_refused env w3 w4 p _ _ g1 g2 w2.keys.length (.inl rfl) _ k1 s1.2.1 Q hQ t'⟩

/-- C108. A pair made from two keys of the program is never generated: with uninitialised keys it is an AttributeError (with the RSA library), and nothing changes. -/
theorem C108_generate_given (env : CryptoEnv) (hpc : env.pycrypto = true) (w0 w1 w2 : CryptoWorld) (i j p : Nat) (h0 : w0.step env (.pairOf i j) = some (.ok (.pair p), w1))
    (P : List Step) (hP : w1.run env P = some w2) (t : TheKey) :
    w2.step env (.getPublic p) = some (.ok (.key i), w2) ∧ w2.step env (.getPrivate p) = some (.ok (.key j), w2) ∧
      ∃ x y, w2.keys[i]? = some x ∧ w2.keys[j]? = some y ∧
        w2.step env (.genKeyPair p t) = some (.error (if x.isInitialized = true ∨ y.isInitialized = true then .crypto 1 else .attributeError), w2) := by
  have hp : w1.pairs[p]? = some ⟨none, none, i, j⟩ ∧ (∃ a, w1.keys[i]? = some a) ∧ ∃ b, w1.keys[j]? = some b := by
    simp only [CryptoWorld.step] at h0
    split at h0
    · next a b ha hb =>
      split at h0
      · injection h0 with h; injection h with h; cases h
      · injection h0 with h; injection h with h h'; injection h with h; injection h with h
        subst h; subst h'
        exact ⟨by simp, ⟨a, ha⟩, b, hb⟩
    · injection h0 with h; injection h with h; cases h
  obtain ⟨hp, ⟨a, ha⟩, b, hb⟩ := hp
  have now : ∀ w : CryptoWorld, w.pairs[p]? = some ⟨none, none, i, j⟩ → ∀ t, ∃ e, w.step env (.genKeyPair p t) = some (.error e, w) := by
    intro w hw t
    simp only [CryptoWorld.step, hw]
    unfold CryptoWorld.gen
    repeat' split
    all_goals first
      | exact ⟨_, rfl⟩
      | (next h _ => cases h)
  have main : w2.pairs[p]? = some ⟨none, none, i, j⟩ := by
    clear h0 ha hb
    induction P generalizing w1 with
    | nil => injection hP with hP; subst hP; exact hp
    | cons s P ih =>
      obtain ⟨o, w', h1, h2⟩ := run_cons hP
      refine ih w' h2 ?_
      by_cases hs : CW.pairOf s = some p
      · cases s <;> simp only [CW.pairOf, Option.some.injEq, reduceCtorEq] at hs
        subst hs
        obtain ⟨e, he⟩ := now w1 hp _
        rw [he] at h1
        injection h1 with h1; injection h1 with _ h1; subst h1; exact hp
      · exact (step_frame env w1 w' s o h1).pairs p _ hs hp
  obtain ⟨x, x1, _⟩ := C108_keys_last env w1 w2 P hP i a ha
  obtain ⟨y, y1, _⟩ := C108_keys_last env w1 w2 P hP j b hb
  refine ⟨by simp only [CryptoWorld.step, main], by simp only [CryptoWorld.step, main], x, y, x1, y1, ?_⟩
  simp only [CryptoWorld.step, main]
  unfold CryptoWorld.gen
  simp only [heap_get _ _ _ x1, heap_get _ _ _ y1]
  split
  · rfl
  · rfl

/-- Both kinds of pairs exist: one made and generated between other calls, and one made of its keys. -/
example (ops : RSAOps) (H : HashLib) (t : TheKey) : ∃ w0 w1 w2 w3 w4 w5 : CryptoWorld,
    w0.step ⟨true, true, ops, H⟩ (.newPair 2 512) = some (.ok (.pair 0), w1) ∧ w1.step ⟨true, true, ops, H⟩ (.getPublic 0) = some (.ok (.key 1), w1) ∧
    w1.step ⟨true, true, ops, H⟩ (.getPrivate 0) = some (.ok (.key 2), w1) ∧
    w1.run ⟨true, true, ops, H⟩ [.rsaKey 0 true 0 0 3, .buildKey [3, 64, 0], .setKey 3 1 0] = some w2 ∧ w2.step ⟨true, true, ops, H⟩ (.genKeyPair 0 t) = some (.ok .nothing, w3) ∧
    w3.step ⟨true, true, ops, H⟩ (.pairOf 1 2) = some (.ok (.pair 1), w4) ∧ w4.run ⟨true, true, ops, H⟩ [.setTheKey 1 t] = some w5 := by
  refine ⟨afterP ⟨true, true, ops, H⟩ (fun _ => [1, 0, 1, 4, 5, 6, 7, 8]) [.buildKey [4, 512, 0]], _, _, _, _, _, rfl, rfl, rfl, rfl, rfl, rfl, rfl⟩
end CW
end Verif.Props
