import Verif.Model.KeyPairs
/-! C87: key pairs and the key objects they hand out. -/
namespace Verif.Props
open Verif.Py Verif.Model

/-- The calls a program makes on the key object `k`. -/
def callsOfKey (k : Nat) : List KeyWorld.Op → List RSAKey.Op
  | [] => []
  | .key i op :: ops => if i = k then op :: callsOfKey k ops else callsOfKey k ops
  | _ :: ops => callsOfKey k ops

theorem genRaises_world (pc ls : Bool) (w : KeyWorld) (p : Nat) (e : Err) : (w.step pc ls (.genRaises p e)).2 = w := by
  unfold KeyWorld.step
  simp only
  split
  · rfl
  · split <;> rfl

theorem step_keys (pc ls : Bool) (w : KeyWorld) (op : KeyWorld.Op) (i : Nat) (k : RSAKey) (h : w.keys[i]? = some k) :
    (w.step pc ls op).2.keys[i]? = some (k.run pc ls (callsOfKey i [op])) := by
  have hlt : i < w.keys.length := by
    rcases Nat.lt_or_ge i w.keys.length with h' | h'
    · exact h'
    · rw [List.getElem?_eq_none h'] at h; cases h
  have happ : ∀ l, (w.keys ++ l)[i]? = some k := fun l => by rw [List.getElem?_append_left hlt]; exact h
  cases op with
  | build b n => exact happ _
  | key j op =>
    unfold KeyWorld.step
    simp only [callsOfKey]
    cases hj : w.keys[j]? with
    | none =>
      have : j ≠ i := by rintro rfl; rw [h] at hj; cases hj
      rw [if_neg this]
      exact h
    | some k' =>
      simp only
      by_cases he : j = i
      · subst he
        rw [h] at hj
        injection hj with hj
        subst hj
        rw [if_pos rfl, List.getElem?_set_self hlt]
        rfl
      · rw [if_neg he, List.getElem?_set_ne he]
        exact h
  | pair a n =>
    unfold KeyWorld.step
    simp only
    split
    · exact happ _
    · exact h
  | ofKeys a b =>
    unfold KeyWorld.step
    simp only
    split
    · split
      · exact h
      · split <;> exact h
    · exact h
  | gen p t =>
    unfold KeyWorld.step
    simp only
    split
    · exact h
    · split
      · unfold KeyWorld.gen
        split
        · exact h
        · split
          · exact h
          · split
            · split
              · exact h
              · exact happ _
            · exact h
      · exact h
  | genRaises p e => rw [genRaises_world]; exact h

theorem run_append_keys (pc ls : Bool) (k : RSAKey) (a b : List RSAKey.Op) : k.run pc ls (a ++ b) = (k.run pc ls a).run pc ls b := List.foldl_append

/-- C87. A key object is changed by the calls on it and by nothing else: not by other keys, not by pairs that refer to it, and not by
generating such a pair. -/
theorem C87_own_calls (pc ls : Bool) (w : KeyWorld) (ops : List KeyWorld.Op) (i : Nat) (k : RSAKey) (h : w.keys[i]? = some k) :
    (w.run pc ls ops).keys[i]? = some (k.run pc ls (callsOfKey i ops)) := by
  induction ops generalizing w k with
  | nil => exact h
  | cons op ops ih =>
    rw [KeyWorld.run, ih _ _ (step_keys pc ls w op i k h), ← run_append_keys]
    have : callsOfKey i [op] ++ callsOfKey i ops = callsOfKey i (op :: ops) := by
      cases op with
      | key j op =>
        simp only [callsOfKey]
        split <;> rfl
      | _ => rfl
    rw [this]

/-- Every pair refers to two existing keys, and was made for an RSA algorithm or from two keys. -/
structure Sound (w : KeyWorld) : Prop where
  refs : ∀ r ∈ w.pairs, r.publicKey < w.keys.length ∧ r.privateKey < w.keys.length
  algs : ∀ r ∈ w.pairs, (r.algorithm = none ∧ r.keylength = none) ∨ ∃ a n, r.algorithm = some a ∧ r.keylength = some n ∧ (a = 1 ∨ a = 2)

theorem lt_of_getElem? {α} {l : List α} {i : Nat} {x : α} (h : l[i]? = some x) : i < l.length := by
  rcases Nat.lt_or_ge i l.length with h' | h'
  · exact h'
  · rw [List.getElem?_eq_none h'] at h; cases h

theorem sound_step (pc ls : Bool) (w : KeyWorld) (op : KeyWorld.Op) (h : Sound w) : Sound (w.step pc ls op).2 := by
  cases op with
  | build b n =>
    refine ⟨fun r hr => ?_, h.algs⟩
    have := h.refs r hr
    simp only [KeyWorld.step, List.length_append, List.length_cons, List.length_nil]
    omega
  | key j op =>
    unfold KeyWorld.step
    simp only
    split
    · exact h
    · refine ⟨fun r hr => ?_, h.algs⟩
      have := h.refs r hr
      simp only [List.length_set]
      exact this
  | pair a n =>
    unfold KeyWorld.step
    simp only
    split
    · next ha =>
      constructor
      · intro r hr
        simp only [List.mem_append, List.mem_singleton] at hr
        simp only [List.length_append, List.length_cons, List.length_nil]
        rcases hr with hr | rfl
        · have := h.refs r hr; omega
        · simp only; omega
      · intro r hr
        simp only [List.mem_append, List.mem_singleton] at hr
        rcases hr with hr | rfl
        · exact h.algs r hr
        · exact .inr ⟨a, n, rfl, rfl, ha⟩
    · exact h
  | ofKeys i j =>
    unfold KeyWorld.step
    simp only
    split
    · next a b hi hj =>
      split
      · exact h
      · split
        · exact h
        · constructor
          · intro r hr
            simp only [List.mem_append, List.mem_singleton] at hr
            rcases hr with hr | rfl
            · exact h.refs r hr
            · exact ⟨lt_of_getElem? hi, lt_of_getElem? hj⟩
          · intro r hr
            simp only [List.mem_append, List.mem_singleton] at hr
            rcases hr with hr | rfl
            · exact h.algs r hr
            · exact .inl ⟨rfl, rfl⟩
    · exact h
  | gen p t =>
    unfold KeyWorld.step
    simp only
    split
    · exact h
    · next r hp =>
      split
      · unfold KeyWorld.gen
        split
        · exact h
        · split
          · exact h
          · split
            · next al le hal hle =>
              split
              · exact h
              · next hb =>
                constructor
                · intro r' hr
                  simp only [List.length_append, List.length_cons, List.length_nil]
                  rcases List.mem_or_eq_of_mem_set hr with hr | rfl
                  · have := h.refs r' hr; omega
                  · simp only; omega
                · intro r' hr
                  rcases List.mem_or_eq_of_mem_set hr with hr | rfl
                  · exact h.algs r' hr
                  · exact .inr ⟨al, le, rfl, rfl, by omega⟩
            · exact h
      · exact h
  | genRaises p e => rw [genRaises_world]; exact h

theorem sound_run (pc ls : Bool) (w : KeyWorld) (ops : List KeyWorld.Op) (h : Sound w) : Sound (w.run pc ls ops) := by
  induction ops generalizing w with
  | nil => exact h
  | cons op ops ih => exact ih _ (sound_step pc ls w op h)

theorem sound_start : Sound ⟨[], []⟩ := ⟨fun r hr => (by cases hr), fun r hr => (by cases hr)⟩

theorem initialized_step (pc ls : Bool) (k : RSAKey) (op : RSAKey.Op) (h : k.initialized = true) : (k.step pc ls op).2.initialized = true := by
  have ha : ∀ k' : RSAKey, k'.initialized = true → (k'.afterSet pc).2.initialized = true := by
    intro k' hk
    unfold RSAKey.afterSet
    split
    · split
      · split
        · exact hk
        · rfl
      · rfl
    · exact hk
  cases op with
  | setExponent b o l => exact ha _ h
  | setModulus b o l =>
    show (RSAKey.setModulus pc k b o l).2.initialized = true
    unfold RSAKey.setModulus
    split
    · exact h
    · exact ha _ h
  | setTheKey t => exact ha _ h
  | clearKey => exact h

theorem initialized_run (pc ls : Bool) (k : RSAKey) (ops : List RSAKey.Op) (h : k.initialized = true) : (k.run pc ls ops).initialized = true := by
  induction ops generalizing k with
  | nil => exact h
  | cons op ops ih => exact ih _ (initialized_step pc ls k op h)

/-- The pair `p` after a step: the same reference, unless the step generated it. -/
theorem pair_step (pc ls : Bool) (w : KeyWorld) (op : KeyWorld.Op) (p : Nat) (r : PairRef) (h : w.pairs[p]? = some r) :
    (w.step pc ls op).2.pairs[p]? = some r ∨ ∃ t, op = .gen p t ∧ (w.step pc ls op).1 = .ok () ∧ r.algorithm ≠ none := by
  have happ : ∀ l, (w.pairs ++ l)[p]? = some r := fun l => by rw [List.getElem?_append_left (lt_of_getElem? h)]; exact h
  cases op with
  | build b n => exact .inl h
  | key j op =>
    left
    unfold KeyWorld.step
    simp only
    split <;> exact h
  | pair a n =>
    left
    unfold KeyWorld.step
    simp only
    split
    · exact happ _
    · exact h
  | ofKeys i j =>
    left
    unfold KeyWorld.step
    simp only
    split
    · split
      · exact h
      · split
        · exact h
        · exact happ _
    · exact h
  | gen q t =>
    unfold KeyWorld.step
    simp only
    split
    · exact .inl h
    · next r' hr' =>
      split
      · unfold KeyWorld.gen
        split
        · exact .inl h
        · split
          · exact .inl h
          · split
            · next al le hal hle =>
              split
              · exact .inl h
              · by_cases he : q = p
                · right
                  subst he
                  rw [h] at hr'
                  injection hr' with hr'
                  subst hr'
                  exact ⟨t, rfl, rfl, by rw [hal]; simp⟩
                · left
                  simp only
                  rw [List.getElem?_set_ne he]
                  exact h
            · exact .inl h
      · exact .inl h
  | genRaises q e => rw [genRaises_world]; exact .inl h

/-- What `genKeyPair` does, in a world made by a program. -/
theorem gen_eq (pc ls : Bool) (w : KeyWorld) (hw : Sound w) (p : Nat) (r : PairRef) (hp : w.pairs[p]? = some r) (t : TheKey) :
    ∃ a b, w.keys[r.publicKey]? = some a ∧ w.keys[r.privateKey]? = some b ∧ w.step pc ls (.gen p t) = w.gen pc ls p r a b t := by
  obtain ⟨h1, h2⟩ := hw.refs r (List.mem_of_getElem? hp)
  refine ⟨_, _, List.getElem?_eq_getElem h1, List.getElem?_eq_getElem h2, ?_⟩
  unfold KeyWorld.step
  simp only [hp, List.getElem?_eq_getElem h1, List.getElem?_eq_getElem h2]

/-- C87. `KeyPair(algorithm, length)` for an RSA algorithm (1 or 2) makes a new pair of two new key objects, a public and a private one of that length, both
uninitialised; any other algorithm is refused with NO_SUCH_ALGORITHM and nothing is made. No other key or pair is touched. -/
theorem C87_make (pc ls : Bool) (w : KeyWorld) (alg len : Int) :
    (alg = 1 ∨ alg = 2 → ∃ w' pub priv, w.step pc ls (.pair alg len) = (.ok (), w') ∧ w'.keys = w.keys ++ [pub, priv] ∧
      w'.getPublic w.pairs.length = some w.keys.length ∧ w'.getPrivate w.pairs.length = some (w.keys.length + 1) ∧
      pub.isPublic = true ∧ priv.isPublic = false ∧ pub.initialized = false ∧ priv.initialized = false ∧ pub.size = len ∧ priv.size = len ∧
      ∀ q, q < w.pairs.length → w'.pairs[q]? = w.pairs[q]?) ∧
    (¬ (alg = 1 ∨ alg = 2) → w.step pc ls (.pair alg len) = (.error (.crypto 3), w)) := by
  constructor
  · intro h
    refine ⟨_, _, _, by unfold KeyWorld.step; exact if_pos h, rfl, ?_, ?_, rfl, rfl, rfl, rfl, rfl, rfl, ?_⟩
    · simp [KeyWorld.getPublic]
    · simp [KeyWorld.getPrivate]
    · intro q hq
      exact List.getElem?_append_left hq
  · intro h
    unfold KeyWorld.step
    simp only
    rw [if_neg h]
    rfl

theorem role_step (pc ls : Bool) (k : RSAKey) (op : RSAKey.Op) : (k.step pc ls op).2.isPublic = k.isPublic := by
  have ha : ∀ k' : RSAKey, (k'.afterSet pc).2.isPublic = k'.isPublic := by
    intro k'
    unfold RSAKey.afterSet
    split
    · split
      · split <;> rfl
      · rfl
    · rfl
  cases op with
  | setExponent b o l => exact ha _
  | setModulus b o l =>
    show (RSAKey.setModulus pc k b o l).2.isPublic = _
    unfold RSAKey.setModulus
    split
    · rfl
    · exact ha _
  | setTheKey t => exact ha _
  | clearKey => rfl

theorem role_run (pc ls : Bool) (k : RSAKey) (ops : List RSAKey.Op) : (k.run pc ls ops).isPublic = k.isPublic := by
  induction ops generalizing k with
  | nil => rfl
  | cons op ops ih => exact (ih _).trans (role_step pc ls k op)

/-- Every pair has a public and a private key. -/
def Roles (w : KeyWorld) : Prop :=
  ∀ r ∈ w.pairs, (∃ a, w.keys[r.publicKey]? = some a ∧ a.isPublic = true) ∧ ∃ b, w.keys[r.privateKey]? = some b ∧ b.isPublic = false

theorem roles_step (pc ls : Bool) (w : KeyWorld) (op : KeyWorld.Op) (h : Roles w) : Roles (w.step pc ls op).2 := by
  -- the pairs there were
  have old : ∀ r ∈ w.pairs, (∃ a, (w.step pc ls op).2.keys[r.publicKey]? = some a ∧ a.isPublic = true) ∧
      ∃ b, (w.step pc ls op).2.keys[r.privateKey]? = some b ∧ b.isPublic = false := by
    intro r hr
    obtain ⟨⟨a, ha, ha'⟩, b, hb, hb'⟩ := h r hr
    exact ⟨⟨_, step_keys pc ls w op _ a ha, by rw [role_run]; exact ha'⟩, _, step_keys pc ls w op _ b hb, by rw [role_run]; exact hb'⟩
  intro r hr
  by_cases hin : r ∈ w.pairs
  · exact old r hin
  · cases op with
    | build b n => exact absurd hr hin
    | key j op =>
      unfold KeyWorld.step at hr
      simp only at hr
      split at hr <;> exact absurd hr hin
    | pair a n =>
      unfold KeyWorld.step at hr ⊢
      simp only at hr ⊢
      split at hr
      · next ha =>
        rw [if_pos ha]
        simp only [List.mem_append, List.mem_singleton] at hr
        rcases hr with hr | rfl
        · exact absurd hr hin
        · exact ⟨⟨RSAKey.new true n, by simp, rfl⟩, RSAKey.new false n, by simp, rfl⟩
      · exact absurd hr hin
    | ofKeys i j =>
      unfold KeyWorld.step at hr ⊢
      simp only at hr ⊢
      split at hr
      · next a b hi hj =>
        split at hr
        · exact absurd hr hin
        · next hpub =>
          split at hr
          · exact absurd hr hin
          · next hpriv =>
            rw [if_neg hpub, if_neg hpriv]
            simp only [List.mem_append, List.mem_singleton] at hr
            rcases hr with hr | rfl
            · exact absurd hr hin
            · exact ⟨⟨a, hi, by simpa using hpub⟩, b, hj, by simpa using hpriv⟩
      · exact absurd hr hin
    | gen p t =>
      unfold KeyWorld.step at hr ⊢
      simp only at hr ⊢
      split at hr
      · exact absurd hr hin
      · split at hr
        · unfold KeyWorld.gen at hr ⊢
          split at hr
          · exact absurd hr hin
          · next h1 =>
            split at hr
            · exact absurd hr hin
            · next h2 =>
              rw [if_neg h1, if_neg h2]
              split at hr
              · split at hr
                · exact absurd hr hin
                · next al le _ _ h3 =>
                  rw [if_neg h3]
                  rcases List.mem_or_eq_of_mem_set hr with hr | rfl
                  · exact absurd hr hin
                  · exact ⟨⟨((RSAKey.new true le).setTheKey pc ls t).2, by simp, role_step pc ls (RSAKey.new true le) (.setTheKey t)⟩,
                      ((RSAKey.new false le).setTheKey pc ls t).2, by simp, role_step pc ls (RSAKey.new false le) (.setTheKey t)⟩
              · exact absurd hr hin
        · exact absurd hr hin
    | genRaises p e => rw [genRaises_world] at hr; exact absurd hr hin

/-- C87. In every program, with PyCrypto or without, what `getPublic()` of a pair returns is a public key and what `getPrivate()` returns a private one. -/
theorem C87_roles (pc ls : Bool) (ops : List KeyWorld.Op) (w : KeyWorld) (hw : w = KeyWorld.run pc ls ⟨[], []⟩ ops) (p : Nat) (hp : p < w.pairs.length) :
    (∃ i a, w.getPublic p = some i ∧ w.keys[i]? = some a ∧ a.isPublic = true) ∧ ∃ j b, w.getPrivate p = some j ∧ w.keys[j]? = some b ∧ b.isPublic = false := by
  have hr : ∀ (ops : List KeyWorld.Op) (v : KeyWorld), Roles v → Roles (v.run pc ls ops) := by
    intro ops
    induction ops with
    | nil => exact fun v h => h
    | cons op ops ih => exact fun v h => ih _ (roles_step pc ls v op h)
  have := hr ops ⟨[], []⟩ (fun r hr => by cases hr)
  rw [← hw] at this
  have hg := List.getElem?_eq_getElem hp
  obtain ⟨⟨a, ha, ha'⟩, b, hb, hb'⟩ := this w.pairs[p] (List.getElem_mem hp)
  exact ⟨⟨_, a, by simp [KeyWorld.getPublic, hg], ha, ha'⟩, _, b, by simp [KeyWorld.getPrivate, hg], hb, hb'⟩

/-- C87. Generating a pair made for an algorithm, with PyCrypto and as long as both its keys are uninitialised: the pair gets two *new* key
objects, initialised and holding the generated key; every key object there was before – also the two that getPublic and getPrivate
returned – is left as it was, uninitialised, and so is every other pair. -/
theorem C87_generate (ls : Bool) (ops : List KeyWorld.Op) (w : KeyWorld) (hw : w = KeyWorld.run true ls ⟨[], []⟩ ops) (p : Nat) (r : PairRef)
    (hr : w.pairs[p]? = some r) (ha : r.algorithm ≠ none) (h1 : w.isInitialized r.publicKey = false) (h2 : w.isInitialized r.privateKey = false) (t : TheKey) :
    ∃ w' pub priv, w.step true ls (.gen p t) = (.ok (), w') ∧
      w'.getPublic p = some w.keys.length ∧ w'.getPrivate p = some (w.keys.length + 1) ∧
      w'.keys = w.keys ++ [pub, priv] ∧ pub.initialized = true ∧ priv.initialized = true ∧ pub.isPublic = true ∧ priv.isPublic = false ∧
      pub.theKey = some (.given t) ∧ priv.theKey = some (.given t) ∧ some pub.size = r.keylength ∧ some priv.size = r.keylength ∧
      w'.isInitialized r.publicKey = false ∧ w'.isInitialized r.privateKey = false ∧ ∀ q, q ≠ p → w'.pairs[q]? = w.pairs[q]? := by
  have hs : Sound w := by rw [hw]; exact sound_run true ls _ ops sound_start
  obtain ⟨a, b, ka, kb, e⟩ := gen_eq true ls w hs p r hr t
  have i1 : a.initialized = false := by unfold KeyWorld.isInitialized at h1; rw [ka] at h1; exact h1
  have i2 : b.initialized = false := by unfold KeyWorld.isInitialized at h2; rw [kb] at h2; exact h2
  rcases hs.algs r (List.mem_of_getElem? hr) with ⟨hn, _⟩ | ⟨al, n, hal, hn, hor⟩
  · exact absurd hn ha
  have hlt := lt_of_getElem? hr
  have e2 : w.gen true ls p r a b t = (.ok (), ⟨w.keys ++ [((RSAKey.new true n).setTheKey true ls t).2, ((RSAKey.new false n).setTheKey true ls t).2],
      w.pairs.set p ⟨some al, some n, w.keys.length, w.keys.length + 1⟩⟩) := by
    unfold KeyWorld.gen
    rw [if_neg (by rw [i1, i2]; simp), if_neg (by simp)]
    simp only [hal, hn]
    rw [if_neg (by omega)]
  have hget : ∀ (l : List RSAKey) k x, w.keys[k]? = some x → (w.keys ++ l)[k]? = some x := fun l k x hk => by
    rw [List.getElem?_append_left (lt_of_getElem? hk)]; exact hk
  refine ⟨_, _, _, by rw [e, e2], ?_, ?_, rfl, rfl, rfl, rfl, rfl, rfl, rfl, by rw [hn]; rfl, by rw [hn]; rfl, ?_, ?_, ?_⟩
  · unfold KeyWorld.getPublic
    simp only
    rw [List.getElem?_set_self hlt]
    rfl
  · unfold KeyWorld.getPrivate
    simp only
    rw [List.getElem?_set_self hlt]
    rfl
  · unfold KeyWorld.isInitialized
    simp only
    rw [hget _ _ _ ka]
    exact i1
  · unfold KeyWorld.isInitialized
    simp only
    rw [hget _ _ _ kb]
    exact i2
  · intro q hq
    simp only
    rw [List.getElem?_set_ne (fun h => hq h.symm)]

/-- C87. When PyCrypto's generate raises (as it does for lengths it does not take), genKeyPair raises the same and changes nothing, so that a later genKeyPair can succeed
just as before; and where genKeyPair raises for another reason, it raises that. -/
theorem C87_generate_raises (pc ls : Bool) (ops : List KeyWorld.Op) (w : KeyWorld) (hw : w = KeyWorld.run pc ls ⟨[], []⟩ ops) (p : Nat) (hp : p < w.pairs.length)
    (e : Err) (t : TheKey) :
    (w.step pc ls (.genRaises p e)).2 = w ∧
    ((w.step pc ls (.gen p t)).1 = .ok () → (w.step pc ls (.genRaises p e)).1 = .error e) ∧
    (∀ e', (w.step pc ls (.gen p t)).1 = .error e' → (w.step pc ls (.genRaises p e)).1 = .error e') := by
  have hs : Sound w := by rw [hw]; exact sound_run pc ls _ ops sound_start
  refine ⟨genRaises_world pc ls w p e, ?_⟩
  have hr : w.pairs[p]? = some w.pairs[p] := List.getElem?_eq_getElem hp
  obtain ⟨a, b, ka, kb, eg⟩ := gen_eq pc ls w hs p _ hr t
  have er : (w.step pc ls (.genRaises p e)).1 = .error (KeyWorld.genError pc w.pairs[p] a b e) := by
    unfold KeyWorld.step
    simp only [hr, ka, kb]
  rw [eg, er]
  unfold KeyWorld.gen KeyWorld.genError
  split
  · simp
  · split
    · simp
    · split
      · split <;> simp
      · simp

/-- A pair whose public key is initialised can never be generated (again). -/
theorem never_again (pc ls : Bool) (p : Nat) (ops : List KeyWorld.Op) (w : KeyWorld) (hs : Sound w) (r : PairRef) (hr : w.pairs[p]? = some r)
    (h : w.isInitialized r.publicKey = true) (t : TheKey) :
    (w.run pc ls ops).step pc ls (.gen p t) = (.error (.crypto 1), w.run pc ls ops) ∧ (w.run pc ls ops).pairs[p]? = some r := by
  induction ops generalizing w with
  | nil =>
    obtain ⟨a, b, ka, kb, e⟩ := gen_eq pc ls w hs p r hr t
    refine ⟨?_, hr⟩
    rw [KeyWorld.run, e]
    unfold KeyWorld.gen
    have : a.initialized = true := by unfold KeyWorld.isInitialized at h; rw [ka] at h; exact h
    rw [if_pos (.inl this)]
    rfl
  | cons op ops ih =>
    rw [KeyWorld.run]
    have hpub : (w.step pc ls op).2.isInitialized r.publicKey = true := by
      unfold KeyWorld.isInitialized at h ⊢
      cases hk : w.keys[r.publicKey]? with
      | none => rw [hk] at h; cases h
      | some k =>
        rw [hk] at h
        rw [step_keys pc ls w op _ k hk]
        exact initialized_run pc ls k _ h
    refine ih _ (sound_step pc ls w op hs) ?_ hpub
    rcases pair_step pc ls w op p r hr with h' | ⟨t', rfl, hok, _⟩
    · exact h'
    · obtain ⟨a, b, ka, kb, e⟩ := gen_eq pc ls w hs p r hr t'
      have : a.initialized = true := by unfold KeyWorld.isInitialized at h; rw [ka] at h; exact h
      rw [e] at hok
      unfold KeyWorld.gen at hok
      rw [if_pos (.inl this)] at hok
      cases hok

/-- C87. A pair is generated at most once: after a successful genKeyPair, and any further steps, every genKeyPair of this pair raises
CryptoException(ILLEGAL_VALUE) and changes nothing, and getPublic and getPrivate keep returning the same objects. -/
theorem C87_once (pc ls : Bool) (ops ops' : List KeyWorld.Op) (p : Nat) (hp : p < (KeyWorld.run pc ls ⟨[], []⟩ ops).pairs.length) (t t' : TheKey) (w1 w2 : KeyWorld)
    (h : (KeyWorld.run pc ls ⟨[], []⟩ ops).step pc ls (.gen p t) = (.ok (), w1)) (h2 : w2 = w1.run pc ls ops') :
    w2.step pc ls (.gen p t') = (.error (.crypto 1), w2) ∧ w2.getPublic p = w1.getPublic p ∧ w2.getPrivate p = w1.getPrivate p := by
  have hs := sound_run pc ls ⟨[], []⟩ ops sound_start
  generalize hw : KeyWorld.run pc ls ⟨[], []⟩ ops = w at *
  obtain ⟨r, hr⟩ : ∃ r, w.pairs[p]? = some r := ⟨_, List.getElem?_eq_getElem hp⟩
  obtain ⟨a, b, ka, kb, e⟩ := gen_eq pc ls w hs p r hr t
  have hs1 : Sound w1 := by have := sound_step pc ls w (.gen p t) hs; rw [h] at this; exact this
  rw [e] at h
  unfold KeyWorld.gen at h
  split at h
  · cases h
  split at h
  · cases h
  split at h
  · next al n hal hn =>
    split at h
    · cases h
    · injection h with _ h
      subst h
      have g1 : (w.pairs.set p ⟨some al, some n, w.keys.length, w.keys.length + 1⟩)[p]? = some ⟨some al, some n, w.keys.length, w.keys.length + 1⟩ :=
        List.getElem?_set_self hp
      obtain ⟨n1, n2⟩ := never_again pc ls p ops' _ hs1 _ g1 (by
        unfold KeyWorld.isInitialized
        simp only
        rw [List.getElem?_append_right (by omega)]
        simp only [Nat.sub_self, List.getElem?_cons_zero]
        rfl) t'
      subst h2
      refine ⟨n1, ?_, ?_⟩
      · unfold KeyWorld.getPublic
        rw [n2, g1]
      · unfold KeyWorld.getPrivate
        rw [n2, g1]
  · cases h

/-- C87. A pair made from two key objects refers to these objects for ever – what is set on them is seen through the pair – and genKeyPair
never succeeds on it: ILLEGAL_VALUE when one of them has been initialised, otherwise AttributeError (NO_SUCH_ALGORITHM without PyCrypto). -/
theorem C87_ofKeys (pc ls : Bool) (ops ops' : List KeyWorld.Op) (w w1 w2 : KeyWorld) (hw : w = KeyWorld.run pc ls ⟨[], []⟩ ops) (i j : Nat)
    (h : w.step pc ls (.ofKeys i j) = (.ok (), w1)) (hi : i < w.keys.length) (hj : j < w.keys.length) (h2 : w2 = w1.run pc ls ops') (t : TheKey) :
    w2.getPublic w.pairs.length = some i ∧ w2.getPrivate w.pairs.length = some j ∧
    w2.step pc ls (.gen w.pairs.length t) =
      (.error (if w2.isInitialized i ∨ w2.isInitialized j then .crypto 1 else if pc then .attributeError else .crypto 3), w2) := by
  have hs : Sound w := by rw [hw]; exact sound_run pc ls _ ops sound_start
  have hs1 : Sound w1 := by have := sound_step pc ls w (.ofKeys i j) hs; rw [h] at this; exact this
  have g1 : w1.pairs[w.pairs.length]? = some ⟨none, none, i, j⟩ := by
    unfold KeyWorld.step at h
    simp only [List.getElem?_eq_getElem hi, List.getElem?_eq_getElem hj] at h
    split at h
    · cases h
    split at h
    · cases h
    injection h with _ h
    subst h
    simp
  have keep : ∀ (ops' : List KeyWorld.Op) (w1 : KeyWorld), Sound w1 → w1.pairs[w.pairs.length]? = some ⟨none, none, i, j⟩ →
      Sound (w1.run pc ls ops') ∧ (w1.run pc ls ops').pairs[w.pairs.length]? = some ⟨none, none, i, j⟩ := by
    intro ops'
    induction ops' with
    | nil => intro w1 hs hp; exact ⟨hs, hp⟩
    | cons op ops' ih =>
      intro w1 hs hp
      rw [KeyWorld.run]
      refine ih _ (sound_step pc ls w1 op hs) ?_
      rcases pair_step pc ls w1 op _ _ hp with h' | ⟨t', _, _, hn⟩
      · exact h'
      · exact absurd rfl hn
  obtain ⟨s2, g2⟩ := keep ops' w1 hs1 g1
  rw [← h2] at s2 g2
  refine ⟨by unfold KeyWorld.getPublic; rw [g2]; rfl, by unfold KeyWorld.getPrivate; rw [g2]; rfl, ?_⟩
  obtain ⟨a, b, ka, kb, e⟩ := gen_eq pc ls w2 s2 _ _ g2 t
  simp only at ka kb
  rw [e]
  have q1 : w2.isInitialized i = a.initialized := by unfold KeyWorld.isInitialized; rw [ka]; rfl
  have q2 : w2.isInitialized j = b.initialized := by unfold KeyWorld.isInitialized; rw [kb]; rfl
  rw [q1, q2]
  unfold KeyWorld.gen
  by_cases hini : a.initialized = true ∨ b.initialized = true
  · rw [if_pos hini, if_pos hini]
    rfl
  · rw [if_neg hini, if_neg hini]
    cases pc
    · simp only [Bool.false_eq_true, not_false_eq_true, if_true, if_false]
      rfl
    · simp only [not_true, if_true, if_false]

/-- C87. The constructor from two keys: a pair is made exactly when the first is a public key and the second a private one, of the two objects and
with no algorithm; otherwise ILLEGAL_VALUE is raised and nothing is made. No key is changed. -/
theorem C87_ofKeys_kinds (pc ls : Bool) (w : KeyWorld) (i j : Nat) (a b : RSAKey) (hi : w.keys[i]? = some a) (hj : w.keys[j]? = some b) :
    (a.isPublic = true ∧ b.isPublic = false → ∃ w', w.step pc ls (.ofKeys i j) = (.ok (), w') ∧ w'.keys = w.keys ∧
      w'.pairs.length = w.pairs.length + 1 ∧ (∀ q < w.pairs.length, w'.pairs[q]? = w.pairs[q]?) ∧
      w'.getPublic w.pairs.length = some i ∧ w'.getPrivate w.pairs.length = some j) ∧
    (¬ (a.isPublic = true ∧ b.isPublic = false) → w.step pc ls (.ofKeys i j) = (.error (.crypto 1), w)) := by
  unfold KeyWorld.step
  simp only [hi, hj]
  constructor
  · rintro ⟨h1, h2⟩
    rw [if_neg (by simp [h1]), if_neg (by simp [h2])]
    refine ⟨_, rfl, rfl, by simp, ?_, by simp [KeyWorld.getPublic], by simp [KeyWorld.getPrivate]⟩
    intro q hq
    rw [List.getElem?_append_left hq]
  · intro h
    cases h1 : a.isPublic with
    | false => rw [if_pos (by simp)]; rfl
    | true =>
      cases h2 : b.isPublic with
      | false => exact absurd ⟨h1, h2⟩ h
      | true => rw [if_neg (by simp), if_pos (by simp)]; rfl

/-- C87. Without PyCrypto no pair is ever generated. -/
theorem C87_without_pycrypto (ls : Bool) (ops : List KeyWorld.Op) (w : KeyWorld) (hw : w = KeyWorld.run false ls ⟨[], []⟩ ops) (p : Nat) (hp : p < w.pairs.length)
    (t : TheKey) : w.step false ls (.gen p t) = (.error (.crypto 1), w) ∨ w.step false ls (.gen p t) = (.error (.crypto 3), w) := by
  have hs : Sound w := by rw [hw]; exact sound_run false ls _ ops sound_start
  obtain ⟨a, b, ka, kb, e⟩ := gen_eq false ls w hs p _ (List.getElem?_eq_getElem hp) t
  rw [e]
  unfold KeyWorld.gen
  split
  · exact .inl rfl
  · exact .inr rfl

/-- A key handed out before generation stays uninitialised; a pair made from two keys sees later calls. -/
example : let w := KeyWorld.run true true ⟨[], []⟩ [.pair 1 512, .gen 0 ⟨3233, 17, 413⟩]
    w.getPublic 0 = some 2 ∧ w.isInitialized 0 = false ∧ w.isInitialized 2 = true := by decide +kernel
example : let w := KeyWorld.run true true ⟨[], []⟩ [.build true 8, .build false 8, .ofKeys 0 1, .key 0 (.setModulus [5] 0 1), .key 0 (.setExponent [3] 0 1)]
    w.getPublic 0 = some 0 ∧ w.isInitialized 0 = true := by decide +kernel
/-- A generation that raises changes nothing; the next one succeeds. -/
example : let w := KeyWorld.run true true ⟨[], []⟩ [.pair 1 512]
    (w.step true true (.genRaises 0 .valueError)).1 = .error .valueError ∧ (w.step true true (.gen 0 ⟨3233, 17, 413⟩)).1 = .ok () := by decide +kernel

end Verif.Props
