import Verif.Props.CardHistory
/-! C116, continued: digests, numbers, keys and ciphers. -/
namespace Verif.Props
open Verif.Py Verif.Model Verif.Model.Card Verif.Spec Verif.Spec.Card

theorem onArray_eq (w : Card) (r : Nat) (f : List Int → Eff) : onArray w r f = (listAt w r).elim wrong f := by
  simp only [onArray, listAt]; cases w r <;> rfl

theorem onOptArray_eq (w : Card) (r : Option Nat) (f : Option (List Int) → Eff) : onOptArray w r f = (optListAt w r).elim wrong f := by
  cases r with
  | none => rfl
  | some r => simp only [onOptArray, onArray_eq, optListAt]; cases listAt w r <;> rfl

theorem listAt_ne {w : Card} {r i : Nat} {l : List Int} (h : listAt w r = some l) (hi : kind (w i) ≠ .array) : r ≠ i := by
  rintro rfl
  unfold listAt at h
  split at h
  · next l' hl => rw [hl] at hi; exact hi rfl
  · simp at h

theorem put_two (w : Card) (r i : Nat) (x y : Obj) : w.put [(r, x), (i, y)] i = y := by simp [put]

theorem put_two_ne (w : Card) {r j i : Nat} (x y : Obj) (h : r ≠ i) (h' : j ≠ i) : w.put [(r, x), (j, y)] i = w i := by
  simp only [put]
  rw [if_neg (fun e => h' e.symm), if_neg (fun e => h e.symm)]

theorem put_two_first (w : Card) {r i : Nat} (x y : Obj) (h : r ≠ i) : w.put [(r, x), (i, y)] r = x := by
  simp only [put]
  rw [if_neg h]; simp

/-! ### Digests -/

theorem digest_step {env : CryptoEnv} {fuel : Nat} {w : Card} {d : Nat} {x : MessageDigest} (hx : w d = .digest x) (s : Step) (e : Eff)
    (he : sem env fuel w s = some e) :
    (∀ op, digestCall d w s = some op → w.put e.2 d = .digest (x.step env.hash op)) ∧ (digestCall d w s = none → w.put e.2 d = .digest x) := by
  have hu : kind (w d) ∉ changes s → w.put e.2 d = .digest x := fun h => by rw [unchanged he (by simp [hx, kind]) h, hx]
  have hk : kind (w d) ≠ .array := by simp [hx, kind]
  cases s
  case getDigest j alg =>
    simp only [sem, Option.some.injEq] at he
    subst he
    refine ⟨fun op h => by simp [digestCall] at h, fun _ => ?_⟩
    refine makeOrMap_ind (P := fun e => w.put e.2 d = .digest x) hx (fun _ => hx) fun o hf => ?_
    rw [put_one_ne _ _ (fun e => by rw [e, hx] at hf; simp at hf), hx]
  case digestUpdate j r off len =>
    simp only [sem, Option.some.injEq] at he
    subst he
    simp only [digestCall]
    rw [onArray_eq]
    cases hl : listAt w r with
    | none => exact ⟨fun op h => by split at h <;> simp at h, fun _ => hx⟩
    | some l =>
      by_cases hj : j = d
      · subst hj
        rw [if_pos rfl]
        refine ⟨fun op h => ?_, fun h => by simp at h⟩
        simp only [Option.map_some, Option.some.injEq] at h
        subst h
        simp only [Option.elim, hx]
        exact put_one _ _ _
      · rw [if_neg hj]
        refine ⟨fun op h => by simp at h, fun _ => ?_⟩
        simp only [Option.elim]
        split
        · rw [put_one_ne _ _ hj, hx]
        · exact hx
  case digestFinal j r off len r' off' =>
    simp only [sem, Option.some.injEq] at he
    subst he
    simp only [digestCall]
    rw [onArray_eq]
    cases hl : listAt w r with
    | none => exact ⟨fun op h => by split at h <;> simp at h, fun _ => hx⟩
    | some l =>
      simp only [Option.elim]
      rw [onArray_eq]
      cases hl' : listAt w r' with
      | none => exact ⟨fun op h => by split at h <;> simp at h, fun _ => hx⟩
      | some l' =>
        by_cases hj : j = d
        · subst hj
          rw [if_pos rfl]
          refine ⟨fun op h => ?_, fun h => by simp at h⟩
          simp only [Option.map_some, Option.bind_some, Option.some.injEq] at h
          subst h
          simp only [Option.elim, hx]
          exact put_two _ _ _ _ _
        · rw [if_neg hj]
          refine ⟨fun op h => by simp at h, fun _ => ?_⟩
          simp only [Option.elim]
          split
          · rw [put_two_ne _ _ _ (listAt_ne hl' hk) hj, hx]
          · exact hx
  case digestReset j =>
    simp only [sem, Option.some.injEq] at he
    subst he
    simp only [digestCall]
    by_cases hj : j = d
    · subst hj
      rw [if_pos rfl]
      refine ⟨fun op h => ?_, fun h => by simp at h⟩
      simp only [Option.some.injEq] at h
      subst h
      simp only [hx]
      exact put_one _ _ _
    · rw [if_neg hj]
      refine ⟨fun op h => by simp at h, fun _ => ?_⟩
      split
      · rw [put_one_ne _ _ hj, hx]
      · exact hx
  all_goals exact ⟨fun op h => by simp [digestCall] at h, fun _ => hu (by simp [hx, kind, changes])⟩

/-- **C116** (digests). On a card, a digest object is in the state its own calls put it in, each with the contents its arguments had at that moment; the
next `update`, `doFinal` and the list `doFinal` writes into are those of that history. -/
theorem C116_digest {env : CryptoEnv} {fuel : Nat} {w : Card} {prog : List Step} {outs : List (Except Err Card.Out)} {w' : Card}
    (h : run env fuel w prog = some (outs, w')) {d : Nat} {x : MessageDigest} (hx : w d = .digest x) :
    let q := x.run env.hash (historyOf (digestCall d) env fuel w prog)
    w' d = .digest q ∧
    (∀ r off len l, listAt w' r = some l → ∃ w'', step env fuel w' (.digestUpdate d r off len) = some ((q.update l off len).1.map fun _ => .nothing, w'')) ∧
    ∀ r off len r' off' l l', listAt w' r = some l → listAt w' r' = some l' →
      ∃ w'', step env fuel w' (.digestFinal d r off len r' off') = some ((q.doFinal env.hash l off len l' off').1.map .int, w'') ∧
        listAt w'' r' = some (q.doFinal env.hash l off len l' off').2.1 := by
  intro q
  have hq : w' d = .digest q := by
    refine history_ind (digestCall d) (fun ops v => v d = .digest (x.run env.hash ops)) ?_ prog [] w outs w' h hx
    intro ops v s e hv he
    have := digest_step hv s e he
    cases hc : digestCall d v s with
    | none => simpa using this.2 hc
    | some op =>
      rw [this.1 op hc]
      simp [MessageDigest.run]
  refine ⟨hq, ?_, ?_⟩
  · intro r off len l hl
    exact ⟨_, by simp only [step, sem, onArray_eq, hl, Option.elim, hq, Option.map_some]; rfl⟩
  · intro r off len r' off' l l' hl hl'
    refine ⟨_, by simp only [step, sem, onArray_eq, hl, hl', Option.elim, hq, Option.map_some]; rfl, ?_⟩
    unfold listAt
    rw [put_two_first _ _ _ (listAt_ne hl' (by simp [hq, kind]))]

/-! ### Numbers -/

theorem numStep_op (op : BigOp) (x : BigNumber) (l : Option (List Int)) (off len fmt : Int) :
    numStep x ⟨numKind op, l, off, len, fmt⟩ = Card.bigOp op x l off len fmt := by cases op <;> rfl

theorem num_step {env : CryptoEnv} {fuel : Nat} {w : Card} {b : Nat} {x : BigNumber} (hx : w b = .big x) (s : Step) (e : Eff)
    (he : sem env fuel w s = some e) :
    (∀ c, numCall b w s = some c → e.1 = ((numStep x c).1.map fun _ => .nothing) ∧ w.put e.2 b = .big (numStep x c).2) ∧
    (numCall b w s = none → w.put e.2 b = .big x) := by
  have hu : kind (w b) ∉ changes s → w.put e.2 b = .big x := fun h => by rw [unchanged he (by simp [hx, kind]) h, hx]
  cases s
  case newBig j m =>
    simp only [sem, Option.some.injEq] at he
    subst he
    refine ⟨fun op h => by simp [numCall] at h, fun _ => ?_⟩
    refine makeOrMap_ind (P := fun e => w.put e.2 b = .big x) hx (fun _ => hx) fun o hf => ?_
    rw [put_one_ne _ _ (fun e => by rw [e, hx] at hf; simp at hf), hx]
  case bigInit j r off len fmt =>
    simp only [sem, Option.some.injEq] at he
    subst he
    simp only [numCall]
    rw [onOptArray_eq]
    cases hl : optListAt w r with
    | none => exact ⟨fun op h => by split at h <;> simp at h, fun _ => hx⟩
    | some l =>
      by_cases hj : j = b
      · subst hj
        rw [if_pos rfl]
        refine ⟨fun op h => ?_, fun h => by simp at h⟩
        simp only [Option.map_some, Option.some.injEq] at h
        subst h
        simp only [Option.elim, hx]
        exact ⟨rfl, put_one _ _ _⟩
      · rw [if_neg hj]
        refine ⟨fun op h => by simp at h, fun _ => ?_⟩
        simp only [Option.elim]
        split
        · rw [put_one_ne _ _ hj, hx]
        · exact hx
  case bigOp op j r off len fmt =>
    simp only [sem, Option.some.injEq] at he
    subst he
    simp only [numCall]
    rw [onOptArray_eq]
    cases hl : optListAt w r with
    | none => exact ⟨fun op h => by split at h <;> simp at h, fun _ => hx⟩
    | some l =>
      by_cases hj : j = b
      · subst hj
        rw [if_pos rfl]
        refine ⟨fun op h => ?_, fun h => by simp at h⟩
        simp only [Option.map_some, Option.some.injEq] at h
        subst h
        simp only [Option.elim, hx]
        rw [numStep_op]
        exact ⟨rfl, put_one _ _ _⟩
      · rw [if_neg hj]
        refine ⟨fun op h => by simp at h, fun _ => ?_⟩
        simp only [Option.elim]
        split
        · rw [put_one_ne _ _ hj, hx]
        · exact hx
  all_goals exact ⟨fun op h => by simp [numCall] at h, fun _ => hu (by simp [hx, kind, changes])⟩

theorem numRun_append (x : BigNumber) (a b : List NumCall) : (numRun x (a ++ b)).2 = (numRun (numRun x a).2 b).2 := by
  induction a generalizing x with
  | nil => rfl
  | cons c cs ih => simp only [List.cons_append, numRun]; exact ih _

/-- **C116** (numbers). On a card, a big number has the value its own calls gave it, each with the contents its array had at that moment; the next call
and what `toBytes` writes are those of that history. -/
theorem C116_number {env : CryptoEnv} {fuel : Nat} {w : Card} {prog : List Step} {outs : List (Except Err Card.Out)} {w' : Card}
    (h : run env fuel w prog = some (outs, w')) {b : Nat} {x : BigNumber} (hx : w b = .big x) :
    let q := (numRun x (historyOf (numCall b) env fuel w prog)).2
    w' b = .big q ∧
    (∀ s c, numCall b w' s = some c → ∃ w'', step env fuel w' s = some ((numStep q c).1.map fun _ => .nothing, w'')) ∧
    ∀ r off len fmt l, listAt w' r = some l →
      ∃ w'', step env fuel w' (.bigToBytes b r off len fmt) = some ((q.toBytes l off len fmt).1.map fun _ => .nothing, w'') ∧
        listAt w'' r = some (q.toBytes l off len fmt).2 := by
  intro q
  have hq : w' b = .big q := by
    refine history_ind (numCall b) (fun ops v => v b = .big (numRun x ops).2) ?_ prog [] w outs w' h hx
    intro ops v s e hv he
    have := num_step hv s e he
    cases hc : numCall b v s with
    | none => simpa using this.2 hc
    | some op =>
      rw [(this.1 op hc).2]
      simp only [Option.toList_some, numRun_append]
      rfl
  refine ⟨hq, ?_, ?_⟩
  · intro s c hs
    cases he : sem env fuel w' s with
    | none =>
      exfalso
      cases s <;> first | (simp [numCall] at hs; done) | (simp [sem] at he; done)
    | some e =>
      exact ⟨_, by simp only [step, he, Option.map_some]; rw [((num_step hq s e he).1 c hs).1]⟩
  · intro r off len fmt l hl
    refine ⟨_, by simp only [step, sem, onArray_eq, hl, Option.elim, hq, arrayTo, Option.map_some]; rfl, ?_⟩
    unfold listAt
    rw [put_one]

/-! ### RSA keys -/

theorem key_step {env : CryptoEnv} {fuel : Nat} {w : Card} {k : Nat} {x : RSAKey} (hx : w k = .key (.rsa x)) (s : Step) (e : Eff)
    (he : sem env fuel w s = some e) :
    (∀ op, keyCall k w s = some op → e.1 = ((x.step env.pycrypto env.longSuffix op).1.map fun _ => .nothing) ∧
      w.put e.2 k = .key (.rsa (x.step env.pycrypto env.longSuffix op).2)) ∧
    (keyCall k w s = none → w.put e.2 k = .key (.rsa x)) := by
  have hf : kind (w k) ≠ .free := by simp only [hx, kind]; split <;> simp
  have hu : kind (w k) ∉ changes s → w.put e.2 k = .key (.rsa x) := fun h => by rw [unchanged he hf h, hx]
  have hfree : ∀ j, w j = .free → j ≠ k := fun j hj e => by rw [e, hx] at hj; simp at hj
  cases s
  case buildKey j args =>
    simp only [sem, Option.some.injEq] at he
    subst he
    refine ⟨fun op h => by simp [keyCall] at h, fun _ => ?_⟩
    split
    · exact hx
    · exact hx
    · refine make_ind (P := fun e => w.put e.2 k = .key (.rsa x)) hx fun hj => ?_
      rw [put_one_ne _ _ (hfree _ hj), hx]
  case newPair p i j alg len =>
    simp only [sem, Option.some.injEq] at he
    subst he
    refine ⟨fun op h => by simp [keyCall] at h, fun _ => ?_⟩
    split
    · next hp hi hj =>
      split
      · exact hx
      · split
        · simp only [put]
          rw [if_neg (fun e => hfree _ hp e.symm), if_neg (fun e => hfree _ hj e.symm), if_neg (fun e => hfree _ hi e.symm), hx]
        · exact hx
    · exact hx
  case genKeyPair p i j t =>
    simp only [sem, Option.some.injEq] at he
    subst he
    refine ⟨fun op h => by simp [keyCall] at h, fun _ => ?_⟩
    split
    · next q hp hi hj =>
      have hpk : k ≠ p := fun e => by rw [← e, hx] at hp; simp at hp
      split
      · split
        · exact hx
        · unfold genPair
          split
          · exact hx
          · split
            · exact hx
            · split
              · split
                · exact hx
                · simp only [put]
                  rw [if_neg hpk, if_neg (fun e => hfree _ hj e.symm), if_neg (fun e => hfree _ hi e.symm), hx]
              · exact hx
      · exact hx
    · exact hx
  case setTheKey j t =>
    simp only [sem, Option.some.injEq] at he
    subst he
    simp only [keyCall]
    by_cases hj : j = k
    · subst hj
      rw [if_pos rfl]
      refine ⟨fun op h => ?_, fun h => by simp at h⟩
      simp only [Option.some.injEq] at h
      subst h
      simp only [hx]
      exact ⟨rfl, put_one _ _ _⟩
    · rw [if_neg hj]
      refine ⟨fun op h => by simp at h, fun _ => ?_⟩
      split
      · rw [put_one_ne _ _ hj, hx]
      · exact hx
      · exact hx
  case clearKey j =>
    simp only [sem, Option.some.injEq] at he
    subst he
    simp only [keyCall]
    by_cases hj : j = k
    · subst hj
      rw [if_pos rfl]
      refine ⟨fun op h => ?_, fun h => by simp at h⟩
      simp only [Option.some.injEq] at h
      subst h
      simp only [hx]
      exact ⟨rfl, hx⟩
    · rw [if_neg hj]
      refine ⟨fun op h => by simp at h, fun _ => ?_⟩
      split <;> exact hx
  case setRSA j ex r off len =>
    simp only [sem, Option.some.injEq] at he
    subst he
    rw [onArray_eq]
    cases hl : listAt w r with
    | none =>
      refine ⟨fun op h => ?_, fun _ => hx⟩
      cases ex <;> simp only [keyCall, hl] at h <;> split at h <;> simp at h
    | some l =>
      by_cases hj : j = k
      · subst hj
        refine ⟨fun op h => ?_, fun h => ?_⟩
        · cases ex <;> simp only [keyCall, hl, if_true, Option.map_some, Option.some.injEq] at h <;> subst h <;> simp only [Option.elim, hx]
          · exact ⟨rfl, put_one _ _ _⟩
          · exact ⟨rfl, put_one _ _ _⟩
        · cases ex <;> simp [keyCall, hl] at h
      · refine ⟨fun op h => ?_, fun _ => ?_⟩
        · cases ex <;> simp [keyCall, hj] at h
        · simp only [Option.elim]
          split
          · rw [put_one_ne _ _ hj, hx]
          · exact hx
          · exact hx
  all_goals refine ⟨fun op h => by simp [keyCall] at h, fun _ => hu ?_⟩
  all_goals (simp only [hx, kind, changes]; split <;> simp)

/-- **C116** (RSA keys). On a card, an RSA key is in the state its own calls put it in, each with the contents its argument had at that moment (pairs and
ciphers that hold it change nothing); the next call on it answers as the key of that history does, and its getters write that key's parts. -/
theorem C116_key {env : CryptoEnv} {fuel : Nat} {w : Card} {prog : List Step} {outs : List (Except Err Card.Out)} {w' : Card}
    (h : run env fuel w prog = some (outs, w')) {k : Nat} {x : RSAKey} (hx : w k = .key (.rsa x)) :
    let q := x.run env.pycrypto env.longSuffix (historyOf (keyCall k) env fuel w prog)
    w' k = .key (.rsa q) ∧
    (∀ s op, keyCall k w' s = some op → ∃ w'', step env fuel w' s = some ((q.step env.pycrypto env.longSuffix op).1.map fun _ => .nothing, w'')) ∧
    (step env fuel w' (.askKey k .isInitialized) = some (.ok (.bool q.initialized), w')) ∧
    ∀ r off l, listAt w' r = some l →
      (∃ w'', step env fuel w' (.getRSA k true r off) = some ((q.getExponent l off).1.map .int, w'') ∧ listAt w'' r = some (q.getExponent l off).2) ∧
      ∃ w'', step env fuel w' (.getRSA k false r off) = some ((q.getModulus l off).1.map .int, w'') ∧ listAt w'' r = some (q.getModulus l off).2 := by
  intro q
  have hq : w' k = .key (.rsa q) := by
    refine history_ind (keyCall k) (fun ops v => v k = .key (.rsa (x.run env.pycrypto env.longSuffix ops))) ?_ prog [] w outs w' h hx
    intro ops v s e hv he
    have := key_step hv s e he
    cases hc : keyCall k v s with
    | none => simpa using this.2 hc
    | some op =>
      rw [(this.1 op hc).2]
      simp [RSAKey.run]
  refine ⟨hq, ?_, ?_, ?_⟩
  · intro s op hs
    cases he : sem env fuel w' s with
    | none =>
      exfalso
      cases s <;> first | (simp [keyCall] at hs; done) | (simp [sem] at he; done)
    | some e =>
      exact ⟨_, by simp only [step, he, Option.map_some]; rw [((key_step hq s e he).1 op hs).1]⟩
  · simp only [step, sem, hq, Option.map_some, put, keyAsk]
    rfl
  · intro r off l hl
    constructor
    · refine ⟨_, by simp only [step, sem, onArray_eq, hl, Option.elim, hq, arrayToInt, Option.map_some, if_true]; rfl, ?_⟩
      unfold listAt
      rw [put_one]
    · refine ⟨_, by simp only [step, sem, onArray_eq, hl, Option.elim, hq, arrayToInt, Option.map_some, Bool.false_eq_true, if_false]; rfl, ?_⟩
      unfold listAt
      rw [put_one]

/-! ### Ciphers -/

theorem keyArg_cases (w : Card) (k : Option Nat) :
    ((keyArg w k).1 = .notKey ∧ keyArgAt w k = .notKey) ∨ ∃ r kk, (keyArg w k) = (.key r, fun _ => kk) ∧ keyArgAt w k = .key r ∧ keysOn w r = kk := by
  cases k with
  | none => exact .inl ⟨rfl, rfl⟩
  | some r =>
    by_cases h : ∃ kk, w r = .key kk
    · obtain ⟨kk, h⟩ := h
      exact .inr ⟨r, kk, by simp only [keyArg, h], by simp only [keyArgAt, h], by simp only [keysOn, h]⟩
    · refine .inl ⟨?_, ?_⟩
      · simp only [keyArg]
        split
        · next hh => exact absurd ⟨_, hh⟩ h
        · rfl
      · simp only [keyArgAt]
        split
        · next hh => exact absurd ⟨_, hh⟩ h
        · rfl

theorem base_init_heap (c : CipherBase) (h h' : KeyHeap) (r : Nat) (hr : h r = h' r) (mode : Int) : c.init h (.key r) mode = c.init h' (.key r) mode := by
  simp only [CipherBase.init, hr]

theorem base_init_key {c : CipherBase} {h : KeyHeap} {r : Nat} {mode : Int} {r' : Nat} {b : CipherBase} (e : c.init h (.key r) mode = (.ok r', b)) : r' = r := by
  unfold CipherBase.init at e
  simp only at e
  split at e
  · simp at e
  · split at e
    · simp at e
    · simp only [Prod.mk.injEq, Except.ok.injEq] at e
      exact e.1.symm

theorem des_init_card (x : DESCipher) (w : Card) (k : Option Nat) (mode : Int) (l : List Int) (off len : Int) :
    x.init (keyArg w k).2 (keyArg w k).1 mode l off len = x.init (keysOn w) (keyArgAt w k) mode l off len := by
  rcases keyArg_cases w k with ⟨h1, h2⟩ | ⟨r, kk, h1, h2, h3⟩
  · rw [h1, h2]; rfl
  · rw [h1, h2]
    unfold DESCipher.init
    rw [base_init_heap x.base (fun _ => kk) (keysOn w) r h3.symm]
    cases hb : x.base.init (keysOn w) (.key r) mode with
    | mk o b =>
      cases o with
      | error e => rfl
      | ok r' =>
        rw [base_init_key hb]
        simp only [h3]

theorem rsa_init_card (x : RSACipher) (w : Card) (k : Option Nat) (mode : Int) :
    x.init (keyArg w k).2 (keyArg w k).1 mode = x.init (keysOn w) (keyArgAt w k) mode := by
  rcases keyArg_cases w k with ⟨h1, h2⟩ | ⟨r, kk, h1, h2, h3⟩
  · rw [h1, h2]; rfl
  · rw [h1, h2]
    unfold RSACipher.init
    rw [base_init_heap x.base (fun _ => kk) (keysOn w) r h3.symm]
    cases hb : x.base.init (keysOn w) (.key r) mode with
    | mk o b =>
      cases o with
      | error e => rfl
      | ok r' =>
        rw [base_init_key hb]
        simp only [h3]

theorem des_step {env : CryptoEnv} {fuel : Nat} {w : Card} {c : Nat} {x : DESCipher} (hx : w c = .des x) (s : Step) (e : Eff)
    (he : sem env fuel w s = some e) :
    (∀ op, desCall c w s = some op → w.put e.2 c = .des (DCall.step x op)) ∧ (desCall c w s = none → w.put e.2 c = .des x) := by
  have hu : kind (w c) ∉ changes s → w.put e.2 c = .des x := fun h => by rw [unchanged he (by simp [hx, kind]) h, hx]
  have hk : kind (w c) ≠ .array := by simp [hx, kind]
  cases s
  case getCipher j args =>
    simp only [sem, Option.some.injEq] at he
    subst he
    refine ⟨fun op h => by simp [desCall] at h, fun _ => ?_⟩
    have hm : ∀ o, w.put (make w j o).2 c = .des x := fun o => make_ind (P := fun e => w.put e.2 c = .des x) hx fun hf => by
      rw [put_one_ne _ _ (fun e => by rw [e, hx] at hf; simp at hf), hx]
    split
    · exact hx
    · exact hm _
    · exact hm _
  case desInit j k mode r off len =>
    simp only [sem, Option.some.injEq] at he
    subst he
    simp only [desCall]
    rw [onArray_eq]
    cases hl : listAt w r with
    | none => exact ⟨fun op h => by split at h <;> simp at h, fun _ => hx⟩
    | some l =>
      by_cases hj : j = c
      · subst hj
        rw [if_pos rfl]
        refine ⟨fun op h => ?_, fun h => by simp at h⟩
        simp only [Option.map_some, Option.some.injEq] at h
        subst h
        simp only [Option.elim, hx]
        rw [des_init_card]
        exact put_one _ _ _
      · rw [if_neg hj]
        refine ⟨fun op h => by simp at h, fun _ => ?_⟩
        simp only [Option.elim]
        split
        · rw [put_one_ne _ _ hj, hx]
        · exact hx
  case desInitDefault j k mode =>
    simp only [sem, Option.some.injEq] at he
    subst he
    simp only [desCall]
    by_cases hj : j = c
    · subst hj
      rw [if_pos rfl]
      refine ⟨fun op h => ?_, fun h => by simp at h⟩
      simp only [Option.some.injEq] at h
      subst h
      simp only [hx, DESCipher.initDefault]
      rw [des_init_card]
      exact put_one _ _ _
    · rw [if_neg hj]
      refine ⟨fun op h => by simp at h, fun _ => ?_⟩
      split
      · rw [put_one_ne _ _ hj, hx]
      · exact hx
  case desFinal j r off len r' off' =>
    simp only [sem, Option.some.injEq] at he
    subst he
    simp only [desCall]
    rw [onArray_eq]
    cases hl : listAt w r with
    | none => exact ⟨fun op h => by split at h <;> simp at h, fun _ => hx⟩
    | some l =>
      simp only [Option.elim]
      rw [onArray_eq]
      cases hl' : listAt w r' with
      | none => exact ⟨fun op h => by split at h <;> simp at h, fun _ => hx⟩
      | some l' =>
        by_cases hj : j = c
        · subst hj
          rw [if_pos rfl]
          refine ⟨fun op h => ?_, fun h => by simp at h⟩
          simp only [Option.map_some, Option.bind_some, Option.some.injEq] at h
          subst h
          simp only [Option.elim, hx]
          exact put_two _ _ _ _ _
        · rw [if_neg hj]
          refine ⟨fun op h => by simp at h, fun _ => ?_⟩
          simp only [Option.elim]
          split
          · rw [put_two_ne _ _ _ (listAt_ne hl' hk) hj, hx]
          · exact hx
  case cipherUpdate j =>
    simp only [sem, Option.some.injEq] at he
    subst he
    simp only [desCall]
    by_cases hj : j = c
    · subst hj
      rw [if_pos rfl]
      refine ⟨fun op h => ?_, fun h => by simp at h⟩
      simp only [Option.some.injEq] at h
      subst h
      simp only [hx]
      exact hx
    · rw [if_neg hj]
      refine ⟨fun op h => by simp at h, fun _ => ?_⟩
      split <;> exact hx
  all_goals exact ⟨fun op h => by simp [desCall] at h, fun _ => hu (by simp [hx, kind, changes])⟩

/-- **C116** (DES ciphers). On a card, a DES cipher is in the state its own calls put it in, each with the contents its lists and its key had at that
moment (so a key changed after `init` does not matter); the next calls and the list `doFinal` writes into are those of that history. -/
theorem C116_des {env : CryptoEnv} {fuel : Nat} {w : Card} {prog : List Step} {outs : List (Except Err Card.Out)} {w' : Card}
    (h : run env fuel w prog = some (outs, w')) {c : Nat} {x : DESCipher} (hx : w c = .des x) :
    let q := (historyOf (desCall c) env fuel w prog).foldl DCall.step x
    w' c = .des q ∧
    (∀ k mode r off len l, listAt w' r = some l →
      ∃ w'', step env fuel w' (.desInit c k mode r off len) = some ((q.init (keysOn w') (keyArgAt w' k) mode l off len).1.map fun _ => .nothing, w'')) ∧
    (∀ k mode, ∃ w'', step env fuel w' (.desInitDefault c k mode) = some ((q.initDefault (keysOn w') (keyArgAt w' k) mode).1.map fun _ => .nothing, w'')) ∧
    ∀ r off len r' off' l l', listAt w' r = some l → listAt w' r' = some l' →
      ∃ w'', step env fuel w' (.desFinal c r off len r' off') = some ((q.doFinal l off len l' off').1.map .int, w'') ∧
        listAt w'' r' = some (q.doFinal l off len l' off').2.1 := by
  intro q
  have hq : w' c = .des q := by
    refine history_ind (desCall c) (fun ops v => v c = .des (ops.foldl DCall.step x)) ?_ prog [] w outs w' h hx
    intro ops v s e hv he
    have := des_step hv s e he
    cases hc : desCall c v s with
    | none => simpa using this.2 hc
    | some op =>
      rw [this.1 op hc]
      simp
  refine ⟨hq, ?_, ?_, ?_⟩
  · intro k mode r off len l hl
    exact ⟨_, by simp only [step, sem, onArray_eq, hl, Option.elim, hq, Option.map_some, des_init_card]; rfl⟩
  · intro k mode
    exact ⟨_, by simp only [step, sem, hq, Option.map_some, DESCipher.initDefault, des_init_card]; rfl⟩
  · intro r off len r' off' l l' hl hl'
    refine ⟨_, by simp only [step, sem, onArray_eq, hl, hl', Option.elim, hq, Option.map_some]; rfl, ?_⟩
    unfold listAt
    rw [put_two_first _ _ _ (listAt_ne hl' (by simp [hq, kind]))]

theorem card_rsa_step {env : CryptoEnv} {fuel : Nat} {w : Card} {c : Nat} {x : RSACipher} (hx : w c = .rsa x) (s : Step) (e : Eff)
    (he : sem env fuel w s = some e) :
    (∀ a, rsaCall c w s = some a → e.1 = ((x.init a.heap a.key a.mode).1.map fun _ => .nothing) ∧ w.put e.2 c = .rsa (x.init a.heap a.key a.mode).2) ∧
    (rsaCall c w s = none → w.put e.2 c = .rsa x) := by
  have hu : kind (w c) ∉ changes s → w.put e.2 c = .rsa x := fun h => by rw [unchanged he (by simp [hx, kind]) h, hx]
  cases s
  case getCipher j args =>
    simp only [sem, Option.some.injEq] at he
    subst he
    refine ⟨fun op h => by simp [rsaCall] at h, fun _ => ?_⟩
    have hm : ∀ o, w.put (make w j o).2 c = .rsa x := fun o => make_ind (P := fun e => w.put e.2 c = .rsa x) hx fun hf => by
      rw [put_one_ne _ _ (fun e => by rw [e, hx] at hf; simp at hf), hx]
    split
    · exact hx
    · exact hm _
    · exact hm _
  case rsaInit j k mode =>
    simp only [sem, Option.some.injEq] at he
    subst he
    simp only [rsaCall]
    by_cases hj : j = c
    · subst hj
      rw [if_pos rfl]
      refine ⟨fun op h => ?_, fun h => by simp at h⟩
      simp only [Option.some.injEq] at h
      subst h
      simp only [hx]
      rw [rsa_init_card]
      exact ⟨rfl, put_one _ _ _⟩
    · rw [if_neg hj]
      refine ⟨fun op h => by simp at h, fun _ => ?_⟩
      split
      · rw [put_one_ne _ _ hj, hx]
      · exact hx
  all_goals exact ⟨fun op h => by simp [rsaCall] at h, fun _ => hu (by simp [hx, kind, changes])⟩

/-- **C116** (RSA ciphers). On a card, an RSA cipher is in the state its own calls of `init` put it in, each with the key as it was at that moment; `doFinal`
answers, and writes, what the cipher of that history does with the keys as they are when it is called. -/
theorem C116_rsa {env : CryptoEnv} {fuel : Nat} {w : Card} {prog : List Step} {outs : List (Except Err Card.Out)} {w' : Card}
    (h : run env fuel w prog = some (outs, w')) {c : Nat} {x : RSACipher} (hx : w c = .rsa x) :
    let q := rsaInits x (historyOf (rsaCall c) env fuel w prog)
    w' c = .rsa q ∧
    (∀ k mode, ∃ w'', step env fuel w' (.rsaInit c k mode) = some ((q.init (keysOn w') (keyArgAt w' k) mode).1.map fun _ => .nothing, w'')) ∧
    ∀ rnd r off len r' off' l l', listAt w' r = some l → listAt w' r' = some l' →
      (step env fuel w' (.rsaFinal c rnd r off len r' off')).map (fun y => (y.1, listAt y.2 r')) =
        (q.doFinal (keysOn w') env.ops env.longSuffix rnd l off len l' off').map fun y => (y.1.map .int, some y.2) := by
  intro q
  have hq : w' c = .rsa q := by
    refine history_ind (rsaCall c) (fun ops v => v c = .rsa (rsaInits x ops)) ?_ prog [] w outs w' h hx
    intro ops v s e hv he
    have := card_rsa_step hv s e he
    cases hc : rsaCall c v s with
    | none => simpa using this.2 hc
    | some op =>
      rw [(this.1 op hc).2]
      simp [rsaInits]
  refine ⟨hq, ?_, ?_⟩
  · intro k mode
    exact ⟨_, by simp only [step, sem, hq, Option.map_some, rsa_init_card]; rfl⟩
  · intro rnd r off len r' off' l l' hl hl'
    have hh : q.doFinal (keyArg w' q.theKey).2 env.ops env.longSuffix rnd l off len l' off' = q.doFinal (keysOn w') env.ops env.longSuffix rnd l off len l' off' := by
      have hm : q.theKey.map (keyArg w' q.theKey).2 = q.theKey.map (keysOn w') := by
        cases q.theKey with
        | none => rfl
        | some r =>
          simp only [Option.map_some, keyArg, keysOn]
          cases w' r <;> rfl
      unfold RSACipher.doFinal
      rw [hm]
    have hr : w' r = .array l := by
      unfold listAt at hl
      split at hl
      · next hh => rw [hh]; simp only [Option.some.injEq] at hl; rw [hl]
      · simp at hl
    have hr' : w' r' = .array l' := by
      unfold listAt at hl'
      split at hl'
      · next hh => rw [hh]; simp only [Option.some.injEq] at hl'; rw [hl']
      · simp at hl'
    simp only [step, sem, hq, hr, hr']
    rw [hh]
    cases q.doFinal (keysOn w') env.ops env.longSuffix rnd l off len l' off' with
    | none => rfl
    | some y =>
      simp only [Option.map_some, listAt, put_one]

/-! ### Programs that meet the hypotheses

One card with a digest, two numbers, an RSA key, a DES key, a DES cipher and an RSA cipher, and a program that uses them all, interleaved. -/

private def witEnv : CryptoEnv := ⟨true, true, ⟨fun _ y => .ok y.toNat, fun _ y => .ok y.toNat⟩, fun _ m => m.take 2⟩

private def witCard : Card := blank.put [(1, .array [1, 2, 3, 4, 5, 6, 7, 8]), (2, .array (List.replicate 64 9)), (3, .digest ⟨1, []⟩), (4, .big (⟨some 4, none⟩)),
  (5, .key (.rsa (RSAKey.new true 512))), (6, .key (.des (DESKey.new 3 64))), (7, .des (DESCipher.new 1)), (8, .rsa (RSACipher.new 10))]

private def witProg : List Step :=
  [.digestUpdate 3 1 0 3, .bigInit 4 (some 1) 0 2 2, .setRSA 5 true 1 0 3, .setKey 6 1 0, .store 1 0 77, .bigOp .add 4 (some 1) 0 1 2, .desInit 7 (some 6) 2 1 0 8,
   .digestUpdate 3 1 7 4, .desFinal 7 1 0 8 2 0, .rsaInit 8 (some 6) 2, .setRSA 5 false 2 0 64, .rsaInit 8 (some 5) 2, .digestUpdate 3 1 4 1, .store 2 0 5]

example : (run witEnv 0 witCard witProg).map (·.1) = some
    [.ok .nothing, .ok .nothing, .ok .nothing, .ok .nothing, .ok .nothing, .ok .nothing, .ok .nothing, .error .nameError, .ok (.int 8), .error (.crypto 1),
     .ok .nothing, .ok .nothing, .ok .nothing, .ok .nothing] := by decide +kernel

example : witCard 3 = .digest ⟨1, []⟩ ∧ witCard 4 = .big ⟨some 4, none⟩ ∧ witCard 5 = .key (.rsa (RSAKey.new true 512)) ∧ witCard 7 = .des (DESCipher.new 1) ∧
    witCard 8 = .rsa (RSACipher.new 10) := ⟨rfl, rfl, rfl, rfl, rfl⟩

/-- What `C116_digest`, `C116_number` and `C116_key` say after it: the digest holds the bytes of its two updates that succeeded, the number is 01 02 plus 77, and the key is
initialised. -/
example {outs : List (Except Err Card.Out)} {w' : Card} (h : run witEnv 0 witCard witProg = some (outs, w')) :
    w' 3 = .digest ⟨1, [1, 2, 3, 5]⟩ ∧ w' 4 = .big ⟨some 4, some 335⟩ ∧ step witEnv 0 w' (.askKey 5 .isInitialized) = some (.ok (.bool true), w') := by
  refine ⟨(C116_digest h (d := 3) (x := ⟨1, []⟩) rfl).1.trans (congrArg Obj.digest ?_), (C116_number h (b := 4) (x := ⟨some 4, none⟩) rfl).1.trans (congrArg Obj.big ?_),
    (C116_key h (k := 5) (x := RSAKey.new true 512) rfl).2.2.1.trans (congrArg (fun b : Bool => some ((Except.ok (Card.Out.bool b) : Except Err Card.Out), w')) ?_)⟩
  · decide +kernel
  · decide +kernel
  · decide +kernel

/-- And `C116_des` and `C116_rsa`: each cipher had two calls, of which the RSA cipher's first failed. -/
example {outs : List (Except Err Card.Out)} {w' : Card} (h : run witEnv 0 witCard witProg = some (outs, w')) :
    w' 7 = .des ((historyOf (desCall 7) witEnv 0 witCard witProg).foldl DCall.step (DESCipher.new 1)) ∧ (historyOf (desCall 7) witEnv 0 witCard witProg).length = 2 ∧
    w' 8 = .rsa (rsaInits (RSACipher.new 10) (historyOf (rsaCall 8) witEnv 0 witCard witProg)) ∧ (historyOf (rsaCall 8) witEnv 0 witCard witProg).length = 2 :=
  ⟨(C116_des h rfl).1, by decide +kernel, (C116_rsa h rfl).1, by decide +kernel⟩

end Verif.Props
