import Verif.Props.TLV
/-! C103: the searches in a constructed TLV either return after a bounded number of children or never. -/
namespace Verif.Props
open Verif.Py Verif.Model Verif.Spec

/-- More pigeons than holes. -/
theorem pigeon (n : Nat) (f : Nat → Nat) (h : ∀ k, k ≤ n → f k < n) : ∃ i j, i < j ∧ j ≤ n ∧ f i = f j := by
  induction n generalizing f with
  | zero => exact absurd (h 0 (Nat.le_refl _)) (Nat.not_lt_zero _)
  | succ n ih =>
    by_cases hc : ∃ i, i ≤ n ∧ f i = f (n + 1)
    · obtain ⟨i, hi, e⟩ := hc
      exact ⟨i, n + 1, by omega, by omega, e⟩
    · have hne : ∀ i, i ≤ n → f i ≠ f (n + 1) := fun i hi e => hc ⟨i, hi, e⟩
      obtain ⟨i, j, hij, hj, e⟩ := ih (fun k => if f k = n then f (n + 1) else f k) (by
        intro k hk
        have h1 := h k (by omega)
        have h2 := h (n + 1) (by omega)
        have h3 := hne k hk
        show (if f k = n then f (n + 1) else f k) < n
        split <;> omega)
      refine ⟨i, j, hij, by omega, ?_⟩
      have h1 := hne i (by omega)
      have h2 := hne j (by omega)
      split at e <;> split at e <;> omega

/-- A deterministic process does at least `k` steps from `s`. -/
def Runs {σ : Type} (nxt : σ → Option σ) : σ → Nat → Prop
  | _, 0 => True
  | s, k + 1 => ∃ s', nxt s = some s' ∧ Runs nxt s' k

theorem runs_path {σ : Type} (nxt : σ → Option σ) (k : Nat) (s : σ) (h : Runs nxt s k) :
    ∃ f : Nat → σ, f 0 = s ∧ ∀ m, m < k → nxt (f m) = some (f (m + 1)) := by
  induction k generalizing s with
  | zero => exact ⟨fun _ => s, rfl, fun m hm => by omega⟩
  | succ k ih =>
    obtain ⟨s', e, h'⟩ := h
    obtain ⟨f, f0, hf⟩ := ih s' h'
    refine ⟨fun m => match m with | 0 => s | m + 1 => f m, rfl, ?_⟩
    intro m hm
    cases m with
    | zero => simp only; rw [e, f0]
    | succ m => exact hf m (by omega)

/-- A process with at most `M` states from which it goes on, and which has made more than `M` steps, never stops. -/
theorem runs_forever {σ : Type} (nxt : σ → Option σ) (code : σ → Nat) (M : Nat) (hlt : ∀ s s', nxt s = some s' → code s < M)
    (hinj : ∀ s s' t t', nxt s = some s' → nxt t = some t' → code s = code t → s = t) (s : σ) (h : Runs nxt s (M + 1)) :
    ∀ k, Runs nxt s k := by
  obtain ⟨f, f0, hf⟩ := runs_path nxt _ s h
  obtain ⟨i, j, hij, hj, e⟩ := pigeon M (fun k => code (f k)) (fun k hk => hlt _ _ (hf k (by omega)))
  have e : f i = f j := hinj _ _ _ _ (hf i (by omega)) (hf j (by omega)) e
  have key : ∀ k m, m ≤ j → Runs nxt (f m) k := by
    intro k
    induction k with
    | zero => intro m _; trivial
    | succ k ih =>
      intro m hm
      by_cases hmj : m < j
      · exact ⟨_, hf m (by omega), ih (m + 1) (by omega)⟩
      · have : m = j := by omega
        subst this
        rw [← e]
        exact ⟨_, hf i (by omega), ih (i + 1) (by omega)⟩
  intro k
  rw [← f0]
  exact key k 0 (by omega)

/-- Where a TLV can be read there is a cell. -/
theorem getInstance_inside (l : List Int) (o : Int) (t : BERTLV) (h : BERTLV.getInstance l o none = .ok t) :
    -(l.length : Int) ≤ o ∧ o < l.length := by
  by_cases hc : -(l.length : Int) ≤ o ∧ o < l.length
  · exact hc
  · exfalso
    have hg : Verif.Py.get l o = .error .indexError := by
      unfold Verif.Py.get idx
      by_cases h0 : 0 ≤ o
      · rw [if_pos h0, if_neg (by omega)]
      · rw [if_neg h0, if_neg (by omega)]
    have hb : BERTag.getInstance l o = .error .arrayIndexOutOfBounds := by
      unfold BERTag.getInstance
      rw [hg]
      rfl
    have : BERTLV.getInstance l o none = .error .arrayIndexOutOfBounds := by
      unfold BERTLV.getInstance BERTLV.getLengthStatic
      simp only [bind, Except.bind, hb]
    rw [this] at h
    cases h

/-- The next offset the search looks at, if it goes on. -/
def nextOffset (t : BERTLV) (w : BERTag) (o : Int) : Option Int :=
  if o < t.length then
    match BERTLV.getInstance (t.value.getD []) o none with
    | .error _ => none
    | .ok tlv =>
      match tlv.tag with
      | none => none
      | some a => if a.eq w then none else
        match tlv.size with
        | .error _ => none
        | .ok n => some (o + n)
  else none

theorem nextOffset_inside (t : BERTLV) (w : BERTag) (o o' : Int) (h : nextOffset t w o = some o') :
    -((t.value.getD []).length : Int) ≤ o ∧ o < (t.value.getD []).length := by
  unfold nextOffset at h
  split at h
  · split at h
    · cases h
    · next hg => exact getInstance_inside _ _ _ hg
  · cases h

theorem find__step (t : BERTLV) (w : BERTag) (o : Int) (k : Nat) :
    (∃ o', nextOffset t w o = some o' ∧ t.find_ (some w) o (k + 1) = t.find_ (some w) o' k) ∨
    (nextOffset t w o = none ∧ ∃ r, t.find_ (some w) o (k + 1) = some r ∧ ∀ k', t.find_ (some w) o (k' + 1) = some r) := by
  unfold nextOffset
  by_cases hl : o < t.length
  · rw [if_pos hl]
    cases hg : BERTLV.getInstance (t.value.getD []) o none with
    | error e => right; refine ⟨rfl, .error e, ?_, ?_⟩ <;> (try intro k') <;> unfold BERTLV.find_ <;> rw [if_pos hl, hg]
    | ok tlv =>
      simp only
      cases htg : tlv.tag with
      | none =>
        right
        refine ⟨rfl, .error .attributeError, ?_, ?_⟩ <;> (try intro k') <;> unfold BERTLV.find_ <;> rw [if_pos hl, hg] <;> simp only [htg]
      | some a =>
        simp only
        by_cases hw : a.eq w = true
        · rw [if_pos hw]
          right
          refine ⟨rfl, .ok o, ?_, ?_⟩ <;> (try intro k') <;> unfold BERTLV.find_ <;> rw [if_pos hl, hg] <;> simp only [htg] <;> rw [if_pos hw]
        · rw [if_neg hw]
          cases hs : tlv.size with
          | error e =>
            right
            refine ⟨rfl, .error e, ?_, ?_⟩ <;> (try intro k') <;> unfold BERTLV.find_ <;> rw [if_pos hl, hg] <;> simp only [htg] <;> rw [if_neg hw, hs]
          | ok n =>
            left
            refine ⟨_, rfl, ?_⟩
            rw [BERTLV.find_, if_pos hl, hg]
            simp only [htg]
            rw [if_neg hw, hs]
  · rw [if_neg hl]
    right
    refine ⟨rfl, .ok (-1), ?_, ?_⟩ <;> (try intro k') <;> unfold BERTLV.find_ <;> rw [if_neg hl]

theorem find__none_iff (t : BERTLV) (w : BERTag) (k : Nat) (o : Int) : t.find_ (some w) o k = none ↔ Runs (nextOffset t w) o k := by
  induction k generalizing o with
  | zero => exact ⟨fun _ => trivial, fun _ => rfl⟩
  | succ k ih =>
    rcases find__step t w o k with ⟨o', e, e2⟩ | ⟨e, r, e2, _⟩
    · rw [e2, ih]
      constructor
      · intro h; exact ⟨o', e, h⟩
      · rintro ⟨o'', e'', h⟩; rw [e] at e''; injection e'' with e''; rw [e'']; exact h
    · rw [e2]
      constructor
      · intro h; cases h
      · rintro ⟨o'', e'', _⟩; rw [e] at e''; cases e''

theorem find__mono (t : BERTLV) (w : BERTag) (k k' : Nat) (hk : k ≤ k') (o : Int) (r : Except Err Int) (h : t.find_ (some w) o k = some r) :
    t.find_ (some w) o k' = some r := by
  induction k generalizing o k' with
  | zero => cases h
  | succ k ih =>
    obtain ⟨k'', rfl⟩ : ∃ k'', k' = k'' + 1 := ⟨k' - 1, by omega⟩
    rcases find__step t w o k with ⟨o', e, e2⟩ | ⟨e, r', e2, e3⟩
    · rcases find__step t w o k'' with ⟨o'', f, f2⟩ | ⟨f, _⟩
      · rw [e] at f; injection f with f; subst f
        rw [f2]; rw [e2] at h
        exact ih _ (by omega) _ h
      · rw [e] at f; cases f
    · rw [e2] at h; rw [e3 k'', h]

/-- The number of looks after which a search has decided: two for every cell of the value, and one more. -/
def looks (t : BERTLV) : Nat := 2 * (t.value.getD []).length + 1

theorem find__decided (t : BERTLV) (w : BERTag) (o : Int) :
    (∃ r, ∀ k, looks t ≤ k → t.find_ (some w) o k = some r) ∨ (∀ k, t.find_ (some w) o k = none) := by
  cases h : t.find_ (some w) o (looks t) with
  | some r => left; exact ⟨r, fun k hk => find__mono t w _ k hk o r h⟩
  | none =>
    right
    intro k
    rw [find__none_iff] at h ⊢
    generalize hn : (t.value.getD []).length = n
    refine runs_forever (nextOffset t w) (fun o => (o + n).toNat) (2 * n) ?_ ?_ o (by rw [looks, hn] at h; exact h) k
    · intro s s' hs
      have := nextOffset_inside t w s s' hs
      rw [hn] at this
      show (s + n).toNat < 2 * n
      omega
    · intro s s' u u' hs hu e
      have h1 := nextOffset_inside t w s s' hs
      have h2 := nextOffset_inside t w u u' hu
      rw [hn] at h1 h2
      omega

/-- C103. `find` gives its answer after looking at no more than `2·n + 1` children, `n` the number of cells of the value, or never. -/
theorem C103_find (t : BERTLV) (tag : Option BERTag) :
    (∃ r, ∀ k, looks t ≤ k → t.find tag k = some r) ∨ (∀ k, t.find tag k = none) := by
  unfold BERTLV.find
  by_cases hc : t.constructed = true
  case neg => left; exact ⟨_, fun k _ => by rw [if_pos hc]⟩
  have hc' : ¬ ¬ t.constructed = true := fun h => h hc
  simp only [if_neg hc']
  cases tag with
  | none => left; simp only; split <;> exact ⟨_, fun _ _ => rfl⟩
  | some w =>
    simp only
    rcases find__decided t w 0 with ⟨r, h⟩ | h
    · left
      cases r with
      | error e => exact ⟨_, fun k hk => by rw [h k hk]⟩
      | ok o =>
        by_cases ho : o = -1
        · exact ⟨_, fun k hk => by rw [h k hk]; simp only; rw [if_pos ho]⟩
        · exact ⟨_, fun k hk => by rw [h k hk]; simp only; rw [if_neg ho]⟩
    · right; intro k; rw [h k]

/-- C103. The static `find` likewise, with the array's own length. -/
theorem C103_static_find (arr : List Int) (o : Int) (ta : Option (List Int)) (to : Int) :
    (∃ r, ∀ k, 2 * arr.length + 1 ≤ k → BERTLV.findStatic arr o ta to k = some r) ∨ (∀ k, BERTLV.findStatic arr o ta to k = none) := by
  cases hg : BERTLV.getInstance arr o none with
  | error e => left; exact ⟨.error e, fun k _ => by unfold BERTLV.findStatic; rw [hg]⟩
  | ok t =>
    have hlen : (t.value.getD []).length ≤ arr.length := by
      have : ∃ a b, t.value = some (slice arr a b) := by
        unfold BERTLV.getInstance BERTLV.getLengthStatic at hg
        simp only [bind, Except.bind] at hg
        cases h1 : BERTag.getInstance arr o with
        | error e => rw [h1] at hg; cases hg
        | ok tg =>
          rw [h1] at hg
          simp only at hg
          cases h2 : getLengthField (sliceFrom arr (o + tg.size)) with
          | error e => rw [h2] at hg; cases hg
          | ok p =>
            rw [h2] at hg
            simp only at hg
            injection hg with hg
            rw [← hg]
            exact ⟨_, _, rfl⟩
      obtain ⟨a, b, e⟩ := this
      rw [e]
      simp only [Option.getD_some, slice, List.length_take, List.length_drop]
      omega
    unfold BERTLV.findStatic
    simp only [hg]
    cases htg : t.tag with
    | none => left; exact ⟨_, fun k _ => rfl⟩
    | some tag =>
      simp only
      cases ta with
      | none => left; simp only; split <;> exact ⟨_, fun _ _ => rfl⟩
      | some ta =>
        simp only
        by_cases hc : t.constructed = true
        case neg => left; exact ⟨_, fun k _ => by rw [if_pos hc]⟩
        have hc' : ¬ ¬ t.constructed = true := fun h => h hc
        simp only [if_neg hc']
        cases hb : BERTag.getInstance ta to with
        | error e => left; exact ⟨_, fun _ _ => rfl⟩
        | ok w =>
          simp only
          rcases find__decided t w 0 with ⟨r, h⟩ | h
          · left
            have h : ∀ k, 2 * arr.length + 1 ≤ k → t.find_ (some w) 0 k = some r := fun k hk => h k (by unfold looks; omega)
            cases r with
            | error e => exact ⟨_, fun k hk => by rw [h k hk]⟩
            | ok o' =>
              by_cases ho : o' = -1
              · exact ⟨_, fun k hk => by rw [h k hk]; simp only; rw [if_pos ho]⟩
              · exact ⟨_, fun k hk => by rw [h k hk]; simp only; rw [if_neg ho]⟩
          · right; intro k; rw [h k]

/-! ### `findNext` -/

/-- The next state of the counting loop of `findNext`: the number of occurrences counted and the offset; a search that never returns stays
where it is. -/
def nextSkip (t : BERTLV) (w : BERTag) (v : Option (List Int)) (occ : Int) (s : Int × Int) : Option (Int × Int) :=
  if 0 ≤ s.1 ∧ s.1 < occ then
    match t.find_ (some w) s.2 (looks t) with
    | none => some s
    | some (.error _) => none
    | some (.ok o) =>
      if o = -1 then none
      else
        match BERTLV.getInstance (t.value.getD []) o none with
        | .error _ => none
        | .ok tlv =>
          match tlv.size with
          | .error _ => none
          | .ok n => some (if tlv.value = v then s.1 + 1 else s.1, o + n)
  else none

theorem find__ok_inside (t : BERTLV) (w : BERTag) (k : Nat) (o o' : Int) (h : t.find_ (some w) o k = some (.ok o')) (hne : o' ≠ -1) :
    -((t.value.getD []).length : Int) ≤ o ∧ o < (t.value.getD []).length := by
  cases k with
  | zero => cases h
  | succ k =>
    unfold BERTLV.find_ at h
    split at h
    · split at h
      · cases h
      · next hg => exact getInstance_inside _ _ _ hg
    · injection h with h; injection h with h; exact absurd h.symm hne

theorem nextSkip_inside (t : BERTLV) (w : BERTag) (v : Option (List Int)) (occ : Int) (s s' : Int × Int) (h : nextSkip t w v occ s = some s') :
    0 ≤ s.1 ∧ s.1 < occ ∧ -((t.value.getD []).length : Int) ≤ s.2 ∧ s.2 < (t.value.getD []).length := by
  unfold nextSkip at h
  by_cases hi : 0 ≤ s.1 ∧ s.1 < occ
  · rw [if_pos hi] at h
    refine ⟨hi.1, hi.2, ?_⟩
    cases hf : t.find_ (some w) s.2 (looks t) with
    | none =>
      rw [find__none_iff] at hf
      unfold looks at hf
      obtain ⟨o', e, _⟩ := hf
      exact nextOffset_inside t w _ _ e
    | some r =>
      rw [hf] at h
      cases r with
      | error e => cases h
      | ok o =>
        simp only at h
        by_cases ho : o = -1
        · rw [if_pos ho] at h; cases h
        · exact find__ok_inside t w _ _ o hf ho
  · rw [if_neg hi] at h; cases h

theorem nextSkip_step (t : BERTLV) (w : BERTag) (v : Option (List Int)) (occ i o : Int) (r : Except Err Int) (hi : 0 ≤ i) (hlt : i < occ)
    (e2 : t.find_ (some w) o (looks t) = some r) : nextSkip t w v occ (i, o) =
      (match (generalizing := false) r with
      | .error _ => none
      | .ok o =>
        if o = -1 then none
        else
          match BERTLV.getInstance (t.value.getD []) o none with
          | .error _ => none
          | .ok tlv =>
            match tlv.size with
            | .error _ => none
            | .ok n => some (if tlv.value = v then i + 1 else i, o + n)) := by
  unfold nextSkip
  rw [if_pos (show 0 ≤ (i, o).1 ∧ (i, o).1 < occ from ⟨hi, hlt⟩)]
  simp only
  rw [e2]
  cases r <;> rfl

theorem skipLoop_none_iff (t : BERTLV) (w : BERTag) (v : Option (List Int)) (occ : Int) (ff : Nat) (hff : looks t ≤ ff) (k : Nat) (i o : Int)
    (hi : 0 ≤ i) : t.skipLoop (some w) v occ i o ff k = none ↔ Runs (nextSkip t w v occ) (i, o) k := by
  induction k generalizing i o with
  | zero => exact ⟨fun _ => trivial, fun _ => rfl⟩
  | succ k ih =>
    unfold BERTLV.skipLoop
    by_cases hlt : i < occ
    · rw [if_pos hlt]
      rcases find__decided t w o with ⟨r, h⟩ | h
      · have e1 : t.find_ (some w) o ff = some r := h ff hff
        have e2 : t.find_ (some w) o (looks t) = some r := h _ (Nat.le_refl _)
        have stop : nextSkip t w v occ (i, o) = none → ¬ Runs (nextSkip t w v occ) (i, o) (k + 1) := by
          intro e h
          obtain ⟨s', e', _⟩ := h
          rw [e] at e'; cases e'
        have unf := nextSkip_step t w v occ i o r hi hlt e2
        rw [e1]
        cases r with
        | error e => exact ⟨(fun h => nomatch h), fun h => absurd h (stop unf)⟩
        | ok o' =>
          simp only at unf ⊢
          by_cases ho : o' = -1
          · rw [if_pos ho] at unf ⊢
            exact ⟨(fun h => nomatch h), fun h => absurd h (stop unf)⟩
          · rw [if_neg ho] at unf ⊢
            cases hg : BERTLV.getInstance (t.value.getD []) o' none with
            | error e => rw [hg] at unf; exact ⟨(fun h => nomatch h), fun h => absurd h (stop unf)⟩
            | ok tlv =>
              rw [hg] at unf
              simp only at unf ⊢
              cases hs : tlv.size with
              | error e => rw [hs] at unf; exact ⟨(fun h => nomatch h), fun h => absurd h (stop unf)⟩
              | ok n =>
                rw [hs] at unf
                simp only at unf ⊢
                rw [ih _ _ (by split <;> omega)]
                constructor
                · intro h; exact ⟨_, unf, h⟩
                · rintro ⟨s', e', h⟩; rw [unf] at e'; injection e' with e'; rw [e']; exact h
      · rw [h ff]
        have unf : nextSkip t w v occ (i, o) = some (i, o) := by
          unfold nextSkip
          rw [if_pos ⟨hi, hlt⟩]
          simp only
          rw [h]
        have all : ∀ k, Runs (nextSkip t w v occ) (i, o) k := by
          intro k
          induction k with
          | zero => trivial
          | succ k ih => exact ⟨_, unf, ih⟩
        exact ⟨fun _ => all _, fun _ => rfl⟩
    · rw [if_neg hlt]
      constructor
      · intro h; cases h
      · rintro ⟨s', e', _⟩
        unfold nextSkip at e'
        rw [if_neg (fun h => hlt h.2)] at e'
        cases e'

theorem skipLoop_mono (t : BERTLV) (w : BERTag) (v : Option (List Int)) (occ : Int) (ff ff' : Nat) (hff : ff ≤ ff') (k k' : Nat) (hk : k ≤ k') (i o : Int)
    (r : Except Err (Option Int)) (h : t.skipLoop (some w) v occ i o ff k = some r) : t.skipLoop (some w) v occ i o ff' k' = some r := by
  induction k generalizing i o k' with
  | zero => cases h
  | succ k ih =>
    obtain ⟨k'', rfl⟩ : ∃ k'', k' = k'' + 1 := ⟨k' - 1, by omega⟩
    unfold BERTLV.skipLoop at h ⊢
    by_cases hlt : i < occ
    · rw [if_pos hlt] at h ⊢
      cases hf : t.find_ (some w) o ff with
      | none => rw [hf] at h; cases h
      | some q =>
        rw [find__mono t w ff ff' hff o q hf]
        rw [hf] at h
        cases q with
        | error e => exact h
        | ok o' =>
          simp only at h ⊢
          by_cases ho : o' = -1
          · rw [if_pos ho] at h ⊢; exact h
          · rw [if_neg ho] at h ⊢
            cases hg : BERTLV.getInstance (t.value.getD []) o' none with
            | error e => rw [hg] at h; exact h
            | ok tlv =>
              rw [hg] at h
              simp only at h ⊢
              cases hs : tlv.size with
              | error e => rw [hs] at h; exact h
              | ok n =>
                rw [hs] at h
                exact ih _ (by omega) _ _ h
    · rw [if_neg hlt] at h ⊢; exact h

/-- The number of looks after which `findNext` has decided. -/
def looksNext (t : BERTLV) (occ : Int) : Nat := occ.toNat * (2 * (t.value.getD []).length) + looks t

theorem skipLoop_decided (t : BERTLV) (w : Option BERTag) (v : Option (List Int)) (occ : Int) :
    (∃ r, ∀ k, looksNext t occ ≤ k → t.skipLoop w v occ 0 0 k k = some r) ∨ (∀ k, t.skipLoop w v occ 0 0 k k = none) := by
  cases w with
  | none =>
    left
    have hf : ∀ k, 0 < k → t.find_ none 0 k = t.find_ none 0 1 ∧ (∃ e, t.find_ none 0 1 = some (.error e) ∨ t.find_ none 0 1 = some (.ok (-1))) := by
      intro k hk
      obtain ⟨k, rfl⟩ : ∃ j, k = j + 1 := ⟨k - 1, by omega⟩
      unfold BERTLV.find_
      by_cases hl : 0 < t.length
      · rw [if_pos hl, if_pos hl]
        cases hg : BERTLV.getInstance (t.value.getD []) 0 none with
        | error e => exact ⟨rfl, e, .inl rfl⟩
        | ok tlv =>
          simp only
          cases tlv.tag <;> exact ⟨rfl, .attributeError, .inl rfl⟩
      · rw [if_neg hl, if_neg hl]; exact ⟨rfl, .attributeError, .inr rfl⟩
    refine ⟨if 0 < occ then (match t.find_ none 0 1 with | some (.error e) => .error e | _ => .ok none) else .ok (some 0), ?_⟩
    intro k hk
    have hk0 : 0 < k := by unfold looksNext looks at hk; omega
    obtain ⟨e1, e, e2⟩ := hf k hk0
    obtain ⟨k, rfl⟩ : ∃ j, k = j + 1 := ⟨k - 1, by omega⟩
    rw [BERTLV.skipLoop]
    by_cases ho : 0 < occ
    · rw [if_pos ho, if_pos ho, e1]
      rcases e2 with e2 | e2 <;> rw [e2] <;> rfl
    · rw [if_neg ho, if_neg ho]
  | some w =>
    cases h : t.skipLoop (some w) v occ 0 0 (looksNext t occ) (looksNext t occ) with
    | some r => left; exact ⟨r, fun k hk => skipLoop_mono t w v occ _ k hk _ k hk 0 0 r h⟩
    | none =>
      right
      have hlk : looks t ≤ looksNext t occ := by unfold looksNext; omega
      have hr := (skipLoop_none_iff t w v occ _ hlk _ 0 0 (by omega)).1 h
      generalize hn : (t.value.getD []).length = n at *
      have all : ∀ k, Runs (nextSkip t w v occ) (0, 0) k := by
        refine runs_forever (nextSkip t w v occ) (fun s => s.1.toNat * (2 * n) + (s.2 + n).toNat) (occ.toNat * (2 * n)) ?_ ?_ (0, 0) ?_
        · intro s s' hs
          have hb := nextSkip_inside t w v occ s s' hs
          rw [hn] at hb
          show s.1.toNat * (2 * n) + (s.2 + n).toNat < occ.toNat * (2 * n)
          have h1 : (s.2 + n).toNat < 2 * n := by omega
          have h2 : s.1.toNat + 1 ≤ occ.toNat := by omega
          have h3 := Nat.mul_le_mul_right (2 * n) h2
          rw [Nat.add_mul] at h3
          omega
        · intro s s' u u' hs hu e
          have hb := nextSkip_inside t w v occ s s' hs
          have hc := nextSkip_inside t w v occ u u' hu
          rw [hn] at hb hc
          have h1 : (s.2 + n).toNat < 2 * n := by omega
          have h2 : (u.2 + n).toNat < 2 * n := by omega
          have e : (2 * n) * s.1.toNat + (s.2 + n).toNat = (2 * n) * u.1.toNat + (u.2 + n).toNat := by
            rw [Nat.mul_comm (2 * n), Nat.mul_comm (2 * n)]; exact e
          have q : s.1.toNat = u.1.toNat := by
            have := congrArg (· / (2 * n)) e
            simp only [Nat.mul_add_div (show 0 < 2 * n by omega), Nat.div_eq_of_lt h1, Nat.div_eq_of_lt h2] at this
            omega
          rw [q] at e
          have e1 : s.1 = u.1 := by omega
          have e2 : s.2 = u.2 := by omega
          cases s; cases u; simp_all
        · have : ∀ j k, Runs (nextSkip t w v occ) (0, 0) (j + k) → Runs (nextSkip t w v occ) (0, 0) k := by
            intro j k
            generalize ((0 : Int), (0 : Int)) = s
            induction k generalizing s with
            | zero => intro _; trivial
            | succ k ih => rintro ⟨s', e, h⟩; exact ⟨s', e, ih s' h⟩
          refine this (2 * n) _ ?_
          rw [looksNext, looks, hn] at hr
          rw [show 2 * n + (occ.toNat * (2 * n) + 1) = occ.toNat * (2 * n) + (2 * n + 1) by omega]
          exact hr
      intro k
      by_cases hk : looks t ≤ k
      · exact (skipLoop_none_iff t w v occ k hk k 0 0 (by omega)).2 (all k)
      · cases hx : t.skipLoop (some w) v occ 0 0 k k with
        | none => rfl
        | some r =>
          have := skipLoop_mono t w v occ k (looksNext t occ) (by omega) k (looksNext t occ) (by omega) 0 0 r hx
          rw [h] at this; cases this

/-- C103. `findNext` gives its answer after looking at no more than `2·n·occ + 2·n + 1` children in each of its loops, or never. -/
theorem C103_findNext (t : BERTLV) (tag : Option BERTag) (aTLV : BERTLV) (occ : Int) :
    (∃ r, ∀ k, looksNext t occ ≤ k → t.findNext tag aTLV occ k = some r) ∨ (∀ k, looksNext t occ ≤ k → t.findNext tag aTLV occ k = none) := by
  unfold BERTLV.findNext
  by_cases hc : t.constructed = true
  case neg => left; exact ⟨_, fun k _ => by rw [if_pos hc]⟩
  have hc' : ¬ ¬ t.constructed = true := fun h => h hc
  simp only [if_neg hc']
  rcases skipLoop_decided t aTLV.tag aTLV.value occ with ⟨r, h⟩ | h
  · cases r with
    | error e => left; exact ⟨_, fun k hk => by rw [h k hk]⟩
    | ok r =>
      cases r with
      | none => left; exact ⟨_, fun k hk => by rw [h k hk]⟩
      | some o =>
        cases tag with
        | none =>
          left
          cases hv : t.value <;> exact ⟨_, fun k hk => by rw [h k hk]⟩
        | some w =>
          rcases find__decided t w o with ⟨q, h2⟩ | h2
          · left
            have h2 : ∀ k, looksNext t occ ≤ k → t.find_ (some w) o k = some q := fun k hk => h2 k (by unfold looksNext at hk; omega)
            cases q with
            | error e => exact ⟨_, fun k hk => by rw [h k hk]; simp only; rw [h2 k hk]⟩
            | ok o' =>
              by_cases ho : o' = -1
              · exact ⟨_, fun k hk => by rw [h k hk]; simp only; rw [h2 k hk]; simp only; rw [if_pos ho]⟩
              · exact ⟨_, fun k hk => by rw [h k hk]; simp only; rw [h2 k hk]; simp only; rw [if_neg ho]⟩
          · right
            intro k hk
            rw [h k hk]
            simp only
            rw [h2 k]
  · right; intro k _; rw [h k]

/-- C103, refuted "the occurrences counted are different children": the TLV read from the five bytes 30 03 04 81 FE has one child, whose size
is 0; `findNext` counts it as often as it is asked to, and answers with it again. -/
theorem C103_counts_again :
    ∃ t child, BERTLV.getInstance [0x30, 3, 4, -127, -2] 0 none = .ok t ∧ BERTLV.getInstance (t.value.getD []) 0 none = .ok child ∧
      child.size = .ok 0 ∧ ∀ (occ : Nat) fuel, occ < fuel → t.findNext child.tag child occ fuel = some (.ok (some child)) := by
  refine ⟨⟨true, some ⟨some 0, true, some 16, 1⟩, 3, some [4, -127, -2]⟩, ⟨false, some ⟨some 0, false, some 4, 1⟩, -2, some (slice [4, -127, -2] 2 0)⟩,
    rfl, rfl, rfl, ?_⟩
  intro occ fuel hf
  have hfind : ∀ k, 0 < k → (BERTLV.mk true (some ⟨some 0, true, some 16, 1⟩) 3 (some [4, -127, -2])).find_ (some ⟨some 0, false, some 4, 1⟩) 0 k = some (.ok 0) := by
    intro k hk
    obtain ⟨k, rfl⟩ : ∃ j, k = j + 1 := ⟨k - 1, by omega⟩
    rfl
  have hskip : ∀ (k i : Nat), i ≤ occ → occ - i < k →
      (BERTLV.mk true (some ⟨some 0, true, some 16, 1⟩) 3 (some [4, -127, -2])).skipLoop (some ⟨some 0, false, some 4, 1⟩) (some (slice [4, -127, -2] 2 0))
        occ i 0 fuel k = some (.ok (some 0)) := by
    intro k
    induction k with
    | zero => intro i _ h; omega
    | succ k ih =>
      intro i hi hk
      rw [BERTLV.skipLoop]
      by_cases hlt : (i : Int) < occ
      · rw [if_pos hlt, hfind fuel (by omega)]
        exact ih (i + 1) (by omega) (by omega)
      · rw [if_neg hlt]
  rw [BERTLV.findNext]
  simp only [not_true_eq_false, if_false]
  erw [hskip fuel 0 (by omega) (by omega)]
  simp only
  rw [hfind fuel (by omega)]
  rfl

/-- `find` for an absent tag: the TLV 30 06 04 01 00 04 01 01 has children with tag 04 only; the answer is there after 13 looks at most. -/
example : ∃ t, BERTLV.getInstance [0x30, 6, 4, 1, 0, 4, 1, 1] 0 none = .ok t ∧ looks t = 13 ∧
    (∀ k, 13 ≤ k → t.find (some ⟨some 0, false, some 5, 1⟩) k = some (.ok none)) := by
  refine ⟨_, rfl, rfl, ?_⟩
  intro k hk
  obtain ⟨k, rfl⟩ : ∃ j, k = j + 13 := ⟨k - 13, by omega⟩
  rfl

end Verif.Props
