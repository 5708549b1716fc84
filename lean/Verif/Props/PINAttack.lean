import Verif.Props.PINCells
/-! C121: what an attacker who may present PINs, choosing each presentation after the answers before, can find out. -/
namespace Verif.Props
open Verif.Py Verif.Model Verif.Spec
open Verif.Model.OwnerPIN (Op Out)

/-- The answers an attacker gets in `n` calls: the strategy `σ` chooses each call after the answers seen so far. -/
def attack (σ : List Out → Op) : Nat → OwnerPIN → List Out → List Out
  | 0, _, _ => []
  | n + 1, p, seen =>
    let r := OwnerPIN.step p (σ seen)
    r.1 :: attack σ n r.2 (seen ++ [r.1])

/-- An object with the same counters and flag but the PIN cells `b`. -/
private def withPin (p : OwnerPIN) (b : List Int) : OwnerPIN := { p with pin := b }

private theorem attack_guesses (σ : List Out → Op) (hσ : ∀ seen, Harmless (σ seen)) (limit : Nat) (n : Nat) :
    ∀ (p : OwnerPIN) (seen : List Out), p.trylimit = limit → (p.validated = true → p.triesremaining = limit) →
      p.triesremaining ≤ limit →
    ∃ (G : List (List Int)) (outs : List Out), G.length ≤ p.triesremaining.toNat ∧ .checked (.ok true) ∉ outs ∧
      ∀ b, b ∉ G → attack σ n (withPin p b) seen = outs := by
  induction n with
  | zero => intro p seen _ _ _; exact ⟨[], [], by simp, by simp, fun _ _ => rfl⟩
  | succ n ih =>
    intro p seen hl hv ht
    -- a call that does not look at the PIN
    have indep : ∀ (o : Out) (q : OwnerPIN), o ≠ .checked (.ok true) → q.trylimit = limit →
        (q.validated = true → q.triesremaining = limit) → q.triesremaining ≤ limit →
        q.triesremaining.toNat ≤ p.triesremaining.toNat →
        (∀ b, OwnerPIN.step (withPin p b) (σ seen) = (o, withPin q b)) →
        ∃ (G : List (List Int)) (outs : List Out), G.length ≤ p.triesremaining.toNat ∧ .checked (.ok true) ∉ outs ∧
          ∀ b, b ∉ G → attack σ (n + 1) (withPin p b) seen = outs := by
      intro o q ho hq1 hq2 hq3 hq4 hs
      obtain ⟨G, outs, h1, h2, h3⟩ := ih q (seen ++ [o]) hq1 hq2 hq3
      refine ⟨G, o :: outs, by omega, ?_, ?_⟩
      · simp only [List.mem_cons, not_or]; exact ⟨fun h => ho h.symm, h2⟩
      · intro b hb
        simp only [attack, hs b]
        rw [h3 b hb]
    have hh := hσ seen
    cases hop : σ seen with
    | update a o l => rw [hop] at hh; exact absurd hh (by simp [Harmless])
    | resetAndUnblock => rw [hop] at hh; exact absurd hh (by simp [Harmless])
    | setValidatedFlag v =>
      rw [hop] at hh
      simp only [Harmless] at hh
      subst hh
      exact indep .done { p with validated := false } (by simp) hl (by simp) ht (Nat.le_refl _) (fun b => by rw [hop]; rfl)
    | reset =>
      cases hpv : p.validated with
      | true =>
        refine indep .done p.resetAndUnblock (by simp) hl (by simp [OwnerPIN.resetAndUnblock]) ?_ ?_ (fun b => ?_)
        · simp [OwnerPIN.resetAndUnblock, hl]
        · have := hv hpv; simp [OwnerPIN.resetAndUnblock, hl]; omega
        · rw [hop]; simp [OwnerPIN.step, OwnerPIN.reset, withPin, hpv, OwnerPIN.resetAndUnblock]
      | false =>
        refine indep .done p (by simp) hl (by simp [hpv]) ht (Nat.le_refl _) (fun b => ?_)
        rw [hop]; simp [OwnerPIN.step, OwnerPIN.reset, withPin, hpv]
    | check a o l =>
      by_cases h0 : p.triesremaining ≤ 0
      · refine indep (.checked (.ok false)) { p with validated := false } (by simp) hl (by simp) ht (Nat.le_refl _) (fun b => ?_)
        rw [hop]; simp [OwnerPIN.step, OwnerPIN.check, withPin, h0]
      · by_cases hr : (a.length : Int) < o ∨ (a.length : Int) < o + l
        · refine indep (.checked (.error .arrayIndexOutOfBounds))
            { p with validated := false, triesremaining := p.triesremaining - 1 } (by simp) hl (by simp) (by simp; omega)
            (by simp) (fun b => ?_)
          rw [hop]; simp [OwnerPIN.step, OwnerPIN.check, withPin, h0, hr]
        · cases hf : OwnerPIN.fill (fresh p.maxpinsize 0) a o l p.maxpinsize with
          | mk r buf =>
            cases r with
            | error e =>
              refine indep (.checked (.error e)) { p with validated := false } (by simp) hl (by simp) ht (Nat.le_refl _) (fun b => ?_)
              rw [hop]; simp [OwnerPIN.step, OwnerPIN.check, withPin, h0, hr, hf]
            | ok u =>
              obtain ⟨G, outs, h1, h2, h3⟩ := ih { p with validated := false, triesremaining := p.triesremaining - 1 }
                (seen ++ [.checked (.ok false)]) hl (by simp) (by simp; omega)
              simp only at h1
              refine ⟨buf :: G, .checked (.ok false) :: outs, by simp; omega, by simp [h2], ?_⟩
              intro b hb
              simp only [List.mem_cons, not_or] at hb
              have hs : OwnerPIN.step (withPin p b) (σ seen) =
                  (.checked (.ok false), withPin { p with validated := false, triesremaining := p.triesremaining - 1 } b) := by
                rw [hop]; simp [OwnerPIN.step, OwnerPIN.check, withPin, h0, hr, hf, hb.1]
              simp only [attack, hs]
              rw [h3 b hb.2]

/-- The object an attacker is given: any history, then a PIN set from the string `s`. -/
def guarded (limit m : Nat) (hist : List Op) (s : List Int) : OwnerPIN :=
  (OwnerPIN.init limit m).run (hist ++ [.update (.str s) 0 s.length])

/-- C121. An attacker who may call anything but `update`, `resetAndUnblock` and `setValidatedFlag(True)`, any number of times, and
chooses each call after the answers before, gets the same answers, none of them an acceptance, whatever the PIN is - except for at
most as many PINs as there are tries. So nothing else about the PIN can be found out. -/
theorem C121_learns (limit m k : Nat) (hk : k ≤ m) (hist : List Op) (σ : List Out → Op) (hσ : ∀ seen, Harmless (σ seen)) (n : Nat) :
    ∃ (guessed : List (List Int)) (outs : List Out), guessed.length ≤ limit ∧ .checked (.ok true) ∉ outs ∧
      ∀ s : List Int, s.length = k → s ∉ guessed → attack σ n (guarded limit m hist s) [] = outs := by
  have hw : WF ((OwnerPIN.init limit m).run hist) m := wf_run (wf_init limit m) hist
  have hc := run_const (OwnerPIN.init limit m) hist
  generalize hq : (OwnerPIN.init limit m).run hist = q at hw hc
  have hs : ∀ s : List Int, s.length = k → guarded limit m hist s =
      withPin { q with validated := true, triesremaining := q.trylimit } (s ++ List.replicate (m - k) 0) := by
    intro s hsk
    subst hsk
    have hm : q.maxpinsize = m := hc.2.1
    have hp : q.pin.length = m := by rw [hc.2.2]; simp [OwnerPIN.init]
    have hf := OwnerPIN.fill_str q.pin s 0 s.length (by omega) (by omega)
    have hr : range s 0 s.length = s := by simp [range]
    rw [hr, hp] at hf
    unfold guarded
    rw [run_append, hq, run_cons, run_nil]
    simp only [OwnerPIN.step, OwnerPIN.update]
    rw [if_neg (by omega), if_neg (by simp [PinArg.length]), hm]
    simp only [Int.ofNat_zero] at hf
    rw [hf]
    rfl
  have ht : q.trylimit = limit := hc.1
  obtain ⟨G, outs, h1, h2, h3⟩ := attack_guesses σ hσ limit n { q with validated := true, triesremaining := q.trylimit } []
    ht (fun _ => ht) (by simp [ht])
  refine ⟨G.map (List.take k), outs, ?_, h2, ?_⟩
  · simp only [List.length_map]; simp only [ht] at h1; simpa using h1
  · intro s hsk hsg
    rw [hs s hsk]
    apply h3
    intro hmem
    apply hsg
    refine List.mem_map.2 ⟨_, hmem, ?_⟩
    rw [← hsk, List.take_left]

theorem nodup_length_le {l G : List (List Int)} (hd : l.Nodup) (h : ∀ x ∈ l, x ∈ G) : l.length ≤ G.length := by
  induction l generalizing G with
  | nil => simp
  | cons x l ih =>
    rw [List.nodup_cons] at hd
    have hx : x ∈ G := h x (by simp)
    have := ih (G := G.erase x) hd.2 (fun y hy => by
      have hne : y ≠ x := fun e => hd.1 (e ▸ hy)
      exact (List.mem_erase_of_ne hne).2 (h y (by simp [hy])))
    rw [List.length_erase_of_mem hx] at this
    have := List.length_pos_of_mem hx
    simp only [List.length_cons]
    omega

/-- C121. Among any number of different PINs of one length, such an attacker succeeds against at most as many as there are tries. -/
theorem C121_attacker (limit m k : Nat) (hk : k ≤ m) (hist : List Op) (σ : List Out → Op) (hσ : ∀ seen, Harmless (σ seen)) (n : Nat)
    (pins : List (List Int)) (hd : pins.Nodup) (hp : ∀ s ∈ pins, s.length = k) :
    (pins.filter fun s => (attack σ n (guarded limit m hist s) []).contains (.checked (.ok true))).length ≤ limit := by
  obtain ⟨G, outs, h1, h2, h3⟩ := C121_learns limit m k hk hist σ hσ n
  refine Nat.le_trans (nodup_length_le (hd.filter _) ?_) h1
  intro s hs
  rw [List.mem_filter] at hs
  apply Classical.byContradiction
  intro hn
  rw [h3 s (hp s hs.1) hn] at hs
  exact h2 (by simpa using hs.2)

/-! ### Array PINs -/

private theorem one_byte (p : OwnerPIN) (m : Nat) (hm0 : 0 < m) (hm : p.maxpinsize = m) (v0 v : Int)
    (hp : p.pin = v0 :: List.replicate (m - 1) 0) (ht : 0 < p.triesremaining) :
    p.check (.arr [v]) 0 1 = if v = v0 then (.ok true, { p with validated := true, triesremaining := p.trylimit })
      else (.ok false, { p with validated := false, triesremaining := p.triesremaining - 1 }) := by
  have hfl : (fresh p.maxpinsize (0 : Int)).length = m := by rw [fresh_length, hm]; simp
  have hb : OwnerPIN.fill (fresh p.maxpinsize 0) (.arr [v]) 0 1 p.maxpinsize = (.ok (), v :: List.replicate (m - 1) 0) := by
    obtain ⟨b, h1, h2, h3⟩ := fill_pinCell m (fresh p.maxpinsize 0) hfl []
      (by intro i hi; rw [hm]; simp [pinCell, hi]) (.arr [v]) 0 1 (by omega) (by simp [PinArg.length])
    rw [hm] at h1 ⊢
    have : b = v :: List.replicate (m - 1) 0 := by
      apply List.ext_getElem?
      intro i
      by_cases hi : i < m
      · rw [h3 i hi]
        cases i with
        | zero => simp [pinCell]
        | succ i => simp [pinCell, List.getElem?_replicate]; omega
      · rw [List.getElem?_eq_none (by omega), List.getElem?_eq_none (by simp; omega)]
    rw [← this]; exact h1
  unfold OwnerPIN.check
  simp only
  rw [if_neg (by omega), if_neg (by simp [PinArg.length]), hb]
  simp only [hp]
  by_cases h : v = v0
  · subst h; simp
  · rw [if_pos (by simpa using fun e => h e.symm), if_neg h]

/-- The one-byte presentations of `vs` in turn. -/
def firstBytes (vs : List Int) : List Op := vs.map fun v => .check (.arr [v]) 0 1

/-- C121. A PIN of `n` bytes set from an array on a new object whose maximum size is at least `2n - 1` has no such protection: presenting
single bytes finds it. If there are enough tries for every value its first byte may have, one of these presentations is accepted: ten
tries for digits, whatever the length. -/
theorem C121_array_pin_found (limit : Nat) (m n ao : Nat) (a : List Int) (hn0 : 0 < n) (hn : 2 * n ≤ m + 1) (ha : ao + n ≤ a.length)
    (vs : List Int) (hvs : vs.length ≤ limit) (v0 : Int) (hv : a[ao]? = some v0) (hmem : v0 ∈ vs) :
    ∃ c ∈ trace ((OwnerPIN.init limit m).run [.update (.arr a) ao n]) (firstBytes vs), c.2 = .checked (.ok true) := by
  have hl : 0 < limit := Nat.lt_of_lt_of_le (List.length_pos_of_mem hmem) hvs
  obtain ⟨b, h1, h2, h3⟩ := fill_pinCell m (OwnerPIN.init limit m).pin (by simp [OwnerPIN.init]) []
      (by intro i hi; simp [OwnerPIN.init, pinCell, hi]) (.arr a) ao n (by omega) (by simpa [PinArg.length] using ha)
  have hb : b = v0 :: List.replicate (m - 1) 0 := by
    apply List.ext_getElem?
    intro i
    by_cases hi : i < m
    · rw [h3 i hi]
      cases i with
      | zero => simp [pinCell, List.getD_eq_getElem?_getD, hv]; omega
      | succ i =>
        simp only [pinCell, List.getElem?_cons_succ, List.getElem?_replicate]
        rw [if_pos (by omega : i < m - 1)]
        by_cases h : n ≤ i + 1
        · rw [if_pos h]
        · rw [if_neg h]
          rw [if_neg (by omega), if_neg (by omega)]
    · rw [List.getElem?_eq_none (by omega), List.getElem?_eq_none (by simp; omega)]
  have hup : (OwnerPIN.init limit m).run [.update (.arr a) ao n] =
      { OwnerPIN.init limit m with pin := v0 :: List.replicate (m - 1) 0, validated := true, triesremaining := limit } := by
    rw [run_cons, run_nil]
    simp only [OwnerPIN.step, OwnerPIN.update]
    have e1 : (OwnerPIN.init limit m).maxpinsize = m := rfl
    rw [if_neg (by rw [e1]; omega), if_neg (by simp only [PinArg.length]; omega), e1, h1, hb]
    rfl
  rw [hup]
  have key : ∀ (vs : List Int) (p : OwnerPIN), p.maxpinsize = m → p.pin = v0 :: List.replicate (m - 1) 0 →
      (vs.length : Int) ≤ p.triesremaining → v0 ∈ vs → ∃ c ∈ trace p (firstBytes vs), c.2 = .checked (.ok true) := by
    intro vs
    induction vs with
    | nil => intro p _ _ _ h; simp at h
    | cons v vs ih =>
      intro p hm hp ht hmem
      simp only [List.length_cons] at ht
      have hc := one_byte p m (by omega) hm v0 v hp (by omega)
      by_cases hvv : v = v0
      · rw [if_pos hvv] at hc
        exact ⟨_, List.mem_cons_self .., by simp only [OwnerPIN.step, hc]⟩
      · rw [if_neg hvv] at hc
        obtain ⟨c, hcm, hct⟩ := ih { p with validated := false, triesremaining := p.triesremaining - 1 } hm hp (by simp only; omega)
          (by rcases List.mem_cons.1 hmem with h | h
              · exact absurd h.symm hvv
              · exact h)
        refine ⟨c, ?_, hct⟩
        simp only [firstBytes, List.map_cons, trace]
        right
        simp only [OwnerPIN.step, hc]
        exact hcm
  exact key vs _ rfl rfl (by simp only; omega) hmem

/-- The hypotheses are met: an attacker counting up four-digit strings after every refusal. -/
example : ∀ seen : List Out, Harmless ((fun s : List Out => .check (.str [48, 48, 48, 48 + s.length]) 0 4) seen) := fun _ => trivial

/-- The bound is reached: with three tries this attacker finds three of ten PINs. -/
example : (((List.range 10).map fun i : Nat => ([48, 48, 48, 48 + (i : Int)] : List Int)).filter fun s =>
    (attack (fun s : List Out => .check (.str [48, 48, 48, 48 + s.length]) 0 4) 20 (guarded 3 8 [] s) []).contains
      (.checked (.ok true))).length = 3 := by decide +kernel

/-- Four digits as an array, eight cells: ten one-byte presentations find it. -/
example : let p := (OwnerPIN.init 10 8).run [.update (.arr [7, 2, 9, 4]) 0 4]
    (trace p (firstBytes [0, 1, 2, 3, 4, 5, 6, 7])).map (·.2) =
      List.replicate 7 (.checked (.ok false)) ++ [.checked (.ok true)] := by decide

end Verif.Props
