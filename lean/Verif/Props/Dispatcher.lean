import Verif.Model.Dispatcher
/-! C30: the service dispatcher. -/
namespace Verif.Props
open Verif.Py Verif.Model

/-- The services a history of calls registers for phase `p`, in order: the non-None services added for it. -/
def registered {α} (calls : List (Option α × Int)) (p : Int) : List α :=
  calls.filterMap fun c => if c.2 = p then c.1 else none

/-- The four phases. -/
def IsPhase (p : Int) : Prop := p = 0 ∨ p = 1 ∨ p = 2 ∨ p = 3

instance (p : Int) : Decidable (IsPhase p) := by unfold IsPhase; infer_instance

theorem init_services {α} {m : Int} {d : Dispatcher α} (h : Dispatcher.init m = .ok d) :
    ∀ p, d.services p = if IsPhase p then some [] else none := by
  unfold Dispatcher.init at h
  split at h
  · cases h
  · injection h with h
    subst h
    intro p
    simp only [Dispatcher.PROCESS_INPUT_DATA, Dispatcher.PROCESS_COMMAND, Dispatcher.PROCESS_OUTPUT_DATA,
      Dispatcher.PROCESS_NONE, IsPhase]
    by_cases h0 : p = 0
    · simp [h0]
    by_cases h1 : p = 1
    · simp [h1]
    by_cases h2 : p = 2
    · simp [h2]
    by_cases h3 : p = 3
    · simp [h3]
    simp [h0, h1, h2, h3]

/-- C30. The constructor refuses negative capacities and nothing else. -/
theorem C30_init {α} (m : Int) : (∃ d : Dispatcher α, Dispatcher.init m = .ok d) ↔ 0 ≤ m := by
  unfold Dispatcher.init
  split
  · simp; omega
  · simp; omega

theorem C30_init_refused {α} (m : Int) (h : m < 0) : (Dispatcher.init m : Except Err (Dispatcher α)) = .error (.service 1) := by
  simp [Dispatcher.init, h]

theorem run_services {α} (d : Dispatcher α) (calls : List (Option α × Int)) (base : Int → List α)
    (h : ∀ p, d.services p = if IsPhase p then some (base p) else none) :
    ∀ p, (d.run calls).services p = if IsPhase p then some (base p ++ registered calls p) else none := by
  induction calls generalizing d base with
  | nil => intro p; simp [Dispatcher.run, registered, h]
  | cons c calls ih =>
    obtain ⟨s, q⟩ := c
    intro p
    show ((d.addService s q).2.run calls).services p = _
    cases s with
    | none =>
      have : (d.addService none q).2 = d := rfl
      rw [this, ih d base h]
      simp [registered]
    | some s =>
      by_cases hq : IsPhase q
      · have e : (d.addService (some s) q).2 = ⟨fun ph => if ph = q then some (base q ++ [s]) else d.services ph⟩ := by
          simp only [Dispatcher.addService, h q, hq, if_true]
        rw [e, ih _ (fun p => if p = q then base p ++ [s] else base p)]
        · by_cases hpq : q = p
          · subst hpq; simp [registered, hq]
          · have hpq' : ¬ p = q := fun e => hpq e.symm
            simp [registered, hpq, hpq']
        · intro p
          simp only
          by_cases hpq : p = q
          · subst hpq; simp [hq]
          · simp only [hpq, if_false]; exact h p
      · have e : (d.addService (some s) q).2 = d := by
          simp only [Dispatcher.addService, h q, hq, if_false]
        rw [e, ih d base h]
        by_cases hp : IsPhase p
        · have hpq : ¬ q = p := fun e => hq (e ▸ hp)
          simp [registered, hp, hpq]
        · simp [hp]

/-- C30. After any history of `addService` calls, for each of the four phases the registered services are
exactly the non-None ones added for that phase, in order; there are no other phases. -/
theorem C30_services {α} {m : Int} {d : Dispatcher α} (h : Dispatcher.init m = .ok d)
    (calls : List (Option α × Int)) (p : Int) :
    (IsPhase p → (d.run calls).services p = some (registered calls p)) ∧
    (¬ IsPhase p → (d.run calls).services p = none) := by
  have := run_services d calls (fun _ => []) (by simpa using init_services h) p
  constructor
  · intro hp; rw [this]; simp [hp]
  · intro hp; rw [this]; simp [hp]

/-- C30. In any history, adding succeeds exactly for a service and one of the four phases — whatever the
declared capacity `m` and however many were added before; otherwise ILLEGAL_PARAM, changing nothing. -/
theorem C30_add {α} {m : Int} {d : Dispatcher α} (h : Dispatcher.init m = .ok d)
    (calls : List (Option α × Int)) (s : Option α) (p : Int) :
    (s ≠ none ∧ IsPhase p → ((d.run calls).addService s p).1 = .ok ()) ∧
    (¬ (s ≠ none ∧ IsPhase p) → (d.run calls).addService s p = (.error (.service 1), d.run calls)) := by
  have := C30_services h calls p
  constructor
  · rintro ⟨hs, hp⟩
    cases s with
    | none => exact absurd rfl hs
    | some s => simp [Dispatcher.addService, this.1 hp]
  · intro hn
    cases s with
    | none => rfl
    | some s =>
      have hp : ¬ IsPhase p := fun hp => hn ⟨by simp, hp⟩
      simp [Dispatcher.addService, this.2 hp]

/-- C30. Adding for one phase does not affect another. -/
theorem C30_independent {α} {m : Int} {d : Dispatcher α} (h : Dispatcher.init m = .ok d)
    (calls : List (Option α × Int)) (s : Option α) (p q : Int) (hpq : p ≠ q) :
    ((d.run calls).addService s p).2.services q = (d.run calls).services q := by
  have e : ((d.run calls).addService s p).2 = d.run (calls ++ [(s, p)]) := by
    simp [Dispatcher.run, List.foldl_append]
  rw [e]
  have h1 := C30_services h calls q
  have h2 := C30_services h (calls ++ [(s, p)]) q
  by_cases hq : IsPhase q
  · rw [h1.1 hq, h2.1 hq]
    simp [registered, hpq]
  · rw [h1.2 hq, h2.2 hq]

/-- C30. The declared capacity is not enforced: a dispatcher declared for `m` services takes `n`, any `n`. -/
theorem C30_capacity_ignored (m : Int) (hm : 0 ≤ m) (n : Nat) :
    ∃ d : Dispatcher Nat, Dispatcher.init m = .ok d ∧
      ((d.run (List.replicate n (some 0, 2))).services 2).map List.length = some n := by
  obtain ⟨d, hd⟩ := (C30_init (α := Nat) m).2 hm
  refine ⟨d, hd, ?_⟩
  rw [(C30_services hd _ 2).1 (by unfold IsPhase; omega)]
  simp [registered]

example : ∃ d : Dispatcher Nat, Dispatcher.init 1 = .ok d ∧ (d.run [(some 7, 2), (none, 1), (some 8, 9), (some 9, 2)]).services 2 = some [7, 9] :=
  ⟨_, rfl, rfl⟩

end Verif.Props
