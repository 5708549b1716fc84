import Verif.Lemmas.Pin
/-! C14–C20: the owner PIN. Histories are lists of calls; `OwnerPIN.run` is the object after a
history and `outs` the answers the caller sees. -/
namespace Verif.Props
open Verif.Py Verif.Model Verif.Spec
open OwnerPIN (Op Out)

/-- The answers a caller sees, paired with the calls. -/
def trace (p : OwnerPIN) : List Op → List (Op × Out)
  | [] => []
  | op :: ops => (op, (OwnerPIN.step p op).1) :: trace (OwnerPIN.step p op).2 ops

theorem run_nil (p : OwnerPIN) : p.run [] = p := rfl
theorem run_cons (p : OwnerPIN) (op : Op) (ops : List Op) :
    p.run (op :: ops) = (OwnerPIN.step p op).2.run ops := rfl
theorem run_append (p : OwnerPIN) (a b : List Op) : p.run (a ++ b) = (p.run a).run b := by
  simp [OwnerPIN.run, List.foldl_append]

/-- The possible effects of `check`. -/
theorem check_cases (p : OwnerPIN) (a : PinArg) (o l : Int) :
    (p.triesremaining ≤ 0 ∧ p.check a o l = (.ok false, { p with validated := false })) ∨
    (0 < p.triesremaining ∧
      ((∃ r, (r = .ok false ∨ r = .error .arrayIndexOutOfBounds) ∧ p.check a o l =
          (r, { p with validated := false, triesremaining := p.triesremaining - 1 })) ∨
       p.check a o l = (.error .indexError, { p with validated := false }) ∨
       p.check a o l = (.ok true, { p with validated := true, triesremaining := p.trylimit }))) := by
  unfold OwnerPIN.check
  simp only
  by_cases h : p.triesremaining ≤ 0
  · left; simp [h]
  · right
    refine ⟨by omega, ?_⟩
    simp only [h, if_false]
    split
    · left; exact ⟨_, .inr rfl, rfl⟩
    · have := OwnerPIN.fill_total (fresh p.maxpinsize 0) a o l p.maxpinsize
      generalize OwnerPIN.fill (fresh p.maxpinsize 0) a o l p.maxpinsize = r at this
      obtain ⟨r1, b⟩ := r
      rcases this with h' | h' <;> simp only at h' <;> subst h'
      · simp only
        split
        · left; exact ⟨_, .inl rfl, rfl⟩
        · right; right; rfl
      · right; left; rfl

/-- The possible effects of `update`. -/
theorem update_cases (p : OwnerPIN) (a : PinArg) (o l : Int) :
    (∃ e b, p.update a o l = (.error e, { p with pin := b }) ∧ b.length = p.pin.length) ∨
    (∃ b, p.update a o l =
      (.ok (), { p with pin := b, validated := true, triesremaining := p.trylimit }) ∧
      b.length = p.pin.length) := by
  unfold OwnerPIN.update
  split
  · left; exact ⟨_, p.pin, rfl, rfl⟩
  · split
    · left; exact ⟨_, p.pin, rfl, rfl⟩
    · have hl := OwnerPIN.fill_length p.pin a o l p.maxpinsize
      generalize OwnerPIN.fill p.pin a o l p.maxpinsize = r at hl
      obtain ⟨r1, b⟩ := r
      cases r1 with
      | error e => left; exact ⟨_, b, rfl, hl⟩
      | ok u => right; exact ⟨b, rfl, hl⟩

/-- Try limit, maximum size and buffer size never change. -/
theorem step_const (p : OwnerPIN) (op : Op) :
    (OwnerPIN.step p op).2.trylimit = p.trylimit ∧ (OwnerPIN.step p op).2.maxpinsize = p.maxpinsize ∧
    (OwnerPIN.step p op).2.pin.length = p.pin.length := by
  cases op with
  | check a o l =>
    simp only [OwnerPIN.step]
    rcases check_cases p a o l with ⟨_, h⟩ | ⟨_, ⟨r, _, h⟩ | h | h⟩ <;> rw [h] <;> simp
  | update a o l =>
    simp only [OwnerPIN.step]
    rcases update_cases p a o l with ⟨e, b, h, hb⟩ | ⟨b, h, hb⟩ <;> rw [h] <;> simp [hb]
  | reset => simp only [OwnerPIN.step, OwnerPIN.reset]; split <;> simp [OwnerPIN.resetAndUnblock]
  | resetAndUnblock => simp [OwnerPIN.step, OwnerPIN.resetAndUnblock]
  | setValidatedFlag v => simp [OwnerPIN.step, OwnerPIN.setValidatedFlag]

theorem run_const (p : OwnerPIN) (ops : List Op) :
    (p.run ops).trylimit = p.trylimit ∧ (p.run ops).maxpinsize = p.maxpinsize ∧
    (p.run ops).pin.length = p.pin.length := by
  induction ops generalizing p with
  | nil => simp [run_nil]
  | cons op ops ih =>
    rw [run_cons]
    obtain ⟨a, b, c⟩ := ih (OwnerPIN.step p op).2
    obtain ⟨a', b', c'⟩ := step_const p op
    exact ⟨a.trans a', b.trans b', c.trans c'⟩

/-! ### C14 -/

/-- C14: after any history the counter lies between 0 and the try limit. -/
theorem C14_counter (limit size : Int) (hl : 0 ≤ limit) (ops : List Op) :
    0 ≤ ((OwnerPIN.init limit size).run ops).getTriesRemaining ∧
    ((OwnerPIN.init limit size).run ops).getTriesRemaining ≤ limit := by
  have key : ∀ (ops : List Op) (p : OwnerPIN), p.trylimit = limit →
      (0 ≤ p.triesremaining ∧ p.triesremaining ≤ limit) →
      (0 ≤ (p.run ops).triesremaining ∧ (p.run ops).triesremaining ≤ limit) := by
    intro ops
    induction ops with
    | nil => intro p _ h; exact h
    | cons op ops ih =>
      intro p hp h
      rw [run_cons]
      apply ih _ ((step_const p op).1.trans hp)
      cases op with
      | check a o l =>
        simp only [OwnerPIN.step]
        rcases check_cases p a o l with ⟨_, e⟩ | ⟨_, ⟨r, _, e⟩ | e | e⟩ <;> rw [e] <;> simp <;> omega
      | update a o l =>
        simp only [OwnerPIN.step]
        rcases update_cases p a o l with ⟨_, b, e, _⟩ | ⟨b, e, _⟩ <;> rw [e] <;> simp <;> omega
      | reset =>
        simp only [OwnerPIN.step, OwnerPIN.reset]
        split
        · simp [OwnerPIN.resetAndUnblock]; omega
        · exact h
      | resetAndUnblock => simp [OwnerPIN.step, OwnerPIN.resetAndUnblock]; omega
      | setValidatedFlag v => simpa [OwnerPIN.step, OwnerPIN.setValidatedFlag] using h
  exact key ops _ rfl ⟨by simp [OwnerPIN.init], by simpa [OwnerPIN.init] using hl⟩

example : ((OwnerPIN.init 3 4).run [.update (.str [49, 50]) 0 2, .check (.str [49, 51]) 0 2,
    .check (.arr [1]) 0 2]).getTriesRemaining = 1 := by decide

/-! ### C15 -/

/-- The calls a blocked PIN must survive: everything but `update`, `resetAndUnblock` and
`setValidatedFlag(True)`. -/
def Harmless : Op → Prop
  | .check _ _ _ => True
  | .reset => True
  | .setValidatedFlag v => v = false
  | .update _ _ _ => False
  | .resetAndUnblock => False

/-- C15: from a blocked, unvalidated state, after any such history the PIN is still blocked with the
same counter and not validated, and every `check` in it returned `False`. -/
theorem C15_blocked (p : OwnerPIN) (hb : p.getTriesRemaining ≤ 0) (hv : p.isValidated = false)
    (ops : List Op) (h : ∀ op ∈ ops, Harmless op) :
    (p.run ops).getTriesRemaining = p.getTriesRemaining ∧ (p.run ops).isValidated = false ∧
    ∀ c ∈ trace p ops, (∃ a o l, c.1 = .check a o l) → c.2 = .checked (.ok false) := by
  induction ops generalizing p with
  | nil => simp [run_nil, hv, trace]
  | cons op ops ih =>
    have hop := h op (by simp)
    have hrest : ∀ o ∈ ops, Harmless o := fun o ho => h o (by simp [ho])
    have hstep : (OwnerPIN.step p op).2.triesremaining = p.triesremaining ∧
        (OwnerPIN.step p op).2.validated = false ∧
        ((∃ a o l, op = .check a o l) → (OwnerPIN.step p op).1 = .checked (.ok false)) := by
      simp only [OwnerPIN.getTriesRemaining, OwnerPIN.isValidated] at hb hv
      cases op with
      | check a o l =>
        simp only [OwnerPIN.step]
        rcases check_cases p a o l with ⟨_, e⟩ | ⟨c, _⟩
        · rw [e]; simp
        · omega
      | reset => simp [OwnerPIN.step, OwnerPIN.reset, hv]
      | setValidatedFlag v =>
        simp only [Harmless] at hop
        simp [OwnerPIN.step, OwnerPIN.setValidatedFlag, hop]
      | update a o l => exact hop.elim
      | resetAndUnblock => exact hop.elim
    obtain ⟨h1, h2, h3⟩ := ih (OwnerPIN.step p op).2
      (by simp only [OwnerPIN.getTriesRemaining] at *; omega) hstep.2.1 hrest
    rw [run_cons]
    refine ⟨h1.trans hstep.1, h2, ?_⟩
    intro c hc
    simp only [trace, List.mem_cons] at hc
    rcases hc with rfl | hc
    · exact hstep.2.2
    · exact h3 c hc

/-- C15: without a forced `setValidatedFlag(True)`, a validated PIN has all its tries; so (with a
positive limit) blocked states of such histories satisfy the hypotheses of `C15_blocked`. -/
theorem C15_validated_not_blocked (limit size : Int) (ops : List Op)
    (h : ∀ op ∈ ops, op ≠ .setValidatedFlag true)
    (hv : ((OwnerPIN.init limit size).run ops).isValidated = true) :
    ((OwnerPIN.init limit size).run ops).getTriesRemaining = limit := by
  have key : ∀ (ops : List Op) (p : OwnerPIN), p.trylimit = limit →
      (p.validated = true → p.triesremaining = limit) →
      (∀ op ∈ ops, op ≠ .setValidatedFlag true) →
      ((p.run ops).validated = true → (p.run ops).triesremaining = limit) := by
    intro ops
    induction ops with
    | nil => intro p _ h _; exact h
    | cons op ops ih =>
      intro p hp h hops
      rw [run_cons]
      apply ih _ ((step_const p op).1.trans hp) _ (fun o ho => hops o (by simp [ho]))
      have hop := hops op (by simp)
      cases op with
      | check a o l =>
        simp only [OwnerPIN.step]
        rcases check_cases p a o l with ⟨_, e⟩ | ⟨_, ⟨r, _, e⟩ | e | e⟩ <;> rw [e] <;> simp [hp]
      | update a o l =>
        simp only [OwnerPIN.step]
        rcases update_cases p a o l with ⟨_, b, e, _⟩ | ⟨b, e, _⟩ <;> rw [e]
        · exact h
        · simp [hp]
      | reset =>
        simp only [OwnerPIN.step, OwnerPIN.reset]
        split
        · simp [OwnerPIN.resetAndUnblock]
        · exact h
      | resetAndUnblock => simp [OwnerPIN.step, OwnerPIN.resetAndUnblock]
      | setValidatedFlag v =>
        cases v with
        | true => exact absurd rfl hop
        | false => simp [OwnerPIN.step, OwnerPIN.setValidatedFlag]
  exact key ops _ rfl (by simp [OwnerPIN.init]) h hv

/-- C15: hence, over whole histories: once blocked, only the three calls excluded by `Harmless` can
unblock. -/
theorem C15_history (limit size : Int) (hl : 0 < limit) (pre post : List Op)
    (hpre : ∀ op ∈ pre, op ≠ .setValidatedFlag true)
    (hb : ((OwnerPIN.init limit size).run pre).getTriesRemaining = 0)
    (hpost : ∀ op ∈ post, Harmless op) :
    ((OwnerPIN.init limit size).run (pre ++ post)).getTriesRemaining = 0 ∧
    ((OwnerPIN.init limit size).run (pre ++ post)).isValidated = false := by
  have hv : ((OwnerPIN.init limit size).run pre).isValidated = false := by
    cases h : ((OwnerPIN.init limit size).run pre).isValidated with
    | false => rfl
    | true =>
      have := C15_validated_not_blocked limit size pre hpre h
      omega
  have := C15_blocked _ (by omega) hv post hpost
  rw [run_append]
  exact ⟨this.1.trans hb, this.2.1⟩

/-- C15: `setValidatedFlag(True)` followed by `reset` does unblock a blocked PIN. -/
theorem C15_forced_unblock (p : OwnerPIN) :
    ((p.run [.setValidatedFlag true, .reset])).getTriesRemaining = p.trylimit := by
  simp [OwnerPIN.run, OwnerPIN.step, OwnerPIN.setValidatedFlag, OwnerPIN.reset,
    OwnerPIN.resetAndUnblock, OwnerPIN.getTriesRemaining]

/-- C15: with no tries left, `check` answers `False` for every argument, without raising and without
comparing (the answer and the object afterwards do not depend on the argument or on the stored PIN),
leaves the counter alone, and takes away a validation that had been forced. -/
theorem C15_check_blocked (p : OwnerPIN) (hb : p.getTriesRemaining ≤ 0) (a : PinArg) (o l : Int) :
    (p.check a o l).1 = .ok false ∧ (p.check a o l).2.getTriesRemaining = p.getTriesRemaining ∧
    (p.check a o l).2.isValidated = false ∧ (p.check a o l).2.pin = p.pin := by
  rcases check_cases p a o l with ⟨_, e⟩ | ⟨h, _⟩
  · rw [e]; simp [OwnerPIN.getTriesRemaining, OwnerPIN.isValidated]
  · simp only [OwnerPIN.getTriesRemaining] at hb; omega

/-- C15: `resetAndUnblock` and an `update` that succeeds do unblock a PIN, in every state; an `update`
that fails does not. -/
theorem C15_unblock (p : OwnerPIN) :
    p.resetAndUnblock.getTriesRemaining = p.trylimit ∧ p.resetAndUnblock.isValidated = false ∧
    (∀ a o l, (p.update a o l).1 = .ok () →
      (p.update a o l).2.getTriesRemaining = p.trylimit ∧ (p.update a o l).2.isValidated = true) ∧
    (∀ a o l e, (p.update a o l).1 = .error e →
      (p.update a o l).2.getTriesRemaining = p.getTriesRemaining ∧
      (p.update a o l).2.isValidated = p.isValidated) := by
  refine ⟨rfl, rfl, fun a o l h => ?_, fun a o l e h => ?_⟩ <;>
  rcases update_cases p a o l with ⟨e', b, h', _⟩ | ⟨b, h', _⟩ <;> rw [h'] at h ⊢ <;>
    simp_all [OwnerPIN.getTriesRemaining, OwnerPIN.isValidated]

/-- A blocked PIN with the flag forced on. -/
example : let p := (OwnerPIN.init 1 2).run [.setValidatedFlag true]
    p.getTriesRemaining = 0 ∧ p.isValidated = true ∧
    (p.check (.str [0, 0]) 0 2).1 = .ok false := by decide

/-- A blocked reachable state exists. -/
example : let p := (OwnerPIN.init 1 2).run [.update (.str [49, 50]) 0 2, .check (.str [49, 51]) 0 2]
    p.getTriesRemaining = 0 ∧ p.isValidated = false ∧
    (p.run [.check (.str [49, 50]) 0 2, .reset]).isValidated = false := by decide

/-! ### C16 -/

/-- A `check` that was really answered: it did not escape with `IndexError`. -/
def answered : Op × Out → Bool
  | (_, .checked (.error .indexError)) => false
  | (_, .checked _) => true
  | _ => false

/-- C16: in a history of `check` and `reset` calls without a success, every answered `check` costs
one of the `t` tries, down to zero. -/
theorem C16_every_answer_costs (p : OwnerPIN) (hv : p.isValidated = false) (ops : List Op)
    (hops : ∀ op ∈ ops, (∃ a o l, op = .check a o l) ∨ op = .reset)
    (hno : ∀ c ∈ trace p ops, c.2 ≠ .checked (.ok true)) :
    (p.run ops).getTriesRemaining.toNat =
      p.getTriesRemaining.toNat - (trace p ops).countP answered ∧
    (p.run ops).isValidated = false := by
  induction ops generalizing p with
  | nil => simp [trace, run_nil, hv]
  | cons op ops ih =>
    have hrest : ∀ o ∈ ops, (∃ a x l, o = .check a x l) ∨ o = .reset :=
      fun o ho => hops o (by simp [ho])
    have hnor : ∀ c ∈ trace (OwnerPIN.step p op).2 ops, c.2 ≠ .checked (.ok true) :=
      fun c hc => hno c (by simp [trace, hc])
    have hno1 : (OwnerPIN.step p op).1 ≠ .checked (.ok true) := hno (op, (OwnerPIN.step p op).1) (by simp [trace])
    simp only [OwnerPIN.getTriesRemaining, OwnerPIN.isValidated] at *
    have hstep : (OwnerPIN.step p op).2.validated = false ∧
        (OwnerPIN.step p op).2.triesremaining.toNat = p.triesremaining.toNat -
          (answered (op, (OwnerPIN.step p op).1)).toNat := by
      rcases hops op (by simp) with ⟨a, o, l, rfl⟩ | rfl
      · simp only [OwnerPIN.step] at hno1 ⊢
        rcases check_cases p a o l with ⟨c, e⟩ | ⟨_, ⟨r, hr, e⟩ | e | e⟩
        · rw [e]; simp [answered]; omega
        · rw [e]
          rcases hr with rfl | rfl <;> simp [answered] <;> omega
        · rw [e]; simp [answered]
        · rw [e] at hno1; simp at hno1
      · simp [OwnerPIN.step, OwnerPIN.reset, hv, answered]
    obtain ⟨i1, i2⟩ := ih _ hstep.1 hrest hnor
    rw [run_cons]
    refine ⟨?_, i2⟩
    rw [i1, hstep.2]
    simp only [trace, List.countP_cons]
    cases answered (op, (OwnerPIN.step p op).1) <;> simp <;> omega

/-- C16: presentations of admissible length are always answered. -/
theorem C16_admissible_answered (p : OwnerPIN) (a : PinArg) (off n m : Nat) (hm : p.maxpinsize = m)
    (hn : n ≤ m) : (p.check a off n).1 ≠ .error .indexError := by
  unfold OwnerPIN.check
  simp only
  split
  · simp
  · split
    · simp
    · next h1 h2 =>
      have hl : (fresh p.maxpinsize (0 : Int)).length = m := by rw [fresh_length, hm]; simp
      have key : (OwnerPIN.fill (fresh p.maxpinsize 0) a off n p.maxpinsize).1 = .ok () := by
        have hm' : p.maxpinsize = ((fresh p.maxpinsize (0 : Int)).length : Nat) := by rw [hl, hm]
        cases a with
        | str c =>
          have := OwnerPIN.fill_str (fresh p.maxpinsize 0) c off n (by omega)
            (by simp only [PinArg.length] at h2; omega)
          rw [← hm'] at this
          rw [this]
        | arr c =>
          have := (OwnerPIN.fill_arr (fresh p.maxpinsize 0) c off n (by omega)
            (by simp only [PinArg.length] at h2; omega)).1
          rw [← hm'] at this
          exact this
      generalize OwnerPIN.fill (fresh p.maxpinsize 0) a off n p.maxpinsize = r at key
      obtain ⟨r1, b⟩ := r
      simp only at key
      subst key
      simp only
      split <;> simp

/-- C16: after `t` answered failures the PIN is blocked, and every later `check` returns `False`. -/
theorem C16_bound (p : OwnerPIN) (hv : p.isValidated = false) (ops post : List Op)
    (hops : ∀ op ∈ ops, (∃ a o l, op = .check a o l) ∨ op = .reset)
    (hno : ∀ c ∈ trace p ops, c.2 ≠ .checked (.ok true))
    (ht : p.getTriesRemaining.toNat ≤ (trace p ops).countP answered)
    (hpost : ∀ op ∈ post, Harmless op) :
    (p.run ops).getTriesRemaining ≤ 0 ∧
    ∀ c ∈ trace (p.run ops) post, (∃ a o l, c.1 = .check a o l) → c.2 = .checked (.ok false) := by
  obtain ⟨h1, h2⟩ := C16_every_answer_costs p hv ops hops hno
  have h3 : (p.run ops).getTriesRemaining ≤ 0 := by omega
  exact ⟨h3, (C15_blocked _ h3 h2 post hpost).2.2⟩

/-- C16, as a bound: before the first success, at most `t` answered presentations were made while
tries remained. -/
theorem C16_at_most_t (p : OwnerPIN) (hv : p.isValidated = false) (ops : List Op)
    (hops : ∀ op ∈ ops, (∃ a o l, op = .check a o l) ∨ op = .reset)
    (hno : ∀ c ∈ trace p ops, c.2 ≠ .checked (.ok true))
    (ho : 0 < (p.run ops).getTriesRemaining) :
    ((trace p ops).countP answered : Int) < p.getTriesRemaining := by
  obtain ⟨h1, h2⟩ := C16_every_answer_costs p hv ops hops hno
  omega

example : let p := (OwnerPIN.init 2 2).run [.update (.str [49, 50]) 0 2, .setValidatedFlag false]
    let ops : List Op := [.check (.str [49]) 0 1, .reset, .check (.arr [1, 2, 3, 4]) 0 4,
      .check (.str [1, 2]) 0 2]
    p.isValidated = false ∧ p.getTriesRemaining = 2 ∧ (trace p ops).countP answered = 2 ∧
    (p.run ops).getTriesRemaining = 0 := by decide

/-! ### C17 -/

/-- `l` padded with zeros to `m` cells. -/
def padZero (m : Nat) (l : List Int) : List Int := l ++ List.replicate (m - l.length) 0

/-- A state whose buffer has the declared size (an invariant of all histories, see `wf_run`). -/
def WF (p : OwnerPIN) (m : Nat) : Prop := p.maxpinsize = m ∧ p.pin.length = m

theorem wf_init (limit : Int) (m : Nat) : WF (OwnerPIN.init limit m) m := by
  simp [WF, OwnerPIN.init]

theorem wf_run {p : OwnerPIN} {m : Nat} (h : WF p m) (ops : List Op) : WF (p.run ops) m := by
  obtain ⟨_, b, c⟩ := run_const p ops
  exact ⟨b.trans h.1, c.trans h.2⟩

/-- Calls other than `update` leave the stored PIN alone. -/
theorem run_pin (p : OwnerPIN) (ops : List Op) (h : ∀ op ∈ ops, ∀ a o l, op ≠ .update a o l) :
    (p.run ops).pin = p.pin := by
  induction ops generalizing p with
  | nil => rfl
  | cons op ops ih =>
    rw [run_cons, ih _ (fun o ho => h o (by simp [ho]))]
    cases op with
    | check a o l =>
      simp only [OwnerPIN.step]
      rcases check_cases p a o l with ⟨_, e⟩ | ⟨_, ⟨r, _, e⟩ | e | e⟩ <;> rw [e]
    | update a o l => exact absurd rfl (h _ (by simp) a o l)
    | reset => simp only [OwnerPIN.step, OwnerPIN.reset]; split <;> rfl
    | resetAndUnblock => rfl
    | setValidatedFlag v => rfl

/-- `update` with a string of admissible length stores it, padded with zeros. -/
theorem update_str (p : OwnerPIN) (m : Nat) (hw : WF p m) (s : List Int) (off n : Nat) (hn : n ≤ m)
    (hs : off + n ≤ s.length) :
    p.update (.str s) off n = (.ok (),
      { p with pin := padZero m (range s off n), validated := true, triesremaining := p.trylimit }) := by
  obtain ⟨h1, h2⟩ := hw
  unfold OwnerPIN.update
  rw [if_neg (by omega), if_neg (by simp only [PinArg.length]; omega)]
  have := OwnerPIN.fill_str p.pin s off n (by omega) hs
  rw [h2, ← h1] at this
  rw [this]
  simp only [padZero, range]
  have hl : ((s.drop off).take n).length = n := by simp; omega
  have h3 : p.maxpinsize.toNat = m := by omega
  rw [hl]

/-- `check` with in-range arguments of admissible length compares buffers. -/
theorem check_compare (p : OwnerPIN) (m : Nat) (hw : WF p m) (a : PinArg) (off n : Nat) (hn : n ≤ m)
    (ha : off + n ≤ a.length) (ht : 0 < p.getTriesRemaining) :
    ∃ buf, OwnerPIN.fill (List.replicate m 0) a off n m = (.ok (), buf) ∧
      ((p.pin = buf ∧ (p.check a off n).1 = .ok true) ∨
       (p.pin ≠ buf ∧ (p.check a off n).1 = .ok false)) := by
  obtain ⟨h1, h2⟩ := hw
  have hne := C16_admissible_answered p a off n m h1 hn
  simp only [OwnerPIN.getTriesRemaining] at ht
  unfold OwnerPIN.check at hne ⊢
  simp only at hne ⊢
  rw [if_neg (by omega), if_neg (by omega)] at hne ⊢
  have e : fresh p.maxpinsize (0 : Int) = List.replicate m 0 := by rw [h1]; simp
  rw [e, h1] at hne ⊢
  have htot := OwnerPIN.fill_total (List.replicate m 0) a off n m
  generalize OwnerPIN.fill (List.replicate m 0) a off n m = r at hne htot ⊢
  obtain ⟨r1, b⟩ := r
  rcases htot with h | h <;> simp only at h <;> subst h
  · refine ⟨b, rfl, ?_⟩
    simp only
    by_cases c : p.pin = b
    · left; simp [c]
    · right; simp [c]
  · simp at hne

/-- C17: after a PIN was set from a string by the last `update` of any history, and while tries
remain, a string presentation of admissible length is accepted exactly when it equals the PIN up
to trailing zero padding. -/
theorem C17_string_pin (limit : Int) (m : Nat) (pre mid : List Op) (s : List Int) (so n : Nat)
    (hn : n ≤ m) (hs : so + n ≤ s.length)
    (hmid : ∀ op ∈ mid, ∀ a o l, op ≠ .update a o l)
    (x : List Int) (xo k : Nat) (hk : k ≤ m) (hx : xo + k ≤ x.length) :
    let p := (OwnerPIN.init limit m).run (pre ++ [.update (.str s) so n] ++ mid)
    0 < p.getTriesRemaining →
    ∃ b, (p.check (.str x) xo k).1 = .ok b ∧
      (b = true ↔ padZero m (range x xo k) = padZero m (range s so n)) := by
  intro p ht
  have hw : WF p m := wf_run (wf_init limit m) _
  have hpin : p.pin = padZero m (range s so n) := by
    have h0 : WF ((OwnerPIN.init limit m).run pre) m := wf_run (wf_init limit m) _
    show ((OwnerPIN.init limit m).run (pre ++ [.update (.str s) so n] ++ mid)).pin = _
    rw [run_append, run_append, run_pin _ _ hmid, run_cons, run_nil]
    simp only [OwnerPIN.step]
    rw [update_str _ m h0 s so n hn hs]
  obtain ⟨buf, hf, hc⟩ := check_compare p m hw (.str x) xo k hk hx ht
  have := OwnerPIN.fill_str (List.replicate m 0) x xo k (by simpa using hk) hx
  simp only [List.length_replicate] at this
  rw [this] at hf
  have hl : (range x xo k).length = k := by simp [range]; omega
  have hbuf : buf = padZero m (range x xo k) := by
    simp only [Prod.mk.injEq, true_and] at hf
    rw [← hf, padZero, hl]
  rw [hpin, hbuf] at hc
  rcases hc with ⟨he, hr⟩ | ⟨he, hr⟩
  · exact ⟨true, hr, by simp [he]⟩
  · exact ⟨false, hr, by simp [Ne.symm he]⟩

/-- C17: for presentations of the PIN's own length, acceptance is equality. -/
theorem C17_same_length (m : Nat) (a b : List Int) (h : a.length = b.length) :
    padZero m a = padZero m b ↔ a = b := by
  constructor
  · intro e
    exact (List.append_inj e h).1
  · rintro rfl; rfl

/-- C17: for PINs without zero characters, acceptance is equality whatever the lengths. -/
theorem C17_no_zero (m : Nat) (a b : List Int) (ha : a.length ≤ m) (hb : b.length ≤ m)
    (ha0 : (0 : Int) ∉ a) (hb0 : (0 : Int) ∉ b) : padZero m a = padZero m b ↔ a = b := by
  constructor
  · intro e
    have key : ∀ (u v : List Int), u.length ≤ m → v.length ≤ m → (0 : Int) ∉ v →
        padZero m u = padZero m v → v.length ≤ u.length := by
      intro u v hu hv hv0 e
      apply Nat.le_of_not_lt
      intro hlt
      have h1 := congrArg (fun l => l[u.length]?) e
      simp only [padZero] at h1
      rw [List.getElem?_append_right (Nat.le_refl _), List.getElem?_append_left hlt] at h1
      rw [List.getElem?_replicate, if_pos (by omega), List.getElem?_eq_getElem hlt] at h1
      simp at h1
      exact hv0 (h1 ▸ List.getElem_mem hlt)
    have hl : a.length = b.length :=
      Nat.le_antisymm (key b a hb ha ha0 e.symm) (key a b ha hb hb0 e)
    exact (C17_same_length m a b hl).1 e
  · rintro rfl; rfl

example : let p := (OwnerPIN.init 3 4).run ([] ++ [.update (.str [49, 50]) 0 2] ++ [.reset])
    0 < p.getTriesRemaining ∧ (p.check (.str [7, 49, 50]) 1 2).1 = .ok true ∧
    (p.check (.str [49, 50, 0]) 0 3).1 = .ok true ∧ (p.check (.str [49, 51]) 0 2).1 = .ok false := by
  decide

/-! ### C18 -/

/-- `update` with an array of admissible length succeeds and stores `arrCell`. -/
theorem update_arr (p : OwnerPIN) (m : Nat) (hw : WF p m) (a : List Int) (off n : Nat) (hn : n ≤ m)
    (ha : off + n ≤ a.length) :
    ∃ b, p.update (.arr a) off n = (.ok (),
      { p with pin := b, validated := true, triesremaining := p.trylimit }) ∧ b.length = m ∧
      ∀ k, b[k]? = OwnerPIN.arrCell m n (fun j => a[off + j]?) p.pin[k]? k := by
  obtain ⟨h1, h2⟩ := hw
  unfold OwnerPIN.update
  rw [if_neg (by omega), if_neg (by simp only [PinArg.length]; omega)]
  have := OwnerPIN.fill_arr p.pin a off n (by omega) ha
  rw [h2, ← h1] at this
  generalize OwnerPIN.fill p.pin (.arr a) off n p.maxpinsize = r at this
  obtain ⟨r1, b⟩ := r
  obtain ⟨e1, e2, e3⟩ := this
  simp only at e1 e2 e3
  subst e1
  refine ⟨b, rfl, by omega, ?_⟩
  intro k
  rw [e3 k]

/-- The general form: after an array update of `n` bytes in a state with stored buffer `old`, an
array presentation of `n` bytes is accepted exactly when byte 0 agrees, the bytes `j` with
`m - n < j < n` agree, and the cells `1 … m - n` below `n` of the previous buffer were zero. -/
theorem array_accept (p : OwnerPIN) (m : Nat) (hw : WF p m) (a b : List Int) (ao bo n : Nat)
    (hn0 : 0 < n) (hn : n ≤ m) (ha : ao + n ≤ a.length) (hb : bo + n ≤ b.length)
    (hl : 0 < p.trylimit) :
    let q := (p.update (.arr a) ao n).2
    ∃ r, (q.check (.arr b) bo n).1 = .ok r ∧
      (r = true ↔ (a[ao]? = b[bo]? ∧ (∀ j, m - n < j → j < n → a[ao + j]? = b[bo + j]?) ∧
        ∀ k, 0 < k → k < n → k ≤ m - n → p.pin[k]? = some 0)) := by
  intro q
  obtain ⟨pb, hu, hlen, hcell⟩ := update_arr p m hw a ao n hn ha
  have hq : q = { p with pin := pb, validated := true, triesremaining := p.trylimit } := by
    show (p.update (.arr a) ao n).2 = _
    rw [hu]
  have hwq : WF q m := by rw [hq]; exact ⟨hw.1, hlen⟩
  obtain ⟨buf, hf, hc⟩ := check_compare q m hwq (.arr b) bo n hn hb
    (by rw [hq]; exact hl)
  have hfa := OwnerPIN.fill_arr (List.replicate m 0) b bo n (by simpa using hn) hb
  simp only [List.length_replicate] at hfa
  rw [hf] at hfa
  obtain ⟨_, hbl, hbc⟩ := hfa
  simp only at hbl hbc
  have hpin : q.pin = pb := by rw [hq]
  rw [hpin] at hc
  have hiff : pb = buf ↔ (a[ao]? = b[bo]? ∧ (∀ j, m - n < j → j < n → a[ao + j]? = b[bo + j]?) ∧
        ∀ k, 0 < k → k < n → k ≤ m - n → p.pin[k]? = some 0) := by
    have hcells : pb = buf ↔ ∀ k, OwnerPIN.arrCell m n (fun j => a[ao + j]?) p.pin[k]? k =
        OwnerPIN.arrCell m n (fun j => b[bo + j]?) (List.replicate m (0 : Int))[k]? k := by
      constructor
      · rintro rfl k
        rw [← hcell, ← hbc]
      · intro h
        apply List.ext_getElem?
        intro k
        rw [hcell, hbc, h k]
    rw [hcells]
    unfold OwnerPIN.arrCell
    constructor
    · intro h
      refine ⟨?_, ?_, ?_⟩
      · have h0 := h 0
        have e1 : ¬ n ≤ 0 := by omega
        have e2 : ¬ m < 0 + n := by omega
        simpa only [e1, e2, if_false, if_true, Nat.add_zero] using h0
      · intro j h1 h2
        have hj := h (m - j)
        rw [if_neg (show ¬ n ≤ m - j by omega), if_neg (show ¬ n ≤ m - j by omega),
          if_pos (show m < m - j + n by omega), if_pos (show m < m - j + n by omega)] at hj
        simp only at hj
        rw [show m - (m - j) = j by omega] at hj
        exact hj
      · intro k h1 h2 h3
        have hk := h k
        rw [if_neg (show ¬ n ≤ k by omega), if_neg (show ¬ n ≤ k by omega),
          if_neg (show ¬ m < k + n by omega), if_neg (show ¬ m < k + n by omega),
          if_neg (show ¬ k = 0 by omega), if_neg (show ¬ k = 0 by omega)] at hk
        rw [hk, List.getElem?_replicate, if_pos (by omega)]
    · rintro ⟨h1, h2, h3⟩ k
      by_cases c1 : n ≤ k
      · rw [if_pos c1, if_pos c1]
      · rw [if_neg c1, if_neg c1]
        by_cases c2 : m < k + n
        · rw [if_pos c2, if_pos c2]
          by_cases c4 : m - k = n
          · omega
          · exact h2 (m - k) (by omega) (by omega)
        · rw [if_neg c2, if_neg c2]
          by_cases c3 : k = 0
          · rw [if_pos c3, if_pos c3]; simpa using h1
          · rw [if_neg c3, if_neg c3, h3 k (by omega) (by omega) (by omega),
              List.getElem?_replicate, if_pos (by omega)]
  rcases hc with ⟨he, hr⟩ | ⟨he, hr⟩
  · exact ⟨true, hr, by simpa using hiff.1 he⟩
  · refine ⟨false, hr, ?_⟩
    simp only [Bool.false_eq_true, false_iff]
    exact fun h => he (hiff.2 h)

/-- C18: on a new PIN object with maximum size `m`, after `update(array)` with `n ≤ m` bytes, `check`
with `n` bytes accepts exactly the arrays that agree on byte 0 and on the bytes `j` with
`m - n < j < n`. -/
theorem C18_accept_iff (limit : Int) (hl : 0 < limit) (m n : Nat) (a b : List Int) (ao bo : Nat)
    (hn0 : 0 < n) (hn : n ≤ m) (ha : ao + n ≤ a.length) (hb : bo + n ≤ b.length) :
    let q := ((OwnerPIN.init limit m).update (.arr a) ao n).2
    ∃ r, (q.check (.arr b) bo n).1 = .ok r ∧
      (r = true ↔ (a[ao]? = b[bo]? ∧ ∀ j, m - n < j → j < n → a[ao + j]? = b[bo + j]?)) := by
  intro q
  obtain ⟨r, h1, h2⟩ := array_accept (OwnerPIN.init limit m) m (wf_init limit m) a b ao bo n hn0 hn
    ha hb hl
  refine ⟨r, h1, ?_⟩
  rw [h2]
  constructor
  · rintro ⟨x, y, _⟩; exact ⟨x, y⟩
  · rintro ⟨x, y⟩
    refine ⟨x, y, ?_⟩
    intro k h1 h2 h3
    simp only [OwnerPIN.init, fresh_natCast]
    rw [List.getElem?_replicate, if_pos (by omega)]

/-- C18: when `2n ≤ m + 1` only the first byte matters. -/
theorem C18_first_byte_only (limit : Int) (hl : 0 < limit) (m n : Nat) (a b : List Int) (ao bo : Nat)
    (hn0 : 0 < n) (hn : 2 * n ≤ m + 1) (ha : ao + n ≤ a.length) (hb : bo + n ≤ b.length)
    (h0 : a[ao]? = b[bo]?) :
    (((OwnerPIN.init limit m).update (.arr a) ao n).2.check (.arr b) bo n).1 = .ok true := by
  obtain ⟨r, h1, h2⟩ := C18_accept_iff limit hl m n a b ao bo hn0 (by omega) ha hb
  rw [h1, h2.2 ⟨h0, fun j h1 h2 => by omega⟩]

/-- C18: with `n = m` the check is right, in every state. -/
theorem C18_full_size (p : OwnerPIN) (m : Nat) (hw : WF p m) (hl : 0 < p.trylimit) (hm : 0 < m)
    (a b : List Int) (ao bo : Nat) (ha : ao + m ≤ a.length) (hb : bo + m ≤ b.length) :
    ∃ r, ((p.update (.arr a) ao m).2.check (.arr b) bo m).1 = .ok r ∧
      (r = true ↔ range a ao m = range b bo m) := by
  obtain ⟨r, h1, h2⟩ := array_accept p m hw a b ao bo m hm (Nat.le_refl _) ha hb hl
  refine ⟨r, h1, ?_⟩
  rw [h2]
  constructor
  · rintro ⟨x, y, _⟩
    apply List.ext_getElem?
    intro j
    simp only [range, List.getElem?_take, List.getElem?_drop]
    split
    · next hj =>
      by_cases c : j = 0
      · subst c; exact x
      · exact y j (by omega) hj
    · rfl
  · intro e
    have hag : ∀ j < m, a[ao + j]? = b[bo + j]? := by
      intro j hj
      have := congrArg (fun l => l[j]?) e
      simpa [range, List.getElem?_take, List.getElem?_drop, hj] using this
    exact ⟨hag 0 hm, fun j _ h2 => hag j h2, fun k _ _ h3 => by omega⟩

/-- C18: the contract "accepted only when equal" is refuted: a wrong array PIN is accepted. -/
theorem C18_wrong_pin_accepted :
    ∃ (m n : Nat) (a b : List Int), n ≤ m ∧ n ≤ a.length ∧ n ≤ b.length ∧
      range a 0 n ≠ range b 0 n ∧
      (((OwnerPIN.init 3 m).update (.arr a) 0 n).2.check (.arr b) 0 n).1 = .ok true :=
  ⟨8, 4, [1, 2, 3, 4], [1, 9, 9, 9], by decide, by decide, by decide, by decide, by decide⟩

/-- C18: and the right PIN can be refused: cells left over from a previous PIN are not erased by
`update(array)` but are compared with zero. -/
theorem C18_right_pin_refused (p : OwnerPIN) (m : Nat) (hw : WF p m) (hl : 0 < p.trylimit)
    (a : List Int) (ao n k : Nat) (hn : n ≤ m) (ha : ao + n ≤ a.length)
    (hk : 0 < k) (hk2 : k < n) (hk3 : k ≤ m - n) (hold : p.pin[k]? ≠ some 0) :
    ((p.update (.arr a) ao n).2.check (.arr a) ao n).1 = .ok false := by
  obtain ⟨r, h1, h2⟩ := array_accept p m hw a a ao ao n (by omega) hn ha ha hl
  rw [h1]
  cases r with
  | false => rfl
  | true => exact absurd ((h2.1 rfl).2.2 k hk hk2 hk3) hold

example : let p := (OwnerPIN.init 3 8).run [.update (.str [1, 2, 3, 4, 5, 6, 7, 8]) 0 8]
    WF p 8 ∧ p.pin[1]? ≠ some 0 ∧
    ((p.update (.arr [1, 2, 3, 4]) 0 4).2.check (.arr [1, 2, 3, 4]) 0 4).1 = .ok false := by
  unfold WF; decide

/-! ### C19 -/

/-- C19: with tries remaining, every `check` either succeeds (counter back to the limit), or costs
exactly one try, or escapes with `IndexError` at no cost. No other field changes. -/
theorem C19_cost (p : OwnerPIN) (a : PinArg) (o l : Int) (ht : 0 < p.getTriesRemaining) :
    ((p.check a o l).1 = .ok true ∧ (p.check a o l).2.getTriesRemaining = p.trylimit ∧
      (p.check a o l).2.isValidated = true) ∨
    (((p.check a o l).1 = .ok false ∨ (p.check a o l).1 = .error .arrayIndexOutOfBounds) ∧
      (p.check a o l).2.getTriesRemaining = p.getTriesRemaining - 1 ∧
      (p.check a o l).2.isValidated = false) ∨
    ((p.check a o l).1 = .error .indexError ∧
      (p.check a o l).2.getTriesRemaining = p.getTriesRemaining ∧
      (p.check a o l).2.isValidated = false) := by
  simp only [OwnerPIN.getTriesRemaining, OwnerPIN.isValidated] at *
  rcases check_cases p a o l with ⟨c, _⟩ | ⟨_, ⟨r, hr, e⟩ | e | e⟩
  · omega
  · right; left
    rw [e]
    exact ⟨hr, rfl, rfl⟩
  · right; right; rw [e]; exact ⟨rfl, rfl, rfl⟩
  · left; rw [e]; exact ⟨rfl, rfl, rfl⟩

/-- C19: the free `IndexError` needs a length above the maximum size. -/
theorem C19_free_only_too_long (p : OwnerPIN) (a : PinArg) (off n m : Nat) (hm : p.maxpinsize = m)
    (h : (p.check a off n).1 = .error .indexError) : m < n := by
  apply Nat.lt_of_not_le
  intro hn
  exact C16_admissible_answered p a off n m hm hn h

/-- C19: an overrun costs a try. -/
theorem C19_overrun (p : OwnerPIN) (a : PinArg) (off n : Nat) (ht : 0 < p.getTriesRemaining)
    (h : a.length < off + n) :
    (p.check a off n).1 = .error .arrayIndexOutOfBounds ∧
    (p.check a off n).2.getTriesRemaining = p.getTriesRemaining - 1 := by
  simp only [OwnerPIN.getTriesRemaining] at *
  unfold OwnerPIN.check
  simp only
  rw [if_neg (by omega), if_pos (by omega)]
  exact ⟨rfl, rfl⟩

/-- C19: a string longer than the maximum size always escapes with `IndexError`, for free. -/
theorem C19_string_too_long (p : OwnerPIN) (s : List Int) (off n m : Nat) (hm : p.maxpinsize = m)
    (hn : m < n) (hs : off + n ≤ s.length) (ht : 0 < p.getTriesRemaining) :
    (p.check (.str s) off n).1 = .error .indexError ∧
    (p.check (.str s) off n).2.getTriesRemaining = p.getTriesRemaining := by
  simp only [OwnerPIN.getTriesRemaining] at *
  have hf : (OwnerPIN.fill (fresh p.maxpinsize 0) (.str s) off n p.maxpinsize).1 =
      .error .indexError := by
    unfold OwnerPIN.fill
    simp only
    have := OwnerPIN.strLoop_err (fresh p.maxpinsize 0) 0 (slice s off (off + n)) (by omega)
      (by rw [slice_add, fresh_length]; simp; omega)
    generalize OwnerPIN.strLoop (fresh p.maxpinsize 0) 0 (slice s off (off + n)) = r at this
    obtain ⟨r1, b⟩ := r
    simp only at this
    subst this
    rfl
  unfold OwnerPIN.check
  simp only
  rw [if_neg (by omega), if_neg (by simp only [PinArg.length]; omega)]
  generalize OwnerPIN.fill (fresh p.maxpinsize 0) (.str s) off n p.maxpinsize = r at hf
  obtain ⟨r1, b⟩ := r
  simp only at hf
  subst hf
  exact ⟨rfl, rfl⟩

/-- C19: an array longer than the maximum size plus one does too. -/
theorem C19_array_too_long (p : OwnerPIN) (s : List Int) (off n m : Nat) (hm : p.maxpinsize = m)
    (hm0 : 0 < m) (hn : m + 1 < n) (hs : off + n ≤ s.length) (ht : 0 < p.getTriesRemaining) :
    (p.check (.arr s) off n).1 = .error .indexError ∧
    (p.check (.arr s) off n).2.getTriesRemaining = p.getTriesRemaining := by
  simp only [OwnerPIN.getTriesRemaining] at *
  have hf : (OwnerPIN.fill (fresh p.maxpinsize 0) (.arr s) off n p.maxpinsize).1 =
      .error .indexError := by
    unfold OwnerPIN.fill
    simp only [rangeLen, Int.toNat_natCast]
    have hlen : (fresh p.maxpinsize (0 : Int)).length = m := by rw [fresh_length, hm]; simp
    have : (OwnerPIN.arrLoop s off (fresh p.maxpinsize 0) 0 n).1 = .error .indexError := by
      obtain ⟨n, rfl⟩ : ∃ n', n = n' + 1 := ⟨n - 1, by omega⟩
      unfold OwnerPIN.arrLoop
      rw [get_step _ _ _ (by omega)]
      have e : (off : Int) - (off + (0 : Nat)) = ((0 : Nat) : Int) := by omega
      simp only
      rw [e, set_natCast _ _ _ (by omega)]
      simp only [Nat.add_zero]
      exact OwnerPIN.arrLoop_err s off _ 1 n (by omega) (by rw [List.length_set, hlen]; omega)
        (by omega) (by omega)
    generalize OwnerPIN.arrLoop s off (fresh p.maxpinsize 0) 0 n = r at this
    obtain ⟨r1, b⟩ := r
    simp only at this
    subst this
    rfl
  unfold OwnerPIN.check
  simp only
  rw [if_neg (by omega), if_neg (by simp only [PinArg.length]; omega)]
  generalize OwnerPIN.fill (fresh p.maxpinsize 0) (.arr s) off n p.maxpinsize = r at hf
  obtain ⟨r1, b⟩ := r
  simp only at hf
  subst hf
  exact ⟨rfl, rfl⟩

/-- The hypotheses are met; and one more byte than the maximum is not refused in array form. -/
example : let p := (OwnerPIN.init 3 4).run [.update (.arr [1, 2, 3, 4]) 0 4]
    0 < p.getTriesRemaining ∧
    (p.check (.arr [9, 2, 3, 4, 1]) 0 5).1 = .ok true ∧
    (p.check (.arr [1, 2, 3, 4, 5, 6]) 0 6).1 = .error .indexError ∧
    (p.check (.str [1, 2, 3, 4, 5]) 0 5).1 = .error .indexError ∧
    (p.check (.arr [1, 2, 3, 5]) 0 4).1 = .ok false := by decide

/-! ### C20 -/

/-- Which calls decide the validated flag, and to what: every check (by its answer), every reset
and resetAndUnblock (to false), every successful update (to true!), every forced flag. A failed
update decides nothing. -/
def decides : Op × Out → Option Bool
  | (.check _ _ _, .checked (.ok b)) => some b
  | (.check _ _ _, _) => some false
  | (.update _ _ _, .updated (.ok ())) => some true
  | (.update _ _ _, _) => none
  | (.reset, _) => some false
  | (.resetAndUnblock, _) => some false
  | (.setValidatedFlag v, _) => some v

/-- C20: after any history the flag is that of the last deciding call, and false when there is
none. -/
theorem C20_validated (limit size : Int) (ops : List Op) :
    ((OwnerPIN.init limit size).run ops).isValidated =
      (((trace (OwnerPIN.init limit size) ops).reverse.findSome? decides).getD false) := by
  have key : ∀ (ops : List Op) (p : OwnerPIN), (p.run ops).validated =
      (((trace p ops).reverse.findSome? decides).getD p.validated) := by
    intro ops
    induction ops with
    | nil => intro p; rfl
    | cons op ops ih =>
      intro p
      rw [run_cons, ih]
      simp only [trace, List.reverse_cons, List.findSome?_append]
      have hstep : (OwnerPIN.step p op).2.validated =
          (decides (op, (OwnerPIN.step p op).1)).getD p.validated := by
        cases op with
        | check a o l =>
          simp only [OwnerPIN.step]
          rcases check_cases p a o l with ⟨_, e⟩ | ⟨_, ⟨r, hr, e⟩ | e | e⟩ <;> rw [e]
          · rfl
          · rcases hr with rfl | rfl <;> rfl
          · rfl
          · rfl
        | update a o l =>
          simp only [OwnerPIN.step]
          rcases update_cases p a o l with ⟨_, b, e, _⟩ | ⟨b, e, _⟩ <;> rw [e] <;> rfl
        | reset =>
          simp only [OwnerPIN.step, OwnerPIN.reset, decides, Option.getD_some]
          split
          · rfl
          · next h => simpa using h
        | resetAndUnblock => rfl
        | setValidatedFlag v => rfl
      rw [hstep]
      simp only [List.findSome?_cons, List.findSome?_nil]
      cases List.findSome? decides (trace (OwnerPIN.step p op).2 ops).reverse with
      | some v => rfl
      | none => cases decides (op, (OwnerPIN.step p op).1) <;> rfl
  exact key ops _

/-- C20: contrary to Java Card, a PIN counts as validated right after `update`, without any
`check`. -/
theorem C20_update_validates (p : OwnerPIN) (m : Nat) (hw : WF p m) (s : List Int) (off n : Nat)
    (hn : n ≤ m) (hs : off + n ≤ s.length) :
    (p.update (.str s) off n).2.isValidated = true ∧ (p.update (.arr s) off n).2.isValidated = true := by
  constructor
  · rw [update_str p m hw s off n hn hs]; rfl
  · obtain ⟨b, e, _⟩ := update_arr p m hw s off n hn hs
    rw [e]; rfl

example : ((OwnerPIN.init 3 4).run [.update (.str [49]) 0 1, .update (.str [49]) 0 9]).isValidated = true
    ∧ ((OwnerPIN.init 3 4).run [.update (.str [49]) 0 1, .check (.str [50]) 0 1]).isValidated = false := by
  decide

end Verif.Props
