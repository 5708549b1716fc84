import Verif.Props.APDURecv
import Verif.Lemmas.APDUHist
/-! C25–C29: histories of calls on an APDU. -/
namespace Verif.Props
open Verif.Py Verif.Model Verif.Spec Verif.Model.APDU

namespace APDUHist
theorem run_nil (a : APDU) : a.run [] = a := rfl
theorem run_cons (a : APDU) (op : Op) (ops : List Op) : a.run (op :: ops) = (a.step op).2.run ops := rfl
theorem run_append (a : APDU) (x y : List Op) : a.run (x ++ y) = (a.run x).run y := by
  simp [APDU.run, List.foldl_append]

/-- The calls of a history with the value returned or exception raised. -/
def trace (a : APDU) : List Op → List (Op × Except Err Int)
  | [] => []
  | op :: ops => (op, (a.step op).1) :: trace (a.step op).2 ops

/-- Sum of the byte counts returned by the receiving calls that succeeded. -/
def total : List (Op × Except Err Int) → Int
  | [] => 0
  | (op, .ok v) :: t => (if isReceive op then v else 0) + total t
  | (_, .error _) :: t => total t

/-- Number of successful calls satisfying `p`. -/
def successes (p : Op → Bool) : List (Op × Except Err Int) → Nat
  | [] => 0
  | (op, .ok _) :: t => (if p op then 1 else 0) + successes p t
  | (_, .error _) :: t => successes p t
end APDUHist
open APDUHist

/-! ### C25 -/

/-- Incoming part of the invariant: `R` bytes received so far, data from `base`, all incoming data
ends at `stop`. -/
structure Inc (bytes : List Int) (base stop R : Int) (bk : Bool) (a : APDU) : Prop where
  wf : WF a
  br : a.broken = bk
  lel : stop = bytes.length - a.lelength
  raw : a.state < 3 → a.raw = bytes ∧ a.offsetincoming = base + R
  ini : a.state = 0 → R = 0
  full : a.state = 1 ∨ a.state = 2 → bk = false ∧ (a.state = 2 ↔ base + R = stop)

/-- What one call adds to the received total. -/
def gain (op : Op) : Except Err Int → Int
  | .ok v => if isReceive op then v else 0
  | .error _ => 0

theorem total_cons (op : Op) (r : Except Err Int) (t : List (Op × Except Err Int)) :
    total ((op, r) :: t) = gain op r + total t := by
  cases r <;> simp [total, gain]

theorem Inc.step {bytes : List Int} {base stop R : Int} {br : Bool} {a : APDU} (h : Inc bytes base stop R br a) (op : Op) :
    Inc bytes base stop (R + gain op (a.step op).1) br (a.step op).2 := by
  cases hr : isReceive op with
  | false =>
    obtain ⟨w, _, hl, hb, _, _, hs⟩ := step_other a h.wf op hr
    have hg : gain op (a.step op).1 = 0 := by
      cases (a.step op).1 <;> simp [gain, hr]
    rw [hg, Int.add_zero]
    rcases hs with ⟨h3, b, e⟩ | h3
    · rw [e] at w ⊢
      exact ⟨w, h.br, h.lel, h.raw, h.ini, h.full⟩
    · refine ⟨w, hb.trans h.br, by rw [hl]; exact h.lel, fun hc => ?_, fun hc => ?_, fun hc => ?_⟩ <;> omega
  | true =>
    have w := step_wf a h.wf op
    rcases step_receive a op hr with ⟨_, e⟩ | ⟨_, _, _, e⟩ | ⟨hc, ⟨b, e, hb⟩ | ⟨b, e, hb⟩⟩ <;> rw [e] at w ⊢
    · simpa [gain] using h
    · simpa [gain] using h
    · simp only [gain, Int.add_zero]
      exact ⟨w, h.br, h.lel, h.raw, h.ini, h.full⟩
    · have hst : a.state < 3 := by rcases hc with ⟨_, h, _⟩ | ⟨_, _, h⟩ <;> omega
      obtain ⟨h1, h2⟩ := h.raw hst
      have hbr : br = false := by
        rcases hc with ⟨_, _, h'⟩ | ⟨_, h', h''⟩
        · rw [← h.br]; exact h'
        · exact (h.full (by omega)).1
      simp only [gain, hr, if_true]
      refine ⟨w, h.br, h.lel, fun _ => ⟨h1, by simp only [h2]; omega⟩, ?_, ?_⟩
      · simp only; intro hq; split at hq <;> omega
      · simp only
        intro _
        refine ⟨hbr, ?_⟩
        rw [h1, h2]
        have := h.lel
        by_cases hq : base + R + a.toBeProcessed = (bytes.length : Int) - a.lelength
        · rw [if_pos hq]; simp; omega
        · rw [if_neg hq]; simp; omega

theorem Inc.run {bytes : List Int} {base stop R : Int} {br : Bool} {a : APDU} (h : Inc bytes base stop R br a) (ops : List Op) :
    Inc bytes base stop (R + total (trace a ops)) br (a.run ops) := by
  induction ops generalizing a R with
  | nil => simpa [trace, total, run_nil] using h
  | cons op ops ih =>
    rw [run_cons, trace, total_cons, ← Int.add_assoc]
    exact ih (h.step op)

theorem built_inc (bytes : List Int) (k : Nat) (ty nc : Int) (ne : Option Int) (lel cd : Int) (br : Bool)
    (hk : k ≤ bytes.length) (h7 : k ≤ 7) :
    Inc bytes k (bytes.length - lel) 0 br (built bytes k ty nc ne lel cd br) := by
  refine ⟨⟨Int.le_refl _, by simp [built, STATE_INITIAL], by simp [built, STATE_INITIAL],
    built_buffer_length _ _ _ _ _ _ _ _ hk h7⟩, rfl, rfl, fun _ => ⟨rfl, by simp [built]⟩, fun _ => rfl, ?_⟩
  intro h
  simp [built, STATE_INITIAL] at h

/-- C25. For every accepted command with data, or short command without data and Le, and every history of
calls with any arguments: while incoming (state 1 or 2), the state is "full incoming" exactly when the
successful receiving calls have delivered all of the data. -/
theorem C25_full_iff {bytes data : List Int}
    (h : Accepted bytes data ∨ (data = [] ∧ ∃ hdr, ShortCmd hdr data none bytes)) (ops : List Op) :
    ∃ a, APDU.init bytes = .ok a ∧
      ((a.run ops).getCurrentState = 1 ∨ (a.run ops).getCurrentState = 2 →
        ((a.run ops).getCurrentState = 2 ↔ total (trace a ops) = data.length)) := by
  have key : ∃ a base stop, APDU.init bytes = .ok a ∧ Inc bytes base stop 0 false a ∧ stop = base + data.length := by
    rcases h with h | ⟨rfl, hdr, h⟩
    · obtain ⟨a, base, ha, hr, hst, hbr, _, hb7, _⟩ := accepted_recv h
      refine ⟨a, base, base + data.length, ha, ?_, rfl⟩
      refine ⟨⟨by omega, by omega, ?_, hr.buf⟩, hbr, by have := hr.len; omega,
        fun _ => ⟨hr.raw, by rw [hr.off]; simp⟩, fun _ => rfl, fun hc => by omega⟩
      have : a.cur = none := by
        cases h with
        | short h hd => rw [short_built h] at ha; injection ha with ha; subst ha; rfl
        | ext h hn =>
          rcases ext4_built h with ⟨_, e⟩ | ⟨_, e⟩ <;> rw [e] at ha <;> injection ha with ha <;> subst ha <;> rfl
      simp [this, hst]
    · have hl := (shortCmd_length h).2
      simp at hl
      refine ⟨_, 4, _, short_built h, built_inc _ 4 _ _ _ _ _ _ (by omega) (by omega), ?_⟩
      simp [leBytes, hl]
  obtain ⟨a, base, stop, ha, hi, hs⟩ := key
  refine ⟨a, ha, fun hc => ?_⟩
  have := ((hi.run ops).full hc).2
  unfold APDU.getCurrentState at *
  rw [this]
  omega

example : Accepted [0, 0, 0, 0, 1, 9] [9] :=
  .short (hdr := [0, 0, 0, 0]) (ne := none) ⟨rfl, [1], [], .inr ⟨by simp, by simp, 1, rfl, by simp [Spells]⟩, .inl ⟨rfl, rfl⟩, rfl⟩ (by simp)

/-- C25. Whatever the byte array and the history, a receiving call that succeeds returns a count between
0 and 128, except that it may return -1 for a five-byte command. -/
theorem C25_counts {bytes : List Int} (hb : AnyBytes bytes) {a : APDU} (ha : APDU.init bytes = .ok a)
    (ops : List Op) (op : Op) (hop : op = .setIncomingAndReceive ∨ ∃ o, op = .receiveBytes o) (v : Int)
    (hv : ((a.run ops).step op).1 = .ok v) :
    (0 ≤ v ∧ v ≤ 128) ∨ (v = -1 ∧ bytes.length = 5) := by
  obtain ⟨k, ty, nc, ne, lel, cd, br, rfl, h4, h7, hk, hl, hcase⟩ := init_built hb ha
  -- the offset never passes the end of the data
  have inv : ∀ (ops : List Op) (x : APDU) (R : Int), Inc bytes k (bytes.length - lel) R br x →
      ((k : Int) + R ≤ bytes.length - lel ∨ (bytes.length = 5 ∧ k = 5 ∧ lel = 1 ∧ R = 0) ∨ br = true) →
      ∃ R', Inc bytes k (bytes.length - lel) R' br (x.run ops) ∧
        ((k : Int) + R' ≤ bytes.length - lel ∨ (bytes.length = 5 ∧ k = 5 ∧ lel = 1 ∧ R' = 0) ∨ br = true) := by
    intro ops
    induction ops with
    | nil => intro x R h h'; exact ⟨R, h, h'⟩
    | cons op ops ih =>
      intro x R h h'
      rw [run_cons]
      refine ih _ _ (h.step op) ?_
      by_cases hbr : br = true
      · exact .inr (.inr hbr)
      cases hr : isReceive op with
      | false =>
        have hg : gain op (x.step op).1 = 0 := by cases (x.step op).1 <;> simp [gain, hr]
        rw [hg, Int.add_zero]; exact h'
      | true =>
        rcases step_receive x op hr with ⟨_, e⟩ | ⟨_, _, _, e⟩ | ⟨hc, ⟨b, e, hb⟩ | ⟨b, e, hb⟩⟩ <;> rw [e]
        · simpa [gain] using h'
        · simpa [gain] using h'
        · simpa [gain] using h'
        · left
          have hst : x.state < 3 := by rcases hc with ⟨_, h, _⟩ | ⟨_, _, h⟩ <;> omega
          obtain ⟨h1, h2⟩ := h.raw hst
          have h3 := h.lel
          simp only [gain, hr, if_true]
          have : x.toBeProcessed = min 128 ((bytes.length : Int) - (k + R) - x.lelength) := by
            unfold APDU.toBeProcessed IN_BLOCKSIZE; rw [h1, h2]
          omega
  obtain ⟨R, hi, hR⟩ := inv ops _ 0 (built_inc bytes k ty nc ne lel cd br hk h7) (by
    rcases hcase with h | ⟨h, h', h''⟩ | h
    · left; omega
    · right; left; exact ⟨h, h', h'', rfl⟩
    · right; right; exact h)
  have hr : isReceive op = true := by rcases hop with rfl | ⟨o, rfl⟩ <;> rfl
  generalize (built bytes k ty nc ne lel cd br).run ops = x at hi hv
  rcases step_receive x op hr with ⟨_, e⟩ | ⟨_, _, _, e⟩ | ⟨hc, ⟨b, e, hb⟩ | ⟨b, e, hb⟩⟩ <;> rw [e] at hv
  · cases hv
  · cases hv
  · cases hv
  · injection hv with hv
    have hst : x.state < 3 := by rcases hc with ⟨_, h, _⟩ | ⟨_, _, h⟩ <;> omega
    obtain ⟨h1, h2⟩ := hi.raw hst
    have h3 := hi.lel
    have hbr : br = false := by
      rcases hc with ⟨_, _, h'⟩ | ⟨_, h', h''⟩
      · rw [← hi.br]; exact h'
      · exact (hi.full (by omega)).1
    have ht : x.toBeProcessed = min 128 ((bytes.length : Int) - (k + R) - x.lelength) := by
      unfold APDU.toBeProcessed IN_BLOCKSIZE; rw [h1, h2]
    rcases hR with h | ⟨h, h', h'', h'''⟩ | h
    · left; omega
    · right; omega
    · rw [hbr] at h; cases h

/-- C25. The exception occurs: on every five-byte command the first receive returns -1. -/
theorem C25_minus_one (bytes : List Int) (h : bytes.length = 5) :
    ∃ a, APDU.init bytes = .ok a ∧ a.setIncomingAndReceive.1 = .ok (-1) := by
  refine ⟨_, init_A bytes h, ?_⟩
  rw [setIncoming_built _ _ _ _ _ _ _ (by omega) (by omega) (by omega), h]
  rfl

/-- C25. On every five-byte command, whatever the history: an APDU that has been received from at all is
full at once (the state is never "partial incoming"), and the counts returned add up to the -1 of the
first call. -/
theorem C25_case2 (bytes : List Int) (h5 : bytes.length = 5) (ops : List Op) :
    ∃ a, APDU.init bytes = .ok a ∧ (a.run ops).getCurrentState ≠ 1 ∧
      ((a.run ops).getCurrentState = 2 → total (trace a ops) = -1) := by
  refine ⟨_, init_A bytes h5, ?_⟩
  have hi := built_inc bytes 5 2 0 (some (le1 bytes[4])) 1 5 false (by omega) (by omega)
  have h0 : (built bytes 5 2 0 (some (le1 bytes[4])) 1 5 false).state = 0 := rfl
  generalize built bytes 5 2 0 (some (le1 bytes[4])) 1 5 false = a at hi h0 ⊢
  have hs : (((5 : Nat) : Int) : Int) = 5 ∧ ((bytes.length : Int) - 1) = 4 := by omega
  rw [hs.1, hs.2] at hi
  have inv : ∀ (ops : List Op) (x : APDU) (R : Int), Inc bytes 5 4 R false x →
      (x.state = 1 ∨ x.state = 2 → R = -1) →
      ((x.run ops).state = 1 ∨ (x.run ops).state = 2 → R + total (trace x ops) = -1) := by
    intro ops
    induction ops with
    | nil => intro x R _ h'; simpa [trace, total, run_nil] using h'
    | cons op ops ih =>
      intro x R h h'
      rw [run_cons, trace, total_cons, ← Int.add_assoc]
      refine ih _ _ (h.step op) ?_
      cases hr : isReceive op with
      | false =>
        have hg : gain op (x.step op).1 = 0 := by cases (x.step op).1 <;> simp [gain, hr]
        rw [hg, Int.add_zero]
        obtain ⟨_, _, _, _, _, _, ⟨_, b, e⟩ | h3⟩ := step_other x h.wf op hr
        · rw [e]; exact h'
        · intro hc; omega
      | true =>
        rcases step_receive x op hr with ⟨_, e⟩ | ⟨_, _, _, e⟩ | ⟨hc, ⟨b, e, hb⟩ | ⟨b, e, hb⟩⟩ <;> rw [e]
        · simpa [gain] using h'
        · simpa [gain] using h'
        · simpa [gain] using h'
        · intro _
          have hst : 0 ≤ x.state ∧ x.state < 3 := ⟨h.wf.1, by rcases hc with ⟨_, h, _⟩ | ⟨_, _, h⟩ <;> omega⟩
          obtain ⟨h1, h2⟩ := h.raw hst.2
          have h3 := h.lel
          have h4 := h.ini
          simp only [gain, hr, if_true]
          have : x.toBeProcessed = min 128 ((bytes.length : Int) - (5 + R) - x.lelength) := by
            unfold APDU.toBeProcessed IN_BLOCKSIZE; rw [h1, h2]
          by_cases hz : x.state = 0
          · have := h4 hz; omega
          · have := h' (by omega); omega
  have hf := (hi.run ops).full
  have ht := inv ops a 0 hi (fun hc => by omega)
  simp only [Int.zero_add] at hf ht
  unfold APDU.getCurrentState
  refine ⟨fun hc => ?_, fun hc => ht (.inr hc)⟩
  have := (hf (.inl hc)).2
  have := ht (.inl hc)
  omega

example : ([0, 0xB0, 0, 0, 16] : List Int).length = 5 := rfl

/-! ### C26 -/

/-- Phases: 0 initial, 1 incoming, 2 outgoing. -/
def phase (s : Int) : Nat := if s = 0 then 0 else if s < 3 then 1 else 2

theorem step_phase (a : APDU) (hw : WF a) (op : Op) : phase a.state ≤ phase (a.step op).2.state := by
  cases hr : isReceive op with
  | false =>
    obtain ⟨_, _, _, _, _, _, hs⟩ := step_other a hw op hr
    rcases hs with ⟨_, b, e⟩ | h3
    · rw [e]; exact Nat.le_refl _
    · unfold phase
      rw [if_neg (show ¬ (a.step op).2.state = 0 by omega), if_neg (show ¬ (a.step op).2.state < 3 by omega)]
      split
      · omega
      · split <;> omega
  | true =>
    have := hw.lo
    rcases step_receive a op hr with ⟨_, e⟩ | ⟨_, _, _, e⟩ | ⟨hc, ⟨b, e, hb⟩ | ⟨b, e, hb⟩⟩ <;> rw [e]
    · exact Nat.le_refl _
    · exact Nat.le_refl _
    · exact Nat.le_refl _
    · have hst : a.state < 3 := by rcases hc with ⟨_, h, _⟩ | ⟨_, _, h⟩ <;> omega
      simp only [phase]
      by_cases hq : a.offsetincoming + a.toBeProcessed = (a.raw.length : Int) - a.lelength
      · simp only [hq, if_true]; split
        · omega
        · simp
      · simp only [hq, if_false]; split
        · omega
        · simp

/-- C26. From any point of a history, the phase never goes back. -/
theorem C26_forward {bytes : List Int} (hb : AnyBytes bytes) {a : APDU} (ha : APDU.init bytes = .ok a)
    (x y : List Op) :
    phase (a.run x).getCurrentState ≤ phase (a.run (x ++ y)).getCurrentState ∧
    0 ≤ (a.run x).getCurrentState ∧ (a.run x).getCurrentState ≤ 6 := by
  have hx := run_wf a (init_wf hb ha) x
  refine ⟨?_, hx.lo, hx.hi⟩
  rw [run_append]
  unfold APDU.getCurrentState
  generalize a.run x = b at hx
  induction y generalizing b with
  | nil => exact Nat.le_refl _
  | cons op ops ih =>
    rw [run_cons]
    exact Nat.le_trans (step_phase b hx op) (ih _ (step_wf b hx op))

/-- C26. Once outgoing, receiving calls raise ILLEGAL_USE for ever and change nothing. -/
theorem C26_no_more_receiving {bytes : List Int} (hb : AnyBytes bytes) {a : APDU} (ha : APDU.init bytes = .ok a)
    (x y : List Op) (h : 3 ≤ (a.run x).getCurrentState) (op : Op)
    (hop : op = .setIncomingAndReceive ∨ ∃ o, op = .receiveBytes o) :
    (a.run (x ++ y)).step op = (.error (.apdu 2), a.run (x ++ y)) := by
  have h1 := (C26_forward hb ha x y).1
  have h2 := (C26_forward hb ha (x ++ y) []).2
  have hp : phase (a.run x).getCurrentState = 2 := by
    unfold phase; rw [if_neg (by omega), if_neg (by omega)]
  rw [hp] at h1
  have h3 : 3 ≤ (a.run (x ++ y)).state := by
    apply Int.not_lt.1
    intro h
    have : phase (a.run (x ++ y)).getCurrentState ≤ 1 := by
      unfold phase APDU.getCurrentState; split
      · omega
      · exact Nat.le_refl _
    omega
  have hr : isReceive op = true := by rcases hop with rfl | ⟨o, rfl⟩ <;> rfl
  rcases step_receive _ op hr with ⟨_, e⟩ | ⟨_, h', _, e⟩ | ⟨hc, _⟩
  · exact e
  · omega
  · rcases hc with ⟨_, h', _⟩ | ⟨_, _, h'⟩ <;> omega

/-- Is it a call that opens the outgoing phase? -/
def opensOutgoing : Op → Bool
  | .setOutgoing => true
  | .setOutgoingAndSend _ _ => true
  | _ => false

/-- Is it `setIncomingAndReceive`? -/
def isSetIncoming : Op → Bool
  | .setIncomingAndReceive => true
  | _ => false

theorem successes_cons (p : Op → Bool) (op : Op) (r : Except Err Int) (t : List (Op × Except Err Int)) :
    successes p ((op, r) :: t) = (match r with | .ok _ => if p op then 1 else 0 | .error _ => 0) + successes p t := by
  cases r <;> simp [successes]

theorem phase_one {s : Int} (_ : 0 ≤ s) : 1 ≤ phase s ↔ s ≠ 0 := by
  unfold phase; split
  · simp [*]
  · split <;> simp [*]

theorem phase_two {s : Int} (_ : 0 ≤ s) : 2 ≤ phase s ↔ 3 ≤ s := by
  unfold phase; split
  · simp; omega
  · split
    · simp; omega
    · simp; omega

/-- C26. Over any history, `setIncomingAndReceive` succeeds at most once. -/
theorem C26_set_incoming_once {bytes : List Int} (hb : AnyBytes bytes) {a : APDU} (ha : APDU.init bytes = .ok a)
    (ops : List Op) : successes isSetIncoming (trace a ops) ≤ 1 := by
  have hw := init_wf hb ha
  clear ha
  have zero : ∀ (ops : List Op) (b : APDU), WF b → b.state ≠ 0 → successes isSetIncoming (trace b ops) = 0 := by
    intro ops
    induction ops with
    | nil => intros; rfl
    | cons op ops ih =>
      intro b hw h
      rw [trace, successes_cons]
      have hn : (b.step op).2.state ≠ 0 := by
        have := step_phase b hw op
        have := (phase_one hw.lo).2 h
        exact (phase_one (step_wf b hw op).lo).1 (by omega)
      rw [ih _ (step_wf b hw op) hn]
      cases op with
      | setIncomingAndReceive =>
        rcases step_receive b .setIncomingAndReceive rfl with ⟨_, e⟩ | ⟨_, h', _, e⟩ | ⟨hc, _⟩
        · rw [e]
        · exact absurd h' h
        · rcases hc with ⟨_, h', _⟩ | ⟨h', _⟩
          · exact absurd h' h
          · exact absurd rfl h'
      | _ => simp only [isSetIncoming]; cases (b.step _).1 <;> simp
  induction ops generalizing a with
  | nil => simp [trace, successes]
  | cons op ops ih =>
    rw [trace, successes_cons]
    by_cases hs : (a.step op).2.state = 0
    · have := ih (step_wf a hw op)
      have h0 : (match (a.step op).1 with | .ok _ => if isSetIncoming op then 1 else 0 | .error _ => 0) = 0 := by
        cases op with
        | setIncomingAndReceive =>
          rcases step_receive a .setIncomingAndReceive rfl with ⟨_, e⟩ | ⟨_, h', _, e⟩ | ⟨hc, ⟨b, e, _⟩ | ⟨b, e, _⟩⟩
          · rw [e]
          · rw [e]
          · rw [e]
          · rw [e] at hs; simp only at hs; split at hs <;> omega
        | _ => simp only [isSetIncoming]; cases (a.step _).1 <;> simp
      omega
    · rw [zero ops _ (step_wf a hw op) hs]
      cases (a.step op).1 <;> simp; split <;> omega

/-- C26. Over any history, the calls that open the outgoing phase (`setOutgoing`,
`setOutgoingAndSend`) succeed at most once altogether. -/
theorem C26_set_outgoing_once {bytes : List Int} (hb : AnyBytes bytes) {a : APDU} (ha : APDU.init bytes = .ok a)
    (ops : List Op) : successes opensOutgoing (trace a ops) ≤ 1 := by
  have hw := init_wf hb ha
  clear ha
  have zero : ∀ (ops : List Op) (b : APDU), WF b → 3 ≤ b.state → successes opensOutgoing (trace b ops) = 0 := by
    intro ops
    induction ops with
    | nil => intros; rfl
    | cons op ops ih =>
      intro b hw h
      rw [trace, successes_cons]
      have hn : 3 ≤ (b.step op).2.state := by
        have := step_phase b hw op
        have := (phase_two hw.lo).2 h
        exact (phase_two (step_wf b hw op).lo).1 (by omega)
      rw [ih _ (step_wf b hw op) hn]
      cases op with
      | setOutgoing =>
        simp only [APDU.step]
        rcases setOutgoing_cases b with ⟨_, e⟩ | ⟨h', _⟩
        · rw [e]
        · omega
      | setOutgoingAndSend o l =>
        simp only [APDU.step]
        rcases setOutgoingAndSend_cases b o l with ⟨_, e⟩ | ⟨h', _⟩
        · rw [e]; rfl
        · omega
      | _ => simp only [opensOutgoing]; cases (b.step _).1 <;> simp
  induction ops generalizing a with
  | nil => simp [trace, successes]
  | cons op ops ih =>
    rw [trace, successes_cons]
    by_cases hs : 3 ≤ (a.step op).2.state
    · rw [zero ops _ (step_wf a hw op) hs]
      cases (a.step op).1 <;> simp; split <;> omega
    · have := ih (step_wf a hw op)
      have h0 : (match (a.step op).1 with | .ok _ => if opensOutgoing op then 1 else 0 | .error _ => 0) = 0 := by
        cases op with
        | setOutgoing =>
          simp only [APDU.step] at hs ⊢
          rcases setOutgoing_cases a with ⟨_, e⟩ | ⟨_, e⟩
          · rw [e]
          · rw [e] at hs; simp at hs
        | setOutgoingAndSend o l =>
          simp only [APDU.step] at hs ⊢
          rcases setOutgoingAndSend_cases a o l with ⟨_, e⟩ | ⟨_, ⟨_, e⟩ | ⟨_, ⟨_, e⟩ | ⟨_, e⟩⟩⟩
          · rw [e]; rfl
          · rw [e]; rfl
          · rw [e]; rfl
          · rw [e] at hs
            have := sentState_state { a with state := 4, cur := some 0, outgoinglength := l } 0 a.buffer o l
            simp only at hs
            omega
        | _ => simp only [opensOutgoing]; cases (a.step _).1 <;> simp
      omega

/-- C26. A call rejected by a check (anything but the built-in IndexError of an out-of-range receive)
leaves the object unchanged; `setOutgoingAndSend`, which is three calls in one, excepted. -/
theorem C26_rejected_unchanged (a : APDU) (op : Op) (e : Err) (h : (a.step op).1 = .error e)
    (he : e ≠ .indexError) (hop : ∀ o l, op ≠ .setOutgoingAndSend o l) : (a.step op).2 = a := by
  have hfrom : ∀ d o l e, (a.sendFrom d o l).1 = .error e → (a.sendFrom d o l).2 = a := by
    intro d o l e h
    rcases sendFrom_cases a d o l with ⟨_, e⟩ | ⟨c, _, _, e⟩ | ⟨c, hc, _, e⟩ <;> rw [e] at h ⊢
    cases h
  have hmap : ∀ (r : Except Err Unit) e, (r.map fun _ => (0 : Int)) = .error e → r = .error e := by
    intro r e h; cases r
    · simpa [Except.map] using h
    · cases h
  cases hr : isReceive op with
  | true =>
    rcases step_receive a op hr with ⟨_, e'⟩ | ⟨_, _, _, e'⟩ | ⟨hc, ⟨b, e', hb⟩ | ⟨b, e', hb⟩⟩ <;> rw [e'] at h ⊢
    · injection h with h; exact absurd h.symm he
    · cases h
  | false =>
    cases op with
    | setIncomingAndReceive => cases hr
    | receiveBytes o => cases hr
    | setOutgoing =>
      simp only [APDU.step] at h ⊢
      rcases setOutgoing_cases a with ⟨_, e'⟩ | ⟨_, e'⟩ <;> rw [e'] at h ⊢
      cases h
    | setOutgoingLength l =>
      simp only [APDU.step] at h ⊢
      rcases setOutgoingLength_cases a l with ⟨_, e'⟩ | ⟨_, _, e'⟩ | ⟨_, _, e'⟩ <;> rw [e'] at h ⊢
      cases h
    | sendBytes o l =>
      simp only [APDU.step] at h ⊢
      rcases sendBytes_cases a o l with ⟨_, e'⟩ | ⟨_, e'⟩ <;> rw [e'] at h ⊢
      exact hfrom _ _ _ _ (hmap _ _ h)
    | sendBytesLong d o l =>
      simp only [APDU.step] at h ⊢
      rw [sendBytesLong_eq] at h ⊢
      exact hfrom _ _ _ _ (hmap _ _ h)
    | setOutgoingAndSend o l => exact absurd rfl (hop o l)
    | poke i v =>
      simp only [APDU.step] at h ⊢
      rcases poke_cases a i v with ⟨_, e'⟩ | ⟨_, _, e'⟩ <;> rw [e'] at h ⊢
      cases h

/-- C26. `setOutgoingAndSend` is the exception: rejected with BAD_LENGTH, it has moved to outgoing. -/
theorem C26_set_outgoing_and_send_rejected (a : APDU) (ne o l : Int) (hs : a.state < 3) (hne : a.Ne = some ne)
    (hl : ne < l) : ∃ a', a.setOutgoingAndSend o l = (.error (.apdu 0), a') ∧ a'.getCurrentState = 3 := by
  rcases setOutgoingAndSend_cases a o l with ⟨h, _⟩ | ⟨_, ⟨_, e⟩ | ⟨h, _⟩⟩
  · omega
  · exact ⟨_, e, rfl⟩
  · have := h ne hne; omega

set_option maxRecDepth 4000 in
example : ∃ a, APDU.init [0, -80, 0, 0, 5] = .ok a ∧ a.state < 3 ∧ a.Ne = some 5 :=
  ⟨_, rfl, by decide, rfl⟩

/-! ### C28 -/

/-- C28. `setOutgoingLength` after `setOutgoing` raises BAD_LENGTH exactly when an expected length is
known and smaller; otherwise it succeeds. -/
theorem C28_set_outgoing_length (a : APDU) (len : Int) (h : 3 ≤ a.getCurrentState) :
    ((∃ ne, a.Ne = some ne ∧ ne < len) ↔ (a.setOutgoingLength len).1 = .error (.apdu 0)) ∧
    ((¬ ∃ ne, a.Ne = some ne ∧ ne < len) ↔ (a.setOutgoingLength len).1 = .ok ()) := by
  unfold APDU.getCurrentState at h
  rcases setOutgoingLength_cases a len with ⟨h1, _⟩ | ⟨_, h1, e⟩ | ⟨_, h1, e⟩
  · omega
  · rw [e]; simp [h1, BAD_LENGTH]
  · rw [e]
    have : ¬ ∃ ne, a.Ne = some ne ∧ ne < len := by
      rintro ⟨ne, h2, h3⟩; have := h1 ne h2; omega
    simp [this]

/-- C28. Before `setOutgoing`, `setOutgoingLength` and `sendBytes` raise ILLEGAL_USE, unchanged. -/
theorem C28_before_outgoing (a : APDU) (h : a.getCurrentState < 3) (len o l : Int) :
    a.setOutgoingLength len = (.error (.apdu 2), a) ∧ a.sendBytes o l = (.error (.apdu 2), a) := by
  unfold APDU.getCurrentState at h
  constructor
  · rcases setOutgoingLength_cases a len with ⟨_, e⟩ | ⟨h1, _⟩ | ⟨h1, _⟩
    · exact e
    · omega
    · omega
  · rcases sendBytes_cases a o l with ⟨_, e⟩ | ⟨h1, _⟩
    · exact e
    · omega

/-- C28. `setOutgoing` raises ILLEGAL_USE exactly in the outgoing phase; otherwise it returns the expected
length (0 if none). -/
theorem C28_set_outgoing (a : APDU) :
    (3 ≤ a.getCurrentState → a.setOutgoing = (.error (.apdu 2), a)) ∧
    (a.getCurrentState < 3 → a.setOutgoing.1 = .ok (a.Ne.getD 0)) := by
  unfold APDU.getCurrentState
  rcases setOutgoing_cases a with ⟨h, e⟩ | ⟨h, e⟩
  · exact ⟨fun _ => e, fun h' => by omega⟩
  · refine ⟨fun h' => by omega, fun _ => ?_⟩
    rw [e]; simp only [APDU.getOutgoingLength]
    cases a.Ne <;> rfl

/-- C28. The check in `sendBytesLong` never fires: in every state it behaves as if it were absent. In every
history, before `setOutgoing` the call fails with a Python AttributeError. -/
theorem C28_send_bytes_long (a : APDU) (d : List Int) (o l : Int) : (a.sendBytesLong d o l).1 ≠ .error (.apdu 2) := by
  rw [sendBytesLong_eq]
  rcases sendFrom_cases a d o l with ⟨_, e⟩ | ⟨c, _, _, e⟩ | ⟨c, hc, _, e⟩ <;> rw [e] <;> simp [BUFFER_BOUNDS]

theorem C28_send_bytes_long_before {bytes : List Int} (hb : AnyBytes bytes) {a : APDU} (ha : APDU.init bytes = .ok a)
    (ops : List Op) (h : (a.run ops).getCurrentState < 3) (d : List Int) (o l : Int) :
    (a.run ops).sendBytesLong d o l = (.error .attributeError, a.run ops) := by
  have hw := run_wf a (init_wf hb ha) ops
  have hc := hw.cur.1 h
  rw [sendBytesLong_eq]
  rcases sendFrom_cases (a.run ops) d o l with ⟨_, e⟩ | ⟨c, h', _, e⟩ | ⟨c, h', _, e⟩
  · exact e
  · rw [hc] at h'; cases h'
  · rw [hc] at h'; cases h'

example : AnyBytes [0, -80, 0, 0, 5] ∧ ∃ a, APDU.init [0, -80, 0, 0, 5] = .ok a :=
  ⟨by intro x hx; simp at hx; omega, _, init_A _ rfl⟩

end Verif.Props
