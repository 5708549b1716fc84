import Verif.Props.APDURun
import Verif.Props.ArraysWrap
/-! C105: which exception every call on an APDU raises, and when. -/
namespace Verif.Props
open Verif.Py Verif.Model Verif.Spec Verif.Model.APDU APDUHist

/-- Specification: the number of response bytes sent since the outgoing phase, or the announced length, was last set, read off a history of calls and
their outcomes (`n` bytes before it). -/
def sentBytes (n : Int) : List (Op × Except Err Int) → Int
  | [] => n
  | (.setOutgoing, .ok _) :: t => sentBytes 0 t
  | (.setOutgoingLength _, .ok _) :: t => sentBytes 0 t
  | (.sendBytes _ l, .ok _) :: t => sentBytes (n + l) t
  | (.sendBytesLong _ _ l, .ok _) :: t => sentBytes (n + l) t
  | (.setOutgoingAndSend _ l, .ok _) :: t => sentBytes l t
  | _ :: t => sentBytes n t

/-- Specification: the exception a call raises, from what the applet can know: the state `s` before the call, whether the command's lengths are
inconsistent, the number of data bytes not yet received, the expected length, and the number of bytes already sent. -/
def verdict (s : Int) (inconsistent : Bool) (left : Int) (ne : Option Int) (sent : Int) : Op → Option Err
  | .setIncomingAndReceive => if s ≠ 0 then some (.apdu 2) else if inconsistent then some (.iso 0x6700) else none
  | .receiveBytes o =>
    if s ≠ 1 ∧ s ≠ 2 then some (.apdu 2)
    else if left ≤ 0 ∨ (-257 ≤ o ∧ o + min 128 left ≤ 257) then none else some .indexError
  | .setOutgoing => if 3 ≤ s then some (.apdu 2) else none
  | .setOutgoingLength l => if s < 3 then some (.apdu 2) else if ne.any (· < l) then some (.apdu 0) else none
  | .sendBytes _ l => if s < 3 then some (.apdu 2) else if 256 < sent + l then some (.apdu 1) else none
  | .sendBytesLong _ _ l => if s < 3 then some .attributeError else if 256 < sent + l then some (.apdu 1) else none
  | .setOutgoingAndSend _ l =>
    if 3 ≤ s then some (.apdu 2) else if ne.any (· < l) then some (.apdu 0) else if 256 < l then some (.apdu 1) else none
  | .poke i _ => if -257 ≤ i ∧ i < 257 then none else some .indexError

/-- The exception of an outcome, if it is one. -/
def raised {α : Type} : Except Err α → Option Err
  | .ok _ => none
  | .error e => some e

/-- Where the next response byte goes agrees with the count. -/
def Cur (n : Int) (a : APDU) : Prop := (a.state < 3 → n = 0) ∧ ∀ c, a.cur = some c → c = n

/-- The count after one call. -/
def sentStep (n : Int) (op : Op) (r : Except Err Int) : Int := sentBytes n [(op, r)]

theorem sentBytes_cons (n : Int) (op : Op) (r : Except Err Int) (t : List (Op × Except Err Int)) :
    sentBytes n ((op, r) :: t) = sentBytes (sentStep n op r) t := by
  cases op <;> cases r <;> rfl

theorem cur_recv (n : Int) (a : APDU) (h : Cur n a) (hw : WF a) (op : Op) (hr : isReceive op = true) : Cur n (a.step op).2 := by
  have h3 : ∀ c, a.cur = some c → ¬ a.state < 3 := by
    intro c hc hs
    rw [hw.cur.1 hs] at hc
    cases hc
  rcases step_receive a op hr with ⟨_, e⟩ | ⟨_, _, _, e⟩ | ⟨hc, ⟨b, e, _⟩ | ⟨b, e, _⟩⟩ <;> rw [e]
  · exact h
  · exact h
  · exact h
  · have hs : a.state < 3 := by rcases hc with ⟨_, h, _⟩ | ⟨_, _, h⟩ <;> omega
    exact ⟨fun _ => h.1 hs, fun c hc => absurd hs (h3 c hc)⟩

theorem cur_sendFrom (n : Int) (a : APDU) (h : Cur n a) (hw : WF a) (d : List Int) (o l : Int) :
    match (a.sendFrom d o l).1 with
    | .ok _ => Cur (n + l) (a.sendFrom d o l).2 ∧ 3 ≤ a.state ∧ n + l ≤ 256
    | .error e => (a.sendFrom d o l).2 = a ∧ (a.state < 3 → e = .attributeError) ∧ (3 ≤ a.state → e = .apdu 1 ∧ 256 < n + l) := by
  rcases sendFrom_cases a d o l with ⟨hc, e⟩ | ⟨c, hc, hl, e⟩ | ⟨c, hc, hl, e⟩ <;> rw [e] <;> simp only
  · refine ⟨trivial, fun _ => trivial, fun h3 => ?_⟩
    have := hw.cur.2 hc
    omega
  · have hs : ¬ a.state < 3 := fun hs => by rw [hw.cur.1 hs] at hc; cases hc
    have := h.2 c hc
    exact ⟨trivial, fun h => absurd h hs, fun _ => ⟨rfl, by omega⟩⟩
  · have hs : ¬ a.state < 3 := fun hs => by rw [hw.cur.1 hs] at hc; cases hc
    have := h.2 c hc
    refine ⟨⟨fun h3 => ?_, fun c' hc' => ?_⟩, by omega, by omega⟩
    · have := sentState_state a c d o l; omega
    · unfold sentState at hc'; injection hc' with hc'; omega

theorem cur_step (n : Int) (a : APDU) (h : Cur n a) (hw : WF a) (op : Op) : Cur (sentStep n op (a.step op).1) (a.step op).2 := by
  have out : ∀ s m l, 3 ≤ s → m = 0 → Cur m { a with state := s, cur := some 0, outgoinglength := l } := by
    intro s m l hs hm
    refine ⟨fun h3 => hm, fun c hc => ?_⟩
    injection hc with hc
    omega
  cases op with
  | setIncomingAndReceive =>
    have := cur_recv n a h hw .setIncomingAndReceive rfl
    cases hr : (a.step .setIncomingAndReceive).1 <;> exact this
  | receiveBytes o =>
    have := cur_recv n a h hw (.receiveBytes o) rfl
    cases hr : (a.step (.receiveBytes o)).1 <;> exact this
  | setOutgoing =>
    simp only [step]
    rcases setOutgoing_cases a with ⟨_, e⟩ | ⟨_, e⟩ <;> rw [e]
    · exact h
    · exact out 3 _ _ (by omega) rfl
  | setOutgoingLength l =>
    simp only [step]
    rcases setOutgoingLength_cases a l with ⟨_, e⟩ | ⟨_, _, e⟩ | ⟨_, _, e⟩ <;> rw [e]
    · exact h
    · exact h
    · exact out 4 _ _ (by omega) rfl
  | sendBytes o l =>
    simp only [step]
    rcases sendBytes_cases a o l with ⟨_, e⟩ | ⟨_, e⟩ <;> rw [e]
    · exact h
    · have := cur_sendFrom n a h hw a.buffer o l
      generalize hr : a.sendFrom a.buffer o l = r at this
      obtain ⟨r1, r2⟩ := r
      cases r1 with
      | ok v => exact this.1
      | error e => simp only at this; simp only [Except.map, sentStep, sentBytes]; rw [this.1]; exact h
  | sendBytesLong d o l =>
    simp only [step]
    rw [sendBytesLong_eq]
    have := cur_sendFrom n a h hw d o l
    generalize hr : a.sendFrom d o l = r at this
    obtain ⟨r1, r2⟩ := r
    cases r1 with
    | ok v => exact this.1
    | error e => simp only at this; simp only [Except.map, sentStep, sentBytes]; rw [this.1]; exact h
  | setOutgoingAndSend o l =>
    simp only [step]
    rcases setOutgoingAndSend_cases a o l with ⟨h1, e⟩ | ⟨h1, ⟨_, e⟩ | ⟨_, ⟨_, e⟩ | ⟨_, e⟩⟩⟩ <;> rw [e]
    · exact h
    · exact out 3 n _ (by omega) (h.1 h1)
    · exact out 4 n _ (by omega) (h.1 h1)
    · refine ⟨fun h3 => ?_, fun c' hc' => ?_⟩
      · have := sentState_state { a with state := 4, cur := some 0, outgoinglength := l } 0 a.buffer o l
        simp only at h3
        omega
      · unfold sentState at hc'
        injection hc' with hc'
        simp only [Except.map, sentStep, sentBytes]
        omega
  | poke i v =>
    simp only [step]
    rcases poke_cases a i v with ⟨_, e⟩ | ⟨b, _, e⟩ <;> rw [e] <;> exact h

theorem cur_run (n : Int) (a : APDU) (h : Cur n a) (hw : WF a) (ops : List Op) : Cur (sentBytes n (trace a ops)) (a.run ops) := by
  induction ops generalizing a n with
  | nil => exact h
  | cons op ops ih =>
    rw [run_cons, trace, sentBytes_cons]
    exact ih _ _ (cur_step n a h hw op) (step_wf a hw op)

theorem any_lt_iff (ne : Option Int) (l : Int) : ne.any (· < l) = true ↔ ∃ n, ne = some n ∧ n < l := by
  cases ne <;> simp

/-- The copying loop succeeds exactly when all indices name cells. -/
theorem copyRange_ok_iff (src dst : List Int) (so d : Int) (i n : Nat) :
    (copyRange src so dst d i n).1 = .ok () ↔ n = 0 ∨ (Reachable src.length (so + i) n ∧ Reachable dst.length (d + i) n) := by
  induction n generalizing dst i with
  | zero => simp [copyRange]
  | succ n ih =>
    unfold copyRange
    by_cases h1 : -(src.length : Int) ≤ so + i ∧ so + i < src.length
    · obtain ⟨p, hp⟩ := names_of_reach _ _ h1
      rw [get_names _ _ _ hp]
      simp only
      by_cases h2 : -(dst.length : Int) ≤ d + i ∧ d + i < dst.length
      · obtain ⟨q, hq⟩ := names_of_reach _ _ h2
        rw [set_names _ _ _ _ hq]
        simp only
        rw [ih]
        unfold Reachable
        simp only [List.length_set]
        omega
      · rw [set_unnamed _ _ _ h2]
        unfold Reachable
        simp only [reduceCtorEq, false_iff]
        rintro (h | ⟨_, h⟩)
        · omega
        · exact h2 ⟨h.1, by have := h.2; push_cast at this; omega⟩
    · rw [get_unnamed _ _ h1]
      unfold Reachable
      simp only [reduceCtorEq, false_iff]
      rintro (h | ⟨h, _⟩)
      · omega
      · exact h1 ⟨h.1, by have := h.2; push_cast at this; omega⟩

theorem recv_verdict (a : APDU) (d : Int) (ho : 0 ≤ a.offsetincoming)
    (hs : a.offsetincoming + a.toBeProcessed ≤ a.raw.length) (hb : a.buffer.length = 257) :
    raised (a.recv d).1 = if a.toBeProcessed ≤ 0 ∨ (-257 ≤ d ∧ d + a.toBeProcessed ≤ 257) then none else some .indexError := by
  have hi := copyRange_ok_iff a.raw a.buffer a.offsetincoming d 0 (rangeLen a.toBeProcessed)
  have he := copyRange_err a.raw a.buffer a.offsetincoming d 0 (rangeLen a.toBeProcessed)
  unfold recv
  simp only
  have hN : (a.toBeProcessed ≤ 0 ∧ rangeLen a.toBeProcessed = 0) ∨ (0 < a.toBeProcessed ∧ (rangeLen a.toBeProcessed : Int) = a.toBeProcessed) := by
    unfold rangeLen; omega
  generalize rangeLen a.toBeProcessed = N at *
  unfold Reachable at hi
  generalize copyRange a.raw a.offsetincoming a.buffer d 0 N = r at *
  obtain ⟨r1, b⟩ := r
  rcases he with h | h <;> simp only at h <;> subst h
  · simp only [true_iff] at hi
    rw [if_pos (show a.toBeProcessed ≤ 0 ∨ (-257 ≤ d ∧ d + a.toBeProcessed ≤ 257) by omega)]; rfl
  · simp only [reduceCtorEq, false_iff] at hi
    rw [if_neg (show ¬ (a.toBeProcessed ≤ 0 ∨ (-257 ≤ d ∧ d + a.toBeProcessed ≤ 257)) by omega)]; rfl

/-- The exception of one call on an object in a state satisfying the invariants. -/
theorem step_verdict {bytes : List Int} {base stop R : Int} {br : Bool} {a : APDU} (h : Inc bytes base stop R br a) {n : Int} (hc : Cur n a)
    (h0 : br = false → 0 ≤ base + R) (hstop : stop ≤ bytes.length) (hini : a.state = 0 → br = false → base + 128 ≤ 257) (op : Op) :
    raised (a.step op).1 = verdict a.state br (stop - base - R) a.Ne n op := by
  have hw := h.wf
  have hl := hw.lo
  have hh := hw.hi
  have tbp : a.state < 3 → a.toBeProcessed = min 128 (stop - base - R) ∧ a.offsetincoming = base + R ∧ (a.raw.length : Int) = bytes.length := by
    intro h3
    obtain ⟨h1, h2⟩ := h.raw h3
    have := h.lel
    refine ⟨?_, h2, by rw [h1]⟩
    unfold toBeProcessed IN_BLOCKSIZE
    rw [h1, h2]
    omega
  cases op with
  | setIncomingAndReceive =>
    simp only [step, verdict]
    rw [setIncoming_recv]
    by_cases hs : a.state = 0
    · rw [if_neg (show ¬ (a.state ≠ STATE_INITIAL) by simp [hs, STATE_INITIAL]), if_neg (show ¬ (a.state ≠ 0) by simp [hs]), h.br]
      cases br with
      | true => rfl
      | false =>
        obtain ⟨t1, t2, t3⟩ := tbp (by omega)
        have := h.ini hs
        have := hini hs rfl
        have := h0 rfl
        simp only [Bool.false_eq_true, if_false]
        rw [recv_verdict a _ (by omega) (by omega) hw.buf, if_pos (by omega)]
    · rw [if_pos (by simpa [STATE_INITIAL] using hs), if_pos hs]; rfl
  | receiveBytes o =>
    simp only [step, verdict]
    rw [receiveBytes_recv]
    by_cases hs : a.state = 1 ∨ a.state = 2
    · rw [if_neg (by simp only [STATE_PARTIAL_INCOMING, STATE_OUTGOING]; omega), if_neg (by omega)]
      obtain ⟨t1, t2, t3⟩ := tbp (by omega)
      have := h0 (h.full hs).1
      rw [recv_verdict a _ (by omega) (by omega) hw.buf, t1]
      by_cases hq : stop - base - R ≤ 0
      · rw [if_pos (by omega), if_pos (.inl hq)]
      · by_cases hq2 : -257 ≤ o ∧ o + min 128 (stop - base - R) ≤ 257
        · rw [if_pos (.inr hq2), if_pos (.inr hq2)]
        · rw [if_neg (by omega), if_neg (by omega)]
    · rw [if_pos (by simp only [STATE_PARTIAL_INCOMING, STATE_OUTGOING]; omega), if_pos (by omega)]; rfl
  | setOutgoing =>
    simp only [step, verdict]
    rcases setOutgoing_cases a with ⟨h1, e⟩ | ⟨h1, e⟩ <;> rw [e]
    · rw [if_pos h1]; rfl
    · rw [if_neg (by omega)]; rfl
  | setOutgoingLength l =>
    simp only [step, verdict]
    rcases setOutgoingLength_cases a l with ⟨h1, e⟩ | ⟨h1, h2, e⟩ | ⟨h1, h2, e⟩ <;> rw [e]
    · rw [if_pos h1]; rfl
    · rw [if_neg (by omega), if_pos ((any_lt_iff _ _).2 h2)]; rfl
    · rw [if_neg (by omega), if_neg (by rw [any_lt_iff]; rintro ⟨m, hm, hlt⟩; have := h2 m hm; omega)]; rfl
  | sendBytes o l =>
    simp only [step, verdict]
    rcases sendBytes_cases a o l with ⟨h1, e⟩ | ⟨h1, e⟩ <;> rw [e]
    · rw [if_pos h1]; rfl
    · have := cur_sendFrom n a hc hw a.buffer o l
      generalize hr : a.sendFrom a.buffer o l = r at this
      obtain ⟨r1, r2⟩ := r
      rw [if_neg (by omega)]
      cases r1 with
      | ok v => rw [if_neg (by omega)]; rfl
      | error e =>
        obtain ⟨he, hn⟩ := this.2.2 h1
        subst he
        rw [if_pos hn]; rfl
  | sendBytesLong d o l =>
    simp only [step, verdict]
    rw [sendBytesLong_eq]
    have := cur_sendFrom n a hc hw d o l
    generalize hr : a.sendFrom d o l = r at this
    obtain ⟨r1, r2⟩ := r
    cases r1 with
    | ok v => simp only at this; rw [if_neg (by omega), if_neg (by omega)]; rfl
    | error e =>
      simp only at this
      by_cases h1 : a.state < 3
      · rw [if_pos h1, this.2.1 h1]; rfl
      · obtain ⟨he, hn⟩ := this.2.2 (by omega)
        subst he
        rw [if_neg h1, if_pos hn]; rfl
  | setOutgoingAndSend o l =>
    simp only [step, verdict]
    rcases setOutgoingAndSend_cases a o l with ⟨h1, e⟩ | ⟨h1, ⟨h2, e⟩ | ⟨h2, ⟨h3, e⟩ | ⟨h3, e⟩⟩⟩ <;> rw [e]
    · rw [if_pos h1]; rfl
    · rw [if_neg (by omega), if_pos ((any_lt_iff _ _).2 h2)]; rfl
    · rw [if_neg (by omega), if_neg (by rw [any_lt_iff]; rintro ⟨m, hm, hlt⟩; have := h2 m hm; omega), if_pos h3]; rfl
    · rw [if_neg (by omega), if_neg (by rw [any_lt_iff]; rintro ⟨m, hm, hlt⟩; have := h2 m hm; omega), if_neg (by omega)]; rfl
  | poke i v =>
    simp only [step, verdict]
    unfold poke
    by_cases hi : -257 ≤ i ∧ i < 257
    · obtain ⟨p, hp⟩ := names_of_reach a.buffer.length i (by rw [hw.buf]; exact hi)
      rw [set_names _ _ _ _ hp, if_pos hi]; rfl
    · rw [set_unnamed _ _ _ (by rw [hw.buf]; exact hi), if_neg hi]; rfl

/-- The received total stays between nothing and everything. -/
def Between (d r : Int) : Prop := (0 ≤ r ∧ r ≤ d) ∨ (d ≤ r ∧ r ≤ 0)

theorem between_step {bytes : List Int} {base stop R : Int} {br : Bool} {a : APDU} (h : Inc bytes base stop R br a)
    (hb : Between (stop - base) R) (op : Op) : Between (stop - base) (R + gain op (a.step op).1) := by
  cases hr : isReceive op with
  | false =>
    have hg : gain op (a.step op).1 = 0 := by cases (a.step op).1 <;> simp [gain, hr]
    rw [hg, Int.add_zero]
    exact hb
  | true =>
    rcases step_receive a op hr with ⟨_, e⟩ | ⟨_, _, _, e⟩ | ⟨hc, ⟨b, e, _⟩ | ⟨b, e, _⟩⟩ <;> rw [e]
    · simpa [gain] using hb
    · simpa [gain] using hb
    · simpa [gain] using hb
    · have hst : a.state < 3 := by rcases hc with ⟨_, h, _⟩ | ⟨_, _, h⟩ <;> omega
      obtain ⟨h1, h2⟩ := h.raw hst
      have hl := h.lel
      have : a.toBeProcessed = min 128 (stop - base - R) := by
        unfold toBeProcessed IN_BLOCKSIZE
        rw [h1, h2]
        omega
      simp only [gain, hr, if_true, this]
      unfold Between at *
      omega

theorem between_run {bytes : List Int} {base stop R : Int} {br : Bool} {a : APDU} (h : Inc bytes base stop R br a)
    (hb : Between (stop - base) R) (ops : List Op) : Between (stop - base) (R + total (trace a ops)) := by
  induction ops generalizing a R with
  | nil => simpa [trace, total] using hb
  | cons op ops ih =>
    rw [trace, total_cons, ← Int.add_assoc]
    exact ih (h.step op) (between_step h hb op)

theorem step_keeps_ne (a : APDU) (hw : WF a) (op : Op) : (a.step op).2.Ne = a.Ne := by
  cases hr : isReceive op with
  | false => exact (step_other a hw op hr).2.1
  | true => rcases step_receive a op hr with ⟨_, e⟩ | ⟨_, _, _, e⟩ | ⟨hc, ⟨b, e, _⟩ | ⟨b, e, _⟩⟩ <;> rw [e]

theorem run_keeps_ne (a : APDU) (hw : WF a) (ops : List Op) : (a.run ops).Ne = a.Ne := by
  induction ops generalizing a with
  | nil => rfl
  | cons op ops ih => rw [run_cons, ih _ (step_wf a hw op), step_keeps_ne a hw op]

/-- C105. For every byte array the constructor accepts there are two facts about the command — whether its lengths are inconsistent, and how many data
bytes there are to receive (the data's length for an accepted command with data, 0 for a four-byte command, -1 for a five-byte one; what
`setIncomingAndReceive` answers at the start shows both) — such that after every history of calls with any arguments, the exception the next call
raises, or that it raises none, is the one the specification gives from the state, these facts, the expected length, and the bytes received and sent so
far. -/
theorem C105_apdu {bytes : List Int} (hb : AnyBytes bytes) {a : APDU} (ha : APDU.init bytes = .ok a) :
    ∃ (inconsistent : Bool) (d : Int),
      a.setIncomingAndReceive.1 = (if inconsistent then .error (.iso 0x6700) else .ok (min 128 d)) ∧
      (∀ data, Accepted bytes data → inconsistent = false ∧ d = data.length) ∧
      (bytes.length = 4 → d = 0) ∧ (bytes.length = 5 → d = -1) ∧
      ∀ (ops : List Op) (op : Op),
        raised ((a.run ops).step op).1 =
          verdict (a.run ops).getCurrentState inconsistent (d - total (trace a ops)) a.Ne (sentBytes 0 (trace a ops)) op := by
  have hw := init_wf hb ha
  obtain ⟨k, ty, nc, ne, lel, cd, br, hbuilt, h4, h7, hk, hlel, hcase⟩ := init_built hb ha
  have hinc : Inc bytes k (bytes.length - lel) 0 br a := by rw [hbuilt]; exact built_inc _ _ _ _ _ _ _ _ hk h7
  have hcur : Cur 0 a := by
    rw [hbuilt]
    refine ⟨fun _ => rfl, fun c hc => ?_⟩
    cases hc
  refine ⟨br, bytes.length - lel - k, ?_, ?_, ?_, ?_, ?_⟩
  · cases br with
    | true => rw [hbuilt, setIncoming_broken]; rfl
    | false =>
      rw [hbuilt, setIncoming_built _ _ _ _ _ _ _ hk h7 hlel]
      simp only [Bool.false_eq_true, if_false]
      congr 2
      omega
  · intro data hacc
    obtain ⟨a', base, ha', hr, hst, hbr, hoff, _⟩ := accepted_recv hacc
    rw [ha] at ha'
    injection ha' with ha'
    subst ha'
    have h1 := hr.len
    have h2 := hr.off
    have e1 : a.broken = br := by rw [hbuilt]; rfl
    have e2 : a.offsetincoming = k := by rw [hbuilt]; rfl
    have e3 : a.lelength = lel := by rw [hbuilt]; rfl
    refine ⟨by rw [← e1]; exact hbr, ?_⟩
    omega
  · intro h
    rw [init_four bytes h] at ha
    injection ha with ha
    have e2 : a.offsetincoming = k := by rw [hbuilt]; rfl
    have e3 : a.lelength = lel := by rw [hbuilt]; rfl
    have e4 : a.offsetincoming = 4 := by rw [← ha]; rfl
    have e5 : a.lelength = 0 := by rw [← ha]; rfl
    omega
  · intro h
    rw [init_A bytes h] at ha
    injection ha with ha
    have e2 : a.offsetincoming = k := by rw [hbuilt]; rfl
    have e3 : a.lelength = lel := by rw [hbuilt]; rfl
    have e4 : a.offsetincoming = 5 := by rw [← ha]; rfl
    have e5 : a.lelength = 1 := by rw [← ha]; rfl
    omega
  · intro ops op
    have hi := hinc.run ops
    have hbt := between_run hinc (by unfold Between; omega) ops
    rw [Int.zero_add] at hi hbt
    have := step_verdict hi (cur_run 0 a hcur hw ops) ?_ (by omega) (by omega) op
    · rw [this, run_keeps_ne a hw ops]
      unfold getCurrentState
      rw [show (bytes.length : Int) - lel - k - total (trace a ops) = bytes.length - lel - k - total (trace a ops) from rfl]
    · intro hbr
      subst hbr
      unfold Between at hbt
      rcases hcase with h | h | h
      · omega
      · omega
      · cases h

/-- C105. The only exceptions that can leave a call on an APDU, in any history: APDUException with one of three reasons, ISOException with
SW_WRONG_LENGTH from `setIncomingAndReceive` only, AttributeError from `sendBytesLong` only, and IndexError from `receiveBytes` and the applet's own
store into the buffer only. -/
theorem C105_apdu_kinds {bytes : List Int} (hb : AnyBytes bytes) {a : APDU} (ha : APDU.init bytes = .ok a) (ops : List Op) (op : Op) (e : Err)
    (he : ((a.run ops).step op).1 = .error e) :
    (∃ r, (r = 0 ∨ r = 1 ∨ r = 2) ∧ e = .apdu r) ∨ (e = .iso 0x6700 ∧ op = .setIncomingAndReceive) ∨
    (e = .attributeError ∧ ∃ d o l, op = .sendBytesLong d o l) ∨
    (e = .indexError ∧ ((∃ o, op = .receiveBytes o) ∨ ∃ i v, op = .poke i v)) := by
  obtain ⟨inc, d, _, _, _, _, h⟩ := C105_apdu hb ha
  have h := h ops op
  rw [he] at h
  simp only [raised] at h
  cases op <;> simp only [verdict] at h <;> repeat' split at h
  all_goals first
    | (cases h; done)
    | (injection h with h; subst h; simp)

set_option maxRecDepth 8000 in
/-- C105. Each of them does leave a call. -/
theorem C105_apdu_attained :
    (∃ bytes a op, AnyBytes bytes ∧ APDU.init bytes = .ok a ∧ (a.step op).1 = .error (.apdu 2)) ∧
    (∃ bytes a ops op, AnyBytes bytes ∧ APDU.init bytes = .ok a ∧ ((a.run ops).step op).1 = .error (.apdu 0)) ∧
    (∃ bytes a ops op, AnyBytes bytes ∧ APDU.init bytes = .ok a ∧ ((a.run ops).step op).1 = .error (.apdu 1)) ∧
    (∃ bytes a, AnyBytes bytes ∧ APDU.init bytes = .ok a ∧ (a.step .setIncomingAndReceive).1 = .error (.iso 0x6700)) ∧
    (∃ bytes a, AnyBytes bytes ∧ APDU.init bytes = .ok a ∧ (a.step (.sendBytesLong [1] 0 1)).1 = .error .attributeError) ∧
    (∃ bytes a o, AnyBytes bytes ∧ APDU.init bytes = .ok a ∧
      ((a.run [.setIncomingAndReceive]).step (.receiveBytes o)).1 = .error .indexError) := by
  have hz : ∀ n, AnyBytes (List.replicate n (1 : Int)) := by
    intro n x hx
    have := List.eq_of_mem_replicate hx
    omega
  refine ⟨⟨_, _, .sendBytes 0 1, hz 4, rfl, by decide +kernel⟩, ⟨_, _, [.setOutgoing], .setOutgoingLength 2, hz 5, rfl, by decide +kernel⟩,
    ⟨_, _, [.setOutgoing], .sendBytes 0 257, hz 4, rfl, by decide +kernel⟩, ⟨_, _, hz 9, rfl, by decide +kernel⟩,
    ⟨_, _, hz 4, rfl, by decide +kernel⟩, ⟨[1, 1, 1, 1, -126] ++ List.replicate 130 1, _, 256, ?_, rfl, by decide +kernel⟩⟩
  intro x hx
  simp only [List.mem_append, List.mem_cons, List.mem_replicate, List.not_mem_nil] at hx
  rcases hx with (h | h | h | h | h | h) | ⟨_, h⟩ <;> first | omega | cases h

/-- C105. No failed call loses data: for every accepted command with data and every history of calls with any arguments, failed ones included, while the
state is "incoming", `receiveBytes` at an offset with room for 128 bytes delivers the block of data that follows the bytes delivered so far. -/
theorem C105_next_block {bytes data : List Int} (h : Accepted bytes data) (ops : List Op) (o : Nat) (ho : o + 128 ≤ 257) :
    ∃ a, APDU.init bytes = .ok a ∧ ((a.run ops).getCurrentState = 1 ∨ (a.run ops).getCurrentState = 2 →
      ∃ p : Nat, (p : Int) = total (trace a ops) ∧ p ≤ data.length ∧ ∃ a',
        (a.run ops).step (.receiveBytes o) = (.ok ((data.drop p).take 128).length, a') ∧
        range a'.buffer o ((data.drop p).take 128).length = (data.drop p).take 128) := by
  obtain ⟨a, base, ha, hr, hst, hbr, hcd, hb7, hx⟩ := accepted_recv h
  refine ⟨a, ha, fun hs => ?_⟩
  have hinc : Inc bytes base (base + data.length) 0 false a := by
    have hcn : a.cur = none := by
      cases h with
      | short h hd => rw [short_built h] at ha; injection ha with ha; subst ha; rfl
      | ext h hn => rcases ext4_built h with ⟨_, e⟩ | ⟨_, e⟩ <;> rw [e] at ha <;> injection ha with ha <;> subst ha <;> rfl
    refine ⟨⟨by omega, by omega, by simp [hcn, hst], hr.buf⟩, hbr, by have := hr.len; omega,
        fun _ => ⟨hr.raw, by rw [hr.off]; simp⟩, fun _ => rfl, fun hc => by omega⟩
  have hi := hinc.run ops
  have hbt := between_run hinc (by unfold Between; omega) ops
  rw [Int.zero_add] at hi hbt
  unfold Between at hbt
  unfold getCurrentState at hs
  obtain ⟨p, hp⟩ : ∃ p : Nat, (p : Int) = total (trace a ops) := ⟨(total (trace a ops)).toNat, by omega⟩
  obtain ⟨h1, h2⟩ := hi.raw (by omega)
  have hlel : (a.run ops).lelength = a.lelength := by have := hi.lel; have := hinc.lel; omega
  have hrec : Recv bytes data base p (a.run ops) :=
    ⟨h1, by rw [hlel]; exact hr.len, by rw [hlel]; exact hr.lel, hr.dat, by omega, by omega, hi.wf.buf⟩
  obtain ⟨a', e, _, _, hrange⟩ := hrec.recv o ho
  have hlen : ((data.drop p).take 128).length = min 128 (data.length - p) := by simp
  refine ⟨p, hp, by omega, a', ?_, by rw [hlen]; exact hrange⟩
  rw [hlen, ← e]
  simp only [step]
  rw [receiveBytes_recv, if_neg (by simp only [STATE_PARTIAL_INCOMING, STATE_OUTGOING]; omega)]

end Verif.Props
