import Verif.Lemmas.APDURecv
/-! Lemmas about single calls on an APDU, used for histories. -/
namespace Verif.Model
open Verif.Py Verif.Spec
namespace APDU

theorem setOutgoing_cases (a : APDU) :
    (3 ≤ a.state ∧ a.setOutgoing = (.error ILLEGAL_USE, a)) ∨
    (a.state < 3 ∧ a.setOutgoing = (.ok a.getOutgoingLength, { a with state := 3, cur := some 0, outgoinglength := a.getOutgoingLength })) := by
  unfold setOutgoing
  by_cases h : a.state ≥ STATE_OUTGOING
  · left; rw [if_pos h]; exact ⟨h, rfl⟩
  · right; rw [if_neg h]; exact ⟨by simp only [STATE_OUTGOING] at h; omega, rfl⟩

theorem setOutgoingLength_cases (a : APDU) (l : Int) :
    (a.state < 3 ∧ a.setOutgoingLength l = (.error ILLEGAL_USE, a)) ∨
    (3 ≤ a.state ∧ (∃ ne, a.Ne = some ne ∧ ne < l) ∧ a.setOutgoingLength l = (.error BAD_LENGTH, a)) ∨
    (3 ≤ a.state ∧ (∀ ne, a.Ne = some ne → l ≤ ne) ∧
      a.setOutgoingLength l = (.ok (), { a with state := 4, cur := some 0, outgoinglength := l })) := by
  unfold setOutgoingLength
  by_cases h : a.state < STATE_OUTGOING
  · left; rw [if_pos h]; exact ⟨h, rfl⟩
  · right
    rw [if_neg h]
    have h3 : 3 ≤ a.state := by simp only [STATE_OUTGOING] at h; omega
    unfold tooLong
    cases hne : a.Ne with
    | none => right; simp [h3]; rfl
    | some ne =>
      by_cases hl : l > ne
      · left; refine ⟨h3, ⟨ne, rfl, hl⟩, ?_⟩; simp [hl]
      · right
        simp only [hl, decide_false]
        refine ⟨h3, ?_, ?_⟩
        · intro ne' h; injection h with h; omega
        · rfl

/-- A successful send of `d[o:o+l]` with `c` bytes sent before. -/
def sentState (a : APDU) (c : Int) (d : List Int) (o l : Int) : APDU :=
  { a with raw := setSlice a.raw c (c + l) (slice d o (o + l)), cur := some (c + l), state := if c + l < a.outgoinglength then 5 else 6 }

theorem sendFrom_cases (a : APDU) (d : List Int) (o l : Int) :
    (a.cur = none ∧ a.sendFrom d o l = (.error .attributeError, a)) ∨
    (∃ c, a.cur = some c ∧ 256 < c + l ∧ a.sendFrom d o l = (.error BUFFER_BOUNDS, a)) ∨
    (∃ c, a.cur = some c ∧ c + l ≤ 256 ∧ a.sendFrom d o l = (.ok (), a.sentState c d o l)) := by
  unfold sendFrom
  cases hc : a.cur with
  | none => simp
  | some c =>
    right
    simp only
    by_cases h : c + l > OUT_BLOCKSIZE
    · left; exact ⟨c, rfl, h, by rw [if_pos h]⟩
    · right; refine ⟨c, rfl, ?_, by rw [if_neg h]; rfl⟩
      simp only [OUT_BLOCKSIZE] at h; omega

theorem sendBytes_cases (a : APDU) (o l : Int) :
    (a.state < 3 ∧ a.sendBytes o l = (.error ILLEGAL_USE, a)) ∨
    (3 ≤ a.state ∧ a.sendBytes o l = a.sendFrom a.buffer o l) := by
  unfold sendBytes
  by_cases h : a.state < STATE_OUTGOING
  · left; rw [if_pos h]; exact ⟨h, rfl⟩
  · right; rw [if_neg h]; exact ⟨by simp only [STATE_OUTGOING] at h; omega, rfl⟩

/-- The check of `sendBytesLong` compares in the wrong order and never fires. -/
theorem sendBytesLong_eq (a : APDU) (d : List Int) (o l : Int) : a.sendBytesLong d o l = a.sendFrom d o l := by
  unfold sendBytesLong
  rw [if_neg]
  simp only [STATE_PARTIAL_OUTGOING, STATE_OUTGOING_LENGTH_KNOWN]
  omega

theorem setOutgoingAndSend_cases (a : APDU) (o l : Int) :
    (3 ≤ a.state ∧ a.setOutgoingAndSend o l = (.error ILLEGAL_USE, a)) ∨
    (a.state < 3 ∧
      (((∃ ne, a.Ne = some ne ∧ ne < l) ∧ a.setOutgoingAndSend o l = (.error BAD_LENGTH, { a with state := 3, cur := some 0, outgoinglength := a.getOutgoingLength })) ∨
       ((∀ ne, a.Ne = some ne → l ≤ ne) ∧
        ((256 < l ∧ a.setOutgoingAndSend o l = (.error BUFFER_BOUNDS, { a with state := 4, cur := some 0, outgoinglength := l })) ∨
         (l ≤ 256 ∧ a.setOutgoingAndSend o l = (.ok (), sentState { a with state := 4, cur := some 0, outgoinglength := l } 0 a.buffer o l)))))) := by
  unfold setOutgoingAndSend
  rcases setOutgoing_cases a with ⟨h, e⟩ | ⟨h, e⟩
  · left; rw [e]; exact ⟨h, rfl⟩
  · right
    refine ⟨h, ?_⟩
    rw [e]
    simp only
    rcases setOutgoingLength_cases { a with state := 3, cur := some 0, outgoinglength := a.getOutgoingLength } l with
      ⟨h1, e1⟩ | ⟨_, h2, e1⟩ | ⟨_, h2, e1⟩
    · simp only at h1; omega
    · left; refine ⟨h2, ?_⟩; rw [e1]
    · right; refine ⟨h2, ?_⟩; rw [e1]; simp only
      rcases sendBytes_cases { a with state := 4, cur := some 0, outgoinglength := l } o l with ⟨h3, _⟩ | ⟨_, e2⟩
      · simp only at h3; omega
      · rw [e2]
        rcases sendFrom_cases { a with state := 4, cur := some 0, outgoinglength := l } a.buffer o l with
          ⟨h4, _⟩ | ⟨c, hc, h4, e3⟩ | ⟨c, hc, h4, e3⟩
        · cases h4
        · left; injection hc with hc; subst hc; exact ⟨by omega, e3⟩
        · right; injection hc with hc; subst hc; exact ⟨by omega, e3⟩

theorem poke_cases (a : APDU) (i v : Int) :
    (∃ e, a.poke i v = (.error e, a)) ∨
    (∃ b, set a.buffer i v = .ok b ∧ a.poke i v = (.ok (), { a with buffer := b })) := by
  unfold poke
  cases h : Verif.Py.set a.buffer i v with
  | error e => left; exact ⟨e, rfl⟩
  | ok b => right; exact ⟨b, rfl, rfl⟩

/-- What holds of every object, whatever calls were made. -/
structure WF (a : APDU) : Prop where
  lo : 0 ≤ a.state
  hi : a.state ≤ 6
  cur : a.state < 3 ↔ a.cur = none
  buf : a.buffer.length = 257

/-- One of the two receiving calls. -/
def isReceive : Op → Bool
  | .setIncomingAndReceive => true
  | .receiveBytes _ => true
  | _ => false

theorem sentState_state (a : APDU) (c : Int) (d : List Int) (o l : Int) :
    (a.sentState c d o l).state = 5 ∨ (a.sentState c d o l).state = 6 := by
  unfold sentState; simp only; split <;> simp

theorem step_other (a : APDU) (hw : WF a) (op : Op) (h : isReceive op = false) :
    WF (a.step op).2 ∧ (a.step op).2.Ne = a.Ne ∧ (a.step op).2.lelength = a.lelength ∧
    (a.step op).2.broken = a.broken ∧ (a.step op).2.cdataoffs = a.cdataoffs ∧ (a.step op).2.Nc = a.Nc ∧
    ((a.state < 3 ∧ ∃ b, (a.step op).2 = { a with buffer := b }) ∨ 3 ≤ (a.step op).2.state) := by
  obtain ⟨lo, hi, cur, buf⟩ := hw
  have hself : WF a ∧ ((a.state < 3 ∧ ∃ b, a = { a with buffer := b }) ∨ 3 ≤ a.state) :=
    ⟨⟨lo, hi, cur, buf⟩, by rcases Int.lt_or_le a.state 3 with h | h; exact .inl ⟨h, a.buffer, rfl⟩; exact .inr h⟩
  have hsent : ∀ (x : APDU) c d o l, WF x → 3 ≤ x.state → WF (x.sentState c d o l) ∧ 3 ≤ (x.sentState c d o l).state := by
    intro x c d o l hx h3
    have := sentState_state x c d o l
    refine ⟨⟨by omega, by omega, ?_, hx.buf⟩, by omega⟩
    constructor
    · intro h; omega
    · intro h; cases h
  have hfrom : ∀ d o l, 3 ≤ a.state ∨ a.cur = none →
      WF (a.sendFrom d o l).2 ∧ (a.sendFrom d o l).2.Ne = a.Ne ∧ (a.sendFrom d o l).2.lelength = a.lelength ∧
      (a.sendFrom d o l).2.broken = a.broken ∧ (a.sendFrom d o l).2.cdataoffs = a.cdataoffs ∧ (a.sendFrom d o l).2.Nc = a.Nc ∧
      ((a.state < 3 ∧ ∃ b, (a.sendFrom d o l).2 = { a with buffer := b }) ∨ 3 ≤ (a.sendFrom d o l).2.state) := by
    intro d o l h3
    rcases sendFrom_cases a d o l with ⟨_, e⟩ | ⟨c, _, _, e⟩ | ⟨c, hc, _, e⟩
    · rw [e]; exact ⟨hself.1, rfl, rfl, rfl, rfl, rfl, hself.2⟩
    · rw [e]; exact ⟨hself.1, rfl, rfl, rfl, rfl, rfl, hself.2⟩
    · rw [e]
      have h3 : 3 ≤ a.state := by
        rcases h3 with h | h
        · exact h
        · rw [h] at hc; cases hc
      have := hsent a c d o l hself.1 h3
      exact ⟨this.1, rfl, rfl, rfl, rfl, rfl, .inr this.2⟩
  have hout : a.state < 3 → ∀ s l, 3 ≤ s → s ≤ 6 → WF { a with state := s, cur := some 0, outgoinglength := l } := by
    intro _ s l h1 h2
    refine ⟨by simp only; omega, by simp only; omega, ?_, buf⟩
    constructor
    · intro h; simp only at h; omega
    · intro h; cases h
  cases op with
  | setIncomingAndReceive => cases h
  | receiveBytes o => cases h
  | setOutgoing =>
    simp only [step]
    rcases setOutgoing_cases a with ⟨h1, e⟩ | ⟨h1, e⟩ <;> rw [e]
    · exact ⟨hself.1, rfl, rfl, rfl, rfl, rfl, hself.2⟩
    · exact ⟨hout h1 _ _ (by omega) (by omega), rfl, rfl, rfl, rfl, rfl, .inr (by simp only; omega)⟩
  | setOutgoingLength l =>
    simp only [step]
    rcases setOutgoingLength_cases a l with ⟨h1, e⟩ | ⟨h1, _, e⟩ | ⟨h1, _, e⟩ <;> rw [e]
    · exact ⟨hself.1, rfl, rfl, rfl, rfl, rfl, hself.2⟩
    · exact ⟨hself.1, rfl, rfl, rfl, rfl, rfl, hself.2⟩
    · refine ⟨⟨by simp only; omega, by simp only; omega, ?_, buf⟩, rfl, rfl, rfl, rfl, rfl, .inr (by simp only; omega)⟩
      constructor
      · intro h; simp only at h; omega
      · intro h; cases h
  | sendBytes o l =>
    simp only [step]
    rcases sendBytes_cases a o l with ⟨h1, e⟩ | ⟨h1, e⟩ <;> rw [e]
    · exact ⟨hself.1, rfl, rfl, rfl, rfl, rfl, hself.2⟩
    · exact hfrom _ _ _ (.inl h1)
  | sendBytesLong d o l =>
    simp only [step]
    rw [sendBytesLong_eq]
    rcases Int.lt_or_le a.state 3 with h | h
    · exact hfrom _ _ _ (.inr (cur.1 h))
    · exact hfrom _ _ _ (.inl h)
  | setOutgoingAndSend o l =>
    simp only [step]
    rcases setOutgoingAndSend_cases a o l with ⟨h1, e⟩ | ⟨h1, ⟨_, e⟩ | ⟨_, ⟨_, e⟩ | ⟨_, e⟩⟩⟩ <;> rw [e]
    · exact ⟨hself.1, rfl, rfl, rfl, rfl, rfl, hself.2⟩
    · exact ⟨hout h1 _ _ (by omega) (by omega), rfl, rfl, rfl, rfl, rfl, .inr (by simp only; omega)⟩
    · exact ⟨hout h1 _ _ (by omega) (by omega), rfl, rfl, rfl, rfl, rfl, .inr (by simp only; omega)⟩
    · have := hsent _ 0 a.buffer o l (hout h1 4 l (by omega) (by omega)) (by simp only; omega)
      exact ⟨this.1, rfl, rfl, rfl, rfl, rfl, .inr this.2⟩
  | poke i v =>
    simp only [step]
    rcases poke_cases a i v with ⟨e', e⟩ | ⟨b, hb, e⟩ <;> rw [e]
    · exact ⟨hself.1, rfl, rfl, rfl, rfl, rfl, hself.2⟩
    · refine ⟨⟨lo, hi, cur, (set_length hb).trans buf⟩, rfl, rfl, rfl, rfl, rfl, ?_⟩
      rcases Int.lt_or_le a.state 3 with h | h
      · exact .inl ⟨h, b, rfl⟩
      · exact .inr h

/-- A receiving call: rejected without effect, failed half-way changing only buffer cells, or successful. -/
theorem step_receive (a : APDU) (op : Op) (h : isReceive op = true) :
    ((3 ≤ a.state ∨ (op ≠ .setIncomingAndReceive ∧ a.state < 1) ∨ (op = .setIncomingAndReceive ∧ a.state ≠ 0)) ∧ a.step op = (.error ILLEGAL_USE, a)) ∨
    (op = .setIncomingAndReceive ∧ a.state = 0 ∧ a.broken = true ∧ a.step op = (.error SW_WRONG_LENGTH, a)) ∨
    ((op = .setIncomingAndReceive ∧ a.state = 0 ∧ a.broken = false ∨ op ≠ .setIncomingAndReceive ∧ 1 ≤ a.state ∧ a.state < 3) ∧
      ((∃ b, a.step op = (.error .indexError, { a with buffer := b }) ∧ b.length = a.buffer.length) ∨
       (∃ b, a.step op = (.ok a.toBeProcessed, { a with buffer := b, offsetincoming := a.offsetincoming + a.toBeProcessed, state := if a.offsetincoming + a.toBeProcessed = (a.raw.length : Int) - a.lelength then 2 else 1 }) ∧ b.length = a.buffer.length))) := by
  cases op with
  | setIncomingAndReceive =>
    rw [show a.step .setIncomingAndReceive = a.setIncomingAndReceive from rfl, setIncoming_recv]
    by_cases h0 : a.state = 0
    · rw [if_neg (by simp [h0, STATE_INITIAL])]
      by_cases hb : a.broken = true
      · right; left; exact ⟨rfl, h0, hb, by rw [if_pos hb]⟩
      · right; right
        refine ⟨.inl ⟨rfl, h0, by simpa using hb⟩, ?_⟩
        rw [if_neg hb]
        exact recv_cases a _
    · left
      rw [if_pos (by simpa [STATE_INITIAL] using h0)]
      exact ⟨.inr (.inr ⟨rfl, h0⟩), rfl⟩
  | receiveBytes o =>
    simp only [step]
    rw [receiveBytes_recv]
    by_cases hs : a.state < STATE_PARTIAL_INCOMING ∨ a.state ≥ STATE_OUTGOING
    · left
      rw [if_pos hs]
      simp only [STATE_PARTIAL_INCOMING, STATE_OUTGOING] at hs
      refine ⟨?_, rfl⟩
      rcases hs with h | h
      · exact .inr (.inl ⟨nofun, h⟩)
      · exact .inl h
    · right; right
      rw [if_neg hs]
      simp only [STATE_PARTIAL_INCOMING, STATE_OUTGOING] at hs
      exact ⟨.inr ⟨nofun, by omega, by omega⟩, recv_cases a o⟩
  | _ => cases h

theorem step_wf (a : APDU) (hw : WF a) (op : Op) : WF (a.step op).2 := by
  cases h : isReceive op with
  | false => exact (step_other a hw op h).1
  | true =>
    obtain ⟨lo, hi, cur, buf⟩ := hw
    rcases step_receive a op h with ⟨_, e⟩ | ⟨_, _, _, e⟩ | ⟨hc, ⟨b, e, hb⟩ | ⟨b, e, hb⟩⟩ <;> rw [e]
    · exact ⟨lo, hi, cur, buf⟩
    · exact ⟨lo, hi, cur, buf⟩
    · exact ⟨lo, hi, cur, hb.trans buf⟩
    · have h3 : a.state < 3 := by rcases hc with ⟨_, h, _⟩ | ⟨_, _, h⟩ <;> omega
      refine ⟨?_, ?_, ?_, hb.trans buf⟩
      · simp only; split <;> omega
      · simp only; split <;> omega
      · simp only
        constructor
        · intro _; exact cur.1 h3
        · intro _; split <;> omega

theorem run_wf (a : APDU) (hw : WF a) (ops : List Op) : WF (a.run ops) := by
  induction ops generalizing a with
  | nil => exact hw
  | cons op ops ih => exact ih _ (step_wf a hw op)

/-- Every constructed object is one of `built`. -/
theorem init_built {bytes : List Int} (hb : AnyBytes bytes) {a : APDU} (h : init bytes = .ok a) :
    ∃ k ty nc ne lel cd br, a = built bytes k ty nc ne lel cd br ∧ 4 ≤ k ∧ k ≤ 7 ∧ k ≤ bytes.length ∧ 0 ≤ lel ∧
      (((k : Int) + lel ≤ bytes.length) ∨ (bytes.length = 5 ∧ k = 5 ∧ lel = 1) ∨ br = true) := by
  by_cases h4 : bytes.length < 4
  · exfalso
    unfold init at h
    have h1 : (bytes.length : Int) < 4 := by omega
    simp only [h1, if_true, bind, Except.bind, throw, throwThe, MonadExceptOf.throw] at h
    cases h
  by_cases e4 : bytes.length = 4
  · rw [init_four bytes e4] at h; injection h with h; subst h
    exact ⟨4, _, _, _, _, _, _, rfl, by omega, by omega, by omega, by omega, .inl (by omega)⟩
  by_cases e5 : bytes.length = 5
  · rw [init_A bytes e5] at h; injection h with h; subst h
    exact ⟨5, _, _, _, _, _, _, rfl, by omega, by omega, by omega, by omega, .inr (.inl ⟨e5, rfl, rfl⟩)⟩
  by_cases h0 : bytes[4] = 0
  · by_cases e6 : bytes.length = 6
    · rw [init_E bytes e6 h0] at h; cases h
    by_cases e7 : bytes.length = 7
    · rw [init_B bytes e7 h0] at h; injection h with h; subst h
      have hl := le2_snd (bytes[5]'(by omega)) (bytes[6]'(by omega))
      exact ⟨5, _, _, _, _, _, _, rfl, by omega, by omega, by omega, by omega, .inl (by omega)⟩
    by_cases hn : (bytes.length : Int) = u1 (bytes[5]'(by omega)) * (256 : Int) + u1 (bytes[6]'(by omega)) + 5
    · rw [init_F bytes (by omega) h0 hn] at h; injection h with h; subst h
      exact ⟨7, _, _, _, _, _, _, rfl, by omega, by omega, by omega, by omega, .inl (by omega)⟩
    · rw [init_G bytes (by omega) h0 hn] at h; injection h with h; subst h
      have hl := le2_snd (bytes[bytes.length - 2]'(by omega)) (bytes[bytes.length - 1]'(by omega))
      have hnn : 0 ≤ u1 (bytes[5]'(by omega)) * (256 : Int) + u1 (bytes[6]'(by omega)) := by
        rw [u1_eq, u1_eq]; omega
      refine ⟨7, _, _, _, _, _, _, rfl, by omega, by omega, by omega, by omega, ?_⟩
      by_cases hc : (bytes.length : Int) = (7 : Int) + (le2 (bytes[bytes.length - 2]'(by omega)) (bytes[bytes.length - 1]'(by omega))).2 + (u1 (bytes[5]'(by omega)) * (256 : Int) + u1 (bytes[6]'(by omega)))
      · left; omega
      · right; right; rw [decide_eq_true_iff]; exact hc
  · have hx := hb _ (List.getElem_mem (show 4 < bytes.length by omega))
    by_cases hn : (bytes.length : Int) = u1 (bytes[4]'(by omega)) + 5
    · rw [init_C bytes (by omega) h0 hn] at h; injection h with h; subst h
      exact ⟨5, _, _, _, _, _, _, rfl, by omega, by omega, by omega, by omega, .inl (by omega)⟩
    · rw [init_D bytes (by omega) h0 hx.2 hn] at h; injection h with h; subst h
      exact ⟨5, _, _, _, _, _, _, rfl, by omega, by omega, by omega, by omega, .inl (by omega)⟩

theorem init_wf {bytes : List Int} (hb : AnyBytes bytes) {a : APDU} (h : init bytes = .ok a) : WF a := by
  obtain ⟨k, ty, nc, ne, lel, cd, br, rfl, h4, h7, hk, _⟩ := init_built hb h
  exact ⟨Int.le_refl _, by simp [built, STATE_INITIAL], by simp [built, STATE_INITIAL], built_buffer_length _ _ _ _ _ _ _ _ hk h7⟩

end APDU
end Verif.Model
