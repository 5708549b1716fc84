import Verif.Props.APDUSend
/-! C82: a whole exchange with an applet that answers the command data. -/
namespace Verif.Props
open Verif.Py Verif.Model Verif.Spec Verif.Model.APDU

/-! ### The applet (a user of the API)

    def process(self, apdu):
        n = apdu.setIncomingAndReceive()
        off = apdu.getOffsetCdata() + n
        while True:
            n = apdu.receiveBytes(off)
            if n == 0: break
            off += n
        apdu.setOutgoingAndSend(apdu.getOffsetCdata(), apdu.getIncomingLength())
-/

/-- The loop of receives, at most `fuel` times round; `none` when it has not ended by then. -/
def receiveLoop (a : APDU) (off : Int) : Nat → Option (Res APDU Unit)
  | 0 => none
  | f + 1 =>
    match a.receiveBytes off with
    | (.error e, a) => some (.error e, a)
    | (.ok n, a) => if n = 0 then some (.ok (), a) else receiveLoop a (off + n) f

/-- The applet's `process`. -/
def echo (a : APDU) (fuel : Nat) : Option (Res APDU Unit) :=
  match a.setIncomingAndReceive with
  | (.error e, a) => some (.error e, a)
  | (.ok n, a) =>
    match receiveLoop a (a.getOffsetCdata + n) fuel with
    | none => none
    | some (.error e, a) => some (.error e, a)
    | some (.ok (), a) => some (a.setOutgoingAndSend a.getOffsetCdata a.getIncomingLength)

/-! ### Lemmas -/

/-- What a receive leaves unchanged. -/
def SameFrame (a a' : APDU) : Prop := a'.Nc = a.Nc ∧ a'.Ne = a.Ne ∧ a'.cdataoffs = a.cdataoffs

theorem Recv.recv' {bytes data : List Int} {base p : Nat} {a : APDU} (h : Recv bytes data base p a)
    (d : Nat) (hd : d + min 128 (data.length - p) ≤ 257) :
    ∃ a', a.recv d = (.ok ((min 128 (data.length - p) : Nat) : Int), a') ∧
      Recv bytes data base (p + min 128 (data.length - p)) a' ∧
      (a'.state = if p + min 128 (data.length - p) = data.length then 2 else 1) ∧
      a'.buffer = splice a.buffer d ((data.drop p).take (min 128 (data.length - p))) ∧ SameFrame a a' := by
  obtain ⟨hb1, hb2⟩ := h.blockLen
  have hraw := h.raw
  have hlen := h.len
  have hlel := h.lel
  have hoff := h.off
  have hle := h.le
  have hbuf := h.buf
  have e : (bytes.drop (base + p)).take (min 128 (data.length - p)) = (data.drop p).take (min 128 (data.length - p)) :=
    drop_take_of h.dat p _ (by omega)
  have := recv_ok a (base + p) d hoff (by rw [hb2, hraw]; omega) (by rw [hb2, hbuf]; omega)
  rw [hb1, hb2, hraw, e] at this
  refine ⟨_, this, ⟨rfl, hlen, hlel, h.dat, ?_, by omega, ?_⟩, ?_, rfl, rfl, rfl, rfl⟩
  · simp only; omega
  · simp only
    rw [splice_length _ _ _ (by simp [hbuf]; omega), hbuf]
  · simp only [STATE_FULL_INCOMING, STATE_PARTIAL_INCOMING]
    by_cases hq : p + min 128 (data.length - p) = data.length
    · rw [if_pos hq, if_pos (by omega)]
    · rw [if_neg hq, if_neg (by omega)]

theorem Recv.recv_out {bytes data : List Int} {base p : Nat} {a : APDU} (h : Recv bytes data base p a)
    (d : Nat) (hd : 257 < d + min 128 (data.length - p)) (hp : p < data.length) :
    ∃ b, a.recv d = (.error .indexError, b) := by
  obtain ⟨hb1, hb2⟩ := h.blockLen
  unfold APDU.recv
  have e : rangeLen a.toBeProcessed = a.blockLen := rfl
  simp only [e]
  rw [h.off, copyRange_eq]
  have hraw := h.raw
  have hbuf := h.buf
  have hne : ¬ (min a.blockLen (min (a.raw.length - (base + p)) (a.buffer.length - d)) = a.blockLen) := by
    rw [hb2, hbuf]; omega
  simp only [Nat.add_zero, outcome, hne, if_false]
  exact ⟨_, rfl⟩

theorem range_splice (l : List Int) (b p : Nat) (x y : List Int) (hx : range l b p = x) (hp : x.length = p) (hl : b + p + y.length ≤ l.length) :
    range (splice l (b + p) y) b (p + y.length) = x ++ y := by
  unfold range splice at *
  rw [List.append_assoc, List.drop_append_of_le_length (by simp; omega), List.drop_take, Nat.add_sub_cancel_left]
  rw [hx, List.take_append, hp, List.take_of_length_le (by omega), Nat.add_sub_cancel_left, List.take_left]

/-- The loop, from `p` bytes received: it delivers the rest behind them, or fails for want of room. -/
theorem receiveLoop_spec {bytes data : List Int} {base : Nat} (a0 : APDU) (fuel : Nat) : ∀ (a : APDU) (p : Nat) (x : List Op),
    Recv bytes data base p a → a = a0.run x → (1 ≤ a.state ∧ a.state < 3) → range a.buffer base p = data.take p →
    data.length < p + fuel →
    (base + data.length ≤ 257 → ∃ a' y, receiveLoop a ((base + p : Nat) : Int) fuel = some (.ok (), a') ∧ a' = a0.run y ∧
      range a'.buffer base data.length = data ∧ a'.state = 2 ∧ SameFrame a a') ∧
    (257 < base + data.length → p < data.length → ∃ a', receiveLoop a ((base + p : Nat) : Int) fuel = some (.error .indexError, a')) := by
  induction fuel with
  | zero => intro a p x h _ _ _ hf; have := h.le; omega
  | succ f ih =>
    intro a p x h hx hst hb hf
    have hle := h.le
    have hg : ¬ (a.state < STATE_PARTIAL_INCOMING ∨ a.state ≥ STATE_OUTGOING) := by
      unfold STATE_PARTIAL_INCOMING STATE_OUTGOING; omega
    have hstep : a.receiveBytes ((base + p : Nat) : Int) = a.recv ((base + p : Nat) : Int) := by rw [receiveBytes_recv, if_neg hg]
    have hrun : ∀ a', a.receiveBytes ((base + p : Nat) : Int) = (.ok ((min 128 (data.length - p) : Nat) : Int), a') →
        a' = a0.run (x ++ [.receiveBytes ((base + p : Nat) : Int)]) := by
      intro a' e
      unfold APDU.run
      rw [List.foldl_append]
      show a' = (APDU.step (a0.run x) _).2
      rw [← hx]
      show a' = (a.receiveBytes _).2
      rw [e]
    by_cases hroom : base + p + min 128 (data.length - p) ≤ 257
    · obtain ⟨a', e, hr, hs, hbuf, hsame⟩ := h.recv' (base + p) hroom
      rw [← hstep] at e
      have hx' := hrun a' e
      have hb' : range a'.buffer base (p + min 128 (data.length - p)) = data.take (p + min 128 (data.length - p)) := by
        rw [hbuf]
        have hyl : ((data.drop p).take (min 128 (data.length - p))).length = min 128 (data.length - p) := by simp
        have := range_splice a.buffer base p (data.take p) ((data.drop p).take (min 128 (data.length - p))) hb (by simp; omega)
          (by rw [hyl, h.buf]; omega)
        rw [hyl] at this
        rw [this, List.take_add]
      by_cases hz : p = data.length
      · subst hz
        have hm : min 128 (data.length - data.length) = 0 := by omega
        rw [hm] at e hs hb'
        constructor
        · intro _
          refine ⟨a', _, ?_, hx', by simpa using hb', by simpa using hs, hsame⟩
          unfold receiveLoop
          rw [e]
          simp
        · intro _ hlt; omega
      · have hmn : min 128 (data.length - p) ≠ 0 := by omega
        have hlp : receiveLoop a ((base + p : Nat) : Int) (f + 1) =
            receiveLoop a' ((base + (p + min 128 (data.length - p)) : Nat) : Int) f := by
          conv => lhs; unfold receiveLoop
          rw [e]
          simp only
          rw [if_neg (by omega)]
          congr 1
          omega
        have hst' : 1 ≤ a'.state ∧ a'.state < 3 := by rw [hs]; split <;> omega
        obtain ⟨i1, i2⟩ := ih a' (p + min 128 (data.length - p)) _ hr hx' hst' hb' (by omega)
        rw [hlp]
        constructor
        · intro hfit
          obtain ⟨a'', y, j1, j2, j3, j4, j5⟩ := i1 hfit
          exact ⟨a'', y, j1, j2, j3, j4, j5.1.trans hsame.1, j5.2.1.trans hsame.2.1, j5.2.2.trans hsame.2.2⟩
        · intro hbig hlt
          exact i2 hbig (by omega)
    · constructor
      · intro hfit; omega
      · intro _ hlt
        obtain ⟨b, hb⟩ := h.recv_out (base + p) (by omega) hlt
        refine ⟨b, ?_⟩
        unfold receiveLoop
        rw [hstep, hb]

/-- The first receive and the loop together. -/
theorem echo_receive {bytes data : List Int} (h : Accepted bytes data) (a : APDU) (ha : APDU.init bytes = .ok a) (fuel : Nat) (hf : data.length < fuel) :
    ∃ base : Nat, a.getOffsetCdata = base ∧
    (base + data.length ≤ 257 → ∃ a' y, a' = a.run y ∧ range a'.buffer base data.length = data ∧ a'.state = 2 ∧ SameFrame a a' ∧
      echo a fuel = some (a'.setOutgoingAndSend base a.getIncomingLength)) ∧
    (257 < base + data.length → ∃ a', echo a fuel = some (.error .indexError, a')) := by
  obtain ⟨a', base, ha', hr, hst, hbr, hcd, hb7, hpos⟩ := accepted_recv h
  rw [ha] at ha'
  injection ha' with ha'
  subst ha'
  refine ⟨base, hcd, ?_⟩
  obtain ⟨a1, e, hr1, hst1, hbuf, hsame⟩ := hr.recv' base (by omega)
  have hoff : a.offsetincoming = (base : Int) := hr.off
  have e1 : a.setIncomingAndReceive = (.ok ((min 128 (data.length - 0) : Nat) : Int), a1) := by
    rw [setIncoming_recv, if_neg (show ¬ (a.state ≠ STATE_INITIAL) by simp [hst, STATE_INITIAL]), if_neg (by simp [hbr]), hoff]
    exact e
  have hcd1 : a1.getOffsetCdata = (base : Int) := hsame.2.2.trans hcd
  have hb1 : range a1.buffer base (min 128 data.length) = data.take (min 128 data.length) := by
    rw [hbuf]
    have hyl : ((data.drop 0).take (min 128 (data.length - 0))).length = min 128 data.length := by simp
    have := range_splice a.buffer base 0 [] ((data.drop 0).take (min 128 (data.length - 0))) (by simp [range]) rfl
      (by rw [hyl, hr.buf]; omega)
    rw [hyl, Nat.zero_add, List.nil_append] at this
    simpa using this
  have hx1 : a1 = a.run [.setIncomingAndReceive] := by
    show a1 = (a.setIncomingAndReceive).2
    rw [e1]
  simp only [Nat.sub_zero, Nat.zero_add] at hr1 hst1 e1
  obtain ⟨l1, l2⟩ := receiveLoop_spec a fuel a1 (min 128 data.length) _ hr1 hx1 (by rw [hst1]; split <;> omega) hb1 (by omega)
  have hecho : echo a fuel = (match receiveLoop a1 ((base + min 128 data.length : Nat) : Int) fuel with
      | none => none
      | some (.error e, a) => some (.error e, a)
      | some (.ok (), a) => some (a.setOutgoingAndSend a.getOffsetCdata a.getIncomingLength)) := by
    unfold echo
    rw [e1]
    simp only
    rw [hcd1]
    simp only [Int.natCast_add]
  constructor
  · intro hfit
    obtain ⟨a2, y, k1, k2, k3, k4, k5⟩ := l1 hfit
    refine ⟨a2, y, k2, k3, k4, ⟨k5.1.trans hsame.1, k5.2.1.trans hsame.2.1, k5.2.2.trans hsame.2.2⟩, ?_⟩
    rw [hecho, k1]
    have c1 : a2.getOffsetCdata = (base : Int) := k5.2.2.trans hcd1
    have c2 : a2.getIncomingLength = a.getIncomingLength := k5.1.trans hsame.1
    simp only [c1, c2]
  · intro hbig
    obtain ⟨a2, k⟩ := l2 hbig (by omega)
    exact ⟨a2, by rw [hecho, k]⟩

/-! ### The property -/

/-- C82. A short command with data `data` of at most 252 bytes sent to the echo applet, expecting no length or at least that many bytes: the
applet ends without exception, the response is exactly the data, and the APDU is in the state full-outgoing. -/
theorem C82_echo {hdr data bytes : List Int} {ne : Option Nat} (h : ShortCmd hdr data ne bytes) (hb : AnyBytes bytes) (hd : data ≠ [])
    (hlen : data.length ≤ 252) (hne : ∀ n, ne = some n → data.length ≤ n) (fuel : Nat) (hf : data.length < fuel) :
    ∃ a b, APDU.init bytes = .ok a ∧ echo a fuel = some (.ok (), b) ∧ b.response = data ∧ b.getCurrentState = 6 := by
  obtain ⟨a, ha, _, hnc, hne', _, hcd, _⟩ := C21_short h
  obtain ⟨base, hbase, hok, _⟩ := echo_receive (.short h hd) a ha fuel hf
  have hb5 : base = 5 := by omega
  subst hb5
  obtain ⟨a2, y, hy, hrange, hst, hsame, he⟩ := hok (by omega)
  subst hy
  obtain ⟨b, hs, hr, h6⟩ := C27_set_outgoing_and_send hb ha y (by show (a.run y).state < 3; omega) 5 data.length
    (by
      intro n hn
      rw [hsame.2.1, hne'] at hn
      cases ne with
      | none => cases hn
      | some m =>
        change some (m : Int) = some n at hn
        injection hn with hn
        have := hne m rfl
        omega)
    (by omega) (by omega)
  refine ⟨a, b, ha, ?_, hr.trans hrange, h6⟩
  rw [he, hnc, hs]

/-- C82. The same in the extended form, for commands the constructor reads right (see C22), with up to 250 bytes of data. -/
theorem C82_echo_extended {hdr data bytes : List Int} {n : Nat} (h : Ext4 hdr data n bytes) (hg : GoodLe n) (hb : AnyBytes bytes)
    (hlen : data.length ≤ 250) (hne : data.length ≤ n) (fuel : Nat) (hf : data.length < fuel) :
    ∃ a b, APDU.init bytes = .ok a ∧ echo a fuel = some (.ok (), b) ∧ b.response = data ∧ b.getCurrentState = 6 := by
  obtain ⟨a, ha, _, hnc, hne', hcd, _⟩ := C22_case4 h hg
  obtain ⟨base, hbase, hok, _⟩ := echo_receive (.ext h hg) a ha fuel hf
  have hb5 : base = 7 := by omega
  subst hb5
  obtain ⟨a2, y, hy, hrange, hst, hsame, he⟩ := hok (by omega)
  subst hy
  obtain ⟨b, hs, hr, h6⟩ := C27_set_outgoing_and_send hb ha y (by show (a.run y).state < 3; omega) 7 data.length
    (by
      intro m hn
      rw [hsame.2.1, hne'] at hn
      injection hn with hn
      omega)
    (by omega) (by omega)
  refine ⟨a, b, ha, ?_, hr.trans hrange, h6⟩
  rw [he, hnc, hs]

/-- C82. With 253 to 255 bytes of data the buffer (257 bytes, data from offset 5) is too small for the applet's loop: an IndexError escapes. -/
theorem C82_too_big {hdr data bytes : List Int} {ne : Option Nat} (h : ShortCmd hdr data ne bytes) (hlen : 253 ≤ data.length)
    (fuel : Nat) (hf : data.length < fuel) :
    ∃ a b, APDU.init bytes = .ok a ∧ echo a fuel = some (.error .indexError, b) := by
  have hd : data ≠ [] := by intro e; rw [e] at hlen; simp at hlen
  obtain ⟨a, ha, _, hnc, hne', _, hcd, _⟩ := C21_short h
  obtain ⟨base, hbase, _, hbad⟩ := echo_receive (.short h hd) a ha fuel hf
  obtain ⟨b, hb⟩ := hbad (by omega)
  exact ⟨a, b, ha, hb⟩

example : ShortCmd [0, 1, 2, 3] [7, 8, 9] (some 256) [0, 1, 2, 3, 3, 7, 8, 9, 0] :=
  ⟨rfl, [3], [0], .inr ⟨by simp, by simp, 3, rfl, by simp [Spells]⟩, .inr ⟨256, rfl, by omega, by omega, 0, rfl, by simp [Spells]⟩, rfl⟩

end Verif.Props
