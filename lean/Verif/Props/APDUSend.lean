import Verif.Props.APDURun
/-! C27, C29: sending the response, and the CLA queries. -/
namespace Verif.Props
open Verif.Py Verif.Model Verif.Spec Verif.Model.APDU APDUHist

/-- The block a send transmits: the cells of the source (buffer at the time of the call, or `outData`). -/
def sendBlock (a : APDU) : Op → Option (List Int)
  | .sendBytes o l => some (range a.buffer o.toNat l.toNat)
  | .sendBytesLong d o l => some (range d o.toNat l.toNat)
  | _ => none

/-- The send's block lies in its source. -/
def InRange (a : APDU) : Op → Prop
  | .sendBytes o l => 0 ≤ o ∧ 0 ≤ l ∧ o + l ≤ a.buffer.length
  | .sendBytesLong d o l => 0 ≤ o ∧ 0 ≤ l ∧ o + l ≤ d.length
  | _ => True

/-- Response bytes sent so far: each successful send appends its block; a successful `setOutgoingLength`
starts over. -/
def sentNext (a : APDU) (acc : List Int) (op : Op) : List Int :=
  match (a.step op).1, sendBlock a op, op with
  | .ok _, some b, _ => acc ++ b
  | .ok _, none, .setOutgoingLength _ => []
  | _, _, _ => acc

/-- Declared length: that of `setOutgoing`, replaced by each successful `setOutgoingLength`. -/
def declNext (a : APDU) (n : Int) (op : Op) : Int :=
  match (a.step op).1, op with
  | .ok _, .setOutgoingLength l => l
  | _, _ => n

/-- Bytes sent over a history. -/
def sent (a : APDU) (acc : List Int) : List Op → List Int
  | [] => acc
  | op :: ops => sent (a.step op).2 (sentNext a acc op) ops

/-- Declared length after a history. -/
def declared (a : APDU) (n : Int) : List Op → Int
  | [] => n
  | op :: ops => declared (a.step op).2 (declNext a n op) ops

/-- Every send of the history is in range when it is made. -/
def AllInRange (a : APDU) : List Op → Prop
  | [] => True
  | op :: ops => InRange a op ∧ AllInRange (a.step op).2 ops

/-- The outgoing object after sending `acc`. -/
structure Out (acc : List Int) (n : Int) (a : APDU) : Prop where
  wf : WF a
  st : 3 ≤ a.state
  cur : a.cur = some (acc.length : Int)
  le : acc.length ≤ 256
  raw : a.raw.take acc.length = acc
  decl : a.outgoinglength = n

theorem Out.len {acc : List Int} {n : Int} {a : APDU} (h : Out acc n a) : acc.length ≤ a.raw.length := by
  have := congrArg List.length h.raw
  simp at this
  omega

/-- The effect of a send from `d` in range. -/
theorem Out.sendFrom {acc : List Int} {n : Int} {a : APDU} (h : Out acc n a) (d : List Int) (o l : Int)
    (ho : 0 ≤ o) (hl : 0 ≤ l) (hd : o + l ≤ d.length) :
    (256 < (acc.length : Int) + l ∧ a.sendFrom d o l = (.error BUFFER_BOUNDS, a)) ∨
    ((acc.length : Int) + l ≤ 256 ∧ ∃ a', a.sendFrom d o l = (.ok (), a') ∧ Out (acc ++ range d o.toNat l.toNat) n a' ∧
      a'.state = if n ≤ (acc ++ range d o.toNat l.toNat).length then 6 else 5) := by
  obtain ⟨o, rfl⟩ := Int.eq_ofNat_of_zero_le ho
  obtain ⟨l, rfl⟩ := Int.eq_ofNat_of_zero_le hl
  have hlen := h.len
  have hc := h.cur
  simp only [Int.toNat_natCast]
  have hb : (range d o l).length = l := by simp [range]; omega
  rcases sendFrom_cases a d o l with ⟨h1, _⟩ | ⟨c, h1, h2, e⟩ | ⟨c, h1, h2, e⟩
  · rw [hc] at h1; cases h1
  · rw [hc] at h1; injection h1 with h1; subst h1
    left; exact ⟨h2, e⟩
  · rw [hc] at h1; injection h1 with h1; subst h1
    right
    refine ⟨h2, _, e, ?_, ?_⟩
    · have hst := sentState_state a acc.length d o l
      refine ⟨⟨by omega, by omega, ⟨fun h => by omega, fun h => (by cases h)⟩, h.wf.buf⟩, by omega, ?_, ?_, ?_, h.decl⟩
      · simp [sentState, hb]
      · simp [hb]; omega
      · simp only [sentState]
        rw [slice_add, setSlice_add _ _ _ _ hlen, h.raw]
        show List.take _ (acc ++ range d o l ++ _) = _
        exact List.take_left
    · simp only [sentState, h.decl, List.length_append, hb]
      by_cases hq : (acc.length : Int) + l < n
      · rw [if_pos hq, if_neg (by omega)]
      · rw [if_neg hq, if_pos (by omega)]

theorem map_ok (_ : APDU) : ((Except.ok () : Except Err Unit).map fun _ => (0 : Int)) = .ok 0 := rfl

theorem Out.step {acc : List Int} {n : Int} {a : APDU} (h : Out acc n a) (op : Op) (hr : InRange a op) :
    Out (sentNext a acc op) (declNext a n op) (a.step op).2 := by
  cases hrec : isReceive op with
  | true =>
    have := h.st
    rcases step_receive a op hrec with ⟨_, e⟩ | ⟨_, h', _, e⟩ | ⟨hc, _⟩
    · simp only [sentNext, declNext, e]; exact h
    · omega
    · rcases hc with ⟨_, h', _⟩ | ⟨_, _, h'⟩ <;> omega
  | false =>
    cases op with
    | setIncomingAndReceive => cases hrec
    | receiveBytes o => cases hrec
    | setOutgoing =>
      rcases setOutgoing_cases a with ⟨_, e⟩ | ⟨h', e⟩
      · simp only [sentNext, declNext, APDU.step, e]; exact h
      · have := h.st; omega
    | setOutgoingLength l =>
      rcases setOutgoingLength_cases a l with ⟨h', e⟩ | ⟨_, _, e⟩ | ⟨_, _, e⟩
      · have := h.st; omega
      · simp only [sentNext, declNext, APDU.step, e]; exact h
      · simp only [sentNext, declNext, APDU.step, e, sendBlock, map_ok a]
        exact ⟨⟨by simp, by simp, by simp, h.wf.buf⟩, by simp, by simp, by simp, by simp, rfl⟩
    | sendBytes o l =>
      obtain ⟨h1, h2, h3⟩ := hr
      rcases sendBytes_cases a o l with ⟨h', e⟩ | ⟨_, e⟩
      · have := h.st; omega
      · rcases h.sendFrom a.buffer o l h1 h2 h3 with ⟨_, e'⟩ | ⟨_, a', e', h', _⟩
        · simp only [sentNext, declNext, APDU.step, e, e']; exact h
        · simp only [sentNext, declNext, APDU.step, e, e', map_ok a, sendBlock]; exact h'
    | sendBytesLong d o l =>
      obtain ⟨h1, h2, h3⟩ := hr
      have e := sendBytesLong_eq a d o l
      rcases h.sendFrom d o l h1 h2 h3 with ⟨_, e'⟩ | ⟨_, a', e', h', _⟩
      · simp only [sentNext, declNext, APDU.step, e, e']; exact h
      · simp only [sentNext, declNext, APDU.step, e, e', map_ok a, sendBlock]; exact h'
    | setOutgoingAndSend o l =>
      rcases setOutgoingAndSend_cases a o l with ⟨_, e⟩ | ⟨h', _⟩
      · simp only [sentNext, declNext, APDU.step, e]; exact h
      · have := h.st; omega
    | poke i v =>
      rcases poke_cases a i v with ⟨_, e⟩ | ⟨b, hb, e⟩
      · simp only [sentNext, declNext, APDU.step, e]; exact h
      · simp only [sentNext, declNext, APDU.step, e, sendBlock, map_ok a]
        exact ⟨⟨h.wf.lo, h.wf.hi, h.wf.cur, (set_length hb).trans h.wf.buf⟩, h.st, h.cur, h.le, h.raw, h.decl⟩

theorem Out.run {acc : List Int} {n : Int} {a : APDU} (h : Out acc n a) (ops : List Op) (hr : AllInRange a ops) :
    Out (sent a acc ops) (declared a n ops) (a.run ops) := by
  induction ops generalizing a acc n with
  | nil => exact h
  | cons op ops ih =>
    rw [run_cons]
    exact ih (h.step op hr.1) hr.2

theorem out_start (b b' : APDU) (v : Int) (hw : WF b) (h : b.setOutgoing = (.ok v, b')) : Out [] v b' := by
  rcases setOutgoing_cases b with ⟨_, e⟩ | ⟨h', e⟩
  · rw [e] at h; cases h
  · rw [e] at h
    injection h with h1 h2
    injection h1 with h1
    subst h1; subst h2
    exact ⟨⟨by simp, by simp, by simp, hw.buf⟩, by simp, by simp, by simp, by simp, rfl⟩

/-- C27. After any history `x`, a successful `setOutgoing`, and any further history `ops` whose sends are in
range: the response area begins with the concatenation of the blocks sent (each as it was when sent), never
more than 256 bytes; when no more than that was declared, the response read by the system is exactly the
declared number of those bytes. -/
theorem C27_response {bytes : List Int} (hb : AnyBytes bytes) {a : APDU} (ha : APDU.init bytes = .ok a)
    (x ops : List Op) (v : Int) (b : APDU) (hx : (a.run x).setOutgoing = (.ok v, b)) (hr : AllInRange b ops) :
    (b.run ops).raw.take (sent b [] ops).length = sent b [] ops ∧
    (sent b [] ops).length ≤ 256 ∧
    (∀ n : Nat, declared b v ops = n → n ≤ (sent b [] ops).length →
      (b.run ops).response = (sent b [] ops).take n) := by
  have h := (out_start _ b v (run_wf a (init_wf hb ha) x) hx).run ops hr
  refine ⟨h.raw, h.le, ?_⟩
  intro n hn hle
  unfold APDU.response
  rw [h.decl, hn, sliceTo_natCast]
  conv => rhs; rw [← h.raw, List.take_take, Nat.min_eq_left hle]

/-- C27. A send in range that would take the total beyond 256 bytes raises BUFFER_BOUNDS and changes
nothing; any other succeeds, and then the state is "full outgoing" exactly when at least the declared
number of bytes has been sent ("partial outgoing" otherwise). -/
theorem C27_send {bytes : List Int} (hb : AnyBytes bytes) {a : APDU} (ha : APDU.init bytes = .ok a)
    (x ops : List Op) (v : Int) (b : APDU) (hx : (a.run x).setOutgoing = (.ok v, b)) (hr : AllInRange b ops)
    (op : Op) (blk : List Int) (hop : InRange (b.run ops) op) (hblk : sendBlock (b.run ops) op = some blk) :
    (256 < (sent b [] ops).length + blk.length ∧ (b.run ops).step op = (.error (.apdu 1), b.run ops)) ∨
    ((sent b [] ops).length + blk.length ≤ 256 ∧ ((b.run ops).step op).1 = .ok 0 ∧
      (((b.run ops).step op).2.getCurrentState =
        if declared b v ops ≤ (sent b [] ops ++ blk).length then 6 else 5)) := by
  have h := (out_start _ b v (run_wf a (init_wf hb ha) x) hx).run ops hr
  generalize sent b [] ops = acc at h
  generalize declared b v ops = n at h
  generalize b.run ops = c at h hop hblk
  have core : ∀ (d : List Int) (o l : Int), 0 ≤ o → 0 ≤ l → o + l ≤ (d.length : Int) → range d o.toNat l.toNat = blk →
      (256 < acc.length + blk.length ∧ ((c.sendFrom d o l).1.map fun _ => (0 : Int), (c.sendFrom d o l).2) = (.error (.apdu 1), c)) ∨
      (acc.length + blk.length ≤ 256 ∧ ((c.sendFrom d o l).1.map fun _ => (0 : Int)) = .ok 0 ∧
        (c.sendFrom d o l).2.state = if n ≤ (acc ++ blk).length then 6 else 5) := by
    intro d o l h1 h2 h3 hbk
    have hl : (blk.length : Int) = l := by
      rw [← hbk]; simp only [range, List.length_take, List.length_drop]; omega
    rcases h.sendFrom d o l h1 h2 h3 with ⟨h4, e⟩ | ⟨h4, a', e, _, hs⟩
    · left; rw [e]; exact ⟨by omega, rfl⟩
    · right; rw [e]; rw [hbk] at hs; exact ⟨by omega, rfl, hs⟩
  cases op with
  | sendBytes o l =>
    obtain ⟨h1, h2, h3⟩ := hop
    rcases sendBytes_cases c o l with ⟨h', e⟩ | ⟨_, e⟩
    · have := h.st; omega
    · simp only [APDU.step, e]
      simp only [sendBlock, Option.some.injEq] at hblk
      exact core _ _ _ h1 h2 h3 hblk
  | sendBytesLong d o l =>
    obtain ⟨h1, h2, h3⟩ := hop
    simp only [APDU.step, sendBytesLong_eq c d o l]
    simp only [sendBlock, Option.some.injEq] at hblk
    exact core _ _ _ h1 h2 h3 hblk
  | _ => cases hblk

/-- C27. `setOutgoingAndSend` in range and within the expected length produces exactly its block. -/
theorem C27_set_outgoing_and_send {bytes : List Int} (hb : AnyBytes bytes) {a : APDU} (ha : APDU.init bytes = .ok a)
    (x : List Op) (hx : (a.run x).getCurrentState < 3) (o l : Nat) (hne : ∀ ne, (a.run x).Ne = some ne → (l : Int) ≤ ne)
    (hl : l ≤ 256) (hol : o + l ≤ 257) :
    ∃ b, (a.run x).setOutgoingAndSend o l = (.ok (), b) ∧ b.response = range (a.run x).buffer o l ∧
      b.getCurrentState = 6 := by
  have hw := run_wf a (init_wf hb ha) x
  generalize a.run x = c at hw hx hne
  unfold APDU.getCurrentState at hx
  have hbl : (range c.buffer o l).length = l := by simp [range, hw.buf]; omega
  rcases setOutgoingAndSend_cases c o l with ⟨h', _⟩ | ⟨_, ⟨⟨ne, h1, h2⟩, _⟩ | ⟨_, ⟨h', _⟩ | ⟨_, e⟩⟩⟩
  · omega
  · have := hne ne h1; omega
  · omega
  · refine ⟨_, e, ?_, ?_⟩
    · unfold APDU.response
      simp only [sentState, Int.zero_add]
      have e0 := setSlice_add c.raw 0 l (range c.buffer o l) (by omega)
      simp only [Int.natCast_zero, Int.zero_add, List.take_zero, List.nil_append, Nat.zero_add] at e0
      rw [slice_add]
      have : List.take l (List.drop o c.buffer) = range c.buffer o l := rfl
      rw [this, e0, sliceTo_natCast]
      have := List.take_left (l₁ := range c.buffer o l) (l₂ := List.drop l c.raw)
      rw [hbl] at this
      exact this
    · simp [APDU.getCurrentState, sentState]

/-- C27. Nothing checks that a block lies in the buffer: a `sendBytes` reaching beyond its end succeeds
silently. -/
theorem C27_out_of_range_silent (a : APDU) (o l c : Int) (h : 3 ≤ a.state) (hc : a.cur = some c) (hl : c + l ≤ 256)
    (_hout : (a.buffer.length : Int) < o + l) : (a.sendBytes o l).1 = .ok () := by
  rcases sendBytes_cases a o l with ⟨h', _⟩ | ⟨_, e⟩
  · omega
  · rw [e]
    rcases sendFrom_cases a a.buffer o l with ⟨h1, _⟩ | ⟨c', h1, h2, e⟩ | ⟨c', h1, h2, e⟩
    · rw [hc] at h1; cases h1
    · rw [hc] at h1; injection h1 with h1; omega
    · rw [e]

/-- C27. Such a send counts as `l` bytes but delivers only the cells there are: what follows in the
response area moves up to close the gap. The same for `sendBytesLong` on any array. -/
theorem C27_cells_that_exist (a : APDU) (o l c : Nat) (h : 3 ≤ a.state) (hc : a.cur = some (c : Int))
    (hl : c + l ≤ 256) (hraw : c ≤ a.raw.length) (d : List Int) :
    (∃ b, a.sendBytes o l = (.ok (), b) ∧ b.cur = some ((c + l : Nat) : Int) ∧
      b.raw = a.raw.take c ++ (a.buffer.drop o).take l ++ a.raw.drop (c + l)) ∧
    (∃ b, a.sendBytesLong d o l = (.ok (), b) ∧ b.cur = some ((c + l : Nat) : Int) ∧
      b.raw = a.raw.take c ++ (d.drop o).take l ++ a.raw.drop (c + l)) := by
  have key : ∀ d : List Int, ∃ b, a.sendFrom d o l = (.ok (), b) ∧ b.cur = some ((c + l : Nat) : Int) ∧
      b.raw = a.raw.take c ++ (d.drop o).take l ++ a.raw.drop (c + l) := by
    intro d
    rcases sendFrom_cases a d o l with ⟨h1, _⟩ | ⟨c', h1, h2, e⟩ | ⟨c', h1, h2, e⟩
    · rw [hc] at h1; cases h1
    · rw [hc] at h1; injection h1 with h1; omega
    · rw [hc] at h1; injection h1 with h1; subst h1
      refine ⟨_, e, by simp [sentState], ?_⟩
      simp only [sentState]
      rw [setSlice_add _ _ _ _ hraw, slice_add]
  refine ⟨?_, ?_⟩
  · rcases sendBytes_cases a o l with ⟨h', _⟩ | ⟨_, e⟩
    · omega
    · rw [e]; exact key _
  · have : a.sendBytesLong d o l = a.sendFrom d o l := by
      unfold APDU.sendBytesLong STATE_PARTIAL_OUTGOING STATE_OUTGOING_LENGTH_KNOWN
      rw [if_neg (by omega)]
    rw [this]; exact key _

/-- The hypotheses of C27 are met: a five-byte command, `setOutgoing`, two sends of the buffer with a store
in between. -/
example : AnyBytes [0, -80, 0, 0, 5] ∧ ∃ a v b, APDU.init [0, -80, 0, 0, 5] = .ok a ∧
    (a.run []).setOutgoing = (.ok v, b) ∧
    AllInRange b [.sendBytes 0 4, .poke 0 9, .sendBytes 0 1, .sendBytesLong [1, 2, 3] 1 2] := by
  have hb : AnyBytes [0, -80, 0, 0, 5] := by intro x hx; simp at hx; omega
  have ha : APDU.init [0, -80, 0, 0, 5] = .ok (built [0, -80, 0, 0, 5] 5 2 0 (some (le1 5)) 1 5 false) := init_A _ rfl
  refine ⟨hb, _, _, _, ha, rfl, ?_⟩
  have hw := init_wf hb ha
  have key : ∀ (b : APDU), WF b →
      AllInRange b [.sendBytes 0 4, .poke 0 9, .sendBytes 0 1, .sendBytesLong [1, 2, 3] 1 2] := by
    intro b hb
    have h1 := step_wf _ hb (.sendBytes 0 4)
    have h2 := step_wf _ h1 (.poke 0 9)
    exact ⟨⟨by omega, by omega, by rw [hb.buf]; omega⟩, trivial, ⟨by omega, by omega, by rw [h2.buf]; omega⟩,
      ⟨by omega, by omega, by decide⟩, trivial⟩
  exact key _ (step_wf _ hw .setOutgoing)

/-! ### C29 -/

/-- Does the call send response bytes? -/
def isSend : Op → Bool
  | .sendBytes _ _ => true
  | .sendBytesLong _ _ _ => true
  | .setOutgoingAndSend _ _ => true
  | _ => false

theorem step_raw (a : APDU) (op : Op) (h : isSend op = false) : (a.step op).2.raw = a.raw := by
  cases hr : isReceive op with
  | true =>
    rcases step_receive a op hr with ⟨_, e⟩ | ⟨_, _, _, e⟩ | ⟨hc, ⟨b, e, hb⟩ | ⟨b, e, hb⟩⟩ <;> rw [e]
  | false =>
    cases op with
    | setIncomingAndReceive => cases hr
    | receiveBytes o => cases hr
    | setOutgoing => simp only [APDU.step]; rcases setOutgoing_cases a with ⟨_, e⟩ | ⟨_, e⟩ <;> rw [e]
    | setOutgoingLength l =>
      simp only [APDU.step]
      rcases setOutgoingLength_cases a l with ⟨_, e⟩ | ⟨_, _, e⟩ | ⟨_, _, e⟩ <;> rw [e]
    | poke i v => simp only [APDU.step]; rcases poke_cases a i v with ⟨_, e⟩ | ⟨_, _, e⟩ <;> rw [e]
    | _ => cases h

theorem run_raw (a : APDU) (ops : List Op) (h : ∀ op ∈ ops, isSend op = false) : (a.run ops).raw = a.raw := by
  induction ops generalizing a with
  | nil => rfl
  | cons op ops ih =>
    rw [run_cons, ih _ fun o ho => h o (List.mem_cons_of_mem _ ho), step_raw a op (h op List.mem_cons_self)]

/-- Bit `i` (0 the lowest) of `n`. -/
def bit (n i : Nat) : Nat := n / 2 ^ i % 2

theorem cla_queries (a : APDU) (cla : Int) (n : Nat) (hc : a.raw[0]? = some cla) (hs : Spells cla n) :
    a.isISOInterindustryCLA = .ok (decide (bit n 7 = 0)) ∧ a.isCommandChainingCLA = .ok (decide (bit n 4 = 1)) := by
  have hlen : 0 < a.raw.length := by
    cases h : a.raw with
    | nil => rw [h] at hc; cases hc
    | cons => simp
  have hg : get a.raw 0 = .ok cla := by
    have := get_natCast a.raw 0 hlen
    rw [List.getElem?_eq_getElem hlen] at hc
    injection hc with hc
    rw [hc] at this
    exact this
  unfold APDU.isISOInterindustryCLA APDU.isCommandChainingCLA
  rw [hg]
  obtain ⟨h1, h2⟩ := hs
  simp only [iand_80, iand_10]
  refine ⟨?_, ?_⟩ <;> congr 1 <;> rw [decide_eq_decide] <;> unfold bit <;> constructor <;> intro h <;> omega

/-- C29. In every history without sends, the two CLA queries report bits 8 and 5 of the command's CLA. -/
theorem C29_command_cla {bytes : List Int} (hb : AnyBytes bytes) {a : APDU} (ha : APDU.init bytes = .ok a)
    (ops : List Op) (hops : ∀ op ∈ ops, isSend op = false) (cla : Int) (n : Nat) (hc : bytes[0]? = some cla)
    (hs : Spells cla n) :
    (a.run ops).isISOInterindustryCLA = .ok (decide (bit n 7 = 0)) ∧
    (a.run ops).isCommandChainingCLA = .ok (decide (bit n 4 = 1)) := by
  apply cla_queries _ cla n _ hs
  rw [run_raw a ops hops]
  obtain ⟨k, ty, nc, ne, lel, cd, br, rfl, _⟩ := init_built hb ha
  exact hc

/-- C29. Once response bytes have been sent, they report bits of the response's first byte instead. -/
theorem C29_response_byte {bytes : List Int} (hb : AnyBytes bytes) {a : APDU} (ha : APDU.init bytes = .ok a)
    (x ops : List Op) (v : Int) (b : APDU) (hx : (a.run x).setOutgoing = (.ok v, b)) (hr : AllInRange b ops)
    (r : Int) (n : Nat) (hne : (sent b [] ops)[0]? = some r) (hs : Spells r n) :
    (b.run ops).isISOInterindustryCLA = .ok (decide (bit n 7 = 0)) ∧
    (b.run ops).isCommandChainingCLA = .ok (decide (bit n 4 = 1)) := by
  apply cla_queries _ r n _ hs
  have h := (C27_response hb ha x ops v b hx hr).1
  rw [← h] at hne
  rw [List.getElem?_take] at hne
  split at hne
  · exact hne
  · cases hne

/-- C29. The two answers really differ: command CLA `00`, first response byte `80`. -/
theorem C29_answer_changes : ∃ (bytes : List Int) (a b : APDU), APDU.init bytes = .ok a ∧
    (a.step (.setOutgoing)).2.step (.sendBytesLong [-128] 0 1) = (.ok 0, b) ∧
    a.isISOInterindustryCLA = .ok true ∧ b.isISOInterindustryCLA = .ok false :=
  ⟨[0, 0, 0, 0], built [0, 0, 0, 0] 4 1 0 none 0 5 false, _, init_four _ rfl, rfl, by decide, by decide⟩

/-- C29. `getCLAChannel` looks at the buffer, not at the command: the two low bits of whatever the applet
has stored in its first cell. -/
theorem C29_channel (a : APDU) (c : Int) (n : Nat) (hc : a.buffer[0]? = some c) (hs : Spells c n) :
    a.getCLAChannel = .ok ((n % 4 : Nat) : Int) := by
  have hlen : 0 < a.buffer.length := by
    cases h : a.buffer with
    | nil => rw [h] at hc; cases hc
    | cons => simp
  have hg : get a.buffer 0 = .ok c := by
    have := get_natCast a.buffer 0 hlen
    rw [List.getElem?_eq_getElem hlen] at hc
    injection hc with hc
    rw [hc] at this
    exact this
  unfold APDU.getCLAChannel
  rw [hg]
  obtain ⟨h1, h2⟩ := hs
  simp only [iand_03]
  congr 1
  omega

theorem C29_channel_initial {bytes : List Int} (hb : AnyBytes bytes) {a : APDU} (ha : APDU.init bytes = .ok a)
    (cla : Int) (n : Nat) (hc : bytes[0]? = some cla) (hs : Spells cla n) :
    a.getCLAChannel = .ok ((n % 4 : Nat) : Int) := by
  obtain ⟨k, ty, nc, ne, lel, cd, br, rfl, h4, _, hk, _⟩ := init_built hb ha
  apply C29_channel _ cla n _ hs
  simp only [built]
  rw [List.getElem?_append_left (by simp; omega), List.getElem?_take, if_pos (by omega)]
  exact hc

/-- C29. `getProtocol` tells T=1 over the default medium, in the constants of the class: high digit PROTOCOL_MEDIA_DEFAULT (2), low digit PROTOCOL_T1 (6);
the class's masks (PROTOCOL_TYPE_MASK = 7, PROTOCOL_MEDIA_MASK = 3) give the same two constants. -/
theorem C29_protocol : APDU.getProtocol = 2 * 16 + 6 ∧ iand APDU.getProtocol 7 = 6 ∧ iand APDU.getProtocol 3 = 2 := by decide

example : Spells (-112) 144 ∧ bit 144 7 = 1 ∧ bit 144 4 = 1 := by simp [Spells, bit]

end Verif.Props
