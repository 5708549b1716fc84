import Verif.Props.APDUParse
/-! C24, C25: receiving command data. -/
namespace Verif.Props
open Verif.Py Verif.Model Verif.Spec Verif.Model.APDU

/-- The command accepted by the code: its data starts at `base` and is followed by `tail` bytes of Le.
(Short commands, and case 4E with an Le the code reads right.) -/
inductive Accepted (bytes data : List Int) : Prop
  | short {hdr : List Int} {ne : Option Nat} : ShortCmd hdr data ne bytes → data ≠ [] → Accepted bytes data
  | ext {hdr : List Int} {n : Nat} : Ext4 hdr data n bytes → GoodLe n → Accepted bytes data

/-- What the object looks like after `p` received bytes. -/
structure Recv (bytes data : List Int) (base : Nat) (p : Nat) (a : APDU) : Prop where
  raw : a.raw = bytes
  len : (bytes.length : Int) = base + data.length + a.lelength
  lel : 0 ≤ a.lelength
  dat : (bytes.drop base).take data.length = data
  off : a.offsetincoming = (base + p : Nat)
  le : p ≤ data.length
  buf : a.buffer.length = 257

theorem drop_take_of {l d : List Int} {b : Nat} (h : (l.drop b).take d.length = d) (p n : Nat)
    (hn : p + n ≤ d.length) : (l.drop (b + p)).take n = (d.drop p).take n := by
  have h1 : (d.drop p).take n = (((l.drop b).take d.length).drop p).take n := by rw [h]
  rw [h1, List.drop_take, List.drop_drop, List.take_take]
  congr 1
  omega

theorem Recv.blockLen {bytes data : List Int} {base p : Nat} {a : APDU} (h : Recv bytes data base p a) :
    a.toBeProcessed = (min 128 (data.length - p) : Nat) ∧ a.blockLen = min 128 (data.length - p) := by
  have h1 := h.raw
  have h2 := h.len
  have h3 := h.off
  have h4 := h.le
  have : a.toBeProcessed = (min 128 (data.length - p) : Nat) := by
    unfold APDU.toBeProcessed IN_BLOCKSIZE
    rw [h1, h3]
    omega
  refine ⟨this, ?_⟩
  unfold APDU.blockLen
  rw [this]; simp

/-- One receiving call at an in-range offset. -/
theorem Recv.recv {bytes data : List Int} {base p : Nat} {a : APDU} (h : Recv bytes data base p a)
    (d : Nat) (hd : d + 128 ≤ 257) :
    ∃ a', a.recv d = (.ok ((min 128 (data.length - p) : Nat) : Int), a') ∧
      Recv bytes data base (p + min 128 (data.length - p)) a' ∧
      (a'.state = if p + min 128 (data.length - p) = data.length then 2 else 1) ∧
      range a'.buffer d (min 128 (data.length - p)) = (data.drop p).take 128 := by
  obtain ⟨hb1, hb2⟩ := h.blockLen
  have hraw := h.raw
  have hlen := h.len
  have hlel := h.lel
  have hoff := h.off
  have hle := h.le
  have hbuf := h.buf
  have := recv_ok a (base + p) d hoff (by rw [hb2, hraw]; omega) (by rw [hb2, hbuf]; omega)
  rw [hb1] at this
  refine ⟨_, this, ⟨hraw, hlen, hlel, h.dat, ?_, by omega, ?_⟩, ?_, ?_⟩
  · simp only; omega
  · simp only
    rw [splice_length _ _ _ (by simp [hb2, hbuf, hraw]; omega), hbuf]
  · simp only [hraw]
    simp only [STATE_FULL_INCOMING, STATE_PARTIAL_INCOMING]
    by_cases hq : p + min 128 (data.length - p) = data.length
    · rw [if_pos hq, if_pos (by omega)]
    · rw [if_neg hq, if_neg (by omega)]
  · simp only [hb2, hraw, range]
    have e : (bytes.drop (base + p)).take (min 128 (data.length - p)) = (data.drop p).take (min 128 (data.length - p)) :=
      drop_take_of h.dat p _ (by omega)
    rw [e]
    have e2 : (data.drop p).take (min 128 (data.length - p)) = (data.drop p).take 128 := by
      rw [← List.take_take, List.take_of_length_le (i := data.length - p)]
      simp
    rw [e2]
    have l2 : ((data.drop p).take 128).length = min 128 (data.length - p) := by simp
    unfold splice
    rw [List.append_assoc, List.drop_append, List.drop_take_self, List.nil_append]
    have : d - (a.buffer.take d).length = 0 := by simp; omega
    rw [this, List.drop_zero, ← l2]
    exact List.take_left

theorem Recv.poke {bytes data : List Int} {base p : Nat} {a : APDU} (h : Recv bytes data base p a)
    (i v : Int) : Recv bytes data base p (a.poke i v).2 ∧ (a.poke i v).2.state = a.state := by
  unfold APDU.poke
  cases hs : Verif.Py.set a.buffer i v with
  | error e => exact ⟨h, rfl⟩
  | ok b => exact ⟨⟨h.raw, h.len, h.lel, h.dat, h.off, h.le, (set_length hs).trans h.buf⟩, rfl⟩

/-- The state right after construction. -/
theorem accepted_recv {bytes data : List Int} (h : Accepted bytes data) :
    ∃ a base, APDU.init bytes = .ok a ∧ Recv bytes data base 0 a ∧ a.state = 0 ∧ a.broken = false ∧
      a.getOffsetCdata = base ∧ base ≤ 7 ∧ 0 < data.length := by
  cases h with
  | @short hdr ne h hd =>
    have hpos : 0 < data.length := List.length_pos_iff.2 hd
    have e := short_built h
    have hk : (if data = [] ∧ ne = none then 4 else 5) = 5 := by simp [hd]
    rw [hk] at e
    have hl := (shortCmd_length h).2
    simp only [hd, if_false] at hl
    refine ⟨_, 5, e, ⟨rfl, ?_, ?_, ?_, rfl, by omega, ?_⟩, rfl, rfl, rfl, by omega, hpos⟩
    · simp only [built, leBytes, hl]; split <;> omega
    · simp only [built, leBytes]; split <;> omega
    · obtain ⟨hh, lcf, lef, hlc, hle, rfl⟩ := h
      match hdr, hh with
      | [a, b, c, d], _ =>
        rcases hlc with ⟨rfl, rfl⟩ | ⟨hd, hdl, lc, rfl, hlc⟩
        · exact absurd rfl hd
        · simp
    · exact built_buffer_length _ _ _ _ _ _ _ _ (by omega) (by omega)
  | @ext hdr n h hn =>
    rcases ext4_built h with ⟨_, e⟩ | ⟨h', _⟩
    · obtain ⟨hh, hd, hdl, h1, h2, hi, lo, hi', lo', hs, hs', rfl⟩ := h
      have hpos : 0 < data.length := List.length_pos_iff.2 hd
      match hdr, hh with
      | [a, b, c, d], _ =>
      refine ⟨_, 7, e, ⟨rfl, ?_, ?_, ?_, rfl, by omega, ?_⟩, rfl, rfl, rfl, by omega, hpos⟩
      · simp [built]; omega
      · simp [built]
      · simp
      · exact built_buffer_length _ _ _ _ _ _ _ _ (by simp) (by omega)
    · exact absurd ((goodLe_iff n).1 hn) h'

/-- The applet's loop: after `setIncomingAndReceive` has delivered its block at the data offset, any mix
of `receiveBytes` calls and stores into the buffer. The result lists, for each receiving call, the bytes
the applet finds in the buffer at the place and of the number announced. -/
def received (a : APDU) : List Op → List (List Int)
  | [] => []
  | op :: ops =>
    match op, APDU.step a op with
    | .receiveBytes o, (.ok t, a') => range a'.buffer o.toNat t.toNat :: received a' ops
    | _, (_, a') => received a' ops

/-- Calls of the loop: stores, and receives whose block of at most 128 bytes fits in the 257-byte buffer. -/
def LoopOp (op : Op) : Prop := (∃ i v, op = .poke i v) ∨ ∃ o : Nat, op = .receiveBytes o ∧ o + 128 ≤ 257

/-- Number of receiving calls. -/
def receives : List Op → Nat
  | [] => 0
  | .receiveBytes _ :: ops => receives ops + 1
  | _ :: ops => receives ops

/-- The data cut in blocks of 128 bytes, block number `i`. -/
def block (data : List Int) (i : Nat) : List Int := (data.drop (128 * i)).take 128

theorem received_blocks {bytes data : List Int} {base : Nat} (ops : List Op) (hops : ∀ op ∈ ops, LoopOp op)
    (j : Nat) (a : APDU) (h : Recv bytes data base (min (128 * j) data.length) a)
    (hst : a.state = if data.length ≤ 128 * j then 2 else 1) :
    received a ops = (List.range (receives ops)).map (fun i => block data (j + i)) ∧
    (a.run ops).state = if data.length ≤ 128 * (j + receives ops) then 2 else 1 := by
  induction ops generalizing a j with
  | nil => exact ⟨rfl, hst⟩
  | cons op ops ih =>
    have hops' : ∀ op ∈ ops, LoopOp op := fun o ho => hops o (List.mem_cons_of_mem _ ho)
    rcases hops op List.mem_cons_self with ⟨i, v, rfl⟩ | ⟨o, rfl, ho⟩
    · obtain ⟨h1, h2⟩ := h.poke i v
      have := ih hops' j _ h1 (h2.trans hst)
      simp only [received, receives, APDU.step]
      exact this
    · have hs : ¬ (a.state < STATE_PARTIAL_INCOMING ∨ a.state ≥ STATE_OUTGOING) := by
        rw [hst]; unfold STATE_PARTIAL_INCOMING STATE_OUTGOING; split <;> omega
      obtain ⟨a', e, hr, hst', hb⟩ := h.recv o ho
      have hstep : APDU.step a (.receiveBytes o) = a.recv o := by
        simp only [APDU.step]
        rw [receiveBytes_recv, if_neg hs]
      have hp : min (128 * j) data.length + min 128 (data.length - min (128 * j) data.length) =
          min (128 * (j + 1)) data.length := by omega
      rw [hp] at hr hst'
      have hst'' : a'.state = if data.length ≤ 128 * (j + 1) then 2 else 1 := by
        rw [hst']
        by_cases hq : data.length ≤ 128 * (j + 1)
        · rw [if_pos hq, if_pos (by omega)]
        · rw [if_neg hq, if_neg (by omega)]
      have := ih hops' (j + 1) a' hr hst''
      have hrun : a.run (.receiveBytes o :: ops) = a'.run ops := by
        simp only [APDU.run, List.foldl_cons, hstep, e]
      rw [hrun]
      have hrec : receives (.receiveBytes o :: ops) = receives ops + 1 := rfl
      rw [hrec]
      simp only [received, hstep, e]
      rw [this.1]
      constructor
      · rw [List.range_succ_eq_map, List.map_cons, List.map_map]
        simp only [Int.toNat_natCast, Nat.add_zero]
        rw [hb]
        congr 1
        · unfold block
          by_cases hj : 128 * j ≤ data.length
          · rw [Nat.min_eq_left hj]
          · rw [Nat.min_eq_right (by omega), List.drop_eq_nil_of_le (Nat.le_refl _), List.drop_eq_nil_of_le (by omega)]
        · apply List.map_congr_left
          intro i _
          simp only [Function.comp]
          congr 1; omega
      · rw [show j + (receives ops + 1) = j + 1 + receives ops by omega]
        exact this.2

/-- Blocks of 128 concatenate to the data. -/
theorem block_concat (data : List Int) (m : Nat) :
    ((List.range m).map (block data)).flatten = data.take (128 * m) := by
  induction m with
  | zero => simp
  | succ m ih =>
    rw [List.range_succ, List.map_append, List.flatten_append, ih]
    simp only [List.map_cons, List.map_nil, List.flatten_cons, List.flatten_nil, List.append_nil, block]
    rw [Nat.mul_succ, List.take_add]

/-- C24. For every accepted command with data and every loop of receives (at any in-range offsets) and
buffer stores after `setIncomingAndReceive`: the first call announces and delivers block 0 at the data
offset, the following ones blocks 1, 2, …: the blocks found in the buffer are the successive 128-byte
pieces of the command data. -/
theorem C24_blocks {bytes data : List Int} (h : Accepted bytes data) (ops : List Op)
    (hops : ∀ op ∈ ops, LoopOp op) :
    ∃ a t a1, APDU.init bytes = .ok a ∧ a.setIncomingAndReceive = (.ok t, a1) ∧
      range a1.buffer a.getOffsetCdata.toNat t.toNat = block data 0 ∧
      received a1 ops = (List.range (receives ops)).map (fun i => block data (i + 1)) := by
  obtain ⟨a, base, ha, hr, hst, hbr, hcd, hb7, hpos⟩ := accepted_recv h
  obtain ⟨a1, e, hr1, hst1, hb⟩ := hr.recv base (by omega)
  refine ⟨a, ((min 128 (data.length - 0) : Nat) : Int), a1, ha, ?_, ?_, ?_⟩
  · rw [setIncoming_recv, if_neg (show ¬ (a.state ≠ STATE_INITIAL) by simp [hst, STATE_INITIAL]), if_neg (by simp [hbr])]
    have : a.offsetincoming = (base : Int) := hr.off
    rw [this]; exact e
  · rw [hcd]; simpa [block] using hb
  · have hp : 0 + min 128 (data.length - 0) = min (128 * 1) data.length := by omega
    rw [hp] at hr1 hst1
    have := (received_blocks ops hops 1 a1 hr1 (by
      rw [hst1]
      by_cases hq : data.length ≤ 128 * 1
      · rw [if_pos hq, if_pos (by omega)]
      · rw [if_neg hq, if_neg (by omega)])).1
    rw [this]
    apply List.map_congr_left
    intro i _; rw [Nat.add_comm]

/-- C24. Delivered exactly once and in order: the concatenation of all blocks is the prefix of the data
of 128 bytes per call, hence all of it once a call has announced 0 bytes (or once `data.length` is
reached). -/
theorem C24_concatenation {bytes data : List Int} (h : Accepted bytes data) (ops : List Op)
    (hops : ∀ op ∈ ops, LoopOp op) :
    ∃ a t a1, APDU.init bytes = .ok a ∧ a.setIncomingAndReceive = (.ok t, a1) ∧
      (let blocks := range a1.buffer a.getOffsetCdata.toNat t.toNat :: received a1 ops
       blocks.flatten = data.take (128 * blocks.length) ∧ ([] ∈ blocks → blocks.flatten = data)) := by
  obtain ⟨a, t, a1, h1, h2, h3, h4⟩ := C24_blocks h ops hops
  refine ⟨a, t, a1, h1, h2, ?_⟩
  have hbl : range a1.buffer a.getOffsetCdata.toNat t.toNat :: received a1 ops =
      (List.range (receives ops + 1)).map (block data) := by
    rw [h3, h4, List.range_succ_eq_map, List.map_cons, List.map_map]
    rfl
  simp only
  rw [hbl, block_concat]
  refine ⟨by simp, ?_⟩
  intro hm
  obtain ⟨i, hi, he⟩ := List.mem_map.1 hm
  have hi := List.mem_range.1 hi
  have : data.length ≤ 128 * i := by
    have := congrArg List.length he
    simp [block] at this
    omega
  exact List.take_of_length_le (by omega)

/-- A case 4E command with 300 data bytes meets the hypotheses, with two further receives. -/
example (data : List Int) (h300 : data.length = 300) :
    Accepted ([0, 0, 0, 0] ++ ([0, 1, 44] ++ (data ++ [0, 0]))) data ∧
    ∀ op ∈ [Op.receiveBytes (0 : Nat), .poke 3 9, .receiveBytes (129 : Nat)], LoopOp op := by
  refine ⟨.ext (hdr := [0, 0, 0, 0]) (n := 65536) ⟨rfl, by intro h; subst h; simp at h300, by omega, by omega, by omega, 1, 44, 0, 0,
    by rw [h300]; simp [Spells2, Spells], by simp [Spells2, Spells], rfl⟩ (.inl rfl), ?_⟩
  intro op hop
  simp only [List.mem_cons, List.not_mem_nil, or_false] at hop
  rcases hop with rfl | rfl | rfl
  · exact .inr ⟨0, rfl, by omega⟩
  · exact .inl ⟨3, 9, rfl⟩
  · exact .inr ⟨129, rfl, by omega⟩

end Verif.Props
