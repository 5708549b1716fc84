import Verif.Props.CardLists
import Verif.Props.APDUWorld
import Verif.Props.APDUSend
import Verif.Props.APDURecv
/-! C117, continued: receiving and sending on a card. -/
namespace Verif.Props
open Verif.Py Verif.Model Verif.Model.Card Verif.Spec Verif.Spec.Card

theorem newAPDU_is {env : CryptoEnv} {fuel : Nat} {w w1 : Card} {a b r : Nat} (h : step env fuel w (.newAPDU a b r) = some (.ok (.ref a), w1)) :
    ∃ bytes y, listAt w r = some bytes ∧ APDU.init bytes = .ok y ∧ IsAPDU w1 a r b y ∧ r ≠ b := by
  obtain ⟨e, he, ho, rfl⟩ := step_sem h
  simp only [sem, Option.some.injEq] at he
  subst he
  split at ho
  · next ha hb hm =>
    split at ho
    · simp [wrong] at ho
    · next hab =>
      rw [onArray_eq] at ho
      cases hl : listAt w r with
      | none => simp [hl, wrong] at ho
      | some bytes =>
        have hr := listAt_some hl
        simp only [hl, Option.elim] at ho
        have hra : r ≠ a := fun e => by rw [e, ha] at hr; cases hr
        have hrb : r ≠ b := fun e => by rw [e, hb] at hr; cases hr
        have hrm : r ≠ MODULE := fun e => by rw [e, hm] at hr; cases hr
        have ham : a ≠ MODULE := fun e => by rw [e, hm] at ha; cases ha
        have hbm : b ≠ MODULE := fun e => by rw [e, hm] at hb; cases hb
        rw [if_neg hab, onArray_eq, hl]
        simp only [Option.elim]
        unfold newAPDU at ho ⊢
        split at ho
        · simp at ho
        · next h4 =>
          rw [if_neg h4]
          split at ho
          · simp at ho
          · next buffer hbuf =>
            skip
            split at ho
            · next y hy =>
              try simp only
              refine ⟨bytes, y, rfl, hy, ⟨?_, ?_, ?_⟩, hrb⟩
              · simp [put, hab, ham]
              · have : y.raw = bytes := init_raw _ _ hy
                simp [listAt, put, hra, hrb, hrm, hr, this]
              · simp [listAt, put, hbm]
            · simp at ho
  · simp [wrong] at ho

/-! ### Receiving -/

/-- The calls on the APDU that belong to a receive loop: stores into the buffer, and receives whose block fits into it. -/
def InLoop (a : Nat) : Step → Prop
  | .apdu j (.receiveBytes o) => j = a → 0 ≤ o ∧ o ≤ 129
  | .apdu _ (.poke _ _) => True
  | .apdu j _ => j ≠ a
  | .sendBytesLong j .. => j ≠ a
  | _ => True

/-- How many receives of the APDU there are in a program. -/
def receivesIn (a : Nat) : List Step → Nat
  | [] => 0
  | .apdu j (.receiveBytes _) :: ss => receivesIn a ss + if j = a then 1 else 0
  | _ :: ss => receivesIn a ss

theorem receives_append (l l' : List APDU.Op) : receives (l ++ l') = receives l + receives l' := by
  induction l with
  | nil => simp [receives]
  | cons op l ih => cases op <;> simp only [List.cons_append, receives, ih] <;> omega

theorem receives_stores (vs : List Int) : ∀ k, receives (stores k vs) = 0 := by
  induction vs with
  | nil => intro k; rfl
  | cons v vs ih => intro k; simp only [stores, receives, ih]

theorem stores_loop (vs : List Int) : ∀ k, ∀ op ∈ stores k vs, LoopOp op := by
  induction vs with
  | nil => intro k op h; simp [stores] at h
  | cons v vs ih =>
    intro k op h
    simp only [stores, List.mem_cons] at h
    rcases h with rfl | h
    · exact .inl ⟨_, _, rfl⟩
    · exact ih _ _ h

theorem loop_history {env : CryptoEnv} {fuel : Nat} {a b : Nat} : ∀ {prog : List Step} {w w' : Card} {outs : List (Except Err Card.Out)},
    run env fuel w prog = some (outs, w') → (∀ s ∈ prog, InLoop a s) →
    (∀ op ∈ apduHistory a b env fuel w prog, LoopOp op) ∧ receives (apduHistory a b env fuel w prog) = receivesIn a prog := by
  intro prog
  induction prog with
  | nil => intro w w' outs _ _; exact ⟨fun op h => by simp [apduHistory] at h, rfl⟩
  | cons s ss ih =>
    intro w w' outs hr hs
    simp only [run] at hr
    cases he : step env fuel w s with
    | none => simp [he] at hr
    | some x =>
      obtain ⟨o, w1⟩ := x
      simp only [he] at hr
      cases hrr : run env fuel w1 ss with
      | none => simp [hrr] at hr
      | some q =>
        obtain ⟨i1, i2⟩ := ih hrr fun s' h' => hs s' (by simp [h'])
        have h1 := hs s (by simp)
        simp only [apduHistory, he]
        rw [receives_append, i2]
        have hst : (∀ op ∈ stores 0 ((listAt w1 b).getD []) ++ apduHistory a b env fuel w1 ss, LoopOp op) ∧
            receives (stores 0 ((listAt w1 b).getD [])) + receivesIn a ss = receivesIn a ss := by
          constructor
          · intro op hop
            rw [List.mem_append] at hop
            rcases hop with h | h
            · exact stores_loop _ _ _ h
            · exact i1 _ h
          · rw [receives_stores]; omega
        cases hc : apduCall a w s with
        | none =>
          have : receivesIn a (s :: ss) = receivesIn a ss := by
            cases s <;> try rfl
            case apdu j op =>
              cases op <;> try rfl
              case receiveBytes o =>
                simp only [receivesIn]
                rw [if_neg (fun e => by simp [apduCall, e] at hc)]
                omega
          rw [this]
          exact hst
        | some op =>
          simp only [List.singleton_append, List.mem_cons]
          cases s <;> simp only [apduCall, reduceCtorEq] at hc
          case sendBytesLong j q off len =>
            exact absurd (by
              by_cases e : j = a
              · exact e
              · simp [e] at hc) h1
          case apdu j op' =>
            have hj : j = a := by
              by_cases e : j = a
              · exact e
              · simp [e] at hc
            simp only [hj, if_true, Option.some.injEq] at hc
            subst hc
            cases op' <;> simp only [InLoop] at h1
            case receiveBytes o =>
              obtain ⟨h2, h3⟩ := h1 hj
              refine ⟨?_, ?_⟩
              · rintro op (rfl | h)
                · exact .inr ⟨o.toNat, by rw [Int.toNat_of_nonneg h2], by omega⟩
                · exact i1 _ h
              · simp only [receives, receivesIn, hj, if_true]; omega
            case poke i v =>
              refine ⟨?_, ?_⟩
              · rintro op (rfl | h)
                · exact .inl ⟨_, _, rfl⟩
                · exact i1 _ h
              · simp only [receives, receivesIn]; omega
            all_goals exact absurd hj h1

theorem recv_history {bytes data : List Int} {base : Nat} (ops : List APDU.Op) (hops : ∀ op ∈ ops, LoopOp op)
    (j : Nat) (a : APDU) (h : Recv bytes data base (min (128 * j) data.length) a)
    (hst : a.state = if data.length ≤ 128 * j then 2 else 1) :
    Recv bytes data base (min (128 * (j + receives ops)) data.length) (a.run ops) ∧
    (a.run ops).state = if data.length ≤ 128 * (j + receives ops) then 2 else 1 := by
  induction ops generalizing a j with
  | nil => exact ⟨h, hst⟩
  | cons op ops ih =>
    have hops' : ∀ op ∈ ops, LoopOp op := fun o ho => hops o (List.mem_cons_of_mem _ ho)
    rcases hops op List.mem_cons_self with ⟨i, v, rfl⟩ | ⟨o, rfl, ho⟩
    · obtain ⟨h1, h2⟩ := h.poke i v
      exact ih hops' j _ h1 (h2.trans hst)
    · have hs : ¬ (a.state < APDU.STATE_PARTIAL_INCOMING ∨ a.state ≥ APDU.STATE_OUTGOING) := by
        rw [hst]; unfold APDU.STATE_PARTIAL_INCOMING APDU.STATE_OUTGOING; split <;> omega
      obtain ⟨a', e, hr, hst', hb⟩ := h.recv o ho
      have hstep : APDU.step a (.receiveBytes o) = a.recv o := by
        simp only [APDU.step]
        rw [APDU.receiveBytes_recv, if_neg hs]
      have hp : min (128 * j) data.length + min 128 (data.length - min (128 * j) data.length) =
          min (128 * (j + 1)) data.length := by omega
      rw [hp] at hr hst'
      have hst'' : a'.state = if data.length ≤ 128 * (j + 1) then 2 else 1 := by
        rw [hst']
        by_cases hq : data.length ≤ 128 * (j + 1)
        · rw [if_pos hq, if_pos (by omega)]
        · rw [if_neg hq, if_neg (by omega)]
      have := ih hops' (j + 1) a' hr hst''
      have hrun : a.run (.receiveBytes o :: ops) = a'.run ops := by
        simp only [APDU.run, List.foldl_cons, hstep, e]
      rw [hrun]
      have hrec : receives (.receiveBytes o :: ops) = receives ops + 1 := rfl
      rw [hrec, show j + (receives ops + 1) = j + 1 + receives ops by omega]
      exact this

theorem recv_block {bytes data : List Int} {base j : Nat} {a : APDU} (h : Recv bytes data base (min (128 * j) data.length) a)
    (hst : a.state = if data.length ≤ 128 * j then 2 else 1) (o : Nat) (ho : o ≤ 129) :
    ∃ a', APDU.step a (.receiveBytes o) = (.ok ((block data j).length : Nat), a') ∧ range a'.buffer o (block data j).length = block data j := by
  have hs : ¬ (a.state < APDU.STATE_PARTIAL_INCOMING ∨ a.state ≥ APDU.STATE_OUTGOING) := by
    rw [hst]; unfold APDU.STATE_PARTIAL_INCOMING APDU.STATE_OUTGOING; split <;> omega
  obtain ⟨a', e, _, _, hb⟩ := h.recv o (by omega)
  have hl : (block data j).length = min 128 (data.length - min (128 * j) data.length) := by simp [block]; omega
  have hd : (data.drop (min (128 * j) data.length)).take 128 = block data j := by
    unfold block
    by_cases hj : 128 * j ≤ data.length
    · rw [Nat.min_eq_left hj]
    · rw [Nat.min_eq_right (by omega), List.drop_eq_nil_of_le (Nat.le_refl _), List.drop_eq_nil_of_le (by omega)]
  refine ⟨a', ?_, ?_⟩
  · simp only [APDU.step]
    rw [APDU.receiveBytes_recv, if_neg hs, e, hl]
  · rw [hl, hb, hd]

/-- **C117** (receiving). On a card, an APDU is made from an accepted command with the given data and receives its first block; then any program may run
that leaves the APDU's private list alone, and among whose calls on that APDU are only further receives and stores into its buffer. The first call delivers
the first 128 bytes of the data at the offset the APDU tells, and the next receive delivers the block that follows those of all receives so far. -/
theorem C117_receive {env : CryptoEnv} {fuel : Nat} {w0 w w1 w2 : Card} {a r b : Nat} {bytes data : List Int} (hacc : Accepted bytes data)
    (hl : listAt w0 r = some bytes) (h0 : step env fuel w0 (.newAPDU a b r) = some (.ok (.ref a), w))
    {o1 : Except Err Card.Out} (h1 : step env fuel w (.apdu a .setIncomingAndReceive) = some (o1, w1))
    {prog : List Step} {outs : List (Except Err Card.Out)} (h2 : run env fuel w1 prog = some (outs, w2)) (hleave : LeavesAPDU env fuel w1 prog a r b)
    (hloop : ∀ s ∈ prog, InLoop a s) :
    (∃ cd buf : _, step env fuel w (.askAPDU a .offsetCdata) = some (.ok (.int (cd : Nat)), w) ∧ o1 = .ok (.int (block data 0).length) ∧
      listAt w1 b = some buf ∧ range buf cd (block data 0).length = block data 0) ∧
    ∀ o : Nat, o ≤ 129 → ∃ w3 buf, step env fuel w2 (.apdu a (.receiveBytes o)) = some (.ok (.int (block data (receivesIn a prog + 1)).length), w3) ∧
      listAt w3 b = some buf ∧ range buf o (block data (receivesIn a prog + 1)).length = block data (receivesIn a prog + 1) := by
  obtain ⟨bytes', y, hl', hy, hi, hrb⟩ := newAPDU_is h0
  rw [hl] at hl'; injection hl' with hl'; subst hl'
  obtain ⟨y', base, hy', hr, hst, hbr, hcd, hb7, hpos⟩ := accepted_recv hacc
  rw [hy] at hy'; injection hy' with hy'; subst hy'
  obtain ⟨y1, e, hr1, hst1, hb⟩ := hr.recv base (by omega)
  have hsi : APDU.step y .setIncomingAndReceive = (.ok ((block data 0).length : Nat), y1) := by
    simp only [APDU.step]
    rw [APDU.setIncoming_recv, if_neg (show ¬ (y.state ≠ APDU.STATE_INITIAL) by simp [hst, APDU.STATE_INITIAL]), if_neg (by simp [hbr])]
    have : y.offsetincoming = (base : Int) := hr.off
    rw [this, e]
    simp [block]
  obtain ⟨w1', f1, f2⟩ := apdu_own (env := env) (fuel := fuel) hi hrb (s := .apdu a .setIncomingAndReceive) (op := .setIncomingAndReceive) (by simp [apduCall])
  rw [h1] at f1
  simp only [Option.some.injEq, Prod.mk.injEq] at f1
  obtain ⟨f1, rfl⟩ := f1
  rw [hsi] at f1 f2
  have hp : 0 + min 128 (data.length - 0) = min (128 * 1) data.length := by omega
  rw [hp] at hr1 hst1
  have hst1' : y1.state = if data.length ≤ 128 * 1 then 2 else 1 := by
    rw [hst1]
    by_cases hq : data.length ≤ 128 * 1
    · rw [if_pos hq, if_pos (by omega)]
    · rw [if_neg hq, if_neg (by omega)]
  refine ⟨⟨base, y1.buffer, ?_, f1, f2.buffer, ?_⟩, ?_⟩
  · have := (C117_apdu (env := env) (fuel := fuel) hrb (prog := []) (w := w) rfl hi (fun c hc => by simp [calls] at hc)).2.2.2.2.2.2.1
    rw [this]
    show some (Except.ok (Card.Out.int y.getOffsetCdata), w) = _
    rw [hcd]
  · have : (block data 0).length = min 128 (data.length - 0) := by simp [block]
    rw [this, hb]; rfl
  · intro o ho
    obtain ⟨g1, g2, _⟩ := C117_apdu hrb h2 f2 hleave
    obtain ⟨l1, l2⟩ := loop_history (b := b) h2 hloop
    obtain ⟨k1, k2⟩ := recv_history _ l1 1 y1 hr1 hst1'
    rw [l2, Nat.add_comm] at k1 k2
    obtain ⟨y3, m1, m2⟩ := recv_block k1 k2 o ho
    obtain ⟨w3, n1, n2⟩ := apdu_own (env := env) (fuel := fuel) g1 hrb (s := .apdu a (.receiveBytes o)) (op := .receiveBytes o) (by simp [apduCall])
    rw [m1] at n1 n2
    exact ⟨w3, y3.buffer, n1, n2.buffer, m2⟩

end Verif.Props
