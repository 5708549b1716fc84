import Verif.Props.CardDES
import Verif.Props.CardResponse
import Verif.Props.APDUErr
/-! C127: a whole exchange on a card: a command arrives, other objects of the card work on its data in the APDU buffer, and the answer goes out. -/
namespace Verif.Props
open Verif.Py Verif.Model Verif.Model.Card Verif.Spec Verif.Spec.Card

/-- No call of the program, made on this card, stores into one of these objects. -/
def Avoids (env : CryptoEnv) (fuel : Nat) (w : Card) (prog : List Step) (objs : List Nat) : Prop :=
  ∀ c ∈ calls env fuel w prog, ∀ x ∈ objs, x ∉ writes c.1 c.2

theorem avoids_same {env : CryptoEnv} {fuel : Nat} {objs : List Nat} : ∀ {prog : List Step} {w w' : Card} {outs : List (Except Err Card.Out)},
    run env fuel w prog = some (outs, w') → Avoids env fuel w prog objs → ∀ x ∈ objs, w' x = w x := by
  intro prog
  induction prog with
  | nil =>
    intro w w' outs hr _ x _
    simp only [run, Option.some.injEq, Prod.mk.injEq] at hr
    rw [hr.2]
  | cons s ss ih =>
    intro w w' outs hr ha x hx
    simp only [run] at hr
    cases he : step env fuel w s with
    | none => simp [he] at hr
    | some q =>
      obtain ⟨o, w1⟩ := q
      simp only [he] at hr
      cases hrr : run env fuel w1 ss with
      | none => simp [hrr] at hr
      | some q =>
        obtain ⟨outs1, w2⟩ := q
        simp only [hrr, Option.map_some, Option.some.injEq, Prod.mk.injEq] at hr
        obtain ⟨_, rfl⟩ := hr
        rw [ih hrr (fun c hc => ha c (by simp [calls, he, hc])) x hx]
        exact C114_frame env fuel w w1 s o he x (ha (w, s) (by simp [calls]) x hx)

theorem mine_loop {a : Nat} {s : Step} (h : mine a s = false) : InLoop a s := by
  cases s <;> simp only [InLoop, mine, decide_eq_false_iff_not] at h ⊢
  case apdu j op => cases op <;> simp_all
  case sendBytesLong => exact h

/-- **C127** (an exchange on a card). The list at `r` holds a short command with 1 to 128 bytes of data; an APDU is made from it. After any program that
stores into none of the APDU, that list and the buffer, `setIncomingAndReceive` delivers the data, at offset 5. Then any program works on the card that makes
no call on the APDU and does not store into the list it was made from (the buffer it may change): `setOutgoingAndSend` of a range of the buffer puts exactly what the range
then holds at the front of that list, and changes nothing behind it. -/
theorem C127_exchange {env : CryptoEnv} {fuel : Nat} {w0 w w1 : Card} {a r b : Nat} {hdr data bytes : List Int} {ne : Option Nat}
    (hc : ShortCmd hdr data ne bytes) (hb : AnyBytes bytes) (hd : data ≠ []) (hn : data.length ≤ 128)
    (hl : listAt w0 r = some bytes) (h0 : step env fuel w0 (.newAPDU a b r) = some (.ok (.ref a), w))
    {G : List Step} {outs : List (Except Err Card.Out)} (hG : run env fuel w G = some (outs, w1)) (hav : Avoids env fuel w G [a, r, b]) :
    ∃ w2 buf, step env fuel w1 (.apdu a .setIncomingAndReceive) = some (.ok (.int data.length), w2) ∧
      listAt w2 r = some bytes ∧ listAt w2 b = some buf ∧ buf.length = 257 ∧ range buf 5 data.length = data ∧
      ∀ S outs' w3, run env fuel w2 S = some (outs', w3) → LeavesAPDU env fuel w2 S a r b → (∀ s ∈ S, mine a s = false) →
      ∃ buf', listAt w3 b = some buf' ∧ buf'.length = 257 ∧
      ∀ o l : Nat, o + l ≤ 257 → l ≤ 256 → (∀ n, ne = some n → l ≤ n) →
        ∃ w4, step env fuel w3 (.apdu a (.setOutgoingAndSend o l)) = some (.ok (.int 0), w4) ∧
          listAt w4 r = some (range buf' o l ++ bytes.drop l) := by
  obtain ⟨bytes', y, hl', hy, hi, hrb⟩ := newAPDU_is h0
  rw [hl] at hl'; injection hl' with hl'; subst hl'
  obtain ⟨y0, hy0, _, _, hyne, _, hy5, _⟩ := C21_short hc
  rw [hy] at hy0; injection hy0 with hy0; subst hy0
  obtain ⟨y', base, hy', hr, hst, hbr, hcd, hb7, hpos⟩ := accepted_recv (.short hc hd)
  rw [hy] at hy'; injection hy' with hy'; subst hy'
  have hb5 : base = 5 := by omega
  subst hb5
  have hsame := avoids_same hG hav
  have hi1 : IsAPDU w1 a r b y := by
    refine ⟨?_, ?_, ?_⟩
    · rw [hsame a (by simp)]; exact hi.obj
    · rw [listAt, hsame r (by simp)]; exact hi.raw
    · rw [listAt, hsame b (by simp)]; exact hi.buffer
  obtain ⟨y1, e, hr1, hst1, hbk⟩ := hr.recv 5 (by omega)
  have hm : min 128 (data.length - 0) = data.length := by omega
  rw [hm] at e hr1 hst1 hbk
  have hsi : APDU.step y .setIncomingAndReceive = (.ok (data.length : Nat), y1) := by
    simp only [APDU.step]
    rw [APDU.setIncoming_recv, if_neg (show ¬ (y.state ≠ APDU.STATE_INITIAL) by simp [hst, APDU.STATE_INITIAL]), if_neg (by simp [hbr])]
    have : y.offsetincoming = (5 : Nat) := hr.off
    rw [this, e]
  obtain ⟨w2, f1, f2⟩ := apdu_own (env := env) (fuel := fuel) hi1 hrb (s := .apdu a .setIncomingAndReceive) (op := .setIncomingAndReceive) (by simp [apduCall])
  rw [hsi] at f1 f2
  refine ⟨w2, y1.buffer, f1, by rw [f2.raw, hr1.raw], f2.buffer, hr1.buf, ?_, ?_⟩
  · rw [hbk]; simp; omega
  intro S outs' w3 hS hlv hmine
  obtain ⟨g1, _⟩ := C117_apdu hrb hS f2 hlv
  obtain ⟨l1, l2⟩ := loop_history (b := b) hS (fun s hs => mine_loop (hmine s hs))
  obtain ⟨k1, k2⟩ := recv_history _ l1 1 y1 (by rw [show min (128 * 1) data.length = 0 + data.length by omega]; exact hr1) (by rw [hst1]; simp; omega)
  have hw : APDU.WF y := APDU.init_wf hb hy
  have hz : y1 = (y.step .setIncomingAndReceive).2 := by rw [hsi]
  have hw1 : APDU.WF y1 := by rw [hz]; exact APDU.step_wf y hw _
  have hne : (y1.run (apduHistory a b env fuel w2 S)).Ne = ne.map (fun n : Nat => (n : Int)) := by
    rw [run_keeps_ne _ hw1, hz, step_keeps_ne _ hw, hyne]
  have hst3 : (y1.run (apduHistory a b env fuel w2 S)).state < 3 := by rw [k2]; split <;> omega
  have hbl := k1.buf
  have hraw := k1.raw
  refine ⟨_, g1.buffer, hbl, ?_⟩
  intro o l hol hl hnel
  obtain ⟨w4, p1, p2⟩ := apdu_own (env := env) (fuel := fuel) g1 hrb (s := .apdu a (.setOutgoingAndSend o l)) (op := .setOutgoingAndSend o l) (by simp [apduCall])
  generalize APDU.run y1 _ = z at *
  have hs : ∃ z', APDU.step z (.setOutgoingAndSend o l) = (.ok 0, z') ∧ z'.raw = range z.buffer o l ++ bytes.drop l := by
    have hbl' : (range z.buffer o l).length = l := by simp [range, hbl]; omega
    rcases APDU.setOutgoingAndSend_cases z o l with ⟨h', _⟩ | ⟨_, ⟨⟨n, h1, h2⟩, _⟩ | ⟨_, ⟨h', _⟩ | ⟨_, e⟩⟩⟩
    · omega
    · rw [hne] at h1
      cases ne with
      | none => cases h1
      | some m =>
        change some (m : Int) = some n at h1
        injection h1 with h1
        have := hnel m rfl
        omega
    · omega
    · refine ⟨_, by simp only [APDU.step, e]; rfl, ?_⟩
      simp only [APDU.sentState]
      have e0 := setSlice_add z.raw 0 l (range z.buffer o l) (by omega)
      simp only [Int.natCast_zero, Int.zero_add, List.take_zero, List.nil_append, Nat.zero_add] at e0
      rw [slice_add]
      have : List.take l (List.drop o z.buffer) = range z.buffer o l := rfl
      rw [this, ← hraw]
      simpa using e0
  obtain ⟨z', q1, q2⟩ := hs
  rw [q1] at p1 p2
  refine ⟨w4, p1, ?_⟩
  rw [p2.raw, q2]

/-- **C127** (the answer). For every short command, with or without data: after any program that, apart from calls on the APDU, leaves the command's list alone, as long as the
APDU still answers a state before `STATE_OUTGOING`, `setOutgoingAndSend` of a range of the buffer within the expected length puts exactly what the range then holds at the front of the
command's list, changes nothing behind it, and ends in `STATE_FULL_OUTGOING`. -/
theorem C127_answer {env : CryptoEnv} {fuel : Nat} {w0 w w1 : Card} {a r b : Nat} {hdr data bytes : List Int} {ne : Option Nat}
    (hc : ShortCmd hdr data ne bytes) (hb : AnyBytes bytes) (hl : listAt w0 r = some bytes) (h0 : step env fuel w0 (.newAPDU a b r) = some (.ok (.ref a), w))
    {P : List Step} {outs : List (Except Err Card.Out)} (hP : run env fuel w P = some (outs, w1)) (hlv : LeavesAPDU env fuel w P a r b)
    {st : Int} (hst : step env fuel w1 (.askAPDU a .currentState) = some (.ok (.int st), w1)) (h3 : st < 3) :
    ∃ buf raw, listAt w1 b = some buf ∧ buf.length = 257 ∧ listAt w1 r = some raw ∧
      ∀ o l : Nat, o + l ≤ 257 → l ≤ 256 → (∀ n, ne = some n → l ≤ n) →
        ∃ w2, step env fuel w1 (.apdu a (.setOutgoingAndSend o l)) = some (.ok (.int 0), w2) ∧
          listAt w2 r = some (range buf o l ++ raw.drop l) ∧ step env fuel w2 (.askAPDU a .currentState) = some (.ok (.int 6), w2) := by
  obtain ⟨bytes', y, hl', hy, hi, hrb⟩ := newAPDU_is h0
  rw [hl] at hl'; injection hl' with hl'; subst hl'
  obtain ⟨y0, hy0, _, _, hyne, _⟩ := C21_short hc
  rw [hy] at hy0; injection hy0 with hy0; subst hy0
  obtain ⟨g1, _, g3, _⟩ := C117_apdu hrb hP hi hlv
  have hw : APDU.WF y := APDU.init_wf hb hy
  have hwz := APDU.run_wf y hw (apduHistory a b env fuel w P)
  have hne := run_keeps_ne y hw (apduHistory a b env fuel w P)
  rw [hyne] at hne
  generalize APDU.run y _ = z at *
  have hz : z.state < 3 := by
    rw [g3] at hst
    simp only [Option.some.injEq, Prod.mk.injEq, Except.ok.injEq, Out.int.injEq, and_true] at hst
    unfold APDU.getCurrentState at hst
    omega
  have hbl := hwz.buf
  refine ⟨z.buffer, z.raw, g1.buffer, hbl, g1.raw, ?_⟩
  intro o l hol hl hnel
  obtain ⟨w2, p1, p2⟩ := apdu_own (env := env) (fuel := fuel) g1 hrb (s := .apdu a (.setOutgoingAndSend o l)) (op := .setOutgoingAndSend o l) (by simp [apduCall])
  have hs : ∃ z', APDU.step z (.setOutgoingAndSend o l) = (.ok 0, z') ∧ z'.raw = range z.buffer o l ++ z.raw.drop l ∧ z'.getCurrentState = 6 := by
    have hbl' : (range z.buffer o l).length = l := by simp [range, hbl]; omega
    rcases APDU.setOutgoingAndSend_cases z o l with ⟨h', _⟩ | ⟨_, ⟨⟨n, h1, h2⟩, _⟩ | ⟨_, ⟨h', _⟩ | ⟨_, e⟩⟩⟩
    · omega
    · rw [hne] at h1
      cases ne with
      | none => cases h1
      | some m =>
        change some (m : Int) = some n at h1
        injection h1 with h1
        have := hnel m rfl
        omega
    · omega
    · refine ⟨_, by simp only [APDU.step, e]; rfl, ?_, by simp [APDU.getCurrentState, APDU.sentState]⟩
      simp only [APDU.sentState]
      have e0 := setSlice_add z.raw 0 l (range z.buffer o l) (by omega)
      simp only [Int.natCast_zero, Int.zero_add, List.take_zero, List.nil_append, Nat.zero_add] at e0
      rw [slice_add]
      have : List.take l (List.drop o z.buffer) = range z.buffer o l := rfl
      rw [this]
      simpa using e0
  obtain ⟨z', q1, q2, q3⟩ := hs
  rw [q1] at p1 p2
  refine ⟨w2, p1, by rw [p2.raw, q2], ?_⟩
  have := (C117_apdu (env := env) (fuel := fuel) hrb (prog := []) (w := w2) rfl p2 (fun c hc => by simp [calls] at hc)).2.2.1
  rw [this]
  show some (Except.ok (Card.Out.int z'.getCurrentState), w2) = _
  rw [q3]

theorem calls_join {env : CryptoEnv} {fuel : Nat} {s : Step} {P' : List Step} : ∀ {P : List Step} {w w2 w3 : Card} {outs : List (Except Err Card.Out)} {o : Except Err Card.Out},
    run env fuel w P = some (outs, w2) → step env fuel w2 s = some (o, w3) → calls env fuel w (P ++ s :: P') = calls env fuel w P ++ (w2, s) :: calls env fuel w3 P' := by
  intro P
  induction P with
  | nil =>
    intro w w2 w3 outs o hr hs
    simp only [run, Option.some.injEq, Prod.mk.injEq] at hr
    obtain ⟨_, rfl⟩ := hr
    simp [calls, hs]
  | cons t ts ih =>
    intro w w2 w3 outs o hr hs
    simp only [run] at hr
    cases he : step env fuel w t with
    | none => simp [he] at hr
    | some q =>
      obtain ⟨o', w1⟩ := q
      simp only [he] at hr
      cases hrr : run env fuel w1 ts with
      | none => simp [hrr] at hr
      | some q =>
        obtain ⟨outs1, w2'⟩ := q
        simp only [hrr, Option.map_some, Option.some.injEq, Prod.mk.injEq] at hr
        obtain ⟨_, rfl⟩ := hr
        simp [calls, he, ih hrr hs]

theorem avoids_leaves {a r b : Nat} {w : Card} {s : Step} (h : ∀ x ∈ [a, r, b], x ∉ writes w s) : mine a s = false ∧ r ∉ writes w s ∧ ¬ Resizes w b s := by
  have ha := h a (by simp)
  have hb := h b (by simp)
  refine ⟨?_, h r (by simp), ?_⟩
  · cases s <;> simp only [mine, decide_eq_false_iff_not] <;> rintro rfl <;> simp [writes] at ha
  · intro hr
    cases s <;> simp only [Resizes] at hr
    case aidGetBytes i d off => obtain ⟨rfl, _⟩ := hr; simp [writes] at hb
    all_goals
      obtain ⟨_, _, hr⟩ := hr
      simp [writes, hr, Obj.refs] at hb

theorem all_called {env : CryptoEnv} {fuel : Nat} : ∀ {P : List Step} {w w2 : Card} {outs : List (Except Err Card.Out)},
    run env fuel w P = some (outs, w2) → ∀ s ∈ P, ∃ v, (v, s) ∈ calls env fuel w P := by
  intro P
  induction P with
  | nil => intro w w2 outs _ s hs; cases hs
  | cons t ts ih =>
    intro w w2 outs hr s hs
    simp only [run] at hr
    cases he : step env fuel w t with
    | none => simp [he] at hr
    | some q =>
      obtain ⟨o', w1⟩ := q
      simp only [he] at hr
      cases hrr : run env fuel w1 ts with
      | none => simp [hrr] at hr
      | some q =>
        obtain ⟨outs1, w2'⟩ := q
        rcases List.mem_cons.1 hs with rfl | hs
        · exact ⟨w, by simp [calls]⟩
        · obtain ⟨v, hv⟩ := ih hrr s hs
          exact ⟨v, by simp [calls, he, hv]⟩

/-- What is common to the services: the program on the card consists of one call that leaves the APDU and the command's list alone, and of calls that store into
none of the three objects. -/
theorem service_core {env : CryptoEnv} {fuel : Nat} {w2 w3 w4 : Card} {a r b : Nat} {G : List Step} {outs : List (Except Err Card.Out)}
    (hG : run env fuel w2 G = some (outs, w3)) (hav : Avoids env fuel w2 G [a, r, b])
    {t : Step} {o : Except Err Card.Out} (hs : step env fuel w3 t = some (o, w4)) (ht : mine a t = false ∧ r ∉ writes w3 t ∧ ¬ Resizes w3 b t)
    {G' : List Step} {outs' : List (Except Err Card.Out)} {w5 : Card} (hG' : run env fuel w4 G' = some (outs', w5)) (hav' : Avoids env fuel w4 G' [a, r, b]) :
    (∃ outs'', run env fuel w2 (G ++ t :: G') = some (outs'', w5)) ∧
    LeavesAPDU env fuel w2 (G ++ t :: G') a r b ∧ (∀ s ∈ G ++ t :: G', mine a s = false) := by
  refine ⟨run_join hG hs hG', ?_, ?_⟩
  · intro p hp hm
    rw [calls_join hG hs] at hp
    rcases List.mem_append.1 hp with hp | hp
    · exact (avoids_leaves (hav p hp)).2
    · rcases List.mem_cons.1 hp with rfl | hp
      · exact ht.2
      · exact (avoids_leaves (hav' p hp)).2
  · intro s hs
    rcases List.mem_append.1 hs with hp | hp
    · obtain ⟨v, hv⟩ := all_called hG s hp
      exact (avoids_leaves (hav _ hv)).1
    · rcases List.mem_cons.1 hp with rfl | hp
      · exact ht.1
      · obtain ⟨v, hv⟩ := all_called hG' s hp
        exact (avoids_leaves (hav' _ hv)).1

theorem desFinal_leaves {env : CryptoEnv} {fuel : Nat} {w2 w3 w4 : Card} {a r b c : Nat} {G : List Step} {outs : List (Except Err Card.Out)} {buf : List Int}
    (hl : listAt w2 r = some buf) (hrb : r ≠ b) (hG : run env fuel w2 G = some (outs, w3)) (hav : Avoids env fuel w2 G [a, r, b])
    {io il oo n : Int} (hs : step env fuel w3 (.desFinal c b io il b oo) = some (.ok (.int n), w4)) :
    mine a (.desFinal c b io il b oo) = false ∧ r ∉ writes w3 (.desFinal c b io il b oo) ∧ ¬ Resizes w3 b (.desFinal c b io il b oo) := by
  have h3 : listAt w3 r = some buf := by rw [listAt, avoids_same hG hav r (by simp)]; exact hl
  have hrc : r ≠ c := by
    rintro rfl
    have hw := listAt_some h3
    simp only [step, sem, onArray_eq, hw, wrong] at hs
    cases hb : listAt w3 b <;> simp [hb] at hs
  exact ⟨rfl, by simp [writes, hrc, hrb], by simp [Resizes]⟩

/-- The range of a list that was stored into it. -/
theorem stored_range {l l' : List Int} {o : Nat} {ns : List Nat} (h : Stored l l' o ns.length (fun j => signedCell (ns.getD j 0))) (hl : o + ns.length ≤ l.length) :
    range l' o ns.length = ns.map signedCell := by
  have h1 := h.1
  have hc := CW.stored_cells _ _ _ _ _ h (by omega)
  apply List.ext_getElem (by simp [range]; omega)
  intro i g1 g2
  have hi : i < ns.length := by simpa using g2
  have := congrArg (fun l => l[i]?) hc
  simp only [cellsFrom, List.getElem?_map, List.getElem?_range hi, Option.map_some, Option.some.injEq] at this
  rw [← cellAt_names l' ((o : Int) + i) (o + i) ⟨by omega, by left; omega⟩] at this
  simp only [range, List.getElem_take, List.getElem_drop, List.getElem_map, this]
  simp [List.getD, hi]

theorem cells_range {l data : List Int} {o : Nat} (h : range l o data.length = data) (hl : o + data.length ≤ l.length) : cellsFrom l o data.length = data := by
  apply List.ext_getElem (by simp [cellsFrom])
  intro i g1 g2
  have := congrArg (fun l => l[i]?) h
  simp only [range, List.getElem?_take, g2, if_true, List.getElem?_drop] at this
  rw [List.getElem?_eq_getElem (by omega), List.getElem?_eq_getElem g2] at this
  injection this with this
  simp only [cellsFrom, List.getElem_map, List.getElem_range]
  rw [← cellAt_names l ((o : Int) + i) (o + i) ⟨by omega, by left; omega⟩, this]

/-- A ciphertext is at least as long as the message. -/
theorem encrypts_le {alg : Int} (halg : alg = 1 ∨ alg = 4 ∨ alg = 5 ∨ alg = 8) {key iv m c : List Nat} (hiv : DES.IsBlock iv) (h : Encrypts alg key iv m c) :
    m.length ≤ c.length := by
  obtain ⟨bs, hb, h1, rfl⟩ := (encrypts_iff alg halg _ _ _ _).1 h
  obtain ⟨c1, c2⟩ := chained_blocks alg key iv hiv bs hb
  have len : ∀ l : List (List Nat), (∀ b ∈ l, DES.IsBlock b) → l.flatten.length = 8 * l.length := by
    intro l
    induction l with
    | nil => intro _; rfl
    | cons b l ih =>
      intro h
      have := (h b (by simp)).1
      have := ih (fun b hb => h b (by simp [hb]))
      simp only [List.flatten_cons, List.length_append, List.length_cons]
      omega
  rw [len _ c1, c2, ← len bs hb]
  split at h1
  · rw [h1]
  · obtain ⟨k, _, _, h1⟩ := h1
    rw [h1]; simp

/-- **C127** (a DES encryption service). A cipher was initialised for encryption, by a call that returned; any program ran that does not initialise it again. Then a
short command with 1 to 128 bytes of data arrives, the applet receives it, encrypts it where it lies in the APDU buffer and sends the result; in between, any programs run
that do not initialise the cipher and store into none of the APDU, its buffer and the command's list. The terminal reads the encryption of the command data, under the key and the
initial vector as they were at `init`. -/
theorem C127_encrypt {env : CryptoEnv} {fuel : Nat} {wA wB wC w0 w w1 : Card} {c : Nat} {alg : Int} (halg : alg = 1 ∨ alg = 4 ∨ alg = 5 ∨ alg = 8)
    (hx : wA c = .des (DESCipher.new alg)) {pre post : List Step} {outsA outsC : List (Except Err Card.Out)} (hA : run env fuel wA pre = some (outsA, wB))
    {k : Option Nat} {q : Nat} {off len : Int} (hB : step env fuel wB (.desInit c k 2 q off len) = some (.ok .nothing, wC))
    (hC : run env fuel wC post = some (outsC, w0)) (hpost : ∀ s ∈ post, ¬ Inits c s)
    {a r b : Nat} {hdr data bytes : List Int} {ne : Option Nat} (hc : ShortCmd hdr data ne bytes) (hb : AnyBytes bytes) (hd : data ≠ []) (hn : data.length ≤ 128)
    (hl : listAt w0 r = some bytes) (h0 : step env fuel w0 (.newAPDU a b r) = some (.ok (.ref a), w))
    {G : List Step} {outs : List (Except Err Card.Out)} (hG : run env fuel w G = some (outs, w1)) (hav : Avoids env fuel w G [a, r, b]) (hGi : ∀ s ∈ G, ¬ Inits c s)
    (hm : alg = 1 ∨ alg = 5 → data.length % 8 = 0) :
    ∃ ka key kb iv w2, k = some ka ∧ wB ka = .key (.des key) ∧ key.key = some kb ∧ listAt wB q = some iv ∧
      step env fuel w1 (.apdu a .setIncomingAndReceive) = some (.ok (.int data.length), w2) ∧
      ∀ G2 outs2 w3, run env fuel w2 G2 = some (outs2, w3) → Avoids env fuel w2 G2 [a, r, b] → (∀ s ∈ G2, ¬ Inits c s) →
        ∃ ct w4, Encrypts alg kb ((cellsFrom iv off 8).map valueOf) (data.map valueOf) ct ∧
        ct.length = (if alg = 1 ∨ alg = 5 then data.length else (data.length / 8 + 1) * 8) ∧
        step env fuel w3 (.desFinal c b 5 data.length b 5) = some (.ok (.int ct.length), w4) ∧
        ∀ G3 outs3 w5, run env fuel w4 G3 = some (outs3, w5) → Avoids env fuel w4 G3 [a, r, b] → (∀ n, ne = some n → ct.length ≤ n) →
          ∃ w6, step env fuel w5 (.apdu a (.setOutgoingAndSend 5 ct.length)) = some (.ok (.int 0), w6) ∧
            listAt w6 r = some (ct.map signedCell ++ bytes.drop ct.length) := by
  obtain ⟨_, _, _, _, _, hrb⟩ := newAPDU_is h0
  obtain ⟨w2, buf, e1, e0, e2, e3, e4, main⟩ := C127_exchange hc hb hd hn hl h0 hG hav
  obtain ⟨_, hD⟩ := run_join hC h0 hG
  have hDi : ∀ s ∈ post ++ .newAPDU a b r :: G, ¬ Inits c s := by
    intro s hs
    rcases List.mem_append.1 hs with hs | hs
    · exact hpost s hs
    · rcases List.mem_cons.1 hs with rfl | hs
      · simp [Inits]
      · exact hGi s hs
  obtain ⟨ka, key, kb, iv, _, g1, g2, g3, g4, _⟩ := des_session hx hA hB hD hDi
  refine ⟨ka, key, kb, iv, w2, g1, g2, g3, g4, e1, ?_⟩
  intro G2 outs2 w3 hG2 hav2 hG2i
  obtain ⟨_, hE⟩ := run_join hD e1 hG2
  have hEi : ∀ s ∈ (post ++ .newAPDU a b r :: G) ++ .apdu a .setIncomingAndReceive :: G2, ¬ Inits c s := by
    intro s hs
    rcases List.mem_append.1 hs with hs | hs
    · exact hDi s hs
    · rcases List.mem_cons.1 hs with rfl | hs
      · simp [Inits]
      · exact hG2i s hs
  obtain ⟨ka', key', kb', iv', h, q1, q2, q3, q4, q5, q6, q7, q8, q9, q10⟩ := des_session hx hA hB hE hEi
  rw [g1] at q1; injection q1 with q1; subst q1
  rw [g2] at q2; injection q2 with q2; injection q2 with q2; subst q2
  rw [g3] at q3; injection q3 with q3; subst q3
  rw [g4] at q4; injection q4 with q4; subst q4
  have hb3 : listAt w3 b = some buf := by rw [listAt, avoids_same hG2 hav2 b (by simp)]; exact e2
  have hcells : cellsFrom buf 5 data.length = data := cells_range (o := 5) e4 (by omega)
  obtain ⟨ct, c1, c2, c3⟩ := C99_encrypt alg halg h kb _ q9 q10 buf 5 data.length (.inr (by unfold Reachable; omega)) (by simpa using hm)
  simp only [Int.toNat_natCast, hcells] at c1 c2
  have hct : ct.length ≤ 136 := by rw [c2]; split <;> omega
  obtain ⟨out, c', d1, d2⟩ := (c3 buf 5).1 (.inr (by unfold Reachable; omega))
  obtain ⟨w4, d3, d4⟩ := (C116_des (env := env) (fuel := fuel) (prog := []) (outs := []) (w := w3) (w' := w3) rfl q8).2.2.2 b 5 data.length b 5 buf buf hb3 hb3
  simp only [historyOf, calls, List.filterMap_nil, List.foldl_nil, d1] at d3 d4
  refine ⟨ct, w4, c1, c2, d3, ?_⟩
  intro G3 outs3 w5 hG3 hav3 hle
  obtain ⟨⟨outs5, p1⟩, p2, p3⟩ := service_core hG2 hav2 d3 (desFinal_leaves e0 hrb hG2 hav2 d3) hG3 hav3
  obtain ⟨buf', t1, t2, t3⟩ := main _ _ _ p1 p2 p3
  obtain ⟨w6, u1, u2⟩ := t3 5 ct.length (by omega) (by omega) hle
  have hbo : buf' = out := by
    rw [listAt, avoids_same hG3 hav3 b (by simp)] at t1
    have := t1.symm.trans d4
    injection this
  refine ⟨w6, u1, ?_⟩
  rw [u2, hbo, stored_range (o := 5) d2 (by omega)]

/-- **C127** (a DES decryption service). The same with a cipher initialised for decryption: when the command data is the encryption of some bytes under the key and the initial vector as they
were at `init`, the terminal reads these bytes. -/
theorem C127_decrypt {env : CryptoEnv} {fuel : Nat} {wA wB wC w0 w w1 : Card} {c : Nat} {alg : Int} (halg : alg = 1 ∨ alg = 4 ∨ alg = 5 ∨ alg = 8)
    (hx : wA c = .des (DESCipher.new alg)) {pre post : List Step} {outsA outsC : List (Except Err Card.Out)} (hA : run env fuel wA pre = some (outsA, wB))
    {k : Option Nat} {q : Nat} {off len : Int} (hB : step env fuel wB (.desInit c k 1 q off len) = some (.ok .nothing, wC))
    (hC : run env fuel wC post = some (outsC, w0)) (hpost : ∀ s ∈ post, ¬ Inits c s)
    {a r b : Nat} {hdr data bytes : List Int} {ne : Option Nat} (hc : ShortCmd hdr data ne bytes) (hb : AnyBytes bytes) (hd : data ≠ []) (hn : data.length ≤ 128)
    (hl : listAt w0 r = some bytes) (h0 : step env fuel w0 (.newAPDU a b r) = some (.ok (.ref a), w))
    {G : List Step} {outs : List (Except Err Card.Out)} (hG : run env fuel w G = some (outs, w1)) (hav : Avoids env fuel w G [a, r, b]) (hGi : ∀ s ∈ G, ¬ Inits c s) :
    ∃ ka key kb iv w2, k = some ka ∧ wB ka = .key (.des key) ∧ key.key = some kb ∧ listAt wB q = some iv ∧
      step env fuel w1 (.apdu a .setIncomingAndReceive) = some (.ok (.int data.length), w2) ∧
      ∀ m : List Nat, (∀ x ∈ m, x < 256) → Encrypts alg kb ((cellsFrom iv off 8).map valueOf) m (data.map valueOf) →
      ∀ G2 outs2 w3, run env fuel w2 G2 = some (outs2, w3) → Avoids env fuel w2 G2 [a, r, b] → (∀ s ∈ G2, ¬ Inits c s) →
        ∃ w4, step env fuel w3 (.desFinal c b 5 data.length b 5) = some (.ok (.int m.length), w4) ∧
        ∀ G3 outs3 w5, run env fuel w4 G3 = some (outs3, w5) → Avoids env fuel w4 G3 [a, r, b] → (∀ n, ne = some n → m.length ≤ n) →
          ∃ w6, step env fuel w5 (.apdu a (.setOutgoingAndSend 5 m.length)) = some (.ok (.int 0), w6) ∧
            listAt w6 r = some (m.map signedCell ++ bytes.drop m.length) := by
  obtain ⟨_, _, _, _, _, hrb⟩ := newAPDU_is h0
  obtain ⟨w2, buf, e1, e0, e2, e3, e4, main⟩ := C127_exchange hc hb hd hn hl h0 hG hav
  obtain ⟨_, hD⟩ := run_join hC h0 hG
  have hDi : ∀ s ∈ post ++ .newAPDU a b r :: G, ¬ Inits c s := by
    intro s hs
    rcases List.mem_append.1 hs with hs | hs
    · exact hpost s hs
    · rcases List.mem_cons.1 hs with rfl | hs
      · simp [Inits]
      · exact hGi s hs
  obtain ⟨ka, key, kb, iv, g1, g2, g3, g4, _⟩ := C116_decrypts halg hx hA hB hD hDi
  refine ⟨ka, key, kb, iv, w2, g1, g2, g3, g4, e1, ?_⟩
  intro m hmb hm G2 outs2 w3 hG2 hav2 hG2i
  obtain ⟨_, hE⟩ := run_join hD e1 hG2
  have hEi : ∀ s ∈ (post ++ .newAPDU a b r :: G) ++ .apdu a .setIncomingAndReceive :: G2, ¬ Inits c s := by
    intro s hs
    rcases List.mem_append.1 hs with hs | hs
    · exact hDi s hs
    · rcases List.mem_cons.1 hs with rfl | hs
      · simp [Inits]
      · exact hG2i s hs
  obtain ⟨ka', key', kb', iv', q1, q2, q3, q4, dec⟩ := C116_decrypts halg hx hA hB hE hEi
  rw [g1] at q1; injection q1 with q1; subst q1
  rw [g2] at q2; injection q2 with q2; injection q2 with q2; subst q2
  rw [g3] at q3; injection q3 with q3; subst q3
  rw [g4] at q4; injection q4 with q4; subst q4
  have hb3 : listAt w3 b = some buf := by rw [listAt, avoids_same hG2 hav2 b (by simp)]; exact e2
  have hcells : cellsFrom buf 5 data.length = data := cells_range (o := 5) e4 (by omega)
  have hml : m.length ≤ data.length := by
    have := encrypts_le halg (by refine ⟨by simp [cellsFrom], values_lt _⟩) hm
    simpa using this
  obtain ⟨out, w4, d3, d4, d2⟩ := dec b b buf buf 5 data.length 5 hb3 hb3 (by unfold Reachable; omega) m hmb (by rw [hcells]; exact hm) (by unfold Reachable; omega)
  refine ⟨w4, d3, ?_⟩
  intro G3 outs3 w5 hG3 hav3 hle
  obtain ⟨⟨outs5, p1⟩, p2, p3⟩ := service_core hG2 hav2 d3 (desFinal_leaves e0 hrb hG2 hav2 d3) hG3 hav3
  obtain ⟨buf', t1, t2, t3⟩ := main _ _ _ p1 p2 p3
  obtain ⟨w6, u1, u2⟩ := t3 5 m.length (by omega) (by omega) hle
  have hbo : buf' = out := by
    rw [listAt, avoids_same hG3 hav3 b (by simp)] at t1
    have := t1.symm.trans d4
    injection this
  refine ⟨w6, u1, ?_⟩
  rw [u2, hbo, stored_range (o := 5) d2 (by omega)]

/-- The calls that give bytes to the digest at an address, or take them. -/
def Feeds (d : Nat) : Step → Prop
  | .digestUpdate j .. => j = d
  | .digestFinal j .. => j = d
  | _ => False

/-- **C127** (a digest service). A message digest was made; any program ran that gives it no bytes. Then a short command with 1 to 128 bytes of data arrives, the
applet receives it, digests the data into the APDU buffer and sends the result; in between, any programs run that give the digest no bytes and store into none of the
APDU, its buffer and the command's list. The terminal reads the hash of the command data. -/
theorem C127_digest {env : CryptoEnv} {fuel : Nat} {wA wB w0 w w1 : Card} {d : Nat} {alg : Int} {L : Nat} (hH : ∀ m, (env.hash alg m).length = L ∧ ∀ x ∈ env.hash alg m, x < 256)
    (hL : L ≤ 252) (hA : step env fuel wA (.getDigest d alg) = some (.ok (.ref d), wB))
    {post : List Step} {outsC : List (Except Err Card.Out)} (hC : run env fuel wB post = some (outsC, w0)) (hpost : ∀ s ∈ post, ¬ Feeds d s)
    {a r b : Nat} {hdr data bytes : List Int} {ne : Option Nat} (hc : ShortCmd hdr data ne bytes) (hb : AnyBytes bytes) (hd : data ≠ []) (hn : data.length ≤ 128)
    (hl : listAt w0 r = some bytes) (h0 : step env fuel w0 (.newAPDU a b r) = some (.ok (.ref a), w))
    {G : List Step} {outs : List (Except Err Card.Out)} (hG : run env fuel w G = some (outs, w1)) (hav : Avoids env fuel w G [a, r, b]) (hGi : ∀ s ∈ G, ¬ Feeds d s) :
    ∃ w2, step env fuel w1 (.apdu a .setIncomingAndReceive) = some (.ok (.int data.length), w2) ∧
      ∀ G2 outs2 w3, run env fuel w2 G2 = some (outs2, w3) → Avoids env fuel w2 G2 [a, r, b] → (∀ s ∈ G2, ¬ Feeds d s) →
        ∃ w4, step env fuel w3 (.digestFinal d b 5 data.length b 5) = some (.ok (.int L), w4) ∧
        ∀ G3 outs3 w5, run env fuel w4 G3 = some (outs3, w5) → Avoids env fuel w4 G3 [a, r, b] → (∀ n, ne = some n → L ≤ n) →
          ∃ w6, step env fuel w5 (.apdu a (.setOutgoingAndSend 5 L)) = some (.ok (.int 0), w6) ∧
            listAt w6 r = some ((env.hash alg (data.map valueOf)).map signedCell ++ bytes.drop L) := by
  obtain ⟨x, hx, hxB⟩ : ∃ x, MessageDigest.getInstance alg = .ok x ∧ wB d = .digest x := by
    obtain ⟨e, he, h, rfl⟩ := step_sem hA
    simp only [sem, Option.some.injEq] at he
    subst he
    cases hm : MessageDigest.getInstance alg with
    | error e => simp [hm, makeOr, Except.map] at h
    | ok x =>
      refine ⟨x, rfl, ?_⟩
      simp only [hm, makeOr, Except.map, make] at h ⊢
      split at h
      · next hf => simp only [hf]; exact put_one _ _ _
      · simp [wrong] at h
  obtain ⟨_, _, _, _, _, hrb⟩ := newAPDU_is h0
  obtain ⟨w2, buf, e1, e0, e2, e3, e4, main⟩ := C127_exchange hc hb hd hn hl h0 hG hav
  obtain ⟨_, hD⟩ := run_join hC h0 hG
  refine ⟨w2, e1, ?_⟩
  intro G2 outs2 w3 hG2 hav2 hG2i
  obtain ⟨_, hE⟩ := run_join hD e1 hG2
  have hEi : ∀ s ∈ (post ++ .newAPDU a b r :: G) ++ .apdu a .setIncomingAndReceive :: G2, ¬ Feeds d s := by
    intro s hs
    simp only [List.mem_append, List.mem_cons] at hs
    rcases hs with (hs | rfl | hs) | rfl | hs
    · exact hpost s hs
    · simp [Feeds]
    · exact hGi s hs
    · simp [Feeds]
    · exact hG2i s hs
  obtain ⟨q0, _, q2⟩ := C116_digest hE hxB
  have hres : ∀ op ∈ historyOf (digestCall d) env fuel wB ((post ++ .newAPDU a b r :: G) ++ .apdu a .setIncomingAndReceive :: G2), op = DigestCall.op .reset := by
    intro op hop
    obtain ⟨v, s, hs, hcall⟩ := mem_history hop
    have := hEi s hs
    cases s <;> simp only [digestCall, reduceCtorEq] at hcall
    case digestUpdate j r' o' l' =>
      split at hcall
      · next hj => exact absurd hj this
      · cases hcall
    case digestFinal j r' o' l' r'' o'' =>
      split at hcall
      · next hj => exact absurd hj this
      · cases hcall
    case digestReset j =>
      split at hcall
      · injection hcall with h; exact h.symm
      · cases hcall
  obtain ⟨n, hhist⟩ : ∃ n, historyOf (digestCall d) env fuel wB ((post ++ .newAPDU a b r :: G) ++ .apdu a .setIncomingAndReceive :: G2) =
      (List.replicate n DigestCall.reset).map DigestCall.op := by
    rw [List.eq_replicate_of_mem hres]
    exact ⟨_, (List.map_replicate ..).symm⟩
  rw [hhist] at q0 q2
  have hpend : ∀ n, pending (List.replicate n .reset) [] = [] := by
    intro n
    induction n with
    | zero => rfl
    | succ n ih => exact ih
  have hb3 : listAt w3 b = some buf := by rw [listAt, avoids_same hG2 hav2 b (by simp)]; exact e2
  obtain ⟨out, x', d1, d2⟩ := C65_history env.hash alg L hH x hx (List.replicate n .reset) buf 5 data.length (.inr (by omega)) buf 5 (by omega)
  rw [hpend, List.nil_append, e4] at d2
  obtain ⟨w4, d3, d4⟩ := q2 b (5 : Nat) data.length b (5 : Nat) buf buf hb3 hb3
  rw [d1] at d3 d4
  have hr3 : listAt w3 r = some bytes := by rw [listAt, avoids_same hG2 hav2 r (by simp)]; exact e0
  have hrd : r ≠ d := by rintro rfl; rw [listAt_some hr3] at q0; cases q0
  refine ⟨w4, d3, ?_⟩
  intro G3 outs3 w5 hG3 hav3 hle
  obtain ⟨⟨outs5, p1⟩, p2, p3⟩ := service_core hG2 hav2 d3 ⟨rfl, by simp [writes, hrd, hrb], by simp [Resizes]⟩ hG3 hav3
  obtain ⟨buf', t1, t2, t3⟩ := main _ _ _ p1 p2 p3
  obtain ⟨w6, u1, u2⟩ := t3 5 L (by omega) (by omega) hle
  have hbo : buf' = out := by
    rw [listAt, avoids_same hG3 hav3 b (by simp)] at t1
    have := t1.symm.trans d4
    injection this
  refine ⟨w6, u1, ?_⟩
  rw [u2, hbo]
  have hlen : ((env.hash alg (data.map valueOf)).map signedCell).length = L := by rw [List.length_map]; exact (hH _).1
  have := written_range _ _ _ _ d2
  rw [hlen] at this
  rw [this]

/-- **C127** (an RSA encryption service, PKCS1 padding). A key pair was generated; any program `P` ran. A short command with data of unsigned bytes arrives, the applet receives it, encrypts
it with a cipher last initialised with the public key, for encryption, where it lies in the APDU buffer, and sends the result; in between, any programs run that leave the two keys, the APDU,
its buffer and the command's list alone. The terminal reads a ciphertext; and after any further program, a cipher last initialised with the private key, for
decryption, gives the command data from every array that holds this ciphertext completed with zeros. (Python 2; a library whose operations invert each other for the
generated key.) -/
theorem C127_rsa {env : CryptoEnv} {fuel : Nat} (hls : env.longSuffix = true) {w w1 : Card} {p i j : Nat} {t : TheKey}
    (hg : step env fuel w (.genKeyPair p i j t) = some (.ok .nothing, w1))
    {size : Nat} (hsz : step env fuel w1 (.askKey i .getSize) = some (.ok (.int size), w1))
    {N : Nat} (hinv : Inverts env.ops N (.given t) (.given t)) (hN : N ≤ 256 ^ (size / 8)) (hs252 : size / 8 ≤ 252)
    {c d : Nat} {xc xd : RSACipher} (hxc : w1 c = .rsa xc) (hac : xc.base.algorithm = 10) (hxd : w1 d = .rsa xd) (had : xd.base.algorithm = 10)
    {P G G2 G3 : List Step} {o0 o1 o2 o3 : List (Except Err Card.Out)} {v0 v v1 v3 : Card}
    (hP : run env fuel w1 P = some (o0, v0))
    {a r b : Nat} {hdr data bytes : List Int} {ne : Option Nat} (hc : ShortCmd hdr data ne bytes) (hb : AnyBytes bytes) (hM : data ≠ [])
    (hl : listAt v0 r = some bytes) (h0 : step env fuel v0 (.newAPDU a b r) = some (.ok (.ref a), v))
    (hG : run env fuel v G = some (o1, v1)) (hav : Avoids env fuel v G [a, r, b])
    (hu : Unsigned data) (hlast : data.getLast hM ≠ 0) (hlen : data.length + 11 ≤ size / 8) (h128 : data.length ≤ 128)
    (htop : (data.getLast hM + 1) * 256 ^ (size / 8 - 1) ≤ (N : Int)) :
    ∃ v2, step env fuel v1 (.apdu a .setIncomingAndReceive) = some (.ok (.int data.length), v2) ∧
      (run env fuel v2 G2 = some (o2, v3) → Avoids env fuel v2 G2 [a, r, b] →
        (∀ s ∈ P ++ G ++ G2, ¬ SetsRSAKey i s ∧ ¬ SetsRSAKey j s) → lastInit c (P ++ G ++ G2) = some (some i, 2) →
        ∀ rnd : List Nat, (∀ b ∈ rnd, b < 256) → size / 8 ≤ data.length + 3 + rnd.countP (· ≠ 0) →
        ∃ ct v4, step env fuel v3 (.rsaFinal c rnd b 5 data.length b 5) = some (.ok (.int ct.length), v4) ∧ ct.length ≤ size / 8 ∧
          ∀ v5, run env fuel v4 G3 = some (o3, v5) → Avoids env fuel v4 G3 [a, r, b] → (∀ n, ne = some n → ct.length ≤ n) →
          ∃ v6, step env fuel v5 (.apdu a (.setOutgoingAndSend 5 ct.length)) = some (.ok (.int 0), v6) ∧
            listAt v6 r = some (ct ++ bytes.drop ct.length) ∧
            ∀ P' outs' v7, run env fuel v6 P' = some (outs', v7) → (∀ s ∈ G3 ++ P', ¬ SetsRSAKey j s) →
              lastInit d (P ++ G ++ G2 ++ G3 ++ P') = some (some j, 1) →
              ∀ r1 r2 in1 out1 (q1 q2 : Nat) rnd', listAt v7 r1 = some in1 → listAt v7 r2 = some out1 → q1 + size / 8 ≤ in1.length →
                range in1 q1 (size / 8) = ct ++ List.replicate (size / 8 - ct.length) 0 → q2 + data.length ≤ out1.length →
                ∃ v8 out2, step env fuel v7 (.rsaFinal d rnd' r1 q1 (size / 8 : Nat) r2 q2) = some (.ok (.int data.length), v8) ∧ listAt v8 r2 = some out2 ∧
                  Written out1 out2 q2 data) := by
  obtain ⟨_, _, _, _, _, hrb⟩ := newAPDU_is h0
  obtain ⟨v2, buf, e1, e0, e2, e3, e4, main⟩ := C127_exchange hc hb hM h128 hl h0 hG hav
  refine ⟨v2, e1, ?_⟩
  intro hG2 hav2 hk hla rnd hrnd hcount
  obtain ⟨_, hD⟩ := run_join hP h0 hG
  obtain ⟨_, hE⟩ := run_join hD e1 hG2
  have hb3 : listAt v3 b = some buf := by rw [listAt, avoids_same hG2 hav2 b (by simp)]; exact e2
  have hr3 : listAt v3 r = some bytes := by rw [listAt, avoids_same hG2 hav2 r (by simp)]; exact e0
  have hsets : ∀ s ∈ (P ++ .newAPDU a b r :: G) ++ .apdu a .setIncomingAndReceive :: G2, ¬ SetsRSAKey i s ∧ ¬ SetsRSAKey j s := by
    intro s hs
    simp only [List.mem_append, List.mem_cons] at hs
    rcases hs with (hs | rfl | hs) | rfl | hs
    · exact hk s (by simp [hs])
    · simp [SetsRSAKey]
    · exact hk s (by simp [hs])
    · simp [SetsRSAKey]
    · exact hk s (by simp [hs])
  have hinit : ∀ z, List.filterMap (initArgs z) ((P ++ .newAPDU a b r :: G) ++ .apdu a .setIncomingAndReceive :: G2) = List.filterMap (initArgs z) (P ++ G ++ G2) := by
    intro z; simp [List.filterMap_cons, initArgs]
  obtain ⟨ct, v4, out, s1, s2, s3, s4, dec⟩ := C125_pkcs1 hls hg hsz hinv hN hxc hac hxd had hE (fun s hs => (hsets s hs).1) (fun s hs => (hsets s hs).2)
    (by rw [lastInit, hinit]; exact hla) hb3 hb3 hrnd (io := 5) (n := data.length) (oo := 5) (by omega) e4 hM hu hlast hlen htop hcount (by omega)
  refine ⟨ct, v4, s1, s2, ?_⟩
  intro v5 hG3 hav3 hle
  have hrc : r ≠ c := by
    rintro rfl
    have hw := listAt_some hr3
    simp [step, sem, onArray_eq, hw, wrong, hb3] at s1
  obtain ⟨⟨_, p1⟩, p2, p3⟩ := service_core hG2 hav2 s1 ⟨rfl, by simp [writes, hrc, hrb], by simp [Resizes]⟩ hG3 hav3
  obtain ⟨buf', t1, t2, t3⟩ := main _ _ _ p1 p2 p3
  obtain ⟨v6, u1, u2⟩ := t3 5 ct.length (by omega) (by omega) hle
  have hbo : buf' = out := by
    rw [listAt, avoids_same hG3 hav3 b (by simp)] at t1
    have := t1.symm.trans s3
    injection this
  refine ⟨v6, u1, by rw [u2, hbo, written_range _ _ _ _ s4], ?_⟩
  intro P' outs' v7 hP' hj hld
  obtain ⟨_, hF⟩ := run_join hG3 u1 hP'
  refine dec _ _ v7 hF ?_ ?_
  · intro s hs
    simp only [List.mem_append, List.mem_cons] at hs
    rcases hs with hs | rfl | hs
    · exact hj s (by simp [hs])
    · simp [SetsRSAKey]
    · exact hj s (by simp [hs])
  · rw [← hld, lastInit, lastInit]
    simp [List.filterMap_cons, initArgs]

/-! ### An example: one card with an encrypting and a decrypting cipher, and two commands -/

private def svcEnv : CryptoEnv := ⟨true, true, ⟨fun _ _ => .error .typeError, fun _ _ => .error .typeError⟩, fun _ _ => []⟩

private def svcMade : List Step :=
  [.newArray 1 [1, 2, 3, 4, 5, 6, 7, 8], .newArray 2 [9, 9, 9, 9, 9, 9, 9, 9], .buildKey 4 [3, 64, 0], .setKey 4 1 0, .getCipher 5 [4, 0], .getCipher 6 [4, 0],
   .desInit 6 (some 4) 1 2 0 8, .desInit 5 (some 4) 2 2 0 8, .store 2 0 1, .clearKey 4, .newArray 10 [0, 1, 2, 3, 3, 65, 66, 67, 8]]

/-- The command `00 01 02 03 03 'ABC' 08`: encrypt three bytes, eight bytes expected. -/
private def svcSession : List Step :=
  [.newAPDU 11 12 10, .store 1 0 0, .apdu 11 .setIncomingAndReceive, .setShort 2 0 77, .desFinal 5 12 5 3 12 5, .newPIN 20 3 4, .apdu 11 (.setOutgoingAndSend 5 8)]

/-- The answer is the encryption of the data; sent back as a command it is decrypted to `ABC`. -/
example : (run svcEnv 0 blank (svcMade ++ svcSession ++ [.newArray 30 ([0, 1, 2, 3, 8] ++ List.replicate 8 0), .arrayCopy 10 0 30 5 8, .newAPDU 31 32 30,
      .apdu 31 .setIncomingAndReceive, .desFinal 6 32 5 8 32 5, .apdu 31 (.setOutgoingAndSend 5 3)])).map
        (fun x => (x.1.drop 11, (listAt x.2 30).map (·.take 3))) = some
    ([.ok (.ref 11), .ok .nothing, .ok (.int 3), .ok .nothing, .ok (.int 8), .ok (.ref 20), .ok (.int 0), .ok (.ref 30), .ok .nothing, .ok (.ref 31), .ok (.int 8), .ok (.int 3), .ok (.int 0)],
     some [65, 66, 67]) := by decide +kernel

private def sumEnv : CryptoEnv := ⟨true, true, ⟨fun _ _ => .error .typeError, fun _ _ => .error .typeError⟩, fun _ m => [m.sum % 256, m.length % 256]⟩

/-- A digest service, with a toy hash of two bytes (the sum and the number of the bytes). A second digest is fed in between. -/
example : (run sumEnv 0 blank [.newArray 1 [0, 1, 2, 3, 3, 100, -1, 101, 0], .getDigest 2 1, .getDigest 3 1, .digestUpdate 3 1 0 4, .newAPDU 11 12 1, .digestReset 2,
      .apdu 11 .setIncomingAndReceive, .digestUpdate 3 12 5 3, .digestFinal 2 12 5 3 12 5, .newArray 4 [], .apdu 11 (.setOutgoingAndSend 5 2)]).map
        (fun x => (x.1.drop 6, listAt x.2 1)) = some
    ([.ok (.int 3), .ok .nothing, .ok (.int 2), .ok (.ref 4), .ok (.int 0)], some [-56, 3, 2, 3, 3, 100, -1, 101, 0]) := by decide +kernel

private def rsaSvcEnv : CryptoEnv := ⟨true, true, ⟨fun _ x => .ok ((x + 5) % 256 ^ 16).toNat, fun _ x => .ok ((x - 5) % 256 ^ 16).toNat⟩, fun _ _ => []⟩
private def rsaSvcMade : List Step := [.newPair 1 2 3 1 128, .getCipher 4 [10, 0], .getCipher 5 [10, 0], .genKeyPair 1 6 7 ⟨3233, 17, 2753⟩]

/-- The RSA service, with the toy operations of the example of C125: the answer, sent back as a command, is decrypted to the data of the first command. -/
example : (run rsaSvcEnv 0 blank (rsaSvcMade ++ [.rsaInit 4 (some 6) 2, .newArray 10 [0, 1, 2, 3, 2, 66, 7, 16], .newAPDU 11 12 10, .rsaInit 5 (some 6) 2,
      .apdu 11 .setIncomingAndReceive, .newPIN 20 3 4, .rsaFinal 4 (List.replicate 11 0xAA) 12 5 2 12 5, .clearKey 2, .apdu 11 (.setOutgoingAndSend 5 16), .rsaInit 5 (some 7) 1,
      .newArray 30 ([0, 1, 2, 3, 16] ++ List.replicate 16 0), .arrayCopy 10 0 30 5 16, .newAPDU 31 32 30, .apdu 31 .setIncomingAndReceive, .rsaFinal 5 [] 32 5 16 32 5,
      .apdu 31 (.setOutgoingAndSend 5 2)])).map (fun x => (x.1.drop 8, (listAt x.2 30).map (·.take 2))) = some
    ([.ok (.int 2), .ok (.ref 20), .ok (.int 16), .ok .nothing, .ok (.int 0), .ok .nothing, .ok (.ref 30), .ok .nothing, .ok (.ref 31),
      .ok (.int 16), .ok (.int 2), .ok (.int 0)], some [66, 7]) := by decide +kernel

/-- The calls in between store into none of the APDU, its buffer and the command's list, and initialise no cipher. -/
example (w : Card) : Avoids svcEnv 0 w [.store 1 0 0] [11, 10, 12] ∧ Avoids svcEnv 0 w [.setShort 2 0 77] [11, 10, 12] ∧ Avoids svcEnv 0 w [.newPIN 20 3 4] [11, 10, 12] ∧
    (∀ s ∈ [Step.store 1 0 0], ¬ Inits 5 s) ∧ ShortCmd [0, 1, 2, 3] [65, 66, 67] (some 8) [0, 1, 2, 3, 3, 65, 66, 67, 8] := by
  refine ⟨?_, ?_, ?_, by simp [Inits], rfl, [3], [8], ?_⟩
  · intro p hp x hx
    have := mem_calls _ _ _ hp
    simp only [List.mem_singleton] at this
    rw [this]; simp only [List.mem_cons, List.not_mem_nil, or_false] at hx
    rcases hx with rfl | rfl | rfl <;> simp [writes]
  · intro p hp x hx
    have := mem_calls _ _ _ hp
    simp only [List.mem_singleton] at this
    rw [this]; simp only [List.mem_cons, List.not_mem_nil, or_false] at hx
    rcases hx with rfl | rfl | rfl <;> simp [writes]
  · intro p hp x hx
    have := mem_calls _ _ _ hp
    simp only [List.mem_singleton] at this
    rw [this]; simp only [List.mem_cons, List.not_mem_nil, or_false] at hx
    rcases hx with rfl | rfl | rfl <;> simp [writes]
  · exact ⟨.inr ⟨by simp, by simp, 3, rfl, by simp [Spells]⟩, .inr ⟨8, rfl, by omega, by omega, 8, rfl, by simp [Spells]⟩, rfl⟩

/-- The answer to a command without data (a case 2 command that expects four bytes): the state is still 0 when the answer goes out, and six afterwards. -/
example : (run svcEnv 0 blank [.newArray 10 [0, 1, 2, 3, 4], .newAPDU 11 12 10, .askAPDU 11 .currentState, .store 12 0 77, .store 12 1 78, .apdu 11 (.setOutgoingAndSend 0 4),
    .askAPDU 11 .currentState]).map (fun p => (p.1, listAt p.2 10)) =
    some ([.ok (.ref 10), .ok (.ref 11), .ok (.int 0), .ok .nothing, .ok .nothing, .ok (.int 0), .ok (.int 6)], some [77, 78, 2, 3, 4]) := by decide +kernel

end Verif.Props
