import Verif.Props.CardAPDU
import Verif.Props.CardSession
/-! C117, continued: sending on a card. -/
namespace Verif.Props
open Verif.Py Verif.Model Verif.Model.Card Verif.Spec Verif.Spec.Card

/-- The source of a send on the APDU with the buffer at `b` when the card is `w`: the list the block is taken from, the offset and the length. -/
def sendSource (a b : Nat) (w : Card) : Step → Option (List Int × Int × Int)
  | .apdu j (.sendBytes o l) => if j = a then some ((listAt w b).getD [], o, l) else none
  | .apdu j (.sendBytesLong d o l) => if j = a then some (d, o, l) else none
  | .sendBytesLong j q o l => if j = a then (listAt w q).map fun d => (d, o, l) else none
  | _ => none

/-- What has been sent with the APDU after a call that answered `out`, when `acc` had been sent before: a send that succeeds adds its block, a
`setOutgoingLength` that succeeds starts over. -/
def sentBy (a b : Nat) (w : Card) (s : Step) (out : Except Err Card.Out) (acc : List Int) : List Int :=
  match out, sendSource a b w s, s with
  | .ok _, some (src, o, l), _ => acc ++ range src o.toNat l.toNat
  | .ok _, none, .apdu j (.setOutgoingLength _) => if j = a then [] else acc
  | _, _, _ => acc

/-- What a program has sent with the APDU. -/
def sentOn (a b : Nat) (env : CryptoEnv) (fuel : Nat) (w : Card) (acc : List Int) : List Step → List Int
  | [] => acc
  | s :: ss => match step env fuel w s with
    | none => acc
    | some (out, w') => sentOn a b env fuel w' (sentBy a b w s out acc) ss

/-- Every send of the program on the APDU names cells of its source. -/
def SendsInRange (a b : Nat) (env : CryptoEnv) (fuel : Nat) (w : Card) (prog : List Step) : Prop :=
  ∀ c ∈ calls env fuel w prog, ∀ src o l, sendSource a b c.1 c.2 = some (src, o, l) → 0 ≤ o ∧ 0 ≤ l ∧ o + l ≤ src.length

theorem sent_append (l l' : List APDU.Op) : ∀ (y : APDU) (acc : List Int), sent y acc (l ++ l') = sent (y.run l) (sent y acc l) l' := by
  induction l with
  | nil => intro y acc; rfl
  | cons op l ih => intro y acc; simp only [List.cons_append, sent, ih]; rfl

theorem inRange_append (l l' : List APDU.Op) : ∀ (y : APDU), AllInRange y (l ++ l') ↔ AllInRange y l ∧ AllInRange (y.run l) l' := by
  induction l with
  | nil => intro y; simp [AllInRange, APDU.run]
  | cons op l ih =>
    intro y
    simp only [List.cons_append, AllInRange, ih, and_assoc]
    rfl

theorem sent_stores (vs : List Int) : ∀ (k : Nat) (y : APDU) (acc : List Int), sent y acc (stores k vs) = acc ∧ AllInRange y (stores k vs) := by
  induction vs with
  | nil => intro k y acc; exact ⟨rfl, trivial⟩
  | cons v vs ih =>
    intro k y acc
    have h1 : sentNext y acc (.poke k v) = acc := by
      unfold sentNext
      split <;> simp_all [sendBlock]
    refine ⟨?_, trivial, (ih _ _ acc).2⟩
    simp only [stores, sent, h1]
    exact (ih _ _ acc).1

theorem sent_history {env : CryptoEnv} {fuel : Nat} {a r b : Nat} (hrb : r ≠ b) : ∀ {prog : List Step} {w w' : Card} {outs : List (Except Err Card.Out)}
    {y : APDU} {acc : List Int}, run env fuel w prog = some (outs, w') → IsAPDU w a r b y → LeavesAPDU env fuel w prog a r b →
    sent y acc (apduHistory a b env fuel w prog) = sentOn a b env fuel w acc prog ∧
    (SendsInRange a b env fuel w prog → AllInRange y (apduHistory a b env fuel w prog)) := by
  intro prog
  induction prog with
  | nil => intro w w' outs y acc _ _ _; exact ⟨rfl, fun _ => trivial⟩
  | cons s ss ih =>
    intro w w' outs y acc hr h hl
    simp only [run] at hr
    cases he : step env fuel w s with
    | none => simp [he] at hr
    | some x =>
      obtain ⟨o, w1⟩ := x
      simp only [he] at hr
      cases hrr : run env fuel w1 ss with
      | none => simp [hrr] at hr
      | some q =>
        have hl1 : LeavesAPDU env fuel w1 ss a r b := fun c hc => hl c (by simp [calls, he, hc])
        simp only [apduHistory, he, sentOn]
        have hR : SendsInRange a b env fuel w (s :: ss) → SendsInRange a b env fuel w1 ss := fun hh c hc => hh c (by simp [calls, he, hc])
        cases hc : apduCall a w s with
        | some op =>
          obtain ⟨w'', e1, e2⟩ := apdu_own (env := env) (fuel := fuel) h hrb hc
          rw [he] at e1
          simp only [Option.some.injEq, Prod.mk.injEq] at e1
          obtain ⟨e1, rfl⟩ := e1
          have i2 := (ih (acc := acc) hrr e2 hl1).2
          have hsrc : (∀ src o l, sendSource a b w s = some (src, o, l) → sendBlock y op = some (range src o.toNat l.toNat) ∧
                (0 ≤ o ∧ 0 ≤ l ∧ o + l ≤ src.length → InRange y op)) ∧ (sendSource a b w s = none → sendBlock y op = none ∧ InRange y op) := by
            cases s <;> simp only [apduCall, reduceCtorEq] at hc
            case apdu j op' =>
              by_cases e : j = a
              · simp only [e, if_true, Option.some.injEq] at hc
                subst hc; subst e
                cases op' <;> simp [sendSource, sendBlock, InRange, h.buffer] <;> (intro h1 h2 h3; exact ⟨h1, h2, h3⟩)
              · simp [e] at hc
            case sendBytesLong j q o l =>
              by_cases e : j = a
              · simp only [e, if_true, Option.map_eq_some_iff] at hc
                obtain ⟨d, hd, rfl⟩ := hc
                subst e
                simp [sendSource, sendBlock, InRange, hd]
                intro h1 h2 h3; exact ⟨h1, h2, h3⟩
              · simp [e] at hc
          refine ⟨?_, fun hh => ⟨?_, i2 (hR hh)⟩⟩
          · simp only [List.singleton_append, sent]
            rw [(ih hrr e2 hl1).1]
            congr 1
            rw [e1]
            unfold sentNext sentBy
            cases hout : (y.step op).1 with
            | error e => rfl
            | ok v =>
              cases hs : sendSource a b w s with
              | some x =>
                obtain ⟨src, o, l⟩ := x
                simp [(hsrc.1 _ _ _ hs).1, Except.map]
              | none =>
                have hb := (hsrc.2 hs).1
                simp only [hb, Except.map]
                cases s <;> simp only [apduCall, reduceCtorEq] at hc
                case apdu j op' =>
                  by_cases e : j = a
                  · simp only [e, if_true, Option.some.injEq] at hc
                    subst hc; subst e
                    cases op' <;> simp
                  · simp [e] at hc
                case sendBytesLong j q o l =>
                  by_cases e : j = a
                  · simp only [e, if_true, Option.map_eq_some_iff] at hc
                    obtain ⟨d, hd, rfl⟩ := hc
                    simp
                  · simp [e] at hc
          · cases hs : sendSource a b w s with
            | none => exact (hsrc.2 hs).2
            | some x =>
              obtain ⟨src, o, l⟩ := x
              exact (hsrc.1 _ _ _ hs).2 (hh (w, s) (by simp [calls]) _ _ _ hs)
        | none =>
          obtain ⟨l, f1, f2, f3⟩ := apdu_foreign h he hc (hl (w, s) (by simp [calls]))
          have hst : y.run (stores 0 ((listAt w1 b).getD [])) = { y with buffer := l } := by
            simp only [f1, Option.getD_some]
            rw [show (0 : Nat) = ([] : List Int).length from rfl, stores_run l [] y.buffer y f2 rfl]
            rfl
          have hsrc : ∀ j n, s = .apdu j (.setOutgoingLength n) → j ≠ a := by
            rintro j n rfl e
            simp [apduCall, e] at hc
          refine ⟨?_, fun hh => ?_⟩
          · simp only []
            rw [sent_append, (sent_stores _ _ _ _).1, hst, (ih hrr f3 hl1).1]
            congr 1
            have h1 : sendSource a b w s = none := by
              cases s <;> try rfl
              case apdu j op =>
                have e : j ≠ a := fun e => by simp [apduCall, e] at hc
                cases op <;> simp [sendSource, e]
              case sendBytesLong j q off len =>
                by_cases e : j = a
                · simp only [apduCall, e, if_true, Option.map_eq_none_iff] at hc
                  simp [sendSource, hc]
                · simp [sendSource, e]
            unfold sentBy
            rw [h1]
            split
            · next hh => cases hh
            · rw [if_neg (hsrc _ _ rfl)]
            · rfl
          · simp only []
            rw [inRange_append, hst]
            exact ⟨(sent_stores _ _ _ acc).2, (ih (acc := acc) hrr f3 hl1).2 (hR hh)⟩

/-- **C117** (sending). On a card, an APDU is made from a list of bytes, any program runs, `setOutgoing` is called and succeeds, and any program runs, both
leaving the APDU's private list alone. If every send with the APDU named cells of its source, then the list the APDU was made from starts with the bytes
sent, in the order they were sent, whatever happened to the sources since; and these are at most 256. -/
theorem C117_response {env : CryptoEnv} {fuel : Nat} {w0 w w1 w2 w3 : Card} {a r b : Nat} {bytes : List Int} (hb : AnyBytes bytes)
    (hl : listAt w0 r = some bytes) (h0 : step env fuel w0 (.newAPDU a b r) = some (.ok (.ref a), w))
    {prog1 prog2 : List Step} {outs1 outs2 : List (Except Err Card.Out)} {v : Int}
    (h1 : run env fuel w prog1 = some (outs1, w1)) (hl1 : LeavesAPDU env fuel w prog1 a r b)
    (h2 : step env fuel w1 (.apdu a .setOutgoing) = some (.ok (.int v), w2))
    (h3 : run env fuel w2 prog2 = some (outs2, w3)) (hl2 : LeavesAPDU env fuel w2 prog2 a r b) (hin : SendsInRange a b env fuel w2 prog2) :
    ∃ rest, listAt w3 r = some (sentOn a b env fuel w2 [] prog2 ++ rest) ∧ (sentOn a b env fuel w2 [] prog2).length ≤ 256 := by
  obtain ⟨bytes', y, hl', hy, hi, hrb⟩ := newAPDU_is h0
  rw [hl] at hl'; injection hl' with hl'; subst hl'
  obtain ⟨g1, _⟩ := C117_apdu hrb h1 hi hl1
  obtain ⟨w2', f1, f2⟩ := apdu_own (env := env) (fuel := fuel) g1 hrb (s := .apdu a .setOutgoing) (op := .setOutgoing) (by simp [apduCall])
  rw [h2] at f1
  simp only [Option.some.injEq, Prod.mk.injEq] at f1
  obtain ⟨f1, rfl⟩ := f1
  generalize hz : APDU.run y _ = z at f1 f2
  have hset : z.setOutgoing = (.ok v, (z.step .setOutgoing).2) := by
    simp only [APDU.step] at f1 ⊢
    generalize z.setOutgoing = q at f1 ⊢
    obtain ⟨o, z'⟩ := q
    cases o <;> simp [Except.map] at f1 ⊢
    exact f1.symm
  obtain ⟨k1, _⟩ := C117_apdu hrb h3 f2 hl2
  obtain ⟨s1, s2⟩ := sent_history (acc := []) hrb h3 f2 hl2
  subst hz
  have hC := C27_response hb hy _ _ v _ hset (s2 hin)
  rw [s1] at hC
  have e := List.take_append_drop (sentOn a b env fuel w2 [] prog2).length
    (APDU.raw (((y.run (apduHistory a b env fuel w prog1)).step .setOutgoing).2.run (apduHistory a b env fuel w2 prog2)))
  rw [hC.1] at e
  exact ⟨_, k1.raw.trans (congrArg some e.symm), hC.2.1⟩

/-! ### An example -/

private def env2 : CryptoEnv := ⟨true, true, ⟨fun _ _ => .error .typeError, fun _ _ => .error .typeError⟩, fun _ _ => []⟩

/-- A command of 200 data bytes, with an APDU made from it; and another list. -/
private def prepared : List Step :=
  [.newArray 1 ([0, 1, 2, 3, 200] ++ (List.range 200).map (fun (i : Nat) => (i : Int) - 100)), .newArray 4 [7, 8, 9]]

/-- Between two receives the buffer is overwritten and another list changed. -/
private def between : List Step := [.store 3 5 0, .arrayCopy 3 0 3 10 100, .store 4 0 1]

/-- Two sends with changes in between; the sources are overwritten at the end. -/
private def sending : List Step :=
  [.apdu 2 (.setOutgoingLength 5), .sendBytesLong 2 4 1 2, .store 3 0 42, .setShort 3 1 515, .apdu 2 (.sendBytes 0 3), .arrayFill 3 0 257 0, .store 4 1 0]

/-- The answers of a program, and the card after it. -/
private def after (w : Card) (prog : List Step) : Option (List (Except Err Card.Out) × Card) := run env2 10 w prog

private def scene : Option (List (Except Err Card.Out) × List (Except Err Card.Out) × List (Except Err Card.Out)) :=
  (after blank (prepared ++ [.newAPDU 2 3 1, .apdu 2 .setIncomingAndReceive])).bind fun x => (after x.2 between).bind fun y =>
    (after y.2 [.apdu 2 (.receiveBytes 0), .apdu 2 .setOutgoing]).bind fun z => (after z.2 sending).map fun u => (x.1.drop 2, z.1, u.1)

private def heard : Option (List Int × List Int) :=
  (after blank (prepared ++ [.newAPDU 2 3 1, .apdu 2 .setIncomingAndReceive] ++ between ++ [.apdu 2 (.receiveBytes 0), .apdu 2 .setOutgoing])).bind fun z =>
    (after z.2 sending).map fun u => (sentOn 2 3 env2 10 z.2 [] sending, ((listAt u.2 1).getD []).take 6)

/-- The hypotheses hold in it: the APDU is made, receives its first block, and after the calls in between its second one; `setOutgoing` succeeds and the
sends do. -/
example : scene = some ([.ok (.ref 2), .ok (.int 128)], [.ok (.int 72), .ok (.int 0)],
    [.ok (.int 0), .ok (.int 0), .ok .nothing, .ok .nothing, .ok (.int 0), .ok .nothing, .ok .nothing]) := by decide +kernel

/-- The five bytes sent are at the front of the list the APDU was made from. -/
example : heard = some ([8, 9, 42, 2, 3], [8, 9, 42, 2, 3, -100]) := by decide +kernel

/-- The programs of the example leave the list the APDU was made from alone, whatever the card. -/
example (w : Card) : LeavesAPDU env2 10 w between 2 1 3 ∧ (∀ s ∈ between, InLoop 2 s) := by
  refine ⟨?_, ?_⟩
  · intro c hc h
    have := mem_calls _ _ _ hc
    simp only [between, List.mem_cons, List.not_mem_nil, or_false] at this
    obtain ⟨c1, c2⟩ := c
    rcases this with h' | h' | h' <;> (simp only at h'; subst h'; simp [writes, Resizes, mine] at h ⊢)
  · intro s hs
    simp only [between, List.mem_cons, List.not_mem_nil, or_false] at hs
    rcases hs with rfl | rfl | rfl <;> simp [InLoop]

example (w : Card) : LeavesAPDU env2 10 w sending 2 1 3 := by
  intro c hc h
  have := mem_calls _ _ _ hc
  simp only [sending, List.mem_cons, List.not_mem_nil, or_false] at this
  obtain ⟨c1, c2⟩ := c
  rcases this with h' | h' | h' | h' | h' | h' | h' <;> (simp only at h'; subst h'; simp [writes, Resizes, mine] at h ⊢)
  
end Verif.Props
