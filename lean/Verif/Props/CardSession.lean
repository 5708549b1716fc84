import Verif.Props.CardHistory2
/-! C116, continued: what the histories say about whole programs. -/
namespace Verif.Props
open Verif.Py Verif.Model Verif.Model.Card Verif.Spec Verif.Spec.Card

theorem step_sem {env : CryptoEnv} {fuel : Nat} {w : Card} {s : Step} {o : Except Err Card.Out} {w' : Card} (h : step env fuel w s = some (o, w')) :
    ∃ e, sem env fuel w s = some e ∧ e.1 = o ∧ w.put e.2 = w' := by
  simp only [step] at h
  cases he : sem env fuel w s with
  | none => simp [he] at h
  | some e =>
    rw [he] at h
    simp only [Option.map_some, Option.some.injEq, Prod.mk.injEq] at h
    exact ⟨e, rfl, h.1, h.2⟩

theorem mem_calls {env : CryptoEnv} {fuel : Nat} : ∀ (prog : List Step) (w : Card) c, c ∈ calls env fuel w prog → c.2 ∈ prog := by
  intro prog
  induction prog with
  | nil => intro w c h; simp [calls] at h
  | cons s ss ih =>
    intro w c h
    simp only [calls, List.mem_cons] at h
    rcases h with rfl | h
    · simp
    · split at h
      · simp at h
      · exact List.mem_cons_of_mem _ (ih _ _ h)

theorem mem_history {α : Type} {call : Card → Step → Option α} {env : CryptoEnv} {fuel : Nat} {prog : List Step} {w : Card} {op : α}
    (h : op ∈ historyOf call env fuel w prog) : ∃ v s, s ∈ prog ∧ call v s = some op := by
  simp only [historyOf, List.mem_filterMap] at h
  obtain ⟨c, hc, ho⟩ := h
  exact ⟨c.1, c.2, mem_calls _ _ _ hc, ho⟩

/-! ### PINs -/

/-- **C116** (PINs in programs). The remaining tries of a new PIN, whatever the program, lie between zero and the limit. -/
theorem C116_pin_tries {env : CryptoEnv} {fuel : Nat} {w w1 w2 : Card} {i : Nat} {limit size : Int} (hl : 0 ≤ limit)
    (h0 : step env fuel w (.newPIN i limit size) = some (.ok (.ref i), w1)) {prog : List Step} {outs : List (Except Err Card.Out)}
    (h1 : run env fuel w1 prog = some (outs, w2)) :
    ∃ t : Int, step env fuel w2 (.pinTries i) = some (.ok (.int t), w2) ∧ 0 ≤ t ∧ t ≤ limit := by
  have hp : w1 i = .pin (OwnerPIN.init limit size) := by
    obtain ⟨e, he, h, rfl⟩ := step_sem h0
    simp only [sem, Option.some.injEq] at he
    subst he
    unfold make at h ⊢
    split at h
    · next hf => simp only [hf]; exact put_one _ _ _
    · simp [wrong] at h
  have := C116_pin h1 hp
  exact ⟨_, this.2.2.2, C14_counter limit size hl _⟩

/-- The calls that can give a blocked PIN new tries. -/
def Unblocks (i : Nat) : Step → Prop
  | .pinUpdate j .. => j = i
  | .pinResetAndUnblock j => j = i
  | .pinSetValidated j v => j = i ∧ v = true
  | _ => False

/-- **C116** (PINs in programs). A PIN without tries that is not validated stays so in every program that does not update, unblock or forcibly validate it,
whatever else the program does, and none of the checks in that program is told that it was right. -/
theorem C116_pin_blocked {env : CryptoEnv} {fuel : Nat} {i : Nat} : ∀ {prog : List Step} {w w' : Card} {outs : List (Except Err Card.Out)} {t : Int}, t ≤ 0 →
    step env fuel w (.pinTries i) = some (.ok (.int t), w) → step env fuel w (.pinValidated i) = some (.ok (.bool false), w) →
    (∀ s ∈ prog, ¬ Unblocks i s) → run env fuel w prog = some (outs, w') →
    step env fuel w' (.pinTries i) = some (.ok (.int t), w') ∧ step env fuel w' (.pinValidated i) = some (.ok (.bool false), w') ∧
    ∀ j : Nat, (∃ a off len, prog[j]? = some (.pinCheck i a off len)) → outs[j]? ≠ some (.ok (.bool true)) := by
  intro prog
  induction prog with
  | nil =>
    intro w w' outs t ht h1 h2 _ hr
    simp only [run, Option.some.injEq, Prod.mk.injEq] at hr
    obtain ⟨rfl, rfl⟩ := hr
    exact ⟨h1, h2, fun j h => by simp at h⟩
  | cons s ss ih =>
    intro w w' outs t ht h1 h2 hs hr
    obtain ⟨p, hp⟩ : ∃ p, w i = .pin p := by
      simp only [step, sem, Option.map_some, Option.some.injEq, Prod.mk.injEq] at h1
      split at h1
      · next p hp => exact ⟨p, hp⟩
      · simp [wrong] at h1
    have ht' : p.getTriesRemaining = t := by
      simp only [step, sem, hp, Option.map_some, Option.some.injEq, Prod.mk.injEq, Except.ok.injEq, Out.int.injEq] at h1
      exact h1.1
    have hv' : p.isValidated = false := by
      simp only [step, sem, hp, Option.map_some, Option.some.injEq, Prod.mk.injEq, Except.ok.injEq, Out.bool.injEq] at h2
      exact h2.1
    simp only [run] at hr
    cases he : step env fuel w s with
    | none => simp [he] at hr
    | some x =>
      obtain ⟨o, w1⟩ := x
      simp only [he] at hr
      cases hrr : run env fuel w1 ss with
      | none => simp [hrr] at hr
      | some y =>
        obtain ⟨outs1, w2⟩ := y
        simp only [hrr, Option.map_some, Option.some.injEq, Prod.mk.injEq] at hr
        obtain ⟨rfl, rfl⟩ := hr
        obtain ⟨e, hse, rfl, rfl⟩ := step_sem he
        have hst := pin_step hp s e hse
        have key : ∃ q, w.put e.2 i = .pin q ∧ q.getTriesRemaining = t ∧ q.isValidated = false ∧
            ((∃ a off len, s = .pinCheck i a off len) → e.1 ≠ .ok (.bool true)) := by
          cases hc : pinCall i w s with
          | none =>
            refine ⟨p, hst.2 hc, ht', hv', ?_⟩
            rintro ⟨a, off, len, rfl⟩
            simp only [pinCall, if_pos, Option.map_eq_none_iff] at hc
            simp only [sem, Option.some.injEq] at hse
            rw [onPinArg_eq, hc] at hse
            subst hse
            simp [wrong]
          | some op =>
            have hh : Harmless op := by
              have hn := hs s (by simp)
              cases s <;> simp only [pinCall, reduceCtorEq, Option.ite_none_right_eq_some, Option.map_eq_some_iff, Option.some.injEq] at hc
              case pinCheck => obtain ⟨_, _, _, rfl⟩ := hc; trivial
              case pinUpdate => exact absurd hc.1 hn
              case pinReset => obtain ⟨_, rfl⟩ := hc; trivial
              case pinResetAndUnblock => exact absurd hc.1 hn
              case pinSetValidated j v =>
                obtain ⟨hj, rfl⟩ := hc
                cases v with
                | true => exact absurd ⟨hj, rfl⟩ hn
                | false => rfl
            have hb := C15_blocked p (by omega) hv' [op] (by simpa using hh)
            refine ⟨_, (hst.1 op hc).2, hb.1.trans ht', hb.2.1, ?_⟩
            rintro ⟨a, off, len, rfl⟩
            simp only [pinCall, if_pos, Option.map_eq_some_iff] at hc
            obtain ⟨b, hb1, rfl⟩ := hc
            have := hb.2.2 (.check b off len, (p.step (.check b off len)).1) (by simp [trace]) ⟨b, off, len, rfl⟩
            simp only at this
            rw [(hst.1 (.check b off len) (by simp [pinCall, hb1])).1, this]
            simp [pinAnswer, Except.map]
        obtain ⟨q, hq, hq1, hq2, hq3⟩ := key
        obtain ⟨r1, r2, r3⟩ := ih (w := w.put e.2) (t := t) ht (by simp only [step, sem, hq, hq1, Option.map_some]; rfl)
          (by simp only [step, sem, hq, hq2, Option.map_some]; rfl) (fun s hs' => hs s (by simp [hs'])) hrr
        refine ⟨r1, r2, ?_⟩
        intro j hj
        cases j with
        | zero =>
          simp only [List.getElem?_cons_zero, Option.some.injEq] at hj ⊢
          intro h
          exact hq3 hj (by simpa using h)
        | succ j =>
          simp only [List.getElem?_cons_succ] at hj ⊢
          exact r3 j hj

/-! ### DES ciphers -/

/-- The calls that set the key of the cipher at `c`. -/
def Inits (c : Nat) : Step → Prop
  | .desInit j .. => j = c
  | .desInitDefault j .. => j = c
  | _ => False

theorem hist_no_init {env : CryptoEnv} {fuel : Nat} {prog : List Step} {w : Card} {c : Nat} (hn : ∀ s ∈ prog, ¬ Inits c s) :
    ∀ op ∈ historyOf (desCall c) env fuel w prog, op.mode? = none ∧ op.key? = none := by
  intro op hop
  obtain ⟨v, s, hs, hc⟩ := mem_history hop
  have := hn s hs
  cases s <;> simp only [desCall, reduceCtorEq, Option.ite_none_right_eq_some, Option.map_eq_some_iff, Option.some.injEq, Option.bind_eq_some_iff] at hc
  case desInit => exact absurd hc.1 this
  case desInitDefault => exact absurd hc.1 this
  case desFinal => obtain ⟨_, _, _, _, _, rfl⟩ := hc; exact ⟨rfl, rfl⟩
  case cipherUpdate => obtain ⟨_, rfl⟩ := hc; exact ⟨rfl, rfl⟩

theorem last_of_init (h0 h2 : List DCall) (x : DCall) (hn : ∀ op ∈ h2, op.mode? = none ∧ op.key? = none) :
    (∀ m, x.mode? = some m → modeAfter (h0 ++ [x] ++ h2) = some m) ∧ (∀ k, x.key? = some k → keyAfter (h0 ++ [x] ++ h2) = some k) := by
  have e1 : h2.filterMap DCall.mode? = [] := by rw [List.filterMap_eq_nil_iff]; exact fun a ha => (hn a ha).1
  have e2 : h2.filterMap DCall.key? = [] := by rw [List.filterMap_eq_nil_iff]; exact fun a ha => (hn a ha).2
  constructor
  · intro m hm
    simp [modeAfter, List.filterMap_append, e1, hm]
  · intro k hk
    simp [keyAfter, List.filterMap_append, e2, hk]

/-- The state of a cipher after a program, a good `init` and another program without `init`. -/
theorem des_session {env : CryptoEnv} {fuel : Nat} {w0 w1 w2 w3 : Card} {c : Nat} {alg : Int} (hx : w0 c = .des (DESCipher.new alg))
    {pre post : List Step} {outs0 outs2 : List (Except Err Card.Out)} (h0 : run env fuel w0 pre = some (outs0, w1))
    {k : Option Nat} {mode : Int} {r : Nat} {off len : Int} (h1 : step env fuel w1 (.desInit c k mode r off len) = some (.ok .nothing, w2))
    (h2 : run env fuel w2 post = some (outs2, w3)) (hn : ∀ s ∈ post, ¬ Inits c s) :
    ∃ a key bytes iv h, k = some a ∧ w1 a = .key (.des key) ∧ key.key = some bytes ∧ listAt w1 r = some iv ∧ (mode = 1 ∨ mode = 2) ∧ len = 8 ∧
      Reachable iv.length off 8 ∧ w3 c = .des (desAfter alg h) ∧ modeAfter h = some mode ∧ keyAfter h = some (bytes, (cellsFrom iv off 8).map valueOf) := by
  have hw1 := (C116_des h0 hx).1
  generalize hh0 : historyOf (desCall c) env fuel w0 pre = hist0 at hw1
  obtain ⟨e, he, ho, rfl⟩ := step_sem h1
  have hst := des_step hw1 _ e he
  cases hl : listAt w1 r with
  | none =>
    simp only [sem, Option.some.injEq, onArray_eq, hl, Option.elim] at he
    subst he
    simp [wrong] at ho
  | some iv =>
    have hc : desCall c w1 (.desInit c k mode r off len) = some (.init (keysOn w1) (keyArgAt w1 k) mode iv off len) := by simp [desCall, hl]
    have hw2 := hst.1 _ hc
    have hok : ((desAfter alg hist0).init (keysOn w1) (keyArgAt w1 k) mode iv off len).1 = .ok () := by
      simp only [sem, Option.some.injEq, onArray_eq, hl, Option.elim, hw1, des_init_card] at he
      subst he
      simp only [desAfter]
      revert ho
      generalize (DESCipher.init _ _ _ _ _ _ _).1 = z
      intro ho
      cases z with
      | error _ => simp [Except.map] at ho
      | ok _ => rfl
    obtain ⟨a, key, bytes, hk1, hk2, hk3, hk4, hk5, hk6, hk7, hk8⟩ := (C99_init alg hist0 _ _ _ _ _ _).1.1 hok
    have hka : k = some a ∧ w1 a = .key (.des key) := by
      cases k with
      | none => simp [keyArgAt] at hk1
      | some b =>
        simp only [keyArgAt] at hk1
        split at hk1
        · next kk hb =>
          injection hk1 with hk1
          subst hk1
          simp only [keysOn, hb] at hk2
          exact ⟨rfl, by rw [hb, hk2]⟩
        · simp at hk1
    have hw3 := (C116_des h2 hw2).1
    have hno := hist_no_init (env := env) (fuel := fuel) (w := w1.put e.2) hn
    generalize historyOf (desCall c) env fuel (w1.put e.2) post = hist2 at hw3 hno
    obtain ⟨lm, lk⟩ := last_of_init hist0 hist2 (.init (keysOn w1) (keyArgAt w1 k) mode iv off len) hno
    refine ⟨a, key, bytes, iv, hist0 ++ [.init (keysOn w1) (keyArgAt w1 k) mode iv off len] ++ hist2, hka.1, hka.2, hk4, rfl, hk6, hk7, hk8, ?_, ?_, ?_⟩
    · rw [hw3]
      simp [desAfter]
    · apply lm
      simp only [DCall.mode?, acceptedMode, hk1]
      rw [if_pos ⟨by rw [hk2]; exact hk3, hk6⟩]
    · apply lk
      simp only [DCall.key?, goodKey, hk1, hk2, hk4]
      rw [if_pos ⟨hk3, hk6, hk7, hk8, fun h => by simpa [h] using hk5, fun h => by simpa [h] using hk5⟩]

/-- **C116** (DES sessions). A DES cipher on a card, initialised for encryption by a call that returned, encrypts under the key and the initial vector as they
were at that call, whatever program ran before it and whatever program runs afterwards, as long as it does not initialise this cipher again: the key may have
been cleared or changed, the initial vector overwritten, and other ciphers used. -/
theorem C116_encrypts {env : CryptoEnv} {fuel : Nat} {w0 w1 w2 w3 : Card} {c : Nat} {alg : Int} (halg : alg = 1 ∨ alg = 4 ∨ alg = 5 ∨ alg = 8)
    (hx : w0 c = .des (DESCipher.new alg))
    {pre post : List Step} {outs0 outs2 : List (Except Err Card.Out)} (h0 : run env fuel w0 pre = some (outs0, w1))
    {k : Option Nat} {r : Nat} {off len : Int} (h1 : step env fuel w1 (.desInit c k 2 r off len) = some (.ok .nothing, w2))
    (h2 : run env fuel w2 post = some (outs2, w3)) (hn : ∀ s ∈ post, ¬ Inits c s) :
    ∃ a key bytes iv, k = some a ∧ w1 a = .key (.des key) ∧ key.key = some bytes ∧ listAt w1 r = some iv ∧
      ∀ ri rr inB outB io (il : Nat) oo, listAt w3 ri = some inB → listAt w3 rr = some outB → Reachable inB.length io il → (alg = 1 ∨ alg = 5 → il % 8 = 0) →
      ∃ ct, Encrypts alg bytes ((cellsFrom iv off 8).map valueOf) ((cellsFrom inB io il).map valueOf) ct ∧
        (Reachable outB.length oo ct.length → ∃ out w4, step env fuel w3 (.desFinal c ri io il rr oo) = some (.ok (.int ct.length), w4) ∧
          listAt w4 rr = some out ∧ Stored outB out oo ct.length (fun j => signedCell (ct.getD j 0))) := by
  obtain ⟨a, key, bytes, iv, h, g1, g2, g3, g4, g5, g6, g7, g8, g9, g10⟩ := des_session hx h0 h1 h2 hn
  refine ⟨a, key, bytes, iv, g1, g2, g3, g4, ?_⟩
  intro ri rr inB outB io il oo hi ho hin hm
  obtain ⟨ct, c1, c2, c3⟩ := C99_encrypt alg halg h bytes _ g9 g10 inB io il (.inr hin) (by simpa using hm)
  refine ⟨ct, c1, fun hr => ?_⟩
  obtain ⟨out, c', d1, d2⟩ := (c3 outB oo).1 (.inr hr)
  obtain ⟨w4, d3, d4⟩ := (C116_des (env := env) (fuel := fuel) (prog := []) (outs := []) (w := w3) (w' := w3) rfl g8).2.2.2 ri io il rr oo inB outB hi ho
  simp only [historyOf, calls, List.filterMap_nil, List.foldl_nil, d1] at d3 d4
  exact ⟨out, w4, d3, d4, d2⟩

/-- **C116** (DES sessions). Decryption, likewise. -/
theorem C116_decrypts {env : CryptoEnv} {fuel : Nat} {w0 w1 w2 w3 : Card} {c : Nat} {alg : Int} (halg : alg = 1 ∨ alg = 4 ∨ alg = 5 ∨ alg = 8)
    (hx : w0 c = .des (DESCipher.new alg))
    {pre post : List Step} {outs0 outs2 : List (Except Err Card.Out)} (h0 : run env fuel w0 pre = some (outs0, w1))
    {k : Option Nat} {r : Nat} {off len : Int} (h1 : step env fuel w1 (.desInit c k 1 r off len) = some (.ok .nothing, w2))
    (h2 : run env fuel w2 post = some (outs2, w3)) (hn : ∀ s ∈ post, ¬ Inits c s) :
    ∃ a key bytes iv, k = some a ∧ w1 a = .key (.des key) ∧ key.key = some bytes ∧ listAt w1 r = some iv ∧
      ∀ ri rr inB outB io (il : Nat) oo, listAt w3 ri = some inB → listAt w3 rr = some outB → Reachable inB.length io il →
      ∀ m, (∀ x ∈ m, x < 256) → Encrypts alg bytes ((cellsFrom iv off 8).map valueOf) m ((cellsFrom inB io il).map valueOf) →
        Reachable outB.length oo m.length → ∃ out w4, step env fuel w3 (.desFinal c ri io il rr oo) = some (.ok (.int m.length), w4) ∧
          listAt w4 rr = some out ∧ Stored outB out oo m.length (fun j => signedCell (m.getD j 0)) := by
  obtain ⟨a, key, bytes, iv, h, g1, g2, g3, g4, g5, g6, g7, g8, g9, g10⟩ := des_session hx h0 h1 h2 hn
  refine ⟨a, key, bytes, iv, g1, g2, g3, g4, ?_⟩
  intro ri rr inB outB io il oo hi ho hin m hm he hr
  obtain ⟨out, c', d1, d2⟩ := (C99_decrypt alg halg h bytes _ g9 g10 m _ hm he inB io il (.inr hin) rfl outB oo).1 (.inr hr)
  obtain ⟨w4, d3, d4⟩ := (C116_des (env := env) (fuel := fuel) (prog := []) (outs := []) (w := w3) (w' := w3) rfl g8).2.2.2 ri io il rr oo inB outB hi ho
  simp only [historyOf, calls, List.filterMap_nil, List.foldl_nil, d1] at d3 d4
  exact ⟨out, w4, d3, d4, d2⟩

/-! ### An example -/

private def env1 : CryptoEnv := ⟨true, true, ⟨fun _ _ => .error .typeError, fun _ _ => .error .typeError⟩, fun _ _ => []⟩

/-- A DES key, a PIN and a cipher are made, the cipher initialised; then the key and the initial vector are overwritten, the PIN blocked and another cipher used. -/
private def before : List Step :=
  [.newArray 1 [1, 2, 3, 4, 5, 6, 7, 8], .newArray 2 [9, 9, 9, 9, 9, 9, 9, 9], .newArray 3 (List.replicate 16 0), .buildKey 4 [3, 64, 0], .setKey 4 1 0,
   .getCipher 5 [1, 0], .newPIN 6 2 4]

private def later : List Step :=
  [.setKey 4 2 0, .store 2 0 1, .pinCheck 6 (.inl [49, 50]) 0 2, .pinCheck 6 (.inr 1) 0 3, .getCipher 7 [1, 0], .desInitDefault 7 (some 4) 2,
   .desFinal 7 1 0 8 3 0, .pinCheck 6 (.inl [49]) 0 1]

private def session : Option (List (Except Err Out) × List (Except Err Out) × List (Except Err Out)) :=
  (run env1 10 blank before).bind fun x => (run env1 10 x.2 [.desInit 5 (some 4) 2 2 0 8]).bind fun y =>
    (run env1 10 y.2 later).bind fun z => (run env1 10 z.2 [.pinTries 6, .pinValidated 6, .desFinal 5 1 0 8 3 8]).map fun u => (y.1, z.1, u.1)

/-- The hypotheses hold in it: the `init` returns, the PIN is blocked, and the cipher works afterwards. -/
example : session = some ([.ok .nothing],
    [.ok .nothing, .ok .nothing, .ok (.bool false), .ok (.bool false), .ok (.ref 7), .ok .nothing, .ok (.int 8), .ok (.bool false)],
    [.ok (.int 0), .ok (.bool false), .ok (.int 8)]) := by decide +kernel

end Verif.Props
