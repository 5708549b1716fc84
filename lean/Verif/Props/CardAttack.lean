import Verif.Props.CardHistory
import Verif.Props.PINAttack
/-! C123: an attacker with the whole card. -/
namespace Verif.Props
open Verif.Py Verif.Model Verif.Model.Card Verif.Spec Verif.Spec.Card
open Verif.Model.OwnerPIN (Op)

/-! ### Cards that differ in the PINs stored only -/

/-- The two cards have the same objects, but for what is inside PIN objects. -/
def SamePINless (w v : Card) : Prop := ∀ r, v r = w r ∨ ∃ p q, w r = .pin p ∧ v r = .pin q

namespace PINless
variable {w v : Card} (hv : SamePINless w v)
include hv

theorem array (r : Nat) (f : List Int → Eff) : onArray v r f = onArray w r f := by
  unfold onArray; rcases hv r with e | ⟨p, q, h1, h2⟩
  · rw [e]
  · rw [h1, h2]

theorem optArray (r : Option Nat) (f : Option (List Int) → Eff) : onOptArray v r f = onOptArray w r f := by
  cases r with
  | none => rfl
  | some r => exact array hv r _

theorem mk (r : Nat) (o : Obj) : make v r o = make w r o := by
  unfold make; rcases hv r with e | ⟨p, q, h1, h2⟩
  · rw [e]
  · rw [h1, h2]

theorem mkOr (r : Nat) (o : Except Err Obj) : makeOr v r o = makeOr w r o := by
  cases o with
  | error e => rfl
  | ok o => exact mk hv r o

theorem apdu (a : Nat) (f : Nat → Nat → List Int → List Int → APDUObj → Eff) : onAPDU v a f = onAPDU w a f := by
  unfold onAPDU; rcases hv a with e | ⟨p, q, h1, h2⟩
  · rw [e]; split
    · rw [array hv]; congr 1; funext raw; rw [array hv]
    · rfl
  · rw [h1, h2]

theorem arrayA (r : Option Nat) : arrayArg v r = arrayArg w r := by
  cases r with
  | none => rfl
  | some r =>
    unfold arrayArg; rcases hv r with e | ⟨p, q, h1, h2⟩
    · simp only [e]
    · simp only [h1, h2]

theorem cur : current v = current w := by
  unfold current; rcases hv MODULE with e | ⟨p, q, h1, h2⟩
  · rw [e]
  · rw [h1, h2]

theorem tag (g : Nat) : tagAt v g = tagAt w g := by
  unfold tagAt; rcases hv g with e | ⟨p, q, h1, h2⟩
  · rw [e]
  · rw [h1, h2]

theorem tagA (g : Option Nat) : tagArg v g = tagArg w g := by
  cases g with
  | none => rfl
  | some g => simp only [tagArg, tag hv]

theorem tlv (k : Nat) (f : TLVRef → BERTLV → Option Eff) : onTLV v k f = onTLV w k f := by
  unfold onTLV; rcases hv k with e | ⟨p, q, h1, h2⟩
  · rw [e, show tagAt v = tagAt w from funext (tag hv)]
  · rw [h1, h2]

theorem fnd (k g : Nat) : found v k g = found w k g := by
  funext x
  cases x with
  | error e => rfl
  | ok x => cases x with
    | none => rfl
    | some t =>
      simp only [found, makeTLV, mk hv]
      split
      · rfl
      · rcases hv k with e | ⟨p, q, h1, h2⟩ <;> rcases hv g with e' | ⟨p', q', h1', h2'⟩ <;> simp only [*]
        cases w k <;> rfl

theorem key (k : Option Nat) : keyArg v k = keyArg w k := by
  cases k with
  | none => rfl
  | some r =>
    unfold keyArg; rcases hv r with e | ⟨p, q, h1, h2⟩
    · simp only [e]
    · simp only [h1, h2]

end PINless

/-- The calls on the PIN object at `i`: those whose answer or effect can depend on it. -/
def onThePIN (i : Nat) : Step → Bool
  | .pinCheck j .. | .pinUpdate j .. | .pinReset j | .pinResetAndUnblock j | .pinSetValidated j _ | .pinValidated j | .pinTries j => j = i
  | _ => false

/-- A call that is not on the PIN at `i` cannot see what that PIN holds. -/
theorem sem_pinless (env : CryptoEnv) (fuel : Nat) {w v : Card} (i : Nat) (hi : ∀ r, r ≠ i → v r = w r) {p q : OwnerPIN} (hw : w i = .pin p)
    (hvi : v i = .pin q) (s : Step) (hs : onThePIN i s = false) : sem env fuel v s = sem env fuel w s := by
  have hv : SamePINless w v := fun r => by
    by_cases h : r = i
    · subst h; exact .inr ⟨p, q, hw, hvi⟩
    · exact .inl (hi r h)
  have hpin : ∀ j op, j ≠ i → onPIN v j op = onPIN w j op := fun j op h => by unfold onPIN; rw [hi j h]
  have harg : ∀ arg f, onPinArg v arg f = onPinArg w arg f := fun arg f => by
    cases arg with
    | inl _ => rfl
    | inr r => exact PINless.array hv r _
  cases s
  all_goals (try (simp only [onThePIN, decide_eq_false_iff_not] at hs))
  all_goals (simp only [sem, PINless.array hv, PINless.optArray hv, PINless.mk hv, PINless.mkOr hv, PINless.apdu hv, PINless.cur hv, PINless.tag hv, PINless.tagA hv, PINless.tlv hv,
      PINless.fnd hv, PINless.key hv, harg])
  case newAPDU a b r =>
    rcases hv a with e1 | ⟨p, q, h1, h2⟩ <;> rcases hv b with e2 | ⟨p', q', h1', h2'⟩ <;> rcases hv MODULE with e3 | ⟨p'', q'', h1'', h2''⟩ <;>
      simp only [*] <;> (try cases w a <;> rfl) <;> cases w a <;> cases w b <;> rfl
  case tlvInit k g' g r off len =>
    rcases hv g' with e1 | ⟨p, q, h1, h2⟩
    · simp only [e1]
    · congr 1; funext t x; congr 2; funext l
      rw [h1, h2]; cases tagAt w g <;> rfl
  case findStatic r off r' off' =>
    rw [PINless.arrayA hv]
    rcases hv r with e1 | ⟨p, q, h1, h2⟩
    · rw [e1]
    · rw [h1, h2]
  case newPair a b c alg len =>
    rcases hv a with e1 | ⟨p, q, h1, h2⟩ <;> rcases hv b with e2 | ⟨p', q', h1', h2'⟩ <;> rcases hv c with e3 | ⟨p'', q'', h1'', h2''⟩ <;>
      simp only [*] <;> (try cases w a <;> rfl) <;> cases w a <;> cases w b <;> rfl
  case pairOf a b c =>
    rcases hv b with e2 | ⟨p', q', h1', h2'⟩ <;> rcases hv c with e3 | ⟨p'', q'', h1'', h2''⟩ <;>
      simp only [*] <;> cases w b <;> rfl
  case genKeyPair a b c t =>
    rcases hv a with e1 | ⟨p, q, h1, h2⟩
    · rw [e1]
      cases w a with
      | pair x =>
        rcases hv b with e2 | ⟨p', q', h1', h2'⟩
        · rw [e2]
          cases w b with
          | free =>
            rcases hv c with e3 | ⟨p'', q'', h1'', h2''⟩
            · rw [e3]
              cases w c with
              | free =>
                rcases hv x.publicKey with e4 | ⟨p4, q4, h4, h4'⟩ <;> rcases hv x.privateKey with e5 | ⟨p5, q5, h5, h5'⟩
                · simp only [e4, e5]
                · simp only [e4, h5, h5']; cases w x.publicKey <;> rfl
                · simp only [h4, h4', e5]
                · simp only [h4, h4', h5, h5']
              | _ => rfl
            · rw [h1'', h2'']
          | _ => rfl
        · rw [h1', h2']
      | _ => rfl
    · rw [h1, h2]
  case rsaFinal c rnd r off len r' off' =>
    rcases hv c with e1 | ⟨p, q, h1, h2⟩
    · rw [e1]
      cases w c with
      | rsa x =>
        rcases hv r with e2 | ⟨p', q', h1', h2'⟩ <;> rcases hv r' with e3 | ⟨p'', q'', h1'', h2''⟩ <;>
        simp only [*] <;> cases w r <;> rfl
      | _ => rfl
    · rw [h1, h2]
  case bigCompare b c =>
    rcases hv b with e2 | ⟨p', q', h1', h2'⟩ <;> rcases hv c with e3 | ⟨p'', q'', h1'', h2''⟩ <;>
      simp only [*] <;> cases w b <;> rfl
  case aidRIDEquals b c =>
    rcases hv b with e2 | ⟨p', q', h1', h2'⟩ <;> rcases hv c with e3 | ⟨p'', q'', h1'', h2''⟩ <;>
      simp only [*] <;> cases w b <;> rfl
  case aidEq b c =>
    rcases hv b with e2 | ⟨p', q', h1', h2'⟩ <;> rcases hv c with e3 | ⟨p'', q'', h1'', h2''⟩ <;>
      simp only [*] <;> cases w b <;> rfl
  case pinCheck j arg off len => simp only [hpin j _ hs]
  case pinUpdate j arg off len => simp only [hpin j _ hs]
  case pinReset j => simp only [hpin j _ hs]
  case pinResetAndUnblock j => simp only [hpin j _ hs]
  case pinSetValidated j b => simp only [hpin j _ hs]
  case pinValidated j => rw [hi j hs]
  case pinTries j => rw [hi j hs]
  case setKey k r off => rcases hv k with e1 | ⟨p, q, h1, h2⟩ <;> simp only [*]
  case getKey k r off => rcases hv k with e1 | ⟨p, q, h1, h2⟩ <;> simp only [*]
  case setRSA k e r off len => rcases hv k with e1 | ⟨p, q, h1, h2⟩ <;> simp only [*]
  case getRSA k e r off => rcases hv k with e1 | ⟨p, q, h1, h2⟩ <;> simp only [*]
  case desInit c k m r off len => rcases hv c with e1 | ⟨p, q, h1, h2⟩ <;> simp only [*]
  case desFinal c r off len r' off' => rcases hv c with e1 | ⟨p, q, h1, h2⟩ <;> simp only [*]
  case digestUpdate c r off len => rcases hv c with e1 | ⟨p, q, h1, h2⟩ <;> simp only [*]
  case digestFinal c r off len r' off' => rcases hv c with e1 | ⟨p, q, h1, h2⟩ <;> simp only [*]
  case bigInit b r off len fmt => rcases hv b with e1 | ⟨p, q, h1, h2⟩ <;> simp only [*]
  case bigOp op b r off len fmt => rcases hv b with e1 | ⟨p, q, h1, h2⟩ <;> simp only [*]
  case bigCompareArray b r off len fmt => rcases hv b with e1 | ⟨p, q, h1, h2⟩ <;> simp only [*]
  case bigToBytes b r off len fmt => rcases hv b with e1 | ⟨p, q, h1, h2⟩ <;> simp only [*]
  case aidEquals a r off len => rcases hv a with e1 | ⟨p, q, h1, h2⟩ <;> simp only [*]
  case aidPartialEquals a r off len => rcases hv a with e1 | ⟨p, q, h1, h2⟩ <;> simp only [*]
  case aidGetBytes a r off => rcases hv a with e1 | ⟨p, q, h1, h2⟩ <;> simp only [*]
  case aidGetPartialBytes a ao r off len => rcases hv a with e1 | ⟨p, q, h1, h2⟩ <;> simp only [*]
  case setTheKey k t => rcases hv k with e1 | ⟨p, q, h1, h2⟩ <;> simp only [*]
  case clearKey k => rcases hv k with e1 | ⟨p, q, h1, h2⟩ <;> simp only [*]
  case askKey k q => rcases hv k with e1 | ⟨p, q, h1, h2⟩ <;> simp only [*]
  case getPublic k => rcases hv k with e1 | ⟨p, q, h1, h2⟩ <;> simp only [*]
  case getPrivate k => rcases hv k with e1 | ⟨p, q, h1, h2⟩ <;> simp only [*]
  case desInitDefault c k m => rcases hv c with e1 | ⟨p, q, h1, h2⟩ <;> simp only [*]
  case rsaInit c k m => rcases hv c with e1 | ⟨p, q, h1, h2⟩ <;> simp only [*]
  case cipherUpdate c => rcases hv c with e1 | ⟨p, q, h1, h2⟩ <;> simp only [*]
  case digestReset c => rcases hv c with e1 | ⟨p, q, h1, h2⟩ <;> simp only [*]
/-! ### The attacker -/

/-- The calls an attacker of the PIN at `i` may not make: those that set the PIN or unblock it. All other calls, on this and all other objects, are
allowed. -/
def Permitted (i : Nat) : Step → Prop
  | .pinUpdate j .. | .pinResetAndUnblock j => j ≠ i
  | .pinSetValidated j v => j = i → v = false
  | _ => True

/-- What an attacker sees in `n` calls on the card: each call with its outcome; the strategy `σ` chooses each call after the outcomes so far. A call
that does not return (`none`) ends the attack. -/
def cardAttack (env : CryptoEnv) (fuel : Nat) (σ : List (Except Err Card.Out) → Step) :
    Nat → Card → List (Except Err Card.Out) → List (Step × Option (Except Err Card.Out))
  | 0, _, _ => []
  | n + 1, w, seen => match step env fuel w (σ seen) with
    | none => [(σ seen, none)]
    | some (o, w') => (σ seen, some o) :: cardAttack env fuel σ n w' (seen ++ [o])

/-- The PIN at `i` was accepted. -/
def accepted (i : Nat) : Step × Option (Except Err Card.Out) → Bool
  | (.pinCheck j .., some (.ok (.bool true))) => j = i
  | _ => false

/-- The card with the object `o` at `i`. -/
def withObj (w : Card) (i : Nat) (o : Obj) : Card := fun r => if r = i then o else w r

/-- A permitted call on a PIN object: either it does not look at the PIN, or it compares it with one value, at the cost of a try. -/
theorem harmless_step (p : OwnerPIN) (op : Op) (h : Harmless op) (hv : p.validated = true → p.triesremaining = p.trylimit) (hl : p.triesremaining ≤ p.trylimit) :
    ∃ (G : List (List Int)) (o : OwnerPIN.Out) (q : OwnerPIN), G.length + q.triesremaining.toNat ≤ p.triesremaining.toNat ∧ o ≠ .checked (.ok true) ∧
      q.trylimit = p.trylimit ∧ (q.validated = true → q.triesremaining = q.trylimit) ∧ q.triesremaining ≤ q.trylimit ∧
      ∀ b, b ∉ G → OwnerPIN.step { p with pin := b } op = (o, { q with pin := b }) := by
  cases op with
  | update a o l => exact absurd h (by simp [Harmless])
  | resetAndUnblock => exact absurd h (by simp [Harmless])
  | setValidatedFlag v =>
    simp only [Harmless] at h
    subst h
    exact ⟨[], .done, { p with validated := false }, by simp, by simp, rfl, by simp, hl, fun b _ => rfl⟩
  | reset =>
    cases hpv : p.validated with
    | true =>
      refine ⟨[], .done, p.resetAndUnblock, ?_, by simp, rfl, by simp [OwnerPIN.resetAndUnblock], by simp [OwnerPIN.resetAndUnblock], fun b _ => ?_⟩
      · have := hv hpv; simp [OwnerPIN.resetAndUnblock]; omega
      · simp [OwnerPIN.step, OwnerPIN.reset, OwnerPIN.resetAndUnblock]
    | false =>
      exact ⟨[], .done, p, by simp, by simp, rfl, by simp [hpv], hl, fun b _ => by simp [OwnerPIN.step, OwnerPIN.reset, hpv]⟩
  | check a o l =>
    by_cases h0 : p.triesremaining ≤ 0
    · exact ⟨[], .checked (.ok false), { p with validated := false }, by simp, by simp, rfl, by simp, hl, fun b _ => by
        simp [OwnerPIN.step, OwnerPIN.check, h0]⟩
    · by_cases hr : (a.length : Int) < o ∨ (a.length : Int) < o + l
      · exact ⟨[], .checked (.error .arrayIndexOutOfBounds), { p with validated := false, triesremaining := p.triesremaining - 1 }, by simp, by simp,
          rfl, by simp, by simp; omega, fun b _ => by simp [OwnerPIN.step, OwnerPIN.check, h0, hr]⟩
      · cases hf : OwnerPIN.fill (fresh p.maxpinsize 0) a o l p.maxpinsize with
        | mk r buf =>
          cases r with
          | error e =>
            exact ⟨[], .checked (.error e), { p with validated := false }, by simp, by simp, rfl, by simp, hl, fun b _ => by
              simp [OwnerPIN.step, OwnerPIN.check, h0, hr, hf]⟩
          | ok u =>
            refine ⟨[buf], .checked (.ok false), { p with validated := false, triesremaining := p.triesremaining - 1 }, by simp; omega, by simp, rfl, by simp,
              by simp; omega, fun b hb => ?_⟩
            have hb : b ≠ buf := by simpa using hb
            simp [OwnerPIN.step, OwnerPIN.check, h0, hr, hf, hb]

theorem withObj_self (w : Card) (i : Nat) (o : Obj) : withObj w i o i = o := by simp [withObj]
theorem withObj_ne (w : Card) {i r : Nat} (o : Obj) (h : r ≠ i) : withObj w i o r = w r := by simp [withObj, h]

theorem put_withObj (us : List (Nat × Obj)) : ∀ (w : Card) (i r : Nat) (o : Obj), r ≠ i → (withObj w i o).put us r = w.put us r := by
  induction us with
  | nil => intro w i r o h; exact withObj_ne w o h
  | cons u us ih =>
    intro w i r o h
    obtain ⟨a, x⟩ := u
    show put (fun q => if q = a then x else withObj w i o q) us r = put (fun q => if q = a then x else w q) us r
    by_cases ha : i = a
    · subst ha
      have : (fun q => if q = i then x else withObj w i o q) = (fun q => if q = i then x else w q) := by
        funext q; by_cases hq : q = i <;> simp [withObj, hq]
      rw [this]
    · have : (fun q => if q = a then x else withObj w i o q) = withObj (fun q => if q = a then x else w q) i o := by
        funext q; by_cases hq : q = i
        · subst hq; simp [withObj, ha]
        · simp [withObj, hq]
      rw [this, ih _ i r o h]

theorem attack_card (env : CryptoEnv) (fuel : Nat) (i : Nat) (σ : List (Except Err Card.Out) → Step) (hσ : ∀ seen, Permitted i (σ seen)) (n : Nat) :
    ∀ (w : Card) (p : OwnerPIN) (seen : List (Except Err Card.Out)), w i = .pin p →
      (p.validated = true → p.triesremaining = p.trylimit) → p.triesremaining ≤ p.trylimit →
    ∃ (G : List (List Int)) (outs : List (Step × Option (Except Err Card.Out))), G.length ≤ p.triesremaining.toNat ∧ outs.any (accepted i) = false ∧
      ∀ b, b ∉ G → cardAttack env fuel σ n (withObj w i (.pin { p with pin := b })) seen = outs := by
  induction n with
  | zero => intro w p seen _ _ _; exact ⟨[], [], by simp, by simp, fun _ _ => rfl⟩
  | succ n ih =>
    intro w p seen hw hv hl
    have hs := hσ seen
    by_cases hon : onThePIN i (σ seen) = true
    · -- a call on this PIN
      have pure1 : ∀ o, (∀ b, step env fuel (withObj w i (.pin { p with pin := b })) (σ seen) = some (o, withObj w i (.pin { p with pin := b }))) →
          accepted i (σ seen, some o) = false →
          ∃ (G : List (List Int)) (outs : List (Step × Option (Except Err Card.Out))), G.length ≤ p.triesremaining.toNat ∧ outs.any (accepted i) = false ∧
            ∀ b, b ∉ G → cardAttack env fuel σ (n + 1) (withObj w i (.pin { p with pin := b })) seen = outs := by
        intro o ho ha
        obtain ⟨G, outs, h1, h2, h3⟩ := ih w p (seen ++ [o]) hw hv hl
        refine ⟨G, (σ seen, some o) :: outs, h1, by simp [ha, h2], fun b hb => ?_⟩
        simp only [cardAttack, ho b]
        rw [h3 b hb]
      have call : ∀ op, Harmless op → (∀ b, sem env fuel (withObj w i (.pin { p with pin := b })) (σ seen) =
            some (onPIN (withObj w i (.pin { p with pin := b })) i op)) →
          (∀ o, o ≠ .checked (.ok true) → accepted i (σ seen, some (pinOut o)) = false) →
          ∃ (G : List (List Int)) (outs : List (Step × Option (Except Err Card.Out))), G.length ≤ p.triesremaining.toNat ∧ outs.any (accepted i) = false ∧
            ∀ b, b ∉ G → cardAttack env fuel σ (n + 1) (withObj w i (.pin { p with pin := b })) seen = outs := by
        intro op hop hsem hacc
        obtain ⟨G0, o, q, h0, ho, hq1, hq2, hq3, hstep⟩ := harmless_step p op hop hv hl
        obtain ⟨G, outs, h1, h2, h3⟩ := ih (withObj w i (.pin q)) q (seen ++ [pinOut o]) (withObj_self ..) hq2 hq3
        refine ⟨G0 ++ G, (σ seen, some (pinOut o)) :: outs, by simp; omega, by simp [hacc o ho, h2], fun b hb => ?_⟩
        simp only [List.mem_append, not_or] at hb
        have e1 : step env fuel (withObj w i (.pin { p with pin := b })) (σ seen) =
            some (pinOut o, withObj (withObj w i (.pin q)) i (.pin { q with pin := b })) := by
          simp only [step, hsem b, onPIN, withObj_self, hstep b hb.1, Option.map_some, put]
          congr 2
          funext r
          by_cases hr : r = i <;> simp [withObj, hr]
        simp only [cardAttack, e1]
        rw [h3 b hb.2]
      cases hσs : σ seen with
      | pinCheck j arg off len =>
        have hj : j = i := by rw [hσs] at hon; simpa [onThePIN] using hon
        subst hj
        -- the argument is the same whatever the PIN
        have harg : ∀ b f, onPinArg (withObj w j (.pin { p with pin := b })) arg f = onPinArg w arg f := by
          intro b f
          cases arg with
          | inl _ => rfl
          | inr r =>
            simp only [onPinArg, onArray]
            by_cases hr : r = j
            · subst hr; rw [withObj_self, hw]
            · rw [withObj_ne _ _ hr]
        cases ha : pinArgAt w arg with
        | none =>
          refine pure1 (.error .nameError) (fun b => ?_) (by rw [hσs]; rfl)
          rw [hσs]
          simp only [step, sem, harg b]
          rw [onPinArg_eq, ha]
          simp [wrong, put]
        | some a =>
          refine call (.check a off len) trivial (fun b => ?_) (fun o ho => ?_)
          · rw [hσs]
            simp only [sem, harg b]
            rw [onPinArg_eq, ha]
            rfl
          · rw [hσs]
            cases o with
            | checked r =>
              cases r with
              | error e => rfl
              | ok c => cases c
                        · rfl
                        · exact absurd rfl ho
            | updated r => cases r <;> rfl
            | done => rfl
      | pinUpdate j arg off len =>
        rw [hσs] at hon hs
        exact absurd (by simpa [onThePIN] using hon) hs
      | pinResetAndUnblock j =>
        rw [hσs] at hon hs
        exact absurd (by simpa [onThePIN] using hon) hs
      | pinReset j =>
        have hj : j = i := by rw [hσs] at hon; simpa [onThePIN] using hon
        subst hj
        exact call .reset trivial (fun b => by rw [hσs]; rfl) (fun o _ => by rw [hσs]; rfl)
      | pinSetValidated j v =>
        have hj : j = i := by rw [hσs] at hon; simpa [onThePIN] using hon
        subst hj
        rw [hσs] at hs
        exact call (.setValidatedFlag v) (hs rfl) (fun b => by rw [hσs]; rfl) (fun o _ => by rw [hσs]; rfl)
      | pinValidated j =>
        have hj : j = i := by rw [hσs] at hon; simpa [onThePIN] using hon
        subst hj
        exact pure1 (.ok (.bool p.validated)) (fun b => by rw [hσs]; simp [step, sem, withObj_self, put, OwnerPIN.isValidated]) (by rw [hσs]; rfl)
      | pinTries j =>
        have hj : j = i := by rw [hσs] at hon; simpa [onThePIN] using hon
        subst hj
        exact pure1 (.ok (.int p.triesremaining)) (fun b => by rw [hσs]; simp [step, sem, withObj_self, put, OwnerPIN.getTriesRemaining]) (by rw [hσs]; rfl)
      | _ => rw [hσs] at hon; simp [onThePIN] at hon
    · -- any other call
      have hon : onThePIN i (σ seen) = false := by simpa using hon
      have hsem : ∀ b, sem env fuel (withObj w i (.pin { p with pin := b })) (σ seen) = sem env fuel w (σ seen) := fun b =>
        sem_pinless env fuel i (fun r hr => withObj_ne w _ hr) hw (withObj_self ..) _ hon
      have hnp : ∀ x, pinCall i x (σ seen) = none := by
        intro x
        cases hσs : σ seen <;> rw [hσs] at hon <;> simp only [pinCall]
        all_goals (simp only [onThePIN, decide_eq_false_iff_not] at hon; simp [hon])
      cases he : sem env fuel w (σ seen) with
      | none =>
        refine ⟨[], [(σ seen, none)], by simp, by cases σ seen <;> rfl, fun b _ => ?_⟩
        simp only [cardAttack, step, hsem b, he, Option.map_none]
      | some e =>
        have hk := (pin_step hw (σ seen) e he).2 (hnp w)
        obtain ⟨G, outs, h1, h2, h3⟩ := ih (w.put e.2) p (seen ++ [e.1]) hk hv hl
        refine ⟨G, (σ seen, some e.1) :: outs, h1, ?_, fun b hb => ?_⟩
        · have : accepted i (σ seen, some e.1) = false := by
            cases hσs : σ seen with
            | pinCheck j arg off len =>
              rw [hσs] at hon
              simp only [onThePIN, decide_eq_false_iff_not] at hon
              unfold accepted
              split
              · next h => simp only [Prod.mk.injEq, Step.pinCheck.injEq] at h; obtain ⟨⟨rfl, _⟩, _⟩ := h; simpa using hon
              · rfl
            | _ => rfl
          simp [this, h2]
        · have e2 : (withObj w i (.pin { p with pin := b })).put e.2 = withObj (w.put e.2) i (.pin { p with pin := b }) := by
            funext r
            by_cases hr : r = i
            · subst hr
              rw [withObj_self]
              exact (pin_step (withObj_self w r (.pin { p with pin := b })) (σ seen) e (by rw [hsem b, he])).2 (hnp _)
            · rw [withObj_ne _ _ hr, put_withObj _ _ _ _ _ hr]
          simp only [cardAttack, step, hsem b, he, Option.map_some, e2]
          rw [h3 b hb]

/-- Setting a PIN from a string. -/
theorem set_from_string (q : OwnerPIN) (m : Nat) (hm : q.maxpinsize = m) (hp : q.pin.length = m) (s : List Int) (hs : s.length ≤ m) :
    q.step (.update (.str s) 0 s.length) = (.updated (.ok ()),
      { q with validated := true, triesremaining := q.trylimit, pin := s ++ List.replicate (m - s.length) 0 }) := by
  have hf := OwnerPIN.fill_str q.pin s 0 s.length (by omega) (by omega)
  have hr : range s 0 s.length = s := by simp [range]
  rw [hr, hp] at hf
  simp only [OwnerPIN.step, OwnerPIN.update]
  rw [if_neg (by omega), if_neg (by simp [PinArg.length]), hm]
  simp only [Int.ofNat_zero] at hf
  rw [hf]

/-- **C123.** On any card, a PIN object is made, any program runs, and the PIN is set from a string. Then an attacker takes over the whole card: any number of
calls on all objects, lists included, each chosen after the outcomes so far, except setting or unblocking this PIN. The outcomes are the same, no
presentation being accepted, whatever the PIN is - with the exception of at most as many PINs as the try limit. So no call of the library on any object tells
anything else about the PIN. -/
theorem C123_learns (env : CryptoEnv) (fuel : Nat) (w0 w1 w : Card) (i limit m k : Nat) (hk : k ≤ m) (o : Except Err Card.Out) (hfree : w0 i = .free)
    (hnew : step env fuel w0 (.newPIN i limit m) = some (o, w1)) (before : List Step) (outs0 : List (Except Err Card.Out))
    (hrun : run env fuel w1 before = some (outs0, w))
    (σ : List (Except Err Card.Out) → Step) (hσ : ∀ seen, Permitted i (σ seen)) (n : Nat) :
    ∃ (guessed : List (List Int)) (outs : List (Step × Option (Except Err Card.Out))), guessed.length ≤ limit ∧ outs.any (accepted i) = false ∧
      ∀ s : List Int, s.length = k → ∃ ws, step env fuel w (.pinUpdate i (.inl s) 0 k) = some (.ok .nothing, ws) ∧
        (s ∉ guessed → cardAttack env fuel σ n ws [] = outs) := by
  have hw1 : w1 i = .pin (OwnerPIN.init limit m) := by
    simp only [step, sem, make, hfree, Option.map_some, Option.some.injEq, Prod.mk.injEq] at hnew
    rw [← hnew.2]; simp [put]
  obtain ⟨hq, _⟩ := C116_pin hrun hw1
  have hc := run_const (OwnerPIN.init limit m) (historyOf (pinCall i) env fuel w1 before)
  generalize (OwnerPIN.init limit m).run (historyOf (pinCall i) env fuel w1 before) = q at hq hc
  have ht : q.trylimit = limit := hc.1
  have hm : q.maxpinsize = m := hc.2.1
  have hp : q.pin.length = m := by rw [hc.2.2]; simp [OwnerPIN.init]
  obtain ⟨G, outs, h1, h2, h3⟩ := attack_card env fuel i σ hσ n
    (withObj w i (.pin { q with validated := true, triesremaining := q.trylimit })) { q with validated := true, triesremaining := q.trylimit } []
    (withObj_self ..) (fun _ => rfl) (Int.le_refl _)
  refine ⟨G.map (List.take k), outs, by simp only [List.length_map]; simp only [ht] at h1; simpa using h1, h2, fun s hs => ?_⟩
  subst hs
  refine ⟨withObj w i (.pin { q with validated := true, triesremaining := q.trylimit, pin := s ++ List.replicate (m - s.length) 0 }), ?_, fun hsg => ?_⟩
  · simp only [step, sem, onPinArg, onPIN, hq, set_from_string q m hm hp s hk, Option.map_some, pinOut, Except.map, put]
    congr 2
  · have := h3 (s ++ List.replicate (m - s.length) 0) (fun hmem => hsg (List.mem_map.2 ⟨_, hmem, by rw [List.take_left]⟩))
    rw [← this]
    congr 1
    funext r
    by_cases hr : r = i <;> simp [withObj, hr]

/-- **C123.** Among any number of different PINs of one length, an attacker with the whole card has at most as many accepted as there are tries. -/
theorem C123_attacker (env : CryptoEnv) (fuel : Nat) (w0 w1 w : Card) (i limit m k : Nat) (hk : k ≤ m) (o : Except Err Card.Out) (hfree : w0 i = .free)
    (hnew : step env fuel w0 (.newPIN i limit m) = some (o, w1)) (before : List Step) (outs0 : List (Except Err Card.Out))
    (hrun : run env fuel w1 before = some (outs0, w))
    (σ : List (Except Err Card.Out) → Step) (hσ : ∀ seen, Permitted i (σ seen)) (n : Nat)
    (pins : List (List Int)) (hd : pins.Nodup) (hpins : ∀ s ∈ pins, s.length = k)
    (hacc : ∀ s ∈ pins, ∃ ws, step env fuel w (.pinUpdate i (.inl s) 0 k) = some (.ok .nothing, ws) ∧
      (cardAttack env fuel σ n ws []).any (accepted i) = true) :
    pins.length ≤ limit := by
  obtain ⟨G, outs, h1, h2, h3⟩ := C123_learns env fuel w0 w1 w i limit m k hk o hfree hnew before outs0 hrun σ hσ n
  refine Nat.le_trans (nodup_length_le hd fun s hs => ?_) h1
  apply Classical.byContradiction
  intro hn
  obtain ⟨ws, e1, e2⟩ := hacc s hs
  obtain ⟨ws', e1', e2'⟩ := h3 s (hpins s hs)
  rw [e1] at e1'
  injection e1' with e1'
  injection e1' with _ e1'
  subst e1'
  rw [e2' hn, h2] at e2
  cases e2

private def attEnv : CryptoEnv := ⟨true, true, ⟨fun _ _ => .error .typeError, fun _ _ => .error .typeError⟩, fun _ _ => []⟩

/-- An attacker with a card: keeps a list, writes guesses into it, presents them as arrays and as strings, and asks the PIN in between. -/
def sneaky (i r : Nat) (seen : List (Except Err Card.Out)) : Step :=
  match seen.length % 4 with
  | 0 => .store r 3 (48 + seen.length / 4)
  | 1 => .pinTries i
  | 2 => .pinCheck i (.inl [48, 48, 48, 48 + seen.length / 4]) 0 4
  | _ => .pinReset i

/-- The hypotheses are met by this attacker on a card with a list at 1 and a PIN at 2. -/
example : (∀ seen, Permitted 2 (sneaky 2 1 seen)) ∧ (blank).put [(1, .array [0, 0, 0, 0])] 2 = .free ∧
    ((step attEnv 5 ((blank).put [(1, .array [0, 0, 0, 0])]) (.newPIN 2 3 8)).bind fun x => run attEnv 5 x.2 [.store 1 0 7, .pinTries 2]).map (·.1) =
      some [.ok .nothing, .ok (.int 0)] := by
  refine ⟨fun seen => ?_, rfl, by decide +kernel⟩
  unfold sneaky
  split <;> trivial

/-- And finds three of ten PINs, as the bound allows. -/
example : ((List.range 10).filter fun d : Nat =>
    match step attEnv 5 ((blank).put [(1, .array [0, 0, 0, 0]), (2, .pin (OwnerPIN.init 3 8))]) (.pinUpdate 2 (.inl [48, 48, 48, 48 + (d : Int)]) 0 4) with
    | some (_, ws) => (cardAttack attEnv 5 (sneaky 2 1) 40 ws []).any (accepted 2)
    | none => false).length = 3 := by decide +kernel

end Verif.Props
