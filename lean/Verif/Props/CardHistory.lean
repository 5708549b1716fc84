import Verif.Props.CardGraph
import Verif.Props.PIN
import Verif.Props.Digest
import Verif.Props.BigNumberHist
import Verif.Props.CipherHist
/-! C116: the histories of single objects, for which the other properties are stated, are what happens to an object on a card. -/
namespace Verif.Props
open Verif.Py Verif.Model Verif.Model.Card Verif.Spec Verif.Spec.Card

/-! ### What a call does to one object, from the call and the lists and keys on the card -/

/-- The calls of a program, each with the card it is made on, as far as they return. -/
def calls (env : CryptoEnv) (fuel : Nat) (w : Card) : List Step → List (Card × Step)
  | [] => []
  | s :: ss => (w, s) :: match step env fuel w s with
    | none => []
    | some (_, w') => calls env fuel w' ss

/-- The list at an address. -/
def listAt (w : Card) (r : Nat) : Option (List Int) :=
  match w r with
  | .array l => some l
  | _ => none

/-- An argument that may be `None`: `some none` is `None`, `none` an address without a list. -/
def optListAt (w : Card) : Option Nat → Option (Option (List Int))
  | none => some none
  | some r => (listAt w r).map some

/-- A PIN argument: characters or a list. -/
def pinArgAt (w : Card) : List Int ⊕ Nat → Option PinArg
  | .inl s => some (.str s)
  | .inr r => (listAt w r).map .arr

/-- The keys on the card. -/
def keysOn (w : Card) : KeyHeap := fun r =>
  match w r with
  | .key k => k
  | _ => .des (DESKey.new 0 0)

/-- A key argument: an address with a key, or something else. -/
def keyArgAt (w : Card) : Option Nat → KeyArg
  | none => .notKey
  | some r => match w r with
    | .key _ => .key r
    | _ => .notKey

/-- The call, if it changes the PIN at `i`. -/
def pinCall (i : Nat) (w : Card) : Step → Option OwnerPIN.Op
  | .pinCheck j arg off len => if j = i then (pinArgAt w arg).map fun a => .check a off len else none
  | .pinUpdate j arg off len => if j = i then (pinArgAt w arg).map fun a => .update a off len else none
  | .pinReset j => if j = i then some .reset else none
  | .pinResetAndUnblock j => if j = i then some .resetAndUnblock else none
  | .pinSetValidated j v => if j = i then some (.setValidatedFlag v) else none
  | _ => none

/-- The call, if it changes the digest object at `d`. -/
def digestCall (d : Nat) (w : Card) : Step → Option MessageDigest.Op
  | .digestUpdate j r off len => if j = d then (listAt w r).map fun l => .update l off len else none
  | .digestFinal j r off len r' off' => if j = d then (listAt w r).bind fun l => (listAt w r').map fun l' => .doFinal l off len l' off' else none
  | .digestReset j => if j = d then some .reset else none
  | _ => none

/-- Which arithmetic. -/
def numKind : BigOp → NumKind
  | .add => .add
  | .subtract => .subtract
  | .multiply => .multiply

/-- The call, if it changes the number at `b`. -/
def numCall (b : Nat) (w : Card) : Step → Option NumCall
  | .bigInit j r off len fmt => if j = b then (optListAt w r).map fun l => ⟨.init, l, off, len, fmt⟩ else none
  | .bigOp op j r off len fmt => if j = b then (optListAt w r).map fun l => ⟨numKind op, l, off, len, fmt⟩ else none
  | _ => none

/-- The call, if it is one of those that may change the RSA key at `k`. -/
def keyCall (k : Nat) (w : Card) : Step → Option RSAKey.Op
  | .setRSA j true r off len => if j = k then (listAt w r).map fun l => .setExponent l off len else none
  | .setRSA j false r off len => if j = k then (listAt w r).map fun l => .setModulus l off len else none
  | .setTheKey j t => if j = k then some (.setTheKey t) else none
  | .clearKey j => if j = k then some .clearKey else none
  | _ => none

/-- The call, if it is one on the DES cipher at `c`. -/
def desCall (c : Nat) (w : Card) : Step → Option DCall
  | .desInit j k mode r off len => if j = c then (listAt w r).map fun l => .init (keysOn w) (keyArgAt w k) mode l off len else none
  | .desInitDefault j k mode => if j = c then some (.initDefault (keysOn w) (keyArgAt w k) mode) else none
  | .desFinal j r off len r' off' => if j = c then (listAt w r).bind fun l => (listAt w r').map fun l' => .doFinal l off len l' off' else none
  | .cipherUpdate j => if j = c then some .update else none
  | _ => none

/-- The call, if it sets the key of the RSA cipher at `c`. -/
def rsaCall (c : Nat) (w : Card) : Step → Option InitCall
  | .rsaInit j k mode => if j = c then some ⟨keysOn w, keyArgAt w k, mode⟩ else none
  | _ => none

/-- The history of an object in a program: the calls on it, in their order, with what they were given. -/
def historyOf {α : Type} (call : Card → Step → Option α) (env : CryptoEnv) (fuel : Nat) (w : Card) (prog : List Step) : List α :=
  (calls env fuel w prog).filterMap fun c => call c.1 c.2

/-- What the caller of a PIN sees. -/
def pinAnswer : OwnerPIN.Out → Except Err Card.Out
  | .checked r => r.map .bool
  | .updated r => r.map fun _ => .nothing
  | .done => .ok .nothing

/-! ### Which kinds of objects a call changes or makes -/

/-- The kinds. -/
def changes : Step → List Kind
  | .newArray .. | .store .. | .arrayCopy .. | .arrayCopyNonAtomic .. | .arrayFill .. | .setShort .. | .setInt .. | .availableMemory .. | .random ..
  | .tagToBytes .. | .tagToBytesStatic .. | .appendStatic .. | .getValue .. | .tlvToBytes .. | .getKey .. | .getRSA .. | .rsaFinal .. | .bigToBytes .. | .aidGetBytes ..
  | .aidGetPartialBytes .. => [.array]
  | .newAPDU .. => [.apdu, .array, .apduModule]
  | .apdu .. | .sendBytesLong .. => [.apdu, .array]
  | .newTag .. | .tagGetInstance .. | .tagInitArray .. | .tagInitNumber .. => [.tag]
  | .newTLV .. | .tlvGetInstance .. | .tlvInit .. | .tlvInitArray .. | .append .. | .find .. | .findNext .. | .replaceValue .. => [.tlv, .tag]
  | .buildKey .. => [.rsaPublic, .rsaPrivate, .desKey]
  | .setKey .. => [.desKey]
  | .setRSA .. | .setTheKey .. => [.rsaPublic, .rsaPrivate]
  | .newPair .. | .genKeyPair .. => [.rsaPublic, .rsaPrivate, .pair]
  | .pairOf .. => [.pair]
  | .getCipher .. => [.des, .rsa]
  | .desInit .. | .desInitDefault .. => [.des]
  | .desFinal .. => [.des, .array]
  | .rsaInit .. => [.rsa]
  | .getDigest .. | .digestUpdate .. | .digestReset .. => [.digest]
  | .digestFinal .. => [.digest, .array]
  | .newPIN .. | .pinCheck .. | .pinUpdate .. | .pinReset .. | .pinResetAndUnblock .. | .pinSetValidated .. => [.pin]
  | .newBig .. | .bigInit .. | .bigOp .. => [.big]
  | .newAID .. => [.aid]
  | _ => []

theorem written (env : CryptoEnv) (fuel : Nat) (w : Card) (s : Step) : ∀ e, sem env fuel w s = some e → ∀ u ∈ e.2, kind u.2 ∈ changes s := by
  let P : Eff → Prop := fun e => ∀ u ∈ e.2, kind u.2 ∈ changes s
  show ∀ e, sem env fuel w s = some e → P e
  have hw : P wrong := fun u hu => by simp [wrong] at hu
  have h0 : ∀ o, P (o, []) := fun o u hu => by simp at hu
  have h1 : ∀ o r x, kind x ∈ changes s → P (o, [(r, x)]) := by
    intro o r x hx u hu
    simp only [List.mem_singleton] at hu
    subst hu; exact hx
  have h2 : ∀ o r x r' x', kind x ∈ changes s → kind x' ∈ changes s → P (o, [(r, x), (r', x')]) := by
    intro o r x r' x' hx hx' u hu
    simp only [List.mem_cons, List.not_mem_nil, or_false] at hu
    rcases hu with rfl | rfl
    · exact hx
    · exact hx'
  have h3 : ∀ o r x r' x' r'' x'', kind x ∈ changes s → kind x' ∈ changes s → kind x'' ∈ changes s → P (o, [(r, x), (r', x'), (r'', x'')]) := by
    intro o r x r' x' r'' x'' hx hx' hx'' u hu
    simp only [List.mem_cons, List.not_mem_nil, or_false] at hu
    rcases hu with rfl | rfl | rfl
    · exact hx
    · exact hx'
    · exact hx''
  have hfound : Kind.tlv ∈ changes s → Kind.tag ∈ changes s → ∀ k g x, P (found w k g x) := by
    intro ht hg k g x
    exact found_ind hw h0 (fun t _ => h1 _ _ _ ht) (fun tag t _ => h2 _ _ _ _ _ hg ht)
  have hapdu : Kind.apdu ∈ changes s → Kind.array ∈ changes s → ∀ a r b raw buf op x, P (apduStep a r b raw buf op x) := by
    intro ha hb a r b raw buf op x
    cases x with
    | full y => exact h3 _ _ _ _ _ _ _ ha hb hb
    | half y => exact h2 _ _ _ _ _ ha hb
  have hrsa : Kind.rsaPublic ∈ changes s → Kind.rsaPrivate ∈ changes s → ∀ x, kind (.key (.rsa x)) ∈ changes s := by
    intro ha hb x
    simp only [kind]
    split
    · exact ha
    · exact hb
  cases s
  case append k j =>
    simp only [sem]
    refine onTLV_ind hw fun t x ht _ _ => onTLV_ind hw fun t' x' _ _ _ e he => ?_
    simp only [Option.some.injEq] at he
    subst he
    exact h1 _ _ _ (by simp [changes, kind])
  case find k' g' k g =>
    simp only [sem]
    refine onTLV_ind hw fun t x ht _ _ e he => ?_
    split at he
    · injection he with he; subst he; exact hw
    · rw [Option.map_eq_some_iff] at he
      obtain ⟨y, _, rfl⟩ := he
      exact hfound (by simp [changes]) (by simp [changes]) _ _ _
  case findNext k' g' k g j n =>
    simp only [sem]
    refine onTLV_ind hw fun t x ht _ _ => onTLV_ind hw fun t' x' _ _ _ e he => ?_
    split at he
    · injection he with he; subst he; exact hw
    · rw [Option.map_eq_some_iff] at he
      obtain ⟨y, _, rfl⟩ := he
      exact hfound (by simp [changes]) (by simp [changes]) _ _ _
  case rsaFinal c rnd r off len r' off' =>
    intro e he
    simp only [sem] at he
    split at he
    · rw [Option.map_eq_some_iff] at he
      obtain ⟨y, _, rfl⟩ := he
      exact h1 _ _ _ (by simp [changes, kind])
    · injection he with he; subst he; exact hw
  case buildKey k args =>
    intro e he
    simp only [sem, Option.some.injEq] at he
    subst he
    split
    · exact h0 _
    · exact h0 _
    · next x _ =>
      refine make_ind hw fun hf => h1 _ _ _ ?_
      cases x with
      | rsa x => exact hrsa (by simp [changes]) (by simp [changes]) x
      | des x => simp [changes, kind]
  case newPair p i j alg len =>
    intro e he
    simp only [sem, Option.some.injEq] at he
    subst he
    repeat' first
      | exact hw
      | exact h0 _
      | exact h3 _ _ _ _ _ _ _ (by simp [changes, kind, RSAKey.new]) (by simp [changes, kind, RSAKey.new]) (by simp [changes, kind])
      | split
  case findStatic r off r' off' =>
    intro e he
    simp only [sem] at he
    split at he
    · rw [Option.map_eq_some_iff] at he
      obtain ⟨y, _, rfl⟩ := he
      exact h0 _
    · injection he with he; subst he; exact hw
  case genKeyPair p i j t =>
    intro e he
    simp only [sem, Option.some.injEq] at he
    subst he
    repeat' first
      | exact hw
      | exact h0 _
      | exact h3 _ _ _ _ _ _ _ (hrsa (by simp [changes]) (by simp [changes]) _) (hrsa (by simp [changes]) (by simp [changes]) _) (by simp [changes, kind])
      | split
      | unfold genPair
  case newAPDU a b r =>
    intro e he
    simp only [sem, Option.some.injEq] at he
    subst he
    repeat' first
      | exact hw
      | exact h0 _
      | exact h3 _ _ _ _ _ _ _ (by simp [changes, kind]) (by simp [changes, kind]) (by simp [changes, kind])
      | refine onArray_ind hw fun l hl => ?_
      | split
      | unfold newAPDU
  all_goals first
    | (intro e he
       simp only [sem, Option.some.injEq] at he
       subst he)
    | (simp only [sem]
       refine onTLV_ind hw fun t x ht _ _ e he => ?_
       simp only [Option.some.injEq] at he; subst he)
  all_goals
    repeat' first
      | exact hw
      | exact h0 _
      | exact h1 _ _ _ (by simp [changes, kind])
      | exact h1 _ _ _ (hrsa (by simp [changes]) (by simp [changes]) _)
      | exact h2 _ _ _ _ _ (by simp [changes, kind]) (by simp [changes, kind])
      | exact hfound (by simp [changes]) (by simp [changes]) _ _ _
      | exact hapdu (by simp [changes]) (by simp [changes]) _ _ _ _ _ _ _
      | refine onArray_ind hw fun l hl => ?_
      | refine onOptArray_ind hw fun l => ?_
      | refine onPinArg_ind hw fun l => ?_
      | refine onPIN_ind hw fun p o hp => ?_
      | refine onAPDU_ind hw fun r b raw buf x hx _ _ => ?_
      | refine make_ind hw fun hf => ?_
      | refine makeOrMap_ind hw (fun _ => h0 _) fun o hf => ?_
      | split

/-- An object of a kind the call does not change stays. -/
theorem unchanged {env : CryptoEnv} {fuel : Nat} {w : Card} {s : Step} {e : Eff} (he : sem env fuel w s = some e) {i : Nat} (hf : kind (w i) ≠ .free)
    (hk : kind (w i) ∉ changes s) : w.put e.2 i = w i := by
  rcases put_mem w e.2 i with h | ⟨u, hu, rfl, h⟩
  · exact h
  · exfalso
    rcases (card_tidy env fuel w s e he u hu).kind with hk' | hk'
    · exact hf (by rw [hk']; rfl)
    · exact hk (hk' ▸ written env fuel w s e he u hu)

theorem put_one (w : Card) (i : Nat) (x : Obj) : w.put [(i, x)] i = x := by simp [put]

theorem put_one_ne (w : Card) {i j : Nat} (x : Obj) (h : j ≠ i) : w.put [(j, x)] i = w i := by
  simp only [put]
  rw [if_neg (fun e => h e.symm)]

/-- Induction over a program, with the history of one object. -/
theorem history_ind {α : Type} {env : CryptoEnv} {fuel : Nat} (call : Card → Step → Option α) (P : List α → Card → Prop)
    (hstep : ∀ ops w s e, P ops w → sem env fuel w s = some e → P (ops ++ (call w s).toList) (w.put e.2)) :
    ∀ (prog : List Step) ops w outs w', run env fuel w prog = some (outs, w') → P ops w → P (ops ++ historyOf call env fuel w prog) w' := by
  intro prog
  induction prog with
  | nil =>
    intro ops w outs w' h hP
    simp only [run, Option.some.injEq, Prod.mk.injEq] at h
    rw [← h.2]
    simpa [historyOf, calls] using hP
  | cons s ss ih =>
    intro ops w outs w' h hP
    simp only [run, step] at h
    cases he : sem env fuel w s with
    | none => simp [he] at h
    | some e =>
      simp only [he, Option.map_some, Option.map_eq_some_iff, Prod.mk.injEq] at h
      obtain ⟨x, hx, _, h2⟩ := h
      have := ih _ (w.put e.2) x.1 w' (by rw [← h2]; exact hx) (hstep ops w s e hP he)
      rw [List.append_assoc] at this
      have hc : historyOf call env fuel w (s :: ss) = (call w s).toList ++ historyOf call env fuel (w.put e.2) ss := by
        simp only [historyOf, calls, step, he, Option.map_some, List.filterMap_cons]
        cases call w s <;> simp
      rw [hc]; exact this

/-! ### PINs -/

theorem onPinArg_eq (w : Card) (arg : List Int ⊕ Nat) (f : PinArg → Eff) : onPinArg w arg f = (pinArgAt w arg).elim wrong f := by
  cases arg with
  | inl s => rfl
  | inr r => simp only [onPinArg, onArray, pinArgAt, listAt]; cases w r <;> rfl

theorem pin_step {env : CryptoEnv} {fuel : Nat} {w : Card} {i : Nat} {p : OwnerPIN} (hp : w i = .pin p) (s : Step) (e : Eff)
    (he : sem env fuel w s = some e) :
    (∀ op, pinCall i w s = some op → e.1 = pinAnswer (p.step op).1 ∧ w.put e.2 i = .pin (p.step op).2) ∧
    (pinCall i w s = none → w.put e.2 i = .pin p) := by
  have hu : kind (w i) ∉ changes s → w.put e.2 i = .pin p := fun h => by rw [unchanged he (by simp [hp, kind]) h, hp]
  have hwr : w.put wrong.2 i = .pin p := hp
  have hon : ∀ j op, (j = i → (onPIN w j op).1 = pinAnswer (p.step op).1 ∧ w.put (onPIN w j op).2 i = .pin (p.step op).2) ∧
      (j ≠ i → w.put (onPIN w j op).2 i = .pin p) := by
    intro j op
    constructor
    · rintro rfl
      simp only [onPIN, hp]
      refine ⟨?_, put_one _ _ _⟩
      cases (p.step op).1 <;> rfl
    · intro hj
      unfold onPIN
      split
      · rw [put_one_ne _ _ hj, hp]
      · exact hwr
  cases s
  case newPIN j l m =>
    simp only [sem, Option.some.injEq] at he
    subst he
    refine ⟨fun op h => by simp [pinCall] at h, fun _ => ?_⟩
    refine make_ind (P := fun e => w.put e.2 i = .pin p) hwr fun hf => ?_
    rw [put_one_ne _ _ (fun e => by rw [e, hp] at hf; simp at hf), hp]
  case pinCheck j arg off len =>
    simp only [sem, Option.some.injEq] at he
    subst he
    rw [onPinArg_eq]
    simp only [pinCall]
    by_cases hj : j = i
    · rw [if_pos hj]
      cases pinArgAt w arg with
      | none => exact ⟨fun op h => by simp at h, fun _ => hwr⟩
      | some a =>
        refine ⟨fun op h => ?_, fun h => by simp at h⟩
        simp only [Option.map_some, Option.some.injEq] at h
        subst h
        exact (hon j _).1 hj
    · rw [if_neg hj]
      refine ⟨fun op h => by simp at h, fun _ => ?_⟩
      cases pinArgAt w arg with
      | none => exact hwr
      | some a => exact (hon j _).2 hj
  case pinUpdate j arg off len =>
    simp only [sem, Option.some.injEq] at he
    subst he
    rw [onPinArg_eq]
    simp only [pinCall]
    by_cases hj : j = i
    · rw [if_pos hj]
      cases pinArgAt w arg with
      | none => exact ⟨fun op h => by simp at h, fun _ => hwr⟩
      | some a =>
        refine ⟨fun op h => ?_, fun h => by simp at h⟩
        simp only [Option.map_some, Option.some.injEq] at h
        subst h
        exact (hon j _).1 hj
    · rw [if_neg hj]
      refine ⟨fun op h => by simp at h, fun _ => ?_⟩
      cases pinArgAt w arg with
      | none => exact hwr
      | some a => exact (hon j _).2 hj
  case pinReset j =>
    simp only [sem, Option.some.injEq] at he
    subst he
    simp only [pinCall]
    by_cases hj : j = i
    · rw [if_pos hj]
      exact ⟨fun op h => by simp only [Option.some.injEq] at h; subst h; exact (hon j _).1 hj, fun h => by simp at h⟩
    · rw [if_neg hj]
      exact ⟨fun op h => by simp at h, fun _ => (hon j _).2 hj⟩
  case pinResetAndUnblock j =>
    simp only [sem, Option.some.injEq] at he
    subst he
    simp only [pinCall]
    by_cases hj : j = i
    · rw [if_pos hj]
      exact ⟨fun op h => by simp only [Option.some.injEq] at h; subst h; exact (hon j _).1 hj, fun h => by simp at h⟩
    · rw [if_neg hj]
      exact ⟨fun op h => by simp at h, fun _ => (hon j _).2 hj⟩
  case pinSetValidated j v =>
    simp only [sem, Option.some.injEq] at he
    subst he
    simp only [pinCall]
    by_cases hj : j = i
    · rw [if_pos hj]
      exact ⟨fun op h => by simp only [Option.some.injEq] at h; subst h; exact (hon j _).1 hj, fun h => by simp at h⟩
    · rw [if_neg hj]
      exact ⟨fun op h => by simp at h, fun _ => (hon j _).2 hj⟩
  all_goals exact ⟨fun op h => by simp [pinCall] at h, fun _ => hu (by simp [hp, kind, changes])⟩

/-- **C116** (PINs). On a card, whatever other objects are used in between and however the lists that are passed change, a PIN is in the state its own calls
put it in, each with the contents its argument had at that moment; the next call on it answers as the PIN of that history does. -/
theorem C116_pin {env : CryptoEnv} {fuel : Nat} {w : Card} {prog : List Step} {outs : List (Except Err Card.Out)} {w' : Card}
    (h : run env fuel w prog = some (outs, w')) {i : Nat} {p : OwnerPIN} (hp : w i = .pin p) :
    let q := p.run (historyOf (pinCall i) env fuel w prog)
    w' i = .pin q ∧
    (∀ s op, pinCall i w' s = some op → ∃ w'', step env fuel w' s = some (pinAnswer (q.step op).1, w'')) ∧
    step env fuel w' (.pinValidated i) = some (.ok (.bool q.isValidated), w') ∧ step env fuel w' (.pinTries i) = some (.ok (.int q.getTriesRemaining), w') := by
  intro q
  have hq : w' i = .pin q := by
    refine history_ind (pinCall i) (fun ops v => v i = .pin (p.run ops)) ?_ prog [] w outs w' h hp
    intro ops v s e hv he
    have := pin_step hv s e he
    cases hc : pinCall i v s with
    | none => simpa using this.2 hc
    | some op =>
      rw [(this.1 op hc).2]
      simp [OwnerPIN.run]
  refine ⟨hq, ?_, ?_, ?_⟩
  · intro s op hs
    cases he : sem env fuel w' s with
    | none =>
      exfalso
      cases s <;> first | (simp [pinCall] at hs; done) | (simp [sem] at he; done)
    | some e =>
      exact ⟨_, by simp only [step, he, Option.map_some]; rw [((pin_step hq s e he).1 op hs).1]⟩
  · simp only [step, sem, hq, Option.map_some, put]
  · simp only [step, sem, hq, Option.map_some, put]

/-! A program that meets the hypotheses of `C116_pin`: a PIN in slot 1 is set from the array in slot 2, checked wrongly and rightly, while another PIN and the
array are used in between. -/

private def witEnv : CryptoEnv := ⟨true, true, ⟨fun _ _ => .ok 0, fun _ _ => .ok 0⟩, fun _ _ => []⟩

private def witPIN : List Step :=
  [.pinUpdate 1 (.inr 2) 0 4, .pinUpdate 3 (.inr 2) 1 3, .pinCheck 1 (.inr 2) 1 4, .store 2 0 9, .pinCheck 3 (.inr 2) 1 3, .pinCheck 1 (.inr 2) 0 4,
   .store 2 0 49, .pinCheck 1 (.inr 2) 0 4]

private def witStart : Card := blank.put [(1, .pin (OwnerPIN.init 3 8)), (2, .array [49, 50, 51, 52, 53]), (3, .pin (OwnerPIN.init 2 4))]

example : (run witEnv 0 witStart witPIN).map (·.1) = some
      [.ok .nothing, .ok .nothing, .ok (.bool false), .ok .nothing, .ok (.bool true), .ok (.bool false), .ok .nothing, .ok (.bool true)] ∧
    (historyOf (pinCall 1) witEnv 0 witStart witPIN).length = 4 := by decide +kernel

/-- The same program, told by `C116_pin`: after it the PIN is validated and has its three tries again. -/
example {outs : List (Except Err Card.Out)} {w' : Card} (h : run witEnv 0 witStart witPIN = some (outs, w')) :
    step witEnv 0 w' (.pinValidated 1) = some (.ok (.bool true), w') ∧ step witEnv 0 w' (.pinTries 1) = some (.ok (.int 3), w') := by
  obtain ⟨_, _, hv, ht⟩ := C116_pin h (i := 1) (p := OwnerPIN.init 3 8) rfl
  refine ⟨hv.trans (congrArg (fun b : Bool => some ((Except.ok (Card.Out.bool b) : Except Err Card.Out), w')) ?_), ht.trans (congrArg (fun n : Int => some ((Except.ok (Card.Out.int n) : Except Err Card.Out), w')) ?_)⟩ <;> decide +kernel

end Verif.Props
