import Verif.Props.CardExport
/-! C120: the histories of AIDs, tags, TLVs, DES keys and key pairs on a card, and the contents of lists. -/
namespace Verif.Props
open Verif.Py Verif.Model Verif.Model.Card Verif.Spec Verif.Spec.Card

/-! ### AIDs -/

/-- **C120** (AIDs). An AID made from a list has the bytes the list held at that moment; from then on, whatever a program does - with that list too - all
its answers are those of these bytes. -/
theorem C120_aid {env : CryptoEnv} {fuel : Nat} {w w1 w' : Card} {a r : Nat} {off len : Int} {l : List Int} (hl : listAt w r = some l) (ha : w a = .free)
    {o : Except Err Card.Out} (h1 : step env fuel w (.newAID a r off len) = some (o, w1)) {prog : List Step} {outs : List (Except Err Card.Out)}
    (h : run env fuel w1 prog = some (outs, w')) :
    (∀ e, AID.mk' l off len = .error e → o = .error e ∧ w1 = w) ∧
    ∀ x, AID.mk' l off len = .ok x → o = .ok (.ref a) ∧
      (∀ r' l', listAt w' r' = some l' → ∀ off' len',
        step env fuel w' (.aidEquals a r' off' len') = some ((x.equals l' off' len').map .bool, w') ∧
        step env fuel w' (.aidPartialEquals a r' off' len') = some ((x.partialEquals l' off' len').map .bool, w') ∧
        (∃ w'', step env fuel w' (.aidGetBytes a r' off') = some ((x.getBytes l' off').1.map .int, w'') ∧ listAt w'' r' = some (x.getBytes l' off').2) ∧
        ∀ aidOff, ∃ w'', step env fuel w' (.aidGetPartialBytes a aidOff r' off' len') = some ((x.getPartialBytes aidOff l' off' len').1.map .int, w'') ∧
          listAt w'' r' = some (x.getPartialBytes aidOff l' off' len').2) ∧
      ∀ b y, w' b = .aid y → step env fuel w' (.aidRIDEquals a b) = some (.ok (.bool (x.RIDEquals y)), w') ∧
        step env fuel w' (.aidEq a b) = some (.ok (.bool (x.eq y)), w') ∧
        step env fuel w' (.aidRIDEquals b a) = some (.ok (.bool (y.RIDEquals x)), w') ∧
        step env fuel w' (.aidEq b a) = some (.ok (.bool (y.eq x)), w') := by
  simp only [step, sem, onArray_eq, hl, Option.elim, Option.map_some, Option.some.injEq, Prod.mk.injEq] at h1
  obtain ⟨h1, h1'⟩ := h1
  constructor
  · intro e he
    rw [he] at h1 h1'
    simp only [Except.map, makeOr, put] at h1 h1'
    exact ⟨h1.symm, h1'.symm⟩
  · intro x hx
    rw [hx] at h1 h1'
    simp only [Except.map, makeOr, make, ha] at h1 h1'
    have hw1 : w1 a = .aid x := by rw [← h1']; exact put_one _ _ _
    have hw' := aid_stays h hw1
    refine ⟨h1.symm, ?_, ?_⟩
    · intro r' l' hl' off' len'
      refine ⟨?_, ?_, ⟨_, by simp only [step, sem, onArray_eq, hl', Option.elim, hw', Option.map_some]; rfl, ?_⟩, fun aidOff =>
        ⟨_, by simp only [step, sem, onArray_eq, hl', Option.elim, hw', Option.map_some]; rfl, ?_⟩⟩
      · simp only [step, sem, onArray_eq, hl', Option.elim, hw', Option.map_some, put]
      · simp only [step, sem, onArray_eq, hl', Option.elim, hw', Option.map_some, put]
      · exact array_listAt (put_one _ _ _)
      · exact array_listAt (put_one _ _ _)
    · intro b y hb
      refine ⟨?_, ?_, ?_, ?_⟩ <;> simp only [step, sem, hw', hb, Option.map_some, put]

/-! ### Tags -/

/-- The calls that change a tag. -/
inductive TagCall where
  | array (l : List Int) (off : Int)
  | number (tagClass tagNumber : Int)

/-- The call, if it changes the tag at `g`. -/
def tagCall (g : Nat) (w : Card) : Step → Option TagCall
  | .tagInitArray j r off => if j = g then (listAt w r).map fun l => .array l off else none
  | .tagInitNumber j c n => if j = g then some (.number c n) else none
  | _ => none

/-- The tag after one call. -/
def tagAfter (t : BERTag) : TagCall → BERTag
  | .array l off => (t.initArray l off).2
  | .number c n => t.initNumber c n

/-- What the call returns. -/
def tagAnswer (t : BERTag) : TagCall → Except Err Card.Out
  | .array l off => (t.initArray l off).1.map fun _ => .nothing
  | .number _ _ => .ok .nothing

theorem tagAt_of {w : Card} {g : Nat} {t : BERTag} (h : w g = .tag t) : tagAt w g = some t := by simp [tagAt, h]

theorem found_tag {w : Card} {g k g' : Nat} {t : BERTag} (hg : w g = .tag t) (x : Except Err (Option BERTLV)) : w.put (found w k g' x).2 g = .tag t := by
  unfold found makeTLV make
  repeat' split
  all_goals first
    | exact hg
    | (next hk => rw [put_one_ne _ _ (fun e => by rw [e, hg] at hk; simp at hk), hg])
    | (next hk hg' _ => rw [put_two_ne _ _ _ (fun e => by rw [e, hg] at hg'; simp at hg') (fun e => by rw [e, hg] at hk; simp at hk), hg])

theorem tlvTo_tag {w : Card} {g k : Nat} {t : BERTag} (hg : w g = .tag t) {t' : TLVRef} (hk : w k = .tlv t') (x : BERTLV) : w.put (tlvTo k t' x) g = .tag t := by
  unfold tlvTo
  rw [put_one_ne _ _ (fun e => by rw [e, hg] at hk; simp at hk), hg]

theorem tag_step {env : CryptoEnv} {fuel : Nat} {w : Card} {g : Nat} {t : BERTag} (ht : w g = .tag t) (s : Step) (e : Eff)
    (he : sem env fuel w s = some e) :
    (∀ op, tagCall g w s = some op → e.1 = tagAnswer t op ∧ w.put e.2 g = .tag (tagAfter t op)) ∧ (tagCall g w s = none → w.put e.2 g = .tag t) := by
  have hu : kind (w g) ∉ changes s → w.put e.2 g = .tag t := fun h => by rw [unchanged he (by simp [ht, kind]) h, ht]
  have hP : ∀ k (f : TLVRef → BERTLV → Option Eff), onTLV w k f = some e → (∀ t' x, w k = .tlv t' → f t' x = some e → w.put e.2 g = .tag t) → w.put e.2 g = .tag t := by
    intro k f h hf
    unfold onTLV at h
    split at h
    · next t' hk => exact hf t' _ hk h
    · injection h with h; subst h; exact ht
  cases s
  case newTag j c =>
    simp only [sem, Option.some.injEq] at he
    subst he
    refine ⟨fun op h => by simp [tagCall] at h, fun _ => ?_⟩
    refine make_ind (P := fun e => w.put e.2 g = .tag t) ht fun hf => ?_
    rw [put_one_ne _ _ (fun e => by rw [e, ht] at hf; simp at hf), ht]
  case tagGetInstance j r off =>
    simp only [sem, Option.some.injEq] at he
    subst he
    refine ⟨fun op h => by simp [tagCall] at h, fun _ => ?_⟩
    refine onArray_ind (P := fun e => w.put e.2 g = .tag t) ht fun l _ => ?_
    refine makeOrMap_ind (P := fun e => w.put e.2 g = .tag t) ht (fun _ => ht) fun o hf => ?_
    rw [put_one_ne _ _ (fun e => by rw [e, ht] at hf; simp at hf), ht]
  case tagInitArray j r off =>
    simp only [sem, Option.some.injEq] at he
    subst he
    simp only [tagCall]
    rw [onArray_eq]
    cases hl : listAt w r with
    | none => exact ⟨fun op h => by split at h <;> simp at h, fun _ => ht⟩
    | some l =>
      by_cases hj : j = g
      · subst hj
        rw [if_pos rfl]
        refine ⟨fun op h => ?_, fun h => by simp at h⟩
        simp only [Option.map_some, Option.some.injEq] at h
        subst h
        simp only [Option.elim, tagAt_of ht]
        exact ⟨rfl, put_one _ _ _⟩
      · rw [if_neg hj]
        refine ⟨fun op h => by simp at h, fun _ => ?_⟩
        simp only [Option.elim]
        split
        · exact ht
        · rw [put_one_ne _ _ hj, ht]
  case tagInitNumber j c n =>
    simp only [sem, Option.some.injEq] at he
    subst he
    simp only [tagCall]
    by_cases hj : j = g
    · subst hj
      rw [if_pos rfl]
      refine ⟨fun op h => ?_, fun h => by simp at h⟩
      simp only [Option.some.injEq] at h
      subst h
      simp only [tagAt_of ht]
      exact ⟨rfl, put_one _ _ _⟩
    · rw [if_neg hj]
      refine ⟨fun op h => by simp at h, fun _ => ?_⟩
      split
      · exact ht
      · rw [put_one_ne _ _ hj, ht]
  case newTLV k c =>
    simp only [sem, Option.some.injEq] at he
    subst he
    refine ⟨fun op h => by simp [tagCall] at h, fun _ => ?_⟩
    refine make_ind (P := fun e => w.put e.2 g = .tag t) ht fun hf => ?_
    rw [put_one_ne _ _ (fun e => by rw [e, ht] at hf; simp at hf), ht]
  case tlvGetInstance k g' r off len =>
    simp only [sem, Option.some.injEq] at he
    subst he
    exact ⟨fun op h => by simp [tagCall] at h, fun _ => onArray_ind (P := fun e => w.put e.2 g = .tag t) ht fun l _ => found_tag ht _⟩
  case tlvInit k g' g0 r off len =>
    simp only [sem] at he
    refine ⟨fun op h => by simp [tagCall] at h, fun _ => hP k _ he fun t' x hk h => ?_⟩
    simp only [Option.some.injEq] at h
    subst h
    refine onArray_ind (P := fun e => w.put e.2 g = .tag t) ht fun l _ => ?_
    split
    · next hf => rw [put_two_ne _ _ _ (fun e => by rw [e, ht] at hf; simp at hf) (fun e => by rw [e, ht] at hk; simp at hk), ht]
    · exact ht
  case tlvInitArray k r off len =>
    simp only [sem] at he
    refine ⟨fun op h => by simp [tagCall] at h, fun _ => hP k _ he fun t' x hk h => ?_⟩
    simp only [Option.some.injEq] at h
    subst h
    exact onArray_ind (P := fun e => w.put e.2 g = .tag t) ht fun l _ => tlvTo_tag ht hk _
  case append k j =>
    simp only [sem] at he
    refine ⟨fun op h => by simp [tagCall] at h, fun _ => hP k _ he fun t' x hk h => hP j _ h fun t'' y hj h => ?_⟩
    simp only [Option.some.injEq] at h
    subst h
    exact tlvTo_tag ht hk _
  case replaceValue k r off len =>
    simp only [sem] at he
    refine ⟨fun op h => by simp [tagCall] at h, fun _ => hP k _ he fun t' x hk h => ?_⟩
    simp only [Option.some.injEq] at h
    subst h
    exact onArray_ind (P := fun e => w.put e.2 g = .tag t) ht fun l _ => tlvTo_tag ht hk _
  case find k' g' k g0 =>
    simp only [sem] at he
    refine ⟨fun op h => by simp [tagCall] at h, fun _ => hP k _ he fun t' x hk h => ?_⟩
    split at h
    · injection h with h; subst h; exact ht
    · rw [Option.map_eq_some_iff] at h
      obtain ⟨y, _, rfl⟩ := h
      exact found_tag ht _
  case findNext k' g' k g0 j n =>
    simp only [sem] at he
    refine ⟨fun op h => by simp [tagCall] at h, fun _ => hP k _ he fun t' x hk h => hP j _ h fun t'' y hj h => ?_⟩
    split at h
    · injection h with h; subst h; exact ht
    · rw [Option.map_eq_some_iff] at h
      obtain ⟨y, _, rfl⟩ := h
      exact found_tag ht _
  all_goals exact ⟨fun op h => by simp [tagCall] at h, fun _ => hu (by simp [ht, kind, changes])⟩

/-- **C120** (tags). On a card a tag object is in the state its own `init` calls put it in, each with the contents its list had at that moment - also
when a TLV holds it; the next `init`, `toBytes` and `equals` are those of that history. -/
theorem C120_tag {env : CryptoEnv} {fuel : Nat} {w : Card} {prog : List Step} {outs : List (Except Err Card.Out)} {w' : Card}
    (h : run env fuel w prog = some (outs, w')) {g : Nat} {t : BERTag} (ht : w g = .tag t) :
    let q := (historyOf (tagCall g) env fuel w prog).foldl tagAfter t
    w' g = .tag q ∧
    (∀ s op, tagCall g w' s = some op → ∃ w'', step env fuel w' s = some (tagAnswer q op, w'')) ∧
    (∀ r off l, listAt w' r = some l →
      ∃ w'', step env fuel w' (.tagToBytes g r off) = some ((q.toBytes l off).1.map .int, w'') ∧ listAt w'' r = some (q.toBytes l off).2) ∧
    ∀ g' u, w' g' = .tag u → step env fuel w' (.tagEquals g g') = some (.ok (.bool (q.eq u)), w') ∧
      step env fuel w' (.tagEquals g' g) = some (.ok (.bool (u.eq q)), w') := by
  intro q
  have hq : w' g = .tag q := by
    refine history_ind (tagCall g) (fun ops v => v g = .tag (ops.foldl tagAfter t)) ?_ prog [] w outs w' h ht
    intro ops v s e hv he
    have := tag_step hv s e he
    cases hc : tagCall g v s with
    | none => simpa using this.2 hc
    | some op =>
      rw [(this.1 op hc).2]
      simp
  refine ⟨hq, ?_, ?_, ?_⟩
  · intro s op hs
    cases he : sem env fuel w' s with
    | none =>
      exfalso
      cases s <;> first | (simp [tagCall] at hs; done) | (simp [sem] at he; done)
    | some e => exact ⟨_, by simp only [step, he, Option.map_some]; rw [((tag_step hq s e he).1 op hs).1]⟩
  · intro r off l hl
    refine ⟨_, by simp only [step, sem, onArray_eq, hl, Option.elim, tagAt_of hq, Option.map_some]; rfl, array_listAt (put_one _ _ _)⟩
  · intro g' u hu
    constructor <;> simp only [step, sem, tagAt_of hq, tagAt_of hu, Option.map_some, put]

/-- A new tag is what its class makes; a tag read from a list what the list held at that moment. -/
theorem C120_tag_new {env : CryptoEnv} {fuel : Nat} {w : Card} {g : Nat} (hg : w g = .free) :
    (∀ c, ∃ w1, step env fuel w (.newTag g c) = some (.ok (.ref g), w1) ∧ w1 g = .tag (BERTag.new c)) ∧
    ∀ r off l, listAt w r = some l →
      (∀ t, BERTag.getInstance l off = .ok t → ∃ w1, step env fuel w (.tagGetInstance g r off) = some (.ok (.ref g), w1) ∧ w1 g = .tag t) ∧
      ∀ e, BERTag.getInstance l off = .error e → step env fuel w (.tagGetInstance g r off) = some (.error e, w) := by
  refine ⟨fun c => ⟨_, by simp only [step, sem, make, hg, Option.map_some]; rfl, put_one _ _ _⟩, fun r off l hl => ⟨fun t ht => ⟨w.put [(g, .tag t)], ?_, put_one _ _ _⟩, fun e he => ?_⟩⟩
  · simp only [step, sem, onArray_eq, hl, Option.elim, ht, Except.map, makeOr, make, hg, Option.map_some]
  · simp only [step, sem, onArray_eq, hl, Option.elim, he, Except.map, makeOr, Option.map_some, put]

/-! ### TLVs -/

/-- The calls that change a TLV; `append` with what the other TLV holds at that moment, its tag included, `init` with the address of the new copy of the tag. -/
inductive TLVCall where
  | init (newTag : Nat) (l : List Int) (off len : Int)
  | append (child : BERTLV)
  | replaceValue (l : List Int) (off len : Int)

/-- What the TLV at `k` holds, its tag included. -/
def tlvAt (w : Card) (k : Nat) : Option BERTLV :=
  match w k with
  | .tlv t => some ⟨t.constructed, t.tag.bind (tagAt w), t.length, t.value⟩
  | _ => none

/-- The call, if it may change the TLV at `k`. -/
def tlvCall (k : Nat) (w : Card) : Step → Option TLVCall
  | .tlvInit j g' g r off len => if j = k then match listAt w r, tagAt w g, w g' with
    | some l, some _, .free => some (.init g' l off len)
    | _, _, _ => none
    else none
  | .append j i => if j = k then (tlvAt w i).map .append else none
  | .replaceValue j r off len => if j = k then (listAt w r).map fun l => .replaceValue l off len else none
  | _ => none

/-- The TLV after one call. The tag plays no part in the length and the value, so they are computed for a TLV without one. -/
def tlvAfter (t : TLVRef) : TLVCall → TLVRef
  | .init g l off len => ⟨t.constructed, some g, len, some (slice l off (off + len))⟩
  | .append child =>
    let y := (BERTLV.append ⟨t.constructed, none, t.length, t.value⟩ child).2
    { t with length := y.length, value := y.value }
  | .replaceValue l off len =>
    let y := (BERTLV.replaceValue ⟨t.constructed, none, t.length, t.value⟩ l off len).2
    { t with length := y.length, value := y.value }

theorem append_any_tag (c : Bool) (g g' : Option BERTag) (n : Int) (v : Option (List Int)) (y : BERTLV) :
    (BERTLV.append ⟨c, g, n, v⟩ y).2.length = (BERTLV.append ⟨c, g', n, v⟩ y).2.length ∧
    (BERTLV.append ⟨c, g, n, v⟩ y).2.value = (BERTLV.append ⟨c, g', n, v⟩ y).2.value := by
  unfold BERTLV.append
  simp only
  by_cases hc : ¬ c = true
  · rw [if_pos hc, if_pos hc]; exact ⟨rfl, rfl⟩
  rw [if_neg hc, if_neg hc]
  cases y.size with
  | error e => exact ⟨rfl, rfl⟩
  | ok m =>
    simp only
    obtain ⟨o, b⟩ := y.toBytes (fresh m 0) 0
    cases o with
    | error e => exact ⟨rfl, rfl⟩
    | ok z => cases v <;> exact ⟨rfl, rfl⟩

theorem replace_any_tag (c : Bool) (g g' : Option BERTag) (n : Int) (v : Option (List Int)) (l : List Int) (off len : Int) :
    (BERTLV.replaceValue ⟨c, g, n, v⟩ l off len).2.length = (BERTLV.replaceValue ⟨c, g', n, v⟩ l off len).2.length ∧
    (BERTLV.replaceValue ⟨c, g, n, v⟩ l off len).2.value = (BERTLV.replaceValue ⟨c, g', n, v⟩ l off len).2.value := by
  unfold BERTLV.replaceValue
  simp only
  by_cases hc : c = true
  · rw [if_pos hc, if_pos hc]; exact ⟨rfl, rfl⟩
  rw [if_neg hc, if_neg hc]
  obtain ⟨o, b⟩ := Util.arrayCopy l off (fresh len 0) 0 len
  cases o <;> exact ⟨rfl, rfl⟩

theorem onTLV_eq (w : Card) (k : Nat) (f : TLVRef → BERTLV → Option Eff) :
    onTLV w k f = match w k with
      | .tlv t => f t ⟨t.constructed, t.tag.bind (tagAt w), t.length, t.value⟩
      | _ => some wrong := rfl

theorem found_tlv {w : Card} {k k' g' : Nat} {t : TLVRef} (hk : w k = .tlv t) (x : Except Err (Option BERTLV)) : w.put (found w k' g' x).2 k = .tlv t := by
  unfold found makeTLV make
  repeat' split
  all_goals first
    | exact hk
    | (next hf => rw [put_one_ne _ _ (fun e => by rw [e, hk] at hf; simp at hf), hk])
    | (next hf hg' _ => rw [put_two_ne _ _ _ (fun e => by rw [e, hk] at hg'; simp at hg') (fun e => by rw [e, hk] at hf; simp at hf), hk])

theorem tlv_step {env : CryptoEnv} {fuel : Nat} {w : Card} {k : Nat} {t : TLVRef} (ht : w k = .tlv t) (s : Step) (e : Eff)
    (he : sem env fuel w s = some e) :
    (∀ op, tlvCall k w s = some op → w.put e.2 k = .tlv (tlvAfter t op)) ∧ (tlvCall k w s = none → w.put e.2 k = .tlv t) := by
  have hu : kind (w k) ∉ changes s → w.put e.2 k = .tlv t := fun h => by rw [unchanged he (by simp [ht, kind]) h, ht]
  cases s
  case newTag j c =>
    simp only [sem, Option.some.injEq] at he
    subst he
    refine ⟨fun op h => by simp [tlvCall] at h, fun _ => ?_⟩
    refine make_ind (P := fun e => w.put e.2 k = .tlv t) ht fun hf => ?_
    rw [put_one_ne _ _ (fun e => by rw [e, ht] at hf; simp at hf), ht]
  case newTLV j c =>
    simp only [sem, Option.some.injEq] at he
    subst he
    refine ⟨fun op h => by simp [tlvCall] at h, fun _ => ?_⟩
    refine make_ind (P := fun e => w.put e.2 k = .tlv t) ht fun hf => ?_
    rw [put_one_ne _ _ (fun e => by rw [e, ht] at hf; simp at hf), ht]
  case tlvGetInstance j g' r off len =>
    simp only [sem, Option.some.injEq] at he
    subst he
    exact ⟨fun op h => by simp [tlvCall] at h, fun _ => onArray_ind (P := fun e => w.put e.2 k = .tlv t) ht fun l _ => found_tlv ht _⟩
  case tlvInit j g' g r off len =>
    simp only [sem, onTLV_eq] at he
    simp only [tlvCall]
    by_cases hj : j = k
    · subst hj
      rw [if_pos rfl]
      simp only [ht, Option.some.injEq, onArray_eq] at he
      subst he
      cases hl : listAt w r with
      | none => exact ⟨fun op h => by simp at h, fun _ => ht⟩
      | some l =>
        simp only [Option.elim]
        cases hg : tagAt w g with
        | none => exact ⟨fun op h => by simp at h, fun _ => ht⟩
        | some tag =>
          cases hg' : w g' with
          | free =>
            simp only
            refine ⟨fun op h => ?_, fun h => by simp at h⟩
            simp only [Option.some.injEq] at h
            subst h
            exact put_two _ _ _ _ _
          | _ => exact ⟨fun op h => by simp at h, fun _ => ht⟩
    · rw [if_neg hj]
      refine ⟨fun op h => by simp at h, fun _ => ?_⟩
      split at he
      · simp only [Option.some.injEq] at he
        subst he
        refine onArray_ind (P := fun e => w.put e.2 k = .tlv t) ht fun l _ => ?_
        split
        · next hf => rw [put_two_ne _ _ _ (fun e => by rw [e, ht] at hf; simp at hf) hj, ht]
        · exact ht
      · injection he with he; subst he; exact ht
  case tlvInitArray j r off len =>
    simp only [sem, onTLV_eq] at he
    refine ⟨fun op h => by simp [tlvCall] at h, fun _ => ?_⟩
    split at he
    · next t' hj =>
      simp only [Option.some.injEq] at he
      subst he
      refine onArray_ind (P := fun e => w.put e.2 k = .tlv t) ht fun l _ => ?_
      have hsame : ∀ x : BERTLV, (x.initArray l off len).2 = x := by
        intro x; unfold BERTLV.initArray; split <;> rfl
      unfold tlvTo
      rw [hsame]
      by_cases hjk : j = k
      · subst hjk
        rw [ht] at hj
        injection hj with hj
        subst hj
        exact put_one _ _ _
      · rw [put_one_ne _ _ hjk, ht]
    · injection he with he; subst he; exact ht
  case append j i =>
    simp only [sem, onTLV_eq] at he
    simp only [tlvCall]
    by_cases hj : j = k
    · subst hj
      rw [if_pos rfl]
      simp only [ht] at he
      unfold tlvAt
      split at he
      · next y hy =>
        refine ⟨fun op h => ?_, fun h => by simp at h⟩
        simp only [Option.map_some, Option.some.injEq] at h he
        subst h he
        unfold tlvTo
        rw [put_one]
        have := append_any_tag t.constructed (t.tag.bind (tagAt w)) none t.length t.value ⟨y.constructed, y.tag.bind (tagAt w), y.length, y.value⟩
        simp only [tlvAfter]
        rw [this.1, this.2]
      · next hy =>
        injection he with he
        subst he
        exact ⟨fun op h => by simp at h, fun _ => ht⟩
    · rw [if_neg hj]
      refine ⟨fun op h => by simp at h, fun _ => ?_⟩
      split at he
      · split at he
        · simp only [Option.some.injEq] at he
          subst he
          unfold tlvTo
          rw [put_one_ne _ _ hj, ht]
        · injection he with he; subst he; exact ht
      · injection he with he; subst he; exact ht
  case replaceValue j r off len =>
    simp only [sem, onTLV_eq] at he
    simp only [tlvCall]
    by_cases hj : j = k
    · subst hj
      rw [if_pos rfl]
      simp only [ht, Option.some.injEq, onArray_eq] at he
      subst he
      cases hl : listAt w r with
      | none => exact ⟨fun op h => by simp at h, fun _ => ht⟩
      | some l =>
        refine ⟨fun op h => ?_, fun h => by simp at h⟩
        simp only [Option.map_some, Option.some.injEq] at h
        subst h
        simp only [Option.elim]
        unfold tlvTo
        rw [put_one]
        have := replace_any_tag t.constructed (t.tag.bind (tagAt w)) none t.length t.value l off len
        simp only [tlvAfter]
        rw [this.1, this.2]
    · rw [if_neg hj]
      refine ⟨fun op h => by simp at h, fun _ => ?_⟩
      split at he
      · simp only [Option.some.injEq] at he
        subst he
        refine onArray_ind (P := fun e => w.put e.2 k = .tlv t) ht fun l _ => ?_
        unfold tlvTo
        rw [put_one_ne _ _ hj, ht]
      · injection he with he; subst he; exact ht
  case find k' g' j g =>
    simp only [sem, onTLV_eq] at he
    refine ⟨fun op h => by simp [tlvCall] at h, fun _ => ?_⟩
    split at he
    · split at he
      · injection he with he; subst he; exact ht
      · rw [Option.map_eq_some_iff] at he
        obtain ⟨y, _, rfl⟩ := he
        exact found_tlv ht _
    · injection he with he; subst he; exact ht
  case findNext k' g' j g i n =>
    simp only [sem, onTLV_eq] at he
    refine ⟨fun op h => by simp [tlvCall] at h, fun _ => ?_⟩
    split at he
    · split at he
      · split at he
        · injection he with he; subst he; exact ht
        · rw [Option.map_eq_some_iff] at he
          obtain ⟨y, _, rfl⟩ := he
          exact found_tlv ht _
      · injection he with he; subst he; exact ht
    · injection he with he; subst he; exact ht
  all_goals exact ⟨fun op h => by simp [tlvCall] at h, fun _ => hu (by simp [ht, kind, changes])⟩

/-- What the end of `find` and `findNext` looks like: nothing found, an exception, or a new TLV with a new tag. -/
def Finds (env : CryptoEnv) (fuel : Nat) (w : Card) (s : Step) (k g : Nat) (x : Option (Except Err (Option BERTLV))) : Prop :=
  (x = none → step env fuel w s = none) ∧
  (∀ e, x = some (.error e) → step env fuel w s = some (.error e, w)) ∧
  (x = some (.ok none) → step env fuel w s = some (.ok .nothing, w)) ∧
  ∀ y tag, x = some (.ok (some y)) → y.tag = some tag → w k = .free → w g = .free → k ≠ g →
    ∃ w', step env fuel w s = some (.ok (.ref k), w') ∧ w' k = .tlv ⟨y.constructed, some g, y.length, y.value⟩ ∧ w' g = .tag tag ∧
      ∀ i, i ≠ k → i ≠ g → w' i = w i

theorem finds {env : CryptoEnv} {fuel : Nat} {w : Card} {s : Step} {k g : Nat} {x : Option (Except Err (Option BERTLV))}
    (h : sem env fuel w s = x.map (found w k g)) : Finds env fuel w s k g x := by
  refine ⟨fun hx => ?_, fun e hx => ?_, fun hx => ?_, fun y tag hx ht hk hg hne => ?_⟩
  · subst hx; simp only [step, h, Option.map_none]
  · subst hx; simp only [step, h, Option.map_some, found, put]
  · subst hx; simp only [step, h, Option.map_some, found, put]
  · subst hx
    refine ⟨w.put [(g, .tag tag), (k, .tlv ⟨y.constructed, some g, y.length, y.value⟩)], ?_, put_two _ _ _ _ _, put_two_first _ _ _ (Ne.symm hne),
      fun i hi hj => put_two_ne _ _ _ (Ne.symm hj) (Ne.symm hi)⟩
    simp only [step, h, Option.map_some, found, makeTLV, ht, hk, hg, if_neg hne]

/-- **C120** (TLVs). On a card a TLV object has the length, the value and the tag object its own calls gave it, each with what its list - for `append` the
other TLV, its tag included - held at that moment. Together with the state its tag object is in (`C120_tag`) this is what all its answers are made from. -/
theorem C120_tlv {env : CryptoEnv} {fuel : Nat} {w : Card} {prog : List Step} {outs : List (Except Err Card.Out)} {w' : Card}
    (h : run env fuel w prog = some (outs, w')) {k : Nat} {t : TLVRef} (ht : w k = .tlv t) :
    let q := (historyOf (tlvCall k) env fuel w prog).foldl tlvAfter t
    w' k = .tlv q ∧
    ∀ x : BERTLV, x = ⟨q.constructed, q.tag.bind (tagAt w'), q.length, q.value⟩ →
      step env fuel w' (.getTag k) = some (.ok (q.tag.elim .nothing .ref), w') ∧
      step env fuel w' (.tlvSize k) = some (x.size.map .int, w') ∧
      (∀ r off l, listAt w' r = some l →
        (∃ w'', step env fuel w' (.getValue k r off) = some ((x.getValue l off).1.map .int, w'') ∧ listAt w'' r = some (x.getValue l off).2) ∧
        (∃ w'', step env fuel w' (.tlvToBytes k r off) = some ((x.toBytes l off).1.map .int, w'') ∧ listAt w'' r = some (x.toBytes l off).2) ∧
        ∀ len, (∃ w'', step env fuel w' (.replaceValue k r off len) = some ((x.replaceValue l off len).1.map fun _ => .nothing, w'')) ∧
          (∃ w'', step env fuel w' (.tlvInitArray k r off len) = some ((x.initArray l off len).1.map .int, w'')) ∧
          ∀ g tag g', w' g = .tag tag → w' g' = .free →
            ∃ w'', step env fuel w' (.tlvInit k g' g r off len) = some ((x.initTag tag l off len).size.map .int, w'') ∧ w'' g' = .tag tag) ∧
      (∀ j y, tlvAt w' j = some y → ∃ w'', step env fuel w' (.append k j) = some ((x.append y).1.map .int, w'')) ∧
      ∀ k' g', Finds env fuel w' (.find k' g' k none) k' g' (x.find none fuel) ∧
        (∀ g tag, w' g = .tag tag → Finds env fuel w' (.find k' g' k (some g)) k' g' (x.find (some tag) fuel)) ∧
        ∀ j y n, tlvAt w' j = some y → Finds env fuel w' (.findNext k' g' k none j n) k' g' (x.findNext none y n fuel) ∧
          ∀ g tag, w' g = .tag tag → Finds env fuel w' (.findNext k' g' k (some g) j n) k' g' (x.findNext (some tag) y n fuel) := by
  intro q
  have hq : w' k = .tlv q := by
    refine history_ind (tlvCall k) (fun ops v => v k = .tlv (ops.foldl tlvAfter t)) ?_ prog [] w outs w' h ht
    intro ops v s e hv he
    have := tlv_step hv s e he
    cases hc : tlvCall k v s with
    | none => simpa using this.2 hc
    | some op =>
      rw [this.1 op hc]
      simp
  have hat : ∀ j y, tlvAt w' j = some y → ∃ t', w' j = .tlv t' ∧ y = ⟨t'.constructed, t'.tag.bind (tagAt w'), t'.length, t'.value⟩ := by
    intro j y hy
    unfold tlvAt at hy
    split at hy
    · next t' ht' => injection hy with hy; exact ⟨t', ht', hy.symm⟩
    · simp at hy
  refine ⟨hq, ?_⟩
  rintro x hx
  have hon : ∀ f, onTLV w' k f = f q x := by intro f; rw [onTLV_eq, hq, hx]
  have hon' : ∀ j y, tlvAt w' j = some y → ∀ f : BERTLV → Option Eff, onTLV w' j (fun _ => f) = f y := by
    intro j y hy f
    obtain ⟨t', h1, rfl⟩ := hat j y hy
    rw [onTLV_eq, h1]
  refine ⟨?_, ?_, ?_, ?_, ?_⟩
  · simp only [step, sem, hon, Option.map_some, put]
  · simp only [step, sem, hon, Option.map_some, put]
  · intro r off l hl
    refine ⟨⟨_, by simp only [step, sem, hon, onArray_eq, hl, Option.elim, Option.map_some]; rfl, array_listAt (put_one _ _ _)⟩,
      ⟨_, by simp only [step, sem, hon, onArray_eq, hl, Option.elim, Option.map_some]; rfl, array_listAt (put_one _ _ _)⟩, fun len => ⟨?_, ?_, ?_⟩⟩
    · exact ⟨_, by simp only [step, sem, hon, onArray_eq, hl, Option.elim, Option.map_some]; rfl⟩
    · exact ⟨_, by simp only [step, sem, hon, onArray_eq, hl, Option.elim, Option.map_some]; rfl⟩
    · intro g tag g' hg hg'
      refine ⟨_, by simp only [step, sem, hon, onArray_eq, hl, Option.elim, tagAt_of hg, hg', Option.map_some]; rfl, ?_⟩
      exact put_two_first _ _ _ (fun e => by rw [e, hq] at hg'; simp at hg')
  · intro j y hy
    exact ⟨_, by simp only [step, sem, hon]; rw [hon' j y hy]; simp only [Option.map_some]; rfl⟩
  · intro k' g'
    refine ⟨finds ?_, fun g tag hg => finds ?_, fun j y n hy => ⟨finds ?_, fun g tag hg => finds ?_⟩⟩
    · simp only [sem, hon, tagArg]
    · simp only [sem, hon, tagArg, tagAt_of hg, Option.map_some]
    · simp only [sem, hon]
      rw [hon' j y hy]
      simp only [tagArg]
    · simp only [sem, hon]
      rw [hon' j y hy]
      simp only [tagArg, tagAt_of hg, Option.map_some]

/-- A new TLV is empty; a TLV read from a list has the tag and the value the list held at that moment. -/
theorem C120_tlv_new {env : CryptoEnv} {fuel : Nat} {w : Card} {k g : Nat} (hk : w k = .free) :
    (∀ c, ∃ w1, step env fuel w (.newTLV k c) = some (.ok (.ref k), w1) ∧ w1 k = .tlv ⟨c, none, 0, none⟩) ∧
    ∀ r off len l, listAt w r = some l → Finds env fuel w (.tlvGetInstance k g r off len) k g (some ((BERTLV.getInstance l off len).map some)) := by
  refine ⟨fun c => ⟨_, by simp only [step, sem, make, hk, Option.map_some]; rfl, put_one _ _ _⟩, fun r off len l hl => finds ?_⟩
  simp only [sem, onArray_eq, hl, Option.elim, Option.map_some]

/-! ### Programs that meet the hypotheses -/

private def witEnv : CryptoEnv := ⟨true, true, ⟨fun _ y => .ok y.toNat, fun _ y => .ok y.toNat⟩, fun _ m => m.take 2⟩

private def witCard : Card := blank.put [(1, .array [1, 2, 0x5F, 0x21, 3, 7, 8, 9]), (2, .array (List.replicate 10 0)), (3, .tag (BERTag.new false)),
  (4, .tlv ⟨false, none, 0, none⟩)]

/-- A tag and a TLV, each used after the array they came from has changed. -/
private def witProg : List Step :=
  [.tagInitArray 3 1 2, .store 1 2 0, .tlvInit 4 5 3 1 5 3, .store 1 6 0x55, .tagInitNumber 3 1 40, .tlvToBytes 4 2 0, .tagToBytes 3 2 7]

example : (run witEnv 0 witCard witProg).map (·.1) = some [.ok .nothing, .ok .nothing, .ok (.int 5), .ok .nothing, .ok .nothing, .ok (.int 6), .ok (.int 2)] ∧
    (run witEnv 0 witCard witProg).map (fun x => listAt x.2 2) = some (some [0x5F, 0x21, 3, 7, 8, 9, 0, 0x5F, 40, 0]) := by decide +kernel

example : witCard 3 = .tag (BERTag.new false) ∧ witCard 4 = .tlv ⟨false, none, 0, none⟩ ∧ (historyOf (tagCall 3) witEnv 0 witCard witProg).length = 2 ∧
    (historyOf (tlvCall 4) witEnv 0 witCard witProg).length = 1 := ⟨rfl, rfl, by decide +kernel, by decide +kernel⟩

/-- What `C120_tag` and `C120_tlv` say after it: the tag is the second one it was initialised with; the TLV has the value it was given and, as its tag, the copy
made of the first. -/
example {outs : List (Except Err Card.Out)} {w' : Card} (h : run witEnv 0 witCard witProg = some (outs, w')) :
    w' 3 = .tag ((historyOf (tagCall 3) witEnv 0 witCard witProg).foldl tagAfter (BERTag.new false)) ∧
    w' 4 = .tlv ⟨false, some 5, 3, some [7, 8, 9]⟩ ∧ step witEnv 0 w' (.getTag 4) = some (.ok (.ref 5), w') := by
  have hq : (historyOf (tlvCall 4) witEnv 0 witCard witProg).foldl tlvAfter ⟨false, none, 0, none⟩ = ⟨false, some 5, 3, some [7, 8, 9]⟩ := by decide +kernel
  obtain ⟨h1, h2⟩ := C120_tlv h (k := 4) (t := ⟨false, none, 0, none⟩) rfl
  have h3 := (h2 _ rfl).1
  rw [hq] at h1 h3
  exact ⟨(C120_tag h rfl).1, h1, h3⟩

/-- `C120_aid`: an AID keeps its bytes when the array it was made from changes, so it no longer equals it, and gives them back. -/
example : (run witEnv 0 witCard [.newAID 9 1 0 5, .store 1 0 0, .aidEquals 9 1 0 5, .aidGetBytes 9 2 0]).map (fun x => (x.1, listAt x.2 2)) =
    some ([.ok (.ref 9), .ok .nothing, .ok (.bool false), .ok (.int 5)], some [1, 2, 0x5F, 0x21, 3, 0, 0, 0, 0, 0]) ∧
    listAt witCard 1 = some [1, 2, 0x5F, 0x21, 3, 7, 8, 9] ∧ witCard 9 = .free := ⟨by decide +kernel, rfl, rfl⟩

/-- `C120_tag_new` and `C120_tlv_new`: slot 9 is free, and the array holds a tag at 2 and a TLV at 2 (whose length byte the code
takes for the first byte of the value when the length is given). -/
example : witCard 9 = .free ∧ (BERTag.getInstance [1, 2, 0x5F, 0x21, 3, 7, 8, 9] 2).toOption.isSome ∧
    (run witEnv 0 witCard [.tlvGetInstance 9 10 1 2 (some 6), .tlvToBytes 9 2 0]).map (fun x => (x.1, listAt x.2 2)) =
      some ([.ok (.ref 9), .ok (.int 7)], some [0x5F, 0x21, 4, 3, 7, 8, 9, 0, 0, 0]) := ⟨rfl, by decide +kernel, by decide +kernel⟩

end Verif.Props
