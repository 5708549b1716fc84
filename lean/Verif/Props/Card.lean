import Verif.Spec.Card
/-! Objects do not interfere: what a call of the library can change and what it can depend on, for all objects of the library on one card, and
programs that use different objects, interleaved in any way. -/
namespace Verif.Props
open Verif.Py Verif.Model Verif.Model.Card Verif.Spec.Card

theorem onTLV_congr {w w' : Card} {k : Nat} (hk : w' k = w k) (hr : ∀ q ∈ (w k).refs, w' q = w q) (f' f : TLVRef → BERTLV → Option Eff)
    (hf : ∀ t x, f' t x = f t x) : onTLV w' k f' = onTLV w k f := by
  unfold onTLV
  rw [hk]
  cases h : w k with
  | tlv t =>
    simp only
    rw [hf]
    congr 2
    cases ht : t.tag with
    | none => rfl
    | some g =>
      have := hr g (by rw [h]; simp [Obj.refs, ht])
      simp only [Option.bind_some, tagAt, this]
  | _ => rfl

theorem onAPDU_congr {w w' : Card} {a : Nat} (hk : w' a = w a) (hr : ∀ q ∈ (w a).refs, w' q = w q)
    (f : Nat → Nat → List Int → List Int → APDUObj → Eff) : onAPDU w' a f = onAPDU w a f := by
  unfold onAPDU
  rw [hk]
  cases h : w a with
  | apdu r b x =>
    have h1 := hr r (by rw [h]; simp [Obj.refs])
    have h2 := hr b (by rw [h]; simp [Obj.refs])
    simp only [onArray, h1, h2]
  | _ => rfl

theorem keyArg_congr {w w' : Card} (k : Option Nat) (h : ∀ r ∈ k.toList, w' r = w r) : keyArg w' k = keyArg w k := by
  cases k with
  | none => rfl
  | some r => simp only [keyArg, h r (by simp)]

theorem tagArg_congr {w w' : Card} (k : Option Nat) (h : ∀ r ∈ k.toList, w' r = w r) : tagArg w' k = tagArg w k := by
  cases k with
  | none => rfl
  | some r => simp only [tagArg, tagAt, h r (by simp)]

theorem onOptArray_congr {w w' : Card} (k : Option Nat) (h : ∀ r ∈ k.toList, w' r = w r) (f : Option (List Int) → Eff) :
    onOptArray w' k f = onOptArray w k f := by
  cases k with
  | none => rfl
  | some r => simp only [onOptArray, onArray, h r (by simp)]

theorem found_congr {w w' : Card} {k g : Nat} (hk : w' k = w k) (hg : w' g = w g) : found w' k g = found w k g := by
  funext x
  cases x with
  | error e => rfl
  | ok x => cases x with
    | none => rfl
    | some t => simp only [found, makeTLV, make, hk, hg]

theorem current_congr {w w' : Card} (h : w' MODULE = w MODULE) : current w' = current w := by
  simp only [current, h]

theorem current_held (w : Card) {a : Nat} (h : current w = some a) : a ∈ (w MODULE).refs := by
  unfold current at h
  cases hm : w MODULE with
  | apduModule c => rw [hm] at h; simp only at h; subst h; simp [Obj.refs]
  | _ => rw [hm] at h; simp at h

theorem sem_congr (env : CryptoEnv) (fuel : Nat) (w w' : Card) (s : Step) (h : ∀ r, Reaches w s r → w' r = w r) :
    sem env fuel w' s = sem env fuel w s := by
  have hn : ∀ r ∈ names s, w' r = w r := fun r hr => h r (.named r hr)
  have hh : ∀ r ∈ names s, ∀ q ∈ (w r).refs, w' q = w q := fun r hr q hq => h q (.held r q (.named r hr) hq)
  cases s
  case apdu a op =>
    simp only [sem]
    rw [onAPDU_congr (hn a (by simp [names])) (hh a (by simp [names]))]
  case sendBytesLong a r off len =>
    have e : w' r = w r := hn r (by simp [names])
    simp only [sem, onArray, e]
    congr 1
    split
    · rw [onAPDU_congr (hn a (by simp [names])) (hh a (by simp [names]))]
    · rfl
  case getBuffer a =>
    simp only [sem]
    rw [onAPDU_congr (hn a (by simp [names])) (hh a (by simp [names]))]
  case askAPDU a op =>
    simp only [sem]
    rw [onAPDU_congr (hn a (by simp [names])) (hh a (by simp [names]))]
  case currentAPDU =>
    simp only [sem]; rw [current_congr (hn _ (by simp [names]))]
  case currentAPDUBuffer =>
    have hm : MODULE ∈ names .currentAPDUBuffer := by simp [names]
    simp only [sem]; rw [current_congr (hn _ hm)]
    cases hc : current w with
    | none => rfl
    | some a =>
      have ha := current_held w hc
      simp only
      rw [onAPDU_congr (hh _ hm a ha) (fun q hq => h q (.held a q (.held _ a (.named _ hm) ha) hq))]
  case claChannel =>
    have hm : MODULE ∈ names .claChannel := by simp [names]
    simp only [sem]; rw [current_congr (hn _ hm)]
    cases hc : current w with
    | none => rfl
    | some a =>
      have ha := current_held w hc
      simp only
      rw [onAPDU_congr (hh _ hm a ha) (fun q hq => h q (.held a q (.held _ a (.named _ hm) ha) hq))]
  case findStatic r off r' off' =>
    have e : w' r = w r := hn r (by simp [names])
    have e' : arrayArg w' r' = arrayArg w r' := by
      cases r' with
      | none => rfl
      | some q => simp only [arrayArg]; rw [hn q (by simp [names])]
    simp only [sem]
    rw [e, e']
  case findNextStatic r off start r' off' =>
    have e : w' r = w r := hn r (by simp [names])
    cases r' with
    | none => simp only [sem, onArray, onOptArray, e]
    | some q =>
      have e' : w' q = w q := hn q (by simp [names])
      simp only [sem, onArray, onOptArray, e, e']
  case tlvInit k g' g r off len =>
    have e1 : w' r = w r := hn r (by simp [names])
    have e2 : w' g = w g := hn g (by simp [names])
    have e3 : w' g' = w g' := hn g' (by simp [names])
    simp only [sem]
    exact onTLV_congr (hn k (by simp [names])) (hh k (by simp [names])) _ _ fun t x => by simp only [onArray, tagAt, e1, e2, e3]
  case tlvInitArray k r off len =>
    have e1 : w' r = w r := hn r (by simp [names])
    simp only [sem]
    exact onTLV_congr (hn k (by simp [names])) (hh k (by simp [names])) _ _ fun t x => by simp only [onArray, e1]
  case getValue k r off =>
    have e1 : w' r = w r := hn r (by simp [names])
    simp only [sem]
    exact onTLV_congr (hn k (by simp [names])) (hh k (by simp [names])) _ _ fun t x => by simp only [onArray, e1]
  case replaceValue k r off len =>
    have e1 : w' r = w r := hn r (by simp [names])
    simp only [sem]
    exact onTLV_congr (hn k (by simp [names])) (hh k (by simp [names])) _ _ fun t x => by simp only [onArray, e1]
  case tlvToBytes k r off =>
    have e1 : w' r = w r := hn r (by simp [names])
    simp only [sem]
    exact onTLV_congr (hn k (by simp [names])) (hh k (by simp [names])) _ _ fun t x => by simp only [onArray, e1]
  case getTag k =>
    simp only [sem]
    exact onTLV_congr (hn k (by simp [names])) (hh k (by simp [names])) _ _ fun t x => rfl
  case tlvSize k =>
    simp only [sem]
    exact onTLV_congr (hn k (by simp [names])) (hh k (by simp [names])) _ _ fun t x => rfl
  case tlvLength k =>
    simp only [sem]
    exact onTLV_congr (hn k (by simp [names])) (hh k (by simp [names])) _ _ fun t x => rfl
  case append k j =>
    simp only [sem]
    exact onTLV_congr (hn k (by simp [names])) (hh k (by simp [names])) _ _ fun t x =>
      onTLV_congr (hn j (by simp [names])) (hh j (by simp [names])) _ _ fun _ _ => rfl
  case find k' g' k g =>
    simp only [sem]
    refine onTLV_congr (hn k (by simp [names])) (hh k (by simp [names])) _ _ fun t x => ?_
    rw [tagArg_congr g (fun r hr => hn r (by simp only [names, List.mem_append]; exact .inr hr)), found_congr (hn k' (by simp [names])) (hn g' (by simp [names]))]
  case findNext k' g' k g j n =>
    simp only [sem]
    refine onTLV_congr (hn k (by simp [names])) (hh k (by simp [names])) _ _ fun t x => ?_
    refine onTLV_congr (hn j (by simp [names])) (hh j (by simp [names])) _ _ fun t' x' => ?_
    rw [tagArg_congr g (fun r hr => hn r (by simp only [names, List.mem_append]; exact .inr hr)), found_congr (hn k' (by simp [names])) (hn g' (by simp [names]))]
  case tlvGetInstance k g r off len =>
    have e1 : w' r = w r := hn r (by simp [names])
    simp only [sem, onArray, e1]
    rw [found_congr (hn k (by simp [names])) (hn g (by simp [names]))]
  case genKeyPair p i j t =>
    have e1 : w' p = w p := hn p (by simp [names])
    have e2 : w' i = w i := hn i (by simp [names])
    have e3 : w' j = w j := hn j (by simp [names])
    simp only [sem, e1, e2, e3]
    cases hp : w p with
    | pair q =>
      have e4 := hh p (by simp [names]) q.publicKey (by rw [hp]; simp [Obj.refs])
      have e5 := hh p (by simp [names]) q.privateKey (by rw [hp]; simp [Obj.refs])
      cases w i <;> cases w j <;> first | rfl | simp only [e4, e5]
    | _ => rfl
  case rsaFinal c rnd r off len r' off' =>
    have e1 : w' c = w c := hn c (by simp [names])
    have e2 : w' r = w r := hn r (by simp [names])
    have e3 : w' r' = w r' := hn r' (by simp [names])
    simp only [sem, e1, e2, e3]
    cases hp : w c with
    | rsa x =>
      have e4 : keyArg w' x.theKey = keyArg w x.theKey := keyArg_congr _ fun q hq => hh c (by simp [names]) q (by rw [hp]; exact hq)
      cases w r <;> cases w r' <;> first | rfl | simp only [e4]
    | _ => rfl
  case desInit c k mode r off len =>
    have e1 : w' c = w c := hn c (by simp [names])
    have e2 : w' r = w r := hn r (by simp [names])
    have e4 : keyArg w' k = keyArg w k := keyArg_congr _ fun q hq => hn q (by simp only [names, List.mem_append]; exact .inr hq)
    simp only [sem, onArray, e1, e2, e4]
  case desInitDefault c k mode =>
    have e1 : w' c = w c := hn c (by simp [names])
    have e4 : keyArg w' k = keyArg w k := keyArg_congr _ fun q hq => hn q (by simp only [names, List.mem_append]; exact .inr hq)
    simp only [sem, e1, e4]
  case rsaInit c k mode =>
    have e1 : w' c = w c := hn c (by simp [names])
    have e4 : keyArg w' k = keyArg w k := keyArg_congr _ fun q hq => hn q (by simp only [names, List.mem_append]; exact .inr hq)
    simp only [sem, e1, e4]
  case pinCheck i arg off len =>
    cases arg <;> (simp only [names, Sum.elim_inl, Sum.elim_inr, List.mem_cons, List.not_mem_nil, or_false, forall_eq_or_imp, forall_eq] at hn; simp only [sem, onPinArg, onArray, onPIN, hn])
  case pinUpdate i arg off len =>
    cases arg <;> (simp only [names, Sum.elim_inl, Sum.elim_inr, List.mem_cons, List.not_mem_nil, or_false, forall_eq_or_imp, forall_eq] at hn; simp only [sem, onPinArg, onArray, onPIN, hn])
  case bigInit b r off len fmt =>
    have e1 : w' b = w b := hn b (by simp [names])
    simp only [sem, e1]
    rw [onOptArray_congr r fun q hq => hn q (by simp only [names, List.mem_append]; exact .inr hq)]
  case bigOp op b r off len fmt =>
    have e1 : w' b = w b := hn b (by simp [names])
    simp only [sem, e1]
    rw [onOptArray_congr r fun q hq => hn q (by simp only [names, List.mem_append]; exact .inr hq)]
  case bigCompareArray b r off len fmt =>
    have e1 : w' b = w b := hn b (by simp [names])
    simp only [sem, e1]
    rw [onOptArray_congr r fun q hq => hn q (by simp only [names, List.mem_append]; exact .inr hq)]
  all_goals
    simp only [names, List.mem_cons, List.not_mem_nil, or_false, forall_eq_or_imp, forall_eq] at hn
    simp only [sem, onArray, makeOr, make, tagAt, onPIN, hn]


/-- What a property of effects needs to hold of a call on a list. -/
theorem onArray_ind {P : Eff → Prop} {w : Card} {r : Nat} {f : List Int → Eff} (hw : P wrong) (h : ∀ l, w r = .array l → P (f l)) : P (onArray w r f) := by
  unfold onArray; split
  · next l hl => exact h l hl
  · exact hw

theorem onOptArray_ind {P : Eff → Prop} {w : Card} {r : Option Nat} {f : Option (List Int) → Eff} (hw : P wrong) (h : ∀ l, P (f l)) :
    P (onOptArray w r f) := by
  cases r with
  | none => exact h none
  | some r => exact onArray_ind hw fun l _ => h (some l)

theorem onPinArg_ind {P : Eff → Prop} {w : Card} {r : List Int ⊕ Nat} {f : PinArg → Eff} (hw : P wrong) (h : ∀ l, P (f l)) :
    P (onPinArg w r f) := by
  cases r with
  | inl c => exact h _
  | inr r => exact onArray_ind hw fun l _ => h _

theorem make_ind {P : Eff → Prop} {w : Card} {r : Nat} {o : Obj} (hw : P wrong) (h : w r = .free → P (.ok (.ref r), [(r, o)])) : P (make w r o) := by
  unfold make; split
  · next hf => exact h hf
  · exact hw

theorem makeOrMap_ind {P : Eff → Prop} {w : Card} {r : Nat} {α : Type} {c : α → Obj} {x : Except Err α} (hw : P wrong) (he : ∀ e, P (.error e, []))
    (h : ∀ a, w r = .free → P (.ok (.ref r), [(r, c a)])) : P (makeOr w r (x.map c)) := by
  cases x with
  | error e => exact he e
  | ok o => exact make_ind hw (h o)

theorem onAPDU_ind {P : Eff → Prop} {w : Card} {a : Nat} {f : Nat → Nat → List Int → List Int → APDUObj → Eff} (hw : P wrong)
    (h : ∀ r b raw buf x, w a = .apdu r b x → w r = .array raw → w b = .array buf → P (f r b raw buf x)) : P (onAPDU w a f) := by
  unfold onAPDU; split
  · next r b x hx => exact onArray_ind hw fun raw hr => onArray_ind hw fun buf hb => h r b raw buf x hx hr hb
  · exact hw

theorem onPIN_ind {P : Eff → Prop} {w : Card} {i : Nat} {op : OwnerPIN.Op} (hw : P wrong)
    (h : ∀ p o, w i = .pin p → P (o, [(i, .pin (OwnerPIN.step p op).2)])) : P (onPIN w i op) := by
  unfold onPIN; split
  · next p hp => exact h p _ hp
  · exact hw

theorem onTLV_ind {P : Eff → Prop} {w : Card} {k : Nat} {f : TLVRef → BERTLV → Option Eff} (hw : P wrong)
    (h : ∀ t x, w k = .tlv t → x.length = t.length → x.value = t.value → ∀ e, f t x = some e → P e) : ∀ e, onTLV w k f = some e → P e := by
  intro e he
  unfold onTLV at he
  split at he
  · next t ht => exact h t _ ht rfl rfl e he
  · injection he with he; subst he; exact hw

theorem found_ind {P : Eff → Prop} {w : Card} {k g : Nat} {x : Except Err (Option BERTLV)} (hw : P wrong) (he : ∀ o, P (o, []))
    (h1 : ∀ t : TLVRef, t.tag = none → P (.ok (.ref k), [(k, .tlv t)]))
    (h2 : ∀ tag (t : TLVRef), t.tag = some g → P (.ok (.ref k), [(g, .tag tag), (k, .tlv t)])) : P (found w k g x) := by
  cases x with
  | error e => exact he _
  | ok x => cases x with
    | none => exact he _
    | some t =>
      simp only [found, makeTLV]
      split
      · exact make_ind hw fun _ => h1 _ rfl
      · split
        · split
          · exact hw
          · exact h2 _ _ rfl
        · exact hw

/-- An address the call mentions, or that an object it mentions holds. -/
def Near (w : Card) (s : Step) (q : Nat) : Prop := q ∈ names s ∨ ∃ r ∈ names s, q ∈ (w r).refs

/-- The objects changed or made are near, and so is all they hold. -/
def Stays (w : Card) (s : Step) (e : Eff) : Prop := ∀ u ∈ e.2, Near w s u.1 ∧ ∀ q ∈ u.2.refs, Near w s q

theorem init_refs (c : RSACipher) (h : KeyHeap) (a : KeyArg) (mode : Int) :
    (c.init h a mode).2.theKey = c.theKey ∨ ∃ r, a = .key r ∧ (c.init h a mode).2.theKey = some r := by
  unfold RSACipher.init CipherBase.init
  cases a with
  | notKey => exact .inl rfl
  | key r =>
    simp only
    by_cases h1 : ¬ (h r).isInitialized
    · rw [if_pos h1]; exact .inl rfl
    · rw [if_neg h1]
      by_cases h2 : ¬ (mode = MODE_ENCRYPT ∨ mode = MODE_DECRYPT)
      · rw [if_pos h2]; exact .inl rfl
      · rw [if_neg h2]
        simp only
        split
        · exact .inr ⟨r, rfl, rfl⟩
        · exact .inl rfl

theorem stays (env : CryptoEnv) (fuel : Nat) (w : Card) (s : Step) : ∀ e, sem env fuel w s = some e → Stays w s e := by
  have hw : Stays w s wrong := fun u hu => by simp [wrong] at hu
  have h0 : ∀ o, Stays w s (o, []) := fun o u hu => by simp at hu
  have h1 : ∀ o r x, r ∈ names s → x.refs = [] → Stays w s (o, [(r, x)]) := by
    intro o r x hr hx u hu
    simp only [List.mem_singleton] at hu
    subst hu
    exact ⟨.inl hr, fun q hq => by simp [hx] at hq⟩
  have h2 : ∀ o r x r' x', r ∈ names s → x.refs = [] → r' ∈ names s → x'.refs = [] → Stays w s (o, [(r, x), (r', x')]) := by
    intro o r x r' x' hr hx hr' hx' u hu
    simp only [List.mem_cons, List.not_mem_nil, or_false] at hu
    rcases hu with rfl | rfl
    · exact ⟨.inl hr, fun q hq => by simp [hx] at hq⟩
    · exact ⟨.inl hr', fun q hq => by simp [hx'] at hq⟩
  have htlv : ∀ k t o (x : BERTLV), k ∈ names s → w k = .tlv t → Stays w s (o, tlvTo k t x) := by
    intro k t o x hk ht u hu
    simp only [tlvTo, List.mem_singleton] at hu
    subst hu
    exact ⟨.inl hk, fun q hq => .inr ⟨k, hk, by rw [ht]; exact hq⟩⟩
  have hfound : ∀ k g x, k ∈ names s → g ∈ names s → Stays w s (found w k g x) := by
    intro k g x hk hg
    refine found_ind hw h0 ?_ ?_
    · intro t ht; exact h1 _ _ _ hk (by simp [Obj.refs, ht])
    · intro tag t ht u hu
      simp only [List.mem_cons, List.not_mem_nil, or_false] at hu
      rcases hu with rfl | rfl
      · exact ⟨.inl hg, fun q hq => by simp [Obj.refs] at hq⟩
      · refine ⟨.inl hk, fun q hq => .inl ?_⟩
        simp [Obj.refs, ht] at hq; subst hq; exact hg
  have hapdu : ∀ a r b raw buf op x, a ∈ names s → w a = .apdu r b x → Stays w s (apduStep a r b raw buf op x) := by
    intro a r b raw buf op x ha hx u hu
    have hr : Near w s r := .inr ⟨a, ha, by rw [hx]; simp [Obj.refs]⟩
    have hb : Near w s b := .inr ⟨a, ha, by rw [hx]; simp [Obj.refs]⟩
    cases x with
    | full y =>
      simp only [apduStep, List.mem_cons, List.not_mem_nil, or_false] at hu
      rcases hu with rfl | rfl | rfl
      · exact ⟨.inl ha, fun q hq => by simp only [Obj.refs, List.mem_cons, List.not_mem_nil, or_false] at hq; rcases hq with rfl | rfl <;> assumption⟩
      · exact ⟨hr, fun q hq => by simp [Obj.refs] at hq⟩
      · exact ⟨hb, fun q hq => by simp [Obj.refs] at hq⟩
    | half y =>
      simp only [apduStep, List.mem_cons, List.not_mem_nil, or_false] at hu
      rcases hu with rfl | rfl
      · exact ⟨.inl ha, fun q hq => by simp only [Obj.refs, List.mem_cons, List.not_mem_nil, or_false] at hq; rcases hq with rfl | rfl <;> assumption⟩
      · exact ⟨hb, fun q hq => by simp [Obj.refs] at hq⟩
  cases s
  case newAPDU a b r =>
    intro e he
    simp only [sem, Option.some.injEq] at he
    subst he
    split
    · split
      · exact hw
      · refine onArray_ind hw fun l _ => ?_
        have hh : ∀ o x y, Stays w (.newAPDU a b r) (o, [(a, .apdu r b x), (b, .array y), (MODULE, .apduModule (some a))]) := by
          intro o x y u hu
          simp only [List.mem_cons, List.not_mem_nil, or_false] at hu
          rcases hu with rfl | rfl | rfl
          · refine ⟨.inl (by simp [names]), fun q hq => .inl ?_⟩
            simp only [Obj.refs, List.mem_cons, List.not_mem_nil, or_false] at hq
            rcases hq with rfl | rfl <;> simp [names]
          · exact ⟨.inl (by simp [names]), fun q hq => by simp [Obj.refs] at hq⟩
          · refine ⟨.inl (by simp [names]), fun q hq => .inl ?_⟩
            simp [Obj.refs] at hq; subst hq; simp [names]
        unfold newAPDU
        split
        · exact h0 _
        · split
          · exact h0 _
          · split
            · exact hh _ _ _
            · exact hh _ _ _
    · exact hw
  case apdu a op =>
    intro e he
    simp only [sem, Option.some.injEq] at he
    subst he
    exact onAPDU_ind hw fun r b raw buf x hx _ _ => hapdu a r b raw buf _ x (by simp [names]) hx
  case sendBytesLong a r' off len =>
    intro e he
    simp only [sem, Option.some.injEq] at he
    subst he
    exact onArray_ind hw fun d _ => onAPDU_ind hw fun r b raw buf x hx _ _ => hapdu a r b raw buf _ x (by simp [names]) hx
  case getBuffer a =>
    intro e he
    simp only [sem, Option.some.injEq] at he
    subst he
    exact onAPDU_ind hw fun r b raw buf x hx _ _ => h0 _
  case askAPDU a q =>
    intro e he
    simp only [sem, Option.some.injEq] at he
    subst he
    exact onAPDU_ind hw fun r b raw buf x hx _ _ => h0 _
  case currentAPDU =>
    intro e he
    simp only [sem, Option.some.injEq] at he
    subst he
    split <;> exact h0 _
  case currentAPDUBuffer =>
    intro e he
    simp only [sem, Option.some.injEq] at he
    subst he
    split
    · exact h0 _
    · exact onAPDU_ind hw fun r b raw buf x hx _ _ => h0 _
  case claChannel =>
    intro e he
    simp only [sem, Option.some.injEq] at he
    subst he
    split
    · exact h0 _
    · exact onAPDU_ind hw fun r b raw buf x hx _ _ => h0 _
  case tlvGetInstance k g r off len =>
    intro e he
    simp only [sem, Option.some.injEq] at he
    subst he
    exact onArray_ind hw fun l _ => hfound _ _ _ (by simp [names]) (by simp [names])
  case tlvInit k g' g r off len =>
    simp only [sem]
    refine onTLV_ind hw fun t x ht _ _ e he => ?_
    simp only [Option.some.injEq] at he
    subst he
    refine onArray_ind hw fun l _ => ?_
    split
    · intro u hu
      simp only [List.mem_cons, List.not_mem_nil, or_false] at hu
      rcases hu with rfl | rfl
      · exact ⟨.inl (by simp [names]), fun q hq => by simp [Obj.refs] at hq⟩
      · refine ⟨.inl (by simp [names]), fun q hq => .inl ?_⟩
        simp [Obj.refs] at hq; subst hq; simp [names]
    · exact hw
  case tlvInitArray k r off len =>
    simp only [sem]
    refine onTLV_ind hw fun t x ht _ _ e he => ?_
    simp only [Option.some.injEq] at he
    subst he
    exact onArray_ind hw fun l _ => htlv _ _ _ _ (by simp [names]) ht
  case getTag k =>
    simp only [sem]
    refine onTLV_ind hw fun t x ht _ _ e he => ?_
    simp only [Option.some.injEq] at he
    subst he
    exact h0 _
  case tlvSize k =>
    simp only [sem]
    refine onTLV_ind hw fun t x ht _ _ e he => ?_
    simp only [Option.some.injEq] at he
    subst he
    exact h0 _
  case tlvLength k =>
    simp only [sem]
    refine onTLV_ind hw fun t x ht _ _ e he => ?_
    simp only [Option.some.injEq] at he
    subst he
    exact h0 _
  case findStatic r off r' off' =>
    intro e he
    simp only [sem] at he
    split at he
    · rw [Option.map_eq_some_iff] at he
      obtain ⟨y, _, rfl⟩ := he
      exact h0 _
    · injection he with he; subst he; exact hw
  case append k j =>
    simp only [sem]
    refine onTLV_ind hw fun t x ht _ _ => onTLV_ind hw fun t' x' _ _ _ e he => ?_
    simp only [Option.some.injEq] at he
    subst he
    exact htlv _ _ _ _ (by simp [names]) ht
  case find k' g' k g =>
    simp only [sem]
    refine onTLV_ind hw fun t x ht _ _ e he => ?_
    split at he
    · injection he with he; subst he; exact hw
    · rw [Option.map_eq_some_iff] at he
      obtain ⟨y, _, rfl⟩ := he
      exact hfound _ _ _ (by simp [names]) (by simp [names])
  case findNext k' g' k g j n =>
    simp only [sem]
    refine onTLV_ind hw fun t x ht _ _ => onTLV_ind hw fun t' x' _ _ _ e he => ?_
    split at he
    · injection he with he; subst he; exact hw
    · rw [Option.map_eq_some_iff] at he
      obtain ⟨y, _, rfl⟩ := he
      exact hfound _ _ _ (by simp [names]) (by simp [names])
  case getValue k r off =>
    simp only [sem]
    refine onTLV_ind hw fun t x ht _ _ e he => ?_
    simp only [Option.some.injEq] at he
    subst he
    exact onArray_ind hw fun l _ => h1 _ _ _ (by simp [names]) rfl
  case replaceValue k r off len =>
    simp only [sem]
    refine onTLV_ind hw fun t x ht _ _ e he => ?_
    simp only [Option.some.injEq] at he
    subst he
    exact onArray_ind hw fun l _ => htlv _ _ _ _ (by simp [names]) ht
  case tlvToBytes k r off =>
    simp only [sem]
    refine onTLV_ind hw fun t x ht _ _ e he => ?_
    simp only [Option.some.injEq] at he
    subst he
    exact onArray_ind hw fun l _ => h1 _ _ _ (by simp [names]) rfl
  case newPair p i j alg len =>
    intro e he
    simp only [sem, Option.some.injEq] at he
    subst he
    split
    · split
      · exact hw
      · split
        · intro u hu
          simp only [List.mem_cons, List.not_mem_nil, or_false] at hu
          rcases hu with rfl | rfl | rfl
          · exact ⟨.inl (by simp [names]), fun q hq => by simp [Obj.refs] at hq⟩
          · exact ⟨.inl (by simp [names]), fun q hq => by simp [Obj.refs] at hq⟩
          · refine ⟨.inl (by simp [names]), fun q hq => .inl ?_⟩
            simp only [Obj.refs, List.mem_cons, List.not_mem_nil, or_false] at hq
            rcases hq with rfl | rfl <;> simp [names]
        · exact h0 _
    · exact hw
  case genKeyPair p i j t =>
    intro e he
    simp only [sem, Option.some.injEq] at he
    subst he
    split
    · split
      · split
        · exact hw
        · unfold genPair
          split
          · exact h0 _
          · split
            · exact h0 _
            · split
              · split
                · exact h0 _
                · intro u hu
                  simp only [List.mem_cons, List.not_mem_nil, or_false] at hu
                  rcases hu with rfl | rfl | rfl
                  · exact ⟨.inl (by simp [names]), fun q hq => by simp [Obj.refs] at hq⟩
                  · exact ⟨.inl (by simp [names]), fun q hq => by simp [Obj.refs] at hq⟩
                  · refine ⟨.inl (by simp [names]), fun q hq => .inl ?_⟩
                    simp only [Obj.refs, List.mem_cons, List.not_mem_nil, or_false] at hq
                    rcases hq with rfl | rfl <;> simp [names]
              · exact h0 _
      · exact hw
    · exact hw
  case pairOf p i j =>
    intro e he
    simp only [sem, Option.some.injEq] at he
    subst he
    split
    · split
      · exact h0 _
      · refine make_ind hw fun _ u hu => ?_
        simp only [List.mem_singleton] at hu
        subst hu
        refine ⟨.inl (by simp [names]), fun q hq => .inl ?_⟩
        simp only [Obj.refs, List.mem_cons, List.not_mem_nil, or_false] at hq
        rcases hq with rfl | rfl <;> simp [names]
    · exact hw
  case rsaInit c k mode =>
    intro e he
    simp only [sem, Option.some.injEq] at he
    subst he
    split
    · next x hx =>
      intro u hu
      simp only [List.mem_singleton] at hu
      subst hu
      refine ⟨.inl (by simp [names]), fun q hq => ?_⟩
      simp only [Obj.refs] at hq
      rcases init_refs x (keyArg w k).2 (keyArg w k).1 mode with h | ⟨r, hr, h⟩
      · rw [h] at hq
        exact .inr ⟨c, by simp [names], by rw [hx]; exact hq⟩
      · rw [h] at hq
        simp at hq
        subst hq
        refine .inl ?_
        cases k with
        | none => simp [keyArg] at hr
        | some k =>
          simp only [keyArg] at hr
          split at hr
          · injection hr with hr; subst hr; simp [names]
          · simp at hr
    · exact hw
  case rsaFinal c rnd r off len r' off' =>
    intro e he
    simp only [sem] at he
    split at he
    · rw [Option.map_eq_some_iff] at he
      obtain ⟨y, _, rfl⟩ := he
      exact h1 _ _ _ (by simp [names]) rfl
    · injection he with he; subst he; exact hw
  case getCipher c args =>
    intro e he
    simp only [sem, Option.some.injEq] at he
    subst he
    split
    · exact h0 _
    · exact make_ind hw fun _ => h1 _ _ _ (by simp [names]) rfl
    · exact make_ind hw fun _ => h1 _ _ _ (by simp [names]) rfl
  all_goals
    intro e he
    simp only [sem, Option.some.injEq] at he
    subst he
    repeat' first
      | exact hw
      | exact h0 _
      | exact h1 _ _ _ (by simp [names]) rfl
      | exact h2 _ _ _ _ _ (by simp [names]) rfl (by simp [names]) rfl
      | refine onArray_ind hw fun l _ => ?_
      | refine onOptArray_ind hw fun l => ?_
      | refine onPinArg_ind hw fun l => ?_
      | refine onPIN_ind hw fun p o _ => ?_
      | refine make_ind hw fun _ => ?_
      | refine makeOrMap_ind hw (fun _ => h0 _) fun o _ => ?_
      | split

/-! ### Frame -/

theorem put_other (w : Card) (us : List (Nat × Obj)) (l : Nat) (h : ∀ u ∈ us, u.1 ≠ l) : w.put us l = w l := by
  induction us generalizing w with
  | nil => rfl
  | cons u us ih =>
    obtain ⟨r, o⟩ := u
    have hr : r ≠ l := h (r, o) (by simp)
    show put _ us l = w l
    rw [ih _ fun u hu => h u (by simp [hu])]
    exact if_neg (fun e => hr e.symm)

theorem put_same (v w : Card) (us : List (Nat × Obj)) (r : Nat) (h : v r = w r) : v.put us r = w.put us r := by
  induction us generalizing v w with
  | nil => exact h
  | cons u us ih =>
    obtain ⟨q, x⟩ := u
    refine ih _ _ ?_
    by_cases hq : r = q
    · simp only [if_pos hq]
    · simp only [if_neg hq]; exact h

theorem put_mem (w : Card) (us : List (Nat × Obj)) (r : Nat) : w.put us r = w r ∨ ∃ u ∈ us, u.1 = r ∧ w.put us r = u.2 := by
  induction us generalizing w with
  | nil => exact .inl rfl
  | cons u us ih =>
    obtain ⟨q, x⟩ := u
    rcases ih (fun q' => if q' = q then x else w q') with h | ⟨u, hu, h1, h2⟩
    · by_cases hq : r = q
      · rw [if_pos hq] at h; exact .inr ⟨(q, x), by simp, hq.symm, h⟩
      · rw [if_neg hq] at h; exact .inl h
    · exact .inr ⟨u, by simp [hu], h1, h2⟩

/-- Only the addresses `ws` change. -/
def Framed (w : Card) (ws : List Nat) (e : Eff) : Prop := ∀ l, l ∉ ws → w.put e.2 l = w l

theorem framed_of (w : Card) (ws : List Nat) (e : Eff) (h : ∀ u ∈ e.2, u.1 ∈ ws) : Framed w ws e :=
  fun l hl => put_other w e.2 l fun u hu hc => hl (hc ▸ h u hu)

theorem frame (env : CryptoEnv) (fuel : Nat) (w : Card) (s : Step) : ∀ e, sem env fuel w s = some e → Framed w (writes w s) e := by
  have hw : Framed w (writes w s) wrong := fun l hl => rfl
  have h0 : ∀ o, Framed w (writes w s) (o, []) := fun o l hl => rfl
  have h1 : ∀ o r x, r ∈ writes w s → Framed w (writes w s) (o, [(r, x)]) := by
    intro o r x hr
    exact framed_of _ _ _ fun u hu => by simp only [List.mem_singleton] at hu; subst hu; exact hr
  have h2 : ∀ o r x r' x', r ∈ writes w s → r' ∈ writes w s → Framed w (writes w s) (o, [(r, x), (r', x')]) := by
    intro o r x r' x' hr hr'
    refine framed_of _ _ _ fun u hu => ?_
    simp only [List.mem_cons, List.not_mem_nil, or_false] at hu
    rcases hu with rfl | rfl
    · exact hr
    · exact hr'
  have h3 : ∀ o r x r' x' r'' x'', r ∈ writes w s → r' ∈ writes w s → r'' ∈ writes w s → Framed w (writes w s) (o, [(r, x), (r', x'), (r'', x'')]) := by
    intro o r x r' x' r'' x'' hr hr' hr''
    refine framed_of _ _ _ fun u hu => ?_
    simp only [List.mem_cons, List.not_mem_nil, or_false] at hu
    rcases hu with rfl | rfl | rfl
    · exact hr
    · exact hr'
    · exact hr''
  have hsame : ∀ o r x, w r = x → Framed w (writes w s) (o, [(r, x)]) := by
    intro o r x hx l hl
    show (if l = r then x else w l) = w l
    by_cases h : l = r
    · subst h; rw [if_pos rfl]; exact hx.symm
    · rw [if_neg h]
  have hfound : ∀ k g x, k ∈ writes w s → g ∈ writes w s → Framed w (writes w s) (found w k g x) := by
    intro k g x hk hg
    refine found_ind hw h0 ?_ ?_
    · intro t _; exact h1 _ _ _ hk
    · intro tag t _; exact h2 _ _ _ _ _ hg hk
  have hapdu : ∀ a r b raw buf op x, a ∈ writes w s → r ∈ writes w s → b ∈ writes w s → Framed w (writes w s) (apduStep a r b raw buf op x) := by
    intro a r b raw buf op x ha hr hb
    cases x with
    | full y => exact h3 _ _ _ _ _ _ _ ha hr hb
    | half y => exact h2 _ _ _ _ _ ha hb
  cases s
  case newAPDU a b r =>
    intro e he
    simp only [sem, Option.some.injEq] at he
    subst he
    split
    · split
      · exact hw
      · refine onArray_ind hw fun l _ => ?_
        unfold newAPDU
        split
        · exact h0 _
        · split
          · exact h0 _
          · split <;> exact h3 _ _ _ _ _ _ _ (by simp [writes]) (by simp [writes]) (by simp [writes])
    · exact hw
  case apdu a op =>
    intro e he
    simp only [sem, Option.some.injEq] at he
    subst he
    exact onAPDU_ind hw fun r b raw buf x hx _ _ => hapdu a r b raw buf _ x (by simp [writes]) (by simp [writes, hx, Obj.refs]) (by simp [writes, hx, Obj.refs])
  case sendBytesLong a r' off len =>
    intro e he
    simp only [sem, Option.some.injEq] at he
    subst he
    exact onArray_ind hw fun d _ => onAPDU_ind hw fun r b raw buf x hx _ _ =>
      hapdu a r b raw buf _ x (by simp [writes]) (by simp [writes, hx, Obj.refs]) (by simp [writes, hx, Obj.refs])
  case tlvGetInstance k g r off len =>
    intro e he
    simp only [sem, Option.some.injEq] at he
    subst he
    exact onArray_ind hw fun l _ => hfound _ _ _ (by simp [writes]) (by simp [writes])
  case tlvInit k g' g r off len =>
    simp only [sem]
    refine onTLV_ind hw fun t x ht _ _ e he => ?_
    simp only [Option.some.injEq] at he
    subst he
    refine onArray_ind hw fun l _ => ?_
    split
    · exact h2 _ _ _ _ _ (by simp [writes]) (by simp [writes])
    · exact hw
  case tlvInitArray k r off len =>
    simp only [sem]
    refine onTLV_ind hw fun t x ht hx1 hx2 e he => ?_
    simp only [Option.some.injEq] at he
    subst he
    refine onArray_ind hw fun l _ => ?_
    have e2 : (x.initArray l off len).2 = x := by unfold BERTLV.initArray; split <;> rfl
    refine hsame _ _ _ ?_
    rw [e2, hx1, hx2, ht]
  case getTag k =>
    simp only [sem]
    refine onTLV_ind hw fun t x ht _ _ e he => ?_
    simp only [Option.some.injEq] at he
    subst he
    exact h0 _
  case tlvSize k =>
    simp only [sem]
    refine onTLV_ind hw fun t x ht _ _ e he => ?_
    simp only [Option.some.injEq] at he
    subst he
    exact h0 _
  case tlvLength k =>
    simp only [sem]
    refine onTLV_ind hw fun t x ht _ _ e he => ?_
    simp only [Option.some.injEq] at he
    subst he
    exact h0 _
  case findStatic r off r' off' =>
    intro e he
    simp only [sem] at he
    split at he
    · rw [Option.map_eq_some_iff] at he
      obtain ⟨y, _, rfl⟩ := he
      exact h0 _
    · injection he with he; subst he; exact hw
  case append k j =>
    simp only [sem]
    refine onTLV_ind hw fun t x ht _ _ => onTLV_ind hw fun t' x' _ _ _ e he => ?_
    simp only [Option.some.injEq] at he
    subst he
    exact h1 _ _ _ (by simp [writes])
  case find k' g' k g =>
    simp only [sem]
    refine onTLV_ind hw fun t x ht _ _ e he => ?_
    split at he
    · injection he with he; subst he; exact hw
    · rw [Option.map_eq_some_iff] at he
      obtain ⟨y, _, rfl⟩ := he
      exact hfound _ _ _ (by simp [writes]) (by simp [writes])
  case findNext k' g' k g j n =>
    simp only [sem]
    refine onTLV_ind hw fun t x ht _ _ => onTLV_ind hw fun t' x' _ _ _ e he => ?_
    split at he
    · injection he with he; subst he; exact hw
    · rw [Option.map_eq_some_iff] at he
      obtain ⟨y, _, rfl⟩ := he
      exact hfound _ _ _ (by simp [writes]) (by simp [writes])
  case getValue k r off =>
    simp only [sem]
    refine onTLV_ind hw fun t x ht _ _ e he => ?_
    simp only [Option.some.injEq] at he
    subst he
    exact onArray_ind hw fun l _ => h1 _ _ _ (by simp [writes])
  case replaceValue k r off len =>
    simp only [sem]
    refine onTLV_ind hw fun t x ht _ _ e he => ?_
    simp only [Option.some.injEq] at he
    subst he
    exact onArray_ind hw fun l _ => h1 _ _ _ (by simp [writes])
  case tlvToBytes k r off =>
    simp only [sem]
    refine onTLV_ind hw fun t x ht _ _ e he => ?_
    simp only [Option.some.injEq] at he
    subst he
    exact onArray_ind hw fun l _ => h1 _ _ _ (by simp [writes])
  case genKeyPair p i j t =>
    intro e he
    simp only [sem, Option.some.injEq] at he
    subst he
    split
    · split
      · split
        · exact hw
        · unfold genPair
          split
          · exact h0 _
          · split
            · exact h0 _
            · split
              · split
                · exact h0 _
                · exact h3 _ _ _ _ _ _ _ (by simp [writes]) (by simp [writes]) (by simp [writes])
              · exact h0 _
      · exact hw
    · exact hw
  case rsaFinal c rnd r off len r' off' =>
    intro e he
    simp only [sem] at he
    split at he
    · rw [Option.map_eq_some_iff] at he
      obtain ⟨y, _, rfl⟩ := he
      exact h1 _ _ _ (by simp [writes])
    · injection he with he; subst he; exact hw
  case aidGetPartialBytes a aidOff r off len =>
    intro e he
    simp only [sem, Option.some.injEq] at he
    subst he
    refine onArray_ind hw fun l hl => ?_
    split
    · next x _ =>
      refine hsame _ _ _ ?_
      have : (x.getPartialBytes aidOff l off len).2 = l := by
        unfold AID.getPartialBytes
        simp only
        (repeat' split) <;> rfl
      rw [this, hl]
    · exact hw
  all_goals
    intro e he
    simp only [sem, Option.some.injEq] at he
    subst he
    repeat' first
      | exact hw
      | exact h0 _
      | exact h1 _ _ _ (by simp [writes])
      | exact h2 _ _ _ _ _ (by simp [writes]) (by simp [writes])
      | exact h3 _ _ _ _ _ _ _ (by simp [writes]) (by simp [writes]) (by simp [writes])
      | refine onArray_ind hw fun l _ => ?_
      | refine onOptArray_ind hw fun l => ?_
      | refine onPinArg_ind hw fun l => ?_
      | refine onPIN_ind hw fun p o _ => ?_
      | refine onAPDU_ind hw fun r b raw buf x hx _ _ => ?_
      | refine make_ind hw fun _ => ?_
      | refine makeOrMap_ind hw (fun _ => h0 _) fun o _ => ?_
      | split

/-- Objects the call cannot get at are not changed, and what it changes or makes holds only objects it can get at. -/
theorem near_reaches {w : Card} {s : Step} {q : Nat} (h : Near w s q) : Reaches w s q := by
  rcases h with h | ⟨r, hr, hq⟩
  · exact .named q h
  · exact .held r q (.named r hr) hq

/-- C114. A call changes the objects the list `writes` names and no others: the list an operation stores into, the object a method changes, the two
lists of an APDU, the objects it makes and, when an APDU is made, the current APDU. Everything else on the card is as before, whatever the
call and its outcome. -/
theorem C114_frame (env : CryptoEnv) (fuel : Nat) (w w' : Card) (s : Step) (o : Except Err Out) (h : step env fuel w s = some (o, w')) :
    ∀ r, r ∉ writes w s → w' r = w r := by
  intro r hr
  unfold step at h
  rw [Option.map_eq_some_iff] at h
  obtain ⟨e, he, h⟩ := h
  injection h with h1 h2
  subst h2
  exact frame env fuel w s e he r hr

/-- C114. A call depends only on the objects it mentions, those these hold, and so on: on a card where these are the same, the call has the same
outcome and leaves them the same. -/
theorem C114_reads (env : CryptoEnv) (fuel : Nat) (w v : Card) (s : Step) (h : ∀ r, Reaches w s r → v r = w r) :
    (step env fuel w s = none → step env fuel v s = none) ∧
    ∀ o w', step env fuel w s = some (o, w') → ∃ v', step env fuel v s = some (o, v') ∧ ∀ r, (v' r = w' r ∧ Reaches w s r) ∨ (v' r = v r ∧ w' r = w r) := by
  have hs := sem_congr env fuel w v s h
  constructor
  · intro hn
    unfold step at hn ⊢
    rw [hs]; rw [Option.map_eq_none_iff] at hn ⊢; exact hn
  · intro o w' hw
    unfold step at hw
    rw [Option.map_eq_some_iff] at hw
    obtain ⟨e, he, hw⟩ := hw
    injection hw with h1 h2
    subst h1 h2
    refine ⟨v.put e.2, by unfold step; rw [hs, he]; rfl, fun r => ?_⟩
    have hst := stays env fuel w s e he
    clear he hs
    obtain ⟨o, us⟩ := e
    simp only at hst ⊢
    by_cases hr : Reaches w s r
    · refine .inl ⟨?_, hr⟩
      exact put_same _ _ us r (h r hr)
    · refine .inr ?_
      have hne : ∀ u ∈ us, u.1 ≠ r := fun u hu hc => hr (hc ▸ near_reaches (hst u hu).1)
      exact ⟨put_other v us r hne, put_other w us r hne⟩

/-! ### Several programs on one card -/

theorem reaches_owner {ι : Type} {owner : Nat → ι} {w : Card} {i : ι} {s : Step} (hs : Separate owner w) (hn : ∀ r ∈ names s, owner r = i) {r : Nat}
    (h : Reaches w s r) : owner r = i := by
  induction h with
  | named r hr => exact hn r hr
  | held r q _ hq ih => rw [hs r q hq, ih]

theorem own_step {ι : Type} {owner : Nat → ι} {w w' : Card} {i : ι} {s : Step} {o} {env : CryptoEnv} {fuel : Nat} (hs : Separate owner w)
    (hn : ∀ r ∈ names s, owner r = i) (h : step env fuel w s = some (o, w')) : Separate owner w' ∧ ∀ r, owner r ≠ i → w' r = w r := by
  unfold step at h
  rw [Option.map_eq_some_iff] at h
  obtain ⟨e, he, h⟩ := h
  injection h with h1 h2
  subst h1 h2
  have hst := stays env fuel w s e he
  have key : ∀ u ∈ e.2, owner u.1 = i ∧ ∀ q ∈ u.2.refs, owner q = i := fun u hu =>
    ⟨reaches_owner hs hn (near_reaches (hst u hu).1), fun q hq => reaches_owner hs hn (near_reaches ((hst u hu).2 q hq))⟩
  constructor
  · intro r q hq
    rcases put_mem w e.2 r with h | ⟨u, hu, h1, h2⟩
    · rw [h] at hq; exact hs r q hq
    · rw [h2] at hq
      rw [(key u hu).2 q hq, ← h1, (key u hu).1]
  · intro r hr
    exact put_other w e.2 r fun u hu hc => hr (hc ▸ (key u hu).1)

theorem same_step {ι : Type} {owner : Nat → ι} {w v : Card} {i : ι} {s : Step} {env : CryptoEnv} {fuel : Nat} (hs : Separate owner w)
    (hn : ∀ r ∈ names s, owner r = i) (hv : ∀ r, owner r = i → v r = w r) :
    (step env fuel w s = none → step env fuel v s = none) ∧
    ∀ o w', step env fuel w s = some (o, w') → ∃ v', step env fuel v s = some (o, v') ∧ ∀ r, owner r = i → v' r = w' r := by
  obtain ⟨h1, h2⟩ := C114_reads env fuel w v s fun r hr => hv r (reaches_owner hs hn hr)
  refine ⟨h1, fun o w' hw => ?_⟩
  obtain ⟨v', hv', h⟩ := h2 o w' hw
  refine ⟨v', hv', fun r hr => ?_⟩
  rcases h r with ⟨h, _⟩ | ⟨ha, hb⟩
  · exact h
  · rw [ha, hb, hv r hr]

/-- The interleaved run and the run of one program alone, from two states that look the same to it. -/
theorem exec_alone {ι : Type} [DecidableEq ι] (env : CryptoEnv) (fuel : Nat) (owner : Nat → ι) (progs : ι → Prog) (hp : ∀ i, Minds owner i (progs i)) (i : ι) :
    ∀ (sched : List ι) (c d c' : Config ι), Separate owner c.card → Separate owner d.card → (∀ r, owner r = i → d.card r = c.card r) → d.seen i = c.seen i →
      exec env fuel progs c sched = some c' →
      ∃ d', exec env fuel progs d (sched.filter (· = i)) = some d' ∧ d'.seen i = c'.seen i ∧ ∀ r, owner r = i → d'.card r = c'.card r := by
  intro sched
  induction sched with
  | nil =>
    intro c d c' _ _ hr hseen h
    injection h with h; subst h
    exact ⟨d, rfl, hseen, hr⟩
  | cons j sched ih =>
    intro c d c' hc hd hr hseen h
    unfold exec at h
    by_cases hj : j = i
    · subst hj
      rw [List.filter_cons_of_pos (by simp)]
      unfold exec
      rw [hseen]
      cases hs : progs j (c.seen j) with
      | none => rw [hs] at h; exact ih c d c' hc hd hr hseen h
      | some s =>
        rw [hs] at h
        simp only at h ⊢
        have hn := hp j _ s hs
        cases hst : step env fuel c.card s with
        | none => rw [hst] at h; simp at h
        | some x =>
          obtain ⟨o, w⟩ := x
          rw [hst] at h
          simp only at h
          obtain ⟨v, hv, hvw⟩ := (same_step hc hn hr).2 o w hst
          rw [hv]
          exact ih _ _ c' (own_step hc hn hst).1 (own_step hd hn hv).1 hvw (by simp) h
    · rw [List.filter_cons_of_neg (by simpa using hj)]
      cases hs : progs j (c.seen j) with
      | none => rw [hs] at h; exact ih c d c' hc hd hr hseen h
      | some s =>
        rw [hs] at h
        simp only at h
        have hn := hp j _ s hs
        cases hst : step env fuel c.card s with
        | none => rw [hst] at h; simp at h
        | some x =>
          obtain ⟨o, w⟩ := x
          rw [hst] at h
          simp only at h
          obtain ⟨h1, h2⟩ := own_step hc hn hst
          refine ih ⟨w, _⟩ d c' h1 hd (fun r hri => ?_) ?_ h
          · rw [hr r hri]; exact (h2 r (by rw [hri]; exact fun e => hj e.symm)).symm
          · show d.seen i = if i = j then _ else c.seen i
            rw [if_neg (fun e => hj e.symm), hseen]

/-- If each program alone returns from all its calls, so do they together. -/
theorem exec_defined {ι : Type} [DecidableEq ι] (env : CryptoEnv) (fuel : Nat) (owner : Nat → ι) (progs : ι → Prog) (hp : ∀ i, Minds owner i (progs i)) :
    ∀ (sched : List ι) (c : Config ι) (d : ι → Config ι), Separate owner c.card → (∀ i, Separate owner (d i).card) →
      (∀ i r, owner r = i → (d i).card r = c.card r) → (∀ i, (d i).seen i = c.seen i) →
      (∀ i, exec env fuel progs (d i) (sched.filter (· = i)) ≠ none) → exec env fuel progs c sched ≠ none := by
  intro sched
  induction sched with
  | nil => intro c d _ _ _ _ _ h; simp [exec] at h
  | cons j sched ih =>
    intro c d hc hd hr hseen hdef
    unfold exec
    have hdj := hdef j
    rw [List.filter_cons_of_pos (by simp)] at hdj
    unfold exec at hdj
    rw [hseen] at hdj
    have hothers : ∀ i, i ≠ j → exec env fuel progs (d i) (sched.filter (· = i)) ≠ none := by
      intro i hi
      have := hdef i
      rw [List.filter_cons_of_neg (by simpa using fun e => hi e.symm)] at this
      exact this
    cases hs : progs j (c.seen j) with
    | none =>
      rw [hs] at hdj
      simp only at hdj ⊢
      refine ih c d hc hd hr hseen fun i => ?_
      by_cases hi : i = j
      · subst hi; exact hdj
      · exact hothers i hi
    | some s =>
      rw [hs] at hdj
      simp only at hdj ⊢
      have hn := hp j _ s hs
      cases hst : step env fuel c.card s with
      | none =>
        rw [(same_step hc hn (hr j)).1 hst] at hdj
        simp at hdj
      | some x =>
        obtain ⟨o, w⟩ := x
        simp only
        obtain ⟨v, hv, hvw⟩ := (same_step hc hn (hr j)).2 o w hst
        rw [hv] at hdj
        simp only at hdj
        obtain ⟨h1, h2⟩ := own_step hc hn hst
        refine ih _ (fun i => if i = j then ⟨v, fun k => if k = j then c.seen j ++ [o] else (d j).seen k⟩ else d i) h1 (fun i => ?_) (fun i r hir => ?_) (fun i => ?_) fun i => ?_
        · by_cases hi : i = j
          · rw [if_pos hi]; exact (own_step (hd j) hn hv).1
          · rw [if_neg hi]; exact hd i
        · by_cases hi : i = j
          · rw [if_pos hi]; exact hvw r (hir.trans hi)
          · rw [if_neg hi, hr i r hir]; exact (h2 r (by rw [hir]; exact hi)).symm
        · by_cases hi : i = j
          · simp only [if_pos hi]
          · simp only [if_neg hi]; exact hseen i
        · by_cases hi : i = j
          · subst hi; rw [if_pos rfl]; exact hdj
          · rw [if_neg hi]; exact hothers i hi

/-- C114. Programs that share no object do not notice each other. Let every address belong to one program, let no object of one program hold an
object of another at the start, and let each program mention only its own addresses (the module with the current APDU belongs to one of
them, so only that one makes APDUs or asks for the current one). Then, for every schedule of their calls, each program sees the outcomes it
would see alone, and its objects are at the end as they would be if it had run alone. -/
theorem C114_alone {ι : Type} [DecidableEq ι] (env : CryptoEnv) (fuel : Nat) (owner : Nat → ι) (progs : ι → Prog) (hp : ∀ i, Minds owner i (progs i))
    (c c' : Config ι) (hc : Separate owner c.card) (sched : List ι) (h : exec env fuel progs c sched = some c') (i : ι) :
    ∃ d, exec env fuel progs c (List.replicate (sched.count i) i) = some d ∧ d.seen i = c'.seen i ∧ ∀ r, owner r = i → d.card r = c'.card r := by
  have := exec_alone env fuel owner progs hp i sched c c c' hc hc (fun _ _ => rfl) rfl h
  have e : sched.filter (· = i) = List.replicate (sched.count i) i := by
    rw [← List.filter_beq]
    congr 1
  rw [e] at this
  exact this

/-- C114. The order in which such programs get their turns does not matter at all: with the same number of turns for each, the outcomes each has seen
and the whole card at the end are the same (and if the calls of one program do not return, neither schedule returns). -/
theorem C114_order {ι : Type} [DecidableEq ι] (env : CryptoEnv) (fuel : Nat) (owner : Nat → ι) (progs : ι → Prog) (hp : ∀ i, Minds owner i (progs i))
    (c : Config ι) (hc : Separate owner c.card) (sched sched' : List ι) (h : sched.Perm sched') :
    exec env fuel progs c sched = exec env fuel progs c sched' := by
  have key : ∀ sched sched' : List ι, sched.Perm sched' → ∀ c1, exec env fuel progs c sched = some c1 → exec env fuel progs c sched' = some c1 := by
    intro s1 s2 hperm c1 h1
    have hf : ∀ i, s1.filter (· = i) = s2.filter (· = i) := by
      intro i
      have e : ∀ l : List ι, l.filter (· = i) = List.replicate (l.count i) i := by
        intro l; rw [← List.filter_beq]; congr 1
      rw [e, e, hperm.count_eq]
    have hd : exec env fuel progs c s2 ≠ none := by
      refine exec_defined env fuel owner progs hp s2 c (fun _ => c) hc (fun _ => hc) (fun _ _ _ => rfl) (fun _ => rfl) fun i => ?_
      obtain ⟨d, hd, _⟩ := exec_alone env fuel owner progs hp i s1 c c c1 hc hc (fun _ _ => rfl) rfl h1
      rw [← hf i, hd]; simp
    cases h2 : exec env fuel progs c s2 with
    | none => exact absurd h2 hd
    | some c2 =>
      have : c2 = c1 := by
        obtain ⟨w1, n1⟩ := c1
        obtain ⟨w2, n2⟩ := c2
        have hw : w2 = w1 := by
          funext r
          obtain ⟨d, hd, _, hr⟩ := exec_alone env fuel owner progs hp (owner r) s1 c c _ hc hc (fun _ _ => rfl) rfl h1
          obtain ⟨d', hd', _, hr'⟩ := exec_alone env fuel owner progs hp (owner r) s2 c c _ hc hc (fun _ _ => rfl) rfl h2
          rw [hf (owner r), hd'] at hd
          injection hd with hd
          subst hd
          exact (hr' r rfl).symm.trans (hr r rfl)
        have hn : n2 = n1 := by
          funext i
          obtain ⟨d, hd, hr, _⟩ := exec_alone env fuel owner progs hp i s1 c c _ hc hc (fun _ _ => rfl) rfl h1
          obtain ⟨d', hd', hr', _⟩ := exec_alone env fuel owner progs hp i s2 c c _ hc hc (fun _ _ => rfl) rfl h2
          rw [hf i, hd'] at hd
          injection hd with hd
          subst hd
          exact hr'.symm.trans hr
        rw [hw, hn]
      rw [this]
  cases h1 : exec env fuel progs c sched with
  | some c1 => exact (key sched sched' h c1 h1).symm
  | none =>
    cases h2 : exec env fuel progs c sched' with
    | none => rfl
    | some c2 => rw [key sched' sched h.symm c2 h2] at h1; simp at h1

/-- Nothing is held on a blank card. -/
theorem separate_blank {ι : Type} (owner : Nat → ι) : Separate owner Card.blank := by
  intro r q hq
  by_cases h : r = MODULE
  · simp [Card.blank, h, Obj.refs] at hq
  · simp [Card.blank, h, Obj.refs] at hq

theorem minds_ofList {ι : Type} {owner : Nat → ι} {i : ι} {l : List Step} (h : ∀ s ∈ l, ∀ r ∈ names s, owner r = i) : Minds owner i (ofList l) := by
  intro seen s hs
  exact h s (List.mem_of_getElem? hs)

/-! A bank applet and a PIN applet on one card: the first (addresses below 10, the module among them) makes an APDU, receives it, copies its data into
an array and makes a TLV from it; the second (addresses from 10 on) has a PIN and a DES key. -/

private def bank : List Step :=
  [.newArray 1 [0, 0xB0, 0, 0, 3, 7, 8, 9], .newAPDU 2 3 1, .apdu 2 .setIncomingAndReceive, .getBuffer 2, .newArray 4 [0, 0, 0, 0, 0], .arrayCopy 3 5 4 1 3, .newTag 5 false,
   .tagInitNumber 5 0 1, .newTLV 6 false, .tlvInit 6 7 5 4 1 3, .getTag 6, .tagInitNumber 5 0 9, .tlvToBytes 6 4 0, .load 4 0, .claChannel]

private def pinApplet : List Step :=
  [.newArray 11 [1, 2, 3, 4], .newPIN 10 3 4, .pinUpdate 10 (.inr 11) 0 1, .pinReset 10, .pinCheck 10 (.inr 11) 0 1, .buildKey 12 [3, 64, 0], .askKey 12 .isInitialized, .pinCheck 10 (.inl [9]) 0 1,
   .pinTries 10]

private def someEnv : CryptoEnv := ⟨false, true, ⟨fun _ _ => .error .typeError, fun _ _ => .error .typeError⟩, fun _ _ => []⟩

private def owners : Nat → Bool := fun r => decide (10 ≤ r)

private def applets : Bool → Prog
  | false => ofList bank
  | true => ofList pinApplet

private theorem applets_mind : ∀ i, Minds owners i (applets i) := by
  intro i
  cases i with
  | false => exact minds_ofList (by decide)
  | true => exact minds_ofList (by decide)

/-- The hypotheses hold, so the two may be interleaved in any way; what they see, in one of them. -/
example : ((exec someEnv 10 applets ⟨Card.blank, fun _ => []⟩
      [false, true, true, false, true, false, true, false, false, true, false, true, true, false, true, false, false, false, true, false, false, false, false, false]).map fun c => (c.seen true, c.seen false)) = some
    ([.ok (.ref 11), .ok (.ref 10), .ok .nothing, .ok .nothing, .ok (.bool true), .ok (.ref 12), .ok (.bool false), .ok (.bool false), .ok (.int 2)],
     [.ok (.ref 1), .ok (.ref 2), .ok (.int 3), .ok (.ref 3), .ok (.ref 4), .ok .nothing, .ok (.ref 5), .ok .nothing, .ok (.ref 6), .ok (.int 4), .ok (.ref 7),
      .ok .nothing, .ok (.int 5), .ok (.int 1), .ok (.int 0)]) := by
  decide +kernel

/-- The other way round, and one after the other, they see the same. -/
example (sched sched' : List Bool) (h : sched.Perm sched') :
    exec someEnv 10 applets ⟨Card.blank, fun _ => []⟩ sched = exec someEnv 10 applets ⟨Card.blank, fun _ => []⟩ sched' :=
  C114_order someEnv 10 owners applets applets_mind ⟨Card.blank, fun _ => []⟩ (separate_blank owners) sched sched' h

/-! Two programs that each make an APDU do notice each other although they share no object but the module: `getCLAChannel` of the first answers for
the APDU of the second when that one is made in between. -/

private def first : List Step := [.newArray 1 [1, 0, 0, 0], .newAPDU 2 3 1, .claChannel]
private def second : List Step := [.newArray 11 [2, 0, 0, 0], .newAPDU 12 13 11]
private def both : Bool → Prog
  | false => ofList first
  | true => ofList second

example : ((exec someEnv 0 both ⟨Card.blank, fun _ => []⟩ [true, true, false, false, false]).map fun c => c.seen false) = some [.ok (.ref 1), .ok (.ref 2), .ok (.int 1)] := by
  decide +kernel
example : ((exec someEnv 0 both ⟨Card.blank, fun _ => []⟩ [false, false, true, true, false]).map fun c => c.seen false) = some [.ok (.ref 1), .ok (.ref 2), .ok (.int 2)] := by
  decide +kernel

end Verif.Props
