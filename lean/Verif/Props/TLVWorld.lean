import Verif.Model.TLVWorld
/-! C104: what TLV objects share with the arrays, tags and TLVs they were made from. -/
namespace Verif.Props
open Verif.Py Verif.Model Verif.Model.TLVWorld

/-- The calls that may change the TLV object `k`: `init`, `append` and `replaceValue` on it, and `init` on the tag object `g` it hands out. -/
def ChangesTLV (k : Nat) (g : Option Nat) : Step → Prop
  | .init k' _ _ _ _ => k' = k
  | .append k' _ => k' = k
  | .replaceValue k' _ _ _ => k' = k
  | .tagInitArray g' _ _ => g = some g'
  | .tagInitNumber g' _ _ => g = some g'
  | _ => False

/-- The calls that may change the tag object `g`: `init` on it. -/
def ChangesTag (g : Nat) : Step → Prop
  | .tagInitArray g' _ _ => g' = g
  | .tagInitNumber g' _ _ => g' = g
  | _ => False

/-- The calls that may change the caller's list `r`: those told to write into it, and the caller itself. -/
def ChangesArray (r : Nat) : Step → Prop
  | .tagToBytes _ r' _ => r' = r
  | .appendStatic _ _ r' _ => r' = r
  | .getValue _ r' _ => r' = r
  | .toBytes _ r' _ => r' = r
  | .write r' _ => r' = r
  | _ => False

theorem addTLV_tags (w : TLVWorld) (t : BERTLV) (g : Nat) (h : g < w.tags.length) : (w.addTLV t).tags[g]? = w.tags[g]? := by
  unfold addTLV
  split
  · rfl
  · exact List.getElem?_append_left h

theorem addTLV_tlvs (w : TLVWorld) (t : BERTLV) (k : Nat) (h : k < w.tlvs.length) : (w.addTLV t).tlvs[k]? = w.tlvs[k]? := by
  unfold addTLV
  split <;> exact List.getElem?_append_left h

theorem addTLV_arrays (w : TLVWorld) (t : BERTLV) : (w.addTLV t).arrays = w.arrays := by
  unfold addTLV
  split <;> rfl

theorem addTLV_le (w : TLVWorld) (t : BERTLV) : w.tags.length ≤ (w.addTLV t).tags.length ∧ w.tlvs.length ≤ (w.addTLV t).tlvs.length := by
  unfold addTLV
  split <;> simp

/-- What any step leaves alone. -/
structure Keeps (w w' : TLVWorld) (s : Step) : Prop where
  tags : ∀ g, g < w.tags.length → ¬ ChangesTag g s → w'.tags[g]? = w.tags[g]?
  tlvs : ∀ k, k < w.tlvs.length → ¬ ChangesTLV k none s → w'.tlvs[k]? = w.tlvs[k]?
  arrays : ∀ r, ¬ ChangesArray r s → w'.arrays r = w.arrays r
  ntags : w.tags.length ≤ w'.tags.length
  ntlvs : w.tlvs.length ≤ w'.tlvs.length

theorem Keeps.refl (w : TLVWorld) (s : Step) : Keeps w w s :=
  ⟨fun _ _ _ => rfl, fun _ _ _ => rfl, fun _ _ => rfl, Nat.le_refl _, Nat.le_refl _⟩

theorem Keeps.setArray (w : TLVWorld) (r : Nat) (l : List Int) (s : Step) (h : ∀ q, ¬ ChangesArray q s → q ≠ r) : Keeps w (w.setArray r l) s := by
  refine ⟨fun _ _ _ => rfl, fun _ _ _ => rfl, fun q hq => ?_, Nat.le_refl _, Nat.le_refl _⟩
  unfold TLVWorld.setArray
  exact if_neg (h q hq)

theorem Keeps.addTLV (w : TLVWorld) (t : BERTLV) (s : Step) : Keeps w (w.addTLV t) s :=
  ⟨fun g h _ => addTLV_tags w t g h, fun k h _ => addTLV_tlvs w t k h, fun r _ => by rw [addTLV_arrays], (addTLV_le w t).1, (addTLV_le w t).2⟩

theorem Keeps.setTLV (w : TLVWorld) (k : Nat) (t : BERTLV) (s : Step) (h : ∀ q, ¬ ChangesTLV q none s → q ≠ k) : Keeps w (w.setTLV k t) s := by
  refine ⟨fun _ _ _ => rfl, fun q _ hs => ?_, fun q _ => rfl, Nat.le_refl _, by simp [TLVWorld.setTLV]⟩
  unfold TLVWorld.setTLV
  rw [List.getElem?_modify]
  simp only [if_neg (show ¬ k = q from fun e => h q hs e.symm)]
  cases w.tlvs[q]? <;> rfl

theorem Keeps.addTag (w : TLVWorld) (g : BERTag) (s : Step) : Keeps w { w with tags := w.tags ++ [g] } s :=
  ⟨fun _ h _ => List.getElem?_append_left h, fun _ _ _ => rfl, fun _ _ => rfl, by simp, Nat.le_refl _⟩

theorem Keeps.setTag (w : TLVWorld) (g : Nat) (t : BERTag) (s : Step) (h : ∀ q, ¬ ChangesTag q s → q ≠ g) : Keeps w { w with tags := w.tags.set g t } s :=
  ⟨fun q _ hs => by simp only; rw [List.getElem?_set_ne (fun e => h q hs e.symm)], fun _ _ _ => rfl, fun _ _ => rfl, by simp, Nat.le_refl _⟩

theorem found_keeps (w : TLVWorld) (r : Except Err (Option BERTLV)) (s : Step) : Keeps w (w.found r).2 s := by
  unfold found
  split
  · exact Keeps.refl w s
  · exact Keeps.refl w s
  · exact Keeps.addTLV w _ s

theorem setTLV_self (w : TLVWorld) (k : Nat) (t : BERTLV) (h : w.view k = some t) : w.setTLV k t = w := by
  unfold TLVWorld.setTLV
  unfold view at h
  cases w with
  | mk a g l =>
    simp only [TLVWorld.mk.injEq, true_and]
    apply List.ext_getElem?
    intro q
    rw [List.getElem?_modify]
    by_cases hq : k = q
    · subst hq
      simp only [if_true]
      simp only at h
      cases hk : l[k]? with
      | none => rfl
      | some x =>
        rw [hk] at h
        simp only [Option.map_some, Option.some.injEq] at h
        subst h
        rfl
    · simp only [if_neg hq]
      cases l[q]? <;> rfl

theorem step_keeps (fuel : Nat) (w w' : TLVWorld) (s : Step) (r : Except Err Out) (h : w.step fuel s = some (r, w')) : Keeps w w' s := by
  cases s <;> simp only [step] at h
  case newTag c => cases h; exact Keeps.addTag w _ _
  case tagGetInstance q off => split at h <;> cases h; exact Keeps.refl w _; exact Keeps.addTag w _ _
  case tagInitArray g q off =>
    split at h <;> cases h
    · exact Keeps.refl w _
    · exact Keeps.setTag w g _ _ (fun q hq e => hq e.symm)
  case tagInitNumber g c n =>
    split at h <;> cases h
    · exact Keeps.refl w _
    · exact Keeps.setTag w g _ _ (fun q hq e => hq e.symm)
  case tagToBytes g q off =>
    split at h <;> cases h
    · exact Keeps.refl w _
    · exact Keeps.setArray w q _ _ (fun r hr e => hr e.symm)
  case newTLV c => cases h; exact Keeps.addTLV w _ _
  case getInstance q off len => split at h <;> cases h; exact Keeps.refl w _; exact Keeps.addTLV w _ _
  case init k g q off len =>
    split at h <;> cases h
    · refine ⟨fun _ h _ => List.getElem?_append_left h, fun q _ hs => ?_, fun _ _ => rfl, by simp, by simp⟩
      simp only
      exact List.getElem?_set_ne (fun e => hs e)
    · exact Keeps.refl w _
  case initArray k q off len =>
    split at h <;> cases h
    · exact Keeps.refl w _
    · rename_i t ht
      have : (t.initArray (w.arrays q) off len).2 = t := by
        unfold BERTLV.initArray
        split <;> rfl
      rw [this, setTLV_self w k t ht]
      exact Keeps.refl w _
  case getTag k => split at h <;> cases h <;> exact Keeps.refl w _
  case append k j =>
    split at h <;> cases h
    · exact Keeps.setTLV w k _ _ (fun q hq e => hq e.symm)
    · exact Keeps.refl w _
  case appendStatic q off q' off' => cases h; exact Keeps.setArray w q' _ _ (fun r hr e => hr e.symm)
  case find k g =>
    split at h
    · rename_i t tag _ _
      cases hf : t.find tag fuel with
      | none => rw [hf] at h; cases h
      | some x =>
        rw [hf] at h
        injection h with h
        have := found_keeps w x (.find k g)
        rw [h] at this
        exact this
    · cases h; exact Keeps.refl w _
  case findNext k g j n =>
    split at h
    · rename_i t tag a _ _ _
      cases hf : t.findNext tag a n fuel with
      | none => rw [hf] at h; cases h
      | some x =>
        rw [hf] at h
        injection h with h
        have := found_keeps w x (.findNext k g j n)
        rw [h] at this
        exact this
    · cases h; exact Keeps.refl w _
  case getValue k q off =>
    split at h <;> cases h
    · exact Keeps.refl w _
    · exact Keeps.setArray w q _ _ (fun r hr e => hr e.symm)
  case replaceValue k q off len =>
    split at h <;> cases h
    · exact Keeps.refl w _
    · exact Keeps.setTLV w k _ _ (fun q hq e => hq e.symm)
  case toBytes k q off =>
    split at h <;> cases h
    · exact Keeps.refl w _
    · exact Keeps.setArray w q _ _ (fun r hr e => hr e.symm)
  case write q l => cases h; exact Keeps.setArray w q _ _ (fun r hr e => hr e.symm)

/-- Each TLV object has its own tag object. -/
structure Separate (w : TLVWorld) : Prop where
  bound : ∀ k g, w.tagOf k = some g → g < w.tags.length
  inj : ∀ k k' g, w.tagOf k = some g → w.tagOf k' = some g → k = k'

/-- A world whose TLV objects refer to the tag objects they referred to, but for one that may refer to a new one. -/
theorem Separate.next (w w' : TLVWorld) (k0 : Nat) (h : Separate w) (hn : w.tags.length ≤ w'.tags.length)
    (hk : ∀ k, k ≠ k0 → ∀ g, w'.tagOf k = some g → w.tagOf k = some g)
    (h0 : ∀ g, w'.tagOf k0 = some g → w.tagOf k0 = some g ∨ (g = w.tags.length ∧ g < w'.tags.length)) : Separate w' := by
  have key : ∀ k g, w'.tagOf k = some g → w.tagOf k = some g ∨ (k = k0 ∧ g = w.tags.length ∧ g < w'.tags.length) := by
    intro k g hg
    by_cases e : k = k0
    · subst e
      rcases h0 g hg with h1 | h1
      · exact .inl h1
      · exact .inr ⟨rfl, h1.1, h1.2⟩
    · exact .inl (hk k e g hg)
  constructor
  · intro k g hg
    rcases key k g hg with h1 | h1
    · have := h.bound k g h1; omega
    · exact h1.2.2
  · intro k k' g hg hg'
    rcases key k g hg with h1 | h1 <;> rcases key k' g hg' with h2 | h2
    · exact h.inj k k' g h1 h2
    · have := h.bound k g h1; omega
    · have := h.bound k' g h2; omega
    · rw [h1.1, h2.1]

theorem Separate.same (w w' : TLVWorld) (h : Separate w) (hn : w.tags.length ≤ w'.tags.length) (hk : ∀ k, w'.tagOf k = w.tagOf k) : Separate w' :=
  h.next w w' 0 hn (fun k _ g hg => by rw [← hk]; exact hg) (fun g hg => .inl (by rw [← hk]; exact hg))

theorem separate_addTLV (w : TLVWorld) (t : BERTLV) (h : Separate w) : Separate (w.addTLV t) := by
  refine h.next w _ w.tlvs.length (addTLV_le w t).1 ?_ ?_
  · intro k hk g hg
    unfold tagOf at hg ⊢
    by_cases hlt : k < w.tlvs.length
    · rw [addTLV_tlvs w t k hlt] at hg; exact hg
    · have hl : (w.addTLV t).tlvs.length = w.tlvs.length + 1 := by unfold addTLV; split <;> simp
      rw [List.getElem?_eq_none (by omega)] at hg
      cases hg
  · intro g hg
    right
    unfold tagOf addTLV at hg
    unfold addTLV
    split at hg
    · rw [List.getElem?_append_right (Nat.le_refl _), Nat.sub_self] at hg; cases hg
    · rw [List.getElem?_append_right (Nat.le_refl _), Nat.sub_self] at hg
      simp only [List.getElem?_cons_zero, Option.bind_some, Option.some.injEq] at hg
      subst hg
      simp

theorem tagOf_setTLV (w : TLVWorld) (k : Nat) (t : BERTLV) (q : Nat) : (w.setTLV k t).tagOf q = w.tagOf q := by
  unfold tagOf TLVWorld.setTLV
  rw [List.getElem?_modify]
  split <;> cases w.tlvs[q]? <;> rfl

theorem separate_found (w : TLVWorld) (r : Except Err (Option BERTLV)) (h : Separate w) : Separate (w.found r).2 := by
  unfold found
  split
  · exact h
  · exact h
  · exact separate_addTLV w _ h

theorem separate_step (fuel : Nat) (w w' : TLVWorld) (s : Step) (r : Except Err Out) (hw : Separate w) (h : w.step fuel s = some (r, w')) : Separate w' := by
  have hkeep := step_keeps fuel w w' s r h
  cases s <;> simp only [step] at h
  case newTag c => cases h; exact hw.same w _ hkeep.ntags (fun _ => rfl)
  case tagGetInstance q off => split at h <;> cases h <;> exact hw.same w _ hkeep.ntags (fun _ => rfl)
  case tagInitArray g q off => split at h <;> cases h <;> exact hw.same w _ hkeep.ntags (fun _ => rfl)
  case tagInitNumber g c n => split at h <;> cases h <;> exact hw.same w _ hkeep.ntags (fun _ => rfl)
  case tagToBytes g q off => split at h <;> cases h <;> exact hw.same w _ hkeep.ntags (fun _ => rfl)
  case newTLV c => cases h; exact separate_addTLV w _ hw
  case getInstance q off len => split at h <;> cases h; exact hw; exact separate_addTLV w _ hw
  case init k g q off len =>
    split at h <;> cases h
    · refine hw.next w _ k hkeep.ntags ?_ ?_
      · intro k' hk' g' hg'
        unfold tagOf at hg' ⊢
        simp only at hg'
        rw [List.getElem?_set_ne (fun e => hk' e.symm)] at hg'
        exact hg'
      · intro g' hg'
        right
        unfold tagOf at hg'
        simp only [List.getElem?_set, if_true] at hg'
        split at hg'
        · simp only [Option.bind_some, Option.some.injEq] at hg'
          subst hg'
          simp
        · cases hg'
    · exact hw
  case initArray k q off len =>
    split at h <;> cases h
    · exact hw
    · exact hw.same w _ hkeep.ntags (fun q => tagOf_setTLV w k _ q)
  case getTag k => split at h <;> cases h <;> exact hw
  case append k j =>
    split at h <;> cases h
    · exact hw.same w _ hkeep.ntags (fun q => tagOf_setTLV w k _ q)
    · exact hw
  case appendStatic q off q' off' => cases h; exact hw.same w _ hkeep.ntags (fun _ => rfl)
  case find k g =>
    split at h
    · rename_i t tag _ _
      cases hf : t.find tag fuel with
      | none => rw [hf] at h; cases h
      | some x =>
        rw [hf] at h
        injection h with h
        have := separate_found w x hw
        rw [h] at this
        exact this
    · cases h; exact hw
  case findNext k g j n =>
    split at h
    · rename_i t tag a _ _ _
      cases hf : t.findNext tag a n fuel with
      | none => rw [hf] at h; cases h
      | some x =>
        rw [hf] at h
        injection h with h
        have := separate_found w x hw
        rw [h] at this
        exact this
    · cases h; exact hw
  case getValue k q off => split at h <;> cases h <;> exact hw.same w _ hkeep.ntags (fun _ => rfl)
  case replaceValue k q off len =>
    split at h <;> cases h
    · exact hw
    · exact hw.same w _ hkeep.ntags (fun q => tagOf_setTLV w k _ q)
  case toBytes k q off => split at h <;> cases h <;> exact hw.same w _ hkeep.ntags (fun _ => rfl)
  case write q l => cases h; exact hw.same w _ hkeep.ntags (fun _ => rfl)

theorem separate_run (fuel : Nat) (ss : List Step) : ∀ w w' : TLVWorld, Separate w → w.run fuel ss = some w' → Separate w' := by
  induction ss with
  | nil => intro w w' hw h; cases h; exact hw
  | cons s ss ih =>
    intro w w' hw h
    simp only [run] at h
    split at h
    · cases h
    · rename_i r w1 h1
      exact ih w1 w' (separate_step fuel w w1 s r hw h1) h

theorem separate_start (arrays : Nat → List Int) : Separate (start arrays) :=
  ⟨fun k g h => by simp [tagOf, start] at h, fun k k' g h => by simp [tagOf, start] at h⟩

/-- A TLV object that a step may not change. -/
theorem step_view (fuel : Nat) (w w' : TLVWorld) (s : Step) (r : Except Err Out) (hw : Separate w) (h : w.step fuel s = some (r, w')) (k : Nat) (t : BERTLV)
    (hk : w.view k = some t) (hs : ¬ ChangesTLV k (w.tagOf k) s) : w'.view k = some t ∧ w'.tagOf k = w.tagOf k := by
  have hkeep := step_keeps fuel w w' s r h
  have hlt : k < w.tlvs.length := by
    unfold view at hk
    by_cases hlt : k < w.tlvs.length
    · exact hlt
    · rw [List.getElem?_eq_none (by omega)] at hk; cases hk
  have h1 : w'.tlvs[k]? = w.tlvs[k]? := hkeep.tlvs k hlt (fun hc => hs (by
    cases s <;> simp only [ChangesTLV] at hc ⊢ <;> first | exact hc | cases hc))
  have htag : w'.tagOf k = w.tagOf k := by unfold tagOf; rw [h1]
  refine ⟨?_, htag⟩
  rw [← hk]
  unfold view
  rw [h1]
  cases hx : w.tlvs[k]? with
  | none => rfl
  | some x =>
    simp only [Option.map_some, Option.some.injEq]
    cases hg : x.tag with
    | none => rfl
    | some g =>
      have htg : w.tagOf k = some g := by unfold tagOf; rw [hx]; exact hg
      have := hkeep.tags g (hw.bound k g htg) (fun hc => hs (by
        rw [htg]
        cases s <;> simp only [ChangesTag] at hc <;> first | exact hc.elim | (subst hc; rfl)))
      simp only [Option.bind_some]
      rw [this]

/-- C104. A TLV object is changed only by init, append and replaceValue calls on it, and through the tag object its getTag returns:
whatever else a program does (changing the arrays, tags and TLVs it was made from or that were added to it, changing TLVs found in it,
encoding it, initialising other TLVs with its tag), it stays what it is. -/
theorem C104_tlv (arrays : Nat → List Int) (fuel : Nat) (before after : List Step) (w w' : TLVWorld) (hb : (start arrays).run fuel before = some w)
    (ha : w.run fuel after = some w') (k : Nat) (t : BERTLV) (hk : w.view k = some t) (hs : ∀ s ∈ after, ¬ ChangesTLV k (w.tagOf k) s) :
    w'.view k = some t ∧ w'.tagOf k = w.tagOf k := by
  have hw := separate_run fuel before _ _ (separate_start arrays) hb
  clear hb
  induction after generalizing w with
  | nil => cases ha; exact ⟨hk, rfl⟩
  | cons s ss ih =>
    simp only [run] at ha
    split at ha
    · cases ha
    · rename_i r w1 h1
      obtain ⟨e1, e2⟩ := step_view fuel w w1 s r hw h1 k t hk (hs s (List.mem_cons_self ..))
      have := ih w1 ha e1 (fun s' hs' => by rw [e2]; exact hs s' (List.mem_cons_of_mem _ hs')) (separate_step fuel w w1 s r hw h1)
      rw [e2] at this
      exact this

/-- C104. A tag object is changed only by init calls on it, and a list of the caller only by the caller and by the calls that are told to write
into it. -/
theorem C104_tags_and_arrays (fuel : Nat) (ss : List Step) (w w' : TLVWorld) (h : w.run fuel ss = some w') :
    (∀ g, g < w.tags.length → (∀ s ∈ ss, ¬ ChangesTag g s) → w'.tags[g]? = w.tags[g]?) ∧
    (∀ r, (∀ s ∈ ss, ¬ ChangesArray r s) → w'.arrays r = w.arrays r) := by
  induction ss generalizing w with
  | nil => cases h; exact ⟨fun _ _ _ => rfl, fun _ _ => rfl⟩
  | cons s ss ih =>
    simp only [run] at h
    split at h
    · cases h
    · rename_i r w1 h1
      have hkeep := step_keeps fuel w w1 s r h1
      obtain ⟨i1, i2⟩ := ih w1 h
      constructor
      · intro g hg hs
        rw [i1 g (Nat.lt_of_lt_of_le hg hkeep.ntags) (fun s' hs' => hs s' (List.mem_cons_of_mem _ hs')), hkeep.tags g hg (hs s (List.mem_cons_self ..))]
      · intro q hs
        rw [i2 q (fun s' hs' => hs s' (List.mem_cons_of_mem _ hs')), hkeep.arrays q (hs s (List.mem_cons_self ..))]

theorem view_setTLV (w : TLVWorld) (k : Nat) (t t' : BERTLV) (h : w.view k = some t) (hc : t'.constructed = t.constructed) (ht : t'.tag = t.tag) :
    (w.setTLV k t').view k = some t' := by
  unfold view TLVWorld.setTLV at *
  rw [List.getElem?_modify]
  simp only [if_true]
  cases hx : w.tlvs[k]? with
  | none => rw [hx] at h; cases h
  | some x =>
    rw [hx] at h
    simp only [Option.map_some, Option.some.injEq] at h
    subst h
    simp only at hc ht
    cases t'
    simp only at hc ht
    simp [hc, ht]

theorem view_addTLV (w : TLVWorld) (t : BERTLV) : (w.addTLV t).view w.tlvs.length = some t := by
  unfold view addTLV
  cases ht : t.tag with
  | none =>
    simp only
    rw [List.getElem?_append_right (Nat.le_refl _), Nat.sub_self]
    cases t
    simp only at ht
    simp [ht]
  | some g =>
    simp only
    rw [List.getElem?_append_right (Nat.le_refl _), Nat.sub_self]
    cases t
    simp only at ht
    simp [ht]

theorem append_class (t a : BERTLV) : (t.append a).2.constructed = t.constructed ∧ (t.append a).2.tag = t.tag := by
  unfold BERTLV.append
  repeat' split
  all_goals exact ⟨rfl, rfl⟩

theorem replaceValue_class (t : BERTLV) (v : List Int) (o l : Int) : (t.replaceValue v o l).2.constructed = t.constructed ∧ (t.replaceValue v o l).2.tag = t.tag := by
  unfold BERTLV.replaceValue
  repeat' split
  all_goals exact ⟨rfl, rfl⟩

/-- C104. What the calls that change a TLV object make of it is what the corresponding operation makes of its current contents and of the current
contents of its arguments; `init` gives it a tag object of its own, an equal copy of the one it was given. -/
theorem C104_changes (fuel : Nat) (w : TLVWorld) (k : Nat) (t : BERTLV) (hk : w.view k = some t) :
    (∀ j a, w.view j = some a → ∃ w', w.step fuel (.append k j) = some ((t.append a).1.map .int, w') ∧ w'.view k = some (t.append a).2) ∧
    (∀ r off len, ∃ w', w.step fuel (.replaceValue k r off len) = some ((t.replaceValue (w.arrays r) off len).1.map (fun _ => .nothing), w') ∧
      w'.view k = some (t.replaceValue (w.arrays r) off len).2) ∧
    (∀ g tag r off len, w.tags[g]? = some tag → ∃ w', w.step fuel (.init k g r off len) = some ((t.initTag tag (w.arrays r) off len).size.map .int, w') ∧
      w'.view k = some (t.initTag tag (w.arrays r) off len) ∧ w'.tagOf k = some w.tags.length) ∧
    (∀ r off len, w.step fuel (.initArray k r off len) = some ((t.initArray (w.arrays r) off len).1.map .int, w)) := by
  refine ⟨?_, ?_, ?_, ?_⟩
  · intro j a hj
    exact ⟨w.setTLV k (t.append a).2, by simp only [step, hk, hj], view_setTLV w k t _ hk (append_class t a).1 (append_class t a).2⟩
  · intro r off len
    exact ⟨w.setTLV k (t.replaceValue (w.arrays r) off len).2, by simp only [step, hk],
      view_setTLV w k t _ hk (replaceValue_class t _ off len).1 (replaceValue_class t _ off len).2⟩
  · intro g tag r off len hg
    have hlt : k < w.tlvs.length := by
      unfold view at hk
      by_cases hlt : k < w.tlvs.length
      · exact hlt
      · rw [List.getElem?_eq_none (by omega)] at hk; cases hk
    refine ⟨_, by simp only [step, hk, hg]; rfl, ?_, ?_⟩
    · unfold view
      simp only [List.getElem?_set, if_pos hlt, if_true, Option.map_some, Option.bind_some]
      rw [List.getElem?_append_right (Nat.le_refl _), Nat.sub_self]
      rfl
    · unfold tagOf
      simp only [List.getElem?_set, if_pos hlt, if_true, Option.bind_some]
  · intro r off len
    simp only [step, hk]
    have : (t.initArray (w.arrays r) off len).2 = t := by
      unfold BERTLV.initArray
      split <;> rfl
    rw [this, setTLV_self w k t hk]

/-- C104. The TLV objects that getInstance, find and findNext return are new ones, with the contents the search finds at that time. -/
theorem C104_results (fuel : Nat) (w : TLVWorld) :
    (∀ r off len t, BERTLV.getInstance (w.arrays r) off len = .ok t → ∃ w', w.step fuel (.getInstance r off len) = some (.ok (.tlv w.tlvs.length), w') ∧
      w'.view w.tlvs.length = some t) ∧
    (∀ k t g tag c, w.view k = some t → w.tagArg g = some tag → t.find tag fuel = some (.ok (some c)) →
      ∃ w', w.step fuel (.find k g) = some (.ok (.tlv w.tlvs.length), w') ∧ w'.view w.tlvs.length = some c) ∧
    (∀ k t g tag j a n c, w.view k = some t → w.tagArg g = some tag → w.view j = some a → t.findNext tag a n fuel = some (.ok (some c)) →
      ∃ w', w.step fuel (.findNext k g j n) = some (.ok (.tlv w.tlvs.length), w') ∧ w'.view w.tlvs.length = some c) := by
  refine ⟨?_, ?_, ?_⟩
  · intro r off len t h
    exact ⟨w.addTLV t, by simp only [step, h], view_addTLV w t⟩
  · intro k t g tag c hk hg hf
    exact ⟨w.addTLV c, by simp only [step, hk, hg, hf, Option.map_some, found], view_addTLV w c⟩
  · intro k t g tag j a n c hk hg hj hf
    exact ⟨w.addTLV c, by simp only [step, hk, hg, hj, hf, Option.map_some, found], view_addTLV w c⟩

/-- C104. The tag object that getTag returns is the one the TLV object uses: initialising it changes the tag of the TLV, which keeps its length and
value; no other TLV object changes. -/
theorem C104_getTag_shares (arrays : Nat → List Int) (fuel : Nat) (ss : List Step) (w : TLVWorld) (hr : (start arrays).run fuel ss = some w)
    (k g : Nat) (hg : w.tagOf k = some g) :
    w.step fuel (.getTag k) = some (.ok (.tag g), w) ∧
    (∀ t, w.view k = some t → ∃ tag, t.tag = some tag ∧
      (∀ cls num, ∃ w', w.step fuel (.tagInitNumber g cls num) = some (.ok .nothing, w') ∧ w'.view k = some { t with tag := some (tag.initNumber cls num) }) ∧
      (∀ r off, ∃ w', w.step fuel (.tagInitArray g r off) = some ((tag.initArray (w.arrays r) off).1.map (fun _ => .nothing), w') ∧
        w'.view k = some { t with tag := some (tag.initArray (w.arrays r) off).2 })) ∧
    (∀ j t, j ≠ k → w.view j = some t → ∀ s r w', (∃ cls num, s = .tagInitNumber g cls num) ∨ (∃ r off, s = .tagInitArray g r off) →
      w.step fuel s = some (r, w') → w'.view j = some t) := by
  have hw := separate_run fuel ss _ _ (separate_start arrays) hr
  refine ⟨?_, ?_, ?_⟩
  · unfold tagOf at hg
    simp only [step]
    cases hx : w.tlvs[k]? with
    | none => rw [hx] at hg; cases hg
    | some x =>
      rw [hx] at hg
      simp only [Option.bind_some] at hg
      simp only [hg, Option.elim_some]
  · intro t ht
    have hb := hw.bound k g hg
    have hgt : w.tags[g]? = some w.tags[g] := List.getElem?_eq_getElem hb
    have htg : t.tag = some w.tags[g] := by
      unfold view at ht
      unfold tagOf at hg
      cases hx : w.tlvs[k]? with
      | none => rw [hx] at hg; cases hg
      | some x =>
        rw [hx] at hg ht
        simp only [Option.bind_some] at hg
        simp only [Option.map_some, Option.some.injEq, hg, Option.bind_some, hgt] at ht
        subst ht
        rfl
    have hv : ∀ n, ({ w with tags := w.tags.set g n } : TLVWorld).view k = some { t with tag := some n } := by
      intro n
      unfold view at ht ⊢
      unfold tagOf at hg
      cases hx : w.tlvs[k]? with
      | none => rw [hx] at hg; cases hg
      | some x =>
        rw [hx] at hg ht
        simp only [Option.bind_some] at hg
        simp only [Option.map_some, Option.some.injEq, hg, Option.bind_some] at ht ⊢
        subst ht
        simp only [List.getElem?_set, if_true, if_pos hb]
    refine ⟨w.tags[g], htg, ?_, ?_⟩
    · intro cls num
      exact ⟨_, by simp only [step, hgt], hv _⟩
    · intro r off
      exact ⟨_, by simp only [step, hgt], hv _⟩
  · intro j t hj ht s r w' hs hst
    refine (step_view fuel w w' s r hw hst j t ht ?_).1
    intro hc
    have : w.tagOf j = some g := by
      rcases hs with ⟨_, _, rfl⟩ | ⟨_, _, rfl⟩ <;> exact hc
    exact hj (hw.inj j k g this hg)

/-! A program: a tag, a child and a parent made with it, the child appended, the child's value replaced and its tag changed. The parent still has the
child's old bytes, and the tag object first made is as it was. -/
example : ∃ w, (start (fun r => if r = 0 then [-125, 6, 7] else [-92])).run 9
    [.tagGetInstance 0 0, .tagGetInstance 1 0, .newTLV false, .newTLV true, .init 0 0 0 1 1, .init 1 1 0 0 0, .append 1 0,
     .replaceValue 0 0 1 2, .getTag 0, .tagInitNumber 2 1 9, .write 0 [1]] = some w ∧
    (w.view 0).map (·.value) = some (some [6, 7]) ∧ (w.view 1).map (·.value) = some (some [-125, 1, 6]) ∧ w.tagOf 0 = some 2 ∧
    (w.tags[0]?).map (·.tagNumber) = some (some 3) ∧ (w.tags[2]?).map (·.tagNumber) = some (some 9) := by
  refine ⟨_, rfl, ?_, ?_, ?_, ?_, ?_⟩ <;> decide

/-! The hypotheses of C104_tlv are met there: the parent is left alone by everything after the append. -/
example : ∃ w w' t, (start (fun r => if r = 0 then [-125, 6, 7] else [-92])).run 9
      [.tagGetInstance 0 0, .tagGetInstance 1 0, .newTLV false, .newTLV true, .init 0 0 0 1 1, .init 1 1 0 0 0, .append 1 0] = some w ∧
    w.run 9 [.replaceValue 0 0 1 2, .getTag 0, .tagInitNumber 2 1 9, .tagInitNumber 1 1 9, .find 1 (some 0), .replaceValue 2 0 0 0, .write 0 [1]] = some w' ∧
    w.view 1 = some t ∧ t.value = some [-125, 1, 6] ∧ w'.view 1 = some t := by
  refine ⟨_, _, _, rfl, rfl, rfl, by decide, ?_⟩
  refine (C104_tlv (fun r => if r = 0 then [-125, 6, 7] else [-92]) 9
      [.tagGetInstance 0 0, .tagGetInstance 1 0, .newTLV false, .newTLV true, .init 0 0 0 1 1, .init 1 1 0 0 0, .append 1 0]
      [.replaceValue 0 0 1 2, .getTag 0, .tagInitNumber 2 1 9, .tagInitNumber 1 1 9, .find 1 (some 0), .replaceValue 2 0 0 0, .write 0 [1]]
      _ _ rfl rfl 1 _ rfl ?_).1
  intro s hs
  simp only [List.mem_cons, List.not_mem_nil, or_false] at hs
  rcases hs with rfl | rfl | rfl | rfl | rfl | rfl | rfl <;> simp [ChangesTLV] <;> decide

end Verif.Props
