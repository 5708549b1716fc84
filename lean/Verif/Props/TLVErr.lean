import Verif.Props.TLVWorld
import Verif.Props.Tag
import Verif.Props.APDUErr
/-! C105: which exceptions the calls on tags and TLVs raise. -/
namespace Verif.Props
open Verif.Py Verif.Model Verif.Spec Verif.Model.TLVWorld

/-- Specification: the exceptions a call of the tag and TLV classes can raise. -/
def tlvRaises : Step → List Err
  | .newTag _ | .newTLV _ | .tagInitNumber _ _ _ | .getTag _ | .write _ _ | .init _ _ _ _ _ => []
  | .tagGetInstance _ _ => [.arrayIndexOutOfBounds]
  | .tagInitArray _ _ _ => [.indexError, .tlv 5]
  | .tagToBytes _ _ _ => [.typeError, .indexError]
  | .getInstance _ _ _ | .initArray _ _ _ _ => [.arrayIndexOutOfBounds, .indexError]
  | .append _ _ | .toBytes _ _ _ => [.attributeError, .typeError, .indexError, .nameError, .arrayIndexOutOfBounds]
  | .appendStatic _ _ _ _ => [.attributeError, .indexError, .nameError, .arrayIndexOutOfBounds]
  | .find _ _ => [.attributeError, .arrayIndexOutOfBounds, .indexError]
  | .findNext _ _ _ _ => [.attributeError, .arrayIndexOutOfBounds, .indexError, .typeError]
  | .getValue _ _ _ | .replaceValue _ _ _ _ => [.attributeError, .arrayIndexOutOfBounds]

/-- Specification: the objects a call names exist. -/
def Exist (w : TLVWorld) : Step → Prop
  | .tagInitArray g _ _ | .tagInitNumber g _ _ | .tagToBytes g _ _ => g < w.tags.length
  | .init k g _ _ _ => k < w.tlvs.length ∧ g < w.tags.length
  | .initArray k _ _ _ | .getTag k | .getValue k _ _ | .replaceValue k _ _ _ | .toBytes k _ _ => k < w.tlvs.length
  | .append k j => k < w.tlvs.length ∧ j < w.tlvs.length
  | .find k g => k < w.tlvs.length ∧ ∀ x, g = some x → x < w.tags.length
  | .findNext k g j _ => k < w.tlvs.length ∧ j < w.tlvs.length ∧ ∀ x, g = some x → x < w.tags.length
  | _ => True

theorem get_err (l : List Int) (i : Int) (e : Err) (h : get l i = .error e) : e = .indexError := by
  unfold Verif.Py.get at h
  split at h
  · split at h
    · cases h
    · injection h with h; exact h.symm
  · injection h with h; exact h.symm

theorem set_error (l : List Int) (i v : Int) (e : Err) (h : Verif.Py.set l i v = .error e) : e = .indexError := by
  unfold Verif.Py.set at h
  split at h
  · cases h
  · injection h with h; exact h.symm

theorem numLoop_err (arr : List Int) (o num k : Int) (n : Nat) (e : Err) (h : (BERTag.numLoop arr o num k n).1 = .error e) : e = .indexError := by
  induction n generalizing num k with
  | zero => simp only [BERTag.numLoop] at h; injection h with h; exact h.symm
  | succ n ih =>
    unfold BERTag.numLoop at h
    split at h
    · next e' he => injection h with h; subst h; exact get_err _ _ _ he
    · split at h
      · exact ih _ _ h
      · cases h

theorem baseInit_err (t : BERTag) (arr : List Int) (o : Int) (e : Err) (h : (t.baseInit arr o).1 = .error e) : e = .indexError := by
  unfold BERTag.baseInit at h
  split at h
  · next he => injection h with h; subst h; exact get_err _ _ _ he
  · simp only at h
    split at h
    · split at h
      · next he =>
        injection h with h
        subst h
        exact numLoop_err _ _ _ _ _ _ (by rw [he])
      · cases h
    · cases h

theorem tagInit_err (t : BERTag) (arr : List Int) (o : Int) (e : Err) (h : (t.initArray arr o).1 = .error e) : e = .indexError ∨ e = .tlv 5 := by
  unfold BERTag.initArray at h
  simp only at h
  split at h
  · next he => injection h with h; subst h; exact .inl (get_err _ _ _ he)
  · split at h <;> split at h
    · injection h with h; exact .inr h.symm
    · exact .inl (baseInit_err _ _ _ _ h)
    · injection h with h; exact .inr h.symm
    · exact .inl (baseInit_err _ _ _ _ h)

theorem tagGet_err (arr : List Int) (o : Int) (e : Err) (h : BERTag.getInstance arr o = .error e) : e = .arrayIndexOutOfBounds := by
  rcases C39_total arr o with ⟨t, ht⟩ | ht <;> rw [ht] at h
  · cases h
  · injection h with h; exact h.symm

theorem baseInit_known (t t' : BERTag) (arr : List Int) (o : Int) (h : t.baseInit arr o = (.ok (), t')) :
    (∃ c, t'.tagClass = some c) ∧ ∃ n, t'.tagNumber = some n := by
  unfold BERTag.baseInit at h
  split at h
  · cases h
  · simp only at h
    split at h
    · split at h
      · cases h
      · injection h with _ h; subst h; exact ⟨⟨_, rfl⟩, ⟨_, rfl⟩⟩
    · injection h with _ h; subst h; exact ⟨⟨_, rfl⟩, ⟨_, rfl⟩⟩

theorem tagGet_known (arr : List Int) (o : Int) (t : BERTag) (h : BERTag.getInstance arr o = .ok t) :
    (∃ c, t.tagClass = some c) ∧ ∃ n, t.tagNumber = some n := by
  unfold BERTag.getInstance at h
  split at h
  · simp [mapIndexError] at h; split at h <;> cases h
  · generalize hr : (BERTag.new _).initArray arr o = r at h
    obtain ⟨r1, r2⟩ := r
    cases r1 with
    | error e => simp [mapIndexError] at h; split at h <;> cases h
    | ok u =>
      simp [mapIndexError] at h
      subst h
      unfold BERTag.initArray at hr
      simp only at hr
      split at hr
      · cases hr
      · split at hr <;> split at hr
        · cases hr
        · exact baseInit_known _ _ _ _ hr
        · cases hr
        · exact baseInit_known _ _ _ _ hr

theorem writeChunks_err (buf : List Int) (o k : Int) (cs : List Int) (e : Err) (h : (BERTag.writeChunks buf o k cs).1 = .error e) : e = .indexError := by
  induction cs generalizing buf k with
  | nil => cases h
  | cons c cs ih =>
    unfold BERTag.writeChunks at h
    split at h
    · next he => injection h with h; subst h; exact set_error _ _ _ _ he
    · exact ih _ _ h

theorem tagToBytes_err (t : BERTag) (buf : List Int) (o : Int) (e : Err) (h : (t.toBytes buf o).1 = .error e) :
    e = .indexError ∨ (e = .typeError ∧ (t.tagClass = none ∨ t.tagNumber = none)) := by
  unfold BERTag.toBytes at h
  split at h
  · left
    simp only at h
    split at h
    · split at h
      · next he => injection h with h; subst h; exact set_error _ _ _ _ he
      · cases h
    · split at h
      · next he => injection h with h; subst h; exact set_error _ _ _ _ he
      · split at h
        · next he => injection h with h; subst h; exact writeChunks_err _ _ _ _ _ (by rw [he])
        · split at h
          · next he => injection h with h; subst h; exact get_err _ _ _ he
          · split at h
            · next he => injection h with h; subst h; exact set_error _ _ _ _ he
            · cases h
  · next hn =>
    right
    injection h with h
    refine ⟨h.symm, ?_⟩
    cases hc : t.tagClass with
    | none => exact .inl rfl
    | some c =>
      cases hm : t.tagNumber with
      | none => exact .inr rfl
      | some n => exact absurd hm (hn c n hc)

theorem lengthField_err (l : List Int) (e : Err) (h : getLengthField l = .error e) : e = .indexError := by
  unfold getLengthField at h
  split at h
  · next he => injection h with h; subst h; exact get_err _ _ _ he
  · split at h <;> cases h

theorem lengthStatic_err (arr : List Int) (o : Int) (e : Err) (h : BERTLV.getLengthStatic arr o = .error e) : e = .arrayIndexOutOfBounds ∨ e = .indexError := by
  unfold BERTLV.getLengthStatic at h
  simp only [bind, Except.bind] at h
  split at h
  · next he => injection h with h; subst h; exact .inl (tagGet_err _ _ _ he)
  · split at h
    · next he => injection h with h; subst h; exact .inr (lengthField_err _ _ he)
    · cases h

theorem tlvGet_err (arr : List Int) (o : Int) (n : Option Int) (e : Err) (h : BERTLV.getInstance arr o n = .error e) :
    e = .arrayIndexOutOfBounds ∨ e = .indexError := by
  unfold BERTLV.getInstance at h
  cases n with
  | none =>
    simp only [bind, Except.bind] at h
    split at h
    · next he => injection h with h; subst h; exact lengthStatic_err _ _ _ he
    · split at h
      · next he => injection h with h; subst h; exact .inl (tagGet_err _ _ _ he)
      · split at h
        · next he => injection h with h; subst h; exact .inr (lengthField_err _ _ he)
        · cases h
  | some n =>
    simp only [bind, Except.bind, pure, Except.pure] at h
    split at h
    · next he => injection h with h; subst h; exact .inl (tagGet_err _ _ _ he)
    · split at h
      · next he => injection h with h; subst h; exact .inr (lengthField_err _ _ he)
      · cases h

theorem tlvGet_known (arr : List Int) (o : Int) (n : Option Int) (t : BERTLV) (h : BERTLV.getInstance arr o n = .ok t) :
    ∃ g, t.tag = some g ∧ (∃ c, g.tagClass = some c) ∧ (∃ m, g.tagNumber = some m) ∧ t.value ≠ none := by
  unfold BERTLV.getInstance at h
  cases n with
  | none =>
    simp only [bind, Except.bind] at h
    split at h
    · cases h
    · split at h
      · cases h
      · next g hg =>
        split at h
        · cases h
        · injection h with h
          subst h
          obtain ⟨h1, h2⟩ := tagGet_known _ _ _ hg
          exact ⟨g, rfl, h1, h2, by simp [BERTLV.initTag]⟩
  | some n =>
    simp only [bind, Except.bind, pure, Except.pure] at h
    split at h
    · cases h
    · next g hg =>
      split at h
      · cases h
      · injection h with h
        subst h
        obtain ⟨h1, h2⟩ := tagGet_known _ _ _ hg
        exact ⟨g, rfl, h1, h2, by simp [BERTLV.initTag]⟩

theorem copy_err (src dst : List Int) (so d n : Int) (e : Err) (h : (Util.arrayCopy src so dst d n).1 = .error e) : e = .arrayIndexOutOfBounds := by
  rw [arrayCopy_copyRange] at h
  simp only at h
  rcases copyRange_err src dst so d 0 (rangeLen n) with h' | h' <;> rw [h'] at h
  · cases h
  · injection h with h; exact h.symm

/-- What writing a TLV can raise; TypeError only when the tag has no class or no number. -/
theorem tlvToBytes_err (t : BERTLV) (buf : List Int) (o : Int) (e : Err) (h : (t.toBytes buf o).1 = .error e) :
    (e = .attributeError ∧ t.tag = none) ∨ (e = .typeError ∧ ∃ g, t.tag = some g ∧ (g.tagClass = none ∨ g.tagNumber = none)) ∨
    e = .indexError ∨ e = .nameError ∨ e = .arrayIndexOutOfBounds := by
  unfold BERTLV.toBytes at h
  split at h
  · next ht => injection h with h; exact .inl ⟨h.symm, ht⟩
  · next g ht =>
    right
    split at h
    · next he =>
      injection h with h; subst h
      rcases tagToBytes_err _ _ _ _ (by rw [he]) with h | ⟨h, h'⟩
      · exact .inr (.inl h)
      · exact .inl ⟨h, g, ht, h'⟩
    · right
      split at h
      · injection h with h; exact .inr (.inl h.symm)
      · split at h
        · next he => injection h with h; subst h; exact .inl (set_error _ _ _ _ he)
        · simp only at h
          split at h
          · next he => injection h with h; subst h; exact .inr (.inr (copy_err _ _ _ _ _ _ (by rw [he])))
          · cases h

theorem size_err (t : BERTLV) (e : Err) (h : t.size = .error e) : e = .attributeError ∧ t.tag = none := by
  unfold BERTLV.size at h
  split at h
  · next ht => injection h with h; exact ⟨h.symm, ht⟩
  · cases h

theorem append_err (t a : BERTLV) (e : Err) (h : (t.append a).1 = .error e) :
    e = .attributeError ∨ (e = .typeError ∧ ∃ g, a.tag = some g ∧ (g.tagClass = none ∨ g.tagNumber = none)) ∨ e = .indexError ∨ e = .nameError ∨
      e = .arrayIndexOutOfBounds := by
  unfold BERTLV.append at h
  split at h
  · injection h with h; exact .inl h.symm
  · split at h
    · next he => injection h with h; subst h; exact .inl (size_err _ _ he).1
    · split at h
      · next he =>
        injection h with h; subst h
        rcases tlvToBytes_err _ _ _ _ (by rw [he]) with h | h
        · exact .inl h.1
        · exact .inr h
      · split at h
        · injection h with h; exact .inl h.symm
        · exact .inl (size_err _ _ h).1

theorem appendStatic_err (a : List Int) (o : Int) (b : List Int) (p : Int) (e : Err) (h : (BERTLV.appendStatic a o b p).1 = .error e) :
    e = .attributeError ∨ e = .indexError ∨ e = .nameError ∨ e = .arrayIndexOutOfBounds := by
  unfold BERTLV.appendStatic at h
  split at h
  · next he => injection h with h; subst h; rcases tlvGet_err _ _ _ _ he with h | h <;> simp [h]
  · next x hx =>
    split at h
    · next he => injection h with h; subst h; rcases tlvGet_err _ _ _ _ he with h | h <;> simp [h]
    · next y hy =>
      obtain ⟨g, hg, ⟨c, hc⟩, ⟨m, hm⟩, _⟩ := tlvGet_known _ _ _ _ hx
      obtain ⟨g', hg', ⟨c', hc'⟩, ⟨m', hm'⟩, _⟩ := tlvGet_known _ _ _ _ hy
      split at h
      · next he =>
        injection h with h; subst h
        rcases append_err _ _ _ (by rw [he]) with h | ⟨h, g'', h1, h2⟩ | h | h | h
        · exact .inl h
        · rw [hg] at h1; injection h1 with h1; subst h1; rw [hc, hm] at h2; rcases h2 with h2 | h2 <;> cases h2
        · exact .inr (.inl h)
        · exact .inr (.inr (.inl h))
        · exact .inr (.inr (.inr h))
      · next z he =>
        have hz := (append_class y x).2
        rw [he] at hz
        simp only at hz
        rcases tlvToBytes_err _ _ _ _ h with ⟨h, _⟩ | ⟨h, g'', h1, h2⟩ | h | h | h
        · exact .inl h
        · rw [hz, hg'] at h1; injection h1 with h1; subst h1; rw [hc', hm'] at h2; rcases h2 with h2 | h2 <;> cases h2
        · exact .inr (.inl h)
        · exact .inr (.inr (.inl h))
        · exact .inr (.inr (.inr h))

theorem find_err (t : BERTLV) (g : Option BERTag) (o : Int) (k : Nat) (e : Err) (h : t.find_ g o k = some (.error e)) :
    e = .attributeError ∨ e = .arrayIndexOutOfBounds ∨ e = .indexError := by
  induction k generalizing o with
  | zero => cases h
  | succ k ih =>
    unfold BERTLV.find_ at h
    split at h
    · split at h
      · next he => injection h with h; injection h with h; subst h; exact .inr (tlvGet_err _ _ _ _ he)
      · split at h
        · split at h
          · cases h
          · split at h
            · next he => injection h with h; injection h with h; subst h; exact .inl (size_err _ _ he).1
            · exact ih _ h
        · injection h with h; injection h with h; exact .inl h.symm
    · cases h

theorem mapGet_err (arr : List Int) (o : Int) (e : Err)
    (h : (some ((BERTLV.getInstance arr o none).map some) : Option (Except Err (Option BERTLV))) = some (.error e)) :
    e = .arrayIndexOutOfBounds ∨ e = .indexError := by
  injection h with h
  cases hg : BERTLV.getInstance arr o none with
  | error e' => rw [hg] at h; injection h with h; subst h; exact tlvGet_err _ _ _ _ hg
  | ok x => rw [hg] at h; cases h

theorem findBound_err (t : BERTLV) (g : Option BERTag) (k : Nat) (e : Err) (h : t.find g k = some (.error e)) :
    e = .attributeError ∨ e = .arrayIndexOutOfBounds ∨ e = .indexError := by
  unfold BERTLV.find at h
  split at h
  · injection h with h; injection h with h; exact .inl h.symm
  · split at h
    · split at h
      · exact .inr (mapGet_err _ _ _ h)
      · cases h
    · split at h
      · cases h
      · next he => injection h with h; injection h with h; subst h; exact find_err _ _ _ _ _ he
      · split at h
        · cases h
        · exact .inr (mapGet_err _ _ _ h)

theorem skipLoop_err (t : BERTLV) (g : Option BERTag) (v : Option (List Int)) (n i o : Int) (f k : Nat) (e : Err)
    (h : t.skipLoop g v n i o f k = some (.error e)) : e = .attributeError ∨ e = .arrayIndexOutOfBounds ∨ e = .indexError := by
  induction k generalizing i o with
  | zero => cases h
  | succ k ih =>
    unfold BERTLV.skipLoop at h
    split at h
    · split at h
      · cases h
      · next he => injection h with h; injection h with h; subst h; exact find_err _ _ _ _ _ he
      · split at h
        · cases h
        · split at h
          · next he => injection h with h; injection h with h; subst h; exact .inr (tlvGet_err _ _ _ _ he)
          · split at h
            · next he => injection h with h; injection h with h; subst h; exact .inl (size_err _ _ he).1
            · exact ih _ _ h
    · cases h

theorem findNext_err (t : BERTLV) (g : Option BERTag) (a : BERTLV) (n : Int) (k : Nat) (e : Err) (h : t.findNext g a n k = some (.error e)) :
    e = .attributeError ∨ e = .arrayIndexOutOfBounds ∨ e = .indexError ∨ e = .typeError := by
  have up : ∀ {e : Err}, (e = .attributeError ∨ e = .arrayIndexOutOfBounds ∨ e = .indexError) → e = .attributeError ∨ e = .arrayIndexOutOfBounds ∨ e = .indexError ∨ e = .typeError := by
    rintro e (h | h | h) <;> simp [h]
  unfold BERTLV.findNext at h
  split at h
  · injection h with h; injection h with h; exact .inl h.symm
  · split at h
    · cases h
    · next he => injection h with h; injection h with h; subst h; exact up (skipLoop_err _ _ _ _ _ _ _ _ _ he)
    · cases h
    · split at h
      · split at h
        · injection h with h; injection h with h; subst h; simp
        · exact up (.inr (mapGet_err _ _ _ h))
      · split at h
        · cases h
        · next he => injection h with h; injection h with h; subst h; exact up (find_err _ _ _ _ _ he)
        · split at h
          · cases h
          · exact up (.inr (mapGet_err _ _ _ h))

theorem found_err (w : TLVWorld) (r : Except Err (Option BERTLV)) (e : Err) (h : (w.found r).1 = .error e) : r = .error e := by
  unfold found at h
  split at h
  · injection h with h; subst h; rfl
  · cases h
  · cases h

theorem map_error {α β : Type} (r : Except Err α) (f : α → β) (e : Err) (h : r.map f = .error e) : r = .error e := by
  cases r with
  | error e' => injection h with h; subst h; rfl
  | ok v => cases h

theorem view_exists (w : TLVWorld) (k : Nat) (h : k < w.tlvs.length) : ∃ t, w.view k = some t := by
  unfold view
  rw [List.getElem?_eq_getElem h]
  exact ⟨_, rfl⟩

theorem tagArg_exists (w : TLVWorld) (g : Option Nat) (h : ∀ x, g = some x → x < w.tags.length) : ∃ t, w.tagArg g = some t := by
  unfold tagArg
  cases g with
  | none => exact ⟨_, rfl⟩
  | some x => simp only; rw [List.getElem?_eq_getElem (h x rfl)]; exact ⟨_, rfl⟩

/-- C105. Whatever tags, TLV objects and arrays a program has made, and whatever the arguments: a call of the tag and TLV classes on objects that
exist raises no exception outside the list the specification gives for it. -/
theorem C105_tlv (fuel : Nat) (w w' : TLVWorld) (s : Step) (e : Err) (hx : Exist w s) (h : w.step fuel s = some (.error e, w')) : e ∈ tlvRaises s := by
  cases s <;> simp only [step] at h <;> simp only [tlvRaises, Exist] at hx ⊢
  case newTag => cases h
  case newTLV => cases h
  case write => cases h
  case tagGetInstance r o =>
    split at h
    · next he => injection h with h; injection h with h; injection h with h; subst h; simp [tagGet_err _ _ _ he]
    · cases h
  case tagInitArray g r o =>
    rw [List.getElem?_eq_getElem hx] at h
    simp only [Option.some.injEq, Prod.mk.injEq] at h
    rcases tagInit_err _ _ _ _ (map_error _ _ _ h.1) with h | h <;> simp [h]
  case tagInitNumber g c n =>
    rw [List.getElem?_eq_getElem hx] at h
    cases h
  case tagToBytes g r o =>
    rw [List.getElem?_eq_getElem hx] at h
    simp only [Option.some.injEq, Prod.mk.injEq] at h
    rcases tagToBytes_err _ _ _ _ (map_error _ _ _ h.1) with h | ⟨h, _⟩ <;> simp [h]
  case getInstance r o n =>
    split at h
    · next he => injection h with h; injection h with h; injection h with h; subst h; rcases tlvGet_err _ _ _ _ he with h | h <;> simp [h]
    · cases h
  case init k g r o n =>
    obtain ⟨t, ht⟩ := view_exists w k hx.1
    rw [List.getElem?_eq_getElem hx.2, ht] at h
    cases h
  case initArray k r o n =>
    obtain ⟨t, ht⟩ := view_exists w k hx
    rw [ht] at h
    simp only [Option.some.injEq, Prod.mk.injEq] at h
    have h := map_error _ _ _ h.1
    unfold BERTLV.initArray at h
    split at h
    · next he => injection h with h; subst h; rcases tlvGet_err _ _ _ _ he with h | h <;> simp [h]
    · next x hx' =>
      obtain ⟨g, hg, _⟩ := tlvGet_known _ _ _ _ hx'
      have := (size_err _ _ h).2
      rw [hg] at this
      cases this
  case getTag k =>
    rw [List.getElem?_eq_getElem hx] at h
    cases h
  case append k j =>
    obtain ⟨t, ht⟩ := view_exists w k hx.1
    obtain ⟨a, ha⟩ := view_exists w j hx.2
    rw [ht, ha] at h
    simp only [Option.some.injEq, Prod.mk.injEq] at h
    rcases append_err _ _ _ (map_error _ _ _ h.1) with h | ⟨h, _⟩ | h | h | h <;> simp [h]
  case appendStatic r o r' o' =>
    simp only [Option.some.injEq, Prod.mk.injEq] at h
    rcases appendStatic_err _ _ _ _ _ (map_error _ _ _ h.1) with h | h | h | h <;> simp [h]
  case find k g =>
    obtain ⟨t, ht⟩ := view_exists w k hx.1
    obtain ⟨a, ha⟩ := tagArg_exists w g hx.2
    rw [ht, ha] at h
    simp only [Option.map_eq_some_iff] at h
    obtain ⟨r, hr, h⟩ := h
    have := found_err w r e (by rw [h])
    subst this
    rcases findBound_err _ _ _ _ hr with h | h | h <;> simp [h]
  case findNext k g j n =>
    obtain ⟨t, ht⟩ := view_exists w k hx.1
    obtain ⟨a, ha⟩ := view_exists w j hx.2.1
    obtain ⟨x, hx'⟩ := tagArg_exists w g hx.2.2
    rw [ht, ha, hx'] at h
    simp only [Option.map_eq_some_iff] at h
    obtain ⟨r, hr, h⟩ := h
    have := found_err w r e (by rw [h])
    subst this
    rcases findNext_err _ _ _ _ _ _ hr with h | h | h | h <;> simp [h]
  case getValue k r o =>
    obtain ⟨t, ht⟩ := view_exists w k hx
    rw [ht] at h
    simp only [Option.some.injEq, Prod.mk.injEq] at h
    have h := map_error _ _ _ h.1
    unfold BERTLV.getValue at h
    split at h
    · injection h with h; simp [h]
    · split at h
      · next he => injection h with h; subst h; simp [copy_err _ _ _ _ _ _ (show (Util.arrayCopy _ _ _ _ _).1 = .error _ by rw [he])]
      · cases h
  case replaceValue k r o n =>
    obtain ⟨t, ht⟩ := view_exists w k hx
    rw [ht] at h
    simp only [Option.some.injEq, Prod.mk.injEq] at h
    have h := map_error _ _ _ h.1
    unfold BERTLV.replaceValue at h
    split at h
    · injection h with h; simp [h]
    · split at h
      · next he => injection h with h; subst h; simp [copy_err _ _ _ _ _ _ (show (Util.arrayCopy _ _ _ _ _).1 = .error _ by rw [he])]
      · cases h
  case toBytes k r o =>
    obtain ⟨t, ht⟩ := view_exists w k hx
    rw [ht] at h
    simp only [Option.some.injEq, Prod.mk.injEq] at h
    rcases tlvToBytes_err _ _ _ _ (map_error _ _ _ h.1) with ⟨h, _⟩ | ⟨h, _⟩ | h | h | h <;> simp [h]

/-- Specification: some program, starting with no objects, reaches a call of the same kind as `s` on existing objects that raises `e`. -/
def Attained (s : Step) (e : Err) : Prop :=
  ∃ (arrays : Nat → List Int) (ss : List Step) (w : TLVWorld) (s' : Step) (w' : TLVWorld),
    (start arrays).run 9 ss = some w ∧ s'.ctorIdx = s.ctorIdx ∧ Exist w s' ∧ w.step 9 s' = some (.error e, w')

/-- The caller's arrays 0 and 1. -/
def two (a b : List Int) : Nat → List Int := fun r => if r = 0 then a else b

set_option maxRecDepth 8000 in
/-- C105. Every exception in the lists does occur. -/
theorem C105_tlv_attained (s : Step) (e : Err) (h : e ∈ tlvRaises s) : Attained s e := by
  cases s <;> simp only [tlvRaises, List.mem_cons, List.not_mem_nil, or_false] at h
  case tagGetInstance => subst h; exact ⟨two [] [], [], _, .tagGetInstance 0 0, _, rfl, rfl, trivial, rfl⟩
  case tagInitArray =>
    rcases h with h | h <;> subst h
    · exact ⟨two [] [], [.newTag false], _, .tagInitArray 0 0 0, _, rfl, rfl, Nat.succ_pos _, rfl⟩
    · exact ⟨two [0x20] [], [.newTag false], _, .tagInitArray 0 0 0, _, rfl, rfl, Nat.succ_pos _, rfl⟩
  case tagToBytes =>
    rcases h with h | h <;> subst h
    · exact ⟨two [] [], [.newTag false, .tagInitArray 0 0 0], _, .tagToBytes 0 0 0, _, rfl, rfl, Nat.succ_pos _, rfl⟩
    · exact ⟨two [] [], [.newTag false], _, .tagToBytes 0 0 0, _, rfl, rfl, Nat.succ_pos _, rfl⟩
  case getInstance =>
    rcases h with h | h <;> subst h
    · exact ⟨two [] [], [], _, .getInstance 0 0 none, _, rfl, rfl, trivial, rfl⟩
    · exact ⟨two [4] [], [], _, .getInstance 0 0 none, _, rfl, rfl, trivial, rfl⟩
  case initArray =>
    rcases h with h | h <;> subst h
    · exact ⟨two [] [], [.newTLV false], _, .initArray 0 0 0 0, _, rfl, rfl, Nat.succ_pos _, rfl⟩
    · exact ⟨two [4] [], [.newTLV false], _, .initArray 0 0 0 0, _, rfl, rfl, Nat.succ_pos _, rfl⟩
  case append =>
    rcases h with h | h | h | h | h <;> subst h
    · exact ⟨two [] [], [.newTLV false], _, .append 0 0, _, rfl, rfl, ⟨Nat.succ_pos _, Nat.succ_pos _⟩, rfl⟩
    · exact ⟨two [] [], [.newTag false, .newTLV true, .init 0 0 0 0 0, .tagInitArray 1 0 0], _, .append 0 0, _, rfl, rfl, ⟨Nat.succ_pos _, Nat.succ_pos _⟩, rfl⟩
    · exact ⟨two [] [], [.newTag false, .newTLV true, .init 0 0 0 0 0], _, .append 0 0, _, rfl, rfl, ⟨Nat.succ_pos _, Nat.succ_pos _⟩, rfl⟩
    · exact ⟨two [] [], [.newTag false, .newTLV true, .init 0 0 0 0 128], _, .append 0 0, _, rfl, rfl, ⟨Nat.succ_pos _, Nat.succ_pos _⟩, rfl⟩
    · exact ⟨two [] [], [.newTag false, .newTLV true, .init 0 0 0 0 5], _, .append 0 0, _, rfl, rfl, ⟨Nat.succ_pos _, Nat.succ_pos _⟩, rfl⟩
  case appendStatic =>
    rcases h with h | h | h | h <;> subst h
    · exact ⟨two [4, 0] [4, 0], [], _, .appendStatic 0 0 1 0, _, rfl, rfl, trivial, rfl⟩
    · exact ⟨two [4] [], [], _, .appendStatic 0 0 1 0, _, rfl, rfl, trivial, rfl⟩
    · exact ⟨two [4, 0x81, 0x80] [0x30, 0], [], _, .appendStatic 0 0 1 0, _, rfl, rfl, trivial, rfl⟩
    · exact ⟨two [] [], [], _, .appendStatic 0 0 1 0, _, rfl, rfl, trivial, rfl⟩
  case find =>
    rcases h with h | h | h <;> subst h
    · exact ⟨two [] [], [.newTLV false], _, .find 0 none, _, rfl, rfl, ⟨Nat.succ_pos _, nofun⟩, rfl⟩
    · exact ⟨two [0x30, 1, 0x1f] [], [.getInstance 0 0 none], _, .find 0 none, _, rfl, rfl, ⟨Nat.succ_pos _, nofun⟩, rfl⟩
    · exact ⟨two [0x30, 1, 4] [], [.getInstance 0 0 none], _, .find 0 none, _, rfl, rfl, ⟨Nat.succ_pos _, nofun⟩, rfl⟩
  case findNext =>
    rcases h with h | h | h | h <;> subst h
    · exact ⟨two [] [], [.newTLV false], _, .findNext 0 none 0 0, _, rfl, rfl, ⟨Nat.succ_pos _, Nat.succ_pos _, nofun⟩, rfl⟩
    · exact ⟨two [0x30, 1, 0x1f] [], [.getInstance 0 0 none], _, .findNext 0 none 0 0, _, rfl, rfl, ⟨Nat.succ_pos _, Nat.succ_pos _, nofun⟩, rfl⟩
    · exact ⟨two [0x30, 1, 4] [], [.getInstance 0 0 none], _, .findNext 0 none 0 0, _, rfl, rfl, ⟨Nat.succ_pos _, Nat.succ_pos _, nofun⟩, rfl⟩
    · exact ⟨two [] [], [.newTLV true], _, .findNext 0 none 0 0, _, rfl, rfl, ⟨Nat.succ_pos _, Nat.succ_pos _, nofun⟩, rfl⟩
  case getValue =>
    rcases h with h | h <;> subst h
    · exact ⟨two [] [], [.newTLV true], _, .getValue 0 0 0, _, rfl, rfl, Nat.succ_pos _, rfl⟩
    · exact ⟨two [4, 1, 7] [], [.getInstance 0 0 none], _, .getValue 0 1 0, _, rfl, rfl, Nat.succ_pos _, rfl⟩
  case replaceValue =>
    rcases h with h | h <;> subst h
    · exact ⟨two [] [], [.newTLV true], _, .replaceValue 0 0 0 0, _, rfl, rfl, Nat.succ_pos _, rfl⟩
    · exact ⟨two [] [], [.newTLV false], _, .replaceValue 0 0 0 1, _, rfl, rfl, Nat.succ_pos _, rfl⟩
  case toBytes =>
    rcases h with h | h | h | h | h <;> subst h
    · exact ⟨two [] [], [.newTLV false], _, .toBytes 0 0 0, _, rfl, rfl, Nat.succ_pos _, rfl⟩
    · exact ⟨two [] [], [.newTag false, .newTLV true, .init 0 0 0 0 0, .tagInitArray 1 0 0], _, .toBytes 0 0 0, _, rfl, rfl, Nat.succ_pos _, rfl⟩
    · exact ⟨two [] [], [.newTag false, .newTLV true, .init 0 0 0 0 0], _, .toBytes 0 0 0, _, rfl, rfl, Nat.succ_pos _, rfl⟩
    · exact ⟨two [] [1], [.newTag false, .newTLV true, .init 0 0 0 0 128], _, .toBytes 0 1 0, _, rfl, rfl, Nat.succ_pos _, rfl⟩
    · exact ⟨two [] [1, 2, 3], [.newTag false, .newTLV true, .init 0 0 0 0 1], _, .toBytes 0 1 0, _, rfl, rfl, Nat.succ_pos _, rfl⟩

theorem raised_iff {α : Type} (r : Except Err α) (P : Err → Prop) (h : ∀ e, r = .error e → P e) : ∀ e, raised r = some e → P e := by
  intro e he
  cases r with
  | error e' => simp only [raised, Option.some.injEq] at he; subst he; exact h _ rfl
  | ok v => cases he

theorem findStatic_err (arr : List Int) (o : Int) (ta : Option (List Int)) (to : Int) (k : Nat) (e : Err)
    (h : BERTLV.findStatic arr o ta to k = some (.error e)) : e = .attributeError ∨ e = .arrayIndexOutOfBounds ∨ e = .indexError := by
  unfold BERTLV.findStatic at h
  split at h
  · next he => injection h with h; injection h with h; subst h; exact .inr (tlvGet_err _ _ _ _ he)
  · split at h
    · injection h with h; injection h with h; exact .inl h.symm
    · simp only at h
      split at h
      · split at h <;> cases h
      · split at h
        · injection h with h; injection h with h; exact .inl h.symm
        · split at h
          · next he => injection h with h; injection h with h; subst h; exact .inr (.inl (tagGet_err _ _ _ he))
          · split at h
            · cases h
            · next he => injection h with h; injection h with h; subst h; exact find_err _ _ _ _ _ he
            · split at h <;> cases h

/-- C105. The static calls, for every array, offset and argument: parsing a tag raises nothing but ArrayIndexOutOfBoundsException (`size` nothing but
IndexError), measuring a TLV these two, searching also AttributeError; the static `findNext` can also raise NameError. -/
theorem C105_tlv_static (arr : List Int) (o : Int) :
    (∀ e, raised (BERTag.tagClassStatic arr o) = some e → e = .arrayIndexOutOfBounds) ∧
    (∀ e, raised (BERTag.tagNumberStatic arr o) = some e → e = .arrayIndexOutOfBounds) ∧
    (∀ e, raised (BERTag.isConstructedStatic arr o) = some e → e = .arrayIndexOutOfBounds) ∧
    (∀ e, raised (BERTag.sizeStatic arr o) = some e → e = .indexError) ∧
    (∀ e, raised (BERTLV.getLengthStatic arr o) = some e → e = .arrayIndexOutOfBounds ∨ e = .indexError) ∧
    (∀ e, raised (BERTLV.getValueOffset arr o) = some e → e = .arrayIndexOutOfBounds ∨ e = .indexError) ∧
    (∀ ta to k e, BERTLV.findStatic arr o ta to k = some (.error e) → e = .attributeError ∨ e = .arrayIndexOutOfBounds ∨ e = .indexError) ∧
    (∀ start ta to e, raised (BERTLV.findNextStatic arr o start ta to) = some e →
      e = .attributeError ∨ e = .nameError ∨ e = .arrayIndexOutOfBounds ∨ e = .indexError) := by
  refine ⟨raised_iff _ _ fun e h => tagGet_err _ _ _ (map_error _ _ _ h), raised_iff _ _ fun e h => tagGet_err _ _ _ (map_error _ _ _ h),
    raised_iff _ _ fun e h => tagGet_err _ _ _ (map_error _ _ _ h), raised_iff _ _ fun e h => ?_, raised_iff _ _ fun e h => lengthStatic_err _ _ _ h,
    raised_iff _ _ fun e h => ?_, fun ta to k e h => findStatic_err _ _ _ _ _ _ h, fun start ta to => raised_iff _ _ fun e h => ?_⟩
  · unfold BERTag.sizeStatic at h
    split at h
    · next he => injection h with h; subst h; exact baseInit_err _ _ _ _ (by rw [he])
    · cases h
  · unfold BERTLV.getValueOffset at h
    split at h
    · next he => injection h with h; subst h; exact tlvGet_err _ _ _ _ he
    · next t ht =>
      obtain ⟨g, hg, _⟩ := tlvGet_known _ _ _ _ ht
      rw [hg] at h
      cases h
  · unfold BERTLV.findNextStatic at h
    split at h
    · next he => injection h with h; subst h; exact .inr (.inr (tlvGet_err _ _ _ _ he))
    · next t ht =>
      obtain ⟨g, hg, _⟩ := tlvGet_known _ _ _ _ ht
      rw [hg] at h
      simp only at h
      split at h
      · next he =>
        injection h with h; subst h
        unfold BERTLV.alignLoop at he
        split at he
        · split at he
          · injection he with he; exact .inl he.symm
          · split at he
            · next hf =>
              injection he with he; subst he
              rcases find_err _ _ _ _ _ hf with h | h
              · exact .inl h
              · exact .inr (.inr h)
            · cases he
            · injection he with he; exact .inl he.symm
        · cases he
      · split at h
        · cases h
        · split at h
          · injection h with h; exact .inl h.symm
          · injection h with h; exact .inr (.inl h.symm)

example : raised (BERTag.sizeStatic [0x1f, -127] 0) = some .indexError := by decide +kernel
example : raised (BERTag.tagNumberStatic [0x1f, -127] 0) = some .arrayIndexOutOfBounds := by decide +kernel
example : raised (BERTLV.getLengthStatic [4] 0) = some .indexError := by decide +kernel
example : raised (BERTLV.findNextStatic [0x30, 2, 4, 0] 0 0 none 0) = some .nameError := by decide +kernel
example : raised (BERTLV.findNextStatic [4, 2, 4, 0] 0 0 none 0) = some .attributeError := by decide +kernel

end Verif.Props
