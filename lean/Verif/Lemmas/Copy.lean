import Verif.Lemmas.Arrays
/-! More lemmas about copying: references that may be equal, negative offsets. -/
namespace Verif.Model
open Verif.Py Verif.Spec

theorem copyLoop_err (h : Heap) (s d : Nat) (so d' : Int) (i n : Nat) :
    (Util.copyLoop h s so d d' i n).1 = .ok () ∨
    (Util.copyLoop h s so d d' i n).1 = .error .indexError := by
  induction n generalizing h i with
  | zero => simp [Util.copyLoop]
  | succ n ih =>
    unfold Util.copyLoop
    rcases get_ok_or_indexError (h s) (so + i) with ⟨v, _, hv⟩ | hv
    · rw [hv]
      simp only
      cases hs : Verif.Py.set (h d) (d' + i) v with
      | error e =>
        unfold Verif.Py.set at hs
        split at hs <;> simp_all
      | ok l => simp only; exact ih _ _
    · rw [hv]; simp

theorem arrayCopyRef_copyLoop (h : Heap) (s d : Nat) (so d' n : Int) :
    Util.arrayCopyRef h s so d d' n =
      (mapIndexError .arrayIndexOutOfBounds (Util.copyLoop h s so d d' 0 (rangeLen n)).1,
       (Util.copyLoop h s so d d' 0 (rangeLen n)).2) := by
  unfold Util.arrayCopyRef JCSystem.beginTransaction
  simp only
  generalize hr : Util.copyLoop h s so d d' 0 (rangeLen n) = r
  have := copyLoop_err h s d so d' 0 (rangeLen n)
  rw [hr] at this
  rcases r with ⟨r1, r2⟩
  rcases this with h | h <;> simp only at h <;> subst h <;>
    simp [JCSystem.commitTransaction, JCSystem.abortTransaction, mapIndexError]

theorem arrayCopyNonAtomicRef_copyLoop (h : Heap) (s d : Nat) (so d' n : Int) :
    Util.arrayCopyNonAtomicRef h s so d d' n =
      (mapIndexError .nameError (Util.copyLoop h s so d d' 0 (rangeLen n)).1,
       (Util.copyLoop h s so d d' 0 (rangeLen n)).2) := by
  unfold Util.arrayCopyNonAtomicRef
  generalize hr : Util.copyLoop h s so d d' 0 (rangeLen n) = r
  have := copyLoop_err h s d so d' 0 (rangeLen n)
  rw [hr] at this
  rcases r with ⟨r1, r2⟩
  rcases this with h | h <;> simp only at h <;> subst h <;> simp [mapIndexError]

/-- Exact success condition, also when `s = d`. -/
theorem copyLoop_ok_iff (h : Heap) (s d so d' i n : Nat) :
    (Util.copyLoop h s so d d' i n).1 = .ok () ↔
      (n = 0 ∨ (so + i + n ≤ (h s).length ∧ d' + i + n ≤ (h d).length)) := by
  induction n generalizing h i with
  | zero => simp [Util.copyLoop]
  | succ n ih =>
    unfold Util.copyLoop
    by_cases h1 : so + i < (h s).length
    · rw [get_step _ _ _ h1]
      simp only
      by_cases h2 : d' + i < (h d).length
      · rw [set_step _ _ _ _ h2]
        simp only
        rw [ih, Heap.upd_same]
        have : ((h.upd d ((h d).set (d' + i) (h s)[so + i])) s).length = (h s).length := by
          by_cases e : s = d
          · subst e; rw [Heap.upd_same]; simp
          · rw [Heap.upd_ne _ _ _ _ e]
        rw [this]
        simp only [List.length_set]
        omega
      · rw [set_step_out _ _ _ _ (by omega)]
        simp; omega
    · rw [get_step_out _ _ _ (by omega)]
      simp; omega

/-- The loop touches no list but the destination, no cell outside the written range, and keeps
the length. -/
theorem copyLoop_frame (h : Heap) (s d so d' i n : Nat) :
    (∀ r, r ≠ d → (Util.copyLoop h s so d d' i n).2 r = h r) ∧
    ((Util.copyLoop h s so d d' i n).2 d).length = (h d).length ∧
    (∀ j, (j < d' + i ∨ d' + i + n ≤ j) → ((Util.copyLoop h s so d d' i n).2 d)[j]? = (h d)[j]?) := by
  induction n generalizing h i with
  | zero => simp [Util.copyLoop]
  | succ n ih =>
    unfold Util.copyLoop
    by_cases h1 : so + i < (h s).length
    · rw [get_step _ _ _ h1]
      simp only
      by_cases h2 : d' + i < (h d).length
      · rw [set_step _ _ _ _ h2]
        simp only
        obtain ⟨a, b, c⟩ := ih (h.upd d ((h d).set (d' + i) (h s)[so + i])) (i + 1)
        refine ⟨?_, ?_, ?_⟩
        · intro r hr
          rw [a r hr, Heap.upd_ne _ _ _ _ hr]
        · rw [b, Heap.upd_same]; simp
        · intro j hj
          rw [c j (by omega), Heap.upd_same, List.getElem?_set_ne (by omega)]
      · rw [set_step_out _ _ _ _ (by omega)]
        simp
    · rw [get_step_out _ _ _ (by omega)]
      simp

/-! #### Copying inside one list -/

/-- If the values read are always those of `f`, the loop writes `f`. -/
theorem selfLoop_map (a : List Int) (so d : Nat) (f : Nat → Int) (i n : Nat)
    (hd : d + i + n ≤ a.length)
    (hf : ∀ k, i ≤ k → k < i + n →
      (splice a d ((List.range k).map f))[so + k]?.getD 0 = f k) :
    selfLoop (splice a d ((List.range i).map f)) so d i n =
      splice a d ((List.range (i + n)).map f) := by
  induction n generalizing i with
  | zero => simp [selfLoop]
  | succ n ih =>
    unfold selfLoop
    rw [hf i (by omega) (by omega)]
    have hs : (splice a d ((List.range i).map f)).set (d + i) (f i) =
        splice a d ((List.range (i + 1)).map f) := by
      have hl : (splice a d ((List.range i).map f)).length = a.length :=
        splice_length _ _ _ (by simp; omega)
      rw [← splice_one _ _ _ (by omega)]
      have := splice_append a d ((List.range i).map f) [f i] (by simp; omega)
      simp only [List.length_map, List.length_range] at this
      rw [this, List.range_succ, List.map_append]
      simp
    rw [hs, ih (i + 1) (by omega) (fun k h1 h2 => hf k (by omega) (by omega))]
    rw [show i + 1 + n = i + (n + 1) by omega]

theorem map_range_eq_range (a : List Int) (so n : Nat) (h : so + n ≤ a.length) :
    (List.range n).map (fun j => a[so + j]?.getD 0) = range a so n := by
  apply List.ext_getElem?
  intro j
  simp only [range, List.getElem?_map, List.getElem?_take, List.getElem?_drop]
  by_cases hj : j < n
  · have : so + j < a.length := by omega
    simp [hj, this]
  · simp [hj]

/-- The forward copy is right when no cell is written before it is read. -/
theorem selfLoop_memmove (a : List Int) (so d n : Nat) (h1 : so + n ≤ a.length) (h2 : d + n ≤ a.length)
    (hov : d ≤ so ∨ so + n ≤ d) : selfLoop a so d 0 n = splice a d (range a so n) := by
  have := selfLoop_map a so d (fun j => a[so + j]?.getD 0) 0 n (by omega) (by
    intro k _ hk
    rw [splice_getElem? _ _ _ (by simp; omega)]
    simp only [List.length_map, List.length_range]
    by_cases c : so + k < d
    · simp [c]
    · have c2 : ¬ so + k < d + k := by omega
      simp [c, c2])
  simp only [List.range_zero, List.map_nil, splice_nil, Nat.zero_add] at this
  rw [this, map_range_eq_range a so n h1]

/-- The forward copy into an overlapping later range repeats the first `d - so` cells. -/
theorem selfLoop_periodic (a : List Int) (so d n : Nat) (h2 : d + n ≤ a.length) (h : so < d) :
    selfLoop a so d 0 n =
      splice a d ((List.range n).map fun j => a[so + j % (d - so)]?.getD 0) := by
  have := selfLoop_map a so d (fun j => a[so + j % (d - so)]?.getD 0) 0 n (by omega) (by
    intro k _ hk
    rw [splice_getElem? _ _ _ (by simp; omega)]
    simp only [List.length_map, List.length_range]
    by_cases c : so + k < d
    · have : k % (d - so) = k := Nat.mod_eq_of_lt (by omega)
      simp [c, this]
    · have c2 : so + k < d + k := by omega
      have c3 : so + k - d < k := by omega
      simp only [c, c2, if_true, if_false, List.getElem?_map, List.getElem?_range, c3,
        Option.map_some, Option.getD_some]
      have : k % (d - so) = (so + k - d) % (d - so) := by
        rw [Nat.mod_eq_sub_mod (by omega)]
        congr 1; omega
      rw [this])
  simp only [List.range_zero, List.map_nil, splice_nil, Nat.zero_add] at this
  exact this

/-! #### Negative indices -/

theorem idx_wrap (n : Nat) (i : Int) (h1 : 0 ≤ i) (h2 : i < n) : idx n (i - n) = idx n i := by
  rw [idx_nonneg h1 h2, idx_neg (by omega) (by omega)]
  congr 1; omega

theorem get_wrap {α} (l : List α) (i : Int) (h1 : 0 ≤ i) (h2 : i < l.length) :
    get l (i - l.length) = get l i := by
  unfold Verif.Py.get; rw [idx_wrap _ _ h1 h2]

theorem set_wrap {α} (l : List α) (i : Int) (v : α) (h1 : 0 ≤ i) (h2 : i < l.length) :
    Verif.Py.set l (i - l.length) v = Verif.Py.set l i v := by
  unfold Verif.Py.set; rw [idx_wrap _ _ h1 h2]

theorem copyLoop_wrap_src (h : Heap) (s d : Nat) (o : Nat) (d' : Int) (i n len : Nat)
    (hl : (h s).length = len) (ho : o + i + n ≤ len) :
    Util.copyLoop h s ((o : Int) - len) d d' i n = Util.copyLoop h s o d d' i n := by
  induction n generalizing h i with
  | zero => rfl
  | succ n ih =>
    unfold Util.copyLoop
    have e : (o : Int) - len + i = ((o : Int) + i) - (h s).length := by omega
    rw [e, get_wrap _ _ (by omega) (by omega)]
    cases get (h s) (o + i) with
    | error _ => rfl
    | ok v =>
      simp only
      cases hs : Verif.Py.set (h d) (d' + i) v with
      | error _ => rfl
      | ok l =>
        simp only
        apply ih _ _ _ (by omega)
        by_cases e : s = d
        · subst e; rw [Heap.upd_same, set_length hs, hl]
        · rw [Heap.upd_ne _ _ _ _ e, hl]

theorem copyLoop_wrap_dest (h : Heap) (s d : Nat) (so : Int) (o : Nat) (i n len : Nat)
    (hl : (h d).length = len) (ho : o + i + n ≤ len) :
    Util.copyLoop h s so d ((o : Int) - len) i n = Util.copyLoop h s so d o i n := by
  induction n generalizing h i with
  | zero => rfl
  | succ n ih =>
    unfold Util.copyLoop
    cases get (h s) (so + i) with
    | error _ => rfl
    | ok v =>
      simp only
      have e : (o : Int) - len + i = ((o : Int) + i) - (h d).length := by omega
      rw [e, set_wrap _ _ _ (by omega) (by omega)]
      cases hs : Verif.Py.set (h d) (o + i) v with
      | error _ => rfl
      | ok l =>
        simp only
        apply ih _ _ _ (by omega)
        rw [Heap.upd_same, set_length hs, hl]

theorem fillLoop_wrap (l : List Int) (o : Nat) (v : Int) (i n len : Nat) (hl : l.length = len)
    (ho : o + i + n ≤ len) :
    Util.fillLoop l ((o : Int) - len) v i n = Util.fillLoop l o v i n := by
  induction n generalizing l i with
  | zero => rfl
  | succ n ih =>
    unfold Util.fillLoop
    have e : (o : Int) - len + i = ((o : Int) + i) - l.length := by omega
    rw [e, set_wrap _ _ _ (by omega) (by omega)]
    cases hs : Verif.Py.set l (o + i) v with
    | error _ => rfl
    | ok l' =>
      simp only
      exact ih _ _ (by rw [set_length hs, hl]) (by omega)

end Verif.Model
