import Verif.Spec.Basic
import Verif.Model.Util
import Verif.Model.APDU
import Verif.Lemmas.Lists
/-! Lemmas about the copying, filling and comparing loops. -/
namespace Verif.Model
open Verif.Py Verif.Spec

/-- `l` with the cells from `off` on replaced by `vs`. -/
def splice (l : List Int) (off : Nat) (vs : List Int) : List Int :=
  l.take off ++ vs ++ l.drop (off + vs.length)

theorem splice_length (l : List Int) (off : Nat) (vs : List Int) (h : off + vs.length ≤ l.length) :
    (splice l off vs).length = l.length := by
  simp [splice]; omega

theorem splice_nil (l : List Int) (off : Nat) : splice l off [] = l := by
  simp [splice]

theorem splice_getElem? (l : List Int) (off : Nat) (vs : List Int) (h : off + vs.length ≤ l.length) (j : Nat) :
    (splice l off vs)[j]? = if j < off then l[j]? else if j < off + vs.length then vs[j - off]? else l[j]? := by
  unfold splice
  by_cases h1 : j < off
  · rw [List.append_assoc, List.getElem?_append_left (by simp; omega)]
    simp [h1]
  · simp only [h1, if_false]
    by_cases h2 : j < off + vs.length
    · rw [List.append_assoc, List.getElem?_append_right (by simp; omega),
        List.getElem?_append_left (by simp; omega)]
      simp only [List.length_take, h2, if_true]
      congr 1; omega
    · rw [List.getElem?_append_right (by simp; omega)]
      simp only [h2, if_false, List.getElem?_drop, List.length_append, List.length_take]
      congr 1; omega

theorem written_splice (l : List Int) (off : Nat) (vs : List Int) (h : off + vs.length ≤ l.length) :
    Written l (splice l off vs) off vs := by
  refine ⟨h, splice_length l off vs h, ?_, ?_⟩
  · intro i hi
    rw [splice_getElem? l off vs h]
    have h1 : ¬ off + i < off := by omega
    have h2 : off + i < off + vs.length := by omega
    simp only [h1, h2, if_false, if_true]
    rw [show off + i - off = i by omega]
    simp [hi]
  · intro j hj
    rw [splice_getElem? l off vs h]
    by_cases h1 : j < off
    · simp [h1]
    · have h2 : ¬ j < off + vs.length := by omega
      simp [h1, h2]

theorem written_unique {l a b : List Int} {off : Nat} {vs : List Int} (ha : Written l a off vs)
    (hb : Written l b off vs) : a = b := by
  apply List.ext_getElem?
  intro j
  by_cases h : j < off ∨ off + vs.length ≤ j
  · rw [ha.2.2.2 j h, hb.2.2.2 j h]
  · have hj : j = off + (j - off) := by omega
    rw [hj, ha.2.2.1 (j - off) (by omega), hb.2.2.1 (j - off) (by omega)]

theorem written_iff {l l' : List Int} {off : Nat} {vs : List Int} (h : off + vs.length ≤ l.length) :
    Written l l' off vs ↔ l' = splice l off vs :=
  ⟨fun hw => written_unique hw (written_splice l off vs h), fun e => e ▸ written_splice l off vs h⟩

theorem set_splice (l : List Int) (off : Nat) (v : Int) (vs : List Int) (h : off + 1 + vs.length ≤ l.length) :
    splice (l.set off v) (off + 1) vs = splice l off (v :: vs) := by
  apply List.ext_getElem?
  intro j
  rw [splice_getElem? _ _ _ (by simp; omega), splice_getElem? _ _ _ (by simp; omega)]
  simp only [List.getElem?_set, List.length_cons]
  by_cases h1 : j < off
  · have : j < off + 1 := by omega
    have h3 : ¬ off = j := by omega
    simp [h1, this, h3]
  · by_cases h2 : j = off
    · subst h2
      have : j < l.length := by omega
      simp [this]
    · have a1 : ¬ j < off + 1 := by omega
      have a2 : ¬ off = j := by omega
      simp only [h1, a1, a2, if_false]
      have e : j < off + 1 + vs.length ↔ j < off + (vs.length + 1) := by omega
      simp only [e]
      have e2 : j - off = (j - (off + 1)) + 1 := by omega
      rw [e2, List.getElem?_cons_succ]

theorem splice_one (l : List Int) (off : Nat) (v : Int) (h : off < l.length) :
    splice l off [v] = l.set off v := by
  have := set_splice l off v [] (by simp; omega)
  rw [← this, splice_nil]

theorem splice_append (l : List Int) (off : Nat) (us vs : List Int)
    (h : off + us.length + vs.length ≤ l.length) :
    splice (splice l off us) (off + us.length) vs = splice l off (us ++ vs) := by
  apply List.ext_getElem?
  intro j
  rw [splice_getElem? _ _ _ (by rw [splice_length _ _ _ (by omega)]; omega),
    splice_getElem? l off (us ++ vs) (by simp; omega), splice_getElem? _ _ _ (by omega)]
  simp only [List.length_append]
  by_cases h1 : j < off
  · have : j < off + us.length := by omega
    simp [h1, this]
  · by_cases h2 : j < off + us.length
    · have h3 : j < off + (us.length + vs.length) := by omega
      simp only [h1, h2, h3, if_true, if_false]
      rw [List.getElem?_append_left (by omega)]
    · simp only [h1, h2, if_false]
      by_cases h3 : j < off + us.length + vs.length
      · have h4 : j < off + (us.length + vs.length) := by omega
        simp only [h3, h4, if_true]
        rw [List.getElem?_append_right (by omega)]
        congr 1; omega
      · have h4 : ¬ j < off + (us.length + vs.length) := by omega
        simp [h3, h4]

theorem take_succ_drop (l : List Int) (k n : Nat) (h : k < l.length) :
    (l.drop k).take (n + 1) = l[k] :: (l.drop (k + 1)).take n := by
  rw [List.drop_eq_getElem_cons h, List.take_succ_cons]

/-- Outcome of a copy of `n` cells of which only `k` can be done. -/
def outcome (k n : Nat) : Except Err Unit := if k = n then .ok () else .error .indexError

theorem get_step (l : List Int) (off i : Nat) (h : off + i < l.length) :
    get l ((off : Int) + (i : Int)) = .ok l[off + i] := by
  rw [← Int.natCast_add, get_natCast _ _ h]

theorem get_step_out (l : List Int) (off i : Nat) (h : l.length ≤ off + i) :
    get l ((off : Int) + (i : Int)) = .error .indexError := by
  rw [← Int.natCast_add]; exact get_natCast_out _ _ h

theorem set_step (l : List Int) (off i : Nat) (v : Int) (h : off + i < l.length) :
    Verif.Py.set l ((off : Int) + (i : Int)) v = .ok (l.set (off + i) v) := by
  rw [← Int.natCast_add, set_natCast _ _ _ h]

theorem set_step_out (l : List Int) (off i : Nat) (v : Int) (h : l.length ≤ off + i) :
    Verif.Py.set l ((off : Int) + (i : Int)) v = .error .indexError := by
  rw [← Int.natCast_add]; exact set_out _ _ _ (by omega)

/-- The two-list copying loop. `k` is the number of cells that can be copied. -/
theorem copyRange_eq (src dst : List Int) (so d i n : Nat) :
    copyRange src so dst d i n =
      (let k := min n (min (src.length - (so + i)) (dst.length - (d + i)))
       (outcome k n, splice dst (d + i) ((src.drop (so + i)).take k))) := by
  induction n generalizing dst i with
  | zero => simp [copyRange, outcome, splice_nil]
  | succ n ih =>
    unfold copyRange
    by_cases h1 : so + i < src.length
    · rw [get_step _ _ _ h1]
      simp only
      by_cases h2 : d + i < dst.length
      · rw [set_step _ _ _ _ h2]
        simp only
        rw [ih]
        simp only [List.length_set]
        have hk : min (n + 1) (min (src.length - (so + i)) (dst.length - (d + i))) =
            min n (min (src.length - (so + (i + 1))) (dst.length - (d + (i + 1)))) + 1 := by omega
        rw [hk]
        generalize hkk : min n (min (src.length - (so + (i + 1))) (dst.length - (d + (i + 1)))) = k
        rw [take_succ_drop _ _ _ h1]
        have e : d + (i + 1) = d + i + 1 := by omega
        rw [e, set_splice _ _ _ _ (by simp; omega)]
        simp only [outcome]
        have : (k = n) ↔ (k + 1 = n + 1) := by omega
        simp only [this]
        have e3 : so + (i + 1) = so + i + 1 := by omega
        rw [e3]
      · rw [set_step_out _ _ _ _ (by omega)]
        have hk : min (n + 1) (min (src.length - (so + i)) (dst.length - (d + i))) = 0 := by omega
        simp [hk, outcome, splice_nil]
    · rw [get_step_out _ _ _ (by omega)]
      have hk : min (n + 1) (min (src.length - (so + i)) (dst.length - (d + i))) = 0 := by omega
      simp [hk, outcome, splice_nil]

theorem Heap.upd_same (h : Heap) (r : Nat) (l : List Int) : (h.upd r l) r = l := by simp [Heap.upd]
theorem Heap.upd_ne (h : Heap) (r q : Nat) (l : List Int) (hq : q ≠ r) : (h.upd r l) q = h q := by
  simp [Heap.upd, hq]
theorem Heap.upd_upd (h : Heap) (r : Nat) (a b : List Int) : (h.upd r a).upd r b = h.upd r b := by
  funext q; simp only [Heap.upd]; split <;> rfl
theorem Heap.upd_self (h : Heap) (r : Nat) : h.upd r (h r) = h := by
  funext q; simp only [Heap.upd]; split <;> simp_all

/-- The reference copying loop between different lists is the two-list loop. -/
theorem copyLoop_copyRange (h : Heap) (s d : Nat) (hsd : s ≠ d) (so d' : Int) (i n : Nat) :
    Util.copyLoop h s so d d' i n =
      ((copyRange (h s) so (h d) d' i n).1, h.upd d (copyRange (h s) so (h d) d' i n).2) := by
  induction n generalizing h i with
  | zero => simp [Util.copyLoop, copyRange, Heap.upd_self]
  | succ n ih =>
    unfold Util.copyLoop copyRange
    cases get (h s) (so + i) with
    | error e => simp [Heap.upd_self]
    | ok v =>
      simp only
      cases hset : Verif.Py.set (h d) (d' + i) v with
      | error e => simp [Heap.upd_self]
      | ok l =>
        simp only
        rw [ih, Heap.upd_ne _ _ _ _ hsd, Heap.upd_same, Heap.upd_upd]

theorem copyRange_err (src dst : List Int) (so d : Int) (i n : Nat) :
    (copyRange src so dst d i n).1 = .ok () ∨ (copyRange src so dst d i n).1 = .error .indexError := by
  induction n generalizing dst i with
  | zero => simp [copyRange]
  | succ n ih =>
    unfold copyRange
    rcases get_ok_or_indexError src (so + i) with ⟨v, _, hv⟩ | hv
    · rw [hv]
      simp only
      cases hs : Verif.Py.set dst (d + i) v with
      | error e =>
        unfold Verif.Py.set at hs
        split at hs <;> simp_all
      | ok l => simp only; exact ih _ _
    · rw [hv]; simp

theorem twoLists_zero (a b : List Int) : Util.twoLists a b 0 = a := by simp [Util.twoLists]
theorem twoLists_one (a b : List Int) : Util.twoLists a b 1 = b := by simp [Util.twoLists]

/-- `arrayCopy` on different lists, through the two-list loop (any offsets). -/
theorem arrayCopy_copyRange (src : List Int) (so : Int) (dst : List Int) (d n : Int) :
    Util.arrayCopy src so dst d n =
      (mapIndexError .arrayIndexOutOfBounds (copyRange src so dst d 0 (rangeLen n)).1,
       (copyRange src so dst d 0 (rangeLen n)).2) := by
  unfold Util.arrayCopy Util.arrayCopyRef JCSystem.beginTransaction
  simp only
  rw [copyLoop_copyRange _ 0 1 (by decide), twoLists_zero, twoLists_one]
  rcases copyRange_err src dst so d 0 (rangeLen n) with h | h <;>
  · rw [h]
    simp [JCSystem.commitTransaction, JCSystem.abortTransaction, Heap.upd, mapIndexError]

/-- `arrayCopyNonAtomic` on different lists. -/
theorem arrayCopyNonAtomic_copyRange (src : List Int) (so : Int) (dst : List Int) (d n : Int) :
    Util.arrayCopyNonAtomic src so dst d n =
      (mapIndexError .nameError (copyRange src so dst d 0 (rangeLen n)).1,
       (copyRange src so dst d 0 (rangeLen n)).2) := by
  unfold Util.arrayCopyNonAtomic Util.arrayCopyNonAtomicRef
  simp only
  rw [copyLoop_copyRange _ 0 1 (by decide), twoLists_zero, twoLists_one]
  rcases copyRange_err src dst so d 0 (rangeLen n) with h | h <;>
  · rw [h]
    simp [Heap.upd, mapIndexError]

/-- Natural-number form of `arrayCopy` on different lists. -/
theorem arrayCopy_eq (src dst : List Int) (so d n : Nat) :
    Util.arrayCopy src so dst d n =
      (let k := min n (min (src.length - so) (dst.length - d))
       (if k = n then .ok () else .error .arrayIndexOutOfBounds,
        splice dst d ((src.drop so).take k))) := by
  rw [arrayCopy_copyRange]
  simp only [rangeLen, Int.toNat_natCast]
  rw [copyRange_eq]
  simp only [Nat.add_zero, outcome]
  split <;> simp [mapIndexError]

theorem arrayCopyNonAtomic_eq (src dst : List Int) (so d n : Nat) :
    Util.arrayCopyNonAtomic src so dst d n =
      (let k := min n (min (src.length - so) (dst.length - d))
       (if k = n then .ok () else .error .nameError,
        splice dst d ((src.drop so).take k))) := by
  rw [arrayCopyNonAtomic_copyRange]
  simp only [rangeLen, Int.toNat_natCast]
  rw [copyRange_eq]
  simp only [Nat.add_zero, outcome]
  split <;> simp [mapIndexError]

/-- `arrayCopy` succeeds when both ranges fit. -/
theorem arrayCopy_ok (src dst : List Int) (so d n : Nat) (h1 : so + n ≤ src.length)
    (h2 : d + n ≤ dst.length) :
    Util.arrayCopy src so dst d n = (.ok (), splice dst d ((src.drop so).take n)) := by
  rw [arrayCopy_eq]
  have : min n (min (src.length - so) (dst.length - d)) = n := by omega
  simp [this]

/-- The filling loop. -/
theorem fillLoop_eq (l : List Int) (off : Nat) (v : Int) (i n : Nat) :
    Util.fillLoop l off v i n =
      (let k := min n (l.length - (off + i))
       (outcome k n, splice l (off + i) (List.replicate k v))) := by
  induction n generalizing l i with
  | zero => simp [Util.fillLoop, outcome, splice_nil]
  | succ n ih =>
    unfold Util.fillLoop
    by_cases h : off + i < l.length
    · rw [set_step _ _ _ _ h]
      simp only
      rw [ih]
      simp only [List.length_set]
      have hk : min (n + 1) (l.length - (off + i)) = min n (l.length - (off + (i + 1))) + 1 := by omega
      rw [hk]
      generalize hkk : min n (l.length - (off + (i + 1))) = k
      have e : off + (i + 1) = off + i + 1 := by omega
      rw [e, set_splice _ _ _ _ (by simp; omega), List.replicate_succ]
      have : (k = n) ↔ (k + 1 = n + 1) := by omega
      simp only [outcome, this]
    · rw [set_step_out _ _ _ _ (by omega)]
      have hk : min (n + 1) (l.length - (off + i)) = 0 := by omega
      simp [hk, outcome, splice_nil]

/-- The two cells agree: both exist and hold the same value. -/
def Agree (a b : List Int) (i j : Nat) : Prop := ∃ v, a[i]? = some v ∧ b[j]? = some v

/-- What the comparing loop computes. -/
theorem compareLoop_spec (a b : List Int) (ao bo i n : Nat) :
    (Util.compareLoop a ao b bo i n = .ok 0 ∧ ∀ j < n, Agree a b (ao + i + j) (bo + i + j)) ∨
    (∃ k < n, (∀ j < k, Agree a b (ao + i + j) (bo + i + j)) ∧
      ∃ x y, a[ao + i + k]? = some x ∧ b[bo + i + k]? = some y ∧
        ((x > y ∧ Util.compareLoop a ao b bo i n = .ok 1) ∨
         (x < y ∧ Util.compareLoop a ao b bo i n = .ok (-1)))) ∨
    (∃ k < n, (∀ j < k, Agree a b (ao + i + j) (bo + i + j)) ∧
      (a[ao + i + k]? = none ∨ b[bo + i + k]? = none) ∧
      Util.compareLoop a ao b bo i n = .error .indexError) := by
  induction n generalizing i with
  | zero => left; simp [Util.compareLoop]
  | succ n ih =>
    unfold Util.compareLoop
    by_cases h1 : ao + i < a.length
    · by_cases h2 : bo + i < b.length
      · rw [get_step _ _ _ h1, get_step _ _ _ h2]
        simp only
        by_cases hgt : a[ao + i] > b[bo + i]
        · right; left
          refine ⟨0, by omega, by omega, a[ao + i], b[bo + i], by simp [h1], by simp [h2], ?_⟩
          left; simp [hgt]
        · by_cases hlt : a[ao + i] < b[bo + i]
          · right; left
            refine ⟨0, by omega, by omega, a[ao + i], b[bo + i], by simp [h1], by simp [h2], ?_⟩
            right; simp [hgt, hlt]
          · have heq : a[ao + i] = b[bo + i] := by omega
            simp only [hgt, hlt, if_false]
            have hag : ∀ m, (∀ j < m, Agree a b (ao + (i + 1) + j) (bo + (i + 1) + j)) →
                ∀ j < m + 1, Agree a b (ao + i + j) (bo + i + j) := by
              intro m hm j hj
              cases j with
              | zero => exact ⟨a[ao + i], by simp [h1], by simp [h2, heq]⟩
              | succ j =>
                have := hm j (by omega)
                rw [show ao + (i + 1) + j = ao + i + (j + 1) by omega,
                  show bo + (i + 1) + j = bo + i + (j + 1) by omega] at this
                exact this
            rcases ih (i + 1) with ⟨hr, hj⟩ | ⟨k, hk, hj, x, y, hx, hy, hr⟩ | ⟨k, hk, hj, hno, hr⟩
            · left; exact ⟨hr, hag n hj⟩
            · right; left
              refine ⟨k + 1, by omega, hag k hj, x, y, ?_, ?_, hr⟩
              · rw [show ao + i + (k + 1) = ao + (i + 1) + k by omega]; exact hx
              · rw [show bo + i + (k + 1) = bo + (i + 1) + k by omega]; exact hy
            · right; right
              refine ⟨k + 1, by omega, hag k hj, ?_, hr⟩
              rw [show ao + i + (k + 1) = ao + (i + 1) + k by omega,
                show bo + i + (k + 1) = bo + (i + 1) + k by omega]
              exact hno
      · right; right
        refine ⟨0, by omega, by omega, ?_, ?_⟩
        · right; simp; omega
        · rw [get_step _ _ _ h1, get_step_out _ _ _ (by omega)]
    · right; right
      refine ⟨0, by omega, by omega, ?_, ?_⟩
      · left; simp; omega
      · rw [get_step_out _ _ _ (by omega)]

/-- Copying loop inside one list, as a function of the list. -/
def selfLoop (l : List Int) (so d : Nat) (i : Nat) : Nat → List Int
  | 0 => l
  | n + 1 => selfLoop (l.set (d + i) (l[so + i]?.getD 0)) so d (i + 1) n

theorem copyLoop_self (h : Heap) (r : Nat) (so d i n : Nat) (h1 : so + i + n ≤ (h r).length)
    (h2 : d + i + n ≤ (h r).length) :
    Util.copyLoop h r so r d i n = (.ok (), h.upd r (selfLoop (h r) so d i n)) := by
  induction n generalizing h i with
  | zero => simp [Util.copyLoop, selfLoop, Heap.upd_self]
  | succ n ih =>
    unfold Util.copyLoop
    rw [get_step _ _ _ (by omega)]
    simp only
    rw [set_step _ _ _ _ (by omega)]
    simp only
    rw [ih _ _ (by rw [Heap.upd_same]; simp; omega) (by rw [Heap.upd_same]; simp; omega)]
    rw [Heap.upd_same, Heap.upd_upd]
    conv => rhs; unfold selfLoop
    rw [List.getElem?_eq_getElem (by omega)]
    simp

theorem selfLoop_length (l : List Int) (so d i n : Nat) : (selfLoop l so d i n).length = l.length := by
  induction n generalizing l i with
  | zero => rfl
  | succ n ih => unfold selfLoop; rw [ih]; simp

end Verif.Model
