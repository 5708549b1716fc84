import Verif.Lemmas.Copy
/-! C04–C09: comparing, copying and filling arrays. -/
namespace Verif.Props
open Verif.Py Verif.Model Verif.Spec

/-! ### C04 -/

theorem compare_mapped (a b : List Int) (ao bo n : Nat) :
    Util.arrayCompare a ao b bo n =
      mapIndexError .arrayIndexOutOfBounds (Util.compareLoop a ao b bo 0 n) := by
  simp [Util.arrayCompare, rangeLen]

theorem range_eq_iff (a b : List Int) (ao bo n : Nat) (ha : ao + n ≤ a.length) (hb : bo + n ≤ b.length) :
    range a ao n = range b bo n ↔ ∀ j < n, Agree a b (ao + j) (bo + j) := by
  constructor
  · intro e j hj
    have h := congrArg (fun l => l[j]?) e
    simp only [range, List.getElem?_take, List.getElem?_drop, hj, if_true] at h
    have h1 : ao + j < a.length := by omega
    exact ⟨a[ao + j], by simp [h1], by rw [← h]; simp [h1]⟩
  · intro h
    apply List.ext_getElem?
    intro j
    simp only [range, List.getElem?_take, List.getElem?_drop]
    by_cases hj : j < n
    · obtain ⟨v, h1, h2⟩ := h j hj
      simp [hj, h1, h2]
    · simp [hj]

/-- C04: on in-bounds ranges `arrayCompare` is the lexicographic comparison: 0 exactly when the
ranges are equal, otherwise the sign of the first difference. -/
theorem C04_arrayCompare (a b : List Int) (ao bo n : Nat) (ha : ao + n ≤ a.length)
    (hb : bo + n ≤ b.length) :
    (Util.arrayCompare a ao b bo n = .ok 0 ∧ range a ao n = range b bo n) ∨
    (∃ k x y, k < n ∧ range a ao k = range b bo k ∧ a[ao + k]? = some x ∧ b[bo + k]? = some y ∧
      ((x > y ∧ Util.arrayCompare a ao b bo n = .ok 1) ∨
       (x < y ∧ Util.arrayCompare a ao b bo n = .ok (-1)))) := by
  rw [compare_mapped]
  rcases compareLoop_spec a b ao bo 0 n with ⟨h, hj⟩ | ⟨k, hk, hj, x, y, hx, hy, hr⟩ |
    ⟨k, hk, _, hno, _⟩
  · left
    rw [h]
    exact ⟨rfl, (range_eq_iff a b ao bo n ha hb).2 (by simpa using hj)⟩
  · right
    refine ⟨k, x, y, hk, (range_eq_iff a b ao bo k (by omega) (by omega)).2 (by simpa using hj),
      by simpa using hx, by simpa using hy, ?_⟩
    rcases hr with ⟨h, h'⟩ | ⟨h, h'⟩ <;> rw [h'] <;> simp [mapIndexError, h]
  · simp at hno; omega

/-- C04: zero exactly for equal ranges. -/
theorem C04_zero_iff (a b : List Int) (ao bo n : Nat) (ha : ao + n ≤ a.length)
    (hb : bo + n ≤ b.length) :
    Util.arrayCompare a ao b bo n = .ok 0 ↔ range a ao n = range b bo n := by
  rcases C04_arrayCompare a b ao bo n ha hb with ⟨h, e⟩ | ⟨k, x, y, hk, he, hx, hy, hr⟩
  · simp [h, e]
  · have hne : ¬ range a ao n = range b bo n := by
      intro e
      obtain ⟨v, h1, h2⟩ := (range_eq_iff a b ao bo n ha hb).1 e k hk
      rw [hx] at h1; rw [hy] at h2
      simp at h1 h2
      omega
    simp only [hne, iff_false]
    rcases hr with ⟨_, h⟩ | ⟨_, h⟩ <;> simp [h]

/-- C04: exchanging the arguments negates the answer. -/
theorem C04_antisymm (a b : List Int) (ao bo n : Nat) (ha : ao + n ≤ a.length)
    (hb : bo + n ≤ b.length) :
    ∃ r : Int, Util.arrayCompare a ao b bo n = .ok r ∧ Util.arrayCompare b bo a ao n = .ok (-r) := by
  rcases C04_arrayCompare a b ao bo n ha hb with ⟨h, e⟩ | ⟨k, x, y, hk, he, hx, hy, hr⟩
  · exact ⟨0, h, (C04_zero_iff b a bo ao n hb ha).2 e.symm⟩
  · rcases C04_arrayCompare b a bo ao n hb ha with ⟨h', e'⟩ | ⟨k', x', y', hk', he', hx', hy', hr'⟩
    · have := (C04_zero_iff a b ao bo n ha hb).2 e'.symm
      rcases hr with ⟨_, h⟩ | ⟨_, h⟩ <;> simp [h] at this
    · have hkk : k = k' := by
        rcases Nat.lt_trichotomy k k' with h | h | h
        · obtain ⟨v, h1, h2⟩ := (range_eq_iff b a bo ao k' (by omega) (by omega)).1 he' k h
          rw [hy] at h1; rw [hx] at h2; simp at h1 h2; omega
        · exact h
        · obtain ⟨v, h1, h2⟩ := (range_eq_iff a b ao bo k (by omega) (by omega)).1 he k' h
          rw [hy'] at h1; rw [hx'] at h2; simp at h1 h2; omega
      subst hkk
      rw [hx] at hy'; rw [hy] at hx'
      simp at hx' hy'
      rcases hr with ⟨hg, h⟩ | ⟨hg, h⟩ <;> rcases hr' with ⟨hg', h'⟩ | ⟨hg', h'⟩
      · omega
      · exact ⟨1, h, h'⟩
      · exact ⟨-1, h, h'⟩
      · omega

example : (1 + 2 ≤ [7, 1, 2].length ∧ 0 + 2 ≤ [1, 3].length) ∧
    Util.arrayCompare [7, 1, 2] 1 [1, 3] 0 2 = .ok (-1) ∧
    Util.arrayCompare [1, 3] 0 [7, 1, 2] 1 2 = .ok 1 := by decide

/-! ### C05 -/

/-- C05: copying between two different lists of a heap: success, the destination is written
exactly on the range with the source range, every other list is unchanged. -/
theorem C05_arrayCopy (h : Heap) (s d : Nat) (hsd : s ≠ d) (so d' n : Nat)
    (h1 : so + n ≤ (h s).length) (h2 : d' + n ≤ (h d).length) :
    (Util.arrayCopyRef h s so d d' n).1 = .ok () ∧
    Written (h d) ((Util.arrayCopyRef h s so d d' n).2 d) d' (range (h s) so n) ∧
    ∀ r, r ≠ d → (Util.arrayCopyRef h s so d d' n).2 r = h r := by
  rw [arrayCopyRef_copyLoop]
  simp only [rangeLen, Int.toNat_natCast]
  rw [copyLoop_copyRange h s d hsd, copyRange_eq]
  have hk : min n (min ((h s).length - so) ((h d).length - d')) = n := by omega
  simp only [Nat.add_zero, hk]
  refine ⟨by simp [outcome, mapIndexError], ?_, ?_⟩
  · rw [Heap.upd_same]
    exact written_splice _ _ _ (by simp; omega)
  · intro r hr
    rw [Heap.upd_ne _ _ _ _ hr]

theorem C05_arrayCopyNonAtomic (h : Heap) (s d : Nat) (hsd : s ≠ d) (so d' n : Nat)
    (h1 : so + n ≤ (h s).length) (h2 : d' + n ≤ (h d).length) :
    (Util.arrayCopyNonAtomicRef h s so d d' n).1 = .ok () ∧
    Written (h d) ((Util.arrayCopyNonAtomicRef h s so d d' n).2 d) d' (range (h s) so n) ∧
    ∀ r, r ≠ d → (Util.arrayCopyNonAtomicRef h s so d d' n).2 r = h r := by
  rw [arrayCopyNonAtomicRef_copyLoop]
  simp only [rangeLen, Int.toNat_natCast]
  rw [copyLoop_copyRange h s d hsd, copyRange_eq]
  have hk : min n (min ((h s).length - so) ((h d).length - d')) = n := by omega
  simp only [Nat.add_zero, hk]
  refine ⟨by simp [outcome, mapIndexError], ?_, ?_⟩
  · rw [Heap.upd_same]
    exact written_splice _ _ _ (by simp; omega)
  · intro r hr
    rw [Heap.upd_ne _ _ _ _ hr]

/-- C05: a negative or zero length copies nothing and succeeds, whatever the offsets. -/
theorem C05_nonpositive (h : Heap) (s d : Nat) (so d' n : Int) (hn : n ≤ 0) :
    Util.arrayCopyRef h s so d d' n = (.ok (), h) ∧
    Util.arrayCopyNonAtomicRef h s so d d' n = (.ok (), h) := by
  have : n.toNat = 0 := by omega
  rw [arrayCopyRef_copyLoop, arrayCopyNonAtomicRef_copyLoop]
  simp [rangeLen, this, Util.copyLoop, mapIndexError]

example : (1 + 2 ≤ (Util.twoLists [1, 2, 3] [4, 5, 6, 7] 0).length) ∧
    (2 + 2 ≤ (Util.twoLists [1, 2, 3] [4, 5, 6, 7] 1).length) ∧
    Util.arrayCopy [1, 2, 3] 1 [4, 5, 6, 7] 2 2 = (.ok (), [4, 5, 2, 3]) := by decide

/-! ### C06 -/

theorem arrayCopySelf_eq (a : List Int) (so d n : Nat) (h1 : so + n ≤ a.length)
    (h2 : d + n ≤ a.length) :
    Util.arrayCopySelf a so d n = (.ok (), selfLoop a so d 0 n) := by
  unfold Util.arrayCopySelf
  rw [arrayCopyRef_copyLoop]
  simp only [rangeLen, Int.toNat_natCast]
  rw [copyLoop_self _ _ _ _ _ _ (by rw [twoLists_zero]; omega) (by rw [twoLists_zero]; omega)]
  simp [mapIndexError, twoLists_zero, Heap.upd_same]

/-- C06: a copy inside one array behaves as if through a temporary array when the destination
starts no later than the source, or the ranges do not overlap. -/
theorem C06_as_if_temporary (a : List Int) (so d n : Nat) (h1 : so + n ≤ a.length)
    (h2 : d + n ≤ a.length) (hov : d ≤ so ∨ so + n ≤ d) :
    (Util.arrayCopySelf a so d n).1 = .ok () ∧
    Written a (Util.arrayCopySelf a so d n).2 d (range a so n) := by
  rw [arrayCopySelf_eq a so d n h1 h2, selfLoop_memmove a so d n h1 h2 hov]
  exact ⟨rfl, written_splice _ _ _ (by simp [range]; omega)⟩

/-- C06: when the destination starts after the source, cell `d + j` receives the source cell
`so + j mod (d - so)`: the first `d - so` cells are repeated. -/
theorem C06_periodic (a : List Int) (so d n : Nat) (h1 : so + n ≤ a.length)
    (h2 : d + n ≤ a.length) (hlt : so < d) :
    (Util.arrayCopySelf a so d n).1 = .ok () ∧
    (Util.arrayCopySelf a so d n).2.length = a.length ∧
    (∀ j < n, (Util.arrayCopySelf a so d n).2[d + j]? = a[so + j % (d - so)]?) ∧
    (∀ j, (j < d ∨ d + n ≤ j) → (Util.arrayCopySelf a so d n).2[j]? = a[j]?) := by
  rw [arrayCopySelf_eq a so d n h1 h2, selfLoop_periodic a so d n h2 hlt]
  obtain ⟨_, hl, hw, hf⟩ := written_splice a d
    ((List.range n).map fun j => a[so + j % (d - so)]?.getD 0) (by simp; omega)
  refine ⟨rfl, hl, ?_, ?_⟩
  · intro j hj
    rw [hw j (by simpa using hj)]
    have : so + j % (d - so) < a.length := by
      have := Nat.mod_lt j (show d - so > 0 by omega)
      omega
    simp [this]
  · intro j hj
    exact hf j (by simpa using hj)

/-- C06: for overlapping ranges with `so < d < so + n` the temporary-copy promise holds only when
the array is already periodic there; on an array of distinct values it always fails. -/
theorem C06_overlap_wrong (a : List Int) (so d n : Nat) (h1 : so + n ≤ a.length)
    (h2 : d + n ≤ a.length) (hlt : so < d) (hov : d < so + n)
    (hdist : a[so]? ≠ a[d]?) :
    ¬ Written a (Util.arrayCopySelf a so d n).2 d (range a so n) := by
  intro hw
  have hlen : (range a so n).length = n := by simp [range]; omega
  have h3 := hw.2.2.1 (d - so) (by rw [hlen]; omega)
  have h4 := (C06_periodic a so d n h1 h2 hlt).2.2.1 (d - so) (by omega)
  rw [h4] at h3
  rw [Nat.mod_self, ← List.getElem?_eq_getElem] at h3
  simp only [range, List.getElem?_take, List.getElem?_drop] at h3
  rw [if_pos (by omega)] at h3
  apply hdist
  rw [show so + (d - so) = d by omega] at h3
  simpa using h3

example : Util.arrayCopySelf [1, 2, 3, 4, 5] 0 1 3 = (.ok (), [1, 1, 1, 1, 5]) := by decide
example : Util.arrayCopySelf [1, 2, 3, 4, 5] 1 0 4 = (.ok (), [2, 3, 4, 5, 5]) := by decide

/-! ### C07 -/

/-- C07: a copy between different lists that overruns one of them raises and leaves the
destination with exactly the in-bounds prefix of `k < n` cells overwritten. -/
theorem C07_failed_copy (h : Heap) (s d : Nat) (hsd : s ≠ d) (so d' n : Nat) (hn : 0 < n)
    (hfail : ¬ (so + n ≤ (h s).length ∧ d' + n ≤ (h d).length)) :
    (Util.arrayCopyRef h s so d d' n).1 = .error .arrayIndexOutOfBounds ∧
    (∀ r, r ≠ d → (Util.arrayCopyRef h s so d d' n).2 r = h r) ∧
    ∃ k < n, k = min ((h s).length - so) ((h d).length - d') ∧
      ((k = 0 ∧ (Util.arrayCopyRef h s so d d' n).2 d = h d) ∨
       (0 < k ∧ Written (h d) ((Util.arrayCopyRef h s so d d' n).2 d) d' (range (h s) so k))) := by
  rw [arrayCopyRef_copyLoop]
  simp only [rangeLen, Int.toNat_natCast]
  rw [copyLoop_copyRange h s d hsd, copyRange_eq]
  simp only [Nat.add_zero]
  have hk : min n (min ((h s).length - so) ((h d).length - d')) =
      min ((h s).length - so) ((h d).length - d') := by omega
  rw [hk]
  have hlt : min ((h s).length - so) ((h d).length - d') < n := by omega
  refine ⟨?_, ?_, _, hlt, rfl, ?_⟩
  · have : ¬ min ((h s).length - so) ((h d).length - d') = n := by omega
    simp [outcome, this, mapIndexError]
  · intro r hr
    rw [Heap.upd_ne _ _ _ _ hr]
  · rw [Heap.upd_same]
    by_cases h0 : min ((h s).length - so) ((h d).length - d') = 0
    · left
      rw [h0]
      simp [splice_nil]
    · right
      exact ⟨by omega, written_splice _ _ _ (by simp; omega)⟩

/-- C07: the promise "a failed copy changes nothing" is refuted. -/
theorem C07_not_atomic :
    ∃ (src dst : List Int) (so d n : Nat),
      (Util.arrayCopy src so dst d n).1 = .error .arrayIndexOutOfBounds ∧
      (Util.arrayCopy src so dst d n).2 ≠ dst :=
  ⟨[1, 2, 3], [0, 0], 0, 0, 3, by decide, by decide⟩

/-- C07: the transaction calls have no effect on memory: whatever is written between
`beginTransaction` and `abortTransaction` stays written. -/
theorem C07_abort_keeps (h : Heap) (f : Heap → Heap) :
    JCSystem.abortTransaction (f (JCSystem.beginTransaction h)) = f h := rfl

/-! ### C08 -/

/-- C08: for any two references, equal or not, `arrayCopy` succeeds exactly when both ranges are
in bounds (or empty) and otherwise raises `ArrayIndexOutOfBoundsException`. -/
theorem C08_arrayCopy (h : Heap) (s d so d' n : Nat) :
    (Util.arrayCopyRef h s so d d' n).1 =
      if n = 0 ∨ (so + n ≤ (h s).length ∧ d' + n ≤ (h d).length) then .ok ()
      else .error .arrayIndexOutOfBounds := by
  rw [arrayCopyRef_copyLoop]
  simp only [rangeLen, Int.toNat_natCast]
  have hiff := copyLoop_ok_iff h s d so d' 0 n
  simp only [Nat.add_zero] at hiff
  split
  · next hc => rw [hiff.2 hc]; rfl
  · next hc =>
    rcases copyLoop_err h s d so d' 0 n with h' | h'
    · exact absurd (hiff.1 h') hc
    · rw [h']; rfl

/-- C08: `arrayCopyNonAtomic` fails in the same cases, but with a `NameError`. -/
theorem C08_arrayCopyNonAtomic (h : Heap) (s d so d' n : Nat) :
    (Util.arrayCopyNonAtomicRef h s so d d' n).1 =
      if n = 0 ∨ (so + n ≤ (h s).length ∧ d' + n ≤ (h d).length) then .ok ()
      else .error .nameError := by
  rw [arrayCopyNonAtomicRef_copyLoop]
  simp only [rangeLen, Int.toNat_natCast]
  have hiff := copyLoop_ok_iff h s d so d' 0 n
  simp only [Nat.add_zero] at hiff
  split
  · next hc => rw [hiff.2 hc]; rfl
  · next hc =>
    rcases copyLoop_err h s d so d' 0 n with h' | h'
    · exact absurd (hiff.1 h') hc
    · rw [h']; rfl

/-- C08: whatever happens, no list but the destination changes, and of the destination no cell
outside the range (also for copies inside one list). -/
theorem C08_frame (h : Heap) (s d so d' n : Nat) :
    (∀ r, r ≠ d → (Util.arrayCopyRef h s so d d' n).2 r = h r) ∧
    ((Util.arrayCopyRef h s so d d' n).2 d).length = (h d).length ∧
    (∀ j, (j < d' ∨ d' + n ≤ j) → ((Util.arrayCopyRef h s so d d' n).2 d)[j]? = (h d)[j]?) := by
  rw [arrayCopyRef_copyLoop]
  simp only [rangeLen, Int.toNat_natCast]
  simpa using copyLoop_frame h s d so d' 0 n

theorem C08_arrayFill (l : List Int) (off n : Nat) (v : Int) :
    (Util.arrayFillNonAtomic l off n v).1 =
      if n = 0 ∨ off + n ≤ l.length then .ok () else .error .arrayIndexOutOfBounds := by
  unfold Util.arrayFillNonAtomic
  simp only [rangeLen, Int.toNat_natCast]
  rw [fillLoop_eq]
  simp only [Nat.add_zero, outcome]
  by_cases h : n = 0 ∨ off + n ≤ l.length
  · have : min n (l.length - off) = n := by omega
    simp [this, h]
  · have : ¬ min n (l.length - off) = n := by omega
    simp [this, h]

theorem C08_getShort (l : List Int) (off : Nat) :
    (∃ v, Util.getShort l off = .ok v) ∧ off + 2 ≤ l.length ∨
    Util.getShort l off = .error .arrayIndexOutOfBounds ∧ l.length < off + 2 := by
  unfold Util.getShort
  by_cases h : off + 1 < l.length
  · left
    rw [get_natCast _ _ (by omega)]
    have := get_step l off 1 h
    simp only [Int.natCast_one] at this
    simp only
    rw [this]
    exact ⟨⟨_, rfl⟩, by omega⟩
  · right
    refine ⟨?_, by omega⟩
    by_cases h0 : off < l.length
    · rw [get_natCast _ _ h0]
      have := get_step_out l off 1 (by omega)
      simp only [Int.natCast_one] at this
      simp only
      rw [this]
      rfl
    · rw [get_natCast_out _ _ (by omega)]
      rfl

theorem C08_setShort (l : List Int) (off : Nat) (v : Int) :
    (Util.setShort l off v).1 =
      if off + 2 ≤ l.length then .ok () else .error .arrayIndexOutOfBounds := by
  unfold Util.setShort
  simp only
  by_cases h0 : off < l.length
  · rw [set_natCast _ _ _ h0]
    simp only
    by_cases h : off + 1 < l.length
    · have := fun w => set_step (l.set off (s1 (shr (iand v 65280) 8))) off 1 w (by simpa using h)
      simp only [Int.natCast_one] at this
      rw [this, if_pos (by omega)]
    · have := fun w => set_step_out (l.set off (s1 (shr (iand v 65280) 8))) off 1 w (by simp; omega)
      simp only [Int.natCast_one] at this
      rw [this, if_neg (by omega)]
  · rw [set_out _ _ _ (by omega), if_neg (by omega)]

/-- C08: `arrayCompare` raises exactly when it meets an out-of-bounds index before a difference. -/
theorem C08_arrayCompare (a b : List Int) (ao bo n : Nat) :
    Util.arrayCompare a ao b bo n = .error .arrayIndexOutOfBounds ↔
      ∃ k < n, (a.length ≤ ao + k ∨ b.length ≤ bo + k) ∧
        ∀ j < k, ∃ v, a[ao + j]? = some v ∧ b[bo + j]? = some v := by
  rw [compare_mapped]
  rcases compareLoop_spec a b ao bo 0 n with ⟨h, hj⟩ | ⟨k, hk, hj, x, y, hx, hy, hr⟩ |
    ⟨k, hk, hj, hno, hr⟩
  · rw [h]
    simp only [mapIndexError, reduceCtorEq, false_iff]
    rintro ⟨k, hk, hno, -⟩
    obtain ⟨v, h1, h2⟩ := hj k hk
    have l1 := (List.getElem?_eq_some_iff.1 h1).1
    have l2 := (List.getElem?_eq_some_iff.1 h2).1
    omega
  · have hne : mapIndexError .arrayIndexOutOfBounds (Util.compareLoop a ao b bo 0 n) ≠
        .error .arrayIndexOutOfBounds := by
      rcases hr with ⟨_, h⟩ | ⟨_, h⟩ <;> rw [h] <;> simp [mapIndexError]
    simp only [hne, false_iff]
    rintro ⟨k', hk', hno, hag⟩
    have l1 := (List.getElem?_eq_some_iff.1 hx).1
    have l2 := (List.getElem?_eq_some_iff.1 hy).1
    rcases Nat.lt_trichotomy k k' with c | c | c
    · obtain ⟨v, h1, h2⟩ := hag k c
      simp only [Nat.add_zero] at hx hy
      rw [hx] at h1; rw [hy] at h2
      simp at h1 h2
      rcases hr with ⟨_, _⟩ | ⟨_, _⟩ <;> omega
    · omega
    · obtain ⟨v, h1, h2⟩ := hj k' c
      have l3 := (List.getElem?_eq_some_iff.1 h1).1
      have l4 := (List.getElem?_eq_some_iff.1 h2).1
      omega
  · rw [hr]
    simp only [mapIndexError, true_iff]
    exact ⟨k, hk, by simpa using hno, by simpa [Agree] using hj⟩

/-- C08: and raises nothing else. -/
theorem C08_arrayCompare_total (a b : List Int) (ao bo n : Nat) :
    Util.arrayCompare a ao b bo n = .ok 0 ∨ Util.arrayCompare a ao b bo n = .ok 1 ∨
    Util.arrayCompare a ao b bo n = .ok (-1) ∨
    Util.arrayCompare a ao b bo n = .error .arrayIndexOutOfBounds := by
  rw [compare_mapped]
  rcases compareLoop_spec a b ao bo 0 n with ⟨h, _⟩ | ⟨k, _, _, x, y, _, _, hr⟩ | ⟨k, _, _, _, hr⟩
  · rw [h]; simp [mapIndexError]
  · rcases hr with ⟨_, h⟩ | ⟨_, h⟩ <;> rw [h] <;> simp [mapIndexError]
  · rw [hr]; simp [mapIndexError]

/-- C08: negative offsets are not rejected but count from the end of the array. -/
theorem C08_negative_source (h : Heap) (s d : Nat) (o : Nat) (d' : Int) (n : Nat)
    (ho : o + n ≤ (h s).length) :
    Util.arrayCopyRef h s ((o : Int) - (h s).length) d d' n = Util.arrayCopyRef h s o d d' n := by
  rw [arrayCopyRef_copyLoop, arrayCopyRef_copyLoop]
  simp only [rangeLen, Int.toNat_natCast]
  rw [copyLoop_wrap_src h s d o d' 0 n _ rfl (by omega)]

theorem C08_negative_dest (h : Heap) (s d : Nat) (so : Int) (o n : Nat)
    (ho : o + n ≤ (h d).length) :
    Util.arrayCopyRef h s so d ((o : Int) - (h d).length) n = Util.arrayCopyRef h s so d o n := by
  rw [arrayCopyRef_copyLoop, arrayCopyRef_copyLoop]
  simp only [rangeLen, Int.toNat_natCast]
  rw [copyLoop_wrap_dest h s d so o 0 n _ rfl (by omega)]

theorem C08_negative_fill (l : List Int) (o n : Nat) (v : Int) (ho : o + n ≤ l.length) :
    Util.arrayFillNonAtomic l ((o : Int) - l.length) n v = Util.arrayFillNonAtomic l o n v := by
  unfold Util.arrayFillNonAtomic
  simp only [rangeLen, Int.toNat_natCast]
  rw [fillLoop_wrap l o v 0 n _ rfl (by omega)]

theorem C08_negative_getShort (l : List Int) (o : Nat) (ho : o + 2 ≤ l.length) :
    Util.getShort l ((o : Int) - l.length) = Util.getShort l o := by
  unfold Util.getShort
  rw [get_wrap _ _ (by omega) (by omega),
    show (o : Int) - l.length + 1 = ((o : Int) + 1) - l.length by omega,
    get_wrap _ _ (by omega) (by omega)]

theorem C08_negative_setShort (l : List Int) (o : Nat) (v : Int) (ho : o + 2 ≤ l.length) :
    Util.setShort l ((o : Int) - l.length) v = Util.setShort l o v := by
  unfold Util.setShort
  simp only
  rw [set_wrap _ _ _ (by omega) (by omega), set_natCast _ _ _ (by omega)]
  simp only
  have e : (o : Int) - l.length + 1 =
      ((o : Int) + 1) - (l.set o (s1 (shr (iand v 65280) 8))).length := by
    simp; omega
  rw [e, set_wrap _ _ _ (by omega) (by simp; omega)]

example : Util.arrayCopy [1, 2, 3] (-2) [0, 0, 0] (-3) 2 = (.ok (), [2, 3, 0]) := by decide
example : Util.arrayCompare [1, 2] 0 [1] 0 2 = .error .arrayIndexOutOfBounds := by decide
example : Util.arrayCompare [2, 2] 0 [1] 0 2 = .ok 1 := by decide

/-! ### C09 -/

/-- C09: `arrayFillNonAtomic` writes exactly the range. -/
theorem C09_fill (l : List Int) (off n : Nat) (v : Int) (h : off + n ≤ l.length) :
    (Util.arrayFillNonAtomic l off n v).1 = .ok () ∧
    Written l (Util.arrayFillNonAtomic l off n v).2 off (List.replicate n v) := by
  unfold Util.arrayFillNonAtomic
  simp only [rangeLen, Int.toNat_natCast]
  rw [fillLoop_eq]
  have hk : min n (l.length - off) = n := by omega
  simp only [Nat.add_zero, outcome, hk, if_true]
  exact ⟨trivial, written_splice _ _ _ (by simp; omega)⟩

/-- C09: an overrun raises after filling exactly the cells up to the end of the array. -/
theorem C09_overrun (l : List Int) (off n : Nat) (v : Int) (ho : off ≤ l.length)
    (h : l.length < off + n) :
    (Util.arrayFillNonAtomic l off n v).1 = .error .arrayIndexOutOfBounds ∧
    Written l (Util.arrayFillNonAtomic l off n v).2 off (List.replicate (l.length - off) v) := by
  unfold Util.arrayFillNonAtomic
  simp only [rangeLen, Int.toNat_natCast]
  rw [fillLoop_eq]
  have hk : min n (l.length - off) = l.length - off := by omega
  have hne : ¬ l.length - off = n := by omega
  simp only [Nat.add_zero, outcome, hk, hne, if_false]
  exact ⟨trivial, written_splice _ _ _ (by simp; omega)⟩

example : Util.arrayFillNonAtomic [1, 2, 3, 4] 1 2 9 = (.ok (), [1, 9, 9, 4]) := by decide

end Verif.Props
