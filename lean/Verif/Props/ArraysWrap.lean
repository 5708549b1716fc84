import Verif.Props.Arrays
import Verif.Props.Ints
/-! C92: array operations at every offset, positive or negative: the indices wrap around. -/
namespace Verif.Props
open Verif.Py Verif.Model Verif.Spec

/-- Specification: the cell that index `i` names in an array of `len` cells: `i` itself, or `i + len` when `i` is negative. -/
def Names (len : Nat) (i : Int) (p : Nat) : Prop := p < len ∧ ((p : Int) = i ∨ (p : Int) = i + len ∧ i < 0)

/-- Specification: the indices `o`, `o + 1`, …, `o + n - 1` all name cells. -/
def Reachable (len : Nat) (o : Int) (n : Nat) : Prop := -(len : Int) ≤ o ∧ o + n ≤ len

instance (len : Nat) (o : Int) (n : Nat) : Decidable (Reachable len o n) := by unfold Reachable; exact inferInstance

theorem idx_names (len : Nat) (i : Int) (p : Nat) : idx len i = some p ↔ Names len i p := by
  unfold idx Names
  split
  · split
    · constructor
      · intro h; injection h with h; omega
      · intro h; congr 1; omega
    · constructor
      · intro h; cases h
      · omega
  · split
    · constructor
      · intro h; injection h with h; omega
      · intro h; congr 1; omega
    · constructor
      · intro h; cases h
      · omega

theorem idx_none (len : Nat) (i : Int) : idx len i = none ↔ ¬ (-(len : Int) ≤ i ∧ i < len) := by
  unfold idx
  split <;> split <;> simp <;> omega

theorem names_of_reach (len : Nat) (i : Int) (h : -(len : Int) ≤ i ∧ i < len) : ∃ p, Names len i p := by
  cases hi : idx len i with
  | none => exact absurd h ((idx_none len i).1 hi)
  | some p => exact ⟨p, (idx_names len i p).1 hi⟩

theorem get_names (l : List Int) (i : Int) (p : Nat) (h : Names l.length i p) : get l i = .ok (l[p]'h.1) := by
  unfold Verif.Py.get
  rw [(idx_names _ _ _).2 h]
  simp only
  rw [List.getElem?_eq_getElem h.1]

theorem get_unnamed (l : List Int) (i : Int) (h : ¬ (-(l.length : Int) ≤ i ∧ i < l.length)) : get l i = .error .indexError := by
  unfold Verif.Py.get
  rw [(idx_none _ _).2 h]

theorem set_names (l : List Int) (i v : Int) (p : Nat) (h : Names l.length i p) : Verif.Py.set l i v = .ok (l.set p v) := by
  unfold Verif.Py.set
  rw [(idx_names _ _ _).2 h]

theorem set_unnamed (l : List Int) (i v : Int) (h : ¬ (-(l.length : Int) ≤ i ∧ i < l.length)) : Verif.Py.set l i v = .error .indexError := by
  unfold Verif.Py.set
  rw [(idx_none _ _).2 h]

/-- The copying loop succeeds exactly when all indices name cells, for equal or different references. -/
theorem copyLoop_reach (h : Heap) (s d : Nat) (so d' : Int) (i n : Nat) :
    (Util.copyLoop h s so d d' i n).1 = .ok () ↔ n = 0 ∨ (Reachable (h s).length (so + i) n ∧ Reachable (h d).length (d' + i) n) := by
  induction n generalizing h i with
  | zero => simp [Util.copyLoop]
  | succ n ih =>
    unfold Util.copyLoop
    by_cases h1 : -((h s).length : Int) ≤ so + i ∧ so + i < (h s).length
    · obtain ⟨p, hp⟩ := names_of_reach _ _ h1
      rw [get_names _ _ _ hp]
      simp only
      by_cases h2 : -((h d).length : Int) ≤ d' + i ∧ d' + i < (h d).length
      · obtain ⟨q, hq⟩ := names_of_reach _ _ h2
        rw [set_names _ _ _ _ hq]
        simp only
        rw [ih]
        have e1 : ((h.upd d ((h d).set q ((h s)[p]'hp.1))) s).length = (h s).length := by
          by_cases hsd : s = d
          · subst hsd; rw [Heap.upd_same]; simp
          · rw [Heap.upd_ne _ _ _ _ hsd]
        rw [e1, Heap.upd_same]
        simp only [List.length_set, Reachable]
        push_cast
        clear e1
        constructor
        · rintro (hh | hh)
          · right; omega
          · right; omega
        · rintro (hh | hh)
          · exact hh.elim
          · right; omega
      · rw [set_unnamed _ _ _ h2]
        simp [Reachable]
        omega
    · rw [get_unnamed _ _ h1]
      simp [Reachable]
      omega

/-- C92. `arrayCopy` and `arrayCopyNonAtomic`, for all offsets and lengths and for equal or different arrays: they succeed exactly when the length
is not positive or every index touched lies between minus the length of its array and that length; otherwise `arrayCopy` raises
ArrayIndexOutOfBoundsException and `arrayCopyNonAtomic` NameError. -/
theorem C92_copy_succeeds_iff (h : Heap) (s d : Nat) (so d' n : Int) :
    ((Util.arrayCopyRef h s so d d' n).1 = if n ≤ 0 ∨ (Reachable (h s).length so n.toNat ∧ Reachable (h d).length d' n.toNat) then .ok ()
      else .error .arrayIndexOutOfBounds) ∧
    ((Util.arrayCopyNonAtomicRef h s so d d' n).1 = if n ≤ 0 ∨ (Reachable (h s).length so n.toNat ∧ Reachable (h d).length d' n.toNat) then .ok ()
      else .error .nameError) := by
  rw [arrayCopyRef_copyLoop, arrayCopyNonAtomicRef_copyLoop]
  have hiff := copyLoop_reach h s d so d' 0 (rangeLen n)
  have hz : rangeLen n = 0 ↔ n ≤ 0 := by unfold rangeLen; omega
  rw [hz] at hiff
  simp only [Int.natCast_zero, Int.add_zero] at hiff
  by_cases hc : n ≤ 0 ∨ (Reachable (h s).length so n.toNat ∧ Reachable (h d).length d' n.toNat)
  · rw [if_pos hc, if_pos hc, hiff.2 hc]
    exact ⟨rfl, rfl⟩
  · rw [if_neg hc, if_neg hc]
    rcases copyLoop_err h s d so d' 0 (rangeLen n) with h' | h'
    · exact absurd (hiff.1 h') hc
    · rw [h']; exact ⟨rfl, rfl⟩

/-- Specification: `after` is `before` with the values `val 0`, `val 1`, …, `val (k-1)` stored at the cells that the indices `o`, `o + 1`, … name;
where two indices name one cell the later store counts. -/
def Stored (before after : List Int) (o : Int) (k : Nat) (val : Nat → Int) : Prop :=
  after.length = before.length ∧
  (∀ j < k, ∃ p, Names before.length (o + j) p) ∧
  ∀ p, (∃ j < k, Names before.length (o + j) p ∧ after[p]? = some (val j) ∧ ∀ j', j < j' → j' < k → ¬ Names before.length (o + j') p) ∨
       ((∀ j < k, ¬ Names before.length (o + j) p) ∧ after[p]? = before[p]?)

theorem stored_nil (l : List Int) (o : Int) (val : Nat → Int) : Stored l l o 0 val :=
  ⟨rfl, by intro j hj; omega, fun p => .inr ⟨by intro j hj; omega, rfl⟩⟩

theorem stored_cons (l m : List Int) (o : Int) (k q : Nat) (val : Nat → Int) (hq : Names l.length o q)
    (h : Stored (l.set q (val 0)) m (o + 1) k (fun j => val (j + 1))) : Stored l m o (k + 1) val := by
  obtain ⟨h1, h2, h3⟩ := h
  simp only [List.length_set] at h1 h2 h3
  have sh : ∀ j : Nat, o + 1 + (j : Int) = o + ((j + 1 : Nat) : Int) := by intro j; push_cast; omega
  simp only [sh] at h2 h3
  have hq0 : Names l.length (o + ((0 : Nat) : Int)) q := by simpa using hq
  refine ⟨h1, ?_, ?_⟩
  · intro j hj
    cases j with
    | zero => exact ⟨q, hq0⟩
    | succ j => exact h2 j (by omega)
  · intro p
    rcases h3 p with ⟨j, hj, a, b, c⟩ | ⟨a, b⟩
    · refine .inl ⟨j + 1, by omega, a, b, ?_⟩
      intro j' h1 h2
      cases j' with
      | zero => omega
      | succ j' => exact c j' (by omega) (by omega)
    · by_cases hp : p = q
      · subst hp
        refine .inl ⟨0, by omega, hq0, ?_, ?_⟩
        · rw [b]; simp [hq.1]
        · intro j' h1 h2
          cases j' with
          | zero => omega
          | succ j' => exact a j' (by omega)
      · refine .inr ⟨?_, ?_⟩
        · intro j hj
          cases j with
          | zero =>
            intro hn
            have := (idx_names _ _ _).2 hn
            rw [(idx_names _ _ _).2 hq0] at this
            injection this with this
            exact hp this.symm
          | succ j => exact a j (by omega)
        · rw [b, List.getElem?_set_ne (by omega)]

theorem copyRange_stored (src dst : List Int) (so d : Int) (i n : Nat) :
    ∃ k, k ≤ n ∧ (copyRange src so dst d i n).1 = outcome k n ∧
      (∀ j < k, ∃ p, Names src.length (so + i + j) p) ∧
      (k < n → ¬ ((∃ p, Names src.length (so + i + k) p) ∧ ∃ p, Names dst.length (d + i + k) p)) ∧
      ∀ val : Nat → Int, (∀ j < k, ∀ p, Names src.length (so + i + j) p → src[p]? = some (val j)) →
        Stored dst (copyRange src so dst d i n).2 (d + i) k val := by
  induction n generalizing dst i with
  | zero => exact ⟨0, Nat.le_refl _, rfl, by intro j hj; omega, by omega, fun val _ => stored_nil _ _ _⟩
  | succ n ih =>
    have nm : ∀ (len : Nat) (x : Int), (∃ p, Names len x p) → -(len : Int) ≤ x ∧ x < len := by
      rintro len x ⟨p, hp⟩
      unfold Names at hp
      omega
    unfold copyRange
    by_cases h1 : -(src.length : Int) ≤ so + i ∧ so + i < src.length
    · obtain ⟨p, hp⟩ := names_of_reach _ _ h1
      rw [get_names _ _ _ hp]
      simp only
      by_cases h2 : -(dst.length : Int) ≤ d + i ∧ d + i < dst.length
      · obtain ⟨q, hq⟩ := names_of_reach _ _ h2
        rw [set_names _ _ _ _ hq]
        simp only
        obtain ⟨k, hk, ho, hr, hs, hst⟩ := ih (dst.set q (src[p]'hp.1)) (i + 1)
        have s1 : ∀ j : Nat, so + ((i + 1 : Nat) : Int) + (j : Int) = so + i + ((j + 1 : Nat) : Int) := by intro j; push_cast; omega
        have s2 : ∀ j : Nat, d + ((i + 1 : Nat) : Int) + (j : Int) = d + i + ((j + 1 : Nat) : Int) := by intro j; push_cast; omega
        simp only [s1, s2, List.length_set] at hr hs hst
        have hp0 : Names src.length (so + i + ((0 : Nat) : Int)) p := by simpa using hp
        refine ⟨k + 1, by omega, ?_, ?_, ?_, ?_⟩
        · rw [ho]; unfold outcome; simp
        · intro j hj
          cases j with
          | zero => exact ⟨p, hp0⟩
          | succ j => exact hr j (by omega)
        · intro hk'
          exact hs (by omega)
        · intro val hval
          have hv0 := hval 0 (by omega) p hp0
          rw [List.getElem?_eq_getElem hp.1] at hv0
          injection hv0 with hv0
          have := hst (fun j => val (j + 1)) (fun j hj => hval (j + 1) (by omega))
          rw [hv0] at this ⊢
          have e : d + ((i + 1 : Nat) : Int) = d + i + 1 := by push_cast; omega
          rw [e] at this
          exact stored_cons _ _ _ _ _ _ hq this
      · rw [set_unnamed _ _ _ h2]
        refine ⟨0, by omega, by simp [outcome], by intro j hj; omega, ?_, fun val _ => stored_nil _ _ _⟩
        intro _ hc
        exact h2 (by simpa using nm _ _ hc.2)
    · rw [get_unnamed _ _ h1]
      refine ⟨0, by omega, by simp [outcome], by intro j hj; omega, ?_, fun val _ => stored_nil _ _ _⟩
      intro _ hc
      exact h1 (by simpa using nm _ _ hc.1)

/-- C92. What a copy between two different arrays leaves behind, for all offsets and lengths: the first `k` cells were stored in order, where `k` is
the whole length on success and otherwise the number of steps before the first index that names no cell. -/
theorem C92_copy_effect (h : Heap) (s d : Nat) (hsd : s ≠ d) (so d' : Int) (n : Nat) :
    ∃ k, k ≤ n ∧ (k = n ↔ (Util.arrayCopyRef h s so d d' n).1 = .ok ()) ∧
      (k < n → ¬ ((∃ p, Names (h s).length (so + k) p) ∧ ∃ p, Names (h d).length (d' + k) p)) ∧
      (∀ r, r ≠ d → (Util.arrayCopyRef h s so d d' n).2 r = h r) ∧
      (Util.arrayCopyNonAtomicRef h s so d d' n).2 = (Util.arrayCopyRef h s so d d' n).2 ∧
      ∃ val : Nat → Int, (∀ j < k, ∃ p, Names (h s).length (so + j) p ∧ (h s)[p]? = some (val j)) ∧
        Stored (h d) ((Util.arrayCopyRef h s so d d' n).2 d) d' k val := by
  rw [arrayCopyRef_copyLoop, arrayCopyNonAtomicRef_copyLoop]
  simp only [rangeLen, Int.toNat_natCast]
  rw [copyLoop_copyRange h s d hsd]
  obtain ⟨k, hk, ho, hr, hs, hst⟩ := copyRange_stored (h s) (h d) so d' 0 n
  simp only [Int.natCast_zero, Int.add_zero] at hr hs hst
  refine ⟨k, hk, ?_, hs, fun r hr => Heap.upd_ne _ _ _ _ hr, trivial, ?_⟩
  · simp only [ho]
    unfold outcome
    by_cases hkn : k = n
    · simp [hkn, mapIndexError]
    · simp [hkn, mapIndexError]
  · refine ⟨fun j => match idx (h s).length (so + j) with | some p => (h s)[p]?.getD 0 | none => 0, ?_, ?_⟩
    · intro j hj
      obtain ⟨p, hp⟩ := hr j hj
      refine ⟨p, hp, ?_⟩
      simp only [(idx_names _ _ _).2 hp]
      rw [List.getElem?_eq_getElem hp.1]
      rfl
    · simp only [Heap.upd_same]
      apply hst
      intro j _ p hp
      simp only [(idx_names _ _ _).2 hp]
      rw [List.getElem?_eq_getElem hp.1]
      rfl

/-- C92. So a copy to the offset `-m`, of more than `m` cells, does not fail: it fills the last `m` cells and goes on at the start of the array. -/
theorem C92_copy_wraps (h : Heap) (s d : Nat) (hsd : s ≠ d) (so m n : Nat) (hm : m < n) (hd : n ≤ (h d).length) (hs : so + n ≤ (h s).length) :
    (Util.arrayCopyRef h s so d (-(m : Int)) n).1 = .ok () ∧
    (∀ j, j < m → ((Util.arrayCopyRef h s so d (-(m : Int)) n).2 d)[(h d).length - m + j]? = (h s)[so + j]?) ∧
    (∀ j, m ≤ j → j < n → ((Util.arrayCopyRef h s so d (-(m : Int)) n).2 d)[j - m]? = (h s)[so + j]?) := by
  have hok : (Util.arrayCopyRef h s so d (-(m : Int)) n).1 = .ok () := by
    rw [(C92_copy_succeeds_iff h s d so (-(m : Int)) n).1, if_pos]
    right
    unfold Reachable
    simp only [Int.toNat_natCast]
    omega
  obtain ⟨k, _, hk, _, _, _, val, hv, _, _, h3⟩ := C92_copy_effect h s d hsd so (-(m : Int)) n
  have hkn := hk.2 hok
  subst hkn
  have key : ∀ j, j < k → ∀ p, Names (h d).length (-(m : Int) + j) p →
      ((Util.arrayCopyRef h s so d (-(m : Int)) k).2 d)[p]? = (h s)[so + j]? := by
    intro j hj p hp
    rcases h3 p with ⟨j', hj', a, b, _⟩ | ⟨a, _⟩
    · have hjj : j' = j := by
        unfold Names at hp a
        omega
      subst hjj
      obtain ⟨q, hq, hq2⟩ := hv j' hj'
      have : q = so + j' := by unfold Names at hq; omega
      rw [b, ← this, hq2]
    · exact absurd hp (a j hj)
  refine ⟨hok, ?_, ?_⟩
  · intro j hj
    exact key j (by omega) _ (by unfold Names; omega)
  · intro j h1 h2
    exact key j h2 _ (by unfold Names; omega)

example : Util.arrayCopy [1, 2, 3] 0 [4, 5, 6, 7] (-1) 3 = (.ok (), [2, 3, 6, 1]) := by decide
example : Util.arrayCopy [1, 2, 3] (-2) [4, 5, 6, 7] (-4) 5 = (.ok (), [3, 3, 1, 2]) ∧ Reachable 3 (-2) 5 ∧ Reachable 4 (-4) 5 := by
  unfold Reachable; decide

theorem fillLoop_stored (l : List Int) (o v : Int) (i n : Nat) :
    ∃ k, k ≤ n ∧ (Util.fillLoop l o v i n).1 = outcome k n ∧
      (k < n → ¬ ∃ p, Names l.length (o + i + k) p) ∧ Stored l (Util.fillLoop l o v i n).2 (o + i) k (fun _ => v) := by
  induction n generalizing l i with
  | zero => exact ⟨0, Nat.le_refl _, rfl, by omega, stored_nil _ _ _⟩
  | succ n ih =>
    unfold Util.fillLoop
    by_cases h2 : -(l.length : Int) ≤ o + i ∧ o + i < l.length
    · obtain ⟨q, hq⟩ := names_of_reach _ _ h2
      rw [set_names _ _ _ _ hq]
      simp only
      obtain ⟨k, hk, ho, hs, hst⟩ := ih (l.set q v) (i + 1)
      have s2 : ∀ j : Nat, o + ((i + 1 : Nat) : Int) + (j : Int) = o + i + ((j + 1 : Nat) : Int) := by intro j; push_cast; omega
      simp only [s2, List.length_set] at hs
      refine ⟨k + 1, by omega, ?_, fun hk' => hs (by omega), ?_⟩
      · rw [ho]; unfold outcome; simp
      · have e : o + ((i + 1 : Nat) : Int) = o + i + 1 := by push_cast; omega
        rw [e] at hst
        exact stored_cons _ _ _ _ _ (fun _ => v) hq hst
    · rw [set_unnamed _ _ _ h2]
      refine ⟨0, by omega, by simp [outcome], ?_, stored_nil _ _ _⟩
      rintro _ ⟨p, hp⟩
      apply h2
      unfold Names at hp
      omega

/-- C92. `arrayFillNonAtomic` at every offset: it succeeds exactly when every index touched names a cell, and stores up to the first that does not. -/
theorem C92_fill (l : List Int) (o v : Int) (n : Nat) :
    ((Util.arrayFillNonAtomic l o n v).1 = if n = 0 ∨ Reachable l.length o n then .ok () else .error .arrayIndexOutOfBounds) ∧
    ∃ k, k ≤ n ∧ (k = n ↔ (Util.arrayFillNonAtomic l o n v).1 = .ok ()) ∧ (k < n → ¬ ∃ p, Names l.length (o + k) p) ∧
      Stored l (Util.arrayFillNonAtomic l o n v).2 o k (fun _ => v) := by
  obtain ⟨k, hk, ho, hs, hst⟩ := fillLoop_stored l o v 0 n
  simp only [Int.natCast_zero, Int.add_zero] at hs hst
  have hval : Util.arrayFillNonAtomic l o n v = (if k = n then .ok () else .error .arrayIndexOutOfBounds, (Util.fillLoop l o v 0 n).2) := by
    unfold Util.arrayFillNonAtomic
    simp only [rangeLen, Int.toNat_natCast]
    generalize hf : Util.fillLoop l o v 0 n = r at ho
    obtain ⟨r1, r2⟩ := r
    simp only at ho
    subst ho
    unfold outcome
    by_cases hkn : k = n <;> simp [hkn]
  rw [hval]
  have hiff : k = n ↔ n = 0 ∨ Reachable l.length o n := by
    constructor
    · intro hkn
      subst hkn
      by_cases h0 : k = 0
      · exact .inl h0
      · right
        obtain ⟨p, hp⟩ := hst.2.1 0 (by omega)
        obtain ⟨q, hq⟩ := hst.2.1 (k - 1) (by omega)
        unfold Names at hp hq
        unfold Reachable
        omega
    · intro hc
      by_cases hkn : k = n
      · exact hkn
      · exfalso
        have hlt : k < n := by omega
        apply hs hlt
        rcases hc with hc | hc
        · omega
        · unfold Reachable at hc
          exact names_of_reach _ _ (by omega)
  refine ⟨?_, k, hk, ?_, hs, hst⟩
  · by_cases hkn : k = n
    · rw [if_pos hkn, if_pos (hiff.1 hkn)]
    · rw [if_neg hkn, if_neg (fun h => hkn (hiff.2 h))]
  · by_cases hkn : k = n <;> simp [hkn]

/-- C92. `getShort` at every offset: the high byte is the cell that the offset names, the low byte the one the next index names: at -1 the last and
the first cell. It fails exactly when one of the two names no cell. -/
theorem C92_getShort (l : List Int) (o : Int) :
    (Reachable l.length o 2 → ∃ p q a b, Names l.length o p ∧ Names l.length (o + 1) q ∧ l[p]? = some a ∧ l[q]? = some b ∧
      Util.getShort l o = .ok (Util.makeShort a b)) ∧
    (¬ Reachable l.length o 2 → Util.getShort l o = .error .arrayIndexOutOfBounds) := by
  unfold Util.getShort
  constructor
  · intro h
    unfold Reachable at h
    obtain ⟨p, hp⟩ := names_of_reach l.length o (by omega)
    obtain ⟨q, hq⟩ := names_of_reach l.length (o + 1) (by omega)
    refine ⟨p, q, l[p]'hp.1, l[q]'hq.1, hp, hq, List.getElem?_eq_getElem _, List.getElem?_eq_getElem _, ?_⟩
    rw [get_names _ _ _ hp, get_names _ _ _ hq]
    rfl
  · intro h
    unfold Reachable at h
    by_cases h1 : -(l.length : Int) ≤ o ∧ o < l.length
    · obtain ⟨p, hp⟩ := names_of_reach l.length o h1
      rw [get_names _ _ _ hp, get_unnamed _ (o + 1) (by omega)]
      rfl
    · rw [get_unnamed _ _ h1]
      rfl

/-- C92. `setShort` at every offset: it succeeds exactly when both indices name cells, and getShort then reads the value back (a one-cell array at
offset -1 is the exception: both bytes go to the same cell). -/
theorem C92_setShort (l : List Int) (o v : Int) :
    (Reachable l.length o 2 → ∃ l' hi lo, Util.setShort l o v = (.ok (), l') ∧ IsByte hi ∧ IsByte lo ∧
      Stored l l' o 2 (fun j => if j = 0 then hi else lo) ∧
      (2 ≤ l.length → ∃ r, Util.getShort l' o = .ok r ∧ IsSignedOf 16 v r)) ∧
    (¬ Reachable l.length o 2 → (Util.setShort l o v).1 = .error .arrayIndexOutOfBounds) := by
  have hC := C03_setShort_getShort [0, 0] 0 v (by simp)
  obtain ⟨hi, lo, m, e, bh, bl, hw, r, hr, hr2⟩ := hC
  have e2 : Util.setShort [0, 0] ((0 : Nat) : Int) v = (.ok (), [s1 (shr (iand v 0xFF00) 8), s1 (iand v 0xFF)]) := rfl
  rw [e2] at e
  injection e with _ e
  subst e
  have w0 := hw.2.2.1 0 (by simp)
  have w1 := hw.2.2.1 1 (by simp)
  simp only [Nat.zero_add, List.getElem?_cons_zero, List.getElem?_cons_succ, List.getElem_cons_zero, List.getElem_cons_succ, Option.some.injEq] at w0 w1
  have hr3 : Util.makeShort hi lo = r := by
    have : Util.getShort [s1 (shr (iand v 0xFF00) 8), s1 (iand v 0xFF)] ((0 : Nat) : Int) =
        .ok (Util.makeShort (s1 (shr (iand v 0xFF00) 8)) (s1 (iand v 0xFF))) := rfl
    rw [hr, w0, w1] at this
    injection this with this
    exact this.symm
  unfold Util.setShort
  simp only [w0, w1]
  constructor
  · intro h
    have h' := h
    unfold Reachable at h
    obtain ⟨p, hp⟩ := names_of_reach l.length o (by omega)
    obtain ⟨q, hq⟩ := names_of_reach l.length (o + 1) (by omega)
    have hq' : Names (l.set p hi).length (o + 1) q := by simpa using hq
    rw [set_names _ _ _ _ hp]
    simp only
    rw [set_names _ _ _ _ hq']
    refine ⟨_, hi, lo, rfl, bh, bl, ?_, ?_⟩
    · refine stored_cons _ _ _ _ _ _ hp ?_
      refine stored_cons _ _ _ _ _ _ hq' ?_
      exact stored_nil _ _ _
    · intro h2
      obtain ⟨p', q', a, b, hp', hq2, ha, hb, hg⟩ := (C92_getShort ((l.set p hi).set q lo) o).1 (by simpa using h')
      simp only [List.length_set] at hp' hq2
      have ep : p' = p := by unfold Names at hp hp'; omega
      have eq : q' = q := by unfold Names at hq hq2; omega
      subst ep; subst eq
      have hne : q' ≠ p' := by unfold Names at hp hq; omega
      rw [List.getElem?_set_ne hne, List.getElem?_set_self hp.1] at ha
      rw [List.getElem?_set_self (by simpa using hq.1)] at hb
      injection ha with ha
      injection hb with hb
      subst ha; subst hb
      rw [hg, hr3]
      exact ⟨r, rfl, hr2⟩
  · intro h
    unfold Reachable at h
    by_cases h1 : -(l.length : Int) ≤ o ∧ o < l.length
    · obtain ⟨p, hp⟩ := names_of_reach l.length o h1
      rw [set_names _ _ _ _ hp]
      simp only
      rw [set_unnamed _ (o + 1) _ (by simp; omega)]
    · rw [set_unnamed _ _ _ h1]

example : Util.setShort [1, 2, 3] (-1) 0x0405 = (.ok (), [5, 2, 4]) ∧ Util.getShort [5, 2, 4] (-1) = .ok 0x0405 := by decide

theorem compareLoop_wrap (a b : List Int) (ao bo : Int) (i n : Nat) :
    let same := fun j : Nat => ∃ p q v, Names a.length (ao + i + j) p ∧ Names b.length (bo + i + j) q ∧ a[p]? = some v ∧ b[q]? = some v
    (Util.compareLoop a ao b bo i n = .ok 0 ∧ ∀ j < n, same j) ∨
    (∃ k < n, (∀ j < k, same j) ∧ ∃ p q x y, Names a.length (ao + i + k) p ∧ Names b.length (bo + i + k) q ∧ a[p]? = some x ∧ b[q]? = some y ∧
      ((x > y ∧ Util.compareLoop a ao b bo i n = .ok 1) ∨ (x < y ∧ Util.compareLoop a ao b bo i n = .ok (-1)))) ∨
    (∃ k < n, (∀ j < k, same j) ∧ ¬ ((∃ p, Names a.length (ao + i + k) p) ∧ ∃ q, Names b.length (bo + i + k) q) ∧
      Util.compareLoop a ao b bo i n = .error .indexError) := by
  intro same
  induction n generalizing i with
  | zero => left; exact ⟨rfl, by intro j hj; omega⟩
  | succ n ih =>
    have z1 : ao + i + ((0 : Nat) : Int) = ao + i := by simp
    have z2 : bo + i + ((0 : Nat) : Int) = bo + i := by simp
    have nm : ∀ (len : Nat) (x : Int), (∃ p, Names len x p) → -(len : Int) ≤ x ∧ x < len := by
      rintro len x ⟨p, hp⟩
      unfold Names at hp
      omega
    unfold Util.compareLoop
    by_cases h1 : -(a.length : Int) ≤ ao + i ∧ ao + i < a.length
    · obtain ⟨p, hp⟩ := names_of_reach _ _ h1
      rw [get_names _ _ _ hp]
      by_cases h2 : -(b.length : Int) ≤ bo + i ∧ bo + i < b.length
      · obtain ⟨q, hq⟩ := names_of_reach _ _ h2
        rw [get_names _ _ _ hq]
        simp only
        by_cases hgt : a[p]'hp.1 > b[q]'hq.1
        · right; left
          refine ⟨0, by omega, by intro j hj; omega, p, q, a[p]'hp.1, b[q]'hq.1, by rw [z1]; exact hp, by rw [z2]; exact hq,
            List.getElem?_eq_getElem _, List.getElem?_eq_getElem _, .inl ⟨hgt, ?_⟩⟩
          rw [if_pos hgt]
        · by_cases hlt : a[p]'hp.1 < b[q]'hq.1
          · right; left
            refine ⟨0, by omega, by intro j hj; omega, p, q, a[p]'hp.1, b[q]'hq.1, by rw [z1]; exact hp, by rw [z2]; exact hq,
              List.getElem?_eq_getElem _, List.getElem?_eq_getElem _, .inr ⟨hlt, ?_⟩⟩
            rw [if_neg hgt, if_pos hlt]
          · have heq : a[p]'hp.1 = b[q]'hq.1 := by omega
            rw [if_neg hgt, if_neg hlt]
            have s1 : ∀ j : Nat, ao + ((i + 1 : Nat) : Int) + (j : Int) = ao + i + ((j + 1 : Nat) : Int) := by intro j; push_cast; omega
            have s2 : ∀ j : Nat, bo + ((i + 1 : Nat) : Int) + (j : Int) = bo + i + ((j + 1 : Nat) : Int) := by intro j; push_cast; omega
            have ih := ih (i + 1)
            simp only [s1, s2] at ih
            have h0 : same 0 := ⟨p, q, a[p]'hp.1, by rw [z1]; exact hp, by rw [z2]; exact hq, List.getElem?_eq_getElem _, by rw [heq]; exact List.getElem?_eq_getElem _⟩
            have hag : ∀ m, (∀ j < m, same (j + 1)) → ∀ j < m + 1, same j := by
              intro m hm j hj
              cases j with
              | zero => exact h0
              | succ j => exact hm j (by omega)
            rcases ih with ⟨hr, hj⟩ | ⟨k, hk, hj, x⟩ | ⟨k, hk, hj, x⟩
            · left; exact ⟨hr, hag n hj⟩
            · right; left; exact ⟨k + 1, by omega, hag k hj, x⟩
            · right; right; exact ⟨k + 1, by omega, hag k hj, x⟩
      · right; right
        refine ⟨0, by omega, by intro j hj; omega, ?_, ?_⟩
        · rw [z1, z2]
          exact fun hc => h2 (nm _ _ hc.2)
        · rw [get_unnamed _ _ h2]
    · right; right
      refine ⟨0, by omega, by intro j hj; omega, ?_, ?_⟩
      · rw [z1, z2]
        exact fun hc => h1 (nm _ _ hc.1)
      · rw [get_unnamed _ _ h1]

/-- C92. `arrayCompare` at every offset: it compares the cells that the indices name, in order, and stops at the first difference or at the first
index that names no cell. -/
theorem C92_compare (a b : List Int) (ao bo : Int) (n : Nat) :
    let same := fun j : Nat => ∃ p q v, Names a.length (ao + j) p ∧ Names b.length (bo + j) q ∧ a[p]? = some v ∧ b[q]? = some v
    (Util.arrayCompare a ao b bo n = .ok 0 ∧ ∀ j < n, same j) ∨
    (∃ k < n, (∀ j < k, same j) ∧ ∃ p q x y, Names a.length (ao + k) p ∧ Names b.length (bo + k) q ∧ a[p]? = some x ∧ b[q]? = some y ∧
      ((x > y ∧ Util.arrayCompare a ao b bo n = .ok 1) ∨ (x < y ∧ Util.arrayCompare a ao b bo n = .ok (-1)))) ∨
    (∃ k < n, (∀ j < k, same j) ∧ ¬ ((∃ p, Names a.length (ao + k) p) ∧ ∃ q, Names b.length (bo + k) q) ∧
      Util.arrayCompare a ao b bo n = .error .arrayIndexOutOfBounds) := by
  intro same
  have h := compareLoop_wrap a b ao bo 0 n
  simp only [Int.natCast_zero, Int.add_zero] at h
  have e : ∀ r, Util.compareLoop a ao b bo 0 n = r → Util.arrayCompare a ao b bo n = mapIndexError .arrayIndexOutOfBounds r := by
    intro r hr
    unfold Util.arrayCompare
    simp only [rangeLen, Int.toNat_natCast, hr]
  rcases h with ⟨hr, hj⟩ | ⟨k, hk, hj, p, q, x, y, h1, h2, h3, h4, h5⟩ | ⟨k, hk, hj, hno, hr⟩
  · exact .inl ⟨e _ hr, hj⟩
  · refine .inr (.inl ⟨k, hk, hj, p, q, x, y, h1, h2, h3, h4, ?_⟩)
    rcases h5 with ⟨g, hr⟩ | ⟨g, hr⟩
    · exact .inl ⟨g, e _ hr⟩
    · exact .inr ⟨g, e _ hr⟩
  · exact .inr (.inr ⟨k, hk, hj, hno, e _ hr⟩)

example : Util.arrayCompare [1, 2, 3] (-1) [3, 1, 4] 0 3 = .ok (-1) := by decide

/-! ### C06, C07: copies inside one array, through any reference -/

theorem copyLoop_self_heap (h g : Heap) (r r' : Nat) (hg : g r' = h r) (so d : Int) (i n : Nat) :
    Util.copyLoop h r so r d i n = ((Util.copyLoop g r' so r' d i n).1, h.upd r ((Util.copyLoop g r' so r' d i n).2 r')) := by
  induction n generalizing h g i with
  | zero => simp only [Util.copyLoop, hg, Heap.upd_self]
  | succ n ih =>
    unfold Util.copyLoop
    rw [hg]
    cases Verif.Py.get (h r) (so + i) with
    | error e => simp only [hg, Heap.upd_self]
    | ok v =>
      simp only
      cases Verif.Py.set (h r) (d + i) v with
      | error e => simp only [hg, Heap.upd_self]
      | ok l =>
        simp only
        rw [ih (h.upd r l) (g.upd r' l) (by rw [Heap.upd_same, Heap.upd_same]), Heap.upd_upd]

/-- C06. In a memory with any number of arrays, a copy inside one of them, at all offsets and lengths, changes that array as `arrayCopySelf` says
and no other; `arrayCopyNonAtomic` has the same effect. -/
theorem C06_references (h : Heap) (r : Nat) (so d n : Int) :
    Util.arrayCopyRef h r so r d n = ((Util.arrayCopySelf (h r) so d n).1, h.upd r (Util.arrayCopySelf (h r) so d n).2) ∧
    (Util.arrayCopyNonAtomicRef h r so r d n).2 = h.upd r (Util.arrayCopySelf (h r) so d n).2 := by
  unfold Util.arrayCopySelf
  rw [arrayCopyRef_copyLoop, arrayCopyNonAtomicRef_copyLoop, arrayCopyRef_copyLoop,
    copyLoop_self_heap h (Util.twoLists (h r) []) r 0 (twoLists_zero _ _)]
  exact ⟨rfl, rfl⟩

theorem copyLoop_prefix (h : Heap) (s d so d' i k n : Nat) (hk : k < n) (hin : so + i + k ≤ (h s).length ∧ d' + i + k ≤ (h d).length)
    (hout : (h s).length ≤ so + i + k ∨ (h d).length ≤ d' + i + k) :
    Util.copyLoop h s so d d' i n = (.error .indexError, (Util.copyLoop h s so d d' i k).2) := by
  induction k generalizing h i n with
  | zero =>
    obtain ⟨n, rfl⟩ : ∃ m, n = m + 1 := ⟨n - 1, by omega⟩
    unfold Util.copyLoop
    by_cases h1 : so + i < (h s).length
    · rw [get_step _ _ _ h1]
      simp only
      rw [set_step_out _ _ _ _ (by omega)]
    · rw [get_step_out _ _ _ (by omega)]
  | succ k ih =>
    obtain ⟨n, rfl⟩ : ∃ m, n = m + 1 := ⟨n - 1, by omega⟩
    unfold Util.copyLoop
    rw [get_step _ _ _ (by omega)]
    simp only
    rw [set_step _ _ _ _ (by omega)]
    simp only
    have hl : ∀ x, ((h.upd d ((h d).set (d' + i) ((h s)[so + i]'(by omega)))) x).length = (h x).length := by
      intro x
      by_cases hx : x = d
      · subst hx; rw [Heap.upd_same]; simp
      · rw [Heap.upd_ne _ _ _ _ hx]
    exact ih _ (i + 1) n (by omega) (by rw [hl, hl]; omega) (by rw [hl, hl]; omega)

/-- C07. A copy inside one array that overruns it has the effect of the copy of the cells before the end, and raises. -/
theorem C07_failed_self_copy (a : List Int) (so d k n : Nat) (hk : k < n) (hin : so + k ≤ a.length ∧ d + k ≤ a.length)
    (hend : so + k = a.length ∨ d + k = a.length) :
    Util.arrayCopySelf a so d n = (.error .arrayIndexOutOfBounds, (Util.arrayCopySelf a so d k).2) ∧
    (Util.arrayCopySelf a so d k).1 = .ok () := by
  have hl : (Util.twoLists a [] 0).length = a.length := by rw [twoLists_zero]
  refine ⟨?_, by rw [arrayCopySelf_eq a so d k hin.1 hin.2]⟩
  unfold Util.arrayCopySelf
  rw [arrayCopyRef_copyLoop, arrayCopyRef_copyLoop]
  simp only [rangeLen, Int.toNat_natCast]
  rw [copyLoop_prefix (Util.twoLists a []) 0 0 so d 0 k n hk (by rw [hl]; omega) (by rw [hl]; omega)]
  rfl

example : Util.arrayCopySelf [1, 2, 3, 4] 0 2 3 = (.error .arrayIndexOutOfBounds, [1, 2, 1, 2]) := by decide

end Verif.Props
