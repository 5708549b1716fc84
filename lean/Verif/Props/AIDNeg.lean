import Verif.Props.AID
import Verif.Lemmas.Lists
/-! C96: AID operations at negative offsets. -/
namespace Verif.Props
open Verif.Py Verif.Model Verif.Spec

theorem bound_neg (n k : Nat) (hk : 0 < k) : bound n (-(k : Int)) = n - k := by
  unfold bound
  rw [if_neg (by omega)]
  omega

theorem bound_neg_add (N k n : Nat) :
    bound N (-(k : Int) + n) = if n < k then N - (k - n) else min N (n - k) := by
  unfold bound
  by_cases h : n < k
  · rw [if_neg (by omega), if_pos h]; omega
  · rw [if_pos (by omega), if_neg h]; omega

/-- The three regions of a range of `n` cells at offset `-k` in an array of `N` cells: the whole range lies before the
end; it straddles the end of an array at least as long as the range; anything else. -/
theorem slice_neg_inside (l : List Int) (k n : Nat) (h : n < k) (hk : k ≤ l.length) :
    slice l (-(k : Int)) (-(k : Int) + n) = range l (l.length - k) n := by
  unfold slice
  rw [bound_neg _ _ (by omega), bound_neg_add, if_pos h]
  unfold range
  first
    | (rw [List.drop_take]; congr 1; omega)
    | (congr 1; omega)

theorem slice_neg_straddle (l : List Int) (k n : Nat) (hk0 : 0 < k) (h : k ≤ n) (hn : n ≤ l.length) :
    slice l (-(k : Int)) (-(k : Int) + n) = [] := by
  unfold slice
  rw [bound_neg _ _ hk0, bound_neg_add, if_neg (by omega)]
  apply List.eq_nil_of_length_eq_zero
  simp only [List.length_take, List.length_drop]
  omega

theorem slice_neg_length (l : List Int) (k n : Nat) (hk0 : 0 < k) :
    (slice l (-(k : Int)) (-(k : Int) + n)).length = n → n = 0 ∨ (n < k ∧ k ≤ l.length) := by
  unfold slice
  rw [bound_neg _ _ hk0, bound_neg_add]
  simp only [List.length_take, List.length_drop]
  split <;> omega

/-- C96: a negative offset is not refused. With offset `-k` the constructor still raises `ValueError` for a wrong length, and
otherwise `ArrayIndexOutOfBoundsException` only when `length - k` exceeds the size of the array. -/
theorem C96_construct_accepts (l : List Int) (k : Nat) (len : Int) :
    (AID.mk' l (-(k : Int)) len = .error .valueError ↔ len < 5 ∨ 16 < len) ∧
    (AID.mk' l (-(k : Int)) len = .error .arrayIndexOutOfBounds ↔ 5 ≤ len ∧ len ≤ 16 ∧ (l.length : Int) < len - k) ∧
    ((∃ a, AID.mk' l (-(k : Int)) len = .ok a) ↔ 5 ≤ len ∧ len ≤ 16 ∧ len - k ≤ l.length) := by
  unfold AID.mk'
  by_cases h : len < 5 ∨ len > 16
  · rw [if_pos h]; refine ⟨by simp; omega, by simp; omega, by simp; omega⟩
  · rw [if_neg h]
    by_cases h2 : (l.length : Int) < -(k : Int) + len
    · rw [if_pos h2]; refine ⟨by simp; omega, by simp; omega, by simp; omega⟩
    · rw [if_neg h2]; refine ⟨by simp; omega, by simp; omega, by simp; omega⟩

/-- C96: when the range ends strictly before the end of the array, the AID holds the cells counted from the end. -/
theorem C96_construct_inside (l : List Int) (k n : Nat) (h5 : 5 ≤ n) (h16 : n ≤ 16) (h : n < k) (hk : k ≤ l.length) :
    AID.mk' l (-(k : Int)) n = .ok ⟨range l (l.length - k) n⟩ ∧ (range l (l.length - k) n).length = n := by
  constructor
  · unfold AID.mk'
    rw [if_neg (by omega), if_neg (by omega), slice_neg_inside l k n h hk]
  · simp only [range, List.length_take, List.length_drop]; omega

/-- C96: when it reaches or passes the end of an array that is long enough, an AID without a single byte comes into being. -/
theorem C96_construct_empty (l : List Int) (k n : Nat) (h5 : 5 ≤ n) (h16 : n ≤ 16) (hk0 : 0 < k) (h : k ≤ n) (hn : n ≤ l.length) :
    AID.mk' l (-(k : Int)) n = .ok ⟨[]⟩ := by
  unfold AID.mk'
  rw [if_neg (by omega), if_neg (by omega), slice_neg_straddle l k n hk0 h hn]

/-- C96: the AID has the requested length only in the first case: otherwise it is shorter, whatever the array. -/
theorem C96_construct_length (l : List Int) (k n : Nat) (hk0 : 0 < k) (a : AID) (ha : AID.mk' l (-(k : Int)) n = .ok a) :
    a.aid.length ≤ n ∧ (a.aid.length = n ↔ n < k ∧ k ≤ l.length) := by
  unfold AID.mk' at ha
  by_cases h1 : (n : Int) < 5 ∨ (n : Int) > 16
  · rw [if_pos h1] at ha; cases ha
  · rw [if_neg h1] at ha
    by_cases h2 : (l.length : Int) < -(k : Int) + n
    · rw [if_pos h2] at ha; cases ha
    · rw [if_neg h2] at ha
      cases ha
      simp only
      refine ⟨?_, ?_⟩
      · unfold slice
        rw [bound_neg _ _ hk0, bound_neg_add]
        simp only [List.length_take, List.length_drop]
        split <;> omega
      · constructor
        · intro h; have := slice_neg_length l k n hk0 h; omega
        · rintro ⟨ha, hb⟩
          rw [slice_neg_inside l k n ha hb]
          simp only [range, List.length_take, List.length_drop]; omega

/-- C96: `equals` and `partialEquals` at offset `-k`: the cells counted from the end are compared when the range ends before
the end of the array; a range that reaches the end is never equal, even when the bytes there are the AID's. -/
theorem C96_equals (a : AID) (l : List Int) (k n : Nat) (hk0 : 0 < k) (hn : n ≤ l.length) (hk : k ≤ l.length) :
    (n < k → ∃ b, a.equals l (-(k : Int)) n = .ok b ∧ (b = true ↔ range l (l.length - k) n = a.aid)) ∧
    (k ≤ n → a.aid ≠ [] → a.equals l (-(k : Int)) n = .ok false) ∧
    (n < k → n ≤ a.aid.length → ∃ b, a.partialEquals l (-(k : Int)) n = .ok b ∧ (b = true ↔ range l (l.length - k) n = range a.aid 0 n)) ∧
    (k ≤ n → n ≤ a.aid.length → a.partialEquals l (-(k : Int)) n = .ok false) := by
  unfold AID.equals AID.partialEquals
  rw [if_neg (by omega)]
  refine ⟨?_, ?_, ?_, ?_⟩
  · intro h
    rw [slice_neg_inside l k n h hk]
    exact ⟨_, rfl, by rw [decide_eq_true_iff]; exact eq_comm⟩
  · intro h ha
    rw [slice_neg_straddle l k n hk0 h hn]
    simp [ha]
  · intro h hna
    rw [if_neg (by omega), if_neg (by omega), slice_neg_inside l k n h hk, sliceTo_natCast]
    refine ⟨_, rfl, ?_⟩
    rw [decide_eq_true_iff]
    simp only [range, List.drop_zero]
    exact eq_comm
  · intro h hna
    rw [if_neg (by omega), if_neg (by omega), slice_neg_straddle l k n hk0 h hn, sliceTo_natCast]
    have : a.aid.take n ≠ [] := by
      intro e
      have := congrArg List.length e
      simp only [List.length_take, List.length_nil] at this
      omega
    simp [this]

/-- C96: `getBytes` at offset `-k`: the AID is written over the cells counted from the end when it ends before the end of the
array; when it reaches the end it is inserted in front of the last `k` cells, and the destination grows by the AID's length. -/
theorem C96_getBytes (a : AID) (dest : List Int) (k : Nat) (hk0 : 0 < k) (hk : k ≤ dest.length) (hn : a.aid.length ≤ dest.length) :
    (a.aid.length < k → ∃ d', a.getBytes dest (-(k : Int)) = (.ok (a.aid.length : Int), d') ∧ Written dest d' (dest.length - k) a.aid) ∧
    (k ≤ a.aid.length → a.getBytes dest (-(k : Int)) =
      (.ok (a.aid.length : Int), dest.take (dest.length - k) ++ a.aid ++ dest.drop (dest.length - k))) := by
  unfold AID.getBytes
  rw [if_neg (by omega)]
  unfold setSlice
  rw [bound_neg _ _ hk0, bound_neg_add]
  constructor
  · intro h
    rw [if_pos h]
    refine ⟨_, rfl, ?_⟩
    have e : max (dest.length - k) (dest.length - (k - a.aid.length)) = dest.length - k + a.aid.length := by omega
    have hw := written_splice dest (dest.length - k) a.aid (by omega)
    unfold splice at hw
    first
      | (rw [e]; exact hw)
      | (simp only [e]; exact hw)
  · intro h
    rw [if_neg (by omega)]
    have e : max (dest.length - k) (min dest.length (a.aid.length - k)) = dest.length - k := by omega
    first
      | rw [e]
      | simp only [e]

/-- C96: the destination keeps its size only in the first case, whatever the destination. -/
theorem C96_getBytes_length (a : AID) (ha : a.aid ≠ []) (dest d' : List Int) (k : Nat) (hk0 : 0 < k) (r : Int)
    (h : a.getBytes dest (-(k : Int)) = (.ok r, d')) :
    r = a.aid.length ∧ dest.length ≤ d'.length ∧ (d'.length = dest.length ↔ a.aid.length < k ∧ k ≤ dest.length) := by
  have hpos : 0 < a.aid.length := List.length_pos_iff.2 ha
  unfold AID.getBytes at h
  by_cases h2 : (dest.length : Int) < -(k : Int) + a.aid.length
  · rw [if_pos h2] at h; cases h
  · rw [if_neg h2] at h
    injection h with h3 h4
    injection h3 with h3
    refine ⟨h3.symm, ?_⟩
    subst h4
    unfold setSlice
    rw [bound_neg _ _ hk0, bound_neg_add]
    simp only [List.length_append, List.length_take, List.length_drop]
    split <;> omega

example : AID.mk' [1, 2, 3, 4, 5, 6, 7, 8] (-6) 5 = .ok ⟨[3, 4, 5, 6, 7]⟩ ∧ AID.mk' [1, 2, 3, 4, 5, 6, 7, 8] (-5) 5 = .ok ⟨[]⟩ ∧
    AID.mk' [1, 2, 3, 4, 5, 6, 7, 8] (-3) 10 = .ok ⟨[6, 7]⟩ := by decide
example : (AID.mk [1, 2, 3, 4, 5]).getBytes [9, 9, 9, 9, 8, 8] (-2) = (.ok 5, [9, 9, 9, 9, 1, 2, 3, 4, 5, 8, 8]) ∧
    (AID.mk [1, 2, 3, 4, 5]).getBytes [9, 9, 9, 9, 8, 8] (-6) = (.ok 5, [1, 2, 3, 4, 5, 8]) := by decide
example : (AID.mk [1, 2, 3, 4, 5]).equals [0, 1, 2, 3, 4, 5] (-5) 5 = .ok false ∧
    (AID.mk [1, 2, 3, 4, 5]).equals [1, 2, 3, 4, 5, 0] (-6) 5 = .ok true := by decide

end Verif.Props
