import Verif.Py.Core
/-! Lemmas about Python list indexing and slicing. -/
namespace Verif.Py

theorem idx_nonneg {n : Nat} {i : Int} (h : 0 ≤ i) (h2 : i < n) : idx n i = some i.toNat := by
  simp [idx, h, h2]

theorem idx_out {n : Nat} {i : Int} (h : (n : Int) ≤ i) : idx n i = none := by
  have h0 : 0 ≤ i := by omega
  have h1 : ¬ i < n := by omega
  simp [idx, h0, h1]

theorem idx_neg {n : Nat} {i : Int} (h : i < 0) (h2 : -(n : Int) ≤ i) : idx n i = some (i + n).toNat := by
  have h0 : ¬ 0 ≤ i := by omega
  simp [idx, h0, h2]

theorem idx_lt {n k : Nat} {i : Int} (h : idx n i = some k) : k < n := by
  unfold idx at h
  split at h
  · split at h
    · simp at h; omega
    · simp at h
  · split at h
    · simp at h; omega
    · simp at h

@[simp] theorem idx_natCast (n k : Nat) : idx n (k : Int) = if k < n then some k else none := by
  unfold idx
  by_cases h : k < n <;> simp [h]

theorem get_natCast {α} (l : List α) (k : Nat) (h : k < l.length) : get l (k : Int) = .ok l[k] := by
  simp [get, h]

theorem get_natCast_out {α} (l : List α) (k : Nat) (h : l.length ≤ k) :
    get l (k : Int) = .error .indexError := by
  have : ¬ k < l.length := by omega
  simp [get, this]

theorem get_nonneg {α} (l : List α) (i : Int) (h0 : 0 ≤ i) (h : i < l.length) :
    get l i = .ok (l[i.toNat]'(by omega)) := by
  obtain ⟨k, rfl⟩ := Int.eq_ofNat_of_zero_le h0
  have hk : k < l.length := by exact_mod_cast h
  simpa using get_natCast l k hk

theorem get_out {α} (l : List α) (i : Int) (h : (l.length : Int) ≤ i) :
    get l i = .error .indexError := by
  simp [get, idx_out h]

theorem get_ok_or_indexError {α} (l : List α) (i : Int) :
    (∃ v, v ∈ l ∧ get l i = .ok v) ∨ get l i = .error .indexError := by
  unfold get
  cases h : idx l.length i with
  | none => right; rfl
  | some k =>
    have hk := idx_lt h
    left
    exact ⟨l[k], List.getElem_mem hk, by simp [hk]⟩

theorem set_natCast {α} (l : List α) (k : Nat) (v : α) (h : k < l.length) :
    set l (k : Int) v = .ok (l.set k v) := by
  simp [set, h]

theorem set_out {α} (l : List α) (i : Int) (v : α) (h : (l.length : Int) ≤ i) :
    set l i v = .error .indexError := by
  simp [set, idx_out h]

theorem set_length {α} {l l' : List α} {i : Int} {v : α} (h : set l i v = .ok l') :
    l'.length = l.length := by
  unfold set at h
  split at h
  · simp at h; subst h; simp
  · simp at h

@[simp] theorem bound_natCast (n k : Nat) : bound n (k : Int) = min k n := by
  simp [bound]

theorem bound_le (n : Nat) (i : Int) : bound n i ≤ n := by
  unfold bound
  split <;> omega

theorem slice_natCast {α} (l : List α) (a b : Nat) :
    slice l (a : Int) (b : Int) = (l.drop a).take (b - a) := by
  simp only [slice, bound_natCast]
  by_cases h : a ≤ l.length
  · rw [Nat.min_eq_left h]
    by_cases h2 : b ≤ l.length
    · rw [Nat.min_eq_left h2]
    · rw [Nat.min_eq_right (by omega)]
      rw [List.take_of_length_le (by simp), List.take_of_length_le (by simp; omega)]
  · have h1 : min a l.length = l.length := by omega
    rw [h1, List.drop_of_length_le (Nat.le_refl _), List.drop_of_length_le (by omega)]
    simp

/-- `l[off : off+n]` for natural numbers. -/
theorem slice_add {α} (l : List α) (off n : Nat) :
    slice l (off : Int) ((off : Int) + (n : Int)) = (l.drop off).take n := by
  have : (off : Int) + (n : Int) = ((off + n : Nat) : Int) := by omega
  rw [this, slice_natCast]
  congr 1; omega

theorem sliceFrom_natCast {α} (l : List α) (a : Nat) : sliceFrom l (a : Int) = l.drop a := by
  simp only [sliceFrom, bound_natCast]
  by_cases h : a ≤ l.length
  · rw [Nat.min_eq_left h]
  · rw [Nat.min_eq_right (by omega), List.drop_of_length_le (Nat.le_refl _),
      List.drop_of_length_le (by omega)]

theorem sliceTo_natCast {α} (l : List α) (b : Nat) : sliceTo l (b : Int) = l.take b := by
  simp only [sliceTo, bound_natCast]
  by_cases h : b ≤ l.length
  · rw [Nat.min_eq_left h]
  · rw [Nat.min_eq_right (by omega), List.take_of_length_le (Nat.le_refl _),
      List.take_of_length_le (by omega)]

theorem slice_length_le {α} (l : List α) (a b : Int) :
    (slice l a b).length ≤ l.length := by
  simp [slice]; omega

/-- `l[off : off+n] = v` for natural numbers. -/
theorem setSlice_add {α} (l : List α) (off n : Nat) (v : List α) (h : off ≤ l.length) :
    setSlice l (off : Int) ((off : Int) + (n : Int)) v = l.take off ++ v ++ l.drop (off + n) := by
  have : (off : Int) + (n : Int) = ((off + n : Nat) : Int) := by omega
  simp only [setSlice, this, bound_natCast]
  rw [Nat.min_eq_left h]
  by_cases h2 : off + n ≤ l.length
  · rw [Nat.min_eq_left h2, Nat.max_eq_right (by omega)]
  · rw [Nat.min_eq_right (by omega), Nat.max_eq_right (by omega),
      List.drop_of_length_le (Nat.le_refl _), List.drop_of_length_le (by omega)]

@[simp] theorem fresh_natCast {α} (n : Nat) (v : α) : fresh (n : Int) v = List.replicate n v := by
  simp [fresh]

theorem fresh_length {α} (n : Int) (v : α) : (fresh n v).length = n.toNat := by
  simp [fresh]

end Verif.Py
