import Verif.Lemmas.Arrays
import Verif.Model.OwnerPIN
/-! Lemmas about the PIN buffers of `OwnerPIN`. -/
namespace Verif.Model
open Verif.Py Verif.Spec
namespace OwnerPIN

theorem strLoop_ok (buf : List Int) (i : Nat) (cs : List Int) (h : i + cs.length ≤ buf.length) :
    strLoop buf i cs = (.ok (), splice buf i cs) := by
  induction cs generalizing buf i with
  | nil => simp [strLoop, splice_nil]
  | cons c cs ih =>
    simp only [List.length_cons] at h
    unfold strLoop
    rw [set_natCast _ _ _ (by omega)]
    simp only
    rw [ih _ _ (by simp; omega), set_splice _ _ _ _ (by omega)]

theorem strLoop_err (buf : List Int) (i : Nat) (cs : List Int) (hi : i ≤ buf.length)
    (h : buf.length < i + cs.length) :
    (strLoop buf i cs).1 = .error .indexError := by
  induction cs generalizing buf i with
  | nil => simp at h; omega
  | cons c cs ih =>
    simp only [List.length_cons] at h
    unfold strLoop
    by_cases hc : i < buf.length
    · rw [set_natCast _ _ _ hc]
      simp only
      exact ih _ _ (by simp; omega) (by simp; omega)
    · rw [set_out _ _ _ (by omega)]

theorem set_err {α} (l : List α) (i : Int) (v : α) (e : Err) (h : Verif.Py.set l i v = .error e) :
    e = .indexError := by
  unfold Verif.Py.set at h
  split at h <;> simp_all

theorem strLoop_total (buf : List Int) (i : Nat) (cs : List Int) :
    (strLoop buf i cs).1 = .ok () ∨ (strLoop buf i cs).1 = .error .indexError := by
  induction cs generalizing buf i with
  | nil => simp [strLoop]
  | cons c cs ih =>
    unfold strLoop
    cases h : Verif.Py.set buf (i : Int) c with
    | error e => simp [set_err _ _ _ _ h]
    | ok l => exact ih _ _

theorem strLoop_length (buf : List Int) (i : Nat) (cs : List Int) :
    (strLoop buf i cs).2.length = buf.length := by
  induction cs generalizing buf i with
  | nil => simp [strLoop]
  | cons c cs ih =>
    unfold strLoop
    cases h : Verif.Py.set buf (i : Int) c with
    | error e => rfl
    | ok l => simp only; rw [ih, set_length h]

theorem zeroLoop_ok (buf : List Int) (i n : Nat) (h : i + n ≤ buf.length) :
    zeroLoop buf i n = (.ok (), splice buf i (List.replicate n 0)) := by
  induction n generalizing buf i with
  | zero => simp [zeroLoop, splice_nil]
  | succ n ih =>
    unfold zeroLoop
    rw [set_natCast _ _ _ (by omega)]
    simp only
    have := ih (buf.set i 0) (i + 1) (by simp; omega)
    rw [Int.natCast_add, Int.natCast_one] at this
    rw [this, set_splice _ _ _ _ (by simp; omega), List.replicate_succ]

theorem zeroLoop_total (buf : List Int) (i : Int) (n : Nat) :
    (zeroLoop buf i n).1 = .ok () ∨ (zeroLoop buf i n).1 = .error .indexError := by
  induction n generalizing buf i with
  | zero => simp [zeroLoop]
  | succ n ih =>
    unfold zeroLoop
    cases h : Verif.Py.set buf i 0 with
    | error e => simp [set_err _ _ _ _ h]
    | ok l => exact ih _ _

theorem zeroLoop_length (buf : List Int) (i : Int) (n : Nat) :
    (zeroLoop buf i n).2.length = buf.length := by
  induction n generalizing buf i with
  | zero => simp [zeroLoop]
  | succ n ih =>
    unfold zeroLoop
    cases h : Verif.Py.set buf i 0 with
    | error e => rfl
    | ok l => simp only; rw [ih, set_length h]

theorem arrLoop_total (pin : List Int) (off : Int) (buf : List Int) (j n : Nat) :
    (arrLoop pin off buf j n).1 = .ok () ∨ (arrLoop pin off buf j n).1 = .error .indexError := by
  induction n generalizing buf j with
  | zero => simp [arrLoop]
  | succ n ih =>
    unfold arrLoop
    rcases get_ok_or_indexError pin (off + j) with ⟨v, _, hv⟩ | hv
    · rw [hv]
      simp only
      cases h : Verif.Py.set buf (off - (off + j)) v with
      | error e => simp [set_err _ _ _ _ h]
      | ok l => exact ih _ _
    · rw [hv]; simp

theorem arrLoop_length (pin : List Int) (off : Int) (buf : List Int) (j n : Nat) :
    (arrLoop pin off buf j n).2.length = buf.length := by
  induction n generalizing buf j with
  | zero => simp [arrLoop]
  | succ n ih =>
    unfold arrLoop
    rcases get_ok_or_indexError pin (off + j) with ⟨v, _, hv⟩ | hv
    · rw [hv]
      simp only
      cases h : Verif.Py.set buf (off - (off + j)) v with
      | error e => rfl
      | ok l => simp only; rw [ih, set_length h]
    · rw [hv]

/-- Store at `-j` for `1 ≤ j ≤ m`. -/
theorem set_neg (buf : List Int) (j : Nat) (v : Int) (hj : 1 ≤ j) (hm : j ≤ buf.length) :
    Verif.Py.set buf (-(j : Int)) v = .ok (buf.set (buf.length - j) v) := by
  unfold Verif.Py.set
  rw [idx_neg (by omega) (by omega)]
  simp only
  congr 2; omega

/-- The array loop from `j ≥ 1` on. -/
theorem arrLoop_ok (pin : List Int) (off : Nat) (buf : List Int) (j n : Nat) (hj : 1 ≤ j)
    (hm : j + n ≤ buf.length + 1) (hp : off + j + n ≤ pin.length) :
    (arrLoop pin off buf j n).1 = .ok () ∧
    ∀ k, (arrLoop pin off buf j n).2[k]? =
      if k + j ≤ buf.length ∧ buf.length < k + j + n then pin[off + (buf.length - k)]? else buf[k]? := by
  induction n generalizing buf j with
  | zero =>
    simp only [arrLoop, true_and]
    intro k
    rw [if_neg (by omega)]
  | succ n ih =>
    unfold arrLoop
    rw [get_step _ _ _ (by omega)]
    have e : (off : Int) - (off + j) = -(j : Int) := by omega
    simp only
    rw [e, set_neg _ _ _ hj (by omega)]
    simp only
    obtain ⟨h1, h2⟩ := ih (buf.set (buf.length - j) pin[off + j]) (j + 1) (by omega)
      (by simp; omega) (by omega)
    refine ⟨h1, ?_⟩
    intro k
    rw [h2 k]
    simp only [List.length_set, List.getElem?_set]
    by_cases c1 : k + (j + 1) ≤ buf.length ∧ buf.length < k + (j + 1) + n
    · rw [if_pos c1, if_pos (by omega)]
    · rw [if_neg c1]
      by_cases c2 : buf.length - j = k
      · rw [if_pos c2, if_pos (by omega), if_pos (by omega)]
        rw [← List.getElem?_eq_getElem]
        congr 1; omega
      · rw [if_neg c2, if_neg (by omega)]

/-- The array loop fails when it needs an index below `-m`. -/
theorem arrLoop_err (pin : List Int) (off : Nat) (buf : List Int) (j n : Nat) (hj : 1 ≤ j)
    (hm : buf.length + 1 < j + n) (hn : 0 < n) (hp : off + j + n ≤ pin.length) :
    (arrLoop pin off buf j n).1 = .error .indexError := by
  induction n generalizing buf j with
  | zero => omega
  | succ n ih =>
    unfold arrLoop
    rw [get_step _ _ _ (by omega)]
    have e : (off : Int) - (off + j) = -(j : Int) := by omega
    simp only
    rw [e]
    by_cases hc : j ≤ buf.length
    · rw [set_neg _ _ _ hj hc]
      simp only
      exact ih _ _ (by omega) (by simp; omega) (by omega) (by omega)
    · have : Verif.Py.set buf (-(j : Int)) pin[off + j] = .error .indexError := by
        have hi : idx buf.length (-(j : Int)) = none := by
          unfold idx
          rw [if_neg (by omega), if_neg (by omega)]
        unfold Verif.Py.set
        rw [hi]
      rw [this]

/-- What ends up in cell `k` of an `m`-cell buffer holding `old` when `n` bytes `a` are stored by
the array loop and the tail is zeroed. -/
def arrCell (m n : Nat) (a : Nat → Option Int) (old : Option Int) (k : Nat) : Option Int :=
  if n ≤ k then (if k < m then some 0 else none)
  else if m < k + n then a (m - k) else if k = 0 then a 0 else old

theorem arrLoop_zero (pin : List Int) (off : Nat) (buf : List Int) (n : Nat) (h0 : 0 < n)
    (hb : 0 < buf.length) (hm : n ≤ buf.length + 1) (hp : off + n ≤ pin.length) :
    (arrLoop pin off buf 0 n).1 = .ok () ∧
    ∀ k, (arrLoop pin off buf 0 n).2[k]? =
      if k + 1 ≤ buf.length ∧ buf.length < k + n then pin[off + (buf.length - k)]?
      else if k = 0 then pin[off]? else buf[k]? := by
  obtain ⟨n, rfl⟩ : ∃ n', n = n' + 1 := ⟨n - 1, by omega⟩
  unfold arrLoop
  rw [get_step _ _ _ (by omega)]
  have e : (off : Int) - (off + (0 : Nat)) = ((0 : Nat) : Int) := by omega
  simp only
  rw [e, set_natCast _ _ _ (by omega)]
  simp only [Nat.add_zero]
  obtain ⟨h1, h2⟩ := arrLoop_ok pin off (buf.set 0 pin[off]) 1 n (by omega) (by simp; omega)
    (by omega)
  refine ⟨h1, ?_⟩
  intro k
  rw [h2 k]
  simp only [List.length_set, List.getElem?_set]
  by_cases c1 : k + 1 ≤ buf.length ∧ buf.length < k + 1 + n
  · rw [if_pos c1, if_pos (by omega)]
  · rw [if_neg c1, if_neg (show ¬ (k + 1 ≤ buf.length ∧ buf.length < k + (n + 1)) by omega)]
    by_cases c2 : k = 0
    · subst c2
      rw [if_pos rfl, if_pos hb, if_pos rfl]
      rw [List.getElem?_eq_getElem]
    · rw [if_neg (Ne.symm c2), if_neg c2]

/-- `fill` with an array argument, for admissible lengths. -/
theorem fill_arr (buf pin : List Int) (off n : Nat) (hm : n ≤ buf.length) (hp : off + n ≤ pin.length) :
    (fill buf (.arr pin) off n buf.length).1 = .ok () ∧
    (fill buf (.arr pin) off n buf.length).2.length = buf.length ∧
    ∀ k, (fill buf (.arr pin) off n buf.length).2[k]? =
      arrCell buf.length n (fun j => pin[off + j]?) buf[k]? k := by
  unfold fill
  simp only [rangeLen, Int.toNat_natCast]
  have key : (arrLoop pin off buf 0 n).1 = .ok () ∧
    ∀ k, k < n → (arrLoop pin off buf 0 n).2[k]? =
      if buf.length < k + n then pin[off + (buf.length - k)]?
      else if k = 0 then pin[off]? else buf[k]? := by
    by_cases h0 : 0 < n
    · obtain ⟨h1, h2⟩ := arrLoop_zero pin off buf n h0 (by omega) (by omega) hp
      refine ⟨h1, ?_⟩
      intro k hk
      rw [h2 k]
      by_cases c : buf.length < k + n
      · rw [if_pos (by omega), if_pos c]
      · rw [if_neg (by omega), if_neg c]
    · have : n = 0 := by omega
      subst this
      simp [arrLoop]
  have hlen := arrLoop_length pin off buf 0 n
  generalize arrLoop pin off buf 0 n = r at key hlen
  obtain ⟨r1, b⟩ := r
  obtain ⟨k1, k2⟩ := key
  simp only at k1 k2 hlen
  subst k1
  simp only
  have e : ((buf.length : Int) - (n : Int)).toNat = buf.length - n := by omega
  rw [e, zeroLoop_ok b n (buf.length - n) (by omega)]
  refine ⟨rfl, by rw [splice_length _ _ _ (by simp; omega)]; exact hlen, ?_⟩
  intro k
  rw [splice_getElem? _ _ _ (by simp; omega)]
  unfold arrCell
  simp only [List.length_replicate]
  by_cases c : k < n
  · rw [if_pos c, if_neg (by omega), k2 k c]
    by_cases c2 : buf.length < k + n
    · rw [if_pos c2, if_pos c2]
    · rw [if_neg c2, if_neg c2]
      simp
  · rw [if_neg c, if_pos (show n ≤ k by omega)]
    by_cases c2 : k < buf.length
    · rw [if_pos (show k < n + (buf.length - n) by omega), if_pos c2]
      rw [List.getElem?_replicate, if_pos (by omega)]
    · rw [if_neg (show ¬ k < n + (buf.length - n) by omega), if_neg c2]
      simp; omega

/-- `fill` with a string argument, for admissible lengths. -/
theorem fill_str (buf codes : List Int) (off n : Nat) (hm : n ≤ buf.length)
    (hp : off + n ≤ codes.length) :
    fill buf (.str codes) off n buf.length =
      (.ok (), range codes off n ++ List.replicate (buf.length - n) 0) := by
  unfold fill
  simp only [rangeLen]
  rw [slice_add]
  have hl : ((codes.drop off).take n).length = n := by simp; omega
  rw [strLoop_ok _ _ _ (by omega)]
  simp only
  have e : ((buf.length : Int) - (n : Int)).toNat = buf.length - n := by omega
  have hs : (splice buf 0 ((codes.drop off).take n)).length = buf.length :=
    splice_length _ _ _ (by omega)
  rw [e, zeroLoop_ok _ _ _ (by omega)]
  have := splice_append buf 0 ((codes.drop off).take n) (List.replicate (buf.length - n) 0)
    (by simp; omega)
  rw [hl, Nat.zero_add] at this
  rw [this]
  simp only [splice, List.take_zero, List.nil_append]
  have hl2 : (List.take n (List.drop off codes) ++ List.replicate (buf.length - n) 0).length =
      buf.length := by simp; omega
  rw [hl2]
  simp [range]

theorem fill_total (buf : List Int) (a : PinArg) (o l m : Int) :
    (fill buf a o l m).1 = .ok () ∨ (fill buf a o l m).1 = .error .indexError := by
  unfold fill
  cases a with
  | str c =>
    simp only
    rcases strLoop_total buf 0 (slice c o (o + l)) with h | h
    · generalize strLoop buf 0 (slice c o (o + l)) = r at h
      obtain ⟨r1, b⟩ := r
      simp only at h
      subst h
      exact zeroLoop_total _ _ _
    · generalize strLoop buf 0 (slice c o (o + l)) = r at h
      obtain ⟨r1, b⟩ := r
      simp only at h
      subst h
      simp
  | arr c =>
    simp only
    rcases arrLoop_total c o buf 0 (rangeLen l) with h | h
    · generalize arrLoop c o buf 0 (rangeLen l) = r at h
      obtain ⟨r1, b⟩ := r
      simp only at h
      subst h
      exact zeroLoop_total _ _ _
    · generalize arrLoop c o buf 0 (rangeLen l) = r at h
      obtain ⟨r1, b⟩ := r
      simp only at h
      subst h
      simp

theorem fill_length (buf : List Int) (a : PinArg) (o l m : Int) :
    (fill buf a o l m).2.length = buf.length := by
  unfold fill
  cases a with
  | str c =>
    simp only
    have := strLoop_length buf 0 (slice c o (o + l))
    generalize strLoop buf 0 (slice c o (o + l)) = r at this
    obtain ⟨r1, b⟩ := r
    cases r1 with
    | error e => exact this
    | ok u => simp only at this ⊢; rw [zeroLoop_length, this]
  | arr c =>
    simp only
    have := arrLoop_length c o buf 0 (rangeLen l)
    generalize arrLoop c o buf 0 (rangeLen l) = r at this
    obtain ⟨r1, b⟩ := r
    cases r1 with
    | error e => exact this
    | ok u => simp only at this ⊢; rw [zeroLoop_length, this]

end OwnerPIN
end Verif.Model
