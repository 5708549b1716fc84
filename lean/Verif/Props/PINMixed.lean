import Verif.Props.PIN
/-! C89: PINs set in one form (string or array) and presented in the other. -/
namespace Verif.Props
open Verif.Py Verif.Model Verif.Spec
open Verif.Model.OwnerPIN (Op Out)

/-- The `m` cells an array PIN `b` is turned into: cell 0 is the first byte; the byte `j ≥ 1` goes to cell `m - j`, counted from the end, but
survives only when that cell lies below the length of the PIN; all other cells are 0. -/
def WrappedCell (m : Nat) (b : List Int) (i : Nat) : Option Int :=
  if i = 0 then b[0]? else if i < b.length ∧ m < i + b.length then b[m - i]? else some 0

theorem arrCell_wrapped (m n : Nat) (b : List Int) (off i : Nat) (hn0 : 0 < n) (hb : off + n ≤ b.length) (hi : i < m) (hnm : n ≤ m) :
    OwnerPIN.arrCell m n (fun j => b[off + j]?) (some 0) i = WrappedCell m (range b off n) i := by
  have hl : (range b off n).length = n := by simp [range]; omega
  have hg : ∀ j, j < n → (range b off n)[j]? = b[off + j]? := by
    intro j hj
    simp only [range, List.getElem?_take, List.getElem?_drop, if_pos hj]
  unfold OwnerPIN.arrCell WrappedCell
  rw [hl]
  by_cases h0 : i = 0
  · subst h0
    rw [if_neg (by omega), if_neg (by omega), if_pos rfl, if_pos rfl, hg 0 hn0]
  · rw [if_neg h0, if_neg h0]
    by_cases h1 : n ≤ i
    · rw [if_pos h1, if_pos hi, if_neg (by omega)]
    · rw [if_neg h1]
      by_cases h2 : m < i + n
      · rw [if_pos h2, if_pos (by omega), hg (m - i) (by omega)]
      · rw [if_neg h2, if_neg (by omega)]

theorem ext_cells (m : Nat) (l k : List Int) (hl : l.length = m) (hk : k.length = m) : l = k ↔ ∀ i < m, l[i]? = k[i]? := by
  constructor
  · rintro rfl _ _; rfl
  · intro h
    apply List.ext_getElem?
    intro i
    by_cases hi : i < m
    · exact h i hi
    · rw [List.getElem?_eq_none (by omega), List.getElem?_eq_none (by omega)]

/-- C89. After the last `update` of any history set the PIN from a string, and while tries remain, an array presentation is accepted
exactly when the string, padded with zeros, is the array with its bytes wrapped around from the end. -/
theorem C89_string_then_array (limit : Int) (m : Nat) (pre mid : List Op) (s : List Int) (so n : Nat) (hn : n ≤ m) (hs : so + n ≤ s.length)
    (hmid : ∀ op ∈ mid, ∀ a o l, op ≠ .update a o l) (b : List Int) (bo k : Nat) (hk0 : 0 < k) (hk : k ≤ m) (hb : bo + k ≤ b.length) :
    let p := (OwnerPIN.init limit m).run (pre ++ [.update (.str s) so n] ++ mid)
    0 < p.getTriesRemaining →
    ∃ r, (p.check (.arr b) bo k).1 = .ok r ∧
      (r = true ↔ ∀ i < m, (padZero m (range s so n))[i]? = WrappedCell m (range b bo k) i) := by
  intro p ht
  have hw : WF p m := wf_run (wf_init limit m) _
  have hpin : p.pin = padZero m (range s so n) := by
    show ((OwnerPIN.init limit m).run (pre ++ [.update (.str s) so n] ++ mid)).pin = _
    have h0 : WF ((OwnerPIN.init limit m).run pre) m := wf_run (wf_init limit m) _
    rw [run_append, run_append, run_pin _ _ hmid, run_cons, run_nil]
    simp only [OwnerPIN.step]
    rw [update_str _ m h0 s so n hn hs]
  obtain ⟨buf, hf, hc⟩ := check_compare p m hw (.arr b) bo k hk hb ht
  have hfa := OwnerPIN.fill_arr (List.replicate m 0) b bo k (by simpa using hk) hb
  simp only [List.length_replicate] at hfa
  rw [hf] at hfa
  obtain ⟨_, hbl, hbc⟩ := hfa
  simp only at hbl hbc
  have hiff : p.pin = buf ↔ ∀ i < m, (padZero m (range s so n))[i]? = WrappedCell m (range b bo k) i := by
    rw [ext_cells m p.pin buf hw.2 hbl, hpin]
    have e : ∀ i < m, buf[i]? = WrappedCell m (range b bo k) i := by
      intro i hi
      rw [hbc, List.getElem?_replicate, if_pos hi]
      exact arrCell_wrapped m k b bo i hk0 hb hi hk
    exact ⟨fun h i hi => by rw [← e i hi]; exact h i hi, fun h i hi => by rw [e i hi]; exact h i hi⟩
  rcases hc with ⟨he, hr⟩ | ⟨he, hr⟩
  · exact ⟨true, hr, by simpa using hiff.1 he⟩
  · refine ⟨false, hr, ?_⟩
    simp only [Bool.false_eq_true, false_iff]
    exact fun h => he (hiff.2 h)

/-- C89. The other way round: on an object whose PIN was set once, from an array, a string presentation is accepted exactly when the string,
padded with zeros, is the array with its bytes wrapped around from the end. -/
theorem C89_array_then_string (limit : Int) (m : Nat) (pre mid : List Op) (a : List Int) (ao n : Nat) (hn0 : 0 < n) (hn : n ≤ m) (ha : ao + n ≤ a.length)
    (hpre : ∀ op ∈ pre, ∀ x o l, op ≠ .update x o l) (hmid : ∀ op ∈ mid, ∀ x o l, op ≠ .update x o l)
    (x : List Int) (xo k : Nat) (hk : k ≤ m) (hx : xo + k ≤ x.length) :
    let p := (OwnerPIN.init limit m).run (pre ++ [.update (.arr a) ao n] ++ mid)
    0 < p.getTriesRemaining →
    ∃ r, (p.check (.str x) xo k).1 = .ok r ∧
      (r = true ↔ ∀ i < m, (padZero m (range x xo k))[i]? = WrappedCell m (range a ao n) i) := by
  intro p ht
  have hw : WF p m := wf_run (wf_init limit m) _
  have hpin : ∀ i < m, p.pin[i]? = WrappedCell m (range a ao n) i := by
    have h0 : WF ((OwnerPIN.init limit m).run pre) m := wf_run (wf_init limit m) _
    obtain ⟨b, e, _, hcell⟩ := update_arr _ m h0 a ao n hn ha
    have : p.pin = b := by
      show ((OwnerPIN.init limit m).run (pre ++ [.update (.arr a) ao n] ++ mid)).pin = _
      rw [run_append, run_append, run_pin _ _ hmid, run_cons, run_nil]
      simp only [OwnerPIN.step]
      rw [e]
    intro i hi
    rw [this, hcell, run_pin _ _ hpre]
    simp only [OwnerPIN.init, fresh_natCast]
    rw [List.getElem?_replicate, if_pos hi]
    exact arrCell_wrapped m n a ao i hn0 ha hi hn
  obtain ⟨buf, hf, hc⟩ := check_compare p m hw (.str x) xo k hk hx ht
  have := OwnerPIN.fill_str (List.replicate m 0) x xo k (by simpa using hk) hx
  simp only [List.length_replicate] at this
  rw [this] at hf
  have hl : (range x xo k).length = k := by simp [range]; omega
  have hbuf : buf = padZero m (range x xo k) := by
    simp only [Prod.mk.injEq, true_and] at hf
    rw [← hf, padZero, hl]
  rw [hbuf] at hc
  have hiff : p.pin = padZero m (range x xo k) ↔ ∀ i < m, (padZero m (range x xo k))[i]? = WrappedCell m (range a ao n) i := by
    rw [ext_cells m p.pin _ hw.2 (by simp [padZero, hl]; omega)]
    exact ⟨fun h i hi => by rw [← hpin i hi, h i hi], fun h i hi => by rw [hpin i hi, h i hi]⟩
  rcases hc with ⟨he, hr⟩ | ⟨he, hr⟩
  · exact ⟨true, hr, by simpa using hiff.1 he⟩
  · refine ⟨false, hr, ?_⟩
    simp only [Bool.false_eq_true, false_iff]
    exact fun h => he (hiff.2 h)

/-- The padded string is the wrapped array exactly when …: for PINs of the maximum size, the string is the first byte followed by the other bytes
in reverse order. -/
theorem wrapped_full (m : Nat) (s : List Int) (b0 : Int) (bs : List Int) (hs : s.length = m) (hb : (b0 :: bs).length = m) :
    (∀ i < m, (padZero m s)[i]? = WrappedCell m (b0 :: bs) i) ↔ s = b0 :: bs.reverse := by
  have hp : padZero m s = s := by simp [padZero, hs]
  rw [hp, ext_cells m s (b0 :: bs.reverse) hs (by simpa using hb)]
  have hm : bs.length + 1 = m := by simpa using hb
  have e : ∀ i < m, WrappedCell m (b0 :: bs) i = (b0 :: bs.reverse)[i]? := by
    intro i hi
    unfold WrappedCell
    cases i with
    | zero => rfl
    | succ i =>
      rw [if_neg (by omega), if_pos (by simp only [List.length_cons]; omega), List.getElem?_cons_succ, List.getElem?_reverse (by omega)]
      rw [show m - (i + 1) = (bs.length - 1 - i) + 1 by omega, List.getElem?_cons_succ]
  exact ⟨fun h i hi => by rw [h i hi, e i hi], fun h i hi => by rw [h i hi, e i hi]⟩

/-- C89. A PIN of the maximum size, set from a string: the array accepted is not the array of its characters but the first one followed by the
others in reverse order. -/
theorem C89_full_size_reversed (limit : Int) (m : Nat) (pre mid : List Op) (s : List Int) (hs : s.length = m)
    (hmid : ∀ op ∈ mid, ∀ a o l, op ≠ .update a o l) (b0 : Int) (bs : List Int) (hb : (b0 :: bs).length = m) :
    let p := (OwnerPIN.init limit m).run (pre ++ [.update (.str s) 0 m] ++ mid)
    0 < p.getTriesRemaining → ∃ r, (p.check (.arr (b0 :: bs)) 0 m).1 = .ok r ∧ (r = true ↔ s = b0 :: bs.reverse) := by
  intro p ht
  obtain ⟨r, h1, h2⟩ := C89_string_then_array limit m pre mid s 0 m (Nat.le_refl _) (by omega) hmid (b0 :: bs) 0 m
    (by simp at hb; omega) (Nat.le_refl _) (by omega) ht
  refine ⟨r, h1, ?_⟩
  have e1 : range s 0 m = s := by simp [range, ← hs]
  have e2 : range (b0 :: bs) 0 m = b0 :: bs := by rw [← hb]; simp [range]
  rw [e1, e2] at h2
  rw [h2]
  exact wrapped_full m s b0 bs hs hb

/-- C89. A PIN of at least two characters, none of them NUL, and at most half the maximum size (2n ≤ m + 1), set from a string, is refused when
presented as the array of its own characters - or as any other array of its length. -/
theorem C89_short_refused (limit : Int) (m : Nat) (pre mid : List Op) (s : List Int) (n : Nat) (hn2 : 2 ≤ n) (hs : s.length = n) (h0 : (0 : Int) ∉ s)
    (hm : 2 * n ≤ m + 1) (hmid : ∀ op ∈ mid, ∀ a o l, op ≠ .update a o l) (b : List Int) (hb : b.length = n) :
    let p := (OwnerPIN.init limit m).run (pre ++ [.update (.str s) 0 n] ++ mid)
    0 < p.getTriesRemaining → (p.check (.arr b) 0 n).1 = .ok false := by
  intro p ht
  obtain ⟨r, h1, h2⟩ := C89_string_then_array limit m pre mid s 0 n (by omega) (by omega) hmid b 0 n (by omega) (by omega) (by omega) ht
  have h1 : (p.check (.arr b) 0 n).1 = .ok r := h1
  rw [h1]
  cases r with
  | false => rfl
  | true =>
    exfalso
    have h := h2.1 rfl 1 (by omega)
    have e1 : range s 0 n = s := by simp [range, ← hs]
    have e2 : range b 0 n = b := by simp [range, ← hb]
    rw [e1, e2] at h
    unfold WrappedCell at h
    rw [if_neg (by omega), if_neg (by omega)] at h
    unfold padZero at h
    rw [List.getElem?_append_left (by omega)] at h
    exact h0 (List.mem_of_getElem? h)

/-- The PIN "1234" set as a string with maximum size 4: the array 1 2 3 4 is refused, 1 4 3 2 accepted; with maximum size 8 neither. -/
example : let p := (OwnerPIN.init 3 4).run ([] ++ [.update (.str [49, 50, 51, 52]) 0 4] ++ [.reset])
    0 < p.getTriesRemaining ∧ (p.check (.arr [49, 50, 51, 52]) 0 4).1 = .ok false ∧ (p.check (.arr [49, 52, 51, 50]) 0 4).1 = .ok true ∧
    (((OwnerPIN.init 3 8).run [.update (.str [49, 50, 51, 52]) 0 4]).check (.arr [49, 50, 51, 52]) 0 4).1 = .ok false := by decide

/-- Set as an array, presented as a string. -/
example : let p := (OwnerPIN.init 3 4).run ([] ++ [.update (.arr [49, 50, 51, 52]) 0 4] ++ [])
    0 < p.getTriesRemaining ∧ (p.check (.str [49, 50, 51, 52]) 0 4).1 = .ok false ∧ (p.check (.str [49, 52, 51, 50]) 0 4).1 = .ok true := by decide

end Verif.Props
