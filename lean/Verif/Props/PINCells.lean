import Verif.Props.PINMixed
/-! C93: what a PIN object accepts after any history of updates, strings and arrays mixed. -/
namespace Verif.Props
open Verif.Py Verif.Model Verif.Spec
open Verif.Model.OwnerPIN (Op Out)

/-- Specification: the value of cell `i` of the stored PIN (maximum size `m`) after the listed updates, newest first, each given by its
argument, offset and length `n`. An update clears the cells from `n` on. A string puts its characters in cells 0 to n - 1. An array puts its
first byte in cell 0 and its byte `j ≥ 1` in cell `m - j`, of which only those below `n` survive the clearing; the other cells below `n` keep
what they held. -/
def pinCell (m : Nat) : List (PinArg × Nat × Nat) → Nat → Int
  | [], _ => 0
  | (x, off, n) :: older, i =>
    if n ≤ i then 0
    else match x with
      | .str s => s.getD (off + i) 0
      | .arr b => if i = 0 then b.getD off 0 else if m < i + n then b.getD (off + (m - i)) 0 else pinCell m older i

/-- Specification: the updates a PIN object of maximum size `m` accepts: at most `m` characters or bytes, within the argument. -/
def acceptedUpdate (m : Nat) : Op → Option (PinArg × Nat × Nat)
  | .update a o l => if 0 ≤ o ∧ 0 ≤ l ∧ l ≤ m ∧ o + l ≤ a.length then some (a, o.toNat, l.toNat) else none
  | _ => none

/-- The accepted updates of a history, newest first. -/
def pinUpdates (m : Nat) (ops : List Op) : List (PinArg × Nat × Nat) := (ops.filterMap (acceptedUpdate m)).reverse

/-- Offsets and lengths of the updates are not negative. -/
def Plain : Op → Prop
  | .update _ o l => 0 ≤ o ∧ 0 ≤ l
  | _ => True

/-- Filling a buffer that holds the cells of the older updates gives the cells of all of them. -/
theorem fill_pinCell (m : Nat) (buf : List Int) (hl : buf.length = m) (older : List (PinArg × Nat × Nat))
    (hb : ∀ i < m, buf[i]? = some (pinCell m older i)) (a : PinArg) (off n : Nat) (hn : n ≤ m) (ha : off + n ≤ a.length) :
    ∃ b, OwnerPIN.fill buf a off n m = (.ok (), b) ∧ b.length = m ∧ ∀ i < m, b[i]? = some (pinCell m ((a, off, n) :: older) i) := by
  subst hl
  cases a with
  | str s =>
    simp only [PinArg.length] at ha
    have hr : (range s off n).length = n := by simp [range]; omega
    refine ⟨_, OwnerPIN.fill_str buf s off n hn ha, ?_, ?_⟩
    · simp [hr]; omega
    · intro i hi
      simp only [pinCell]
      by_cases h : n ≤ i
      · rw [if_pos h, List.getElem?_append_right (by omega), List.getElem?_replicate, if_pos (by omega)]
      · rw [if_neg h, List.getElem?_append_left (by omega)]
        simp only [range, List.getElem?_take, List.getElem?_drop]
        rw [if_pos (by omega), List.getD_eq_getElem?_getD, List.getElem?_eq_getElem (by omega), Option.getD_some]
  | arr b =>
    simp only [PinArg.length] at ha
    obtain ⟨h1, h2, h3⟩ := OwnerPIN.fill_arr buf b off n hn ha
    refine ⟨(OwnerPIN.fill buf (.arr b) off n buf.length).2, ?_, h2, ?_⟩
    · rw [← h1]
    · intro i hi
      rw [h3, hb i hi]
      simp only [pinCell, OwnerPIN.arrCell]
      by_cases h : n ≤ i
      · rw [if_pos h, if_pos h, if_pos hi]
      · rw [if_neg h, if_neg h]
        by_cases hm : buf.length < i + n
        · rw [if_pos hm, if_neg (by omega), if_pos hm]
          rw [List.getD_eq_getElem?_getD, List.getElem?_eq_getElem (by omega), Option.getD_some]
        · rw [if_neg hm]
          by_cases h0 : i = 0
          · rw [if_pos h0, if_pos h0, List.getD_eq_getElem?_getD, Nat.add_zero, List.getElem?_eq_getElem (by omega), Option.getD_some]
          · rw [if_neg h0, if_neg h0, if_neg hm]

/-- C93. An update with offset and length not negative succeeds exactly when it is one of the accepted ones; a refused one raises
PINException (longer than the maximum) or ArrayIndexOutOfBoundsException (outside the argument) and changes nothing. -/
theorem C93_update (limit : Int) (m : Nat) (ops : List Op) (a : PinArg) (off n : Nat) :
    let p := (OwnerPIN.init limit m).run ops
    (n ≤ m ∧ off + n ≤ a.length → (p.update a off n).1 = .ok ()) ∧
    (m < n → p.update a off n = (.error (.pin n), p)) ∧
    (n ≤ m → a.length < off + n → p.update a off n = (.error .arrayIndexOutOfBounds, p)) := by
  intro p
  have hw : WF p m := wf_run (wf_init limit m) _
  refine ⟨?_, ?_, ?_⟩
  · rintro ⟨h1, h2⟩
    have hcells : ∀ i < m, p.pin[i]? = some (pinCell m [(.str p.pin, 0, m)] i) := by
      intro i hi
      simp only [pinCell]
      rw [if_neg (by omega), List.getD_eq_getElem?_getD, Nat.zero_add, List.getElem?_eq_getElem (by rw [hw.2]; exact hi), Option.getD_some]
    obtain ⟨b, hb, _⟩ := fill_pinCell m p.pin hw.2 _ hcells a off n h1 h2
    unfold OwnerPIN.update
    rw [if_neg (by rw [hw.1]; omega), if_neg (by omega), hw.1, hb]
  · intro h
    unfold OwnerPIN.update
    rw [if_pos (by rw [hw.1]; omega)]
  · intro h1 h2
    unfold OwnerPIN.update
    rw [if_neg (by rw [hw.1]; omega), if_pos (by omega)]

/-- Induction from the end of a list. -/
theorem snoc_induction {α} {P : List α → Prop} (h0 : P []) (h1 : ∀ l x, P l → P (l ++ [x])) (l : List α) : P l := by
  have : ∀ r : List α, P r.reverse := by
    intro r
    induction r with
    | nil => exact h0
    | cons x r ih => rw [List.reverse_cons]; exact h1 _ x ih
  simpa using this l.reverse

/-- The stored cells after any history. -/
theorem run_pinCell (limit : Int) (m : Nat) (ops : List Op) (h : ∀ op ∈ ops, Plain op) :
    ∀ i < m, ((OwnerPIN.init limit m).run ops).pin[i]? = some (pinCell m (pinUpdates m ops) i) := by
  induction ops using snoc_induction with
  | h0 =>
    intro i hi
    simp only [run_nil, OwnerPIN.init, fresh_natCast, pinUpdates, List.filterMap_nil, List.reverse_nil, pinCell]
    rw [List.getElem?_replicate, if_pos hi]
  | h1 ops op ih =>
    have ih := ih (fun x hx => h x (by simp [hx]))
    have hop := h op (by simp)
    have hw : WF ((OwnerPIN.init limit m).run ops) m := wf_run (wf_init limit m) _
    rw [run_append]
    have hsplit : pinUpdates m (ops ++ [op]) = (acceptedUpdate m op).toList ++ pinUpdates m ops := by
      unfold pinUpdates
      rw [List.filterMap_append, List.reverse_append]
      cases hh : acceptedUpdate m op <;> simp [hh]
    have other : (∀ a o l, op ≠ .update a o l) → ∀ i < m,
        (((OwnerPIN.init limit m).run ops).run [op]).pin[i]? = some (pinCell m (pinUpdates m (ops ++ [op])) i) := by
      intro hne i hi
      rw [run_pin _ _ (by simpa using hne), ih i hi, hsplit]
      cases op with
      | update a o l => exact absurd rfl (hne a o l)
      | _ => rfl
    cases op with
    | update a o l =>
      obtain ⟨h1, h2⟩ := hop
      obtain ⟨o, rfl⟩ : ∃ k : Nat, o = k := ⟨o.toNat, by omega⟩
      obtain ⟨l, rfl⟩ : ∃ k : Nat, l = k := ⟨l.toNat, by omega⟩
      obtain ⟨u1, u2, u3⟩ := C93_update limit m ops a o l
      intro i hi
      rw [run_cons, run_nil]
      simp only [OwnerPIN.step]
      rw [hsplit]
      by_cases hm : l ≤ m
      · by_cases hb : o + l ≤ a.length
        · have hacc : acceptedUpdate m (.update a o l) = some (a, o, l) := by
            simp only [acceptedUpdate]
            rw [if_pos (by omega)]
            simp
          rw [hacc]
          obtain ⟨b, hf, _, hc⟩ := fill_pinCell m _ hw.2 _ ih a o l hm hb
          unfold OwnerPIN.update
          rw [if_neg (by rw [hw.1]; omega), if_neg (by omega), hw.1, hf]
          exact hc i hi
        · have hacc : acceptedUpdate m (.update a o l) = none := by
            simp only [acceptedUpdate]
            rw [if_neg (by omega)]
          rw [hacc, u3 hm (by omega)]
          exact ih i hi
      · have hacc : acceptedUpdate m (.update a o l) = none := by
          simp only [acceptedUpdate]
          rw [if_neg (by omega)]
        rw [hacc, u2 (by omega)]
        exact ih i hi
    | check a o l => exact other (by simp)
    | reset => exact other (by simp)
    | resetAndUnblock => exact other (by simp)
    | setValidatedFlag v => exact other (by simp)

/-- C93. After any history of calls, refused ones included, strings and arrays mixed, a presentation of admissible length (while tries
remain) is accepted exactly when setting it as the first PIN of a new object would give the same cells as the updates of the history. -/
theorem C93_accepts_iff (limit : Int) (m : Nat) (ops : List Op) (h : ∀ op ∈ ops, Plain op) (x : PinArg) (off n : Nat) (hn : n ≤ m)
    (hx : off + n ≤ x.length) (ht : 0 < ((OwnerPIN.init limit m).run ops).getTriesRemaining) :
    ∃ r, (((OwnerPIN.init limit m).run ops).check x off n).1 = .ok r ∧
      (r = true ↔ ∀ i < m, pinCell m (pinUpdates m ops) i = pinCell m [(x, off, n)] i) := by
  have hw : WF ((OwnerPIN.init limit m).run ops) m := wf_run (wf_init limit m) _
  have hcells := run_pinCell limit m ops h
  obtain ⟨buf, hf, hc⟩ := check_compare _ m hw x off n hn hx ht
  obtain ⟨b, hb, hbl, hbc⟩ := fill_pinCell m (List.replicate m 0) (by simp) [] (by intro i hi; rw [List.getElem?_replicate, if_pos hi]; rfl) x off n hn hx
  rw [hb] at hf
  simp only [Prod.mk.injEq, true_and] at hf
  subst hf
  have hiff : ((OwnerPIN.init limit m).run ops).pin = b ↔ ∀ i < m, pinCell m (pinUpdates m ops) i = pinCell m [(x, off, n)] i := by
    rw [ext_cells m _ b hw.2 hbl]
    constructor
    · intro hh i hi
      have := hh i hi
      rw [hcells i hi, hbc i hi] at this
      exact Option.some.inj this
    · intro hh i hi
      rw [hcells i hi, hbc i hi, hh i hi]
  rcases hc with ⟨he, hr⟩ | ⟨he, hr⟩
  · exact ⟨true, hr, by simpa using hiff.1 he⟩
  · refine ⟨false, hr, ?_⟩
    simp only [Bool.false_eq_true, false_iff]
    exact fun hh => he (hiff.2 hh)

/-- C93. A PIN just set from an array of `n` bytes is accepted back exactly when the cells 1 … min(n - 1, m - n) of the PIN before were 0. -/
theorem C93_array_accepted_back (limit : Int) (m : Nat) (ops : List Op) (h : ∀ op ∈ ops, Plain op) (b : List Int) (off n : Nat) (hn : n ≤ m)
    (hb : off + n ≤ b.length) (hl : 0 < limit) :
    ∃ r, (((OwnerPIN.init limit m).run (ops ++ [.update (.arr b) off n])).check (.arr b) off n).1 = .ok r ∧
      (r = true ↔ ∀ i, 0 < i → i < n → i + n ≤ m → pinCell m (pinUpdates m ops) i = 0) := by
  have hp : ∀ op ∈ ops ++ [Op.update (.arr b) off n], Plain op := by
    intro op hop
    simp only [List.mem_append, List.mem_singleton] at hop
    rcases hop with hop | rfl
    · exact h op hop
    · exact ⟨by omega, by omega⟩
  have hsplit : pinUpdates m (ops ++ [Op.update (.arr b) off n]) = (.arr b, off, n) :: pinUpdates m ops := by
    unfold pinUpdates
    rw [List.filterMap_append, List.reverse_append]
    have hacc : acceptedUpdate m (.update (.arr b) off n) = some (.arr b, off, n) := by
      have : ((PinArg.arr b).length : Int) = b.length := rfl
      simp only [acceptedUpdate]
      rw [if_pos (by omega)]
      simp
    simp [hacc]
  have ht : 0 < ((OwnerPIN.init limit m).run (ops ++ [Op.update (.arr b) off n])).getTriesRemaining := by
    have hw : WF ((OwnerPIN.init limit m).run ops) m := wf_run (wf_init limit m) _
    obtain ⟨b', e, _⟩ := update_arr _ m hw b off n hn hb
    rw [run_append, run_cons, run_nil]
    simp only [OwnerPIN.step]
    rw [e]
    simp only [OwnerPIN.getTriesRemaining]
    rw [(run_const (OwnerPIN.init limit m) ops).1]
    exact hl
  obtain ⟨r, h1, h2⟩ := C93_accepts_iff limit m _ hp (.arr b) off n hn hb ht
  refine ⟨r, h1, ?_⟩
  rw [h2, hsplit]
  constructor
  · intro hh i hi0 hin him
    have := hh i (by omega)
    simp only [pinCell] at this
    rw [if_neg (by omega), if_neg (by omega), if_neg (by omega), if_neg (by omega), if_neg (by omega), if_neg (by omega)] at this
    exact this
  · intro hh i hi
    simp only [pinCell]
    by_cases hn' : n ≤ i
    · rw [if_pos hn', if_pos hn']
    · rw [if_neg hn', if_neg hn']
      by_cases h0 : i = 0
      · rw [if_pos h0, if_pos h0]
      · rw [if_neg h0, if_neg h0]
        by_cases hm : m < i + n
        · rw [if_pos hm, if_pos hm]
        · rw [if_neg hm, if_neg hm]
          exact hh i (by omega) (by omega) (by omega)

/-- Three updates, one of them refused: cell 1 of the string is still there after the array update. -/
example : pinUpdates 5 [.update (.str [49, 50, 51]) 0 3, .reset, .update (.arr [1, 2, 3, 4, 5, 6]) 0 6, .update (.arr [9, 1, 2, 3]) 1 3] =
    [(.arr [9, 1, 2, 3], 1, 3), (.str [49, 50, 51], 0, 3)] ∧
    (List.range 5).map (pinCell 5 [(.arr [9, 1, 2, 3], 1, 3), (.str [49, 50, 51], 0, 3)]) = [1, 50, 51, 0, 0] ∧
    ((OwnerPIN.init 3 5).run [.update (.str [49, 50, 51]) 0 3, .reset, .update (.arr [1, 2, 3, 4, 5, 6]) 0 6, .update (.arr [9, 1, 2, 3]) 1 3]).pin =
      [1, 50, 51, 0, 0] := by decide

end Verif.Props
