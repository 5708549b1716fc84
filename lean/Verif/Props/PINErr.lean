import Verif.Props.PINCells
import Verif.Props.APDUErr
/-! C105: which exception every call on an OwnerPIN raises, and when. -/
namespace Verif.Props
open Verif.Py Verif.Model Verif.Spec
open Verif.Model.OwnerPIN (Op Out)

/-- Specification: the PIN given as argument, offset and length can be stored in `m` cells. A string: its slice has no more than `m` characters. An
array: no byte is wanted, or there is a cell, at most one byte too many is wanted, and the offset is not before the array's beginning. In both
cases a negative length must not reach below `-m`. -/
def Storable (m : Int) (a : PinArg) (o l : Int) : Prop :=
  (match a with
   | .str c => ((slice c o (o + l)).length : Int) ≤ max m 0
   | .arr b => l ≤ 0 ∨ (0 < m ∧ l ≤ m + 1 ∧ -(b.length : Int) ≤ o)) ∧
  (m ≤ l ∨ -(max m 0) ≤ l)

instance (m : Int) (a : PinArg) (o l : Int) : Decidable (Storable m a o l) := by
  unfold Storable; cases a <;> exact inferInstance

/-- Specification: the exception a call on a PIN of maximum size `m` with `t` tries remaining raises. -/
def pinVerdict (m t : Int) : Op → Option Err
  | .check a o l =>
    if t ≤ 0 then none
    else if (a.length : Int) < o ∨ (a.length : Int) < o + l then some .arrayIndexOutOfBounds
    else if Storable m a o l then none else some .indexError
  | .update a o l =>
    if m < l then some (.pin l)
    else if (a.length : Int) < o + l then some .arrayIndexOutOfBounds
    else if Storable m a o l then none else some .indexError
  | _ => none

/-- The exception a call showed, if any. -/
def outRaised : Out → Option Err
  | .checked r => raised r
  | .updated r => raised r
  | .done => none

theorem strLoop_ok_iff (buf : List Int) (i : Nat) (cs : List Int) (hi : i ≤ buf.length) :
    (OwnerPIN.strLoop buf i cs).1 = .ok () ↔ i + cs.length ≤ buf.length := by
  induction cs generalizing buf i with
  | nil => simp [OwnerPIN.strLoop, hi]
  | cons c cs ih =>
    unfold OwnerPIN.strLoop
    by_cases h : i < buf.length
    · rw [set_names buf i c i ⟨h, .inl rfl⟩]
      simp only
      rw [ih _ _ (by simp; omega)]
      simp; omega
    · rw [set_unnamed buf i c (by omega)]
      simp; omega

theorem zeroLoop_ok_iff (buf : List Int) (i : Int) (n : Nat) :
    (OwnerPIN.zeroLoop buf i n).1 = .ok () ↔ n = 0 ∨ Reachable buf.length i n := by
  induction n generalizing buf i with
  | zero => simp [OwnerPIN.zeroLoop]
  | succ n ih =>
    unfold OwnerPIN.zeroLoop
    by_cases h : -(buf.length : Int) ≤ i ∧ i < buf.length
    · obtain ⟨p, hp⟩ := names_of_reach _ _ h
      rw [set_names _ _ _ _ hp]
      simp only
      rw [ih]
      unfold Reachable
      simp only [List.length_set]
      omega
    · rw [set_unnamed _ _ _ h]
      unfold Reachable
      simp only [reduceCtorEq, false_iff]
      rintro (h' | h')
      · omega
      · exact h ⟨h'.1, by have := h'.2; push_cast at this; omega⟩

theorem arrLoop_ok_iff (pin : List Int) (o : Int) (buf : List Int) (j n : Nat) :
    (OwnerPIN.arrLoop pin o buf j n).1 = .ok () ↔
      n = 0 ∨ (Reachable pin.length (o + j) n ∧ 0 < buf.length ∧ j + n ≤ buf.length + 1) := by
  induction n generalizing buf j with
  | zero => simp [OwnerPIN.arrLoop]
  | succ n ih =>
    unfold OwnerPIN.arrLoop
    by_cases h1 : -(pin.length : Int) ≤ o + j ∧ o + j < pin.length
    · obtain ⟨p, hp⟩ := names_of_reach _ _ h1
      rw [get_names _ _ _ hp]
      simp only
      by_cases h2 : -(buf.length : Int) ≤ o - (o + j) ∧ o - (o + j) < buf.length
      · obtain ⟨q, hq⟩ := names_of_reach _ _ h2
        rw [set_names _ _ _ _ hq]
        simp only
        rw [ih]
        unfold Reachable
        simp only [List.length_set]
        omega
      · rw [set_unnamed _ _ _ h2]
        simp only [reduceCtorEq, false_iff]
        rintro (h' | h')
        · omega
        · apply h2; omega
    · rw [get_unnamed _ _ h1]
      unfold Reachable
      simp only [reduceCtorEq, false_iff]
      rintro (h' | ⟨h', _⟩)
      · omega
      · exact h1 ⟨h'.1, by have := h'.2; push_cast at this; omega⟩

theorem fill_verdict (buf : List Int) (m : Int) (hb : (buf.length : Int) = max m 0) (a : PinArg) (o l : Int) (hl : o + l ≤ a.length) :
    raised (OwnerPIN.fill buf a o l m).1 = if Storable m a o l then none else some .indexError := by
  have ht := OwnerPIN.fill_total buf a o l m
  have key : (OwnerPIN.fill buf a o l m).1 = .ok () ↔ Storable m a o l := by
    unfold OwnerPIN.fill Storable
    have hz : ∀ b : List Int, b.length = buf.length →
        ((OwnerPIN.zeroLoop b l (rangeLen (m - l))).1 = .ok () ↔ (m ≤ l ∨ -(max m 0) ≤ l)) := by
      intro b hbl
      rw [zeroLoop_ok_iff]
      unfold Reachable rangeLen
      rw [hbl, hb]
      omega
    cases a with
    | str c =>
      have h1 := strLoop_ok_iff buf 0 (slice c o (o + l)) (by omega)
      have h2 := OwnerPIN.strLoop_length buf 0 (slice c o (o + l))
      simp only
      generalize OwnerPIN.strLoop buf 0 (slice c o (o + l)) = r at *
      obtain ⟨r1, b⟩ := r
      cases r1 with
      | ok u =>
        simp only [true_iff] at h1
        simp only
        rw [hz b h2]
        constructor
        · intro h; exact ⟨by omega, h⟩
        · exact fun h => h.2
      | error e =>
        simp only [reduceCtorEq, false_iff] at h1 ⊢
        intro h
        omega
    | arr c =>
      have h1 := arrLoop_ok_iff c o buf 0 (rangeLen l)
      have h2 := OwnerPIN.arrLoop_length c o buf 0 (rangeLen l)
      have hN : (l ≤ 0 ∧ rangeLen l = 0) ∨ (0 < l ∧ (rangeLen l : Int) = l) := by unfold rangeLen; omega
      simp only
      unfold Reachable at h1
      simp only [PinArg.length] at hl
      generalize rangeLen l = N at *
      generalize OwnerPIN.arrLoop c o buf 0 N = r at *
      obtain ⟨r1, b⟩ := r
      cases r1 with
      | ok u =>
        simp only [true_iff] at h1
        simp only
        rw [hz b h2]
        constructor
        · intro h; exact ⟨by omega, h⟩
        · exact fun h => h.2
      | error e =>
        simp only [reduceCtorEq, false_iff] at h1 ⊢
        rintro ⟨h, _⟩
        apply h1
        omega
  by_cases hs : Storable m a o l
  · rw [if_pos hs, key.2 hs]; rfl
  · rw [if_neg hs]
    rcases ht with h | h
    · exact absurd (key.1 h) hs
    · rw [h]; rfl

/-- The size of the stored PIN never changes. -/
def Sized (m : Int) (p : OwnerPIN) : Prop := p.maxpinsize = m ∧ (p.pin.length : Int) = max m 0

theorem sized_init (limit m : Int) : Sized m (OwnerPIN.init limit m) := by
  refine ⟨rfl, ?_⟩
  simp [OwnerPIN.init, fresh]

theorem sized_step {m : Int} {p : OwnerPIN} (h : Sized m p) (op : Op) : Sized m (p.step op).2 := by
  obtain ⟨h1, h2⟩ := h
  cases op with
  | check a o l =>
    simp only [OwnerPIN.step, OwnerPIN.check]
    split
    · exact ⟨h1, h2⟩
    · split
      · exact ⟨h1, h2⟩
      · split
        · exact ⟨h1, h2⟩
        · split <;> exact ⟨h1, h2⟩
  | update a o l =>
    simp only [OwnerPIN.step, OwnerPIN.update]
    have hf := OwnerPIN.fill_length p.pin a o l p.maxpinsize
    split
    · exact ⟨h1, h2⟩
    · split
      · exact ⟨h1, h2⟩
      · split
        · next he => rw [he] at hf; exact ⟨h1, by simp only at hf ⊢; omega⟩
        · next he => rw [he] at hf; exact ⟨h1, by simp only at hf ⊢; omega⟩
  | reset =>
    simp only [OwnerPIN.step, OwnerPIN.reset]
    split <;> exact ⟨h1, h2⟩
  | resetAndUnblock => exact ⟨h1, h2⟩
  | setValidatedFlag v => exact ⟨h1, h2⟩

theorem sized_run {m : Int} {p : OwnerPIN} (h : Sized m p) (ops : List Op) : Sized m (p.run ops) := by
  induction ops generalizing p with
  | nil => exact h
  | cons op ops ih => exact ih (sized_step h op)

/-- C105. For every try limit and maximum size, every history of calls and every next call with any arguments (offsets, lengths and sizes negative or
not): the exception the call raises, or that it raises none, is the one the specification gives from the maximum size, the tries remaining and the
arguments. -/
theorem C105_pin (limit m : Int) (ops : List Op) (op : Op) :
    outRaised (((OwnerPIN.init limit m).run ops).step op).1 =
      pinVerdict m ((OwnerPIN.init limit m).run ops).getTriesRemaining op := by
  obtain ⟨h1, h2⟩ := sized_run (sized_init limit m) ops
  generalize (OwnerPIN.init limit m).run ops = p at *
  subst h1
  unfold OwnerPIN.getTriesRemaining
  cases op with
  | check a o l =>
    simp only [OwnerPIN.step, OwnerPIN.check, pinVerdict]
    by_cases ht : p.triesremaining ≤ 0
    · rw [if_pos ht, if_pos ht]; rfl
    · rw [if_neg ht, if_neg ht]
      by_cases hg : (a.length : Int) < o ∨ (a.length : Int) < o + l
      · rw [if_pos hg, if_pos hg]; rfl
      · rw [if_neg hg, if_neg hg]
        have hf := fill_verdict (fresh p.maxpinsize 0) p.maxpinsize (by simp [fresh]) a o l (by omega)
        rw [← hf]
        split
        · next he => rw [he]; rfl
        · next he => rw [he]; split <;> rfl
  | update a o l =>
    simp only [OwnerPIN.step, OwnerPIN.update, pinVerdict]
    by_cases ht : l > p.maxpinsize
    · rw [if_pos ht, if_pos ht]; rfl
    · rw [if_neg ht, if_neg (show ¬ p.maxpinsize < l from ht)]
      by_cases hg : (a.length : Int) < o + l
      · rw [if_pos (show l + o > (a.length : Int) by omega), if_pos hg]; rfl
      · rw [if_neg (show ¬ l + o > (a.length : Int) by omega), if_neg hg]
        have hf := fill_verdict p.pin p.maxpinsize h2 a o l (by omega)
        rw [← hf]
        split <;> (next he => rw [he]; rfl)
  | reset => rfl
  | resetAndUnblock => rfl
  | setValidatedFlag v => rfl

/-- C105. What a call on a PIN object that raises leaves behind. A presentation that raises always ends the validation; it costs a try exactly when
the exception is ArrayIndexOutOfBoundsException. An update that raises keeps flag and counter, and changes the PIN only if the exception is IndexError. -/
theorem C105_pin_effects (limit m : Int) (ops : List Op) (a : PinArg) (o l : Int) (e : Err) :
    let p := (OwnerPIN.init limit m).run ops
    ((p.check a o l).1 = .error e →
      (p.check a o l).2.isValidated = false ∧ (p.check a o l).2.pin = p.pin ∧
      (p.check a o l).2.getTriesRemaining = p.getTriesRemaining - (if e = .arrayIndexOutOfBounds then 1 else 0)) ∧
    ((p.update a o l).1 = .error e →
      (p.update a o l).2.isValidated = p.isValidated ∧ (p.update a o l).2.getTriesRemaining = p.getTriesRemaining ∧
      (e ≠ .indexError → (p.update a o l).2 = p)) := by
  intro p
  constructor
  · unfold OwnerPIN.check
    simp only [OwnerPIN.isValidated, OwnerPIN.getTriesRemaining]
    by_cases ht : p.triesremaining ≤ 0
    · rw [if_pos ht]; intro h; cases h
    · rw [if_neg ht]
      by_cases hg : (a.length : Int) < o ∨ (a.length : Int) < o + l
      · rw [if_pos hg]; intro h; injection h with h; subst h; exact ⟨rfl, rfl, rfl⟩
      · rw [if_neg hg]
        have := OwnerPIN.fill_total (fresh p.maxpinsize 0) a o l p.maxpinsize
        split
        · next e' _ he =>
          rw [he] at this
          intro h
          injection h with h
          subst h
          rcases this with h | h
          · cases h
          · injection h with h; subst h; exact ⟨rfl, rfl, by simp⟩
        · split <;> (intro h; cases h)
  · unfold OwnerPIN.update
    simp only [OwnerPIN.isValidated, OwnerPIN.getTriesRemaining]
    by_cases ht : l > p.maxpinsize
    · rw [if_pos ht]; intro _; exact ⟨rfl, rfl, fun _ => rfl⟩
    · rw [if_neg ht]
      by_cases hg : l + o > (a.length : Int)
      · rw [if_pos hg]; intro _; exact ⟨rfl, rfl, fun _ => rfl⟩
      · rw [if_neg hg]
        have := OwnerPIN.fill_total p.pin a o l p.maxpinsize
        split
        · next e' _ he =>
          rw [he] at this
          intro h
          injection h with h
          subst h
          rcases this with h | h
          · cases h
          · injection h with h; subst h; exact ⟨rfl, rfl, fun h => absurd rfl h⟩
        · intro h; cases h

/-- C105. An update that raises can destroy the PIN: after a successful `update("1234")` on a PIN of size 4, the update `("9999999", 1, -2)` raises
IndexError, and then "1234" is refused and "9999" accepted. -/
theorem C105_pin_destroyed :
    let p := (OwnerPIN.init 3 4).run [.update (.str [49, 50, 51, 52]) 0 4]
    let q := p.update (.str [57, 57, 57, 57, 57, 57, 57]) 1 (-2)
    q.1 = .error .indexError ∧ (p.check (.str [49, 50, 51, 52]) 0 4).1 = .ok true ∧
    (q.2.check (.str [49, 50, 51, 52]) 0 4).1 = .ok false ∧ (q.2.check (.str [57, 57, 57, 57]) 0 4).1 = .ok true := by
  decide +kernel

example : pinVerdict 4 3 (.update (.str [1, 2, 3, 4, 5, 6, 7]) 1 (-2)) = some .indexError := by decide
example : pinVerdict 4 3 (.check (.arr [1, 2, 3, 4, 5]) 0 5) = none := by decide
example : pinVerdict 4 3 (.check (.arr [1, 2, 3, 4, 5, 6]) 0 6) = some .indexError := by decide
example : pinVerdict 4 3 (.update (.arr [1, 2]) (-3) 2) = some .indexError := by decide
example : pinVerdict 4 3 (.update (.arr [1, 2]) (-2) 2) = none := by decide

end Verif.Props
