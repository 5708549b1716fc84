import Verif.Lemmas.Arrays
import Verif.Model.AID
/-! C10–C13: application identifiers. -/
namespace Verif.Props
open Verif.Py Verif.Model Verif.Spec

/-- The class invariant of AIDs built by the constructor: 5 to 16 bytes. -/
def ValidAID (a : AID) : Prop := 5 ≤ a.aid.length ∧ a.aid.length ≤ 16

/-! ### C10 -/

/-- C10: the three outcomes of the constructor, for every array, offset and (integer) length. -/
theorem C10_construct (l : List Int) (off : Nat) (len : Int) :
    ((len < 5 ∨ 16 < len) ∧ AID.mk' l off len = .error .valueError) ∨
    (5 ≤ len ∧ len ≤ 16 ∧ (l.length : Int) < off + len ∧
      AID.mk' l off len = .error .arrayIndexOutOfBounds) ∨
    (5 ≤ len ∧ len ≤ 16 ∧ off + len ≤ l.length ∧
      ∃ a, AID.mk' l off len = .ok a ∧ a.aid = range l off len.toNat) := by
  unfold AID.mk'
  by_cases h : len < 5 ∨ len > 16
  · left; simp [h]
  · right
    by_cases h2 : (l.length : Int) < off + len
    · left; simp only [h, h2, if_false, if_true]; refine ⟨by omega, by omega, trivial, trivial⟩
    · right
      simp only [h, h2, if_false]
      refine ⟨by omega, by omega, by omega, _, rfl, ?_⟩
      obtain ⟨n, rfl⟩ : ∃ n : Nat, len = n := ⟨len.toNat, by omega⟩
      simp only [slice_add, Int.toNat_natCast, range]

/-- C10: an AID that could be built has exactly the requested length, between 5 and 16. -/
theorem C10_valid (l : List Int) (off : Nat) (len : Int) (a : AID) (h : AID.mk' l off len = .ok a) :
    (a.aid.length : Int) = len ∧ ValidAID a := by
  rcases C10_construct l off len with ⟨_, e⟩ | ⟨_, _, _, e⟩ | ⟨h1, h2, h3, b, e, hb⟩
  · rw [e] at h; cases h
  · rw [e] at h; cases h
  · rw [e] at h; cases h
    unfold ValidAID
    rw [hb]
    simp only [range, List.length_take, List.length_drop]
    omega

/-- C10: every list of 5 to 16 bytes is the content of an AID. -/
theorem C10_complete (bs : List Int) (h : 5 ≤ bs.length) (h' : bs.length ≤ 16) :
    AID.mk' bs 0 bs.length = .ok ⟨bs⟩ := by
  rcases C10_construct bs 0 bs.length with ⟨c, _⟩ | ⟨_, _, c, _⟩ | ⟨_, _, _, a, e, ha⟩
  · omega
  · omega
  · simp [range] at ha
    cases a
    simp at ha
    subst ha
    simpa using e

example : AID.mk' [9, 1, 2, 3, 4, 5, 6] 1 5 = .ok ⟨[1, 2, 3, 4, 5]⟩ := by decide
example : AID.mk' [9, 1, 2, 3, 4, 5, 6] 3 5 = .error .arrayIndexOutOfBounds := by decide
example : AID.mk' [9, 1, 2, 3, 4, 5, 6] 1 4 = .error .valueError := by decide

/-! ### C11 -/

/-- C11: `getBytes` writes the AID at the offset and nothing else, and returns its length; or
raises and writes nothing, exactly when it does not fit. -/
theorem C11_getBytes (a : AID) (dest : List Int) (off : Nat) :
    (off + a.aid.length ≤ dest.length ∧ (a.getBytes dest off).1 = .ok (a.aid.length : Int) ∧
      Written dest (a.getBytes dest off).2 off a.aid) ∨
    (dest.length < off + a.aid.length ∧ a.getBytes dest off = (.error .arrayIndexOutOfBounds, dest)) := by
  unfold AID.getBytes
  by_cases h : (dest.length : Int) < off + a.aid.length
  · right; simp only [h, if_true]; exact ⟨by omega, trivial⟩
  · left
    simp only [h, if_false]
    refine ⟨by omega, trivial, ?_⟩
    rw [setSlice_add _ _ _ _ (by omega)]
    exact written_splice dest off a.aid (by omega)

/-- C11: `equals` is true exactly when the range has the AID's length and bytes; it raises
exactly when the range overruns. -/
theorem C11_equals (a : AID) (l : List Int) (off n : Nat) :
    (off + n ≤ l.length ∧ ∃ b, a.equals l off n = .ok b ∧ (b = true ↔ range l off n = a.aid)) ∨
    (l.length < off + n ∧ a.equals l off n = .error .arrayIndexOutOfBounds) := by
  unfold AID.equals
  by_cases h : (l.length : Int) < off + n
  · right; simp only [h, if_true]; exact ⟨by omega, trivial⟩
  · left
    simp only [h, if_false]
    refine ⟨by omega, _, rfl, ?_⟩
    rw [slice_add, decide_eq_true_iff]
    exact eq_comm

/-- C11: `__eq__` is equality of the bytes. -/
theorem C11_eq (a b : AID) : a.eq b = true ↔ a.aid = b.aid := by simp [AID.eq]

/-- C11: after a successful `getBytes`, `equals` on the written range is true, and an AID rebuilt
from it equals the original. -/
theorem C11_roundtrip (a : AID) (ha : ValidAID a) (dest : List Int) (off : Nat)
    (h : off + a.aid.length ≤ dest.length) :
    a.equals (a.getBytes dest off).2 off a.aid.length = .ok true ∧
    ∃ b, AID.mk' (a.getBytes dest off).2 off a.aid.length = .ok b ∧ b.eq a = true := by
  rcases C11_getBytes a dest off with ⟨_, _, hw⟩ | ⟨c, _⟩
  · have hr : range (a.getBytes dest off).2 off a.aid.length = a.aid := by
      apply List.ext_getElem?
      intro j
      simp only [range, List.getElem?_take, List.getElem?_drop]
      by_cases hj : j < a.aid.length
      · simp only [hj, if_true]
        rw [hw.2.2.1 j hj]
        simp [hj]
      · simp [hj]
    have hlen := hw.2.1
    constructor
    · rcases C11_equals a (a.getBytes dest off).2 off a.aid.length with ⟨_, b, e, hb⟩ | ⟨c, _⟩
      · rw [e, hb.2 hr]
      · omega
    · obtain ⟨h5, h16⟩ := ha
      rcases C10_construct (a.getBytes dest off).2 off a.aid.length with
        ⟨c, _⟩ | ⟨_, _, c, _⟩ | ⟨_, _, _, b, e, hb⟩
      · omega
      · omega
      · refine ⟨b, e, ?_⟩
        rw [C11_eq, hb]
        simpa using hr
  · omega

example : ValidAID ⟨[1, 2, 3, 4, 5]⟩ ∧
    (AID.mk [1, 2, 3, 4, 5]).getBytes [0, 0, 0, 0, 0, 0, 7] 1 = (.ok 5, [0, 1, 2, 3, 4, 5, 7]) := by
  unfold ValidAID; decide

/-! ### C12 -/

/-- C12: `partialEquals` is true exactly when the `n` bytes at the offset are the first `n` bytes
of the AID; it raises exactly when the AID or the array is too short. -/
theorem C12_partialEquals (a : AID) (l : List Int) (off n : Nat) :
    (n ≤ a.aid.length ∧ off + n ≤ l.length ∧
      ∃ b, a.partialEquals l off n = .ok b ∧ (b = true ↔ range l off n = range a.aid 0 n)) ∨
    ((a.aid.length < n ∨ l.length < off + n) ∧
      a.partialEquals l off n = .error .arrayIndexOutOfBounds) := by
  unfold AID.partialEquals
  by_cases h : (a.aid.length : Int) < n
  · right; simp only [h, if_true]; exact ⟨by omega, trivial⟩
  · by_cases h2 : (l.length : Int) < off + n
    · right; simp only [h, h2, if_true, if_false]; exact ⟨by omega, trivial⟩
    · left
      simp only [h, h2, if_false]
      refine ⟨by omega, by omega, _, rfl, ?_⟩
      rw [slice_add, sliceTo_natCast, decide_eq_true_iff]
      simp only [range, List.drop_zero]
      exact eq_comm

/-- C12: `RIDEquals` is true exactly when the first five bytes agree. -/
theorem C12_RIDEquals (a b : AID) : a.RIDEquals b = true ↔ ∀ i < 5, a.aid[i]? = b.aid[i]? := by
  unfold AID.RIDEquals
  have e : ∀ l : List Int, sliceTo l 5 = l.take 5 := fun l => sliceTo_natCast l 5
  rw [e, e, decide_eq_true_iff]
  constructor
  · intro h i hi
    have := congrArg (fun l => l[i]?) h
    simpa [List.getElem?_take, hi] using this
  · intro h
    apply List.ext_getElem?
    intro i
    simp only [List.getElem?_take]
    split
    · next hi => exact h i hi
    · rfl

/-- C12: RID equality is an equivalence relation, implied by equality. -/
theorem C12_equivalence :
    (∀ a : AID, a.RIDEquals a = true) ∧
    (∀ a b : AID, a.RIDEquals b = true → b.RIDEquals a = true) ∧
    (∀ a b c : AID, a.RIDEquals b = true → b.RIDEquals c = true → a.RIDEquals c = true) ∧
    (∀ a b : AID, a.eq b = true → a.RIDEquals b = true) := by
  refine ⟨?_, ?_, ?_, ?_⟩
  · intro a; rw [C12_RIDEquals]; intros; rfl
  · intro a b h; rw [C12_RIDEquals] at *; intro i hi; exact (h i hi).symm
  · intro a b c h h'; rw [C12_RIDEquals] at *; intro i hi; exact (h i hi).trans (h' i hi)
  · intro a b h; rw [C11_eq] at h; rw [C12_RIDEquals, h]; intros; rfl

example : (AID.mk [1, 2, 3, 4, 5, 6]).RIDEquals ⟨[1, 2, 3, 4, 5, 7]⟩ = true ∧
    (AID.mk [1, 2, 3, 4, 5, 6]).eq ⟨[1, 2, 3, 4, 5, 7]⟩ = false ∧
    (AID.mk [1, 2, 3, 4, 5, 6]).partialEquals [9, 1, 2] 1 2 = .ok true := by decide

/-! ### C13 -/

/-- C13: every call of `getPartialBytes`, with any arguments, raises and leaves the destination
unchanged. -/
theorem C13_never_succeeds (a : AID) (aidOff : Int) (dest : List Int) (off len : Int) :
    (a.getPartialBytes aidOff dest off len = (.error .arrayIndexOutOfBounds, dest) ∨
     a.getPartialBytes aidOff dest off len = (.error .nameError, dest)) := by
  unfold AID.getPartialBytes
  simp only
  generalize (if len = 0 then (a.aid.length : Int) else len) = k
  split
  · left; rfl
  · split
    · left; rfl
    · right; rfl

/-- C13: in particular inside its documented domain (both ranges in bounds) it raises
`NameError`. -/
theorem C13_documented_domain (a : AID) (aidOff off len : Nat) (dest : List Int) (hl : 0 < len)
    (h1 : aidOff + len ≤ a.aid.length) (h2 : off + len ≤ dest.length) :
    a.getPartialBytes aidOff dest off len = (.error .nameError, dest) := by
  unfold AID.getPartialBytes
  have h0 : ¬ (len : Int) = 0 := by omega
  simp only [h0, if_false]
  rw [if_neg (by omega), if_neg (by omega)]

/-- C13: which exception, for all offsets and lengths of either sign. Length 0 stands for the whole AID. -/
theorem C13_which (a : AID) (aidOff : Int) (dest : List Int) (off len : Int) :
    (len ≠ 0 → (a.getPartialBytes aidOff dest off len).1 =
      if off + len ≤ dest.length ∧ aidOff + len ≤ a.aid.length then .error .nameError else .error .arrayIndexOutOfBounds) ∧
    (a.getPartialBytes aidOff dest off 0).1 =
      if off + a.aid.length ≤ dest.length ∧ aidOff ≤ 0 then .error .nameError else .error .arrayIndexOutOfBounds := by
  unfold AID.getPartialBytes
  constructor
  · intro h
    simp only [h, if_false]
    by_cases h1 : (dest.length : Int) < off + len
    · rw [if_pos h1, if_neg (by omega)]
    · rw [if_neg h1]
      by_cases h2 : (a.aid.length : Int) < aidOff + len
      · rw [if_pos h2, if_neg (by omega)]
      · rw [if_neg h2, if_pos (by omega)]
  · simp only [if_true]
    by_cases h1 : (dest.length : Int) < off + a.aid.length
    · rw [if_pos h1, if_neg (by omega)]
    · rw [if_neg h1]
      by_cases h2 : (a.aid.length : Int) < aidOff + a.aid.length
      · rw [if_pos h2, if_neg (by omega)]
      · rw [if_neg h2, if_pos (by omega)]

example : (1 + 2 ≤ [1, 2, 3, 4, 5].length) ∧
    (AID.mk [1, 2, 3, 4, 5]).getPartialBytes 1 [0, 0] 0 2 = (.error .nameError, [0, 0]) := by decide

end Verif.Props
