import Verif.Props.DESCipher
import Verif.Model.Digest
import Verif.Model.JCSystem
/-! C65-C68: message digests, random data, signatures, JCSystem arrays. -/
namespace Verif.Props
open Verif.Py Verif.Model Verif.Spec

/-! ### C65: specification -/

/-- A call on a message digest object, with array offsets from 0. -/
inductive DigestCall where
  | update (inB : List Int) (io n : Nat)
  | doFinal (inB : List Int) (io n : Nat) (outB : List Int) (oo : Nat)
  | reset

/-- The call on the model. -/
def DigestCall.op : DigestCall → MessageDigest.Op
  | .update b o n => .update b o n
  | .doFinal b o n b' o' => .doFinal b o n b' o'
  | .reset => .reset

/-- The range lies in the array (an empty range always does). -/
def InArray (b : List Int) (o n : Nat) : Prop := n = 0 ∨ o + n ≤ b.length

instance (b : List Int) (o n : Nat) : Decidable (InArray b o n) := inferInstanceAs (Decidable (_ ∨ _))

/-- The bytes not yet hashed after a history of calls: `update` adds the bytes it names (nothing if they are not all there),
`doFinal` (on a range that is there) and `reset` forget them. -/
def pending : List DigestCall → List Nat → List Nat
  | [], p => p
  | .update b o n :: rest, p => pending rest (if InArray b o n then p ++ (range b o n).map valueOf else p)
  | .doFinal b o n _ _ :: rest, p => pending rest (if InArray b o n then [] else p)
  | .reset :: rest, _ => pending rest []

/-! ### C65: the loops -/

theorem readLoop_eq (b : List Int) (o i n : Nat) :
    MessageDigest.readLoop b o i n = if n = 0 ∨ o + i + n ≤ b.length then .ok (range b (o + i) n) else .error .indexError := by
  induction n generalizing i with
  | zero => simp [MessageDigest.readLoop, range]
  | succ n ih =>
    unfold MessageDigest.readLoop
    by_cases h : o + i < b.length
    · have hg : get b ((o : Int) + (i : Int)) = .ok b[o + i] := by
        rw [show (o : Int) + (i : Int) = ((o + i : Nat) : Int) by omega]
        exact get_natCast _ _ h
      rw [hg]
      simp only
      rw [ih]
      by_cases h' : n = 0 ∨ o + (i + 1) + n ≤ b.length
      · rw [if_pos h', if_pos (by omega)]
        simp only
        congr 1
        unfold range
        rw [show o + (i + 1) = o + i + 1 by omega, take_succ_drop _ _ _ h]
      · rw [if_neg h', if_neg (by omega)]
    · have hg : get b ((o : Int) + (i : Int)) = .error .indexError := by
        rw [show (o : Int) + (i : Int) = ((o + i : Nat) : Int) by omega]
        exact get_natCast_out _ _ (by omega)
      rw [hg, if_neg (by omega)]

theorem update_eq (d : MessageDigest) (b : List Int) (o n : Nat) :
    d.update b o n = if InArray b o n then (.ok (), { d with m := d.m ++ (range b o n).map valueOf }) else (.error .nameError, d) := by
  unfold MessageDigest.update
  simp only [rangeLen, Int.toNat_natCast]
  rw [readLoop_eq, Nat.add_zero]
  by_cases h : n = 0 ∨ o + n ≤ b.length
  · rw [if_pos h, if_pos (show InArray b o n from h)]
    simp only
    rw [binary_values]
  · rw [if_neg h, if_neg (show ¬ InArray b o n from h)]

theorem writeLoop_eq (b : List Int) (o i : Nat) (vs : List Nat) :
    MessageDigest.writeLoop b o i vs =
      (let k := min vs.length (b.length - (o + i))
       (outcome k vs.length, splice b (o + i) ((vs.take k).map fun (v : Nat) => s1 (v : Int)))) := by
  induction vs generalizing b i with
  | nil => simp [MessageDigest.writeLoop, outcome, splice_nil]
  | cons v vs ih =>
    unfold MessageDigest.writeLoop
    by_cases h : o + i < b.length
    · rw [set_step _ _ _ _ h]
      simp only
      rw [ih]
      simp only [List.length_set, List.length_cons]
      have hk : min (vs.length + 1) (b.length - (o + i)) = min vs.length (b.length - (o + (i + 1))) + 1 := by omega
      rw [hk]
      generalize hkk : min vs.length (b.length - (o + (i + 1))) = k
      rw [show o + (i + 1) = o + i + 1 by omega, set_splice _ _ _ _ (by simp; omega), List.take_succ_cons, List.map_cons]
      have : (k = vs.length) ↔ (k + 1 = vs.length + 1) := by omega
      simp only [outcome, this]
    · rw [set_step_out _ _ _ _ (by omega)]
      have hk : min (v :: vs).length (b.length - (o + i)) = 0 := by omega
      rw [hk]
      simp [outcome, splice_nil]

theorem digest_run (H : HashLib) (calls : List DigestCall) (d : MessageDigest) :
    d.run H (calls.map DigestCall.op) = ⟨d.algorithm, pending calls d.m⟩ := by
  induction calls generalizing d with
  | nil => rfl
  | cons c cs ih =>
    show MessageDigest.run H (MessageDigest.step H d c.op) (cs.map DigestCall.op) = _
    rw [ih]
    cases c with
    | update b o n =>
      simp only [DigestCall.op, MessageDigest.step, pending]
      rw [update_eq]
      split <;> rfl
    | reset => rfl
    | doFinal b o n b' o' =>
      simp only [DigestCall.op, MessageDigest.step, pending]
      unfold MessageDigest.doFinal
      rw [update_eq]
      by_cases hi : InArray b o n
      · rw [if_pos hi, if_pos hi]
        simp only
        split <;> rfl
      · rw [if_neg hi, if_neg hi]

/-- C65. After any history of `update`, `doFinal` and `reset` calls, `doFinal` puts at the output offset, as signed bytes, the hash of
exactly the pending bytes followed by its input - and nothing else - and returns the digest length. `H alg` is the hash function of
the algorithm, with outputs of `L` bytes. -/
theorem C65_history (H : HashLib) (alg : Int) (L : Nat) (hH : ∀ m, (H alg m).length = L ∧ ∀ x ∈ H alg m, x < 256) (d : MessageDigest)
    (hd : MessageDigest.getInstance alg = .ok d) (calls : List DigestCall) (inB : List Int) (io n : Nat) (hin : InArray inB io n) (outB : List Int) (oo : Nat)
    (hout : oo + L ≤ outB.length) :
    ∃ out d', (d.run H (calls.map DigestCall.op)).doFinal H inB io n outB oo = (.ok (L : Int), out, d') ∧
      Written outB out oo ((H alg (pending calls [] ++ (range inB io n).map valueOf)).map signedCell) := by
  have he : d = ⟨alg, []⟩ := by
    unfold MessageDigest.getInstance at hd
    split at hd
    · injection hd with hd; exact hd.symm
    · cases hd
  rw [digest_run, he]
  unfold MessageDigest.doFinal
  rw [update_eq, if_pos hin]
  simp only
  obtain ⟨h1, h2⟩ := hH (pending calls [] ++ (range inB io n).map valueOf)
  rw [writeLoop_eq]
  simp only [Nat.add_zero]
  have hk : min (H alg (pending calls [] ++ (range inB io n).map valueOf)).length (outB.length - oo) = (H alg (pending calls [] ++ (range inB io n).map valueOf)).length := by omega
  rw [hk]
  simp only [outcome, if_true, List.take_length]
  refine ⟨_, _, by rw [(hH []).1], ?_⟩
  have e : (H alg (pending calls [] ++ (range inB io n).map valueOf)).map (fun (v : Nat) => s1 (v : Int)) =
      (H alg (pending calls [] ++ (range inB io n).map valueOf)).map signedCell := binary_cells _ h2
  rw [e]
  exact written_splice _ _ _ (by rw [List.length_map]; omega)

/-- C65. How the bytes were cut into `update` calls does not matter: only their concatenation. -/
theorem C65_splitting (pieces : List (List Int)) :
    pending (pieces.map fun b => .update b 0 b.length) [] = (pieces.flatten).map valueOf := by
  have key : ∀ (pieces : List (List Int)) p, pending (pieces.map fun b => .update b 0 b.length) p = p ++ (pieces.flatten).map valueOf := by
    intro pieces
    induction pieces with
    | nil => intro p; simp [pending]
    | cons b bs ih =>
      intro p
      show pending (bs.map fun b => .update b 0 b.length) (if InArray b 0 b.length then p ++ (range b 0 b.length).map valueOf else p) = _
      rw [if_pos (.inr (by omega)), ih]
      simp [range]
  simpa using key pieces []

/-- C65. An input range outside the array makes `update` and `doFinal` raise (NameError: the exception class is not imported),
and the pending bytes stay; an output range outside the array makes `doFinal` raise too, after writing the part that fits, and the
digest is reset. -/
theorem C65_failures (H : HashLib) (alg : Int) (d : MessageDigest) (hd : MessageDigest.getInstance alg = .ok d) (calls : List DigestCall)
    (inB : List Int) (io n : Nat) (outB : List Int) (oo : Nat) :
    (¬ InArray inB io n → (d.run H (calls.map DigestCall.op)).update inB io n = (.error .nameError, d.run H (calls.map DigestCall.op)) ∧
      (d.run H (calls.map DigestCall.op)).doFinal H inB io n outB oo = (.error .nameError, outB, d.run H (calls.map DigestCall.op))) ∧
    (InArray inB io n → outB.length < oo + (H alg (pending calls [] ++ (range inB io n).map valueOf)).length →
      (∀ x ∈ H alg (pending calls [] ++ (range inB io n).map valueOf), x < 256) → oo ≤ outB.length →
      ∃ out, (d.run H (calls.map DigestCall.op)).doFinal H inB io n outB oo = (.error .nameError, out, d) ∧
        Written outB out oo (((H alg (pending calls [] ++ (range inB io n).map valueOf)).take (outB.length - oo)).map signedCell)) := by
  have he : d = ⟨alg, []⟩ := by
    unfold MessageDigest.getInstance at hd
    split at hd
    · injection hd with hd; exact hd.symm
    · cases hd
  constructor
  · intro hi
    unfold MessageDigest.doFinal
    rw [update_eq, if_neg hi]
    exact ⟨rfl, rfl⟩
  · intro hi ho hx hoo
    rw [digest_run, he]
    unfold MessageDigest.doFinal
    rw [update_eq, if_pos hi]
    simp only
    rw [writeLoop_eq]
    simp only [Nat.add_zero]
    generalize H alg (pending calls [] ++ (range inB io n).map valueOf) = h at ho hx
    have hk : min h.length (outB.length - oo) = outB.length - oo := by omega
    rw [hk]
    unfold outcome
    rw [if_neg (by omega)]
    simp only
    refine ⟨_, rfl, ?_⟩
    have e : (h.take (outB.length - oo)).map (fun (v : Nat) => s1 (v : Int)) = (h.take (outB.length - oo)).map signedCell :=
      binary_cells _ (fun x hx' => hx x (List.mem_of_mem_take hx'))
    rw [e]
    exact written_splice _ _ _ (by rw [List.length_map, List.length_take]; omega)

/-- C65. The supported algorithms are 1 to 11; any other raises KeyError; getInitializedMessageDigestInstance always raises
NO_SUCH_ALGORITHM. -/
theorem C65_getInstance (alg : Int) :
    ((1 ≤ alg ∧ alg ≤ 11) → ∃ d, MessageDigest.getInstance alg = .ok d ∧ d.algorithm = alg) ∧
    (¬ (1 ≤ alg ∧ alg ≤ 11) → MessageDigest.getInstance alg = .error .keyError) ∧
    MessageDigest.getInitializedInstance alg = .error (.crypto 3) := by
  unfold MessageDigest.getInstance digestAlgorithms
  refine ⟨?_, ?_, rfl⟩
  · intro h
    rw [if_pos (by simp only [List.mem_cons, List.not_mem_nil, or_false]; omega)]
    exact ⟨_, rfl, rfl⟩
  · intro h
    rw [if_neg (by simp only [List.mem_cons, List.not_mem_nil, or_false]; omega)]

example : pending [.update [1, 2, 3] 0 3, .update [1, -1] 1 1, .reset, .update [200, -1, 5] 1 2, .update [1] 0 2, .doFinal [1] 3 4 [] 0] [9] = [255, 5] := by decide

/-! ### C66 -/

theorem genLoop_eq (rnd : Nat → Nat) (b : List Int) (o i n : Nat) :
    RandomData.genLoop rnd b o i n =
      (let k := min n (b.length - (o + i))
       (outcome k n, splice b (o + i) ((List.range' i k).map fun j => (rnd j : Int)))) := by
  induction n generalizing b i with
  | zero => simp [RandomData.genLoop, outcome, splice_nil]
  | succ n ih =>
    unfold RandomData.genLoop
    by_cases h : o + i < b.length
    · rw [set_step _ _ _ _ h]
      simp only
      rw [ih]
      simp only [List.length_set]
      have hk : min (n + 1) (b.length - (o + i)) = min n (b.length - (o + (i + 1))) + 1 := by omega
      rw [hk]
      generalize hkk : min n (b.length - (o + (i + 1))) = k
      rw [show o + (i + 1) = o + i + 1 by omega, set_splice _ _ _ _ (by simp; omega), List.range'_succ, List.map_cons]
      have : (k = n) ↔ (k + 1 = n + 1) := by omega
      simp only [outcome, this]
    · rw [set_step_out _ _ _ _ (by omega)]
      have hk : min (n + 1) (b.length - (o + i)) = 0 := by omega
      simp [hk, outcome, splice_nil]

/-- C66. For every random source: when the range lies in the buffer, its cells become the next `n` bytes drawn, in order, unsigned,
and nothing else changes; otherwise the cells that exist are filled and NameError is raised (the exception's name is misspelt);
length 0 is refused with ILLEGAL_VALUE, a negative length silently does nothing. -/
theorem C66_generate (rnd : Nat → Nat) (b : List Int) (o n : Nat) (hn : 0 < n) :
    (o + n ≤ b.length → ∃ b', RandomData.generateData rnd b o n = (.ok (), b') ∧ Written b b' o ((List.range n).map fun j => (rnd j : Int))) ∧
    (o ≤ b.length → b.length < o + n →
      ∃ b', RandomData.generateData rnd b o n = (.error .nameError, b') ∧ Written b b' o ((List.range (b.length - o)).map fun j => (rnd j : Int))) ∧
    (b.length < o → RandomData.generateData rnd b o n = (.error .nameError, b)) := by
  unfold RandomData.generateData
  rw [if_neg (by omega)]
  simp only [rangeLen, Int.toNat_natCast]
  rw [genLoop_eq]
  simp only [Nat.add_zero]
  refine ⟨?_, ?_, ?_⟩
  · intro h
    rw [show min n (b.length - o) = n by omega]
    simp only [outcome, if_true]
    refine ⟨_, rfl, ?_⟩
    rw [← List.range_eq_range']
    exact written_splice _ _ _ (by simp; omega)
  · intro h1 h2
    rw [show min n (b.length - o) = b.length - o by omega]
    unfold outcome
    rw [if_neg (by omega)]
    refine ⟨_, rfl, ?_⟩
    rw [← List.range_eq_range']
    exact written_splice _ _ _ (by simp; omega)
  · intro h
    rw [show min n (b.length - o) = 0 by omega]
    unfold outcome
    rw [if_neg (by omega)]
    simp [splice_nil]

theorem C66_other_lengths (rnd : Nat → Nat) (b : List Int) (o n : Int) :
    (n = 0 → RandomData.generateData rnd b o n = (.error (.crypto 1), b)) ∧ (n < 0 → RandomData.generateData rnd b o n = (.ok (), b)) := by
  unfold RandomData.generateData
  constructor
  · intro h; rw [if_pos h]; rfl
  · intro h
    rw [if_neg (by omega)]
    have : rangeLen n = 0 := by unfold rangeLen; omega
    rw [this]
    rfl

/-- C66. The cells are bytes 0..255 when the source gives bytes - so, in Java Card terms, cells of 128 and more are not byte values. -/
theorem C66_unsigned (rnd : Nat → Nat) (hr : ∀ j, rnd j < 256) (b : List Int) (o n : Nat) (hn : 0 < n) (h : o + n ≤ b.length) :
    ∃ b', RandomData.generateData rnd b o n = (.ok (), b') ∧ ∀ i, i < n → ∃ v, b'[o + i]? = some v ∧ 0 ≤ v ∧ v ≤ 255 ∧ v = rnd i := by
  obtain ⟨b', h1, h2⟩ := (C66_generate rnd b o n hn).1 h
  refine ⟨b', h1, ?_⟩
  intro i hi
  have := h2.2.2.1 i (by simpa using hi)
  refine ⟨_, this, ?_⟩
  have := hr i
  simp
  omega

/-- C66. Only ALG_SECURE_RANDOM (2) is supported. -/
theorem C66_getInstance (alg : Int) : RandomData.getInstance alg = if alg = 2 then .ok () else .error (.crypto 3) := rfl

/-! ### C67 -/

/-- C67. `Signature.getInstance` raises TypeError for every argument list. -/
theorem C67_never (args : List Int) : signatureGetInstance args = .error .typeError := rfl

/-! ### C68 -/

/-- C68. Arrays from JCSystem have the requested length and hold the default value of their type in every cell. -/
theorem C68_arrays (n : Nat) (event : Int) :
    JCSystem.makeTransientShortArray n event = List.replicate n (.int 0) ∧
    JCSystem.makeTransientBooleanArray n event = List.replicate n (.bool false) ∧
    JCSystem.makeTransientObjectArray n event = List.replicate n .none ∧
    JCSystem.makeGlobalArray 1 n = .ok (List.replicate n (.bool false)) ∧
    JCSystem.makeGlobalArray 2 n = .ok (List.replicate n (.int 0)) ∧
    JCSystem.makeGlobalArray 3 n = .ok (List.replicate n (.int 0)) ∧
    JCSystem.makeGlobalArray 4 n = .ok (List.replicate n (.int 0)) ∧
    JCSystem.makeGlobalArray 5 n = .ok (List.replicate n .none) := by
  have h : ¬ ((n : Int) < 0) := by omega
  refine ⟨rfl, rfl, rfl, ?_, ?_, ?_, ?_, ?_⟩ <;> (unfold JCSystem.makeGlobalArray; rw [if_neg h]; rfl)

/-- C68. `makeGlobalArray` refuses negative lengths (NameError) and unknown types (KeyError), and nothing else; the transient
makers treat a negative length as 0. -/
theorem C68_refused (type length event : Int) :
    (JCSystem.makeGlobalArray type length = .error .nameError ↔ length < 0) ∧
    (JCSystem.makeGlobalArray type length = .error .keyError ↔ 0 ≤ length ∧ ¬ (1 ≤ type ∧ type ≤ 5)) ∧
    (length < 0 → JCSystem.makeTransientShortArray length event = [] ∧ JCSystem.makeTransientBooleanArray length event = [] ∧
      JCSystem.makeTransientObjectArray length event = []) := by
  refine ⟨?_, ?_, ?_⟩
  · unfold JCSystem.makeGlobalArray
    constructor
    · intro h
      by_cases hl : length < 0
      · exact hl
      · rw [if_neg hl] at h
        repeat' split at h
        all_goals first | cases h | (injection h with h; cases h)
    · intro h; rw [if_pos h]
  · unfold JCSystem.makeGlobalArray
    constructor
    · intro h
      by_cases hl : length < 0
      · rw [if_pos hl] at h; injection h with h; cases h
      · rw [if_neg hl] at h
        refine ⟨by omega, ?_⟩
        rintro ⟨h1, h2⟩
        repeat' split at h
        all_goals first | omega | cases h
    · rintro ⟨h1, h2⟩
      rw [if_neg (by omega), if_neg (by omega), if_neg (by omega), if_neg (by omega), if_neg (by omega), if_neg (by omega)]
  · intro h
    have e : rangeLen length = 0 := by unfold rangeLen; omega
    unfold JCSystem.makeTransientShortArray JCSystem.makeTransientBooleanArray JCSystem.makeTransientObjectArray fresh
    rw [e]
    exact ⟨rfl, rfl, rfl⟩

/-- C68. `getAvailableMemory(buffer, offset, type)` writes the bytes 7F and FF (the latter as 255, not -1) and nothing else; with
one argument it returns 0x7FFF. Where it does not fit it raises NameError, having written 7F if only the second byte does not fit. -/
theorem C68_memory (b : List Int) (o : Nat) (t : Int) :
    JCSystem.getAvailableMemory1 t = .ok 32767 ∧
    (o + 2 ≤ b.length → ∃ b', JCSystem.getAvailableMemory3 (some b) o t = (.ok (), some b') ∧ Written b b' o [127, 255]) ∧
    (o + 1 = b.length → ∃ b', JCSystem.getAvailableMemory3 (some b) o t = (.error .nameError, some b') ∧ Written b b' o [127]) ∧
    (b.length ≤ o → JCSystem.getAvailableMemory3 (some b) o t = (.error .nameError, some b)) ∧
    JCSystem.getAvailableMemory3 none o t = (.error .nameError, none) := by
  refine ⟨rfl, ?_, ?_, ?_, rfl⟩
  · intro h
    unfold JCSystem.getAvailableMemory3
    simp only
    rw [set_natCast _ _ _ (by omega)]
    simp only
    rw [show (o : Int) + 1 = ((o + 1 : Nat) : Int) by omega, set_natCast _ _ _ (by simp; omega)]
    refine ⟨_, rfl, ?_⟩
    rw [← splice_one (b.set o 127) (o + 1) 255 (by simp; omega), set_splice _ _ _ _ (by simp; omega)]
    exact written_splice _ _ _ (by simp; omega)
  · intro h
    unfold JCSystem.getAvailableMemory3
    simp only
    rw [set_natCast _ _ _ (by omega)]
    simp only
    rw [show (o : Int) + 1 = ((o + 1 : Nat) : Int) by omega, set_out _ _ _ (by simp; omega)]
    refine ⟨_, rfl, ?_⟩
    rw [← splice_one _ _ _ (by omega)]
    exact written_splice _ _ _ (by simp; omega)
  · intro h
    unfold JCSystem.getAvailableMemory3
    simp only
    rw [set_out _ _ _ (by omega)]

example : ∃ b', JCSystem.getAvailableMemory3 (some [1, 2, 3]) 1 0 = (.ok (), some b') ∧ Written [1, 2, 3] b' 1 [127, 255] :=
  (C68_memory [1, 2, 3] 1 0).2.1 (by decide)

end Verif.Props
