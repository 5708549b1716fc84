import Verif.Props.CipherHist
/-! C107: what an RSA cipher makes of any data, at any offsets, after any history. -/
namespace Verif.Props
open Verif.Py Verif.Model Verif.Spec

/-- Specification: the number a row of cells stands for, least significant cell first. -/
def leValue : List Int → Int
  | [] => 0
  | x :: xs => x + 256 * leValue xs

/-- Specification: the cells of a number: bytes, least significant first, without zeros at the end (zero is one cell). -/
def LECells (R : List Int) (y : Nat) : Prop := Unsigned R ∧ leValue R = y ∧ R ≠ [] ∧ (0 < y → R.getLast? ≠ some 0) ∧ (y = 0 → R = [0])

/-- Specification: the text in a padded block: what follows the first 0 behind 0, 2 and any third cell. -/
def pkcs1Text (B : List Int) : Except Err (List Int) :=
  if B.take 2 ≠ [0, 2] then .error (.crypto 1)
  else match (B.drop 3).dropWhile (· ≠ 0) with
    | [] => .error .valueError
    | _ :: T => .ok T

/-- Specification: the block worked on for the message `M`: padded at random when encrypting with PKCS1, otherwise `M` itself. -/
def WorkBlock (alg mode : Int) (size : Int) (M B : List Int) : Prop :=
  if alg = 10 ∧ mode = 2 then IsPKCS1Block (size / 8) M B else B = M ∧ (M.length : Int) = size / 8

/-- Specification: the message has an acceptable length. -/
def FitsRSA (alg mode : Int) (size : Int) (n : Nat) : Prop :=
  if alg = 10 ∧ mode = 2 then (n : Int) + 11 ≤ size / 8 else (n : Int) = size / 8

theorem leValue_eq (l : List Int) : arrayToLong l = leValue l := by
  induction l with
  | nil => rfl
  | cons x xs ih => rw [arrayToLong_cons, ih]; rfl

theorem leCells_long (y : Nat) : LECells (longToArray true y) y := by
  obtain ⟨h1, h2, h3⟩ := longToArray_props y
  exact ⟨h1, by rw [← leValue_eq]; exact C50_py2 y, h2, h3, by rintro rfl; rfl⟩

theorem pkcs1Text_eq (B : List Int) : RSACipher.emeDec B = pkcs1Text B := by
  obtain ⟨h1, h2, h3⟩ := C63_unpad B
  unfold pkcs1Text
  by_cases ht : B.take 2 = [0, 2]
  · rw [if_neg (fun h => h ht)]
    rcases split_at_zero (B.drop 3) with hz | ⟨PS, M, hd, hz⟩
    · rw [h3 ht hz]
      have : (B.drop 3).dropWhile (· ≠ 0) = [] := by
        generalize B.drop 3 = l at hz
        induction l with
        | nil => rfl
        | cons x xs ih =>
          rw [List.dropWhile_cons_of_pos (by simpa using hz x (by simp))]
          exact ih (fun y hy => hz y (by simp [hy]))
      rw [this]
    · have hdw : (PS ++ 0 :: M).dropWhile (· ≠ 0) = 0 :: M := by
        clear hd
        induction PS with
        | nil => simp
        | cons x xs ih =>
          rw [List.cons_append, List.dropWhile_cons_of_pos (by simpa using hz x (by simp))]
          exact ih (fun y hy => hz y (by simp [hy]))
      rw [hd, hdw]
      refine (h1 M).2 ⟨(B.drop 2).headD 0, PS, ?_, hz⟩
      match B, ht, hd with
      | [], ht, _ => simp at ht
      | [_], ht, _ => simp at ht
      | [_, _], _, hd => simp at hd
      | a :: b :: p :: rest, ht, hd =>
        simp only [List.take_succ_cons, List.take_zero, List.cons.injEq, and_true] at ht
        simp only [List.drop_succ_cons, List.drop_zero] at hd
        rw [ht.1, ht.2, hd]
        rfl
  · rw [h2 ht, if_pos ht]

/-- What `doFinal` returns at the end. -/
theorem rsaOutput_any (T outB : List Int) (oo : Int) :
    (T = [] ∨ Reachable outB.length oo T.length → ∃ out, rsaOutput T outB oo = some (.ok T.length, out) ∧ Stored outB out oo T.length (fun j => T.getD j 0)) ∧
    (¬ (T = [] ∨ Reachable outB.length oo T.length) → ∃ out, rsaOutput T outB oo = some (.error .arrayIndexOutOfBounds, out)) := by
  obtain ⟨h1, h2⟩ := arrayCopy_whole T outB oo
  unfold rsaOutput
  constructor
  · intro h
    obtain ⟨d, e, hs⟩ := h1 h.symm
    rw [e]
    exact ⟨d, rfl, hs⟩
  · intro h
    have := h2 (fun h' => h h'.symm)
    revert this
    cases Util.arrayCopy T 0 outB oo T.length with
    | mk a b =>
      intro ha
      simp only at ha
      subst ha
      exact ⟨b, rfl⟩

/-- `doFinal` of an RSA cipher after a history that has set a key and a mode. -/
theorem rsaAfter_doFinal (alg : Int) (h : List InitCall) (r : Nat) (m : Int) (hr : rsaKeyAfter h = some r) (hm : rsaModeAfter h = some m) (heap : KeyHeap) (k : RSAKey)
    (hk : heap r = .rsa k) (ops : RSAOps) (ls : Bool) (rnd : List Nat) (inB : List Int) (io il : Int) (outB : List Int) (oo : Int) :
    (rsaInits (RSACipher.new alg) h).doFinal heap ops ls rnd inB io il outB oo =
      match Util.arrayCopy inB io (fresh il 0) 0 il with
      | (.error e, _) => some (.error e, outB)
      | (.ok (), data) =>
        match (if alg = 10 ∧ m = 2 then RSACipher.emeEnc rnd k.size data else some (.ok data)) with
        | none => none
        | some (.error e) => some (.error e, outB)
        | some (.ok d) =>
          if (d.length : Int) ≠ k.size / 8 then some (.error (.crypto 1), outB)
          else match k.theKey with
          | none => some (.error .attributeError, outB)
          | some hd => match (if m = 2 ∨ k.isPublic = true then ops.enc hd (leValue d) else ops.dec hd (leValue d)) with
            | .error e => some (.error e, outB)
            | .ok res => match (if alg = 10 ∧ m = 1 then pkcs1Text (longToArray ls res) else .ok (longToArray ls res)) with
              | .error e => some (.error e, outB)
              | .ok b => rsaOutput b outB oo := by
  rw [rsaHist, hr, hm]
  unfold RSACipher.doFinal
  simp only [Option.isSome_some, not_true_eq_false, if_false, Option.map_some, hk, MODE_ENCRYPT, MODE_DECRYPT, Option.some.injEq, ILLEGAL_VALUE, leValue_eq, pkcs1Text_eq]
  rcases Util.arrayCopy inB io (fresh il 0) 0 il with ⟨a | a, data⟩
  · rfl
  · simp only
    rcases (if alg = 10 ∧ m = 2 then RSACipher.emeEnc rnd k.size data else some (.ok data)) with _ | (e | d)
    · rfl
    · rfl
    · simp only
      by_cases hd : (d.length : Int) ≠ k.size / 8
      · rw [if_pos hd, if_pos hd]
      · rw [if_neg hd, if_neg hd]
        cases k.theKey with
        | none => rfl
        | some hd =>
          simp only
          have e : (if m = 2 then ops.enc hd (leValue d) else if k.isPublic = true then ops.enc hd (leValue d) else ops.dec hd (leValue d)) =
              (if m = 2 ∨ k.isPublic = true then ops.enc hd (leValue d) else ops.dec hd (leValue d)) := by
            by_cases h1 : m = 2
            · rw [if_pos h1, if_pos (Or.inl h1)]
            · by_cases h2 : k.isPublic = true
              · rw [if_neg h1, if_pos h2, if_pos (Or.inr h2)]
              · rw [if_neg h1, if_neg h2, if_neg (fun h => h.elim h1 h2)]
          rw [e]
          rfl

/-- C107. Input that is not there, and messages of the wrong length, are refused and nothing is written - before the key is looked at. -/
theorem C107_refused (alg : Int) (h : List InitCall) (r : Nat) (m : Int) (hr : rsaKeyAfter h = some r) (hm : rsaModeAfter h = some m) (heap : KeyHeap) (k : RSAKey)
    (hk : heap r = .rsa k) (ops : RSAOps) (ls : Bool) (rnd : List Nat) (inB : List Int) (io il : Int) (outB : List Int) (oo : Int) :
    (¬ (il ≤ 0 ∨ Reachable inB.length io il.toNat) →
      (rsaInits (RSACipher.new alg) h).doFinal heap ops ls rnd inB io il outB oo = some (.error .arrayIndexOutOfBounds, outB)) ∧
    ((il ≤ 0 ∨ Reachable inB.length io il.toNat) → ¬ FitsRSA alg m k.size il.toNat →
      (rsaInits (RSACipher.new alg) h).doFinal heap ops ls rnd inB io il outB oo = some (.error (.crypto 1), outB)) := by
  rw [rsaAfter_doFinal alg h r m hr hm heap k hk]
  constructor
  · intro hin
    obtain ⟨l, e⟩ := (copy_cells inB io il).2 hin
    rw [e]
  · intro hin hf
    rw [(copy_cells inB io il).1 hin]
    simp only
    unfold FitsRSA at hf
    by_cases hp : alg = 10 ∧ m = 2
    · rw [if_pos hp] at hf ⊢
      rw [C63_too_long rnd k.size _ (by rw [cellsFrom_length]; omega)]
    · rw [if_neg hp] at hf ⊢
      simp only
      rw [if_pos (by rw [cellsFrom_length]; exact hf)]

/-- C107. A message of acceptable length, at offsets of either sign, after any history: the outcome is decided by the library key in the key object now,
by what the library makes of the block's number, and by the room for the result. With `ls = false` (Python 3) the result has lost four bits. -/
theorem C107_result (alg : Int) (h : List InitCall) (r : Nat) (m : Int) (hr : rsaKeyAfter h = some r) (hm : rsaModeAfter h = some m) (heap : KeyHeap) (k : RSAKey)
    (hk : heap r = .rsa k) (ops : RSAOps) (ls : Bool) (rnd : List Nat) (hrnd : ∀ b ∈ rnd, b < 256) (inB : List Int) (io il : Int)
    (hin : il ≤ 0 ∨ Reachable inB.length io il.toNat) (hf : FitsRSA alg m k.size il.toNat)
    (hrand : alg = 10 ∧ m = 2 → k.size / 8 ≤ il.toNat + 3 + rnd.countP (· ≠ 0)) (outB : List Int) (oo : Int) :
    ∃ outcome B, (rsaInits (RSACipher.new alg) h).doFinal heap ops ls rnd inB io il outB oo = some outcome ∧
      WorkBlock alg m k.size (cellsFrom inB io il.toNat) B ∧
      match k.theKey with
      | none => outcome = (.error .attributeError, outB)
      | some hd =>
        match (if m = 2 ∨ k.isPublic = true then ops.enc hd (leValue B) else ops.dec hd (leValue B)) with
        | .error e => outcome = (.error e, outB)
        | .ok y => ∃ R, (if ls then LECells R y else if y < 16 then R = [] else LECells R (y / 16)) ∧
          match (if alg = 10 ∧ m = 1 then pkcs1Text R else .ok R) with
          | .error e => outcome = (.error e, outB)
          | .ok T =>
            (T = [] ∨ Reachable outB.length oo T.length → ∃ out, outcome = (.ok T.length, out) ∧ Stored outB out oo T.length (fun j => T.getD j 0)) ∧
            (¬ (T = [] ∨ Reachable outB.length oo T.length) → outcome.1 = .error .arrayIndexOutOfBounds) := by
  rw [rsaAfter_doFinal alg h r m hr hm heap k hk, (copy_cells inB io il).1 hin]
  simp only
  have hb : ∃ B, (if alg = 10 ∧ m = 2 then RSACipher.emeEnc rnd k.size (cellsFrom inB io il.toNat) else some (.ok (cellsFrom inB io il.toNat))) = some (.ok B) ∧
      WorkBlock alg m k.size (cellsFrom inB io il.toNat) B ∧ (B.length : Int) = k.size / 8 := by
    unfold FitsRSA at hf
    unfold WorkBlock
    by_cases hp : alg = 10 ∧ m = 2
    · rw [if_pos hp] at hf
      obtain ⟨b1, b2, b3⟩ := C63_block rnd hrnd k.size (cellsFrom inB io il.toNat) (by rw [cellsFrom_length]; exact hf)
      obtain ⟨B, e⟩ := b3 (by rw [cellsFrom_length]; exact hrand hp)
      have := b1 B e
      refine ⟨B, by rw [if_pos hp]; exact e, by rw [if_pos hp]; exact this, ?_⟩
      obtain ⟨PS, _, _, _, hl⟩ := this
      exact hl
    · rw [if_neg hp] at hf
      refine ⟨_, by rw [if_neg hp], ?_, ?_⟩
      · rw [if_neg hp]; exact ⟨rfl, by rw [cellsFrom_length]; exact hf⟩
      · rw [cellsFrom_length]; exact hf
  obtain ⟨B, e, hw, hl⟩ := hb
  rw [e]
  simp only
  rw [if_neg (show ¬ (B.length : Int) ≠ k.size / 8 from fun h => h hl)]
  cases k.theKey with
  | none => exact ⟨_, B, rfl, hw, rfl⟩
  | some hd =>
    simp only
    cases hy : (if m = 2 ∨ k.isPublic = true then ops.enc hd (leValue B) else ops.dec hd (leValue B)) with
    | error e => exact ⟨_, B, rfl, hw, by rw [hy]⟩
    | ok y =>
      simp only
      have hR : if ls then LECells (longToArray ls y) y else if y < 16 then longToArray ls y = [] else LECells (longToArray ls y) (y / 16) := by
        cases ls with
        | true => exact leCells_long y
        | false =>
          rw [if_neg (by simp), longToArray_no_suffix]
          by_cases hy : y < 16
          · rw [if_pos hy, if_pos hy]
          · rw [if_neg hy, if_neg hy]; exact leCells_long _
      generalize longToArray ls y = R at hR
      cases hu : (if alg = 10 ∧ m = 1 then pkcs1Text R else .ok R) with
      | error e => exact ⟨_, B, rfl, hw, by rw [hy]; exact ⟨R, hR, by rw [hu]⟩⟩
      | ok T =>
        obtain ⟨o1, o2⟩ := rsaOutput_any T outB oo
        by_cases hT : T = [] ∨ Reachable outB.length oo T.length
        · obtain ⟨out, eo, hs⟩ := o1 hT
          simp only
          rw [eo]
          refine ⟨_, B, rfl, hw, ?_⟩
          rw [hy]
          refine ⟨R, hR, ?_⟩
          rw [hu]
          exact ⟨fun _ => ⟨out, rfl, hs⟩, fun h => absurd hT h⟩
        · obtain ⟨out, eo⟩ := o2 hT
          simp only
          rw [eo]
          refine ⟨_, B, rfl, hw, ?_⟩
          rw [hy]
          refine ⟨R, hR, ?_⟩
          rw [hu]
          exact ⟨fun h => absurd h hT, fun _ => rfl⟩

/-- C107. Which exceptions `doFinal` of an RSA cipher can raise, whatever the arguments, the history and the random bytes: those of the library, and
INVALID_INIT (only when no `init` has succeeded), ILLEGAL_VALUE, ArrayIndexOutOfBoundsException, AttributeError (only when the key object has no library
key) and ValueError (only when decrypting with padding). -/
theorem C107_kinds (alg : Int) (h : List InitCall) (heap : KeyHeap) (hheap : ∀ r, rsaKeyAfter h = some r → ∃ k, heap r = .rsa k) (ops : RSAOps) (ls : Bool)
    (rnd : List Nat) (inB : List Int) (io il : Int) (outB : List Int) (oo : Int) (e : Err) (out : List Int)
    (he : (rsaInits (RSACipher.new alg) h).doFinal heap ops ls rnd inB io il outB oo = some (.error e, out)) :
    (e = .crypto 4 ∧ rsaKeyAfter h = none) ∨ e = .crypto 1 ∨ e = .arrayIndexOutOfBounds ∨
    (e = .attributeError ∧ ∃ r k, rsaKeyAfter h = some r ∧ heap r = .rsa k ∧ k.theKey = none) ∨
    (e = .valueError ∧ alg = 10 ∧ rsaModeAfter h = some 1) ∨ (∃ hd v, ops.enc hd v = .error e ∨ ops.dec hd v = .error e) := by
  cases hr : rsaKeyAfter h with
  | none =>
    rw [((C99_rsa alg h).1 hr).2] at he
    injection he with he
    injection he with he _
    injection he with he
    exact .inl ⟨he.symm, rfl⟩
  | some r =>
    obtain ⟨m, hm, _, _⟩ := (C99_rsa alg h).2 r hr
    obtain ⟨k, hk⟩ := hheap r hr
    rw [rsaAfter_doFinal alg h r m hr hm heap k hk] at he
    right
    by_cases hin : il ≤ 0 ∨ Reachable inB.length io il.toNat
    · rw [(copy_cells inB io il).1 hin] at he
      simp only at he
      by_cases hp : alg = 10 ∧ m = 2 ∧ ¬ FitsRSA alg m k.size il.toNat
      · unfold FitsRSA at hp
        rw [if_pos ⟨hp.1, hp.2.1⟩] at hp he
        rw [C63_too_long rnd k.size _ (by rw [cellsFrom_length]; omega)] at he
        injection he with he
        injection he with he _
        injection he with he
        exact .inl he.symm
      · have hno : ∀ e', (if alg = 10 ∧ m = 2 then RSACipher.emeEnc rnd k.size (cellsFrom inB io il.toNat) else some (.ok (cellsFrom inB io il.toNat))) ≠ some (.error e') := by
          intro e'
          split
          · rename_i hpm
            unfold RSACipher.emeEnc
            have hfit : (il.toNat : Int) + 11 ≤ k.size / 8 := by
              by_cases hf : FitsRSA alg m k.size il.toNat
              · unfold FitsRSA at hf; rw [if_pos hpm] at hf; exact hf
              · exact absurd ⟨hpm.1, hpm.2, hf⟩ hp
            rw [if_neg (by rw [cellsFrom_length]; omega)]
            split <;> simp
          · simp
        revert he hno
        generalize (if alg = 10 ∧ m = 2 then RSACipher.emeEnc rnd k.size (cellsFrom inB io il.toNat) else some (.ok (cellsFrom inB io il.toNat))) = pd
        intro he hno
        match pd, he, hno with
        | none, he, _ => cases he
        | some (.error e'), _, hno => exact absurd rfl (hno e')
        | some (.ok d), he, _ =>
          simp only at he
          by_cases hd : (d.length : Int) ≠ k.size / 8
          · rw [if_pos hd] at he
            injection he with he
            injection he with he _
            injection he with he
            exact .inl he.symm
          · rw [if_neg hd] at he
            cases hth : k.theKey with
            | none =>
              rw [hth] at he
              injection he with he
              injection he with he _
              injection he with he
              exact .inr (.inr (.inl ⟨he.symm, r, k, rfl, hk, hth⟩))
            | some hd' =>
              rw [hth] at he
              simp only at he
              cases hres : (if m = 2 ∨ k.isPublic = true then ops.enc hd' (leValue d) else ops.dec hd' (leValue d)) with
              | error e' =>
                rw [hres] at he
                injection he with he
                injection he with he _
                injection he with he
                subst he
                refine .inr (.inr (.inr (.inr ⟨hd', leValue d, ?_⟩)))
                split at hres
                · exact .inl hres
                · exact .inr hres
              | ok y =>
                rw [hres] at he
                simp only at he
                by_cases hpm : alg = 10 ∧ m = 1
                · rw [if_pos hpm] at he
                  generalize longToArray ls y = R at he
                  cases hu : pkcs1Text R with
                  | error e' =>
                    rw [hu] at he
                    injection he with he
                    injection he with he _
                    injection he with he
                    subst he
                    unfold pkcs1Text at hu
                    split at hu
                    · injection hu with hu
                      exact .inl hu.symm
                    · split at hu
                      · injection hu with hu
                        exact .inr (.inr (.inr (.inl ⟨hu.symm, hpm.1, by rw [hm, hpm.2]⟩)))
                      · cases hu
                  | ok T =>
                    rw [hu] at he
                    simp only at he
                    obtain ⟨o1, o2⟩ := rsaOutput_any T outB oo
                    by_cases hT : T = [] ∨ Reachable outB.length oo T.length
                    · obtain ⟨o, eo, _⟩ := o1 hT
                      rw [eo] at he; cases he
                    · obtain ⟨o, eo⟩ := o2 hT
                      rw [eo] at he
                      injection he with he
                      injection he with he _
                      injection he with he
                      exact .inr (.inl he.symm)
                · rw [if_neg hpm] at he
                  simp only at he
                  obtain ⟨o1, o2⟩ := rsaOutput_any (longToArray ls y) outB oo
                  by_cases hT : longToArray ls y = [] ∨ Reachable outB.length oo (longToArray ls y).length
                  · obtain ⟨o, eo, _⟩ := o1 hT
                    rw [eo] at he; cases he
                  · obtain ⟨o, eo⟩ := o2 hT
                    rw [eo] at he
                    injection he with he
                    injection he with he _
                    injection he with he
                    exact .inr (.inl he.symm)
    · obtain ⟨l, e'⟩ := (copy_cells inB io il).2 hin
      rw [e'] at he
      injection he with he
      injection he with he _
      injection he with he
      exact .inr (.inl he.symm)

/-! A 16-bit key with the toy library, encrypting the last cell and the first cell of an array (offset -1) without padding. -/
def rsaDemo : KeyHeap := fun _ => .rsa ((RSAKey.new true 16).setTheKey true true ⟨1000, 3, 7⟩).2

example : rsaKeyAfter [⟨rsaDemo, .key 0, 2⟩] = some 0 ∧ rsaModeAfter [⟨rsaDemo, .key 0, 2⟩] = some 2 ∧ Reachable [3, 4, 5].length (-1) 2 ∧ FitsRSA 12 2 16 2 ∧
    cellsFrom [3, 4, 5] (-1) 2 = [5, 3] ∧ leValue [5, 3] = 773 ∧
    (rsaInits (RSACipher.new 12) [⟨rsaDemo, .key 0, 2⟩]).doFinal rsaDemo (toyOps 1000) true [] [3, 4, 5] (-1) 2 [9] (-1) = some (.ok 1, [226]) ∧
    (rsaInits (RSACipher.new 12) [⟨rsaDemo, .key 0, 2⟩]).doFinal rsaDemo (toyOps 1000) true [] [3, 4, 5] (-1) 2 [9] 1 = some (.error .arrayIndexOutOfBounds, [9]) := by
  unfold FitsRSA
  decide

example : pkcs1Text [0, 2, 0, 7, 0, 42, 0] = .ok [42, 0] ∧ pkcs1Text [0, 2, 0] = .error .valueError ∧ pkcs1Text [0, 1, 7, 0, 4] = .error (.crypto 1) := by decide

end Verif.Props
