import Verif.Props.ArraysWrap
import Verif.Props.BigNumber
import Verif.Props.Digest
import Verif.Props.Keys
/-! C97: the other operations that read or write arrays, at offsets of either sign. -/
namespace Verif.Props
open Verif.Py Verif.Model Verif.Spec

/-- Specification: `vs` are the values of the `vs.length` cells that the indices `o`, `o + 1`, … name in `l`. -/
def CellsAt (l : List Int) (o : Int) (vs : List Int) : Prop :=
  ∀ j, (h : j < vs.length) → ∃ p, Names l.length (o + j) p ∧ l[p]? = some vs[j]

/-! ### Writers -/

/-- Storing the values one after the other. -/
def puts (l : List Int) (o : Int) : List Int → Res (List Int) Unit
  | [] => (.ok (), l)
  | v :: vs =>
    match Verif.Py.set l o v with
    | .error e => (.error e, l)
    | .ok l' => puts l' (o + 1) vs

theorem puts_spec (l : List Int) (o : Int) (vs : List Int) :
    (Reachable l.length o vs.length ∨ vs = [] → (puts l o vs).1 = .ok () ∧ Stored l (puts l o vs).2 o vs.length (fun j => vs.getD j 0)) ∧
    (¬ (Reachable l.length o vs.length ∨ vs = []) → (puts l o vs).1 = .error .indexError ∧
      ∃ k, k < vs.length ∧ (¬ ∃ p, Names l.length (o + k) p) ∧ Stored l (puts l o vs).2 o k (fun j => vs.getD j 0)) := by
  induction vs generalizing l o with
  | nil => exact ⟨fun _ => ⟨rfl, stored_nil _ _ _⟩, fun h => absurd (Or.inr rfl) h⟩
  | cons v vs ih =>
    unfold puts
    by_cases h2 : -(l.length : Int) ≤ o ∧ o < l.length
    · obtain ⟨q, hq⟩ := names_of_reach _ _ h2
      rw [set_names _ _ _ _ hq]
      simp only
      obtain ⟨i1, i2⟩ := ih (l.set q v) (o + 1)
      simp only [List.length_set] at i1 i2
      have hr : (Reachable l.length o (v :: vs).length ∨ v :: vs = []) ↔ (Reachable l.length (o + 1) vs.length ∨ vs = []) := by
        unfold Reachable
        cases vs with
        | nil => simp; omega
        | cons w ws => simp only [List.length_cons, reduceCtorEq, or_false]; push_cast; omega
      rw [hr]
      constructor
      · intro h
        obtain ⟨a, b⟩ := i1 h
        refine ⟨a, ?_⟩
        have : Stored l _ o (vs.length + 1) (fun j => (v :: vs).getD j 0) := stored_cons l _ o vs.length q (fun j => (v :: vs).getD j 0) hq (by simpa using b)
        exact this
      · intro h
        obtain ⟨a, k, hk, hn, b⟩ := i2 h
        refine ⟨a, k + 1, by simp; omega, ?_, ?_⟩
        · have e : o + 1 + (k : Int) = o + ((k + 1 : Nat) : Int) := by push_cast; omega
          rw [e] at hn
          exact hn
        · exact stored_cons l _ o k q (fun j => (v :: vs).getD j 0) hq (by simpa using b)
    · rw [set_unnamed _ _ _ h2]
      have hr : ¬ (Reachable l.length o (v :: vs).length ∨ v :: vs = []) := by
        unfold Reachable
        simp only [List.length_cons, reduceCtorEq, or_false]; push_cast; omega
      refine ⟨fun h => absurd h hr, fun _ => ⟨rfl, 0, by simp, ?_, stored_nil _ _ _⟩⟩
      rintro ⟨p, hp⟩
      unfold Names at hp
      omega

theorem genLoop_puts (rnd : Nat → Nat) (b : List Int) (o : Int) (i n : Nat) :
    RandomData.genLoop rnd b o i n = puts b (o + i) ((List.range' i n).map fun j => (rnd j : Int)) := by
  induction n generalizing b i with
  | zero => rfl
  | succ n ih =>
    unfold RandomData.genLoop
    rw [List.range'_succ, List.map_cons]
    unfold puts
    cases Verif.Py.set b (o + i) (rnd i : Int) with
    | error e => rfl
    | ok b' =>
      simp only
      rw [ih]
      congr 1
      push_cast; omega

theorem writeLoop_puts (b : List Int) (o : Int) (i : Nat) (vs : List Nat) :
    MessageDigest.writeLoop b o i vs = puts b (o + i) (vs.map fun v : Nat => s1 (v : Int)) := by
  induction vs generalizing b i with
  | nil => rfl
  | cons v vs ih =>
    unfold MessageDigest.writeLoop
    rw [List.map_cons]
    unfold puts
    cases Verif.Py.set b (o + i) (s1 (v : Int)) with
    | error e => rfl
    | ok b' =>
      simp only
      rw [ih]
      congr 1
      push_cast; omega

/-- C97: `generateData` at any offset. -/
theorem C97_random (rnd : Nat → Nat) (b : List Int) (o : Int) (n : Nat) (hn : 0 < n) :
    (Reachable b.length o n → ∃ b', RandomData.generateData rnd b o n = (.ok (), b') ∧ Stored b b' o n (fun j => (rnd j : Int))) ∧
    (¬ Reachable b.length o n → ∃ b' k, RandomData.generateData rnd b o n = (.error .nameError, b') ∧ k < n ∧
      (¬ ∃ p, Names b.length (o + k) p) ∧ Stored b b' o k (fun j => (rnd j : Int))) := by
  unfold RandomData.generateData
  rw [if_neg (by omega)]
  simp only [rangeLen, Int.toNat_natCast]
  rw [genLoop_puts]
  simp only [Int.natCast_zero, Int.add_zero]
  obtain ⟨h1, h2⟩ := puts_spec b o ((List.range' 0 n).map fun j => (rnd j : Int))
  have hne : ((List.range' 0 n).map fun j => (rnd j : Int)) ≠ [] := by
    intro h
    have := congrArg List.length h
    simp at this
    omega
  have hst : ∀ (m : List Int) (k : Nat), k ≤ n → Stored b m o k (fun j => ((List.range' 0 n).map fun j => (rnd j : Int)).getD j 0) → Stored b m o k (fun j => (rnd j : Int)) := by
    rintro m k hk ⟨a1, a2, a3⟩
    refine ⟨a1, a2, fun p => ?_⟩
    rcases a3 p with ⟨j, hj, c1, c2, c3⟩ | c
    · refine .inl ⟨j, hj, c1, ?_, c3⟩
      rw [c2]
      simp only [List.getD_eq_getElem?_getD, List.getElem?_map]
      rw [List.getElem?_range' (by omega)]
      simp
    · exact .inr c
  simp only [List.length_map, List.length_range', hne, or_false] at h1 h2
  generalize hp : puts b o ((List.range' 0 n).map fun j => (rnd j : Int)) = r at h1 h2
  obtain ⟨r1, r2⟩ := r
  simp only at h1 h2
  constructor
  · intro h
    obtain ⟨a, c⟩ := h1 h
    subst a
    exact ⟨_, rfl, hst _ _ (Nat.le_refl _) c⟩
  · intro h
    obtain ⟨a, k, hk, hnm, c⟩ := h2 h
    subst a
    exact ⟨_, k, rfl, hk, hnm, hst _ _ (by omega) c⟩

/-- C97: the three-argument `getAvailableMemory` at any offset: 0x7F and 0xFF are stored at the cells the two indices name. -/
theorem C97_memory (b : List Int) (o t : Int) :
    (Reachable b.length o 2 → ∃ b', JCSystem.getAvailableMemory3 (some b) o t = (.ok (), some b') ∧ Stored b b' o 2 (fun j => if j = 0 then 127 else 255)) ∧
    (¬ Reachable b.length o 2 → (JCSystem.getAvailableMemory3 (some b) o t).1 = .error .nameError) := by
  unfold JCSystem.getAvailableMemory3
  simp only
  by_cases h1 : -(b.length : Int) ≤ o ∧ o < b.length
  · obtain ⟨q, hq⟩ := names_of_reach _ _ h1
    rw [set_names _ _ _ _ hq]
    simp only
    by_cases h2 : -((b.set q 127).length : Int) ≤ o + 1 ∧ o + 1 < (b.set q 127).length
    · obtain ⟨r, hr⟩ := names_of_reach _ _ h2
      rw [set_names _ _ _ _ hr]
      simp only
      refine ⟨fun _ => ⟨_, rfl, ?_⟩, fun h => absurd ?_ h⟩
      · refine stored_cons _ _ _ 1 q (fun j => if j = 0 then 127 else 255) hq ?_
        exact stored_cons _ _ _ 0 r (fun j => if j + 1 = 0 then 127 else 255) hr (stored_nil _ _ _)
      · simp only [List.length_set] at h2
        unfold Reachable; push_cast; omega
    · rw [set_unnamed _ _ _ h2]
      simp only [List.length_set] at h2
      refine ⟨fun h => ?_, fun _ => rfl⟩
      unfold Reachable at h; push_cast at h; omega
  · rw [set_unnamed _ _ _ h1]
    refine ⟨fun h => ?_, fun _ => rfl⟩
    unfold Reachable at h; push_cast at h; omega

theorem setInt_puts (l : List Int) (o a b : Int) :
    JCint.setInt l o a b = ((puts l o (intBytes (a * 65536 + b))).1.map (fun _ => o + 4), (puts l o (intBytes (a * 65536 + b))).2) := by
  rw [intBytes_congr _ _ (makeInt2_congr a b).symm]
  simp only [JCint.setInt, iand_ff, shr, s1_emod_bmod, intBytes, List.map_cons, List.map_nil]
  generalize JCint.makeInt2 a b = v
  simp only [puts]
  have e2 : o + 1 + 1 = o + 2 := by omega
  have e3 : o + 2 + 1 = o + 3 := by omega
  rw [e2, e3]
  have d1 : v / 2 ^ 24 = v / 16777216 := rfl
  have d2 : v / 2 ^ 16 = v / 65536 := rfl
  have d3 : v / 2 ^ 8 = v / 256 := rfl
  rw [d1, d2, d3]
  cases Verif.Py.set l o (Int.bmod (v / 16777216) 256) with
  | error e => rfl
  | ok l1 =>
    simp only
    cases Verif.Py.set l1 (o + 1) (Int.bmod (v / 65536) 256) with
    | error e => rfl
    | ok l2 =>
      simp only
      cases Verif.Py.set l2 (o + 2) (Int.bmod (v / 256) 256) with
      | error e => rfl
      | ok l3 =>
        simp only
        cases Verif.Py.set l3 (o + 3) (Int.bmod v 256) with
        | error e => rfl
        | ok l4 => rfl

/-- C97: `setInt` at any offset. -/
theorem C97_setInt (l : List Int) (o a b : Int) :
    (Reachable l.length o 4 → ∃ l', JCint.setInt l o a b = (.ok (o + 4), l') ∧
      Stored l l' o 4 (fun j => (intBytes (a * 65536 + b)).getD j 0)) ∧
    (¬ Reachable l.length o 4 → (JCint.setInt l o a b).1 = .error .indexError ∧ ∃ k : Nat, k < 4 ∧ (¬ ∃ p, Names l.length (o + k) p) ∧
      Stored l (JCint.setInt l o a b).2 o k (fun j => (intBytes (a * 65536 + b)).getD j 0)) := by
  rw [setInt_puts]
  obtain ⟨h1, h2⟩ := puts_spec l o (intBytes (a * 65536 + b))
  have hl : (intBytes (a * 65536 + b)).length = 4 := rfl
  have hne : intBytes (a * 65536 + b) ≠ [] := by intro h; rw [h] at hl; cases hl
  simp only [hl, hne, or_false] at h1 h2
  constructor
  · intro h
    obtain ⟨x, y⟩ := h1 h
    rw [x]
    exact ⟨_, rfl, y⟩
  · intro h
    obtain ⟨x, y⟩ := h2 h
    rw [x]
    exact ⟨rfl, y⟩

/-- Copying a whole list to any offset of another one. -/
theorem arrayCopy_whole (src dst : List Int) (o : Int) :
    (Reachable dst.length o src.length ∨ src = [] → ∃ d', Util.arrayCopy src 0 dst o src.length = (.ok (), d') ∧ Stored dst d' o src.length (fun j => src.getD j 0)) ∧
    (¬ (Reachable dst.length o src.length ∨ src = []) → (Util.arrayCopy src 0 dst o src.length).1 = .error .arrayIndexOutOfBounds) := by
  have key : ∀ (dst : List Int) (o : Int) (i : Nat) (n : Nat), i + n = src.length →
      copyRange src 0 dst o i n = puts dst (o + i) (src.drop i) := by
    intro dst o i n
    induction n generalizing dst i with
    | zero => intro h; rw [List.drop_eq_nil_of_le (by omega)]; rfl
    | succ n ih =>
      intro h
      unfold copyRange
      have hi : i < src.length := by omega
      have hg : Verif.Py.get src (0 + (i : Int)) = .ok (src[i]'hi) := by
        have := get_step src 0 i (by omega)
        simpa using this
      rw [hg]
      rw [List.drop_eq_getElem_cons hi]
      unfold puts
      simp only
      cases Verif.Py.set dst (o + i) src[i] with
      | error e => rfl
      | ok l =>
        simp only
        rw [ih l (i + 1) (by omega)]
        congr 1
        push_cast; omega
  rw [arrayCopy_copyRange]
  simp only [rangeLen, Int.toNat_natCast]
  rw [key dst o 0 src.length (by omega)]
  simp only [Int.natCast_zero, Int.add_zero, List.drop_zero]
  obtain ⟨h1, h2⟩ := puts_spec dst o src
  constructor
  · intro h
    obtain ⟨x, y⟩ := h1 h
    rw [x]
    exact ⟨_, rfl, y⟩
  · intro h
    rw [(h2 h).1]
    rfl

/-- C97: `toBytes` at any offset, for a value that fits: the bytes of the number are stored at the cells the indices name. -/
theorem C97_toBytes (x : BigNumber) (v : Nat) (hx : x.value = some (v : Int)) (buf : List Int) (o : Int) (n : Nat) (hn : 0 < n) (hv : v < 256 ^ n) :
    (Reachable buf.length o n → ∃ buf' bs ds, x.toBytes buf o n HEX = (.ok (), buf') ∧ bs.length = n ∧ SpellsAll bs ds ∧ positional 256 ds = v ∧
      Stored buf buf' o n (fun j => bs.getD j 0)) ∧
    (¬ Reachable buf.length o n → (x.toBytes buf o n HEX).1 = .error .arrayIndexOutOfBounds) := by
  obtain ⟨m, v'⟩ := x
  simp only at hx
  subst hx
  obtain ⟨hlen, hpos, hlt⟩ := BigNumber.outDigits_props 256 (by omega) v n hv
  have e := BigNumber.outBytes_eq 256 toHex (by decide) v n
  have hl : (BigNumber.outBytes 256 toHex v n).length = n := by rw [e]; simpa using hlen
  have hne : BigNumber.outBytes 256 toHex v n ≠ [] := by intro h; rw [h] at hl; simp at hl; omega
  have hb := BigNumber.toBytes_hex m v buf o n
  rw [if_pos hv] at hb
  rw [show HEX = BigNumber.FORMAT_HEX from rfl, hb]
  obtain ⟨h1, h2⟩ := arrayCopy_whole (BigNumber.outBytes 256 toHex v n) buf o
  simp only [hl, hne, or_false] at h1 h2
  constructor
  · intro h
    obtain ⟨d', x, y⟩ := h1 h
    refine ⟨d', _, _, x, hl, ?_, hpos, y⟩
    rw [e]
    exact BigNumber.spellsAll_map _ hlt
  · exact h2

/-- C97: `getKey` of a DES key at any offset, for a key set with enough bytes. -/
theorem C97_getKey (k : DESKey) (n : Nat) (hn : 0 < n) (hs : k.size / 8 = n) (src dst : List Int) (so : Nat) (o : Int) (h1 : so + n ≤ src.length) :
    (Reachable dst.length o n → ∃ d', (k.setKey src so).getKey dst o = (.ok (), d') ∧ Stored dst d' o n (fun j => Int.bmod (src.getD (so + j) 0) 256)) ∧
    (¬ Reachable dst.length o n → ((k.setKey src so).getKey dst o).1 = .error .arrayIndexOutOfBounds) := by
  have hk : (k.setKey src so).getKey dst o = Util.arrayCopy ((range src so n).map fun x => Int.bmod x 256) 0 dst o n := by
    unfold DESKey.getKey DESKey.setKey
    simp only [hs]
    rw [slice_add]
    congr 1
    unfold binaryToArray arrayToBinary range
    rw [List.map_map]
    apply List.map_congr_left
    intro x _
    simp only [Function.comp, iand_ff]
    rw [Int.toNat_of_nonneg (by omega), s1_emod_bmod]
  rw [hk]
  have hl : ((range src so n).map fun x => Int.bmod x 256).length = n := by
    simp only [range, List.length_map, List.length_take, List.length_drop]; omega
  have hne : ((range src so n).map fun x => Int.bmod x 256) ≠ [] := by intro h; rw [h] at hl; simp at hl; omega
  obtain ⟨a1, a2⟩ := arrayCopy_whole ((range src so n).map fun x => Int.bmod x 256) dst o
  simp only [hl, hne, or_false] at a1 a2
  constructor
  · intro h
    obtain ⟨d', x, y⟩ := a1 h
    refine ⟨d', x, ?_⟩
    obtain ⟨b1, b2, b3⟩ := y
    refine ⟨b1, b2, fun p => ?_⟩
    rcases b3 p with ⟨j, hj, c1, c2, c3⟩ | c
    · refine .inl ⟨j, hj, c1, ?_, c3⟩
      rw [c2]
      simp only [List.getD_eq_getElem?_getD, List.getElem?_map, range, List.getElem?_take, List.getElem?_drop, if_pos hj]
      rw [List.getElem?_eq_getElem (by omega)]
      rfl
    · exact .inr c
  · exact a2

/-- C97: the output of a digest at any offset. -/
theorem C97_digest_output (H : HashLib) (d : MessageDigest) (out : List Int) (o : Int)
    (hne : H d.algorithm d.m ≠ []) :
    (Reachable out.length o (H d.algorithm d.m).length → ∃ out', d.doFinal H [] 0 0 out o = (.ok ((H d.algorithm []).length : Int), out', d.reset) ∧
      Stored out out' o (H d.algorithm d.m).length (fun j => s1 ((H d.algorithm d.m).getD j 0 : Nat))) ∧
    (¬ Reachable out.length o (H d.algorithm d.m).length → (d.doFinal H [] 0 0 out o).1 = .error .nameError ∧ (d.doFinal H [] 0 0 out o).2.2 = d.reset) := by
  unfold MessageDigest.doFinal
  have hu : d.update [] 0 0 = (.ok (), d) := by
    simp [MessageDigest.update, MessageDigest.readLoop, arrayToBinary]
  rw [hu]
  simp only
  rw [writeLoop_puts]
  simp only [Int.natCast_zero, Int.add_zero]
  obtain ⟨h1, h2⟩ := puts_spec out o ((H d.algorithm d.m).map fun v : Nat => s1 (v : Int))
  have hne' : ((H d.algorithm d.m).map fun v : Nat => s1 (v : Int)) ≠ [] := by simpa using hne
  simp only [List.length_map, hne', or_false] at h1 h2
  generalize puts out o ((H d.algorithm d.m).map fun v : Nat => s1 (v : Int)) = r at h1 h2
  obtain ⟨r1, r2⟩ := r
  simp only at h1 h2
  constructor
  · intro h
    obtain ⟨x, y⟩ := h1 h
    subst x
    refine ⟨_, rfl, ?_⟩
    obtain ⟨b1, b2, b3⟩ := y
    refine ⟨b1, b2, fun p => ?_⟩
    rcases b3 p with ⟨j, hj, c1, c2, c3⟩ | c
    · refine .inl ⟨j, hj, c1, ?_, c3⟩
      rw [c2]
      simp only [List.getD_eq_getElem?_getD, List.getElem?_map]
      rw [List.getElem?_eq_getElem hj]
      rfl
    · exact .inr c
  · intro h
    rw [(h2 h).1]
    exact ⟨rfl, rfl⟩

/-! ### Readers -/

theorem get_cell (l : List Int) (o : Int) (vs : List Int) (h : CellsAt l o vs) (j : Nat) (hj : j < vs.length) :
    Verif.Py.get l (o + j) = .ok vs[j] := by
  obtain ⟨p, hp, hv⟩ := h j hj
  rw [get_names l _ p hp]
  rw [List.getElem?_eq_getElem hp.1] at hv
  injection hv with hv
  rw [hv]

/-- Every reachable range has cells. -/
theorem cellsAt_exists (l : List Int) (o : Int) (n : Nat) (h : Reachable l.length o n) : ∃ vs, vs.length = n ∧ CellsAt l o vs := by
  induction n with
  | zero => exact ⟨[], rfl, by intro j hj; simp at hj⟩
  | succ n ih =>
    have hr : Reachable l.length o n := by unfold Reachable at *; omega
    obtain ⟨vs, hl, hc⟩ := ih hr
    obtain ⟨p, hp⟩ := names_of_reach l.length (o + n) (by unfold Reachable at h; omega)
    refine ⟨vs ++ [l[p]'hp.1], by simp [hl], ?_⟩
    intro j hj
    simp only [List.length_append, List.length_singleton] at hj
    by_cases hjn : j < vs.length
    · obtain ⟨q, hq, hv⟩ := hc j hjn
      exact ⟨q, hq, by rw [hv, List.getElem_append_left hjn]⟩
    · have : j = n := by omega
      subst this
      refine ⟨p, hp, ?_⟩
      rw [List.getElem?_eq_getElem hp.1, List.getElem_append_right (by omega)]
      simp

theorem readLoop_cells (l : List Int) (o : Int) (vs : List Int) (h : CellsAt l o vs) (i n : Nat) (hi : i + n = vs.length) :
    MessageDigest.readLoop l o i n = .ok (vs.drop i) := by
  induction n generalizing i with
  | zero => rw [List.drop_eq_nil_of_le (by omega)]; rfl
  | succ n ih =>
    unfold MessageDigest.readLoop
    rw [get_cell l o vs h i (by omega)]
    simp only
    rw [ih (i + 1) (by omega)]
    simp only
    rw [← List.drop_eq_getElem_cons]

theorem readLoop_unreach (l : List Int) (o : Int) (i n : Nat) (hn : 0 < n) (h : ¬ Reachable l.length (o + i) n) :
    ∃ e, MessageDigest.readLoop l o i n = .error e := by
  induction n generalizing i with
  | zero => omega
  | succ n ih =>
    unfold MessageDigest.readLoop
    by_cases h1 : -(l.length : Int) ≤ o + i ∧ o + i < l.length
    · obtain ⟨p, hp⟩ := names_of_reach _ _ h1
      rw [get_names _ _ _ hp]
      simp only
      unfold Reachable at h
      have hn' : 0 < n := by
        rcases Nat.eq_zero_or_pos n with h0 | h0
        · subst h0; push_cast at h; omega
        · exact h0
      obtain ⟨e, he⟩ := ih (i + 1) hn' (by unfold Reachable; push_cast at h ⊢; omega)
      rw [he]
      exact ⟨e, rfl⟩
    · rw [get_unnamed _ _ h1]
      exact ⟨_, rfl⟩

/-- C97: `update` of a digest at any offset feeds the bytes of the cells the indices name. -/
theorem C97_digest_update (d : MessageDigest) (l : List Int) (o : Int) (vs : List Int) (h : CellsAt l o vs) :
    d.update l o vs.length = d.update vs 0 vs.length := by
  unfold MessageDigest.update
  simp only [rangeLen, Int.toNat_natCast]
  rw [readLoop_cells l o vs h 0 vs.length (by omega)]
  have hv : CellsAt vs 0 vs := by
    intro j hj
    refine ⟨j, ⟨hj, .inl (by omega)⟩, ?_⟩
    rw [List.getElem?_eq_getElem hj]
  rw [readLoop_cells vs 0 vs hv 0 vs.length (by omega)]

/-- C97: and it raises, adding nothing, exactly when an index names no cell. -/
theorem C97_digest_update_fails (d : MessageDigest) (l : List Int) (o : Int) (n : Nat) :
    ((d.update l o n).1 = .ok () ↔ n = 0 ∨ Reachable l.length o n) ∧
    (¬ (n = 0 ∨ Reachable l.length o n) → d.update l o n = (.error .nameError, d)) := by
  have h2 : ¬ (n = 0 ∨ Reachable l.length o n) → d.update l o n = (.error .nameError, d) := by
    intro h
    unfold MessageDigest.update
    simp only [rangeLen, Int.toNat_natCast]
    obtain ⟨e, he⟩ := readLoop_unreach l o 0 n (by omega) (by simpa using fun hr => h (.inr hr))
    rw [he]
  refine ⟨⟨fun h => ?_, ?_⟩, h2⟩
  · by_cases hc : n = 0 ∨ Reachable l.length o n
    · exact hc
    · rw [h2 hc] at h; cases h
  · rintro (h | h)
    · subst h; rfl
    · obtain ⟨vs, hl, hc⟩ := cellsAt_exists l o n h
      subst hl
      unfold MessageDigest.update
      simp only [rangeLen, Int.toNat_natCast]
      rw [readLoop_cells l o vs hc 0 vs.length (by omega)]

theorem initLoop_cells (base : Int) (conv : Int → Int) (l : List Int) (o : Int) (vs : List Int) (h : CellsAt l o vs) (acc : Int) (i n : Nat)
    (hi : i + n = vs.length) :
    BigNumber.initLoop base conv l o acc i n = (.ok (), (vs.drop i).foldl (fun a b => a * base + conv b) acc) := by
  induction n generalizing i acc with
  | zero => rw [List.drop_eq_nil_of_le (by omega)]; rfl
  | succ n ih =>
    unfold BigNumber.initLoop
    rw [get_cell l o vs h i (by omega)]
    simp only
    rw [ih _ (i + 1) (by omega), List.drop_eq_getElem_cons (i := i) (by omega)]
    rfl

/-- C97: `init` of a BigNumber at any offset reads the number in the cells the indices name. -/
theorem C97_bignumber_init (x : BigNumber) (l : List Int) (o fmt : Int) (vs : List Int) (h : CellsAt l o vs) :
    x.init (some l) o vs.length fmt = x.init (some vs) 0 vs.length fmt := by
  have hv : CellsAt vs 0 vs := by
    intro j hj
    refine ⟨j, ⟨hj, .inl (by omega)⟩, ?_⟩
    rw [List.getElem?_eq_getElem hj]
  unfold BigNumber.init
  simp only [rangeLen, Int.toNat_natCast]
  rw [initLoop_cells _ _ l o vs h 0 0 vs.length (by omega), initLoop_cells _ _ vs 0 vs hv 0 0 vs.length (by omega)]
  rw [initLoop_cells _ _ l o vs h 0 0 vs.length (by omega), initLoop_cells _ _ vs 0 vs hv 0 0 vs.length (by omega)]

theorem initLoop_unreach (base : Int) (conv : Int → Int) (l : List Int) (o acc : Int) (i n : Nat) (hn : 0 < n) (h : ¬ Reachable l.length (o + i) n) :
    (BigNumber.initLoop base conv l o acc i n).1 = .error .indexError := by
  induction n generalizing i acc with
  | zero => omega
  | succ n ih =>
    unfold BigNumber.initLoop
    by_cases h1 : -(l.length : Int) ≤ o + i ∧ o + i < l.length
    · obtain ⟨p, hp⟩ := names_of_reach _ _ h1
      rw [get_names _ _ _ hp]
      simp only
      unfold Reachable at h
      have hn' : 0 < n := by
        rcases Nat.eq_zero_or_pos n with h0 | h0
        · subst h0; push_cast at h; omega
        · exact h0
      exact ih _ (i + 1) hn' (by unfold Reachable; push_cast at h ⊢; omega)
    · rw [get_unnamed _ _ h1]

/-- C97: and it raises IndexError when an index names no cell. -/
theorem C97_bignumber_init_fails (x : BigNumber) (l : List Int) (o fmt : Int) (n : Nat) (hn : 0 < n) (hf : fmt = BCD ∨ fmt = HEX) :
    (x.init (some l) o n fmt).1 = if Reachable l.length o n then .ok () else .error .indexError := by
  by_cases h : Reachable l.length o n
  · rw [if_pos h]
    obtain ⟨vs, hl, hc⟩ := cellsAt_exists l o n h
    subst hl
    unfold BigNumber.init
    rw [if_neg (by omega)]
    simp only [rangeLen, Int.toNat_natCast]
    rw [initLoop_cells _ _ l o vs hc 0 0 vs.length (by omega), initLoop_cells _ _ l o vs hc 0 0 vs.length (by omega)]
    rcases hf with rfl | rfl <;> rfl
  · rw [if_neg h]
    unfold BigNumber.init
    rw [if_neg (by omega)]
    simp only [rangeLen, Int.toNat_natCast]
    rcases hf with rfl | rfl
    · exact initLoop_unreach _ _ l o 0 0 n hn (by simpa using h)
    · exact initLoop_unreach _ _ l o 0 0 n hn (by simpa using h)

/-- C97: `getInt` at any offset. -/
theorem C97_getInt (l : List Int) (o : Int) :
    (∀ b0 b1 b2 b3, CellsAt l o [b0, b1, b2, b3] → JCint.getInt l o = .ok (JCint.makeInt4 b0 b1 b2 b3)) ∧
    (¬ Reachable l.length o 4 → JCint.getInt l o = .error .indexError) := by
  constructor
  · intro b0 b1 b2 b3 h
    have g0 := get_cell l o _ h 0 (by simp)
    have g1 := get_cell l o _ h 1 (by simp)
    have g2 := get_cell l o _ h 2 (by simp)
    have g3 := get_cell l o _ h 3 (by simp)
    simp only [Int.natCast_zero, Int.add_zero, List.getElem_cons_zero, List.getElem_cons_succ] at g0 g1 g2 g3
    have g1 : Verif.Py.get l (o + 1) = .ok b1 := g1
    have g2 : Verif.Py.get l (o + 2) = .ok b2 := g2
    have g3 : Verif.Py.get l (o + 3) = .ok b3 := g3
    unfold JCint.getInt
    rw [g0, g1, g2, g3]
    rfl
  · intro h
    unfold Reachable at h
    unfold JCint.getInt
    have step : ∀ i : Int, (∃ v, Verif.Py.get l i = .ok v ∧ -(l.length : Int) ≤ i ∧ i < l.length) ∨ Verif.Py.get l i = .error .indexError := by
      intro i
      by_cases h1 : -(l.length : Int) ≤ i ∧ i < l.length
      · obtain ⟨p, hp⟩ := names_of_reach _ _ h1
        exact .inl ⟨_, get_names _ _ _ hp, h1⟩
      · exact .inr (get_unnamed _ _ h1)
    rcases step o with ⟨v0, g0, r0⟩ | g0
    · rw [g0]
      rcases step (o + 1) with ⟨v1, g1, r1⟩ | g1
      · rw [g1]
        rcases step (o + 2) with ⟨v2, g2, r2⟩ | g2
        · rw [g2]
          rcases step (o + 3) with ⟨v3, g3, r3⟩ | g3
          · omega
          · rw [g3]; rfl
        · rw [g2]; rfl
      · rw [g1]; rfl
    · rw [g0]; rfl

example : CellsAt [10, 11, 12] (-2) [11, 12, 10, 11] := by
  intro j hj
  match j, hj with
  | 0, _ => exact ⟨1, by unfold Names; simp, rfl⟩
  | 1, _ => exact ⟨2, by unfold Names; simp, rfl⟩
  | 2, _ => exact ⟨0, by unfold Names; simp, rfl⟩
  | 3, _ => exact ⟨1, by unfold Names; simp, rfl⟩
example : JCint.setInt [0, 0, 0, 0, 0] (-2) 0x0102 0x0304 = (.ok 2, [3, 4, 0, 1, 2]) ∧ JCint.getInt [3, 4, 0, 1, 2] (-2) = .ok 0x01020304 := by decide
example : (BigNumber.mk none (some 0x0102)).toBytes [9, 9, 9] (-1) 2 HEX = (.ok (), [2, 9, 1]) := by decide
example : Reachable 5 (-2) 4 ∧ ¬ Reachable 5 (-6) 4 := by decide

end Verif.Props
