import Verif.Props.Tag
/-! C91: initialising tag objects from bytes, and printing them. -/
namespace Verif.Props
open Verif.Py Verif.Model Verif.Spec

/-- C91. `init(bytes, off)` on a tag object, whatever it held before, with the identifier octets of a tag of its own kind (primitive or
constructed): the object then reports that tag. -/
theorem C91_right_kind (t : BERTag) (arr : List Int) (o : Nat) (ns : List Nat) (cls num : Nat) (ht : TagOctets cls t.tagConstr num ns)
    (hs : SpellsAll (range arr o ns.length) ns) :
    ∃ t', t.initArray arr o = (.ok (), t') ∧ IsTag t' cls t.tagConstr num ∧ BERTag.getInstance arr o = .ok t' := by
  have hd : arr.drop o = range arr o ns.length ++ arr.drop (o + ns.length) := by
    unfold range
    rw [← List.drop_drop, List.take_append_drop]
  have hg := BERTag.getInstance_decode arr o _ _ ns cls num t.tagConstr hd hs ht
  have hb := fun u => BERTag.baseInit_decode u arr o _ _ ns cls num t.tagConstr hd hs ht
  refine ⟨⟨some (cls : Int), t.tagConstr, some (num : Int), if ns.length = 1 then 1 else (ns.length : Int) - 1⟩, ?_, ⟨rfl, rfl, rfl⟩, hg⟩
  have hlead : ∃ b r low, range arr o ns.length = b :: r ∧ low < 32 ∧ Spells b (leading cls t.tagConstr low) := by
    obtain ⟨hc, h | ⟨ds, l, h, _⟩⟩ := ht
    · cases hr : range arr o ns.length with
      | nil => rw [hr, h.2] at hs; exact hs.elim
      | cons b r => rw [hr, h.2] at hs; exact ⟨b, r, num, rfl, by omega, hs.1⟩
    · cases hr : range arr o ns.length with
      | nil => rw [hr, h] at hs; exact hs.elim
      | cons b r => rw [hr, h] at hs; exact ⟨b, r, 31, rfl, by omega, hs.1⟩
  obtain ⟨b, r, low, hr, hl, hb1⟩ := hlead
  rw [hr] at hd
  obtain ⟨g1, _, _⟩ := get_of_drop hd
  obtain ⟨_, _, _, _, f5⟩ := BERTag.leading_fields b cls low t.tagConstr ht.1 hl hb1
  unfold BERTag.initArray
  simp only [g1]
  cases hc : t.tagConstr with
  | true =>
    rw [hc] at f5 hb
    simp only [if_true]
    rw [if_neg (by rw [f5]; decide)]
    exact hb _
  | false =>
    rw [hc] at f5 hb
    simp only [Bool.false_eq_true, if_false]
    rw [if_neg (by rw [f5]; decide)]
    exact hb _

/-- C91. With the first octet of a tag of the other kind: TLVException(MALFORMED_TAG), and whatever the object held is lost: it has no class and
no number, so writing or printing it raises TypeError and writes nothing. -/
theorem C91_wrong_kind (t : BERTag) (arr : List Int) (o : Nat) (b : Int) (hg : arr[o]? = some b) (cls low : Nat) (hc : cls < 4) (hl : low < 32)
    (hb : Spells b (leading cls (!t.tagConstr) low)) :
    ∃ t', t.initArray arr o = (.error (.tlv 5), t') ∧ t'.tagClass = none ∧ t'.tagNumber = none ∧ t'.tagConstr = t.tagConstr ∧
      t'.str = .error .typeError ∧ ∀ buf off, t'.toBytes buf off = (.error .typeError, buf) := by
  have hlt : o < arr.length := by
    by_cases h : o < arr.length
    · exact h
    · rw [List.getElem?_eq_none (by omega)] at hg; cases hg
  have g1 : get arr (o : Int) = .ok b := by
    rw [get_natCast arr o hlt]
    rw [List.getElem?_eq_getElem hlt] at hg
    injection hg with hg
    rw [hg]
  obtain ⟨_, _, _, _, f5⟩ := BERTag.leading_fields b cls low (!t.tagConstr) hc hl hb
  refine ⟨⟨none, t.tagConstr, none, t.size⟩, ?_, rfl, rfl, rfl, rfl, fun _ _ => rfl⟩
  unfold BERTag.initArray
  simp only [g1]
  cases hc : t.tagConstr with
  | true =>
    rw [hc] at f5
    simp only [if_true]
    rw [if_pos (by rw [f5]; decide)]
    rfl
  | false =>
    rw [hc] at f5
    simp only [Bool.false_eq_true, if_false]
    rw [if_pos (by rw [f5]; decide)]
    rfl

/-- C91. At or past the end of the array: Python's IndexError (not, as from getInstance, ArrayIndexOutOfBoundsException), and what the object
held is lost as well. -/
theorem C91_out_of_range (t : BERTag) (arr : List Int) (o : Nat) (h : arr.length ≤ o) :
    ∃ t', t.initArray arr o = (.error .indexError, t') ∧ t'.tagClass = none ∧ t'.tagNumber = none := by
  refine ⟨⟨none, t.tagConstr, none, t.size⟩, ?_, rfl, rfl⟩
  unfold BERTag.initArray
  simp only [get_natCast_out arr o h]

example : (BERTag.mk (some 2) true (some 9) 1).initArray [0x84] 0 = (.error (.tlv 5), ⟨none, true, none, 1⟩) := by rfl
example : (BERTag.mk (some 2) true (some 9) 1).initArray [-65, -127, 1] 0 = (.ok (), ⟨some 2, true, some 129, 2⟩) := by rfl

theorem numLoop_truncated (arr : List Int) (o k num n : Nat) (ds : List Nat) (hs : SpellsAll (arr.drop (o + k)) (ds.map (128 + ·))) (hds : ∀ d ∈ ds, d < 128)
    (hn : ds.length ≤ n) :
    BERTag.numLoop arr (o : Int) (num : Int) (k : Int) n = (.error .indexError, ((ds.foldl (fun a d => a * 128 + d) num : Nat) : Int)) := by
  induction ds generalizing k num n with
  | nil =>
    cases n with
    | zero => rfl
    | succ n =>
      have hl := BigNumber.spellsAll_length hs
      unfold BERTag.numLoop
      rw [get_step_out arr o k (by simp at hl; omega)]
      rfl
  | cons d ds ih =>
    cases n with
    | zero => simp at hn
    | succ n =>
      unfold BERTag.numLoop
      cases hd : arr.drop (o + k) with
      | nil => rw [hd] at hs; exact absurd hs id
      | cons b r =>
        rw [hd] at hs
        obtain ⟨h1, h2⟩ := hs
        have h1 : Spells b (128 + d) := h1
        have h0 := hds d List.mem_cons_self
        obtain ⟨g1, g2, g3⟩ := get_of_drop hd
        rw [Int.natCast_add] at g1
        rw [g1]
        have hb : iand b 0x80 = 0x80 := by rw [iand_80]; unfold Spells at h1; omega
        simp only
        rw [if_pos hb]
        have e1 : shl (num : Int) 7 + iand b 0x7f = ((num * 128 + d : Nat) : Int) := by
          simp only [iand_7f, shl]; unfold Spells at h1; omega
        have e2 : (k : Int) + 1 = ((k + 1 : Nat) : Int) := by omega
        rw [e1, e2]
        exact ih (k + 1) _ n (by rw [← Nat.add_assoc, g2]; exact h2) (fun y hy => hds y (List.mem_cons_of_mem _ hy)) (by simpa using hn)

/-- C91. With identifier octets of its own kind cut off by the end of the array: Python's IndexError, and the object is left holding a tag nobody wrote: the class
read and the number formed by the digits there are. -/
theorem C91_truncated (t : BERTag) (arr : List Int) (o : Nat) (cls : Nat) (hc : cls < 4) (ds : List Nat) (hds : ∀ d ∈ ds, d < 128)
    (hs : SpellsAll (arr.drop o) (leading cls t.tagConstr 31 :: ds.map (128 + ·))) :
    ∃ t', t.initArray arr o = (.error .indexError, t') ∧ IsTag t' cls t.tagConstr (positional 128 ds) ∧ t'.size = t.size := by
  cases hd : arr.drop o with
  | nil => rw [hd] at hs; exact hs.elim
  | cons b r =>
    rw [hd] at hs
    obtain ⟨hb, hr⟩ := hs
    obtain ⟨g1, g2, g3⟩ := get_of_drop hd
    obtain ⟨f1, f2, f3, f4, f5⟩ := BERTag.leading_fields b cls 31 t.tagConstr hc (by omega) hb
    have hlen : r.length = ds.length := by have := BigNumber.spellsAll_length hr; simpa using this
    have hal := length_of_drop hd (by omega)
    have key := numLoop_truncated arr o 1 0 ((arr.length : Int) - ((o : Int) + 1)).toNat ds (by rw [g2]; exact hr) hds (by simp at hal; omega)
    rw [show ((1 : Nat) : Int) = 1 from rfl, show ((0 : Nat) : Int) = 0 from rfl] at key
    have hbase : ∀ u : BERTag, u.baseInit arr o = (.error .indexError, ⟨some (cls : Int), t.tagConstr, some ((positional 128 ds : Nat) : Int), u.size⟩) := by
      intro u
      unfold BERTag.baseInit
      simp only [g1]
      rw [if_pos (by rw [f4]; rfl), key]
      simp only [f1, f2]
      rfl
    refine ⟨⟨some (cls : Int), t.tagConstr, some ((positional 128 ds : Nat) : Int), t.size⟩, ?_, ⟨rfl, rfl, rfl⟩, rfl⟩
    unfold BERTag.initArray
    simp only [g1]
    cases h : t.tagConstr with
    | true =>
      rw [h] at f5 hbase
      simp only [if_true]
      rw [if_neg (by rw [f5]; decide), hbase]
    | false =>
      rw [h] at f5 hbase
      simp only [Bool.false_eq_true, if_false]
      rw [if_neg (by rw [f5]; decide), hbase]

example : (BERTag.mk (some 2) true (some 9) 1).initArray [-65, -127, -126] 0 = (.error .indexError, ⟨some 2, true, some 130, 1⟩) := by rfl

/-! ### Printing -/

theorem fmtD_inj (a b : Int) (h : BERTag.fmtD a = BERTag.fmtD b) : a = b := by
  have hd : ∀ n m : Nat, Nat.toDigits 10 n = Nat.toDigits 10 m → n = m := by
    intro n m e
    rw [← Nat.ofDigitChars_ten_toDigits (n := n), e, Nat.ofDigitChars_ten_toDigits]
  have hminus : ∀ n : Nat, ∀ l, Nat.toDigits 10 n ≠ '-' :: l := by
    intro n l e
    have : ('-' : Char).isDigit = true := Nat.isDigit_of_mem_toDigits (b := 10) (n := n) (by decide) (by decide) (by rw [e]; exact List.mem_cons_self)
    exact absurd this (by decide)
  unfold BERTag.fmtD at h
  split at h <;> split at h
  · injection h with _ h
    have := hd _ _ h
    omega
  · exact absurd h.symm (hminus _ _)
  · exact absurd h (hminus _ _)
  · have := hd _ _ h
    omega

theorem fmtD_comma (n : Int) : ∀ c ∈ BERTag.fmtD n, c ≠ ',' ∧ c ≠ 'C' := by
  intro c hc
  have hd : ∀ c ∈ Nat.toDigits 10 n.natAbs, c ≠ ',' ∧ c ≠ 'C' := by
    intro c hc
    have := Nat.isDigit_of_mem_toDigits (b := 10) (n := n.natAbs) (by decide) (by decide) hc
    constructor <;> rintro rfl <;> exact absurd this (by decide)
  unfold BERTag.fmtD at hc
  split at hc
  · rcases List.mem_cons.1 hc with rfl | hc
    · decide
    · exact hd c hc
  · exact hd c hc

theorem fmtD_ne_nil (n : Int) : BERTag.fmtD n ≠ [] := by
  unfold BERTag.fmtD
  split
  · simp
  · exact Nat.toDigits_ne_nil

/-- Two texts without commas, each followed by a comma, agree exactly when the parts agree. -/
theorem split_comma (a b x y : List Char) (ha : ∀ c ∈ a, c ≠ ',') (hb : ∀ c ∈ b, c ≠ ',') (h : a ++ ',' :: x = b ++ ',' :: y) : a = b ∧ x = y := by
  induction a generalizing b with
  | nil =>
    cases b with
    | nil => injection h with _ h; exact ⟨rfl, h⟩
    | cons c b => injection h with h _; exact absurd h.symm (hb c List.mem_cons_self)
  | cons c a ih =>
    cases b with
    | nil => injection h with h _; exact absurd h (ha c List.mem_cons_self)
    | cons d b =>
      injection h with h1 h2
      obtain ⟨r1, r2⟩ := ih b (fun c hc => ha c (List.mem_cons_of_mem _ hc)) (fun c hc => hb c (List.mem_cons_of_mem _ hc)) h2
      exact ⟨by rw [h1, r1], r2⟩

/-- C91. Two tags that have a class and a number print the same text exactly when they compare equal. -/
theorem C91_str (a b : BERTag) (ac an bc bn : Int) (ha : a.tagClass = some ac) (ha2 : a.tagNumber = some an) (hb : b.tagClass = some bc)
    (hb2 : b.tagNumber = some bn) : ∃ s s', a.str = .ok s ∧ b.str = .ok s' ∧ (s = s' ↔ a.eq b = true) := by
  unfold BERTag.str
  rw [ha, ha2, hb, hb2]
  refine ⟨_, _, rfl, rfl, ?_⟩
  have heq : a.eq b = true ↔ ac = bc ∧ a.tagConstr = b.tagConstr ∧ an = bn := by
    unfold BERTag.eq
    rw [ha, ha2, hb, hb2]
    simp [and_assoc]
  rw [heq]
  constructor
  · intro h
    simp only [List.append_assoc] at h
    have h := List.append_cancel_left h
    have hshape : ∀ (f : Bool) (n : Int), (if f = true then ", CONSTR".toList else []) ++ (", ".toList ++ (BERTag.fmtD n ++ ">".toList)) =
        ',' :: ' ' :: ((if f = true then "CONSTR, ".toList else []) ++ (BERTag.fmtD n ++ ">".toList)) := by
      intro f n; cases f <;> rfl
    rw [hshape, hshape] at h
    obtain ⟨h1, h2⟩ := split_comma _ _ _ _ (fun c hc => (fmtD_comma ac c hc).1) (fun c hc => (fmtD_comma bc c hc).1) h
    injection h2 with _ h2
    have hC : ∀ (n m : Int), "CONSTR, ".toList ++ (BERTag.fmtD n ++ ">".toList) ≠ BERTag.fmtD m ++ ">".toList := by
      intro n m e
      cases hm : BERTag.fmtD m with
      | nil => exact fmtD_ne_nil m hm
      | cons c l =>
        rw [hm] at e
        injection e with e _
        exact (fmtD_comma m c (by rw [hm]; exact List.mem_cons_self)).2 e.symm
    refine ⟨fmtD_inj _ _ h1, ?_⟩
    cases hca : a.tagConstr <;> cases hcb : b.tagConstr <;> rw [hca, hcb] at h2 <;> simp only [Bool.false_eq_true, if_false, if_true, List.nil_append] at h2
    · exact ⟨rfl, fmtD_inj _ _ (List.append_cancel_right h2)⟩
    · exact absurd h2.symm (hC _ _)
    · exact absurd h2 (hC _ _)
    · exact ⟨rfl, fmtD_inj _ _ (List.append_cancel_right (List.append_cancel_left h2))⟩
  · rintro ⟨h1, h2, h3⟩
    rw [h1, h2, h3]

example : (BERTag.mk (some 2) true (some 129) 2).str = .ok "<BERTag: 2, CONSTR, 129>".toList := by decide +kernel

/-- C91. The text itself: class and number in decimal, with a minus sign when negative, and CONSTR for a constructed tag. -/
theorem C91_text (t : BERTag) (cls num : Int) (hc : t.tagClass = some cls) (hn : t.tagNumber = some num) :
    t.str = .ok ("<BERTag: " ++ toString cls ++ (if t.tagConstr then ", CONSTR" else "") ++ ", " ++ toString num ++ ">").toList := by
  have hd : ∀ n : Int, BERTag.fmtD n = (toString n).toList := by
    intro n
    unfold BERTag.fmtD
    cases n with
    | ofNat n =>
      have h0 : (0 : Int) ≤ Int.ofNat n := Int.natCast_nonneg n
      rw [if_neg (by omega)]
      show _ = (Nat.repr n).toList
      simp [Nat.repr]
    | negSucc n =>
      rw [if_pos (Int.negSucc_lt_zero n)]
      show _ = ("-" ++ Nat.repr (n + 1)).toList
      simp [Nat.repr]
  unfold BERTag.str
  rw [hc, hn]
  simp only [hd, String.toList_append]
  cases t.tagConstr <;> rfl

example : (BERTag.mk (some 2) true (some (-19)) 1).str = .ok "<BERTag: 2, CONSTR, -19>".toList := by decide

/-- C91. A tag object just made prints as the tag of class 0 and number 0 of its kind, is written as that tag, and equals it; its size is 0. -/
theorem C91_fresh (c : Bool) : (BERTag.new c).str = .ok (if c then "<BERTag: 0, CONSTR, 0>".toList else "<BERTag: 0, 0>".toList) ∧
    (BERTag.new c).toBytes [9] 0 = (.ok 1, [if c then 32 else 0]) ∧ (BERTag.new c).size = 0 := by
  cases c <;> decide

end Verif.Props
