import Verif.Props.LongTLV
/-! C112: `findNext` with TLVs of more than 127 value bytes among the children. -/
namespace Verif.Props
open Verif.Py Verif.Model Verif.Spec

namespace LongNext

theorem find_split (t : BERTLV) (v : List Int) (hv : t.value = some v) (hlen : t.length = v.length) (w : BERTag) (cls num : Nat) (c : Bool)
    (hw : IsTag w cls c num) (nodes : List Node) (o : Nat) (ho : o ≤ v.length) (he : Children nodes (v.drop o)) (fuel : Nat) (hf : nodes.length < fuel) :
    (t.find_ (some w) o fuel = some (.ok (-1)) ∧ ∀ x ∈ nodes, HasTag cls num c x = false) ∨
    ∃ pre n post, ∃ o' : Nat, t.find_ (some w) o fuel = some (.ok (o' : Int)) ∧ nodes = pre ++ n :: post ∧ (∀ x ∈ pre, HasTag cls num c x = false) ∧
      HasTag cls num c n = true ∧ o' ≤ v.length ∧ Children (n :: post) (v.drop o') := by
  induction nodes generalizing o fuel with
  | nil =>
    cases fuel with
    | zero => simp at hf
    | succ fuel =>
      have : v.drop o = [] := he
      have hl : (v.drop o).length = 0 := by rw [this]; rfl
      simp at hl
      refine .inl ⟨?_, nofun⟩
      unfold BERTLV.find_
      rw [if_neg (by omega)]
  | cons n nodes ih =>
    cases fuel with
    | zero => simp at hf
    | succ fuel =>
      have he' := he
      obtain ⟨a, b, e, hen, hrest⟩ := he
      obtain ⟨hg, hsz⟩ := child_read v o n a b e hen
      have hvl := length_of_drop e ho
      simp only [List.length_append] at hvl
      have hll := BERTLV.lengthLen_pos (n.value.length : Int)
      have hstep : t.find_ (some w) o (fuel + 1) = if HasTag cls num c n = true then some (.ok (o : Int)) else t.find_ (some w) ((o + a.length : Nat) : Int) fuel := by
        rw [BERTLV.find_, if_pos (by omega), hv]
        simp only [Option.getD_some]
        rw [hg]
        simp only
        rw [BERTLV.eq_hasTag w cls num c hw.1 hw.2.1 hw.2.2 n, hasTag_eq]
        split
        · rfl
        · simp only [BERTLV.size, hsz]
          rw [Int.natCast_add]
      rw [hstep]
      cases hm : HasTag cls num c n with
      | true => exact .inr ⟨[], n, nodes, o, by simp, rfl, nofun, hm, ho, he'⟩
      | false =>
        simp only [Bool.false_eq_true, if_false]
        have hd : v.drop (o + a.length) = b := by rw [← List.drop_drop, e]; simp
        rcases ih (o + a.length) (by omega) (by rw [hd]; exact hrest) fuel (by simp at hf; omega) with ⟨h1, h2⟩ | ⟨pre, x, post, o', h1, h2, h3, h4, h5, h6⟩
        · exact .inl ⟨h1, by simpa [hm] using h2⟩
        · exact .inr ⟨n :: pre, x, post, o', h1, by rw [h2]; rfl, by simpa [hm] using h3, h4, h5, h6⟩

/-- The child counts as an occurrence of the given TLV: same tag, and the same value as the code sees it. -/
def Seen (cls num : Nat) (c : Bool) (val : List Int) (n : Node) : Bool := HasTag cls num c n && seenValue n == val

theorem skip (t : BERTLV) (v : List Int) (hv : t.value = some v) (hl : t.length = v.length) (w : BERTag) (cls num : Nat) (c : Bool)
    (hw : IsTag w cls c num) (val : List Int) (occ i : Int) (ff : Nat) (nodes : List Node) (hff : nodes.length < ff) (o : Nat) (ho : o ≤ v.length)
    (he : Children nodes (v.drop o)) (fuel : Nat) (hf : nodes.length < fuel) :
    match afterNth (Seen cls num c val) (occ - i).toNat nodes with
    | none => t.skipLoop (some w) (some val) occ i o ff fuel = some (.ok none)
    | some rest => ∃ o' : Nat, t.skipLoop (some w) (some val) occ i o ff fuel = some (.ok (some (o' : Int))) ∧ o' ≤ v.length ∧ Children rest (v.drop o') := by
  induction fuel generalizing i o nodes with
  | zero => omega
  | succ fuel ih =>
    unfold BERTLV.skipLoop
    by_cases hi : i < occ
    · rw [if_pos hi]
      obtain ⟨k, hk⟩ : ∃ k, (occ - i).toNat = k + 1 := ⟨(occ - i).toNat - 1, by omega⟩
      rw [hk]
      rcases find_split t v hv hl w cls num c hw nodes o ho he ff hff with ⟨h1, h2⟩ | ⟨pre, n, post, o1, h1, h2, h3, h4, h5, h6⟩
      · rw [afterNth_none _ _ _ (by intro x hx; unfold Seen; rw [h2 x hx]; rfl), h1]
        simp
      · rw [h2, afterNth_skip _ _ _ _ (by intro x hx; unfold Seen; rw [h3 x hx]; rfl), h1]
        obtain ⟨a, b, e, hen, hpost⟩ := h6
        obtain ⟨hg, hsz⟩ := child_read v o1 n a b e hen
        simp only
        rw [if_neg (show ¬ (o1 : Int) = -1 by omega), hv, Option.getD_some, hg]
        simp only [BERTLV.size, hsz]
        have hvl := length_of_drop e h5
        simp only [List.length_append] at hvl
        have hd : v.drop (o1 + a.length) = b := by rw [← List.drop_drop, e]; simp
        have ee : (o1 : Int) + (a.length : Int) = ((o1 + a.length : Nat) : Int) := by omega
        have hlen : post.length + 1 ≤ nodes.length := by rw [h2]; simp
        have hsame : Seen cls num c val n = (seenValue n == val) := by unfold Seen; rw [h4]; rfl
        rw [afterNth, hsame, ee]
        by_cases hval : seenValue n = val
        · have e1 : (seenValue n == val) = true := by simp [hval]
          rw [e1, if_pos rfl, if_pos (by rw [hval])]
          have hk2 : k = (occ - (i + 1)).toNat := by omega
          rw [hk2]
          exact ih (i + 1) post (by omega) (o1 + a.length) (by omega) (by rw [hd]; exact hpost) (by omega)
        · have e1 : (seenValue n == val) = false := by simp [hval]
          rw [e1, if_neg (by simp), if_neg (fun h => hval (by simpa using h)), ← hk]
          exact ih i post (by omega) (o1 + a.length) (by omega) (by rw [hd]; exact hpost) (by omega)
    · rw [if_neg hi]
      have : (occ - i).toNat = 0 := by omega
      rw [this, afterNth]
      exact ⟨o, rfl, ho, he⟩

end LongNext
open LongNext

/-- When the code takes two values for the same: they are equal, or both have the same number of bytes, more than 127, and differ in the last byte only. -/
def TakenForSame (x y : List Int) : Prop := x = y ∨ (127 < x.length ∧ x.length = y.length ∧ x.dropLast = y.dropLast)

theorem seen_same (n a : Node) : seenValue n = seenValue a ↔ TakenForSame n.value a.value := by
  unfold seenValue TakenForSame
  by_cases h1 : n.value.length ≤ 127 <;> by_cases h2 : a.value.length ≤ 127 <;> simp only [h1, h2, if_true, if_false]
  · exact ⟨.inl, fun h => h.elim id fun h => by omega⟩
  · refine ⟨fun h => ?_, fun h => ?_⟩
    · have := congrArg List.length h
      simp at this
      omega
    · rcases h with h | h
      · rw [h] at h1; omega
      · omega
  · refine ⟨fun h => ?_, fun h => ?_⟩
    · have := congrArg List.length h
      simp at this
      omega
    · rcases h with h | h
      · rw [h] at h1; omega
      · omega
  · refine ⟨fun h => ?_, fun h => ?_⟩
    · injection h with h3 h4
      exact .inr ⟨by omega, by omega, h4⟩
    · rcases h with h | ⟨_, h3, h4⟩
      · rw [h]
      · rw [h3, h4]

/-- C112. In a constructed TLV whose children have at most 253 value bytes each, `findNext(tag, aTLV, n)` returns the first child with the tag after the `n`-th
occurrence of aTLV, None if there are fewer occurrences or no such child follows. A child is an occurrence if it has the same tag and the same value - above 127
bytes the last byte is not looked at. -/
theorem C112_findNext (t : BERTLV) (hc : t.constructed = true) (v : List Int) (hv : t.value = some v) (hl : t.length = v.length) (nodes : List Node) (he : Children nodes v)
    (w : BERTag) (cls num : Nat) (c : Bool) (hw : IsTag w cls c num) (aTLV : BERTLV) (a : Node) (ha : Reports aTLV a) (occurs : Node → Bool)
    (ho : ∀ n, occurs n = true ↔ n.cls = a.cls ∧ n.constructed = a.constructed ∧ n.num = a.num ∧ TakenForSame n.value a.value)
    (occ : Int) (fuel : Nat) (hf : nodes.length < fuel) :
    match afterNth occurs occ.toNat nodes with
    | none => t.findNext (some w) aTLV occ fuel = some (.ok none)
    | some rest =>
      match rest.find? (HasTag cls num c) with
      | none => t.findNext (some w) aTLV occ fuel = some (.ok none)
      | some n => ∃ r, t.findNext (some w) aTLV occ fuel = some (.ok (some r)) ∧ Reports r n := by
  obtain ⟨_, ⟨tag, hat, hit⟩, _, hav⟩ := ha
  have heq : occurs = Seen a.cls a.num a.constructed (seenValue a) := by
    funext n
    rw [Bool.eq_iff_iff, ho]
    unfold Seen HasTag
    simp [and_assoc, seen_same]
  rw [heq]
  have hs := skip t v hv hl tag a.cls a.num a.constructed hit (seenValue a) occ 0 fuel nodes hf 0 (by omega) (by simpa using he) fuel hf
  rw [show occ - 0 = occ by omega, show ((0 : Nat) : Int) = 0 from rfl] at hs
  unfold BERTLV.findNext
  rw [if_neg (show ¬ ¬ t.constructed = true by simp [hc])]
  rw [hat, hav]
  cases hr : afterNth (Seen a.cls a.num a.constructed (seenValue a)) occ.toNat nodes with
  | none =>
    rw [hr] at hs
    simp only at hs ⊢
    rw [hs]
  | some rest =>
    rw [hr] at hs
    obtain ⟨o', h1, h2, h3⟩ := hs
    simp only
    rw [h1]
    simp only
    have hrl := afterNth_length _ _ _ _ hr
    rcases find_split t v hv hl w cls num c hw rest o' h2 h3 fuel (by omega) with ⟨k1, k2⟩ | ⟨pre, n, post, o2, k1, k2, k3, k4, k5, k6⟩
    · have : rest.find? (HasTag cls num c) = none := by
        rw [List.find?_eq_none]
        intro x hx
        rw [k2 x hx]
        simp
      rw [this, k1]
      simp
    · have : rest.find? (HasTag cls num c) = some n := by
        rw [List.find?_eq_some_iff_append]
        refine ⟨k4, pre, post, k2, ?_⟩
        intro x hx
        rw [k3 x hx]
        rfl
      rw [this, k1]
      simp only
      rw [if_neg (show ¬ (o2 : Int) = -1 by omega), hv, Option.getD_some]
      obtain ⟨x, y, e, hen, _⟩ := k6
      rw [(child_read v o2 n x y e hen).1]
      exact ⟨_, rfl, rfl, ⟨_, rfl, rfl, rfl, rfl⟩, rfl, rfl⟩

/-- C112. `findNext(None, aTLV, n)` over such children returns the child right after the `n`-th occurrence, None if there are fewer; when the occurrence is the last
child it raises ArrayIndexOutOfBoundsException. -/
theorem C112_findNext_none (t : BERTLV) (hc : t.constructed = true) (v : List Int) (hv : t.value = some v) (hl : t.length = v.length) (nodes : List Node) (he : Children nodes v)
    (aTLV : BERTLV) (a : Node) (ha : Reports aTLV a) (occurs : Node → Bool)
    (ho : ∀ n, occurs n = true ↔ n.cls = a.cls ∧ n.constructed = a.constructed ∧ n.num = a.num ∧ TakenForSame n.value a.value)
    (occ : Int) (fuel : Nat) (hf : nodes.length < fuel) :
    match afterNth occurs occ.toNat nodes with
    | none => t.findNext none aTLV occ fuel = some (.ok none)
    | some [] => t.findNext none aTLV occ fuel = some (.error .arrayIndexOutOfBounds)
    | some (n :: _) => ∃ r, t.findNext none aTLV occ fuel = some (.ok (some r)) ∧ Reports r n := by
  obtain ⟨_, ⟨tag, hat, hit⟩, _, hav⟩ := ha
  have heq : occurs = Seen a.cls a.num a.constructed (seenValue a) := by
    funext n
    rw [Bool.eq_iff_iff, ho]
    unfold Seen HasTag
    simp [and_assoc, seen_same]
  rw [heq]
  have hs := skip t v hv hl tag a.cls a.num a.constructed hit (seenValue a) occ 0 fuel nodes hf 0 (by omega) (by simpa using he) fuel hf
  rw [show occ - 0 = occ by omega, show ((0 : Nat) : Int) = 0 from rfl] at hs
  unfold BERTLV.findNext
  rw [if_neg (show ¬ ¬ t.constructed = true by simp [hc])]
  rw [hat, hav]
  cases hr : afterNth (Seen a.cls a.num a.constructed (seenValue a)) occ.toNat nodes with
  | none =>
    rw [hr] at hs
    simp only at hs ⊢
    rw [hs]
  | some rest =>
    rw [hr] at hs
    obtain ⟨o', h1, h2, h3⟩ := hs
    cases rest with
    | nil =>
      have hz : v.drop o' = [] := h3
      have hlen := length_of_drop hz h2
      simp only
      rw [h1]
      simp only
      rw [hv]
      simp only
      have hb : BERTag.getInstance v (o' : Int) = .error .arrayIndexOutOfBounds := by
        unfold BERTag.getInstance
        rw [get_natCast_out _ _ (by simp at hlen; omega)]
        rfl
      have : BERTLV.getInstance v (o' : Int) none = .error .arrayIndexOutOfBounds := by
        unfold BERTLV.getInstance BERTLV.getLengthStatic
        simp only [bind, Except.bind, hb]
      rw [this]
      rfl
    | cons n post =>
      simp only
      rw [h1]
      simp only
      rw [hv]
      simp only
      obtain ⟨x, y, e, hen, _⟩ := h3
      rw [(child_read v o' n x y e hen).1]
      exact ⟨_, rfl, rfl, ⟨_, rfl, rfl, rfl, rfl⟩, rfl, rfl⟩

/-- The children: 04 with 200 bytes ending in 7, 04 with 200 bytes ending in 8, 05. -/
private def kids : List Node := [longNode 200, ⟨0, false, 4, List.replicate 199 7 ++ [8]⟩, ⟨0, false, 5, [1]⟩]

private def kidsCells : List Int := (4 :: -127 :: (200 : Int) :: List.replicate 200 7) ++ ((4 :: -127 :: (200 : Int) :: (List.replicate 199 7 ++ [8])) ++ [5, 1, 1])

set_option maxRecDepth 20000 in
example : Children kids kidsCells := by
  refine ⟨_, _, rfl, .inr ⟨longNode_encodes 200 (by decide) (by decide), by rw [show (longNode 200).value.length = 200 from List.length_replicate]; decide⟩, _, _, rfl, .inr ⟨?_, by decide +kernel⟩, ?_⟩
  · exact ⟨by decide, by decide, by decide +kernel, by decide +kernel, 4, -127, ⟨by decide, .inl (by decide)⟩, ⟨by decide, .inr (by decide)⟩, by decide +kernel⟩
  · exact ⟨[5, 1, 1], [], rfl, .inl ⟨by decide, by decide, by decide, 5, by simp [Spells, leading], rfl⟩, rfl⟩

set_option maxRecDepth 20000 in
/-- Looking for the 04 after the second occurrence of the first child: the second child, which differs from it in the last byte, counts. -/
example : (BERTLV.mk true (some ⟨some 0, true, some 16, 1⟩) 409 (some kidsCells)).findNext (some ⟨some 0, false, some 5, 1⟩)
      ⟨false, some ⟨some 0, false, some 4, 1⟩, 200, some (200 :: List.replicate 199 7)⟩ 2 9 = some (.ok (some ⟨false, some ⟨some 0, false, some 5, 1⟩, 1, some [1]⟩)) ∧
    TakenForSame (List.replicate 199 7 ++ [8]) (longNode 200).value ∧ List.replicate 199 7 ++ [8] ≠ (longNode 200).value ∧
    Reports ⟨false, some ⟨some 0, false, some 4, 1⟩, 200, some (200 :: List.replicate 199 7)⟩ (longNode 200) := by
  refine ⟨by decide +kernel, .inr (by decide +kernel), by decide +kernel, rfl, ⟨_, rfl, rfl, rfl, rfl⟩, by decide +kernel, by decide +kernel⟩

end Verif.Props
