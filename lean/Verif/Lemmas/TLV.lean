import Verif.Lemmas.Tag
import Verif.Model.BERTLV
/-! Lemmas about reading, writing and searching TLVs. -/
namespace Verif.Model
open Verif.Py Verif.Spec
namespace BERTLV

/-- The TLV object read from an encoded node. -/
def ofNode (n : Node) : BERTLV :=
  ⟨n.constructed, some ⟨some (n.cls : Int), n.constructed, some (n.num : Int), 1⟩, (n.value.length : Int), some n.value⟩

theorem lengthField_short (len : Nat) (r : List Int) (h : len ≤ 127) : getLengthField ((len : Int) :: r) = .ok (1, (len : Int)) := by
  unfold getLengthField
  have : get ((len : Int) :: r) 0 = .ok (len : Int) := by
    have := get_natCast ((len : Int) :: r) 0 (by simp)
    simpa using this
  rw [this]
  simp only
  rw [if_neg (by rw [iand_80]; omega)]

/-- Reading a TLV once tag and length field are known. -/
theorem getInstance_of (arr : List Int) (o s l : Nat) (len : Int) (tag : BERTag) (ht : BERTag.getInstance arr o = .ok tag)
    (hs : tag.size = s) (hl : getLengthField (arr.drop (o + s)) = .ok ((l : Int), len)) :
    getInstance arr o none =
      .ok ⟨tag.tagConstr, some tag, len, some (slice arr ((o + s + l : Nat) : Int) (((o + s + l : Nat) : Int) + len))⟩ ∧
    getLengthStatic arr o = .ok ((s + l : Nat) + len) := by
  have e1 : sliceFrom arr ((o : Int) + tag.size) = arr.drop (o + s) := by
    rw [hs, ← Int.natCast_add, sliceFrom_natCast]
  have h2 : getLengthStatic arr o = .ok ((s + l : Nat) + len) := by
    unfold getLengthStatic
    rw [ht]
    simp only [bind, Except.bind, pure, Except.pure]
    rw [e1, hl]
    simp only [hs]
    congr 1
  refine ⟨?_, h2⟩
  unfold getInstance
  simp only
  rw [h2]
  simp only [bind, Except.bind, pure, Except.pure]
  rw [ht]
  simp only
  rw [e1, hl]
  simp only [initTag, new, hs]
  have e2 : ((s + l : Nat) : Int) + len - (s : Int) - (l : Int) = len := by omega
  have e3 : (o : Int) + (s : Int) + (l : Int) = ((o + s + l : Nat) : Int) := by omega
  rw [e2, e3]

/-- Reading an encoded node at an offset. -/
theorem getInstance_node (arr : List Int) (o : Nat) (n : Node) (enc rest : List Int) (hd : arr.drop o = enc ++ rest) (he : Encodes n enc) :
    getInstance arr o none = .ok (ofNode n) ∧ getLengthStatic arr o = .ok (2 + (n.value.length : Int)) := by
  obtain ⟨h1, h2, h3, b, hb, rfl⟩ := he
  have ht := BERTag.getInstance_decode arr o [b] ((n.value.length : Int) :: n.value ++ rest) [leading n.cls n.constructed n.num]
    n.cls n.num n.constructed (by rw [hd]; rfl) ⟨hb, trivial⟩ ⟨h1, .inl ⟨h2, rfl⟩⟩
  obtain ⟨g1, g2, g3⟩ := get_of_drop (i := o) hd
  have hl : getLengthField (arr.drop (o + 1)) = .ok (((1 : Nat) : Int), (n.value.length : Int)) := by
    rw [g2]; exact lengthField_short _ _ h3
  obtain ⟨r1, r2⟩ := getInstance_of arr o 1 1 _ _ ht (by simp) hl
  refine ⟨?_, by rw [r2]; rfl⟩
  rw [r1]
  have hsl : slice arr ((o + 1 + 1 : Nat) : Int) (((o + 1 + 1 : Nat) : Int) + (n.value.length : Int)) = n.value := by
    rw [slice_add]
    have : arr.drop (o + 1 + 1) = n.value ++ rest := by
      rw [← List.drop_drop, g2]; rfl
    rw [this]; simp
  rw [hsl]
  simp [ofNode]

theorem lengthLen_short (n : Int) (h : n ≤ 127) : getLengthLen n = 1 := by
  unfold getLengthLen; rw [if_neg (by omega)]

theorem lengthLen_pos (n : Int) : 1 ≤ getLengthLen n := by
  unfold getLengthLen; split <;> omega

theorem ofNode_size (n : Node) (h : n.value.length ≤ 127) : (ofNode n).size = .ok (2 + (n.value.length : Int)) := by
  have := lengthLen_short (n.value.length : Int) (by omega)
  simp only [ofNode, size]
  rw [this]
  rfl

theorem encodes_length {n : Node} {l : List Int} (h : Encodes n l) : l.length = 2 + n.value.length := by
  obtain ⟨_, _, _, b, _, rfl⟩ := h
  simp; omega

/-- The node has the wanted tag. -/
def hasTag (cls num : Nat) (c : Bool) (n : Node) : Bool := decide (n.cls = cls ∧ n.constructed = c ∧ n.num = num)

theorem eq_hasTag (w : BERTag) (cls num : Nat) (c : Bool) (h1 : w.tagClass = some (cls : Int)) (h2 : w.tagConstr = c)
    (h3 : w.tagNumber = some (num : Int)) (n : Node) :
    BERTag.eq ⟨some (n.cls : Int), n.constructed, some (n.num : Int), 1⟩ w = hasTag cls num c n := by
  unfold BERTag.eq hasTag
  rw [h1, h2, h3]
  simp only [Option.some.injEq, Int.natCast_inj]
  simp [Bool.and_assoc]

/-- Where `_find` stops, in a value that is a sequence of nodes from `o` on. -/
theorem find__spec (t : BERTLV) (v : List Int) (hv : t.value = some v) (hlen : t.length = v.length) (w : BERTag) (cls num : Nat) (c : Bool)
    (h1 : w.tagClass = some (cls : Int)) (h2 : w.tagConstr = c) (h3 : w.tagNumber = some (num : Int))
    (nodes : List Node) (o : Nat) (ho : o ≤ v.length) (he : EncodesAll nodes (v.drop o)) (fuel : Nat) (hf : nodes.length < fuel) :
    (t.find_ (some w) o fuel = some (.ok (-1)) ∧ ∀ n ∈ nodes, hasTag cls num c n = false) ∨
    ∃ (pre : List Node) (n : Node) (post : List Node) (o' : Nat), t.find_ (some w) o fuel = some (.ok (o' : Int)) ∧ nodes = pre ++ n :: post ∧
      (∀ m ∈ pre, hasTag cls num c m = false) ∧ hasTag cls num c n = true ∧ o' ≤ v.length ∧ EncodesAll (n :: post) (v.drop o') := by
  induction nodes generalizing o fuel with
  | nil =>
    cases fuel with
    | zero => simp at hf
    | succ fuel =>
      left
      have : v.drop o = [] := he
      have hl : (v.drop o).length = 0 := by rw [this]; rfl
      simp at hl
      unfold find_
      rw [if_neg (by omega)]
      exact ⟨rfl, by simp⟩
  | cons n nodes ih =>
    cases fuel with
    | zero => simp at hf
    | succ fuel =>
      have he0 := he
      obtain ⟨a, b, e, hen, hrest⟩ := he
      have hal := encodes_length hen
      have hvl := length_of_drop e ho
      simp only [List.length_append] at hvl
      obtain ⟨hg, _⟩ := getInstance_node v o n a b e hen
      unfold find_
      rw [if_pos (by omega), hv]
      simp only [Option.getD_some]
      rw [hg]
      simp only [ofNode]
      rw [eq_hasTag w cls num c h1 h2 h3 n]
      by_cases hm : hasTag cls num c n = true
      · rw [if_pos hm]
        exact .inr ⟨[], n, nodes, o, rfl, rfl, by simp, hm, ho, he0⟩
      · have hs := ofNode_size n hen.2.2.1
        simp only [ofNode] at hs
        rw [if_neg hm, hs]
        simp only
        have hd : v.drop (o + (2 + n.value.length)) = b := by
          rw [← List.drop_drop, e, ← hal]; simp
        have ee : (o : Int) + (2 + (n.value.length : Int)) = ((o + (2 + n.value.length) : Nat) : Int) := by omega
        rw [ee]
        rcases ih (o + (2 + n.value.length)) (by omega) (by rw [hd]; exact hrest) fuel (by simp at hf; omega) with ⟨r1, r2⟩ | ⟨pre, m, post, o', r1, r2, r3, r4, r5⟩
        · refine .inl ⟨r1, ?_⟩
          intro x hx
          rcases List.mem_cons.1 hx with rfl | hx
          · simpa using hm
          · exact r2 x hx
        · refine .inr ⟨n :: pre, m, post, o', r1, by rw [r2]; rfl, ?_, r4, r5⟩
          intro x hx
          rcases List.mem_cons.1 hx with rfl | hx
          · simpa using hm
          · exact r3 x hx

/-- More fuel gives the same answer. -/
theorem find__mono (t : BERTLV) (tag : Option BERTag) (o : Int) (f k : Nat) (r : Except Err Int) (h : t.find_ tag o f = some r) :
    t.find_ tag o (f + k) = some r := by
  induction f generalizing o with
  | zero => cases h
  | succ f ih =>
    rw [show f + 1 + k = (f + k) + 1 by omega]
    unfold find_ at h ⊢
    by_cases hl : o < t.length
    · rw [if_pos hl] at h ⊢
      cases hg : getInstance (t.value.getD []) o none with
      | error e => rw [hg] at h; exact h
      | ok tlv =>
        rw [hg] at h
        simp only at h ⊢
        cases ht : tlv.tag with
        | none => rw [ht] at h; exact h
        | some a =>
          cases tag with
          | none => rw [ht] at h; exact h
          | some b =>
            rw [ht] at h
            simp only at h ⊢
            by_cases hab : a.eq b = true
            · rw [if_pos hab] at h ⊢; exact h
            · rw [if_neg hab] at h ⊢
              cases hs : tlv.size with
              | error e => rw [hs] at h; exact h
              | ok n => rw [hs] at h; exact ih _ h
    · rw [if_neg hl] at h ⊢; exact h

/-- A tag that was read has size at least 1. -/
theorem tag_size_pos (arr : List Int) (o : Int) (t : BERTag) (h : BERTag.getInstance arr o = .ok t) : 1 ≤ t.size := by
  have hnum : ∀ n num k a r, 1 ≤ k → BERTag.numLoop arr o num k n = (.ok a, r) → 1 ≤ a := by
    intro n
    induction n with
    | zero => intro num k a r _ h; cases h
    | succ n ih =>
      intro num k a r hk h
      unfold BERTag.numLoop at h
      cases hg : get arr (o + k) with
      | error e => rw [hg] at h; cases h
      | ok b =>
        rw [hg] at h
        simp only at h
        split at h
        · exact ih _ _ _ _ (by omega) h
        · injection h with h1; injection h1 with h1; omega
  have hbase : ∀ (u : BERTag) (t : BERTag), u.baseInit arr o = (.ok (), t) → 1 ≤ t.size := by
    intro u t h
    unfold BERTag.baseInit at h
    cases hg : get arr o with
    | error e => rw [hg] at h; cases h
    | ok b =>
      rw [hg] at h
      simp only at h
      split at h
      · split at h
        · cases h
        · next heq =>
          injection h with _ h
          subst h
          exact hnum _ _ _ _ _ (by omega) heq
      · injection h with _ h; subst h; exact Int.le_refl 1
  unfold BERTag.getInstance at h
  cases hg : get arr o with
  | error e => rw [hg] at h; simp only [mapIndexError] at h; split at h <;> cases h
  | ok b =>
    rw [hg] at h
    simp only at h
    generalize hr : (BERTag.new (decide (iand (shr b 5) 0x1 ≠ 0))).initArray arr o = r at h
    obtain ⟨r1, r2⟩ := r
    cases r1 with
    | error e => simp only [mapIndexError] at h; split at h <;> cases h
    | ok u =>
      simp only [mapIndexError] at h
      injection h with h
      subst h
      unfold BERTag.initArray at hr
      rw [hg] at hr
      simp only at hr
      split at hr
      · split at hr
        · cases hr
        · exact hbase _ _ hr
      · split at hr
        · cases hr
        · exact hbase _ _ hr

/-- With cells ≥ 0 the length read is ≥ 0. -/
theorem lengthField_nonneg (arr : List Int) (h : ∀ x ∈ arr, 0 ≤ x) (l len : Int) (hl : getLengthField arr = .ok (l, len)) : 0 ≤ len := by
  unfold getLengthField at hl
  rcases get_ok_or_indexError arr 0 with ⟨b, hm, hg⟩ | hg
  · rw [hg] at hl
    simp only at hl
    split at hl
    · injection hl with hl
      injection hl with _ hl
      subst hl
      have key : ∀ (m : List Int) (acc : Int), (∀ x ∈ m, 0 ≤ x) → 0 ≤ acc → 0 ≤ m.foldl (fun value i => shl value 8 + i) acc := by
        intro m
        induction m with
        | nil => intro acc _ h; exact h
        | cons x m ih =>
          intro acc hx ha
          rw [List.foldl_cons]
          apply ih
          · exact fun y hy => hx y (List.mem_cons_of_mem _ hy)
          · have := hx x List.mem_cons_self
            unfold shl; omega
      apply key _ _ _ (by decide)
      intro x hx
      rw [List.mem_reverse] at hx
      unfold slice at hx
      exact h x (List.mem_of_mem_drop (List.mem_of_mem_take hx))
    · injection hl with hl
      injection hl with _ hl
      subst hl
      exact h b hm
  · rw [hg] at hl; cases hl

/-- With cells ≥ 0 every TLV read has size at least 2. -/
theorem size_pos (arr : List Int) (h : ∀ x ∈ arr, 0 ≤ x) (o : Int) (tlv : BERTLV) (hg : getInstance arr o none = .ok tlv) :
    ∃ n tag, tlv.size = .ok n ∧ 2 ≤ n ∧ tlv.tag = some tag := by
  unfold getInstance at hg
  simp only [bind, Except.bind, pure, Except.pure] at hg
  cases h1 : getLengthStatic arr o with
  | error e => rw [h1] at hg; cases hg
  | ok bLen =>
    rw [h1] at hg
    simp only at hg
    cases h2 : BERTag.getInstance arr o with
    | error e => rw [h2] at hg; cases hg
    | ok tag =>
      rw [h2] at hg
      simp only at hg
      cases h3 : getLengthField (sliceFrom arr (o + tag.size)) with
      | error e => rw [h3] at hg; cases hg
      | ok p =>
        obtain ⟨l, len⟩ := p
        rw [h3] at hg
        simp only at hg
        injection hg with hg
        unfold getLengthStatic at h1
        simp only [bind, Except.bind, pure, Except.pure] at h1
        rw [h2] at h1
        simp only at h1
        rw [h3] at h1
        simp only at h1
        injection h1 with h1
        subst h1
        have hs := tag_size_pos arr o tag h2
        have hn := lengthField_nonneg _ (fun x hx => h x (by unfold sliceFrom at hx; exact List.mem_of_mem_drop hx)) l len h3
        subst hg
        refine ⟨_, tag, rfl, ?_, rfl⟩
        have hp := lengthLen_pos (tag.size + l + len - tag.size - l)
        simp only [initTag]
        omega

/-- With cells ≥ 0, `_find` finishes, and returns -1 or an offset not before the start. -/
theorem find__total (t : BERTLV) (h : ∀ x ∈ t.value.getD [], 0 ≤ x) (tag : Option BERTag) (o : Int) (ho : 0 ≤ o) (fuel : Nat)
    (hf : t.length - o < fuel) (hf0 : 0 < fuel) :
    ∃ r, t.find_ tag o fuel = some r ∧ ∀ o', r = .ok o' → o' = -1 ∨ (o ≤ o' ∧ o' < t.length) := by
  induction fuel generalizing o with
  | zero => omega
  | succ fuel ih =>
    unfold find_
    by_cases hl : o < t.length
    · rw [if_pos hl]
      cases hg : getInstance (t.value.getD []) o none with
      | error e => exact ⟨_, rfl, by simp⟩
      | ok tlv =>
        obtain ⟨n, tg, hs, hn, htg⟩ := size_pos _ h o tlv hg
        simp only [htg, hs]
        cases tag with
        | none => exact ⟨_, rfl, by simp⟩
        | some w =>
          simp only
          by_cases hw : tg.eq w = true
          · rw [if_pos hw]
            exact ⟨_, rfl, fun o' ho' => by injection ho' with ho'; omega⟩
          · rw [if_neg hw]
            obtain ⟨r, hr, hr2⟩ := ih (o + n) (by omega) (by omega) (by omega)
            refine ⟨r, hr, fun o' ho' => ?_⟩
            have := hr2 o' ho'
            omega
    · rw [if_neg hl]
      exact ⟨_, rfl, fun o' ho' => by injection ho' with ho'; omega⟩

/-- ... and so does the counting loop of `findNext`. -/
theorem skipLoop_total (t : BERTLV) (h : ∀ x ∈ t.value.getD [], 0 ≤ x) (tag : Option BERTag) (v : Option (List Int)) (occ i o : Int)
    (ho : 0 ≤ o) (ff : Nat) (hff : t.length < ff) (hff0 : 0 < ff) (fuel : Nat) (hf : t.length - o < fuel) (hf0 : 0 < fuel) :
    ∃ r, t.skipLoop tag v occ i o ff fuel = some r ∧ ∀ o', r = .ok (some o') → 0 ≤ o' := by
  induction fuel generalizing i o with
  | zero => omega
  | succ fuel ih =>
    unfold skipLoop
    by_cases hi : i < occ
    · rw [if_pos hi]
      obtain ⟨r, hr, hr2⟩ := find__total t h tag o ho ff (by omega) hff0
      rw [hr]
      cases r with
      | error e => exact ⟨_, rfl, by simp⟩
      | ok o' =>
        simp only
        by_cases h1 : o' = -1
        · rw [if_pos h1]; exact ⟨_, rfl, by simp⟩
        · rw [if_neg h1]
          have hb := hr2 o' rfl
          cases hg : getInstance (t.value.getD []) o' none with
          | error e => exact ⟨_, rfl, by simp⟩
          | ok tlv =>
            obtain ⟨n, tg, hs, hn, htg⟩ := size_pos _ h o' tlv hg
            simp only [hs]
            exact ih _ _ (by omega) (by omega) (by omega)
    · rw [if_neg hi]
      exact ⟨_, rfl, fun x hx => by injection hx with hx; injection hx with hx; omega⟩

/-- Writing a TLV of at most 127 value bytes. -/
theorem toBytes_short (t : BERTLV) (tag : BERTag) (cls num : Nat) (c : Bool) (ht : t.tag = some tag) (h1 : tag.tagClass = some (cls : Int))
    (h2 : tag.tagConstr = c) (h3 : tag.tagNumber = some (num : Int)) (v : List Int) (hv : t.value = some v) (hl : t.length = v.length)
    (h127 : v.length ≤ 127) (buf : List Int) (o : Nat) (hr : o + (BERTag.octets cls c num).length + 1 + v.length ≤ buf.length) :
    t.toBytes buf o = (.ok (((BERTag.octets cls c num).length + 1 + v.length : Nat) : Int),
      splice (buf.map BERTag.norm) o (((BERTag.octets cls c num).map fun n : Nat => BERTag.norm (n : Int)) ++ (v.length : Int) :: v)) := by
  unfold toBytes
  rw [ht]
  simp only
  rw [BERTag.toBytes_eq tag cls num c h1 h2 h3 buf o (by omega)]
  simp only
  rw [if_neg (by omega)]
  generalize hbs : ((BERTag.octets cls c num).map fun n : Nat => BERTag.norm (n : Int)) = bs
  have hbl : (BERTag.octets cls c num).length = bs.length := by rw [← hbs]; simp
  rw [hbl] at hr ⊢
  have hml : (buf.map BERTag.norm).length = buf.length := by simp
  rw [set_step _ _ _ _ (by rw [splice_length _ _ _ (by omega)]; omega)]
  simp only [hv, Option.getD_some]
  have e1 : (splice (buf.map BERTag.norm) o bs).set (o + bs.length) t.length = splice (buf.map BERTag.norm) o (bs ++ [(v.length : Int)]) := by
    rw [hl, ← splice_one _ _ _ (by rw [splice_length _ _ _ (by omega)]; omega), splice_append _ _ _ _ (by simp; omega)]
  rw [e1, hl]
  have e2 : (o : Int) + ((bs.length : Int) + 1) = ((o + (bs ++ [(v.length : Int)]).length : Nat) : Int) := by simp
  rw [e2]
  have := arrayCopy_ok v (splice (buf.map BERTag.norm) o (bs ++ [(v.length : Int)])) 0 (o + (bs ++ [(v.length : Int)]).length) v.length (by omega)
    (by rw [splice_length _ _ _ (by simp; omega)]; simp; omega)
  rw [show ((0 : Nat) : Int) = 0 from rfl] at this
  rw [this]
  simp only [List.drop_zero, List.take_length]
  rw [splice_append _ _ _ _ (by simp; omega)]
  simp

end BERTLV
end Verif.Model
