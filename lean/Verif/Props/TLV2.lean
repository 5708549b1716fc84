import Verif.Props.TLV
/-! C69-C72: multi-byte tags, static helpers, value access. -/
namespace Verif.Props
open Verif.Py Verif.Model Verif.Spec

theorem spellsAll_split {cells : List Int} {ns ms : List Nat} (h : SpellsAll cells (ns ++ ms)) :
    ∃ as bs, cells = as ++ bs ∧ SpellsAll as ns ∧ SpellsAll bs ms := by
  induction ns generalizing cells with
  | nil => exact ⟨[], cells, rfl, trivial, h⟩
  | cons n ns ih =>
    cases cells with
    | nil => exact h.elim
    | cons c cells =>
      obtain ⟨h1, h2⟩ := h
      obtain ⟨as, bs, rfl, h3, h4⟩ := ih h2
      exact ⟨c :: as, bs, rfl, ⟨h1, h3⟩, h4⟩

/-! ### C69 -/

/-- C69. A TLV whose tag takes two or more octets is misread: the last tag octet is taken for the length, and the value is
taken from the octet that follows the tag (the real length octet) on. -/
theorem C69_misread (arr : List Int) (o : Nat) (cells rest : List Int) (ns : List Nat) (cls num : Nat) (c : Bool)
    (hd : arr.drop o = cells ++ rest) (hs : SpellsAll cells ns) (ht : TagOctets cls c num ns) (h2 : 2 ≤ ns.length) :
    ∃ t tag last, BERTLV.getInstance arr o none = .ok t ∧ t.tag = some tag ∧ IsTag tag cls c num ∧
      ns.getLast? = some last ∧ t.length = last ∧ t.value = some (range arr (o + ns.length) last) := by
  have hg := BERTag.getInstance_decode arr o cells rest ns cls num c hd hs ht
  obtain ⟨hc, ⟨_, rfl⟩ | ⟨ds, last, rfl, hds, hlast, hnum⟩⟩ := ht
  · simp at h2
  · have hs' : SpellsAll cells ((leading cls c 31 :: ds.map (128 + ·)) ++ [last]) := by simpa using hs
    obtain ⟨as, bs, rfl, ha, hb⟩ := spellsAll_split hs'
    have hal := BigNumber.spellsAll_length ha
    cases bs with
    | nil => exact hb.elim
    | cons b bs =>
      cases bs with
      | cons b' bs => exact hb.2.elim
      | nil =>
        have hbl : b = (last : Int) := by
          have := hb.1
          unfold Spells at this
          omega
        subst hbl
        have hl : getLengthField (arr.drop (o + (ds.length + 1))) = .ok (((1 : Nat) : Int), (last : Int)) := by
          have : arr.drop (o + (ds.length + 1)) = (last : Int) :: rest := by
            rw [← List.drop_drop, hd, List.append_assoc, List.drop_append_of_le_length (by simp at hal; omega),
              List.drop_eq_nil_of_le (by simp at hal; omega)]
            rfl
          rw [this]
          exact BERTLV.lengthField_short last _ (by omega)
        have hsz : (if (leading cls c 31 :: (ds.map (128 + ·) ++ [last])).length = 1 then (1 : Int)
            else ((leading cls c 31 :: (ds.map (128 + ·) ++ [last])).length : Int) - 1) = ((ds.length + 1 : Nat) : Int) := by
          simp
        rw [hsz] at hg
        obtain ⟨r1, _⟩ := BERTLV.getInstance_of arr o (ds.length + 1) 1 _ _ hg rfl hl
        refine ⟨_, _, last, r1, rfl, ⟨rfl, rfl, rfl⟩, ?_, rfl, ?_⟩
        · rw [← List.cons_append, List.getLast?_append]; rfl
        · simp only
          rw [slice_add]
          unfold range
          simp only [List.length_cons, List.length_append, List.length_map, List.length_nil]
          rfl

/-- Tag 9F 05 (two octets), length 2, value AA BB: read as length 5 with the real length octet at the head of the value. -/
example : BERTLV.getInstance [0x9f, 5, 2, 10, 11, 99, 98, 97, 96] 0 none = .ok ⟨false, some ⟨some 2, false, some 5, 1⟩, 5, some [2, 10, 11, 99, 98]⟩ := by rfl
example : TagOctets 2 false 5 [0x9f, 5] :=
  ⟨by decide, .inr ⟨[], 5, rfl, by simp, by decide, rfl⟩⟩

/-! ### C70 -/

/-- C70. The static `getLength` of an encoded short TLV returns the size of the whole encoding - two more than the length of
its value, which is what the Java Card API promises. -/
theorem C70_static_getLength (arr : List Int) (o : Nat) (n : Node) (enc rest : List Int) (hd : arr.drop o = enc ++ rest) (he : Encodes n enc) :
    BERTLV.getLengthStatic arr o = .ok (enc.length : Int) ∧ (enc.length : Int) = n.value.length + 2 := by
  have := BERTLV.encodes_length he
  refine ⟨?_, by omega⟩
  rw [(BERTLV.getInstance_node arr o n enc rest hd he).2, this]
  congr 1

/-- C70. `getValueOffset` of an encoded short TLV is the offset of its value. -/
theorem C70_getValueOffset (arr : List Int) (o : Nat) (n : Node) (enc rest : List Int) (hd : arr.drop o = enc ++ rest) (he : Encodes n enc) :
    ∃ k : Nat, BERTLV.getValueOffset arr o = .ok (k : Int) ∧ range arr k n.value.length = n.value := by
  have hl := he.2.2.1
  have h := (BERTLV.getInstance_node arr o n enc rest hd he).1
  have hll := BERTLV.lengthLen_short (n.value.length : Int) (by omega)
  refine ⟨o + 2, ?_, ?_⟩
  · unfold BERTLV.getValueOffset
    rw [h]
    simp only [BERTLV.ofNode]
    rw [hll]
    congr 1
  · obtain ⟨_, _, _, b, _, rfl⟩ := he
    unfold range
    rw [← List.drop_drop, hd]
    simp

example : BERTLV.getLengthStatic [4, 2, 7, 7] 0 = .ok 4 ∧ BERTLV.getValueOffset [4, 2, 7, 7] 0 = .ok 2 := ⟨rfl, rfl⟩

/-! ### C71 -/

/-- C71. `getValue` copies the whole value to the given place and returns its length. -/
theorem C71_getValue (t : BERTLV) (hp : t.constructed = false) (v : List Int) (hv : t.value = some v) (hl : t.length = v.length) (dst : List Int) (o : Nat)
    (h : o + v.length ≤ dst.length) :
    ∃ dst', t.getValue dst o = (.ok (v.length : Int), dst') ∧ Written dst dst' o v := by
  refine ⟨splice dst o v, ?_, written_splice dst o v h⟩
  unfold BERTLV.getValue
  rw [if_neg (show ¬ t.constructed = true by simp [hp])]
  have := arrayCopy_ok v dst 0 o v.length (by omega) h
  rw [show ((0 : Nat) : Int) = 0 from rfl] at this
  rw [hv, hl, Option.getD_some, this]
  simp

/-- C71. When it does not fit it raises ArrayIndexOutOfBoundsException, after having written the first part of the value up to
the end of the array. -/
theorem C71_getValue_does_not_fit (t : BERTLV) (hp : t.constructed = false) (v : List Int) (hv : t.value = some v) (hl : t.length = v.length) (dst : List Int) (o : Nat)
    (h : dst.length < o + v.length) (h0 : v ≠ []) :
    ∃ dst', t.getValue dst o = (.error .arrayIndexOutOfBounds, dst') ∧
      (dst.length ≤ o → dst' = dst) ∧ (o ≤ dst.length → Written dst dst' o (v.take (dst.length - o))) := by
  have hp0 : 0 < v.length := List.length_pos_iff.2 h0
  unfold BERTLV.getValue
  rw [if_neg (show ¬ t.constructed = true by simp [hp])]
  have := arrayCopy_eq v dst 0 o v.length
  rw [show ((0 : Nat) : Int) = 0 from rfl] at this
  rw [hv, hl, Option.getD_some, this]
  simp only
  rw [if_neg (by omega)]
  refine ⟨_, rfl, ?_, ?_⟩
  · intro ho
    rw [show min v.length (min (v.length - 0) (dst.length - o)) = 0 by omega]
    simp [splice_nil]
  · intro ho
    rw [show min v.length (min (v.length - 0) (dst.length - o)) = dst.length - o by omega, List.drop_zero]
    exact written_splice _ _ _ (by simp; omega)

example : (BERTLV.mk false (some ⟨some 0, false, some 4, 1⟩) 3 (some [7, 8, 9])).getValue [0, 0, 0, 0] 2 =
    (.error .arrayIndexOutOfBounds, [0, 0, 7, 8]) := by rfl

/-- C71. `replaceValue` with a range that lies in the source makes the value a copy of that range; `getValue` then returns it. -/
theorem C71_replaceValue (t : BERTLV) (hp : t.constructed = false) (src : List Int) (o n : Nat) (h : o + n ≤ src.length) :
    ∃ t', t.replaceValue src o n = (.ok (), t') ∧ t'.tag = t.tag ∧ t'.constructed = false ∧ t'.length = n ∧
      t'.value = some (range src o n) := by
  have := arrayCopy_ok src (fresh (n : Int) 0) o 0 n h (by rw [fresh_length]; omega)
  rw [show ((0 : Nat) : Int) = 0 from rfl] at this
  refine ⟨{ t with value := some (range src o n), length := n }, ?_, rfl, hp, rfl, rfl⟩
  unfold BERTLV.replaceValue
  rw [if_neg (show ¬ t.constructed = true by simp [hp])]
  rw [this]
  simp only
  congr 3
  unfold splice range
  have hlen : (fresh (n : Int) (0 : Int)).length = n := by rw [fresh_length]; omega
  have hr : ((src.drop o).take n).length = n := by simp; omega
  have hz : List.drop (0 + n) (fresh (n : Int) (0 : Int)) = [] := List.drop_eq_nil_of_le (by omega)
  rw [hr, hz]
  simp

/-- C71. A constructed TLV has neither method: AttributeError, nothing is written. -/
theorem C71_constructed (t : BERTLV) (hc : t.constructed = true) (dst src : List Int) (o so n : Int) :
    t.getValue dst o = (.error .attributeError, dst) ∧ t.replaceValue src so n = (.error .attributeError, t) := by
  unfold BERTLV.getValue BERTLV.replaceValue
  simp [hc]

/-- C71. A TLV object nothing was done with: length 0 and no tag; it cannot be measured, encoded or appended to (AttributeError, nothing changes); looking
for any tag in it, or for the first child, finds None; reading its value writes nothing and gives 0. -/
theorem C71_fresh (c : Bool) :
    (BERTLV.new c).length = 0 ∧ (BERTLV.new c).tag = none ∧ (BERTLV.new c).size = .error .attributeError ∧
    (∀ out o, (BERTLV.new c).toBytes out o = (.error .attributeError, out)) ∧
    (∀ a, ∃ e, (BERTLV.new c).append a = (.error e, BERTLV.new c)) ∧
    (∀ g k, (BERTLV.new true).find g (k + 1) = some (.ok none)) ∧
    (∀ g a k, (BERTLV.new true).findNext g a 1 (k + 2) = some (.ok none)) ∧
    (∀ dst o, (BERTLV.new false).getValue dst o = (.ok 0, dst)) := by
  refine ⟨rfl, rfl, rfl, fun _ _ => rfl, fun a => ?_, fun g k => ?_, fun g a k => ?_, fun dst o => rfl⟩
  · unfold BERTLV.append
    cases c with
    | false => exact ⟨_, rfl⟩
    | true =>
      rw [if_neg (by simp [BERTLV.new])]
      cases a.size with
      | error e => exact ⟨_, rfl⟩
      | ok n =>
        simp only
        rcases a.toBytes (fresh n 0) 0 with ⟨e | b, l⟩ <;> exact ⟨_, rfl⟩
  · cases g <;> rfl
  · rfl

/-- C71, what fails: `replaceValue` with a range that runs off the source raises, but has by then replaced the value by `n`
cells, the source from the offset on followed by zeros, while the length is still the old one. -/
theorem C71_failed_replace_corrupts (t : BERTLV) (hp : t.constructed = false) (src : List Int) (o n : Nat) (h : src.length < o + n) (h0 : 0 < n) :
    ∃ t' v', t.replaceValue src o n = (.error .arrayIndexOutOfBounds, t') ∧ t'.value = some v' ∧ v'.length = n ∧ t'.length = t.length ∧
      t'.tag = t.tag ∧ v' = src.drop o ++ List.replicate (o + n - max o src.length) 0 := by
  have := arrayCopy_eq src (fresh (n : Int) 0) o 0 n
  rw [show ((0 : Nat) : Int) = 0 from rfl] at this
  have hlen : (fresh (n : Int) (0 : Int)).length = n := by rw [fresh_length]; omega
  unfold BERTLV.replaceValue
  rw [if_neg (show ¬ t.constructed = true by simp [hp])]
  rw [this]
  simp only
  rw [if_neg (by omega)]
  refine ⟨_, _, rfl, rfl, ?_, rfl, rfl, ?_⟩
  · rw [splice_length _ _ _ (by simp; omega)]
    exact hlen
  · rw [show min n (min (src.length - o) ((fresh (n : Int) (0 : Int)).length - 0)) = src.length - o by omega]
    rw [List.take_of_length_le (by simp)]
    unfold splice fresh
    simp
    omega

example : (BERTLV.mk false (some ⟨some 0, false, some 4, 1⟩) 1 (some [9])).replaceValue [1, 2] 1 3 =
    (.error .arrayIndexOutOfBounds, ⟨false, some ⟨some 0, false, some 4, 1⟩, 1, some [2, 0, 0]⟩) := by rfl

/-! ### C72 -/

/-- All encodings of a sequence of children have the same length: two cells more than each value. -/
theorem encodesAll_length (nodes : List Node) (l : List Int) (h : EncodesAll nodes l) :
    l.length = (nodes.map (fun n => 2 + n.value.length)).sum := by
  induction nodes generalizing l with
  | nil => rw [show l = [] from h]; rfl
  | cons n ns ih =>
    obtain ⟨a, b, rfl, ha, hb⟩ := h
    simp [BERTLV.encodes_length ha, ih b hb]

/-- C72. The static `find` on the encoding of a constructed TLV whose value is a sequence of encoded children returns the
offset, in the array, of the first child with the wanted tag (the children before it take two cells more than their values
each); -1 when there is none. -/
theorem C72_static_find (arr : List Int) (o : Nat) (n : Node) (enc rest : List Int) (hd : arr.drop o = enc ++ rest) (he : Encodes n enc)
    (hc : n.constructed = true) (nodes : List Node) (hall : EncodesAll nodes n.value)
    (tarr : List Int) (to : Nat) (w : BERTag) (hw : BERTag.getInstance tarr to = .ok w) (cls num : Nat) (c : Bool) (hi : IsTag w cls c num)
    (fuel : Nat) (hf : nodes.length < fuel) :
    match nodes.find? (HasTag cls num c) with
    | none => BERTLV.findStatic arr o (some tarr) to fuel = some (.ok (-1))
    | some m => ∃ (k : Nat) (menc after : List Int), BERTLV.findStatic arr o (some tarr) to fuel = some (.ok (k : Int)) ∧
        arr.drop k = menc ++ after ∧ Encodes m menc ∧
        k = o + 2 + ((nodes.takeWhile (fun x => !HasTag cls num c x)).map (fun x => 2 + x.value.length)).sum := by
  have hl := he.2.2.1
  have hll := BERTLV.lengthLen_short (n.value.length : Int) (by omega)
  have hg := (BERTLV.getInstance_node arr o n enc rest hd he).1
  have hdv : arr.drop (o + 2) = n.value ++ rest := by
    obtain ⟨_, _, _, b, _, rfl⟩ := he
    rw [← List.drop_drop, hd]
    simp
  have key : BERTLV.findStatic arr o (some tarr) to fuel =
      match (BERTLV.ofNode n).find_ (some w) 0 fuel with
      | none => none
      | some (.error e) => some (.error e)
      | some (.ok offset) => if offset = -1 then some (.ok (-1)) else some (.ok (((o + 2 : Nat) : Int) + offset)) := by
    unfold BERTLV.findStatic
    rw [hg]
    simp only
    rw [show (BERTLV.ofNode n).tag = some ⟨some (n.cls : Int), n.constructed, some (n.num : Int), 1⟩ from rfl]
    simp only
    rw [show (BERTLV.ofNode n).length = (n.value.length : Int) from rfl, hll]
    rw [if_neg (show ¬ ¬ (BERTLV.ofNode n).constructed = true from fun h => h hc), hw]
    simp only
    have : (o : Int) + 1 + 1 = ((o + 2 : Nat) : Int) := by omega
    rw [this]
    rfl
  rw [key]
  rcases BERTLV.find__spec (BERTLV.ofNode n) n.value rfl rfl w cls num c hi.1 hi.2.1 hi.2.2 nodes 0 (by omega) (by simpa using hall) fuel hf with
    ⟨h1, h2⟩ | ⟨pre, m, post, o', h1, h2, h3, h4, h5, h6⟩
  · have : nodes.find? (HasTag cls num c) = none := by
      rw [List.find?_eq_none]
      intro x hx
      rw [← hasTag_eq, h2 x hx]
      simp
    rw [this]
    rw [show ((0 : Nat) : Int) = 0 from rfl] at h1
    rw [h1]
    simp
  · have : nodes.find? (HasTag cls num c) = some m := by
      rw [List.find?_eq_some_iff_append]
      refine ⟨by rw [← hasTag_eq]; exact h4, pre, post, h2, ?_⟩
      intro x hx
      rw [← hasTag_eq, h3 x hx]
      rfl
    rw [this]
    rw [show ((0 : Nat) : Int) = 0 from rfl] at h1
    have h6full := h6
    obtain ⟨a, b, e, hen, _⟩ := h6
    have hpre : nodes.takeWhile (fun x => !HasTag cls num c x) = pre := by
      have h4' : HasTag cls num c m = true := by rw [← hasTag_eq]; exact h4
      rw [h2, List.takeWhile_append_of_pos]
      · simp [h4']
      · intro x hx
        rw [← hasTag_eq, h3 x hx]
        rfl
    have hlen1 := encodesAll_length nodes n.value hall
    have hlen2 := encodesAll_length (m :: post) _ h6full
    rw [h2] at hlen1
    simp only [List.map_append, List.sum_append, List.length_drop] at hlen1 hlen2
    refine ⟨o + 2 + o', a, b ++ rest, ?_, ?_, hen, ?_⟩
    · rw [h1]
      simp only
      rw [if_neg (by omega)]
      congr 2
    · rw [← List.drop_drop, hdv, List.drop_append_of_le_length h5, e, List.append_assoc]
    · rw [hpre]
      omega

example : BERTLV.findStatic [99, 0x30, 5, 4, 1, 7, 5, 0, 99] 1 (some [5]) 0 9 = some (.ok 6) := by rfl

/-- C72. Without a tag (`None`), static `find` on an encoded short TLV, constructed or primitive, returns the array offset of
the first value byte, which for a constructed one is the offset of the first child; -1 when the value is empty. -/
theorem C72_static_find_any (arr : List Int) (o : Nat) (n : Node) (enc rest : List Int) (hd : arr.drop o = enc ++ rest) (he : Encodes n enc)
    (to : Int) (fuel : Nat) :
    BERTLV.findStatic arr o none to fuel = some (.ok (if n.value = [] then -1 else (o : Int) + 2)) ∧
    arr.drop (o + 2) = n.value ++ rest := by
  have hl := he.2.2.1
  have hll := BERTLV.lengthLen_short (n.value.length : Int) (by omega)
  have hg := (BERTLV.getInstance_node arr o n enc rest hd he).1
  refine ⟨?_, ?_⟩
  · unfold BERTLV.findStatic
    rw [hg]
    simp only
    rw [show (BERTLV.ofNode n).tag = some ⟨some (n.cls : Int), n.constructed, some (n.num : Int), 1⟩ from rfl]
    simp only
    rw [show (BERTLV.ofNode n).length = (n.value.length : Int) from rfl, hll]
    by_cases hv : n.value = []
    · rw [if_neg (show ¬ ((n.value.length : Int) > 0) by rw [hv]; simp), if_pos hv]
    · have : n.value.length ≠ 0 := fun h => hv (List.length_eq_zero_iff.1 h)
      rw [if_pos (show (n.value.length : Int) > 0 by omega), if_neg hv]
      congr 2
  · obtain ⟨_, _, _, b, _, rfl⟩ := he
    rw [← List.drop_drop, hd]
    simp

example : BERTLV.findStatic [99, 0x30, 5, 4, 1, 7, 5, 0, 99] 1 none 0 0 = some (.ok 3) := by rfl
example : Encodes ⟨0, true, 16, [4, 1, 7, 5, 0]⟩ [0x30, 5, 4, 1, 7, 5, 0] := ⟨by decide, by decide, by decide, 0x30, by unfold Spells leading; decide, rfl⟩

/-- C72. The static `append` of an encoded short TLV to an encoded constructed one, when the result still has at most 127
value bytes and fits, overwrites the outer TLV in place: same tag, children followed by the new one; it returns the size. -/
theorem C72_static_append (inArr outArr : List Int) (io oo : Nat) (n m : Node) (nenc menc nrest mrest : List Int)
    (hd : outArr.drop oo = nenc ++ nrest) (he : Encodes n nenc) (hc : n.constructed = true)
    (hdi : inArr.drop io = menc ++ mrest) (hm : Encodes m menc)
    (h127 : n.value.length + menc.length ≤ 127) (hfit : menc.length ≤ nrest.length) :
    ∃ out base enc' v', BERTLV.appendStatic inArr io outArr oo = (.ok (enc'.length : Int), out) ∧ SignNormalised outArr base ∧
      Written base out oo enc' ∧ Encodes { n with value := v' } enc' ∧ (∃ menc', v' = n.value ++ menc' ∧ Encodes m menc') := by
  have hg := (BERTLV.getInstance_node outArr oo n nenc nrest hd he).1
  have hgi := (BERTLV.getInstance_node inArr io m menc mrest hdi hm).1
  obtain ⟨t', e1, h1, h2, h3, h4, h5, h6, k, h7⟩ := C46_append (BERTLV.ofNode n) (BERTLV.ofNode m) n.value hc rfl _ _ rfl m rfl ⟨rfl, rfl, rfl⟩ rfl rfl rfl
    hm.1 hm.2.1 hm.2.2.1
  have hl1 := BERTLV.encodes_length h2
  have hl2 := BERTLV.encodes_length hm
  have hl3 := BERTLV.encodes_length he
  have holen : outArr.length = oo + (nenc.length + nrest.length) := by
    have hlt : oo ≤ outArr.length := by
      obtain ⟨_, _, _, b, _, rfl⟩ := he
      obtain ⟨_, _, h⟩ := get_of_drop (i := oo) hd
      omega
    have := length_of_drop hd hlt
    simpa using this
  have hlen' : (n.value ++ e1).length ≤ 127 := by simp; omega
  obtain ⟨base, out, enc', g1, g2, g3, g4⟩ := C40_encode t' ⟨some (n.cls : Int), n.constructed, some (n.num : Int), 1⟩ { n with value := n.value ++ e1 }
    (by rw [h5]; rfl) ⟨rfl, rfl, rfl⟩ h3 (by rw [h4]; simp [BERTLV.ofNode]) he.1 he.2.1 hlen' outArr oo (by simp; omega)
  have hle := BERTLV.encodes_length g2
  refine ⟨out, base, enc', _, ?_, g3, g4, g2, e1, rfl, h2⟩
  unfold BERTLV.appendStatic
  rw [hgi]
  simp only
  rw [hg]
  simp only
  rw [h1, h7]
  simp only
  rw [g1, hle]
  congr 2

example : BERTLV.appendStatic [4, 1, 7] 0 [0x30, 2, 5, 0, 99, 99, 99, 99] 0 = (.ok 7, [0x30, 5, 5, 0, 4, 1, 7, 99]) := by rfl

/-- C72, what fails: with no room behind the outer TLV the static `append` raises only after it has overwritten the length
octet, so the outer TLV now claims more value bytes than the array has. -/
theorem C72_static_append_corrupts (inArr outArr : List Int) (io oo : Nat) (n m : Node) (nenc menc nrest mrest : List Int)
    (hd : outArr.drop oo = nenc ++ nrest) (he : Encodes n nenc) (hc : n.constructed = true)
    (hdi : inArr.drop io = menc ++ mrest) (hm : Encodes m menc)
    (h127 : n.value.length + menc.length ≤ 127) (hfit : nrest.length < menc.length) :
    ∃ out, BERTLV.appendStatic inArr io outArr oo = (.error .arrayIndexOutOfBounds, out) ∧ out.length = outArr.length ∧
      out[oo + 1]? = some ((n.value.length + menc.length : Nat) : Int) ∧ out.length < oo + 2 + (n.value.length + menc.length) := by
  have hg := (BERTLV.getInstance_node outArr oo n nenc nrest hd he).1
  have hgi := (BERTLV.getInstance_node inArr io m menc mrest hdi hm).1
  obtain ⟨t', e1, h1, h2, h3, h4, h5, h6, k, h7⟩ := C46_append (BERTLV.ofNode n) (BERTLV.ofNode m) n.value hc rfl _ _ rfl m rfl ⟨rfl, rfl, rfl⟩ rfl rfl rfl
    hm.1 hm.2.1 hm.2.2.1
  have hl1 := BERTLV.encodes_length h2
  have hl2 := BERTLV.encodes_length hm
  have hl3 := BERTLV.encodes_length he
  have holen : outArr.length = oo + (nenc.length + nrest.length) := by
    have hlt : oo ≤ outArr.length := by
      obtain ⟨_, _, _, b, _, rfl⟩ := he
      obtain ⟨_, _, h⟩ := get_of_drop (i := oo) hd
      omega
    have := length_of_drop hd hlt
    simpa using this
  have hn := he.2.1
  have ho : BERTag.octets n.cls n.constructed n.num = [leading n.cls n.constructed n.num] := by
    unfold BERTag.octets; rw [if_pos hn]
  have ht := BERTag.toBytes_eq ⟨some (n.cls : Int), n.constructed, some (n.num : Int), 1⟩ n.cls n.num n.constructed rfl rfl rfl outArr oo (by rw [ho]; simp; omega)
  have hv : (n.value ++ e1).length = n.value.length + menc.length := by simp; omega
  have hlen4 : t'.length = ((n.value ++ e1).length : Nat) := by rw [h4]; simp [BERTLV.ofNode]
  rw [ho] at ht
  simp only [List.map_cons, List.map_nil, List.length_cons, List.length_nil] at ht
  generalize hx : BERTag.norm (leading n.cls n.constructed n.num : Nat) = x at ht
  have hsl : (splice (outArr.map BERTag.norm) oo [x]).length = outArr.length := by
    rw [splice_length _ _ _ (by simp; omega)]; simp
  have hset := set_natCast (splice (outArr.map BERTag.norm) oo [x]) (oo + 1) t'.length (by rw [hsl]; omega)
  have hcp := arrayCopy_eq (n.value ++ e1) ((splice (outArr.map BERTag.norm) oo [x]).set (oo + 1) t'.length) 0 (oo + 2) (n.value ++ e1).length
  simp only [List.length_set, hsl] at hcp
  rw [if_neg (by omega)] at hcp
  refine ⟨splice ((splice (outArr.map BERTag.norm) oo [x]).set (oo + 1) t'.length) (oo + 2)
      (((n.value ++ e1).drop 0).take (min (n.value ++ e1).length (min ((n.value ++ e1).length - 0) (outArr.length - (oo + 2))))), ?_, ?_, ?_, ?_⟩
  rotate_left 1
  · rw [splice_length _ _ _ (by simp only [List.length_set, hsl, List.length_take, List.length_drop]; omega)]
    simp only [List.length_set, hsl]
  · rw [splice_getElem? _ _ _ (by simp only [List.length_set, hsl, List.length_take, List.length_drop]; omega)]
    rw [if_pos (by omega), List.getElem?_set]
    simp only [hsl]
    simp [hlen4]
    omega
  · rw [splice_length _ _ _ (by simp only [List.length_set, hsl, List.length_take, List.length_drop]; omega)]
    simp only [List.length_set, hsl]
    omega
  · unfold BERTLV.appendStatic
    rw [hgi]
    simp only
    rw [hg]
    simp only
    rw [h1, h7]
    simp only
    unfold BERTLV.toBytes
    rw [h5]
    simp only [BERTLV.ofNode]
    rw [ht]
    simp only
    rw [if_neg (by rw [hlen4, hv]; omega)]
    have e3 : (oo : Int) + ((0 + 1 : Nat) : Int) = ((oo + 1 : Nat) : Int) := by omega
    rw [e3, hset]
    simp only [h3, Option.getD_some]
    have e4 : (oo : Int) + (((0 + 1 : Nat) : Int) + 1) = ((oo + 2 : Nat) : Int) := by omega
    rw [e4]
    rw [hlen4] at hcp ⊢
    rw [show ((0 : Nat) : Int) = 0 from rfl] at hcp
    rw [hcp]

example : BERTLV.appendStatic [4, 1, 7] 0 [0x30, 2, 5, 0, 99] 0 = (.error .arrayIndexOutOfBounds, [0x30, 5, 5, 0, 4]) := by rfl

end Verif.Props
