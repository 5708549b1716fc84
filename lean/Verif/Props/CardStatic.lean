import Verif.Props.CardExport
import Verif.Props.CardHistory3
import Verif.Props.TLVErr
import Verif.Props.TLV2
/-! C124: asking about tags and TLVs on a card - the questions of a tag or TLV object and the static functions that look into an array. -/
namespace Verif.Props
open Verif Verif.Py Verif.Model Verif.Model.Card Verif.Spec Verif.Spec.Card

namespace CStat

theorem step_same {env : CryptoEnv} {fuel : Nat} {w : Card} {s : Step} {o : Except Err Card.Out} (h : sem env fuel w s = some (o, [])) :
    step env fuel w s = some (o, w) := by
  simp only [step, h, Option.map_some, put]

theorem ask {env : CryptoEnv} {fuel : Nat} {w : Card} {g : Nat} {t : BERTag} (hg : w g = .tag t) (q : TagQuery) :
    step env fuel w (.askTag g q) = some (.ok (tagAsk t q), w) := step_same (by simp only [sem, tagAt, hg])

theorem askStatic {env : CryptoEnv} {fuel : Nat} {w : Card} {r : Nat} {l : List Int} (hl : listAt w r = some l) (off : Int) (q : TagQuery) :
    step env fuel w (.askTagStatic r off q) = some (tagAskStatic l off q, w) := step_same (by simp only [sem, onArray, listAt_some hl])

/-- The size of the tag does not depend on what the tag was before. -/
theorem size_any (a b : BERTag) (l : List Int) (off : Int) (h : (a.baseInit l off).1 = .ok ()) :
    (b.baseInit l off).1 = .ok () ∧ (b.baseInit l off).2.size = (a.baseInit l off).2.size := by
  unfold BERTag.baseInit at h ⊢
  generalize Py.get l off = x at h ⊢
  cases x with
  | error e => cases h
  | ok v =>
    simp only at h ⊢
    split
    · next hc =>
      rw [if_pos hc] at h
      generalize BERTag.numLoop l off 0 1 _ = y at h ⊢
      obtain ⟨y1, y2⟩ := y
      cases y1 with
      | error e => cases h
      | ok n => exact ⟨rfl, rfl⟩
    · exact ⟨rfl, rfl⟩

theorem base_error (a b : BERTag) (l : List Int) (off : Int) (e : Err) (h : (a.baseInit l off).1 = .error e) : (b.baseInit l off).1 = .error .indexError := by
  cases hb : (b.baseInit l off).1 with
  | ok _ =>
    have := size_any b a l off hb
    rw [this.1] at h
    cases h
  | error e' => rw [baseInit_err _ _ _ _ hb]

theorem get_base (l : List Int) (off : Int) :
    ∃ a : BERTag, ∀ t, (BERTag.getInstance l off = .ok t → a.baseInit l off = (.ok (), t)) ∧
      ∀ e, BERTag.getInstance l off = .error e → ∃ e', (a.baseInit l off).1 = .error e' := by
  unfold BERTag.getInstance
  rcases get_ok_or_indexError l off with ⟨b, _, h⟩ | h
  · rw [h]
    simp only
    unfold BERTag.initArray
    rw [h]
    have fin : ∀ a : BERTag, ∀ t, (mapIndexError .arrayIndexOutOfBounds (match a.baseInit l off with
          | (.error e, _) => (.error e : Except Err BERTag) | (.ok (), t) => .ok t) = .ok t → a.baseInit l off = (.ok (), t)) ∧
        ∀ e, mapIndexError .arrayIndexOutOfBounds (match a.baseInit l off with
          | (.error e, _) => (.error e : Except Err BERTag) | (.ok (), t) => .ok t) = .error e → ∃ e', (a.baseInit l off).1 = .error e' := by
      intro a t
      generalize a.baseInit l off = z
      obtain ⟨z1, z2⟩ := z
      cases z1 with
      | error e => exact ⟨fun h => by (simp only [mapIndexError] at h; split at h <;> cases h), fun _ _ => ⟨e, rfl⟩⟩
      | ok u => exact ⟨fun h => by (simp only [mapIndexError, Except.ok.injEq] at h; rw [h]), fun _ h => by cases h⟩
    by_cases hb : b / 32 % 2 = 0
    · have e1 : decide (iand (shr b 5) 0x1 ≠ 0) = false := by simp only [iand_01, shr]; simp; omega
      have e2 : ¬ iand b 0x20 = 0x20 := by rw [iand_20]; omega
      rw [e1]
      simp only [BERTag.new, if_neg e2]
      exact ⟨_, fin ⟨none, false, none, 0⟩⟩
    · have e1 : decide (iand (shr b 5) 0x1 ≠ 0) = true := by simp only [iand_01, shr]; simp; omega
      have e2 : ¬ iand b 0x20 = 0 := by rw [iand_20]; omega
      rw [e1]
      simp only [BERTag.new, if_true, if_neg e2]
      exact ⟨_, fin ⟨none, true, none, 0⟩⟩
  · refine ⟨BERTag.new false, fun t => ⟨fun h' => ?_, fun _ _ => ⟨.indexError, ?_⟩⟩⟩
    · rw [h] at h'; cases h'
    · unfold BERTag.baseInit; rw [h]

theorem size_of {l : List Int} {off : Int} {t : BERTag} (h : BERTag.getInstance l off = .ok t) : BERTag.sizeStatic l off = .ok t.size := by
  obtain ⟨a, ha⟩ := get_base l off
  have ha := (ha t).1 h
  have := size_any a (BERTag.new false) l off (by rw [ha])
  rw [ha] at this
  unfold BERTag.sizeStatic
  generalize (BERTag.new false).baseInit l off = z at this
  obtain ⟨z1, z2⟩ := z
  simp only at this
  rw [this.1, ← this.2]

theorem size_error {l : List Int} {off : Int} {e : Err} (h : BERTag.getInstance l off = .error e) : BERTag.sizeStatic l off = .error .indexError := by
  obtain ⟨a, ha⟩ := get_base l off
  obtain ⟨e', he⟩ := (ha a).2 e h
  have := base_error a (BERTag.new false) l off e' he
  unfold BERTag.sizeStatic
  generalize (BERTag.new false).baseInit l off = z at this
  obtain ⟨z1, z2⟩ := z
  simp only at this
  rw [this]

theorem static_of {l : List Int} {off : Int} {t : BERTag} (h : BERTag.getInstance l off = .ok t) (q : TagQuery) : tagAskStatic l off q = .ok (tagAsk t q) := by
  cases q
  · simp only [tagAskStatic, size_of h, tagAsk, Except.map]
  all_goals simp only [tagAskStatic, BERTag.isConstructedStatic, BERTag.tagClassStatic, BERTag.tagNumberStatic, h, tagAsk, Except.map]

end CStat

open CStat

/-- **C124** (the object and the array). Whatever a list holds and whatever the offset: if a tag can be read there, the four questions have the same answer asked of
the tag just read and asked of the list; if not, all four raise - `size` Python's IndexError, the others ArrayIndexOutOfBoundsException as `getInstance` does. -/
theorem C124_agree {env : CryptoEnv} {fuel : Nat} {w w1 : Card} {g r : Nat} {off : Int} :
    (step env fuel w (.tagGetInstance g r off) = some (.ok (.ref g), w1) →
      ∀ q, ∃ o, step env fuel w1 (.askTag g q) = some (.ok o, w1) ∧ step env fuel w1 (.askTagStatic r off q) = some (.ok o, w1)) ∧
    ∀ l, listAt w r = some l → w g = .free → ∀ e, step env fuel w (.tagGetInstance g r off) = some (.error e, w1) →
      e = .arrayIndexOutOfBounds ∧ w1 = w ∧
      ∀ q, step env fuel w (.askTagStatic r off q) = some (.error (if q = .size then .indexError else .arrayIndexOutOfBounds), w) := by
  refine ⟨fun h q => ?_, fun l hl hg e h => ?_⟩
  · obtain ⟨e, he, ho, rfl⟩ := step_sem h
    simp only [sem, Option.some.injEq] at he
    subst he
    obtain ⟨l, hl, hf⟩ := onArray_ok ho
    rw [hf] at ho ⊢
    cases ht : BERTag.getInstance l off with
    | error e => rw [ht] at ho; cases ho
    | ok t =>
      rw [ht] at ho
      simp only [Except.map, makeOr, make] at ho ⊢
      cases hg : w g with
      | free =>
        simp only [hg] at ho ⊢
        refine ⟨_, ask (put_one _ _ _) q, ?_⟩
        have hne : g ≠ r := by rintro rfl; rw [hl] at hg; cases hg
        have hl' : listAt (w.put [(g, .tag t)]) r = some l := by
          unfold listAt; rw [put_one_ne _ _ hne, hl]
        rw [askStatic hl' off q, static_of ht]
      | _ => simp [hg, wrong] at ho
  · simp only [step, sem, onArray, listAt_some hl, Option.map_some, Option.some.injEq, Prod.mk.injEq] at h
    cases ht : BERTag.getInstance l off with
    | ok t => rw [ht] at h; simp only [Except.map, makeOr, make, hg] at h; cases h.1
    | error e' =>
      have := tagGet_err _ _ _ ht
      subst this
      rw [ht] at h
      simp only [Except.map, makeOr] at h
      obtain ⟨h1, h2⟩ := h
      injection h1 with h1
      refine ⟨h1.symm, h2.symm, fun q => ?_⟩
      rw [askStatic hl off q]
      cases q
      · simp only [tagAskStatic, size_error ht, Except.map, if_true]
      all_goals simp [tagAskStatic, BERTag.isConstructedStatic, BERTag.tagClassStatic, BERTag.tagNumberStatic, ht, Except.map]

/-- **C124** (history of a tag). After any program a tag object answers from the state its own `init` calls left it in, whatever was done to the lists it was read from;
a tag made from a class and a number answers these, and size 0. -/
theorem C124_tag_history {env : CryptoEnv} {fuel : Nat} {w : Card} {prog : List Step} {outs : List (Except Err Card.Out)} {w' : Card}
    (h : run env fuel w prog = some (outs, w')) {g : Nat} {t : BERTag} (ht : w g = .tag t) :
    let q := (historyOf (tagCall g) env fuel w prog).foldl tagAfter t
    step env fuel w' (.askTag g .size) = some (.ok (.int q.size), w') ∧
    step env fuel w' (.askTag g .isConstructed) = some (.ok (.bool q.tagConstr), w') ∧
    (∀ n, q.tagClass = some n → step env fuel w' (.askTag g .tagClass) = some (.ok (.int n), w')) ∧
    (∀ n, q.tagNumber = some n → step env fuel w' (.askTag g .tagNumber) = some (.ok (.int n), w')) ∧
    (q.tagClass = none → step env fuel w' (.askTag g .tagClass) = some (.ok .nothing, w')) ∧
    (q.tagNumber = none → step env fuel w' (.askTag g .tagNumber) = some (.ok .nothing, w')) := by
  intro q
  have hq := (C120_tag h ht).1
  refine ⟨ask hq _, ask hq _, fun n hn => ?_, fun n hn => ?_, fun hn => ?_, fun hn => ?_⟩ <;> rw [ask hq] <;> simp only [tagAsk]
  · rw [show (List.foldl tagAfter t _).tagClass = some n from hn]; rfl
  · rw [show (List.foldl tagAfter t _).tagNumber = some n from hn]; rfl
  · rw [show (List.foldl tagAfter t _).tagClass = none from hn]; rfl
  · rw [show (List.foldl tagAfter t _).tagNumber = none from hn]; rfl

/-- **C124** (history of a TLV). After any program `getLength` of a TLV object is the length its own calls left it with. -/
theorem C124_tlv_history {env : CryptoEnv} {fuel : Nat} {w : Card} {prog : List Step} {outs : List (Except Err Card.Out)} {w' : Card}
    (h : run env fuel w prog = some (outs, w')) {k : Nat} {t : TLVRef} (ht : w k = .tlv t) :
    step env fuel w' (.tlvLength k) = some (.ok (.int ((historyOf (tlvCall k) env fuel w prog).foldl tlvAfter t).length), w') := by
  have hq := (C120_tlv h ht).1
  exact step_same (by simp only [sem, onTLV, hq])

/-- **C124** (writing without an object). The static `toBytes` of a class, a flag and a number is making a tag object, initialising it with them and writing it:
the same answer, the same list, whatever the list and the offset. -/
theorem C124_write_static {env : CryptoEnv} {fuel : Nat} {w : Card} {g r : Nat} {l : List Int} (hl : listAt w r = some l) (hg : w g = .free) (cls num off : Int) (c : Bool) :
    ∃ o w1 w2, step env fuel w (.tagToBytesStatic cls c num r off) = some (o, w1) ∧
      run env fuel w [.newTag g c, .tagInitNumber g cls num, .tagToBytes g r off] = some ([.ok (.ref g), .ok .nothing, o], w2) ∧
      listAt w1 r = listAt w2 r ∧ ∀ i, i ≠ g → w1 i = w2 i := by
  have hne : g ≠ r := by rintro rfl; rw [listAt_some hl] at hg; cases hg
  have hr : w r = .array l := listAt_some hl
  refine ⟨_, _, ((w.put [(g, .tag (BERTag.new c))]).put [(g, .tag ((BERTag.new c).initNumber cls num))]).put
      [(r, .array (BERTag.toBytesStatic cls c num l off).2)], rfl, ?_, ?_, ?_⟩
  · simp only [run, step, sem, make, hg, onArray, hr, Option.map_some, tagAt, put_one, put_one_ne _ _ hne, arrayToInt]
    rfl
  · simp only [onArray, hr, arrayToInt, listAt, put_one]
  · intro i hi
    simp only [onArray, hr, arrayToInt]
    by_cases h : r = i
    · subst h; simp only [put_one]
    · rw [put_one_ne _ _ h, put_one_ne _ _ h, put_one_ne _ _ (Ne.symm hi), put_one_ne _ _ (Ne.symm hi)]

namespace CStat

/-- A tag written, and what its cells hold after a program that keeps off them. -/
theorem tag_kept {env : CryptoEnv} {fuel : Nat} (hH : ∀ alg m, (env.hash alg m).length = (env.hash alg []).length) {w w2 : Card}
    {prog : List Step} {outs : List (Except Err Card.Out)} {r off n : Nat} {t : BERTag} {cls num : Nat} {c : Bool} {l : List Int}
    (ht : IsTag t cls c num) (hc : cls < 4) (ho : (t.toBytes l off).1 = .ok (n : Int))
    (h2 : run env fuel (w.put [(r, .array (t.toBytes l off).2)]) prog = some (outs, w2))
    (hu : ∀ i < n, Spares env fuel (w.put [(r, .array (t.toBytes l off).2)]) prog r (off + i)) :
    ∃ l2 ns, listAt w2 r = some l2 ∧ TagOctets cls c num ns ∧ ns.length = n ∧ SpellsAll (range l2 off ns.length) ns := by
  have hcan := BERTag.octets_canonical cls c num hc
  by_cases hr : off + (BERTag.octets cls c num).length ≤ l.length
  · obtain ⟨l', hs, e1, e2, e3⟩ := C36_encode t cls num c ht _ hcan l off hr
    rw [hs] at ho h2 hu
    simp only [Except.ok.injEq, Int.natCast_inj] at ho h2 hu
    subst ho
    have hpos : 0 < (BERTag.octets cls c num).length := by unfold BERTag.octets; split <;> simp
    have hl1 : listAt (w.put [(r, .array l')]) r = some l' := array_listAt (put_one _ _ _)
    obtain ⟨l2, k1, k2, _, k4⟩ := untouched_range hH h2 hpos hl1 (by rw [e1]; exact hr) (spared_bytes hl1 rfl e3 hu)
    exact ⟨l2, _, k1, BERTag.canonical_octets hcan, rfl, by rw [k4]; exact e2⟩
  · obtain ⟨b2, e, h⟩ := BERTag.toBytes_out t cls num c ht.1 ht.2.1 ht.2.2 l off (by omega)
    rw [e] at ho
    cases ho

theorem int_ok {x : Except Err Int} {n : Int} (h : x.map Card.Out.int = .ok (.int n)) : x = .ok n := by
  cases x with
  | error e => cases h
  | ok m => simp only [Except.map, Except.ok.injEq, Card.Out.int.injEq] at h; rw [h]

theorem within {nodes : List Node} {v : List Int} (hall : EncodesAll nodes v) {cls num : Nat} {c : Bool} {x : Node} (hx : nodes.find? (HasTag cls num c) = some x) :
    ((nodes.takeWhile (fun x => !HasTag cls num c x)).map (fun x => 2 + x.value.length)).sum + (2 + x.value.length) ≤ v.length := by
  induction nodes generalizing v with
  | nil => cases hx
  | cons y ys ih =>
    obtain ⟨a, b, rfl, ha, hb⟩ := hall
    have hal := BERTLV.encodes_length ha
    rw [List.find?_cons] at hx
    rw [List.length_append]
    cases hy : HasTag cls num c y with
    | true =>
      rw [hy] at hx
      injection hx with hx
      subst hx
      simp [hy]
      omega
    | false =>
      rw [hy] at hx
      have := ih hb hx
      simp [hy]
      omega

/-- What the static questions answer about identifier octets. -/
theorem tag_answers {env : CryptoEnv} {fuel : Nat} {w : Card} {r off : Nat} {l : List Int} {ns : List Nat} {cls num : Nat} {c : Bool}
    (hl : listAt w r = some l) (ht : TagOctets cls c num ns) (hs : SpellsAll (range l off ns.length) ns) :
    step env fuel w (.askTagStatic r off .tagClass) = some (.ok (.int cls), w) ∧
    step env fuel w (.askTagStatic r off .tagNumber) = some (.ok (.int num), w) ∧
    step env fuel w (.askTagStatic r off .isConstructed) = some (.ok (.bool c), w) ∧
    step env fuel w (.askTagStatic r off .size) = some (.ok (.int (if ns.length = 1 then 1 else (ns.length : Int) - 1)), w) := by
  obtain ⟨h1, h2, h3⟩ := C36_static_queries l off ns cls num c ht hs
  have h4 := C37_static l off ns cls num c ht hs
  refine ⟨?_, ?_, ?_, ?_⟩ <;> rw [askStatic hl] <;> simp only [tagAskStatic, h1, h2, h3, h4, Except.map, orNone]

end CStat

/-- **C124** (tags written out, asked about later). After a tag was written into an array, and any program that keeps off its cells, the static questions answer its
class, its number, its flag; `size` is the number of its octets for one octet only, and otherwise one less. -/
theorem C124_tag_written {env : CryptoEnv} {fuel : Nat} (hH : ∀ alg m, (env.hash alg m).length = (env.hash alg []).length) {w w1 w2 : Card}
    {prog : List Step} {outs : List (Except Err Card.Out)} {g r off n : Nat} {t : BERTag} {cls num : Nat} {c : Bool}
    (hg : w g = .tag t) (ht : IsTag t cls c num) (hc : cls < 4)
    (h1 : step env fuel w (.tagToBytes g r off) = some (.ok (.int n), w1)) (h2 : run env fuel w1 prog = some (outs, w2))
    (hu : ∀ i < n, Spares env fuel w1 prog r (off + i)) :
    step env fuel w2 (.askTagStatic r off .tagClass) = some (.ok (.int cls), w2) ∧
    step env fuel w2 (.askTagStatic r off .tagNumber) = some (.ok (.int num), w2) ∧
    step env fuel w2 (.askTagStatic r off .isConstructed) = some (.ok (.bool c), w2) ∧
    step env fuel w2 (.askTagStatic r off .size) = some (.ok (.int (if n = 1 then 1 else (n : Int) - 1)), w2) := by
  obtain ⟨e, he, ho, rfl⟩ := step_sem h1
  simp only [sem, Option.some.injEq] at he
  subst he
  obtain ⟨l, hl, hf⟩ := onArray_ok ho
  rw [hf] at ho h2 hu
  simp only [tagAt, hg, arrayToInt] at ho h2 hu
  obtain ⟨l2, ns, k1, k2, k3, k4⟩ := tag_kept hH ht hc (int_ok ho) h2 hu
  subst k3
  exact tag_answers k1 k2 k4

/-- **C124** (the same for the static `toBytes`). -/
theorem C124_tag_written_static {env : CryptoEnv} {fuel : Nat} (hH : ∀ alg m, (env.hash alg m).length = (env.hash alg []).length) {w w1 w2 : Card}
    {prog : List Step} {outs : List (Except Err Card.Out)} {r off n cls num : Nat} {c : Bool} (hc : cls < 4)
    (h1 : step env fuel w (.tagToBytesStatic cls c num r off) = some (.ok (.int n), w1)) (h2 : run env fuel w1 prog = some (outs, w2))
    (hu : ∀ i < n, Spares env fuel w1 prog r (off + i)) :
    step env fuel w2 (.askTagStatic r off .tagClass) = some (.ok (.int cls), w2) ∧
    step env fuel w2 (.askTagStatic r off .tagNumber) = some (.ok (.int num), w2) ∧
    step env fuel w2 (.askTagStatic r off .isConstructed) = some (.ok (.bool c), w2) ∧
    step env fuel w2 (.askTagStatic r off .size) = some (.ok (.int (if n = 1 then 1 else (n : Int) - 1)), w2) := by
  obtain ⟨e, he, ho, rfl⟩ := step_sem h1
  simp only [sem, Option.some.injEq] at he
  subst he
  obtain ⟨l, hl, hf⟩ := onArray_ok ho
  rw [hf] at ho h2 hu
  simp only [arrayToInt, BERTag.toBytesStatic] at ho h2 hu
  obtain ⟨l2, ns, k1, k2, k3, k4⟩ := tag_kept hH (t := (BERTag.new c).initNumber cls num) ⟨rfl, rfl, rfl⟩ hc (int_ok ho) h2 hu
  subst k3
  exact tag_answers k1 k2 k4

/-- **C124** (TLVs written out, looked at later). After a TLV was written into an array, and any program that keeps off its cells, the static functions find it: its
whole length is the number of cells written, two more than its value; its value begins at the value offset; the first thing inside is there, if there is one;
and, for a TLV that holds others, a search with a tag in an array finds the first with this tag, or nothing if there is none. -/
theorem C124_tlv_written {env : CryptoEnv} {fuel : Nat} (hH : ∀ alg m, (env.hash alg m).length = (env.hash alg []).length) {w w1 w2 : Card}
    {prog : List Step} {outs : List (Except Err Card.Out)} {k g r off m : Nat} {t : TLVRef} {tag : BERTag} {n : Node}
    (hk : w k = .tlv t) (hg : t.tag = some g) (htag : w g = .tag tag) (hi : IsTag tag n.cls n.constructed n.num)
    (hv : t.value = some n.value) (hl : t.length = n.value.length) (hc : n.cls < 4) (hn : n.num ≤ 30) (h127 : n.value.length ≤ 127)
    (h1 : step env fuel w (.tlvToBytes k r off) = some (.ok (.int m), w1)) (h2 : run env fuel w1 prog = some (outs, w2))
    (hu : Untouched env fuel w1 prog r off m) :
    m = n.value.length + 2 ∧
    step env fuel w2 (.lengthStatic r off) = some (.ok (.int m), w2) ∧
    step env fuel w2 (.valueOffset r off) = some (.ok (.int ((off + 2 : Nat) : Int)), w2) ∧
    (∃ l, listAt w2 r = some l ∧ range l (off + 2) n.value.length = n.value) ∧
    (∀ off', step env fuel w2 (.findStatic r off none off') = some (.ok (.int (if n.value = [] then -1 else ((off + 2 : Nat) : Int))), w2)) ∧
    ∀ (nodes : List Node) (r' off' : Nat) (l' : List Int) (cls num : Nat) (c : Bool) (ns : List Nat), n.constructed = true → EncodesAll nodes n.value →
      listAt w2 r' = some l' → TagOctets cls c num ns → SpellsAll (range l' off' ns.length) ns → nodes.length < fuel →
      match nodes.find? (fun x => x.cls == cls && x.constructed == c && x.num == num) with
      | none => step env fuel w2 (.findStatic r off (some r') off') = some (.ok (.int (-1)), w2)
      | some x => ∃ (p : Nat) (l xenc after : List Int), step env fuel w2 (.findStatic r off (some r') off') = some (.ok (.int p), w2) ∧
          listAt w2 r = some l ∧ l.drop p = xenc ++ after ∧ Encodes x xenc ∧ off + 2 ≤ p ∧ p + xenc.length ≤ off + m := by
  obtain ⟨e, he, ho, rfl⟩ := step_sem h1
  simp only [sem, onTLV, hk, hg, Option.bind_some, tagAt, htag, Option.some.injEq] at he
  subst he
  obtain ⟨l, hla, hf⟩ := onArray_ok ho
  rw [hf] at ho h2 hu
  simp only [arrayToInt] at ho h2 hu
  have hr : off + 2 + n.value.length ≤ l.length := by
    have := tlv_room ⟨t.constructed, some tag, t.length, t.value⟩ tag n.cls n.num n.constructed rfl hi hc n.value hl l off m (CStat.int_ok ho)
    have : (BERTag.octets n.cls n.constructed n.num).length = 1 := by unfold BERTag.octets; rw [if_pos hn]; rfl
    omega
  obtain ⟨base, l', enc, hs, hen, _, hw⟩ := C40_encode ⟨t.constructed, some tag, t.length, t.value⟩ tag n rfl hi hv hl hc hn h127 l off hr
  rw [hs] at ho h2 hu
  simp only [Except.map, Except.ok.injEq, Card.Out.int.injEq] at ho h2 hu
  have hel := BERTLV.encodes_length hen
  have hm : m = enc.length := by
    obtain ⟨_, _, _, b, _, rfl⟩ := hen
    simp only [List.length_cons]
    omega
  subst hm
  have hl1 : listAt (w.put [(r, .array l')]) r = some l' := array_listAt (put_one _ _ _)
  obtain ⟨l2, k1, k2, _, k4⟩ := untouched_range hH h2 (by omega) hl1 (by have := hw.1; have := hw.2.1; omega) hu
  rw [range_of_written hw] at k4
  have hd : l2.drop off = enc ++ l2.drop (off + enc.length) := by
    rw [← List.drop_drop]
    conv => lhs; rw [← List.take_append_drop enc.length (List.drop off l2)]
    unfold range at k4
    rw [k4]
  have h70 := C70_static_getLength l2 off n enc _ hd hen
  have hra : range l2 (off + 2) n.value.length = n.value := by
    obtain ⟨_, _, _, b, _, rfl⟩ := hen
    unfold range
    rw [← List.drop_drop, hd]
    simp
  have hvo : BERTLV.getValueOffset l2 off = .ok ((off + 2 : Nat) : Int) := by
    unfold BERTLV.getValueOffset
    rw [(BERTLV.getInstance_node l2 off n enc _ hd hen).1]
    simp only [BERTLV.ofNode]
    rw [BERTLV.lengthLen_short (n.value.length : Int) (by omega)]
    congr 1
  refine ⟨by omega, ?_, ?_, ⟨l2, k1, hra⟩, fun off' => ?_, fun nodes r' off' lt cls num c ns hco hall hlt hto hsp hfu => ?_⟩
  · exact CStat.step_same (by simp only [sem, onArray, listAt_some k1, h70.1, Except.map])
  · exact CStat.step_same (by simp only [sem, onArray, listAt_some k1, hvo, Except.map])
  · exact CStat.step_same (by simp only [sem, listAt_some k1, arrayArg, (C72_static_find_any l2 off n enc _ hd hen off' fuel).1, Option.map_some, Except.map,
      Int.natCast_add, Int.cast_ofNat_Int])
  · obtain ⟨wt, hw1, hw2⟩ := C36_decode lt off' ns cls num c hto hsp
    have := C72_static_find l2 off n enc _ hd hen hco nodes hall lt off' wt hw1 cls num c hw2 fuel hfu
    have hf : nodes.find? (fun x => x.cls == cls && x.constructed == c && x.num == num) = nodes.find? (HasTag cls num c) := rfl
    rw [hf]
    cases hx : nodes.find? (HasTag cls num c) with
    | none =>
      rw [hx] at this
      simp only at this ⊢
      exact CStat.step_same (by simp only [sem, listAt_some k1, arrayArg, listAt_some hlt, this, Option.map_some, Except.map])
    | some x =>
      rw [hx] at this
      simp only at this ⊢
      obtain ⟨p, xenc, after, a1, a2, a3, a4⟩ := this
      refine ⟨p, l2, xenc, after, CStat.step_same (by simp only [sem, listAt_some k1, arrayArg, listAt_some hlt, a1, Option.map_some, Except.map]), k1, a2, a3, by omega, ?_⟩
      have := CStat.within hall hx
      have := BERTLV.encodes_length a3
      omega

/-- **C124** (static `findNext`). On no card, with no arguments, does the static `findNext` answer an offset: it raises or answers -1. -/
theorem C124_find_next {env : CryptoEnv} {fuel : Nat} {w w' : Card} {r : Nat} {off start : Int} {r' : Option Nat} {off' n : Int}
    (h : step env fuel w (.findNextStatic r off start r' off') = some (.ok (.int n), w')) : n = -1 ∧ w' = w := by
  obtain ⟨e, he, ho, rfl⟩ := step_sem h
  simp only [sem, Option.some.injEq] at he
  subst he
  obtain ⟨l, hl, hf⟩ := onArray_ok ho
  rw [hf] at ho ⊢
  have key : ∀ a, ((BERTLV.findNextStatic l off start a off').map Card.Out.int) = .ok (.int n) → n = -1 := by
    intro a ha
    rcases C47_static_findNext l off start a off' with ⟨e, he⟩ | he <;> rw [he] at ha
    · cases ha
    · simp only [Except.map, Except.ok.injEq, Card.Out.int.injEq] at ha; exact ha.symm
  cases r' with
  | none => simp only [onOptArray] at ho ⊢; exact ⟨key _ ho, rfl⟩
  | some r' =>
    simp only [onOptArray] at ho ⊢
    obtain ⟨l', hl', hf'⟩ := onArray_ok ho
    rw [hf'] at ho ⊢
    exact ⟨key _ ho, rfl⟩

/-! ### Concrete cases -/

private def statEnv : CryptoEnv := ⟨true, true, ⟨fun _ _ => .error .typeError, fun _ _ => .error .typeError⟩, fun _ _ => [1, 2, 3]⟩

/-- A constructed TLV (30 06) with two primitive ones (04 01 07, 02 01 09) and a tag to look for, in arrays. -/
private def statMade : List Step := [.newArray 1 [4, 1, 7, 2, 1, 9], .newArray 2 [0, 0, 0, 0, 0, 0, 0, 0, 0, 0, 0, 0], .newTag 3 true, .tagInitNumber 3 0 16, .newTLV 4 true,
  .tlvInit 4 5 3 1 0 6, .newArray 6 [0, 0, 0, 0, 0]]

/-- Other things done on the card: the array the TLV was made from and the tag object change, a tag is written without an object. -/
private def statBetween : List Step := [.store 1 0 9, .tagInitNumber 3 1 1, .tagToBytesStatic 0 false 2 6 0, .tagToBytesStatic 2 false 300 6 1, .arrayFill 2 10 2 7]

private def statAsk : List Step := [.lengthStatic 2 2, .valueOffset 2 2, .findStatic 2 2 none 0, .findStatic 2 2 (some 6) 0, .findStatic 2 2 (some 6) 1, .findNextStatic 2 2 0 none 0,
  .askTagStatic 6 1 .tagClass, .askTagStatic 6 1 .tagNumber, .askTagStatic 6 1 .size, .askTagStatic 2 2 .isConstructed, .askTag 3 .tagNumber, .askTag 5 .tagNumber, .tlvLength 4,
  .askTagStatic 6 5 .size, .askTagStatic 6 5 .tagClass]

example : (run statEnv 10 blank (statMade ++ [.tlvToBytes 4 2 2] ++ statBetween ++ statAsk)).map (fun x => x.1.drop 7) =
    some [.ok (.int 8), .ok .nothing, .ok .nothing, .ok (.int 1), .ok (.int 3), .ok .nothing,
      .ok (.int 8), .ok (.int 4), .ok (.int 4), .ok (.int 7), .ok (.int (-1)), .error .nameError,
      .ok (.int 2), .ok (.int 300), .ok (.int 2), .ok (.bool true), .ok (.int 1), .ok (.int 16), .ok (.int 6), .error .indexError, .error .arrayIndexOutOfBounds] := by
  decide +kernel

/-- `C124_tlv_written` on this card: the hypotheses hold of the TLV just made, and the calls in between keep off its eight cells. -/
example {outs : List (Except Err Card.Out)} {w : Card} (h : run statEnv 10 blank statMade = some (outs, w)) {w1 : Card}
    (h1 : step statEnv 10 w (.tlvToBytes 4 2 2) = some (.ok (.int 8), w1)) {outs2 : List (Except Err Card.Out)} {w2 : Card}
    (h2 : run statEnv 10 w1 statBetween = some (outs2, w2)) :
    step statEnv 10 w2 (.valueOffset 2 2) = some (.ok (.int 4), w2) := by
  have hw4 : w 4 = .tlv ⟨true, some 5, 6, some [4, 1, 7, 2, 1, 9]⟩ := by
    have := congrArg (fun x => x.map (fun y => y.2 4)) h
    have e : (run statEnv 10 blank statMade).map (fun y => y.2 4) = some (.tlv ⟨true, some 5, 6, some [4, 1, 7, 2, 1, 9]⟩) := by decide +kernel
    rw [e] at this
    simpa using this.symm
  have hw5 : w 5 = .tag ⟨some 0, true, some 16, 0⟩ := by
    have := congrArg (fun x => x.map (fun y => y.2 5)) h
    have e : (run statEnv 10 blank statMade).map (fun y => y.2 5) = some (.tag ⟨some 0, true, some 16, 0⟩) := by decide +kernel
    rw [e] at this
    simpa using this.symm
  have key : ∀ (off : Int) (n : Option Int) (L j : Nat), (j : Int) < off → ¬ Among off n L j := by
    rintro off n L j h ⟨t, _, _, h1 | ⟨h1, h2⟩⟩ <;> omega
  refine (C124_tlv_written (off := 2) (m := 8) (fun _ _ => rfl) hw4 rfl hw5 (n := ⟨0, true, 16, [4, 1, 7, 2, 1, 9]⟩) ⟨rfl, rfl, rfl⟩ rfl rfl (by decide) (by decide) (by decide) h1 h2 ⟨?_, ?_⟩).2.2.1
  · intro i hi c hc
    have := mem_calls _ _ _ hc
    simp only [statBetween, List.mem_cons, List.not_mem_nil, or_false] at this
    obtain ⟨c1, c2⟩ := c
    simp only at this
    rcases this with rfl | rfl | rfl | rfl | rfl
    all_goals refine ⟨by simp [Resizes], fun o w' _ l _ off n ht => ?_⟩
    all_goals first
      | (simp [target] at ht; done)
      | (simp only [target, Option.some.injEq, Prod.mk.injEq] at ht; first | omega | exact key _ _ _ _ (by omega))
  · right
    intro l v hl hv
    have hw2 : w 2 = .array [0, 0, 0, 0, 0, 0, 0, 0, 0, 0, 0, 0] := by
      have := congrArg (fun x => x.map (fun y => y.2 2)) h
      have e : (run statEnv 10 blank statMade).map (fun y => y.2 2) = some (.array [0, 0, 0, 0, 0, 0, 0, 0, 0, 0, 0, 0]) := by decide +kernel
      rw [e] at this
      simpa using this.symm
    simp only [step, sem, onTLV, hw4, Option.bind_some, tagAt, hw5, onArray, hw2, arrayToInt, Option.map_some, Option.some.injEq, Prod.mk.injEq] at h1
    rw [← h1.2] at hl
    simp only [listAt, put_one, Option.some.injEq] at hl
    subst hl
    revert v
    decide +kernel

/-- Asking the object and asking the array (`C124_agree`), and the questions where no tag can be read: `size` raises another exception than the rest. -/
example : (run statEnv 10 blank [.newArray 1 [9, 0x5F, 0x81, 5, 0x1F], .tagGetInstance 2 1 1, .askTag 2 .size, .askTagStatic 1 1 .size, .askTag 2 .tagNumber, .askTagStatic 1 1 .tagNumber,
    .tagGetInstance 3 1 4, .askTagStatic 1 4 .size, .askTagStatic 1 4 .tagClass]).map (fun x => x.1.drop 1) =
    some [.ok (.ref 2), .ok (.int 2), .ok (.int 2), .ok (.int 133), .ok (.int 133), .error .arrayIndexOutOfBounds, .error .indexError, .error .arrayIndexOutOfBounds] := by
  decide +kernel

end Verif.Props
