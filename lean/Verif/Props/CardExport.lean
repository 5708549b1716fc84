import Verif.Props.CardCells
import Verif.Props.AID
import Verif.Props.TLV
import Verif.Props.Ints
import Verif.Props.Arrays
import Verif.Props.Keys
import Verif.Props.BigNumberTotal
/-! C119: what one call wrote, a later call reads back, whatever the program does in between with other cells. -/
namespace Verif.Props
open Verif.Py Verif.Model Verif.Model.Card Verif.Spec Verif.Spec.Card

/-- Between two calls the program leaves the `n` cells of the list at `r` from `off` on alone: no call names one of them, and either no tags or TLVs are
written out (those calls put the whole list into signed form) or the cells hold numbers up to 127 already. -/
def Untouched (env : CryptoEnv) (fuel : Nat) (w : Card) (prog : List Step) (r off n : Nat) : Prop :=
  (∀ i < n, Spares env fuel w prog r (off + i)) ∧
  ((∀ s ∈ prog, signs s = false) ∨ ∀ l v, listAt w r = some l → v ∈ range l off n → v ≤ 127)

theorem untouched_range {env : CryptoEnv} {fuel : Nat} (hH : ∀ alg m, (env.hash alg m).length = (env.hash alg []).length) {w w' : Card}
    {prog : List Step} {outs : List (Except Err Card.Out)} (h : run env fuel w prog = some (outs, w')) {r off n : Nat} (hn : 0 < n)
    {l : List Int} (hl : listAt w r = some l) (hr : off + n ≤ l.length) (hu : Untouched env fuel w prog r off n) :
    ∃ l', listAt w' r = some l' ∧ l'.length = l.length ∧ (∀ i < n, l'[off + i]? = l[off + i]?) ∧ range l' off n = range l off n := by
  have key : ∀ i < n, ∃ l', listAt w' r = some l' ∧ l'.length = l.length ∧ l'[off + i]? = l[off + i]? := by
    intro i hi
    have hv : l[off + i]? = some l[off + i] := List.getElem?_eq_getElem (by omega)
    obtain ⟨l', v', h1, h2, h3, h4, h5⟩ := C118_program hH h hl hv (hu.1 i hi)
    refine ⟨l', h1, h2, ?_⟩
    rw [h3, hv]
    rcases hu.2 with hs | hs
    · rw [h5 hs]
    · rw [h4.1 (hs l _ hl ?_)]
      unfold range
      refine List.mem_of_getElem? (i := i) ?_
      rw [List.getElem?_take, if_pos hi, List.getElem?_drop, hv]
  obtain ⟨l', h1, h2, _⟩ := key 0 hn
  have key' : ∀ i < n, l'[off + i]? = l[off + i]? := by
    intro i hi
    obtain ⟨l'', k1, _, k3⟩ := key i hi
    rw [h1] at k1
    injection k1 with k1
    rw [k1]; exact k3
  refine ⟨l', h1, h2, key', ?_⟩
  unfold range
  apply List.ext_getElem?
  intro i
  rw [List.getElem?_take, List.getElem?_take, List.getElem?_drop, List.getElem?_drop]
  by_cases hi : i < n
  · rw [if_pos hi, if_pos hi, key' i hi]
  · rw [if_neg hi, if_neg hi]

theorem array_listAt {w : Card} {r : Nat} {l : List Int} (h : w r = .array l) : listAt w r = some l := by simp [listAt, h]

/-- A call on a list that did not end with `wrong` found a list. -/
theorem onArray_ok {w : Card} {r : Nat} {f : List Int → Eff} {o : Card.Out} (h : (onArray w r f).1 = .ok o) :
    ∃ l, w r = .array l ∧ onArray w r f = f l := by
  unfold onArray at h ⊢
  split at h
  · next l hl => exact ⟨l, hl, rfl⟩
  · cases h


theorem get_same {l l' : List Int} {k : Nat} (h : l'[k]? = l[k]?) : Verif.Py.get l' (k : Int) = Verif.Py.get l (k : Int) := by
  by_cases hk : k < l.length
  · have hk' : k < l'.length := by
      rw [List.getElem?_eq_getElem hk] at h
      exact (List.getElem?_eq_some_iff.1 h).1
    rw [get_natCast _ _ hk, get_natCast _ _ hk']
    rw [List.getElem?_eq_getElem hk, List.getElem?_eq_getElem hk'] at h
    injection h with h
    rw [h]
  · have hk' : l'.length ≤ k := by
      rw [List.getElem?_eq_none (show l.length ≤ k by omega)] at h
      exact List.getElem?_eq_none_iff.1 h
    rw [get_natCast_out _ _ hk', get_natCast_out _ _ (by omega)]

/-- The cells a call has just written, if they are Java bytes, need only be spared. -/
theorem spared_bytes {env : CryptoEnv} {fuel : Nat} {w : Card} {prog : List Step} {r off n : Nat} {l vs : List Int} (hl : listAt w r = some l)
    (hv : range l off n = vs) (hb : Bytes vs) (hs : ∀ i < n, Spares env fuel w prog r (off + i)) : Untouched env fuel w prog r off n := by
  refine ⟨hs, .inr fun l0 x h0 hx => ?_⟩
  rw [hl] at h0
  injection h0 with h0
  subst h0
  rw [hv] at hx
  exact (hb x hx).2

/-- **C119** (shorts). A short stored with `setShort` is read back by `getShort`, whatever the program does in between with other cells. -/
theorem C119_short {env : CryptoEnv} {fuel : Nat} (hH : ∀ alg m, (env.hash alg m).length = (env.hash alg []).length) {w w1 w2 : Card}
    {prog : List Step} {outs : List (Except Err Card.Out)} {r off : Nat} {v : Int} (hv : IsShort v)
    (h1 : step env fuel w (.setShort r off v) = some (.ok .nothing, w1)) (h2 : run env fuel w1 prog = some (outs, w2))
    (hu : ∀ i < 2, Spares env fuel w1 prog r (off + i)) :
    step env fuel w2 (.getShort r off) = some (.ok (.int v), w2) := by
  obtain ⟨e, he, ho, rfl⟩ := step_sem h1
  simp only [sem, Option.some.injEq] at he
  subst he
  obtain ⟨l, hl, hf⟩ := onArray_ok ho
  rw [hf] at ho h2 hu
  simp only [arrayTo] at ho h2 hu
  have hr : off + 2 ≤ l.length := by
    by_cases hc : off + 2 ≤ l.length
    · exact hc
    · have := C08_setShort l off v
      rw [if_neg hc] at this
      rw [this] at ho; cases ho
  have hrt := C03_roundtrip l off v hr hv
  obtain ⟨hi, lo, l', hs, b1, b2, hw, _⟩ := C03_setShort_getShort l off v hr
  rw [hs] at hrt h2 hu
  simp only at hrt h2 hu
  have hl1 : listAt (w.put [(r, .array l')]) r = some l' := array_listAt (put_one _ _ _)
  obtain ⟨l2, k1, k2, k3, _⟩ := untouched_range hH h2 (n := 2) (by omega) hl1 (by rw [hw.2.1]; exact hr)
    (spared_bytes hl1 (range_of_written hw) (by
      intro x hx
      simp only [List.mem_cons, List.not_mem_nil, or_false] at hx
      rcases hx with rfl | rfl
      · exact b1
      · exact b2) hu)
  have hg : Util.getShort l2 off = Util.getShort l' off := by
    have g0 := get_same (k3 0 (by omega))
    have g1 := get_same (k3 1 (by omega))
    rw [Nat.add_zero] at g0
    rw [show ((off + 1 : Nat) : Int) = (off : Int) + 1 by omega] at g1
    unfold Util.getShort
    rw [g0, g1]
  simp only [step, sem, Option.map_some, onArray, listAt_some k1, hg, hrt, Except.map, put]

/-- **C119** (ints). As `C119_short` for `setInt` and `getInt`, for values whose three low bytes are below 128 (see C35 for the others). -/
theorem C119_int {env : CryptoEnv} {fuel : Nat} (hH : ∀ alg m, (env.hash alg m).length = (env.hash alg []).length) {w w1 w2 : Card}
    {prog : List Step} {outs : List (Except Err Card.Out)} {r off : Nat} {a b n : Int} (hv : IsInt32 (a * 65536 + b))
    (hp : ∀ x ∈ (intBytes (a * 65536 + b)).drop 1, 0 ≤ x)
    (h1 : step env fuel w (.setInt r off a b) = some (.ok (.int n), w1)) (h2 : run env fuel w1 prog = some (outs, w2))
    (hu : ∀ i < 4, Spares env fuel w1 prog r (off + i)) :
    n = off + 4 ∧ step env fuel w2 (.getInt r off) = some (.ok (.int (a * 65536 + b)), w2) := by
  obtain ⟨e, he, ho, rfl⟩ := step_sem h1
  simp only [sem, Option.some.injEq] at he
  subst he
  obtain ⟨l, hl, hf⟩ := onArray_ok ho
  rw [hf] at ho h2 hu
  simp only [arrayToInt] at ho h2 hu
  have hr : off + 4 ≤ l.length := by
    by_cases hc : off + 4 ≤ l.length
    · exact hc
    · rw [C35_setInt_overrun l off a b (by omega)] at ho
      cases ho
  have hrt := (C35_getInt_setInt l off a b hr hv).2 hp
  obtain ⟨l', hs, hw⟩ := C35_setInt l off a b hr
  rw [hs] at hrt h2 hu ho
  simp only [Except.map, Except.ok.injEq, Card.Out.int.injEq] at hrt h2 hu ho
  have hl1 : listAt (w.put [(r, .array l')]) r = some l' := array_listAt (put_one _ _ _)
  obtain ⟨l2, k1, k2, k3, _⟩ := untouched_range hH h2 (n := 4) (by omega) hl1 (by rw [hw.2.1]; exact hr)
    (spared_bytes hl1 (range_of_written hw) (by
      intro x hx
      simp only [intBytes, List.mem_map] at hx
      obtain ⟨y, _, rfl⟩ := hx
      unfold IsByte
      rw [Int.bmod_def]
      constructor <;> (split <;> omega)) hu)
  have hg : JCint.getInt l2 off = JCint.getInt l' off := by
    have g0 := get_same (k3 0 (by omega))
    have g1 := get_same (k3 1 (by omega))
    have g2 := get_same (k3 2 (by omega))
    have g3 := get_same (k3 3 (by omega))
    rw [Nat.add_zero] at g0
    rw [show ((off + 1 : Nat) : Int) = (off : Int) + 1 by omega] at g1
    rw [show ((off + 2 : Nat) : Int) = (off : Int) + 2 by omega] at g2
    rw [show ((off + 3 : Nat) : Int) = (off : Int) + 3 by omega] at g3
    unfold JCint.getInt
    rw [g0, g1, g2, g3]
  refine ⟨ho.symm, ?_⟩
  simp only [step, sem, Option.map_some, onArray, listAt_some k1, hg, hrt, Except.map, put]

/-- An AID on a card stays as it is. -/
theorem aid_stays {env : CryptoEnv} {fuel : Nat} {a : Nat} {x : AID} : ∀ {prog : List Step} {w w' : Card} {outs : List (Except Err Card.Out)},
    run env fuel w prog = some (outs, w') → w a = .aid x → w' a = .aid x := by
  intro prog
  induction prog with
  | nil => intro w w' outs h hw; simp only [run, Option.some.injEq, Prod.mk.injEq] at h; rw [← h.2]; exact hw
  | cons s ss ih =>
    intro w w' outs h hw
    simp only [run, step] at h
    cases he : sem env fuel w s with
    | none => simp [he] at h
    | some e =>
      simp only [he, Option.map_some, Option.map_eq_some_iff, Prod.mk.injEq] at h
      obtain ⟨y, hy, _, h2⟩ := h
      refine ih (outs := y.1) (by rw [← h2]; exact hy) ?_
      by_cases hk : kind (w a) ∈ changes s
      · rw [hw] at hk
        cases s <;> simp [changes, kind] at hk
        case newAID b r off len =>
          simp only [sem, Option.some.injEq] at he
          subst he
          refine onArray_ind (P := fun e => w.put e.2 a = .aid x) hw fun l hl => ?_
          refine makeOrMap_ind (P := fun e => w.put e.2 a = .aid x) hw (fun _ => hw) fun o hf => ?_
          rw [put_one_ne _ _ (fun e => by rw [e, hw] at hf; simp at hf), hw]
      · rw [unchanged he (by simp [hw, kind]) hk, hw]
/-- **C119** (AIDs). The bytes an AID wrote out make an equal AID later, whatever the program does in between with other cells. -/
theorem C119_aid {env : CryptoEnv} {fuel : Nat} (hH : ∀ alg m, (env.hash alg m).length = (env.hash alg []).length) {w w1 w2 : Card}
    {prog : List Step} {outs : List (Except Err Card.Out)} {a k r off n : Nat} (h5 : 5 ≤ n) (h16 : n ≤ 16)
    (h1 : step env fuel w (.aidGetBytes a r off) = some (.ok (.int n), w1)) (h2 : run env fuel w1 prog = some (outs, w2))
    (hu : Untouched env fuel w1 prog r off n) (hk : w2 k = .free) :
    step env fuel w2 (.aidEquals a r off n) = some (.ok (.bool true), w2) ∧
    ∃ w3, step env fuel w2 (.newAID k r off n) = some (.ok (.ref k), w3) ∧ step env fuel w3 (.aidEq a k) = some (.ok (.bool true), w3) := by
  obtain ⟨e, he, ho, rfl⟩ := step_sem h1
  simp only [sem, Option.some.injEq] at he
  subst he
  obtain ⟨l, hl, hf⟩ := onArray_ok ho
  rw [hf] at ho h2 hu
  cases hx : w a with
  | aid x =>
    simp only [hx, arrayToInt] at ho h2 hu
    rcases C11_getBytes x l off with ⟨c1, c2, hw⟩ | ⟨_, c⟩
    · rw [c2] at ho
      simp only [Except.map, Except.ok.injEq, Card.Out.int.injEq, Int.natCast_inj] at ho
      subst ho
      have hl1 : listAt (w.put [(r, .array (x.getBytes l off).2)]) r = some (x.getBytes l off).2 := array_listAt (put_one _ _ _)
      obtain ⟨l2, k1, k2, _, k4⟩ := untouched_range hH h2 (by omega) hl1 (by rw [hw.2.1]; exact c1) hu
      rw [range_of_written hw] at k4
      have hra : r ≠ a := by rintro rfl; rw [hl] at hx; cases hx
      have ha2 : w2 a = .aid x := aid_stays h2 (by rw [put_one_ne _ _ hra, hx])
      have hlen : off + x.aid.length ≤ l2.length := by rw [k2, hw.2.1]; exact c1
      constructor
      · rcases C11_equals x l2 off x.aid.length with ⟨_, b, hb, hbi⟩ | ⟨h, _⟩
        · simp only [step, sem, Option.map_some, onArray, listAt_some k1, ha2, hb, hbi.2 k4, Except.map, put]
        · omega
      · rcases C10_construct l2 off x.aid.length with ⟨h, _⟩ | ⟨_, _, h, _⟩ | ⟨_, _, _, y, hy, hya⟩
        · omega
        · omega
        · rw [Int.toNat_natCast, k4] at hya
          refine ⟨w2.put [(k, .aid y)], ?_, ?_⟩
          · simp only [step, sem, Option.map_some, onArray, listAt_some k1, hy, Except.map, makeOr, make, hk]
          · have hka : k ≠ a := by rintro rfl; rw [hk] at ha2; cases ha2
            have e1 : w2.put [(k, .aid y)] a = .aid x := by rw [put_one_ne _ _ hka, ha2]
            have e2 : x.eq y = true := (C11_eq x y).2 hya.symm
            simp only [step, sem, e1, put_one, Option.map_some, e2, Option.some.injEq, Prod.mk.injEq, true_and]
            rfl
    · rw [c] at ho; cases ho
  | _ => simp [hx, wrong] at ho

/-- **C119** (tags). A tag written out is read back later with the same class, flag and number. -/
theorem C119_tag {env : CryptoEnv} {fuel : Nat} (hH : ∀ alg m, (env.hash alg m).length = (env.hash alg []).length) {w w1 w2 : Card}
    {prog : List Step} {outs : List (Except Err Card.Out)} {g k r off n : Nat} {t : BERTag} {cls num : Nat} {c : Bool}
    (hg : w g = .tag t) (ht : IsTag t cls c num) (hc : cls < 4)
    (h1 : step env fuel w (.tagToBytes g r off) = some (.ok (.int n), w1)) (h2 : run env fuel w1 prog = some (outs, w2))
    (hu : ∀ i < n, Spares env fuel w1 prog r (off + i)) (hk : w2 k = .free) :
    ∃ w3 t', step env fuel w2 (.tagGetInstance k r off) = some (.ok (.ref k), w3) ∧ w3 k = .tag t' ∧ IsTag t' cls c num ∧
      (w2 g = .tag t → step env fuel w3 (.tagEquals g k) = some (.ok (.bool true), w3)) := by
  obtain ⟨e, he, ho, rfl⟩ := step_sem h1
  simp only [sem, Option.some.injEq] at he
  subst he
  obtain ⟨l, hl, hf⟩ := onArray_ok ho
  rw [hf] at ho h2 hu
  simp only [tagAt, hg, arrayToInt] at ho h2 hu
  have hcan := BERTag.octets_canonical cls c num hc
  by_cases hr : off + (BERTag.octets cls c num).length ≤ l.length
  · obtain ⟨l', hs, e1, e2, e3⟩ := C36_encode t cls num c ht _ hcan l off hr
    rw [hs] at ho h2 hu
    simp only [Except.map, Except.ok.injEq, Card.Out.int.injEq, Int.natCast_inj] at ho h2 hu
    subst ho
    have hpos : 0 < (BERTag.octets cls c num).length := by unfold BERTag.octets; split <;> simp
    have hl1 : listAt (w.put [(r, .array l')]) r = some l' := array_listAt (put_one _ _ _)
    obtain ⟨l2, k1, k2, _, k4⟩ := untouched_range hH h2 hpos hl1 (by rw [e1]; exact hr) (spared_bytes hl1 rfl e3 hu)
    obtain ⟨t', d1, d2⟩ := C36_decode l2 off _ cls num c (BERTag.canonical_octets hcan) (by rw [k4]; exact e2)
    refine ⟨w2.put [(k, .tag t')], t', ?_, put_one _ _ _, d2, fun hg2 => ?_⟩
    · simp only [step, sem, Option.map_some, onArray, listAt_some k1, d1, Except.map, makeOr, make, hk]
    · have hkg : k ≠ g := by rintro rfl; rw [hk] at hg2; cases hg2
      have : t.eq t' = true := (C36_equal t t' cls num cls num c c ht d2).2 ⟨rfl, rfl, rfl⟩
      have e1 : w2.put [(k, .tag t')] g = .tag t := by rw [put_one_ne _ _ hkg, hg2]
      simp only [step, sem, tagAt, e1, put_one, Option.map_some, this, Option.some.injEq, Prod.mk.injEq, true_and]
      rfl
  · obtain ⟨b2, e, h⟩ := BERTag.toBytes_out t cls num c ht.1 ht.2.1 ht.2.2 l off (by omega)
    rw [e] at ho
    cases ho

/-- Writing out a TLV succeeds only with room for it. -/
theorem tlv_room (t : BERTLV) (tag : BERTag) (cls num : Nat) (c : Bool) (ht : t.tag = some tag) (hi : IsTag tag cls c num) (hc : cls < 4) (v : List Int)
    (hl : t.length = v.length) (buf : List Int) (o : Nat) (n : Int) (h : (t.toBytes buf o).1 = .ok n) :
    o + (BERTag.octets cls c num).length + 1 + v.length ≤ buf.length := by
  by_cases hr : o + (BERTag.octets cls c num).length ≤ buf.length
  · obtain ⟨b, hs, e1, _⟩ := C36_encode tag cls num c hi _ (BERTag.octets_canonical cls c num hc) buf o hr
    unfold BERTLV.toBytes at h
    simp only [ht, hs] at h
    split at h
    · cases h
    · by_cases h2 : o + (BERTag.octets cls c num).length < buf.length
      · rw [set_step _ _ _ _ (by omega)] at h
        simp only at h
        rw [show (o : Int) + (((BERTag.octets cls c num).length : Int) + 1) = ((o + (BERTag.octets cls c num).length + 1 : Nat) : Int) by omega, hl] at h
        have := arrayCopy_eq (t.value.getD []) (b.set (o + (BERTag.octets cls c num).length) v.length) 0 (o + (BERTag.octets cls c num).length + 1) v.length
        rw [show ((0 : Nat) : Int) = 0 from rfl] at this
        rw [this] at h
        simp only at h
        split at h
        · cases h
        · next heq =>
          injection heq with h1 h2
          split at h1
          · next hm => simp only [List.length_set, e1] at hm; omega
          · cases h1
      · rw [set_step_out _ _ _ _ (by omega)] at h
        cases h
  · obtain ⟨b2, e, _⟩ := BERTag.toBytes_out tag cls num c hi.1 hi.2.1 hi.2.2 buf o (by omega)
    unfold BERTLV.toBytes at h
    simp only [ht, e] at h
    cases h

/-- **C119** (TLVs). A TLV written out is read back later with the same tag, length and value. -/
theorem C119_tlv {env : CryptoEnv} {fuel : Nat} (hH : ∀ alg m, (env.hash alg m).length = (env.hash alg []).length) {w w1 w2 : Card}
    {prog : List Step} {outs : List (Except Err Card.Out)} {k g k' g' r off m : Nat} {t : TLVRef} {tag : BERTag} {n : Node}
    (hk : w k = .tlv t) (hg : t.tag = some g) (htag : w g = .tag tag) (hi : IsTag tag n.cls n.constructed n.num)
    (hv : t.value = some n.value) (hl : t.length = n.value.length) (hc : n.cls < 4) (hn : n.num ≤ 30) (h127 : n.value.length ≤ 127)
    (h1 : step env fuel w (.tlvToBytes k r off) = some (.ok (.int m), w1)) (h2 : run env fuel w1 prog = some (outs, w2))
    (hu : Untouched env fuel w1 prog r off m) (hk' : w2 k' = .free) (hg' : w2 g' = .free) (hne : k' ≠ g') :
    ∃ w3 t' tag', step env fuel w2 (.tlvGetInstance k' g' r off none) = some (.ok (.ref k'), w3) ∧ w3 k' = .tlv t' ∧ t'.tag = some g' ∧
      w3 g' = .tag tag' ∧ t'.constructed = n.constructed ∧ IsTag tag' n.cls n.constructed n.num ∧ t'.length = n.value.length ∧ t'.value = some n.value := by
  obtain ⟨e, he, ho, rfl⟩ := step_sem h1
  simp only [sem, onTLV, hk, hg, Option.bind_some, tagAt, htag, Option.some.injEq] at he
  subst he
  obtain ⟨l, hla, hf⟩ := onArray_ok ho
  rw [hf] at ho h2 hu
  simp only [arrayToInt] at ho h2 hu
  have hr : off + 2 + n.value.length ≤ l.length := by
    have ho' : ∃ q, (BERTLV.toBytes ⟨t.constructed, some tag, t.length, t.value⟩ l off).1 = .ok q := by
      generalize BERTLV.toBytes _ l off = z at ho
      obtain ⟨z1, z2⟩ := z
      cases z1 with
      | ok q => exact ⟨q, rfl⟩
      | error e => cases ho
    obtain ⟨q, hq⟩ := ho'
    have := tlv_room ⟨t.constructed, some tag, t.length, t.value⟩ tag n.cls n.num n.constructed rfl hi hc n.value hl l off q hq
    have : (BERTag.octets n.cls n.constructed n.num).length = 1 := by unfold BERTag.octets; rw [if_pos hn]; rfl
    omega
  · obtain ⟨base, l', enc, hs, hen, _, hw⟩ := C40_encode ⟨t.constructed, some tag, t.length, t.value⟩ tag n rfl hi hv hl hc hn h127 l off hr
    rw [hs] at ho h2 hu
    simp only [Except.map, Except.ok.injEq, Card.Out.int.injEq] at ho h2 hu
    have hm : m = enc.length := by
      obtain ⟨_, _, _, b, _, rfl⟩ := hen
      simp only [List.length_cons]
      omega
    subst hm
    have hl1 : listAt (w.put [(r, .array l')]) r = some l' := array_listAt (put_one _ _ _)
    obtain ⟨l2, k1, k2, _, k4⟩ := untouched_range hH h2 (by omega) hl1 (by have := hw.1; have := hw.2.1; omega) hu
    rw [range_of_written hw] at k4
    have hd : l2.drop off = enc ++ l2.drop (off + enc.length) := by
      rw [← List.drop_drop]
      conv => lhs; rw [← List.take_append_drop enc.length (List.drop off l2)]
      unfold range at k4
      rw [k4]
    obtain ⟨x, d1, ⟨x1, ⟨tag', x2, x3⟩, x4, x5, _⟩, _⟩ := C40_decode l2 off n enc _ hd hen
    refine ⟨w2.put [(g', .tag tag'), (k', .tlv ⟨x.constructed, some g', x.length, x.value⟩)], ⟨x.constructed, some g', x.length, x.value⟩, tag', ?_,
      put_two _ _ _ _ _, rfl, put_two_first _ _ _ (Ne.symm hne), x1, x3, x4, x5⟩
    simp only [step, sem, Option.map_some, onArray, listAt_some k1, d1, Except.map, found, makeTLV, x2, hk', hg', if_neg hne]

/-- The contents of the DES keys are bytes, at most as many as the size says. -/
def KeyBytes (w : Card) : Prop := ∀ i d b, w i = .key (.des d) → d.key = some b → (∀ n : Nat, d.size / 8 = n → b.length ≤ n) ∧ ∃ cells, b = arrayToBinary cells

theorem slice_width (l : List Int) (o : Int) (n : Nat) : (slice l o (o + n)).length ≤ n := by
  unfold slice
  simp only [List.length_take, List.length_drop]
  unfold bound
  repeat' split
  all_goals omega

theorem keyBytes_step {env : CryptoEnv} {fuel : Nat} {w : Card} {s : Step} {e : Eff} (hw : KeyBytes w) (he : sem env fuel w s = some e) :
    KeyBytes (w.put e.2) := by
  intro i d b hi hb
  rcases put_mem w e.2 i with h | ⟨u, hu, rfl, h⟩
  · exact hw i d b (h ▸ hi) hb
  · have hk := written env fuel w s e he u hu
    rw [hi] at h
    rw [← h] at hk
    cases s <;> simp [changes, kind] at hk
    case buildKey k args =>
      simp only [sem, Option.some.injEq] at he
      split at he
      · subst he; simp at hu
      · subst he; simp at hu
      · next x hx =>
        unfold make at he
        split at he
        · subst he
          simp only [List.mem_singleton] at hu
          subst hu
          simp only [Obj.key.injEq] at h
          unfold buildKey at hx
          repeat' split at hx
          all_goals simp only [Except.ok.injEq, Option.some.injEq, reduceCtorEq] at hx
          all_goals (subst hx; simp only [reduceCtorEq, KeyObj.des.injEq] at h)
          subst h
          simp [DESKey.new] at hb
        · subst he; simp [wrong] at hu
    case setKey k r off =>
      simp only [sem, onArray, Option.some.injEq] at he
      split at he
      · split at he
        · subst he
          simp only [List.mem_singleton] at hu
          subst hu
          simp only [Obj.key.injEq, KeyObj.des.injEq] at h
          subst h
          simp only [DESKey.setKey, Option.some.injEq] at hb ⊢
          subst hb
          exact ⟨fun n hn => by rw [hn]; simpa [arrayToBinary] using slice_width _ _ _, _, rfl⟩
        · subst he; simp at hu
        · subst he; simp [wrong] at hu
      · subst he; simp [wrong] at hu

theorem keyBytes_run {env : CryptoEnv} {fuel : Nat} : ∀ {prog : List Step} {w w' : Card} {outs : List (Except Err Card.Out)},
    run env fuel w prog = some (outs, w') → KeyBytes w → KeyBytes w' := by
  intro prog w w' outs h hw
  exact history_ind (α := Unit) (fun _ _ => none) (fun _ v => KeyBytes v) (fun _ v s e hv he => keyBytes_step hv he) prog [] w outs w' h hw

theorem keyBytes_blank : KeyBytes blank := by
  intro i d b h
  unfold blank at h
  split at h <;> cases h

theorem binary_back (cells : List Int) : arrayToBinary (binaryToArray (arrayToBinary cells)) = arrayToBinary cells := by
  unfold arrayToBinary binaryToArray
  rw [List.map_map, List.map_map]
  apply List.map_congr_left
  intro x _
  simp only [Function.comp]
  have h1 := arrayToBinary_elem x
  have h2 := arrayToBinary_elem (s1 ((iand x 0xff).toNat : Int))
  have h3 : (2 ^ (8 * 1) : Int) ∣ ((iand x 0xff).toNat : Int) - signed ((iand x 0xff).toNat : Int) 1 := C01_signed_congr 1 _
  have h4 : s1 ((iand x 0xff).toNat : Int) = signed ((iand x 0xff).toNat : Int) 1 := rfl
  rw [← h4] at h3
  simp only [Nat.mul_one, Int.reducePow] at h3
  omega

/-- **C119** (DES keys). On a card used from the start, the bytes a DES key wrote out, loaded later into a key of the same size, give a key with the same
contents. -/
theorem C119_des_key {env : CryptoEnv} {fuel : Nat} (hH : ∀ alg m, (env.hash alg m).length = (env.hash alg []).length) {prog0 : List Step}
    {outs0 : List (Except Err Card.Out)} {w w1 w2 : Card} (h0 : run env fuel blank prog0 = some (outs0, w))
    {prog : List Step} {outs : List (Except Err Card.Out)} {k k' r off n : Nat} {d d' : DESKey} (hn : 0 < n)
    (hk : w k = .key (.des d)) (hs : d.size / 8 = n)
    (h1 : step env fuel w (.getKey k r off) = some (.ok .nothing, w1)) (h2 : run env fuel w1 prog = some (outs, w2))
    (hu : ∀ i < n, Spares env fuel w1 prog r (off + i)) (hk' : w2 k' = .key (.des d')) (hs' : d'.size / 8 = n) :
    ∃ w3, step env fuel w2 (.setKey k' r off) = some (.ok .nothing, w3) ∧ w3 k' = .key (.des { d' with initialized := true, key := d.key }) := by
  have hkb := keyBytes_run h0 keyBytes_blank
  obtain ⟨e, he, ho, rfl⟩ := step_sem h1
  simp only [sem, Option.some.injEq] at he
  subst he
  obtain ⟨l, hl, hf⟩ := onArray_ok ho
  rw [hf] at ho h2 hu
  simp only [hk, arrayTo] at ho h2 hu
  cases hb : d.key with
  | none => simp [DESKey.getKey, hb, Except.map] at ho
  | some b =>
    obtain ⟨hlen, cells, rfl⟩ := hkb k d b hk hb
    replace hlen := hlen n hs
    have hg : d.getKey l off = Util.arrayCopy (binaryToArray (arrayToBinary cells)) 0 l off n := by unfold DESKey.getKey; rw [hb, hs]
    have hc := arrayCopy_eq (binaryToArray (arrayToBinary cells)) l 0 off n
    rw [show ((0 : Nat) : Int) = 0 from rfl] at hc
    have hbl : (binaryToArray (arrayToBinary cells)).length = (arrayToBinary cells).length := by simp [binaryToArray]
    rw [hg, hc] at ho h2 hu
    simp only at ho h2 hu
    split at ho
    · next hm =>
      have h3 : (arrayToBinary cells).length = n := by omega
      have h4 : off + n ≤ l.length := by omega
      rw [hm, List.drop_zero, List.take_of_length_le (by omega)] at h2 hu
      generalize hl' : splice l off (binaryToArray (arrayToBinary cells)) = l' at h2 hu
      have hw : Written l l' off (binaryToArray (arrayToBinary cells)) := by rw [← hl']; exact written_splice _ _ _ (by omega)
      have hl1 : listAt (w.put [(r, .array l')]) r = some l' := array_listAt (put_one _ _ _)
      have hrg := range_of_written hw
      rw [hbl, h3] at hrg
      obtain ⟨l2, k1, k2, _, k4⟩ := untouched_range hH h2 hn hl1 (by rw [hw.2.1]; exact h4) (spared_bytes hl1 hrg (by
        intro x hx
        obtain ⟨y, hy, rfl⟩ := List.mem_map.1 hx
        obtain ⟨z, _, rfl⟩ := List.mem_map.1 hy
        have := arrayToBinary_elem z
        exact s1_isByte _ (by omega) (by omega)) hu)
      rw [hrg] at k4
      refine ⟨w2.put [(k', .key (.des (d'.setKey l2 off)))], ?_, ?_⟩
      · simp only [step, sem, Option.map_some, onArray, listAt_some k1, hk']
      · rw [put_one]
        unfold DESKey.setKey
        rw [hs', slice_add]
        unfold range at k4
        rw [k4, binary_back]
    · cases ho

/-- The exponent or the modulus of an RSA key (the private exponent, for a private key). -/
def component (exponent : Bool) (x : RSAKey) : Option (List Int) := if exponent then x.exponent else x.modulus

theorem afterSet_facts (k : RSAKey) : ∃ y, RSAKey.afterSet true k = (.ok (), y) ∧ y.exponent = k.exponent ∧ y.modulus = k.modulus ∧ y.size = k.size ∧
    y.isPublic = k.isPublic ∧ (∀ m e, k.isPublic = true → k.theKey = none → y.modulus = some m → y.exponent = some e →
      y.initialized = true ∧ y.theKey = some (.constructed (arrayToLong m) (arrayToLong e))) := by
  unfold RSAKey.afterSet
  split
  · next m e hm he =>
    split
    · rw [if_neg (by simp)]
      refine ⟨_, rfl, rfl, rfl, rfl, rfl, ?_⟩
      intro m' e' _ _ h1 h2
      simp only [hm, he, Option.some.injEq] at h1 h2
      subst h1 h2
      exact ⟨rfl, rfl⟩
    · next hn => exact ⟨_, rfl, rfl, rfl, rfl, rfl, fun m' e' h1 h2 => absurd ⟨h1, h2⟩ hn⟩
  · next hn => exact ⟨_, rfl, rfl, rfl, rfl, rfl, fun m' e' _ _ h1 h2 => absurd h2 (hn m' e' h1)⟩

/-- **C119** (RSA keys). The component an RSA key wrote out, loaded later into another RSA key, is that component again; so the two public components make
the same public key. -/
theorem C119_rsa_key {env : CryptoEnv} {fuel : Nat} (hH : ∀ alg m, (env.hash alg m).length = (env.hash alg []).length) (hpc : env.pycrypto = true)
    {w w1 w2 : Card} {prog : List Step} {outs : List (Except Err Card.Out)} {k k' r off n : Nat} {exponent : Bool} {x y : RSAKey} (hn : 0 < n)
    (hk : w k = .key (.rsa x)) (h1 : step env fuel w (.getRSA k exponent r off) = some (.ok (.int n), w1))
    (h2 : run env fuel w1 prog = some (outs, w2)) (hu : Untouched env fuel w1 prog r off n) (hk' : w2 k' = .key (.rsa y))
    (hs : exponent = true ∨ y.size / 8 = n) :
    ∃ w3 y', step env fuel w2 (.setRSA k' exponent r off n) = some (.ok .nothing, w3) ∧ w3 k' = .key (.rsa y') ∧
      component exponent y' = component exponent x ∧ component (!exponent) y' = component (!exponent) y ∧ y'.size = y.size ∧ y'.isPublic = y.isPublic ∧
      (∀ m e, y.isPublic = true → y.theKey = none → y'.modulus = some m → y'.exponent = some e →
        y'.initialized = true ∧ y'.theKey = some (.constructed (arrayToLong m) (arrayToLong e))) := by
  obtain ⟨e, he, ho, rfl⟩ := step_sem h1
  simp only [sem, Option.some.injEq] at he
  subst he
  obtain ⟨l, hl, hf⟩ := onArray_ok ho
  rw [hf] at ho h2 hu
  simp only [hk, arrayToInt] at ho h2 hu
  have hg : (if exponent then x.getExponent l off else x.getModulus l off) = x.getComponent (component exponent x) l off := by
    unfold component; cases exponent <;> rfl
  rw [hg] at ho h2 hu
  unfold RSAKey.getComponent at ho h2 hu
  split at ho
  · cases ho
  · next hini =>
    rw [if_neg hini] at h2 hu
    cases hc : component exponent x with
    | none => simp [hc, Except.map] at ho
    | some c =>
      simp only [hc] at ho h2 hu
      have hcp := arrayCopy_eq c l 0 off c.length
      rw [show ((0 : Nat) : Int) = 0 from rfl] at hcp
      simp only at hcp
      by_cases hm : min c.length (min (c.length - 0) (l.length - off)) = c.length
      · rw [if_pos hm, hm, List.drop_zero, List.take_of_length_le (by omega)] at hcp
        rw [hcp] at ho h2 hu
        simp only [Except.map, Except.ok.injEq, Card.Out.int.injEq, Int.natCast_inj] at ho h2 hu
        subst ho
        generalize hl' : splice l off c = l' at h2 hu
        have hw : Written l l' off c := by rw [← hl']; exact written_splice _ _ _ (by omega)
        have hl1 : listAt (w.put [(r, .array l')]) r = some l' := array_listAt (put_one _ _ _)
        obtain ⟨l2, k1, k2, _, k4⟩ := untouched_range hH h2 hn hl1 (by rw [hw.2.1]; exact hw.1) hu
        rw [range_of_written hw] at k4
        unfold range at k4
        have hsl : slice l2 (off : Int) ((off : Int) + (c.length : Int)) = c := by rw [slice_add, k4]
        have hst : ∃ z, (if exponent then y.setExponent true l2 off c.length else y.setModulus true l2 off c.length) = RSAKey.afterSet true z ∧
            component exponent z = some c ∧ component (!exponent) z = component (!exponent) y ∧ z.size = y.size ∧ z.isPublic = y.isPublic ∧ z.theKey = y.theKey := by
          cases exponent with
          | true => exact ⟨{ y with exponent := some c }, by simp only [if_true, RSAKey.setExponent, hsl], rfl, rfl, rfl, rfl, rfl⟩
          | false =>
            have hs' : ¬ ((c.length : Int) ≠ y.size / 8) := by
              rcases hs with h | h
              · cases h
              · omega
            exact ⟨{ y with modulus := some c }, by simp only [Bool.false_eq_true, if_false, RSAKey.setModulus, if_neg hs', hsl], rfl, rfl, rfl, rfl, rfl⟩
        obtain ⟨z, z1, z2, z3, z4, z5, z6⟩ := hst
        obtain ⟨y', a1, a2, a3, a4, a5, a6⟩ := afterSet_facts z
        refine ⟨w2.put [(k', .key (.rsa y'))], y', ?_, put_one _ _ _, ?_, ?_, a4.trans z4, a5.trans z5, ?_⟩
        · simp only [step, sem, Option.map_some, onArray, listAt_some k1, hk', hpc, z1, a1, Except.map]
        · rw [← z2]; unfold component; rw [a2, a3]
        · rw [← z3]; unfold component; rw [a2, a3]
        · intro m e p1 p2 p3 p4
          exact a6 m e (z5.trans p1) (z6.trans p2) p3 p4
      · rw [if_neg hm] at hcp
        rw [hcp] at ho
        cases ho
/-- **C119** (big numbers). A big number written out, in either format, is read back later by any big number, which then compares equal. -/
theorem C119_big {env : CryptoEnv} {fuel : Nat} (hH : ∀ alg m, (env.hash alg m).length = (env.hash alg []).length) {w w1 w2 : Card}
    {prog : List Step} {outs : List (Except Err Card.Out)} {b c r off n v : Nat} {fmt : Int} {x y : BigNumber} (hn : 0 < n) (hf : fmt = HEX ∨ fmt = BCD)
    (hb : w b = .big x) (hx : x.value = some (v : Int)) (h1 : step env fuel w (.bigToBytes b r off n fmt) = some (.ok .nothing, w1))
    (h2 : run env fuel w1 prog = some (outs, w2)) (hu : ∀ i < n, Spares env fuel w1 prog r (off + i)) (hc : w2 c = .big y) :
    ∃ w3, step env fuel w2 (.bigInit c (some r) off n fmt) = some (.ok .nothing, w3) ∧ w3 c = .big { y with value := some (v : Int) } ∧
      (c ≠ b → w2 b = .big x → step env fuel w3 (.bigCompare b c) = some (.ok (.int 0), w3)) := by
  obtain ⟨e, he, ho, rfl⟩ := step_sem h1
  simp only [sem, Option.some.injEq] at he
  subst he
  obtain ⟨l, hl, hfl⟩ := onArray_ok ho
  rw [hfl] at ho h2 hu
  simp only [hb, arrayTo] at ho h2 hu
  have key : ∃ l2, listAt w2 r = some l2 ∧ y.init (some l2) off n fmt = (.ok (), { y with value := some (v : Int) }) := by
    have hs := C32_succeeds_iff x v hx l off n
    have hok : (x.toBytes l off n fmt).1 = .ok () := by
      cases hz : (x.toBytes l off n fmt).1 with
      | ok _ => rfl
      | error e => rw [hz] at ho; cases ho
    have hgen : ∀ (base : Nat) (spells : List Int → List Nat → Prop),
        (∃ l', x.toBytes l off n fmt = (.ok (), l') ∧ WritesNumber base spells l l' off n v) →
        ∃ l2 ds, listAt w2 r = some l2 ∧ off + n ≤ l2.length ∧ spells (range l2 off n) ds ∧ positional base ds = v := by
      rintro base spells ⟨l', e1, bs, ds, q1, q2, q3, q4, q5⟩
      rw [e1] at h2 hu
      simp only at h2 hu
      have hl1 : listAt (w.put [(r, .array l')]) r = some l' := array_listAt (put_one _ _ _)
      have hrg := range_of_written q2
      rw [q1] at hrg
      have hle : off + n ≤ l'.length := by have := q2.1; have := q2.2.1; omega
      obtain ⟨l2, k1, k2, _, k4⟩ := untouched_range hH h2 hn hl1 hle (spared_bytes hl1 hrg q3 hu)
      exact ⟨l2, ds, k1, by omega, by rw [k4, hrg]; exact q4, q5⟩
    rcases hf with rfl | rfl
    · obtain ⟨r1, r2⟩ := hs.1.1 hok
      obtain ⟨l2, ds, q1, q2, q3, q4⟩ := hgen _ _ (toBytes_hex_ok x v hx l off n r1 (by omega))
      exact ⟨l2, q1, by rw [init_hex_eq y l2 off n ds hn q2 q3, q4]⟩
    · obtain ⟨r1, r2⟩ := hs.2.1 hok
      obtain ⟨l2, ds, q1, q2, q3, q4⟩ := hgen _ _ (toBytes_bcd_ok x v hx l off n r1 (by omega))
      exact ⟨l2, q1, by rw [init_bcd_eq y l2 off n ds hn q2 q3, q4]⟩
  obtain ⟨l2, k1, k2⟩ := key
  refine ⟨w2.put [(c, .big { y with value := some (v : Int) })], ?_, put_one _ _ _, fun hcb hb2 => ?_⟩
  · simp only [step, sem, Option.map_some, onOptArray, onArray, listAt_some k1, hc, k2, Except.map]
  · have e1 : w2.put [(c, .big { y with value := some (v : Int) })] b = .big x := by rw [put_one_ne _ _ hcb, hb2]
    have e2 : x.compareTo { y with value := some (v : Int) } = .ok 0 := by rw [C90_compare_total]; simp [hx]
    simp only [step, sem, e1, put_one, Option.map_some, e2, Except.map, Option.some.injEq, Prod.mk.injEq, true_and]
    rfl

/-- **C119** (copies). After a copy from one list to another, and any calls that leave both ranges alone, the two ranges compare equal. -/
theorem C119_copy {env : CryptoEnv} {fuel : Nat} (hH : ∀ alg m, (env.hash alg m).length = (env.hash alg []).length) {w w1 w2 : Card}
    {prog : List Step} {outs : List (Except Err Card.Out)} {s d so off n : Nat} (hsd : s ≠ d) (hn : 0 < n)
    (h1 : step env fuel w (.arrayCopy s so d off n) = some (.ok .nothing, w1) ∨ step env fuel w (.arrayCopyNonAtomic s so d off n) = some (.ok .nothing, w1))
    (h2 : run env fuel w1 prog = some (outs, w2)) (hs : Untouched env fuel w1 prog s so n) (hd : Untouched env fuel w1 prog d off n) :
    step env fuel w2 (.arrayCompare s so d off n) = some (.ok (.int 0), w2) := by
  have hmain : ∃ a b b', w s = .array a ∧ w1 = w.put [(d, .array b')] ∧ so + n ≤ a.length ∧ Written b b' off (range a so n) ∧ (range a so n).length = n := by
    have hend : ∀ (a b : List Int) (z : Res (List Int) Unit) (E : Err), w s = .array a → z = (let k := min n (min (a.length - so) (b.length - off))
          (if k = n then .ok () else .error E, splice b off ((a.drop so).take k))) → z.1.map (fun _ => Card.Out.nothing) = .ok .nothing →
        w1 = w.put [(d, .array z.2)] →
        ∃ a b b', w s = .array a ∧ w1 = w.put [(d, .array b')] ∧ so + n ≤ a.length ∧ Written b b' off (range a so n) ∧ (range a so n).length = n := by
      intro a b z E ha hz ho hw
      simp only at hz
      by_cases hm : min n (min (a.length - so) (b.length - off)) = n
      · rw [if_pos hm, hm] at hz
        subst hz
        refine ⟨a, b, _, ha, hw, by omega, ?_, by simp [range]; omega⟩
        exact written_splice _ _ _ (by simp; omega)
      · rw [if_neg hm] at hz
        subst hz
        cases ho
    rcases h1 with h1 | h1
    · obtain ⟨e, he, ho, rfl⟩ := step_sem h1
      simp only [sem, Option.some.injEq] at he
      subst he
      obtain ⟨a, ha, hf⟩ := onArray_ok ho
      rw [hf] at ho hend ⊢
      obtain ⟨b, hb, hf'⟩ := onArray_ok ho
      rw [hf'] at ho hend ⊢
      rw [if_neg hsd] at ho hend ⊢
      exact hend a b _ _ ha (arrayCopy_eq a b so off n) ho rfl
    · obtain ⟨e, he, ho, rfl⟩ := step_sem h1
      simp only [sem, Option.some.injEq] at he
      subst he
      obtain ⟨a, ha, hf⟩ := onArray_ok ho
      rw [hf] at ho hend ⊢
      obtain ⟨b, hb, hf'⟩ := onArray_ok ho
      rw [hf'] at ho hend ⊢
      rw [if_neg hsd] at ho hend ⊢
      exact hend a b _ _ ha (arrayCopyNonAtomic_eq a b so off n) ho rfl
  obtain ⟨a, b, b', ha, rfl, c1, hw, hl⟩ := hmain
  have hla : listAt (w.put [(d, .array b')]) s = some a := array_listAt (by rw [put_one_ne _ _ (Ne.symm hsd), ha])
  have hlb : listAt (w.put [(d, .array b')]) d = some b' := array_listAt (put_one _ _ _)
  have hrg := range_of_written hw
  rw [hl] at hrg
  obtain ⟨a2, k1, k2, _, k4⟩ := untouched_range hH h2 hn hla c1 hs
  obtain ⟨b2, j1, j2, _, j4⟩ := untouched_range hH h2 hn hlb (by have := hw.1; have := hw.2.1; omega) hd
  have : Util.arrayCompare a2 so b2 off n = .ok 0 :=
    (C04_zero_iff a2 b2 so off n (by omega) (by have := hw.1; have := hw.2.1; omega)).2 (by rw [k4, j4, hrg])
  simp only [step, sem, Option.map_some, onArray, listAt_some k1, listAt_some j1, this, Except.map, put]

/-! ### Examples -/

private def env4 : CryptoEnv := ⟨true, true, ⟨fun _ _ => .error .typeError, fun _ _ => .error .typeError⟩, fun _ _ => [1, 2, 3]⟩

/-- An AID, a tag and a list. -/
private def made : List Step := [.newArray 1 [1, 2, 3, 4, 5], .newAID 2 1 0 5, .newArray 3 [0, 0, 0, 0, 0, 0, 0, 0, 0, 0], .newTag 4 true, .tagInitNumber 4 2 5]

private def exported : List Step := [.aidGetBytes 2 3 1]

/-- Other things done with the same list, the tag written out behind the AID included. -/
private def between : List Step := [.store 1 0 9, .setShort 3 7 515, .tagToBytes 4 3 6, .arrayFill 3 9 1 7]

private def rebuilt : List Step := [.newAID 5 3 1 5, .aidEq 2 5, .aidEquals 2 1 0 5]

private def answers : Option (List (Except Err Card.Out)) := (run env4 10 blank (made ++ exported ++ between ++ rebuilt)).map fun x => x.1.drop 5

/-- The rebuilt AID is equal to the first one; the list the first one was made from has changed since. -/
example : answers = some [.ok (.int 5), .ok .nothing, .ok .nothing, .ok (.int 1), .ok .nothing, .ok (.ref 5), .ok (.bool true), .ok (.bool false)] := by
  decide +kernel

/-- The calls in between name none of the five cells. -/
example (w : Card) : ∀ i < 5, Spares env4 10 w between 3 (1 + i) := by
  have key : ∀ (off : Int) (n : Option Int) (L j : Nat), (j : Int) < off → ¬ Among off n L j := by
    rintro off n L j h ⟨t, _, _, h1 | ⟨h1, h2⟩⟩ <;> omega
  intro i hi c hc
  have := mem_calls _ _ _ hc
  simp only [between, List.mem_cons, List.not_mem_nil, or_false] at this
  obtain ⟨c1, c2⟩ := c
  simp only at this
  rcases this with rfl | rfl | rfl | rfl
  · refine ⟨by simp [Resizes], fun o w' _ l _ off n ht => ?_⟩
    simp only [target, Option.some.injEq, Prod.mk.injEq] at ht
    omega
  all_goals
    refine ⟨by simp [Resizes], fun o w' _ l _ off n ht => key _ _ _ _ ?_⟩
    simp only [target, Option.some.injEq, Prod.mk.injEq] at ht
    omega

/-- A public key with the modulus `[200, 1]` exported into the list at 3; a tag is written out behind it; the cells are loaded into the key at 5. -/
private def signedProg : List Step := [.newArray 1 [200, 1], .buildKey 2 [4, 16, 0], .setRSA 2 false 1 0 2, .setRSA 2 true 1 1 1, .newArray 3 [0, 0, 0, 0, 0],
  .newTag 4 true, .tagInitNumber 4 2 5, .buildKey 5 [4, 16, 0], .getRSA 2 false 3 0, .tagToBytes 4 3 3, .setRSA 5 false 3 0 2]

private def moduli : Option (Option (List Int) × Option (List Int)) := (run env4 10 blank signedProg).map fun x =>
  (match x.2 2 with | .key (.rsa k) => k.modulus | _ => none, match x.2 5 with | .key (.rsa k) => k.modulus | _ => none)

/-- C119, why `Untouched` mentions tags and TLVs: writing one out elsewhere in the list makes the cells of the modulus signed, and `setModulus` takes the number
they then spell as it is. -/
theorem C119_signed_modulus : moduli = some (some [200, 1], some [-56, 1]) ∧ arrayToLong [200, 1] ≠ arrayToLong [-56, 1] := by
  decide +kernel

end Verif.Props
