import Verif.Spec.BER
import Verif.Lemmas.BigNum
import Verif.Model.BERTag
/-! Lemmas about reading and writing BER tags. -/
namespace Verif.Model
open Verif.Py Verif.Spec

/-- A head of a suffix is read by indexing, and the suffix shrinks. -/
theorem get_of_drop {arr : List Int} {i : Nat} {b : Int} {r : List Int} (h : arr.drop i = b :: r) :
    get arr (i : Int) = .ok b ∧ arr.drop (i + 1) = r ∧ i < arr.length := by
  have hi : i < arr.length := by
    by_cases hi : i < arr.length
    · exact hi
    · rw [List.drop_eq_nil_of_le (by omega)] at h; cases h
  rw [List.drop_eq_getElem_cons hi] at h
  injection h with h1 h2
  exact ⟨by rw [get_natCast _ _ hi, h1], h2, hi⟩

theorem length_of_drop {arr : List Int} {i : Nat} {r : List Int} (h : arr.drop i = r) (hi : i ≤ arr.length) : arr.length = i + r.length := by
  rw [← h]; simp; omega

theorem spellsAll_append {as bs : List Int} {ns ms : List Nat} (h1 : SpellsAll as ns) (h2 : SpellsAll bs ms) :
    SpellsAll (as ++ bs) (ns ++ ms) := by
  induction as generalizing ns with
  | nil => cases ns with
    | nil => exact h2
    | cons => exact absurd h1 id
  | cons a as ih => cases ns with
    | nil => exact absurd h1 id
    | cons n ns => exact ⟨h1.1, ih h1.2⟩

/-- The cells spelling a prefix. -/
theorem spellsAll_split {l : List Int} {ns ms : List Nat} (h : SpellsAll l (ns ++ ms)) :
    ∃ a b, l = a ++ b ∧ SpellsAll a ns ∧ SpellsAll b ms := by
  induction ns generalizing l with
  | nil => exact ⟨[], l, rfl, trivial, h⟩
  | cons n ns ih => cases l with
    | nil => exact absurd h id
    | cons x l =>
      obtain ⟨a, b, e, h1, h2⟩ := ih h.2
      exact ⟨x :: a, b, by rw [e]; rfl, ⟨h.1, h1⟩, h2⟩

namespace BERTag

theorem positional_foldl (base : Nat) (l : List Nat) (acc : Nat) :
    l.foldl (fun a d => a * base + d) acc = acc * base ^ l.length + positional base l := by
  have := BigNumber.positional_append base [acc] l
  unfold positional at this ⊢
  simpa using this

/-- The continuation loop on octets `ds` with bit 8 set followed by `last` without. -/
theorem numLoop_eq (arr : List Int) (o k num n : Nat) (ds : List Nat) (last : Nat) (cells rest : List Int)
    (hd : arr.drop (o + k) = cells ++ rest) (hs : SpellsAll cells (ds.map (128 + ·) ++ [last]))
    (hds : ∀ d ∈ ds, d < 128) (hl : last < 128) (hn : ds.length < n) :
    numLoop arr (o : Int) (num : Int) (k : Int) n =
      (.ok ((k + ds.length : Nat) : Int), (((ds ++ [last]).foldl (fun a d => a * 128 + d) num : Nat) : Int)) := by
  induction ds generalizing k num n cells with
  | nil =>
    cases n with
    | zero => omega
    | succ n =>
      cases cells with
      | nil => exact absurd hs id
      | cons b cells =>
        obtain ⟨h1, h2⟩ := hs
        obtain ⟨g1, g2, g3⟩ := get_of_drop hd
        rw [Int.natCast_add] at g1
        unfold numLoop
        rw [g1]
        have hb : ¬ iand b 0x80 = 0x80 := by rw [iand_80]; unfold Spells at h1; omega
        simp only
        rw [if_neg hb]
        simp only [iand_7f, shl, List.length_nil, Nat.add_zero, List.nil_append, List.foldl_cons, List.foldl_nil]
        congr 1
        unfold Spells at h1
        omega
  | cons d ds ih =>
    cases n with
    | zero => simp at hn
    | succ n =>
      cases cells with
      | nil => exact absurd hs id
      | cons b cells =>
        obtain ⟨h1, h2⟩ := hs
        have h1 : Spells b (128 + d) := h1
        have h0 := hds d List.mem_cons_self
        obtain ⟨g1, g2, g3⟩ := get_of_drop hd
        rw [Int.natCast_add] at g1
        unfold numLoop
        rw [g1]
        have hb : iand b 0x80 = 0x80 := by rw [iand_80]; unfold Spells at h1; omega
        simp only
        rw [if_pos hb]
        have e1 : shl (num : Int) 7 + iand b 0x7f = ((num * 128 + d : Nat) : Int) := by
          simp only [iand_7f, shl]; unfold Spells at h1; omega
        have e2 : (k : Int) + 1 = ((k + 1 : Nat) : Int) := by omega
        rw [e1, e2, ih (k + 1) (num * 128 + d) n cells (by rw [← Nat.add_assoc]; exact g2) h2
          (fun x hx => hds x (List.mem_cons_of_mem _ hx)) (by simpa using hn)]
        simp only [List.length_cons, List.cons_append, List.foldl_cons]
        congr 3
        omega

/-- ... cut off by the end of the array: IndexError. -/
theorem numLoop_cut (arr : List Int) (o k num n : Nat) (ns : List Nat) (hs : SpellsAll (arr.drop (o + k)) ns)
    (hns : ∀ x ∈ ns, 128 ≤ x) :
    ∃ m, numLoop arr (o : Int) (num : Int) (k : Int) n = (.error .indexError, m) := by
  induction n generalizing k num ns with
  | zero => exact ⟨_, rfl⟩
  | succ n ih =>
    unfold numLoop
    cases ns with
    | nil =>
      have hl := BigNumber.spellsAll_length hs
      rw [get_step_out arr o k (by simp at hl; omega)]
      exact ⟨_, rfl⟩
    | cons x ns =>
      cases hd : arr.drop (o + k) with
      | nil => rw [hd] at hs; exact absurd hs id
      | cons b r =>
        rw [hd] at hs
        obtain ⟨h1, h2⟩ := hs
        have h0 := hns x List.mem_cons_self
        obtain ⟨g1, g2, g3⟩ := get_of_drop hd
        rw [Int.natCast_add] at g1
        rw [g1]
        have hb : iand b 0x80 = 0x80 := by rw [iand_80]; unfold Spells at h1; omega
        simp only
        rw [if_pos hb]
        have e1 : shl (num : Int) 7 + iand b 0x7f = ((num * 128 + (x - 128) : Nat) : Int) := by
          simp only [iand_7f, shl]; unfold Spells at h1; omega
        have e2 : (k : Int) + 1 = ((k + 1 : Nat) : Int) := by omega
        rw [e1, e2]
        exact ih (k + 1) _ ns (by rw [← Nat.add_assoc, g2]; exact h2) (fun y hy => hns y (List.mem_cons_of_mem _ hy))

/-- Class, flag and low bits of a leading octet. -/
theorem leading_fields (b : Int) (cls low : Nat) (c : Bool) (hc : cls < 4) (hl : low < 32) (h : Spells b (leading cls c low)) :
    shr (iand b 0xff) 6 = cls ∧ decide (iand b 0x20 ≠ 0) = c ∧ decide (iand (shr b 5) 0x1 ≠ 0) = c ∧ iand b 0x1f = low ∧
      (iand b 0x20 = if c then 32 else 0) := by
  unfold Spells leading at h
  simp only [iand_ff, iand_20, iand_01, iand_1f, shr]
  cases c <;> simp at h ⊢ <;> omega

/-- `init` is reached through `getInstance` with the matching class. -/
theorem getInstance_eq (arr : List Int) (o : Nat) (b : Int) (r : List Int) (hd : arr.drop o = b :: r) (cls low : Nat) (c : Bool)
    (hc : cls < 4) (hl : low < 32) (h : Spells b (leading cls c low)) :
    getInstance arr o = mapIndexError .arrayIndexOutOfBounds
      (match (BERTag.mk none c none 0).baseInit arr o with
       | (.error e, _) => .error e
       | (.ok (), t) => .ok t) := by
  obtain ⟨g1, g2, g3⟩ := get_of_drop hd
  obtain ⟨f1, f2, f3, f4, f5⟩ := leading_fields b cls low c hc hl h
  unfold getInstance
  rw [g1]
  simp only [f3]
  unfold initArray
  rw [g1]
  cases c
  · simp only [new, if_false, Bool.false_eq_true] at f5 ⊢
    rw [if_neg (by rw [f5]; decide)]
    rfl
  · simp only [new, if_true] at f5 ⊢
    rw [if_neg (by rw [f5]; decide)]
    rfl

/-- `init` of the base class on any identifier octets, canonical or not. -/
theorem baseInit_decode (t : BERTag) (arr : List Int) (o : Nat) (cells rest : List Int) (ns : List Nat) (cls num : Nat) (c : Bool)
    (hd : arr.drop o = cells ++ rest) (hs : SpellsAll cells ns) (ht : TagOctets cls c num ns) :
    t.baseInit arr o = (.ok (), ⟨some (cls : Int), c, some (num : Int), if ns.length = 1 then 1 else (ns.length : Int) - 1⟩) := by
  obtain ⟨hc, ht⟩ := ht
  rcases ht with ⟨hn, rfl⟩ | ⟨ds, last, rfl, hds, hl, hp⟩
  · cases cells with
    | nil => exact absurd hs id
    | cons b cells =>
      obtain ⟨h1, h2⟩ := hs
      obtain ⟨g1, g2, g3⟩ := get_of_drop hd
      obtain ⟨f1, f2, f3, f4, f5⟩ := leading_fields b cls num c hc (by omega) h1
      unfold baseInit
      rw [g1]
      simp only [f1, f2, f4]
      rw [if_neg (by omega)]
      simp
  · cases cells with
    | nil => exact absurd hs id
    | cons b cells =>
      obtain ⟨h1, h2⟩ := hs
      obtain ⟨g1, g2, g3⟩ := get_of_drop hd
      obtain ⟨f1, f2, f3, f4, f5⟩ := leading_fields b cls 31 c hc (by omega) h1
      unfold baseInit
      rw [g1]
      simp only [f1, f2, f4]
      have hlen := BigNumber.spellsAll_length h2
      have htot := length_of_drop hd (by omega)
      simp only [List.length_append, List.length_map, List.length_cons, List.length_nil] at hlen htot
      have e := numLoop_eq arr o 1 0 ((arr.length : Int) - (o + 1)).toNat ds last cells rest g2 h2 hds hl (by omega)
      rw [if_pos (by rfl)]
      rw [show ((0 : Nat) : Int) = 0 from rfl, show ((1 : Nat) : Int) = 1 from rfl] at e
      rw [e]
      have hp' : (ds ++ [last]).foldl (fun a d => a * 128 + d) 0 = num := hp
      simp only [hp', List.length_cons, List.length_append, List.length_map, List.length_nil]
      rw [if_neg (by omega)]
      congr 2
      omega

/-- Decoding: any identifier octets, canonical or not. -/
theorem getInstance_decode (arr : List Int) (o : Nat) (cells rest : List Int) (ns : List Nat) (cls num : Nat) (c : Bool)
    (hd : arr.drop o = cells ++ rest) (hs : SpellsAll cells ns) (ht : TagOctets cls c num ns) :
    getInstance arr o = .ok ⟨some (cls : Int), c, some (num : Int), if ns.length = 1 then 1 else (ns.length : Int) - 1⟩ := by
  cases cells with
  | nil =>
    have := BigNumber.spellsAll_length hs
    obtain ⟨_, h | ⟨ds, l, h, _⟩⟩ := ht
    · rw [h.2] at this; simp at this
    · rw [h] at this; simp at this
  | cons b cells =>
    have hlead : ∃ low, low < 32 ∧ Spells b (leading cls c low) := by
      obtain ⟨hc, h | ⟨ds, l, h, _⟩⟩ := ht
      · rw [h.2] at hs; exact ⟨num, by omega, hs.1⟩
      · rw [h] at hs; exact ⟨31, by omega, hs.1⟩
    obtain ⟨low, hl, hb⟩ := hlead
    rw [getInstance_eq arr o b _ hd cls low c ht.1 hl hb, baseInit_decode _ arr o (b :: cells) rest ns cls num c hd hs ht]
    rfl

/-- What `sanitycheck` does to one cell. -/
def norm (x : Int) : Int := if x > 127 then -((-x) % 256) else x

theorem sanitycheck_eq (l : List Int) : sanitycheck l = l.map norm := by
  unfold sanitycheck
  apply List.map_congr_left
  intro x _
  have e1 : (shl 1 (8 - 1) - 1 : Int) = 127 := by decide
  have e2 : (shl 1 8 - 1 : Int) = 0xff := by decide
  rw [e1, e2, iand_ff]
  unfold norm inot
  have : -(x - 1) - 1 = -x := by omega
  rw [this]

theorem norm_of_le (x : Int) (h : x ≤ 127) : norm x = x := by unfold norm; rw [if_neg (by omega)]
theorem norm_of_byte (x : Int) (h : 128 ≤ x) (h2 : x ≤ 255) : norm x = x - 256 := by
  unfold norm; rw [if_pos (by omega)]; omega

theorem norm_spells (n : Nat) (h : n < 256) : Spells (norm n) n ∧ IsByte (norm n) := by
  unfold Spells IsByte norm
  split <;> omega

theorem map_splice (f : Int → Int) (l : List Int) (off : Nat) (vs : List Int) :
    (splice l off vs).map f = splice (l.map f) off (vs.map f) := by
  simp [splice, List.map_take, List.map_drop]

theorem spellsAll_norm (ns : List Nat) (h : ∀ n ∈ ns, n < 256) : SpellsAll (ns.map fun n : Nat => norm (n : Int)) ns := by
  induction ns with
  | nil => trivial
  | cons n ns ih => exact ⟨(norm_spells n (h n List.mem_cons_self)).1, ih fun x hx => h x (List.mem_cons_of_mem _ hx)⟩

theorem chunksF_eq (f v : Nat) : chunksF f (v : Int) = (BigNumber.ledigits 128 f v).map fun d : Nat => (d : Int) := by
  induction f generalizing v with
  | zero => rfl
  | succ f ih =>
    unfold chunksF BigNumber.ledigits
    by_cases hv : v > 0
    · rw [if_pos hv, if_pos (by omega)]
      have : shr (v : Int) 7 = ((v / 128 : Nat) : Int) := by simp only [shr]; omega
      rw [this, ih, iand_7f]
      simp
    · rw [if_neg hv, if_neg (by omega)]; rfl

/-- The base-128 digits, most significant first. -/
def digits128 (v : Nat) : List Nat := (BigNumber.ledigits 128 v v).reverse

theorem chunks_eq (v : Nat) : (chunks (v : Int)).reverse = (digits128 v).map fun d : Nat => (d : Int) := by
  unfold chunks
  rw [show ((v : Int)).toNat = v from rfl, chunksF_eq]
  simp [digits128]

theorem digits128_props (v : Nat) (h : 0 < v) :
    ∃ ds last, digits128 v = ds ++ [last] ∧ (∀ d ∈ ds, d < 128) ∧ last < 128 ∧ positional 128 (ds ++ [last]) = v ∧
      (ds ++ [last]).head? ≠ some 0 := by
  have hv := BigNumber.ledigits_val 128 (by omega) v v (Nat.le_refl v)
  have hlt := BigNumber.ledigits_lt 128 (by omega) v v
  have hlen := BigNumber.ledigits_length 128 (by omega) v v
  have hne : digits128 v ≠ [] := by
    intro e
    unfold digits128 at e
    rw [e] at hv
    simp [positional] at hv
    omega
  have hd : ∀ d ∈ digits128 v, d < 128 := fun d hd => hlt d (List.mem_reverse.1 hd)
  have e := (List.dropLast_concat_getLast hne).symm
  refine ⟨(digits128 v).dropLast, (digits128 v).getLast hne, e, ?_, ?_, ?_, ?_⟩
  · exact fun d h => hd d ((List.dropLast_sublist _).subset h)
  · exact hd _ (List.getLast_mem hne)
  · rw [← e]; exact hv
  · rw [← e]
    intro h0
    cases hdd : digits128 v with
    | nil => exact hne hdd
    | cons d t =>
      rw [hdd] at h0
      simp at h0
      subst h0
      have h1 : positional 128 (0 :: t) = v := by rw [← hdd]; exact hv
      rw [BigNumber.positional_cons] at h1
      have h2 := BigNumber.positional_lt 128 t (fun x hx => hd x (by rw [hdd]; exact List.mem_cons_of_mem _ hx))
      have h3 := (hlen t.length (Nat.le_refl v)).2 (by omega)
      have h4 : (digits128 v).length = t.length + 1 := by rw [hdd]; rfl
      unfold digits128 at h4
      simp at h4
      omega

theorem writeChunks_eq (buf : List Int) (o k : Nat) (l : List Int) (h : o + k + l.length ≤ buf.length) :
    writeChunks buf o k l = (.ok ((k + l.length : Nat) : Int), splice buf (o + k) (l.map (0x80 + ·))) := by
  induction l generalizing buf k with
  | nil => simp [writeChunks, splice_nil]
  | cons i l ih =>
    simp only [List.length_cons] at h
    unfold writeChunks
    rw [set_step _ _ _ _ (by omega)]
    simp only
    rw [show (k : Int) + 1 = ((k + 1 : Nat) : Int) by omega, ih _ _ (by simp; omega)]
    rw [← Nat.add_assoc, set_splice _ _ _ _ (by simp; omega)]
    simp only [List.length_cons, List.map_cons]
    congr 3
    omega

theorem writeChunks_out (buf : List Int) (o k : Nat) (l : List Int) (h : buf.length < o + k + l.length) (hk : o + k ≤ buf.length) :
    ∃ buf', writeChunks buf o k l = (.error .indexError, buf') ∧ buf'.length = buf.length ∧ ∀ j, j < o + k → buf'[j]? = buf[j]? := by
  induction l generalizing buf k with
  | nil => simp at h; omega
  | cons i l ih =>
    simp only [List.length_cons] at h
    unfold writeChunks
    by_cases hk2 : o + k < buf.length
    · rw [set_step _ _ _ _ hk2]
      simp only
      rw [show (k : Int) + 1 = ((k + 1 : Nat) : Int) by omega]
      obtain ⟨b, e1, e2, e3⟩ := ih (buf.set (o + k) (0x80 + i)) (k + 1) (by simp; omega) (by simp; omega)
      refine ⟨b, e1, by simpa using e2, ?_⟩
      intro j hj
      rw [e3 j (by omega), List.getElem?_set_ne (by omega)]
    · rw [set_step_out _ _ _ _ (by omega)]
      exact ⟨buf, rfl, rfl, fun _ _ => rfl⟩

theorem splice_getLast (l : List Int) (o : Nat) (w : List Int) (y : Int) (h : o + w.length + 1 ≤ l.length) :
    get (splice l o (w ++ [y])) ((o + w.length : Nat) : Int) = .ok y := by
  have hs := splice_getElem? l o (w ++ [y]) (by simp; omega) (o + w.length)
  rw [if_neg (by omega), if_pos (by simp)] at hs
  rw [Nat.add_sub_cancel_left, List.getElem?_append_right (Nat.le_refl _)] at hs
  simp at hs
  have hlen : o + w.length < (splice l o (w ++ [y])).length := by rw [splice_length _ _ _ (by simp; omega)]; omega
  rw [get_natCast _ _ hlen]
  rw [List.getElem?_eq_getElem hlen] at hs
  injection hs with hs
  rw [hs]

theorem splice_setLast (l : List Int) (o : Nat) (w : List Int) (y z : Int) (h : o + w.length + 1 ≤ l.length) :
    (splice l o (w ++ [y])).set (o + w.length) z = splice l o (w ++ [z]) := by
  apply List.ext_getElem?
  intro j
  rw [List.getElem?_set, splice_getElem? _ _ _ (by simp; omega), splice_getElem? _ _ _ (by simp; omega),
    splice_length _ _ _ (by simp; omega)]
  by_cases hj : o + w.length = j
  · subst hj
    rw [if_pos rfl, if_pos (by omega), if_neg (by omega), if_pos (by simp)]
    rw [Nat.add_sub_cancel_left, List.getElem?_append_right (Nat.le_refl _)]
    simp
  · rw [if_neg hj]
    simp only [List.length_append, List.length_cons, List.length_nil]
    by_cases h1 : j < o
    · rw [if_pos h1, if_pos h1]
    · rw [if_neg h1, if_neg h1]
      by_cases h2 : j < o + (w.length + (0 + 1))
      · rw [if_pos h2, if_pos h2, List.getElem?_append_left (by omega), List.getElem?_append_left (by omega)]
      · rw [if_neg h2, if_neg h2]

/-- The octets `toBytes` writes. -/
def octets (cls : Nat) (c : Bool) (num : Nat) : List Nat :=
  if num ≤ 30 then [leading cls c num]
  else leading cls c 31 :: ((digits128 num).dropLast.map (128 + ·) ++ [(digits128 num).getLast?.getD 0])

theorem octets_canonical (cls : Nat) (c : Bool) (num : Nat) (hc : cls < 4) : CanonicalTag cls c num (octets cls c num) := by
  refine ⟨hc, ?_⟩
  unfold octets
  by_cases h : num ≤ 30
  · rw [if_pos h]; exact .inl ⟨h, rfl⟩
  · rw [if_neg h]
    obtain ⟨ds, last, e, h1, h2, h3, h4⟩ := digits128_props num (by omega)
    exact .inr ⟨by omega, ds, last, by rw [e]; simp, h1, h2, h3, h4⟩

theorem canonical_octets {cls num : Nat} {c : Bool} {ns : List Nat} (h : CanonicalTag cls c num ns) : TagOctets cls c num ns := by
  obtain ⟨hc, h⟩ := h
  refine ⟨hc, ?_⟩
  rcases h with h | ⟨_, ds, last, h1, h2, h3, h4, _⟩
  · exact .inl h
  · exact .inr ⟨ds, last, h1, h2, h3, h4⟩

theorem tagOctets_lt {cls num : Nat} {c : Bool} {ns : List Nat} (h : TagOctets cls c num ns) : ∀ n ∈ ns, n < 256 := by
  obtain ⟨hc, h⟩ := h
  rcases h with ⟨h1, rfl⟩ | ⟨ds, last, rfl, h1, h2, _⟩
  · intro n hn
    simp at hn
    subst hn
    unfold leading
    split <;> omega
  · intro n hn
    rcases List.mem_cons.1 hn with rfl | hn
    · unfold leading; split <;> omega
    rcases List.mem_append.1 hn with hn | hn
    · obtain ⟨d, hd, rfl⟩ := List.mem_map.1 hn
      have := h1 d hd
      show 128 + d < 256
      omega
    · simp at hn; omega

theorem first_eq (cls : Nat) (c : Bool) : shl (cls : Int) 6 + shl (if c then 1 else 0) 5 = (leading cls c 0 : Nat) := by
  unfold leading shl
  cases c <;> simp <;> omega

theorem leading_add (cls : Nat) (c : Bool) (l : Nat) : ((leading cls c 0 : Nat) : Int) + (l : Int) = (leading cls c l : Nat) := by
  unfold leading; omega

/-- Encoding: the canonical octets, and the whole buffer normalised. -/
theorem toBytes_eq (t : BERTag) (cls num : Nat) (c : Bool) (h1 : t.tagClass = some (cls : Int)) (h2 : t.tagConstr = c)
    (h3 : t.tagNumber = some (num : Int)) (buf : List Int) (o : Nat) (hr : o + (octets cls c num).length ≤ buf.length) :
    t.toBytes buf o = (.ok ((octets cls c num).length : Int),
      splice (buf.map norm) o ((octets cls c num).map fun n : Nat => norm (n : Int))) := by
  unfold toBytes
  rw [h1, h3]
  simp only [h2]
  rw [first_eq]
  unfold octets at hr ⊢
  by_cases hn : num ≤ 30
  · rw [if_pos hn] at hr
    rw [if_pos (by omega), if_pos hn]
    simp only [List.length_cons, List.length_nil] at hr
    rw [set_natCast _ _ _ (by omega)]
    simp only [sanitycheck_eq]
    rw [leading_add, ← splice_one _ _ _ (by omega), map_splice]
    rfl
  · rw [if_neg hn] at hr
    rw [if_neg (by omega), if_neg hn]
    obtain ⟨ds, last, e, d1, d2, d3, d4⟩ := digits128_props num (by omega)
    rw [e] at hr ⊢
    simp only [List.length_cons, List.length_append, List.length_map, List.length_dropLast, List.length_nil] at hr
    rw [set_natCast _ _ _ (by omega)]
    simp only
    rw [chunks_eq, e]
    have hw := writeChunks_eq (buf.set o (((leading cls c 0 : Nat) : Int) + 31)) o 1 ((ds ++ [last]).map fun d : Nat => (d : Int)) (by simp; omega)
    rw [show ((1 : Nat) : Int) = 1 from rfl] at hw
    rw [hw]
    simp only
    rw [set_splice _ _ _ _ (by simp; omega)]
    rw [show ((leading cls c 0 : Nat) : Int) + 31 = (leading cls c 31 : Nat) from leading_add cls c 31]
    have ee : ((leading cls c 31 : Nat) : Int) :: ((ds ++ [last]).map (fun d : Nat => (d : Int))).map (0x80 + ·) =
        (((leading cls c 31 : Nat) : Int) :: ds.map (fun d : Nat => ((128 + d : Nat) : Int))) ++ [128 + (last : Int)] := by
      simp
    rw [ee]
    have hi : (o : Int) + ((1 + ((ds ++ [last]).map fun d : Nat => (d : Int)).length : Nat) : Int) - 1 =
        ((o + (((leading cls c 31 : Nat) : Int) :: ds.map (fun d : Nat => ((128 + d : Nat) : Int))).length : Nat) : Int) := by
      simp; omega
    rw [hi, splice_getLast _ _ _ _ (by simp; omega)]
    simp only
    rw [set_natCast _ _ _ (by rw [splice_length _ _ _ (by simp; omega)]; simp; omega)]
    simp only
    rw [splice_setLast _ _ _ _ _ (by simp; omega), sanitycheck_eq, map_splice]
    have el : iand (128 + (last : Int)) 0x7f = (last : Int) := by rw [iand_7f]; omega
    rw [el]
    have e1 : (1 + ((ds ++ [last]).map fun d : Nat => (d : Int)).length) =
        (leading cls c 31 :: ((ds ++ [last]).dropLast.map (128 + ·) ++ [(ds ++ [last]).getLast?.getD 0])).length := by
      simp; omega
    rw [e1]
    congr 2
    simp

/-- ... when the octets do not fit: IndexError, nothing before the offset changes. -/
theorem toBytes_out (t : BERTag) (cls num : Nat) (c : Bool) (h1 : t.tagClass = some (cls : Int)) (h2 : t.tagConstr = c)
    (h3 : t.tagNumber = some (num : Int)) (buf : List Int) (o : Nat) (hr : buf.length < o + (octets cls c num).length) :
    ∃ buf', t.toBytes buf o = (.error .indexError, buf') ∧ buf'.length = buf.length ∧ ∀ j, j < o → buf'[j]? = buf[j]? := by
  unfold toBytes
  rw [h1, h3]
  simp only [h2]
  rw [first_eq]
  unfold octets at hr
  by_cases hn : num ≤ 30
  · rw [if_pos hn] at hr
    rw [if_pos (by omega)]
    simp only [List.length_cons, List.length_nil] at hr
    rw [set_out _ _ _ (by omega)]
    exact ⟨buf, rfl, rfl, fun _ _ => rfl⟩
  · rw [if_neg hn] at hr
    rw [if_neg (by omega)]
    by_cases ho : o < buf.length
    · obtain ⟨ds, last, e, d1, d2, d3, d4⟩ := digits128_props num (by omega)
      rw [e] at hr
      simp only [List.length_cons, List.length_append, List.length_map, List.length_dropLast, List.length_nil] at hr
      rw [set_natCast _ _ _ (by omega)]
      simp only
      rw [chunks_eq, e]
      obtain ⟨b, e1, e2, e3⟩ := writeChunks_out (buf.set o (((leading cls c 0 : Nat) : Int) + 31)) o 1 ((ds ++ [last]).map fun d : Nat => (d : Int)) (by simp; omega) (by simp; omega)
      rw [show ((1 : Nat) : Int) = 1 from rfl] at e1
      rw [e1]
      refine ⟨b, rfl, by simpa using e2, ?_⟩
      intro j hj
      rw [e3 j (by omega), List.getElem?_set_ne (by omega)]
    · rw [set_out _ _ _ (by omega)]
      exact ⟨buf, rfl, rfl, fun _ _ => rfl⟩

end BERTag
end Verif.Model
