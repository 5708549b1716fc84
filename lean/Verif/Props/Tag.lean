import Verif.Lemmas.Tag
/-! C36-C39: BER tags. -/
namespace Verif.Props
open Verif.Py Verif.Model Verif.Spec

/-- What `tagClass()`, `isConstructed()` and `tagNumber()` return. -/
def IsTag (t : BERTag) (cls : Nat) (c : Bool) (num : Nat) : Prop :=
  t.tagClass = some (cls : Int) ∧ t.tagConstr = c ∧ t.tagNumber = some (num : Int)

/-- The buffer with every cell holding an unsigned byte 128..255 replaced by its signed equivalent. -/
def SignNormalised (old new : List Int) : Prop :=
  new.length = old.length ∧ ∀ (j : Nat) (x : Int), old[j]? = some x → (x ≤ 127 → new[j]? = some x) ∧ (128 ≤ x → x ≤ 255 → new[j]? = some (x - 256))

theorem signNormalised_norm (l : List Int) : SignNormalised l (l.map BERTag.norm) := by
  refine ⟨by simp, ?_⟩
  intro j x h
  rw [List.getElem?_map, h]
  exact ⟨fun h => by simp [BERTag.norm_of_le x h], fun h1 h2 => by simp [BERTag.norm_of_byte x h1 h2]⟩

theorem toBytes_full (t : BERTag) (cls num : Nat) (c : Bool) (ht : IsTag t cls c num) (hc : cls < 4) (buf : List Int) (o : Nat)
    (hr : o + (BERTag.octets cls c num).length ≤ buf.length) :
    ∃ base buf' bs, t.toBytes buf o = (.ok ((BERTag.octets cls c num).length : Int), buf') ∧ SignNormalised buf base ∧
      Written base buf' o bs ∧ SpellsAll bs (BERTag.octets cls c num) ∧ Bytes bs := by
  obtain ⟨h1, h2, h3⟩ := ht
  have hcan := BERTag.octets_canonical cls c num hc
  have hlt := BERTag.tagOctets_lt (BERTag.canonical_octets hcan)
  refine ⟨buf.map BERTag.norm, _, (BERTag.octets cls c num).map fun n : Nat => BERTag.norm (n : Int), BERTag.toBytes_eq t cls num c h1 h2 h3 buf o hr, signNormalised_norm buf, ?_, ?_, ?_⟩
  · exact written_splice _ _ _ (by simpa using hr)
  · exact BERTag.spellsAll_norm _ hlt
  · intro b hb
    obtain ⟨n, hn, rfl⟩ := List.mem_map.1 hb
    exact (BERTag.norm_spells n (hlt n hn)).2

theorem canonical_unique {cls num : Nat} {c : Bool} {ns ms : List Nat} (h1 : CanonicalTag cls c num ns) (h2 : CanonicalTag cls c num ms) :
    ns = ms := by
  obtain ⟨_, h1⟩ := h1
  obtain ⟨_, h2⟩ := h2
  rcases h1 with ⟨a, rfl⟩ | ⟨a, ds, l, rfl, b1, b2, b3, b4⟩
  · rcases h2 with ⟨b, rfl⟩ | ⟨b, _⟩
    · rfl
    · omega
  · rcases h2 with ⟨b, rfl⟩ | ⟨b, es, m, rfl, c1, c2, c3, c4⟩
    · omega
    · -- equal length: a number without leading zero has a definite number of digits
      have key : ∀ (l : List Nat), (∀ d ∈ l, d < 128) → l.head? ≠ some 0 → l ≠ [] → 128 ^ (l.length - 1) ≤ positional 128 l := by
        intro l hl hh hne
        cases l with
        | nil => exact absurd rfl hne
        | cons d t =>
          rw [BigNumber.positional_cons]
          simp at hh ⊢
          have : 1 ≤ d := by omega
          have := Nat.mul_le_mul_right (128 ^ t.length) this
          omega
      have d1 : ∀ d ∈ ds ++ [l], d < 128 := by
        intro d hd
        rcases List.mem_append.1 hd with hd | hd
        · exact b1 d hd
        · simp at hd; omega
      have e1 : ∀ d ∈ es ++ [m], d < 128 := by
        intro d hd
        rcases List.mem_append.1 hd with hd | hd
        · exact c1 d hd
        · simp at hd; omega
      have k1 := key _ d1 b4 (by simp)
      have k2 := key _ e1 c4 (by simp)
      have u1 := BigNumber.positional_lt 128 _ d1
      have u2 := BigNumber.positional_lt 128 _ e1
      rw [b3] at k1 u1
      rw [c3] at k2 u2
      have hlen : (ds ++ [l]).length = (es ++ [m]).length := by
        have p1 := (Nat.pow_lt_pow_iff_right (a := 128) (by omega)).1 (Nat.lt_of_le_of_lt k1 u2)
        have p2 := (Nat.pow_lt_pow_iff_right (a := 128) (by omega)).1 (Nat.lt_of_le_of_lt k2 u1)
        simp at p1 p2 ⊢
        omega
      have := BigNumber.positional_inj 128 _ _ d1 e1 hlen (by rw [b3, c3])
      have h3 := List.append_inj' this rfl
      rw [h3.1, show l = m by simpa using h3.2]

/-- C36. `toBytes` writes exactly the canonical BER identifier octets `ns` of the tag (signed bytes, at the given offset)
and returns how many they are. -/
theorem C36_encode (t : BERTag) (cls num : Nat) (c : Bool) (ht : IsTag t cls c num) (ns : List Nat) (hns : CanonicalTag cls c num ns)
    (buf : List Int) (o : Nat) (hr : o + ns.length ≤ buf.length) :
    ∃ buf', t.toBytes buf o = (.ok (ns.length : Int), buf') ∧ buf'.length = buf.length ∧
      SpellsAll (range buf' o ns.length) ns ∧ Bytes (range buf' o ns.length) := by
  have : ns = BERTag.octets cls c num := canonical_unique hns (BERTag.octets_canonical cls c num hns.1)
  subst this
  obtain ⟨base, buf', bs, e, h1, h2, h3, h4⟩ := toBytes_full t cls num c ht hns.1 buf o hr
  have hlen := BigNumber.spellsAll_length h3
  have hrange : range buf' o (BERTag.octets cls c num).length = bs := by
    rw [← hlen]
    have hle := h2.1
    rw [written_iff hle] at h2
    subst h2
    unfold range splice
    rw [List.append_assoc, List.drop_append]
    have : (List.take o base).length = o := by simp; omega
    rw [this]
    simp
  exact ⟨buf', e, by rw [h2.2.1, h1.1], by rw [hrange]; exact h3, by rw [hrange]; exact h4⟩

/-- C36. Every tag has canonical octets, so `C36_encode` applies to all of them. -/
theorem C36_encodable (cls num : Nat) (c : Bool) (hc : cls < 4) : ∃ ns, CanonicalTag cls c num ns :=
  ⟨_, BERTag.octets_canonical cls c num hc⟩

example : CanonicalTag 2 true 300 [0xbf, 0x82, 0x2c] ∧
    (BERTag.mk (some 2) true (some 300) 0).toBytes [9, 9, 9, 9, 9] 1 = (.ok 3, [9, -65, -126, 44, 9]) := by
  refine ⟨⟨by decide, .inr ⟨by decide, [2], 44, rfl, ?_⟩⟩, rfl⟩
  decide

/-- C36. `getInstance` on cells spelling identifier octets (canonical or not, signed or unsigned) yields the tag they denote. -/
theorem C36_decode (arr : List Int) (o : Nat) (ns : List Nat) (cls num : Nat) (c : Bool) (ht : TagOctets cls c num ns)
    (hs : SpellsAll (range arr o ns.length) ns) :
    ∃ t, BERTag.getInstance arr o = .ok t ∧ IsTag t cls c num := by
  have hd : arr.drop o = range arr o ns.length ++ arr.drop (o + ns.length) := by
    unfold range
    rw [← List.drop_drop, List.take_append_drop]
  exact ⟨_, BERTag.getInstance_decode arr o _ _ ns cls num c hd hs ht, rfl, rfl, rfl⟩

/-- C36. Round trip: the tag read back at the same offset has the same class, flag and number, and compares equal. -/
theorem C36_roundtrip (t : BERTag) (cls num : Nat) (c : Bool) (ht : IsTag t cls c num) (hc : cls < 4) (buf buf' : List Int)
    (o : Nat) (n : Int) (h : t.toBytes buf o = (.ok n, buf')) :
    ∃ t', BERTag.getInstance buf' o = .ok t' ∧ IsTag t' cls c num ∧ t'.eq t = true := by
  have hcan := BERTag.octets_canonical cls c num hc
  by_cases hr : o + (BERTag.octets cls c num).length ≤ buf.length
  · obtain ⟨b2, e, h1, h2, h3⟩ := C36_encode t cls num c ht _ hcan buf o hr
    rw [e] at h
    injection h with _ h
    subst h
    obtain ⟨t', e1, e2⟩ := C36_decode b2 o _ cls num c (BERTag.canonical_octets hcan) h2
    refine ⟨t', e1, e2, ?_⟩
    obtain ⟨a1, a2, a3⟩ := ht
    obtain ⟨b1, b2, b3⟩ := e2
    simp [BERTag.eq, a1, a2, a3, b1, b2, b3]
  · obtain ⟨b2, e, _⟩ := BERTag.toBytes_out t cls num c ht.1 ht.2.1 ht.2.2 buf o (by omega)
    rw [e] at h
    cases h

/-- C36. The static form with class, flag and number behaves as building the tag and writing it. -/
theorem C36_static (cls num : Nat) (c : Bool) (ns : List Nat) (hns : CanonicalTag cls c num ns) (buf : List Int) (o : Nat)
    (hr : o + ns.length ≤ buf.length) :
    ∃ buf', BERTag.toBytesStatic cls c num buf o = (.ok (ns.length : Int), buf') ∧ buf'.length = buf.length ∧
      SpellsAll (range buf' o ns.length) ns ∧ Bytes (range buf' o ns.length) :=
  C36_encode _ cls num c ⟨rfl, rfl, rfl⟩ ns hns buf o hr

/-- C36. Tags are equal exactly when class, flag and number agree (whatever their sizes). -/
theorem C36_equal (a b : BERTag) (c1 n1 c2 n2 : Nat) (f1 f2 : Bool) (ha : IsTag a c1 f1 n1) (hb : IsTag b c2 f2 n2) :
    a.eq b = true ↔ c1 = c2 ∧ f1 = f2 ∧ n1 = n2 := by
  obtain ⟨a1, a2, a3⟩ := ha
  obtain ⟨b1, b2, b3⟩ := hb
  simp [BERTag.eq, a1, a2, a3, b1, b2, b3, and_assoc]
  exact ⟨fun ⟨h1, h2, h3⟩ => ⟨by omega, h2, by omega⟩, fun ⟨h1, h2, h3⟩ => ⟨by omega, h2, by omega⟩⟩

/-- C36. The static queries on the octets of a tag answer its class, its number and whether it is constructed. -/
theorem C36_static_queries (arr : List Int) (o : Nat) (ns : List Nat) (cls num : Nat) (c : Bool) (ht : TagOctets cls c num ns)
    (hs : SpellsAll (range arr o ns.length) ns) :
    BERTag.tagClassStatic arr o = .ok (some (cls : Int)) ∧ BERTag.tagNumberStatic arr o = .ok (some (num : Int)) ∧
    BERTag.isConstructedStatic arr o = .ok c := by
  obtain ⟨t, h, h1, h2, h3⟩ := C36_decode arr o ns cls num c ht hs
  unfold BERTag.tagClassStatic BERTag.tagNumberStatic BERTag.isConstructedStatic
  rw [h]
  simp only [Except.map]
  rw [h1, h2, h3]
  exact ⟨rfl, rfl, rfl⟩

/-- C39. The static queries fail exactly where `getInstance` does. -/
theorem C39_static_queries (arr : List Int) (o : Int) (h : BERTag.getInstance arr o = .error .arrayIndexOutOfBounds) :
    BERTag.tagClassStatic arr o = .error .arrayIndexOutOfBounds ∧ BERTag.tagNumberStatic arr o = .error .arrayIndexOutOfBounds ∧
    BERTag.isConstructedStatic arr o = .error .arrayIndexOutOfBounds := by
  unfold BERTag.tagClassStatic BERTag.tagNumberStatic BERTag.isConstructedStatic
  rw [h]
  exact ⟨rfl, rfl, rfl⟩

example : BERTag.isConstructedStatic [9, 0x7F, -127, 5] 1 = .ok true ∧ BERTag.tagNumberStatic [9, 0x7F, -127, 5] 1 = .ok (some 133) := by decide +kernel
example : BERTag.tagNumberStatic [0x7F, -127] 0 = .error .arrayIndexOutOfBounds := by decide +kernel

/-! ### C37 -/

/-- C37. `size()` of a tag read from `ns.length` identifier octets: right for one octet, one too small otherwise. -/
theorem C37_read (arr : List Int) (o : Nat) (ns : List Nat) (cls num : Nat) (c : Bool) (ht : TagOctets cls c num ns)
    (hs : SpellsAll (range arr o ns.length) ns) :
    ∃ t, BERTag.getInstance arr o = .ok t ∧ (ns.length = 1 → t.size = ns.length) ∧ (1 < ns.length → t.size = ns.length - 1) := by
  have hd : arr.drop o = range arr o ns.length ++ arr.drop (o + ns.length) := by
    unfold range
    rw [← List.drop_drop, List.take_append_drop]
  refine ⟨_, BERTag.getInstance_decode arr o _ _ ns cls num c hd hs ht, ?_, ?_⟩
  · intro h; simp [h]
  · intro h; simp; omega

example : ∃ t, BERTag.getInstance [0, -65, -126, 44] 1 = .ok t ∧ t.size = 2 ∧ t.tagNumber = some 300 := ⟨_, rfl, rfl, rfl⟩

/-- C37. A tag made from class and number has size 0, whatever its encoding; so `size()` is never right for it. -/
theorem C37_built (cls num : Nat) (c : Bool) (ns : List Nat) (hns : CanonicalTag cls c num ns) :
    ((BERTag.new c).initNumber cls num).size = 0 ∧ 0 < ns.length := by
  refine ⟨rfl, ?_⟩
  obtain ⟨_, h⟩ := hns
  rcases h with ⟨_, rfl⟩ | ⟨_, ds, l, rfl, _⟩ <;> simp

/-- C37. The static `size` is the size of the tag object read there. -/
theorem C37_static (arr : List Int) (o : Nat) (ns : List Nat) (cls num : Nat) (c : Bool) (ht : TagOctets cls c num ns)
    (hs : SpellsAll (range arr o ns.length) ns) :
    BERTag.sizeStatic arr o = .ok (if ns.length = 1 then 1 else (ns.length : Int) - 1) := by
  have hd : arr.drop o = range arr o ns.length ++ arr.drop (o + ns.length) := by
    unfold range
    rw [← List.drop_drop, List.take_append_drop]
  unfold BERTag.sizeStatic
  rw [BERTag.baseInit_decode _ arr o _ _ ns cls num c hd hs ht]

/-! ### C38 -/

/-- C38. Writing a tag changes only its own cells, up to the sign normalisation of the whole buffer: the cells outside
`o .. o + n - 1` (`n` the returned length) that hold at most 127 are unchanged, those that hold 128..255 become their
signed equivalents. -/
theorem C38_frame (t : BERTag) (cls num : Nat) (c : Bool) (ht : IsTag t cls c num) (hc : cls < 4) (buf buf' : List Int)
    (o n : Nat) (h : t.toBytes buf o = (.ok (n : Int), buf')) :
    buf'.length = buf.length ∧ o + n ≤ buf.length ∧ ∀ j, (j < o ∨ o + n ≤ j) → ∀ x, buf[j]? = some x →
      (x ≤ 127 → buf'[j]? = some x) ∧ (128 ≤ x → x ≤ 255 → buf'[j]? = some (x - 256)) := by
  by_cases hr : o + (BERTag.octets cls c num).length ≤ buf.length
  · obtain ⟨base, b2, bs, e, h1, h2, h3, h4⟩ := toBytes_full t cls num c ht hc buf o hr
    rw [e] at h
    injection h with hn h
    subst h
    injection hn with hn
    have hn : n = (BERTag.octets cls c num).length := by omega
    subst hn
    have hlen := BigNumber.spellsAll_length h3
    refine ⟨by rw [h2.2.1, h1.1], hr, ?_⟩
    intro j hj x hx
    rw [h2.2.2.2 j (by rw [hlen]; exact hj)]
    exact h1.2 j x hx
  · obtain ⟨b2, e, _⟩ := BERTag.toBytes_out t cls num c ht.1 ht.2.1 ht.2.2 buf o (by omega)
    rw [e] at h
    cases h

/-- C38. In a buffer of signed bytes everything outside the tag is untouched. -/
theorem C38_signed_frame (t : BERTag) (cls num : Nat) (c : Bool) (ht : IsTag t cls c num) (hc : cls < 4) (buf buf' : List Int)
    (o n : Nat) (hb : Bytes buf) (h : t.toBytes buf o = (.ok (n : Int), buf')) :
    ∀ j, (j < o ∨ o + n ≤ j) → buf'[j]? = buf[j]? := by
  obtain ⟨h1, h2, h3⟩ := C38_frame t cls num c ht hc buf buf' o n h
  intro j hj
  by_cases hjl : j < buf.length
  · have hx : buf[j]? = some buf[j] := List.getElem?_eq_getElem hjl
    rw [hx]
    exact (h3 j hj _ hx).1 (hb _ (List.getElem_mem hjl)).2
  · rw [List.getElem?_eq_none (by omega), List.getElem?_eq_none (by omega)]

example : (BERTag.mk (some 0) false (some 4) 1).toBytes [200, 7, -3] 1 = (.ok 1, [-56, 4, -3]) := by rfl

/-- C38. A tag that does not fit raises Python's IndexError (not a Java Card exception) and may leave its first octets
behind; the cells before the offset are unchanged. -/
theorem C38_does_not_fit (t : BERTag) (cls num : Nat) (c : Bool) (ht : IsTag t cls c num) (ns : List Nat)
    (hns : CanonicalTag cls c num ns) (buf : List Int) (o : Nat) (hr : buf.length < o + ns.length) :
    ∃ buf', t.toBytes buf o = (.error .indexError, buf') ∧ buf'.length = buf.length ∧ ∀ j, j < o → buf'[j]? = buf[j]? := by
  have : ns = BERTag.octets cls c num := canonical_unique hns (BERTag.octets_canonical cls c num hns.1)
  subst this
  exact BERTag.toBytes_out t cls num c ht.1 ht.2.1 ht.2.2 buf o hr

example : (BERTag.mk (some 0) false (some 300) 1).toBytes [0, 0] 0 = (.error .indexError, [31, 130]) := by rfl

/-! ### C39 -/

/-- C39. Whatever the array and the offset (even negative, Python's counting from the end), `getInstance` returns a tag
or raises ArrayIndexOutOfBoundsException. -/
theorem C39_total (arr : List Int) (o : Int) :
    (∃ t, BERTag.getInstance arr o = .ok t) ∨ BERTag.getInstance arr o = .error .arrayIndexOutOfBounds := by
  have hnum : ∀ n num k, (∃ r, BERTag.numLoop arr o num k n = (.error .indexError, r)) ∨ ∃ a r, BERTag.numLoop arr o num k n = (.ok a, r) := by
    intro n
    induction n with
    | zero => intro num k; exact .inl ⟨_, rfl⟩
    | succ n ih =>
      intro num k
      unfold BERTag.numLoop
      rcases get_ok_or_indexError arr (o + k) with ⟨v, _, h⟩ | h
      · rw [h]
        simp only
        split
        · exact ih _ _
        · exact .inr ⟨_, _, rfl⟩
      · rw [h]; exact .inl ⟨_, rfl⟩
  unfold BERTag.getInstance
  rcases get_ok_or_indexError arr o with ⟨b, _, h⟩ | h
  · rw [h]
    simp only
    unfold BERTag.initArray
    rw [h]
    have hbase : ∀ t : BERTag, (∃ r, t.baseInit arr o = (.error .indexError, r)) ∨ ∃ r, t.baseInit arr o = (.ok (), r) := by
      intro t
      unfold BERTag.baseInit
      rw [h]
      simp only
      split
      · rcases hnum ((arr.length : Int) - (o + 1)).toNat 0 1 with ⟨r, e⟩ | ⟨a, r, e⟩ <;> rw [e]
        · exact .inl ⟨_, rfl⟩
        · exact .inr ⟨_, rfl⟩
      · exact .inr ⟨_, rfl⟩
    have fin : ∀ t : BERTag, (∃ u, mapIndexError .arrayIndexOutOfBounds (match t.baseInit arr o with
          | (.error e, _) => (.error e : Except Err BERTag) | (.ok (), t) => .ok t) = .ok u) ∨
        mapIndexError .arrayIndexOutOfBounds (match t.baseInit arr o with
          | (.error e, _) => (.error e : Except Err BERTag) | (.ok (), t) => .ok t) = .error .arrayIndexOutOfBounds := by
      intro t
      rcases hbase t with ⟨r, e⟩ | ⟨r, e⟩ <;> rw [e]
      · exact .inr rfl
      · exact .inl ⟨r, rfl⟩
    by_cases hb : b / 32 % 2 = 0
    · have e1 : decide (iand (shr b 5) 0x1 ≠ 0) = false := by simp only [iand_01, shr]; simp; omega
      have e2 : ¬ iand b 0x20 = 0x20 := by rw [iand_20]; omega
      rw [e1]
      simp only [BERTag.new, if_neg e2]
      exact fin ⟨none, false, none, 0⟩
    · have e1 : decide (iand (shr b 5) 0x1 ≠ 0) = true := by simp only [iand_01, shr]; simp; omega
      have e2 : ¬ iand b 0x20 = 0 := by rw [iand_20]; omega
      rw [e1]
      simp only [BERTag.new, if_true, if_neg e2]
      exact fin ⟨none, true, none, 0⟩
  · rw [h]; exact .inr rfl

/-- The identifier octets at the start of `ns` are cut off by its end: nothing there, or the long form without a last octet. -/
def CutOff (ns : List Nat) : Prop := ns = [] ∨ ∃ m r, ns = m :: r ∧ m % 32 = 31 ∧ ∀ x ∈ r, 128 ≤ x

/-- C39. On bytes (signed or unsigned) ArrayIndexOutOfBounds is raised exactly when the identifier octets are cut off by
the end of the array; otherwise the octets at the offset are those of the tag returned. -/
theorem C39_exact (arr : List Int) (o : Nat) (ns : List Nat) (hs : SpellsAll (arr.drop o) ns) :
    (CutOff ns ∧ BERTag.getInstance arr o = .error .arrayIndexOutOfBounds) ∨
    (¬ CutOff ns ∧ ∃ t cls num c oct rest, ns = oct ++ rest ∧ TagOctets cls c num oct ∧
      BERTag.getInstance arr o = .ok t ∧ IsTag t cls c num) := by
  cases ns with
  | nil =>
    refine .inl ⟨.inl rfl, ?_⟩
    have := BigNumber.spellsAll_length hs
    unfold BERTag.getInstance
    rw [get_natCast_out _ _ (by simp at this; omega)]
    rfl
  | cons m r =>
    have hmlt := BigNumber.spellsAll_lt hs m List.mem_cons_self
    have hlead : m = leading (m / 64) (decide (m / 32 % 2 = 1)) (m % 32) := by
      unfold leading
      by_cases h : m / 32 % 2 = 1 <;> simp [h] <;> omega
    have hdec : ∀ oct rest cls num c, m :: r = oct ++ rest → TagOctets cls c num oct →
        ∃ t, BERTag.getInstance arr o = .ok t ∧ IsTag t cls c num := by
      intro oct rest cls num c e ht
      rw [e] at hs
      obtain ⟨a, b, h1, h2, h3⟩ := spellsAll_split hs
      exact ⟨_, BERTag.getInstance_decode arr o a b oct cls num c h1 h2 ht, rfl, rfl, rfl⟩
    by_cases h31 : m % 32 = 31
    · have hsplit : ∀ r : List Nat, (∀ x ∈ r, 128 ≤ x) ∨ ((∀ x ∈ r, x < 256) → ∃ (ds : List Nat) (last : Nat) (rest : List Nat), r = (ds.map (128 + ·) ++ [last]) ++ rest ∧ (∀ d ∈ ds, d < 128) ∧ last < 128) := by
        intro r
        induction r with
        | nil => left; simp
        | cons x r ih =>
          by_cases hx : x < 128
          · right; intro _; exact ⟨[], x, r, rfl, by simp, hx⟩
          · rcases ih with h | h
            · left
              intro y hy
              rcases List.mem_cons.1 hy with rfl | hy
              · omega
              · exact h y hy
            · right
              intro hlt
              obtain ⟨ds, last, rest, e, h1, h2⟩ := h fun y hy => hlt y (List.mem_cons_of_mem _ hy)
              have hx2 := hlt x List.mem_cons_self
              refine ⟨(x - 128) :: ds, last, rest, ?_, ?_, h2⟩
              · have hx3 : 128 + (x - 128) = x := Nat.add_sub_cancel' (Nat.le_of_not_lt hx)
                rw [e]
                simp only [List.map_cons, List.cons_append, hx3]
              · intro d hd
                rcases List.mem_cons.1 hd with hd | hd
                · rw [hd]; omega
                · exact h1 d hd
      rcases Classical.em (∀ x ∈ r, 128 ≤ x) with h | h
      · refine .inl ⟨.inr ⟨m, r, rfl, h31, h⟩, ?_⟩
        cases hd : arr.drop o with
        | nil => rw [hd] at hs; exact absurd hs id
        | cons b cells =>
          have hs' := hs
          rw [hd] at hs'
          have hb := hs'.1
          rw [hlead] at hb
          rw [BERTag.getInstance_eq arr o b cells hd _ _ _ (by omega) (by omega) hb]
          obtain ⟨g1, g2, g3⟩ := get_of_drop hd
          obtain ⟨f1, f2, f3, f4, f5⟩ := BERTag.leading_fields b _ _ _ (by omega) (by omega) hb
          unfold BERTag.baseInit
          rw [g1]
          simp only [f1, f2, f4]
          rw [if_pos (by omega)]
          obtain ⟨k, e⟩ := BERTag.numLoop_cut arr o 1 0 ((arr.length : Int) - (o + 1)).toNat r (by rw [g2]; exact hs'.2) h
          rw [show ((1 : Nat) : Int) = 1 from rfl, show ((0 : Nat) : Int) = 0 from rfl] at e
          rw [e]
          rfl
      · rcases hsplit r with h' | h'
        · exact absurd h' h
        · obtain ⟨ds, last, rest, e, h1, h2⟩ := h' fun x hx => BigNumber.spellsAll_lt hs x (List.mem_cons_of_mem _ hx)
          have ht : TagOctets (m / 64) (decide (m / 32 % 2 = 1)) (positional 128 (ds ++ [last])) (m :: (ds.map (128 + ·) ++ [last])) :=
            ⟨by omega, .inr ⟨ds, last, by rw [← h31, ← hlead], h1, h2, rfl⟩⟩
          have e2 : m :: r = (m :: (ds.map (128 + ·) ++ [last])) ++ rest := by rw [e]; rfl
          obtain ⟨t, t1, t2⟩ := hdec _ rest _ _ _ e2 ht
          refine .inr ⟨?_, t, _, _, _, _, rest, e2, ht, t1, t2⟩
          rintro (h0 | ⟨m', r', h0, _, h0'⟩)
          · cases h0
          · injection h0 with _ h0; subst h0; exact h h0'
    · have ht : TagOctets (m / 64) (decide (m / 32 % 2 = 1)) (m % 32) [m] :=
        ⟨by omega, .inl ⟨by omega, by rw [← hlead]⟩⟩
      obtain ⟨t, t1, t2⟩ := hdec [m] r _ _ _ rfl ht
      refine .inr ⟨?_, t, _, _, _, [m], r, rfl, ht, t1, t2⟩
      rintro (h0 | ⟨m', r', h0, h0', _⟩)
      · cases h0
      · injection h0 with h0 _; subst h0; exact h31 h0'

example : CutOff [0xbf, 0x82] ∧ BERTag.getInstance [-65, -126] 0 = .error .arrayIndexOutOfBounds :=
  ⟨.inr ⟨0xbf, [0x82], rfl, by decide, by simp⟩, rfl⟩

end Verif.Props
