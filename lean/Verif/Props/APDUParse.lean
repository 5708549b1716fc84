import Verif.Lemmas.APDURecv
/-! C21–C23: constructing an APDU from a byte array. -/
namespace Verif.Props
open Verif.Py Verif.Model Verif.Spec Verif.Model.APDU

/-- The public buffer starts with the header. -/
theorem built_header (bytes : List Int) (k : Nat) (ty nc : Int) (ne : Option Int) (lel cd : Int) (br : Bool)
    (h4 : 4 ≤ k) (hk : k ≤ bytes.length) :
    (built bytes k ty nc ne lel cd br).buffer.take 4 = bytes.take 4 := by
  simp only [built]
  rw [List.take_append_of_le_length (by simp; omega), List.take_take, Nat.min_eq_left h4]

theorem shortCmd_length {hdr data : List Int} {ne : Option Nat} {bytes : List Int}
    (h : ShortCmd hdr data ne bytes) :
    bytes.take 4 = hdr ∧ (bytes.length = 4 + (if data = [] then 0 else 1) + data.length + (if ne = none then 0 else 1)) := by
  obtain ⟨hh, lcf, lef, hlc, hle, rfl⟩ := h
  refine ⟨by rw [← hh]; exact List.take_left, ?_⟩
  rcases hlc with ⟨rfl, rfl⟩ | ⟨hd, _, b, rfl, _⟩ <;> rcases hle with ⟨rfl, rfl⟩ | ⟨n, rfl, _, _, b', rfl, _⟩ <;>
    simp [*] <;> omega

/-- C21. The short encoding of a command is parsed to its case, Nc and Ne, with the data at offset 5,
the header in the buffer and the initial state; it is not refused by `setIncomingAndReceive`. -/
theorem C21_short {hdr data : List Int} {ne : Option Nat} {bytes : List Int}
    (h : ShortCmd hdr data ne bytes) :
    ∃ a, APDU.init bytes = .ok a ∧
      a.type = isoCase data ne ∧
      a.getIncomingLength = data.length ∧
      a.Ne = ne.map (fun n : Nat => (n : Int)) ∧
      a.setOutgoing.1 = .ok ((ne.getD 0 : Nat) : Int) ∧
      a.getOffsetCdata = 5 ∧
      a.getCurrentState = 0 ∧
      a.buffer.length = 257 ∧ a.buffer.take 4 = hdr ∧
      (∃ r, a.setIncomingAndReceive.1 = .ok r) := by
  refine ⟨_, short_built h, ?_, rfl, rfl, ?_, rfl, rfl, ?_, ?_, ?_⟩
  · cases data <;> cases ne <;> rfl
  · cases ne <;> rfl
  · apply built_buffer_length
    · have := (shortCmd_length h).2
      cases data <;> cases ne <;> simp at this ⊢ <;> omega
    · split <;> omega
  · rw [built_header, (shortCmd_length h).1]
    · split <;> omega
    · have := (shortCmd_length h).2
      cases data <;> cases ne <;> simp at this ⊢ <;> omega
  · refine ⟨_, setIncoming_built _ _ _ _ _ _ _ ?_ ?_ ?_⟩
    · have := (shortCmd_length h).2
      cases data <;> cases ne <;> simp at this ⊢ <;> omega
    · split <;> omega
    · unfold leBytes; split <;> omega

/-- Case 4 with signed length bytes: `00 A4 04 00 02 AA BB 00`. -/
example : ShortCmd [0, -92, 4, 0] [-86, -69] (some 256) [0, -92, 4, 0, 2, -86, -69, 0] :=
  ⟨rfl, [2], [0], .inr ⟨by simp, by simp, 2, rfl, by simp [Spells]⟩,
    .inr ⟨256, rfl, by omega, by omega, 0, rfl, by simp [Spells]⟩, rfl⟩

/-- C21. The command a short encoding stands for is determined by the bytes (so the theorem above
cannot hold of two different commands at once). -/
theorem C21_unambiguous {hdr hdr' data data' : List Int} {ne ne' : Option Nat} {bytes : List Int}
    (h : ShortCmd hdr data ne bytes) (h' : ShortCmd hdr' data' ne' bytes) :
    hdr = hdr' ∧ data = data' ∧ ne = ne' := by
  have e1 := short_built h
  have e2 := short_built h'
  rw [e1] at e2
  injection e2 with e2
  have l1 := shortCmd_length h
  have l2 := shortCmd_length h'
  have hn : data.length = data'.length := by
    have := congrArg APDU.Nc e2
    simp only [built] at this; omega
  have hne : ne = ne' := by
    have := congrArg APDU.Ne e2
    cases ne <;> cases ne' <;> simp [built] at this ⊢
    omega
  refine ⟨l1.1.symm.trans l2.1, ?_, hne⟩
  subst hne
  obtain ⟨hh, lcf, lef, hlc, hle, rfl⟩ := h
  obtain ⟨hh', lcf', lef', hlc', hle', hb⟩ := h'
  have hb := (List.append_inj hb (by omega)).2
  have hlen : lcf.length = lcf'.length := by
    rcases hlc with ⟨rfl, rfl⟩ | ⟨hd, _, b, rfl, _⟩ <;> rcases hlc' with ⟨rfl, rfl⟩ | ⟨hd', _, b', rfl, _⟩
    · rfl
    · exact absurd (List.length_eq_zero_iff.1 hn.symm) hd'
    · exact absurd (List.length_eq_zero_iff.1 hn) hd
    · rfl
  have hb := (List.append_inj hb hlen).2
  exact (List.append_inj hb hn).1

/-- The Le values the code reads right in extended form. -/
def GoodLe (n : Nat) : Prop := n = 65536 ∨ ¬ 256 ∣ n

theorem goodLe_iff (n : Nat) : GoodLe n ↔ ExtLeOk n := by
  unfold GoodLe ExtLeOk; omega

/-- C22. Case 4E is parsed right when Le is 65536 or no multiple of 256. -/
theorem C22_case4 {hdr data : List Int} {n : Nat} {bytes : List Int} (h : Ext4 hdr data n bytes)
    (hn : GoodLe n) :
    ∃ a, APDU.init bytes = .ok a ∧ a.type = 4 ∧ a.getIncomingLength = data.length ∧ a.Ne = some (n : Int) ∧
      a.getOffsetCdata = 7 ∧ a.getCurrentState = 0 ∧ (∃ r, a.setIncomingAndReceive.1 = .ok r) := by
  rcases ext4_built h with ⟨_, e⟩ | ⟨h', _⟩
  · refine ⟨_, e, rfl, rfl, rfl, rfl, rfl, _, setIncoming_built _ _ _ _ _ _ _ ?_ ?_ ?_⟩
    · obtain ⟨hh, hd, hdl, h1, h2, hi, lo, hi', lo', hs, hs', rfl⟩ := h
      simp; omega
    · omega
    · omega
  · exact absurd ((goodLe_iff n).1 hn) h'

example : Ext4 [0, 0, 0, 0] [1, 2, 3] 257 [0, 0, 0, 0, 0, 0, 3, 1, 2, 3, 1, 1] ∧ GoodLe 257 :=
  ⟨⟨rfl, by simp, by simp, by omega, by omega, 0, 3, 1, 1, by simp [Spells2, Spells], by simp [Spells2, Spells], rfl⟩,
    by unfold GoodLe; omega⟩

/-- C22. Case 4E with any other multiple of 256 is refused, although it is well-formed. -/
theorem C22_case4_refused {hdr data : List Int} {n : Nat} {bytes : List Int} (h : Ext4 hdr data n bytes)
    (hn : ¬ GoodLe n) :
    ∃ a, APDU.init bytes = .ok a ∧ a.setIncomingAndReceive = (.error (.iso 0x6700), a) := by
  rcases ext4_built h with ⟨h', _⟩ | ⟨_, e⟩
  · exact absurd ((goodLe_iff n).2 h') hn
  · exact ⟨_, e, setIncoming_broken _ _ _ _ _ _ _⟩

example : Ext4 [0, 0, 0, 0] [1] 512 [0, 0, 0, 0, 0, 0, 1, 1, 2, 0] ∧ ¬ GoodLe 512 :=
  ⟨⟨rfl, by simp, by simp, by omega, by omega, 0, 1, 2, 0, by simp [Spells2, Spells], by simp [Spells2, Spells], rfl⟩,
    by unfold GoodLe; omega⟩

/-- C22. Every case 3E command is refused. -/
theorem C22_case3_refused {hdr data : List Int} {bytes : List Int} (h : Ext3 hdr data bytes) :
    ∃ a, APDU.init bytes = .ok a ∧ a.getIncomingLength = data.length ∧
      a.setIncomingAndReceive = (.error (.iso 0x6700), a) := by
  obtain ⟨ne, lel, e⟩ := ext3_built h
  exact ⟨_, e, rfl, setIncoming_broken _ _ _ _ _ _ _⟩

example : Ext3 [0, 0, 0, 0] [1, 2] [0, 0, 0, 0, 0, 0, 2, 1, 2] :=
  ⟨rfl, by simp, by simp, 0, 2, by simp [Spells2, Spells], rfl⟩

/-- C22. Case 2E gets Ne right when Le is 65536 or no multiple of 256, and 256 otherwise: so it is
right exactly for those and for 256 itself. -/
theorem C22_case2 {hdr : List Int} {n : Nat} {bytes : List Int} (h : Ext2 hdr n bytes) :
    ∃ a, APDU.init bytes = .ok a ∧ a.type = 2 ∧ a.getIncomingLength = 0 ∧
      (GoodLe n → a.Ne = some (n : Int)) ∧ (¬ GoodLe n → a.Ne = some 256) ∧
      (a.Ne = some (n : Int) ↔ GoodLe n ∨ n = 256) := by
  rcases ext2_built h with ⟨h', e⟩ | ⟨h', e⟩
  · have := (goodLe_iff n).2 h'
    refine ⟨_, e, rfl, rfl, fun _ => rfl, fun hc => absurd this hc, ?_⟩
    simp [built, this]
  · have : ¬ GoodLe n := fun hc => h' ((goodLe_iff n).1 hc)
    refine ⟨_, e, rfl, rfl, fun hc => absurd hc this, fun _ => rfl, ?_⟩
    simp only [built, this, false_or, Option.some.injEq]
    omega

example : Ext2 [0, -80, 0, 0] 512 [0, -80, 0, 0, 0, 2, 0] ∧ ¬ GoodLe 512 :=
  ⟨⟨rfl, by omega, by omega, 2, 0, by simp [Spells2, Spells], rfl⟩, by unfold GoodLe; omega⟩
example : Ext2 [0, -80, 0, 0] 65536 [0, -80, 0, 0, 0, 0, 0] :=
  ⟨rfl, by omega, by omega, 0, 0, by simp [Spells2, Spells], rfl⟩

/-- C23. Fewer than four bytes: BAD_LENGTH. -/
theorem C23_too_short (bytes : List Int) : bytes.length < 4 → APDU.init bytes = .error (.apdu 0) := by
  intro h
  unfold APDU.init
  have h1 : (bytes.length : Int) < 4 := by omega
  simp only [h1, if_true, bind, Except.bind, throw, throwThe, MonadExceptOf.throw]
  rfl

theorem any_get {l : List Int} (h : AnyBytes l) (i : Nat) (hi : i < l.length) :
    -128 ≤ l[i] ∧ l[i] ≤ 255 := h _ (List.getElem_mem hi)

/-- The first five bytes split off. -/
theorem split5 {l : List Int} (h : 5 ≤ l.length) : ∃ a b c d e r, l = a :: b :: c :: d :: e :: r := by
  match l, h with
  | a :: b :: c :: d :: e :: r, _ => exact ⟨a, b, c, d, e, r, rfl⟩

theorem splitLast {l : List Int} (h : l ≠ []) : ∃ m x, l = m ++ [x] :=
  ⟨l.dropLast, l.getLast h, (List.dropLast_concat_getLast h).symm⟩

/-- C23. Outside the extended format (4 or 5 bytes, or a non-zero fifth byte) the constructor
succeeds, and `setIncomingAndReceive` answers SW_WRONG_LENGTH exactly when the bytes are not the short
encoding of any command; otherwise it succeeds. -/
theorem C23_short (bytes : List Int) (hb : AnyBytes bytes) (h4 : 4 ≤ bytes.length)
    (h : bytes.length ≤ 5 ∨ bytes[4]? ≠ some 0) :
    ∃ a, APDU.init bytes = .ok a ∧
      ((∃ hdr data ne, ShortCmd hdr data ne bytes) → ∃ r, a.setIncomingAndReceive.1 = .ok r) ∧
      ((¬ ∃ hdr data ne, ShortCmd hdr data ne bytes) → a.setIncomingAndReceive = (.error (.iso 0x6700), a)) := by
  have key : (∃ hdr data ne, ShortCmd hdr data ne bytes) ∨
      (∃ a, APDU.init bytes = .ok a ∧ a.setIncomingAndReceive = (.error (.iso 0x6700), a)) := by
    by_cases e4 : bytes.length = 4
    · left
      exact ⟨bytes, [], none, e4, [], [], .inl ⟨rfl, rfl⟩, .inl ⟨rfl, rfl⟩, by simp⟩
    by_cases e5 : bytes.length = 5
    · left
      obtain ⟨a, b, c, d, e, r, rfl⟩ := split5 (l := bytes) (by omega)
      have : r = [] := by simpa using e5
      subst this
      have hx := hb e (by simp)
      refine ⟨[a, b, c, d], [], some (if e = 0 then 256 else (u1 e).toNat), rfl, [], [e], .inl ⟨rfl, rfl⟩,
        .inr ⟨_, rfl, ?_⟩, rfl⟩
      have := spells_u1 hx.1 hx.2
      have hlt := this.1
      have hz := spells_zero this
      split
      · next h0 => exact ⟨by omega, by omega, e, rfl, by simp [Spells, h0]⟩
      · next h0 =>
        refine ⟨by omega, by omega, e, rfl, ?_⟩
        rwa [Nat.mod_eq_of_lt hlt]
    · obtain ⟨a, b, c, d, e, r, rfl⟩ := split5 (l := bytes) (by omega)
      have h0 : e ≠ 0 := by simpa using h.resolve_left (by omega)
      have hx := hb e (by simp)
      have hs := spells_u1 hx.1 hx.2
      have hz := spells_zero hs
      have hpos : 0 < (u1 e).toNat := by omega
      have hnn : 0 ≤ u1 e := by rw [u1_eq]; omega
      by_cases hr : r.length = (u1 e).toNat
      · left
        refine ⟨[a, b, c, d], r, none, rfl, [e], [], .inr ⟨?_, ?_, e, rfl, ?_⟩, .inl ⟨rfl, rfl⟩, by simp⟩
        · intro h; subst h; simp at hr; omega
        · have := hs.1; omega
        · rw [hr]; exact hs
      · have hnr : ((a :: b :: c :: d :: e :: r).length : Int) ≠ u1 (a :: b :: c :: d :: e :: r)[4] + 5 := by
          simp only [List.length_cons, List.getElem_cons_succ, List.getElem_cons_zero]; omega
        by_cases hr1 : r.length = (u1 e).toNat + 1
        · left
          obtain ⟨m, x, rfl⟩ := splitLast (l := r) (by intro h; subst h; simp at hr1)
          have hm : m.length = (u1 e).toNat := by simpa using hr1
          have hx' := hb x (by simp)
          have hs' := spells_u1 hx'.1 hx'.2
          have hz' := spells_zero hs'
          have hlt := hs'.1
          refine ⟨[a, b, c, d], m, some (if x = 0 then 256 else (u1 x).toNat), rfl, [e], [x],
            .inr ⟨?_, ?_, e, rfl, ?_⟩, .inr ⟨_, rfl, ?_⟩, by simp⟩
          · intro h; subst h; simp at hm; omega
          · have := hs.1; omega
          · rw [hm]; exact hs
          · split
            · next h0 => exact ⟨by omega, by omega, x, rfl, by simp [Spells, h0]⟩
            · next h0 =>
              refine ⟨by omega, by omega, x, rfl, ?_⟩
              rwa [Nat.mod_eq_of_lt hlt]
        · right
          refine ⟨_, init_D _ (by simp only [List.length_cons] at e4 e5 h4 ⊢; omega) h0 (by simpa using hx.2) hnr, ?_⟩
          have : decide (((a :: b :: c :: d :: e :: r).length : Int) ≠ (6 : Int) + u1 (a :: b :: c :: d :: e :: r)[4]) = true := by
            rw [decide_eq_true_iff]
            simp only [List.length_cons, List.getElem_cons_succ, List.getElem_cons_zero]; omega
          rw [this]
          exact setIncoming_broken _ _ _ _ _ _ _
  rcases key with hk | ⟨a, ha, hr⟩
  · obtain ⟨hdr, data, ne, hs⟩ := hk
    obtain ⟨a, ha, _, _, _, _, _, _, _, _, hr⟩ := C21_short hs
    exact ⟨a, ha, fun _ => hr, fun hn => absurd ⟨_, _, _, hs⟩ hn⟩
  · refine ⟨a, ha, ?_, fun _ => hr⟩
    rintro ⟨hdr, data, ne, hs⟩
    obtain ⟨a', ha', _, _, _, _, _, _, _, _, r, hr'⟩ := C21_short hs
    rw [ha] at ha'
    injection ha' with ha'
    subst ha'
    rw [hr] at hr'
    cases hr'

set_option maxRecDepth 4000 in
/-- A refused array: `Lc = 5` but only two data bytes. -/
example : ∃ a, APDU.init [0, 0, 0, 0, 5, 1, 2] = .ok a ∧ a.setIncomingAndReceive = (.error (.iso 0x6700), a) :=
  ⟨_, rfl, rfl⟩

/-- C23. Six bytes with a zero fifth byte: the constructor fails with a Python IndexError. -/
theorem C23_six (bytes : List Int) (h : bytes.length = 6) (h0 : bytes[4]? = some 0) :
    APDU.init bytes = .error .indexError := by
  apply init_E bytes h
  rw [List.getElem?_eq_getElem (by omega)] at h0
  simpa using h0

/-- C23. The constructor fails in no other case: of at least four bytes, only six with a zero fifth. -/
theorem C23_constructor_total (bytes : List Int) (hb : AnyBytes bytes) (h4 : 4 ≤ bytes.length)
    (h : ¬ (bytes.length = 6 ∧ bytes[4]? = some 0)) : ∃ a, APDU.init bytes = .ok a := by
  by_cases hs : bytes.length ≤ 5 ∨ bytes[4]? ≠ some 0
  · obtain ⟨a, ha, _⟩ := C23_short bytes hb h4 hs
    exact ⟨a, ha⟩
  · have hs : 5 < bytes.length ∧ bytes[4]? = some 0 := by
      constructor
      · exact Nat.not_le.1 fun h => hs (.inl h)
      · exact Classical.not_not.1 fun h => hs (.inr h)
    have h6 : bytes.length ≠ 6 := fun e => h ⟨e, hs.2⟩
    have h0 : bytes[4] = 0 := by
      have := hs.2
      rw [List.getElem?_eq_getElem (by omega)] at this
      simpa using this
    by_cases h7 : bytes.length = 7
    · exact ⟨_, init_B bytes h7 h0⟩
    · by_cases hn : (bytes.length : Int) = u1 (bytes[5]'(by omega)) * (256 : Int) + u1 (bytes[6]'(by omega)) + 5
      · exact ⟨_, init_F bytes (by omega) h0 hn⟩
      · exact ⟨_, init_G bytes (by omega) h0 hn⟩

/-- An extended-format array: header, a zero, two bytes spelling `nc`, and the rest. -/
def ExtBytes (bytes : List Int) (nc : Nat) : Prop :=
  ∃ a b c d h l r, bytes = a :: b :: c :: d :: 0 :: h :: l :: r ∧ r ≠ [] ∧ Spells2 h l nc

/-- C23. In the extended format with announced length `nc`, the array is accepted exactly when, counting
the bytes after the length field: there are `nc + 2` with a last pair that is `0 0` or ends in a
non-zero byte (case 4E); or `nc - 2` of them; or `nc + 1` with a last byte 0 after a non-zero byte. -/
theorem C23_extended (bytes : List Int) (nc : Nat) (a b c d h l : Int) (r : List Int)
    (hbytes : bytes = a :: b :: c :: d :: 0 :: h :: l :: r) (hr : r ≠ []) (hs : Spells2 h l nc) :
    ∃ x, APDU.init bytes = .ok x ∧
      ((∃ v, x.setIncomingAndReceive.1 = .ok v) ∨ x.setIncomingAndReceive = (.error (.iso 0x6700), x)) ∧
      ((∃ v, x.setIncomingAndReceive.1 = .ok v) ↔
        (r.length = nc + 2 ∧ ((l :: r)[r.length - 1]? = some 0 ∨ (l :: r)[r.length]? ≠ some 0)) ∨
        (r.length + 2 = nc) ∨
        (r.length = nc + 1 ∧ (l :: r)[r.length - 1]? ≠ some 0 ∧ (l :: r)[r.length]? = some 0)) := by
  have hpos : 0 < r.length := List.length_pos_iff.2 hr
  have hv := spells2_val hs
  have hlen : bytes.length = r.length + 7 := by rw [hbytes]; simp
  have e4 : bytes[4]'(by omega) = 0 := by simp [hbytes]
  have e5 : bytes[5]'(by omega) = h := by simp [hbytes]
  have e6 : bytes[6]'(by omega) = l := by simp [hbytes]
  by_cases hF : r.length + 2 = nc
  · refine ⟨_, init_F bytes (by omega) e4 (by rw [e5, e6, hv]; omega), ?_⟩
    have := setIncoming_built bytes 7 3 (u1 (bytes[5]'(by omega)) * (256 : Int) + u1 (bytes[6]'(by omega))) none 0 7
      (by omega) (by omega) (by omega)
    exact ⟨.inl ⟨_, this⟩, fun _ => .inr (.inl hF), fun _ => ⟨_, this⟩⟩
  · refine ⟨_, init_G bytes (by omega) e4 (by rw [e5, e6, hv]; omega), ?_⟩
    have q1 : bytes[bytes.length - 1]'(by omega) = (l :: r)[r.length]'(by simp) := by
      simp only [hbytes]
      simp
    have q2 : bytes[bytes.length - 2]'(by omega) = (l :: r)[r.length - 1]'(by simp; omega) := by
      obtain ⟨m, hm⟩ : ∃ m, r.length = m + 1 := ⟨r.length - 1, by omega⟩
      simp only [hbytes, List.length_cons, hm, Nat.add_sub_cancel]
      rfl
    rw [e5, e6, hv, q1, q2]
    have g1 : (l :: r)[r.length]? = some ((l :: r)[r.length]'(by simp)) := List.getElem?_eq_getElem _
    have g2 : (l :: r)[r.length - 1]? = some ((l :: r)[r.length - 1]'(by simp; omega)) := List.getElem?_eq_getElem _
    rw [g1, g2]
    generalize (l :: r)[r.length]'(by simp) = last
    generalize (l :: r)[r.length - 1]'(by simp; omega) = prev
    simp only [Option.some.injEq, ne_eq, hlen]
    have main : ∀ p : Int × Int, (p.2 = 1 ∨ p.2 = 2) →
        (let x := built bytes 7 4 (nc : Int) (some p.1) p.2 7 (decide (¬ ((r.length + 7 : Nat) : Int) = (7 : Int) + p.2 + (nc : Int)))
         ((∃ v, x.setIncomingAndReceive.1 = .ok v) ∨ x.setIncomingAndReceive = (.error (.iso 0x6700), x)) ∧
         ((∃ v, x.setIncomingAndReceive.1 = .ok v) ↔ (r.length : Int) = p.2 + nc)) := by
      intro p hp
      by_cases hq : (r.length : Int) = p.2 + nc
      · have : decide (¬ ((r.length + 7 : Nat) : Int) = (7 : Int) + p.2 + (nc : Int)) = false := by
          rw [decide_eq_false_iff_not]; omega
        rw [this]
        have h := setIncoming_built bytes 7 4 (nc : Int) (some p.1) p.2 7 (by omega) (by omega) (by omega)
        exact ⟨.inl ⟨_, h⟩, fun _ => hq, fun _ => ⟨_, h⟩⟩
      · have : decide (¬ ((r.length + 7 : Nat) : Int) = (7 : Int) + p.2 + (nc : Int)) = true := by
          rw [decide_eq_true_iff]; omega
        rw [this]
        have h := setIncoming_broken bytes 7 4 (nc : Int) (some p.1) p.2 7
        refine ⟨.inr h, ?_, fun hc => absurd hc hq⟩
        rintro ⟨v, hv⟩
        rw [h] at hv
        cases hv
    have := main (le2 prev last) (le2_snd prev last)
    refine ⟨this.1, this.2.trans ?_⟩
    unfold le2
    by_cases hl : last = 0
    · by_cases hp : prev = 0
      · simp [hl, hp, hF]; omega
      · simp [hl, hp, hF]; omega
    · simp [hl, hF]; omega

/-- The accepted arrays of the second and third kind are not encodings of any command: nothing that
satisfies ISO 7816-4 has `nc - 2` or `nc + 1` bytes after an extended length field. -/
theorem C23_malformed_accepted (bytes : List Int) (nc : Nat) (a b c d h l : Int) (r : List Int)
    (hbytes : bytes = a :: b :: c :: d :: 0 :: h :: l :: r) (hr : r ≠ []) (hs : Spells2 h l nc)
    (hk : r.length + 2 = nc ∨
      (r.length = nc + 1 ∧ (l :: r)[r.length - 1]? ≠ some 0 ∧ (l :: r)[r.length]? = some 0)) :
    ¬ WellFormed bytes ∧ ∃ x v, APDU.init bytes = .ok x ∧ x.setIncomingAndReceive.1 = .ok v := by
  have hpos : 0 < r.length := List.length_pos_iff.2 hr
  constructor
  · have u2 : ∀ m, Spells2 h l m → m = nc := by
      intro m hm
      have h1 := spells2_val hs
      have h2 := spells2_val hm
      omega
    rintro (⟨hdr, data, ne, hw⟩ | ⟨hdr, n, hw⟩ | ⟨hdr, data, hw⟩ | ⟨hdr, data, n, hw⟩)
    · obtain ⟨hh, lcf, lef, hlc, hle, e⟩ := hw
      rw [hbytes] at e
      match hdr, hh with
      | [a', b', c', d'], _ =>
        simp only [List.cons_append, List.nil_append, List.cons.injEq] at e
        obtain ⟨_, _, _, _, e⟩ := e
        rcases hlc with ⟨rfl, rfl⟩ | ⟨hd, _, x, rfl, hx⟩
        · rcases hle with ⟨rfl, rfl⟩ | ⟨n, rfl, _, _, y, rfl, _⟩
          · simp at e
          · simp at e
        · simp only [List.cons_append, List.nil_append, List.cons.injEq] at e
          have := (spells_zero hx).1 e.1.symm
          exact hd (List.length_eq_zero_iff.1 this)
    · obtain ⟨hh, _, _, h', l', _, e⟩ := hw
      have := congrArg List.length e
      rw [hbytes] at this
      simp [hh] at this
      exact hr this
    · obtain ⟨hh, hd, _, h', l', hs', e⟩ := hw
      rw [hbytes] at e
      match hdr, hh with
      | [a', b', c', d'], _ =>
        simp only [List.cons_append, List.nil_append, List.cons.injEq] at e
        obtain ⟨_, _, _, _, _, rfl, rfl, rfl⟩ := e
        have := u2 _ hs'
        omega
    · obtain ⟨hh, hd, _, _, _, h', l', h'', l'', hs', _, e⟩ := hw
      rw [hbytes] at e
      match hdr, hh with
      | [a', b', c', d'], _ =>
        simp only [List.cons_append, List.nil_append, List.cons.injEq] at e
        obtain ⟨_, _, _, _, _, rfl, rfl, rfl⟩ := e
        have := u2 _ hs'
        simp at hk hpos
        omega
  · obtain ⟨x, hx, _, hi⟩ := C23_extended bytes nc a b c d h l r hbytes hr hs
    obtain ⟨v, hv⟩ := hi.2 (.inr hk)
    exact ⟨x, v, hx, hv⟩

/-- `Lc = 0003` with one data byte, and `Lc = 0001` with data `7` and a last byte 0. -/
example : Spells2 0 3 3 ∧ ([9] : List Int).length + 2 = 3 := by simp [Spells2, Spells]
set_option maxRecDepth 4000 in
example : ∃ x v, APDU.init [0, 0, 0, 0, 0, 0, 1, 7, 0] = .ok x ∧ x.setIncomingAndReceive.1 = .ok v := ⟨_, _, rfl, rfl⟩
set_option maxRecDepth 4000 in
example : ∃ x v, APDU.init [0, 0, 0, 0, 0, 0, 3, 9] = .ok x ∧ x.setIncomingAndReceive.1 = .ok v := ⟨_, _, rfl, rfl⟩

end Verif.Props
