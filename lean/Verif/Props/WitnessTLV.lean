import Verif.Props.TLV
import Verif.Props.TLV2
import Verif.Props.TLVTree
import Verif.Props.Tag
import Verif.Props.TagInit
namespace Verif.Props
open Verif.Py Verif.Model Verif.Spec

/-! # Concrete cases for C36 to C48, C69 to C72, C88 and C91: each theorem applied to values that meet its hypotheses -/

/-- The OCTET STRING `04 01 07`, the constructed `30 05 04 01 07 85 00` around it, and its children. -/
theorem wOctet : Encodes ⟨0, false, 4, [7]⟩ [4, 1, 7] := ⟨by decide, by decide, by decide, 4, by simp [Spells, leading], rfl⟩
theorem wEmpty : Encodes ⟨2, false, 5, []⟩ [-123, 0] := ⟨by decide, by decide, by decide, -123, by simp [Spells, leading], rfl⟩
theorem wSeq : Encodes ⟨0, true, 16, [4, 1, 7, -123, 0]⟩ [0x30, 5, 4, 1, 7, -123, 0] :=
  ⟨by decide, by decide, by decide, 0x30, by simp [Spells, leading], rfl⟩
theorem wKids : EncodesAll [⟨0, false, 4, [7]⟩, ⟨2, false, 5, []⟩] [4, 1, 7, -123, 0] :=
  ⟨[4, 1, 7], [-123, 0], rfl, wOctet, [-123, 0], [], rfl, wEmpty, rfl⟩
theorem wLong : CanonicalTag 2 true 300 [0xbf, 0x82, 0x2c] :=
  ⟨by decide, Or.inr ⟨by decide, [2], 0x2c, rfl, by decide, by decide, rfl, by decide⟩⟩
theorem wLongOctets : TagOctets 2 true 300 [0xbf, 0x82, 0x2c] :=
  ⟨by decide, Or.inr ⟨[2], 0x2c, rfl, by decide, by decide, rfl⟩⟩
theorem wTag4 : IsTag ⟨some 0, false, some 4, 1⟩ 0 false 4 := ⟨rfl, rfl, rfl⟩
theorem wTag300 : IsTag ⟨some 2, true, some 300, 2⟩ 2 true 300 := ⟨rfl, rfl, rfl⟩

/-- `04 01 07` as an object. -/
def wPrim : BERTLV := ⟨false, some ⟨some 0, false, some 4, 1⟩, 1, some [7]⟩
/-- `30 05 04 01 07 85 00` as an object. -/
def wCons : BERTLV := ⟨true, some ⟨some 0, true, some 16, 1⟩, 5, some [4, 1, 7, -123, 0]⟩

example := C40_decode [99, 4, 1, 7, 98] 1 _ _ [98] rfl wOctet
example := C40_encode wPrim _ ⟨0, false, 4, [7]⟩ rfl wTag4 rfl rfl (by decide) (by decide) (by decide) [1, 2, 3, 4, 5] 1 (by decide)
example := C40_roundtrip wPrim _ ⟨0, false, 4, [7]⟩ rfl wTag4 rfl rfl (by decide) (by decide) (by decide) [1, 2, 3, 4, 5] 1 (by decide)
example := C40_size wCons _ rfl 5 (by decide) rfl
example := C41_never ⟨false, some ⟨some 0, false, some 4, 1⟩, 128, some (List.replicate 128 7)⟩ (by decide) [0, 0] 0
example := C41_name_error ⟨false, some ⟨some 0, false, some 4, 1⟩, 128, some (List.replicate 128 7)⟩ _ rfl (by decide) [0, 9] [4, 9] 0 1 rfl
example := C42_misread [99, 4, -126, 1, 0, 7] 1 4 (-126) 0 4 false [1, 0] [7] (by decide) (by decide) (by simp [Spells, leading]) (by decide)
  (by simp [Spells]) rfl
example := C42_right_length_iff [1, 0] (by decide)
example := C42_value_shifted [4, -127, 2, 7, 8] 0 4 (-127) 0 4 false [2] [7, 8] [] (by decide) (by decide) (by simp [Spells, leading]) (by decide)
  (by simp [Spells]) rfl rfl rfl (by decide)
example := C42_signed_negative [4, -127, -56, 7] 0 4 (-127) 0 4 200 false [7] (by decide) (by decide) (by simp [Spells, leading])
  (by simp [Spells]) (by decide) (by decide) rfl
example := C43_find wCons rfl _ rfl rfl _ wKids ⟨some 2, false, some 5, 1⟩ 2 5 false ⟨rfl, rfl, rfl⟩ 3 (by decide)
example := C43_find_none wCons rfl _ rfl rfl _ wKids 3
example := C43_primitive wPrim rfl none wCons 1 3
example := C44_findNext wCons rfl _ rfl rfl _ wKids ⟨some 2, false, some 5, 1⟩ 2 5 false ⟨rfl, rfl, rfl⟩ wPrim ⟨0, false, 4, [7]⟩
  ⟨_, rfl, wTag4⟩ rfl 1 3 (by decide)
example := C44_findNext_none wCons rfl _ rfl rfl _ wKids wPrim ⟨0, false, 4, [7]⟩ ⟨_, rfl, wTag4⟩ rfl 1 3 (by decide)
example := C45_terminates ⟨true, some ⟨some 0, true, some 16, 1⟩, 3, some [4, 1, 7]⟩ (by rintro _ ⟨⟩; decide)
example := C45_loops_forever ⟨some 2, true, some 300, 2⟩ 2 300 true wTag300 (by decide)
example := C46_append wCons wPrim _ rfl rfl _ _ rfl ⟨0, false, 4, [7]⟩ rfl wTag4 rfl rfl rfl (by decide) (by decide) (by decide)
example := C46_children wCons wPrim _ rfl rfl rfl _ wKids _ _ rfl ⟨0, false, 4, [7]⟩ rfl wTag4 rfl rfl rfl (by decide) (by decide) (by decide)
example := C46_built_tag_refused wCons ⟨false, some ⟨some 0, false, some 4, 0⟩, 1, some [7]⟩ rfl _ ⟨0, false, 4, [7]⟩ rfl ⟨rfl, rfl, rfl⟩ rfl rfl rfl
  (by decide) (by decide)
example := C47_well_formed_use [99, 0x30, 5, 4, 1, 7, -123, 0, 98] 1 _ _ [98] rfl wSeq rfl 3 (by decide) (some [4]) 0
example := C47_outcomes [99, 0x30, 5, 4, 1, 7, -123, 0, 98] 1 _ _ [98] rfl wSeq 6 (some [4]) 0
example := C48_fresh_object [99, 4, 1, 7, 98] 1 _ _ [98] rfl wOctet

example := C69_misread [9, 0xbf, -126, 0x2c, 1, 7] 1 [0xbf, -126, 0x2c] [1, 7] _ 2 300 true rfl (by simp [SpellsAll, Spells]) wLongOctets (by decide)
example := C70_static_getLength [99, 4, 1, 7, 98] 1 _ _ [98] rfl wOctet
example := C70_getValueOffset [99, 4, 1, 7, 98] 1 _ _ [98] rfl wOctet
example := C71_getValue wPrim rfl _ rfl rfl [0, 0, 0] 2 (by decide)
example := C71_getValue_does_not_fit wPrim rfl _ rfl rfl [0, 0, 0] 3 (by decide) (by decide)
example := C71_replaceValue wPrim rfl [1, 2, 3] 1 2 (by decide)
example := C71_constructed wCons rfl [0, 0] [1, 2] 0 0 1
example := C71_failed_replace_corrupts wPrim rfl [1, 2, 3] 1 3 (by decide) (by decide)
example := C72_static_find [99, 0x30, 5, 4, 1, 7, -123, 0, 98] 1 _ _ [98] rfl wSeq rfl _ wKids [4] 0 _ rfl 0 4 false wTag4 3 (by decide)
example := C72_static_find_any [99, 0x30, 5, 4, 1, 7, -123, 0, 98] 1 _ _ [98] rfl wSeq 0 3
example := C72_static_append [4, 1, 7] [0x30, 5, 4, 1, 7, -123, 0, 98, 97, 96] 0 0 _ _ _ _ [98, 97, 96] [] rfl wSeq rfl rfl wOctet (by decide) (by decide)
example := C72_static_append_corrupts [4, 1, 7] [0x30, 5, 4, 1, 7, -123, 0, 98] 0 0 _ _ _ _ [98] [] rfl wSeq rfl rfl wOctet (by decide) (by decide)

example := C36_encode _ 2 300 true wTag300 _ wLong [0, 0, 0, 0] 1 (by decide)
example := C36_encodable 2 300 true (by decide)
example := C36_decode [9, 0xbf, -126, 0x2c] 1 _ 2 300 true wLongOctets (by simp [SpellsAll, Spells, range])
example := C36_roundtrip ⟨some 0, false, some 4, 1⟩ 0 4 false wTag4 (by decide) [0, 9] [4, 9] 0 1 rfl
example := C36_static 2 300 true _ wLong [0, 0, 0, 0] 1 (by decide)
example := C36_equal _ _ _ _ _ _ _ _ wTag4 wTag300
example := C36_static_queries [9, 0xbf, -126, 0x2c] 1 _ 2 300 true wLongOctets (by simp [SpellsAll, Spells, range])
example := C39_static_queries [0xbf, -126] 0 rfl
example := C37_read [9, 0xbf, -126, 0x2c] 1 _ 2 300 true wLongOctets (by simp [SpellsAll, Spells, range])
example := C37_built 2 300 true _ wLong
example := C37_static [9, 0xbf, -126, 0x2c] 1 _ 2 300 true wLongOctets (by simp [SpellsAll, Spells, range])
example := C38_frame ⟨some 0, false, some 4, 1⟩ 0 4 false wTag4 (by decide) [200, 9] [-56, 4] 1 1 rfl
example := C38_signed_frame ⟨some 0, false, some 4, 1⟩ 0 4 false wTag4 (by decide) [100, 9] [100, 4] 1 1 (by unfold Bytes IsByte; decide) rfl
example := C38_does_not_fit _ 2 300 true wTag300 _ wLong [0, 0, 0] 1 (by decide)
example := C39_exact [9, 0xbf, -126] 1 [0xbf, 0x82] (by simp [SpellsAll, Spells])

example := C91_right_kind ⟨some 0, true, some 4, 1⟩ [9, 0xbf, -126, 0x2c] 1 _ 2 300 wLongOctets (by simp [SpellsAll, Spells, range])
example := C91_wrong_kind ⟨some 0, true, some 4, 1⟩ [9, -123] 1 (-123) rfl 2 5 (by decide) (by decide) (by simp [Spells, leading])
example := C91_out_of_range ⟨some 0, true, some 4, 1⟩ [9, -123] 2 (by decide)
example := C91_truncated ⟨some 0, true, some 4, 1⟩ [9, 0xbf, -126] 1 2 (by decide) [2] (by decide) (by simp [SpellsAll, Spells, leading])
example := C91_str ⟨some 0, true, some 4, 1⟩ ⟨some 2, true, some 300, 2⟩ 0 4 2 300 rfl rfl rfl rfl
example := C91_text ⟨some 2, true, some 300, 2⟩ 2 300 rfl rfl

/-- `30 05 { 04 01 07, 85 00 }` as a tree. -/
def wTree : Tree := .node 0 16 [.leaf 0 4 [7], .leaf 2 5 []]
theorem wTreeEnc : EncodesTree wTree [0x30, 5, 4, 1, 7, -123, 0] := by
  unfold wTree
  rw [EncodesTree]
  refine ⟨[4, 1, 7, -123, 0], ?_, wSeq⟩
  rw [EncodesForest]
  refine ⟨[4, 1, 7], [-123, 0], rfl, by rw [EncodesTree]; exact wOctet, ?_⟩
  rw [EncodesForest]
  exact ⟨[-123, 0], [], rfl, by rw [EncodesTree]; exact wEmpty, by rw [EncodesForest]⟩

example := C88_getInstance wTree [99, 0x30, 5, 4, 1, 7, -123, 0, 98] 1 _ [98] rfl wTreeEnc
example := C88_read wTree [99, 0x30, 5, 4, 1, 7, -123, 0, 98] 1 _ [98] rfl wTreeEnc 7 (by decide)
example := C88_unambiguous wTree wTree _ wTreeEnc wTreeEnc
example := C88_build_roundtrip wTree _ wTreeEnc [0, 0, 0, 0, 0, 0, 0, 0, 0] 1 (by decide)

theorem wConsTree : IsTree wCons wTree := by
  have h := wTreeEnc
  unfold wTree at h
  rw [EncodesTree] at h
  obtain ⟨v, h1, _, _, _, b, _, h2⟩ := h
  simp at h2
  refine ⟨⟨0, true, 16, [4, 1, 7, -123, 0]⟩, ⟨rfl, rfl, rfl, ?_⟩, rfl, ⟨_, rfl, rfl, rfl, rfl⟩, rfl, rfl, rfl⟩
  rw [← h2.2.2] at h1
  exact h1
example := C88_findPath wTree wCons wConsTree (by decide) [⟨some 2, false, some 5, 1⟩] [(2, false, 5)] (.cons ⟨rfl, rfl, rfl⟩ .nil) 128 (by decide)

end Verif.Props
