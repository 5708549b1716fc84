import Verif.Props.Ints
import Verif.Props.Arrays
import Verif.Props.PIN
import Verif.Props.BigNumber
/-! Concrete cases that meet the hypotheses of the theorems on integers, arrays, PINs and big numbers (C01-C09, C14-C20, C31-C35): each example is the theorem,
named by its proof, for the values given. -/
namespace Verif.Props
open Verif.Py Verif.Model Verif.Spec
open OwnerPIN (Op)

/-! C01-C03, C08, C35 -/
example := C01_signed 3 (by decide) (-8388608) (by decide) (by decide)
example := C01_s1 200 (by decide) (by decide)
example := C01_s2 65535 (by decide) (by decide)
example := C01_s4 4294967295 (by decide) (by decide)
example := C01_s1_signed (-128) (by unfold IsByte; decide)
example := C01_s2_signed (-32768) (by unfold IsShort; decide)
example := C01_s4_signed (-2147483648) (by unfold IsInt32; decide)
example := C01_u1_s1 200 (by decide) (by decide)
example := C01_s1_u1 (-56) (by unfold IsByte; decide)
example := C02_makeShort (-1) 254 255 254 (by unfold Spells; decide) (by unfold Spells; decide)
example := C02_low_bits (-1) 2 255 258 (by decide) (by decide)
example := C03_setShort_getShort [1, 2, 3, 4] 1 (-300) (by decide)
example := C03_roundtrip [1, 2, 3, 4] 2 (-300) (by decide) (by unfold IsShort; decide)
example := C03_byte_order [1, 2, 3, 4] 1 40000 (by decide)
example := C03_getShort [7, 0x12, 0xF0 - 256, 9] 1 0x12 0xF0 0x12 (0xF0 - 256) rfl rfl (by unfold Spells; decide) (by unfold Spells; decide)
example := C08_setShort_overrun_store [1, 2, 3] 2 0x1234 (by decide)
example := C35_setInt [9, 0, 0, 0, 0, 9] 1 0x1234 0x5678 (by decide)
example := C35_setInt_overrun [9, 9, 9] 1 0x1234 0x5678 (by decide)
example := C35_getInt_setInt [9, 0, 0, 0, 0, 9] 1 0x1234 0x5678 (by decide) (by unfold IsInt32; decide)
example := C35_getInt_borrow [9, 1, -1, 2, 3] 1 1 (-1) 2 3 rfl rfl rfl rfl (by unfold IsByte; decide) (by unfold IsByte; decide) (by unfold IsByte; decide)
  (by unfold IsByte; decide)
example := C35_makeInt 1 (-1) 2 (-3) (by unfold IsByte; decide) (by unfold IsByte; decide) (by unfold IsByte; decide) (by unfold IsByte; decide)
example := C35_makeInt_shorts (-2) 300 (by unfold IsShort; decide) (by unfold IsShort; decide)
example := C35_setInt_overrun_store [9, 9, 9] 1 0x1234 0x5678 (by decide) (by decide)
example := C35_sanatize [0, 127, 128, 255, -1] (by decide)

/-! C04-C09 -/
private def heap2 : Heap := Util.twoLists [1, 2, 3] [4, 5, 6, 7]
example := C04_arrayCompare [7, 1, 2] [1, 3] 1 0 2 (by decide) (by decide)
example := C04_zero_iff [7, 1, 2] [1, 2] 1 0 2 (by decide) (by decide)
example := C04_antisymm [7, 1, 2] [1, 3] 1 0 2 (by decide) (by decide)
example := C05_arrayCopy heap2 0 1 (by decide) 1 2 2 (by decide) (by decide)
example := C05_arrayCopyNonAtomic heap2 0 1 (by decide) 1 2 2 (by decide) (by decide)
example := C05_nonpositive heap2 0 1 9 (-9) (-1) (by decide)
example := C06_as_if_temporary [1, 2, 3, 4, 5] 1 0 4 (by decide) (by decide) (.inl (by decide))
example := C06_periodic [1, 2, 3, 4, 5] 0 1 3 (by decide) (by decide) (by decide)
example := C06_overlap_wrong [1, 2, 3, 4, 5] 0 1 3 (by decide) (by decide) (by decide) (by decide) (by decide)
example := C07_failed_copy heap2 0 1 (by decide) 1 0 3 (by decide) (by decide)
example := C08_negative_source heap2 0 1 0 1 2 (by decide)
example := C08_negative_dest heap2 0 1 1 1 2 (by decide)
example := C08_negative_fill [1, 2, 3, 4] 1 2 9 (by decide)
example := C08_negative_getShort [1, 2, 3, 4] 1 (by decide)
example := C08_negative_setShort [1, 2, 3, 4] 1 0x1234 (by decide)
example := C09_fill [1, 2, 3, 4] 1 2 9 (by decide)
example := C09_overrun [1, 2, 3, 4] 2 5 9 (by decide) (by decide)

/-! C14-C20 -/
private def setPIN : List Op := [.update (.str [49, 50]) 0 2, .setValidatedFlag false]
private def thePIN : OwnerPIN := (OwnerPIN.init 2 4).run setPIN
private def wrongs : List Op := [.check (.str [49, 51]) 0 2, .reset, .check (.arr [1, 2, 3, 4, 5, 6]) 0 6, .check (.arr [1]) 0 2]
private theorem wrongs_are : ∀ op ∈ wrongs, (∃ a o l, op = .check a o l) ∨ op = .reset := by
  intro op h
  simp only [wrongs, List.mem_cons, List.not_mem_nil, or_false] at h
  rcases h with rfl | rfl | rfl | rfl
  · exact .inl ⟨_, _, _, rfl⟩
  · exact .inr rfl
  · exact .inl ⟨_, _, _, rfl⟩
  · exact .inl ⟨_, _, _, rfl⟩
private theorem wrongs_harmless : ∀ op ∈ wrongs, Harmless op := by
  intro op h
  simp only [wrongs, List.mem_cons, List.not_mem_nil, or_false] at h
  rcases h with rfl | rfl | rfl | rfl <;> trivial
example := C14_counter 2 4 (by decide) (setPIN ++ wrongs)
example := C15_blocked (thePIN.run wrongs) (by decide) (by decide) wrongs wrongs_harmless
example := C15_validated_not_blocked 2 4 [.update (.str [49, 50]) 0 2] (by simp) (by decide)
example := C15_history 2 4 (by decide) (setPIN ++ wrongs) wrongs (by simp [setPIN, wrongs]) (by decide) wrongs_harmless
example := C15_check_blocked (thePIN.run wrongs) (by decide) (.str [49, 50]) 0 2
example := C16_every_answer_costs thePIN (by decide) wrongs wrongs_are (by decide)
example := C16_admissible_answered thePIN (.str [49, 50, 51]) 0 3 4 rfl (by decide)
example := C16_bound thePIN (by decide) wrongs wrongs wrongs_are (by decide) (by decide) wrongs_harmless
example := C16_at_most_t thePIN (by decide) (wrongs.take 3) (fun op h => wrongs_are op (List.mem_of_mem_take h)) (by decide) (by decide)
example := C17_string_pin 3 4 wrongs wrongs [9, 49, 50] 1 2 (by decide) (by decide) (by
  intro op h a o l e
  rcases wrongs_are op h with ⟨_, _, _, e'⟩ | e' <;> rw [e'] at e <;> cases e) [7, 7, 49, 50] 2 2 (by decide) (by decide)
example := C17_same_length 4 [1, 2] [1, 3] rfl
example := C17_no_zero 4 [1, 2] [1, 2, 3] (by decide) (by decide) (by decide) (by decide)
example := C18_accept_iff 3 (by decide) 4 3 [9, 1, 2, 3] [1, 7, 7] 1 0 (by decide) (by decide) (by decide) (by decide)
example := C18_first_byte_only 3 (by decide) 5 3 [9, 1, 2, 3] [1, 7, 7] 1 0 (by decide) (by decide) (by decide) (by decide) rfl
private def oldPIN : OwnerPIN := (OwnerPIN.init 3 8).run [.update (.str [1, 2, 3, 4, 5, 6, 7, 8]) 0 8]
private theorem oldPIN_wf : WF oldPIN 8 := ⟨rfl, rfl⟩
example := C18_full_size oldPIN 8 oldPIN_wf (by decide) (by decide) [9, 8, 7, 6, 5, 4, 3, 2, 1] [9, 8, 7, 6, 5, 4, 3, 2, 1] 1 0 (by decide) (by decide)
example := C18_right_pin_refused oldPIN 8 oldPIN_wf (by decide) [9, 8, 7] 0 3 1 (by decide) (by decide) (by decide) (by decide) (by decide) (by decide)
example := C20_update_validates oldPIN 8 oldPIN_wf [9, 8, 7] 1 2 (by decide) (by decide)
example := C19_cost thePIN (.str [49, 51]) 0 2 (by decide)
example := C19_overrun thePIN (.arr [1]) 0 2 (by decide) (by decide)
example := C19_free_only_too_long thePIN (.arr [1, 2, 3, 4, 5, 6]) 0 6 4 rfl (by decide)
example := C19_string_too_long thePIN [1, 2, 3, 4, 5, 6] 1 5 4 rfl (by decide) (by decide) (by decide)
example := C19_array_too_long thePIN [1, 2, 3, 4, 5, 6] 0 6 4 rfl (by decide) (by decide) (by decide) (by decide)

/-! C31-C34 -/
private def n5 : BigNumber := ⟨none, some 5⟩
private def n513 : BigNumber := ⟨some 4, some 513⟩
example := C31_hex n5 [7, 1, -1, 255] 1 3 [1, 255, 255] (by decide) (by decide) (by simp [SpellsAll, Spells, range])
example := C31_bcd n5 [0, 0x12, -103] 1 2 [1, 2, 9, 9] (by decide) (by decide) (by simp [SpellsBCD, Spells, range])
example := C31_null n5 3 2 1 (by decide)
example := C31_unknown_format n5 [1, 2] 0 2 7 (by decide) (by decide)
example := C32_succeeds_iff n513 513 rfl [9, 9, 9] 1 2
example := C32_hex n513 513 rfl [9, 9, 9] 1 2 (by decide) (by decide)
example := C32_bcd n513 513 rfl [9, 9, 9] 1 2 (by decide) (by decide)
example := C32_too_big n513 513 rfl [9, 9, 9] 1 1
example := C32_out_of_range n513 513 rfl [9, 9, 9] 2 2 (by decide) (by decide)
example := C32_init_toBytes n513 n5 513 rfl [9, 9, 9] [9, 2, 1] 1 2 HEX (.inl rfl) (by decide) (by decide +kernel)
example := C32_toBytes_init_hex n5 [7, 1, -1, 5] [0, 0, 0, 0] 1 1 3 (by decide) (by decide) (by decide) (by unfold Bytes IsByte; decide)
example := C32_toBytes_init_bcd n5 [0, 0x12, -103] [0, 0, 0, 0] 1 2 2 [1, 2, 9, 9] (by decide) (by decide) (by decide) (by unfold Bytes IsByte; decide)
  (by simp [SpellsBCD, Spells, range])
example := C33_bad_operand n5 n513 (some [1, 2]) 0 3 HEX _ rfl
example := C33_uninitialised ⟨none, none⟩ rfl [1, 2] 0 2 [1, 2] (by decide) (by decide) (by simp [SpellsAll, Spells, range])
example := C33_negative_written_as_zero ⟨none, some (-5)⟩ (-5) rfl (by decide) [7, 7, 7] 1 2 HEX (.inl rfl) (by decide)
example := C34_compare n5 n513 5 513 rfl rfl
example := C34_antisymmetric n5 n513 (by decide) (by decide)
example := C34_transitive n5 n513 n513 (by decide) (by decide) (by decide) (by decide) (by decide)
example := C34_uninitialised n5 ⟨none, none⟩ (by decide) rfl

end Verif.Props
