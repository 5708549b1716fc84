import Verif.Props.AID
import Verif.Props.AIDNeg
import Verif.Props.NegLengths
import Verif.Props.OffsetsWrap
import Verif.Props.APDUErr
import Verif.Props.APDUParse
import Verif.Props.APDUSend
import Verif.Props.Exchange
namespace Verif.Props
open Verif.Py Verif.Model Verif.Spec Verif.Model.APDU APDUHist

/-! # Concrete cases for C10 to C13, C21 to C29, C82, C96, C97, C102 and C105: each theorem applied to values that meet its hypotheses -/

example := C10_valid [9, 1, 2, 3, 4, 5, 6] 1 5 ⟨[1, 2, 3, 4, 5]⟩ (by decide)
example := C10_complete [1, 2, 3, 4, 5, 6] (by decide) (by decide)
example := C11_roundtrip ⟨[1, 2, 3, 4, 5]⟩ (by unfold ValidAID; decide) [0, 0, 0, 0, 0, 0, 7] 1 (by decide)
example := C13_documented_domain ⟨[1, 2, 3, 4, 5]⟩ 1 0 2 [0, 0] (by decide) (by decide) (by decide)
example := C96_construct_inside [1, 2, 3, 4, 5, 6, 7, 8] 6 5 (by decide) (by decide) (by decide) (by decide)
example := C96_construct_empty [1, 2, 3, 4, 5, 6, 7, 8] 5 5 (by decide) (by decide) (by decide) (by decide) (by decide)
example := C96_construct_length [1, 2, 3, 4, 5, 6, 7, 8] 3 10 (by decide) ⟨[6, 7]⟩ (by decide)
example := C96_equals ⟨[1, 2, 3, 4, 5]⟩ [1, 2, 3, 4, 5, 0] 6 5 (by decide) (by decide) (by decide)
example := C96_getBytes ⟨[1, 2, 3, 4, 5]⟩ [9, 9, 9, 9, 8, 8] 2 (by decide) (by decide) (by decide)
example := C96_getBytes_length ⟨[1, 2, 3, 4, 5]⟩ (by decide) [9, 9, 9, 9, 8, 8] [9, 9, 9, 9, 1, 2, 3, 4, 5, 8, 8] 2 (by decide) 5 (by decide)

example := C102_aid_equals ⟨[1, 2, 3, 4, 5]⟩ [9, 1, 2, 3, 4, 5, 8, 7] 1 3 (by decide)
example := C102_aid_found ⟨[1, 2, 3, 4, 5]⟩ [9] [8, 7] (by decide)
example := C102_aid_partial_equals ⟨[1, 2, 3, 4, 5]⟩ [1, 2, 3, 4, 77] 0 1 (by decide)
theorem wPinLen : (((OwnerPIN.init 3 4).update (.str [49, 50, 51, 52]) 0 4).2).maxpinsize = (4 : Nat) ∧
    (((OwnerPIN.init 3 4).update (.str [49, 50, 51, 52]) 0 4).2).pin.length = 4 := by decide
example := C102_pin_update _ 4 wPinLen.1 wPinLen.2 (.arr [9, 9, 9]) 0 2 (by decide) (by decide)
example := C102_pin_then_empty _ 4 wPinLen.1 wPinLen.2 (by decide) (.arr [9, 9, 9]) 0 2 (by decide) (by decide) (by decide) (by decide) [5, 6] 1 (by decide)
example := C102_pin_check _ 4 wPinLen.1 (by decide) (.arr [9, 9]) 0 5 (by decide)
example := C102_random (fun i => i * 7) [1, 2, 3] 1 2 (by decide)
example := C102_bignumber ⟨none, some 258⟩ [1, 2] 0 1 (by decide) 2 (.inr rfl)
example := C102_tlv true ⟨some 0, true, some 16, 1⟩ [1, 2, 3] 1 1 (by decide)

example := C97_random (fun i => i * 7) [1, 2, 3] (-2) 3 (by decide)
example := C97_toBytes ⟨none, some 258⟩ 258 rfl [9, 9, 9] (-1) 2 (by decide) (by decide)
example := C97_bignumber_init_fails ⟨none, none⟩ [1, 2] (-3) 2 2 (by decide) (.inr rfl)

theorem wAny : AnyBytes [0, -80, 0, 0, 5] := by intro x hx; simp at hx; omega
theorem wRead : ∃ a, APDU.init [0, -80, 0, 0, 5] = .ok a := ⟨_, init_A _ rfl⟩
theorem wCmd : ShortCmd [0, -92, 4, 0] [-86, -69] (some 256) [0, -92, 4, 0, 2, -86, -69, 0] :=
  ⟨rfl, [2], [0], .inr ⟨by simp, by simp, 2, rfl, by simp [Spells]⟩,
    .inr ⟨256, rfl, by omega, by omega, 0, rfl, by simp [Spells]⟩, rfl⟩
theorem wExt : Ext4 [0, 0, 0, 0] [1, 2, 3] 257 [0, 0, 0, 0, 0, 0, 3, 1, 2, 3, 1, 1] :=
  ⟨rfl, by simp, by simp, by omega, by omega, 0, 3, 1, 1, by simp [Spells2, Spells], by simp [Spells2, Spells], rfl⟩
theorem wAcc : Accepted [0, -92, 4, 0, 2, -86, -69, 0] [-86, -69] := .short wCmd (by simp)

/-- The object made of `00 B0 00 00 05`, and of `00 A4 04 00 02 AA BB 00`. -/
theorem wObj : ∃ a, APDU.init [0, -80, 0, 0, 5] = .ok a ∧ 3 ≤ (a.run [.setOutgoing]).getCurrentState ∧ a.getCurrentState < 3 ∧ a.Ne = some 5 ∧
    ((a.run [.setOutgoing]).step .setOutgoing).1 = .error (.apdu 2) := ⟨_, init_A _ rfl, by decide +kernel, by decide +kernel, by decide +kernel, by decide +kernel⟩
set_option maxRecDepth 4000 in
theorem wObj4 : ∃ a, APDU.init [0, -92, 4, 0, 2, -86, -69, 0] = .ok a ∧ ((a.run []).step .setIncomingAndReceive).1 = .ok 2 :=
  ⟨_, rfl, by decide +kernel⟩
example := C105_apdu wAny wRead.choose_spec
example := C105_apdu_kinds wAny wObj.choose_spec.1 [.setOutgoing] .setOutgoing (.apdu 2) wObj.choose_spec.2.2.2.2
example := C105_next_block wAcc [.setOutgoing] 5 (by decide)
example := C25_full_iff (.inl wAcc) [.setIncomingAndReceive, .setOutgoing]
example := C25_counts (by intro x hx; simp at hx; omega) wObj4.choose_spec.1 [] .setIncomingAndReceive (.inl rfl) 2 wObj4.choose_spec.2
example := C26_no_more_receiving wAny wObj.choose_spec.1 [.setOutgoing] [.setOutgoingLength 2] wObj.choose_spec.2.1 .setIncomingAndReceive (.inl rfl)
example := C26_rejected_unchanged _ _ _ wObj.choose_spec.2.2.2.2 (by decide) (by rintro _ _ ⟨⟩)
example := C26_set_outgoing_and_send_rejected _ 5 0 6 wObj.choose_spec.2.2.1 wObj.choose_spec.2.2.2.1 (by decide)
example := C28_set_outgoing_length _ 300 wObj.choose_spec.2.1
example := C28_before_outgoing _ wObj.choose_spec.2.2.1 3 0 1
example := C28_send_bytes_long_before wAny wObj.choose_spec.1 [] wObj.choose_spec.2.2.1 [1, 2] 0 1
example := C27_set_outgoing_and_send wAny wObj.choose_spec.1 [] wObj.choose_spec.2.2.1 0 4 (fun ne h => by have := (Option.some.inj (wObj.choose_spec.2.2.2.1.symm.trans h)); omega) (by decide) (by decide)
example := C102_outgoing_length wAny wObj.choose_spec.1 [.setOutgoing] 2 (by decide) wObj.choose_spec.2.1
example := C102_command_sent_back wAny wObj.choose_spec.1 2 (by decide)
example := C25_minus_one [0, -80, 0, 0, 5] rfl
example := C25_case2 [0, -80, 0, 0, 5] rfl [.setIncomingAndReceive, .receiveBytes 5]
example := C26_forward wAny wRead.choose_spec [.setIncomingAndReceive] [.setOutgoing, .setOutgoingLength 2]
example := C26_set_incoming_once wAny wRead.choose_spec [.setIncomingAndReceive]
example := C26_set_outgoing_once wAny wRead.choose_spec [.setOutgoing]
example := C21_short wCmd
example := C21_unambiguous wCmd wCmd
example := C22_case4 wExt (by unfold GoodLe; omega)
example := C22_case3_refused (hdr := [0, 0, 0, 0]) (data := [1, 2]) (bytes := [0, 0, 0, 0, 0, 0, 2, 1, 2])
  ⟨rfl, by simp, by simp, 0, 2, by simp [Spells2, Spells], rfl⟩
example := C22_case2 (hdr := [0, -80, 0, 0]) (n := 512) (bytes := [0, -80, 0, 0, 0, 2, 0]) ⟨rfl, by omega, by omega, 2, 0, by simp [Spells2, Spells], rfl⟩
example := C23_too_short [1, 2, 3] (by decide)
example := C23_short [0, 0, 0, 0, 5, 1, 2] (by intro x hx; simp at hx; omega) (by decide) (.inr (by decide))
example := C23_six [0, 0, 0, 0, 0, 9] rfl rfl
example := C23_constructor_total [0, 0, 0, 0, 0, 0, 1, 7, 0] (by intro x hx; simp at hx; omega) (by decide) (by decide)
example := C23_extended [0, 0, 0, 0, 0, 0, 1, 7, 0] 1 0 0 0 0 0 1 [7, 0] rfl (by decide) (by simp [Spells2, Spells])
example := C23_malformed_accepted [0, 0, 0, 0, 0, 0, 3, 9] 3 0 0 0 0 0 3 [9] rfl (by decide) (by simp [Spells2, Spells]) (.inl rfl)
example := C29_command_cla wAny wRead.choose_spec [.setOutgoing] (by simp [isSend]) 0 0 rfl (by simp [Spells])
example := C29_channel_initial wAny wRead.choose_spec 0 0 rfl (by simp [Spells])
example := C82_echo wCmd (by intro x hx; simp at hx; omega) (by decide) (by decide) (by rintro _ ⟨⟩; decide) 3 (by decide)
example := C82_echo_extended wExt (by unfold GoodLe; omega) (by intro x hx; simp at hx; omega) (by decide) (by decide) 4 (by decide)
set_option maxRecDepth 4000 in
example := C82_too_big (hdr := [0, 1, 2, 3]) (data := List.replicate 253 7) (ne := none) (bytes := [0, 1, 2, 3, -3] ++ List.replicate 253 7)
  ⟨rfl, [-3], [], .inr ⟨by simp, by simp, -3, rfl, by simp [Spells]⟩, .inl ⟨rfl, rfl⟩, rfl⟩ (by simp) 254 (by simp)

end Verif.Props
