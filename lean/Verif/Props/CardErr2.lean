import Verif.Props.CardErr
/-! Property C122 (second half): every exception in the table is raised by some call on some card a program leaves. -/
namespace Verif.Props
open Verif.Py Verif.Model Verif.Model.Card Verif.Spec.Card

namespace CErr
/-- The program runs, the call is made on objects of the right kinds with free places for the new ones, and it raises `e`. -/
def shows (env : CryptoEnv) (prog : List Step) (s : Step) (e : Err) : Bool :=
  match run env 9 blank prog with
  | none => false
  | some (_, w) =>
    (needs s).all (fun x => decide (kind (w x.1) ∈ x.2)) && decide (makes s).Nodup && (makes s).all (fun r => decide (kind (w r) = .free)) &&
    match step env 9 w s with
    | some (.error e', _) => decide (e = e')
    | _ => false

theorem kind_free {o : Obj} (h : kind o = .free) : o = .free := by
  cases o <;> simp [kind] at h ⊢
  rename_i k; cases k <;> simp at h
  split at h <;> cases h

theorem of_shows {s : Step} {e : Err} (env : CryptoEnv) (prog : List Step) (s' : Step) (h : shows env prog s' e = true) (hs : sameCall s s') :
    ∃ env fuel prog outs w s' w', sameCall s s' ∧ run env fuel blank prog = some (outs, w) ∧ Fits w s' ∧ step env fuel w s' = some (.error e, w') := by
  unfold shows at h
  split at h
  · cases h
  · rename_i outs w hr
    simp only [Bool.and_eq_true, List.all_eq_true, decide_eq_true_eq] at h
    obtain ⟨⟨⟨h1, h2⟩, h3⟩, h4⟩ := h
    split at h4
    · rename_i e' w' he
      simp only [decide_eq_true_eq] at h4; subst h4
      exact ⟨env, 9, prog, outs, w, s', w', hs, hr, ⟨h1, h2, fun r hr => kind_free (h3 r hr)⟩, he⟩
    · cases h4

/-- An RSA library whose operations give 512 (as bytes: 0, 2); `lib` tells whether it can be imported. -/
def demo (lib : Bool) : CryptoEnv := ⟨lib, true, ⟨fun _ _ => .ok 512, fun _ _ => .ok 512⟩, fun _ _ => [1, 2, 3]⟩

/-- An APDU at 2 (buffer at 3) with the bytes `l`, at 1. -/
def apduOf (l : List Int) : List Step := [.newArray 1 l, .newAPDU 2 3 1]
/-- A tag at 2 whose `init` was refused, a buffer at 1 with one cell. -/
def badTag : List Step := [.newArray 1 [0], .newTag 2 true, .tagInitArray 2 1 0]
/-- TLVs at 4 (constructed, its tag at 5) and 6 (its tag, a copy of that at 2, at 7, and `n` bytes from the list at 1 as its value). -/
def twoTLVs (l : List Int) (n : Int) (more : List Step) : List Step :=
  [.newArray 1 l, .newTag 2 true] ++ more ++ [.newTLV 4 true, .newTLV 6 false, .tlvInit 4 5 2 1 0 n, .tlvInit 6 7 2 1 0 n]
def pairAndKeys : List Step := [.newPair 1 2 3 1 16, .newArray 4 [1, 2, 3, 4]]


theorem pin_any (n : Int) (s : Step) (hs : sameCall s (.pinUpdate 1 (.inl []) 0 n)) :
    ∃ env fuel prog outs w s' w', sameCall s s' ∧ run env fuel blank prog = some (outs, w) ∧ Fits w s' ∧ step env fuel w s' = some (.error (.pin n), w') := by
  have hu : OwnerPIN.update (OwnerPIN.init 3 (n - 1)) (.str []) 0 n = (.error (.pin n), OwnerPIN.init 3 (n - 1)) := by
    have : n > n - 1 := by omega
    simp [OwnerPIN.update, OwnerPIN.init, this]
  have hw : put blank [(1, .pin (OwnerPIN.init 3 (n - 1)))] 1 = .pin (OwnerPIN.init 3 (n - 1)) := rfl
  have hstep : step (demo true) 0 (put blank [(1, .pin (OwnerPIN.init 3 (n - 1)))]) (.pinUpdate 1 (.inl []) 0 n) =
      some (.error (.pin n), put (put blank [(1, .pin (OwnerPIN.init 3 (n - 1)))]) [(1, .pin (OwnerPIN.init 3 (n - 1)))]) := by
    simp only [step, sem, onPinArg, onPIN, hw, OwnerPIN.step, pinOut, hu]; rfl
  refine ⟨demo true, 0, [.newPIN 1 3 (n - 1)], [.ok (.ref 1)], put blank [(1, .pin (OwnerPIN.init 3 (n - 1)))], .pinUpdate 1 (.inl []) 0 n, _, hs, rfl, ⟨?_, ?_⟩, hstep⟩
  · intro x hx
    simp only [needs, Sum.elim_inl, List.mem_cons, List.not_mem_nil, or_false] at hx; subst hx
    simp [hw, kind]
  · exact ⟨by simp [makes], by simp [makes]⟩
end CErr

open CErr in
/-- **C122** (and each of these). Every exception the table allows a call to raise is raised by that call, with some arguments, on the card some
program leaves. -/
theorem C122_each {s : Step} {e : Err} (h : raises s e) :
    ∃ env fuel prog outs w s' w', sameCall s s' ∧ run env fuel blank prog = some (outs, w) ∧ Fits w s' ∧ step env fuel w s' = some (.error e, w') := by
  cases s
  all_goals first | exact False.elim h | skip
  case load =>
    obtain rfl : e = .indexError := h
    exact of_shows (demo true) ([.newArray 1 []]) (.load 1 0) (by decide +kernel) ⟨rfl, trivial⟩
  case store =>
    obtain rfl : e = .indexError := h
    exact of_shows (demo true) ([.newArray 1 []]) (.store 1 0 0) (by decide +kernel) ⟨rfl, trivial⟩
  case arrayCopy =>
    obtain rfl : e = .arrayIndexOutOfBounds := h
    exact of_shows (demo true) ([.newArray 1 []]) (.arrayCopy 1 0 1 0 1) (by decide +kernel) ⟨rfl, trivial⟩
  case arrayCopyNonAtomic =>
    obtain rfl : e = .nameError := h
    exact of_shows (demo true) ([.newArray 1 []]) (.arrayCopyNonAtomic 1 0 1 0 1) (by decide +kernel) ⟨rfl, trivial⟩
  case arrayCompare =>
    obtain rfl : e = .arrayIndexOutOfBounds := h
    exact of_shows (demo true) ([.newArray 1 []]) (.arrayCompare 1 0 1 0 1) (by decide +kernel) ⟨rfl, trivial⟩
  case arrayFill =>
    obtain rfl : e = .arrayIndexOutOfBounds := h
    exact of_shows (demo true) ([.newArray 1 []]) (.arrayFill 1 0 1 0) (by decide +kernel) ⟨rfl, trivial⟩
  case getShort =>
    obtain rfl : e = .arrayIndexOutOfBounds := h
    exact of_shows (demo true) ([.newArray 1 []]) (.getShort 1 0) (by decide +kernel) ⟨rfl, trivial⟩
  case setShort =>
    obtain rfl : e = .arrayIndexOutOfBounds := h
    exact of_shows (demo true) ([.newArray 1 []]) (.setShort 1 0 0) (by decide +kernel) ⟨rfl, trivial⟩
  case getInt =>
    obtain rfl : e = .indexError := h
    exact of_shows (demo true) ([.newArray 1 []]) (.getInt 1 0) (by decide +kernel) ⟨rfl, trivial⟩
  case setInt =>
    obtain rfl : e = .indexError := h
    exact of_shows (demo true) ([.newArray 1 []]) (.setInt 1 0 0 0) (by decide +kernel) ⟨rfl, trivial⟩
  case availableMemory =>
    obtain rfl : e = .nameError := h
    exact of_shows (demo true) ([.newArray 1 []]) (.availableMemory 1 0 0) (by decide +kernel) ⟨rfl, trivial⟩
  case random =>
    obtain rfl | rfl := h
    · exact of_shows (demo true) ([.newArray 1 []]) (.random (fun _ => 0) 1 0 0) (by decide +kernel) ⟨rfl, trivial⟩
    · exact of_shows (demo true) ([.newArray 1 []]) (.random (fun _ => 0) 1 0 1) (by decide +kernel) ⟨rfl, trivial⟩
  case newAPDU =>
    obtain rfl | rfl := h
    · exact of_shows (demo true) ([.newArray 1 []]) (.newAPDU 2 3 1) (by decide +kernel) ⟨rfl, trivial⟩
    · exact of_shows (demo true) ([.newArray 1 [0,0,0,0,0,0]]) (.newAPDU 2 3 1) (by decide +kernel) ⟨rfl, trivial⟩
  case apdu a op =>
    cases op
    case setIncomingAndReceive =>
      obtain rfl | rfl | rfl | rfl := h
      · exact of_shows (demo true) (apduOf [0,0,0,0] ++ [.apdu 2 .setOutgoing]) (.apdu 2 .setIncomingAndReceive) (by decide +kernel) ⟨rfl, rfl⟩
      · exact of_shows (demo true) (apduOf [0,0,0,0,5,1,2]) (.apdu 2 .setIncomingAndReceive) (by decide +kernel) ⟨rfl, rfl⟩
      · exact of_shows (demo true) (apduOf [0,0,0,0,1,7] ++ [.newAPDU 4 5 3, .apdu 4 .setOutgoing, .apdu 4 (.sendBytes 257 256)]) (.apdu 2 .setIncomingAndReceive) (by decide +kernel) ⟨rfl, rfl⟩
      · exact of_shows (demo true) (apduOf [0,0,0,0,0,0]) (.apdu 2 .setIncomingAndReceive) (by decide +kernel) ⟨rfl, rfl⟩
    case receiveBytes =>
      obtain rfl | rfl := h
      · exact of_shows (demo true) (apduOf [0,0,0,0]) (.apdu 2 (.receiveBytes 0)) (by decide +kernel) ⟨rfl, rfl⟩
      · exact of_shows (demo true) (apduOf ([0,0,0,0,200] ++ List.replicate 200 1) ++ [.apdu 2 .setIncomingAndReceive]) (.apdu 2 (.receiveBytes 300)) (by decide +kernel) ⟨rfl, rfl⟩
    case setOutgoing =>
      obtain rfl | rfl := h
      · exact of_shows (demo true) (apduOf [0,0,0,0] ++ [.apdu 2 .setOutgoing]) (.apdu 2 .setOutgoing) (by decide +kernel) ⟨rfl, rfl⟩
      · exact of_shows (demo true) (apduOf [0,0,0,0,0,0]) (.apdu 2 .setOutgoing) (by decide +kernel) ⟨rfl, rfl⟩
    case setOutgoingLength =>
      obtain rfl | rfl | rfl := h
      · exact of_shows (demo true) (apduOf [0,0,0,0]) (.apdu 2 (.setOutgoingLength 0)) (by decide +kernel) ⟨rfl, rfl⟩
      · exact of_shows (demo true) (apduOf [0,0,0,0,1] ++ [.apdu 2 .setOutgoing]) (.apdu 2 (.setOutgoingLength 2)) (by decide +kernel) ⟨rfl, rfl⟩
      · exact of_shows (demo true) (apduOf [0,0,0,0,0,0] ++ [.apdu 2 .setOutgoing]) (.apdu 2 (.setOutgoingLength 2)) (by decide +kernel) ⟨rfl, rfl⟩
    case sendBytes =>
      obtain rfl | rfl | rfl := h
      · exact of_shows (demo true) (apduOf [0,0,0,0]) (.apdu 2 (.sendBytes 0 0)) (by decide +kernel) ⟨rfl, rfl⟩
      · exact of_shows (demo true) (apduOf [0,0,0,0] ++ [.apdu 2 .setOutgoing]) (.apdu 2 (.sendBytes 0 300)) (by decide +kernel) ⟨rfl, rfl⟩
      · exact of_shows (demo true) (apduOf [0,0,0,0,0,0] ++ [.apdu 2 .setOutgoing]) (.apdu 2 (.sendBytes 0 0)) (by decide +kernel) ⟨rfl, rfl⟩
    case sendBytesLong =>
      obtain rfl | rfl := h
      · exact of_shows (demo true) (apduOf [0,0,0,0] ++ [.apdu 2 .setOutgoing]) (.apdu 2 (.sendBytesLong [] 0 300)) (by decide +kernel) ⟨rfl, rfl⟩
      · exact of_shows (demo true) (apduOf [0,0,0,0]) (.apdu 2 (.sendBytesLong [] 0 0)) (by decide +kernel) ⟨rfl, rfl⟩
    case setOutgoingAndSend =>
      obtain rfl | rfl | rfl | rfl := h
      · exact of_shows (demo true) (apduOf [0,0,0,0] ++ [.apdu 2 .setOutgoing]) (.apdu 2 (.setOutgoingAndSend 0 0)) (by decide +kernel) ⟨rfl, rfl⟩
      · exact of_shows (demo true) (apduOf [0,0,0,0,1]) (.apdu 2 (.setOutgoingAndSend 0 2)) (by decide +kernel) ⟨rfl, rfl⟩
      · exact of_shows (demo true) (apduOf [0,0,0,0]) (.apdu 2 (.setOutgoingAndSend 0 300)) (by decide +kernel) ⟨rfl, rfl⟩
      · exact of_shows (demo true) (apduOf [0,0,0,0,0,0]) (.apdu 2 (.setOutgoingAndSend 0 0)) (by decide +kernel) ⟨rfl, rfl⟩
    case poke =>
      obtain rfl : e = .indexError := h
      exact of_shows (demo true) (apduOf [0,0,0,0]) (.apdu 2 (.poke 300 0)) (by decide +kernel) ⟨rfl, rfl⟩
  case sendBytesLong =>
    obtain rfl | rfl := h
    · exact of_shows (demo true) (apduOf [0,0,0,0] ++ [.apdu 2 .setOutgoing]) (.sendBytesLong 2 1 0 300) (by decide +kernel) ⟨rfl, trivial⟩
    · exact of_shows (demo true) (apduOf [0,0,0,0]) (.sendBytesLong 2 1 0 0) (by decide +kernel) ⟨rfl, trivial⟩
  case askAPDU a q =>
    cases q
    all_goals first | exact False.elim h | skip
    case isCommandChainingCLA =>
      obtain rfl : e = .indexError := h
      exact of_shows (demo true) (apduOf [0,0,0,0] ++ [.apdu 2 .setOutgoing, .apdu 2 (.sendBytes 257 256)]) (.askAPDU 2 .isCommandChainingCLA) (by decide +kernel) ⟨rfl, rfl⟩
    case isISOInterindustryCLA =>
      obtain rfl : e = .indexError := h
      exact of_shows (demo true) (apduOf [0,0,0,0] ++ [.apdu 2 .setOutgoing, .apdu 2 (.sendBytes 257 256)]) (.askAPDU 2 .isISOInterindustryCLA) (by decide +kernel) ⟨rfl, rfl⟩
    case incomingLength =>
      obtain rfl : e = .attributeError := h
      exact of_shows (demo true) (apduOf [0,0,0,0,0,0]) (.askAPDU 2 .incomingLength) (by decide +kernel) ⟨rfl, rfl⟩
  case currentAPDUBuffer =>
    obtain rfl : e = .attributeError := h
    exact of_shows (demo true) ([]) (.currentAPDUBuffer) (by decide +kernel) ⟨rfl, trivial⟩
  case claChannel =>
    obtain rfl : e = .attributeError := h
    exact of_shows (demo true) ([]) (.claChannel) (by decide +kernel) ⟨rfl, trivial⟩
  case tagGetInstance =>
    obtain rfl : e = .arrayIndexOutOfBounds := h
    exact of_shows (demo true) ([.newArray 1 []]) (.tagGetInstance 2 1 0) (by decide +kernel) ⟨rfl, trivial⟩
  case tagInitArray =>
    obtain rfl | rfl := h
    · exact of_shows (demo true) ([.newArray 1 [0], .newTag 2 true]) (.tagInitArray 2 1 0) (by decide +kernel) ⟨rfl, trivial⟩
    · exact of_shows (demo true) ([.newArray 1 [], .newTag 2 true]) (.tagInitArray 2 1 0) (by decide +kernel) ⟨rfl, trivial⟩
  case tagToBytes =>
    obtain rfl | rfl := h
    · exact of_shows (demo true) ([.newArray 1 [], .newTag 2 true]) (.tagToBytes 2 1 0) (by decide +kernel) ⟨rfl, trivial⟩
    · exact of_shows (demo true) (badTag) (.tagToBytes 2 1 0) (by decide +kernel) ⟨rfl, trivial⟩
  case askTagStatic r off q =>
    cases q
    · obtain rfl : e = .indexError := h
      exact of_shows (demo true) ([.newArray 1 []]) (.askTagStatic 1 0 .size) (by decide +kernel) ⟨rfl, rfl⟩
    · obtain rfl : e = .arrayIndexOutOfBounds := h
      exact of_shows (demo true) ([.newArray 1 []]) (.askTagStatic 1 0 .isConstructed) (by decide +kernel) ⟨rfl, rfl⟩
    · obtain rfl : e = .arrayIndexOutOfBounds := h
      exact of_shows (demo true) ([.newArray 1 []]) (.askTagStatic 1 0 .tagClass) (by decide +kernel) ⟨rfl, rfl⟩
    · obtain rfl : e = .arrayIndexOutOfBounds := h
      exact of_shows (demo true) ([.newArray 1 []]) (.askTagStatic 1 0 .tagNumber) (by decide +kernel) ⟨rfl, rfl⟩
  case tagToBytesStatic =>
    obtain rfl : e = .indexError := h
    exact of_shows (demo true) ([.newArray 1 []]) (.tagToBytesStatic 0 false 1 1 0) (by decide +kernel) ⟨rfl, trivial⟩
  case lengthStatic =>
    obtain rfl | rfl := h
    · exact of_shows (demo true) ([.newArray 1 []]) (.lengthStatic 1 0) (by decide +kernel) ⟨rfl, trivial⟩
    · exact of_shows (demo true) ([.newArray 1 [1]]) (.lengthStatic 1 0) (by decide +kernel) ⟨rfl, trivial⟩
  case valueOffset =>
    obtain rfl | rfl := h
    · exact of_shows (demo true) ([.newArray 1 []]) (.valueOffset 1 0) (by decide +kernel) ⟨rfl, trivial⟩
    · exact of_shows (demo true) ([.newArray 1 [1]]) (.valueOffset 1 0) (by decide +kernel) ⟨rfl, trivial⟩
  case findStatic =>
    obtain rfl | rfl | rfl := h
    · exact of_shows (demo true) ([.newArray 1 []]) (.findStatic 1 0 none 0) (by decide +kernel) ⟨rfl, trivial⟩
    · exact of_shows (demo true) ([.newArray 1 [1]]) (.findStatic 1 0 none 0) (by decide +kernel) ⟨rfl, trivial⟩
    · exact of_shows (demo true) ([.newArray 1 [4, 1, 7]]) (.findStatic 1 0 (some 1) 0) (by decide +kernel) ⟨rfl, trivial⟩
  case findNextStatic =>
    obtain rfl | rfl | rfl | rfl := h
    · exact of_shows (demo true) ([.newArray 1 []]) (.findNextStatic 1 0 0 none 0) (by decide +kernel) ⟨rfl, trivial⟩
    · exact of_shows (demo true) ([.newArray 1 [1]]) (.findNextStatic 1 0 0 none 0) (by decide +kernel) ⟨rfl, trivial⟩
    · exact of_shows (demo true) ([.newArray 1 [0x30, 2, 4, 0]]) (.findNextStatic 1 0 0 none 0) (by decide +kernel) ⟨rfl, trivial⟩
    · exact of_shows (demo true) ([.newArray 1 [4, 1, 7]]) (.findNextStatic 1 0 0 none 0) (by decide +kernel) ⟨rfl, trivial⟩
  case tlvGetInstance =>
    obtain rfl | rfl := h
    · exact of_shows (demo true) ([.newArray 1 []]) (.tlvGetInstance 2 3 1 0 none) (by decide +kernel) ⟨rfl, trivial⟩
    · exact of_shows (demo true) ([.newArray 1 [1]]) (.tlvGetInstance 2 3 1 0 none) (by decide +kernel) ⟨rfl, trivial⟩
  case tlvInitArray =>
    obtain rfl | rfl := h
    · exact of_shows (demo true) ([.newArray 1 [], .newTLV 2 true]) (.tlvInitArray 2 1 0 0) (by decide +kernel) ⟨rfl, trivial⟩
    · exact of_shows (demo true) ([.newArray 1 [1], .newTLV 2 true]) (.tlvInitArray 2 1 0 0) (by decide +kernel) ⟨rfl, trivial⟩
  case tlvSize =>
    obtain rfl : e = .attributeError := h
    exact of_shows (demo true) ([.newTLV 2 true]) (.tlvSize 2) (by decide +kernel) ⟨rfl, trivial⟩
  case append =>
    obtain rfl | rfl | rfl | rfl | rfl := h
    · exact of_shows (demo true) (twoTLVs [7] 1 [.tagInitNumber 2 0 1]) (.append 4 6) (by decide +kernel) ⟨rfl, trivial⟩
    · exact of_shows (demo true) (twoTLVs [] 0 [.tagInitNumber 2 0 1]) (.append 4 6) (by decide +kernel) ⟨rfl, trivial⟩
    · exact of_shows (demo true) (twoTLVs [] 200 [.tagInitNumber 2 0 1]) (.append 4 6) (by decide +kernel) ⟨rfl, trivial⟩
    · exact of_shows (demo true) (twoTLVs [0] 1 [.tagInitArray 2 1 0]) (.append 4 6) (by decide +kernel) ⟨rfl, trivial⟩
    · exact of_shows (demo true) ([.newTLV 2 true]) (.append 2 2) (by decide +kernel) ⟨rfl, trivial⟩
  case appendStatic =>
    obtain rfl | rfl | rfl | rfl := h
    · exact of_shows (demo true) ([.newArray 1 []]) (.appendStatic 1 0 1 0) (by decide +kernel) ⟨rfl, trivial⟩
    · exact of_shows (demo true) ([.newArray 1 [1]]) (.appendStatic 1 0 1 0) (by decide +kernel) ⟨rfl, trivial⟩
    · exact of_shows (demo true) ([.newArray 1 [1, 0], .newArray 2 [33, 127]]) (.appendStatic 1 0 2 0) (by decide +kernel) ⟨rfl, trivial⟩
    · exact of_shows (demo true) ([.newArray 1 [1, 0]]) (.appendStatic 1 0 1 0) (by decide +kernel) ⟨rfl, trivial⟩
  case find =>
    obtain rfl | rfl | rfl := h
    · exact of_shows (demo true) (twoTLVs [] 5 []) (.find 8 9 4 none) (by decide +kernel) ⟨rfl, trivial⟩
    · exact of_shows (demo true) (twoTLVs [1] 5 []) (.find 8 9 4 none) (by decide +kernel) ⟨rfl, trivial⟩
    · exact of_shows (demo true) (twoTLVs [1] 5 []) (.find 8 9 6 none) (by decide +kernel) ⟨rfl, trivial⟩
  case findNext =>
    obtain rfl | rfl | rfl | rfl := h
    · exact of_shows (demo true) (twoTLVs [] 5 []) (.findNext 8 9 4 none 6 0) (by decide +kernel) ⟨rfl, trivial⟩
    · exact of_shows (demo true) (twoTLVs [1] 5 []) (.findNext 8 9 4 none 6 0) (by decide +kernel) ⟨rfl, trivial⟩
    · exact of_shows (demo true) (twoTLVs [1] 5 []) (.findNext 8 9 6 none 6 0) (by decide +kernel) ⟨rfl, trivial⟩
    · exact of_shows (demo true) ([.newTLV 2 true]) (.findNext 8 9 2 none 2 0) (by decide +kernel) ⟨rfl, trivial⟩
  case getValue =>
    obtain rfl | rfl := h
    · exact of_shows (demo true) (twoTLVs [] 5 []) (.getValue 6 1 0) (by decide +kernel) ⟨rfl, trivial⟩
    · exact of_shows (demo true) (twoTLVs [] 5 []) (.getValue 4 1 0) (by decide +kernel) ⟨rfl, trivial⟩
  case replaceValue =>
    obtain rfl | rfl := h
    · exact of_shows (demo true) (twoTLVs [] 5 []) (.replaceValue 6 1 0 1) (by decide +kernel) ⟨rfl, trivial⟩
    · exact of_shows (demo true) (twoTLVs [] 5 []) (.replaceValue 4 1 0 1) (by decide +kernel) ⟨rfl, trivial⟩
  case tlvToBytes =>
    obtain rfl | rfl | rfl | rfl | rfl := h
    · exact of_shows (demo true) (twoTLVs [7] 1 [] ++ [.newArray 8 [0, 0]]) (.tlvToBytes 6 8 0) (by decide +kernel) ⟨rfl, trivial⟩
    · exact of_shows (demo true) (twoTLVs [] 0 []) (.tlvToBytes 6 1 0) (by decide +kernel) ⟨rfl, trivial⟩
    · exact of_shows (demo true) (twoTLVs [0] 200 []) (.tlvToBytes 6 1 0) (by decide +kernel) ⟨rfl, trivial⟩
    · exact of_shows (demo true) (twoTLVs [0] 1 [.tagInitArray 2 1 0]) (.tlvToBytes 6 1 0) (by decide +kernel) ⟨rfl, trivial⟩
    · exact of_shows (demo true) ([.newTLV 2 true, .newArray 1 []]) (.tlvToBytes 2 1 0) (by decide +kernel) ⟨rfl, trivial⟩
  case buildKey =>
    obtain rfl | rfl := h
    · exact of_shows (demo true) ([]) (.buildKey 1 [0,0,0,0]) (by decide +kernel) ⟨rfl, trivial⟩
    · exact of_shows (demo true) ([]) (.buildKey 1 []) (by decide +kernel) ⟨rfl, trivial⟩
  case setKey =>
    obtain rfl : e = .attributeError := h
    exact of_shows (demo true) (pairAndKeys) (.setKey 2 4 0) (by decide +kernel) ⟨rfl, trivial⟩
  case getKey =>
    obtain rfl | rfl | rfl := h
    · exact of_shows (demo true) ([.buildKey 1 [3, 64, 0], .newArray 2 [], .setKey 1 2 0]) (.getKey 1 2 0) (by decide +kernel) ⟨rfl, trivial⟩
    · exact of_shows (demo true) ([.buildKey 1 [3, 64, 0], .newArray 2 []]) (.getKey 1 2 0) (by decide +kernel) ⟨rfl, trivial⟩
    · exact of_shows (demo true) (pairAndKeys) (.getKey 2 4 0) (by decide +kernel) ⟨rfl, trivial⟩
  case setRSA k x r off len =>
    cases x
    case false =>
      obtain rfl | rfl | rfl | rfl := h
      · exact of_shows (demo true) (pairAndKeys) (.setRSA 3 false 4 0 1) (by decide +kernel) ⟨rfl, rfl⟩
      · exact of_shows (demo true) (pairAndKeys) (.setRSA 2 false 4 0 1) (by decide +kernel) ⟨rfl, rfl⟩
      · exact of_shows (demo false) (pairAndKeys ++ [.setRSA 2 true 4 0 1]) (.setRSA 2 false 4 0 2) (by decide +kernel) ⟨rfl, rfl⟩
      · exact of_shows (demo true) ([.buildKey 1 [3, 64, 0], .newArray 2 []]) (.setRSA 1 false 2 0 1) (by decide +kernel) ⟨rfl, rfl⟩
    case true =>
      obtain rfl | rfl := h
      · exact of_shows (demo false) (pairAndKeys ++ [.setRSA 2 false 4 0 2]) (.setRSA 2 true 4 0 1) (by decide +kernel) ⟨rfl, rfl⟩
      · exact of_shows (demo false) ([.buildKey 1 [3, 64, 0], .newArray 2 []]) (.setRSA 1 true 2 0 1) (by decide +kernel) ⟨rfl, rfl⟩
  case setTheKey =>
    obtain rfl : e = .attributeError := h
    exact of_shows (demo true) ([.buildKey 1 [3, 64, 0]]) (.setTheKey 1 ⟨1,1,1⟩) (by decide +kernel) ⟨rfl, trivial⟩
  case getRSA k x r off =>
    cases x
    case false =>
      obtain rfl | rfl | rfl := h
      · exact of_shows (demo true) (pairAndKeys) (.getRSA 2 false 4 0) (by decide +kernel) ⟨rfl, rfl⟩
      · exact of_shows (demo true) (pairAndKeys ++ [.setTheKey 2 ⟨1,1,1⟩]) (.getRSA 2 false 4 4) (by decide +kernel) ⟨rfl, rfl⟩
      · exact of_shows (demo true) ([.buildKey 1 [3, 64, 0], .newArray 2 []]) (.getRSA 1 false 2 0) (by decide +kernel) ⟨rfl, rfl⟩
    case true =>
      obtain rfl | rfl | rfl := h
      · exact of_shows (demo true) (pairAndKeys) (.getRSA 2 true 4 0) (by decide +kernel) ⟨rfl, rfl⟩
      · exact of_shows (demo true) (pairAndKeys ++ [.setTheKey 2 ⟨1,1,1⟩]) (.getRSA 2 true 4 4) (by decide +kernel) ⟨rfl, rfl⟩
      · exact of_shows (demo true) ([.buildKey 1 [3, 64, 0], .newArray 2 []]) (.getRSA 1 true 2 0) (by decide +kernel) ⟨rfl, rfl⟩
  case newPair =>
    obtain rfl : e = .crypto 3 := h
    exact of_shows (demo true) ([]) (.newPair 1 2 3 7 16) (by decide +kernel) ⟨rfl, trivial⟩
  case pairOf =>
    obtain rfl : e = .crypto 1 := h
    exact of_shows (demo true) (pairAndKeys) (.pairOf 5 3 2) (by decide +kernel) ⟨rfl, trivial⟩
  case genKeyPair =>
    obtain rfl | rfl | rfl := h
    · exact of_shows (demo true) (pairAndKeys ++ [.setTheKey 2 ⟨1,1,1⟩]) (.genKeyPair 1 5 6 ⟨1,1,1⟩) (by decide +kernel) ⟨rfl, trivial⟩
    · exact of_shows (demo false) (pairAndKeys) (.genKeyPair 1 5 6 ⟨1,1,1⟩) (by decide +kernel) ⟨rfl, trivial⟩
    · exact of_shows (demo true) (pairAndKeys ++ [.pairOf 5 2 3]) (.genKeyPair 5 6 7 ⟨1,1,1⟩) (by decide +kernel) ⟨rfl, trivial⟩
  case getCipher =>
    obtain rfl | rfl | rfl := h
    · exact of_shows (demo true) ([]) (.getCipher 1 [2, 0]) (by decide +kernel) ⟨rfl, trivial⟩
    · exact of_shows (demo true) ([]) (.getCipher 1 []) (by decide +kernel) ⟨rfl, trivial⟩
    · exact of_shows (demo true) ([]) (.getCipher 1 [9, 9, 9]) (by decide +kernel) ⟨rfl, trivial⟩
  case desInit =>
    obtain rfl | rfl | rfl | rfl := h
    · exact of_shows (demo true) ([.getCipher 1 [5, 0], .newArray 2 []]) (.desInit 1 none 1 2 0 8) (by decide +kernel) ⟨rfl, trivial⟩
    · exact of_shows (demo true) ([.getCipher 1 [5, 0], .newArray 2 [], .buildKey 3 [3, 64, 0]]) (.desInit 1 (some 3) 1 2 0 8) (by decide +kernel) ⟨rfl, trivial⟩
    · exact of_shows (demo true) ([.getCipher 1 [5, 0], .newArray 2 [], .buildKey 3 [3, 64, 0], .setKey 3 2 0]) (.desInit 1 (some 3) 1 2 0 8) (by decide +kernel) ⟨rfl, trivial⟩
    · exact of_shows (demo true) ([.getCipher 1 [5, 0], .newArray 2 [1,2,3,4,5,6,7,8], .buildKey 3 [3, 64, 0], .setKey 3 2 5]) (.desInit 1 (some 3) 1 2 0 8) (by decide +kernel) ⟨rfl, trivial⟩
  case desInitDefault =>
    obtain rfl | rfl | rfl := h
    · exact of_shows (demo true) ([.getCipher 1 [5, 0]]) (.desInitDefault 1 none 1) (by decide +kernel) ⟨rfl, trivial⟩
    · exact of_shows (demo true) ([.getCipher 1 [5, 0], .buildKey 3 [3, 64, 0]]) (.desInitDefault 1 (some 3) 1) (by decide +kernel) ⟨rfl, trivial⟩
    · exact of_shows (demo true) ([.getCipher 1 [5, 0], .newArray 2 [], .buildKey 3 [3, 64, 0], .setKey 3 2 0]) (.desInitDefault 1 (some 3) 1) (by decide +kernel) ⟨rfl, trivial⟩
  case desFinal =>
    obtain rfl | rfl | rfl := h
    · exact of_shows (demo true) ([.getCipher 1 [5, 0], .newArray 2 []]) (.desFinal 1 2 0 0 2 0) (by decide +kernel) ⟨rfl, trivial⟩
    · exact of_shows (demo true) ([.getCipher 1 [5, 0], .newArray 2 [1,2,3,4,5,6,7,8], .buildKey 3 [3, 64, 0], .setKey 3 2 0, .desInitDefault 1 (some 3) 2]) (.desFinal 1 2 0 9 2 0) (by decide +kernel) ⟨rfl, trivial⟩
    · exact of_shows (demo true) ([.getCipher 1 [5, 0], .newArray 2 [1,2,3,4,5,6,7,8], .buildKey 3 [3, 64, 0], .setKey 3 2 0, .desInitDefault 1 (some 3) 2]) (.desFinal 1 2 0 7 2 0) (by decide +kernel) ⟨rfl, trivial⟩
  case rsaInit =>
    obtain rfl | rfl := h
    · exact of_shows (demo true) ([.getCipher 1 [10, 0]]) (.rsaInit 1 none 1) (by decide +kernel) ⟨rfl, trivial⟩
    · exact of_shows (demo true) (pairAndKeys ++ [.getCipher 5 [10, 0]]) (.rsaInit 5 (some 2) 1) (by decide +kernel) ⟨rfl, trivial⟩
  case rsaFinal =>
    obtain rfl | rfl | rfl | rfl | rfl := h
    · exact of_shows (demo true) ([.getCipher 1 [10, 0], .newArray 2 []]) (.rsaFinal 1 [] 2 0 0 2 0) (by decide +kernel) ⟨rfl, trivial⟩
    · exact of_shows (demo true) (pairAndKeys ++ [.getCipher 5 [10, 0], .setTheKey 2 ⟨1,1,1⟩, .rsaInit 5 (some 2) 1]) (.rsaFinal 5 [] 4 0 0 4 0) (by decide +kernel) ⟨rfl, trivial⟩
    · exact of_shows (demo true) (pairAndKeys ++ [.getCipher 5 [10, 0], .setTheKey 2 ⟨1,1,1⟩, .rsaInit 5 (some 2) 1]) (.rsaFinal 5 [] 4 0 9 4 0) (by decide +kernel) ⟨rfl, trivial⟩
    · exact of_shows (demo true) (pairAndKeys ++ [.getCipher 5 [10, 0], .setTheKey 2 ⟨1,1,1⟩, .rsaInit 5 (some 2) 1]) (.rsaFinal 5 [] 4 0 2 4 0) (by decide +kernel) ⟨rfl, trivial⟩
    · exact of_shows (demo true) (pairAndKeys ++ [.getCipher 5 [10, 0], .setRSA 3 true 4 0 1, .setRSA 3 false 4 0 2, .rsaInit 5 (some 3) 1]) (.rsaFinal 5 [] 4 0 2 4 0) (by decide +kernel) ⟨rfl, trivial⟩
  case cipherUpdate =>
    obtain rfl : e = .crypto 4 := h
    exact of_shows (demo true) ([.getCipher 1 [10, 0]]) (.cipherUpdate 1) (by decide +kernel) ⟨rfl, trivial⟩
  case getDigest =>
    obtain rfl : e = .keyError := h
    exact of_shows (demo true) ([]) (.getDigest 1 99) (by decide +kernel) ⟨rfl, trivial⟩
  case digestUpdate =>
    obtain rfl : e = .nameError := h
    exact of_shows (demo true) ([.getDigest 1 1, .newArray 2 []]) (.digestUpdate 1 2 0 1) (by decide +kernel) ⟨rfl, trivial⟩
  case digestFinal =>
    obtain rfl : e = .nameError := h
    exact of_shows (demo true) ([.getDigest 1 1, .newArray 2 []]) (.digestFinal 1 2 0 0 2 0) (by decide +kernel) ⟨rfl, trivial⟩
  case pinCheck =>
    obtain rfl | rfl := h
    · exact of_shows (demo true) ([.newPIN 1 3 4, .newArray 2 [1], .pinUpdate 1 (.inr 2) 0 1]) (.pinCheck 1 (.inr 2) 0 2) (by decide +kernel) ⟨rfl, trivial⟩
    · exact of_shows (demo true) ([.newPIN 1 3 4, .newArray 2 [1], .pinUpdate 1 (.inr 2) 0 1]) (.pinCheck 1 (.inr 2) (-9) 1) (by decide +kernel) ⟨rfl, trivial⟩
  case pinUpdate =>
    obtain ⟨n, rfl⟩ | rfl | rfl := h
    · exact pin_any n _ ⟨rfl, trivial⟩
    · exact of_shows (demo true) ([.newPIN 1 3 4, .newArray 2 [1]]) (.pinUpdate 1 (.inr 2) 0 2) (by decide +kernel) ⟨rfl, trivial⟩
    · exact of_shows (demo true) ([.newPIN 1 3 4, .newArray 2 [1]]) (.pinUpdate 1 (.inr 2) (-9) 2) (by decide +kernel) ⟨rfl, trivial⟩
  case newBig =>
    obtain rfl : e = .arithmetic := h
    exact of_shows (demo true) ([]) (.newBig 1 (some 0)) (by decide +kernel) ⟨rfl, trivial⟩
  case bigInit =>
    obtain rfl | rfl | rfl := h
    · exact of_shows (demo true) ([.newBig 1 none]) (.bigInit 1 none 0 0 1) (by decide +kernel) ⟨rfl, trivial⟩
    · exact of_shows (demo true) ([.newBig 1 none]) (.bigInit 1 none 0 1 1) (by decide +kernel) ⟨rfl, trivial⟩
    · exact of_shows (demo true) ([.newBig 1 none, .newArray 2 []]) (.bigInit 1 (some 2) 0 1 1) (by decide +kernel) ⟨rfl, trivial⟩
  case bigOp op b r off len fmt =>
    obtain rfl | rfl | rfl | rfl := h
    · cases op
      · exact of_shows (demo true) ([.newBig 1 none]) (.bigOp .add 1 none 0 0 1) (by decide +kernel) ⟨rfl, rfl⟩
      · exact of_shows (demo true) ([.newBig 1 none]) (.bigOp .subtract 1 none 0 0 1) (by decide +kernel) ⟨rfl, rfl⟩
      · exact of_shows (demo true) ([.newBig 1 none]) (.bigOp .multiply 1 none 0 0 1) (by decide +kernel) ⟨rfl, rfl⟩
    · cases op
      · exact of_shows (demo true) ([.newBig 1 none]) (.bigOp .add 1 none 0 1 1) (by decide +kernel) ⟨rfl, rfl⟩
      · exact of_shows (demo true) ([.newBig 1 none]) (.bigOp .subtract 1 none 0 1 1) (by decide +kernel) ⟨rfl, rfl⟩
      · exact of_shows (demo true) ([.newBig 1 none]) (.bigOp .multiply 1 none 0 1 1) (by decide +kernel) ⟨rfl, rfl⟩
    · cases op
      · exact of_shows (demo true) ([.newBig 1 none, .newArray 2 []]) (.bigOp .add 1 (some 2) 0 1 1) (by decide +kernel) ⟨rfl, rfl⟩
      · exact of_shows (demo true) ([.newBig 1 none, .newArray 2 []]) (.bigOp .subtract 1 (some 2) 0 1 1) (by decide +kernel) ⟨rfl, rfl⟩
      · exact of_shows (demo true) ([.newBig 1 none, .newArray 2 []]) (.bigOp .multiply 1 (some 2) 0 1 1) (by decide +kernel) ⟨rfl, rfl⟩
    · cases op
      · exact of_shows (demo true) ([.newBig 1 none, .newArray 2 [1]]) (.bigOp .add 1 (some 2) 0 1 1) (by decide +kernel) ⟨rfl, rfl⟩
      · exact of_shows (demo true) ([.newBig 1 none, .newArray 2 [1]]) (.bigOp .subtract 1 (some 2) 0 1 1) (by decide +kernel) ⟨rfl, rfl⟩
      · exact of_shows (demo true) ([.newBig 1 none, .newArray 2 [1]]) (.bigOp .multiply 1 (some 2) 0 1 1) (by decide +kernel) ⟨rfl, rfl⟩
  case bigCompare =>
    obtain rfl : e = .typeError := h
    exact of_shows (demo true) ([.newBig 1 none, .newBig 3 none, .newArray 2 [1], .bigInit 3 (some 2) 0 1 1]) (.bigCompare 1 3) (by decide +kernel) ⟨rfl, trivial⟩
  case bigCompareArray =>
    obtain rfl | rfl | rfl | rfl := h
    · exact of_shows (demo true) ([.newBig 1 none]) (.bigCompareArray 1 none 0 0 1) (by decide +kernel) ⟨rfl, trivial⟩
    · exact of_shows (demo true) ([.newBig 1 none]) (.bigCompareArray 1 none 0 1 1) (by decide +kernel) ⟨rfl, trivial⟩
    · exact of_shows (demo true) ([.newBig 1 none, .newArray 2 []]) (.bigCompareArray 1 (some 2) 0 1 1) (by decide +kernel) ⟨rfl, trivial⟩
    · exact of_shows (demo true) ([.newBig 1 none, .newArray 2 [1]]) (.bigCompareArray 1 (some 2) 0 1 1) (by decide +kernel) ⟨rfl, trivial⟩
  case bigToBytes =>
    obtain rfl | rfl | rfl := h
    · exact of_shows (demo true) ([.newBig 1 none, .newArray 2 [1]]) (.bigToBytes 1 2 0 1 7) (by decide +kernel) ⟨rfl, trivial⟩
    · exact of_shows (demo true) ([.newBig 1 none, .newArray 2 [1], .bigInit 1 (some 2) 0 1 1]) (.bigToBytes 1 2 0 9 1) (by decide +kernel) ⟨rfl, trivial⟩
    · exact of_shows (demo true) ([.newBig 1 none, .newArray 2 [1]]) (.bigToBytes 1 2 0 1 1) (by decide +kernel) ⟨rfl, trivial⟩
  case newAID =>
    obtain rfl | rfl := h
    · exact of_shows (demo true) ([.newArray 1 []]) (.newAID 2 1 0 4) (by decide +kernel) ⟨rfl, trivial⟩
    · exact of_shows (demo true) ([.newArray 1 []]) (.newAID 2 1 0 5) (by decide +kernel) ⟨rfl, trivial⟩
  case aidEquals =>
    obtain rfl : e = .arrayIndexOutOfBounds := h
    exact of_shows (demo true) ([.newArray 1 [1,2,3,4,5], .newAID 2 1 0 5]) (.aidEquals 2 1 0 9) (by decide +kernel) ⟨rfl, trivial⟩
  case aidPartialEquals =>
    obtain rfl : e = .arrayIndexOutOfBounds := h
    exact of_shows (demo true) ([.newArray 1 [1,2,3,4,5], .newAID 2 1 0 5]) (.aidPartialEquals 2 1 0 9) (by decide +kernel) ⟨rfl, trivial⟩
  case aidGetBytes =>
    obtain rfl : e = .arrayIndexOutOfBounds := h
    exact of_shows (demo true) ([.newArray 1 [1,2,3,4,5], .newAID 2 1 0 5]) (.aidGetBytes 2 1 9) (by decide +kernel) ⟨rfl, trivial⟩
  case aidGetPartialBytes =>
    obtain rfl | rfl := h
    · exact of_shows (demo true) ([.newArray 1 [1,2,3,4,5], .newAID 2 1 0 5]) (.aidGetPartialBytes 2 0 1 0 9) (by decide +kernel) ⟨rfl, trivial⟩
    · exact of_shows (demo true) ([.newArray 1 [1,2,3,4,5], .newAID 2 1 0 5]) (.aidGetPartialBytes 2 0 1 0 1) (by decide +kernel) ⟨rfl, trivial⟩

open CErr in
/-- **C122** (only Java Card exceptions). The calls of the list raise no built-in exception of Python, on the card any program leaves. -/
theorem C122_java {env : CryptoEnv} {fuel : Nat} {prog : List Step} {outs : List (Except Err Card.Out)} {w w' : Card} {s : Step} {e : Err}
    (h : run env fuel blank prog = some (outs, w)) (hf : Fits w s) (he : step env fuel w s = some (.error e, w')) (hs : javaOnly s = true) :
    e.isJavaCard = true := by
  have hr := C122_only h hf he
  cases s
  case askAPDU a q => cases q <;> first | (simp [javaOnly] at hs; done) | exact hr.elim False.elim False.elim
  case askTagStatic r off q => cases q <;> first | (simp [javaOnly] at hs; done) | (obtain rfl : e = .arrayIndexOutOfBounds := hr.elim id False.elim; rfl)
  all_goals (simp [javaOnly] at hs; try simp only [raises, libraryRaises, or_false] at hr)
  all_goals first
    | (subst hr; rfl)
    | (rcases hr with rfl | rfl <;> rfl)
    | exact hr.elim

open CErr in
/-- **C122** (the other calls let built-in exceptions out). Every call that is not in the list, with some arguments, on the card some program leaves, raises
a built-in exception of Python. -/
theorem C122_builtin {s : Step} (hs : javaOnly s = false) :
    ∃ e env fuel prog outs w s' w', e.isJavaCard = false ∧ sameCall s s' ∧ run env fuel blank prog = some (outs, w) ∧ Fits w s' ∧
      step env fuel w s' = some (.error e, w') := by
  have key : ∀ e, e.isJavaCard = false → raises s e → ∃ e env fuel prog outs w s' w', e.isJavaCard = false ∧ sameCall s s' ∧
      run env fuel blank prog = some (outs, w) ∧ Fits w s' ∧ step env fuel w s' = some (.error e, w') := by
    intro e h1 h2
    obtain ⟨env, fuel, prog, outs, w, s', w', h⟩ := C122_each h2
    exact ⟨e, env, fuel, prog, outs, w, s', w', h1, h⟩
  have hb : ∃ e, e.isJavaCard = false ∧ raises s e := by
    cases s
    case apdu a op => cases op <;> first | (refine ⟨.indexError, rfl, ?_⟩; simp [raises]; done) | (refine ⟨.attributeError, rfl, ?_⟩; simp [raises]; done) | (refine ⟨.nameError, rfl, ?_⟩; simp [raises]; done) | (refine ⟨.typeError, rfl, ?_⟩; simp [raises]; done) | (refine ⟨.valueError, rfl, ?_⟩; simp [raises]; done) | (refine ⟨.keyError, rfl, ?_⟩; simp [raises]; done)
    case askAPDU a q => cases q <;> first | (simp [javaOnly] at hs; done) | (refine ⟨.indexError, rfl, ?_⟩; simp [raises]; done) | (refine ⟨.attributeError, rfl, ?_⟩; simp [raises]; done) | (refine ⟨.nameError, rfl, ?_⟩; simp [raises]; done) | (refine ⟨.typeError, rfl, ?_⟩; simp [raises]; done) | (refine ⟨.valueError, rfl, ?_⟩; simp [raises]; done) | (refine ⟨.keyError, rfl, ?_⟩; simp [raises]; done)
    case askTagStatic r off q => cases q <;> first | (simp [javaOnly] at hs; done) | exact ⟨.indexError, rfl, rfl⟩
    case setRSA k x _ _ _ => cases x <;> first | (refine ⟨.indexError, rfl, ?_⟩; simp [raises]; done) | (refine ⟨.attributeError, rfl, ?_⟩; simp [raises]; done) | (refine ⟨.nameError, rfl, ?_⟩; simp [raises]; done) | (refine ⟨.typeError, rfl, ?_⟩; simp [raises]; done) | (refine ⟨.valueError, rfl, ?_⟩; simp [raises]; done) | (refine ⟨.keyError, rfl, ?_⟩; simp [raises]; done)
    all_goals first
      | (simp [javaOnly] at hs; done)
      | (refine ⟨.indexError, rfl, ?_⟩; simp [raises]; done) | (refine ⟨.attributeError, rfl, ?_⟩; simp [raises]; done) | (refine ⟨.nameError, rfl, ?_⟩; simp [raises]; done) | (refine ⟨.typeError, rfl, ?_⟩; simp [raises]; done) | (refine ⟨.valueError, rfl, ?_⟩; simp [raises]; done) | (refine ⟨.keyError, rfl, ?_⟩; simp [raises]; done)
  obtain ⟨e, h1, h2⟩ := hb
  exact key e h1 h2
end Verif.Props
