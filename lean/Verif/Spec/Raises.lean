import Verif.Spec.Card
/-! Which exceptions a call may raise: a table, call by call, and what it means that a call names objects of the right kinds. -/
namespace Verif.Spec.Card
open Verif.Py Verif.Model Verif.Model.Card

/-- The objects a call needs, with the kinds they may have. -/
def needs : Step → List (Nat × List Kind)
  | .load r _ | .store r _ _ | .arrayFill r _ _ _ | .getShort r _ | .setShort r _ _ | .getInt r _ | .setInt r _ _ _
  | .availableMemory r _ _ | .random _ r _ _
  | .askTagStatic r _ _ | .tagToBytesStatic _ _ _ r _ | .lengthStatic r _ | .valueOffset r _ => [(r, [.array])]
  | .arrayCopy s _ d _ _ | .arrayCopyNonAtomic s _ d _ _ | .arrayCompare s _ d _ _ => [(s, [.array]), (d, [.array])]
  | .newAPDU _ _ r => [(r, [.array])]
  | .apdu a _ | .getBuffer a | .askAPDU a _ => [(a, [.apdu])]
  | .sendBytesLong a r _ _ => [(a, [.apdu]), (r, [.array])]
  | .tagGetInstance _ r _ => [(r, [.array])]
  | .tagInitArray g r _ | .tagToBytes g r _ => [(g, [.tag]), (r, [.array])]
  | .tagInitNumber g _ _ | .askTag g _ => [(g, [.tag])]
  | .tagEquals g h => [(g, [.tag]), (h, [.tag])]
  | .tlvGetInstance _ _ r _ _ => [(r, [.array])]
  | .tlvInit k _ g r _ _ => [(k, [.tlv]), (g, [.tag]), (r, [.array])]
  | .tlvInitArray k r _ _ | .getValue k r _ | .replaceValue k r _ _ | .tlvToBytes k r _ => [(k, [.tlv]), (r, [.array])]
  | .getTag k | .tlvSize k | .tlvLength k => [(k, [.tlv])]
  | .append k j => [(k, [.tlv]), (j, [.tlv])]
  | .appendStatic r _ r' _ => [(r, [.array]), (r', [.array])]
  | .findStatic r _ r' _ | .findNextStatic r _ _ r' _ => (r, [.array]) :: r'.toList.map fun r => (r, [.array])
  | .find _ _ k g => (k, [.tlv]) :: g.toList.map fun g => (g, [.tag])
  | .findNext _ _ k g j _ => (k, [.tlv]) :: (j, [.tlv]) :: g.toList.map fun g => (g, [.tag])
  | .setKey k r _ | .getKey k r _ | .setRSA k _ r _ _ | .getRSA k _ r _ => [(k, [.desKey, .rsaPublic, .rsaPrivate]), (r, [.array])]
  | .setTheKey k _ | .clearKey k | .askKey k _ => [(k, [.desKey, .rsaPublic, .rsaPrivate])]
  | .pairOf _ i j => [(i, [.desKey, .rsaPublic, .rsaPrivate]), (j, [.desKey, .rsaPublic, .rsaPrivate])]
  | .getPublic p | .getPrivate p | .genKeyPair p _ _ _ => [(p, [.pair])]
  | .desInit c _ _ r _ _ => [(c, [.des]), (r, [.array])]
  | .desInitDefault c _ _ => [(c, [.des])]
  | .desFinal c r _ _ r' _ => [(c, [.des]), (r, [.array]), (r', [.array])]
  | .rsaInit c _ _ => [(c, [.rsa])]
  | .rsaFinal c _ r _ _ r' _ => [(c, [.rsa]), (r, [.array]), (r', [.array])]
  | .cipherUpdate c => [(c, [.des, .rsa])]
  | .digestUpdate d r _ _ => [(d, [.digest]), (r, [.array])]
  | .digestFinal d r _ _ r' _ => [(d, [.digest]), (r, [.array]), (r', [.array])]
  | .digestReset d => [(d, [.digest])]
  | .pinCheck i arg _ _ | .pinUpdate i arg _ _ => (i, [.pin]) :: arg.elim (fun _ => []) fun r => [(r, [.array])]
  | .pinReset i | .pinResetAndUnblock i | .pinSetValidated i _ | .pinValidated i | .pinTries i => [(i, [.pin])]
  | .bigInit b r _ _ _ | .bigOp _ b r _ _ _ | .bigCompareArray b r _ _ _ => (b, [.big]) :: r.toList.map fun r => (r, [.array])
  | .bigCompare b c => [(b, [.big]), (c, [.big])]
  | .bigToBytes b r _ _ _ => [(b, [.big]), (r, [.array])]
  | .newAID _ r _ _ => [(r, [.array])]
  | .aidEquals a r _ _ | .aidPartialEquals a r _ _ | .aidGetBytes a r _ | .aidGetPartialBytes a _ r _ _ => [(a, [.aid]), (r, [.array])]
  | .aidRIDEquals a b | .aidEq a b => [(a, [.aid]), (b, [.aid])]
  | _ => []

/-- The places for the objects a call makes. -/
def makes : Step → List Nat
  | .newArray r _ => [r]
  | .newAPDU a b _ => [a, b]
  | .newTag g _ | .tagGetInstance g _ _ => [g]
  | .newTLV k _ => [k]
  | .tlvGetInstance k g _ _ _ | .find k g _ _ | .findNext k g _ _ _ _ => [k, g]
  | .tlvInit _ g _ _ _ _ => [g]
  | .buildKey k _ => [k]
  | .newPair p i j _ _ => [p, i, j]
  | .pairOf p _ _ => [p]
  | .genKeyPair _ i j _ => [i, j]
  | .getCipher c _ => [c]
  | .getDigest d _ => [d]
  | .newPIN i _ _ => [i]
  | .newBig b _ => [b]
  | .newAID a _ _ _ => [a]
  | _ => []

/-- The call is made on objects of the right kinds, and the places for its new objects are free and different. (The key handed to a cipher may be
anything.) -/
structure Fits (w : Card) (s : Step) : Prop where
  objects : ∀ x ∈ needs s, kind (w x.1) ∈ x.2
  places : (makes s).Nodup ∧ ∀ r ∈ makes s, w r = .free

/-- The exceptions a call may raise, call by call. Those of the RSA library are left out. -/
def raises : Step → Err → Prop
  -- lists
  | .load .., e | .store .., e => e = .indexError
  | .arrayCopy .., e | .arrayCompare .., e | .arrayFill .., e | .getShort .., e | .setShort .., e => e = .arrayIndexOutOfBounds
  | .arrayCopyNonAtomic .., e => e = .nameError
  | .getInt .., e | .setInt .., e => e = .indexError
  | .availableMemory .., e => e = .nameError
  | .random .., e => e = .crypto 1 ∨ e = .nameError
  -- APDUs
  | .newAPDU .., e => e = .apdu 0 ∨ e = .indexError
  | .apdu _ .setIncomingAndReceive, e => e = .apdu 2 ∨ e = .iso 0x6700 ∨ e = .indexError ∨ e = .attributeError
  | .apdu _ (.receiveBytes _), e => e = .apdu 2 ∨ e = .indexError
  | .apdu _ .setOutgoing, e => e = .apdu 2 ∨ e = .attributeError
  | .apdu _ (.setOutgoingLength _), e => e = .apdu 2 ∨ e = .apdu 0 ∨ e = .attributeError
  | .apdu _ (.sendBytes _ _), e => e = .apdu 2 ∨ e = .apdu 1 ∨ e = .attributeError
  | .apdu _ (.sendBytesLong _ _ _), e | .sendBytesLong .., e => e = .apdu 1 ∨ e = .attributeError
  | .apdu _ (.setOutgoingAndSend _ _), e => e = .apdu 2 ∨ e = .apdu 0 ∨ e = .apdu 1 ∨ e = .attributeError
  | .apdu _ (.poke _ _), e => e = .indexError
  | .askAPDU _ .isCommandChainingCLA, e | .askAPDU _ .isISOInterindustryCLA, e => e = .indexError
  | .askAPDU _ .incomingLength, e => e = .attributeError
  | .currentAPDUBuffer, e => e = .attributeError
  | .claChannel, e => e = .attributeError
  -- tags and TLVs
  | .tagGetInstance .., e => e = .arrayIndexOutOfBounds
  | .tagInitArray .., e => e = .tlv 5 ∨ e = .indexError
  | .tagToBytes .., e => e = .indexError ∨ e = .typeError
  | .tagToBytesStatic .., e | .askTagStatic _ _ .size, e => e = .indexError
  | .askTagStatic _ _ .isConstructed, e | .askTagStatic _ _ .tagClass, e | .askTagStatic _ _ .tagNumber, e => e = .arrayIndexOutOfBounds
  | .lengthStatic .., e | .valueOffset .., e => e = .arrayIndexOutOfBounds ∨ e = .indexError
  | .tlvGetInstance .., e | .tlvInitArray .., e => e = .arrayIndexOutOfBounds ∨ e = .indexError
  | .tlvSize _, e => e = .attributeError
  | .append .., e | .tlvToBytes .., e => e = .arrayIndexOutOfBounds ∨ e = .indexError ∨ e = .nameError ∨ e = .typeError ∨ e = .attributeError
  | .appendStatic .., e => e = .arrayIndexOutOfBounds ∨ e = .indexError ∨ e = .nameError ∨ e = .attributeError
  | .findNextStatic .., e => e = .arrayIndexOutOfBounds ∨ e = .indexError ∨ e = .nameError ∨ e = .attributeError
  | .findStatic .., e | .find .., e => e = .arrayIndexOutOfBounds ∨ e = .indexError ∨ e = .attributeError
  | .findNext .., e => e = .arrayIndexOutOfBounds ∨ e = .indexError ∨ e = .attributeError ∨ e = .typeError
  | .getValue .., e | .replaceValue .., e => e = .arrayIndexOutOfBounds ∨ e = .attributeError
  -- keys
  | .buildKey .., e => e = .notImplemented ∨ e = .typeError
  | .setKey .., e | .setTheKey .., e => e = .attributeError
  | .getKey .., e => e = .arrayIndexOutOfBounds ∨ e = .typeError ∨ e = .attributeError
  | .setRSA _ true _ _ _, e => e = .crypto 3 ∨ e = .attributeError
  | .setRSA _ false _ _ _, e => e = .crypto 1 ∨ e = .crypto 4 ∨ e = .crypto 3 ∨ e = .attributeError
  | .getRSA .., e => e = .crypto 2 ∨ e = .arrayIndexOutOfBounds ∨ e = .attributeError
  | .newPair .., e => e = .crypto 3
  | .pairOf .., e => e = .crypto 1
  | .genKeyPair .., e => e = .crypto 1 ∨ e = .crypto 3 ∨ e = .attributeError
  -- ciphers and digests
  | .getCipher .., e => e = .crypto 3 ∨ e = .typeError ∨ e = .unboundLocalError
  | .desInit .., e => e = .crypto 1 ∨ e = .crypto 2 ∨ e = .arrayIndexOutOfBounds ∨ e = .valueError
  | .desInitDefault .., e => e = .crypto 1 ∨ e = .crypto 2 ∨ e = .valueError
  | .desFinal .., e => e = .crypto 4 ∨ e = .arrayIndexOutOfBounds ∨ e = .valueError
  | .rsaInit .., e => e = .crypto 1 ∨ e = .crypto 2
  | .rsaFinal .., e => e = .crypto 4 ∨ e = .crypto 1 ∨ e = .arrayIndexOutOfBounds ∨ e = .valueError ∨ e = .attributeError
  | .cipherUpdate _, e => e = .crypto 4
  | .getDigest .., e => e = .keyError
  | .digestUpdate .., e | .digestFinal .., e => e = .nameError
  -- PINs, big numbers, AIDs
  | .pinCheck .., e => e = .arrayIndexOutOfBounds ∨ e = .indexError
  | .pinUpdate .., e => (∃ n, e = .pin n) ∨ e = .arrayIndexOutOfBounds ∨ e = .indexError
  | .newBig .., e => e = .arithmetic
  | .bigInit .., e => e = .arithmetic ∨ e = .nullPointer ∨ e = .indexError
  | .bigOp .., e | .bigCompareArray .., e => e = .arithmetic ∨ e = .nullPointer ∨ e = .indexError ∨ e = .typeError
  | .bigCompare .., e => e = .typeError
  | .bigToBytes .., e => e = .arithmetic ∨ e = .arrayIndexOutOfBounds ∨ e = .typeError
  | .newAID .., e => e = .valueError ∨ e = .arrayIndexOutOfBounds
  | .aidEquals .., e | .aidPartialEquals .., e | .aidGetBytes .., e => e = .arrayIndexOutOfBounds
  | .aidGetPartialBytes .., e => e = .arrayIndexOutOfBounds ∨ e = .nameError
  | _, _ => False

/-- What the RSA library may raise: only `doFinal` of an RSA cipher lets it through. -/
def libraryRaises (env : CryptoEnv) : Step → Err → Prop
  | .rsaFinal .., e => ∃ h n, env.ops.enc h n = .error e ∨ env.ops.dec h n = .error e
  | _, _ => False

/-- The calls that raise only Java Card exceptions. -/
def javaOnly : Step → Bool
  | .newArray .. | .arrayCopy .. | .arrayCompare .. | .arrayFill .. | .getShort .. | .setShort .. => true
  | .getBuffer _ | .currentAPDU | .askAPDU _ .currentState | .askAPDU _ .offsetCdata => true
  | .newTag .. | .tagGetInstance .. | .tagInitNumber .. | .tagEquals .. | .newTLV .. | .tlvInit .. | .getTag _ => true
  | .askTag .. | .askTagStatic _ _ .isConstructed | .askTagStatic _ _ .tagClass | .askTagStatic _ _ .tagNumber | .tlvLength _ => true
  | .clearKey _ | .askKey .. | .newPair .. | .pairOf .. | .getPublic _ | .getPrivate _ => true
  | .rsaInit .. | .cipherUpdate _ | .digestReset _ => true
  | .newPIN .. | .pinReset _ | .pinResetAndUnblock _ | .pinSetValidated .. | .pinValidated _ | .pinTries _ => true
  | .newBig .. | .aidEquals .. | .aidPartialEquals .. | .aidGetBytes .. | .aidRIDEquals .. | .aidEq .. => true
  | _ => false

/-- The same call, with other arguments. -/
def sameCall (s t : Step) : Prop :=
  s.ctorIdx = t.ctorIdx ∧
  match s, t with
  | .apdu _ o, .apdu _ p => o.ctorIdx = p.ctorIdx
  | .askAPDU _ q, .askAPDU _ q' => q = q'
  | .askTag _ q, .askTag _ q' | .askTagStatic _ _ q, .askTagStatic _ _ q' => q = q'
  | .setRSA _ x _ _ _, .setRSA _ y _ _ _ => x = y
  | .getRSA _ x _ _, .getRSA _ y _ _ => x = y
  | .bigOp o _ _ _ _ _, .bigOp p _ _ _ _ _ => o = p
  | _, _ => True

end Verif.Spec.Card
