import Verif.Model.Card
/-! What a call may look at and what it may change, said without the functions of the library: the addresses written in the call, those the
objects there hold, and so on. -/
namespace Verif.Spec.Card
open Verif.Model Verif.Model.Card

/-- The addresses a call mentions: the objects it is made on, its arguments, the places for the objects it makes; the module for the calls that
use the current APDU. -/
def names : Step → List Nat
  | .newArray r _ | .load r _ | .store r _ _ | .arrayFill r _ _ _ | .getShort r _ | .setShort r _ _ | .getInt r _ | .setInt r _ _ _
  | .availableMemory r _ _ | .random _ r _ _
  | .askTagStatic r _ _ | .tagToBytesStatic _ _ _ r _ | .lengthStatic r _ | .valueOffset r _ => [r]
  | .arrayCopy s _ d _ _ | .arrayCopyNonAtomic s _ d _ _ | .arrayCompare s _ d _ _ => [s, d]
  | .newAPDU a b r => [a, b, r, MODULE]
  | .apdu a _ | .getBuffer a | .askAPDU a _ => [a]
  | .sendBytesLong a r _ _ => [a, r]
  | .currentAPDU | .currentAPDUBuffer | .claChannel => [MODULE]
  | .newTag g _ | .tagInitNumber g _ _ | .askTag g _ => [g]
  | .tagGetInstance g r _ | .tagInitArray g r _ | .tagToBytes g r _ => [g, r]
  | .tagEquals g h => [g, h]
  | .newTLV k _ | .getTag k | .tlvSize k | .tlvLength k => [k]
  | .tlvGetInstance k g r _ _ => [k, g, r]
  | .tlvInit k g' g r _ _ => [k, g', g, r]
  | .tlvInitArray k r _ _ | .getValue k r _ | .replaceValue k r _ _ | .tlvToBytes k r _ => [k, r]
  | .append k j => [k, j]
  | .appendStatic r _ r' _ => [r, r']
  | .findStatic r _ r' _ | .findNextStatic r _ _ r' _ => [r] ++ r'.toList
  | .find k' g' k g => [k', g', k] ++ g.toList
  | .findNext k' g' k g j _ => [k', g', k, j] ++ g.toList
  | .buildKey k _ | .setTheKey k _ | .clearKey k | .askKey k _ => [k]
  | .setKey k r _ | .getKey k r _ | .setRSA k _ r _ _ | .getRSA k _ r _ => [k, r]
  | .newPair p i j _ _ | .pairOf p i j | .genKeyPair p i j _ => [p, i, j]
  | .getPublic p | .getPrivate p => [p]
  | .getCipher c _ | .cipherUpdate c => [c]
  | .desInit c k _ r _ _ => [c, r] ++ k.toList
  | .desInitDefault c k _ | .rsaInit c k _ => [c] ++ k.toList
  | .desFinal c r _ _ r' _ | .rsaFinal c _ r _ _ r' _ => [c, r, r']
  | .getDigest d _ | .digestReset d => [d]
  | .digestUpdate d r _ _ => [d, r]
  | .digestFinal d r _ _ r' _ => [d, r, r']
  | .newPIN i _ _ | .pinReset i | .pinResetAndUnblock i | .pinSetValidated i _ | .pinValidated i | .pinTries i => [i]
  | .pinCheck i arg _ _ | .pinUpdate i arg _ _ => i :: arg.elim (fun _ => []) fun r => [r]
  | .newBig b _ => [b]
  | .bigInit b r _ _ _ | .bigOp _ b r _ _ _ | .bigCompareArray b r _ _ _ => [b] ++ r.toList
  | .bigCompare b c => [b, c]
  | .bigToBytes b r _ _ _ => [b, r]
  | .newAID a r _ _ | .aidEquals a r _ _ | .aidPartialEquals a r _ _ | .aidGetBytes a r _ | .aidGetPartialBytes a _ r _ _ => [a, r]
  | .aidRIDEquals a b | .aidEq a b => [a, b]

/-- The addresses a call may change. Everything else a call mentions is only read. -/
def writes (w : Card) : Step → List Nat
  | .newArray r _ | .store r _ _ | .arrayFill r _ _ _ | .setShort r _ _ | .setInt r _ _ _ | .availableMemory r _ _ | .random _ r _ _
  | .tagToBytesStatic _ _ _ r _ => [r]
  | .arrayCopy _ _ d _ _ | .arrayCopyNonAtomic _ _ d _ _ => [d]
  | .newAPDU a b _ => [a, b, MODULE]
  | .apdu a _ | .sendBytesLong a _ _ _ => a :: (w a).refs
  | .newTag g _ | .tagInitNumber g _ _ | .tagGetInstance g _ _ | .tagInitArray g _ _ => [g]
  | .tagToBytes _ r _ | .getValue _ r _ | .tlvToBytes _ r _ | .getKey _ r _ | .getRSA _ _ r _ | .bigToBytes _ r _ _ _ | .aidGetBytes _ r _ => [r]
  | .newTLV k _ | .append k _ | .replaceValue k _ _ _ => [k]
  | .tlvGetInstance k g _ _ _ | .tlvInit k g _ _ _ _ | .find k g _ _ | .findNext k g _ _ _ _ => [k, g]
  | .appendStatic _ _ r' _ => [r']
  | .buildKey k _ | .setTheKey k _ | .setKey k _ _ | .setRSA k _ _ _ _ => [k]
  | .newPair p i j _ _ | .genKeyPair p i j _ => [p, i, j]
  | .pairOf p _ _ => [p]
  | .getCipher c _ | .desInit c _ _ _ _ _ | .desInitDefault c _ _ | .rsaInit c _ _ => [c]
  | .desFinal c _ _ _ r' _ => [c, r']
  | .rsaFinal _ _ _ _ _ r' _ => [r']
  | .getDigest d _ | .digestReset d | .digestUpdate d _ _ _ => [d]
  | .digestFinal d _ _ _ r' _ => [d, r']
  | .newPIN i _ _ | .pinReset i | .pinResetAndUnblock i | .pinSetValidated i _ | .pinCheck i _ _ _ | .pinUpdate i _ _ _ => [i]
  | .newBig b _ | .bigInit b _ _ _ _ | .bigOp _ b _ _ _ _ => [b]
  | .newAID a _ _ _ => [a]
  | _ => []

/-- What a call can get at: the objects it mentions, the objects these hold, and so on. -/
inductive Reaches (w : Card) (s : Step) : Nat → Prop
  | named (r) : r ∈ names s → Reaches w s r
  | held (r q) : Reaches w s r → q ∈ (w r).refs → Reaches w s q

/-- A program: the next call, from the outcomes of its calls so far; `none` when it is finished. -/
abbrev Prog := List (Except Verif.Py.Err Out) → Option Step

/-- Several programs (one for each `i`) on one card, and the outcomes each has seen. -/
structure Config (ι : Type) where
  card : Card
  seen : ι → List (Except Verif.Py.Err Out)

/-- The programs make calls in the order of the schedule: each entry is one call of that program (or nothing if it is finished). `none` when a
call does not return. -/
def exec {ι : Type} [DecidableEq ι] (env : CryptoEnv) (fuel : Nat) (progs : ι → Prog) (c : Config ι) : List ι → Option (Config ι)
  | [] => some c
  | i :: sched => match progs i (c.seen i) with
    | none => exec env fuel progs c sched
    | some s => match step env fuel c.card s with
      | none => none
      | some (o, w) => exec env fuel progs ⟨w, fun j => if j = i then c.seen i ++ [o] else c.seen j⟩ sched

/-- Every address belongs to one program, and no object holds an object of another one. -/
def Separate {ι : Type} (owner : Nat → ι) (w : Card) : Prop := ∀ r, ∀ q ∈ (w r).refs, owner q = owner r

/-- Whatever it has seen, the program mentions only addresses that belong to `i`. -/
def Minds {ι : Type} (owner : Nat → ι) (i : ι) (p : Prog) : Prop := ∀ seen s, p seen = some s → ∀ r ∈ names s, owner r = i

/-- The program that makes the calls of a list, one after the other. -/
def ofList (l : List Step) : Prog := fun seen => l[seen.length]?

/-! ### The objects and what they hold -/

/-- The kinds of objects. -/
inductive Kind where
  | free | apduModule | array | apdu | tag | tlv | rsaPublic | rsaPrivate | desKey | pair | des | rsa | digest | pin | big | aid
  deriving DecidableEq, Repr

/-- The kind of the object at an address. -/
def kind : Obj → Kind
  | .free => .free
  | .apduModule _ => .apduModule
  | .array _ => .array
  | .apdu .. => .apdu
  | .tag _ => .tag
  | .tlv _ => .tlv
  | .key (.rsa k) => if k.isPublic then .rsaPublic else .rsaPrivate
  | .key (.des _) => .desKey
  | .pair _ => .pair
  | .des _ => .des
  | .rsa _ => .rsa
  | .digest _ => .digest
  | .pin _ => .pin
  | .big _ => .big
  | .aid _ => .aid

/-- The attributes that hold other objects: `_current` of the module, the private list and the public buffer of an APDU, the tag of a TLV, the keys of a
pair, the key of an RSA cipher. -/
inductive Slot where
  | current | raw | buffer | tag | publicKey | privateKey | theKey
  deriving DecidableEq, Repr

/-- What an attribute may hold. -/
def Slot.fits : Slot → Kind → Bool
  | .current, k => k = .apdu
  | .raw, k | .buffer, k => k = .array
  | .tag, k => k = .tag
  | .publicKey, k => k = .rsaPublic
  | .privateKey, k => k = .rsaPrivate
  | .theKey, k => k = .rsaPublic || k = .rsaPrivate

/-- What an object holds, attribute by attribute. -/
def holds : Obj → List (Slot × Nat)
  | .apduModule c => c.toList.map fun q => (.current, q)
  | .apdu raw buf _ => [(.raw, raw), (.buffer, buf)]
  | .tlv t => t.tag.toList.map fun q => (.tag, q)
  | .pair p => [(.publicKey, p.publicKey), (.privateKey, p.privateKey)]
  | .rsa c => c.theKey.toList.map fun q => (.theKey, q)
  | _ => []

/-- The calls that keep one of their arguments, and where: an APDU its list, a pair its keys, an RSA cipher its key. -/
inductive Keeps : Step → Slot → Nat → Nat → Prop
  | newAPDU (a b r) : Keeps (.newAPDU a b r) .raw a r
  | pairPublic (p i j) : Keeps (.pairOf p i j) .publicKey p i
  | pairPrivate (p i j) : Keeps (.pairOf p i j) .privateKey p j
  | rsaInit (c k mode) : Keeps (.rsaInit c (some k) mode) .theKey c k

end Verif.Spec.Card
