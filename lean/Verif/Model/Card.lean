import Verif.Model.CryptoWorld
import Verif.Model.TLVWorld
import Verif.Model.APDUWorld
import Verif.Model.OwnerPIN
import Verif.Model.BigNumber
import Verif.Model.JCint
import Verif.Model.AID
/-! All objects of the library together, by reference: every list, APDU, tag, TLV, key, key pair, cipher, digest, PIN, big number and AID has an
address, and so has the module /repo/pythoncard/framework/apdu.py, whose variable `_current` is the only variable of the library that is
not an attribute of an object (`grep global` finds apdu.py:78 only). A step of a program is one call (or a store into a list) and names the
objects by their addresses, those it makes included: Python picks the address of a new object, and the value of an address is never looked at.
What a call does to its objects is what the models of the modules say. -/
namespace Verif.Model
open Verif.Py

/-- What is at an address. `apdu raw buf` holds its two lists by reference (apdu.py:62-63): the fields `raw` and `buffer` of its state are not
used and kept empty. -/
inductive Obj where
  | free
  | apduModule (current : Option Nat)
  | array (l : List Int)
  | apdu (raw buf : Nat) (a : APDUObj)
  | tag (t : BERTag)
  | tlv (t : TLVRef)
  | key (k : KeyObj)
  | pair (p : PairRef)
  | des (c : DESCipher)
  | rsa (c : RSACipher)
  | digest (d : MessageDigest)
  | pin (p : OwnerPIN)
  | big (b : BigNumber)
  | aid (a : AID)
  deriving DecidableEq, Repr

/-- The addresses an object holds: apdu.py:31 and 62-63, bertlv.py:35, keypair.py:35-36, cipher.py:143. Nothing else holds an object of the
caller: keys, DES ciphers, digests, PINs, big numbers, AIDs and TLV values are made from slices or copied cell by cell. -/
def Obj.refs : Obj → List Nat
  | .apduModule c => c.toList
  | .apdu raw buf _ => [raw, buf]
  | .tlv t => t.tag.toList
  | .pair p => [p.publicKey, p.privateKey]
  | .rsa c => c.theKey.toList
  | _ => []

/-- The card: what is at each address. -/
abbrev Card := Nat → Obj

namespace Card

/-- The address of the module apdu.py. -/
def MODULE : Nat := 0

/-- A card on which nothing was made yet, `_current = None` (apdu.py:31). -/
def blank : Card := fun r => if r = MODULE then .apduModule none else .free

/-- The objects `us` put in place, one after the other. -/
def put (w : Card) : List (Nat × Obj) → Card
  | [] => w
  | (r, o) :: us => put (fun q => if q = r then o else w q) us

/-- What a call returns. -/
inductive Out where
  | nothing
  | int (n : Int)
  | bool (b : Bool)
  | ref (r : Nat)
  deriving DecidableEq, Repr

/-- The outcome of a call and the objects it changed or made. -/
abbrev Eff := Except Err Out × List (Nat × Obj)

/-- A step that names an object that is not there, or not of the kind the call needs (Python raises one of several exceptions; all are
`NameError` here), or an address that is taken for a new object: nothing happens. -/
def wrong : Eff := (.error .nameError, [])

/-- `f` on the list at `r`. -/
def onArray (w : Card) (r : Nat) (f : List Int → Eff) : Eff :=
  match w r with
  | .array l => f l
  | _ => wrong

/-- A list or `None` as an argument. -/
def arrayArg (w : Card) : Option Nat → Option (Option (List Int))
  | none => some none
  | some r => match w r with
    | .array l => some (some l)
    | _ => none

/-- `f` on the list at `r`, or on `None`. -/
def onOptArray (w : Card) (r : Option Nat) (f : Option (List Int) → Eff) : Eff :=
  match r with
  | none => f none
  | some r => onArray w r fun l => f (some l)

/-- A new object at `r`. -/
def make (w : Card) (r : Nat) (o : Obj) : Eff :=
  match w r with
  | .free => (.ok (.ref r), [(r, o)])
  | _ => wrong

/-- A new object at `r`, or the exception. -/
def makeOr (w : Card) (r : Nat) : Except Err Obj → Eff
  | .error e => (.error e, [])
  | .ok o => make w r o

/-- The list at `r` changed by a call, with what the call returns. -/
def arrayTo (r : Nat) (x : Res (List Int) Unit) : Eff := (x.1.map fun _ => .nothing, [(r, .array x.2)])

/-- As `arrayTo`, for calls that return a number. -/
def arrayToInt (r : Nat) (x : Res (List Int) Int) : Eff := (x.1.map .int, [(r, .array x.2)])

/-! ### APDUs -/

/-- The state of an APDU object without the lists it holds by reference. -/
def bare : APDUObj → APDUObj
  | .full a => .full { a with raw := [], buffer := [] }
  | .half h => .half { h with buffer := [] }

/-- A call on the APDU at `a`, its lists being `raw` at `r` and `buf` at `b`, apdu.py:160-241. -/
def apduStep (a r b : Nat) (raw buf : List Int) (op : APDU.Op) : APDUObj → Eff
  | .full x =>
    let y := APDU.step { x with raw := raw, buffer := buf } op
    (y.1.map .int, [(a, .apdu r b (bare (.full y.2))), (r, .array y.2.raw), (b, .array y.2.buffer)])
  | .half h =>
    let y := HalfAPDU.step { h with buffer := buf } op
    (y.1.map .int, [(a, .apdu r b (bare (.half y.2))), (b, .array y.2.buffer)])

/-- What can be asked of an APDU: apdu.py:243-244, 262-264, 269-271, 273-274, 280-281. -/
inductive APDUQuery where
  | currentState | isCommandChainingCLA | isISOInterindustryCLA | incomingLength | offsetCdata
  deriving DecidableEq, Repr

/-- The answer, for an APDU with the private list `raw`. A half-made object (`HalfAPDU`) has no `Nc`, and `_cdataoffs` is 5 (apdu.py:85). -/
def apduAsk (raw : List Int) : APDUQuery → APDUObj → Except Err Out
  | .currentState, .full x => .ok (.int x.getCurrentState)
  | .currentState, .half h => .ok (.int h.state)
  | .isCommandChainingCLA, .full x => (APDU.isCommandChainingCLA { x with raw := raw }).map .bool
  | .isCommandChainingCLA, .half _ => (get raw 0).map fun cla => .bool (decide (iand cla 0x10 ≠ 0))
  | .isISOInterindustryCLA, .full x => (APDU.isISOInterindustryCLA { x with raw := raw }).map .bool
  | .isISOInterindustryCLA, .half _ => (get raw 0).map fun cla => .bool (decide (iand cla 0x80 = 0x00))
  | .incomingLength, .full x => .ok (.int x.getIncomingLength)
  | .incomingLength, .half _ => .error .attributeError
  | .offsetCdata, .full x => .ok (.int x.getOffsetCdata)
  | .offsetCdata, .half _ => .ok (.int 5)

/-- `APDU(l)` for the list at `r`, apdu.py:59-114, as in `World.construct`: the new object is at `a`, its buffer at `b`. A constructor that raises
after line 79 leaves a half-made object as the current one. -/
def newAPDU (a r b : Nat) (l : List Int) : Eff :=
  if (l.length : Int) < 4 then (.error APDU.BAD_LENGTH, [])
  else match World.headerBuffer l with
    | .error e => (.error e, [])
    | .ok buffer => match APDU.init l with
      | .ok x => (.ok (.ref a), [(a, .apdu r b (bare (.full x))), (b, .array x.buffer), (MODULE, .apduModule (some a))])
      | .error e => (.error e, [(a, .apdu r b (.half ⟨[], APDU.STATE_INITIAL⟩)), (b, .array buffer), (MODULE, .apduModule (some a))])

/-- `f` on the APDU object at `a` and its two lists. -/
def onAPDU (w : Card) (a : Nat) (f : Nat → Nat → List Int → List Int → APDUObj → Eff) : Eff :=
  match w a with
  | .apdu r b x => onArray w r fun raw => onArray w b fun buf => f r b raw buf x
  | _ => wrong

/-- `_current`, apdu.py:246-256. -/
def current (w : Card) : Option Nat :=
  match w MODULE with
  | .apduModule c => c
  | _ => none

/-! ### TLVs -/

/-- The tag object at `g`. -/
def tagAt (w : Card) (g : Nat) : Option BERTag :=
  match w g with
  | .tag t => some t
  | _ => none

/-- The argument `tag` of `find` and `findNext`: `None` or a tag object. -/
def tagArg (w : Card) : Option Nat → Option (Option BERTag)
  | none => some none
  | some g => (tagAt w g).map some

/-- `f` on the TLV object at `k`, once with its tag as a reference and once with its tag in place. -/
def onTLV (w : Card) (k : Nat) (f : TLVRef → BERTLV → Option Eff) : Option Eff :=
  match w k with
  | .tlv t => f t { constructed := t.constructed, tag := t.tag.bind (tagAt w), length := t.length, value := t.value }
  | _ => some wrong

/-- A new TLV object at `k`, its tag (if it has one) a new object at `g`. -/
def makeTLV (w : Card) (k g : Nat) (t : BERTLV) : Eff :=
  match t.tag with
  | none => make w k (.tlv ⟨t.constructed, none, t.length, t.value⟩)
  | some tag => match w k, w g with
    | .free, .free => if k = g then wrong else (.ok (.ref k), [(g, .tag tag), (k, .tlv ⟨t.constructed, some g, t.length, t.value⟩)])
    | _, _ => wrong

/-- The end of `find` and `findNext`: `None`, or a new TLV object made from the bytes found (bertlv.py:146, 150, 181, 184). -/
def found (w : Card) (k g : Nat) : Except Err (Option BERTLV) → Eff
  | .error e => (.error e, [])
  | .ok none => (.ok .nothing, [])
  | .ok (some t) => makeTLV w k g t

/-- The TLV at `k` (`t`, before) with the length and value of `x`, as `append` and `replaceValue` leave them. -/
def tlvTo (k : Nat) (t : TLVRef) (x : BERTLV) : List (Nat × Obj) := [(k, .tlv { t with length := x.length, value := x.value })]

/-! ### Keys and ciphers -/

/-- The argument `theKey` of a cipher's `init`: the key at that address, or (`None`, or any other object) something that is no key. The key
heap handed to the cipher's function is the key itself wherever it looks. -/
def keyArg (w : Card) : Option Nat → KeyArg × KeyHeap
  | none => (.notKey, fun _ => .des (DESKey.new 0 0))
  | some r => match w r with
    | .key k => (.key r, fun _ => k)
    | _ => (.notKey, fun _ => .des (DESKey.new 0 0))

/-- What is asked of a key: key.py:46-47, 55-59. -/
inductive KeyQuery where
  | isInitialized | getSize | getType
  deriving DecidableEq, Repr

/-- The answer. -/
def keyAsk (k : KeyObj) : KeyQuery → Out
  | .isInitialized => .bool k.isInitialized
  | .getSize => .int k.getSize
  | .getType => .int k.getType

/-- The questions one can ask about a tag, of the object (bertag.py:92, 101, 109, 117) or of an array (bertag.py:94-98, 103-106, 111-114, 119-122). -/
inductive TagQuery where
  | size | isConstructed | tagClass | tagNumber
  deriving DecidableEq, Repr

/-- An attribute that may still be `None`. -/
def orNone : Option Int → Out
  | none => .nothing
  | some n => .int n

/-- The answer of a tag object, bertag.py:92-93, 101-102, 109-110, 117-118. -/
def tagAsk (t : BERTag) : TagQuery → Out
  | .size => .int t.size
  | .isConstructed => .bool t.tagConstr
  | .tagClass => orNone t.tagClass
  | .tagNumber => orNone t.tagNumber

/-- The answer of the static version, about the tag at `off` in an array, bertag.py:94-98, 103-106, 111-114, 119-122. -/
def tagAskStatic (l : List Int) (off : Int) : TagQuery → Except Err Out
  | .size => (BERTag.sizeStatic l off).map .int
  | .isConstructed => (BERTag.isConstructedStatic l off).map .bool
  | .tagClass => (BERTag.tagClassStatic l off).map orNone
  | .tagNumber => (BERTag.tagNumberStatic l off).map orNone

/-- `genKeyPair`, keypair.py:38-58, for the pair `q` at `p` with the keys `x` and `y`: the new key objects are at `i` and `j`. -/
def genPair (env : CryptoEnv) (p : Nat) (q : PairRef) (x y : KeyObj) (i j : Nat) (t : TheKey) : Eff :=
  if x.isInitialized ∨ y.isInitialized then (.error ILLEGAL_VALUE, [])
  else if ¬ env.pycrypto then (.error NO_SUCH_ALGORITHM, [])
  else match q.algorithm, q.keylength with
    | some alg, some len =>
      if alg ≠ 1 ∧ alg ≠ 2 then (.error ILLEGAL_VALUE, [])
      else (.ok .nothing,
        [(i, .key (.rsa ((RSAKey.new true len).setTheKey env.pycrypto env.longSuffix t).2)),
         (j, .key (.rsa ((RSAKey.new false len).setTheKey env.pycrypto env.longSuffix t).2)),
         (p, .pair ⟨some alg, some len, i, j⟩)])
    | _, _ => (.error .attributeError, [])

/-! ### PINs, big numbers, AIDs -/

/-- `f` on the PIN argument: the characters given, or the list at an address. -/
def onPinArg (w : Card) (arg : List Int ⊕ Nat) (f : PinArg → Eff) : Eff :=
  match arg with
  | .inl codes => f (.str codes)
  | .inr r => onArray w r fun l => f (.arr l)

/-- What a call on a PIN returns. -/
def pinOut : OwnerPIN.Out → Except Err Out
  | .checked r => r.map .bool
  | .updated r => r.map fun _ => .nothing
  | .done => .ok .nothing

/-- The arithmetic of a big number, math.py:72-85. -/
inductive BigOp where
  | add | subtract | multiply
  deriving DecidableEq, Repr

/-- One operation. -/
def bigOp : BigOp → BigNumber → Option (List Int) → Int → Int → Int → Res BigNumber Unit
  | .add => BigNumber.add
  | .subtract => BigNumber.subtract
  | .multiply => BigNumber.multiply

/-! ### Steps -/

/-- One call of a program. New objects (first arguments, named `new…`) are put where the step says. -/
inductive Step where
  -- lists: literals and `makeTransient…Array`, indexing, util.py, intx.py, jcsystem.py:51-59
  | newArray (new : Nat) (l : List Int)
  | load (r : Nat) (i : Int)
  | store (r : Nat) (i v : Int)
  | arrayCopy (s : Nat) (so : Int) (d : Nat) (dOff len : Int)
  | arrayCopyNonAtomic (s : Nat) (so : Int) (d : Nat) (dOff len : Int)
  | arrayCompare (s : Nat) (so : Int) (d : Nat) (dOff len : Int)
  | arrayFill (r : Nat) (off len v : Int)
  | getShort (r : Nat) (off : Int)
  | setShort (r : Nat) (off v : Int)
  | getInt (r : Nat) (off : Int)
  | setInt (r : Nat) (off v1 v2 : Int)
  | availableMemory (r : Nat) (off memoryType : Int)
  | random (rnd : Nat → Nat) (r : Nat) (off len : Int)
  -- apdu.py
  | newAPDU (new newBuf r : Nat)
  | apdu (a : Nat) (op : APDU.Op)
  | sendBytesLong (a r : Nat) (off len : Int)
  | getBuffer (a : Nat)
  | askAPDU (a : Nat) (q : APDUQuery)
  | currentAPDU
  | currentAPDUBuffer
  | claChannel
  -- bertag.py
  | newTag (new : Nat) (constructed : Bool)
  | tagGetInstance (new r : Nat) (off : Int)
  | tagInitArray (g r : Nat) (off : Int)
  | tagInitNumber (g : Nat) (tagClass tagNumber : Int)
  | tagToBytes (g r : Nat) (off : Int)
  | tagEquals (g h : Nat)
  | askTag (g : Nat) (q : TagQuery)
  | askTagStatic (r : Nat) (off : Int) (q : TagQuery)
  | tagToBytesStatic (tagClass : Int) (constructed : Bool) (tagNumber : Int) (r : Nat) (off : Int)
  -- bertlv.py
  | newTLV (new : Nat) (constructed : Bool)
  | tlvGetInstance (new newTag r : Nat) (off : Int) (len : Option Int)
  | tlvInit (k newTag g r : Nat) (off len : Int)
  | tlvInitArray (k r : Nat) (off len : Int)
  | getTag (k : Nat)
  | tlvSize (k : Nat)
  | tlvLength (k : Nat)
  | lengthStatic (r : Nat) (off : Int)
  | valueOffset (r : Nat) (off : Int)
  | append (k j : Nat)
  | appendStatic (r : Nat) (off : Int) (r' : Nat) (off' : Int)
  | findStatic (r : Nat) (off : Int) (r' : Option Nat) (off' : Int)
  | findNextStatic (r : Nat) (off start : Int) (r' : Option Nat) (off' : Int)
  | find (new newTag k : Nat) (g : Option Nat)
  | findNext (new newTag k : Nat) (g : Option Nat) (j : Nat) (n : Int)
  | getValue (k r : Nat) (off : Int)
  | replaceValue (k r : Nat) (off len : Int)
  | tlvToBytes (k r : Nat) (off : Int)
  -- keybuilder.py, secretkey.py, publickey.py, privatekey.py, keypair.py
  | buildKey (new : Nat) (args : List Int)
  | setKey (k r : Nat) (off : Int)
  | getKey (k r : Nat) (off : Int)
  | setRSA (k : Nat) (exponent : Bool) (r : Nat) (off len : Int)
  | setTheKey (k : Nat) (t : TheKey)
  | getRSA (k : Nat) (exponent : Bool) (r : Nat) (off : Int)
  | clearKey (k : Nat)
  | askKey (k : Nat) (q : KeyQuery)
  | newPair (new newPub newPriv : Nat) (algorithm length : Int)
  | pairOf (new pub priv : Nat)
  | getPublic (p : Nat)
  | getPrivate (p : Nat)
  | genKeyPair (p newPub newPriv : Nat) (generated : TheKey)
  -- cipher.py
  | getCipher (new : Nat) (args : List Int)
  | desInit (c : Nat) (k : Option Nat) (mode : Int) (r : Nat) (off len : Int)
  | desInitDefault (c : Nat) (k : Option Nat) (mode : Int)
  | desFinal (c r : Nat) (off len : Int) (r' : Nat) (off' : Int)
  | rsaInit (c : Nat) (k : Option Nat) (mode : Int)
  | rsaFinal (c : Nat) (rnd : List Nat) (r : Nat) (off len : Int) (r' : Nat) (off' : Int)
  | cipherUpdate (c : Nat)
  -- messagedigest.py
  | getDigest (new : Nat) (algorithm : Int)
  | digestUpdate (d r : Nat) (off len : Int)
  | digestFinal (d r : Nat) (off len : Int) (r' : Nat) (off' : Int)
  | digestReset (d : Nat)
  -- ownerpin.py
  | newPIN (new : Nat) (tryLimit maxPINSize : Int)
  | pinCheck (i : Nat) (arg : List Int ⊕ Nat) (off len : Int)
  | pinUpdate (i : Nat) (arg : List Int ⊕ Nat) (off len : Int)
  | pinReset (i : Nat)
  | pinResetAndUnblock (i : Nat)
  | pinSetValidated (i : Nat) (v : Bool)
  | pinValidated (i : Nat)
  | pinTries (i : Nat)
  -- math.py
  | newBig (new : Nat) (maxBytes : Option Int)
  | bigInit (b : Nat) (r : Option Nat) (off len fmt : Int)
  | bigOp (op : BigOp) (b : Nat) (r : Option Nat) (off len fmt : Int)
  | bigCompare (b c : Nat)
  | bigCompareArray (b : Nat) (r : Option Nat) (off len fmt : Int)
  | bigToBytes (b r : Nat) (off len fmt : Int)
  -- aid.py
  | newAID (new r : Nat) (off len : Int)
  | aidEquals (a r : Nat) (off len : Int)
  | aidPartialEquals (a r : Nat) (off len : Int)
  | aidGetBytes (a r : Nat) (off : Int)
  | aidGetPartialBytes (a : Nat) (aidOff : Int) (r : Nat) (off len : Int)
  | aidRIDEquals (a b : Nat)
  | aidEq (a b : Nat)

/-- The calls on a PIN. -/
def onPIN (w : Card) (i : Nat) (op : OwnerPIN.Op) : Eff :=
  match w i with
  | .pin p => (pinOut (OwnerPIN.step p op).1, [(i, .pin (OwnerPIN.step p op).2)])
  | _ => wrong

/-- What a call does: its outcome and the objects it changed or made; `none` when it does not return within `fuel` iterations (the searches in
TLVs) or the random bytes given do not suffice. -/
def sem (env : CryptoEnv) (fuel : Nat) (w : Card) : Step → Option Eff
  | .newArray r l => some (make w r (.array l))
  | .load r i => some (onArray w r fun l => ((get l i).map .int, []))
  | .store r i v => some (onArray w r fun l => match set l i v with
    | .error e => (.error e, [])
    | .ok l' => (.ok .nothing, [(r, .array l')]))
  | .arrayCopy s so d dOff len => some (onArray w s fun a => onArray w d fun b =>
      if s = d then arrayTo d (Util.arrayCopySelf a so dOff len) else arrayTo d (Util.arrayCopy a so b dOff len))
  | .arrayCopyNonAtomic s so d dOff len => some (onArray w s fun a => onArray w d fun b =>
      if s = d then arrayTo d (let x := Util.arrayCopyNonAtomicRef (Util.twoLists a []) 0 so 0 dOff len; (x.1, x.2 0))
      else arrayTo d (Util.arrayCopyNonAtomic a so b dOff len))
  | .arrayCompare s so d dOff len => some (onArray w s fun a => onArray w d fun b => ((Util.arrayCompare a so b dOff len).map .int, []))
  | .arrayFill r off len v => some (onArray w r fun l => arrayTo r (Util.arrayFillNonAtomic l off len v))
  | .getShort r off => some (onArray w r fun l => ((Util.getShort l off).map .int, []))
  | .setShort r off v => some (onArray w r fun l => arrayTo r (Util.setShort l off v))
  | .getInt r off => some (onArray w r fun l => ((JCint.getInt l off).map .int, []))
  | .setInt r off v1 v2 => some (onArray w r fun l => arrayToInt r (JCint.setInt l off v1 v2))
  | .availableMemory r off m => some (onArray w r fun l =>
      arrayTo r ((JCSystem.getAvailableMemory3 (some l) off m).1, (JCSystem.getAvailableMemory3 (some l) off m).2.getD l))
  | .random rnd r off len => some (onArray w r fun l => arrayTo r (RandomData.generateData rnd l off len))
  | .newAPDU a b r => some (match w a, w b, w MODULE with
    | .free, .free, .apduModule _ => if a = b then wrong else onArray w r fun l => newAPDU a r b l
    | _, _, _ => wrong)
  | .apdu a op => some (onAPDU w a fun r b raw buf x => apduStep a r b raw buf op x)
  | .sendBytesLong a r' off len => some (onArray w r' fun d => onAPDU w a fun r b raw buf x => apduStep a r b raw buf (.sendBytesLong d off len) x)
  | .getBuffer a => some (onAPDU w a fun _ b _ _ _ => (.ok (.ref b), []))
  | .askAPDU a q => some (onAPDU w a fun _ _ raw _ x => (apduAsk raw q x, []))
  | .currentAPDU => some (match current w with
    | none => (.ok .nothing, [])
    | some a => (.ok (.ref a), []))
  | .currentAPDUBuffer => some (match current w with
    | none => (.error .attributeError, [])
    | some a => onAPDU w a fun _ b _ _ _ => (.ok (.ref b), []))
  | .claChannel => some (match current w with
    | none => (.error .attributeError, [])
    | some a => onAPDU w a fun _ _ _ buf _ => ((get buf 0).map fun cla => .int (iand cla 0x3), []))
  | .newTag g c => some (make w g (.tag (BERTag.new c)))
  | .tagGetInstance g r off => some (onArray w r fun l => makeOr w g ((BERTag.getInstance l off).map .tag))
  | .tagInitArray g r off => some (onArray w r fun l => match tagAt w g with
    | none => wrong
    | some t => ((t.initArray l off).1.map fun _ => .nothing, [(g, .tag (t.initArray l off).2)]))
  | .tagInitNumber g cls num => some (match tagAt w g with
    | none => wrong
    | some t => (.ok .nothing, [(g, .tag (t.initNumber cls num))]))
  | .tagToBytes g r off => some (onArray w r fun l => match tagAt w g with
    | none => wrong
    | some t => arrayToInt r (t.toBytes l off))
  | .tagEquals g h => some (match tagAt w g, tagAt w h with
    | some t, some u => (.ok (.bool (BERTag.eq t u)), [])
    | _, _ => wrong)
  | .askTag g q => some (match tagAt w g with
    | none => wrong
    | some t => (.ok (tagAsk t q), []))
  | .askTagStatic r off q => some (onArray w r fun l => (tagAskStatic l off q, []))
  | .tagToBytesStatic cls c num r off => some (onArray w r fun l => arrayToInt r (BERTag.toBytesStatic cls c num l off))
  | .newTLV k c => some (make w k (.tlv ⟨c, none, (BERTLV.new c).length, (BERTLV.new c).value⟩))
  | .tlvGetInstance k g r off len => some (onArray w r fun l => found w k g ((BERTLV.getInstance l off len).map some))
  | .tlvInit k g' g r off len => onTLV w k fun t x => some (onArray w r fun l => match tagAt w g, w g' with
    | some tag, .free => ((x.initTag tag l off len).size.map .int,
        [(g', .tag tag), (k, .tlv ⟨t.constructed, some g', (x.initTag tag l off len).length, (x.initTag tag l off len).value⟩)])
    | _, _ => wrong)
  | .tlvInitArray k r off len => onTLV w k fun t x => some (onArray w r fun l =>
      ((x.initArray l off len).1.map .int, tlvTo k t (x.initArray l off len).2))
  | .getTag k => onTLV w k fun t _ => some (.ok (t.tag.elim .nothing .ref), [])
  | .tlvSize k => onTLV w k fun _ x => some (x.size.map .int, [])
  | .tlvLength k => onTLV w k fun _ x => some (.ok (.int x.length), [])
  | .lengthStatic r off => some (onArray w r fun l => ((BERTLV.getLengthStatic l off).map .int, []))
  | .valueOffset r off => some (onArray w r fun l => ((BERTLV.getValueOffset l off).map .int, []))
  | .append k j => onTLV w k fun t x => onTLV w j fun _ y => some ((x.append y).1.map .int, tlvTo k t (x.append y).2)
  | .appendStatic r off r' off' => some (onArray w r fun a => onArray w r' fun b => arrayToInt r' (BERTLV.appendStatic a off b off'))
  | .findStatic r off r' off' => match w r, arrayArg w r' with
    | .array l, some t => (BERTLV.findStatic l off t off' fuel).map fun (o : Except Err Int) => (o.map .int, [])
    | _, _ => some wrong
  | .findNextStatic r off start r' off' => some (onArray w r fun l => onOptArray w r' fun t =>
      ((BERTLV.findNextStatic l off start t off').map .int, []))
  | .find k' g' k g => onTLV w k fun _ x => match tagArg w g with
    | none => some wrong
    | some tag => (x.find tag fuel).map (found w k' g')
  | .findNext k' g' k g j n => onTLV w k fun _ x => onTLV w j fun _ y => match tagArg w g with
    | none => some wrong
    | some tag => (x.findNext tag y n fuel).map (found w k' g')
  | .getValue k r off => onTLV w k fun _ x => some (onArray w r fun l => arrayToInt r (x.getValue l off))
  | .replaceValue k r off len => onTLV w k fun t x => some (onArray w r fun l =>
      ((x.replaceValue l off len).1.map fun _ => .nothing, tlvTo k t (x.replaceValue l off len).2))
  | .tlvToBytes k r off => onTLV w k fun _ x => some (onArray w r fun l => arrayToInt r (x.toBytes l off))
  | .buildKey k args => some (match Model.buildKey args with
    | .error e => (.error e, [])
    | .ok none => (.ok .nothing, [])
    | .ok (some x) => make w k (.key x))
  | .setKey k r off => some (onArray w r fun l => match w k with
    | .key (.des d) => (.ok .nothing, [(k, .key (.des (d.setKey l off)))])
    | .key (.rsa _) => (.error .attributeError, [])
    | _ => wrong)
  | .getKey k r off => some (onArray w r fun l => match w k with
    | .key (.des d) => arrayTo r (d.getKey l off)
    | .key (.rsa _) => (.error .attributeError, [])
    | _ => wrong)
  | .setRSA k exponent r off len => some (onArray w r fun l => match w k with
    | .key (.rsa x) =>
      let y := if exponent then x.setExponent env.pycrypto l off len else x.setModulus env.pycrypto l off len
      (y.1.map fun _ => .nothing, [(k, .key (.rsa y.2))])
    | .key (.des _) => (.error .attributeError, [])
    | _ => wrong)
  | .setTheKey k t => some (match w k with
    | .key (.rsa x) => ((x.setTheKey env.pycrypto env.longSuffix t).1.map fun _ => .nothing, [(k, .key (.rsa (x.setTheKey env.pycrypto env.longSuffix t).2))])
    | .key (.des _) => (.error .attributeError, [])
    | _ => wrong)
  | .getRSA k exponent r off => some (onArray w r fun l => match w k with
    | .key (.rsa x) => arrayToInt r (if exponent then x.getExponent l off else x.getModulus l off)
    | .key (.des _) => (.error .attributeError, [])
    | _ => wrong)
  | .clearKey k => some (match w k with
    | .key _ => (.ok .nothing, [])
    | _ => wrong)
  | .askKey k q => some (match w k with
    | .key x => (.ok (keyAsk x q), [])
    | _ => wrong)
  | .newPair p i j alg len => some (match w p, w i, w j with
    | .free, .free, .free =>
      if p = i ∨ p = j ∨ i = j then wrong
      else if alg = 1 ∨ alg = 2 then
        (.ok (.ref p), [(i, .key (.rsa (RSAKey.new true len))), (j, .key (.rsa (RSAKey.new false len))), (p, .pair ⟨some alg, some len, i, j⟩)])
      else (.error NO_SUCH_ALGORITHM, [])
    | _, _, _ => wrong)
  | .pairOf p i j => some (match w i, w j with
    | .key a, .key b => match KeyPair.ofKeys a b with
      | .error e => (.error e, [])
      | .ok _ => make w p (.pair ⟨none, none, i, j⟩)
    | _, _ => wrong)
  | .getPublic p => some (match w p with
    | .pair q => (.ok (.ref q.publicKey), [])
    | _ => wrong)
  | .getPrivate p => some (match w p with
    | .pair q => (.ok (.ref q.privateKey), [])
    | _ => wrong)
  | .genKeyPair p i j t => some (match w p, w i, w j with
    | .pair q, .free, .free => match w q.publicKey, w q.privateKey with
      | .key x, .key y => if i = j then wrong else genPair env p q x y i j t
      | _, _ => wrong
    | _, _, _ => wrong)
  | .getCipher c args => some (match cipherGetInstance args with
    | .error e => (.error e, [])
    | .ok (.des, b) => make w c (.des (DESCipher.new b.algorithm))
    | .ok (.rsa, b) => make w c (.rsa (RSACipher.new b.algorithm)))
  | .desInit c k mode r off len => some (onArray w r fun l => match w c with
    | .des x => ((x.init (keyArg w k).2 (keyArg w k).1 mode l off len).1.map fun _ => .nothing, [(c, .des (x.init (keyArg w k).2 (keyArg w k).1 mode l off len).2)])
    | _ => wrong)
  | .desInitDefault c k mode => some (match w c with
    | .des x => ((x.initDefault (keyArg w k).2 (keyArg w k).1 mode).1.map fun _ => .nothing, [(c, .des (x.initDefault (keyArg w k).2 (keyArg w k).1 mode).2)])
    | _ => wrong)
  | .desFinal c r off len r' off' => some (onArray w r fun a => onArray w r' fun b => match w c with
    | .des x => ((x.doFinal a off len b off').1.map .int, [(r', .array (x.doFinal a off len b off').2.1), (c, .des (x.doFinal a off len b off').2.2)])
    | _ => wrong)
  | .rsaInit c k mode => some (match w c with
    | .rsa x => ((x.init (keyArg w k).2 (keyArg w k).1 mode).1.map fun _ => .nothing, [(c, .rsa (x.init (keyArg w k).2 (keyArg w k).1 mode).2)])
    | _ => wrong)
  | .rsaFinal c rnd r off len r' off' => match w c, w r, w r' with
    | .rsa x, .array a, .array b =>
      (x.doFinal (keyArg w x.theKey).2 env.ops env.longSuffix rnd a off len b off').map fun y => (y.1.map .int, [(r', .array y.2)])
    | _, _, _ => some wrong
  | .cipherUpdate c => some (match w c with
    | .des x => (x.update.map fun _ => .nothing, [])
    | .rsa x => (x.update.map fun _ => .nothing, [])
    | _ => wrong)
  | .getDigest d alg => some (makeOr w d ((MessageDigest.getInstance alg).map .digest))
  | .digestUpdate d r off len => some (onArray w r fun l => match w d with
    | .digest x => ((x.update l off len).1.map fun _ => .nothing, [(d, .digest (x.update l off len).2)])
    | _ => wrong)
  | .digestFinal d r off len r' off' => some (onArray w r fun a => onArray w r' fun b => match w d with
    | .digest x => ((x.doFinal env.hash a off len b off').1.map .int,
        [(r', .array (x.doFinal env.hash a off len b off').2.1), (d, .digest (x.doFinal env.hash a off len b off').2.2)])
    | _ => wrong)
  | .digestReset d => some (match w d with
    | .digest x => (.ok .nothing, [(d, .digest x.reset)])
    | _ => wrong)
  | .newPIN i limit size => some (make w i (.pin (OwnerPIN.init limit size)))
  | .pinCheck i arg off len => some (onPinArg w arg fun a => onPIN w i (.check a off len))
  | .pinUpdate i arg off len => some (onPinArg w arg fun a => onPIN w i (.update a off len))
  | .pinReset i => some (onPIN w i .reset)
  | .pinResetAndUnblock i => some (onPIN w i .resetAndUnblock)
  | .pinSetValidated i v => some (onPIN w i (.setValidatedFlag v))
  | .pinValidated i => some (match w i with
    | .pin p => (.ok (.bool p.isValidated), [])
    | _ => wrong)
  | .pinTries i => some (match w i with
    | .pin p => (.ok (.int p.getTriesRemaining), [])
    | _ => wrong)
  | .newBig b m => some (makeOr w b ((BigNumber.new m).map .big))
  | .bigInit b r off len fmt => some (onOptArray w r fun l => match w b with
    | .big x => ((x.init l off len fmt).1.map fun _ => .nothing, [(b, .big (x.init l off len fmt).2)])
    | _ => wrong)
  | .bigOp op b r off len fmt => some (onOptArray w r fun l => match w b with
    | .big x => ((bigOp op x l off len fmt).1.map fun _ => .nothing, [(b, .big (bigOp op x l off len fmt).2)])
    | _ => wrong)
  | .bigCompare b c => some (match w b, w c with
    | .big x, .big y => ((x.compareTo y).map .int, [])
    | _, _ => wrong)
  | .bigCompareArray b r off len fmt => some (onOptArray w r fun l => match w b with
    | .big x => ((x.compareToArray l off len fmt).map .int, [])
    | _ => wrong)
  | .bigToBytes b r off len fmt => some (onArray w r fun l => match w b with
    | .big x => arrayTo r (x.toBytes l off len fmt)
    | _ => wrong)
  | .newAID a r off len => some (onArray w r fun l => makeOr w a ((AID.mk' l off len).map .aid))
  | .aidEquals a r off len => some (onArray w r fun l => match w a with
    | .aid x => ((x.equals l off len).map .bool, [])
    | _ => wrong)
  | .aidPartialEquals a r off len => some (onArray w r fun l => match w a with
    | .aid x => ((x.partialEquals l off len).map .bool, [])
    | _ => wrong)
  | .aidGetBytes a r off => some (onArray w r fun l => match w a with
    | .aid x => arrayToInt r (x.getBytes l off)
    | _ => wrong)
  | .aidGetPartialBytes a aidOff r off len => some (onArray w r fun l => match w a with
    | .aid x => arrayToInt r (x.getPartialBytes aidOff l off len)
    | _ => wrong)
  | .aidRIDEquals a b => some (match w a, w b with
    | .aid x, .aid y => (.ok (.bool (x.RIDEquals y)), [])
    | _, _ => wrong)
  | .aidEq a b => some (match w a, w b with
    | .aid x, .aid y => (.ok (.bool (x.eq y)), [])
    | _, _ => wrong)

/-- One call: the outcome, and the card afterwards. -/
def step (env : CryptoEnv) (fuel : Nat) (w : Card) (s : Step) : Option (Except Err Out × Card) :=
  (sem env fuel w s).map fun e => (e.1, w.put e.2)

/-- The outcomes of the calls of a program and the card after it; `none` when one of them does not return. -/
def run (env : CryptoEnv) (fuel : Nat) (w : Card) : List Step → Option (List (Except Err Out) × Card)
  | [] => some ([], w)
  | s :: ss => match step env fuel w s with
    | none => none
    | some (o, w') => (run env fuel w' ss).map fun x => (o :: x.1, x.2)

end Card
end Verif.Model
