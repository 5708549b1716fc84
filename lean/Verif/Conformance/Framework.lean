import Verif.Model.AID
import Verif.Model.Util
import Verif.Model.OwnerPIN
import Verif.Model.BigNumber
import Verif.Model.BERTag
import Verif.Model.BERTLV
import Verif.Model.Exceptions
import Verif.Model.APDU
import Verif.Model.Applets

/-!
The project's own unit tests, transcribed and evaluated in the model. These are **tests of the model** (does it agree with what
the authors of the code expect the code to do?), not proofs of properties: no entry of MANIFEST.json refers to this file.
-/
namespace Verif.Conformance
open Verif.Py Verif.Model

/-! ### /repo/test/testAID.py -/

abbrev eight : List Int := [0xA0, 0x00, 0x00, 0x00, 0x62, 0x03, 0x04, 0x00]
abbrev digits8 : List Int := [0x01, 0x02, 0x03, 0x04, 0x05, 0x06, 0x07, 0x08]
abbrev digits9 : List Int := [0x00, 0x01, 0x02, 0x03, 0x04, 0x05, 0x06, 0x07, 0x08]

-- testInit, testAID.py:8-27
example : (AID.mk' eight 0 8).map (fun a => a.aid[4]?) = .ok (some 0x62) := by decide
example : AID.mk' eight 4 4 = .error .valueError := by decide
example : (AID.mk' (eight ++ [0x03, 0x07]) 4 6).map (fun a => a.aid[0]?) = .ok (some 0x62) := by decide
example : AID.mk' [7, 8, 9, 0xA0, 0x00, 0x00] 3 5 = .error .arrayIndexOutOfBounds := by decide

-- testEquals, testAID.py:29-39
example : (⟨digits8⟩ : AID).equals digits9 1 8 = .ok true := by decide
example : (⟨digits8⟩ : AID).equals digits9 1 7 = .ok false := by decide
example : (⟨digits8⟩ : AID).equals digits9 0 8 = .ok false := by decide
example : (⟨digits8⟩ : AID).equals [7, 8, 9, 10, 11, 12, 0xA0, 0x00, 0x00, 0x00, 0x00, 0x61, 0x62] 6 8 = .error .arrayIndexOutOfBounds := by
  decide

-- testEquality, testAID.py:41-45
example : AID.mk' digits8 0 8 = .ok ⟨digits8⟩ ∧ AID.mk' digits9 1 8 = .ok ⟨digits8⟩ := by decide
example : (AID.mk' digits9 1 7).map (AID.eq ⟨digits8⟩) = .ok false := by decide
example : (AID.mk' digits9 0 8).map (AID.eq ⟨digits8⟩) = .ok false := by decide

-- testgetBytes, testAID.py:47-57
example : ((⟨eight⟩ : AID).getBytes (List.replicate 100 0) 5).1 = .ok 8 := by decide
example : slice ((⟨eight⟩ : AID).getBytes (List.replicate 100 0) 5).2 5 (5 + 8) = eight := by decide
example : ((⟨eight⟩ : AID).getBytes [] 5).1 = .error .arrayIndexOutOfBounds := by decide

-- testRIDEquals, testAID.py:65-71
example : AID.RIDEquals ⟨digits8⟩ ⟨[0x01, 0x02, 0x03, 0x04, 0x05, 0xF8, 0x07, 0xFF]⟩ = true := by decide
example : AID.RIDEquals ⟨digits8⟩ ⟨[0x01, 0xA6, 0x03, 0xC9, 0x05, 0x06, 0x07, 0x08]⟩ = false := by decide
example : AID.eq ⟨[0x01, 0x02, 0x03, 0x04, 0x05, 0xF8, 0x07, 0xFF]⟩ ⟨digits8⟩ = false := by decide

/-! ### /repo/test/testUtil.py -/

-- testArrayCompare, testUtil.py:9-39 (`a1[3] = a2[0]` before the last three)
example : Util.arrayCompare [1, 2, 3, 4] 0 [0, 1, 2, 3, 4] 1 4 = .ok 0 := by decide
example : Util.arrayCompare [1, 2, 3, 4] 2 [0, 1, 2, 3, 4] 0 2 = .ok 1 := by decide
example : Util.arrayCompare [0, 1, 2, 3, 4] 0 [1, 2, 3, 4] 2 2 = .ok (-1) := by decide
example : Util.arrayCompare [1, 2, 3, 0] 3 [0, 1, 2, 3, 4] 0 5 = .error .arrayIndexOutOfBounds := by decide
example : Util.arrayCompare [1, 2, 3, 0] 8 [0, 1, 2, 3, 4] 0 5 = .error .arrayIndexOutOfBounds := by decide
example : Util.arrayCompare [1, 2, 3, 0] 0 [0, 1, 2, 3, 4] 8 5 = .error .arrayIndexOutOfBounds := by decide

-- testArrayCopy, testUtil.py:41-46
example : (Util.arrayCopy [1, 2, 3, 4, 5] 2 [0, 0, 0, 0, 0, 0, 0, 0, 0] 0 3).1 = .ok () := by decide
example : slice (Util.arrayCopy [1, 2, 3, 4, 5] 2 [0, 0, 0, 0, 0, 0, 0, 0, 0] 0 3).2 0 3 = [3, 4, 5] := by decide

-- testShort, testUtil.py:48-57: 30 random pairs there, four pairs here (C10 is the theorem for all pairs)
example : ∀ q ∈ [((-128 : Int), (127 : Int)), (0, -1), (18, 52), (-1, -128)],
    let s := Util.makeShort q.1 q.2
    let a := (Util.setShort [0, 0, 0, 0] 1 s).2
    a[1]? = some q.1 ∧ a[2]? = some q.2 ∧ Util.getShort a 1 = .ok s := by decide

/-! ### /repo/test/testOwnerPIN.py -/

/-- A Python text literal as the model sees it: its character codes. -/
def txt (s : String) : PinArg := .str (s.toList.map fun c => (c.toNat : Int))

/-- Run calls and return what each returned. -/
def pinOuts (p : OwnerPIN) : List OwnerPIN.Op → List OwnerPIN.Out
  | [] => []
  | op :: ops => (p.step op).1 :: pinOuts (p.step op).2 ops

-- testOk, testOwnerPIN.py:7-17
example :
    let p0 := OwnerPIN.init 3 15
    let p1 := (p0.update (txt "1234") 0 4).2
    let c := p1.check (txt "oo1234--") 2 4
    let p2 := c.2.reset
    let c3 := p2.check (txt "123456") 0 3
    let c4 := c3.2.check (txt "1111") 0 4
    p0.isValidated = false ∧ (p0.update (txt "1234") 0 4).1 = .ok () ∧ c.1 = .ok true ∧ c.2.isValidated = true ∧
      p2.isValidated = false ∧ c3.1 = .ok false ∧ c4.1 = .ok false ∧ c4.2.getTriesRemaining = 1 := by decide +kernel

/-- The array of testRetryCounter, testOwnerPIN.py:21. -/
abbrev pinArr : PinArg := .arr [0, 0, 1, 2, 3, 4, 5, 6, 7, 8, 9, 0]

/-- `for i in range(..): assertEqual(i, pin.getTriesRemaining()); assertFalse(pin.check("0000", 0, 4))`, testOwnerPIN.py:23-28: the
counters seen, and whether every check failed. -/
def wrongTries (p : OwnerPIN) : Nat → List Int × Bool × OwnerPIN
  | 0 => ([], true, p)
  | n + 1 =>
    let r := p.check (txt "0000") 0 4
    let rest := wrongTries r.2 n
    (p.getTriesRemaining :: rest.1, decide (r.1 = .ok false) && rest.2.1, rest.2.2)

-- testRetryCounter, testOwnerPIN.py:19-38
example :
    let p1 := ((OwnerPIN.init 9 6).update pinArr 3 5).2
    let c := p1.check pinArr 3 5
    let w := wrongTries c.2 14
    let c2 := w.2.2.check pinArr 3 5
    let c3 := c2.2.resetAndUnblock.check pinArr 3 5
    let w2 := wrongTries c3.2 14
    let c4 := w2.2.2.check pinArr 3 5
    c.1 = .ok true ∧ w.1 = [9, 8, 7, 6, 5, 4, 3, 2, 1, 0, 0, 0, 0, 0] ∧ w.2.1 = true ∧ c2.1 = .ok false ∧
      c3.1 = .ok true ∧ w2.1 = [9, 8, 7, 6, 5, 4, 3, 2, 1, 0, 0, 0, 0, 0] ∧ w2.2.1 = true ∧ c4.1 = .ok false := by decide +kernel

/-! ### /repo/test/testBigNum.py -/

/-- `bn = BigNumber(8); bn.init(array, 0, 2, format)`. -/
def bn8 (array : List Int) (fmt : Int) : Except Err BigNumber :=
  (BigNumber.new (some 8)).bind fun bn => match bn.init (some array) 0 2 fmt with
    | (.ok (), b) => .ok b
    | (.error e, _) => .error e

-- testInitBCD, testInitHEX, testBigNum.py:7-15
example : (bn8 [-128, 0x00] BigNumber.FORMAT_BCD).map (·.value) = .ok (some 8000) := by decide
example : (bn8 [0x10, 0x00] BigNumber.FORMAT_HEX).map (·.value) = .ok (some 4096) := by decide

-- testtoBytesBCD, testtoBytesHEX, testBigNum.py:17-29
example : (bn8 [0x12, -128] BigNumber.FORMAT_BCD).map (fun b => sliceTo (b.toBytes [0, 0, 0] 0 2 BigNumber.FORMAT_BCD).2 2) =
    .ok [0x12, -128] := by decide +kernel
example : (bn8 [-127, 0x34] BigNumber.FORMAT_HEX).map (fun b => sliceTo (b.toBytes [0, 0, 0] 0 2 BigNumber.FORMAT_HEX).2 2) =
    .ok [-127, 0x34] := by decide +kernel

/-! ### The helpers of /repo/test/tlvtag.py (test code, transcribed) -/

/-- `sanitycheck`, test/tlvtag.py:7-11. -/
def tSane (l : List Int) : List Int := l.map fun v => if v > 127 then -(iand (-(v - 1) - 1) 255) else v

/-- The chunks of `Tag.__init__`, test/tlvtag.py:16-20. -/
def tChunks : Nat → Nat → List Nat
  | 0, _ => []
  | fuel + 1, n => if n = 0 then [] else n % 128 :: tChunks fuel (n / 128)

/-- `Tag(cls, constr, number)`, test/tlvtag.py:13-30. -/
def tTag (cls : Int) (constr : Bool) (number : Nat) : List Int :=
  let first := cls * 64 + (if constr then 32 else 0)
  if number ≥ 31 then
    let body := (tChunks 100 number).reverse.map fun (c : Nat) => (128 + c : Int)
    tSane ((first + 31) :: (body.dropLast ++ body.getLast?.toList.map fun c => iand c 127))
  else tSane [first + number]

/-- `TLV(tag, value)` for values of at most 127 bytes, test/tlvtag.py:32-46. -/
def tTLV (tag value : List Int) : List Int := tSane (tag ++ [(value.length : Int)] ++ value)

/-! ### /repo/test/testTLVTag.py -/

-- testConstrInit, testTLVTag.py:9-14
example : let t := (BERTag.new true).initNumber 3 1
    t.tagClass = some 3 ∧ t.tagConstr = true ∧ t.tagNumber = some 1 := by decide

-- testGetInstance, testTLVTag.py:16-25
example : (BERTag.getInstance (tTag 3 true 5) 0).map (fun t => (t.tagClass, t.tagConstr, t.tagNumber)) =
    .ok (some 3, true, some 5) := by decide +kernel
example : (BERTag.getInstance (tTag 2 false 6780087076965536589667) 0).map (fun t => (t.tagClass, t.tagConstr, t.tagNumber)) =
    .ok (some 2, false, some 6780087076965536589667) := by decide +kernel

-- StaticTest.testtoBytes, testTLVTag.py:29-40 (the three calls write to the same array)
example :
    let r1 := BERTag.toBytesStatic 1 false 5 (List.replicate 10 0) 0
    let r2 := BERTag.toBytesStatic 1 false 0x3fff r1.2 0
    let r3 := BERTag.toBytesStatic 3 true 1 r2.2 3
    r1.1 = .ok 1 ∧ r1.2[0]? = some 0x45 ∧ r2.1 = .ok 3 ∧ r2.2[0]? = some 0x5f ∧ r2.2[1]? = some (-1) ∧ r2.2[2]? = some 0x7f ∧
      r3.1 = .ok 1 ∧ r3.2[3]? = some (-31) := by decide +kernel

/-! ### /repo/test/testTLVTLV.py -/

-- testConstrInit, testTLVTLV.py:10-16
example :
    let tag := (BERTag.new true).initNumber 3 1
    let array := (tag.toBytes (List.replicate 10 0) 0).2
    (BERTLV.getInstance array 0 (some 2)).map (fun tlv => tlv.tag.map (BERTag.eq tag)) = .ok (some true) := by decide +kernel

/-- The TLV of testTLVTLV.py:21-26 (and 44-49, 54-59). -/
def findTLV : Except Err BERTLV := BERTLV.getInstance
  (tTLV (tTag 0 true 8) (tTLV (tTag 0 false 7) [0, 6, 7, 56] ++ tTLV (tTag 2 false 5) [89, 4, 3, 6, 1, 6])) 0 none

/-- `BERTag.getInstance(tag, 0)` for an array that is a tag. -/
def theTag (l : List Int) : Option BERTag := (BERTag.getInstance l 0).toOption

/-- What the tests look at in a TLV that was found: is its tag the expected one, and what does `getValue` give. -/
def found (want : List Int) : Option (Except Err (Option BERTLV)) → Option (Bool × Except Err Int × List Int)
  | some (.ok (some t)) =>
    let r := t.getValue (List.replicate 10 0) 0
    some (decide (t.tag = theTag want), r.1, sliceTo r.2 (match r.1 with | .ok n => n | .error _ => 0))
  | _ => none

-- testfindOk, testTLVTLV.py:20-40
example : (findTLV.map fun t => found (tTag 0 false 7) (t.find (theTag (tTag 0 false 7)) 100)) =
    .ok (some (true, .ok 4, [0, 6, 7, 56])) := by decide +kernel
example : (findTLV.map fun t => found (tTag 2 false 5) (t.find (theTag (tTag 2 false 5)) 100)) =
    .ok (some (true, .ok 6, [89, 4, 3, 6, 1, 6])) := by decide +kernel

-- testfindNOK, testTLVTLV.py:42-51
example : (findTLV.map fun t => t.find (theTag (tTag 0 false 3)) 100) = .ok (some (.ok none)) := by decide +kernel

-- testfindFirst, testTLVTLV.py:53-67
example : (findTLV.map fun t => found (tTag 0 false 7) (t.find none 100)) = .ok (some (true, .ok 4, [0, 6, 7, 56])) := by
  decide +kernel

-- testfindFirstNOK, testTLVTLV.py:69-74
example : ((BERTLV.getInstance (tTLV (tTag 0 true 17) []) 0 none).map fun t => t.find none 100) = .ok (some (.ok none)) := by
  decide +kernel

abbrev tag1 : List Int := tTag 0 false 1
abbrev tag2 : List Int := tTag 2 false 2

/-- The TLV of testTLVTLV.py:81-91 (and 115-125). -/
def nextTLV : Except Err BERTLV := BERTLV.getInstance
  (tTLV (tTag 0 true 0) (tTLV tag1 [0, 6, 7, 56] ++ tTLV tag2 [89, 4, 3, 6, 1, 6] ++ tTLV tag2 [0, 6, 7, 56] ++
    tTLV tag1 [89, 4, 3, 3, 1, 6, 7, 8] ++ tTLV tag2 [0, 6, 7, 0, 0, 0, 0] ++ tTLV tag1 [0, 6, 7, 56] ++ tTLV tag1 [89, 4])) 0 none

/-- `tlv2 = tlv.find(tag1); tlv.findNext(tag, tlv2, n)`. -/
def nextAfter (tag : List Int) (n : Int) : Except Err (Option (Except Err (Option BERTLV))) :=
  nextTLV.map fun t => match t.find (theTag tag1) 100 with
    | some (.ok (some tlv2)) => t.findNext (theTag tag) tlv2 n 100
    | _ => none

-- testfindNextOK, testTLVTLV.py:78-110
example : (nextAfter tag1 1).map (found tag1) = .ok (some (true, .ok 8, [89, 4, 3, 3, 1, 6, 7, 8])) := by decide +kernel
example : (nextAfter tag1 2).map (found tag1) = .ok (some (true, .ok 2, [89, 4])) := by decide +kernel

-- testfindNextNOK, testTLVTLV.py:112-130
example : nextAfter (tTag 0 false 5) 1 = .ok (some (.ok none)) := by decide +kernel

/-! ### /repo/test/testExceptions.py, testMemory.py -/

-- testthrowIt, testExceptions.py:11-17 (ISO7816.SW_NO_ERROR = 0x9000)
example : (Exc.throwIt .iso 0x9000).cls.caughtBy .iso = true ∧ (Exc.throwIt .iso 0x9000).getReason = .ok 0x9000 := ⟨by decide, rfl⟩
-- testInheritance, testExceptions.py:19-25
example : ExcClass.caughtBy .arrayIndexOutOfBounds .indexOutOfBounds = true := by decide
-- testCryptoException, testExceptions.py:27-32
example : (Exc.new .crypto 2).cls.caughtBy .crypto = true ∧ (Exc.new .crypto 2).getReason = .ok 2 := ⟨by decide, rfl⟩
-- testRemote, testExceptions.py:34-40
example : ExcClass.caughtBy .remoteException .ioException = true := by decide
-- Mifare, testMemory.py:7-12 (ExternalException.NO_SUCH_SUBSYSTEM = 1)
example : getMemoryAccessInstance 1 [] 0 = .error (.external 1) := rfl

/-! ### /repo/test/testAPDU.py -/

/-- Run calls on an APDU and record the outcome and the state after each. -/
def apduTrace (a : APDU) : List APDU.Op → List (Except Err Int × Int)
  | [] => []
  | op :: ops => ((a.step op).1, (a.step op).2.getCurrentState) :: apduTrace (a.step op).2 ops

abbrev verify : List Int := [0x00, 0x20, 0x01, 0x00, 0x04, 0x31, 0x32, 0x33, 0x34]

-- testState, testAPDU.py:7-22
example : (APDU.init (verify ++ [0x00])).map (fun a => (a.getCurrentState, apduTrace a [.setIncomingAndReceive, .receiveBytes 5,
      .setOutgoing, .setOutgoingLength 10, .sendBytes 0 2, .sendBytes 0 8] |>.map (·.2))) =
    .ok (APDU.STATE_INITIAL, [APDU.STATE_FULL_INCOMING, APDU.STATE_FULL_INCOMING, APDU.STATE_OUTGOING,
      APDU.STATE_OUTGOING_LENGTH_KNOWN, APDU.STATE_PARTIAL_OUTGOING, APDU.STATE_FULL_OUTGOING]) := by decide +kernel
-- … and none of these calls raises
example : (APDU.init (verify ++ [0x00])).map (fun a => (apduTrace a [.setIncomingAndReceive, .receiveBytes 5,
      .setOutgoing, .setOutgoingLength 10, .sendBytes 0 2, .sendBytes 0 8]).all fun r => r.1.isOk) = .ok true := by decide +kernel

-- testBuffer, testAPDU.py:24-37
example : (APDU.init verify).map (fun a => a.buffer.take 4) = .ok [0x00, 0x20, 0x01, 0x00] := by decide +kernel
example : (APDU.init verify).map (fun a => (a.run [.poke 0 1, .poke 1 2, .poke 2 3]).buffer.take 3) = .ok [1, 2, 3] := by
  decide +kernel

-- testAPDUDoc, testAPDU.py:39-75
example : (APDU.init (verify ++ [0x00])).map (fun a => (a.buffer[0]?, a.buffer[1]?, a.buffer[4]?, a.setIncomingAndReceive.1)) =
    .ok (some 0, some 0x20, some 4, .ok 4) := by decide +kernel
example : (APDU.init (verify ++ [0x00])).map (fun a =>
      let a := a.run [.setIncomingAndReceive, .receiveBytes 5, .setOutgoing, .setOutgoingLength 3, .poke 0 1, .poke 1 2, .poke 3 3]
      ((a.sendBytes 0 3).1, (a.sendBytes 0 3).2.getCurrentState)) = .ok (.ok (), APDU.STATE_FULL_OUTGOING) := by decide +kernel

/-! ### /repo/test/testApplet.py (the RSA applet is in Conformance/Crypto.lean) -/

-- testMiniApplet, testApplet.py:7-20
example : Applet.select = true := rfl

-- testBaseProcessApplet, testApplet.py:23-81
example : exchange (BaseProcessApplet.process (some false)) [0, 0x80, 0x00, 0x00] = .ok [0x6E, 0x00] := by decide +kernel
example : exchange (BaseProcessApplet.process (some false)) [0x80, 0, 0, 0] = .ok [0x6D, 0x00] := by decide +kernel
example : exchange (BaseProcessApplet.process (some true)) [0, 0xa4, 0, 0] = .ok [0x90, 0x00] := by decide +kernel
example : exchange (BaseProcessApplet.process (some false)) [0x80, 8, 0, 0, 0] = .ok [55, 77, 99, 0x90, 0x00] := by decide +kernel

end Verif.Conformance
