import Verif.Model.Applets
import Verif.Model.Digest
import Verif.Model.KeyPairs

/-!
The project's own crypto tests, transcribed and evaluated in the model. These are **tests of the model**, not proofs of properties: no
entry of MANIFEST.json refers to this file. RSA is computed for real, with a 1024-bit key; the tests are those of Python 2 longs
(`longSuffix = true`), for which the authors wrote them.
-/
namespace Verif.Conformance.Crypto
open Verif.Py Verif.Model

/-! ### /repo/test/testKeyBuilder.py, testRandom.py -/

-- testLength, testKeyBuilder.py:7-9 (TYPE_RSA_PUBLIC = 4)
example : (buildKey [4, 768, 0]).map (Option.map KeyObj.getSize) = .ok (some 768) := by decide

-- testgetInstance, testRandom.py:7-18 (ALG_PSEUDO_RANDOM = 1, ALG_SECURE_RANDOM = 2, NO_SUCH_ALGORITHM = 3)
example : RandomData.getInstance 2 = .ok () := by decide
example : RandomData.getInstance 1 = .error (.crypto 3) := by decide

-- testGeneratedData, testRandom.py:20-26, with one stream of random bytes
example :
    let r1 := RandomData.generateData (fun i => (7 * i + 3) % 256) (List.replicate 50 0) 0 25
    let r2 := RandomData.generateData (fun i => (11 * i + 5) % 256) r1.2 25 25
    r1.1 = .ok () ∧ r1.2.drop 25 = List.replicate 25 0 ∧ r2.1 = .ok () ∧ r2.2.take 25 ≠ r2.2.drop 25 := by decide +kernel

/-! ### /repo/test/testRSAKeys.py -/

abbrev pubk : RSAKey := RSAKey.new true 1024
abbrev ten : List Int := [0, 1, 2, 3, 4, 5, 6, 7, 8, 9]

-- testGetters, testRSAKeys.py:17-38 (UNINITIALIZED_KEY = 2)
example : buildKey [4, 1024, 0] = .ok (some (.rsa pubk)) := by decide
example : (pubk.getExponent [] 0).1 = .error (.crypto 2) := by decide
example : (pubk.getModulus [] 0).1 = .error (.crypto 2) := by decide
example : ((pubk.run true true [.setExponent [] 0 0, .setModulus (List.replicate 128 65) 0 128]).getExponent [] 0).1 = .ok 0 := by
  decide +kernel

/-- The key of testValue, testRSAKeys.py:41-43. -/
def valueKey : RSAKey := pubk.run true true [.setExponent ten 5 5, .setModulus (List.replicate 128 65) 0 128]

-- testValue, testRSAKeys.py:40-52
example : (valueKey.getExponent [] 7).1 = .error .arrayIndexOutOfBounds := by decide +kernel
example : (valueKey.getExponent (List.replicate 20 0) 7).1 = .ok 5 := by decide +kernel
example : slice (valueKey.getExponent (List.replicate 20 0) 7).2 7 (7 + 5) = [5, 6, 7, 8, 9] := by decide +kernel

abbrev modu : List Int := [0, 0, 0, 0, 0] ++ (List.replicate 16 [0, 1, 2, 3, 4, 5, 6, 7]).flatten

-- testInit, testRSAKeys.py:54-67
example : pubk.initialized = false ∧ (pubk.run true true [.setExponent ten 5 5]).initialized = false ∧
    (pubk.run true true [.setExponent ten 5 5, .setModulus modu 5 128]).initialized = true := by decide +kernel
example : (pubk.run true true [.setModulus modu 5 128]).initialized = false ∧
    (pubk.run true true [.setModulus modu 5 128, .setExponent ten 5 5]).initialized = true := by decide +kernel

/-! ### /repo/test/testMessageDigest.py

`hashlib` is a parameter of the model. Its digest of the empty string, and of "abc" under SHA-1, are those of the test. -/

/-- Hexadecimal digits to bytes. -/
def unhex (s : String) : List Nat :=
  let v := s.toList.map fun c => if c.isDigit then c.toNat - 48 else c.toUpper.toNat - 55
  (List.range (v.length / 2)).map fun i => 16 * v[2 * i]?.getD 0 + v[2 * i + 1]?.getD 0

def emptySHA : List Nat := unhex "da39a3ee5e6b4b0d3255bfef95601890afd80709"
def abcSHA : List Nat := unhex "A9993E364706816ABA3E25717850C26C9CD0D89D"
def H : HashLib := fun _ m => if m = [97, 98, 99] then abcSHA else if m = [] then emptySHA else List.replicate 20 0

-- testEmptySHA1, testMessageDigest.py:7-14 (ALG_SHA = 1)
example : (MessageDigest.getInstance 1).map (·.algorithm) = .ok 1 := by decide
example : (MessageDigest.getInstance 1).map (fun md => (md.doFinal H [] 0 0 (List.replicate 20 0) 0).1) = .ok (.ok 20) := by decide +kernel
example : (MessageDigest.getInstance 1).map (fun md => (md.doFinal H [] 0 0 (List.replicate 20 0) 0).2.1) = .ok (binaryToArray emptySHA) := by
  decide +kernel

-- the first round of testComplexSHA1, testMessageDigest.py:16-32
example : (MessageDigest.getInstance 1).map (fun md => (md.reset.doFinal H [97, 98, 99] 0 3 (List.replicate 20 0) 0).2.1) =
    .ok (binaryToArray abcSHA) := by decide +kernel

-- testLengths, testMessageDigest.py:34-43: every algorithm of the test can be instantiated and is reported
example : ∀ a ∈ [(6 : Int), 2, 3, 4, 5, 1], (MessageDigest.getInstance a).map (·.algorithm) = .ok a := by decide

/-! ### /repo/test/testCipher.py -/

/-- `pow(x, e, n)` by squaring. -/
def powMod : Nat → Nat → Nat → Nat → Nat
  | 0, _, _, _ => 1
  | fuel + 1, x, e, n => if e = 0 then 1 % n else
    let h := powMod fuel (x * x % n) (e / 2) n
    if e % 2 = 1 then h * x % n else h

def theN : Nat := 170460515682236906101721285853196249722719198025210980589510893282577882025915214414949536715753963301902928649507442251788210436888300849351642321401075391478789130764447420949719708691862024384134023858836723023851408029463601113652700222173906948547107160939193773552458840418861081860033140112615141096519
def theD : Nat := 60022846947510277890495782743094890746466742951734040298825745522102778331508085555545576678661736288173304918514476476563109880709695571974424368692076479035061233719764159253561157697822939229708051541345311037474120555973545921394319223320589666608359311277758752894742424638895875222856104053322694500489

/-- Textbook RSA, as PyCrypto computes it. -/
def rsa : RSAOps where
  enc h x := match h with
    | .given k => .ok (powMod 1100 x.toNat k.e k.n)
    | .constructed n e => .ok (powMod 1100 x.toNat e.toNat n.toNat)
  dec h x := match h with
    | .given k => .ok (powMod 1100 x.toNat k.d k.n)
    | .constructed _ _ => .error .typeError

def gen : Int → TheKey := fun _ => ⟨theN, 65537, theD⟩

/-- The heap of the two keys of a pair: 0 is the public key, 1 the private one. -/
def heapOf (p : KeyPair) : KeyHeap := fun r => if r = 0 then .rsa p.publicKey else .rsa p.privateKey

/-- `kp = KeyPair(ALG_RSA, 1024); kp.genKeyPair()`, testCipher.py:32-33. -/
def kp : Except Err KeyPair := (KeyPair.new 1 1024).bind fun p => match p.genKeyPair true true gen with
  | (.ok (), p) => .ok p
  | (.error e, _) => .error e

example : kp.map (fun p => (p.publicKey.size, p.privateKey.size)) = .ok (1024, 1024) := by decide +kernel

-- testInit, testCipher.py:7-29 (ALG_RSA_NOPAD = 12, INVALID_INIT = 4, ILLEGAL_VALUE = 1, UNINITIALIZED_KEY = 2)
example : (cipherGetInstance [12, 0]).map (fun c => (c.1, c.2.algorithm)) = .ok (.rsa, 12) := by decide
example : (RSACipher.new 12).update = .error (.crypto 4) := by decide
example : ((RSACipher.new 12).init (fun _ => .rsa pubk) .notKey 2).1 = .error (.crypto 1) := by decide
example : ((RSACipher.new 12).init (fun _ => .rsa pubk) (.key 0) 2).1 = .error (.crypto 2) := by decide
example : ((RSACipher.new 12).init
    (fun _ => .rsa (pubk.run true true [.setExponent ten 5 5, .setModulus (List.replicate 128 7) 0 128])) (.key 0) 2).1 = .ok () := by
  decide +kernel

/-- Encrypt `[0..5]` with one key of the pair and decrypt with the other: `testRSAEncryptDecrypt` (0, then 1) and `testRSASignVerify`
(1, then 0), testCipher.py:31-71: what is in `res2[:l]`. -/
def roundTrip (k1 k2 : Nat) : Option (Except Err (List Int)) :=
  match kp with
  | .error e => some (.error e)
  | .ok p =>
    let c1 := (RSACipher.new 10).init (heapOf p) (.key k1) 2
    match c1.2.doFinal (heapOf p) rsa true ((List.range 200).map (fun i => (37 * i + 11) % 256)) [0, 1, 2, 3, 4, 5] 0 6 (List.replicate 1024 0) 0 with
    | some (.ok l, res) =>
      let c2 := c1.2.init (heapOf p) (.key k2) 1
      match c2.2.doFinal (heapOf p) rsa true [] res 0 l (List.replicate 1024 0) 0 with
      | some (.ok l2, res2) => some (.ok (sliceTo res2 l2))
      | some (.error e, _) => some (.error e)
      | none => none
    | some (.error e, _) => some (.error e)
    | none => none

-- testRSAEncryptDecrypt, testCipher.py:31-50
example : roundTrip 0 1 = some (.ok [0, 1, 2, 3, 4, 5]) := by decide +kernel

-- testRSASignVerify, testCipher.py:52-71: **the model says that this test of the project fails**, with ILLEGAL_VALUE instead of the
-- message. The code calls the library's `encrypt` (the public operation) both to sign and to verify; see C109.
example : roundTrip 1 0 = some (.error (.crypto 1)) := by decide +kernel

/-- The heap of testDES: one DES key. -/
def desHeap : KeyHeap := fun _ => .des ((DESKey.new 3 64).setKey [1, 2, 3, 4, 5, 6, 7, 8] 0)

-- testDES, testCipher.py:86-102 (TYPE_DES = 3, ALG_DES_ECB_PKCS5 = 8)
example : buildKey [3, 64, 0] = .ok (some (.des (DESKey.new 3 64))) := by decide
example :
    let c1 := (DESCipher.new 8).initDefault desHeap (.key 0) 2
    let r1 := c1.2.doFinal [7, 5, 6, 8] 0 4 (List.replicate 8 0) 0
    let c2 := r1.2.2.initDefault desHeap (.key 0) 1
    let r2 := c2.2.doFinal r1.2.1 0 8 [7, 5, 6, 8] 0
    c1.1 = .ok () ∧ r1.1 = .ok 8 ∧ r1.2.1 ≠ List.replicate 8 0 ∧ c2.1 = .ok () ∧ r2.1 = .ok 4 ∧ r2.2.1 = [7, 5, 6, 8] := by decide +kernel

/-! ### The RSA applet of /repo/test/testApplet.py -/

def tobeencrypted : List Int := [0x61, 0x62, 0x63, 0x64]

/-- `process` one command and give `apdu._APDU__buffer[:apdu._outgoinglength]`, testApplet.py:97-99 and 103-105. -/
def ask (app : RSAApplet) (rnd : List Nat) (cmd : List Int) : Option (Except Err (List Int) × RSAApplet) :=
  match APDU.init cmd with
  | .error e => some (.error e, app)
  | .ok a => (app.process rsa true rnd (some false) a).map fun r => (r.1.map fun _ => r.2.1.response, r.2.2)

/-- The two commands of testRSA2048Applet, testApplet.py:83-106: the length of the first answer, and the second answer. -/
def rsaApplet : Option (Nat × Except Err (List Int)) :=
  match RSAApplet.install true true gen [0] 0 with
  | .error _ => none
  | .ok app =>
    match ask app ((List.range 300).map (fun i => (37 * i + 11) % 256)) ([0x00, 0xAA, 0x01, 0x00] ++ [4] ++ tobeencrypted ++ [0x00]) with
    | some (.ok buf, app) =>
      (ask app [] ([0x00, 0xAA, 0x02, 0x00] ++ [(buf.length : Int)] ++ buf ++ [0])).map fun r => (buf.length, r.1)
    | _ => none

example : rsaApplet = some (128, .ok tobeencrypted) := by decide +kernel

end Verif.Conformance.Crypto
