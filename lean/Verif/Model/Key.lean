import Verif.Model.Util
/-! Model of /repo/pythoncard/security/key.py, publickey.py, privatekey.py, secretkey.py,
keybuilder.py and keypair.py.  The external library (PyCrypto's `Crypto.PublicKey.RSA`) is a
parameter. The CRT key classes are in Model/CrtKey. -/
namespace Verif.Model
open Verif.Py

/-! ### Conversions, key.py -/

/-- The hexadecimal digits of `n`, least significant first, at least one (the digits of
`hex(n)` in reverse order); `fuel` bounds their number. -/
def hexDigitsF : Nat → Nat → List Nat
  | 0, _ => []
  | f + 1, n => if n < 16 then [n] else n % 16 :: hexDigitsF f (n / 16)

/-- Digits of `hex(n)`, least significant first. -/
def hexDigits (n : Nat) : List Nat := hexDigitsF (n + 1) n

/-- `for i in range(len(s),0,-2): out.append(int(s[i-2:i],16))` on the digits taken from the end
of `s`, after the padding of `s` to an even length, key.py:12-16. -/
def hexPairs : List Nat → List Int
  | [] => []
  | [d] => [(d : Int)]                       -- '0' was prepended: the high digit is 0
  | d :: e :: rest => ((e * 16 + d : Nat) : Int) :: hexPairs rest

/-- `_longToArray`, key.py:3-17, for a non-negative number. `hex(n)[2:-1]` removes the last
character: the suffix `L` of a Python 2 `long` (`longSuffix = true`), the last digit in
Python 3 (`longSuffix = false`). -/
def longToArray (longSuffix : Bool) (n : Nat) : List Int :=
  hexPairs (if longSuffix then hexDigits n else (hexDigits n).tail)

/-- `_arrayTolong`, key.py:19-31. -/
def arrayToLong (bytes : List Int) : Int := bytes.reverse.foldl (fun l b => shl l 8 + b) 0

/-- `_binaryToarray`, key.py:33-34. -/
def binaryToArray (bytes : List Nat) : List Int := bytes.map fun (c : Nat) => s1 (c : Int)

/-- `_arrayTobinary`, key.py:36-37. -/
def arrayToBinary (array : List Int) : List Nat := array.map fun i => (iand i 0xff).toNat

/-! ### Reason codes of `CryptoException`, /repo/pythoncard/security/__init__.py:3-8 -/
def ILLEGAL_VALUE : Err := .crypto 1
def UNINITIALIZED_KEY : Err := .crypto 2
def NO_SUCH_ALGORITHM : Err := .crypto 3
def INVALID_INIT : Err := .crypto 4

/-! ### RSA keys -/

/-- An RSA key object of the external library, with the numbers the code reads or passes. -/
structure TheKey where
  n : Nat
  e : Nat
  d : Nat
  deriving DecidableEq, Repr

/-- What the key's `_theKey` refers to: nothing, a key handed to `setTheKey`, or the result of
`pyCryptoRSA.construct([n, e])`. -/
inductive KeyHandle where
  | given (k : TheKey)
  | constructed (n e : Int)
  deriving DecidableEq, Repr

/-- `PyCryptoRSAPublicKey` (`isPublic`) and `PyCryptoRSAPrivateKey` objects, key.py:41-44,
publickey.py:51-56, privatekey.py:39-45. On a private key the attribute `_theKey` does not exist
before `setTheKey`; both that and Python `None` are `none` here. -/
structure RSAKey where
  isPublic : Bool
  initialized : Bool
  size : Int
  type : Int
  exponent : Option (List Int)
  modulus : Option (List Int)
  theKey : Option KeyHandle
  deriving DecidableEq, Repr

namespace RSAKey

/-- Constructors, publickey.py:16-17, 52-56; privatekey.py:10-11, 41-44. -/
def new (isPublic : Bool) (size : Int) : RSAKey :=
  { isPublic := isPublic, initialized := false, size := size, type := if isPublic then 4 else 5,
    exponent := none, modulus := none, theKey := none }

/-- The end of `standardSetter`, publickey.py:45-48 and privatekey.py:35-36. `pycrypto` tells
whether the library could be imported (publickey.py:6-10, 84-86): `_construct` fails without it. -/
def afterSet (pycrypto : Bool) (k : RSAKey) : Res RSAKey Unit :=
  match k.modulus, k.exponent with
  | some m, some e =>
    if k.isPublic ∧ k.theKey = none then
      if ¬ pycrypto then (.error NO_SUCH_ALGORITHM, k)
      else (.ok (), { k with theKey := some (.constructed (arrayToLong m) (arrayToLong e)),
                             initialized := true })
    else (.ok (), { k with initialized := true })
  | _, _ => (.ok (), k)

/-- `setExponent`, publickey.py:68-70, privatekey.py:56-58. -/
def setExponent (pycrypto : Bool) (k : RSAKey) (buffer : List Int) (offset length : Int) :
    Res RSAKey Unit :=
  afterSet pycrypto { k with exponent := some (slice buffer offset (offset + length)) }

/-- `setModulus`, publickey.py:72-76 (`INVALID_INIT`), privatekey.py:60-64 (`ILLEGAL_VALUE`). -/
def setModulus (pycrypto : Bool) (k : RSAKey) (buffer : List Int) (offset length : Int) :
    Res RSAKey Unit :=
  if length ≠ k.size / 8 then (.error (if k.isPublic then INVALID_INIT else ILLEGAL_VALUE), k)
  else afterSet pycrypto { k with modulus := some (slice buffer offset (offset + length)) }

/-- `setTheKey`, publickey.py:78-82; privatekey.py:66-70 (where the modulus is filled with `d`). -/
def setTheKey (pycrypto longSuffix : Bool) (k : RSAKey) (theKey : TheKey) : Res RSAKey Unit :=
  afterSet pycrypto { k with theKey := some (.given theKey),
                             exponent := some (longToArray longSuffix theKey.e),
                             modulus := some (longToArray longSuffix
                               (if k.isPublic then theKey.n else theKey.d)) }

/-- Common part of the getters, publickey.py:31-36, 58-66, privatekey.py:25-30, 46-54: outcome
and destination buffer. -/
def getComponent (k : RSAKey) (c : Option (List Int)) (buffer : List Int) (offset : Int) :
    Res (List Int) Int :=
  if ¬ k.initialized then (.error UNINITIALIZED_KEY, buffer)
  else match c with
  | none => (.error .typeError, buffer)            -- len(None)
  | some l =>
    match Util.arrayCopy l 0 buffer offset l.length with
    | (.error e, b) => (.error e, b)
    | (.ok (), b) => (.ok l.length, b)

/-- `getExponent`, publickey.py:58-61, privatekey.py:46-49. -/
def getExponent (k : RSAKey) (buffer : List Int) (offset : Int) : Res (List Int) Int :=
  k.getComponent k.exponent buffer offset

/-- `getModulus`, publickey.py:63-66, privatekey.py:51-54. -/
def getModulus (k : RSAKey) (buffer : List Int) (offset : Int) : Res (List Int) Int :=
  k.getComponent k.modulus buffer offset

/-- `clearKey`, key.py:52-53: does nothing. -/
def clearKey (k : RSAKey) : RSAKey := k

/-- A call that may change an RSA key. -/
inductive Op where
  | setExponent (buffer : List Int) (offset length : Int)
  | setModulus (buffer : List Int) (offset length : Int)
  | setTheKey (theKey : TheKey)
  | clearKey
  deriving Repr

/-- One call. -/
def step (pycrypto longSuffix : Bool) (k : RSAKey) : Op → Res RSAKey Unit
  | .setExponent b o l => k.setExponent pycrypto b o l
  | .setModulus b o l => k.setModulus pycrypto b o l
  | .setTheKey t => k.setTheKey pycrypto longSuffix t
  | .clearKey => (.ok (), k.clearKey)

/-- The key after a history of calls. -/
def run (pycrypto longSuffix : Bool) (k : RSAKey) (ops : List Op) : RSAKey :=
  ops.foldl (fun k op => (step pycrypto longSuffix k op).2) k

end RSAKey

/-! ### DES keys -/

/-- `pyDesDESKey`, secretkey.py:16-19. -/
structure DESKey where
  initialized : Bool
  size : Int
  type : Int
  key : Option (List Nat)
  deriving DecidableEq, Repr

namespace DESKey

/-- Constructor, secretkey.py:17-19. -/
def new (type size : Int) : DESKey := { initialized := false, size := size, type := type, key := none }

/-- `setKey`, secretkey.py:21-23. A buffer that is too short gives a shorter key, not an error. -/
def setKey (k : DESKey) (keyData : List Int) (keyOff : Int) : DESKey :=
  { k with key := some (arrayToBinary (slice keyData keyOff (keyOff + k.size / 8))),
           initialized := true }

/-- `getKey`, secretkey.py:25-26: outcome and destination (`for c in None` is a `TypeError`). -/
def getKey (k : DESKey) (keyData : List Int) (keyOff : Int) : Res (List Int) Unit :=
  match k.key with
  | none => (.error .typeError, keyData)
  | some b => Util.arrayCopy (binaryToArray b) 0 keyData keyOff (k.size / 8)

/-- `clearKey`, key.py:52-53: does nothing. -/
def clearKey (k : DESKey) : DESKey := k

end DESKey

/-! ### KeyBuilder and KeyPair -/

/-- A key object. -/
inductive KeyObj where
  | rsa (k : RSAKey)
  | des (k : DESKey)
  deriving DecidableEq, Repr

/-- `isInitialized`, key.py:46-47. -/
def KeyObj.isInitialized : KeyObj → Bool
  | .rsa k => k.initialized
  | .des k => k.initialized

/-- `getSize`, key.py:58-59. -/
def KeyObj.getSize : KeyObj → Int
  | .rsa k => k.size
  | .des k => k.size

/-- `getType`, key.py:55-56. -/
def KeyObj.getType : KeyObj → Int
  | .rsa k => k.type
  | .des k => k.type

/-- `KeyBuilder.buildKey`, keybuilder.py:72-91, on its list of arguments; `none` is Python
`None` (no branch taken). -/
def buildKey (args : List Int) : Except Err (Option KeyObj) :=
  match args with
  | [keyType, keyLength, _] =>
    if keyType = 4 then .ok (some (.rsa (RSAKey.new true keyLength)))
    else if keyType = 5 then .ok (some (.rsa (RSAKey.new false keyLength)))
    else if keyType = 6 then .ok (some (.rsa (RSAKey.new false keyLength)))
    else if keyType = 3 ∨ keyType = 2 ∨ keyType = 1 then .ok (some (.des (DESKey.new keyType keyLength)))
    else .ok none
  | [_, _, _, _] => .error .notImplemented
  | _ => .error .typeError

/-- A `KeyPair`, keypair.py:18-36. `algorithm` and `keylength` do not exist on a pair built from
two keys. -/
structure KeyPair where
  algorithm : Option Int
  keylength : Option Int
  publicKey : RSAKey
  privateKey : RSAKey
  deriving DecidableEq, Repr

namespace KeyPair

/-- `KeyPair(algorithm, keylength)`, keypair.py:19-29. -/
def new (algorithm keylength : Int) : Except Err KeyPair :=
  if algorithm = 1 then
    .ok ⟨some algorithm, some keylength, RSAKey.new true keylength, RSAKey.new false keylength⟩
  else if algorithm = 2 then
    .ok ⟨some algorithm, some keylength, RSAKey.new true keylength, RSAKey.new false keylength⟩
  else .error NO_SUCH_ALGORITHM

/-- `KeyPair(publicKey, privateKey)`, keypair.py:30-36. -/
def ofKeys (pub priv : KeyObj) : Except Err KeyPair :=
  match pub with
  | .rsa p =>
    if ¬ p.isPublic then .error ILLEGAL_VALUE
    else match priv with
      | .rsa q => if q.isPublic then .error ILLEGAL_VALUE else .ok ⟨none, none, p, q⟩
      | _ => .error ILLEGAL_VALUE
  | _ => .error ILLEGAL_VALUE

/-- `genKeyPair`, keypair.py:38-58; `generate` is `pyCryptoRSA.generate`. The key objects of the
pair are replaced by new ones. `setTheKey` on the fresh public key cannot fail because `_theKey`
is then set (publickey.py:46). -/
def genKeyPair (pycrypto longSuffix : Bool) (generate : Int → TheKey) (p : KeyPair) :
    Res KeyPair Unit :=
  if p.publicKey.initialized ∨ p.privateKey.initialized then (.error ILLEGAL_VALUE, p)
  else if ¬ pycrypto then (.error NO_SUCH_ALGORITHM, p)
  else match p.algorithm, p.keylength with
  | some alg, some len =>
    if alg ≠ 1 ∧ alg ≠ 2 then (.error ILLEGAL_VALUE, p)
    else
      let keypair := generate len
      match (RSAKey.new true len).setTheKey pycrypto longSuffix keypair with
      | (.error e, pub) => (.error e, { p with publicKey := pub })
      | (.ok (), pub) =>
        match (RSAKey.new false len).setTheKey pycrypto longSuffix keypair with
        | (.error e, priv) => (.error e, { p with publicKey := pub, privateKey := priv })
        | (.ok (), priv) => (.ok (), { p with publicKey := pub, privateKey := priv })
  | _, _ => (.error .attributeError, p)

end KeyPair
end Verif.Model
