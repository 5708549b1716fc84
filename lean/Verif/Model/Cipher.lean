import Verif.Model.Key
import Verif.Model.DES
/-! Model of /repo/pythoncardx/crypto/cipher.py. -/
namespace Verif.Model
open Verif.Py

/-- The state of the key objects, by reference. The RSA cipher keeps a reference to its key object
and sees later changes of it; the DES cipher copies the key bytes at `init`. -/
abbrev KeyHeap := Nat → KeyObj

/-- First argument of `init`: anything that is not a `Key`, or (a reference to) a key object. -/
inductive KeyArg where
  | notKey
  | key (r : Nat)
  deriving DecidableEq, Repr

/-- Common state of a cipher, cipher.py:106-108, 117; `mode = none`: attribute not yet set. -/
structure CipherBase where
  algorithm : Int
  initialized : Bool
  mode : Option Int
  deriving DecidableEq, Repr

/-- Constants, cipher.py:48-49. -/
def MODE_DECRYPT : Int := 1
def MODE_ENCRYPT : Int := 2

namespace CipherBase

/-- `Cipher.__init__`, cipher.py:106-108. -/
def new (algorithm : Int) : CipherBase := { algorithm := algorithm, initialized := false, mode := none }

/-- `Cipher.init`, cipher.py:110-117. -/
def init (h : KeyHeap) (c : CipherBase) (theKey : KeyArg) (theMode : Int) : Res CipherBase Nat :=
  match theKey with
  | .notKey => (.error ILLEGAL_VALUE, c)
  | .key r =>
    if ¬ (h r).isInitialized then (.error UNINITIALIZED_KEY, c)
    else if ¬ (theMode = MODE_ENCRYPT ∨ theMode = MODE_DECRYPT) then (.error ILLEGAL_VALUE, c)
    else (.ok r, { c with mode := some theMode })

end CipherBase

/-- Which class `getInstance` instantiates. -/
inductive CipherKind where
  | rsa | des
  deriving DecidableEq, Repr

/-- The mapping of the three-argument form, cipher.py:80-92: `none` = `UnboundLocalError` later
(no branch assigned `algorithm`), `some none` = Python `None`. -/
def mapAlgorithm (cipherAlgorithm paddingAlgorithm : Int) : Option (Option Int) :=
  if cipherAlgorithm = 7 then
    some (if paddingAlgorithm = 1 then some 12 else if paddingAlgorithm = 7 then some 10 else none)
  else if cipherAlgorithm = 3 then
    some (if paddingAlgorithm = 1 then some 1 else if paddingAlgorithm = 6 then some 4 else none)
  else if cipherAlgorithm = 4 then
    some (if paddingAlgorithm = 1 then some 5 else if paddingAlgorithm = 6 then some 8 else none)
  else none

/-- The end of `getInstance`, cipher.py:96-104; `"%d" % None` on line 103 is a `TypeError`. -/
def selectCipher (algorithm : Option Int) : Except Err (CipherKind × CipherBase) :=
  match algorithm with
  | none => .error .typeError
  | some a =>
    if a = 12 ∨ a = 10 then .ok (.rsa, CipherBase.new a)
    else if a = 5 ∨ a = 8 ∨ a = 1 ∨ a = 4 then .ok (.des, CipherBase.new a)
    else .error NO_SUCH_ALGORITHM

/-- `Cipher.getInstance`, cipher.py:74-104, on its list of arguments. -/
def cipherGetInstance (args : List Int) : Except Err (CipherKind × CipherBase) :=
  match args with
  | [algorithm, _] => selectCipher (some algorithm)
  | [cipherAlgorithm, paddingAlgorithm, _] =>
    match mapAlgorithm cipherAlgorithm paddingAlgorithm with
    | none => .error .unboundLocalError
    | some a => selectCipher a
  | _ => .error .typeError

/-! ### RSA -/

/-- The external RSA operations of a key (`_theKey.encrypt(x, None)[0]`, `_theKey.decrypt(x)`),
which may raise. -/
structure RSAOps where
  enc : KeyHandle → Int → Except Err Nat
  dec : KeyHandle → Int → Except Err Nat

/-- `_PyCryptoRSACipher`, cipher.py:132-144; `theKey` is a reference to the key object. -/
structure RSACipher where
  base : CipherBase
  theKey : Option Nat
  deriving DecidableEq, Repr

namespace RSACipher

/-- `_PyCryptoRSACipher.__init__`, cipher.py:134-135. -/
def new (algorithm : Int) : RSACipher := ⟨CipherBase.new algorithm, none⟩

/-- `init`, cipher.py:137-144. -/
def init (h : KeyHeap) (c : RSACipher) (theKey : KeyArg) (theMode : Int) : Res RSACipher Unit :=
  match c.base.init h theKey theMode with
  | (.error e, b) => (.error e, { c with base := b })
  | (.ok r, b) =>
    match h r with
    | .rsa _ => (.ok (), { base := { b with initialized := true }, theKey := some r })
    | .des _ => (.error ILLEGAL_VALUE, { c with base := b })

/-- `zeroFreeRandom`, cipher.py:149-155: the first `n` non-zero bytes of the random stream
`rnd`; `none` if the stream given (a finite prefix of `os.urandom`'s output) is too short. -/
def zeroFreeRandom (rnd : List Nat) (n : Nat) : Option (List Int) :=
  let nz := rnd.filter (· ≠ 0)
  if nz.length < n then none else some ((nz.take n).map fun (x : Nat) => (x : Int))

/-- `EME_PKCS1_v1_5_enc`, cipher.py:146-160, with modulus size in bits `size`. -/
def emeEnc (rnd : List Nat) (size : Int) (M : List Int) : Option (Except Err (List Int)) :=
  if (M.length : Int) > size / 8 - 11 then some (.error ILLEGAL_VALUE)
  else match zeroFreeRandom rnd (size / 8 - M.length - 3).toNat with
    | none => none
    | some PS => some (.ok ([0, 2] ++ PS ++ [0] ++ M))

/-- `buf.index(0, 3)`: first position ≥ 3 holding 0; `ValueError` if none. -/
def index0From3 (buf : List Int) : Except Err Nat :=
  match (buf.drop 3).findIdx? (· = 0) with
  | none => .error .valueError
  | some i => .ok (i + 3)

/-- `EME_PKCS1_v1_5_dec`, cipher.py:162-165. -/
def emeDec (buf : List Int) : Except Err (List Int) :=
  if sliceTo buf 2 ≠ [0, 2] then .error ILLEGAL_VALUE
  else match index0From3 buf with
    | .error e => .error e
    | .ok i => .ok (sliceFrom buf ((i : Int) + 1))

/-- `doFinal`, cipher.py:167-198: outcome and output buffer; `none` when the random stream given
is too short. A key without `_theKey` (a private key set through its components) is an
`AttributeError`. -/
def doFinal (heap : KeyHeap) (ops : RSAOps) (longSuffix : Bool) (rnd : List Nat) (c : RSACipher) (inBuff : List Int)
    (inOffset inLength : Int) (outBuff : List Int) (outOffset : Int) :
    Option (Res (List Int) Int) :=
  if ¬ c.base.initialized then some (.error INVALID_INIT, outBuff)
  else match c.theKey.map heap with
  | none => some (.error .attributeError, outBuff)
  | some (.des _) => some (.error .attributeError, outBuff)      -- `init` refuses such keys
  | some (.rsa key) =>
    match Util.arrayCopy inBuff inOffset (fresh inLength 0) 0 inLength with
    | (.error e, _) => some (.error e, outBuff)
    | (.ok (), data) =>
      let padded : Option (Except Err (List Int)) :=
        if c.base.algorithm = 10 ∧ c.base.mode = some MODE_ENCRYPT then emeEnc rnd key.size data
        else some (.ok data)
      match padded with
      | none => none
      | some (.error e) => some (.error e, outBuff)
      | some (.ok data) =>
        if (data.length : Int) ≠ key.size / 8 then some (.error ILLEGAL_VALUE, outBuff)
        else
          match key.theKey with
          | none => some (.error .attributeError, outBuff)
          | some h =>
            let res :=
              if c.base.mode = some MODE_ENCRYPT then ops.enc h (arrayToLong data)
              else if key.isPublic then ops.enc h (arrayToLong data)
              else ops.dec h (arrayToLong data)
            match res with
            | .error e => some (.error e, outBuff)
            | .ok res =>
              let buf := longToArray longSuffix res
              let unpadded : Except Err (List Int) :=
                if c.base.algorithm = 10 ∧ c.base.mode = some MODE_DECRYPT then emeDec buf
                else .ok buf
              match unpadded with
              | .error e => some (.error e, outBuff)
              | .ok buf =>
                match Util.arrayCopy buf 0 outBuff outOffset buf.length with
                | (.error e, o) => some (.error e, o)
                | (.ok (), o) => some (.ok buf.length, o)

end RSACipher

/-! ### DES -/

/-- The pyDes object a DES cipher holds. -/
inductive DesObj where
  | single (d : PyDes.Des)
  | triple (t : PyDes.Triple)
  deriving DecidableEq, Repr

/-- `_pyDesDESCipher`, cipher.py:200-222; `cipher = none`: attribute not yet set. -/
structure DESCipher where
  base : CipherBase
  desmode : Nat
  padmode : Nat
  cipher : Option DesObj
  deriving DecidableEq, Repr

namespace DESCipher

/-- `_pyDesDESCipher.__init__`, cipher.py:202-222, for the four algorithms `getInstance` passes
(5, 8: ECB; 1, 4: CBC; 5, 1: no padding; 8, 4: PKCS5). -/
def new (algorithm : Int) : DESCipher :=
  { base := CipherBase.new algorithm,
    desmode := if algorithm = 5 ∨ algorithm = 8 then PyDes.ECB else PyDes.CBC,
    padmode := if algorithm = 5 ∨ algorithm = 1 then PyDes.PAD_NORMAL else PyDes.PAD_PKCS5,
    cipher := none }

/-- `init`, cipher.py:224-247. -/
def init (h : KeyHeap) (c : DESCipher) (theKey : KeyArg) (theMode : Int) (bArray : List Int) (bOff bLen : Int) :
    Res DESCipher Unit :=
  match c.base.init h theKey theMode with
  | (.error e, b) => (.error e, { c with base := b })
  | (.ok r, b) =>
    let c := { c with base := b }
    match h r with
    | .rsa _ => (.error ILLEGAL_VALUE, c)
    | .des dk =>
      if bLen ≠ 8 then (.error ILLEGAL_VALUE, c)
      else
        match Util.arrayCopy bArray bOff (fresh 8 0) 0 bLen with
        | (.error e, _) => (.error e, c)
        | (.ok (), iv) =>
          let iv := arrayToBinary iv
          match dk.key with
          | none => (.error .typeError, c)           -- len(None)
          | some key =>
            if dk.size = 64 then
              match PyDes.Des.new key c.desmode iv none c.padmode with
              | .error e => (.error e, c)
              | .ok d => (.ok (), { c with cipher := some (.single d),
                                           base := { c.base with initialized := true } })
            else
              match PyDes.Triple.new key c.desmode iv none c.padmode with
              | .error e => (.error e, c)
              | .ok t => (.ok (), { c with cipher := some (.triple t),
                                           base := { c.base with initialized := true } })

/-- `init(theKey, theMode)` with the default arguments, cipher.py:224. -/
def initDefault (h : KeyHeap) (c : DESCipher) (theKey : KeyArg) (theMode : Int) : Res DESCipher Unit :=
  c.init h theKey theMode [0, 0, 0, 0, 0, 0, 0, 0] 0 8

/-- `self._cipher.encrypt(data)` / `decrypt(data)`: result and the object afterwards. -/
def runObj (o : DesObj) (encrypt : Bool) (data : List Nat) : Except Err (List Nat × DesObj) :=
  match o with
  | .single d =>
    match (if encrypt then d.encrypt data none none else d.decrypt data none none) with
    | .error e => .error e
    | .ok r => .ok (r, .single d)
  | .triple t =>
    match (if encrypt then t.encrypt data none none else t.decrypt data none none) with
    | .error e => .error e
    | .ok (r, t) => .ok (r, .triple t)

/-- `doFinal`, cipher.py:249-264: outcome, output buffer and cipher afterwards. The input is
copied before anything is written, so input and output buffer may be the same list (pass it
twice). When pyDes raises, the inner IVs of a triple DES object may have changed; they are reset
at the start of the next call and are kept unchanged here. -/
def doFinal (c : DESCipher) (inBuff : List Int) (inOffset inLength : Int) (outBuff : List Int)
    (outOffset : Int) : Except Err Int × List Int × DESCipher :=
  if ¬ c.base.initialized then (.error INVALID_INIT, outBuff, c)
  else match c.cipher with
  | none => (.error .attributeError, outBuff, c)
  | some o =>
    match Util.arrayCopy inBuff inOffset (fresh inLength 0) 0 inLength with
    | (.error e, _) => (.error e, outBuff, c)
    | (.ok (), data) =>
      match runObj o (decide (c.base.mode = some MODE_ENCRYPT)) (arrayToBinary data) with
      | .error e => (.error e, outBuff, c)
      | .ok (result, o) =>
        let c := { c with cipher := some o }
        let result := binaryToArray result
        match Util.arrayCopy result 0 outBuff outOffset result.length with
        | (.error e, out) => (.error e, out, c)
        | (.ok (), out) => (.ok result.length, out, c)

/-- `update`, cipher.py:124-126 (not overridden): only the check. -/
def update (c : DESCipher) : Except Err Unit :=
  if ¬ c.base.initialized then .error INVALID_INIT else .ok ()

end DESCipher

/-- `update` of an RSA cipher, cipher.py:124-126 (not overridden). -/
def RSACipher.update (c : RSACipher) : Except Err Unit :=
  if ¬ c.base.initialized then .error INVALID_INIT else .ok ()

end Verif.Model
