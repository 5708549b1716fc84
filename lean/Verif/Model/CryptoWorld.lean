import Verif.Model.Cipher
import Verif.Model.Digest
import Verif.Model.KeyPairs
/-! Keys, key pairs, ciphers, digests and the caller's arrays by reference: the sharing in /repo/pythoncard/security and
/repo/pythoncardx/crypto/cipher.py. An RSA cipher keeps the key object it was given (cipher.py:143); a DES cipher keeps a pyDes object made
from the key's bytes (cipher.py:239-245), which are immutable; a key pair keeps its key objects (keypair.py:30-36, 45-58); no object keeps an
array of the caller (`setKey`, `setExponent` and `setModulus` take slices, the ciphers and digests copy cell by cell). -/
namespace Verif.Model
open Verif.Py

/-- What the objects get from outside: whether the RSA library is there and numbers print with an `L` (Python 2), the library's operations, the
hash functions. -/
structure CryptoEnv where
  pycrypto : Bool
  longSuffix : Bool
  ops : RSAOps
  hash : HashLib

/-- The caller's lists by reference and all objects made so far, in the order they were made. -/
structure CryptoWorld where
  arrays : Nat → List Int
  keys : List KeyObj
  pairs : List PairRef
  des : List DESCipher
  rsa : List RSACipher
  digests : List MessageDigest

namespace CryptoWorld

/-- What a call returns. -/
inductive Out where
  | nothing
  | int (n : Int)
  | key (k : Nat)
  | pair (p : Nat)
  | des (c : Nat)
  | rsa (c : Nat)
  | digest (d : Nat)
  deriving DecidableEq, Repr

/-- The state of the key objects as the ciphers see it. Numbers of no key give an unused key (no program has a variable for them; `keyArg`). -/
def heap (w : CryptoWorld) : KeyHeap := fun r => (w.keys[r]?).getD (.des (DESKey.new 0 0))

/-- The argument `theKey` of `init`: a key object, or (`none`) anything else. -/
def keyArg (w : CryptoWorld) : Option Nat → KeyArg
  | none => .notKey
  | some r => if r < w.keys.length then .key r else .notKey

/-- The caller's list `r` replaced. -/
def setArray (w : CryptoWorld) (r : Nat) (l : List Int) : CryptoWorld := { w with arrays := fun q => if q = r then l else w.arrays q }

/-- One call of a program, or a change it makes to one of its lists. -/
inductive Step where
  | buildKey (args : List Int)
  | setKey (k r : Nat) (off : Int)
  | getKey (k r : Nat) (off : Int)
  | rsaKey (k : Nat) (exponent : Bool) (r : Nat) (off len : Int)
  | setTheKey (k : Nat) (t : TheKey)
  | getRSA (k : Nat) (exponent : Bool) (r : Nat) (off : Int)
  | clearKey (k : Nat)
  | newPair (algorithm length : Int)
  | pairOf (pub priv : Nat)
  | getPublic (p : Nat)
  | getPrivate (p : Nat)
  | genKeyPair (p : Nat) (generated : TheKey)
  | getCipher (args : List Int)
  | desInit (c : Nat) (k : Option Nat) (mode : Int) (r : Nat) (off len : Int)
  | desInitDefault (c : Nat) (k : Option Nat) (mode : Int)
  | desFinal (c r : Nat) (off len : Int) (r' : Nat) (off' : Int)
  | desUpdate (c : Nat)
  | rsaInit (c : Nat) (k : Option Nat) (mode : Int)
  | rsaFinal (c : Nat) (rnd : List Nat) (r : Nat) (off len : Int) (r' : Nat) (off' : Int)
  | rsaUpdate (c : Nat)
  | getDigest (algorithm : Int)
  | digestUpdate (d r : Nat) (off len : Int)
  | digestFinal (d r : Nat) (off len : Int) (r' : Nat) (off' : Int)
  | digestReset (d : Nat)
  | random (rnd : Nat → Nat) (r : Nat) (off len : Int)
  | write (r : Nat) (l : List Int)

/-- `genKeyPair`, keypair.py:38-58, as in `KeyWorld.gen`. -/
def gen (env : CryptoEnv) (w : CryptoWorld) (p : Nat) (q : PairRef) (t : TheKey) : Res CryptoWorld Out :=
  if (w.heap q.publicKey).isInitialized ∨ (w.heap q.privateKey).isInitialized then (.error ILLEGAL_VALUE, w)
  else if ¬ env.pycrypto then (.error NO_SUCH_ALGORITHM, w)
  else match q.algorithm, q.keylength with
    | some alg, some len =>
      if alg ≠ 1 ∧ alg ≠ 2 then (.error ILLEGAL_VALUE, w)
      else
        (.ok .nothing, { w with
          keys := w.keys ++ [.rsa ((RSAKey.new true len).setTheKey env.pycrypto env.longSuffix t).2, .rsa ((RSAKey.new false len).setTheKey env.pycrypto env.longSuffix t).2],
          pairs := w.pairs.set p ⟨some alg, some len, w.keys.length, w.keys.length + 1⟩ })
    | _, _ => (.error .attributeError, w)

/-- One step: the functions of the modules applied to the objects named; `none` when the random bytes given do not suffice. A step on an object
that does not exist is a NameError, a method the object does not have an AttributeError. -/
def step (env : CryptoEnv) (w : CryptoWorld) : Step → Option (Res CryptoWorld Out)
  | .buildKey args => match Model.buildKey args with
    | .error e => some (.error e, w)
    | .ok none => some (.ok .nothing, w)
    | .ok (some k) => some (.ok (.key w.keys.length), { w with keys := w.keys ++ [k] })
  | .setKey k r off => match w.keys[k]? with
    | none => some (.error .nameError, w)
    | some (.rsa _) => some (.error .attributeError, w)
    | some (.des d) => some (.ok .nothing, { w with keys := w.keys.set k (.des (d.setKey (w.arrays r) off)) })
  | .getKey k r off => match w.keys[k]? with
    | none => some (.error .nameError, w)
    | some (.rsa _) => some (.error .attributeError, w)
    | some (.des d) => some ((d.getKey (w.arrays r) off).1.map fun _ => .nothing, w.setArray r (d.getKey (w.arrays r) off).2)
  | .rsaKey k exponent r off len => match w.keys[k]? with
    | none => some (.error .nameError, w)
    | some (.des _) => some (.error .attributeError, w)
    | some (.rsa x) =>
      let res := if exponent then x.setExponent env.pycrypto (w.arrays r) off len else x.setModulus env.pycrypto (w.arrays r) off len
      some (res.1.map fun _ => .nothing, { w with keys := w.keys.set k (.rsa res.2) })
  | .setTheKey k t => match w.keys[k]? with
    | none => some (.error .nameError, w)
    | some (.des _) => some (.error .attributeError, w)
    | some (.rsa x) =>
      some ((x.setTheKey env.pycrypto env.longSuffix t).1.map fun _ => .nothing, { w with keys := w.keys.set k (.rsa (x.setTheKey env.pycrypto env.longSuffix t).2) })
  | .getRSA k exponent r off => match w.keys[k]? with
    | none => some (.error .nameError, w)
    | some (.des _) => some (.error .attributeError, w)
    | some (.rsa x) =>
      let res := if exponent then x.getExponent (w.arrays r) off else x.getModulus (w.arrays r) off
      some (res.1.map .int, w.setArray r res.2)
  | .clearKey k => match w.keys[k]? with
    | none => some (.error .nameError, w)
    | some _ => some (.ok .nothing, w)
  | .newPair alg len =>
    if alg = 1 ∨ alg = 2 then
      some (.ok (.pair w.pairs.length), { w with keys := w.keys ++ [.rsa (RSAKey.new true len), .rsa (RSAKey.new false len)],
                                                 pairs := w.pairs ++ [⟨some alg, some len, w.keys.length, w.keys.length + 1⟩] })
    else some (.error NO_SUCH_ALGORITHM, w)
  | .pairOf i j => match w.keys[i]?, w.keys[j]? with
    | some a, some b => match KeyPair.ofKeys a b with
      | .error e => some (.error e, w)
      | .ok _ => some (.ok (.pair w.pairs.length), { w with pairs := w.pairs ++ [⟨none, none, i, j⟩] })
    | _, _ => some (.error .nameError, w)
  | .getPublic p => match w.pairs[p]? with
    | none => some (.error .nameError, w)
    | some q => some (.ok (.key q.publicKey), w)
  | .getPrivate p => match w.pairs[p]? with
    | none => some (.error .nameError, w)
    | some q => some (.ok (.key q.privateKey), w)
  | .genKeyPair p t => match w.pairs[p]? with
    | none => some (.error .nameError, w)
    | some q => some (w.gen env p q t)
  | .getCipher args => match cipherGetInstance args with
    | .error e => some (.error e, w)
    | .ok (.des, b) => some (.ok (.des w.des.length), { w with des := w.des ++ [DESCipher.new b.algorithm] })
    | .ok (.rsa, b) => some (.ok (.rsa w.rsa.length), { w with rsa := w.rsa ++ [RSACipher.new b.algorithm] })
  | .desInit c k mode r off len => match w.des[c]? with
    | none => some (.error .nameError, w)
    | some x => some ((x.init w.heap (w.keyArg k) mode (w.arrays r) off len).1.map fun _ => .nothing,
        { w with des := w.des.set c (x.init w.heap (w.keyArg k) mode (w.arrays r) off len).2 })
  | .desInitDefault c k mode => match w.des[c]? with
    | none => some (.error .nameError, w)
    | some x => some ((x.initDefault w.heap (w.keyArg k) mode).1.map fun _ => .nothing, { w with des := w.des.set c (x.initDefault w.heap (w.keyArg k) mode).2 })
  | .desFinal c r off len r' off' => match w.des[c]? with
    | none => some (.error .nameError, w)
    | some x =>
      let res := x.doFinal (w.arrays r) off len (w.arrays r') off'
      some (res.1.map .int, { w.setArray r' res.2.1 with des := w.des.set c res.2.2 })
  | .desUpdate c => match w.des[c]? with
    | none => some (.error .nameError, w)
    | some x => some (x.update.map fun _ => .nothing, w)
  | .rsaInit c k mode => match w.rsa[c]? with
    | none => some (.error .nameError, w)
    | some x => some ((x.init w.heap (w.keyArg k) mode).1.map fun _ => .nothing, { w with rsa := w.rsa.set c (x.init w.heap (w.keyArg k) mode).2 })
  | .rsaFinal c rnd r off len r' off' => match w.rsa[c]? with
    | none => some (.error .nameError, w)
    | some x => (x.doFinal w.heap env.ops env.longSuffix rnd (w.arrays r) off len (w.arrays r') off').map fun res => (res.1.map .int, w.setArray r' res.2)
  | .rsaUpdate c => match w.rsa[c]? with
    | none => some (.error .nameError, w)
    | some x => some (x.update.map fun _ => .nothing, w)
  | .getDigest alg => match MessageDigest.getInstance alg with
    | .error e => some (.error e, w)
    | .ok d => some (.ok (.digest w.digests.length), { w with digests := w.digests ++ [d] })
  | .digestUpdate d r off len => match w.digests[d]? with
    | none => some (.error .nameError, w)
    | some x => some ((x.update (w.arrays r) off len).1.map fun _ => .nothing, { w with digests := w.digests.set d (x.update (w.arrays r) off len).2 })
  | .digestFinal d r off len r' off' => match w.digests[d]? with
    | none => some (.error .nameError, w)
    | some x =>
      let res := x.doFinal env.hash (w.arrays r) off len (w.arrays r') off'
      some (res.1.map .int, { w.setArray r' res.2.1 with digests := w.digests.set d res.2.2 })
  | .digestReset d => match w.digests[d]? with
    | none => some (.error .nameError, w)
    | some x => some (.ok .nothing, { w with digests := w.digests.set d x.reset })
  | .random rnd r off len => some ((RandomData.generateData rnd (w.arrays r) off len).1.map fun _ => .nothing, w.setArray r (RandomData.generateData rnd (w.arrays r) off len).2)
  | .write r l => some (.ok .nothing, w.setArray r l)

/-- The world after a program, whatever its steps raised; `none` when the random bytes of one of them do not suffice. -/
def run (env : CryptoEnv) (w : CryptoWorld) : List Step → Option CryptoWorld
  | [] => some w
  | s :: ss => match w.step env s with
    | none => none
    | some (_, w) => run env w ss

/-- No objects yet. -/
def start (arrays : Nat → List Int) : CryptoWorld := ⟨arrays, [], [], [], [], []⟩

end CryptoWorld
end Verif.Model
