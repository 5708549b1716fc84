import Verif.Model.Key
/-! Model of RSA keys and key pairs as objects that refer to each other: /repo/pythoncard/security/keypair.py. -/
namespace Verif.Model
open Verif.Py

/-- A `KeyPair` object, keypair.py:18-36: the keys by their number in the list of all RSA key objects. -/
structure PairRef where
  algorithm : Option Int
  keylength : Option Int
  publicKey : Nat
  privateKey : Nat
  deriving DecidableEq, Repr

/-- All RSA key and key pair objects, in the order they were made. -/
structure KeyWorld where
  keys : List RSAKey
  pairs : List PairRef

namespace KeyWorld

/-- What a program can do: build a key (`KeyBuilder.buildKey` with an RSA type), call a method that may change a key, make a pair in the two
ways, and generate a pair (`generated` is what `pyCryptoRSA.generate` returns, should it be called; `raised` is what it raises, such as ValueError for a length PyCrypto
does not take). -/
inductive Op
  | build (isPublic : Bool) (length : Int)
  | key (k : Nat) (op : RSAKey.Op)
  | pair (algorithm length : Int)
  | ofKeys (pub priv : Nat)
  | gen (p : Nat) (generated : TheKey)
  | genRaises (p : Nat) (raised : Err)

/-- `genKeyPair`, keypair.py:38-58, for the pair `r`, number `p`: the new keys are new objects; the pair then refers to them. -/
def gen (pycrypto longSuffix : Bool) (w : KeyWorld) (p : Nat) (r : PairRef) (pub priv : RSAKey) (t : TheKey) : Res KeyWorld Unit :=
  if pub.initialized ∨ priv.initialized then (.error ILLEGAL_VALUE, w)
  else if ¬ pycrypto then (.error NO_SUCH_ALGORITHM, w)
  else match r.algorithm, r.keylength with
    | some alg, some len =>
      if alg ≠ 1 ∧ alg ≠ 2 then (.error ILLEGAL_VALUE, w)
      else
        (.ok (), ⟨w.keys ++ [((RSAKey.new true len).setTheKey pycrypto longSuffix t).2, ((RSAKey.new false len).setTheKey pycrypto longSuffix t).2],
          w.pairs.set p ⟨some alg, some len, w.keys.length, w.keys.length + 1⟩⟩)
    | _, _ => (.error .attributeError, w)

/-- `genKeyPair`, keypair.py:38-58, when `pyCryptoRSA.generate` (line 43) raises `e`, should it be called: nothing was assigned before that. -/
def genError (pycrypto : Bool) (r : PairRef) (pub priv : RSAKey) (e : Err) : Err :=
  if pub.initialized ∨ priv.initialized then ILLEGAL_VALUE
  else if ¬ pycrypto then NO_SUCH_ALGORITHM
  else match r.algorithm, r.keylength with
    | some alg, some _ => if alg ≠ 1 ∧ alg ≠ 2 then ILLEGAL_VALUE else e
    | _, _ => .attributeError

/-- One step; a step on an object that does not exist (no program can make one) changes nothing. -/
def step (pycrypto longSuffix : Bool) (w : KeyWorld) : Op → Res KeyWorld Unit
  | .build b n => (.ok (), ⟨w.keys ++ [RSAKey.new b n], w.pairs⟩)
  | .key i op => match w.keys[i]? with
    | none => (.ok (), w)
    | some k => ((k.step pycrypto longSuffix op).1, ⟨w.keys.set i (k.step pycrypto longSuffix op).2, w.pairs⟩)
  | .pair alg len =>
    if alg = 1 ∨ alg = 2 then
      (.ok (), ⟨w.keys ++ [RSAKey.new true len, RSAKey.new false len], w.pairs ++ [⟨some alg, some len, w.keys.length, w.keys.length + 1⟩]⟩)
    else (.error NO_SUCH_ALGORITHM, w)
  | .ofKeys i j => match w.keys[i]?, w.keys[j]? with
    | some a, some b =>
      if ¬ a.isPublic then (.error ILLEGAL_VALUE, w)
      else if b.isPublic then (.error ILLEGAL_VALUE, w)
      else (.ok (), ⟨w.keys, w.pairs ++ [⟨none, none, i, j⟩]⟩)
    | _, _ => (.ok (), w)
  | .gen p t => match w.pairs[p]? with
    | none => (.ok (), w)
    | some r => match w.keys[r.publicKey]?, w.keys[r.privateKey]? with
      | some a, some b => w.gen pycrypto longSuffix p r a b t
      | _, _ => (.ok (), w)
  | .genRaises p e => match w.pairs[p]? with
    | none => (.ok (), w)
    | some r => match w.keys[r.publicKey]?, w.keys[r.privateKey]? with
      | some a, some b => (.error (genError pycrypto r a b e), w)
      | _, _ => (.ok (), w)

/-- A program: the world after its steps, whatever they raised. -/
def run (pycrypto longSuffix : Bool) (w : KeyWorld) : List Op → KeyWorld
  | [] => w
  | op :: ops => run pycrypto longSuffix (w.step pycrypto longSuffix op).2 ops

/-- `getPublic()`, keypair.py:64-65: the object, by number. -/
def getPublic (w : KeyWorld) (p : Nat) : Option Nat := (w.pairs[p]?).map PairRef.publicKey

/-- `getPrivate()`, keypair.py:61-62. -/
def getPrivate (w : KeyWorld) (p : Nat) : Option Nat := (w.pairs[p]?).map PairRef.privateKey

/-- `isInitialized()` of the key object `k`, key.py:46-47. -/
def isInitialized (w : KeyWorld) (k : Nat) : Bool := (w.keys[k]?).elim false RSAKey.initialized

end KeyWorld
end Verif.Model
