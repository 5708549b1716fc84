import Verif.Model.Key
/-! Model of the CRT private key classes of /repo/pythoncard/security/privatekey.py:72-119. Nothing in the library makes such objects
(`KeyBuilder` answers `PyCryptoRSAPrivateKey` for the CRT type), but the classes are public. -/
namespace Verif.Model
open Verif.Py

/-- An object of `RSAPrivateCrtKey` (`concrete = false`) or of its subclass `PyCryptoRSAPrivateCrtKey` (`concrete = true`), key.py:41-44. -/
structure CrtKey where
  concrete : Bool
  initialized : Bool
  size : Int
  type : Int
  theKey : Option TheKey
  deriving DecidableEq, Repr

namespace CrtKey

/-- Constructors: privatekey.py:73-74 (type 6); privatekey.py:107-108, which calls the constructor of `RSAPrivateKey`, privatekey.py:10-11
(type 5), on an object that is not of that class; Python 3 allows that. -/
def new (concrete : Bool) (size : Int) : CrtKey :=
  { concrete := concrete, initialized := false, size := size, type := if concrete then 5 else 6, theKey := none }

/-- The five components a CRT key is made of. -/
inductive Component where
  | DP1 | DQ1 | P | PQ | Q
  deriving DecidableEq, Repr

/-- The public calls on such an object. -/
inductive Op where
  | get (c : Component) (buffer : List Int) (offset : Int)
  | put (c : Component) (buffer : List Int) (offset length : Int)
  | setTheKey (theKey : TheKey)
  | clearKey
  deriving Repr

/-- One call. The getters and setters, privatekey.py:76-104, have no `self` parameter, so a call on an object passes one argument too many
(`TypeError`). `setTheKey`, privatekey.py:110-119, stores the key, then reads the undefined name `keypair`; the base class has no such
method. `clearKey`, key.py:52-53, does nothing. -/
def step (k : CrtKey) : Op → Res CrtKey Unit
  | .get _ _ _ => (.error .typeError, k)
  | .put _ _ _ _ => (.error .typeError, k)
  | .setTheKey t => if k.concrete then (.error .nameError, { k with theKey := some t }) else (.error .attributeError, k)
  | .clearKey => (.ok (), k)

/-- The object after a history of calls, whatever they raised. -/
def run (k : CrtKey) : List Op → CrtKey
  | [] => k
  | op :: ops => run (k.step op).2 ops

/-- `isInitialized`, key.py:46-47. -/
def isInitialized (k : CrtKey) : Bool := k.initialized
/-- `getSize`, key.py:58-59. -/
def getSize (k : CrtKey) : Int := k.size
/-- `getType`, key.py:55-56. -/
def getType (k : CrtKey) : Int := k.type

end CrtKey

/-- `Cipher.init`, cipher.py:105-112, on a key object of the package of which only `isInitialized()` matters: the checks made before
anything else, in their order; `none` when they all pass. (`isinstance(theKey, Key)` holds for all key classes.) -/
def cipherInitChecks (initialized : Bool) (theMode : Int) : Option Err :=
  if ¬ initialized then some UNINITIALIZED_KEY
  else if theMode ≠ 2 ∧ theMode ≠ 1 then some ILLEGAL_VALUE
  else none

/-- `genKeyPair` of a pair made from two key objects, keypair.py:52-55 and 38-42: such a pair has no `_algorithm`. -/
def genOfKeys (pycrypto pubInit privInit : Bool) : Err :=
  if pubInit ∨ privInit then ILLEGAL_VALUE
  else if ¬ pycrypto then NO_SUCH_ALGORITHM
  else .attributeError

end Verif.Model
