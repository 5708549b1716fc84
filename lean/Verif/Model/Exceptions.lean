import Verif.Py.Core
/-! Model of the exception classes: /repo/python/lang.py, /repo/python/io.py, /repo/python/rmi.py, /repo/pythoncard/framework/__init__.py,
/repo/pythoncard/security/__init__.py, /repo/pythoncard/framework/service/__init__.py, /repo/pythoncardx/framework/tlv/__init__.py,
/repo/pythoncardx/external/__init__.py and memory.py. -/
namespace Verif.Model
open Verif.Py

/-- The exception classes of the repository, and the built-in ones its code can raise. -/
inductive ExcClass
  | exception | lookupError | indexError | keyError | nameError | unboundLocalError | attributeError | typeError | valueError
  | runtimeError | notImplementedError | assertionError
  | runtimeException | indexOutOfBounds | arrayIndexOutOfBounds | security | nullPointer | arithmetic | classCast
  | ioException | remoteException | cardException | userException
  | cardRuntime | iso | pin | apdu | system | transaction | service | crypto | tlv | external
  deriving DecidableEq, Repr

namespace ExcClass

/-- The base class in the `class` statement: python/lang.py:5-24, python/io.py:1, python/rmi.py:3, pythoncard/framework/__init__.py:16-63,
pythoncard/security/__init__.py:3, pythoncard/framework/service/__init__.py:3, pythoncardx/framework/tlv/__init__.py:3,
pythoncardx/external/__init__.py:3; Python's own hierarchy for the built-in ones (up to `Exception`). -/
def base : ExcClass → Option ExcClass
  | exception => none
  | lookupError => some exception
  | indexError => some lookupError
  | keyError => some lookupError
  | nameError => some exception
  | unboundLocalError => some nameError
  | attributeError => some exception
  | typeError => some exception
  | valueError => some exception
  | runtimeError => some exception
  | notImplementedError => some runtimeError
  | assertionError => some exception
  | runtimeException => some exception
  | indexOutOfBounds => some runtimeException
  | arrayIndexOutOfBounds => some indexOutOfBounds
  | security => some runtimeException
  | nullPointer => some runtimeException
  | arithmetic => some runtimeException
  | classCast => some runtimeException
  | ioException => some exception
  | remoteException => some ioException
  | cardException => some exception
  | userException => some cardException
  | cardRuntime => some runtimeException
  | iso => some cardRuntime
  | pin => some cardRuntime
  | apdu => some cardRuntime
  | system => some cardRuntime
  | transaction => some cardRuntime
  | service => some cardRuntime
  | crypto => some cardRuntime
  | tlv => some cardRuntime
  | external => some cardRuntime

/-- The classes looked through for an attribute or an `except` clause: the class, its base, and so on; `n` bounds the length. -/
def mroF : Nat → ExcClass → List ExcClass
  | 0, c => [c]
  | n + 1, c => c :: match c.base with
    | none => []
    | some b => mroF n b

/-- Python's method resolution order; the deepest class has three bases above it. -/
def mro (c : ExcClass) : List ExcClass := mroF 33 c

/-- `except h:` catches an instance of `c`. -/
def caughtBy (c h : ExcClass) : Bool := c.mro.contains h

/-- The class that provides `__init__(self, reason)`, `getReason`, `setReason` and `throwIt`, framework/__init__.py:22-34. -/
def hasReason (c : ExcClass) : Bool := c.mro.contains cardRuntime

end ExcClass

/-- An exception object; `reason` exists on those with a reason. -/
structure Exc where
  cls : ExcClass
  reason : Option Int
  deriving DecidableEq, Repr

namespace Exc

/-- What `K(reason)` gives. Exception classes without an `__init__` of their own accept any argument and keep it in `args` only. -/
def new (c : ExcClass) (reason : Int) : Exc := ⟨c, if c.hasReason then some reason else none⟩

/-- `K.throwIt(reason)`, framework/__init__.py:32-34: the exception raised, AttributeError where there is no `throwIt`. -/
def throwIt (c : ExcClass) (reason : Int) : Exc := if c.hasReason then new c reason else ⟨.attributeError, none⟩

/-- `getReason`, framework/__init__.py:26-27. -/
def getReason (x : Exc) : Except Exc Int :=
  match x.reason with
  | some r => .ok r
  | none => .error ⟨.attributeError, none⟩

/-- `setReason`, framework/__init__.py:29-30. -/
def setReason (x : Exc) (r : Int) : Except Exc Exc :=
  if x.cls.hasReason then .ok ⟨x.cls, some r⟩ else .error ⟨.attributeError, none⟩

/-- A `try` with `except` clauses for the classes `hs`: the number of the clause that runs, `none` when the exception goes on. -/
def handler (x : Exc) : List ExcClass → Option Nat
  | [] => none
  | h :: hs => if x.cls.caughtBy h then some 0 else (handler x hs).map (· + 1)

/-- Several exception objects, changed by `setReason` (ignoring the AttributeError of those without one). -/
def setReasons (xs : List Exc) : List (Nat × Int) → List Exc
  | [] => xs
  | (i, r) :: rest => setReasons (match xs[i]? with
    | none => xs
    | some x => match x.setReason r with
      | .error _ => xs
      | .ok y => xs.set i y) rest

/-- The exception objects behind the values of `Err` raised in the rest of the model. -/
def ofErr : Err → Exc
  | .arrayIndexOutOfBounds => ⟨.arrayIndexOutOfBounds, none⟩
  | .nullPointer => ⟨.nullPointer, none⟩
  | .arithmetic => ⟨.arithmetic, none⟩
  | .apdu r => new .apdu r
  | .iso r => new .iso r
  | .pin r => new .pin r
  | .system r => new .system r
  | .transaction r => new .transaction r
  | .crypto r => new .crypto r
  | .tlv r => new .tlv r
  | .service r => new .service r
  | .external r => new .external r
  | .indexError => ⟨.indexError, none⟩
  | .nameError => ⟨.nameError, none⟩
  | .attributeError => ⟨.attributeError, none⟩
  | .typeError => ⟨.typeError, none⟩
  | .valueError => ⟨.valueError, none⟩
  | .keyError => ⟨.keyError, none⟩
  | .unboundLocalError => ⟨.unboundLocalError, none⟩
  | .notImplemented => ⟨.notImplementedError, none⟩
  | .assertion => ⟨.assertionError, none⟩

end Exc

/-- `Memory.getMemoryAccessInstance`, pythoncardx/external/memory.py:7-9. -/
def getMemoryAccessInstance (_memoryType : Int) (_memorySize : List Int) (_memorySizeOffset : Int) : Except Err Unit := .error (.external 1)

end Verif.Model
