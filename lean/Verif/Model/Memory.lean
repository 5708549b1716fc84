import Verif.Model.JCSystem
/-! Model of `getAvailableMemory` of /repo/pythoncard/framework/jcsystem.py:46-61 with any number of arguments. -/
namespace Verif.Model.JCSystem
open Verif.Py

/-- An argument: a list, `None` or an integer. -/
inductive MemArg where
  | list (l : List Int)
  | nil
  | int (v : Int)
  deriving DecidableEq, Repr

/-- `getAvailableMemory(*args)`, jcsystem.py:46-61: the value returned (`none` for Python's `None`) and the arguments afterwards. With one argument it is not
looked at. With three: `None` as buffer makes the undefined name `NullPointerException` a `NameError`; a buffer that is no list, or an offset that is no integer,
is a `TypeError` of the store. Any other number of arguments is a `TypeError`. -/
def getAvailableMemory : List MemArg → Res (List MemArg) (Option Int)
  | [a] => (.ok (some 0x7fff), [a])
  | [.nil, off, t] => (.error .nameError, [.nil, off, t])
  | [.list b, .int off, t] =>
    match getAvailableMemory3 (some b) off 0 with
    | (.error e, b') => (.error e, [.list (b'.getD b), .int off, t])
    | (.ok (), b') => (.ok none, [.list (b'.getD b), .int off, t])
  | args => (.error .typeError, args)

end Verif.Model.JCSystem
