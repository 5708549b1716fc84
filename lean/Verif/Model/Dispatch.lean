import Verif.Py.Core
/-! Model of `NotAlwaysStatic`, /repo/pythoncard/utils.py:21-43, with Python's attribute lookup, and of the class bodies of
/repo/pythoncardx/framework/tlv/bertag.py and bertlv.py as far as lookup sees them. -/
namespace Verif.Model.Dispatch
open Verif.Py

/-- What a class body binds a name to: a function (a method), a `@staticmethod`, or a `NotAlwaysStatic(boundname, staticname)`. -/
inductive Attr where
  | fn (f : String)
  | static (f : String)
  | both (boundname staticname : String)
  deriving DecidableEq, Repr

/-- The names a class body binds. -/
abbrev Body := List (String × Attr)

/-- What `obj.name` or `cls.name` gives: a function to be called with the object as first argument, a plain function, an unbound method
of Python 2 (a function that raises TypeError unless its first argument is an object of the class), or a value stored on the object itself. -/
inductive Access where
  | method (f : String)
  | function (f : String)
  | unbound (f : String)
  | stored
  deriving DecidableEq, Repr

/-- Python looks a name up in the class, then its base class and so on (the method resolution order `mro`, given by the class bodies). -/
def find (mro : List Body) (name : String) : Option Attr :=
  match mro with
  | [] => none
  | body :: rest => match body.lookup name with
    | some a => some a
    | none => find rest name

/-- `getattr(obj, name)` on an object of the class `mro` whose own dictionary has the names `own`. Functions and `NotAlwaysStatic` objects
define `__get__` only, so the object's own dictionary goes first; then `__get__(obj, type)`, utils.py:39-41, is
`getattr(obj, self.boundname)`. `fuel` bounds the chain of `NotAlwaysStatic` objects referring to each other (Python's recursion limit). -/
def onObject (own : List String) (mro : List Body) (name : String) : Nat → Except Err Access
  | 0 => .error .valueError
  | fuel + 1 =>
    if name ∈ own then .ok .stored
    else match find mro name with
      | none => .error .attributeError
      | some (.fn f) => .ok (.method f)
      | some (.static f) => .ok (.function f)
      | some (.both b _) => onObject own mro b fuel

/-- `getattr(cls, name)`: for a `NotAlwaysStatic`, `__get__(None, cls)`, utils.py:42-43, is `getattr(cls, self.staticname)`. A function
of the class body, not marked as static, is a plain function in Python 3 and an unbound method in Python 2. -/
def onClass (py3 : Bool) (mro : List Body) (name : String) : Nat → Except Err Access
  | 0 => .error .valueError
  | fuel + 1 =>
    match find mro name with
    | none => .error .attributeError
    | some (.fn f) => .ok (if py3 then .function f else .unbound f)
    | some (.static f) => .ok (.function f)
    | some (.both _ s) => onClass py3 mro s fuel

/-- `class BERTag`, bertag.py:18-131. -/
def berTag : Body :=
  [("__init__", .fn "BERTag.__init__"), ("getInstance", .static "BERTag.getInstance"), ("init", .fn "BERTag.init"),
   ("_toBytesBound", .fn "BERTag._toBytesBound"), ("_toBytesStatic", .static "BERTag._toBytesStatic"), ("toBytes", .both "_toBytesBound" "_toBytesStatic"),
   ("_sizeBound", .fn "BERTag._sizeBound"), ("_sizeStatic", .static "BERTag._sizeStatic"), ("size", .both "_sizeBound" "_sizeStatic"),
   ("_isConstructedBound", .fn "BERTag._isConstructedBound"), ("_isConstructedStatic", .static "BERTag._isConstructedStatic"),
   ("isConstructed", .both "_isConstructedBound" "_isConstructedStatic"),
   ("_tagClassBound", .fn "BERTag._tagClassBound"), ("_tagClassStatic", .static "BERTag._tagClassStatic"), ("tagClass", .both "_tagClassBound" "_tagClassStatic"),
   ("_tagNumberBound", .fn "BERTag._tagNumberBound"), ("_tagNumberStatic", .static "BERTag._tagNumberStatic"),
   ("tagNumber", .both "_tagNumberBound" "_tagNumberStatic"), ("__str__", .fn "BERTag.__str__"), ("__eq__", .fn "BERTag.__eq__")]

/-- `class PrimitiveBERTag(BERTag)`, bertag.py:133-150. -/
def primitiveBERTag : Body := [("__init__", .fn "PrimitiveBERTag.__init__"), ("init", .fn "PrimitiveBERTag.init")]

/-- `class ConstructedBERTag(BERTag)`, bertag.py:152-167. -/
def constructedBERTag : Body := [("__init__", .fn "ConstructedBERTag.__init__"), ("init", .fn "ConstructedBERTag.init")]

/-- `class BERTLV`, bertlv.py:33-96. -/
def berTLV : Body :=
  [("__init__", .fn "BERTLV.__init__"), ("getInstance", .static "BERTLV.getInstance"), ("init", .fn "BERTLV.init"), ("getTag", .fn "BERTLV.getTag"),
   ("_getLengthBound", .fn "BERTLV._getLengthBound"), ("_getLengthStatic", .static "BERTLV._getLengthStatic"),
   ("getLength", .both "_getLengthBound" "_getLengthStatic"), ("size", .fn "BERTLV.size"), ("_toBytesBound", .fn "BERTLV._toBytesBound"),
   ("toBytes", .fn "BERTLV._toBytesBound")]

/-- `class ConstructedBERTLV(BERTLV)`, bertlv.py:98-202; `_findNextStatic` is not marked as a static method, line 185. -/
def constructedBERTLV : Body :=
  [("__init__", .fn "ConstructedBERTLV.__init__"), ("init", .fn "ConstructedBERTLV.init"),
   ("_appendBound", .fn "ConstructedBERTLV._appendBound"), ("_appendStatic", .static "ConstructedBERTLV._appendStatic"), ("append", .both "_appendBound" "_appendStatic"),
   ("_find", .fn "ConstructedBERTLV._find"),
   ("_findBound", .fn "ConstructedBERTLV._findBound"), ("_findStatic", .static "ConstructedBERTLV._findStatic"), ("find", .both "_findBound" "_findStatic"),
   ("_findNextBound", .fn "ConstructedBERTLV._findNextBound"), ("_findNextStatic", .fn "ConstructedBERTLV._findNextStatic"),
   ("findNext", .both "_findNextBound" "_findNextStatic")]

/-- `class PrimitiveBERTLV(BERTLV)`, bertlv.py:204-233. -/
def primitiveBERTLV : Body :=
  [("__init__", .fn "PrimitiveBERTLV.__init__"), ("init", .fn "PrimitiveBERTLV.init"), ("getValueOffset", .static "PrimitiveBERTLV.getValueOffset"),
   ("getValue", .fn "PrimitiveBERTLV.getValue"), ("replaceValue", .fn "PrimitiveBERTLV.replaceValue")]

/-- Names the constructors and `init` methods store on tag objects (bertag.py:26-29, 46, 136, 155) and on TLV objects (bertlv.py:34-37). -/
def tagOwn : List String := ["_tagClass", "_tagNumber", "_size", "_tagConstr"]
/-- See `tagOwn`. -/
def tlvOwn : List String := ["_tag", "_length", "_value"]

end Verif.Model.Dispatch
