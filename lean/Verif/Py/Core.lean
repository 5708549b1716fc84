/-
Python semantics used by the model of pythoncard.

The code under /repo is modelled as Python 3 (it calls `bytes([...])`,
`bytes.fromhex`, iterates `bytes` as integers).  This file models the fragment of
the language the code uses:

* unbounded integers with `&`, `~`, `<<`, `>>`, `//`, `%`;
* lists with indices that may be negative (counted from the end), `IndexError`
  out of range, clamping slices and slice assignment;
* exceptions, as values.

No definition in this file is about pythoncard itself.
-/

namespace Verif.Py

/-- Exceptions the modelled code can raise, as values.  The Java-Card exceptions
are those of /repo/python/lang.py:1-24 and /repo/pythoncard/framework/__init__.py:16-63,
/repo/pythoncard/security/__init__.py:3-8, /repo/pythoncardx/framework/tlv/__init__.py:3-14,
/repo/pythoncard/framework/service/__init__.py:3-10, /repo/pythoncardx/external/__init__.py:3-6;
the carried integer is the reason code.  The rest are Python built-in exceptions
that escape the code unconverted (their messages are not modelled). -/
inductive Err where
  | arrayIndexOutOfBounds            -- python.lang.ArrayIndexOutOfBoundsException
  | nullPointer                      -- python.lang.NullPointerException
  | arithmetic                       -- python.lang.ArithmeticException
  | apdu (reason : Int)              -- APDUException
  | iso (reason : Int)               -- ISOException
  | pin (reason : Int)               -- PINException
  | system (reason : Int)            -- SystemException
  | transaction (reason : Int)       -- TransactionException
  | crypto (reason : Int)            -- CryptoException
  | tlv (reason : Int)               -- TLVException
  | service (reason : Int)           -- ServiceException
  | external (reason : Int)          -- ExternalException
  | indexError                       -- builtin IndexError
  | nameError                        -- builtin NameError (undefined global/local name)
  | attributeError                   -- builtin AttributeError
  | typeError                        -- builtin TypeError
  | valueError                       -- builtin ValueError
  | keyError                         -- builtin KeyError
  | unboundLocalError                -- builtin UnboundLocalError
  | notImplemented                   -- builtin NotImplementedError
  | assertion                        -- builtin AssertionError
  deriving DecidableEq, Repr

/-- The exception is one of the Java-Card exceptions an applet is written to catch
(as opposed to a Python built-in error that escapes the framework). -/
def Err.isJavaCard : Err → Bool
  | .arrayIndexOutOfBounds | .nullPointer | .arithmetic | .apdu _ | .iso _ | .pin _
  | .system _ | .transaction _ | .crypto _ | .tlv _ | .service _ | .external _ => true
  | _ => false

instance {ε α} [DecidableEq ε] [DecidableEq α] : DecidableEq (Except ε α)
  | .ok a, .ok b => if h : a = b then .isTrue (h ▸ rfl) else .isFalse (fun e => h (by injection e))
  | .error a, .error b =>
      if h : a = b then .isTrue (h ▸ rfl) else .isFalse (fun e => h (by injection e))
  | .ok _, .error _ => .isFalse nofun
  | .error _, .ok _ => .isFalse nofun

/-! ### Integers -/

/-- Python `a & b` on unbounded two's-complement integers. -/
def iand : Int → Int → Int
  | .ofNat m,   .ofNat n   => .ofNat (m &&& n)
  | .ofNat m,   .negSucc n => .ofNat (m ^^^ (m &&& n))        -- m & ~n
  | .negSucc m, .ofNat n   => .ofNat (n ^^^ (n &&& m))        -- ~m & n
  | .negSucc m, .negSucc n => .negSucc (m ||| n)              -- ~m & ~n = ~(m | n)

/-- Python `a | b` on unbounded two's-complement integers. -/
def ior : Int → Int → Int
  | .ofNat m,   .ofNat n   => .ofNat (m ||| n)
  | .ofNat m,   .negSucc n => .negSucc (n ^^^ (n &&& m))      -- m | ~n = ~(n & ~m)
  | .negSucc m, .ofNat n   => .negSucc (m ^^^ (m &&& n))
  | .negSucc m, .negSucc n => .negSucc (m &&& n)

/-- Python `~a`. -/
def inot (a : Int) : Int := -a - 1

/-- Python `a << n` (`n ≥ 0`). -/
def shl (a : Int) (n : Nat) : Int := a * 2 ^ n

/-- Python `a >> n` (`n ≥ 0`, arithmetic shift, i.e. floor division; Lean's `Int` `/`
with a positive divisor is floor division). -/
def shr (a : Int) (n : Nat) : Int := a / 2 ^ n

/-! ### Lists -/

/-- Position denoted by Python index `i` in a list of length `n`: negative indices count
from the end; `none` is `IndexError`. -/
def idx (n : Nat) (i : Int) : Option Nat :=
  if 0 ≤ i then (if i < n then some i.toNat else none)
  else (if -(n : Int) ≤ i then some (i + n).toNat else none)

/-- Python `l[i]`. -/
def get {α} (l : List α) (i : Int) : Except Err α :=
  match idx l.length i with
  | some k => match l[k]? with
    | some v => .ok v
    | none => .error .indexError
  | none => .error .indexError

/-- Python `l[i] = v`: the new list, or `IndexError`. -/
def set {α} (l : List α) (i : Int) (v : α) : Except Err (List α) :=
  match idx l.length i with
  | some k => .ok (l.set k v)
  | none => .error .indexError

/-- Clamping of a slice bound: negative bounds count from the end, then clamp to `[0, n]`. -/
def bound (n : Nat) (i : Int) : Nat :=
  if 0 ≤ i then min i.toNat n else (i + n).toNat

/-- Python `l[a:b]`. -/
def slice {α} (l : List α) (a b : Int) : List α :=
  (l.drop (bound l.length a)).take (bound l.length b - bound l.length a)

/-- Python `l[a:]`. -/
def sliceFrom {α} (l : List α) (a : Int) : List α := l.drop (bound l.length a)

/-- Python `l[:b]`. -/
def sliceTo {α} (l : List α) (b : Int) : List α := l.take (bound l.length b)

/-- Python `l[a:b] = v`. -/
def setSlice {α} (l : List α) (a b : Int) (v : List α) : List α :=
  let s := bound l.length a
  let e := max s (bound l.length b)
  l.take s ++ v ++ l.drop e

/-- Number of iterations of `for _ in range(n)`; negative `n` gives none. -/
abbrev rangeLen (n : Int) : Nat := n.toNat

/-- `[v for i in range(n)]`. -/
def fresh {α} (n : Int) (v : α) : List α := List.replicate (rangeLen n) v

/-- Result of a Python call that may mutate an object: the outcome (value or exception)
together with the state of the object afterwards (also when an exception is raised). -/
abbrev Res (σ α : Type) := Except Err α × σ

/-- Raise `e'` instead of `IndexError` (`except IndexError: raise e'`). -/
def mapIndexError {α} (e' : Err) : Except Err α → Except Err α
  | .error .indexError => .error e'
  | r => r

end Verif.Py
