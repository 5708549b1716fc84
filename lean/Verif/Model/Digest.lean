import Verif.Model.Key
/-! Model of /repo/pythoncard/security/messagedigest.py, random.py and signature.py. The hash
functions (`hashlib`) and the randomness (`os.urandom`) are parameters. -/
namespace Verif.Model
open Verif.Py

/-- `hashlib`: for each supported algorithm number the hash function on byte strings.
`hashlib.new(name)` objects are represented by the bytes fed to them. -/
abbrev HashLib := Int → List Nat → List Nat

/-- The keys of `algos`, messagedigest.py:47-57. -/
def digestAlgorithms : List Int := [1, 2, 3, 7, 4, 5, 6, 8, 9, 10, 11]

/-- `_HashLibMessageDigest`, messagedigest.py:46-61: algorithm and the bytes hashed so far. -/
structure MessageDigest where
  algorithm : Int
  m : List Nat
  deriving DecidableEq, Repr

namespace MessageDigest

/-- `MessageDigest.getInstance`, messagedigest.py:35-37 with 59-64: an unknown algorithm is a
`KeyError`. -/
def getInstance (algorithm : Int) : Except Err MessageDigest :=
  if algorithm ∈ digestAlgorithms then .ok ⟨algorithm, []⟩ else .error .keyError

/-- `getInitializedMessageDigestInstance`, messagedigest.py:39-41. -/
def getInitializedInstance (_algorithm : Int) : Except Err MessageDigest := .error NO_SUCH_ALGORITHM

/-- `reset`, messagedigest.py:63-64. -/
def reset (d : MessageDigest) : MessageDigest := { d with m := [] }

/-- `for i in range(inOffset, inOffset+inLength): buf.append(inBuff[i])`,
messagedigest.py:67-71. -/
def readLoop (inBuff : List Int) (inOffset : Int) (i : Nat) : Nat → Except Err (List Int)
  | 0 => .ok []
  | n + 1 =>
    match get inBuff (inOffset + i) with
    | .error e => .error e
    | .ok v =>
      match readLoop inBuff inOffset (i + 1) n with
      | .error e => .error e
      | .ok rest => .ok (v :: rest)

/-- `update`, messagedigest.py:66-74: the exception class is not imported, so an `IndexError`
becomes a `NameError`. -/
def update (d : MessageDigest) (inBuff : List Int) (inOffset inLength : Int) :
    Res MessageDigest Unit :=
  match readLoop inBuff inOffset 0 (rangeLen inLength) with
  | .error _ => (.error .nameError, d)
  | .ok buf => (.ok (), { d with m := d.m ++ arrayToBinary buf })

/-- `for i, v in enumerate(digest): outBuff[outOffset+i] = s1(v)`, messagedigest.py:80-81. -/
def writeLoop (outBuff : List Int) (outOffset : Int) (i : Nat) : List Nat → Res (List Int) Unit
  | [] => (.ok (), outBuff)
  | v :: vs =>
    match set outBuff (outOffset + i) (s1 (v : Int)) with
    | .error e => (.error e, outBuff)
    | .ok b => writeLoop b outOffset (i + 1) vs

/-- `doFinal`, messagedigest.py:76-86: outcome, output buffer and digest object. The returned
`getLength()` is `digest_size`, taken as the length of the hash function's output. -/
def doFinal (H : HashLib) (d : MessageDigest) (inBuff : List Int) (inOffset inLength : Int)
    (outBuff : List Int) (outOffset : Int) : Except Err Int × List Int × MessageDigest :=
  match d.update inBuff inOffset inLength with
  | (.error e, d) => (.error e, outBuff, d)
  | (.ok (), d) =>
    match writeLoop outBuff outOffset 0 (H d.algorithm d.m) with
    | (.error _, b) => (.error .nameError, b, d.reset)
    | (.ok (), b) => (.ok (H d.algorithm []).length, b, d.reset)

/-- A call on a digest object. -/
inductive Op where
  | update (inBuff : List Int) (inOffset inLength : Int)
  | doFinal (inBuff : List Int) (inOffset inLength : Int) (outBuff : List Int) (outOffset : Int)
  | reset
  deriving Repr

/-- The digest object after one call. -/
def step (H : HashLib) (d : MessageDigest) : Op → MessageDigest
  | .update b o l => (d.update b o l).2
  | .doFinal b o l ob oo => (d.doFinal H b o l ob oo).2.2
  | .reset => d.reset

/-- The digest object after a history of calls. -/
def run (H : HashLib) (d : MessageDigest) (ops : List Op) : MessageDigest :=
  ops.foldl (step H) d

end MessageDigest

/-! ### random.py -/
namespace RandomData

/-- `RandomData.getInstance`, random.py:9-13. -/
def getInstance (algorithm : Int) : Except Err Unit :=
  if algorithm = 2 then .ok () else .error NO_SUCH_ALGORITHM

/-- `for i in range(length): buffer[offset+i] = ord(os.urandom(1))`, random.py:26-27; `rnd i` is
the i-th byte drawn. -/
def genLoop (rnd : Nat → Nat) (buffer : List Int) (offset : Int) (i : Nat) : Nat → Res (List Int) Unit
  | 0 => (.ok (), buffer)
  | n + 1 =>
    match set buffer (offset + i) (rnd i : Int) with
    | .error e => (.error e, buffer)
    | .ok b => genLoop rnd b offset (i + 1) n

/-- `_SecureRandomData.generateData`, random.py:15-17 and 23-29: the exception class is misspelt
and not imported, so an `IndexError` becomes a `NameError`. -/
def generateData (rnd : Nat → Nat) (buffer : List Int) (offset length : Int) : Res (List Int) Unit :=
  if length = 0 then (.error ILLEGAL_VALUE, buffer)
  else match genLoop rnd buffer offset 0 (rangeLen length) with
    | (.error _, b) => (.error .nameError, b)
    | (.ok (), b) => (.ok (), b)

end RandomData

/-! ### signature.py -/

/-- `len(x)` for the values that occur: a tuple of the given length or a bool. -/
inductive PyLen where
  | tuple (n : Nat) | bool (b : Bool)

/-- Python `len`: a `TypeError` on a bool. -/
def PyLen.len : PyLen → Except Err Nat
  | .tuple n => .ok n
  | .bool _ => .error .typeError

/-- `Signature.getInstance(*args)`, signature.py:47-58: line 49 computes `len(args == 2)`, and
`args == 2` (a tuple compared with a number) is `False`. Nothing after it is reached when it
raises; the branches for a successful `len` are kept to mirror the code. -/
def signatureGetInstance (args : List Int) : Except Err Int :=
  match PyLen.len (.bool false) with
  | .error e => .error e
  | .ok n =>
    if n ≠ 0 then
      match args with
      | [algorithm, _] => if algorithm = 10 then .ok algorithm else .error .nameError
      | _ => .error .valueError
    else if args.length = 3 then .error .valueError
    else .error .typeError

end Verif.Model
