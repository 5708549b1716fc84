import Verif.Model.Util
/-! Model of /repo/pythoncardx/framework/math.py. -/
namespace Verif.Model
open Verif.Py

/-- `from_bcd`, math.py:6-12. -/
def fromBcd (data : Int) : Int :=
  let data := iand data 0xff
  (shr data 4) * 10 + iand data 0x0f

/-- `to_bcd`, math.py:14-22. -/
def toBcd (data : Int) : Int :=
  let data := iand data 0xff
  let a := data / 10
  let b := data % 10
  s1 (shl a 4 + b)

/-- `from_hex`, math.py:24-33. -/
def fromHex (data : Int) : Int := iand data 0xff

/-- `to_hex`, math.py:35-36. -/
def toHex (data : Int) : Int := s1 (iand data 0xff)

/-- A `BigNumber`, math.py:43-47; `value = none` is Python `None` (before `init`). -/
structure BigNumber where
  maxBytes : Option Int
  value : Option Int
  deriving DecidableEq, Repr

namespace BigNumber

/-- Constants, math.py:40-41. -/
def FORMAT_BCD : Int := 1
def FORMAT_HEX : Int := 2

/-- `BigNumber.__init__`, math.py:43-47. -/
def new (maxBytes : Option Int) : Except Err BigNumber :=
  match maxBytes with
  | some m => if m ≤ 0 then .error .arithmetic else .ok ⟨some m, none⟩
  | none => .ok ⟨none, none⟩

/-- The loop of `init` for one format, math.py:55-58 (`base = 100`, `conv = from_bcd`) and
60-63 (`<< 8` is `* 256`, `conv = from_hex`): the value accumulated so far, and the exception if
an index is out of range. -/
def initLoop (base : Int) (conv : Int → Int) (bArray : List Int) (bOff : Int) (acc : Int) (i : Nat) :
    Nat → Res Int Unit
  | 0 => (.ok (), acc)
  | n + 1 =>
    -- self._value *= base  happens before the element is read
    match get bArray (bOff + i) with
    | .error e => (.error e, acc * base)
    | .ok b => initLoop base conv bArray bOff (acc * base + conv b) (i + 1) n

/-- `init`, math.py:49-65 (`bArray = none` is Python `None`). -/
def init (x : BigNumber) (bArray : Option (List Int)) (bOff bLen arrayFormat : Int) :
    Res BigNumber Unit :=
  if bLen = 0 then (.error .arithmetic, x)
  else match bArray with
  | none => (.error .nullPointer, x)
  | some arr =>
    if arrayFormat = FORMAT_BCD then
      let r := initLoop 100 fromBcd arr bOff 0 0 (rangeLen bLen)
      (r.1, { x with value := some r.2 })
    else if arrayFormat = FORMAT_HEX then
      let r := initLoop (2 ^ 8) fromHex arr bOff 0 0 (rangeLen bLen)
      (r.1, { x with value := some r.2 })
    else (.error .arithmetic, x)

/-- `other = BigNumber(); other.init(...)`, math.py:73-74, 78-79, 83-84, 99-100. -/
def operand (bArray : Option (List Int)) (bOff bLen arrayFormat : Int) : Except Err Int :=
  match init ⟨none, none⟩ bArray bOff bLen arrayFormat with
  | (.error e, _) => .error e
  | (.ok (), o) => match o.value with
    | some v => .ok v
    | none => .error .typeError

/-- `self._value op= other._value`; `None op int` is a `TypeError`. -/
def combine (op : Int → Int → Int) (x : BigNumber) (o : Except Err Int) : Res BigNumber Unit :=
  match o with
  | .error e => (.error e, x)
  | .ok v => match x.value with
    | none => (.error .typeError, x)
    | some u => (.ok (), { x with value := some (op u v) })

/-- `multiply`, math.py:72-75. -/
def multiply (x : BigNumber) (bArray : Option (List Int)) (bOff bLen fmt : Int) : Res BigNumber Unit :=
  combine (· * ·) x (operand bArray bOff bLen fmt)

/-- `subtract`, math.py:77-80. -/
def subtract (x : BigNumber) (bArray : Option (List Int)) (bOff bLen fmt : Int) : Res BigNumber Unit :=
  combine (· - ·) x (operand bArray bOff bLen fmt)

/-- `add`, math.py:82-85. -/
def add (x : BigNumber) (bArray : Option (List Int)) (bOff bLen fmt : Int) : Res BigNumber Unit :=
  combine (· + ·) x (operand bArray bOff bLen fmt)

/-- `compareTo` with a `BigNumber`, math.py:87-95. Ordering comparison with `None` is a
`TypeError`; `None == None` is true. -/
def compareTo (x y : BigNumber) : Except Err Int :=
  if x.value = y.value then .ok 0
  else match x.value, y.value with
    | some a, some b => if a > b then .ok 1 else .ok (-1)
    | _, _ => .error .typeError

/-- `compareTo` with an array, math.py:96-101. -/
def compareToArray (x : BigNumber) (bArray : Option (List Int)) (bOff bLen fmt : Int) :
    Except Err Int :=
  match operand bArray bOff bLen fmt with
  | .error e => .error e
  | .ok v => compareTo x ⟨none, some v⟩

/-- `while value > 0: array.append(conv(value % base)); value = value // base`,
math.py:107-109 and 112-114 (`value & 0xff`, `value >> 8` are `% 256`, `// 256` on a
non-negative value). `fuel` bounds the number of iterations; `digits` supplies enough. -/
def digitsF (base : Int) (conv : Int → Int) : Nat → Int → List Int
  | 0, _ => []
  | f + 1, v => if v > 0 then conv (v % base) :: digitsF base conv f (v / base) else []

/-- The digit loop with enough fuel (`v` halves at least at each iteration). -/
def digits (base : Int) (conv : Int → Int) (v : Int) : List Int := digitsF base conv v.toNat v

/-- `toBytes`, math.py:103-121. -/
def toBytes (x : BigNumber) (outBuf : List Int) (bOff numBytes arrayFormat : Int) :
    Res (List Int) Unit :=
  if arrayFormat = FORMAT_BCD ∨ arrayFormat = FORMAT_HEX then
    match x.value with
    | none => (.error .typeError, outBuf)                     -- `None > 0`
    | some value =>
      let array := if arrayFormat = FORMAT_BCD then digits 100 toBcd value
                   else digits (2 ^ 8) toHex value
      if numBytes < array.length then (.error .arithmetic, outBuf)
      else
        let array := (array ++ fresh (numBytes - array.length) 0).reverse
        Util.arrayCopy array 0 outBuf bOff numBytes
  else (.error .arithmetic, outBuf)

/-- `getMaxBytesSupported`, math.py:67-70. -/
def getMaxBytesSupported : Int := 20

end BigNumber
end Verif.Model
