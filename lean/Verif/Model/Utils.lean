import Verif.Py.Core
/-! Model of /repo/pythoncard/utils.py (and of the identical helpers in
/repo/pythoncardx/framework/util/intx.py:3-17). -/
namespace Verif.Model
open Verif.Py

/-- `signed(value, depth)`, /repo/pythoncard/utils.py:2-10 (identical copy in
/repo/pythoncardx/framework/util/intx.py:3-11). `(1 << (depth*8)-1)` parses as
`1 << ((depth*8)-1)`. Only depths 1, 2 and 4 are used; depth 0 (a `ValueError` for the
negative shift in Python) is not modelled. -/
def signed (value : Int) (depth : Nat) : Int :=
  let mask := shl 1 (depth * 8) - 1
  if value > shl 1 (depth * 8 - 1) - 1 then
    -(iand (inot (value - 1)) mask)
  else value

/-- `s1`, /repo/pythoncard/utils.py:12-13; also intx.py:16-17. -/
def s1 (value : Int) : Int := signed value 1

/-- `s2`, /repo/pythoncard/utils.py:15-16. -/
def s2 (value : Int) : Int := signed value 2

/-- `s4`, /repo/pythoncardx/framework/util/intx.py:13-14. -/
def s4 (value : Int) : Int := signed value 4

/-- `u1`, /repo/pythoncard/utils.py:18-19. -/
def u1 (value : Int) : Int := iand value 0xff

end Verif.Model
