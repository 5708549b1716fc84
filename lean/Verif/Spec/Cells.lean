import Verif.Spec.Card
import Verif.Props.ArraysWrap
/-! The cells of the caller's lists that a call names. -/
namespace Verif.Spec.Card
open Verif.Py Verif.Model Verif.Model.Card Verif.Props

/-- Cell `j` of a list of length `L` is among the `n` cells from the offset `off` on (all cells from there on when `n` is `none`); as everywhere in Python,
a negative index counts from the end. -/
def Among (off : Int) (n : Option Int) (L j : Nat) : Prop := ∃ t : Nat, (∀ m, n = some m → (t : Int) < m) ∧ Names L (off + t) j

/-- How many cells a call that tells the number of cells it wrote has written: the number it returned; when it raised, any number. -/
def returned : Except Err Card.Out → Option Int
  | .ok (.int n) => some n
  | _ => none

/-- The list a call that answered `o` stores into, the offset it was given, and how many cells. The lists an APDU was made from are left out, see `Resizes`. -/
def target (w : Card) (o : Except Err Card.Out) : Step → Option (Nat × Int × Option Int)
  | .store r i _ => some (r, i, some 1)
  | .arrayCopy _ _ d off len | .arrayCopyNonAtomic _ _ d off len => some (d, off, some len)
  | .arrayFill r off len _ | .random _ r off len | .bigToBytes _ r off len _ => some (r, off, some len)
  | .setShort r off _ | .availableMemory r off _ => some (r, off, some 2)
  | .setInt r off _ _ => some (r, off, some 4)
  | .getKey k r off => match w k with
    | .key (.des d) => some (r, off, some (d.size / 8))
    | _ => none
  | .tlvToBytes k r off => match w k with
    | .tlv t => some (r, off, if t.length < 0 then none else returned o)
    | _ => none
  | .appendStatic _ _ r off => some (r, off, none)
  | .tagToBytes _ r off | .tagToBytesStatic _ _ _ r off | .getValue _ r off | .getRSA _ _ r off | .aidGetBytes _ r off
  | .desFinal _ _ _ _ r off | .rsaFinal _ _ _ _ _ r off | .digestFinal _ _ _ _ r off => some (r, off, returned o)
  | .apdu a op => match w a, op with
    | .apdu _ b _, .receiveBytes off => some (b, off, returned o)
    | .apdu _ b (.full x), .setIncomingAndReceive => some (b, x.offsetincoming, returned o)
    | .apdu _ b _, .poke i _ => some (b, i, some 1)
    | _, _ => none
  | _ => none

/-- The calls that also put every other cell of the list they write to into signed form. -/
def signs : Step → Bool
  | .tagToBytes .. | .tagToBytesStatic .. | .tlvToBytes .. | .appendStatic .. => true
  | _ => false

/-- The signed form of a byte: cells up to 127 stay, others come to mean the same byte. -/
def SameByte (v v' : Int) : Prop := (v ≤ 127 → v' = v) ∧ (v' - v) % 256 = 0

end Verif.Spec.Card
