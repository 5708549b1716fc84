import Verif.Spec.Basic
/-! ISO/IEC 7816-4 encodings of command APDUs. Bytes may be written signed or unsigned. -/
namespace Verif.Spec

/-- Every element is a byte, written signed or unsigned. -/
def AnyBytes (l : List Int) : Prop := ∀ x ∈ l, -128 ≤ x ∧ x ≤ 255

/-- `h l` spell the 16-bit number `n`, big-endian. -/
def Spells2 (h l : Int) (n : Nat) : Prop := n < 65536 ∧ Spells h (n / 256) ∧ Spells l (n % 256)

/-- Short Lc field: absent without data, else one byte holding the number of data bytes. -/
def ShortLc (data lcf : List Int) : Prop :=
  (data = [] ∧ lcf = []) ∨ (data ≠ [] ∧ data.length ≤ 255 ∧ ∃ b, lcf = [b] ∧ Spells b data.length)

/-- Short Le field: absent, or one byte for an expected length 1..256 (256 is written 0). -/
def ShortLe (ne : Option Nat) (lef : List Int) : Prop :=
  (ne = none ∧ lef = []) ∨
  (∃ n, ne = some n ∧ 1 ≤ n ∧ n ≤ 256 ∧ ∃ b, lef = [b] ∧ Spells b (n % 256))

/-- `bytes` is the short encoding of the command with 4-byte header `hdr`, command data `data` and
expected length `ne`. (Cases 1, 2S, 3S, 4S.) -/
def ShortCmd (hdr data : List Int) (ne : Option Nat) (bytes : List Int) : Prop :=
  hdr.length = 4 ∧ ∃ lcf lef, ShortLc data lcf ∧ ShortLe ne lef ∧ bytes = hdr ++ (lcf ++ (data ++ lef))

/-- Case 2E: header, a zero byte, two bytes of Le (65536 is written 0). -/
def Ext2 (hdr : List Int) (n : Nat) (bytes : List Int) : Prop :=
  hdr.length = 4 ∧ 1 ≤ n ∧ n ≤ 65536 ∧
  ∃ h l, Spells2 h l (n % 65536) ∧ bytes = hdr ++ [0, h, l]

/-- Case 3E: header, a zero byte, two bytes of Lc, data. -/
def Ext3 (hdr data : List Int) (bytes : List Int) : Prop :=
  hdr.length = 4 ∧ data ≠ [] ∧ data.length ≤ 65535 ∧
  ∃ h l, Spells2 h l data.length ∧ bytes = hdr ++ ([0, h, l] ++ data)

/-- Case 4E: header, a zero byte, two bytes of Lc, data, two bytes of Le. -/
def Ext4 (hdr data : List Int) (n : Nat) (bytes : List Int) : Prop :=
  hdr.length = 4 ∧ data ≠ [] ∧ data.length ≤ 65535 ∧ 1 ≤ n ∧ n ≤ 65536 ∧
  ∃ h l h' l', Spells2 h l data.length ∧ Spells2 h' l' (n % 65536) ∧
    bytes = hdr ++ ([0, h, l] ++ (data ++ [h', l']))

/-- The ISO 7816-3 case of a command. -/
def isoCase (data : List Int) (ne : Option Nat) : Nat :=
  match data, ne with
  | [], none => 1
  | [], some _ => 2
  | _ :: _, none => 3
  | _ :: _, some _ => 4

/-- `bytes` is the encoding of some command, short or extended. -/
def WellFormed (bytes : List Int) : Prop :=
  (∃ hdr data ne, ShortCmd hdr data ne bytes) ∨ (∃ hdr n, Ext2 hdr n bytes) ∨
  (∃ hdr data, Ext3 hdr data bytes) ∨ (∃ hdr data n, Ext4 hdr data n bytes)

end Verif.Spec
