import Verif.Model.DESText

/-!
The tests of /repo/pyDes/test_pydes.py, transcribed and evaluated in the model (Python 3, where text arguments are encoded as ASCII).
These are **tests of the model**, not proofs of properties: no entry of MANIFEST.json refers to this file. Round trips are theorems
(C57–C61, C73–C80, C105, C106); what the tests add is that the constructor and call forms the authors use are accepted.
-/
namespace Verif.Conformance.PyDes
open Verif.Py Verif.Model Verif.Model.PyDes

/-- A text literal. -/
def t (s : String) : Data := .text (s.toList.map Char.toNat)
/-- `"...".encode('ascii')`. -/
def enc (s : String) : Data := .bytes (s.toList.map Char.toNat)
/-- `"\0" * n`. -/
def zeros (n : Nat) : Data := .text (List.replicate n 0)

/-- `k = des(key, mode, iv, pad, padmode); d = k.encrypt(data, pad1, padmode1); k.decrypt(d, pad2, padmode2)`. -/
def desRound (key : Data) (mode : Nat) (iv : Data) (pad : Option PadArg) (padmode : Nat) (data : Data)
    (pad1 : Option PadArg) (pm1 : Option Nat) (pad2 : Option PadArg) (pm2 : Option Nat) : Except Err Data := do
  let k ← PDes.newT true key mode iv pad padmode
  let d ← k.des.encryptT true data pad1 pm1
  k.des.decryptT true d pad2 pm2

/-- The same with `triple_des`. -/
def tripleRound (key : Data) (mode : Nat) (iv : Data) (pad : Option PadArg) (padmode : Nat) (data : Data)
    (pad1 : Option PadArg) (pm1 : Option Nat) (pad2 : Option PadArg) (pm2 : Option Nat) : Except Err Data := do
  let k ← TTriple.new true key mode iv pad padmode
  let (d, k) ← k.encrypt true data pad1 pm1
  let (r, _) ← k.decrypt true d pad2 pm2
  return r

abbrev noIV : Data := .bytes []
abbrev star : Option PadArg := some (.char 42)

-- Test 2, test_pydes.py:113-119, on the last six bytes
example : desRound (zeros 8) CBC (zeros 8) none PAD_NORMAL (enc "f text") star none star none =
    .ok (enc "f text") := by decide +kernel

-- Test 4, test_pydes.py:129-136, on its last seven bytes
example : desRound (t "\r\n\tABC\r\n") ECB noIV none PAD_NORMAL (.bytes [0x08, 0xFF, 0x8F, 0xDC, 0xB0, 0x40, 0x80]) (some (.byte 0x44)) none
    (some (.byte 0x44)) none = .ok (.bytes [0x08, 0xFF, 0x8F, 0xDC, 0xB0, 0x40, 0x80]) := by decide +kernel
example : desRound (t "\r\n\tABC\r\n") ECB noIV none PAD_NORMAL (.bytes [0x08, 0xFF, 0x8F, 0xDC, 0xB0, 0x40, 0x80]) (some (.byte 0x44)) none
    none none = .ok (.bytes [0x08, 0xFF, 0x8F, 0xDC, 0xB0, 0x40, 0x80, 0x44]) := by decide +kernel

-- Test 5, test_pydes.py:138-150, on five bytes: the pad mode given with the call, and with the object
example : desRound (t "\r\n\tkey\r\n") ECB noIV none PAD_NORMAL (enc "o Pad") none (some PAD_PKCS5) none (some PAD_PKCS5) =
    .ok (enc "o Pad") := by decide +kernel
example : desRound (t "\r\n\tkey\r\n") ECB noIV none PAD_PKCS5 (enc "o Pad") none none none none = .ok (enc "o Pad") := by decide +kernel

-- Test 9, test_pydes.py:173-178, on five bytes: triple DES in CBC mode, padded with "."
example : tripleRound (t "MyDesKey\r\n\tABC\r\n0987*54B") CBC (t "12341234") none PAD_NORMAL (.bytes [0x08, 0xFF, 0x8F, 0xDC, 0xB0])
    (some (.char 46)) none (some (.char 46)) none = .ok (.bytes [0x08, 0xFF, 0x8F, 0xDC, 0xB0]) := by decide +kernel

-- Test 7, test_pydes.py:159-164, on one block: sixteen bytes of key
example : tripleRound (t "\r\n\tABC\r\n0987*543") ECB noIV none PAD_NORMAL (.bytes [0, 1, 2, 3, 4, 5, 6, 7]) none none none none =
    .ok (.bytes [0, 1, 2, 3, 4, 5, 6, 7]) := by decide +kernel

-- Test 17, test_pydes.py:238-246, on five bytes: CBC with no IV yet
example : tripleRound (zeros 24) CBC noIV none PAD_PKCS5 (enc "o Pad") none none none none = .ok (enc "o Pad") := by decide +kernel

end Verif.Conformance.PyDes
