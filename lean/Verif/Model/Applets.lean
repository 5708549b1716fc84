import Verif.Model.APDU
import Verif.Model.Cipher
/-! Model of /repo/pythoncard/framework/applet.py, and of the applets of /repo/test/testApplet.py and /repo/test/AppletRSA2048.py as
clients of the library. -/
namespace Verif.Model
open Verif.Py

namespace Applet

/-- `select`, applet.py:23-24. -/
def select : Bool := true

/-- `reSelectingApplet`, applet.py:30-31. -/
def reSelectingApplet : Bool := false

/-- `selectingApplet`, applet.py:26-28. The attribute `_selectingApplet` is set by the surrounding system only; `none`: not yet set. -/
def selectingApplet (flag : Option Bool) : Except Err Bool :=
  match flag with
  | none => .error .attributeError
  | some b => .ok b

/-- `process` of a class that does not define it, applet.py:42-43. -/
def process (a : APDU) : Res APDU Unit := (.error .notImplemented, a)

/-- `install` of a class that does not define it, applet.py:33-40. -/
def install : Except Err Unit := .error .notImplemented

end Applet

/-- The surrounding system of testApplet.py:62-81 for one command: construct the APDU (outside the `try`), call `process`, and answer with
`apdu._APDU__buffer[:apdu._outgoinglength]` and 90 00, or with the reason of an `ISOException`; other exceptions escape. -/
def exchange (process : APDU → Res APDU Unit) (command : List Int) : Except Err (List Int) :=
  match APDU.init command with
  | .error e => .error e
  | .ok a =>
    match process a with
    | (.ok (), a) => .ok (a.response ++ [0x90, 0x00])
    | (.error (.iso sw), _) => .ok [sw / 256, sw % 256]
    | (.error e, _) => .error e

namespace BaseProcessApplet

/-- `choice1`, testApplet.py:47-51: `buf` is the list `getBuffer()` returns. -/
def choice1 (a : APDU) : Res APDU Unit :=
  match a.setIncomingAndReceive with
  | (.error e, a) => (.error e, a)
  | (.ok _, a) =>
    match a.poke 0 55 with
    | (.error e, a) => (.error e, a)
    | (.ok (), a) =>
      match a.poke 1 77 with
      | (.error e, a) => (.error e, a)
      | (.ok (), a) =>
        match a.poke 2 99 with
        | (.error e, a) => (.error e, a)
        | (.ok (), a) => a.setOutgoingAndSend 0 3

/-- `process`, testApplet.py:29-45. -/
def process (selecting : Option Bool) (a : APDU) : Res APDU Unit :=
  match Applet.selectingApplet selecting with
  | .error e => (.error e, a)
  | .ok true => (.ok (), a)
  | .ok false =>
    match a.isISOInterindustryCLA with
    | .error e => (.error e, a)
    | .ok true => (.error (.iso 0x6E00), a)
    | .ok false =>
      match get a.buffer 1 with
      | .error e => (.error e, a)
      | .ok ins =>
        if ins = 8 then choice1 a
        else if ins = 56 then (.ok (), a)
        else if ins = 42 then (.ok (), a)
        else (.error (.iso 0x6D00), a)

end BaseProcessApplet

/-- `HandsonRSA2048EncryptDecrypt`, AppletRSA2048.py:6-14: key object 0 of the heap is the public key, 1 the private key. -/
structure RSAApplet where
  heap : KeyHeap
  cipher : RSACipher

namespace RSAApplet

/-- `__init__` (through `install`), AppletRSA2048.py:16-26; `register` is left to the surrounding system (applet.py:48-52) and only
its arguments are evaluated. -/
def install (pycrypto longSuffix : Bool) (generate : Int → TheKey) (bArray : List Int) (bOffset : Int) : Except Err RSAApplet :=
  match KeyPair.new 1 1024 with
  | .error e => .error e
  | .ok p =>
    match p.genKeyPair pycrypto longSuffix generate with
    | (.error e, _) => .error e
    | (.ok (), p) =>
      match cipherGetInstance [10, 0] with
      | .error e => .error e
      | .ok (_, base) =>
        match get bArray bOffset with
        | .error e => .error e
        | .ok _ => .ok ⟨fun r => if r = 0 then .rsa p.publicKey else .rsa p.privateKey, ⟨base, none⟩⟩

/-- The end of `encryptRSA` and `decryptRSA`, AppletRSA2048.py:53-55 and 64-66, `buf` being the buffer `doFinal` wrote into. -/
def answer (a : APDU) (length : Int) : Res APDU Unit :=
  match a.setOutgoing with
  | (.error e, a) => (.error e, a)
  | (.ok _, a) =>
    match a.setOutgoingLength length with
    | (.error e, a) => (.error e, a)
    | (.ok _, a) => a.sendBytesLong a.buffer 5 length

/-- `encryptRSA` (`key = 0`, `mode = 2`), AppletRSA2048.py:46-55, and `decryptRSA` (`key = 1`, `mode = 1`), AppletRSA2048.py:57-66. The
assertion on line 49 is made by `encryptRSA` only. `none`: the random stream given is too short. -/
def cipherRSA (ops : RSAOps) (longSuffix : Bool) (rnd : List Nat) (app : RSAApplet) (a : APDU) (encrypt : Bool) :
    Option (Except Err Unit × APDU × RSAApplet) :=
  match a.setIncomingAndReceive with
  | (.error e, a) => some (.error e, a, app)
  | (.ok byteRead, a) =>
    if encrypt ∧ ¬ (app.heap 1).isInitialized then some (.error .assertion, a, app)
    else
      match app.cipher.init app.heap (.key (if encrypt then 0 else 1)) (if encrypt then 2 else 1) with
      | (.error e, c) => some (.error e, a, ⟨app.heap, c⟩)
      | (.ok (), c) =>
        match c.doFinal app.heap ops longSuffix rnd a.buffer 5 byteRead a.buffer 5 with
        | none => none
        | some (.error e, buf) => some (.error e, { a with buffer := buf }, ⟨app.heap, c⟩)
        | some (.ok n, buf) =>
          match answer { a with buffer := buf } n with
          | (r, a) => some (r, a, ⟨app.heap, c⟩)

/-- `try: … except KeyError: ISOException.throwIt(SW_WRONG_P1P2)`, AppletRSA2048.py:38-44. -/
def catchKeyError (r : Except Err Unit × APDU × RSAApplet) : Except Err Unit × APDU × RSAApplet :=
  match r with
  | (.error .keyError, a, app) => (.error (.iso 0x6B00), a, app)
  | r => r

/-- `process`, AppletRSA2048.py:28-44. On line 35 the name `framework` is undefined (NameError). A KeyError raised anywhere in the `try`
block becomes 6B00. -/
def process (ops : RSAOps) (longSuffix : Bool) (rnd : List Nat) (app : RSAApplet) (selecting : Option Bool) (a : APDU) :
    Option (Except Err Unit × APDU × RSAApplet) :=
  match Applet.selectingApplet selecting with
  | .error e => some (.error e, a, app)
  | .ok true => some (.ok (), a, app)
  | .ok false =>
    match get a.buffer 0 with
    | .error e => some (.error e, a, app)
    | .ok cla =>
      if cla ≠ 0 then some (.error .nameError, a, app)
      else
        match get a.buffer 1 with
        | .error e => some (.error e, a, app)
        | .ok ins =>
          if ins ≠ 0xAA then some (.error (.iso 0x6D00), a, app)
          else
            match get a.buffer 2 with
            | .error e => some (.error e, a, app)
            | .ok p1 =>
              if p1 = 1 ∨ p1 = 2 then
                (cipherRSA ops longSuffix rnd app a (decide (p1 = 1))).map catchKeyError
              else some (.error (.iso 0x6B00), a, app)

/-- The surrounding system's answer, as in `exchange`. -/
def respond (r : Except Err Unit × APDU × RSAApplet) : Except Err (List Int) × RSAApplet :=
  match r with
  | (.ok (), a, app) => (.ok (a.response ++ [0x90, 0x00]), app)
  | (.error (.iso sw), _, app) => (.ok [sw / 256, sw % 256], app)
  | (.error e, _, app) => (.error e, app)

/-- One command sent to the applet: the answer as in `exchange`, and the applet afterwards. -/
def command (ops : RSAOps) (longSuffix : Bool) (rnd : List Nat) (app : RSAApplet) (selecting : Option Bool) (bytes : List Int) :
    Option (Except Err (List Int) × RSAApplet) :=
  match APDU.init bytes with
  | .error e => some (.error e, app)
  | .ok a => (process ops longSuffix rnd app selecting a).map respond

/-- A session: commands one after the other, each with its random stream; `none` when one of these was too short. -/
def session (ops : RSAOps) (longSuffix : Bool) (app : RSAApplet) : List (List Nat × Option Bool × List Int) → Option RSAApplet
  | [] => some app
  | (rnd, sel, bytes) :: cs =>
    match app.command ops longSuffix rnd sel bytes with
    | none => none
    | some (_, app) => app.session ops longSuffix cs

end RSAApplet
end Verif.Model
