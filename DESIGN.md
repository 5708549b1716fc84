# Formal model of pythoncard in Lean 4

The plan below was written before the proofs and is kept up to date as the model grows.

## 1. Layout

* `lean/Verif/Py/Core.lean` – the fragment of Python 3 the code uses: unbounded ints with bit operations, lists with negative
  indices / clamping slices / slice assignment, exceptions as values. Nothing in it is about pythoncard.
* `lean/Verif/Model/` – the model, one file per source file or group of files, one definition per function, each citing file and
  lines in /repo and any simplification.
* `lean/Verif/Spec/` – small independent specifications (two's complement, "this range was written", BER encodings, ISO 7816-4
  command encodings, positional numbers, FIPS 46-3). They do not mention the model.
* `lean/Verif/Lemmas/` – helper lemmas.
* `lean/Verif/Props/` – the property theorems `Cxx_...`; an `example` beside them shows a concrete case meeting the hypotheses.
* `lean/Verif/Conformance/` – the project's own unit tests (test/*.py, pyDes/test_pydes.py), transcribed and evaluated in the model by the
  kernel, RSA with a real 1024-bit key. These are tests of the model's fidelity, not proofs; nothing in MANIFEST.json refers to them. All of them
  agree with the authors' expectations except `testRSASignVerify` (see C109), which the model says fails.
* `properties.jsonl` (the English properties), `MANIFEST.json` (property → theorems), `AXIOMS.md` (theorem → axioms),
  `seeded/LOG.jsonl` (wrong programs tried against the theorems), `tools/` (the scripts that write these files).

## 2. Trusted base

1. Lean 4.33's kernel (the build is replayed by the checker). No `native_decide`, no `bv_decide`, no axioms of our own.
2. The axioms of Lean that theorems use: at most `propext`, `Quot.sound`, `Classical.choice`. `AXIOMS.md` lists the set for
   each property theorem (regenerate with `python3 tools/axioms.py`).
3. That `Py/Core.lean` describes Python correctly, and that the definitions under `Model/` mirror /repo. The code was only
   read, never run; every definition cites its lines. This is the main trust assumption; the project's own tests, evaluated in the
   model (`Verif/Conformance`), are evidence for it.
4. External code is a *parameter* of the model, universally quantified in the theorems, with assumptions stated as hypotheses:
   * `hashlib`: an arbitrary function from algorithm number and byte string to digest (C65);
   * `os.urandom` / `random`: an arbitrary list or stream of bytes (C63, C64, C66);
   * PyCrypto RSA: `generate` returns arbitrary numbers; `encrypt`/`decrypt` are arbitrary partial functions of key handle and
     number; round-trip theorems (C64) assume that decryption inverts encryption below the modulus. C98 discharges that
     assumption: it instantiates the two functions with modular exponentiation (textbook RSA, which is what PyCrypto computes)
     and proves the round trip from number theory; it is one of the three files that import Mathlib (with Props/KeyExport and Props/SignVerify). `construct` is assumed to
     succeed. Both "PyCrypto present" and "absent" are covered by a boolean where the code distinguishes them.
5. Integers passed where the code expects integers, lists where it expects lists: arguments of other Python types are modelled
   only where the code tests for them (`isinstance(pin, str)`, `None` arrays of BigNumber and getAvailableMemory, non-Key
   arguments of `Cipher.init`, tags that are `None`).

## 3. What is modelled

| file in /repo | model | not modelled |
|---|---|---|
| pythoncard/utils.py | Model/Utils; Model/Dispatch for `NotAlwaysStatic` (C95; elsewhere the static and bound versions are two definitions) | |
| pythoncard/framework/util.py | Model/Util, with arrays by reference where aliasing matters | |
| pythoncard/framework/jcsystem.py | Model/JCSystem, Model/Memory (`getAvailableMemory` with any arguments) | warnings, `requestObjectDeletion` (empty) |
| pythoncard/framework/\_\_init\_\_.py, python/lang.py, pythoncardx/external/memory.py | Model/Exceptions (class hierarchy, reasons, handlers) | |
| pythoncard/framework/aid.py | Model/AID; Model/Objects for Python's own comparisons (C128) | |
| pythoncard/framework/applet.py | Model/Applets | `register` (only warns), empty methods |
| pythoncard/framework/ownerpin.py | Model/OwnerPIN; Model/PINText for Python 2 unicode text (C129) | |
| pythoncard/framework/apdu.py | Model/APDU (one object), Model/APDUWorld (several objects sharing lists, the current APDU) | the empty methods `getNAD`, `setoutgoingNoChaining`, `waitExtension`, `isSecureMessagingCLA` |
| pythoncard/framework/service/dispatcher.py | Model/Dispatcher | the other (empty) service classes |
| pythoncard/security/{key,keybuilder,keypair,publickey,privatekey,secretkey}.py | Model/Key (single objects), Model/KeyPairs (pairs and keys referring to each other), Model/CrtKey (CRT private keys) | abstract methods of the plain RSA classes that only raise NotImplementedError |
| pythoncard/security/{messagedigest,random,signature}.py | Model/Digest | the hash functions themselves |
| pythoncardx/crypto/cipher.py | Model/Cipher | RSA arithmetic |
| pythoncardx/framework/math.py | Model/BigNumber; Model/Objects for unset numbers under Python 2 (C128) | |
| pythoncardx/framework/util/intx.py | Model/JCint | |
| pythoncardx/framework/tlv/{bertag,bertlv}.py | Model/BERTag, Model/BERTLV; Model/TLVWorld for the sharing of objects and arrays (C104) | |
| pyDes/pyDes.py | Model/DES, Model/DESSetters, bit by bit; Model/DESText for text arguments (`_guardAgainstUnicode`); Model/DESPads for pads of any length; Model/DESFull with None, bytes or text for every string argument, all setters and getters, `crypt` | arguments of other types (lists, bytearrays, numbers); Python 2's conversions between `str` and integers |
| all of the above, objects by reference | Model/Card: every kind of object at an address of one heap, one step per modelled call (C114, C115, C116, C117, C118, C119, C120, C122, C123, C124, C125, C126, C127) | `Dispatcher`, CRT keys, pyDes objects used directly |
| test/testApplet.py, test/AppletRSA2048.py | Model/Applets | the two applets and the command loop, as clients of the API (C83, C84) |
| the other files of test/, pyDes/test_pydes.py | Conformance/ | client code: the tests are evaluated in the model |
| the top level of all library files | Model/Imports (C110, C111): import statements, definitions, aliases, the global names functions read | effects of evaluating class bodies; Python 2's implicit relative imports |
| setup.py | – | not library code |

Concrete cases stand beside the theorems, in the same file or in the modules Props/WitnessBase, WitnessTLV, WitnessAPDU, WitnessRSA, WitnessCipher and
WitnessDES, which apply the theorems to values that meet their hypotheses.

Files added while growing are listed with their properties in section 5.

## 4. Modelling decisions

* A function that mutates an argument or `self` returns `Except Err α × σ`: the outcome **and** the state afterwards, also when an
  exception was raised, so partial effects of failing calls are visible to theorems.
* Loops are structural recursion mirroring the Python loop, one iteration per step. The only loops that may diverge
  (`find`, `findNext` of BERTLV) take fuel; `none` = did not finish with this fuel; C45 states divergence as "none for every fuel".
* Aliasing is modelled where it matters: `arrayCopy` on a heap of lists (C05–C08), RSA ciphers hold a reference into a heap of key
  objects (C53, C55, C64), APDUs share the caller's list (C81).
* Python 2 / Python 3: the code is read as Python 3, but `_longToArray` (`hex(n)[2:-1]`) is correct only for Python 2 longs; the
  model takes a boolean `longSuffix` and theorems cover both. What else differs has models of its own: look-up of methods (C95), text (DESText), `!=`,
  hashing and comparisons with `None` (C128), `unicode` PINs (C129).
* Triple DES: a call that fails half-way leaves the chaining values of the three inner objects in a state we do not specify
  (`SameButIVs`); theorems hold for every such state.
* Private (`__x`) attributes are plain fields; direct attribute access by the user is outside the API and not modelled, except the
  APDU buffer, which `getBuffer()` hands out (operation `poke`).

## 5. Per-property plan

| properties | shape and method |
|---|---|
| C01–C03 bytes and shorts | arithmetic on `%`, `/` against `IsSignedOf` |
| C04–C09 arrays | induction over the copy/compare/fill loops, heap of lists for aliasing; C06, C07 refute the Java Card contract and characterise the real behaviour |
| C10–C13 AID | slice lemmas |
| C14–C20 OwnerPIN | `step : State → Op → Out × State`; invariants and counting by induction over histories; C18 refutes the contract |
| C21–C29 APDU | constructor against a separate encoder of ISO 7816-4 commands; receive/send loops by induction over blocks; phases by induction over histories |
| C30 Dispatcher | induction over histories |
| C31–C34 BigNumber | positional notation, digit induction |
| C35 JCint | arithmetic; refutes the contract |
| C36–C39 BER tags | separate encoder; induction over tag numbers |
| C40–C48, C69–C72 BER TLVs | separate encoder; induction over child lists; fuel-indexed search for (non-)termination |
| C49–C54 keys | state machines, histories |
| C55, C56, C62–C64 ciphers | state machines over a key heap; composition with the DES and padding theorems |
| C57–C61, C73–C80 DES | Feistel induction, table facts by kernel `decide` over the whole (finite) table lifted to all blocks, refinement to a FIPS 46-3 specification, algebra on bit lists, invariants of setter histories |
| C65–C68 digests, random, signature, JCSystem | direct / histories |
| C81 several APDUs | heap of lists, simulation of each object's own history |
| C82 echo applet | composition of the receive-loop and send theorems |
| C83–C84 applets | composition: command encoder, APDU phases, cipher and RSA round trip; invariant over sessions |
| C85 text for DES | simulation: text history = byte history, call by call |
| C86 exceptions | class hierarchy by case analysis, handler lists and reason histories by induction |
| C88 nested TLVs | nested inductive trees with a separate encoder; mutual structural induction for building, induction over paths and sizes for searching and reading |
| C89 mixed PINs | cell-by-cell description of the two fill loops, invariants of histories |
| C90 BigNumber histories | simulation of an abstract integer machine by induction over histories; a total specification of every call on any arguments |
| C91 tag `init` from bytes, `__str__` | the decoding lemma of C41 for an arbitrary starting object; injectivity of decimal printing |
| C92 arrays at every offset | `Names`/`Reachable` (Spec in the file), induction over the loops with wrapped indices |
| C93 PIN cells over histories | `pinCell` (spec: the cell values from the list of accepted updates), induction from the end of the history |
| C94 CRT keys | object histories |
| C95 static and bound operations | attribute lookup along the class hierarchy, induction over the list of subclasses |
| C96 AIDs at negative offsets | case analysis of the clamped slice bounds, for all lists |
| C97 other array arguments at every offset | every writer is shown equal to one list of stores, induction over that list; readers by induction over the cells named |
| C98 genuine RSA keys | the abstract RSA operations of C64 and C84 instantiated with modular exponentiation; Fermat's little theorem and the Chinese remainder theorem from Mathlib |
| C99 ciphers after any history | specification: last element of the modes and of the keys a list of calls sets; invariant by induction over the history |
| C87 key pairs | heap of key objects; invariant that pairs refer to existing keys; induction over programs |
| C100 exported public keys | composition: getters, setters, number conversion and the RSA round trip of C98 |
| C101 Pads of several bytes in pyDes | Model/DESPads: `_padData`, `_unpadData`, `crypt` and triple_des with byte strings as pads; arithmetic modulo 8, refinement to Model/DES for one byte, `crypt_roundtrip`, induction over the CBC loops |
| C102 Negative length arguments | slice bounds by case analysis, loops by induction; the APDU part over all histories |
| C103 Searches return soon or never | the loop as a partial step function on the offsets inside the value; pigeonhole: a run longer than the number of offsets repeats one, so it never ends |
| C104 What TLV objects share | a heap of tag objects, TLV objects and arrays; invariant: every TLV object has a tag object of its own; frame lemma for each step, induction over programs; refinement of the value-level operations |
| C105 Which exceptions a call can raise | total verdict functions over the observable state; invariants for the sent count and the data left, induction over histories; exception sets of TLV calls by structural induction, each with an attaining program |
| C106 What a DES cipher makes of any data, and every exception | uniqueness and existence of the unpadded plaintext from the inverse laws of the block cipher and of CBC; verdict functions over the history, by cases from C99 |
| C107 What an RSA cipher makes of any data, and every exception | closed form of `doFinal` after any history, for an arbitrary library; case analysis |
| C108 What keys, key pairs, ciphers, digests and arrays share | one world of all objects by reference (Model/CryptoWorld); frame lemma per step, induction over programs; every DES cipher is refined by the histories of C99 |
| C109 signing and verifying with RSA | unfolding for the equality of operations; the NOPAD and PKCS1 forms of C64 with modular exponentiation; primitive roots (Mathlib) for the exact condition |
| C110 importing the modules in any order | statements of every file transcribed from the syntax tree (Model/Imports), import machinery with `sys.modules`; frame lemma (a load touches only its region) and fuel independence by induction over runs; the kernel evaluates the load of each module from every reachable subset of its region; induction over sessions |
| C111 global names read by functions | the same invariant on sessions; symbol tables of the files |
| C112 sizes, offsets and searches above 127 bytes | positional notation against `length//127 + 1`; induction over the children |
| C113 pyDes objects with every kind of argument | Model/DESFull: the whole of pyDes.py with None/bytes/text arguments; relation "alike but for the IVs of inner objects" and "alike but for the kind of string", induction over the calls; refinement to Model/DES, Model/DESPads |
| C114 objects do not interfere | Model/Card: one heap with all objects by address, steps for every modelled call; frame and locality lemmas by cases on the call, closure of ownership, induction on the schedule |
| C115 object graph | Model/Card with Spec/Card (kinds, attributes, what a call keeps): one invariant over all programs, proved by cases on the call (`card_tidy`, `card_returned`), then induction over the program |
| C116 histories on a card | the history of an object is read off the program and the card before each call; induction over the program; then C14, C15 and C99 applied to it |
| C117 lists and APDUs on a card | Props/CardLists, CardAPDU, CardResponse: which calls can change the length of a list; induction over programs that an APDU is `APDU.run` of its own history (foreign calls appear as stores into its buffer); then C24 and C27 through that history |
| C118 cells named by a call | Spec/Cells (offset and number of cells per call), Props/CardCells: a relation "equal outside the named cells", closed under stores and composition, for every function that stores; then all calls of Model/Card, and induction over programs |
| C119 what was written out can be read back later | Model/Card; C118_program keeps the range a call has written, and the reading call looks only at that range; the one-object round trips (C03, C35, C11, C36, C40, C49, C51, C32, C04) do the rest; AIDs are immutable on a card, contents of DES keys are bytes (invariant from the blank card) |
| C120 histories of AIDs, tags, TLVs, DES keys, pairs and lists on a card | induction over the program with one step lemma per kind of object (what the call does to it, from the call and the lists on the card), as for C116; lists through the cells of C118 |
| C121 attackers against PINs | adaptive strategies as functions of the answers seen; induction over the number of calls: the answers do not depend on the PIN outside a list of at most as many guesses as tries |
| C122 exceptions of every call | table `raises` call by call (Spec/Raises); invariants over all programs on a card (tags, TLV parts, cipher states, the current APDU) and error lemmas of each function; for each entry a program that reaches it |
| C123 An attacker with the whole card | two cards that differ inside one PIN object only answer every call not on it alike (`sem_pinless`, by cases on the call); induction on the number of calls, each either not looking at the PIN or comparing it with one value at the cost of a try |
| C124 Tags and TLVs on a card, asked about | `getInstance` reduced to the base `init` (`get_base`) so object and static answers coincide; C36, C37, C70, C72 and C47 lifted to the heap with C118 (cells kept by a program) and C120 (histories); two concrete programs |
| C125 RSA sessions on a card | Card model; forward induction over programs for "the last init" (`rsa_last`), frame for keys (`rsaKey_kept`), then the round trips of C64; textbook RSA by C98 |
| C126 DES sessions on a card | Card model; the session invariant of C116 (`des_session`) twice, joined over the concatenated program, with C99 |
| C127 exchanges on a card | frame theorem (C114) over programs, the history of an APDU (C117) and the DES session theorems (C116) composed |
| C128 objects under `==`, `!=`, `in`, dictionaries | Model/Objects: the class's `__eq__` on contents by address, Python's data model for the rest (trusted), both versions; induction over lists and over dictionary histories with the invariant that each entry stores its key's hash and stands for one key |
| C129 PINs as Python 2 unicode text | Model/PINText: the object of Model/OwnerPIN with cells that are numbers or characters; a map of cells to codes commutes with every call, and with the comparison where the map is injective on the cells of the history; invariants on the kind of the first cell for the refusals |

All listed properties could be expressed in the model; none is "not applicable". What the model cannot exhibit: warnings,
timing, memory use, behaviour of `hashlib`, PyCrypto and `os.urandom`, and Python object identity beyond the references above.

## 6. Findings (the code violates its contract; proved as such)

* C06/C07: `arrayCopy` on one array is not as-if-through-a-temporary when ranges overlap forwards; it is not atomic, transactions
  do nothing. C08: `arrayCopyNonAtomic` raises NameError (misspelt exception); negative offsets wrap; a failing setShort leaves its
  high byte.
* C13: `AID.getPartialBytes` never succeeds.
* C18: array PINs are stored with index `offset - i`, so for maxPINSize > length wrong PINs are accepted (and others refused).
  C20: `update` validates the PIN.
* C22/C23: extended case 3 is always refused, case 4E with Le a multiple of 256 is refused, case 2E with such an Le is read as
  256, some malformed extended commands are accepted. C27: out-of-range sends are silently truncated. C28: `sendBytesLong` has no
  phase check.
* C30: `maxServices` is ignored. C31: a failing init destroys the value. C33: negative results are written as zero.
* C35: `getInt` is wrong whenever one of its three lower bytes is negative.
* C37: size of a built tag. C41: TLVs over 127 bytes cannot be written (NameError). C42/C69: long-form lengths and multi-byte tags
  are misread. C45: `find` loops forever on some inputs. C47: static `findNext` never finds. C48: `init` from bytes has no effect.
  C72: static append corrupts longer arrays.
* C50/C64: byte order and the lost digit of `_longToArray` under Python 3. C53: a key keeps its first components; private keys set
  by components are unusable. C55/C62: a failed `init` changes the mode. C63: no minimum padding check. C67: `Signature.getInstance`
  never returns.
* C79/C80: `des.setKey` with a short key raises but has already replaced the stored key, while the old subkeys stay in use; `triple_des.setKey` in CBC mode keeps the IV taken from the old key;
  padding arguments of one call behave differently in encrypt and decrypt.
* C81: a failing APDU constructor becomes the current APDU. C82: short commands with 253–255 data bytes overrun the 257-byte buffer
  (IndexError). C84: the RSA applet raises NameError for CLA ≠ 0; the byte order of `_longToArray`/`_arrayToLong` makes the *last* byte of
  the padded message the most significant one, so messages whose last byte reaches the modulus' leading byte do not survive, and a
  trailing zero byte is lost; nothing decrypts under Python 3.
* C85: a text key refused by `triple_des.setKey` may have replaced part of the key already; empty results are text, not bytes.
* C86: `UserException.throwIt` and `CardException.throwIt` do not exist. C87: keys handed out before `genKeyPair` stay uninitialised; a pair of
  two given keys cannot generate (AttributeError).
* C89: the same PIN given as a string and as an array is in general not the same PIN. C90: `maxBytes` is ignored; an `init` that raises IndexError leaves a number behind; a negative number is written as zero; BCD digits above 9 are accepted. C91: a refused `init` of a tag loses the tag held. C92: an operation at a negative offset wraps around: a copy to offset -m of more than m cells goes on at the start of the array. C93: an array PIN shorter than the maximum leaves cells of the previous PIN in place, so it may be refused right after it was set. C94: CRT private keys can never be filled.
* C102: lengths are not checked for their sign: `AID.equals` and `partialEquals` compare other ranges than asked for; `OwnerPIN.update` with a negative length sets a PIN of zero bytes and validates it, `check` with a length below `-maxPINSize` raises IndexError free of charge; random data and BigNumber refuse the length 0 but not -1; a negative response length sends the command back.
* C103: `findNext` counts the same child of size 0 as often as it is asked to.
* C104: `getTag` hands out the tag object the TLV uses; initialising it changes the TLV, whose encoding then has another tag (and, since `init(class, number)` does not set the size, possibly a wrong size).
* C105: `receiveBytes` outside the buffer raises IndexError and `sendBytesLong` before `setOutgoing` AttributeError, not APDUException; `OwnerPIN.check` can raise IndexError at no cost of a try, `update` can raise IndexError after it has replaced the PIN; `toBytes` of TLVs can raise NameError and TypeError.
* C106: PKCS5 padding is never checked on decryption: a wrong key or damaged data is not reported, and when the last byte of the decrypted text is 0 or larger than the text the result is empty.
* C108: a DES cipher keeps the key bytes of the moment of `init`, an RSA cipher keeps the key object: `setTheKey`, `setExponent` or `setModulus` after `init` change what an RSA cipher does (through its library key), `setKey` after `init` does not change what a DES cipher does.
* C109: "signing" with an RSA private key is the public operation (the code calls the library's `encrypt` both to sign and to verify): anyone can forge, and verification does not give the message back. The project's own test `testRSASignVerify` fails in the model (Conformance/Crypto.lean).
* C110: with pyDes as its own setup.py (and PyPI) installs it, a single module `pyDes`, `from pyDes import pyDes` in secretkey.py raises
  ImportError, so neither pythoncard.security (hash functions and random numbers included) nor pythoncardx.crypto can be imported; the
  `try … except ImportError: pyDes = None` around the same statement in cipher.py can never help, since cipher.py imports secretkey.py first.
* C111: eleven global names are read but bound nowhere (list in the property).
* C112: `getLengthLen` divides by 127: sizes and value offsets are wrong for 254, 255 and more than 380 value bytes; the static `getLength` of every TLV in long form is one too small. `findNext` takes two children of more than 127 value bytes for the same when only their last bytes differ (`C112_findNext`).
* C113: `des.setKey` (reachable after construction without the length check) with fewer than 8 bytes raises IndexError with the new key already stored: `getKey` shows a key that is not in use. `crypt` with a type other than 0 and 1 deciphers without chaining, whatever the mode. `triple_des` has no `crypt`.
* C114: programs that share no object still share `apdu._current`: `getCLAChannel` and `getCurrentAPDU` of one answer for the APDU another made last (on a real card only one APDU exists). It is the only state of the library outside objects.
* C121: a PIN of n digits set from an array (maximum size at least 2n-1) is found with ten one-byte presentations (C121_array_pin_found).
* C122: only the calls of Util on arrays, a few on tags, key pairs, PINs and AIDs raise nothing but Java Card exceptions; every other call lets a built-in Python exception out (C122_builtin has a program for each).
* C118: `toBytes` of a tag (hence of a TLV, and the static TLV `append`) puts every cell of the caller's array that is above 127 into signed form, not only the cells it writes; and a TLV whose value was replaced with a negative length returns fewer cells than it wrote (C118).
* C117: `AID.getBytes` at a negative offset, and sends past the end of the list an APDU was made from, can change the length of the caller's list; nothing else can (C117).
* C119: an RSA modulus exported into a list (cells 0..255) is lost when a tag or TLV is written out elsewhere into the same list before it is read back: the cells become signed and `setModulus` takes the negative numbers as they are (C119_signed_modulus).
* C128: neither `AID` nor `BERTag` defines `__ne__` or `__hash__`: under Python 2 equal AIDs are also `!=` and an AID is not found in a dictionary under an equal one; under Python 3 they cannot be keys. An unset `BigNumber` is written as zeros under Python 2.
* C129: under Python 2 a PIN set as `unicode` is never accepted as `str` of the same characters, nor the other way round, and each attempt costs a try: `isinstance(pin, str)` is false of `unicode`, so its characters are stored unconverted (and in the scrambled order of arrays).
* C125: on a card, whoever can name the public key object makes the "signatures" of the private one, byte for byte (C125_signature), and under Python 3 no padded ciphertext can be decrypted (C125_py3).

## 7. Testing the theorems against wrong programs

Scratch copies of the project (outside /verif) are edited one definition at a time – wrong boundary, missed case, swapped
argument, dropped update – and every module depending on the edited file is re-elaborated by a small driver that continues after a
failing proof (the failing theorem is then treated as unproved) and reports, at the end, which property theorems are no longer proved,
directly or through a lemma. Each attempt is one line of `seeded/LOG.jsonl`: definition, edit, claim broken, property
theorems failed, proofs with errors, and what was tightened. An attempt where the claim is false of the edited program and its
theorem still stands leads to a new or stronger theorem (`tightened`).

Growth after the first list: C69–C72 (TLV reading/replacing, static functions), C73 (pad characters), C74–C78 (algebra of DES: parity
bits, complementation, weak keys, degenerate triple DES, error propagation), C79–C80 (setters and per-call padding), C81–C82 (several
APDUs, echo applet), C83–C84 (test applets, RSA applet sessions), C85 (text for DES), C86 (exceptions), C87 (key pairs),
C88 (nested TLVs), C89 (mixed PIN forms), C90 (BigNumber histories), C91 (tag `init` from bytes, printing), C92 (array operations at every offset), C93 (PIN cells over all histories), C94 (CRT keys), C95 (`NotAlwaysStatic`), C96 (AIDs at negative offsets), C97 (other array arguments at every offset), C98 (genuine RSA keys), C99 (cipher histories, offsets of either sign, default IV), C100 (public keys exported and rebuilt), C101 (pads of several bytes), C102 (negative lengths), C103 (searches return soon or never), C104 (sharing between TLVs, tags and arrays), C105 (which exceptions a call can raise), C106 (DES ciphers on any data), C107 (RSA ciphers on any data), C108 (sharing between keys, ciphers, digests and arrays), C109 (RSA signing and verifying), C110 (imports in any order), C111 (global names), C112 (TLVs above 127 bytes), C113 (pyDes objects with every kind of argument), C114 (all objects on one card, interleaved programs), C115 (the object graph of a card: kinds, private parts, what is kept and returned), C116 (histories of single objects on a card, PIN and DES sessions), C117 (list lengths, receiving and sending on a card), C118 (the cells a call names), C119 (reading back later), C120 (the other objects), C121 (attackers against PINs), C122 (the exceptions of every call), C123 (attackers with the whole card), C124 (questions about tags and TLVs on a card), C125 (RSA sessions on a card), C126 (DES sessions on a card), C127 (exchanges on a card), C128 (objects compared by Python itself), C129 (PINs as text).
