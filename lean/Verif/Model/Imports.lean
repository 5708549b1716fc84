/-
Model of how the modules of the library load each other (all files of /repo outside test/ and setup.py, top-level statements only).

Python's import machinery (Lib/importlib/_bootstrap.py `_find_and_load`, `_handle_fromlist`; the `IMPORT_FROM` instruction) is modelled with
`sys.modules`: a module is entered *before* its body runs, so a circular import sees a partly filled module; a module whose body raises is
removed again; a finished submodule becomes an attribute of its package.
-/
namespace Verif.Model.Imports

/-- The modules of the library (and the copy of pyDes in the repository), named by their dotted path with `_` for `.`.
Files: python/__init__.py, python/io.py, python/lang.py, … (each is cited at `body` below). -/
inductive M where
  | python | python_io | python_lang | python_rmi | pythoncard | pythoncard_utils | pythoncard_framework
  | pythoncard_framework_ISO7816 | pythoncard_framework_aid | pythoncard_framework_apdu
  | pythoncard_framework_applet | pythoncard_framework_jcsystem | pythoncard_framework_ownerpin
  | pythoncard_framework_util | pythoncard_framework_service | pythoncard_framework_service_basicservice
  | pythoncard_framework_service_cardremoteobject | pythoncard_framework_service_dispatcher
  | pythoncard_framework_service_rmiservice | pythoncard_security | pythoncard_security_key
  | pythoncard_security_keybuilder | pythoncard_security_keypair | pythoncard_security_messagedigest
  | pythoncard_security_privatekey | pythoncard_security_publickey | pythoncard_security_random
  | pythoncard_security_secretkey | pythoncard_security_signature | pythoncardx | pythoncardx_apdu
  | pythoncardx_crypto | pythoncardx_crypto_cipher | pythoncardx_external | pythoncardx_external_memory
  | pythoncardx_framework | pythoncardx_framework_math | pythoncardx_framework_tlv
  | pythoncardx_framework_tlv_bertag | pythoncardx_framework_tlv_bertlv | pythoncardx_framework_util
  | pythoncardx_framework_util_intx | pyDes | pyDes_pyDes
  deriving DecidableEq, Repr

/-- The identifiers bound or mentioned at the top level of the modules; a leading underscore is written `u_`. -/
inductive Id where
  | IOException | Object | RuntimeException | IndexOutOfBoundsException | ArrayIndexOutOfBoundsException
  | SecurityException | NullPointerException | ArithmeticException | ClassCastException | RemoteException
  | Remote | signed | s1 | s2 | u1 | NotAlwaysStatic | CardException | UserException | CardRuntimeException
  | ISOException | PINException | APDUException | SystemException | TransactionException | Shareable | applet
  | aid | apdu | ownerpin | Applet | AID | APDU | OwnerPIN | jcsystem | JCSystem | util | Util
  | CLA_ISO7816 | INS_EXTERNAL_AUTHENTICATE | INS_SELECT | OFFSET_CDATA | OFFSET_CLA | OFFSET_EXT_CDATA
  | OFFSET_INS | OFFSET_LC | OFFSET_P1 | OFFSET_P2 | SW_APPLET_SELECT_FAILED | SW_BYTES_REMAINING_00
  | SW_CLA_NOT_SUPPORTED | SW_COMMAND_CHAINING_NOT_SUPPORTED | SW_COMMAND_NOT_ALLOWED
  | SW_CONDITIONS_NOT_SATISFIED | SW_CORRECT_LENGTH_00 | SW_DATA_INVALID | SW_FILE_FULL | SW_FILE_INVALID
  | SW_FILE_NOT_FOUND | SW_FUNC_NOT_SUPPORTED | SW_INCORRECT_P1P2 | SW_INS_NOT_SUPPORTED
  | SW_LAST_COMMAND_EXPECTED | SW_LOGICAL_CHANNEL_NOT_SUPPORTED | SW_NO_ERROR | SW_RECORD_NOT_FOUND
  | SW_SECURE_MESSAGING_NOT_SUPPORTED | SW_SECURITY_STATUS_NOT_SATISFIED | SW_UNKNOWN
  | SW_WARNING_STATE_UNCHANGED | SW_WRONG_DATA | SW_WRONG_LENGTH | SW_WRONG_P1P2 | IN_BLOCKSIZE | OUT_BLOCKSIZE
  | ISO7816 | u_current | warnings | ARRAY_TYPE_BOOLEAN | ARRAY_TYPE_BYTE | ARRAY_TYPE_INT | ARRAY_TYPE_OBJECT
  | ARRAY_TYPE_SHORT | CLEAR_ON_DESELECT | CLEAR_ON_RESET | MEMORY_TYPE_PERSISTENT
  | MEMORY_TYPE_TRANSIENT_DESELECT | MEMORY_TYPE_TRANSIENT_RESET | NOT_A_TRANSIENT_OBJECT | abortTransaction
  | beginTransaction | commitTransaction | makeTransientShortArray | makeTransientByteArray
  | makeTransientBooleanArray | makeTransientObjectArray | requestObjectDeletion | getAvailableMemory
  | makeGlobalArray | arrayCompare | arrayCopy | arrayCopyNonAtomic | arrayFillNonAtomic | makeShort
  | getShort | setShort | ServiceException | Service | cardremoteobject | CardRemoteObject | dispatcher
  | Dispatcher | basicservice | BasicService | rmiservice | RMIService | CryptoException | key | keybuilder
  | privatekey | publickey | secretkey | Key | KeyBuilder | PrivateKey | PublicKey | RSAPrivateCrtKey
  | RSAPrivateKey | RSAPublicKey | SecretKey | DESKey | keypair | KeyPair | signature | random | Signature
  | RandomData | messagedigest | MessageDigest | u_longToArray | u_arrayTolong | u_binaryToarray
  | u_arrayTobinary | pyCryptoRSA | hashlib | u_HashLibMessageDigest | standardGetter | standardSetter
  | PyCryptoRSAPrivateKey | PyCryptoRSAPrivateCrtKey | PyCryptoRSAPublicKey | os | u_SecureRandomData | pyDes
  | pyDesDESKey | u_RSASHASignature | ExtendedLength | Cipher | cipher | u_PyCryptoRSACipher
  | u_pyDesDESCipher | ExternalException | memory | Memory | from_bcd | to_bcd | from_hex | to_hex
  | BigNumber | TLVException | bertag | BERTag | PrimitiveBERTag | ConstructedBERTag | bertlv | BERTLV
  | PrimitiveBERTLV | ConstructedBERTLV | sanitycheck | copy | u_getLength | getLengthLen | s4 | sanatize
  | JCint | sys | u_pythonMajorVersion | ECB | CBC | PAD_NORMAL | PAD_PKCS5 | u_baseDes | des | triple_des
  | python | io | lang | rmi | pythoncard | utils | framework | service | security | pythoncardx | crypto
  | external | math | tlv | intx | aidOfset | NegativeArraySizeException | ArrayIndexoutOfBoundsException
  | ArrayIndexOutOfBoundException | chunk | startOff
  deriving DecidableEq, Repr

/-- All modules. -/
def M.all : List M := [
  .python, .python_io, .python_lang, .python_rmi, .pythoncard, .pythoncard_utils, .pythoncard_framework,
  .pythoncard_framework_ISO7816, .pythoncard_framework_aid, .pythoncard_framework_apdu, .pythoncard_framework_applet,
  .pythoncard_framework_jcsystem, .pythoncard_framework_ownerpin, .pythoncard_framework_util,
  .pythoncard_framework_service, .pythoncard_framework_service_basicservice,
  .pythoncard_framework_service_cardremoteobject, .pythoncard_framework_service_dispatcher,
  .pythoncard_framework_service_rmiservice, .pythoncard_security, .pythoncard_security_key,
  .pythoncard_security_keybuilder, .pythoncard_security_keypair, .pythoncard_security_messagedigest,
  .pythoncard_security_privatekey, .pythoncard_security_publickey, .pythoncard_security_random,
  .pythoncard_security_secretkey, .pythoncard_security_signature, .pythoncardx, .pythoncardx_apdu,
  .pythoncardx_crypto, .pythoncardx_crypto_cipher, .pythoncardx_external, .pythoncardx_external_memory,
  .pythoncardx_framework, .pythoncardx_framework_math, .pythoncardx_framework_tlv, .pythoncardx_framework_tlv_bertag,
  .pythoncardx_framework_tlv_bertlv, .pythoncardx_framework_util, .pythoncardx_framework_util_intx, .pyDes,
  .pyDes_pyDes]

/-- The package a module is in (from the directory tree of /repo). -/
def parent : M → Option M
  | .python => none
  | .python_io => some .python
  | .python_lang => some .python
  | .python_rmi => some .python
  | .pythoncard => none
  | .pythoncard_utils => some .pythoncard
  | .pythoncard_framework => some .pythoncard
  | .pythoncard_framework_ISO7816 => some .pythoncard_framework
  | .pythoncard_framework_aid => some .pythoncard_framework
  | .pythoncard_framework_apdu => some .pythoncard_framework
  | .pythoncard_framework_applet => some .pythoncard_framework
  | .pythoncard_framework_jcsystem => some .pythoncard_framework
  | .pythoncard_framework_ownerpin => some .pythoncard_framework
  | .pythoncard_framework_util => some .pythoncard_framework
  | .pythoncard_framework_service => some .pythoncard_framework
  | .pythoncard_framework_service_basicservice => some .pythoncard_framework_service
  | .pythoncard_framework_service_cardremoteobject => some .pythoncard_framework_service
  | .pythoncard_framework_service_dispatcher => some .pythoncard_framework_service
  | .pythoncard_framework_service_rmiservice => some .pythoncard_framework_service
  | .pythoncard_security => some .pythoncard
  | .pythoncard_security_key => some .pythoncard_security
  | .pythoncard_security_keybuilder => some .pythoncard_security
  | .pythoncard_security_keypair => some .pythoncard_security
  | .pythoncard_security_messagedigest => some .pythoncard_security
  | .pythoncard_security_privatekey => some .pythoncard_security
  | .pythoncard_security_publickey => some .pythoncard_security
  | .pythoncard_security_random => some .pythoncard_security
  | .pythoncard_security_secretkey => some .pythoncard_security
  | .pythoncard_security_signature => some .pythoncard_security
  | .pythoncardx => none
  | .pythoncardx_apdu => some .pythoncardx
  | .pythoncardx_crypto => some .pythoncardx
  | .pythoncardx_crypto_cipher => some .pythoncardx_crypto
  | .pythoncardx_external => some .pythoncardx
  | .pythoncardx_external_memory => some .pythoncardx_external
  | .pythoncardx_framework => some .pythoncardx
  | .pythoncardx_framework_math => some .pythoncardx_framework
  | .pythoncardx_framework_tlv => some .pythoncardx_framework
  | .pythoncardx_framework_tlv_bertag => some .pythoncardx_framework_tlv
  | .pythoncardx_framework_tlv_bertlv => some .pythoncardx_framework_tlv
  | .pythoncardx_framework_util => some .pythoncardx_framework
  | .pythoncardx_framework_util_intx => some .pythoncardx_framework_util
  | .pyDes => none
  | .pyDes_pyDes => some .pyDes

/-- The last component of the name of a module. -/
def lastName : M → Id
  | .python => .python
  | .python_io => .io
  | .python_lang => .lang
  | .python_rmi => .rmi
  | .pythoncard => .pythoncard
  | .pythoncard_utils => .utils
  | .pythoncard_framework => .framework
  | .pythoncard_framework_ISO7816 => .ISO7816
  | .pythoncard_framework_aid => .aid
  | .pythoncard_framework_apdu => .apdu
  | .pythoncard_framework_applet => .applet
  | .pythoncard_framework_jcsystem => .jcsystem
  | .pythoncard_framework_ownerpin => .ownerpin
  | .pythoncard_framework_util => .util
  | .pythoncard_framework_service => .service
  | .pythoncard_framework_service_basicservice => .basicservice
  | .pythoncard_framework_service_cardremoteobject => .cardremoteobject
  | .pythoncard_framework_service_dispatcher => .dispatcher
  | .pythoncard_framework_service_rmiservice => .rmiservice
  | .pythoncard_security => .security
  | .pythoncard_security_key => .key
  | .pythoncard_security_keybuilder => .keybuilder
  | .pythoncard_security_keypair => .keypair
  | .pythoncard_security_messagedigest => .messagedigest
  | .pythoncard_security_privatekey => .privatekey
  | .pythoncard_security_publickey => .publickey
  | .pythoncard_security_random => .random
  | .pythoncard_security_secretkey => .secretkey
  | .pythoncard_security_signature => .signature
  | .pythoncardx => .pythoncardx
  | .pythoncardx_apdu => .apdu
  | .pythoncardx_crypto => .crypto
  | .pythoncardx_crypto_cipher => .cipher
  | .pythoncardx_external => .external
  | .pythoncardx_external_memory => .memory
  | .pythoncardx_framework => .framework
  | .pythoncardx_framework_math => .math
  | .pythoncardx_framework_tlv => .tlv
  | .pythoncardx_framework_tlv_bertag => .bertag
  | .pythoncardx_framework_tlv_bertlv => .bertlv
  | .pythoncardx_framework_util => .util
  | .pythoncardx_framework_util_intx => .intx
  | .pyDes => .pyDes
  | .pyDes_pyDes => .pyDes

/-- Top-level statements (Python reference 5 and 7.11; one constructor per form that occurs in /repo). -/
inductive Stmt where
  /-- `import a.b.c`: binds the first component -/
  | imp (m : M)
  /-- import of a module of the standard library, taken to succeed -/
  | ext (x : Id)
  /-- `from m import x as y, …` -/
  | from_ (m : M) (xs : List (Id × Id))
  /-- class, function or constant -/
  | defn (x : Id) (uses : List Id)
  /-- `x = base.attr`, where `base` names the module `q` (simplified: were it to name anything else, the model says AttributeError) -/
  | alias (x base : Id) (q : M) (attr : Id)
  /-- `x = y` -/
  | copy (x y : Id)
  /-- `try: from m import x` / `except ImportError: x = None` -/
  | tryFrom (m : M) (x : Id)
  /-- `try: from Crypto.PublicKey import RSA as x` / `except ImportError: x = None` -/
  | tryCrypto (x : Id)

/-- The top-level statements of each module in order, transcribed mechanically from the syntax tree of the files cited; the line of every
statement is the number behind it. Relative imports (`..framework`) are written as the absolute module they denote. A class, function or
constant is a `defn` with the module-level names its evaluation needs (base classes, decorators, defaults, class-level expressions; not what is
inside functions). Simplified: evaluating a class body or constant has no other effect, and attributes of classes are not looked up. -/
def code : M → List Stmt
  -- python/__init__.py
  | .python => []
  -- python/io.py
  | .python_io => [
      .defn .IOException []]   -- 1
  -- python/lang.py
  | .python_lang => [
      .defn .Object [],   -- 1
      .defn .RuntimeException [],   -- 5
      .defn .IndexOutOfBoundsException [.RuntimeException],   -- 8
      .defn .ArrayIndexOutOfBoundsException [.IndexOutOfBoundsException],   -- 11
      .defn .SecurityException [.RuntimeException],   -- 14
      .defn .NullPointerException [.RuntimeException],   -- 17
      .defn .ArithmeticException [.RuntimeException],   -- 20
      .defn .ClassCastException [.RuntimeException]]   -- 23
  -- python/rmi.py
  | .python_rmi => [
      .from_ .python_io [(.IOException, .IOException)],   -- 1
      .defn .RemoteException [.IOException],   -- 3
      .defn .Remote []]   -- 6
  -- pythoncard/__init__.py
  | .pythoncard => []
  -- pythoncard/utils.py
  | .pythoncard_utils => [
      .defn .signed [],   -- 2
      .defn .s1 [],   -- 12
      .defn .s2 [],   -- 15
      .defn .u1 [],   -- 18
      .defn .NotAlwaysStatic []]   -- 21
  -- pythoncard/framework/__init__.py
  | .pythoncard_framework => [
      .from_ .python_lang [(.RuntimeException, .RuntimeException)],   -- 14
      .defn .CardException [],   -- 16
      .defn .UserException [.CardException],   -- 19
      .defn .CardRuntimeException [.RuntimeException],   -- 22
      .defn .ISOException [.CardRuntimeException],   -- 36
      .defn .PINException [.CardRuntimeException],   -- 39
      .defn .APDUException [.CardRuntimeException],   -- 42
      .defn .SystemException [.CardRuntimeException],   -- 51
      .defn .TransactionException [.CardRuntimeException],   -- 59
      .defn .Shareable [],   -- 65
      .from_ .pythoncard_framework [(.applet, .applet), (.aid, .aid), (.apdu, .apdu), (.ownerpin, .ownerpin)],   -- 67
      .alias .Applet .applet .pythoncard_framework_applet .Applet,   -- 69
      .alias .AID .aid .pythoncard_framework_aid .AID,   -- 70
      .alias .APDU .apdu .pythoncard_framework_apdu .APDU,   -- 71
      .alias .OwnerPIN .ownerpin .pythoncard_framework_ownerpin .OwnerPIN,   -- 72
      .from_ .pythoncard_framework [(.jcsystem, .JCSystem)],   -- 74
      .from_ .pythoncard_framework [(.util, .Util)]]   -- 76
  -- pythoncard/framework/ISO7816.py
  | .pythoncard_framework_ISO7816 => [
      .defn .CLA_ISO7816 [],   -- 11
      .defn .INS_EXTERNAL_AUTHENTICATE [],   -- 13
      .defn .INS_SELECT [],   -- 14
      .defn .OFFSET_CDATA [],   -- 16
      .defn .OFFSET_CLA [],   -- 17
      .defn .OFFSET_EXT_CDATA [],   -- 18
      .defn .OFFSET_INS [],   -- 19
      .defn .OFFSET_LC [],   -- 20
      .defn .OFFSET_P1 [],   -- 21
      .defn .OFFSET_P2 [],   -- 22
      .defn .SW_APPLET_SELECT_FAILED [],   -- 24
      .defn .SW_BYTES_REMAINING_00 [],   -- 25
      .defn .SW_CLA_NOT_SUPPORTED [],   -- 26
      .defn .SW_COMMAND_CHAINING_NOT_SUPPORTED [],   -- 27
      .defn .SW_COMMAND_NOT_ALLOWED [],   -- 28
      .defn .SW_CONDITIONS_NOT_SATISFIED [],   -- 29
      .defn .SW_CORRECT_LENGTH_00 [],   -- 30
      .defn .SW_DATA_INVALID [],   -- 31
      .defn .SW_FILE_FULL [],   -- 32
      .defn .SW_FILE_INVALID [],   -- 33
      .defn .SW_FILE_NOT_FOUND [],   -- 34
      .defn .SW_FUNC_NOT_SUPPORTED [],   -- 35
      .defn .SW_INCORRECT_P1P2 [],   -- 36
      .defn .SW_INS_NOT_SUPPORTED [],   -- 37
      .defn .SW_LAST_COMMAND_EXPECTED [],   -- 38
      .defn .SW_LOGICAL_CHANNEL_NOT_SUPPORTED [],   -- 39
      .defn .SW_NO_ERROR [],   -- 40
      .defn .SW_RECORD_NOT_FOUND [],   -- 41
      .defn .SW_SECURE_MESSAGING_NOT_SUPPORTED [],   -- 42
      .defn .SW_SECURITY_STATUS_NOT_SATISFIED [],   -- 43
      .defn .SW_UNKNOWN [],   -- 44
      .defn .SW_WARNING_STATE_UNCHANGED [],   -- 45
      .defn .SW_WRONG_DATA [],   -- 46
      .defn .SW_WRONG_LENGTH [],   -- 47
      .defn .SW_WRONG_P1P2 []]   -- 48
  -- pythoncard/framework/aid.py
  | .pythoncard_framework_aid => [
      .from_ .python_lang [(.ArrayIndexOutOfBoundsException, .ArrayIndexOutOfBoundsException)],   -- 1
      .defn .AID []]   -- 3
  -- pythoncard/framework/apdu.py
  | .pythoncard_framework_apdu => [
      .defn .IN_BLOCKSIZE [],   -- 23
      .defn .OUT_BLOCKSIZE [],   -- 24
      .from_ .pythoncard_framework [(.APDUException, .APDUException), (.ISOException, .ISOException), (.ISO7816, .ISO7816)],   -- 26
      .from_ .pythoncard_utils [(.u1, .u1)],   -- 28
      .defn .u_current [],   -- 31
      .defn .APDU []]   -- 33
  -- pythoncard/framework/applet.py
  | .pythoncard_framework_applet => [
      .ext .warnings,   -- 1
      .defn .Applet []]   -- 3
  -- pythoncard/framework/jcsystem.py
  | .pythoncard_framework_jcsystem => [
      .ext .warnings,   -- 1
      .defn .ARRAY_TYPE_BOOLEAN [],   -- 3
      .defn .ARRAY_TYPE_BYTE [],   -- 4
      .defn .ARRAY_TYPE_INT [],   -- 5
      .defn .ARRAY_TYPE_OBJECT [],   -- 6
      .defn .ARRAY_TYPE_SHORT [],   -- 7
      .defn .CLEAR_ON_DESELECT [],   -- 9
      .defn .CLEAR_ON_RESET [],   -- 10
      .defn .MEMORY_TYPE_PERSISTENT [],   -- 12
      .defn .MEMORY_TYPE_TRANSIENT_DESELECT [],   -- 13
      .defn .MEMORY_TYPE_TRANSIENT_RESET [],   -- 14
      .defn .NOT_A_TRANSIENT_OBJECT [],   -- 16
      .defn .abortTransaction [],   -- 19
      .defn .beginTransaction [],   -- 22
      .defn .commitTransaction [],   -- 25
      .defn .makeTransientShortArray [],   -- 28
      .copy .makeTransientByteArray .makeTransientShortArray,   -- 32
      .defn .makeTransientBooleanArray [],   -- 34
      .defn .makeTransientObjectArray [],   -- 39
      .defn .requestObjectDeletion [],   -- 43
      .defn .getAvailableMemory [],   -- 46
      .defn .makeGlobalArray []]   -- 63
  -- pythoncard/framework/ownerpin.py
  | .pythoncard_framework_ownerpin => [
      .from_ .python_lang [(.ArrayIndexOutOfBoundsException, .ArrayIndexOutOfBoundsException)],   -- 1
      .from_ .pythoncard_framework [(.PINException, .PINException)],   -- 2
      .defn .OwnerPIN []]   -- 5
  -- pythoncard/framework/util.py
  | .pythoncard_framework_util => [
      .from_ .python_lang [(.ArrayIndexOutOfBoundsException, .ArrayIndexOutOfBoundsException)],   -- 5
      .from_ .pythoncard_framework [(.JCSystem, .JCSystem)],   -- 6
      .from_ .pythoncard_utils [(.s1, .s1), (.s2, .s2)],   -- 8
      .defn .arrayCompare [],   -- 10
      .defn .arrayCopy [],   -- 21
      .defn .arrayCopyNonAtomic [],   -- 35
      .defn .arrayFillNonAtomic [],   -- 42
      .defn .makeShort [],   -- 49
      .defn .getShort [],   -- 53
      .defn .setShort []]   -- 59
  -- pythoncard/framework/service/__init__.py
  | .pythoncard_framework_service => [
      .from_ .pythoncard_framework [(.CardRuntimeException, .CardRuntimeException)],   -- 1
      .defn .ServiceException [.CardRuntimeException],   -- 3
      .defn .Service [],   -- 12
      .from_ .pythoncard_framework_service [(.cardremoteobject, .cardremoteobject)],   -- 15
      .alias .CardRemoteObject .cardremoteobject .pythoncard_framework_service_cardremoteobject .CardRemoteObject,   -- 16
      .from_ .pythoncard_framework_service [(.dispatcher, .dispatcher)],   -- 18
      .alias .Dispatcher .dispatcher .pythoncard_framework_service_dispatcher .Dispatcher,   -- 19
      .from_ .pythoncard_framework_service [(.basicservice, .basicservice)],   -- 21
      .alias .BasicService .basicservice .pythoncard_framework_service_basicservice .BasicService,   -- 22
      .from_ .pythoncard_framework_service [(.rmiservice, .rmiservice)],   -- 24
      .alias .RMIService .rmiservice .pythoncard_framework_service_rmiservice .RMIService]   -- 25
  -- pythoncard/framework/service/basicservice.py
  | .pythoncard_framework_service_basicservice => [
      .from_ .pythoncard_framework_service [(.Service, .Service)],   -- 1
      .defn .BasicService [.Service]]   -- 3
  -- pythoncard/framework/service/cardremoteobject.py
  | .pythoncard_framework_service_cardremoteobject => [
      .from_ .python_rmi [(.Remote, .Remote)],   -- 1
      .defn .CardRemoteObject [.Remote]]   -- 3
  -- pythoncard/framework/service/dispatcher.py
  | .pythoncard_framework_service_dispatcher => [
      .from_ .pythoncard_framework_service [(.ServiceException, .ServiceException)],   -- 1
      .defn .Dispatcher []]   -- 3
  -- pythoncard/framework/service/rmiservice.py
  | .pythoncard_framework_service_rmiservice => [
      .from_ .pythoncard_framework_service [(.BasicService, .BasicService)],   -- 1
      .defn .RMIService [.BasicService]]   -- 3
  -- pythoncard/security/__init__.py
  | .pythoncard_security => [
      .from_ .pythoncard_framework [(.CardRuntimeException, .CardRuntimeException)],   -- 1
      .defn .CryptoException [.CardRuntimeException],   -- 3
      .from_ .pythoncard_security [(.key, .key), (.keybuilder, .keybuilder), (.privatekey, .privatekey), (.publickey, .publickey), (.secretkey, .secretkey)],   -- 10
      .alias .Key .key .pythoncard_security_key .Key,   -- 12
      .alias .KeyBuilder .keybuilder .pythoncard_security_keybuilder .KeyBuilder,   -- 13
      .alias .PrivateKey .privatekey .pythoncard_security_privatekey .PrivateKey,   -- 14
      .alias .PublicKey .publickey .pythoncard_security_publickey .PublicKey,   -- 15
      .alias .RSAPrivateCrtKey .privatekey .pythoncard_security_privatekey .RSAPrivateCrtKey,   -- 16
      .alias .RSAPrivateKey .privatekey .pythoncard_security_privatekey .RSAPrivateKey,   -- 17
      .alias .RSAPublicKey .publickey .pythoncard_security_publickey .RSAPublicKey,   -- 18
      .alias .SecretKey .secretkey .pythoncard_security_secretkey .SecretKey,   -- 19
      .alias .DESKey .secretkey .pythoncard_security_secretkey .DESKey,   -- 20
      .from_ .pythoncard_security [(.keypair, .keypair)],   -- 22
      .alias .KeyPair .keypair .pythoncard_security_keypair .KeyPair,   -- 24
      .from_ .pythoncard_security [(.signature, .signature), (.random, .random)],   -- 26
      .alias .Signature .signature .pythoncard_security_signature .Signature,   -- 28
      .alias .RandomData .random .pythoncard_security_random .RandomData,   -- 29
      .from_ .pythoncard_security [(.messagedigest, .messagedigest)],   -- 31
      .alias .MessageDigest .messagedigest .pythoncard_security_messagedigest .MessageDigest]   -- 33
  -- pythoncard/security/key.py
  | .pythoncard_security_key => [
      .from_ .pythoncard_utils [(.s1, .s1)],   -- 1
      .defn .u_longToArray [],   -- 3
      .defn .u_arrayTolong [],   -- 19
      .defn .u_binaryToarray [],   -- 33
      .defn .u_arrayTobinary [],   -- 36
      .defn .Key []]   -- 39
  -- pythoncard/security/keybuilder.py
  | .pythoncard_security_keybuilder => [
      .from_ .pythoncard_security [(.publickey, .publickey), (.privatekey, .privatekey), (.secretkey, .secretkey)],   -- 1
      .defn .KeyBuilder []]   -- 3
  -- pythoncard/security/keypair.py
  | .pythoncard_security_keypair => [
      .from_ .pythoncard_security [(.CryptoException, .CryptoException), (.RSAPrivateKey, .RSAPrivateKey), (.RSAPrivateCrtKey, .RSAPrivateCrtKey), (.RSAPublicKey, .RSAPublicKey)],   -- 1
      .from_ .pythoncard_security [(.KeyBuilder, .KeyBuilder)],   -- 2
      .from_ .pythoncard_security_key [(.u_longToArray, .u_longToArray)],   -- 4
      .tryCrypto .pyCryptoRSA,   -- 6
      .defn .KeyPair []]   -- 11
  -- pythoncard/security/messagedigest.py
  | .pythoncard_security_messagedigest => [
      .from_ .pythoncard_security [(.CryptoException, .CryptoException)],   -- 1
      .from_ .pythoncard_utils [(.s1, .s1)],   -- 3
      .from_ .pythoncard_security_key [(.u_arrayTobinary, .u_arrayTobinary)],   -- 4
      .ext .hashlib,   -- 6
      .defn .MessageDigest [],   -- 8
      .defn .u_HashLibMessageDigest [.MessageDigest]]   -- 46
  -- pythoncard/security/privatekey.py
  | .pythoncard_security_privatekey => [
      .from_ .pythoncard_framework [(.Util, .Util)],   -- 1
      .from_ .pythoncard_security [(.CryptoException, .CryptoException)],   -- 2
      .from_ .pythoncard_security_key [(.Key, .Key), (.u_longToArray, .u_longToArray)],   -- 3
      .defn .PrivateKey [.Key],   -- 5
      .defn .RSAPrivateKey [.PrivateKey],   -- 9
      .defn .standardGetter [],   -- 25
      .defn .standardSetter [],   -- 32
      .defn .PyCryptoRSAPrivateKey [.RSAPrivateKey, .standardGetter, .standardSetter],   -- 39
      .defn .RSAPrivateCrtKey [.PrivateKey],   -- 72
      .defn .PyCryptoRSAPrivateCrtKey [.RSAPrivateCrtKey]]   -- 106
  -- pythoncard/security/publickey.py
  | .pythoncard_security_publickey => [
      .from_ .python_lang [(.ArrayIndexOutOfBoundsException, .ArrayIndexOutOfBoundsException)],   -- 1
      .from_ .pythoncard_framework [(.Util, .Util)],   -- 2
      .from_ .pythoncard_security [(.CryptoException, .CryptoException)],   -- 3
      .from_ .pythoncard_security_key [(.Key, .Key), (.u_longToArray, .u_longToArray), (.u_arrayTolong, .u_arrayTolong)],   -- 4
      .tryCrypto .pyCryptoRSA,   -- 6
      .defn .PublicKey [.Key],   -- 12
      .defn .RSAPublicKey [.PublicKey],   -- 15
      .defn .standardGetter [],   -- 31
      .defn .standardSetter [],   -- 38
      .defn .PyCryptoRSAPublicKey [.RSAPublicKey, .standardGetter, .standardSetter]]   -- 51
  -- pythoncard/security/random.py
  | .pythoncard_security_random => [
      .ext .os,   -- 1
      .from_ .pythoncard_security [(.CryptoException, .CryptoException)],   -- 3
      .defn .RandomData [],   -- 5
      .defn .u_SecureRandomData [.RandomData]]   -- 22
  -- pythoncard/security/secretkey.py
  | .pythoncard_security_secretkey => [
      .from_ .pythoncard_framework_util [(.arrayCopy, .arrayCopy)],   -- 1
      .from_ .pythoncard_security_key [(.Key, .Key), (.u_arrayTobinary, .u_arrayTobinary), (.u_binaryToarray, .u_binaryToarray)],   -- 2
      .from_ .pyDes [(.pyDes, .pyDes)],   -- 4
      .defn .SecretKey [.Key],   -- 6
      .defn .DESKey [.SecretKey],   -- 9
      .defn .pyDesDESKey [.DESKey]]   -- 16
  -- pythoncard/security/signature.py
  | .pythoncard_security_signature => [
      .defn .Signature [],   -- 1
      .defn .u_RSASHASignature [.Signature]]   -- 75
  -- pythoncardx/__init__.py
  | .pythoncardx => []
  -- pythoncardx/apdu.py
  | .pythoncardx_apdu => [
      .defn .ExtendedLength []]   -- 1
  -- pythoncardx/crypto/__init__.py
  | .pythoncardx_crypto => [
      .imp .pythoncardx_crypto_cipher,   -- 1
      .alias .Cipher .cipher .pythoncardx_crypto_cipher .Cipher]   -- 3
  -- pythoncardx/crypto/cipher.py
  | .pythoncardx_crypto_cipher => [
      .ext .os,   -- 1
      .from_ .pythoncard_framework [(.Util, .Util)],   -- 3
      .from_ .pythoncard_security [(.CryptoException, .CryptoException), (.Key, .Key), (.RSAPrivateKey, .RSAPrivateKey), (.RSAPrivateCrtKey, .RSAPrivateCrtKey), (.RSAPublicKey, .RSAPublicKey)],   -- 5
      .from_ .pythoncard_security_secretkey [(.pyDesDESKey, .pyDesDESKey)],   -- 8
      .from_ .pythoncard_security_key [(.u_arrayTolong, .u_arrayTolong), (.u_longToArray, .u_longToArray), (.u_arrayTobinary, .u_arrayTobinary), (.u_binaryToarray, .u_binaryToarray)],   -- 10
      .tryFrom .pyDes .pyDes,   -- 13
      .defn .Cipher [],   -- 18
      .defn .u_PyCryptoRSACipher [.Cipher],   -- 132
      .defn .u_pyDesDESCipher [.Cipher]]   -- 200
  -- pythoncardx/external/__init__.py
  | .pythoncardx_external => [
      .from_ .pythoncard_framework [(.CardRuntimeException, .CardRuntimeException)],   -- 1
      .defn .ExternalException [.CardRuntimeException],   -- 3
      .from_ .pythoncardx_external [(.memory, .memory)],   -- 8
      .alias .Memory .memory .pythoncardx_external_memory .Memory]   -- 10
  -- pythoncardx/external/memory.py
  | .pythoncardx_external_memory => [
      .from_ .pythoncardx_external [(.ExternalException, .ExternalException)],   -- 1
      .defn .Memory []]   -- 3
  -- pythoncardx/framework/__init__.py
  | .pythoncardx_framework => []
  -- pythoncardx/framework/math.py
  | .pythoncardx_framework_math => [
      .from_ .python_lang [(.NullPointerException, .NullPointerException), (.ArithmeticException, .ArithmeticException)],   -- 1
      .from_ .pythoncard_framework [(.Util, .Util)],   -- 2
      .from_ .pythoncard_utils [(.s1, .s1)],   -- 4
      .defn .from_bcd [],   -- 6
      .defn .to_bcd [],   -- 14
      .defn .from_hex [],   -- 24
      .defn .to_hex [],   -- 35
      .defn .BigNumber []]   -- 38
  -- pythoncardx/framework/tlv/__init__.py
  | .pythoncardx_framework_tlv => [
      .from_ .pythoncard_framework [(.CardRuntimeException, .CardRuntimeException)],   -- 1
      .defn .TLVException [.CardRuntimeException],   -- 3
      .from_ .pythoncardx_framework_tlv [(.bertag, .bertag)],   -- 16
      .alias .BERTag .bertag .pythoncardx_framework_tlv_bertag .BERTag,   -- 18
      .alias .PrimitiveBERTag .bertag .pythoncardx_framework_tlv_bertag .PrimitiveBERTag,   -- 19
      .alias .ConstructedBERTag .bertag .pythoncardx_framework_tlv_bertag .ConstructedBERTag,   -- 20
      .from_ .pythoncardx_framework_tlv [(.bertlv, .bertlv)],   -- 22
      .alias .BERTLV .bertlv .pythoncardx_framework_tlv_bertlv .BERTLV,   -- 24
      .alias .PrimitiveBERTLV .bertlv .pythoncardx_framework_tlv_bertlv .PrimitiveBERTLV,   -- 25
      .alias .ConstructedBERTLV .bertlv .pythoncardx_framework_tlv_bertlv .ConstructedBERTLV]   -- 26
  -- pythoncardx/framework/tlv/bertag.py
  | .pythoncardx_framework_tlv_bertag => [
      .from_ .pythoncard_utils [(.NotAlwaysStatic, .NotAlwaysStatic)],   -- 6
      .from_ .python_lang [(.ArrayIndexOutOfBoundsException, .ArrayIndexOutOfBoundsException)],   -- 8
      .defn .sanitycheck [],   -- 10
      .from_ .pythoncardx_framework_tlv [(.TLVException, .TLVException)],   -- 16
      .defn .BERTag [.NotAlwaysStatic],   -- 18
      .defn .PrimitiveBERTag [.BERTag],   -- 133
      .defn .ConstructedBERTag [.BERTag]]   -- 152
  -- pythoncardx/framework/tlv/bertlv.py
  | .pythoncardx_framework_tlv_bertlv => [
      .from_ .pythoncard_utils [(.NotAlwaysStatic, .NotAlwaysStatic)],   -- 6
      .from_ .pythoncard_framework [(.Util, .Util)],   -- 8
      .from_ .pythoncardx_framework_tlv_bertag [(.BERTag, .BERTag)],   -- 9
      .ext .copy,   -- 11
      .defn .u_getLength [],   -- 13
      .defn .getLengthLen [],   -- 26
      .defn .BERTLV [.NotAlwaysStatic],   -- 33
      .defn .ConstructedBERTLV [.BERTLV, .NotAlwaysStatic],   -- 98
      .defn .PrimitiveBERTLV [.BERTLV]]   -- 204
  -- pythoncardx/framework/util/__init__.py
  | .pythoncardx_framework_util => []
  -- pythoncardx/framework/util/intx.py
  | .pythoncardx_framework_util_intx => [
      .ext .warnings,   -- 1
      .defn .signed [],   -- 3
      .defn .s4 [],   -- 13
      .defn .s1 [],   -- 16
      .defn .sanatize [],   -- 19
      .defn .JCint []]   -- 23
  -- pyDes/__init__.py
  | .pyDes => []
  -- pyDes/pyDes.py
  | .pyDes_pyDes => [
      .ext .sys,   -- 87
      .defn .u_pythonMajorVersion [.sys],   -- 90
      .defn .ECB [],   -- 93
      .defn .CBC [],   -- 94
      .defn .PAD_NORMAL [],   -- 97
      .defn .PAD_PKCS5 [],   -- 98
      .defn .u_baseDes [.ECB, .PAD_NORMAL],   -- 107
      .defn .des [.ECB, .PAD_NORMAL, .u_baseDes],   -- 247
      .defn .triple_des [.ECB, .PAD_NORMAL, .u_baseDes]]   -- 687

/-- The module-level names that the functions and methods of each module read when they are called (the symbol table of the files; names of
built-ins left out, and `unicode`, which pyDes reads only under Python 2, where it is a built-in). -/
def readByFunctions : M → List Id
  | .python => []
  | .python_io => []
  | .python_lang => []
  | .python_rmi => []
  | .pythoncard => []
  | .pythoncard_utils => [.signed]
  | .pythoncard_framework => []
  | .pythoncard_framework_ISO7816 => []
  | .pythoncard_framework_aid => [.ArrayIndexOutOfBoundsException, .aidOfset]
  | .pythoncard_framework_apdu => [
      .APDUException, .ISO7816, .u1, .IN_BLOCKSIZE, .OUT_BLOCKSIZE, .APDU, .ISOException, .u_current]
  | .pythoncard_framework_applet => [.warnings]
  | .pythoncard_framework_jcsystem => [
      .warnings, .NullPointerException, .ArrayIndexOutOfBoundsException, .NegativeArraySizeException,
      .ARRAY_TYPE_BOOLEAN, .ARRAY_TYPE_BYTE, .ARRAY_TYPE_INT, .ARRAY_TYPE_OBJECT, .ARRAY_TYPE_SHORT]
  | .pythoncard_framework_ownerpin => [.ArrayIndexOutOfBoundsException, .PINException]
  | .pythoncard_framework_util => [
      .ArrayIndexOutOfBoundsException, .JCSystem, .ArrayIndexoutOfBoundsException, .s2, .makeShort, .s1]
  | .pythoncard_framework_service => []
  | .pythoncard_framework_service_basicservice => []
  | .pythoncard_framework_service_cardremoteobject => []
  | .pythoncard_framework_service_dispatcher => [.ServiceException, .Dispatcher]
  | .pythoncard_framework_service_rmiservice => []
  | .pythoncard_security => []
  | .pythoncard_security_key => [.s1]
  | .pythoncard_security_keybuilder => [.KeyBuilder, .publickey, .privatekey, .secretkey]
  | .pythoncard_security_keypair => [
      .KeyBuilder, .CryptoException, .RSAPublicKey, .RSAPrivateKey, .RSAPrivateCrtKey, .pyCryptoRSA]
  | .pythoncard_security_messagedigest => [
      .u_HashLibMessageDigest, .CryptoException, .hashlib, .ArrayIndexOutOfBoundsException, .u_arrayTobinary, .s1]
  | .pythoncard_security_privatekey => [
      .PrivateKey, .CryptoException, .RSAPrivateKey, .Util, .u_longToArray, .keypair]
  | .pythoncard_security_publickey => [
      .PublicKey, .CryptoException, .RSAPublicKey, .Util, .u_longToArray, .pyCryptoRSA, .u_arrayTolong]
  | .pythoncard_security_random => [.RandomData, .u_SecureRandomData, .CryptoException, .os, .ArrayIndexOutOfBoundException]
  | .pythoncard_security_secretkey => [.DESKey, .u_arrayTobinary, .arrayCopy, .u_binaryToarray]
  | .pythoncard_security_signature => [.Signature, .u_RSASHASignature, .CryptoException]
  | .pythoncardx => []
  | .pythoncardx_apdu => []
  | .pythoncardx_crypto => []
  | .pythoncardx_crypto_cipher => [
      .Cipher, .u_PyCryptoRSACipher, .u_pyDesDESCipher, .CryptoException, .Key, .RSAPublicKey, .RSAPrivateKey,
      .RSAPrivateCrtKey, .os, .Util, .u_arrayTolong, .u_longToArray, .pyDes, .pyDesDESKey, .u_arrayTobinary,
      .u_binaryToarray]
  | .pythoncardx_external => []
  | .pythoncardx_external_memory => [.ExternalException]
  | .pythoncardx_framework => []
  | .pythoncardx_framework_math => [
      .s1, .ArithmeticException, .NullPointerException, .from_bcd, .from_hex, .BigNumber, .to_bcd, .to_hex, .Util]
  | .pythoncardx_framework_tlv => []
  | .pythoncardx_framework_tlv_bertag => [
      .ConstructedBERTag, .PrimitiveBERTag, .ArrayIndexOutOfBoundsException, .sanitycheck, .BERTag, .TLVException]
  | .pythoncardx_framework_tlv_bertlv => [
      .BERTLV, .BERTag, .ConstructedBERTLV, .PrimitiveBERTLV, .u_getLength, .getLengthLen, .chunk, .Util, .copy,
      .startOff]
  | .pythoncardx_framework_util => []
  | .pythoncardx_framework_util_intx => [.signed, .s1, .s4, .warnings, .JCint]
  | .pyDes => []
  | .pyDes_pyDes => [
      .PAD_PKCS5, .PAD_NORMAL, .u_pythonMajorVersion, .u_baseDes, .des, .CBC]
/-- How pyDes is installed: as in the repository (a package `pyDes` with a module `pyDes` in it), as pyDes/setup.py:13 and PyPI install it (one
module `pyDes`), or not at all. -/
inductive Layout where
  | package | single | absent
  deriving DecidableEq, Repr

/-- What the library finds around it: pyDes, and whether `from p import x` may fall back on `sys.modules` (Python 3.5 and later) when `x` is no
attribute of `p`. -/
structure Cfg where
  pyDes : Layout
  fallback : Bool
  deriving DecidableEq, Repr

/-- Exceptions of an import; `ImportError` has the subclass `ModuleNotFoundError`. `recursion` is Python's recursion limit. -/
inductive E where
  | importError | moduleNotFound | nameError | attributeError | recursion
  deriving DecidableEq, Repr

/-- Is it an ImportError (so that `except ImportError` catches it)? -/
def E.isImportError : E → Bool
  | .importError => true
  | .moduleNotFound => true
  | _ => false

/-- Values of module attributes: a module, what the `defn` of a name in a module's body made, a module of the standard library, PyCrypto's RSA
module or None depending on whether PyCrypto is installed (nothing below depends on which), None. -/
inductive Val where
  | mod (m : M) | obj (m : M) (x : Id) | ext (x : Id) | rsaOrNone | none
  deriving DecidableEq, Repr

/-- An entry of `sys.modules`: the names its body has bound so far, latest first, and whether it has been set as attribute of its package.
Simplified: in Python both kinds of attribute of a package are in one dictionary; they never differ on a name here, since a package of /repo binds
the name of a submodule only to that submodule. -/
structure Cell where
  ns : List (Id × Val)
  bound : Bool
  deriving DecidableEq, Repr

/-- `sys.modules`. -/
abbrev Sys := List (M × Cell)

/-- `sys.modules.get(m)`. -/
def get : Sys → M → Option Cell
  | [], _ => none
  | (k, c) :: t, m => if k = m then some c else get t m

/-- Leave out a key. -/
def remove : Sys → M → Sys
  | [], _ => []
  | (k, d) :: t, m => if k = m then remove t m else (k, d) :: remove t m

/-- `sys.modules[m] = c` (as a dictionary: the order is of no importance). -/
def put (s : Sys) (m : M) (c : Cell) : Sys := (m, c) :: remove s m

/-- `del sys.modules[m]`, and the attributes of that module object are gone with it: a new one will not have the submodules as attributes. -/
def del : Sys → M → Sys
  | [], _ => []
  | (k, c) :: t, m =>
    if k = m then del t m
    else if parent k = some m then (k, { c with bound := false }) :: del t m
    else (k, c) :: del t m

/-- The submodules of each package by name (the directory tree of /repo). -/
def children : M → List (Id × M)
  | .python => [
      (.io, .python_io), (.lang, .python_lang), (.rmi, .python_rmi)]
  | .pythoncard => [
      (.utils, .pythoncard_utils), (.framework, .pythoncard_framework), (.security, .pythoncard_security)]
  | .pythoncard_framework => [
      (.ISO7816, .pythoncard_framework_ISO7816), (.aid, .pythoncard_framework_aid),
      (.apdu, .pythoncard_framework_apdu), (.applet, .pythoncard_framework_applet),
      (.jcsystem, .pythoncard_framework_jcsystem), (.ownerpin, .pythoncard_framework_ownerpin),
      (.util, .pythoncard_framework_util), (.service, .pythoncard_framework_service)]
  | .pythoncard_framework_service => [
      (.basicservice, .pythoncard_framework_service_basicservice),
      (.cardremoteobject, .pythoncard_framework_service_cardremoteobject),
      (.dispatcher, .pythoncard_framework_service_dispatcher), (.rmiservice, .pythoncard_framework_service_rmiservice)]
  | .pythoncard_security => [
      (.key, .pythoncard_security_key), (.keybuilder, .pythoncard_security_keybuilder),
      (.keypair, .pythoncard_security_keypair), (.messagedigest, .pythoncard_security_messagedigest),
      (.privatekey, .pythoncard_security_privatekey), (.publickey, .pythoncard_security_publickey),
      (.random, .pythoncard_security_random), (.secretkey, .pythoncard_security_secretkey),
      (.signature, .pythoncard_security_signature)]
  | .pythoncardx => [
      (.apdu, .pythoncardx_apdu), (.crypto, .pythoncardx_crypto), (.external, .pythoncardx_external),
      (.framework, .pythoncardx_framework)]
  | .pythoncardx_crypto => [
      (.cipher, .pythoncardx_crypto_cipher)]
  | .pythoncardx_external => [
      (.memory, .pythoncardx_external_memory)]
  | .pythoncardx_framework => [
      (.math, .pythoncardx_framework_math), (.tlv, .pythoncardx_framework_tlv), (.util, .pythoncardx_framework_util)]
  | .pythoncardx_framework_tlv => [
      (.bertag, .pythoncardx_framework_tlv_bertag), (.bertlv, .pythoncardx_framework_tlv_bertlv)]
  | .pythoncardx_framework_util => [
      (.intx, .pythoncardx_framework_util_intx)]
  | .pyDes => [
      (.pyDes, .pyDes_pyDes)]
  | _ => []

/-- The submodule of that name, if there is such a file in /repo. -/
def child (p : M) (x : Id) : Option M := (children p).lookup x

/-- Are there files for this module? -/
def present (cfg : Cfg) : M → Bool
  | .pyDes => cfg.pyDes ≠ .absent
  | .pyDes_pyDes => cfg.pyDes = .package
  | _ => true

/-- The body of a module; an installed single module `pyDes` has the body of pyDes/pyDes.py. -/
def body (cfg : Cfg) (m : M) : List Stmt :=
  if m = .pyDes ∧ cfg.pyDes = .single then code .pyDes_pyDes else code m

/-- `getattr(p, x)` on a module: bound by its body, or a finished submodule. -/
def getattr (s : Sys) (p : M) (x : Id) : Option Val :=
  match get s p with
  | none => none
  | some c =>
    match c.ns.lookup x with
    | some v => some v
    | none =>
      match child p x with
      | none => none
      | some q => match get s q with
        | some d => if d.bound then some (.mod q) else none
        | none => none

/-- `IMPORT_FROM`: an attribute, else (with `fallback`) the entry of `sys.modules`. -/
def importFrom (cfg : Cfg) (s : Sys) (p : M) (x : Id) : Except E Val :=
  match getattr s p x with
  | some v => .ok v
  | none =>
    match child p x with
    | none => .error .importError
    | some q => if cfg.fallback ∧ (get s q).isSome then .ok (.mod q) else .error .importError

/-- Bind a name in the namespace of a module. -/
def bindName (s : Sys) (m : M) (x : Id) (v : Val) : Sys :=
  match get s m with
  | some c => put s m { c with ns := (x, v) :: c.ns }
  | none => s

/-- Events: the body of a module is started; a module is removed from `sys.modules` because its body raised. -/
inductive Ev where
  | start (m : M) | drop (m : M)
  deriving DecidableEq, Repr

/-- The outcome of running something: the exception, `sys.modules` afterwards, and what happened, in order. -/
structure Res where
  res : Except E Unit
  sys : Sys
  log : List Ev

/-- Run the second after the first if that succeeded. -/
def Res.andThen (r : Res) (f : Sys → Res) : Res :=
  match r.res with
  | .error _ => r
  | .ok () => let q := f r.sys; { q with log := r.log ++ q.log }

/-- `_handle_fromlist`: load the submodules among the names that are not attributes yet. A name without a file is left to `IMPORT_FROM`. -/
def fromList (cfg : Cfg) (ld : M → Sys → Res) (p : M) : List Id → Sys → Res
  | [], s => ⟨.ok (), s, []⟩
  | x :: xs, s =>
    let r : Res := match getattr s p x with
      | some _ => ⟨.ok (), s, []⟩
      | none => match child p x with
        | none => ⟨.ok (), s, []⟩
        | some q => if present cfg q then ld q s else ⟨.ok (), s, []⟩
    r.andThen (fromList cfg ld p xs)

/-- The stores after `IMPORT_FROM`, name by name, into module `m`. -/
def bindFrom (cfg : Cfg) (m p : M) : List (Id × Id) → Sys → Res
  | [], s => ⟨.ok (), s, []⟩
  | (x, y) :: xs, s =>
    match importFrom cfg s p x with
    | .error e => ⟨.error e, s, []⟩
    | .ok v => bindFrom cfg m p xs (bindName s m y v)

/-- The package at the root of a module's name. -/
def top : M → M := fun m => match parent m with
  | none => m
  | some p => match parent p with
    | none => p
    | some q => match parent q with
      | none => q
      | some r => r

/-- Are all names bound in the module? -/
def allBound (s : Sys) (m : M) (xs : List Id) : Bool := xs.all fun x => (getattr s m x).isSome

/-- Execute one statement of the body of `m`; `ld` loads a module. -/
def exec (cfg : Cfg) (ld : M → Sys → Res) (m : M) (st : Stmt) (s : Sys) : Res :=
  match st with
  | .imp q => (ld q s).andThen fun s1 => ⟨.ok (), bindName s1 m (lastName (top q)) (.mod (top q)), []⟩
  | .ext x => ⟨.ok (), bindName s m x (.ext x), []⟩
  | .from_ p xs =>
    (ld p s).andThen fun s1 => (fromList cfg ld p (xs.map (·.1)) s1).andThen fun s2 => bindFrom cfg m p xs s2
  | .defn x uses => if allBound s m uses then ⟨.ok (), bindName s m x (.obj m x), []⟩ else ⟨.error .nameError, s, []⟩
  | .alias x b q a =>
    match getattr s m b with
    | none => ⟨.error .nameError, s, []⟩
    | some v =>
      if v = .mod q then
        match getattr s q a with
        | some w => ⟨.ok (), bindName s m x w, []⟩
        | none => ⟨.error .attributeError, s, []⟩
      else ⟨.error .attributeError, s, []⟩
  | .copy x y =>
    match getattr s m y with
    | none => ⟨.error .nameError, s, []⟩
    | some v => ⟨.ok (), bindName s m x v, []⟩
  | .tryFrom p x =>
    let r := (ld p s).andThen fun s1 => (fromList cfg ld p [x] s1).andThen fun s2 => bindFrom cfg m p [(x, x)] s2
    match r.res with
    | .ok () => r
    | .error e => if e.isImportError then ⟨.ok (), bindName r.sys m x .none, r.log⟩ else r
  | .tryCrypto x => ⟨.ok (), bindName s m x .rsaOrNone, []⟩

/-- Execute statements in order until one raises. -/
def execAll (cfg : Cfg) (ld : M → Sys → Res) (m : M) : List Stmt → Sys → Res
  | [], s => ⟨.ok (), s, []⟩
  | st :: sts, s => (exec cfg ld m st s).andThen (execAll cfg ld m sts)

/-- `setattr(parent_module, child, module)` after a submodule has been loaded. -/
def setBound (s : Sys) (m : M) : Sys :=
  match parent m with
  | none => s
  | some _ => match get s m with
    | some c => put s m { c with bound := true }
    | none => s

/-- Run the body of a module that is not in `sys.modules` (`_load_unlocked`): enter it, execute, remove it again if the body raises. -/
def runBody (cfg : Cfg) (ld : M → Sys → Res) (m : M) (s : Sys) : Res :=
  if present cfg m then
    let r := execAll cfg ld m (body cfg m) (put s m ⟨[], false⟩)
    match r.res with
    | .error e => ⟨.error e, del r.sys m, .start m :: (r.log ++ [.drop m])⟩
    | .ok () => ⟨.ok (), setBound r.sys m, .start m :: r.log⟩
  else ⟨.error .moduleNotFound, s, []⟩

/-- `_find_and_load`: nothing to do for a module in `sys.modules`, finished or not; otherwise the package first (which may load this very
module on the way), then the module. The number bounds the nesting of imports, as Python's recursion limit does. -/
def load (cfg : Cfg) : Nat → M → Sys → Res
  | 0, _, s => ⟨.error .recursion, s, []⟩
  | n + 1, m, s =>
    if (get s m).isSome then ⟨.ok (), s, []⟩
    else
      let r : Res := match parent m with
        | none => ⟨.ok (), s, []⟩
        | some p => load cfg n p s
      r.andThen fun s1 => if (get s1 m).isSome then ⟨.ok (), s1, []⟩ else runBody cfg (load cfg n) m s1

/-- What a user of the library writes. -/
inductive User where
  /-- `import a.b.c` -/
  | imp (m : M)
  /-- `import a.b.z` with no such file `z` -/
  | impMissing (p : M)
  /-- `from a.b import x, y, …` -/
  | from_ (p : M) (xs : List Id)

/-- `IMPORT_FROM` for each name. -/
def importAll (cfg : Cfg) (s : Sys) (p : M) : List Id → Except E (List Val)
  | [] => .ok []
  | x :: xs => match importFrom cfg s p x with
    | .error e => .error e
    | .ok v => match importAll cfg s p xs with
      | .error e => .error e
      | .ok vs => .ok (v :: vs)

/-- Nesting allowed by default (Python's recursion limit is 1000 frames; an import takes a few). -/
def depth : Nat := 100

/-- A statement of the user: the outcome (the values imported), `sys.modules` afterwards, what happened. -/
def step (cfg : Cfg) (u : User) (s : Sys) : Except E (List Val) × Sys × List Ev :=
  match u with
  | .imp m => let r := load cfg depth m s
              (r.res.map (fun _ => [.mod (top m)]), r.sys, r.log)
  | .impMissing p => let r := load cfg depth p s
                     (match r.res with | .error e => .error e | .ok () => .error .moduleNotFound, r.sys, r.log)
  | .from_ p xs =>
    let r := (load cfg depth p s).andThen fun s1 => fromList cfg (load cfg depth) p xs s1
    (match r.res with | .error e => .error e | .ok () => importAll cfg r.sys p xs, r.sys, r.log)

/-- A session: statements one after the other, whether they raise or not (an interactive interpreter, or `try` around each).
Gives `sys.modules` and what happened, in order. -/
def session (cfg : Cfg) : List User → Sys → Sys × List Ev
  | [], s => (s, [])
  | u :: us, s =>
    let r := step cfg u s
    let q := session cfg us r.2.1
    (q.1, r.2.2 ++ q.2)

end Verif.Model.Imports
