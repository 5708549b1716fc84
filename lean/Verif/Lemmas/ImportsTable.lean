import Verif.Lemmas.Imports

/-!
What `sys.modules` can look like between two statements of the user: every module in it is finished, and has the names listed here. The tables
are only means of proof: `check` compares them with runs of the model, for every way the modules needed can already be there, and `load_good`
derives the outcome of every import in every session from it.
-/
namespace Verif.Model.Imports

/-- For each way pyDes can be installed, the modules in `sys.modules` after importing a module into a fresh interpreter, as a bit mask over the
constructors of `M`. -/
def afterTbl : Layout → List Nat
  | .package => [
      1, 3, 5, 11, 16, 48, 16373, 16373, 16373, 16373, 16373, 16373, 16373, 16373, 524287, 524287, 524287, 524287, 524287,
      13194675896309, 13194675896309, 13194675896309, 13194675896309, 13194675896309, 13194675896309, 13194675896309,
      13194675896309, 13194675896309, 13194675896309, 536870912, 1610612736, 13201655218165, 13201655218165, 26306691061,
      26306691061, 34896609280, 103616102389, 996969299957, 996969299957, 996969299957, 1134408237056, 3333431492608,
      4398046511104, 13194139533312]
  | .single => [
      1, 3, 5, 11, 16, 48, 16373, 16373, 16373, 16373, 16373, 16373, 16373, 16373, 524287, 524287, 524287, 524287, 524287,
      4398097907701, 4398097907701, 4398097907701, 4398097907701, 4398097907701, 4398097907701, 4398097907701, 4398097907701,
      4398097907701, 4398097907701, 536870912, 1610612736, 4398634778613, 4398634778613, 26306691061, 26306691061, 34896609280,
      103616102389, 996969299957, 996969299957, 996969299957, 1134408237056, 3333431492608, 4398046511104, 4398046511104]
  | .absent => [
      1, 3, 5, 11, 16, 48, 16373, 16373, 16373, 16373, 16373, 16373, 16373, 16373, 524287, 524287, 524287, 524287, 524287,
      51396597, 51396597, 51396597, 51396597, 51396597, 51396597, 51396597, 51396597, 51396597, 51396597, 536870912, 1610612736,
      588267509, 588267509, 26306691061, 26306691061, 34896609280, 103616102389, 996969299957, 996969299957, 996969299957,
      1134408237056, 3333431492608, 0, 0]

/-- The names a finished module has bound, latest first. -/
def nsTbl : M → List (Id × Val)
  | .python => []
  | .python_io => [
      (.IOException, .obj .python_io .IOException)]
  | .python_lang => [
      (.ClassCastException, .obj .python_lang .ClassCastException),
      (.ArithmeticException, .obj .python_lang .ArithmeticException),
      (.NullPointerException, .obj .python_lang .NullPointerException),
      (.SecurityException, .obj .python_lang .SecurityException),
      (.ArrayIndexOutOfBoundsException, .obj .python_lang .ArrayIndexOutOfBoundsException),
      (.IndexOutOfBoundsException, .obj .python_lang .IndexOutOfBoundsException),
      (.RuntimeException, .obj .python_lang .RuntimeException), (.Object, .obj .python_lang .Object)]
  | .python_rmi => [
      (.Remote, .obj .python_rmi .Remote), (.RemoteException, .obj .python_rmi .RemoteException),
      (.IOException, .obj .python_io .IOException)]
  | .pythoncard => []
  | .pythoncard_utils => [
      (.NotAlwaysStatic, .obj .pythoncard_utils .NotAlwaysStatic), (.u1, .obj .pythoncard_utils .u1),
      (.s2, .obj .pythoncard_utils .s2), (.s1, .obj .pythoncard_utils .s1), (.signed, .obj .pythoncard_utils .signed)]
  | .pythoncard_framework => [
      (.Util, .mod .pythoncard_framework_util), (.JCSystem, .mod .pythoncard_framework_jcsystem),
      (.OwnerPIN, .obj .pythoncard_framework_ownerpin .OwnerPIN), (.APDU, .obj .pythoncard_framework_apdu .APDU),
      (.AID, .obj .pythoncard_framework_aid .AID), (.Applet, .obj .pythoncard_framework_applet .Applet),
      (.ownerpin, .mod .pythoncard_framework_ownerpin), (.apdu, .mod .pythoncard_framework_apdu),
      (.aid, .mod .pythoncard_framework_aid), (.applet, .mod .pythoncard_framework_applet),
      (.Shareable, .obj .pythoncard_framework .Shareable),
      (.TransactionException, .obj .pythoncard_framework .TransactionException),
      (.SystemException, .obj .pythoncard_framework .SystemException),
      (.APDUException, .obj .pythoncard_framework .APDUException), (.PINException, .obj .pythoncard_framework .PINException),
      (.ISOException, .obj .pythoncard_framework .ISOException),
      (.CardRuntimeException, .obj .pythoncard_framework .CardRuntimeException),
      (.UserException, .obj .pythoncard_framework .UserException), (.CardException, .obj .pythoncard_framework .CardException),
      (.RuntimeException, .obj .python_lang .RuntimeException)]
  | .pythoncard_framework_ISO7816 => [
      (.SW_WRONG_P1P2, .obj .pythoncard_framework_ISO7816 .SW_WRONG_P1P2),
      (.SW_WRONG_LENGTH, .obj .pythoncard_framework_ISO7816 .SW_WRONG_LENGTH),
      (.SW_WRONG_DATA, .obj .pythoncard_framework_ISO7816 .SW_WRONG_DATA),
      (.SW_WARNING_STATE_UNCHANGED, .obj .pythoncard_framework_ISO7816 .SW_WARNING_STATE_UNCHANGED),
      (.SW_UNKNOWN, .obj .pythoncard_framework_ISO7816 .SW_UNKNOWN),
      (.SW_SECURITY_STATUS_NOT_SATISFIED, .obj .pythoncard_framework_ISO7816 .SW_SECURITY_STATUS_NOT_SATISFIED),
      (.SW_SECURE_MESSAGING_NOT_SUPPORTED, .obj .pythoncard_framework_ISO7816 .SW_SECURE_MESSAGING_NOT_SUPPORTED),
      (.SW_RECORD_NOT_FOUND, .obj .pythoncard_framework_ISO7816 .SW_RECORD_NOT_FOUND),
      (.SW_NO_ERROR, .obj .pythoncard_framework_ISO7816 .SW_NO_ERROR),
      (.SW_LOGICAL_CHANNEL_NOT_SUPPORTED, .obj .pythoncard_framework_ISO7816 .SW_LOGICAL_CHANNEL_NOT_SUPPORTED),
      (.SW_LAST_COMMAND_EXPECTED, .obj .pythoncard_framework_ISO7816 .SW_LAST_COMMAND_EXPECTED),
      (.SW_INS_NOT_SUPPORTED, .obj .pythoncard_framework_ISO7816 .SW_INS_NOT_SUPPORTED),
      (.SW_INCORRECT_P1P2, .obj .pythoncard_framework_ISO7816 .SW_INCORRECT_P1P2),
      (.SW_FUNC_NOT_SUPPORTED, .obj .pythoncard_framework_ISO7816 .SW_FUNC_NOT_SUPPORTED),
      (.SW_FILE_NOT_FOUND, .obj .pythoncard_framework_ISO7816 .SW_FILE_NOT_FOUND),
      (.SW_FILE_INVALID, .obj .pythoncard_framework_ISO7816 .SW_FILE_INVALID),
      (.SW_FILE_FULL, .obj .pythoncard_framework_ISO7816 .SW_FILE_FULL),
      (.SW_DATA_INVALID, .obj .pythoncard_framework_ISO7816 .SW_DATA_INVALID),
      (.SW_CORRECT_LENGTH_00, .obj .pythoncard_framework_ISO7816 .SW_CORRECT_LENGTH_00),
      (.SW_CONDITIONS_NOT_SATISFIED, .obj .pythoncard_framework_ISO7816 .SW_CONDITIONS_NOT_SATISFIED),
      (.SW_COMMAND_NOT_ALLOWED, .obj .pythoncard_framework_ISO7816 .SW_COMMAND_NOT_ALLOWED),
      (.SW_COMMAND_CHAINING_NOT_SUPPORTED, .obj .pythoncard_framework_ISO7816 .SW_COMMAND_CHAINING_NOT_SUPPORTED),
      (.SW_CLA_NOT_SUPPORTED, .obj .pythoncard_framework_ISO7816 .SW_CLA_NOT_SUPPORTED),
      (.SW_BYTES_REMAINING_00, .obj .pythoncard_framework_ISO7816 .SW_BYTES_REMAINING_00),
      (.SW_APPLET_SELECT_FAILED, .obj .pythoncard_framework_ISO7816 .SW_APPLET_SELECT_FAILED),
      (.OFFSET_P2, .obj .pythoncard_framework_ISO7816 .OFFSET_P2), (.OFFSET_P1, .obj .pythoncard_framework_ISO7816 .OFFSET_P1),
      (.OFFSET_LC, .obj .pythoncard_framework_ISO7816 .OFFSET_LC), (.OFFSET_INS, .obj .pythoncard_framework_ISO7816 .OFFSET_INS),
      (.OFFSET_EXT_CDATA, .obj .pythoncard_framework_ISO7816 .OFFSET_EXT_CDATA),
      (.OFFSET_CLA, .obj .pythoncard_framework_ISO7816 .OFFSET_CLA),
      (.OFFSET_CDATA, .obj .pythoncard_framework_ISO7816 .OFFSET_CDATA),
      (.INS_SELECT, .obj .pythoncard_framework_ISO7816 .INS_SELECT),
      (.INS_EXTERNAL_AUTHENTICATE, .obj .pythoncard_framework_ISO7816 .INS_EXTERNAL_AUTHENTICATE),
      (.CLA_ISO7816, .obj .pythoncard_framework_ISO7816 .CLA_ISO7816)]
  | .pythoncard_framework_aid => [
      (.AID, .obj .pythoncard_framework_aid .AID),
      (.ArrayIndexOutOfBoundsException, .obj .python_lang .ArrayIndexOutOfBoundsException)]
  | .pythoncard_framework_apdu => [
      (.APDU, .obj .pythoncard_framework_apdu .APDU), (.u_current, .obj .pythoncard_framework_apdu .u_current),
      (.u1, .obj .pythoncard_utils .u1), (.ISO7816, .mod .pythoncard_framework_ISO7816),
      (.ISOException, .obj .pythoncard_framework .ISOException), (.APDUException, .obj .pythoncard_framework .APDUException),
      (.OUT_BLOCKSIZE, .obj .pythoncard_framework_apdu .OUT_BLOCKSIZE),
      (.IN_BLOCKSIZE, .obj .pythoncard_framework_apdu .IN_BLOCKSIZE)]
  | .pythoncard_framework_applet => [
      (.Applet, .obj .pythoncard_framework_applet .Applet), (.warnings, .ext .warnings)]
  | .pythoncard_framework_jcsystem => [
      (.makeGlobalArray, .obj .pythoncard_framework_jcsystem .makeGlobalArray),
      (.getAvailableMemory, .obj .pythoncard_framework_jcsystem .getAvailableMemory),
      (.requestObjectDeletion, .obj .pythoncard_framework_jcsystem .requestObjectDeletion),
      (.makeTransientObjectArray, .obj .pythoncard_framework_jcsystem .makeTransientObjectArray),
      (.makeTransientBooleanArray, .obj .pythoncard_framework_jcsystem .makeTransientBooleanArray),
      (.makeTransientByteArray, .obj .pythoncard_framework_jcsystem .makeTransientShortArray),
      (.makeTransientShortArray, .obj .pythoncard_framework_jcsystem .makeTransientShortArray),
      (.commitTransaction, .obj .pythoncard_framework_jcsystem .commitTransaction),
      (.beginTransaction, .obj .pythoncard_framework_jcsystem .beginTransaction),
      (.abortTransaction, .obj .pythoncard_framework_jcsystem .abortTransaction),
      (.NOT_A_TRANSIENT_OBJECT, .obj .pythoncard_framework_jcsystem .NOT_A_TRANSIENT_OBJECT),
      (.MEMORY_TYPE_TRANSIENT_RESET, .obj .pythoncard_framework_jcsystem .MEMORY_TYPE_TRANSIENT_RESET),
      (.MEMORY_TYPE_TRANSIENT_DESELECT, .obj .pythoncard_framework_jcsystem .MEMORY_TYPE_TRANSIENT_DESELECT),
      (.MEMORY_TYPE_PERSISTENT, .obj .pythoncard_framework_jcsystem .MEMORY_TYPE_PERSISTENT),
      (.CLEAR_ON_RESET, .obj .pythoncard_framework_jcsystem .CLEAR_ON_RESET),
      (.CLEAR_ON_DESELECT, .obj .pythoncard_framework_jcsystem .CLEAR_ON_DESELECT),
      (.ARRAY_TYPE_SHORT, .obj .pythoncard_framework_jcsystem .ARRAY_TYPE_SHORT),
      (.ARRAY_TYPE_OBJECT, .obj .pythoncard_framework_jcsystem .ARRAY_TYPE_OBJECT),
      (.ARRAY_TYPE_INT, .obj .pythoncard_framework_jcsystem .ARRAY_TYPE_INT),
      (.ARRAY_TYPE_BYTE, .obj .pythoncard_framework_jcsystem .ARRAY_TYPE_BYTE),
      (.ARRAY_TYPE_BOOLEAN, .obj .pythoncard_framework_jcsystem .ARRAY_TYPE_BOOLEAN), (.warnings, .ext .warnings)]
  | .pythoncard_framework_ownerpin => [
      (.OwnerPIN, .obj .pythoncard_framework_ownerpin .OwnerPIN), (.PINException, .obj .pythoncard_framework .PINException),
      (.ArrayIndexOutOfBoundsException, .obj .python_lang .ArrayIndexOutOfBoundsException)]
  | .pythoncard_framework_util => [
      (.setShort, .obj .pythoncard_framework_util .setShort), (.getShort, .obj .pythoncard_framework_util .getShort),
      (.makeShort, .obj .pythoncard_framework_util .makeShort),
      (.arrayFillNonAtomic, .obj .pythoncard_framework_util .arrayFillNonAtomic),
      (.arrayCopyNonAtomic, .obj .pythoncard_framework_util .arrayCopyNonAtomic),
      (.arrayCopy, .obj .pythoncard_framework_util .arrayCopy), (.arrayCompare, .obj .pythoncard_framework_util .arrayCompare),
      (.s2, .obj .pythoncard_utils .s2), (.s1, .obj .pythoncard_utils .s1), (.JCSystem, .mod .pythoncard_framework_jcsystem),
      (.ArrayIndexOutOfBoundsException, .obj .python_lang .ArrayIndexOutOfBoundsException)]
  | .pythoncard_framework_service => [
      (.RMIService, .obj .pythoncard_framework_service_rmiservice .RMIService),
      (.rmiservice, .mod .pythoncard_framework_service_rmiservice),
      (.BasicService, .obj .pythoncard_framework_service_basicservice .BasicService),
      (.basicservice, .mod .pythoncard_framework_service_basicservice),
      (.Dispatcher, .obj .pythoncard_framework_service_dispatcher .Dispatcher),
      (.dispatcher, .mod .pythoncard_framework_service_dispatcher),
      (.CardRemoteObject, .obj .pythoncard_framework_service_cardremoteobject .CardRemoteObject),
      (.cardremoteobject, .mod .pythoncard_framework_service_cardremoteobject),
      (.Service, .obj .pythoncard_framework_service .Service),
      (.ServiceException, .obj .pythoncard_framework_service .ServiceException),
      (.CardRuntimeException, .obj .pythoncard_framework .CardRuntimeException)]
  | .pythoncard_framework_service_basicservice => [
      (.BasicService, .obj .pythoncard_framework_service_basicservice .BasicService),
      (.Service, .obj .pythoncard_framework_service .Service)]
  | .pythoncard_framework_service_cardremoteobject => [
      (.CardRemoteObject, .obj .pythoncard_framework_service_cardremoteobject .CardRemoteObject),
      (.Remote, .obj .python_rmi .Remote)]
  | .pythoncard_framework_service_dispatcher => [
      (.Dispatcher, .obj .pythoncard_framework_service_dispatcher .Dispatcher),
      (.ServiceException, .obj .pythoncard_framework_service .ServiceException)]
  | .pythoncard_framework_service_rmiservice => [
      (.RMIService, .obj .pythoncard_framework_service_rmiservice .RMIService),
      (.BasicService, .obj .pythoncard_framework_service_basicservice .BasicService)]
  | .pythoncard_security => [
      (.MessageDigest, .obj .pythoncard_security_messagedigest .MessageDigest),
      (.messagedigest, .mod .pythoncard_security_messagedigest), (.RandomData, .obj .pythoncard_security_random .RandomData),
      (.Signature, .obj .pythoncard_security_signature .Signature), (.random, .mod .pythoncard_security_random),
      (.signature, .mod .pythoncard_security_signature), (.KeyPair, .obj .pythoncard_security_keypair .KeyPair),
      (.keypair, .mod .pythoncard_security_keypair), (.DESKey, .obj .pythoncard_security_secretkey .DESKey),
      (.SecretKey, .obj .pythoncard_security_secretkey .SecretKey),
      (.RSAPublicKey, .obj .pythoncard_security_publickey .RSAPublicKey),
      (.RSAPrivateKey, .obj .pythoncard_security_privatekey .RSAPrivateKey),
      (.RSAPrivateCrtKey, .obj .pythoncard_security_privatekey .RSAPrivateCrtKey),
      (.PublicKey, .obj .pythoncard_security_publickey .PublicKey),
      (.PrivateKey, .obj .pythoncard_security_privatekey .PrivateKey),
      (.KeyBuilder, .obj .pythoncard_security_keybuilder .KeyBuilder), (.Key, .obj .pythoncard_security_key .Key),
      (.secretkey, .mod .pythoncard_security_secretkey), (.publickey, .mod .pythoncard_security_publickey),
      (.privatekey, .mod .pythoncard_security_privatekey), (.keybuilder, .mod .pythoncard_security_keybuilder),
      (.key, .mod .pythoncard_security_key), (.CryptoException, .obj .pythoncard_security .CryptoException),
      (.CardRuntimeException, .obj .pythoncard_framework .CardRuntimeException)]
  | .pythoncard_security_key => [
      (.Key, .obj .pythoncard_security_key .Key), (.u_arrayTobinary, .obj .pythoncard_security_key .u_arrayTobinary),
      (.u_binaryToarray, .obj .pythoncard_security_key .u_binaryToarray),
      (.u_arrayTolong, .obj .pythoncard_security_key .u_arrayTolong),
      (.u_longToArray, .obj .pythoncard_security_key .u_longToArray), (.s1, .obj .pythoncard_utils .s1)]
  | .pythoncard_security_keybuilder => [
      (.KeyBuilder, .obj .pythoncard_security_keybuilder .KeyBuilder), (.secretkey, .mod .pythoncard_security_secretkey),
      (.privatekey, .mod .pythoncard_security_privatekey), (.publickey, .mod .pythoncard_security_publickey)]
  | .pythoncard_security_keypair => [
      (.KeyPair, .obj .pythoncard_security_keypair .KeyPair), (.pyCryptoRSA, .rsaOrNone),
      (.u_longToArray, .obj .pythoncard_security_key .u_longToArray),
      (.KeyBuilder, .obj .pythoncard_security_keybuilder .KeyBuilder),
      (.RSAPublicKey, .obj .pythoncard_security_publickey .RSAPublicKey),
      (.RSAPrivateCrtKey, .obj .pythoncard_security_privatekey .RSAPrivateCrtKey),
      (.RSAPrivateKey, .obj .pythoncard_security_privatekey .RSAPrivateKey),
      (.CryptoException, .obj .pythoncard_security .CryptoException)]
  | .pythoncard_security_messagedigest => [
      (.u_HashLibMessageDigest, .obj .pythoncard_security_messagedigest .u_HashLibMessageDigest),
      (.MessageDigest, .obj .pythoncard_security_messagedigest .MessageDigest), (.hashlib, .ext .hashlib),
      (.u_arrayTobinary, .obj .pythoncard_security_key .u_arrayTobinary), (.s1, .obj .pythoncard_utils .s1),
      (.CryptoException, .obj .pythoncard_security .CryptoException)]
  | .pythoncard_security_privatekey => [
      (.PyCryptoRSAPrivateCrtKey, .obj .pythoncard_security_privatekey .PyCryptoRSAPrivateCrtKey),
      (.RSAPrivateCrtKey, .obj .pythoncard_security_privatekey .RSAPrivateCrtKey),
      (.PyCryptoRSAPrivateKey, .obj .pythoncard_security_privatekey .PyCryptoRSAPrivateKey),
      (.standardSetter, .obj .pythoncard_security_privatekey .standardSetter),
      (.standardGetter, .obj .pythoncard_security_privatekey .standardGetter),
      (.RSAPrivateKey, .obj .pythoncard_security_privatekey .RSAPrivateKey),
      (.PrivateKey, .obj .pythoncard_security_privatekey .PrivateKey),
      (.u_longToArray, .obj .pythoncard_security_key .u_longToArray), (.Key, .obj .pythoncard_security_key .Key),
      (.CryptoException, .obj .pythoncard_security .CryptoException), (.Util, .mod .pythoncard_framework_util)]
  | .pythoncard_security_publickey => [
      (.PyCryptoRSAPublicKey, .obj .pythoncard_security_publickey .PyCryptoRSAPublicKey),
      (.standardSetter, .obj .pythoncard_security_publickey .standardSetter),
      (.standardGetter, .obj .pythoncard_security_publickey .standardGetter),
      (.RSAPublicKey, .obj .pythoncard_security_publickey .RSAPublicKey),
      (.PublicKey, .obj .pythoncard_security_publickey .PublicKey), (.pyCryptoRSA, .rsaOrNone),
      (.u_arrayTolong, .obj .pythoncard_security_key .u_arrayTolong),
      (.u_longToArray, .obj .pythoncard_security_key .u_longToArray), (.Key, .obj .pythoncard_security_key .Key),
      (.CryptoException, .obj .pythoncard_security .CryptoException), (.Util, .mod .pythoncard_framework_util),
      (.ArrayIndexOutOfBoundsException, .obj .python_lang .ArrayIndexOutOfBoundsException)]
  | .pythoncard_security_random => [
      (.u_SecureRandomData, .obj .pythoncard_security_random .u_SecureRandomData),
      (.RandomData, .obj .pythoncard_security_random .RandomData),
      (.CryptoException, .obj .pythoncard_security .CryptoException), (.os, .ext .os)]
  | .pythoncard_security_secretkey => [
      (.pyDesDESKey, .obj .pythoncard_security_secretkey .pyDesDESKey), (.DESKey, .obj .pythoncard_security_secretkey .DESKey),
      (.SecretKey, .obj .pythoncard_security_secretkey .SecretKey), (.pyDes, .mod .pyDes_pyDes),
      (.u_binaryToarray, .obj .pythoncard_security_key .u_binaryToarray),
      (.u_arrayTobinary, .obj .pythoncard_security_key .u_arrayTobinary), (.Key, .obj .pythoncard_security_key .Key),
      (.arrayCopy, .obj .pythoncard_framework_util .arrayCopy)]
  | .pythoncard_security_signature => [
      (.u_RSASHASignature, .obj .pythoncard_security_signature .u_RSASHASignature),
      (.Signature, .obj .pythoncard_security_signature .Signature)]
  | .pythoncardx => []
  | .pythoncardx_apdu => [
      (.ExtendedLength, .obj .pythoncardx_apdu .ExtendedLength)]
  | .pythoncardx_crypto => [
      (.Cipher, .obj .pythoncardx_crypto_cipher .Cipher), (.pythoncardx, .mod .pythoncardx)]
  | .pythoncardx_crypto_cipher => [
      (.u_pyDesDESCipher, .obj .pythoncardx_crypto_cipher .u_pyDesDESCipher),
      (.u_PyCryptoRSACipher, .obj .pythoncardx_crypto_cipher .u_PyCryptoRSACipher),
      (.Cipher, .obj .pythoncardx_crypto_cipher .Cipher), (.pyDes, .mod .pyDes_pyDes),
      (.u_binaryToarray, .obj .pythoncard_security_key .u_binaryToarray),
      (.u_arrayTobinary, .obj .pythoncard_security_key .u_arrayTobinary),
      (.u_longToArray, .obj .pythoncard_security_key .u_longToArray),
      (.u_arrayTolong, .obj .pythoncard_security_key .u_arrayTolong),
      (.pyDesDESKey, .obj .pythoncard_security_secretkey .pyDesDESKey),
      (.RSAPublicKey, .obj .pythoncard_security_publickey .RSAPublicKey),
      (.RSAPrivateCrtKey, .obj .pythoncard_security_privatekey .RSAPrivateCrtKey),
      (.RSAPrivateKey, .obj .pythoncard_security_privatekey .RSAPrivateKey), (.Key, .obj .pythoncard_security_key .Key),
      (.CryptoException, .obj .pythoncard_security .CryptoException), (.Util, .mod .pythoncard_framework_util), (.os, .ext .os)]
  | .pythoncardx_external => [
      (.Memory, .obj .pythoncardx_external_memory .Memory), (.memory, .mod .pythoncardx_external_memory),
      (.ExternalException, .obj .pythoncardx_external .ExternalException),
      (.CardRuntimeException, .obj .pythoncard_framework .CardRuntimeException)]
  | .pythoncardx_external_memory => [
      (.Memory, .obj .pythoncardx_external_memory .Memory), (.ExternalException, .obj .pythoncardx_external .ExternalException)]
  | .pythoncardx_framework => []
  | .pythoncardx_framework_math => [
      (.BigNumber, .obj .pythoncardx_framework_math .BigNumber), (.to_hex, .obj .pythoncardx_framework_math .to_hex),
      (.from_hex, .obj .pythoncardx_framework_math .from_hex), (.to_bcd, .obj .pythoncardx_framework_math .to_bcd),
      (.from_bcd, .obj .pythoncardx_framework_math .from_bcd), (.s1, .obj .pythoncard_utils .s1),
      (.Util, .mod .pythoncard_framework_util), (.ArithmeticException, .obj .python_lang .ArithmeticException),
      (.NullPointerException, .obj .python_lang .NullPointerException)]
  | .pythoncardx_framework_tlv => [
      (.ConstructedBERTLV, .obj .pythoncardx_framework_tlv_bertlv .ConstructedBERTLV),
      (.PrimitiveBERTLV, .obj .pythoncardx_framework_tlv_bertlv .PrimitiveBERTLV),
      (.BERTLV, .obj .pythoncardx_framework_tlv_bertlv .BERTLV), (.bertlv, .mod .pythoncardx_framework_tlv_bertlv),
      (.ConstructedBERTag, .obj .pythoncardx_framework_tlv_bertag .ConstructedBERTag),
      (.PrimitiveBERTag, .obj .pythoncardx_framework_tlv_bertag .PrimitiveBERTag),
      (.BERTag, .obj .pythoncardx_framework_tlv_bertag .BERTag), (.bertag, .mod .pythoncardx_framework_tlv_bertag),
      (.TLVException, .obj .pythoncardx_framework_tlv .TLVException),
      (.CardRuntimeException, .obj .pythoncard_framework .CardRuntimeException)]
  | .pythoncardx_framework_tlv_bertag => [
      (.ConstructedBERTag, .obj .pythoncardx_framework_tlv_bertag .ConstructedBERTag),
      (.PrimitiveBERTag, .obj .pythoncardx_framework_tlv_bertag .PrimitiveBERTag),
      (.BERTag, .obj .pythoncardx_framework_tlv_bertag .BERTag), (.TLVException, .obj .pythoncardx_framework_tlv .TLVException),
      (.sanitycheck, .obj .pythoncardx_framework_tlv_bertag .sanitycheck),
      (.ArrayIndexOutOfBoundsException, .obj .python_lang .ArrayIndexOutOfBoundsException),
      (.NotAlwaysStatic, .obj .pythoncard_utils .NotAlwaysStatic)]
  | .pythoncardx_framework_tlv_bertlv => [
      (.PrimitiveBERTLV, .obj .pythoncardx_framework_tlv_bertlv .PrimitiveBERTLV),
      (.ConstructedBERTLV, .obj .pythoncardx_framework_tlv_bertlv .ConstructedBERTLV),
      (.BERTLV, .obj .pythoncardx_framework_tlv_bertlv .BERTLV),
      (.getLengthLen, .obj .pythoncardx_framework_tlv_bertlv .getLengthLen),
      (.u_getLength, .obj .pythoncardx_framework_tlv_bertlv .u_getLength), (.copy, .ext .copy),
      (.BERTag, .obj .pythoncardx_framework_tlv_bertag .BERTag), (.Util, .mod .pythoncard_framework_util),
      (.NotAlwaysStatic, .obj .pythoncard_utils .NotAlwaysStatic)]
  | .pythoncardx_framework_util => []
  | .pythoncardx_framework_util_intx => [
      (.JCint, .obj .pythoncardx_framework_util_intx .JCint), (.sanatize, .obj .pythoncardx_framework_util_intx .sanatize),
      (.s1, .obj .pythoncardx_framework_util_intx .s1), (.s4, .obj .pythoncardx_framework_util_intx .s4),
      (.signed, .obj .pythoncardx_framework_util_intx .signed), (.warnings, .ext .warnings)]
  | .pyDes => []
  | .pyDes_pyDes => [
      (.triple_des, .obj .pyDes_pyDes .triple_des), (.des, .obj .pyDes_pyDes .des), (.u_baseDes, .obj .pyDes_pyDes .u_baseDes),
      (.PAD_PKCS5, .obj .pyDes_pyDes .PAD_PKCS5), (.PAD_NORMAL, .obj .pyDes_pyDes .PAD_NORMAL), (.CBC, .obj .pyDes_pyDes .CBC),
      (.ECB, .obj .pyDes_pyDes .ECB), (.u_pythonMajorVersion, .obj .pyDes_pyDes .u_pythonMajorVersion), (.sys, .ext .sys)]

/-- The names of a module `pyDes` installed as one file. -/
def nsSingle : List (Id × Val) := [
      (.triple_des, .obj .pyDes .triple_des), (.des, .obj .pyDes .des), (.u_baseDes, .obj .pyDes .u_baseDes),
      (.PAD_PKCS5, .obj .pyDes .PAD_PKCS5), (.PAD_NORMAL, .obj .pyDes .PAD_NORMAL), (.CBC, .obj .pyDes .CBC),
      (.ECB, .obj .pyDes .ECB), (.u_pythonMajorVersion, .obj .pyDes .u_pythonMajorVersion), (.sys, .ext .sys)]

/-- Membership in a bit mask. -/
def mem (L : Nat) (q : M) : Bool := L.testBit q.ctorIdx

/-- The modules in `sys.modules` after importing `q` into a fresh interpreter. -/
def after (l : Layout) (q : M) : Nat := (afterTbl l).getD q.ctorIdx 0

/-- The modules that importing `q` can reach. -/
def region (q : M) : Nat := after .package q

/-- Modules that need pyDes. -/
def needsDES (m : M) : Bool := mem (region m) .pythoncard_security

/-- The outcome of importing a module that is not there yet. -/
def res0 (l : Layout) (m : M) : Except E Unit :=
  match l with
  | .package => .ok ()
  | .single => if needsDES m then .error .importError else if m = .pyDes_pyDes then .error .moduleNotFound else .ok ()
  | .absent => if needsDES m ∨ m = .pyDes ∨ m = .pyDes_pyDes then .error .moduleNotFound else .ok ()

/-- The entry of a finished module. -/
def cell0 (l : Layout) (m : M) : Cell :=
  match l with
  | .package => ⟨nsTbl m, (parent m).isSome⟩
  | l => ⟨if m = .pyDes ∧ l = .single then nsSingle else nsTbl m, (parent m).isSome && !needsDES m⟩

/-- The entry of a module when the modules in `L` are there. -/
def canon (l : Layout) (L : Nat) (q : M) : Option Cell := if mem L q then some (cell0 l q) else none

/-- The table with the modules in `L`. -/
def canonSys (l : Layout) (L : Nat) : Sys := M.all.filterMap fun q => if mem L q then some (q, cell0 l q) else none

/-- All unions of the sets `after q`. -/
def unions (l : Layout) : List M → List Nat
  | [] => [0]
  | q :: t =>
    let r := unions l t
    if mem (after l q) q then (r ++ r.map (· ||| after l q)).eraseDups else r

/-- The modules whose bodies were started. -/
def starts : List Ev → List M
  | [] => []
  | .start m :: t => m :: starts t
  | .drop _ :: t => starts t

/-- Events of importing `m` when `k` is there: bodies are run only of modules that are not there, each once, and if pyDes is found nothing is dropped
and they stay; a dropped package has all its submodules in the region of `m`. -/
def logOK (l : Layout) (m : M) (k : Nat) (log : List Ev) : Bool :=
  decide (starts log).Nodup && log.all fun e => match e with
    | .start q => !mem k q && (mem (after l m) q || needsDES q && decide (l ≠ .package))
    | .drop p => decide (l ≠ .package) && needsDES p && (children p).all fun c => mem (region m) c.2

/-- Equality of outcomes. -/
def sameRes : Except E Unit → Except E Unit → Bool
  | .ok _, .ok _ => true
  | .error a, .error b => decide (a = b)
  | _, _ => false

/-- One run: import `m` when `k` (with its package, without itself) is there. -/
def checkOne (cfg : Cfg) (m : M) (k : Nat) : Bool :=
  mem k m || (match parent m with | some p => !mem k p | none => false) ||
  match load cfg 50 m (canonSys cfg.pyDes k) with
  | ⟨res, sys, log⟩ =>
    sameRes res (res0 cfg.pyDes m) && logOK cfg.pyDes m k log &&
      M.all.all fun q => !mem (region m) q || decide (get sys q = canon cfg.pyDes (k ||| after cfg.pyDes m) q)

/-- All runs for `m`. -/
def check (cfg : Cfg) (m : M) : Bool := (unions cfg.pyDes (M.all.filter (mem (region m)))).all (checkOne cfg m)

/-- Splits the computation, to save memory. -/
theorem check_split {f : M → Bool} (h1 : f .pythoncardx_crypto = true) (h2 : f .pythoncard_security = true)
    (h3 : f .pythoncardx_framework_math = true) (h4 : f .pythoncardx_external = true) (h5 : f .pythoncardx_framework_tlv = true)
    (h6 : f .pythoncard_framework = true)
    (h : (M.all.filter fun m => m ≠ .pythoncardx_crypto ∧ m ≠ .pythoncard_security ∧ m ≠ .pythoncardx_framework_math ∧
      m ≠ .pythoncardx_external ∧ m ≠ .pythoncardx_framework_tlv ∧ m ≠ .pythoncard_framework).all f = true) : M.all.all f = true := by
  rw [List.all_eq_true] at h ⊢
  intro m hm
  by_cases g1 : m = .pythoncardx_crypto
  · rw [g1]; exact h1
  by_cases g2 : m = .pythoncard_security
  · rw [g2]; exact h2
  by_cases g3 : m = .pythoncardx_framework_math
  · rw [g3]; exact h3
  by_cases g4 : m = .pythoncardx_external
  · rw [g4]; exact h4
  by_cases g5 : m = .pythoncardx_framework_tlv
  · rw [g5]; exact h5
  by_cases g6 : m = .pythoncard_framework
  · rw [g6]; exact h6
  exact h m (List.mem_filter.2 ⟨hm, decide_eq_true ⟨g1, g2, g3, g4, g5, g6⟩⟩)

end Verif.Model.Imports
