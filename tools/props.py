#!/usr/bin/env python3
"""Generates /verif/properties.jsonl (one JSON object per line)."""
import json, os
P = []
def p(id, title, statement, quantifier, why, anchors):
    P.append(dict(id=id, title=title, statement=statement, quantifier=quantifier,
                  why_tests_cant=why, anchors=anchors))
UT="pythoncard/framework/util.py"; U="pythoncard/utils.py"

p("C01","Byte and short sign conversion is two's complement",
  "s1, s2 and s4 map every unsigned value of their width to the two's-complement signed value with the same bit pattern and leave every signed value of the width unchanged; u1 is the inverse of s1 on bytes.",
  "all integers in [-2^(8d-1), 2^(8d)) for widths d = 1, 2, 4 (and congruence mod 2^(8d) for every integer)",
  "Every width and every integer is claimed; a test samples a few values.",
  [U+": signed, s1, s2, u1","pythoncardx/framework/util/intx.py: signed, s4, s1"])
p("C02","makeShort builds the signed big-endian short of any two bytes",
  "makeShort(b1, b2) is the signed 16-bit number whose high byte is b1 and low byte is b2, whether the bytes are given signed or unsigned (only their low 8 bits matter), and always lies in [-32768, 32767].",
  "all integers b1, b2",
  "Infinite domain, signed and unsigned spellings of the same byte.",
  [UT+": makeShort", U+": s2"])
p("C03","setShort/getShort round-trip and frame",
  "For every array, every position with two cells available and every integer v, setShort writes two signed bytes, changes no other cell and keeps the length; getShort at the same position then returns the signed short equal to v modulo 2^16 (v itself when v is a short).",
  "all arrays, all valid offsets, all integer values",
  "Unbounded arrays, offsets and values.",
  [UT+": setShort, getShort"])
p("C04","arrayCompare is lexicographic comparison of the two ranges",
  "When both ranges lie inside their arrays, arrayCompare returns 0 exactly when the ranges are equal element by element, and otherwise 1 or -1 according to the first differing position; exchanging the arguments negates the answer.",
  "all pairs of arrays, offsets and lengths with both ranges in bounds",
  "All lengths and contents; antisymmetry relates pairs of calls.",
  [UT+": arrayCompare"])
p("C05","arrayCopy between different arrays copies exactly the range",
  "When both ranges lie inside their arrays, arrayCopy and arrayCopyNonAtomic succeed, destination cells destOff..destOff+length-1 equal the source range, every other destination cell and the whole source are unchanged, and the destination length is unchanged.",
  "all pairs of distinct arrays, all in-bounds offsets and lengths",
  "Frame condition over all cells of arrays of all sizes.",
  [UT+": arrayCopy, arrayCopyNonAtomic"])
p("C06","arrayCopy inside one array when ranges overlap",
  "Java Card promises that copying inside one array behaves as if the range went through a temporary copy. pythoncard's arrayCopy gives exactly that result whenever destOff <= srcOff or the ranges do not overlap; for destOff > srcOff with overlap it instead repeats the first destOff-srcOff cells periodically, so the promise fails there.",
  "all arrays, all in-bounds non-negative offsets and lengths",
  "Aliasing: every overlap distance and length.",
  [UT+": arrayCopy"])
p("C07","A failed arrayCopy and transactions",
  "Java Card promises arrayCopy is atomic: if it fails nothing is written. Here transactions are no-ops, so a copy that runs out of bounds leaves the destination with exactly the cells copied before the failing index (the in-bounds prefix) overwritten and everything else unchanged; it is atomic only when the very first access fails.",
  "all arrays, all non-negative offsets, all lengths that overrun an array",
  "The crash point ranges over every index of arrays of every size.",
  [UT+": arrayCopy","pythoncard/framework/jcsystem.py: beginTransaction, abortTransaction, commitTransaction"])
p("C08","Out-of-bounds array operations raise ArrayIndexOutOfBoundsException",
  "For non-negative offsets, arrayCopy, arrayFillNonAtomic, getShort and setShort raise ArrayIndexOutOfBoundsException exactly when some touched index is outside its array and succeed otherwise; arrayCompare does so exactly when it reaches such an index before finding a difference. arrayCopyNonAtomic also fails exactly in those cases but with a NameError instead (misspelt exception name). A failing setShort at the last cell has already stored the high byte there. Negative offsets are not rejected: they count from the end of the array.",
  "all arrays, offsets and lengths",
  "All boundary positions of all array sizes.",
  [UT+": arrayCompare, arrayCopy, arrayCopyNonAtomic, arrayFillNonAtomic, getShort, setShort"])
p("C09","arrayFillNonAtomic fills exactly the range",
  "When the range lies inside the array, arrayFillNonAtomic sets exactly the cells bOff..bOff+bLen-1 to the value and changes nothing else.",
  "all arrays, in-bounds offsets and lengths, all values",
  "Frame condition over arrays of all sizes.",
  [UT+": arrayFillNonAtomic"])
p("C10","An AID can be built exactly from 5 to 16 in-range bytes",
  "AID(array, offset, length) with offset >= 0 raises ValueError when length is outside 5..16, ArrayIndexOutOfBoundsException when the range overruns the array, and otherwise yields an AID whose bytes are exactly that range; later changes of the array do not affect it.",
  "all arrays, all offsets >= 0, all lengths",
  "All boundary combinations of length and array size.",
  ["pythoncard/framework/aid.py: AID.__init__"])
p("C11","AID getBytes/equals round-trip",
  "getBytes writes the AID's bytes at the offset, returns their count, changes no other cell and raises ArrayIndexOutOfBoundsException (writing nothing) when they do not fit; equals on the written range is then true and an AID rebuilt from it is equal to the original. equals is true exactly when the given range has the AID's length and bytes.",
  "all AIDs, all destination arrays and offsets >= 0",
  "All array sizes and positions; relates three API calls.",
  ["pythoncard/framework/aid.py: getBytes, equals, __eq__"])
p("C12","AID partial and RID comparison",
  "partialEquals(array, off, n) for 0 <= n <= AID length is true exactly when the n bytes at off are the first n bytes of the AID; RIDEquals is true exactly when the first five bytes agree, it is an equivalence relation on AIDs, and equal AIDs have equal RIDs.",
  "all AIDs, arrays, offsets >= 0 and lengths >= 0",
  "All lengths and contents; equivalence relates triples of objects.",
  ["pythoncard/framework/aid.py: partialEquals, RIDEquals, __eq__"])
p("C13","AID getPartialBytes never succeeds",
  "Java Card promises getPartialBytes copies part of the AID. In this code every call raises (ArrayIndexOutOfBoundsException when the ranges do not fit, NameError otherwise, because of a misspelt variable) and the destination is never changed.",
  "all AIDs, all destination arrays, all offsets and lengths",
  "A claim about every call, including those inside the documented domain.",
  ["pythoncard/framework/aid.py: getPartialBytes"])
p("C14","PIN try counter stays between 0 and the limit",
  "After any sequence of operations on an OwnerPIN created with a non-negative try limit, getTriesRemaining() is between 0 and the limit.",
  "all histories of constructor, check, update, reset, resetAndUnblock, setValidatedFlag calls with arbitrary arguments",
  "Histories are unbounded.",
  ["pythoncard/framework/ownerpin.py: OwnerPIN"])
p("C15","A blocked PIN stays blocked",
  "When no tries remain, check returns False without comparing and never raises, and no sequence of check, reset, isValidated or getTriesRemaining calls makes the PIN validated or unblocks it; only update, resetAndUnblock or a forced setValidatedFlag(True) followed by reset can.",
  "all states with no tries remaining and all continuations free of update, resetAndUnblock and setValidatedFlag(True)",
  "Unbounded histories.",
  ["pythoncard/framework/ownerpin.py: check, reset"])
p("C16","Brute-force bound on PIN guesses",
  "In any sequence of check calls (with reset calls interleaved) starting from a state with t tries remaining, at most t presentations that can be accepted are compared before the first success: after t failed presentations of admissible length the PIN is blocked and every later check returns False until update or resetAndUnblock.",
  "all histories of checks with arbitrary arguments",
  "Counts over unbounded histories.",
  ["pythoncard/framework/ownerpin.py: check"])
p("C17","A string PIN is accepted exactly when it is the PIN",
  "When the PIN was set from a string and tries remain, check with a string range of admissible length returns True exactly when the presented range equals the stored PIN up to trailing zero padding to the maximum size.",
  "all PIN strings, all presented strings, offsets and lengths, all maximum sizes",
  "All pairs of PINs.",
  ["pythoncard/framework/ownerpin.py: update, check"])
p("C18","An array PIN is accepted although it differs",
  "A user relies on check(array) being True only for the PIN set with update(array). The code fills the comparison buffer through negative indices and then zeroes its tail, so of an n-byte PIN with maximum size m (n <= m) only byte 0 and the bytes j with m-n < j < n are compared; for 2n <= m+1 only the first byte matters, so wrong PINs are accepted; for other lengths the right PIN can be refused. Check is correct when n = m.",
  "all array PINs, presented arrays, offsets >= 0, lengths and maximum sizes",
  "The claim is an exact characterisation over all pairs of PINs and sizes.",
  ["pythoncard/framework/ownerpin.py: update, check"])
p("C19","Every rejected presentation costs a try",
  "A check that is made with tries remaining and does not succeed decrements the counter by one, whether the PIN is wrong or the range overruns the array, and a successful check resets it to the limit; the only exception is a length above the maximum PIN size, which escapes as IndexError and costs nothing.",
  "all states and all check arguments with offset >= 0, length >= 0",
  "All argument combinations.",
  ["pythoncard/framework/ownerpin.py: check"])
p("C20","The validated flag reflects the last decisive event",
  "isValidated() is True after a history exactly when the most recent of the events check, update, resetAndUnblock, effective reset, setValidatedFlag was a successful check, an update (contrary to Java Card, update sets the flag) or setValidatedFlag(True); a new PIN is not validated.",
  "all histories",
  "Unbounded histories.",
  ["pythoncard/framework/ownerpin.py: OwnerPIN"])
p("C21","Short command APDUs are parsed to the right case, Nc and Ne",
  "Constructing an APDU from the ISO 7816-4 encoding of a short case 1, 2, 3 or 4 command succeeds, getIncomingLength() is Nc, the expected length is Ne (256 for Le = 0, absent in cases 1 and 3), the data offset is 5, and the state is initial; the bytes may be written signed or unsigned.",
  "all headers, all data of 1..255 bytes, all Le in 1..256",
  "All header, data and length combinations.",
  ["pythoncard/framework/apdu.py: APDU.__init__, __getInLengths, __getOutLengths, getIncomingLength, getOffsetCdata"])
p("C22","Extended command APDUs",
  "For the ISO 7816-4 extended encodings: case 4E is parsed to the right Nc, Ne and data offset 7 exactly when Le is 65536 or not a multiple of 256; case 4E with another multiple of 256 and every case 3E command are marked malformed, so setIncomingAndReceive answers SW_WRONG_LENGTH; case 2E gets the right Ne exactly when Le is 65536, 256 or not a multiple of 256, and 256 otherwise.",
  "all headers, all data of 1..65535 bytes, all Le in 1..65536",
  "All lengths up to 65535 and beyond.",
  ["pythoncard/framework/apdu.py: APDU.__init__, __getInLengths, __getOutLengths"])
p("C23","Malformed lengths are refused",
  "For every byte array of at least 4 bytes, the constructor either fails with IndexError (only for 6 bytes with Lc = 0) or yields an APDU that setIncomingAndReceive refuses with SW_WRONG_LENGTH unless the array's length is consistent with the Lc and Le it announces. In the extended form this fails in both directions: two families of inconsistent arrays (two bytes too short, one byte too long) are accepted, an announced Lc of 0000 is accepted, and every well-formed case 3E command is refused. Arrays shorter than 4 bytes are refused with BAD_LENGTH.",
  "all byte arrays",
  "Every possible byte string.",
  ["pythoncard/framework/apdu.py: APDU.__init__, setIncomingAndReceive"])
p("C24","Incoming data is delivered completely and in order",
  "For every accepted command with data, calling setIncomingAndReceive and then receiveBytes at any in-range offsets until it returns 0 delivers the command data exactly once, in order: the concatenation of the delivered blocks is the data, every block but the last has 128 bytes, and each block is found in the buffer at the place it was announced.",
  "all data lengths (including extended ones) and all choices of receive offsets",
  "Unbounded number of blocks.",
  ["pythoncard/framework/apdu.py: setIncomingAndReceive, receiveBytes, getBuffer"])
p("C25","Receive counts and completion state",
  "In every history, while the APDU is receiving (state partial- or full-incoming) the state is full-incoming exactly when all command data has been delivered; receive calls return between 0 and 128, except that the first receive returns -1 for a short case 2 command, which is full at once and never seen in the partial state.",
  "all commands and receive histories",
  "Unbounded histories and data lengths.",
  ["pythoncard/framework/apdu.py: setIncomingAndReceive, receiveBytes, getCurrentState"])
p("C26","APDU phases only move forward",
  "Over every history of API calls the APDU moves only initial -> incoming -> outgoing: once outgoing it never accepts incoming calls again (ILLEGAL_USE), setIncomingAndReceive succeeds at most once, setOutgoing succeeds at most once, and a call rejected by its own check leaves the APDU unchanged.",
  "all histories of API calls with arbitrary arguments",
  "Unbounded histories.",
  ["pythoncard/framework/apdu.py: APDU"])
p("C27","The response is the concatenation of the sent blocks and at most 256 bytes",
  "After setOutgoing, for every sequence of in-range sendBytes / sendBytesLong calls with arbitrary buffer modifications in between, the response area starts with the concatenation of the sent blocks as they were when sent; the total never exceeds 256 bytes (BUFFER_BOUNDS otherwise, changing nothing), and the state is full-outgoing exactly when at least the declared length has been sent. A send whose range overruns the source succeeds silently with the cells that exist, and setOutgoingLength restarts the response.",
  "all histories of sends and buffer writes",
  "Unbounded histories.",
  ["pythoncard/framework/apdu.py: sendBytes, sendBytesLong, setOutgoing, setOutgoingLength"])
p("C28","Outgoing length and use checks",
  "setOutgoingLength raises BAD_LENGTH exactly when an expected length is known and smaller; setOutgoingLength and sendBytes before setOutgoing raise ILLEGAL_USE. sendBytesLong's own check can never fire: before setOutgoing it fails with AttributeError instead of ILLEGAL_USE.",
  "all APDU states and arguments",
  "All states and arguments.",
  ["pythoncard/framework/apdu.py: setOutgoing, setOutgoingLength, sendBytes, sendBytesLong, setOutgoingAndSend"])
p("C29","CLA queries read the command's CLA until the response overwrites it",
  "isISOInterindustryCLA, isCommandChainingCLA report bits 8 and 5 of the command's CLA byte in every history without sends; after a send they report bits of the response's first byte. The logical channel is read from the first cell of the buffer at the time of the call, not from the command. getProtocol is T=1 over the default medium.",
  "all commands and histories",
  "Unbounded histories.",
  ["pythoncard/framework/apdu.py: isCommandChainingCLA, isISOInterindustryCLA, getCLAChannel"])
p("C30","Dispatcher keeps services per phase in registration order",
  "After any sequence of addService calls, the services registered for a phase are exactly those successfully added for it, in order; adding for one phase does not affect another; None and unknown phases raise ILLEGAL_PARAM and change nothing. The declared capacity is never enforced: DISPATCH_TABLE_FULL is never raised.",
  "all histories of addService calls",
  "Unbounded histories.",
  ["pythoncard/framework/service/dispatcher.py: Dispatcher"])
p("C31","BigNumber init reads the number in the chosen format",
  "init with FORMAT_HEX sets the value to the big-endian base-256 number of the bytes (signed or unsigned spelling), with FORMAT_BCD and decimal digits to the decimal number they spell; length 0 raises ArithmeticException and an unknown format raises ArithmeticException, both leaving the value unchanged. A range overrunning the array raises after part of the number was read, losing the old value; BCD nibbles above 9 are accepted as they are.",
  "all arrays, offsets >= 0 and lengths in bounds",
  "All sizes.",
  ["pythoncardx/framework/math.py: BigNumber.init, from_bcd, from_hex"])
p("C32","BigNumber toBytes/init round-trip",
  "For every non-negative value and each format, toBytes into n bytes succeeds exactly when the value fits (value < 256^n, resp. 100^n) and the range fits; it writes only that range, and init on it returns the same value. Conversely init followed by toBytes of the same size reproduces the (signed) bytes, also for numbers longer than the 20 bytes getMaxBytesSupported() answers.",
  "all values, sizes, buffers and offsets",
  "Unbounded values and sizes.",
  ["pythoncardx/framework/math.py: BigNumber.init, toBytes, to_bcd, to_hex"])
p("C33","BigNumber arithmetic is integer arithmetic",
  "add, subtract and multiply change the value to the exact sum, difference or product with the operand read by init, for any size (maxBytes is never enforced); subtraction can make the value negative, and toBytes then writes zeros.",
  "all values, operands and formats",
  "Unbounded values.",
  ["pythoncardx/framework/math.py: add, subtract, multiply"])
p("C34","BigNumber compareTo is a total order",
  "compareTo returns 0, 1 or -1 exactly as the values compare, is antisymmetric and transitive, and the array form agrees with the object form.",
  "all pairs and triples of numbers",
  "Relates triples of unbounded values.",
  ["pythoncardx/framework/math.py: compareTo"])
p("C35","JCint setInt/getInt",
  "setInt writes the four signed bytes of (iValue1 << 16) + iValue2 modulo 2^32, touching only those cells, and returns bOff + 4. getInt reads back the value when the low three bytes are non-negative; a negative low byte borrows from the byte above, so the round-trip fails exactly when one of the three low bytes has its high bit set. makeInt of four bytes computes the same as getInt, makeInt of two shorts is s1*2^16 + s2. With fewer than four cells left setInt raises IndexError after storing the leading bytes. sanatize maps bytes to signed bytes.",
  "all arrays, offsets and int values",
  "All 2^32 values and all array positions.",
  ["pythoncardx/framework/util/intx.py: JCint.getInt, setInt, makeInt"])
p("C36","BER tag encode/decode round-trip",
  "For every class 0..3, constructed flag and tag number >= 0, of any size, toBytes followed by getInstance at the same offset yields a tag with the same class, flag and number, and toBytes returns the number of bytes written. The static queries tagClass, tagNumber and isConstructed answer the same on the octets of a tag.",
  "all classes, flags, tag numbers, buffers and offsets",
  "Tag numbers are unbounded.",
  ["pythoncardx/framework/tlv/bertag.py: toBytes, init, getInstance"])
p("C37","BER tag size",
  "Java Card promises size() is the number of bytes of the encoded tag. For tags read from bytes this holds exactly for one-byte tags; for longer tags size() is one less, and for tags built from class and number size() is 0.",
  "all tags",
  "All encodings of all lengths.",
  ["pythoncardx/framework/tlv/bertag.py: size, init"])
p("C38","BER tag encoding touches only its own bytes up to sign normalisation",
  "toBytes changes only the encoded cells, except that every cell of the buffer above 127 is replaced by its signed equivalent; buffers already holding signed bytes are otherwise untouched.",
  "all buffers and tags",
  "Frame condition over all buffer sizes.",
  ["pythoncardx/framework/tlv/bertag.py: _toBytesBound, sanitycheck"])
p("C39","BER tag parsing accepts or reports ArrayIndexOutOfBounds",
  "getInstance on a list at an offset >= 0 either returns a tag or raises ArrayIndexOutOfBoundsException, the latter exactly when the encoding is cut off by the end of the array; parsing terminates for every input.",
  "all arrays and offsets >= 0",
  "All byte strings, all lengths.",
  ["pythoncardx/framework/tlv/bertag.py: getInstance, init"])
p("C40","Short TLV encode/decode round-trip",
  "For a TLV with a one-byte tag and at most 127 value bytes, toBytes followed by getInstance yields a TLV with the same tag, length and value, whose size() is the number of bytes written; the size() of the TLV written is that number exactly when its tag was read from bytes.",
  "all one-byte tags, values of 0..127 bytes, buffers and offsets",
  "All values and positions.",
  ["pythoncardx/framework/tlv/bertlv.py: toBytes, getInstance, size, getValue"])
p("C41","TLVs longer than 127 bytes cannot be written",
  "toBytes on a TLV whose length exceeds 127 always raises (NameError unless the tag itself does not fit), for every tag and value.",
  "all TLVs with length > 127",
  "All lengths.",
  ["pythoncardx/framework/tlv/bertlv.py: _toBytesBound"])
p("C42","Long-form lengths are misread",
  "BER long-form lengths are big-endian with a leading count. The code reads them little-endian and counts only the following bytes, so for a one-byte tag the value found starts one byte early; it reads the right length only for one-byte or byte-palindromic lengths.",
  "all long-form lengths",
  "All lengths.",
  ["pythoncardx/framework/tlv/bertlv.py: _getLength, getLengthLen"])
p("C43","find returns the first matching child",
  "For a constructed TLV whose value is a sequence of short TLVs with one-byte tags, find(tag) returns the first child with that tag, or None if there is none; find(None) returns the first child or None when empty.",
  "all sequences of children",
  "Sequences are unbounded.",
  ["pythoncardx/framework/tlv/bertlv.py: find, _find"])
p("C44","findNext returns the first match after the n-th occurrence",
  "For such a TLV, findNext(tag, aTLV, n) returns the first child with the tag after the n-th child equal to aTLV, or None if aTLV occurs fewer than n times or no match follows. With tag None it returns the child after the n-th occurrence, and raises ArrayIndexOutOfBoundsException when that occurrence is the last child.",
  "all sequences of children, all n",
  "Unbounded sequences and counts.",
  ["pythoncardx/framework/tlv/bertlv.py: findNext"])
p("C45","find can loop forever on malformed input",
  "A user relies on find returning for every input. It terminates for every value of non-negative bytes, but there are 5-byte TLVs with signed bytes on which it never terminates.",
  "all byte strings",
  "Non-termination cannot be observed by a test.",
  ["pythoncardx/framework/tlv/bertlv.py: _find, _getLength"])
p("C46","append adds the child at the end",
  "Appending a short TLV with a one-byte tag to a constructed TLV appends exactly its encoding to the value and adds its size to the length, so a later find sees the old children first and then the new one. TLVs whose tag was built from class and number cannot be appended (their tag size is 0).",
  "all constructed TLVs and children",
  "Unbounded sequences.",
  ["pythoncardx/framework/tlv/bertlv.py: append"])
p("C47","Static findNext never finds anything",
  "The static findNext(array, ...) never returns a non-negative offset: every call raises or returns -1. On a well-formed short TLV: AttributeError if it is primitive; NameError if it is constructed and the start offset is not past its first child; past it -1 if it is empty, AttributeError if it has children.",
  "all arguments",
  "A claim about every call.",
  ["pythoncardx/framework/tlv/bertlv.py: _findNextStatic"])
p("C48","Initialising a TLV object from bytes has no effect on it",
  "init(bArray, bOff, bLen) on a TLV object returns a size or raises but never changes the object's tag, length or value.",
  "all TLV objects and arrays",
  "A claim about every call.",
  ["pythoncardx/framework/tlv/bertlv.py: BERTLV.init"])
p("C49","Byte array to binary and back",
  "Converting an array to key/message bytes and back yields the signed spelling of each byte; the conversion depends only on the low 8 bits of each element and is idempotent.",
  "all arrays",
  "All sizes and values.",
  ["pythoncard/security/key.py: _arrayTobinary, _binaryToarray"])
p("C50","RSA component number conversion",
  "Converting a little-endian byte array to a number and back. Under Python 2 (hex of a long ends in L) the conversion of every non-negative number to bytes and back is the identity; under Python 3 the last hex digit is dropped and the round-trip yields n // 16. Signed (negative) bytes give a negative number, and trailing zero bytes are lost.",
  "all non-negative integers",
  "Unbounded numbers.",
  ["pythoncard/security/key.py: _longToArray, _arrayTolong"])
p("C51","DES keys read back as set",
  "After setKey with enough bytes, isInitialized is true and getKey returns the signed spelling of exactly size/8 bytes, independent of later changes to the source; before setKey the key is not initialized.",
  "all key sizes, arrays, offsets",
  "All contents and sizes.",
  ["pythoncard/security/secretkey.py: pyDesDESKey"])
p("C52","RSA key initialisation protocol",
  "An RSA key reports initialized exactly after both modulus and exponent have been set (in either order) or a generated key was installed; getters before that raise UNINITIALIZED_KEY; a modulus of the wrong length is refused and changes nothing; afterwards getters return the last values set; clearKey does not uninitialise it. Without PyCrypto a public key that is only given numbers never becomes usable (the setter that completes it raises NO_SUCH_ALGORITHM each time); private keys are the same with and without it.",
  "all histories of setter, getter and clearKey calls",
  "Unbounded histories.",
  ["pythoncard/security/publickey.py: PyCryptoRSAPublicKey","pythoncard/security/privatekey.py: PyCryptoRSAPrivateKey","pythoncard/security/key.py: Key"])
p("C53","A public key keeps using its first modulus and exponent",
  "Once both components were set, changing them changes what the getters return but not the key used for ciphering: ciphering uses the first complete pair for the rest of the object's life. A private key built from components can never be used for ciphering.",
  "all histories after the first complete initialisation",
  "Unbounded histories.",
  ["pythoncard/security/publickey.py: standardSetter, _construct"])
p("C54","KeyBuilder and KeyPair dispatch",
  "buildKey returns an uninitialized key of the requested size and type for RSA public/private and DES types (an RSA CRT request yields a plain RSA private key), and None for every other type. genKeyPair on a fresh pair yields two initialized keys of the pair's size and refuses to run again with ILLEGAL_VALUE. A pair made from two key objects never generates: genKeyPair raises ILLEGAL_VALUE when one of them is initialized and AttributeError otherwise. Without PyCrypto no pair generates (ILLEGAL_VALUE or NO_SUCH_ALGORITHM), and neither key is replaced.",
  "all types and sizes, all histories",
  "All integers as type and size.",
  ["pythoncard/security/keybuilder.py: buildKey","pythoncard/security/keypair.py: KeyPair"])
p("C55","Ciphers must be initialised first",
  "doFinal and update raise INVALID_INIT until an init succeeded; init refuses non-keys, uninitialised keys, unknown modes and keys of the wrong family with the documented reasons; a failed init keeps the previous key but may already have changed the mode.",
  "all histories of init/update/doFinal",
  "Unbounded histories.",
  ["pythoncardx/crypto/cipher.py: Cipher, _PyCryptoRSACipher, _pyDesDESCipher"])
p("C56","Cipher.getInstance selects supported algorithms only",
  "getInstance returns an RSA cipher exactly for the two RSA algorithms and a DES cipher exactly for the four DES ones, reporting the requested algorithm; any other single algorithm number raises NO_SUCH_ALGORITHM; in the three-argument form unsupported combinations escape as TypeError or UnboundLocalError.",
  "all argument combinations",
  "All integers.",
  ["pythoncardx/crypto/cipher.py: Cipher.getInstance"])
p("C57","DES block decryption inverts encryption",
  "For every 8-byte key and every block, decrypting the encryption of the block, and encrypting the decryption, gives the block back.",
  "all 2^64 keys and 2^64 blocks",
  "2^128 combinations.",
  ["pyDes/pyDes.py: des.__des_crypt, __create_sub_keys"])
p("C58","The DES implementation is FIPS 46-3 DES",
  "For every key and block the implementation computes the function defined by FIPS 46-3 (initial permutation, 16 Feistel rounds with E, S1..S8 and P, key schedule PC-1, rotations, PC-2).",
  "all keys and blocks",
  "2^128 combinations.",
  ["pyDes/pyDes.py: des"])
p("C59","DES ECB and CBC decryption invert encryption for messages of any length",
  "For every key, IV and message whose length is a multiple of 8, decrypt(encrypt(m)) = m in ECB and CBC mode, the ciphertext has the length of the message, and other lengths are refused with ValueError when no padding is set.",
  "all keys, IVs and messages",
  "Unbounded messages.",
  ["pyDes/pyDes.py: des.crypt, encrypt, decrypt"])
p("C60","PKCS5 padding is removed unambiguously",
  "For every message, PKCS5 padding yields a positive multiple of 8 with 1..8 bytes added and unpadding returns the message; hence encrypt/decrypt with PKCS5 is the identity on messages of every length. Unpadding never validates: a final byte 0 deletes the whole message.",
  "all messages",
  "Unbounded messages.",
  ["pyDes/pyDes.py: _padData, _unpadData"])
p("C61","Triple DES is EDE with outer chaining and round-trips",
  "triple_des encryption of any message equals EDE with the three (or two) keys, in CBC mode with a single outer chain although each inner cipher also chains; decryption inverts encryption for messages of any length, with and without PKCS5, and results do not depend on the calls made before. CBC without an IV uses the first eight bytes of the key as IV, and a 16-byte key is used as K1 K2 K1.",
  "all 16- and 24-byte keys, IVs and messages",
  "Unbounded messages; hidden inner IV state across calls.",
  ["pyDes/pyDes.py: triple_des"])
p("C62","DES Cipher API round-trip",
  "For every DES key (64, 128 or 192 bits), supported algorithm, IV and message of acceptable length, doFinal in encrypt mode followed by doFinal in decrypt mode restores the message bytes (signed spelling), also when input and output are the same buffer, and writes only the announced number of bytes. A failed init may already have switched the cipher to the other mode.",
  "all keys, IVs, messages, buffers and offsets",
  "Unbounded messages and buffers.",
  ["pythoncardx/crypto/cipher.py: _pyDesDESCipher.init, doFinal"])
p("C63","PKCS#1 v1.5 padding round-trip",
  "For every modulus size and every message of at most size/8-11 bytes, whatever the random bytes drawn, the padded block has size/8 bytes, starts with 0,2 and has at least 8 non-zero random bytes, and unpadding returns the message; longer messages raise ILLEGAL_VALUE.",
  "all messages, sizes and random sources",
  "Quantifies over the random source.",
  ["pythoncardx/crypto/cipher.py: EME_PKCS1_v1_5_enc, EME_PKCS1_v1_5_dec"])
p("C64","RSA doFinal round-trip",
  "For every key pair for which RSA decryption inverts encryption, doFinal encrypt followed by doFinal decrypt. Under Python 3 PKCS1 decryption of any padded block raises ILLEGAL_VALUE because of the lost hex digit; under Python 2 the message is restored without its trailing zero bytes when the padded block is below the modulus; an empty or all-zero message raises ValueError, and a ciphertext that is too short is refused.",
  "all messages, keys and random sources",
  "All messages and keys.",
  ["pythoncardx/crypto/cipher.py: _PyCryptoRSACipher.doFinal","pythoncard/security/key.py: _longToArray"])
p("C65","Message digests depend only on the bytes since the last reset",
  "For every history of update, doFinal and reset calls, doFinal's output is the hash of the concatenation of all bytes passed since the last reset or doFinal, however they were split; doFinal resets the digest, even when the output does not fit; a failing update adds nothing. Range failures surface as NameError, and a doFinal refused because of its input range keeps the pending bytes.",
  "all histories and splittings",
  "Unbounded histories.",
  ["pythoncard/security/messagedigest.py: _HashLibMessageDigest"])
p("C66","Random data fills exactly the requested range with bytes",
  "generateData writes length bytes in 0..255 (unsigned, unlike every other byte array of the API) at offset and nothing else; length 0 raises ILLEGAL_VALUE; a negative length does nothing; an overrun raises NameError after filling the part that fits.",
  "all buffers, offsets, lengths and random sources",
  "Quantifies over the random source.",
  ["pythoncard/security/random.py: generateData"])
p("C67","Signature.getInstance never returns",
  "Signature.getInstance raises TypeError for every list of arguments.",
  "all argument lists",
  "A claim about every call.",
  ["pythoncard/security/signature.py: getInstance"])
p("C68","JCSystem arrays are fresh and cleared",
  "makeTransient*Array and makeGlobalArray return an array of the requested length holding the default value of the element type; makeGlobalArray fails for negative lengths and unknown types. The three-argument getAvailableMemory writes 0x7FFF at the offset and touches nothing else. getAvailableMemory raises TypeError for any number of arguments other than one and three.",
  "all lengths and types",
  "All lengths.",
  ["pythoncard/framework/jcsystem.py: makeTransientByteArray, makeGlobalArray, getAvailableMemory"])
p("C69","TLVs with multi-byte tags are misread",
  "A user relies on getInstance reading a TLV with any tag. When the tag takes two or more octets, the last tag octet is taken for the length and the value is taken from the real length octet on; so no TLV with such a tag is read as written (except by coincidence of those octets).",
  "all tags of two or more octets, all following bytes",
  "All tags and byte strings.",
  ["pythoncardx/framework/tlv/bertlv.py: getInstance","pythoncardx/framework/tlv/bertag.py: size"])
p("C70","Static length and value offset of an encoded TLV",
  "For an encoded short TLV with a one-byte tag, the static getValueOffset returns the offset of the value, while the static getLength returns the size of the whole TLV, two more than the length of its value.",
  "all short TLVs, arrays and offsets",
  "All arrays and positions.",
  ["pythoncardx/framework/tlv/bertlv.py: getValueOffset, _getLengthStatic"])
p("C71","Reading and replacing the value of a primitive TLV",
  "getValue copies the whole value and returns its length, or raises ArrayIndexOutOfBoundsException; replaceValue makes the value a copy of the given range. A getValue that does not fit has written the first part of the value up to the end of the array. A replaceValue that fails has already replaced the value, by the rest of the source followed by zeros, but kept the old length.",
  "all TLV objects, arrays, offsets and lengths",
  "All arrays and positions.",
  ["pythoncardx/framework/tlv/bertlv.py: PrimitiveBERTLV.getValue, replaceValue"])
p("C72","Static find and append work in place on encoded TLVs",
  "On the encoding of a constructed TLV whose value is a sequence of short children, static find returns the array offset of the first child with the wanted tag or -1 (without a tag: the offset of the first value byte, -1 when there is none), and static append rewrites the TLV in place with the new child last when there is room. When there is no room it raises after having changed the length octet.",
  "all sequences of children, arrays and offsets",
  "Unbounded sequences.",
  ["pythoncardx/framework/tlv/bertlv.py: _findStatic, _appendStatic"])
p("C73","Padding with a chosen character",
  "With PAD_NORMAL and a pad character, encrypt appends just enough pad characters to reach a multiple of 8 and decrypt with the same key and pad character gives the message back exactly when the message is empty or does not end with the pad character; otherwise the trailing pad characters are lost.",
  "all keys, messages, pad characters",
  "All byte strings.",
  ["pyDes/pyDes.py: _padData, _unpadData, encrypt, decrypt"])
p("C74","The parity bits of a DES key are ignored",
  "Two 8-byte keys whose bytes agree in their upper seven bits give DES objects with the same results for every call; likewise 16- and 24-byte triple DES keys, except in CBC mode without an IV, where the IV is copied from the key and so depends on its parity bits.",
  "all pairs of keys, modes, IVs, paddings",
  "All keys and messages.",
  ["pyDes/pyDes.py: des.__init__, __create_sub_keys, triple_des.setKey"])
p("C75","DES complementation",
  "Complementing every bit of the key and of the message complements every bit of the ciphertext, and of the plaintext when decrypting: for single blocks, for ECB messages of any number of blocks and for triple DES.",
  "all keys, blocks, messages",
  "2^120 key/block pairs.",
  ["pyDes/pyDes.py: __des_crypt, __create_sub_keys, crypt"])
p("C76","Weak and semi-weak DES keys are accepted",
  "The four weak keys and the six pairs of semi-weak keys are accepted like any other key; encrypting any message twice, with the key and its partner, returns the message, so that encrypt undoes encrypt.",
  "the ten pairs, all messages of whole blocks",
  "All messages.",
  ["pyDes/pyDes.py: des.__init__, __create_sub_keys, __des_crypt"])
p("C77","Triple DES with two equal neighbouring keys is single DES",
  "When K1 = K2, when K2 = K3 or when a 16-byte key has equal halves, every encrypt and decrypt of the triple_des object gives the result, or the exception, of the des object with the remaining key, in every mode, with and without PKCS5 padding, after any history of calls.",
  "all keys of that form, IVs, modes, messages of every length, histories",
  "Unbounded messages and histories.",
  ["pyDes/pyDes.py: triple_des.encrypt, triple_des.decrypt, des.encrypt, des.decrypt"])
p("C78","How far a change of the message reaches in ECB and CBC",
  "In ECB the parts of a message cut at a block boundary are processed independently. In CBC the ciphertext of a longer message starts with the ciphertext of its beginning, and a message can be encrypted in pieces by using the last ciphertext block as the next IV; on decryption, replacing one ciphertext block changes the plaintext of that block, flips in the next block exactly the bits that were changed, and nothing else.",
  "all keys, IVs, messages and positions",
  "Unbounded messages.",
  ["pyDes/pyDes.py: crypt, encrypt, decrypt"])
p("C79","A DES object is determined by the settings in force",
  "After any history of setKey, setMode, setIV, setPadding, setPadMode, encrypt and decrypt calls, succeeding or failing, a des or triple_des object gives for every call the result or exception of an object freshly constructed from the settings last accepted. Exceptions, made precise: des.setKey does not check the length (a short key raises IndexError but is returned by getKey while the old key stays in use; a long one is cut); setters accept a pad character together with PKCS5, which the constructor refuses; triple_des.setMode(CBC) without an IV makes every call raise ValueError; the IV that CBC takes from the key stays when the key changes.",
  "all histories, keys, IVs, messages",
  "Unbounded histories.",
  ["pyDes/pyDes.py: _baseDes.setKey, setMode, setPadding, setPadMode, setIV, des.setKey, triple_des.setKey, setMode, setPadding, setPadMode, setIV"])
p("C80","Padding arguments of a single call",
  "The pad and padmode arguments of encrypt and decrypt act, for this call only, like the constructor's. A pad character together with PKCS5 is refused by encrypt however the two are given, but by decrypt only when PKCS5 is given in the call; on an object made with PKCS5, decrypt(data, pad=c) silently ignores c.",
  "all objects, messages, pad characters and modes",
  "All byte strings and settings.",
  ["pyDes/pyDes.py: _padData, _unpadData, encrypt, decrypt"])
p("C81","Several APDU objects, the lists they share and the current APDU",
  "getCurrentAPDU is the object of the last constructor call that got at least four bytes (None before the first), whatever was called on other objects, and getCurrentAPDUBuffer and getCLAChannel read that object's buffer. An APDU whose list no other object and no caller code uses gives, however calls on several APDUs are interleaved, the answers and final state of its own calls alone. Two APDUs made from one list share it: what one sends becomes what the other receives. A constructor that fails with IndexError has already made its half-made object the current APDU, and every later call on it raises ILLEGAL_USE or AttributeError.",
  "all programs of constructions, calls on any object and writes to the lists",
  "Unbounded interleavings.",
  ["pythoncard/framework/apdu.py: APDU.__init__, getCurrentAPDU, getCurrentAPDUBuffer, getCLAChannel"])
p("C82","An applet that echoes the command data answers exactly the data",
  "The usual receive loop (setIncomingAndReceive, then receiveBytes behind what is there until it returns 0) followed by setOutgoingAndSend of the data ends, and the response is exactly the command data, for every short command with 1 to 252 data bytes and every accepted extended command with 1 to 250, whose Le, if present, allows for that many bytes, in state full-outgoing. Short commands with 253 to 255 data bytes make the loop raise IndexError, as the 257-byte buffer has no room for them.",
  "all commands with data",
  "All data contents and lengths.",
  ["pythoncard/framework/apdu.py: setIncomingAndReceive, receiveBytes, setOutgoingAndSend"])
p("C83","The status word an applet answers to every command",
  "For an applet written on Applet, APDU and ISOException the way the repository's own test applet is, every short command is answered with exactly the documented status word: 6E00 when the class byte is below 128 (signed or unsigned spelling), 9000 for the two empty instructions, 6D00 for an unknown instruction, the three response bytes followed by 9000 for the sending instruction, and 9000 for everything while the applet is being selected. The sending instruction raises APDUException(BAD_LENGTH) when Le is 1 or 2, a command of fewer than four bytes never reaches any applet, an applet without process raises NotImplementedError, and selectingApplet raises AttributeError when the surrounding system never set it.",
  "all short commands, with and without data and Le, all applets for the too-short case",
  "All header bytes, data contents and lengths.",
  ["pythoncard/framework/applet.py: Applet.selectingApplet, Applet.process","pythoncard/framework/apdu.py: APDU.__init__, isISOInterindustryCLA, setIncomingAndReceive, setOutgoingAndSend","pythoncard/framework/__init__.py: CardRuntimeException.throwIt, ISOException","test/testApplet.py: testBaseProcessApplet"])
p("C84","The RSA applet decrypts what it encrypted, in every session",
  "On Python 2, after installing the repository's RSA applet and any sequence of commands, encrypting a message of 1 to 117 bytes answers a ciphertext of at most 128 bytes and 9000, and decrypting that ciphertext (completed to 128 bytes) after any further commands answers the message and 9000, provided the message does not end in a zero byte and its last byte is below the leading byte of the modulus. On Python 3 the decryption always raises CryptoException(ILLEGAL_VALUE). Messages of 118 to 128 bytes to encrypt and data of any other length than 128 to decrypt raise CryptoException(ILLEGAL_VALUE). A class byte other than 0 raises NameError (the applet names an unimported module), other instructions are answered 6D00, other P1 values 6B00, and none of these changes the applet.",
  "all generated keys with mutually inverse RSA operations, sessions of commands, messages, paddings",
  "Unbounded sessions; all messages and random paddings.",
  ["test/AppletRSA2048.py: HandsonRSA2048EncryptDecrypt","pythoncardx/crypto/cipher.py: init, doFinal","pythoncard/framework/apdu.py","pythoncard/security/keypair.py: KeyPair.genKeyPair"])
p("C85","Text given to DES objects",
  "On Python 3, ASCII text can be given to des and triple_des objects wherever bytes are expected (key, IV, pad character, data; constructor, setters, encrypt, decrypt) and every call in every history has the outcome it has with the corresponding bytes. Text with any other character (on Python 2, any text) raises ValueError and leaves the object as it was, except in triple_des.setKey: a text key refused because only its second or last third is not ASCII has already replaced the thirds before it, while getKey still returns the old key. Encrypting or decrypting empty data returns empty text instead of bytes, except on triple_des objects in CBC mode.",
  "all objects, histories, texts and byte strings, both Python versions",
  "Unbounded histories and texts.",
  ["pyDes/pyDes.py: _guardAgainstUnicode, _baseDes.__init__, setKey, setPadding, setIV, des.crypt, encrypt, decrypt, triple_des.setKey, encrypt, decrypt"])
p("C86","Exceptions and their reasons",
  "throwIt(r) of CardRuntimeException and its subclasses raises an exception of that very class whose getReason is r, and after any further setReason calls on any exceptions getReason is the last reason set on that one: no exception's reason is shared. It is caught by exactly the clauses naming its own class, CardRuntimeException, RuntimeException or Exception, and the first catching clause runs. A clause for CardException catches itself and UserException, one for IOException itself and RemoteException, one for IndexOutOfBoundsException itself and ArrayIndexOutOfBoundsException, and the other leaf classes only themselves. UserException and CardException cannot be thrown with throwIt: AttributeError is raised, which none of the Java Card classes catches. Of everything the library raises, a clause for CardRuntimeException catches exactly what has a reason, a clause for one of its subclasses exactly the errors of that class, with the reason they were raised with, a clause for RuntimeException exactly the Java Card and Java errors: the Python errors (IndexError, NameError, AttributeError, ...) escape them. Memory.getMemoryAccessInstance raises ExternalException(NO_SUCH_SUBSYSTEM) for all arguments.",
  "all exception classes, reasons, handler lists and setReason histories",
  "Unbounded histories, handler lists and reasons.",
  ["pythoncard/framework/__init__.py: CardRuntimeException, CardException, UserException","python/lang.py","pythoncardx/external/memory.py: Memory.getMemoryAccessInstance"])
p("C87","Key pairs and the key objects they hand out",
  "In every program that builds RSA keys and key pairs and calls them, a key object's state is that of its own calls alone, getPublic of a pair is a public key and getPrivate a private one. KeyPair(algorithm, length) makes two new uninitialised keys of that length, or is refused with NO_SUCH_ALGORITHM when the algorithm is not an RSA one. genKeyPair of a pair made with an algorithm, while both its keys are uninitialised, replaces them by two new initialised keys of the pair's length carrying the same generated key, leaves every other pair alone, and leaves the key objects handed out earlier uninitialised. When PyCrypto's own generation raises, genKeyPair raises the same and changes nothing, so a later one can succeed. After it succeeded once, every later genKeyPair of that pair raises CryptoException(ILLEGAL_VALUE) and the keys handed out stay the same objects. KeyPair(a, b) is refused with ILLEGAL_VALUE, and makes nothing, unless a is a public key and b a private one. A pair made from two keys hands out these objects; its genKeyPair never succeeds (ILLEGAL_VALUE when one is initialised, otherwise AttributeError). Without PyCrypto no genKeyPair succeeds.",
  "all programs of key constructions, pair constructions, key calls and generations, all generated keys, and all exceptions of the generator",
  "Unbounded programs with shared objects.",
  ["pythoncard/security/keypair.py: KeyPair.__init__, genKeyPair, getPublic, getPrivate","pythoncard/security/key.py: PyCryptoRSAKey"])
p("C88","Nested TLVs of any depth",
  "A data object of any depth, all of whose tags have one byte and none of whose parts has more than 127 value bytes, can be built by init and append from the leaves up, is written by toBytes, and is read back exactly, part by part; no bytes encode two different data objects. Following a path of tags with find, step by step, leads to the first matching child at each step, to None where a child is missing and to AttributeError where a child of a primitive TLV is wanted; every search finishes. A data object that has a larger part cannot be built and written.",
  "all trees of any depth and width within the length limits, all paths of tags, all buffers and offsets",
  "Trees of unbounded depth; all paths.",
  ["pythoncardx/framework/tlv/bertlv.py: getInstance, ConstructedBERTLV.init, append, find, toBytes, size, PrimitiveBERTLV.getValue"])
p("C89","PINs set in one form and presented in the other",
  "After a PIN was set from a string by the last update of any history, an array presentation is accepted exactly when the zero-padded string equals the array with byte 0 first and byte j at position maxPINSize - j. So for PINs of the maximum size the array accepted is the first character followed by the others in reverse order, and a PIN of 2 or more non-NUL characters and at most half the maximum size is refused as an array. The same holds for a PIN set once from an array and presented as a string.",
  "all histories, maximum sizes, PINs, offsets and presentations",
  "Unbounded histories; all PINs and lengths.",
  ["pythoncard/framework/ownerpin.py: check, update"])
p("C90","Histories of calls on a BigNumber",
  "After any sequence of init, add, subtract and multiply calls the number is exactly what integer arithmetic gives, the calls that succeed are exactly those with a readable operand on an initialised number (init always initialises), refused calls change nothing, and toBytes then writes that number. The maximum size given to the constructor is never enforced: objects made for different sizes behave alike. With any arguments whatever: length 0 and unknown formats raise ArithmeticException, no array NullPointerException, an array too short IndexError (init then leaves the number of the cells it could read, followed by a zero), arithmetic before init TypeError; a BCD byte counts ten times its upper plus its lower half even when these are no decimal digits. toBytes raises ArithmeticException exactly when the format is unknown, the length is negative or the number does not fit, TypeError before init, ArrayIndexOutOfBoundsException when the cells are not there, and otherwise writes the number, a negative one as zero. compareTo orders by value, finds two uninitialised numbers equal and raises TypeError when exactly one is initialised.",
  "all sequences of calls with hexadecimal and BCD operands of any length, refused calls included; all arrays, offsets and lengths of either sign, and formats",
  "Unbounded histories and operands.",
  ["pythoncardx/framework/math.py: BigNumber.init, add, subtract, multiply, toBytes"])
p("C91","Initialising tag objects from bytes and printing them",
  "init(bytes, offset) on a tag object, whatever it held, with the identifier octets of a tag of the object's own kind makes it report that tag, as getInstance on the same bytes does. With the first octet of a tag of the other kind it raises TLVException(MALFORMED_TAG); at or past the end of the array it raises IndexError (getInstance: ArrayIndexOutOfBoundsException); in both cases the tag the object held is lost: it has no class and no number, and writing or printing it then raises TypeError. With octets of its own kind cut off by the end of the array it raises IndexError and holds the class read and the number formed by the digits there are. A new tag object has class 0, number 0 and size 0. The text has class and number in decimal and CONSTR for a constructed tag; two tags that have a class and a number print as the same text exactly when they are equal.",
  "all tag objects, arrays, offsets and identifier octets of any length",
  "All tags of unbounded size and all buffers.",
  ["pythoncardx/framework/tlv/bertag.py: PrimitiveBERTag.init, ConstructedBERTag.init, BERTag.__str__, BERTag.__eq__"])
p("C92","Array operations at every offset: indices wrap around",
  "For offsets of either sign, arrayCopy, arrayFillNonAtomic, getShort and setShort succeed exactly when every index they touch lies between minus the length of its array (included) and its length (excluded); index -k names the k-th cell from the end. A successful copy between different arrays stores at the cell each destination index names the value of the cell the source index names, so a copy to offset -m of more than m cells continues at the start of the array; getShort and setShort at -1 use the last cell as high byte and the first cell as low byte. arrayCompare gives the first difference along these indices, and fails exactly when it meets an index that names no cell before finding one.",
  "all arrays, all offsets of either sign, all lengths",
  "All sizes and offsets, positive and negative.",
  [UT+": arrayCopy, arrayCopyNonAtomic, arrayFillNonAtomic, arrayCompare, getShort, setShort"])
p("C93","What a PIN object accepts after any history of updates",
  "After any history of calls with offsets and lengths that are not negative, refused calls included and strings and arrays mixed, a presentation of at most maxPINSize characters or bytes, while tries remain, is accepted exactly when setting it on a new object would give the same cells as the accepted updates of the history did. An update clears the cells from its length n on; a string fills cells 0..n-1; an array fills cell 0 with its first byte and cell maxPINSize-j with byte j, and the other cells below n keep what earlier updates left there. So a PIN just set from an array is accepted back exactly when the cells 1..min(n-1, maxPINSize-n) were 0 before. An update that is too long (PINException) or outside its argument (ArrayIndexOutOfBoundsException) changes nothing.",
  "all histories, maximum sizes, PINs in both forms, offsets and lengths >= 0",
  "Unbounded histories of updates that leave traces of each other.",
  ["pythoncard/framework/ownerpin.py: check, update"])
p("C94","CRT private key objects",
  "Whatever is called on an object of the CRT private key classes, it never becomes initialised and its size does not change; the concrete class reports key type 5, that of a plain RSA private key, the abstract one 6. Each of the ten accessors raises TypeError, setTheKey raises NameError after storing the key (AttributeError on the abstract class). So every cipher refuses such a key with CryptoException(UNINITIALIZED_KEY), and a key pair made with one cannot be generated.",
  "all sequences of calls, sizes, keys, modes and arguments",
  "Unbounded sequences of calls.",
  ["pythoncard/security/privatekey.py: RSAPrivateCrtKey, PyCryptoRSAPrivateCrtKey","pythoncardx/crypto/cipher.py: Cipher.init","pythoncard/security/keypair.py: genKeyPair"])
p("C95","Operations that are both static and not static",
  "For any class hierarchy, a name bound to NotAlwaysStatic(b, s) means b of the object when used on an object and s of the class when used on a class, both looked up from the actual class, so a subclass that redefines b changes only the calls on its objects. toBytes, size, isConstructed, tagClass and tagNumber of tags, append, find and findNext of constructed TLVs and getLength of all TLVs go to their bound version on objects and to their static version on classes, also for subclasses that leave them alone; append, find and findNext do not exist on primitive TLVs (AttributeError). The static findNext is not marked as static: in Python 2 it is an unbound method, which raises TypeError for arrays.",
  "all class hierarchies, subclasses and objects",
  "Ranges over all subclasses a user may write.",
  ["pythoncard/utils.py: NotAlwaysStatic","pythoncardx/framework/tlv/bertag.py","pythoncardx/framework/tlv/bertlv.py"])
p("C96","AID operations at negative offsets",
  "A negative offset -k is not refused. For a range of n cells that ends strictly before the end of the array (n < k <= array length), AID(array, -k, n), equals, partialEquals and getBytes work on the cells counted from the end. For a range that reaches or passes the end of an array with at least n cells, the constructor yields an AID without any byte, equals and partialEquals answer false even when those bytes agree, and getBytes inserts the AID's bytes in front of the last k cells, so that the destination grows by the AID's length. Only in the first case does the AID have the requested length and the destination keep its size.",
  "all arrays, AIDs, negative offsets and lengths",
  "All array sizes, offsets and lengths.",
  ["pythoncard/framework/aid.py: AID.__init__, equals, partialEquals, getBytes"])
p("C97","Other array arguments at every offset: indices wrap around",
  "For offsets of either sign, generateData, the three-argument getAvailableMemory, setInt, toBytes of a BigNumber, getKey of a DES key and the output of a message digest succeed exactly when every index they touch lies between minus the length of the array (included) and its length (excluded), and then store their bytes in order at the cells those indices name, where -k names the k-th cell from the end; otherwise generateData, getAvailableMemory and digests raise NameError, setInt IndexError, toBytes and getKey ArrayIndexOutOfBoundsException. getInt, update of a digest and init of a BigNumber read the cells the indices name, and fail exactly when one names no cell.",
  "all arrays, all offsets of either sign, all lengths, all random sources and hash functions",
  "All sizes and offsets, positive and negative.",
  ["pythoncard/security/random.py: generateData","pythoncard/framework/jcsystem.py: getAvailableMemory","pythoncardx/framework/util/intx.py: getInt, setInt","pythoncardx/framework/math.py: BigNumber.init, toBytes","pythoncard/security/secretkey.py: getKey","pythoncard/security/messagedigest.py: update, doFinal"])
p("C98","Ciphering with genuine RSA keys",
  "With the external library's operations taken to be RSA itself (raising to the public or private exponent modulo n = pq for two different primes, with e*d = 1 modulo p-1 and q-1), on Python 2: a PKCS#1 cipher of such a key encrypts every message of at most size/8 - 11 unsigned bytes, whose last byte is not zero and below the leading byte of the modulus, into at most size/8 bytes, and the decrypting cipher given that output buffer returns exactly the message. The repository's RSA applet with such a 1024-bit key does the same in every session.",
  "all RSA keys made from two primes, all messages, paddings, sessions",
  "Needs number theory over all primes and exponents.",
  ["pythoncardx/crypto/cipher.py: _PyCryptoRSACipher","test/AppletRSA2048.py","pythoncard/security/key.py: _arrayTolong, _longToArray"])
p("C99","Ciphers after any history of calls",
  "After any sequence of init calls (successful or not, with or without an initial vector), doFinal and update calls on a DES cipher: if no init has succeeded, update and doFinal raise INVALID_INIT. Otherwise doFinal uses the key bytes and initial vector of the last init that succeeded (eight zero bytes when it was called without one) and the mode of the last init that named an initialised key and a valid mode, even if that call then failed; earlier doFinal calls have no influence. It reads its input and writes its output at the cells its indices name, for offsets of either sign, and refuses when an index names no cell or the length is no multiple of 8 where no padding applies. init succeeds exactly for an initialised DES key with enough bytes, mode 1 or 2 and an initial vector of 8 cells. An RSA cipher after any history of init calls computes what a new cipher computes after a single init with the key of the last good call and the mode set last.",
  "all histories of calls, keys, modes, initial vectors, messages, offsets",
  "Unbounded histories of calls.",
  ["pythoncardx/crypto/cipher.py: Cipher.init, _pyDesDESCipher.init, doFinal, _PyCryptoRSACipher.init"])
p("C100","Exporting a public key and ciphering with the copy",
  "Python 2: after KeyPair(alg, size) and genKeyPair, the bytes getModulus and getExponent of the public key write into any arrays at any offsets, given in either order to setModulus and setExponent of a new public key of that size, make an initialised key with exactly the same modulus and public exponent, provided the modulus has size/8 bytes. What a PKCS#1 cipher encrypts with that copy the pair's private key decrypts (RSA being exponentiation modulo pq; messages as in C98). Python 3: the same calls all succeed but the copy has modulus n//16 and exponent e//16, so it is never the generated key. The private key's getModulus hands out the private exponent. A private key rebuilt from components is initialised and accepted by init, but doFinal on data of the right length raises AttributeError and writes nothing.",
  "all generated keys, sizes, arrays, offsets, messages, paddings and component histories",
  "Key generation is random and the library differs between Python versions; the copy must work for every key.",
  ["pythoncard/security/keypair.py:KeyPair.genKeyPair","pythoncard/security/publickey.py:PyCryptoRSAPublicKey","pythoncard/security/privatekey.py:PyCryptoRSAPrivateKey","pythoncardx/crypto/cipher.py:_PyCryptoRSACipher"])

p("C101","Pads of several bytes in pyDes",
  "pyDes accepts a pad of any number of bytes although it documents one. With pads of at most one byte nothing is different. A message that is not whole blocks gets as many copies of the pad as bytes are missing; if that is not whole blocks, the object's own pad is used in the same way once more, and if that is not either, IndexError (TypeError in Python 2 for CBC) is raised instead of the documented ValueError: with a pad of n bytes in the object and a message of s bytes, exactly when 8 does not divide s*(n-1)*(n-1), so always for even n; with a pad argument only, ValueError exactly when 8 does not divide s*(n-1). When encryption succeeds with a pad of two bytes or more the message never comes back: every decryption gives it followed by at least one more byte (with a pad argument only: all of the padding but its last eight bytes). Whole blocks are not padded, but decryption removes from the end of the last block all bytes that occur in the pad. The same holds for triple_des objects with any history, except that in CBC mode the second filling with a pad of several bytes is a ValueError.",
  "all keys, IVs, modes, pads, messages, Python versions and, for triple_des, all histories",
  "tests use one-byte pads and a few messages; the arithmetic of lengths is over all of them",
  ["pyDes/pyDes.py: _padData","pyDes/pyDes.py: _unpadData","pyDes/pyDes.py: des.crypt","pyDes/pyDes.py: triple_des.encrypt"])

p("C102","Negative length arguments",
  "No operation that takes a length checks that it is not negative except the constructor of AID (ValueError), BigNumber.toBytes (ArithmeticException) and setModulus (wrong length); the others accept length -k (k > 0). AID.equals compares the AID with the array without its first offset cells and its last k-offset cells (with the empty list if k <= offset), so an AID anywhere in an array is found there whatever stands around it; partialEquals compares the AID without its last k bytes in the same way. OwnerPIN.update with k <= maxPINSize sets a PIN of zero bytes, whatever PIN was given, resets the tries and counts as validated, after which the empty PIN is accepted; for larger k it raises IndexError without touching flag and counter. OwnerPIN.check with k <= maxPINSize compares with the PIN of zero bytes; for larger k it raises IndexError and costs no try, so the exception is free. A digest reads no data, a cipher encrypts the empty message, random generation leaves the buffer alone (length zero is refused), a BigNumber reads zero (length zero is refused). setExponent keeps the odd range. A TLV made with -k reports -k and a size smaller by k than its tag and length byte. setOutgoingLength(-k) is accepted in the outgoing phase, and the response then is the APDU's own list (the command, as long as nothing was sent) without its last k bytes; sendBytes with -k takes back k sent bytes and inserts cells of the buffer.",
  "all negative lengths, arrays, offsets >= 0 (for digests, random data, numbers and ciphers offsets of either sign), AIDs, PIN objects, tries, keys, TLVs, commands and histories of calls",
  "tests use lengths >= 0; what the slices and loops make of the negative ones ranges over all pairs of offset and length",
  ["pythoncard/framework/aid.py:AID.equals","pythoncard/framework/aid.py:AID.partialEquals","pythoncard/framework/ownerpin.py:OwnerPIN.update","pythoncard/framework/ownerpin.py:OwnerPIN.check","pythoncard/security/messagedigest.py","pythoncard/security/random.py:generateData","pythoncardx/framework/math.py: BigNumber","pythoncardx/crypto/cipher.py","pythoncard/security/publickey.py: setExponent","pythoncardx/framework/tlv/bertlv.py","pythoncard/framework/apdu.py:setOutgoingLength","pythoncard/framework/apdu.py:sendBytes"])

p("C103","Searches return soon or never",
  "For every constructed TLV, of any bytes of either sign, find (static or not) and findNext either give their answer after a number of children bounded by a constant times the number of value bytes (and the occurrence number asked for), or never return: there is no search that merely takes long. The occurrences that findNext counts need not be different children: a child of size 0 is counted again and again.",
  "all TLVs, tags, occurrence numbers and numbers of steps",
  "The claim is about all numbers of steps; a test that times out cannot tell a long search from an endless one.",
  ["pythoncardx/framework/tlv/bertlv.py: _find, _findBound, _findStatic, _findNextBound"])

p("C104","What TLV objects share",
  "In every program of calls on tags, TLVs and arrays, a TLV object changes only by init, append and replaceValue on it and by init on the tag object its getTag returns. It keeps copies of the tag, the array cells and the children it was given: changing any of those later, changing a TLV that find, findNext or getInstance returned, or encoding into an array, does not change it, nor the other way round. A tag object changes only by init on it, an array only where a call is told to write into it. Only getTag shares: it returns the object the TLV uses, so init on it changes the TLV's tag (with its length and value kept), and no other TLV.",
  "all programs (sequences of calls, succeeding or failing, on any number of tag objects, TLV objects and arrays) and all contents",
  "Aliasing shows only in particular interleavings of changes; a test tries a few of the unboundedly many programs.",
  ["pythoncardx/framework/tlv/bertlv.py: BERTLV.getInstance, getTag, ConstructedBERTLV.init, _appendBound, _findBound, _findNextBound, PrimitiveBERTLV.init, replaceValue, getValue, toBytes","pythoncardx/framework/tlv/bertag.py: PrimitiveBERTag.init, ConstructedBERTag.init, getInstance, toBytes"])


p("C105","Which exceptions a call can raise",
  "For every call in every history of an APDU or an OwnerPIN, with any arguments, the exception raised (or that there is none) is a function of what the caller can see: for the APDU its state, the data left to receive, the announced length and the bytes already sent; for the PIN its maximum size, the tries remaining and the arguments. Besides APDUException (ILLEGAL_USE, BUFFER_BOUNDS, BAD_LENGTH) an APDU raises only ISOException 6700 (setIncomingAndReceive), IndexError (receiveBytes outside the buffer) and AttributeError (sendBytesLong too early); a call that raises loses no command data. A check that raises IndexError costs no try; an update that raises PINException or ArrayIndexOutOfBounds changes nothing, one that raises IndexError may have replaced the PIN. Calls on tags and TLVs raise exactly the listed exceptions, each of which some program attains.",
  "all command byte strings, histories, calls and arguments; all PIN sizes and limits; all programs on tags, TLVs and arrays",
  "That no other exception escapes is a claim about all arguments and histories; a test shows only exceptions that do occur.",
  ["pythoncard/framework/apdu.py: setIncomingAndReceive, receiveBytes, setOutgoing, setOutgoingLength, sendBytes, sendBytesLong, setOutgoingAndSend","pythoncard/framework/ownerpin.py: check, update","pythoncardx/framework/tlv/bertag.py","pythoncardx/framework/tlv/bertlv.py"])

p("C106","What a DES cipher makes of any data, and every exception",
  "After any history of init and doFinal calls that leaves a DES cipher decrypting, doFinal on any whole number of blocks, whoever made them and under whatever key, returns a definite text and never an exception about it: there is exactly one text of the same length whose encryption without padding the blocks are, a NOPAD cipher returns it, and a PKCS5 cipher returns it without as many bytes as its last byte says (nothing when that byte is 0 or larger than the text). Padding is never checked, so neither a wrong key nor damaged data is reported. Every text is returned for some data. doFinal raises CryptoException INVALID_INIT exactly when no init of the history has succeeded, ValueError exactly when a readable input is not whole blocks although it has to be, and otherwise only ArrayIndexOutOfBoundsException. Whether init succeeds, and which exception it raises otherwise, depends only on its arguments, not on the history.",
  "all four DES algorithms, histories, keys, initialisation vectors, input and output arrays, offsets and lengths of either sign",
  "Tests decrypt what was encrypted; that arbitrary data is never refused, and that no further exception exists, is a claim about all data, keys and histories.",
  ["pythoncardx/crypto/cipher.py: _pyDesDESCipher.init, doFinal","pyDes/pyDes.py: _unpadData, des.decrypt, triple_des.decrypt"])

p("C107","What an RSA cipher makes of any data, and every exception",
  "After any history of init calls that has set an RSA key and a mode, doFinal at offsets of either sign refuses input cells that are not there (ArrayIndexOutOfBoundsException) and messages of the wrong length (ILLEGAL_VALUE), before it looks at the key and without writing. Otherwise the outcome is decided by the key object as it is now: AttributeError if it has no library key; else the library is given the number of the block (the message, or its PKCS#1 padding when encrypting with PKCS1), whose exception passes through; its result, as bytes with the least significant first and no zeros at the end (in Python 3 without its last hexadecimal digit), is unpadded when decrypting with PKCS1 (ILLEGAL_VALUE unless it begins with 0, 2, ValueError without a later zero) and stored at the output offset, or ArrayIndexOutOfBoundsException when there is no room. No other exception exists; INVALID_INIT is raised exactly before the first successful init.",
  "both RSA algorithms, all histories, keys, library behaviours, random bytes, arrays, and offsets and lengths of either sign",
  "Tests use one library and lucky data; the claim ranges over every behaviour of the library, all arguments and histories.",
  ["pythoncardx/crypto/cipher.py: _PyCryptoRSACipher.init, EME_PKCS1_v1_5_enc, EME_PKCS1_v1_5_dec, doFinal","pythoncard/security/key.py: _longToArray, _arrayTolong"])

p("C108","What keys, key pairs, ciphers, digests and arrays share",
  "In a program that makes any number of keys, key pairs, DES and RSA ciphers and message digests and calls them in any order on shared arrays: a call changes only the objects and the one array it names; key objects never disappear, change class, size or type, or lose their initialised state (clearKey included). Generating a pair made for an algorithm gives it two new initialised key objects and leaves the two it had uninitialised, after any program that did not set them or generate the pair; a pair one of whose keys is initialised is refused with ILLEGAL_VALUE for ever, a pair made of two keys is never generated. A DES cipher works with the key bytes, the initial vector and the mode as they were at its last successful init, whatever happens to the key object and the arrays afterwards: encryption and decryption in the midst of any program give DES of the cells, in place too, and what one cipher encrypts another with the same key bytes and initial vector decrypts after any program that spares the ciphertext and does not initialise it. An RSA cipher works with the key object as it is at the moment of doFinal: initialising it again with the same object changes nothing; the PKCS1 round trip holds across any program that does not initialise the decrypting cipher or set its key. A digest hashes exactly the bytes the cells held when update was called, since its last doFinal or reset. The getters of a key object give the bytes (in their signed spelling for DES) that its last setters read from the cells at that moment, and the numbers of a set library key, after any program that does not set that key; a call of a method its class does not have raises AttributeError and changes nothing.",
  "all programs of interleaved calls on any number of objects and arrays, all contents, offsets, key sizes and library behaviours",
  "Sharing bugs appear only for particular interleavings of calls on several objects; the claim ranges over all programs.",
  ["pythoncardx/crypto/cipher.py: _PyCryptoRSACipher.init, doFinal; _pyDesDESCipher.init, doFinal","pythoncard/security/secretkey.py: pyDesDESKey.setKey","pythoncard/security/keypair.py: KeyPair","pythoncard/security/messagedigest.py: _HashLibMessageDigest","pythoncard/security/random.py: generateData"])

p("C109","Signing with an RSA private key and verifying with the public key",
  "Encrypting (MODE_ENCRYPT) with the private key of a generated pair, which the project's tests use as signing, gives for every library, Python version, history, data and random bytes exactly what encrypting with the public key gives, so whoever holds the public key makes the same signature; without padding, verifying (MODE_DECRYPT with the public key) is again that operation. With RSA itself as the library (Python 2) a signed block of number x is verified as the block of x^(e*e) mod n, and with PKCS1 as the text in that block or ILLEGAL_VALUE / ValueError: every block is restored exactly when e*e is 1 modulo p-1 and q-1, never with a public exponent of at least 2 whose square is below p-1. Decrypting the signature with the private key restores every block.",
  "all key sizes, generated pairs, primes and exponents, libraries, cipher histories, data, random bytes",
  "The project's own test tries one key; the claim ranges over all keys and blocks and says when the round trip can work at all.",
  ["pythoncardx/crypto/cipher.py: _PyCryptoRSACipher.init, doFinal","pythoncard/security/keypair.py: KeyPair.genKeyPair","test/testCipher.py: testRSASignVerify"])

p("C110","Importing the library's modules in any order",
  "The modules import each other in circles (a package's __init__ imports its submodules, which import names from the package). With pyDes laid out as in the repository, in Python 3: after any sequence of import statements, failed ones included, every module can be imported; `from P import x, ...` succeeds exactly if each name is defined, imported or aliased in the file of P or is a submodule of P, and then gives the object that the text of the files leads to (one and the same always), else ImportError; the body of every module runs at most once, so there is one class object per class statement and isinstance tests agree across modules; a module that is there never changes; the order of the statements makes no difference to the modules present at the end. With no pyDes, or pyDes installed as its setup.py and PyPI do (one module pyDes): everything outside pythoncard.security and pythoncardx.crypto still imports at any time, and nothing in there ever does, except that key, publickey and privatekey import after a first failed attempt.",
  "all sequences of import statements (plain, from, of missing names and modules), all three layouts of pyDes, Python with and without the sys.modules fallback of `from` imports, PyCrypto there or not",
  "A test imports the modules in one order in one interpreter; circular imports break only for particular first imports and states of sys.modules.",
  ["pythoncard/framework/__init__.py","pythoncard/security/__init__.py","pythoncardx/crypto/__init__.py: import","pythoncardx/crypto/cipher.py: try: from pyDes import pyDes","pythoncard/security/secretkey.py: from pyDes import pyDes","pyDes/__init__.py","setup.py"])

p("C111","Global names read by the library's functions",
  "In every state of the interpreter that import statements can lead to, every module-level name that a function or method of the library reads is bound, to the object the text of the files leads to, except exactly eleven: aidOfset in aid.py, NullPointerException, ArrayIndexOutOfBoundsException and NegativeArraySizeException in jcsystem.py, ArrayIndexoutOfBoundsException in util.py, ArrayIndexOutOfBoundsException in messagedigest.py, keypair in privatekey.py, ArrayIndexOutOfBoundException in random.py, CryptoException in signature.py, chunk and startOff in bertlv.py; these are never bound, so code that reads them raises NameError.",
  "all sequences of import statements, all layouts of pyDes, every function of every module",
  "Whether a global is bound when a rarely taken branch reads it shows only when that branch runs; the claim ranges over all functions and all import orders.",
  ["pythoncard/framework/aid.py: AID.getPartialBytes","pythoncard/framework/jcsystem.py","pythoncard/framework/util.py: arrayCopyNonAtomic","pythoncard/security/messagedigest.py","pythoncard/security/privatekey.py","pythoncard/security/random.py","pythoncard/security/signature.py","pythoncardx/framework/tlv/bertlv.py"])

p("C112","Sizes, offsets and searches with TLVs of more than 127 bytes",
  "size() of a TLV is the length of its DER encoding exactly when it has at most 253 or 256 to 380 value bytes. For an encoded TLV with a one-byte tag and 128 to 255 value bytes (unsigned cells) getInstance reports the right tag and length and the value shifted by one byte; size(), getValueOffset and the static find of the first child are right up to 253 value bytes and one too large for 254 and 255; the static getLength is one too small for all. In a constructed TLV whose children have at most 253 value bytes each, find(tag) finishes and returns the first child with that tag, None when there is none; findNext(tag, aTLV, n) returns the first child with the tag after the n-th occurrence of aTLV, None when there are fewer or none follows (findNext(None, ...) the child right after it, ArrayIndexOutOfBoundsException when there is none), where two values of more than 127 bytes that differ in the last byte only count as the same.",
  "all tags, lengths of any size, values, arrays, offsets and sequences of children of any number",
  "All lengths and all sequences of children; the boundaries lie between values no test tries.",
  ["pythoncardx/framework/tlv/bertlv.py: getLengthLen, _getLength, BERTLV.getInstance, BERTLV.getLength, BERTLV.size, ConstructedBERTLV._find, ConstructedBERTLV.find, PrimitiveBERTLV.getValueOffset"])

p("C113","pyDes objects with every kind of argument",
  "For des and triple_des objects, with None, bytes or text for every string argument, pads of any length, any padding mode and any sequence of calls of all setters, getters, encrypt, decrypt and crypt: encrypt, decrypt, crypt and the getters leave no trace, whatever they raise; two objects of one class on which getKey, getMode, getPadding, getPadMode and getIV agree behave alike for ever (if no setKey stopped half way); whole blocks are enciphered and deciphered as FIPS 46-3 and the mode prescribe with the key and IV the getters show; text that can be used is as good as the bytes it stands for (getIV and getPadding may show the text) and text that cannot be used raises ValueError and changes nothing (setKey of triple_des apart); a key too short for des.setKey raises IndexError after it is stored: getKey shows it, everything else goes on with the old key; crypt with 0 enciphers, with 1 deciphers, with any other number deciphers every block by itself in every mode; constructors and decrypt raise nothing but ValueError, the other calls nothing but ValueError, AttributeError for crypt on triple_des, IndexError for a short key and IndexError (or TypeError on Python 2) when enciphering with a pad of more than one character. With bytes for arguments both classes are those of C101, for pads of any length, after any calls that set nothing.",
  "both classes, both Pythons, all arguments of type None, bytes or text, all sequences of calls",
  "The state of an object after any sequence of successful and failing calls with mixed kinds of arguments; tests use one object for one or two calls.",
  ["pyDes/pyDes.py: _baseDes, des, triple_des (all methods)"])

p("C114","Objects do not interfere, however calls are interleaved",
  "Take all objects of the library on one card: lists, APDUs, tags, TLVs, keys, key pairs, ciphers, digests, PINs, big numbers and AIDs. A call changes only the object it is made on where the method changes it, the list it stores into, the two lists of an APDU, the objects it makes and, when an APDU is made, the current APDU; everything else stays as it was. A call depends only on the objects it mentions and on those they hold (a TLV's tag, an APDU's lists, a pair's keys, an RSA cipher's key). So several programs that mention no common object see, under every schedule of their calls, the outcomes each would see alone, and the whole card at the end does not depend on the schedule. The one exception is the current APDU: only one of the programs may make APDUs or ask for the current one; two that do notice each other through getCLAChannel.",
  "all cards, calls with all arguments, all programs (the next call may depend on the outcomes so far), any number of programs and all schedules of them",
  "The number of interleavings is exponential and the programs are arbitrary.",
  ["pythoncard/framework/apdu.py: _current","pythoncardx/framework/tlv/bertlv.py: init","pythoncardx/crypto/cipher.py: init","pythoncard/security/keypair.py: KeyPair","pythoncard/framework/util.py","pythoncard/framework/ownerpin.py","pythoncardx/framework/math.py","pythoncard/framework/aid.py"])

p("C115","The object graph stays well-formed, and what is private stays private",
  "On the card any program leaves, the current APDU is an APDU, the two lists of an APDU are lists, the tag of a TLV is a tag object, the public key of a pair is an RSA public key and its private key an RSA private key, and the key of an RSA cipher is an RSA key; no object ever changes its kind. Two TLVs never share a tag object and two APDUs never share a buffer, and the buffer of an APDU is not the list it was made from; an APDU keeps its two lists for life. A call makes an object hold only objects the call itself made, except that an APDU keeps the list it is made from, a pair the two keys it is made from and an RSA cipher the key it is initialised with. A call that returns an object returns one it made or one that an object it was given holds.",
  "all programs of calls on all objects, starting from an empty card, of every length; for what is kept and returned, every call on every card",
  "aliasing bugs show only when two objects made at different times share a part and one is changed later; the claim is an invariant of all histories of calls",
  ["pythoncard/framework/apdu.py: APDU.__init__, getBuffer, getCurrentAPDU","pythoncardx/framework/tlv/bertlv.py: BERTLV.init, getTag","pythoncard/security/keypair.py: KeyPair.__init__, genKeyPair","pythoncardx/crypto/cipher.py: _PyCryptoRSACipher.init"])

p("C116","What is known about one object holds for it on a full card","Take any card with any objects and any program of calls on them. A PIN, a message digest, a BigNumber, an RSA key, a DES cipher or an RSA cipher is, after the program, in the state that the calls of the program on that object alone would have put it in, each taken with the contents its list arguments and its key had at the moment of the call; the next call on it answers, and writes, what that history says. Calls on other objects, on the same lists or on the same keys in between make no other difference. So on every card: the remaining tries of a PIN lie between 0 and the limit; a blocked PIN stays blocked, and no check is told it was right, in every program that does not update, unblock or forcibly validate that PIN; and a DES cipher whose init returned encrypts or decrypts under the key and initial vector as they were at that call, even if the key object or the list was overwritten since.","all cards, all programs (any number of objects, calls and aliased lists), all arguments","the number of interleavings of calls on several objects, and of sharing of lists and keys between them, is unbounded; a test fixes one",["pythoncard/framework/ownerpin.py: OwnerPIN","pythoncardx/crypto/cipher.py: _PyCryptoDESCipher, _PyCryptoRSACipher","pythoncard/security/messagedigest.py: MessageDigest","pythoncard/security/publickey.py","pythoncard/security/privatekey.py","pythoncard/security/secretkey.py","pythoncardx/framework/math.py: BigNumber"])

p("C117", "Lists keep their length and APDUs their place on a card",
  "In a program that makes any number of objects of the package and calls their methods in any order, a list keeps its length under every call other than `AID.getBytes` at a negative offset and the calls on an APDU made from that very list; and an APDU is, at every moment, in the state its own calls have put it in, with the contents its buffer was given in between: what the program does with the other objects (other APDUs included) matters only as far as it stores into the APDU's own two lists. Hence command data are still received in order, block after block of 128 bytes, and the response list starts with exactly the bytes sent, in order, when any calls on other objects lie in between, including calls that overwrite the buffer or the lists the bytes were sent from.",
  "all cards, all programs of calls on any objects that leave the list the APDU was made from alone, all commands with data, all offsets that fit, all lists sent from",
  "An applet interleaves calls on the APDU with calls on all its other objects, and the buffer is an ordinary list any of them can write to; the programs cannot be enumerated.",
  ["pythoncard/framework/apdu.py: APDU, receiveBytes, sendBytes, sendBytesLong, getBuffer","pythoncard/framework/aid.py: AID.getBytes"])

p("C118","Calls store only into the cells they name","In a program over any objects of the package, a call that stores into a list of the caller (array copies and fills, setShort, setInt, random data, getAvailableMemory, toBytes of tags, TLVs and numbers, key and AID export, doFinal of ciphers and digests, receives into an APDU buffer) changes only the cells from the offset it was given on, as many as its length argument, or the number it returned, says; every other cell of that list, and every cell of every other list, keeps what it holds, also when the call raises half way. (Exception: toBytes of a tag or TLV, and the static TLV append, put every cell of the list that is above 127 into the signed form of the same byte.) So a cell that no call of a program names holds the same byte after the program as before.","all cards, all programs, all arguments (offsets of either sign, negative and too large lengths), whether calls succeed or raise","an overrun by one cell shows only with particular lengths, contents and neighbours, and after particular histories",["pythoncard/framework/util.py: arrayCopy, arrayFillNonAtomic, setShort","pythoncardx/framework/util/intx.py","pythoncardx/framework/tlv/bertag.py: toBytes, sanitycheck","pythoncardx/framework/tlv/bertlv.py: toBytes, append, getValue","pythoncard/security/secretkey.py: getKey","pythoncardx/crypto/cipher.py: doFinal","pythoncard/security/messagedigest.py: doFinal","pythoncard/framework/apdu.py: receiveBytes"])

p("C119", "What was written out can be read back later",
  "On a card, a value that a call wrote into a list at a non-negative offset is still there for the matching reading call later, whatever calls the program makes in between, as long as none of them names the cells written: a short (setShort, getShort), an int without high bits in its low bytes (setInt, getInt), an AID (getBytes; equals and a new AID, which is equal to the first), a tag and a short TLV (toBytes, getInstance), the contents of a DES key (getKey, setKey on a key of the same size), the components of an RSA key (getModulus and getExponent, setModulus and setExponent on any RSA key; both together give the public key again), a big number in either format (toBytes, init, after which the numbers compare equal), and a range copied to another list (arrayCopy or arrayCopyNonAtomic; arrayCompare gives 0). For AIDs, TLV values, RSA components and copies, whose cells may be above 127, the calls in between must also write out no tags and TLVs, or the cells be at most 127: such a call puts the whole list into signed form, and an RSA modulus read from signed cells is another number.",
  "every card, every program in between of any length on any objects, every offset, length and value",
  "a test runs one program between the two calls; the claim is about all programs",
  ["pythoncard/framework/util.py: setShort, getShort, arrayCopy, arrayCompare", "pythoncardx/framework/util/intx.py: setInt, getInt", "pythoncard/framework/aid.py: getBytes, equals, AID", "pythoncardx/framework/tlv/bertag.py: toBytes, getInstance", "pythoncardx/framework/tlv/bertlv.py: toBytes, getInstance", "pythoncard/security/secretkey.py: getKey, setKey", "pythoncard/security/publickey.py", "pythoncard/security/privatekey.py", "pythoncardx/framework/math.py: toBytes, init"])

p("C120", "The objects of a card live by their own calls (AIDs, tags, TLVs, DES keys, key pairs, lists)",
  "On a card, whatever a program does with other objects and however the lists it passed change afterwards: an AID answers equals, partialEquals, getBytes, getPartialBytes, RIDEquals and == for ever with the bytes its list held when it was made; a tag is in the state its own init calls put it in, each with the contents of its list at that moment, also when a TLV holds that tag; a TLV has the length, value and tag object its own init, append and replaceValue calls gave it (append takes the other TLV as it is at that moment), and size, getTag, getValue, toBytes, find, findNext and the next changing call answer from these and the present state of its tag object; a DES key holds the bytes of the last setKey, type and size of DES and RSA keys never change and clearKey does nothing; getPublic and getPrivate of a pair return the same two key objects until a genKeyPair on it succeeds, then the two new ones; numbers compare as their values. What a constructor or getInstance makes depends on its arguments only. A cell of a list is read from the front and from the back as it was written in the list literal, assigned, or filled, until a call names it; reading or assigning outside the list is an IndexError.",
  "every card, every program of any length on any objects, every object of these kinds, every list contents and index",
  "the claims are about all programs; a test can only run some, on some objects",
  ["pythoncard/framework/aid.py", "pythoncardx/framework/tlv/bertag.py", "pythoncardx/framework/tlv/bertlv.py", "pythoncard/security/secretkey.py", "pythoncard/security/keypair.py", "pythoncard/security/keybuilder.py", "pythoncardx/framework/math.py: compareTo", "pythoncard/framework/util.py: arrayCompare, arrayFillNonAtomic"])

p("C121","An attacker finds out nothing about a PIN but what the tries allow",
  "Whoever may make any calls on a PIN object except update, resetAndUnblock and setValidatedFlag(True), any number of them, choosing each after the answers to those before, gets exactly the same answers, none of them an acceptance, whatever PIN was set from a string - with the exception of at most as many PINs as the try limit. So among any set of different PINs of one length such an attacker succeeds against at most that many. PINs set from arrays are not protected like this: on a new object with maximum size at least 2n-1, a PIN of n bytes is accepted when only its first byte is presented, so a try limit of ten is enough to find every PIN of digits, whatever its length.",
  "all adaptive strategies, numbers of calls, try limits, maximum sizes, PIN lengths, earlier histories and sets of PINs",
  "a test plays a few fixed sequences against a few PINs; the claim compares all PINs under all adaptive strategies",
  ["pythoncard/framework/ownerpin.py: OwnerPIN.check, OwnerPIN.update, OwnerPIN.reset"])

p("C122","The exceptions of every call on a card",
  "On the card any program leaves, a call on objects of the right kinds - with any other arguments - raises only the exceptions a fixed table lists for that call (and, for doFinal of an RSA cipher, whatever the RSA library raises); and each exception the table lists for a call is raised by that call, with some arguments, on the card some program leaves. So it is settled for every call of the library whether it can raise a built-in Python exception (IndexError, NameError, AttributeError, TypeError, ValueError, KeyError, UnboundLocalError, NotImplementedError) an applet written for Java Card does not catch: the calls of a second list never do, all others can",
  "all programs (any calls in any order on any objects, whatever they raised), all calls and their arguments, with and without the RSA library, both number formats",
  "a test sees the exceptions of the calls it makes; that no history of calls leads to another one, and that each listed one is reachable, quantifies over all programs",
  ["pythoncard/framework/apdu.py: APDU","pythoncard/framework/util.py: Util","pythoncard/framework/ownerpin.py: OwnerPIN","pythoncard/framework/aid.py: AID","pythoncard/security/keypair.py: KeyPair","pythoncard/security/keybuilder.py: KeyBuilder","pythoncardx/crypto/cipher.py: Cipher","pythoncardx/framework/tlv/bertlv.py: BERTLV","pythoncardx/framework/tlv/bertag.py: BERTag","pythoncardx/framework/math.py: BigNumber"])

p("C123","Nothing a program can do on the card tells more about a PIN than the tries allow",
"After a PIN has been set from a string, an attacker may take over the whole card: any number of calls on any objects - lists, APDUs, tags, TLVs, keys, ciphers, digests, numbers, AIDs, other PINs and this one - with any arguments, each chosen after everything seen so far, except update, resetAndUnblock and setValidatedFlag(True) on this PIN. All outcomes are then the same, and no presentation is accepted, whatever the PIN is, except for at most as many PINs as the try limit. In particular no call that is not made on the PIN object can see what it holds.",
"all cards, all programs before the PIN is set, all adaptive attackers using every call of the card model, any number of calls, all try limits, sizes and sets of PINs",
"the attacker's calls may depend on all outcomes so far and may use any object; a test can try a few attacks",
["pythoncard/framework/ownerpin.py:OwnerPIN.check","pythoncard/framework/ownerpin.py:OwnerPIN.update","pythoncard/framework/ownerpin.py:OwnerPIN.reset"])

p("C124","Tags and TLVs on a card can be asked about, as objects and inside arrays",
"On a card where everything is shared by reference: if a tag can be read at an offset of an array, size, isConstructed, tagClass and tagNumber answer the same asked of the tag object just read and asked statically of the array, and if not, getInstance and the last three raise ArrayIndexOutOfBoundsException and size raises IndexError; a tag object answers from its own init calls and a TLV object's getLength from its own calls, whatever happens to the arrays they came from; the static toBytes does what a new tag object initialised with the same numbers does; after a tag or a TLV was written into an array and any calls that keep off its cells, the static questions answer its class, number and flag (and a size that is right for one octet only), getLength and getValueOffset find its extent and its value, and the static find returns the first TLV inside, or the first with a given tag, or -1. The static findNext never returns an offset.",
"all cards, all arrays, offsets, tags, short TLVs with any contents, all programs in between that keep off the cells",
"arrays are shared between objects and with every other call; a test tries a few layouts",
["pythoncardx/framework/tlv/bertag.py:BERTag.size","pythoncardx/framework/tlv/bertag.py:BERTag.toBytes","pythoncardx/framework/tlv/bertag.py:BERTag.tagClass","pythoncardx/framework/tlv/bertlv.py:BERTLV.getLength","pythoncardx/framework/tlv/bertlv.py:ConstructedBERTLV.find","pythoncardx/framework/tlv/bertlv.py:PrimitiveBERTLV.getValueOffset"])

p("C125", "RSA sessions on a card: what the public key of a generated pair encrypts, the private one decrypts, whatever programs run in between",
  "After genKeyPair() returned, let any program run that does not set or clear the two generated keys, and whose last init() on an RSA cipher object names the public key and MODE_ENCRYPT. doFinal() on that cipher writes a ciphertext of at most size/8 bytes; and after any further program, doFinal() on another RSA cipher whose last init(), before or after the encryption, named the private key and MODE_DECRYPT, gives the message back from whatever array then holds the ciphertext completed with zeros to size/8 bytes (in particular the cells it was written to, if they held zeros and no call in between names them): with PKCS1 padding messages of 1 to size/8-11 bytes not ending in zero, without padding blocks of size/8 bytes below the modulus, which come back without the zeros at their end (a block of zeros as one zero). Python 2, a library whose two operations invert each other for the key, which textbook RSA does for every true RSA key. And on either Python, with any library, a cipher last initialised with the private key for encryption (\"signing\") does exactly what one of the same algorithm last initialised with the public key for encryption does, and, without padding, for decryption (\"verifying\"). Under Python 3 decrypting a correctly padded block always raises CryptoException(ILLEGAL_VALUE) and writes nothing.",
  "Every card state before the generation, every generated key whose library operations invert each other, every program before the encryption and between encryption and decryption (other ciphers, other pairs, refused calls, reinitialisations, overwritten arrays), every message, offset, array and random stream in range.",
  "The programs, keys and messages are unbounded; a test runs one session.",
  ["pythoncard/security/keypair.py: KeyPair.genKeyPair", "pythoncardx/crypto/cipher.py: _PyCryptoRSACipher.init, doFinal", "pythoncard/security/publickey.py: setTheKey", "pythoncard/security/privatekey.py: setTheKey"])

p("C126", "DES sessions on a card: what one cipher encrypts another decrypts, whatever programs run in between",
  "A DES cipher object (ALG_DES_CBC_NOPAD, CBC_PKCS5, ECB_NOPAD, ECB_PKCS5; single or triple DES by the key) that an init() for encryption prepared encrypts, after any program that does not initialise it again, and writes as many bytes as the message has (with PKCS5 the next multiple of 8). After any further program an init() for decryption on a cipher object of the same algorithm - another or the same one - with a key object that then holds the same bytes and an initial vector of the same bytes, then any program that does not initialise that cipher again: doFinal() writes exactly the message from whatever array then holds the ciphertext. In particular from the cells it was written to, if no call in between names them. The bytes of a key object are the same after every program without setKey() on it.",
  "Every card, the two cipher objects, four programs (before, between init and doFinal, between the two sessions, between the second init and doFinal), every key, vector, message and offset (negative ones included) in range.",
  "The programs, messages and keys are unbounded; a test runs one session.",
  ["pythoncardx/crypto/cipher.py: _pyDesDESCipher.init, doFinal", "pythoncard/security/secretkey.py: pyDesDESKey", "pyDes/pyDes.py: des, triple_des"])

p("C127", "A whole exchange on a card: command in, any work on the buffer, answer out; DES services",
  "An APDU is made from a list that holds a short command with 1 to 128 bytes of data. After any calls that store into none of the APDU, its buffer and that list, setIncomingAndReceive() returns the number of data bytes, which are then at offset 5 of the buffer. Whatever calls on other objects follow, including calls that overwrite the buffer, setOutgoingAndSend(o, l) of a range within the buffer and the expected length puts exactly what the range then holds at the front of the command's list and changes nothing behind it. So an applet that calls doFinal() of a DES cipher on the data where it lies in the APDU buffer and sends the result answers the encryption (decryption) of the command data under the key and initial vector the cipher was initialised with, whatever happened to the key object and the list since and whatever the card does between the four calls. An applet that has a message digest hash the data where it lies and sends the result answers the hash of the command data. An applet that encrypts the data with a PKCS1 RSA cipher under the public key of a generated pair answers a ciphertext that a cipher initialised with the private key decrypts to the command data, after any further program. And for every short command, with or without data: after any program that leaves the command's list alone, as long as the APDU answers a state before STATE_OUTGOING, setOutgoingAndSend() puts exactly the range of the buffer at the front of the command's list, and the state is then STATE_FULL_OUTGOING.",
  "All cards, all short commands with 1 to 128 data bytes (for the answer: all short commands), all keys, vectors and the four DES algorithms, all hash functions with a digest of at most 252 bytes, all RSA operations that invert each other for the generated key, all programs before and between the calls that leave the APDU, its two lists and (for init) the cipher alone.",
  "The programs that run in between, the command and the key are unbounded; a test runs one exchange.",
  ["pythoncard/framework/apdu.py: APDU.setIncomingAndReceive, setOutgoingAndSend", "pythoncardx/crypto/cipher.py: _pyDesDESCipher.init, doFinal", "pyDes/pyDes.py: des, triple_des"])

p("C128", "AIDs and tags under Python's own comparisons, as list elements and as dictionary keys; unset numbers under Python 2",
  "Two AIDs are == exactly when their bytes are the same, two tags when class, constructedness and number are (whatever their sizes); comparing with None raises AttributeError. Under Python 3 != is the contrary of ==; under Python 2 two objects are != exactly when they are not one object, so equal AIDs are == and != at once. x in l, l.index(x), l.count(x) and l.remove(x) go by ==: the first equal object is found and removed, which need not be x, and a None before it raises AttributeError. Under Python 3 no AID or tag can be a dictionary key or a member of a set (TypeError). Under Python 2 a dictionary goes by identity: after any history of storing, deleting and changing objects, d[x] is what was last stored under the object x itself, and an equal object is not found. A BigNumber that was never initialised raises TypeError when compared or written under Python 3; under Python 2 it is less than every number and is written as zeros; initialised ones behave the same under both.",
  "All objects, contents and lists; all histories of dictionary operations and of changes to the objects, all hash functions that give different objects different values (addresses); all numbers, buffers, offsets and lengths.",
  "Lists, histories and contents are unbounded, and the two Python versions disagree silently.",
  ["pythoncard/framework/aid.py: AID.__eq__", "pythoncardx/framework/tlv/bertag.py: BERTag.__eq__", "pythoncardx/framework/math.py: BigNumber.compareTo, toBytes"])

p("C129", "OwnerPIN with Python 2 unicode text: never confused with the str of the same characters",
  "A PIN given as text that is no str (Python 2 unicode, a list of characters) is stored as characters. As long as the arguments of a history keep text and numbers apart (no character whose code is also given as a number, and no NUL), every call is answered as when each character's code were given in an array. After an accepted update with text of any length above 0, no str and no array of numbers is accepted until the next update, not even the str of the same characters, and the object is not validated; while every PIN was set with str or numbers, no text of any length above 0 is accepted. On a new object a PIN of n characters set as text accepts those texts of n characters that agree in the first character and in those after position maxPINSize - n; so of a PIN of at most (maxPINSize + 1)/2 characters only the first counts. Each refusal that answers False costs a try, and every presentation of the other kind, of at most maxPINSize characters inside its argument, is answered False while tries are left, so as many as there are tries left block the PIN.",
  "All limits and sizes (negative included), all histories of calls before and between, all texts, arguments, offsets and lengths.",
  "The confusion shows only for pairs of argument types under one Python version, after any history; tests use one type.",
  ["pythoncard/framework/ownerpin.py: OwnerPIN.check, update, reset, resetAndUnblock, setValidatedFlag"])

here = os.path.dirname(os.path.abspath(__file__))
with open(os.path.join(here, '..', 'properties.jsonl'), 'w') as f:
    for x in P: f.write(json.dumps(x, ensure_ascii=False)+"\n")
print(len(P))
