import Verif.Conformance.Crypto
import Verif.Conformance.Framework
import Verif.Conformance.PyDes
import Verif.Lemmas.APDU
import Verif.Lemmas.APDUEnc
import Verif.Lemmas.APDUHist
import Verif.Lemmas.APDURecv
import Verif.Lemmas.Arrays
import Verif.Lemmas.BigNum
import Verif.Lemmas.Bits
import Verif.Lemmas.Copy
import Verif.Lemmas.DES
import Verif.Lemmas.DESAlg
import Verif.Lemmas.DESFull
import Verif.Lemmas.DESModes
import Verif.Lemmas.Imports
import Verif.Lemmas.ImportsCheck1
import Verif.Lemmas.ImportsCheck2
import Verif.Lemmas.ImportsCheck3
import Verif.Lemmas.ImportsCheck4
import Verif.Lemmas.ImportsCheck5
import Verif.Lemmas.ImportsCheck6
import Verif.Lemmas.ImportsGood
import Verif.Lemmas.ImportsSession
import Verif.Lemmas.ImportsTable
import Verif.Lemmas.Key
import Verif.Lemmas.Lists
import Verif.Lemmas.Pin
import Verif.Lemmas.Signed
import Verif.Lemmas.TLV
import Verif.Lemmas.Tag
import Verif.Model.AID
import Verif.Model.APDU
import Verif.Model.APDUWorld
import Verif.Model.Applets
import Verif.Model.BERTLV
import Verif.Model.BERTag
import Verif.Model.BigNumber
import Verif.Model.Card
import Verif.Model.Cipher
import Verif.Model.CrtKey
import Verif.Model.CryptoWorld
import Verif.Model.DES
import Verif.Model.DESFull
import Verif.Model.DESPads
import Verif.Model.DESSetters
import Verif.Model.DESText
import Verif.Model.Digest
import Verif.Model.Dispatch
import Verif.Model.Dispatcher
import Verif.Model.Exceptions
import Verif.Model.Imports
import Verif.Model.JCSystem
import Verif.Model.JCint
import Verif.Model.Key
import Verif.Model.KeyPairs
import Verif.Model.Memory
import Verif.Model.Objects
import Verif.Model.OwnerPIN
import Verif.Model.PINText
import Verif.Model.TLVWorld
import Verif.Model.Util
import Verif.Model.Utils
import Verif.Props.AID
import Verif.Props.AIDNeg
import Verif.Props.APDUErr
import Verif.Props.APDUParse
import Verif.Props.APDURecv
import Verif.Props.APDURun
import Verif.Props.APDUSend
import Verif.Props.APDUWorld
import Verif.Props.Applets
import Verif.Props.Arrays
import Verif.Props.ArraysWrap
import Verif.Props.BigNumber
import Verif.Props.BigNumberHist
import Verif.Props.BigNumberTotal
import Verif.Props.Card
import Verif.Props.CardAPDU
import Verif.Props.CardAttack
import Verif.Props.CardCells
import Verif.Props.CardDES
import Verif.Props.CardErr
import Verif.Props.CardErr2
import Verif.Props.CardExport
import Verif.Props.CardGraph
import Verif.Props.CardHistory
import Verif.Props.CardHistory2
import Verif.Props.CardHistory3
import Verif.Props.CardHistory4
import Verif.Props.CardHistory5
import Verif.Props.CardLists
import Verif.Props.CardRSA
import Verif.Props.CardResponse
import Verif.Props.CardService
import Verif.Props.CardSession
import Verif.Props.CardStatic
import Verif.Props.Cipher
import Verif.Props.CipherAny
import Verif.Props.CipherHist
import Verif.Props.CrtKey
import Verif.Props.CryptoGen
import Verif.Props.CryptoKeys
import Verif.Props.CryptoWorld
import Verif.Props.DES
import Verif.Props.DESAlg
import Verif.Props.DESCipher
import Verif.Props.DESFull
import Verif.Props.DESFullPads
import Verif.Props.DESPads
import Verif.Props.DESPads3
import Verif.Props.DESSetters
import Verif.Props.DESText
import Verif.Props.Digest
import Verif.Props.Dispatch
import Verif.Props.Dispatcher
import Verif.Props.Exceptions
import Verif.Props.Exchange
import Verif.Props.Imports
import Verif.Props.Ints
import Verif.Props.KeyExport
import Verif.Props.KeyPairs
import Verif.Props.Keys
import Verif.Props.LongTLV
import Verif.Props.LongTLV2
import Verif.Props.Memory
import Verif.Props.NegLengths
import Verif.Props.Objects
import Verif.Props.OffsetsWrap
import Verif.Props.PIN
import Verif.Props.PINAttack
import Verif.Props.PINCells
import Verif.Props.PINErr
import Verif.Props.PINMixed
import Verif.Props.PINText
import Verif.Props.RSA
import Verif.Props.RSAAny
import Verif.Props.SignVerify
import Verif.Props.TLV
import Verif.Props.TLV2
import Verif.Props.TLVErr
import Verif.Props.TLVLoops
import Verif.Props.TLVTree
import Verif.Props.TLVWorld
import Verif.Props.Tag
import Verif.Props.TagInit
import Verif.Props.TextbookRSA
import Verif.Props.TripleDES
import Verif.Props.WitnessAPDU
import Verif.Props.WitnessBase
import Verif.Props.WitnessCipher
import Verif.Props.WitnessDES
import Verif.Props.WitnessRSA
import Verif.Props.WitnessTLV
import Verif.Py.Core
import Verif.Spec.BER
import Verif.Spec.Basic
import Verif.Spec.Card
import Verif.Spec.Cells
import Verif.Spec.DES
import Verif.Spec.ISO7816
import Verif.Spec.Numbers
import Verif.Spec.Raises
