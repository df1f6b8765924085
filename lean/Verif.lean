import Verif.Lemmas.Addresses
import Verif.Lemmas.Base58
import Verif.Lemmas.Bch
import Verif.Lemmas.BchCash
import Verif.Lemmas.BchPoly
import Verif.Lemmas.Bech32
import Verif.Lemmas.BechTable
import Verif.Lemmas.Blake
import Verif.Lemmas.Blake2
import Verif.Lemmas.Builder
import Verif.Lemmas.Bytes
import Verif.Lemmas.CashTable
import Verif.Lemmas.Cashaddr
import Verif.Lemmas.Convertbits
import Verif.Lemmas.Decred
import Verif.Lemmas.DecredSig
import Verif.Lemmas.DecredSig2
import Verif.Lemmas.FourErrors
import Verif.Lemmas.HashLen
import Verif.Lemmas.Interp
import Verif.Lemmas.Ints
import Verif.Lemmas.LinCode
import Verif.Lemmas.Overwinter
import Verif.Lemmas.ParseAny
import Verif.Lemmas.ParseZcash
import Verif.Lemmas.ParseZcash2
import Verif.Lemmas.Polymod
import Verif.Lemmas.Reread
import Verif.Lemmas.Sapling
import Verif.Lemmas.Sapling2
import Verif.Lemmas.Script
import Verif.Lemmas.Sighash
import Verif.Lemmas.Sighash2
import Verif.Lemmas.Sighash3
import Verif.Lemmas.Sighash4
import Verif.Lemmas.Sprout
import Verif.Lemmas.Sprout2
import Verif.Lemmas.Standard
import Verif.Lemmas.Truncate
import Verif.Lemmas.Tx
import Verif.Lemmas.TxParse
import Verif.Lemmas.TxParse2
import Verif.Lemmas.TxParse3
import Verif.Lemmas.TxSelf
import Verif.Lemmas.VarInt
import Verif.Lemmas.WireZcash
import Verif.Lemmas.Zcash
import Verif.Lemmas.ZcashSig
import Verif.Lemmas.ZcashSig2
import Verif.Lemmas.ZcashTx
import Verif.Model.Addresses
import Verif.Model.Alias
import Verif.Model.Base58
import Verif.Model.Bech32
import Verif.Model.Blake256
import Verif.Model.Builder
import Verif.Model.ByteData
import Verif.Model.Cashaddr
import Verif.Model.Decred
import Verif.Model.Dyn
import Verif.Model.DynAddr
import Verif.Model.DynApi
import Verif.Model.DynBech
import Verif.Model.DynBuilder
import Verif.Model.DynChange
import Verif.Model.DynCopy
import Verif.Model.DynDecred
import Verif.Model.DynEmbed
import Verif.Model.DynNet
import Verif.Model.DynParse
import Verif.Model.DynSighash
import Verif.Model.DynSighash2
import Verif.Model.DynUtils
import Verif.Model.DynZSighash
import Verif.Model.DynZcash
import Verif.Model.ExampleScripts
import Verif.Model.Examples
import Verif.Model.Networks
import Verif.Model.Opcodes
import Verif.Model.Overwinter
import Verif.Model.Sapling
import Verif.Model.Script
import Verif.Model.Shared
import Verif.Model.Sighash
import Verif.Model.Sprout
import Verif.Model.Standard
import Verif.Model.Tx
import Verif.Model.Utils
import Verif.Model.Zcash
import Verif.Props.AddrStrings
import Verif.Props.Addresses
import Verif.Props.Addresses2
import Verif.Props.Alias
import Verif.Props.AliasZcash
import Verif.Props.Base58
import Verif.Props.Base58b
import Verif.Props.Bch
import Verif.Props.Bech32
import Verif.Props.Blake
import Verif.Props.BlakeText
import Verif.Props.Builder
import Verif.Props.Builder2
import Verif.Props.Builder3
import Verif.Props.Builder4
import Verif.Props.Bursts
import Verif.Props.ByteData
import Verif.Props.ByteData2
import Verif.Props.Cashaddr
import Verif.Props.Cashaddr2
import Verif.Props.Copy
import Verif.Props.Decred
import Verif.Props.DecredDefaults
import Verif.Props.Dyn
import Verif.Props.DynAddr
import Verif.Props.DynAddr2
import Verif.Props.DynAttrs
import Verif.Props.DynBech
import Verif.Props.DynBuilder
import Verif.Props.DynBuilder2
import Verif.Props.DynBuilder3
import Verif.Props.DynBuilder4
import Verif.Props.DynChange
import Verif.Props.DynCopy
import Verif.Props.DynCopy2
import Verif.Props.DynDcrSighash
import Verif.Props.DynDcrTx
import Verif.Props.DynFreeze
import Verif.Props.DynGood
import Verif.Props.DynGoodApi
import Verif.Props.DynNet
import Verif.Props.DynNumbers
import Verif.Props.DynParse
import Verif.Props.DynParse2
import Verif.Props.DynParseMade
import Verif.Props.DynRaises
import Verif.Props.DynRaises2
import Verif.Props.DynSafe
import Verif.Props.DynSend
import Verif.Props.DynSession
import Verif.Props.DynSessionSighash
import Verif.Props.DynSighash
import Verif.Props.DynSigner
import Verif.Props.DynSproutSighash
import Verif.Props.DynTwin
import Verif.Props.DynTx
import Verif.Props.DynTyped
import Verif.Props.DynUtils
import Verif.Props.DynZ
import Verif.Props.DynZSafe
import Verif.Props.DynZSighash
import Verif.Props.DynZTwin
import Verif.Props.DynZTx
import Verif.Props.DynZTx2
import Verif.Props.DynZTx3
import Verif.Props.DynZTyped
import Verif.Props.ExampleScripts
import Verif.Props.ExampleScripts2
import Verif.Props.Examples
import Verif.Props.FromScript
import Verif.Props.Insertions
import Verif.Props.Interp
import Verif.Props.Ints
import Verif.Props.Letters
import Verif.Props.Networks
import Verif.Props.Networks2
import Verif.Props.ParseAny
import Verif.Props.ParseHash
import Verif.Props.ParseZcash
import Verif.Props.Regroup
import Verif.Props.Reread
import Verif.Props.Script
import Verif.Props.ScriptText
import Verif.Props.Sighash
import Verif.Props.Sighash2
import Verif.Props.Spend
import Verif.Props.SpendDecred
import Verif.Props.SpendOpen
import Verif.Props.SpendSingle
import Verif.Props.SpendZcash
import Verif.Props.Standard
import Verif.Props.Tx
import Verif.Props.TxIn2
import Verif.Props.VarInt
import Verif.Props.VarInt2
import Verif.Props.WireTx
import Verif.Props.WireZcash
import Verif.Props.Workflow
import Verif.Props.Zcash
import Verif.Props.ZcashSig
import Verif.Props.ZcashTx
import Verif.Props.ZcashTx2
import Verif.Py
import Verif.Spec.Address
import Verif.Spec.Base58
import Verif.Spec.Bch
import Verif.Spec.Bits
import Verif.Spec.Blake
import Verif.Spec.CompactSize
import Verif.Spec.Decred
import Verif.Spec.Hash
import Verif.Spec.Interp
import Verif.Spec.Ints
import Verif.Spec.Letters
import Verif.Spec.PyLiteral
import Verif.Spec.Raises
import Verif.Spec.Script
import Verif.Spec.ScriptText
import Verif.Spec.Segwit
import Verif.Spec.Sighash
import Verif.Spec.SpendDecred
import Verif.Spec.SpendTx
import Verif.Spec.SpendZcash
import Verif.Spec.Standard
import Verif.Spec.Wire
import Verif.Spec.WireTx
import Verif.Spec.Zcash
import Verif.Vectors.Basic
import Verif.Vectors.Builder
import Verif.Vectors.Decred
import Verif.Vectors.Encoding
import Verif.Vectors.Sapling
import Verif.Vectors.Script
import Verif.Vectors.Sprout
import Verif.Vectors.Tx
import Verif.Vectors.Utils
