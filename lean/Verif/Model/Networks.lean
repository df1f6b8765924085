import Verif.Py

/-!
# Networks

`riemann/networks/networks.py`, `riemann/networks/__init__.py`, `riemann/__init__.py`.
The class attributes of every network are transcribed. `P2PK_PREFIX` (Decred) is unused by the code and left out.
-/

namespace Verif

/-- Which module a class attribute `SEGWIT_ENCODER` holds (networks/networks.py:20, e.g. 528). -/
inductive SegwitEncoder where
  | bech32
  | base58
  deriving DecidableEq, Repr

/-- networks/networks.py:5-30, class `Network`, with its default attribute values. `LEGACY_ENCODER` (base58) and
`CASHADDR_ENCODER` (cashaddr) are the same for all networks and not stored. The two OVERWRITE dicts are both
computed from `OPCODE_CHANGES` (see `codeToIntOverwrite`, `intToCodeOverwrite`). -/
structure Network where
  symbol : PyStr
  networkName : PyStr
  subnetName : PyStr
  p2pkhPrefix : Bytes := [0x00]
  p2shPrefix : Bytes := [0x05]
  segwit : Bool := false
  p2wshPrefix : Bytes := [0x00, 0x20]
  p2wpkhPrefix : Bytes := [0x00, 0x14]
  bech32Hrp : Option PyStr := none
  segwitEncoder : SegwitEncoder := .bech32
  segwitTxFlag : Bytes := [0x00, 0x01]
  forkid : Option Nat := none
  opcodeChanges : List (PyStr × UInt8) := []
  cashaddrPrefix : Option PyStr := none
  cashaddrP2sh : Option Bytes := none
  cashaddrP2pkh : Option Bytes := none
  deriving DecidableEq, Repr

/-- networks/networks.py:29, 332: `CODE_TO_INT_OVERWRITE = dict(o for o in OPCODE_CHANGES)`, as a lookup
(the last entry with a key wins, as in `dict`). -/
def Network.codeToIntOverwrite (n : Network) (token : PyStr) : Option UInt8 :=
  n.opcodeChanges.reverse.lookup token

/-- networks/networks.py:30, 333: `INT_TO_CODE_OVERWRITE = dict((o[1], o[0]) for o in OPCODE_CHANGES)`. -/
def Network.intToCodeOverwrite (n : Network) (b : UInt8) : Option PyStr :=
  (n.opcodeChanges.map fun o => (o.2, o.1)).reverse.lookup b

/-- networks/networks.py:33-42. -/
def bitcoinMain : Network := {
  symbol := pystr "BTC",
  networkName := pystr "bitcoin",
  subnetName := pystr "main",
  p2pkhPrefix := [0x00],
  p2shPrefix := [0x05],
  segwit := true,
  p2wshPrefix := [0x00, 0x20],
  p2wpkhPrefix := [0x00, 0x14],
  bech32Hrp := some (pystr "bc") }

/-- networks/networks.py:45-54. -/
def bitcoinTest : Network := {
  symbol := pystr "tBTC",
  networkName := pystr "bitcoin",
  subnetName := pystr "test",
  p2pkhPrefix := [0x6f],
  p2shPrefix := [0xc4],
  segwit := true,
  bech32Hrp := some (pystr "tb"),
  p2wshPrefix := [0x00, 0x20],
  p2wpkhPrefix := [0x00, 0x14] }

/-- networks/networks.py:57-66. -/
def bitcoinRegtest : Network := {
  symbol := pystr "rBTC",
  networkName := pystr "bitcoin",
  subnetName := pystr "reg",
  p2pkhPrefix := [0x6f],
  p2shPrefix := [0xc4],
  segwit := true,
  p2wshPrefix := [0x00, 0x20],
  p2wpkhPrefix := [0x00, 0x14],
  bech32Hrp := some (pystr "bcrt") }

/-- networks/networks.py:69-78. -/
def litecoinMain : Network := {
  symbol := pystr "LTC",
  networkName := pystr "litecoin",
  subnetName := pystr "main",
  p2pkhPrefix := [0x30],
  p2shPrefix := [0x32],
  segwit := true,
  p2wshPrefix := [0x00, 0x20],
  p2wpkhPrefix := [0x00, 0x14],
  bech32Hrp := some (pystr "ltc") }

/-- networks/networks.py:81-90. -/
def litecoinTest : Network := {
  symbol := pystr "tLTC",
  networkName := pystr "litecoin",
  subnetName := pystr "test",
  p2pkhPrefix := [0x6f],
  p2shPrefix := [0x3a],
  segwit := true,
  p2wshPrefix := [0x00, 0x20],
  p2wpkhPrefix := [0x00, 0x14],
  bech32Hrp := some (pystr "tltc") }

/-- networks/networks.py:93-102. -/
def litecoinRegtest : Network := {
  symbol := pystr "rLTC",
  networkName := pystr "litecoin",
  subnetName := pystr "reg",
  p2pkhPrefix := [0x6f],
  p2shPrefix := [0x3a],
  segwit := true,
  p2wshPrefix := [0x00, 0x20],
  p2wpkhPrefix := [0x00, 0x14],
  bech32Hrp := some (pystr "tltc") }

/-- networks/networks.py:105-115. -/
def bitcoinCashMain : Network := {
  symbol := pystr "BCH",
  networkName := pystr "bitcoin_cash",
  subnetName := pystr "main",
  p2pkhPrefix := [0x00],
  p2shPrefix := [0x05],
  segwit := false,
  forkid := some 0,
  cashaddrPrefix := some (pystr "bitcoincash"),
  cashaddrP2sh := some [0x08],
  cashaddrP2pkh := some [0x00] }

/-- networks/networks.py:118-128. -/
def bitcoinCashTest : Network := {
  symbol := pystr "tBCH",
  networkName := pystr "bitcoin_cash",
  subnetName := pystr "test",
  p2pkhPrefix := [0x6f],
  p2shPrefix := [0xc4],
  segwit := false,
  forkid := some 0,
  cashaddrPrefix := some (pystr "bchtest"),
  cashaddrP2sh := some [0x08],
  cashaddrP2pkh := some [0x00] }

/-- networks/networks.py:131-141. -/
def bitcoinCashRegtest : Network := {
  symbol := pystr "rBCH",
  networkName := pystr "bitcoin_cash",
  subnetName := pystr "reg",
  p2pkhPrefix := [0x6f],
  p2shPrefix := [0xc4],
  segwit := false,
  forkid := some 0,
  cashaddrPrefix := some (pystr "bchtest"),
  cashaddrP2sh := some [0x08],
  cashaddrP2pkh := some [0x00] }

/-- networks/networks.py:144-154. -/
def bitcoinGoldMain : Network := {
  symbol := pystr "BTG",
  networkName := pystr "bitcoin_gold",
  subnetName := pystr "main",
  p2pkhPrefix := [0x26],
  p2shPrefix := [0x17],
  segwit := true,
  p2wshPrefix := [0x00, 0x20],
  p2wpkhPrefix := [0x00, 0x14],
  bech32Hrp := some (pystr "btg"),
  forkid := some 79 }

/-- networks/networks.py:157-167. -/
def bitcoinGoldTest : Network := {
  symbol := pystr "tBTG",
  networkName := pystr "bitcoin_gold",
  subnetName := pystr "test",
  p2pkhPrefix := [0x6f],
  p2shPrefix := [0xc4],
  segwit := true,
  p2wshPrefix := [0x00, 0x20],
  p2wpkhPrefix := [0x00, 0x14],
  bech32Hrp := some (pystr "tbtg"),
  forkid := some 79 }

/-- networks/networks.py:170-180. -/
def bitcoinGoldRegtest : Network := {
  symbol := pystr "rBTG",
  networkName := pystr "bitcoin_gold",
  subnetName := pystr "reg",
  p2pkhPrefix := [0x6f],
  p2shPrefix := [0xc4],
  segwit := true,
  p2wshPrefix := [0x00, 0x20],
  p2wpkhPrefix := [0x00, 0x14],
  bech32Hrp := some (pystr "tbtg"),
  forkid := some 79 }

/-- networks/networks.py:183-189. -/
def dogecoinMain : Network := {
  symbol := pystr "DOGE",
  networkName := pystr "dogecoin",
  subnetName := pystr "main",
  p2pkhPrefix := [0x1e],
  p2shPrefix := [0x16],
  segwit := false }

/-- networks/networks.py:192-198. -/
def dogecoinTest : Network := {
  symbol := pystr "tDOGE",
  networkName := pystr "dogecoin",
  subnetName := pystr "test",
  p2pkhPrefix := [0x71],
  p2shPrefix := [0xc4],
  segwit := false }

/-- networks/networks.py:201-209. -/
def dogecoinRegtest : Network := {
  symbol := pystr "rDOGE",
  networkName := pystr "dogecoin",
  subnetName := pystr "reg",
  p2pkhPrefix := [0x71],
  p2shPrefix := [0xc4],
  segwit := false }

/-- networks/networks.py:212-218. -/
def dashMain : Network := {
  symbol := pystr "DASH",
  networkName := pystr "dash",
  subnetName := pystr "main",
  p2pkhPrefix := [0x4c],
  p2shPrefix := [0x10],
  segwit := false }

/-- networks/networks.py:221-227. -/
def dashTest : Network := {
  symbol := pystr "tDASH",
  networkName := pystr "dash",
  subnetName := pystr "test",
  p2pkhPrefix := [0x8c],
  p2shPrefix := [0x13],
  segwit := false }

/-- networks/networks.py:230-236. -/
def dashRegtest : Network := {
  symbol := pystr "rDASH",
  networkName := pystr "dash",
  subnetName := pystr "reg",
  p2pkhPrefix := [0x8c],
  p2shPrefix := [0x13],
  segwit := false }

/-- networks/networks.py:239-245. -/
def zcashSproutMain : Network := {
  symbol := pystr "ZEC",
  networkName := pystr "zcash_sprout",
  subnetName := pystr "main",
  p2pkhPrefix := [0x1c, 0xb8],
  p2shPrefix := [0x1c, 0xbd],
  segwit := false }

/-- networks/networks.py:248-254. -/
def zcashSproutTest : Network := {
  symbol := pystr "tZEC",
  networkName := pystr "zcash_sprout",
  subnetName := pystr "test",
  p2pkhPrefix := [0x1d, 0x25],
  p2shPrefix := [0x1c, 0xba],
  segwit := false }

/-- networks/networks.py:257-263. -/
def zcashSproutRegtest : Network := {
  symbol := pystr "rZEC",
  networkName := pystr "zcash_sprout",
  subnetName := pystr "reg",
  p2pkhPrefix := [0x1d, 0x25],
  p2shPrefix := [0x1c, 0xba],
  segwit := false }

/-- networks/networks.py:266-272. -/
def zcashOverwinterMain : Network := {
  symbol := pystr "ZEC",
  networkName := pystr "zcash_overwinter",
  subnetName := pystr "main",
  p2pkhPrefix := [0x1c, 0xb8],
  p2shPrefix := [0x1c, 0xbd],
  segwit := false }

/-- networks/networks.py:275-281. -/
def zcashOverwinterTest : Network := {
  symbol := pystr "tZEC",
  networkName := pystr "zcash_overwinter",
  subnetName := pystr "test",
  p2pkhPrefix := [0x1d, 0x25],
  p2shPrefix := [0x1c, 0xba],
  segwit := false }

/-- networks/networks.py:284-290. -/
def zcashOverwinterRegtest : Network := {
  symbol := pystr "rZEC",
  networkName := pystr "zcash_overwinter",
  subnetName := pystr "reg",
  p2pkhPrefix := [0x1d, 0x25],
  p2shPrefix := [0x1c, 0xba],
  segwit := false }

/-- networks/networks.py:293-299. -/
def zcashSaplingMain : Network := {
  symbol := pystr "ZEC",
  networkName := pystr "zcash_sapling",
  subnetName := pystr "main",
  p2pkhPrefix := [0x1c, 0xb8],
  p2shPrefix := [0x1c, 0xbd],
  segwit := false }

/-- networks/networks.py:302-308. -/
def zcashSaplingTest : Network := {
  symbol := pystr "tZEC",
  networkName := pystr "zcash_sapling",
  subnetName := pystr "test",
  p2pkhPrefix := [0x1d, 0x25],
  p2shPrefix := [0x1c, 0xba],
  segwit := false }

/-- networks/networks.py:311-317. -/
def zcashSaplingRegtest : Network := {
  symbol := pystr "rZEC",
  networkName := pystr "zcash_sapling",
  subnetName := pystr "reg",
  p2pkhPrefix := [0x1d, 0x25],
  p2shPrefix := [0x1c, 0xba],
  segwit := false }

/-- networks/networks.py:320-333. -/
def decredMain : Network := {
  symbol := pystr "DCR",
  networkName := pystr "decred",
  subnetName := pystr "main",
  p2pkhPrefix := [0x07, 0x3f],
  p2shPrefix := [0x07, 0x1a],
  segwit := false,
  opcodeChanges := [(pystr "OP_BLAKE256", 168), (pystr "OP_SHA256", 192)] }

/-- networks/networks.py:336-349. -/
def decredTest : Network := {
  symbol := pystr "DCRT",
  networkName := pystr "decred",
  subnetName := pystr "test",
  p2pkhPrefix := [0x0f, 0x21],
  p2shPrefix := [0x0e, 0xfc],
  segwit := false,
  opcodeChanges := [(pystr "OP_BLAKE256", 168), (pystr "OP_SHA256", 192)] }

/-- networks/networks.py:352-364. -/
def decredSimnet : Network := {
  symbol := pystr "DCRS",
  networkName := pystr "decred",
  subnetName := pystr "simnet",
  p2pkhPrefix := [0x28, 0xf7],
  p2shPrefix := [0x0e, 0xfc],
  segwit := false,
  opcodeChanges := [(pystr "OP_BLAKE256", 168), (pystr "OP_SHA256", 192)] }

/-- networks/networks.py:367-373. -/
def pivxMain : Network := {
  symbol := pystr "PIVX",
  networkName := pystr "pivx",
  subnetName := pystr "main",
  p2pkhPrefix := [0x1e],
  p2shPrefix := [0x0d],
  segwit := false }

/-- networks/networks.py:376-382. -/
def pivxTest : Network := {
  symbol := pystr "tPIVX",
  networkName := pystr "pivx",
  subnetName := pystr "test",
  p2pkhPrefix := [0x8b],
  p2shPrefix := [0x13],
  segwit := false }

/-- networks/networks.py:385-391. -/
def pivxRegtest : Network := {
  symbol := pystr "rPIVX",
  networkName := pystr "pivx",
  subnetName := pystr "reg",
  p2pkhPrefix := [0x8b],
  p2shPrefix := [0x13],
  segwit := false }

/-- networks/networks.py:394-403. -/
def viacoinMain : Network := {
  symbol := pystr "VIA",
  networkName := pystr "viacoin",
  subnetName := pystr "main",
  p2pkhPrefix := [0x47],
  p2shPrefix := [0x21],
  segwit := true,
  p2wshPrefix := [0x00, 0x20],
  p2wpkhPrefix := [0x00, 0x14],
  bech32Hrp := some (pystr "via") }

/-- networks/networks.py:406-415. -/
def viacoinTest : Network := {
  symbol := pystr "tVIA",
  networkName := pystr "viacoin",
  subnetName := pystr "test",
  p2pkhPrefix := [0x7f],
  p2shPrefix := [0xc4],
  segwit := true,
  p2wshPrefix := [0x00, 0x20],
  p2wpkhPrefix := [0x00, 0x14],
  bech32Hrp := some (pystr "tvia") }

/-- networks/networks.py:418-427. -/
def viacoinSimnet : Network := {
  symbol := pystr "sVIA",
  networkName := pystr "viacoin",
  subnetName := pystr "simnet",
  p2pkhPrefix := [0x6f],
  p2shPrefix := [0xc4],
  segwit := true,
  p2wshPrefix := [0x00, 0x20],
  p2wpkhPrefix := [0x00, 0x14],
  bech32Hrp := some (pystr "svia") }

/-- networks/networks.py:430-439. -/
def feathercoinMain : Network := {
  symbol := pystr "FTC",
  networkName := pystr "feathercoin",
  subnetName := pystr "main",
  p2pkhPrefix := [0x0e],
  p2shPrefix := [0x60],
  segwit := true,
  p2wshPrefix := [0x00, 0x20],
  p2wpkhPrefix := [0x00, 0x14],
  bech32Hrp := some (pystr "fc") }

/-- networks/networks.py:442-451. -/
def feathercoinTest : Network := {
  symbol := pystr "tFTC",
  networkName := pystr "feathercoin",
  subnetName := pystr "test",
  p2pkhPrefix := [0x6f],
  p2shPrefix := [0xc4],
  segwit := true,
  p2wshPrefix := [0x00, 0x20],
  p2wpkhPrefix := [0x00, 0x14],
  bech32Hrp := some (pystr "tf") }

/-- networks/networks.py:454-463. -/
def feathercoinRegtest : Network := {
  symbol := pystr "rFTC",
  networkName := pystr "feathercoin",
  subnetName := pystr "reg",
  p2pkhPrefix := [0x6f],
  p2shPrefix := [0xc4],
  segwit := true,
  p2wshPrefix := [0x00, 0x20],
  p2wpkhPrefix := [0x00, 0x14],
  bech32Hrp := some (pystr "fcrt") }

/-- networks/networks.py:466-472. -/
def bitcoinDarkMain : Network := {
  symbol := pystr "BTCD",
  networkName := pystr "bitcoin_dark",
  subnetName := pystr "main",
  p2pkhPrefix := [0x3c],
  p2shPrefix := [0x55],
  segwit := false }

/-- networks/networks.py:475-481. -/
def bitcoinDarkTest : Network := {
  symbol := pystr "tBTCD",
  networkName := pystr "bitcoin_dark",
  subnetName := pystr "test",
  p2pkhPrefix := [0x6f],
  p2shPrefix := [0xc4],
  segwit := false }

/-- networks/networks.py:484-491. -/
def bitcoinDarkRegtest : Network := {
  symbol := pystr "rBTCD",
  networkName := pystr "bitcoin_dark",
  subnetName := pystr "reg",
  p2pkhPrefix := [0x6f],
  p2shPrefix := [0xc4],
  segwit := false }

/-- networks/networks.py:494-500. -/
def axeMain : Network := {
  symbol := pystr "AXE",
  networkName := pystr "axe",
  subnetName := pystr "main",
  p2pkhPrefix := [0x37],
  p2shPrefix := [0x10],
  segwit := false }

/-- networks/networks.py:503-509. -/
def axeTest : Network := {
  symbol := pystr "tAXE",
  networkName := pystr "axe",
  subnetName := pystr "test",
  p2pkhPrefix := [0x8c],
  p2shPrefix := [0x13],
  segwit := false }

/-- networks/networks.py:512-518. -/
def axeRegtest : Network := {
  symbol := pystr "rAXE",
  networkName := pystr "axe",
  subnetName := pystr "reg",
  p2pkhPrefix := [0x8c],
  p2shPrefix := [0x13],
  segwit := false }

/-- networks/networks.py:521-530. -/
def bitcoreMain : Network := {
  symbol := pystr "BTX",
  networkName := pystr "bitcore",
  subnetName := pystr "main",
  p2pkhPrefix := [0x00],
  p2shPrefix := [0x32],
  segwit := true,
  segwitEncoder := .base58,
  p2wshPrefix := [0x00, 0x20],
  p2wpkhPrefix := [0x00, 0x14] }

/-- networks/networks.py:533-542. -/
def bitcoreTest : Network := {
  symbol := pystr "tBTX",
  networkName := pystr "bitcore",
  subnetName := pystr "test",
  p2pkhPrefix := [0x6f],
  p2shPrefix := [0x3a],
  segwit := true,
  segwitEncoder := .base58,
  p2wshPrefix := [0x00, 0x20],
  p2wpkhPrefix := [0x00, 0x14] }

/-- networks/networks.py:545-554. -/
def bitcoreRegtest : Network := {
  symbol := pystr "rBTX",
  networkName := pystr "bitcore",
  subnetName := pystr "reg",
  p2pkhPrefix := [0x6f],
  p2shPrefix := [0x3a],
  segwit := true,
  segwitEncoder := .base58,
  p2wshPrefix := [0x00, 0x20],
  p2wpkhPrefix := [0x00, 0x14] }

/-- networks/networks.py:557-566. -/
def digibyteMain : Network := {
  symbol := pystr "DGB",
  networkName := pystr "digibyte",
  subnetName := pystr "main",
  p2pkhPrefix := [0x1e],
  p2shPrefix := [0x3f],
  segwit := true,
  p2wshPrefix := [0x00, 0x20],
  p2wpkhPrefix := [0x00, 0x14],
  bech32Hrp := some (pystr "dgb") }

/-- networks/networks.py:569-578. -/
def digibyteTest : Network := {
  symbol := pystr "tDGB",
  networkName := pystr "digibyte",
  subnetName := pystr "test",
  p2pkhPrefix := [0x7e],
  p2shPrefix := [0x8c],
  segwit := true,
  p2wshPrefix := [0x00, 0x20],
  p2wpkhPrefix := [0x00, 0x14],
  bech32Hrp := some (pystr "dgbt") }

/-- networks/networks.py:581-590. -/
def digibyteRegtest : Network := {
  symbol := pystr "rDGB",
  networkName := pystr "digibyte",
  subnetName := pystr "reg",
  p2pkhPrefix := [0x7e],
  p2shPrefix := [0x8c],
  segwit := true,
  p2wshPrefix := [0x00, 0x20],
  p2wpkhPrefix := [0x00, 0x14],
  bech32Hrp := some (pystr "dgbrt") }

/-- networks/networks.py:593-603. -/
def groestlcoinMain : Network := {
  symbol := pystr "GRS",
  networkName := pystr "groestlcoin",
  subnetName := pystr "main",
  p2pkhPrefix := [0x24],
  p2shPrefix := [0x05],
  segwit := true,
  segwitEncoder := .base58,
  p2wshPrefix := [0x00, 0x20],
  p2wpkhPrefix := [0x00, 0x14],
  bech32Hrp := some (pystr "grs") }

/-- networks/networks.py:607-617. -/
def groestlcoinTest : Network := {
  symbol := pystr "tGRS",
  networkName := pystr "groestlcoin",
  subnetName := pystr "test",
  p2pkhPrefix := [0x6f],
  p2shPrefix := [0xc4],
  segwit := true,
  segwitEncoder := .base58,
  p2wshPrefix := [0x00, 0x20],
  p2wpkhPrefix := [0x00, 0x14],
  bech32Hrp := some (pystr "tgrs") }

/-- networks/networks.py:620-630. -/
def groestlcoinRegtest : Network := {
  symbol := pystr "rGRS",
  networkName := pystr "groestlcoin",
  subnetName := pystr "reg",
  p2pkhPrefix := [0x6f],
  p2shPrefix := [0xc4],
  segwit := true,
  segwitEncoder := .base58,
  p2wshPrefix := [0x00, 0x20],
  p2wpkhPrefix := [0x00, 0x14],
  bech32Hrp := some (pystr "grsrt") }

/-- networks/networks.py:633-642. -/
def monacoinMain : Network := {
  symbol := pystr "MONA",
  networkName := pystr "monacoin",
  subnetName := pystr "main",
  p2pkhPrefix := [0x32],
  p2shPrefix := [0x37],
  segwit := true,
  segwitEncoder := .base58,
  p2wshPrefix := [0x00, 0x20],
  p2wpkhPrefix := [0x00, 0x14] }

/-- networks/networks.py:647-656. -/
def monacoinTest : Network := {
  symbol := pystr "tMONA",
  networkName := pystr "monacoin",
  subnetName := pystr "test",
  p2pkhPrefix := [0x6f],
  p2shPrefix := [0xc4],
  segwit := true,
  segwitEncoder := .base58,
  p2wshPrefix := [0x00, 0x20],
  p2wpkhPrefix := [0x00, 0x14] }

/-- networks/networks.py:660-669. -/
def monacoinRegtest : Network := {
  symbol := pystr "rMONA",
  networkName := pystr "monacoin",
  subnetName := pystr "reg",
  p2pkhPrefix := [0x6f],
  p2shPrefix := [0xc4],
  segwit := true,
  segwitEncoder := .base58,
  p2wshPrefix := [0x00, 0x20],
  p2wpkhPrefix := [0x00, 0x14] }

/-- networks/networks.py:673-682. -/
def navcoinMain : Network := {
  symbol := pystr "NAV",
  networkName := pystr "navcoin",
  subnetName := pystr "main",
  p2pkhPrefix := [0x35],
  p2shPrefix := [0x55],
  segwit := true,
  segwitEncoder := .base58,
  p2wshPrefix := [0x00, 0x20],
  p2wpkhPrefix := [0x00, 0x14] }

/-- networks/networks.py:686-695. -/
def navcoinTest : Network := {
  symbol := pystr "tNAV",
  networkName := pystr "navcoin",
  subnetName := pystr "test",
  p2pkhPrefix := [0x36],
  p2shPrefix := [0x56],
  segwit := true,
  segwitEncoder := .base58,
  p2wshPrefix := [0x00, 0x20],
  p2wpkhPrefix := [0x00, 0x14] }

/-- networks/networks.py:698-708. -/
def navcoinRegtest : Network := {
  symbol := pystr "rNAV",
  networkName := pystr "navcoin",
  subnetName := pystr "reg",
  p2pkhPrefix := [0x14],
  p2shPrefix := [0x60],
  segwit := true,
  segwitEncoder := .base58,
  p2wshPrefix := [0x00, 0x20],
  p2wpkhPrefix := [0x00, 0x14] }

/-- networks/networks.py:711-720. -/
def syscoinMain : Network := {
  symbol := pystr "SYS",
  networkName := pystr "syscoin",
  subnetName := pystr "main",
  p2pkhPrefix := [0x3f],
  p2shPrefix := [0x05],
  segwit := true,
  segwitEncoder := .base58,
  p2wshPrefix := [0x00, 0x20],
  p2wpkhPrefix := [0x00, 0x14] }

/-- networks/networks.py:723-732. -/
def syscoinTest : Network := {
  symbol := pystr "tSYS",
  networkName := pystr "syscoin",
  subnetName := pystr "test",
  p2pkhPrefix := [0x41],
  p2shPrefix := [0xc4],
  segwit := true,
  segwitEncoder := .base58,
  p2wshPrefix := [0x00, 0x20],
  p2wpkhPrefix := [0x00, 0x14] }

/-- networks/networks.py:735-744. -/
def syscoinRegtest : Network := {
  symbol := pystr "rSYS",
  networkName := pystr "syscoin",
  subnetName := pystr "reg",
  p2pkhPrefix := [0x41],
  p2shPrefix := [0xc4],
  segwit := true,
  segwitEncoder := .base58,
  p2wshPrefix := [0x00, 0x20],
  p2wpkhPrefix := [0x00, 0x14] }

/-- networks/networks.py:747-756. -/
def vertcoinMain : Network := {
  symbol := pystr "VTC",
  networkName := pystr "vertcoin",
  subnetName := pystr "main",
  p2pkhPrefix := [0x47],
  p2shPrefix := [0x05],
  segwit := true,
  p2wshPrefix := [0x00, 0x20],
  p2wpkhPrefix := [0x00, 0x14],
  bech32Hrp := some (pystr "vtc") }

/-- networks/networks.py:759-768. -/
def vertcoinTest : Network := {
  symbol := pystr "tVTC",
  networkName := pystr "vertcoin",
  subnetName := pystr "test",
  p2pkhPrefix := [0x4a],
  p2shPrefix := [0xc4],
  segwit := true,
  p2wshPrefix := [0x00, 0x20],
  p2wpkhPrefix := [0x00, 0x14],
  bech32Hrp := some (pystr "tvtc") }

/-- networks/networks.py:771-780. -/
def vertcoinRegtest : Network := {
  symbol := pystr "rVTC",
  networkName := pystr "vertcoin",
  subnetName := pystr "reg",
  p2pkhPrefix := [0x6f],
  p2shPrefix := [0xc4],
  segwit := true,
  p2wshPrefix := [0x00, 0x20],
  p2wpkhPrefix := [0x00, 0x14],
  bech32Hrp := some (pystr "bcrt") }

/-- networks/networks.py:783-792. -/
def bitcoinPrivateMain : Network := {
  symbol := pystr "BCTP",
  networkName := pystr "bitcoin_private",
  subnetName := pystr "main",
  p2pkhPrefix := [0x13, 0x25],
  p2shPrefix := [0x13, 0xaf],
  segwit := false,
  forkid := some 42 }

/-- networks/networks.py:795-802. -/
def bitcoinPrivateTest : Network := {
  symbol := pystr "tBTCP",
  networkName := pystr "bitcoin_private",
  subnetName := pystr "test",
  p2pkhPrefix := [0x19, 0x57],
  p2shPrefix := [0x19, 0xe0],
  segwit := false,
  forkid := some 42 }

/-- networks/networks.py:805-812. -/
def bitcoinPrivateRegtest : Network := {
  symbol := pystr "rBCTP",
  networkName := pystr "bitcoin_private",
  subnetName := pystr "reg",
  p2pkhPrefix := [0x19, 0x57],
  p2shPrefix := [0x19, 0xe0],
  segwit := false,
  forkid := some 42 }

/-- networks/networks.py:815-821. -/
def vergeMain : Network := {
  symbol := pystr "XVG",
  networkName := pystr "verge",
  subnetName := pystr "main",
  p2pkhPrefix := [0x1e],
  p2shPrefix := [0x21],
  segwit := false }

/-- networks/networks.py:824-830. -/
def vergeTest : Network := {
  symbol := pystr "tXVG",
  networkName := pystr "verge",
  subnetName := pystr "test",
  p2pkhPrefix := [0x73],
  p2shPrefix := [0xc6],
  segwit := false }

/-- networks/networks.py:833-841. -/
def vergeRegtest : Network := {
  symbol := pystr "rXVG",
  networkName := pystr "verge",
  subnetName := pystr "reg",
  p2pkhPrefix := [0x73],
  p2shPrefix := [0xc6],
  segwit := false }

/-- networks/__init__.py:10-83, the dict `SUPPORTED` (keys are distinct), in source order. -/
def supported : List (PyStr × Network) :=
  [(pystr "bitcoin_main", bitcoinMain),
   (pystr "bitcoin_test", bitcoinTest),
   (pystr "bitcoin_reg", bitcoinRegtest),
   (pystr "litecoin_main", litecoinMain),
   (pystr "litecoin_test", litecoinTest),
   (pystr "litecoin_reg", litecoinRegtest),
   (pystr "bitcoin_cash_main", bitcoinCashMain),
   (pystr "bitcoin_cash_test", bitcoinCashTest),
   (pystr "bitcoin_cash_reg", bitcoinCashRegtest),
   (pystr "bitcoin_gold_main", bitcoinGoldMain),
   (pystr "bitcoin_gold_test", bitcoinGoldTest),
   (pystr "bitcoin_gold_reg", bitcoinGoldRegtest),
   (pystr "dogecoin_main", dogecoinMain),
   (pystr "dogecoin_test", dogecoinTest),
   (pystr "dogecoin_reg", dogecoinRegtest),
   (pystr "dash_main", dashMain),
   (pystr "dash_test", dashTest),
   (pystr "dash_reg", dashRegtest),
   (pystr "zcash_sprout_main", zcashSproutMain),
   (pystr "zcash_sprout_test", zcashSproutTest),
   (pystr "zcash_sprout_reg", zcashSproutRegtest),
   (pystr "zcash_overwinter_main", zcashOverwinterMain),
   (pystr "zcash_overwinter_test", zcashOverwinterTest),
   (pystr "zcash_overwinter_reg", zcashOverwinterRegtest),
   (pystr "zcash_sapling_main", zcashSaplingMain),
   (pystr "zcash_sapling_test", zcashSaplingTest),
   (pystr "zcash_sapling_reg", zcashSaplingRegtest),
   (pystr "decred_main", decredMain),
   (pystr "decred_test", decredTest),
   (pystr "decred_simnet", decredSimnet),
   (pystr "pivx_main", pivxMain),
   (pystr "pivx_test", pivxTest),
   (pystr "pivx_reg", pivxRegtest),
   (pystr "viacoin_main", viacoinMain),
   (pystr "viacoin_test", viacoinTest),
   (pystr "viacoin_simnet", viacoinSimnet),
   (pystr "feathercoin_main", feathercoinMain),
   (pystr "feathercoin_test", feathercoinTest),
   (pystr "feathercoin_reg", feathercoinRegtest),
   (pystr "bitcoin_dark_main", bitcoinDarkMain),
   (pystr "bitcoin_dark_test", bitcoinDarkTest),
   (pystr "bitcoin_dark_reg", bitcoinDarkRegtest),
   (pystr "axe_main", axeMain),
   (pystr "axe_test", axeTest),
   (pystr "axe_reg", axeRegtest),
   (pystr "bitcore_main", bitcoreMain),
   (pystr "bitcore_test", bitcoreTest),
   (pystr "bitcore_reg", bitcoreRegtest),
   (pystr "digibyte_main", digibyteMain),
   (pystr "digibyte_test", digibyteTest),
   (pystr "digibyte_reg", digibyteRegtest),
   (pystr "groestlcoin_main", groestlcoinMain),
   (pystr "groestlcoin_test", groestlcoinTest),
   (pystr "groestlcoin_reg", groestlcoinRegtest),
   (pystr "monacoin_main", monacoinMain),
   (pystr "monacoin_test", monacoinTest),
   (pystr "monacoin_reg", monacoinRegtest),
   (pystr "navcoin_main", navcoinMain),
   (pystr "navcoin_test", navcoinTest),
   (pystr "navcoin_reg", navcoinRegtest),
   (pystr "syscoin_main", syscoinMain),
   (pystr "syscoin_test", syscoinTest),
   (pystr "syscoin_reg", syscoinRegtest),
   (pystr "vertcoin_main", vertcoinMain),
   (pystr "vertcoin_test", vertcoinTest),
   (pystr "vertcoin_reg", vertcoinRegtest),
   (pystr "bitcoin_private_main", bitcoinPrivateMain),
   (pystr "bitcoin_private_test", bitcoinPrivateTest),
   (pystr "bitcoin_private_reg", bitcoinPrivateRegtest),
   (pystr "verge_main", vergeMain),
   (pystr "verge_test", vergeTest),
   (pystr "verge_reg", vergeRegtest)]

/-- networks/__init__.py:86-93, `get_network`. -/
def getNetwork (name : PyStr) : Py Network :=
  match supported.lookup name with
  | none => .error .valueError
  | some n => .ok n

/-- riemann/__init__.py:25-27, `get_current_network_name`, as a function of the current network. -/
def Network.name (n : Network) : PyStr := n.networkName ++ '_' :: n.subnetName

/-- riemann/__init__.py:3: the module global `network` right after import. -/
def initialNetwork : Network := bitcoinMain

/-- riemann/__init__.py:6-17, `select_network`, as a state transformer on the global `network`: returns the
outcome of the call (`None` or an exception) and the new global. -/
def selectNetwork (name : PyStr) (cur : Network) : Py Unit × Network :=
  match getNetwork name with
  | .ok n => (.ok (), n)
  | .error e => (.error e, cur)

/-- A supported network is a value of the `SUPPORTED` dict. -/
def Network.Supported (n : Network) : Prop := n ∈ supported.map (·.2)

/-- `'overwinter' in get_current_network_name()` (tx/shared.py:223). -/
def Network.isOverwinter (n : Network) : Bool := strContains (pystr "overwinter") n.name
/-- `'sapling' in get_current_network_name()` (tx/shared.py:224). -/
def Network.isSapling (n : Network) : Bool := strContains (pystr "sapling") n.name
/-- `'sprout' in get_current_network_name()`. -/
def Network.isSprout (n : Network) : Bool := strContains (pystr "sprout") n.name
/-- `'zcash' in get_current_network_name()` (tx/zcash_shared.py). -/
def Network.isZcash (n : Network) : Bool := strContains (pystr "zcash") n.name
/-- `'decred' in get_current_network_name()` (utils.py:130, 140). -/
def Network.isDecred (n : Network) : Bool := strContains (pystr "decred") n.name

end Verif
