import Verif.Py

/-! # Independent specification: how the addresses of a network begin

The well-known first characters of the addresses of each network: the comments beside the version bytes in the coins' chain
parameters for Base58, the registry SLIP-173 for bech32 and the cashaddr specification. Networks are named as in
`select_network`. -/

namespace Verif.Spec

/-- Network, possible beginnings of its P2PKH addresses, possible beginnings of its P2SH addresses. -/
def base58Letters : List (PyStr × List PyStr × List PyStr) :=
  let one (s : String) : List PyStr := [s.toList]
  let two (s t : String) : List PyStr := [s.toList, t.toList]
  let testnet (n : String) : PyStr × List PyStr × List PyStr := (n.toList, two "m" "n", one "2")
  [("bitcoin_main".toList, one "1", one "3"), testnet "bitcoin_test", testnet "bitcoin_reg",
   ("litecoin_main".toList, one "L", one "M"), ("litecoin_test".toList, two "m" "n", one "Q"),
   ("litecoin_reg".toList, two "m" "n", one "Q"),
   ("bitcoin_cash_main".toList, one "1", one "3"), testnet "bitcoin_cash_test", testnet "bitcoin_cash_reg",
   ("bitcoin_gold_main".toList, one "G", one "A"), testnet "bitcoin_gold_test", testnet "bitcoin_gold_reg",
   ("dogecoin_main".toList, one "D", two "9" "A"), ("dogecoin_test".toList, one "n", one "2"),
   ("dogecoin_reg".toList, one "n", one "2"),
   ("dash_main".toList, one "X", one "7"), ("dash_test".toList, one "y", two "8" "9"), ("dash_reg".toList, one "y", two "8" "9"),
   ("zcash_sprout_main".toList, one "t1", one "t3"), ("zcash_sprout_test".toList, one "tm", one "t2"),
   ("zcash_sprout_reg".toList, one "tm", one "t2"),
   ("zcash_overwinter_main".toList, one "t1", one "t3"), ("zcash_overwinter_test".toList, one "tm", one "t2"),
   ("zcash_overwinter_reg".toList, one "tm", one "t2"),
   ("zcash_sapling_main".toList, one "t1", one "t3"), ("zcash_sapling_test".toList, one "tm", one "t2"),
   ("zcash_sapling_reg".toList, one "tm", one "t2"),
   ("decred_main".toList, one "Ds", one "Dc"), ("decred_test".toList, one "Ts", one "Tc"),
   ("pivx_main".toList, one "D", one "6"), ("pivx_test".toList, two "x" "y", two "8" "9"), ("pivx_reg".toList, two "x" "y", two "8" "9"),
   ("viacoin_main".toList, one "V", one "E"), ("viacoin_test".toList, one "t", one "2"), testnet "viacoin_simnet",
   ("feathercoin_main".toList, two "6" "7", two "f" "g"), testnet "feathercoin_test", testnet "feathercoin_reg",
   ("bitcoin_dark_main".toList, one "R", one "b"), testnet "bitcoin_dark_test", testnet "bitcoin_dark_reg",
   ("axe_main".toList, one "P", one "7"), ("axe_test".toList, one "y", two "8" "9"), ("axe_reg".toList, one "y", two "8" "9"),
   ("bitcore_main".toList, one "1", one "M"), ("bitcore_test".toList, two "m" "n", one "Q"), ("bitcore_reg".toList, two "m" "n", one "Q"),
   ("digibyte_main".toList, one "D", one "S"), ("digibyte_test".toList, two "s" "t", one "y"),
   ("digibyte_reg".toList, two "s" "t", one "y"),
   ("groestlcoin_main".toList, one "F", one "3"), testnet "groestlcoin_test", testnet "groestlcoin_reg",
   ("monacoin_main".toList, one "M", one "P"), testnet "monacoin_test", testnet "monacoin_reg",
   ("navcoin_main".toList, one "N", one "b"), ("navcoin_test".toList, two "N" "P", two "b" "c"),
   ("navcoin_reg".toList, one "9", two "f" "g"),
   ("syscoin_main".toList, one "S", one "3"), ("syscoin_test".toList, one "T", one "2"), ("syscoin_reg".toList, one "T", one "2"),
   ("vertcoin_main".toList, one "V", one "3"), ("vertcoin_test".toList, two "W" "X", one "2"), testnet "vertcoin_reg",
   ("bitcoin_private_main".toList, one "b1", one "bx"), ("bitcoin_private_test".toList, one "n1", one "nx"),
   ("bitcoin_private_reg".toList, one "n1", one "nx"),
   ("verge_main".toList, one "D", one "E"), ("verge_test".toList, one "o", one "2"), ("verge_reg".toList, one "o", one "2")]

/-- Network and human-readable part of its version 0 witness addresses. -/
def bech32Letters : List (PyStr × PyStr) :=
  [("bitcoin_main".toList, "bc".toList), ("bitcoin_test".toList, "tb".toList), ("bitcoin_reg".toList, "bcrt".toList),
   ("litecoin_main".toList, "ltc".toList), ("litecoin_test".toList, "tltc".toList),
   ("bitcoin_gold_main".toList, "btg".toList), ("bitcoin_gold_test".toList, "tbtg".toList), ("bitcoin_gold_reg".toList, "tbtg".toList),
   ("viacoin_main".toList, "via".toList), ("viacoin_test".toList, "tvia".toList), ("viacoin_simnet".toList, "svia".toList),
   ("feathercoin_main".toList, "fc".toList), ("feathercoin_test".toList, "tf".toList), ("feathercoin_reg".toList, "fcrt".toList),
   ("digibyte_main".toList, "dgb".toList), ("digibyte_test".toList, "dgbt".toList), ("digibyte_reg".toList, "dgbrt".toList),
   ("vertcoin_main".toList, "vtc".toList), ("vertcoin_test".toList, "tvtc".toList), ("vertcoin_reg".toList, "bcrt".toList)]

end Verif.Spec
