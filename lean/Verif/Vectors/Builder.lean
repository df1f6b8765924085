import Verif.Vectors.Basic
import Verif.Model.Builder

/-! tests/tx/test_tx_builder.py and tests/test_simple.py.

Written by `tools/vectors.py`; these are tests of the model, no theorem depends on them. -/

namespace Verif.Vectors

set_option maxRecDepth 100000
open Builder


/-! test_tx_builder.py -/

example : Addresses.makeShOutputScript btc (pystr "OP_IF") = .ok (hx 23 0xa914dccafab9536343713ef4b9a1d443a1b6ca8c8dd187) := by decide +kernel
example : Addresses.makeShOutputScript btc (pystr "OP_2 0375e00eb72e29da82b89367947f29ef34afb75e8654f6ea368e0acdfd92976b7c 03a1b26313f430c4b15bb1fdce663207659d8cac749a0e53d70eff01874496feff 03c96d495bfdd5ba4145e3e046fee45e84a8a48ad05bd8dbb395c011a32cf9f880 OP_3 OP_CHECKMULTISIG") true = .ok (hx 34 0x0020701a8d401c84fb13e6baf169d59684e17abd9fa216c8cc5b9fc63d622ff8c58d) := by decide +kernel
example : fails (Addresses.makeShOutputScript bch (pystr "OP_2 0375e00eb72e29da82b89367947f29ef34afb75e8654f6ea368e0acdfd92976b7c 03a1b26313f430c4b15bb1fdce663207659d8cac749a0e53d70eff01874496feff 03c96d495bfdd5ba4145e3e046fee45e84a8a48ad05bd8dbb395c011a32cf9f880 OP_3 OP_CHECKMULTISIG") true) .valueError := by decide +kernel
example : Addresses.makePkhOutputScript btc (hx 65 0x0000000000000000000000000000000000000000000000000000000000000000000000000000000000000000000000000000000000000000000000000000000000) = .ok (hx 25 0x76a9141b60c31dba9403c74d81af255f0c300bfed5faa388ac) := by decide +kernel
example : Addresses.makePkhOutputScript btc (hx 65 0x0000000000000000000000000000000000000000000000000000000000000000000000000000000000000000000000000000000000000000000000000000000000) true = .ok (hx 22 0x00141b60c31dba9403c74d81af255f0c300bfed5faa3) := by decide +kernel
example : fails (Addresses.makePkhOutputScript bch (hx 65 0x0000000000000000000000000000000000000000000000000000000000000000000000000000000000000000000000000000000000000000000000000000000000) true) .valueError := by decide +kernel
example : Addresses.makeP2shOutputScript btc (pystr "OP_IF") = .ok (hx 23 0xa914dccafab9536343713ef4b9a1d443a1b6ca8c8dd187) := by decide +kernel
example : Addresses.makeP2pkhOutputScript btc (hx 65 0x0000000000000000000000000000000000000000000000000000000000000000000000000000000000000000000000000000000000000000000000000000000000) = .ok (hx 25 0x76a9141b60c31dba9403c74d81af255f0c300bfed5faa388ac) := by decide +kernel
example : Addresses.makeP2wshOutputScript btc (pystr "OP_2 0375e00eb72e29da82b89367947f29ef34afb75e8654f6ea368e0acdfd92976b7c 03a1b26313f430c4b15bb1fdce663207659d8cac749a0e53d70eff01874496feff 03c96d495bfdd5ba4145e3e046fee45e84a8a48ad05bd8dbb395c011a32cf9f880 OP_3 OP_CHECKMULTISIG") = .ok (hx 34 0x0020701a8d401c84fb13e6baf169d59684e17abd9fa216c8cc5b9fc63d622ff8c58d) := by decide +kernel
example : Addresses.makeP2wpkhOutputScript btc (hx 65 0x0000000000000000000000000000000000000000000000000000000000000000000000000000000000000000000000000000000000000000000000000000000000) = .ok (hx 22 0x00141b60c31dba9403c74d81af255f0c300bfed5faa3) := by decide +kernel
example : ok (makeP2shOutput btc 32454049 (pystr "OP_IF")) (fun r => decide (outBytes r = (hx 32 0xa135ef010000000017a914dccafab9536343713ef4b9a1d443a1b6ca8c8dd187))) := by decide +kernel
example : ok (makeP2wshOutput btc 290819 (pystr "OP_2 0375e00eb72e29da82b89367947f29ef34afb75e8654f6ea368e0acdfd92976b7c 03a1b26313f430c4b15bb1fdce663207659d8cac749a0e53d70eff01874496feff 03c96d495bfdd5ba4145e3e046fee45e84a8a48ad05bd8dbb395c011a32cf9f880 OP_3 OP_CHECKMULTISIG")) (fun r => decide (outBytes r = (hx 43 0x0370040000000000220020701a8d401c84fb13e6baf169d59684e17abd9fa216c8cc5b9fc63d622ff8c58d))) := by decide +kernel
example : ok (makeP2pkhOutput btc 32454049 (hx 65 0x0000000000000000000000000000000000000000000000000000000000000000000000000000000000000000000000000000000000000000000000000000000000)) (fun r => decide (outBytes r = (hx 34 0xa135ef01000000001976a9141b60c31dba9403c74d81af255f0c300bfed5faa388ac))) := by decide +kernel
example : ok (makeP2wpkhOutput btc 32454049 (hx 65 0x0000000000000000000000000000000000000000000000000000000000000000000000000000000000000000000000000000000000000000000000000000000000)) (fun r => decide (outBytes r = (hx 31 0xa135ef01000000001600141b60c31dba9403c74d81af255f0c300bfed5faa3))) := by decide +kernel
example : fails (makeOpReturnOutput btc (List.replicate 78 0)) .valueError := by decide +kernel
example : ok (makeOutpoint btc (hx 32 0x813f79011acb80925dfe69b3def355fe914bd1d96a3f5f71bf8303c6a989c7d1) 0) (fun r => decide (outpointBytes r = (hx 36 0x813f79011acb80925dfe69b3def355fe914bd1d96a3f5f71bf8303c6a989c7d100000000))) := by decide +kernel
example : makeScriptSig btc (pystr "OP_0 3044022024bb241b26586a4c614ba38fec83a50904d5daeed0975e25eae095e5e911989e022073d99364454fc572a189a2dcf11c6b182a45c5177e746b731448abe3d9e4fe5001 30440220319dbd5a69bcaa73e569c5e068edb03f6c52344cd9068d248925256463608c8f02201b4f35ee176d85395aa1eb49aa80adc22cad820d26d62cf462889b791b98aaf801") (pystr "OP_2 02975ddf75126ef880d1b56ea194141ea0ceb2d9e12298b74d54432cbd83535854 03c96d495bfdd5ba4145e3e046fee45e84a8a48ad05bd8dbb395c011a32cf9f880 03e5dc75b59e4c67bfea266314d0b1da1e317f5b7d1e4cf1975442b79e542de748 OP_3 OP_CHECKMULTISIG") = .ok (hx 252 0x00473044022024bb241b26586a4c614ba38fec83a50904d5daeed0975e25eae095e5e911989e022073d99364454fc572a189a2dcf11c6b182a45c5177e746b731448abe3d9e4fe50014730440220319dbd5a69bcaa73e569c5e068edb03f6c52344cd9068d248925256463608c8f02201b4f35ee176d85395aa1eb49aa80adc22cad820d26d62cf462889b791b98aaf8014c69522102975ddf75126ef880d1b56ea194141ea0ceb2d9e12298b74d54432cbd835358542103c96d495bfdd5ba4145e3e046fee45e84a8a48ad05bd8dbb395c011a32cf9f8802103e5dc75b59e4c67bfea266314d0b1da1e317f5b7d1e4cf1975442b79e542de74853ae) := by decide +kernel
example : ok (do makeAnyLegacyInput btc (← makeOutpoint btc (hx 32 0x813f79011acb80925dfe69b3def355fe914bd1d96a3f5f71bf8303c6a989c7d1) 0) (hx 107 0x483045022100ed81ff192e75a3fd2304004dcadb746fa5e24c5031ccfcf21320b0277457c98f02207a986d955c6e0cb35d446a89d3f56100f4d7f67801c31967743a9c8e10615bed01210349fc4e631e3624a545de3f89f5d8684c7b8138bd94bdd531d2e213bf016b278a) ([] : Bytes) 4294967294) (fun r => decide (inBytes r = (hx 148 0x813f79011acb80925dfe69b3def355fe914bd1d96a3f5f71bf8303c6a989c7d1000000006b483045022100ed81ff192e75a3fd2304004dcadb746fa5e24c5031ccfcf21320b0277457c98f02207a986d955c6e0cb35d446a89d3f56100f4d7f67801c31967743a9c8e10615bed01210349fc4e631e3624a545de3f89f5d8684c7b8138bd94bdd531d2e213bf016b278afeffffff))) := by decide +kernel
example : lengthPrepend (List.replicate 1 0) = .ok ([1, 0]) := by decide +kernel
example : lengthPrepend (List.replicate 99 0) = .ok (0x63 :: List.replicate 99 0) := by decide +kernel
example : lengthPrepend (List.replicate 256 0) = .ok (0xfd :: 0 :: 1 :: List.replicate 256 0) := by decide +kernel

/-! test_simple.py -/

example : ok (Simple.output btc 9000000 (pystr "19u4AHtrWf4YfABuo1vCKcpizdngMxNJcF")) (fun r => decide (outBytes r = (hx 34 0x40548900000000001976a9146199463742d1359a505881821d82f5d4148e3fc588ac))) := by decide +kernel
example : ok (Simple.output btc 1980000 (pystr "32xum18WdAepEed6DNEBbNKBDU1gPUusqr")) (fun r => decide (outBytes r = (hx 32 0x60361e000000000017a9140df9a2a3c14a223733908e3e9127e2f6a9e2878e87))) := by decide +kernel
example : ok (Simple.output btc 7351120 (pystr "1PGd2WtYtEXNb6mFjesZr5WV7NXyAeb5Nj")) (fun r => decide (outBytes r = (hx 34 0x502b7000000000001976a914f447146b86373c781a946d7ebd88cbbb79ec810288ac))) := by decide +kernel
example : ok (Simple.output btc 290819 (pystr "bc1qwqdg6squsna38e46795at95yu9atm8azzmyvckulcc7kytlcckxswvvzej")) (fun r => decide (outBytes r = (hx 43 0x0370040000000000220020701a8d401c84fb13e6baf169d59684e17abd9fa216c8cc5b9fc63d622ff8c58d))) := by decide +kernel
/-- Data of the tests. -/
def so : Py AnyOutpoint := Simple.outpoint btc (pystr "ff7ff97060bfa1763dd9d4101b322157e841a4de865ddc28b1f71500f45c8135") 0
example : ok (so) (fun r => decide (outpointBytes r = (hx 36 0x35815cf40015f7b128dc5d86dea441e85721321b10d4d93d76a1bf6070f97fff00000000))) := by decide +kernel
example : ok (do Simple.unsignedInput btc (← so)) (fun r => decide (inBytes r = (hx 41 0x35815cf40015f7b128dc5d86dea441e85721321b10d4d93d76a1bf6070f97fff0000000000feffffff))) := by decide +kernel
example : ok (do Simple.unsignedInput btc (← so) 305441741) (fun r => decide (inBytes r = (hx 41 0x35815cf40015f7b128dc5d86dea441e85721321b10d4d93d76a1bf6070f97fff0000000000cdab3412))) := by decide +kernel
example : ok (do Simple.unsignedLegacyTx btc [← stdIn (Simple.unsignedInput btc (← so) 4294967294)] [← stdOut (Simple.output btc 990 (pystr "bc1qp037f2sk26acz8dn9knp6s8fzuwg390zqxh966")), ← stdOut (makeOpReturnOutput btc (hx 24 0x6d616465207769746820e29da4206279207269656d616e6e))]) (fun r => decide (txBytes r = (hx 117 0x020000000135815cf40015f7b128dc5d86dea441e85721321b10d4d93d76a1bf6070f97fff0000000000feffffff02de030000000000001600140be3e4aa1656bb811db32da61d40e9171c8895e200000000000000001a6a186d616465207769746820e29da4206279207269656d616e6e00000000))) := by decide +kernel
example : ok (do Simple.unsignedWitnessTx btc [← stdIn (Simple.unsignedInput btc (← Simple.outpoint btc (pystr "d2941b532f6d3d54d596345b50972b3995983239884037a52aab799ec84292ee") 0) 4294967293)] [← stdOut (Simple.output btc 119667 (pystr "3JoCkhfh6juGAp43jWftoSqJwoPptJ7GwF"))] { lockTime := some 523722 }) (fun r => decide (txBytes r = (hx 86 0x02000000000101ee9242c89e79ab2aa537408839329895392b97505b3496d5543d6d2f531b94d20000000000fdffffff0173d301000000000017a914bba5acbec4e6e3374a0345bf3609fa7cfea825f18700cafd0700))) := by decide +kernel

end Verif.Vectors
