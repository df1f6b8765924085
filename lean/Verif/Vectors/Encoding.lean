import Verif.Vectors.Basic
import Verif.Model.Addresses

/-! tests/encoding/test_base58.py, test_bech32.py and test_addresses.py.

Written by `tools/vectors.py`; these are tests of the model, no theorem depends on them. -/

namespace Verif.Vectors

set_option maxRecDepth 100000

/-! test_base58.py -/

example : fails (Base58.decode btc (pystr "13VmALKHkCdSN1JULkP6RqW3LcbpWvgryW")) .valueError := by decide +kernel
example : Base58.decode btc (pystr "1P86rvoC4bTympTEdXnw9HhWVxb4") false = .ok (0 :: (hx 20 0x1b60c31dba9403c74d81af255f0c300bfed5faa3)) := by decide +kernel
example : Base58.encodeWithChecksum btc (0 :: (hx 20 0x1b60c31dba9403c74d81af255f0c300bfed5faa3)) = .ok (pystr "13VmALKHkCdSN1JULkP6RqW3LcbpWvgryV") := by decide +kernel
example : Base58.decodeWithChecksum btc (pystr "13VmALKHkCdSN1JULkP6RqW3LcbpWvgryV") = .ok (0 :: (hx 20 0x1b60c31dba9403c74d81af255f0c300bfed5faa3)) := by decide +kernel
example : Base58.hasChecksum btc (pystr "13VmALKHkCdSN1JULkP6RqW3LcbpWvgryV") = .ok true := by decide +kernel
example : Base58.hasChecksum btc (pystr "1P86rvoC4bTympTEdXnw9HhWVxb4") = .ok false := by decide +kernel
example : Base58.encode dcr (hx 22 0x073f229ebac30efd6a69eec9c1a48e048b7c975c25f2) = .ok (pystr "DsU7xcg53nxaKLLcAUSKyRndjG78Z2VZnX9") := by decide +kernel
example : Base58.decode dcr (pystr "DsU7xcg53nxaKLLcAUSKyRndjG78Z2VZnX9") = .ok (hx 22 0x073f229ebac30efd6a69eec9c1a48e048b7c975c25f2) := by decide +kernel
example : Base58.encode dcr (hx 22 0x073f2789d58cfa0957d206f025c2af056fc8a77cebb0) = .ok (pystr "DsUZxxoHJSty8DCfwfartwTYbuhmVct7tJu") := by decide +kernel
example : Base58.decode dcr (pystr "DsUZxxoHJSty8DCfwfartwTYbuhmVct7tJu") = .ok (hx 22 0x073f2789d58cfa0957d206f025c2af056fc8a77cebb0) := by decide +kernel
example : Base58.encode dcr (hx 22 0x071af0b4e85100aee1a996f22915eb3c3f764d53779a) = .ok (pystr "DcuQKx8BES9wU7C6Q5VmLBjw436r27hayjS") := by decide +kernel
example : Base58.decode dcr (pystr "DcuQKx8BES9wU7C6Q5VmLBjw436r27hayjS") = .ok (hx 22 0x071af0b4e85100aee1a996f22915eb3c3f764d53779a) := by decide +kernel

/-! test_bech32.py -/

example : (Bech32.bech32Decode (pystr "A12UEL5L")).isSome := by decide +kernel
example : Bech32.bech32Decode (pystr "A13UEL5L") = none := by decide +kernel
example : (Bech32.bech32Decode (pystr "an83characterlonghumanreadablepartthatcontainsthenumber1andtheexcludedcharactersbio1tt5tgs")).isSome := by decide +kernel
example : Bech32.bech32Decode (pystr "an83characterlonghumanreadablepartthatcontainsthenumber1andtheexcludedcharactersbio1ut5tgs") = none := by decide +kernel
example : (Bech32.bech32Decode (pystr "abcdef1qpzry9x8gf2tvdw0s3jn54khce6mua7lmqqqxw")).isSome := by decide +kernel
example : Bech32.bech32Decode (pystr "abcdef1ppzry9x8gf2tvdw0s3jn54khce6mua7lmqqqxw") = none := by decide +kernel
example : (Bech32.bech32Decode (pystr "11qqqqqqqqqqqqqqqqqqqqqqqqqqqqqqqqqqqqqqqqqqqqqqqqqqqqqqqqqqqqqqqqqqqqqqqqqqqqqqqqqqc8247j")).isSome := by decide +kernel
example : Bech32.bech32Decode (pystr "11pqqqqqqqqqqqqqqqqqqqqqqqqqqqqqqqqqqqqqqqqqqqqqqqqqqqqqqqqqqqqqqqqqqqqqqqqqqqqqqqqqc8247j") = none := by decide +kernel
example : (Bech32.bech32Decode (pystr "split1checkupstagehandshakeupstreamerranterredcaperred2y9e3w")).isSome := by decide +kernel
example : Bech32.bech32Decode (pystr "split1bheckupstagehandshakeupstreamerranterredcaperred2y9e3w") = none := by decide +kernel
example : Bech32.bech32Decode (pystr " 1nwldj5") = none := by decide +kernel
example : Bech32.bech32Decode (chars (hx 8 0x7f3161786b777278)) = none := by decide +kernel
example : Bech32.bech32Decode (pystr "an84characterslonghumanreadablepartthatcontainsthenumber1andtheexcludedcharactersbio1569pvx") = none := by decide +kernel
example : Bech32.bech32Decode (pystr "pzry9x0s0muk") = none := by decide +kernel
example : Bech32.bech32Decode (pystr "1pzry9x0s0muk") = none := by decide +kernel
example : Bech32.bech32Decode (pystr "x1b4n0q5v") = none := by decide +kernel
example : Bech32.bech32Decode (pystr "li1dgmt3") = none := by decide +kernel
example : Bech32.bech32Decode (chars (hx 9 0x6465316c67377774ff)) = none := by decide +kernel
example : Bech32.segwitDecode (pystr "bc") (pystr "BC1QW508D6QEJXTDG4Y5R3ZARVARY0C5XW7KV8F3T4") = some (0, ((hx 20 0x751e76e8199196d454941c45d1b3a323f1433bd6)).map (·.toNat)) := by decide +kernel
example : Bech32.segwitEncode (pystr "bc") 0 (((hx 20 0x751e76e8199196d454941c45d1b3a323f1433bd6)).map (·.toNat)) = .ok (some (pystr "bc1qw508d6qejxtdg4y5r3zarvary0c5xw7kv8f3t4")) := by decide +kernel
example : Bech32.segwitDecode (pystr "tb") (pystr "tb1qrp33g0q5c5txsp9arysrx4k6zdkfs4nce4xj0gdcccefvpysxf3q0sl5k7") = some (0, ((hx 32 0x1863143c14c5166804bd19203356da136c985678cd4d27a1b8c6329604903262)).map (·.toNat)) := by decide +kernel
example : Bech32.segwitEncode (pystr "tb") 0 (((hx 32 0x1863143c14c5166804bd19203356da136c985678cd4d27a1b8c6329604903262)).map (·.toNat)) = .ok (some (pystr "tb1qrp33g0q5c5txsp9arysrx4k6zdkfs4nce4xj0gdcccefvpysxf3q0sl5k7")) := by decide +kernel
example : Bech32.segwitDecode (pystr "bc") (pystr "tb1qrp33g0q5c5txsp9arysrx4k6zdkfs4nce4xj0gdcccefvpysxf3q0sl5k7") = none := by decide +kernel
example : Bech32.segwitDecode (pystr "bc") (pystr "bc1pw508d6qejxtdg4y5r3zarvary0c5xw7kw508d6qejxtdg4y5r3zarvary0c5xw7k7grplx") = some (1, ((hx 40 0x751e76e8199196d454941c45d1b3a323f1433bd6751e76e8199196d454941c45d1b3a323f1433bd6)).map (·.toNat)) := by decide +kernel
example : Bech32.segwitEncode (pystr "bc") 1 (((hx 40 0x751e76e8199196d454941c45d1b3a323f1433bd6751e76e8199196d454941c45d1b3a323f1433bd6)).map (·.toNat)) = .ok (some (pystr "bc1pw508d6qejxtdg4y5r3zarvary0c5xw7kw508d6qejxtdg4y5r3zarvary0c5xw7k7grplx")) := by decide +kernel
example : Bech32.segwitDecode (pystr "bc") (pystr "BC1SW50QA3JX3S") = some (16, ((hx 2 0x751e)).map (·.toNat)) := by decide +kernel
example : Bech32.segwitEncode (pystr "bc") 16 (((hx 2 0x751e)).map (·.toNat)) = .ok (some (pystr "bc1sw50qa3jx3s")) := by decide +kernel
example : Bech32.segwitDecode (pystr "bc") (pystr "bc1zw508d6qejxtdg4y5r3zarvaryvg6kdaj") = some (2, ((hx 16 0x751e76e8199196d454941c45d1b3a323)).map (·.toNat)) := by decide +kernel
example : Bech32.segwitEncode (pystr "bc") 2 (((hx 16 0x751e76e8199196d454941c45d1b3a323)).map (·.toNat)) = .ok (some (pystr "bc1zw508d6qejxtdg4y5r3zarvaryvg6kdaj")) := by decide +kernel
example : Bech32.segwitDecode (pystr "tb") (pystr "tb1qqqqqp399et2xygdj5xreqhjjvcmzhxw4aywxecjdzew6hylgvsesrxh6hy") = some (0, ((hx 32 0x000000c4a5cad46221b2a187905e5266362b99d5e91c6ce24d165dab93e86433)).map (·.toNat)) := by decide +kernel
example : Bech32.segwitEncode (pystr "tb") 0 (((hx 32 0x000000c4a5cad46221b2a187905e5266362b99d5e91c6ce24d165dab93e86433)).map (·.toNat)) = .ok (some (pystr "tb1qqqqqp399et2xygdj5xreqhjjvcmzhxw4aywxecjdzew6hylgvsesrxh6hy")) := by decide +kernel
example : Bech32.segwitDecode (pystr "bc") (pystr "tb1qqqqqp399et2xygdj5xreqhjjvcmzhxw4aywxecjdzew6hylgvsesrxh6hy") = none := by decide +kernel
example : Bech32.segwitDecode (pystr "bc") (pystr "tc1qw508d6qejxtdg4y5r3zarvary0c5xw7kg3g4ty") = none := by decide +kernel
example : Bech32.segwitDecode (pystr "tb") (pystr "tc1qw508d6qejxtdg4y5r3zarvary0c5xw7kg3g4ty") = none := by decide +kernel
example : Bech32.segwitDecode (pystr "bc") (pystr "bc1qw508d6qejxtdg4y5r3zarvary0c5xw7kv8f3t5") = none := by decide +kernel
example : Bech32.segwitDecode (pystr "tb") (pystr "bc1qw508d6qejxtdg4y5r3zarvary0c5xw7kv8f3t5") = none := by decide +kernel
example : Bech32.segwitDecode (pystr "bc") (pystr "BC13W508D6QEJXTDG4Y5R3ZARVARY0C5XW7KN40WF2") = none := by decide +kernel
example : Bech32.segwitDecode (pystr "tb") (pystr "BC13W508D6QEJXTDG4Y5R3ZARVARY0C5XW7KN40WF2") = none := by decide +kernel
example : Bech32.segwitDecode (pystr "bc") (pystr "bc1rw5uspcuh") = none := by decide +kernel
example : Bech32.segwitDecode (pystr "tb") (pystr "bc1rw5uspcuh") = none := by decide +kernel
example : Bech32.segwitDecode (pystr "bc") (pystr "bc10w508d6qejxtdg4y5r3zarvary0c5xw7kw508d6qejxtdg4y5r3zarvary0c5xw7kw5rljs90") = none := by decide +kernel
example : Bech32.segwitDecode (pystr "tb") (pystr "bc10w508d6qejxtdg4y5r3zarvary0c5xw7kw508d6qejxtdg4y5r3zarvary0c5xw7kw5rljs90") = none := by decide +kernel
example : Bech32.segwitDecode (pystr "bc") (pystr "BC1QR508D6QEJXTDG4Y5R3ZARVARYV98GJ9P") = none := by decide +kernel
example : Bech32.segwitDecode (pystr "tb") (pystr "BC1QR508D6QEJXTDG4Y5R3ZARVARYV98GJ9P") = none := by decide +kernel
example : Bech32.segwitDecode (pystr "bc") (pystr "tb1qrp33g0q5c5txsp9arysrx4k6zdkfs4nce4xj0gdcccefvpysxf3q0sL5k7") = none := by decide +kernel
example : Bech32.segwitDecode (pystr "tb") (pystr "tb1qrp33g0q5c5txsp9arysrx4k6zdkfs4nce4xj0gdcccefvpysxf3q0sL5k7") = none := by decide +kernel
example : Bech32.segwitDecode (pystr "bc") (pystr "bc1zw508d6qejxtdg4y5r3zarvaryvqyzf3du") = none := by decide +kernel
example : Bech32.segwitDecode (pystr "tb") (pystr "bc1zw508d6qejxtdg4y5r3zarvaryvqyzf3du") = none := by decide +kernel
example : Bech32.segwitDecode (pystr "bc") (pystr "tb1qrp33g0q5c5txsp9arysrx4k6zdkfs4nce4xj0gdcccefvpysxf3pjxtptv") = none := by decide +kernel
example : Bech32.segwitDecode (pystr "tb") (pystr "tb1qrp33g0q5c5txsp9arysrx4k6zdkfs4nce4xj0gdcccefvpysxf3pjxtptv") = none := by decide +kernel
example : Bech32.segwitDecode (pystr "bc") (pystr "bc1gmk9yu") = none := by decide +kernel
example : Bech32.segwitDecode (pystr "tb") (pystr "bc1gmk9yu") = none := by decide +kernel
example : Bech32.segwitEncode (pystr "BC") 0 (List.replicate 20 0) = .ok none := by decide +kernel
example : Bech32.segwitEncode (pystr "bc") 0 (List.replicate 21 0) = .ok none := by decide +kernel
example : Bech32.segwitEncode (pystr "bc") 17 (List.replicate 32 0) = .ok none := by decide +kernel
example : Bech32.segwitEncode (pystr "bc") 1 (List.replicate 1 0) = .ok none := by decide +kernel
example : Bech32.segwitEncode (pystr "bc") 16 (List.replicate 41 0) = .ok none := by decide +kernel
example : fails (Bech32.encode zcashSproutMain (List.replicate 32 0)) .valueError := by decide +kernel
example : fails (Bech32.decode zcashSproutMain (List.replicate 32 '0')) .valueError := by decide +kernel
example : Bech32.convertbits [2 ^ 5 + 1] 5 8 = none := by decide +kernel

/-! test_addresses.py -/

example : Addresses.makeP2shAddress btc (pystr "OP_IF") = .ok (some (pystr "3MpTk145zbm5odhRALfT9BnUs8DB5w4ydw")) := by decide +kernel
example : Addresses.makeP2shAddress btc (pystr "OP_2 0000000000000000000000000000000000000000000000000000000000000000000000000000000000000000000000000000000000000000000000000000000000 1111111111111111111111111111111111111111111111111111111111111111111111111111111111111111111111111111111111111111111111111111111111 OP_2 OP_CHECKMULTISIG") = .ok (some (pystr "3R23EEkAzy7HPWKN8rcL4ZzSjEWNsipxWV")) := by decide +kernel
example : Addresses.makeP2wshAddress btc (pystr "OP_2 0375e00eb72e29da82b89367947f29ef34afb75e8654f6ea368e0acdfd92976b7c 03a1b26313f430c4b15bb1fdce663207659d8cac749a0e53d70eff01874496feff 03c96d495bfdd5ba4145e3e046fee45e84a8a48ad05bd8dbb395c011a32cf9f880 OP_3 OP_CHECKMULTISIG") = .ok (some (pystr "bc1qwqdg6squsna38e46795at95yu9atm8azzmyvckulcc7kytlcckxswvvzej")) := by decide +kernel
example : Addresses.makeP2pkhAddress btc (List.replicate 65 0) = .ok (some (pystr "13VmALKHkCdSN1JULkP6RqW3LcbpWvgryV")) := by decide +kernel
example : Addresses.makeP2pkhAddress btc (List.replicate 65 0x11) = .ok (some (pystr "1N59mqr5yg38K11PTY2HdZTN7KmAHeCyHE")) := by decide +kernel
example : Addresses.makeP2wpkhAddress btc (hx 33 0x03dc3dbabbf8c5e15d1eb3606a6a42c6d3a8c546f2a196a80a08b9a9021e2be33d) = .ok (some (pystr "bc1q8cqttds2dej9zht7vupd3467ndhur92fudlyql")) := by decide +kernel
example : Addresses.parse btc (pystr "3MpTk145zbm5odhRALfT9BnUs8DB5w4ydw") = .ok (hx 21 0x05dccafab9536343713ef4b9a1d443a1b6ca8c8dd1) := by decide +kernel
example : Addresses.parseHash btc (pystr "3MpTk145zbm5odhRALfT9BnUs8DB5w4ydw") = .ok (hx 20 0xdccafab9536343713ef4b9a1d443a1b6ca8c8dd1) := by decide +kernel
example : Addresses.parse btc (pystr "3R23EEkAzy7HPWKN8rcL4ZzSjEWNsipxWV") = .ok (hx 21 0x05ffe3e2be6ba8d465041d3da1cdfe472b901b215a) := by decide +kernel
example : Addresses.parseHash btc (pystr "3R23EEkAzy7HPWKN8rcL4ZzSjEWNsipxWV") = .ok (hx 20 0xffe3e2be6ba8d465041d3da1cdfe472b901b215a) := by decide +kernel
example : Addresses.parse btc (pystr "bc1qwqdg6squsna38e46795at95yu9atm8azzmyvckulcc7kytlcckxswvvzej") = .ok (hx 34 0x0020701a8d401c84fb13e6baf169d59684e17abd9fa216c8cc5b9fc63d622ff8c58d) := by decide +kernel
example : Addresses.parseHash btc (pystr "bc1qwqdg6squsna38e46795at95yu9atm8azzmyvckulcc7kytlcckxswvvzej") = .ok (hx 32 0x701a8d401c84fb13e6baf169d59684e17abd9fa216c8cc5b9fc63d622ff8c58d) := by decide +kernel
example : Addresses.parse btc (pystr "bc1q8cqttds2dej9zht7vupd3467ndhur92fudlyql") = .ok (hx 22 0x00143e00b5b60a6e64515d7e6702d8d75e9b6fc19549) := by decide +kernel
example : Addresses.parseHash btc (pystr "bc1q8cqttds2dej9zht7vupd3467ndhur92fudlyql") = .ok (hx 20 0x3e00b5b60a6e64515d7e6702d8d75e9b6fc19549) := by decide +kernel
example : Addresses.parse btc (pystr "13VmALKHkCdSN1JULkP6RqW3LcbpWvgryV") = .ok (hx 21 0x001b60c31dba9403c74d81af255f0c300bfed5faa3) := by decide +kernel
example : Addresses.parseHash btc (pystr "13VmALKHkCdSN1JULkP6RqW3LcbpWvgryV") = .ok (hx 20 0x1b60c31dba9403c74d81af255f0c300bfed5faa3) := by decide +kernel
example : fails (Addresses.parse btc (pystr "This is not a valid address.")) .valueError := by decide +kernel
example : fails (Addresses.parse btc (pystr "bc1blahblahblah")) .valueError := by decide +kernel
example : Addresses.parseHash bch (pystr "3MpTk145zbm5odhRALfT9BnUs8DB5w4ydw") = .ok (hx 20 0xdccafab9536343713ef4b9a1d443a1b6ca8c8dd1) := by decide +kernel
example : Addresses.parseHash bch (pystr "bitcoincash:prwv474e2d35xuf77ju6r4zr5xmv4ryd6ynr4c5mld") = .ok (hx 20 0xdccafab9536343713ef4b9a1d443a1b6ca8c8dd1) := by decide +kernel
example : Addresses.parseHash bch (pystr "bitcoincash:qr4l2ykm7qw4rwg0yqtxwrt4mp0m4wsn4qv4sm4l62") = .ok (bch.hash160 (hx 33 0x02f0899f0bbd104a12efa06d10eece1584887a6cfaf31cd168c78d0c15d8357aa7)) := by decide +kernel
example : Addresses.makeLegacyP2shAddress bch (pystr "OP_IF") = .ok (some (pystr "3MpTk145zbm5odhRALfT9BnUs8DB5w4ydw")) := by decide +kernel
example : Addresses.makeShAddress bch (pystr "OP_IF") = .ok (some (pystr "bitcoincash:prwv474e2d35xuf77ju6r4zr5xmv4ryd6ynr4c5mld")) := by decide +kernel
example : Addresses.makeLegacyP2pkhAddress bch (hx 33 0x02f0899f0bbd104a12efa06d10eece1584887a6cfaf31cd168c78d0c15d8357aa7) = .ok (some (pystr "1NWdP6dqMUjK5VCDELo6vFhaGkJFLEY5Gw")) := by decide +kernel
example : Addresses.makePkhAddress bch (hx 33 0x02f0899f0bbd104a12efa06d10eece1584887a6cfaf31cd168c78d0c15d8357aa7) = .ok (some (pystr "bitcoincash:qr4l2ykm7qw4rwg0yqtxwrt4mp0m4wsn4qv4sm4l62")) := by decide +kernel
example : Addresses.fromOutputScript btc (hx 23 0xa914dccafab9536343713ef4b9a1d443a1b6ca8c8dd187) = .ok (some (pystr "3MpTk145zbm5odhRALfT9BnUs8DB5w4ydw")) := by decide +kernel
example : Addresses.toOutputScript btc (pystr "3MpTk145zbm5odhRALfT9BnUs8DB5w4ydw") = .ok (hx 23 0xa914dccafab9536343713ef4b9a1d443a1b6ca8c8dd187) := by decide +kernel
example : Addresses.fromOutputScript btc (hx 34 0x0020701a8d401c84fb13e6baf169d59684e17abd9fa216c8cc5b9fc63d622ff8c58d) = .ok (some (pystr "bc1qwqdg6squsna38e46795at95yu9atm8azzmyvckulcc7kytlcckxswvvzej")) := by decide +kernel
example : Addresses.toOutputScript btc (pystr "bc1qwqdg6squsna38e46795at95yu9atm8azzmyvckulcc7kytlcckxswvvzej") = .ok (hx 34 0x0020701a8d401c84fb13e6baf169d59684e17abd9fa216c8cc5b9fc63d622ff8c58d) := by decide +kernel
example : Addresses.fromOutputScript btc (hx 25 0x76a9141b60c31dba9403c74d81af255f0c300bfed5faa388ac) = .ok (some (pystr "13VmALKHkCdSN1JULkP6RqW3LcbpWvgryV")) := by decide +kernel
example : Addresses.toOutputScript btc (pystr "13VmALKHkCdSN1JULkP6RqW3LcbpWvgryV") = .ok (hx 25 0x76a9141b60c31dba9403c74d81af255f0c300bfed5faa388ac) := by decide +kernel
example : Addresses.fromOutputScript btc (hx 22 0x00143e00b5b60a6e64515d7e6702d8d75e9b6fc19549) = .ok (some (pystr "bc1q8cqttds2dej9zht7vupd3467ndhur92fudlyql")) := by decide +kernel
example : Addresses.toOutputScript btc (pystr "bc1q8cqttds2dej9zht7vupd3467ndhur92fudlyql") = .ok (hx 22 0x00143e00b5b60a6e64515d7e6702d8d75e9b6fc19549) := by decide +kernel
example : fails (Addresses.fromOutputScript btc (List.replicate 34 0x8e)) .valueError := by decide +kernel
example : fails (Addresses.toOutputScript btc (pystr "1111111111111111111111111111111111177fdsQ")) .valueError := by decide +kernel
example : Addresses.fromOutputScript bch (hx 25 0x76a9141b60c31dba9403c74d81af255f0c300bfed5faa388ac) = .ok (some (pystr "bitcoincash:qqdkpscah22q836dsxhj2hcvxq9la4065v92pm9f84")) := by decide +kernel
example : Addresses.toOutputScript bch (pystr "bitcoincash:qqdkpscah22q836dsxhj2hcvxq9la4065v92pm9f84") = .ok (hx 25 0x76a9141b60c31dba9403c74d81af255f0c300bfed5faa388ac) := by decide +kernel
example : Addresses.fromOutputScript bch (hx 23 0xa914dccafab9536343713ef4b9a1d443a1b6ca8c8dd187) = .ok (some (pystr "bitcoincash:prwv474e2d35xuf77ju6r4zr5xmv4ryd6ynr4c5mld")) := by decide +kernel
example : Addresses.toOutputScript bch (pystr "bitcoincash:prwv474e2d35xuf77ju6r4zr5xmv4ryd6ynr4c5mld") = .ok (hx 23 0xa914dccafab9536343713ef4b9a1d443a1b6ca8c8dd187) := by decide +kernel

end Verif.Vectors
