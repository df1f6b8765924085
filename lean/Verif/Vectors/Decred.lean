import Verif.Vectors.Basic
import Verif.Model.Builder

/-! tests/tx/test_decred.py.

Written by `tools/vectors.py`; these are tests of the model, no theorem depends on them. -/

namespace Verif.Vectors

set_option maxRecDepth 100000
open Builder


/-! test_decred.py:20-120 -/

example : ok (do Simple.unsignedInput dcr (← Simple.outpoint dcr (pystr "fdd72f5841414a9c8b4a188a98a4d484df98f84e1c120e1ed59a66e51e8ae90c") 0 (some 0)) 4294967295) (fun r => decide (inBytes r = (hx 41 0x0ce98a1ee5669ad51e0e121c4ef898df84d4a4988a184a8b9c4a4141582fd7fd0000000000ffffffff))) := by decide +kernel
/-- Data of the tests. -/
def do1 : Py DecredOutpoint := DecredOutpoint.make decredMain (hx 32 0x0ce98a1ee5669ad51e0e121c4ef898df84d4a4988a184a8b9c4a4141582fd7fd) (hx 4 0x00000000) (hx 1 0x00)
example : ok (do1) (fun r => decide (r.bytes = (hx 37 0x0ce98a1ee5669ad51e0e121c4ef898df84d4a4988a184a8b9c4a4141582fd7fd0000000000)) && decide (r.copy decredMain = .ok r) && decide (DecredOutpoint.fromBytes decredMain r.bytes = .ok r)) := by decide +kernel
example : fails (DecredOutpoint.make decredMain [0xff] (hx 4 0x00000000) (hx 1 0x00)) .valueError := by decide +kernel
example : fails (DecredOutpoint.make decredMain (List.replicate 74 0x30) (hx 4 0x00000000) (hx 1 0x00)) .valueError := by decide +kernel
example : fails (DecredOutpoint.make decredMain (hx 32 0x0ce98a1ee5669ad51e0e121c4ef898df84d4a4988a184a8b9c4a4141582fd7fd) [0] (hx 1 0x00)) .valueError := by decide +kernel
example : fails (DecredOutpoint.make bitcoinMain (hx 32 0x0ce98a1ee5669ad51e0e121c4ef898df84d4a4988a184a8b9c4a4141582fd7fd) (hx 4 0x00000000) (hx 1 0x00)) .valueError := by decide +kernel
/-- Data of the tests. -/
def di1 : Py DecredTxIn := do DecredTxIn.make decredMain (← do1) (hx 4 0xffffffff)
example : ok (di1) (fun r => decide (r.bytes = (hx 41 0x0ce98a1ee5669ad51e0e121c4ef898df84d4a4988a184a8b9c4a4141582fd7fd0000000000ffffffff)) && decide (r.copy decredMain = .ok r) && decide (DecredTxIn.fromBytes decredMain r.bytes = .ok r)) := by decide +kernel
/-- Data of the tests. -/
def dx1 : Py DecredTxOut := DecredTxOut.make decredMain (hx 8 0xa8ab570e00000000) (hx 2 0x0000) (hx 25 0x76a9145688f515dcf3453ca9b7a2a93aa441158a0b482c88ac)
example : ok (dx1) (fun r => decide (r.bytes = (hx 36 0xa8ab570e0000000000001976a9145688f515dcf3453ca9b7a2a93aa441158a0b482c88ac)) && decide (r.copy decredMain = .ok r) && decide (DecredTxOut.fromBytes decredMain r.bytes = .ok r)) := by decide +kernel
example : fails (DecredTxOut.fromBytes decredMain (List.replicate 1000 0xff)) .notImplementedError := by decide +kernel

/-! test_decred.py:215-400 -/

/-- Data of the tests. -/
def dw1 : Py DecredInputWitness := DecredInputWitness.make decredMain (hx 8 0x202e580e00000000) (hx 4 0x97970200) (hx 4 0x06000000) (hx 141 0x483045022100d1c4e15834d1c405446d6ed6c05b5969483151b6b0401994a13e5bda5b73c36f022076bb7b6f00586ae8eb4b1590a4c670b13c66d04608a632b9d81da1f66470d7920121033f0306ce76970a7bd4506e0d243f571c7dd2d01d3747d9aa9081d89936cb7c1e20a9fc91d0a774083ba8016cac3254d35a99a815e632a7ee7d7d163b5f6723eed951) (hx 83 0x4c5163a6147c0aef5c26e923e27336b945363f9939b97623598876a91410a35ba5323e7d6ac41d0400a7384d6d0767de3d6704cde2c259b17576a9147b5acb92ad78a9f983baa69c4434aa52499815826888ac)
example : ok (dw1) (fun r => decide (r.bytes = (hx 241 0x202e580e000000009797020006000000e0483045022100d1c4e15834d1c405446d6ed6c05b5969483151b6b0401994a13e5bda5b73c36f022076bb7b6f00586ae8eb4b1590a4c670b13c66d04608a632b9d81da1f66470d7920121033f0306ce76970a7bd4506e0d243f571c7dd2d01d3747d9aa9081d89936cb7c1e20a9fc91d0a774083ba8016cac3254d35a99a815e632a7ee7d7d163b5f6723eed9514c5163a6147c0aef5c26e923e27336b945363f9939b97623598876a91410a35ba5323e7d6ac41d0400a7384d6d0767de3d6704cde2c259b17576a9147b5acb92ad78a9f983baa69c4434aa52499815826888ac)) && decide (r.copy decredMain = .ok r)) := by decide +kernel
/-- Data of the tests. -/
def dt1 : Py DecredTx := do DecredTx.make decredMain (hx 4 0x01000000) [← di1] [← dx1] (hx 4 0xcde2c259) (hx 4 0x00000000) [← dw1]
example : ok (dt1) (fun r => decide (r.bytes = (hx 333 0x01000000010ce98a1ee5669ad51e0e121c4ef898df84d4a4988a184a8b9c4a4141582fd7fd0000000000ffffffff01a8ab570e0000000000001976a9145688f515dcf3453ca9b7a2a93aa441158a0b482c88accde2c2590000000001202e580e000000009797020006000000e0483045022100d1c4e15834d1c405446d6ed6c05b5969483151b6b0401994a13e5bda5b73c36f022076bb7b6f00586ae8eb4b1590a4c670b13c66d04608a632b9d81da1f66470d7920121033f0306ce76970a7bd4506e0d243f571c7dd2d01d3747d9aa9081d89936cb7c1e20a9fc91d0a774083ba8016cac3254d35a99a815e632a7ee7d7d163b5f6723eed9514c5163a6147c0aef5c26e923e27336b945363f9939b97623598876a91410a35ba5323e7d6ac41d0400a7384d6d0767de3d6704cde2c259b17576a9147b5acb92ad78a9f983baa69c4434aa52499815826888ac)) && decide (r.txId = (hx 32 0x49245425967b7e39c1eb27d261c7fe972675cccacff19ae9cc21f434ccddd986)) && decide (r.txIdLe = (hx 32 0x86d9ddcc34f421cce99af1cfcacc752697fec761d227ebc1397e7b9625542449)) && decide (r.calculateFee = 33400) && decide (r.witness decredMain = .ok (hx 246 0x0100020001202e580e000000009797020006000000e0483045022100d1c4e15834d1c405446d6ed6c05b5969483151b6b0401994a13e5bda5b73c36f022076bb7b6f00586ae8eb4b1590a4c670b13c66d04608a632b9d81da1f66470d7920121033f0306ce76970a7bd4506e0d243f571c7dd2d01d3747d9aa9081d89936cb7c1e20a9fc91d0a774083ba8016cac3254d35a99a815e632a7ee7d7d163b5f6723eed9514c5163a6147c0aef5c26e923e27336b945363f9939b97623598876a91410a35ba5323e7d6ac41d0400a7384d6d0767de3d6704cde2c259b17576a9147b5acb92ad78a9f983baa69c4434aa52499815826888ac)) && decide (r.witnessHash decredMain = .ok (hx 32 0xef6ea13e5e65874ef767eed3e3b93af63121b3c63207bdfff980b01d9878572e)) && decide (r.copy decredMain = .ok r) && decide (r.sighashNone = .error .notImplementedError)) := by decide +kernel
example : fails (do DecredTx.make decredMain (hx 4 0x01000000) [] [← dx1] (hx 4 0xcde2c259) (hx 4 0x00000000) []) .valueError := by decide +kernel

/-! test_decred.py:515-545, the vector of dcrd -/

example : ok (do DecredTx.make decredMain (hx 4 0x01000000) [← DecredTxIn.make decredMain (← DecredOutpoint.make decredMain (List.replicate 32 0) (List.replicate 4 0xff) [0]) (List.replicate 4 0xff)] [← DecredTxOut.make decredMain (← i2lePadded 5000000000 8) [0xf0, 0xf0] (hx 67 0x4104d64bdfd09eb1c5fe295abdeb1dca4281be988e2da0b6c1c6a59dc226c28624e18175e851c96b973d81b01cc31f047834bc06d6d6edf620d184241a6aed8b63a6ac)] [0, 0, 0, 0] [0, 0, 0, 0] [← DecredInputWitness.make decredMain (← i2lePadded 5000000000 8) (List.replicate 4 0x34) (List.replicate 4 0x2e) [0x04, 0x31, 0xdc, 0x00, 0x1b, 0x01, 0x62] []]) (fun r => decide (r.txId = (hx 32 0x4538fc1618badd058ee88fd020984451024858796be0a1ed111877f887e1bd53))) := by decide +kernel

/-! test_decred.py:547-610 -/

example : ok (do DecredTx.make decredMain (hx 4 0x01000000) [← DecredTxIn.fromBytes decredMain (hx 41 0x04aacce7ca34e1f59e55d957f4d27aa6f54c5dd4046665840797ffe88b27320a0100000000ffffffff), ← DecredTxIn.fromBytes decredMain (hx 41 0x0785b51df7d46512ebd63c4dd17f391360c9d6fc5c8846a0684184a601c30c790100000000ffffffff), ← DecredTxIn.fromBytes decredMain (hx 41 0x0998d992230ab4b6ab112923bf8fd4db6bd977292ec52e722d27e389e229d1e10000000000ffffffff)] [← DecredTxOut.fromBytes decredMain (hx 36 0xe05d6a2f0000000000001976a9142fc06df75ec010d3ff25c3de77713fca4e731d4088ac), ← DecredTxOut.fromBytes decredMain (hx 36 0xe09cede90500000000001976a914c2a65fb57cd570a53ff6cc721d854d5d7549f23f88ac)] (hx 4 0x00000000) (hx 4 0x00000000) [← DecredInputWitness.make decredMain (hx 8 0x00e40b5402000000) (hx 4 0x51010000) (hx 4 0x04000000) (hx 106 0x47304402203162d5cea243874539bb6e35c9515342fcfa3fc7b8fa77ca9a17cef541c8957302204e00f31091c8f982eff563b805d1909679741c02c851919a709fce40dcd452ad012103ee327661befce7e68046a18aab5d2a566b0425069ad6b7b1951a737d40abd9cb) [], ← DecredInputWitness.make decredMain (hx 8 0x0012c2e801000000) (hx 4 0x3f010000) (hx 4 0x01000000) (hx 106 0x4730440220557f6069906bc945c9139f4d2d222abc30e521a20845513897d9ddcee3cb819002205edbda2708bb8df15c3a6f6b28144247544044e320448ff4ac766630bd6532aa012103d7502318c3205e4df6d0b2e9afa4c721526421914783fb33ce2aec9d40f0b449) [], ← DecredInputWitness.make decredMain (hx 8 0x0050d6dc01000000) (hx 4 0x0d010000) (hx 4 0x02000000) (hx 107 0x48304502210099f5cb0ca36e68f7f815e17538706b374e24ec9e61795984f767f230ee08dea802204c908c38e647e5d551dba5054adfd0430dde19ca94d83b68a795678d5246a90d012103ee327661befce7e68046a18aab5d2a566b0425069ad6b7b1951a737d40abd9cb) []]) (fun r => decide (r.txIns.map (·.bytes) = [(hx 41 0x04aacce7ca34e1f59e55d957f4d27aa6f54c5dd4046665840797ffe88b27320a0100000000ffffffff), (hx 41 0x0785b51df7d46512ebd63c4dd17f391360c9d6fc5c8846a0684184a601c30c790100000000ffffffff), (hx 41 0x0998d992230ab4b6ab112923bf8fd4db6bd977292ec52e722d27e389e229d1e10000000000ffffffff)]) && decide (r.txOuts.map (·.bytes) = [(hx 36 0xe05d6a2f0000000000001976a9142fc06df75ec010d3ff25c3de77713fca4e731d4088ac), (hx 36 0xe09cede90500000000001976a914c2a65fb57cd570a53ff6cc721d854d5d7549f23f88ac)])) := by decide +kernel

/-! test_decred.py:640-700, the builder -/

example : ok (makeOutput dcr (hx 8 0xa8ab570e00000000) (hx 25 0x76a9145688f515dcf3453ca9b7a2a93aa441158a0b482c88ac) (some (hx 2 0x0000))) (fun r => decide (outBytes r = (hx 36 0xa8ab570e0000000000001976a9145688f515dcf3453ca9b7a2a93aa441158a0b482c88ac))) := by decide +kernel
example : ok (makeDecredWitness dcr (hx 8 0x202e580e00000000) (hx 4 0x97970200) (hx 4 0x06000000) (hx 141 0x483045022100d1c4e15834d1c405446d6ed6c05b5969483151b6b0401994a13e5bda5b73c36f022076bb7b6f00586ae8eb4b1590a4c670b13c66d04608a632b9d81da1f66470d7920121033f0306ce76970a7bd4506e0d243f571c7dd2d01d3747d9aa9081d89936cb7c1e20a9fc91d0a774083ba8016cac3254d35a99a815e632a7ee7d7d163b5f6723eed951) (hx 83 0x4c5163a6147c0aef5c26e923e27336b945363f9939b97623598876a91410a35ba5323e7d6ac41d0400a7384d6d0767de3d6704cde2c259b17576a9147b5acb92ad78a9f983baa69c4434aa52499815826888ac)) (fun r => decide (r.bytes = (hx 241 0x202e580e000000009797020006000000e0483045022100d1c4e15834d1c405446d6ed6c05b5969483151b6b0401994a13e5bda5b73c36f022076bb7b6f00586ae8eb4b1590a4c670b13c66d04608a632b9d81da1f66470d7920121033f0306ce76970a7bd4506e0d243f571c7dd2d01d3747d9aa9081d89936cb7c1e20a9fc91d0a774083ba8016cac3254d35a99a815e632a7ee7d7d163b5f6723eed9514c5163a6147c0aef5c26e923e27336b945363f9939b97623598876a91410a35ba5323e7d6ac41d0400a7384d6d0767de3d6704cde2c259b17576a9147b5acb92ad78a9f983baa69c4434aa52499815826888ac))) := by decide +kernel
example : ok (makeOutpoint dcr (hx 32 0x0ce98a1ee5669ad51e0e121c4ef898df84d4a4988a184a8b9c4a4141582fd7fd) 0 (some 0)) (fun r => decide (outpointBytes r = (hx 37 0x0ce98a1ee5669ad51e0e121c4ef898df84d4a4988a184a8b9c4a4141582fd7fd0000000000))) := by decide +kernel
example : ok (do makeAnyLegacyInput dcr (← makeOutpoint dcr (hx 32 0x0ce98a1ee5669ad51e0e121c4ef898df84d4a4988a184a8b9c4a4141582fd7fd) 0 (some 0)) [] [] 4294967295) (fun r => decide (inBytes r = (hx 41 0x0ce98a1ee5669ad51e0e121c4ef898df84d4a4988a184a8b9c4a4141582fd7fd0000000000ffffffff))) := by decide +kernel

end Verif.Vectors
