import Verif.Vectors.Basic
import Verif.Model.ByteData
import Verif.Model.Blake256

/-! tests/test_utils.py, test_blake256.py, tx/test_shared.py and networks/test_networks.py.

Written by `tools/vectors.py`; these are tests of the model, no theorem depends on them. -/

namespace Verif.Vectors

set_option maxRecDepth 100000

/-! test_utils.py:14-43 -/

example : i2le 0 = .ok (hx 1 0x00) := by decide +kernel
example : i2le 255 = .ok (hx 1 0xff) := by decide +kernel
example : i2le 256 = .ok (hx 2 0x0001) := by decide +kernel
example : i2le 11259375 = .ok (hx 3 0xefcdab) := by decide +kernel
example : i2lePadded 0 4 = .ok (hx 4 0x00000000) := by decide +kernel
example : i2lePadded 255 1 = .ok (hx 1 0xff) := by decide +kernel
example : i2lePadded 256 8 = .ok (hx 8 0x0001000000000000) := by decide +kernel
example : i2lePadded 11259375 5 = .ok (hx 5 0xefcdab0000) := by decide +kernel
example : i2leScript (0) = .ok (pystr "00") := by decide +kernel
example : i2leScript (128) = .ok (pystr "8000") := by decide +kernel
example : i2leScript (-128) = .ok (pystr "80") := by decide +kernel
example : i2leScript (127) = .ok (pystr "7f") := by decide +kernel
example : i2leScript (16777216) = .ok (pystr "00000001") := by decide +kernel
example : i2leScript (-16777216) = .ok (pystr "000000ff") := by decide +kernel

/-! test_utils.py:45-90 -/

example : le2i (hx 4 0x00000000) = 0 := by decide +kernel
example : le2i (hx 1 0xff) = 255 := by decide +kernel
example : le2i (hx 8 0x0001000000000000) = 256 := by decide +kernel
example : le2i (hx 5 0xefcdab0000) = 11259375 := by decide +kernel
example : be2i (hx 4 0x00000000) = 0 := by decide +kernel
example : be2i (hx 1 0xff) = 255 := by decide +kernel
example : be2i (hx 8 0x0001000000000000) = 281474976710656 := by decide +kernel
example : be2i (hx 5 0xefcdab0000) = 1029947719680 := by decide +kernel
example : i2be 0 = .ok (hx 1 0x00) := by decide +kernel
example : i2be 255 = .ok (hx 1 0xff) := by decide +kernel
example : i2be 65535 = .ok (hx 2 0xffff) := by decide +kernel
example : i2bePadded 0 5 = .ok (hx 5 0x0000000000) := by decide +kernel
example : i2bePadded 255 3 = .ok (hx 3 0x0000ff) := by decide +kernel
example : i2bePadded 65535 2 = .ok (hx 2 0xffff) := by decide +kernel
example : changeEndianness (hx 1 0x00) = (hx 1 0x00) := by decide +kernel
example : changeEndianness (hx 2 0x00aa) = (hx 2 0xaa00) := by decide +kernel
example : changeEndianness (hx 1 0xff) = (hx 1 0xff) := by decide +kernel
example : changeEndianness (hx 4 0x00abcdef) = (hx 4 0xefcdab00) := by decide +kernel

/-! test_utils.py:92-160, the hash functions -/

example : hashlib.rmd160 [] = (hx 20 0x9c1185a5c5e9fc54612808977ee8f548b2258d31) := by decide +kernel
example : hashlib.rmd160 (hx 14 0x6d65737361676520646967657374) = (hx 20 0x5d0689ef49d2fae572b881b123a85ffa21595f36) := by decide +kernel
example : hashlib.sha256 (hx 105 0x52210375e00eb72e29da82b89367947f29ef34afb75e8654f6ea368e0acdfd92976b7c2103a1b26313f430c4b15bb1fdce663207659d8cac749a0e53d70eff01874496feff2103c96d495bfdd5ba4145e3e046fee45e84a8a48ad05bd8dbb395c011a32cf9f88053ae) = (hx 32 0x701a8d401c84fb13e6baf169d59684e17abd9fa216c8cc5b9fc63d622ff8c58d) := by decide +kernel
example : btc.hash160 (hx 65 0x0000000000000000000000000000000000000000000000000000000000000000000000000000000000000000000000000000000000000000000000000000000000) = (hx 20 0x1b60c31dba9403c74d81af255f0c300bfed5faa3) := by decide +kernel
example : btc.hash160 (hx 65 0x1111111111111111111111111111111111111111111111111111111111111111111111111111111111111111111111111111111111111111111111111111111111) = (hx 20 0xe723a0f62396b8b03dbd9e48e9b9efe2eb704aab) := by decide +kernel
example : btc.hash160 (hx 33 0x03dc3dbabbf8c5e15d1eb3606a6a42c6d3a8c546f2a196a80a08b9a9021e2be33d) = (hx 20 0x3e00b5b60a6e64515d7e6702d8d75e9b6fc19549) := by decide +kernel
example : btc.hash256 (hx 1 0x00) = (hx 32 0x1406e05881e299367766d313e26c05564ec91bf721d31726bd6e46e60689539a) := by decide +kernel
example : btc.hash256 (hx 3 0x616263) = (hx 32 0x4f8b42c22dd3729b519ba6f68d2da7cc5b2d606d05daed5ad5128cc03e6c6358) := by decide +kernel
example : btc.hash256 (hx 43 0x54686520717569636b2062726f776e20666f78206a756d7073206f76657220746865206c617a7920646f67) = (hx 32 0x6d37795021e544d82b41850edf7aabab9a0ebe274e54a519840c4666f35b3937) := by decide +kernel

/-! test_utils.py:162-180 and test_blake256.py: all vectors -/

example : dcr.hash160 [0] = hashlib.rmd160 (blake256 [0]) := by decide +kernel
example : dcr.hash256 [0] = blake256 (blake256 [0]) := by decide +kernel
example : Blake.blakeHash ([] : Bytes) = (hx 32 0x716f6e863f744b9ac22c97ec7b76ea5f5908bc5b2f67c61510bfc4751384ea7a) := by decide +kernel
example : Blake.blakeHash (hx 1 0x61) = (hx 32 0x43234ff894a9c0590d0246cfc574eb781a80958b01d7a2fa1ac73c673ba5e311) := by decide +kernel
example : Blake.blakeHash (hx 2 0x6162) = (hx 32 0x658c6d9019a1deddbcb3640a066dfd23471553a307ab941fd3e677ba887be329) := by decide +kernel
example : Blake.blakeHash (hx 3 0x616263) = (hx 32 0x1833a9fa7cf4086bd5fda73da32e5a1d75b4c3f89d5c436369f9d78bb2da5c28) := by decide +kernel
example : Blake.blakeHash (hx 4 0x61626364) = (hx 32 0x35282468f3b93c5aaca6408582fced36e578f67671ed0741c332d68ac72d7aa2) := by decide +kernel
example : Blake.blakeHash (hx 5 0x6162636465) = (hx 32 0x9278d633efce801c6aa62987d7483d50e3c918caed7d46679551eed91fba8904) := by decide +kernel
example : Blake.blakeHash (hx 6 0x616263646566) = (hx 32 0x7a17ee5e289845adcafaf6ca1b05c4a281b232a71c7083f66c19ba1d1169a8d4) := by decide +kernel
example : Blake.blakeHash (hx 7 0x61626364656667) = (hx 32 0xee8c7f94ff805cb2e644643010ea43b0222056420917ec70c3da764175193f8f) := by decide +kernel
example : Blake.blakeHash (hx 8 0x6162636465666768) = (hx 32 0x7b37c0876d29c5add7800a1823795a82b809fc12f799ff6a4b5e58d52c42b17e) := by decide +kernel
example : Blake.blakeHash (hx 9 0x616263646566676869) = (hx 32 0xbdc514bea74ffbb9c3aa6470b08ceb80a88e313ad65e4a01457bbffd0acc86de) := by decide +kernel
example : Blake.blakeHash (hx 10 0x6162636465666768696a) = (hx 32 0x12e3afb9739df8d727e93d853faeafc374cc55aedc937e5a1e66f5843b1d4c2e) := by decide +kernel
example : Blake.blakeHash (hx 41 0x44697363617264206d65646963696e65206d6f7265207468616e2074776f207965617273206f6c642e) = (hx 32 0x22297d373b751f581944bb26315133f6fda2f0bf60f65db773900f61f81b7e79) := by decide +kernel
example : Blake.blakeHash (hx 57 0x48652077686f2068617320612073686164792070617374206b6e6f77732074686174206e69636520677579732066696e697368206c6173742e) = (hx 32 0x4d48d137bc9cf6d21415b805bf33f59320337d85c673998260e03a02a0d760cd) := by decide +kernel
example : Blake.blakeHash (hx 42 0x4920776f756c646e2774206d617272792068696d207769746820612074656e20666f6f7420706f6c652e) = (hx 32 0xbeba299e10f93e17d45663a6dc4b8c9349e4f5b9bac0d7832389c40a1b401e5c) := by decide +kernel
example : Blake.blakeHash (hx 57 0x46726565212046726565212f4120747269702f746f204d6172732f666f72203930302f656d707479206a6172732f4275726d61205368617665) = (hx 32 0x42e082ae7f967781c6cd4e0ceeaeeb19fb2955adbdbaf8c7ec4613ac130071b3) := by decide +kernel
example : Blake.blakeHash (hx 58 0x5468652064617973206f6620746865206469676974616c20776174636820617265206e756d62657265642e20202d546f6d2053746f7070617264) = (hx 32 0x207d06b205bfb359df91b48b6fd8aa6e4798b712d1cc5e91a254da9cef8684a3) := by decide +kernel
example : Blake.blakeHash (hx 27 0x4e6570616c207072656d69657220776f6e27742072657369676e2e) = (hx 32 0xd56eab6927e371e2148b0788779aaf565d30567af2af822b6be3b90db9767a70) := by decide +kernel
example : Blake.blakeHash (hx 67 0x466f7220657665727920616374696f6e20746865726520697320616e20657175616c20616e64206f70706f7369746520676f7665726e6d656e742070726f6772616d2e) = (hx 32 0x01020709ca7fd10dc7756ce767d508d7206167d300b7a7ed76838a8547a7898c) := by decide +kernel
example : Blake.blakeHash (hx 57 0x486973206d6f6e6579206973207477696365207461696e7465643a20277461696e7420796f75727320616e6420277461696e74206d696e652e) = (hx 32 0x5569a6cc6535a66da221d8f6ad25008f28752d0343f3f1d757f1ecc9b1c61536) := by decide +kernel
example : Blake.blakeHash (hx 88 0x5468657265206973206e6f20726561736f6e20666f7220616e7920696e646976696475616c20746f2068617665206120636f6d707574657220696e20746865697220686f6d652e202d4b656e204f6c73656e2c2031393737) = (hx 32 0x8ff699b5ac7687c82600e89d0ff6cfa87e7179759184386971feb76fbae9975f) := by decide +kernel
example : Blake.blakeHash (hx 75 0x4974277320612074696e79206368616e676520746f2074686520636f646520616e64206e6f7420636f6d706c6574656c792064697367757374696e672e202d20426f62204d616e6368656b) = (hx 32 0xf4b3a7c85a418b15ce330fd41ae0254b036ad48dd98aa37f0506a995ba9c6029) := by decide +kernel
example : Blake.blakeHash (hx 24 0x73697a653a2020612e6f75743a2020626164206d61676963) = (hx 32 0x1ed94bab64fe560ef0983165fcb067e9a8a971c1db8e6fb151ff9a7c7fe877e3) := by decide +kernel
example : Blake.blakeHash (hx 49 0x546865206d616a6f722070726f626c656d20697320776974682073656e646d61696c2e20202d4d61726b20486f72746f6e) = (hx 32 0xff15b54992eedf9889f7b4bbb16692881aa01ed10dfc860fdb04785d8185cd3c) := by decide +kernel
example : Blake.blakeHash (hx 72 0x47697665206d65206120726f636b2c20706170657220616e642073636973736f727320616e6420492077696c6c206d6f76652074686520776f726c642e20204343466573746f6f6e) = (hx 32 0x8a0a7c417a47deec0b6474d8c247da142d2e315113a2817af3de8f45690d8652) := by decide +kernel
example : Blake.blakeHash (hx 46 0x49662074686520656e656d792069732077697468696e2072616e67652c207468656e20736f2061726520796f752e) = (hx 32 0x310d263fdab056a930324cdea5f46f9ea70219c1a74b01009994484113222a62) := by decide +kernel
example : Blake.blakeHash (hx 70 0x497427732077656c6c2077652063616e6e6f742068656172207468652073637265616d732f546861742077652063726561746520696e206f74686572732720647265616d732e) = (hx 32 0x1aaa0903aa4cf872fe494c322a6e535698ea2140e15f26fb6088287aedceb6ba) := by decide +kernel
example : Blake.blakeHash (hx 68 0x596f752072656d696e64206d65206f6620612054562073686f772c206275742074686174277320616c6c2072696768743a204920776174636820697420616e797761792e) = (hx 32 0x2eb81bcaa9e9185a7587a1b26299dcfb30f2a58a7f29adb584b969725457ad4f) := by decide +kernel
example : Blake.blakeHash (hx 32 0x4320697320617320706f727461626c652061732053746f6e6568656467652121) = (hx 32 0xc27b1683ef76e274680ab5492e592997b0d9d5ac5a5f4651b6036f64215256af) := by decide +kernel
example : Blake.blakeHash (hx 88 0x4576656e206966204920636f756c64206265205368616b657370656172652c2049207468696e6b20492073686f756c64207374696c6c2063686f6f736520746f20626520466172616461792e202d20412e204875786c6579) = (hx 32 0x3995cce8f32b174c22ffac916124bd095c80205d9d5f1bb08a155ac24b40d6cb) := by decide +kernel
example : Blake.blakeHash (hx 132 0x546865206675676163697479206f66206120636f6e7374697475656e7420696e2061206d697874757265206f66206761736573206174206120676976656e2074656d70657261747572652069732070726f706f7274696f6e616c20746f20697473206d6f6c65206672616374696f6e2e20204c657769732d52616e64616c6c2052756c65) = (hx 32 0x496f7063f8bd479bf54e9d87e9ba53e277839ac7fdaecc5105f2879b58ee562f) := by decide +kernel
example : Blake.blakeHash (hx 56 0x486f772063616e20796f752077726974652061206269672073797374656d20776974686f757420432b2b3f20202d5061756c20476c69636b) = (hx 32 0x2e0eff918940b01eea9539a02212f33ee84f77fab201f4287aa6167e4a1ed043) := by decide +kernel
example : Blake.blakeHash (hx 43 0x54686520717569636b2062726f776e20666f78206a756d7073206f76657220746865206c617a7920646f67) = (hx 32 0x7576698ee9cad30173080678e5965916adbb11cb5245d386bf1ffda1cb26c9d7) := by decide +kernel
example : Blake.blakeHash (hx 5 0x424c414b45) = (hx 32 0x07663e00cf96fbc136cf7b1ee099c95346ba3920893d18cc8851f22ee2e36aa6) := by decide +kernel
example : Blake.blakeHash (hx 51 0x27424c414b452077696e73205348412d332120486f6f7261792121212720284920686176652074696d65206d616368696e6529) = (hx 32 0x18a393b4e62b1887a2edf79a5c5a5464daf5bbb976f4007bea16a73e4c1e198e) := by decide +kernel
example : Blake.blakeHash (hx 26 0x48454c50212049276d207472617070656420696e206861736821) = (hx 32 0x1e75db2a709081f853c2229b65fd1558540aa5e7bd17b04b9a4b31989effa711) := by decide +kernel

/-! test_shared.py:8-66, byte objects -/

example : (⟨[0xff], true, false⟩ : ByteData).repr (pystr "ByteData") = (pystr "ByteData: bytearray(b'\\xff')") := by decide +kernel
example : (⟨hx 3 0xffdd88, true, false⟩ : ByteData).find (.bytes (hx 1 0xff)) = .ok (0) := by decide +kernel
example : (⟨hx 3 0xffdd88, true, false⟩ : ByteData).find (.bytes (hx 1 0xdd)) = .ok (1) := by decide +kernel
example : (⟨hx 3 0xffdd88, true, false⟩ : ByteData).find (.bytes (hx 1 0x88)) = .ok (2) := by decide +kernel
example : (⟨hx 3 0xffdd88, true, false⟩ : ByteData).find (.bytes (hx 1 0x00)) = .ok (-1) := by decide +kernel
example : (⟨hx 3 0xffdd88, true, false⟩ : ByteData).hex = (pystr "ffdd88") := by decide +kernel

/-! test_shared.py:69-150, `VarInt` -/

example : ok (VarInt.make 251) (fun r => decide (r.bytes = (hx 1 0xfb))) := by decide +kernel
example : ok (do (← VarInt.make 251).copy) (fun r => decide (r.bytes = (hx 1 0xfb))) := by decide +kernel
example : ok (VarInt.make 255) (fun r => decide (r.bytes = (hx 3 0xfdff00))) := by decide +kernel
example : ok (do (← VarInt.make 255).copy) (fun r => decide (r.bytes = (hx 3 0xfdff00))) := by decide +kernel
example : ok (VarInt.make 65535) (fun r => decide (r.bytes = (hx 3 0xfdffff))) := by decide +kernel
example : ok (do (← VarInt.make 65535).copy) (fun r => decide (r.bytes = (hx 3 0xfdffff))) := by decide +kernel
example : ok (VarInt.make 4294967295) (fun r => decide (r.bytes = (hx 5 0xfeffffffff))) := by decide +kernel
example : ok (do (← VarInt.make 4294967295).copy) (fun r => decide (r.bytes = (hx 5 0xfeffffffff))) := by decide +kernel
example : ok (VarInt.make 18446744073709551615) (fun r => decide (r.bytes = (hx 9 0xffffffffffffffffff))) := by decide +kernel
example : ok (do (← VarInt.make 18446744073709551615).copy) (fun r => decide (r.bytes = (hx 9 0xffffffffffffffffff))) := by decide +kernel
example : ok (VarInt.make 81985529216486895) (fun r => decide (r.bytes = (hx 9 0xffefcdab8967452301))) := by decide +kernel
example : ok (do (← VarInt.make 81985529216486895).copy) (fun r => decide (r.bytes = (hx 9 0xffefcdab8967452301))) := by decide +kernel
example : ok (VarInt.make 38757784879104) (fun r => decide (r.bytes = (hx 9 0xff0000000040230000))) := by decide +kernel
example : ok (do (← VarInt.make 38757784879104).copy) (fun r => decide (r.bytes = (hx 9 0xff0000000040230000))) := by decide +kernel
example : fails (VarInt.make (-5)) .valueError := by decide +kernel
example : fails (VarInt.make 18446744073709551617) .valueError := by decide +kernel
example : ok (VarInt.fromBytes bitcoinMain (hx 3 0xfd9123)) (fun r => decide (r.bytes = (hx 3 0xfd9123))) := by decide +kernel
example : ok (VarInt.fromBytes bitcoinMain (hx 1 0x00)) (fun r => decide (r.bytes = (hx 1 0x00))) := by decide +kernel
example : ok (VarInt.fromBytes bitcoinMain (hx 9 0xffffffffffffffffff)) (fun r => decide (r.bytes = (hx 9 0xffffffffffffffffff))) := by decide +kernel
example : fails (VarInt.fromBytes bitcoinMain [0xfe]) .valueError := by decide +kernel
example : fails (VarInt.fromBytes bitcoinMain [0xfe, 0, 0, 0]) .valueError := by decide +kernel
example : fails (VarInt.fromBytes zcashOverwinterMain [0xfd, 0, 0]) .valueError := by decide +kernel
example : fails (VarInt.fromBytes zcashOverwinterMain [0xfe, 0, 0, 0, 0]) .valueError := by decide +kernel

/-! test_networks.py and test_riemann.py -/

example : ∀ p ∈ supported, getNetwork p.1 = .ok p.2 := by decide +kernel
example : fails (getNetwork (pystr "toast")) .valueError := by decide +kernel

end Verif.Vectors
