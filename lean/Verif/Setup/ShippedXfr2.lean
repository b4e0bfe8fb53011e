import Verif.Setup.Shipped

/-!
Row 2 of the table in /repo/api/parameters/transfer-vk-specific.bin: transfers with 2 inputs.  The test of `Shipped.lean` is run on every
entry by the kernel.
-/

namespace Verif.Setup

/-- the entry for 2 inputs and 1 output: words of 56 bytes, little-endian, the last one shorter -/
def xfrFile21Words : List Nat := [
  0x0000000000000020000000000000000000000000000000000000000000000000000000000000000000000000000000000000000000000000,
  0x0000000000000000000000000000000000000000000000200000000000000000000000000000000000000000000000000000000000000000,
  0x0000000000000000000000000000000000000000000000000000000000000000000000000000002000000000000000000000000000000000,
  0x0000000000000000000000000000002000000000000000000000000000000000000000000000000000000000000000000000000000000020,
  0x0000000000000000000000000000000000000000000000000000000000000020000000000000000000000000000000000000000000000000,
  0x0000000000000020000000000000000000000000000000000000000000000000000000000000000000000000000000200000000000000000,
  0x0000000000000000000000000000000000000000000000200000000000000000000000000000000000000000000000000000000000000000,
  0x0000000000000000000000000000000000000000000000000000000000000000000000000000002000000000000000000000000000000000,
  0x0000000000000000000000000000002000000000000000000000000000000000000000000000000000000000000000000000000000000020,
  0x0000000000000000000000000000000000000000000000000000000000000020000000000000000000000000000000000000000000000000,
  0x0000000000000020000000000000000000000000000000000000000000000000000000000000000000000000000000200000000000000000,
  0x0000000000000000000000000000000000000000000000200000000000000000000000000000000000000000000000000000000000000000,
  0x0000000000000000000000000000000000000000000000000000000000000000000000000000002000000000000000000000000000000000,
  0x0000000000000000000000000000002000000000000000000000000000000000000000000000000000000000000000000000000000000020,
  0x0000000000000000000000000000000000000000000000000000000000000020000000000000000000000000000000000000000000000000,
  0x0000000000000020000000000000000000000000000000000000000000000000000000000000000000000000000000200000000000000000,
  0x0000000000000000000000000000000000000000000000200000000000000000000000000000000000000000000000000000000000000000,
  0x0000000000000000000000000000000000000000000000000000000000000000000000000000002000000000000000000000000000000000,
  0x0000000000000000000000000000002000000000000000000000000000000000000000000000000000000000000000000000000000000020,
  0x0000000000000000000000000000000000000000000000000000000000000020000000000000000000000000000000000000000000000000,
  0x0000000000000020000000000000000000000000000000000000000000000000000000000000000000000000000000200000000000000000,
  0x0000000000000000000000000000000000000000000000200000000000000000000000000000000000000000000000000000000000000000,
  0x0000000000000000000000000000000000000000000000000000000000000000000000000000002000000000000000000000000000000000,
  0x0000000000000000000000000000002000000000000000000000000000000000000000000000000000000000000000000000000000000020,
  0x0000000000000000000000000000000000000000000000000000000000000020000000000000000000000000000000000000000000000000,
  0x0000000000000020000000000000000000000000000000000000000000000000000000000000000000000000000000200000000000000000,
  0x0000000000000000000000000000000000000000000000200000000000000000000000000000000000000000000000000000000000000000,
  0x0000000000000000000000000000000000000000000000000000000000000000000000000000002000000000000000000000000000000000,
  0x0000000000000000000000000000002000000000000000000000000000000000000000000000000000000000000000000000000000000020,
  0x0000000000000000000000000000000000000000000000000000000000000020000000000000000000000000000000000000000000000000,
  0x0000000000000020000000000000000000000000000000000000000000000000000000000000000000000000000000200000000000000000,
  0x0000000000000000000000000000000000000000000000200000000000000000000000000000000000000000000000000000000000000000,
  0x0000000000000000000000000000000000000000000000000000000000000000000000000000002000000000000000000000000000000000,
  0x0000000000000000000000000000002000000000000000000000000000000000000000000000000000000000000000000000000000000020,
  0x0000000000000000000000000000000000000000000000000000000000000020000000000000000000000000000000000000000000000000,
  0x0000000000000020000000000000000000000000000000000000000000000000000000000000000000000000000000200000000000000000,
  0x0000000000004000000000000000355700000000000000000000000000000000000000000000000000000000000000000000000000000000,
  0x09f4ce8810427c0000000000000030000000000000000d000000000000000001000000000000000000000000000000000000000000000000,
  0x99df3309b802b6000000000000003096a0476f5f390074e31620433ccdd1bcbf0714e38fb00d6f247bc5fd60786836f035e1e3635912611d,
  0x9869855fa5e0b500000000000000308ed3327a3e06a22a7e6516d4d84e4db23d1e6431a3277b8aeabd89af5a80b570e0fc1d3771e6ac3921,
  0xbc34860cd656310000000000000030892da92b591fbbc97762be86ffcf1ef0dcea696f7238c52b032f4d0c708929e8116ca171722b5dbd4f,
  0xb881f6072ab7cb000000000000003094cda0dc9cdb562b2f5e8c1caa59429840ccd11e61705231d1b036b6b7eb6dffe661ea742d380ec9e3,
  0x7655f911604374000000000000003098361129f70476812d906d19e6e78c6d900d40295fcaa55b6464ade6fc1639dc0189026f878bb0415d,
  0x32d24ce33134270000000000000030085d114fc80f6e8ef4d6d108fe6b0496bb0211415aadc1e4de95141af85da69d009ead5071ec4c112c,
  0x0000000000000000000000000000308d2aaaaf1cfdaa6a3981654ad5730568c52445f745df7d0150c7908200dcdc860cb03f0f2fa962d170,
  0x6989dcabf35b2300000000000000304000000000000000000000000000000000000000000000000000000000000000000000000000000000,
  0xc207802f13be6b000000000000003002dd73895320cb9f1ad07bccb33eb9f36a7c5a916342c4b83bcdb37c01e706e317be91f46f820f3776,
  0x1812132e92a74600000000000000308d2600ca9c079561e297d328266e9392bbe6d8b94dab7a3a64ee06faa61f794232934873b5da6f482f,
  0x9d6b5123e3a4ff00000000000000301834bcd32fd7394c70dca96bab59f696908ebb3c046c26a9dca9d365031afdf0a9c39f3f3a15b59eed,
  0xfc3640f07899ac00000000000000300b91e10237a6690a073ce6b9787abe8ccf18c34a991f20c710b3d0e4352b4d985e047c710ab306a1be,
  0x0000000000003000000000000000050bd1137f0957eb1b2823c6a1c2b9c65a3db84018f648140b57b1556cac685dd1b7e18d48a09e3a29cc,
  0x0000000000003014c0020cf1ffb6bbe917e922568c971baaf90123fd1eaf8811d9e32b36639066d7b9cc7fa779a4dd5feafa89c28cbfe800,
  0x0000000000003099e54002263a4b7eaea906a22b1eb9874f684f366931362f992df636b29fd06db1a3bc9d88a6fff6da823e67a5f3ae8b00,
  0x000000000000300670c6de253475a7e837bfe291aa705937fa72635ea3409cdc2d503beaa5493d0de3a01bd7e8bbc0404070dc2b7db81d00,
  0x000000000000300e9a0a58a68111d70c33329a06000bcdbd9d3bee257c519aa027b97788f350dc77c26c06cc9b54351191edea12a9c6d800,
  0x00000000000030047658e2d2400e124f7ae164adc67202ebb25a2e226ac7c789b10456978c274e6a31d66904ca1c546f935f8c3461590200,
  0x00000000000005835d68cd9b0eb0e7b912b9a7b952dc51b289ea33bd3dee7d8103eedcbaf23d83367327244a79988bd337cbf4cbda57a400,
  0xe09db580600dd900000000000000200000000000000000000000000000000000000000000000000000000000000001000000000000002000,
  0x4ac3e799f2e8ecb47001f57845bbbfd7c0070a381d364d00000000000000206141e529fcdc704e26ef0699ca82c49012c588ada0e784368b,
  0x000000000000202664991206cc6e6a144513f4c899a417ee516fa456ee3f9ec51c159ddca97c33000000000000002022a342a0964a25e0e9,
  0x4622f6a9152435034d2ff22a5ad9e1000000000000002041feb67496b6e8973bb1afa6ef9bb1c0ce7b067b089b046d2903ccdd332888e600,
  0x00000000001e590000000000001e580000000000000f7b000000000000002a000000000000400056624634b500a166dc86b01c0d477fa6ae,
  0x00000000002b6b0000000000002b6a0000000000002b690000000000002b680000000000002b670000000000001f990000000000001f9800,
  0x00000000002b720000000000002b710000000000002b700000000000002b6f0000000000002b6e0000000000002b6d0000000000002b6c00,
  0x00000000002b790000000000002b780000000000002b770000000000002b760000000000002b750000000000002b740000000000002b7300,
  0x00000000002b800000000000002b7f0000000000002b7e0000000000002b7d0000000000002b7c0000000000002b7b0000000000002b7a00,
  0x00000000002b870000000000002b860000000000002b850000000000002b840000000000002b830000000000002b820000000000002b8100,
  0xb783e266c1e7ad0000000000000020000000000000002a0000000000002b8b0000000000002b8a0000000000002b890000000000002b8800,
  0xc3d6f6c74c64346bcd9f343d33216651deacccd9d56b990000000000000020198b034627c175a4f19d4cc7a3756f7dbe2adbac83c10a093f,
  0x000000000000201a6f26b409342a1f05f9f31d1f4e0d346939c1bb2ca3fb05c0886c8b82903ffc000000000000002036d2c60a0878ff722a,
  0xb1bdee28798c4e138eccdbc517f5c90000000000000020256e06d4a197e1902c8769c097c6b67bd22605bfceaf864e1ab5c2552e06470000,
  0x83fc989f09b3bc78e2680ede2f703a9f1569c066516b3243e7847a8c34b2e9000000000000002056b9f8fa6c66725c8a1ecc9685db3ecb59,
  0xdbd4005dd7df7f00000000000000205f034793acd94ba6695ad913a0e4f50c9546ed6f7a5815206d725967829c7d7300000000000000200f,
  0x8f455349c97a8b8cb40d297c96b0247aca51bb81628b5c000000000000002053e16b71cb9fa15970546e894a77d47f35fd031d49eff53c0c,
  0x0000000000002011f2214b34f01c9a5325c8b55cd282b37d6615cebf25a02f606098a457e5ba2100000000000000201229554c77978729d6,
  0x1e2e07f38b37f30425a8e628bc951c0000000000000020123a3dbca247b02d140d6283be7f04378b092b35e4e1591670a13ffc27c8ca3600,
  0x026814b98a5b5940e57d95c48a2b2d37cc0dec3a63bea58f452f574c014eaa00000000000000202e99450cf84449921551c7e1e6588ba6ba,
  0xecbda6777b3d2800000000000000205a2bc12fb3f993c158ad64b5cc171e7ac31b5b0d0d65b332189e2cc8c6f6f08100000000000000206b,
  0x71c3caeacefcfdfd7f3567059fcfbe5a2eae68b5acf1df000000000000002032f679b97debffa9564a892bbbc45e71eff5a4a67605c29162,
  0x0000000000002034c59dc17ddcbe1e3433c202ecf7c29f773a11048d6a7b78efa47e69dae302e500000000000000206ffaab25ad6c5a815c,
  0xd00446f01406b932ecf3a199b91165000000000000002050adfc55567ff8b2123720b2ab7a89f74630fb6fe8ce9082f410611a83a0f46300,
  0xfc858c9275779b6084eb0e14827c534492b129e852ee098f2d42e7dc9127560000000000000020514b68ab114e30773d58f3b9370355553d,
  0xfec8401218113b00000000000000201e0d869c9bb5d553cc442adcd83ad3df9eec322c0e41d45d20929a89ffa54d7200000000000000205c,
  0x237bb3afae65ddefb23747c4beea3059e8cca683c6231700000000000000206b7e81363ef3726b7af3b827f2c2b5fd6b9f1dd25aec96d7b4,
  0x00000000000020013e6523bfe191c582ecdbe21a8cad60c5bda9ffcb4a27edecf64ae3beeb080f00000000000000206c7357075a32622f7d,
  0x68e71d2159f35b85357951081b3ace000000000000002005047de703dc180929f09dff56ffe9ff786addbbba3b51c6a169ac84c818c01200,
  0xdb32bf375b4f1c79437f477d0d30f8c838d876592ad3d822c768da68f7a650000000000000002045dcaff2646cca06248b1bb3a121ea19d1,
  0x893d962d923f110000000000000020113783930615c5e7dad98d1d356ec19055a824d63c0ada1a445b956e2320003700000000000000205b,
  0xc42b8bab3bebc87dc92fb89bae4bcdcf2f980064e8a84f00000000000000201574a8d6d6ecc865eae3760487dd28e51d0b9b5703afdf7691,
  0x0000000000002019dfdc9fa498388a05af496c8528c7f86c038d7692e453d827e0588d8042bd5c000000000000002066b7ed6d34a5fd608f,
  0xdf091065ef785fd56971dae2cafaa90000000000000020534b70d63c2dd4592d06e6599200706bfa17b734bd33aef89c0a55e8848f7c0b00,
  0x4f26bdc4eb407870c20e61d43b5365c691ae0f959c6d1521698f6b62f3e9e000000000000000202170cfab9a512fe08059bbf5cefb0386b9,
  0x0843d7a83a328e0000000000000020617ddf3fd7786d0713438cb85122cf994e6235bf2384cf11b7c1df9d8a3333a900000000000000206b,
  0x4d5fa678631c21c422a7fc58f6bf710798c50d612d280400000000000000202fc1434d0d080ca4cd35cc09f084704ec5ee18ead3ef90d0ee,
  0x000000000000206a7b0560029383d93d6ba5aeb1ae2bc3f88a15ebaa1e032eab6a3507e15997ac00000000000000203c7bdd374136f6512a,
  0x45e4804606b6c822ae6cf1faf5e53900000000000000200d88f0eaf5701757ac027be4600239452df23eb02baa72614937ea6dba00a90300,
  0x46c5081fc46481478e3575a9b3e07599f90faae76311b4caa57ac67656780900000000000000202799828bf3caa4e5196572777c9ff176ad,
  0x5881f5dca3ac5fca3a9761a810e8295e31e2152a779e59966244ff4b4147563d00000000000000203e]

/-- the 5473 bytes -/
def xfrFile21 : Bytes := (xfrFile21Words.flatMap (leBytes 56)).take 5473

set_option maxRecDepth 100000 in
theorem xfrFile21_check : checkTransfer xfrFile21 (Spec.transferVars 20 2 1) 16384 (Spec.transferPublic 20 2 1) = true := by
  decide +kernel

theorem xfrFile21_size : Spec.IsSize (Spec.transferGates 20 2 1) 16384 := isSize_of (k := 13) (by decide) (by decide)

theorem xfrFile21_len : xfrFile21.length < 2 ^ 64 := lt_of_le_of_lt (List.length_take_le _ _) (by norm_num)

/-- the entry for 2 inputs and 2 outputs: words of 56 bytes, little-endian, the last one shorter -/
def xfrFile22Words : List Nat := [
  0x0000000000000020000000000000000000000000000000000000000000000000000000000000000000000000000000000000000000000000,
  0x0000000000000000000000000000000000000000000000200000000000000000000000000000000000000000000000000000000000000000,
  0x0000000000000000000000000000000000000000000000000000000000000000000000000000002000000000000000000000000000000000,
  0x0000000000000000000000000000002000000000000000000000000000000000000000000000000000000000000000000000000000000020,
  0x0000000000000000000000000000000000000000000000000000000000000020000000000000000000000000000000000000000000000000,
  0x0000000000000020000000000000000000000000000000000000000000000000000000000000000000000000000000200000000000000000,
  0x0000000000000000000000000000000000000000000000200000000000000000000000000000000000000000000000000000000000000000,
  0x0000000000000000000000000000000000000000000000000000000000000000000000000000002000000000000000000000000000000000,
  0x0000000000000000000000000000002000000000000000000000000000000000000000000000000000000000000000000000000000000020,
  0x0000000000000000000000000000000000000000000000000000000000000020000000000000000000000000000000000000000000000000,
  0x0000000000000020000000000000000000000000000000000000000000000000000000000000000000000000000000200000000000000000,
  0x0000000000000000000000000000000000000000000000200000000000000000000000000000000000000000000000000000000000000000,
  0x0000000000000000000000000000000000000000000000000000000000000000000000000000002000000000000000000000000000000000,
  0x0000000000000000000000000000002000000000000000000000000000000000000000000000000000000000000000000000000000000020,
  0x0000000000000000000000000000000000000000000000000000000000000020000000000000000000000000000000000000000000000000,
  0x0000000000000020000000000000000000000000000000000000000000000000000000000000000000000000000000200000000000000000,
  0x0000000000000000000000000000000000000000000000200000000000000000000000000000000000000000000000000000000000000000,
  0x0000000000000000000000000000000000000000000000000000000000000000000000000000002000000000000000000000000000000000,
  0x0000000000000000000000000000002000000000000000000000000000000000000000000000000000000000000000000000000000000020,
  0x0000000000000000000000000000000000000000000000000000000000000020000000000000000000000000000000000000000000000000,
  0x0000000000000020000000000000000000000000000000000000000000000000000000000000000000000000000000200000000000000000,
  0x0000000000000000000000000000000000000000000000200000000000000000000000000000000000000000000000000000000000000000,
  0x0000000000000000000000000000000000000000000000000000000000000000000000000000002000000000000000000000000000000000,
  0x0000000000000000000000000000002000000000000000000000000000000000000000000000000000000000000000000000000000000020,
  0x0000000000000000000000000000000000000000000000000000000000000020000000000000000000000000000000000000000000000000,
  0x0000000000000020000000000000000000000000000000000000000000000000000000000000000000000000000000200000000000000000,
  0x0000000000000000000000000000000000000000000000200000000000000000000000000000000000000000000000000000000000000000,
  0x0000000000000000000000000000000000000000000000000000000000000000000000000000002000000000000000000000000000000000,
  0x0000000000000000000000000000002000000000000000000000000000000000000000000000000000000000000000000000000000000020,
  0x0000000000000000000000000000000000000000000000000000000000000020000000000000000000000000000000000000000000000000,
  0x0000000000000020000000000000000000000000000000000000000000000000000000000000000000000000000000200000000000000000,
  0x0000000000000000000000000000000000000000000000200000000000000000000000000000000000000000000000000000000000000000,
  0x0000000000000000000000000000000000000000000000000000000000000000000000000000002000000000000000000000000000000000,
  0x0000000000000000000000000000002000000000000000000000000000000000000000000000000000000000000000000000000000000020,
  0x0000000000000000000000000000000000000000000000000000000000000020000000000000000000000000000000000000000000000000,
  0x0000000000000020000000000000000000000000000000000000000000000000000000000000000000000000000000200000000000000000,
  0x0000000000004000000000000000370100000000000000000000000000000000000000000000000000000000000000000000000000000000,
  0x1337ae01c96f510000000000000030000000000000000d000000000000000001000000000000000000000000000000000000000000000000,
  0xd232535215bf9b00000000000000308c46fdc672cd8f0cded087fe60d650d0db292225402f554b1ffece5babfcdf3cc68313e45b3a9d3736,
  0x2595b8d04307e00000000000000030122f8a8b3551dc5488f2f5de1afeab6d2f59e31f736e59f911894fd6ef27242dbacda2c5a9db37bb3f,
  0x739bae47866100000000000000003084a0b0fa5491fac440591e7de0c5264c0dcdc4ebb9120aa4ba3aad48c2d7fba2b260459b2eab137b7b,
  0xa1eb65d26cf99c00000000000000300e8fcfb361608bb79f8071aaeeae6708951b8f9dcf06f44f9563ac8301d6b938e6602e0b872219aa0d,
  0x79a19b3695a5d4000000000000003000f49186ca974887adf0dcbdbad111620b10518db285e820bfb5459cd3c53f52d61594c3075aa49c87,
  0xf4908e2ef8544f0000000000000030023e7ba11e60a656997135c36bb6188ce5b863136e700a3cd431c550761b04156e238e3d1bf4ccde02,
  0x0000000000000000000000000000309338c75975b7eacf0bca1b885926a21cac55fdd4f278ef14a7c64071c488e9fc57bba161685a04238f,
  0xea402d668d530d00000000000000304000000000000000000000000000000000000000000000000000000000000000000000000000000000,
  0xdcb16e6cd878dd00000000000000308f07f6ff52a18a64ac977a44f550ff1b8a0477b38291b59e6f4c9af8e04670c9d6cd96d67ccaf2b8a5,
  0x086170955d9dec0000000000000030183086433479bff6499dc3af1471657c61ae095fb780441c95336638d6d90ea72a3db67046e43438d4,
  0x13b762ab97e9c2000000000000003090638f1e4ef540d75ecc241697dc7d8b1f643b905bda3aa7fe983a137445c7d05c3f0c9036e24d6f06,
  0x5fff2fd955252d000000000000003089bd0af2e6e8716f3aa75d7a2f62ee2bc837aadaf10343fb04eb642062bf4bf41cfe4c29a9852d2937,
  0x000000000000300000000000000005981f366fdcb2538868361ddaae13bfddea39b268175d729e81eb35e11ea4af6fb8edf933c25c676d15,
  0x0000000000003099db943d12ea15437fcce152f59a41ca0aad2bb02b4f9b6c1c1ce4dada98f30dfbba92b8fb311b8ce09ac3a4262b86f600,
  0x0000000000003018f4255f14045554dcad9fc276c4cbeca4305844abeda361e7661de8bd1aa3701243280687ab7d4505e7716e24656cc800,
  0x0000000000003000de5fd5b164c8760cdbdffa2bc2ef8e4597ff584013890dbf7eec6deb2a5bb01b0465ec7c1afe99e7ac907d421fd4aa00,
  0x000000000000308b584b09d5ac12073a18c1098d6a928a4655f7734d09a97f955435df197482a662602a8ee51fc654f685230b28bf936300,
  0x000000000000300d9bbd4a3ef02e62f69eb6d1a97de5109921c95b513e7fa3ba7a354eae2c2dfdd769abd94728dbd5ac4f6055e03f216800,
  0x00000000000005876e0a8489b1a3d8b4866e9aa63c707dc6099d0ce0d52317ed2ea3b8e32a614d6876bff8f87203364b2eedd77fa6b36f00,
  0xe09db580600dd900000000000000200000000000000000000000000000000000000000000000000000000000000001000000000000002000,
  0x4ac3e799f2e8ecb47001f57845bbbfd7c0070a381d364d00000000000000206141e529fcdc704e26ef0699ca82c49012c588ada0e784368b,
  0x000000000000202664991206cc6e6a144513f4c899a417ee516fa456ee3f9ec51c159ddca97c33000000000000002022a342a0964a25e0e9,
  0x4622f6a9152435034d2ff22a5ad9e1000000000000002041feb67496b6e8973bb1afa6ef9bb1c0ce7b067b089b046d2903ccdd332888e600,
  0x00000000001e590000000000001e580000000000000f7b000000000000002b000000000000400056624634b500a166dc86b01c0d477fa6ae,
  0x00000000002ca90000000000002ca80000000000002ca70000000000002ca600000000000020d800000000000020d70000000000001f9800,
  0x00000000002cb00000000000002caf0000000000002cae0000000000002cad0000000000002cac0000000000002cab0000000000002caa00,
  0x00000000002cb70000000000002cb60000000000002cb50000000000002cb40000000000002cb30000000000002cb20000000000002cb100,
  0x00000000002cbe0000000000002cbd0000000000002cbc0000000000002cbb0000000000002cba0000000000002cb90000000000002cb800,
  0x00000000002cc50000000000002cc40000000000002cc30000000000002cc20000000000002cc10000000000002cc00000000000002cbf00,
  0x00000000000020000000000000002b0000000000002cca0000000000002cc90000000000002cc80000000000002cc70000000000002cc600,
  0xcd9f343d33216651deacccd9d56b990000000000000020198b034627c175a4f19d4cc7a3756f7dbe2adbac83c10a093fb783e266c1e7ad00,
  0x6f26b409342a1f05f9f31d1f4e0d346939c1bb2ca3fb05c0886c8b82903ffc000000000000002036d2c60a0878ff722ac3d6f6c74c64346b,
  0x4b85c8b7bd44b20000000000000020256e06d4a197e1902c8769c097c6b67bd22605bfceaf864e1ab5c2552e06470000000000000000201a,
  0xf70e28ec62f303105c2dd9979c003a7cf236d9b87c110000000000000000205c3f92b31427eed064f7a7c2b0831319fada85ae99b1ca90aa,
  0x000000000000205692236c535848e5602fa829c3a36f82f669d94a5ba00550b01c3565840715c3000000000000002011607365d5fac6270b,
  0xa5f28762a56f42d2769e6825cd45ed0000000000000020108282d9fa06783df9d9e65a3f3589d353f99bbda59ab4781c403977523b86ed00,
  0x37c023adb42e5cf99e2e850ac378783aa22ab8230b8f3afae95968bfffa9b000000000000000200381ffab7dd2b88e85a1f7f65b8e880021,
  0xb841ec7809c4c50000000000000020635ba928f0b9d3eafbaf5abf9eae7d6a6bcec6f650a84e9a25945ab0930b397e000000000000002028,
  0xca01434a4ad7dd8342e4e65d9b64eb0725a4eacf3c10e800000000000000205986c23b66a74b724ffba289ab8626c943fdef2796c3f656b5,
  0x00000000000020611a1bae66696aa6a12ad2ea51ef497a63b3ee2ac48c7986e8dc31443b4721dd000000000000002038420cecb1bee53755,
  0x319d0d4a3903070d2d51bbd844f862000000000000002014999436c66bfe76d633c92098bec754b8f60ccc28cd0cdcf83dc17b498ddbc600,
  0x2845742cebe47567202a8aca3047c70250248088779f6e8d56c05c21fced4100000000000000205e6f0c71125ba482eac29e8b0f072e6016,
  0x52008277831d3d000000000000002048daac570821b4dea50ab656dbb2d1e90ac1d1ccdd4d579b7ed56b423413399100000000000000203b,
  0xdd185f208ab213e06bae3257e17da91291c9e3fd2467f500000000000000200819030039fd1c1e1ba9b3aadaa7b1d727100b57a14645d637,
  0x00000000000020296f824375913bb068a9d6244d6539bc1143d57098ebae70c835190d9d34682c00000000000000204f57b1fa5412c8b529,
  0xa1faef1dec226ae194aa2fb6f373cf000000000000002038cb2b42bda0ef3f6de5a612634fd954a7bea91e1f0397c3bb07488b73cdd85000,
  0x6a1ee11b1ca522961a6dc01a99dc61ee0e9281455faa06f654bba71e9b760f00000000000000202e87ad23ba4661d1d866ba1e30aa0e17f3,
  0x56ee7964df54a80000000000000020059a0c44c137b2b4381cec57d85c6123abc40dfb045297902e2d8968b06fb637000000000000002049,
  0xf000251ab4f597799ad276fa98133db62eb12d0dbef41f00000000000000203031bfdef35106c745d05b89117d7139528975e2adbfc908b4,
  0x0000000000002008b77f1d0db6e94b2ea26d8b9299836edf00a47590422398c5e628f560ea456b00000000000000200ba89c4e50989f6221,
  0xd02a411976f9c7e3239e689104ef2000000000000000205133fe70069bf75ec54c680d24bc0b218dabfcfab26cce5fc8f9926102d0245c00,
  0x6c3ac59f9793bf50e86064fb86b9bcd3eca328d72fce3c4ea0395bd5c117c500000000000000203324e3a8cd42459907bd85b5a35ae887a3,
  0x67c3a9360154b100000000000000205bf155e8ae2240ad0c581eb7fce3ec5fb68881b8b89bb30471e76dd3dfb208b1000000000000002056,
  0x10e742747b0e8cc9b621ae6ef6abede71088fe87389cc000000000000000206e686365e85443445c37a64fc2e57b59a8a64b111c4c72ab51,
  0x0000000000002009bc3997ae04c3c36a023712022097215dad0c08d1341657f4dc6be494603d4400000000000000200e5af69c5773f05f34,
  0xbdbbe562b8705a4a362045be1100b200000000000000206afb43d44acbb890c8e59db0de439f7ad9fe37ec846ed5fddefed7114f406fdc00,
  0xd3c639d71e1fbc126991094b936f3a2aca93432c3867ecbebb9b0a73dfb2d500000000000000203d87d12b2c9b1100e786c7f5e8f5dafa11,
  0x1ab5f8e0fcb46300000000000000206b20c9344a8a43b3b2a267d16e25d34d8ac45dcbb8b8c03d5f8c85b32fb2ba3e000000000000002011,
  0xd0fe60717adc32944fafb64013778c5488f9c17e4341aa000000000000002005e6b6f0b1c96469c8dba719605676c68e7fd53776a4a4d6e4,
  0x000000000000201d0f75bbd5fb2f655b042c01542ff206b3aa483778423126c84dd4c8229b8d8000000000000000201294e78b679162a936,
  0x19868dd1a40b250fb254f2849dd50d991991ade7257d3d2097abcaf387d6318300]

/-- the 5521 bytes -/
def xfrFile22 : Bytes := (xfrFile22Words.flatMap (leBytes 56)).take 5521

set_option maxRecDepth 100000 in
theorem xfrFile22_check : checkTransfer xfrFile22 (Spec.transferVars 20 2 2) 16384 (Spec.transferPublic 20 2 2) = true := by
  decide +kernel

theorem xfrFile22_size : Spec.IsSize (Spec.transferGates 20 2 2) 16384 := isSize_of (k := 13) (by decide) (by decide)

theorem xfrFile22_len : xfrFile22.length < 2 ^ 64 := lt_of_le_of_lt (List.length_take_le _ _) (by norm_num)

/-- the entry for 2 inputs and 3 outputs: words of 56 bytes, little-endian, the last one shorter -/
def xfrFile23Words : List Nat := [
  0x0000000000000020000000000000000000000000000000000000000000000000000000000000000000000000000000000000000000000000,
  0x0000000000000000000000000000000000000000000000200000000000000000000000000000000000000000000000000000000000000000,
  0x0000000000000000000000000000000000000000000000000000000000000000000000000000002000000000000000000000000000000000,
  0x0000000000000000000000000000002000000000000000000000000000000000000000000000000000000000000000000000000000000020,
  0x0000000000000000000000000000000000000000000000000000000000000020000000000000000000000000000000000000000000000000,
  0x0000000000000020000000000000000000000000000000000000000000000000000000000000000000000000000000200000000000000000,
  0x0000000000000000000000000000000000000000000000200000000000000000000000000000000000000000000000000000000000000000,
  0x0000000000000000000000000000000000000000000000000000000000000000000000000000002000000000000000000000000000000000,
  0x0000000000000000000000000000002000000000000000000000000000000000000000000000000000000000000000000000000000000020,
  0x0000000000000000000000000000000000000000000000000000000000000020000000000000000000000000000000000000000000000000,
  0x0000000000000020000000000000000000000000000000000000000000000000000000000000000000000000000000200000000000000000,
  0x0000000000000000000000000000000000000000000000200000000000000000000000000000000000000000000000000000000000000000,
  0x0000000000000000000000000000000000000000000000000000000000000000000000000000002000000000000000000000000000000000,
  0x0000000000000000000000000000002000000000000000000000000000000000000000000000000000000000000000000000000000000020,
  0x0000000000000000000000000000000000000000000000000000000000000020000000000000000000000000000000000000000000000000,
  0x0000000000000020000000000000000000000000000000000000000000000000000000000000000000000000000000200000000000000000,
  0x0000000000000000000000000000000000000000000000200000000000000000000000000000000000000000000000000000000000000000,
  0x0000000000000000000000000000000000000000000000000000000000000000000000000000002000000000000000000000000000000000,
  0x0000000000000000000000000000002000000000000000000000000000000000000000000000000000000000000000000000000000000020,
  0x0000000000000000000000000000000000000000000000000000000000000020000000000000000000000000000000000000000000000000,
  0x0000000000000020000000000000000000000000000000000000000000000000000000000000000000000000000000200000000000000000,
  0x0000000000000000000000000000000000000000000000200000000000000000000000000000000000000000000000000000000000000000,
  0x0000000000000000000000000000000000000000000000000000000000000000000000000000002000000000000000000000000000000000,
  0x0000000000000000000000000000002000000000000000000000000000000000000000000000000000000000000000000000000000000020,
  0x0000000000000000000000000000000000000000000000000000000000000020000000000000000000000000000000000000000000000000,
  0x0000000000000020000000000000000000000000000000000000000000000000000000000000000000000000000000200000000000000000,
  0x0000000000000000000000000000000000000000000000200000000000000000000000000000000000000000000000000000000000000000,
  0x0000000000000000000000000000000000000000000000000000000000000000000000000000002000000000000000000000000000000000,
  0x0000000000000000000000000000002000000000000000000000000000000000000000000000000000000000000000000000000000000020,
  0x0000000000000000000000000000000000000000000000000000000000000020000000000000000000000000000000000000000000000000,
  0x0000000000000020000000000000000000000000000000000000000000000000000000000000000000000000000000200000000000000000,
  0x0000000000000000000000000000000000000000000000200000000000000000000000000000000000000000000000000000000000000000,
  0x0000000000000000000000000000000000000000000000000000000000000000000000000000002000000000000000000000000000000000,
  0x0000000000000000000000000000002000000000000000000000000000000000000000000000000000000000000000000000000000000020,
  0x0000000000000000000000000000000000000000000000000000000000000020000000000000000000000000000000000000000000000000,
  0x0000000000000020000000000000000000000000000000000000000000000000000000000000000000000000000000200000000000000000,
  0x000000000000400000000000000038b700000000000000000000000000000000000000000000000000000000000000000000000000000000,
  0xea66eda6edd54f0000000000000030000000000000000d000000000000000001000000000000000000000000000000000000000000000000,
  0x3c183d8357dfb2000000000000003090301336ce5756681d9fdaa567df92c9dc83945b3d26c2cb031ab851d76577ea5b296460da656f7084,
  0x0e857a8617665500000000000000308175e82c1fb4986dbee3257449f724b41c9ee96571aa449218898c8b1a7a271bd1db39f76962526798,
  0x89e0fcf501438000000000000000300f24d0048103e0ff86fbd06e04a09bc21cf63561b6eae76e1226e471237801df0bb3bbf7b251a9b093,
  0xba1a857967b6a500000000000000300e6580fab8d1474a93536d6c860cfafa52088b9da42c7620a8f8f7c1686a773a6594dd54374b09d563,
  0xa2c947a8c0e232000000000000003089958fa950e9d56f13c3884546a56c9899bea8632f72e710b64bc59719e414cc1e7e4db8af774bc8d8,
  0xf8923a8086a0a4000000000000003090d891ed86e0cb14acd643e61b5dcc83ad804724878bf3882888936e2d8d5043d0ecb1cad118f7b2de,
  0x000000000000000000000000000030014f26616af05e6a279b30e1b117d9b05778f192acbe6d4d770668034d01205ecf38c75648f1a90196,
  0x1ddc16e30ecb7500000000000000304000000000000000000000000000000000000000000000000000000000000000000000000000000000,
  0x142b0d2bc2ea890000000000000030942dc82e4900de0a1a7dda426e984dbabca01c8f456b794ec48a8081bcc1abf79838a59656eb75107c,
  0xb584363e0f22e100000000000000308b12f425e7b523a884d42ef8b276c4ceb3c38bd84505aa91c5d7823a283be9f6aa6e5393aeb9ad625a,
  0xcc592d5b24c78d0000000000000030961ef4511ff595c18741b949d0aff0e51e7e556c8eb7415e1fadeb2096fc40af5261db3500aca93c0a,
  0x282955a2c9959c0000000000000030054fe1a2df5cdc6b1178f7bd85d4d2605d8bbd762161280fa6fa94991ec17e8b3d7082068194a592dc,
  0x00000000000030000000000000000507cd56ece0759b13e4a0644fe1c9f5b4208f04391b39d4742e1ede8c6fbacb02ba8783a581d78ec04b,
  0x0000000000003009cb8c68ca55d735626e77916b87095d330af877b107828926a270c23310282ada47cb77efe20118f9d6b7e2cb254a8800,
  0x0000000000003005466e87c4fa68bb4323c9011b07c9f96fff4f1ab64d02c22c2b402ee9e8e09a827b55ba39a734376d6c8eed8515e63a00,
  0x0000000000003087b68a00a5a15a9f411e3e6829958afaf26d63dc380f79e2b1b97486240cd5a5301d41fa844ecbfb60cf2f2f7439a9de00,
  0x000000000000300f23dd556e6eeafb7b8576c40856366170ed3beb307ce5ba2bac11bf56be7620c382b7ed74427177dcf35390806901b500,
  0x0000000000003090dd99917c9c1fcea04b6795e0fb8a22254da75b3571712f391f04605c9f28094cec17f526da9ca0b8450712436aab8500,
  0x0000000000000515af6625dcf1d1fcb10aee06d75c90315d93123e58358ecec969921510cf1e55055a7b04f3c18d7f334b8a8675fe557200,
  0xe09db580600dd900000000000000200000000000000000000000000000000000000000000000000000000000000001000000000000002000,
  0x4ac3e799f2e8ecb47001f57845bbbfd7c0070a381d364d00000000000000206141e529fcdc704e26ef0699ca82c49012c588ada0e784368b,
  0x000000000000202664991206cc6e6a144513f4c899a417ee516fa456ee3f9ec51c159ddca97c33000000000000002022a342a0964a25e0e9,
  0x4622f6a9152435034d2ff22a5ad9e1000000000000002041feb67496b6e8973bb1afa6ef9bb1c0ce7b067b089b046d2903ccdd332888e600,
  0x00000000001e590000000000001e580000000000000f7b000000000000002c000000000000400056624634b500a166dc86b01c0d477fa6ae,
  0x00000000002de70000000000002de60000000000002de50000000000002217000000000000221600000000000020d70000000000001f9800,
  0x00000000002dee0000000000002ded0000000000002dec0000000000002deb0000000000002dea0000000000002de90000000000002de800,
  0x00000000002df50000000000002df40000000000002df30000000000002df20000000000002df10000000000002df00000000000002def00,
  0x00000000002dfc0000000000002dfb0000000000002dfa0000000000002df90000000000002df80000000000002df70000000000002df600,
  0x00000000002e030000000000002e020000000000002e010000000000002e000000000000002dff0000000000002dfe0000000000002dfd00,
  0x0000000000002c0000000000002e090000000000002e080000000000002e070000000000002e060000000000002e050000000000002e0400,
  0xdeacccd9d56b990000000000000020198b034627c175a4f19d4cc7a3756f7dbe2adbac83c10a093fb783e266c1e7ad000000000000002000,
  0xf9f31d1f4e0d346939c1bb2ca3fb05c0886c8b82903ffc000000000000002036d2c60a0878ff722ac3d6f6c74c64346bcd9f343d33216651,
  0x00000000000020256e06d4a197e1902c8769c097c6b67bd22605bfceaf864e1ab5c2552e06470000000000000000201a6f26b409342a1f05,
  0x83588ab5d3fcfed792cc0dc6930ebc00000000000000205c3f92b31427eed064f7a7c2b0831319fada85ae99b1ca90aa4b85c8b7bd44b200,
  0x70c21726e9f9407fadf1d2a40b10473be86e47ce9227e1f75d8a4f5c67380a000000000000002018916b5f22ef20086678ef938e3062c972,
  0xa5e325ea4efc9a0000000000000020697d68c97bd321789d0d1bcc0dadea0ba02e6d7f92811dfa9cad493d2d939df2000000000000002004,
  0x96d93b2e06d0167ef5f4fb19fd8df1198b7891c2db91560000000000000020607066bc19b19714fd698518de444e20c39d469d3691ab68b2,
  0x000000000000201002ec5c765b4ce43cfee0a6312257b4b9a44f2f606624155d9b69759c8f225e000000000000002061ec26e3eaef88ea77,
  0x2e7c763aee346fedf8043949000beb000000000000002034388057d8b1a1119111660296f6f1b0d1ee7ed9075b84ebec822f6573eff30700,
  0xfca32f0250a77a1137a02bc515b07db1db890cb13d85baf497e4e314becd54000000000000002037b87e26832224dd6a13d6b16bf010e5c3,
  0x493abd23db87bf0000000000000020121aa746ee565107fbfbf2ed89481b0dfc563aa15a1f509e3fd0349510e0ed7a000000000000002069,
  0xca2bc555e60805932356922053fc4fc5c1ad00e1cd48ed00000000000000202724b7524b25478a2d947a12d82abebdb5f31b5b82c13790d9,
  0x0000000000002019e9f5ed72d8c35736dd6a5bf931d67622bdf130ad5a57b35617d92ebd7c59070000000000000020152fcbb4cd28a0bcda,
  0x3e41b95d06a7b357ac9dff9bee876000000000000000200b611ce3500884fd11b99dd78cb0c767f8de4717d4d5fd0c45fb5136a301abf400,
  0x843cde9abcd08801ed1fe3a7d0968abf6f64ef4c9b3f9ce3c99c0af7267b1c0000000000000020007e1847557960eef4bc728c82781a07a5,
  0xb23eea1c0b3040000000000000002000428cd7a3a88222e42521842d06b43e4831fd75447d74eaa2fb8b93705d976c00000000000000204f,
  0x97d33e869d451d56c27a29566aab49255278fd965df956000000000000002008a14ab16f1bb5f621fe5eb62137df059c41abdd16ea2f9f85,
  0x000000000000204ec3c68da8df5c8c1d3237f7d121ab74ce0e41895234c3473fc4a0ff0f4eb0b00000000000000020686ed96a3f0db83816,
  0xe4cc55e4fa9dbf640c129587d439a7000000000000002064dedea3c48f56eb31ed689e213467a57cbc8fa48477cc2ae64393f657dde07b00,
  0x3edccc469ddd8c141d22645eebdf8e4a8bb79bdea69f6a37fcaf0e9c91159b00000000000000204ad345f5edbf87750807a36005751d33a5,
  0x6cb07a06cb3b9000000000000000200954f2d406f9a22856d4c24354d0402b5ec2f281fab80e5e497e9b85dfcde0ff000000000000002041,
  0xf792ce16411fd064ade2f4a5ce098cb2182d247579a5c600000000000000203c50be2c013c4c6e2f362b373649b99538290cce0c20da68bd,
  0x000000000000203b328ee442d9df8f4a666ee87ad8a298074e5972acb99ae8514a2402c4a87f350000000000000020282fd36f665caf3223,
  0xa2fce50b29f74e304da098daca5e2400000000000000205a43d3b071271c587dadb767fd88616187e59f0960d23420f88209d908ae967700,
  0x7633c868efb4de55558217a7f66e0ae1c017a1105ef0a75d81f4652ec10ebe0000000000000020655a65cafbb3300f1cf4b7bef02183a180,
  0x31d2bf5b221cae00000000000000203e9d0a8e203a3e2c3e942538255c7e94bf5e8938fe525af81e1246ae3762c6e0000000000000002049,
  0xe91a4aadab00f35edc0b1ece9edff13d44b3a09ee12f21000000000000002033ee1c56bc63b1496df7bcf7c5d23935e91ade4cf249996647,
  0x000000000000205587f462410725f61019962cb5141336f72f0b3552c29dc62a0212d74358538a0000000000000020511ca0e80a306690ad,
  0x1044076dbb70f7cceacd14a513836b000000000000002045850a3f424ba6a281b43ad49182d8ccdf02a2c0aa9fcad4fcabdfa0e45537ba00,
  0x55bc7e4ff4af3d411b7b17edfa4789fbe915f868a3f9040e24eeff9b9d554200000000000000206e52ae626bc5f03724b650b82f6ea3cf5e,
  0x51430798e5477000000000000000202845fa32ba7c1eefc5412a3fd562acea43ddb333539d3e36b094ade9ac26ef36000000000000002051,
  0x316868511c0fd06926ddb2686afd7adbb489f536340dd98b39]

/-- the 5569 bytes -/
def xfrFile23 : Bytes := (xfrFile23Words.flatMap (leBytes 56)).take 5569

set_option maxRecDepth 100000 in
theorem xfrFile23_check : checkTransfer xfrFile23 (Spec.transferVars 20 2 3) 16384 (Spec.transferPublic 20 2 3) = true := by
  decide +kernel

theorem xfrFile23_size : Spec.IsSize (Spec.transferGates 20 2 3) 16384 := isSize_of (k := 13) (by decide) (by decide)

theorem xfrFile23_len : xfrFile23.length < 2 ^ 64 := lt_of_le_of_lt (List.length_take_le _ _) (by norm_num)

/-- the entry for 2 inputs and 4 outputs: words of 56 bytes, little-endian, the last one shorter -/
def xfrFile24Words : List Nat := [
  0x0000000000000020000000000000000000000000000000000000000000000000000000000000000000000000000000000000000000000000,
  0x0000000000000000000000000000000000000000000000200000000000000000000000000000000000000000000000000000000000000000,
  0x0000000000000000000000000000000000000000000000000000000000000000000000000000002000000000000000000000000000000000,
  0x0000000000000000000000000000002000000000000000000000000000000000000000000000000000000000000000000000000000000020,
  0x0000000000000000000000000000000000000000000000000000000000000020000000000000000000000000000000000000000000000000,
  0x0000000000000020000000000000000000000000000000000000000000000000000000000000000000000000000000200000000000000000,
  0x0000000000000000000000000000000000000000000000200000000000000000000000000000000000000000000000000000000000000000,
  0x0000000000000000000000000000000000000000000000000000000000000000000000000000002000000000000000000000000000000000,
  0x0000000000000000000000000000002000000000000000000000000000000000000000000000000000000000000000000000000000000020,
  0x0000000000000000000000000000000000000000000000000000000000000020000000000000000000000000000000000000000000000000,
  0x0000000000000020000000000000000000000000000000000000000000000000000000000000000000000000000000200000000000000000,
  0x0000000000000000000000000000000000000000000000200000000000000000000000000000000000000000000000000000000000000000,
  0x0000000000000000000000000000000000000000000000000000000000000000000000000000002000000000000000000000000000000000,
  0x0000000000000000000000000000002000000000000000000000000000000000000000000000000000000000000000000000000000000020,
  0x0000000000000000000000000000000000000000000000000000000000000020000000000000000000000000000000000000000000000000,
  0x0000000000000020000000000000000000000000000000000000000000000000000000000000000000000000000000200000000000000000,
  0x0000000000000000000000000000000000000000000000200000000000000000000000000000000000000000000000000000000000000000,
  0x0000000000000000000000000000000000000000000000000000000000000000000000000000002000000000000000000000000000000000,
  0x0000000000000000000000000000002000000000000000000000000000000000000000000000000000000000000000000000000000000020,
  0x0000000000000000000000000000000000000000000000000000000000000020000000000000000000000000000000000000000000000000,
  0x0000000000000020000000000000000000000000000000000000000000000000000000000000000000000000000000200000000000000000,
  0x0000000000000000000000000000000000000000000000200000000000000000000000000000000000000000000000000000000000000000,
  0x0000000000000000000000000000000000000000000000000000000000000000000000000000002000000000000000000000000000000000,
  0x0000000000000000000000000000002000000000000000000000000000000000000000000000000000000000000000000000000000000020,
  0x0000000000000000000000000000000000000000000000000000000000000020000000000000000000000000000000000000000000000000,
  0x0000000000000020000000000000000000000000000000000000000000000000000000000000000000000000000000200000000000000000,
  0x0000000000000000000000000000000000000000000000200000000000000000000000000000000000000000000000000000000000000000,
  0x0000000000000000000000000000000000000000000000000000000000000000000000000000002000000000000000000000000000000000,
  0x0000000000000000000000000000002000000000000000000000000000000000000000000000000000000000000000000000000000000020,
  0x0000000000000000000000000000000000000000000000000000000000000020000000000000000000000000000000000000000000000000,
  0x0000000000000020000000000000000000000000000000000000000000000000000000000000000000000000000000200000000000000000,
  0x0000000000000000000000000000000000000000000000200000000000000000000000000000000000000000000000000000000000000000,
  0x0000000000000000000000000000000000000000000000000000000000000000000000000000002000000000000000000000000000000000,
  0x0000000000000000000000000000002000000000000000000000000000000000000000000000000000000000000000000000000000000020,
  0x0000000000000000000000000000000000000000000000000000000000000020000000000000000000000000000000000000000000000000,
  0x0000000000000020000000000000000000000000000000000000000000000000000000000000000000000000000000200000000000000000,
  0x00000000000040000000000000003a7900000000000000000000000000000000000000000000000000000000000000000000000000000000,
  0x8b064dfdc830920000000000000030000000000000000d000000000000000001000000000000000000000000000000000000000000000000,
  0x42fb499be6befb00000000000000308fcb45f1a2454326fa7e607b88894a303972cc2e4947c5caf561eea917b61d2e1a6209472b6a675d27,
  0x75f1ff5850bc5b000000000000003093dcc6eddb55ade9b7d55bfcd7ab4d3cd4f514626952321822f42b59fec2d5778b39bcda4321817705,
  0x797d547e394351000000000000003013c16cf37a278293375d9f9c1d96c6a77a0a448348e87bb280b00a8f9150d93e9a28a5e6f6cc32146b,
  0x749ee28c657980000000000000003015e2643f7c184b0ff73fe237645c211a77a0b419c8099aee5aa98ac5341895edb76e0176fcd0bae23a,
  0xdd42440a43467900000000000000300f37ab84d390944ea9a63480d6217f2fe22b72551725c8c1a16857dcac9f3a4e77d5096eb343d1c576,
  0xd1257f00efa1880000000000000030824e61b429fbf59a2fb5cfd264686abba37c4982c58dce3298aff278b530c99694ef1110b62ea74c3f,
  0x0000000000000000000000000000300eb3bc1ab21b25953c1680c183270ac2af1bc5017ddadf6b5fdb56391a432d7fb46ba6436880bdf746,
  0x0f7102c8c752d400000000000000304000000000000000000000000000000000000000000000000000000000000000000000000000000000,
  0x86080a86b99c33000000000000003011d6dfc5c88cf52c9e72ebba5a4de92b9fb09111cc0410ac8c5d972ad8240f73c28d52d45e124689c2,
  0xe15f33e79e2cb90000000000000030138d822a151ae0c4b971f89e3f0f62e71f474a01f614828190c4e42efb2686e2c0814514b943d5334e,
  0x88ea409f78876b00000000000000309019d3dbd6251f952d97acd8087283f18e597aea41c53e09a79629dba7874cb03a5d424726f6eee447,
  0xf5e535113351b1000000000000003088c0726987826b390d4c41f0da075650af8b4e0a524b759180aaa4e0bd3dfa9085de44451abe57c9d7,
  0x00000000000030000000000000000584b1ffcb7ae732c2c66ec87b2467969c7a159ec9b2829b5485678baeb5823a533d69610ba3da2408b1,
  0x0000000000003082ba1aa26d691e61d44eddbb29191c002c95f8c0b9b4b35fc9b72b48f2fc9988a40b60d1294abce337ede0607878c43200,
  0x000000000000300d5181b16ccab3aaf3c8fe07f4e8993333506e46270833634e3065ed8f55958e0119c84a9b6ba8e67d73fef3f89d769700,
  0x00000000000030955b54b6a31f63056f55a34b39359b091f52eb3cc8a10e38020eaf3598cdc2f023c1eec69b50ccdf712fb7f16e2e86b400,
  0x0000000000003018615cc8f73a047cef2154da5df0f38cea3e3bf6f1d92382cc7d148a00fd6a002490f1f74baeee2ca1146672a7553d2b00,
  0x0000000000003018d47c6bfceef9063e87e3a71dfa0a009a9e30884c3ba9b4f03f8bf31946e9be4e7e0c1777d7c12223868b08d87c14f000,
  0x000000000000058b6a5693b56727307e1457b8763be555a56bcd3ecab3dde308407f4e22df19706e30a5b80e2a93509de3eee2527f332300,
  0xe09db580600dd900000000000000200000000000000000000000000000000000000000000000000000000000000001000000000000002000,
  0x4ac3e799f2e8ecb47001f57845bbbfd7c0070a381d364d00000000000000206141e529fcdc704e26ef0699ca82c49012c588ada0e784368b,
  0x000000000000202664991206cc6e6a144513f4c899a417ee516fa456ee3f9ec51c159ddca97c33000000000000002022a342a0964a25e0e9,
  0x4622f6a9152435034d2ff22a5ad9e1000000000000002041feb67496b6e8973bb1afa6ef9bb1c0ce7b067b089b046d2903ccdd332888e600,
  0x00000000001e590000000000001e580000000000000f7b000000000000002d000000000000400056624634b500a166dc86b01c0d477fa6ae,
  0x00000000002f250000000000002f2400000000000023560000000000002355000000000000221600000000000020d70000000000001f9800,
  0x00000000002f2c0000000000002f2b0000000000002f2a0000000000002f290000000000002f280000000000002f270000000000002f2600,
  0x00000000002f330000000000002f320000000000002f310000000000002f300000000000002f2f0000000000002f2e0000000000002f2d00,
  0x00000000002f3a0000000000002f390000000000002f380000000000002f370000000000002f360000000000002f350000000000002f3400,
  0x00000000002f410000000000002f400000000000002f3f0000000000002f3e0000000000002f3d0000000000002f3c0000000000002f3b00,
  0x00000000002f480000000000002f470000000000002f460000000000002f450000000000002f440000000000002f430000000000002f4200,
  0x00000000000020198b034627c175a4f19d4cc7a3756f7dbe2adbac83c10a093fb783e266c1e7ad0000000000000020000000000000002d00,
  0x39c1bb2ca3fb05c0886c8b82903ffc000000000000002036d2c60a0878ff722ac3d6f6c74c64346bcd9f343d33216651deacccd9d56b9900,
  0x6e06d4a197e1902c8769c097c6b67bd22605bfceaf864e1ab5c2552e06470000000000000000201a6f26b409342a1f05f9f31d1f4e0d3469,
  0x92cc0dc6930ebc00000000000000205c3f92b31427eed064f7a7c2b0831319fada85ae99b1ca90aa4b85c8b7bd44b2000000000000002025,
  0x6f2288c8c876ff1d47eda00c47e77b4a1f25d711d09a12000000000000002018916b5f22ef20086678ef938e3062c97283588ab5d3fcfed7,
  0x000000000000201380a932116730fb256f47eddfafed4ff6f5ad3d8bd96ab7f2732229f24b531f00000000000000206bf0107db785c7b07d,
  0x9af5375d45eb3bca8dce21c1271b4e0000000000000020245af3ff16453a35d1146b30ff42d6ca63370ae07bf968c43211a525188ee6cd00,
  0x675f12a707d7b39bd775ae5b03310107496dfb119a12f14999fff37d94072c00000000000000200264c866fbc23f9e10c2c0b6bc57f9dfbd,
  0x89f9d6b9deff3e00000000000000200800d75d0734d1198be32560307207d1c3e6d252e682a9ea1f34d764f5d5f732000000000000002054,
  0x017c360209e170d243333c8c60ba08a4235adbfbd10e3e000000000000002065c0c34701611101e4ceee9cc61a0f6c82b79e9ae267b22341,
  0x00000000000020189e013d4af6a0d6784e952f0d286e658670a198ae9eb172370acb6b487cc9970000000000000020581de2439ea3bd05f2,
  0xa3c204cf5be0aecb8926e636280d730000000000000020211b62d68542393d1efdf5eb47acb7a47973ec294b45de55d91e76de4a029f6a00,
  0xb1d6a842e8bd2afeffa2870bdb35b93109fe8cde014a5b58acfff3f4d0e26700000000000000206e2eb591de6566c6ae839bacaa53592135,
  0xfb5e1f5d42c8d400000000000000203150727cb03e6d69cb7e6e99a2c86f2e1b0da67ec32ea6b9841354519e86b383000000000000002068,
  0x01e17711b9f50d22501688a55e97fc916db0d70204e00a000000000000002037a6c58fdd5720d6c15f0ff97e234df0fd6650a8a450998796,
  0x000000000000203365089f59bf9540aeb05d5c490ad70f009ed3032335e1a2c154470ba5590ece0000000000000020214d45e09d9f9bc70b,
  0x20d097da88aa75db7180025bc99eb800000000000000201bf2022ad51843c57381ef930b4f498ffa2417f85787c504a1e12ec925914c0400,
  0x73be7c3c510570089385e9ab0a5cb740d8bf4b21fc95438c031c66a36491af0000000000000020601a6ec82c73a92b6f6db689111307bc24,
  0x4b83bbe06eeeb800000000000000203bc868bb6f2f51e2721ff4069059ccdcfe9efc123dedca9c123de124fdf0d48f00000000000000206e,
  0x657f9542a6165d00be86a37081f720435498e06aa7088d00000000000000205b4acf185f9d29379281a4f074da60e6989fd9ff95c4a88192,
  0x000000000000200aae7fcde00aa7565f08eb6663cb2e5d49dd756aab118676c2dad05df1b9bfb1000000000000002064ceb60eb2a18bc9c2,
  0x0c4e9640738e743a12d794599d8c270000000000000020547d242cc49eb88f89bb1ed482fc3f574522c41072caa69f8ce282f6f7cdef9600,
  0xed818431b7628da7b7cffb458c452d3a26473118d1a780803fc7f52b5f8024000000000000002053dd1b5518a11df3a36b2029d8587ad0af,
  0xf223307b459f11000000000000002049a69e504650875f9c2b16de840d88ef6b6abe2d04cf4f62095b34e7a9b93ea9000000000000002012,
  0x818e91b70b914899f8b91408ed90b8879f09532def2bf10000000000000020069ddae3f5cdea676acf7bd1df7997c0250231f2dd3adf1af0,
  0x000000000000203673837ef819bae140a89c93639715932b701b970abc7f782316c0f19cf1ce5000000000000000203cc9fddd71eda56f37,
  0x5446ae1f5955ae3944a9d1fac3739d000000000000002032d0bfc0b6a1b22ba7a5021d20e3db8e87a85760bb107c2a547b99d7829b863f00,
  0xec3fe9b0c3afd457da8b8b9129d82d9d9935e4f4f9acaa3fb6ef8eee9807cb00000000000000205b00a8ffa9b45847d124defa474a515687,
  0xdd6ad8d2810a85000000000000002018c9d7882ed5d60e6750636667d4ab3b6aae816c8e0c9e483b93d06ee1d3bd10000000000000002061,
  0xd28601e408b1a8bb170d54c11990b7f2b2644913c25b6d00000000000000200ee44d11718fd18b67280be6e92c1f181ecbce08ddf372635d,
  0x000000000000201b92513cb4b8ed8f78abf42941cbd25cfd729cc86ee6fd812869a885065f44160000000000000020239480adbba4f43624,
  0x3f6db4831a5eb8276f5bf754d0de8900000000000000206a49014c2ec7b427e2d44269e2b0326ab66ff574caac57ca3abe68293f5e2c7500,
  0x0a28a0fd5fb542158702ad8abbed9f645c]

/-- the 5617 bytes -/
def xfrFile24 : Bytes := (xfrFile24Words.flatMap (leBytes 56)).take 5617

set_option maxRecDepth 100000 in
theorem xfrFile24_check : checkTransfer xfrFile24 (Spec.transferVars 20 2 4) 16384 (Spec.transferPublic 20 2 4) = true := by
  decide +kernel

theorem xfrFile24_size : Spec.IsSize (Spec.transferGates 20 2 4) 16384 := isSize_of (k := 13) (by decide) (by decide)

theorem xfrFile24_len : xfrFile24.length < 2 ^ 64 := lt_of_le_of_lt (List.length_take_le _ _) (by norm_num)

/-- the entry for 2 inputs and 5 outputs: words of 56 bytes, little-endian, the last one shorter -/
def xfrFile25Words : List Nat := [
  0x0000000000000020000000000000000000000000000000000000000000000000000000000000000000000000000000000000000000000000,
  0x0000000000000000000000000000000000000000000000200000000000000000000000000000000000000000000000000000000000000000,
  0x0000000000000000000000000000000000000000000000000000000000000000000000000000002000000000000000000000000000000000,
  0x0000000000000000000000000000002000000000000000000000000000000000000000000000000000000000000000000000000000000020,
  0x0000000000000000000000000000000000000000000000000000000000000020000000000000000000000000000000000000000000000000,
  0x0000000000000020000000000000000000000000000000000000000000000000000000000000000000000000000000200000000000000000,
  0x0000000000000000000000000000000000000000000000200000000000000000000000000000000000000000000000000000000000000000,
  0x0000000000000000000000000000000000000000000000000000000000000000000000000000002000000000000000000000000000000000,
  0x0000000000000000000000000000002000000000000000000000000000000000000000000000000000000000000000000000000000000020,
  0x0000000000000000000000000000000000000000000000000000000000000020000000000000000000000000000000000000000000000000,
  0x0000000000000020000000000000000000000000000000000000000000000000000000000000000000000000000000200000000000000000,
  0x0000000000000000000000000000000000000000000000200000000000000000000000000000000000000000000000000000000000000000,
  0x0000000000000000000000000000000000000000000000000000000000000000000000000000002000000000000000000000000000000000,
  0x0000000000000000000000000000002000000000000000000000000000000000000000000000000000000000000000000000000000000020,
  0x0000000000000000000000000000000000000000000000000000000000000020000000000000000000000000000000000000000000000000,
  0x0000000000000020000000000000000000000000000000000000000000000000000000000000000000000000000000200000000000000000,
  0x0000000000000000000000000000000000000000000000200000000000000000000000000000000000000000000000000000000000000000,
  0x0000000000000000000000000000000000000000000000000000000000000000000000000000002000000000000000000000000000000000,
  0x0000000000000000000000000000002000000000000000000000000000000000000000000000000000000000000000000000000000000020,
  0x0000000000000000000000000000000000000000000000000000000000000020000000000000000000000000000000000000000000000000,
  0x0000000000000020000000000000000000000000000000000000000000000000000000000000000000000000000000200000000000000000,
  0x0000000000000000000000000000000000000000000000200000000000000000000000000000000000000000000000000000000000000000,
  0x0000000000000000000000000000000000000000000000000000000000000000000000000000002000000000000000000000000000000000,
  0x0000000000000000000000000000002000000000000000000000000000000000000000000000000000000000000000000000000000000020,
  0x0000000000000000000000000000000000000000000000000000000000000020000000000000000000000000000000000000000000000000,
  0x0000000000000020000000000000000000000000000000000000000000000000000000000000000000000000000000200000000000000000,
  0x0000000000000000000000000000000000000000000000200000000000000000000000000000000000000000000000000000000000000000,
  0x0000000000000000000000000000000000000000000000000000000000000000000000000000002000000000000000000000000000000000,
  0x0000000000000000000000000000002000000000000000000000000000000000000000000000000000000000000000000000000000000020,
  0x0000000000000000000000000000000000000000000000000000000000000020000000000000000000000000000000000000000000000000,
  0x0000000000000020000000000000000000000000000000000000000000000000000000000000000000000000000000200000000000000000,
  0x0000000000000000000000000000000000000000000000200000000000000000000000000000000000000000000000000000000000000000,
  0x0000000000000000000000000000000000000000000000000000000000000000000000000000002000000000000000000000000000000000,
  0x0000000000000000000000000000002000000000000000000000000000000000000000000000000000000000000000000000000000000020,
  0x0000000000000000000000000000000000000000000000000000000000000020000000000000000000000000000000000000000000000000,
  0x0000000000000020000000000000000000000000000000000000000000000000000000000000000000000000000000200000000000000000,
  0x00000000000040000000000000003c4700000000000000000000000000000000000000000000000000000000000000000000000000000000,
  0x499ff6318275200000000000000030000000000000000d000000000000000001000000000000000000000000000000000000000000000000,
  0xf369ea5505d9f600000000000000308f208bda29f65d46e2bc1578be8685c9114e78a84b4e18dc5d5154d9e3e8c04ccf1d43cfbe48da94ac,
  0x3ec75e2089a2c30000000000000030027fe55b48c62517fe82c947ba663c3192a051d9cb6ecb56eb23e9db316301e6bfc05954739b060a17,
  0xba1128a821a6580000000000000030861ca3912bf4a9df10a22f901df4d9f1c5b3f007f3ecdd65aa4266af1d1745df991ab4e8afd583bdcf,
  0x3cf1bf5b2d14de00000000000000300072c6896efc17cdbc53abfd0f28b57430d5d7d150c7b2576318ec5aeb18008aa47f9f7d9c7fdb4628,
  0x8dc53a21c30643000000000000003018d2e4467334937f2c1f85d1575d1e60a89cbd47c85077ffd7d17d1bd55024f6add7b96a2ceb668e96,
  0x47151b85a9d66600000000000000308b2396f7a0bad47ee7b9012fc470c3404cfdf71dbb6fbc3862596d58db3b21af39b30aec89a0a80ae4,
  0x0000000000000000000000000000308dd6ae16f00a5d5d999f6cc03d85699f8aaed96926f1bf8748e646ebbc616d48290559bf54770af1b6,
  0x29fa1cce37523700000000000000304000000000000000000000000000000000000000000000000000000000000000000000000000000000,
  0x6bb40d8fd4916600000000000000308e3e259a6c63841d0d882760e8a3a365fae159a7a5d1b197695e98daf73bdaf6e04c213d0a26ef4ff8,
  0xeef1c7a591dcd100000000000000308cd78c52063a2c6eb60086334d9a0fea559cc99dbf3b53d79432681e8280a6d8abde7c94290c5f438b,
  0xb0878a4ade72640000000000000030917acaeca921d8bac9779a2afb9e48019885781dd390ece7242d3523153b0fd558ac5751e8e41abde4,
  0xf2e96ddeaeec4c000000000000003083261aa61b04ab47a9ac8eadc663d68fba52ffc084e76ed1f8ff0c08b7b94c10e5b42709e36bcd5ad7,
  0x0000000000003000000000000000050cf6385ce3435f3d484bd63a9d613f87fbc1f3f5823ce1a9ef0288cf66e372f59b6a12b3185ea30de9,
  0x00000000000030830097d5561dcd9fca4845e24d06ad3cb839b205572c906c5c4443dddec36c9c58e5d1c8ac4dceb2aa2c932a0190f79000,
  0x0000000000003004c1726283df97f5e237ebabaf6cbefc3c1e7130591a4f7f5986cd056db3e8f18e8f2a7e43bbac6ce989ed58477f7c1200,
  0x00000000000030056fd3e7d6ff0ee089ae332d85d8a753aef8f881fc629f01153c4c0cbc4ca6de91bf8deda674099fac9cbb734fbde20f00,
  0x0000000000003011081b3bc48e8ad7eb9d159a1144b5dddd8ea8bb2c29b5db4b2d26274c21fdfb3a1f9afc88bcfb20699b57f17d22272e00,
  0x0000000000003091d39b46af13bcd56f2392f7706f3b14ca1c4a6e1949b9e7bc6e8f4eefb9214b2a0690ca46089f9d4cc3ea20597f4ca100,
  0x000000000000058bead55c353c4e850a7f4a778d518e583cd4d37589add7edea1ff734a7a5aa6c5f9eb163402fd9932ddc1593161c534700,
  0xe09db580600dd900000000000000200000000000000000000000000000000000000000000000000000000000000001000000000000002000,
  0x4ac3e799f2e8ecb47001f57845bbbfd7c0070a381d364d00000000000000206141e529fcdc704e26ef0699ca82c49012c588ada0e784368b,
  0x000000000000202664991206cc6e6a144513f4c899a417ee516fa456ee3f9ec51c159ddca97c33000000000000002022a342a0964a25e0e9,
  0x4622f6a9152435034d2ff22a5ad9e1000000000000002041feb67496b6e8973bb1afa6ef9bb1c0ce7b067b089b046d2903ccdd332888e600,
  0x00000000001e590000000000001e580000000000000f7b000000000000002e000000000000400056624634b500a166dc86b01c0d477fa6ae,
  0x00000000003063000000000000249500000000000024940000000000002355000000000000221600000000000020d70000000000001f9800,
  0x0000000000306a00000000000030690000000000003068000000000000306700000000000030660000000000003065000000000000306400,
  0x000000000030710000000000003070000000000000306f000000000000306e000000000000306d000000000000306c000000000000306b00,
  0x0000000000307800000000000030770000000000003076000000000000307500000000000030740000000000003073000000000000307200,
  0x0000000000307f000000000000307e000000000000307d000000000000307c000000000000307b000000000000307a000000000000307900,
  0x0000000000308600000000000030850000000000003084000000000000308300000000000030820000000000003081000000000000308000,
  0x8b034627c175a4f19d4cc7a3756f7dbe2adbac83c10a093fb783e266c1e7ad0000000000000020000000000000002e000000000000308700,
  0x886c8b82903ffc000000000000002036d2c60a0878ff722ac3d6f6c74c64346bcd9f343d33216651deacccd9d56b99000000000000002019,
  0x8769c097c6b67bd22605bfceaf864e1ab5c2552e06470000000000000000201a6f26b409342a1f05f9f31d1f4e0d346939c1bb2ca3fb05c0,
  0x000000000000205c3f92b31427eed064f7a7c2b0831319fada85ae99b1ca90aa4b85c8b7bd44b20000000000000020256e06d4a197e1902c,
  0x47eda00c47e77b4a1f25d711d09a12000000000000002018916b5f22ef20086678ef938e3062c97283588ab5d3fcfed792cc0dc6930ebc00,
  0x492fff96743752c4d3a5be44c2676f8181470c9f08d8e097f940dac7fce8e000000000000000206bf0107db785c7b07d6f2288c8c876ff1d,
  0xa6b64db4acf34400000000000000200c9c04bbbe79ca1e0c6c30eee9c2066a7629cd4480a93c7ebe3b0831180869fe000000000000002044,
  0x0cd54778161ab9e28aa9c74eb24bd68488f51de5197596000000000000002033b468e000271d27653353bd57bd832165c43d3a186baf03fd,
  0x0000000000002005f7952f8e3a0ad1134f8a637d5f64e8e3c2ee19a3850b0fbed0e3316f74abd20000000000000020413b7b8810ebd10afb,
  0x51f345f028334480e0b11f49de9d97000000000000002042af5bf0f1ab4103715c6b676fafb3d9619ed6c4abe2c05c520facccd17a1f5a00,
  0x64267b8eb2e1c9183721dd7447b21b6d0ee944e55f47ca8153e41bed51a22200000000000000200e3ede814aaf223ef81c4a2d9c932b2ce2,
  0x21fcd5d789223600000000000000202f72c54fe2ec44b56a5189d675b6558cec1307009b7c96ab0aa854cadf90a8d6000000000000002028,
  0x3dfb12e5f3e686caf52bfd846239c94f9aa08f056ba22e000000000000002010a7052c3e1c2a78812d0401c8f3d3a3a1763cf674e080bcb0,
  0x0000000000002028c3a239edb06f7f34094184de43305da6af0c96986314840690b15d679a589f0000000000000020236aaaf0f05eccf83b,
  0x77b43998e912ebcc374661bdf24b4900000000000000202239d50c49066cae3ef58c49112fe6de6c94ad41143280c3020cdedaf0a838ca00,
  0x2c2f5cbb61fb78c0a2a329bf439a906988fa356d902ca3c151c218caae6a4c00000000000000200e2983ddf1beaeb3eb368f6aa7647201aa,
  0x76552f5c12490d00000000000000200762fd8ec963f3f170d2958891f75584a44e15c6bfbec9acafb0d25b3b9b5c2f000000000000002041,
  0x6c3427d2766acf2cc6a57026d9e8bdcf2b19f3267de6e2000000000000002065b0764df89d42afa9d0a734253bab3235007484698676625e,
  0x000000000000205ae2255307cf2fc0b6a3ca829437f575f790a40006fd73eff7b9e4a74424390300000000000000206a2b6e321f63658466,
  0xfa7318b4c902499df0701af3ccd18900000000000000203340a9e953d50b8caeca3156c97e71a7dfda9b43bb7c7d2c4c4223f28cebcaa900,
  0x50424392dd82d428770ec41a3396d855ef7e931834c347fcaa8e35da65d845000000000000002068a5bbd17e2eeed5c4db23f9c441404132,
  0x584e04718fb8220000000000000020114cb03591679cd72e7760f16c9c71eedda334b267d1c6f00d73aba34b8aa560000000000000002050,
  0x16a7be71a6214a0a8ea9df4e230bfeebb6a2cfc3db576100000000000000202f83ef0e3bd3201eb0f57d6600b33fac4ff87480bc8b386241,
  0x000000000000204c5b4ea540d73aeaa77cfbd3d9a5a59b41a0729de593e5df2f554850484fcc9800000000000000204de9ab3b4ae2499cf7,
  0xd46a92df0371908b191b1b4b0a9b4600000000000000205ba6bef19069b93989847fd8f3b0ac52fb0e9fb964b757967f7c7f89399826f800,
  0xe099efedc29328064121ac46febc033f45b84697aab6049877150eea903eb8000000000000002043f747f6d9d4f60c421b51e7ff97653fdb,
  0x8dc9d21007d64700000000000000200970659b11af99ca3c865e3209214e5ac7958624fdbd6d377c91aa3744f093bd000000000000002008,
  0xd7119048b16b2f692032c5e5ea1c16262d7db5d62a0e2c00000000000000200b2339363c9fb2713d086d2005b4745224b1a221ade47ebe70,
  0x0000000000002056dbbee5a41448c15de6efe38ef2e3270af0348900960eed35df5e962593df5800000000000000201d740355947f6fecfb,
  0x5d3d32f93ad84d6e2105854fd2f80300000000000000204294a603c4ca867b6845f149ef2940ffeae37dce6ad5a849efbdd0f9769a47a800,
  0x9aefa9a75a5c648fc02e1c26d7d79f3c2f5ad0efac292cb748250f6accccde00000000000000203692aaa261ebfc3f0734cd4aac3d8b700b,
  0x8f43baa224946500000000000000204b4490eb4cc26d97d1f5c341a6e7b4ebae72519fcb682209b111b79aa89b94bf00000000000000203a,
  0xb9ea7d8f66c94a404ebf359d0930b763108429bdcec83400000000000000206bcf35961dafbafe30ea170211f691e04e02b08bafd96b5827,
  0x3a427b6beac040008d]

/-- the 5665 bytes -/
def xfrFile25 : Bytes := (xfrFile25Words.flatMap (leBytes 56)).take 5665

set_option maxRecDepth 100000 in
theorem xfrFile25_check : checkTransfer xfrFile25 (Spec.transferVars 20 2 5) 16384 (Spec.transferPublic 20 2 5) = true := by
  decide +kernel

theorem xfrFile25_size : Spec.IsSize (Spec.transferGates 20 2 5) 16384 := isSize_of (k := 13) (by decide) (by decide)

theorem xfrFile25_len : xfrFile25.length < 2 ^ 64 := lt_of_le_of_lt (List.length_take_le _ _) (by norm_num)

/-- the entry for 2 inputs and 6 outputs: words of 56 bytes, little-endian, the last one shorter -/
def xfrFile26Words : List Nat := [
  0x0000000000000020000000000000000000000000000000000000000000000000000000000000000000000000000000000000000000000000,
  0x0000000000000000000000000000000000000000000000200000000000000000000000000000000000000000000000000000000000000000,
  0x0000000000000000000000000000000000000000000000000000000000000000000000000000002000000000000000000000000000000000,
  0x0000000000000000000000000000002000000000000000000000000000000000000000000000000000000000000000000000000000000020,
  0x0000000000000000000000000000000000000000000000000000000000000020000000000000000000000000000000000000000000000000,
  0x0000000000000020000000000000000000000000000000000000000000000000000000000000000000000000000000200000000000000000,
  0x0000000000000000000000000000000000000000000000200000000000000000000000000000000000000000000000000000000000000000,
  0x0000000000000000000000000000000000000000000000000000000000000000000000000000002000000000000000000000000000000000,
  0x0000000000000000000000000000002000000000000000000000000000000000000000000000000000000000000000000000000000000020,
  0x0000000000000000000000000000000000000000000000000000000000000020000000000000000000000000000000000000000000000000,
  0x0000000000000020000000000000000000000000000000000000000000000000000000000000000000000000000000200000000000000000,
  0x0000000000000000000000000000000000000000000000200000000000000000000000000000000000000000000000000000000000000000,
  0x0000000000000000000000000000000000000000000000000000000000000000000000000000002000000000000000000000000000000000,
  0x0000000000000000000000000000002000000000000000000000000000000000000000000000000000000000000000000000000000000020,
  0x0000000000000000000000000000000000000000000000000000000000000020000000000000000000000000000000000000000000000000,
  0x0000000000000020000000000000000000000000000000000000000000000000000000000000000000000000000000200000000000000000,
  0x0000000000000000000000000000000000000000000000200000000000000000000000000000000000000000000000000000000000000000,
  0x0000000000000000000000000000000000000000000000000000000000000000000000000000002000000000000000000000000000000000,
  0x0000000000000000000000000000002000000000000000000000000000000000000000000000000000000000000000000000000000000020,
  0x0000000000000000000000000000000000000000000000000000000000000020000000000000000000000000000000000000000000000000,
  0x0000000000000020000000000000000000000000000000000000000000000000000000000000000000000000000000200000000000000000,
  0x0000000000000000000000000000000000000000000000200000000000000000000000000000000000000000000000000000000000000000,
  0x0000000000000000000000000000000000000000000000000000000000000000000000000000002000000000000000000000000000000000,
  0x0000000000000000000000000000002000000000000000000000000000000000000000000000000000000000000000000000000000000020,
  0x0000000000000000000000000000000000000000000000000000000000000020000000000000000000000000000000000000000000000000,
  0x0000000000000020000000000000000000000000000000000000000000000000000000000000000000000000000000200000000000000000,
  0x0000000000000000000000000000000000000000000000200000000000000000000000000000000000000000000000000000000000000000,
  0x0000000000000000000000000000000000000000000000000000000000000000000000000000002000000000000000000000000000000000,
  0x0000000000000000000000000000002000000000000000000000000000000000000000000000000000000000000000000000000000000020,
  0x0000000000000000000000000000000000000000000000000000000000000020000000000000000000000000000000000000000000000000,
  0x0000000000000020000000000000000000000000000000000000000000000000000000000000000000000000000000200000000000000000,
  0x0000000000000000000000000000000000000000000000200000000000000000000000000000000000000000000000000000000000000000,
  0x0000000000000000000000000000000000000000000000000000000000000000000000000000002000000000000000000000000000000000,
  0x0000000000000000000000000000002000000000000000000000000000000000000000000000000000000000000000000000000000000020,
  0x0000000000000000000000000000000000000000000000000000000000000020000000000000000000000000000000000000000000000000,
  0x0000000000000020000000000000000000000000000000000000000000000000000000000000000000000000000000200000000000000000,
  0x00000000000040000000000000003e2100000000000000000000000000000000000000000000000000000000000000000000000000000000,
  0xd63edd58c6f8f80000000000000030000000000000000d000000000000000001000000000000000000000000000000000000000000000000,
  0x9acb90a9a2f15400000000000000308ecc897db05cb8bfc76dcd5af6f25893193737d53e837f8977690b1b02dbf278f3dacf9eccafdb708a,
  0xcddcaf1d6f785c0000000000000030040431dc70d93be8ab7cbcc1e16479e743c781d0b8a79c56e5721bf4f82e7c9ea3c3541d3a10fa61d5,
  0x8db1dab1825f3000000000000000300f93f46f5f650c14343170fe6b59f8cacf054b408b8da0232f526cf9c6752fe28d77f4acca73ccf6db,
  0xb684e5c0f1d47200000000000000309831aa4057998b8ac6a7db4759e089fb981cbc747f18cf8fc90fcde5f8480d33b3de36d080a137452d,
  0x5112387686acae00000000000000308443454bf429c7d2fce5d7042b2902a813fdef7a115ac94e9c3e2621a9ae879aa9ea6b6a304db34fdb,
  0xdb4baf1ee40e070000000000000030175896dff366152160ef33158af2a335beffb75973cd4fe62b58f565f06eb88a0012d06dac97f35c93,
  0x000000000000000000000000000030877558ea6df703b111215ea85cb14069f8c4c3314145d4255f5d3888270a7b1247903da84860f771bd,
  0xb84d3a6f3c776700000000000000304000000000000000000000000000000000000000000000000000000000000000000000000000000000,
  0x28bfa82c3d84ce0000000000000030844300f7345906618e262137bbd3dac64d88029d5f39d335938473c1efd42654eae0d4b28b3a97aefe,
  0x2147220011fa530000000000000030042b7b9cbcfa3f4d1272ee4e7bba849fd430bfc733eed97a3486d4da366e6c2e3ca44ee68794b5c4bd,
  0xd8f7a7bbb3605c000000000000003099f1be8446f1549922e6124bc696b13133aed62289037b136912e26e379365f8b5c5d430d5393d14ac,
  0x4a2642f649fd7500000000000000308f7a9bea2f7c171bb7ae6ea9cebb8d6f53605d99a06ebb3a16acf7e0b3068d3b5a56c74a6f7ce15236,
  0x0000000000003000000000000000050aeb21c5ed76381d05619e8e5969dd1be9541b331c15b97a2bc81eda3e4d8046fd21546ee0c4b2df17,
  0x0000000000003008b81ce486a9172619fcf8b81da5dac02449654303480333d637e33f9377f2dd447dd738aaae9006996d7618185c059400,
  0x0000000000003084a548593e9f6bfa06d010f5e867f496c92fd377c0cb8048f94da0f1e674936942be63c63826a814e5a7d787704b7cd300,
  0x000000000000308440481785a27c36dc2460ff930fa5ce844cd2fab593eece36546e501a665d15101c589b1f3d55d0c077e8139a4bf4ca00,
  0x0000000000003093348fd921c92a48168921ce7f0ea3273fc247c77a67d74eeb60fab6c2c776593a6f087d42f0dc6d1a6e2c09da59af4e00,
  0x0000000000003016a833f8780d4310d9f7dcb98fc48534f5e5c5e54ed764994bc390fe7b8852e6d01e8bdf052e9b85880e30a5b6cbf2be00,
  0x000000000000058d044bdb06a9bacdaad7d2afb663b592f3de87b02e58e0655ae22c7ecf16718246ad04f6048d2ccebd3125ba242938aa00,
  0xe09db580600dd900000000000000200000000000000000000000000000000000000000000000000000000000000001000000000000002000,
  0x4ac3e799f2e8ecb47001f57845bbbfd7c0070a381d364d00000000000000206141e529fcdc704e26ef0699ca82c49012c588ada0e784368b,
  0x000000000000202664991206cc6e6a144513f4c899a417ee516fa456ee3f9ec51c159ddca97c33000000000000002022a342a0964a25e0e9,
  0x4622f6a9152435034d2ff22a5ad9e1000000000000002041feb67496b6e8973bb1afa6ef9bb1c0ce7b067b089b046d2903ccdd332888e600,
  0x00000000001e590000000000001e580000000000000f7b000000000000002f000000000000400056624634b500a166dc86b01c0d477fa6ae,
  0x000000000025d400000000000025d300000000000024940000000000002355000000000000221600000000000020d70000000000001f9800,
  0x000000000031a800000000000031a700000000000031a600000000000031a500000000000031a400000000000031a300000000000031a200,
  0x000000000031af00000000000031ae00000000000031ad00000000000031ac00000000000031ab00000000000031aa00000000000031a900,
  0x000000000031b600000000000031b500000000000031b400000000000031b300000000000031b200000000000031b100000000000031b000,
  0x000000000031bd00000000000031bc00000000000031bb00000000000031ba00000000000031b900000000000031b800000000000031b700,
  0x000000000031c400000000000031c300000000000031c200000000000031c100000000000031c000000000000031bf00000000000031be00,
  0x9d4cc7a3756f7dbe2adbac83c10a093fb783e266c1e7ad0000000000000020000000000000002f00000000000031c600000000000031c500,
  0x0000000000002036d2c60a0878ff722ac3d6f6c74c64346bcd9f343d33216651deacccd9d56b990000000000000020198b034627c175a4f1,
  0x2605bfceaf864e1ab5c2552e06470000000000000000201a6f26b409342a1f05f9f31d1f4e0d346939c1bb2ca3fb05c0886c8b82903ffc00,
  0x3f92b31427eed064f7a7c2b0831319fada85ae99b1ca90aa4b85c8b7bd44b20000000000000020256e06d4a197e1902c8769c097c6b67bd2,
  0x1f25d711d09a12000000000000002018916b5f22ef20086678ef938e3062c97283588ab5d3fcfed792cc0dc6930ebc00000000000000205c,
  0xd3a5be44c2676f8181470c9f08d8e097f940dac7fce8e000000000000000206bf0107db785c7b07d6f2288c8c876ff1d47eda00c47e77b4a,
  0x000000000000206b7c181e39cf204aa886d4024700b2d1fe3e598a2e273acbe6ca68ae6906afdc000000000000002044492fff96743752c4,
  0xa0406868113d3f93d3f6d22aa47b9d00000000000000204999e8cec1365cd3e11814e41f7c69138ec767d3a1ca3e9371fd823ccee6769800,
  0xdde85711e5b689ce199b2e22a3d0ecddc47ad53334328704ded4c2f8a0554d000000000000002010b9a1711cdc919587ebb23791053e1036,
  0xa8c6c5ae3eea3a000000000000002027af58c53ffe47e722d5004168b402149cea7cc1d32e9930d5cf5f68e057b4c9000000000000002006,
  0xfe3930671c3ee4341dd4d3df965a4e641234030ad4cd84000000000000002034601125cb0ff0941aeb7471ab424198bdacd4c00e67fe32b5,
  0x00000000000020217914fe6aa4d58c8d667f0932f53094d95145bbf782b01855e6d6be85dcd76900000000000000203e71263f91dad58588,
  0x5f64ad4b11b0624a7faeaf40be256c00000000000000205195f7fa3cf516b147d3d2f98dfdf5658a5451961e5cd2c64597bd73a19c9ab400,
  0x32323ebc14eab46119a34f853b06006bd39f8dec5070023e6958978e73e40000000000000000200752c49ef1c14cfaccf9200f7d4a6f1928,
  0x3db3c122a50fa400000000000000203dfea3fb6130c5aef277601ff4ea0608562f49a1359093a4b18627a144fea6ef000000000000002050,
  0x2e941943c6010fbc1dd086321c326e4c3399197e99ccd100000000000000202a275aaaeee2d0e94d07255b14bc0271f30aa9aa2089f83e04,
  0x00000000000020212ee7cc5e011557eb35bbaeb7c3449b95104272e1502b8dcbcb10699dd570660000000000000020170a2bc6987cc16b1f,
  0xfcb16866f956a400fd1c3d2f16128700000000000000202a059a0a5ae692768a35443d7c986fce85a97590269b6da8f27c1047757a3b3e00,
  0x4faa46fb1eefb43837c9fef7a6de1971455bf19133470e8a0efa2798c0982b000000000000002005603ae6a7b5f22cda20f93a68605dff81,
  0x5e7c5de20fc5f40000000000000020089f1d6ffd79efc509165594b46206611af95610ed84a4378c4ff461a2f64560000000000000002005,
  0x94607690c989870a987f7c5ab3c5373ec0d9c1ea76dc8300000000000000200f52486658ae906df7616cf1d8aae85efa2b1ef25128aa8caa,
  0x0000000000002023420daef7208f3bc5b3531465395b91ded92f97b5f03d60ce3fa511cc5d092c00000000000000202f6058930ac91038fc,
  0x4b9a4afb1979249d16d1a9d4727a9c00000000000000203ef44ffa0c8034fc055e585f079c0bd891c6c144705ada515b45eca89f34f97d00,
  0x9f94b1289af7e88a6bce6170d97533dd2cd512aadbf8009650471484d7459f00000000000000202d64ca1553c76413a6db33f9f05c531020,
  0x0f57e63c6907ac00000000000000201dca48cac88991d76e88f629753c58d684f539a6c44190c27fcfe6ba8a607f50000000000000002034,
  0xf13fa84156667f7ca5f069db8f7120c74d30f51d639fd1000000000000002024d90a6baf329e735db51195e37eebeadc253b80721ec6b8f5,
  0x000000000000205daca9d6fcf362a923e5ce1d82b3dc712d021c65b249c6b0685197c307a5811300000000000000201e9d1a3a8075a63f77,
  0x9fc3c0fb176c4a7b82ef2e84ce0dea000000000000002050332dc96bff7634d71681b87920d81511ac56e10ed78239479f032c9809898800,
  0x77fb081465a4b756fde268a5793db414c5964600e59ae2c9d0449ece37ca8e0000000000000020176b775cb7037bc352527a7276ce450dd5,
  0xaf42faca3796bd0000000000000020280690c1b966f11f8e300450cf569a35f0531e3c856eb19f65736ef1823d307700000000000000206c,
  0xaab1ff8e40c93f31d7b88de951398c2c865b2f2ce63a0a00000000000000202d5d83535398a31c80991209b9cbea1425530c0e5448996dd2,
  0x0000000000002016b9a8004e2c92c294047c13d9c16422d58a68c6931bf41b9e2d1cd91715a8640000000000000020060908326acf1277fa,
  0x2666bafbc9ca21654f4585f5f4bc9a00000000000000206f7080af037e1988aa1ab5c89419b239581bd08649bff783375b6ab7c0a2716b00,
  0x7605f64213fe41a4f4b71bb336d56afb5964d5f6117cafd70c95477b206a40000000000000002065e3b5c8813e8c5ce89bf18e43a63cc8da,
  0x2b]

/-- the 5713 bytes -/
def xfrFile26 : Bytes := (xfrFile26Words.flatMap (leBytes 56)).take 5713

set_option maxRecDepth 100000 in
theorem xfrFile26_check : checkTransfer xfrFile26 (Spec.transferVars 20 2 6) 16384 (Spec.transferPublic 20 2 6) = true := by
  decide +kernel

theorem xfrFile26_size : Spec.IsSize (Spec.transferGates 20 2 6) 16384 := isSize_of (k := 13) (by decide) (by decide)

theorem xfrFile26_len : xfrFile26.length < 2 ^ 64 := lt_of_le_of_lt (List.length_take_le _ _) (by norm_num)

end Verif.Setup
