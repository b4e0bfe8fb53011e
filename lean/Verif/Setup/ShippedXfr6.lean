import Verif.Setup.Shipped

/-!
Row 6 of the table in /repo/api/parameters/transfer-vk-specific.bin: transfers with 6 inputs.  The test of `Shipped.lean` is run on every
entry by the kernel.
-/

namespace Verif.Setup

/-- the entry for 6 inputs and 1 output: words of 56 bytes, little-endian, the last one shorter -/
def xfrFile61Words : List Nat := [
  0x0000000000000020000000000000000000000000000000000000000000000000000000000000000000000000000000000000000000000000,
  0x0000000000000000000000000000000000000000000000200000000000000000000000000000000000000000000000000000000000000000,
  0x0000000000000000000000000000000000000000000000000000000000000000000000000000002000000000000000000000000000000000,
  0x0000000000000000000000000000002000000000000000000000000000000000000000000000000000000000000000000000000000000020,
  0x0000000000000000000000000000000000000000000000000000000000000020000000000000000000000000000000000000000000000000,
  0x0000000000000020000000000000000000000000000000000000000000000000000000000000000000000000000000200000000000000000,
  0x0000000000000000000000000000000000000000000000200000000000000000000000000000000000000000000000000000000000000000,
  0x0000000000000000000000000000000000000000000000000000000000000000000000000000002000000000000000000000000000000000,
  0x0000000000000000000000000000002000000000000000000000000000000000000000000000000000000000000000000000000000000020,
  0x0000000000000000000000000000000000000000000000000000000000000020000000000000000000000000000000000000000000000000,
  0x0000000000000020000000000000000000000000000000000000000000000000000000000000000000000000000000200000000000000000,
  0x0000000000000000000000000000000000000000000000200000000000000000000000000000000000000000000000000000000000000000,
  0x0000000000000000000000000000000000000000000000000000000000000000000000000000002000000000000000000000000000000000,
  0x0000000000000000000000000000002000000000000000000000000000000000000000000000000000000000000000000000000000000020,
  0x0000000000000000000000000000000000000000000000000000000000000020000000000000000000000000000000000000000000000000,
  0x0000000000000020000000000000000000000000000000000000000000000000000000000000000000000000000000200000000000000000,
  0x0000000000000000000000000000000000000000000000200000000000000000000000000000000000000000000000000000000000000000,
  0x0000000000000000000000000000000000000000000000000000000000000000000000000000002000000000000000000000000000000000,
  0x0000000000000000000000000000002000000000000000000000000000000000000000000000000000000000000000000000000000000020,
  0x0000000000000000000000000000000000000000000000000000000000000020000000000000000000000000000000000000000000000000,
  0x0000000000000020000000000000000000000000000000000000000000000000000000000000000000000000000000200000000000000000,
  0x0000000000000000000000000000000000000000000000200000000000000000000000000000000000000000000000000000000000000000,
  0x0000000000000000000000000000000000000000000000000000000000000000000000000000002000000000000000000000000000000000,
  0x0000000000000000000000000000002000000000000000000000000000000000000000000000000000000000000000000000000000000020,
  0x0000000000000000000000000000000000000000000000000000000000000020000000000000000000000000000000000000000000000000,
  0x0000000000000020000000000000000000000000000000000000000000000000000000000000000000000000000000200000000000000000,
  0x0000000000000000000000000000000000000000000000200000000000000000000000000000000000000000000000000000000000000000,
  0x0000000000000000000000000000000000000000000000000000000000000000000000000000002000000000000000000000000000000000,
  0x0000000000000000000000000000002000000000000000000000000000000000000000000000000000000000000000000000000000000020,
  0x0000000000000000000000000000000000000000000000000000000000000020000000000000000000000000000000000000000000000000,
  0x0000000000000020000000000000000000000000000000000000000000000000000000000000000000000000000000200000000000000000,
  0x0000000000000000000000000000000000000000000000200000000000000000000000000000000000000000000000000000000000000000,
  0x0000000000000000000000000000000000000000000000000000000000000000000000000000002000000000000000000000000000000000,
  0x0000000000000000000000000000002000000000000000000000000000000000000000000000000000000000000000000000000000000020,
  0x0000000000000000000000000000000000000000000000000000000000000020000000000000000000000000000000000000000000000000,
  0x0000000000000020000000000000000000000000000000000000000000000000000000000000000000000000000000200000000000000000,
  0x0000000000008000000000000000746300000000000000000000000000000000000000000000000000000000000000000000000000000000,
  0xeb2025b2d46b6b0000000000000030000000000000000d000000000000000001000000000000000000000000000000000000000000000000,
  0xb28abd7308e5b800000000000000300cf4139ed7962ceb4d0adf19aa97fd01cd8749261c3cdc889644faf3b86e885785a4841291c63dab03,
  0x7cf8af65a2c978000000000000003088668ee6967d6c3a4ae7feaa65f8ea64fd5eb0f0af06bdf46d48acdcfcf990f6eed25901be3e78f3df,
  0xef3d099d4644270000000000000030908061539621b819577b52406f63ebb86a65261ccaa8ea9ba000ed7a8a2085c120af63d9b8e68cd529,
  0xbe67e2c4b6dbe3000000000000003011934f9883f65f04751c5feb77afaacd3b08b979c49f4e6ef40e98923d37d3953194e8d215d3bbf67f,
  0x7becb320b6db4500000000000000300ac5ac96deef2ba091320bb20a360df460906ef2fbf1e3f0ab50ba85a2b3585fb04a4b3c029e0b2978,
  0x80c4e3998224f3000000000000003097a92192f046926522267264fd579c67bf889707963c914db2391b114179a083fcb3683eda8cdc85f9,
  0x000000000000000000000000000030810628f73bf4bbdf54d291387046b9a7e32ca8b6da8fe17b3026d82b3eb75c7eaf4fe0d3ab3c81e621,
  0x24f4f45756376900000000000000304000000000000000000000000000000000000000000000000000000000000000000000000000000000,
  0x90fe31f5ea408d00000000000000308703e55b3f0694a2cef136ec607d8a08eb8d6e5f02758d9ab268e0ff087dbabda2f1678342dbef0fa1,
  0x6a9507697a391a0000000000000030175222c0c5886b31e06f5d2a28ac3ca6030e9f68a892f9a2f2c688db7402d83fa1c089f5deee30e32f,
  0x00a2e3b261297e00000000000000308f97a84405004814324d4365edb6170f3b10bb725445a251e2b2981d1b4fc73c9f856fe50e8cb00d76,
  0x7fafdf2ddfa82500000000000000300c0aa666003ed94355c35e3398ab80056e6d306e5d8288e42362c5a06fdb11aaca5c967b2d736ad46c,
  0x0000000000003000000000000000050e5b067fef8859c5ba6f16f0c6e1f6002461f73a6c9307374a3269b0d1534f361656c6749849d193cd,
  0x000000000000308d49162056dbb4f15678e65b65e70674a64a775d19c0f08d935bd16f2aafaca92f2084d099d713946ee32f13ba58f21f00,
  0x00000000000030173a07c452a0a397bda76a1d57f13dbed5be19784d49a35cb4bb0992146eb922b7141ad8280347a0504fe1ab9920f66e00,
  0x000000000000308b8b84df62a71a75f7a2e32027928b5602f0c7f5eb4e56a114e2be1d5812a743521179a8846c4b14ee65a80055bcfa5b00,
  0x0000000000003088c0b0e88c73a712d75f6de1a447d212bc0d94ab6830eaf53d54c542e37870882a9b8330c68f721d5656bd794ba65b2700,
  0x000000000000300c3a8e3678a066905bd0ce337afcd9c96eb636d06bf52102d6b14f31a2f094434ccc853f2737d0361de5840aad80da9600,
  0x00000000000005195ec3c562e2483a4963543fdf440aa12726ea106d0a688c25569a19d31860cecd5e6698e9108fc4a1de25cb22f3abe000,
  0xe09db580600dd900000000000000200000000000000000000000000000000000000000000000000000000000000001000000000000002000,
  0x4ac3e799f2e8ecb47001f57845bbbfd7c0070a381d364d00000000000000206141e529fcdc704e26ef0699ca82c49012c588ada0e784368b,
  0x000000000000202664991206cc6e6a144513f4c899a417ee516fa456ee3f9ec51c159ddca97c33000000000000002022a342a0964a25e0e9,
  0xd5f51db3f32699fbd047e11279bb6e000000000000002041feb67496b6e8973bb1afa6ef9bb1c0ce7b067b089b046d2903ccdd332888e600,
  0x00000000002e750000000000001f9800000000000010bb000000000000002e00000000000080003291357ee558b50d483405417a0cbe39c8,
  0x0000000000681b0000000000005c4d0000000000005c4c0000000000005b0d0000000000005b0c0000000000004c2f0000000000003d5200,
  0x0000000000682200000000000068210000000000006820000000000000681f000000000000681e000000000000681d000000000000681c00,
  0x0000000000682900000000000068280000000000006827000000000000682600000000000068250000000000006824000000000000682300,
  0x00000000006830000000000000682f000000000000682e000000000000682d000000000000682c000000000000682b000000000000682a00,
  0x0000000000683700000000000068360000000000006835000000000000683400000000000068330000000000006832000000000000683100,
  0x0000000000683e000000000000683d000000000000683c000000000000683b000000000000683a0000000000006839000000000000683800,
  0x56d337ec127fff03129db4fab14ad6993b95e316289f6e0ef1217fc1f55f500000000000000020000000000000002e000000000000683f00,
  0x39a12bf107d662000000000000002060b50c7f21a449841d8045d8f8c2d63c2a21a4f661fe3953fcf41d31416f4c14000000000000002026,
  0x60f8ee057ec81c93410b68927e5a5478b1fdf7f418f66200000000000000203628e67b4b841c21932bbac285a7c72c5549739108b3b07cf2,
  0x000000000000201483024522dfe9101219180fb7d62de75a61be778713d937e51446c5310eda1700000000000000203b4b484628288c9a30,
  0xcb88e807fb9d9fd4c100ec73eaac1c00000000000000204e86008861307ef09a8195287619105d8f18eed53982aa13ec37dbd867e129c800,
  0x9f9b3150ca96d9c6b0d8135211304013ad5d322d340983efc3dbfa19698d210000000000000020534e2a81bbf70d9f7348316e08c10e2360,
  0xfb693413fe69a8000000000000002012d230d830ea31c09f5548e64a90c9a8f48fff47b8875975ee1097c2ba41973800000000000000205e,
  0x53c772c590793be24fc116ff113c8f16f5dad057a9493200000000000000206e068d0ecfc1e978ef3b3b33edf89a2eb87f2b523fc8245f52,
  0x0000000000002027dfa46d704f7a829fe32a27764daebee908ce4e214a16e11731e5461d5c2da0000000000000002067cbc51784a1af44a2,
  0xa096eb039d4330ea20c009615a693700000000000000202983a79bc59d9b542a4e0b74b4ca0700dd8e680e487e31f2ccf08819b320e6e800,
  0x59381d004c717a5ef6b367350db88e82aff37270a076c396954431acdf52ea00000000000000200c64853910c13121b810eb91a3c71dc500,
  0x18df1660b715970000000000000020188243d41b96c6457084c7d3a92ada73a4513dc04c72f50183e9d2e034a6a78000000000000000206e,
  0x6404a84c4348573617e3450384ae99436049feb5847c0100000000000000206f335e1e4c352091c9a715c5c4c87755066ee91d64f55a9e8f,
  0x000000000000200032a439073307cb408dbaff02bb70d64393fb86627aeef25fad45fa8a3cce6d0000000000000020609356ca92ab99767a,
  0xb406fe7b8f7fa841138a278cbe2c110000000000000020699367e7bce40187c9d635bd60e10a977aba06676759395eb342d1fb18b8976100,
  0x7fbd0a7445c448381d120c67ab6cd2257e5127b8d0bc7d32792e0f4fbc51490000000000000020541d3317cd65e1c7cc9d2486cf6a019b0c,
  0x21946fea32077100000000000000202e1d6d52b88712846b0837361f2900bc3d0cb009484582388be25064b60f56cb000000000000002044,
  0xb76b741aa9b362c2965aa1fdc3caec319082680bbdbb0e00000000000000202bb65cb6a1a9daf2c1c1440dfd8d859ac5f3d6af4e1be7a79d,
  0x00000000000020574df2185d17de028bfb9fc35487e424fb568ae08e6b0d6390d4456c0b2fa8d1000000000000002067b040100072aa349c,
  0xff70170244fe6b9d6e129eb640615100000000000000201d2b053f681403b7efbf1fd3fa437356a192170abd889bc29fcc8bd85a77105500,
  0xe90a8620fbb896fc45f9e939744270b190b8a6301d76f04b2d2e58f62b7adc000000000000002016c73b12bd66c8428dbf6ef4e973ad6285,
  0xbb242aae470a2700000000000000205f8be36f55624bbaa98f22c7d06f22a00afb061a094bdcc39dbb1ac1e18b732b00000000000000205e,
  0x8c287e38e40d1b43080f7d577908fc56172a0b343d81ca00000000000000206f8e283c0da6d8759dc7786fe0489def1efa145df96abe4c51,
  0x000000000000205dcf41e48eb67e9117142334a42977d407c1a77e5badb930988df6864e6cde5a000000000000002053f7c0ebda35ad168f,
  0xd4160a91bec6b1bea722d1d3f47a7f00000000000000200ae4171bdd4fb4cd18ee8303cdfae1ffb912b9767701a77d6bad1273226a3b6200,
  0x9ce530fdb34be21691b1da2b1b54a9578f05728b437b057f672476aa16e8be00000000000000203932c1f06d94c4733a27ec124c6a34e15d,
  0xb49beef3677ab800000000000000202ead4ca0ff6690980262cd5639b82bba1f3931e1dc8c80400d1da32b9f3ab91d000000000000002041,
  0xb3661a73cd41d8da97e8ad860d43ce22a8d7ba35e17dfe000000000000002065ec1ae56b7e098adfc181350e3ee9e051a3f396ac9ae2a7a6,
  0x000000000000202ee84503d14dd1fe4fe5a10f808ccf394b8cc66bd295976b89292aeaf8826be500000000000000201091f6cdd42bb533e7,
  0x49f333d418f753f5635c114570cb87000000000000002073ae896163563cc217c70a7ba53ff0975260c2501898bbfa6b99652140f3700800,
  0xfce1134941530116c9d638fa6338f662e5f82531b826f8625f7efbe4ca82e8000000000000002002c31b48d55aaa585aeb736e4d5afc8863,
  0x8d24be7c23996f000000000000002050e8514c7a79d299cf82719afbe345f4b3c9641e3df02d5f31d6e47d69f1068b000000000000002016,
  0x6b8124b5f7bcdf3346f9c5c749157bcbcf32a1b7622475000000000000002014c26088564f66fe00cdd76e1d740dc030422517d2b3c1acc0,
  0x2e26fd0b1934ca95df]

/-- the 5665 bytes -/
def xfrFile61 : Bytes := (xfrFile61Words.flatMap (leBytes 56)).take 5665

set_option maxRecDepth 100000 in
theorem xfrFile61_check : checkTransfer xfrFile61 (Spec.transferVars 20 6 1) 32768 (Spec.transferPublic 20 6 1) = true := by
  decide +kernel

theorem xfrFile61_size : Spec.IsSize (Spec.transferGates 20 6 1) 32768 := isSize_of (k := 14) (by decide) (by decide)

theorem xfrFile61_len : xfrFile61.length < 2 ^ 64 := lt_of_le_of_lt (List.length_take_le _ _) (by norm_num)

/-- the entry for 6 inputs and 2 outputs: words of 56 bytes, little-endian, the last one shorter -/
def xfrFile62Words : List Nat := [
  0x0000000000000020000000000000000000000000000000000000000000000000000000000000000000000000000000000000000000000000,
  0x0000000000000000000000000000000000000000000000200000000000000000000000000000000000000000000000000000000000000000,
  0x0000000000000000000000000000000000000000000000000000000000000000000000000000002000000000000000000000000000000000,
  0x0000000000000000000000000000002000000000000000000000000000000000000000000000000000000000000000000000000000000020,
  0x0000000000000000000000000000000000000000000000000000000000000020000000000000000000000000000000000000000000000000,
  0x0000000000000020000000000000000000000000000000000000000000000000000000000000000000000000000000200000000000000000,
  0x0000000000000000000000000000000000000000000000200000000000000000000000000000000000000000000000000000000000000000,
  0x0000000000000000000000000000000000000000000000000000000000000000000000000000002000000000000000000000000000000000,
  0x0000000000000000000000000000002000000000000000000000000000000000000000000000000000000000000000000000000000000020,
  0x0000000000000000000000000000000000000000000000000000000000000020000000000000000000000000000000000000000000000000,
  0x0000000000000020000000000000000000000000000000000000000000000000000000000000000000000000000000200000000000000000,
  0x0000000000000000000000000000000000000000000000200000000000000000000000000000000000000000000000000000000000000000,
  0x0000000000000000000000000000000000000000000000000000000000000000000000000000002000000000000000000000000000000000,
  0x0000000000000000000000000000002000000000000000000000000000000000000000000000000000000000000000000000000000000020,
  0x0000000000000000000000000000000000000000000000000000000000000020000000000000000000000000000000000000000000000000,
  0x0000000000000020000000000000000000000000000000000000000000000000000000000000000000000000000000200000000000000000,
  0x0000000000000000000000000000000000000000000000200000000000000000000000000000000000000000000000000000000000000000,
  0x0000000000000000000000000000000000000000000000000000000000000000000000000000002000000000000000000000000000000000,
  0x0000000000000000000000000000002000000000000000000000000000000000000000000000000000000000000000000000000000000020,
  0x0000000000000000000000000000000000000000000000000000000000000020000000000000000000000000000000000000000000000000,
  0x0000000000000020000000000000000000000000000000000000000000000000000000000000000000000000000000200000000000000000,
  0x0000000000000000000000000000000000000000000000200000000000000000000000000000000000000000000000000000000000000000,
  0x0000000000000000000000000000000000000000000000000000000000000000000000000000002000000000000000000000000000000000,
  0x0000000000000000000000000000002000000000000000000000000000000000000000000000000000000000000000000000000000000020,
  0x0000000000000000000000000000000000000000000000000000000000000020000000000000000000000000000000000000000000000000,
  0x0000000000000020000000000000000000000000000000000000000000000000000000000000000000000000000000200000000000000000,
  0x0000000000000000000000000000000000000000000000200000000000000000000000000000000000000000000000000000000000000000,
  0x0000000000000000000000000000000000000000000000000000000000000000000000000000002000000000000000000000000000000000,
  0x0000000000000000000000000000002000000000000000000000000000000000000000000000000000000000000000000000000000000020,
  0x0000000000000000000000000000000000000000000000000000000000000020000000000000000000000000000000000000000000000000,
  0x0000000000000020000000000000000000000000000000000000000000000000000000000000000000000000000000200000000000000000,
  0x0000000000000000000000000000000000000000000000200000000000000000000000000000000000000000000000000000000000000000,
  0x0000000000000000000000000000000000000000000000000000000000000000000000000000002000000000000000000000000000000000,
  0x0000000000000000000000000000002000000000000000000000000000000000000000000000000000000000000000000000000000000020,
  0x0000000000000000000000000000000000000000000000000000000000000020000000000000000000000000000000000000000000000000,
  0x0000000000000020000000000000000000000000000000000000000000000000000000000000000000000000000000200000000000000000,
  0x0000000000008000000000000000763900000000000000000000000000000000000000000000000000000000000000000000000000000000,
  0xebc964cdb7df960000000000000030000000000000000d000000000000000001000000000000000000000000000000000000000000000000,
  0x0b0a86b165e4f400000000000000300897a9776966b2385da4eb89ad137e81ececfa9f8ebfecfa35f1d9922444e3f2632f2445c6c525599d,
  0x97da34ea33697a00000000000000300b431ecfa7eaac692e7acdb0c8bdb8873541e53374e59fc9f3b65e1a3990cd9ac89f6cff93d856d983,
  0x7384d6ec1d62600000000000000030843e5f8c5a4ba7e597a3567b82206818b6ac5212f0c843cf2f6df587cfcf5417c554219cecb819ca17,
  0x4e8a5b0352e69500000000000000308594636814bdf2bb98f97c445bb0e55d93cb66b1e20b678c04e49bceb4a6eb44a250003026f8149f4d,
  0x773896886ce5a200000000000000308c30c8099908253a4ac5ffc548f50220825b15e1e5aee3cb5c34b8fb8f64ec4446dc53dc4fa0652796,
  0x16d0f51511b64a000000000000003005ed3c51c05b6fd2fd6baf5d630ca55b1dcd08d63b4cfcc2621a02927f64b903672568be244ef1ca3e,
  0x00000000000000000000000000003091ef68f7cae4175acebd456f23d6eac377a75dc9f54214178aee316acfa8e8676b3b568922ba8af181,
  0x5d17b56e6f98e600000000000000304000000000000000000000000000000000000000000000000000000000000000000000000000000000,
  0xbf61beee1af1860000000000000030823f196bc63a859ebff97a9f42f5e0b6822876e4bf3ba1eabfe5e532b6c39526aee343c51d4dcfd313,
  0xea9a0a049bf70800000000000000309484d0bb38f3ee75f1744f654365be5e90ab8d89e61ca06053f777cb4ebf62d43715f9e6d2b26557c5,
  0x0e8a55f6c95fea0000000000000030061f45d45ef428f8039c3c751d81b15fd51622c8b11d7e7938aae623d44ec64decb41947e8ac2c9a8a,
  0x01e0f14a4820ae0000000000000030020410a86e237e2a7f87a3d4e2cdb268a049114778ba6b5778a942c336d40731361e6a78d36a54440f,
  0x0000000000003000000000000000058184d40453f80af76ac714c34604d253e0728090b85af5c79bedc37ac0fc4315e235e16963c0e0c318,
  0x00000000000030904b5df1d585ade64acaebbf0a807ea16b7bcf475bbfe302d7e70d33a2da21c1db520b0fd12ad487448336ced254d63b00,
  0x00000000000030149f67cbae4e9beaeb7a60141454667a70778e60a6d0183240c36218848f79e010ce2e5f96ccd901dbe6ae222081419200,
  0x0000000000003014255a151c29dd565b41c4b6a04bb54074d1625bde7388a3d7ef3ab01f2f2d37866de2ca04ec3ad48af3f3947290939400,
  0x000000000000308149d23399980ea418b35eb1518aebfa7da5ad53adf6242a6b3f26b00bd4e09576d393ae99a9bdf5f1a6b251dbca545400,
  0x0000000000003012ae3fd870c858847e26782bc02c90566127ae6dffdd9ac2b0d9bd1e7494feb6a75e26d43adf942f9049660a5a7e9b9200,
  0x0000000000000509981e74fc14cd914c89a329602f644a9e22d5a90ffb5141acc71877bff845942dc43957b43bafbe699e2902d390b77600,
  0xe09db580600dd900000000000000200000000000000000000000000000000000000000000000000000000000000001000000000000002000,
  0x4ac3e799f2e8ecb47001f57845bbbfd7c0070a381d364d00000000000000206141e529fcdc704e26ef0699ca82c49012c588ada0e784368b,
  0x000000000000202664991206cc6e6a144513f4c899a417ee516fa456ee3f9ec51c159ddca97c33000000000000002022a342a0964a25e0e9,
  0xd5f51db3f32699fbd047e11279bb6e000000000000002041feb67496b6e8973bb1afa6ef9bb1c0ce7b067b089b046d2903ccdd332888e600,
  0x00000000002e750000000000001f9800000000000010bb000000000000002f00000000000080003291357ee558b50d483405417a0cbe39c8,
  0x00000000005d8c0000000000005d8b0000000000005c4c0000000000005b0d0000000000005b0c0000000000004c2f0000000000003d5200,
  0x00000000006960000000000000695f000000000000695e000000000000695d000000000000695c000000000000695b000000000000695a00,
  0x0000000000696700000000000069660000000000006965000000000000696400000000000069630000000000006962000000000000696100,
  0x0000000000696e000000000000696d000000000000696c000000000000696b000000000000696a0000000000006969000000000000696800,
  0x0000000000697500000000000069740000000000006973000000000000697200000000000069710000000000006970000000000000696f00,
  0x0000000000697c000000000000697b000000000000697a000000000000697900000000000069780000000000006977000000000000697600,
  0x129db4fab14ad6993b95e316289f6e0ef1217fc1f55f500000000000000020000000000000002f000000000000697e000000000000697d00,
  0x0000000000002060b50c7f21a449841d8045d8f8c2d63c2a21a4f661fe3953fcf41d31416f4c1400000000000000202656d337ec127fff03,
  0x410b68927e5a5478b1fdf7f418f66200000000000000203628e67b4b841c21932bbac285a7c72c5549739108b3b07cf239a12bf107d66200,
  0x83024522dfe9101219180fb7d62de75a61be778713d937e51446c5310eda1700000000000000203b4b484628288c9a3060f8ee057ec81c93,
  0xc100ec73eaac1c00000000000000204e86008861307ef09a8195287619105d8f18eed53982aa13ec37dbd867e129c8000000000000002014,
  0xb0d8135211304013ad5d322d340983efc3dbfa19698d210000000000000020534e2a81bbf70d9f7348316e08c10e2360cb88e807fb9d9fd4,
  0x000000000000201309a02026c9731dc62edb8ff8a7599592b331f26bb5c3c1332c9d7dba59288e00000000000000205e9f9b3150ca96d9c6,
  0x32ec3c0dae47b0ca5774f4f1c60605000000000000002032102cf15ce220876e308c530eb388dd975e8be99c8e9630bf19274cb012dd7600,
  0x3f6196d94c05a222cc85ca0ad334cee0f435854d6e963cd9416bdc468640760000000000000020059613c93759c6b5c4af616983cd566d05,
  0x583de6f230ca5900000000000000203576eace06f801b3526d74c2c72c6b307a2d52207f3d003553c302dcb4065f4200000000000000202f,
  0xc83b147d25a2ea57fc65efab1573c80f917994b4c3a6d800000000000000200d5b015d63482bc31136c22b17b6cb461b937da43ab3f6a13b,
  0x000000000000205eeaee1aab620fbecfba40d116a3ebc378022ee995c22cd068ed8082a65d60a000000000000000201d6583a2f5f6291914,
  0x4fbd42cea3c4f383fd6f219fbee5350000000000000020418590f5cedd9389c9b3f7204b48b1a79468e474c6e0f23b612b5d3734e3425200,
  0xad93557cbe7e549784dde45ddaacd49c7dc1ffb8d7dc86b0b1778841df08dd0000000000000020451ff69b2299ff7cae9a986864514fbf34,
  0x0a87087d6bda0f0000000000000020635d5be2aca070b0fe66e450fd30a8cedff526bab648e0c1c0d9bc090b50ef0f000000000000002025,
  0xd2342473aefec14c8923a308ab719f5f5436b8ef1f372600000000000000203ec06debab4bafe53bfb8187e5edd7ed83d851896313f14e93,
  0x0000000000002036864790491d184a3043566b895b8669e72b95c21694917382df0aa9e918a14700000000000000206a906c1525e48a9d15,
  0x3aec408e9805a6af6c95eed4db0dfb0000000000000020507ca1825416d1325412f5265f9886fbc23a0a76327c1a4a8af0507c4606e25a00,
  0xeb057fa010ecaee8b11c27878c8a5998b24862850870ed49e0528cb1ca93ac00000000000000203a2e20ff71824c93d1c1a3d61e945e290f,
  0xdf13bbbdc9b33700000000000000205501f318225649539fc86753cbbdbb7266cae5a8492213adcd662618750e9bee00000000000000205b,
  0x1916253470b7fe436869623135dca702ad983f0758c339000000000000002040750093407d6a10925fcfd881059d04a095e37b0f8a6ac604,
  0x0000000000002047402597ecf8f0e9232b4f3868d974f95d8743ede1351537a4a33d5e6a557c09000000000000002040635eb06dd430df1c,
  0x45054a9441c5ee8d7ee7870091da9b000000000000002008a7cdef2140e78849ef2407a25adcb5e4dc516150cc8f7d5e0ebc2eb7dcd3ca00,
  0x8a554af13eb4a6fd844f0514093b928fd23a307a717aad752296fb2f3bae0c0000000000000020332376137ba74c51434fa3526f9761542a,
  0x7026c9fcb9fef400000000000000206cc6ed19bb3ff9bdf79793c6ac99b7fd8801eb5325bddc8c07e305305293d9d8000000000000002020,
  0x28d134ab3b1dcab092d1abf919369f7a3c2a75b395f7df000000000000002068627eeb4afb299379aab90ccffee59250f1f66754e0d35879,
  0x000000000000202d7e072a9a4cc3e795ad745fa91463f651457ecabcde622510bc2aa0b32beb69000000000000002046420a1aaab9b09195,
  0x0bdee17e0296785e0121dd40911850000000000000002072b40b620f197ae0a4229761a981a314e1f3c023370d967257e7dfcfe9b5894d00,
  0x381efff715c44555ac5e66a5e5e8f854eaa15e97880d2d88996ee2974d4f9500000000000000205a7e28b368d3ddd54b051343348b9a215c,
  0x9ecc633ea514020000000000000020239de257c26eafc27901aa622cb921a3eda30cc549e747f88ac70c6a018fe90000000000000000205d,
  0xb7804e21d00840c35a20cbd62fd4fec0089aee32b4ce890000000000000020610fe731b0e54547d3e89f743ad6f88fd18b3402c13854d952,
  0x00000000000020686109306c36ec1c088a5b1346e2b97b0aa3befce7530573ea608c8e3014a896000000000000002052034f682b024ffd6a,
  0x17e1e21d890c667d113c276563029b0000000000000020520697ba49352442533f84166c7cd61298c3f693409e57213de9c0923a0177ed00,
  0x20d3dde1cbc09a8ee4ca54253cba4cf2078a74602ff246d7d8276729e41af400000000000000200cc0b8339e2b01afa4934d99713c0ad517,
  0x49]

/-- the 5713 bytes -/
def xfrFile62 : Bytes := (xfrFile62Words.flatMap (leBytes 56)).take 5713

set_option maxRecDepth 100000 in
theorem xfrFile62_check : checkTransfer xfrFile62 (Spec.transferVars 20 6 2) 32768 (Spec.transferPublic 20 6 2) = true := by
  decide +kernel

theorem xfrFile62_size : Spec.IsSize (Spec.transferGates 20 6 2) 32768 := isSize_of (k := 14) (by decide) (by decide)

theorem xfrFile62_len : xfrFile62.length < 2 ^ 64 := lt_of_le_of_lt (List.length_take_le _ _) (by norm_num)

/-- the entry for 6 inputs and 3 outputs: words of 56 bytes, little-endian, the last one shorter -/
def xfrFile63Words : List Nat := [
  0x0000000000000020000000000000000000000000000000000000000000000000000000000000000000000000000000000000000000000000,
  0x0000000000000000000000000000000000000000000000200000000000000000000000000000000000000000000000000000000000000000,
  0x0000000000000000000000000000000000000000000000000000000000000000000000000000002000000000000000000000000000000000,
  0x0000000000000000000000000000002000000000000000000000000000000000000000000000000000000000000000000000000000000020,
  0x0000000000000000000000000000000000000000000000000000000000000020000000000000000000000000000000000000000000000000,
  0x0000000000000020000000000000000000000000000000000000000000000000000000000000000000000000000000200000000000000000,
  0x0000000000000000000000000000000000000000000000200000000000000000000000000000000000000000000000000000000000000000,
  0x0000000000000000000000000000000000000000000000000000000000000000000000000000002000000000000000000000000000000000,
  0x0000000000000000000000000000002000000000000000000000000000000000000000000000000000000000000000000000000000000020,
  0x0000000000000000000000000000000000000000000000000000000000000020000000000000000000000000000000000000000000000000,
  0x0000000000000020000000000000000000000000000000000000000000000000000000000000000000000000000000200000000000000000,
  0x0000000000000000000000000000000000000000000000200000000000000000000000000000000000000000000000000000000000000000,
  0x0000000000000000000000000000000000000000000000000000000000000000000000000000002000000000000000000000000000000000,
  0x0000000000000000000000000000002000000000000000000000000000000000000000000000000000000000000000000000000000000020,
  0x0000000000000000000000000000000000000000000000000000000000000020000000000000000000000000000000000000000000000000,
  0x0000000000000020000000000000000000000000000000000000000000000000000000000000000000000000000000200000000000000000,
  0x0000000000000000000000000000000000000000000000200000000000000000000000000000000000000000000000000000000000000000,
  0x0000000000000000000000000000000000000000000000000000000000000000000000000000002000000000000000000000000000000000,
  0x0000000000000000000000000000002000000000000000000000000000000000000000000000000000000000000000000000000000000020,
  0x0000000000000000000000000000000000000000000000000000000000000020000000000000000000000000000000000000000000000000,
  0x0000000000000020000000000000000000000000000000000000000000000000000000000000000000000000000000200000000000000000,
  0x0000000000000000000000000000000000000000000000200000000000000000000000000000000000000000000000000000000000000000,
  0x0000000000000000000000000000000000000000000000000000000000000000000000000000002000000000000000000000000000000000,
  0x0000000000000000000000000000002000000000000000000000000000000000000000000000000000000000000000000000000000000020,
  0x0000000000000000000000000000000000000000000000000000000000000020000000000000000000000000000000000000000000000000,
  0x0000000000000020000000000000000000000000000000000000000000000000000000000000000000000000000000200000000000000000,
  0x0000000000000000000000000000000000000000000000200000000000000000000000000000000000000000000000000000000000000000,
  0x0000000000000000000000000000000000000000000000000000000000000000000000000000002000000000000000000000000000000000,
  0x0000000000000000000000000000002000000000000000000000000000000000000000000000000000000000000000000000000000000020,
  0x0000000000000000000000000000000000000000000000000000000000000020000000000000000000000000000000000000000000000000,
  0x0000000000000020000000000000000000000000000000000000000000000000000000000000000000000000000000200000000000000000,
  0x0000000000000000000000000000000000000000000000200000000000000000000000000000000000000000000000000000000000000000,
  0x0000000000000000000000000000000000000000000000000000000000000000000000000000002000000000000000000000000000000000,
  0x0000000000000000000000000000002000000000000000000000000000000000000000000000000000000000000000000000000000000020,
  0x0000000000000000000000000000000000000000000000000000000000000020000000000000000000000000000000000000000000000000,
  0x0000000000000020000000000000000000000000000000000000000000000000000000000000000000000000000000200000000000000000,
  0x0000000000008000000000000000781b00000000000000000000000000000000000000000000000000000000000000000000000000000000,
  0x96bcbe23d2a4270000000000000030000000000000000d000000000000000001000000000000000000000000000000000000000000000000,
  0x4a4b35d350fcb5000000000000003087d2db31c58531aa6c86cbc6c571df31ce4a9e34687b52d964ce430da3c3627114ff7d8848269b5268,
  0x856b9ef0fa740f00000000000000308a3412597d1d047a7bd807a4380a84c2bcacc914918f0ffa9982bfe01b9fd314300d83b371c570cd57,
  0x252643f13d3b89000000000000003087d547513e6e656137422aef4e3f5cbd35d70a6f534a1db8e845039add38d766a1a0af9c0c7a09356e,
  0x4cf4a0f98421b800000000000000308382aabe919d300c1ef8612e5c86949693baea0771847227a63564727c6d4f7011cc48eeec32480d5f,
  0xa445d3f557ae56000000000000003097fe608f4e55108d3a7ffb0197a6579bcee919cadb99061c09a8b351b2868aff6115fbecd5e9e40a00,
  0x0f10b683239f82000000000000003087535749f56bffd4869e5d05145ed0925ccf5fad24c06c576b97993d9e47149b099c79a2087eedd157,
  0x000000000000000000000000000030152faaea969149c2357ad2089a84aff9506be0f463dedd7aafb417111938446b921ee360c67dce9de4,
  0x0c9aac653e377000000000000000304000000000000000000000000000000000000000000000000000000000000000000000000000000000,
  0xa10713448c2f61000000000000003012d46c6085c5cc9679b8e35352b59baf0b327a337f21a90746f9671ecbd512e11cee12f1994ef5a6cb,
  0x9979fbc7254bef00000000000000308266c48294a397af36a4ff807ecd6f7a8040a157b94519a97afe0e4afd77898c0f30f2a5debe9d9ad6,
  0xb99ef4458d0c55000000000000003084b3c193dcc3a5cce061e24c544adc15f9e4eea96b3b96611c401747b7fe10703a97c74377a41afd85,
  0x7d525e95c6dc2000000000000000300883278443b844489c374f1b853170cfee39df54bc2ec8628c202ee354f6bf579bda6e7913a7691615,
  0x0000000000003000000000000000058eb2404665b6cbb2774e121c3345ad33026997083b4a796754fd9b030fda475ea159b326295358cb42,
  0x00000000000030045ed5e4cbac0097a471790e07f64449dc8ae8e253f9b58e677638a3a2cb82e4b9ef8d34a95bb6129678d1ff6485ab4100,
  0x0000000000003009345cbce42b2a973d08ac1122b4bee2830c0865fd2ae85e3636b449008577a969038542cbc7fe2c3c64ae56e0d16dd000,
  0x00000000000030175d180076f4c97634237d3f3c17f5c3e55287cee519eb960650468f1a236a3d8cd5769f34836f663cb4072b34276d7700,
  0x0000000000003092d7492ffa98541ae8966134af66b8daad41c2420074db283c117b5aa4c33d6eeff52fc72549766150a4ff46a459f19000,
  0x00000000000030940ad514d5adfea1c6af90233d86fed3c90d9dbd4711fe60c5ddb06c1412353dfe595c9723d6899f43c377dab799155300,
  0x0000000000000508a8e7f4bd74c4f5581268d1985c4c639eedbee80237d075179331401aaecd29e824859ce404ff26c7f810bf833c721e00,
  0xe09db580600dd900000000000000200000000000000000000000000000000000000000000000000000000000000001000000000000002000,
  0x4ac3e799f2e8ecb47001f57845bbbfd7c0070a381d364d00000000000000206141e529fcdc704e26ef0699ca82c49012c588ada0e784368b,
  0x000000000000202664991206cc6e6a144513f4c899a417ee516fa456ee3f9ec51c159ddca97c33000000000000002022a342a0964a25e0e9,
  0xd5f51db3f32699fbd047e11279bb6e000000000000002041feb67496b6e8973bb1afa6ef9bb1c0ce7b067b089b046d2903ccdd332888e600,
  0x00000000002e750000000000001f9800000000000010bb000000000000003000000000000080003291357ee558b50d483405417a0cbe39c8,
  0x00000000005eca0000000000005d8b0000000000005c4c0000000000005b0d0000000000005b0c0000000000004c2f0000000000003d5200,
  0x00000000006a9e0000000000006a9d0000000000006a9c0000000000006a9b0000000000006a9a0000000000006a990000000000005ecb00,
  0x00000000006aa50000000000006aa40000000000006aa30000000000006aa20000000000006aa10000000000006aa00000000000006a9f00,
  0x00000000006aac0000000000006aab0000000000006aaa0000000000006aa90000000000006aa80000000000006aa70000000000006aa600,
  0x00000000006ab30000000000006ab20000000000006ab10000000000006ab00000000000006aaf0000000000006aae0000000000006aad00,
  0x00000000006aba0000000000006ab90000000000006ab80000000000006ab70000000000006ab60000000000006ab50000000000006ab400,
  0x3b95e316289f6e0ef1217fc1f55f50000000000000002000000000000000300000000000006abd0000000000006abc0000000000006abb00,
  0xb50c7f21a449841d8045d8f8c2d63c2a21a4f661fe3953fcf41d31416f4c1400000000000000202656d337ec127fff03129db4fab14ad699,
  0xb1fdf7f418f66200000000000000203628e67b4b841c21932bbac285a7c72c5549739108b3b07cf239a12bf107d662000000000000002060,
  0x19180fb7d62de75a61be778713d937e51446c5310eda1700000000000000203b4b484628288c9a3060f8ee057ec81c93410b68927e5a5478,
  0x000000000000204e86008861307ef09a8195287619105d8f18eed53982aa13ec37dbd867e129c800000000000000201483024522dfe91012,
  0xad5d322d340983efc3dbfa19698d210000000000000020534e2a81bbf70d9f7348316e08c10e2360cb88e807fb9d9fd4c100ec73eaac1c00,
  0x09a02026c9731dc62edb8ff8a7599592b331f26bb5c3c1332c9d7dba59288e00000000000000205e9f9b3150ca96d9c6b0d8135211304013,
  0x193584994dae5700000000000000203625981256825d3721756f5eeac15aea6841d3295acf4d0af296e500e67c28a2000000000000002013,
  0xb40180d104eb8346b139c6966d3e7b776a346bc464f81e000000000000002069fe9e08ef85694aea6d9af3cea4b688d32d90786faeb9f617,
  0x000000000000200a0794c1b52f484e714c02a9889f7da306439294d780834b831b6705cde6505200000000000000204c1e570df36f6e1ef8,
  0x94eee921199d716e88a21d42fda74d00000000000000203f52b03d07483dbe077b439770049722d2059ba51485c3c35ecdac255c331a7400,
  0xb8d6ab9913e99aafdbacc1b06e8c63647928b0ab6504cde1652feb7f6039f4000000000000002008a3a3b4a84f642ea83f4202de1d596d21,
  0xa4e5dac718b96800000000000000204bf65a0dfb8a6faf334a953221dacd2c5c0b4b6c3cb7c600188cd16aab1e2c9e00000000000000200b,
  0x95f029860eed85f5f22c41ba751d7ef5fa54eb2a25a5fe000000000000002051123b222a2c1314ceca7c88c66c81f07e69d63719241d7551,
  0x0000000000002017ecabd408e9ed22802e247da47b9d19a22bd868045e7e7fd10a42141566856e00000000000000200e76ff9bdd76b723b2,
  0x74f29be9cc5564565145b03192d1ba000000000000002028c3570871b610cdde340b89ac38537d9b078c2f6fdaa90af0fdd603464a48bb00,
  0x7fc617eb7dd44db628a920f853333dc543143d1ff85aade2bfe53e21dcef030000000000000020579cdc9b7adf90bd42114da5b2b40f0cce,
  0x7bbafe01788a0e0000000000000020088c5ce8151e6ce8bc020450004860afc1cdd48c87037f610ccea75bf18cc72700000000000000202e,
  0x5c0316fc530be9dc1cf164ee00fb841f1d5a2aaf91d21c00000000000000206e55f9bbb1979036a9089aca93bcdc9b52a64b2e237a064928,
  0x0000000000002017227c5b4b543aa5c8983ac9cbe451cedc529b90d0a8ab66a87ba050abd259b100000000000000205eee06c4b81911f94b,
  0xe0bc599caebfd38b3100e718b75b960000000000000020286bf6f22b1e945553bcd05c7fd36eef04596638b6751b50c8160936c178433100,
  0xcc459db8e51866ce26cdaf7b456c6b2bc1c208e1678cab6149c1e1487edb3b0000000000000020046da210c7a7878b6b82a06b476314079f,
  0xf422684715efb4000000000000002022e3704ea76b8d59c75b2223984c9838d9df5f2da43c2830b00a67126983a1cc00000000000000202b,
  0x30aea6d527c6d3dc456391f421680a98a631e86a5663a50000000000000020066dd24e2c665bd36195f33ef6097d059f030b3f231da65cc4,
  0x000000000000206499629dd52d17429b9a9835fba540d9220973b206c7089af87082a16e3c9422000000000000002026d859b9cad8f6eabe,
  0xeced94b6c8b095f633008de3519d07000000000000002046097d3d89b6d82be8b027476a8a1c0fe5a182a8e65c378ee5427b9330181ee000,
  0x5171ffeda8bad9b94d55b047c238a0465f8599e53f0c1692871bfcc35ff8b80000000000000020643be3a18c2fb124aba1dda98f7182657e,
  0x26c2f4ea7e145a00000000000000202eacc97e1ed59bd9ea89c9a700ec0284b288fb24e1d8a1537a6ab5785e690e7d000000000000002026,
  0x082580fd18f6f131494e3263acd10977f014d70ffd1769000000000000002044d97ec000e4fde04319701f743bc59b212a913beb72c658b1,
  0x000000000000206b2795c513d3428a460d6cb9b75b12021fc6f1517d1533868a43d6dc1bf4be5b000000000000002044a12011ede751e58d,
  0x3d035fdae6a7354f713f34246cbfc80000000000000020509ff22f753214f87ff635b5dbb2925568c5511b7947f9dc07ddf18bb7c9a99700,
  0x69bb6e3b0c4d0451b4dadb6767389e3adc0739987f7936a7be8a8ca65c91aa00000000000000202c53ad5898a0c4777c59796b062e86dde9,
  0x4411c21ab90d8700000000000000203757155b812dcec6ca6ce032dedb0d447d511cbb9b7f2f314e50f1ee2a2e396700000000000000205f,
  0x9aafa4e03a5b9e3b570c1c387fbb0b6e078be6e4bc3295000000000000002001c3bcacf048f0ff6f02d30fb823f96ee47868a738c14d67e0,
  0x4a3787c62cc6a0baf65e9828c4a85c5861766f9f39b5316a07915bd309f18a33000000000000002020ada2b0db3a4a5463]

/-- the 5761 bytes -/
def xfrFile63 : Bytes := (xfrFile63Words.flatMap (leBytes 56)).take 5761

set_option maxRecDepth 100000 in
theorem xfrFile63_check : checkTransfer xfrFile63 (Spec.transferVars 20 6 3) 32768 (Spec.transferPublic 20 6 3) = true := by
  decide +kernel

theorem xfrFile63_size : Spec.IsSize (Spec.transferGates 20 6 3) 32768 := isSize_of (k := 14) (by decide) (by decide)

theorem xfrFile63_len : xfrFile63.length < 2 ^ 64 := lt_of_le_of_lt (List.length_take_le _ _) (by norm_num)

/-- the entry for 6 inputs and 4 outputs: words of 56 bytes, little-endian, the last one shorter -/
def xfrFile64Words : List Nat := [
  0x0000000000000020000000000000000000000000000000000000000000000000000000000000000000000000000000000000000000000000,
  0x0000000000000000000000000000000000000000000000200000000000000000000000000000000000000000000000000000000000000000,
  0x0000000000000000000000000000000000000000000000000000000000000000000000000000002000000000000000000000000000000000,
  0x0000000000000000000000000000002000000000000000000000000000000000000000000000000000000000000000000000000000000020,
  0x0000000000000000000000000000000000000000000000000000000000000020000000000000000000000000000000000000000000000000,
  0x0000000000000020000000000000000000000000000000000000000000000000000000000000000000000000000000200000000000000000,
  0x0000000000000000000000000000000000000000000000200000000000000000000000000000000000000000000000000000000000000000,
  0x0000000000000000000000000000000000000000000000000000000000000000000000000000002000000000000000000000000000000000,
  0x0000000000000000000000000000002000000000000000000000000000000000000000000000000000000000000000000000000000000020,
  0x0000000000000000000000000000000000000000000000000000000000000020000000000000000000000000000000000000000000000000,
  0x0000000000000020000000000000000000000000000000000000000000000000000000000000000000000000000000200000000000000000,
  0x0000000000000000000000000000000000000000000000200000000000000000000000000000000000000000000000000000000000000000,
  0x0000000000000000000000000000000000000000000000000000000000000000000000000000002000000000000000000000000000000000,
  0x0000000000000000000000000000002000000000000000000000000000000000000000000000000000000000000000000000000000000020,
  0x0000000000000000000000000000000000000000000000000000000000000020000000000000000000000000000000000000000000000000,
  0x0000000000000020000000000000000000000000000000000000000000000000000000000000000000000000000000200000000000000000,
  0x0000000000000000000000000000000000000000000000200000000000000000000000000000000000000000000000000000000000000000,
  0x0000000000000000000000000000000000000000000000000000000000000000000000000000002000000000000000000000000000000000,
  0x0000000000000000000000000000002000000000000000000000000000000000000000000000000000000000000000000000000000000020,
  0x0000000000000000000000000000000000000000000000000000000000000020000000000000000000000000000000000000000000000000,
  0x0000000000000020000000000000000000000000000000000000000000000000000000000000000000000000000000200000000000000000,
  0x0000000000000000000000000000000000000000000000200000000000000000000000000000000000000000000000000000000000000000,
  0x0000000000000000000000000000000000000000000000000000000000000000000000000000002000000000000000000000000000000000,
  0x0000000000000000000000000000002000000000000000000000000000000000000000000000000000000000000000000000000000000020,
  0x0000000000000000000000000000000000000000000000000000000000000020000000000000000000000000000000000000000000000000,
  0x0000000000000020000000000000000000000000000000000000000000000000000000000000000000000000000000200000000000000000,
  0x0000000000000000000000000000000000000000000000200000000000000000000000000000000000000000000000000000000000000000,
  0x0000000000000000000000000000000000000000000000000000000000000000000000000000002000000000000000000000000000000000,
  0x0000000000000000000000000000002000000000000000000000000000000000000000000000000000000000000000000000000000000020,
  0x0000000000000000000000000000000000000000000000000000000000000020000000000000000000000000000000000000000000000000,
  0x0000000000000020000000000000000000000000000000000000000000000000000000000000000000000000000000200000000000000000,
  0x0000000000000000000000000000000000000000000000200000000000000000000000000000000000000000000000000000000000000000,
  0x0000000000000000000000000000000000000000000000000000000000000000000000000000002000000000000000000000000000000000,
  0x0000000000000000000000000000002000000000000000000000000000000000000000000000000000000000000000000000000000000020,
  0x0000000000000000000000000000000000000000000000000000000000000020000000000000000000000000000000000000000000000000,
  0x0000000000000020000000000000000000000000000000000000000000000000000000000000000000000000000000200000000000000000,
  0x00000000000080000000000000007a0900000000000000000000000000000000000000000000000000000000000000000000000000000000,
  0xf13f400108c6e60000000000000030000000000000000d000000000000000001000000000000000000000000000000000000000000000000,
  0x23a3923c5dfe9a000000000000003003b2fcd03b84cfbe559298f7ac5d1d791f89e1585e351809e4a33deb4e230a2b1e64c8ee7241b759e2,
  0x397f2b5f53f1d200000000000000301590ba6f5fe4b2dfbe3fa3b65cb92ce0d10a6d20e45fa4741d88897b15af199e2a977153a2c1f5ebab,
  0xfb331145094543000000000000003005827cef03ea389a0a4741a81b4ae7ae2857d4c0715db5c97b01767efb3e912944325248a6b4af5d13,
  0x8e59758a86576e00000000000000300285ce3a5f9d71b930b77274888baa18b0f0792ec219d579a73a4230495185994589c102c8f35bd54a,
  0x1e3005fa85f5c6000000000000003098fed6097721b11a4995902459b62b18961de3bec8fa4baa99676fe1dd6d85ee6825bf0dc2be7d0e1a,
  0xd46f33ce0a6c2800000000000000308655cbe18263e431c4d3091f3b85f49b013796607fc825ba16991e4433d940a861d05fe2d4e74b08eb,
  0x00000000000000000000000000003095e1e94beefcff500f89c3fe7ded9464ae702f1c9d78e33ed8340168bc71b398532be32294566008b9,
  0x67fbd65afa987d00000000000000304000000000000000000000000000000000000000000000000000000000000000000000000000000000,
  0xc10a93e54be2ca000000000000003080c102d88076bb26fdccc7b910b605e74e87a17e6061ea1e9f834ba3b4ec5736895a0b152a2422b051,
  0x5861136f81ee2f0000000000000030094d7a73fb0708e0d9b2c4a41af9a769c740d1ca8cd84c69e5b3d3c9a27e0dd9ebca610e8ac4b58546,
  0x4c2ece1b387c6d00000000000000309491588aeb41c69b0d699fcf68e79c15a1a056cb573a1d8cfdd7ae70e58f9a641d647f68ed275ec6d0,
  0x7c507e6b1c29930000000000000030072244089083f60ecf5f17af3dd9bcc1426c675327228fb643442de6bb562dbcfe9db65df4650c9c0e,
  0x0000000000003000000000000000058574eec4174a8d041bb5a5c4349468e2cbb8898052112da91b3d1185b0592d1b228620fac2087f4309,
  0x0000000000003006163a88064f2f28ac583981013c7f86962aee41e32db7ce10dce259637fdb841005a1f8f27dec22cf6771ee2bd6aa2300,
  0x000000000000301465937d2c43e1cf6519b0de3679da7a75e0eb0f53674ff2a13d7059977f7896c49c06ea4df635cb902f76ba23bb86fc00,
  0x000000000000300bea72247f999b0bc727c9f28973b0a7bbb17f0508495783288383c5ed72e72789294bd27ee9c4569019e68c137952a700,
  0x000000000000309305cc5f3655f1a39c47a2b73283e10c10af6553f719d32413a360567b3c5e42fdf458763381b5f8171479bda7c7aa2400,
  0x00000000000030924c37c6c271dc3fdcd46c308efba10a57d27b1aa30d107ac860eae2fa8e6d3f51005652640a302cba261f45ea57cbf000,
  0x0000000000000507511499abbf1227869f7e40bbbafb3de917183a6602bdfa93ec9fa4f06e7ffc46f66fd9c4de0aecc3bbba6db4afea1600,
  0xe09db580600dd900000000000000200000000000000000000000000000000000000000000000000000000000000001000000000000002000,
  0x4ac3e799f2e8ecb47001f57845bbbfd7c0070a381d364d00000000000000206141e529fcdc704e26ef0699ca82c49012c588ada0e784368b,
  0x000000000000202664991206cc6e6a144513f4c899a417ee516fa456ee3f9ec51c159ddca97c33000000000000002022a342a0964a25e0e9,
  0xd5f51db3f32699fbd047e11279bb6e000000000000002041feb67496b6e8973bb1afa6ef9bb1c0ce7b067b089b046d2903ccdd332888e600,
  0x00000000002e750000000000001f9800000000000010bb000000000000003100000000000080003291357ee558b50d483405417a0cbe39c8,
  0x00000000005eca0000000000005d8b0000000000005c4c0000000000005b0d0000000000005b0c0000000000004c2f0000000000003d5200,
  0x00000000006bdc0000000000006bdb0000000000006bda0000000000006bd90000000000006bd8000000000000600a000000000000600900,
  0x00000000006be30000000000006be20000000000006be10000000000006be00000000000006bdf0000000000006bde0000000000006bdd00,
  0x00000000006bea0000000000006be90000000000006be80000000000006be70000000000006be60000000000006be50000000000006be400,
  0x00000000006bf10000000000006bf00000000000006bef0000000000006bee0000000000006bed0000000000006bec0000000000006beb00,
  0x00000000006bf80000000000006bf70000000000006bf60000000000006bf50000000000006bf40000000000006bf30000000000006bf200,
  0xf1217fc1f55f50000000000000002000000000000000310000000000006bfc0000000000006bfb0000000000006bfa0000000000006bf900,
  0x8045d8f8c2d63c2a21a4f661fe3953fcf41d31416f4c1400000000000000202656d337ec127fff03129db4fab14ad6993b95e316289f6e0e,
  0x000000000000203628e67b4b841c21932bbac285a7c72c5549739108b3b07cf239a12bf107d662000000000000002060b50c7f21a449841d,
  0x61be778713d937e51446c5310eda1700000000000000203b4b484628288c9a3060f8ee057ec81c93410b68927e5a5478b1fdf7f418f66200,
  0x86008861307ef09a8195287619105d8f18eed53982aa13ec37dbd867e129c800000000000000201483024522dfe9101219180fb7d62de75a,
  0xc3dbfa19698d210000000000000020534e2a81bbf70d9f7348316e08c10e2360cb88e807fb9d9fd4c100ec73eaac1c00000000000000204e,
  0x2edb8ff8a7599592b331f26bb5c3c1332c9d7dba59288e00000000000000205e9f9b3150ca96d9c6b0d8135211304013ad5d322d340983ef,
  0x000000000000203625981256825d3721756f5eeac15aea6841d3295acf4d0af296e500e67c28a200000000000000201309a02026c9731dc6,
  0x90edd672e44bdb2d1ee022ef44bbaf0000000000000020692445f1c4a51550a33e46ef1b62e7325e5f9efeebeb981fadcf83933dad9f3000,
  0x557957b6a175e03862fec08eb5a4b9ae196dfd4835a34be6cc35ce051431ee00000000000000202cf1421f3aca8c21ed3f319279dfef808a,
  0xaa7fe44d2f145a00000000000000203e83b9a5a0fe79f0c789f39f782aea03d4fd266da3eb8b95c97d93333fe41174000000000000002039,
  0xa7120aa9d98b7f58369e9c1fe2caa23f27ccb3e79eec4f00000000000000201eccdb5922458979ddf7b0936500de7ea0e359ed9cec4d6a42,
  0x00000000000020664b49b6fd82db9f5a047aa6b124f9420cd8a327239d9cacb044b5ea36f0cfcd000000000000002022f5b31b69c512888e,
  0xdda0283697c9b010a26930189287bc00000000000000202d448af8f19b60b9fc8030b475b17e898eda6c740e3651ceff7a20f8cc4c07b200,
  0xd7cc04270ead6820ffe079d3bb7c5d82d6402e249c85b5ff269c6ea7f54ed900000000000000204ccb6cf16fbea32fc187c89859ab12f492,
  0x760c3f11a858d900000000000000201914930d21937096d883afc02f6108c16c29ff3e21b80efcdff74a12cb863484000000000000002022,
  0xb74fa8dfb22eb1fa6976fc034fe9e3bbe089a5e2ba0df70000000000000020704bfb8d8e0a39d18a4c13e60913ac43b14d45051556eb53c2,
  0x0000000000002071c36dbe11c85d37454510912e15f17280b18ce435531b2fcf3cf4186ebc558500000000000000200130e15d496842bb29,
  0x168b763c53383fb36b090df0d763e100000000000000203d3996d05fa0f956f0fce6e55224eee4e336a57827c59ac6d9813706b192609700,
  0x62c7e29cad0fd03e9ceea6d87ca379d7a3d9cfca28c5a43e906ef737c1c17c000000000000002011c64faaf76afb8a768164308d62c610c7,
  0xf33ae32860fa2700000000000000203a20a23a72c0bb5e1b5532575dfd0db38a0b4180e16670380f301ff1d4ea531500000000000000203f,
  0xf40bd2192a30857aedecae47678d5652a57ab812f5b5f700000000000000201347e0ff99360ff5c1c3b87fcd5453dff7d5f2d90cb19da7de,
  0x0000000000002028566ad6a8943298a969efda7db57bdb7371c722c5286941224d0d2de05c304a00000000000000206c8dcf59b391cebc78,
  0x4c80804846e867eec7af4ae78cea0600000000000000204100c2fa8eb6d2ed39d24c69f1763c3136b890baaf3b9fe276ccd40a21c7cab100,
  0xf6f9bb04419cdcaa8b38c325a4168143f4f371f8b910f605b87d884ea34a66000000000000002057785ec166a4449555be079b35b0b7cf84,
  0x0211930d14ffe800000000000000204081c86f21c3bc592b95377a8a9cdf514de5bf7376ef2a9a12ade681e2bd2442000000000000002056,
  0x31597f7f22073739b5445b3586c532d7288a53e8d742c0000000000000002038bdd6bba02219e9c19fbba93a14865f326c3592bd44ea249b,
  0x000000000000206be96b5f2d12523285c885ebfd3b93d46e88f0f4650feb35302043e8404c803000000000000000206c380859152ce7b48d,
  0xa3b69546f731fd94895a25f6eef87c00000000000000201d2c5347c7b3e8eeb3f183c1aa11ff7f8354432b063b94e69ff4a4adc30bfe8900,
  0x06ad01ac598c70ace635f5e42c6f7d72a31b4b8835622c84eee732449e3adf00000000000000200bc767129ee0f041a437ba1999f28430e8,
  0xc56023222e4d1900000000000000205895a38352faaf9e6d11c02bffcb69b8cc6e5e74674e571b939ed1e5d385849b000000000000002065,
  0x960807879d0f7a76b1acfcc20a2d0d2dab35f90270d73b00000000000000204ee4d102698aee825206246afdedce0cb8f60c1ed9c261fb7a,
  0x0000000000002022abcba46c4f4c1c184f495ce4fc85b9176824b43295498ea24bb87f4fcae4e8000000000000002055ac057d6ff28a0d7d,
  0x9ceb13a52bdfa0b044de89b5b1567f000000000000002016b84669f3fc11bfc1e6dfa64d15bf2d17e3bb6e55f7e39b25e304b08274da8800,
  0xf1ad0c63d0d24a2bfe46d2f5d3c4b5525548a5d7d1db873f872175981913580000000000000020553f9fb395ce6b8b03976907c2a9909b36,
  0x6e7bc0528a851a83317f84b329816e44977e5f5b721e06ea786342e959b56371000000000000002054]

/-- the 5809 bytes -/
def xfrFile64 : Bytes := (xfrFile64Words.flatMap (leBytes 56)).take 5809

set_option maxRecDepth 100000 in
theorem xfrFile64_check : checkTransfer xfrFile64 (Spec.transferVars 20 6 4) 32768 (Spec.transferPublic 20 6 4) = true := by
  decide +kernel

theorem xfrFile64_size : Spec.IsSize (Spec.transferGates 20 6 4) 32768 := isSize_of (k := 14) (by decide) (by decide)

theorem xfrFile64_len : xfrFile64.length < 2 ^ 64 := lt_of_le_of_lt (List.length_take_le _ _) (by norm_num)

/-- the entry for 6 inputs and 5 outputs: words of 56 bytes, little-endian, the last one shorter -/
def xfrFile65Words : List Nat := [
  0x0000000000000020000000000000000000000000000000000000000000000000000000000000000000000000000000000000000000000000,
  0x0000000000000000000000000000000000000000000000200000000000000000000000000000000000000000000000000000000000000000,
  0x0000000000000000000000000000000000000000000000000000000000000000000000000000002000000000000000000000000000000000,
  0x0000000000000000000000000000002000000000000000000000000000000000000000000000000000000000000000000000000000000020,
  0x0000000000000000000000000000000000000000000000000000000000000020000000000000000000000000000000000000000000000000,
  0x0000000000000020000000000000000000000000000000000000000000000000000000000000000000000000000000200000000000000000,
  0x0000000000000000000000000000000000000000000000200000000000000000000000000000000000000000000000000000000000000000,
  0x0000000000000000000000000000000000000000000000000000000000000000000000000000002000000000000000000000000000000000,
  0x0000000000000000000000000000002000000000000000000000000000000000000000000000000000000000000000000000000000000020,
  0x0000000000000000000000000000000000000000000000000000000000000020000000000000000000000000000000000000000000000000,
  0x0000000000000020000000000000000000000000000000000000000000000000000000000000000000000000000000200000000000000000,
  0x0000000000000000000000000000000000000000000000200000000000000000000000000000000000000000000000000000000000000000,
  0x0000000000000000000000000000000000000000000000000000000000000000000000000000002000000000000000000000000000000000,
  0x0000000000000000000000000000002000000000000000000000000000000000000000000000000000000000000000000000000000000020,
  0x0000000000000000000000000000000000000000000000000000000000000020000000000000000000000000000000000000000000000000,
  0x0000000000000020000000000000000000000000000000000000000000000000000000000000000000000000000000200000000000000000,
  0x0000000000000000000000000000000000000000000000200000000000000000000000000000000000000000000000000000000000000000,
  0x0000000000000000000000000000000000000000000000000000000000000000000000000000002000000000000000000000000000000000,
  0x0000000000000000000000000000002000000000000000000000000000000000000000000000000000000000000000000000000000000020,
  0x0000000000000000000000000000000000000000000000000000000000000020000000000000000000000000000000000000000000000000,
  0x0000000000000020000000000000000000000000000000000000000000000000000000000000000000000000000000200000000000000000,
  0x0000000000000000000000000000000000000000000000200000000000000000000000000000000000000000000000000000000000000000,
  0x0000000000000000000000000000000000000000000000000000000000000000000000000000002000000000000000000000000000000000,
  0x0000000000000000000000000000002000000000000000000000000000000000000000000000000000000000000000000000000000000020,
  0x0000000000000000000000000000000000000000000000000000000000000020000000000000000000000000000000000000000000000000,
  0x0000000000000020000000000000000000000000000000000000000000000000000000000000000000000000000000200000000000000000,
  0x0000000000000000000000000000000000000000000000200000000000000000000000000000000000000000000000000000000000000000,
  0x0000000000000000000000000000000000000000000000000000000000000000000000000000002000000000000000000000000000000000,
  0x0000000000000000000000000000002000000000000000000000000000000000000000000000000000000000000000000000000000000020,
  0x0000000000000000000000000000000000000000000000000000000000000020000000000000000000000000000000000000000000000000,
  0x0000000000000020000000000000000000000000000000000000000000000000000000000000000000000000000000200000000000000000,
  0x0000000000000000000000000000000000000000000000200000000000000000000000000000000000000000000000000000000000000000,
  0x0000000000000000000000000000000000000000000000000000000000000000000000000000002000000000000000000000000000000000,
  0x0000000000000000000000000000002000000000000000000000000000000000000000000000000000000000000000000000000000000020,
  0x0000000000000000000000000000000000000000000000000000000000000020000000000000000000000000000000000000000000000000,
  0x0000000000000020000000000000000000000000000000000000000000000000000000000000000000000000000000200000000000000000,
  0x00000000000080000000000000007c0300000000000000000000000000000000000000000000000000000000000000000000000000000000,
  0x502341dc80da560000000000000030000000000000000d000000000000000001000000000000000000000000000000000000000000000000,
  0xfb651ea18612c500000000000000300e6213d45af0f30fefe242bd83046bcb20ce4a1da5a245037cc0ebe8d94d3e4eedc42699c29ee74890,
  0x6512b93fada6f9000000000000003087f78b4846a3acf4a862eacb3b8930b692a6843bd6c7290e24570adccc1b0b49be882c1601417cd739,
  0x7ecbf3de442ee7000000000000003003fe22b027ca90e6dc62e96799f8f21c8aef03f2806b36527d51cbeccaa1d9828da3191ea1a05dd079,
  0xf7996164d768d2000000000000003099dd249e8478655f461ce90e67c51cb080fc918594f6041a2026d1b23da406d9bc8019ff3a9e08da18,
  0x74e6486855650f0000000000000030166ca9077bb8c23d93d2b930b6b94ae36a3b52d8206e47beb34746a714da2e1cc2d741c84f9a0a2f24,
  0x2b2d3c59a4752900000000000000300b39dc6f31a13c9b8bf1791ec01f2ce6264fccbe8dc240cef34016595ecb0141c412c8600db55c2e5d,
  0x0000000000000000000000000000300b30137f8353e67935328bc1f297057976614de36336b3a5e9576c71888fe644856defeb956d6104e3,
  0x5b30048db5e3d600000000000000304000000000000000000000000000000000000000000000000000000000000000000000000000000000,
  0x96ca21fe80c9b700000000000000300f78c36d1c4cc2684aebeeac26a219f7dddb6e5ba6107aafb772168f711df436b44b73bcba7efd51fd,
  0xe0d291a70833bb0000000000000030884764cfb1c94d82c25e02d8fb9bdfb0c545845a64fb1c2e33b9bde18974503415eff0ca34cf5c911f,
  0xbead1a8dd810000000000000000030107a664ecae2b1db92172538846514492eb6a08b4c883cc2f04467ace346a0b77e6f1deb8033cf7215,
  0x35866c6cfae4660000000000000030858b9fd1e14bedcaeacfdca6316d97e68d1b066f449aa6b506c3783cdb78d5bed00792c0012f4f7cb4,
  0x000000000000300000000000000005925f140e9b446f14cf1ef6183a45268d4f36ce24c170233cc67889ccecf0b174f51d244c00ebaa8cec,
  0x000000000000308860d388b93c878564d72353c7c7ac2b0dcee58c63a2eb2e4ce55233a0f1c577fa8d7db4ff61790507070d10b6e1eee100,
  0x00000000000030022d51f3c6eb78aeadd4a5c49d0597ae935e901abc59e76031488f1655a78040cc66670b14e660371e41dde09ab5c44b00,
  0x0000000000003008bc677fddcdf9e89cc174e4fdc96a9768acd94b774901c5c05ae6511fddaf95d75fcebb8b7608c4818eb9f8c7fba73800,
  0x000000000000300c5c51203c1933c0b31e6c9606a873c6b2fb72c3fca85c741ceabbaf7a9ae8800d3889fce9362cbea92a7558e2f09ce700,
  0x0000000000003084ea8b5c48e96b0079d1d551b71a91928d65839d2f6acc54ef532b505cdb5840fab27f49592440f5999f97d3ddf0dac200,
  0x000000000000050b5ac5c9f83e9351633d7d2b167c8d30eed88e5d61dcb447826364e52f388bbe75eb34d2a41fefc32be2ff13157240e600,
  0xe09db580600dd900000000000000200000000000000000000000000000000000000000000000000000000000000001000000000000002000,
  0x4ac3e799f2e8ecb47001f57845bbbfd7c0070a381d364d00000000000000206141e529fcdc704e26ef0699ca82c49012c588ada0e784368b,
  0x000000000000202664991206cc6e6a144513f4c899a417ee516fa456ee3f9ec51c159ddca97c33000000000000002022a342a0964a25e0e9,
  0xd5f51db3f32699fbd047e11279bb6e000000000000002041feb67496b6e8973bb1afa6ef9bb1c0ce7b067b089b046d2903ccdd332888e600,
  0x00000000002e750000000000001f9800000000000010bb000000000000003200000000000080003291357ee558b50d483405417a0cbe39c8,
  0x00000000005eca0000000000005d8b0000000000005c4c0000000000005b0d0000000000005b0c0000000000004c2f0000000000003d5200,
  0x00000000006d1a0000000000006d190000000000006d180000000000006d1700000000000061490000000000006148000000000000600900,
  0x00000000006d210000000000006d200000000000006d1f0000000000006d1e0000000000006d1d0000000000006d1c0000000000006d1b00,
  0x00000000006d280000000000006d270000000000006d260000000000006d250000000000006d240000000000006d230000000000006d2200,
  0x00000000006d2f0000000000006d2e0000000000006d2d0000000000006d2c0000000000006d2b0000000000006d2a0000000000006d2900,
  0x00000000006d360000000000006d350000000000006d340000000000006d330000000000006d320000000000006d310000000000006d3000,
  0x0000000000002000000000000000320000000000006d3b0000000000006d3a0000000000006d390000000000006d380000000000006d3700,
  0x21a4f661fe3953fcf41d31416f4c1400000000000000202656d337ec127fff03129db4fab14ad6993b95e316289f6e0ef1217fc1f55f5000,
  0x28e67b4b841c21932bbac285a7c72c5549739108b3b07cf239a12bf107d662000000000000002060b50c7f21a449841d8045d8f8c2d63c2a,
  0x1446c5310eda1700000000000000203b4b484628288c9a3060f8ee057ec81c93410b68927e5a5478b1fdf7f418f662000000000000002036,
  0x8195287619105d8f18eed53982aa13ec37dbd867e129c800000000000000201483024522dfe9101219180fb7d62de75a61be778713d937e5,
  0x00000000000020534e2a81bbf70d9f7348316e08c10e2360cb88e807fb9d9fd4c100ec73eaac1c00000000000000204e86008861307ef09a,
  0xb331f26bb5c3c1332c9d7dba59288e00000000000000205e9f9b3150ca96d9c6b0d8135211304013ad5d322d340983efc3dbfa19698d2100,
  0x25981256825d3721756f5eeac15aea6841d3295acf4d0af296e500e67c28a200000000000000201309a02026c9731dc62edb8ff8a7599592,
  0x453480f603dfdb0000000000000020692445f1c4a51550a33e46ef1b62e7325e5f9efeebeb981fadcf83933dad9f30000000000000002036,
  0xa470118c52335045e45dbf396de3761c18dbb5dcdc7c6e00000000000000204bdc3a320b25efa4fb9e4f49c15ba5201ff96429f7b537595b,
  0x0000000000002065d2c72453f72d050fe2c9f241df14bf5476880d48afd9142a34e38fc935556b000000000000002065ba742f109293dfc4,
  0xc54d6454a5dfc3fccce3395a9570e1000000000000002049e57fbc21e06427339043ff14e856eb4bb6e7130a182c7f123316aad17d17ed00,
  0x2883759fabe4e737c96901bbbf71e386953d7aa35d933e6c4d99a6cf61a9bb00000000000000202f92ec83a7be84e3f5181cb38852a30a8f,
  0xc0778a3bf2c4ae0000000000000020387f4a1a35c7c6917b7fb245e1fe23685922508eec242f930622ccfa0a974e49000000000000002026,
  0xad6f8032afef463274fd189c7e8609147ca9602dd3d5cb00000000000000200d7546100bd73e49b1816c410b5fa33ad5612c0e227afd453f,
  0x0000000000002055f6aba97644c2c8050fff7ab9c53b89470553edffa05bb664bcfb8eddf7c830000000000000002004be0e3f0d4df7bde9,
  0x06bd1d1323e2516c736ca9ad12cf3400000000000000206f0cd62d80da5619f8ee123a926b028fdd76bc5f8c0527b4bbad324017b9c20d00,
  0xcaaeb7d60aceb45bcd7b9fb0ed5489b3975f561c44c5a3f47dadd68ff7baf600000000000000201fe6da91748e65bf525b045e1bf41e8118,
  0x64706d6948786500000000000000205878e4fdc8aa87f53476e2d21915b7280ed493d26ead4dc46252157966793791000000000000002023,
  0xbc84addd569d1cea1090db85d8a76e1e696e9dc62443dc000000000000002005f663e4488ec39f38d569e91f899a793c17c8ecf2ea432381,
  0x00000000000020045e50f887694a3dae62433877bdf7eb7cc18782073d5cc937e7ae70d3dfe92a000000000000002047e2eb2573c45a8534,
  0x1823da6c95e785b78bfcb66d13d94f00000000000000202c673dd649dc7a63b3aa3ff0e7cf1481a13d96666860d4077250a5cd44fb157000,
  0x6bc240e0ed044ac64716675c1186114fe043590ca72560eff912512783a9f800000000000000206dff13da0b4b7b318f72ca267c9d93149e,
  0x383f9cf707580b0000000000000020493a741c5458f4730da39da160850686b681ca9ef0ca0d847e538a304886dc36000000000000002015,
  0xdaebcbc6ddde2598c0bbda18e8731c933e38d65483839c00000000000000206939a707eecd986c1f89da6ca50726d67f3e5196b0ecf5f33f,
  0x0000000000002071e1d76aaf0a224fdd08092e4f6cd1f0849f76325b858fb2b210fa0044814ad400000000000000206d1ae0da0c82a7990f,
  0xe7de027d1f5331ae0092b059c6e18200000000000000201ab60f878d491206695522bcdc3711d5ea9797052e87dae7575278531603e39a00,
  0x3b414aca11fbc3a4bc7a5615512d975dd97ca62bfc69454b163a38577c971700000000000000202c0e6ceb4f5a77705acb829cbc0db5ea0c,
  0x08d4709eb739f800000000000000206f14c32ec82d04b42715385f1f92ce902b8a5f872b0d76b4300c055c1351b430000000000000002023,
  0x464bf7d179e18404ab4df4b844e934c357f513f42c7e6300000000000000201ebe8bab5ac9c55790379e946594f5bcdcc151779c6612d985,
  0x0000000000002059253274744af412f950681e8d79c3101028e6a839f4e9b211393e5813ad40230000000000000020679a89e65f10d106a8,
  0x433a39cdf0db35d901b982b6219fd1000000000000002067d1a96bf618b002d7c52971c376809ec5d6b6cc7760dd15df19fd4fef58e21400,
  0x98ff178cc193f3c0a5fe0735f9279611280e4a1a796c1654ecc246f8562c0a0000000000000020320f0f792b712f4de5366cda676e10d3dc,
  0xca3f6f86aa04cc000000000000002031478c5ad5042317326b7bf41dc884f79e93885f742b01d9f72902e684d9a52e000000000000002025,
  0xab5e23b175922d040200effb3d14fccbb45963fcf080ae00000000000000202d42ae4dd4d12465a14ba3533c41f6fde71793c1dac8b0040f,
  0x000000000000205aea9790c4461ed157a06b23a8362d2374d2218199968dfb1e1d974aae33b7f2000000000000002057b382c3abf2da6006,
  0x490876f598916d73e72889abe41b182036285a1bd806fb4547df0a6557183adf00]

/-- the 5857 bytes -/
def xfrFile65 : Bytes := (xfrFile65Words.flatMap (leBytes 56)).take 5857

set_option maxRecDepth 100000 in
theorem xfrFile65_check : checkTransfer xfrFile65 (Spec.transferVars 20 6 5) 32768 (Spec.transferPublic 20 6 5) = true := by
  decide +kernel

theorem xfrFile65_size : Spec.IsSize (Spec.transferGates 20 6 5) 32768 := isSize_of (k := 14) (by decide) (by decide)

theorem xfrFile65_len : xfrFile65.length < 2 ^ 64 := lt_of_le_of_lt (List.length_take_le _ _) (by norm_num)

/-- the entry for 6 inputs and 6 outputs: words of 56 bytes, little-endian, the last one shorter -/
def xfrFile66Words : List Nat := [
  0x0000000000000020000000000000000000000000000000000000000000000000000000000000000000000000000000000000000000000000,
  0x0000000000000000000000000000000000000000000000200000000000000000000000000000000000000000000000000000000000000000,
  0x0000000000000000000000000000000000000000000000000000000000000000000000000000002000000000000000000000000000000000,
  0x0000000000000000000000000000002000000000000000000000000000000000000000000000000000000000000000000000000000000020,
  0x0000000000000000000000000000000000000000000000000000000000000020000000000000000000000000000000000000000000000000,
  0x0000000000000020000000000000000000000000000000000000000000000000000000000000000000000000000000200000000000000000,
  0x0000000000000000000000000000000000000000000000200000000000000000000000000000000000000000000000000000000000000000,
  0x0000000000000000000000000000000000000000000000000000000000000000000000000000002000000000000000000000000000000000,
  0x0000000000000000000000000000002000000000000000000000000000000000000000000000000000000000000000000000000000000020,
  0x0000000000000000000000000000000000000000000000000000000000000020000000000000000000000000000000000000000000000000,
  0x0000000000000020000000000000000000000000000000000000000000000000000000000000000000000000000000200000000000000000,
  0x0000000000000000000000000000000000000000000000200000000000000000000000000000000000000000000000000000000000000000,
  0x0000000000000000000000000000000000000000000000000000000000000000000000000000002000000000000000000000000000000000,
  0x0000000000000000000000000000002000000000000000000000000000000000000000000000000000000000000000000000000000000020,
  0x0000000000000000000000000000000000000000000000000000000000000020000000000000000000000000000000000000000000000000,
  0x0000000000000020000000000000000000000000000000000000000000000000000000000000000000000000000000200000000000000000,
  0x0000000000000000000000000000000000000000000000200000000000000000000000000000000000000000000000000000000000000000,
  0x0000000000000000000000000000000000000000000000000000000000000000000000000000002000000000000000000000000000000000,
  0x0000000000000000000000000000002000000000000000000000000000000000000000000000000000000000000000000000000000000020,
  0x0000000000000000000000000000000000000000000000000000000000000020000000000000000000000000000000000000000000000000,
  0x0000000000000020000000000000000000000000000000000000000000000000000000000000000000000000000000200000000000000000,
  0x0000000000000000000000000000000000000000000000200000000000000000000000000000000000000000000000000000000000000000,
  0x0000000000000000000000000000000000000000000000000000000000000000000000000000002000000000000000000000000000000000,
  0x0000000000000000000000000000002000000000000000000000000000000000000000000000000000000000000000000000000000000020,
  0x0000000000000000000000000000000000000000000000000000000000000020000000000000000000000000000000000000000000000000,
  0x0000000000000020000000000000000000000000000000000000000000000000000000000000000000000000000000200000000000000000,
  0x0000000000000000000000000000000000000000000000200000000000000000000000000000000000000000000000000000000000000000,
  0x0000000000000000000000000000000000000000000000000000000000000000000000000000002000000000000000000000000000000000,
  0x0000000000000000000000000000002000000000000000000000000000000000000000000000000000000000000000000000000000000020,
  0x0000000000000000000000000000000000000000000000000000000000000020000000000000000000000000000000000000000000000000,
  0x0000000000000020000000000000000000000000000000000000000000000000000000000000000000000000000000200000000000000000,
  0x0000000000000000000000000000000000000000000000200000000000000000000000000000000000000000000000000000000000000000,
  0x0000000000000000000000000000000000000000000000000000000000000000000000000000002000000000000000000000000000000000,
  0x0000000000000000000000000000002000000000000000000000000000000000000000000000000000000000000000000000000000000020,
  0x0000000000000000000000000000000000000000000000000000000000000020000000000000000000000000000000000000000000000000,
  0x0000000000000020000000000000000000000000000000000000000000000000000000000000000000000000000000200000000000000000,
  0x00000000000080000000000000007e0900000000000000000000000000000000000000000000000000000000000000000000000000000000,
  0x7578d0dd226d670000000000000030000000000000000d000000000000000001000000000000000000000000000000000000000000000000,
  0x840023bf4dc7e8000000000000003085229fa096d84809494332b7dc53dd7fce81d6a494df97317cb103f7cb0b65bca6c7d3fd3607d3aee5,
  0x4dd203451af41600000000000000300fd735a4875bca527eb5377f2ccfec5bedb362c72abba56f9e95217b347f36040131591e12c90d4399,
  0x915e0a5d9dad0100000000000000308d5bd574e084d36083b1a6e330a581f7c4f40073456a31fda939913630a1a98c2af40ecb109d2eee39,
  0x44b4f2cfe674b40000000000000030849d35763eef1a521926a6af933901737dfdee1da7b1e9a91500fecb0125d37b8fe3dab3f7b98c637b,
  0x699857efc0c0e6000000000000003000a59dc71300d6c5a0ff2116d4d898665c4b856eb83000499536e4359b3e2aeb681631d4c7d1b30d02,
  0x40ac72a4010f68000000000000003013966b3877030ba595715ad928db846d2ac5f095fdc2b06d596007a56abb2a1ea201cbd8f10ef7175a,
  0x00000000000000000000000000003007585b23eea134999e75797ba497e7d736bdb06239619486d8c42aa028d07c5411cd2fb1e1b3354d75,
  0xb2a2ece2f4b8f300000000000000304000000000000000000000000000000000000000000000000000000000000000000000000000000000,
  0x24e8e622d8e7d80000000000000030869869f51625a4ee73a5b017e53871ceec4480d95206e83549a72c9c60ce594e53a2be163f93f5ee77,
  0xffb7a3570c3c100000000000000030035ab8d29790170cadb9413ee76a5414415b06fbd4b8f25c60c40df31c396ab54cb962dc3da3395560,
  0x506aaeb821187f00000000000000300f032e6ba6d13afa491f22e38b3f8c9645b21714b99b1b50dc08ceea4184c468ec5f24991c08ec8276,
  0xf254b38d11cc6d000000000000003007cbbc4f6f2068daa257854fbf9a1fb6352adb8a9dc7007bbf76231fe7b8f215f396a0e3b2c92871e5,
  0x000000000000300000000000000005940466279586e3e76a38160dc93b5f08f9adec21cfcafcf9ddacd1ab0e2550af9f422ec84afd454606,
  0x000000000000308e2541b219eda133d9e2eb4c1adb6c7d2df0724dc9d2675ffa2f2f6f9ccd3e33c6abdc9895b56cc97e697f1487d56e5e00,
  0x000000000000300342ea258ed248ba90c46021bb7de1e22fb1b859a8fc653123d30072a621c1d7c9c3304b7ca439bb5b5eeedd8236f4e700,
  0x000000000000300eafe68f6419eae414ae94146995e9fb668e2d0650b4475ad37968239fc56fc27bf3c93901ecb7c0aff2a1303f9459c500,
  0x00000000000030135ec21f3bde2c505bc29f7ce33711717a9d8c461d95b446de2bdda33b055dfff1e800a7bf9b2b15330cf3bc23dcaeb300,
  0x000000000000301125ed61fbf272922879e2d09dff54eba8c8172db197a38bf8c2a2cd4d77915ae7b5ffacbacb560ca1a51748217c1cbd00,
  0x0000000000000505b4b1da4878306477bf62bebf0da3de76fd45cb0469403d5acfdfb453f87dae6f005312368885d6a2b5a3923639f26600,
  0xe09db580600dd900000000000000200000000000000000000000000000000000000000000000000000000000000001000000000000002000,
  0x4ac3e799f2e8ecb47001f57845bbbfd7c0070a381d364d00000000000000206141e529fcdc704e26ef0699ca82c49012c588ada0e784368b,
  0x000000000000202664991206cc6e6a144513f4c899a417ee516fa456ee3f9ec51c159ddca97c33000000000000002022a342a0964a25e0e9,
  0xd5f51db3f32699fbd047e11279bb6e000000000000002041feb67496b6e8973bb1afa6ef9bb1c0ce7b067b089b046d2903ccdd332888e600,
  0x00000000002e750000000000001f9800000000000010bb000000000000003300000000000080003291357ee558b50d483405417a0cbe39c8,
  0x00000000005eca0000000000005d8b0000000000005c4c0000000000005b0d0000000000005b0c0000000000004c2f0000000000003d5200,
  0x00000000006e580000000000006e570000000000006e56000000000000628800000000000062870000000000006148000000000000600900,
  0x00000000006e5f0000000000006e5e0000000000006e5d0000000000006e5c0000000000006e5b0000000000006e5a0000000000006e5900,
  0x00000000006e660000000000006e650000000000006e640000000000006e630000000000006e620000000000006e610000000000006e6000,
  0x00000000006e6d0000000000006e6c0000000000006e6b0000000000006e6a0000000000006e690000000000006e680000000000006e6700,
  0x00000000006e740000000000006e730000000000006e720000000000006e710000000000006e700000000000006e6f0000000000006e6e00,
  0x000000000000330000000000006e7a0000000000006e790000000000006e780000000000006e770000000000006e760000000000006e7500,
  0xf41d31416f4c1400000000000000202656d337ec127fff03129db4fab14ad6993b95e316289f6e0ef1217fc1f55f50000000000000002000,
  0x2bbac285a7c72c5549739108b3b07cf239a12bf107d662000000000000002060b50c7f21a449841d8045d8f8c2d63c2a21a4f661fe3953fc,
  0x000000000000203b4b484628288c9a3060f8ee057ec81c93410b68927e5a5478b1fdf7f418f66200000000000000203628e67b4b841c2193,
  0x18eed53982aa13ec37dbd867e129c800000000000000201483024522dfe9101219180fb7d62de75a61be778713d937e51446c5310eda1700,
  0x4e2a81bbf70d9f7348316e08c10e2360cb88e807fb9d9fd4c100ec73eaac1c00000000000000204e86008861307ef09a8195287619105d8f,
  0x2c9d7dba59288e00000000000000205e9f9b3150ca96d9c6b0d8135211304013ad5d322d340983efc3dbfa19698d21000000000000002053,
  0x756f5eeac15aea6841d3295acf4d0af296e500e67c28a200000000000000201309a02026c9731dc62edb8ff8a7599592b331f26bb5c3c133,
  0x00000000000020692445f1c4a51550a33e46ef1b62e7325e5f9efeebeb981fadcf83933dad9f3000000000000000203625981256825d3721,
  0x8f1053c4d8bbe870fe13470e75638c00000000000000204bdc3a320b25efa4fb9e4f49c15ba5201ff96429f7b537595b453480f603dfdb00,
  0xfbcae86a8b17b08fc4deee31705a4cf0589a8d4e60237273458e0aa7a45610000000000000002047f36d01b0cbde00b5c7a6a5fc9f8092c8,
  0x319b5b64ddb57500000000000000201aa3ecc769ca4c27083bc73504febba5f63db64c9f5e9d40e987f228da8bf77200000000000000203d,
  0xe972a78c4abf2fa2fc2c04f14eee50e2bf036607b888610000000000000020423f3ea238f84778005929ae748d48df29737459782acd36c8,
  0x0000000000002031182f2e5864216b3ce0f73f2a775fc4973a942d70a6d1166fdccaf9a15a6d7c00000000000000201b55236b826e1d2248,
  0x10b2ed699afad45449acf41f3234fd0000000000000020638b0315bd00021997ffcb7cb5c7e52a3e9bac3cf5f80826fc4776bc89533cfd00,
  0x23a3fbaaaf46acad7be2ee427bce758872091f9644e177b9222aa6254dee0000000000000000205a81cc6395f01173bc35fb090780ef8713,
  0x812038ef94f4ca000000000000002034a478f8f56d4c6675c59a28d35486be3017b80eab98a688c719a19d863b2810000000000000002000,
  0x57576e16ffdeed481f94923a29e7cbf596406f3c5f6463000000000000002019c59e91dc883399104363bf1e0d8d5e60ba9879c706a4c2b9,
  0x00000000000020589e22125089421045abe67d58e420d98850d45926e26a81807b6162a86448d100000000000000205a0a2a94371e0f4a43,
  0x85d815d7ebeb5ed551ce0989314446000000000000002005e7e87d8a429b1ad0651f12f50a956de17dd16462c63673b4c66fbaf75aeff100,
  0xd14bd48791f09e89dae875c18b4ae1b75a9a4e248f1474396be641e994d47c00000000000000206aeeb97fb6f0e178b7952572b8b9b0deca,
  0x86f46bd2599d4d00000000000000206673c44b9352558bac3f820b1d9edce4566e476c8b9491ce4f74aba441fcb0d000000000000000200a,
  0x9fcaa280303c19485df62f1a1ec0b1dcba8a1eb6b16bc700000000000000206757c1da8b47eaf4518cdc9eac21df9cd5be35dcf739f9a9d2,
  0x0000000000002073059497c0d77e6e456a402f346924a85db0ad976481814a7133cd7424f7c1ba00000000000000205ed47ccde145507e05,
  0x0c7c23b01c0a3860aaad5ca1563efc00000000000000201583b761823a4131c008d25a67de9e98966ee5d0d653df8faf4d63fa6e4458bc00,
  0x6107182a52005016565ac6cd41648739eccfc3b5d6d10245e9d6d4672366d3000000000000002052fb5261352cc7ddff3efd15b07bbd4ce7,
  0xbeb8f3dffc52750000000000000020155eddaf8143ce2cfc75f8e7b21999604af0d7300bd20dc990c15d6aa5edb2f9000000000000002047,
  0x3daea242fb7f484ecfcdff276a40f783f0c17dfa168dbc000000000000002032dc48b996c8a8d07a6f38669c3955dffe0d1ef2237d703745,
  0x000000000000202b6c7fd5a6ed98dcdd656bbcf5f29432609061607080bcefa38ee05e640712d700000000000000202e3a20845ed7809a16,
  0xf9bfa5e03e11211426cc0e0063602300000000000000206172e6247e23bb0c405eb778443d35b7d94c9d71e4013046b4c566b883b6b4ac00,
  0xf71df615ca5526521c46ebf9905a33f940a674c223c565d2a245948a63e1ee0000000000000020453c590df0e8a5016ed2e531c9f2f38f86,
  0x43ca7e93db8872000000000000002024710a5b5ad0dd115405bfc9bc050870964d090414ed1945d025017ade6dd8df000000000000002029,
  0xf67260d1c0e0a7d8f0cf27644a0c6929163a61f0aa18ea00000000000000202651cbc5676a51e56598f683a228810a085b155d1c06cdd446,
  0x000000000000203dc4c0d7de196126a00e1d4583fa10d8fe743071f74aab820dc65ed30ef8299f00000000000000201eca76fa6464a9e5af,
  0x5dc771c5e8625360bcabff1bf02e0e00000000000000204f92f4b718ee4e90b3f9b4373e8296ec09f40ea0d5c4daae6fe06784b63ee82b00,
  0x652840fbe9ad2f778fff98d3cbcf788e4abeedb5f63f8da55c243c839b3e990000000000000020197c18434df7bfcf82eb22ecbbddb4444a,
  0x5909163f040b3f000000000000002068d8659e49967d396a6a78da78390536198e69ed36736959be3c76f879f56752000000000000002056,
  0x0b7c51d433714b39e96acd31ff5a0c434bae0271e917548c0e]

/-- the 5905 bytes -/
def xfrFile66 : Bytes := (xfrFile66Words.flatMap (leBytes 56)).take 5905

set_option maxRecDepth 100000 in
theorem xfrFile66_check : checkTransfer xfrFile66 (Spec.transferVars 20 6 6) 32768 (Spec.transferPublic 20 6 6) = true := by
  decide +kernel

theorem xfrFile66_size : Spec.IsSize (Spec.transferGates 20 6 6) 32768 := isSize_of (k := 14) (by decide) (by decide)

theorem xfrFile66_len : xfrFile66.length < 2 ^ 64 := lt_of_le_of_lt (List.length_take_le _ _) (by norm_num)

end Verif.Setup
