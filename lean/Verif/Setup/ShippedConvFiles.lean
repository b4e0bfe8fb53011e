import Verif.Setup.Shipped

/-!
The files with the keys of conversions, /repo/api/parameters, as bytes, and the test of `Shipped.lean` run on them by the kernel.
-/

namespace Verif.Setup

/-- api/parameters/ar-to-abar-vk.bin: words of 56 bytes, little-endian, the last one shorter -/
def arToAbarFileWords : List Nat := [
  0x2695638c4fa9ac0fc3688c4f9774b905a14e3a3f171bac586c55e83ff97a1aeffb3af00adb22c6bb00000000000000300000000000000001,
  0xc6e47ad4fa403b02b4510b647ae3d1770bac0326a805bbefd48056c8c121bdb80000000000000060000000000000000217f1d3a73197d794,
  0x7dacd3a088274f65596bd0d09920b61ab5da61bbdc7f5049334cf11213945d57e5ac7d055d042b7e024aa2b2f08f0a91260805272dc51051,
  0xe75d320da8b83a87e12406956b9c74491ee5ecf06dc297ba1186016209d78fd832c16ef62fc49eff000000000000006013e02b6052719f60,
  0x116b2250fc4b3098ccadf9ec58526aecf307d21e233f65110554ee04460f72a616f4d070941b0796de5defda29196e40013645b8518e5568,
  0x0000000000000020000000000000000000000000000000000000000000000000000000000000000000000000000000000000000000000000,
  0x0000000000000000000000000000000000000000000000200000000000000000000000000000000000000000000000000000000000000000,
  0x0000000000000000000000000000000000000000000000000000000000000000000000000000002000000000000000000000000000000000,
  0x0000000000000000000000000000002000000000000000000000000000000000000000000000000000000000000000000000000000000020,
  0x0000000000000000000000000000000000000000000000000000000000000020000000000000000000000000000000000000000000000000,
  0x0000000000000020000000000000000000000000000000000000000000000000000000000000000000000000000000200000000000000000,
  0x0000000000000000000000000000000000000000000000200000000000000000000000000000000000000000000000000000000000000000,
  0x0000000000000000000000000000000000000000000000000000000000000000000000000000002000000000000000000000000000000000,
  0x0000000000000000000000000000002000000000000000000000000000000000000000000000000000000000000000000000000000000020,
  0x0000000000000000000000000000000000000000000000000000000000000020000000000000000000000000000000000000000000000000,
  0x0000000000000020000000000000000000000000000000000000000000000000000000000000000000000000000000200000000000000000,
  0x0000000000000000000000000000000000000000000000200000000000000000000000000000000000000000000000000000000000000000,
  0x0000000000000000000000000000000000000000000000000000000000000000000000000000002000000000000000000000000000000000,
  0x0000000000000000000000000000002000000000000000000000000000000000000000000000000000000000000000000000000000000020,
  0x0000000000000000000000000000000000000000000000000000000000000020000000000000000000000000000000000000000000000000,
  0x0000000000000020000000000000000000000000000000000000000000000000000000000000000000000000000000200000000000000000,
  0x0000000000000000000000000000000000000000000000200000000000000000000000000000000000000000000000000000000000000000,
  0x0000000000000000000000000000000000000000000000000000000000000000000000000000002000000000000000000000000000000000,
  0x0000000000000000000000000000002000000000000000000000000000000000000000000000000000000000000000000000000000000020,
  0x0000000000000000000000000000000000000000000000000000000000000020000000000000000000000000000000000000000000000000,
  0x0000000000000020000000000000000000000000000000000000000000000000000000000000000000000000000000200000000000000000,
  0x0000000000000000000000000000000000000000000000200000000000000000000000000000000000000000000000000000000000000000,
  0x0000000000000000000000000000000000000000000000000000000000000000000000000000002000000000000000000000000000000000,
  0x0000000000000000000000000000002000000000000000000000000000000000000000000000000000000000000000000000000000000020,
  0x0000000000000000000000000000000000000000000000000000000000000020000000000000000000000000000000000000000000000000,
  0x0000000000000020000000000000000000000000000000000000000000000000000000000000000000000000000000200000000000000000,
  0x0000000000000000000000000000000000000000000000200000000000000000000000000000000000000000000000000000000000000000,
  0x0000000000000000000000000000000000000000000000000000000000000000000000000000002000000000000000000000000000000000,
  0x0000000000000000000000000000002000000000000000000000000000000000000000000000000000000000000000000000000000000020,
  0x0000000000000000000000000000000000000000000000000000000000000020000000000000000000000000000000000000000000000000,
  0x0000000000000020000000000000000000000000000000000000000000000000000000000000000000000000000000200000000000000000,
  0x0000000000000000000000000000000000000000000000200000000000000000000000000000000000000000000000000000000000000000,
  0x0000000000000000000000000000000000000000000000000000000000000000000000000000002000000000000000000000000000000000,
  0x0000000000000000000000000000002000000000000000000000000000000000000000000000000000000000000000000000000000000020,
  0x0000000000000000000000000000000000000000000000000000000000000020000000000000000000000000000000000000000000000000,
  0x0000000000000020000000000000000000000000000000000000000000000000000000000000000000000000000000200000000000000000,
  0x0000000000000200000000000000013000000000000000000000000000000000000000000000000000000000000000000000000000000000,
  0x5b3dd2695f0b110000000000000030000000000000000d000000000000000001000000000000000000000000000000000000000000000000,
  0xbf3742dda2893b000000000000003005283244ceb5637349dbe998938e1feaaa56b9b85b8ead8b252b3379ad634e72b799fc48b4ca9472fb,
  0x9a1cd6035365460000000000000030983219db056d973057f1a19c293be00076e6f0377c122a5800b28a34b0b0a9bcff0e6d44eee3459e40,
  0xf0bab3dad9ed62000000000000003017404db40e003c58a22697541902efc5d8ab51bb1ca25bae52ecca28b78848369f5cd01b35f277e38f,
  0x0000000000000000000000000000300079182f4248e3785f1b4b284c5fde6dbcc2691b74e6568e0c500e666fa3d5edbab3906bc220816aff,
  0x0000000000000000000000000000304000000000000000000000000000000000000000000000000000000000000000000000000000000000,
  0x5a4dcb947ac20b00000000000000304000000000000000000000000000000000000000000000000000000000000000000000000000000000,
  0x00000000000000000000000000003003b3a11ce183f28a03166188988623335a6d38f9b1f4d1135dbddb2f93ca6389b288a0cdc7134221ea,
  0x4fc13ab4d3dd2a00000000000000304000000000000000000000000000000000000000000000000000000000000000000000000000000000,
  0x153a56ab9954c200000000000000301363e206b29ac7d8987711f6fc7e9611ef941fb26dcf818c4427216ddadf17bb7600531b93bcf50616,
  0x2004d74425f5ee000000000000003099aaf8b2ca3b4d21bd05cde55501d256696211f762612d32a3831b52e3d285412fb00da9bb7ac91373,
  0x379d8da9a10222000000000000003003131525eb93ec73c7634b423a5556579516555d511082e10b76e2783d18a9901e84c176cdb2606339,
  0xcf017eb47e0ab1000000000000003005a4d10b82dce71db4fa39428921275fea6373c998fb9b221946911a34dd4833d910a5945c7991d940,
  0x000000000000300000000000000005809b64550fb59cc9f806b627b0366a227ddf859e48e3d38260804226762aad6b608a52896d8e339681,
  0x000000000000300d22c685b13d66158b18bcc09182c7792752b308525f286ce576e9b08399a7b9be6e92e831ef59b33ba64b6cc6b5d84500,
  0x0000000000003099d07ab14feb8a4a842c78227e4bc9ad5db3fe2f78311e7d129874c6027082eeeeb5cc9552f6f9e015a268daa0fac2cc00,
  0x000000000000308efb1a2e59387c0096196ad7c0fe59a0ee6860a7837071d56bb5e0a1be3483145115e8437a0643da37a7e89fe8cd798300,
  0x000000000000308b7cc02fa92cca68b3d0071915048723c36008a2e21da9290a9fd27fefefc4440cdb68f16cfea6f5b964d78c33c7919d00,
  0x00000000000030813fe0eb3fbe0ef7f75292083c9b0e42325c84c30787ae31353ec5c35663f0a75b41e726abde999e3e9328823a148e5f00,
  0x0000000000000540000000000000000000000000000000000000000000000000000000000000000000000000000000000000000000000000,
  0xe09db580600dd900000000000000200000000000000000000000000000000000000000000000000000000000000001000000000000002000,
  0x4ac3e799f2e8ecb47001f57845bbbfd7c0070a381d364d00000000000000206141e529fcdc704e26ef0699ca82c49012c588ada0e784368b,
  0x000000000000202664991206cc6e6a144513f4c899a417ee516fa456ee3f9ec51c159ddca97c33000000000000002022a342a0964a25e0e9,
  0x97168a3a6000fe4541b8ff2ee0434e000000000000002041feb67496b6e8973bb1afa6ef9bb1c0ce7b067b089b046d2903ccdd332888e600,
  0x0000000000012a0000000000000001000000000000000000000000000000030000000000000200095166525526a65439feec240d80689fd6,
  0x0000000000002073b3b07f8008ae898f203b1c059d07195113c530fe7e5cd1007fffff008000010000000000000020000000000000000300,
  0xc5cf4a48d5c22e6775bec3bd039faf0000000000000020285247df12a253e143ec1b90dd60044e2a083990501c9dfc2622a0dc2697702200,
  0x22174f26fa2eddc4088da6f679d920df9c]

/-- the 3881 bytes -/
def arToAbarFile : Bytes := (arToAbarFileWords.flatMap (leBytes 56)).take 3881

set_option maxRecDepth 100000 in
theorem arToAbarFile_check : checkConversion arToAbarFile 304 512 [0, 1, 298] = true := by decide +kernel

/-- api/parameters/bar-to-abar-vk.bin: words of 56 bytes, little-endian, the last one shorter -/
def barToAbarFileWords : List Nat := [
  0x2695638c4fa9ac0fc3688c4f9774b905a14e3a3f171bac586c55e83ff97a1aeffb3af00adb22c6bb00000000000000300000000000000001,
  0xc6e47ad4fa403b02b4510b647ae3d1770bac0326a805bbefd48056c8c121bdb80000000000000060000000000000000217f1d3a73197d794,
  0x7dacd3a088274f65596bd0d09920b61ab5da61bbdc7f5049334cf11213945d57e5ac7d055d042b7e024aa2b2f08f0a91260805272dc51051,
  0xe75d320da8b83a87e12406956b9c74491ee5ecf06dc297ba1186016209d78fd832c16ef62fc49eff000000000000006013e02b6052719f60,
  0x116b2250fc4b3098ccadf9ec58526aecf307d21e233f65110554ee04460f72a616f4d070941b0796de5defda29196e40013645b8518e5568,
  0x0000000000000020000000000000000000000000000000000000000000000000000000000000000000000000000000000000000000000000,
  0x0000000000000000000000000000000000000000000000200000000000000000000000000000000000000000000000000000000000000000,
  0x0000000000000000000000000000000000000000000000000000000000000000000000000000002000000000000000000000000000000000,
  0x0000000000000000000000000000002000000000000000000000000000000000000000000000000000000000000000000000000000000020,
  0x0000000000000000000000000000000000000000000000000000000000000020000000000000000000000000000000000000000000000000,
  0x0000000000000020000000000000000000000000000000000000000000000000000000000000000000000000000000200000000000000000,
  0x0000000000000000000000000000000000000000000000200000000000000000000000000000000000000000000000000000000000000000,
  0x0000000000000000000000000000000000000000000000000000000000000000000000000000002000000000000000000000000000000000,
  0x0000000000000000000000000000002000000000000000000000000000000000000000000000000000000000000000000000000000000020,
  0x0000000000000000000000000000000000000000000000000000000000000020000000000000000000000000000000000000000000000000,
  0x0000000000000020000000000000000000000000000000000000000000000000000000000000000000000000000000200000000000000000,
  0x0000000000000000000000000000000000000000000000200000000000000000000000000000000000000000000000000000000000000000,
  0x0000000000000000000000000000000000000000000000000000000000000000000000000000002000000000000000000000000000000000,
  0x0000000000000000000000000000002000000000000000000000000000000000000000000000000000000000000000000000000000000020,
  0x0000000000000000000000000000000000000000000000000000000000000020000000000000000000000000000000000000000000000000,
  0x0000000000000020000000000000000000000000000000000000000000000000000000000000000000000000000000200000000000000000,
  0x0000000000000000000000000000000000000000000000200000000000000000000000000000000000000000000000000000000000000000,
  0x0000000000000000000000000000000000000000000000000000000000000000000000000000002000000000000000000000000000000000,
  0x0000000000000000000000000000002000000000000000000000000000000000000000000000000000000000000000000000000000000020,
  0x0000000000000000000000000000000000000000000000000000000000000020000000000000000000000000000000000000000000000000,
  0x0000000000000020000000000000000000000000000000000000000000000000000000000000000000000000000000200000000000000000,
  0x0000000000000000000000000000000000000000000000200000000000000000000000000000000000000000000000000000000000000000,
  0x0000000000000000000000000000000000000000000000000000000000000000000000000000002000000000000000000000000000000000,
  0x0000000000000000000000000000002000000000000000000000000000000000000000000000000000000000000000000000000000000020,
  0x0000000000000000000000000000000000000000000000000000000000000020000000000000000000000000000000000000000000000000,
  0x0000000000000020000000000000000000000000000000000000000000000000000000000000000000000000000000200000000000000000,
  0x0000000000000000000000000000000000000000000000200000000000000000000000000000000000000000000000000000000000000000,
  0x0000000000000000000000000000000000000000000000000000000000000000000000000000002000000000000000000000000000000000,
  0x0000000000000000000000000000002000000000000000000000000000000000000000000000000000000000000000000000000000000020,
  0x0000000000000000000000000000000000000000000000000000000000000020000000000000000000000000000000000000000000000000,
  0x0000000000000020000000000000000000000000000000000000000000000000000000000000000000000000000000200000000000000000,
  0x0000000000000000000000000000000000000000000000200000000000000000000000000000000000000000000000000000000000000000,
  0x0000000000000000000000000000000000000000000000000000000000000000000000000000002000000000000000000000000000000000,
  0x0000000000000000000000000000002000000000000000000000000000000000000000000000000000000000000000000000000000000020,
  0x0000000000000000000000000000000000000000000000000000000000000020000000000000000000000000000000000000000000000000,
  0x0000000000000020000000000000000000000000000000000000000000000000000000000000000000000000000000200000000000000000,
  0x00000000000008000000000000000b0e00000000000000000000000000000000000000000000000000000000000000000000000000000000,
  0x4728c18b4118680000000000000030000000000000000d000000000000000001000000000000000000000000000000000000000000000000,
  0xa592c11a34315000000000000000300e830a12c36cc86ed1a0788d9ceb09c862419116e06027aa7232c3aa853fae746d063421ec3661be3a,
  0x77f84a5460bc2d00000000000000300aca643d8c70bb1c8ee17d5afd23d626e6b393edeff534dbb6327b4ae45ca34178ca0420b89334e12f,
  0xd7cc30feda8d10000000000000003086c40c478ffcc10bfaeef4db4236361d871619b1050f83aca01793bd217bf75784392a4a10713887c7,
  0x4a282461871386000000000000003006ff7685d1492021b961579e8ff9db57fb8db071fce60a718c6f50ea9b9f33e40827a2feaf969873f5,
  0x15d526b6a2d59400000000000000308a335309d002c9a80c210971219da74bafc2acee036582073284278eb4a7f210ffc615c8391a326915,
  0x96b2062093843c0000000000000030051134a3d90ca5508d87a5aff6bcfc7b3d4b7502493101c630615aa9d1e98a9c3087cf6766d8908140,
  0x0000000000000000000000000000300b30c99563d4f26ee9183203cda60a0516b393de0be2849f3a15a24871d51a02e0476abff12a6894c0,
  0xeb868ac9411db800000000000000304000000000000000000000000000000000000000000000000000000000000000000000000000000000,
  0x6bc75530ec8bd6000000000000003014d5dbbe2215b97d091bda69d3383c1ba40725eda1065c946a36273983172b6af2f33f2e975f3c5e27,
  0xcd1613108fbec500000000000000309268092d746d4cd26cdabe18bfc0e6a6ab3f7af6bfcb5522020b7ba0b05b04e8f11d47846bde9e2e9f,
  0xa26c89462f2ecf000000000000003091955f5c89bf6ba6561628e770540a14bd2094f6f90db6febf96399987af9e16f4dce294c68ad83c93,
  0x70fc2e2f677e8c00000000000000300eca3be6ac29b2ed97676cfae4d18181a28d10e6b517402a323d80a343b7af8c8a89216062c6eb1e7c,
  0x0000000000003000000000000000050ead8ddabcdc3b76c23d1ca1b437474b18ea6532df25340a1bc1da4cb8aed013d4c12e868568ada2e4,
  0x000000000000308b09aa7105d46d3dc78d6783c599b70fc5cb5e4485169bb61f26884fcc69e4ff74d49a6a40eaa274786298dc2244d02a00,
  0x000000000000300dd741ae81cbbdac85621a2fc9f66a35214f9dccac5ce8f999290f9d20a4dcb0ca5f1c729689d133e6c4e6ea2621476200,
  0x000000000000309930eb55f9b240e3130df9ee29d32b2e8844af13009386ebc796a0440516323b7b9f254878082596d74d7601ec28afd900,
  0x0000000000003088e4d2dc415fde434951dfa5f6dc37c6ea3ba419dcbbd6af32b0a49b5302e6eacb7044c5bf7ff54198be8afe32b8650900,
  0x0000000000003091bcca53f259486d0494ec365b2e9403ec8be4373acf115e88f1712107165a74dd4512e08eb84809c2f355750413bcff00,
  0x000000000000050c6a951dab398d5a50c2e5252615974ab2dc7d43823811e87127062c48e518a0788b78c110417e73c2fa51bf9f5041c100,
  0xe09db580600dd900000000000000200000000000000000000000000000000000000000000000000000000000000001000000000000002000,
  0x4ac3e799f2e8ecb47001f57845bbbfd7c0070a381d364d00000000000000206141e529fcdc704e26ef0699ca82c49012c588ada0e784368b,
  0x000000000000202664991206cc6e6a144513f4c899a417ee516fa456ee3f9ec51c159ddca97c33000000000000002022a342a0964a25e0e9,
  0xea6811be9c622d4a838b5d59cd79e5000000000000002041feb67496b6e8973bb1afa6ef9bb1c0ce7b067b089b046d2903ccdd332888e600,
  0x0000000000052300000000000005220000000000000521000000000000001a00000000000008006d031f1b5c49c83409f1ca610a08f16655,
  0x0000000000052a00000000000005290000000000000528000000000000052700000000000005260000000000000525000000000000052400,
  0x000000000005310000000000000530000000000000052f000000000000052e000000000000052d000000000000052c000000000000052b00,
  0x0000000000053800000000000005370000000000000536000000000000053500000000000005340000000000000533000000000000053200,
  0x31dbe4e25767e8230f8d29cd4e3a14353dda1d4b9c2bdb0000000000000020000000000000001a000000000000053a000000000000053900,
  0x000000000000201cc95d6d90e940929d1b4b7c6454319770b2534a08b411afb03508c5732205e500000000000000206d0d00dea79596fabc,
  0x2e93b397881948a3e8432be0c82f3300000000000000204bab20edb64c218ec0457b5c56d5ece0aaf4e5d41053ab724d46f2bd80f31a0e00,
  0x29eeca1da0c377bfd70bd30b960ac7af4d605bec0d22f438161aee8f30b73e0000000000000020592af999510046faac0d9863e9b41a78e8,
  0xb23019b439906e000000000000002004d9bbf570c5d9df1a0d75d27c39a2801c0d06f760f8a5696373dd99125dbd0b000000000000002035,
  0x83badad4db4996e8e592ec1c57bb4b465ede85cefd55bd000000000000002072bb01c5bda61e250560709d6406ee7ecd2ccaecfea9c3e616,
  0x0000000000002014c197790a9a898a1ddde2303d673ee28d52a6d671f18dbf73903234d1f557ff000000000000002035753386177e412627,
  0xb24a6b83f03f7ab6d5d6c2817944ab00000000000000204b78e7f892ccfa267a3f7330e8a0b14f612ed85ad906b1aa018cc8cf4055ad5a00,
  0xbb3c37114ff9a2747ada9b1111800fa3cd28a764d4f9ead10bb1cc3297f44700000000000000204c371309a0262c2a5b57fc47c10f08af36,
  0xa732c4a873b4e30000000000000020377a8bd5b647e58ec690fe64e5cf6835a1f6e1e97279bc86ae4198e562d4881f000000000000002073,
  0x20b88565089f4ba4f4ceab4d4fee554c429deff7d10da40000000000000020671fdadbe8160df910babee0e5f24933d32c851a25dec62101,
  0x0000000000002050a528bb3ea7f4f5bdace07179996f747f1ef77b521370a619fc583623ef005300000000000000202e3b3c014e67332cb2,
  0x62e7c84cf02af002d2d64ff92ab7ab0000000000000020379e5031627be63ecc388843eaf5ea95870307e47181732c8a6a3e43201b7d5000,
  0x06ae25a3948d6dfcaf8a893eeba1b57e0a2fdf544999d6b27f018d138116d100000000000000202aa2abd5adb090f02f7c8ba5f98ba5bfe2,
  0xa6788f5857dfe7000000000000002005c6f0a8c3747223412060464f3dcb57ce71904bb8b371e2a83f4d9dd1845d71000000000000002028,
  0x4ecacf0122ffc389d651da3042664cfa1e5b3e1d5c3969000000000000002057907da8bf269012a9cff8a10f81605fb7a94ec8134f3db4e2,
  0x00000000000020332abbdccffc3b39a8291f65f7017ceb5a1262b729dc6ff6466bc5c90887257200000000000000206af33b43487010dae1,
  0x7a60f2dfe1b0048370570330294d2700000000000000204970505b0a6f632870135014a031ea4c6ad41ccb25118c1602b022f465dc1b5a00,
  0xf2b500d366c7407defa8220753128681d478db9e7fe7aee1e3780400c8170900000000000000201b9fa843daa8894c6561c0ae4b1587324c,
  0x44]

/-- the 4985 bytes -/
def barToAbarFile : Bytes := (barToAbarFileWords.flatMap (leBytes 56)).take 4985

set_option maxRecDepth 100000 in
theorem barToAbarFile_check : checkConversion barToAbarFile 2830 2048 ((List.range 26).map (1313 + ·)) = true := by decide +kernel

/-- api/parameters/abar-to-ar-vk.bin: words of 56 bytes, little-endian, the last one shorter -/
def abarToArFileWords : List Nat := [
  0x2695638c4fa9ac0fc3688c4f9774b905a14e3a3f171bac586c55e83ff97a1aeffb3af00adb22c6bb00000000000000300000000000000001,
  0xc6e47ad4fa403b02b4510b647ae3d1770bac0326a805bbefd48056c8c121bdb80000000000000060000000000000000217f1d3a73197d794,
  0x7dacd3a088274f65596bd0d09920b61ab5da61bbdc7f5049334cf11213945d57e5ac7d055d042b7e024aa2b2f08f0a91260805272dc51051,
  0xe75d320da8b83a87e12406956b9c74491ee5ecf06dc297ba1186016209d78fd832c16ef62fc49eff000000000000006013e02b6052719f60,
  0x116b2250fc4b3098ccadf9ec58526aecf307d21e233f65110554ee04460f72a616f4d070941b0796de5defda29196e40013645b8518e5568,
  0x0000000000000020000000000000000000000000000000000000000000000000000000000000000000000000000000000000000000000000,
  0x0000000000000000000000000000000000000000000000200000000000000000000000000000000000000000000000000000000000000000,
  0x0000000000000000000000000000000000000000000000000000000000000000000000000000002000000000000000000000000000000000,
  0x0000000000000000000000000000002000000000000000000000000000000000000000000000000000000000000000000000000000000020,
  0x0000000000000000000000000000000000000000000000000000000000000020000000000000000000000000000000000000000000000000,
  0x0000000000000020000000000000000000000000000000000000000000000000000000000000000000000000000000200000000000000000,
  0x0000000000000000000000000000000000000000000000200000000000000000000000000000000000000000000000000000000000000000,
  0x0000000000000000000000000000000000000000000000000000000000000000000000000000002000000000000000000000000000000000,
  0x0000000000000000000000000000002000000000000000000000000000000000000000000000000000000000000000000000000000000020,
  0x0000000000000000000000000000000000000000000000000000000000000020000000000000000000000000000000000000000000000000,
  0x0000000000000020000000000000000000000000000000000000000000000000000000000000000000000000000000200000000000000000,
  0x0000000000000000000000000000000000000000000000200000000000000000000000000000000000000000000000000000000000000000,
  0x0000000000000000000000000000000000000000000000000000000000000000000000000000002000000000000000000000000000000000,
  0x0000000000000000000000000000002000000000000000000000000000000000000000000000000000000000000000000000000000000020,
  0x0000000000000000000000000000000000000000000000000000000000000020000000000000000000000000000000000000000000000000,
  0x0000000000000020000000000000000000000000000000000000000000000000000000000000000000000000000000200000000000000000,
  0x0000000000000000000000000000000000000000000000200000000000000000000000000000000000000000000000000000000000000000,
  0x0000000000000000000000000000000000000000000000000000000000000000000000000000002000000000000000000000000000000000,
  0x0000000000000000000000000000002000000000000000000000000000000000000000000000000000000000000000000000000000000020,
  0x0000000000000000000000000000000000000000000000000000000000000020000000000000000000000000000000000000000000000000,
  0x0000000000000020000000000000000000000000000000000000000000000000000000000000000000000000000000200000000000000000,
  0x0000000000000000000000000000000000000000000000200000000000000000000000000000000000000000000000000000000000000000,
  0x0000000000000000000000000000000000000000000000000000000000000000000000000000002000000000000000000000000000000000,
  0x0000000000000000000000000000002000000000000000000000000000000000000000000000000000000000000000000000000000000020,
  0x0000000000000000000000000000000000000000000000000000000000000020000000000000000000000000000000000000000000000000,
  0x0000000000000020000000000000000000000000000000000000000000000000000000000000000000000000000000200000000000000000,
  0x0000000000000000000000000000000000000000000000200000000000000000000000000000000000000000000000000000000000000000,
  0x0000000000000000000000000000000000000000000000000000000000000000000000000000002000000000000000000000000000000000,
  0x0000000000000000000000000000002000000000000000000000000000000000000000000000000000000000000000000000000000000020,
  0x0000000000000000000000000000000000000000000000000000000000000020000000000000000000000000000000000000000000000000,
  0x0000000000000020000000000000000000000000000000000000000000000000000000000000000000000000000000200000000000000000,
  0x0000000000000000000000000000000000000000000000200000000000000000000000000000000000000000000000000000000000000000,
  0x0000000000000000000000000000000000000000000000000000000000000000000000000000002000000000000000000000000000000000,
  0x0000000000000000000000000000002000000000000000000000000000000000000000000000000000000000000000000000000000000020,
  0x0000000000000000000000000000000000000000000000000000000000000020000000000000000000000000000000000000000000000000,
  0x0000000000000020000000000000000000000000000000000000000000000000000000000000000000000000000000200000000000000000,
  0x000000000000200000000000000023bc00000000000000000000000000000000000000000000000000000000000000000000000000000000,
  0xe61001aa4724660000000000000030000000000000000d000000000000000001000000000000000000000000000000000000000000000000,
  0x4e7be2606bd7d1000000000000003009f9a7a69fa47b60048552a56a64593c57f89c5c367d2bc813798ef24c8d9bfbfc09055bd0b7079535,
  0x7fd0b2ef3fe21f000000000000003087b574aa810884b526e579f8b92aa26c10e12abcc36acb1d07358ec6d1a613c2f2706659b2cebfc56d,
  0xd1a193e9facdc80000000000000030813d980c34149d3a561630a8e91207746ca3d87383e8ece56cf8c7b14750a516fe3249b8a918f8b0c3,
  0xa3935843a667bb0000000000000030099efc72e0843ab14d29588c0e6d9dc9a897759e0212c2c11b9270b9a161655036bd2689cb9401a41d,
  0x3c5ba126e165ba00000000000000300ffb088e8a9a17c5f7b8f5c3277f857e4b6913ffea6b8ca1d7925c94d6b08b8cd0964873f9476defff,
  0x24fb0ab16eac7d00000000000000308744eca9998f55fb0151a3946daae7fc71161c65817d8ffbd599c6a9c8b7cff8a7295dcff667b2e223,
  0x0000000000000000000000000000300e255b9653ad837beedef92e354ef179f8804b605b05e29da6d1ab299f8a8b23f69a664b5ec18c8071,
  0x21eef101b7d49900000000000000304000000000000000000000000000000000000000000000000000000000000000000000000000000000,
  0x0f7c441a5e93a8000000000000003011c630ad9d3a52fb40d5b3b70cd24740524a5006d8d8cdcecbbf4c95dd5747a6b075831552f8555134,
  0x0b7e3fa8919b3600000000000000300876472922a5bc01a461ba8e47ae15a48926570ee6bb77c4d7c83b49cec0dac7c6597809d61a49005d,
  0xf6943bb59eb07c0000000000000030880648de4881b1eac3819b3a2deb9ab58c639af3f7e6e107746999cfdcc95e9698408d282a2cab5429,
  0x4f3f432a68acd50000000000000030198c7215f2fb3981f40ad43fb026f12344a4451f30e68e537f9a112f00d417563ba9bb48a31f8bd487,
  0x0000000000003000000000000000059711ab80d1bf2f49016af9e7e056925436ea48fb061280dcfb5bb29c5fc4813afb6a29de3fb2b3d0bc,
  0x00000000000030131cbb11e6834e13be35bf6ef22a96a75fc7edef49c2f7679ee51b7a1e335e7bd71448b3e0dc3f4322b43854a7e7735000,
  0x000000000000309917790ab1e0d525b16d305fb64fcb5dbd8f8218c32cbdd7ab6aeb94660bb1f610b750981636a141499bdfaca1940cca00,
  0x0000000000003092dc35aa1f56c1c5723b2842e6cfaf690d690aa784b21266f2b5da11eb5c4f4fb62e27eed77b9657d27ac8b859df314600,
  0x00000000000030028f987de9bbfe189110c3f6f0c68c6ce605d66139c794f1758e4d361722750388245ac36eb70e20ab92246d8948395e00,
  0x0000000000003082255e8e94adc0247b7565d373e6a43ac50d530f401c47eeaf00a6a734ec415c2f9c36dd101f46a0361aa8f408134d6200,
  0x00000000000005981e13452a216906e22d3218731b85674a583ab798aa095db6a0db94dcb760ceaaf8aa63ec7d43fd1cc77f9ce744584a00,
  0xe09db580600dd900000000000000200000000000000000000000000000000000000000000000000000000000000001000000000000002000,
  0x4ac3e799f2e8ecb47001f57845bbbfd7c0070a381d364d00000000000000206141e529fcdc704e26ef0699ca82c49012c588ada0e784368b,
  0x000000000000202664991206cc6e6a144513f4c899a417ee516fa456ee3f9ec51c159ddca97c33000000000000002022a342a0964a25e0e9,
  0x6b58bc434906ac6fdd00bfc78c8967000000000000002041feb67496b6e8973bb1afa6ef9bb1c0ce7b067b089b046d2903ccdd332888e600,
  0x00000000000f170000000000000f160000000000000f1500000000000000290000000000002000485d512737b1da3d2ccddea2972e89ed14,
  0x00000000001aeb0000000000001aea0000000000001ae90000000000001ae80000000000001ae70000000000001ae60000000000000f1800,
  0x00000000001af20000000000001af10000000000001af00000000000001aef0000000000001aee0000000000001aed0000000000001aec00,
  0x00000000001af90000000000001af80000000000001af70000000000001af60000000000001af50000000000001af40000000000001af300,
  0x00000000001b000000000000001aff0000000000001afe0000000000001afd0000000000001afc0000000000001afb0000000000001afa00,
  0x00000000001b070000000000001b060000000000001b050000000000001b040000000000001b030000000000001b020000000000001b0100,
  0xc89c6dfeeccc8b302a0701e8b84179000000000000002000000000000000290000000000001b0a0000000000001b090000000000001b0800,
  0x35264b7638e2175eab5bd16148d1f20adf4aed4498ecd181cc64eb829200e5000000000000002025f7fb14edf72076bc97c564dbc1b4582b,
  0x754b84d7cfb411000000000000002042524e5aa99eb2ffaddfdbd08fff6bd93fdd4f51c03911b5f7767208596f6dd100000000000000200b,
  0xecc1eba39822839aca0521371c224d284c7746b78c4a6600000000000000205e1d07026e9709e481937972e1a06944cc4c3e03ef3e753cf5,
  0x000000000000201e0244907e0630f526e594a64e919d5350319d8f540830847fac62cd2fd6a01a0000000000000020393ae5018a5bdf0a75,
  0x9c41a718ee8da638fbbc5e6880fdb0000000000000002067f841fb76389f10c7e63275703c5e6b9207f6292a6f20c1dab8d83994e35abf00,
  0xa4e70696026faa0404e8bbf44ce721a1743722ac2c0aafbd3434a83f0b3c0f000000000000002039efc3cf8156fabc0330a10d0c1c2f4e79,
  0xd0bcfc8d3e3dc000000000000000201a07a3c8063a946e431e575f303939a1425ffcd3593a3aa080f3de9749068f6200000000000000203a,
  0x106ccf6e11bb70b267fc54da4336e03289c62b1843d10f000000000000002071c16188cc79b4db934f6599e9a01c8c9133d8175e0e4d25f3,
  0x000000000000204de61358ed81ee7520417fa522332565845afcb5df0b35ebf2bc620b359ffef700000000000000207138c7b1399eccdbd3,
  0xfbbc685260e06c4645eb9a492bfa4c000000000000002023f1d42af91db108b98206f8bfae1ac4c46e3bd9562f145a1d5592fc1a6b5c9e00,
  0xe7bb31aa2aadfceecebbce9e98f3248adde4b7ca89c776757fa4a09daaf5370000000000000020531e7e8b133a136521aa345b0f94326345,
  0xdc526deb9f3b3e00000000000000200829fbca83ff3fc069188fbf36e922a6bcb106a08ac9eab9ea767cfbf68d8f7d00000000000000202b,
  0x6dda53c32e6ed6eed5724bca2e885c45bb6ff36b9efd2a0000000000000020326b30ff00427a7c8fc827f80825a1a33db625c121664b6cb5,
  0x000000000000201ed06307445f77aa8414add10595532b54ca19e831226e1da0814e6447a6504300000000000000200e09f97be370bd45d5,
  0x29a0938e7b5eb5c112d7abdbc33f31000000000000002071683e0bb0e85a38ae5222fa3134bae164a813f220d831309b30d7391450c7b700,
  0x524c34864dc25b620ebf00bd842305b0a7fcf886e03bf37fdd284b2e18d21000000000000000203d6430e27932f6a4ce646282a7ae5cf838,
  0xcceb8ca183e89c00000000000000200d0b0c9b2b48eacb5d7feb8535500b88e55f4dda9f19b31d6604dc1cc649825a000000000000002064,
  0x4a9654b9dd572e15f915f821208da2bb1ebd2e9e33a81500000000000000204d1f83fe64d83fd7070ee1ff35514f7fdf57cb6432c6769f7b,
  0x0000000000002055172b6ad7db26f99b17dde5dfa294cceb9c2563d62000ce5ca22952a35d0afd00000000000000200218850c1db89a7cbd,
  0xe2eecdca56ca3b892ee1fe3f2b939f00000000000000203851be0d348db9ea19eb4fbf73cc35e5cf53812520da74b513bb9ccc1278eb7900,
  0x260b50ad3bf2342c508ab48920310262c09164c87d07ace18d0ba866d58dc1000000000000002016c1873e879fb3282e034d6b8a503edf09,
  0x28d5ed9baf8816000000000000002047b463114ce004c194f231ec4f4b323e7599a9a04f8745617d708d20eb458c4500000000000000205e,
  0xbf764544995b11f540f45a8f334ee489164fde98b425ad00000000000000204d4f98623e8268161fa22f1a9591fba1e0978a2f21c63f5646,
  0x000000000000202ac98d9460850092a9f9173dddb58b6a49c5701c2fa9925c4726b58b9a1917320000000000000020457e5ffe1e7bfc80c7,
  0x852031dd0509bac444bde86ab80ebb0000000000000020726d75e37875e9d578b168b8dd28fe6a384ef0ee012bcc472be3e9d9cc5b59bb00,
  0xb6e7f3cc577bd2a6b3aaa5417c8a267e4109044e155b7c3d692534b3750d580000000000000020391f9c44dbb6f845317627775124b430aa,
  0x1250c00357c3e0000000000000002015b64b14b3de750d04d72e8457472c055cbb2a74155d5890b5a8e9bd907273ce000000000000002069,
  0xd9fb58a3d5c93dcbd2f96a6a7d80e9af7547a7a46d4526000000000000002045477e07335f870061db86a4fc489ad8a042663f09b31eea59,
  0x3c1876445f649be65863e44c96a11862a16578634beca529a6ab5c7d48688ff700000000000000206cec1414445d4be974]

/-- the 5705 bytes -/
def abarToArFile : Bytes := (abarToArFileWords.flatMap (leBytes 56)).take 5705

set_option maxRecDepth 100000 in
theorem abarToArFile_check : checkConversion abarToArFile 9148 8192 ((List.range 4).map (3861 + ·) ++ (List.range 37).map (6886 + ·)) = true := by decide +kernel

/-- api/parameters/abar-to-bar-vk.bin: words of 56 bytes, little-endian, the last one shorter -/
def abarToBarFileWords : List Nat := [
  0x2695638c4fa9ac0fc3688c4f9774b905a14e3a3f171bac586c55e83ff97a1aeffb3af00adb22c6bb00000000000000300000000000000001,
  0xc6e47ad4fa403b02b4510b647ae3d1770bac0326a805bbefd48056c8c121bdb80000000000000060000000000000000217f1d3a73197d794,
  0x7dacd3a088274f65596bd0d09920b61ab5da61bbdc7f5049334cf11213945d57e5ac7d055d042b7e024aa2b2f08f0a91260805272dc51051,
  0xe75d320da8b83a87e12406956b9c74491ee5ecf06dc297ba1186016209d78fd832c16ef62fc49eff000000000000006013e02b6052719f60,
  0x116b2250fc4b3098ccadf9ec58526aecf307d21e233f65110554ee04460f72a616f4d070941b0796de5defda29196e40013645b8518e5568,
  0x0000000000000020000000000000000000000000000000000000000000000000000000000000000000000000000000000000000000000000,
  0x0000000000000000000000000000000000000000000000200000000000000000000000000000000000000000000000000000000000000000,
  0x0000000000000000000000000000000000000000000000000000000000000000000000000000002000000000000000000000000000000000,
  0x0000000000000000000000000000002000000000000000000000000000000000000000000000000000000000000000000000000000000020,
  0x0000000000000000000000000000000000000000000000000000000000000020000000000000000000000000000000000000000000000000,
  0x0000000000000020000000000000000000000000000000000000000000000000000000000000000000000000000000200000000000000000,
  0x0000000000000000000000000000000000000000000000200000000000000000000000000000000000000000000000000000000000000000,
  0x0000000000000000000000000000000000000000000000000000000000000000000000000000002000000000000000000000000000000000,
  0x0000000000000000000000000000002000000000000000000000000000000000000000000000000000000000000000000000000000000020,
  0x0000000000000000000000000000000000000000000000000000000000000020000000000000000000000000000000000000000000000000,
  0x0000000000000020000000000000000000000000000000000000000000000000000000000000000000000000000000200000000000000000,
  0x0000000000000000000000000000000000000000000000200000000000000000000000000000000000000000000000000000000000000000,
  0x0000000000000000000000000000000000000000000000000000000000000000000000000000002000000000000000000000000000000000,
  0x0000000000000000000000000000002000000000000000000000000000000000000000000000000000000000000000000000000000000020,
  0x0000000000000000000000000000000000000000000000000000000000000020000000000000000000000000000000000000000000000000,
  0x0000000000000020000000000000000000000000000000000000000000000000000000000000000000000000000000200000000000000000,
  0x0000000000000000000000000000000000000000000000200000000000000000000000000000000000000000000000000000000000000000,
  0x0000000000000000000000000000000000000000000000000000000000000000000000000000002000000000000000000000000000000000,
  0x0000000000000000000000000000002000000000000000000000000000000000000000000000000000000000000000000000000000000020,
  0x0000000000000000000000000000000000000000000000000000000000000020000000000000000000000000000000000000000000000000,
  0x0000000000000020000000000000000000000000000000000000000000000000000000000000000000000000000000200000000000000000,
  0x0000000000000000000000000000000000000000000000200000000000000000000000000000000000000000000000000000000000000000,
  0x0000000000000000000000000000000000000000000000000000000000000000000000000000002000000000000000000000000000000000,
  0x0000000000000000000000000000002000000000000000000000000000000000000000000000000000000000000000000000000000000020,
  0x0000000000000000000000000000000000000000000000000000000000000020000000000000000000000000000000000000000000000000,
  0x0000000000000020000000000000000000000000000000000000000000000000000000000000000000000000000000200000000000000000,
  0x0000000000000000000000000000000000000000000000200000000000000000000000000000000000000000000000000000000000000000,
  0x0000000000000000000000000000000000000000000000000000000000000000000000000000002000000000000000000000000000000000,
  0x0000000000000000000000000000002000000000000000000000000000000000000000000000000000000000000000000000000000000020,
  0x0000000000000000000000000000000000000000000000000000000000000020000000000000000000000000000000000000000000000000,
  0x0000000000000020000000000000000000000000000000000000000000000000000000000000000000000000000000200000000000000000,
  0x0000000000000000000000000000000000000000000000200000000000000000000000000000000000000000000000000000000000000000,
  0x0000000000000000000000000000000000000000000000000000000000000000000000000000002000000000000000000000000000000000,
  0x0000000000000000000000000000002000000000000000000000000000000000000000000000000000000000000000000000000000000020,
  0x0000000000000000000000000000000000000000000000000000000000000020000000000000000000000000000000000000000000000000,
  0x0000000000000020000000000000000000000000000000000000000000000000000000000000000000000000000000200000000000000000,
  0x00000000000020000000000000002d9a00000000000000000000000000000000000000000000000000000000000000000000000000000000,
  0xd8081a0d5828910000000000000030000000000000000d000000000000000001000000000000000000000000000000000000000000000000,
  0xd3645674969006000000000000003007cb98469e7fe7cbc698be258ecd82621b894acdd0e5f6cbed135c83e1e82805e091bb67a264e1515a,
  0xed09e3e8d5ca3c000000000000003008df42a21f1099dabab695f7b76f324af6a787cc701ffae7276fccb442bb1b1259d14c2d2742ed9c5d,
  0xa840ea1622b2ae00000000000000308f16c89d1f24e8aa39f3764dfa7dc16261aec4a6d770718b4333a384f2aa2276c79d6c2e2ecddc04b3,
  0x73bc302d2b05a80000000000000030840ab5e6189207cae994456641275d596e8287ca284b22c09d3c1d06a0487435c52dd38076295ec7b3,
  0x7a2ca4bb466254000000000000003019ba2b0440e27c1f6eab1e7e987c92817550e80e9cffd073ad36cb07ab1269cfda4df5b68e8c836883,
  0xfd31b94a70199600000000000000301279676f638721b91606d330ecb3e7580e02b8ed55215347bb6eab06c2e8a511c1313796c453aa994f,
  0x0000000000000000000000000000308612384b9ed03edfc58042175e8402c89ee364ee38a79153ed8f9244ab6c05a24f2070a7affb52cc0c,
  0x0d533167574e1600000000000000304000000000000000000000000000000000000000000000000000000000000000000000000000000000,
  0xbde1af504f62400000000000000030977b3a6224ddafac20b7f66655a52ad520e20775a2251492c712e52f44238e4cd19fd8bd54dda619a8,
  0x50fa0ea2cfe22800000000000000300cf8a34eaf0ea142ae8b2ee4078bb28a95ec1bce38af379ce24226e7e3c378fe3c61ed1f6c0b9bb1c2,
  0x1e4ed48ae8438a00000000000000308060832fc80fd7c5a19133ba867c7d6192df598666c005b92376fd0ab96ed41acc224b804fa5aae3d6,
  0x7f6a9da48778b2000000000000003093c5fad9be2a39ec0875704da8519a8cf3e80b47061f1d2167ff0512bd809cc3b53297744fba6550d9,
  0x00000000000030000000000000000517c883b945a74a475578d8cd68834f28ec048168cae26db0acf492c3c160ddcb967707ff50fcd7736c,
  0x0000000000003003d51ebce648b03eb673913c2c849637601c42ee39e668b6aa32975c7b205b7ab4b9c9925cc6ed5a004aa743a74e5c5000,
  0x00000000000030117175dd56e070dd5b1dc7f13216d30424878dbe07cff0e8e02fe5b5907ea3b49fb64e7afd7779cc231e330808f5fe2100,
  0x0000000000003085e84206d57378f1249894f24e9c6d2390a8c51211a8a547a15fea99d088020f7cdcc83c0611898680799561675fdd1e00,
  0x0000000000003097dfec037d728bac46dea172dc41645a592166bdd491ff47127c9bd3e0b6df8f5591d2dfbaf50e702a32d00caa03ec8100,
  0x0000000000003087522db343e53382fd7b08b09f2dcee9d916bf71bb4f1cb00eaa01ab9c63d7957f1c8fb24a9850802128971f167a338c00,
  0x0000000000000584eb18d5f2371aacf34e5642904f9447b203ae845475a2fdf3433c6f5a0fc3d4a9db3abb1968a3592ea569739720c4c400,
  0xe09db580600dd900000000000000200000000000000000000000000000000000000000000000000000000000000001000000000000002000,
  0x4ac3e799f2e8ecb47001f57845bbbfd7c0070a381d364d00000000000000206141e529fcdc704e26ef0699ca82c49012c588ada0e784368b,
  0x000000000000202664991206cc6e6a144513f4c899a417ee516fa456ee3f9ec51c159ddca97c33000000000000002022a342a0964a25e0e9,
  0x6b58bc434906ac6fdd00bfc78c8967000000000000002041feb67496b6e8973bb1afa6ef9bb1c0ce7b067b089b046d2903ccdd332888e600,
  0x00000000001310000000000000130f000000000000130e00000000000000400000000000002000485d512737b1da3d2ccddea2972e89ed14,
  0x0000000000131700000000000013160000000000001315000000000000131400000000000013130000000000001312000000000000131100,
  0x0000000000131e000000000000131d000000000000131c000000000000131b000000000000131a0000000000001319000000000000131800,
  0x0000000000132500000000000013240000000000001323000000000000132200000000000013210000000000001320000000000000131f00,
  0x00000000001ef90000000000001ef80000000000001ef70000000000001ef600000000000013280000000000001327000000000000132600,
  0x00000000001f000000000000001eff0000000000001efe0000000000001efd0000000000001efc0000000000001efb0000000000001efa00,
  0x00000000001f070000000000001f060000000000001f050000000000001f040000000000001f030000000000001f020000000000001f0100,
  0x00000000001f0e0000000000001f0d0000000000001f0c0000000000001f0b0000000000001f0a0000000000001f090000000000001f0800,
  0x00000000001f150000000000001f140000000000001f130000000000001f120000000000001f110000000000001f100000000000001f0f00,
  0x0000000000002000000000000000400000000000001f1a0000000000001f190000000000001f180000000000001f170000000000001f1600,
  0x8c96b8c3addbbd9977d5624bc2dc0c000000000000002061a73b87caa2642cda70aeb7d0cd7cf9de577d5d63cb701a59c9b20de707750700,
  0x79de106aecfa045b61f1fedbf1937a66e647c5698fdf625d1543d57b28cda30000000000000020614ea0bf10c0d6bdb4af908e307e26bd84,
  0x4bd5c6e0c64c550000000000000020484b2b58ee012f40af61369da56b0e5cc894e74ca99eaeedc70aab37837e3f50000000000000002027,
  0x14f0590d72a41a4ecacbe36edb18a56a5b152027facd230000000000000020430e1a5bd527f01c16b52b075272003c620519bd5589a24a84,
  0x000000000000204ebe473ff4b3ea4bf5b00c98bd3ced1708ae68cd17af3fe9b00f2835932c3bdb0000000000000020170e2cdbc26abfadfc,
  0x14e4f20e5d9ee167f6294e7f496fc7000000000000002034e4dc2142b2bbba4d9d0a92e7b1891b3232347297bc9fed79d86e987be4b38f00,
  0xc29778a0dbe2285fa44e18c0af73c61577a98c70f3a2226c5f025e45f54a8900000000000000203bfa8f46c4b73aacbefa61675977d59875,
  0xb01344e5bbfa7e00000000000000206cc49eb15e21126a72e877373b75241932c8b243dca9b0dc8ede827e1bfb5a8c00000000000000202c,
  0xbfe352588a79e601627e4f6933359e932408676ebc923c0000000000000020069cdc5a158b5c5728e607139836664175f508b1b259b72478,
  0x000000000000204e018177eee263ccf03bf4bddcea538d1cc6ce51f954778a4d62bce10a77ad88000000000000002068aba65c1b2511a854,
  0xc91ada6d660bbcff0e63bbb9c324b6000000000000002046fe0a55a51d12402ae334f35d994d0fd7a0fdee46f62d32708df0656c46230400,
  0x9855066961fa04438d39f688777abed848bd8f7761b8baa4f9ae7161f2c56100000000000000205798b2c0cf5dbef027042da866cbbbad6c,
  0x6022b42b3a902c000000000000002018cee4980b202e4df216768910575828f1bc154a82ec8f31b8839b3095d5336c000000000000002038,
  0x8136842f3bdf08079c82c89a366796e07f24530ac68475000000000000002042a4c203a8373b8bc3f9044c64d9c224b3213e0112e20a5bf4,
  0x000000000000202bef2edbff6e42d18a79e870d6bbf3e394b64f700fb8c4f3548450208b5b8849000000000000002025ffe5193034e48c3f,
  0x6ec5037671803b7af72b44802f9b560000000000000020034ac728359f73cec8b4b517d5a07b4510083b688f63283201d64375133898d200,
  0xf28a6128ee10c9ad377d61a619be5101a3d351520c39478dc937d12e2bb1c500000000000000200b0d8ee973a6c133d05f97dbd02c30fe2b,
  0x437b4b611af3da000000000000002069455feb5acfe9755b1fe9ae6a8d157183b00bb215ba1caa1bb16c6d860e8b28000000000000002065,
  0x2ee6bbad0cf3db085150e80d3d780e715bb3e653469cf700000000000000203701adbe06c3a22d3a2e096dfb9263918cbd903810e2afe928,
  0x000000000000202625fd6e15b222bdf136990666b554feec9ff40b122b8f0dae0344a96c1049c70000000000000020597a972c0bf123f771,
  0xd1c503f6f1a0202a216c9d99c8966500000000000000206fe3b9c1d488bd0eee34b82b615a83ca6ac20b009c3f18f59e0861544dadb19400,
  0x5b060caa08df2d9894d73c313fa881c037d9ef94ae656779a8ec828db0998300000000000000202c9c816661ff71ccf55f40ef6615ddf41c,
  0xb36ddc27312adf000000000000002018a0308d9e059972216744290171a694f02780de41e247fd2efb5bac225946b0000000000000002036,
  0x357e38e132a3ef64bcc6cc8c19e7e571e681e310e167aa00000000000000204bbc243ec3c9f751a80b6039dc2c590758a9adc6ba47675ad3,
  0x000000000000203eec44dda810f07fa0104aabe559aac0e21218f0554aa7c18e759491de6ce4f500000000000000202dde654cc7a8e780df,
  0x57b0cfedf723ebb7bba7c924e694d4000000000000002027172df8eb9dfdea395eb1a6916dfcbcb692b442c5d09bcb61cd3ed5c4fbac5800,
  0x5ac7cb5e12d517ea11e11bdeb06715308b96ecefd6cb9fcbdd71a45850e7e6000000000000002042c34227fa60601eaf41198fae364381ff,
  0x159d47e5f4c96300000000000000206178c46ce67f13a09cceea2d6489c1a69907afb972512ee182d34a531bb33eb8000000000000002069,
  0x005a0f5a81e7a71738d26d5cf6e7a340f4ab314637e0d300000000000000201d18c70bdc2e839bf643220a88964e95c0865c2ba281684de0,
  0x0000000000002070c6f5ccecd05317bef84a9b3dc8108a3dc15e5f2bcb789f6d97e8321ad2177c000000000000002052f7c7026cc8ca0d6a,
  0xb8dfa499be7972c677cd71d1bc93be00000000000000203ec4afecb316ce9273ade584806462d89a54d714216cc0f2d82e23b4c245392e00,
  0x087e5880f434ad267cf1c9c358e017645a6b72fc0e092c392b7dde55bcab55000000000000002049d2514594584922e35d9ff9e80d7d2192,
  0xe6d1946ee00d98000000000000002026cc2b09532f4ea3c75863a1d3d28047fb25e7807cdc99a44a5d4e44e7b857e1000000000000002020,
  0x88304f48b2ef82a0baeaed7e7758bc36f44e5913a77f26000000000000002017bb06277884e4b42852792a1f7789a76c2e4771ea07212e9f,
  0x000000000000205b2afaea4968402e5a3f55ed07f1a20b0b1e26350d03d5d3cdb85ddb26f6e80700000000000000201e1789b0a555ee6cb8,
  0x252632d3bbeebc6ca2bb319f34ec640000000000000020431cf7f231522f8554debb728690b6d3b4dad8f48190d5ba887066793136401700,
  0xc94daecce0d0fe98894e0918143225b4a00d1bc0f2a6e52176b2cb89b9f7290000000000000020302ff3fd729c834260a14ce9e0166282d8,
  0x85ebc10eadd81900000000000000206a418eb5a2679110e3d7e299e5e11affe38511e62dc09517590bbba296d7c01d000000000000002042,
  0xfd17b52f490c6eac4d2bacdbb3fd2cdd823dd51f069b6a00000000000000203a4fbbf1d3d19d1575b6c342f6040a8f65ff386bf9e47819e9,
  0x000000000000202d27d6a083e857c49f09539accf44598a256c6f1b403b5ee32dd75d2371ffd370000000000000020016c25723424ea1ee4,
  0x11ab9dfd3c9f1d3d5711e8aa67300000000000000000201262bb4c8f0ea4ea612b9c40fcfd32d12f0515614ae6f58b4e0b1f427d272d1a00,
  0xf5ac3e3ba65cd176a212a32de023ad27f5079501118f73cfd5f8fd1747be88000000000000002006daac7bb43dd84aa727ffcece2f95b694,
  0x898df6a6909230000000000000002068b88107b3649b30d48e7c36a859061348de5915bb656f2d7e339b137d6dff1c00000000000000204d,
  0xa65e9528016ec0877165ff10bfe6c20a8ab47a28304bf00000000000000020319b58f87ffeca488559fc3779a26c2c13e054b13fc54a4908,
  0x0000000000002024c0ca7f5d42659f91e7c04908e47b98f9964076c3b9fcae4daf85ff55fa1df4000000000000002015d0a050bb067363b1,
  0x41e1ef6406df70824c517cdb40af8ebb64350c4cb0849a14a10fd7144d74884e00]

/-- the 6809 bytes -/
def abarToBarFile : Bytes := (abarToBarFileWords.flatMap (leBytes 56)).take 6809

set_option maxRecDepth 100000 in
theorem abarToBarFile_check : checkConversion abarToBarFile 11674 8192 ((List.range 27).map (4878 + ·) ++ (List.range 37).map (7926 + ·)) = true := by decide +kernel

end Verif.Setup
