import Verif.Setup.Shipped

/-!
Row 4 of the table in /repo/api/parameters/transfer-vk-specific.bin: transfers with 4 inputs.  The test of `Shipped.lean` is run on every
entry by the kernel.
-/

namespace Verif.Setup

/-- the entry for 4 inputs and 1 output: words of 56 bytes, little-endian, the last one shorter -/
def xfrFile41Words : List Nat := [
  0x0000000000000020000000000000000000000000000000000000000000000000000000000000000000000000000000000000000000000000,
  0x0000000000000000000000000000000000000000000000200000000000000000000000000000000000000000000000000000000000000000,
  0x0000000000000000000000000000000000000000000000000000000000000000000000000000002000000000000000000000000000000000,
  0x0000000000000000000000000000002000000000000000000000000000000000000000000000000000000000000000000000000000000020,
  0x0000000000000000000000000000000000000000000000000000000000000020000000000000000000000000000000000000000000000000,
  0x0000000000000020000000000000000000000000000000000000000000000000000000000000000000000000000000200000000000000000,
  0x0000000000000000000000000000000000000000000000200000000000000000000000000000000000000000000000000000000000000000,
  0x0000000000000000000000000000000000000000000000000000000000000000000000000000002000000000000000000000000000000000,
  0x0000000000000000000000000000002000000000000000000000000000000000000000000000000000000000000000000000000000000020,
  0x0000000000000000000000000000000000000000000000000000000000000020000000000000000000000000000000000000000000000000,
  0x0000000000000020000000000000000000000000000000000000000000000000000000000000000000000000000000200000000000000000,
  0x0000000000000000000000000000000000000000000000200000000000000000000000000000000000000000000000000000000000000000,
  0x0000000000000000000000000000000000000000000000000000000000000000000000000000002000000000000000000000000000000000,
  0x0000000000000000000000000000002000000000000000000000000000000000000000000000000000000000000000000000000000000020,
  0x0000000000000000000000000000000000000000000000000000000000000020000000000000000000000000000000000000000000000000,
  0x0000000000000020000000000000000000000000000000000000000000000000000000000000000000000000000000200000000000000000,
  0x0000000000000000000000000000000000000000000000200000000000000000000000000000000000000000000000000000000000000000,
  0x0000000000000000000000000000000000000000000000000000000000000000000000000000002000000000000000000000000000000000,
  0x0000000000000000000000000000002000000000000000000000000000000000000000000000000000000000000000000000000000000020,
  0x0000000000000000000000000000000000000000000000000000000000000020000000000000000000000000000000000000000000000000,
  0x0000000000000020000000000000000000000000000000000000000000000000000000000000000000000000000000200000000000000000,
  0x0000000000000000000000000000000000000000000000200000000000000000000000000000000000000000000000000000000000000000,
  0x0000000000000000000000000000000000000000000000000000000000000000000000000000002000000000000000000000000000000000,
  0x0000000000000000000000000000002000000000000000000000000000000000000000000000000000000000000000000000000000000020,
  0x0000000000000000000000000000000000000000000000000000000000000020000000000000000000000000000000000000000000000000,
  0x0000000000000020000000000000000000000000000000000000000000000000000000000000000000000000000000200000000000000000,
  0x0000000000000000000000000000000000000000000000200000000000000000000000000000000000000000000000000000000000000000,
  0x0000000000000000000000000000000000000000000000000000000000000000000000000000002000000000000000000000000000000000,
  0x0000000000000000000000000000002000000000000000000000000000000000000000000000000000000000000000000000000000000020,
  0x0000000000000000000000000000000000000000000000000000000000000020000000000000000000000000000000000000000000000000,
  0x0000000000000020000000000000000000000000000000000000000000000000000000000000000000000000000000200000000000000000,
  0x0000000000000000000000000000000000000000000000200000000000000000000000000000000000000000000000000000000000000000,
  0x0000000000000000000000000000000000000000000000000000000000000000000000000000002000000000000000000000000000000000,
  0x0000000000000000000000000000002000000000000000000000000000000000000000000000000000000000000000000000000000000020,
  0x0000000000000000000000000000000000000000000000000000000000000020000000000000000000000000000000000000000000000000,
  0x0000000000000020000000000000000000000000000000000000000000000000000000000000000000000000000000200000000000000000,
  0x000000000000800000000000000054c500000000000000000000000000000000000000000000000000000000000000000000000000000000,
  0xa7f82a6dfa8de40000000000000030000000000000000d000000000000000001000000000000000000000000000000000000000000000000,
  0x99a10b90433668000000000000003097813db910e3a5fba9f9f8d4afddaa13d19c3c92e82ccc9cb55ed1dfb858ad00f7dbe74b0878cb5d83,
  0xc1c37805cfc87500000000000000309221c9bd92340e4414453be66ad06e50e06659c0d1352213048abb003b9593f7ede5a22766435f2f56,
  0x66d9e09e0f42f5000000000000003096d04fe84d24e92e2cfdb7d4a6dec2febac89ff0b840b5c1130a7192f10a6efd791caad5f8f87618a9,
  0x87b26f110da67400000000000000308c0704b1d483d789f29f69ba050407061bdf2b92b072e54f65cea523e657cabd48b7240217e643bb9c,
  0x21564d0ce7c49900000000000000300467a32983a08a4f2156e0c7dfd4dedaae212f863524753dacbe645ed44d33d75a81bd15db65bd3d6d,
  0xb4c7e22e2723960000000000000030908bf6dbe5f2ea2a58a4a4a507c1c8bbcf976e5925cb7b5eeba9ac6cfdfe55d15c5e38be24e1e6b5b9,
  0x00000000000000000000000000003017b89f8918c4d7a6ee93a92156506e523d1f9581f695986312cb6769d4ba0d44262bc2bd5cbb584285,
  0xb7293420da85b900000000000000304000000000000000000000000000000000000000000000000000000000000000000000000000000000,
  0xd107c2b47df130000000000000003009d0b0f2ad3981efff1e1c0592ae46b4b7046281cf10bd0aec666e08db72722cd048dee2d16cbac1ef,
  0x4e557067b6f6f6000000000000003019a13b5904b699f78742462c4268bf49814624aa556838a28bbe677acb4a119d40241ba4baa95b0e33,
  0xb60aa1458f36cd000000000000003018ea93373810088339093ac229fb72a3c73be6edf31d4b8865886ab0009a356f8914dbfc8b605c6de2,
  0x077cefb897901a00000000000000308d9290a5bfade7ae610c85da801e32851587d59a14ef226d1a7d1bd0c41fefd8d5dd9b67431cf9ac00,
  0x00000000000030000000000000000596fc5ed43ff8267190399116d9685995e69a965fd024f761d0dba6e114fd8311be6374ed79ac006063,
  0x0000000000003095ae20ef5c27b578429063595cf2f3a52f76a176ec971bd5f618fc513fefc50d60aecf0f00b260f9106138ff2eb2fd1c00,
  0x0000000000003010aefc3e1bc05655362478ac53e6fa62b04ec37e55f01a1a4ec3d5352771c5b01c7061f116b8c99b2684336c8c45f98600,
  0x0000000000003002c74f1dcb9144c9d360d820807fbc4ef6a5e7d0c22bd2055e81a0c7f6bef2f80fbadaf0c6d4bde834a073448bc6093400,
  0x0000000000003015e4f162498731024696eddebe879994961468ed3759c337b59132db8d1e67c1adae5794fc41bceda9bec4cb8ce50f7d00,
  0x000000000000308ece6287ff58b584fa2f93f715bf7e06d472de630116aab1a5dcc629d96d92609d2064afdea16228fd8bba8d69dc6c5800,
  0x000000000000051955c66881cc126155567e9754164ca400a1878c7c0ba6694b8e2e5dec3fd5ddb905ffc5db8e4e7b16ac277faaa0856900,
  0xe09db580600dd900000000000000200000000000000000000000000000000000000000000000000000000000000001000000000000002000,
  0x4ac3e799f2e8ecb47001f57845bbbfd7c0070a381d364d00000000000000206141e529fcdc704e26ef0699ca82c49012c588ada0e784368b,
  0x000000000000202664991206cc6e6a144513f4c899a417ee516fa456ee3f9ec51c159ddca97c33000000000000002022a342a0964a25e0e9,
  0xd5f51db3f32699fbd047e11279bb6e000000000000002041feb67496b6e8973bb1afa6ef9bb1c0ce7b067b089b046d2903ccdd332888e600,
  0x00000000002dd50000000000001ef8000000000000101b000000000000002c00000000000080003291357ee558b50d483405417a0cbe39c8,
  0x000000000049c300000000000049c200000000000049c10000000000003df30000000000003df20000000000003cb30000000000003cb200,
  0x000000000049ca00000000000049c900000000000049c800000000000049c700000000000049c600000000000049c500000000000049c400,
  0x000000000049d100000000000049d000000000000049cf00000000000049ce00000000000049cd00000000000049cc00000000000049cb00,
  0x000000000049d800000000000049d700000000000049d600000000000049d500000000000049d400000000000049d300000000000049d200,
  0x000000000049df00000000000049de00000000000049dd00000000000049dc00000000000049db00000000000049da00000000000049d900,
  0x0000000000002c00000000000049e500000000000049e400000000000049e300000000000049e200000000000049e100000000000049e000,
  0x50aeb31d6c03dc000000000000002046c057e04d1e1fdf28253df8094d7f2921951fe2baf8a8d75a5b2b470eaae59b000000000000002000,
  0x7f4a7656a754a3a96d3945a46beaf4fe2952ee028be0d0000000000000002053c10a498900e05b671a8642b32633c71c962b7c419b741783,
  0x000000000000200d37935a049a150f82fcf98e8fa7069a349ce0dd9651fd82e0443645c1481ffe000000000000002001ee8646d3a5a36653,
  0x091196f94cf2129485c098f2af89c200000000000000202b6a6e789aba9d8636ec46e910b8adce5bcb0437a9bda2cc4eb609e581e3bd5300,
  0x5872a97fb0b381d7b149883040486f171bf7654af5abfd97d6fe4686a8b1790000000000000020092d97efb66a8824270548a7170e85187a,
  0x39511aaa3ab43e00000000000000201b933738340799d19064490f7c56590e1b96718aee30574fdad11c3fa83ac0c700000000000000200a,
  0xaa9ddbf09090925757a6166a73d11065bc2a7071ecd3a7000000000000002018845965a60f3c3360fea9e161612e02b5a3b39b0d0f32ad3a,
  0x000000000000200526cab09383d2ff9c0234cd8420e49505e3c9fb8868b91627a95f435b26220c00000000000000206e02e96dfab654e08e,
  0x7ea54818549ff1b754cb4f69faf1040000000000000020221b7b0ec9a5a5c7056adb3dec167c847a4070bd8ca272bfd9728d5cfa86887500,
  0x31e391ed3702ced49ed022db384f1516c15957e299337c3e07922d14d313700000000000000020258f10afa533f2bdb12b15297b36d4a7dd,
  0x5232324108a92b0000000000000020005ee00ae42fd4c1cd555a333de321dff818fae18cee011ae00400bf122d9795000000000000002072,
  0x5fd22652397b3af19da11d814e05b6c2b41ccfe12a820c000000000000002064877193b80c1ebccfb56caf5d507b74112368c1c4f8033c9b,
  0x000000000000206110932e6d2cb0abbecdeea02d77e361c60885eececd55d845330a0fd15e3deb000000000000002001540c8c027a667d07,
  0xba8d0dfc916cf9285ef9abfa34e8e000000000000000204b7f633d87b81b792307e49a5f82c44f26242225614b595accbe10b66ab9640f00,
  0x96b2fec07c67f27d1d7d64fda887a05646128ba0a64a804d025b27e8b81eb000000000000000200ce9acb0d3e5cb5c85aa97403ed83a805f,
  0xf68e52025620cd00000000000000200b1bdd1b5f0d206a21afa315eb442dd8be058604866cf2513c83a48a95556ca100000000000000201d,
  0x4333d114b54da409098b6beea2137460af4ecd22aa09ab000000000000002042ef7925d136059782d638099b0eac9e710c586af11c56bec3,
  0x000000000000203fba186abf2c2e66860cfd11d6a3230a2afd46198946513bcc4ad7c4671f44bb00000000000000201718468078ba5a9262,
  0xf3a490af60c48d896fe0a4ff48e33a000000000000002057b17219de23d01ffaba7416691962993931b48fa4f331f676f5ad5d42aa18b200,
  0x0b5d1da1952b07d577ba4405fba871eda85dad8cc8559a9167be381ed360b7000000000000002024af394e500b140a04313e883c85e9ed4e,
  0x4a661df99a867300000000000000201bacaf44e31a6890219ae3e2776f484f4a1be143e2f52849088f54de7bb0894d00000000000000202b,
  0xa3a82e37929203d35a59a3d3dce52145a9a34ce7d3bd1900000000000000205604c29025dfb7c168a87bd73deb1ffc6facdcf97a5b929fe6,
  0x000000000000201c86bd4ee9f3444c1601179c8594f9a10ec4fa05a01cfc41f791a1cc4003d7cf000000000000002040393949ed9eb43c02,
  0xd77caa275c6d9645e21494ed1e3a3c00000000000000202ea43902b426bceb747a0851eb8d3b69ff6237633b4d1a257b03a161a3abdaa300,
  0x997733dd39e6f66147e5268c6fd3a151b614ad2392eb2ce27a4b8d624f90140000000000000020101f22b44905ce6f0f18ae442ba8761ad5,
  0xe87f8d882f7b4b00000000000000200c25e7796ef9adcdf589415ec270c49ce28078460af0b1df1e70a07b3066c79a000000000000002058,
  0xa7ed6a1a25db6ec02aa0450622f68f26101447ce50791100000000000000204533112c3bab4bf07f3007dc441eec572190c06fbe058885a6,
  0x0000000000002046dabf53038ded0f1507528cb7405b2ec198090ac4ab40d24cce99cb2decc5b30000000000000020044c016e5d7f81f7e8,
  0x88530b0719394aadbdaf13fcb0a502000000000000002027d0964ec055bb561751b8bf9157be15c8ba6e7274748c27130ec61faf92240900,
  0x082af2c42721a438a72429f0d6bac8c475b0d52cb474031e28267cf7233e27000000000000002025bc95ec5adc95264ee662e6b5902e4655,
  0x03d5a3dda06e9c00000000000000201e325f3107c2f117df6f0d30cfef8cd8bc2ff754879245555311d9dd836b4b02000000000000002035,
  0x64d06df9b1597921aeb744728686a6a6dbdf7deb2bfe05a1cd]

/-- the 5569 bytes -/
def xfrFile41 : Bytes := (xfrFile41Words.flatMap (leBytes 56)).take 5569

set_option maxRecDepth 100000 in
theorem xfrFile41_check : checkTransfer xfrFile41 (Spec.transferVars 20 4 1) 32768 (Spec.transferPublic 20 4 1) = true := by
  decide +kernel

theorem xfrFile41_size : Spec.IsSize (Spec.transferGates 20 4 1) 32768 := isSize_of (k := 14) (by decide) (by decide)

theorem xfrFile41_len : xfrFile41.length < 2 ^ 64 := lt_of_le_of_lt (List.length_take_le _ _) (by norm_num)

/-- the entry for 4 inputs and 2 outputs: words of 56 bytes, little-endian, the last one shorter -/
def xfrFile42Words : List Nat := [
  0x0000000000000020000000000000000000000000000000000000000000000000000000000000000000000000000000000000000000000000,
  0x0000000000000000000000000000000000000000000000200000000000000000000000000000000000000000000000000000000000000000,
  0x0000000000000000000000000000000000000000000000000000000000000000000000000000002000000000000000000000000000000000,
  0x0000000000000000000000000000002000000000000000000000000000000000000000000000000000000000000000000000000000000020,
  0x0000000000000000000000000000000000000000000000000000000000000020000000000000000000000000000000000000000000000000,
  0x0000000000000020000000000000000000000000000000000000000000000000000000000000000000000000000000200000000000000000,
  0x0000000000000000000000000000000000000000000000200000000000000000000000000000000000000000000000000000000000000000,
  0x0000000000000000000000000000000000000000000000000000000000000000000000000000002000000000000000000000000000000000,
  0x0000000000000000000000000000002000000000000000000000000000000000000000000000000000000000000000000000000000000020,
  0x0000000000000000000000000000000000000000000000000000000000000020000000000000000000000000000000000000000000000000,
  0x0000000000000020000000000000000000000000000000000000000000000000000000000000000000000000000000200000000000000000,
  0x0000000000000000000000000000000000000000000000200000000000000000000000000000000000000000000000000000000000000000,
  0x0000000000000000000000000000000000000000000000000000000000000000000000000000002000000000000000000000000000000000,
  0x0000000000000000000000000000002000000000000000000000000000000000000000000000000000000000000000000000000000000020,
  0x0000000000000000000000000000000000000000000000000000000000000020000000000000000000000000000000000000000000000000,
  0x0000000000000020000000000000000000000000000000000000000000000000000000000000000000000000000000200000000000000000,
  0x0000000000000000000000000000000000000000000000200000000000000000000000000000000000000000000000000000000000000000,
  0x0000000000000000000000000000000000000000000000000000000000000000000000000000002000000000000000000000000000000000,
  0x0000000000000000000000000000002000000000000000000000000000000000000000000000000000000000000000000000000000000020,
  0x0000000000000000000000000000000000000000000000000000000000000020000000000000000000000000000000000000000000000000,
  0x0000000000000020000000000000000000000000000000000000000000000000000000000000000000000000000000200000000000000000,
  0x0000000000000000000000000000000000000000000000200000000000000000000000000000000000000000000000000000000000000000,
  0x0000000000000000000000000000000000000000000000000000000000000000000000000000002000000000000000000000000000000000,
  0x0000000000000000000000000000002000000000000000000000000000000000000000000000000000000000000000000000000000000020,
  0x0000000000000000000000000000000000000000000000000000000000000020000000000000000000000000000000000000000000000000,
  0x0000000000000020000000000000000000000000000000000000000000000000000000000000000000000000000000200000000000000000,
  0x0000000000000000000000000000000000000000000000200000000000000000000000000000000000000000000000000000000000000000,
  0x0000000000000000000000000000000000000000000000000000000000000000000000000000002000000000000000000000000000000000,
  0x0000000000000000000000000000002000000000000000000000000000000000000000000000000000000000000000000000000000000020,
  0x0000000000000000000000000000000000000000000000000000000000000020000000000000000000000000000000000000000000000000,
  0x0000000000000020000000000000000000000000000000000000000000000000000000000000000000000000000000200000000000000000,
  0x0000000000000000000000000000000000000000000000200000000000000000000000000000000000000000000000000000000000000000,
  0x0000000000000000000000000000000000000000000000000000000000000000000000000000002000000000000000000000000000000000,
  0x0000000000000000000000000000002000000000000000000000000000000000000000000000000000000000000000000000000000000020,
  0x0000000000000000000000000000000000000000000000000000000000000020000000000000000000000000000000000000000000000000,
  0x0000000000000020000000000000000000000000000000000000000000000000000000000000000000000000000000200000000000000000,
  0x0000000000008000000000000000568500000000000000000000000000000000000000000000000000000000000000000000000000000000,
  0x1b4a5a321b4e4b0000000000000030000000000000000d000000000000000001000000000000000000000000000000000000000000000000,
  0x955b748625027600000000000000300ec83773b59ad050d1abf9c1847764723422df9edf3f308843af76b640cc00cc6b853ee9a362a129d2,
  0x0013a2660fb2cf0000000000000030964c5728992d55fa642643beaa1ef45a70649fac7c1a9557924e50b587324d887ce6715aa59e44f733,
  0xc98a4740d19bf30000000000000030924b4554125f73b7713f1e4b295c66d902429ce24e0bdf22f50690b3d2c2b3ed950d795b3758c59a32,
  0x91f6a7c14bda6f000000000000003087b437362b2035b153a55b8fe1d4062414d683463809051a0e9eba709faf9a764d150127797dcd19f1,
  0x48c67c5897b3fb0000000000000030842c35fb3bb707aa3495c3089db38b92a9ca292908ae6dba80cbeae5a71a5d7f8fc521b6cccba34d5b,
  0x581a1e3b3778b400000000000000308bdac7a5daee6a9d6d7dbf625f426480d53139da7e9cc93bca6a18a9a7bcb1e6732bfa68b5810e795c,
  0x00000000000000000000000000003000e08e79d6a3c66fc6908d9972260d47f7a21b3229593f2d0629de99360005d3df1a77268d26ba104d,
  0x6c5f8cfca15ce600000000000000304000000000000000000000000000000000000000000000000000000000000000000000000000000000,
  0x136efe1fef1b6d00000000000000308d7ddad338bda4cadfccc04cd5ff8659c41dc00a4df2279839b35f9818cb201f03d7baae1279ae4642,
  0xc50927dff9cab600000000000000300839c51ff391d96a636f74cfc765bc772c8c972c0d5cc5f2d757ad99dd4535e2145b09933f42444d2f,
  0x23d416867ee83c000000000000003016fe7c8f20c8fc2e37e31e19ac8c23cbcbaf89b2b23be6bb70395d4ca1ce551f61592b48e9de06f14b,
  0x14c54904fddf1e00000000000000308c9b09d9be3971eb4faee5c06420cba4c338962d1c02cff395e17947c403cfcd66b7fb727e00d9bae1,
  0x00000000000030000000000000000596565feb2f41f01e56047f65dc98c77c5403cf9957f049ad39a6093c7fb1b88bf3ae627ea3ffb5e729,
  0x00000000000030933597c7870cf24b233f48ffb505a8ca201abf027f39d2b0da21aa492fdaa02305fd566161047dde1d4f42b4e9f4012d00,
  0x0000000000003097d90b361e172034883c63d4c506bb66d6db95af59dc0e1c71112856e18eb5db809719ff530f00d2433ca17f0fe5915800,
  0x0000000000003015206fa0d30aa935ece5ec832a3f42932fcd29f6fd0f90cfbfae40912b31e06b491e3accdd4e06f9a0dc557c85e38c9400,
  0x00000000000030153a9b1d63af9536c5c18d1a70adfe67880353c644f777718d190e770933dd0a991cd125e6d2a6c3a096cf74ebfa3c8a00,
  0x0000000000003084ac4ee2ae7f56fb2018b3a3cf26f249160822c070ece41cd807c21b069f6898fd69c30151ede5d1a3dae941903da41200,
  0x000000000000050debd1956b5543f638b3f9b84bd7e5ba1eaca0c43f15b6f179d1596cebb82bb114d4b9e67e67151553bb901556d2d58700,
  0xe09db580600dd900000000000000200000000000000000000000000000000000000000000000000000000000000001000000000000002000,
  0x4ac3e799f2e8ecb47001f57845bbbfd7c0070a381d364d00000000000000206141e529fcdc704e26ef0699ca82c49012c588ada0e784368b,
  0x000000000000202664991206cc6e6a144513f4c899a417ee516fa456ee3f9ec51c159ddca97c33000000000000002022a342a0964a25e0e9,
  0xd5f51db3f32699fbd047e11279bb6e000000000000002041feb67496b6e8973bb1afa6ef9bb1c0ce7b067b089b046d2903ccdd332888e600,
  0x00000000002dd50000000000001ef8000000000000101b000000000000002d00000000000080003291357ee558b50d483405417a0cbe39c8,
  0x00000000004b010000000000004b000000000000003f320000000000003f310000000000003df20000000000003cb30000000000003cb200,
  0x00000000004b080000000000004b070000000000004b060000000000004b050000000000004b040000000000004b030000000000004b0200,
  0x00000000004b0f0000000000004b0e0000000000004b0d0000000000004b0c0000000000004b0b0000000000004b0a0000000000004b0900,
  0x00000000004b160000000000004b150000000000004b140000000000004b130000000000004b120000000000004b110000000000004b1000,
  0x00000000004b1d0000000000004b1c0000000000004b1b0000000000004b1a0000000000004b190000000000004b180000000000004b1700,
  0x00000000004b240000000000004b230000000000004b220000000000004b210000000000004b200000000000004b1f0000000000004b1e00,
  0x0000000000002046c057e04d1e1fdf28253df8094d7f2921951fe2baf8a8d75a5b2b470eaae59b0000000000000020000000000000002d00,
  0x6d3945a46beaf4fe2952ee028be0d0000000000000002053c10a498900e05b671a8642b32633c71c962b7c419b74178350aeb31d6c03dc00,
  0x37935a049a150f82fcf98e8fa7069a349ce0dd9651fd82e0443645c1481ffe000000000000002001ee8646d3a5a366537f4a7656a754a3a9,
  0x85c098f2af89c200000000000000202b6a6e789aba9d8636ec46e910b8adce5bcb0437a9bda2cc4eb609e581e3bd5300000000000000200d,
  0xbbf9ba91e6f8c1d6a685a702bc2c50ed010d3718011cc10000000000000020092d97efb66a8824270548a7170e85187a091196f94cf21294,
  0x000000000000206553d026cb01f7d25eac524f47be8b6856b7b0f8943bf42689c7666d628bfae500000000000000201e7a019436f2343ef4,
  0x34e4226dd177b840fb9a73d922c8fd0000000000000020282be73f83bed08aaee362b1e15054742984f60a94aa9f52baf377e450be65c100,
  0xf27f27a3210d452d58c80ed3437fbf580b25335ee55059bd2249194dc7c6af000000000000002017175d86c0344167add3c8ade9ab06bda8,
  0x0739220638b5bb00000000000000202b2eb85e5e34235d2bb5a6c4bcb4e8f91b7e6124fb3b6415b099676eac9f6536000000000000002068,
  0x3af9fe14a1fde08345d0b1becb13ad6ce8d5247b2bcf57000000000000002031e06f5f310b05edeebc25a9f2a37e6e993b1972faa845d210,
  0x000000000000200e4854d3d99e87d65e1ac86bf50951d590155063224f1b00e5bf87720368cd4d00000000000000205785b70ecfeda5736d,
  0x86dc3188aa8d33bd34709c82c2a16f000000000000002053e6b44b9573fc4b3f17ff3e60655bb50e98f796b5685bca99379af864b568c900,
  0x59772b5a6cba1d81ca5367d5212ca2d1a2d1c09353aedc269fb7dfd451431300000000000000200c73ff61b15fb628788187ab9ba598670e,
  0x969cf58c01016000000000000000206943d46067f0000d7424a0bf460813505e63c3d165138eff89b752a6c08940bf000000000000002002,
  0xc026c6ac443c7eca0fd2ee948d7133973db54396e8efe500000000000000205dca2e2d7f1bf52aa7545a470f464543fec00b7a2dfdcd4e0b,
  0x000000000000200fb1f9df3699bfffcf4f58b04294f9c2f04f33312eda6624f33ecde11e4b6eb3000000000000002013aa1440a43f40a97b,
  0x6d219292e386bd014cc4dfc63f9a000000000000000020601416acfdc2e2290a6046acaafda57fa6e008e4013337fa31476fa968b5ff9600,
  0xfcf4eb993bc420ea6918d42d97b7ae4822e6722b211dedae81b2d655d4fbb600000000000000201f635a59bb4710bc3cf4eca7a05d328f3c,
  0x218b480283a10200000000000000201ebde81f50facf8d5944d3b54948b8baad1caa249c222b639bb310dfb3fc676500000000000000206e,
  0xbe2cb144ac7042c44713c0342ae51717c5ada0d1a539eb000000000000002061ff61ca6da593f523f226ef1b6f97dd950c3bfde6cdfbb76d,
  0x000000000000202ac884c99b755205ffa25a98b90208e8c554c4221f4329ca3842605e7ddeb48f00000000000000205ed38b99e06b0d60e0,
  0x43a32647e462b37d2b2a892ff4ba71000000000000002006eff0b715f908ecd79bdde22268888bb5d965868c94373eef8ec05a149b91f800,
  0x18e670cd3baa3326d261baef6690e6eecd0a4796dbdaac5a1d4f620ff3996d00000000000000204e802bfdf4f247fd121ed1486b60369c8f,
  0xbf06e7584227bf00000000000000200a8c7945fac7ef9591aaf62718d544d3edff199f5078f83a471c7e68c069e6d5000000000000002025,
  0x3912967e8a37abea00eb75a391c1d77dd2d8921aa5d06d00000000000000201450f4c7a03e220b9b99c64842c26f1901de8cfa4ad2545bc7,
  0x000000000000200c554470ba85f1062c4cb65f2af3017963bf7f83fb25f788124ebf2a635466d400000000000000205512fb245a37cdf0ae,
  0x5d8b039abe41fbce365ac8af1801a800000000000000203c264aa2289ad667b915e1180434cfaba20efaffcabb720cd586201b4b8eb1e500,
  0xa4f902fd94e037046bb19f7a0001bff7b10762b96bb3c3fd8180cd31adb26400000000000000204e8b5c5ffa085dc860340078ee4bc7715c,
  0x5295ff197b56cf000000000000002042e448e37c6eaf495ac32b78b86d2f5e3f1a115de61d8ec17e4b941757be5b1400000000000000203c,
  0xdcc2905d7217557f94a2b7a63cea3f47d96519d817df2e000000000000002005721faf0ebfaa1b2cbb3b6f2c4040f0b40cfb8fd907625cbe,
  0x00000000000020549a5b9025ab44bf40d79f379243973105ec610cd2b5e90dcf83917ec7e2a8ae00000000000000204ab9c9d9479428f1cb,
  0xd305be6fa94271f86d07a6c0027ec5000000000000002056d0b7920a34dbc701efd6d7f434dece7f3bdb6ca59f7255e395fcb97ee482e900,
  0x084201f14cf3a78a8c4a3c816321eba21a]

/-- the 5617 bytes -/
def xfrFile42 : Bytes := (xfrFile42Words.flatMap (leBytes 56)).take 5617

set_option maxRecDepth 100000 in
theorem xfrFile42_check : checkTransfer xfrFile42 (Spec.transferVars 20 4 2) 32768 (Spec.transferPublic 20 4 2) = true := by
  decide +kernel

theorem xfrFile42_size : Spec.IsSize (Spec.transferGates 20 4 2) 32768 := isSize_of (k := 14) (by decide) (by decide)

theorem xfrFile42_len : xfrFile42.length < 2 ^ 64 := lt_of_le_of_lt (List.length_take_le _ _) (by norm_num)

/-- the entry for 4 inputs and 3 outputs: words of 56 bytes, little-endian, the last one shorter -/
def xfrFile43Words : List Nat := [
  0x0000000000000020000000000000000000000000000000000000000000000000000000000000000000000000000000000000000000000000,
  0x0000000000000000000000000000000000000000000000200000000000000000000000000000000000000000000000000000000000000000,
  0x0000000000000000000000000000000000000000000000000000000000000000000000000000002000000000000000000000000000000000,
  0x0000000000000000000000000000002000000000000000000000000000000000000000000000000000000000000000000000000000000020,
  0x0000000000000000000000000000000000000000000000000000000000000020000000000000000000000000000000000000000000000000,
  0x0000000000000020000000000000000000000000000000000000000000000000000000000000000000000000000000200000000000000000,
  0x0000000000000000000000000000000000000000000000200000000000000000000000000000000000000000000000000000000000000000,
  0x0000000000000000000000000000000000000000000000000000000000000000000000000000002000000000000000000000000000000000,
  0x0000000000000000000000000000002000000000000000000000000000000000000000000000000000000000000000000000000000000020,
  0x0000000000000000000000000000000000000000000000000000000000000020000000000000000000000000000000000000000000000000,
  0x0000000000000020000000000000000000000000000000000000000000000000000000000000000000000000000000200000000000000000,
  0x0000000000000000000000000000000000000000000000200000000000000000000000000000000000000000000000000000000000000000,
  0x0000000000000000000000000000000000000000000000000000000000000000000000000000002000000000000000000000000000000000,
  0x0000000000000000000000000000002000000000000000000000000000000000000000000000000000000000000000000000000000000020,
  0x0000000000000000000000000000000000000000000000000000000000000020000000000000000000000000000000000000000000000000,
  0x0000000000000020000000000000000000000000000000000000000000000000000000000000000000000000000000200000000000000000,
  0x0000000000000000000000000000000000000000000000200000000000000000000000000000000000000000000000000000000000000000,
  0x0000000000000000000000000000000000000000000000000000000000000000000000000000002000000000000000000000000000000000,
  0x0000000000000000000000000000002000000000000000000000000000000000000000000000000000000000000000000000000000000020,
  0x0000000000000000000000000000000000000000000000000000000000000020000000000000000000000000000000000000000000000000,
  0x0000000000000020000000000000000000000000000000000000000000000000000000000000000000000000000000200000000000000000,
  0x0000000000000000000000000000000000000000000000200000000000000000000000000000000000000000000000000000000000000000,
  0x0000000000000000000000000000000000000000000000000000000000000000000000000000002000000000000000000000000000000000,
  0x0000000000000000000000000000002000000000000000000000000000000000000000000000000000000000000000000000000000000020,
  0x0000000000000000000000000000000000000000000000000000000000000020000000000000000000000000000000000000000000000000,
  0x0000000000000020000000000000000000000000000000000000000000000000000000000000000000000000000000200000000000000000,
  0x0000000000000000000000000000000000000000000000200000000000000000000000000000000000000000000000000000000000000000,
  0x0000000000000000000000000000000000000000000000000000000000000000000000000000002000000000000000000000000000000000,
  0x0000000000000000000000000000002000000000000000000000000000000000000000000000000000000000000000000000000000000020,
  0x0000000000000000000000000000000000000000000000000000000000000020000000000000000000000000000000000000000000000000,
  0x0000000000000020000000000000000000000000000000000000000000000000000000000000000000000000000000200000000000000000,
  0x0000000000000000000000000000000000000000000000200000000000000000000000000000000000000000000000000000000000000000,
  0x0000000000000000000000000000000000000000000000000000000000000000000000000000002000000000000000000000000000000000,
  0x0000000000000000000000000000002000000000000000000000000000000000000000000000000000000000000000000000000000000020,
  0x0000000000000000000000000000000000000000000000000000000000000020000000000000000000000000000000000000000000000000,
  0x0000000000000020000000000000000000000000000000000000000000000000000000000000000000000000000000200000000000000000,
  0x0000000000008000000000000000585100000000000000000000000000000000000000000000000000000000000000000000000000000000,
  0x957acf0d098e730000000000000030000000000000000d000000000000000001000000000000000000000000000000000000000000000000,
  0x3ad188806f5e4b00000000000000300af34cdcf4aa66c12e1627066094363d9b5d719e682e1904a41decb3079c59bdefff1f00f96c1c0181,
  0x5c32f77660d923000000000000003005f541d17863fcb253ae1ea923041232380d5c4075cd06fdccf5ee5762b7722eed7cbffaa9f11ca883,
  0x86ded5b598821300000000000000300dc7315822f507a991c893723b57b87cff606403c71428868934d4547fbc1ec4b0ca1a0153481f86d2,
  0xe01846c30ff676000000000000003010b8a6466ae295ba8bae048f8dffbb77b9fc2852e123422daac58ba5b55d4f9e92c274506aebcf70c3,
  0x7371b2cef35317000000000000003009ff923682f9e5246df99c9c805fed73c8de44a7b893f945aa5d7ec05b0c6849881196bcc965d98b52,
  0x7ee691aeafe418000000000000003086a034713871b9bb9526e2256cc2bdfdb15e741c1e942e618cb2462d3ae383dd15f2634b023faa95ef,
  0x000000000000000000000000000030193008cbf2d53d3895b7b84f87d11e5d48155d067e0766250b8fd10881df74fa38d2aa63048bf0577a,
  0x6725248ec4d7a100000000000000304000000000000000000000000000000000000000000000000000000000000000000000000000000000,
  0xb3ec5fe857867200000000000000308670e4e074d89cffb428a0ca20224a09ba8a358efa199fe5e1e05f49b5ded2a240ce9a183cf3883111,
  0x8cdb920fa08f99000000000000003004e9b0c589dc15efffe5c6b80baafbbb00eb9d2a584a0f20438ebd902b73aac24bb5bfac2305d478d7,
  0x6891cb31b5f22c0000000000000030105a067427f9f2ddadc2c7ce02b130ded3052a853875963294914855f64cebe09c2d9bf33cfc203d8d,
  0xd6f8ce162d17d100000000000000300be07d6c90c33738a661526dabf1c311145a732d13de1a11af8a6cae0702b25bb5aa15cf3807d74b9d,
  0x00000000000030000000000000000585f620c36ee2b3e29312e23b13483f9659ae4a49e44c617d3cb05fdb9dbc6db757b6e8adc085f1c741,
  0x00000000000030076e3470a100f97d44025ec155f56ca235ed1e117874b750a759ee8c8afea3a36d1c8cc46c1a58ac70f3717b82e15e1900,
  0x0000000000003093049863b57dd50e457b421db0e218d191ade52529cdeeee09a27c7a63f5bb438897b1b81a04b2427e17774b5bacb2d300,
  0x000000000000300bdb7e17117b8e8057ac7508e3461bc971296304ef2dabbe7734d0470f3491623d262415832397915c2082519fd8a86c00,
  0x0000000000003006d044590151dca3efcb3f17bdb8097e44d7846ad39d839e9fb30a2869e96923c1d9c4cc646ee0ae47bbe4fe4b39ecf100,
  0x0000000000003092702f2e8c259811f4fc9d008e8ec876c84312e3e8cf01f1be58cc43a86d97b13bf631cbd78eb0791f8fc139c9c324ad00,
  0x000000000000051591fc971fdd3e423dd38c3cdcf712ec57536404eb25ce599902ff7bbec6a08ac063d73970632470b0bb5d7b88ec221f00,
  0xe09db580600dd900000000000000200000000000000000000000000000000000000000000000000000000000000001000000000000002000,
  0x4ac3e799f2e8ecb47001f57845bbbfd7c0070a381d364d00000000000000206141e529fcdc704e26ef0699ca82c49012c588ada0e784368b,
  0x000000000000202664991206cc6e6a144513f4c899a417ee516fa456ee3f9ec51c159ddca97c33000000000000002022a342a0964a25e0e9,
  0xd5f51db3f32699fbd047e11279bb6e000000000000002041feb67496b6e8973bb1afa6ef9bb1c0ce7b067b089b046d2903ccdd332888e600,
  0x00000000002dd50000000000001ef8000000000000101b000000000000002e00000000000080003291357ee558b50d483405417a0cbe39c8,
  0x00000000004c3f000000000000407100000000000040700000000000003f310000000000003df20000000000003cb30000000000003cb200,
  0x00000000004c460000000000004c450000000000004c440000000000004c430000000000004c420000000000004c410000000000004c4000,
  0x00000000004c4d0000000000004c4c0000000000004c4b0000000000004c4a0000000000004c490000000000004c480000000000004c4700,
  0x00000000004c540000000000004c530000000000004c520000000000004c510000000000004c500000000000004c4f0000000000004c4e00,
  0x00000000004c5b0000000000004c5a0000000000004c590000000000004c580000000000004c570000000000004c560000000000004c5500,
  0x00000000004c620000000000004c610000000000004c600000000000004c5f0000000000004c5e0000000000004c5d0000000000004c5c00,
  0xc057e04d1e1fdf28253df8094d7f2921951fe2baf8a8d75a5b2b470eaae59b0000000000000020000000000000002e0000000000004c6300,
  0x2952ee028be0d0000000000000002053c10a498900e05b671a8642b32633c71c962b7c419b74178350aeb31d6c03dc000000000000002046,
  0xfcf98e8fa7069a349ce0dd9651fd82e0443645c1481ffe000000000000002001ee8646d3a5a366537f4a7656a754a3a96d3945a46beaf4fe,
  0x000000000000202b6a6e789aba9d8636ec46e910b8adce5bcb0437a9bda2cc4eb609e581e3bd5300000000000000200d37935a049a150f82,
  0xa685a702bc2c50ed010d3718011cc10000000000000020092d97efb66a8824270548a7170e85187a091196f94cf2129485c098f2af89c200,
  0x220a2251c4645e6b9574587073af6059a172188407b24b68b6adc15570ab5200000000000000201e7a019436f2343ef4bbf9ba91e6f8c1d6,
  0x630dc561e2229700000000000000201681ebe9471d922986f8bbcf759a587f0d94fe84646aaec0439ac6fee6e35c3100000000000000203e,
  0xa6f281b964dadfeea8faf21a638ed8574550f51eca3369000000000000002041bd63cf61083faab5f8d1b608588d485efa794ab19c03e8cb,
  0x000000000000202a88c7dd76e1aa61ad98472f64058cec30191c8715eb2b1958c1b7ec3f1825e5000000000000002026d9e158e5229dd323,
  0xbe8ea7a3ed9b06d3c83c456603c6d000000000000000201275ee0001207e7275870c69ddd718a5b3371739fafe8137649c9c10ca414a3400,
  0x12cad63b804bd02bd84da7695ac397322539d32a67abbb71c2aacde0df8fd400000000000000205888126880d88ae7aa6fa68711a0e9b5db,
  0xd5234cb0bc710800000000000000203e5d039d20e9ca1ef6edbd3b695a50f72740dd2e0190eef3d6874372adb9066f000000000000002012,
  0x6af5369314d2ab8edaf4390c232c4d8a2137758a7b3e4e00000000000000203f69df0ab9d2f8ff7b5ac9bbbe128f246348f8f2bf6670cf7e,
  0x0000000000002067b5c415548019fd2c18acc7dbd5e213174f817195612d91e112f570f8319316000000000000002061b5a51a0f4ab0613d,
  0x95b9bb8b60a1ef1295a77176742051000000000000002054860e776c8f9d7d148ff9aafbb6bf06cb0fe497c0b58cc2d8e9ba31776f7f4c00,
  0x230d1fab600e7defdaf4dfb8e9ce5e29aa8e1de68dbb37973544731ba604580000000000000020362156aaa87dd429139204f12a532b7535,
  0x73c94220115b6c000000000000002022bef50bbb020f3d8bd3b21845c51f07e8a21bf99bb65d291a96c547c9feb349000000000000002072,
  0x6b2176035f9d7ebcff56d86f161c89d253c7f6d029cdcf00000000000000202fa28093d152ae2c79d13d5e82018bd74ccd64b1953a774c7d,
  0x00000000000020411c5a83964edad16fbfd115b85350df77b7a2cf9037c38848f6b832d9363d8600000000000000205f9448c852b0d25aa4,
  0x08e09b9851962103278917407a7ee8000000000000002030aafba4c79459e50a3a792831b7b147171b033405eb66fa2c03ca0d24cb0ef700,
  0x0916034ab234f98a9925e0a7b19834bea37aef563859bf8b79f83fccaf7dbe0000000000000020669d0760e02c56c99988d20668f30db426,
  0x761ba5def92ce400000000000000202c47a90ad2c5916966c6138fa4f99fcd9d751eeaa530057b65ef60465956d691000000000000002073,
  0x559d81687446062c5f5f624a50d1ce9268446de1fe292f00000000000000202a34a0dd1b140e40a035b8a6bc54d848217bf61d65eebefb1e,
  0x000000000000206e9e69ad6b6e63722913ef0c1fb9f609ea2d0942af7338f81ecbfad7bf2298a4000000000000002060273b33daefba2594,
  0x34a23d4396feb819fd8a535fd25bf200000000000000204a5d40f537a1ba61c8e5339006d7b4ecec39dd64081aa0b0ec5595b6b215a31700,
  0xf3b4848504eb515388d420f04b488514bd180b134cd8073b1333240e7a1df700000000000000202bfa0da67b952dfd3c8d0e5bd8c66b6772,
  0xc54f8561e55fe5000000000000002037876efebe2dabb20349058e00b3cfac8fc49a0948bcf00f405d2e7967103d66000000000000002007,
  0x54758c37653ef5842c25655c3bad87db17c096d17d52a300000000000000203f3670f08faaac5f9134a0e92c9d7c76e153184369afb0ef38,
  0x000000000000204d5d59b72f379f5723e026a0eaa8d63337b6abc6678000355c090c18c2da998b00000000000000206222e35c876d16803e,
  0x1f522b506e19dbfc750bcda3fb642c0000000000000020124bba1a795cf480f3aa5500f4ce92a8f2ed47ce5af2290c63c348c02727d61d00,
  0x3127ac5788449a9cba1dcdcedd49064cb22c90f72a6c3723b7a09f86fed6a300000000000000200749903b0d513e94fff80cb621cf821172,
  0xa2a648857deb3c00000000000000200ba641cd6df6075a88a5cf913b56b4a27c956126689689e9e42e5d4f2d2edb0900000000000000201b,
  0xb7d1daf4eb5c5f3e468c6e46ec5e5cfa4b17b74f9b116b000000000000002052374401d9098dd4b72bfe30e259c824544f7630fe8f1cd505,
  0x2220c137f3d2fd4ec8]

/-- the 5665 bytes -/
def xfrFile43 : Bytes := (xfrFile43Words.flatMap (leBytes 56)).take 5665

set_option maxRecDepth 100000 in
theorem xfrFile43_check : checkTransfer xfrFile43 (Spec.transferVars 20 4 3) 32768 (Spec.transferPublic 20 4 3) = true := by
  decide +kernel

theorem xfrFile43_size : Spec.IsSize (Spec.transferGates 20 4 3) 32768 := isSize_of (k := 14) (by decide) (by decide)

theorem xfrFile43_len : xfrFile43.length < 2 ^ 64 := lt_of_le_of_lt (List.length_take_le _ _) (by norm_num)

/-- the entry for 4 inputs and 4 outputs: words of 56 bytes, little-endian, the last one shorter -/
def xfrFile44Words : List Nat := [
  0x0000000000000020000000000000000000000000000000000000000000000000000000000000000000000000000000000000000000000000,
  0x0000000000000000000000000000000000000000000000200000000000000000000000000000000000000000000000000000000000000000,
  0x0000000000000000000000000000000000000000000000000000000000000000000000000000002000000000000000000000000000000000,
  0x0000000000000000000000000000002000000000000000000000000000000000000000000000000000000000000000000000000000000020,
  0x0000000000000000000000000000000000000000000000000000000000000020000000000000000000000000000000000000000000000000,
  0x0000000000000020000000000000000000000000000000000000000000000000000000000000000000000000000000200000000000000000,
  0x0000000000000000000000000000000000000000000000200000000000000000000000000000000000000000000000000000000000000000,
  0x0000000000000000000000000000000000000000000000000000000000000000000000000000002000000000000000000000000000000000,
  0x0000000000000000000000000000002000000000000000000000000000000000000000000000000000000000000000000000000000000020,
  0x0000000000000000000000000000000000000000000000000000000000000020000000000000000000000000000000000000000000000000,
  0x0000000000000020000000000000000000000000000000000000000000000000000000000000000000000000000000200000000000000000,
  0x0000000000000000000000000000000000000000000000200000000000000000000000000000000000000000000000000000000000000000,
  0x0000000000000000000000000000000000000000000000000000000000000000000000000000002000000000000000000000000000000000,
  0x0000000000000000000000000000002000000000000000000000000000000000000000000000000000000000000000000000000000000020,
  0x0000000000000000000000000000000000000000000000000000000000000020000000000000000000000000000000000000000000000000,
  0x0000000000000020000000000000000000000000000000000000000000000000000000000000000000000000000000200000000000000000,
  0x0000000000000000000000000000000000000000000000200000000000000000000000000000000000000000000000000000000000000000,
  0x0000000000000000000000000000000000000000000000000000000000000000000000000000002000000000000000000000000000000000,
  0x0000000000000000000000000000002000000000000000000000000000000000000000000000000000000000000000000000000000000020,
  0x0000000000000000000000000000000000000000000000000000000000000020000000000000000000000000000000000000000000000000,
  0x0000000000000020000000000000000000000000000000000000000000000000000000000000000000000000000000200000000000000000,
  0x0000000000000000000000000000000000000000000000200000000000000000000000000000000000000000000000000000000000000000,
  0x0000000000000000000000000000000000000000000000000000000000000000000000000000002000000000000000000000000000000000,
  0x0000000000000000000000000000002000000000000000000000000000000000000000000000000000000000000000000000000000000020,
  0x0000000000000000000000000000000000000000000000000000000000000020000000000000000000000000000000000000000000000000,
  0x0000000000000020000000000000000000000000000000000000000000000000000000000000000000000000000000200000000000000000,
  0x0000000000000000000000000000000000000000000000200000000000000000000000000000000000000000000000000000000000000000,
  0x0000000000000000000000000000000000000000000000000000000000000000000000000000002000000000000000000000000000000000,
  0x0000000000000000000000000000002000000000000000000000000000000000000000000000000000000000000000000000000000000020,
  0x0000000000000000000000000000000000000000000000000000000000000020000000000000000000000000000000000000000000000000,
  0x0000000000000020000000000000000000000000000000000000000000000000000000000000000000000000000000200000000000000000,
  0x0000000000000000000000000000000000000000000000200000000000000000000000000000000000000000000000000000000000000000,
  0x0000000000000000000000000000000000000000000000000000000000000000000000000000002000000000000000000000000000000000,
  0x0000000000000000000000000000002000000000000000000000000000000000000000000000000000000000000000000000000000000020,
  0x0000000000000000000000000000000000000000000000000000000000000020000000000000000000000000000000000000000000000000,
  0x0000000000000020000000000000000000000000000000000000000000000000000000000000000000000000000000200000000000000000,
  0x00000000000080000000000000005a2900000000000000000000000000000000000000000000000000000000000000000000000000000000,
  0x94b1d659dc8cb90000000000000030000000000000000d000000000000000001000000000000000000000000000000000000000000000000,
  0x4af8ccc893b14a000000000000003091f7718387906108d7b89a77da284c70321630ba9cfae1dfa6c7935ef0a6669b4a986799a66a800931,
  0x9e3276a123e4db000000000000003083f75c6fcccf3bcd9434819dba50a6a15d3786be9e2eef49a8a6fd40c07e8dcfa236c16cb90976d067,
  0xa7e76353bff4b9000000000000003004f21824c14b17d268ba76ddfc0418b01489889f6e5bd1acdcb67e48e715247a69a4d1a3aad02086cf,
  0x65eafc6ff1d6ed00000000000000308d44c074c1c399b2eb4af632219e1fd482d8d3e103dff69dcbbd8744616b3cbcb5a98610d752e77e3f,
  0x90d6a44b8e56e700000000000000308176f54867d8f53efc2f1853ee2138bd872b23f86b183a20f900ea126a4e9eb833e24c406cc49b60c5,
  0x20d85f8109d75100000000000000300182d8b021f19d1f481763c3e3f47b2a641fbb9fab79a16df49a698eb50056b299e6a5bcd96212debe,
  0x0000000000000000000000000000300c3fe44e0ccbabb7aa0fceee3c0c749688879cb6bf9a4a1e081597aa70b33109d8d7ca624500bb9ff2,
  0x05ced89fcf634800000000000000304000000000000000000000000000000000000000000000000000000000000000000000000000000000,
  0xa5d69ae1a89ec900000000000000300c4d840c6680968caa64f7e6313102854aa4f726c517f4eb50affac8dba6ba59f4949649872008e17d,
  0xe2307e4814802100000000000000309059e95696fe5dc08b516deb954923ed4e85ebada023c1cb2b744dfaa0e935d6b144ab9d660bd13863,
  0x62aed050c4ae0f0000000000000030154da68b1319dbfba726cfaa7a3ff413106ad2636ad40847b63b6a0345c50e0094dfb51bec29f4d87c,
  0x3fa54321d788ce000000000000003000cdcbfa3cb6e5a680dd1d995ba896430ec4ca4dfd36f194b50f47bd68a21d7a234ba8fb54a01a4915,
  0x0000000000003000000000000000059607305aa783eb815626cff395bfac39535b852b7fe251c27a44c098773b5a9f03b453d13f957ac23e,
  0x00000000000030077b214c5ff9d9590e80d1d8d18c101592f739caf2408ddab27ac37b4984eb0130d4070cd806039fb2a3ca186300203c00,
  0x0000000000003091cd04d8275f0a2408cf2548b1de874a205577fed5fbd4b35190f77a19c60e97c6c1e947dbeb4569380696d94bb6d86700,
  0x00000000000030087fa55418b5e0ac898db30ea01908bba118ebfe3f319d6ab7f389ab0a98d0da117ae14ea98730bcf2af20e15833517900,
  0x00000000000030871ab22919bc8d0a998866b3414bb64b070290146e06c87bad7bb541294edabfb19218748b9c21e906d368ccf59ca28500,
  0x00000000000030129495027e1cf32eb9f8c45ea33827ebf1c73b1bfb0a08b4a3f2b869d317621bcc8cab417dcea84ee863039ea165c77f00,
  0x0000000000000595e2ebb45d423405c62263fe9d2df288c41df6e77c215d65ed4455448a65fae4b5491ed37a902456d4c217475be9b46400,
  0xe09db580600dd900000000000000200000000000000000000000000000000000000000000000000000000000000001000000000000002000,
  0x4ac3e799f2e8ecb47001f57845bbbfd7c0070a381d364d00000000000000206141e529fcdc704e26ef0699ca82c49012c588ada0e784368b,
  0x000000000000202664991206cc6e6a144513f4c899a417ee516fa456ee3f9ec51c159ddca97c33000000000000002022a342a0964a25e0e9,
  0xd5f51db3f32699fbd047e11279bb6e000000000000002041feb67496b6e8973bb1afa6ef9bb1c0ce7b067b089b046d2903ccdd332888e600,
  0x00000000002dd50000000000001ef8000000000000101b000000000000002f00000000000080003291357ee558b50d483405417a0cbe39c8,
  0x000000000041b000000000000041af00000000000040700000000000003f310000000000003df20000000000003cb30000000000003cb200,
  0x00000000004d840000000000004d830000000000004d820000000000004d810000000000004d800000000000004d7f0000000000004d7e00,
  0x00000000004d8b0000000000004d8a0000000000004d890000000000004d880000000000004d870000000000004d860000000000004d8500,
  0x00000000004d920000000000004d910000000000004d900000000000004d8f0000000000004d8e0000000000004d8d0000000000004d8c00,
  0x00000000004d990000000000004d980000000000004d970000000000004d960000000000004d950000000000004d940000000000004d9300,
  0x00000000004da00000000000004d9f0000000000004d9e0000000000004d9d0000000000004d9c0000000000004d9b0000000000004d9a00,
  0x253df8094d7f2921951fe2baf8a8d75a5b2b470eaae59b0000000000000020000000000000002f0000000000004da20000000000004da100,
  0x0000000000002053c10a498900e05b671a8642b32633c71c962b7c419b74178350aeb31d6c03dc000000000000002046c057e04d1e1fdf28,
  0x9ce0dd9651fd82e0443645c1481ffe000000000000002001ee8646d3a5a366537f4a7656a754a3a96d3945a46beaf4fe2952ee028be0d000,
  0x6a6e789aba9d8636ec46e910b8adce5bcb0437a9bda2cc4eb609e581e3bd5300000000000000200d37935a049a150f82fcf98e8fa7069a34,
  0x010d3718011cc10000000000000020092d97efb66a8824270548a7170e85187a091196f94cf2129485c098f2af89c200000000000000202b,
  0x9574587073af6059a172188407b24b68b6adc15570ab5200000000000000201e7a019436f2343ef4bbf9ba91e6f8c1d6a685a702bc2c50ed,
  0x0000000000002002c59cb6720c23970d68b064fa0265538af13d90d67462d31f7b951d3a691b2a00000000000000203e220a2251c4645e6b,
  0xe7c7e18c2201f2309650678656f162000000000000002008b039b2eafd631385fb871476317981882e16eccbce001d3e791b6cdc3e088000,
  0x2a86955004f844d739e65acf4ac8730fdbe1cd2f75aa79d808f330da4dda860000000000000020469ccfcf604efcdb6d41d840e4c15af844,
  0xb5cca37b2dd8a200000000000000200f095b49663fa0972cc2445bb977d37430be59a76a989d0f42b49832011ea0be000000000000002007,
  0x48dc06f756be82dce788b15ed50e0e4bcb0c947c89f87b0000000000000020214a14eb7fde0332309961650b5c0b5cb1229449c50b62f462,
  0x00000000000020525119c812bbd300b45616d4f0f5f9ea9b7144d82e48487047ac400ea8f6bad40000000000000020154cb3ae6582dbc7e5,
  0xa5b5f19cb1896e972e60ea99230652000000000000002053c434542140e54c11f426769c6111a67999e94c6e83f22341bb205a7989fd8e00,
  0x2869f013210f4da3275efa1396ae6007b4da2ea72a40cef82d76fd86b2e664000000000000002045d156c0992e66f6d4774903aac5a61cfb,
  0xebe7d5fcffd8c20000000000000020258f1c9eb4be26c2c9c28b1b5e5b4f4839faf267cfbb9abbf6b8cd57f4688415000000000000002066,
  0x865b6b9a6719b722df28915175c8637d1dd431a36edfde00000000000000204105d389667ace24864013d53ac6a839a4ef0e2c2d8ce901bb,
  0x0000000000002002ad92488257e67d48bff01a2b6309a80ea716e3d28d58f07e65a88b48dfc9b800000000000000205220904df9c47ae00f,
  0x8d7ba4749049ddac8766e46762214800000000000000204ea0198cfb2073aa1a98e68c88d76a3ab30480c0f24548f253c9dc966af1fea600,
  0xaa4b48224c1bc9612fbc44aadb2375cf7841dea4cb7eb05ab4cbffbeebf87f00000000000000203a3cec914f8df52fb221ad32ac24377230,
  0x2c7ab70de3c500000000000000002001e34908155eaf673caa4d773dae6c1da341eed890b7617bf6f14ff4eb8da1ce000000000000002018,
  0x609fa5588fa1e2fd4cd399f31e84cfc4199bd59dd1632800000000000000204517f26b0982265a2ab35d0cb9a2743d5ff86d5498f583a24b,
  0x0000000000002015cb138297d8aa35e7490a8c117fd502bf5d520e677b386f5c6d942a1a0a8b9a000000000000002026b48886cd327123f3,
  0x3eaacfbf1304a88a31cfb548b6bc6c00000000000000206927bc8f44cb1d4b1cb3c84b1a764ca2dc770df5746ad642b672a07e885a373000,
  0xe3a2aa09f770dfcfbd9ffdb5ceec5ee928da144c356d391b11e74ad59ea33d00000000000000203bc37a92866e2eb3a95ac41ef4d9cc755a,
  0xda8a9e5fd686ba000000000000002034a52329ee9c6c59bcc4b25730bac7e7e6813224b55a58c2fd84e37f68bbb3ea000000000000002044,
  0xb4d20314849fd75f7e33ce2a7b8809b3c4a40335d3c7e8000000000000002033fbb897d9cc90090d395963521f841a58800e9814c93c09e7,
  0x0000000000002027b95a15c4534470e3a7198d818ca6d28817abbd469be0b120d627c6e5574a910000000000000020097edb759c65af4214,
  0xdacdb0ebf7b011b46c05e6cd1df74c0000000000000020040a82d5e72a74b35ae354edc753449b9c9ff535e445a7bea84911b6c7cdbc3500,
  0x7828d9d7793053c2fd766f1a30392795aa7796a127815b66a8bd006147f79200000000000000200d78e91c37e15c40572ef4196f5c415dd2,
  0xa71da9afc2d8de00000000000000200b068488fb572e9562276558de6d22d6556d26f4b6a8419277f1017f6e459d7900000000000000200b,
  0x167f6b10f0f0eb9fbf5d2b912f5ecb9eab4b89e310e15100000000000000205b36f4256b87798e02df49864239bead7f69e0a8eca28d2ec3,
  0x000000000000200a82edfbf20ce23e8f6874e98d2918976d44c43dce3488f82ae5c749a7953f490000000000000020310581ae563cb31f29,
  0xcffb94b81b35a420e4f7f7aac3acb1000000000000002005e8ce9002ab0497139a2e9e898dfb2f2e554bee7379c8de01fab517a1cb039200,
  0x2908a90c7a9c6d41b1377aec21e29096687591db137e608f4ffa1284ee63fb00000000000000200f67eda75402142ad226bf3e53326825a3,
  0x4c]

/-- the 5713 bytes -/
def xfrFile44 : Bytes := (xfrFile44Words.flatMap (leBytes 56)).take 5713

set_option maxRecDepth 100000 in
theorem xfrFile44_check : checkTransfer xfrFile44 (Spec.transferVars 20 4 4) 32768 (Spec.transferPublic 20 4 4) = true := by
  decide +kernel

theorem xfrFile44_size : Spec.IsSize (Spec.transferGates 20 4 4) 32768 := isSize_of (k := 14) (by decide) (by decide)

theorem xfrFile44_len : xfrFile44.length < 2 ^ 64 := lt_of_le_of_lt (List.length_take_le _ _) (by norm_num)

/-- the entry for 4 inputs and 5 outputs: words of 56 bytes, little-endian, the last one shorter -/
def xfrFile45Words : List Nat := [
  0x0000000000000020000000000000000000000000000000000000000000000000000000000000000000000000000000000000000000000000,
  0x0000000000000000000000000000000000000000000000200000000000000000000000000000000000000000000000000000000000000000,
  0x0000000000000000000000000000000000000000000000000000000000000000000000000000002000000000000000000000000000000000,
  0x0000000000000000000000000000002000000000000000000000000000000000000000000000000000000000000000000000000000000020,
  0x0000000000000000000000000000000000000000000000000000000000000020000000000000000000000000000000000000000000000000,
  0x0000000000000020000000000000000000000000000000000000000000000000000000000000000000000000000000200000000000000000,
  0x0000000000000000000000000000000000000000000000200000000000000000000000000000000000000000000000000000000000000000,
  0x0000000000000000000000000000000000000000000000000000000000000000000000000000002000000000000000000000000000000000,
  0x0000000000000000000000000000002000000000000000000000000000000000000000000000000000000000000000000000000000000020,
  0x0000000000000000000000000000000000000000000000000000000000000020000000000000000000000000000000000000000000000000,
  0x0000000000000020000000000000000000000000000000000000000000000000000000000000000000000000000000200000000000000000,
  0x0000000000000000000000000000000000000000000000200000000000000000000000000000000000000000000000000000000000000000,
  0x0000000000000000000000000000000000000000000000000000000000000000000000000000002000000000000000000000000000000000,
  0x0000000000000000000000000000002000000000000000000000000000000000000000000000000000000000000000000000000000000020,
  0x0000000000000000000000000000000000000000000000000000000000000020000000000000000000000000000000000000000000000000,
  0x0000000000000020000000000000000000000000000000000000000000000000000000000000000000000000000000200000000000000000,
  0x0000000000000000000000000000000000000000000000200000000000000000000000000000000000000000000000000000000000000000,
  0x0000000000000000000000000000000000000000000000000000000000000000000000000000002000000000000000000000000000000000,
  0x0000000000000000000000000000002000000000000000000000000000000000000000000000000000000000000000000000000000000020,
  0x0000000000000000000000000000000000000000000000000000000000000020000000000000000000000000000000000000000000000000,
  0x0000000000000020000000000000000000000000000000000000000000000000000000000000000000000000000000200000000000000000,
  0x0000000000000000000000000000000000000000000000200000000000000000000000000000000000000000000000000000000000000000,
  0x0000000000000000000000000000000000000000000000000000000000000000000000000000002000000000000000000000000000000000,
  0x0000000000000000000000000000002000000000000000000000000000000000000000000000000000000000000000000000000000000020,
  0x0000000000000000000000000000000000000000000000000000000000000020000000000000000000000000000000000000000000000000,
  0x0000000000000020000000000000000000000000000000000000000000000000000000000000000000000000000000200000000000000000,
  0x0000000000000000000000000000000000000000000000200000000000000000000000000000000000000000000000000000000000000000,
  0x0000000000000000000000000000000000000000000000000000000000000000000000000000002000000000000000000000000000000000,
  0x0000000000000000000000000000002000000000000000000000000000000000000000000000000000000000000000000000000000000020,
  0x0000000000000000000000000000000000000000000000000000000000000020000000000000000000000000000000000000000000000000,
  0x0000000000000020000000000000000000000000000000000000000000000000000000000000000000000000000000200000000000000000,
  0x0000000000000000000000000000000000000000000000200000000000000000000000000000000000000000000000000000000000000000,
  0x0000000000000000000000000000000000000000000000000000000000000000000000000000002000000000000000000000000000000000,
  0x0000000000000000000000000000002000000000000000000000000000000000000000000000000000000000000000000000000000000020,
  0x0000000000000000000000000000000000000000000000000000000000000020000000000000000000000000000000000000000000000000,
  0x0000000000000020000000000000000000000000000000000000000000000000000000000000000000000000000000200000000000000000,
  0x00000000000080000000000000005c0d00000000000000000000000000000000000000000000000000000000000000000000000000000000,
  0x0282c0801f4dd30000000000000030000000000000000d000000000000000001000000000000000000000000000000000000000000000000,
  0x27dba592ec03c600000000000000308a9adccc5d95b2ee90c0b993679c6ddc6cf575471278050362df5cb77746f638b7a0d8dfca4d7459e0,
  0x016aed536aa15d00000000000000308d58cd5f5dcfaf7a55fed0d5f85665911ecb5367bf2a711c7a026c28ac55c16897e002479d24aa75aa,
  0x9df6a711dfdf950000000000000030032a35553b93d3e868e3d64541db18ecd45e54a393a4ebe794fe994cd6f2443caad4a4ac04f8a4974f,
  0xd60ea2a149635e000000000000003081262ec0dbf01bd78784a60b6a64d4844852f29493139eb3a8c37717d207e593e7822dd25ff39c34b9,
  0xadfbc39cff9a9e000000000000003011700ec39ecf8d58dc876d0f0f960ed23511fa87565239fd2294ce56b20a5a96df41f66d5cb5df5f98,
  0xdf457899e2f54e000000000000003013c069c709d88ed17777c1006351124cde7e7ea740efce1f3288f009b9b04f95271b256bbf6a726e2a,
  0x00000000000000000000000000003083f0d0225d1017ff30d245602f12dc21ddc604dedbc47c6979fb66a7ec3c52a51eccfd6a99a8ab156d,
  0xb9382ea1a6a03d00000000000000304000000000000000000000000000000000000000000000000000000000000000000000000000000000,
  0x3498092def65ed00000000000000300d4358adb04bf4f0368240408ee8e6cdf5096f4166b316c9348007c064e008deb7427e9b1046ebd87f,
  0x9e09786faf476e00000000000000308e0d709e5065c1c2b0df3d60e102cd0cec7a7f982dfad9d17df3763254a73a4561e6b7963b9711ce60,
  0x80851184914e58000000000000003018bdf421169f6aeb333a0b3406954e6db28c894b303cdf15ca845e87f08ef7588f7e0bb001fcdc999b,
  0x067dfe1cf81909000000000000003089496933cf8c0a1ac836106066b5deb2080b221d1ee634919de424a113fa7c579f61b0ddafb58f00ff,
  0x00000000000030000000000000000506ebe703a4cdc3f477457c7142b6166a95cb058a442b04a905b93975806b42717f43c54a9c896a5944,
  0x000000000000309448f5a2f42aebc83a18c6fb774bdeade4f1776f03370af7681a8eba8adddbf8f82ebaf867339920d26bfb031646588200,
  0x0000000000003099e64e009d518a14e6b9a2b2f34ce0852fee77b02ae54cdccf5bb176378a22f25b7467563121210dcc24aa1d7ffdcdbe00,
  0x0000000000003008f71f831bec679c3e28a59a30a9932cc4af7f41d904826fff9fa6170622fd16e73e30916860d142497c15d7c877cd4600,
  0x000000000000308fee916662914bcdd8f9c30cbe8e912d2dcef6131c557d9c99ef135f6cb0b1368fa150fa3379fdb383471b087d9ad13b00,
  0x0000000000003014f18ce89742bfa40fdb3339f8994cf16f8883240db54e0b5ba327a8b220dcf621892e1e517d778032a198060285ad4d00,
  0x000000000000058ea218f2be43d660448ac6a176cb7acf69b13137ca2ce6812ad1dc94619adac507f423a675040e5edeff218e950153a600,
  0xe09db580600dd900000000000000200000000000000000000000000000000000000000000000000000000000000001000000000000002000,
  0x4ac3e799f2e8ecb47001f57845bbbfd7c0070a381d364d00000000000000206141e529fcdc704e26ef0699ca82c49012c588ada0e784368b,
  0x000000000000202664991206cc6e6a144513f4c899a417ee516fa456ee3f9ec51c159ddca97c33000000000000002022a342a0964a25e0e9,
  0xd5f51db3f32699fbd047e11279bb6e000000000000002041feb67496b6e8973bb1afa6ef9bb1c0ce7b067b089b046d2903ccdd332888e600,
  0x00000000002dd50000000000001ef8000000000000101b000000000000003000000000000080003291357ee558b50d483405417a0cbe39c8,
  0x000000000042ee00000000000041af00000000000040700000000000003f310000000000003df20000000000003cb30000000000003cb200,
  0x00000000004ec20000000000004ec10000000000004ec00000000000004ebf0000000000004ebe0000000000004ebd00000000000042ef00,
  0x00000000004ec90000000000004ec80000000000004ec70000000000004ec60000000000004ec50000000000004ec40000000000004ec300,
  0x00000000004ed00000000000004ecf0000000000004ece0000000000004ecd0000000000004ecc0000000000004ecb0000000000004eca00,
  0x00000000004ed70000000000004ed60000000000004ed50000000000004ed40000000000004ed30000000000004ed20000000000004ed100,
  0x00000000004ede0000000000004edd0000000000004edc0000000000004edb0000000000004eda0000000000004ed90000000000004ed800,
  0x951fe2baf8a8d75a5b2b470eaae59b000000000000002000000000000000300000000000004ee10000000000004ee00000000000004edf00,
  0xc10a498900e05b671a8642b32633c71c962b7c419b74178350aeb31d6c03dc000000000000002046c057e04d1e1fdf28253df8094d7f2921,
  0x443645c1481ffe000000000000002001ee8646d3a5a366537f4a7656a754a3a96d3945a46beaf4fe2952ee028be0d0000000000000002053,
  0xec46e910b8adce5bcb0437a9bda2cc4eb609e581e3bd5300000000000000200d37935a049a150f82fcf98e8fa7069a349ce0dd9651fd82e0,
  0x00000000000020092d97efb66a8824270548a7170e85187a091196f94cf2129485c098f2af89c200000000000000202b6a6e789aba9d8636,
  0xa172188407b24b68b6adc15570ab5200000000000000201e7a019436f2343ef4bbf9ba91e6f8c1d6a685a702bc2c50ed010d3718011cc100,
  0xc59cb6720c23970d68b064fa0265538af13d90d67462d31f7b951d3a691b2a00000000000000203e220a2251c4645e6b9574587073af6059,
  0x1a47ae0c29527a0000000000000020353b59938ce09f8b8a549b38d8175dbc479e44515dfaa2f45d0be62ef04dab9c000000000000002002,
  0x85b0efff7efa08e1feb1df2cb182a17aaec0f664bbe5fb00000000000000200ff399d2a40d701ba18048fd96446b83f0c74208d79f3803ab,
  0x000000000000205956a59d186c1fd8bb80c57f1c98b78ae7115c020ca53129eeb77d772512230500000000000000204a3b797ccc24fb9429,
  0xe7b78b136173646b28e32be6849b3e000000000000002026dc74f390b20b6b45072f1270fc5c97d776666f2364a14f2770af1f0a50a8b000,
  0xfee3262014235c8f149378a20d9ae89c3775d8eb9e16d366f431ffdacdc79c000000000000002035f90abcbfcb82835fe5f335f39f8adbdc,
  0x13851de411515200000000000000206186bb8e2722eacca0055e669ff1e24c26499383bf653c7a3381ee13e937dfd3000000000000002042,
  0x3358fe4ac66ba6100f19994db87975e77566cfe13004e10000000000000020348533be2d3b044f183f39e08e123d23d7112ea1a77bb8af33,
  0x0000000000002029bd83611558ba4c3fa0cd24e8ba099af7ddff78f8426482e57d2aa0eb71e6660000000000000020599ff070587a53a160,
  0x7e15e1be14a0606c299cd6fc3c4926000000000000002009a500ee275cfa441479d70b7e2d0bdbb213cce44ea6288604183ec6c652db7e00,
  0xb3c00ff66f28ab7c4a4a7d3b66464d7b1544f7658e667e343fe79306766757000000000000002023ab39f9537ccbc61ca27bd3225916ee36,
  0xf12d2053c6b0d200000000000000203e78d74fdf48a63d0c3dfdc1e7e2e40cf7fdf5647f5c6598ad1439d12f6d2489000000000000002072,
  0x4bac658f39986c0decef82452601c0b5ddc46d38d3d0410000000000000020070d7202910d2f8e85ceee72f168168aec667b54e2e2177502,
  0x000000000000201810009c2f57551b41ce481cd4a3952e5cb1440967f14ade22a0a0d53daf272200000000000000203826a59e4dfce0b55e,
  0x051cc6cccc7738adf6e4a0c85254a200000000000000204d1a9d307b1ec5874954514178ac37390f4d7cb46aa8d41fed15af2b6cf09d6200,
  0xec1adc0138c1c9ea53680be721dd7f202c02a8776b92f27383fe9a0417f65700000000000000202f15278528fdec0be698c26dd7e45f415d,
  0x87fe1cad80c0a400000000000000201c8fc9504bc292329e7e4f7fa981202388d61a63aea0f19d4c59a2fc233bbbc1000000000000002063,
  0xfba4e545ddd3eb2c92764453bd275a3d37e5f8bc3cebee0000000000000020135bf456f58c293b2fc0513632655e242188020207fc6ae329,
  0x000000000000205ab751bb83bbb10f8168f1ddc6056ac82d48ff4824fe86b63cdecd1aadd3c85b0000000000000020234520e6cb9149f133,
  0x270b35a92b003ab12b36294af53a9c000000000000002063d6ea3a0f79a97cb3450d87147cca09915d1a7746700846d0d6bbd374ba190b00,
  0xc478d44cda73585f2804bce5eaf2f51560f68f122a4e298e6ba7fef1ba7ba800000000000000202f40a5f6c41d4f21b747febf4c154b2112,
  0x6aca05690bc70d00000000000000204bbee31ad5917ff60a61b659e4c2bc5d1aa844251ad430db25c88cb47e35503f000000000000002006,
  0xdd4599f5264cde4a1fc7b5a26d472da1d7ba77e9b7e24100000000000000202ee8f748f0a60f3db9fe5db91c05ab4f10daf2f4e32a7e38e1,
  0x0000000000002070cc29c40c12f3679587a0beb7eef2095aac6a5b461954c00de96e22daa703aa00000000000000205c9b59815bfaad57f4,
  0xad6742a7f7eb3e3c79483d5a5b80b8000000000000002012959d0c07472e635ef613b45a3a4d39f71c095287bc93085eb060974ed8c30600,
  0x6dc66c8ce35703017507be817160955405cc3d13ada6b7148339588229628700000000000000201c3dca955ae63f353d3bb6e0cdecf68b4e,
  0x1c30d0196c64a5000000000000002046e97c22d277a20eba673e90927400cb3ff3008409fc5840e1b6a15ad8e7a31400000000000000201b,
  0x0e139bd722db82fc36b07ba811db6b1705c1062fb2c2f8000000000000002033dfa977588b9e277ce8c17fa15fef93a919f0c99d02a505be,
  0x4a095a70e638a1eb2cf2a89cf6771579efea7fba76c55c86c4a002871903ca6f00000000000000202047421db285c03c5d]

/-- the 5761 bytes -/
def xfrFile45 : Bytes := (xfrFile45Words.flatMap (leBytes 56)).take 5761

set_option maxRecDepth 100000 in
theorem xfrFile45_check : checkTransfer xfrFile45 (Spec.transferVars 20 4 5) 32768 (Spec.transferPublic 20 4 5) = true := by
  decide +kernel

theorem xfrFile45_size : Spec.IsSize (Spec.transferGates 20 4 5) 32768 := isSize_of (k := 14) (by decide) (by decide)

theorem xfrFile45_len : xfrFile45.length < 2 ^ 64 := lt_of_le_of_lt (List.length_take_le _ _) (by norm_num)

/-- the entry for 4 inputs and 6 outputs: words of 56 bytes, little-endian, the last one shorter -/
def xfrFile46Words : List Nat := [
  0x0000000000000020000000000000000000000000000000000000000000000000000000000000000000000000000000000000000000000000,
  0x0000000000000000000000000000000000000000000000200000000000000000000000000000000000000000000000000000000000000000,
  0x0000000000000000000000000000000000000000000000000000000000000000000000000000002000000000000000000000000000000000,
  0x0000000000000000000000000000002000000000000000000000000000000000000000000000000000000000000000000000000000000020,
  0x0000000000000000000000000000000000000000000000000000000000000020000000000000000000000000000000000000000000000000,
  0x0000000000000020000000000000000000000000000000000000000000000000000000000000000000000000000000200000000000000000,
  0x0000000000000000000000000000000000000000000000200000000000000000000000000000000000000000000000000000000000000000,
  0x0000000000000000000000000000000000000000000000000000000000000000000000000000002000000000000000000000000000000000,
  0x0000000000000000000000000000002000000000000000000000000000000000000000000000000000000000000000000000000000000020,
  0x0000000000000000000000000000000000000000000000000000000000000020000000000000000000000000000000000000000000000000,
  0x0000000000000020000000000000000000000000000000000000000000000000000000000000000000000000000000200000000000000000,
  0x0000000000000000000000000000000000000000000000200000000000000000000000000000000000000000000000000000000000000000,
  0x0000000000000000000000000000000000000000000000000000000000000000000000000000002000000000000000000000000000000000,
  0x0000000000000000000000000000002000000000000000000000000000000000000000000000000000000000000000000000000000000020,
  0x0000000000000000000000000000000000000000000000000000000000000020000000000000000000000000000000000000000000000000,
  0x0000000000000020000000000000000000000000000000000000000000000000000000000000000000000000000000200000000000000000,
  0x0000000000000000000000000000000000000000000000200000000000000000000000000000000000000000000000000000000000000000,
  0x0000000000000000000000000000000000000000000000000000000000000000000000000000002000000000000000000000000000000000,
  0x0000000000000000000000000000002000000000000000000000000000000000000000000000000000000000000000000000000000000020,
  0x0000000000000000000000000000000000000000000000000000000000000020000000000000000000000000000000000000000000000000,
  0x0000000000000020000000000000000000000000000000000000000000000000000000000000000000000000000000200000000000000000,
  0x0000000000000000000000000000000000000000000000200000000000000000000000000000000000000000000000000000000000000000,
  0x0000000000000000000000000000000000000000000000000000000000000000000000000000002000000000000000000000000000000000,
  0x0000000000000000000000000000002000000000000000000000000000000000000000000000000000000000000000000000000000000020,
  0x0000000000000000000000000000000000000000000000000000000000000020000000000000000000000000000000000000000000000000,
  0x0000000000000020000000000000000000000000000000000000000000000000000000000000000000000000000000200000000000000000,
  0x0000000000000000000000000000000000000000000000200000000000000000000000000000000000000000000000000000000000000000,
  0x0000000000000000000000000000000000000000000000000000000000000000000000000000002000000000000000000000000000000000,
  0x0000000000000000000000000000002000000000000000000000000000000000000000000000000000000000000000000000000000000020,
  0x0000000000000000000000000000000000000000000000000000000000000020000000000000000000000000000000000000000000000000,
  0x0000000000000020000000000000000000000000000000000000000000000000000000000000000000000000000000200000000000000000,
  0x0000000000000000000000000000000000000000000000200000000000000000000000000000000000000000000000000000000000000000,
  0x0000000000000000000000000000000000000000000000000000000000000000000000000000002000000000000000000000000000000000,
  0x0000000000000000000000000000002000000000000000000000000000000000000000000000000000000000000000000000000000000020,
  0x0000000000000000000000000000000000000000000000000000000000000020000000000000000000000000000000000000000000000000,
  0x0000000000000020000000000000000000000000000000000000000000000000000000000000000000000000000000200000000000000000,
  0x00000000000080000000000000005dfd00000000000000000000000000000000000000000000000000000000000000000000000000000000,
  0x49b67437b1a0e30000000000000030000000000000000d000000000000000001000000000000000000000000000000000000000000000000,
  0x010e11601f64610000000000000030881b53a700dd730361b4730b749102cadc8f7e2502ac2aec9ba43b2c1206c46810a2608506cf02b2de,
  0x1a06a664f91629000000000000003013c45010f50ef600253dd1351877c12dbb4098f1db44aa445d356d42f3d58884ac0b22104702935ae6,
  0x9721b5888d2533000000000000003010a4d1d65551b3991b5f3926348e1d8885dbfb46c7d68e471684999790365d7faff63f6bb455e69572,
  0xa0ad1442ff2c4300000000000000300f366904777e6fd38987923cb75e9bfe1b086a01ef2262196a131f18db817f57097883e7554c4ebf68,
  0x59dc9cc22a3cc8000000000000003083c57de7386510b0daba7f90ac7116a7947f9e30dfcaa87c34e6e31c0f7e56164c1088d92fdb5299a6,
  0xce9d544a7af52100000000000000301093089b4b2722fd337b0ca2cec9a836195bf9390febd651510006ee0289dca1d992b6afe73215f483,
  0x000000000000000000000000000030906e17aa0ec5d2db3561da14445735b6fe7cc936ff7e9d63b0733a6061f6f7e9c1ebbf84f23b9669d6,
  0x7224f4acf7b80500000000000000304000000000000000000000000000000000000000000000000000000000000000000000000000000000,
  0x4cd78b42a9629c000000000000003019cce3dde351a4fd5ba6e0a336463ea6965b32a8e0bf7a572862c885b447eb87f1626567fb7bb5beb2,
  0x48996f1df094dc000000000000003095dd55aaa8f7bd744d640e2c205cdee6bc51ba2a4c9194b825c88dfe3b2f5c08ac37585a9d302c65c7,
  0x694507c939311800000000000000308f609bb9d20308c6745fd2dab44a7cf43fe47add7186f46253feac18dcdf266c675aeca6ea18805431,
  0x86bbd7361781f000000000000000309992c30c45c5ce5096624c0a1bd6a7bc6436016157d56b3cddd38620e9f5335c8e7720741ecd11f582,
  0x0000000000003000000000000000050e7d2951485d0f685a87e8b0d3296481cfdbc9fb34b22a11812b56643cf98d2694ae6c03fe837af6f6,
  0x0000000000003099bddbee78a465aa2de41d1cf49fe302b957559a8f626ad27c39d49111f14ff0de5f6fa03a7accded4aae1703b9c96c500,
  0x00000000000030153ed8d62eb354992cc83256f968fe8e30f6cf74ab3b60ad6631b2ed6122bfb53ef33a5cc2c83024144a844e9a21375700,
  0x000000000000308d4c0cbb90a882637f86d1e4df0c32650a0aba5d16b42222df3c192fded343b45cfbf81c8c2584f6344a2b5a71a83b4a00,
  0x000000000000308c1dc49444e7fdae201e9e2487cf4ac0b7a42457326a103768fe4a39aa983b875162b71311964dfa2346dbc87b9b7f4d00,
  0x0000000000003019fb97d9df844e87f158aaa634cc5cab838ec8421f9e164d98187b11fb4526158567094235fe373ea0ade1eb7f7a515b00,
  0x000000000000050a13982c68e01031b2b3cf8da6785984c143733d063b3d912fc63387fa09dbacecef5a68623d2d8f9602c992e3daf42400,
  0xe09db580600dd900000000000000200000000000000000000000000000000000000000000000000000000000000001000000000000002000,
  0x4ac3e799f2e8ecb47001f57845bbbfd7c0070a381d364d00000000000000206141e529fcdc704e26ef0699ca82c49012c588ada0e784368b,
  0x000000000000202664991206cc6e6a144513f4c899a417ee516fa456ee3f9ec51c159ddca97c33000000000000002022a342a0964a25e0e9,
  0xd5f51db3f32699fbd047e11279bb6e000000000000002041feb67496b6e8973bb1afa6ef9bb1c0ce7b067b089b046d2903ccdd332888e600,
  0x00000000002dd50000000000001ef8000000000000101b000000000000003100000000000080003291357ee558b50d483405417a0cbe39c8,
  0x000000000042ee00000000000041af00000000000040700000000000003f310000000000003df20000000000003cb30000000000003cb200,
  0x000000000050000000000000004fff0000000000004ffe0000000000004ffd0000000000004ffc000000000000442e000000000000442d00,
  0x0000000000500700000000000050060000000000005005000000000000500400000000000050030000000000005002000000000000500100,
  0x0000000000500e000000000000500d000000000000500c000000000000500b000000000000500a0000000000005009000000000000500800,
  0x0000000000501500000000000050140000000000005013000000000000501200000000000050110000000000005010000000000000500f00,
  0x0000000000501c000000000000501b000000000000501a000000000000501900000000000050180000000000005017000000000000501600,
  0x5b2b470eaae59b000000000000002000000000000000310000000000005020000000000000501f000000000000501e000000000000501d00,
  0x1a8642b32633c71c962b7c419b74178350aeb31d6c03dc000000000000002046c057e04d1e1fdf28253df8094d7f2921951fe2baf8a8d75a,
  0x0000000000002001ee8646d3a5a366537f4a7656a754a3a96d3945a46beaf4fe2952ee028be0d0000000000000002053c10a498900e05b67,
  0xcb0437a9bda2cc4eb609e581e3bd5300000000000000200d37935a049a150f82fcf98e8fa7069a349ce0dd9651fd82e0443645c1481ffe00,
  0x2d97efb66a8824270548a7170e85187a091196f94cf2129485c098f2af89c200000000000000202b6a6e789aba9d8636ec46e910b8adce5b,
  0xb6adc15570ab5200000000000000201e7a019436f2343ef4bbf9ba91e6f8c1d6a685a702bc2c50ed010d3718011cc1000000000000002009,
  0x68b064fa0265538af13d90d67462d31f7b951d3a691b2a00000000000000203e220a2251c4645e6b9574587073af6059a172188407b24b68,
  0x00000000000020353b59938ce09f8b8a549b38d8175dbc479e44515dfaa2f45d0be62ef04dab9c000000000000002002c59cb6720c23970d,
  0xf43723e74913f0fbaec527ae339c050000000000000020431abeae309bffdf637c758d351fb4de49bdd70beeb45630575cdc55cc178d6a00,
  0x1be7179f2264ecbb0569cab254d7811220839f449ec0831ba849905aaa635400000000000000200238610b9374fca03fd6f8e9520588239d,
  0xe091d8cd4b3db9000000000000002050d8be59a5a23500cac49ff7d6fe27fca1ed777582ab68fa90e93e647fcd259c00000000000000203f,
  0x0593df7a72786c60e94a99a45883368c2128f6b52a3510000000000000002023532e7ec985b25f071558bc17991cc6f04daabba1baddcad5,
  0x00000000000020397d0e2f9bd325d02438336990cbf4e58a85c0638956218fc30b1bad86a4d11800000000000000201a27577382cc941085,
  0x149eeefb631caf01b6b12afcda78d200000000000000204daa04dac3aca72699a2aa2b1eefbf8857de90ce1df9bb2b3a0c545541d17d3d00,
  0x42e6bb19160f436fa4d22ad902b2accc53b13b67b7d41b23fb486193d71c76000000000000002070621753df2934282aedc72aca0d7b47e8,
  0x2cdb686468d50b000000000000002046f79a36fd0129bf4255a13d652a266d67d8d9e2581580f328e871d06f71f5fc00000000000000202d,
  0x6d828afb4233499fa825385647f8daebbd302d25b6f7e400000000000000206bf75ca51883c08a73778c8da029ca6a757fcc46955a7f70a0,
  0x000000000000200f216df1dd8cc4a4fc89967d08987f328e00fe63681f89972a8a33b7d49fefa500000000000000206bde04edb0c774e8d3,
  0x61d01c0b49b7e2a59f968519493bf600000000000000201d2962121dacfc0ce54b46f815c0ee0dfb9829c8193f2f588df3d8703f1c1d0c00,
  0x6f6739ec6d9659c472e01a18394ffc9c185bab284993a509848d85006ad143000000000000002045854916befd29ac9751fbd29715b6750d,
  0xf28b6354febd1900000000000000206522f502a64d1d62bb90f8cc1411f700d2c85098db4b2b9512e4d7645f0c17cf000000000000002053,
  0xabe25ad014a841b6bd09402ec8dc1bb993e6bdd1b9acc4000000000000002043d975530718561d409fe93cef3174c8ca06bc0886d1d20b0a,
  0x0000000000002072d120ea78479511cceca623d8cce894c880562f37f1a5d02c2b1ea62abfb8ca000000000000002001b0802585cbfb35c6,
  0xf6334a836a4949ebda2ab8b2b80a6e00000000000000200f636cf3c3d2c61761cc13a190ab5f8406b795fce6fc4da92f9d9a12bfc723e500,
  0x5a85638eb792faf74ddede0d0a2823dc2bd2e5fca2f680b0fb457bf4584456000000000000002003f1fc09c3469e6cc0f6aaea2bfd38c40c,
  0x55a3b7c469ba7400000000000000205ba466dce7e9f173bb351c630c6454964d6247a9b7e8aa2bfe03dd64e34dd72e000000000000002038,
  0x859d1610c3efe18e6dba167845dc49a2cb5364acd3bb4d00000000000000200e28a28b956b2bc425bf3c9f41477529ffad6d4586290defa1,
  0x000000000000203c3b01d2872d1f784a8d4536e13fa9aa9c7e1a9e9ba73fdbc0c7161551d31fea000000000000002053cd0cd8e4880ecd5d,
  0xd9e137603d092e9a7396887fd5f7540000000000000020287161b1268eeeb17964ca12a34da441c29943ea4251d3476cb5a1409ab581e000,
  0x1d76b7679962c90038cef8147be4f72a488d9f2262fcef5695d80881a7780a00000000000000206fca270d31982411c63ac31fa958665232,
  0x10de0fda07b7ff00000000000000203311a256a745f8d8cede70d9f8dd529c47aa5d996579de9a45d7bcaca7e00961000000000000002029,
  0x149a10005458dc322884204505b327a5a4d4b7f1551a6600000000000000205d706f5abae83fdb4837a31c55e96a2aa7ca6d04bbfc5139b2,
  0x000000000000203a34e13f2779063520b1b37768638d3705fc20aca2299d95fdf332154077cddd00000000000000202d2d4f72dc7f5d690b,
  0x89848c71c9dd5681ad5cd59ccdfc8a000000000000002016adc078940e0e6faf5aaf6940f97eadd0d4c772286d37c36392830a8f0dcd4500,
  0xddf7e2d2f71b0ddca7e6c5cf95e68c83626a7b487a09a298ee4f2b30214d9800000000000000206a0d000caf077048df00246bd344b08e5e,
  0x4b05463c420532f8356172e641577105c875ca77c732ca88fe1fdaf488d42593000000000000002013]

/-- the 5809 bytes -/
def xfrFile46 : Bytes := (xfrFile46Words.flatMap (leBytes 56)).take 5809

set_option maxRecDepth 100000 in
theorem xfrFile46_check : checkTransfer xfrFile46 (Spec.transferVars 20 4 6) 32768 (Spec.transferPublic 20 4 6) = true := by
  decide +kernel

theorem xfrFile46_size : Spec.IsSize (Spec.transferGates 20 4 6) 32768 := isSize_of (k := 14) (by decide) (by decide)

theorem xfrFile46_len : xfrFile46.length < 2 ^ 64 := lt_of_le_of_lt (List.length_take_le _ _) (by norm_num)

end Verif.Setup
