import Verif.Setup.Shipped

/-!
Row 5 of the table in /repo/api/parameters/transfer-vk-specific.bin: transfers with 5 inputs.  The test of `Shipped.lean` is run on every
entry by the kernel.
-/

namespace Verif.Setup

/-- the entry for 5 inputs and 1 output: words of 56 bytes, little-endian, the last one shorter -/
def xfrFile51Words : List Nat := [
  0x0000000000000020000000000000000000000000000000000000000000000000000000000000000000000000000000000000000000000000,
  0x0000000000000000000000000000000000000000000000200000000000000000000000000000000000000000000000000000000000000000,
  0x0000000000000000000000000000000000000000000000000000000000000000000000000000002000000000000000000000000000000000,
  0x0000000000000000000000000000002000000000000000000000000000000000000000000000000000000000000000000000000000000020,
  0x0000000000000000000000000000000000000000000000000000000000000020000000000000000000000000000000000000000000000000,
  0x0000000000000020000000000000000000000000000000000000000000000000000000000000000000000000000000200000000000000000,
  0x0000000000000000000000000000000000000000000000200000000000000000000000000000000000000000000000000000000000000000,
  0x0000000000000000000000000000000000000000000000000000000000000000000000000000002000000000000000000000000000000000,
  0x0000000000000000000000000000002000000000000000000000000000000000000000000000000000000000000000000000000000000020,
  0x0000000000000000000000000000000000000000000000000000000000000020000000000000000000000000000000000000000000000000,
  0x0000000000000020000000000000000000000000000000000000000000000000000000000000000000000000000000200000000000000000,
  0x0000000000000000000000000000000000000000000000200000000000000000000000000000000000000000000000000000000000000000,
  0x0000000000000000000000000000000000000000000000000000000000000000000000000000002000000000000000000000000000000000,
  0x0000000000000000000000000000002000000000000000000000000000000000000000000000000000000000000000000000000000000020,
  0x0000000000000000000000000000000000000000000000000000000000000020000000000000000000000000000000000000000000000000,
  0x0000000000000020000000000000000000000000000000000000000000000000000000000000000000000000000000200000000000000000,
  0x0000000000000000000000000000000000000000000000200000000000000000000000000000000000000000000000000000000000000000,
  0x0000000000000000000000000000000000000000000000000000000000000000000000000000002000000000000000000000000000000000,
  0x0000000000000000000000000000002000000000000000000000000000000000000000000000000000000000000000000000000000000020,
  0x0000000000000000000000000000000000000000000000000000000000000020000000000000000000000000000000000000000000000000,
  0x0000000000000020000000000000000000000000000000000000000000000000000000000000000000000000000000200000000000000000,
  0x0000000000000000000000000000000000000000000000200000000000000000000000000000000000000000000000000000000000000000,
  0x0000000000000000000000000000000000000000000000000000000000000000000000000000002000000000000000000000000000000000,
  0x0000000000000000000000000000002000000000000000000000000000000000000000000000000000000000000000000000000000000020,
  0x0000000000000000000000000000000000000000000000000000000000000020000000000000000000000000000000000000000000000000,
  0x0000000000000020000000000000000000000000000000000000000000000000000000000000000000000000000000200000000000000000,
  0x0000000000000000000000000000000000000000000000200000000000000000000000000000000000000000000000000000000000000000,
  0x0000000000000000000000000000000000000000000000000000000000000000000000000000002000000000000000000000000000000000,
  0x0000000000000000000000000000002000000000000000000000000000000000000000000000000000000000000000000000000000000020,
  0x0000000000000000000000000000000000000000000000000000000000000020000000000000000000000000000000000000000000000000,
  0x0000000000000020000000000000000000000000000000000000000000000000000000000000000000000000000000200000000000000000,
  0x0000000000000000000000000000000000000000000000200000000000000000000000000000000000000000000000000000000000000000,
  0x0000000000000000000000000000000000000000000000000000000000000000000000000000002000000000000000000000000000000000,
  0x0000000000000000000000000000002000000000000000000000000000000000000000000000000000000000000000000000000000000020,
  0x0000000000000000000000000000000000000000000000000000000000000020000000000000000000000000000000000000000000000000,
  0x0000000000000020000000000000000000000000000000000000000000000000000000000000000000000000000000200000000000000000,
  0x0000000000008000000000000000648e00000000000000000000000000000000000000000000000000000000000000000000000000000000,
  0x486b6de2ca41110000000000000030000000000000000d000000000000000001000000000000000000000000000000000000000000000000,
  0xfdf344cc6968e600000000000000301524047e64de8715940c2455a9d18327fd8aac6ee13c0e9cee118572d24fed6ecb999d295e350ce210,
  0xefefb18091b300000000000000003089eda8f070f77c4b487ab6fe6aca9ab541287ccb625b8e768537baa5bf07bd615493142a6668698d7b,
  0x265fe7f0f3a9ad0000000000000030124d80d62684b1545a7cb77899f064cad9605139b431c046be35b3fc03d3ef7bfeb3275bb8f5791b47,
  0x152567b31b9f790000000000000030137d83c7785dc0aea346ba6a42fb217a9711931e221eadefad17d8a2b128895c13f959a10058ce2dd3,
  0xc9d98395f1b1650000000000000030849a8a3b5a1998603e705e2bd623e92ee47b2b6955884c2b4a30527a9aec799655789ffe928e67e109,
  0xc9a0780980b42e00000000000000300fa4fd7264ab16f3e172f4c0c0b9ce911203f6d3903383c9d500bcbbd495b21a88ba811c1296e9fc1c,
  0x000000000000000000000000000030084c2edb432da0baff69b32fe7df5bcedfd3fcf610ae87a16df4ad9b89488a1530a0a41275cc2fcbcc,
  0x3e3930485d73d200000000000000304000000000000000000000000000000000000000000000000000000000000000000000000000000000,
  0x1b9a9546546ca300000000000000300f80cd8a1261a79d33e509207013bfa9a5b571267edaee0a73fad099a0b0f098d1286d97403a142e71,
  0x275b6dacb7bb50000000000000003095db9f26ede93935463845bd520334ad74ef86f4818615916634813580e3ed357cffbad1e46c4524ea,
  0x3e4aee8fdd0243000000000000003007d1348f6475be1c90d2c6e2778e2b70e19ef28608d929fa97995af272ad180b45ef5de1a2172813cd,
  0xb9d60d800d357000000000000000308593f37b5d98a026d989909be6eb99311ab9837dd2b3aa01df3741cf6f2f9475eaa60917e0c2a09d62,
  0x000000000000300000000000000005940b5b078dae521edac2e4670e9f2227410e3cd16a65cea724d7fc8b6d7145ae352184718e000bb81b,
  0x00000000000030187a11bb3cbbf71475c227de57314bee6c8850730077a66df4823a3d3fd27a5c5fe98f4920e409337ff56ad4278309b600,
  0x000000000000309732279578416b15f5a2c76d3ba8782aa8b3df077b2abc2737a8c59951e5aa8f0356e27f8979611bdc58c655017103e000,
  0x000000000000308d1c23cfb4c9935f5ca3290076819081df9d2163ccadfa207d7cdafd84d850d57c455d5fb5e3548f5e102b17e4ee2e2100,
  0x000000000000300f7abcea938670d9dcdbf7af91633bc1236bab627e50091929d7910b04009ff2aef8a8fb17240fff5358351ab658e43b00,
  0x000000000000300a819dad22fdce005bafabdeb774b3f5a87cd0a1c571d50195bbe2aaf3ed57b73c83133b968da3f677334c0936962c8f00,
  0x0000000000000506b920edb7b6819a8a4442a54fa0e8f7b6c2dc5401213172328860e95eaad8e09835bf91599f846f9e01c9fde501309300,
  0xe09db580600dd900000000000000200000000000000000000000000000000000000000000000000000000000000001000000000000002000,
  0x4ac3e799f2e8ecb47001f57845bbbfd7c0070a381d364d00000000000000206141e529fcdc704e26ef0699ca82c49012c588ada0e784368b,
  0x000000000000202664991206cc6e6a144513f4c899a417ee516fa456ee3f9ec51c159ddca97c33000000000000002022a342a0964a25e0e9,
  0xd5f51db3f32699fbd047e11279bb6e000000000000002041feb67496b6e8973bb1afa6ef9bb1c0ce7b067b089b046d2903ccdd332888e600,
  0x00000000002e250000000000001f48000000000000106b000000000000002d00000000000080003291357ee558b50d483405417a0cbe39c8,
  0x000000000058ef00000000000058ee0000000000004d200000000000004d1f0000000000004be00000000000004bdf0000000000003d0200,
  0x000000000058f600000000000058f500000000000058f400000000000058f300000000000058f200000000000058f100000000000058f000,
  0x000000000058fd00000000000058fc00000000000058fb00000000000058fa00000000000058f900000000000058f800000000000058f700,
  0x00000000005904000000000000590300000000000059020000000000005901000000000000590000000000000058ff00000000000058fe00,
  0x0000000000590b000000000000590a0000000000005909000000000000590800000000000059070000000000005906000000000000590500,
  0x0000000000591200000000000059110000000000005910000000000000590f000000000000590e000000000000590d000000000000590c00,
  0x000000000000202ee17a2dd281998b5195cd38b5b03e3893c0903426716dae8d35fddefa6b00630000000000000020000000000000002d00,
  0x7ac19c0a6613c27acf04b03fa8b74f00000000000000202c4bb4953be9c97242b60f8633da04a918d88fbfa4f8cbb21741f75d05ab620600,
  0xe9d2a0077aee5ae1cd63b1ebcc8c96437d5f18843d9b38d91e0b761b3183f100000000000000202cfd2d2688ee9cb4a4133e3d6a9fa40b3b,
  0x548a55ea425d5e00000000000000201024e1c70d6cd73b4c99e2afa3ee6d4699d3aa011f3a076316b2054aad3e0eac00000000000000204c,
  0x701f980942d457521400989b8b6df28b4f5b27f51dc9000000000000000020322d9182cac5b05bf7464b14f406076c645e9d7704fef9791e,
  0x000000000000201386193bad12118033021ff93e7907461ae776ffabef48541f788f5e2f9a2a8100000000000000206b3e5b90c22ec3d04d,
  0xd331a05880e79eb4fed27a13eb2ca400000000000000207383e57e2fcd056374486ceda86670a43771a6cc68e1ad2a78763045eea89bf900,
  0x02e5cfbcdb61561f7cc6ccac74e254c2f20905f00b709178213f9596178b7300000000000000204484933e24cdaba36e98108693e176e0c5,
  0xc095f08c4f11270000000000000020600d3a01e81d709c164275c6750cfaa4515910070b249e5a542393c1b2a199c5000000000000002001,
  0x45cd2086bdda6feb822a13b95908e8184e8866c8fdfb5c000000000000002016d142b42013f614d89f0b8a0491f3cc38b1f8cd5b3f32bc3e,
  0x000000000000204f98ecc0de9aaa955615c6ed914bb25fed650fc072fd2577ab995a8117082de20000000000000020225525723896899806,
  0x5b5be74b655e75c087b9390186181800000000000000201550d879ffe6da2393f38761a486e599531271bd1412792cbb2fe6b7702a431500,
  0x0780a9feb01860da57ab6a82f596eb60b01ad8ff60fa341b723a406fbf500f00000000000000204ca25af8da6d41cb047c86db0fb7f6fe1b,
  0xc1d389b574044900000000000000202b944fce8a3217fc206ee6e55db1d5d78bdad5ebd8df0425ba4081b4fb547f1a00000000000000202c,
  0x0f05eeeef183a52b09604cb7148dcd511f66072714b4aa00000000000000202dc016b7e6c2a4a42091ebebabef5ffb5cee68c788b74df7b2,
  0x0000000000002023e1d4fd3a30534b021e4036d386875eb86393d927d5afe4ab1761e034e3167e00000000000000201b6cb9544a7c2364c8,
  0x846db41a01376bb48898608b4937f30000000000000020503130ae7c3331be9dcdb773108ba945999ff189dbc6d96361e4e8e321089fc400,
  0x8983ea708b417e240c8fc7e34f7e5974dafc1a2e12af96d80ffce43eb297a900000000000000200592cd38b8fb29de7ad52afe99df5e81b4,
  0xf3ce5999f532ce00000000000000202176996dafa592ac9937e34d2b648d873e572bf0e161037f89d6e3a87adf366900000000000000205c,
  0xfc3558b2a8e191f98829ef8159c7c823f59c1b91786f4f00000000000000202aeae2231c35a52b4cc291afbcf7dc6598e67dbb820ac133b5,
  0x000000000000202d64849e35770c673a2bf1d0eff2ab0371000ea414921b816a0274f3c3b66b9400000000000000204fa4e2c48d3b94529b,
  0x674a1b5520aa7970502c5e0a147ea000000000000000204e511d55a561c9ef82a9dfd2ecf8ee06d59537f459e61f2a4cdc36103cb4968400,
  0x22717764d8067a764d0cd01e81cdce6aa452c74ddbb1331f1b82c31c040cba00000000000000204cbbeb60e1731faecf3ece852ca499a56e,
  0x5a83bdef1c704e000000000000002050ee41c652ebeb4b99accc58b17c2d62eb13fdef7af3c766b2c61db8249ac9ad000000000000002053,
  0x93bfcfe328c0358e692a09567f47cbfc4002b64e5afdfc000000000000002018660d14cdb280f1d9b3fef5a40c30591f33e685bbc0c7fe92,
  0x000000000000204531e9cdf8bca2fe7ee985590aefdf1c6f15020ab6eb896149b3488bf6a6160900000000000000202e97828ec2186df106,
  0x9750abc86db791f889d208182d834800000000000000205c35061af1e65f225fdfc4636a85eb0c8bf6e930c76a4719c51f8a0c6079d2fa00,
  0x0e7d7d9fe555520e9dd5e02a4fb2fdab0c3e2bb8e7a6ea072f6ad1418a4094000000000000002070caa3a96e5e910f6c790bbfd07d9d338a,
  0xf6730c4c7591f50000000000000020238348d1f00e9dd7e6eeee8d26da54ea5916bead4cc9adb57fb2ffbc8f8ae2a6000000000000002040,
  0xf83830242fefe5f63872b794243653abd3e8ca00a565e900000000000000206e9e0f2f1cfd67dda4c69c34ade629c422353b20b185a2b316,
  0x00000000000020243766ace16eff39dfbd22e1cbd32a62142815d8d7c5967f6190dbc93ef2d483000000000000002034151260ca470d2a21,
  0x27c760e1e1d3d555c3524a5bd4abe8000000000000002042f5fe54fdcb08a44a7beda9731fd7defdfd69411c1a47424c6a07b8716f7e2b00,
  0x2cfac4777349cd540e9a4f5e1eccde9de6]

/-- the 5617 bytes -/
def xfrFile51 : Bytes := (xfrFile51Words.flatMap (leBytes 56)).take 5617

set_option maxRecDepth 100000 in
theorem xfrFile51_check : checkTransfer xfrFile51 (Spec.transferVars 20 5 1) 32768 (Spec.transferPublic 20 5 1) = true := by
  decide +kernel

theorem xfrFile51_size : Spec.IsSize (Spec.transferGates 20 5 1) 32768 := isSize_of (k := 14) (by decide) (by decide)

theorem xfrFile51_len : xfrFile51.length < 2 ^ 64 := lt_of_le_of_lt (List.length_take_le _ _) (by norm_num)

/-- the entry for 5 inputs and 2 outputs: words of 56 bytes, little-endian, the last one shorter -/
def xfrFile52Words : List Nat := [
  0x0000000000000020000000000000000000000000000000000000000000000000000000000000000000000000000000000000000000000000,
  0x0000000000000000000000000000000000000000000000200000000000000000000000000000000000000000000000000000000000000000,
  0x0000000000000000000000000000000000000000000000000000000000000000000000000000002000000000000000000000000000000000,
  0x0000000000000000000000000000002000000000000000000000000000000000000000000000000000000000000000000000000000000020,
  0x0000000000000000000000000000000000000000000000000000000000000020000000000000000000000000000000000000000000000000,
  0x0000000000000020000000000000000000000000000000000000000000000000000000000000000000000000000000200000000000000000,
  0x0000000000000000000000000000000000000000000000200000000000000000000000000000000000000000000000000000000000000000,
  0x0000000000000000000000000000000000000000000000000000000000000000000000000000002000000000000000000000000000000000,
  0x0000000000000000000000000000002000000000000000000000000000000000000000000000000000000000000000000000000000000020,
  0x0000000000000000000000000000000000000000000000000000000000000020000000000000000000000000000000000000000000000000,
  0x0000000000000020000000000000000000000000000000000000000000000000000000000000000000000000000000200000000000000000,
  0x0000000000000000000000000000000000000000000000200000000000000000000000000000000000000000000000000000000000000000,
  0x0000000000000000000000000000000000000000000000000000000000000000000000000000002000000000000000000000000000000000,
  0x0000000000000000000000000000002000000000000000000000000000000000000000000000000000000000000000000000000000000020,
  0x0000000000000000000000000000000000000000000000000000000000000020000000000000000000000000000000000000000000000000,
  0x0000000000000020000000000000000000000000000000000000000000000000000000000000000000000000000000200000000000000000,
  0x0000000000000000000000000000000000000000000000200000000000000000000000000000000000000000000000000000000000000000,
  0x0000000000000000000000000000000000000000000000000000000000000000000000000000002000000000000000000000000000000000,
  0x0000000000000000000000000000002000000000000000000000000000000000000000000000000000000000000000000000000000000020,
  0x0000000000000000000000000000000000000000000000000000000000000020000000000000000000000000000000000000000000000000,
  0x0000000000000020000000000000000000000000000000000000000000000000000000000000000000000000000000200000000000000000,
  0x0000000000000000000000000000000000000000000000200000000000000000000000000000000000000000000000000000000000000000,
  0x0000000000000000000000000000000000000000000000000000000000000000000000000000002000000000000000000000000000000000,
  0x0000000000000000000000000000002000000000000000000000000000000000000000000000000000000000000000000000000000000020,
  0x0000000000000000000000000000000000000000000000000000000000000020000000000000000000000000000000000000000000000000,
  0x0000000000000020000000000000000000000000000000000000000000000000000000000000000000000000000000200000000000000000,
  0x0000000000000000000000000000000000000000000000200000000000000000000000000000000000000000000000000000000000000000,
  0x0000000000000000000000000000000000000000000000000000000000000000000000000000002000000000000000000000000000000000,
  0x0000000000000000000000000000002000000000000000000000000000000000000000000000000000000000000000000000000000000020,
  0x0000000000000000000000000000000000000000000000000000000000000020000000000000000000000000000000000000000000000000,
  0x0000000000000020000000000000000000000000000000000000000000000000000000000000000000000000000000200000000000000000,
  0x0000000000000000000000000000000000000000000000200000000000000000000000000000000000000000000000000000000000000000,
  0x0000000000000000000000000000000000000000000000000000000000000000000000000000002000000000000000000000000000000000,
  0x0000000000000000000000000000002000000000000000000000000000000000000000000000000000000000000000000000000000000020,
  0x0000000000000000000000000000000000000000000000000000000000000020000000000000000000000000000000000000000000000000,
  0x0000000000000020000000000000000000000000000000000000000000000000000000000000000000000000000000200000000000000000,
  0x0000000000008000000000000000665900000000000000000000000000000000000000000000000000000000000000000000000000000000,
  0xab59b443c9477b0000000000000030000000000000000d000000000000000001000000000000000000000000000000000000000000000000,
  0x8c419369f89bfd00000000000000300751e331b894ce586e043571e759af99c1c38e7c74e017a371a4f543058bd83a7201829455c0e634fc,
  0x0a339d934ee6ed00000000000000308d4f1eb705d28583e619f0d4efadb205398a6f7242b755c5ea79de5ec10f6c1df1500badd3af988a68,
  0xf87e25796483df0000000000000030825cce6c41b3a06179d3e731cfe716853412a2abbe70eee1bb17560f6cf6eccc78f8b21703aa669521,
  0x45ff824bedfb8700000000000000300626c5e19040ef7f624f87356f9c0646eab9eae69210a875c5ce677daf5ae32e50477fd8ec36734cf2,
  0xde8e8ddf35a8d300000000000000301722f8272f3d4617108d1bb0ca906bc7d4e860eca0cbb7a39163253cb4e12bb81403f4a21d88be17fc,
  0x71e650024f068800000000000000300d72c889e34fe48d4c6ba6d173b29d5d5cbe526cd045ef43371b52c13b3c3cf56b4f0acb481925ff42,
  0x0000000000000000000000000000300f962f344c1bc2782c3f2f428e5e127765db5d966e5d47132ee691c30f2473d105e98cad96ba4ddef7,
  0xadee7444eb607e00000000000000304000000000000000000000000000000000000000000000000000000000000000000000000000000000,
  0x7355c082d739be0000000000000030883e46f08f903d78e62ad6e68fffa74c6cebf461eda0aae5bf4a12c4e6726fa8fd802a7c29e82eea4b,
  0x208b63b720838c00000000000000300d372fb8f5cae347353bdb778a69352243d2df888331f288c940888a671d0ef82544570754b6d73561,
  0x2709d810920cd30000000000000030941e67ef80d50c8c23fcced487fb3174a54bc6be1cfa29f7f2907e5fdeba5b2d95fe5ae12a19773bb6,
  0x481961fb56d11100000000000000308cc415175983c3a64bdf65eb21f0f23598e32e5eaf44ab8d5b75fcd918ecc2eb019ed218986a80763f,
  0x0000000000003000000000000000058c6a8053bff051b8ea8a9e7109e8ee20cecea742406e7bd45b607c0cc8b151bd53c552bc79f7425f0b,
  0x000000000000308a44d69c356a2a78f0e0d7c8c1b5e85a3c62f984ea030d0b11290ab4150d33104a5e69cbd44696b8c5b3b67bb0d43df200,
  0x00000000000030940630c15f96dfa73718d66a0481e4a6f30213569dfbdf8a3256638f5ac292fb630cad7b9d56b94ac518db8bed9b7ca400,
  0x00000000000030018a5254af9a2d158bd265f57badd79401188553e76be93e8fa6af8f17ef87937b2a634079109f4321731a07c70c826a00,
  0x00000000000030146a07548b2e1c26d8090c70850df1bbf3f131777bf75f1c05a35d873d2ef44de365221d2f2619c8f907d404d41553a800,
  0x000000000000300f2b99afd2761df3eff22577c1b7ca116cc3377776bb3de44bdb49a219f99456091c4554f71d684db6a1107bfeaa263100,
  0x00000000000005118cfbe14180c5a1f3827606dc0079533439b55d9312183600d381356c9bc9c777ccf908df8aedd97fc600bf8009a56800,
  0xe09db580600dd900000000000000200000000000000000000000000000000000000000000000000000000000000001000000000000002000,
  0x4ac3e799f2e8ecb47001f57845bbbfd7c0070a381d364d00000000000000206141e529fcdc704e26ef0699ca82c49012c588ada0e784368b,
  0x000000000000202664991206cc6e6a144513f4c899a417ee516fa456ee3f9ec51c159ddca97c33000000000000002022a342a0964a25e0e9,
  0xd5f51db3f32699fbd047e11279bb6e000000000000002041feb67496b6e8973bb1afa6ef9bb1c0ce7b067b089b046d2903ccdd332888e600,
  0x00000000002e250000000000001f48000000000000106b000000000000002e00000000000080003291357ee558b50d483405417a0cbe39c8,
  0x00000000005a2d0000000000004e5f0000000000004e5e0000000000004d1f0000000000004be00000000000004bdf0000000000003d0200,
  0x00000000005a340000000000005a330000000000005a320000000000005a310000000000005a300000000000005a2f0000000000005a2e00,
  0x00000000005a3b0000000000005a3a0000000000005a390000000000005a380000000000005a370000000000005a360000000000005a3500,
  0x00000000005a420000000000005a410000000000005a400000000000005a3f0000000000005a3e0000000000005a3d0000000000005a3c00,
  0x00000000005a490000000000005a480000000000005a470000000000005a460000000000005a450000000000005a440000000000005a4300,
  0x00000000005a500000000000005a4f0000000000005a4e0000000000005a4d0000000000005a4c0000000000005a4b0000000000005a4a00,
  0xe17a2dd281998b5195cd38b5b03e3893c0903426716dae8d35fddefa6b00630000000000000020000000000000002e0000000000005a5100,
  0xcf04b03fa8b74f00000000000000202c4bb4953be9c97242b60f8633da04a918d88fbfa4f8cbb21741f75d05ab620600000000000000202e,
  0xcd63b1ebcc8c96437d5f18843d9b38d91e0b761b3183f100000000000000202cfd2d2688ee9cb4a4133e3d6a9fa40b3b7ac19c0a6613c27a,
  0x000000000000201024e1c70d6cd73b4c99e2afa3ee6d4699d3aa011f3a076316b2054aad3e0eac00000000000000204ce9d2a0077aee5ae1,
  0x1400989b8b6df28b4f5b27f51dc9000000000000000020322d9182cac5b05bf7464b14f406076c645e9d7704fef9791e548a55ea425d5e00,
  0x5b6462cd58672209e5ac1caee9a108de115d4d2e8e2b2d3c3b4fa3b9d45b8d00000000000000206b3e5b90c22ec3d04d701f980942d45752,
  0x13b4a643a78eaa00000000000000204dc90dd0f11771f9de193ec9053a8ddc2a50fffc0cce7e90ff44fb344777ea8900000000000000205f,
  0x408ea5e908ee48d1947064d2a50c7c907d86eb697d076a000000000000002017a1a772b3f5f4d66625ca58fb72dab02e3304e969786e7caf,
  0x000000000000206f95c717cf521c498fb77bdaa7de0153773ec7554a32a8f404cf898e209454550000000000000020576d0d09b0d94df0b3,
  0xaf48b2ecdb67eebd8705e0068147a300000000000000200261b199f16fbd907cce21d0c95bddd6c71717fe7a1752f614da9b21bbe5cc9000,
  0x9ec7a9a27f295274e244069e543fe68b26d3164d5f0dbb873f142830c23d7000000000000000202c7c4f8ecc962df6734af4554f200745b4,
  0x50f0101a2ea85d000000000000002001915094a2df57d48dddae98e95a1711f080d8df28fa23c1cd1e28e3c532e09000000000000000201d,
  0x3514806eeab3f1008b4a2b624ecffbd2d2425f2307997200000000000000203e0eae11cd4c405af27b5f21be72a96c011706b413fe1e3ae8,
  0x000000000000205dc115c10bc32c9563cf17437b219e9fb5c878468c480ad8c45e836bfa592ecf000000000000002046437e846eabb2f49e,
  0xf466db9537d59fd3761df7150ed27c00000000000000206a536643dd7c1fea9ccce70688f5e4ddd9e7c9b4053ecb5d02ec5d201afb5d9000,
  0x7013e1747a51f53a688f2ff2ede760975c06e27e2f31f79faf786aab3b0c6700000000000000201738ed2668f484f1d933aa88b38b8832d8,
  0x2aa87062bf86f800000000000000204223057f68af4c8a4b7d386da3b04e89c427a9b62c1c015f7d677cf9217a237b000000000000002004,
  0x3d08ef20e37ed17d5ffcd2f5fa60e2bfe938d3322e313a00000000000000205f2691cb164eee0ce3530036b2d2d1a54b2d4a8976f0dbff50,
  0x000000000000204e51196483c5da4444bdc06ab1ebbb6ed5c1398e5cb765e2d7434545b59a759f00000000000000201536a7c05ea6fdaf9e,
  0x942988d840eff0a69f1dd0df32bda400000000000000204dd9e93d035e4e92b89f45dfb3f21ea8f2d6ce70ef9967e7ab6057e9b43763d900,
  0x13d87a7c37e53b51f92d71cba933e7fb3df35ee342aa2e242f095be78cc03000000000000000205f74aff0c6221c4e7d892d665dfb8dada5,
  0xb31111f05e4d5f00000000000000200367d84cbbc8ef45361e943250c9ac860ede82701fe614ec5f41df02141ad8e7000000000000002010,
  0x00af3a0a505f2eb3cb64b4356a509e855aef4a65586ff8000000000000002013439eef070a9351d418a20f9f3e05a664d4f5833a1cfc9531,
  0x000000000000202aa44edcb45c5675aeba01361004cace8f591692a71e5dc3a6715c25a61eaa4200000000000000204d28c251c0a2cf0f2a,
  0x369175458f228d27b1841157fbce3900000000000000202c36b0f52f6b0058a8a0d86f7907df8326f89bc197468504cc28f846418321fc00,
  0x8ee249020b32d5d19212e7873e5e122c03b2bf16e1343fbae8fddb4a251cc9000000000000002064ac6190467b0cd1ceb6bc832aeaa72d91,
  0xc3dad532ba181d00000000000000206b2e883e04dee77e20a8c9c695d6a246368fa71ecf88be4289cc93248d72aee3000000000000002060,
  0x9b98cf888f258a13f3423b3664b81bed89d2d195244fd000000000000000205e4e01d80ffedab64310e83bd67cd9722f28cf9b3b200dfe18,
  0x0000000000002067f6063d204ecd46755e834b6e925ef56bd12e15393ee1f7eff276c524c997120000000000000020298d47b5557a2c5e0b,
  0x575baee6c7d5de5b653abbe3ab17a700000000000000206e9fbf15557415a72869e25e4a537f661c3440161d60de9124b91a8b601354e300,
  0x2cfa01167e2e6515645a2ab2c131bcdd038076c826541f64f90942dcb2a09300000000000000205f2861944e5be399bd210904ea73561194,
  0xdc738dd0dd67d8000000000000002034e1d14a35b07f6223bb3292fa117611a360eb4a9f037c1a9db0a4d6e38f2af100000000000000204a,
  0xffdaddedc1e133b6617d643e796ae839488004159f8d3c000000000000002061d95db6339bdef05606ace42b937b4091e167ff85360d40f4,
  0x04da02e1cc7b5c417e]

/-- the 5665 bytes -/
def xfrFile52 : Bytes := (xfrFile52Words.flatMap (leBytes 56)).take 5665

set_option maxRecDepth 100000 in
theorem xfrFile52_check : checkTransfer xfrFile52 (Spec.transferVars 20 5 2) 32768 (Spec.transferPublic 20 5 2) = true := by
  decide +kernel

theorem xfrFile52_size : Spec.IsSize (Spec.transferGates 20 5 2) 32768 := isSize_of (k := 14) (by decide) (by decide)

theorem xfrFile52_len : xfrFile52.length < 2 ^ 64 := lt_of_le_of_lt (List.length_take_le _ _) (by norm_num)

/-- the entry for 5 inputs and 3 outputs: words of 56 bytes, little-endian, the last one shorter -/
def xfrFile53Words : List Nat := [
  0x0000000000000020000000000000000000000000000000000000000000000000000000000000000000000000000000000000000000000000,
  0x0000000000000000000000000000000000000000000000200000000000000000000000000000000000000000000000000000000000000000,
  0x0000000000000000000000000000000000000000000000000000000000000000000000000000002000000000000000000000000000000000,
  0x0000000000000000000000000000002000000000000000000000000000000000000000000000000000000000000000000000000000000020,
  0x0000000000000000000000000000000000000000000000000000000000000020000000000000000000000000000000000000000000000000,
  0x0000000000000020000000000000000000000000000000000000000000000000000000000000000000000000000000200000000000000000,
  0x0000000000000000000000000000000000000000000000200000000000000000000000000000000000000000000000000000000000000000,
  0x0000000000000000000000000000000000000000000000000000000000000000000000000000002000000000000000000000000000000000,
  0x0000000000000000000000000000002000000000000000000000000000000000000000000000000000000000000000000000000000000020,
  0x0000000000000000000000000000000000000000000000000000000000000020000000000000000000000000000000000000000000000000,
  0x0000000000000020000000000000000000000000000000000000000000000000000000000000000000000000000000200000000000000000,
  0x0000000000000000000000000000000000000000000000200000000000000000000000000000000000000000000000000000000000000000,
  0x0000000000000000000000000000000000000000000000000000000000000000000000000000002000000000000000000000000000000000,
  0x0000000000000000000000000000002000000000000000000000000000000000000000000000000000000000000000000000000000000020,
  0x0000000000000000000000000000000000000000000000000000000000000020000000000000000000000000000000000000000000000000,
  0x0000000000000020000000000000000000000000000000000000000000000000000000000000000000000000000000200000000000000000,
  0x0000000000000000000000000000000000000000000000200000000000000000000000000000000000000000000000000000000000000000,
  0x0000000000000000000000000000000000000000000000000000000000000000000000000000002000000000000000000000000000000000,
  0x0000000000000000000000000000002000000000000000000000000000000000000000000000000000000000000000000000000000000020,
  0x0000000000000000000000000000000000000000000000000000000000000020000000000000000000000000000000000000000000000000,
  0x0000000000000020000000000000000000000000000000000000000000000000000000000000000000000000000000200000000000000000,
  0x0000000000000000000000000000000000000000000000200000000000000000000000000000000000000000000000000000000000000000,
  0x0000000000000000000000000000000000000000000000000000000000000000000000000000002000000000000000000000000000000000,
  0x0000000000000000000000000000002000000000000000000000000000000000000000000000000000000000000000000000000000000020,
  0x0000000000000000000000000000000000000000000000000000000000000020000000000000000000000000000000000000000000000000,
  0x0000000000000020000000000000000000000000000000000000000000000000000000000000000000000000000000200000000000000000,
  0x0000000000000000000000000000000000000000000000200000000000000000000000000000000000000000000000000000000000000000,
  0x0000000000000000000000000000000000000000000000000000000000000000000000000000002000000000000000000000000000000000,
  0x0000000000000000000000000000002000000000000000000000000000000000000000000000000000000000000000000000000000000020,
  0x0000000000000000000000000000000000000000000000000000000000000020000000000000000000000000000000000000000000000000,
  0x0000000000000020000000000000000000000000000000000000000000000000000000000000000000000000000000200000000000000000,
  0x0000000000000000000000000000000000000000000000200000000000000000000000000000000000000000000000000000000000000000,
  0x0000000000000000000000000000000000000000000000000000000000000000000000000000002000000000000000000000000000000000,
  0x0000000000000000000000000000002000000000000000000000000000000000000000000000000000000000000000000000000000000020,
  0x0000000000000000000000000000000000000000000000000000000000000020000000000000000000000000000000000000000000000000,
  0x0000000000000020000000000000000000000000000000000000000000000000000000000000000000000000000000200000000000000000,
  0x0000000000008000000000000000683000000000000000000000000000000000000000000000000000000000000000000000000000000000,
  0xbd914c010576bf0000000000000030000000000000000d000000000000000001000000000000000000000000000000000000000000000000,
  0x1fdb8b4a5ff2480000000000000030954b280a341bdf49a4dacf9736b6d31302c980ec5828f14b9c274cba9c7a86003c3c4a0af82ac26e11,
  0xf94fb809caf4bb000000000000003096708ad641931fc18e1a63ea5557adcd6619906cd84a86859f16039b371893021f32663fcbdb0f92e2,
  0x404333b8b2e61f0000000000000030828581896205e4fb7ec6b4c87b063422ba1973c1453f867218b5ebc3c7b6b3b52224d0cdabd548e848,
  0x5c293b947ea8da000000000000003003ec8686fb6caf55634a2014799064b9aa044129eebd3d230f35567b4afe16bc2b05fd67e93a3fe44e,
  0x47263b2e4b9a44000000000000003083e8f039956f3a3ccead01fbdab752182633c5ab4ced61e7a5e33a7e8ce680064836c4e3cebd26b65b,
  0x819c861b1df3ad000000000000003096079d482b02d2d726b05e6ecd3e4ae9b1b461e8244bcc0f7176e4335a93395904830dd8f1fd9506ae,
  0x00000000000000000000000000003096aa72d47610c7b6840f2723c96afcd51974875d9b09812c0deef64105bdf916d89e2aebe8024bb384,
  0x27cf83881f6e1800000000000000304000000000000000000000000000000000000000000000000000000000000000000000000000000000,
  0x69830d32b6467f000000000000003005b95e0dec072e56d82fb5c3e390b7ada595060c1dc0edcf50f1dc1960e78f96feed9702107d37f51d,
  0xa5e6eb894bbe530000000000000030934c895418948e912ba561e9f1c90a6830130ef2ad25ea55c87d2622b3ca920e3281c123bbd36f59b1,
  0xc0be6c60edda700000000000000030949f9373dd8856fffefdd2a4133ab785eaa7f8128f235be9814f28882442e839a4f2270c04c097912f,
  0x3e557af3cad8250000000000000030929126fcedc9ef02ceb8696a798ddec5ab12109f658003de7df93e4daed9b5dd73aa0eb574149a4ce4,
  0x00000000000030000000000000000587b9e29a57963ad5dcd1ac8199ffb19f94051f46d9f61e3de1cfafc7d00afc05a3a2c4a8c76a94c80e,
  0x0000000000003094d05913cd91ac2520e76944409a77f38eb22a1d89a3b1b4e0f22d853e52f6087bd4c63531de2e82278d94478a04724700,
  0x0000000000003095b96a3af7a1411c78ffbd2ef2366ade40b3b2a17ac65fc71f4ce47041ccd6393d56ca2f8e79db29a88e257a0c7070f200,
  0x0000000000003012d91b5f8752d40b91060049f636d0906a4900d9a71f5bd37e15cc116d0b3b34a4e87e607004e4602b52022346f181a000,
  0x0000000000003090c8081ad6bc7c3842009f23755546d790a262b8e59ef2cd66de9c14cc31033d9a8a31bbe3d097d9c55162c3fdeb9d0c00,
  0x000000000000308654637096d19a8984fda86267e69bf2c8a633b02ab3a91a8735541da38c05bf45074432903e16da5b66f932cbb26da200,
  0x000000000000059899d747906cbb1466b07a6e034fb88793539e3c0e755c41e890ba72cdc53d7da1d221b2ca1b194af2946c8dc36ad3b700,
  0xe09db580600dd900000000000000200000000000000000000000000000000000000000000000000000000000000001000000000000002000,
  0x4ac3e799f2e8ecb47001f57845bbbfd7c0070a381d364d00000000000000206141e529fcdc704e26ef0699ca82c49012c588ada0e784368b,
  0x000000000000202664991206cc6e6a144513f4c899a417ee516fa456ee3f9ec51c159ddca97c33000000000000002022a342a0964a25e0e9,
  0xd5f51db3f32699fbd047e11279bb6e000000000000002041feb67496b6e8973bb1afa6ef9bb1c0ce7b067b089b046d2903ccdd332888e600,
  0x00000000002e250000000000001f48000000000000106b000000000000002f00000000000080003291357ee558b50d483405417a0cbe39c8,
  0x00000000004f9e0000000000004f9d0000000000004e5e0000000000004d1f0000000000004be00000000000004bdf0000000000003d0200,
  0x00000000005b720000000000005b710000000000005b700000000000005b6f0000000000005b6e0000000000005b6d0000000000005b6c00,
  0x00000000005b790000000000005b780000000000005b770000000000005b760000000000005b750000000000005b740000000000005b7300,
  0x00000000005b800000000000005b7f0000000000005b7e0000000000005b7d0000000000005b7c0000000000005b7b0000000000005b7a00,
  0x00000000005b870000000000005b860000000000005b850000000000005b840000000000005b830000000000005b820000000000005b8100,
  0x00000000005b8e0000000000005b8d0000000000005b8c0000000000005b8b0000000000005b8a0000000000005b890000000000005b8800,
  0x95cd38b5b03e3893c0903426716dae8d35fddefa6b00630000000000000020000000000000002f0000000000005b900000000000005b8f00,
  0x000000000000202c4bb4953be9c97242b60f8633da04a918d88fbfa4f8cbb21741f75d05ab620600000000000000202ee17a2dd281998b51,
  0x7d5f18843d9b38d91e0b761b3183f100000000000000202cfd2d2688ee9cb4a4133e3d6a9fa40b3b7ac19c0a6613c27acf04b03fa8b74f00,
  0x24e1c70d6cd73b4c99e2afa3ee6d4699d3aa011f3a076316b2054aad3e0eac00000000000000204ce9d2a0077aee5ae1cd63b1ebcc8c9643,
  0x4f5b27f51dc9000000000000000020322d9182cac5b05bf7464b14f406076c645e9d7704fef9791e548a55ea425d5e000000000000002010,
  0xe5ac1caee9a108de115d4d2e8e2b2d3c3b4fa3b9d45b8d00000000000000206b3e5b90c22ec3d04d701f980942d457521400989b8b6df28b,
  0x0000000000002066ac7085e6e8c9d75291f389effbf3f9c47415b866b3e906d8286c18940cbecd00000000000000205f5b6462cd58672209,
  0xec171ee27324d8c6e3678796dbcd4200000000000000201cc8ef335372c69c1fb7071f51c3b94beff177f3746ec02fa83ca6b4cb6a0eca00,
  0xdcda8a563b553dea8adede41992e63eed9c7ba9e8e57d80cf3819774d10fa100000000000000202a1ca68af9057ff15dc978f762c8155359,
  0x1c00c8281daf7800000000000000201db1bd4096a04cab372829100552524bfcf4d6242f324bf5a91bbbbec5b1dde7000000000000002034,
  0xa2ae6276b7e313633b4e588ac425d48a51953bf05871d0000000000000002066950a0fdd0e07df9253ff9fcc91b2e6c9697ec8353743e55b,
  0x00000000000020251421dae81782438527b005beaf1741c1047dbf355809a76d951049e55ba648000000000000002041328021599359f0d4,
  0x78b2518c62269cc11c0599a925d570000000000000002053bf6d51777a89a0acede0da485e732256fa355fe5a2f3834eeb1fb3002c0a0500,
  0xd2cc4b7519b6278a3dc00389db0359b38f93364c7454569b781e3a4089dc52000000000000002039a7ff565c462eedc79869d495578de20b,
  0xc7396e8c73755b0000000000000020083f1b3567199627d2afda46196cb944d08739d27fd43590e4aa5972ddd6b33f00000000000000200e,
  0xe61be0fd36f7c251873201eff89325cd4c585316ce7e4d0000000000000020336db5f12428c116f48159b449473d3a35bc11c48fdeb57aad,
  0x000000000000200a157cf5160eb7c7482c3f8429d182c5c5fadecf51d56c9cb50320103c9699cd0000000000000020182323370057cfb432,
  0x043294871a3de804ddb16b570dd77200000000000000203fa6012824f319e1c9c3b5df4bc81f4605e9408bf1f78b6c4bce0da06d3b54c100,
  0x3a17399f0e3974b095811964cec78cca79dfe08611339a21615a9f87e7a92f000000000000002017ac24c6f7d02c2f686c498daa98dbf11f,
  0x5de3c46309e1ce00000000000000203e522fbc6f97ce6a19fcdbc71520f8e60ec381bdef5dfb7b6319d2a5465e192a00000000000000206e,
  0x420e8b1340156d308fca8fe3e8ad3f13401511e945f1370000000000000020694241e7c5ca7837f69f6035c69654b111c9d3fd467b8b62ce,
  0x000000000000205a795d2b527c4bdac26d468932582efb72409ed83a3ba75c8fe611a28b0d8c1600000000000000201a0a01b2d82713ac51,
  0x125de2e99d4e16338daef4aeb2d44700000000000000202e0aa9d15d6bdcd40cba736a751f0e5e4a33a9a07c2f0b7e7fd221308145266600,
  0xcb573330b87913811acdf1c4840d9db697517cea541865791b95b5a82c2d5000000000000000203c4bf048917f7a3b8ef682a6fd097a1f3c,
  0x3c13075c89102200000000000000204c88a0977c5d252b42c78e74cd88dfb44f29c06698da16920a2ca9ed1c89dfec000000000000002047,
  0x8c2b38765305e912867ada5b8856698fc640ca01d620cb000000000000002032a6411d229df4ad80c4d6cbf9f315cece0a8d8e23669a75dd,
  0x000000000000203fa4cedb251c93bc7eed74dc661f614d783194e061607951dd99cb62a7255031000000000000002021c4da1b685daf6434,
  0x23e9ac05ea71fc8bcc5fe40c3c34d10000000000000020111b63300aa7dbaf12920d29977ca27d7a23a7aa3752e479e2cea0ca8c9667eb00,
  0xff7fb62e0688ca0b57004bf534317c4420f4bc25eb73ed62137469f9574da30000000000000020619003ea33fcc93ee0700d1cb0137a5da2,
  0x4161b5551178c500000000000000202e419c2b6e562cf89880d478a1edc8a9b334ef53a95fe562528f83407eb144e300000000000000202c,
  0xc3bedb1b461885f65252d1ab56ccee258b6da3694991200000000000000020430c1139fb8b7c15c83d8858dde700b836611370670b12f59a,
  0x00000000000020717c9741e3cab39c4a2de57e7c86e5d8a7bd046860e31469f341ffb9c8af242e0000000000000020219a1f8d782217a7e6,
  0x601f1b2362490d6e9f7ae52847684f00000000000000205ed85ed6339d615dcae09434571cb5181d607497266a601fae749fb337592ff400,
  0xc43c458c00be355c55115f6f7adfff255caa7e2accdc0abe22781177d4e83900000000000000200b3e9ff793a1e328641d61e89050fddbbd,
  0x52]

/-- the 5713 bytes -/
def xfrFile53 : Bytes := (xfrFile53Words.flatMap (leBytes 56)).take 5713

set_option maxRecDepth 100000 in
theorem xfrFile53_check : checkTransfer xfrFile53 (Spec.transferVars 20 5 3) 32768 (Spec.transferPublic 20 5 3) = true := by
  decide +kernel

theorem xfrFile53_size : Spec.IsSize (Spec.transferGates 20 5 3) 32768 := isSize_of (k := 14) (by decide) (by decide)

theorem xfrFile53_len : xfrFile53.length < 2 ^ 64 := lt_of_le_of_lt (List.length_take_le _ _) (by norm_num)

/-- the entry for 5 inputs and 4 outputs: words of 56 bytes, little-endian, the last one shorter -/
def xfrFile54Words : List Nat := [
  0x0000000000000020000000000000000000000000000000000000000000000000000000000000000000000000000000000000000000000000,
  0x0000000000000000000000000000000000000000000000200000000000000000000000000000000000000000000000000000000000000000,
  0x0000000000000000000000000000000000000000000000000000000000000000000000000000002000000000000000000000000000000000,
  0x0000000000000000000000000000002000000000000000000000000000000000000000000000000000000000000000000000000000000020,
  0x0000000000000000000000000000000000000000000000000000000000000020000000000000000000000000000000000000000000000000,
  0x0000000000000020000000000000000000000000000000000000000000000000000000000000000000000000000000200000000000000000,
  0x0000000000000000000000000000000000000000000000200000000000000000000000000000000000000000000000000000000000000000,
  0x0000000000000000000000000000000000000000000000000000000000000000000000000000002000000000000000000000000000000000,
  0x0000000000000000000000000000002000000000000000000000000000000000000000000000000000000000000000000000000000000020,
  0x0000000000000000000000000000000000000000000000000000000000000020000000000000000000000000000000000000000000000000,
  0x0000000000000020000000000000000000000000000000000000000000000000000000000000000000000000000000200000000000000000,
  0x0000000000000000000000000000000000000000000000200000000000000000000000000000000000000000000000000000000000000000,
  0x0000000000000000000000000000000000000000000000000000000000000000000000000000002000000000000000000000000000000000,
  0x0000000000000000000000000000002000000000000000000000000000000000000000000000000000000000000000000000000000000020,
  0x0000000000000000000000000000000000000000000000000000000000000020000000000000000000000000000000000000000000000000,
  0x0000000000000020000000000000000000000000000000000000000000000000000000000000000000000000000000200000000000000000,
  0x0000000000000000000000000000000000000000000000200000000000000000000000000000000000000000000000000000000000000000,
  0x0000000000000000000000000000000000000000000000000000000000000000000000000000002000000000000000000000000000000000,
  0x0000000000000000000000000000002000000000000000000000000000000000000000000000000000000000000000000000000000000020,
  0x0000000000000000000000000000000000000000000000000000000000000020000000000000000000000000000000000000000000000000,
  0x0000000000000020000000000000000000000000000000000000000000000000000000000000000000000000000000200000000000000000,
  0x0000000000000000000000000000000000000000000000200000000000000000000000000000000000000000000000000000000000000000,
  0x0000000000000000000000000000000000000000000000000000000000000000000000000000002000000000000000000000000000000000,
  0x0000000000000000000000000000002000000000000000000000000000000000000000000000000000000000000000000000000000000020,
  0x0000000000000000000000000000000000000000000000000000000000000020000000000000000000000000000000000000000000000000,
  0x0000000000000020000000000000000000000000000000000000000000000000000000000000000000000000000000200000000000000000,
  0x0000000000000000000000000000000000000000000000200000000000000000000000000000000000000000000000000000000000000000,
  0x0000000000000000000000000000000000000000000000000000000000000000000000000000002000000000000000000000000000000000,
  0x0000000000000000000000000000002000000000000000000000000000000000000000000000000000000000000000000000000000000020,
  0x0000000000000000000000000000000000000000000000000000000000000020000000000000000000000000000000000000000000000000,
  0x0000000000000020000000000000000000000000000000000000000000000000000000000000000000000000000000200000000000000000,
  0x0000000000000000000000000000000000000000000000200000000000000000000000000000000000000000000000000000000000000000,
  0x0000000000000000000000000000000000000000000000000000000000000000000000000000002000000000000000000000000000000000,
  0x0000000000000000000000000000002000000000000000000000000000000000000000000000000000000000000000000000000000000020,
  0x0000000000000000000000000000000000000000000000000000000000000020000000000000000000000000000000000000000000000000,
  0x0000000000000020000000000000000000000000000000000000000000000000000000000000000000000000000000200000000000000000,
  0x00000000000080000000000000006a1300000000000000000000000000000000000000000000000000000000000000000000000000000000,
  0x7667d24306f1680000000000000030000000000000000d000000000000000001000000000000000000000000000000000000000000000000,
  0x289b6a165b4ed300000000000000300bfc2e3e2d0000ea22334274f93caa010b7a7e0ed799082834f85a098cf96957a01a130b6ef5c36d3f,
  0xf07cd6472d808a00000000000000300dd0b94e24d0810271223b033119731eea9073d4e196f568916a2898efc7975e72f51235139b18f919,
  0x29330b725295cb000000000000003012dc70184b4d2525b14e9150fc71c9ef847dc28e4c2f7ac44c956a355833bd72e7e1693597b6a34c84,
  0xb4d656e4a6110b00000000000000300015122fc3da3ee088114859255df8194dd76ab48228fed8c5423a9e86f52156134e9cee7a2e6b18e9,
  0xea79da69327602000000000000003085f20e667f0a55f1841099b4a28339db74da96ce904d8605d56c2fee00a213deaf286ffee26664b151,
  0x0caf8d208cf3db00000000000000308dbaa5c67aa41c0aa772edba8cf506f7025be02a45a4e2989be02dd216350b00b26eeed537a9feff7a,
  0x0000000000000000000000000000300da703988b1676c4727b81b673bc7403a5408ff6d5ec7d0ed33ef19df2d7db5f258df175708178dc81,
  0x4bc6554854a66200000000000000304000000000000000000000000000000000000000000000000000000000000000000000000000000000,
  0x866da57be665ff0000000000000030027eeb3b837494006b55db0293b8068fdb244cb11433e4daa071b16e0b997dbcbc329b780909ba5dd7,
  0x2b1878276824a40000000000000030957c83143dc5b6ba22a0858bce77b7dc6603003cb1aa9be89bd437f4dea64d4415a6d0fa816d74ef85,
  0xc3b04529e8c4640000000000000030072248212337aedff70fd559667e5a5f0bd5aec5350011bcc44b866eb1c71f0d99640f6717ea433e79,
  0x85f45db9e1f261000000000000003085811fd5bd407038b1703443c88a1e21fea27993822a9043e1b381da77203ea1d08f06465982e970ea,
  0x000000000000300000000000000005172facb343b89ba515c7d8c13a43d2065be03ab973befb6af3d0c6f49e939971a46d22468d80dda925,
  0x0000000000003091bc8f32a3cec1662600fe6c52b87d9ffa22eb8785d860300bba6095e6358d857e1d605d9afffa6bdd52c6b8ee55253f00,
  0x0000000000003085baf06e319c76eb17d977618d355f1d0dfa8e5bd5162c11cfc5865c5d7f270d2996f5c34b2755ce350a4e5dd99212e700,
  0x00000000000030109fe624fcf82d0de35032fcc794a4801a726d26a5efe7883f6fddf3ca7e7f21b464921d6867b7bb746ad5a6f5d8b9d900,
  0x000000000000309511de29e6e9c85b35fefd51c86c6220575eb166e5ece9a3c006b15b8919ba0a3cf0d8fe32f6346ce7bbd3cf191becda00,
  0x0000000000003087a0d589ec77962290a2bbbb3831056ecdf83af506a6c5160f1d329fd38980a1e279959a04fe35f39ef026177d432cc500,
  0x000000000000058bf0d1be5cb40b6463c2b398bf50fea47b4b975febb9852d15e354a0eb0d25ddb78666e8dc22c979089b942a10d85ac800,
  0xe09db580600dd900000000000000200000000000000000000000000000000000000000000000000000000000000001000000000000002000,
  0x4ac3e799f2e8ecb47001f57845bbbfd7c0070a381d364d00000000000000206141e529fcdc704e26ef0699ca82c49012c588ada0e784368b,
  0x000000000000202664991206cc6e6a144513f4c899a417ee516fa456ee3f9ec51c159ddca97c33000000000000002022a342a0964a25e0e9,
  0xd5f51db3f32699fbd047e11279bb6e000000000000002041feb67496b6e8973bb1afa6ef9bb1c0ce7b067b089b046d2903ccdd332888e600,
  0x00000000002e250000000000001f48000000000000106b000000000000003000000000000080003291357ee558b50d483405417a0cbe39c8,
  0x000000000050dc0000000000004f9d0000000000004e5e0000000000004d1f0000000000004be00000000000004bdf0000000000003d0200,
  0x00000000005cb00000000000005caf0000000000005cae0000000000005cad0000000000005cac0000000000005cab00000000000050dd00,
  0x00000000005cb70000000000005cb60000000000005cb50000000000005cb40000000000005cb30000000000005cb20000000000005cb100,
  0x00000000005cbe0000000000005cbd0000000000005cbc0000000000005cbb0000000000005cba0000000000005cb90000000000005cb800,
  0x00000000005cc50000000000005cc40000000000005cc30000000000005cc20000000000005cc10000000000005cc00000000000005cbf00,
  0x00000000005ccc0000000000005ccb0000000000005cca0000000000005cc90000000000005cc80000000000005cc70000000000005cc600,
  0xc0903426716dae8d35fddefa6b0063000000000000002000000000000000300000000000005ccf0000000000005cce0000000000005ccd00,
  0x4bb4953be9c97242b60f8633da04a918d88fbfa4f8cbb21741f75d05ab620600000000000000202ee17a2dd281998b5195cd38b5b03e3893,
  0x1e0b761b3183f100000000000000202cfd2d2688ee9cb4a4133e3d6a9fa40b3b7ac19c0a6613c27acf04b03fa8b74f00000000000000202c,
  0x99e2afa3ee6d4699d3aa011f3a076316b2054aad3e0eac00000000000000204ce9d2a0077aee5ae1cd63b1ebcc8c96437d5f18843d9b38d9,
  0x00000000000020322d9182cac5b05bf7464b14f406076c645e9d7704fef9791e548a55ea425d5e00000000000000201024e1c70d6cd73b4c,
  0x115d4d2e8e2b2d3c3b4fa3b9d45b8d00000000000000206b3e5b90c22ec3d04d701f980942d457521400989b8b6df28b4f5b27f51dc90000,
  0xac7085e6e8c9d75291f389effbf3f9c47415b866b3e906d8286c18940cbecd00000000000000205f5b6462cd58672209e5ac1caee9a108de,
  0xcfd06094ec739a000000000000002013e17855b88c61faa83cd785c5ae143cb5bb34e3bbd2cade4b64dd35f416d815000000000000002066,
  0xe5b9b3fd8b5f475ed817161c29491957ae997745b51ad50000000000000020355140411d9b64a9ea0b5b15f3cb3f45932651c0ffcd0f0ccd,
  0x000000000000206719a79e92823c222f0891ccce6d4fd714edf5f3c868f382b46220959fe03e89000000000000002042c0b415f9b340ccab,
  0x1464b59935215dd7d75a62ad3fc96300000000000000200049e4b6025cb6aca54c9a825ebf3f95a6e471402902fd111e92222c75a2463500,
  0x927e14266a5cd30a1d13606174bd38f1a554663dec99df2c92ec6a6e6ba268000000000000002056cf12cae5a69e47cd8b273c33c5f1b2c9,
  0x8919c221589514000000000000002008c5b32da393c78865f256ef025a94feca42b9a99cbf8270b93382c0235e04d4000000000000002064,
  0x036d4932672258613a9497f517a13f558a7456d19defa2000000000000002026a1ca214f545f25faee112f484aa94186e1b262d9f6614440,
  0x000000000000204591790716ef3e70cf11ef9997846158c01c39b21317ad5efa8b228e90699e0600000000000000202252a9758cb9a53d24,
  0xbae1b5048cd00cf7fb50b6f8e367e000000000000000200a152660bc1f26663b87f31d8b0478d868ac00d58d126b4daaecd4892167197400,
  0x3efd1c93c5f25017a9bb3e027ab54dfe08433e8f65f318e7dbb0fb92ee856700000000000000206f8070cb1687e6a5bfbbdea6e04bacd6c0,
  0xc7bba9d8b9f861000000000000002003456aef3fafbaf0a9c2c961fef74d247dfca99a6a8e4b71f361b3f277b16537000000000000002001,
  0xc7825527c2fb2e028e94ca82a5a81c3c61edbdeb48a7be0000000000000020223a571ad6dd95f435149bdf878573422ccd777a083b2428a7,
  0x0000000000002001032f3bed49e4456f912f1337458d8e915d2a2abbac63fd3c073a1d4bc0a7ae00000000000000200d500f31dc1ad87ace,
  0x892c67e9e18026442399615495477300000000000000201e5769d4a7d6bb2d2e201fe2436392821ce398d68a3f48d46b8b58b6f8288d2d00,
  0x707fcae3e89c71e609b5c3398fc4b0f5402d925346dc5f011a43f0f78ff6ea000000000000002053875b22c061f0b5718711f1c1d35f4eb9,
  0x92c8d57e820e3500000000000000206d4b5664620ab4a95bb561291c4ba0e8da151696c7427fb49d6131eea49cee80000000000000002030,
  0xe951068045c65df7c7f116463cce060a9962709af86347000000000000002017a258fd920ef8e5627ad4396bc9d6e6980af5c34f871cd400,
  0x000000000000202644ae68197c8f205da7756dd205dcbc621712d4218c7cb926aca2bab0e151b200000000000000205b92f939e46aec5994,
  0xc66f41f2c13dd7da7544b03f5a7667000000000000002073b64d39772870c91237664411c24b51990109cd74a9f6188f6688183b26275c00,
  0xd81e1e4731048ac4ddf59d9ffba1236543815bbd08330fe2f8b1a3cf1bbe2c000000000000002042ba9199e89b9d5770f53f1d08ebd53e20,
  0x8994887c6aefa700000000000000203c0923a05f3f43791e823eeb1121ac5ee785e477da6ded87509deaf6527c90a3000000000000002054,
  0x4aaa1db3cdf0c1a918227e61ab50c40db01842f173252d00000000000000203f259d61639d64b41bddf24910ea2650dbda39fa6f4f8ff249,
  0x000000000000205fd00fde474429dfad7500e0390f67484a7aa3562c0c893def040746374ed79f00000000000000202b2f81d9e769b2b524,
  0xd310a9d0676693c9ebabde8fc95cf60000000000000020114792b0f848b61a93700b3d04edfb96de783160d94264de4aec3eac813380f800,
  0x86621863de448450b4f0ac504fb05f266f463c927746c9adae7931e881c3bd000000000000002004b0dc41fd7f0adeaf27a2459127753fd0,
  0x0128dfb54d96d400000000000000203bb21a961422728cab07bd9d6b6e8646b5b2e48e669f89330d1a2030a07c4fae00000000000000206b,
  0x24b554250bc0f4cc5413c1a0e0e5a9f86558a9a997e2d200000000000000202356b05119acc974840362418953c6f72155879a6fb6c76fc4,
  0x0cee62bc3d8cb7d7cb00301afbd8bd03320a4b2f8e87655f975b773c87915a2500000000000000200df51ab1fc906d4500]

/-- the 5761 bytes -/
def xfrFile54 : Bytes := (xfrFile54Words.flatMap (leBytes 56)).take 5761

set_option maxRecDepth 100000 in
theorem xfrFile54_check : checkTransfer xfrFile54 (Spec.transferVars 20 5 4) 32768 (Spec.transferPublic 20 5 4) = true := by
  decide +kernel

theorem xfrFile54_size : Spec.IsSize (Spec.transferGates 20 5 4) 32768 := isSize_of (k := 14) (by decide) (by decide)

theorem xfrFile54_len : xfrFile54.length < 2 ^ 64 := lt_of_le_of_lt (List.length_take_le _ _) (by norm_num)

/-- the entry for 5 inputs and 5 outputs: words of 56 bytes, little-endian, the last one shorter -/
def xfrFile55Words : List Nat := [
  0x0000000000000020000000000000000000000000000000000000000000000000000000000000000000000000000000000000000000000000,
  0x0000000000000000000000000000000000000000000000200000000000000000000000000000000000000000000000000000000000000000,
  0x0000000000000000000000000000000000000000000000000000000000000000000000000000002000000000000000000000000000000000,
  0x0000000000000000000000000000002000000000000000000000000000000000000000000000000000000000000000000000000000000020,
  0x0000000000000000000000000000000000000000000000000000000000000020000000000000000000000000000000000000000000000000,
  0x0000000000000020000000000000000000000000000000000000000000000000000000000000000000000000000000200000000000000000,
  0x0000000000000000000000000000000000000000000000200000000000000000000000000000000000000000000000000000000000000000,
  0x0000000000000000000000000000000000000000000000000000000000000000000000000000002000000000000000000000000000000000,
  0x0000000000000000000000000000002000000000000000000000000000000000000000000000000000000000000000000000000000000020,
  0x0000000000000000000000000000000000000000000000000000000000000020000000000000000000000000000000000000000000000000,
  0x0000000000000020000000000000000000000000000000000000000000000000000000000000000000000000000000200000000000000000,
  0x0000000000000000000000000000000000000000000000200000000000000000000000000000000000000000000000000000000000000000,
  0x0000000000000000000000000000000000000000000000000000000000000000000000000000002000000000000000000000000000000000,
  0x0000000000000000000000000000002000000000000000000000000000000000000000000000000000000000000000000000000000000020,
  0x0000000000000000000000000000000000000000000000000000000000000020000000000000000000000000000000000000000000000000,
  0x0000000000000020000000000000000000000000000000000000000000000000000000000000000000000000000000200000000000000000,
  0x0000000000000000000000000000000000000000000000200000000000000000000000000000000000000000000000000000000000000000,
  0x0000000000000000000000000000000000000000000000000000000000000000000000000000002000000000000000000000000000000000,
  0x0000000000000000000000000000002000000000000000000000000000000000000000000000000000000000000000000000000000000020,
  0x0000000000000000000000000000000000000000000000000000000000000020000000000000000000000000000000000000000000000000,
  0x0000000000000020000000000000000000000000000000000000000000000000000000000000000000000000000000200000000000000000,
  0x0000000000000000000000000000000000000000000000200000000000000000000000000000000000000000000000000000000000000000,
  0x0000000000000000000000000000000000000000000000000000000000000000000000000000002000000000000000000000000000000000,
  0x0000000000000000000000000000002000000000000000000000000000000000000000000000000000000000000000000000000000000020,
  0x0000000000000000000000000000000000000000000000000000000000000020000000000000000000000000000000000000000000000000,
  0x0000000000000020000000000000000000000000000000000000000000000000000000000000000000000000000000200000000000000000,
  0x0000000000000000000000000000000000000000000000200000000000000000000000000000000000000000000000000000000000000000,
  0x0000000000000000000000000000000000000000000000000000000000000000000000000000002000000000000000000000000000000000,
  0x0000000000000000000000000000002000000000000000000000000000000000000000000000000000000000000000000000000000000020,
  0x0000000000000000000000000000000000000000000000000000000000000020000000000000000000000000000000000000000000000000,
  0x0000000000000020000000000000000000000000000000000000000000000000000000000000000000000000000000200000000000000000,
  0x0000000000000000000000000000000000000000000000200000000000000000000000000000000000000000000000000000000000000000,
  0x0000000000000000000000000000000000000000000000000000000000000000000000000000002000000000000000000000000000000000,
  0x0000000000000000000000000000002000000000000000000000000000000000000000000000000000000000000000000000000000000020,
  0x0000000000000000000000000000000000000000000000000000000000000020000000000000000000000000000000000000000000000000,
  0x0000000000000020000000000000000000000000000000000000000000000000000000000000000000000000000000200000000000000000,
  0x00000000000080000000000000006c0200000000000000000000000000000000000000000000000000000000000000000000000000000000,
  0x199f151c47fc5c0000000000000030000000000000000d000000000000000001000000000000000000000000000000000000000000000000,
  0x7252a39dce2a8b00000000000000300eca0448a1ec60def6d901f03abb8ab9c07d5262357a3cf07a4ef62d74ffbd2d8e7ce6ac6e9d4839bd,
  0x81c3777a194e290000000000000030832816e3a1cfc8c12c898ccf13a4f262fc6bb8e0dcf0e6e5b2f68636886dde38ff9e2d99fa9cd1d5eb,
  0x1cad156480bc1b00000000000000309309f8d79a168d3239ba3f1d5b4fb3184e47507d20dedce680580072ab41e06db0aaa0ade8d3c8791f,
  0x545364c34e1f3f00000000000000308cba9edb9fd307134587fbd81cdb9493deb473355ff5bc83cc1e6806133b35ff8d910831fb4d20b4d7,
  0x1a0372d29c3e5300000000000000300133d15289db4fdfb38591e3255e53bc9986fc56d5add69a927cbbf112a39de785d0056cbe7bcaef32,
  0x08d9e66cad799c000000000000003094efb0cae68a9755af5eb7cbb648cbf454be612d7f1e23b30b705f6c3c0a22d8eef4e3c19b24ea7e24,
  0x0000000000000000000000000000300bd4f3ef175f01a785f92662605d42a4932a3e9834a2343324e48411f17f6ffe92509f232d6c6cbdcf,
  0xa86e7154a3d5f200000000000000304000000000000000000000000000000000000000000000000000000000000000000000000000000000,
  0x3122b96f80891c000000000000003007d56e4c3f672c9918cc94c3e8de974edfc0d76177e5813bb93b916982cbff335a0b95a7e3b276b7e2,
  0xe4be0a3b61722b0000000000000030152cd77b3887a36998b73b1fa82d251d20e9ba93751ea812077b0764e2c0b1e2c994a4704b02b8a80b,
  0xbae60b815fd47400000000000000300569c3040d1909125f486e5f6fe312c38ad17e80cbf040c49d9758a63b1b324ce5052b13f73bc07f25,
  0x0ab09351de563d0000000000000030992b1ad2b42435e1be38df00384f0a56b29a89c2d49fbc9355e09577f7248f017b66ef0526a0284d09,
  0x000000000000300000000000000005155d2431bd472745835a00d0078795561a96f57381e26d225226c84ca4df80f0094b98b6dd9e4d19bd,
  0x00000000000030015a8ca4ced2514e3d70422b93338f194ec8809b99c2e1d2072acbdeec27e012c1aae1e7de14c4f50c7e401ef5e2db8b00,
  0x000000000000308bd3887649fc10d96e2efc632372d2a784c8681b4b961ae58c9d117140352d7881af24cea95ab49cc2b8b31944326cc900,
  0x00000000000030182bb8654ebc1633e5ab2a397b4a2f614ac1ce8689c99f10853021becdb5e0d7afb8e5922bcaf9a2389349981e3e0c5d00,
  0x00000000000030845b588024948479a5fbe94d63abc4574f2a29e0188f4224b92f7671bc84ab8a778f5029b24be1aa1d579b50636d20c100,
  0x0000000000003082a00cbffb3be4277e4c5d2423af50486dd7d5a871eb7fe171b48fe9fd201b54f35f0ea234f8d5f35dafd5b856def44800,
  0x00000000000005942353d3bb909a130a48332c0468e0c018e9b080351ef42c4610920c43b0ff9a1a50f4ae88eb171cf118ea3a8347aa8f00,
  0xe09db580600dd900000000000000200000000000000000000000000000000000000000000000000000000000000001000000000000002000,
  0x4ac3e799f2e8ecb47001f57845bbbfd7c0070a381d364d00000000000000206141e529fcdc704e26ef0699ca82c49012c588ada0e784368b,
  0x000000000000202664991206cc6e6a144513f4c899a417ee516fa456ee3f9ec51c159ddca97c33000000000000002022a342a0964a25e0e9,
  0xd5f51db3f32699fbd047e11279bb6e000000000000002041feb67496b6e8973bb1afa6ef9bb1c0ce7b067b089b046d2903ccdd332888e600,
  0x00000000002e250000000000001f48000000000000106b000000000000003100000000000080003291357ee558b50d483405417a0cbe39c8,
  0x000000000050dc0000000000004f9d0000000000004e5e0000000000004d1f0000000000004be00000000000004bdf0000000000003d0200,
  0x00000000005dee0000000000005ded0000000000005dec0000000000005deb0000000000005dea000000000000521c000000000000521b00,
  0x00000000005df50000000000005df40000000000005df30000000000005df20000000000005df10000000000005df00000000000005def00,
  0x00000000005dfc0000000000005dfb0000000000005dfa0000000000005df90000000000005df80000000000005df70000000000005df600,
  0x00000000005e030000000000005e020000000000005e010000000000005e000000000000005dff0000000000005dfe0000000000005dfd00,
  0x00000000005e0a0000000000005e090000000000005e080000000000005e070000000000005e060000000000005e050000000000005e0400,
  0x35fddefa6b0063000000000000002000000000000000310000000000005e0e0000000000005e0d0000000000005e0c0000000000005e0b00,
  0xb60f8633da04a918d88fbfa4f8cbb21741f75d05ab620600000000000000202ee17a2dd281998b5195cd38b5b03e3893c0903426716dae8d,
  0x000000000000202cfd2d2688ee9cb4a4133e3d6a9fa40b3b7ac19c0a6613c27acf04b03fa8b74f00000000000000202c4bb4953be9c97242,
  0xd3aa011f3a076316b2054aad3e0eac00000000000000204ce9d2a0077aee5ae1cd63b1ebcc8c96437d5f18843d9b38d91e0b761b3183f100,
  0x2d9182cac5b05bf7464b14f406076c645e9d7704fef9791e548a55ea425d5e00000000000000201024e1c70d6cd73b4c99e2afa3ee6d4699,
  0x3b4fa3b9d45b8d00000000000000206b3e5b90c22ec3d04d701f980942d457521400989b8b6df28b4f5b27f51dc900000000000000002032,
  0x91f389effbf3f9c47415b866b3e906d8286c18940cbecd00000000000000205f5b6462cd58672209e5ac1caee9a108de115d4d2e8e2b2d3c,
  0x0000000000002013e17855b88c61faa83cd785c5ae143cb5bb34e3bbd2cade4b64dd35f416d815000000000000002066ac7085e6e8c9d752,
  0xb9be3ce08297794e611d1c009ac075000000000000002029cd60ee64f2404fc7e11e34f67003f5ab41f12c4fec28c33b7b4555a2b95e3a00,
  0xff79544fc7f29bae9e2b1335ad47a1dc5aba8021591600c5b12a8747d66dae00000000000000200c041ec64c5f22f9236459c6e25b08dec0,
  0x2fa5fe5e60141b00000000000000202c42dc1a9fa2d2b7ea364b86316cb749a8d23dbbf9e04dac8a46851c80a8586a00000000000000204f,
  0xeccc2d7c70a18df67befca02f0ffe46d649d4269c8512700000000000000202bbd03b46b4efadfd7da977d813bd1d0e3a7d8be82ff20387f,
  0x00000000000020257f5baf6089ab23ee9d02d94c64300328b4396cf8cc509553ebc728d492589c000000000000002052b52201742acc7816,
  0x30768b538331e998e07f0cbba89c6a000000000000002047d7f49a6fe1c71b45c8b8725a7211dd42e3cbe894b0909f0bf52afd95e9898100,
  0x92f85abeb7863881854bbc63f299194075a7e1eb797adb1facf1d759c13cb700000000000000202c8163b875046d1520ebf6f60dcaa81582,
  0xb90f8f5767d3660000000000000020247ddffd0aeb866635ff979c94ac64c0b522d0527406de96ec22454440515c81000000000000002034,
  0xf3f2e7ca27f60090dad2324fe829ee005c81d9be65c48b000000000000002066449f84a346eae89a65abacdfe190473c85766142d53245a2,
  0x000000000000203c618f631507c85e2e1623fb01047e47b34f6bde05cafbef0047ecbd5d9787d60000000000000020735b974cf31481385e,
  0x2a97f0ea934714638e659f352e9cb30000000000000020105cfe6ac0b304b715666171614f4af41c1a28693384fdadbfcdd65b182c394700,
  0x371cc62d7b3bbd1ab3cec2a95f7a6be14acfe9707c207919166277aed257fd000000000000002041f1e56a1117582d3bdd2f262d16c55c8d,
  0x6f1c5a8f9afd5700000000000000200626ff82143e76c32678ee085ffc7a07db6a0572de9db9c3ffe745dfc5e9cc08000000000000002018,
  0x9b398734ad778786c01ae63e05006ca59e7a29502430c60000000000000020369dd47858fb3228808f7173e3c4ec636804bc9d93d1afe474,
  0x0000000000002017a9de3703c20e7667c1f2d70710e0277dc6f75518bccaa33de214d50f870aa10000000000000020407f2435eb7afac954,
  0xc8a59e8ed273e2bc318ca55b79554600000000000000203f4f7008d582c4ce10e6ea1e5dded63622e1d771e3566d14c285e273fd3f54b200,
  0xc5ba8b7be815703d54d50a5b26879a79b5b7ad9ca4561a136d20b5adbfbc22000000000000002066c71f025e5c9ec8d77a42c2c1249efd33,
  0xafe8e05d9e6974000000000000002047817d6ff7e8b030c74d16535de4663a1cec93ae5f3d03e85fdff1affb3c9cd2000000000000002044,
  0x9a45b0afb08263b657a8ef464994bacd75ea19896eddc2000000000000002059192465eb08a561f56addcb210936c8377fc6122556b4e11c,
  0x000000000000203cac9a36c38c235df762919440003006ea877defb94e54709ce1f5a81b9434150000000000000020322223439e005099e6,
  0x2f8b83ec3fbf4a7492d2df627eff880000000000000020282fc47d42055098c9134b6e07e16e9202d9ccaaea5e2e590f8c737cb6ee999900,
  0xfb6d5a5b34c3b06734a4e1053c86e7d9ae9b90d9563bb614449f573677ebd700000000000000207032b726c6d37237418fb0135ff95731ea,
  0x0b84328acfabc500000000000000205c85872036dff28c119fd8438d569fa0eb8974a71c76b3b990392d4ad30ead8b00000000000000205c,
  0x51cf2ab33f5f045213735c22265690c992c22d0709b83a00000000000000203f07a019b1d9ed52a323241ff964eff2746475831bb6bab00b,
  0x0000000000002007e149a34a6f3b152b3bc62690e1052fc5e5854b1e9789b59a2609c6c012cda200000000000000204398a6c0102ea4a4c8,
  0xc738db258ab32cd0927db9feea9c7200000000000000205cbcd050568c4352e5f37dd65002a9d663f63220a245ad67ff0358d5e804674d00,
  0x8389f9d2a111024b149b1ea7c42bbf06ba38cf722358853833c0941664e10d00000000000000204217202385f82ef546eda78667efbc9ae5,
  0x40e25ce3d44fc89f1fb3bebf1d0042fab699cc29b605e87155d406dcec97beb8000000000000002002]

/-- the 5809 bytes -/
def xfrFile55 : Bytes := (xfrFile55Words.flatMap (leBytes 56)).take 5809

set_option maxRecDepth 100000 in
theorem xfrFile55_check : checkTransfer xfrFile55 (Spec.transferVars 20 5 5) 32768 (Spec.transferPublic 20 5 5) = true := by
  decide +kernel

theorem xfrFile55_size : Spec.IsSize (Spec.transferGates 20 5 5) 32768 := isSize_of (k := 14) (by decide) (by decide)

theorem xfrFile55_len : xfrFile55.length < 2 ^ 64 := lt_of_le_of_lt (List.length_take_le _ _) (by norm_num)

/-- the entry for 5 inputs and 6 outputs: words of 56 bytes, little-endian, the last one shorter -/
def xfrFile56Words : List Nat := [
  0x0000000000000020000000000000000000000000000000000000000000000000000000000000000000000000000000000000000000000000,
  0x0000000000000000000000000000000000000000000000200000000000000000000000000000000000000000000000000000000000000000,
  0x0000000000000000000000000000000000000000000000000000000000000000000000000000002000000000000000000000000000000000,
  0x0000000000000000000000000000002000000000000000000000000000000000000000000000000000000000000000000000000000000020,
  0x0000000000000000000000000000000000000000000000000000000000000020000000000000000000000000000000000000000000000000,
  0x0000000000000020000000000000000000000000000000000000000000000000000000000000000000000000000000200000000000000000,
  0x0000000000000000000000000000000000000000000000200000000000000000000000000000000000000000000000000000000000000000,
  0x0000000000000000000000000000000000000000000000000000000000000000000000000000002000000000000000000000000000000000,
  0x0000000000000000000000000000002000000000000000000000000000000000000000000000000000000000000000000000000000000020,
  0x0000000000000000000000000000000000000000000000000000000000000020000000000000000000000000000000000000000000000000,
  0x0000000000000020000000000000000000000000000000000000000000000000000000000000000000000000000000200000000000000000,
  0x0000000000000000000000000000000000000000000000200000000000000000000000000000000000000000000000000000000000000000,
  0x0000000000000000000000000000000000000000000000000000000000000000000000000000002000000000000000000000000000000000,
  0x0000000000000000000000000000002000000000000000000000000000000000000000000000000000000000000000000000000000000020,
  0x0000000000000000000000000000000000000000000000000000000000000020000000000000000000000000000000000000000000000000,
  0x0000000000000020000000000000000000000000000000000000000000000000000000000000000000000000000000200000000000000000,
  0x0000000000000000000000000000000000000000000000200000000000000000000000000000000000000000000000000000000000000000,
  0x0000000000000000000000000000000000000000000000000000000000000000000000000000002000000000000000000000000000000000,
  0x0000000000000000000000000000002000000000000000000000000000000000000000000000000000000000000000000000000000000020,
  0x0000000000000000000000000000000000000000000000000000000000000020000000000000000000000000000000000000000000000000,
  0x0000000000000020000000000000000000000000000000000000000000000000000000000000000000000000000000200000000000000000,
  0x0000000000000000000000000000000000000000000000200000000000000000000000000000000000000000000000000000000000000000,
  0x0000000000000000000000000000000000000000000000000000000000000000000000000000002000000000000000000000000000000000,
  0x0000000000000000000000000000002000000000000000000000000000000000000000000000000000000000000000000000000000000020,
  0x0000000000000000000000000000000000000000000000000000000000000020000000000000000000000000000000000000000000000000,
  0x0000000000000020000000000000000000000000000000000000000000000000000000000000000000000000000000200000000000000000,
  0x0000000000000000000000000000000000000000000000200000000000000000000000000000000000000000000000000000000000000000,
  0x0000000000000000000000000000000000000000000000000000000000000000000000000000002000000000000000000000000000000000,
  0x0000000000000000000000000000002000000000000000000000000000000000000000000000000000000000000000000000000000000020,
  0x0000000000000000000000000000000000000000000000000000000000000020000000000000000000000000000000000000000000000000,
  0x0000000000000020000000000000000000000000000000000000000000000000000000000000000000000000000000200000000000000000,
  0x0000000000000000000000000000000000000000000000200000000000000000000000000000000000000000000000000000000000000000,
  0x0000000000000000000000000000000000000000000000000000000000000000000000000000002000000000000000000000000000000000,
  0x0000000000000000000000000000002000000000000000000000000000000000000000000000000000000000000000000000000000000020,
  0x0000000000000000000000000000000000000000000000000000000000000020000000000000000000000000000000000000000000000000,
  0x0000000000000020000000000000000000000000000000000000000000000000000000000000000000000000000000200000000000000000,
  0x00000000000080000000000000006dfd00000000000000000000000000000000000000000000000000000000000000000000000000000000,
  0x5223f6a999913a0000000000000030000000000000000d000000000000000001000000000000000000000000000000000000000000000000,
  0x9db8bc3784912c000000000000003092626fda6ff3b07dbad07f92deb0fd77768efb9f63d4c303651eb4178d480e23b6482bac2b8a2d15b7,
  0xd2c0b8fb03429200000000000000300469a894b6ccc5678c88a177cafceae7578b284246446684c0df0f77d71c83bc02c5a86fd13a2da2c1,
  0xa9c658761aae4b0000000000000030040febbfba1ed082148782c962e44d0c1994c0d710c6a20b4e13340dd3ada31a879ea8f08ae9691651,
  0x540a61e286a89f0000000000000030101275d3750b67ff070cbcaa9f62aff75866ef8d2851e665976a5e8b6256c4a26a86ecd1e552f87fd6,
  0x4a2c3d70e601a600000000000000309574e853d2f540e54c4bb96ca3a270546bc29cee2395e9761366c29fd77bb5877de1c83232692dc1ea,
  0x06ece4d0a767e1000000000000003082547759759e0e950a0e5840759952bc6ba96e48b0351c1fc085a0a04a90d7b5ff2ec5b188530900b6,
  0x0000000000000000000000000000300499e67010bee0cf129d2187fef0c023a51f17b397913375ba0be4b35e671310c72c4889e2e569e177,
  0xd89fadb0330e1800000000000000304000000000000000000000000000000000000000000000000000000000000000000000000000000000,
  0xa9162cf69b7f50000000000000003012c07fab5752d23287f695ee4d57a816cb7758245854d61c7e67002172a7695a023a99b98e824ba83d,
  0x941ede4fa527e000000000000000308abc9c903dc53c0552b3703dfba5667ab7022fe26dab94e0ab29a20491186225652a68e5f5626a078a,
  0x09a757ee9f50140000000000000030837c8cf10419d492ad10c13729ad62dcbe4fe6785ce8c24c922a96ff55d98c25a1171195333b3e6bc6,
  0x50756bf1c40f2e000000000000003012f3d4613991dd10a3050ce92f922ecc0200f71f612b7526a06a583268b5c17a143bf0f645626a95d7,
  0x0000000000003000000000000000059119165955f9572cc7a70f9617fa769ee3d11102f043f9f5d398802174dbf9b7415018caccbd3852b6,
  0x000000000000308f6ce4e46b3b6e106d2bae72480ee3c3585734aecbfe41466197a4823c0e641211522fd62370c9baa86bb7b510e982d400,
  0x00000000000030838bec95821e65c144ad9ea6df0ba7f28c139661c1ffa4f38c080b16a4ea31d27354a8af96dfc16dcbf9b88922e7f85800,
  0x00000000000030971010dea98aea1d1b80e33e173d9cddb34ee3b355e10ae660b2ff04526abe9439a25768a3c42d21b0cf10c0955a101300,
  0x000000000000300cef1c3f0f1425e48d911b9725aadd40c9ba7a90189fab36577d94adc84f8005cd876184a8d8ea370b39a42cf43b18ae00,
  0x000000000000300cf80981954bc7132cafbd777be31d244532a6d6bbb058ef0012f9ef09bc87f474636653cf83fb6de6151c3aae42bdb900,
  0x000000000000059432bd560ce22949536e6f45761aad0390ef6aaf51b87a8979aea8ceb78842396e0823ba07e2148c78af5738a770a54d00,
  0xe09db580600dd900000000000000200000000000000000000000000000000000000000000000000000000000000001000000000000002000,
  0x4ac3e799f2e8ecb47001f57845bbbfd7c0070a381d364d00000000000000206141e529fcdc704e26ef0699ca82c49012c588ada0e784368b,
  0x000000000000202664991206cc6e6a144513f4c899a417ee516fa456ee3f9ec51c159ddca97c33000000000000002022a342a0964a25e0e9,
  0xd5f51db3f32699fbd047e11279bb6e000000000000002041feb67496b6e8973bb1afa6ef9bb1c0ce7b067b089b046d2903ccdd332888e600,
  0x00000000002e250000000000001f48000000000000106b000000000000003200000000000080003291357ee558b50d483405417a0cbe39c8,
  0x000000000050dc0000000000004f9d0000000000004e5e0000000000004d1f0000000000004be00000000000004bdf0000000000003d0200,
  0x00000000005f2c0000000000005f2b0000000000005f2a0000000000005f29000000000000535b000000000000535a000000000000521b00,
  0x00000000005f330000000000005f320000000000005f310000000000005f300000000000005f2f0000000000005f2e0000000000005f2d00,
  0x00000000005f3a0000000000005f390000000000005f380000000000005f370000000000005f360000000000005f350000000000005f3400,
  0x00000000005f410000000000005f400000000000005f3f0000000000005f3e0000000000005f3d0000000000005f3c0000000000005f3b00,
  0x00000000005f480000000000005f470000000000005f460000000000005f450000000000005f440000000000005f430000000000005f4200,
  0x0000000000002000000000000000320000000000005f4d0000000000005f4c0000000000005f4b0000000000005f4a0000000000005f4900,
  0xd88fbfa4f8cbb21741f75d05ab620600000000000000202ee17a2dd281998b5195cd38b5b03e3893c0903426716dae8d35fddefa6b006300,
  0xfd2d2688ee9cb4a4133e3d6a9fa40b3b7ac19c0a6613c27acf04b03fa8b74f00000000000000202c4bb4953be9c97242b60f8633da04a918,
  0xb2054aad3e0eac00000000000000204ce9d2a0077aee5ae1cd63b1ebcc8c96437d5f18843d9b38d91e0b761b3183f100000000000000202c,
  0x464b14f406076c645e9d7704fef9791e548a55ea425d5e00000000000000201024e1c70d6cd73b4c99e2afa3ee6d4699d3aa011f3a076316,
  0x000000000000206b3e5b90c22ec3d04d701f980942d457521400989b8b6df28b4f5b27f51dc9000000000000000020322d9182cac5b05bf7,
  0x7415b866b3e906d8286c18940cbecd00000000000000205f5b6462cd58672209e5ac1caee9a108de115d4d2e8e2b2d3c3b4fa3b9d45b8d00,
  0xe17855b88c61faa83cd785c5ae143cb5bb34e3bbd2cade4b64dd35f416d815000000000000002066ac7085e6e8c9d75291f389effbf3f9c4,
  0x6e6e6a56ff8f4e000000000000002029cd60ee64f2404fc7e11e34f67003f5ab41f12c4fec28c33b7b4555a2b95e3a000000000000002013,
  0xfb701d188e1c738ffcc964f482552ba222cee76f35a8ae0000000000000020032541a7e43fecbf7c2c7aa0dcdcfedcac169344dc4538fa61,
  0x0000000000002073641b1bb38535c0a7729a2e131ad8190911026208a5d1674e3c8e79517d83bb00000000000000206a6e258ed14120c911,
  0x63bc72c9fa118b7610431c0676a0f4000000000000002049421df32ebc2f4ffa7dacee50b62a1b221cda3a07ca52f76c0b0b9bb90d971200,
  0x86db17d4ecded5cc4f271880635f570f112345a668cc0eb205dbc84f9e4611000000000000002062c3cb34f5b97459655bb01a0a4eb3028d,
  0x99bae84adb908c000000000000002012e8aca9d8433323b1c4465aeeb2623b3d75a9ffbb721ab9bd1dc26e5b1ad74100000000000000204b,
  0x7dea7cef435c901468397719b8ce7d1721125136e484e400000000000000203074690a0ac17b377393b5fb34240d21cd7f9422dd64809a61,
  0x00000000000020485121f10df1e9cabd88452fe09400b02738b9bad3e45dc0c5b654ea137696fa00000000000000205cae642027abbf0259,
  0x724c199e9c3f2fbc3fc286c41535b900000000000000200b08a2ca3d9c61f0dd512318d5555bf50be838906d2434bbcb8c7a144949aceb00,
  0x0ca8dd69cb373cc360a20be1ce7714ad381a333c2e9cd6c71b535d99175c88000000000000002061280c4e53a49245be11bb806894a73444,
  0x1d65e0a2432cad00000000000000204bf373c0fd42336b8c6740a10a992b92b69b81836314fe7f6104b6b9a19cffc0000000000000002013,
  0x06e892b40de7617a93025e230df54c14135fd4709b352d00000000000000205127dcc185e2b9d2674e9e8a82809bd2b7f8b2539097db3700,
  0x00000000000020682fd3c58edd0caf43404768e94d0095c449a2107cec00579bd8956b988f63ef00000000000000203aece948a4a595f8ba,
  0x92721e279568761258e63fac3870da000000000000002022897c51a5b8fc97c2f07a8e3743b675e7520616c9e73ac4515130153dd95b5a00,
  0xeae38d926d9f3d0aa4dfb312072d6a19d53cdd880ea6e9b5065bae3730520a00000000000000203ea53cfe1df4d6c230a1062af9a145340d,
  0x2447f36e7f0f8200000000000000200599208dbe4861dc9b9c0af0d1a45447a9395a758894c89759aa49e72b224294000000000000002068,
  0x02906299212b674c03f17c43c6968ef1fad734aa512d7400000000000000202ac3961264f44170397b0d7fe2bc298044c3427b8a4831a4dc,
  0x0000000000002011c90cda7e46c480ca9ac195708a4caa3bbdd17d1131c6bf6dbd0288aebf9aa80000000000000020434d25d7baca7523b0,
  0x5b0181399dfe56c0523b5a05ef2fc400000000000000200a1eb9f931422958577c76fc6997e561598f1a7a5b8d54ae5eb85ee5046cb89500,
  0x9067cd98e88f5dc0012a088b88c9f65e951676592a4431817bd1cbb6607420000000000000002005c9cdef5d430389d83a1d9d5f1cc05697,
  0x5cfa054d70b07e00000000000000201f12165d89f5da204edb038a77cee25abd893b920609cb96b560bc5eb281cd8e00000000000000205f,
  0x2c6d5d1f7754c2b0bbe21c17e1564b4e6c20a3f23d9e2a0000000000000020567cec0674d33a8755c3f8ddaf3ae1fc868eeff88afe0035aa,
  0x000000000000201dbf6478d0200bb6b8d64e020a08e8a288c129518a0172abcedf40a3bac8a627000000000000002023063776620aef7053,
  0x84b2595cf7ca9a1c6b1d34e66dabc2000000000000002024cee69229d02104d618e7cd5beba25ce313d83254d968a6658c45af483893e900,
  0xa1f2bdedb3b3d5f083c881d5c7d35c3ae514435b05904ce8be08a1fa549dfb0000000000000020601703e827a1bad3eacca7466deab716d6,
  0x4927ec2d9b3f9100000000000000201271da60599b3e252d90b0108f3035a67b4721e8f2042b040f3f53b5d7ab16c0000000000000002047,
  0x2c0f69207b3ba19b692c7b91d58d82a2fcae756b010bd400000000000000201a64536a8a23bd34ae7724f85113f73e6036708cf64fc415b5,
  0x00000000000020066b5d6a54bc96ec1ec1170a1ad62499ab658510df60e2e51d583d7e2f800c81000000000000002049c8bac753ac7eb286,
  0x6038dff04bad672d39adda3d5a579cb262fb462d7887c139336cabb111ee23df00]

/-- the 5857 bytes -/
def xfrFile56 : Bytes := (xfrFile56Words.flatMap (leBytes 56)).take 5857

set_option maxRecDepth 100000 in
theorem xfrFile56_check : checkTransfer xfrFile56 (Spec.transferVars 20 5 6) 32768 (Spec.transferPublic 20 5 6) = true := by
  decide +kernel

theorem xfrFile56_size : Spec.IsSize (Spec.transferGates 20 5 6) 32768 := isSize_of (k := 14) (by decide) (by decide)

theorem xfrFile56_len : xfrFile56.length < 2 ^ 64 := lt_of_le_of_lt (List.length_take_le _ _) (by norm_num)

end Verif.Setup
