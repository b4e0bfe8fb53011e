import Verif.Setup.Shipped

/-!
Row 3 of the table in /repo/api/parameters/transfer-vk-specific.bin: transfers with 3 inputs.  The test of `Shipped.lean` is run on every
entry by the kernel.
-/

namespace Verif.Setup

/-- the entry for 3 inputs and 1 output: words of 56 bytes, little-endian, the last one shorter -/
def xfrFile31Words : List Nat := [
  0x0000000000000020000000000000000000000000000000000000000000000000000000000000000000000000000000000000000000000000,
  0x0000000000000000000000000000000000000000000000200000000000000000000000000000000000000000000000000000000000000000,
  0x0000000000000000000000000000000000000000000000000000000000000000000000000000002000000000000000000000000000000000,
  0x0000000000000000000000000000002000000000000000000000000000000000000000000000000000000000000000000000000000000020,
  0x0000000000000000000000000000000000000000000000000000000000000020000000000000000000000000000000000000000000000000,
  0x0000000000000020000000000000000000000000000000000000000000000000000000000000000000000000000000200000000000000000,
  0x0000000000000000000000000000000000000000000000200000000000000000000000000000000000000000000000000000000000000000,
  0x0000000000000000000000000000000000000000000000000000000000000000000000000000002000000000000000000000000000000000,
  0x0000000000000000000000000000002000000000000000000000000000000000000000000000000000000000000000000000000000000020,
  0x0000000000000000000000000000000000000000000000000000000000000020000000000000000000000000000000000000000000000000,
  0x0000000000000020000000000000000000000000000000000000000000000000000000000000000000000000000000200000000000000000,
  0x0000000000000000000000000000000000000000000000200000000000000000000000000000000000000000000000000000000000000000,
  0x0000000000000000000000000000000000000000000000000000000000000000000000000000002000000000000000000000000000000000,
  0x0000000000000000000000000000002000000000000000000000000000000000000000000000000000000000000000000000000000000020,
  0x0000000000000000000000000000000000000000000000000000000000000020000000000000000000000000000000000000000000000000,
  0x0000000000000020000000000000000000000000000000000000000000000000000000000000000000000000000000200000000000000000,
  0x0000000000000000000000000000000000000000000000200000000000000000000000000000000000000000000000000000000000000000,
  0x0000000000000000000000000000000000000000000000000000000000000000000000000000002000000000000000000000000000000000,
  0x0000000000000000000000000000002000000000000000000000000000000000000000000000000000000000000000000000000000000020,
  0x0000000000000000000000000000000000000000000000000000000000000020000000000000000000000000000000000000000000000000,
  0x0000000000000020000000000000000000000000000000000000000000000000000000000000000000000000000000200000000000000000,
  0x0000000000000000000000000000000000000000000000200000000000000000000000000000000000000000000000000000000000000000,
  0x0000000000000000000000000000000000000000000000000000000000000000000000000000002000000000000000000000000000000000,
  0x0000000000000000000000000000002000000000000000000000000000000000000000000000000000000000000000000000000000000020,
  0x0000000000000000000000000000000000000000000000000000000000000020000000000000000000000000000000000000000000000000,
  0x0000000000000020000000000000000000000000000000000000000000000000000000000000000000000000000000200000000000000000,
  0x0000000000000000000000000000000000000000000000200000000000000000000000000000000000000000000000000000000000000000,
  0x0000000000000000000000000000000000000000000000000000000000000000000000000000002000000000000000000000000000000000,
  0x0000000000000000000000000000002000000000000000000000000000000000000000000000000000000000000000000000000000000020,
  0x0000000000000000000000000000000000000000000000000000000000000020000000000000000000000000000000000000000000000000,
  0x0000000000000020000000000000000000000000000000000000000000000000000000000000000000000000000000200000000000000000,
  0x0000000000000000000000000000000000000000000000200000000000000000000000000000000000000000000000000000000000000000,
  0x0000000000000000000000000000000000000000000000000000000000000000000000000000002000000000000000000000000000000000,
  0x0000000000000000000000000000002000000000000000000000000000000000000000000000000000000000000000000000000000000020,
  0x0000000000000000000000000000000000000000000000000000000000000020000000000000000000000000000000000000000000000000,
  0x0000000000000020000000000000000000000000000000000000000000000000000000000000000000000000000000200000000000000000,
  0x0000000000004000000000000000450800000000000000000000000000000000000000000000000000000000000000000000000000000000,
  0x3f58a1aced5af20000000000000030000000000000000d000000000000000001000000000000000000000000000000000000000000000000,
  0x152694c8a0438a0000000000000030053914e886c87996d1fcf7c4ea6a23379ccef5fd003fa603b36774739d95fa9861f98bc88b39099c96,
  0xb25ca8d6697f4700000000000000300502fb2cf9586b4f3e7ff03541fa889cfc9bb4eac8bee5ddb23a46d6d6c7b50fe4917db93babbf8ebc,
  0x7c4fc711a3fc3d000000000000003088ab5993f3d9d2db16d41fa63e6587706e6e10e2e406128179c5cede04c29ec2848a25ed0b038dfaa6,
  0x458b20794186fe00000000000000308926d45986b1a674fddadc871b5e7a1e41392990dcc8020b83b4d9d2e5276a070b17dc04217c86f461,
  0x11b52c02674ea4000000000000003082fd89a8fa609b6c00247e7faa660345fe735e8de7b1b075cc17062f90bcb92d066cc553bf99261347,
  0x5d45bca416506e000000000000003097b0a0c6c315a5eaf444d26419646a57df54108a44b78fcb6d47a01f879a9cd0e0b7fa042a127d24f0,
  0x000000000000000000000000000030081a25b465553c524c4b8407fd4f869b464091fa1229522d0ee7119f0e79b7fe8df3b1fe1337cc5977,
  0xff51187e98f67300000000000000304000000000000000000000000000000000000000000000000000000000000000000000000000000000,
  0x9f320e9fc7fe530000000000000030027b484b30b29a95fd085d3c05bbf8468fd7498d7b2850a3d8aa33c943d08b4481dc570b22b920cf57,
  0x39932923ae66ea00000000000000308ab2829db1f4e64d00430dbae14a401fc9790399a5720dd870fbeb41a6e40a432a31644589155ca648,
  0x94f424fa95b67c00000000000000308969aa96a6fb8f9dc776f073c8d363e057c4902346d8a8e9093b1ffef01711507ca4b1edb6096d774b,
  0x41c8b1be17010e00000000000000301122ee36704c8f6bd58ea7577d52031a6d5867b9efa91291b1632976a7cde476e9b62e14de69bc2abd,
  0x000000000000300000000000000005143b7f2cc4384f9344d50be0cd3c14618e731d9487a46bdc1e84af9e9d1ed392128db4741ef2386d53,
  0x000000000000308d6634b011f9a6525aa15e55ef9bcb07db0965c29458fdcfea0220727407f0dc88ed6bc900fa9c94870fca90e9a3f26700,
  0x000000000000308f0c7cf4dd743f0be142cdb8475f1659a2dbe6d26edc378d2865afc89df9951847ad79179cc58b5077440b7d296e25ee00,
  0x0000000000003080946e983bc696e7cc0d3881a5dbba3f41e0d8ceadf5441e2e76ab862ab41603beab2caa4eac37a58f6b7fc9515a12e300,
  0x00000000000030901d0f7a690620d9db3478988ce9e677913494f79417108638ed16a5ae480138cb9f48f85847958a5816f9754c89dd7400,
  0x00000000000030100ec8e48a98b105c0685c96f9cc14c6d9b7be37c3ec5384e736ecbf16b7388f947209830e22352d98fed87f0549eaa100,
  0x0000000000000583a216a8b868cad0f1ac59dacce2a57a4aa2b9f5df5cb3ed628512d1c02d7524e1b524a2081f46f10ffa135796f2302c00,
  0xe09db580600dd900000000000000200000000000000000000000000000000000000000000000000000000000000001000000000000002000,
  0x4ac3e799f2e8ecb47001f57845bbbfd7c0070a381d364d00000000000000206141e529fcdc704e26ef0699ca82c49012c588ada0e784368b,
  0x000000000000202664991206cc6e6a144513f4c899a417ee516fa456ee3f9ec51c159ddca97c33000000000000002022a342a0964a25e0e9,
  0x4622f6a9152435034d2ff22a5ad9e1000000000000002041feb67496b6e8973bb1afa6ef9bb1c0ce7b067b089b046d2903ccdd332888e600,
  0x00000000002d850000000000001ea80000000000000fcb000000000000002b000000000000400056624634b500a166dc86b01c0d477fa6ae,
  0x00000000003a970000000000003a960000000000003a950000000000003a940000000000002ec60000000000002ec50000000000002d8600,
  0x00000000003a9e0000000000003a9d0000000000003a9c0000000000003a9b0000000000003a9a0000000000003a990000000000003a9800,
  0x00000000003aa50000000000003aa40000000000003aa30000000000003aa20000000000003aa10000000000003aa00000000000003a9f00,
  0x00000000003aac0000000000003aab0000000000003aaa0000000000003aa90000000000003aa80000000000003aa70000000000003aa600,
  0x00000000003ab30000000000003ab20000000000003ab10000000000003ab00000000000003aaf0000000000003aae0000000000003aad00,
  0x00000000000020000000000000002b0000000000003ab80000000000003ab70000000000003ab60000000000003ab50000000000003ab400,
  0xd820e78175123291bd3cf303a0b61f000000000000002011a3ca44ec19c7180f6d11cefee20bab77048a033c35f59349846d998746da3400,
  0x77229c57a0a70bb7a6721402460a97f9ba251bbaa2f10c5aa38eeaf06acfba0000000000000020586b25efb5ae9e3b067eb0cc1a625e83b7,
  0xbb17ddafdb1e120000000000000020291e59bd98c3809901c95248e29048b5ca7439a77306f828d86fb7b1cfc2538f000000000000002063,
  0x6118a61d6711bb2ebd17d3391d2c617e324e996025baec00000000000000201b976f733bf1ad51aeec716524ac11ecfe1c1f093ee1fcdf5d,
  0x0000000000002017c865f46dc1a5b0a2f349233446e05462c281fe69fe387e31abcf5bdfc543860000000000000020642059e2b9c4410edc,
  0x5d8c0ff9b8791008752c1b4bd4c1bc00000000000000204573869af7482e125f42ac972cc8fdf88d797f6b5544f042fdfd47964948f80300,
  0xf781133a941ce01cb69794dac96fa0d455811ca89ee7a57f31e171db1d68460000000000000020362287eac87a3d083b4cbde77dfc47f34c,
  0x2c9449917c409800000000000000202de132c9e027aa8f01474a3885f64fe47be86cd78b4fb220d6230a5afa40794200000000000000201e,
  0x27682c3272ab88e5cf820ab324ffbec9719b620a273a59000000000000002011748f3cada48c6837bded2bb4e7868be9c1bf203eb0e64fe8,
  0x000000000000201df264ca57e4d73a0df2377481fd3b9e97c0e875adaa7c0676e53999a73217cd0000000000000020287559daee9c0988f7,
  0x06a3c7cc9bcf7f3f848f6617ad1f2600000000000000205fde9901332c2fa8a08eda970b4f87769ce2efa182877e96a4fc632dc996193f00,
  0x68f9bb0d99d0c72116a38e03f6a7ac3a60b0ed469f1f20595c38890af7a55500000000000000202e5b9a37529cdd95b7d3c4c4f3014b0767,
  0x8b81c8c7dbad640000000000000020030dc52f5b7b5d9cb6ef54ddcf939f405b5905b765ddfc14858ece8d7b48813e000000000000002032,
  0xea49bfeeea4ab3154ca91786087864b246bfec7738ad73000000000000002012fe43e564bbae1062000a4d8e2b2f0d6fcfc55e6b958c824a,
  0x0000000000002024a259a1d52d785a585b152c640e1d752528190230f05dc34ba8e2402c65863500000000000000204f026473a6d0316cfb,
  0x96de4c012b2580c3bd5942c1d1fe1000000000000000203e31439e9fbc68447a1c9fd285c2148d92f8f44d2e2614e87a8c7527635d7b1400,
  0x66f933120363033fb8258a076ebf9543b46360de803800f1e07608e12fc29a00000000000000204f79efd409d88f521b334ed75dcfae87ff,
  0x9b7a3212b7c82a00000000000000205fecf23625442b2fe63e83645d3aaf944c59247406b95dfc1823d313c2a53af800000000000000204a,
  0x8564b0bbcf0705661fc7099414f10c4a4088cb983db8d4000000000000002024ae90f7eeca851c2de2fba47cb84023b1e31e1840479475b3,
  0x0000000000002025611cd7bad6e909df93e340dda73b8ab209b92ed9021385ee01fb5cb9ce41390000000000000020341f83c75e55d6a5c1,
  0x566a7cbaff3ef83ddeb5deff5ec2ba00000000000000206cfbcce48c35849fee6d4bfb9e3dd45d1e3de482109f983f38c532a86292d6a600,
  0x4f704e8e64efa6e11e7672a50c65b106bb33f55498f1a7c1d7d8368e867d2000000000000000200041ba2668feb4abcea7046d70132cefb5,
  0xd8336ef8fa78bb000000000000002038ca56f4ff2fbbd7626ec16e1fe0c563a8f52dbcb4fc5537af2ed546b5aa119900000000000000203e,
  0x1b820d368b1b9470dfc3896f96b884d55156a97f9ca41d00000000000000200e03f261f579bf539ef9eb0e1c9d8b5a185ab4724bb47c9df5,
  0x00000000000020076ca07647ebcf1f0c1ae8c3423b8d10a96bca01262f017ecc8163f658137c8500000000000000206db6dcb03dcb1eb99b,
  0x7b11d3aa08d721c22879ad740c148a00000000000000201e8d6b511dbe20192b25e3b020899ea384b37dc2d50e6c23838f1a1ddddc1fbc00,
  0x70b2de7cd33dfaf5a37074a3ee0a99408360524955ed7ddfa8f9163ac41d42000000000000002045c39d8963fe9ce2784b270a65215aacc8,
  0xb5274c02120fc300000000000000205a4210e5f5138665cbb5fe442f120084888e11eb625d31907926f24ac249af67000000000000002055,
  0x4ba2929aafabf5ac00b1c595b251feffeb0f769e4809f1000000000000002041d59a8ef80592533b3abae019b507f3414b872e580b0b7e15,
  0x0000000000002043c0a3877fb8d59444a946cd4d3d48fb6230c719e14598a111d1f3ba823b87fc000000000000002056300df26b30d0d40d,
  0x30784e9401c6251a6eddf4e5ca45025626f6c6ede9e156a42901e127e9e58db600]

/-- the 5521 bytes -/
def xfrFile31 : Bytes := (xfrFile31Words.flatMap (leBytes 56)).take 5521

set_option maxRecDepth 100000 in
theorem xfrFile31_check : checkTransfer xfrFile31 (Spec.transferVars 20 3 1) 16384 (Spec.transferPublic 20 3 1) = true := by
  decide +kernel

theorem xfrFile31_size : Spec.IsSize (Spec.transferGates 20 3 1) 16384 := isSize_of (k := 13) (by decide) (by decide)

theorem xfrFile31_len : xfrFile31.length < 2 ^ 64 := lt_of_le_of_lt (List.length_take_le _ _) (by norm_num)

/-- the entry for 3 inputs and 2 outputs: words of 56 bytes, little-endian, the last one shorter -/
def xfrFile32Words : List Nat := [
  0x0000000000000020000000000000000000000000000000000000000000000000000000000000000000000000000000000000000000000000,
  0x0000000000000000000000000000000000000000000000200000000000000000000000000000000000000000000000000000000000000000,
  0x0000000000000000000000000000000000000000000000000000000000000000000000000000002000000000000000000000000000000000,
  0x0000000000000000000000000000002000000000000000000000000000000000000000000000000000000000000000000000000000000020,
  0x0000000000000000000000000000000000000000000000000000000000000020000000000000000000000000000000000000000000000000,
  0x0000000000000020000000000000000000000000000000000000000000000000000000000000000000000000000000200000000000000000,
  0x0000000000000000000000000000000000000000000000200000000000000000000000000000000000000000000000000000000000000000,
  0x0000000000000000000000000000000000000000000000000000000000000000000000000000002000000000000000000000000000000000,
  0x0000000000000000000000000000002000000000000000000000000000000000000000000000000000000000000000000000000000000020,
  0x0000000000000000000000000000000000000000000000000000000000000020000000000000000000000000000000000000000000000000,
  0x0000000000000020000000000000000000000000000000000000000000000000000000000000000000000000000000200000000000000000,
  0x0000000000000000000000000000000000000000000000200000000000000000000000000000000000000000000000000000000000000000,
  0x0000000000000000000000000000000000000000000000000000000000000000000000000000002000000000000000000000000000000000,
  0x0000000000000000000000000000002000000000000000000000000000000000000000000000000000000000000000000000000000000020,
  0x0000000000000000000000000000000000000000000000000000000000000020000000000000000000000000000000000000000000000000,
  0x0000000000000020000000000000000000000000000000000000000000000000000000000000000000000000000000200000000000000000,
  0x0000000000000000000000000000000000000000000000200000000000000000000000000000000000000000000000000000000000000000,
  0x0000000000000000000000000000000000000000000000000000000000000000000000000000002000000000000000000000000000000000,
  0x0000000000000000000000000000002000000000000000000000000000000000000000000000000000000000000000000000000000000020,
  0x0000000000000000000000000000000000000000000000000000000000000020000000000000000000000000000000000000000000000000,
  0x0000000000000020000000000000000000000000000000000000000000000000000000000000000000000000000000200000000000000000,
  0x0000000000000000000000000000000000000000000000200000000000000000000000000000000000000000000000000000000000000000,
  0x0000000000000000000000000000000000000000000000000000000000000000000000000000002000000000000000000000000000000000,
  0x0000000000000000000000000000002000000000000000000000000000000000000000000000000000000000000000000000000000000020,
  0x0000000000000000000000000000000000000000000000000000000000000020000000000000000000000000000000000000000000000000,
  0x0000000000000020000000000000000000000000000000000000000000000000000000000000000000000000000000200000000000000000,
  0x0000000000000000000000000000000000000000000000200000000000000000000000000000000000000000000000000000000000000000,
  0x0000000000000000000000000000000000000000000000000000000000000000000000000000002000000000000000000000000000000000,
  0x0000000000000000000000000000002000000000000000000000000000000000000000000000000000000000000000000000000000000020,
  0x0000000000000000000000000000000000000000000000000000000000000020000000000000000000000000000000000000000000000000,
  0x0000000000000020000000000000000000000000000000000000000000000000000000000000000000000000000000200000000000000000,
  0x0000000000000000000000000000000000000000000000200000000000000000000000000000000000000000000000000000000000000000,
  0x0000000000000000000000000000000000000000000000000000000000000000000000000000002000000000000000000000000000000000,
  0x0000000000000000000000000000002000000000000000000000000000000000000000000000000000000000000000000000000000000020,
  0x0000000000000000000000000000000000000000000000000000000000000020000000000000000000000000000000000000000000000000,
  0x0000000000000020000000000000000000000000000000000000000000000000000000000000000000000000000000200000000000000000,
  0x000000000000400000000000000046bd00000000000000000000000000000000000000000000000000000000000000000000000000000000,
  0xa0ece52e18aa3e0000000000000030000000000000000d000000000000000001000000000000000000000000000000000000000000000000,
  0x216dd7829b986000000000000000300fe94a3410810467678eb5d4b7f9fdbc7f5dcbf42553879356a42622bebff1c241c429fb2ebfab13a5,
  0xd32d49b18a31c90000000000000030923676eb9f41c6315c7c7d1a39759470c7185369d1c36184389b225d9ad09f30d6e0367665c4fca5b1,
  0x48b640d79e37ce00000000000000300d149cd7db382f1003468a45882415b717f1eb12b6e17e5670d79942ea35400797663d94aced49dd20,
  0x024a23a54c367600000000000000308573193be67d66ad79c5d074499206dd4f6b3738bad597218cdd2848167b5030c7c969eb3a12368174,
  0x5cedd9bd9dd933000000000000003011e6ea5a781889ce19a63e3cc9e8182ba3e488d4daef6d4ec5311906775942c62219b0114d919c179a,
  0x96c0cfd1b49fdc00000000000000300c86be9ad0dc5252df2dc7ce53160f3332428e7d561800c37fb6210e10aed464d2ac2b4d2cbe150d35,
  0x00000000000000000000000000003006995ebd4b066ac016b87a987dfc3b0338bebd4471e9c581960dc9bd3adc5b21534f258bc4d89c4cd9,
  0x0e5c92507c5df700000000000000304000000000000000000000000000000000000000000000000000000000000000000000000000000000,
  0x053dfa673d3b9c000000000000003088047f7a17766eff01838253d22c984af9a4cfd01372ffaf707d06d9cf96867bc152c73ec250944c03,
  0x70ba8566e66d8c00000000000000301514499cb2d557be856c09c2efcbe277f48f5dc433711f93f46bb760ee21ef128c8287500378c60338,
  0xb0b335a0838fca00000000000000300a3f9a3cbca560960049c8a698a0706c5b6f2bbe9878a84125a6bb144d13b6c647345d979ad8452299,
  0x28d1d0b4bbdfbf0000000000000030841c6a3aed56634dfb93814af14aadf3775189687a9f0764c24a8ec5f979e6fbcce2caac10dd48a791,
  0x00000000000030000000000000000591708ddc86c96d6f15f46e22c59ae865480b7c04908d37dfb190371a593e388e21623f310adfaff6af,
  0x0000000000003083d18e4f787e3188afafe9f8c22516aeb8fc5737fa0a27b4f230a728630aedffdee929b9770584807a1b284db0aefc3d00,
  0x000000000000308f40c78ce78722d8113eacc2adc226682bded05c6029b8cda9128683862c1ec2541a9d5f8f99b27ed214dacb219fc7e900,
  0x0000000000003000c7f6ee571551a7fe01a2d52a6c123fa614e54de96c214aa4ba90d256cdd146138cfa32733d45990e29573495f15d2e00,
  0x0000000000003004cfcde64f63a7d37340c07cf344ac8ae509786ba2bac3aaa3fb2c3a31a21f51bab9ab5a70a16ce47c87f3da4c8eb9c700,
  0x0000000000003088e3f7f4418e152ea5b2dc5408407ba40b2f17074dd3c13739a7ec08b3adf88fc47ee716ced4e8c985bb14153e1f3f0900,
  0x0000000000000596334d0fa963c1f616dff5134e30a525a639f7955c04e4276d3e033133a7426726672e2b21a19c2caf0ffe6ade028a8100,
  0xe09db580600dd900000000000000200000000000000000000000000000000000000000000000000000000000000001000000000000002000,
  0x4ac3e799f2e8ecb47001f57845bbbfd7c0070a381d364d00000000000000206141e529fcdc704e26ef0699ca82c49012c588ada0e784368b,
  0x000000000000202664991206cc6e6a144513f4c899a417ee516fa456ee3f9ec51c159ddca97c33000000000000002022a342a0964a25e0e9,
  0x4622f6a9152435034d2ff22a5ad9e1000000000000002041feb67496b6e8973bb1afa6ef9bb1c0ce7b067b089b046d2903ccdd332888e600,
  0x00000000002d850000000000001ea80000000000000fcb000000000000002c000000000000400056624634b500a166dc86b01c0d477fa6ae,
  0x00000000003bd50000000000003bd40000000000003bd3000000000000300500000000000030040000000000002ec50000000000002d8600,
  0x00000000003bdc0000000000003bdb0000000000003bda0000000000003bd90000000000003bd80000000000003bd70000000000003bd600,
  0x00000000003be30000000000003be20000000000003be10000000000003be00000000000003bdf0000000000003bde0000000000003bdd00,
  0x00000000003bea0000000000003be90000000000003be80000000000003be70000000000003be60000000000003be50000000000003be400,
  0x00000000003bf10000000000003bf00000000000003bef0000000000003bee0000000000003bed0000000000003bec0000000000003beb00,
  0x0000000000002c0000000000003bf70000000000003bf60000000000003bf50000000000003bf40000000000003bf30000000000003bf200,
  0xbd3cf303a0b61f000000000000002011a3ca44ec19c7180f6d11cefee20bab77048a033c35f59349846d998746da34000000000000002000,
  0xa6721402460a97f9ba251bbaa2f10c5aa38eeaf06acfba0000000000000020586b25efb5ae9e3b067eb0cc1a625e83b7d820e78175123291,
  0x00000000000020291e59bd98c3809901c95248e29048b5ca7439a77306f828d86fb7b1cfc2538f00000000000000206377229c57a0a70bb7,
  0xd2d96841b6def68434ca81ec62b09100000000000000201b976f733bf1ad51aeec716524ac11ecfe1c1f093ee1fcdf5dbb17ddafdb1e1200,
  0xe2843e75951843da7e6324f3bfdf011521dbace5c897b65a3dc045de89775e000000000000002010dda5beb7f5a54d46dafce0d7c021815d,
  0xc25409db01ba78000000000000002044b0d2a629ead2c2e1fe6e54e9fb2d3e31db703e71bf2b1b948c2891ca009840000000000000002059,
  0x15f1166912aa2d0ee373eb8446d839e7149e337b5e7a0700000000000000200473ab71724efb6c79d27b89bcad1e40867f0b2949f6540f6b,
  0x0000000000002011c109a213ebe14598e218347caa562446173269a11dbf1ff452098a98594c9000000000000000205224769826338b340f,
  0x96f993ff36909a1a24326e835188bf000000000000002071239a4bbeb6f70820a5e46e53bf3c611a94ce55a2426cd71ed36c0f464245e900,
  0xe1e626a413bf79ef05394b44a07a25d0e3b93f57364d2e543a96d4ff8abfd70000000000000020085b8f3f304f99abdb538f708a52ed1bfb,
  0x5a640cbbc995c0000000000000002060f0b9b6ed3369ce9cf746a1095b07839b26c83d537738d7f7f7eaf920573e0e000000000000002066,
  0xc4d80cce4e7bf44fcc2f7ea5256ceddf76f82cc68632ab000000000000002023d3cde710e4549497e16bc2081c0e279e0320b2b8bd4a50f4,
  0x00000000000020192a608af01796ca8c98e0855b13735c077b6faad10d311df5d9990f6fb3cc680000000000000020589a0ab5cdc750651f,
  0x70ec56eab967747caf2606876a0a3f00000000000000206ff92947784d238d9350dfa1dcd9629a227c1fb96dc5ad9d45d3a8f08756251400,
  0x85d41dffd796c89908e6679624089cbfe1c1e1a36125469ea47a932ef975a9000000000000002018e5dd8d4e7fcd210d0ebcd92073b66e83,
  0x115302080f2d50000000000000002008d24eb0611532aafdc431c9d3cfdc9e301bfbf41bc54363fc43d61bcbaaf28b000000000000002011,
  0x54cbf9ca42e887aba650e16f00b65a213dbb6aff319ebc000000000000002016b557b45e83e21b1a09700d021dbc26bd8ba649c05e803c6d,
  0x00000000000020127bbcff93a895c8454b476c97ea3dddd7fc26c50ec0a190e725f455f9d599f00000000000000020685f13d441e94a7534,
  0x3f26460a2a2eb4827743646733021f000000000000002005e1d85c6d44faf6d1358ee93d5f5e1239cf25c0e52b34893dbed4e6b08bacc900,
  0x23d7e86342db3516891d42e597c870239d5090a61cf6c6d3b8afb0f47e21e500000000000000202b16c59346c5a1643e6002bfd5bb460e26,
  0x4b4c8eaaa4d65100000000000000203139966f1a6a20fc269509d088270578f072cdc61c3714142a13373de77efcf9000000000000002072,
  0xa51433abab06075765d2f8022f0348febb07f43855f61500000000000000204317769f6a69faea208664cb64750bb461c63c372f6ccfde08,
  0x0000000000002023550c3e4c7e23f8b64e380d921f80d81dd86e8e22ae787670919a540e590a9e000000000000002019d3a75c77c288a602,
  0x6624b773c22331088c08687846affe0000000000000020166442ddb275aa1c3d756756169704b77c4181d38f3cb5afcb013627e1e6f9c300,
  0xe6137a54acffaae6db22292647910aebb5af84cc3d6aaa76d3c049f569cbc3000000000000002062d2c47cb92f143c65393ab3a20a076fac,
  0x1c3ccfd2d9f4f7000000000000002029ebb15efb953976580177e5bcb108f6ff76a2ae6b8c1547da98524e2ccba7af000000000000002055,
  0x56a0edb3f118fb3ac5b49e1261c4cac272901eca263a42000000000000002038e19103309048e0a58612b1ef19044ad71041f74d67c38919,
  0x000000000000202c193e529f34f2aee9740972e95f78a79c5d0ddc684591ce8a01fd019f73277900000000000000205c247331a26d3af982,
  0xaef5bde335b829cf4f077cc6b9b04000000000000000203d246b61aca0fc8703b2e96e66201688c5d6d26a3eab57273e50b7646f679ca800,
  0x58c49f3cf5862143640abb2e4a86c3c10cd4049342e9df851912cbc012eee400000000000000205faaf4d8f8999aec1aaff91beae7f20cf5,
  0x666b0557f8323900000000000000201790df7325f34357ab2d3deab7df44911bdfadcbaadc65e937cb8364e7433280000000000000002069,
  0x1f4d3f05041618c67e4a6016e3a2a8368217cbbdc1020909b9]

/-- the 5569 bytes -/
def xfrFile32 : Bytes := (xfrFile32Words.flatMap (leBytes 56)).take 5569

set_option maxRecDepth 100000 in
theorem xfrFile32_check : checkTransfer xfrFile32 (Spec.transferVars 20 3 2) 16384 (Spec.transferPublic 20 3 2) = true := by
  decide +kernel

theorem xfrFile32_size : Spec.IsSize (Spec.transferGates 20 3 2) 16384 := isSize_of (k := 13) (by decide) (by decide)

theorem xfrFile32_len : xfrFile32.length < 2 ^ 64 := lt_of_le_of_lt (List.length_take_le _ _) (by norm_num)

/-- the entry for 3 inputs and 3 outputs: words of 56 bytes, little-endian, the last one shorter -/
def xfrFile33Words : List Nat := [
  0x0000000000000020000000000000000000000000000000000000000000000000000000000000000000000000000000000000000000000000,
  0x0000000000000000000000000000000000000000000000200000000000000000000000000000000000000000000000000000000000000000,
  0x0000000000000000000000000000000000000000000000000000000000000000000000000000002000000000000000000000000000000000,
  0x0000000000000000000000000000002000000000000000000000000000000000000000000000000000000000000000000000000000000020,
  0x0000000000000000000000000000000000000000000000000000000000000020000000000000000000000000000000000000000000000000,
  0x0000000000000020000000000000000000000000000000000000000000000000000000000000000000000000000000200000000000000000,
  0x0000000000000000000000000000000000000000000000200000000000000000000000000000000000000000000000000000000000000000,
  0x0000000000000000000000000000000000000000000000000000000000000000000000000000002000000000000000000000000000000000,
  0x0000000000000000000000000000002000000000000000000000000000000000000000000000000000000000000000000000000000000020,
  0x0000000000000000000000000000000000000000000000000000000000000020000000000000000000000000000000000000000000000000,
  0x0000000000000020000000000000000000000000000000000000000000000000000000000000000000000000000000200000000000000000,
  0x0000000000000000000000000000000000000000000000200000000000000000000000000000000000000000000000000000000000000000,
  0x0000000000000000000000000000000000000000000000000000000000000000000000000000002000000000000000000000000000000000,
  0x0000000000000000000000000000002000000000000000000000000000000000000000000000000000000000000000000000000000000020,
  0x0000000000000000000000000000000000000000000000000000000000000020000000000000000000000000000000000000000000000000,
  0x0000000000000020000000000000000000000000000000000000000000000000000000000000000000000000000000200000000000000000,
  0x0000000000000000000000000000000000000000000000200000000000000000000000000000000000000000000000000000000000000000,
  0x0000000000000000000000000000000000000000000000000000000000000000000000000000002000000000000000000000000000000000,
  0x0000000000000000000000000000002000000000000000000000000000000000000000000000000000000000000000000000000000000020,
  0x0000000000000000000000000000000000000000000000000000000000000020000000000000000000000000000000000000000000000000,
  0x0000000000000020000000000000000000000000000000000000000000000000000000000000000000000000000000200000000000000000,
  0x0000000000000000000000000000000000000000000000200000000000000000000000000000000000000000000000000000000000000000,
  0x0000000000000000000000000000000000000000000000000000000000000000000000000000002000000000000000000000000000000000,
  0x0000000000000000000000000000002000000000000000000000000000000000000000000000000000000000000000000000000000000020,
  0x0000000000000000000000000000000000000000000000000000000000000020000000000000000000000000000000000000000000000000,
  0x0000000000000020000000000000000000000000000000000000000000000000000000000000000000000000000000200000000000000000,
  0x0000000000000000000000000000000000000000000000200000000000000000000000000000000000000000000000000000000000000000,
  0x0000000000000000000000000000000000000000000000000000000000000000000000000000002000000000000000000000000000000000,
  0x0000000000000000000000000000002000000000000000000000000000000000000000000000000000000000000000000000000000000020,
  0x0000000000000000000000000000000000000000000000000000000000000020000000000000000000000000000000000000000000000000,
  0x0000000000000020000000000000000000000000000000000000000000000000000000000000000000000000000000200000000000000000,
  0x0000000000000000000000000000000000000000000000200000000000000000000000000000000000000000000000000000000000000000,
  0x0000000000000000000000000000000000000000000000000000000000000000000000000000002000000000000000000000000000000000,
  0x0000000000000000000000000000002000000000000000000000000000000000000000000000000000000000000000000000000000000020,
  0x0000000000000000000000000000000000000000000000000000000000000020000000000000000000000000000000000000000000000000,
  0x0000000000000020000000000000000000000000000000000000000000000000000000000000000000000000000000200000000000000000,
  0x0000000000004000000000000000487e00000000000000000000000000000000000000000000000000000000000000000000000000000000,
  0x0bafa49c1dc8a90000000000000030000000000000000d000000000000000001000000000000000000000000000000000000000000000000,
  0xb086ed4d47960b00000000000000300d538a73e8169702c248542189793be17b601a487ca906acbca3c0b0ff9c38f6ba44b4ce140cad29d9,
  0x92fbc0b0c4c45e000000000000003090d65ea5a97c54dbd580dfb0746c46e9114eda6b37be7a98c017eacb13bb3ecaad7e52e8315766f7f6,
  0xf297b16d1c5cf4000000000000003011f1ed5c94043847e2116262145ff0e727bdcf14b16eac58b0ff77c6be15f7059271a850b09dbc6c43,
  0xd7c837b71851670000000000000030158e18952b1b646f964ee9403cf74850293a21fa168cfeda97340d46df33516b9ac77611faa4033932,
  0xf3724536872ec6000000000000003080cf14cde5c94feca0fdaf2481cbdf68a1f7ddb5bd12d1cb77886b2eca61d3b66ec9b7d2b2e9e68202,
  0x479f83f4a6befd00000000000000300bba7fc35291a742c6da49c1a9d6da76c3e60eb0895f5c249bf7d6ab69ef30de910cac75d5f86ba431,
  0x0000000000000000000000000000308e7bbad36446980f6801b822b438d0f0e80ad83cdca6e820d3ab1f50bb11cebd0e4b5e9e5bf030921c,
  0x853039cdda18a500000000000000304000000000000000000000000000000000000000000000000000000000000000000000000000000000,
  0xc935be095dd6850000000000000030851ae693a54f1cbd699cd3fd2c0ef7a5dafe49c214aaeb1659d8936d6989199bbcabec3ab2a12fff29,
  0xe9dd3307b431d7000000000000003097d62d23c3b7430ca9ef74c241fa134dfeef608f55fd323c65e44e26b8f9d30c8a85b3849dc1a33e0b,
  0xb433d6c13061d500000000000000300740141df0ae331d1772852f9f6b08be769e0b3e64ff73fac476e2dd09fc642ebf4c81a333c9cdbdbc,
  0x9c1965e001ce91000000000000003004f1ffc80401ce3ddc669a711ebc39c5544c9cf9eb30106458a2c01787b1c8e74e0b92e33083672d0a,
  0x00000000000030000000000000000509a8647e618a85073fe79ca8acd53f613005f21680e90df0a6248d4a318fbdb61a8cd15ed9b3462ac3,
  0x0000000000003082c5cd44347681c669c85600cece6f8c1896e2e6e8647482ffacfb20927523b6652bbfa0c4da99239f1a8e327e365b8e00,
  0x00000000000030829bf2dfd7dc16747597a15191f81272d40619e5dc45d7b02b174baa998300e85502c9e4edfde1ee31ec41e859cc58a100,
  0x000000000000308e035e2abefbc9430a1d402e41dd568932a6928c1cc240777c2ee892e858f6ba776852417ecbc5a8fb8e167f1dc75b2d00,
  0x00000000000030143f25622d22f265e6df5814bd65dc42d1324905c954ef1376ccc07ce1cd01f4ef089bbc6c1d313c1263d4049ef4a98700,
  0x000000000000300b22b5c0f676d5f28b49a3f2b2f9d35f7eeb3d0a086753ef38c55ffe94fefc3bd123841e860e6517b3bc77a8fdf4b33e00,
  0x0000000000000585806483b81b4e32dae1476103ba8a1d3ee2181bd89c1b70ef683f1e9f2d3647f325a10313998f8fce6a421f8d577ba500,
  0xe09db580600dd900000000000000200000000000000000000000000000000000000000000000000000000000000001000000000000002000,
  0x4ac3e799f2e8ecb47001f57845bbbfd7c0070a381d364d00000000000000206141e529fcdc704e26ef0699ca82c49012c588ada0e784368b,
  0x000000000000202664991206cc6e6a144513f4c899a417ee516fa456ee3f9ec51c159ddca97c33000000000000002022a342a0964a25e0e9,
  0x4622f6a9152435034d2ff22a5ad9e1000000000000002041feb67496b6e8973bb1afa6ef9bb1c0ce7b067b089b046d2903ccdd332888e600,
  0x00000000002d850000000000001ea80000000000000fcb000000000000002d000000000000400056624634b500a166dc86b01c0d477fa6ae,
  0x00000000003d130000000000003d120000000000003144000000000000314300000000000030040000000000002ec50000000000002d8600,
  0x00000000003d1a0000000000003d190000000000003d180000000000003d170000000000003d160000000000003d150000000000003d1400,
  0x00000000003d210000000000003d200000000000003d1f0000000000003d1e0000000000003d1d0000000000003d1c0000000000003d1b00,
  0x00000000003d280000000000003d270000000000003d260000000000003d250000000000003d240000000000003d230000000000003d2200,
  0x00000000003d2f0000000000003d2e0000000000003d2d0000000000003d2c0000000000003d2b0000000000003d2a0000000000003d2900,
  0x00000000003d360000000000003d350000000000003d340000000000003d330000000000003d320000000000003d310000000000003d3000,
  0x0000000000002011a3ca44ec19c7180f6d11cefee20bab77048a033c35f59349846d998746da340000000000000020000000000000002d00,
  0xba251bbaa2f10c5aa38eeaf06acfba0000000000000020586b25efb5ae9e3b067eb0cc1a625e83b7d820e78175123291bd3cf303a0b61f00,
  0x1e59bd98c3809901c95248e29048b5ca7439a77306f828d86fb7b1cfc2538f00000000000000206377229c57a0a70bb7a6721402460a97f9,
  0x34ca81ec62b09100000000000000201b976f733bf1ad51aeec716524ac11ecfe1c1f093ee1fcdf5dbb17ddafdb1e12000000000000002029,
  0x272ac88c40dff66da4474892b2d3b2b0635f2099b12736000000000000002010dda5beb7f5a54d46dafce0d7c021815dd2d96841b6def684,
  0x000000000000200809ee7dab78b218ec4fe5d4593edc948cf391179cc1eae5e68b1c164f48ac1f000000000000002006f8b1bc1c5168ca17,
  0xccd9f925e790ae9821af6258fade2600000000000000202c923ecf38375572057230c7809d1926cbc3e7334e360942bca928aa9d122db600,
  0x5e2965d28bda7968ca26d4702b1c6d1f8396832f63a0c23fe5be874638cee200000000000000203ae9f8687fed9203e00fae80bafb8f7e77,
  0xf8d6a12afd000d000000000000002015eee9d5d8ea7f6d1a520fe418edd0f28eaad1d94863f6eacdb3669a32ccdcfe000000000000002002,
  0x46fdc4526d921b23882df4d137c57ab81831048e8671e60000000000000020005b485e95e08b94d2d1ae18396c7cd9f886e61e3666df668a,
  0x000000000000205c3d73f83184cc0e520319c6a9ac68ccdbf84992e99334373f918501a33d117d00000000000000203940ff9bc2ffed680f,
  0xa8c0adf10661b9799c36766ba38f4700000000000000200d030e83dd24b6c08db2f68eeaab9c0b9d5824860faa919dca11d84aecfa83ac00,
  0xd57996b15f3c742fd0e4a0af3d16eb07a2f1607f4008b404c4f0e60707474100000000000000204039ecb6ef2bb34e8d94c9dea16d100808,
  0x5a30cf8c0a2cc7000000000000002022938816976b091293de90f4b932e9ce1804afa12be91b49ece30114822a48e4000000000000002073,
  0xf85be6f19a6b6430a0852670a20498281d0a1d67f7e7b7000000000000002073abf04b08e8cb22b9356e93331cbf59e6c61272da3ea4bcfc,
  0x000000000000206c7568bb2a26ad3dffca633a680c13f8ce6b75ea0cd901802ba333aa5d764ab300000000000000204e6a20e060a27ecfda,
  0xbe31e2667cb9a82c6903f286f78d26000000000000002003f486e13ca2f8d74d927e8d87cebee37731de01500d3cba75b82b7a2c65bd8e00,
  0xfc3c7b41e1f82247e130de37bcdc8ebd7444b87ae5b04b926be54f26bc22a600000000000000203ce80058ac0e42282a3303b7680363426d,
  0x084f7b6baf9bbd00000000000000201eaee992f047b690b3902c441fb15a207051b828104c7b8a6453da3bdf2cbfbc00000000000000203b,
  0x135ebf9be856e1def62f7e3856e97bad66d07f31912f5900000000000000204122066d2a717bf0656056cd0d2af1ac5aa3b841e78d56875a,
  0x000000000000203fde16d10d432b4105c6fcb59e060d6f196e9c06f60dd18efd3f9ca9d1e2fd58000000000000002067f2029c238eed1e50,
  0x347c3ec3130072ac8b02cff1aeacb20000000000000020678e2f21160375bf9e4a40b204cb2ca241fba8cb5d52e4378279aab450f9054900,
  0x8557615d2d2250d17e16e045c7104bb551f7f04346208e07048ce1e7b2320b00000000000000201a24741c9e3802c6dbd927756e7e660d90,
  0x6e6072af1f866100000000000000202830bddbea49572912f4f025d75edaf86620653efa1fae579b31fa8551ee8572000000000000002003,
  0xa7aa61d8515cad53da46d4deee481d80c304b0d60aa21d000000000000002068594088c315d3474953639b88f428574640c263eb5d652e73,
  0x0000000000002004ca751b0741693575cfc3c561ce85d2dcefede005a208e3c43a35663e490e92000000000000002007629563ce97b9b295,
  0x238ee19a920a1ff9e68dad8568d22d000000000000002000141e499c2205d243c3db1b045b3320a1a033b175043a88e29c97a82b65cff300,
  0xc27580367a2fba51cf0d0343e0c0d990a0161a3d80d88420c1f8852021730e00000000000000206636cd73cf754ef6761ac32b5af13a3ae7,
  0xddcdd5f98ba18c00000000000000206f6b14304089266c0549aca6ca44e2670b5d9c71a07012cc07532e396b2daaef000000000000002007,
  0x56735d37e66e2b6ba3c8c8ff9c08de917e4b77f53aefad0000000000000020065ecee325804e90ad34899d840ae03c98813ed4e9ebec2732,
  0x0000000000002056ddb285dcc28c38a8e81b5f4052dffbb551fd043cfc190cdc54d4abebc7443c0000000000000020383a1328179e42809a,
  0xd64468c4b76713c00a474cc05cfddd0000000000000020623fb199547804b83bb024758ea0b7d0380665059f4894ba3bcaeef024b62e8e00,
  0x5a9d2eece2f324ec06251e3d3755ec2025]

/-- the 5617 bytes -/
def xfrFile33 : Bytes := (xfrFile33Words.flatMap (leBytes 56)).take 5617

set_option maxRecDepth 100000 in
theorem xfrFile33_check : checkTransfer xfrFile33 (Spec.transferVars 20 3 3) 16384 (Spec.transferPublic 20 3 3) = true := by
  decide +kernel

theorem xfrFile33_size : Spec.IsSize (Spec.transferGates 20 3 3) 16384 := isSize_of (k := 13) (by decide) (by decide)

theorem xfrFile33_len : xfrFile33.length < 2 ^ 64 := lt_of_le_of_lt (List.length_take_le _ _) (by norm_num)

/-- the entry for 3 inputs and 4 outputs: words of 56 bytes, little-endian, the last one shorter -/
def xfrFile34Words : List Nat := [
  0x0000000000000020000000000000000000000000000000000000000000000000000000000000000000000000000000000000000000000000,
  0x0000000000000000000000000000000000000000000000200000000000000000000000000000000000000000000000000000000000000000,
  0x0000000000000000000000000000000000000000000000000000000000000000000000000000002000000000000000000000000000000000,
  0x0000000000000000000000000000002000000000000000000000000000000000000000000000000000000000000000000000000000000020,
  0x0000000000000000000000000000000000000000000000000000000000000020000000000000000000000000000000000000000000000000,
  0x0000000000000020000000000000000000000000000000000000000000000000000000000000000000000000000000200000000000000000,
  0x0000000000000000000000000000000000000000000000200000000000000000000000000000000000000000000000000000000000000000,
  0x0000000000000000000000000000000000000000000000000000000000000000000000000000002000000000000000000000000000000000,
  0x0000000000000000000000000000002000000000000000000000000000000000000000000000000000000000000000000000000000000020,
  0x0000000000000000000000000000000000000000000000000000000000000020000000000000000000000000000000000000000000000000,
  0x0000000000000020000000000000000000000000000000000000000000000000000000000000000000000000000000200000000000000000,
  0x0000000000000000000000000000000000000000000000200000000000000000000000000000000000000000000000000000000000000000,
  0x0000000000000000000000000000000000000000000000000000000000000000000000000000002000000000000000000000000000000000,
  0x0000000000000000000000000000002000000000000000000000000000000000000000000000000000000000000000000000000000000020,
  0x0000000000000000000000000000000000000000000000000000000000000020000000000000000000000000000000000000000000000000,
  0x0000000000000020000000000000000000000000000000000000000000000000000000000000000000000000000000200000000000000000,
  0x0000000000000000000000000000000000000000000000200000000000000000000000000000000000000000000000000000000000000000,
  0x0000000000000000000000000000000000000000000000000000000000000000000000000000002000000000000000000000000000000000,
  0x0000000000000000000000000000002000000000000000000000000000000000000000000000000000000000000000000000000000000020,
  0x0000000000000000000000000000000000000000000000000000000000000020000000000000000000000000000000000000000000000000,
  0x0000000000000020000000000000000000000000000000000000000000000000000000000000000000000000000000200000000000000000,
  0x0000000000000000000000000000000000000000000000200000000000000000000000000000000000000000000000000000000000000000,
  0x0000000000000000000000000000000000000000000000000000000000000000000000000000002000000000000000000000000000000000,
  0x0000000000000000000000000000002000000000000000000000000000000000000000000000000000000000000000000000000000000020,
  0x0000000000000000000000000000000000000000000000000000000000000020000000000000000000000000000000000000000000000000,
  0x0000000000000020000000000000000000000000000000000000000000000000000000000000000000000000000000200000000000000000,
  0x0000000000000000000000000000000000000000000000200000000000000000000000000000000000000000000000000000000000000000,
  0x0000000000000000000000000000000000000000000000000000000000000000000000000000002000000000000000000000000000000000,
  0x0000000000000000000000000000002000000000000000000000000000000000000000000000000000000000000000000000000000000020,
  0x0000000000000000000000000000000000000000000000000000000000000020000000000000000000000000000000000000000000000000,
  0x0000000000000020000000000000000000000000000000000000000000000000000000000000000000000000000000200000000000000000,
  0x0000000000000000000000000000000000000000000000200000000000000000000000000000000000000000000000000000000000000000,
  0x0000000000000000000000000000000000000000000000000000000000000000000000000000002000000000000000000000000000000000,
  0x0000000000000000000000000000002000000000000000000000000000000000000000000000000000000000000000000000000000000020,
  0x0000000000000000000000000000000000000000000000000000000000000020000000000000000000000000000000000000000000000000,
  0x0000000000000020000000000000000000000000000000000000000000000000000000000000000000000000000000200000000000000000,
  0x00000000000040000000000000004a4b00000000000000000000000000000000000000000000000000000000000000000000000000000000,
  0x9261219a1faa610000000000000030000000000000000d000000000000000001000000000000000000000000000000000000000000000000,
  0x9921893411c6f800000000000000300e3402244afdc3387d786abc8a622c128ca4729dacd609aee5b308a4921fc084b941628d6f115daadf,
  0x5f18b33d6e9db00000000000000030141c959e2e1cc5054e2bacba2ddb61884a0689625bd43c1b74faff43cc0d03020bbfd1cf1a20764c1c,
  0xcb68479aff33bb000000000000003099d3faf54c8922ad33ca0d55d8abbfdada103d00168b9241fc7b68570cf158fa3e1baadaf512c406fd,
  0x0245e747e4aff30000000000000030022869104837cfcf183298f7f954dfd694fa418abf5bffc46f452537566fdfd4829499a6d1efc7c345,
  0x97664b3e83f5a5000000000000003007c9c0b69d800fcbc4525d10a29d38527d64148eea0e83af976f793cafe4e590bb173b7ecbdf00791b,
  0xa3d332c24c199c000000000000003088866bbbdfe98b0e9fc1dfd0dda1f34537dce3e6cc85be372d6238b4687accfc06bc7583be381bbc91,
  0x00000000000000000000000000003018f354c0dc339c6394de99e05737adbce474fdad1eb920282175fb0240d81b609a1a70d08e6498dcb7,
  0x076030169e29e000000000000000304000000000000000000000000000000000000000000000000000000000000000000000000000000000,
  0x80a3790d07b33a0000000000000030079432e787707411e6b3697704f752af5df3c4e3a7a0b3af23327a76509809d43102e78367ca599da0,
  0x61090c554651d40000000000000030917ffed43cc844562e6dfc13865610e5de6b8518f532833881f4b2ceaf5593f28410f7b95feb9aab25,
  0x6fc38d31854362000000000000003011a2105e6dfe0fec8a10bc9d831e64c7669e5bf8b8994aa1b746d52b44606053806e26f9ca8c83a777,
  0x7cb4d7975a04b000000000000000300f8f8dfb9ca034bbb9954f4c89c05f96abc6c17796dd65f24c0a94ea05eed8e71c14169e786d829809,
  0x00000000000030000000000000000587b1da9e4e0141b3700fa1c370e8a07be74957c516407040ada1a605c39eef2a1961ac8778ff77435f,
  0x0000000000003014ba56da4b21362fcf355dc4b62dbeddfd21294b1677f68fd5bca85b4efb06c2adac59ef5aaf4670170c8d5993d4024500,
  0x00000000000030059c574da426cd4c94130b28faecac841044bbde263a67161b75f7e920a1dbb06445a0d097711bffb861b022f486ae2d00,
  0x000000000000300526928ca8f33f61301e48089c8a83fd142225cabf0958a66827e46c596af0d581374d23900f414d40789f676eb594db00,
  0x0000000000003080a4c65dc7718daf870c0553cbe3f610cce705492b3f963599a465b845e3d72b53b5b4d2d5781ce035e4baf9b7552e8000,
  0x0000000000003000aaa6569c40bfbef30667e1b29ee1182139450ca564a0646cfbe3e469d27c3db6dcbf0325df997255d8056bcf02715900,
  0x0000000000000598de1bea82c5066ed7028e8656cea99c6d350ef2d404e629db16e1037e0d2961091a8460ae79a12bbd720d25997b52d300,
  0xe09db580600dd900000000000000200000000000000000000000000000000000000000000000000000000000000001000000000000002000,
  0x4ac3e799f2e8ecb47001f57845bbbfd7c0070a381d364d00000000000000206141e529fcdc704e26ef0699ca82c49012c588ada0e784368b,
  0x000000000000202664991206cc6e6a144513f4c899a417ee516fa456ee3f9ec51c159ddca97c33000000000000002022a342a0964a25e0e9,
  0x4622f6a9152435034d2ff22a5ad9e1000000000000002041feb67496b6e8973bb1afa6ef9bb1c0ce7b067b089b046d2903ccdd332888e600,
  0x00000000002d850000000000001ea80000000000000fcb000000000000002e000000000000400056624634b500a166dc86b01c0d477fa6ae,
  0x00000000003e5100000000000032830000000000003282000000000000314300000000000030040000000000002ec50000000000002d8600,
  0x00000000003e580000000000003e570000000000003e560000000000003e550000000000003e540000000000003e530000000000003e5200,
  0x00000000003e5f0000000000003e5e0000000000003e5d0000000000003e5c0000000000003e5b0000000000003e5a0000000000003e5900,
  0x00000000003e660000000000003e650000000000003e640000000000003e630000000000003e620000000000003e610000000000003e6000,
  0x00000000003e6d0000000000003e6c0000000000003e6b0000000000003e6a0000000000003e690000000000003e680000000000003e6700,
  0x00000000003e740000000000003e730000000000003e720000000000003e710000000000003e700000000000003e6f0000000000003e6e00,
  0xa3ca44ec19c7180f6d11cefee20bab77048a033c35f59349846d998746da340000000000000020000000000000002e0000000000003e7500,
  0xa38eeaf06acfba0000000000000020586b25efb5ae9e3b067eb0cc1a625e83b7d820e78175123291bd3cf303a0b61f000000000000002011,
  0xc95248e29048b5ca7439a77306f828d86fb7b1cfc2538f00000000000000206377229c57a0a70bb7a6721402460a97f9ba251bbaa2f10c5a,
  0x000000000000201b976f733bf1ad51aeec716524ac11ecfe1c1f093ee1fcdf5dbb17ddafdb1e120000000000000020291e59bd98c3809901,
  0xa4474892b2d3b2b0635f2099b12736000000000000002010dda5beb7f5a54d46dafce0d7c021815dd2d96841b6def68434ca81ec62b09100,
  0x8c1542c0561f146c2eedb85922d971828607418f389315e319140309f727ba000000000000002006f8b1bc1c5168ca17272ac88c40dff66d,
  0x83381fd4916db2000000000000002060af117a541fb920bc44c8dd51f5871f6501b52f56ed7d21f30f3377f2549aae00000000000000206f,
  0x55396664eff2df0c226db24822f273df0c2d1186c0309b000000000000002029fbd3b0f2b444b8c747cc659b6f31e39cb0dfea7f52a69937,
  0x0000000000002011fe0d8f03c3aa48e6e2dd0fbb5d4b8246c2a385011294c924753ea38d3da79b00000000000000203bf2de159497e28b6a,
  0x443017e452ebc7fcf701fe6298dfe8000000000000002006432c57c40b531eb273e72c4349ed89426b09801a05818aa32b85845257763a00,
  0xcc3a9f455528e7e1723b8b0122fb71c7fd2a922a77500adcb0433f7ee1d6fa000000000000002050a739b5dd689d78e19140ffe5f8a6cbca,
  0x215332262a9468000000000000002056eebe69106612f3a33442c3782dbd2905e4168a706f84073a976a15a8419b5100000000000000205a,
  0x3fe4eaea53cad0ea83e247d35a60f93f7793737d6fc00500000000000000203d1ae14921247dd608760111425573d0e7f004cec2cb3a98ae,
  0x000000000000200e9f0f369eaa4183a95bfc9f4079bef75be3354ae6c30c032eaf2e8c1c67be390000000000000020597e809f206953292d,
  0xd8b5296d0cc7160e550d68a083799300000000000000206b9db65d5aba88c325e8de7e939726c79d6f20009e97c0bfa892e249007e2e6f00,
  0x3ffdfc3cf115c1cafc4c9680d1bba5ab0c6e9fc3b727b31e59fcf44c77462400000000000000200ccc6c8fc254465e6a524971b55d025fcd,
  0xd61632efe39f3300000000000000202ba2b3cc75156e4d52b6f9fdf5126638970d271479e3d00f7ddfa3d190fb4e7c000000000000002070,
  0x3367da495190bdd7f7474b4d4c3fa17b2c6f99a77dc20d00000000000000201f2ff3dc3e1d7c2c7e725400aadb47ea424ef1cf4e95bc72e8,
  0x0000000000002002c9ca4f18ae449671e3982deb76fa52a1ecbc9ca08c767ffc5eee6fb76319b70000000000000020609886e43898fae712,
  0x95c68f6ddf40d6de53141cc25ad1ac00000000000000204af64d2c2dc07c853dcc2be961b7c901e606aa810fb613e89ca04f75d63a8ffa00,
  0x78a5a1bda1d60021fc83bfb0afece35071d9802de193896abe411eb720142000000000000000206859702299080ae16c9eef1c2adb277d29,
  0xc226d758a6813700000000000000206596987958531079daf8a7b684dfb6de8da69e58db63864d55542578ef304c1700000000000000202c,
  0xca6724d2dff7aba3644a188a165ca86fbb43917a47c73300000000000000200575a9ba9e239818638affba2f3f7cddd609a94b646dad90f5,
  0x000000000000205e9e692e48de63e216ef7535e51653098d24aa62dd40d08d31ecef306f78bbe600000000000000201e4dbb10c6d8c1e452,
  0x2e4561445e159f41edfe70e349983a000000000000002066059f6c2da7a4307938cc9018081db6435a2987f0564b88e38eab9e2784db4200,
  0x5edffc0fb108397262c99bab6e3193c689ad2f55586764ade85ec742f17d0e00000000000000207342802564f94a4c40adbc307cb6009dc3,
  0x93e84c8877e07600000000000000200e20c991a088e0a7e03ae0decb7fcda394086e72798a6f71d6391643cee31b88000000000000002062,
  0x019578faa2238724d7ec2ffe6013431ee77e9273aa0b9600000000000000205021fe510699434c04505410af1eb46b6a76e8f3629c756808,
  0x000000000000205248e642e1387cbdd57c6ec12d7265886d05341f01d4f1fc54b6f87ae3709a4f0000000000000020178691176d1683a96a,
  0x892dd9f10c7d54472ba6b63ace6022000000000000002061129c551a58a1f1200014535e39ddf98a52ebab3ea4fb314810db34606aef9800,
  0xb5cfbcdec5d3bbf90fcb0e8e5fdb4b0b3ddaa0babf95b6a30e7023054d82850000000000000020086ce8e48e2a29b55e07a2ae7f8e1dcf1e,
  0xf67d3a85c2df7f000000000000002068fe6aed63e0241b28b484615e0b372819b13b004b584090d4139c9d2560b2a2000000000000002040,
  0x56f9062a9980bfc50d6d4390c33db05ad7a980e230e00200000000000000204671c89686c3e022206e9087c33359ae69d2cd41d2b7246543,
  0x013a992e397fdf0895]

/-- the 5665 bytes -/
def xfrFile34 : Bytes := (xfrFile34Words.flatMap (leBytes 56)).take 5665

set_option maxRecDepth 100000 in
theorem xfrFile34_check : checkTransfer xfrFile34 (Spec.transferVars 20 3 4) 16384 (Spec.transferPublic 20 3 4) = true := by
  decide +kernel

theorem xfrFile34_size : Spec.IsSize (Spec.transferGates 20 3 4) 16384 := isSize_of (k := 13) (by decide) (by decide)

theorem xfrFile34_len : xfrFile34.length < 2 ^ 64 := lt_of_le_of_lt (List.length_take_le _ _) (by norm_num)

/-- the entry for 3 inputs and 5 outputs: words of 56 bytes, little-endian, the last one shorter -/
def xfrFile35Words : List Nat := [
  0x0000000000000020000000000000000000000000000000000000000000000000000000000000000000000000000000000000000000000000,
  0x0000000000000000000000000000000000000000000000200000000000000000000000000000000000000000000000000000000000000000,
  0x0000000000000000000000000000000000000000000000000000000000000000000000000000002000000000000000000000000000000000,
  0x0000000000000000000000000000002000000000000000000000000000000000000000000000000000000000000000000000000000000020,
  0x0000000000000000000000000000000000000000000000000000000000000020000000000000000000000000000000000000000000000000,
  0x0000000000000020000000000000000000000000000000000000000000000000000000000000000000000000000000200000000000000000,
  0x0000000000000000000000000000000000000000000000200000000000000000000000000000000000000000000000000000000000000000,
  0x0000000000000000000000000000000000000000000000000000000000000000000000000000002000000000000000000000000000000000,
  0x0000000000000000000000000000002000000000000000000000000000000000000000000000000000000000000000000000000000000020,
  0x0000000000000000000000000000000000000000000000000000000000000020000000000000000000000000000000000000000000000000,
  0x0000000000000020000000000000000000000000000000000000000000000000000000000000000000000000000000200000000000000000,
  0x0000000000000000000000000000000000000000000000200000000000000000000000000000000000000000000000000000000000000000,
  0x0000000000000000000000000000000000000000000000000000000000000000000000000000002000000000000000000000000000000000,
  0x0000000000000000000000000000002000000000000000000000000000000000000000000000000000000000000000000000000000000020,
  0x0000000000000000000000000000000000000000000000000000000000000020000000000000000000000000000000000000000000000000,
  0x0000000000000020000000000000000000000000000000000000000000000000000000000000000000000000000000200000000000000000,
  0x0000000000000000000000000000000000000000000000200000000000000000000000000000000000000000000000000000000000000000,
  0x0000000000000000000000000000000000000000000000000000000000000000000000000000002000000000000000000000000000000000,
  0x0000000000000000000000000000002000000000000000000000000000000000000000000000000000000000000000000000000000000020,
  0x0000000000000000000000000000000000000000000000000000000000000020000000000000000000000000000000000000000000000000,
  0x0000000000000020000000000000000000000000000000000000000000000000000000000000000000000000000000200000000000000000,
  0x0000000000000000000000000000000000000000000000200000000000000000000000000000000000000000000000000000000000000000,
  0x0000000000000000000000000000000000000000000000000000000000000000000000000000002000000000000000000000000000000000,
  0x0000000000000000000000000000002000000000000000000000000000000000000000000000000000000000000000000000000000000020,
  0x0000000000000000000000000000000000000000000000000000000000000020000000000000000000000000000000000000000000000000,
  0x0000000000000020000000000000000000000000000000000000000000000000000000000000000000000000000000200000000000000000,
  0x0000000000000000000000000000000000000000000000200000000000000000000000000000000000000000000000000000000000000000,
  0x0000000000000000000000000000000000000000000000000000000000000000000000000000002000000000000000000000000000000000,
  0x0000000000000000000000000000002000000000000000000000000000000000000000000000000000000000000000000000000000000020,
  0x0000000000000000000000000000000000000000000000000000000000000020000000000000000000000000000000000000000000000000,
  0x0000000000000020000000000000000000000000000000000000000000000000000000000000000000000000000000200000000000000000,
  0x0000000000000000000000000000000000000000000000200000000000000000000000000000000000000000000000000000000000000000,
  0x0000000000000000000000000000000000000000000000000000000000000000000000000000002000000000000000000000000000000000,
  0x0000000000000000000000000000002000000000000000000000000000000000000000000000000000000000000000000000000000000020,
  0x0000000000000000000000000000000000000000000000000000000000000020000000000000000000000000000000000000000000000000,
  0x0000000000000020000000000000000000000000000000000000000000000000000000000000000000000000000000200000000000000000,
  0x00000000000080000000000000004c2400000000000000000000000000000000000000000000000000000000000000000000000000000000,
  0xb76cface54d2dd0000000000000030000000000000000d000000000000000001000000000000000000000000000000000000000000000000,
  0x51bf8a45341d1100000000000000308c24a7c5b6e87c097d5aebee20a06ee643cb8c8ba869b9ea04728c87452ee359461cc644bda90e87a7,
  0x25ff409367b1f70000000000000030012df45b8c15fdb2680a3699cf216dcdc466639587e90d9714e2639343464b8f984f76980c2356a689,
  0x812b926d675afa00000000000000308f51fd5b052efc8279f7062038d7fa29fa10cab096e94f8d963ed7a929022a79acdcdbbe489cbe731f,
  0x7351b2e8b569a400000000000000308e4d6e4d2edb6db5648f9b4b6db8116bd744da4be2bc53b876ac6637d0c262224f6b6911db7865710e,
  0x259939b6bb1ebd00000000000000300f876d185653c6579f99ba9830fca5e37d9e108f75398349533565760dda00b2c473024d8656b12177,
  0xb038112f0cd1af0000000000000030166291c76c82788a1640206e3942316d586d590193c4a4546b5b3f788a566e9d886e5dad6f4f7d306b,
  0x0000000000000000000000000000308d33a65bb48a0e4c9ea4d9c101b5bd1a5b82d858073d02ae9be7b797aeea7cef421a0dacdb52ef99f4,
  0x58ad590883f16e00000000000000304000000000000000000000000000000000000000000000000000000000000000000000000000000000,
  0x8dd318ebd3c54d00000000000000300b37a20d0adb4ec8e28ebe2678288ce2e4ef5747e9c8b00c3eef9d66e3e7ef842eb5b9dec0f7af1f9a,
  0xdb2e5737912f49000000000000003088ebfc53a9e300876bde3eb5efbb2257f03179ed753d18f1bc8f6269f163c976105d3256be17acfaa8,
  0xf4061a664b9c1300000000000000309425091eabe7d1c293642111da3894b1287f2e48b084623b071014570ecdb2d6f3c3db0ee041edd677,
  0xb2b8348eb00551000000000000003092cb723a6d216af493f0f573ed51e7e4a7357bf14d4191c09ac3ab89c30a3d4d91a93ca82ecbd8600d,
  0x0000000000003000000000000000058037633788ce9ffcfd60354d978b476476b60d19a0853c6b7b263e683314f5073ff75c029dcba7aec3,
  0x000000000000300259120b7a3a138aac339705993461d20cd12a4db051f1e8e39bc3be4a4c4ec43d9c52f3cd20d6ecad35d1af7a613ff500,
  0x0000000000003095ec414c2ec2cbd835d50086bea42394ec04432b58e0a2fa79cb4fdf7ac77c5fdee2aa722825a2117c78cd05ac82322a00,
  0x000000000000300454bdd5c7bf08418f4d2889878c7101cf2300af88d392b128e43a24f44671e779b590d48cc599feb7c450e3cf57f33c00,
  0x000000000000308e83063bf3e797090b83f71b18d35b43427efba63dbf2162bf125c190adb1dccec68b4f082b6dcf7343b9764b55b7bfa00,
  0x00000000000030106196756b60074c1b3e6a7c6b14d862df17c2c2d62a2d1d634793c5f2fbdf80e25603f00d7aa017366a5b098108ca3800,
  0x000000000000058c703967b16695918e6a3ff026f3b5a70bea16fa2637e7afdc334b0db53c771684e1b5f00e87df84cf8b40b5377056b300,
  0xe09db580600dd900000000000000200000000000000000000000000000000000000000000000000000000000000001000000000000002000,
  0x4ac3e799f2e8ecb47001f57845bbbfd7c0070a381d364d00000000000000206141e529fcdc704e26ef0699ca82c49012c588ada0e784368b,
  0x000000000000202664991206cc6e6a144513f4c899a417ee516fa456ee3f9ec51c159ddca97c33000000000000002022a342a0964a25e0e9,
  0xd5f51db3f32699fbd047e11279bb6e000000000000002041feb67496b6e8973bb1afa6ef9bb1c0ce7b067b089b046d2903ccdd332888e600,
  0x00000000002d850000000000001ea80000000000000fcb000000000000002f00000000000080003291357ee558b50d483405417a0cbe39c8,
  0x000000000033c200000000000033c10000000000003282000000000000314300000000000030040000000000002ec50000000000002d8600,
  0x00000000003f960000000000003f950000000000003f940000000000003f930000000000003f920000000000003f910000000000003f9000,
  0x00000000003f9d0000000000003f9c0000000000003f9b0000000000003f9a0000000000003f990000000000003f980000000000003f9700,
  0x00000000003fa40000000000003fa30000000000003fa20000000000003fa10000000000003fa00000000000003f9f0000000000003f9e00,
  0x00000000003fab0000000000003faa0000000000003fa90000000000003fa80000000000003fa70000000000003fa60000000000003fa500,
  0x00000000003fb20000000000003fb10000000000003fb00000000000003faf0000000000003fae0000000000003fad0000000000003fac00,
  0xb6999c3c1a2e537cfaadd6a6d868e52fcf012e6070fb880000000000000020000000000000002f0000000000003fb40000000000003fb300,
  0x0000000000002050d517b2a4a7f5b4f7949e18dfd2f43a9a28ed091d1552af891f753f9f93ef0500000000000000204a2cd7231951f86814,
  0x4cf907e7ec63c7100ac7de17aaf024000000000000002045d4d59299676dbe9b7a5f964c501a784021bb3120fc8bba5f1ccb68cc33c82f00,
  0x938b4ce32dbc56d8184cfdfd507aeabad6be9bfebac2a991b211c49a8a600f0000000000000020024d6c5be3c33ffe29d540228af654dcf8,
  0x24dc33dd50adf60000000000000020363309e0e698fbe48b1c3e48c0e8ee6f14369ad05a1ca74005bb9305fdf6a0fb000000000000002044,
  0x97f072a4a0c80a6554275a26be25aef3ddce1ce889ef67000000000000002031611d050c7df53f12b98a6055d0af37645eb35c11280c57c8,
  0x0000000000002044142901e215b483dda6134891e03fdd0524f21752cd27cd558795c0293f915e000000000000002036b3b716cdd7639187,
  0x366e26fdcdafdb5fa55ca65bacebfb00000000000000205d2b1c2a6f2a4d9bcc99d8f433757bca42294bb32c6a6c05b2710fad514c726e00,
  0xdc0725c802d8d4f608b232851214241752e5f5982a862e2ef125bb223c9c470000000000000020683342fb5d853bf6febf1db62f6023842f,
  0x36e2f2dad87ec2000000000000002037a841c82d35bc8ef3556161e0ab190a3b6d1e811b26a1230f7e074924310cbb000000000000002057,
  0x5664fac91344decebe5b988b77792001614921a858895100000000000000204008b96a5d80aab08ba1fef757a95ecfdec76753ee4a2f2f46,
  0x00000000000020355604391d8f8bfa52ba90b3dcf74732b36d13eb9963fcb5479d80b2ed9778b700000000000000205a847914ec5591744c,
  0x6e0beeb6b298d4ccd73ddd8e956cdb00000000000000200271da59d6f0e59314ef1ac7f5603e3c1e36fdffd9df31b0dbdcd9e118e9aed200,
  0x3fc54f8879536d9218010c355dea15d8f38a8d8b2416bfb4e981e93e7e4df800000000000000201c9e68affac068d69584e0c9883fc88034,
  0x7ef40df0f830c100000000000000200e172571f159d3f69536bcc87cf8963cc23353a2ab126a002a987ba55dc1969b000000000000002010,
  0x9586e3eccb2f84ebd50abe971a5c7b74f90a8d5c8e0be900000000000000201b5a052165a5b909b1dbb4da6a0ec3f01f5f72957a5402d0a9,
  0x0000000000002021bf796c75b4469a71753249a9c30f3901de8d897d892ad39545a5b8b67c18e100000000000000206e1f570780f0fdfa77,
  0x012a798315ed9d1d689cebabd0c99900000000000000205ff0a2a187f0f395d2bce5e0f7cce101e64ca08cc2e42847435acbf0291480a800,
  0xa2f9d49104a011016b072fc46fbb23e23ec51f8fbad7e9418f61d25eb60e53000000000000002045759b8a158090c3503f2a2619030d2840,
  0x0409f9625e987100000000000000200390b4ad521b968440c873c033a7a20d571ed0a5cbc1496bea7ffc44fc6d6167000000000000002036,
  0x364d0c4ea3fbd0a2f3f8ddb43059cfe56c0c0d5c7c875100000000000000201ad17c67bbfa11097ce075159e5026fb528a2d2da95430b99a,
  0x0000000000002046f7efb9bed67be3c21848ce732460759b86167a2928200fa966fba3a01ee7d900000000000000200284c6a4297af31147,
  0xaccb37b78ba02a5dc57da90a4c446b000000000000002047999440ed822a5bac5b892c7930b1059621a31b6a91cdda52b621d2b7352ade00,
  0x4804f371cf79c85b6a1f02c41bb3ce0ddd0562b0107a008f056e6738a7af4500000000000000203bc500bdb092a78e50a5543e2e17b8ef82,
  0xbccefe116741b700000000000000205d48b67d79272957b26a563b13b077e805c09363ecc8db4faa6aea8edacd5e1400000000000000202e,
  0x08c5a862a70ff931da733d1ca91a9c6dc9d07f98a59856000000000000002042f24efa152baedcccd33c74262feba39e0e729a0f222cbcc7,
  0x000000000000204027d8e762e476057d9858390d3199cfd14eb0b204e8220dd7c0e40aade75ad20000000000000020493366ae352805315b,
  0x1077022b6aacf76339ef637ef438800000000000000020417956fa32adf748ccc404ae0ea6a8fa6b3436068598da63ac28ec57de70380800,
  0xaa03dd61333edebbc49cc8edd016b6374bb53c511c108292e810aa8e61ab8c000000000000002043ca018e635a7389251a4e75e2606c2bf9,
  0x2657bd8370b7e8000000000000002068dfa383015a39ec9bb8de4bdde7fdb32316a9ae31ac8d2df9fdc40ae5663a7e000000000000002008,
  0xd1ebc31ae3435ac4563dd827696632d80f8ed8ab9922e700000000000000205ca32c033c2ef99481ed1cbf5922f4e69633be3037c94a0b59,
  0x000000000000204ec509ef034c8cf87e8d8b14432bf459ad2ddf437c7de95b82cdbde1742f1089000000000000002072a7d92048c8172b73,
  0x4ab21ec341ae932673c95e396c7fe0000000000000002047a0d2bf9801bab4f03e845c447bab652575fe4633ab59eb70a27c177569623f00,
  0xe743099775906ea0439e4020c4d594835e156c1f757b22394a2df6ea0834d500000000000000201d5d9beecdbb6d7828a0f839373c994975,
  0x2b]

/-- the 5713 bytes -/
def xfrFile35 : Bytes := (xfrFile35Words.flatMap (leBytes 56)).take 5713

set_option maxRecDepth 100000 in
theorem xfrFile35_check : checkTransfer xfrFile35 (Spec.transferVars 20 3 5) 32768 (Spec.transferPublic 20 3 5) = true := by
  decide +kernel

theorem xfrFile35_size : Spec.IsSize (Spec.transferGates 20 3 5) 32768 := isSize_of (k := 14) (by decide) (by decide)

theorem xfrFile35_len : xfrFile35.length < 2 ^ 64 := lt_of_le_of_lt (List.length_take_le _ _) (by norm_num)

/-- the entry for 3 inputs and 6 outputs: words of 56 bytes, little-endian, the last one shorter -/
def xfrFile36Words : List Nat := [
  0x0000000000000020000000000000000000000000000000000000000000000000000000000000000000000000000000000000000000000000,
  0x0000000000000000000000000000000000000000000000200000000000000000000000000000000000000000000000000000000000000000,
  0x0000000000000000000000000000000000000000000000000000000000000000000000000000002000000000000000000000000000000000,
  0x0000000000000000000000000000002000000000000000000000000000000000000000000000000000000000000000000000000000000020,
  0x0000000000000000000000000000000000000000000000000000000000000020000000000000000000000000000000000000000000000000,
  0x0000000000000020000000000000000000000000000000000000000000000000000000000000000000000000000000200000000000000000,
  0x0000000000000000000000000000000000000000000000200000000000000000000000000000000000000000000000000000000000000000,
  0x0000000000000000000000000000000000000000000000000000000000000000000000000000002000000000000000000000000000000000,
  0x0000000000000000000000000000002000000000000000000000000000000000000000000000000000000000000000000000000000000020,
  0x0000000000000000000000000000000000000000000000000000000000000020000000000000000000000000000000000000000000000000,
  0x0000000000000020000000000000000000000000000000000000000000000000000000000000000000000000000000200000000000000000,
  0x0000000000000000000000000000000000000000000000200000000000000000000000000000000000000000000000000000000000000000,
  0x0000000000000000000000000000000000000000000000000000000000000000000000000000002000000000000000000000000000000000,
  0x0000000000000000000000000000002000000000000000000000000000000000000000000000000000000000000000000000000000000020,
  0x0000000000000000000000000000000000000000000000000000000000000020000000000000000000000000000000000000000000000000,
  0x0000000000000020000000000000000000000000000000000000000000000000000000000000000000000000000000200000000000000000,
  0x0000000000000000000000000000000000000000000000200000000000000000000000000000000000000000000000000000000000000000,
  0x0000000000000000000000000000000000000000000000000000000000000000000000000000002000000000000000000000000000000000,
  0x0000000000000000000000000000002000000000000000000000000000000000000000000000000000000000000000000000000000000020,
  0x0000000000000000000000000000000000000000000000000000000000000020000000000000000000000000000000000000000000000000,
  0x0000000000000020000000000000000000000000000000000000000000000000000000000000000000000000000000200000000000000000,
  0x0000000000000000000000000000000000000000000000200000000000000000000000000000000000000000000000000000000000000000,
  0x0000000000000000000000000000000000000000000000000000000000000000000000000000002000000000000000000000000000000000,
  0x0000000000000000000000000000002000000000000000000000000000000000000000000000000000000000000000000000000000000020,
  0x0000000000000000000000000000000000000000000000000000000000000020000000000000000000000000000000000000000000000000,
  0x0000000000000020000000000000000000000000000000000000000000000000000000000000000000000000000000200000000000000000,
  0x0000000000000000000000000000000000000000000000200000000000000000000000000000000000000000000000000000000000000000,
  0x0000000000000000000000000000000000000000000000000000000000000000000000000000002000000000000000000000000000000000,
  0x0000000000000000000000000000002000000000000000000000000000000000000000000000000000000000000000000000000000000020,
  0x0000000000000000000000000000000000000000000000000000000000000020000000000000000000000000000000000000000000000000,
  0x0000000000000020000000000000000000000000000000000000000000000000000000000000000000000000000000200000000000000000,
  0x0000000000000000000000000000000000000000000000200000000000000000000000000000000000000000000000000000000000000000,
  0x0000000000000000000000000000000000000000000000000000000000000000000000000000002000000000000000000000000000000000,
  0x0000000000000000000000000000002000000000000000000000000000000000000000000000000000000000000000000000000000000020,
  0x0000000000000000000000000000000000000000000000000000000000000020000000000000000000000000000000000000000000000000,
  0x0000000000000020000000000000000000000000000000000000000000000000000000000000000000000000000000200000000000000000,
  0x00000000000080000000000000004e0900000000000000000000000000000000000000000000000000000000000000000000000000000000,
  0x1cacb6afe596190000000000000030000000000000000d000000000000000001000000000000000000000000000000000000000000000000,
  0x0023c8ea1e94050000000000000030954fe5984aa1dec5d2b012c774aa1107ef210bf204884c779b8dc6b8fd144cdf491a6de97a4fa0cad2,
  0xf8013bf29eecb50000000000000030191b8fc7eb1477c2a0d17c8f1e373d658262a1b199e5992041dfddc4391ec27e4742ab8bca7b288812,
  0xf5670fae70df1300000000000000308e42914b86ad77414ab9811b8fc54a137080ac0c0405fed1452e1d03a20b9ea9cdcb721f4b03c98e66,
  0x95868ad0e7bd720000000000000030099e0566c69ca38989c42777cd406b3a9cc55b3cc0abe6f2efc6eeb6430f562a8601639ce98b1921ec,
  0xb8f8899257d9c4000000000000003008bb0da7f3887fa197ee31c09462ff346ba2df05a475cba206560be342a4e557f1e34491ce5c014524,
  0x76f08c6e597f82000000000000003099876ee6c82d88437f8a9b734320674c20872cad32ae9db9e044cf9956083cb8388d8a60b2fb0d09cb,
  0x000000000000000000000000000030017b0b64d4c13b5dbb8d47789ca0ab2c80aeaa4346a9d8f4e941cb419958fa6954673a48d6c2193956,
  0x680d28eabfb68f00000000000000304000000000000000000000000000000000000000000000000000000000000000000000000000000000,
  0xbf444e89916fd300000000000000300e40dbf6b24dda922f671ee98cfb7531932359661c6983c6d11fd6ccfe4a2d473a552003ba22a64245,
  0xf1ba75c97e40b80000000000000030133ab0735b663e21b42122d350b0978fe8b7c653a57094011951020d4f2e72737f6e77899b00612ae1,
  0x88f56aefc6a749000000000000003091a6510c1ba7e72001b413bfbec88db93b8bee7fd8dff3b81e876f0491ffd3349b0604d9122decafaf,
  0x2ee964c812497c000000000000003017c41b3150027ee72ce348151e2f7be3f2d414b3d1ac784100035a1a3b8ec5b1df2e0f85e59233848b,
  0x000000000000300000000000000005094b44330b8a0ec1f7a069cae2d96eaf5967fcaba270bb9acae296da0fd2ea4a44f605c9720c46da8d,
  0x000000000000300a074a228641f542d525067297f71838d7b3856eae52e8a69d8f20b7d2daebaa9fb73ae88d0b7ad4a8264a2dd98bbac800,
  0x00000000000030840a42a1479f2eb6468f9a737ece112296d6e3c7a3738cc7f374141b8c6909959274fe99e9a1bb9881c091a94a895bf700,
  0x000000000000308d69370565ea411203f37679ddac73e2702d52ec3056c66dad64cec2fbd3322f8d3a1b133005d889aaa309f91da8f64000,
  0x000000000000308b21412e87fbae4c96450b06ee6fe7d49fc7d645095ae67751bfe616280b785e1e58971d72679b013b70e878f0089c4400,
  0x000000000000300f9ca1dd523dec5d69db75aa0a0b85b3ef75ab079af8b7b16423476ac9e9101fd12a1473371c61b9124d45a6b2be8cce00,
  0x0000000000000581ae2457cc404db8ee3e3ba24eda5c6f61d9d8d95dcbb807e5c755c3bc8a09994e5de76cc43ffaa548fb2531ee79f5ac00,
  0xe09db580600dd900000000000000200000000000000000000000000000000000000000000000000000000000000001000000000000002000,
  0x4ac3e799f2e8ecb47001f57845bbbfd7c0070a381d364d00000000000000206141e529fcdc704e26ef0699ca82c49012c588ada0e784368b,
  0x000000000000202664991206cc6e6a144513f4c899a417ee516fa456ee3f9ec51c159ddca97c33000000000000002022a342a0964a25e0e9,
  0xd5f51db3f32699fbd047e11279bb6e000000000000002041feb67496b6e8973bb1afa6ef9bb1c0ce7b067b089b046d2903ccdd332888e600,
  0x00000000002d850000000000001ea80000000000000fcb000000000000003000000000000080003291357ee558b50d483405417a0cbe39c8,
  0x0000000000350000000000000033c10000000000003282000000000000314300000000000030040000000000002ec50000000000002d8600,
  0x000000000040d400000000000040d300000000000040d200000000000040d100000000000040d000000000000040cf000000000000350100,
  0x000000000040db00000000000040da00000000000040d900000000000040d800000000000040d700000000000040d600000000000040d500,
  0x000000000040e200000000000040e100000000000040e000000000000040df00000000000040de00000000000040dd00000000000040dc00,
  0x000000000040e900000000000040e800000000000040e700000000000040e600000000000040e500000000000040e400000000000040e300,
  0x000000000040f000000000000040ef00000000000040ee00000000000040ed00000000000040ec00000000000040eb00000000000040ea00,
  0xfaadd6a6d868e52fcf012e6070fb880000000000000020000000000000003000000000000040f300000000000040f200000000000040f100,
  0xd517b2a4a7f5b4f7949e18dfd2f43a9a28ed091d1552af891f753f9f93ef0500000000000000204a2cd7231951f86814b6999c3c1a2e537c,
  0x0ac7de17aaf024000000000000002045d4d59299676dbe9b7a5f964c501a784021bb3120fc8bba5f1ccb68cc33c82f000000000000002050,
  0x184cfdfd507aeabad6be9bfebac2a991b211c49a8a600f0000000000000020024d6c5be3c33ffe29d540228af654dcf84cf907e7ec63c710,
  0x00000000000020363309e0e698fbe48b1c3e48c0e8ee6f14369ad05a1ca74005bb9305fdf6a0fb000000000000002044938b4ce32dbc56d8,
  0x54275a26be25aef3ddce1ce889ef67000000000000002031611d050c7df53f12b98a6055d0af37645eb35c11280c57c824dc33dd50adf600,
  0x142901e215b483dda6134891e03fdd0524f21752cd27cd558795c0293f915e000000000000002036b3b716cdd763918797f072a4a0c80a65,
  0x05951a23203210000000000000002059a51731b0607acd2666a960cb68c3081c7d260c86d8cb5f8bd77bba15657417000000000000002044,
  0x227772d8821a0a57ecd155f72dcda018882dc28910c3d300000000000000204e585234c035b7680b2a3bd786bcdf56ae05a9feb40ca9ba70,
  0x000000000000206b445d9237853c8ea1a0107a2b6707b9129523d3ddaa8ab80f48e5d5a944275c0000000000000020293cb0dd7c2e927667,
  0x69642ef1d1494b0a344ffc190992ac00000000000000205c126efec84fb0e41e7d7d950845fcd129df8d1b1a03eae46a03016a406ef1df00,
  0xf0407a769840c6b49b89f060200a489ac889c01d7996a997d87128f1f7cee2000000000000002028c63f84d5616bc2ac8411939c0eef7705,
  0x335d7d2c7eec87000000000000002032e9c445339f00ffcefdcfd999370cabad7dc0f4f27f1ebae319ff77678c8f1100000000000000205f,
  0x89bf8be0635f2f4095bf97aeb2fb577eede17341fa37a0000000000000002066a64a231224d1346e0502cd207311a30e1825a10112cd8841,
  0x000000000000206c395bcf997f79066735e5a3ba7eea97e9bf724c6c6c10398170037c25b80f71000000000000002047c1b0042d3f0d98c4,
  0xa549b836d0c708085c3b193a96055d000000000000002008c032e9fb9797d82a18fa671e38725e321b25d063357f3733764163250bca1400,
  0x05cc530ed2cb6a3f5904947c4965181c41cb2bb6c10d45d40caf1f1a9860b40000000000000020203437f3050b8f475599beb0df23def5ee,
  0x960a481c5cd04700000000000000204cf5513d34d09432d5e2952af49df65363353cfef3e982253dbf9b3a8b9668cb00000000000000203f,
  0xc88a56d0f6b120de67426809cf346410eb47fe81d986f800000000000000206fd7e7e82478d10fb0f2660638b9c14f2c3b6c93b78ea2a57c,
  0x000000000000201565077b1d1b4bc13fbe3602ec79ef56f91af2cd89c740a475d8814fea2bba3b000000000000002067d32d5834daaf0f01,
  0x635478514274fdc01ae26012e2c3f3000000000000002018ce72aa92592eb3949a77a74e674d4d6d1d8ea14b11cd8124e26dde4e7f04bd00,
  0xd384e1ecbb09573a04d494085816d11531704516653c62d86c3eeb8c1dfc000000000000000020443f90536e9deee90be162e7a8b8440b9f,
  0x1b627e99f1d97300000000000000200ab231a0384731a380aa28714c568556f4b762a1b60fff40bbbecdca122667cf000000000000002072,
  0x3eb3da5240842241f34955b3d70b417983458b652994c70000000000000020509b86944abfcd7df745cf19efdb88280a549b8b48f86d4aa9,
  0x00000000000020702515929caee75d84b6aeb80e20ff423679c930e5b24e2ec7cbf671c73b075800000000000000206cfb165fc8620ce648,
  0xea8101d749f213d6c40a5183c786e7000000000000002018868f7130e8b0cbaef6905a6a483ffbd39656527d32ff8126991b8aee949b6700,
  0xc286afc5a8c44be2d352634112a70943d3e5c1139c4112fbf4a710a44bd57e00000000000000201730c6c83b34ff6f8f946bbb5d1d766153,
  0x06ef372963c5890000000000000020639906aa3fd5e2caf41d1346440bd8c72de98e8a57edffbd2d0dadedbe1cc8c600000000000000204c,
  0x55940595ab661498f7a299f23b390d888afba3d0047fcc00000000000000205bfd3dab0006b806234f1342c9b8990884249986638adbd415,
  0x000000000000201d01108c70f4f813fa4209e3c3cffdd5cae2b354953b1075ab26f5d00c1596d60000000000000020239c918b1f8a450240,
  0x54f06fe98c805073aad88e67a01e1200000000000000203362f1791518731bd39768b79ff6a31c4327191975f975c5afdb3430793a234700,
  0xd7d8c7d6a81e01b45944d55400a2219ffeac3924b7d461885d5c30cf0d8ce300000000000000200c7aa5ca95930243f9081c5718d1c3959e,
  0xc66f4f3debf1e20000000000000020209d511dc4030715136d9d19beae455c32bb07b51c64ac343f57da5031351a41000000000000002002,
  0xf814861026212291a99e07da2097294253b7b50fb479e4000000000000002062d621b9361bc1c7544b51c28d81f0cadfdc500fd9076dd7e2,
  0x72d9d2aa03d05d76d409a9666c0d5e85b6572ab18dc9dac864894921090438ad0000000000000020663ef978f338e11ed8]

/-- the 5761 bytes -/
def xfrFile36 : Bytes := (xfrFile36Words.flatMap (leBytes 56)).take 5761

set_option maxRecDepth 100000 in
theorem xfrFile36_check : checkTransfer xfrFile36 (Spec.transferVars 20 3 6) 32768 (Spec.transferPublic 20 3 6) = true := by
  decide +kernel

theorem xfrFile36_size : Spec.IsSize (Spec.transferGates 20 3 6) 32768 := isSize_of (k := 14) (by decide) (by decide)

theorem xfrFile36_len : xfrFile36.length < 2 ^ 64 := lt_of_le_of_lt (List.length_take_le _ _) (by norm_num)

end Verif.Setup
