import Verif.Setup.Shipped

/-!
Row 1 of the table in /repo/api/parameters/transfer-vk-specific.bin: transfers with 1 input.  The test of `Shipped.lean` is run on every
entry by the kernel.
-/

namespace Verif.Setup

/-- the entry for 1 input and 1 output: words of 56 bytes, little-endian, the last one shorter -/
def xfrFile11Words : List Nat := [
  0x0000000000000020000000000000000000000000000000000000000000000000000000000000000000000000000000000000000000000000,
  0x0000000000000000000000000000000000000000000000200000000000000000000000000000000000000000000000000000000000000000,
  0x0000000000000000000000000000000000000000000000000000000000000000000000000000002000000000000000000000000000000000,
  0x0000000000000000000000000000002000000000000000000000000000000000000000000000000000000000000000000000000000000020,
  0x0000000000000000000000000000000000000000000000000000000000000020000000000000000000000000000000000000000000000000,
  0x0000000000000020000000000000000000000000000000000000000000000000000000000000000000000000000000200000000000000000,
  0x0000000000000000000000000000000000000000000000200000000000000000000000000000000000000000000000000000000000000000,
  0x0000000000000000000000000000000000000000000000000000000000000000000000000000002000000000000000000000000000000000,
  0x0000000000000000000000000000002000000000000000000000000000000000000000000000000000000000000000000000000000000020,
  0x0000000000000000000000000000000000000000000000000000000000000020000000000000000000000000000000000000000000000000,
  0x0000000000000020000000000000000000000000000000000000000000000000000000000000000000000000000000200000000000000000,
  0x0000000000000000000000000000000000000000000000200000000000000000000000000000000000000000000000000000000000000000,
  0x0000000000000000000000000000000000000000000000000000000000000000000000000000002000000000000000000000000000000000,
  0x0000000000000000000000000000002000000000000000000000000000000000000000000000000000000000000000000000000000000020,
  0x0000000000000000000000000000000000000000000000000000000000000020000000000000000000000000000000000000000000000000,
  0x0000000000000020000000000000000000000000000000000000000000000000000000000000000000000000000000200000000000000000,
  0x0000000000000000000000000000000000000000000000200000000000000000000000000000000000000000000000000000000000000000,
  0x0000000000000000000000000000000000000000000000000000000000000000000000000000002000000000000000000000000000000000,
  0x0000000000000000000000000000002000000000000000000000000000000000000000000000000000000000000000000000000000000020,
  0x0000000000000000000000000000000000000000000000000000000000000020000000000000000000000000000000000000000000000000,
  0x0000000000000020000000000000000000000000000000000000000000000000000000000000000000000000000000200000000000000000,
  0x0000000000000000000000000000000000000000000000200000000000000000000000000000000000000000000000000000000000000000,
  0x0000000000000000000000000000000000000000000000000000000000000000000000000000002000000000000000000000000000000000,
  0x0000000000000000000000000000002000000000000000000000000000000000000000000000000000000000000000000000000000000020,
  0x0000000000000000000000000000000000000000000000000000000000000020000000000000000000000000000000000000000000000000,
  0x0000000000000020000000000000000000000000000000000000000000000000000000000000000000000000000000200000000000000000,
  0x0000000000000000000000000000000000000000000000200000000000000000000000000000000000000000000000000000000000000000,
  0x0000000000000000000000000000000000000000000000000000000000000000000000000000002000000000000000000000000000000000,
  0x0000000000000000000000000000002000000000000000000000000000000000000000000000000000000000000000000000000000000020,
  0x0000000000000000000000000000000000000000000000000000000000000020000000000000000000000000000000000000000000000000,
  0x0000000000000020000000000000000000000000000000000000000000000000000000000000000000000000000000200000000000000000,
  0x0000000000000000000000000000000000000000000000200000000000000000000000000000000000000000000000000000000000000000,
  0x0000000000000000000000000000000000000000000000000000000000000000000000000000002000000000000000000000000000000000,
  0x0000000000000000000000000000002000000000000000000000000000000000000000000000000000000000000000000000000000000020,
  0x0000000000000000000000000000000000000000000000000000000000000020000000000000000000000000000000000000000000000000,
  0x0000000000000020000000000000000000000000000000000000000000000000000000000000000000000000000000200000000000000000,
  0x000000000000200000000000000025b200000000000000000000000000000000000000000000000000000000000000000000000000000000,
  0x6fb7612ba58b800000000000000030000000000000000d000000000000000001000000000000000000000000000000000000000000000000,
  0xeee9200ace716a00000000000000308581824b7f17112e8b82f5473b64e1e36638957054df24d37ef8c60c5437529255d974d14ea6f4d851,
  0xe83fdff30f75ac00000000000000300de79227998cbc1bd76ecc4ad908db8ead3951dfa1d1e76f5a7aee0353b0d573310b43ab3f68c3c284,
  0x091e3a2cd8cee2000000000000003008db1ffc52e62de9e51a73281e23a118a804936591a5b62f3508ad6001864d25274825855aef20701f,
  0x7254b533940ab3000000000000003008d7eabbcbfd09a5c4df704797ac52e8e8010716f5a42bf57392a9414008f48665d8a7ff54095599c4,
  0x34fb3c810974b20000000000000030927a842a17a13101acb020df24485b705b0420889d17dc0d40d506ae1c86f2ebafd14c82a7653639cb,
  0xadde24352ec09700000000000000308795d757114a61d17e1ed1316aa0b81b2d690f84d4384a8f36ed6d73bc6d0dfb5953e813a6e3c14198,
  0x0000000000000000000000000000308a64dcb3278f0920c7c3313aac3fe41de43f428274b66083446a24ff1e73b7753b4151c418cf8365ed,
  0xd2830509af5bd400000000000000304000000000000000000000000000000000000000000000000000000000000000000000000000000000,
  0x9161a3aee50d47000000000000003019348799823e4fe1eb7d328c4157e8cfd5ca7673bea2e9397d4e13b4f48c242788e886f6591f555f8f,
  0x2dbc3ef961718b0000000000000030950e5a106902b85dbec3228769619f1d332988a2bf1653eeae7ee0c5fa3b78be084bf63e34601726ba,
  0xe74b9340815a94000000000000003012f4fae68136dd4f8de84dcfde465ba8616d8d4de5ad776e81fcb647b60a8cc1cd4c730ddd2a02714f,
  0x8a9b2791b876ca00000000000000308e3e5b96c7915de84167d9a063560d548f98e110b51e1c620e9f87414429b85cfa86dc6a1749011af3,
  0x00000000000030000000000000000594dbeca2a5fcab2c8de5125247e01f72ca713b03dedc9f1e210824e12923b196983664bb81d69fdaef,
  0x000000000000309432463cd6da271074930c172ba39bf86cfc4bbca47669ba63000b3ea4268b068573787d0b926dc7a1f6ba9050d55c9a00,
  0x00000000000030802abaf43956c6dbbefaf01f484000d3b3049336b4f67992bb3076062b0a0a3eef424ae30021f4014e726e0be1c6efb700,
  0x000000000000309723695a5ab9a1263b0097b5e2c9e42182ba7477f93cf48b59615867fec9ef1ba9b7c9714fbf9943cd92fb985fcc030d00,
  0x00000000000030962f1caf6d84e3b33ee8fa5a8c215e1e4ab643e1ecf116848b9818a4cb12a217512a86ab7c6a0e75be71dd4899db46a600,
  0x000000000000300d087d993dc71c47fa9c45f1029c35a117688977cf5c7acf11c7a9c22e5438cb50776509dab11ce37f573b687113a2e300,
  0x0000000000000509c270973996027ba12326374d0ca323877bb68adb494d77878287dafc65bf0b41196fcec60ccc5f35a812a3f4c4e91f00,
  0xe09db580600dd900000000000000200000000000000000000000000000000000000000000000000000000000000001000000000000002000,
  0x4ac3e799f2e8ecb47001f57845bbbfd7c0070a381d364d00000000000000206141e529fcdc704e26ef0699ca82c49012c588ada0e784368b,
  0x000000000000202664991206cc6e6a144513f4c899a417ee516fa456ee3f9ec51c159ddca97c33000000000000002022a342a0964a25e0e9,
  0x6b58bc434906ac6fdd00bfc78c8967000000000000002041feb67496b6e8973bb1afa6ef9bb1c0ce7b067b089b046d2903ccdd332888e600,
  0x0000000000106b0000000000000f2c0000000000000f2b00000000000000290000000000002000485d512737b1da3d2ccddea2972e89ed14,
  0x00000000001c3f0000000000001c3e0000000000001c3d0000000000001c3c0000000000001c3b0000000000001c3a000000000000106c00,
  0x00000000001c460000000000001c450000000000001c440000000000001c430000000000001c420000000000001c410000000000001c4000,
  0x00000000001c4d0000000000001c4c0000000000001c4b0000000000001c4a0000000000001c490000000000001c480000000000001c4700,
  0x00000000001c540000000000001c530000000000001c520000000000001c510000000000001c500000000000001c4f0000000000001c4e00,
  0x00000000001c5b0000000000001c5a0000000000001c590000000000001c580000000000001c570000000000001c560000000000001c5500,
  0x80f2e1ab0e17e8469f797f023c520e000000000000002000000000000000290000000000001c5e0000000000001c5d0000000000001c5c00,
  0xa58c1410f1fee45587aded8e98c868d79b3e687a6642cca3bd5999b3aad73200000000000000203242d967c890a8c0a38f38fa10fdb92717,
  0xe46db370f822000000000000000020616644aab9637fd383cbcd54ff47c58c1be88f5209e768cb532d329bd937cef800000000000000206d,
  0xfa4e84b9ca4275fe2baa0f3f1bd6732cf065033d43781a000000000000002022c0e6cbabf58c4e17ee1c51d8c5e60620b85bb32f380074f9,
  0x0000000000002050a800da1e4e8a3a3a44222cd58712a951c79f9a6ab3426917fa30d916caa8050000000000000020012bf68b58841a294b,
  0xc64f0f871bf8bdf785f633d414de8f00000000000000204c6a593f6f29298aa12dc1f956ba5db6ce90dc8410eba1914cbfe55db9452a6d00,
  0x85e38dde0aa6f5adcf82358dc20b3cac3dadbb2afcd477178ede99201ea13f00000000000000205fc0afb615c77b7130bbb2256b7ba85860,
  0x3e0a8a8c3a368400000000000000201b1256728bd78ea39f02a336fd023e5c0c9756c0d7276085bd365983042db5fd000000000000002030,
  0x68b54f2942f883de5bc4f2ac8e2ca0eb173aeeabdb8dbc000000000000002053dbcd09a7f0b08ada80467f4e7098b787664410cef3a5511d,
  0x00000000000020573096e4adca7ac585240333e64e9c187b825ff38bb5c6ddbd286918807e568d00000000000000200e56a41f6276f778ff,
  0x1c44defbc39f34e13dfb02871e379f000000000000002030167bf403e60a78c661d3f4af381f90635e0678565f3f7d275fccd52a58f19a00,
  0x7bcac90d202902ed7b29bdca737af3d56fc754b1d6dff68654fe60503e541f000000000000002004e5cf12c879b06306dba725b2d26e47a3,
  0xd97edcd28463f6000000000000002037d46a746ac546f1381a67acfb129f6e02d5ebaf6dfc8e654890f6d8afd4c6f000000000000000201b,
  0xb543430fcdb10adf8d1dc651a2b4e4f72af97905fd62b30000000000000020183e1cefa75ae2973002c87a230f6728f259ea5b28abce72af,
  0x000000000000205d3de6c8d744ce9b8d97f35e430ce4678f763eb774d6be52fac3d3c460788b4900000000000000200e09c52c0c4c15b75d,
  0x194993cf9a162d3e0759f38cfd30f100000000000000202c248866411609a608c371cbd86c60c827dc999da28d8745be8e96b68325aa2f00,
  0xa9782ecc4d506bded7943ad2f1c9d6558afba156be2a6ed7b1d5c5144b0e55000000000000002017198f36427f53319015b0c70d6676ef16,
  0xe3a6e43a6391b1000000000000002069a18912779e89febf4c283816214eaa2ea83fdf8057865139146433adcb476e000000000000002008,
  0xad74a9c1611bcc8baff01509c57a1c1b5546b62b0dc11400000000000000205fef1357e4c6f29d43358f2aca9612308f9c7f22f5b2d7b2de,
  0x000000000000205702e637969e76afb79af074661b22402cd90b19ed6192bb4c3128493176a43300000000000000203e4195456846171aef,
  0xccf634d5387713c100bc33ead12dc700000000000000203977a448f80d4c598e5ba0285cf6ea4e29354150634b1053fc779094e28f786000,
  0x59c70928ac05b4d59b1668b78620d10c240302b23425427179a5b327858d070000000000000020621d8233c1e8b35c3cabef6fa8c65db89f,
  0x931ace4838406800000000000000205fb560d9abe618d81d2961c7a6d30666e5e2b390a5e87b37d798c2776a3874b7000000000000002023,
  0x0218c7cce359d4c4911b62a3f41859fea8410baf76bddb00000000000000206e8367e896551c91b90db568c34ce5650b8cebd5f1df26e023,
  0x00000000000020622790f6b93802db35802038329bd5f5f72a361a79db9184d99494fedde55d5e00000000000000204e432cb4a537559c28,
  0xda7b8f5d9d5999a900020629ff8fc1000000000000002033c9e5bcf344422fd6aa4473ac2f23664080fcd008904065b711cc7d3cd23db400,
  0x3b6270efefd214d17df8f247c8dccbd291f5b41724586c3fb038e19c42c429000000000000002059d7bda71601e91ca54831fe7f32f91716,
  0x1e2015d1b16e50000000000000002059362a837d7c544a8fef54ffafa579573a3ff34d325f9f5150666292d49fc3bf000000000000002065,
  0x3bb0b08808cc0cbb6560f2c6fd753b2f7fa30811872af500000000000000204230e476ca7b78b2884261dd924db8f1e0dfb1811f9978d150,
  0x4e77ef3a798889453c430e65818f5b59ebef3fbd0e5c5497694a42662d10aad60000000000000020575009efbdfff3c770]

/-- the 5425 bytes -/
def xfrFile11 : Bytes := (xfrFile11Words.flatMap (leBytes 56)).take 5425

set_option maxRecDepth 100000 in
theorem xfrFile11_check : checkTransfer xfrFile11 (Spec.transferVars 20 1 1) 8192 (Spec.transferPublic 20 1 1) = true := by
  decide +kernel

theorem xfrFile11_size : Spec.IsSize (Spec.transferGates 20 1 1) 8192 := isSize_of (k := 12) (by decide) (by decide)

theorem xfrFile11_len : xfrFile11.length < 2 ^ 64 := lt_of_le_of_lt (List.length_take_le _ _) (by norm_num)

/-- the entry for 1 input and 2 outputs: words of 56 bytes, little-endian, the last one shorter -/
def xfrFile12Words : List Nat := [
  0x0000000000000020000000000000000000000000000000000000000000000000000000000000000000000000000000000000000000000000,
  0x0000000000000000000000000000000000000000000000200000000000000000000000000000000000000000000000000000000000000000,
  0x0000000000000000000000000000000000000000000000000000000000000000000000000000002000000000000000000000000000000000,
  0x0000000000000000000000000000002000000000000000000000000000000000000000000000000000000000000000000000000000000020,
  0x0000000000000000000000000000000000000000000000000000000000000020000000000000000000000000000000000000000000000000,
  0x0000000000000020000000000000000000000000000000000000000000000000000000000000000000000000000000200000000000000000,
  0x0000000000000000000000000000000000000000000000200000000000000000000000000000000000000000000000000000000000000000,
  0x0000000000000000000000000000000000000000000000000000000000000000000000000000002000000000000000000000000000000000,
  0x0000000000000000000000000000002000000000000000000000000000000000000000000000000000000000000000000000000000000020,
  0x0000000000000000000000000000000000000000000000000000000000000020000000000000000000000000000000000000000000000000,
  0x0000000000000020000000000000000000000000000000000000000000000000000000000000000000000000000000200000000000000000,
  0x0000000000000000000000000000000000000000000000200000000000000000000000000000000000000000000000000000000000000000,
  0x0000000000000000000000000000000000000000000000000000000000000000000000000000002000000000000000000000000000000000,
  0x0000000000000000000000000000002000000000000000000000000000000000000000000000000000000000000000000000000000000020,
  0x0000000000000000000000000000000000000000000000000000000000000020000000000000000000000000000000000000000000000000,
  0x0000000000000020000000000000000000000000000000000000000000000000000000000000000000000000000000200000000000000000,
  0x0000000000000000000000000000000000000000000000200000000000000000000000000000000000000000000000000000000000000000,
  0x0000000000000000000000000000000000000000000000000000000000000000000000000000002000000000000000000000000000000000,
  0x0000000000000000000000000000002000000000000000000000000000000000000000000000000000000000000000000000000000000020,
  0x0000000000000000000000000000000000000000000000000000000000000020000000000000000000000000000000000000000000000000,
  0x0000000000000020000000000000000000000000000000000000000000000000000000000000000000000000000000200000000000000000,
  0x0000000000000000000000000000000000000000000000200000000000000000000000000000000000000000000000000000000000000000,
  0x0000000000000000000000000000000000000000000000000000000000000000000000000000002000000000000000000000000000000000,
  0x0000000000000000000000000000002000000000000000000000000000000000000000000000000000000000000000000000000000000020,
  0x0000000000000000000000000000000000000000000000000000000000000020000000000000000000000000000000000000000000000000,
  0x0000000000000020000000000000000000000000000000000000000000000000000000000000000000000000000000200000000000000000,
  0x0000000000000000000000000000000000000000000000200000000000000000000000000000000000000000000000000000000000000000,
  0x0000000000000000000000000000000000000000000000000000000000000000000000000000002000000000000000000000000000000000,
  0x0000000000000000000000000000002000000000000000000000000000000000000000000000000000000000000000000000000000000020,
  0x0000000000000000000000000000000000000000000000000000000000000020000000000000000000000000000000000000000000000000,
  0x0000000000000020000000000000000000000000000000000000000000000000000000000000000000000000000000200000000000000000,
  0x0000000000000000000000000000000000000000000000200000000000000000000000000000000000000000000000000000000000000000,
  0x0000000000000000000000000000000000000000000000000000000000000000000000000000002000000000000000000000000000000000,
  0x0000000000000000000000000000002000000000000000000000000000000000000000000000000000000000000000000000000000000020,
  0x0000000000000000000000000000000000000000000000000000000000000020000000000000000000000000000000000000000000000000,
  0x0000000000000020000000000000000000000000000000000000000000000000000000000000000000000000000000200000000000000000,
  0x0000000000002000000000000000275100000000000000000000000000000000000000000000000000000000000000000000000000000000,
  0xb886342a0ce7be0000000000000030000000000000000d000000000000000001000000000000000000000000000000000000000000000000,
  0x3a257192ce681200000000000000301164090c366e6dbd900aa91d14004bea07df37e8befeac390dd73d61e6b67550d02eb677d80b6dfda3,
  0x5298c8511981de0000000000000030056e010d14d1760bf2aee7babed12e8660069c9b2e69a2f9ae910d71cfd4d279cdfb8b0d24d42dc972,
  0x7cfaa4b624dfde00000000000000300568d95ec992a816d960e923eff1a671ade5c811b8c7e7305e036e5a74df6e9ad0b6690268e9db85d7,
  0x52f9c92cac2e41000000000000003092408ebee3db800f55e7d6ce348fda484b3030001a3960a7caff31bc38f4733cd36f375fd9aa332b23,
  0xfea3d476899d4d000000000000003099fae1142bfc0413ed84cd2e523b59e800c2ccfd2440a13b39bff93c2c4d30d29596fca7a9cb359e50,
  0xa83de387c6711b000000000000003088deab7a305d3d0035176b5d6b88f40cf1fb5ed52c2232c4689df8a9ed2c0a68ef085c702b4cba5949,
  0x00000000000000000000000000003004977e30fe31df57c079979c5f29a0d98fb7b4ee667c64df370853290429a0216fbba6479d0a41c9ac,
  0x8b89bbae40f97700000000000000304000000000000000000000000000000000000000000000000000000000000000000000000000000000,
  0x5d4acebe6a2e17000000000000003000f169df03190c0e779b27003cf39da1efaeb1800e85dc0f6f4cb59a1366d4f6c063175cf268bbf6e5,
  0x5dc10039b51e48000000000000003099089fd3de757e89bd3b350053a05911a721d48f1d8f08f83b7056e067d09f7f1e8f9a5a084a448ad5,
  0xbbab12acfe067f000000000000003081e46b12a2c75c5649c95492c2ac899bce0957ac87c3ce6f3ee67ef851e3fb27f9c53d513b58fb670a,
  0x74aebd35b601a90000000000000030187f173c82308ddac7b16eb25a5b91171dfbaf8cac2be6478f17ae3cbfba3a74b8b053e384f5d2ebe5,
  0x000000000000300000000000000005979a2d29a98d8185fbe7a6beadcaf8235f3a4076a7cae976f0cb29e6d58fe48622388e0b13c6d09c82,
  0x0000000000003015416061b40868a87357833069b59c607a6884f4c66d4b5fa19af08b49351d1c2ed090e8f42d7ed2fc0a4f758242504a00,
  0x0000000000003018ad3cf76c73c35154a4c04cb1e2a29623f8c4d2ab00d3e4def4bb3f94658d313b894db8ffdd254e7e22df4c5109833000,
  0x000000000000308f01b6996c83ac4bd229a3d917a46726d3cc817abfd7a28ab744544f515742dffffecd5946740c22ef30bc14d9512e2600,
  0x000000000000308b74682d00ffb93efd7f8a84fe426ccafd31e6c9053ad2f33153b7c35bd73da8390ffca284e124d2dbb1b99e1b74c5d600,
  0x000000000000300b928de65f05e14b804ea2059791038dc36ba43472a470b392caa507d74f14de56c1e07ba7603684099589296c5094e800,
  0x0000000000000590a42cf89f55f140e3e34cc1cf85ee7b0f1d8bc7ff2662656dba86b94bcd9294b90bc9c22858a85d3344856bbcef8d8900,
  0xe09db580600dd900000000000000200000000000000000000000000000000000000000000000000000000000000001000000000000002000,
  0x4ac3e799f2e8ecb47001f57845bbbfd7c0070a381d364d00000000000000206141e529fcdc704e26ef0699ca82c49012c588ada0e784368b,
  0x000000000000202664991206cc6e6a144513f4c899a417ee516fa456ee3f9ec51c159ddca97c33000000000000002022a342a0964a25e0e9,
  0x6b58bc434906ac6fdd00bfc78c8967000000000000002041feb67496b6e8973bb1afa6ef9bb1c0ce7b067b089b046d2903ccdd332888e600,
  0x0000000000106b0000000000000f2c0000000000000f2b000000000000002a0000000000002000485d512737b1da3d2ccddea2972e89ed14,
  0x00000000001d7d0000000000001d7c0000000000001d7b0000000000001d7a0000000000001d7900000000000011ab00000000000011aa00,
  0x00000000001d840000000000001d830000000000001d820000000000001d810000000000001d800000000000001d7f0000000000001d7e00,
  0x00000000001d8b0000000000001d8a0000000000001d890000000000001d880000000000001d870000000000001d860000000000001d8500,
  0x00000000001d920000000000001d910000000000001d900000000000001d8f0000000000001d8e0000000000001d8d0000000000001d8c00,
  0x00000000001d990000000000001d980000000000001d970000000000001d960000000000001d950000000000001d940000000000001d9300,
  0x9f797f023c520e0000000000000020000000000000002a0000000000001d9d0000000000001d9c0000000000001d9b0000000000001d9a00,
  0x87aded8e98c868d79b3e687a6642cca3bd5999b3aad73200000000000000203242d967c890a8c0a38f38fa10fdb9271780f2e1ab0e17e846,
  0x00000000000020616644aab9637fd383cbcd54ff47c58c1be88f5209e768cb532d329bd937cef800000000000000206da58c1410f1fee455,
  0xeb5a7b17b2d56fe4e64453e496a63e00000000000000207199011bb4d13f0f71763eb76bb951c0a1e38bf2be4b0754b083b44f133fc68600,
  0xb1c76036c4e4bdee96ae5199a80dfd591aecbba3aac86784b1603811cb700b00000000000000202701526422ce61f64ade8fdbbf5fda9fed,
  0xba38974cf91f36000000000000002040cf95366f60c090ad6fd6cf6db21e228ff5456537af963d5177f74790c52309000000000000002006,
  0x953d2c867f29f763782ad2eed99ab865edb399e32fd94600000000000000204f21601e16a0c302209274e6b6d924f2ccac5e47db1e50cb90,
  0x00000000000020183a3544a5995c0b7bd27bfa0c3d037e8bfc81d854306d00669c63f120649e1c000000000000002040aa89db17d38036d4,
  0x9f54001b8687790ff6d8d17dd8db0a000000000000002072583bcfb6f7fddade193b8b99a7247c45a8af4d0dfa352cc9eb3ff4dee465f300,
  0x9ef0a81040ee0070883cf2656aaa6465ad6592ddbf3b90c6ac3857f780dd2b000000000000002036b933f412638bcc0775c13c5a02f2a1fa,
  0xfcac3b8677794b00000000000000200fcc17adc66374a68f874cb1699b13eb99303819d4f7f73375658ac1072b5fcd000000000000002044,
  0x7dee2d90198337b0a34955bc02aa9a863abca6640a77700000000000000020516746e358b23c18a7a5493fbf0b5b0c47cd536eeca11b9875,
  0x0000000000002027e975d6c69ced43820cba502aafa9fe1277ee98e698b93a7cb0785a9378a81600000000000000203cc9a7b09a245b0e65,
  0x28961aa384378f3c3621984da96d5f0000000000000020447ae21fd3fd28a5053512dd24a27a2877588057146b5a92c337b7190b71c88900,
  0xe161d22d15a3cb6cf64b2de883e5e7b9acc444cd4984e4a47de567468ce9f00000000000000020412cca540553e682ab45b6d73ea1e7b4f9,
  0x12a86da71d612800000000000000202d582ccd7221b8666f1565de1b41303b8a4673f5704f1c116bceea0ec7822c7f000000000000002044,
  0xd68902b06da9652b2988ad9f85f201deabb68e098307cf000000000000002020f2327cd1fb84e9e23f8d452c3f34879d8f4e14cca09ce5d3,
  0x000000000000203d061fc38dd2c83ca176277c22a79f9c796cac30e424b998acab8906409d1e81000000000000002015f9d0ffee17a09178,
  0xdf38af603759f130f60ac34bfa4e20000000000000002055f80368f4c1168715d5e72aa82dc449f7d1e1a193544c2d0c1804223215ae4300,
  0xc561e5e2eb2db93c63ebebeeca0706f4d22d7c97d1b3cd894f3fe1e96e3f9800000000000000203c3c863ce1e23aa9508db109d031bde0fb,
  0xb65172620aa17b00000000000000202c76684485500ed4ee1bdcbca7d6a4776ee9eb3c59358c0a2a89373e558ad07500000000000000202f,
  0x08be64ce9d9186e51e035b68789468da2960debfa7c0a50000000000000020133359640c8fd28505559701110da8b393b643c6cedf99068e,
  0x000000000000202907b3952a260ed19b762a0d0c6ebb46906d00536d043b5886efda3ec1bf93b20000000000000020112a2e019765c363b5,
  0xc996a3bffc2854c3b1aa2cb68e741e00000000000000205a7d6f140bcede6fc3ffc08b3580ad366b51a13c4a8f2c7e5029ad59e0e6a30b00,
  0xff136e8df25273c054dc45add0a39a2ad605a03ed8e046a150b46ab92d55a20000000000000020404a5fd5451b1cbeed7b157a347d28f82e,
  0x78d6e5b699fa880000000000000020112ed1b06ab532155e8d0fdc2ce8d4b0bdff7dc56d7cd1b21182cd886eb53f3b00000000000000201f,
  0x6ccecbb1baa167a83a9dec090fd36725389bb054e8237f0000000000000020329bfeb568d069b06e91ad601c4662e9916d5fe8093b2382e2,
  0x000000000000206b39a94289dfcb4f67769cee4c42fa522d40bb123be1b6d15d01ba812e159add00000000000000200fc77c451072b521ce,
  0x92fce10fee7f3f95c0c54e3e3021c2000000000000002057569699105509f80f067cd17383d25e742c7446ba2866caf0f62489d71c4dbd00,
  0xf4a15f4a70a42f04946b0303790c5d564118cbe42fa163f66e5a82704594ce00000000000000202c17c178a35d76f7e91b9f7416bc14b678,
  0x56ced0d1c1ee5dc3f8582731c3cc3ee171142c064b0ccad6c624d1b30c91d5b1000000000000002038]

/-- the 5473 bytes -/
def xfrFile12 : Bytes := (xfrFile12Words.flatMap (leBytes 56)).take 5473

set_option maxRecDepth 100000 in
theorem xfrFile12_check : checkTransfer xfrFile12 (Spec.transferVars 20 1 2) 8192 (Spec.transferPublic 20 1 2) = true := by
  decide +kernel

theorem xfrFile12_size : Spec.IsSize (Spec.transferGates 20 1 2) 8192 := isSize_of (k := 12) (by decide) (by decide)

theorem xfrFile12_len : xfrFile12.length < 2 ^ 64 := lt_of_le_of_lt (List.length_take_le _ _) (by norm_num)

/-- the entry for 1 input and 3 outputs: words of 56 bytes, little-endian, the last one shorter -/
def xfrFile13Words : List Nat := [
  0x0000000000000020000000000000000000000000000000000000000000000000000000000000000000000000000000000000000000000000,
  0x0000000000000000000000000000000000000000000000200000000000000000000000000000000000000000000000000000000000000000,
  0x0000000000000000000000000000000000000000000000000000000000000000000000000000002000000000000000000000000000000000,
  0x0000000000000000000000000000002000000000000000000000000000000000000000000000000000000000000000000000000000000020,
  0x0000000000000000000000000000000000000000000000000000000000000020000000000000000000000000000000000000000000000000,
  0x0000000000000020000000000000000000000000000000000000000000000000000000000000000000000000000000200000000000000000,
  0x0000000000000000000000000000000000000000000000200000000000000000000000000000000000000000000000000000000000000000,
  0x0000000000000000000000000000000000000000000000000000000000000000000000000000002000000000000000000000000000000000,
  0x0000000000000000000000000000002000000000000000000000000000000000000000000000000000000000000000000000000000000020,
  0x0000000000000000000000000000000000000000000000000000000000000020000000000000000000000000000000000000000000000000,
  0x0000000000000020000000000000000000000000000000000000000000000000000000000000000000000000000000200000000000000000,
  0x0000000000000000000000000000000000000000000000200000000000000000000000000000000000000000000000000000000000000000,
  0x0000000000000000000000000000000000000000000000000000000000000000000000000000002000000000000000000000000000000000,
  0x0000000000000000000000000000002000000000000000000000000000000000000000000000000000000000000000000000000000000020,
  0x0000000000000000000000000000000000000000000000000000000000000020000000000000000000000000000000000000000000000000,
  0x0000000000000020000000000000000000000000000000000000000000000000000000000000000000000000000000200000000000000000,
  0x0000000000000000000000000000000000000000000000200000000000000000000000000000000000000000000000000000000000000000,
  0x0000000000000000000000000000000000000000000000000000000000000000000000000000002000000000000000000000000000000000,
  0x0000000000000000000000000000002000000000000000000000000000000000000000000000000000000000000000000000000000000020,
  0x0000000000000000000000000000000000000000000000000000000000000020000000000000000000000000000000000000000000000000,
  0x0000000000000020000000000000000000000000000000000000000000000000000000000000000000000000000000200000000000000000,
  0x0000000000000000000000000000000000000000000000200000000000000000000000000000000000000000000000000000000000000000,
  0x0000000000000000000000000000000000000000000000000000000000000000000000000000002000000000000000000000000000000000,
  0x0000000000000000000000000000002000000000000000000000000000000000000000000000000000000000000000000000000000000020,
  0x0000000000000000000000000000000000000000000000000000000000000020000000000000000000000000000000000000000000000000,
  0x0000000000000020000000000000000000000000000000000000000000000000000000000000000000000000000000200000000000000000,
  0x0000000000000000000000000000000000000000000000200000000000000000000000000000000000000000000000000000000000000000,
  0x0000000000000000000000000000000000000000000000000000000000000000000000000000002000000000000000000000000000000000,
  0x0000000000000000000000000000002000000000000000000000000000000000000000000000000000000000000000000000000000000020,
  0x0000000000000000000000000000000000000000000000000000000000000020000000000000000000000000000000000000000000000000,
  0x0000000000000020000000000000000000000000000000000000000000000000000000000000000000000000000000200000000000000000,
  0x0000000000000000000000000000000000000000000000200000000000000000000000000000000000000000000000000000000000000000,
  0x0000000000000000000000000000000000000000000000000000000000000000000000000000002000000000000000000000000000000000,
  0x0000000000000000000000000000002000000000000000000000000000000000000000000000000000000000000000000000000000000020,
  0x0000000000000000000000000000000000000000000000000000000000000020000000000000000000000000000000000000000000000000,
  0x0000000000000020000000000000000000000000000000000000000000000000000000000000000000000000000000200000000000000000,
  0x000000000000200000000000000028fc00000000000000000000000000000000000000000000000000000000000000000000000000000000,
  0x06b8086f1c77a30000000000000030000000000000000d000000000000000001000000000000000000000000000000000000000000000000,
  0x0b7bd8ec802c37000000000000003010857105a76d0ae82e35516735183cb4eff28240f5b0c26b2ccaf7a496c20a86f85155d5aaf5c2f94d,
  0xa7213c8e387855000000000000003085131546c1dc1960c4414787e78f38354a69de465326c04aac084264ffc10a03aeba811746ceecf4d0,
  0x740835e3a0707500000000000000300c65b7c848c2e14d58f1823c57a81dad99f1679d9fc301948a3938b62699fca3384d1396e48df6493f,
  0xe56f1a103679f900000000000000309792fa45286e23d44c1aceaf83f2cb6fb424d647bc544f5bdf8cc3f291d2a5c5bb13071fdb1206acf9,
  0x5247daf37beffe00000000000000301994496ec61a8d91ce386e8094514be763a9491ea3145377f8e04dfc4287c1241ebb04c422eebcdb58,
  0xa299521ee3d657000000000000003012af9991449f735d2adc42e7c1866c6bd6207056ee79e43bd4c1d889db7a42d4252875bc95be4f97ff,
  0x000000000000000000000000000030951c813a2e1b49edcd4f50cd8cf47783a653b1dc59cb19934790df83616e68aaebb63f04d1e92d6baa,
  0x39a6929fca980d00000000000000304000000000000000000000000000000000000000000000000000000000000000000000000000000000,
  0x06cf052271ab55000000000000003009ad9b2557d7d1a47f44103ec3a8df916d19fccb94e0e57f53c3bdf510451047d103d808551b85c31e,
  0x98d1a22120eddb000000000000003085d0e0a0ce2e3d377133a989aead64efbe5232cf83f81426efbe85dbb0606ce24f8bd70f4d0dc9c73f,
  0x4394392ae42be3000000000000003083b1429450325ea14fea05361e177072f2a63f393eb17b4e9fc8b877f3803f1f2414f5211bf72cc91d,
  0xceed4caa01b7c00000000000000030913d6d6a2c200a0e884ae74d623d5712a00516196fdf94f214ff94963f16e88c40237665593b24caf7,
  0x00000000000030000000000000000517b800984b7b35a42ddad90427dca5043f448d999353f5cfdf9083a6cc681f9b3b321c743ad004e601,
  0x000000000000300250711228def2f2d541419f49c5b9f39a8e7e82b3d891983aedb15ba5196417aab0bba5d438847328a2c4f3e4ca1cfa00,
  0x0000000000003013c9788daa9a18cda26f16bf09f4c79e886ad3d9e87ec874f839f8367edfa23d49cdf437ce78a40bd02ee832769c0c0500,
  0x0000000000003009c623a1ab141ede8410871e0ead12f4b1bb2e3cfe5e1cf175a8675b61934da2e29417ae753b4a5462da1ab57395b67300,
  0x0000000000003003dc3b5f9e3a033e4ec89447e640bdf0bfbea1ec730bf6512d9ffb9c2a18bd0873b0e01fa226bb7a31775b4eda7b077700,
  0x000000000000300d8f55c46dc815b927ef24ded01ef5d4098f9d9292a38293c3a0064dbdcc90a2633f5354680f15e019c60c8938829b6d00,
  0x00000000000005908ea1d0582cd1c06e064f437e29adc4334552825fd87010dbf29f06c96fb51395f47e468964fb7f1cda2bb490daa4d600,
  0xe09db580600dd900000000000000200000000000000000000000000000000000000000000000000000000000000001000000000000002000,
  0x4ac3e799f2e8ecb47001f57845bbbfd7c0070a381d364d00000000000000206141e529fcdc704e26ef0699ca82c49012c588ada0e784368b,
  0x000000000000202664991206cc6e6a144513f4c899a417ee516fa456ee3f9ec51c159ddca97c33000000000000002022a342a0964a25e0e9,
  0x6b58bc434906ac6fdd00bfc78c8967000000000000002041feb67496b6e8973bb1afa6ef9bb1c0ce7b067b089b046d2903ccdd332888e600,
  0x0000000000106b0000000000000f2c0000000000000f2b000000000000002b0000000000002000485d512737b1da3d2ccddea2972e89ed14,
  0x00000000001ebb0000000000001eba0000000000001eb90000000000001eb800000000000012ea00000000000012e900000000000011aa00,
  0x00000000001ec20000000000001ec10000000000001ec00000000000001ebf0000000000001ebe0000000000001ebd0000000000001ebc00,
  0x00000000001ec90000000000001ec80000000000001ec70000000000001ec60000000000001ec50000000000001ec40000000000001ec300,
  0x00000000001ed00000000000001ecf0000000000001ece0000000000001ecd0000000000001ecc0000000000001ecb0000000000001eca00,
  0x00000000001ed70000000000001ed60000000000001ed50000000000001ed40000000000001ed30000000000001ed20000000000001ed100,
  0x00000000000020000000000000002b0000000000001edc0000000000001edb0000000000001eda0000000000001ed90000000000001ed800,
  0x9b3e687a6642cca3bd5999b3aad73200000000000000203242d967c890a8c0a38f38fa10fdb9271780f2e1ab0e17e8469f797f023c520e00,
  0x6644aab9637fd383cbcd54ff47c58c1be88f5209e768cb532d329bd937cef800000000000000206da58c1410f1fee45587aded8e98c868d7,
  0x13be8625c6c3a600000000000000207199011bb4d13f0f71763eb76bb951c0a1e38bf2be4b0754b083b44f133fc686000000000000002061,
  0xf651c03556fa21c9d12ba443962127e3fb047a9dcced2f0000000000000020705de15cfcb8d7a63523909584bb0168c598d1c2a516fb1dfb,
  0x0000000000002023f1a9ed3c8d9a9a89cfd0350bcf1c7e857b8dfcfecc5261e940f1c623d8189800000000000000201f462a4a58cf3c5f8e,
  0x0fd2eaefcb047c28c9715cfe18b14f000000000000002029051cc2da8275effdc3d9aec850a32009e821aacc2ea816f8833c8500e742cc00,
  0x7bdd9bac3c7f1e43639125ca87cde3c9a803a01a605f3ad3305a9d71e46ff8000000000000002018d8cd8dffce112904cec7dd4a23f9743a,
  0xafc1690dd420b9000000000000002045c4981eed571db8f0a820e5f18b1ff7f22037abea7e4e41411f2fb8b6c0e900000000000000002044,
  0x5c6d4dcf169ce95487c619dc18f881e7fdc699f0a12a9e0000000000000020532a18ac5cf1474ce1e2bd26a9e4d8fbd477aadea52cc5480a,
  0x0000000000002055ed12c503eeec4cb09a62bd5a14b18f8da73ba082b49842f59fb948716cef9900000000000000202acfbf4e2ea15a4b5f,
  0x6ca24e580fb0a8ec7aeb48f6ebed7d00000000000000202a8e748cb7b08be8b38cb11a509995e5e492f783beee46481ffc8f44afd9db7a00,
  0x56827768da728146836e2a8945661ada677471f3e9ba61f48b9a6acc34b99200000000000000205cb1dc2fac72a7e10b47a4b492e3a8d979,
  0xf2789d012c7856000000000000002030c3d29ab1c4f3bcd0bb4da8ce2703bd0668753ffca1a913a18fc19aeb0dcf4000000000000000201d,
  0x22d941e1203832f5b182396c794fa84ee95ba776b2a666000000000000002032120290ec652134a75d267a21105d9453e958bba52bd539c9,
  0x00000000000020152786f079b386dccda6262e60e2395cca4fc7ee7aae15c35c67f0e014bf37af0000000000000020130b60b6b9c8055bc9,
  0xf956abd0d4df26e7f229ecdbf217ec00000000000000205e0216fa1f2be4de26324488ecacd7190685cac8c3436833035be2717fd5197000,
  0x2e460000cf13a73b4d8a4c12258e9c1beb2034a5b56c9f28a39757ef69474500000000000000202f3484f13cee08421e722399ddad3c8470,
  0xabe311dd9eee360000000000000020482c6e59d883d776a8b5682461e7b2ea2f4a7b8fb763aa13202b066d6b79459b000000000000002060,
  0x16adf545194fe1762700371f31fd7ef799145a717499b0000000000000002053e3853ee87c1da1051c6b0c1039eda4fe5e278aa155f666e0,
  0x000000000000200160d42a56a11733d41733c4749dee261b13a656c68a07d359b77b6191de89be0000000000000020666209a327cdd24aba,
  0xf79fcf690dd07cb4878c97bb8584130000000000000020363c84409dd88536e2f855ad17ee18ad4845c46febb43807c42aa319ece9e56a00,
  0x4cfd5776189315f5a7154998f89f9be5d053e17b6dea00a2f0a037d447ad6900000000000000202b6fde2dfbebd134ababc04f19b145f07a,
  0x889b7837190c260000000000000020459fb58eadfa0ef014ccac810d37dc82adf2bfd7fd09c696c94ed07dc6469b60000000000000002017,
  0x31fa69d4ce61e94ee182007c4e1c214de85cddab6cd8bd0000000000000020652fcbb7353b0e1500bb4fe2bed862a506061e6e342dee6b6f,
  0x000000000000203232ef86676028206ee3a5ba6afb5665b96a04169ae584b822b8a8c7d189b40500000000000000206a29553dc4e14d1c96,
  0x7c66b03ce5e292d45038f9e2ee272900000000000000202d720aad3cd62dd0f3479caef24106a2c3c07f8455dea8e75ffce97f8d14276400,
  0x7e00e32b245bfcecd7dd9257a956ec7d3b6b35c310ff6fd2640a045db4293d00000000000000204609d59ef2843adadb569856f77be0eda4,
  0x8aec6983b2150f00000000000000207338458bfcb20e8ea672bf629e878583351be900927de51a89770e28e07ae20b00000000000000206d,
  0xf4009ff188c25304e07b2da90636b3fd0cdfa9e003f5ce0000000000000020693abb878ec414da4ba7a462e67f8be9d166e4de35b9a4ca9a,
  0x000000000000204bba34546eccddbc687446ba4c1967fdc34f6b944f3869a487b936c0b2172c0000000000000000206b3c05532331945fd7,
  0x6a5b638f4be0b6b112027d6236b67e0fcedcb4e7c6bd3c61a606436a119d940700]

/-- the 5521 bytes -/
def xfrFile13 : Bytes := (xfrFile13Words.flatMap (leBytes 56)).take 5521

set_option maxRecDepth 100000 in
theorem xfrFile13_check : checkTransfer xfrFile13 (Spec.transferVars 20 1 3) 8192 (Spec.transferPublic 20 1 3) = true := by
  decide +kernel

theorem xfrFile13_size : Spec.IsSize (Spec.transferGates 20 1 3) 8192 := isSize_of (k := 12) (by decide) (by decide)

theorem xfrFile13_len : xfrFile13.length < 2 ^ 64 := lt_of_le_of_lt (List.length_take_le _ _) (by norm_num)

/-- the entry for 1 input and 4 outputs: words of 56 bytes, little-endian, the last one shorter -/
def xfrFile14Words : List Nat := [
  0x0000000000000020000000000000000000000000000000000000000000000000000000000000000000000000000000000000000000000000,
  0x0000000000000000000000000000000000000000000000200000000000000000000000000000000000000000000000000000000000000000,
  0x0000000000000000000000000000000000000000000000000000000000000000000000000000002000000000000000000000000000000000,
  0x0000000000000000000000000000002000000000000000000000000000000000000000000000000000000000000000000000000000000020,
  0x0000000000000000000000000000000000000000000000000000000000000020000000000000000000000000000000000000000000000000,
  0x0000000000000020000000000000000000000000000000000000000000000000000000000000000000000000000000200000000000000000,
  0x0000000000000000000000000000000000000000000000200000000000000000000000000000000000000000000000000000000000000000,
  0x0000000000000000000000000000000000000000000000000000000000000000000000000000002000000000000000000000000000000000,
  0x0000000000000000000000000000002000000000000000000000000000000000000000000000000000000000000000000000000000000020,
  0x0000000000000000000000000000000000000000000000000000000000000020000000000000000000000000000000000000000000000000,
  0x0000000000000020000000000000000000000000000000000000000000000000000000000000000000000000000000200000000000000000,
  0x0000000000000000000000000000000000000000000000200000000000000000000000000000000000000000000000000000000000000000,
  0x0000000000000000000000000000000000000000000000000000000000000000000000000000002000000000000000000000000000000000,
  0x0000000000000000000000000000002000000000000000000000000000000000000000000000000000000000000000000000000000000020,
  0x0000000000000000000000000000000000000000000000000000000000000020000000000000000000000000000000000000000000000000,
  0x0000000000000020000000000000000000000000000000000000000000000000000000000000000000000000000000200000000000000000,
  0x0000000000000000000000000000000000000000000000200000000000000000000000000000000000000000000000000000000000000000,
  0x0000000000000000000000000000000000000000000000000000000000000000000000000000002000000000000000000000000000000000,
  0x0000000000000000000000000000002000000000000000000000000000000000000000000000000000000000000000000000000000000020,
  0x0000000000000000000000000000000000000000000000000000000000000020000000000000000000000000000000000000000000000000,
  0x0000000000000020000000000000000000000000000000000000000000000000000000000000000000000000000000200000000000000000,
  0x0000000000000000000000000000000000000000000000200000000000000000000000000000000000000000000000000000000000000000,
  0x0000000000000000000000000000000000000000000000000000000000000000000000000000002000000000000000000000000000000000,
  0x0000000000000000000000000000002000000000000000000000000000000000000000000000000000000000000000000000000000000020,
  0x0000000000000000000000000000000000000000000000000000000000000020000000000000000000000000000000000000000000000000,
  0x0000000000000020000000000000000000000000000000000000000000000000000000000000000000000000000000200000000000000000,
  0x0000000000000000000000000000000000000000000000200000000000000000000000000000000000000000000000000000000000000000,
  0x0000000000000000000000000000000000000000000000000000000000000000000000000000002000000000000000000000000000000000,
  0x0000000000000000000000000000002000000000000000000000000000000000000000000000000000000000000000000000000000000020,
  0x0000000000000000000000000000000000000000000000000000000000000020000000000000000000000000000000000000000000000000,
  0x0000000000000020000000000000000000000000000000000000000000000000000000000000000000000000000000200000000000000000,
  0x0000000000000000000000000000000000000000000000200000000000000000000000000000000000000000000000000000000000000000,
  0x0000000000000000000000000000000000000000000000000000000000000000000000000000002000000000000000000000000000000000,
  0x0000000000000000000000000000002000000000000000000000000000000000000000000000000000000000000000000000000000000020,
  0x0000000000000000000000000000000000000000000000000000000000000020000000000000000000000000000000000000000000000000,
  0x0000000000000020000000000000000000000000000000000000000000000000000000000000000000000000000000200000000000000000,
  0x00000000000040000000000000002ab300000000000000000000000000000000000000000000000000000000000000000000000000000000,
  0x1f7be4be73cc360000000000000030000000000000000d000000000000000001000000000000000000000000000000000000000000000000,
  0x9472fb6e529dda000000000000003093a8e58f629e15627104a60f9663beea3b086cb7f52caf12cce5c4961c550f519e253bb595c8252353,
  0x109eb042eee7230000000000000030852e24a40af408809c52313979bb4c4753ab1e45dc47226c74ae32e79f23fd194281e9f74c126f9626,
  0x44d48dacbfaa800000000000000030864c442643aa052a34108c218e80e0ea7ead6641d79a397642d005e600150c920e4e00621ebfc92c8a,
  0xd5674d247fc5fa0000000000000030063b8ba86aba5d334d9f62956aa096318fc1241bba306fb7b7e9abdba44f113848cf023a205bfeea32,
  0x03e8aca99b00bb000000000000003009514a0cb39d3f2adfd0210b7f3b245be2b3b5632b1c18696c22b0d79fd18a3c96438a37bfeb7e6f93,
  0x7ee4092266ff840000000000000030186384ce5707c1de979cf8413fb412f0041e45fb3c51e6f616bfcf1a7fad8bf2fb00e17401706fbbf1,
  0x000000000000000000000000000030166cebfefddbda4320fa58bf1285aca287fcdbc6827e3c92f1998eee4abd88ea2d7e157db53c9cf731,
  0x6222626c0f5e8900000000000000304000000000000000000000000000000000000000000000000000000000000000000000000000000000,
  0x13677c3b398821000000000000003096a22c3f8b1b74a0d2bc14b8133a256128a15e4c53764a9b99bbe7a8f02167b5b64485fd9b6369b503,
  0xf3ade0d612410b0000000000000030085eeb11f0ab37ca765532660ee35a03791805044b010363fdde72eeb0e23613961355a99e03045d11,
  0x5d46097852af8a00000000000000308766077f85e358e57f228939ad5911769e9cde70d30fe1a69d8093e7634163ab0ad826042f76ca9ded,
  0x26d2cf7925063b000000000000003012c15104bfccc1c0053095dd5e96e386df28c52c3afa4036fbb9674c528c72a6609d5b2acdba137a0c,
  0x00000000000030000000000000000593737051b0f9dfb2f90cbf53424899d77807f06fc7eeea6e931bb21f753343befbbfba6e7b32211aa3,
  0x000000000000308ea5d6cf8db824efef3b2a249a7a261d67d410df67c6e46934b8fa707a7fa1cfcecca8f07ed5f657fa6f2ca5dd0309fb00,
  0x00000000000030168dbdf57a01e326cfec0da806a4dde448fae6386cd9864ea3ec05deb453d26eca962d1de3b987307f52a96e063eac9000,
  0x000000000000309209d4ad53b3cb57a57f03a5280f84d1e3bc6e00f8f7acde96b41d0f5242d3f2ca047f5d41fcc993e72bfb39defeb17100,
  0x0000000000003013755a8ac3d5ed6e0b5fc362329efae74d20c9bc46caf63a76bb196c87fa5cc65bcc29998330a8eb9d313ad40b592ccb00,
  0x0000000000003004f96b5db0a0c2c7af637a94894839b4f85f9e8903304f60fc378f9e5b431fadd405f53e20cca0d1b29b1c916cc279aa00,
  0x00000000000005866cd91e719faebe80dd429d3b19a806d1d99f423f01cb5dc0bb83c0408588f205185327d93db1a30f29cca292cbe92900,
  0xe09db580600dd900000000000000200000000000000000000000000000000000000000000000000000000000000001000000000000002000,
  0x4ac3e799f2e8ecb47001f57845bbbfd7c0070a381d364d00000000000000206141e529fcdc704e26ef0699ca82c49012c588ada0e784368b,
  0x000000000000202664991206cc6e6a144513f4c899a417ee516fa456ee3f9ec51c159ddca97c33000000000000002022a342a0964a25e0e9,
  0x4622f6a9152435034d2ff22a5ad9e1000000000000002041feb67496b6e8973bb1afa6ef9bb1c0ce7b067b089b046d2903ccdd332888e600,
  0x0000000000106b0000000000000f2c0000000000000f2b000000000000002c000000000000400056624634b500a166dc86b01c0d477fa6ae,
  0x00000000001ff90000000000001ff80000000000001ff70000000000001429000000000000142800000000000012e900000000000011aa00,
  0x000000000020000000000000001fff0000000000001ffe0000000000001ffd0000000000001ffc0000000000001ffb0000000000001ffa00,
  0x0000000000200700000000000020060000000000002005000000000000200400000000000020030000000000002002000000000000200100,
  0x0000000000200e000000000000200d000000000000200c000000000000200b000000000000200a0000000000002009000000000000200800,
  0x0000000000201500000000000020140000000000002013000000000000201200000000000020110000000000002010000000000000200f00,
  0x0000000000002c000000000000201b000000000000201a000000000000201900000000000020180000000000002017000000000000201600,
  0x76d918c9d7f28e000000000000002052d2447ca45b440b143be21cc1f52060da49b7d9b4b87da926e18920b5fd6097000000000000002000,
  0xfbdcf523adf17e88c878057b9c2235b0655f6ffa945dd3000000000000002005bef1c14b38168184b63c5b5f4e7ee41e19e1fe30a27b5034,
  0x0000000000002023bb75146d889293d22034b88466d204e7ea047513adebfcc196a767718c1c0100000000000000205082fc62393eb04ff7,
  0x1364af859002e196b034acbd91eaaf000000000000002022c5cea566b79c040f1756e647cdeba0c8ddb3f63e4cbc97a6c23349c505309700,
  0x0377edc968379021a09c90e0c352ef8c704f87745fa6db47e9f0ace7f3592c000000000000002070bd3ec79efdcba84522e85c77c580ea3a,
  0xc08d9e9c3d271900000000000000203ae50421e0b0d413991007efde820aaabfa351d3ac9b4932d0eb2844317eb878000000000000002048,
  0xae0be655611d07d70820a8ae7bf4afa53a09b62484062a00000000000000204ded352edda37614e870f0fad042523906589ea62387098941,
  0x000000000000204e8a23f13b4e7c3035e57036614e2c4340e01c02c778195839ea73a6e6567ec400000000000000200dd07727f1f345f3ad,
  0xca17fa42b51e6b4a69a7969dc09eb000000000000000200edecf6a2da7631123f4494358d5cb48d0379439598c6a0502cf30bd62f7aa2100,
  0x46a5ae44ad415ec32e02f9b18fc982feafbbf99fd7b0d73193efebf6284cb300000000000000205d1200d1db2620d68d7f5d2fb410d085a0,
  0x68a177d2a9c2b6000000000000002020770ce752ceca745719ba7229c920b34d93f895d5404f209cce5dae0d9736b7000000000000002036,
  0x20cce76020268760154ef6900bfff96ffbfffffffc00000000000000000020271e7e8d7a92fb84a90d7d261e9847bb2dcfe5fc329672d58b,
  0x000000000000202edf0b53a3ccfe9a203b3da3df94e03f88d5c1ad3ab0b1d677a7f2cad8b3569500000000000000200001cfb69d4ca675f5,
  0xc75047c68d75c7881f4a7b41c8dd8900000000000000201106dc8bb714404c5e71e04153bfe61e40a51e96fde2b527cfb2408bd764e1ce00,
  0x6f7c990247836b26f47e967ac5e56e98cf6434325a3be9158c77e40ba168b300000000000000203396ec3bae6ddd2f7b61277490001d4027,
  0x310d80732a403b000000000000002037f04e44b61ee350cd11ae62b7fd85043d380f46ac13db506a110726e664e56000000000000000203f,
  0x8f29735d371396ee88475c1db55fde00c333b68cdf2f3000000000000000203d2fd6ed611083d2e522b63e0a9304fcb6d1f63eef93c0d7da,
  0x0000000000002068dcc3544a33b9f17326a798fbd27359ec0b30f7e673899ebfb6d5f0eaf698cb000000000000002041355a587822792844,
  0xa30d8ecb7a6797ba7de266d62eca7600000000000000202f692d8cbcf97aeac53ca1639bca7af20d6ed297134b7f646f13f08479574a5000,
  0xb60d6e23e8bc9e565985c65e2a82dbcd76fc9cc3a0db5e4aac623766f7d6ba00000000000000203925ff62997ba2def78e9a1914b59595a7,
  0x56040c55adb86f0000000000000020473a4faa081511b194658d2a781ca1816c2e83f2be94b48facba154ad0527b7c000000000000002056,
  0x83c1aa682bb22271a088aa7b60df93b7935b189dc069330000000000000020553ab785d5b9e8180913daa9f00eada108f41c0fffcdc38974,
  0x000000000000206861aa39493e244834b6346b717d2c85a4178e16d3260f5c12d87494639507ca000000000000002010faefbf03c1f3310e,
  0xb07a030905cec579be228a8c1d1b9700000000000000202c107d33f5b232b1a372afb70d79178fda955d5a6596c4683d370f5c451568f500,
  0xc59afc3af020c641e7b7f0cd1abd4c3e212f0b781f3182fabce2233d96962d00000000000000201254f99bb31950061d304b6e2ee5942a4e,
  0xf4a4cb500b6077000000000000002028d447da2c0e5c479ec47600f17b2c277192639421174938b6cd83c031a9690b00000000000000200c,
  0xecd647e70d69fa8675e77068885c08fa4d81e1851e470d000000000000002029a8a208d25c3f29ff40fab1eb9d8ca284e8df70fdad1fd0d3,
  0x00000000000020188fb52498dcb8e42553841a93f4607a007c1439e90d1393d047208b54b9a43f000000000000002061e350efb7c571e8e0,
  0x0b4e3099e04dd32db0ec05021db8e6000000000000002031ee617b05c8fe01e1aa7c5664cac20cf733fc6f5d5d3a8013f29c760fb0aaa100,
  0x01028b9fdddc1d0e9b5ff68cface0176dcc27d210d9a73c04380081030292e000000000000002000c5262264208f87cc941a41fd5791d30b,
  0xcae12b67028c3a000000000000002025f7e03199f236d93bc441969c46904f24d28cc0b0fc5a08a6f74d1204ab797e000000000000002059,
  0x480cd8623171918a5c8df8d714a913c2b5108737d8f159bb23]

/-- the 5569 bytes -/
def xfrFile14 : Bytes := (xfrFile14Words.flatMap (leBytes 56)).take 5569

set_option maxRecDepth 100000 in
theorem xfrFile14_check : checkTransfer xfrFile14 (Spec.transferVars 20 1 4) 16384 (Spec.transferPublic 20 1 4) = true := by
  decide +kernel

theorem xfrFile14_size : Spec.IsSize (Spec.transferGates 20 1 4) 16384 := isSize_of (k := 13) (by decide) (by decide)

theorem xfrFile14_len : xfrFile14.length < 2 ^ 64 := lt_of_le_of_lt (List.length_take_le _ _) (by norm_num)

/-- the entry for 1 input and 5 outputs: words of 56 bytes, little-endian, the last one shorter -/
def xfrFile15Words : List Nat := [
  0x0000000000000020000000000000000000000000000000000000000000000000000000000000000000000000000000000000000000000000,
  0x0000000000000000000000000000000000000000000000200000000000000000000000000000000000000000000000000000000000000000,
  0x0000000000000000000000000000000000000000000000000000000000000000000000000000002000000000000000000000000000000000,
  0x0000000000000000000000000000002000000000000000000000000000000000000000000000000000000000000000000000000000000020,
  0x0000000000000000000000000000000000000000000000000000000000000020000000000000000000000000000000000000000000000000,
  0x0000000000000020000000000000000000000000000000000000000000000000000000000000000000000000000000200000000000000000,
  0x0000000000000000000000000000000000000000000000200000000000000000000000000000000000000000000000000000000000000000,
  0x0000000000000000000000000000000000000000000000000000000000000000000000000000002000000000000000000000000000000000,
  0x0000000000000000000000000000002000000000000000000000000000000000000000000000000000000000000000000000000000000020,
  0x0000000000000000000000000000000000000000000000000000000000000020000000000000000000000000000000000000000000000000,
  0x0000000000000020000000000000000000000000000000000000000000000000000000000000000000000000000000200000000000000000,
  0x0000000000000000000000000000000000000000000000200000000000000000000000000000000000000000000000000000000000000000,
  0x0000000000000000000000000000000000000000000000000000000000000000000000000000002000000000000000000000000000000000,
  0x0000000000000000000000000000002000000000000000000000000000000000000000000000000000000000000000000000000000000020,
  0x0000000000000000000000000000000000000000000000000000000000000020000000000000000000000000000000000000000000000000,
  0x0000000000000020000000000000000000000000000000000000000000000000000000000000000000000000000000200000000000000000,
  0x0000000000000000000000000000000000000000000000200000000000000000000000000000000000000000000000000000000000000000,
  0x0000000000000000000000000000000000000000000000000000000000000000000000000000002000000000000000000000000000000000,
  0x0000000000000000000000000000002000000000000000000000000000000000000000000000000000000000000000000000000000000020,
  0x0000000000000000000000000000000000000000000000000000000000000020000000000000000000000000000000000000000000000000,
  0x0000000000000020000000000000000000000000000000000000000000000000000000000000000000000000000000200000000000000000,
  0x0000000000000000000000000000000000000000000000200000000000000000000000000000000000000000000000000000000000000000,
  0x0000000000000000000000000000000000000000000000000000000000000000000000000000002000000000000000000000000000000000,
  0x0000000000000000000000000000002000000000000000000000000000000000000000000000000000000000000000000000000000000020,
  0x0000000000000000000000000000000000000000000000000000000000000020000000000000000000000000000000000000000000000000,
  0x0000000000000020000000000000000000000000000000000000000000000000000000000000000000000000000000200000000000000000,
  0x0000000000000000000000000000000000000000000000200000000000000000000000000000000000000000000000000000000000000000,
  0x0000000000000000000000000000000000000000000000000000000000000000000000000000002000000000000000000000000000000000,
  0x0000000000000000000000000000002000000000000000000000000000000000000000000000000000000000000000000000000000000020,
  0x0000000000000000000000000000000000000000000000000000000000000020000000000000000000000000000000000000000000000000,
  0x0000000000000020000000000000000000000000000000000000000000000000000000000000000000000000000000200000000000000000,
  0x0000000000000000000000000000000000000000000000200000000000000000000000000000000000000000000000000000000000000000,
  0x0000000000000000000000000000000000000000000000000000000000000000000000000000002000000000000000000000000000000000,
  0x0000000000000000000000000000002000000000000000000000000000000000000000000000000000000000000000000000000000000020,
  0x0000000000000000000000000000000000000000000000000000000000000020000000000000000000000000000000000000000000000000,
  0x0000000000000020000000000000000000000000000000000000000000000000000000000000000000000000000000200000000000000000,
  0x00000000000040000000000000002c7600000000000000000000000000000000000000000000000000000000000000000000000000000000,
  0xb7f6af9131370d0000000000000030000000000000000d000000000000000001000000000000000000000000000000000000000000000000,
  0xdb63337aa00ee7000000000000003081220945defe8c4d9984f4c112c2e96a5f30c6f8880ef7c05bb702cf758e12d6958888a4906a9ac49d,
  0xc386f1bfbb2ab100000000000000308f9c3035ed687379c45843ea097ffffdc7700f8c62d09b5ccf03bf9d57cc80293fe199d3197cd87692,
  0xb23aee1d34073700000000000000300379904e4bd48a8af00666e7be2c02c95c77ee2a94e29003b43223e7cc521de203a1e517c06c832e0c,
  0xfaffcbf67e4def000000000000003087daf93b5c63b10cadee31fd0f335b72ecf3c0409d2a93b666419a8f149da3cea09e210a0fed034e93,
  0x1b5a973d69c5f8000000000000003001a9817b064f07b8d3f6912d9edf3f451f1a07b856d7ceeb310a88cba6c47f9704c3a68cee6a1c22c3,
  0x7ad90112c852de00000000000000300bf8052fc0eeaf4d6fbecbf22f3cd38337db96ff93911e60c8259ee54cd2d26dae76223ff180a32ba1,
  0x000000000000000000000000000030048eb7b60d7acf429425e06d557189f00528d434f86d6c52ef4aa472e05c294d1a7cc3a385d1357e5b,
  0x6a3340e05de59c00000000000000304000000000000000000000000000000000000000000000000000000000000000000000000000000000,
  0x2a1337ecc1d87d000000000000003016201206fcd217062997e84f341119b7154b287daf305034e3c5701bfbb8df40b4df3999fbf699e298,
  0x3ca6673a36d65c000000000000003098c625f675675f850c246f865a4a5c85dda597461e6409c3402c02f6a422cdd48245da386b040529e2,
  0xd61f36fd79de8a00000000000000308f3cf74105bacde8d55c2cfb65f8e633a52fdc8c03df13aa771551a42b15aaa75f3c716a4e43d9bfd5,
  0xedb17544cf7b9e00000000000000308474d742ebdf7d987c222f196756bb524794cc17937df19bf53fa8a5b4091b1c66e13da0df2100e360,
  0x0000000000003000000000000000058f171961824fe428a18e6edac184d93e02f91c561fe356fecd466d8984e4f4e6a7b858c283d5fe9f52,
  0x0000000000003003097d5d8a283ff88ce94cf7ce4bbd5076b4d31bda04e0fed4253df3e55cf9c730549f515bfc34ba6f82d6232702f21100,
  0x00000000000030020c3605cc3975c11f2ee77fac41964fc2704e91fee04334418d82163507507132e5009a3a98ddf873aa7333a3047ba700,
  0x00000000000030808a3a21082f757fb5ea0be4e4ba3c403aa6cf9d9dc6b4718a5d6350f32ae28b21df0f2f024b8c4e1e441b8b1962111600,
  0x000000000000308fb0e867037bda5e9d8081209bdf7d9cd5fa02bffbfa2c1a6d5282c30deb31e339190a4a1131560487c51b613933e6a000,
  0x000000000000308ba76e719e65eb341d1b071bc3ff2385681b6a39769d6f7be276af58fb6f12ea09526a8761b1cc45f4772400a6195ae400,
  0x000000000000050e5c812e6415050a93f8fe941908ad1ba93860468869686201820cc5b536c2c856a43dc55fb616b12cd5e5e86a2b7cf300,
  0xe09db580600dd900000000000000200000000000000000000000000000000000000000000000000000000000000001000000000000002000,
  0x4ac3e799f2e8ecb47001f57845bbbfd7c0070a381d364d00000000000000206141e529fcdc704e26ef0699ca82c49012c588ada0e784368b,
  0x000000000000202664991206cc6e6a144513f4c899a417ee516fa456ee3f9ec51c159ddca97c33000000000000002022a342a0964a25e0e9,
  0x4622f6a9152435034d2ff22a5ad9e1000000000000002041feb67496b6e8973bb1afa6ef9bb1c0ce7b067b089b046d2903ccdd332888e600,
  0x0000000000106b0000000000000f2c0000000000000f2b000000000000002d000000000000400056624634b500a166dc86b01c0d477fa6ae,
  0x00000000002137000000000000213600000000000015680000000000001567000000000000142800000000000012e900000000000011aa00,
  0x0000000000213e000000000000213d000000000000213c000000000000213b000000000000213a0000000000002139000000000000213800,
  0x0000000000214500000000000021440000000000002143000000000000214200000000000021410000000000002140000000000000213f00,
  0x0000000000214c000000000000214b000000000000214a000000000000214900000000000021480000000000002147000000000000214600,
  0x00000000002153000000000000215200000000000021510000000000002150000000000000214f000000000000214e000000000000214d00,
  0x0000000000215a00000000000021590000000000002158000000000000215700000000000021560000000000002155000000000000215400,
  0x0000000000002052d2447ca45b440b143be21cc1f52060da49b7d9b4b87da926e18920b5fd60970000000000000020000000000000002d00,
  0xc878057b9c2235b0655f6ffa945dd3000000000000002005bef1c14b38168184b63c5b5f4e7ee41e19e1fe30a27b503476d918c9d7f28e00,
  0xbb75146d889293d22034b88466d204e7ea047513adebfcc196a767718c1c0100000000000000205082fc62393eb04ff7fbdcf523adf17e88,
  0xb034acbd91eaaf000000000000002022c5cea566b79c040f1756e647cdeba0c8ddb3f63e4cbc97a6c23349c5053097000000000000002023,
  0xdfe09854a4611ccdcbfd7ad14c345e9ecad186bfe01a4d000000000000002070bd3ec79efdcba84522e85c77c580ea3a1364af859002e196,
  0x000000000000203195372efb8801d22ee7e29be2deb72c78cdfbc9294252e3e56162f7b0ad9ac200000000000000202acf42365b8db133a4,
  0x295ee7e9fb15b6cefbe5449d5a43b300000000000000205364e6a7e3ecda83ad470847b37de206e4846a4d908e06ac30af828d5b2389fd00,
  0xfa0ea002e94d7a9b2502ef7a4af6ddb77eb231c1a989b67448b4039b2c1ea300000000000000206bf4bf67e8a659215a02727869ac92b116,
  0xdf902952b9431b000000000000002013982d6431076c73153875fcbe92eb2e7ad52f3320f1da64e978a82d64e33b16000000000000002063,
  0xdfcd1772bda2d35eb5e6dee22cba3288a2e2ed197b5d6d0000000000000020605f6c725db6ad1c0134dccb69748fdb8d6eb3bff663565614,
  0x0000000000002053dbee4ec22cace3d0f4f8ef880101da90480e7b94fb059041810fa63da8dc26000000000000002018fdafc321ecc8396b,
  0x4fe39c6fb8fda13741c7060021064b000000000000002068dd7316a1e1364263bd65a0625c9e061befd2f421cac965420061e65f0157cd00,
  0x6aa0c793bfc25e06ad6b6a2726866e0d07ed0b1bee0f5ada0845ad78e9813c00000000000000203db5acf464e663716d89efb4714c287273,
  0x6fb77807f4f78e000000000000002066090ffe5d1cf3926a7ded709f42b240e01f6d28a7e618a9c62bf778cfdf30f2000000000000002046,
  0x3d89e569f9f30a02548ca53e27f72ec2d5e4d8b2b28e7600000000000000201791b3c4793bc683c76d5926d084213c19f7a49e38660315c6,
  0x00000000000020683960a8abda7b769e61ea60bd74e2b5c0a747b4806f0752abb01af84e0ef72600000000000000207231e773bf8cb70bf1,
  0xfc3d31d67f4f5ca175eafa758ece630000000000000020581adf07038b9e5aee0dd3c417e3cc85f3cdcd2b20af6c7ac7c98cee84631f4700,
  0x4eae6c698919dc85bfd33aefb3652ad3f1204d77921e17e598674ec6b3fab4000000000000002038440858eaafedffacb62f2eec69505233,
  0xc5d5b764ce706e000000000000002049d735587edf10280ff031669bf0c90d74b71058226552431b5639f86db3a91300000000000000204f,
  0x6ea597ccea87bf1aceb1e90381f7a790b2a2b72e357c6b0000000000000020726733e534d5a78416a23faa9aeb031cd417050d769f113570,
  0x0000000000002005e36b3a232d3c5bef3a27ee0200674f70514be6751765718bcad6b5af13e00a000000000000002013097069a11ef64cb5,
  0xdc6ca9d842b30aeea5dda8458d229000000000000000206337732ed1fc3e19eda52acbec0adc33bbb1bee8ed4bd4f813d1bcdc17140e8c00,
  0x9489e8b8276d1944e5cc4530517f2e1e33524171bcba6adb69b5a4f6ae84eb00000000000000200a00bba089267fec56a4463b614742dc30,
  0x3f5a34f1c12bda000000000000002036f86baf847afb997c1ef4921b989a44334eb41aebee0c4010b3928f13e53096000000000000002069,
  0x5b20722c6b4c1ac19161b8726adc8cb25551afee2b5be5000000000000002064cd265ff1b6af062f010ceff4dfd5d8b74a75abe2d3a9ebfb,
  0x000000000000203ac0d8198a136ba4fd47ddf639a9c8f4e3caf467b70d8a4d6817c4d9008c29c0000000000000002020c85321b6fabdcc9a,
  0xb44f87abdc1830d3cb241a46ea4de7000000000000002042331fa5b9ac848a0d3cf63cafa5b0952a23733cd5bf85b0ebf625e10bca842600,
  0xc40c8632169f44edef926876fd1cc855f6878bbe33a79cc72d08771c657877000000000000002073e484c13bb1c6ea8e1c10647bec5595f9,
  0x3e4750cc6e0014000000000000002048316a87d93ee25f457ef95e94a1deda41123012018abab4a454fa12a5c33fc400000000000000206c,
  0x25ab34ad1276e11124a06c9d1cc53c0977855933e3e29600000000000000202d78f69aa9acff924862df18bbc5cfab12e21e060f878cc334,
  0x0000000000002048d91e5df2acf81674c421ed615ac61147962ee5e74a38b3dcfe84772ee8b92e000000000000002067384b61387bbd8290,
  0xd2454c0c957f2b42a11325bf09c2ab000000000000002025f1ac243d718b57da588cf9a5987a56064a2259e84481d72f1879708c1582c300,
  0x232410e837184aaadb4c9cae31d9017378]

/-- the 5617 bytes -/
def xfrFile15 : Bytes := (xfrFile15Words.flatMap (leBytes 56)).take 5617

set_option maxRecDepth 100000 in
theorem xfrFile15_check : checkTransfer xfrFile15 (Spec.transferVars 20 1 5) 16384 (Spec.transferPublic 20 1 5) = true := by
  decide +kernel

theorem xfrFile15_size : Spec.IsSize (Spec.transferGates 20 1 5) 16384 := isSize_of (k := 13) (by decide) (by decide)

theorem xfrFile15_len : xfrFile15.length < 2 ^ 64 := lt_of_le_of_lt (List.length_take_le _ _) (by norm_num)

/-- the entry for 1 input and 6 outputs: words of 56 bytes, little-endian, the last one shorter -/
def xfrFile16Words : List Nat := [
  0x0000000000000020000000000000000000000000000000000000000000000000000000000000000000000000000000000000000000000000,
  0x0000000000000000000000000000000000000000000000200000000000000000000000000000000000000000000000000000000000000000,
  0x0000000000000000000000000000000000000000000000000000000000000000000000000000002000000000000000000000000000000000,
  0x0000000000000000000000000000002000000000000000000000000000000000000000000000000000000000000000000000000000000020,
  0x0000000000000000000000000000000000000000000000000000000000000020000000000000000000000000000000000000000000000000,
  0x0000000000000020000000000000000000000000000000000000000000000000000000000000000000000000000000200000000000000000,
  0x0000000000000000000000000000000000000000000000200000000000000000000000000000000000000000000000000000000000000000,
  0x0000000000000000000000000000000000000000000000000000000000000000000000000000002000000000000000000000000000000000,
  0x0000000000000000000000000000002000000000000000000000000000000000000000000000000000000000000000000000000000000020,
  0x0000000000000000000000000000000000000000000000000000000000000020000000000000000000000000000000000000000000000000,
  0x0000000000000020000000000000000000000000000000000000000000000000000000000000000000000000000000200000000000000000,
  0x0000000000000000000000000000000000000000000000200000000000000000000000000000000000000000000000000000000000000000,
  0x0000000000000000000000000000000000000000000000000000000000000000000000000000002000000000000000000000000000000000,
  0x0000000000000000000000000000002000000000000000000000000000000000000000000000000000000000000000000000000000000020,
  0x0000000000000000000000000000000000000000000000000000000000000020000000000000000000000000000000000000000000000000,
  0x0000000000000020000000000000000000000000000000000000000000000000000000000000000000000000000000200000000000000000,
  0x0000000000000000000000000000000000000000000000200000000000000000000000000000000000000000000000000000000000000000,
  0x0000000000000000000000000000000000000000000000000000000000000000000000000000002000000000000000000000000000000000,
  0x0000000000000000000000000000002000000000000000000000000000000000000000000000000000000000000000000000000000000020,
  0x0000000000000000000000000000000000000000000000000000000000000020000000000000000000000000000000000000000000000000,
  0x0000000000000020000000000000000000000000000000000000000000000000000000000000000000000000000000200000000000000000,
  0x0000000000000000000000000000000000000000000000200000000000000000000000000000000000000000000000000000000000000000,
  0x0000000000000000000000000000000000000000000000000000000000000000000000000000002000000000000000000000000000000000,
  0x0000000000000000000000000000002000000000000000000000000000000000000000000000000000000000000000000000000000000020,
  0x0000000000000000000000000000000000000000000000000000000000000020000000000000000000000000000000000000000000000000,
  0x0000000000000020000000000000000000000000000000000000000000000000000000000000000000000000000000200000000000000000,
  0x0000000000000000000000000000000000000000000000200000000000000000000000000000000000000000000000000000000000000000,
  0x0000000000000000000000000000000000000000000000000000000000000000000000000000002000000000000000000000000000000000,
  0x0000000000000000000000000000002000000000000000000000000000000000000000000000000000000000000000000000000000000020,
  0x0000000000000000000000000000000000000000000000000000000000000020000000000000000000000000000000000000000000000000,
  0x0000000000000020000000000000000000000000000000000000000000000000000000000000000000000000000000200000000000000000,
  0x0000000000000000000000000000000000000000000000200000000000000000000000000000000000000000000000000000000000000000,
  0x0000000000000000000000000000000000000000000000000000000000000000000000000000002000000000000000000000000000000000,
  0x0000000000000000000000000000002000000000000000000000000000000000000000000000000000000000000000000000000000000020,
  0x0000000000000000000000000000000000000000000000000000000000000020000000000000000000000000000000000000000000000000,
  0x0000000000000020000000000000000000000000000000000000000000000000000000000000000000000000000000200000000000000000,
  0x00000000000040000000000000002e4500000000000000000000000000000000000000000000000000000000000000000000000000000000,
  0x7e732b630eaff80000000000000030000000000000000d000000000000000001000000000000000000000000000000000000000000000000,
  0xe46dafda8f817c00000000000000300243d85b1de8cfc2cb573597d8386bb49b713a4579b047eb3335a61673751dc3de32396a17f2525038,
  0xf90c4c9c23681700000000000000300af547543700bf66dff826f9e7f2b51414aafb9defac18d48e214db8dc2782e32f1f96f0bca7548362,
  0x03028b40d9e1b800000000000000309505c6fabae87944aeaf6bb1f57d8375220e398b66fa8888e6a53c1870af2d4d90b795c5d3ca43030b,
  0x0da322a307f49b000000000000003094f3bb15d5780ffbbd6d5281c5d70bf7f73b5a0a67ed8f182028167dfce19ac905e3abd3950de149c1,
  0xda6ca8e94be250000000000000003089586920c30639a18e1a30a3b1b1a52398590d08fd4999ee3cb0c4c241f8448ecfa5dd854711ba5e83,
  0x91e13c6f383fd500000000000000300a4b0f22e7fe7f69550a05c3bfb35bef6f7a9bcb0d1e29ac3edce0043a8ce7a953516a5df14a8c19dc,
  0x00000000000000000000000000003002258f65a9d40056869aecc5c52202fc6b7360168dbc1f8e445b7f1eef5af8b337b6be0f8adfd702e6,
  0x657b858e9312b200000000000000304000000000000000000000000000000000000000000000000000000000000000000000000000000000,
  0xb118e3631726e20000000000000030170e1ab912b8f25c74a3f0011a73949afed6062d6b19f19d6d2071a065d4e11a0c056504987bec63b4,
  0x832504445ff3a70000000000000030920b6fd976a98bddb1d6c7fe51f2926f5fbeb32bb892ee330fdc97dc1423cc7bb8a16cdce383fff67f,
  0x03e81ab26eb5ab00000000000000300946760a6502061329c0f80db6d708a6c7a258bae206c1872daa95bae9b2047021f7fd458d26d3d268,
  0x33ff6ea328b06e000000000000003094f8ac432461de9901b378ee0063a6d9b00f947137ef0553d8366c432b1a1d28bdb6ad5c2fdf0d457b,
  0x00000000000030000000000000000585cec792d5958d52eacd3d780e091ff952d9df8fefe259685f168cb401985b7bd0e80214df9659ee3f,
  0x0000000000003009e5429f1f564d1e04d9cf58291ded91fbfc7e26b597c6eaab1e7163b863c791cfa3b4d8200a111658305d22b3aadc5c00,
  0x000000000000308cd90989d194373c1b5fc9d51fb1bb27666f66388dfeaa34be0284e007b58f8f37222318035aca9ef95c499a3fe5e3b200,
  0x00000000000030015d810bb836cff77ba9f368a446365f4fffa35777650da017d82cc0e07b3e96eaaeb1017272641d16e0bb077df3855400,
  0x00000000000030042e3279f18122982638829aee3ae1fc6298b39b07941152dbb64a9410f7befe42469cefd9bc7c14dbe7c20055e0989c00,
  0x00000000000030892925c7c42e2cccae95db5c9b0ac3228283ca15a2b3ac317834473b1315f14331572a4333325970eddb8addabc5bf6800,
  0x0000000000000505f122fea9deb695ed79dd42f5ea39084754b79c71e441a13f019d8a1fda2a8a87dfc6591e23b952ea08613b729c487200,
  0xe09db580600dd900000000000000200000000000000000000000000000000000000000000000000000000000000001000000000000002000,
  0x4ac3e799f2e8ecb47001f57845bbbfd7c0070a381d364d00000000000000206141e529fcdc704e26ef0699ca82c49012c588ada0e784368b,
  0x000000000000202664991206cc6e6a144513f4c899a417ee516fa456ee3f9ec51c159ddca97c33000000000000002022a342a0964a25e0e9,
  0x4622f6a9152435034d2ff22a5ad9e1000000000000002041feb67496b6e8973bb1afa6ef9bb1c0ce7b067b089b046d2903ccdd332888e600,
  0x0000000000106b0000000000000f2c0000000000000f2b000000000000002e000000000000400056624634b500a166dc86b01c0d477fa6ae,
  0x0000000000227500000000000016a700000000000016a60000000000001567000000000000142800000000000012e900000000000011aa00,
  0x0000000000227c000000000000227b000000000000227a000000000000227900000000000022780000000000002277000000000000227600,
  0x00000000002283000000000000228200000000000022810000000000002280000000000000227f000000000000227e000000000000227d00,
  0x0000000000228a00000000000022890000000000002288000000000000228700000000000022860000000000002285000000000000228400,
  0x000000000022910000000000002290000000000000228f000000000000228e000000000000228d000000000000228c000000000000228b00,
  0x0000000000229800000000000022970000000000002296000000000000229500000000000022940000000000002293000000000000229200,
  0xd2447ca45b440b143be21cc1f52060da49b7d9b4b87da926e18920b5fd60970000000000000020000000000000002e000000000000229900,
  0x655f6ffa945dd3000000000000002005bef1c14b38168184b63c5b5f4e7ee41e19e1fe30a27b503476d918c9d7f28e000000000000002052,
  0x2034b88466d204e7ea047513adebfcc196a767718c1c0100000000000000205082fc62393eb04ff7fbdcf523adf17e88c878057b9c2235b0,
  0x0000000000002022c5cea566b79c040f1756e647cdeba0c8ddb3f63e4cbc97a6c23349c5053097000000000000002023bb75146d889293d2,
  0xcbfd7ad14c345e9ecad186bfe01a4d000000000000002070bd3ec79efdcba84522e85c77c580ea3a1364af859002e196b034acbd91eaaf00,
  0x14ac1c176ed13d8d553b4701da069d4f6753a99956dd38517f8c2183a97a2700000000000000202acf42365b8db133a4dfe09854a4611ccd,
  0xca788a7c040e2b00000000000000206c254fd5b35748db64006490e892976d433a82ccb41d690213eb04e701ec3a90000000000000002008,
  0xe237730c388a4f8a559e22154ac7e246a1f9f20d4771d70000000000000020019819d793c3b30109a502d93f0d7efd9ad96eaa314e2c14c7,
  0x000000000000200b2002065d075db9c8239f084bd8321949b98a424fc740eb46eed933b951988c00000000000000203a5e7b0202e7efec15,
  0x0fc7221dc39241066a062988054e6600000000000000200c5c5ba4b8dc99b2f5224fabe51372f2953264739fc06893f54511ccd168490b00,
  0x9c8b0558630710d833fac70ff0e31bc695892d8cbd769174551b410dc3c435000000000000002008892fc35b9a7a21775754b382b4479638,
  0x69b0599868e1030000000000000020566e80fc1a6e7fbe9b1d3ebf1cb607989cb33a85db27c41af9b313aea55c175300000000000000201f,
  0x2c7801b492cd9841829db9afb66e0fc22af1249344d471000000000000002038650e82a9aa71b86d18ded2339e756ba7d979563a37b3cbb5,
  0x0000000000002051ec7b2ba5ee66e7023a56550f3547c356fb4e1503c5247b3ec506f11074a55400000000000000202ba71c82d0b8eb12fd,
  0x21735faa4df3bc7a7049814073345000000000000000204a0b2e2caed063ff006410dcba4db66243e3cac4eaaac154e9821f12b4ff3e0e00,
  0x93623ac122378fa1ce44241660285eb50fba09318aa3fcb2a4986c7c5c4c970000000000000020125b0b5de342416625e27c1eae34e21aeb,
  0xe3b7fc3017a259000000000000002044ec7c8eb7caaffa77b7eb2f6229fd6c0ec3b2579a8f00e4ff48cb111149acdc000000000000002049,
  0x83ce494866bbf3c7396f81aa5e2d9f84cb0aebd0ae56a7000000000000002056afdedd547472852a931b8fcd3b309ecb4690402a69c8b3bd,
  0x000000000000205164a4d644a4e0fe47562bfa121d5685a290ca8d1ab6d8b88d5fc07bacfbee2a000000000000002031f881aae3aee2bf0f,
  0xf720094415f55ac9c43fa6394670a400000000000000200513f263c6d8ccbca9f113802b8124dfa9b6f2366f009e0c80571ace7609c1d100,
  0x3c711158bec87f7584f4f20f9a83e1de259e680842aaee7e0d208af8d476d7000000000000002031515cadf03f0e1415afe684674ebe3762,
  0x224a3687bddd3c00000000000000205fa304331f9fe1aee81bb82d8be19b5ccf313d746d676dcb0053528ec82c8c30000000000000002014,
  0xababac7339d81b59cf7c5f7465cf59724cc1cef1a75782000000000000002047cb625d51119ca10d7bc9e3af795217f21afda3b69f586d0c,
  0x0000000000002069ae0a639b0c7a57fc139379066b12bae5be124921e9754bad02a7c7db4c08b900000000000000200f206d83707294c2cc,
  0xf63aa620f64a6eefec8deabf0316be0000000000000020002eee9741b04797ebe0d84c8e28e4c6a63c4d2c2477dc46cf45b79cd2df636200,
  0x3882f4f20774d2aac89b8be1dfb4a268afc4b95aa927f3675294c7be32dabf00000000000000206f4c273c89ce2b778b2e2249299ffa2190,
  0x8d6e541b330202000000000000002057c2fcbf1de2292fafa3a2dfa16b810776b93a605fbef22bda059cbe3d871a0c000000000000002026,
  0x8da7fc4003c8e4e43b810d2ae1d24cff5ae2e6fa6f067f0000000000000020458c4d38323bd26ad32c3dd8432351c5cff28031a4c8d0b0df,
  0x0000000000002019029dc06debc3584635626194b6f9a8b9d9d63d1e5d31879875e8ca38fd4087000000000000002060577ce529ef3d03bf,
  0x9d2843bd09261b3fd1086558ed43bb00000000000000202084436f81e4ffac02abe52e98912ab0a44613861a76a92fbcbc6d5ab8f893b800,
  0x6627d65c9b78d4edfd453b527ec295c98cffaee599cb32dcbaf17567b36d2700000000000000204b0dc2f5e83de2971f521f252df97816fe,
  0x01b957c5c2a78a000000000000002036e1fb684ad75e2667584aff04878cbe86c5b2deb7d51caadd29683e3334a242000000000000002061,
  0xd10f2e7923a0d113e473264fb9ef90a521f468145eb9d500000000000000205fe8bcc169ac935fb79e30947a0eb63f834c8c5cbb641261c3,
  0x2d6c2b500e74a6feb0]

/-- the 5665 bytes -/
def xfrFile16 : Bytes := (xfrFile16Words.flatMap (leBytes 56)).take 5665

set_option maxRecDepth 100000 in
theorem xfrFile16_check : checkTransfer xfrFile16 (Spec.transferVars 20 1 6) 16384 (Spec.transferPublic 20 1 6) = true := by
  decide +kernel

theorem xfrFile16_size : Spec.IsSize (Spec.transferGates 20 1 6) 16384 := isSize_of (k := 13) (by decide) (by decide)

theorem xfrFile16_len : xfrFile16.length < 2 ^ 64 := lt_of_le_of_lt (List.length_take_le _ _) (by norm_num)

end Verif.Setup
