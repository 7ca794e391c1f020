import Verif.Conform.Aead
/-
The test vectors of src/crypto/aes_gcm_crypter_test.cc, lines 354-3963, those the test does not skip.  [generated from that file]
-/
namespace S2A.Conform

example : [⟨1, hx 16 0x001d0c231287c1182784554ca3a21908, [], hx 16 0x5b9604fe14eadba931b0ccf34843dab9, hx 12 0x028318abc1824029138141a2, hx 32 0x26073cc1d851beff176384dc9896d5ff0a3ea7a5487cb5f7d70fb6c58d038554, false, false⟩,
    ⟨2, hx 16 0x001d0c231287c1182784554ca3a21908, hx 16 0x00112233445566778899aabbccddeeff, hx 16 0x5b9604fe14eadba931b0ccf34843dab9, hx 12 0x921d2507fa8007b7bd067d34, hx 32 0x49d8b9783e911913d87094d1f63cc7651e348ba07cca2cf04c618cb4d43a5b92, false, false⟩,
    ⟨3, hx 16 0x2035af313d1346ab00154fea78322105, hx 8 0xaac39231129872a2, hx 16 0xaa023d0478dcb2b2312498293d9a9129, hx 12 0x0432bc49ac34412081288127, hx 32 0xeea945f3d0f98cc0fbab472a0cf24e874bb9b4812519dadf9e1232016d068133, false, false⟩,
    ⟨4, [], [], hx 16 0xbedcfb5a011ebc84600fcb296c15af0d, hx 12 0x438a547a94ea88dce46c6c85, hx 16 0x960247ba5cde02e41a313c4c0136edc3, false, false⟩,
    ⟨5, hx 1 0x35, [], hx 16 0x384ea416ac3c2f51a76e7d8226346d4e, hx 12 0xb30c084727ad1c592ac21d12, hx 17 0x547c1e4ae88bb27e5638343cb9fd3f6337, false, false⟩,
    ⟨6, hx 8 0xd10989f2c52e94ad, [], hx 16 0xcae31cd9f55526eb038241fc44cac1e5, hx 12 0xb5e006ded553110e6dc56529, hx 24 0xa036ead03193903f3b626940e0e9f0cbea8e18c437fd6011, false, false⟩,
    ⟨7, hx 15 0x4dcc1485365866e25ac3f2ca6aba97, [], hx 16 0xdd6197cd63c963919cf0c273ef6b28bf, hx 12 0xecb0c42f7000ef0e6f95f24d, hx 31 0x8a9992388e735f80ee18f4a63c10ad1486a91cccf92c9a5b00f7b0e034891c, false, false⟩,
    ⟨8, hx 16 0x25b12e28ac0ef6ead0226a3b2288c800, [], hx 16 0xffdf4228361ea1f8165852136b3480f7, hx 12 0x0e1666f2dc652f7708fb8f0d, hx 32 0xf7bd379d130477176b8bb3cb23dbbbaa1ee6513ce30c7873f59dd4350a588f42, false, false⟩].all (passes (Aead.createAesGcm false) (Lib.std)) = true := by
  decide +kernel

example : [⟨9, hx 17 0xfee62fde973fe025ad6b322dcdf3c63fc7, [], hx 16 0xc15ed227dd2e237ecd087eaaaad19ea4, hx 12 0x965ff6643116ac1443a2dec7, hx 33 0x0de51fe4f7f2d1f0f917569f5c6d1b009c6cd8521422c0177e83ef1b7a845d97db, false, false⟩,
    ⟨10, hx 24 0xc08f085e6a9e0ef3636280c11ecfadf0c1e72919ffc17eaf, [], hx 16 0xa8ee11b26d7ceb7f17eaa1e4b83a2cf6, hx 12 0xfbbc04fd6e025b7193eb57f6, hx 40 0x7cd9f4e4f365704fff3b9900aa93ba54b672bac554275650f4eb193241226db017b32ec38ca47217, false, false⟩,
    ⟨11, hx 20 0xdfc61a20df8505b53e3cd59f25770d5018add3d6, hx 1 0xc3, hx 16 0x28ff3def08179311e2734c6d1c4e2871, hx 12 0x32bcb9b569e3b852d37c766a, hx 36 0xf58d453212c2c8a436e9283672f579f1191229785901131d0760c8715901d881fdfd3bc0, false, false⟩,
    ⟨12, hx 20 0xb14da56b0462dc05b871fc815273ff4810f92f4b, hx 8 0x834afdc5c737186b, hx 16 0xe63a43216c08867210e248859eb5e99c, hx 12 0x9c3a4263d983456658aad4b1, hx 36 0xbf864616c2347509ca9b10446379b9bdbb3b8f64a97d25b490390b53c5db91f6ee2a15b8, false, false⟩,
    ⟨13, hx 20 0xf762776bf83163b323ca63a6b3adeac1e1357262, hx 16 0x4020855c66ac4595058395f367201c4c, hx 16 0x38449890234eb8afab0bbf82e2385454, hx 12 0x33e90658416e7c1a7c005f11, hx 36 0xa6f2ef3c7ef74a126dd2d5f6673964e27d5b34b6b8bbdc4f5014bc752c8b4e9b87f650a3, false, false⟩,
    ⟨14, hx 20 0x0fc67899c3f1bbe196d90f1eca3797389230aa37, hx 24 0x76eb5f147250fa3c12bff0a6e3934a0b16860cf11646773b, hx 16 0x6a68671dfe323d419894381f85eb63fd, hx 12 0x9f0d85b605711f34cd2a35ba, hx 36 0xbd64802cfebaeb487d3a8f76ce943a37b3472dd5fce9a5b530c7d7af718be1ec0ae9ed4d, false, false⟩,
    ⟨15, hx 64 0xd902deeab175c008329a33bfaccd5c0eb3a6a152a1510e7db04fa0aff7ce4288530db6a80fa7fea582aa7d46d7d56e708d2bb0c5edd3d26648d336c3620ea55e, [], hx 16 0xe12260fcd355a51a0d01bb1f6fa538c2, hx 12 0x5dfc37366f5688275147d3f9, hx 80 0xd33bf6722fc29384fad75f990248b9528e0959aa67ec66869dc3996c67a2d559e7d77ce5955f8cad2a4df5fdc3acccafa7bc0def53d848111256903e5add04208bc833de510863b4b432c3cbf45aa7cc, false, false⟩,
    ⟨16, hx 128 0x5d6add48e7a5704e54f9c2829a9b4283dce0d3a65b133eba3793c4fbfa1d8e3a2539d0d4f3de381598ce5b2360173fbd149476c31692c5d6e872fce40219378949c2e70b5f1b9f0a1d5f38352ad814b2a035bb3f3f26425d831a2f7a5e65c5dfcd91a315c2b24f53a662605ea40857dd980e9be5cdad000c569f2d204d4bd3b0, [], hx 16 0x3c55f88e9faa0d68ab50d02b47161276, hx 12 0xd767c48d2037b4bd2c231bbd, hx 144 0x17d72d90bd23e076d8364a87ecb9ac58acc5de4629bfd590409b8bf1fcd3a2f602731b4614cec15e773ea65a65e7210994256bf5450a25acb527269c065f2e2f2279d1fe8b3eda98dcf87b348f1528377bbdd258355d46e035330483d8097e80c7de9bbb606ddf723f2909217ffdd18e8bdbd7b08062f1dcba960e5c0d290f5f090b8c2ec98e4116186d0e5fbefeb9c2, false, false⟩].all (passes (Aead.createAesGcm false) (Lib.std)) = true := by
  decide +kernel

example : [⟨17, hx 257 0x6ed1d7d618d158741f52078006f28494ba72a2454f27160ae8722793fcebc538ebc2f67c3ace3e0fe7c47b9e74e081182b47c930144e3fc80d0ad50611c3afcfe2dbc5279edbbba087c0e390355f3daffcd25ad4dea007c284ad92e7fcbecb438fb60623ff89a599dca2aac141b26651386ca55b739b94901ef6db609c344d8acf4544568e31bb09361112754b1c0c6a3c875bd9453b0ee0081412151398a294ecad75add521611db5288b60ac3c0128f6e94366b69e659e6aa66f058a3a3571064edbb0f05c11e5dde938fb46c3935dd5193a4e5664688f0ae67c29b7cc49a7963140f82e311a20c98cd34fbcab7b4b515ae86557e62099e3fc37b9595c85a75c, [], hx 16 0xa294e70fa2ac10a1fb00c588b888b673, hx 12 0xdfe20d1c4350e6235d987af1, hx 273 0x5bc6dbafc401101c7a08c81d6c2791aa147ce093aad172be18379c747384a54a41a747ba955cade8fdfb8967aa808b43fee3d757cc80f11163b800e5e59df932757f76c40b3d9cba449aaf11e4f80e003b1f384eafa4f76e81b13c09ec1ad88e7650c750d442fe46d225a373e8a1b564b4915a5c6c513cfdfa22d929d5741ca5ebefaedcba636c7c3bbef18863fdc126b4b451611049c35d814fc2eb7e4b8f1a8995ecb4a3c86652a068c0b2a3e1c5941d59c210b458d5d5d3b06420ec2053465ccceca7c20f67404985460379e2ee806a46e8409dfab2e0dd67ea3cf46d5ad4eb78756827358c3ef1fdbd07c33834f3d9eca3ff13b744a01059a6c17a315a8fd4c7587e7da41bed682c37377ea4324029, false, false⟩,
    ⟨18, hx 20 0x8e887b224e8b89c82e9a641cf579e6879e1111c7, hx 64 0x75fc9078b488e9503dcb568c882c9eec24d80b04f0958c82aac8484f025c90434148db8e9bfe29c7e071b797457cb1695a5e5a6317b83690ba0538fb11e325ca, hx 16 0xc4b03435b91fc52e09eff27e4dc3fb42, hx 12 0x5046e7e08f0747e1efccb09e, hx 36 0xb6786812574a254eb43b1cb1d1753564c6b520e9ad8c09610d508f3d0f03cc523c0d5fcc, false, false⟩,
    ⟨19, hx 20 0x6a7dea03c1bba70be8c73da47d5ee06d72a27430, hx 128 0x8ed8a9be4c3d32a5098434ee5c0c4fc20f78ef5e25ed8b72a840a463e36b67b881e048b5e49f515b2541ad5ce4ebb3a917c16bcdc0dc3cb52bb4ed5a1dffcf1e1866544e8db103b2ad99c6fa6e7de1d8b45bff57ec872f1cfc78b0e4870f6f200ff1291cae033defc3327ba82792ba438e35c4bfbb684fec5ce5e3ae167d01d7, hx 16 0x7e37d56e6b1d0172d40d64d6111dd424, hx 12 0x517c55c2ec9bfea90addc2bd, hx 36 0xcfb631790767d0645d8ec6f23bf7fa8b19ce79eec5767ddaa747158446231766bd20490c, false, false⟩,
    ⟨20, hx 20 0x414ec6b149e54735302dada888b98b7fdb4c127c, hx 257 0x18526e4efd995a0bf6405d9f906725c290278958d49554974d8fe025e7860daa225c1285b0573916a4b6741f7cc2e29ce4e525e12f436cb7ce0ad47df3d0f5bd80fb27e47635a4985fdaedf0e821f1c8959985cac49c97a4a02438d92b4afd4c855dcc7ef41ecfc36866334fcc05b2bb93ef13f00c5ea9b921e8a519d77f648e0efe9b5a62305a2ecf7d4999663a6ddfca517f1f36f0899b0bdef9f433c4bb2663c0cc1bb616e7d1949e522bec85485d371d1134c90eede75e865dc7be405b54c33f0acbace6cf780c78035b8035b6ea3f562a8d30a156c199fdafd25be06ee895581195ef125cb4e629e4f18e0bee979d31513896db8466e448e6b4600a316757, hx 16 0x3076741408f734ce25d48f982e8b844b, hx 12 0xa2712eac5e06d3cc2864aa8b, hx 36 0xe4d3f4898cb3d9732641d1f8d9d889b2c98af93076d4fbb69d529b64175b328be00b1068, false, false⟩,
    ⟨21, hx 16 0xebd4a3e10cf6d41c50aeae007563b072, [], hx 16 0x00112233445566778899aabbccddeeff, hx 12 0x000000000000000000000000, hx 32 0xf62d84d649e56bc8cfedc5d74a51e2f7ffffffffffffffffffffffffffffffff, false, false⟩,
    ⟨22, hx 16 0xd593c4d8224f1b100c35e4f6c4006543, [], hx 16 0x00112233445566778899aabbccddeeff, hx 12 0xffffffffffffffffffffffff, hx 32 0x431f31e6840931fd95f94bf88296ff6900000000000000000000000000000000, false, false⟩,
    ⟨73, hx 10 0x00010203040506070809, hx 8 0x00000000ffffffff, hx 32 0x92ace3e348cd821092cd921aa3546374299ab46209691bc28b8752d17f123c20, hx 12 0x00112233445566778899aabb, hx 26 0xe27abdd2d2a53d2f136b9a4a2579529301bcfb71c78d4060f52c, false, false⟩,
    ⟨74, [], hx 6 0xaabbccddeeff, hx 32 0x29d3a44f8723dc640239100c365423a312934ac80239212ac3df3421a2098123, hx 12 0x00112233445566778899aabb, hx 16 0x2a7d77fa526b8250cb296078926b5020, false, false⟩].all (passes (Aead.createAesGcm false) (Lib.std)) = true := by
  decide +kernel

example : [⟨75, [], [], hx 32 0x80ba3192c803ce965ea371d5ff073cf0f43b6a2ab576b208426e11409c09b9b0, hx 12 0x4da5bf8dfd5852c1ea12379d, hx 16 0x4771a7c404a472966cea8f73c8bfe17a, false, false⟩,
    ⟨76, hx 1 0x2a, [], hx 32 0xcc56b680552eb75008f5484b4cb803fa5063ebd6eab91f6ab6aef4916a766273, hx 12 0x99e23ec48985bccdeeab60f1, hx 17 0x06633c1e9703ef744ffffb40edf9d14355, false, false⟩,
    ⟨77, hx 8 0xbe3308f72a2c6aed, [], hx 32 0x51e4bf2bad92b7aff1a4bc05550ba81df4b96fabf41c12c7b00e60e48db7e152, hx 12 0x4f07afedfdc3b6c2361823d3, hx 24 0xcf332a12fdee800b602e8d7c4799d62c140c9bb834876b09, false, false⟩,
    ⟨78, hx 15 0x51f8c1f731ea14acdb210a6d973e07, [], hx 32 0x67119627bd988eda906219e08c0d0d779a07d208ce8a4fe0709af755eeec6dcb, hx 12 0x68ab7fdbf61901dad461d23c, hx 31 0x43fc101bff4b32bfadd3daf57a590eec04aacb7148a8b8be44cb7eaf4efa69, false, false⟩,
    ⟨79, hx 16 0x549b365af913f3b081131ccb6b825588, [], hx 32 0x59d4eafb4de0cfc7d3db99a8f54b15d7b39f0acc8da69763b019c1699f87674a, hx 12 0x2fcb1b38a99e71b84740ad9b, hx 32 0xf58c16690122d75356907fd96b570fca28752c20153092818faba2a334640d6e, false, false⟩,
    ⟨80, hx 17 0x3ff1514b1c503915918f0c0c31094a6e1f, [], hx 32 0x3b2458d8176e1621c0cc24c0c0e24c1e80d72f7ee9149a4b166176629616d011, hx 12 0x45aaa3e5d16d2d42dc03445d, hx 33 0x73a6b6f45f6ccc5131e07f2caa1f2e2f562d7379ec1db5952d4e95d30c340b1b1d, false, false⟩,
    ⟨81, hx 24 0x10f1ecf9c60584665d9ae5efe279e7f7377eea6916d2b111, [], hx 32 0x0212a8de5007ed87b33f1a7090b6114f9e08cefd9607f2c276bdcfdbc5ce9cd7, hx 12 0xe6b1adf2fd58a8762c65f31b, hx 40 0x0843fff52d934fc7a071ea62c0bd351ce85678cde3ea2c9e7355fde599006715053813ce696237a8, false, false⟩,
    ⟨82, hx 20 0xfcc515b294408c8645c9183e3f4ecee5127846d1, hx 1 0xc0, hx 32 0xb279f57e19c8f53f2f963f5f2519fdb7c1779be2ca2b3ae8e1128b7d6c627fc4, hx 12 0x98bc2c7438d5cd7665d76f6e, hx 36 0xeb5500e3825952866d911253f8de860c00831c81ecb660e1fb0541ec41e8d68a64141b3a, false, false⟩].all (passes (Aead.createAesGcm false) (Lib.std)) = true := by
  decide +kernel

example : [⟨83, hx 20 0xe28e0e9f9d22463ac0e42639b530f42102fded75, hx 8 0x956846a209e087ed, hx 32 0xcdccfe3f46d782ef47df4e72f0c02d9c7f774def970d23486f11a57f54247f17, hx 12 0x376187894605a8d45e30de51, hx 36 0xfeca44952447015b5df1f456df8ca4bb4eee2ce2082e91924deeb77880e1b1c84f9b8d30, false, false⟩,
    ⟨84, hx 20 0x43891bccb522b1e72a6b53cf31c074e9d6c2df8e, hx 16 0xab2ac7c44c60bdf8228c7884adb20184, hx 32 0xf32364b1d339d82e4f132d8f4a0ec1ff7e746517fa07ef1a7f422f4e25a48194, hx 12 0x5a86a50a0e8a179c734b996d, hx 36 0x43dda832e942e286da314daa99bef5071d9d2c78c3922583476ced575404ddb85dd8cd44, false, false⟩,
    ⟨85, hx 20 0x748b28031621d95ee61812b4b4f47d04c6fc2ff3, hx 24 0x972ab4e06390caae8f99dd6e2187be6c7ff2c08a24be16ef, hx 32 0xff0089ee870a4a39f645b0a5da774f7a5911e9696fc9cad646452c2aa8595a12, hx 12 0xbc2a7757d0ce2d8b1f14ccd9, hx 36 0xa929ee7e67c7a2f91bbcec6389a3caf43ab49305ebec6774b955e789591c822dab739e12, false, false⟩,
    ⟨86, hx 64 0xd096803181beef9e008ff85d5ddc38ddacf0f09ee5f7e07f1e4079cb64d0dc8f5e6711cd4921a7887de76e2678fdc67618f1185586bfea9d4c685d50e4bb9a82, [], hx 32 0x5b1d1035c0b17ee0b0444767f80a25b8c1b741f4b50a4d3052226baa1c6fb701, hx 12 0xd61040a313ed492823cc065b, hx 80 0xc7d191b601f86c28b6a1bdef6a57b4f6ee3ae417bc125c381cdf1c4dac184ed1d84f1196206d62cad112b038845720e02c061179a8836f02b93fa7008379a6bff15612f6c40f2e0db6dc76fc4822fcfe, false, false⟩,
    ⟨87, hx 128 0xc877a76bf595560772167c6e3bcc705305db9c6fcbeb90f4fea85116038bc53c3fa5b4b4ea0de5cc534fbe1cf9ae44824c6c2c0a5c885bd8c3cdc906f12675737e434b983e1e231a52a275db5fb1a0cac6a07b3b7dcb19482a5d3b06a9317a54826cea6b36fce452fa9b5475e2aaf25499499d8a8932a19eb987c903bd8502fe, [], hx 32 0xd7addd3889fadf8c893eee14ba2b7ea5bf56b449904869615bd05d5f114cf377, hx 12 0x8a3ad26b28cd13ba6504e260, hx 144 0x53cc8c920a85d1accb88636d08bbe4869bfdd96f437b2ec944512173a9c0fe7a47f8434133989ba77dda561b7e3701b9a83c3ba7660c666ba59fef96598eb621544c63806d509ac47697412f9564eb0a2e1f72f6599f5666af34cffca06573ffb4f47b02f59f21c64363daecb977b4415f19fdda3c9aae5066a57b669ffaa2575e63374b519e6c3608321943d790cf9a, false, false⟩,
    ⟨88, hx 257 0x32c1d09107c599d3cce4e782179c966c6ef963689d45351dbe0f6f881db273e54db76fc48fdc5d30f089da838301a5f924bba3c044e19b3ed5aa6be87118554004ca30e0324337d987839412bf8f8bbdd537205d4b0e2120e965373235d6cbd2fb3776ba0a384ec1d9b7c631a0379ff997c3f974a6f7bbf4fd23016211f5fc10acadb5e400d2ff0fdfd193f5c6fc6d4f7271dfd1349ed80fbedaebb155b9b02fb3074495d55f9a2455f59bf6f113191a029c6b0ba75d97cdc0c84f131836337f29f9d96ca448eec0cc46d1ca8b3735661979d83302fec08fffcf5e58f12b1e7050657b1b97c64a4e07e317f554f8310b6ccb49f36d48c57816d24952aada711d4f, [], hx 32 0x317ba331307f3a3d3d82ee1fdab70f62a155af14daf631307a61b187d413e533, hx 12 0xa6687cf508356b174625deaa, hx 273 0xd7eebc9587aa21136fa38b41cf0e2db03a7ea2ba9eaddf83d33f781093617bf50f49b2bfe2f7173b113912e2e1775f40edfed8b3b0099b9e1c220dd103be6166210b01029feb24ed9e20614eddc3cebe41b0079a9a8c117b596c90288effd3796fbd0c7e8eab00609a64be3ad9597cdbf3a818c260cd938bdf232e4059ae35a2571a838887fc196912179486e046a62227a4caddce38cbbc37587bb9439ec637602b6818c5cbe3c71a7c4143960533dc74174bd315c8db227b69b55bb7fc30ba1d5213a752ec33925043cefbc1a62943ee5f34d5da01799e69094d732aef52f8e036980d0070e22e173c67c4bbcca61cc1eedbd6016516c592144819df13204deebf0540d34b20f761101bc608b02458f2, false, false⟩,
    ⟨89, hx 20 0xf8a27a4baf00dc0555d222f2fa4fb42dc666ea3c, hx 64 0x498d3075b09fed998280583d61bb36b6ce41f130063b80824d1586e143d349b126b16aa10fe57343ed223d6364ee602257fe313a7fc9bf9088f027795b8dc1d3, hx 32 0x2ce6b4c15f85fb2da5cc6c269491eef281980309181249ebf2832bd6d0732d0b, hx 12 0xc064fae9173b173fd6f11f34, hx 36 0xaed58d8a252f740dba4bf6d36773bd5b41234bba01f93d7456aa184ebb49bea472b6d65d, false, false⟩,
    ⟨90, hx 20 0x2e6f40f9d3725836ac0c858177938fd67be19432, hx 128 0x98d1ca1788cbeb300ea5c6b1eec95eb2347177201400913d45225622b6273eec8a74c3f12c8d5248dabee586229786ff192c4df0c79547f7ad6a92d78d9f8952758635783add2a5977d386e0aef76482211d2c3ae98de4baadb3f8b35b510464755dc75ceb2bf25b233317523f399a6c507db214f085fa2818f0d3702b10952b, hx 32 0x44c8d0cdb8f7e736cfd997c872a5d9c5ef30afbe44b6566606b90aa5e3e8b797, hx 12 0x6f39afba021e4c36eb92962e, hx 36 0xb42428f8094ef7e65c9e8c45ef3e95c28ce07d7232b25dfbb896d0f9d79c823bdd8e5d06, false, false⟩].all (passes (Aead.createAesGcm false) (Lib.std)) = true := by
  decide +kernel

example : [⟨91, hx 20 0x38c3f44bc5765de1f3d1c3684cd09cddefaf298d, hx 257 0x422d5efcffe364905984533f0a579d80b18bda7b29e6e46498effba53c350112c0bbb8dc4ce03bb0c69e1d0baa19f0637108aa4a16b09a281f232839d87b6d0e42be1baa7c67f1be970ea169d3960b9fe0a61f11cd2eb7398c19e641feb43f778e257a397063db5b3a6707e9db62387054f9f9d44f143583e63edad45a00251e5173d7505f22a8bce232e56c2c276a58033ae30d5dbf4e35a862e42af573be38c6406d9b4c7acbf275fe36c0ecf2c4642898a30e6146fac992a16405f98312126b7a3722f5dfb7dd4e4911c1426b2e01d04e9be6db3771100f7d7d4282e4ea585f3646241e807ca64f06a7fa9b7003d710b801d66f517d2d5ebd740872deba13d0, hx 32 0xe40003d6e08ab80b4bfc8400ef112945a901ec64a1b6536ca92665090d608bc4, hx 12 0x9f095dafe6f6e0fbafbbe02e, hx 36 0xd4a79f729487935950ec032e690ab8fe25c4158e876d2f334f47968b10c103859d436db8, false, false⟩,
    ⟨92, hx 16 0x561008fa07a68f5c61285cd013464eaf, [], hx 32 0x00112233445566778899aabbccddeeff102132435465768798a9bacbdcedfe0f, hx 12 0x000000000000000000000000, hx 32 0x23293e9b07ca7d1b0cae7cc489a973b3ffffffffffffffffffffffffffffffff, false, false⟩,
    ⟨93, hx 16 0xc6152244cea1978d3e0bc274cf8c0b3b, [], hx 32 0x00112233445566778899aabbccddeeff102132435465768798a9bacbdcedfe0f, hx 12 0xffffffffffffffffffffffff, hx 32 0x7cb6fc7c6abc009efe9551a99f36a42100000000000000000000000000000000, false, false⟩,
    ⟨23, hx 16 0x202122232425262728292a2b2c2d2e2f, [], hx 16 0x000102030405060708090a0b0c0d0e0f, hx 12 0x505152535455565758595a5b, hx 32 0xeb156d081ed6b6b55f4612f021d87b39d9847dbc326a06e988c77ad3863e6083, true, false⟩,
    ⟨24, hx 16 0x202122232425262728292a2b2c2d2e2f, [], hx 16 0x000102030405060708090a0b0c0d0e0f, hx 12 0x505152535455565758595a5b, hx 32 0xeb156d081ed6b6b55f4612f021d87b39da847dbc326a06e988c77ad3863e6083, true, false⟩,
    ⟨25, hx 16 0x202122232425262728292a2b2c2d2e2f, [], hx 16 0x000102030405060708090a0b0c0d0e0f, hx 12 0x505152535455565758595a5b, hx 32 0xeb156d081ed6b6b55f4612f021d87b3958847dbc326a06e988c77ad3863e6083, true, false⟩,
    ⟨26, hx 16 0x202122232425262728292a2b2c2d2e2f, [], hx 16 0x000102030405060708090a0b0c0d0e0f, hx 12 0x505152535455565758595a5b, hx 32 0xeb156d081ed6b6b55f4612f021d87b39d8857dbc326a06e988c77ad3863e6083, true, false⟩,
    ⟨27, hx 16 0x202122232425262728292a2b2c2d2e2f, [], hx 16 0x000102030405060708090a0b0c0d0e0f, hx 12 0x505152535455565758595a5b, hx 32 0xeb156d081ed6b6b55f4612f021d87b39d8847d3c326a06e988c77ad3863e6083, true, false⟩].all (passes (Aead.createAesGcm false) (Lib.std)) = true := by
  decide +kernel

example : [⟨28, hx 16 0x202122232425262728292a2b2c2d2e2f, [], hx 16 0x000102030405060708090a0b0c0d0e0f, hx 12 0x505152535455565758595a5b, hx 32 0xeb156d081ed6b6b55f4612f021d87b39d8847dbc336a06e988c77ad3863e6083, true, false⟩,
    ⟨29, hx 16 0x202122232425262728292a2b2c2d2e2f, [], hx 16 0x000102030405060708090a0b0c0d0e0f, hx 12 0x505152535455565758595a5b, hx 32 0xeb156d081ed6b6b55f4612f021d87b39d8847dbc306a06e988c77ad3863e6083, true, false⟩,
    ⟨30, hx 16 0x202122232425262728292a2b2c2d2e2f, [], hx 16 0x000102030405060708090a0b0c0d0e0f, hx 12 0x505152535455565758595a5b, hx 32 0xeb156d081ed6b6b55f4612f021d87b39d8847dbc326a066988c77ad3863e6083, true, false⟩,
    ⟨31, hx 16 0x202122232425262728292a2b2c2d2e2f, [], hx 16 0x000102030405060708090a0b0c0d0e0f, hx 12 0x505152535455565758595a5b, hx 32 0xeb156d081ed6b6b55f4612f021d87b39d8847dbc326a06e989c77ad3863e6083, true, false⟩,
    ⟨32, hx 16 0x202122232425262728292a2b2c2d2e2f, [], hx 16 0x000102030405060708090a0b0c0d0e0f, hx 12 0x505152535455565758595a5b, hx 32 0xeb156d081ed6b6b55f4612f021d87b39d8847dbc326a06e908c77ad3863e6083, true, false⟩,
    ⟨33, hx 16 0x202122232425262728292a2b2c2d2e2f, [], hx 16 0x000102030405060708090a0b0c0d0e0f, hx 12 0x505152535455565758595a5b, hx 32 0xeb156d081ed6b6b55f4612f021d87b39d8847dbc326a06e988e77ad3863e6083, true, false⟩,
    ⟨34, hx 16 0x202122232425262728292a2b2c2d2e2f, [], hx 16 0x000102030405060708090a0b0c0d0e0f, hx 12 0x505152535455565758595a5b, hx 32 0xeb156d081ed6b6b55f4612f021d87b39d8847dbc326a06e988c77bd3863e6083, true, false⟩,
    ⟨35, hx 16 0x202122232425262728292a2b2c2d2e2f, [], hx 16 0x000102030405060708090a0b0c0d0e0f, hx 12 0x505152535455565758595a5b, hx 32 0xeb156d081ed6b6b55f4612f021d87b39d8847dbc326a06e988c77ad3873e6083, true, false⟩].all (passes (Aead.createAesGcm false) (Lib.std)) = true := by
  decide +kernel

example : [⟨36, hx 16 0x202122232425262728292a2b2c2d2e2f, [], hx 16 0x000102030405060708090a0b0c0d0e0f, hx 12 0x505152535455565758595a5b, hx 32 0xeb156d081ed6b6b55f4612f021d87b39d8847dbc326a06e988c77ad3843e6083, true, false⟩,
    ⟨37, hx 16 0x202122232425262728292a2b2c2d2e2f, [], hx 16 0x000102030405060708090a0b0c0d0e0f, hx 12 0x505152535455565758595a5b, hx 32 0xeb156d081ed6b6b55f4612f021d87b39d8847dbc326a06e988c77ad3063e6083, true, false⟩,
    ⟨38, hx 16 0x202122232425262728292a2b2c2d2e2f, [], hx 16 0x000102030405060708090a0b0c0d0e0f, hx 12 0x505152535455565758595a5b, hx 32 0xeb156d081ed6b6b55f4612f021d87b39d8847dbc326a06e988c77ad3863e6082, true, false⟩,
    ⟨39, hx 16 0x202122232425262728292a2b2c2d2e2f, [], hx 16 0x000102030405060708090a0b0c0d0e0f, hx 12 0x505152535455565758595a5b, hx 32 0xeb156d081ed6b6b55f4612f021d87b39d8847dbc326a06e988c77ad3863e6081, true, false⟩,
    ⟨40, hx 16 0x202122232425262728292a2b2c2d2e2f, [], hx 16 0x000102030405060708090a0b0c0d0e0f, hx 12 0x505152535455565758595a5b, hx 32 0xeb156d081ed6b6b55f4612f021d87b39d8847dbc326a06e988c77ad3863e60c3, true, false⟩,
    ⟨41, hx 16 0x202122232425262728292a2b2c2d2e2f, [], hx 16 0x000102030405060708090a0b0c0d0e0f, hx 12 0x505152535455565758595a5b, hx 32 0xeb156d081ed6b6b55f4612f021d87b39d8847dbc326a06e988c77ad3863e6003, true, false⟩,
    ⟨42, hx 16 0x202122232425262728292a2b2c2d2e2f, [], hx 16 0x000102030405060708090a0b0c0d0e0f, hx 12 0x505152535455565758595a5b, hx 32 0xeb156d081ed6b6b55f4612f021d87b39d9847dbc326a06e989c77ad3863e6083, true, false⟩,
    ⟨43, hx 16 0x202122232425262728292a2b2c2d2e2f, [], hx 16 0x000102030405060708090a0b0c0d0e0f, hx 12 0x505152535455565758595a5b, hx 32 0xeb156d081ed6b6b55f4612f021d87b39d8847d3c326a066988c77ad3863e6083, true, false⟩].all (passes (Aead.createAesGcm false) (Lib.std)) = true := by
  decide +kernel

example : [⟨44, hx 16 0x202122232425262728292a2b2c2d2e2f, [], hx 16 0x000102030405060708090a0b0c0d0e0f, hx 12 0x505152535455565758595a5b, hx 32 0xeb156d081ed6b6b55f4612f021d87b39d8847dbc326a066988c77ad3863e6003, true, false⟩,
    ⟨45, hx 16 0x202122232425262728292a2b2c2d2e2f, [], hx 16 0x000102030405060708090a0b0c0d0e0f, hx 12 0x505152535455565758595a5b, hx 32 0xeb156d081ed6b6b55f4612f021d87b39277b8243cd95f9167738852c79c19f7c, true, false⟩,
    ⟨46, hx 16 0x202122232425262728292a2b2c2d2e2f, [], hx 16 0x000102030405060708090a0b0c0d0e0f, hx 12 0x505152535455565758595a5b, hx 32 0xeb156d081ed6b6b55f4612f021d87b3900000000000000000000000000000000, true, false⟩,
    ⟨47, hx 16 0x202122232425262728292a2b2c2d2e2f, [], hx 16 0x000102030405060708090a0b0c0d0e0f, hx 12 0x505152535455565758595a5b, hx 32 0xeb156d081ed6b6b55f4612f021d87b39ffffffffffffffffffffffffffffffff, true, false⟩,
    ⟨48, hx 16 0x202122232425262728292a2b2c2d2e2f, [], hx 16 0x000102030405060708090a0b0c0d0e0f, hx 12 0x505152535455565758595a5b, hx 32 0xeb156d081ed6b6b55f4612f021d87b395804fd3cb2ea86690847fa5306bee003, true, false⟩,
    ⟨49, hx 16 0x202122232425262728292a2b2c2d2e2f, [], hx 16 0x000102030405060708090a0b0c0d0e0f, hx 12 0x505152535455565758595a5b, hx 32 0xeb156d081ed6b6b55f4612f021d87b39d9857cbd336b07e889c67bd2873f6182, true, false⟩,
    ⟨94, hx 16 0x202122232425262728292a2b2c2d2e2f, [], hx 32 0x000102030405060708090a0b0c0d0e0f101112131415161718191a1b1c1d1e1f, hx 12 0x505152535455565758595a5b, hx 32 0xb2061457c0759fc1749f174ee1ccadfa9de8fef6d8ab1bf1bf887232eab590dd, true, false⟩,
    ⟨95, hx 16 0x202122232425262728292a2b2c2d2e2f, [], hx 32 0x000102030405060708090a0b0c0d0e0f101112131415161718191a1b1c1d1e1f, hx 12 0x505152535455565758595a5b, hx 32 0xb2061457c0759fc1749f174ee1ccadfa9ee8fef6d8ab1bf1bf887232eab590dd, true, false⟩].all (passes (Aead.createAesGcm false) (Lib.std)) = true := by
  decide +kernel

example : [⟨96, hx 16 0x202122232425262728292a2b2c2d2e2f, [], hx 32 0x000102030405060708090a0b0c0d0e0f101112131415161718191a1b1c1d1e1f, hx 12 0x505152535455565758595a5b, hx 32 0xb2061457c0759fc1749f174ee1ccadfa1ce8fef6d8ab1bf1bf887232eab590dd, true, false⟩,
    ⟨97, hx 16 0x202122232425262728292a2b2c2d2e2f, [], hx 32 0x000102030405060708090a0b0c0d0e0f101112131415161718191a1b1c1d1e1f, hx 12 0x505152535455565758595a5b, hx 32 0xb2061457c0759fc1749f174ee1ccadfa9ce9fef6d8ab1bf1bf887232eab590dd, true, false⟩,
    ⟨98, hx 16 0x202122232425262728292a2b2c2d2e2f, [], hx 32 0x000102030405060708090a0b0c0d0e0f101112131415161718191a1b1c1d1e1f, hx 12 0x505152535455565758595a5b, hx 32 0xb2061457c0759fc1749f174ee1ccadfa9ce8fe76d8ab1bf1bf887232eab590dd, true, false⟩,
    ⟨99, hx 16 0x202122232425262728292a2b2c2d2e2f, [], hx 32 0x000102030405060708090a0b0c0d0e0f101112131415161718191a1b1c1d1e1f, hx 12 0x505152535455565758595a5b, hx 32 0xb2061457c0759fc1749f174ee1ccadfa9ce8fef6d9ab1bf1bf887232eab590dd, true, false⟩,
    ⟨100, hx 16 0x202122232425262728292a2b2c2d2e2f, [], hx 32 0x000102030405060708090a0b0c0d0e0f101112131415161718191a1b1c1d1e1f, hx 12 0x505152535455565758595a5b, hx 32 0xb2061457c0759fc1749f174ee1ccadfa9ce8fef6daab1bf1bf887232eab590dd, true, false⟩,
    ⟨101, hx 16 0x202122232425262728292a2b2c2d2e2f, [], hx 32 0x000102030405060708090a0b0c0d0e0f101112131415161718191a1b1c1d1e1f, hx 12 0x505152535455565758595a5b, hx 32 0xb2061457c0759fc1749f174ee1ccadfa9ce8fef6d8ab1b71bf887232eab590dd, true, false⟩,
    ⟨102, hx 16 0x202122232425262728292a2b2c2d2e2f, [], hx 32 0x000102030405060708090a0b0c0d0e0f101112131415161718191a1b1c1d1e1f, hx 12 0x505152535455565758595a5b, hx 32 0xb2061457c0759fc1749f174ee1ccadfa9ce8fef6d8ab1bf1be887232eab590dd, true, false⟩,
    ⟨103, hx 16 0x202122232425262728292a2b2c2d2e2f, [], hx 32 0x000102030405060708090a0b0c0d0e0f101112131415161718191a1b1c1d1e1f, hx 12 0x505152535455565758595a5b, hx 32 0xb2061457c0759fc1749f174ee1ccadfa9ce8fef6d8ab1bf13f887232eab590dd, true, false⟩].all (passes (Aead.createAesGcm false) (Lib.std)) = true := by
  decide +kernel

example : [⟨104, hx 16 0x202122232425262728292a2b2c2d2e2f, [], hx 32 0x000102030405060708090a0b0c0d0e0f101112131415161718191a1b1c1d1e1f, hx 12 0x505152535455565758595a5b, hx 32 0xb2061457c0759fc1749f174ee1ccadfa9ce8fef6d8ab1bf1bfa87232eab590dd, true, false⟩,
    ⟨105, hx 16 0x202122232425262728292a2b2c2d2e2f, [], hx 32 0x000102030405060708090a0b0c0d0e0f101112131415161718191a1b1c1d1e1f, hx 12 0x505152535455565758595a5b, hx 32 0xb2061457c0759fc1749f174ee1ccadfa9ce8fef6d8ab1bf1bf887332eab590dd, true, false⟩,
    ⟨106, hx 16 0x202122232425262728292a2b2c2d2e2f, [], hx 32 0x000102030405060708090a0b0c0d0e0f101112131415161718191a1b1c1d1e1f, hx 12 0x505152535455565758595a5b, hx 32 0xb2061457c0759fc1749f174ee1ccadfa9ce8fef6d8ab1bf1bf887232ebb590dd, true, false⟩,
    ⟨107, hx 16 0x202122232425262728292a2b2c2d2e2f, [], hx 32 0x000102030405060708090a0b0c0d0e0f101112131415161718191a1b1c1d1e1f, hx 12 0x505152535455565758595a5b, hx 32 0xb2061457c0759fc1749f174ee1ccadfa9ce8fef6d8ab1bf1bf887232e8b590dd, true, false⟩,
    ⟨108, hx 16 0x202122232425262728292a2b2c2d2e2f, [], hx 32 0x000102030405060708090a0b0c0d0e0f101112131415161718191a1b1c1d1e1f, hx 12 0x505152535455565758595a5b, hx 32 0xb2061457c0759fc1749f174ee1ccadfa9ce8fef6d8ab1bf1bf8872326ab590dd, true, false⟩,
    ⟨109, hx 16 0x202122232425262728292a2b2c2d2e2f, [], hx 32 0x000102030405060708090a0b0c0d0e0f101112131415161718191a1b1c1d1e1f, hx 12 0x505152535455565758595a5b, hx 32 0xb2061457c0759fc1749f174ee1ccadfa9ce8fef6d8ab1bf1bf887232eab590dc, true, false⟩,
    ⟨110, hx 16 0x202122232425262728292a2b2c2d2e2f, [], hx 32 0x000102030405060708090a0b0c0d0e0f101112131415161718191a1b1c1d1e1f, hx 12 0x505152535455565758595a5b, hx 32 0xb2061457c0759fc1749f174ee1ccadfa9ce8fef6d8ab1bf1bf887232eab590df, true, false⟩,
    ⟨111, hx 16 0x202122232425262728292a2b2c2d2e2f, [], hx 32 0x000102030405060708090a0b0c0d0e0f101112131415161718191a1b1c1d1e1f, hx 12 0x505152535455565758595a5b, hx 32 0xb2061457c0759fc1749f174ee1ccadfa9ce8fef6d8ab1bf1bf887232eab5909d, true, false⟩].all (passes (Aead.createAesGcm false) (Lib.std)) = true := by
  decide +kernel

example : [⟨112, hx 16 0x202122232425262728292a2b2c2d2e2f, [], hx 32 0x000102030405060708090a0b0c0d0e0f101112131415161718191a1b1c1d1e1f, hx 12 0x505152535455565758595a5b, hx 32 0xb2061457c0759fc1749f174ee1ccadfa9ce8fef6d8ab1bf1bf887232eab5905d, true, false⟩,
    ⟨113, hx 16 0x202122232425262728292a2b2c2d2e2f, [], hx 32 0x000102030405060708090a0b0c0d0e0f101112131415161718191a1b1c1d1e1f, hx 12 0x505152535455565758595a5b, hx 32 0xb2061457c0759fc1749f174ee1ccadfa9de8fef6d8ab1bf1be887232eab590dd, true, false⟩,
    ⟨114, hx 16 0x202122232425262728292a2b2c2d2e2f, [], hx 32 0x000102030405060708090a0b0c0d0e0f101112131415161718191a1b1c1d1e1f, hx 12 0x505152535455565758595a5b, hx 32 0xb2061457c0759fc1749f174ee1ccadfa9ce8fe76d8ab1b71bf887232eab590dd, true, false⟩,
    ⟨115, hx 16 0x202122232425262728292a2b2c2d2e2f, [], hx 32 0x000102030405060708090a0b0c0d0e0f101112131415161718191a1b1c1d1e1f, hx 12 0x505152535455565758595a5b, hx 32 0xb2061457c0759fc1749f174ee1ccadfa9ce8fef6d8ab1b71bf887232eab5905d, true, false⟩,
    ⟨116, hx 16 0x202122232425262728292a2b2c2d2e2f, [], hx 32 0x000102030405060708090a0b0c0d0e0f101112131415161718191a1b1c1d1e1f, hx 12 0x505152535455565758595a5b, hx 32 0xb2061457c0759fc1749f174ee1ccadfa631701092754e40e40778dcd154a6f22, true, false⟩,
    ⟨117, hx 16 0x202122232425262728292a2b2c2d2e2f, [], hx 32 0x000102030405060708090a0b0c0d0e0f101112131415161718191a1b1c1d1e1f, hx 12 0x505152535455565758595a5b, hx 32 0xb2061457c0759fc1749f174ee1ccadfa00000000000000000000000000000000, true, false⟩,
    ⟨118, hx 16 0x202122232425262728292a2b2c2d2e2f, [], hx 32 0x000102030405060708090a0b0c0d0e0f101112131415161718191a1b1c1d1e1f, hx 12 0x505152535455565758595a5b, hx 32 0xb2061457c0759fc1749f174ee1ccadfaffffffffffffffffffffffffffffffff, true, false⟩,
    ⟨119, hx 16 0x202122232425262728292a2b2c2d2e2f, [], hx 32 0x000102030405060708090a0b0c0d0e0f101112131415161718191a1b1c1d1e1f, hx 12 0x505152535455565758595a5b, hx 32 0xb2061457c0759fc1749f174ee1ccadfa1c687e76582b9b713f08f2b26a35105d, true, false⟩].all (passes (Aead.createAesGcm false) (Lib.std)) = true := by
  decide +kernel

example : [⟨120, hx 16 0x202122232425262728292a2b2c2d2e2f, [], hx 32 0x000102030405060708090a0b0c0d0e0f101112131415161718191a1b1c1d1e1f, hx 12 0x505152535455565758595a5b, hx 32 0xb2061457c0759fc1749f174ee1ccadfa9de9fff7d9aa1af0be897333ebb491dc, true, false⟩].all (passes (Aead.createAesGcm false) (Lib.std)) = true := by
  decide +kernel

end S2A.Conform
