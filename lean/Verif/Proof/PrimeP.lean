import Verif.Proof.Ecpp
import Verif.Proof.PrimeQ

/-! The base field modulus is prime. Certificate data generated by `tools/gen_ecpp.py`, checked by the kernel. -/

namespace Bls

/-- Inverses used by the chain. -/
def p_prime_ws : List Nat := [
  0x3a0ab1094f9aac23ddb7932e0787dc53fbdac85b6e9df9252a6c2653213975f7c75c41318b68544e88a5cf31e7a629f,
  0xbe4ed29641042c22a0226bb3be261fc68cfe221fcdbf85e153a28a6691500e59b31e12293106dbf9feb00845aea2679,
  0x131567629f9e3a6a3a1da30532ce1931d318e535662edc150dfebe5869e34a0ef1824f7d4693c7e7326461d4bf9ad3af,
  0x19ea699f277458eae2d46ffa171a3696401c495bff49360990cd088dfe4fb2bbe82defc0147a1d0591e976091020a06a,
  0x17c057aa120159ad5f3b98fea7615764e8b730441ae29f517efb1093024f94d8feab563102095067bc55c03750dc938b,
  0x9cd1f7d32288f3abc6e2af303fa6d9ed54a7bca43217a7607f697e87fa472dea00957816c55b51977df0713ba4e9ea6,
  0x165ce6b3598215fe857624d05e031ad4a23529f744d403bd125fb407a53c3d7565b0ee5086f86d8ce442a02fd605873c,
  0x12dd55507bc6ff0b1a010d23ec43df3871705fcb9fecd08c9171da2b565e9c9ee8f699526e6dabf1d8ca32d079ad0d65,
  0x11004f679fca3a3f8afc48477206f077885cb55ecfd30c2ccdc671a9d0f404eef4c05c77b0ed10b0db2bb8132f3a2eb9,
  0x12c53716547921cb3cc63d1fb4f2ec6c793285418d84d5e37d68ea553d4405888d4c153a7ca1a0f00914827bf93b7bc8,
  0x12445e32dfa16ea48edc852e96b7ecd848bcc42f5b9d816ee00a0836d0b2e4310a4fe6cd8743362712ec99c3d7807255,
  0x158467028bc414b0e8e43100ad97cab113e474b1b4932de9da2c3d03fde563a7dd541596d43400ed416cf3333238b5dd,
  0xfa2c64b8a7533c91520790835bb6a17dd0267e2b7640fa17c6f8d195c3b1d2b54384466498d40f08803341a18cd34f5,
  0x1427af92ea25b98e1f966b1d810360153e4153a909e4bea43ceee043b94feca7afea8882eab910f32271b3de8c264f78,
  0x14a0ef5ee5ed8f25b8b03f481521999185c2d8f2ed40152112418f39757be5a5b9df4e328ef305da37e6999193030ee1,
  0x18c6628236819aba2bf0b14ff511b1f5751ce0b09791720a28d911517fa03bd79a15e4618e7654f239164514ecf9b55,
  0x14bedcdd8af7163db888859373e5a29046071136407d33eee3d27e71f3f8d06000254e4d690f45834101d525e088565e,
  0x85d4222934539744bc8db1e0ea65d23f4a862d61f4a72aa2f64b3f4711fd6d8597062449769afda126a4ba9e20d0cd4,
  0xb64c30fe9021a64ad47127a9b9dbe53c1ab8d6d84c46a5c564f6879a87b82adfa348cc5e8879499c28896d2f2ba299b,
  0x4608bc6fac7b4299e1ede38f3f6f9eabbf25167b8f20e280922cafddeafcb07ce0df9a55c585ae2fa4f91d40106151a,
  0x473a4f6de4ed8937bc52e760faa9cfca965216564b6e2cc613371706f5edddb40b9823bbfbfd37bbb9be4b07e0a12ba,
  0xef53fe2368eb481c5a53aaeab2559bf2107d977552c1005a35af22bd2a873bf9dacf1089179bafe138b84bc5b40e4d9,
  0x136a3dbb2fda0abb325647a35e90cf2e694f326b53521b9128b6367c17d722f9307240853b3ea1f429c4f9110733bed,
  0x17fdd6d93b12897b2dedb66c781763c5f835245e3722c887e516ee12fb99faa1b1823eec0d598d68e4ce278f13b5ab30,
  0x5dcf66114bbe531d3684031eaef9722f77bf48f81f86c91e3958d55a1abfc3c5712eb37b68b919f737d8d317ffcdffb,
  0xae8fedfe002f0a1b44d0d2bdf95a3b2391bf61042ff18f4195832e5d9d347fef95e3b73f8aa951e55f72cec70c77e13,
  0x10e97a6d05db9c21a6892b6c11394733602c26ce1dd777039b10f68a0b16ea6dc8698156a4afdc3c2332a31e90b11aca,
  0x1982208187c2dd9dc9088c9bea4ec3410852fda2332d78573d9a24bcaeb216a1d37387bdbacccb1eebe46871ec64a0f9,
  0xf2711e6df525cc8608a576db0b10140e69665b0d97bceb54d83607b35f0e72e408a614607384225e0d967a0458c7f,
  0x77ce88bda16c14b83977bc2aa73f6d9ed5b9a2cef20b3390bb3a628760976ffe7a4d8e790f7bf8ed8b97fd7a3b94abe,
  0x18afd5cba86c3862cf1ee4f5084f37c6929fcfc3c91ecb16b66e561116e0f5163a3f26922f74b3066743009bdd53335b,
  0x99b1164db245746501115d818124c06ea02133923d618604adb28f04c2085560382950c17ac7337e650c77bc7aff707,
  0x17aae21b4b7fd961d63e24f97bc3397b937a3fff7787e0be9be49813785aad9b96b6ea7ec074747f1d669998e853acca,
  0x92acaddbe86e0b8b55b9f60efdd9641b569d9b8cd0d67acfc5f58b75b0831dd51999f7b911077539b95b230db582365,
  0xadb284d65820638bfe92475814d0bb15e1662963f17bf2e74f523daa7ef9b92cdb77356a5d6ebd3f4530b950620136b,
  0x2d1876d5bf43fa04e983725908353ab66aa65733cc142d3f5252d4f4dca95207a5752ea500d4a28d8e583dd84bc7cfe,
  0x3138b6b1980ada8a508b7c7eeb458eb27b6f6d64d189334e82aa3b5d88b2a762adfb0e0dd894a379928e5e88f7a8b6a,
  0xc8dc5221a1c8495aa4baa96fa0ab7d99cc7b15363a47fc61d251c3affdcbc54a7be81b1ca4ec801dd6a96adcd9f34ef,
  0xa7c7d95baa46d1b585facd777df4df6d43d48408e5634f97172075a4d4d2fcfaabc3c45bb25e2dd4e9452aafd40b71c,
  0x15bcad56364becec6f50dbb6677e3a9d00a5aa2c55c9ffaca5186584dc4c02997e8451d481d3e6e458fe45635558fcb8,
  0x61672f175cb75655fba2e47816dcf8b8d52e941e7a9dcf9beecc96fc5a222f45d3c0c271ac7c0a8feff65800c7f1db6,
  0xe01061e0c81b1129b1459b16feca48b08bba6775d92537f6270243ffa9b62e34b4468106ed0af5e514bc39d52b525c,
  0x18636321bc9e28773cecf3da88c99d2a1b93129942ba0db5ab878c375d6c3e450182dd06e0062b455c3228cc793e4f6a,
  0x1726eee25ff16870ff8cbbf84aec223949ce55d4503b750f0b1fcb35101bcc244fd1eb0ed7e9bb665743db770faa084c,
  0x124402773536901c4ee6294de44764e3247f902a1c6acc64ce11d9446471f5415ffef89c74c413a6aeed0fe97fc524ad,
  0xdb8f8149c31964c7a4a08e96c1c3c3a8eeeeb4b48f816c0fda0f4495d8ca3b79a61729d02654a5e3666bca9b6257ebc,
  0x390f808b4899be42f1601aad7ca44ea525fde28cc3975c9d76835eac20084083dc306b16dae3843d32927680c631c12,
  0xde0a710f20bc9b2a41050ba8c1a725da98312317f37905738719401cc0c5a5cf285308cfd0fc7fba2d835645a0bc76,
  0x1116d77e4a199a73bde49ec34d91141ffae1620ae4b8a184d6a46c975d8eb0900f03e11f16eab6104d49a16cade8e95a,
  0x15c2ba8cc96e11c08d3812d9b82656a34ff9c5eb6b33ddb6b10a7049be6aaad5620dc7997211b78ca7a8283655952c0f,
  0x17d9674f322de22ad600963eb8cc96cae9489cfa449b9798565bd4f076a8c504432c15110eee0e741a31e7edf4b8adfc,
  0x326a51972da82392d8b5bcb2c6e2c9c23d4e4a590256f98b5b620fbfd1c4801b5b2f40def130b205ddb3c7ed09d4e8,
  0x14a2bd6cafbd176eb2d6b1a70feb20fb7ba2c510114741c3d58bb4e7805176559d4690987419f8aa3832064988903399,
  0x17c6e454b8078d92ec1efb16a0ea45dc44b6a474c55bf7145666476203b91415e9f7c3e62b6294fe686961814ec5acd8,
  0x1d45fd3164f56adb82e86494c37b2a77967554c6791b980172faa1802de42bf91eb5b59a8a1789b4a583eaf4c9eebe3,
  0x13f63a11b524c97e62bbf5d8249b6909634310604a2fa025760b0a7c52f8d6bf35bdd33a40a05518c323f9ced7cbaa4a,
  0x111aa4c3337e2fcbb61c8c074f5cb32d65931176a2d9cd9fc18625e3da26765aa605e2ba1cad5ff0d94e824899c9ab59,
  0xaf22f3d9c5822ecd2880fec3899e84bed44e7a7198b60f8859482bc00cb3055262fe3ebb1c5a3f8305295d568b997de,
  0x81e9e0eb277559672623baa52b8a6a322374b99c78bc9dd06f440e690e76290fef17fad325df48cb45fd6bdd66870a5,
  0xb4017275901efe85636d89a330cc9838323f42f1b78aca364de12a74540d53736394751d1355dcb237fac337fde60da,
  0x14b4c44b05f478ae7b6faa69349d4b0d3a588017f8c397afb0af4e8f0da79682ba118516c04147099d960f45b9a48e6e,
  0x8c256eb46507d4040101d4764e61fded51c55408f32994d058f5380bea4830940ba771194bc9b8105c90cb02dda8a98,
  0xf0467aa9b95daecffe5577351474335ede7e513eb2480582ed14ef3718d28c63fed05e003b268501addc3eb734e8ada,
  0x23af35d85813b0aa90181b5a9d56e36bdb8f5b04ac125d8df5f809d35807ee95643e5e31e8539489caf03a5e593b5f7,
  0x5ef99fc7b65b7ae843dde61f2ffb2a279db510c43006e741f93393dd4222fa424f4bd8a8846750293f2357d86c78f86,
  0x19778cd7a6b25d963938ee33e7d531438a96779a0b518ec092fc502607157012e24bbeab24a4a2ea02b801afbaf06f83,
  0x13147b78de10e02114fe4b76dd1412e66b74b42c41a58493444662b47f315068c7662bf8d788d795ffabe950aeae6977,
  0x12629bfa2f8d64d85c7109588c8dd5a2ba68703ed6561f8228b93e42c429bde4c0052b178f6ac924677624d5a14e46cb,
  0x1617ef65e4968a600ce38cf91c2ea63b39100f8d34ae52f6e0142237744f85ccd2de0b77ec29cd03c4f3f87bb69c4ed6,
  0x88d9a10375617c80c4f24c821ba13b248d03ac0f776e65e53a7711c5a240746456c2a5ed2dd3b1fa597e082a56c94d1,
  0x3b00377b6699577f84908e1f91e3dc7f0024f591b106e84fa37e0fe97a9f76d1e57c136fb57b0794768f3c5c8ed29b2,
  0x169118bcd6b2c338e66d2a785bcd6d91043152bdc40069fd40e5c13c17db9989901dd349884646c06f1ae76bc5041e91,
  0x16ac53ddded46a10544d461cd076aae5c70519f785e928f54cb478595e51e442d33ddf400631f97b93e0ee5e265fc098,
  0xd248f7021e31410f43073908346b0a5ba79a920ed65e9dbd08c1c08b02168abb1abf249a62777d313824c56a6b338aa,
  0x34a7f792296266a0f8420b176cc871ae02d7529698cc2305db1ee38e22df3d266d1e032534eb9e7d9b43f44c54a5ec1,
  0x958fa3dd4a73f7468a3b5acd1266e3582e6b1c62f205f68b8d0f5e93fde00cc7870c693baa4d561842f27578d25377,
  0xbaf2a917b114e8ccba25be077ca054927daa48b64b09963b22890eb5e5a8ba21259c53432d9795f148bb6e30706666d,
  0x120ed8f01ba84dafbe365f68740b794b9913ffb055e17338cf03e6a5e8801a0d6bf323fdbef9c1f317fff0bbaa86c5a4,
  0x190706e0ccef5e5258aec9da3a7927a51305565ac09c0a998ad885a9545307af4240d1190570ae11ad3e2c3c463738da,
  0x15e4c366fdb6c31e907a8488db0a916bc7bf7340f085386720f0ada2dfe34c284dff442b073494e20f867bf375ad8e93,
  0x18432418c62b145d24123baa81c9d25179dc017d92274faec2b1fd948790d0b610165cd4e3f0e2e4c089c059e59da71a,
  0x7ed5a373aacb8c94637cc5b2d001a1224b4f06b64f6054d098dc5c251b81b0d6e5aa328335db00703b642af4cd4c7cf,
  0x1b0e3090597b42048501d06eea2d9f4316c30e51600bd570fbe48defa237619106238325ce96eb95ff8c11b5fce8313,
  0x45a84717bdcf62acfda22a6d4f1764eb83255983e3f4bd2dae15d70a30064867e6348fe5d97795e41a0dd6cd0403f9c,
  0x12facd78b5959ca9c5eae6aa55da9d131928dc55f75e6afaa6b3b8975b16d145ee00af58700ef5705abde03d42bf6701,
  0x15d215753d341cc120cae8cef5510330ecbf69e9f569390c7843c331e1f59ed3e27be2d1f8bf2a2d058a75d2c2dc6da7,
  0x1626b777203cf8045f4b4444e1884f00fe36164b4eb37b724f121ce2cc7c712fe9acbddc7551d9775daddba26d764a5c,
  0xec7d5c5a5553aa8808c7c2bfce038fab0b289fe5777e4ec61c15dbeeb5f04a36b3aa56d6cc4df13c893792f96ab67d2,
  0x3b1f31cc34d99a63a2d33e525a646f1daa49ed73fe8118a6a7f4564153071d94490429013bf3af84f8e25a805cb3100,
  0x19f36a4a0e5e84ff26cbf3adc97a950039056cd360032ed5aed51c01956c7c80df9340b7657c24b54e7436994bfabc01,
  0xa7e298359adcf2610239b4a1b575fe5fe9075625dcde21cd2312f6190703bf8019b3e9bf1aa8aba5dfa4e777d965132,
  0x11582b659d264d56f878de79d53de5362f45a8e8d98abd5afd0353334fe0861416820fd966cbe880118a3934b4f32779,
  0x145edab4a58c2658a77c64a49da39ec890fc075867457294593347e1480965b9e465dc00620e48f14cfc3f11819db810,
  0x1308241ea2a8698c7277dd2e577069c7b33a35f10d1c7826b57c63f687c470f98bccaab752e2147594162a90da64ff77,
  0xcf360f14dbc77cac1cb6c4ddd6d6f0c7579ca37e02697a98fe7e0bb37760e2bb0e5124fa3ce5091f966cea4f71e85b2,
  0x9c6d23ff303a6cac5b76738fe570b5a85ded9bc53e6bf66918cf07bfaffdf98215848fd60da0f817247fe5661eb4506,
  0xb295a31a70bf3f7f7139a3bb224e7c6b5056cf1d400e70eb3303e07635a3f8ce2ad3bf17d79c575c2a737d827d11e0e,
  0x89973ccbb2e98f2ca5d6a67e47f3f5b3e86d5c615a25a166db10a889ee03a6fd24e6d68b4bc90793c58011609fdc7a5,
  0xa3deacafabe929febf237de6bac2f44286a0acd6faeeeac2eac2962c306f0e5f22c778cb27aeed03e8fe26baa8f3df9,
  0x7bd79791d2204fbce46ff91f277adbfa6debb61ff2effacd90db5bb5791854d38253a7b2237c6ac852adee99729294f,
  0x18ad34c8daad9f670971ddfc2998e3b9913e6d718a91ba98244e3be30a5783633dc82a06e366caffc7a4166678247c08,
  0x12160b069cb46dc27976bd037a8f16d7f45107c85565c27f19c061f8b3cf0eb6afe5cb757f4b39b6b4bd828f21b673a2,
  0xd73949f9ebf208749a516bf8ecf9666e8a7c604d923e93841c2eecd8e38dc7b2aeb5728a9f4ecb3851fa88608e75165,
  0xf67ca5f35c1dd060b96f91e6fe953f1830fc0ed53279e1feafb79a3c8fb8dbcc5aed9365ec5e829759d652dcd76c32d,
  0x1b57758deb33bdcb9e61fadda3bee6e004ad8781b88efe8f0d5dc894bd0ce06c9cdb1a7511c038b64076c2c957d858,
  0x701499cf1540baee4bf5696aa8a01dde777a36ba4a18a7e06de765114cf15bf23340bb56bdd81fffe0a717355fc5c4d,
  0xd64a3c0cc32a23b6d1d193c7ba69d641c097e5345bfb393c99c571f9cf6fc6f292281b7c18c3b786adc1677b9701ee0,
  0x116f96709f0820ce6ab6615a73482fea2fff522955ab9bd5df1cd10bf2ed2227c532ac4572d33737721094809d30322,
  0x12e12c42641e65e63c6045c0a17cfaea5ccf519f8077a88869a72a8940f37616a42549312ed941e80d47431cb157185c,
  0x14f4feb9638330d37996aff96e4eb641e8c04ac07e9df55966b5fbe2d78b5acb007286a38cfc8975913b882a68499a36,
  0x17392f2c0eff2d92a15ee90a4661080adfa7575e10a4959c596c486722b1e1054b58b524114f5a973e5637776fe3d82a,
  0x1692ae8c08a972efb9dfe1c4eee391c8acb367208d7e4be9dd5c0e38a097ffb74d0713ae44681c3e11f51fe8ba6fd6ca,
  0x60f4f29f479592cf5914c830f11c77cfc3ace1e729517d95e53bdf76af3dad6ed09e65aa53ffab70682dad8df1c5eaf,
  0x12e29f6d6bd53cd888ff226a5a7c6605edcd891943ff1a7466be770dcbcddee19bc0987522a477ccc69035de0ec9b271,
  0x176d14833b4f0559771fefa6fdc756b1f8e8fa194a168441338fd9c111865a126aa233c9b90760ffa09b841399fbe22a,
  0x12eac8e892bd0a8c16d8d47a81d6a49b214c075e6352da0903928501d0a9cbcf686e0b7271a12d3a480168347555a844,
  0x10f8e33081caa556d785d89865e22e923df4f47dcea27f326cda4c92d1149575ea92841d5de7ef6123aac616d0e960d4,
  0x10d9e1eff4cbffd230e5af88972edfbcc495ebe9669da1ae6b6880dbf0dbf97ecadf0561eccc133608a057dcc26acab,
  0x19f6be93c7e11492e6fa2c89131517bda238ba407dc92175f4fc26871c0794e3c7a50c630889e1b0d05a43b23c9ca419,
  0x737bd49918a5997c784f7f0949c6e78ca73fb61676a0d158ebd732ba7eab5395c741999f0a8e49a86c9b638ec07912b,
  0xa4e49f450f9fb61997177b41881a9d670073822109412267cbb992e7b6be47727f0edc996bceec9cf62996acac3d728,
  0x4fa9214f74ba96b89f289c3bc896b68b066d7d16264cdd43ea4daaa9e3b556fc272ab51ff310c8878cc60d2e7d8527e,
  0x18d9dcbabfcc5d6990b96785c67f943833f4f220bb5a078f0ff1692862fa211c0eb29a5e88d42b2e099baa58599cf361,
  0xce91606199c898868f49ce227cb014036abcc8a7ce32792bbdc39cc7a99157a2e8113ac0fb653041a0e22619510f5ef,
  0x4d9b3a6c9e733a3c5f1c5ab61e259c8294ac84bf531edc09d52bfa278f103b8b5457942a83b9c88e526efff8a599345,
  0x329ec971756e315b8a8ef8d817464d9685090a95970b74a3dec051e9934fd095d401d75596ae3e444ed60bc4cb77390,
  0x121981934be4cb1f1e7bb18dd8b9e4d9a25324048efc2893c2885c87995f84d12aa657d711b48046c97f163499f16434,
  0xf7f7c122a126804b531318a357c1f0d64e15b60bd5b5a236c6f51b4c734895f97fe07394fbc127e17a29c05b69cf5a,
  0xe9c5db3db7469330dc8a30a144df8e7c9e720ff0dddae6c73734898c0b176f407b7fc8de508318eebf12363265b1c35,
  0x10fac1c6be967afaab8f8d2f1351bd6b0462caf0b68186ce7301b514045e407e34ef5b44b0ec340d2776eb1558970fce,
  0xde5dab4236e02f6c999d1d723b648ba66713cacbef58e4dcbe9f6f3a9658f17a8042642ec7dfd8a73c6d7edcb260c6f,
  0x856ef41bbb716e825ae5bea509722737d07527ec6c7c1e601c795613c6f7d6a27ae659d92f73643c5cf00215587fff8,
  0xd44764845166481b44126abca4a9d93d83b249fcf1234f6954dda5bbd9bece9e2625162b35999f48468766572d2b56f,
  0x73baea502fa03cea42880f545c398ca23389323b25006757daf5a31314081460ae5a2d669dce42ddaa9ca4e710341ca,
  0x9a46fab474853f991d1f14cc7fade33203a14e7b81d859207ce8a392527c2a53921e8d078b22efd5084b063270aaa6e,
  0x3c5e31aaecda7217d343b645e5cf493bce7a8fab9913980c69eabc1706c0f0269b22f7ae5fd2bbf2cae559f1861d205,
  0x9fb384c6b5f0457bcdb9ff973911777302318ca8116e85ae837696d5722a6076d4454f7f2d00a737809a8fc24bad7c8,
  0x1441073b3e023b8bb1e0ad3416cbae031d07b9db1d818204e34cf5e90f9cd8bcb4ca30c6baa2ccf71a5cef37404802a2,
  0x436279331799c0330efbaf25302efcccb9d6934dcd4e58992bd6bae6a1c7d6692b7f6a249beb623dd5cce183af469cc,
  0xc3d24c7e684b6506e59e32db7e390b13a93f1853cc8c29c1949e50955333ced45796c9d170e38b1627d8b91211e06a3,
  0x13667006cbbb75449ad4521621a7d63411e3925a2a0f799153612af184f6ce0a3a015445f07bd8cbf97690543d15f544,
  0x165b1965cd39c062dd27c3e3e034061b017879e9fce3eb005749c1959d0f04f5ec3fdcb233f7f76c8acf3f1bde7747e2,
  0x128955b0d6844cda93fba616317e4cd1700d62ac36aa6b10e723817c2f04f87cd287232c10efceeaf527a4dcce1ce977,
  0x16c3fd4e4da5ed2c75b3afe8f61fe5a8a232d7c7ce52a6572cac67d40de6d09c9ffe2f39a8c986b022f31b1ac0d1d076,
  0x2edff39e3984eb849e34f059c3403bfa648750d6251585a50b33b9137a0fb2f5c04a2ca0a989493be5ce317c63bc789,
  0xdf1ceca3a1a9ee8f37dad33eb21ef41a891cbd92d70de1d92931ccb7a4b22762b089c1c8ac5b238e1d5be923f38a6af,
  0x14b3884570606af771ed3ccd881e8f1f4d8e4f3f6d912237be75c5f7aceb92e5a22df6d885d05cac3acca5c5dc5d9dd3,
  0x81b427447ea4eb6112d471bc38c1cdc1bb65c1eece203c3ad59c12f169061ef1d10a529379de4d45bb5c3ba2d25ca6a,
  0xc8a3958b4c64e1333996736966ee034613c92b6a8a4185d34dac396462ff636e9259745084491b6572bad91758121b6,
  0x83d65b06654428c72f19ea1c5fa8325c6552d4326cc45e97db3207b56436e7bc3a70b033291aaa593e065fd24e901cf,
  0x1125735df25e4eeb1524b62988d4208f76519c63f777a9c28ed5b311a086188b1b1be0dcef7ef204758adce155c7335c,
  0x2e9b34c2b5614aa4c8a03930a93f1d3d90b05a86bb08d8615608f43236301fc3b986e9415acb357ff814fb3587ae099,
  0x144f05aee9778e0d5c637c6c4beb5c3fe367cec93458d6ee600ad68d6bf2736b81a2273b3c4654ddee1beb27301bf8b7,
  0xfad9fa556985be2a1d0cef585104dfdf9eff654d971056cbbbc8d213b784db4f5ad71cdff02f118cc81e4f5f899c1a3,
  0xa500ed9a3dbded5d268849f03f7171d814c32ed43a56ba22e43de39cb1d7371b0ed902309715c996d5527f27d12ed8e,
  0x184b95882f41126a4f275c5a285de15f49023bdf5ff206d6f7d5c07d472a02eb00cf2483a4586326cedef4a812cb5207,
  0x1228d68adeddf4365c0fb941a37621f1bf9fec5090a141675d33f7390c754f6dd98e2a1ac310cc631888783b24aabd1a,
  0x298e1c6d4dafb0ee22786bb4663bc740733bd8f843b103f9fc3dbc58f15220e992d2bd3be7ddd1673ee31e8b1ca95fa,
  0x660c91b20a76aca5246ce50f9d8664405e304a663e356af5f5df9ab0d0919d18299b71c4cb03fda471b03892042e3df,
  0x1258a2880b856f4f1c3ecdbb2a7edbd0cd0933370886c97102dff0971c3ff4b08f2c4e125c4a45a60e2a88266c1c07db,
  0xee37a1d4054c76bc8e5c36471755e65e672ff4fbc64c7f4e64a317689eb0294f2be10cd14e0d0de699c2fff46fc990,
  0x610dd3f4d0ac762837fdb300b0eaa45ca71bb3b560a25289d9851ba85ce4d2c3bb0331709eea8c0e536c4489cd66904,
  0xaad6d54ea2c0482f4220d6dfa7d9b79c767999bdab0284be5c9488ca7bda3affa6ffb89ef2325377da18da7ce9e9134,
  0xecb9b1a64caac1a81b0f9ce4afbabe5385e4c59e45923baa8b85ba3f6924fd7205748518928fce59bdb754afa899f6d,
  0xa918043c2b741d666cf9b233af3cad7040cfe50a296356ba06172ef17151b383c0fb70b25e64ca76fa6931ed4578cd7,
  0x1011bca191ab7ca4370e521a16aef7b6f71c555e99101f0d9539086b900d528c72a386cd4ccac564285b49a580ce60be,
  0x10627687f7c5c3218f2b6dc9084b760b0c0e0a55fa3e309b6bd8cbe4b4de9f97aaf71ec9f816e87f7fb07bc537e104eb,
  0xb5bd379a1c3f1235f5e7cd2f7f4dbecbfdf0478f352693ae2b7affdb55c7ebea3136af83484005a1895b498807b69d8,
  0x16f461cb5380ec5b9ca41f4531efa55e1c99f8d08a066403c4c137de9c4273cad1c04875364ce78aa0d57769c970937c,
  0xab511a2c7671f5b9e5d06af17ed21914c200b525e2247668bdf5a11758b33a9c4b7282b8e1fd90016a64badced0e515,
  0x1631d9001ac5ae97263f9cff315932aff4721f70dfda80e8609c4f34d41bf0563dfa0bb00a10205e31a8cfadd3934e91,
  0xc17f952427772328d6fb32c6b3cb7f30930427e1ee416f9029a00226b2fe86c81e10dc7752730dc9b3901385d6feeaa,
  0x5203fa36934bddb6cf4c95555c5b450100c6732bd04eca2843f486be7ed10da37163829dfec74f70341d9472e449e88,
  0x20b52072005ab956dddc243b6f448ee26927bae93024a98dc9d2f38cac1ec98fa844983c6f514d9c39d7b5669dfa5b7,
  0x29dced9a5c6e4b55f006fd2b301a82f54f37121b612e989a07258a6385ba36273790aef2d64bbf60ef25bbf8be1cbb1,
  0xad372405a4152dc6f26898e13d5ca7f7a5c746e6ab918ba6c3e577ffd99998b3dec2c073ef5c535e21ae528582ddbe4,
  0x146b12cb290378483ff8615dbce807ad2cdb5a235e2d0324ec833ab924eeefb10bc1e3a96d7b21c919956d0be2f4cfc,
  0xfa3b5cb8a72ef1ce2bb59e6c73a306a81e230f537b0e9ab86818f73a2d30c47d94fa4e29860389cf7a5bb4b17beb27e,
  0xb4263457fe4da5040abd08f5aa1dc76d0ada99256db6908cd8dd51543fa78d5038bc13fda84116a50a953dc054a425a,
  0x13423b744ae84af0432350bdaa70f533c4e6159adc726659fac21907e5f79af19be32dfac728148fd3b8e279ac14919f,
  0x1151dcfd7c20ead947bf2f2e5426ef880e3417537d9b6801b48bfd53980b36b10f83aff09e9623c36685b56cfed89904,
  0x134945ce62fc1640f4cec681aefc27d46ef7c1e0e83ffa0e367d734506b5dea9e226f2e61ef5f74399e4f891eff1832d,
  0x1233a2290a0ff85bbbd90c0e9d7f7a0ea64786fc4fedbb8bbfa17a1855c9d427e9d0e115f79bf317249419f4756fea42,
  0x162867dc9c334af826f40e70d26098a0e5a63fb85c0b9cd8664d56fe260f9bf75bd4909d43f9aaf02309c77adf86ed69,
  0x856aa9bb1bd15fed88e8141641353f46ee324175235adbb56eccd263dc10d80a4aafb9674477322d566aa61e02f570b,
  0x4a4e30b2f6d3efec606fc9d778f7b39a35714ec0ccd3b43cfbe3f77dcc914a1678378b9d858f22780b7f7d37290027f,
  0x6d1967ceb57dcc87af81a6a0ea7585cf0f27d019e352fa5f78f6f0d432c92e7ff0fcc29196393c0b500119819ac0535,
  0xd6c84abcde8e17cd3059d1e3eaf758829d6c9467c735d5699a7457cda813becc90c02155a3aa3e1d089af8cd1ebc19f,
  0x29602094847f676ad6c8e8279afa20bc37639736c8e88e97ed3bc241d7d21d636a8426368a31d58de84ac833bea04b2,
  0x23d1fd7c79cdf1e26cd5edea62cf5c91b3b3537702c6e94a0c86ac4452b35b1790951f2b10b23094d1c744f21b2c4f1,
  0x26533b4553d8087b96ac7e892d314fbf72618b6569488c65f574dc50c419cc84fb5301da2f018a67faa426ce00abc40,
  0xf57e4e94a515290683ba32f891ec3c63487ed796a1db2c70bc9567a48245384bc140f169d19007e02baaa144aa13c3c,
  0x2f5876a847ce359633f6141777e6e3dadb3f579a8765f9ea826c59da40d4098c32eb37986afd02e01f8c1a6c71f3ef8,
  0x2e4aa60bfa85680b38e0b8e6e47fbbb6f7c8113a305fa3f694ff34450d1f22efd0b337c3ec096616fb76ccc016f6245,
  0x24eb4968c969819039f8fcdf29c6f35b483fef1502a4ee18d038aeb8358871f1ae2d2b39a4ddf1ff3d6a9963a2258ae,
  0xf1d6a395aa7673546d9f2ea0649aac05631fe63c635d0222c2056a9b0f0c50f54266bce34884b4d76b4a991e1e11398,
  0xa1e01ea169d67e684d06b70cc849bc193df76dd19ef24b4232e52f7e2ebf4661219d5805cf3aac38a017fa68b6aff3a,
  0x102a9d95825593f958d2cfda0a78df17bff095f1847db8b1115d38eadc78841282aa4b8500427c07ac808cb4d1a89a2a,
  0x33c139ed68b26a9cfe362ef2f7f46c8b4c2171ab95a36552d03d8acbfa037a2b601376d97061ea79106f4289dae51f1,
  0xad46dd3e69ff2b0c6b940010451ba1dd26d4f0dfa305aae3aa83640c79ba841aef709ba14baf22b4852d8477057c9bc,
  0xc672839b388d12dc3398415c4868729ee68ea1742d35dbb0df348e439696dccec425d4bf67fbfe538863d60b6c93b5e,
  0xff2656c4447e5b58e9cceef6bdf0b15564fe0e8d5394f337dd10777c4661d2a41a028e256ef5ff9454d929fdf936061,
  0xbefe70d6d7f19c9aa94e2258b29641de2d122fa60a1def5960eab277c69ea3f613f4cab1b9b5611799ccff073abb914,
  0x13fe308a4219fbe545657bc0ce1afffaf7cc4e4a52443848e7391c7fe9c9c7fefa43f48e7aed9cd3b8f8f4233d7c48b7,
  0x71c408e334ca80aa4cc5802e1ad28fabf44f02671b96863781e72d6f3db5077f020ea07ce84f102c8c83606bdcab035,
  0x8c5a19f1a973bcc80a5817f6555b0acfef66c7c0759970fe2a59e01eea883b35e390f946dd081f09f98dbc095bd05a2,
  0x1908b28da84ed62ae8d1f716787303e7eaa7bfa570c5f6687036700244b5b03a693db96134bd1e4a17e401c0097ab62,
  0x159a6160c5fa03f7cec46496c1b0cdb045d529796515f777e0728d131e3ce5d07f2bfe4f6ea94754ee5b0081f1bef927,
  0xadfcc9af6b89f20d0522e907bd0b170b29bd6ea8069444e7f8a71aee99a43fa16fe4d6024188871be2770f439b4f317,
  0x184b1c48325d070a8efd343c417a53125b1f212910ee6cabc21d03796a1c3662dc5a07627f952b209ab17d3b6c330ffb,
  0xbfe3bff4a1622f7cae4db8a0ecd04e455313f6fea6aa0364dac6a62ba468a97bfde2fd0bdd437b6dbb41b2ea7677c2e,
  0x151d9b6d2d1d9835b576e295429bc89a9e40289d37f1c15debc6d8e3df037d151cb0444d37475648a73e39f64b967488,
  0x46333221ba849ceb0fa10a2cedbbb4c3468ba32e857a4a764c482011bc1f7e3d266888177ee9eda3b44dadb2d8f1c09,
  0xb478e608eb1e28f1b432fea20d33b43d5dfa28fdafec4d68a7fac93e49fa858aee1212284c233a9ddfd96405f2d8a3f,
  0x17cdcff05c26a6a2d8a5662b127f44d2c9cb47201c12539cb990ac8abeb18b8b08a37a393fd5765a4a2f698c9ab6eae4,
  0x1913c156a8b7371253d415ffcc147d672d5017d55a799cd2a46ab0cdb380f963af62bed830551f3cd97ec28225dbaf77,
  0xe5511fa7a567b3ba7047da514315187ab81327a9ca0f26057b790c662732ee4026fb4a20af3235faa8357d8bcae0760,
  0xcd6cc6092932b9ee76931fb08e9996117e2ef636c8038bb83bb111e8f6da633f162627a60b55eabe0b73a05534f7103,
  0x20a261d0e52e8593c73c4b22241ff37c68f08987dbf2a257719a5db4f1883ab98be04cf20f9c3f9d9b1034682984e2,
  0xb0711c93e6a7129d7da421b2e396158c9260ec35237c36c6fa788ac7c9791edc0249e15446f88c20584fd768f8f447,
  0x2a3140925dc533630ad5e8dc49e744c7eb162a4cec886ac6f550ab9c73f9594bd5638d97fc11d69f910a0bf2dcca10f,
  0x2be8ed7ceec703bdd964ea9cca501d717924a0a1cdeee7d7e48dbd84c7791951264c1be396a8cdcf7fa811d78fa06c4,
  0x1901cdf9a126ac3ad908a812a6390709b30cc001427b32e1d08a79aff4c8eb81ab9f8a85d6dba48695861d0f23826d40,
  0xa902009e2d1e845b9edd312e22087191991499ed0bbcc63713d83b80f3f16d2f61bc8ec2f175184cadedb5d6a013b9e,
  0x603554e505ad1ebdefa1e34526d8bb0f6dc126446f7cdf20fff2df7a5200de9a85a0e2ddb7f3ffe91a4a6487190ba1,
  0x101203edbde240e5db65e8b6fb38c425df2bf540e8f4351d97f1ad1292bfd79467c7174bc8380d81a5d61dab042841b0,
  0x8da10b495d578bc4ea417b428a6cdc475a6411b250db333a3d672db41144d784e23fbabcc7e5df946173d506786906d,
  0x3db2596406d8cf505021a9f050c3c0949ecb5ab47ee96897cda94550213aaf64bfaa0242b17601fa23f90189c787e41,
  0x1771898494a942100f9b4178b7dbf4ebfeea67a74226115765293ac6a6cb04ef40f978935bbaf3b1c71e3a7f03bde392,
  0xc57c64bd52c5b3b6d6e24eabcd55627495d8bca99028456dcd54d79808113a407486f702b62f7a7e7f7335ea7476062,
  0x8fabeb2af347d473b13141f4585d9f207fbecc16fbd96ee5fda733fb093a8dc92700ac9c3c0f4962c7e268de228c699,
  0x35db44353159cbb1a1440532ef84426ae742c15f48832038ff16a9cc97978d3647cccba50d4b8cc640cbeb4c08e0273,
  0x9ca2fc87e7bc1dc2f3070959508d33000b59686b9cff0c856b97feaca0bde50f9fa4493908bdf08d224f476ecf6b3dc,
  0xc37e0cf5db11898f73528aca8d305c115de1e8a06ccf960a58fcfa483fd45390613f98b989b64870ef60f06e9e6fa9a,
  0x150304bbf90ef744d8a8940316ea3ee6c66eb83a30e110318c2469eff52de796d87769c87b0dfad841438e0b453b5892,
  0x12b814ccd3f6fb6b3d769deb5017e900a2747f4a111674a71fd5473484a6bffc6d88038dc30d06bb285cddac46b7eefd,
  0xb00fc9d4918d9e4cf4b9c2f69ed7123b16eba577cc34a5a5dedb06b3b7756e6bee92756d8d3723591ecf65916b04c04,
  0xb221bf21994201445ba68b76a4dcf5c12fb0ebb35083b7f42ca74a427d57cbf2589fe22ade8741d1ce42bd95fff9191,
  0xeb68bf8a7b72b006c3cd33f3a40403f63d2a3a7e1a82b8b6e0c47ba7044a771a9f6735f141fc8e8fcde014deebeebec,
  0x6039923583c711325afdfd9afb6bb0bf9b8c40de57c86500733d5fc285f3ee9fb06954d7be6165420c83fe2f56a2a6a,
  0xa8727c93813b91c772a406d4877135b28037884c47fb8e576330f318718bf85274adcff35bdf2539870e705f3512816,
  0x5eec86d606cbab20e348ff4bc1ed36ae3014d6de634c2182a0632bf03e1849628ca6ca616e406bb2769f522ea357153,
  0x7abfdca0b2dbf73a2253ead1cc898e449550f2699a6bdbc026bfc949772832f528f8138f50e2af671a1d708aba164bd,
  0x14ca4a71e3354255ee9e7700df500977c56660a9432622082f9e5388e8ab2d8e7c95f679d2696b4bb822472fdee11f75,
  0x11f4544251ec9c3f936d373ae46e009c8c10cefdf22f4899b02c0221a811ed2e892c1b7f7e72be46892bd2e0a7ae19cf,
  0x154ce4fa69a8bb4a109d9b3669fbbcb478e97e2d0455fe81ea75a3ed73c47806f0065918a0febb4e251bae33050ec6e4,
  0xbe56e5954aabc62f6383d61e858d0bc6c65f6d381fcd244bc56e8094a6f7bd233679210600385a7a5ea686dbd4766e,
  0xdc6916ea3fa439dacbbe90fbadaef6284721fd6759d17f4c738311c67e59955eeaeee65b97a9cff7f68a272adb2589d,
  0xb3fa3277f0b4f4c790d81774aef4e21ab1485dde589199a8ae1eda0fdf6bd0f948d009baf9a9639e3d4d81cc879fb1f,
  0x10e0974a523949574eadb15956735ba060ba56a129cc88481241a72dc4caa4a9b5a703cf7f8e40796ecfd0a9fc427c76,
  0xd0b99b35202af0e84815ef64eed89edd9b63f43f32b4d27b06ceb825bb86400c4c37dc03ee5ef9427954c50b088ade6,
  0x2e4fa23861afae8460e635c8ee308ad0b2957ffa96c62730fa3e75b0f9dcb3641a1fbb5e57e282924d46da95259abdc,
  0x6d0f7d51f0ac09a8e0aec4a3fb3c9f5c1dbc98497a2037a6f97234c565847cfefe6344ffa618928231283d63dceaf8c,
  0x12ed1376e1aa4b616ca21214bfde5c1253ed994073cdaa181c8cac2969780cdbfd047cc2cac41b3ba21de7bff52f2bbd,
  0x4468029465e5ddc7148bbf683f09c165a2b9fbe0dbac5ce73ae04ca8d020ee4f2164220a16b5603bce4096c38412d9f,
  0x1400b0f4f55fd3e1333a12e6276259d4c11241769bbffd208fe1d826d17e39c895b0df806c0f689ef7d676e99e2fb18b,
  0x11a4c01ee17a8412a1a6bbd9442f17c1cfbf1625f1632eb2b6a6a7db6a84f27c20aa91920b76beb4781ecf7cebb658a3,
  0xfa466c6944359fe74a5cafad44b4afe5d135554cf4df1216639e50bc44d054cd0312e0dd51c7578e4a72280aadd4f19,
  0xcc461f75123f69535fb8ea79bb1c9ae6788b2dcd4c0e3256a9c2d601484c5bbd7651590807526e531fb41ebfefbf4c0,
  0x1671305ebebadbe465d3a6476986ef319f28e7876941a383f0e79533cd45bbf907a25a1bfe2f9e1d7e9889955e43292b,
  0xd171f7c7346db21f2e3e5f90756708788f0ef852016b0dea30b3f0f5fd93658f10c83ab1f84ec02f1765a1c812e50c7,
  0x1ce1d62a4377885b8cbaaf9253c187bb4530a3cda5c9e5506a634edb3b33fbdbc4cf084faa833bbbe01a82e9e027080,
  0x1295016fac266768614047a562e6aab3443c54619d0bd36008100515942c2bff3994301a83b82c7ee9b4b8569459128b,
  0x6e408d66da37aca0b659ecfbda7804b9d83d64981759145dc8709f5dcab326a5de042edfdeb3ead3f08f718234bde5d,
  0x5b9f0f793caed0b9e671efe021d95e4fe3f8ed27e9828c28948b919ec0395f41f00e05df139b74bdbe8f1d9b8ffa050,
  0x3de978f05e1b6bbbfc09bc96aac0a6e1cddbbaa05e73a3c4eaea59160df02876cd632c5cd49dfda8e95d19cb491e511,
  0x1646c8558f6f43bb3e5ae0e212aa45c706e55b12be81c205fd7c2efbd874b76015ed0778625f872fe1a8818fa50f90cb,
  0xe12c2bd2ac17784246302a66d031412159dfb3f01c339b92150f49fe899a21445f2bd7977bf1fd3ea71694af81f3ace,
  0xb1ed66e77b70d0c4394885077df03ecbb72a5dc4f12fa429a639132ce76ad5c33e9d0fd129176483fa373afac28477d,
  0x56661c8934a70a28ec0be61089a6b638855eaa661bd2fa9d79938aa54d3c96623ae056daa6d3a094e3801d812ca223c,
  0x12f27e48d419241534b88d3326293088a5c37028ab697eb3e8758919b701956332be4d484d9fb09707a5e6a6a9d8430,
  0x1b5403b7e9a832d4425826fcdca3107c59d20cee681aac0ad727ed83c449f00c7b8f88d6956b807b04651e852a755ca,
  0x7345d5532b274e9516a3eeb2bf29c56d4fd13538670212d058e6089b5d29d8ceaaeb1f2d134e49487049024829de706,
  0x27d3ae7d46efdba578e7166b2ebb317d928de4d730a95e455e693ce619d4224e82443aa9fdc9d2cddeb1471f0787dc6,
  0x155e837ddcc6d55b9904bba84c10cd7de590f220594067b52fa4ffb9c148d04622cda5d8460e27bd2e9b42701e2d866e,
  0x288ba093aa4700610504d0ec62617fff80d60f84bb712b46a23512a763a4bcaf5b42cc290ef70225e86e5ddb01b562a,
  0x88064b5137a27266b4528370ece744f0f505b71f00bb03995e61467b9355aafa6abde4e9809ddfde82d7659ff94a1b1,
  0x18dfd3fab76e3ec2ef34f611f1f758841c911ab96322aaaed62a4c8f597cd4eb09b29cd11727dd08cd124396d572e7ee,
  0x6fe2806bd7e8d4300f59f74f7a91f0fbd08a3f6f3cbd98e6cb8ce161b083ea44bbc342ba99c7531b8c5ed8bf0447cc3,
  0x9c62d2d0452927110c63b379ccfa40ccbd0778b2f546109a702ec93ae6312777d79e783597ec735325981dfe7325505,
  0x109cc3d99fa0dc9fc4a3039ff21a8ae239b9d556cc1b5b669d6c4a14d1d671294589b5799fd209e6b78cd684e8a257f7,
  0x1938c85abbb01c53b121c9bf46b417a85fd69798058a38d1d0609fff93e68848ba699d0b38f2db99e8cbf83a47d7dadd,
  0x187846d5f41be8074dfa2b4ddb10f5cfdfa1b073f61bebbe911e27c2cc55a62ef83786b33f57dd3ba41ed569ae64b14c,
  0x462f4d2cb3287815f8c880503efea153c8fafbe593f75138da22b97d09db1986714eb6096e2347cdd5793f30f0fa436,
  0x361995ad8d719a7bced588742f9ac6ce46ef1139f751eec9a093788de6f7aa47f916d288a0bf6b8d767f6e94a5cd600,
  0x1765822993d56f323ab859108d8865b5718e41deff6d9c9e67f00eaba4bf0212b7173a365d56b28eddc00b0ba9475884,
  0xc5902565dd7528a865acfa56f4b7c1befcdf1bfa3c7f0c669666cc60f7d208b50683b38ec20ab61b058bc3b17a0b80b,
  0x99627a3571ff7903a084a326b55f33e983a01f6c041c96d8578cc9ec9d72dda6894adb32f75ef33a4d8d302c99b3f36,
  0x15bc0e7d9b3fd6eb093787b09e46d1c68316c4c83dd1a26562c097bba80e618358a238a97970434fef83f4d258963dac,
  0xb18ab0e800c7630b64b2c7478c16c47d5f237ab2825ac1197117a03838cd7394746de6d97eda0411df06fe63fdb9483,
  0x18ed96962f859eb2b5f522a17da5fd2a7507e82a95b7f14ea4928a0778e6a6ff3b6d6c671f0b6b1660aa60dd78db3df8,
  0x61b41885606d17ab730122bfee867adea58ee719adfdf0da8e913f326c6140df90f9b8ae878773add552773a24be2be,
  0x43a112c91d7a9bbf4e2194e72335f070849f4a19cee015ea258ac5e6673c595d58512ab9a4a4213bb269c43f1f13d75,
  0x100a13714ae5bae11b4afdb462f9e80b88d7d02e209436e055425ce280667e1302f30bf6972ab4f6f765f06073c810a8,
  0x1290d12659c9cebbeec4fe3f26bbc0b6f112a7dee174abf7d6cae6f9cc39452e12faafa40596275e5d47bbacfb91fd8,
  0xb30d898dfb89c36e41704d93df9663273b0c4e8d8e292f8f793a01227e312f960c696f33df9c126fa300e04ea208f21,
  0x1461d3ad0b5b0af6cbb59475cb7bfd8f2f61238a437bec923466739b471eeebb3360be7bb6766b6c81c001528b263354,
  0x13f66d51af68d2b592ecf71f108476488131d858cbc2ffe9a8cb7d2a9ad6ef5f8f659df2688e0c841464de7631ea0a19,
  0x176dd7a27d2e92ee34e5e4f9fd25122371dc806bfaa5f843f24dcbf6439264ea760234168c0002d85a9e412a419dbde4,
  0x11b18fb8a8b6ed8ff2a4735dccb7f52de9b7100e28f099c4a0834dec696dcfe6e84723212064e7804b8b1250fab4157c,
  0x11537ffd3b39641e27e0c6f36e0e167596869e8cbb933f0057b42c55ff972f437e9758b30fe88b93e4ab174aec2f9cf7,
  0x10d0892453a647e8fee1ac54c6dd2869cbbdabc400a1ba5d6faef4b3430e2815d8b9d377c2ddf346716f3d4fec65c801,
  0x177b502ebbd30b7535579b64069956457ab4a6b4b68f207ce4e41dc31173af1a690e3c0fa8adea2d224f2f93e32d17fc,
  0x16582b3efd1675d43b7c7cfc87dc18fd1ea6cce349a26b0afc84f83cb3d8604ab86c37f5f488a475411d1799e6c8905c,
  0x8ee7212004f5ef9b561662d9049605e62f33a8cc2c69b1e3c47163f1ca6d00a8984417638fac10f63063f9de94206df,
  0x11379abb653f39cb4fdac0b3642d18b4eb544adaf06611a6ea21ee834cea6d6a398ce65340716b19772f65400b5d5611,
  0x58b041851862c40a53fce978bcee97296dd1655cb27de2748de2992ba3f209dbb59052d8bea06856b9e2e867f6a6848,
  0x1fdc8e4b0f2387c0e55f765d65a8c373c55ee8224294fc0a5ec67b19b912a570858d1b36a741df898b8766cb6d0f6a1,
  0x4126cd282e4fa59db7c5c9651d76ec049a76d9a7b142a9428ed73d3345253085df1e6b0319d02f48ef9402738056444,
  0xdb242676d62cb3604fe1150ac7ad855dc998431ee21c31be1be75cfe592933727a00001c6a4c2fe3be44907d7e41617,
  0x55bb376b0090788c9da6a291202ab143a9a2af9971b80f0ffeaed6f2e765a9e0096060cf5a5b5fd76e1e48c9a9ef2a5,
  0x466c59dfaf79d23888f8b433ccfbe1ba36e144a62ae43c28a6ef091d5324f26b28ebb6c105c975c43992d42134f946a,
  0xb959df35596d0137017e7aabc9c4fcc777ef72ac271a037a696d149ef95a19f05aec5174c1f823b14ed3c9e9f97613a,
  0xffdeafb8fc030f147e083b4b50177c1e7dabe9f58ba17ee86820d537732a0a2a2838384b80bb4d7cc127e3db31d8fa3,
  0xf442e60668ffa61cdbb468ab3cb1f0174727b3ae5ea5ceb970e84991e45af2276faae5b21a61f839bded99e53611fd7,
  0x5ddcb09f04482568c169c4ded449786e984659589d82fc983401ca838e92c41bf92b59c2863ef2303b075d99791e9b5,
  0x67a8f40b147ce9404b8225292c1de7c13b2061a7e2ed1bbb34685d0208089984b0e825c98e5fc8e8e5ac96763d10e7f,
  0xed798e87e1ddc4d89836d1264f10db1cb8e510b5e8df3ff8aaf2e1cc01fa3fe51bebda8648f37e724af85582eee21ca,
  0xf1f4abda093be1c6d77c80a11ad4df11295f350a80bc780a10ab0cb9c7008bf56f2be964f6dceea3b67e29f7570ef4e,
  0xee1bcbd9949d7024c91720e658747951333ba616fa77e55eed2626939b36eb0d1ab3023ba87f632e19a3092295a2f8f,
  0x45c1c08ed6a4cfe26f4837938f5b89dfc7480492f8426ecb3b02ac19084ccdb173cbb5a1f354a01de4828810fab60f8,
  0x8ceeafc54e079a80ce9184a03bff21726e9d0fdbaf2bc85b7433e315d8f2582b3a4087f88cc3a3ab7394c5b9a6f2ca3,
  0x9b43e0c6ff470d4adbd74b1c3d644ada836bb5167f04257a9b0da814a3eb28dd250a1b7617aa4f9983ec93558d509b4,
  0x18fde2157910eb6b8a519f8d505f80b54cb92ac1e79e74c2595e8891707f4c54a18cc8212c3c71a211492c884475511d,
  0x18b989c6cdd5ccd2bb7c304a04c645a5ff7c6c3efba4cbf92766d7905f5f760d4e1bd40ed939b396f7f94e2bb821c617,
  0x4ef455ad73a8a5b88d43913e303a4e4c22d5eb371a949687ce538630aef75dc973709ee02b0fe72610f4746e1622e47,
  0x29aa1a43d135b64be8e5f10a8c71d751f448ae1a9bd50128fc5560d8d63623e3ad5c9af606352ae228be0bca25a7d47,
  0x4f5c67adfcd6a65b7e655cb355abae96ddc63ceddbb157e91b54a2f36e9b6946608dde3054c6e262673465c2db80eba,
  0x14c0613f2bd4837d62dec4a15189a1c7ab121fa7f1af19e28b11ad6a0bab443cd1ab0cded6c9dd3960dd3b4b338401d2,
  0x12a4d80119a634bbb795f0e0e1915dd90893a76e727aec07b0b3505086dec9d98337398c05eb7c1a4f766e2759c0bdf2,
  0x84ca89f2ff121f0ed710f66aa2baa6486a7f4d18f5832c467c99cf96f2eadde8ae4d0ce8ac55486a3919a23a1e861c,
  0x16629ca00d5af12cb8e19287ecbdf4249fc0079284a072a49a06f743661b2f413a8203ebf367fa59b31dae6ff04b1688,
  0xcfc75949c0963eb8240cd73b6208b0ab53933fb3f12e64ab435456fd69b3f6d170b810a7ea996d0b1542182aeb2de8c,
  0x54e08d59aec0a2f71f82b159f3452cb21c61afaa373417941e748959862867541a5f10d6037a031eed47b7e77fec2bc,
  0xce1dc7e52f0187dffba788e5eeec62c02d374a1fc369351cc2973f77903e32b86ce4a9dc3d597b190d3a862864b679e,
  0x9c0e330f5ba02d05df453314f7901660eedff9ead032e4dd0e6555eb8692da49154b21ac7918e14bb7fd707dde9b379,
  0x179a0eece1bf5562836bd902ba398c2d1dd91378d5a21d0e0821f20c8dcc07e59fa3e27b59d076a6ebd21796ade3faf4,
  0x821f3ab9013dd84f72ff0bfabaca5d418d342870395992e57c9655a1695b026bbbee0fca65d59ce2da68184b902c462,
  0xd2977d6a6fda6e974cac952ed3f55f25b72788cd412e6707a4b8c408dcdd519011b1f9e00d345fedbff6d6227a90b80,
  0x48079b955bbfdebaecc9da4f6eb092aa63b6200b922f657913406e437f8a7ce57155bb70d0997bb2e2316c5b4eab94a,
  0x19479da3a870353d465bb4c3ca208937afe8ef65f754a5e247bd3dfc21dae68b03384e88f5d67da517216ed6d79b64f2,
  0x67cd283f8207533364db135b39ecfd9970f928d29a6a38895d56e2934e3714e309794e979e45cf2829d4871f0b69e03,
  0x981638e4de3e62c118268bfe1d45b7d53e48cc7517ae235b9be7523b3091be048053e0dc0331fc6569f941815a5d51d,
  0x356e913bfdc98622739693d49fb4f7eff2a21eeaa86d7add0c9cc5d7e6a001d2486a183a6d8d69488dd7d2b9f57f5c3,
  0x57ba678fb8237b8c03b511f5e69e329ef605ba2b7cf37501a7a5ed593ad631ed8c35a98d212fec3cdc772b346c87313,
  0x33d61daa0ccb7374af31d9cf50f5b5f61efbc2c486a152f0cae2978170d03331bcb6f2a9eea8a64c7a583a16f88e086,
  0x174ec52e33a48e71630dbb4d978e5acdf3098f47744fca8b5c55878c58140b35a075eaf9141ad1689d4ab7330b421bbb,
  0x11cbb0bd47842fe598f18b1dbd8f6135f14cf2fa285fe9f9c3203aff05eb6963e6110938a54d0099adfd428f532511ff,
  0xd9ef43044ecb21889b3d21475147eb1698e013144b12cf65d15e12260e884f7022dff3b948cd335d6d73790a72d49e5,
  0x52b2c494faf6dd290a016dab8531088fa1c6e5813e5282945e0070b18be65c987156faa65b7d772b1ecde5545d979be,
  0xabbc9fad4d9b37a34f5b4fded24ed29b167114deb305b1ff6832f619b96771c0032f878fdab07e602191ed99bf26d87,
  0xb1794ba878be7362efb49eab3ff337a20fd1ce61cadc91497d8c35b9e4f50ef4be8688872569868123cd4dff85db7f0,
  0xe20344f57202c006ebaf8df48a050d35a003c7772fffdef0f40c33819707229861c5d0194251c21e9d38fcfb5a88d0c,
  0x830caa5f381e08f2594a0ed12072fe5643f9f340ad7711123235c0111c612b7bbea59ead7190be4bcc65579d8a82655,
  0x9de0a995dee231aba2fcf5e0d43c89f63f1686a4c1a88ee7d9acdbe940c4a48056ffc99af0de2be7b9f2d2f78d3d2f4,
  0x11b69b2184dfcb01496b5d5309248798f61821f1c6137105b45c4f9cdbdf57ec3be2017fcdc619cea19f0bf17f6a1cb2,
  0x18dbc8b0e25fe58c03a7de276d7a5c5d85b912f2506871679d409b37d3b0b211fcd46f5e0fa7c14980970093ea7fc816,
  0x2d8866aa5de512c2f4ea2488c80101e6a040b8ec70776122e220a78f46e8c5fdf94f1f3751d897ff47172afb6816536,
  0x13d0f2c7b9c16a8d44db2afad42cdda2dbe3ef96f5eec6b743758facc4277532fcd4516b303c6b48ddc522160b612530,
  0x16b1dfa1938a37d0324da943e03cc1d4f09716bb2ec9f96ae5ecce04cfefc2bc67baee220ff9cf258a27a8a376b86e5c,
  0xe5bd3949e6d96ac3f77ac36a707f352ae39686b027fa381a4b35d0595af8318fbc42f6665707f2358648e32df190f55,
  0x1624f4e5a7e29ff070fd7bcae0cd7cec368e2db1e6cc0e57e239ae416339ec772f39d4b4fb8dcb57903d4778cacb5808,
  0xd4677f8091353fd00046203c6fb91cea5aaa040524d337d46ed1671aaa4d981da100fef3701541e3d79a9eddd03c5c0,
  0x159d20ceb31ba553226898df2c45318c936ea906653f3abb6c22b258e9182730873c3ccc64a5ca7acd4080ab67b82d11,
  0xd81d8884980fe71cfc3d096d72c08e89e32427dfc5ebad9db099190b0be1006601b5e232573c4d6caf352cf4539fe4a,
  0x15d94bc2baae7faf9a037a63c62cf59ccaae8dde2465e1605d37e438199da5e030fb42934375410d08513cd5b8df53a,
  0x2d71b140c8105d141d71dcc6610d92daa69da600a73026fba31089443a4d16f2b4c4996501734efa667202aeca2dc70,
  0xf5136f7bf071c2c11b937002d5fe44f00b754fd36ef90d4a333f2dc0613d00ff008dee8faac02c738e663af60146f1b,
  0x14b8d8584a4f3ff8fcbb721a843beaae8f5df10b2618079547bf7cf91758a26cfb589f0c886f0e116a5052f974bd9d23,
  0x9ee7b29f631eedde8552f006812b27bad722760d7a77fb3f29e8439007bd45d1cdfe0633297ab8ecc2b6803671bfa7f,
  0x79fe6b97d3ab2de2967a232b81d8a60c9d20347d57acdbc2ea323bb290c9aed011dbf62d6df3c0ad1edf89c909c31fd,
  0x18024edb2035bc8a723c267d13288c41f1af6a5ae5c5c313458625962858070dfda354606bba1cdb2bd599e923165993,
  0xdee135766830c267cd223801f5b43a2225a16a6ae8f060931d47e617845af4bb3103557b3d3c225434d646bb1615213,
  0x1057cb45a1fd87306b0cffa6da630fb74bff54eaab53d008b14175566bb12dbf4f52d5390e6fdde055f07857c1ffca3e,
  0x18e394775707927dc09e699cecda0b3f0cef31956f6cb6c81481ab9550bedb369e3eb3486d8ae304c886557bc768974a,
  0xc33d176fc78a276973ba90a4df36afa917838b9bea0f7b5d0c29fd94dea06a2ce0b37ecec726aa10e8db90e77a1b0ad,
  0x106351c3bbb36f5856f1db1128147393f3a703dce38c4c8b6a1b3950ed862fa3879939b8fa135d3da777118d7da0ab25,
  0x6585b5cff8aebcc3adc594d0d09cb53b213671c6690e5f61563ae969ea94b7328ed099eabfdf05be0832c8911114759,
  0x10d9d9e0a0ff68d9da16b3e6c8d454c69af1a158b7f4398e45070bb1ae9af4ed3a19dd6fcdb6064007ccbdc9e89bc73c,
  0x4404b8466448fa564393a508c1f06f52600c0727676fe93ea21e88dcdd836c595ebb5a80c0003ba23ec8faa6e80c32d,
  0xcb92d519d869c21cea164293b42e831506c412d0ca7a420f4c78778643bff239110ef8e6f25f43aec42cf450797a109,
  0x123602b110b5787d94e8d673ae9fabe5221b8ac8cedfc2f10699c8d89569a18b13a8d113f7ecd2dcec30d89415d2b4bb,
  0x17b081659aaade109e3be3b2d41d046910821201fba2169acefed98dffd84cb620f80802f48f64b2ddb87fc01f03b4fd,
  0xac3c564ebcae98d4901030c56ad7452ef18efcf529b7136adf0757213410b484cb772e0cc4c49a503921b9a1fc06275,
  0x19f7e6231db59ee258b0a13da99325bb88d7aea7f0464e5f2a616324ac9cd8b8ab59ed714d1e93c5fe09dea2f8df2648,
  0x39ec84d24768e16c3c3b71f6c45d602cc38e8aecf01fb0108ccb9e94fe6779fa2f9f384f7a75bc5ff8bddfa8d99dfc]

/-- Bits of `q - 1` after the leading one. -/
def p_prime_bs : List Bool := [true, true, false, false, true, true, true, true, true, false, true, true, false, true, true, false, true, false, false, true, true, true, false, true, false, true, false, false, true, true, false, false, true, false, true, false, false, true, true, false, false, true, true, true, false, true, false, true, true, true, true, true, false, true, false, true, false, false, true, false, false, false, false, false, true, true, false, false, true, true, false, false, true, true, true, false, false, true, true, true, false, true, true, false, false, false, false, false, false, false, true, false, false, false, false, false, false, false, true, false, false, true, true, false, true, false, false, false, false, true, true, true, false, true, true, false, false, false, false, false, false, false, false, true, false, true, false, true, false, true, false, false, true, true, true, false, true, true, true, true, false, true, true, false, true, false, false, true, false, false, false, false, false, false, false, false, true, false, true, true, true, true, true, true, true, true, true, true, true, true, true, true, true, false, false, true, false, true, true, false, true, true, true, true, true, true, true, true, true, false, true, true, true, true, true, true, true, true, true, true, true, true, true, true, true, true, true, true, true, true, true, true, true, true, true, true, true, true, true, true, true, true, false, false, false, false, false, false, false, false, false, false, false, false, false, false, false, false, false, false, false, false, false, false, false, false, false, false, false, false, false, false, false, false]

theorem p_prime_check : Ecpp.check p 0 4 0x17f1d3a73197d7942695638c4fa9ac0fc3688c4f9774b905a14e3a3f171bac586c55e83ff97a1aeffb3af00adb22c6bb 0x8b3f481e3aaa0f1a09e30ed741d8ae4fcf5e095d5d00af600db18cb2c04b3edd03cc744a2888ae40caa232946c5e7e1 q p_prime_bs p_prime_ws 0x3a0ab1094f9aac23ddb7932e0787dc53fbdac85b6e9df9252a6c2653213975f7c75c41318b68544e88a5cf31e7a629f = true := by
  decide +kernel

theorem p_prime : p.Prime :=
  Ecpp.prime_of_check q_prime p_prime_check (by decide +kernel) (by decide +kernel)

instance : Fact p.Prime := ⟨p_prime⟩

end Bls
