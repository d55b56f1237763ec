import Verif.Proof.Ecpp
import Verif.Proof.PrimeQ

/-! The large prime factor of the cofactor of the second group. Certificate data generated by
`tools/gen_ecpp_h2.py`, checked by the kernel. -/

namespace Bls.H2Prime

theorem p8 : Nat.Prime 2530610742481 := by
  have key : ∀ e, powMod 2530610742481 11 e % 2530610742481 ≠ 1 % 2530610742481 → (11 : ZMod 2530610742481) ^ e ≠ 1 := by
    intro e he
    have h := powMod_eq 2530610742481 11 e
    rw [Nat.cast_ofNat] at h
    rw [← h]; exact natCast_ne_one he
  refine lucas_primality _ 11 ?_ ?_
  · have h := powMod_eq 2530610742481 11 (2530610742481 - 1)
    rw [Nat.cast_ofNat] at h
    rw [← h, show powMod 2530610742481 11 (2530610742481 - 1) = 1 by decide +kernel, Nat.cast_one]
  · intro t ht hd
    rw [show 2530610742481 - 1 = 2 ^ 4 * 3 * 5 * 17 * 173 * 3585247 by norm_num] at hd
    have d : ∀ {n}, n.Prime → t ∣ n → t = n := fun hn h => (Nat.prime_dvd_prime_iff_eq ht hn).1 h
    simp only [ht.dvd_mul] at hd
    rcases hd with (((((h | h) | h) | h) | h) | h)
    · rw [d Nat.prime_two (ht.dvd_of_dvd_pow h)]; exact key _ (by decide +kernel)
    · rw [d (n := 3) (by norm_num) h]; exact key _ (by decide +kernel)
    · rw [d (n := 5) (by norm_num) h]; exact key _ (by decide +kernel)
    · rw [d (n := 17) (by norm_num) h]; exact key _ (by decide +kernel)
    · rw [d (n := 173) (by norm_num) h]; exact key _ (by decide +kernel)
    · rw [d (n := 3585247) (by norm_num) h]; exact key _ (by decide +kernel)

/-- Inverses used by the chain. -/
def ws7 : List Nat := [
  0x19d2e75499aa1a,
  0x14021a9f2b3b2f,
  0x1a464786244fe,
  0xb3616412f6826,
  0x191516c72e8831,
  0x30d949da2c6a7,
  0x2da17990c8703,
  0xd118b5b83cab7,
  0x18b76aa5298c5c,
  0x3f64f8f66c235,
  0x76a9b1cf6e786,
  0x147da905d68416,
  0x77e987d415ba7,
  0x10e6eed016b3d7,
  0xca2973511f201,
  0x11b6ecc03e04bc,
  0x349e25d2a1fe7,
  0x66ae849bfb5f7,
  0x16e256e8a4cd70,
  0x83940b25fbf6d,
  0x7eed4e5f0d697,
  0xf4944b7db8590,
  0x18152ebb0ad8d1,
  0x545c989296c6,
  0x224e44d67b6bf,
  0x8e4314db1436e,
  0x1a08ffeaaf0dbd,
  0x9d4089cd0b5de,
  0x95e480d559791,
  0x10dfbad0a7d11c,
  0xf4c61965a852d,
  0x1160abc4d3221f,
  0x12861643a64cb4,
  0xf170d8b6d71db,
  0x681b680c50fc2,
  0x96e74c49fa81b,
  0x18d44f73482983,
  0x28e8e0bdb87b6,
  0xc9ef728fd5286,
  0x11d1582854443,
  0x52322565739ef,
  0xcacf952d39ae,
  0xde560846450fa,
  0x36f918b79fa94,
  0x99f5a50c89898,
  0x14c4415b9120,
  0x5f87b428a283,
  0x148fd78a4165d0,
  0xaa15f302ddd53,
  0xb8a96ba3ffd40,
  0xe5dec4b41321d,
  0x847447612f7ef,
  0xf8091288d0bd4,
  0xb982219f5e275,
  0x134717da0a4123,
  0xe6377a6d0456b,
  0x14c6c9a51dd59e]

/-- Bits of the order minus one after the leading one. -/
def bs7 : List Bool := [false, false, true, false, false, true, true, false, true, false, false, true, true, false, true, false, false, false, false, true, false, false, true, true, true, true, false, false, false, false, true, false, false, true, true, false, true, false, false, false, false]

theorem p7 : Nat.Prime 7523505584230261 :=
  Ecpp.prime_of_check (a := 0) (b := 4)
    (x0 := 77869741094579)
    (y0 := 1652338968358256) (bs := bs7) (ws := ws7)
    (w0 := 7268765416401434) p8 (by decide +kernel) (by decide +kernel) (by decide +kernel)

/-- Inverses used by the chain. -/
def ws6 : List Nat := [
  0x518655fb7cd087d52c717,
  0x7fedb18486a721b280a63,
  0x524c7885ad874aab2c98a,
  0x536bacce6e7b2113071e6,
  0x254fa25aa062d6a5fb5c1,
  0x1040c2205be527f1d459f,
  0x2b99012913862aa292f34,
  0x20a7cfc558d724f26a67c,
  0x3f4410460828c39105bd1,
  0x8afbfdbe70dc1498b772,
  0x97e0d442434d7180b39c9,
  0x9be8f81906eadf1dc215e,
  0x8e3eb2a7c528d98df107f,
  0x1b6035e498563726e2e66,
  0x242d1aeac4fd15443ffd1,
  0x334b6bb50942ae01c2d76,
  0x7a7157d284073e2f57722,
  0x6d8850c0d79d6cdf17fdd,
  0x15953bb882d79256c52e3,
  0x6f4c762feae11ecfd606e,
  0x6c4da9d38d12a59cad164,
  0x6cddb4e52ff6b89763019,
  0x3acc0bbea3a614b20c6cc,
  0x7a29aa930bc305e82aa59,
  0x7ec06bb02fd867cfb8e28,
  0x1bfcb5f76b68294d4295f,
  0x8da9b5d51333e3125d315,
  0x97e35003d28cc2298e990,
  0x8674c8bdf7865ce1eef55,
  0x4a5134481119bf4555775,
  0xc1e74589edcd46a0db82,
  0x574eb1a477c0d5557e6a4,
  0x973bb322a6b134dff63c6,
  0x5cda4769b516a30f35be5,
  0x38f6a83ac5e2b5994e581,
  0x819390c13d803d044590,
  0x891d300dbcb37ab4bff8a,
  0x76d6576d18da73f9070b7,
  0x8132fa2c851033103f10f,
  0x82a2fcf3b477db800254b,
  0x1606a4a849f68e6d579ee,
  0x7d38afc4b5f7710585dfb,
  0x4ed168ccb85b7b6dd1c30,
  0x6ba7f2cdd4da815558893,
  0x68983dc84c512a65c0487,
  0x31b8ce5ec1dad26939e2e,
  0x44ed6790e655e63af16cf,
  0x687a49b855907d1d1cf4a,
  0x207e90612a1555f6d53f,
  0x56cd137fb8a460a2a35e2,
  0x4ab988e25fbf7732d5205,
  0x366c2d77ae90224fecbdb,
  0x1063b7a2eb2417da5562b,
  0x3e8d5fedc4a9ea5135dcc,
  0x9560cac9d3bcacdeb7961,
  0x2f9443abd2d2ffef56c24,
  0x6115dde2cc7fb7baca282,
  0x42876658627c502ed7450,
  0x137aa20876959e204bcf7,
  0x9a898c3abbcdf74f55cc9,
  0x7bfe1951fa25e67bf8347,
  0x3e538f4863ef424060c43,
  0x423abbc4d09c0ba55659f,
  0x243842853456ea86d2a90,
  0x15b88c1659720d4d79e63,
  0x9338aecd1928ea7257fef,
  0x8925224166eb3bce0bb41,
  0x2ad0c38037c0dd7c118d,
  0x3d479f07cf330cfe40753,
  0x1f6801043f9dbbf6d20d6,
  0x166647ea958ba014bad24,
  0x7dd29d3565dabd25961db,
  0x8f879612adbee455d2284,
  0x9af640e3c36a82faa3b18,
  0x1916cd8b0b04eb8b44ad8,
  0x47babdbe9a47dc55e1d64,
  0x8fc9402970ddc62e55784,
  0x9a46acee6fe9e31a9e9cb,
  0x3cc44242cb9e820c7ea50]

/-- Bits of the order minus one after the leading one. -/
def bs6 : List Bool := [true, false, true, false, true, false, true, true, true, false, true, false, true, false, false, true, false, true, true, false, true, false, true, false, false, true, false, true, true, true, false, true, false, false, false, false, false, true, false, false, true, true, true, true, false, true, true, true, false, true, false, false]

theorem p6 : Nat.Prime 12067417944150095876847367 :=
  Ecpp.prime_of_check (a := 0) (b := 2)
    (x0 := 3231961471129571982359086)
    (y0 := 11115824369695647741297235) (bs := bs6) (ws := ws6)
    (w0 := 6159835912020252710586135) p7 (by decide +kernel) (by decide +kernel) (by decide +kernel)

/-- Inverses used by the chain. -/
def ws5 : List Nat := [
  0x100d557287760d204c64c2e,
  0x17e9db7844d68e5c10671d,
  0x7c0ce3be6ffb265ce63f8e,
  0x2387e0b7ae341262eaf61f3,
  0x1050f19a214e7acbef7caaf,
  0x20177c5242567cc05a959ed,
  0x1ce99989adae0ef98ae5a61,
  0x2270904715d26adab03a9ea,
  0x297dceceaa373847b8f1a2,
  0xf5add6e88ba7afeece05ed,
  0x12c58facd6e4227b0f2e4ba,
  0x220e354da62e2b82e11b32c,
  0x21418cca92786b21f8de813,
  0xf9cec0e766937c48cf970d,
  0x14c3356786c48cd22180baf,
  0x328e73fa6a31b6425495c0,
  0x10623666c0fc8b81680171,
  0x1eba5233ff2421265807feb,
  0x81b384cbc6b90be0e7669e,
  0x1d74949e1fc5b8ef8ef9ddb,
  0x1fb0c73609d061521356cf5,
  0xf77846d39a07d355e34454,
  0xa7cfc447ec90a087b926a5,
  0xe720d4b0318c4421d643b1,
  0x20adf75efd30e501cff3cba,
  0x9f6ba53a870ec610b5794f,
  0x1a79c96949830170e4e44e7,
  0x211e558d500f03962e9354f,
  0xd2e8116e69c87aaf2326fe,
  0x212083d4604ff821dea6957,
  0x17f7665db3354fd4488b2f5,
  0xbd39d79358166ae9201afd,
  0x225635c0ec2b43c7461fcff,
  0x9553ac97f6d8425d51c9c0,
  0xbdbba3e7c3f0a1d8e1ec9,
  0x14425de1d562c3406f1fe79,
  0x19148e218a77e3cffa63b35,
  0x1bc3403b959935f1017adb0,
  0x140dd9f8adfb26d4cad4055,
  0xad5456739995696abe0ccf,
  0x7aaa7c7b99c6e9847061d4,
  0x2d9a1f61d394a5dddee5ef,
  0x10ebe7acf960b0ba8494942,
  0x12b7f981381c1dedf3526fd,
  0xcafaae9cb4d12835a593b,
  0xd551a1194f35de99140463,
  0x8f6a1b179d11bb2306aca,
  0x191a2193294c9e185c8e658,
  0x9f3ca7f2b1294c8d02f508,
  0x18b3142fdc175f2dabe5392,
  0x4ee6551c38b21baaaffc73,
  0x181b0b750bb836ad78fc293,
  0x192feb8a64c2d0d087472fc,
  0x186fbbe89752b4f41bc1ca4,
  0xc2585d1b33dbecb9da0cab,
  0x18a3deed1baeaed6b821ebc,
  0x17c707f237a5347a0f06078,
  0x865230e3c92418c398414,
  0x228e16b909d9c39d88c2136,
  0x181418cce0cee7d7d0cbf89,
  0x10b12dd22266bcdafee522d,
  0x256006923d64f26594aa34,
  0xd69c37de3a3ecafdc8d1ff,
  0x324cffa1657c3750cdfcc5,
  0x1c4730df82827c4981309a2,
  0x89399aa7d9bf0e98c2d17b,
  0xde41f3ef1422bb5757e96,
  0x8b7db60dd2e5b61d696c02,
  0xc66588011b185a0b4b1948,
  0x13c046be3836e4642e4f9c1,
  0xa0d6f8a96677ca4f52b3b,
  0x769b7202f5253475cd55b7,
  0x16a1b8ac2f3cbfdfc0c3fc9,
  0x152e08971e47a5b202b8c71,
  0x1472bd585af9c4915afcb34,
  0xeeb6aa68e0262490b0bdb5,
  0xa4fa6e9f20444bab5ec86,
  0xb9715f6eaf3ee26d69dbbc,
  0x1de156a500296307772cac1,
  0x1edb0e3d891cc12661567f4,
  0x4ae5c3fe367fbd41eab331,
  0x177970c62554707446387c,
  0x496bd5831d0e971a9e6bd8,
  0x1df34724f167a6cbf666862,
  0xfb0071de28c8da7627cfff,
  0xaad81943116ab0e43c89fd,
  0x1b6b1460d7baf528258ebed,
  0x237a4d594811870655375ae,
  0x990016ea9861f1e51c2c6d,
  0x166a59927b00ad7a6c26200,
  0x1ebd8ac762e9377f540bef9,
  0x20f7fa73d4e021d3e10664b,
  0x1c3bb1c9b64b2126688f386,
  0x4cccf1d08c2401f0fc0616,
  0x1901984293161a5b56ce587,
  0x1f39d6072f6c6fabf92378c,
  0x213c4bfefc1380a8fd1bfed,
  0x23307648c223e932d544f82,
  0x3f38209b671930cb529c48,
  0x1caddc78dfcf1380910c43,
  0x19bd949a24773d3791ae04e,
  0x2168d44ff5fb431ba2dc40b,
  0x975800ade9363e9d670549,
  0xc36dbe3884ae35e047f6ce,
  0x1a6f7f01052a1c5021a8245,
  0x7d377d67be8b3a88ae6a90,
  0x28f280286bf5a2e582774a,
  0x15bee0e09a0d01e11c7945d,
  0xa040e85ced1d9564ba33e4,
  0x14bfc9bba180d68b1fedc0e,
  0x15b1739fc138374da23bfc9,
  0xfe00432e869d31bf23e559,
  0x12d3891b351774a0cbf0838,
  0x24699db1cfb6133edfeb00,
  0xe50b5fc1d0ef55d5ad1fea,
  0xf2aca767a75b64879d2cfe,
  0x1310876c90a1d199f1c8f82,
  0x1a2ea4362cf095b5bbbc062,
  0x10b629a8a793e4479d9657e,
  0x528303f66e39adfd75549,
  0xd87f2f8767f8d08cc232c9,
  0x171f8000b6efd77d63e341a,
  0x9e8d902297c3a0222acbe9]

/-- Bits of the order minus one after the leading one. -/
def bs5 : List Bool := [false, false, true, true, true, true, true, true, false, true, true, false, true, true, false, false, false, false, false, false, false, false, false, true, false, false, true, true, false, false, true, true, true, false, true, true, true, true, true, true, true, false, false, false, false, false, true, false, false, true, true, false, false, false, false, false, false, false, true, false, false, true, false, false, true, true, true, true, true, true, true, false, true, true, true, false, false, false, false, false, true, true, false]

theorem p5 : Nat.Prime 687842822816544767174903671 :=
  Ecpp.prime_of_check (a := 0) (b := 5)
    (x0 := 162529829863371779863089810)
    (y0 := 577572507104613218092418888) (bs := bs5) (ws := ws5)
    (w0 := 310492481664836454771477550) p6 (by decide +kernel) (by decide +kernel) (by decide +kernel)

/-- Inverses used by the chain. -/
def ws4 : List Nat := [
  0x56623ee0ccddcb40d4a7db4aa87f8674991f5a24f228,
  0xe4a57cdd89f7b552cd8cd5a59ef325f4184ddfd0909d,
  0x6542eaf80e431178bbea295b716deb5304851b8a78ef,
  0x14e89d672ea4d0ecaa396e0690dc31cd43c2ac850b7e,
  0x818e780221ed2568cae6c05a59ab1eaa54c86ae40422,
  0x8c577b94f2ab5b6dc42c530fd9a6ba597a22bb846abc,
  0x33f05c93b27e25b2be9fdf46b9a314ceefb22c9c93c7,
  0x46a40f300c53bd0bf3641c909d6dc04fd23559e93410,
  0x72be3ced69434a69ada2eab53e244370f25a981331f1,
  0x738ec70ba13a3ab5bd661515bb9588c6c23e0c3bf12e,
  0x833a5a1c0b0a145aca966180bd508ed36e4dab3687ff,
  0xd174423feee533c527104e35755b621050b957a9260e,
  0x32f6f761b90596cc276a8631c7437b56733d55a144e8,
  0xb3bec424b90df78b305715a85fa22d3253727d3bb9e8,
  0x1ac82c60447e54c687509887848386ba72052dfbd15d,
  0x9438242c214a8339cdbbdddea261aa7a4df1324acf0,
  0x78b3b064e67fd18c173ee1d76efef0ec99a9fee8cff,
  0xd9ab29f15398946633bc2f70931714e3dafd74fd5637,
  0xe543e1691f790972389e89d8991898eb137e3afaad6b,
  0x6203d9975b4e3c64355050aff640365f03acfd0cef83,
  0x7da79d82c9717c07a28342b1fe2ddc660756fc2eea3f,
  0x98dd555c00eb1315fb3b37f0efcc92121da4df6445c5,
  0x45745ab766bec696920bfe90dbe0e2c0b0783dce2beb,
  0x5a96e3062baa3f0e1b21bbdf280f2679c2f930d008f8,
  0xaf180cdaf70c2ee714efb914ff247eac0b20dcf83a2c,
  0x963390c7b57a93eb20914b35967b2cb73bb3137863f2,
  0xb146f12cdd55f8f97fa6c788300052e5e45f25ba4d99,
  0x7e44a43abc7dfb393df09dcfcb2ec0340efb5e99ac4a,
  0x56c49b35c5bd24683cc5a9f8bba338040e97e1cb594d,
  0x98381e8de3ff466e71a470830bdb579e256ed711a633,
  0x1b2e51c664249ba2936f88385ac019d2d3b07e095702,
  0x5db07341f6632e5b9f62f73ee3c024b7af0086f8cc2a,
  0x20f60d2137035dacbb3a30133e52e5d87239d381cd62,
  0x533375b56c1b9828c75bf359d8f5e48d1dacdc2181f3,
  0xb987f14d5c78fb1e5ec17ba93e5059b8663412517a2f,
  0x45e58a6f062ea7e649040988de63b0f6abc37dcafe4e,
  0x7679b772c2ffc2317970ea498248050e79012e952e25,
  0xa0a0510044404df94935680afec2b4d2d465d515827d,
  0x5638ab93d2b3c61141e24e1caf511aebdfc2f9313df,
  0x4582a0c41aa251e7cfac4a26aab9dd6c4754e49aa51,
  0xa2fe82b6d4368d762fe0a2075d773cae98237b5eaefe,
  0x756d5133f8e2815e02694c99e9c61d537e56f21d587f,
  0x1e636b2fa67cb1f47968fdc0e4c6f0e5b417fe781a47,
  0x6282cd7c8a0b80d205af68ff0f29db0aef8528ea4a2,
  0xbcedf4cd8f580683020797c3c5aac7ee4f961661843,
  0x9f2e0cfdadc6bf6751f14a3aa9fa19b5c7c79e5b9801,
  0x288b501b46a49dbd8f7cf62c3179c6e0eb064bea8274,
  0x1cd0da6fc32dae2188b486cc8a9b80f09438ad1b7da6,
  0x6236262258cb1b0b840d820fc0c6f268daf2776ade61,
  0x43680112273b5bad02474f1293eeab3f06a88969831a,
  0xcb60833ee8f9943246d11e9c1ac30b444f07e1fbf692,
  0x2fa46c4b67f1caff8087269843fe456862de4e4c9685,
  0xd7f6039fa205dc0594c8bcaf6dacf0a794954a4cce22,
  0x751f9e95fce7232388bb5f5c156a7c7cbd9ac88c3642,
  0xc1239afbff97a3fbb01b6e61b5b5bfb6975ecb1b4a5a,
  0x63176e7a48bfab00ca99433375434046d57cc6672713,
  0x2d3f4668ec01e25223f93115b7b3a925031a449c8e96,
  0x90502a8e23cfa9f4424ce85a1cc5cc5a0b680345f26d,
  0x235c2bc963f3819bd7530ce3a067a82583ffd64f5d05,
  0x4834d6fea38a0a2d43f1be3e665df32c566dae5df57c,
  0x5219b5d31a16e9ffe88508ff2ee34f7daaae21db05bd,
  0x8cce6d2032b7849e4f45b66bdf9070cec873434c270,
  0xa2ec48e162e99f48970ae27374149852c5dd1be8fff4,
  0xe540cb6762c78e677e707e11bedc561f8389849f2007,
  0x36e4f5ec13dba709bbb715d03b44ac70f52d4dfa170c,
  0xe2a4add8eca08e4412873ef36ede0c7df1f7d10a150c,
  0x8e35f50930bcb5ed365a880d220e8711864dbf0c039e,
  0x8b1c48ea3f5867fd512a009eec363569d50f330cb0cc,
  0x5d0c2d817d67a644f12a0c3f9004c1357d90432ceeb9,
  0xb2f09dd69e4eb306600df6ceabd07b3a01773e086b57,
  0x5978c4ff2979452463a8a39ce7d20bbbc888748e99bc,
  0x7b4eaee6d8e7a29cd5a6888da9b34570f49d441e2159,
  0xa544dcffa61f0524e4537cfde090d7b6609e3181beb9,
  0xc660a24bf72fa68ad4de4c82bf694d0df8e16cf6935e,
  0xcfd59f224c3ed309819d65bb738b038f4b7a34010f2f,
  0x10cee5f169b2d1ae526c48f7960b290d79c569debd0f,
  0x9afd886b43b6c52e4eb7aa77158088062542276b617d,
  0x6e3610b7cf2feed16c414fb547d4eb071da67ed82f5f,
  0xa902a7c223965a7a783730a6d47900d0e8078dadca8f,
  0x225d35698ef1bbcc96aa68926840deb52489d442ed41,
  0xcda0d82c52fca8bf98ca5fa0aafae5a164a53207fa54,
  0xa7f26ba9dff757ac11207641fc43fd8f48f3a00c1e2b,
  0x585ec2c8c6222564fa3c479f906c91a3acfd214375b1,
  0xe5503954fb70903816dc3f9955b495986ed9bd118054,
  0x8f31a3a30bbaccdcde3e553aa6d111868018062c1d03,
  0xf176a903b6477239dd3a6ced1dd3000ecf8b539bea0,
  0x3cb063cab8470210d0d94a8477af624b79406cc75849,
  0x451a37896e73551747c2b9dde9afd464e0073fcb07aa,
  0x3237a7bc662ae054b73b8a59425b4ad4128f4a58981c,
  0x4507b7d3f209f251e6c9d81293516ae5fcffe81f6725,
  0x54c7b9000d563a4c13845f1c6cc8310d51b073b0ecef,
  0xc76e286e8b058c248818c8e5a69709b668520c822bff,
  0xc54a23012926f61fc6b21fed24fa969c2903b629b5c9,
  0xb85e216a6330c824af6e4019dde0c9884093ea709e5e,
  0xcff32b298160e07d59d4daaf7f85e98d13724b2c865e,
  0x7fd94d9ab2e1abad80d9bd22d9be1605bdfa781757e5,
  0x9827f11361fd9ca84705ec0ab61cd237824f1a846aa0,
  0xa2eb51c3c57c138381c5f8ee3877247022a78bb8cae5,
  0x7d3de757bacec8a1a591b54e8e29e84e772355e3ce04,
  0x99cc173c806b548ee82b2a194014ac6cb14fe05f11cd,
  0x5daf49f806f2be07eefc1d2edf4b54560aef3cb511d1,
  0x15f0ef90fc26ef41c720f65c5b42620d4bc6a1f6aa05,
  0xa5cef33c57cb0329e4d39f86039cb16f2f143a1034b7,
  0x32f7c2f8f6a731ab2030dbbbbdbb46fa245fc74ec182,
  0xf81cad270e64589ba563f523821cefe328d06442476,
  0xa5b0e81d4766fc90cafb5e4381c5a697e97ad5e2c840,
  0x93e6bbfb24267cd93fef9904fb96f409531b072aacac,
  0xcbf8c13099a725dd5de5c7cd3cf5cf833275847a7e86,
  0xd344ab15bffb0ce428b6c378e2480d6e5f1def07f280,
  0x38e75d0110f9ba072f2f4331cce2df8d94ebd93383c0,
  0xd6ca903a5381cf21a1b036e94aeda348848e0dc5fa8,
  0x5a930678e9d3a8b4cbea5f61f50948f64760de91f825,
  0x142db9328ea7e17dd63347581e898455d2be8cf71137,
  0x651291e1f26319a020f99a068cb80754fcab55f2e1a0,
  0x2c0cc61e76a1bbbc499c91745f11e89bcd0581f7b4b7,
  0x40f9d35ee8c9be7233c4bf593e0743b6f23c91d86320,
  0x7ab2143eb8ad8211833c894b646ae1426e4c904dd0dc,
  0x103a0708bd187a1109f2e37efe4c246ce9aab30fb8fe,
  0xaec5fc53f5ca74b880548ae552629ed603ddfd008b5e,
  0x3fc2a17a81e5313c86f9d33db3eb78d4f7581b194fd9,
  0x282f5f4a9a7d5169c61f3974565321688e5ef50f7136,
  0xfc9b377a114aca248261c49479ca6ad970c94d2629,
  0xd3adac0c77f48559cd38c8c3c5000a38ae13aaf0142e,
  0xc98ebaf7dabea514983be94815d938f985175213776b,
  0xd09fc8253944335cf4ce40c7eb7f21d6836a7a369f55]

/-- Bits of the order minus one after the leading one. -/
def bs4 : List Bool := [false, false, false, true, true, true, false, false, false, true, true, true, true, true, false, false, false, false, true, true, false, false, false, true, false, false, false, true, false, false, true, false, false, false, false, true, false, true, true, false, true, false, false, false, true, false, true, true, false, true, false, false, false, false, false, false, false, false, true, true, true, true, false, true, true, false, false, false, false, false, false, true, false, false, false, false, false, false, true, true, true, false, true, true, true, false, true, true, false]

theorem p4 : Nat.Prime 86909545432951948487541309421245018191036973307298749 :=
  Ecpp.prime_of_check (a := 0) (b := 1)
    (x0 := 1166811315464784864035634015357880695268236009401606)
    (y0 := 56335203972143247234218337779212391053803919959516777) (bs := bs4) (ws := ws4)
    (w0 := 32320006178576681585138303356684456024706246938784296) p5 (by decide +kernel) (by decide +kernel) (by decide +kernel)

/-- Inverses used by the chain. -/
def ws3 : List Nat := [
  0x1d4186ca798a8aba94cc50bb21657942a3c5ce2cd2f678ce95,
  0x39943695c4ab07825708b152171cab27e6086b39043da7903,
  0x28a95c53d2f581a292c2151fcf0f13558831ddaf39c5fc0673,
  0x1a69bc86667b0bc5441ad77d17449b68ec58381d3906a5d602,
  0xa5935717d9c185c7424f21b54adf7425608da52084bc84a36,
  0x10d3526c49cf58ab5d9fa53425d0d08a89a2a2e1efb20f536c,
  0x1b4fe59c7c194696236788731176c047d9535a46b8b00f7c40,
  0x24a1a02f772c8c9e4785c139a10d4fd39a0fe3cfc10ce12361,
  0x1c214b2800a6b4a130423e84a5b23f63c8a669af5b63331c2c,
  0xbb3a9c9d34b5ec8170b266dcac3c50aca09d8a4a7e41e45,
  0x105fe0ade5f5fd8f719803ec075d98eca03197d08719137cf0,
  0x256e724722426281602fd463c99670dfdde9d99a73ab32bad9,
  0x6be9ddd61f6e740e3b851376c10e45109c94c7ba6a2d58e3e,
  0x1a6d4b5a26bccca632faf72090798f808dbeb7de007dcbcd99,
  0x1a61dc569bad37fef41b63d9f58b896ae7f94479528cf20c,
  0x1bfcea7959ccca555e636cc719fe62b4c059c03a5033d4bf98,
  0x2a222a107385a89ef99a0ef5b9ab98deff1f918cb09d80cf6e,
  0x209fc3fe4b6e2258dfe84733d23d489f9e1fe7c95077ef5b89,
  0x1b7f228ba9b5296b99d8a15b12089745c3e09253e4090bb1b8,
  0x20bae54e88191abfd687597478e62e58ae39c4e156a0ff33c9,
  0x20d8cba33f4b78e5503f80cf5701c15a662af423d00676c398,
  0x136d65c4792611c425f3c4a43fc723d35f369953a3d052bf76,
  0x54cf8eca3e39c00d20488a221749a11c14c8d6dbe4e5b628a,
  0x1e795b9e7bdd0b3e9071bbf7539be1786e447ac60a828124bf,
  0x60a4fd47d53fe152ee18126b26a97d8daa1f72d781788549d,
  0xdcdd578d76344a983c2f80de06a32e6299f4a7f0bc24e8a1b,
  0x243f6fbee7ba8b875618d37a5f82e36e090d4c672e5c31c9c8,
  0x64a0ebed0566d933d2e13012fb916576f5004cc107dc16654,
  0x2c1c72ace08ffe1eb687d45d77b1c7714f6c16298649090fef,
  0x27836202272b5cd66fc0e1e3ed545851d5c17584b64711a467,
  0x932057dc722b836af001e927eb5710ebf97584f63df4f6b64,
  0x2bf28150c07f7da4764ae36b0cd8a79c0b06435f8441a9b32,
  0x1a1e79a7fabd94040767477d34fd842fb132328f40ef1f489e,
  0x3f21a04ccbef9a515e5789afc13528860225d847b906033c6,
  0x15618fdf9c4b5d6caa23087b61d28ccd57161caeb0967617d1,
  0x1af6030b54e3fc227930aa80e15b36b61773e8e60f97b28037,
  0x1f2e0eef07b18d628ec3b8d6cb93fd6ca24cec70b311db0864,
  0x239d6d51fde1b34d6c7b086b29c9f172f622dd7aec5499124d,
  0x13e0f5d717850f1cc635e8bb9546c6e8b5c614b4221ff8013b,
  0x13128e34726f0e6f5f7d44b77313ccdf13fa64387385625c20,
  0x23bd2c352fdb2b14818a9c5e5d2466b398d8c9df8094c7bb23,
  0x21f75d89dcba1a807fafec62c7cf9bc6c03c5b3d0be08a4987,
  0x7ff13caf6c234858333e5c2135876f4ed2b9368277105cb03,
  0x13edcc844f6e368c069ee01576fdd007f07725864a4676a627,
  0x2aec97f44ff17587d17ffec31dbbfc32aa1538435a5043e361,
  0xaffb24fa4169a2f85ad33b0e20920c291ff529160ee0ba881,
  0x1fa4e2d59be2805656e070c753dc7438360c922055403021c4,
  0x13b8b9d2526c59ea5376b625ca1ec60478c55c836cdebdb63b,
  0x10f6d6fcc4c5dc7bc44aa54be493f530fac5ca70d9c03b676d,
  0x19b79397348ac1633a13a3e718765f88831b9437bd58e9907d,
  0xa5956d848ff62a9eb87c8dcd2a299f416fd03a0255a51f7dd,
  0x17611aeac9b2b54db6b47f92db8ad4a76efe7e13a33cc5ab3d,
  0x319488098c7ff9ebd2ae91e280bac935fdce1e4fb59f0b0c,
  0x18f75a230349227f66e79848be2791e564e347967a27e95ddd,
  0x21ffed1aead356a3dbdbbad0ab4bf04ccd194aad98b7574878,
  0x2c49fb0cf4bf87d91af76fde580d54dec0a64e245b022b1c43,
  0x1ff88f7a87279518a9005d0219421e2eaa47f568911c46acda,
  0x5bd4260d685602333d6043332bbd1147cf0bdd423b2071a86,
  0x681bd5bd86f048b8fbd9978a8a8966b4ff2344b5451150ce1,
  0x137e9dc03e21f97b9ab0ef055c398c1cda13b8ae47d992071e,
  0x2aca59c81f09e9fa176adc8f10b6bae668e60ac95ff63ec438,
  0x20b468f62e7da1fc4fae7bcfbdfaa81ed7647c3f585d77f38d,
  0xda37538fb5c6cce173a2d57da3fc0194bcc389444ec44a982,
  0x10fdd2e1010dbe8062110864519e0bc42870eb6648221ef27c,
  0xa16b160e40ce49054b199c689d1dde9fb8da6719429c7b785,
  0x8a1e9f325521e5b3d68220133dd1912aa48d3f566386ff9e3,
  0x25568030b9fb07e3714415941727cbb87df13a90ec4adc2b14,
  0x13124f697508e4e4a23eb2dcfb898599be982138a01bcc1c38,
  0x11618d30e59e994a6907470805b727f407024ce0350633dbf0,
  0x15618f0e68c6e92ea1fe9d50ae675827757886838527b695b,
  0x70eefd2065648f058b38514d40a111ef693e5fe085e367450,
  0x123dff779c32b0c9b339897d4066e57256593aaff941b5a0ee,
  0x7e4a2ea11f260186c9cf3533c8736bd84f90328f5741defcc,
  0x8f1dd844eff241009156a3af8c7daa74ebe24f587415f37d9,
  0x24725185fb33701bdf6193e483af32e28739e313f21e7e77f7,
  0x1fdbeb34032783a67ed5d71f10d97874852e0bd9f7221314b6,
  0x1d3f351e59f0222fab1268c3e5f21ff6726d4a781a7f15e195,
  0x180e6f416307c8cd335d43a83bb94b18880468158a62a4911,
  0x2264a7b7ad6549ade473453ed411b7eb0e8e12c995da993f5a,
  0x277c6af82414d1ce941831f2b005dc9ebaf646bd7e5a0f91ea,
  0x8648a6a91f8c93d47b522609e8458d06d423db485897c81a2,
  0x1dd36ed9941e239b9af9bb39aa458ca1e61f26dbb0030d2601,
  0x71dcbed8026d917519a21a890f78122790dc8142e53dce2f6,
  0x18e006689d6e7fada6a3d902a6caeecd2edd88cc3e98348fd6,
  0x1889d06f04e7848329c01e9367474e6d2c453fa4eccbf3ead5,
  0xc975a50f02c3088a61dae2dc988f8b8d1730456fc7277fe49,
  0x62df3d097bc2912a4f6a2e8195998ac85b221a8917dcf0c3d,
  0x1d2807376b0a5b636f4bc83623d337705118085a98afa508b2,
  0x1c1f29965c514c68011f3de655f5c0837aa8ee20ff04ed689a,
  0x2426e189fc16b041c46ef08ae1d52dc1ad809df8e3eb8cc096,
  0x1153519a642fb87587a72d672cbf21d8be0bda36fe5520a1f2,
  0xcd5c97ee2e52cd218be656c031838a45d6cd5470cad743f6,
  0x22675045807a3cbba29c92a73e0ab69566ac98a2607e1c3fb3,
  0x231a947cfd5ccdcc8e1de42d92672f8fc3e4e7091579028bf9,
  0x2518f328485572428d40b71ccd54226c2325b386f28c6e1b55,
  0x2beddf1f1dfd764f67bc38ee9395b602dcd7949854318ff75f,
  0x86d409f60cab08322a30119a646a54f70b3e4bb676394ad05,
  0x1242a3d011ba0f19fe57d304fe8febbb7040fd0772cf11918d,
  0xbeb3759eaff73b212f909ba6bd0e4a0e41e7f1fe9bec43edc,
  0x4e9c62c79eab327df56117cea033c3b0e53d606c6bbfe86da,
  0x13bff6a5bbd79d074bfe37b2d91b73aa8a94d476876647537,
  0x155cae986b0d693342e36e8cd35a586c817235b261cd770345,
  0x11d862037224a30044732948f725957faeb7242a0f7ac38938,
  0x1340e1b54c08c8b7581b5dc32e8aef7ad210955babab8b382b,
  0x140658dbdcba6a087ddc98c7a1af7012c63cd315dffbfb6d1c,
  0xd4661758ef3421f5b8aede9fa2c06ff31e11c9388ee74d0a0,
  0x1d9221cf52201e9d8dc974e2113697f9735a189df7bacb6390,
  0x1acd595b2b5002ea4d3ed461a2371e9348250598aa18c38387,
  0x28a7dbc3c765192c3969f7fdd42a7225a93ea6e42a21c50a25,
  0x26febcef80c533d1a3462eba31f1e50d23a5fe9f8623ab52c7,
  0x35a639203d5cf4320d1d3f4892601190cf6db04c9489b2fa3,
  0x205503cc087c392e891c9b77beb43a0672e2b5d3d703834877,
  0xaf2948069f862611c8ec26a346798221e22a70fe1c8d0e11c,
  0x1a7e1431acceaf55b8fb9c58d1f5efe201ec34fcec4656ea2c,
  0x11aad45ca72910be472eb4a89c57be7f3699d1d09b2917e78b,
  0x5eea6eeba4d7746b9f855d184a530fc650e2282aaeea7a6dc,
  0x2037fdd2a18b207d0a6db9a05d4d0c823ca63ef245597bed59,
  0xc92d750cf0f7db3e9023083387ce260631ece86f950511919,
  0xdc5f296f835aeeffdf06ebc0623336e53c5f44ed2c856249d,
  0x1710c4ad43d3df5e02387606dc1692c684ae631cbcccccf236,
  0x20ce9515fc64528d3583269591c66a6ceaf5c332df5248c653,
  0x1ecac8c45090ad4fc21759aa374e01946302bd31cf1ff2a1c8,
  0x9a9719ed91226d6ffa26a50f14f0b4049ecff80f5e9ac3c68,
  0x1b5f53e9be595f8a632a091ff721f9d397d6caf97c5f03d88,
  0x16f24d574160f597173a8bac72c9b635a818afff4a26d0f8a5,
  0x135c26aad2abef7040dfc3435b61d09a9a1faebaffcd6334f4,
  0x1fe345155609656c30642947ef224ac92a10882aa86a75c3,
  0x10aebcf3da78e520dd81eb49821b9ed9cab5552f94b2b6f72b,
  0x13a91d5405c49ab4171c5d49e343e961f623f1b368d0a714c9,
  0x1fbd6345fba85604b8254542161d00c45a012e9a76d11558dd,
  0x1807a033a216329613d57f0c1ea28476be553542da5dba02bd,
  0x6628b14ffbca0c680bd7206979b0d05f818dd97d132a26cf9,
  0x150ae3b7d49577c14297b320ebd3feb2d30cc7b6d33f917cc7,
  0x2a78bc4fa0e3d479076624e488ef2700443e6e07ff976b38a4,
  0x14deaa87e1ec475b33669eb88e3a163e91264b3effe550990d,
  0x20f25554afa64bd81731d8a8f851d6a0d8ea3e980ebdae3d8d,
  0x26fee9212a422d0c23243107a5ea8cb43c70c4a2c0ab0b25ef,
  0x23c4b1e7aef87784a150d82534c7b4ed21794a937455dede4b,
  0x1f5e61b54043c16e4cf5042395402159f49b78eea95bb3f96e,
  0x1ff0dbfa596cd1d1e255b79a76cf5853765b1323fde5c6e0e,
  0x1b0d9668bc5093ae0868f805da32d50a29583bda71ea07da44,
  0x1ac484aefffd14430e27c678a7954df26ee552dcdbfee8e930,
  0xa3563027cd4e5f1ee5a7004e3d626988c69b7ebafa63632e5,
  0x13f82ce8e636e6351fce6fa25105dcf322a6260374a14ad1e3,
  0x22b8057e3df3ba06b4503ae1d08f2a320397d1cef3e68e222a,
  0x13780b90192bf7053993d31c44d9ab2eddf82f1a4d19896932,
  0xc31c8bcc142666d8b826ebe832d039c7c038782d3bdbcf32e,
  0x2afa4cd6fb5bb57bde1d03cc6d59ff108ea90e8e9831e93519,
  0x1f9a3114d43ee2e35d72ca22a10b52d664d3b0fcbeff002166,
  0x673ca3c5317c1613b6dba4ebef014712007d92690c05875e5,
  0xe87f1c383a9e3578b4414d5e858a7b3d8f54a9764dbb285bb,
  0x203f7eed27ce15458e75f9e9c96b11a2d94bf5d91e7bf2b6a4,
  0xdb89b69731e161d008eb28c4d8a6aed653b514c9b9af8720f,
  0x2b996a57389441c6ccc45e90101bd3c2b0c160353f58f83045,
  0x19948e05df6265553ba1f030aa2e052775df66c757346e3bb8,
  0x251db20094d21faaeab0350abf86fc33cd1c28ec26d661e371,
  0x116ad5715a3c30431e4cf0b0932a88a10b4020cde84c582926,
  0x27f83c0d3bcebc8e4c6da21c52052f96f6a4d2578bf977f5c0,
  0x192ef726042f2914734dfb91b93cad20d87441be98950be1d5,
  0x112a3d78e99f82973deff65317b08df5687ac2461dc05b277,
  0x44a86aae7e9f9c08cccf7a1e5045a75b59c6ca9d1902b45ec,
  0x279e0152291541db7262a2ab2a550708debab15bbe91f6d54b,
  0x31cbd821d86514b49e05c1e59b989c282fb5a51c1bd09b606,
  0x8bb924903820a0f87b5473fa90b369efd63907e3f56a69481,
  0x363be510ea54e49c240f9922f798001e8c41e1a303e7aeab4,
  0x15307817c6d022b8e407298b6ab7ab339c6fa72e2c59fb8811,
  0x2a2be56da39319a0c2f8077c37bd59106242796eda6e32815a,
  0x1cef71f87fe559d9b459e383adcf478251954cf040805eabde,
  0x161271ea7fc2739be510830f062d8d4b8ff065e317d3207a64,
  0xac3fb195c96768f522f7b076753437f78ca3cb69a365c753e,
  0x258eb6453e3f229c0e41f697a7e8e201983c92d4ba9d3f9954,
  0x2acef9509d166958cd0fb089e4efd66f6692437fdfcbbf7dc,
  0x255e2de8e759f713e5e1ba0bf8f1a7a367b5a5e4f03b6b6c8d,
  0xb8b0538442887af8d73cd5773d7b61a06b094bce87f2f4b83,
  0x13b7314d6b4dc55bbf8880e92b74192110328e568369b46633,
  0x263a6db3c7f1d0a21fe0c6d2fb92dbefbe7604151427c5a64d,
  0x18bb9046c18dfb23bfeeb9ff4c7ac256c7a26758cc67e9eb96,
  0x69ab7f71c78765071e1a926336ca14dcad43d18a62e877dea,
  0x4245b9ca771ebfdc955cace875a3d9264934b8c5af58b33aa,
  0x1e38a55e7c80fdae3dbeb7206dfd7a5696168a900a84716926,
  0x11ab0a3619415160d6560ee1af751652b07ced8549d227eabe,
  0x279f2c719af9f2791f8b35a691fb399d31a272913e59ae7938,
  0x213a9b64c632ad4bb0621cb756be568bd5c957dc2a2ba765d5,
  0x9dc26ba448c7ca2a91931352c4d135207adb6deb35dcf6a45,
  0x17d46ec1d2af3c1e07fd093afecff83b1735c37e67831f6557,
  0x1f975352fcc6cf90f182a8f22a533a03bf60e06434d260015f,
  0x6dcf44b5ab36ddb14f41cf722d0c4675f523237962c3d3a4b,
  0x485296f37a79170abcc17b54037cd2b7e5ba56830f3de66b3,
  0x6fcbd0a09621309bfbc3b2250f291541f8d73f99bb9a2051d,
  0x222f66478b9a03d5c4a49f7175ea2a6ee9c2bbaf90eaf8ee4c,
  0xb7f145b397487361c997e1cf7801073e11056c8764ca0805b,
  0x154d3aca0598532022d163fdff9a17dad5c3336a4c1a70081e,
  0x241c1338c349baf45d4b932f3dd35293a78457899697e0cece,
  0x1659e5afba55696cb6e06280e06ee8a172db5ecfd83a29b1dc,
  0x1215e51affe6eddc19d9d349d7da460370d9386be4f620aae0,
  0x1393f9805de186e98cfde8e8a4c5270f249254b3df26e7d898,
  0x23d79bfe4044238e26fbf06967aaf23c4a9d1a09ffbe74692a,
  0x1a4574c132c6069e59a34b2e3c556a98701c40719860dff5c1,
  0x59cc9596dfcbd6456177f3ffd985325cc0ef30501d937df04,
  0x187ec784d2f96544fd9e49e3b1d2b7924ee5a20ad18980b55b,
  0xc6c4ed744605dc6827160862a1e848b4b04e5574082b5e844,
  0x13652c1e5d891458fa20edd61002352351225c84e642e08cf1,
  0xb1ffc0b46253249761bf7fc681bdb850d05f9429bd676f74a,
  0x1f26dbdf0b469a5d38a2c87fbda703d21db6cc7651f66166ed,
  0x2959e84a3350a09a67f7ab9e59a4c684a9c652f98deb8e880b,
  0x11375a110a04c7766aab1d268be57c8a9ff81b4129028a542b,
  0x6975da1db9778c29931c51c22ff01cfed1cfb82b1c02719dc,
  0x23c886ebae64985cc8bc205b4568c445e0ab3a19f4720d21ea,
  0x2b21d7b252404b04712a64b062c2be88699be51c78ce754d50,
  0x17a593accd732f6b5bf6b0fa1c54aafd19a4f5ef9eb25f5ce9,
  0x14a131e09d7690a6dc839c44417f136b49a3522e88f8207ff7,
  0x1ccecbd792713492e59e21be6d6051f6b759ce1b92cc8609ee,
  0x2918e4281329cb9816c9f80a32f667e63c2c0120a35c6e2390,
  0xaa33fc7053b8da0d895acfff7ea1131acbbfa5985d5979552,
  0x16148cfb4ddb7f6b728dfb84720e7c716440af8cbedf51d694,
  0x2993fa299ff11fb273117f29495e15d97ef1bd5cca544310e,
  0x1559492b5a6455c0d72e5ca86c5a2c5d3194b863e30cd3c88d,
  0x11ec9a3466718e67f155706f8acebdff3d792bbfa773b3bf8a,
  0x28c47b831188496052d5c380ae899f482436a314b544c2fc21,
  0x249aa56fb9d9142e8ae986a5479ebe833c0bb7aca581c32613,
  0x178e22c10b296ecec4fb9752f735d006a3f7b903c1fb4386c4,
  0xbcb74ffe19504be7aff7d9ccb1ce56f0c18cf499346f5ac54,
  0x10d0f776e2f691f730a16344fb33ad6630f55fc937e27511eb,
  0x29fd9c506064d5bbc73be4e91dbed0e4d38fab9bbdd44780ec,
  0x1e770bd13b4a390e7c92021a69ede5f7663c6980151e6da7cc,
  0xdd0e29f3dfe4e9ec7f74b7ce39418cdd0abac5f730dae91d9,
  0x15a82e11c2b67adfb550fa2555702e9a63792f88078e74ce95,
  0x72394dde4782af200fafb051c192cf8e76267a9221236f854,
  0x34c3617a2d36ec06448055f0a2ee38081ae2bd66ee9cb0677,
  0x220d17f490c50f42e3d019d47514bda25c2294cd615998348d,
  0x399eaa57aaa72dad6f1529e8f95fa52a866c67967bf84125f,
  0xa2d09cf4b0e2bce0d4122b1c41e5ba4e98e79f16fbc3a6a69,
  0x1ba8d2ef324d6de70ebccb569f5548fae67f3dfa4a41a22cf8,
  0x1c6ad6b6331c30d167c91c4450eacac4c1b4cad202ae1f012a,
  0x1e973dc353a08e043bed8357d11f52deb063d39d6ca91cb5f8,
  0x8ddad68a533c5a1c464871838faeee12a8825ad2387cc8862,
  0x8eb2023be2766058cae6a2b9d2e144e9d94911a64a75f5cf9,
  0x258716f9506c2720ec4e63e2a0c72315fbd1f083752dc28882,
  0x5bdca174dd959cbf47df5b87d1c90c3cbba3cf56c5901225d,
  0x4724c9824fa4a6ef7b691cc0aace57969ced08579d36510a9,
  0x23081f6350b8e5ab4f82ca836f7d4a5ea8d3927a2163960644,
  0xf856152234a8ef543805fe56708268a0d23e26b58fa985012,
  0x1965add8bffcd456292fb33c132a1878291ff76b8a704bde03,
  0x329163466d8e8bf74a01a5107bdf4c72c7f5f55d49ca930f8,
  0x127176449f87ff90a09d7161096279f1633e05127138bfafb4,
  0x6f9c5777ddf4d11a2345858824bab115cacb5148a96f45c34,
  0x64473f36db68a4568f2beef4e343a449c5ba0ce214b35ed45,
  0x85298d6de8dde71dc7997d2c1a9e50cc1a6bb7d21e70e1dcb,
  0x12ce2c79005e47283dd17c4078d1da92c50828f8032ee0a432,
  0x2303408c0a913fcde5e7baec85b5c82c49b4b487cb0c3882df,
  0x1146f6ab8862d9b705fd130c7038867a38384b3d9ae2f6fe23,
  0x125f14c936c32d952e6631b244a40227ae69ee22a5741da248,
  0x1de4c5d555109e17e09f294d2c0f906720f73f0780ad4a59f3,
  0xee47adb3f4eac155ec24407702d5bf4aa1244abf14909f15d,
  0x27b3a08fd62f3a5a0b160d01e24ec6fc0fbd5b5a9ea612b6e4,
  0x97f67c2f8c13bdf62f162444a0d555f96cc63e3f1db5797a3,
  0xa1bfc0bbef791371ee631c17d6cc1b53760726fee8a3715b7,
  0x82478a8c74951767e88cdaafb26f7e2c438b50fc156a9b795,
  0x28b99bab830889e426f8a59c0f6431259d790de0db9cc62ba3,
  0x249dada8bb9bb156482e0a04c8ac16158f2c170f9b117652b5]

/-- Bits of the order minus one after the leading one. -/
def bs3 : List Bool := [true, true, false, true, false, false, false, false, true, false, false, true, false, false, true, true, true, true, false, true, true, false, false, true, false, false, true, false, false, false, true, true, false, false, true, true, true, false, false, true, false, false, true, false, false, true, true, true, true, true, false, false, false, false, true, true, true, false, false, true, false, true, false, true, true, true, true, true, false, false, true, false, true, false, false, true, false, false, true, false, false, true, true, true, true, true, false, false, false, false, false, false, false, true, false, false, true, false, false, true, true, false, true, true, false, true, false, false, false, true, true, true, false, true, true, false, true, false, false, true, true, false, false, true, false, false, true, false, true, false, true, true, false, true, true, false, false, true, true, true, false, true, false, false, true, false, true, false, true, true, false, false, false, false, true, true, false, true, false, true, false, false, false, false, false, true, true, true, false, true, true, true, true, false, false]

theorem p3 : Nat.Prime 278190154529062819144946777986636658135361578731725224567323 :=
  Ecpp.prime_of_check (a := 0) (b := 1)
    (x0 := 167399418337113890747892065588204712305073420875427925213618)
    (y0 := 17920798892279787152506311028075300813598105891094875268567) (bs := bs3) (ws := ws3)
    (w0 := 183642656093674320638539926971594775740153998756140004462229) p4 (by decide +kernel) (by decide +kernel) (by decide +kernel)

/-- Inverses used by the chain. -/
def ws2 : List Nat := [
  0x200c5c034d3eac936dd4e2f75969572dc487edfda056d0e9182d65334c9124038d561,
  0x221f22dd8d153bf136151cad5cfdb84f563cc78772dac0b2a85b6f3f7e69e0bd4873,
  0x130e4ee3d4e09135e2f4692c5709c2ee6ac398c767c8a849f39d7ffdec58a641fab2,
  0x127ec0d5c402a55bbf752a0f0c4944ecdafa35831baac36bfda3ce2f7724838b1f503,
  0xe86478e4378bcd384f013950b806a78309c1e0c0e63e23fe20afedb8e55b88425e23,
  0x1f9891778da3560e7acd010cd4d693da2b6068fa81aa6e039148420af685f105380d8,
  0x11777e715c4c226b4356af792355d4b2ae818f808360238c5c934fa0fff6d55c0443,
  0x1e978a69f6845fd0b025199431f1bfde82ea7ca21e539f38ff8b77bbd9785213577a1,
  0x1c443efacab64e6577ae0b756d3fae3e96664ddd51af65c2c197c45488b88dc078780,
  0x1aa0d7030b9cf974bcaa7a15284436cb683ba4daa6fc5fa3e36ba755935aeb868185b,
  0x10982335c362af892b198d45d2b0a70506a44e5898dda4d124bbcb63b73500f8821e6,
  0xc408686c40dfc04197cf5097b40f5f0a89b7fe56907a51219438813b11ca9b9f4403,
  0x19d810895126ee9712a5002c9eaf1d1ac9d52c0014e2736f85271e386f2e0b0f452d2,
  0x13d457f409d2731e4c00884cab1583fc8d55c5353e6eaa18d173d5d365a167a752317,
  0x10a63c341a0e5fd38d97d959f7a8a79ccc05d906e821263300fb5d594208e55e24a18,
  0xb9787b6155576644751e93d5b94f2976067048824dd178351b0220637897857a87b5,
  0x1949532a56111bf1e9bb71ed438591c73a43b6c08d67d1bdc4dad3e53d5389ef72a63,
  0x14076b00c5ee5450e0005651dc651e4f1c16dd533addacd1afcae2c4d868f239f2b63,
  0xbf9c00c5ab978a485e44839cc979c916b97da8876af54ca6175e93b511ebba9d7a9d,
  0x17348c6920e33f577fd46c9332da17c81ce5d54ba58ceaa076ead6a31dd9115c1711b,
  0x654fd19ae1a15920a9620c20ad1fcfee2222dd295f32e828a687ce6cc36546df4741,
  0x3d0f8ba66fbf19b4124a8748704c361a203e8dc38360284827095db713dcc0cc72ba,
  0xa3062985a100c771f1f29ff8d9568a5aee678cb1361433d186a049559ac727846087,
  0x1ec3d7516e72fe73bcf0db3e69a64d7227bce2430f4e20aabd8e5a97cd391994274c1,
  0x12b96594a55fff6d7c45e5f9e635eb1b34a6e5d6469570f1f1467baca17564a45cce4,
  0x1153f8ae2980ed7df64e9273a6fa703b9e5b311f8d7261184f3f3d2011ed9b4a42026,
  0x1537a69146c22f85aa618612099f9cc33d93aa27a049975b0ef2b7a21e6a874b243cf,
  0x10500a01f01b1c4a920453ec4831e39934abef0dcb97b7f2629729cc9945741129807,
  0x1e5b84a5fc8a501a131d02d9d38517f82c602f437308ba65c306e869bbcbb5081fdb4,
  0x680b0cdab76f95cdcccc64eaa3c1a96d39d665613f11a7dd92fa8ebbc8cd0a17e4be,
  0x30a0ff7cd370b41d0190c910ac30669b8153b9631795bdea3957a55c6c05c9831aca,
  0x2946a9a7d32c424650cf3c218c115e5e7acf387d247e00d818825469a9630fbfff2,
  0x1fb9f3a4a21872cb204deb00ce3e2d3b3f25780a38c0602457547a28170ecaca4b675,
  0x17060de3393da85553c9fcb1c0df5d9008c953597acedb919f3f21d828724d3993ea8,
  0x722d5d408441f28457c96fc3cb88a6866bc55c1df32c75e3f2c98022cb03a5d75493,
  0xa3654476feae34264afad23195afe5e33c3089ffa8b29078c315ecf515c786d41a23,
  0x1dafc05ce560e23493f3ba071a6f289540e33aa4d73fc47a8f4c0bca5bafb649a7db0,
  0xb790b5e0715ab689a526c1174e4728af6d9c1041d8cbb4ee059cc238231b94f93672,
  0xa6c2f1c39984c27b973d94025bb0f16e71292b5b58e91e55ba956eefda94433ea32d,
  0x14ee0f21054f1140a6b1f8a7ddb25bbaec55c8c62da3c82d2398ace0edc9f254c4853,
  0x1e2343d684c45875783e9f7c6d355557ef3ca20b3a2d8a5db0a891c902f14f0f38a06,
  0x1cadf0a5aae27883783c9a464bf7ab29faee123400bd40260aa63c5f70dfda0fa8d5f,
  0x3607ded493e27477fbae4216b244658d676ed5d30908f2ff82898c28f0bdff1b4846,
  0x19d032266478cd7d8ade8fc0b75abc1b9d3a9505acacd1ed826ecbcd0a77266e3779d,
  0x14a6e51097a73cf789bd79d91403c71fa3f4b6db9cd77c69830b73eaf8c48dbcae35d,
  0x3ae3126afc7423c77a972d53c78173a1904c51e26a838bb7ae50d41443940a299555,
  0x2032ed215abcd2d67aecb502125f5384517783d4d62f14b09ef9bf5c89dd243c79163,
  0x22e0adc6a9bfad3a1b5ea35f673bcc08c804251f077da3ef2301cfb9d9efbe06c3a2a,
  0x6a702e389e423718f20cf58e558cb7ba1aa866457e64b25543de06619cf294b745af,
  0x41ce68ca4cc1da1372637a5f915ef48e4569d5c3253944a32694421f613f71a4d439,
  0x12d15149754aad924da2b51f4eb92ce2719dc50e1850718013a2654e42d38156db8f3,
  0x154bd0b959443edc9ed105c7ce9d6c9dac2f6ab368149f2085e4fd007aa9d75c1fe57,
  0x1c4f00916fd8b30a54ed763667d6e1638f398ad744e2cf390e4867bb6aaf6ca4b3b2c,
  0xbfde7c7b8831bdc1bf2b36f65a36026bddbb0f01bde08c7d6c2ab994fcda54501bc8,
  0x3b3580c3426b37bdb9e0efe03c7907aca86b7b40fa5c6a466fcd21256604d24223b6,
  0x1e54461363ebdfb8036c66625069de8d5d3f17a0376cfd90b39b5fa566a2ab7830325,
  0x4abcc617b96cd9491f5ef70f6b78f58a7dd12d9a8f322f376ef0678dbf3e9cc4e416,
  0x1343fe37b00f4bc817949e0d28c7f7d256e218d6420b6c0c25591415eb260e5a6a744,
  0x3ff87509c39676859fea2a141c2f95d9354a065cb4bfbb85971a7ca2d47f19615772,
  0x9ba3c3cd447af8ae88da64a46c91f9b925ee9f89ea3a6b210263e48b086888c8944a,
  0x19b86071cfe4fe26381a5f1271128c8405c810eee6da6c3adbc0f969ecddecb393b48,
  0x668ca42708e139604c2b449f70da777102c7e1b72359a384f59300ec0e4595a1f952,
  0x67b7a944501494e86dbd9e3d700fe563d05d67599a2a1e8516752c51f9e7bb70ab33,
  0x1b1791f74a43010e9721671beb7504cbde39c425cd63638fba3b3632dedd06929dc94,
  0x1730650a79d9973d7a29991fb6e3026c4d2a6ffa6d477f10ef7142befd97e675d6c56,
  0x120142ba335e73d750e4681ba7d494f0e28ecd86facc11e9bff0ea92af3bf0c2d89bf,
  0x19d0b64ba550fbc7e4aeeb6e1fd5502207f371fdae19c336847cd9525f3881eea6c46,
  0x1ca68f0e70cc3b9bfdec639c56afaec394ecf4648e65658a2e07bdf8c6438bb744397,
  0x199fd687970ea7232de09e2e971e99c5a3a2d70421057aae6d7c57e10bf503eaf010c,
  0x1f9c54b40858e236705b7ba02329c7da39a98c05e696b26f52bb6b6f06531e2221181,
  0x1f16b779c3421919d3c662f695f1ab33aa10651cd59a9aeff757fb7afa3c33c69526e,
  0x555a5c47e0507dea8889eb4c618f4788a7279fb3ac9932789953b72c01bcd6bdf154,
  0x59220a455d7ca2fdacccc9b3c0501a8b0e70f4f936d7333866baa41158bbae82a3d9,
  0x99e453119e2fce099c7de7d78cc43d68afc6825cd301b7e3c74f44de6ecdcb07b91d,
  0x195680fa73beb7fd9c2dc096e404a21dd4c468b784f1e09f0580f0bd853ce7fd76009,
  0x97502fd1a75570fb03b4198c04a8d1a7039d13f925cb90f6bb3426c817c0aec4ac94,
  0x102b27be697de893a3d507acb742a21c9703264fdb3e4fd251576b7d57d8e3325a06e,
  0x20beaa652651f589a4aa08929dc9e693651ca19f5e7e21b3c2e0fcf2836f1d8b2242,
  0xa8e59fc649608f8f30a543b6411c78d2e7419b73dbdb0d99b9438bbb25a03a391c4c,
  0xdb29cd417135f6ebf907f2ae501e588cb3ac3d3d2a9e4cd10744e2fa26446ce65a07,
  0x8cc50c199ff8697474f0a7d08157762c77e7059c116a1cce42f723a87606b0a79d9a,
  0x164dd4e92c6b054220872dd2a1074d18dc8b34026f39f6bde9b47ec52179ea48a4032,
  0x19884e87f2ba5a4782b07810d57f5b7f3f1dc7748315946495642fcfac5718a900417,
  0x44385ccec08cb60c3097ee6cce6fdac52c412cba3f69704a18d42176456c70c304bd,
  0x14fcc9a06cc0dc991414d383bad742e4e449d1542a491c79c89555d4dcda82c4b1062,
  0x17e3f05ef030b545f19a927d80b0b46c1bf24bf9589562776c04cef5799e0191b1f9d,
  0x11f4d7437f6db9e53248a73f7b4bb5d7151ac5980cfcda27935c8d610e497f1f7f505,
  0x7932bd94a624f3cda2372df3a19202212493ad2a5b559b28317b5672596fbe4926eb,
  0x214a68615f4c08e2e532f3826f74d05f82d5cac014498df25b154eb5eee1c548f00c7,
  0x19c0ac9ac4d64b2f784b3156e08ab255cbd55ed22271ed2568e3f39b34eb9249c2f37,
  0xa9b1c5721005014f89073fb5348689ca21201a723dac289d6810a5c4b513006642ab,
  0x1d14809f5d8ae883ecc8e13300ed3b6973ab95fcfb19c5908b6d37fd537e1e40bf5b7,
  0x15e4deaedaef88212381ec1c0a486482a0144d2f65db37a0610c417822eb7af4d2c41,
  0xd50dd89cdc6f9edc65890b079b33cd4b2723fc448fca28631bd993aaa4df60cccbc5,
  0x661f9def704cb40b79125bbd01d21cc0119f5252b3d5a4a6698d2e44828367c9ed40,
  0xc9c3d8240db4b8f00e09c127a7544f444b7057a7c2755a627574528d3d25b890bb48,
  0xf357d21dc916fb5d659d07a2b6d32c8fb54d0814eaf697a1eb4aed5ca715806de920,
  0x8d21f3ea060740ab51d70e962ab2033c84cfa26ca8850d249cd9f3a106c29fc34de8,
  0x1630da082fec4f6e6d58e65918aa8939d7568230a2595930782ca7a5281817c491e8f,
  0x215a29f970360da3dfae1ec6dd1886090c37307faedde35e23626dbb1ecd1ff57fa90,
  0x1a85c801d443f508fbd437404d07ab77152523e4271c59ee54808911dcd42bcae58a8,
  0x5ae5d48db732b96c1dea2b81b021fd19724839cd9d593fb7310069f46b55b8bdde77,
  0x9638b3993dcc9b2a272d09f7ae2d6a462ad05e539c475bc237f9f0ec69b10cba5442,
  0x9e40d2b3e99828c5a0ace5b3b7a4d1ef627695c1e55a8d73b9119590befed5e71dd1,
  0x2c3f099342c6ca79ef4fd017511ed4d2f6a499c7a6c8efaff56b39ea91e8696ce089,
  0xad988ae4beed53330db70ba82cb7aeac376fcf14cd246a1783dfee0fc958716e0896,
  0x9cb59e7ca91fb078cf396e1db8743c43b0c65860320e41cf098db5823e33680d1325,
  0xabceba69a9e76fe5971822f186209f3d5a90c13ad67fa042c04fdec18836b8fdd50,
  0x1267dbc5784f3381c4e6d50115952c98ce89568cdb12382dd261923a6083929889173,
  0xeecdca6187e537cef6c3aa1a95b3a09879ead5420dbdad224dff701f5d795e78a284,
  0x181a548c4cf25ad01b027a6ae77e4c0998d0cc8e58947ffa9c19caf54f1d07e5493c2,
  0xb4349df91c7d0382997ddc908e065ea55cf1c8c6ba4b7b6c2dbab658e96613e94b58,
  0x17044775d9b3ee7e6245215f3379d130387b2261af4cbfcf67b0c08f4077531bf0f04,
  0x1ea27513c579e08af3eb575c6482010c1c01c94ab3ae854ff036396c8883a5374dae1,
  0x2b5fee1046dc1b815499e869c088f4a7f473fdbcf5b505d7975ec16bede2a4893802,
  0x22ef6547626a822393ee8ada07e430dac820ed666bacd2c3e6db77ad2a59a4e4b084f,
  0x1d7429a7a09f680856647f487eeefb452e443af615060c2a8ecc9eb0346beedc0bd76,
  0xb393847667490d62692b9717c0f0a3aa4477cd9d440834fe6b887aa12a96a74426fc,
  0x1dd9412841073ebf8030425a548d94367f4387cae878bf0c5f39c788a10e92f64f463,
  0x1ab900c9c63b79d828380d05027910ac5f37512413ae82730eae7cb2adb571093868a,
  0x859cebeed31e9471e5023473e0b2a5e408dfd9240d520985b8430015b82980edb19d,
  0x1cee815c1beffc1f292cdc383883711b4bf5d1268b5bcd636a7ce1b2e169c1306c28,
  0x20f97977952c76c4ad47d555e20a0592606d87fc772637478cb9eb065fe5db1b8ca47,
  0x137ade0910499bbd62ee637e6f2bea83d86cfefb4ffe4e7cb3be77b24dc2fe5cb131a,
  0xd0944ea883eeac2e7b22a8c873cc8e50afcc1ee011f9a205e32a373c0e630a6f1f21,
  0x1fbcd96614634294ace72025ceb358da5fdc4f55d29e4070a5449a4bbc9531f727d4c,
  0x222436f64ed81436ea04338a4ee62c59f4f6844873e2d93ac05adad18e44582cfed1d,
  0x1d55b2acdd4a50728623de43f868f1691a36052b79977b20f8283a77a2c9a7686a4b0,
  0x8274f588b2244f9ce343fc79ac0bad871de42577fc0fd475d7a6e28593a7360ee0cc,
  0x1e091ab7553539f60c2b10feccb91611c659f67f438af441ae3e8af7c0e27d59c6094,
  0x11c2b5b1fec8b4a5211d68a630ca003b40285a53a2435685b334b3e76151dd934674d,
  0xa0ab2f5d35232d6b9868505da389696cad34278e36c071be6d71f5cc2d296df97f46,
  0x7ce08d89d1ad99fde880d85db96f59c5fc78457c7a5c876c5778227e2365ad123772,
  0xb11d6e06503161d6aeaf35dfb8483b4097e66fbc5caba69e6698e72f5086c8598926,
  0x372418edf5029e93da2e83850c60d8649dc0e98347f7d7fac71d9d30d1f0a3e74027,
  0x7bd6994911380c0a9bbdcd0dc76a9a54cc62165dc1cb24365a0b1085f2edae96937d,
  0x388d28758e8a84ed66b53a0572bae87bf141de75ad3232b64ac85338c64f43d9c373,
  0x111076e4ff3cf561bb989eac95b0a186f964a903ac6dea009fda76f30d57164280993,
  0x682d46529ca548cd329d704fe3099348ebf021b2a619bd187658d997cc28fe4410c2,
  0x69aad214394d20574efd6faffa74c9769505681d8480681c16bda76c636dc7414e2d,
  0x3eb5bf7b81a401901920ca6d3ba34508f80e0c6efffecbea16dc2ddcec921c84ae53,
  0x183fb43feb0bec5feec9beb0774f05a01b7cfaae2799dd9bc33f18550ce6ffc2243df,
  0x14c842e0c4fcaae10719c15156085f2433a035c3ae4d6a599addaafeb60bf0fb2b18d,
  0xb65505bd5d21a9f8cbec17fdd58811be5d305eb0b4d3176fc6002b0f8d283fb4af87,
  0x12a25300bbe0969ce9673226cc5f2d90df7dc43c8b52c8737b60b7123d5211c56befd,
  0xa98aa157abe06252fa696e83022d246e900abb5c5fdb2337b631dfc3286a41393649,
  0x144d815b4f367bb7ca169365242cd6a9115f477d0a8c4589cb78c818dd1f48b881586,
  0x225109224c9a6a9072118da2af139134338c63b54e9cd6db7c3fc8910c91abce1880c,
  0x18aa84bc97fbf9b88c92ec222f6250fd831f9c523a30a9d1cb7fcbdcf90e49fd05efd,
  0x1e003bf3eb3d03ba33073fef2caa2c6582b0fc657f18757c87b4656e4db99bdcc5247,
  0xa070e5357d1f09e692e41b4e055649fecf0f0092cf42dd8efae72f9afd8207f4efc,
  0x94945924eb2de3cced2eb9cc87b0be0c7fb2805e27c65b8a5db1492024931274706e,
  0x4a6454dec610cecfc39fe3fe8fba3ff3c4ffe60a619c68bf95eee8c82b120e3f0291,
  0x37e888ce25ff9e2e59b9f9dff139b2d4b6a7dd56bc39c3f820a0b3bd086cec83f2ac,
  0x3ac5a9284f83e896f73a4ff52a0682c60a915d21ca53b9f34c2c34f87da787e1151b,
  0xc518bb804fe53b72e4161cffb33d6441e4718a02fe4f533912998e30aae4e3e7f4f9,
  0x1b3669a2d6e149c34fa06794e155db4851f819a4f09ea7d1670b636ec1a72232b1ec0,
  0x7ebf53c7c3251251a4aaa7e5bde52995d61d2ec1e9a5dd6efbfca58281c0b6c9382a,
  0x5438888cea51c2eac2c354e04066e66175fe2f28112169f45ace84983396f39ab312,
  0x28147127e40e3248aef6ed50a197f74a045d457a2d9c070c4526977be9788f2e69e4,
  0x1bd4d0751955ff8f6968e8e46a937a6f7c701042ca26b9bc144606aa05b35b39657a4,
  0x13c60a139597bb58856079432a31ce97919340f0bd1bbc0f738dbbedb08c8fb65ba9f,
  0x105787b90d5d4be8bd7cd6ddc6fb5be8f6242802ed775a454af55f89d8fba112f1019,
  0x218748062f53cbd901c496b69bb15742da541ad8cbae0d774c053a2b5b72fb3a75d57,
  0x8ff270b53c7b12cf5474796fc91696d606682f3965e667f38aa21ec6bd8f3b248555,
  0xb8878ab06b09776d5e2de3bf150887b2b70ebdb2d763a96791743b6a29a3dd039089,
  0x1fccab8b8351cdf5e85cfdd7f96bf98e24e55c3efd356a934a94cf1f235b764347ed7,
  0x9f83ffe68dd499f5cbf30c8976e5a68795b920aef2f783dd6e6f452b946f00dbe1fc,
  0x9d157b945cd6ced7c8d0383ea4581ffe947f837f04f2ded8c81ccf6c6f09310eac31,
  0x1ebc5f020172e41bdece9210c2d372f9305ef1fb918f960b7f6004286f2f456498526,
  0x22bee053a8ec0a38a940e367c4b9bdbe16d4357d5965f534b55067e1eaa7085cad148,
  0x2221f68be6d47df129af9695faf2a453b8b70647134d0b52c8c625c1adc864a2305af,
  0x510978cf9fcb3e5633e321c0a4d203132dd17b416bbd13a34d28bf954b30c80e51b4,
  0x2835654e506369eac465444b1a324e0fa1d14acd112e006bc1707e7066d8ca9d934c,
  0x1bf9a7fdb690705b50f651aa8338b5f9ab042b647f76e26e961cb05d76e01c13e95ca,
  0x5984f970c30f9cc74f475a83c9d9adb34ef8857b7f49eee039a9c207ed73fa49f87c,
  0x13d97571c89962f4e811ba7502e659805743b34a6565c0c2ff682e37ed9227ee203b8,
  0x1fa26d34e16af77be844ad36463c250ea1392c808d5fcb0dbccb5cd137963e15fddde,
  0x157100c35b1a67d9d56ee012f1c61349f9ff0019236a6a6761ca928fb6d49f8dc1a43,
  0x12fc7ad7c06909eeef2e652b43b2980ab3c698588a5d30a468429e7a7326570c1f378,
  0x191c823bedc80b6a7b7daef4399288db2f5e4312b2dc3a0fd363580cbc1406263a3fe,
  0x22f735e6b85ee7ee1905c6ffef9dafe06c4d669677c162f8bf7310fd3bc88afe53a09,
  0x14ece790d780a44749f2b806bb7216d7fd5d1433a72f76b27ba1caf7b68144432c795,
  0xc52f416c4550129db4ace10b76bb954674f67d31477463a39c663495adae068aa6c4,
  0x2274f1a0a811095be44231be7f40da583ec95cae5a21217052fabd1ce4d45b4a9cc5f,
  0x203f33440e7a6645c6966384841730af4bda11ea29815da5583d87d1e287b93a8ede5,
  0x7cc640feda26c07d245626ebcdc1de47e51db99d8ec33134f6f4af7ea5e13fe0c1ec,
  0x127f10a82b6c16c3d0f022c631609628a386e64bfa0725cac5896c62feaa7409b69d4,
  0x219c37a166b807f4266833236119afab808de7cbe5a1d66cf2cabe1fd5b842d022b57,
  0x1ddf4218a77e59e51a57b184f1987995d4f78795a220c3d2db044f0533626ea47a055,
  0xdb6d138b6bc1176e6d399e57383df0b5df90a5fbbf3d8238df841ad5d0e822d47090,
  0x1df5cf35bf5ff3f3178dee3612d5cb5023a675689841c0e4887833fcba90d1999be43,
  0x1ecc89774057aca835f91a5aca71ad0d2e3692b67de693afef6a77c2c2fb5fbb6f3e0,
  0xbbcccc07529c71e5202524325a3250bdd87c795c7a0068c16ce3a0953a9806082a11,
  0x12dc74760c2a0c7ec34db9a10020e2d616be37d0278ebcb007da5c5091e57ff203c2f,
  0x1e5fa1688f65f0e7b2203ff9cf89ee41d21e61e415434688e639726cabadbe15ea6d8,
  0xc46f05a67b89f8430055c3560cb3f0525e2ec61bd9d71ed3209cd1d9ee941db7138c,
  0x12502bd02058c9c884e122fd1ca322884117caefc9fdd3aedeb47fab95e5991a1c30d,
  0x178aa2f971518f7ce36b54f5cabcecac9e69db027de617c76af2bebcf78850bcea395,
  0x552f762ed88fe42b1c89f7cdd2fee18c68f633e313b1d3f8a7b581acc97306f5f58,
  0x140ce3dff085c8d73cf238b66696a2d5274ce3f1aaf0ed8caaefe9d7925c953ff8c87,
  0x1e31c4dd1d1d69af5ee3c8e7ae23ce42b10f61c08169f3b77005bace809343ce6aa6b,
  0xfa82328693c36ee80ec89b499f3ef4af3abc02798452bffbdaed040ff0b0ef839f30,
  0xf8529ddd824fd6208fb0396e72ac1ef7574faf04b6f055138a76fdb986dab1aedcf8,
  0x3064391a8024f968271357ef0ae28af6a64aee8aa3ea4308ec9e4179ab036840bc5a,
  0x1e1ee43f614b795c204035c856e308940c46636d070bea3ba92a13d97f554d598491e,
  0x16c0bf0954b5bab86b29a7e439a6e1ddfc401293ea0321fcab0019ff42f92d768b51b,
  0xb969ed6f8939285afb7c67e32e7e2d3efa396f63f4ea89292f8ea0d2983fa39b5264,
  0xd92c6e6c1cc1474bb603a0f02756a8b55dcaedaf9061c6ef09b9816dde407ec7ad8d,
  0x10221dbc11da33bec14a5518fe89208739a54e973d1bef908746af1151dccd674bdb0,
  0xa59946e86ffce205defed150c30e5f00e9ce85eb1e47e989936a06106f17c33615a7,
  0x133caad5b12809b5150a00cb39c595484716d92f1c10d70ff09fd8dc93b6dd088d8fc,
  0x18a84109bd70ae741e4abe838fc2a400cb7ac7f5c03027f5a5f9eb238e82cc66d510e,
  0xbc029d48487f3c2ac60606dc590e0b69757dd5fdb9c7fb419388d8020f456be5f893,
  0x22869cbad072d63f7106580ac2f3cb04caf537ffac575453c4f310153d5de7b3dd8c,
  0x14afb08a56fbbf57d14a6a0acfd2db74bb3c3c5c1713d744aac6fde0aefcc7683d128,
  0x2a8041d8efe7844944555655e9ab221f4e5d1a576a379ceeb5f24a030eec1b33bbc9,
  0x140f34f0571b42a8b67a02b2141f379818d21ba4a61d69ea94c46e169d8d0c12d6f89,
  0x21307856f88a96fa106de3e68bb677b0bd3f7f896033e309422030d276b1a2d85f8,
  0x1ca2dfb230f57320234172ced80ae738a11422b9e20bda5c940f63d2e11f55ee0b835,
  0x144e4ecf1fc29c17809c7a65858b105879548c87cb70f8bf11e56d8fb41ce80580bc7,
  0x7dbae091d0fb5e0934ad35ccdf70279db1bac4e66708b00d7774042a88f4dc93dd3f,
  0x184e752b5df9f15ec2c9fb18ce5e9b00d725431d3a5271a4ed45e50b9f8316d9deaa0,
  0x12491e78f1cbf181350e8217c8cb35ccac1bc9f885fb13fce0f656f1d222e02a75715,
  0x389225b839eb6231d8ba34663be2685ac784245198fe89c3848dad6c8cd349a25b9a,
  0x8daeed625c2be268f5b005a55b2617a0a65644d7268afc0b59880c6303386cac1304,
  0x8ed5d94869009ed40fe0f0ce6d2e39657fcc6d091b8a2d4723b6fdb1210e9c091a1d,
  0x3d18482035e06ed4e57a7804593b6236db4efb7c4b4a051e7c2da0c00f3bb1cdc328,
  0x93aeb2cb81cc24501051a8c867b86a3104de71bd2b214e18da3178838a10833ae08d,
  0x17a94b6bfbf4fd332924c03e2c2cd719529ffab2fabd29ac4ac1eb00d213419488609,
  0x1ee68f36a76b9037a8cf12fea636606d3764c9616dcd549b831fa6e753d4215cadbb3,
  0x49ff09fc5f03a57c15cf3a113b7a0fe1a353ab82484056d4c83832e53c1b57d4dc82,
  0xa5c417ea9b94e77601173898e8b0aeaf5c1f7ce96eb9a4e867e2d9a5e3cada6a7510,
  0x1dc27649881f9d0518718d01dcdfcf3128ac86c92eb8e42ea1b3e70991a772d089881,
  0x16d9e6fad0ef3b99fc834769e1fe0a163454efe8968a63a4d0b0dcbf262439de1ab64,
  0x4fa01c36091bc2c5e63c22883fd857104b303604ce647cb0a18245ceecda9baa20c3,
  0x1b19cb9366a9395ad12f62d05bdc39d09b402be7ad436ede354fe6a47ecf601dddd2a,
  0x73fc0ab7b2f0d1d6698e49249e02004593d931691986756f8602f6bdfb47ce31acb5,
  0x22bfa613674bdba78497378b10c752318e7c703ad671e4d0324850587555dc04eda2e,
  0x2f2cbbcdc081a9a073e2abc46ed05ad0e274c911eb64dbfb2df28c328c99718a79d,
  0x1324da279c5a31880915427e8ad78239cc82df29f3bb782c394e497adc0910f8a463b,
  0x12d1f90dec0481355d24a9ae1e8eac9ce8611834e9c9495730e9902d264dd1fa9d2c4,
  0x2151e8a0aedbc860e18327fd0aa22feb7cbf90d081a460d088d0e4c4b6167adc243e7,
  0xf57c4f6653189fb72a72eb74b4082d560fa30e05ecb2be04a39127c6161d3b4dc39a,
  0x13d36941bcbd857ffa54d18f1a4fa76db264fa8df94d354d43e73a1fbea5c8fd9a183,
  0xb7518b08c31d5f7c460e03bf5817eb04635224c6aaecf01cd5ed817e41c6cbce2b94,
  0xe86dc6ddcd6fea05c581d353244238d2828a73358107e1e90fa895815e28a9d83db0,
  0x1aaa6882bb9deeffcedd0db9eb557c994d6e6d0bf59d19e9cf79bbe2c6026ba718d3,
  0xbbca5b32b836a9d010032b3285dbab957fe06a19f4e3c4b9e1462dbc782f7d4ccb13,
  0x1fcc45b536b57bc590d1c98e41ad131fe4e67e8b5bc17b46a8a0e5014031f6c5839d5,
  0x746dd692fad2994551a37791455ed6496946329752237d06e9003d9348d739ef90c4,
  0xeacb85655a0738bbf4b3e2cf370375cd9da935b8e16e45f3410feec222527c57478,
  0x212d959257c207181aacd690782fe4faa37ccda6b72f3a658d55376de1305699f7ade,
  0x19a25f6e6cc39f7e280eeb1f87602edabe38d47f91fb1c8c02e92609e87cc27105c4a,
  0x11df07b0edd3b4c75a71581ca70ab797d1968f0462d229ce35890d3e5b8b970d40118,
  0x1deb7ea166d4f9e4396cf2f02dddb45a907be88cb09bbd351dad07d9b5d4944d442f7,
  0x21eea73ca8e899c914a973f842d75a6accc239246587af6c66f4a05a84d37accc395b,
  0x22bd8587e92d79b0f9055454bb29dadf3125aabb012f9cf8b4ad30064d34d19e4c57a,
  0x17a8dfd0ac35d8546de19d9520ccc1641e485de3ca073247fbcf5923247927deb424d,
  0x268da1a22b2ff75f7acd9209786ab52410d3849035f6369e9116e84cf03e36009788,
  0x136f05bf06e9b408cd83421826eebf247895202c1b426ec7dfdb8c3236c1dc911eb35,
  0xf5631dac639d2ac113ff8d553c0a21186d52c13307bcc8a6cdd9829f331dd6329dd5,
  0x1f4d9eb744c1c6f9066d8876cc93a5393c5f1d626f2c3b7d77f77cae1412451155b3e,
  0x760dbd334d3cfac27294c505554a78face1542d881f428b62f388fc546660925413,
  0x1dee7ecd96bf016453c728aa7a6031c6513c30e83bdf6a2c2665e9e8a25ba49b74c0b,
  0x140a6a0ebb6d69fb2ba373619a01fd556ca40f9a70c714fb702ba5cbe3d927a406b0c,
  0x385f003c58a3a21b7784b3cc30c8d6722e574b1f89af6d1c67fb5dddcede503ee8d7,
  0x1ab57a1d51491f4670bffc4f5c07127c7c6b943945233722ea4a3df93d15b3b0c00be,
  0xb963fe18bd151d24b4d68f7f33bebf266693f406a509780dcdb1f19475c77cd487e5,
  0xc38b2873df196466b2fdc4c400de0f97e2862f8e8f2c729bacf44917fade089a75a7,
  0x1fa748736a8e40e5aa5a607baaf26359ffa19e0500b709e9486d68ced8f634e52da72,
  0x2039e9b8d6c8123b7453400453ced1df364562eae48ad4420a247280590676d0f8e03,
  0x128b8c0f4db2d5de2ebf137231d49a5e9ad20801890a72afd5f96ce591e6a7f289c2d,
  0x8f68b9f40272c10d21e0b57a501592d5cccc2868e74c2cad7012e52cb864984acde2,
  0x1019a195e98a373c2708963edfe4024d18833dfdd8b8e99cc13ee944775cf1491fd47,
  0x638cd6c16ec0291daa48011e12086ef7714a906e0bdb4c7fd2be457e31c8e33ebe86,
  0x19018ffc16bc24226c0833f9a024bbbdbd95e5b070c327d3d87a3d572e7ad5cc6936a,
  0x1d9d21ade7399d781a909f57dfb26bf14e3e29507ac0be663fce892abf653c7a0c172,
  0xd7218207266aed2bdeca25976e8152d23c51a6bb5392421f2d003f464d880aee90e9,
  0x88217231f5c9ad87de79b0a0750148777821b5f41125bba4bae2a406a914994431a8,
  0x1c3d0bca9419e3f3f03d84154a427cc6dcf401bcdb7b5d8e53dd7240e34e70fa603e6,
  0x6644a358ac6425feaa592bb7c7e8d73f0d75f772b2d891b0b6437ec36b5b034771c4,
  0x5c2a58161422c4ab9e4e8f6ddecfb413136f78a494a2b48a2bc902edf409e50a7085,
  0x11e9c8a116e8bde4abc398e6de6a665aa45f0a8fdd8b419c30c171c05c04f17989f4c,
  0x10e3202f2052d01e247c1324111f6b51b63f56722420a7b01c69ed5d59bcb84abcaba,
  0x4f591769e6a30c291d3195420a6dda1646c6d6a84c802b3a675b8f044e00084b4964]

/-- Bits of the order minus one after the leading one. -/
def bs2 : List Bool := [false, true, true, false, false, false, true, false, true, false, false, false, true, false, true, true, true, true, false, false, false, true, false, true, true, true, false, true, true, true, false, true, true, true, false, false, false, false, true, true, false, true, false, true, false, false, true, true, false, true, false, false, true, false, false, false, false, true, true, true, false, false, false, true, false, true, true, true, false, true, false, true, true, true, true, true, false, false, true, true, true, false, false, false, false, false, true, false, false, false, false, false, true, true, true, false, true, false, false, false, false, true, false, false, false, false, true, true, true, true, true, false, false, false, true, false, false, false, true, true, true, false, false, false, true, true, false, false, false, true, false, false, false, false, true, false, false, false, false, false, true, false, true, false, true, false, false, false, true, true, true, true, true, false, false, false, false, true, true, true, false, true, true, false, false, false, false, true, true, true, false, true, false, true, false, true, false, false, true, true, false, false, true, true, false, false, false, true, false, false, false, false, true, true, false, true, false]

theorem p2 : Nat.Prime 16637353332582300823364312031183656315167585315971526222618891166870651228796860863 :=
  Ecpp.prime_of_check (a := 0) (b := 39)
    (x0 := 9912574062628407496352101986686230317104846281700632744401773181424965405382513935)
    (y0 := 15538983881121304471836573483273296621404649314262621199409522248688338957141858646) (bs := bs2) (ws := ws2)
    (w0 := 15199998699498833309712775645783130417719496367025829559122573621385345467942491489) p3 (by decide +kernel) (by decide +kernel) (by decide +kernel)

/-- Inverses used by the chain. -/
def ws1 : List Nat := [
  0x20758b382ab282862685566939c539151344f5392a4e5f19fe31e4dd4a65d09ce3323605fa607262ba831fd03f1be7d8bf83facd0,
  0x1d6000478ec7adeea1a669d2f6fcda2da00d9767da11eafd867a5941250a112aba7538ddafd043ecce64e4e28632b656627db615a,
  0x5c62ce47dd47527a8f7fab7778672b7c01132ba4df530e508f5828f2ebde3d840cf272c9d629da96306d3f1839e86f84bbaeeffb,
  0x3161e2f89e3d180979f1f236f53eb506afb0b7813727c6346c2f259a961b1baf281fef10a6fef3b5b08009696ee42894c486ea748,
  0x3091c0842de62d607d269682f28b022758e1aa2bf014a23540c6f994dce787cdd3a62d11017acaa71acd419eb16a52bd021cd6ba3,
  0x1c92d3bbed84a9ab45fe6c03cd3bcdd291bdddf592b53434a52a7f7290a27f7af21f96038eeff766f8516168b77551becc051cdef,
  0x31de4671b81a68e3cee455886db6389093f86f0f1307070f0ed717a1a5582026237303e83cf3facb195b14116d0bf40beb8c0e70c,
  0x286dac030fa420f5ebd5d9e5ac5b3cfd3af8fbf60c11d4b9c22ddded351db5f1d4e8945763a60a2f65fb8139ce952708a1d06dfa1,
  0x6cc16ce9eb5a8e61c89be1a5bf6377ad5843f3d11e1abefd29eb3ff97108343cab5c4169af470ee7fba17f3b09cf53bebe7e435c,
  0x1776d6438e1d38800950bfad3ffad20eaf515826ecf68c2bf9ff1456642a964da1e43781326f0927b1a562cbec7ee73731a9d821f,
  0x2274f1a40caa2315f46113c459a023095d2d11831581cc97b1b94191995c5912e0846219446704fa635d47c59d2394ad4876f681,
  0x2b7b2ca985a2db13c26107b57e65a12cba6c1bb59699478c23359a366a3cbef06a7c1bc92e3cf472e3acd8aa036cc961c7f843cfb,
  0x1e9c6081b521571a8234a110abaf63ac24cdc2594564597583b5a04adac25d005283bc80374d296b329810f4a60815018321496aa,
  0x65c5368b128534049b032b7e0f834f4ec4658eec3ca7736dcce2fb8c840aadebc4b41df9f8da7834ca7e6d7ffdc820fa65729057,
  0x3888bb882ee40fb961bc7dcc1744d1a3df413b8ecf07e01a82443c5da7b33e9c3a2be1d18da02872b5200ff5d411ebc4abe7e9786,
  0x1366339bf5dfc563faa9d1855def4ace4f573d21f3e433fcc863dd85a87fab8da7c84910b8839274b6d2f0b079cc9cd4235789fb5,
  0x5b8dd1bf67450b989bdd440a64829407ff898e3e2052c0220f70af09a1dfb4c10633561613d10e50fecfb272af17b3d901f77ba,
  0xda9c2b4438c829ef328261edbead4eb845f97186390d809380a6e5a8aff76fcf86c202ab0715343c2801b402928b7549b305bce0,
  0xb153259eb97b97e008e7cf27bd9931e14f8bb61aa8248c5d4c180f871f7ef5a65fc3b1c388da6fa5e12e9bdfe11a810d1b5b7162,
  0x34dc0eda75a8b9807c7caf12eb2f06aeacf81c61ea5dcbe99b292531d74ce0f2309ae01546bceea40708648524655b5250a362e35,
  0x2fd9d67bf225fb6f96da175e6b6245aa7f94eb5b11441f66992dd88fc2b7ede0abe23ae30b205d335188b9826ef4a5c3a25c561f6,
  0xa01c233e4fe084e314059e48f5d39a9ca6a38838be795b67038dee5f3e9bd9000cbff7bc2e0431dc8b082afe1a3d52b67ab56f5a,
  0x31a2c366f02e27d72297cb5926cf614d33456fa29fb0680911905851b2a8966b3918a2b27d8ff5fcffcbf0ae29e7922d47714b1cc,
  0x11b2cdff36636537d18a58733618de94d69d1fdcb8790d5f1cf334b7d8de5213a1bf6935831bdec4d1b0d91365fa6d8cb1301e16e,
  0x2d58e5d7fd8a2dc580ae08dafcd52e095c0efffec3908ff6d42640a503be48034152904f27f352c38fddcd55558a27b3a8478548e,
  0x2bad2c4773b3b7c3933c3712fd1dca8feb9a05d300e3fc7c071a43b55b63beb93093c157e60f738d0c0c08e38d3b6d12f6cdeb719,
  0x1832ed92b2b726b24fad212973c4515f4bf7bd413237b49fc79b1d0ab9c38c6e1b7a19a8fbcf3a934041c6707d121d6952372968b,
  0x13c8e0be134f866a2dcba2b27835c11b04e6a3b4e44bf8e7e842d8b40d09b30bd79ceffcd683278aaf5b9c201100fe4db7485f57c,
  0x3473526f143a0272be3afc4ba94bfe9b95a63ece818dae8c9e28b66ee69d4a84972635ecb1e03e31d6791979289bff996113b2f7f,
  0x31e172dca09e069b79949fdfac22d6bc0470c725ad1599528d724d135e685fe930225d901abc2103598f8b81dfb1d2641d7ee8772,
  0x313b3f4fb5db67ab076e32d14ead55dfc35483aa40518109753a00c748ccdc566df1dada9c23d8247c6df1abfe37f4b396a2bfdc1,
  0x1a4fa39cee821181b4ccca981843f1109de3df07659877c626f1f852cbad5fc97f7b18652547cdefdf180cd9532adbd79640d5d09,
  0x1011342d1b8ad91d2afd9d19ad625ab36d52dadd747d801bf21d3e24f097502ab50f738834861af0e151755844d0f12ead28bdd52,
  0x223e21de7f52e13e844eb4cc38cc643235aa33bfde1c2434361aee9ac41743e94952334f5b626f73643a61559e91fee3af0498e20,
  0x166918acfbc7b3f417eb2c3a41603d48ba22cfdd88ad4f2ec1033eab1fca57b92e01c33682c7514cc94354d9a707716fbc2126f5d,
  0x114a3a362fe0ea07fc7adb63b98e454d8e0ceb0a9af9cd1bd9c1d8aea240b873563a4650d5b6b62d4172a75ec3ade885c82111f3d,
  0x1078303b08204717d532d4fc3d5d97af05df25efe049d6a59f57eaa54e5e1cfaa44bc5b9c72c73c3d4de4f327f41f6885d269f6f4,
  0x344b10dfa5360f20e255b9bc973ffcc608be1e2e2f3918267885165eb06721a79d48a21a5feba365054675eca7553aba61b38179f,
  0x192e7314988348c1074508c520a461ac231dd27881b3385f106efe54c8a24de9c74eaa37665af59f9c6cee92ed82b6dbe1f12b3c5,
  0x1bc7f445c6b23d2a7242465a98bddf62145c891ff3bcb836bc36e78332780a796851166061a4c6d9165e7612e277d094d48c19398,
  0x29e63714f519e8192d340eb73cb3b71d375e5defb6b59f057b80677412e5e69a700c85fdbc9b7816577b92b2b35a5218d19c3e84f,
  0x1a1a013b7d10414a7779ec873f774c8d8a698ae2e1d027a9962c703189574ae6e7bbee2c9181d2fd8ce9841e89ffbc141ac89df1c,
  0x2277be21882f00dd5e19c2f28c06e7d2e86dde6665b6c93f80be2e46ccb96ea4dab5860cc1807d1cd35e0df4ebe1a4b5c0b43e12a,
  0x17959e0259d6e5e844a23a455fac20769c4cb29529edbcacf1622caa24757752735765aa778840259bf2c5e873368ed5b0f28f235,
  0x2c9006877b08aab4518f729b07ccd3f18fa1c2e86cfa16ae2d4e473f24f8197ad4f35791d2f303bcf4d4b759b02ac8a9304773a7d,
  0x3884ca27a611d24f2effc769f02bd4e2db8ffa70a9444a35687664aa5bbf0e29db1f7049eddcd32517a480fe3dfaef894a53fdfd8,
  0xa9472f314e77fcb8fc96094547e501fc4abf2ddedc8a62a48462565ee2fc1b1c23fda647510352dc144b91d88349ff670128f2e1,
  0x1e13d645537ac41fb5fa244b34f57a5b893ad670026b6e6ed95728fc7db8b675c0a59765330dbb4f31fdbdd01353c52f920f154d9,
  0x2313d0306979f4b96be25068e8bd6bc8cb91514e44009e6e380e00f66793b93eb243324030cdd6b6685f315d9570c16f074d9c9fd,
  0x2dcb5ed74da09b7bdb644d1a31b2a74c50e1807230c29447ebf4091e5619d8a4784a57065aba2ce58356689b4c1af8810b453a266,
  0x13d64f31f0c84f10b6d78b8c7c90ec6d46a640bb5ebbb35897c86d4680fc1d8205f143dac0e4db319bc7191b4461a8fd181b669b4,
  0x28fd77268d350d914bca41cffd46fdde5b54e579cfa26eb73cb2e5164fede8977714e2a5f1940079953bfd8cfdbb487058260830f,
  0x1d0285af8f6ef1473212fb0e7c54f47df33edd5ab88614841e831e233e39a12beb5478de29637249c62b68e9f1a53c73a84b44cae,
  0x3506a01bd61e164e000a07407f1370a59e9ea7d108d1a26acf72ea3e3be9f50b79c1e9e8fda6046498c7f2cd1c49d2636d74f02b7,
  0x235637fd22e1482f48f47928166767b19dbc86e22197d309742ae709926a96797d6f15b5e39bb5852b72c182c4ee57caf03f4b848,
  0xeaf7ab0f2596467424d84960644cbf02232104ccb3a2f91decec52968e5ad2b2c78d1490e1ad696910d1e6d672d813f2e69884ce,
  0x40ca6df07a4733f68ef794ca79bf16957bf1d083d9f64135c6ac1f9ff7cc6a3ca12bf7d6167c98980ce5ea4120aaa35c2cdf650c,
  0x316b871ea7d0d7daafe282265ea29295cd6e798d2a1d305be996a0f3903087d777b3ac67c19619ae9bb6fe775563be6118eadf2a4,
  0x5fe198e9c6ef0df1611673d269523ed674c9012301032439951bedd55dff80d8d6a3fb738400b2f4df5bc79e8ae9f22b9c34cba2,
  0x320a7fe8bbf5f70c2c6c74f99b9f6e12439912d83f90678451d2df2c5eced1c343280f1637130b63624349efbb05163033166fbe6,
  0xe51b46178b29c285e8bc8f4dff4fcbffc22719f047f73bc8a1593aba5977ad1c2052fbd94ab37c405b31ed652b3e325c7f0e518a,
  0x1ea468317f8ef60c45fc5ee5d4e6954a0eb25a70b3e1be53ea69f856af14b6570a8dc6bd70dcf0e09ec25e4cee1d517b17a92da0e,
  0x2d95b932f500c0a34e4ede9e843fad8adaefbe48eeb6125282a3ca350aff80e20304c8c8ac01f1b14547af114156fe5a02d27adca,
  0x27b3dc7137870be40a1d4781da5c5c7784fad6900e8c5f86dcfa51daf0d6e1ced41fb7d108605eb43a79b7465c610a62b4c8bd59f,
  0x6ad2e9c560dcb741c8650ee966aa872700195a7c1468e0e090d5865c0ccefcad0cae393e944e699b3f542c4f3eb9f1dcb3c80a96,
  0xe969662c09a855f9c8b4a6cd4fa9e9ceabeb235783ab70a888ecad516d2a3af4ad12c5a61912c35f75a787b5cbac04366bba88de,
  0x1254e4836cab85f3037a01ac13ec9a7d89e885001fa82a44c13f881519a16d28b85ccddcd334eacde9a18bcbaf601e2170555afcc,
  0x353f505fcc1fbef319aa29194c138b50b0b7bbe6b1d2801dc67bb363ed94a48ca15eadcf468359aa759278cb6c9d7248b204a7d15,
  0x35dfacf046500e63af4dcf532884dbbe3d55b0e5f85906e9e90663b1daab7b093aa327856a7650f6192ee0d6abd2bbdbea9ffa4bd,
  0x6925d5e5c93ed6396b6072989381a182087493b14aa231b7d7969f4da3d5e33235b2d310e073e58c6fc710cb738ce3b86ac960d1,
  0xd200f06626324d1032e707174151880b961387aa1c350ccb168e7382e82f28f8b823fa12660f3e8ddc6a3d5d81b5081718a07dff,
  0x37de26c58ff91af4f37d27eecee8ea4443102c0e3dfc3cf556702a315d1504a6fb9bd69929cff0380eb146105af8947376dc5d938,
  0x33a07794cb8dfd49ff37b112805f69dc673baa3cd20f565798441a31f0a5254b997d35329c6cd6907641328aa761d57c2d235875c,
  0x327c7b831ea002753fd8b78e9a085a8cedc5076afd5afed89585bc6ba8205165567a11063fa418580e94d43e89cce2f9eb75308c3,
  0x6d794a57cea13ce2ed74ab61bb9778d826ad54d8c286627c557831a877f4bf08468437cdf653005c9cc127e8dadc60622874f2bc,
  0x24cc356d7a6471aa86a58909523a03a9e45eb3ec31c61ba6d5f327bec53b489ec4d49dd2fb82c9e5519a5626f8cd40f132a19679d,
  0x2513efc1b4cae65817e5420d3f5be59c88d7c0ba539e3fc45a182ee7fae4ac69f355b725cc95698aa00f8e44c578d37a558b6031a,
  0xd4c91dc7dadf42919f4ac0f77284b19959dc644f335119cef5ff38d65a6ccf986109ad7715d7e1b7059295b5a858e54e5783e6a3,
  0x37c4b532796f0df1632e6568a0bba42a16a07ba8abefa671e888726e1641fbe7a98a27d390cea0aedcb21276c49f84210616acdc0,
  0x226305a813791bb18c3554ee29d6d888cd6ffb4af1db9ad54fcafe35610daa94e68987907308fbbb2b326f240fb60c0b2443c6269,
  0x129d63aa5ca4e0444e1f7e991a8bd91f315b7c98007a91df37755457d8a7c4882192faf74b2848c8f9ae8087cf0c8ae726f6cd6e1,
  0x11ee4e7c457f0837b08cae2be751ddb00343f5d52830fa0b5db2513fe0b952ddc714f6b9efd6a42cee66ee176bad40ccd3a43128d,
  0x2163fdaeaf91b4e0b0927521e44c75d0be417aaf9861c27130af2220aecb36562c64d0700034df2ebaf5d648a27fa53eebd50dbce,
  0x3097d4c734232745b008ceceac0af6d99b0468c34ce053c8a920fd2ea5501d202a670b8aeaddf5fddf49377ed14bb7c6ef4789b84,
  0x24e42a4f2b3f269b17356dccbac529bb9fd5a01ef4fe9f9d3933248ec5cdeca5b135bf918b58f859d22dbe2028bc89e9803b291b9,
  0x32190a6fba8cf4b57c6d8654a529624ef56a6bbe2e6b19210a07d28de44976fea140e21d82dbb9f5cbbdea6ddbc0948aad38cc670,
  0x54ccb199e405869c78d34be8593383c9c31cc4bb7cf0486191c525277e087712c48f838f659c13277688198ff28791fd840626cc,
  0x1bcdf6664c3061ae490b896b4d84bbfcaf53aa4f75ee121098bddf386d5ff41fc5f8cfc2f7f47813af70685b01322b95e79d5b6b3,
  0x2ca41fcc72e5e0d2dee052f88e82aaa5b0e56361b54207cc57a2e1b90bdce6b3d99e23f7aa8fb12978f218221b59bd0f9e1255b83,
  0x25e0fafeb3ffd4dbb71f0c21fe954689043fe701d0657ebc40054004257c56b6848e82ddc544c92bd0a5cd332806a1cb32f9cbbe,
  0x142a97eac13999ed0db7b434bf82ce8ab44b34199efa9c0673fbff2ce161dddeb7bbd71f03ac51ea371491fe19fc3725f001bff5c,
  0x1610a0e53789a3568f00158b8009b7a5c779eb47d2f2ed244e9c2483995005b6057f3aed5a78d92c76d431871b46b0a1363479895,
  0xd810206832cb884b261e110360b86d42cc3bc47e81e31e156948f5f6f11e217731589d115bcc2599fd41537c1995147a7e540c03,
  0x38a352e50755460070cc3c2e90579df835820c301a911544ec8a4cfb10e0d35f5b1999a8030b4d84c5b169a2cd842f38b11850c61,
  0x20e258c78113b58b3a81a11215192cb57e7bb12805b45519ab220af43097c5857e27e2cd7430d36b394f7874431c6aa7d6abce07,
  0x35973a050ef7e05c2925d50551507efe9d27959c8f20d5a1754bf45dfbbfa92f05bfb710fb3194dc8e34b382d685f4c3ec00e58ab,
  0x1f17bc10b61bda30e7f83eca6697f0cf11f797a03e8fb4af5ad3ec295057703948a8abcfde7f41ac35953762d50cc0b88cc82616f,
  0x6c75267d86ef6c4a64aaae3be45d35452d65da239c3dc0df17e34b3cf45ec3ee2f44af6cd17cec91f137f69ffbb8720959ed8ac7,
  0x195ae7c8b25de2d5e40e9f00d7f56f001d50de169da617fa08056d38f1fa44d5c4a970e23479d27935b9fea94111ee7a64a4bfbc2,
  0x29c03405c52ac5e2f58bac2cb39566a27234a842e3195e6553150d6ed153f632c3d31f7dbeeb7a74ddc2a0c12d8670256a6856fd6,
  0x279f7b8dfd55643c6a06c8e06165746307e97571987cd1d80783ba273411716074e93c3dadf65e6f8db3997ca48204c80bcdd04cb,
  0x2ddad5ffe62328ac7dc982474cdd6e42e157ea57e42690e8a78968a2b0d86937dc8de8bc4fb7715ce5ac5b97482a3b4f2ce9bb794,
  0x2c8dbec245a6a19f849786e7a8919af4a0b1b9d474b65533f83d11f2e8f2c08ca79d04aef17c9718a473a0226892465afb2b03bcc,
  0x6c9dfecd78e25d1dde50ee01ac8bb848acf0600a887045ba738aaf41d1136e58e912f1752209e7635f70191bed7094cfb4e3b3a2,
  0xfc26e7f27e728811dea1f74d6b322608bf1a792ec514532faa291c288f7da96e22008eed6556f3c822c152201297f1a930b604cc,
  0x122b856620cf3fe5059a0e109f009c1c1631a2b1678969a29f9e148e810a03a4fa9775c44a8930412d8f26ae5632c47bbfeed4e03,
  0x3632285851ed9a6a00c70aef9bea2f4d07edebe4d7332761baed8460cee22821d66ebccbc7f2ce48e5eb31bfb823802c8f15f807a,
  0x170ac8f1b5701089750483d4f8af44269243d97e3340231d8a5aeac885325a42cc9d97705e56bed521b59ee6efa10441fa3a99835,
  0x180a5e92041e8b7272c9e28088e4b1523434f29dfa337fcc45322cc1291afd2428ede557a5c175d42a097764a10939e1c0ec1a112,
  0x23c40c61947ac4eba3996d7c08e6c72c9cd997e5b6793dad97d24a312189028f7748d357a5ed326c0ac6dd84687cd4520c78ac852,
  0x2f826861d73b2170d684dbd1ce5eef369ceb99d7eb5cda69cb9d47100946a0e9d5fa555b05a810cd0222e5ec1eeeb684c83f5f59,
  0x15fe5b759b2b806bafde2e08651133bb71c8d25b8f5e0de404feba6aa109e6a592a2a460f2028a8c746e771cca6d409afc2ce3140,
  0x1600771a30fde6f9e77d563aba005562d7037666887dc5f8cc8b6470aa0e23977c503862c5f2e7055a4dcc8eafd103762041a8a09,
  0x39bf6e85d27c63f57d4496722d14a8a363aaf42bcdc031370f0ce1ccaf6e927ecc354b44489b4567904e747fcad748b5a4fda66fc,
  0x3968580a26148b4900add2253d2ec35d3144ae486f04b7f9d44d020b14f61a5bf70b6d752ca77f2a1ee400bc7bef741d06d9dabbd,
  0x39dc2e1d1089f2117a525d6e11a0a7e191083bb1a424ad05b76922179bc98feba03848ab3fe2795ef0d44850ecef121815b33a21b,
  0x2cdbaa53aab9a40813f750d30ad0f17483b66124629fa067050eb1f10db71c63c2dd46b580b7a49e66aed860e047c021609d99ce,
  0x291e780c0a914e1d254c37105324cd3a1af107c00e10a1d63c39123ab19833cf4e9db1ed2a8e5f6e263a719aad3a64d6b3ad69ea9,
  0xcb78dbc744ac78aa9bd4f0716f741f334f0d20a6c5af974625c6031eb07e3de345dd7eeaa5de78f9155506ed7f7131c5a7a0b358,
  0x61c799b26b881cbbd9f590677536f7a27c517616f1a5cc180c515005bb3f1c822542b28bdd4eca9c9d4d03a1adb24239025a264c,
  0x1b92921afe6fdab5a6ea203869df5c12e1d49f6038173dc6b81abfbc5ef2d2924ffa36cc9d08a096b8e524f36e27018ceb61b40a4,
  0x1faea80cb711b7fca54b4327787d2a2d994e399fccd2a15bd7515d53ab077b24bad6f8f3c548416bab13dbd4d49548f181778432,
  0x231d562c66dc74a96d2730ba282c603657e4b447c8f110d5ad01331e3880b599daf7fca961cbd9faeb24337d6f32a58a9b8020d3c,
  0x1d8c7c8bdb91875c2e157530db88d586f18160b6c48b8aa3a16edd54b14509afe4d5dd30e58cf720afaed0d6db792882a59fc6a39,
  0x2cf46daeb5d9bbd327b9ba9b6f74d5598104be884ed3dbd9d7613857b76674b7266c3bb8a1f2c5d5cca54ba6155afb63539d1fcec,
  0x700dce0c39713c71d9f5454d7f5ec0b060a6ac7ea4b9ddf78d78659ca339249f8b29bed34c01c035c0168e9659bc10be2aeb1d77,
  0x3b2ed31e8ab683d35631bb4fbe0bc4de53c9abf8a72d46ebfd1cb71780662b3badaf32dffe1e0cf3534985ce8dca285bc7337bd24,
  0x27c3e510a1933bd8d55fabe8eee7dfcf043d5de40ff96f647a1f81469d0bd9633497a5d7672b1fb155747a9d8804ab9c9972f11fa,
  0x396da2d55e2f4648ea7d273c6d6c0c5c88ce13c1868619c0111d84e4889b95fdc4ca841c8008245e432a13a31c94b3459cf8872d0,
  0x28de87e20f69cd92c9a6f813e45f57c0023091d0b1bf45495f9e06977f2d2cf97f1d1cf3d28c353bbe04875b5aa91d0bbe4af2eb2,
  0x1b27d8978bb84fe7c8b49674a430a2e38bdbd55a52c9e6f919c59aa455fd6b1fcf398025b881e98b0852aa31a795105f1847246e0,
  0x1e2ec473a0303f88374300cfc874f98e24d593e4210dd57038252ff5b67684b4f67ea531a921bbe0be8aea5eebd124313222f9755,
  0x193422f85a9d893cedc61e02beed87df860a9f4cab2ff0e8c3af1f53b60b37fda3303840c5ca9d50b9898b5996ecf579dd4ca9623,
  0x34bd8d94e59a2c26bf6743ce5569aaaae09ee7928087a2d2186aa109e7fc7b2504277217bdc057bfa4c7141618a0ad6596d686d85,
  0x1176885154e09a6a6bb6f29f00e9158c05f2be62a681271bfe626db7eff1dc3b1e4780481cc30ecc4c8e54d8f21883eb58b4cb851,
  0x16f80fae34e83d25b68f62175e4b5c1baaca7b50b1eed9cefc94697fce44014577a19f2ab68486495ee12e4f312bce48008e20756,
  0x3137e28ba99c2d17a4d882a2b8e50730b2552670f91a26a7f5b978c5a4cda58a0775e1389846a172308ef84da291447f363342a15,
  0x852e94721db2ccd0fecc51c71103788eb113d492eb17451f724c06f6c799fdf7cf197affbca9ab2b57fc5fdcf34ef9fe74d6cafa,
  0x2321ac4d12b8a8531594ee61f386d2672f775721c8c268afda5cfcf0faa9919df026cb8612495e5a4d69a1e0deb32b80e66b2bc76,
  0x26921816a8391faae5460dd492fcdb1880e51983970efcccc879c64b1a5354934ed176db383192c86102e70ca4c20d82010ba68f8,
  0xc8aec3db011124f7812d0e719ea8930e61e6a747bf390142a45a0c613fd31f6ab63d7c8533218dd85d4c374456a266f63b314a1c,
  0xe8761315dd6af9e7db0a3ff2147b3928b23639b5c71c666caea808bfa3b228d5f6f905645dc5a1c299839a89d98b57a29b4158cc,
  0xfbf4df77ce5854c0a3682bd38639462610c770fd58011dc089fd82a954ed3c1b116fd2bfff742b4a15dc8589ca9a495ad5339b9,
  0x15c9b49ab4ab79520825c9c819d4aff90b12d9a958238380d157d083d7b68eeb345a2e5dfa7749fca9bad9f7b7589d8a095fe458c,
  0x23b4279be2f46cfd1d314487aac9fe19a5391fa42b74562360491c98c1d964d0b8585d01d729add35c510f3edb46d813c0f9cdca3,
  0x25ddee4e83b12e36b7e18f70c69e0d8806af0f82af1d2c4d1829250f061ecf1a510bfe06f12d58f1de6eae68ca1508ef41c2068c1,
  0x1f0a5e73238c6c2d58d1be2d59898eb5df9974949fe4f676ce485cd4a85bef53e4478859b8197172deef0ea135215ec2032b6fe77,
  0x2cb67cdb9f6d48477dd3baa58e7e0db94661506eaf5aba87409d22d0b6afba2005a369ad28b039b54c433d27e91810ab86ab08bbd,
  0x27f69ddee40ea5d186656ea563e55b083dc015a6c1d317ad74a67cfe24dbe66f9c9247ea1160575b9030f1c8b43a18231aafb635e,
  0x3005852cf7ea46e4614da2d502f167dabe1ba3e86e15b693d50c5829312637085ade7dbe67e518187652fc2864e6c85a370df36dc,
  0x18759efe81f195fa748c59b4b084d379a6a561ba5b2eb4786ff16d99de71166dbace430d7c795d4396041bf77f39a13e82240f4de,
  0x247a377095c57b4655847d60c22a08772f9dd904c7e0dc3e180ce2832e7104863e8d82aea840053e60ed613024e9fcf61dbd2c074,
  0x3931e09c1124faea73fc75225867f85978b710e176ac4216ef158b5b3e7351df64c4e326a9264ccc6db04fd058ee5220a113be15e,
  0x110edc63c9641f39858dac7a44cdecc24e62879dca8b5a7352d72bca69de0443f741e0c9df19616fa9aef5b1cf6c7904b73238a09,
  0x2212c235ad67ad32bed6f45bb26dc06b30b6d72950558a076b9bfef881fe080497f7c65afb3682237ffeafe2698b871aba3d0b67d,
  0x1d8d061abac3e2ab878033023db5b010f79d1076956dd8747fb0d1214e49dec4f807f9af9cec287873a90ea17c5c0cdc3ae07b2,
  0x20229b36afef1d1209121f90fc035d7b5f9ffd3ebcf8fd324d15305792776428f631f843b100f96dfd11a257488a505cd2549146b,
  0xca9b23f828adaaefc13a73b77a7b69c9e7ac0c4d81e171da06b05dc5fd5d0c50d2b2898bfdda275607b191521266563fe94810b1,
  0x3548de29e45476c291c0804496d088416c4394d58e83e75ec364e875e2759005c305bf8a3b7baa9639101720cf2690d6bb0e721bd,
  0x36be788afd5526875212b0f836ca6036a4faf25711f11a39465c7450531a24ea748bdcd214aba3dd56409c7fcf50c6fdfb812c017,
  0x1e2ae19ab502431f608e29f5a66b1200a05bab4413df96ac54363ae3c5d99bc14d5b98a2ab48ad927a30f8679d51180863ba8b580,
  0x35e0283d11dbeb5f5d5492e9c37a29b87ec49564efba15b1f00bb295ac26205d3ef2d64ae50d6a612a058b4b85b34c9f56be64446,
  0x16bcf7d5d3a62471472e7d5985cda80dda6c26bc974a4fa72023958880974f415b0ca0e8050783dba2efeaf6e9b0d76ac4ef74def,
  0x1faa0612f6288c671afab64e766d7afd6c40065efb893c171037fe7203c50744c2032b685d25d67231465fb3f96db7a882186cd4,
  0x30b248cb8a850f2a48fd5162e2fd13a5ae467f48b2b0bbe8d74799af9231b4a32c183d0d9d6cd420cbb6745dcba02fc6dc8f27973,
  0x1a1c4d618f5e1530960794f67c6a5316de1592395c44a0cce2bcd558a7bd49d4f33cbc42a85f092a47a9fe10b1b66af364d721d48,
  0x1e45f967f3b1554dc7f5bed72b5d1067eaa0fbe44d971096cc7d5f4f86074e414879a57d4512f1f76e2fd6ad401474d0386542e85,
  0x205807dd4bf0bf94ad1f4fb75bab0d28bd87bbe158103fd9b9941eccffc96d49fa34572a8eae8c7493c3d5f0a686038bfafa5f15c,
  0xe3b6d9c328ca79a6b48ffda8c3669ee75e4034272ba771133506cefffd4eb29750d63719e6d093d5d6b974ba9cb1d95afe24f312,
  0x1d7355e5dfb4688023a9a0bba834f57a392d5a9013768044d5a72fe7e515df50c76bb854fe36afbe73c3017cc068f3250f7e1377b,
  0x2cd40ca4f1214d0f1980d6f999c1752dcb36671ec60b7239759cfc6f9af47a0e4c768418d20cf64234cde5fbeda2a6cad2fbe0aed,
  0x19ddffc6dab75f8541b0ec1b6fed8e6993c0dbb6383a9c0b1252bc9328becc5682840d7637615a1ffe9c95d3a195c527874f9d10e,
  0x2b1d72904010c19ae79564a0d9a8c06f2fe70bc07598842a9615e50f386dbbce591b4633edc522e397edfbdb61fa9e9ae8444fc0e,
  0x872b0979233af2a98c9cf07ccf1d938af9595f0104f47afdf38765803d664fd5e1533f31fb6f69376053af874515946e01c2213f,
  0x21e422dca461937550d2a5876b66f0a44f1a87aeb03abcf054b127e1b7a4f8eee25266a9652fc0eb2b2ef53389974103940341122,
  0xbcc1c64f1cc882c0906f2244bff290526fa62b32034a4cc5ad56a66b7b6fcf3ccbda8aa721bbb6d0b5f3eab7d5cff9719d18f465,
  0x184006938ad5eb17cd29d583d09c3bf341675baab41079e2892d75885b57fa7b13a72b870681a135e1a2d15fa9bed121cbcba4530,
  0x1245169315492721f9b09c95ab50df2898645f83fc3b4f0fa3fe53decd74a33d006e2c09d4da342f38c1255e44938547d25a7f594,
  0x119368b71f69bccd1bda70be33a485b8c27cdd73d05302bca4ccbd2c1e2353c24ceda91b3c50de64d70035e7ada9cb3861b2ca6d4,
  0x1d8a1c101a773579f6e5ef2c5a676dbf1a2ee0f530153d070cafb669a195a86815cb85a7e62b0fc4e6e2b5b08a08fe79ad580b552,
  0x233ec70eab484bd29a919dac3e8186752721b634d44189610b136ae0d154295934e760d31ab856670f2563b5a9af8cadbf5d696d1,
  0x35ef0a6d6d22b5426d1bba96386eb46a3a2fa280baa2a6fb29dc811ca54839b163c16e0b59fa735e80fe3b5b87b36202d8f55aa78,
  0x36a9c1062b082002cd8cc1a051e6ce7f83c8eeeebd7e6bac6d50c425e302ec9d12b3c4794028a39c2242d893cc6c6c6437bf253aa,
  0x28de80e6902a5213a553cd9c144ccc88bff10c22f5b4cb08bf25e233415ef151cddfa1bb4e45c20c92b4ccf1af61dcc1b1458a7ad,
  0x24223b75250711049c22881f0cf521613770f9512d95682b7849f7203ef4baac4ac558f0a42e128b8fad1d891150876c2345b93c1,
  0x34bd39c5a7811eb1d5a911bc78d806ee6e41cbebbbe24783ce862afeabb4b3e84bbf5dec9ce2e918fcafaf33f333237ef439799cc,
  0x32538952829d16c51eb585c77e35e8f7e0f6aee3b7328f95487f19dc150a6b633822cc117b0331a0a0feeeb1ea02a877f045583f0,
  0x379281cf807d2cf52fc3341a00e38ad31fd1916514c72ee9a7ce7f2981f98e89cf175b39f1a69d6463fbdc1f6d18b7734b99a7727,
  0x138e7ebc0ff30a68fc61a793aefcbe3972eccac9e72773e60ff2557ba11ac8a470831a8116347f2f4b84a92067fcd6a4e5fe0681b,
  0xf95dc466a0cce103e275bbb198be9053d3981662429fdce8409f66034cdb21afe3c56c1e2154a583a514a6221cab6b812a3b585f,
  0x98ac5a5ba026b3170d72144afe8c9c9d7d3821a0ba4980405a2058d5b3abd155da1d0709be96309da008d2357617ce949b8a0b58,
  0x16805ce4d501f752d1d255f613189d19abd84e5a5ec904a3d9cbe15d437310df72a8b0a2cf592e5350a56eea252512ff1e36b442f,
  0x24fd672464d8a47a05a38b715013c11eb216b53a817ac4c9d0cd2298eaeddb12be3e72dc8e6cf744501f91a5de613a111117a6483,
  0x45a7ea59bcde05d401ee3ce32e272399f54c619bef66593e587aa6764d1f6294852d16ee13e46bca431456eca887f292a6d6b2b8,
  0x2f554321cc3eaf5b41b4ecc5079be20b3d278f36cb9e4cb53807eb355632e3a0ea5e34c0dc568eb267b98586044bc789b2975894,
  0x1f42711d58b2dad0a43d05bea3c54c09d33fe4f56b522fd41a54cca907d3df70265b50119210e316c330396231287da47d665d1a5,
  0x1778eebc43d32aacdfaa2680c452fa0f940c9be1192d3fd3176ad24f9380b86dce9aecca5e18645e1ab888b82c15068373384e6e2,
  0x24511f2e72e306956412138386c7f914087e2fd3246455e2898727f53f1cb74cfe3a341aa02ff386784eff773769c4bdeaa85f77b,
  0x189e7fb9141e4d911aa3f094533cfbab365facc8ea9fffc526dfa1b0ec4364a47a0d5f5d86fe2b7549cea447146fa5f6974462521,
  0x37faea16c0f5faae89062c3f69c350d349bd4445a183e56d194e65b79575ff7119b83570824e8f474ee75dfa61182215f40b5e705,
  0xa2e13ee65c0e0773786fb537933011fc187c55e7e757d79251cd2b2ac51b30c5bbbeae3d8a3608e4190eeeb5230dca17d77f8cd8,
  0x1967c9155a1fcb8f08336b00fc70b14c016704ee49cfd3fa40472b80e89917137d878fd5dfd4e9f3a27c3e8cdb27c542a6080cc39,
  0x7d57fbbe9683f34b92e6d90c90729934da916fb6f40e8f259c3a2351770a980688c134473c0fb1762111080f24dccfa856d96776,
  0x530898e7d7657b2af8421b3d440316c7a184dc4a08dd56caba238af0ff631fd2a4457124ecb18a077cad56c42ff93ad77261a71d,
  0x81c8b6df3fac01624fd8a6dc3bbd9b22fab63a0789c63e1b831048fc54eea6e51fa6c4dcb912aa521fabbe1a585cfbf6a346d259,
  0x1f30f1d06bc6d16ba29a2ec3b12a5ae368d3e3e747b476e0d9e0a3d31daf830942f7510a115a255b7378894bbdbbb0ea01d72310,
  0x284727eda4b2e6de03fcad8d0f94de58fd4f1dc196d1dd432656a5bb6210ab8fb0b6c8ddf4cb8cd14c55cdf602bf38b13a0d3a9ce,
  0x32fbd4db7bccae25617253c43da1c41a89da65bb594bf1f610bd738bdbf6cb8d66dafa2a471cae90e54455c7528f601b5ea5a9fc0,
  0x1ebe059b0c4b836c4b4c90b990eb1bf66854db3526b3ce63b16a46cafcdb39168ed364807ffecdeefa0834c557693fb216a3fcc04,
  0x25f4323f96f9c18d6dd1ce38bc89e9ddd0ec9073292ffea5693bc1691da2d77718ddebf535974d8fe489d39c2455d1995477882de,
  0x5512b5f244a8f008d8b32134aae863080d903b555ff02c7e5293167a75cc61ca83b80a8c00c1f305192ec7e1f9786549dbbab074,
  0x336e144dbaa6085f25796c87750cfa881f86e6f4dd2c645d9ddb2453af25c78e3ba343345d86dad891e5b95d3be69ecd073fedab6,
  0x2448e679c45151da635d5ceedcbcd514da3de576390f4b6ba8c84d2bd5d8aad38a52b785944ca2c83edc05c52906416b616494350,
  0x350a3a42e9e8591cb3e05bba698354e384a3c26865b39eabe250e03c5295e1873c8854cdf523e73ade1576129796e9023e4928108,
  0x2268d5eb4565910f4cb667da12648078c9d3b40f87e7e8a5f99085a4632251d28e0057768bf2f2301c8acf8dc458c489fad98ef8f,
  0xaf624c3760834e2786b2919346456a64e0b026046133fa86f28d39b02a29de2bf1f93a4d0ae6c6d265c847e5b6982df05651de15,
  0x106ec6d4bde6d739f5fb87f24ea01b3fbe4e8481b5873ed83d39e438ec576362b056ff489301159312bca41e8dc94d5050efa02e0,
  0x9df1403d997b70d67d45a0b65c1698e9f457f7fd83b84bad788de090bda3f28a3c75be283c5069fe88c6b26bcdc37887cd0fcc20,
  0x1a7000e20b48b03e8bf1bfd89e2e569518e2ad7524642c3282bbeefee5428a42b60859d086b2a0702fdfa5df9d25d9afb34a4974c,
  0x160f469698be6d3ebc70dfa8fba10483d5ed2926c8ba4593ada19c53cdd4510da0203f516eec6541151836cb7421eb4ed19ba1546,
  0xc80b2752df5b3cd1e6744e0d05537dc450829a91a73d5a465cf78766ffe59d5e14fec3efa4d6c8d11371fa3f8de010ba821ac5bb,
  0x2dc47aa066d859e1fed686a25e447e59f41a21f9d4a55c98ebab8e11159355bcc90b5880c44f417d32042a8c3394ca3e99d563b4b,
  0x1bf49677e6c492543f61ba11b11f8842fc44cb25d19f2c437369ff1fd40da42ea6e4d0400f002bf5ba29a739f0f4306187f676c6b,
  0x1f3803fb787b6ec466928f1eff44d90c690bc1b8f8fa50f25cb5962f239057c7224c62196541dbd199a2eca3425b284cabdac3314,
  0x35ead1e3e4c167fd0bccdd119af555114eac4911361a24941fb5aa16e08e625209ecdac4c950776269d2ecf05f32ef1bad9858dae,
  0x3000fc7f0797749f50387ff47b4e46957fa784021a74a28b0161ecbfe3e3ce9d117189098004b223d93ded56bc4e8a8638a7d44b7,
  0x15ae3db89c05432596408a9d09938b23cbf1db1edc788cf9880facb1d089ab150bcd117a626080d87a42ed2c0e3428c132d417746,
  0x73f244fb14d700e36150ebf8078bb7671ea829d14a689b27115d8b6e7576592705c06934c249a091aa0b30deafbfac1c4b2a5b7b,
  0x3ba2f3046d2e15930e829bfc25df6edbfad47944b37ebe71b0cb0df0c522391a570ccb3f1d8c92ad6ea250595b9dcc1e79a0ae034,
  0x26cb35e3c38a16e39ebb722ca21a162c9b50bc76cbf8dd2b629a110ce6e271a11fc97ffe35083db8f5ea47cc31bf573d5eb7f96a3,
  0x39d75e6a144ef86601c939c61e1ce70e8a15bf987a30a6ae2f80632c3d649b2a4e5c810b993436809f2295cc0e39cefae7b5d8105,
  0x1fd6e97871dcae0edeb83a9f142b66241eb7a828cdbb765d942677fc16124f97302666f13da8eb887357e8157347a5121ff55baec,
  0x4c5ecfd75ea82d6c56b1b162239e1bdf799f08af0d45e29cb4cf3aa404e8b14862c23cbf992dbc7dd3bf79d7ba19c550c45152f8,
  0x51a1f15609faf78a40a3d3e47821ab994b182617856120c0571ffc7f45d4060b402f796e14cd63711cd622f806da8e2671d1d8db,
  0x14806f7e777e8691eec2f4f12ce4ee098446a4e6ef422cf673613c237eb77621a1f54d57a68d89a31fb5c6f82e51566298ad68c7b,
  0x1f93a0dad8329eb7adf34697859d4abeab7ae501a1dc9b8643a15e7cefbde35f2bd1ffb6ddb5c619b231d7d81782876dc1d8429fe,
  0x29fbf7c93f35c982e346c2efbd307ca9c8750864994f94ecf5e7030ab116aa88af56ade9413b25ab15656d4dda8814f71824fe0de,
  0x2348ceb1907fdfa238753b11d9c876fe7b89b05950018caf3fdec5cf2fc1825e794dbd233f2c1a97cd0d79ed4c46b362c980a5e76,
  0x64607b024f875f1b2ebd02031756a753d6b4b48d66751976a6e8198738133e3c0afd0ee6147cb109dfcc1dab8085f0c648203fa1,
  0x29f3570869fd09a9c78bcaa78ca2365b8a670719f88c2019fd042835782c8b30d2c3edaae7e941fb9d4224c110449c2eaf4021d8b,
  0x2849c2e9b449e901481433a9f1aaf619a19ee9113e049619a9d095f8a6ecbc7231e56076b5031cafc68baf95ae6125d9b747a706e,
  0x20dbcbe1b8248c970659e05f67b48bbde611f6ad3e8a3b0a9932e25eaa7b5833854f4ca6bcffb6bc9db8f18507a076a13f08f6a71,
  0x1af4ce4c738979e75e593063e3a4de6efab1cfbaf1a6098b47612fec1486b155cd8d28bdf504b711b3ff207f048e366c1bf244513,
  0x15066dcbfe25eb5ac7b6a19a433b47ba46b4a7be7319b06cc2704f946efb2eb7cd4bcbecc3a24a6ba5377bf303ed98e524c46f3f2,
  0x242f1918b621f1b80663f52e66f9d9bf43f3b7900ed6cb0f4960b458f770cf68159f9bbb4a821c164d6efd2a9ff9a986b9b9efe88,
  0x1a8963f67d1daedee11372325f43e46d73e69b7c7c04765cee60ab73a67c4505d32a253cfcc549aa1a330bfcba76107ac41aaa2c1,
  0x1eee00b29739e93320fe1d2f254072acc37555227b574b7372862b27f2a09366c6137d473ed5df689dbe442d7566ffc5bdf46af8e,
  0x241abcea7158889089c77f966bb691695f0d13b7779eeafbb5e0572d81c3ce56ab1a811b2e8f303390f3eaf1a5bab7818f3d4b27e,
  0x1ceeb38258663a57682d8351f3d265a9b9d13188d09c9e7388ca53f2c67627a31f0bf44abf41078a4a2beb18a1cca7fa95fcf8873,
  0x1b817f96a38f3d930dffa9c88a60ba4fd121abd3c065d9f114ade6940df09b8cfca1efd9051712bd4c39254f880bd4404bc8e515d,
  0x844d59021696c16373164aadcb28d1eddcf22d397ad0bcc25679c913998521d7996e75dab108b01a21152bb7dbc1baf3fb605845,
  0x21723138be3d11f6f534f0fca39738026bab9027726cd6fb6bfb44356cd396b88910c56c11953071a9af1a0647afa8024e4d53357,
  0x51141009d19454e6343ea7e8ca2b25ebd82029a0c866f01a2b4b5ed3e13c81f70bff230dcda6e9c9da6dee9bdb13e8ddf7a1af16,
  0x38af157176330c4e1197079902348ef4af6ff8e55d5ed5ff581e4fba0f73b7df86ebbc6894b998f440db4cfd187358022ed8d81d,
  0x2d71f592416c3e409df67082d2589ffc0be8647d6bf11b4bacb0b4d127ca01ceb045a4cff6554c3092140d93704d74836a5b0b488,
  0x199f4541cf864b8982ec40c0d2a5b9b9d0deed6eaa48db48d490228e2a40d22c6d0475b690af23948916436336cee662296301aa0,
  0x76c839bf3c5a29a665b393defc11ed6eab757bfc1eab7deb09d8efe5ca8ce25614f3ab0edb375cf3108599cf8139d06c1740f4f2,
  0x1631c01722d65179c9d580836b5d8b175614187bb70aa5b6b7db10eb3b6d76a15a62983ac916bab299947a20d54e2920b2749b1cf,
  0x245463b397bb2fca7767467fb1359de97aef062de584540de296f40d5c5d20f0e6b164659215c0fc3e9880cbbbde45d21bffbf674,
  0x12b6f5f114ccaadadd50de9fbd684365857e206d2ffbbe5752332af9d34df5c82d105db6c720a1899a36989c9edde247648fe0a6d,
  0x2d308f51a68ff8a7db3c926e395faaf6fa9b23c5547fb65260cd77bceff8151ffbb68202f3adfa12bbb64776fc0e51447ebb7bac6,
  0x2d840252f13d81b32183754f28b880a4d1d21f84b54cab2316a59e60621d09ac78c86b47590bbe6e2ae99bcb5c9e5bd9cb1602ed4,
  0x218a4961b295283397884fb8771adf993f5c23807da31419edf30becab495591f99fce462f715af35b7b433a5a6cd3e8fad39925d,
  0x371006a1a802cb896d7ad1ea5c73b21b57e784cc9d98407a6a4a9f76b75ce92bdcfae4bf0671560ef19ffa62795bcfd5c3a298337,
  0x1d9e5e0f7f1a47b6f5ad0d14b28f0955ae936255c225e305303e7b0f9f2713d3cc54de6184843862409458c5c3ed9d289369146d3,
  0x2cd03b0df59e039844ca101be8c0637bec031430e3981f92a99faeda4926477fa42291c94600ec967062387569174289495b0871b,
  0x297afb731b61f57cd828203f6c63784e4450d0321d7bbc039aa4c50b633cfd4b58253326b27968c246fc4e07fc22d42017541b1f9,
  0xe6eb1e12b8457d0ba0a5d2e4050bcaec32cbd997492d0b7042b8f82256851cd9bd0367d72d1f29c40c63d0cea2f933d9d9f14a61,
  0x1dbf84fc649ede6da5449692148cb114453a700792efd177c1204c06c76ef8df4fa780f09551f19969687da11946b0630fa387ca0,
  0x3b1bb06430288540a5ffa58cd825a9cd6697a1c45a2f0a54fe2ffe82b78f2a6a24e3666c0f1b663f0802ae074264b6960fdc5a6d,
  0x3aea751b00e94627f95035d5b16ad00d1198e0236b2b8dd6242f8a9849f80978ee856d5cdc72a57598ae3444adfcece8ab61c94c8,
  0xfc72fe5519dfca3fc5520eb05264bee9e565792cdbaee0dbc747e269ea2f1a49c1ea260ae13696515a56e5887fbd934dc221a5ee,
  0x2907992b1a51c62ffdc47a02f7d870a5ca23857ae06691b60d7ba13d1dab9ea371a7d4ccd104cea5582632b05c7eda2c2520f6725,
  0x1336efb92d6be5b23d322e4afa3df4561cbca8781d5c7b3714767747ba9df1f41d24da1eca658abef147aa7a7127b63c01a04844d,
  0x39007933c854e895e950b45de48d54e841bd0ccd5c24e81f94d4a60d11502187c043b00188eb70b879412a778d944f84b12e13d9d,
  0x91cc24afaf76a956ed90f8dc4073ac560395650f033826f1849b31101718070cc786c2072abd26d0e59a8cf7a5c4cd5a03922b96,
  0x3912d55c29c09980c9de8b5b9032697e25084a92e9d011ad03132a7788c37c182a0a24a3f79e06ac3dc81fd6866f321f4afaa2afb,
  0x27a9c25d60589f67755d5069ea926d03b30431f57ee241c418a18bfed5349bff832d4baf77bf9ed98bf59353689d197b570037836,
  0x3956846b2ef87cfa5e967ac4da68c47b5f2e281a14a9fa8ba114f64c2582a40fb05053f3e8c6ed78dec04fcf91e726bcbe48b2883,
  0x11089daa9d91c17bc23268ff5d452afd50a458f00490a84bd010cce12883d8dc23c461426c1744376c13af83f82bb3a28c83c27aa,
  0x37b7f1369c067e316c3f92a7aa6188c7054b57167974326ebe04e1a4d40cef3c50dd10e26dbd60a9bcb53496ab01db59b6a9a4c2c,
  0x30c4ee8742a587e519006295cfa13c1f1e75b0ce6e9045848e795195aada3cae13f8213dfc1313f3a40318cc2f8fc87d09e874a4,
  0x1510bc8182bea7e1dd53dfa00e28d1b7e23684be363a713dfa0c652eb93f1383e17e57b597e998406d29dbbffeeb9c5f5f74dc135,
  0x3413953d1dda2488eb15949b812122c90bf815359b8b189fb159b887594c39314378e1288c74c1fa5b3ef62152319f8a1697c384e,
  0x46bfbd04d98db3bea455817f542fc5f9feb7347fd7808ea39391e2fd02a02f2458a47e8f6d97ce7e6c3f0bbe7b8248be9186bb5,
  0x5cc84b155c5ddb0c2c8e6380afddcbbd293f3a9d3cdd06eaad247dc5657268d38a537c27efb514a7ad0a26e94f0b69e408168f86,
  0x1028b7b6518ab32f6c3782e47bd2d924370bf9279f0e61446368b5e280666993526b0a559d5b38d3a6eaad7242eceea15cf312c3e,
  0x136e1e661d2669df0e05c2872caf9f53b949a1c7ffbb4fac206b2b9f786589929e8eac4d2245b25f28eefea80a50644a2b1f297e6,
  0x23ad9fbd8ea4acaead182a90081104f6a2793db914a0b92169af8c43bb22f648d853b64a00235f8d6d366afbbc4e1e90aacec57e3,
  0x36ece1c11fdaf8307bf72091b391b9cb8a38c75ad83a16f0bfe1630b54d4ade57213463996b978f507e9a055058022e108051a843,
  0x3ac745933ba3629c59552176b44bf1eca86397c65cd38f182519efbf94f67345621d619bb0c016e3c46d771640f783be14f474c48,
  0x346854abac0e1f4876e56ff8f2e4e2c3ca1d57e93545e912f27f7420dfbb93e6f796582fa084cd6efae6d79d925f9c03e1979c482,
  0x9b67b629e03aa50dd827d3e1f9be5f29e9611ec03465237b23203208f98a39de989be1c761a3de079ed74037edecc7a8024d857f,
  0xc4f9320b54f0bd46394bcf3067fd3897269830441840edd7707ec460ae75953d7c1ef8c56ac33b3dfb02eeac7d1f78c39d6baa38,
  0x2d71d20a40e56757c778c44b894974c61a5f63f89885e117e7fe13ddedb706a67b3f3a7100f55c994768b50d1bcff1302ac58f7e5,
  0x10b257c3a06395aba6981746664bc8a94c1e0a0b108122c73542a5cecc2f69be37570ff41ad37822c87c605442ac9b4576c33da82,
  0x11fddd4706beb4a3e879935a316fdbb2c24621531f81de609638933c193529bfee9fcfc11c0fdd95b27016ce1527b794fafa404dc,
  0x328b5f33a3cc9c21ef8f7e74332b6680f7d5d1810653f6b347e3a874d105d8d15d1639d3db7ca727cbbfd505a86f28225de59dd61,
  0x2009f148b4997b10f5fe966fb60a013f91c9c8a81f4af3fec502d24b70981f6232073a2147b614e0ee312874a1d9ced5f28bdf956,
  0x1f9f486ac4436568bfcf364fe4608da498fb0a948d8609236aa016fb7f313be9fbeed2282642ad94970a843c5adf08739417f86d0,
  0x1d6fa5d689672c94948834586685343a4b3ea2fc90114f25042b6666b0e9e761b317689319f32341b7598b0ecd95c3b86f2885f33,
  0x463710c41ba3aab69d2013da356780f7a593d585352a50f26d2511d044beec8b7604ae1a456be089a1dff1c3b00855f01400348b,
  0x154ab55c55968456a89e3a258336f5a538e8e752802775d65b2d6dfcc2fac6e3f460c75d7ed2f98424e098ea52a6454c653fc79d3,
  0x35cd75b1dc199b1e2c11b474ba6b8275aee9ab3673638af4b59631f005e8df0ba542e6474569d5bfb62689cd9b2e263092c437b05,
  0x29c6296d675af28ee4a9fbccac1e8b25db2302eea0610eb7b0cb667bbdb095f8b2d5d4f499feb0f02d58428bea79bcf9764242438,
  0x311faab7b61355f10eca6beed3605ef74510379a128e05be2d68631c3c32df8ae248cb82bec2c78a0d85760d058bfe9b14d417d80,
  0x2f6f162cd4fcef513e7240113a68433ccc9946d88985d751033851217edf635c5117371129623313510784520ac0baa3ec8b0efe1,
  0x175157ef110721ce258d4b9b65297bdf94bc2307e75dc424660e38a8224f9ceb8c2b3ebdb3935b0b3bad4ded8d61418c1a8ccfb0,
  0x8a8c9c90dc34a85d7ece78f12baa8c75b7c6e666edfc336c76a2f47a8c9056a3c21b03563d4387c812fc4584de8008dfac31edcc,
  0x20e6cd9a835c32a0ba9104beb470c3738a734f0c96a32c4df288a8e6dd0efbd7d3029c1a5e4e50c8aa627a463e0567b8eefeb3ab4,
  0xf23f23f4e35ec71c4d12ad0ccf2315eace4cad55d204765e1da4e9d635f9208448b7e42d57dc2a6d04513f3444566106cde55cce,
  0x2bf60497075bd3da43685e793d0b9e26a2969626c6621cf8b8ef58c05ef2b89acfde61117f952722659a8c608ddf83d834b6fb632,
  0x2ff8b9c977e6bbfa13f9ef85616c42a6aaf3305b84e09d06febaab3baed93ed4837042a5af3bf8c64b83f00537119c4a5154e9c93,
  0x4f2ab75a10434d29eaa1bcc56838785616c645fa9e2ec27ca0cc989634a18d3ac5d81f47f6e54ca1d456f7c008b11d8acea506b6,
  0x275b9a854dd21b33f7e2b43c761348e6a0f962b7680d79229fab4e6e9e56c5a00aa4ef9048d8440a93e29bb9819b7b6ba71533f75,
  0x1259afe76241be1d0a56bebde9e4ffdb2e37fb4f9f36c31db36560d0deac015feedcccd5cb0f6dec07ab36706ed1f058cdf99b5ca,
  0x1792c2fc597501e4a5c0b2d3599be67328b8856f8b5efe6937c24656ae1fe56ecefada6278c20b2fa9465242cfc57d3e19d2ca7d0,
  0x3348ecf59320052c52ff4b2ba5735294477160ec2f595cc0bcd451a65225dc84b933b3cce0ef403fca833c6d8a21ab496f70d0743,
  0x4747482f38092798289562f86a04ec8b1a265da83d73051262c288fffc0c7f79467d3b113ae6b481b52ed3d2120fedc86dc8ab1b,
  0x32085ec95416808c5831ad5eb89bb7f49d6c1e9ee345c1a01f0600748b7ed0df6ace0db7b3c5543d8efeb9fae540f851bad4ecd57,
  0x3054c49809a31816b53f68b0d452c9665fcf9cfbcb6f8b7f3d202a115306ef8c05e569bf60f7e9627fae8384a84d7c879cf9b71c,
  0x362072015c0ccb522b39fe357746285c76db4838380737c2690c3ae8fa1c1c30a8fda0054fafe7032311a711263e826c095a1b760,
  0xaceacd0ea3a825edfb4a7353ceebd7bac6252932b4ef174b3129cd3e1b3e27fb356f8cdfa9ce000dd364fc21e6b0c1644113d2b5,
  0x44ee45df7121e4798c5f68dccc01f3b16a827291c8698ebc8c2d5faf692bf30b4e05cdfd205c5f02ea38f576aae4d7e33aac2d22,
  0x7035fcc3619f56acfa3ba0f099e83a1a33f60312aa6b729b93452ffbc602d543bddad1dc756950539024fadfa1d219f5702b32dc,
  0x2e074a95b86d7900fb1337c56b71803e8d7b883b403f58dafbe635cf082fbf3a10cf5edd98d5dc4842b38e45e706f60b051494081,
  0x28b552bd364ab530dcb1675aa724630e11af1df2299f4026e574d9496564db5d32679130ef7bfc6ab755c7a1bb3bef69fce7731d2,
  0x4d71d018d3e37f464c325038b85a4795a47500fc2b21db9a2fc0af7a86b3b29b8934b73fad1d20fe366f3296c27fc6d8e09b71ec,
  0x13e5fbc3f66beb77d0972f7e83b57bbb5218cea4fab7f320bf0b3851117425a993bef5d6edebd7a927457209b22c33cb7d467647b,
  0x285b7dbc3a3e3eab665305e5668d7818799c9b08dd96b6f61dcd3a0b1324208966d1a29924d894d2bfc2155a170e19d34486a578f,
  0x288b7993999d8fe5097965939b880014c3ac31ee8103e1f8a55a31bd3d1f9dadf552ae99f5551c37e5e00837ada396aea0b88abc8,
  0x3b3bd8281278de4f44e87c9e911a276fce81b26018459c39232edc4a6414cd081cea9f784c74d0ca9a1588990aa071c431cd865c8,
  0x4fc702b30d424a488e78d4d11116320f88fd1d1d4406e27c710ce71ccff3037666a3fc5b2918849b870acf4e136302c0666056dd,
  0x30fb45bf4b07732a96596b12a411aff1ae8faadbf87e126bd9fa826e23f1bd92d83c64232de1b8fa2cde9c6e115c5032c0365e1b,
  0x256d71d028a864671b5cb01a3017dfb2d20dd403c6c330898caa25a2557f45b87929d8f35c98166f78c047cbd4f47f2cddc665e1e,
  0x10d6d82397c45b8c6360a43e253b8d8b4064f7f7bd2465580e7921f4a6a2126b9c3e8090a2440711ea50d7d754f731ff071a1501,
  0x2384067763cfbbe9983cba1082d0c754bba7895fc29d7f886a4e51c3893c7630d506c63660941e097245a68e3770df6af8c263583,
  0x3397655071990fcd906efe3f4224ff8ac90c7ed5fa8ef3eecb5908368efe801292df5cc480cf646e4444661c30b398b346182ec07,
  0x2b3d574901ca6915c6f396ea8b7c31082b629bd33573d9ba3b6a60caf0a926cd926db579be1e4ef5a2f5b8a76e4b270a2e76130d,
  0x33f60d865e9f7d3ef5bdbbfb556d22b3c3d9379d4accd61faca625b1256ef3ed5e2159ddf72b290ffa8a52e184c7816bd49a5c577,
  0x2c8cddee912efe9d805a4c997a3ecba8a94ea6874ad6bfe274b9872c8368e217eeccc4b566bc823c2f8561e221078ea57c8b2ed54,
  0x360531974dbd6102f18a2bfbdcbf5ae45d39557243a72cb1111812246b605777479eac9592b810fadc6762f8d9ba6e34eb534fac6,
  0x321b9bba03e866b44d520a6f76a24abff7096068a73ca304a6cb2e4bb677217026b9deee48f44ecda17c3eb49c3f0f2decc7cab7c,
  0x34341446841b21200d1625357fa834021db1382e1304311a6af0c4fa7c5871a1ae068aa767ea80f38dd557f223e2a3270a20b3fce,
  0x36d4d16254a457830571f97f136aad3698aa5679a907dee0b152785b4b646e95449d8a075664b34b47aae287a683dda0a84458d06,
  0x1b551d93aa8e09c6d048ea1db054b13a734af3207eba92b5fb09f9c18e7a808eb50f6e6e2503f432052b4791ce6a44620c23375c9,
  0x4cce8b5ba99df8f4ebc7d8ec2a5a0c9840c3ea2fc9323274d7f408d65b301205b49b59e8ecc0c14b11cc5aa521757d1c7ed27f13,
  0x1caf1a6d23f0f006eb59a955912a484a661615a6e3fa55d317a08c36d8ead69408bdd2d24f3a381646d8c58f71fe81a7d128afae2,
  0x603bb575c1518dc354291b980679867ab87bd17cc4c3eb76d422247c61c045966dadb0d51bab70adf475a2d309fb1d303084a4ef,
  0x26a2a7b4d240ad4bfb0315b24c38b4ee1ac934b567eb3f09f07f48ceb951dc6fafbb0a073d152417073adc9f5d26703f8ee960b5b,
  0x9aca6b47d8b231d9423c6d8f7835a3878eec3584685b235a1c8206694bcdcae8b31e4ab3ccb75b868276e4ab85421eab955b7b3,
  0x37bda789c5d8d9f57e91d0fd35b290cc3920c87a91fbf2cd2d36a209d41f90e714b5983bce7aace6ff359df8e01fe982c72f9434d,
  0x23f70e19e6868b6292fa7781c5b98d7946911ac4ed40bf36dae698245952a080e6dbdad13324d6be703375fcebe71230026f19801,
  0x15e06455d9435f901c8948d2a91efddd0de1ef6e0c2de5be2e5d4c4488a4eb0e214edeb7f7ea94cd753bae4c805543e0c117f67f8,
  0xb815f5aa69ca6b2a5602718b5c7c1efdc8e6c8a45ba5239580c0ad2e83334a07d5cf02b8ddfa6e2d9d29bb9e12bad4c8e274013,
  0x2eebf9fbdb9f68c75c1f137581ba45783953e726c0040eb8abadff2c59da365cbc3c8f8ccb9c5b4738b5318f003d506a52896accf,
  0x171ebbfba2dbf39056f6b8ae6ee58345c01252e2b96e7123ef7f61554c923a3ec0e72b9a5554cf34882eb26c3c31f4f89832af7e5,
  0xabcd3cb162ef8a06168dbb4bf8ed58470e52e77cbae080b3df4ba11f39daa26e5ab98da1f84257c2e5aee883e760ce0b7e0f0083,
  0x2bb3f202a58cb35acf5f196851b1c430d7176a5efefe82e370047158dd54b99f16de06fc6ef656f6931ea50d54b5cc68f93358d72,
  0x1e91c16ea174122bdb28a5220d1dc775525815ac557686a91d2eeb66b708a3befe5c2ff9f4176c51d375ede97b92d4ea1bea9ae3,
  0x32b14c18fdf8dce3f731c5b3b94d2d6271dae8fe8dc3a2c5e490be41fe41cfd4b7e6d12d936235d49748fc38a4e01d23c8924efdc,
  0x1556329ba0a785a38c74d51f9c53474ee5d1545c05f15ffc1100de6fae9ad9ef498488689294da38d4c0b467c00f7cf50bd98c5a0,
  0xaf64bad4ff8e4229572737f6bb94bdccec173309d8561cf84c0a88e13357252c26d2274f5434e0dc4ff84bc59d98c4376771070b,
  0x2dd07799a267be46853e7de4e6362e4680c3845f58757267348fc364201293cba92b8a489feb05a453946b73b736c2fd8f6c7eaea,
  0x39d2592d9407311068fb4b885c05c0f408dbdacbb28b9fe088214af706e31dd56f168dfaf718986f611a491b650ad5f49f4048246,
  0x2f34c31c6220df5e4e139c2d7d9d99f73fe5f7e99a39d6348972f5992fdabfabf7afe25272f2883c8534ec16f686ce30cd166fccb,
  0x22fb4b59a23889ad1f9dcd2ee0794c9f8df30f216f5ba9f0eff0fdeb0312b2868e567283c11cc48c336bbc051eecf238ad25de6b1,
  0xde2033317d561ac11913912ae99c42882ed34e21668421275ad288717d4664ea0904d37a9ec8ccb7b197e25fb54a82094f2e7ef9,
  0x191135a389472776b3b7d29bd0b9837c0fa958447ad87d25437b2a4fae3c148879d6c83770f9a9a6e5d8174e59908b69a3e84fa29,
  0x3b4686e8f07eaf2b6b9d43666014f2861087e30b14e828a0514edc31ba02fc51a794bd160aa7a4120b871255ff5b52700fa36dbd5,
  0x2921679a95519582b90da59819dec2c8845ff527ab594e658fbee02e5da4850e4dea5a6cb1e6d55f613d3a3366617884813bda2d7,
  0x28630e02be92238470d108359e1f9d222e23f00ba81f046796387dcccaccc1d1bbdfc621a2dcb4cd3b7d940eda40511487ce43c1c,
  0x19667bb9ea5a17bbf07075b04c766dac56f1ea822c672ec5ba74daadc869f66a37b473eb099cf4d0aca27a4ebacfcc985a3947f88,
  0x2d55908efb0a112cb34d4db771bf7b56a0929ddcb158b914d71a4f64fe1342dd452989415e193bf9e9de6f1bd4749bbe5fb79866b,
  0x364bf125b9738dfa95dd5dfbf3ae37eb2f9c89b4d0d3434ef725d260ca6aaa5310e055cdbc9b54390117597460e3db027898cac84,
  0x21267340ffd0b37d051e3636d439e4fb1d7d88fbc3f8ddd5332ef24e72715f5348fa098233dc39209624d15c62258a2e95c903831,
  0x6d600357b81e8fd009b1b3dca4246858f749ce8ceb6eb88e6d495a8c344037ea2c79029477ed87709b4d8b6b6f21c42d92d6f16f,
  0x263ec35a8a9273a74618e3381fbc5c7c6aa08448fb54f3035b9e4f36f83bfb924f3dec0ecc4c505f1237a891d9ced738e02eb1351,
  0x2a972b1becb98816b9e6285994bfb5989ff0e7ebab7548c8bbdf22434527654171c404ecf7093917c41981df2a7af2d8956555bcc,
  0x2aa42349ddddcb1bcbbc4c9da9ee0ec2cc6ce02e1a612945e46680d7a8fd9f2525e68e53412956d68198583e6c9d7862a791b3de0,
  0x393b010d8b6f3df6ab66977441676ae04cc5f975f2d1606b928ef545c4721292f5c2706a7744d8fa69e87c5dfc68b56c27f3c02d2,
  0x1f48e886cea5705b170af450c6ab29f17e44f79c81dc0e031b15527fc53f4eda2d250fa2d9288944f11db063b784276b740b7ca7e,
  0x399b2c80488df4f813bcb6ce93e5fc1197fc8117a313bec3b441c699ff62096a2fe3260b7ae992f152965fdf7df23f94e22c0373,
  0x3849acc6bf282a810313de6eeb028ceaa6ab11857d9b338cc97ba36330593a430985a22f92c3193557cb3f0becfbe9785bfa809d7,
  0xc73d672c2c2e543af07610b80082d0cdb312ebdb938560e76838898bb2e8832f21a6e6252db8cb3fe0e40ade7b108a63226c4747,
  0x2af7d95c775d4914abc96f2516100b10ab5c955a5251c8352d6567a669624628da5139205e5f67a44efd678313980fe1ad4fbe559,
  0x87598dbdcbe40f8c4c7d823fee33b44cd6b325629e0333e356d039f284294e604cf1e98f3178335870d155cb2880604e578d3e24,
  0x126fbcdea1c48dfcad327b726c977dc49d939662008a235b9bdd247f86641b98db35bf2d7e3e748d1cf3154a222ef406a76a153e5,
  0x62512e9277293a28969c8a0b6d3b8a905e7e307be657da1433572969d474ff2da60c658aa9154696ed124f5acaf7929f0ba8beee,
  0x1365f2c97d84810716403e50888d85ff65fb68cd8139882a98bbdfab84bc397ba3957b772b2d034adfc221940b9bf939972ea6345,
  0x39d38ff8f52a9a2d1d6f3c9510d30de460d17244608612239c77b5948fdc6149e5f25f1525e7f22e8ca8c919591d4bfca6f396609,
  0x18f4acb02fbcf922c17b8772aa4dd9762ecdbaf40e590d2cf07ec8015ee6e2d72fdddad5dedd286ed7bb16f80236f6560986d31a5,
  0x2900c09e0f088a51fc1cc08e2fc8cb0df2bdc628b4bb02baeda2a1d9a0b66a356aa3915940779623333f2c53f88250eec11c5605f,
  0x34720bf6cdcbb5a8d690f27a32711f10f726f3a38f03e4961490bc4bde007912024121427b51595be14504cc698137e7f5465acf4,
  0xb1712b4b4419a08a65d6013dbb074df63d6346841e46ffeecbfd1092ffd0d5595e8ae82b162a93bc91d986ca5ecc8b7e602699a4,
  0x2b11d01c3ad726933736056f2335c5dc3b6c2394fb973744c1ba49690c152908efc2c40eac8a5aa2123b24a0c84ded67bbcfe7268,
  0x1e2874777667c44ddd095a859896e95d8d4340bd263c903c0d684933ac6f1d7cdd0b41341a765afa592012e892a404bb183905407,
  0x6217f90e9781857a9b6b31c721d558e5128557d02c627855d69b947c250f3e70c9d2f0ade29664d667fb95da495aa460619bbdc4,
  0x28be5cfafb636c073b46c507e5c08beeb6e7bd50a1657be3fbec7851fe1c08d1b15181181b97589edc2be1b8818ae7a723760b82f,
  0x36a1d3ff59f8ce8fa46dcadf7c5e006d3178100cdd9567aae5420eb96bace2730e8f7da89f6a79ffe1eea5cd244ec91cff067fce5,
  0x121271085894282637adb4d37da925eca46695a47e2402393f582768e289b350cdc250ac02435d3e8e206e680508ee209cd08b6bf,
  0x1b3326dfc15b36fa06511c6483fe661b2ee1c2c3db9464875479bf79b30a15ddf2198fe18db811e01a647fd5b6083bf5466768898,
  0x278b1aabc5d6a3e6782135162d3edc77ad0209023f49616b95251df62266f25c72e6c93176780d9c6e47f00e97a3db89ffbaa243c,
  0x132849bd8c05697cbb88d81e550f06a01d44a9daf03df39a0fbd4f8be1e119829bc66990aa7fbaac1fb0ff38e31cf7d529535200f,
  0x11b3cd7e713b852d020fcca90b22d6bd3418130ebc637067e430da7bc4ce5901f92768c15f56f0f5637ce50987fc8260de269c80f,
  0xecff73d06f99bef7958a6c892ca61d67db32f7a12ce123c54db8b20576a3b9abb486b4b8efdd1d24e28c000c8504176a9b5145ac,
  0x10258baa1ccffa0bc5516c3af7ac2525e6d247274d695d8810414da0c743e9986375f04be16f94895be3d260a77bd758101f2014e]

/-- Bits of the order minus one after the leading one. -/
def bs1 : List Bool := [false, false, false, true, true, false, false, false, true, false, true, false, false, false, false, true, false, true, true, true, true, true, true, false, false, true, true, false, true, true, false, false, true, false, true, false, false, true, true, true, false, true, false, false, true, true, true, false, true, false, true, true, false, false, false, false, true, false, true, true, true, true, false, true, false, true, true, false, false, false, true, true, false, false, true, true, true, true, false, false, false, false, true, false, false, false, true, false, true, true, false, false, true, true, false, true, false, true, true, true, true, true, false, false, false, true, false, false, false, true, true, false, true, false, false, false, false, false, true, false, false, true, true, false, true, false, false, false, true, true, true, false, false, false, false, true, false, false, true, false, false, true, false, true, true, false, true, false, false, true, false, false, false, false, true, false, true, false, true, true, false, false, true, false, false, false, false, false, false, false, true, true, true, false, true, false, true, false, true, false, false, true, false, false, false, false, false, false, false, true, true, true, true, true, true, false, true, false, false, true, false, true, true, true, true, false, false, true, true, false, false, false, true, true, false, true, false, true, true, true, true, false, false, false, false, true, false, false, false, false, true, false, false, true, false, true, true, true, true, true, true, true, false, true, true, true, false, true, true, false, true, true, false, true, false, false, true, true, false, true, true, true, false, false, true, true, false, true, true, true, true, true, false]

theorem p1 : Nat.Prime 631147317938074783288740606521862226908891080292322756358890425276370446510966235390690914315674012695198778074905372976645169 :=
  Ecpp.prime_of_check (a := 407646003192752835456576385602326980703827212605668046842682349813232963136889129765709441953294351464665190812106384353547388) (b := 184144688447430887624412164682791734498763344919013337326474274350095479762812024140727969590914690234131603549307395730449607)
    (x0 := 433767928812615850082335331928459330533413743789426123647593246941811826742151993713276394690212561729189751516747925834980727)
    (y0 := 169385068186576424485036771659150480504957919066420496288680368889972412590468501745700820103075588357970284443125761650342714) (bs := bs1) (ws := ws1)
    (w0 := 343317096497546872670870624072285551017609672272006759383598065117921785778505441766639268240949212028405584632078723041963216) p2 (by decide +kernel) (by decide +kernel) (by decide +kernel)

/-- Inverses used by the chain. -/
def ws0 : List Nat := [
  0x543d02f50cd6dda989830d3288f49a2c8b641484547eaa745c9e1c9d52448a56d9226ac3a2fdfed9956b90c594b69c20249fabfa74317fcc,
  0x56f1ce2fbe06f481d34e9992f68205a16db8891b9ab8518a2752d74a6a4a60065e54e70353497103627f322a37bf9504c159a035d37f62b1,
  0x114f9b6fba2f4430d5d739c74dd71b6720240e961a939fb7357e366027cddc479bd485ab247f1b1cbae0e0916dcfb9079a6404c7e9ae523a,
  0x115e06e34833be8866de4e0cdcd63e7088dbeb3ee141ea7d5ce13c049c14b4c658c7bc2af7e32696a9e6779c2a9cd1ad5f9697d110def268,
  0x8aa5077fce96d8d0b75300d5df83f2087ca7a8f2d58a65d89d3479db21dbdab8c90f9cfde17fea99a9360a2bb072d9ccb0c9443594dafc30,
  0x72b4adb623b50f07bde8d758913f7b8a6b101402f1e3acf93f340ef122e7e2a89195a08a085e749681c681b49e14190f030c008d9c180bce,
  0x1223481e30c36691233062719ffe51a2ab3967537e87628389d5725db08ecebab25ab9a1ed1fb3e01cd1ffdee63099c92d9dff14d198161e,
  0x283ad30808e9d2c80ad57e0497d390d96383de4d55e71cc4358c486e2d2c9963faa641752a049da1873d6fb3eeebece28a2d17bc5744aaf6,
  0x4ea69b11807b4164a1f699edbda377c5b12e50b7274d83819820693f40ba73664f009b869c5ec319d19cfc4635500d03c09a265beed6a1fc,
  0x4f98a0ef8c29a5d3bd71986adce32e807deccb1826d58185f4dee543aac69c6c52d10733a9afbde329a2212f859a81aac07719a1d7ec9409,
  0x140c2d9df62266f882723d7e72d85fd7cccb84930c4f91678d1deffb675c81071af76c3a1ca70e71207658afe6dd648e4142a466014c54c,
  0x125e061b957a85d24761be17cc08f4626f5ba9110c8cc6a1a707cfa9da0114be750b3f3465c004c176bdfc3a4aac1b1433d464f6d92fcccc,
  0x72fa39154f442d1af4dd266425a86380eaa1d7ff805d6c42e39db5e828225cf46fed2a32259941c9e0202af7f6b687e96777e18e84c5c0b4,
  0x427812f59a0e1a499c0eac36a44334fca7dbb84ab058bedeacb2e189a1e1fa3aa42240553e57780829f61c0c46608cd9519ddbbbb0d5def0,
  0x8c237a19cc8a519d67acda524bc625e0fb95a644330fe2625fb779f37e0880b4b98d15d42e39ddc2610a5cc5f48b9c403eddaf244b363ee9,
  0x347fc1bd49312dfdd4e928524fc6a60ba6d66e79a62fb47f121ea1b660615db68a14d654f8cbe398e4753403e6e25f999fb6056922613eb9,
  0x8bef480ce28cbd3bdcc35bada7d1dbb5f24f69de5f2e962db21ba2e8aeec2f853a1ee843749d5936849e7580a603a386e3cd0c033961447e,
  0x518f67079f65f3c5c089b6704957739af9ea87e2844c730965d9f8dbe89cf6ad3922db9303bf139924bb63395947e7913382c68c71469125,
  0x5f277b9648ac096fada5ae2b3a3e62e474d328c926a3c51a8ef10e5cf486bd1815a0df6fc1c70839a95180dee01f40167413539d67e6a93f,
  0x277c9344592d6754263c0aaac15285d02f8e62c1600fcb2cdbc529630d863c25974ae0571c3f4b01163dade42f71288ba5028af964421951,
  0x64117b5a78c089e10d324409657f5d08212cc801fb51ad7786553c561b1bd5b94c7811facd86166141856cb20115a4306194b48e0a9266e3,
  0x4bc3e66d6eabd22c2f2f626eec5504119ba071a2d5167ea495eef24649204564313e8f23610f7074c3c2c315adfdb2e365c28e38659478ee,
  0x670ecf315b383f8c7718328a45d96c9a714267a9e4e1768c7dd38e54a0a8843a3bab116fa02565b47b2076e6fef0720fa57d8313864b58f6,
  0x883aac550b63ffa2b759079930b167c5f0dea7af3a64aa7e1a97e06ada12a6032d8f9259b28be83d25ce4c07727d1f735d8782fcc0d8cb4c,
  0x1a6a347b973d521b770b88ac24a3d6706e0346f2b76d3c81ba3892e9dd624ffcafd1906ca332fe228b0c3fd8ff6f74df059673e0d4038730,
  0x2af6c6b7d8d286f063946ad0aadce98facd1437c74c5d4f5aedc615ace3755853415255257a05871474dc405c7f00a0487778de44d0c6141,
  0x23c7c30ef5b995696f25017de4b3be8ae764191439fb09b14a232542449f1fbdecc000c650d9fed0dc99aab04db50ac48fd36f7013a21bb9,
  0x14a21573462b209e80d822b141139aed488310270d05b1fc1c1d0bf389c0cd212627029921f7d81984e05e20fc083b97f30f530fa14bac7d,
  0x21af9879b071f7d8800353110071a026ae29680f532aff77c4fd7ba33e4b84da268ba76983d501208ea6ce769f111ca54699fed9ec9e5a80,
  0x3f3467b73b2071da8544168abb44f2a8a6c63f5dcfa317f16757e4328d6905c2d8f0ffd2f9c6586527062be67e695e5c78f32411c9182a6c,
  0xce7902aa5ad2288494c686490c3977643c801d58c6f87957e859645775e412bc685efed22bdac4d9cfbf4758b5b0b23d980a37c94099d5f,
  0x536f929512d8c22193bb925fbbf9938a4e0f71382f358a7257b356a151bfdd18b817beb98af75e80170055fe15380788f7c6824cf98691df,
  0x89094adcfb757d3ac92b62bc8aab9bae7baf295ec6ac1c555b5cde1d65d24e149df8d4ed1abae4e7fabd50a6ba658c781a16d45149c4f92b,
  0x4e6ea652aa967d2ee235c14d63329c299614ec3333cd5271625816ab1ffbf621dc3be4b1a3fc5eb94ac82907a5f957d2875ee883308b6074,
  0x19ccfb0cdd7b86be9f94f0b47200ca0c33e559b2d92b98adbde764d227b3d93549aabfd67186e43dbc76b52e4d75800e5a81aaaea98b808e,
  0x35c6ddcdb069e5eba11de64ab89e7d93880a8537b04f008dacaa447d0de612788afb6dea4f4c0e95293a712691583947486fc8cf330a3337,
  0x84475a56c3c0f5028fa1527a18a181342277ed173647e11e766b639f2cfc3d7ecb10b470508fbb717fdd1808b4200a803c74df7671795ae8,
  0x86d02945c83347e50098ab9965e204ad586073206ed34a2623f0bc4669c2bc7c3f3e86f4a37dbd7ed6f7451b2b0c302fd51f26de1ac5c5e2,
  0x67dee32f5645f204d98ad4be45b5a2853b6eca3a2a229989973e50fa6ea6d59ae1ca5fd7f078190a0df6e67d470625927cff8b58168b486f,
  0x6ebe9a94dc238b5c7ea398a4ec891f4756699ddbc61eb5b688231eeaf5f157dcfc87824afe3232e83522917f539a60564f8e0131628fa655,
  0x17bf21082e5c3d80b4932af8f237e70682d271245346626b99a7fb44336e225a6ce5221df93fcba1f5ea9aa3e01ef326f61e7c1640d420af,
  0x27b9898c57f449908ca9436efef5a3b59662fdcc3396acdf84b7937dd712a111af78a716f56954c66ad7e4460ddc892076c72588d566236a,
  0x2f521991b1a5fd683d9d85d1715c5414614eca31cc3b34d99d8667567aaa7239b7dbdc5f5548f2c6385adf9cee78470977f0aa3ba0951916,
  0x5bb95c1fec19a85dcabf1dcfa3cc34e641d3dd6b2b98b95570ab7848114384fe5d62bb7ab4b601c8f038074ff94840fe88e44fc9639aad2e,
  0x1136becb05bfb911338ceadbdd078dc50f3cf7c06ff3b3105647dcdbc67e4cea807444bd720fea8a2b090c217a624187e54cb8127fb62f41,
  0x5265e127fe8b09cfc9251588f6a46a8cd59a760d362b2191a90e8a48b4ca928b6131c83954de0b0fa61fbe156049e93f5f19da4f489fd373,
  0x6222e6bb50aebae3d155ed15f87437d0b610788dcc088023d61ae52fe7a744c788b4824da111d8ac68336f2f20a24f62f72d9630daf78f91,
  0x2063dde8d07ab0fc104ba4b60adca4aea887dae66f1e7cc837a9f3d12881b6fd553726ec119f949b9705c4bebd12b2433f38f531b15df316,
  0x259195cb163a900842b06bcea8344f6f6ed93e1c7270b98069b0bb2f6f55cbcc444a3828632bd3194c7edb760bf0f90c9e78dacb93a4b00,
  0x249f750ec47d962c70354244dde9fd802e7ff879051213448b8f94e7fea4f4f5fbea65ddcd13ddca43d352d5b82562719e693789abbfdb07,
  0x4a509328d2363f44c4a12c2be611bdde45d2c0f3ba6354a3fd56f2d1d8ee78a02a6872ccef1c4215993ff97f544add3d85a7e49051df2289,
  0x4ebc4ec1c60c19a3a31129b382b5f864b0b721e292627ef670218800fd3b0a986c54aba60eca623509b7499816d92821393e4fc024fdc888,
  0x4308a5e7185515f7cc0d7f7ef7350378fb608f3b4d4fbc06233d4537e384740bfbe4c3b3a8641aaca43cc466aca6e6ab0e6e3169930a6c9a,
  0xd6a65e03d73bc7c5236fee86433f8d915f84b9fbb79357ecfc3c0fe5fb7e9629fd18823d7c56ec9c02fd8217f91cd10ab9105c2583d2b06,
  0x619c6fb728a04afb8ef1b40d1c2f7b4b4ca06e60cbaaede0463b442898a8faeff49e11320d2b138108b56e85aca80743c08368686b0cafaa,
  0x6fc0955b070af2861fda741f1999b3b7be91af323857a5b4eac2322146f416b6a81c57e4c0a6c2814e1cdb64d7285c71c1f7735ba14d197d,
  0x404b6c624f88f6732c9f2d41bdf0c945b066c47c0ab49254d827b4fe8316c0ff5d78764ef9cb70dd4b11afc5bb42d8599c9171f8c5c1a25d,
  0x2fe22692ad9b88975e5261c63a3646be82faf5f47f23305422b2c343bf33f2413b867ffd08e81c014da139578cea51d6c1aa096729cf1a4f,
  0x36bd413336180dc9a30e2e39eb116b639385e4b88b5607777872d4b3deac52c94ed7939d53c7b6bc6ff9f284e124eb472b64774af8b91ff1,
  0xfc63f747a417fe60fd2907c054a018b81e8b497ea1d7c85e84aed9cf3b1dbd6959280bb2796f946c08bf7b1897ed9044519d3677a442b42,
  0x5fdae89251de66f10c2dcbd8587ad1f7b1b8896fbc67cf93e9e263760534ead737d7b5a3c2f9e1dec648c5f3b5d689689cc168af9dde31c8,
  0x73fa3ce0ac86202dbb65a64d46119a97f005631d428e4d10d89eae7e11bb9f95298e9feba99d61d938d67bd61598e4170a7be568fbffe12c,
  0x12c73d671dcb3a515d063816f10a2de8ea7fbe2e99c5bfc8b157b840fdc65fcd8e6f65bef79eac8754fd786cf85d9b3dc5a1438441c77655,
  0x8966eb72e02e15f6f9b7877ee6b3bef77b73ffa5b3431ac2442e19c748d071adc633094f371d3cd6da248f05f7f14d529f8cd4b928220119,
  0x6d4e3a68f8e8cc9a7fef7cf30003c8d9da76bc8bca794743e6cf6cb7637a4542c68a7f7c5a5f60075cab967bb1bcce3b5ac53cd1d054463,
  0x7947aefe942480154802b9527c60c16a0d6e3d5a94adaf015248f6b3b9a25a65fd3fa38faf10b889be9db50a0695f3e5e03d403ae51e87e5,
  0x28ff9e7ac7f94d849ed76f4f257893234acdd41e9acc722cf29efedcc7d4da8c1ac209cc39f3e6f1096288bc79fa5be9ecc6e6014b9cf3e7,
  0x8a5590758004cc38a7694a305a96acac6c48bd3e6e51f11a27c0ea5c99538190584066cee2db89b88d7e14d10999bab511588b1fddbbbbee,
  0x60f815b16aa59eea6fd0e4c5e6aecb95a149bde143343178a55b9c71387c779ad40e5f734432990359a96ebe54e3a85651fa0fed3ed5c499,
  0x5684226f79b9265f15855318e4d23a6204c9a453c33a11baa39c227e6f84f961a9f75fc575ac16b62ba8bf034a2bbdab59ae7de4e0d55221,
  0xf9a44df1b5d183fcde0df4f870b2ffee7238a293dc301bfe5ad154bac4a9c2f014d01af730279805c27a0d6a378e9f4242cf6cf34c13f5b,
  0x2522c8f42d0035f132f0d83e939d0b0a511dd3c7a726f672d8c775856907e7af1cee545fa20c323b0dcdb0415a733ce8401c0746e8844c26,
  0x1ace0a990c2813343268ac8bf26fbdab421dba8c83c22b52b407c9c39b887e0cdeeaa4eb7424a3a7250717666ae8ff1ac47f21a14ad634f5,
  0x2030ec7a68f00e9d233b4da5090c9e8abd36c2732218e1a5f7b5650cb852abdc584add114faedde93d3db4b387a508658336adb1594a467f,
  0x643eb97f211044c7cdd221597fe385df45ec11dbe3dfbb17a17092ef17869b820818b66b0003da89fc4af0cd09e1c95d297850a84e3cb3ab,
  0x69d6604a630d12b8d70965706683ffcaf968ebe4d54e2023cff84ad1959a3188cdbd3482361af5ff8c5470d2160e5b8c5ca0f915131d9d8,
  0x281aa65fc2b4aea940e0b0fab624c685de9754ee867609263907177b2a3dad5f4b874df171402054ac2bfadc49b12f2c4714569cf033ce88,
  0x455578cc6c2a810665445b11dd5cf62c40f81b59756d6c9ad22ba5db894968b254b9a9a886a06d4b4098434de22796bbd023dc6e3178e605,
  0x84b1db0af2bbf5a1a6dad700c58daff7a0ab3e15ccfedce0670cd59048ffaad5d2e666b2ce90d24493d1ed24d226f2654a42e006d61c3273,
  0x7955e2bea2af8239484cbdf8c7e747ac94c57df410064fec634367fae23d5289d2304f779506a2d90cdefc7c68fd35f2d1dba8675577677b,
  0x9e495191910b3d84f024d123a82fbb19af7c674c075b364a280ca1693742fa46c097cdfdd3d6fca99a2dfe26c53c5d59c58089cdafce47c,
  0x8865342aef53047894c50d55f22cce31ef1687716262268a83d2753abed9a5a478a3c7842a9c61b0d53e1a2987fc5df6cc95cbcc144da304,
  0x2fde749fe57eed66a47e46645189be33994df1b5d0d390edeb5802542c4bdd75dbca8a5cffefe9f216b108cb1da4e5eb59bb233c6c67643e,
  0x563fbc47d718c4d5cb8e6528e686643abdac46161877764fede13cc0da256f7321ac76af89f87d8f318bd88825af6b3589bedaab7ecdf298,
  0x5e85218dfd6f231b61056010d92f2b6acb0fb742ba7b46000a5772e6d50e710a9951f230f4465f685d069035957b454d4bda22e468f6e0c0,
  0x7c28a5692bff25f97fa191f4b962beafd8023460e50baddb738b61727acc3b59c282dfe645f6ee53b325f1da65d59e1a181c0e745b1a9f6f,
  0xe17be4fded5781d304a2d5ac0ac4df3f48407ef9d601eaa8120f58b4c993207860acb6f4b61da5fbfa0ce3ce4e43c5a8c6f9d7576da7e14,
  0x1f7b502c0b5468723da8cb77e847b8d1bd42749c15b1780cc35369ef18b01b5d1b58c47355c2d6ee297a99bd0dfd7a7fc3b68805a6df28f8,
  0x69abb6a1cd94e3c404e098f81ddc54ea9b975f6558be9975791a84a1a777715dedf351396904e6769b5404619fe8359f09861a807c750b84,
  0x53afc72bacea354f5a64d3ee638dee5cb0446f0d93446a8f66a1b4ed25257c4c14f760ac0a1781870f1cf9b21935fefda9f1089b5a95f566,
  0x1e2971728f8a6346b23cdc29d8856cc585e28965046acba3fb2156bcf186f50cd9ca51673641b2927bb918fe271b4a82a59ae676566a86ba,
  0x884d73714c608eac9a9bd498d1ea771701b2a3c945263e3e299c8b3db3c2e2c1dfe13246a521d311fb56aaabed57950b727484f941ba6d9b,
  0x1434ba506c250dd5ba0f96f93a43d0fc3b13ed6c0d6423154e97efd894028d3c3a916027c786eda2ad03c66c315ba4d3b4376345ad650d61,
  0x2de48883322de70e26a1fc3a44eeb7258e6172fd06466b0ed7103027b88359a6689582e0c3db19023de96f0f4f628fd3f1962dfa9c56c1a0,
  0x20eec865cf5c5112680010f45b5b7e169d557478e4f7b8f40ecc15618acec3b85ca37871647c634cb809963f0a1d6acc1e26bb3d7d3aff57,
  0x9d355831a82dce45a9914cb91906045366ae6095097deb53402fed9282da2fa88b080a4896a785d0f6dfeb69e966db6292ab039f91d1ed4,
  0xda0d570ec82783d4d979caf3e64701a4282bad65d743d1eb6dd571037a2f9683bd0784e40fae826a6c1765a4cecdd91c63c0101d9d9cd22,
  0x8c67a5d07206eee0f6d1dc396c149dd5e059ca2627c7c6cd3d4bc4850af04fa501844c258d1f50f8674b2a4956814b4d6c69e64e6f8c6245,
  0x80dc719ca0b3aef0fbef86b52a7d6b5b7b51da6a137d7a7a662d197ad90ea7b402783bbbaa4ddab908c412a4fe95ea7069e5ccca3962d2c1,
  0x21da524c39249744d3505ffa3654f08a7f2f3e19d1932475e1db01615bc2f9928d4df5332644008929e07bcd54c2cb0c9f008606b6944951,
  0x491afd95352879cc46096bd06aeed46997013f7d275bc7282754f57c1bce0ac42b13842bd795be793c82e3d795de22548879a5bda3fce728,
  0x6d421cbd9559386c2d528d453d78185ad87ce8ec4c8a64100ec2dae614d4b8b9d63ea440616d7717eaffe28513f903e3e423ec75d770b75d,
  0x798528a81e1c2703d47c572780916ec55931cefa1b480d12e211aafcb364588b7fe07f8e99679de33c80859351bfdee6fedba149c48aec74,
  0xc8e5dbc9e04f4649ef66e8c734d0853988366205295dd719a02c81ab6ccb1b214fc25751d9dd3ea85dead5cdcc031f1aea874a3b8718b6e,
  0x5fc6169416569da4a9375be3c73cb390cee611cde9615ef30c876e65b9e875cd1ea9e7714adcd6a0e2fcac226c534dafd66517d1518dc08d,
  0x21eabe4aea6d5af06e65fc8ee0955bf3bab882065f6975721abe49e9c931be5e21ede934c95b590241a0a4d2ccbbde7f10d8626c58dced4,
  0x46a19d7807302b646dfb2f37a7121a91e322565022e0e7d609d1d2843780cebe8a7a2e5a066cace81e6969bfc43cb132756b9e220318ac2f,
  0x802e3b2856fcca2408550e1e9b93fc8e141b032b7d486fd4a1d778a61772e01a7e1391eae7441bf9fb1cf1d32120347efd69e5055c1a9011,
  0x1c8408ec86fea0e7960ca08a772be832d86a79d63ab2315430fbf256b8a262301ade3338cd75f7a8f32b7a664c04e9eb47b959da1081e0b9,
  0x1bf35453efd1ea0afb0ef0a0862cd1582eb4aaf8fd7c92533cb17a3d3694580eb98607bcc99fc23621041ebfdf18252b78c63b61856c5a6d,
  0x1202d1dcda7925e385ac85d0b3ec2d7250f6558266d9600d7538432fa31e8ce03339057ab080f6c2812b2f031fae62889411896fe070dc4e,
  0xa266e61a97ceec567c4a1674f1fc49b598e5fb4bb2960646f59f0adb65135a1c022dd0de5939818d4cb235702225f7910f6a0a2331474ed,
  0x4efd2123915e826e1bd8f446a87a1c81113e2f864ca9c9149ffb9926f0a26a83d3502c90c239c6c4711e154eb649284d20ebc70d4c7f792a,
  0x2008c271ca6475bc1d8203ea787be33c93e20d981b1f73f4e731f87973e76c049b820709ba484ad7b6076ad6a16e0b47ba752fa473a1216c,
  0x7f22c8ba029370010a72b8d2876f2f5d4be13ed98dc035bbf6b15aa0d4bc6a9bce3d100f29c2af0d7968ad01410c841a9209915b28f2b4e,
  0x2be0cd633967cb3266fe1520f832267aba6ddf5dabe15938ea6cfc64eafa351314b4712f1afa623fe44b1ffc16db25cc91e38d99efa73c58,
  0x717e9f65df806ec8ca30599f852dda38a95d4969488f6a6f924a3e504654f50b6e3c2c382577a42fc3c6f6522b909bbaa06e02f73d547d9e,
  0x85a2351068961eac3749987524bb8fb406457edb1ee4e14ac3755424236c1e09002d7291a9a010f4ebda57615ebdfedbe972296bd3556584,
  0x1055ce0ca0522a17a37e21ada948c331b411d618e1f88558dd45df1f21afa0d7ab04720f505c6b7824655a07511d82cf10b6ae587a00e83f,
  0x7b4e6726b39df0a70fa5ea049b33200640d74cad38043654503dc1ae5180e5fd3382147446333c3ad0d17fdcdcfaa0c0a20fc312cdb08c63,
  0x8cb6449fe7bf9ddb773a92b0b736b5ca0d8c4a9d4c27d3bb76348b3bd806810d0216c6a74a466c1b6fe75faa611fbfe5d1f1d11397dffa6d,
  0x2432c48cbf64ebcd64a23ce5c94d5c9db69e99405199b3d307459d5a0620b3eae56a83a351b1a0b35499830c0af852d4f1ccceaeadee4016,
  0x116ea34165941980b1afb866e81bf4e7ab82668770e5ab9cb3ed9c97c3a47acb6fb3fc797df6780df0049903d027489d8a99270053348914,
  0x25b65c6d2532cd4ee24be9b283d3bce6d157177e45850bf31104e013c6736dd209a8abc250a8947f721568939574b94a4eedf122203875aa,
  0x4d37224fd1f160c57fb1822726dd1f483d9fc544a0249d870c3e2a134d5daf84dfc5e4333c2347a7cb3ceae70b264aebad629105b4749cce,
  0x414a6199037732061cd1534a17ad60ecca3c2d3e6921ca56c0941ef76a36a9d96df05d68d11a8151f26f6d8222d3a78427364a1718ef7cdd,
  0x76990cac9dfe2203d3b228b1331395e96cbb2e7a9c671d2569796c1cb4417096c34a0c6455b5fe809ecbfafa40e85e9024cfd4125df5f02d,
  0x4276fe2675180286386932aec363fe075b6c3c9eb8cc09eaa161f5407e063c2d8f43bee7be270628832022e705a9330278a2d25a7685e550,
  0x7306a32c6af3ad45a2c97e5d652056f97d915d222f7e27adaf58e6fdd86932f553a8edce2557a30a0d333b697fe7e03d3cb5dc015707bf71,
  0x4645f8b8fa71daa57ea84028d2bd67acc8759773181c80deb6efa36690a5180991dcfd57ca68a09408fd70e24c29e764107e07b2b24a3cd4,
  0x34782e561646872d51706690c9be251435e0e1f88f05186ef917a72625221b47b4f4b98b31b3749a782fb1f41e5a1b6968b81fdabfe86364,
  0x512ad04405feabff10eb895540409892a93e901bc606ffc82bcdedcc0dcf7617e1c829a2b11e8bcd624b012562443b8acbe20887871a0a22,
  0x5d1d2cede6a20e28900efb8aff06ef18dca49d98f71c57b1db36e7ebf36ad557a9cc2f24f52f4142ab667e62b162448c158fb980cacb1195,
  0x498f8fba30d308cff531174a3dde50a4c4d6252e6579743ec9a49d3e0826b182f92a4c1ca485eecf4c1dd13dbfcc86002c432b96a3aefc7c,
  0x15583235dbc69b79e25e30e0bcdb0c658d32595c1a7c81ba7b902f86e2173412be01a5d7bf71676ddaaccfb98ad023ba821776d76f7ff405,
  0x5f6295be38aa8f569548ae80baee933cf482455d8e716938e24f7ea547728472feb2abd14238cecad2bbed6794567e831b781feb5f3703fc,
  0x7c18939fe4c6b3a793d53d5d85405e8d14b7c236cb26b861edb6361306632a27b626c4c0ce312c849bee65a376bbf069f3f70e10c8f9c58,
  0x17e7ebea64ebf0f66e6f5d19af5d7522f2dc1269bc73a203bf8cdceb80849c89877e457a421ae98fe70834fae54eddad5f6c6a97ea864d89,
  0x2d0971660e41db6e1b5212f783f6e48c9ba3f8cdf922ca0867a0ca1321500c658d68923632307e4be30c4101afc5c373b17e06a7288c92c6,
  0x179eaef1de3047fb654c1e8dfbdc421d5edf9c0799547e4860878c485368ebf99fa8212c7d062f566d81f521b62bfdebbe1dcd160ca6bc18,
  0xe1b4499c7f6354957fdf4407902c56dc4f4cf1d3c8a3f966f234801c9d50276ee35f7aa4b16de9128d6ead900c054dc79456fd09f6ee431,
  0x640a7cf74d7a9b84cc1bcdbed50d4690796bf1f4a4a01b6e79d182784dbf682a6d3f255adec282943d799e02b3bdd239d4533c21bb4822d,
  0x692f10d022d30dd160d24e5e2722e1becacef6f1e4e924213c1e7dac61dec3564f126719b15630a8412a87d46c1b7c3c6aada24afc218884,
  0x5b905c4b70d476af84984b761056f19b189a9878ad92e1813f8c52514052db12c8a4f30f323249559caec803e793db969e1f099ebfffb8df,
  0x35bbaa75ae0721edce96e25ebf1499948f52c8c83acc2b1a4dcfad4a8688063da3c0c03c20f8de9ca7c065046fc69322c31351fb343e2406,
  0x7f3d963012b50a11eefbbaaae5188522a5e9e865a2ed32a7bccabf6b85efe159fb7531bdb73bc714262c2cbc498b8a4dbd1cea16bfea5aee,
  0x3bb37265d5a0c36e713bfa3827849d703e1a3fd3040d0686fc82ad2b494344980a292cd050087dc5ba82b0332980a641a706ed357e63e14d,
  0x45c4f87f316391c5b545045fb2bbb888f2ac66d3b6218753105b4bf63a8b5f41a05ef8af4ea8705cc28a1e506dbd81794fabb554a386afce,
  0x65f8a38b6f30d724a0d5b339d14033d3b99a4655bc1679624e3790aa44b45b0a28cf0b7974c5ee41451271dc2c755d60c4884a2263c83866,
  0x2ffb2fb0c1f86584bbc03c5d2ecdfa9f9bf32fd90e8aad601967281c3f0139352b67eb9fca13cbcb671aca873f05eb8809a24b4a9208659b,
  0x143d4d1d2d99be5e0fd76827c72c7e916cbac54c741909b41b00abd26e9dbb399275d85c920f8551404a454d15b6767ecb2ad3fc0a8aa5c2,
  0x22d514f45557ff664eb6361f21477fa0a1097f9bd77ee2ce297ed082523ba15bdd1787b82f6a9768ae41445f9ac3db5f7a69afedc4f07af7,
  0x2c9476174a010c15c635726a8a6d62a6ada7bbc3bbda4d9c8eff5b21500ce47c678f2d63ae923f99245c57ab22c74efe411927f29f49a06f,
  0x377de0ab5b49fd02c6dcca720dd9845a66129324fda469f9607cb846a9275dd4c49535cb3a3f12b5764bd5927fbec44a376648969cc9d1f6,
  0x3d02d45022b60c3ad7cbc6fa676720c397b951289ce5905fd75ff200f6480025adccef700c097b1b7a3f1c19e2d041649c336018570f924c,
  0x426d1d82367d6f8a16c31f2ac07f0ae1e37a7161dcaecffa31551fb57e52e3b07983320dcba68534f8a940bcb93ef2da59bd52246d5973e0,
  0x72b10b2b70d5b88c16c8b3ffef5c956df19434516eed612d506ca97a08ed1190c5efab6c40e7e58372caeee810ff0d4ebfac096d0a18289e,
  0x4afe690b43d808e0067ccc14fbe1061d24c19d4972df7c2bd5caa09795ed9fc12610f95171406d61db600c9fbbdab0d0be65a48df11cc1be,
  0x1dad33707ced1f79b397817b8ed2fad90e5921bf92c93af966c78989ce5623f8e268512c6a2475c48dff82a2f14e984be1d1ad1a390efc15,
  0x5822f7334af8085bf639d16ef32b1968001a245e23190fec7e1af31a8358ebbfaa5c879f8bf7c261ae31729ac86834782a4dc707fc5351cb,
  0x83c3114b131898937542812ca2af86204eaf5ef79905756b0da07e9e4d2eafb4315b176f901f4aa3f9560c11eea2b2964bb57639a518827,
  0x579cea6a3feaa8a9a18bf423a3ab3c29ba2de4f1a75ed74032d4d417e8b1c28c6f898376a6fd0b71fdee0474cc2c986f5cb3fec7a4dda50b,
  0x6ea9d960a3b593e3840f2592aa6ddb7a2c5b1554f71bd316a24d3f5973cad2913af947936342bfb80986fcabfb3f5797e37039b3544d4bba,
  0x6d13e11349f6587f0e31f6cd7cd92ae63a8d6271adfe0160b3ca6fb88c866d175e7c912400fc2f9b17c3055c48ffa937df9ecdeafcde6812,
  0x2e9477e618076be15536367b2867435591c4596385a19914f0c08b4e0b64253d3104121ad551754f03e1765ab0f57cca8a714533db96fd62,
  0x8847c3b631dfe978eb4828314aa6f87666cc818c698ea70372914805dc2250a22457df5a7d46b695d1af44ab3640822aa40b7d4f9bbeb2bd,
  0x87c8a755f92a1816d3509d2d09a253afe813e8622184b06074e7c04ca58e7a0106bcf1deebd4bba2c437e9f0852edd64a066158aeadd70e6,
  0x3e075ec099955e374f536636b2b6638f349ed98acbe3750a4967ba860e36e9e786c40b420bcc915451574ad7d82a863abf743ebc6c0b995b,
  0x5690ea7efef73139660238a22dd2734a14468ee3c856087b3fffac0f410e342345a8c95b3dbf2f134568dd8c60d3061e243248fb2e646557,
  0x428b87f5d46851fdd49f9164bbd918ae4e24fa9a9c47cc57f47f33f010342c509fa387e03bc4031e252179848c2fef90faf30c7a650babd1,
  0x3bf1cbc8387add0b230887456c3d84438f4b769a39c756c534d2edbeb1f2e829ce37b1e7526057f29432672f1b5465a0c435bd118517f59,
  0x16d4fb0bba3f2d598ef4dfb51f8677ddde809a8ff737335ae6911305b9f473a8711941cb7476a56f0bea46a234b72aae7935c67da90e4ad1,
  0x24fefbb9e8ccf98a99a36e2abf954ec9db5ba02868aebccae118acfced5dcb7eee6a62c5354e2e1250b0e48f9b9a69aca4b49d9b458ab84f,
  0x3494f3f841db3d11e794442028bca9e1d0d20511fd53b7b3444530ac4d6f3ff4e6a72ecc6b5c64d01299233b827344f94b466af2e2cce3a3,
  0x7787d3d55bcea5740d46fd72ab2cd5a9c0b42521b533431c7668e989d7a29e7190bc3e34a895fb8a69d20bc76d136dfd3c49be827ae6e6c9,
  0x525cd1465d138fa7882341ab3e0196d19c8b6ee3a13c34d24cdfebd3daf1d02df584274abf10abe5086ad68435001afcfd7808d692bdeb0a,
  0x1cc92c8f3e56bc685d117984714b98626a7ea701d51d443d8ba7b7330df7cc9acf2eabc6363602508fe4278e3969ebacb91ce7ecb5fc243e,
  0x757e507473f22674f2cc0d256fae487fd877aa7169210ec06e204d2e255d5bdad4d2bf1a997e1202a24e04e7e8cf7e316e963ed9b8b27198,
  0x2a369d3aa1c523af36f8296c08f3dda57f1d67843a83fcab952b02f38da2fbc6ee8c3076be274a0c84ab4392250494af0df876501841f5d3,
  0x3ff9a7388a24b56050fb076b56b2232673f0f1db1e55f015896d91f07947e4e6479e04ca099f840ca3ca649f1d66fc78e97066bc46312564,
  0x4d26b0dc9f2cce2463f97d60d4ec821f032f83e571377b4510fa34c1e0ab56ea46cb73ce46edd09b7227d0b37d3102d5350d823bed01a6e5,
  0x85674659d46383a6e7fb05296530019f5b80b684ee8631e86afb7b75949fc6d743cab5b7675a7994537ca4c0e6c59299782c59d718dbac0,
  0x5b9d601bdd753a7cd44a0b0d49c606393e173641fd5286ab28335d3d4f93bbd78f42f338c0c03dee3105e8053ec7f9e8d1ca41cc645c1fbc,
  0x14ffe17678b8c159a62fb7d3f961ed69d612a191145acab016b0d6b6aa6feb2d972b2f645e05a3b87c5964af95f42e15056d6a78f5fd3039,
  0x87b03776cbc9ed35fdeb96355c9355f3143792064e7b2a4a6a8f31dd487adb3fe3dfca9985d47a5f06053fed409eeacdc7139d653ada2540,
  0x541de2c63761b643e911a3fdc5ea05d5be55496fa616ca4654a2d95845b8ce003a9f7edb38b05e8b93482da74b817cee13432f7487e7c99f,
  0x3ca861701d078ef09b03d6fe2d0e26a47aa27ee8901f6754460efa8226c2dcba33bc985a5f92f174b4d8e9ddac43595ddb715b63c3037220,
  0x3a326142b2475ef42f1a82710c623c5b3f7d3a41fe6f78e7fc7ee3a1d1fdb79d709014ae2e840d5c15d34548eb65d52e27d97dc6ebc89f9a,
  0x4297f5b81871f65a246c12f88fc5c2060e8b590fcd6712fa13d929e83f4eb58bbae51da0493c23433928fa10597504c640a17a98bbd04e48,
  0x1f8e4ab60291dab3b3707af5266aba7a4e06f910373eaf2275f7ded11a4f2c221f0cc7687fd7daf96c1a73734ce569e8baae60e90034f3d1,
  0x7c105c5cdfc7c9dda2a8a85a9f223f38607f92acd4583d53770cdcbdadf6d26f69ce4032175d49d2966af5b75b3557ed46547d02fc8d1899,
  0x3993cfc903734b42f093b5b16fbf7ebf8b2d45dbeb10b46320f3ced5ca727092a608fd3d37f623d162d2e93e08ac101da5ddb2b6c8196683,
  0x2ea1bfa5d0e112fd5e4a4fe35bb226454c4c0e82ea6396e14246382506f8a3ace8997ff337bb72e821a847dc66179c222264b99c2f2f3220,
  0x18c77e98c3faa468fe1dbe8ac6780b96d590a16503bc4840ce791cceb76499c8bdf866225ffe9bd73ef0a3c0c28706ba007a48841bfae02,
  0x19093602f6b1b6ac712c5c562d00c4f68f502167436cdf6c2f9f3e1842d9d827cc6d1044894b9e2ff6293a0b6befd144b530d2dd45513eba,
  0x4a78be2c96c2bf8201d7861cd911b828f46f6bda32742926ec6b2acea9e31d328dcb58136e3983ba99307508c8cfb3793ceb108e4732f38c,
  0x34b153b23ed1db4af238874b3caaad71cc2423c2c31209291623ab9da0deb1de7afa45a29f27dcbe66e0da3804ff8dd044ad61aaea52c518,
  0x47fb02c06c8e1ea82713c2ee0a7e5fa449b37af9104e06e471148f99264c4062ab782ba1f042d4dbcfe4518260455a5f044b30c2fb175af8,
  0x434852367cf4bca98c62186d56dfab380526e2a1fee027d8b30c60b8743b1b5e17816fd35be352de2a42948aa943d0cb4ffd566a21bec92c,
  0x79a1c14243c3efeaf86f9a03d6f2608c6c4ba79df3456d677cfcfb25b3a70e739091905ef5bc18056031e9d21fd3fa2cb4fe6ab7230bc016,
  0x140ba38ca1d2b96d3ef1c5e8461832a63e41637cff48082e2649e651ea27cbd9398a6da10c51424403f4b5fd82483e8bebcbf235b76181a0,
  0x412865914300e0688c17d27392f8a23eca56eaf5497d92b8630490263accd15ff62425d158e1d9a878f7830cf4697a27fb45502465f390eb,
  0x10f507e429d42bdf21d2fb7f9a901816f6bed563c61cf81f4ae0b56496cc8deca22af32a1925c7620eb26130b45090c863562d709a8c30c7,
  0x86d8d493a4683f44bfc3552d5469f8cd0d24a69f773883ac1a71d8f6e904b74b021411a42cce679248dd59a6442e6e1aac7cb6be8f66b61d,
  0x1b88320e66fe2637e134ecedfab4441a0ac88d1b0886c9731f4438be17d9e9ab9657a35456665482bf45435baad73c22d14b299e314cdce4,
  0x5266a776ce6b2c1b9cddf480e0382d5d6583d7514fd8f8bbc1b1afd62e512a9962fb0b6ea99087d5a99cbc9e34a7f1eb7e758be96810f39b,
  0x19d1db9660711290e2de87698fd598d5261c4d376a03633df35c80559c46584b9e3e4608073c1e138357670de854b7bf6f57a5419822dc63,
  0x8d44cb5b775983d1d8ba0e67f5c28c09ccdabaeacb2bf4a725246c74cc22b64bb65f6ab3fe8b9ce1f642059fedda24c82915af419476156,
  0x7d8c5e6298d84cc9447887521617d0f3ccf5567d0f2b0b1757ef527eb9eed339222ef565524c51d897e2ef1d9a47a5b75b80306ffd6d55f6,
  0x46e50eb378b03b23c1e65cec8c5b96cd070190eda042e92f586df485e020f75d6190335d38cb4d4907ac764524c3a232805834dbde81933d,
  0x87482316dc911e51060d194e3732587881b40b4c71d71202b73764bcccccd48131516019a4a20b59d1e5a6075ed6a63226a9f087c0187031,
  0x5ed05f4cc52b5932c7f758c60eeb8529508f71eec557bf6855318a25ba4fc71218e8a7426c5e56a39f939cf1b39aa2efbd32ac46076a14b6,
  0x35f4cef1e2d035913350378102fa04afa001ba147443e973c700533dda6620606f7e594e8f47b82c5a9339f325057536928b4e13bffa8c55,
  0x659d94105ce09f68057bb9a1709903cf404598d0ae5e25e4e6153be92e64db4f360a6fb00d905eb0cfd7b9cd6e6f3ca2536acfde75476bda,
  0x35dda838c672b5f5c6d6bac104b2294f4a502e7909c910b93972d4a53390e39c9f1cf222b3004d389fa27fade9b5ebd7689d246f6fb73b87,
  0x4bedb350c9a94c6876c2ac8b51b0b3cabfbd66ba0c3389cf9bddd370569b32be33ecd4a2d518b70fb2535942b64807692a322ac4e7d9e798,
  0x2f41df5edf6e80208bf2adcfbd610e447f499ca0a1bd2e6de26be6814ec54f3b20c03a8759712e3bd5d9d964d52ab84794d70efa8b4c7908,
  0x756b6e277c670388d1e73e3207ab6ed6e806d7b8ff27f95eaf2292ec2649702f76f7b69882cbcb2e6add8e9d0052681e61d418687f972524,
  0x68d04ffb27a80bf6ca2a5aee0df850039f4deac4026defa8772904f2126314fabaec279977bb2362c843e787c50c147da3a414cd33cb75df,
  0x516927aa0a5542362a1bc3ca273ce257ef95948e5721bd6ad61005f6bda5d89a897b5709cd20c1a3eb6ee61a5479944783ba688e5b279e96,
  0x5ba5f85a5b34c767d2bf768f95c3b08c81af19c0488b52cb03958020dff756adf51be3de720b946c1713f4b2c7bf0e50ce9c46c4c166e3c4,
  0x6e62d4cee9d6945d7123afcdee3560a3845e83107278737697ff92c6162b4f0c7b996ca1438906bafff00f7ea58e571c6c361f51180d7279,
  0x4138a6fbe2231d697b50b4c9de87bea1fc3d042d617c3cad396a3a958872f142c05f1b8034bcbad0a01ec5f00baa2f4ff28a5e2f1beeb415,
  0x2637980ad267ae87ee03d0e6a91e8ae6ac393e62d2fba61f4056d3a12fccd95aa893ae7d3314f1df9bf4b322b88189fd6f1fab0098d6e7e2,
  0x6a08069529a4ce8c7ee0130d9f86f176ee3906e7df8662c6060e65f5c06a092e560a739a12342262b4b2df526b8df2e09e102d316e9746d1,
  0x1a5187fb4898fa36fc037de8a761b9872b45360fc6fb5fc052f8205c4c84587ef290a343614224354b807b1d051e7553f17b786fb4fac65d,
  0x47670a5b7a6bd81a2f106a9f3382702ffa777c88612de63ce9a0d1800feb1e91a6ed89758feb21d3d297db2464afcb3c6e28415671288ac6,
  0x8d85ac91d707272080bbcbf14cbc9b1aa9a6f2d3cf036e770449d346b6455a374fe0edbe81a442ca4724ee372f162c596e1f0d80c17424f8,
  0x776df906570cf72bb81e8977214c71aafdcd37e848c5954cc58fce28e1a9991b798de30f1a7047272011191affefcf47c6b0a07a48197891,
  0x8a212a2a92b660eda3ba45d98d58d0dfc089dc1be562b20e2d9d41e163c6e6735ddaee7aa01da7ad1325c749d94b58e7e966b6b4940e36b3,
  0x5f6be75b190c34ed515eb877ff1458c45718def5fb9e94ad39b6fc81f43fcada8b4938a3a8de62bbfd12b5eeb12807813ac797d517c988b6,
  0x6c7b4292729f9bd2cd5f679978e7daa442bd279df7bf33eddd2a0a701b24ff81ae4fc12909948b939d0c86fe5ee8e76b211315bc0e45f7c6,
  0x77216f0f07653cc73d373914280bc3ad2773c48f8f00106932bb9fbfa9497c5c47b3e62642e2f14e03d53add7e7f18d2c85e701c6c4f29ee,
  0x155d26131707647eb1d70179b37370107198971790600cd8306070813973c92bf04842fc64de2a9207d33d54b5bedda311e0eedec92cefa8,
  0x1c638d9fc63d1dafcc734073621060dea73dcd43ef474390b26b233c987b994585c787d3c6e259143a21896d49011d6c713e9050138a7bb2,
  0x6d70965e8acdc9263f0607eeb1deb335a68c8f76eb164b4bc0058991691e50ece8993b068296eb122b9fee8534d36deba3292ceae6104cc8,
  0x6f4536f6c52cf2c29223391076d33d1139ce654df6c27dfc2d3f7890fd8f35728ca012f2cc79270116737c311f92c6f5ddb6bcd408e8d90,
  0x43d3d2813599633bad67bf1fb65797eb1e137f687c89181758675e6e37c492339e538e64cc7237c86f6e92f370522810d8993223c35877df,
  0x7329cf11080280d565cee46004da9af1195863a8d4d76d9c314ea1baff6a5c8c7817b2ae0084cfd33e73246788b475586a7f32d77a483d27,
  0xd1386130055caf0006adc99df45df4f01cedc188ff5e0fbbdde069d194f4f8989301d030bb2c640da686bc5a1561b3e055eb71b9264e064,
  0x39e52fadaed7e0fa1329a4eee2e70a0552e846c642c6031e2a1bd632a486271761a49e218a4969bf07b70f5afec7161a2375bb4629e038f3,
  0x4793bea154a07dc000e3d66f0c445ad1543cc6be0093d89bf36b3998980316f2cded7742ffe032db87a4ef7cfbc9ec5d068e14966e05cf24,
  0xba1645a0fa611f2120b679c760c9036e7c690836e87f8400b50ec6c27dd71c653df773f8f3ebc321b2e06d5fa19e2d3f65f343803fae8b3,
  0x4a30c4db42465cb549d740332e0b04d7c5b18411a1fcd9d23ba0854c5bef6c2e22a9d0d04284be412bae286913fac1e068a4d6bb2aa266b7,
  0x139941da5e9e5df5a3546fa6b9201a3f22a64d4d791a0a9408784c027822fb358ae4962587a0fdd5ce43bcea0a05e8831ba3f2c152c6d5e0,
  0x4cb5e356b501f3d1871226456809de44dc1bf1d5c61a03efe83400884231d298cbd8816aef1be1ec32dad5920d188561de63f7b367f6e42c,
  0x53d95518184a5bb97b03d1de18d673d2e55daa2f8dbdd72aceb35dc4e0075783c75cfaafd200e1c76bb0296334175235d5381bc58425573b,
  0x722cc59c8527432a5e2f0b3821334270949af52487e22ea3e86c40d96d1a6537c91d1740fee5b890a60d70897ed390215525a96b4048618f,
  0x8164037bb6e2d29269fbc5f56f0d854d64e8da0c7c5a245da35f1f724d36aff2692d8ebb4b4ffccf3cb8d7854c4838a7f194d9473ee1e99f,
  0x5d56618a9a5da94ccd146aec4141a62c4ed08f32227489815dcb5fe36109d123c0d5b64d1c83c8599c2cf4a3d574ee7f18fab7218c81c368,
  0x2baf7c088403725a8e95f45a718c9e4725919e8a340b496b2391bf92b3ee9f3a30eb2441de7d97e1028247a911968d30a3f27663b42fcac8,
  0x72eeb74a8158619f1972e23ad7cc47d06c0e1eed50dc1401d83c8c3a790ad5a668eb74bfa7e1a4c896094511eda13290746c67c3be9bc9c2,
  0x3070a4d3ffed8c81278441f0ebf08085901dfae0ba9866bd9ab2fb85c2075a22d575ce9574d7705fa4e7d82accc8f42ec17ce76527d5be11,
  0x534887f10aff6981fee3ded5016e05bce568d3d6d1f4d8a17aa7f97493a4204f78bb749ecd069d09693efd694fdd29e29f04b3e8c044a2d3,
  0x4cb13b82a63b65479a7bc8ace18ccde4820cf83108bbed78c20887b2cd4bd3ac0453dd2ed7c8049bf32278a435670e9468fa98818734d86d,
  0x528367708c9a09ee2b0e4e3237f95f94aa212b438ff043a6492adf05cdc07e1b2cb6b7f25f042f22a746994782c55e78b474326ba6d29e56,
  0x8c12994e3b8801fa8a2dc5d85fc195eb95cd2bb82df47dfb3bf6d2b18bac7633f992c53e58cc63395d6e8a2f308ca343a8de2da673d466,
  0x8ad67143a6e52d1736961e9a7c652d2f26b60093106a7320243932066379d90b942ccfa6370ecbe0edd13398120a14b6770c945ba1b4131b,
  0x4d312ad1649ac7e435e912e2b9396af1477901c2f38206981ccda09f49c862a37a244a3353888ac0201ed8e8291794dcfacb48cbfd83872b,
  0x8b9cd6f52b5d7d677c470bf7c837073607e0d4979c574a81a0609fe4f01c9ba480743cae5d7165986590a2dc7be109a56eaa038649f7b40c,
  0x4adcbe2ce18a66662b598145b978fdbda2e516b06b41e32c0e5f057ed69cb7e19d63be450c522ed6e36aa28a27fdfcdfada45989069ad4a5,
  0x6082887cad41cc32ac29ab443dc0a035b124b51e042c3baea1307f5ede6c768f6c503ad75f6fbf6acd160a02172d1ef742e36b52a5bdafc,
  0x3caec2cfc1d1f23a671908ee4f0e942a5668f1bd26ed500586734f421bc0e3438dd0758c7f5456f0903a08dc289e4173bb9cf189db801e00,
  0x28ae559e98b84d989e553bb5d349593b93263e6eeec463c2f8fefa1da8d610e252931b4972bc8fd3450171707d2f396bfc92553be5c1bd09,
  0x8a609ae7ce1299e5ff18f8799375e8b0a5af2ad2c15a49c38a1d7c0f0c892d247f1f712dde315c21cffae4144df692e756f5402d23a9b702,
  0x726b1fad5754ab4cfd9f9e29edbac100deb9f5eb387fea8fdee874c401fa61744a974417463d9739f039243298209982bc73881cfafe78e7,
  0x68f8043040717f43cd577e5e3f39aa4a37f36e8c2c9f2e2f4383eec3ad6557964f34abe3867f6087adcb15a8142a59f6b49386d44ac55688,
  0x5376473d9577801b15607ccb22a2a9655b123410020f61ed37e810b7b029eda222852b81af6ad1685f06b379d4bdbecb1e3af85c09aac2bf,
  0x39c926329ceffb8942b9ac4067c1cd2029108127222f9127d22fe8b6b7e0837ac93ecbe75f35ccd85cafd0cd6e243797b46d3df03e9fcb8d,
  0x84bf59594a902d2a1806bbc4ee4b4c1b9cdf27702f2fa789ecdbf9941bac08e7d2dbef5f8b066da89faa96b4453c19f518bd86ae5a4ef51e,
  0x7d7493658067a4a15e8ebc88f3a07c38e33c5048e2e97709994495c174f9dcc997eadafb75072e42a18ce017daa6f04affab3022a2eedfd5,
  0x5e6eb2625ed259355e2c3b1d0148e8ac14e2b18fca39a4eedf44f61563a4f3bc225d480a3f4ed5e864046cec36322d9166b0e60e2f7751d7,
  0x4f05909014f6d650d6110d7612a2b993c5be94ceee5fd0806f9c2428e2c62c43640450e9ad8b7baede0006813adb8221b0775ee3b1935e6,
  0x3e393caf98d4a94925243ef2195e7573c9f5467a75adc4d0cfcb7b8d17cc88e35b1602236f37b602264333b224e8f1aadf7810b3469bef44,
  0x4f80d771cfff2b857b7c24bcdc8b53e0c50310acc254824ef5b6bd82654394cbc35781ab9535475581fd9d7f2b0715ac66f514b9344c4ba,
  0x8c07206d1d780d7c9ab71c2345602e6d7d6bebd2870ccd69fcb83c9cf0ec9793d142cb2f83f70f3edc4fc11e98826143c51537b974757943,
  0x11ecfe9d1da24f9782e0a29e659f7246aae276e68cf419387ac246ca1b37c69e073f132fd376f37d66c65b195dcf271e67bad987020c203e,
  0x189f685d50b649541b14e4f2deb2d598778328eb67c493fe8cf8245f371761c7f60fbe38576ec683274bdedfd1d115902780f723cd89e57b,
  0x213b38416be6e003aa800fa400fd83033707120cc301d00c66dac793ec32e33d10b5e87575495ac3675d3bba817f3e706580d857b9ef44f4,
  0x333cde677e6e34af84e23204479b75dbc05d1d15062d799ba8e75eb18c8bc4344b4652ee991a204c47d5a02c3dc2557a7626b78655da78ec,
  0x5cff975ee260e6e8e9e3581fe34bb157680ca60007fb2eb48ac9f51444d04a4bd5038742f6f465cfb653145c0be1bd4f5cc245081a0dd57,
  0x5924d49b8d84f91d4532db4c259981dcc3ce0c8b3f24cf1478c1f5a6816004cb0898e97529e88ca4d2ed943db028067459733232d5b26b07,
  0x4ceb66007d02c758cb56aaa8aabbaffe3fc84be4d8042871b5a165efee080e532f2a83cd5ea60abb970b2efc4308f6a9a6a0fad16394ff1d,
  0x62d06213aa1ad58b07c85c978d155b5b1303cce1109341caa3870872e2a4c768903f2730fcf1db02e9dcb360c9741ca0a47aab1e09cfd999,
  0x1338a7fe3ea857c79903548795d3569a808d02394b4d2838bbf0c049cd6c229e04984f544d8de9cc3dfcc7a1bd20e1e7efc85ac28bd49592,
  0x3b39a588eb89060ed2512953430562a6054cc03893f166efd0f82936cdb43c24f06fb68a06bc04ff5a7ef4bf646f7871d0f1007c0bf182e2,
  0x1d01eb254a71bf7d295e0c73c436bac023401414340ebc7a107b2f306a51262789167a9c07398012b6d1936333a4a328485c4334cac0894f,
  0x3e77f71139aefa197c1e74196446bf5c6d1062fd498dd2750667bf9e6a3c8aaca1219b4541e032dfd3d0e874f58b0aa18311836cc0f8175e,
  0x29611d860b9f210a42ef5dbe8c54bd6dd2d40e3f4bbce1e4609ab2240d163884d47f11c7bc8ff1800a648204cd746dce414a90fc8fea9ae2,
  0x855b86da3d369bd450b7d829397a85f532609528f3a7280454299b1ca83bf228d80ab3f40c9cfe7e68ff22f5a4a613590f98601a0b8463df,
  0x46720ac796051c57373f929e7d1c8e6dfb387a8b51190982439665293709c9dd71ed8e1c8dbcc0537c6c02f7269dd50861a2af8756154809,
  0x5d6d476718e26109f158f9ce202450777a97c5c1c98396c8ecf183ca7ff70a45d2da51d096653be845ebb78da4773813e6b8e5f5b4b850ca,
  0x49f631a22babafad8d5ce41b1fb15ed95909e4d328d19d4fbfc933505f144cecaed22225d85df29614f846de3954c67286fc4aa177b5f571,
  0x288a2651d011f59dc86a256d28b29f2a5eb4c3685a90d415864f5b374757ed52ce061cf76d494ce7bdf0ae07c499ff6c073e6f315bf3ae28,
  0x3a1596dd5ce690f10d154166349562cad2e3de943760708af4cf29c164f7d0a7c93df6401b174c9a95d9660385b9c373f16e396352babd6f,
  0x2bf4fd3979256a209d2aa1590da0815e172b78d8488bfbcc549f67a156e7c5eed954a035e09f64f163a6f0d27c6ef449f87de49fb9fca646,
  0x16de435041df7f91f7ba9dd14973659befc5e7ba693bafb0e890d984d8e025c64d48c4f62dccb65954936ca4a04a0a4ed4de879f4459df51,
  0xb783ab0d6eca7a009e3541ac8f348f122598f087a2e12997e3add9d935a7a4bd4f23fd3150f2cffe4e97b3a9c910a03e2d05dae6b42480c,
  0x21ac463c7311ea9a4f4f2f6f77ad93f40a5abf0ed552529d6e547ca5f46232c02a3f56dde18d6e8c2ed57ffb042111fd60b1f9cc0d002abe,
  0x2eadf9724612357919bf4e5ce8a0024085e7448c034106398485a1cf1362337a025a03d0a0377c97b9ea708c76ab3f8123fc927105acc85e,
  0x6d3eb5107d695ff87e522ce214f7eea28d13e55aa002d3cb2662b6f46936fa42f7519294bfa695998ac71b04dd1d8aa7503b37e45415c7e6,
  0x14d38505e66556d40ccb64958e64553f50b4b230726cbfa105811f23f6fe52bc602e63ade0746c75fe3fdfad398d25c7ea0c64fb56445656,
  0x83c3a40f41ca4f44de2822ed8f79417f0d7cb492b5ec0522d1e01c3e4144f7213ff57ada4bfa80570fa31152968cb487f472c271e3f57cb,
  0x78bf900efc1395c9de245b9322cd38ae47ab41419badc9e274e4409601954e0359782f4e30a0dab8c4acf5aea7990da322bde721f03d3b76,
  0x8d66f935d664418b33910843ffc947a2c9f9a59dd88dc637eb01d432c466b1a95b877f1432b03126824582591b2ff27d0b829c256de92053,
  0x2e2e47392897ef30cdc385db785745ddb0c58a25b791cb8c57f53cc69a7cc6036334f1c37ba6d4d1e1a2262ee23280f8cfc2d510c1877a6f,
  0x8cc798f1da706f463cdf5438f3f91ddd64b24a84abbe5379304f3096b3ed4cad410eec64ba51471e958571afcc8f73140ebd89391a932854,
  0x45dbfb8ea1244185da1aeace29962838f63c843698748bedc70aa2d0dc2560d323d56402b88eac9f7c7324e79163d8a9976b7e56e26e454b,
  0x4a482aa16e3803291110dd22cbc93de93a74d055ba1d4d6035faaadeedead4a600be01c85aa4288930b16dec501621395ab1b09d7302397a,
  0x3052620aceab3851c38d473a3a14f5f2899c4955440ab879d715d2f656244fcfe127615cfbaa87d5d8faa7b6bdd5e426ce98b9fb7f0d1091,
  0x5e22ad49a58886696fa97e6b32e16e988869e3b52442d3b01382bf873ef0381ef3121fde34a3795325562f07040fd4fac8488b35da1c2e79,
  0x4127a7138c8234fe5f4005626e65b9a1af910d1833d7754e73490ca250b113dd9329f076b57dd43c30f8fbb08e2d55ac7fec3b246e2f8c17,
  0xaffb48c61b790cd0d929e2bdd2bc4941cdf00bb16611bb6289cf494b862c72344a32d2140dd7688af1db6ab5e6864b58f84ec0366877dca,
  0x1c91842ee7d642d81cb2346652cdfceaa73dd79d0c6045b810db61aab9d50f98a48188a1ddedbd9d5cc1ac874c21cadb91d3f1e08e263b6f,
  0x87c046576157140ab1a576b889df5bffcca8d95bf2ecaf68413f4f732263887fb02fedadf0dde4df72befbdb0c63173e6d7c381dae672e90,
  0x2a08fd5fa73a6cc27c331e2d98cd1232e53616991cf1ade2bcc48b960bf113f876f958227d63616a69149a6378239a6ba0aab7a90ffc6dd2,
  0x4c20c6629f7d52c88a7185810d32fbe6223cd2bb7e38dde643b1d0ca69bba19e238656096bc4311dadd8c98d38b1e2c9d6d108d3a89312ed,
  0x5cd6dc918aaa5b656d94fa592d52b3c21b49b46d496180995bead9ae455b8c200e275a683e6a2f4425099921ea9784b950fa3b061f267a3,
  0x5fb16a96a5b7ec8002331210463e60edfd604f2ffd7edd030722d751a5e9595a3ccebe2c385c0cee5de800a66a9cf25cb5abf55bad9345b9,
  0x21385b521a1635e898383c7d08550609359d1230946f4e53817598e8c6233ae9916ab5fd5ee0df325cdacf4bd52a6c8599f17da7cf9773d4,
  0x4ded3eaae468d22715e743cd228570a90e46ef0108602368df867694a7f0278aca3faf8564775d74ae9de9b07a456fe80f695054ef4620c8,
  0x56f01a6632a31f3928db65525fd6c860821216fdd5893d8cef5d8c697c375302d5781bab4bf2d48ef57d0ef2be4a62bc0e736d259e74a313,
  0xbb66a8d776f75b8ca4c88f6a5c6fb7cf219d047e142423a26decf780387856e1f0ce177bd8198489eff19c7afcf0715e9491317ff2afe71,
  0x77886a2a71107475a2cb34d27b3eed08b775cf2cb2b5d95ce6e284d93d276da21aaa3dd1a2793e4b3d86a982f602472f5e2ffa8731f3f21f,
  0x50b0f7cf8b3f6909b4e95f5c48a8e0997ae1bc346e156d35d9aebe1740d8349a186adce44a841af1e0957aaf746532e52fd50cf13daff14e,
  0x8b03a0096d082b04a384229a982c5096c57ed4f2c1f55a82a688fba84578829da5bf51e0f0ca51f67cde1886ec2df20d4091f158b1af2e5,
  0x32609a4120d883e668098bcb110a9c6c95fe113c9def7a6f31076967308f18e5aa9dd91edc24900879ff90fbef65129d8c91607dc306e78a,
  0x33e7ad553f2f416abad116cff8da96ab07a37daa600f4d219f7c4d0b439fc17592e74db05dd773f6eff8286a12b6a4b816475974b4868f5f,
  0x1722ec8aa8bdfee75132eb6f2071373c45fa5d127c73d28f64d326d888fec8b7e593808c87a7a820d4b8a7fa881e4b92d6af371b7a42be27,
  0x3414155e7701e0946e588000a45c96c9db30c259ec83d9ee04b6e869f05b459636d818b8c530d61e23db076aa345b5b4ad2b96b8e0c7642f,
  0x2c14c6f386d26f88079045c960a778c19cf58a1dd41edeaae5520c6a9034da69495b525f8104b9795f3ba471a16aaf69a46001179c4a758d,
  0x774a39faeb8d5bb2e7f66a123fc2424a4b24678be1decc8035229f7a725de2592f719c8d5fa339fc3f491cc87dc056cbb621fdb5fbc72cf5,
  0x7002564c2e21c70c646ccbe5b529c39d901d0b7628470ed8a539d22ae080fe5da5be33665eba7d7f0cc6c589755743552fc19e0a970e9017,
  0x7258fbbb3cb244e96196616590b818d8839c96cd63e5512e54ad15efde578ef398508e62e2cf4a741a13d5a5af6a819ea7dbfc5ea7499fd8,
  0x16e187a46e06aba3b7555c8bca7fee439c8982f2e33fa7ec0e88d6809855477cd1727023a9683522a7fe6f1c63d776e9435e5dfa37645cdb,
  0x23fdd0f6ad40532f2e6f103a95d52eb4792e9dfdf847ba126f6f55abe6cd359f783f486e5bb8ec0acb77d91f0eaad6a4abc098aec0f8a620,
  0x55abdd5f732e57e06683b7bf374078346de15d50457555bd6e0f2cb5134f9b35862ae40fca5879b6c73f7779944b6f43a15f6408b8133500,
  0x2b6579830aea753ca26e9e9c816cbafc5d9f967b0a0f4f70b56e2d55d8b1416ef380d6dcd1c75cdd49474feeddb87a9b7249c5761afc68d4,
  0x339a6e9f077cecac4ae2ea0eff4c2c5f28fc75b6225b984bd2d049452ef2edb6ca81bbdfce4873b97158e9e7c982ae303ed8ff570c6ce660,
  0x73da1cf71c4d624ed9043678b0d4859755c6932f9880c03cfe033088e13e0bc1110cd0ba969f4a4ac10cd31199a8cf07e6e3fd7fe904785d,
  0x348d899384dbe0d121653144df2f503b62653830e41b100d9b58694f53ef83e6c835044ca0d35556d4e678da1fe375c2e702ef6ec4fc0477,
  0x3860273d2a224fa52b0f3f14d92ac709570dc9e19f985765f768035774822fdf5b7158e42a14dfcffb40285a4b5fab96fa7426dbf1b9872f,
  0x2408dbe8dddc9a25dfb87ede43948f7f6e78a6053aa552537e0518f23a28b26b3330a8961ff4bf8501647ee710b24b265feba446a272846e,
  0x20aacbf572414b189e17f84378c6a5e12496309481410b5d38ac79210942461875c53a9f4c1bf28f4c1640700a38c0d44de2080c4c1c7e17,
  0x7984d7970b990f1613142255087f4ef719b0e530925728e6fcc9b7784c1983d1d5bb2d5587466eb881920237f4f0f16c3f3d81bcf329087e,
  0x65a53e284b263df6d801807f30e880b078f26551aeff9aefc10c8aec35b137e4a7685f7402bd7a4f2b48a4d5882e2c4b07e0848d9c60d83a,
  0x64efddeb8f5bb1b57eb92d3ac2275baad1d250188d7437b92a89b2876c206f219736196e2cf194c6b82244ae89da3e84b4925dbae8f2bd69,
  0x57ebe623d1be6b4c5f568e498357da3449653f78e1f40810d53270601e9526a1557d89e5a8d44439450858a808129b7a01b22fee8e464ce4,
  0x6e9516fc8d7417f919dab9b5a63b631392912ad3b2345ed6be902f8a77d28bbab9b0265e159a9859aa1da291898638561e816e2396acbdb8,
  0x8870b88e794930dbeff9983272d434abb0504c5dd98e92d017bfe0f254bc03852183ed72a64d7008f9e5b2e86de6825adbe7f9c359cb04ab,
  0x68631c59fc3e5cca3754afb8a280199161027f1d9e39184cc6d5b646f2ff9185ec31d6495c94b5326c4ce1b1396c69f9da2962afeac24214,
  0x189c07e3c93748aaff2bd43336cc4273f196f62a6496e69ee82daa4233255b9ddeddb9cb2f7580f943ec22833772d3a753edb3ffb51ae003,
  0x106a5890403aef7649c631a3ef28cdc12e2102496902d61d6feae9295a3e383279cbd046c7f5a6fdea95187c5a663bc935a8425e2a4d31ad,
  0x6833fcf85842d84c38f2a07b46ee5512dfd194b6b9587ddc6a7b26f1d8770cee14b00838a9fed982fbe140d2799e213e225ab231c77a06a4,
  0x83f55516aec0a90a5f6c434b6ad54de26bae5c70a00b60d840d6ab9f98a0241a76f42aeba83a3a004ed2614dbc5c2d02070b55d709f944ec,
  0x6850030c5693a38e35a80855b641168dafbee85f0e017077d2e3cfdfab8a55ecb568fdc91189383d389a31ea7a50134987f978d90e2de6fd,
  0x773783d1843a17e049f14b5c795dcb806c2a602bd43899feb98db0dd7a0a23b03e00389a90b9183e17aca3fe582dbdd1f0ba77924e4c0771,
  0x8b9466a0d08baec023de32f37fd5cc6555b6b58ae1dfcee6cdfb6f9daecbe6a3ed1608e14f8e34ac4c7f373cc0f964c5ad681636c23fb8d2,
  0x1b84071f3e632f714032d4d8aa61658192b6eb47a4b409471ecfe9e1c31b108a7cfa8e272d4ed43ac143c3188a399bd3697c24049eabed83,
  0x64a2a15a26a97b74f19a4968f79ff893b42b25daca63e02f1919df5b607ea8a9459deb6af709a29e226cd11ef0abd37c0af4e5b7a7d7b454,
  0x74ddb2eeb167ebb52b4b328a1939a2dea01d5cb71d78b4f58d73dd121354b51037ba95e69538a80c9842f80da109c9fd02a5785fbfb9f4b5,
  0xca552aa4a62e0f099f592f2b0d246cd13a74e556101c1e93c53b7249526d711c9d7b7c8d585225499cea13113f78c2380c778a806358750,
  0x5bf8df3d9bcc85bc1f852525ff87163ad1413d6874c0e2c1d2b8d32521784b59fcb418789bd2e639d8963bfb3c15bbf4540f61ec2eae19f4,
  0x37022d30cec1b11544063e0d23794b157885fd65508c629f95e453151e2826d9e3a4be24e700523db580087ed80c978625b26622fb876482,
  0x70c9863df16d5b911b3e5e2417bc5d08e897b935f2981328ac0a6e80f747a7cc67ae27fb6c8003c822b429fa3141ef496a1cc515af08b32,
  0x37756e957ed4e718671564c6c894ba61303aea809010b53739a3c3c0ef69bca93f15881a61ad1db3f11a67205dd730b8cd7cc05af8599295,
  0x862286e3106ca428b045fb61e752003ff459bef614cee56d9ba6e7ebbc247fbdc7220365e44f9649a00b2eb27dbb700ee3499ad33ae9bc21,
  0x394a8c7620fcb117ec83f13adfcceab046acdf53635051af2a9bb9ff72b218a87358eafb4e84e37fe9c67e90ab7f224ab9c4d3277adf98cf,
  0x1561eee4a381ef78b4ed17cc68fb841d174beec92a0b6a47ce0f069a8f0a0d50f492a0ae7e8ffae021a4941a1ef8bf76ddc3b030e9b73347,
  0x8129226aa9d3625662b61f8e37b98270e12b0e2ff255e742c921c1935883251a8adb6abdb3c25ef810ef68298bd8cda4f11c2658edd70226,
  0x86ecb06765b5c285e473512caf387f6abf76b7ffe0469bb3486a4af5a5cb61375f3933f4185e25c3a9861e74a429858d9f3627ee19eb4f2d,
  0x57aa5c3c7bf8f1007d85f9e9072861072dc7389f8bd45ffbe60975852e1d8fb5ebb6e70286179600396e4a31cba72fca97c9cbbe4a61d289,
  0x6c11f5d3d07ca89c318cb01e4ceea87b7aa02d1e191724e39fa847c968dcbca14edd4c6e323cb7257c12ca766321504bb58d10abf523960d,
  0x49aa2dbfd763cf6c20ada25ab5ad8a5fde6a136bd636be44eb3e02dae0c6d36c159e3fcef6c2fa89373a3ab5ff5c4232cb286c5ef5fe7e31,
  0x4887aaf16265f20411a963e3ac49d7ae1b116fa7fd8db6c016743e6be4dffbf2d6947873661b519c9d0f6506ec51e02d033123ec347e4c36,
  0x3a57521fe936a80f4e00c0f65e05732354166ced0e33be40825ba962b240ba47befb9391eb3e520112602996a334ae1e3072168fc98b21d7,
  0x13f2dc2078555c58324063ce2df45d8c143daae706a37de2c146b5bcb1310c81fc4d4474f9b403fc3dcbbf0cf352f018ca3f9f1bb4bf6f17,
  0x1768797905ff043a8168b7d82da96da41a5008e66aa6420280aeb7c1fd9b8e9d87e0aa9a549f1ba68ad327a13460444150723bd3a7ada6ff,
  0x6b385cf1791ca952bfa018b5c3f19919e0bf23b8a948120e12301eb7fc36c7eb784664334cd6b3286868028edcbdf6181a7b9aa9e643130f,
  0x286cfa48b9730d522587cf2c67505f586ab48c4edc54bf3fc410c9ae4fb2b96eeb7973cb32c40c8bd2a39d13a99ff853b81104ffd25b6c7c,
  0x223af3ff73285695ee12f359b7928e5c5b82a8e795f58e4295d3636490ab30d4d48e7b5d93dd952970951546b67483ee4f38b049a6e16327,
  0x69ed928e86f9d8f57777bc1b50159c85a0ffcf1d11a82edd5014e48089acadbe82d55d1590e749dffd804b2043741d30c30edd60b1997018,
  0x43a0bd3113a6e40076f1f49fc0f8169c140fa83a2e68f92c6e84e2d97929e59a540a154287466e336ea83fc3e45fd61dd5f0ae07b4e8dc72,
  0x368a8f5069c2d6301dc608be49880596c958a17dacb168257c0e3b62fea89709d76caa293c7acf707b96843f0d5d3a820aed5b083ae4f40f,
  0x1bca2850a3ed859706611222218ce9ef16fd11f16ad8631d390a7064218100e48a483a0857d6b5c15ef9e8bef644a47a56b31bad31ddd610,
  0x877ce82417e7430dd0ad29daee514e0e01bee052d4dd0e8e490a43a09c79e2a197586bb01fa825fb4b957fd9d2ba4d875a03c745efd6d382,
  0xd27cff86bfccd04b34a3826646d160024c4a17423a0138b63ded69ba9324f84b5253a5564bba159cf5144aa3d7b7eef3589d03b0c781fbd,
  0x87e7916a8850497924347ed65b3820446e4dfb3230ac18442bf0a68573ac11d3f698693d2e506912b81b44b6d0aa232431233f7cfeb2a9e7,
  0xe1de2e29be8f651a0d471f61a92fcef157a5d237f8d9d048821abba93014b97e8627102767254ff37bc9cd4336739c60dab15bf949ef527,
  0x3689370334c67c74b727d500053e3249d45cffc86e0c660ad609ca8650a18ec10e75f9565aea93fed62808bccaa72aff48b6482fcf072b5c,
  0xca60f88472432beb319e9beab605d5f378851b80fbcf2203e66241f3832693d81b6eafbcd692190e12da6c77b287607b5797e99636065b9,
  0x65b4da855382873eedcae41fca8497055029916bd4ae2553b8fb768aa65ab59678586f76a94d9b342df9c34aa881080d85763db8f76c4b21,
  0x8b7e3d788b5f1e64bed4d33a7bc12c0af02844b8d88844c6e6695cbcf709050da6b6b70bb451221f5bd0b063026fa3846098db531399950e,
  0xb3074f080b778537281cf8b291773cfbcc19a72f24751aae24629d0d2e7cf474c6703fad79bef7989fd14ebf2aadba0027baf18e1668cb5,
  0x7726b6bb23ac1d3f240914ed21b1836424bb6415c58e45b646272f9cc66757e7fb51eff9ff31a3f9564d7b51275cd2e14f0a7b99eda2d6d0,
  0x16889705a62b3af2d4384c6de635687014094867a5650b3cd3116a25dccad7adf90e999f3af4c3c2d258034b502fcdcc36172cf73fcb90d6,
  0x20ddcb286f865ce65c2d7c9e8864bc358f61c4818a63bd10caf34c893993b0eef531b87fe86fd10c71bd7239b0cc09d0d0be4835704cbe1e,
  0x18b3e9cc41fb1dc04a775e04b2b407e881232cf36b8fd6971d2e409e5876d6769e7efdb4717498555666d500686c74ce727b2a7fe504b926,
  0x395fc0230d8ba2f16ae92a7995e29b0452dc99a15bf442a2c8da8316aece0acd7add6d0d405a481ea237072b9b60ebd8ae3a19a4bd118664,
  0x38ca5cc0750ae3670c2174e444b6f0af90a58eb01f3976179399f6b2d484abbe44cb48f67f6af237db371c00d4738d459ee46752c55a364a,
  0x6449028fe1f172b72ace0630853603f9819267b4e9023fc6d523499241381b6279dc923d1e0ab080c9a89c8e4903ca87bd73a4e9290434b3,
  0x2932e75de7697fd0e2a15e6f58d56ea4e4cb9eeae69834183864ce789d81de282fe484dd31698f1e436421032a6fd6ad82826fb27247d69d,
  0x347cb0648a45f4a1a7880d0619826a692654c52e277c0c838a3d7e52851f6a15e62ca65b288602a011374c602b01e473a7b286e047d3ad1b,
  0x26d0a668250d621774d37ee268e2644f2c10d0ba8dfd2279f55da487917494e471d1356a3cd7f3aecd7039b9123c9c56a2066ec59571a97e,
  0x40a3687bde534edbd2e8ee119d226a9c771fee8982bdf12886637aa0cfefcf3791fa32586dfa67fea9916d6c9983e6c81b60ef4a30fd2c36,
  0xf102e49881e3dacd407a3f296f66b395f8f8ef574c89ea921b34e4e581ebe479aa4dcbb6a614599ad614052dda98e34b093275aa32f2b1c,
  0x7f4c61196fbb4248cc9f1b49df79b5b49185df6a2ddb5f58ce1c332c4f06649a419f959988f68f2cde62c6913e79d17eab65ee2091506d1d,
  0x353b0e43338f801802c7525847f64253423eb20fb431683da06bb05fb2a4dd7c19b8a8c2dbf9f29175bb798bc2f4cb58e7db0f705b1fbfa1,
  0x2d100ef6ad3b22bfcc626d3fe3af719ca03934506c0dfc5c57d26aded2c09e6240bcaf7558548ce1123a33bb95506d830e222eaea4c4291e,
  0x731ff2ea4597fc4fc9ada1b999eb1c3f0bf6a75c37f74bffbdb43d3f1643711806ea9dd666a43a8fcd2f8e782be3f51f5e273d45abc9de07,
  0x176d86b0b4dfa724d79378b0189a0f2e2072c7d11f011f0298c05d14fdd07ac4fa848afc816dec13bea9068e01ccc4ff8c76552dcf4198bb,
  0x8576ef1f3bba2872702c517915bfef37f058b2a1e32190226afb08c53d0a64d80ea3d4ba8789f409dff4ccd916aad848cd7032bfbfed8a63,
  0x389c174cfed8076c5af1f99b2e1a18829dc3946e6ce1b5b66c6a4a6bf838840257b0bcb32844569210ddbcf2c8a47b7c7ff3e383500c79e7,
  0x2d4009889def4fda66f03c08db1b1739529c5836fc6487f2f4615ca682c8c3d8409fe5bb6fdcb7b46a8c576cb9a04c1d5d5e97ea8ae18049,
  0x53d72dcf0bd0230f79e37c743e397e48ba83baf89f0b6ec95ff761179a073bf23e465e9b92bf98dcfb4d4951f77300f5908f51be1cf1cce9,
  0x126c0e09a9c21a7ce5357ea602b9c7365feb8967c93d4d9abb593f4e0e20ff36bb42747858dc4f9b0192cc4048c32f4b64b4e637ae5eb098,
  0x58f14380e54e58c84948725ae590d3b70b4f7ca52a6f098e67870e674bd5c070bd37327a9654418d7d46ca5377e20343a6e29298e12ff9d7,
  0x356f0e139f3f0e019e675751c25485d12d9a23abc062c36791b4d5152155f02ffad68efd93c5a2ecce57d97434b0e4cf5b6f03399e09b588,
  0x38e9088cdd789641f4fd82efebe14730401a5b62ba4613141b44ff53d6abcbc51b078e89c2c0f708c215cbe6897ef6668ba77742fec3d46,
  0x227d66c43c2e62a846f055fdde79b13ab8e89218acbf4f8fd9e3dd5387508ae9bf3506aec25f3edaba93d9a83fa584bcdfa3a664fe3448e0,
  0x7551da864a31fec1edffec52f289aab17d404d51629f1a23cec489592a7a173ecdcd3dae57e607a24f45010502bdbac23a9c7b2d46969844,
  0x5bfd9923515bb8790c4c8e3b915600811fda87e4438f674ebed410de8d4da5b35c2d202d63621c03f3dccf95646538b58b0a25d8bbb49932,
  0x6795d82794350545aa67a62f6ea39d84bec6449e767121be88407260e85c5f200cd0563b0ab4588aa7e07198305c2d7cad78980a62a2fbba,
  0x6b201be8b21e94dcf1fa278fff524477048383f857943c5064acc747f1852b8f67fe06ec4d86729164d5bc237b1d93e6429f42d09927144c,
  0x6f3a81202bd95d25c25b7cd80c546a2c90042d48c214d8845ad05c174ee2dfb4d414b9233ded07974575888573bb4f601276fd5b1fe6c94c,
  0x1f9cf98ec7e019d7a21a85b28e67c4b7f6486def47669c9fad78e77a9ce26b48478498d45f0f5f266ca49b1727c68f5fcbad647097aa8211,
  0x50ac281ab4a2d72e6d8bd9c946c6596bc126fc72b1b1b52d0dd24ad70d69c93c6e40fe5a177a3e2fa57a313af6d7e4433390d47c97e5e448,
  0x199fb19b02f5cae4c13172881216f386fbb29ecb859e3b6ed63b6ebad3b58a967d2ec02810f5223b92c9ae1d507d72db7a4616998684dcd7,
  0x8b039d7aef1508bb76c346ae196805d6e1fd40105762c0565920899f41273909cdfe7536a6912240358b0de7eb497023eadc9615aee9906a,
  0xd114c79767cd2b1d1975c989ac93103b83159b2af32ff92c8671bf59f6a7bcc1595aba84747992b3951d4ef0df5d18c720ac6c9b772b4e9,
  0x55b8f1d8ebb90e5fbcb71d00da87e68e6e0a57db63c64039163baa79e9b18c9077c555a64fca9c04a34e9a324a36250b4e9ff42ce39a35dc,
  0x7e562323cb904e795e430b237b9f7543c6b4114403f92aa65cf8e8d8289cec772f4523a666b309a2d7514ce7c27e62d097929defc15cb23b,
  0x59ca46e84e27e6656ad830f7c49fb55e6f9a9f9c5bf0f32f8211d98bf9bb38f8d7acaabf3c3edc106757cf89b207b99dfbf0ca27ed742d91,
  0x629faa1414be75a73546b74b074f0e45a18355bcdbb1615d1c032c34b3654d97c366150e1676e8abf0c734f710939abf8a14bebdd449ca61,
  0x8bc250054cc44b06e9cc0f5a3d5af060449f8c3d5be6b7281a2deb95f1e8e1caaf5a2f42386eb39285ae7ff36dbda1b9f48e7b58ec62cd59,
  0x7584bfaeb29728652b032865541d5219824913fab5fe22d85ef245230ddd8ea26beb4332df80ab15b3c80e1d4dee560116759a85f3b337fe,
  0x354896390bc5aba4c8b6f52f8a81a47652019a05beb418a921b467da03c6e04af9b3410940a3a7a4cd24157775e7cac9d61661a2dba448d6,
  0x3edd4d807300832a0a89d77c36fb69a8e42e9a06ba078f21b8e8f47a3d22800ecc22e25e87cae8a7a67eabaaafd73703ae4b428bff87eea2,
  0x3e1c128ca2467f2a2f4f7672c650e028aaa81f6d49d7a65fa2ff57cae649479fffe35f1ea0e4b4825d42722829c74cd008b55bdc95cb89a9,
  0x814c64bc6f500fcf22b5063c914117561475990fc1a821f22a4e89d3a6b0805bca742329a91348dac8ee0674ced0f1257304150e89d5d9b1,
  0x4f4f5d52b711bd7c95da90e7b25a78925e5293fba4b8f9a673cbc2dfa83004c0d76bafd5e3b9ecdf2e556dfc2cb607b978a4206d537a52fa,
  0x519aa3fa6fe4f56db7cfc7a24c2ada862b6d74c7638e4e73a1cf9c81b8362ba7309be6ee8cd29f5256b63cb2c43e706ce798348105024f64,
  0x8a6e4a12f77912541962da3edcd21db063e1b88f8e545c7fb06cca7ec310bf268917516a2e07efaeeb8bd8e9c26d31655b7c812a587c766d,
  0x5f007ad20e63fafff690ca16a76a51f13ca0eb5c59caac37ab5a1f0524ef83f796d0bdff739fee98c390ba9ec5d396aaf021e3a2fc38d231,
  0x3c7674c47af6caebc3a7e9edf608b2e349e00e0dc155e7c24a91512e2b4022973463e98690c46dc6728a4d8d21de30d8eb78d89749c7e7cb,
  0x47df74940a7f862f7b84d87a87fcf81bcd862458debc187433db1b6aa3e1e7feff649e93e798ec2059027ecd7be7d73dee73fc232a20e1a5,
  0x8c410afbb1f2a9db54c51c740c0a326e6e70a40782ae4e7913a3098a597c0e11dff519072095fb17a8a27f630abbd26bd48258f7571095c3,
  0x7477658f0ae3fd32ac38dab8157cdc43271e5bd0df7f4ddb3c326dbb9538a5140ce1b29a8c70f2345654e1d2b27af78beca504e82c97fa33,
  0x2afe25ef0169506828f078282460657f743157b586efdfb1cab194115b3e09cac3b98589aafafa28078f0a69c818fff12a6e8c750579d6e1,
  0x3803a92ffd06add7da1ce07396b816ede4062d47b9e7a53654769cde100d0e4e7d49e93ce7b874ae198263117dc3b8f23087a502ac378368,
  0x60784652afd2ed10f2e084cb5c7c5371771479135e0a0a043af91ca7c35316d5d2bc839286c83b64683870ca6d4e8ebae7a3d0dc3f940097,
  0x45fa47279cd633bc625b62c3b93f30929ba620d9169c35876d31d05b072c0b1ded558ccabe30af6e3076b3255f2850330889176893b38afd,
  0x383520d3bbe5f18c8f250418c16cd6c80dc35afba81ab33cff3df58fe255385255a769909a6d6e1d981bc45922e33d4b63f530fd8391163e,
  0x2b9e10578b25d49ae11447fa585c2c8cde6b7ee2a625487f663c7f6c37179ecd3de7720a5f7962f75b3ee58ca1d875d66204b44be4c12d61,
  0x443b997a98c8a2e65e49043d1431023fe6d9bee4acd189921fbde179d8e389249f3e596e85f50a5fac56d260d6df9d3892231a4d2c7fed4b,
  0x7dcf8487b19a4dd6b02470983b9e9e4bf3a08333c508f45ea5cf6475e342265048875d3132102563c3ecffee45167f63acfe39c4a02e2eb4,
  0x8c06cac6078ac7f0dabf13de179e7015d4d4f179ae0012b4e38d4341a1b3991b248fec1bb952c9895299a184ef3b85bafd1f7f78539af4e0,
  0x6e3a20a5b484063a55cedea957556056c72a80d791989c4d6a4af5b596c79cf744f3e4c8cd375c30301de6963f149c6269c46d88a782886c,
  0x6ada6cf36cfe03033c8c062d2206cd9a69eb3381fdb6a1f2b2deb30ea88893e9ea39c7a2208af66c235dbe141fd9f62840f2637b5567384d,
  0x8c12f9aab9be924334ed9b1b9772ac534c152187d0598ea78aaf68deb3cfd0f861d15430c37b5fa2e62dd04d43afaefc3226ebc25a58badf,
  0x6ba8cfcb4f94d30df197a49a2fda42a4e8a1a3e22b21a7cf81803d99e288c94691b12dac60d8a420d5accb92de225329b40f0e277d512fbe,
  0x3ed03fefd13aba6de6ddf1d02c8a2623d8dc3602771069e4b20e5c7f9aba1a154f5c5d903925bf9ced25fe6ab722b9baf03919f8499ff5eb,
  0x49df8f08f5d01d9fa15351a0b55c01459560a5030040e327f1d21d9e75e342963991f3062179edec2fb34b6a6cef010f93d9b39525e4a003,
  0x728230fcef41b0e2e07f369ec7106358069e2b841be1d4abb03e0c5961a54f1fa7584bb0c588e8bfae4d17d0c2e7e780435ee7d0d199208b,
  0x626466961ce266d47ea07957e539d374aaa84b4cdff0c7b88f5cdb930065abc76e13fed1502e158f0dbe9cf1e7a779101eb50cb5466056ac,
  0x39bde89834ff1956a6667b851a048d8f4ef1c85cc6ee1806b9a73e32640360a3790b20473ac70f811ee854702c1b86451270f3092697861,
  0x7f5c784655add7a1c0cad779ad4ab986e9c38254903e639027b74181b1ccf1396186b320b1b6ed6e8a11c79c1db5fd7452201aed2601e77a,
  0x27fc238e472e9a565ddef90289f31b38c407db52166d393ff4bebdf27b60eebde4ea7c42bb8fe51c7cd04ce898f9122a8324617a496eda4,
  0x7e4d29e944e65724e47a39e3828a077323e73bee636239b8bbf5b894ba04b205c2afafc73a6b1bfc2d7f4df6e7d5dcc8d7c2fa2789a8f48f,
  0x5c323a022e2736f36847d6ebb5338dc58c80f01e13344a0b5e5c477e73d52ea70f60a6be84e3254bf5bc0746b7e39dc68594e5639a6cceaa,
  0x50ebcff4c6217c70fe509a377d164f8edc8646851430c9a56cf068ca49006d329ffb34fb192fe6ab93bf6f938b4513b427ab4084fe72f08c,
  0x3697796694297dc5e90a2ed8465b1114189d7d93b39f24a0d9eae788d66cfe4dce1030ba4ad077a831c1de7aaeaf17ba655dba197dd9f71f,
  0x78daaf5385b3746fd716d98297c0bcc831dc66a07ea251f5041310ec20a529e5e3710b815023e3c61a0f9a6db0a2bb7f22c16c4237881cc0,
  0x5d988dd902a7ecdc271817f079beadbdd8da88f818797d29bb40d18aaba072388f05c71f71637eb4687d39f29df01435f6c2eb15e4e1d78f,
  0x25dfd568d2c2a705f124d805ad7aaf324bc4fdfc89eb6fc6897c83d2c2182504e7db2a50eed59d5530942a9ed23c6c030098e7059c937bf5,
  0x5692a4f4fb1de7e88c9bb0d589534d00b98544bbbfd886584080ef261a905d65721f377f7af206a304ac2738d6c9e16ec2d52de6b41a4097,
  0x27c0383fe5d6684569cf7eb339e308bf3676e8a3ad0618756e23772584e3ba0e8c575403f3fc0f701010b6681ba6c48f86de6b080b4195af,
  0x7325324823bb846efd5a54ddf2d406aa8a9a51423331d491426b1d6290e78ed13bfe76b7e1d59a3bea9de28a4d908176b44d0a3aabeea2a8,
  0x69b67f525dec9d398c2dafc6a6e0bafa569be84bc68b920bd3eda7f5987b5c519c6e72ea24a8fed31a00617a6bc2d0e7060cb3d2c206b79a,
  0x6f32c8ced3e05c31487f8a94cf4d010a5646f92df00057ceea3bab04f8d3f2620122dda5c4a8f5c66486cbc67c39a1ac97e18d096a978e4c,
  0x8ce5158a629aa7cdbebed8f7f2efdcca1f99f2b0cec414d24218c3e078e427aa7bc97b0014566f416d8e2b3f31c35e91dac445adc19ff2ec,
  0x797a175c41d0bae0f616d57b837c8abf794d0499bc6f49cb0db641a0ca319b42865ec1d17479c856f35fa6c9621d09ff7e52cd6531b39380,
  0x2389e886547e873aa561cd0fb851a812ac07e93948264d80860ba480ca7b21123f67766bb3d1ded2e6a9c065cff5d7ff3a18c6338dcd4f96,
  0x13744dcf9be4c843b2320b2733d7037b86e75279d9a967892c73380032dbc7a0c456c80326b87280ad7e3e90c266417f1cc24e94b10d85f2,
  0x2ba23f387b8f61b98c5e1848a2ec399eddb25500ecb74b8fae4afba476c60088b78970b108d857657826c28ae0a095b7c9f0502823fd125e,
  0x15a345ed04f3e2a0e4ddd84d311dac3e3aa7f24976f1246035fa4da5be81d4ef290c61f18295ecc8ebebc3d873a67ca58e24064b68663625,
  0x5e541b839c8ef248a6460ce7f2966e84c9c39eb94cc359047badbee42d6cbced70dfb1c8c862d26e95302d96386c56725028a15d7d73e217,
  0x50dc20bb92f364372e05a28e0e4f12be37f230af799fb1a2b0e45aeeed0b7b94d47bdd1736830b76c4ae5e0cb8d3b9711abaf776ede3327c,
  0x278d48576af2988a89036a0d41ed19814c3e9a9324ccf8e8c7ddf70cd423ac504176767f1393eaea22ece5c4f3d2a86b7ab91df5e254a05b,
  0x53ab6ce5f4ce2bc7711466d1c73f7c77481e364092d8cb9664496a83a8760524930f0d9102516a591336cedf7d9cebd713993131245fc22,
  0x5814c9af75112228d15942326154b32823e097a6a18e57825c961c3ac60f7ca0f773b4b05e48a46e8079c582b350c7ce607c8e30195787c0,
  0x77645c9ace1776418302e382f5cf21aaf1c0452cde399c74921c2ac8c62dd12be1a87e9da8f017b0963c25516b27f5a99c4ecbdb5d71777c,
  0x20caaa534c969c5d2c343380920508f3cf8a04dd1990850b8d82a42915803a6735eb76f80ef70ff76639d6602a0cbebad36271792f8feee6,
  0x89cb06b9929e875fa6400f66684dda00cd8bf06674a33e4d17542dffd27db27f9e3b547e623633bce9faa9471dff1055ef2cb613cee9ab92,
  0x534bfdaffe8bb35f404c04d4d3ac210b7b634870fea4908549c708876a9d12dbe55c53176c214dcd5c492f5623c09b2c2bccfb41c39c8a6e,
  0x26172c0754e2a93a955584bd1b902dcd44ae8f781405ab6f8d8693886ce4ae0bc056fb02c3d7163206169d16c312bfa1628493140b0f6c4b,
  0x47adc0d4b9d19fae041ce69bc6045798fd7d14d7ef1aaff57dd4d0d58d4f5eb64ddb6443a015e9ad6e8e9f6916d87b7ce238800a2e7557b8,
  0x51fe1b4b81ed4c9ec0238bb645983e6129ccd2406f14c36c0be62a849aacc23ab8b07e97783320498ea5e27a96ab0d9cc005e63bfeb1d9ff,
  0x624e347f375a5a24a58a49b9ebb27c7f7bebabdcdb4f75efbd46eb15c3d08b34d3d9acf4f09228dca831d6c63efc96b8083f48d8c96cf997,
  0x5393b5cdedc13516bc23b53373a6494e7f18b70725feb7e4337a68c4fdea234991e1f342f7ccf26f45808d46a0a567483fb20e6d0b5a3a7c,
  0x63b733ede88853d481704eb39ad6f35188e1f5164fd8e4886a8a0c1e9ef08d5cc97915a8205d5d971e4285e03a332e5828675cf2f2b6d98c,
  0x5dda5936389a7b6ec42f11cb43b62c2702dd8c92e9dd3258fde909fbe0389ec0652f4c18df752806dc6aae11cd46868acedaf68005da24ab,
  0x5d37a9f7b0dc5348835cf70b182c73069247057ba9ec4e7ad2efd3d46c6d4f67f6fb78d6b20671f0ebe6524de644fa1edc1e14f54c343735,
  0x68d606a291aa1ea9d419e3c8864953ae0672186dc1e73c30389f56827fd8b5415b3ae7df4037efc8c62bbd19d49bc16ac8e12cb62194378,
  0x7eb70d27d9c3d5bf9b9edfc0788fb95149b46c19c4324261b025a225cd61e92f43ca7e8389dc807f50206f2e3ceab3451fbae09d1e605aa6,
  0x4f50f1414b661c5df614b9bb40e4c44bcb1367ab3c687ddc257a6b2da6bb306c913d693cc811078824bea0d9fe7aa1f13794811e991de26b,
  0x35c25d5d9060a5077a8fde74c1e9db8c4a06d1ceb30247920da7539460667d31f9b425f28bf23dec2bbd1e31e8c8d044fadae92883a5e8cc,
  0x49df82da5f70ba17cc08ba753f31d62de0fdf61b71eb66f04ffd972984ed9d6876dcf80691dff10ddea1c0349a497e07f2515df3f49d3e8,
  0x32a19c9807092eb9ed708b06a2033bd686993117b6f9158367eb399e5a522b7e63af9cb930e29f8784f8c3e1ba764a890659db5091cdbde9,
  0x6630ad0e636abf2830370cb43f963b425ed67a822ba8784165cb9d9c4504dbc315528c6e86c214fb0c124f98121c9f5ea2bc656ab0a6f9d8,
  0x2b10e4f219ebbb850b924573e38b3d0766eb456729e2620300ffbbdcabda0049487cd251a86ccebbfcbc7a1d12acc04380ef5f6911f9e779,
  0x79649d07ce28e599889801b022ce3ce8b8241def81f3d904aed1a84e3a00d4fa61f9002e7733d75aaa7c0968da9291afc801fb23b340f1db,
  0x940af703389cbabf9ad681868270ec16baa1a651eecf958e3cc3c47aebcf6c4a4219f2e460410feae3df968b09cab42266912711732ed72,
  0x14bad4973f3310b7cd9e1307bd254e090c2acb8249cb13713af1ae8aa6b03cec2a507a91e749a21ef7460aa97e9a8cac6c8131b2b9764320,
  0x43f8473d613768944ddf158356def53fab957477b892ef017028095ebc6119afd37d6609d3e3ce9b62c88306ec06ad4b379b3d184cd34dd,
  0x2d8b2344b4541391ab2491cf48b33cf46d9fce66723d51259ea682f01de8aaaabe5c1d0602e84494ab7421237de876e07f944b169fba59b5,
  0x82a2d69e9190256e511270caf3a40af9b3f659ec30a51b2874a154119fade68a9d2c502a04e98a757a82d73acf067ce821f077d2078b19cf,
  0x2276a1548425cac5f1156da88af8f2f7922ed6ff5ec9de7dcad77adf7c5a722de5896a635c245f3951fe32ef9afacce5b19020b88f13cdf7,
  0x28c848348aaefb3b4cebfd01a376ef74bff3d2894fb14f46255835a5c9caaaa4a761c2db0f619ae9a38ab5427c14b100aa5fbb85c708e2da,
  0x28d391d37adb8d000131a8fa3391f1a44ae7476a9b43b75bc8cc8517180edbe38313dc58178638edb612e7a77820c1486677bb104608898e,
  0x23a06eef00488271814852d2dcf9702e8a3a71057cfbe743b4b10934eae97a78c25c56064bf3bbc24b793331344a716967a4ee854a8100be,
  0x8087365fea917cc3531241b4593d221f83cf503494f34d50dd96ee3932dc7f4e52123004f0a65cad6181ade73c1ec4f1c3ccf5990ca2996a,
  0x3f0e0bd936ee0b6b9c9aa307d067ca3433418ad44410ecd287f68adc06629d5ace95c92394e8f8c65765d144a0bfd187a65ec7171766e995,
  0x808ee2cead31ef5902b8dec122a11c7b9c52a8e3bf94592a578658a84f050557e30fe9b5da21d8c7dab323b836a5435d5284fc940c9585c5,
  0x7ed67f3b1f91bee2be362bed98c68af15d4acf834b929cbf5b420d2f4861dea2c42534d541c560c95099df6bfe50230bfc2b28f0e9bbd11f,
  0x182b8a5540c485fe219ef769e7f79487be56664af47fbb0b17d5acbcba340790eb12404afb426f283b8dc0f1afa98aee5e9895dbc53252ba,
  0x78c4cd7a8621a6b0507cd6d7caf63fd004790a3b3c346c398788255b9229ecf6b3bc4c1b373fc14076f5d66e2f15095b81b33302705a81ac,
  0x56f629f379ffdfeb8130a89dcdec2407e86d53dfa2972bd3fe68a9b837d914b76beaccde64f7e26500929af34a5b6e90773441d6051b4d2e,
  0x28a28b9b78e8567bd20159008d775c068b7e27ad8041eb8d1aa585a07312ca3b34cf6fcf7c84f3e6068bc16f3dd40faafefbcd206a0331a2,
  0x765fea38beaa20e7dcb894c128ee15c5f27c8b7c0c86c2015ce3acf2c819ae5ff3f7e6e965e49505cb2cb5dd21fb0753d6a6f9ac90716464,
  0x70c2fe6287235fc717126ee7ddd5842cf15fae009ed7e036e86c4b7dfeb771609c1cfc1b1081b77b46e83aa3b88439ea0d431eb3dbfe8bbb,
  0x37ae6224181f0a4071d47586337f9c2d8929a2e8291a092dc3984dfce5ba0a658fdeb13385d5af6815475e069ca1e6dba19f8241485e9805,
  0x91365c5558a819c8b5e5cd40285913991760ccc64f66c05b066b8ef5e9e97e7467d7e0e0f90242e1e8a76e1403b774137f25a05633eec23,
  0xd8b1644d1a8704fb9fe404f69ea58daaee95245d554dba7d8b2dd84d8b2f0006a418fdb842dcd5a594f310459a6ebab14a8a013585c470a,
  0x32a30b66563df3c9c7923eda6102510c37795e60754d68e8dc66a85485bce80150a78253e50bb99163543671531c2ebee582225d4ee795db,
  0x7d87d0e9400a21b49bb0c136e25f5dae4343303f258ea18dc911f852256b154f6123ce687f78cd6d397b1d357547f7a272cdab1f4fd85517,
  0x4ac4fb7c7d7efa1979ab491b1c4a7046ac70b19387e304578639805789a41131b7425a6d6f682cd10a384b226117bba942e776aa72fa9c1f,
  0x1ecea4e9e9e7a3213581d1cb376703f11a9a3aebdead469ec77121b80ee1af52da4d368a4845bcc9f366225316b2ce59fbf885c4843f8ddf,
  0x2338153d0ec5094f3e9d100b16b63b7190607802bf10845388a0fdd46bde25218e04fd455adeedbd200ba1def4199b3148b82cd4f1cdf7ca,
  0x4a0dee8d50771b3720aafce69d59da17ccf7ad219b779df1641d019dfc9500c11035ba43e7c0734f4d12ed66ea4b0abe3c9a431581ef04d,
  0x6b5ef6aee0a5b00e9b3ce3496337d30c8743539ac001ddc654cc332da518fc9d163ba824c4c46409d5e0517294a68b4551567736c009ff67,
  0x5e9b7d324cf390c4d816618bf73899bc1df4a9092a5864a67a10d18c5f7f6db5e6b98927cecf78e09849931f826a3e1f317b2810ec2d852f,
  0x753dfd3a8ba3b3d8a496284435129f1c2dc049fe03ea804375b067a91fed8034c12b3a867dc036cf6c053965bb42771e0ecd0d10e1b4fb18,
  0x7d868b5acaa8c38788eae03fb2f36f10e43fad2d3d2a8d7d5917d30949071e7cdaa8dd173a589be577f4d7d1911cf2dbccb1435250e4fb50,
  0x266b22697295536c488afcaecc649b7bdde96994f9d18cea819378519b8bcd5ed7c2542657ee15e3442374747b305beecfc49bcafd0fbe89,
  0x825fa755cde1f7a808e81b3d6df72a02177947195e2e54db3c6e7799146da4878d7281cc29d6c1beabccbb2f8cbd886f1d1ce55a39ccac58,
  0x89a1f3c0ba7a54498f50458f1be1b04cdf60d9de647bd6b3e07fa6bbbeb547379f0b38d3bbf832607b9d2cf02805d85cc1f8ed0ee646f97,
  0x3525e317117199acf1e4582ba68bb8c133891f3522595950f6314f88b93ef5743c4318aaa2ca3aff37a222c22f5c8d08bf2992a57d110f26,
  0x74aaf687dd4014f9718af6e24fc6941baf59027892cc6a11c9510c3b72660ceefd26f55a2f9848a03ac3fef08517bcadd357c60c6927b021,
  0x6a9c10689faedbb291968876f3ab8dc76bbe23e6c180017c89672ebdbabc5ffed3cfa61c87226f924f3b2add56482d9f1b5498d78012d5b8,
  0x41047dc73bfc9400283e52c07002173589b49c8e057e3fb6928a46aadbd679001bc2c1a119ccc55c877a3819fcbd92ec1624e10234516f7,
  0x6f9abbffa47909abff5af0208bf91063aabd38688555be419fcf522b4f0481e746a7057a4c2ebebe4df3b8033cbd7e3946a4f30608abc8b6,
  0x2daa0eb67bd6cdc2edb7662bf06cabb5e0e6a090df4d7eb78e2be03a77964da037cbee05f0c9db378ccd4fcac423039ccda03fd286859cb2,
  0x79db4e9883bcfeed6484852dbe966cd9beb03c06c982c748d16b54eb1a9a0adcc9bb683427d172d30a621220f25d99ffdee0c48b8cb7546d,
  0x25577506561ef90854eb7770d9ed1bc784bb92d5ad28ea176dd86fcbd3cfdb40c69f0fd901fc240cbfee9969558af37cb97e749efbb1e059,
  0x622a08c7191b54e08d7ebeccd5222070b303b696780c36739ea8ab721987ee67fb8fa7e57e6ca09da0e253259dd036118fd76b6ac77cba76,
  0x7ceb7fc29f295b242eb9c0b3979257f6bc78216189a7a21c4e3288987e8f1794d2eabf7ddbf3eb1f23c41b4dbf4ab431ae3735a89cc36dc7,
  0x6491e431cfc4f22e793d8d8c76ec6c1ad59b2dc2db26624ade56eab792c2520c0bc901b73f7b18e2628099d459a4eaf5079a06204a9e98b4,
  0x1806891409c90e92bd5998ca88234933c320da1a3ee8693b00381d1fa45ca4376b472a66ee9be225596d58fbda5835f576af46b7006e4531,
  0x51251707ab88a3c261a812c0c13629cfe747fe9fe2f789d5f34340a06186ec6651733fd9c589d8b26188beaed1d7fd700583e831b534b055,
  0x15871fc84d82f0c35cdca3fd4fa8e47b6536d717b026dd85e09fc86cb78630b428c72ff8f4b4308d2eba7e92c684651b985698c1456d566d,
  0x5e1c29cfdefef9f887459d2206c8d65f0a330f4d02914741ea00d2e30fa5e5e16abf35350442006d5525610e4e4b1d6c718b10721368343c,
  0x60953412b029b83eee6fe34823d8690cf216d63c2a0fd5f46469591382df93cdcd4299a3c71c0de5535cec9e29e0dac68481bde6d0d22561,
  0x7356132813f2e5fe3ae0abdee1a0164a7630fb1867bdf46953cd7e224a4e52051f05959042c77022a511a6ae77a80298c270e7d238104a27,
  0x75513987b0d26bac14dbea796f707882866106c7262837d769275dbbdb63751f2201e25782b265f74ffd1a67e66a520132cfac2220c22a1b,
  0x47a22540651b5cc71c234703a6f8b8fb6d6afe86bfa64a0f7b762aac7bd8b6839288454e2a0d0dd8db8db99c13b1a0019ae80bc847e00e4d,
  0x2c8664049cfe852c111e534a3cc5028e47c3134c77c0d35d2680f2622f4476651207973ca662efda3cc08fc8650d8565abe56c2e72c8b6a8,
  0x23e4c4660394eac1598fa74ab05c47f440b61d37103a07d963539c3b3bcc4b8b145c0a31856738a4fa747550076acf823ce1e8992f725b6c,
  0x270e201b940ce7e059341fab3e2ad4202118bc81fcbdeb37f75605a9c5a59ae9889199373bea5fda025ea2611b6b8a44e88d8b62b3bd1021,
  0x21218a22074cef6d8cf7bdfd0196a865dcddbf214f5eee229ad654b541b56f2185616e7c3867f981fb399538372fb4a58aeee029d150e253,
  0x44bba519b2280d07fd164d00516b7967da4a2ce52f22eb7312ba33839a2ae2d4a82b9d288ada474a2d58cbee7c643adf993878121f3d33e3,
  0x393b5d4f6239f1ac5e91ae45d6ee9db76f2fc0b496dd2b5f4b2e0efdf5afe9c0a63a0b82baeff59f684090748302d141186afdc73db7826b,
  0x2c02014c01be8a6d2399e813128b923deaf5843dc62216cdca31676a108524072cb8cbb9b01a1fafdd31b4c0bebfcf25f817be3c57f1e9f8,
  0x7958f43b32815d3692278c83b2c2d7d34b843d4db44367c542285168cf5edd7b567d19d915d57204e8109a2def2e50eae5940b4904d79706,
  0x5f222e7fa0fd5b3102118638ebd0c7d7b047aa0a356a4ce51549af064c6e803d6e198232fd72b659786931f7750a82da3b5c368edeab77d9,
  0x6197fd9d55dc26456c3812ff2536ff34894a4dd6ea9a55a14e6e4062f30222966cea76f1e76c58ee1ddcffb306616ba4bfe4b6ccebe5c28d,
  0x7556cc35a1faa5828aef60e83b513ba27349432197b2d8af1df0bd33e8886675a47825e25a2936ddcd30714f14db4c4ca7c46b17ec7e2f70,
  0x7c524c7884c60739ccee404d7d9962da1c9ca38128168289243662b3e5c860c911dbc5416a28e45beceecfe18efea5d31e021f9b4dac379b,
  0x86708d4d3047d027cfbe32891b8d1b9b5014f35b2476b9a7458f9aebaf2f52820701e57d0f391f24041d00d8546f03824e19169217b4ee72,
  0x3e5958375fd1ac58941538e33b3c554db91b125ccfb3cd1450b0b4f9cf942ee097be5bb00763efe83925caac6c754a55c87c49f961b4ef91,
  0x79dfeb3de01d41cc2af74ed092cadceceb2c6392ce9ac8c66bc834ef29f5d89ff491a24b02bd0c86eadc85113dd0dbcdac5bf32c1bfde510,
  0x7d10b1086c7eb411483d0302023411a18bba82308c7542f76a74d8f18c635c62999817eb17f475b051d400df17ccabfa1d671074607e3a0,
  0x7edaab2339b3920ac74824262c6cd37965658786b523140eeb012020af4ccea97d704ff8c2fd9bd61ef372eae62770e38c05a325d75815e4,
  0x33667537cffab7baf8a6374e22b18d890da09a26eaf70f9bab51ab93bf6412381ee43816708be244df4ba1849894cb57b224c64238e006d8,
  0x3c94a437796ce02d880999c759cbeea25cabc85bc8de55c2a578dbc674e045b45402483ab1f41fc2bd473bfe6a9540c8925a1a97c45f79f1,
  0x1885868f3d706db0b61cca2603bf4ccad333764fbe7e886a2dd2008587449c11b9d5f5109841deb12c6e576cdb5fc0b4ca7fc132aa81e36,
  0x6f0b53dfb479718286571ef75d524c24fcce90afe452597566e3e33c5da0129b0d798b8b5c337c9772d3c66b1fa2bf026edb1d98fb408322,
  0x824f33b5e3b17acf4dbfa70b8df064eecca6e63fcff11b954ca10e24e9ab99ff5eb92288ca74f1fe1281173c635e8e4035ad7b38e95c7d30,
  0xe39836d77a7ebe3529da541df6dddb97ec58af8321888d4262c50f7c8bbfe09009e52770f2aabf4febb458fb04aab8a4021726c2f8ab053,
  0x1959387770eedb6d43dee338f74075c87c3b7a300a9ef82698a066a3232d599b913889845866de6204688b7a135a240ef781f2c19ca767a2,
  0x704fc0028e036368e088590aeaff2db0a240deadb2fe04a0243aec812eecb66d3d3adac931b318ea222324b0c35da6909fe1c6eb8a3a1e67,
  0x4e74a911237ec518d1fabafdf8af914809d0c710b0fdc90bfa960006e792fd6a4633c62d7575c7215637d754d90a563e6db8beba2117c57c,
  0x123078b07e8556bc28aa869e5611b5414275ecd20c3769c93a4438a867e4c9ee43658390067405c7c2fd2a76440462ba5ff68d29722a458c,
  0x26281e82ad436c7e7dc5762c6009130bef2cdc94e42bb102954e77fa937181b1018a5deac8a1c1fc24dedba7830fac308137885fc571b31e,
  0x19baaf99fe47262a6d58a0e5e5380f271018022ed289e39900ca5e4de46009820ee639682b2726c3d45b41702e492eba337ab4a4d3a18328,
  0x2e3c94e552dd2e97e525995eb364d5a0bd8fe85c1bc32e529b15776e7a4d60b6eb28b8c58a2202f513a4ac9d0a105b5621d746d11e8b1422,
  0x4ccb2b3dcc02e62a74d3bacd1368bdc3fd5933167d26a7b84657c1a3cc8f9ddf9e30757d908cbfbe26e7f70dc17ae300baf0c9b5855484f3,
  0x39e2a3c24ac087104ef82780a90d3961a502a3c051f06590d3483bd0aa932814ea18dc545552ca6ae824222dbdd397dadc07d2f5b3ff761b,
  0x201c86ec40253d8020c6ce30780cd6b3751795599621380097c1012763fda62bfc56c72afa28ca69ea6e0a954f1ca185c39d90c4eec88128,
  0x1b5adc17ff4af6921823a94fde6fb3ad492b5ae6f7be0da34f2c97f66e7119263fd8cab6f5e80c58d34840270a08310c7d86c899fb21ef81,
  0x2dd933ae46645ba3a9df6276639b592e803e81d614f5b6e3a9b88a0860af0669fd827a7cb7d8f42e63bb9d20dc53bac54104bfac75260e7c,
  0x8addb1e06b3d492ae8dcf8fb76e541f41bbfa20c4bc31e4ea68672859988e04fc01c2457e9716226bc86ff01971e223c4f3e3225669b4808,
  0x238d937086edb5b013339673c3617ab9b7ecd9acb84ee5fa2969ba01d56c40d5fd6ecbbbd81629b351f3975121959bc42432e8e972f5a7c8,
  0x3edfbc11c9e6bf2ec467fb70c4c52708681bad089529ddc69b7e5d1f61c0c5d74c6c934d678c919f869829355a66064cec5e66586df391d0,
  0x4ecd259ce8dd636fce8ffb24e8d24e62cc46217f3404a902fb839fac03fe32397c06aa19c15b47348265b08b3332c22c52865a854c877f45,
  0x2f3dd72e6fe532a8a527153e0b2132425328e7a48efad8bbec18fb452ff6c5f79a96cc9bc010970da28d265359d4173b24ffea79d9f9f449,
  0xfff16744b7913bbf14525d0c4f4b69328f2c4cd9c55c85fd930f8759446aed88ccb6c5acc76f91854b39e4a5153ee7d336b867650e53243,
  0xfe192269a2294676328c075453e6e53295f5b4e35b6f1625965c68394aed558b1ae6ea6799bf557d7802ee1b6e59e43a0a2a8770a5e44b2,
  0x2f8f913b232546045305a16cba25c2e1600369970d9719cfae9c049ee2e16f86be410dd7d9dc0ecadc23a642ebc8394113949ddc38acf2a3,
  0x413766d89e863712df8eefb91626d0f06dde2059ba0b172a14930113392b676a1989bb77c6a5b6d6d1b9861d15aa295bb2dbd283d4cd2a79,
  0x613c3cd1753f3e9579e0dd642f5828cec2baa5ed1fabc8e2184a6a65a7f0299bc006044c6550cf1ca74f9f1de93671fb7915fae4ba1ae87d]

/-- Bits of the order minus one after the leading one. -/
def bs0 : List Bool := [true, true, false, true, true, true, false, true, false, true, true, false, false, false, false, false, true, true, false, false, true, true, false, false, true, true, false, false, true, true, true, false, true, false, false, false, false, true, false, true, true, true, true, false, false, false, true, true, true, true, true, false, false, true, false, false, true, true, true, true, false, true, false, true, false, true, true, false, false, false, true, false, false, true, true, false, false, true, true, true, false, true, true, false, false, true, true, true, true, true, true, false, false, false, true, true, false, true, false, false, false, true, true, false, false, true, true, false, false, false, true, true, true, false, false, false, false, false, false, true, true, false, true, false, false, false, true, false, true, true, false, false, false, true, true, true, false, false, true, false, true, false, true, false, true, false, true, false, false, false, false, true, false, true, false, false, false, true, true, true, true, false, true, false, true, true, true, true, false, false, false, true, true, true, true, false, true, false, false, false, true, false, true, true, false, true, false, false, false, true, true, false, true, true, true, false, true, false, true, false, true, false, false, true, true, false, false, true, false, true, false, false, false, false, false, false, false, false, false, false, true, false, true, false, false, false, false, false, true, false, false, true, true, true, false, true, true, true, true, true, true, true, true, true, true, false, false, true, false, true, true, false, false, false, true, true, true, false, true, false, false, true, false, true, false, false, true, true, false, false, false, true, true, true, true, true, true, false, false, true, false, false, false, false, false, false, true, false, false, false, false, true, true, false, true, false, false, false, true, false, false, false, true, true, true, true, false, true, false, false, false, false, false, false, false, true, false, false, true, true, false, false, true, false, true, false, false, true, true, true, false, false, true, true, false, false, false, false, true, true, false, false, true, true, false, true, false, true, false, false, false, false, true, true, false, false, false, false, true, true, false, true, false, true, true, true, true, false, false, true, true, false, false, true, false, true, true, false, false, true, true, false, true, false, false, true, false, false, true, false, false, false, false, true, false, true, true, false, false, true, false, true, false, false, false, false, true, false, false, false, false, true, true, false, false, false, false]

theorem p0 : Nat.Prime 402096035359507321594726366720466575392706800671181159425656785868777272553337714697862511267018014931937703598282857976535744623203249 :=
  Ecpp.prime_of_check (a := 26) (b := 0)
    (x0 := 198087187858876187948026791285609844381255159565316779203757098635142835015359647462967771189607664078051911815685579400366057891729768)
    (y0 := 79550561228698798932591042957441921792184056730980905847519063592323980047105859029184585153637562782927606584160668494639054352169994) (bs := bs0) (ws := ws0)
    (w0 := 239170615930707302574490713241342386234044247060270613836244916784933320667002576743879269771660480271041713433396337414064796159016908) p1 (by decide +kernel) (by decide +kernel) (by decide +kernel)

end Bls.H2Prime
