import Verif.Model.MeshPack
/-
Generated by tools/meshdata.py from /repo/src/vpx/mesh/bumpers/*_mesh.rs.
-/
namespace Vpin

set_option maxRecDepth 100000 in
/-- the vertices of `BUMPER_BASE_MESH`, /repo/src/vpx/mesh/bumpers/bumper_base_mesh.rs:18-536 -/
def bumperBaseVertices : List Nat := [
  0x3e4ac6cebe5769ecbb8259e2bf327bb33f3786c238d1b7173c86466b3ea97edc,
  0x3e4ac6cebe5769ec3e4fba45bf327bb33f3786c2800000003c8644523e587a8d,
  0x3e814057be334b513e4fba453c7f97243f7ff972000000003d39420b3e587a8d,
  0x3e814057be334b51bb8259e23c7f97243f7ff972000000003d39420b3ea97edc,
  0x3ea1e450be2744f63e4fba453c6560423f7ff97238d1b7173d97b0f73e587a8d,
  0x3ea1e753be273f31bb8259e23c6703b03f7ff97238d1b7173d97b0f73ea97efe,
  0x3ec25d29be3522213e4fba453c4985f03f7ff97238d1b7173dd2c1f43e587a8d,
  0x3ec25d29be352221bb8259e23c4985f03f7ff97238d1b7173dd2c16e3ea97efe,
  0x3eddb63dbe5acc4f3e4fba453f1c9eed3f4a7efa800000003e06e9793e587a8d,
  0x3eddb63dbe5acc4fbb8259e23f1c9eed3f4a7efa800000003e06e8b03ea97edc,
  0x3eefcb92be8943393e4fba453f7f559bbc7f9724bd90ff973e24738a3e587a4a,
  0x3eefc5acbe894057bb8259e23f7f559bbc7f9724bd9134053e2470eb3ea97edc,
  0x3ef5d767bea9ed183e4fba453f7d6a16bc63bcd3be1013a93e4201043e587a8d,
  0x3ef5cec0bea9e732bb8259e23f7d6a16bc621965be102de03e41fa763ea97edc,
  0x3eeef113beca6eb93e4fba453f7d70a4bc47e282be102de03e5f90113e587b14,
  0x3eeee58abeca65cfbb8259e23f7d70a4bc463f14be0ff9723e5f87f03ea97f41,
  0x3edc1f43bee5cdb33e4fba453f6db8bbbea6f694be358e223e7d1d043e587ca6,
  0x3edc1377bee5cad1bb8259e23f6db22dbea703b0be3573eb3e7d17833ea97fe9,
  0x3ec03f0cbef7dd233e4fba45bc7df3b6bf7ff972800000003e8d53ef3e587e7c,
  0x3ec03644bef7e2e7bb8259e2bc809d49bf7ff97238d1b7173e8d527e3ea980d4,
  0x3e9f928ebefddd2b3e4fba45bc621965bf7d6a163e1013a93e9c1aef3e588052,
  0x3e9f89a4befde5d2bb8259e2bc621965bf7d6a163e102de03e9c180d3ea981e0,
  0x3e7e22a3bef6e5693e4fba45bc47e282bf7d70a43e102de03eaae31d3e5881e4,
  0x3e7e1c9bbef6f113bb8259e2bc47e282bf7d6a163e1048173eaadf0d3ea98288,
  0x3e477037bee408103e4fba45bf79a6b5be1a511a3e25e3543eb9aa3f3e58826b,
  0x3e476428bee410b6bb8259e2bf79a6b5be1a511a3e25c91d3eb9a71a3ea982ed,
  0x3e23519cbec827fa3e4fba45bf7f559b3c7f97243d90ff973ec86f483e5882ae,
  0x3e234b0ebec82de0bb8259e2bf7f559b3c7f97243d9134053ec86dd73ea982ed,
  0x3e174539bea784023e4fba45bf7ff9723c62196538d1b7173ed733223e58826b,
  0x3e174539bea78402bb8259e2bf7ff9723c6075f7800000003ed732be3ea982ed,
  0x3e251d26be870b6b3e4fba45bf7ff9723c4985f0b8d1b7173ee5f6ba3e58826b,
  0x3e2522eabe870e4ebb8259e2bf7ff9723c4985f038d1b7173ee5f6983ea982ed,
  0x3e4ac6cebe5769ec3e4fba45bf327bb33f3786c2b8d1b7173ef4ba523e58826b,
  0x3e4ac6cebe5769ecbb8259e2bf327bb33f3786c2800000003ef4ba523ea982ed,
  0xbf184e1e3acaa3273e68476f3f517c1cbc3923a33f131f8a3f3a6b943ebec7eb,
  0xbf184e1e3acaa3273f3087ca3f4c5d64bc35dcc63f1a29c73f3bf0133f17d47c,
  0xbf13aacebe1c46523f3087ca3f381062bd1168733f31b08a3f325de13f1813a9,
  0xbf13aacebe1c46523e68476f3f514e3cbc2c08313f1361133f31084f3ebf457c,
  0xbf1291213e1edc7f3f3087ca3f41205c3db717593f26809d3f4581ae3f178c43,
  0xbf1291213e1edc7f3e68476f3f5147aebc4b295f3f1361133f43cea73ebe4b88,
  0xbf04f798be97fb483f3087ca3f39eeccbd8adaba3f2f1aa03f28d8663f1895e1,
  0xbf04f798be97fb483e68476f3f5147aebc1d49523f1367a13f27a3fd3ebfbb30,
  0xbf02d7843e986cec3f3087ca3f4a161e3dd532613f1ae7d53f4f08ff3f178499,
  0xbf02d7843e986cec3e68476f3f5147aebc5844d03f1367a13f4d31013ebdc7ac,
  0xbeda68f5bed7b3533f3087ca3e9a29c73f0566cf3f4c710d3f1f55373f195012,
  0xbeda68f5bed7b3533e68476f3edf7cee3f1020c53f33a92a3f1e3f033ec01d9f,
  0xbed465e93ed6cb323f3087ca3eb930bebee587943f5141203f58943e3f17ae04,
  0xbed465e93ed6cb323e68476f3ed758e2bf132ca53f33a92a3f56923e3ebd31db,
  0xbe9c0208bf0479d53f3087cabd81a36e3f3d013b3f2be76d3f15af4b3f1a39d6,
  0xbe9c0208bf0479d53e68476f3c42f8383f5113403f13afb83f14d62c3ec05ccd,
  0xbe94a5373f0324313f3087cabc656042bf2c6a7f3f3d35a83f6244633f17fef4,
  0xbe94a5373f0324313e68476fbc3295eabf5113403f13b6463f5ff4ed3ebc7ac0,
  0xbe8974e6bf088cd63f3087cabd59e83e3f420c4a3f266cf43f1333333f1a5083,
  0xbe8974e6bf088cd63e68476f3c3ac7113f50ff973f13c9ef3f127fc33ec06d2f,
  0xbe1f1dc5bede5b643e68476f3c6703b03f50902e3f1467383f0949413ec07bbb,
  0xbea8deb1bf0f42573f440d5fbdd6d5d03f1b15b53f49e83e3f16a3df3f2426ab,
  0xbeec6bf0bee931873f440d5f3e825aee3eda29c73f5e3bcd3f2020923f22a7df,
  0xbe1f1dc5bede5b643f3087ca3c9930be3f7ff2e538d1b7173f095cfb3f19a8ce,
  0xbbb55ef2beca7d243e68476f3c3ac7113f5075f73f148e8a3eff9d4e3ec07f24,
  0xbf0feceebea4399b3f440d5f3f2c0ebfbdb67a103f3c28f63f294a903f21def0,
  0xbbb55ef2beca7d243f3087ca3c6560423f7ff972800000003effab323f195da2,
  0x3e129c34bee07db33e68476f3be560423f5055323f14c2f83eeca4f43ec07182,
  0xbf1fd6b6be2899393f440d5f3f269ad4bcfdf3b63f42339c3f3292c53f2180b2,
  0xbf0be8ffbf09b1753f4c269a3eb46dc63f05e9e23f46a7f03f20e2f33f295dd5,
  0xbf2a59e2bec1bf7b3f4c269a3f47381dbccccccd3f20a3d73f2998f23f2883fd,
  0xbec7e133bf2940253f4c269abbbac7113f3df3b63f2b9f563f1891c13f2a9175,
  0xbe903adabf14ba733f440d5fbd6b1c433f2326183f44b5dd3f136ea43f248d09,
  0xbe9f7f06bf3197a23f4c269abccbfb163f41b7173f273eab3f15a4df3f2b1034,
  0xbe903adabf14ba733f5fcab8bf5096bc3c6703b03f1460aa3f0f39f33f2f85a5,
  0xbe9f7f06bf3197a23f5fcab8bd76fd223f50f27c3f1318fc3f1512993f31c194,
  0xbec7e133bf2940253f5fcab8bd02a9933f44d6a13f237b4a3f1939b93f30fde3,
  0xbe8974e6bf088cd63f5fcab8bf50e5603c5844d03f13f1413f0d58103f2ea769,
  0xbe6718a8bf2bd9ec3f5fcab83f507c85bc4e703b3f1487fd3f10c5fc3f33dcf0,
  0xbe1f1dc5bede5b643f5fcab83c15182b3f50ded33f1404ea3f06a92e3f2d72de,
  0xbe5b2181bf1e494d3f5fcab83f50d845bc4b295f3f140b783f0e96f63f3305fb,
  0xbe481776bf0f732a3f5fcab83f5068dcbc7df3b63f149ba63f0b9c203f321ae7,
  0xbe6915bebf4f72823f5fcab8bc35dcc6bf50ff973f13d07d3f147c423f368827,
  0xbe6718a8bf2bd9ec3f40f2493f7ff972bc68a71e000000003f10259e3f3cf3fe,
  0xbe6915bebf4f72823f411a43bd0db8bbbf472b02bf2096bc3f13d04a3f3ac82e,
  0xbe5b2181bf1e494d3f411a433f7ff972bc6d9168bb30f27c3f0dd1913f3d5fee,
  0xbe6718a8bf2bd9ec3f3901083f53d70a3e058794bf0bd3c33f115b253f3fe6e6,
  0xbedb1bbdbf395f353f411a433aaa64c3bf26f694bf420c4a3f1a05ee3f3c0486,
  0xbe481776bf0f732a3f411a433f7fec57bcbe0dedb8d1b7173f0b02933f3da49c,
  0xbedb1bbdbf395f353f5fcab8bc9374bcbf5075f73f14816f3f19e9d13f338327,
  0xbdebfb9cbefe362a3f5fcab8bbd4fdf4bf5048173f14d6a13f05eb743f312ae9,
  0xbf196042bf16c8503f5fcab8bedf6fd2bf0faace3f340b783f21c5d63f32d9f1,
  0xbe5b21c4bf1e4abe3f3901083f7ff972bc6d9168800000003f0e774f3f408cc5,
  0xbf0be8ffbf09b1753f5fcab83ecbb98c3f1803473f3305533f218c193f2fe282,
  0xbf196042bf16c8503f411a43beaf4f0ebf0ae148bf4467383f21dd6e3f3c3526,
  0xbf2a59e2bec1bf7b3f5fcab83f43d70abd4154ca3f246dc63f2a3fdd3f2f4dcf,
  0xbf3ac051bed411803f5fcab8bf5096bc3bbe0ded3f1467383f2a76213f3268a1,
  0xbf3ac051bed411803f411a43bf5b3d083c9e1b09bf0418933f2a91fb3f3c2c5e,
  0xbf3d2f90be464a173f4c269a3f417c1cbcb0f27c3f2786c23f31989e3f282f40,
  0xbf4f646bbe58b5893f5fcab8bf50be0e3c1374bc3f142c3d3f33a4403f31be4d,
  0xbf3d2f90be464a173f5fcab83f50c49cbc271de73f141f213f3386e43f2e5ffa,
  0xbf4f646bbe58b5893f411a43bf4f559b3d144674bf15e3543f33ac933f3bff15,
  0xbf3e11dcbe2846633f4c269a3f40624ebd600d1b3f2851ec3f32bb023f282129,
  0xbf3e11dcbe2846633f5fcab83f50ff97bc3ac7113f13d07d3f3506cd3f2dff1e,
  0xbf2f6934be1973da3f481abd3f2bf488bd8587943f3ced913f338a6e3f25246c,
  0xbf2f6934be1973da3f5fcab8bd1e1b09bf3865953f314e3c3f36d41b3f2beb8e,
  0xbf55e9293ba0c2833f5fcab8bf50ff973c3ac7113f13c9ef3f3ca7933f325109,
  0xbf1e9036bdb032123f44661b3f50346ebc51b7173f14ea4b3f3729f63f2150a9,
  0xbf55e9293ba0c2833f411a43bf41f8a13d21cac1bf26c2273f3ce5823f3bcbd5,
  0xbf1e9036bdb032123f5fcab83f50ff97bc3ac7113f13d07d3f397aff3f2a3f9a,
  0xbf1e9036bdb032123f3e644e3f3dbf48bde8db8c3f295e9e3f36f5343f1ea162,
  0xbf184e1e3acaa3273f5fcab83f4f9097bd4432ca3f1553263f3c6d403f29c348,
  0xbf184e1e3acaa3273f3fd8063f7ff972bc656042800000003f3c21e23f1ee7a3,
  0xbf184e1e3acaa3273f450b413f7ff972bc656042800000003f3c30d33f210c0b,
  0xbf1def523db7dbf53f3e644e3f320c4a3e1aee633f33d07d3f4148ed3f1e5929,
  0xbf1def523db7dbf53f5fcab83f375254bd18c7e33f326e983f3f65563f2a1709,
  0xbf1def523db7dbf53f44661b3f50e560bc47e2823f13f7cf3f4139c93f210aaa,
  0xbf1ea5f83e2c8a7a3f440d5f3f34f7663d0b43963f34dd2f3f45d2d03f20faad,
  0xbf2e51b13e1f23cd3f481abd3f21f8a13d35dcc63f45e9e23f450d9d3f24ab93,
  0xbf2e51b13e1f23cd3f5fcab83c3ac7113f50ff973f13d07d3f4222d53f2b9e5a,
  0xbf3cde7f3e2f97ee3f5fcab83f4f6944bbbe0ded3f1611343f440c413f2d98af,
  0xbf4dd8d83e61f1d03f5fcab8bf50b0f23c6703b03f143fe63f45a22f3f314478,
  0xbf3cde7f3e2f97ee3f4c269a3f3a02753d123a2a3f2faace3f4606643f279cfa,
  0xbf3bc6a83e4d7f0f3f5fcab83f50cb29bc4b295f3f1418933f4591043f2de4b4,
  0xbf4dd8d83e61f1d03f411a43bf41cac1bc07fcb9bf2745393f4620cd3f3b89a4,
  0xbf3bc6a83e4d7f0f3f4c269a3f40902e3a83126f3f28adac3f47295f3f279b78,
  0xbf37c41a3ed77e3d3f5fcab8bf50902e3c8b43963f1467383f4edd273f316df4,
  0xbf27a0a53ec443703f5fcab83f58b439bda2d0e53f06c8b43f4ee9573f2e4b66,
  0xbf27a0a53ec443703f4c269a3f475f703c3fb15b3f20902e3f4f2d3c3f278759,
  0xbf0da0063ea546d43f440d5f3f3ae7d53c8ce7043f2edfa43f4f1cfc3f20d65e,
  0xbf080f343f0a15ba3f5fcab83eb9a6b5bf170a3d3f38adac3f57aa8b3f2e77a3,
  0xbee5ea253ee8c8473f440d5f3e786c22beddbf483f5e3bcd3f5856933f2112ba,
  0xbf080f343f0a15ba3f4c269a3eaea4a9bf08a0903f461e4f3f57f8663f27d178,
  0xbea0e66d3f0e19b93f440d5fbdf97247bf1a43fe3f49e83e3f61ed5b3f22048e,
  0xbebe72113f2883a93f4c269abcd844d0bf3dd97f3f2b9f563f6060ee3f289247,
  0xbebe72113f2883a93f5fcab8bd56a162bf4474543f2395813f60182f3f2f15a5,
  0xbf1527703f178b9c3f5fcab8bed758e23f12b6ae3f340b783f5799b33f317354,
  0xbed0c47a3f38e5c53f5fcab83bbe0ded3f5096bc3f1467383f5f8d3f3f31a997,
  0xbf37c41a3ed77e3d3f411a43bf5b4a233b96bb99bf0418933f4f43313f3b4235,
  0xbf1527703f178b9c3f411a43bec43fe63eee978dbf4c28f63f5804a73f3adaec,
  0xbe52046c3f4d89ce3f5fcab83c3fb15b3f50ff973f13d07d3f6531fd3f34623d,
  0xbf2deaab3e3dcf033f390108bf2a3d71bce631f9bf3f0d843f4659b03f425109,
  0xbe959cae3f3049ed3f5fcab8bdaa3055bf506f693f1318fc3f64534c3f2f9ae1,
  0xbf34bad83b4ae6433f390108bf26594b3c7f9724bf4288ce3f3d10d43f42c205,
  0xbe959cae3f3049ed3f4c269abd3cd35bbf41758e3f273eab3f6359de3f28e54f,
  0xbf2f38e7be3827313f390108bf276c8b3d6bedfabf4119ce3f33c83b3f42c248,
  0xbe87f7163f13392a3f440d5fbdb126e9bf22d0e53f444d013f652b2c3f2239e7,
  0xbf1dc6f3beb3b2573f390108bf2b851f3dcd013bbf3c50483f2a98ee3f42bdc2,
  0xbf26f5ed3b19bf593f257b74bf3c50483c28c155bf2d63883f3d436c3f4b4539,
  0xbf21e01ebe2aa5403f257b74bf3dcc643cb1c433bf2bb2ff3f33e1eb3f4b483d,
  0xbf0195bcbeff50c23f390108be973eabbedb8bacbf5a92a33f219b1b3f4279dd,
  0xbf11c24cbea647133f257b74bf3e56043cd1b717bf2b15b53f2a848c3f4b2e27,
  0xbf26f5ed3b19bf593e4fba45bf7ff9723c656042000000003f3e40ea3f7d3719,
  0xbf21e01ebe2aa5403e4fba45bf7ff9723c741f21000000003f347a9e3f7d52d2,
  0xbf11c24cbea647133e4fba45bf7ff9723c809d49800000003f2ab6bf3f7d59a3,
  0xbf20ab3f3e2ed0b33f257b74bf3d14e43bc7e282bf2c985f3f46a5c63f4adbf9,
  0xbf20ab3f3e2ed0b33e4fba45bf7ff9723c56a16238d1b7173f4807463f7cf68c,
  0xbeef6e1ebeec215c3f257b74bed16873bee7c84bbf4ad42c3f211f923f4ad0c4,
  0xbeef6e1ebeec215c3e4fba45beffa440bf5dcc64b8d1b7173f20f52c3f7d5098,
  0xbeb91ec9bf1ce22a3f3901083d98c7e3bf2f4880bf39999a3f18d66f3f416dc2,
  0xbeab061cbf11102c3f257b74bd690ff9bf30cb29bf3893753f1799c43f49ebfb,
  0xbeab061cbf11102c3e4fba45bc4e703bbf7ff972b99d49523f1733a93f7d4281,
  0xbe5b21c4bf1e4abe3f257b743e463f14bf20e560bf40ded33f0fc8d23f4934bd,
  0xbe5b21c4bf1e4abe3e4fba45bc63bcd3bf7ff972800000003f1002d13f7d4110,
  0xbe481776bf0f732a3e4fba453f7ff2e5bc95182b39d1b7173f0ca83b3f7d47f1,
  0xbe481776bf0f732a3f257b743f7fec57bcc56d5d3951b7173f0c35ad3f497679,
  0xbe481776bf0f732a3f3901083f7ff972bc87fcb9000000003f0b480a3f40ee6c,
  0xbdebfb9cbefe362a3f257b74bbf5c28fbf7fb15b3d42f8383f064f663f49b175,
  0xbdebfb9cbefe362a3e4fba45bc4154cabf7ff972800000003f06abef3f7d54da,
  0xbdebfb9cbefe362a3f3901083c4e703bbf7d42c43e14c9863f05ed393f413a3f,
  0xbdebfb9cbefe362a3f411a433b656042bf7e69ad3de45a1d3f05d1703f3de109,
  0xbbd8e432bef238b93f257b74bc656042bf7ff972800000003f0007463f49cbff,
  0xbbd8e432bef238b93e4fba45bc656042bf7ff972800000003f002eba3f7d6170,
  0xbbd8e432bef238b93f390108bc656042bf7ff972800000003f0000eb3f41579b,
  0xbbd8e432bef238b93f411a43bc656042bf7ff972800000003efffbad3f3df480,
  0xbbd8e432bef238b93f5fcab8bda30553bf4e147b3f16872b3eff3de23f30c3b1,
  0x3dcf71a8beffc2653f257b74bcac0831bf7f9db2bd5288ce3ef36bb13f49ce3a,
  0x3dcf71a8beffc2653e4fba45bc8240b8bf7ff972000000003ef360af3f7d6c61,
  0x3dcf71a8beffc2653f390108bd257a78bf7d0e56be1532613ef424813f4141c8,
  0x3dcf71a8beffc2653f411a43bcf41f21bf7e703bbdd8e2193ef453d23f3de786,
  0x3dcf71a8beffc2653f5fcab8bddab9f5bf58a71e3f059b3d3ef2c0c63f314531,
  0xbbb55ef2beca7d243f5fcab83c3ac7113f50f27c3f13e4263eff2de43f2d1be7,
  0x3e37f6b2bf10ca603f5fcab8bf3f00693da5460b3f2930be3ee780dc3f3225ea,
  0x3e129c34bee07db33f3087ca3cd9e83e3f7d4fdfbe114e3c3eec70a83f19a35d,
  0x3e129c34bee07db33f5fcab83c3ac7113f50ff973f13d07d3ef142d53f2d9fa1,
  0x3e81c38bbf0a6a663f3087ca3cf1a9fc3f45dcc63f2240b83ed8d8883f1a6623,
  0x3e81c38bbf0a6a663e68476f3c3c6a7f3f50ff973f13d07d3eda2f6a3ec05554,
  0x3e81c38bbf0a6a663f5fcab83f50ebeebc22339c3f13eab33ee426dd3f2ebe9d,
  0x3e94894cbf069a1c3e68476f3c3295ea3f5113403f13afb83ed57eed3ec04a94,
  0x3e37f6b2bf10ca603f411a43bf8000003bf9096c000000003ee9e6253f3daa1d,
  0x3e94894cbf069a1c3f3087ca3d93404f3f398c7e3f2f69443ed3db3c3f1a4e59,
  0x3ed449dcbeddb6e53e68476fbed765fe3f132ca53f33a92a3ec2a0233ec0012e,
  0x3e37f6b2bf10ca603f390108bf8000003ba0902e000000003ee951a43f40fc1e,
  0x3ed449dcbeddb6e53f3087cabe99c0ec3f0388663f4dbf483ec0795f3f196b23,
  0x3f02c97ebe9f589f3e68476fbf5147ae3c5844d03f1367a13eafc5ef3ebf954f,
  0x3ea0ca82bf118f933f440d5f3d5a511a3f36e9793f3295ea3ed1e1b13f244d12,
  0x3f02c97ebe9f589f3f3087cabf3d6a16bd734d6a3f2b8bac3ead5f573f18b924,
  0x3f12831bbe2cb4293e68476fbf514e3c3c47e2823f1361133e9cea073ebf1690,
  0x3e87db0abf16af043f440d5f3dacd9e83f268db93f4134053ed847913f24b429,
  0x3ee5ce18beefb3fa3f440d5fbe7c1bda3eeca57a3f5a161e3ebeeb0b3f22cdf2,
  0x3e9580c3bf33bfc63f4c269a3d690ff93f3d6a163f2b9f563ed3ea0c3f2b3861,
  0x3f12831bbe2cb3e53f3087cabf39e83ebcf765fe3f2fd2203e9a44203f183c29,
  0x3f184018bc76cacd3e68476fbf517c1c3c3ac7113f131f8a3e8a0cf23ebe9015,
  0x3e87db0abf16af043f5fcab83f507c85bc016f003f148e8a3ee06c013f2f97bb,
  0x3e4956c1bf1fc0f43f5fcab8bf50d8453c2a64c33f140b783ee1ac363f330ad4,
  0x3e9580c3bf33bfc63f5fcab83c83e4263f4ed2893f16d5d03ed52f1b3f31dead,
  0x3ebe5604bf2bf9833f4c269a3ce703b03f41b7173f27381d3ece14593f2abc51,
  0x3e4956c1bf1fc0f43f411a43bf7ff9723c5d2f1b38d1b7173ee406183f3d65a1,
  0x3e53c8e2bf2d65b23f5fcab8bf504ea53c1eecc03f14d0143edd362f3f33ed85,
  0x3ebe5604bf2bf9833f5fcab83ba71de73f5048173f14d6a13ecce78a3f312935,
  0x3e4956c1bf1fc2763f390108bf7ff9723c5b8bac38d1b7173ee2cfd93f409d49,
  0x3f08011dbf0d8bc63f4c269abeaadaba3f0c08313f448e8a3ebd718f3f298277,
  0x3f0d91ffbeac32873f440d5fbf2e2196bd872b023f3ae7d53eac83a93f220e84,
  0x3e53c8e2bf2d65b23f412019bf7ff9723c5ed289b951b7173edf7c243f3cf00f,
  0x3e51cc10bf50fe483f5fcab8bc3fb15bbf50ff973f13d07d3ed6fb2b3f369c56,
  0x3e51cc10bf50fe483f411a433c816f00bf4b3d08bf1b98c83ed69ee43f3ae07e,
  0x3e53c8e2bf2d65b23f390108bf427bb33e39f55abf1fdf3b3edcc9eb3f402928,
  0x3e37f6b2bf10ca603f257b74bf8000003bdb8bac800000003ee788b93f499b6f,
  0x3e37f6b2bf10ca603e4fba45bf7ff9723c656042000000003ee761463f7d74c5,
  0x3e4956c1bf1fc2763e4fba45bc378034bf7ff972b9d1b7173ee03fd53f7d7907,
  0x3e4956c1bf1fc2763f257b74bce7d567bf49f55abf1d288d3ee0537e3f496617,
  0x3ea2d7b6bf1364e03e4fba45bc7c5048bf7ff972800000003ed1c7de3f7d8a01,
  0x3ea2d7b6bf1364e03f257b74bcfd21ffbf3fdf3bbf294af53ed05a4f3f4a2867,
  0x3ee8bac7bef2b8e93e4fba453ef32618bf6147ae800000003ebe26d53f7da544,
  0x3eb045febf1f68063f390108bdcd013bbf2b7e91bf3c56d63ecd9a743f419792,
  0x3ee8bac7bef2b8e93f257b743ea6c227bf0a29c7bf46bb993ebd27c43f4b1013,
  0x3f0f5fc4beae59d13e4fba453f7ff972bc47e2823951b7173eaa8c7a3f7db77c,
  0x3ed0a88fbf3c5b9f3f411a43bd401a37bf435a86bf2504813ecb0d953f3c04a7,
  0x3efbed52bf0339c13f3901083e90b0f2bedec56dbf5adaba3ebc13773f42a8eb,
  0x3f0f5fc4beae59d13f257b743f3ff2e53c2c0831bf295e9e3eaa53da3f4b7143,
  0x3f209d49be3ca81a3e4fba453f7ff972bc56a162b951b7173e96f2e93f7db77c,
  0x3ed0a88fbf3c5b9f3f5fcab8bbbe0dedbf5096bc3f1460aa3ecb9a173f33b0d5,
  0x3f209d49be3ca81a3f257b743f3de00d3a83126fbf2bb2ff3e97967d3f4b92e2,
  0x3f26e7e6bc81f31f3e4fba453f7ff972bc656042800000003e8359793f7da112,
  0x3f1b3344bebc6f7a3f3901083f2d97f63d9d14e4bf3b22d13eaa187a3f42f7c2,
  0x3f151969bf1b01863f411a433ea779a7bf0d42c4bf4467383ebb7e4e3f3c579f,
  0x3f2ddca5be4ba6ad3f3901083f2886593d13dd98bf407c853e97b7413f4307c0,
  0x3f08011dbf0d8bc63f5fcab8bec40b783f1a4a8c3f3339c13ebc26143f30191a,
  0x3f151969bf1b01863f5fcab83ed758e2bf12bd3c3f340b783ebbb40b3f331013,
  0x3f37b613bede69f03f411a433f439c0f3cd1b717bf2504813eaa189c3f3c6013,
  0x3f2792b0becb2f233f4c269abf56e9793b9d49523f0b15b53eabed523f28be40,
  0x3f2792b0becb2f233f5fcab8bf503afb3c90ff973f14d6a13eaab3033f2f7985,
  0x3f37b613bede69f03f5fcab83f50902ebc8b43963f1467383eaa48d83f3298ee,
  0x3f1e97f2be3a61e13f440d5fbf2d97f6bd837b4a3f3b71763e99e7103f21b3af,
  0x3f3bb8b2be5b56753f4c269abf4c9eedbc5844d03f19c77a3e9be61d3f28677b,
  0x3f3bb8b2be5b56753f5fcab8bf50cb293c4ccccd3f1412063e9811f53f2e9bd0,
  0x3f3cd089be3d6f973f4c269abf404189bcc154ca3f28ef353e999fe43f285a2d,
  0x3f4dcae2be6fc9363f411a433f42339c3c11d14ebf26c8b43e97e0483f3c405b,
  0x3f4dcae2be6fc9363f5fcab83f50b0f2bc6703b03f143fe63e97def83f31fbb5,
  0x3f3cd089be3d6f973f5fcab8bf4f69443bc154ca3f1611343e95104d3f2e3c86,
  0x3f34acb0bc881c2e3f3901083f266666bc42f838bf4288ce3e8521793f43136a,
  0x3f2e43bbbe2cfb333f481abdbf2a3d71bd449ba63f3ecbfb3e97fb263f255b68,
  0x3f55db23bc96ebd53f411a433f414120bc1eecc0bf27e2823e8566f13f3c19b1,
  0x3f55db23bc96ebd53f5fcab83f50ff97bc3ac7113f13c9ef3e85cdf73f3299d9,
  0x3f2e43bbbe2cfb333f5fcab8bc3ac711bf50ff973f13d07d3e916fca3f2c299e,
  0x3f26e7e6bc81f31f3f257b743f3e0ded3dd9b3d0bf2951833e84d1853f4b9a28,
  0x3f1de14cbdd38ac23f5fcab8bf50b7803bd1b7173f1439583e8c193b3f2a7ea6,
  0x3f21d2183e1ccdd93f257b743f45cfabbdb6e2ebbf20ded33e64128c3f4b3d8e,
  0x3f21d2183e1ccdd93e4fba453f7ff972bc741f21800000003e5f84023f7d6463,
  0x3f2f2ae03e2a4fca3f3901083f2f34d7bc8e8a72bf3a99313e6510903f42afcd,
  0x3f4f56653e4ade223f411a433f43eab3bd058794bf2495183e65cb363f3be543,
  0x3f11b4463e9f5b3e3f257b743f4e69adbda9930cbf15f06f3e3e7e203f4ac5d2,
  0x3f11b4463e9f5b3e3e4fba453f7ff972bc809d49800000003e38637c3f7d1351,
  0x3f1db8ed3eacc6a43f3901083f3a511abd29fbe7bf2f41f23e4028e53f4249f5,
  0x3f3ab24a3ecd25cc3f411a433f47a0f9bd3d3c36bf1fd2203e41287c3f3bad7d,
  0x3f4f56653e4ade223f5fcab83f50b780bc0e8a723f1439583e678d503f3199aa,
  0x3f3ab24a3ecd25cc3f5fcab83f5096bcbbbe0ded3f1467383e427d893f31d6f1,
  0x3eef52113ee535a83f257b743ed168733ee7c84bbf4ad42c3e18bce03f4a0d13,
  0x3eef52113ee535a83e4fba453effa4403f5dcc6438d1b7173e114f8b3f7cb3e5,
  0x3f0187b53ef864ed3f3901083e9412063ed0e560bf5dab9f3e1bf6a13f41a87a,
  0x3f19523b3f1352653f411a433eb2d7733f072b02bf462b6b3e1e0a853f3b56eb,
  0x3eaaea103f0d9a523f257b743d690ff93f30cb29bf3893753de4e50c3f48cf8d,
  0x3eaaea103f0d9a523e4fba453c4e703b3f7ff972800000003dd47b673f7c5187,
  0x3eb902bc3f196c513f390108bdf6c8b43f1ded29bf471de73df1550d3f40419a,
  0x3e5ae9ab3f1ad4e53f257b743c42f8383f49d495bf1d70a43da5e99f3f47d599,
  0x3e5ae9ab3f1ad4e53e4fba453c63bcd33f7ff972800000003d9adf2f3f7c1301,
  0x3e47df5d3f0bfd503e4fba45bf7ff2e53c95182bb951b7173d7ffbce3f7bfd61,
  0x3edaffd23f35e94b3f411a43bcd1b7173f439c0fbf2504813dfcaa763f3ad1bf,
  0x3f19523b3f1352653f5fcab83edf6fd23f0faace3f340b783e1f57713f31e1c1,
  0x3edaffd23f35e94b3f5fcab83c8b43963f50902e3f1467383dfeb95e3f322f8c,
  0x3e68dde83f4bfe193f411a433d07fcb93f45f06fbf221ff33dcaa9f83f394f8b,
  0x3f0bdb0a3f063b8a3f5fcab8becbb98cbf1803473f3305533e1efd003f2edf40,
  0x3e66e08f3f2864023f390108bf5b020cbdf10cb3bf0113403db502253f3e6c8f,
  0x3e68dde83f4bfe193f5fcab8bd46a7f03f1985f03f4c7e283dd181173f3503c9,
  0x3ec7c5263f25ca4b3f5fcab8bc90ff97bf503afb3f14d6a13dfa14cf3f2f9896,
  0x3f2a4bdc3ebad3c83f5fcab8bf4fc5053a03126f3f158e223e4238973f2eb3ab,
  0x3f0bdb0a3f063b8a3f4c269abec816f0beed844d3f4b851f3e1d9d343f2840c0,
  0x3e9f631b3f2e21b83f5fcab8bbc154cabf4e91003f17381d3dd7f6b23f302d17,
  0x3f3d218a3e3872b03f5fcab8bf50cb293c2a64c33f1418933e67bc3c3f2e35d6,
  0x3e66e08f3f2864023f5fcab8bf517c1c3d9e83e43f11d14e3db40a283f3220de,
  0x3f3e03e63e1a6eb93f5fcab8bf50ff973c3ac7113f13d07d3e6dd54e3f2de732,
  0x3e66e08f3f2864023f40fb01bf7ff9723c68a71e399d49523dac12273f3b5ba3,
  0x3f3e03e63e1a6eb93f4c269abf36d5d03d95182b3f32339c3e65c2d23f27e5b8,
  0x3e5ae9ab3f1ad4e53f411a43bf7f0d843ce2eb1cbda5aee63d98f4733f3bb491,
  0x3f2f5b3e3e0b9c733f5fcab83d1e1b093f3865953f314e3c3e7579293f2be825,
  0x3f3d218a3e3872b03f4c269abf410cb33ca9930c3f2809d53e6130e03f27e586,
  0x3f2f5b3e3e0b9c733f481abdbf2a29c73d99ce073f3e48e93e699d453f24f00f,
  0x3f1e82413d9483453f5fcab8bf50ff973c3ac7113f13c9ef3e8039ce3f2a5c1c,
  0x3f2a4bdc3ebad3c83f4c269abf4295ea3ccbfb163f2638863e40ef9a3f27d4e1,
  0x3f184018bc76cacd3f5fcab8bf50e5603c3ac7113f13f1413e862e903f2a04d1,
  0x3f1e82413d9483453f446855bf36f6943e2b020c3f2de69b3e78f0413f2148aa,
  0x3f184018bc76cacd3f451915bf7ff9723c656042000000003e86965f3f214962,
  0x3f1e82413d9483453f3e644ebf3275253e068db93f3474543e78ad693f1e92c5,
  0x3f1fc8c13e1ac1903f440d5fbf2a92a33db886593f3d7dbf3e6676213f213b7e,
  0x3f1de14cbdd38ac23f446e1abf52de013ce48e8a3f10f9093e90aefb3f2189f0,
  0x3f184018bc76cacd3f3f4f40bf7ff9723c656042000000003e86b4423f1ee233,
  0x3f1de14cbdd38ac23f3e644ebf385f07bc92a3053f3189373e91146e3f1ed3b7,
  0x3f184018bc76cacd3f3087cabf4c8b443e3247453f135a863e870aa23f18023a,
  0x3f139cc73e0e6eeb3f3087cabf3810623d1168733f31b08a3e67980f3f17c04d,
  0x3f139cc73e0e6eeb3e68476fbf514e3c3c2a64c33f1361133e6e5d9e3ebe09bb,
  0x3f0fdee83e9d4de83f440d5fbf2c154d3db645a23f3c28f63e410d393f212029,
  0x3f04e9923e910f953f3087cabf39eecc3d8adaba3f2f1aa03e41376d3f17c1df,
  0x3f04e9923e910f953e68476fbf5147ae3c1d49523f1367a13e489c5e3ebd7aff,
  0x3eec4fe33ee245d43f440d5fbe850481beea8c153f59a0273e1bf3bf3f21700d,
  0x3eda4ce83ed0c79f3f3087cabe9a29c7bf0566cf3f4c710d3e1acc0c3f17f823,
  0x3eda4ce83ed0c79f3e68476fbedf7ceebf1020c53f33a92a3e22d8803ebcd8ba,
  0x3ec7c5263f25ca4b3f4c269a3bf27bb3bf438ef33f2532613df766843f290afe,
  0x3e9be5fb3f0103ea3f3087ca3d81a36ebf3d013b3f2be76d3de78af43f185404,
  0x3e9be5fb3f0103ea3e68476fbc42f838bf5113403f13afb83dfa0e843ebc1334,
  0x3ea8c2a43f0bcc6c3f440d5f3d8624ddbf2e00d23f3b089a3dea9bd03f226f72,
  0x3e8958da3f0516ec3f3087ca3d59e83ebf420c4a3f266cf43dd383f13f184652,
  0x3e8958da3f0516ec3e68476fbc3ac711bf50ff973f13c9ef3de742143ebbe09c,
  0x3e1ee5ac3ed76fb13e68476fbc6703b0bf50902e3f1467383d9d44133ebaf6a5,
  0x3e9f631b3f2e21b83f4c269a3ccbfb16bf41b7173f273eab3ddf72f73f296388,
  0x3e901ecd3f11449a3f440d5f3d5a511abf2972473f3f69443dd06f693f22a8ca,
  0x3e901ecd3f11449a3f5fcab83f5096bcbc6703b03f1460aa3da8dfbd3f2da006,
  0x3e1ee5ac3ed76fb13f3087cabc9930bebf7ff2e5b951b7173d8544fe3f16e4c1,
  0x3bae5bc83ec391713e68476fbc3ac711bf50ff973f13d07d3d2262cc3eb9fe22,
  0x3bae5bc83ec391713f3087cabc656042bf7ff972800000003ce51f3f3f15ccc9,
  0x3e8958da3f0516ec3f5fcab83f50e560bc5844d03f13f1413d99b5e93f2ca4d3,
  0x3e5ae9ab3f1ad4e53f5fcab8bf50d1b73c4b295f3f140b783da277c43f312d66,
  0x3e1ee5ac3ed76fb13f5fcab8bc15182bbf50ded33f1404ea3d44c2723f2b3398,
  0x3bae5bc83ec391713f5fcab8bc3ac711bf50ff973f13d07d3c892ccf3f2af07c,
  0x3e47df5d3f0bfd503f5fcab8bf5068dc3c7df3b63f149ba63d8a64c33f301bda,
  0x3deb8b693ef74a563f5fcab83bd4fdf43f5048173f14d6a13d38d2e53f2ef534,
  0x3bd1e1093eeb4d053f5fcab83c09a0273f504ea53f14d0143caaac113f2eeb70,
  0x3e47df5d3f0bfd503f411a43bf7fec573cbe0dedb8d1b7173d821c8a3f3be8de,
  0x3deb8b693ef74a563f411a433c1ba5e33f800000800000003d2f9db23f3bfa4c,
  0x3bd1e1093eeb4d053f411a433c6560423f7ff972800000003c9dadfb3f3be60c,
  0x3e5ae9ab3f1ad4e53f390108bf7ff9723c68a71e800000003d9d3e4f3f3efb4c,
  0x3e47df5d3f0bfd503f390108bf7ff2e53cae7d56b951b7173d83a8e73f3f3beb,
  0x3deb8b693ef74a563f3901083c20902e3f800000800000003d2fb19e3f3f6523,
  0x3bd1e1093eeb4d053f3901083c6560423f7ff972800000003c9bfdf83f3f5eea,
  0x3e47df5d3f0bfd503f257b74bf7ff2e53ca3d70ab8d1b7173d88b08e3f47ecff,
  0x3deb8b693ef74a563f257b743c20902e3f800000800000003d31f6883f47fa09,
  0x3bd1e1093eeb4d053f257b743c6560423f7ff972800000003c988d2a3f47e8ee,
  0x3deb8b693ef74a563e4fba453c4154ca3f7ff972800000003d202a783f7bd827,
  0x3bd1e1093eeb4d053e4fba453c6560423f7ff972800000003c619fc33f7bb04f,
  0xbed0c522be6c0f02bb8259e2bf3282413f378034000000003f458a763e3b25b3,
  0xbed0c522be6c0f023e4fba45bf327bb33f3786c2800000003f458bd63d814489,
  0xbebc0a8dbe512c283e4fba453c79096c3f7ff97238d1b7173f4b0a4e3d814595,
  0xbedec658be8a5fe9bb8259e2bf7ff9723c5013a9b8d1b7173f400c0f3e3b24ea,
  0xbebc0a8dbe512c28bb8259e23c7aacda3f7ff972000000003f4b08ee3e3b2639,
  0xbedec95cbe8a5fe93e4fba45bf7ff9723c5013a9b8d1b7173f400d6f3d81437c,
  0xbea3be44be483be63e4fba453c6075f73f7ff97238d1b7173f5088d73d814728,
  0xbee3eea2bea289b9bb8259e2bf7ff9723c68a71e800000003f3a8d973e3b2464,
  0xbea3be88be4836a8bb8259e23c68a71e3f7ff97238d1b7173f5087773e3b2703,
  0xbee3eea2bea289b93e4fba45bf7ff9723c68a71eb8d1b7173f3a8f193d8141ea,
  0xbe8b9496be528d003e4fba453c5013a93f7ff972000000003f56075f3d814834,
  0xbedf7681bebad8e4bb8259e2bf7f559b3c79096c3d90ff973f350ebb3e3b23dd,
  0xbe8b9496be528d00bb8259e23c5013a93f7ff972000000003f5605ff3e3b2789,
  0xbedf739fbebad3413e4fba45bf7f559b3c79096c3d90ff973f3510a13d8140dd,
  0xbe6e7297be6e94ee3e4fba453f1cb9243f4a6b51000000003f5b860a3d8149c7,
  0xbe6e7818be6e8f2abb8259e23f1cbfb13f4a6b5138d1b7173f5b84883e3b280f,
  0xbed2087dbecf995fbb8259e2bf7c2268be1c91d13da752543f2f8f363e3b2314,
  0xbed20536becf93793e4fba45bf7c2268be1c779a3da6e9793f2f91c53d813fd1,
  0xbebdad10bedda61ebb8259e2bc4ccccdbf7d70a43e0ff9723f2a0f2c3e3b224b,
  0xbebda9ebbedd9a743e4fba45bc4ccccdbf7d70a43e0ff9723f2a121f3d813db8,
  0xbea57d9ebee2d46fbb8259e2bc656042bf7f559b3d9134053f248f973e3b20b8,
  0xbea57a57bee2cb863e4fba45bc63bcd3bf7f559b3d9134053f2492043d813a93,
  0xbe8d3155bede594bbb8259e2bc7aacdabf7ff97238d1b7173f1f10773e3b1f25,
  0xbe8d288dbede56ac3e4fba45bc79096cbf7ff97238d1b7173f1f126f3d81376d,
  0xbe70e1b5bed0e25dbb8259e23f7089a0bea9374cbdb74bc73f1990f33e3b1d50,
  0xbe70d5e9bed0e53f3e4fba453f7089a0bea92a30bdb7b4a23f1993603d8133c2,
  0xbe54e486bebc810abb8259e23f7d70a4bc4e703bbe1013a93f1410f93e3b1c00,
  0xbe54cdb8bebc87333e4fba453f7d70a4bc4ccccdbe1013a93f1413ec3d813123,
  0xbe4a99fabea45176bb8259e23f7f559bbc63bcd3bd9134053f0e91863e3b1af4,
  0xbe4a886abea4547a3e4fba453f7f559bbc656042bd9134053f0e94143d812f0a,
  0xbe539607be8c052dbb8259e23f7f559bbc79096cbd90ff973f0912a93e3b1a2a,
  0xbe539000be8c050c3e4fba453f7f559bbc79096cbd90ff973f0914903d812dfd,
  0xbe6e7818be6e8f2abb8259e23f1cb9243f4a6b51b8d1b7173f0394213e3b19a4,
  0xbe6e7297be6e94ee3e4fba453f1cbfb13f4a6b51000000003f0395b33d812c6b,
  0xbee8d6d43eebcd363f257b74bedf48803ed9652cbf4b1c433f5979e13f498c4c,
  0xbefc093e3eff87cf3f390108be90b0f23edec56dbf5adaba3f5898703f4128d0,
  0xbeb0620b3f1bf22c3f3901083dba29c73f2e69adbf39f55a3f6168833f3faa26,
  0xbea2f3c33f0feef63f257b743cfdf3b63f3fdf3bbf294af53f630f5a3f48397a,
  0xbee8d6d43eebcd363e4fba45bef326183f6147ae800000003f5b92e23f7c3f2d,
  0xbf0f6dca3ea76e1e3e4fba45bf7ff9723c47e2823951b7173f51cd0c3f7ca1f1,
  0xbea2f3c33f0feef63e4fba453c7c50483f7ff972000000003f655b8a3f7bd934,
  0xbf0f6dca3ea76e1e3f257b74bf3ff2e5bc2c0831bf295e9e3f50094e3f4a55e3,
  0xbf1b414a3eb583c73f390108bf3a8588bcadab9fbf2f41f23f4f8f7a3f41dbcb,
  0xbed0c47a3f38e5c53f411a433d401a373f441f21bf2418933f5fec573f3a3f14,
  0xbe52046c3f4d89ce3f411a43bbc7e2823f413a93bf27ef9e3f66222d3f38a7d6,
  0xbe5400fc3f29efd83f3901083f5a233abe221965beff6fd23f68f1d43f3dbbbf,
  0xbe498e973f1c4c8c3f257b743dd66cf43f384b5ebf2faace3f6af70a3f472b99,
  0xbe498e973f1c4c8c3e4fba453c6560423f7ff972800000003f6c94813f7b965b,
  0xbe382ecb3f0d54863e4fba453f7ff972bc42f838800000003f6ff3f13f7b7da6,
  0xbe5400fc3f29efd83f5fcab83f5068dcbc23d70a3f14a8c13f68cb8e3f3177c9,
  0xbe5400fc3f29efd83f40d0cc3f7ff972bc6075f73a51b7173f69ff713f3ab4c8,
  0xbe498e973f1c4c8c3f3901083f7ff972bc5b8bac000000003f6bf0453f3e3db4,
  0xbe382ecb3f0d54863f257b743f800000bbdb8bac38d1b7173f6ea4a93f473b10,
  0xbdcfe1da3ef8d6b23e4fba453c8240b83f7ff972800000003f75f6ba3f7b5382,
  0xbe498e973f1c4c8c3f411a433f7ff972bc5b8bacbba71de73f6c64aa3f3af1bb,
  0xbe382ecb3f0d54863f3901083f800000bba0902e399d49523f6f34e73f3e7d03,
  0xbdcfe1da3ef8d6b23f257b743c95e9e23f7ff2e5800000003f74a9ce3f474539,
  0x3bd1e1093eeb4d053e4fba453c6560423f7ff972800000003f7c79813f7b26af,
  0x3bd1e1093eeb4d053f257b743c6560423f7ff972800000003f7b190d3f4729b3,
  0xbdcfe1da3ef8d6b23f3901083c9446743f7ff2e5000000003f74c1763f3e9079,
  0x3bd1e1093eeb4d053f3901083c6560423f7ff972800000003f7ae0093f3e64d4,
  0xbe382ecb3f0d54863f411a433f800000bbf9096c38d1b7173f6f61aa3f3b1a5d,
  0xbdcfe1da3ef8d6b23f411a433c95182b3f7ff2e5000000003f74b5ee3f3b2010,
  0x3bd1e1093eeb4d053f411a433c6560423f7ff972800000003f7aaf473f3ae361,
  0xbe498e973f1c4c8c3f5fcab83f50d1b7bc271de73f1418933f6af2633f307bbb,
  0xbe382ecb3f0d54863f5fcab83f5013a9bb9d49523f151eb83f6dd4523f2f6fc1,
  0xbdcfe1da3ef8d6b23f5fcab83c872b023f50346e3f14e3bd3f736e613f2e52f0,
  0x3bd1e1093eeb4d053f5fcab83c3ac7113f50ff973f13c9ef3f79af6c3f2e22c4,
  0x3bae5bc83ec391713f5fcab8bc6075f7bf50d8453f1404ea3f7aa2903f2a1d00,
  0xbe87f7163f13392a3f5fcab8bf50902e3c0b43963f146dc63f6a1b6d3f2d083e,
  0xbe12d44e3ed991ff3f5fcab8bc3ac711bf50ff973f13d07d3f72a7163f2aa2f5,
  0xbe81df983f06f48c3f5fcab8bf50ebee3c22339c3f13f1413f6bf39d3f2c114d,
  0xbe12d44e3ed991ff3f3087cabc04b5ddbf800000800000003f6e6d8b3f168e0d,
  0x3bae5bc83ec391713f3087cabc656042bf7ff972800000003f7791c53f158bd6,
  0xbe81df983f06f48c3f3087cabdf2e48fbf3dbf483f2923a33f64bfe43f17ef9e,
  0xbe81df983f06f48c3e68476fbc3ac711bf50ff973f13c9ef3f6248b63ebc48cf,
  0xbe12d44e3ed991ff3e68476fbbded289bf505bc03f14bc6a3f6b74de3ebb6fa0,
  0x3bae5bc83ec391713e68476fbc3ac711bf50ff973f13d07d3f74deb13eba886a,
  0xbbb55ef2beca7d243e68476f3c3ac7113f50ff973f13d07d3f61ce3a3e4acf31,
  0x3e129c34bee07db33e68476f3c3ac7113f50ff973f13d07d3f6116763e3303c0,
  0xb8e06530bbdd7a9a3e68476f00000000000000003f8000003f6f44e53e4a8c58,
  0xbe1f1dc5bede5b643e68476f3c3ac7113f50ff973f13d07d3f61477c3e628523,
  0x3e81c38bbf0a6a663e68476f3c3ac7113f50ff973f13d07d3f5f2dc33e2551d7,
  0xbe8974e6bf088cd63e68476f3c3ac7113f50ff973f13d07d3f5f68f13e703644,
  0x3e94894cbf069a1c3e68476f3c3ac7113f50ff973f13d07d3f5fd5453e208249,
  0xbe9c0208bf0479d53e68476f3c3ac7113f50ff973f13d07d3f600faa3e74f93c,
  0x3ed449dcbeddb6e53e68476fbed6a1623f12e48f3f341f213f62a5a43e12b628,
  0xbeda68f5bed7b3533e68476f3edeb8523f0fd8ae3f341f213f62da663e814bbe,
  0x3f02c97ebe9f589f3e68476fbf50ff973c3ac7113f13d07d3f664a063e07d567,
  0xbf04f798be97fb483e68476f3f50ff97bc3ac7113f13d07d3f6679bc3e86af47,
  0x3f12831bbe2cb4293e68476fbf50ff973c3ac7113f13d07d3f6a8dca3e00afa3,
  0xbf13aacebe1c46523e68476f3f50ff97bc3ac7113f13d07d3f6abaae3e8a3b36,
  0x3f184018bc76cacd3e68476fbf50ff973c3ac7113f13d07d3f6f30403dfbafd9,
  0xbf184e1e3acaa3273e68476f3f50ff97bc3ac7113f13d07d3f6f5ce23e8ba259,
  0x3f139cc73e0e6eeb3e68476fbf50ff973c3ac7113f13d07d3f73d1893e00aaeb,
  0xbf1291213e1edc7f3e68476f3f50ff97bc3ac7113f13d07d3f73ff9b3e8a3337,
  0x3f04e9923e910f953e68476fbf50ff973c3ac7113f13d07d3f78110a3e07c526,
  0xbf02d7843e986cec3e68476f3f50ff97bc3ac7113f13d07d3f7842b73e869d30,
  0x3eda4ce83ed0c79f3e68476fbedeb852bf0fd8ae3f341f213f7baede3e128bb1,
  0xbed465e93ed6cb323e68476f3ed6a162bf12e48f3f341f213f7be5da3e812ab7,
  0x3e9be5fb3f0103ea3e68476fbc3ac711bf50ff973f13d07d3f7e785b3e202603,
  0xbe94a5373f0324313e68476fbc3ac711bf50ff973f13d07d3f7eb4963e748840,
  0x3e8958da3f0516ec3e68476fbc3ac711bf50ff973f13d07d3f7f1ee23e24e8fb,
  0xbe81df983f06f48c3e68476fbc3ac711bf50ff973f13d07d3f7f5b923e6fb7e9,
  0x3e1ee5ac3ed76fb13e68476fbc3ac711bf50ff973f13d07d3f7d409a3e3297c0,
  0xbe12d44e3ed991ff3e68476fbc3ac711bf50ff973f13d07d3f7d728a3e620968,
  0x3bae5bc83ec391713e68476fbc3ac711bf50ff973f13d07d3f7cba0f3e4a45d4,
  0x3ed1e94b3ec8a223bb8259e23f1ca57a3f4a7efa000000003f2f0a2d3ea92d99,
  0x3ed1e94b3ec89f1f3e4fba453f1ca57a3f4a786c38d1b7173f2f09b73e57d7c3,
  0x3edf5d793eb3e48a3e4fba453f7f559bbc7aacdabd9096bc3f3488a43e57d780,
  0x3ebd90e23ed6a61abb8259e23c5013a93f7ff97238d1b7173f298ba43ea92dba,
  0x3edf5a963eb3e76dbb8259e23f7f559bbc79096cbd90ff973f3488b53ea92d77,
  0x3ebd90c13ed6a3163e4fba453c5013a93f7ff97238d1b7173f298b1e3e57d849,
  0x3ee3de403e9b953e3e4fba453f7f559bbc656042bd90ff973f3a08183e57d73d,
  0x3ea566f13edbce42bb8259e23c6560423f7ff972800000003f240d1b3ea92ddc,
  0x3ee3d85a3e9b9820bb8259e23f7f559bbc63bcd3bd9134053f3a07813ea92d56,
  0x3ea566f13edbce423e4fba453c68a71e3f7ff972800000003f240c843e57d88c,
  0x3edebbba3e8365673e4fba453f7d70a4bc4e703bbe0ff9723f3f88013e57d780,
  0x3e8d1aa83ed7533fbb8259e23c79096c3f7ff972800000003f1e8e933ea92dfd,
  0x3edeb2f23e836b4cbb8259e23f7d70a4bc4ccccdbe0fc5053f3f87053ea92d56,
  0x3e8d1aa83ed7533f3e4fba453c79096c3f7ff972b951b7173f1e8dfc3e57d8cf,
  0x3ed0ba413e5e0e303e4fba453f7089a0bea92a30bdb7b4a23f4507643e57d806,
  0x3e70baa63ec9e237bb8259e2bf327bb33f3786c2800000003f19101b3ea92e1f,
  0x3ed0b19a3e5e0e73bb8259e23f708312bea9374cbdb780343f4506ee3ea92d99,
  0x3e70ba623ec9e4d63e4fba45bf3275253f3786c2800000003f190f843e57d912,
  0x3ebbf9e83e432bdc3e4fba45bc79096cbf7ff972800000003f4a86723e57d8cf,
  0x3e54b8393eb589adbb8259e2bf7ff9723c5013a9800000003f1391b43ea92e41,
  0x3ebbf4453e43265bbb8259e2bc7aacdabf7ff97238d1b7173f4a86833ea92dfd,
  0x3e54b8393eb589ad3e4fba45bf7ff9723c5013a9800000003f13912e3e57d955,
  0x3ea3aabd3e3a3b9b3e4fba45bc63bcd3bf7f559b3d90ff973f5006183e57d999,
  0x3e4a67a53e9d5fbbbb8259e2bf7ff9723c656042000000003f0e133c3ea92e84,
  0x3ea3a4d73e3a3055bb8259e2bc63bcd3bf7f559b3d9134053f5005a33ea92e62,
  0x3e4a67a53e9d62bf3e4fba45bf7ff9723c656042000000003f0e12d73e57d999,
  0x3e8b7b4a3e449dbf3e4fba45bc4ccccdbf7d70a43e0ff9723f5586233e57da1f,
  0x3e535d683e851373bb8259e2bf7f559b3c79096c3d90ff973f0894703ea92ea5,
  0x3e8b78253e4486adbb8259e2bc4ccccdbf7d70a43e0ff9723f5585383ea92ea5,
  0x3e535dab3e8516763e4fba45bf7f559b3c7aacda3d90ff973f0894603e57d9dc,
  0x3e6e3fff3e60b1bc3e4fba45bf7c0ebfbe1e69ad3da6e9793f5b05c93e57da1f,
  0x3e6e39f73e60a06fbb8259e2bf7c0ebfbe1e83e43da6e9793f5b05423ea92ec7,
  0x3e6e39f73e60a06fbb8259e2bf7c0ebfbe1e9e1b3da6b50b3f0314db3ea92ec7,
  0x3e6e3fff3e60b1bc3e4fba45bf7c0ebfbe1e83e43da6b50b3f0315723e57da1f,
  0xbea1fe003e192791bb8259e2bc621965bf7d6a163e102de03d9874863e3e731d,
  0xbea1f81a3e1938de3e4fba45bc621965bf7d70a43e1013a93d986c223d87df5d,
  0xbec276753e27279a3e4fba45bc47e282bf7d70a43e102de03dd38d613d87df5d,
  0xbe8154433e25332bbb8259e2bc809d49bf7ff972000000003d3abb883e3e7297,
  0xbec279573e27110ebb8259e2bc463f14bf7d70a43e1013a93dd390003e3e72da,
  0xbe8148993e2538ef3e4fba45bc7f9724bf7ff972b951b7173d3aa1513d87de51,
  0xbeddd28d3e4ce3153e4fba45bf79a6b5be1a511a3e25e3543e0754b03d87dd44,
  0xbe4ae85c3e495dd5bb8259e23f6d9168bea7fcb9be34d6a13c890b413e3e7211,
  0xbe4ad6cb3e4957cd3e4fba453f6d9168bea7ef9ebe34d6a13c88e9b43d87ddca,
  0xbeddd56f3e4cd1c8bb8259e2bf79a6b5be1a511a3e25aee63e0758193e3e7211,
  0xbeefded73e8251a03e4fba45bf7f559b3c7f97243d9134053e24dec23d87daa5,
  0xbeefe1fc3e824bbabb8259e2bf7f559b3c7f97243d9134053e24e5d63e3e70c1,
  0xbef5e5083ea2f5993e4fba45bf7ff9723c62196538d1b7173e4266ba3d87d780,
  0xbef5e5083ea2f599bb8259e2bf7ff9723c656042000000003e426f613e3e6f2f,
  0xbeeef8f03ec36e2f3e4fba45bf7ff9723c4985f0000000003e5feda63d87d45a,
  0xbeeef8f03ec36e2fbb8259e2bf7ff9723c4985f0000000003e5ff7593e3e6d59,
  0xbedc27203edec4a43e4fba45bf327bb33f3786c2800000003e7d74d63d87d135,
  0xbedc241c3edec4a4bb8259e2bf3275253f3786c2b8d1b7173e7d7ecc3e3e6c09,
  0xbec049ed3ef0d4353e4fba453c7f97243f7ff9723951b7173e8d7e463d87ce10,
  0xbec049ed3ef0d413bb8259e23c7f97243f7ff972000000003e8d83413e3e6a77,
  0xbe9fa3553ef6d71f3e4fba453c6075f73f7ff972000000003e9c42633d87cb71,
  0xbe9fa3333ef6da01bb8259e23c6075f73f7ff97238d1b7173e9c473d3e3e6927,
  0xbe7e557e3eefe8473e4fba453c4985f03f7ff972000000003eab06813d87c84b,
  0xbe7e557e3eefe847bb8259e23c4985f03f7ff972399d49523eab0b5b3e3e6794,
  0xbe47a2cf3edd13733e4fba453f1c9eed3f4a7efa800000003eb9cae23d87c526,
  0xbe47a8503edd13b6bb8259e23f1c9eed3f4a7efa38d1b7173eb9cf573e3e6602,
  0xbe237e2c3ec136613e4fba453f7f559bbc7f9724bd9134053ec88feb3d87c17b,
  0xbe2389b53ec13943bb8259e23f7f559bbc7f9724bd9134053ec893753e3e642c,
  0xbe17607c3ea08c823e4fba453f7d6a16bc621965be1013a93ed756863d87bedb,
  0xbe1771c93ea09268bb8259e23f7d6a16bc621965be102de03ed7583a3e3e62dc,
  0xbe252d233e800b033e4fba453f7d70a4bc47e282be102de03ee61e2e3d87bd49,
  0xbe2544353e8013cbbb8259e23f7d70a4bc47e282be1048173ee61ed63e3e6213,
  0xbe4ad6cb3e4957cd3e4fba453f6d9168bea7e282be34f0d83ef4e4a83d87bd49,
  0xbe4ae85c3e495dd5bb8259e23f6d9168bea7ef9ebe34d6a13ef4e6c13e3e61d0]

set_option maxRecDepth 100000 in
/-- the triangles of `BUMPER_BASE_INDICES`, /repo/src/vpx/mesh/bumpers/bumper_base_mesh.rs:541-738 -/
def bumperBaseTris : List Nat := [
  0x000000010002, 0x000000020003, 0x000300020004, 0x000300040005, 0x000500040006, 0x000500060007, 0x000700060008,
  0x000700080009, 0x00090008000a, 0x0009000a000b, 0x000b000a000c, 0x000b000c000d, 0x000d000c000e, 0x000d000e000f,
  0x000f000e0010, 0x000f00100011, 0x001100100012, 0x001100120013, 0x001300120014, 0x001300140015, 0x001500140016,
  0x001500160017, 0x001700160018, 0x001700180019, 0x00190018001a, 0x0019001a001b, 0x001b001a001c, 0x001b001c001d,
  0x001d001c001e, 0x001d001e001f, 0x001f001e0020, 0x001f00200021, 0x002200230024, 0x002200240025, 0x002200260023,
  0x002200270026, 0x002500240028, 0x002500280029, 0x0027002a0026, 0x0027002b002a, 0x00290028002c, 0x0029002c002d,
  0x002b002e002a, 0x002b002f002e, 0x002d002c0030, 0x002d00300031, 0x002f0032002e, 0x002f00330032, 0x003400310030,
  0x003400350031, 0x003600350034, 0x002c00370030, 0x003700340030, 0x00280038002c, 0x002c00380037, 0x003600340039,
  0x003a00360039, 0x0028003b0038, 0x0024003b0028, 0x003a0039003c, 0x003d003a003c, 0x0024003e003b, 0x0023003e0024,
  0x003b003f0038, 0x003e0040003b, 0x003b0040003f, 0x003800410037, 0x0038003f0041, 0x003700420034, 0x003700410043,
  0x003700430042, 0x003400420044, 0x004400420043, 0x004100450043, 0x004400430045, 0x003f00460041, 0x004100460045,
  0x003400440047, 0x003900340047, 0x004400450048, 0x003900470049, 0x003c00390049, 0x00470044004a, 0x00440048004a,
  0x00490047004b, 0x0047004a004b, 0x0045004c0048, 0x004c00450046, 0x004d004a0048, 0x0048004c004e, 0x0048004e004d,
  0x004d004f004a, 0x004b004a004f, 0x004d004e0050, 0x0050004f004d, 0x0051004e004c, 0x004b004f0052, 0x0051004c0053,
  0x004c00460053, 0x0049004b0054, 0x00520054004b, 0x005500530046, 0x0052004f0056, 0x00500056004f, 0x005500460057,
  0x003f00570046, 0x005800530055, 0x005800510053, 0x003f00590057, 0x003f00400059, 0x005a00550057, 0x005a00570059,
  0x005b00580055, 0x005b0055005a, 0x005c00590040, 0x003e005c0040, 0x005d005a0059, 0x005c005e0059, 0x005d0059005e,
  0x005f005b005a, 0x005f005a005d, 0x0060005e005c, 0x005d005e0061, 0x00600061005e, 0x00620060005c, 0x0062005c003e,
  0x006300610060, 0x006300600062, 0x0064005d0061, 0x006400610063, 0x003e00650062, 0x006300620065, 0x0066005f005d,
  0x0066005d0064, 0x006300650067, 0x006400630067, 0x003e00680065, 0x00230068003e, 0x006900670065, 0x006400670069,
  0x00650068006a, 0x0023006a0068, 0x00690065006b, 0x0065006a006b, 0x0023006c006a, 0x006b006a006c, 0x006d0069006b,
  0x0069006d0064, 0x006b006c006e, 0x006d006b006e, 0x0023006f006c, 0x00230026006f, 0x0070006e006c, 0x006d006e0070,
  0x0070006c006f, 0x006d00710064, 0x006d00700071, 0x007100720064, 0x007200710070, 0x007200730064, 0x006600640073,
  0x007200700074, 0x00740070006f, 0x007200750073, 0x007500720074, 0x006600730076, 0x007500740077, 0x0074006f0077,
  0x007500780073, 0x007600730078, 0x007700790075, 0x007500790078, 0x006f007a0077, 0x0077007a0079, 0x0026007b006f,
  0x006f007b007a, 0x0026002a007b, 0x007a007c0079, 0x002a007d007b, 0x002a002e007d, 0x007b007e007a, 0x007b007d007e,
  0x007a007e007c, 0x002e007f007d, 0x002e0032007f, 0x007d0080007e, 0x007d007f0080, 0x007e0081007c, 0x007e00800081,
  0x0079007c0082, 0x007900820078, 0x007c00810083, 0x007c00830082, 0x008400780082, 0x007600780084, 0x008500820083,
  0x008400820085, 0x008100860083, 0x008700760084, 0x008000880081, 0x008100880086, 0x008900660076, 0x008900760087,
  0x0089005f0066, 0x0080008a0088, 0x007f008a0080, 0x0089008b005f, 0x008b005b005f, 0x007f008c008a, 0x008b008d005b,
  0x008d0058005b, 0x008e008b0089, 0x008e00890087, 0x008f008d008b, 0x008e008f008b, 0x008d00900058, 0x009000510058,
  0x008f0091008d, 0x00910090008d, 0x0092008f008e, 0x00930091008f, 0x00920093008f, 0x009300940091, 0x0092008e0095,
  0x008e00870095, 0x009200950096, 0x009400970091, 0x009100970090, 0x009400980097, 0x009000990051, 0x009700990090,
  0x0099004e0051, 0x00990050004e, 0x0098009a0097, 0x0097009a0099, 0x0098009b009a, 0x009c00500099, 0x009c0099009a,
  0x009c009a009b, 0x009c009b009d, 0x009c00560050, 0x009c009d009e, 0x009f0056009c, 0x009c009e009f, 0x009f00a00056,
  0x0052005600a0, 0x009e00a1009f, 0x009e00a200a1, 0x009f00a300a0, 0x009f00a100a3, 0x00a000a40052, 0x00a000a300a4,
  0x005200a40054, 0x00a200a500a1, 0x00a200a600a5, 0x00a100a700a3, 0x00a100a500a7, 0x00a300a800a4, 0x00a300a700a8,
  0x00a400a90054, 0x00a400a800a9, 0x00a600aa00a5, 0x00a600ab00aa, 0x00a500ac00a7, 0x00a500aa00ac, 0x00a700ad00a8,
  0x00a700ac00ad, 0x00a800ae00a9, 0x00a800ad00ae, 0x00af005400a9, 0x00af00a900ae, 0x00af00490054, 0x003c004900af,
  0x00ad00b000ae, 0x00b1003c00af, 0x003d003c00b1, 0x00af00ae00b2, 0x00b100af00b2, 0x00b200ae00b0, 0x00b3003d00b1,
  0x00b300b4003d, 0x00b100b200b5, 0x00b200b000b5, 0x00b100b500b3, 0x00b300b600b4, 0x00ad00b700b0, 0x00ac00b700ad,
  0x00b300b800b6, 0x00b900b600b8, 0x00ac00ba00b7, 0x00aa00ba00ac, 0x00b900b800bb, 0x00bc00b900bb, 0x00bd00b800b3,
  0x00bb00b800bd, 0x00bc00bb00be, 0x00bf00bc00be, 0x00bd00b300c0, 0x00c000b300b5, 0x00bb00bd00c1, 0x00be00bb00c1,
  0x00bd00c000c2, 0x00bf00be00c3, 0x00c400bf00c3, 0x00c000b500c5, 0x00c500c200c0, 0x00b500b000c6, 0x00b500c600c5,
  0x00c600b000b7, 0x00c500c700c2, 0x00c700c500c6, 0x00bd00c200c8, 0x00c800c200c7, 0x00c100bd00c8, 0x00c600b700c9,
  0x00c900b700ba, 0x00c700c600ca, 0x00c900ca00c6, 0x00c800c700cb, 0x00c900ba00cc, 0x00c100c800cd, 0x00cd00c800cb,
  0x00be00c100ce, 0x00ce00c100cd, 0x00c300be00ce, 0x00c900cf00ca, 0x00cc00cf00c9, 0x00ca00d000c7, 0x00d000cb00c7,
  0x00ca00cf00d1, 0x00ca00d100d0, 0x00cc00d200cf, 0x00d200d100cf, 0x00cc00ba00d3, 0x00aa00d300ba, 0x00ab00d300aa,
  0x00ab00d400d3, 0x00d500d300d4, 0x00cc00d300d6, 0x00d500d600d3, 0x00d600d200cc, 0x00d600d500d7, 0x00d600d700d8,
  0x00d800d200d6, 0x00d900d800d7, 0x00da00d100d2, 0x00d800da00d2, 0x00d900db00d8, 0x00db00da00d8, 0x00dc00db00d9,
  0x00da00dd00d1, 0x00dd00d000d1, 0x00db00de00da, 0x00de00dd00da, 0x00dc00df00db, 0x00df00de00db, 0x00e000df00dc,
  0x00dd00e100d0, 0x00d000e100cb, 0x00e000e200df, 0x00e300e200e0, 0x00df00e400de, 0x00e200e400df, 0x00de00e500dd,
  0x00e400e500de, 0x00e500e100dd, 0x00e200e600e4, 0x00e100e700cb, 0x00cd00cb00e7, 0x00e500e800e1, 0x00e100e800e7,
  0x00e400e900e5, 0x00e900e800e5, 0x00e600e900e4, 0x00ea00cd00e7, 0x00ce00cd00ea, 0x00e800eb00e7, 0x00ea00e700eb,
  0x00e900ec00e8, 0x00e800ec00eb, 0x00ed00ce00ea, 0x00c300ce00ed, 0x00ee00ea00eb, 0x00ed00ea00ee, 0x00ee00eb00ef,
  0x00ec00ef00eb, 0x00f000ed00ee, 0x00ef00f000ee, 0x00f100ec00e9, 0x00e600f100e9, 0x00ec00f200ef, 0x00f100f200ec,
  0x00ef00f300f0, 0x00f300ef00f2, 0x00f400f100e6, 0x00f300f500f0, 0x00f000f500ed, 0x00f600f200f1, 0x00f400f600f1,
  0x00f300f200f7, 0x00f600f700f2, 0x00f300f800f5, 0x00f800f300f7, 0x00f900f400e6, 0x00f900e600e2, 0x00e300f900e2,
  0x00f500f800fa, 0x00fa00f800f7, 0x00e300fb00f9, 0x00e300fc00fb, 0x00f900fd00f4, 0x00f900fb00fd, 0x00f400fe00f6,
  0x00f400fd00fe, 0x00fc00ff00fb, 0x00fc010000ff, 0x00fb010100fd, 0x00fb00ff0101, 0x00fd010200fe, 0x00fd01010102,
  0x00f600fe0103, 0x00f6010300f7, 0x00fe01020104, 0x00fe01040103, 0x0100010500ff, 0x010001060105, 0x00ff01070101,
  0x00ff01050107, 0x010101080102, 0x010101070108, 0x010601090105, 0x0106010a0109, 0x0105010b0107, 0x01050109010b,
  0x010c0109010a, 0x010c010b0109, 0x010c010a010d, 0x010e010c010d, 0x0107010b010f, 0x0107010f0108, 0x010201080110,
  0x010201100104, 0x0108010f0111, 0x010801110110, 0x010b0112010f, 0x011301100111, 0x010b01140112, 0x010c0114010b,
  0x010f01150111, 0x010f01120115, 0x011301110116, 0x011601110115, 0x011701100113, 0x011701040110, 0x011801130116,
  0x011801170113, 0x011601150119, 0x011a01040117, 0x011a01030104, 0x011b01150112, 0x01190115011b, 0x0103011a011c,
  0x00f70103011c, 0x011b0112011d, 0x011d01120114, 0x011e011c011a, 0x0114011f011d, 0x0120011c011e, 0x00f7011c0120,
  0x011e011a0121, 0x0121011a0117, 0x0120011e0122, 0x0122011e0121, 0x00f701200123, 0x012101170124, 0x011801240117,
  0x00f701230125, 0x012500fa00f7, 0x012001260123, 0x012501230126, 0x012001220126, 0x00fa01250127, 0x012501260127,
  0x012201280126, 0x012701260128, 0x012201210129, 0x012201290128, 0x012901210124, 0x00fa0127012a, 0x00f500fa012a,
  0x01270128012b, 0x012b012a0127, 0x012c00f5012a, 0x012b012c012a, 0x012c00ed00f5, 0x012d012b0128, 0x012d012c012b,
  0x012d00ed012c, 0x012d01280129, 0x012d00c300ed, 0x00c400c3012d, 0x00c4012d012e, 0x012d0129012e, 0x00c4012e012f,
  0x012901240130, 0x012e01290130, 0x013001240118, 0x012f012e0131, 0x012e01300131, 0x012f01310132, 0x013001180133,
  0x013101300133, 0x013201310134, 0x013101330134, 0x013201340135, 0x013301180136, 0x011801160136, 0x013601160119,
  0x013501340137, 0x013501370138, 0x013401330139, 0x013401390137, 0x013301360139, 0x013a01380137, 0x0139013a0137,
  0x013a013b0138, 0x013c013b013a, 0x01390136013d, 0x01360119013d, 0x0139013d013e, 0x0139013e013a, 0x013f013d0119,
  0x013f013e013d, 0x013a013e013f, 0x011b013f0119, 0x013c013a0140, 0x0141013c0140, 0x014101400142, 0x013a013f0143,
  0x0140013a0143, 0x011b0144013f, 0x01440143013f, 0x011d0144011b, 0x011d011f0144, 0x014201400145, 0x014001430145,
  0x014201450146, 0x014401470143, 0x014701450143, 0x01470144011f, 0x014801460145, 0x014701480145, 0x014801490146,
  0x0147011f014a, 0x014a01480147, 0x014b01490148, 0x014a014b0148, 0x014b014c0149, 0x014a011f014d, 0x0114014d011f,
  0x010c014d0114, 0x014a014d014e, 0x014e014d010c, 0x014e014b014a, 0x014f014c014b, 0x014e014f014b, 0x014f0150014c,
  0x014e010c0151, 0x0151014f014e, 0x010e0151010c, 0x01520150014f, 0x01510152014f, 0x010e01520151, 0x015201530150,
  0x010e01540152, 0x015401530152, 0x015401550153, 0x015601570158, 0x01560158015a, 0x015901570156, 0x015a0158015c,
  0x0159015b0157, 0x015a015c015e, 0x015d015b0159, 0x015e015c0160, 0x015d015f015b, 0x015e01600162, 0x0161015f015d,
  0x016201600164, 0x016201640165, 0x01610163015f, 0x016601630161, 0x016601670163, 0x016801670166, 0x016801690167,
  0x016a01690168, 0x016a016b0169, 0x016c016b016a, 0x016c016d016b, 0x016e016d016c, 0x016e016f016d, 0x0170016f016e,
  0x01700171016f, 0x017201710170, 0x017201730171, 0x017401730172, 0x017401750173, 0x017601750174, 0x017601770175,
  0x01780179017a, 0x017f01790178, 0x017d017f0178, 0x0096017f017d, 0x017d0178017c, 0x00960095017f, 0x017c0178017b,
  0x0178017a017b, 0x017c017b017e, 0x00950180017f, 0x017f01800179, 0x009500870180, 0x008700840180, 0x018000840085,
  0x018000850179, 0x017900850181, 0x01790181017a, 0x008500830181, 0x018100830086, 0x017a01810182, 0x018100860182,
  0x017b017a0183, 0x017a01820183, 0x0184017e017b, 0x017b01830184, 0x01840185017e, 0x018601850184, 0x018701820086,
  0x018700860088, 0x018301820188, 0x018701880182, 0x018401830189, 0x018901830188, 0x01860184018a, 0x0189018a0184,
  0x018b0186018a, 0x01890188018c, 0x018c01880187, 0x0189018d018a, 0x018c018d0189, 0x018b018a018e, 0x018e018a018d,
  0x018f018b018e, 0x018f018e0190, 0x0190018e0191, 0x018e018d0191, 0x019001910192, 0x018c0193018d, 0x0191018d0193,
  0x019201910194, 0x019101930194, 0x019201940195, 0x01960193018c, 0x018c01870196, 0x019401930197, 0x019601970193,
  0x019501940198, 0x019401970198, 0x019501980199, 0x0198019a0199, 0x0187019b0196, 0x01870088019b, 0x019b0088008a,
  0x019b008a008c, 0x0198019c019a, 0x0197019c0198, 0x0196019b019d, 0x0196019d0197, 0x008c019d019b, 0x0197019d019c,
  0x019e019a019c, 0x019e019c019d, 0x019e019f019a, 0x008c01a0019d, 0x019e019d01a0, 0x007f01a0008c, 0x007f003201a0,
  0x01a000320033, 0x01a0003301a1, 0x01a001a101a2, 0x01a001a2019e, 0x01a2019f019e, 0x01a201a3019f, 0x01a401a501a6,
  0x01a601a701a4, 0x01a501a801a6, 0x01a601a901a7, 0x01a801aa01a6, 0x01a601ab01a9, 0x01aa01ac01a6, 0x01a601ad01ab,
  0x01ac01ae01a6, 0x01a601af01ad, 0x01ae01b001a6, 0x01a601b101af, 0x01b001b201a6, 0x01a601b301b1, 0x01a601b201b4,
  0x01b501b301a6, 0x01a601b401b6, 0x01b701b501a6, 0x01a601b601b8, 0x01b901b701a6, 0x01a601b801ba, 0x01bb01b901a6,
  0x01a601ba01bc, 0x01bd01bb01a6, 0x01a601bc01be, 0x01bf01bd01a6, 0x01a601be01c0, 0x01c001bf01a6, 0x01c101c201c3,
  0x01c101c301c5, 0x01c401c201c1, 0x01c501c301c7, 0x01c401c601c2, 0x01c501c701c9, 0x01c801c601c4, 0x01c901c701cb,
  0x01c801ca01c6, 0x01c901cb01cd, 0x01cc01ca01c8, 0x01cd01cb01cf, 0x01cc01ce01ca, 0x01cd01cf01d1, 0x01d001ce01cc,
  0x01d101cf01d3, 0x01d001d201ce, 0x01d101d301d5, 0x01d401d201d0, 0x01d501d301d7, 0x01d401d601d2, 0x01d501d701d9,
  0x01d801d601d4, 0x01d901d701db, 0x01d801da01d6, 0x01d901db01dd, 0x01dc01da01d8, 0x01dd01db01df, 0x01dd01df01e0,
  0x01dc01de01da, 0x01e101de01dc, 0x01e101e201de, 0x01e301e401e5, 0x01e301e501e7, 0x01e601e401e3, 0x01e701e501e9,
  0x01e601e801e4, 0x01e701e901ec, 0x01ea01e801e6, 0x01ea01eb01e8, 0x01ec01e901ed, 0x01ec01ed01ee, 0x01ee01ed01ef,
  0x01ee01ef01f0, 0x01f001ef01f1, 0x01f001f101f2, 0x01f201f101f3, 0x01f201f301f4, 0x01f401f301f5, 0x01f401f501f6,
  0x01f601f501f7, 0x01f601f701f8, 0x01f801f701f9, 0x01f801f901fa, 0x01fa01f901fb, 0x01fa01fb01fc, 0x01fc01fb01fd,
  0x01fc01fd01fe, 0x01fe01fd01ff, 0x01fe01ff0200, 0x020001ff0201, 0x020002010202, 0x020202010203, 0x020202030204]

/-- the table of /repo/src/vpx/mesh/bumpers/bumper_base_mesh.rs -/
def bumperBaseTable : MeshTable := unpackTable bumperBaseVertices bumperBaseTris

set_option maxRecDepth 100000 in
/-- the vertices of `BUMPER_CAP_MESH`, /repo/src/vpx/mesh/bumpers/bumper_cap_mesh.rs:18-858 -/
def bumperCapVertices : List Nat := [
  0x3e6b7b29bf0dca8ebdad759f3e99e83ebf39c0ec3f1e76c93f2560313dfe3a7e,
  0x38a9de8bbf4c83fdbe85464e3e99e83ebf39c0ec3f1e76c93efc8beb3cb606b8,
  0x3f10d60abf1087fdbe85464e3e99e83ebf39c0ec3f1e76c93f52d5f13e2762d8,
  0xbe6b50f4bf0dca8ebdad759fbe99e83ebf39c0ec3f1e76c93eb32d2c3dfef8cf,
  0xbf10cb7dbf1087ecbe85464ebe99e83ebf39c0ec3f1e76c93e22e2333e27f5a5,
  0x38a9de8bbf4c83fdbe85464ebe99e83ebf39c0ec3f1e76c93efc8beb3cb606b8,
  0x3ecc0831becb6bf4bdd6dca03ed9c0ecbeb3404f3f55a8583f4293293e6cfb76,
  0x3e6b7b29bf0dca8ebdad759f3ed9c0ecbeb3404f3f55a8583f2560313dfe3a7e,
  0x3f10d60abf1087fdbe85464e3ed9c0ecbeb3404f3f55a8583f52d5f13e2762d8,
  0x3e6b7b29bf0dca8ebdad759fbd59e83ebf0c5d643f55a8583f2560313dfe3a7e,
  0x38a9de8bbf0ff573bdd6dca0bd59e83ebf0c5d643f55a8583efcfc403de68901,
  0x38a9de8bbf4c83fdbe85464ebd59e83ebf0c5d643f55a8583efc8beb3cb606b8,
  0x38a9de8bbf0ff573bdd6dca03d59e83ebf0c5d643f55a8583efcfc403de68901,
  0xbe6b50f4bf0dca8ebdad759f3d59e83ebf0c5d643f55a8583eb32d2c3dfef8cf,
  0x38a9de8bbf4c83fdbe85464e3d59e83ebf0c5d643f55a8583efc8beb3cb606b8,
  0xbe6b50f4bf0dca8ebdad759fbed9c0ecbeb3404f3f55a8583eb32d2c3dfef8cf,
  0xbecbf317becb6bf4bdd6dca0bed9c0ecbeb3404f3f55a8583e6d21bc3e7a4f01,
  0xbf10cb7dbf1087ecbe85464ebed9c0ecbeb3404f3f55a8583e22e2333e27f5a5,
  0x3f0e18adbe6a42f2bdad759f3eb3404fbed9c0ec3f55a8583f5fb0f73ea87a8d,
  0x3ecc0831becb6bf4bdd6dca03eb3404fbed9c0ec3f55a8583f4293293e6cfb76,
  0x3f10d60abf1087fdbe85464e3eb3404fbed9c0ec3f55a8583f52d5f13e2762d8,
  0x3e6b7b29bf0dca8ebdad759f3edec56dbeb94af53f53126f3f2560313dfe3a7e,
  0x3ecc0831becb6bf4bdd6dca03edec56dbeb94af53f53126f3f4293293e6cfb76,
  0x3eac68ecbeabccafbd3935763edec56dbeb94af53f53126f3f372f553e933db0,
  0x38a9de8bbef3910cbd3b3b75bd542c3dbf1041893f53126f3efbb83d3e4e5e68,
  0x38a9de8bbf0ff573bdd6dca0bd542c3dbf1041893f53126f3efcfc403de68901,
  0x3e6b7b29bf0dca8ebdad759fbd542c3dbf1041893f53126f3f2560313dfe3a7e,
  0xbe6b50f4bf0dca8ebdad759fbe0c7e28beaa233a3f6edfa43eb32d2c3dfef8cf,
  0xbdd405f7bef22403bd18cd21be0c7e28beaa233a3f6edfa43ed8bfe43e52dc2b,
  0xbe8696c4becdc033bd111e00be0c7e28beaa233a3f6edfa43ea9f59d3e7ea4ec,
  0xbecbf317becb6bf4bdd6dca0beb3404fbed9c0ec3f55a8583e6d21bc3e7a4f01,
  0xbf0e0e1fbe6a42f2bdad759fbeb3404fbed9c0ec3f55a8583dfddc1e3ea3fb16,
  0xbf10cb7dbf1087ecbe85464ebeb3404fbed9c0ec3f55a8583e22e2333e27f5a5,
  0x3f0e18adbe6a42f2bdad759f3f39c0ecbe99e83e3f1e76c93f5fb0f73ea87a8d,
  0x3f10d60abf1087fdbe85464e3f39c0ecbe99e83e3f1e76c93f52d5f13e2762d8,
  0x3f4cd20b3a919ef9be85464e3f39c0ecbe99e83e3f1e76c93f7c23423f00c650,
  0x3eac68ecbeabccafbd3935763eb94af5bedec56d3f53126f3f372f553e933db0,
  0x3ecc0831becb6bf4bdd6dca03eb94af5bedec56d3f53126f3f4293293e6cfb76,
  0x3f0e18adbe6a42f2bdad759f3eb94af5bedec56d3f53126f3f5fb0f73ea87a8d,
  0x3e862cdcbed00885bd1708253e0d013bbeaa30553f6edfa43f2af0d03e795a6c,
  0x3dcec95cbef12381bd1404643e0d013bbeaa30553f6edfa43f108bfc3e508cc5,
  0x3e6b7b29bf0dca8ebdad759f3e0d013bbeaa30553f6edfa43f2560313dfe3a7e,
  0x38a9de8bbef3910cbd3b3b753d542c3dbf1041893f53126f3efbb83d3e4e5e68,
  0xbdd405f7bef22403bd18cd213d542c3dbf1041893f53126f3ed8bfe43e52dc2b,
  0xbe6b50f4bf0dca8ebdad759f3d542c3dbf1041893f53126f3eb32d2c3dfef8cf,
  0xbf0e0e1fbe6a42f2bdad759fbf39c0ecbe99e83e3f1e76c93dfddc1e3ea3fb16,
  0xbf4cc77e3a919ef9be85464ebf39c0ecbe99e83e3f1e76c93c3b16c23f0268d3,
  0xbf10cb7dbf1087ecbe85464ebf39c0ecbe99e83e3f1e76c93e22e2333e27f5a5,
  0xbf0e0e1fbe6a42f2bdad759fbeb94af5bedec56d3f53126f3dfddc1e3ea3fb16,
  0xbecbf317becb6bf4bdd6dca0beb94af5bedec56d3f53126f3e6d21bc3e7a4f01,
  0xbeab1f04beaa97e1bd2fe1dabeb94af5bedec56d3f53126f3e8d29fe3e94bcae,
  0x3f1043913a919ef9bdd6dca03f0c5d643d59e83e3f55a8583f63789a3efd5fdd,
  0x3f0e18adbe6a42f2bdad759f3f0c5d643d59e83e3f55a8583f5fb0f73ea87a8d,
  0x3f4cd20b3a919ef9be85464e3f0c5d643d59e83e3f55a8583f7c23423f00c650,
  0x3eefe5ebbdc0d456bd0b588e3eaa3055be0d013b3f6edfa43f4cd2803ee07dd4,
  0x3ecd887fbe863de6bd0ef88c3eaa3055be0d013b3f6edfa43f41cb793eaaa8ca,
  0x3f0e18adbe6a42f2bdad759f3eaa3055be0d013b3f6edfa43f5fb0f73ea87a8d,
  0xbf0e0e1fbe6a42f2bdad759fbf0c5d643d59e83e3f55a8583dfddc1e3ea3fb16,
  0xbf1039043a919ef9bdd6dca0bf0c5d643d59e83e3f55a8583de7820a3f004e83,
  0xbf4cc77e3a919ef9be85464ebf0c5d643d59e83e3f55a8583c3b16c23f0268d3,
  0xbeef1801bdbc560cbd07f66fbeaa3055be0d013b3f6edfa43e4e7c073ee35bb4,
  0xbf0e0e1fbe6a42f2bdad759fbeaa3055be0d013b3f6edfa43dfddc1e3ea3fb16,
  0xbecd99edbe863583bd0f5c29beaa3055be0d013b3f6edfa43e7930383eac892b,
  0x3f0e18ad3e6c896ebdad759f3f0c5d64bd59e83e3f55a8583f6224033f2b81f9,
  0x3f1043913a919ef9bdd6dca03f0c5d64bd59e83e3f55a8583f63789a3efd5fdd,
  0x3f4cd20b3a919ef9be85464e3f0c5d64bd59e83e3f55a8583f7c23423f00c650,
  0x3f0e18adbe6a42f2bdad759f3f1041893d542c3d3f53126f3f5fb0f73ea87a8d,
  0x3f1043913a919ef9bdd6dca03f1041893d542c3d3f53126f3f63789a3efd5fdd,
  0x3ef135763a919ef9bd2b01003f1041893d542c3d3f53126f3f4e5dd13f0006f2,
  0xbf1039043a919ef9bdd6dca0bf0c5d64bd59e83e3f55a8583de7820a3f004e83,
  0xbf0e0e1f3e6c896ebdad759fbf0c5d64bd59e83e3f55a8583dfdf43c3f2dfefc,
  0xbf4cc77e3a919ef9be85464ebf0c5d64bd59e83e3f55a8583c3b16c23f0268d3,
  0xbf0e0e1fbe6a42f2bdad759fbf1041893d542c3d3f53126f3dfddc1e3ea3fb16,
  0xbeef1801bdbc560cbd07f66fbf1041893d542c3d3f53126f3e4e7c073ee35bb4,
  0xbeeeb6bf3a919ef9bd1dd096bf1041893d542c3d3f53126f3e4ab8a63f00ae00,
  0x3f0e18ad3e6c896ebdad759f3f39c0ec3e99e83e3f1e76c93f6224033f2b81f9,
  0x3f4cd20b3a919ef9be85464e3f39c0ec3e99e83e3f1e76c93f7c23423f00c650,
  0x3f10d60a3f11199cbe85464e3f39c0ec3e99e83e3f1e76c93f54c1fd3f585b9f,
  0x3ef135763a919ef9bd2b01003f104189bd542c3d3f53126f3f4e5dd13f0006f2,
  0x3f1043913a919ef9bdd6dca03f104189bd542c3d3f53126f3f63789a3efd5fdd,
  0x3f0e18ad3e6c896ebdad759f3f104189bd542c3d3f53126f3f6224033f2b81f9,
  0xbf0e0e1f3e6c896ebdad759fbf39c0ec3e99e83e3f1e76c93dfdf43c3f2dfefc,
  0xbf10cb7d3f11199cbe85464ebf39c0ec3e99e83e3f1e76c93e2bf7ad3f57660e,
  0xbf4cc77e3a919ef9be85464ebf39c0ec3e99e83e3f1e76c93c3b16c23f0268d3,
  0xbf0e0e1f3e6c896ebdad759fbf104189bd542c3d3f53126f3dfdf43c3f2dfefc,
  0xbf1039043a919ef9bdd6dca0bf104189bd542c3d3f53126f3de7820a3f004e83,
  0xbeeeb6bf3a919ef9bd1dd096bf104189bd542c3d3f53126f3e4ab8a63f00ae00,
  0x3ecc08313ecc8f32bdd6dca03eb3404f3ed9c0ec3f55a8583f405faf3f42ea74,
  0x3f0e18ad3e6c896ebdad759f3eb3404f3ed9c0ec3f55a8583f6224033f2b81f9,
  0x3f10d60a3f11199cbe85464e3eb3404f3ed9c0ec3f55a8583f54c1fd3f585b9f,
  0x3ec666ed3e88ee28bcf8f4733eaa30553e0d013b3f6edfa43f3fa0a53f2a6d59,
  0x3eee874d3dbcdb38bd04ed703eaa30553e0d013b3f6edfa43f4c6c983f0e3001,
  0x3f0e18ad3e6c896ebdad759f3eaa30553e0d013b3f6edfa43f6224033f2b81f9,
  0xbf0e0e1f3e6c896ebdad759fbeb3404f3ed9c0ec3f55a8583dfdf43c3f2dfefc,
  0xbecbf3173ecc8f32bdd6dca0beb3404f3ed9c0ec3f55a8583e6f073a3f43ca00,
  0xbf10cb7d3f11199cbe85464ebeb3404f3ed9c0ec3f55a8583e2bf7ad3f57660e,
  0xbec6e02a3e88cf3abcfbd6a6beaa30553e0d013b3f6edfa43e7ffe2a3f2ac7a8,
  0xbf0e0e1f3e6c896ebdad759fbeaa30553e0d013b3f6edfa43dfdf43c3f2dfefc,
  0xbeed7ffa3db6f75ebd007dd4beaa30553e0d013b3f6edfa43e50ae103f0eccc4,
  0x3e6b7b293f0e5c2dbdad759f3ed9c0ec3eb3404f3f55a8583f256db13f5dd053,
  0x3ecc08313ecc8f32bdd6dca03ed9c0ec3eb3404f3f55a8583f405faf3f42ea74,
  0x3f10d60a3f11199cbe85464e3ed9c0ec3eb3404f3f55a8583f54c1fd3f585b9f,
  0x3f0e18ad3e6c896ebdad759f3eb94af53edec56d3f53126f3f6224033f2b81f9,
  0x3ecc08313ecc8f32bdd6dca03eb94af53edec56d3f53126f3f405faf3f42ea74,
  0x3ea83c4b3ea8c36ebd18eeaf3eb94af53edec56d3f53126f3f3354d23f35ab4b,
  0xbe6b50f43f0e5c2dbdad759fbed9c0ec3eb3404f3f55a8583eb3b03e3f5dad86,
  0xbf10cb7d3f11199cbe85464ebed9c0ec3eb3404f3f55a8583e2bf7ad3f57660e,
  0xbecbf3173ecc8f32bdd6dca0bed9c0ec3eb3404f3f55a8583e6f073a3f43ca00,
  0xbf0e0e1f3e6c896ebdad759fbeb94af53edeb8523f53126f3dfdf43c3f2dfefc,
  0xbec6e02a3e88cf3abcfbd6a6beb94af53edeb8523f53126f3e7ffe2a3f2ac7a8,
  0xbea6f2633ea78e9fbd0f9b13beb94af53edeb8523f53126f3e938ae33f3680ae,
  0x3e6b7b293f0e5c2dbdad759f3e99e83e3f39c0ec3f1e76c93f256db13f5dd053,
  0x3f10d60a3f11199cbe85464e3e99e83e3f39c0ec3f1e76c93f54c1fd3f585b9f,
  0x38a9de8b3f4d159cbe85464e3e99e83e3f39c0ec3f1e76c93f00b1033f7b38f8,
  0xbe6b50f43f0e5c2dbdad759fbedec56d3eb94af53f53126f3eb3b03e3f5dad86,
  0xbecbf3173ecc8f32bdd6dca0bedec56d3eb94af53f53126f3e6f073a3f43ca00,
  0xbea6f2633ea78e9fbd0f9b13bedec56d3eb94af53f53126f3e938ae33f3680ae,
  0xbe6b50f43f0e5c2dbdad759fbe99e83e3f39c0ec3f1e76c93eb3b03e3f5dad86,
  0x38a9de8b3f4d159cbe85464ebe99e83e3f39c0ec3f1e76c93f00b1033f7b38f8,
  0xbf10cb7d3f11199cbe85464ebe99e83e3f39c0ec3f1e76c93e2bf7ad3f57660e,
  0x38a9de8b3f108712bdd6dca0bd59e83e3f0c5d643f55a8583effe7e23f5bbe66,
  0x3e6b7b293f0e5c2dbdad759fbd59e83e3f0c5d643f55a8583f256db13f5dd053,
  0x38a9de8b3f4d159cbe85464ebd59e83e3f0c5d643f55a8583f00b1033f7b38f8,
  0x3da320103eeb42ccbce6490a3e0d013b3eaa30553f6edfa43f1031f03f494456,
  0x3e88763a3ec6a876bcf78bbd3e0d013b3eaa30553f6edfa43f26fea43f3eb096,
  0x3e6b7b293f0e5c2dbdad759f3e0d013b3eaa30553f6edfa43f256db13f5dd053,
  0xbe6b50f43f0e5c2dbdad759f3d59e83e3f0c5d643f55a8583eb3b03e3f5dad86,
  0x38a9de8b3f108712bdd6dca03d59e83e3f0c5d643f55a8583effe7e23f5bbe66,
  0x38a9de8b3f4d159cbe85464e3d59e83e3f0c5d643f55a8583f00b1033f7b38f8,
  0x3e6b7b293f0e5c2dbdad759fbd542c3d3f1041893f53126f3f256db13f5dd053,
  0x38a9de8b3f108712bdd6dca0bd542c3d3f1041893f53126f3effe7e23f5bbe66,
  0x38a9de8b3eec5b29bd0d9514bd542c3d3f1041893f53126f3efdec813f4db489,
  0x38a9de8b3eec5b29bd0d95143d542c3d3f1041893f53126f3efdec813f4db489,
  0x38a9de8b3f108712bdd6dca03d542c3d3f1041893f53126f3effe7e23f5bbe66,
  0xbe6b50f43f0e5c2dbdad759f3d542c3d3f1041893f53126f3eb3b03e3f5dad86,
  0xbe88f6cf3ec3f855bce99c7cbe0d013b3eaa30553f6edfa43ea9fe003f3f4656,
  0xbdaa67e83eec7beebcf1bcdcbe0d013b3eaa30553f6edfa43ee007143f4c0b35,
  0xbe6b50f43f0e5c2dbdad759fbe0d013b3eaa30553f6edfa43eb3b03e3f5dad86,
  0x3ea83c4b3ea8c36ebd18eeaf3edec56d3eb94af53f53126f3f3354d23f35ab4b,
  0x3ecc08313ecc8f32bdd6dca03edec56d3eb94af53f53126f3f405faf3f42ea74,
  0x3e6b7b293f0e5c2dbdad759f3edec56d3eb94af53f53126f3f256db13f5dd053,
  0xbeab1f04beaa97e1bd2fe1dabedec56dbeb94af53f53126f3e8d29fe3e94bcae,
  0xbecbf317becb6bf4bdd6dca0bedec56dbeb94af53f53126f3e6d21bc3e7a4f01,
  0xbe6b50f4bf0dca8ebdad759fbedec56dbeb94af53f53126f3eb32d2c3dfef8cf,
  0xbec6dc7f3e88b567bc2b2181bf317c1c3f38793e3c03126f3e7ffe2a3f2ac7a8,
  0xbea6ee953ea774acbc71e083bf317c1c3f38793e3c03126f3e938ae33f3680ae,
  0xbea6f2633ea78e9fbd0f9b13bf317c1c3f38793e3c03126f3e938ae33f3680ae,
  0xbe84d78cbecb4dadbb25375dbebaacdabf541f213ed98c7e3ea9f59d3e7ea4ec,
  0xbe869318becdda27bc77ec35bebaacdabf541f213ed98c7e3ea9f59d3e7ea4ec,
  0xbdd3f749bef23df7bc8b545cbebaacdabf541f213ed98c7e3ed8bfe43e52dc2b,
  0x3da32ebe3eeb28fabc00064b3eb6fd223f6f14123c0ce7043f1031f03f494456,
  0x3e887a073ec68e82bc228bb13eb6fd223f6f14123c0ce7043f26fea43f3eb096,
  0x3e88763a3ec6a876bcf78bbd3eb6fd223f6f14123c0ce7043f26fea43f3eb096,
  0x3da32ebe3eeb28fabc00064b3cd5cfab3f7fe5c93c1eecc03f1031f03f494456,
  0x3da320103eeb42ccbce6490a3cd5cfab3f7fe5c93c1eecc03f1031f03f494456,
  0x38a9de8b3eec5b29bd0d95143cd5cfab3f7fe5c93c1eecc03efdec813f4db489,
  0x3ec66aba3e88d456bc255d1c3f69b3d03ed10cb33b30f27c3f3fa0a53f2a6d59,
  0x3eee8b1a3dbc7369bc4729f63f69b3d03ed10cb33b30f27c3f4c6c983f0e3001,
  0x3eee874d3dbcdb38bd04ed703f69b3d03ed10cb33b30f27c3f4c6c983f0e3001,
  0xbeef1434bdbcbddcbc534df0bf6ef34dbeb7b4a2bb102de03e4e7c073ee35bb4,
  0xbeef1801bdbc560cbd07f66fbf6ef34dbeb7b4a2bb102de03e4e7c073ee35bb4,
  0xbecd99edbe863583bd0f5c29bf6ef34dbeb7b4a2bb102de03e7930383eac892b,
  0x3dced890bef13d53bc81c4fc3ebeab36bf6d9168bc1d49523f108bfc3e508cc5,
  0x3dcec95cbef12381bd1404643ebeab36bf6d9168bc1d49523f108bfc3e508cc5,
  0x3e862cdcbed00885bd1708253ebeab36bf6d9168bc1d49523f2af0d03e795a6c,
  0x3eee8b1a3dbc7369bc4729f63f7f90973d6b851fba6bedfa3f4c6c983f0e3001,
  0x3ef139433a6f5665bcafbe343f7f90973d6b851fba6bedfa3f4e5dd13f0006f2,
  0x3ef135763a919ef9bd2b01003f7f90973d6b851fba6bedfa3f4e5dd13f0006f2,
  0xbeef1434bdbcbddcbc534df0bf8000003c04b5dd3ac49ba63e4e7c073ee35bb4,
  0xbeeeb2f23a6f5665bc955b46bf8000003c04b5dd3ac49ba63e4ab8a63f00ae00,
  0xbeeeb6bf3a919ef9bd1dd096bf8000003c04b5dd3ac49ba63e4ab8a63f00ae00,
  0x3ecd8c4cbe8657b8bc6f56653f4020c5bf292a30bbf5c28f3f41cb793eaaa8ca,
  0x3eac6c98beabe682bccc27203f4020c5bf292a30bbf5c28f3f372f553e933db0,
  0x3eac68ecbeabccafbd3935763f4020c5bf292a30bbf5c28f3f372f553e933db0,
  0x3eefe9b8bdc13b9fbc60d66f3f7fe5c9bcdd2f1bbaded2893f4cd2803ee07dd4,
  0x3eefe5ebbdc0d456bd0b588e3f7fe5c9bcdd2f1bbaded2893f4cd2803ee07dd4,
  0x3ef135763a919ef9bd2b01003f7fe5c9bcdd2f1bbaded2893f4e5dd13f0006f2,
  0xbe869318becdda27bc77ec35bf316f00bf388659bbc49ba63ea9f59d3e7ea4ec,
  0xbeab1b37beaab1b3bcb97fe9bf316f00bf388659bbc49ba63e8d29fe3e94bcae,
  0xbeab1f04beaa97e1bd2fe1dabf316f00bf388659bbc49ba63e8d29fe3e94bcae,
  0xbeed7c2d3db68f8ebc356b87bf7fe5c93cdab9f53aded2893e50ae103f0eccc4,
  0xbeed7ffa3db6f75ebd007dd4bf7fe5c93cdab9f53aded2893e50ae103f0eccc4,
  0xbeeeb6bf3a919ef9bd1dd096bf7fe5c93cdab9f53aded2893e4ab8a63f00ae00,
  0xbe88f3233ec3de83bc06ad2ebec9fbe73f6b3d083c1ba5e33ea9fe003f3f4656,
  0xbdaa58b43eec61fabc16f21fbec9fbe73f6b3d083c1ba5e33ee007143f4c0b35,
  0xbdaa67e83eec7beebcf1bcdcbec9fbe73f6b3d083c1ba5e33ee007143f4c0b35,
  0xbe88f3233ec3de83bc06ad2ebf30346e3f39b3d03c03126f3ea9fe003f3f4656,
  0xbe88f6cf3ec3f855bce99c7cbf30346e3f39b3d03c03126f3ea9fe003f3f4656,
  0xbea6f2633ea78e9fbd0f9b13bf30346e3f39b3d03c03126f3e938ae33f3680ae,
  0xbdd3f749bef23df7bc8b545cbce2eb1cbf7fe5c9bc1eecc03ed8bfe43e52dc2b,
  0xbdd405f7bef22403bd18cd21bce2eb1cbf7fe5c9bc1eecc03ed8bfe43e52dc2b,
  0x38a9de8bbef3910cbd3b3b75bce2eb1cbf7fe5c9bc1eecc03efbb83d3e4e5e68,
  0x3e887a073ec68e82bc228bb13f2f837b3f3a57a83bc7e2823f26fea43f3eb096,
  0x3ea83ff73ea8a97abc8b99913f2f837b3f3a57a83bc7e2823f3354d23f35ab4b,
  0x3ea83c4b3ea8c36ebd18eeaf3f2f837b3f3a57a83bc7e2823f3354d23f35ab4b,
  0xbe869318becdda27bc77ec35bed096bcbf69c77abc07fcb93ea9f59d3e7ea4ec,
  0xbe8696c4becdc033bd111e00bed096bcbf69c77abc07fcb93ea9f59d3e7ea4ec,
  0xbdd405f7bef22403bd18cd21bed096bcbf69c77abc07fcb93ed8bfe43e52dc2b,
  0x3dced890bef13d53bc81c4fc3d4432cabf7fb15bbc20902e3f108bfc3e508cc5,
  0x38e496eebef3ab00bcd031053d4432cabf7fb15bbc20902e3efbb83d3e4e5e68,
  0x38a9de8bbef3910cbd3b3b753d4432cabf7fb15bbc20902e3efbb83d3e4e5e68,
  0x3ec66aba3e88d456bc255d1c3f39ba5e3f302de03bb780343f3fa0a53f2a6d59,
  0x3ec666ed3e88ee28bcf8f4733f39ba5e3f302de03bb780343f3fa0a53f2a6d59,
  0x3ea83c4b3ea8c36ebd18eeaf3f39ba5e3f302de03bb780343f3354d23f35ab4b,
  0xbecd9620be864f55bc70e4dabf39e1b1bf300000bbbac7113e7930383eac892b,
  0xbecd99edbe863583bd0f5c29bf39e1b1bf300000bbbac7113e7930383eac892b,
  0xbeab1f04beaa97e1bd2fe1dabf39e1b1bf300000bbbac7113e8d29fe3e94bcae,
  0x3e863088bed02257bc87cc7d3f2ff972bf39eeccbc03126f3f2af0d03e795a6c,
  0x3e862cdcbed00885bd1708253f2ff972bf39eeccbc03126f3f2af0d03e795a6c,
  0x3eac68ecbeabccafbd3935763f2ff972bf39eeccbc03126f3f372f553e933db0,
  0x3ecd8c4cbe8657b8bc6f56653f6dbf48bebde69bbba0902e3f41cb793eaaa8ca,
  0x3ecd887fbe863de6bd0ef88c3f6dbf48bebde69bbba0902e3f41cb793eaaa8ca,
  0x3eefe5ebbdc0d456bd0b588e3f6dbf48bebde69bbba0902e3f4cd2803ee07dd4,
  0xbeed7c2d3db68f8ebc356b87bf6bac713ec7e2823ba71de73e50ae103f0eccc4,
  0xbec6dc7f3e88b567bc2b2181bf6bac713ec7e2823ba71de73e7ffe2a3f2ac7a8,
  0xbec6e02a3e88cf3abcfbd6a6bf6bac713ec7e2823ba71de73e7ffe2a3f2ac7a8,
  0xbdaa58b43eec61fabc16f21f3b6bedfa3f7ff9723c1eecc03ee007143f4c0b35,
  0x38e496ee3eec4135bc69ccb83b6bedfa3f7ff9723c1eecc03efdec813f4db489,
  0x38a9de8b3eec5b29bd0d95143b6bedfa3f7ff9723c1eecc03efdec813f4db489,
  0x3907442c3ee9259abadae3e73b727bb3bc4154ca3f7ff9723efdec813f4db489,
  0x3eaa3a8ebea9c971bc47a3983b727bb3bc4154ca3f7ff9723f372f553e933db0,
  0x3ea61b8f3ea66b40bb9060353b727bb3bc4154ca3f7ff9723f3354d23f35ab4b,
  0x3e847bccbecd8e86bb815e393f25c91dbf222d0e3ed8c7e33f2af0d03e795a6c,
  0x3e863088bed02257bc87cc7d3f25c91dbf222d0e3ed8c7e33f2af0d03e795a6c,
  0x3eac6c98beabe682bccc27203f25c91dbf222d0e3ed8c7e33f372f553e933db0,
  0x3ec3e37e3e86fe503b20b1bc3f2141203f252bd43edd63883f3fa0a53f2a6d59,
  0x3ec66aba3e88d456bc255d1c3f2141203f252bd43edd63883f3fa0a53f2a6d59,
  0x3ea83ff73ea8a97abc8b99913f2141203f252bd43edd63883f3354d23f35ab4b,
  0xbecaf20fbe84ad58bb097e99bf22339cbf25cfab3ed8adac3e7930383eac892b,
  0xbecd9620be864f55bc70e4dabf22339cbf25cfab3ed8adac3e7930383eac892b,
  0xbeab1b37beaab1b3bcb97fe9bf22339cbf25cfab3ed8adac3e8d29fe3e94bcae,
  0x3ecaedbbbe84b59abb03558a3f56dc5dbeaccccd3eda29c73f41cb793eaaa8ca,
  0x3ecd8c4cbe8657b8bc6f56653f56dc5dbeaccccd3eda29c73f41cb793eaaa8ca,
  0x3eefe9b8bdc13b9fbc60d66f3f56dc5dbeaccccd3eda29c73f4cd2803ee07dd4,
  0xbeea6fa43db3e2503ac2a455bf54d6a13eb3c3613edc91d13e50ae103f0eccc4,
  0xbec44e723e86dfa43b09f40abf54d6a13eb3c3613edc91d13e7ffe2a3f2ac7a8,
  0xbec6dc7f3e88b567bc2b2181bf54d6a13eb3c3613edc91d13e7ffe2a3f2ac7a8,
  0xbda81fda3ee945d83b59b5e93ced91683f66872b3ede1b093ee007143f4c0b35,
  0x3907442c3ee9259abadae3e73ced91683f66872b3ede1b093efdec813f4db489,
  0x38e496ee3eec4135bc69ccb83ced91683f66872b3ede1b093efdec813f4db489,
  0xbec44e723e86dfa43b09f40abf1c1bda3f2a0f913edd49523e7ffe2a3f2ac7a8,
  0xbea4c9213ea53a3fbb0d5c74bf1c1bda3f2a0f913edd49523e938ae33f3680ae,
  0xbea6ee953ea774acbc71e083bf1c1bda3f2a0f913edd49523e938ae33f3680ae,
  0x3da123813ee810c73b9a1ba0bc3439583f669ad43ede425b3f1031f03f494456,
  0x3da32ebe3eeb28fabc00064bbc3439583f669ad43ede425b3f1031f03f494456,
  0x38e496ee3eec4135bc69ccb8bc3439583f669ad43ede425b3efdec813f4db489,
  0x3ecaedbbbe84b59abb03558a3f262b6bbf21cac13ed8c7e33f41cb793eaaa8ca,
  0x3eaa3a8ebea9c971bc47a3983f262b6bbf21cac13ed8c7e33f372f553e933db0,
  0x3eac6c98beabe682bccc27203f262b6bbf21cac13ed8c7e33f372f553e933db0,
  0x3da123813ee810c73b9a1ba03ea72b023f57381d3edd2f1b3f1031f03f494456,
  0x3e86bdb23ec3ee3d3b2bd5dc3ea72b023f57381d3edd2f1b3f26fea43f3eb096,
  0x3e887a073ec68e82bc228bb13ea72b023f57381d3edd2f1b3f26fea43f3eb096,
  0xbe84d78cbecb4dadbb25375dbf26a7f0bf214e3c3ed8c7e33ea9f59d3e7ea4ec,
  0xbea8e7ffbea89870bc22cecdbf26a7f0bf214e3c3ed8c7e33e8d29fe3e94bcae,
  0xbeab1b37beaab1b3bcb97fe9bf26a7f0bf214e3c3ed8c7e33e8d29fe3e94bcae,
  0x3dcc3dabbeee3cfbbb53176a3b2a64c3bf68240b3ed7ced93f108bfc3e508cc5,
  0x3907442cbef0a2a9bc4f9e383b2a64c3bf68240b3ed7ced93efbb83d3e4e5e68,
  0x38e496eebef3ab00bcd031053b2a64c3bf68240b3ed7ced93efbb83d3e4e5e68,
  0x3ec3e37e3e86fe503b20b1bc3f5388663eba9fbe3edbda513f3fa0a53f2a6d59,
  0x3eeb80673db9b2c439da1a933f5388663eba9fbe3edbda513f4c6c983f0e3001,
  0x3eee8b1a3dbc7369bc4729f63f5388663eba9fbe3edbda513f4c6c983f0e3001,
  0xbeec026dbdbaab47b9a5accdbf579a6bbea816f03edafb7f3e4e7c073ee35bb4,
  0xbeef1434bdbcbddcbc534df0bf579a6bbea816f03edafb7f3e4e7c073ee35bb4,
  0xbecd9620be864f55bc70e4dabf579a6bbea816f03edafb7f3e7930383eac892b,
  0x3eeb80673db9b2c439da1a933f675f703c07fcb93edb22d13f4c6c983f0e3001,
  0x3eee25c83a40ad04bc0f8a4c3f675f703c07fcb93edb22d13f4e5dd13f0006f2,
  0x3ef139433a6f5665bcafbe343f675f703c07fcb93edb22d13f4e5dd13f0006f2,
  0xbeec026dbdbaab47b9a5accdbf673eab3d01d7dc3edb089a3e4e7c073ee35bb4,
  0xbeeba2593a40ad04bbb6e0d2bf673eab3d01d7dc3edb089a3e4ab8a63f00ae00,
  0xbeeeb2f23a6f5665bc955b46bf673eab3d01d7dc3edb089a3e4ab8a63f00ae00,
  0x3eecda90bdbf19d6ba943e103f6758e23c2a64c33edb22d13f4cd2803ee07dd4,
  0x3eefe9b8bdc13b9fbc60d66f3f6758e23c2a64c33edb22d13f4cd2803ee07dd4,
  0x3ef139433a6f5665bcafbe343f6758e23c2a64c33edb22d13f4e5dd13f0006f2,
  0xbeea6fa43db3e2503ac2a455bf6765febc2a64c33edaee633e50ae103f0eccc4,
  0xbeed7c2d3db68f8ebc356b87bf6765febc2a64c33edaee633e50ae103f0eccc4,
  0xbeeeb2f23a6f5665bc955b46bf6765febc2a64c33edaee633e4ab8a63f00ae00,
  0xbe872fdc3ec147063b8cf7cbbeb5182b3f544d013edd70a43ea9fe003f3f4656,
  0xbda81fda3ee945d83b59b5e9beb5182b3f544d013edd70a43ee007143f4c0b35,
  0xbdaa58b43eec61fabc16f21fbeb5182b3f544d013edd70a43ee007143f4c0b35,
  0x3dcc3dabbeee3cfbbb53176a3ead9168bf56f6943ed930be3f108bfc3e508cc5,
  0x3dced890bef13d53bc81c4fc3ead9168bf56f6943ed930be3f108bfc3e508cc5,
  0x3e863088bed02257bc87cc7d3ead9168bf56f6943ed930be3f2af0d03e795a6c,
  0xbe872fdc3ec147063b8cf7cbbf2532613f2147ae3edd3c363ea9fe003f3f4656,
  0xbe88f3233ec3de83bc06ad2ebf2532613f2147ae3edd3c363ea9fe003f3f4656,
  0xbea6ee953ea774acbc71e083bf2532613f2147ae3edd3c363e938ae33f3680ae,
  0xbdd1361ebeef3a79bb8f4b623c20902ebf68240b3ed7c1be3ed8bfe43e52dc2b,
  0xbdd3f749bef23df7bc8b545c3c20902ebf68240b3ed7c1be3ed8bfe43e52dc2b,
  0x38e496eebef3ab00bcd031053c20902ebf68240b3ed7c1be3efbb83d3e4e5e68,
  0x3e86bdb23ec3ee3d3b2bd5dc3f24c9863f21a9fc3edd49523f26fea43f3eb096,
  0x3ea61b8f3ea66b40bb9060353f24c9863f21a9fc3edd49523f3354d23f35ab4b,
  0x3ea83ff73ea8a97abc8b99913f24c9863f21a9fc3edd49523f3354d23f35ab4b,
  0x3e6b7b29bf0dca8ebdad759f3edeb852beb94af53f53126f3f2560313dfe3a7e,
  0x3eac68ecbeabccafbd3935763edeb852beb94af53f53126f3f372f553e933db0,
  0x3e862cdcbed00885bd1708253edeb852beb94af53f53126f3f2af0d03e795a6c,
  0x3dcec95cbef12381bd140464bd542c3dbf1041893f53126f3f108bfc3e508cc5,
  0x3eac68ecbeabccafbd3935763eb94af5bedeb8523f53126f3f372f553e933db0,
  0x3f0e18adbe6a42f2bdad759f3eb94af5bedeb8523f53126f3f5fb0f73ea87a8d,
  0x3ecd887fbe863de6bd0ef88c3eb94af5bedeb8523f53126f3f41cb793eaaa8ca,
  0x38a9de8bbf0ff573bdd6dca03d542c3dbf1041893f53126f3efcfc403de68901,
  0xbf0e0e1fbe6a42f2bdad759fbeb94af5bedeb8523f53126f3dfddc1e3ea3fb16,
  0xbeab1f04beaa97e1bd2fe1dabeb94af5bedeb8523f53126f3e8d29fe3e94bcae,
  0xbecd99edbe863583bd0f5c29beb94af5bedeb8523f53126f3e7930383eac892b,
  0x3f0e18adbe6a42f2bdad759f3f1041893d53c3613f53126f3f5fb0f73ea87a8d,
  0x3ef135763a919ef9bd2b01003f1041893d53c3613f53126f3f4e5dd13f0006f2,
  0x3eefe5ebbdc0d456bd0b588e3f1041893d53c3613f53126f3f4cd2803ee07dd4,
  0xbf1039043a919ef9bdd6dca0bf1041893d542c3d3f53126f3de7820a3f004e83,
  0x3ef135763a919ef9bd2b01003f104189bd53c3613f53126f3f4e5dd13f0006f2,
  0x3f0e18ad3e6c896ebdad759f3f104189bd53c3613f53126f3f6224033f2b81f9,
  0x3eee874d3dbcdb38bd04ed703f104189bd53c3613f53126f3f4c6c983f0e3001,
  0xbeed7ffa3db6f75ebd007dd4bf104189bd542c3d3f53126f3e50ae103f0eccc4,
  0x3f0e18ad3e6c896ebdad759f3eb94af53edeb8523f53126f3f6224033f2b81f9,
  0x3ea83c4b3ea8c36ebd18eeaf3eb94af53edeb8523f53126f3f3354d23f35ab4b,
  0x3ec666ed3e88ee28bcf8f4733eb94af53edeb8523f53126f3f3fa0a53f2a6d59,
  0xbf0e0e1f3e6c896ebdad759fbeb94af53edec56d3f53126f3dfdf43c3f2dfefc,
  0xbea6f2633ea78e9fbd0f9b13beb94af53edec56d3f53126f3e938ae33f3680ae,
  0xbecbf3173ecc8f32bdd6dca0beb94af53edec56d3f53126f3e6f073a3f43ca00,
  0xbe6b50f43f0e5c2dbdad759fbedeb8523eb94af53f53126f3eb3b03e3f5dad86,
  0xbea6f2633ea78e9fbd0f9b13bedeb8523eb94af53f53126f3e938ae33f3680ae,
  0xbe88f6cf3ec3f855bce99c7cbedeb8523eb94af53f53126f3ea9fe003f3f4656,
  0x3e6b7b293f0e5c2dbdad759fbd53c3613f1041893f53126f3f256db13f5dd053,
  0x38a9de8b3eec5b29bd0d9514bd53c3613f1041893f53126f3efdec813f4db489,
  0x3da320103eeb42ccbce6490abd53c3613f1041893f53126f3f1031f03f494456,
  0xbdaa67e83eec7beebcf1bcdc3d542c3d3f1041893f53126f3ee007143f4c0b35,
  0x3ea83c4b3ea8c36ebd18eeaf3edeb8523eb94af53f53126f3f3354d23f35ab4b,
  0x3e6b7b293f0e5c2dbdad759f3edeb8523eb94af53f53126f3f256db13f5dd053,
  0x3e88763a3ec6a876bcf78bbd3edeb8523eb94af53f53126f3f26fea43f3eb096,
  0xbeab1f04beaa97e1bd2fe1dabedeb852beb94af53f53126f3e8d29fe3e94bcae,
  0xbe6b50f4bf0dca8ebdad759fbedeb852beb94af53f53126f3eb32d2c3dfef8cf,
  0xbe8696c4becdc033bd111e00bedeb852beb94af53f53126f3ea9f59d3e7ea4ec,
  0xbec6e02a3e88cf3abcfbd6a6bf317c1c3f38793e3c03126f3e7ffe2a3f2ac7a8,
  0xbdd1361ebeef3a79bb8f4b62bebaacdabf541f213ed98c7e3ed8bfe43e52dc2b,
  0x3da320103eeb42ccbce6490a3eb6fd223f6f14123c0ce7043f1031f03f494456,
  0x38e496ee3eec4135bc69ccb83cd5cfab3f7fe5c93c1eecc03efdec813f4db489,
  0x3ec666ed3e88ee28bcf8f4733f69b3d03ed10cb33b30f27c3f3fa0a53f2a6d59,
  0xbecd9620be864f55bc70e4dabf6ef34dbeb7b4a2bb102de03e7930383eac892b,
  0x3e863088bed02257bc87cc7d3ebeab36bf6d9168bc1d49523f2af0d03e795a6c,
  0x3eee874d3dbcdb38bd04ed703f7f90973d6b851fba6bedfa3f4c6c983f0e3001,
  0xbeef1801bdbc560cbd07f66fbf8000003c04b5dd3ac49ba63e4e7c073ee35bb4,
  0x3ecd887fbe863de6bd0ef88c3f4020c5bf292a30bbf5c28f3f41cb793eaaa8ca,
  0x3ef139433a6f5665bcafbe343f7fe5c9bcdd2f1bbaded2893f4e5dd13f0006f2,
  0xbe869318becdda27bc77ec35bf316f00bf388659bbc7e2823ea9f59d3e7ea4ec,
  0xbeab1f04beaa97e1bd2fe1dabf316f00bf388659bbc7e2823e8d29fe3e94bcae,
  0xbe8696c4becdc033bd111e00bf316f00bf388659bbc7e2823ea9f59d3e7ea4ec,
  0xbeeeb2f23a6f5665bc955b46bf7fe5c93cdab9f53aded2893e4ab8a63f00ae00,
  0xbe88f6cf3ec3f855bce99c7cbec9fbe73f6b3d083c1ba5e33ea9fe003f3f4656,
  0xbea6ee953ea774acbc71e083bf30346e3f39b3d03c03126f3e938ae33f3680ae,
  0x38e496eebef3ab00bcd03105bce2eb1cbf7fe5c9bc1eecc03efbb83d3e4e5e68,
  0x3e887a073ec68e82bc228bb13f2f837b3f3a5e353bc7e2823f26fea43f3eb096,
  0x3ea83c4b3ea8c36ebd18eeaf3f2f837b3f3a5e353bc7e2823f3354d23f35ab4b,
  0x3e88763a3ec6a876bcf78bbd3f2f837b3f3a5e353bc7e2823f26fea43f3eb096,
  0xbdd3f749bef23df7bc8b545cbed096bcbf69c77abc07fcb93ed8bfe43e52dc2b,
  0x3dcec95cbef12381bd1404643d4432cabf7fb15bbc20902e3f108bfc3e508cc5,
  0x3ec66aba3e88d456bc255d1c3f39ba5e3f302de03bbac7113f3fa0a53f2a6d59,
  0x3ea83c4b3ea8c36ebd18eeaf3f39ba5e3f302de03bbac7113f3354d23f35ab4b,
  0x3ea83ff73ea8a97abc8b99913f39ba5e3f302de03bbac7113f3354d23f35ab4b,
  0xbecd9620be864f55bc70e4dabf39e83ebf300000bbbac7113e7930383eac892b,
  0xbeab1f04beaa97e1bd2fe1dabf39e83ebf300000bbbac7113e8d29fe3e94bcae,
  0xbeab1b37beaab1b3bcb97fe9bf39e83ebf300000bbbac7113e8d29fe3e94bcae,
  0x3eac6c98beabe682bccc27203f2ff972bf39eeccbc03126f3f372f553e933db0,
  0x3eefe9b8bdc13b9fbc60d66f3f6dbf48bebde69bbba0902e3f4cd2803ee07dd4,
  0xbeed7ffa3db6f75ebd007dd4bf6bac713ec7e2823ba71de73e50ae103f0eccc4,
  0xbdaa67e83eec7beebcf1bcdc3b6bedfa3f7ff9723c1eecc03ee007143f4c0b35,
  0x3ecaedbbbe84b59abb03558abe84d0143dbfb15b3f7611343f41cb793eaaa8ca,
  0x3eee25c83a40ad04bc0f8a4cbe84d0143dbfb15b3f7611343f4e5dd13f0006f2,
  0x3eaa3a8ebea9c971bc47a398be84d0143dbfb15b3f7611343f372f553e933db0,
  0x3dcc3dabbeee3cfbbb53176abd94af4f3e449ba63f7a8c153f108bfc3e508cc5,
  0x3e847bccbecd8e86bb815e39bd94af4f3e449ba63f7a8c153f2af0d03e795a6c,
  0x3eaa3a8ebea9c971bc47a398bd94af4f3e449ba63f7a8c153f372f553e933db0,
  0xbe872fdc3ec147063b8cf7cb3da6809dbe4db8bb3f79e83e3ea9fe003f3f4656,
  0xbea4c9213ea53a3fbb0d5c743da6809dbe4db8bb3f79e83e3e938ae33f3680ae,
  0x3907442c3ee9259abadae3e73da6809dbe4db8bb3f79e83e3efdec813f4db489,
  0xbe84d78cbecb4dadbb25375d3dc49ba63e53404f3f794af53ea9f59d3e7ea4ec,
  0x3907442cbef0a2a9bc4f9e383dc49ba63e53404f3f794af53efbb83d3e4e5e68,
  0xbea8e7ffbea89870bc22cecd3dc49ba63e53404f3f794af53e8d29fe3e94bcae,
  0xbeec026dbdbaab47b9a5accd3e34a2343d6b1c433f7b8bac3e4e7c073ee35bb4,
  0xbecaf20fbe84ad58bb097e993e34a2343d6b1c433f7b8bac3e7930383eac892b,
  0xbea8e7ffbea89870bc22cecd3e34a2343d6b1c433f7b8bac3e8d29fe3e94bcae,
  0x3ecaedbbbe84b59abb03558abe66809d3dadab9f3f78793e3f41cb793eaaa8ca,
  0x3eecda90bdbf19d6ba943e10be66809d3dadab9f3f78793e3f4cd2803ee07dd4,
  0x3eee25c83a40ad04bc0f8a4cbe66809d3dadab9f3f78793e3f4e5dd13f0006f2,
  0xbea4c9213ea53a3fbb0d5c743df93dd9bd61b08a3f7db22d3e938ae33f3680ae,
  0xbec44e723e86dfa43b09f40a3df93dd9bd61b08a3f7db22d3e7ffe2a3f2ac7a8,
  0xbeea6fa43db3e2503ac2a4553df93dd9bd61b08a3f7db22d3e50ae103f0eccc4,
  0xbe872fdc3ec147063b8cf7cb3d7487fdbe01bda53f7d77323ea9fe003f3f4656,
  0x3907442c3ee9259abadae3e73d7487fdbe01bda53f7d77323efdec813f4db489,
  0xbda81fda3ee945d83b59b5e93d7487fdbe01bda53f7d77323ee007143f4c0b35,
  0xbe84d78cbecb4dadbb25375d3dac3c9f3e269ad43f7bac713ea9f59d3e7ea4ec,
  0xbdd1361ebeef3a79bb8f4b623dac3c9f3e269ad43f7bac713ed8bfe43e52dc2b,
  0x3907442cbef0a2a9bc4f9e383dac3c9f3e269ad43f7bac713efbb83d3e4e5e68,
  0x3ea61b8f3ea66b40bb906035bd6f9db2be3a43fe3f7b4a233f3354d23f35ab4b,
  0x3e86bdb23ec3ee3d3b2bd5dcbd6f9db2be3a43fe3f7b4a233f26fea43f3eb096,
  0x3da123813ee810c73b9a1ba0bd6f9db2be3a43fe3f7b4a233f1031f03f494456,
  0x3ec3e37e3e86fe503b20b1bcbe6594afbde4c2f83f77d5673f3fa0a53f2a6d59,
  0x3eee25c83a40ad04bc0f8a4cbe6594afbde4c2f83f77d5673f4e5dd13f0006f2,
  0x3eeb80673db9b2c439da1a93be6594afbde4c2f83f77d5673f4c6c983f0e3001,
  0x3ec3e37e3e86fe503b20b1bcbe70be0ebdeb851f3f7710cb3f3fa0a53f2a6d59,
  0x3ea61b8f3ea66b40bb906035be70be0ebdeb851f3f7710cb3f3354d23f35ab4b,
  0x3eee25c83a40ad04bc0f8a4cbe70be0ebdeb851f3f7710cb3f4e5dd13f0006f2,
  0x3eaa3a8ebea9c971bc47a398bdd2f1aa3e79c0ec3f76dc5d3f372f553e933db0,
  0x3907442cbef0a2a9bc4f9e38bdd2f1aa3e79c0ec3f76dc5d3efbb83d3e4e5e68,
  0x3dcc3dabbeee3cfbbb53176abdd2f1aa3e79c0ec3f76dc5d3f108bfc3e508cc5,
  0x3907442cbef0a2a9bc4f9e383b51b717bc449ba63f7ff9723efbb83d3e4e5e68,
  0xbea4c9213ea53a3fbb0d5c743b51b717bc449ba63f7ff9723e938ae33f3680ae,
  0xbea8e7ffbea89870bc22cecd3b51b717bc449ba63f7ff9723e8d29fe3e94bcae,
  0xbea4c9213ea53a3fbb0d5c743e2fd220bdac710d3f7b43963e938ae33f3680ae,
  0xbeea6fa43db3e2503ac2a4553e2fd220bdac710d3f7b43963e50ae103f0eccc4,
  0xbeeba2593a40ad04bbb6e0d23e2fd220bdac710d3f7b43963e4ab8a63f00ae00,
  0xbeeba2593a40ad04bbb6e0d23e303afb3d6147ae3f7bc6a83e4ab8a63f00ae00,
  0xbeec026dbdbaab47b9a5accd3e303afb3d6147ae3f7bc6a83e4e7c073ee35bb4,
  0xbea8e7ffbea89870bc22cecd3e303afb3d6147ae3f7bc6a83e8d29fe3e94bcae,
  0x3eaa3a8ebea9c971bc47a3983f25c91dbf222d0e3ed8c7e33f372f553e933db0,
  0x3907442c3ee9259abadae3e73b5ed289bc42f8383f7ff9723efdec813f4db489,
  0xbea4c9213ea53a3fbb0d5c743b5ed289bc42f8383f7ff9723e938ae33f3680ae,
  0x3907442cbef0a2a9bc4f9e383b5ed289bc42f8383f7ff9723efbb83d3e4e5e68,
  0x3907442c3ee9259abadae3e73b656042bc42f8383f7ff9723efdec813f4db489,
  0x3907442cbef0a2a9bc4f9e383b656042bc42f8383f7ff9723efbb83d3e4e5e68,
  0x3eaa3a8ebea9c971bc47a3983b656042bc42f8383f7ff9723f372f553e933db0,
  0x3ea61b8f3ea66b40bb906035bdadab9fbe6d0e563f7816f03f3354d23f35ab4b,
  0x3da123813ee810c73b9a1ba0bdadab9fbe6d0e563f7816f03f1031f03f494456,
  0x3907442c3ee9259abadae3e7bdadab9fbe6d0e563f7816f03efdec813f4db489,
  0x3eaa3a8ebea9c971bc47a3983b79096cbc4154ca3f7ff9723f372f553e933db0,
  0x3eee25c83a40ad04bc0f8a4c3b79096cbc4154ca3f7ff9723f4e5dd13f0006f2,
  0x3ea61b8f3ea66b40bb9060353b79096cbc4154ca3f7ff9723f3354d23f35ab4b,
  0x3ea61b8f3ea66b40bb9060353f2141203f252bd43edd63883f3354d23f35ab4b,
  0xbea4c9213ea53a3fbb0d5c743b4b295fbc449ba63f7ff9723e938ae33f3680ae,
  0xbeeba2593a40ad04bbb6e0d23b4b295fbc449ba63f7ff9723e4ab8a63f00ae00,
  0xbea8e7ffbea89870bc22cecd3b4b295fbc449ba63f7ff9723e8d29fe3e94bcae,
  0xbea8e7ffbea89870bc22cecdbf22339cbf25cfab3ed8adac3e8d29fe3e94bcae,
  0x3ecaedbbbe84b59abb03558a3f56dc5dbeaccccd3eda36e33f41cb793eaaa8ca,
  0x3eefe9b8bdc13b9fbc60d66f3f56dc5dbeaccccd3eda36e33f4cd2803ee07dd4,
  0x3eecda90bdbf19d6ba943e103f56dc5dbeaccccd3eda36e33f4cd2803ee07dd4,
  0xbeed7c2d3db68f8ebc356b87bf54d6a13eb3c3613edc91d13e50ae103f0eccc4,
  0xbda81fda3ee945d83b59b5e93ced91683f66872b3ede28243ee007143f4c0b35,
  0x38e496ee3eec4135bc69ccb83ced91683f66872b3ede28243efdec813f4db489,
  0xbdaa58b43eec61fabc16f21f3ced91683f66872b3ede28243ee007143f4c0b35,
  0xbec6dc7f3e88b567bc2b2181bf1c1bda3f2a0f913edd49523e7ffe2a3f2ac7a8,
  0x3da123813ee810c73b9a1ba0bc3439583f669ad43ede353f3f1031f03f494456,
  0x38e496ee3eec4135bc69ccb8bc3439583f669ad43ede353f3efdec813f4db489,
  0x3907442c3ee9259abadae3e7bc3439583f669ad43ede353f3efdec813f4db489,
  0x3ecd8c4cbe8657b8bc6f56653f262b6bbf21cac13ed8c7e33f41cb793eaaa8ca,
  0x3da32ebe3eeb28fabc00064b3ea72b023f57381d3edd2f1b3f1031f03f494456,
  0xbe869318becdda27bc77ec35bf26a7f0bf214e3c3ed8c7e33ea9f59d3e7ea4ec,
  0x3dced890bef13d53bc81c4fc3b2a64c3bf68240b3ed7ced93f108bfc3e508cc5,
  0x3ec66aba3e88d456bc255d1c3f5388663eba9fbe3edbda513f3fa0a53f2a6d59,
  0xbecaf20fbe84ad58bb097e99bf579a6bbea816f03edafb7f3e7930383eac892b,
  0x3eeb80673db9b2c439da1a933f675f703c07fcb93edb15b53f4c6c983f0e3001,
  0x3ef139433a6f5665bcafbe343f675f703c07fcb93edb15b53f4e5dd13f0006f2,
  0x3eee8b1a3dbc7369bc4729f63f675f703c07fcb93edb15b53f4c6c983f0e3001,
  0xbeec026dbdbaab47b9a5accdbf673eab3d01d7dc3edb15b53e4e7c073ee35bb4,
  0xbeeeb2f23a6f5665bc955b46bf673eab3d01d7dc3edb15b53e4ab8a63f00ae00,
  0xbeef1434bdbcbddcbc534df0bf673eab3d01d7dc3edb15b53e4e7c073ee35bb4,
  0x3eee25c83a40ad04bc0f8a4c3f6758e23c2a64c33edb22d13f4e5dd13f0006f2,
  0xbeeba2593a40ad04bbb6e0d2bf6765febc2a64c33edaee633e4ab8a63f00ae00,
  0xbe88f3233ec3de83bc06ad2ebeb5182b3f544d013edd70a43ea9fe003f3f4656,
  0x3e847bccbecd8e86bb815e393ead9168bf56f6943ed930be3f2af0d03e795a6c,
  0xbea4c9213ea53a3fbb0d5c74bf2532613f2147ae3edd3c363e938ae33f3680ae,
  0x3907442cbef0a2a9bc4f9e383c20902ebf68240b3ed7c1be3efbb83d3e4e5e68,
  0x3e887a073ec68e82bc228bb13f24c9863f21a9fc3edd49523f26fea43f3eb096,
  0x3e212dbabf49e093be889aaa3d99ce07bf43404f3f2474543f16e8083cfa0b5f,
  0x3e2019f4bf4885f5be8553693d99ce07bf43404f3f2474543f16e8083cfa0b5f,
  0x39913a50bf4c7560be8553693d99ce07bf43404f3f2474543efde8d53cb17acc,
  0x3e212dbabf49e093bea4ca923dc8b439bf7ec56d800000003f179ecf3c84406c,
  0x3e212dbabf49e093bea1f87f3dc8b439bf7ec56d800000003f17c9043c52178f,
  0x39913a50bf4dd6d0bea1f87f3dc8b439bf7ec56d800000003efddebe3b6e06d9,
  0x39913a50bf4dd6d0be889aaabd99ce07bf43404f3f2474543efde8d53cb17acc,
  0x39913a50bf4c7560be855369bd99ce07bf43404f3f2474543efde8d53cb17acc,
  0xbe1f88b9bf488605be855369bd99ce07bf43404f3f2474543ece0c173d001e69,
  0x3e9ce37abf3cde7fbe8553693e63d70abf3bb98c3f2474543f2df5273d6b93cd,
  0x3e2019f4bf4885f5be8553693e63d70abf3bb98c3f2474543f16e8083cfa0b5f,
  0x3e212dbabf49e093be889aaa3e63d70abf3bb98c3f2474543f16e8083cfa0b5f,
  0x39913a50bf4dd6d0bea4ca92bdc8b439bf7ec56d800000003efde0933be5de16,
  0x39913a50bf4dd6d0bea1f87fbdc8b439bf7ec56d800000003efddebe3b6e06d9,
  0xbe209c80bf49e093bea1f87fbdc8b439bf7ec56d800000003ecc36543c5eefe5,
  0x3e9df202bf3e24eebea4ca923e94a234bf74f766800000003f2f5fc43d340c41,
  0x3e9df202bf3e24eebea1f87f3e94a234bf74f766800000003f2fb3743d27392a,
  0x3e212dbabf49e093bea1f87f3e94a234bf74f766800000003f17c9043c52178f,
  0xbe209c80bf49e093be889aaabe63d70abf3bc01a3f2474543ece0c173d001e69,
  0xbe1f88b9bf488605be855369be63d70abf3bc01a3f2474543ece0c173d001e69,
  0xbe9c9addbf3cde7fbe855369be63d70abf3bc01a3f2474543ea010623d71a6d7,
  0x3f10d60abf1087fdbe85464e3a51b717bb03126f3f8000003f52d5f13e2762d8,
  0x38a9de8bbf4c83fdbe85464e3a51b717bb03126f3f8000003efc8beb3cb606b8,
  0x3e2019f4bf4885f5be8553693a51b717bb03126f3f8000003f16e8083cfa0b5f,
  0x3ee3b40bbf29f18dbe8553693eb8fc50bf2d07c83f2474543f4339083dd013a9,
  0x3e9ce37abf3cde7fbe8553693eb8fc50bf2d07c83f2474543f2df5273d6b93cd,
  0x3e9df202bf3e24eebe889aaa3eb8fc50bf2d07c83f2474543f2df5273d6b93cd,
  0xbe209c80bf49e093bea4ca92be94a234bf74f766800000003ecc8e693c8aa21a,
  0xbe209c80bf49e093bea1f87fbe94a234bf74f766800000003ecc36543c5eefe5,
  0xbe9da965bf3e24ffbea1f87fbe94a234bf74f766800000003e9c810a3d2d86ec,
  0x3ee53cbcbf2b1759bea4ca923ef15b57bf61c433800000003f4549843db71088,
  0x3ee53cbcbf2b1759bea1f87f3ef15b57bf61c433800000003f45c39c3db14984,
  0x3e9df202bf3e24eebea1f87f3ef15b57bf61c433800000003f2fb3743d27392a,
  0xbe9da965bf3e24ffbe889aaabeb8fc50bf2d07c83f2474543ea010623d71a6d7,
  0xbe9c9addbf3cde7fbe855369beb8fc50bf2d07c83f2474543ea010623d71a6d7,
  0xbee36b6ebf29f19dbe855369beb8fc50bf2d07c83f2474543e6b74583dd47cfa,
  0xbee36b6ebf29f19dbe85536900000000000000003f8000003e6b74583dd47cfa,
  0xbe9c9addbf3cde7fbe85536900000000000000003f8000003ea010623d71a6d7,
  0xbe1f88b9bf488605be85536900000000000000003f8000003ece0c173d001e69,
  0x3f11dcc6bf117332be889aaa3ef8ef35bf17a7873f2474543f55e2693e24f441,
  0x3f10e2e3bf10794fbe8553693ef8ef35bf17a7873f2474543f55e2693e24f441,
  0x3ee3b40bbf29f18dbe8553693ef8ef35bf17a7873f2474543f4339083dd013a9,
  0xbe9da965bf3e24ffbea4ca92bef15b57bf61c433800000003e9d2bf53d3a4e7b,
  0xbe9da965bf3e24ffbea1f87fbef15b57bf61c433800000003e9c810a3d2d86ec,
  0xbee4f41fbf2b176abea1f87fbef15b57bf61c433800000003e6128bf3db5dd4c,
  0x3f11dcc6bf117332bea4ca923f22680abf45e354800000003f5884843e1a4db1,
  0x3f11dcc6bf117332bea1f87f3f22680abf45e354800000003f59203a3e17d849,
  0x3ee53cbcbf2b1759bea1f87f3f22680abf45e354800000003f45c39c3db14984,
  0xbee4f41fbf2b176abe889aaabef8ef35bf17a7873f2474543e6b74583dd47cfa,
  0xbee36b6ebf29f19dbe855369bef8ef35bf17a7873f2474543e6b74583dd47cfa,
  0xbf10be94bf10795fbe855369bef8ef35bf17a7873f2474543e2154433e27c287,
  0x3f2b80edbee46994be889aaa3f17a787bef8ef353f2474543f6539c93e6f4cb2,
  0x3f2a5b10bee2e0e3be8553693f17a787bef8ef353f2474543f6539c93e6f4cb2,
  0x3f10e2e3bf10794fbe8553693f17a787bef8ef353f2474543f55e2693e24f441,
  0xbee4f41fbf2b176abea4ca92bf22680abf45e354800000003e6317273dbb9bed,
  0xbee4f41fbf2b176abea1f87fbf22680abf45e354800000003e6128bf3db5dd4c,
  0xbf11b878bf117343bea1f87fbf22680abf45e354800000003e1440af3e1ac190,
  0x3f2b80edbee46994bea4ca923f45e354bf22680a800000003f6853a03e66ea42,
  0x3f2b80edbee46994bea1f87f3f45e354bf22680a800000003f690aee3e64fa8b,
  0x3f11dcc6bf117332bea1f87f3f45e354bf22680a800000003f59203a3e17d849,
  0xbf10be94bf10795fbe855369bf17a787bef8ef353f2474543e2154433e27c287,
  0xbf2a36d2bee2e105be855369bf17a787bef8ef353f2474543dc933a03e729952,
  0xbf2b5cafbee469b6be889aaabf17a787bef8ef353f2474543dc933a03e729952,
  0x3f10e2e3bf10794fbe85536900000000000000003f8000003f55e2693e24f441,
  0x3f48ef89be1e73a3be85536900000000000000003f8000003f77bd273ed038c1,
  0x3f4cdee33aaed99dbe85536900000000000000003f8000003f7a33053f001beb,
  0x3f3e8e82be9d1edabe889aaa3f2d07c8beb8fc503f2474543f70a82a3ea21bc1,
  0x3f3d4802be9c1073be8553693f2d07c8beb8fc503f2474543f70a82a3ea21bc1,
  0x3f2a5b10bee2e0e3be8553693f2d07c8beb8fc503f2474543f6539c93e6f4cb2,
  0xbf11b878bf117343bea4ca92bf45e354bf22680a800000003e16b4c83e1d31fd,
  0xbf11b878bf117343bea1f87fbf45e354bf22680a800000003e1440af3e1ac190,
  0xbf2b5cafbee469b6bea1f87fbf45e354bf22680a800000003daa7ded3e6866e4,
  0x3f3e8e82be9d1edabea4ca923f61c433bef15b57800000003f741b333e9f35c2,
  0x3f3e8e82be9d1edabea1f87f3f61c433bef15b57800000003f74e7143e9e8a72,
  0x3f2b80edbee46994bea1f87f3f61c433bef15b57800000003f690aee3e64fa8b,
  0xbf2b5cafbee469b6be889aaabf2d07c8beb8fc503f2474543dc933a03e729952,
  0xbf2a36d2bee2e105be855369bf2d07c8beb8fc503f2474543dc933a03e729952,
  0xbf3d23c4be9c1095be855369bf2d07c8beb8fc503f2474543d5e67943ea3f0fe,
  0x3f4cdee33aaed99dbe8553693f43404fbd99ce073f2474543f7a33053f001beb,
  0x3f48ef89be1e73a3be8553693f43404fbd99ce073f2474543f77bd273ed038c1,
  0x3f4a4a17be1f87adbe889aaa3f43404fbd99ce073f2474543f77bd273ed038c1,
  0x3f4a4a17be1f87adbe889aaa3f3bc01abe63d70a3f2474543f77bd273ed038c1,
  0x3f48ef89be1e73a3be8553693f3bc01abe63d70a3f2474543f77bd273ed038c1,
  0x3f3d4802be9c1073be8553693f3bc01abe63d70a3f2474543f70a82a3ea21bc1,
  0xbf2b5cafbee469b6bea4ca92bf61c433bef15b57800000003db040c03e6a5094,
  0xbf2b5cafbee469b6bea1f87fbf61c433bef15b57800000003daa7ded3e6866e4,
  0xbf3e6a44be9d1efbbea1f87fbf61c433bef15b57800000003d1a3c213ea07161,
  0x3f4a4a17be1f87adbea4ca923f74f766be94a234800000003f7b675e3eceba8c,
  0x3f4a4a17be1f87adbea1f87f3f74f766be94a234800000003f7c40073ece6256,
  0x3f3e8e82be9d1edabea1f87f3f74f766be94a234800000003f74e7143e9e8a72,
  0xbf3e6a44be9d1efbbe889aaabf3bc01abe63d70a3f2474543d5e67943ea3f0fe,
  0xbf3d23c4be9c1095be855369bf3bc01abe63d70a3f2474543d5e67943ea3f0fe,
  0xbf48cb3abe1e73e7be855369bf3bc01abe63d70a3f2474543ce07c423ed22b17,
  0xbf48cb3abe1e73e7be85536900000000000000003f8000003ce07c423ed22b17,
  0xbf3d23c4be9c1095be85536900000000000000003f8000003d5e67943ea3f0fe,
  0xbf2a36d2bee2e105be85536900000000000000003f8000003dc933a03e729952,
  0x3f4e40423aaed99dbea4ca923f7ec56dbdc8b439800000003f7df06f3f00180d,
  0x3f4e40423aaed99dbea1f87f3f7ec56dbdc8b439800000003f7ecd8e3f001722,
  0x3f4a4a17be1f87adbea1f87f3f7ec56dbdc8b439800000003f7c40073ece6256,
  0x3f4a4a173e2242d0be889aaa3f43404f3d99ce073f2474543f77f1953f18204f,
  0x3f48ef893e212f0abe8553693f43404f3d99ce073f2474543f77f1953f18204f,
  0x3f4cdee33aaed99dbe8553693f43404f3d99ce073f2474543f7a33053f001beb,
  0xbf3e6a44be9d1efbbea4ca92bf74f766be94a234800000003d2705c93ea11969,
  0xbf3e6a44be9d1efbbea1f87fbf74f766be94a234800000003d1a3c213ea07161,
  0xbf4a25d9be1f87adbea1f87fbf74f766be94a234800000003c1fc2a93ed06749,
  0xbf48cb3abe1e73e7be855369bf43404fbd99ce073f2474543ce07c423ed22b17,
  0xbf4cbab63aaeb80fbe855369bf43404fbd99ce073f2474543c984e403f0119f0,
  0xbf4e1c153aaeb80fbe889aaabf43404fbd99ce073f2474543c984e403f0119f0,
  0x3f4a4a173e2242d0bea4ca923f7ec56d3dc8b439800000003f7b9d5e3f18d7cf,
  0x3f4a4a173e2242d0bea1f87f3f7ec56d3dc8b439800000003f7c766c3f190236,
  0x3f4e40423aaed99dbea1f87f3f7ec56d3dc8b439800000003f7ecd8e3f001722,
  0x3f48ef893e212f0abe85536900000000000000003f8000003f77f1953f18204f,
  0x3f3d48023e9d6e26be85536900000000000000003f8000003f710efe3f2f3d4b,
  0x3f3e8e823e9e7cafbe889aaa3f3bc01a3e63d70a3f2474543f710efe3f2f3d4b,
  0x3f3d48023e9d6e26be8553693f3bc01a3e63d70a3f2474543f710efe3f2f3d4b,
  0x3f48ef893e212f0abe8553693f3bc01a3e63d70a3f2474543f77f1953f18204f,
  0xbf4a25d9be1f87adbea4ca92bf7ec56dbdc8b439800000003c5602003ed0bc17,
  0xbf4a25d9be1f87adbea1f87fbf7ec56dbdc8b439800000003c1fc2a93ed06749,
  0xbf4e1c153aaeb80fbea1f87fbf7ec56dbdc8b439800000003a1fa54c3f011ea8,
  0xbf4e1c153aaeb80fbe889aaabf43404f3d99ce073f2474543c984e403f0119f0,
  0xbf4cbab63aaeb80fbe855369bf43404f3d99ce073f2474543c984e403f0119f0,
  0xbf48cb4b3e212ec7be855369bf43404f3d99ce073f2474543ce707e13f191969,
  0x3f3e8e823e9e7cafbea4ca923f74f7663e94a234800000003f74851b3f30a926,
  0x3f3e8e823e9e7cafbea1f87f3f74f7663e94a234800000003f7551b53f30fd2a,
  0x3f4a4a173e2242d0bea1f87f3f74f7663e94a234800000003f7c766c3f190236,
  0x3f10e2e33f112839be8553693f17a7873ef8ef353f2474543f56a0663f574528,
  0x3f2a5b103ee43e96be8553693f17a7873ef8ef353f2474543f65cf143f448f86,
  0x3f2b80ed3ee5c747be889aaa3f17a7873ef8ef353f2474543f65cf143f448f86,
  0x3f2a5b103ee43e96be8553693f2d07c83eb8fc503f2474543f65cf143f448f86,
  0x3f3d48023e9d6e26be8553693f2d07c83eb8fc503f2474543f710efe3f2f3d4b,
  0x3f3e8e823e9e7cafbe889aaa3f2d07c83eb8fc503f2474543f710efe3f2f3d4b,
  0xbf4e1c153aaeb80fbea4ca92bf7ec56d3dc8b439800000003b827b703f011dcd,
  0xbf4e1c153aaeb80fbea1f87fbf7ec56d3dc8b439800000003a1fa54c3f011ea8,
  0xbf4a25ea3e22428dbea1f87fbf7ec56d3dc8b439800000003c2d57bc3f1a04b0,
  0xbf4a25ea3e22428dbe889aaabf3bc01a3e63d70a3f2474543ce707e13f191969,
  0xbf48cb4b3e212ec7be855369bf3bc01a3e63d70a3f2474543ce707e13f191969,
  0xbf3d23c43e9d6e26be855369bf3bc01a3e63d70a3f2474543d64d3bf3f3027fa,
  0x3f2b80ed3ee5c747bea4ca923f61c4333ef15b57800000003f68ed5f3f46a1a5,
  0x3f2b80ed3ee5c747bea1f87f3f61c4333ef15b57800000003f69a5ca3f471c22,
  0x3f3e8e823e9e7cafbea1f87f3f61c4333ef15b57800000003f7551b53f30fd2a,
  0x3f11dcc63f12221dbea4ca923f45e3543f22680a800000003f5948453f59e94b,
  0x3f11dcc63f12221dbea1f87f3f45e3543f22680a800000003f59e54b3f5a8577,
  0x3f2b80ed3ee5c747bea1f87f3f45e3543f22680a800000003f69a5ca3f471c22,
  0x3ee3b40b3f2aa066be8553693ef8ef353f17a7873f2474543f4418613f66a63b,
  0x3f10e2e33f112839be8553693ef8ef353f17a7873f2474543f56a0663f574528,
  0x3f11dcc63f12221dbe889aaa3ef8ef353f17a7873f2474543f56a0663f574528,
  0xbf4a25ea3e22428dbea4ca92bf74f7663e94a234800000003c63821b3f19d884,
  0xbf4a25ea3e22428dbea1f87fbf74f7663e94a234800000003c2d57bc3f1a04b0,
  0xbf3e6a553e9e7c8dbea1f87fbf74f7663e94a234800000003d20e62a3f31f0a2,
  0xbf3d23c43e9d6e26be855369bf2d07c83eb8fc503f2474543d64d3bf3f3027fa,
  0xbf2a36d23ee43e75be855369bf2d07c83eb8fc503f2474543dcddce83f4562ae,
  0xbf2b5caf3ee5c726be889aaabf2d07c83eb8fc503f2474543dcddce83f4562ae,
  0xbf3d23c43e9d6e26be855369bb3e0ded3ac49ba63f8000003d64d3bf3f3027fa,
  0xbf10cb7d3f11199cbe85464ebb3e0ded3ac49ba63f8000003e2bf7ad3f57660e,
  0xbf2a36d23ee43e75be855369bb3e0ded3ac49ba63f8000003dcddce83f4562ae,
  0x3ee53cbc3f2bc632bea4ca923f22680a3f45e354800000003f462fad3f69c25d,
  0x3ee53cbc3f2bc632bea1f87f3f22680a3f45e354800000003f46ab473f6a7a31,
  0x3f11dcc63f12221dbea1f87f3f22680a3f45e354800000003f59e54b3f5a8577,
  0x38a9de8b3f4d159cbe85464e39d1b71739d1b7173f8000003f00b1033f7b38f8,
  0x3f10e2e33f112839be85536939d1b71739d1b7173f8000003f56a0663f574528,
  0x3ee3b40b3f2aa066be85536939d1b71739d1b7173f8000003f4418613f66a63b,
  0x3e9df2023f3ed3d8be889aaa3eb8fc503f2d07c83f2474543f2eed573f721b5c,
  0x3e9ce37a3f3d8d47be8553693eb8fc503f2d07c83f2474543f2eed573f721b5c,
  0x3ee3b40b3f2aa066be8553693eb8fc503f2d07c83f2474543f4418613f66a63b,
  0xbf3e6a553e9e7c8dbea4ca92bf61c4333ef15b57800000003d2da4483f319afa,
  0xbf3e6a553e9e7c8dbea1f87fbf61c4333ef15b57800000003d20e62a3f31f0a2,
  0xbf2b5caf3ee5c726bea1f87fbf61c4333ef15b57800000003daf544c3f47f738,
  0xbf2b5caf3ee5c726be889aaabf17a7873ef8ef353f2474543dcddce83f4562ae,
  0xbf2a36d23ee43e75be855369bf17a7873ef8ef353f2474543dcddce83f4562ae,
  0xbf10bea53f112828be855369bf17a7873ef8ef353f2474543e244bf53f57f8cb,
  0x3e9df2023f3ed3d8bea4ca923ef15b573f61c433800000003f305f7c3f7590e2,
  0x3e9df2023f3ed3d8bea1f87f3ef15b573f61c433800000003f30b4f23f765d6c,
  0x3ee53cbc3f2bc632bea1f87f3ef15b573f61c433800000003f46ab473f6a7a31,
  0x3e2019f43f4934cebe8553693e63d70a3f3bc01a3f2474543f17ef7c3f7933f4,
  0x3e9ce37a3f3d8d47be8553693e63d70a3f3bc01a3f2474543f2eed573f721b5c,
  0x3e9df2023f3ed3d8be889aaa3e63d70a3f3bc01a3f2474543f2eed573f721b5c,
  0xbf2b5caf3ee5c726bea4ca92bf45e3543f22680a800000003db50ebb3f477b4a,
  0xbf2b5caf3ee5c726bea1f87fbf45e3543f22680a800000003daf544c3f47f738,
  0xbf11b8993f12221dbea1f87fbf45e3543f22680a800000003e1754f33f5b3fc8,
  0xbf11b8993f12221dbe889aaabef8ef353f17a7873f2474543e244bf53f57f8cb,
  0xbf10bea53f112828be855369bef8ef353f17a7873f2474543e244bf53f57f8cb,
  0xbee36b903f2aa055be855369bef8ef353f17a7873f2474543e6ef1bb3f673355,
  0x3e212dba3f4a8f6dbea4ca923e94a2343f74f766800000003f18ae433f7ce0ca,
  0x3e212dba3f4a8f6dbea1f87f3e94a2343f74f766800000003f18da4d3f7dba1b,
  0x3e9df2023f3ed3d8bea1f87f3e94a2343f74f766800000003f30b4f23f765d6c,
  0x3990b4183f4d243abe8553693d99ce073f43404f3f2474543f00010c3f7baa04,
  0x3e2019f43f4934cebe8553693d99ce073f43404f3f2474543f17ef7c3f7933f4,
  0x3e212dba3f4a8f6dbe889aaa3d99ce073f43404f3f2474543f17ef7c3f7933f4,
  0xbf11b8993f12221dbea4ca92bf22680a3f45e354800000003e19c38b3f5aa26e,
  0xbf11b8993f12221dbea1f87fbf22680a3f45e354800000003e1754f33f5b3fc8,
  0xbee4f4413f2bc632bea1f87fbf22680a3f45e354800000003e64c76d3f6b0c99,
  0xbee36b903f2aa055be855369beb8fc503f2d07c83f2474543e6ef1bb3f673355,
  0xbe9c9b203f3d8d47be855369beb8fc503f2d07c83f2474543ea2009f3f727c9e,
  0xbe9da9a83f3ed3d8be889aaabeb8fc503f2d07c83f2474543ea2009f3f727c9e,
  0x3990b4183f4e85a9bea4ca923dc8b4393f7ec56d800000003f00051d3f7f6a1f,
  0x3990b4183f4e85a9bea1f87f3dc8b4393f7ec56d800000003f0006183f8023ea,
  0x3e212dba3f4a8f6dbea1f87f3dc8b4393f7ec56d800000003f18da4d3f7dba1b,
  0xbe209cc33f4a8f6dbe889aaabd99ce073f43404f3f2474543ed01adf3f796580,
  0xbe1f88fd3f4934cebe855369bd99ce073f43404f3f2474543ed01adf3f796580,
  0x3990b4183f4d243abe855369bd99ce073f43404f3f2474543f00010c3f7baa04,
  0xbee4f4413f2bc632bea4ca92bef15b573f61c433800000003e66af8a3f6a53ca,
  0xbee4f4413f2bc632bea1f87fbef15b573f61c433800000003e64c76d3f6b0c99,
  0xbe9da9a83f3ed3d8bea1f87fbef15b573f61c433800000003e9e83e43f76c248,
  0xbe9da9a83f3ed3d8be889aaabe63d70a3f3bc01a3f2474543ea2009f3f727c9e,
  0xbe9c9b203f3d8d47be855369be63d70a3f3bc01a3f2474543ea2009f3f727c9e,
  0xbe1f88fd3f4934cebe855369be63d70a3f3bc01a3f2474543ed01adf3f796580,
  0xbe9c9b203f3d8d47be855369ba6bedfa3b4b295f3f8000003ea2009f3f727c9e,
  0x38a9de8b3f4d159cbe85464eba6bedfa3b4b295f3f8000003f00b1033f7b38f8,
  0xbe1f88fd3f4934cebe855369ba6bedfa3b4b295f3f8000003ed01adf3f796580,
  0xbe209cc33f4a8f6dbea4ca92bdc8b4393f7ec56d800000003ece7d9a3f7d8eeb,
  0xbe209cc33f4a8f6dbea1f87fbdc8b4393f7ec56d800000003ece58e63f7ded7c,
  0x3990b4183f4e85a9bea1f87fbdc8b4393f7ec56d800000003f0006183f8023ea,
  0xbe9da9a83f3ed3d8bea4ca92be94a2343f74f766800000003e9f2b673f75f517,
  0xbe9da9a83f3ed3d8bea1f87fbe94a2343f74f766800000003e9e83e43f76c248,
  0xbe209cc33f4a8f6dbea1f87fbe94a2343f74f766800000003ece58e63f7ded7c,
  0x3e212dbabf49e093be889aaa3dc8b439bf7ec56d800000003f17cfd53c47607c,
  0x39913a50bf4dd6d0be889aaa3dc8b439bf7ec56d800000003efdde7a3b4282c7,
  0x39913a50bf4dd6d0be889aaabdc8b439bf7ec56d800000003efdde7a3b4282c7,
  0xbe209c80bf49e093be889aaabdc8b439bf7ec56d800000003ecc280b3c543d04,
  0x3e9df202bf3e24eebe889aaa3e94a234bf74f766800000003f2fc1053d24abe7,
  0x3e212dbabf49e093be889aaa3e94a234bf74f766800000003f17cfd53c47607c,
  0xbe209c80bf49e093be889aaabe94a234bf74f766800000003ecc280b3c543d04,
  0xbe9da965bf3e24ffbe889aaabe94a234bf74f766800000003e9c65623d2afbc2,
  0x3ee53cbcbf2b1759be889aaa3ef15b57bf61c433800000003f45d7453db01d19,
  0x3e9df202bf3e24eebe889aaa3ef15b57bf61c433800000003f2fc1053d24abe7,
  0xbe9da965bf3e24ffbe889aaabef15b57bf61c433800000003e9c65623d2afbc2,
  0xbee4f41fbf2b176abe889aaabef15b57bf61c433800000003e60d8cb3db4b1ee,
  0x3f11dcc6bf117332be889aaa3f22680abf45e354800000003f5939543e1753a4,
  0x3ee53cbcbf2b1759be889aaa3f22680abf45e354800000003f45d7453db01d19,
  0xbee4f41fbf2b176abe889aaabf22680abf45e354800000003e60d8cb3db4b1ee,
  0xbf11b878bf117343be889aaabf22680abf45e354800000003e13db3c3e1a3db4,
  0x3f2b80edbee46994be889aaa3f45e354bf22680a800000003f69288d3e648ba8,
  0x3f11dcc6bf117332be889aaa3f45e354bf22680a800000003f5939543e1753a4,
  0xbf11b878bf117343be889aaabf45e354bf22680a800000003e13db3c3e1a3db4,
  0xbf2b5cafbee469b6be889aaabf45e354bf22680a800000003da98f603e67f8cb,
  0x3f3e8e82be9d1edabe889aaa3f61c433bef15b57800000003f75080b3e9e5f52,
  0x3f2b80edbee46994be889aaa3f61c433bef15b57800000003f69288d3e648ba8,
  0xbf2b5cafbee469b6be889aaabf61c433bef15b57800000003da98f603e67f8cb,
  0xbf3e6a44be9d1efbbe889aaabf61c433bef15b57800000003d182a993ea046c7,
  0x3f4e40423aaed99dbe889aaa3f7ec56dbdc8b439800000003f7ef1453f000f45,
  0x3f4a4a17be1f87adbe889aaa3f7ec56dbdc8b439800000003f7c63063ece44b7,
  0x3f4a4a17be1f87adbe889aaa3f74f766be94a234800000003f7c63063ece44b7,
  0x3f3e8e82be9d1edabe889aaa3f74f766be94a234800000003f75080b3e9e5f52,
  0xbf3e6a44be9d1efbbe889aaabf74f766be94a234800000003d182a993ea046c7,
  0xbf4a25d9be1f87adbe889aaabf74f766be94a234800000003c16feb53ed04a30,
  0x3f4a4a173e2242d0be889aaa3f7ec56d3dc8b439800000003f7c997c3f19014b,
  0x3f4e40423aaed99dbe889aaa3f7ec56d3dc8b439800000003f7ef1453f000f45,
  0xbf4a25d9be1f87adbe889aaabf7ec56dbdc8b439800000003c16feb53ed04a30,
  0xbf4e1c153aaeb80fbe889aaabf7ec56dbdc8b43980000000388637bd3f01171e,
  0x3f3e8e823e9e7cafbe889aaa3f74f7663e94a234800000003f7572cd3f310300,
  0x3f4a4a173e2242d0be889aaa3f74f7663e94a234800000003f7c997c3f19014b,
  0xbf4e1c153aaeb80fbe889aaabf7ec56d3dc8b43980000000388637bd3f01171e,
  0xbf4a25ea3e22428dbe889aaabf7ec56d3dc8b439800000003c2497fa3f1a0419,
  0x3f11dcc63f12221dbe889aaa3f45e3543f22680a800000003f59fea83f5a96f6,
  0x3f2b80ed3ee5c747be889aaa3f45e3543f22680a800000003f69c38b3f472831,
  0x3f2b80ed3ee5c747be889aaa3f61c4333ef15b57800000003f69c38b3f472831,
  0x3f3e8e823e9e7cafbe889aaa3f61c4333ef15b57800000003f7572cd3f310300,
  0xbf4a25ea3e22428dbe889aaabf74f7663e94a234800000003c2497fa3f1a0419,
  0xbf3e6a553e9e7c8dbe889aaabf74f7663e94a234800000003d1ed6bb3f31f6ba,
  0x3ee53cbc3f2bc632be889aaa3f22680a3f45e354800000003f46bf443f6a9036,
  0x3f11dcc63f12221dbe889aaa3f22680a3f45e354800000003f59fea83f5a96f6,
  0xbf3e6a553e9e7c8dbe889aaabf61c4333ef15b57800000003d1ed6bb3f31f6ba,
  0xbf2b5caf3ee5c726be889aaabf61c4333ef15b57800000003dae67513f48038a,
  0x3e9df2023f3ed3d8be889aaa3ef15b573f61c433800000003f30c2c63f7676b8,
  0x3ee53cbc3f2bc632be889aaa3ef15b573f61c433800000003f46bf443f6a9036,
  0xbf2b5caf3ee5c726be889aaabf45e3543f22680a800000003dae67513f48038a,
  0xbf11b8993f12221dbe889aaabf45e3543f22680a800000003e16f04a3f5b518b,
  0x3e212dba3f4a8f6dbe889aaa3e94a2343f74f766800000003f18e1723f7dd56f,
  0x3e9df2023f3ed3d8be889aaa3e94a2343f74f766800000003f30c2c63f7676b8,
  0xbf11b8993f12221dbe889aaabf22680a3f45e354800000003e16f04a3f5b518b,
  0xbee4f4413f2bc632be889aaabf22680a3f45e354800000003e6478853f6b22c0,
  0x3990b4183f4e85a9be889aaa3dc8b4393f7ec56d800000003f00063a3f8031f0,
  0x3e212dba3f4a8f6dbe889aaa3dc8b4393f7ec56d800000003f18e1723f7dd56f,
  0xbee4f4413f2bc632be889aaabef15b573f61c433800000003e6478853f6b22c0,
  0xbe9da9a83f3ed3d8be889aaabef15b573f61c433800000003e9e68e43f76dbb6,
  0xbe209cc33f4a8f6dbe889aaabdc8b4393f7ec56d800000003ecda5123f7d5da2,
  0x3990b4183f4e85a9be889aaabdc8b4393f7ec56d800000003f00063a3f8031f0,
  0xbe9da9a83f3ed3d8be889aaabe94a2343f74f766800000003e9e68e43f76dbb6,
  0xbe209cc33f4a8f6dbe889aaabe94a2343f74f766800000003ecda5123f7d5da2,
  0x39913a50bf4dd6d0be889aaa3d99ce07bf43404f3f2474543efde8d53cb17acc,
  0x39913a50bf4dd6d0bea4ca923dc8b439bf7ec56d800000003efde0933be5de16,
  0xbe209c80bf49e093be889aaabd99ce07bf43404f3f2474543ece0c173d001e69,
  0x3e9ce37abf3cde7fbe8553693e63d70abf3bc01a3f2474543f2df5273d6b93cd,
  0x3e212dbabf49e093be889aaa3e63d70abf3bc01a3f2474543f16e8083cfa0b5f,
  0x3e9df202bf3e24eebe889aaa3e63d70abf3bc01a3f2474543f2df5273d6b93cd,
  0xbe209c80bf49e093bea4ca92bdc8b439bf7ec56d800000003ecc8e693c8aa21a,
  0x3e212dbabf49e093bea4ca923e94a234bf74f766800000003f179ecf3c84406c,
  0xbe9da965bf3e24ffbe889aaabe63d70abf3bc01a3f2474543ea010623d71a6d7,
  0x3e2019f4bf4885f5be85536900000000000000003f8000003f16e8083cfa0b5f,
  0x3e9ce37abf3cde7fbe85536900000000000000003f8000003f2df5273d6b93cd,
  0x3ee3b40bbf29f18dbe85536900000000000000003f8000003f4339083dd013a9,
  0x3ee53cbcbf2b1759be889aaa3eb8fc50bf2d07c83f2474543f4339083dd013a9,
  0x3ee3b40bbf29f18dbe8553693a51b717bb03126f3f8000003f4339083dd013a9,
  0xbe9da965bf3e24ffbea4ca92be94a234bf74f766800000003e9d2bf53d3a4e7b,
  0x3e9df202bf3e24eebea4ca923ef15b57bf61c433800000003f2f5fc43d340c41,
  0xbee4f41fbf2b176abe889aaabeb8fc50bf2d07c83f2474543e6b74583dd47cfa,
  0x38a9de8bbf4c83fdbe85464eba51b717bb03126f3f8000003efc8beb3cb606b8,
  0xbee36b6ebf29f19dbe855369ba51b717bb03126f3f8000003e6b74583dd47cfa,
  0xbe1f88b9bf488605be855369ba51b717bb03126f3f8000003ece0c173d001e69,
  0x3ee53cbcbf2b1759be889aaa3ef8ef35bf17a7873f2474543f4339083dd013a9,
  0xbee4f41fbf2b176abea4ca92bef15b57bf61c433800000003e6317273dbb9bed,
  0xbf10cb7dbf1087ecbe85464eba51b717bb03126f3f8000003e22e2333e27f5a5,
  0x3ee53cbcbf2b1759bea4ca923f22680abf45e354800000003f4549843db71088,
  0xbf11b878bf117343be889aaabef8ef35bf17a7873f2474543e2154433e27c287,
  0x3f11dcc6bf117332be889aaa3f17a787bef8ef353f2474543f55e2693e24f441,
  0xbf11b878bf117343bea4ca92bf22680abf45e354800000003e16b4c83e1d31fd,
  0x3f11dcc6bf117332bea4ca923f45e354bf22680a800000003f5884843e1a4db1,
  0xbf11b878bf117343be889aaabf17a787bef8ef353f2474543e2154433e27c287,
  0x3f3d4802be9c1073be85536900000000000000003f8000003f70a82a3ea21bc1,
  0x3f2a5b10bee2e0e3be85536900000000000000003f8000003f6539c93e6f4cb2,
  0x3f2b80edbee46994be889aaa3f2d07c8beb8fc503f2474543f6539c93e6f4cb2,
  0xbf2b5cafbee469b6bea4ca92bf45e354bf22680a800000003db040c03e6a5094,
  0x3f2b80edbee46994bea4ca923f61c433bef15b57800000003f6853a03e66ea42,
  0xbf3e6a44be9d1efbbe889aaabf2d07c8beb8fc503f2474543d5e67943ea3f0fe,
  0x3f4e40423aaed99dbe889aaa3f43404fbd99ce073f2474543f7a33053f001beb,
  0x3f3e8e82be9d1edabe889aaa3f3bc01abe63d70a3f2474543f70a82a3ea21bc1,
  0xbf3e6a44be9d1efbbea4ca92bf61c433bef15b57800000003d2705c93ea11969,
  0x3f3e8e82be9d1edabea4ca923f74f766be94a234800000003f741b333e9f35c2,
  0xbf4a25d9be1f87adbe889aaabf3bc01abe63d70a3f2474543ce07c423ed22b17,
  0xbf2a36d2bee2e105be855369bb03126fba51b7173f8000003dc933a03e729952,
  0xbf10cb7dbf1087ecbe85464ebb03126fba51b7173f8000003e22e2333e27f5a5,
  0xbf4cc77e3a919ef9be85464ebb03126fba51b7173f8000003c3b16c23f0268d3,
  0xbf48cb3abe1e73e7be855369bb03126fba51b7173f8000003ce07c423ed22b17,
  0x3f4a4a17be1f87adbea4ca923f7ec56dbdc8b439800000003f7b675e3eceba8c,
  0x3f4a4a173e2242d0be889aaa3f43404f3d99ce073f246dc63f77f1953f18204f,
  0x3f4cdee33aaed99dbe8553693f43404f3d99ce073f246dc63f7a33053f001beb,
  0x3f4e40423aaed99dbe889aaa3f43404f3d99ce073f246dc63f7a33053f001beb,
  0xbf4a25d9be1f87adbea4ca92bf74f766be94a234800000003c5602003ed0bc17,
  0xbf4a25d9be1f87adbe889aaabf43404fbd99ce073f2474543ce07c423ed22b17,
  0x3f4e40423aaed99dbea4ca923f7ec56d3dc8b439800000003f7df06f3f00180d,
  0xbf4e1c153aaeb80fbea4ca92bf7ec56dbdc8b439800000003b827b703f011dcd,
  0x3f10e2e33f112839be85536900000000000000003f8000003f56a0663f574528,
  0x3f4a4a173e2242d0be889aaa3f3bc01a3e63d70a3f2474543f77f1953f18204f,
  0x3f2a5b103ee43e96be85536900000000000000003f8000003f65cf143f448f86,
  0xbf4a25ea3e22428dbe889aaabf43404f3d99ce073f2474543ce707e13f191969,
  0x3f4a4a173e2242d0bea4ca923f74f7663e94a234800000003f7b9d5e3f18d7cf,
  0x3f11dcc63f12221dbe889aaa3f17a7873ef8ef353f2474543f56a0663f574528,
  0x3f2b80ed3ee5c747be889aaa3f2d07c83eb8fc503f2474543f65cf143f448f86,
  0xbf4a25ea3e22428dbea4ca92bf7ec56d3dc8b439800000003c63821b3f19d884,
  0xbf3e6a553e9e7c8dbe889aaabf3bc01a3e63d70a3f2474543d64d3bf3f3027fa,
  0x3f3e8e823e9e7cafbea4ca923f61c4333ef15b57800000003f74851b3f30a926,
  0x3f2b80ed3ee5c747bea4ca923f45e3543f22680a800000003f68ed5f3f46a1a5,
  0x3ee53cbc3f2bc632be889aaa3ef8ef353f17a7873f2474543f4418613f66a63b,
  0xbf3e6a553e9e7c8dbea4ca92bf74f7663e94a234800000003d2da4483f319afa,
  0xbf3e6a553e9e7c8dbe889aaabf2d07c83eb8fc503f2474543d64d3bf3f3027fa,
  0xbf48cb4b3e212ec7be855369bb03126f3a51b7173f8000003ce707e13f191969,
  0xbf4cc77e3a919ef9be85464ebb03126f3a51b7173f8000003c3b16c23f0268d3,
  0xbf10cb7d3f11199cbe85464ebb03126f3a51b7173f8000003e2bf7ad3f57660e,
  0x3f11dcc63f12221dbea4ca923f22680a3f45e354800000003f5948453f59e94b,
  0xbf3d23c43e9d6e26be855369ba902de0399d49523f8000003d64d3bf3f3027fa,
  0xbf48cb4b3e212ec7be855369ba902de0399d49523f8000003ce707e13f191969,
  0xbf10cb7d3f11199cbe85464eba902de0399d49523f8000003e2bf7ad3f57660e,
  0x3e9ce37a3f3d8d47be8553693a03126f3a83126f3f8000003f2eed573f721b5c,
  0x38a9de8b3f4d159cbe85464e3a03126f3a83126f3f8000003f00b1033f7b38f8,
  0x3ee3b40b3f2aa066be8553693a03126f3a83126f3f8000003f4418613f66a63b,
  0x3ee53cbc3f2bc632be889aaa3eb8fc503f2d07c83f2474543f4418613f66a63b,
  0xbf2b5caf3ee5c726bea4ca92bf61c4333ef15b57800000003db50ebb3f477b4a,
  0x3e9ce37a3f3d8d47be8553693a6bedfa3b4b295f3f8000003f2eed573f721b5c,
  0x3e2019f43f4934cebe8553693a6bedfa3b4b295f3f8000003f17ef7c3f7933f4,
  0x38a9de8b3f4d159cbe85464e3a6bedfa3b4b295f3f8000003f00b1033f7b38f8,
  0xbf11b8993f12221dbe889aaabf17a7873ef8ef353f2474543e244bf53f57f8cb,
  0x3ee53cbc3f2bc632bea4ca923ef15b573f61c433800000003f462fad3f69c25d,
  0x3e212dba3f4a8f6dbe889aaa3e63d70a3f3bc01a3f2474543f17ef7c3f7933f4,
  0xbf11b8993f12221dbea4ca92bf45e3543f22680a800000003e19c38b3f5aa26e,
  0xbee4f4413f2bc632be889aaabef8ef353f17a7873f2474543e6ef1bb3f673355,
  0x3e9df2023f3ed3d8bea4ca923e94a2343f74f766800000003f305f7c3f7590e2,
  0x3990b4183f4e85a9be889aaa3d99ce073f43404f3f2474543f00010c3f7baa04,
  0xbee4f4413f2bc632bea4ca92bf22680a3f45e354800000003e66af8a3f6a53ca,
  0xbee4f4413f2bc632be889aaabeb8fc503f2d07c83f2474543e6ef1bb3f673355,
  0x3e212dba3f4a8f6dbea4ca923dc8b4393f7ec56d800000003f18ae433f7ce0ca,
  0x3990b4183f4e85a9be889aaabd99ce073f43404f3f2474543f00010c3f7baa04,
  0xbe9da9a83f3ed3d8bea4ca92bef15b573f61c433800000003e9f2b673f75f517,
  0xbe209cc33f4a8f6dbe889aaabe63d70a3f3bc01a3f2474543ed01adf3f796580,
  0xbee36b903f2aa055be855369ba51b7173b03126f3f8000003e6ef1bb3f673355,
  0xbf10cb7d3f11199cbe85464eba51b7173b03126f3f8000003e2bf7ad3f57660e,
  0x38a9de8b3f4d159cbe85464eba51b7173b03126f3f8000003f00b1033f7b38f8,
  0x3990b4183f4e85a9bea4ca92bdc8b4393f7ec56d800000003f00051d3f7f6a1f,
  0xbe9c9b203f3d8d47be855369ba03126f3a83126f3f8000003ea2009f3f727c9e,
  0xbee36b903f2aa055be855369ba03126f3a83126f3f8000003e6ef1bb3f673355,
  0x38a9de8b3f4d159cbe85464eba03126f3a83126f3f8000003f00b1033f7b38f8,
  0xbe209cc33f4a8f6dbea4ca92be94a2343f74f766800000003ece7d9a3f7d8eeb]

set_option maxRecDepth 100000 in
/-- the triangles of `BUMPER_CAP_INDICES`, /repo/src/vpx/mesh/bumpers/bumper_cap_mesh.rs:863-964 -/
def bumperCapTris : List Nat := [
  0x000000010002, 0x000300040005, 0x000600070008, 0x0009000a000b, 0x000c000d000e, 0x000f00100011, 0x001200130014,
  0x001500160017, 0x00180019001a, 0x0018001a0126, 0x001b001c001d, 0x001e001f0020, 0x002100220023, 0x002400250026,
  0x002700280029, 0x002a002b002c, 0x002a002c012a, 0x002d002e002f, 0x003000310032, 0x003300340035, 0x003600370038,
  0x0039003a003b, 0x003c003d003e, 0x003f00400041, 0x004200430044, 0x004500460047, 0x00480049004a, 0x0048004a0131,
  0x004b004c004d, 0x004e004f0050, 0x005100520053, 0x005400550056, 0x005400560135, 0x005700580059, 0x005a005b005c,
  0x005d005e005f, 0x006000610062, 0x006300640065, 0x006600670068, 0x0069006a006b, 0x006c006d006e, 0x006f00700071,
  0x007200730074, 0x007500760077, 0x00780079007a, 0x007b007c007d, 0x007e007f0080, 0x008100820083, 0x008400850086,
  0x008400860142, 0x008700880089, 0x008a008b008c, 0x008d008e008f, 0x009000910092, 0x009000920149, 0x009300940095,
  0x00930095014a, 0x009600970098, 0x00960098014b, 0x0099009a009b, 0x0099009b014c, 0x009c009d009e, 0x009c009e014d,
  0x009f00a000a1, 0x009f00a1014e, 0x00a200a300a4, 0x00a200a4014f, 0x00a500a600a7, 0x00a500a70150, 0x00a800a900aa,
  0x00a800aa0151, 0x00ab00ac00ad, 0x00ab00ad0152, 0x00ae00af00b0, 0x00ae00b00153, 0x00b100b200b3, 0x00b400b500b6,
  0x00b400b60157, 0x00b700b800b9, 0x00b700b90158, 0x00ba00bb00bc, 0x00ba00bc0159, 0x00bd00be00bf, 0x00bd00bf015a,
  0x00c000c100c2, 0x00c300c400c5, 0x00c300c5015e, 0x00c600c700c8, 0x00c600c8015f, 0x00c900ca00cb, 0x00cc00cd00ce,
  0x00cf00d000d1, 0x00cf00d10166, 0x00d200d300d4, 0x00d200d40167, 0x00d500d600d7, 0x00d500d70168, 0x00d800d900da,
  0x00d800da0169, 0x00db00dc00dd, 0x00de00df00e0, 0x00de00e0019a, 0x00e100e200e3, 0x00e100e301a7, 0x00e400e500e6,
  0x00e400e601ab, 0x00e700e800e9, 0x00ea00eb00ec, 0x00ea00ec01af, 0x00ed00ee00ef, 0x00f000f100f2, 0x00f000f201b3,
  0x00f300f400f5, 0x00f600f700f8, 0x00f600f801b7, 0x00f900fa00fb, 0x00f900fb01b8, 0x00fc00fd00fe, 0x00fc00fe01b9,
  0x00ff01000101, 0x00ff010101ba, 0x010201030104, 0x0102010401bb, 0x010501060107, 0x0105010701bc, 0x01080109010a,
  0x010b010c010d, 0x010e010f0110, 0x010e011001c3, 0x011101120113, 0x0111011301c4, 0x011401150116, 0x0114011601c5,
  0x011701180119, 0x0117011901c6, 0x011a011b011c, 0x011a011c01c7, 0x011d011e011f, 0x011d011f01c8, 0x012001210122,
  0x0120012201c9, 0x012301240125, 0x012701280129, 0x012b012c012d, 0x012e012f0130, 0x013201330134, 0x013601370138,
  0x0139013a013b, 0x013c013d013e, 0x013f01400141, 0x014301440145, 0x014601470148, 0x015401550156, 0x015b015c015d,
  0x016001610162, 0x016301640165, 0x016a016b016c, 0x016d016e016f, 0x017001710172, 0x017301740175, 0x017601770178,
  0x0179017a017b, 0x017c017d017e, 0x017f01800181, 0x018201830184, 0x018501860187, 0x01880189018a, 0x018b018c018d,
  0x018e018f0190, 0x019101920193, 0x019401950196, 0x019701980199, 0x019b019c019d, 0x019e019f01a0, 0x01a101a201a3,
  0x01a401a501a6, 0x01a801a901aa, 0x01ac01ad01ae, 0x01b001b101b2, 0x01b401b501b6, 0x01bd01be01bf, 0x01c001c101c2,
  0x01ca01cb01cc, 0x01ca01cc02e1, 0x01cd01ce01cf, 0x01cd01cf02e2, 0x01ce02a201cf, 0x01ce02a102a2, 0x01d001d101d2,
  0x01d001d202e3, 0x01d301d401d5, 0x01d601d701d8, 0x01d601d802e7, 0x01d702a401d8, 0x01d702a302a4, 0x01d901da01db,
  0x01d901db02e8, 0x01da02a601db, 0x01da02a502a6, 0x01dc01dd01de, 0x01dc01de02e9, 0x01df01e001e1, 0x02ee01df01e1,
  0x01e201e301e4, 0x01e201e402ed, 0x01e501e601e7, 0x01e501e702ef, 0x01e602a801e7, 0x01e602a702a8, 0x01e801e901ea,
  0x01e801ea02f0, 0x01e902aa01ea, 0x01e902a902aa, 0x01eb01ec01ed, 0x01eb01ed02f1, 0x01ee01ef01f0, 0x01f101f201f3,
  0x01f101f302f5, 0x01f401f501f6, 0x01f401f602f6, 0x01f502ac01f6, 0x01f502ab02ac, 0x01f701f801f9, 0x01f701f902f8,
  0x02ad01f901f8, 0x02ad02ae01f9, 0x01fa01fb01fc, 0x01fa01fc02f9, 0x01fd01fe01ff, 0x01fd01ff02fa, 0x020002010202,
  0x0200020202fb, 0x020102b00202, 0x020102af02b0, 0x020302040205, 0x0203020502fc, 0x020402b20205, 0x020402b102b2,
  0x020602070208, 0x0206020802fd, 0x0209020a020b, 0x02fe020a0209, 0x02fe020902ff, 0x020b0239023a, 0x020b023a0315,
  0x023a03170315, 0x020c020d020e, 0x020c020e0300, 0x020f02100211, 0x020f02110301, 0x02b302110210, 0x02b302b40211,
  0x021202130214, 0x021202140302, 0x021302b60214, 0x021302b502b6, 0x021502160217, 0x021502170303, 0x02180219021a,
  0x0218021a0304, 0x021b021c021d, 0x021b021d0305, 0x021e021f0220, 0x021e02200306, 0x021f02b80220, 0x021f02b702b8,
  0x022102220223, 0x022102230307, 0x02bb02230222, 0x02bb02bc0223, 0x022402250226, 0x022402260308, 0x022702280229,
  0x022a022b022c, 0x022a022c030d, 0x02b9022c022b, 0x02b902ba022c, 0x022d022e022f, 0x023002310232, 0x023002320311,
  0x023102be0232, 0x023102bd02be, 0x023302340235, 0x023302350312, 0x023602370238, 0x023602380313, 0x023702c00238,
  0x023702bf02c0, 0x023b023c023d, 0x023b023d0316, 0x023e023f0240, 0x023e02400314, 0x023f02c20240, 0x023f02c102c2,
  0x024102420243, 0x024102430318, 0x024402450246, 0x024402460319, 0x024502c40246, 0x024502c302c4, 0x024702480249,
  0x02470249031a, 0x024a024b024c, 0x024a024c031b, 0x024d024e024f, 0x024d024f031c, 0x024e02c6024f, 0x024e02c502c6,
  0x025002510252, 0x02500252031d, 0x025302540255, 0x02530255031e, 0x025402ca0255, 0x025402c902ca, 0x025602570258,
  0x02560258031f, 0x02c702580257, 0x02c702c80258, 0x0259025a025b, 0x0259025b0320, 0x025c025d025e, 0x025c025e0321,
  0x025d02cc025e, 0x025d02cb02cc, 0x025f02600261, 0x025f02610322, 0x026202630264, 0x026502660267, 0x026502670326,
  0x026602ce0267, 0x026602cd02ce, 0x02680269026a, 0x026b026c026d, 0x026b026d032d, 0x026e026f0270, 0x026e0270032e,
  0x026f02d00270, 0x026f02cf02d0, 0x027102720273, 0x027102730332, 0x027402750276, 0x027402760333, 0x027502d20276,
  0x027502d102d2, 0x027702780279, 0x027702790334, 0x027a027b027c, 0x027a027c0335, 0x027b02d4027c, 0x027b02d302d4,
  0x027d027e027f, 0x027d027f0336, 0x028002810282, 0x028002820337, 0x028102d60282, 0x028102d502d6, 0x028302840285,
  0x028302850338, 0x028602870288, 0x028602880339, 0x028702d80288, 0x028702d702d8, 0x0289028a028b, 0x0289028b033a,
  0x028c028d028e, 0x028c028e033b, 0x028d02da028e, 0x028d02d902da, 0x028f02900291, 0x028f0291033c, 0x029202930294,
  0x02920294033d, 0x029302dc0294, 0x029302db02dc, 0x029502960297, 0x02950297033e, 0x02980299029a, 0x029b029c029d,
  0x029b029d0342, 0x029c02de029d, 0x029c02dd02de, 0x029e029f02a0, 0x029e02a00346, 0x029f02e002a0, 0x029f02df02e0,
  0x02e402e502e6, 0x02ea02eb02ec, 0x02f202f302f4, 0x02f202f702f3, 0x0309030a030b, 0x030b030c0309, 0x030e030f0310,
  0x032303240325, 0x032703280329, 0x032a032b032c, 0x032f03300331, 0x033f03400341, 0x034303440345]

/-- the table of /repo/src/vpx/mesh/bumpers/bumper_cap_mesh.rs -/
def bumperCapTable : MeshTable := unpackTable bumperCapVertices bumperCapTris

set_option maxRecDepth 100000 in
/-- the vertices of `BUMPER_RING_MESH`, /repo/src/vpx/mesh/bumpers/bumper_ring_mesh.rs:18-500 -/
def bumperRingVertices : List Nat := [
  0x3c0754f33f1962393f0b42893d507c85bf48e8a7bf1e21963f66ae193f7a5d9e,
  0x3c0754f33f196239bdf9e3863d6978d5bf7f9724800000003f0b214f3f7ee9ee,
  0x3d9c58253f1f29a2bdf9e3863ec432cabf4e425b3ee745393f0ae3933f7a1e93,
  0x3dab47c73f20fadf3f0b42893f333333bf0de69bbee68db93f6823963f753c8a,
  0x3bf28c7a3f09a32b3f0b4289bbdb8bacbf50b0f2bf143fe63f696b233f7c32fd,
  0x3ddd2b6f3f323ab0bdf9e3863f7f4880bd99999abb3e0ded3f0a9b4a3f74f323,
  0x3db328313f0ed30f3f0b4289bc985f07bf253f7dbf4374bc3f6b00bd3f786349,
  0x3ddd2bf53f323ab03f0b42893f4ebee0bd236e2fbf16a1623f6953053f70332f,
  0x3dc392e23f3edd16bdf9e3863f7ff972bc70d845800000003f0a69163f71b670,
  0x3e16377a3f1d91043f0b42893f3048173c83126fbf39930c3f6c2fe83f74b4f2,
  0x3db328313f0ed30f3f19d65abca8c155bf5240b8bf11f2133f6faf753f7a4181,
  0x3bf28c7a3f09a32b3f19d65abc3ac711bf50ff97bf13d07d3f6e541e3f7de929,
  0x3be07e5a3eff1f9b3f19d65a3c1374bcbf567a10bf0bb98c3f6ffb593f7ef6b6,
  0x3e16377a3f1d91043f19d65a3f52f8383b03126fbf1106253f713cde3f76aeb0,
  0x3dc392e23f3edd163f0b42893f511340bc449ba6bf13afb83f69f0803f6c533b,
  0x3d75d13d3f48357abdf9e3863c5844d03f7ff972b951b7173f0a32d33f6e788e,
  0x3e2d3f183f31e9e23f0b42893f50d845bc3ac711bf1404ea3f6d45743f70db9c,
  0x3e2d3f183f31e9e23f19d65a3f509d493d676c8bbf13afb83f7345d03f72e2b9,
  0x3d75d13d3f48357a3f0b4289bd46a7f03f4e48e9bf1717593f6a46063f684cad,
  0x3c345ae63f4bc137bdf9e386bc91d14e3f7ff2e5bbbac7113f09f82b3f6b39f3,
  0x3e187fcc3f4669f03f0b42893f50c49cbbe8a71ebf1425af3f6e16943f6caaeb,
  0xbca480e93f4b4b623f0b4289bdfa786c3f4da512bf1532613f69f3d83f61d799,
  0xbd6983513f460297bdf9e386bf43d07d3ee40b78beee3bcd3f099d563f66afde,
  0x3dbb0f6b3f5592da3f0b42893c8db8bb3f509d49bf144d013f6e6a443f68448d,
  0x3e187fcc3f4669f03f19d65a3f57b4a23c9374bcbf09c77a3f74ff113f6e07b3,
  0x3dbb0f6b3f5592da3f19d65abd6ecbfb3f60d845bef2f1aa3f75a2b63f684c59,
  0x3c42480f3f5b5bf73f0b42893d88ce703f4d2f1bbf181d7e3f6e379b3f63edd9,
  0x3c42480f3f5b5bf73f19d65a3bd4fdf43f717c1cbea9e1b13f7420a33f63b3d9,
  0xbdb5e5b03f3859863f0b4289bf456042bd7f2e49bf2240b83f67f3493f59f41b,
  0xbdb5a9653f32ee95bdf9e386bf7f5c293d90624ebb1d49523f092b6f3f6181e0,
  0xbd8bb7743f5624bc3f0b4289bddb573f3f645a1dbee0ded33f6ddb443f5fb331,
  0xbd9c10d83f264c40bdf9e386bf7ff2e53caa64c33a03126f3f08dea03f5e48c7,
  0xbe027f1b3f4766d83f0b4289bf653f7d3e3c84b6becf76603f6cd9623f5b44f6,
  0xbd8bb7743f5624bc3f19d65a3e2b020c3f5c2268bef6f0073f7532513f5ebca5,
  0xbe027f1b3f4766d83f19d65abf5254613c2dab9fbf11eb853f73bcf53f58dd2f,
  0xbd7deb533f20c1fd3f0b4289bf2f4880bf0e7d56bef0e5603f6547173f5322af,
  0xbd26cd293f1cf3cbbdf9e386bb1d4952bf800000bb5ed2893f088e583f5b11f9,
  0xbe1986fd3f330dfa3f0b4289bf4f0d84bd06c227bf1652bd3f6b57b43f571c54,
  0xbe1986fd3f330dfa3f19d65abf50cb29bd68a71ebf136e2f3f712fc23f541e47,
  0x3c0754f33f196239bdf9e386bc656042bf7ff972000000003f0835483f57980f,
  0x3c0754f33f1962393f0b4289bd889a02bf495e9ebf1d21ff3f6320863f4e7ea6,
  0xbe04c76d3f1e8deb3f0b4289bf2b089a3ccd9e84bf3e63203f699d133f5357e6,
  0xbd939eae3f0f65023f0b4289bc95182bbf50902ebf1460aa3f67d2fa3f4fce53,
  0x3bf28c7a3f09a32b3f0b4289bc3ac711bf50ff97bf13d07d3f65a4483f4c29e1,
  0x3bf28c7a3f09a32b3f19d65abb1d4952bf530be1bf10e5603f6a84163f49a2b6,
  0xbe04c76d3f1e8deb3f19d65abf5282413cb6ae7dbf118fc53f6e86943f509731,
  0xbd939eae3f0f65023f19d65aba1d4952bf5295eabf118fc53f6c6cfd3f4d2e51,
  0x3be07e5a3eff1f9b3f19d65abc7f9724bf552bd4bf0db22d3f6c10f93f486078,
  0xbdb911493f069ae53f19d65abcf9db23bf5f7660bef958103f6ddbdb3f4c534c,
  0x3bdb61bb3effa11b3f1dd8c73e638866bf52f1aa3f0566cf3f6d77643f47dd98,
  0xbe24a8c13f1925ab3f19d65abf5e2824bcb020c5befe353f3f6fc45d3f4f953e,
  0xbdb959a33f07d0393f1e39f7bf15bc02bd5773193f4f34d73f6f14233f4bc17b,
  0xbe3e0a853f323a193f19d65abf5d7732bcb1c433bf004ea53f728e2e3f52e8b0,
  0xbe225d8d3f1a36c13f1e3bbcbf4e28243e5c0ebf3f0d70a43f70e1933f4ecd9f,
  0xbe41f8e43f49dbec3f19fa44bec16f003d20902ebf6cd35b3f76d04e3f55e753,
  0xbe3b25b33f335be63f1e1901bf312d773e9fbe773f26a1623f7398fa3f51bb6b,
  0xbd7243133f1fa5f43f1eb24a3d3b2fecbe1758e23f7ced913f7330733f4b25e5,
  0x3c0754f33f1962393f201e043e1b8bacbe8944673f7388663f72df503f48065b,
  0xbd87a7ca3f21846f3f2189bebf5758e2bf0048173e502de03f742e123f4b162b,
  0x3c345ae63f4bc1373f2189bebe6147ae3f367a103f2a786c3f7b95813f4b34b5,
  0xbdb5a9653f32ee953f1eb24abf513405bd3573eb3f1318fc3f75a88b3f4dd053,
  0xbdb5a9653f32ee953f2189bebf4ab9f5bdb404ea3f1ab3683f7612c73f4ced91,
  0xbe422b393f480f563f1d0603bf089a02be9afb7f3f4a29c73f7715c63f548238,
  0xbe319a413f435f0b3f1eb24abf315b573d926e983f37ae143f769d623f5327ee,
  0xbd9940793f3f78ee3f1eb24abf491687bd96bb993f1d4fdf3f7807253f4e3eaf,
  0xbd6983513f4602973f2189bebf4ec56d3e9ff2e53f00068e3f7922fb3f4ce1a4,
  0x3c345ae63f4bc1373f1eb24abc7f97243f6346dc3eeb78033f7c42a63f4c0bbb,
  0xbd1d0fa63f488f863f1eb24a3e9ae1483f43f7cf3f1161e53f7a5f853f4d8d7a,
  0x3c399d453f513b9f3f1ff024bd257a78bf31a36e3f3809d53f7d11063f4ca6ca,
  0xbd8cbc063f4f78ff3f1fd827bcbb98c8bf3adaba3f2ee6323f7aafcd3f4f5c3a,
  0xbe3e48a63f4ac6ac3f1fc5483e1ab9f5bf2b573f3f3a3d713f77e88a3f53dec6,
  0xbe539e6b3f5120193f2126c83e044d01bf10ded33f5075f73f7930cf3f5418c6,
  0xbe5a187a3f4d141a3f1ce2e3be03e426bf2f6944bf3786c23f784a943f5534ad,
  0xbe5719723f53eab33f1784babd37e910bf1ff972bf4786c23f78e4323f56fb5d,
  0xbdce379b3f5b35e33f1784babd6bedfabf237b4abf446dc63f7784343f5d5fbb,
  0x3c45197a3f5e9d953f1784babc03126fbf13c9efbf5106253f759f4d3f63a0b6,
  0x3e725d8d3f56323c3f1784babdc74539bf2c56d6bf3bac713f7a98673f6ed752,
  0x3e52ce893f43ad193f19d6e03f5a29c7be6d0e56bef048173f775efa3f70d994,
  0x3e5628893f46f4173f1d438d3f10cb29bf51ff2ebdae48e93f78d1203f71898b,
  0x3e7111273f4d99ed3f1c473dbc9c779abf3779a7bf3275253f79ec813f705db7,
  0x3e51ad213f30d4dc3f19d65a3f60d1b7bd3295eabef3dd983f74c62e3f73d556,
  0x3e729c783f4ece683f20f1b23c6f34d7bf39ce073f3013a93f7ad55a3f7148bb,
  0x3e5c343b3f49a9543f1fc255bcbfb15bbf2412063f446dc63f79cfab3f71ac15,
  0x3e4733663f433a263f1eb24a3f2eb1c43caa64c33f3b0f283f78d6d43f72c5e3,
  0x3e4cc6c53f30f1803f1e4a5a3ede425b3e831f8a3f5d1b713f7607a33f74e704,
  0x3e3581493f17f0563f19d65a3f5ee632bd48b439befa85883f7293d13f7777d1,
  0x3e3356543f1905f33f1e3bbc3ecfc5053e519ce03f6404ea3f73c5483f780ef1,
  0x3dd6abde3f05e82d3f19d65aba1d4952bf5b5dccbf03f1413f712fc23f7ae02a,
  0x3dd395c43f069c023f1e2c88bca30553bf69930c3ed14e3c3f7267513f7b4678,
  0x3be5ffa43effb54a3f1dda49be56d5d0bf6773193ebeab363f71653d3f7f4507,
  0x3dc392e23f3edd163f1eb24a3f52339c3c016f003f121ff33f7ab7993f778db5,
  0x3dbfc0093f4f85f93f1ff3173c42f838bf41d14e3f27381d3f7d0b523f75fd69,
  0x3ddd2bf53f323ab03f1eb24a3f5154cabce147ae3f1333333f78929b3f784535,
  0x3dab47c73f20fadf3f1eb24a3cc2f838bda5119d3f7f1aa03f76b8fa3f7ad71f,
  0x3c0754f33f1962393f1eb24a3cc22681bf51cac13f1295ea3f76468d3f7e86c6,
  0x3ddd2bf53f323ab03f2189be3f516f00bd2ee6323f12ca583f79131f3f790f62,
  0x3d9c58253f1f29a23f2189be3dc0b780bf2f27bb3f3923a33f7779423f7b8f9b,
  0x3c0754f33f1962393f2189be3e762b6bbf37dbf53f272b023f775ec83f7e7c8d,
  0x3dc392e23f3edd163f2189be3f464c30bc9d49523f21d7dc3f7ace033f786823,
  0x3d75d13d3f48357a3f2189be3c5844d03f50e5603f13f7cf3f7caa003f78b7b3,
  0x3c345ae63f4bc1373f2189be3c6bedfa3f50c49c3f1418933f7e6b1e3f79b0bc,
  0x3d75d13d3f48357a3f1eb24aba3780343f5d97f63f002de03f7cf7db3f77cddd,
  0x3c345ae63f4bc1373f1eb24a3c6075f73f64538f3ee76c8b3f7ed7d83f78eb89,
  0x3c399d453f513b9f3f1ff0243aebedfabf2f00693f3ad42c3f7f7da63f78474e,
  0xbc45c572bf5b5fe53f0b42893cc710cbbf4fc505bf1573eb3d957cd43f633ffb,
  0x3d8b46bbbf5628dd3f0b4289bb727bb3bf50902ebf1474543d93dd983f679629,
  0x3d8b46bbbf5628dd3f19d65abe0ef34dbf5d35a8bef78d503d3204293f676263,
  0x3e024745bf476ac63f19d65a3f4ad42c3d597f63bf1b98c83d3a72223f6d4717,
  0xbc45c572bf5b5fe53f19d65abd23d70abf6f1aa0beb5c28f3d4d19593f629da6,
  0x3e4b1a2abf4ddf443f18b6fa3cb5dcc63f3e7d56bf2aee633cebc6223f6eee95,
  0x3e024745bf476ac63f0b42893f503afbbcbedfa4bf14d0143d96188b3f6c0714,
  0x3e5a58f7bf57d2203f1784babd86f6943f2bc6a8bf3d0e563cba6ce33f6e07c4,
  0x3d836d22bf44194c3f0b42893ee12d773d1652bdbf65b5743db64f983f6a11fd,
  0xbc48c0cfbf5ea1943f1784ba3c95e9e23f1cd9e8bf4a43fe3d3553693f6279cc,
  0x3e493c04bf4b7ed43f1cfa273f2831273cf1a9fc3f40d8453ce0a84c3f707e8d,
  0x3e5d60e9bf4eb7023f1c9ff9bd2fb7e93f35d639bf33dd983cc894c43f6febd1,
  0x3e5b3c82bf5008203f20d499ba9d49523f3154ca3f38a71e3cb07f243f70cbd1,
  0x3e3c8430bf4b40813f1fc600bdc2c3ca3f1e21963f47dbf53cd31fcd3f716b12,
  0xbdff1a5dbf5a6bd73f1784ba3c3ac7113f50ff97bf13d07d3d1c1b543f5c58ac,
  0xbe6eaf68bf52595c3f1784ba3d8d1b713f2c432dbf3c8b443d0afc483f5644c8,
  0x3e3cd24ebf448a7a3f19d65a3f5e1b093c343958befe83e43d1328313f704391,
  0x3e3753a4bf44100e3f1e6be83f002752bebc36113f48a0903cfc7c523f720c8d,
  0x3e194ee4bf3311e83f19d65a3f521965bc3c6a7fbf1240b83d55c3163f72617c,
  0x3e3af31bbf335f1c3f1e18ce3ee24dd3be67ef9e3f5e2eb23d295c853f7453e3,
  0x3e3dd7edbf323e293f19d65a3f5e3bcd3b2a64c3befe1b093d3cf7013f7357a3,
  0x3e222bbfbf1a3a7e3f1e3bef3e6c3c9f3f4147ae3f1d21ff3d4c84733f77b060,
  0x3db547e0bf32d9e03f1eb24a3f519ce0bbebedfa3f12f1aa3cfbd6a63f77dec6,
  0x3d1c4c9dbf487ad13f1eb24abe4b923abf5566cf3f03eab33c4686623f774a45,
  0x3d914877bf50068e3f1ff0ed3caf4f0e3f3a85883f2f41f23c4643463f7541a7,
  0xbc3c48f1bf50bf903f1fd48d3d25e3543f3205bc3f37ae143a94a2ba3f77c7c5,
  0xbc37cbb4bf4bb2573f1eb24a3c809d49bf631f8a3eec154d3b7041463f78791c,
  0x3d98def4bf3f65883f1eb24a3f41a36e3e0467383f2425af3cb2873c3f7704de,
  0x3d68fd1abf45ea683f2189be3f1f559bbe98ef353f39374c3c8746453f782f94,
  0xbc37c782bf4bb2683f2189be3e62b6aebf3673823f2a64c33bbc1f003f796f97,
  0x3db547e0bf32d9e03f2189be3f519653bbd4fdf43f12fec53ce9a2c63f78ae86,
  0x3d873cd5bf216e693f2189be3f5c84b63eec2f833e59999a3d0e06533f7ad95a,
  0xbc0ac5c1bf1953583f201e04be1a9fbe3e8951833f7395813d1aad603f7e22b4,
  0x3d7168f9bf1f90433f1eb24a3eb119ce3f48b4393f03f7cf3d1e0b4e3f7af4e0,
  0xbbe25c81beffa8b53f1dd8e8be6388663f52eb1c3f0573eb3d70cbb03f7f2d3c,
  0x3db8f25abf07d3f63f1e3a2abe15cfab3ecd91683f6773193d612e843f7b05fb,
  0x3e2476b0bf1929993f19d65a3f535a863ab78034bf1075f73d604af93f77191e,
  0x3db8ad25bf069ed43f19d65a3d81d7dc3f6710cbbeda02753d7625203f7aa78b,
  0xbbe789e7beff27bb3f19d65a3c7aacda3f552bd4bf0db22d3d84449e3f7ee49f,
  0xbbf98740bf09a72a3f19d65a3b96bb993f528f5cbf119ce03d92502f3f7de27a,
  0x3e048f97bf1e91ea3f19d65a3f528241bcb78034bf1196533d76a4013f764d1a,
  0x3d932f01bf0f69013f19d65abb03126f3f52f838bf1106253d879ee03f7a088d,
  0x3d932f01bf0f69013f0b42893cbedfa43f503afbbf14d0143dafa7223f78241c,
  0xbbf98740bf09a72a3f0b42893c535a863f50e560bf13f1413dbc89f43f7c201d,
  0x3e048f97bf1e91ea3f0b42893f50902ebb727bb3bf1474543da5ce5b3f7457c1,
  0x3e194ee4bf3311e83f0b42893f50cb29bc3ac711bf1418933d9cc8583f70588a,
  0x3d7168f9bf1f90433f0b42893d6282413e15182bbf7ce0763dc8bb0a3f7598bf,
  0xbc0ac5c1bf1953583f0b42893d3edfa43f4c5048bf19ce073dd37b8d3f7a3209,
  0xbc0ac5c1bf195358bdf9e3863e0a8c153f7da512bbadab9f3eebd8173f7e8262,
  0x3d873cd5bf216e69bdf9e3863f4e4f763ec425af3ee71de73eec5dc83f795747,
  0x3db547e0bf32d9e03f0b42893f4b851f3a378034bf1b4a233dbd188f3f6fab43,
  0x3db547e0bf32d9e0bdf9e3863f7ff2e53c9d49523b727bb33eece0333f74ced5,
  0x3d98def4bf3f6599bdf9e3863f7fcb92bd229c78bb16bb993eed48243f718fb4,
  0x3c6de54bbf4b5105bdf9e386bdf80347bf7e1b09bc3780343eedf7833f6cac6d,
  0xbc37cbb4bf4bb2573f0b42893cbfb15bbf4d0e56bf1923a33db8e4323f638f26,
  0xbd769446bf4820d5bdf9e3863d769446bf7f8a09bc016f003eeeb6bf3f67cfe6,
  0xbda6e115bf44522f3f0b4289bf260aa6bf1c432dbee8ce703dbd273d3f5d78e6,
  0xbdc3f3e0bf3ec9c1bdf9e386bf7ff2e53c91d14ebb5ed2893eef43633f64915c,
  0xbdbb7f17bf5596c83f0b4289bcc56d5dbf502de0bf14dd2f3d99b1b83f5ed44e,
  0xbddd8d7abf3225fa3f0b4289bf4bcd36bccb295fbf1ac7113dcab2e13f57d1dd,
  0xbddd8c6dbf3225d9bdf9e386bf7f48803d99ce07bb3e0ded3eefd7a13f6154b9,
  0xbe18b7a2bf466ddf3f0b4289bf509d493b96bb99bf1460aa3da104923f5a9814,
  0xbdbb7f17bf5596c83f19d65a3c8b4396bf197247bf4ce0763d3f3beb3f5dca8e,
  0xbdaba387bf20e5823f0b4289bf3a7efa3f01d14ebeebd3c33dda29c73f5308dd,
  0xbd9cb253bf1f1487bdf9e386bec418933f4e4f763ee71de73ef0d4563f5c2a13,
  0xbe2d7775bf31edf23f0b4289bf50cb293c3ac711bf1418933dac70003f5699c8,
  0xbe18b7a2bf466ddf3f19d65abf56872b3b3e0dedbf0bac713d57dae83f582f83,
  0xbe5aaeb0bf48e1503f191559be973eab3f3eb1c4bf192a303d26783a3f55947d,
  0xbe166fd6bf1d95253f0b4289bf50346e3cbedfa4bf14d0143db9a49c3f52f9ec,
  0xbc0ac5c1bf1953583f0b4289bd5773193f488659bf1e978d3debcc6c3f4e30ec,
  0xbc0ac5c1bf195358bdf9e386bd69e1b13f7f9724000000003ef1c90c3f576124,
  0xbdb397ddbf0ed70e3f0b42893ccb295f3f24a8c1bf43eab33dc765343f4f860a,
  0xbbf98740bf09a72a3f0b42893bebedfa3f50b780bf1432ca3dd860133f4bfea0,
  0xbe2d7775bf31edf23f19d65abf5247453c3ac711bf11ff2e3d7f3cf73f53ae8a,
  0xbe166fd6bf1d95253f19d65abf528f5c3a1d4952bf1196533d944e513f504589,
  0xbdb397ddbf0ed70e3f19d65a3cb780343f528241bf1196533da4bec63f4cfe58,
  0xbbf98740bf09a72a3f19d65a3c3ac7113f50ff97bf13c9ef3db3aabd3f4998d0,
  0xbbe789e7beff27bb3f19d65abc11d14e3f56872bbf0ba5e33da7e0f03f4852e7,
  0xbdd71088bf05ec4e3f19d65a3b51b7173f5a0f91bf061e4f3d99ad003f4c2a45,
  0xbe35b35bbf17f4563f19d65abf6027523d5844d0bef5cfab3d8ac1903f4f4ca1,
  0xbdd3faf4bf06a0233f1e2ccb3e51eb853f3a99313f27381d3d9098d43f4b9874,
  0xbbecfa6abeffbedb3f1dda6a3e56f0073f6758e23ebf14123d9d1dcd3f47d1ee,
  0xbe51dfb9bf30d8ed3f19d65abf5ff2e53d39f55abef6f0073d6a411c3f528672,
  0xbe338716bf1909293f1e3befbf59a027be1e353f3f00ded33d8221c93f4e8ad7,
  0xbdaba301bf20e5823f1eb24abef66cf4be3c84b63f5b645a3d5cebff3f4b661f,
  0xbc0ac5c1bf1953583f1eb24abcc2f8383f51cac13f1295ea3d6c00da3f47da40,
  0xbd9cb1cdbf1f14773f2189bebdcf76603f5a30553f035a863d52c4933f4a97d0,
  0xbc0ac190bf1953693f2189bebe6d42c43f36b50b3f293dd93d5aae6d3f47be66,
  0xbddd8d7abf3225fa3f2189bebf526e983d1ad42c3f117c1c3d34666f3f4ccc47,
  0xbddd8d7abf3225fa3f1eb24abf4fc505ba51b7173f158e223d3a72223f4da48b,
  0xbdaf91a3bf438fef3f2189bebf402de0bf2645a23df79a6b3d0cc9a73f4cfbb9,
  0xbc37cbb4bf4bb2573f2189bebcd5cfabbf509d493f1439583cc819093f4b8f7a,
  0xbdc3f3e0bf3ec9c13f1eb24abf45182b3e28c1553f1dd2f23d171c113f4e1188,
  0xbe4cf91abf30f4e83f1e4a6bbf2a8588be9844d03f2f212d3d5960fa3f5144ed,
  0xbd769446bf4820c53f1eb24a3ec594afbe11b7173f6958103cebacf73f4d74f7,
  0xbc37cbb4bf4bb2573f1eb24abc5ed289bf6432ca3ee7ef9e3cb8c5433f4c341a,
  0xbdbec0b5bf4f507f3f1fe77dbb5844d03f3a3d713f2fa4403ce145953f4f22af,
  0xbc3c48f1bf50bf903f1fd48dbaf9096c3f2f4f0e3f3a8c153ca4ca4f3f4cab3f,
  0xbe476684bf434e233f1eb24abf2c985fbd0b43963f3ce0763d2849cb3f52d4e5,
  0xbe558b82bf49df223f1fbd493dbd07c83f1ab3683f4a99313d165b213f5378bc,
  0xbe56ff3bbf4778dd3f1d331abee84b5e3e9d566d3f5624dd3d22e2b93f540d1b,
  0xbe70ce4fbf4c5ccd3f1c4c59bd23d70a3f410625bf27dbf53d1100a43f54dff0,
  0xbe72d491bf4ed1073f20f4a53cee63203f2b645a3f3e00d23d020f6f3f53d7d4,
  0xbf5dcfbc3f640ed03f39884cbee0902e3f13fe5d3f3027523eaffa7f3e86336a,
  0xbf4d5cc83f6b393b3f3e2c23beaf69443f2141203f326e983eb1a7e33e7e425b,
  0xbf2b49383f8664023f3968c7beda5e353f0d844d3f3745393ec1ab8f3e6f8f47,
  0xbf79af193f45286b3f39884cbf5189373da8f5c33f118fc53ea681453e914e5d,
  0xbf0668f53f8d12903f3e274abec83e423f2c432d3f20be0e3ecbb6cc3e5a49c3,
  0xbf4f481b3f7050df3f358549be93dd983f5f34d7beca8c153eb6d8b23e83d428,
  0xbf0a0e733f8ee02a3f3585383c6d91683f50a3d7bf144d013ece50833e676641,
  0xbf5fc2873f4e4d4d3f3edbb63e597f63bf34e3bd3f2ccccd3ea6a1833e861544,
  0xbf2126313f8116333f3edb623ea9a027bf2923a33f2c710d3ebe90153e623b79,
  0xbefe15233f3fc06e3f16d55a3e94f0d8bee72b02bf57ef9e3ed59d133e9834f4,
  0xbeeb4dad3f93c9ac3f39884c3d25119d3f563f143f0bc01a3ed42f833e5b124d,
  0xbe6f18443f5ef3b23f16d45f3f16ae7d3d5ed289bf4e7d563eeb315d3e8e5732,
  0xbea2b0213f4b29913f1784babcae7d56bf492a30bf1e3bcd3ee41d2a3e940f67,
  0xbed7db0a3f40204f3f1784babd010625bf4a0275bf1d0e563edb9b023e97c2ec,
  0xbf04af603f318eb93f1784babd14af4fbf46b50bbf21205c3ed3bafe3e9c959e,
  0xbe5719723f53eab33f1784babcc154cabf46c227bf213a933eecfaf03e9116a9,
  0xbf2c406c3f1878c83f16d667bf25e9e23e422681bf3ccccd3ec757f73ea505f3,
  0xbf1aecf23f1f33fd3f1784babd3851ecbf4a0275bf1cd9e83eccae213ea2990f,
  0xbdce379b3f5b35e33f1784babca0902ebf47b4a2bf2013a93ef603923e8e9531,
  0xbf2e3a6d3f0999fe3f1784ba3f47e2823cb6ae7dbf1fd8ae3ec695743ea9a459,
  0xbf8335eb3f327dfe3f358559bf40ff97bc6bedfabf282a993ea48e263e9978d5,
  0xbf4de6ac3ecd25cc3f16d57cbf3b5dccbd38bac7bf2e147b3ebcccee3eb52e73,
  0xbf3e706d3ee30c673f1784ba3f46dc5d3c15182bbf2134053ec17d4a3eb17764,
  0xbf88a45d3f22e2863f39884cbf50902ebc6a4a8c3f1467383e9e8c8b3e9d7f52,
  0xbf4b7b4a3eaf36693f1784ba3f47381d3c2dab9fbf20c49c3ebd6a9c3eb9de6a,
  0xbf95d6bf3ed0fb013f358549bf415b573b9a0275bf27c84b3e98433d3eb2df2f,
  0xbf921a503efba5a03f39884cbf59999a3d0bac713f0694463e9823423eaa85ec,
  0xbf819ef13f2e12403f3e2c23bf3afb7f3cf1a9fc3f2eb1c43e9e5e893e964431,
  0xbf86c8693f0d3da73f3edc6ebee538efbee8b4393f451eb83e957d7c3e9fbdcf,
  0xbf93b9fa3eca2db63f3e2c23bf08c155be6b6ae83f5041893e917bd93eb14e7f,
  0xbf9910fd3ead39b93f39884cbf511340bca0902e3f13a92a3e9372e73eb84018,
  0xbf64de7f3df139433f16d5e0bf3c2268bd102de0bf2d5cfb3eb6559f3ecc8da0,
  0xbf55321e3e71287c3f1784ba3f4c432dbc463f14bf1a4a8c3eba71373ec2b4b7,
  0xbf9d695e3e37a7443f39884cbf44b5ddbd3e76c93f2367a13e909a243ec681aa,
  0xbf5b56653dffbdf13f1784ba3f421965bb5ed289bf26e9793eb8a00a3ecbd6e9,
  0xbf9cb8303e36d9383f358ea8bf34a234bc5ed289bf3559b43e93688c3ec6e3f8,
  0xbf5daf3a3c45974e3f1784ba3f472b02bbebedfabf20d1b73eb807bc3ed52029,
  0xbf9e6d83bd918dac3f358506bf595183bda339c1bf05c28f3e92f2953edcc8bd,
  0xbf9f0f413c8de0933f39884cbf5075f73b727bb33f1495183e8f94a73ed50c5f,
  0xbf61ce29be2fc5ce3f16d5aebf3b851fbc1374bcbf2e425b3eb736f03ee43159,
  0xbf5c2518bdcec7433f1784ba3f461134bca4a8c1bf221ff33eb8ae973ede67d7,
  0xbf9dfdbdbe1481f53f39884cbf51bda5bce8a71e3f129c783e9092ef3ee39ae1,
  0xbf56cbdabe5957473f1784ba3f455326bca3d70abf2305533eba8bd23ee786e4,
  0xbf998983be9b67c33f358ea8bf28bac73d102de0bf4055323e962c993ef12557,
  0xbf4ebfcbbec9ba3d3f16d55abf3c5d643bef34d7bf2d5cfb3ebd8cd23ef65c4f,
  0xbf4dd94dbea3d35f3f1784ba3f472b02bcfd21ffbf20a3d73ebd85e03ef05f4a,
  0xbf8ee6a7bf0a01cd3f358538bf472b023c7765febf20c49c3e9e25c83f02c062,
  0xbf9a3750be9c18723f39884cbf3e76c93d2161e53f2ac0833e936fc13ef1df98,
  0xbf906eebbf06b92c3f3968a5bf7f2e493da29c783b727bb33e9af1883f02b346,
  0xbf4188f4bed85e5f3f1784ba3f4617c2bd02a993bf21f2133ec19a413ef8c5ca,
  0xbf2daad6bf16dc903f16d5d0bf24dd2fbe5aee63bf3c08313ec862f63f0320da,
  0xbf3200b0bf04b30b3f1784ba3f48ce70bd285879bf1e703b3ec6b6393f004c7b,
  0xbf705858bf4f46993f358538bf0e2196bf479a6bbe9446743eade0503f0e97af,
  0xbf7f179cbf3e21b83f39885dbf4b4396bc985f073f1b923a3ea6889c3f0c7ef1,
  0xbf1f4f94bf1ad4d43f1784babce219653f491d15bf1e3bcd3eccd4453f03d242,
  0xbf6417cabf5dcc323f39885dbefb15b5bf049ba63f336e2f3eb011b23f12120e,
  0xbf00ab3fbf3eb3893f16d6993d10ff97bf3bedfabf2d9e843ed6fb8f3f096e37,
  0xbf09974ebf2dccc93f1784babc70d8453f47ae14bf2027523ed3e7d13f06d43d,
  0xbf328156bf8334ad3f3585273c79096cbf29c0ecbf3f97243ec3354c3f180c41,
  0xbf453177bf79aa1d3f39885dbd61b08abf5c01a33f021ff33ebaffb03f16fd54,
  0xbee28028bf3d0de13f1784babc2dab9f3f485f07bf1f4f0e3edbca753f094163,
  0xbf22eb81bf88a1e03f39885d3c6a4a8cbf5083123f1474543ec72abf3f1b1f25,
  0xbe954e2bbf5991ff3f16d40b3d73b646bf38e219bf3068dc3ee86ec13f0dad00,
  0xbeadf890bf48d5843f1784babab780343f483127bf1f8a093ee44c163f0b1e2a,
  0xbefa9cfebf9174583f358ea83d1d4952bf250481bf4374bc3ed5753a3f1d11cf,
  0xbefbb7d8bf92188b3f39884c3d35dcc6bf4810623f1f559b3ed45bd13f1e6506,
  0xbe6eaf68bf52595c3f1784baba3780343f484b5ebf1f6fd23eed28073f0c9b0f,
  0xbe81053abf9b5eb73f358538bc0ce704bf41c433bf274bc73eeabf983f2026fe,
  0xbead4badbf990f303f39884c3c0e8a72bf54c2f83f0e5c923ee252483f20c9a7,
  0xbd800863bf6579c03f16d5063cf1a9fcbf398c7ebf303afb3efb73d23f0f7586,
  0xbdff1a5dbf5a6bd73f1784ba3c3923a33f492a30bf1e48e93ef636d23f0dd68c,
  0xbe37cb71bf9d66e03f39884cbbaa64c3bf4f62b73f1617c23ef0d8453f223769,
  0xbc48b439bf5ea1943f1784ba3b23d70a3f441893bf2495183eff94213f0e707e,
  0x3d90b84abf9e6ba53f3585273d88ce70bf5a0275bf051eb83f03b7953f20f788,
  0xbc8effe3bf9f0d743f39884c3cae7d56bf5717593f0ab9f53eff9f023f22aa9f,
  0x3e312232bf61aa503f16d0c43d0f5c29bf39e1b1bf2fcb923f0775fb3f0eaac1,
  0x3e5a5d29bf57cfb33f177eb3bca57a783f454c98bf2305533f091eda3f0d284a,
  0x3e145847bf9dfb483f39884c3af9096cbf50068e3f1532613f0734a43f222dd8,
  0x3ec701dabf96a9933f358538bd0d4fdfbf4703b0bf20cb293f11cb793f1e0a96,
  0x3e9c0358bf9a34ca3f39884c3d130be1bf52d7733f10e5603f0e7a203f20b34e,
  0x3eca5072bf4e7e843f16d0b33cc710cbbf3b5dccbf2e56043f108e693f0b630b,
  0x3ed9285bbf4253b93f177ed4bc6bedfa3f46594bbf21d14e3f11c4973f09819d,
  0x3eeb2bfebf93ca323f39884cb951b717bf529c783f1182aa3f1573fb3f1e4b77,
  0x3f2e1ec5bf84a4c23f358527bd2b367abf4af4f1bf1ba5e33f1e862f3f178ec1,
  0x3f1b27bbbf8ad8343f39884c3c978d50bf4d9e843f1872b03f1c04a73f1afcad,
  0x3f172e5abf2d3ec43f16d0c43e577319bf2bedfabf35dcc63f187f243f05e82d,
  0x3f1b2af1bf1f993d3f177ef6bc2a64c33f483e42bf1f76603f192e843f03ca00,
  0x3f3e15cabf7f0caa3f39884c3d2b367abf5247453f11a36e3f221d213f16db2f,
  0x3f6cd6f5bf53356e3f3585383f3c710dbf24dd2fbe5566cf3f290c2c3f0df44d,
  0x3f5dc1c6bf640e6b3f39884c3ee6e979bf10b0f23f30d1b73f278fde3f11e7ea,
  0x3f3ee03bbf0037e73f16d0c43f3b4a233d8e2196bf2d97f63f1ebead3efd2503,
  0x3f3f2f55bee3fe193f177ef6bf47e282bd1ad42cbf1fa4403f1edb623ef8b2ea,
  0x3f79a123bf452ae93f39884c3f50346e3c449ba63f14f0d83f2c4d983f0c508b,
  0x3f8db74abf0eb7023f3585383f417c1c3be8a71ebf27a0f93f30b6743f020ad9,
  0x3f598d47be94ed4e3f16d0b33f39e1b13d6f9db2bf2f62b73f22e07e3eebc276,
  0x3f562d1fbe7273933f177eb3bf4617c2bd0793debf21f2133f2268d33ee7672c,
  0x3f889e1bbf22e6753f39884c3ed32618bf2d3c363f1c22683f30430b3f06327f,
  0x3f9214c6befbade23f39884c3f7e28243de2b6aebd38bac73f336fe33eff54d2,
  0x3f9b5a53be80f9093f3585273f328f5c3cac0831bf375f703f3521ab3ee94f8b,
  0x3f9b9147be89f8c23f3968e83f4e56043cc710cb3f1765fe3f365eee3eeb4f1e,
  0x3f656840bd7932513f16d0c43f3a99313d2c710dbf2eecc03f249aed3ed8dac2,
  0x3f5e8f3bbc4700043f177ea2bf453261bcdb8bacbf231f8a3f2398fa3ed4e9a3,
  0x3f9e5604bc8dc3373f358e973f2ce704bb8ce704bf3cc63f3f3639603ed4dfce,
  0x3f9f08f6bc8e64b23f39884c3f3dbf483ccbfb163f2bb98c3f37a3ec3ed4dc87,
  0x3f619e413e315ec03f16d0c43f3ac0833cce703bbf2ef9db3f23db2b3ec5bd30,
  0x3f57c83b3e5a6a873f177eb3bf454c98bca57a78bf230be13f225f313ec27200,
  0x3f9bdce83e6d64523f3585593f4bac71bc8e8a72bf1b089a3f34f5d33ebf2ae0,
  0x3f9df6cb3e146cb93f39884c3f4fbe773ccf41f23f1573eb3f3721813ec659d1,
  0x3f9a30fd3e9c10523f39884c3f52339c3ab780343f1219653f35af193eb8127b,
  0x3f4e74083eca745c3f16d0c43f3c154d3c7c5048bf2d9e843f20a6013eb39970,
  0x3f424bdc3ed9346a3f178488bf48adac3b30f27cbf1ef34d3f1ec83f3eb12e62,
  0x3f8edf2f3f0a02da3f3585383f571de7bbb0f27cbf0ac7113f304ea53ea47a5b,
  0x3f93c7373eeb3bb83f39884c3f4fd8ae3c6d91683f156d5d3f3351053eaa517e,
  0x3f8ad6993f1b30f93f39884c3f523a2a3d1db22d3f11bda53f301b973e9d46f6,
  0x3f2d39eb3f17342f3f16d0c43f10b7803eb16873bf3fa4403f1b32053ea3bf0e,
  0x3f7049ba3f4f42ee3f3585383f0ed9173f472474be93eab33f2873363e8ceee1,
  0x3f7f0af63f3e1c263f39884c3f4a09033c68a71e3f1d2f1b3f2c1cc53e911a33,
  0x3f1f94c83f1b310a3f178b05bce48e8abf4aacdabf1c36113f1914d33ea260b3,
  0x3f640b463f5dc6b03f39884c3efb089a3f0495183f3374bc3f275a213e8603b4,
  0x3f0033833f3ee19c3f16d0b3bd6ecbfb3f3b3d08bf2ded293f13e2c53e973ba7,
  0x3f4446b73f788d7e3f358e97bdaf4f0e3f247ae1bf42f1aa3f20fedf3e7cf894,
  0x3f4524d13f79a60d3f39884cbd40ebee3f4f0d843f1617c23f21e0e73e786f8b,
  0x3ee3edd93f3f35e33f1784ba3cb6ae7dbf474bc7bf20902e3f11a8ef3e96fb2b,
  0x3f0eb0103f8db8ed3f35856abba0902e3f419ce0bf2779a73f1792c03e65ff1e,
  0x3f22deec3f889fd83f39884c3bd1b7173f5793de3f0a0f913f1bc8083e67fb26,
  0x3e94c48b3f5996643f16d0c4bd5c5d643f3afb7fbf2e48e93f0b30403e8ed9e0,
  0x3e725a683f5630883f177ee53d072b02bf461e4fbf21eb853f0902363e8fc808,
  0x3efb9e8c3f9216833f39884cbc4b295f3f504ea53f14c9863f1532d73e5aea74,
  0x3eac6ed23f9860c43f358e97bcc710cb3f341206bf35dcc63f0ddead3e56e610,
  0x3d78d3f23f656ffc3f16d0b3bd15e9e23f3a36e3bf2f69443f01acef3e8b4cc2,
  0x3c44bd343f5e9b7c3f177e913ce978d5bf45fd8bbf221ff33eff5afb3e8d551d,
  0x3dbaa9b53f9e3e083f3585383cf694463f3e00d2bf2b645a3f02ef803e507810,
  0x3ead2fa13f990c783f39884cb8d1b7173f409d493f28a0903f0e3eaf3e515ca7,
  0x3e3798d93f9d64d03f39884c3ef8bac73f4b020c3ebc28f63f0703d13e4bc1ad,
  0xbe6d85163f9bdf443f358506bb6560423f3dcc64bf2bc6a83ee956c13e549668,
  0xbe9c1f863f9a32c23f39884c3dbdd97f3f7edfa43c86594b3ee229633e519c9d,
  0xbe1490603f9df9483f39884c3ea710cb3f6f9db23e0779a73ef0a8d23e4bd0e1,
  0x3c8d41313f9f0b743f39884c3ec0aa653f6886593e3afb7f3eff59cd3e49eecc,
  0xbe556c943f99d09e3f3e2fe0bec5d6393f06e9793f41cac13ee9d55e3e45fc7e,
  0xbee0a6763f8d190d3f3edc4d3f1f4f0ebeb93dd93f31b08a3ed160953e4db878,
  0xbe4b1a2a3f9608963f3edb733eb8adacbf22a3053f2ecbfb3ee9c0013e3fb118,
  0x3c8a5ce63f9bcd8a3f3e2b7cbb16bb993f2810623f4119ce3eff5c4b3e419e73,
  0x3e81bc993f9895423f3e32c2bcb780343f2c84b63f3d07c83f0afc9c3e466adb,
  0x3dd9c4113f97905c3f3edb62beda9fbebf10ff973f3474543f0431483e3c9689,
  0xbe53f78c3f5150db3f21054bbe907c85bedd21ff3f5b4a233ecb71fc3d39f234,
  0x3c49c4db3f5183843f1fa3333ec0d1b7bd05f06f3f6d013b3eff6ba03caa3f03,
  0xbd8cbc063f4f78ff3f1fd827bb96bb99bf2d2f1b3f3c84b63eeacffa3cb5610b,
  0xbe3e48a63f4ac6ac3f1fc548bcd844d0bf2f76603f3a43fe3ece5cb33cf60e0f,
  0xbeb9d7133f43f91e3f2028c33e88db8cbf36cf423f25a1cb3ea903213da347e9,
  0x3e729c783f4ece683f20f1b23c42f838bf2e3bcd3f3b851f3f1aaac13d3acf74,
  0x3dbfc0093f4f85f93f1ff317bc8a71debf2d1b713f3c8b443f0a12513cc36977,
  0x3e5c343b3f49a9543f1fc2553a9d4952bf3339c13f36cf423f18ffeb3d0347e9,
  0x3ecce8103f8f5e5b3f3ed8a13e9d21ffbf2189373f365fd93f13008a3e489e77,
  0x3ef67c8d3f8f1c543f3e2b7cbd398c7e3f29eecc3f3f1aa03f15fe763e533a8a,
  0x3ec1a47b3f42233a3f203aeb3d83e426bf24c9863f4333333f2a1ef73d9ee2ca,
  0x3e7111273f4d99ed3f1c473d3c816f00bf33c361bf3638863f1ccccd3cfb82c3,
  0x3f2e0dbb3f819a313f3e2c23bd6147ae3f3318fc3f365fd93f1f6d763e67c915,
  0x3e723fee3f5620de3f177ccc3db367a1bf1460aabf4f69443f1e603d3c049cb2,
  0x3ec1c27f3f3e29633f1c2481bf2dd97fbef4e3bdbf0e8a723f2cf2ae3d874a77,
  0x3ee3edd93f3f35e33f1784ba3dcd013bbf1d70a4bf483e423f3609033d757f73,
  0x3f6b38823f4d4fdf3f3e2c233f1d97f63e8752543f3e0ded3f2adb1f3e87d5cb,
  0x3f2fd2953f7869c63f3edafd3d68a71ebf3b98c83f2d97f63f2181ae3e65eb31,
  0x3f0f06813f2315943f1ff0993df0a3d7bf34ea4b3f329c783f3e35613e0898b3,
  0x3f1354193f1c85e43f1c20d5bdade00dbf274539bf40902e3f43251c3e06b8b7,
  0x3f1fc4e33f1b20533f178d2e3e1bf488be5f3b64bf76c8b43f4a5e783e02b389,
  0x3f59b7f13f53bd9d3f3edc4dbf37a0f93e32ca583f2cb2963f29eedd3e80f29d,
  0x3f344b0a3ef15d703f202689bf237b4a3da29c783f43f1413f4f2e173e50d280,
  0x3f36f6e83ee533093f1c36dbbf504ea53dc6dc5dbf12b6ae3f53cea73e528bb1,
  0x3f80958e3f229e5e3f3edc903f01d7dc3ea4c2f83f4cac083f3176363e945aa3,
  0x3f8c2afe3f0973113f3e2c133f3425afbbe8a71e3f35dcc63f3343e93ea0c3f4,
  0x3f4219fc3ed9183b3f177293bf18e8a73dcd9e84bf4bb2ff3f5b5e743e57d06c,
  0x3f970c6f3e98e2e33f3e2b7c3f2aee63bd02a9933f3e63203f37ad3a3eb700ac,
  0x3f4d74e63e82b0423f1c2917bf7ce7043dfec56dbdbda5123f5e0fc33e968ab5,
  0x3f57ca973e5a671f3f1784babf10be0e3dc60aa6bf51b08a3f6521363e9f9357,
  0x3f4da9a83e89fcb13f202763bf20c49c3d3851ec3f46e2eb3f5a28243e95ad54,
  0x3f9142ab3eb504e63f3edc0abf385879bc6bedfa3f3196533f381f433eb02342,
  0x3f9bcc423d9d6adf3f3e2c233f30ebeeba9d49523f39096c3f39641f3ecc00fc,
  0x3f5884a53d59902a3f201bdabf192a30b8d1b7173f4d21ff3f5e580c3ec62f38,
  0x3f9806c03d415d2d3f3edc0abf392a30bd23d70a3f307c853f3b02933ece8683,
  0x3f575afb3cd3c7933f1c3537bf3e76c93df1758ebf285f073f61fd9c3ecbf3e0,
  0x3f5e5c1cbc4b252d3f1770acbf0f5c293dde9e1bbf5240b83f6794313ed49470,
  0x3f98d0b3be824d903f3e274a3f2e91003d18c7e33f3afb7f3f3878313eeb37eb,
  0x3f5667d7be71eeaa3f179581bebae1483e828241bf6538ef3f654d0e3f04b06c,
  0x3f54ab71be2b48d43f201f32bf22a993bd2e147b3f4560423f5d74b43ef73f96,
  0x3f521fc1be4078d93f1c4eb5bf6b7e91be561e4fbea9e1b13f609e233efd694d,
  0x3f9465d8be8640213f3edc2bbf3af4f13ce560423f2ebee03f39d25b3eed3f3a,
  0x3f3f73b0bee3dc053f179607bf08c155bd2c0831bf58240b3f5bc07f3f1e9574,
  0x3f8afa40bf0daef73f3e32c23f3027523d23d70a3f3978d53f33b5f23f03ca32,
  0x3f46d6dcbeab4bb63f202a67bf1c710dbda617c23f49930c3f58e6b03f0ed491,
  0x3f86c166bf0d44dd3f3edc6ebf1bfb163edb089a3f2ae7d53f34c9753f050e88,
  0x3f3e6ddfbecb36bd3f1c5016bf74816fbdbb2fecbe9055323f58e8323f17a765,
  0x3f342eecbef1a6503f202731bf25e354bdcc2f833f414e3c3f50fd4c3f1e5f85,
  0x3f1b7f4abf1f8c973f1795d5be09374cbde90ff9bf7c01a33f4ae2fc3f341627,
  0x3f1f1bbdbf11dd903f1c472cbe94f0d83f741893bda196533f4ab27d3f2c1249,
  0x3f6a4367bf4e6a123f3e2c233f23126fbe98c7e33f35f6fd3f2bf1843f0fef17,
  0x3f5fb6ccbf4e4bcb3f3edbb6bf291687be8ee6323f326e983f2c446b3f11f5be,
  0x3f0e0392bf2439473f2000863e1810623f163f143f4bc01a3f402d383f316712,
  0x3f2cdd1ebf81ff153f3e2c23bce21965bf3831273f31a36e3f20cd313f1a3db4,
  0x3ed973b8bf4258e63f178dd63e727bb33f141893bf47d5673f369e6f3f45a20e,
  0x3ee96edfbf3346563f1c4381befbcd363ec00d1bbf492a303f383dee3f3c9657,
  0x3f210bb7bf8118d23f3edb513a03126f3f3ce0763f2ccccd3f203f603f1c7df6,
  0x3e5ab1d5bf58069e3f179d803dd2f1aa3f16f694bf4d0e563f1ee8b03f5335a0,
  0x3eb9654dbf441d6d3f202e123da8c1553f0f14123f5339c13f2b26393f40df05,
  0x3ee65f31bf90c6693f3e2b8cbd3923a3bf2e56043f3b1c433f16469d3f203782,
  0x3ee084c7bf8d19933f3edc4d3c985f073f3dbf483f2bcd363f16dfd73f219f5e,
  0x3e70828cbf9932273f3e2c13bc54fdf4bf3295ea3f3765fe3f0bed203f236039,
  0x3e5dc875bf4f0d843f1cb1eebe334d6a3f78c1553e2282413f1d819d3f4cecb7,
  0x3e5b3c82bf5008203f20d4993d9eb8523f29f55a3f3e69ad3f1b32273f49aff3,
  0x3e5c0831bf9597ff3f3edff8bcc7e2823f3c22683f2d7dbf3f0b8af43f250aaa,
  0xbda9680ebf9bc4a03f3e2c233c9a0275bf30f9093f38e8a73ef9528f3f24915c,
  0xbdb6d97bbf97b3853f3edf93bd6c56d63f3a8c153f2eb1c43ef847b23f2617d3,
  0xbc0cd20bbf510c1c3f1f850ebec865953d0ce7043f6b6ae83f0033943f501d2a,
  0x3e3c8430bf4b40813f1fc6003ca57a783f35460b3f34af4f3f186a7f3f4d4531,
  0x3d914877bf50068e3f1ff0ed3a51b7173f1e1b093f4958103f0a72543f4f3312,
  0xbeca2a91bf93b9a63f3e2c233d42f838bf2ef34d3f3a7efa3edb443d3f21c8fc,
  0xbdbec0b5bf4f507f3f1fe77d3c5013a93f1ff9723f47d5673eeaf7b13f4f5968,
  0xbe730b5bbf4ef9fd3f20c847bdc9eecc3f37b4a23f307c853ec967cb3f49a522,
  0xbe558b82bf49df223f1fbd49bbe560423f2d013b3f3cb2963ece6e873f4d58b8,
  0xbea573a8bf9221423f3edc4dbc86594b3f395e9e3f3083123ee0663c3f2450f0,
  0xbec0b2a7bf4273a33f203a00bd67d5673f1944673f4c8b443eaac8823f41905c,
  0xbe70ce4fbf4c5ccd3f1c4c593d1e83e43f3a8c15bf2f06f73ec4d09a3f4d86fd,
  0xbf0d29bbbf86dbf93f3eda343edc0ebf3f1617c23f2fcb923ec973da3f1fb8f5,
  0xbf2e1be3bf819c203f3e2c233d9eecc0bf2fc5053f390ff93ebfe38f3f1b2592,
  0xbeadf890bf48d5843f1784babd9bda513f1a36e3bf4b6ae83eaa06423f4c115e,
  0xbe6eaf68bf52595c3f1784babd83afb83f189375bf4ce7043ec1da593f52a023,
  0xbea8af81bf43f7493f1c27fabd70068e3f4c432dbf19930c3eaf8ad23f47d87b,
  0xbee28028bf3d0de13f1784babdf6fd223f19930cbf4a786c3e92e4083f453144,
  0xbf6b405fbf4d59e63f3e2c23bf229c78be69930c3f3ce0763ea90c2c3f11275f,
  0xbeffdb0abf2b81d83f1c35ce3f1afb7f3e9dcc64bf3bda513e8964633f3abb13,
  0xbf09974ebf2dccc93f1784babdecbfb13f22b021bf436e2f3e7b7d853f3d449a,
  0xbf1f4f94bf1ad4d43f1784babe3c9eed3f27ae14bf3b9f563e539abf3f3464fe,
  0xbf0f1737bf231d0d3f1ff1c7be01205c3f224dd33f4353f83e820c283f32fef8,
  0xbf4ec850bf5f4ca13f3edc1abf2275253bc154ca3f45d6393eaf89a43f16b50b,
  0xbf25d0c8bf0a26a23f1c28f63dd07c853f704ea5bea8a71e3e4e67943f2af838,
  0xbf3200b0bf04b30b3f1784ba3f201a37be420c4abf41c4333e2f4d383f2a4452,
  0xbf345037bef17c813f2026893f12eb1cbdf5c28f3f4f62b73e4018e73f20d584,
  0xbf4188f4bed85e5f3f1784ba3f1288cebe060aa6bf4f3b643e10110a3f1edf1e,
  0xbf809de0bf229e4d3f3edc90bf15bc02bde703b03f4d9e843e9bc5153f0ad906,
  0xbf88087dbf180bed3f3e2b8cbf3367a13d03e4263f366cf43e9af5993f076391,
  0xbf433355beb7f8a93f1c0dd43f385879bde83e42bf2f41f23e16bacf3f15fb0d,
  0xbf946195bec0cd213f3e32b1bf3346dc3d5f3b643f3631f93e91ea143efa2ad4,
  0xbf4db77cbe89f7d73f2027743f16dc5dbd6631f93f4e56043e1455223f0a0ded,
  0xbf4dd94dbea3d35f3f1784ba3f15aee6bdf7ced9bf4d5cfb3df1c0873f1236c1,
  0xbf914b40beb4f28c3f3edc0abf1147ae3e03c9ef3f502de03e8e94ee3ef9c582,
  0xbf508e7abe5318b93f1c27fa3f3710cbbdd8793ebf30e5603dfc15903f03e21e,
  0xbf56cbdabe5957473f1784ba3f16bb99bd91d14ebf4e1b093dd3519c3f04ff32,
  0xbf5c2518bdcec7433f1784ba3f0ced91bd051eb8bf558e223dc3d5fe3eef51ce,
  0xbf574e55bd144aa53f1c13fd3f79f55a3e5d2f1b3b3780343deb28523ee0051d,
  0xbf5daf3a3c45974e3f1784ba3f0b7176bcf0d845bf568db93dc03cd13ed4f399,
  0xbf9bd356bd9db76b3f3e2c23bf30ff97bc0b43963f38ef353e8c0e173eddf612,
  0xbf58915cbd5a5daf3f201bfc3f1f00693aebedfa3f48a0903e03fc873ee37ed4,
  0xbf980d78bd40cd853f3edc0a3f3978d53d2027523f302de03e88c75c3edb675e,
  0xbf9a343b3e33e8143f3e2b8cbf27e910bc90ff973f4134053e8c75e63ec5f3b6,
  0xbf946bf83e8638653f3edc2b3f3810623d0d4fdf3f31b08a3e8b42893ebc8d7e,
  0xbf54b89d3e2b28953f201f433f23404f3d1446743f44fdf43e080ed03eb24cc7,
  0xbf528d113e38fe263f1c41573f3be0dfbdd25461bf2be76d3df5ee9a3eadc8fc,
  0xbf5b56653dffbdf13f1784ba3f0d21ff3d542c3dbf552bd43dc45ed53eba9c56,
  0xbf55321e3e71287c3f1784ba3f11b08a3d1c0ebfbf5247453dd4573a3ea00325,
  0xbf4b7b4a3eaf36693f1784ba3f1154ca3df2e48fbf50902e3df3269e3e85b3e1,
  0xbf46e4d23eab46dc3f202a673f1cbfb13daa30553f4944673e1abead3e8bef28,
  0xbf3ed18d3ec98e323f1c28913ed652bdbefe4f76bf42a3053e1a4df43e761d86,
  0xbf3e706d3ee30c673f1784ba3f19a6b53dc6a7f0bf4b3d083e10dcba3e59185d,
  0xbf343b1d3ef1a0ae3f2026ee3f15d6393df34d6a3f4d4fdf3e3ac4723e59ff93,
  0xbf2e3a6d3f0999fe3f1784ba3f1d91683e324745bf44c2f83e3014723e2bdba1,
  0xbf1f4ce43f1191583f1c2aaa3f6fc5053c56a162beb3404f3e53d0393e23eccc,
  0xbf0e15873f242a023f1fff7a3e3ac7113d80d1b73f7b2fec3e7e3d1d3e0e924f,
  0xbf1aecf23f1f33fd3f1784babe46c227bf283e42bf3a71de3e54445b3e03ade2,
  0xbf04af603f318eb93f1784babe116873bf1bcd36bf47dbf53e7bf4023dc0f6f1,
  0xbee849ed3f337e2c3f1c285fbd816f00bf7e83e4bdb2fec53e8f8fef3dc2f167,
  0xbed7db0a3f40204f3f1784babe1b8bacbf1793debf4a99313e92fd543d8209ab,
  0xbea2b0213f4b29913f1784babdbe76c9bf1a233abf4b020c3ea9fcd23d164a5a,
  0xbe9dad103f463a6d3f1c27e9bd5566cfbf46c227bf20cb293eaf8d503d597c3d,
  0xbe5719723f53eab33f1784babda6b50bbf17dbf5bf4d07c83ec1acde3c2bffce,
  0xbe5a187a3f4d141a3f1ce2e33d0d4fdfbf46f694bf20d8453ec52a843d06d1e1]

set_option maxRecDepth 100000 in
/-- the triangles of `BUMPER_RING_INDICES`, /repo/src/vpx/mesh/bumpers/bumper_ring_mesh.rs:505-704 -/
def bumperRingTris : List Nat := [
  0x000000010002, 0x000000020003, 0x000300020005, 0x000400000003, 0x000300050007, 0x000700050008, 0x000400030006,
  0x00070008000e, 0x000e0008000f, 0x000900030007, 0x000600030009, 0x00100007000e, 0x000900070010, 0x000e000f0012,
  0x0012000f0013, 0x0010000e0014, 0x0014000e0012, 0x001200130015, 0x001500130016, 0x001400120017, 0x001700120015,
  0x001800100014, 0x001900140017, 0x001900180014, 0x001100090010, 0x001800110010, 0x000d00060009, 0x0011000d0009,
  0x000a00040006, 0x000d000a0006, 0x000a000b0004, 0x000c000b000a, 0x0055000d0011, 0x000a000d0055, 0x000c000a0057,
  0x000a00550057, 0x000c00570058, 0x005800570055, 0x000c00580059, 0x005500110050, 0x00590058005d, 0x0059005d005e,
  0x005800550056, 0x005d00580056, 0x005600550050, 0x0060005e005d, 0x00600061005e, 0x005f0060005d, 0x00610060005f,
  0x005c005d0056, 0x005f005d005c, 0x0061005f0062, 0x0062005f005c, 0x006100620063, 0x006100630064, 0x005c00560054,
  0x005600500054, 0x006400630065, 0x006500630062, 0x006400650066, 0x0062005c005a, 0x00650062005a, 0x005a005c0054,
  0x00660065005b, 0x0066005b0067, 0x005a005b0065, 0x005a0052005b, 0x005a00540053, 0x005a00530052, 0x0054004e0053,
  0x0053004e0052, 0x0050004e0054, 0x004f00510052, 0x004f0052004e, 0x004c004f004e, 0x0050004d004e, 0x004c004e004d,
  0x004d00500011, 0x004d00110018, 0x004c004d0018, 0x004c00180019, 0x004c0019001b, 0x004b004c001b, 0x001b00190017,
  0x004a004b001b, 0x004a001b0049, 0x001b0017001a, 0x00170015001a, 0x00210049001b, 0x0021001b001a, 0x001a0015001e,
  0x0021001a001e, 0x002100360049, 0x004800490036, 0x00220021001e, 0x002100220036, 0x001e0015001c, 0x00150016001c,
  0x001c0016001d, 0x001c001d001f, 0x0022001e0020, 0x001e001c0020, 0x001c001f0023, 0x0023001f0024, 0x0020001c0025,
  0x0025001c0023, 0x002400270028, 0x002400280023, 0x002600220020, 0x002600200025, 0x002a00230028, 0x002a0028002b,
  0x002c002a002b, 0x002500230029, 0x00290023002a, 0x002c002e002a, 0x002e0029002a, 0x002e002c002f, 0x002d00250029,
  0x002e002d0029, 0x002d00260025, 0x002e002f0030, 0x0030002d002e, 0x0030002f0031, 0x0026002d0032, 0x00300032002d,
  0x002200260034, 0x002600320034, 0x002200340036, 0x003200300033, 0x003000310033, 0x003400320035, 0x003200330035,
  0x003100380033, 0x003300380035, 0x003100390038, 0x003400350037, 0x003700360034, 0x0039003a0038, 0x003b003a0039,
  0x003c00350038, 0x003a003c0038, 0x003c00370035, 0x003b003d003a, 0x003a003d003c, 0x0037003e0036, 0x00480036003e,
  0x00470048003e, 0x0047003e0046, 0x0037003f003e, 0x0046003e003f, 0x003c003f0037, 0x003f00450046, 0x003d0040003c,
  0x003c0040003f, 0x003b0041003d, 0x003d00410040, 0x0041003b0042, 0x003f00400043, 0x004100430040, 0x003f00430045,
  0x004100420043, 0x004300440045, 0x004300420044, 0x00680069006a, 0x0069006b006a, 0x0068006a006c, 0x006d006a006b,
  0x006d006c006a, 0x0069006e006b, 0x006d006f006c, 0x00690068009e, 0x0071006c006f, 0x007100760077, 0x00710077006c,
  0x006f006d0072, 0x006f00720073, 0x007200740073, 0x007200750074, 0x00780072006d, 0x006d006b0078, 0x007500720079,
  0x007800790072, 0x007a0078006b, 0x006e007a006b, 0x007f00750079, 0x007f00800075, 0x007f00810080, 0x007f00820081,
  0x00840082007f, 0x008400850082, 0x0084007f0083, 0x007f00790083, 0x008500840086, 0x008600840083, 0x008500860087,
  0x008500870088, 0x00860083007e, 0x00870086007e, 0x007e00830079, 0x008800870089, 0x0087007e0089, 0x008a00880089,
  0x007e0079007b, 0x0078007b0079, 0x007e007d0089, 0x007e007b007d, 0x0078007c007b, 0x007c007d007b, 0x007a007c0078,
  0x008b0089007d, 0x008a0089008b, 0x007c008c007d, 0x008c008b007d, 0x008c007c007a, 0x008d008a008b, 0x008c008d008b,
  0x008d008e008a, 0x008d008f008e, 0x008c007a0090, 0x008d008c0090, 0x008d0091008f, 0x008d00900091, 0x0092008f0091,
  0x00920093008f, 0x009400910090, 0x009400920091, 0x00950090007a, 0x009500940090, 0x006e0095007a, 0x009300920096,
  0x009200940096, 0x009300960097, 0x009600980097, 0x009600990098, 0x0094009a0096, 0x009a00990096, 0x00940095009a,
  0x009a009b0099, 0x0095006e0070, 0x00950070009a, 0x0070009b009a, 0x006e00690070, 0x0070009c009b, 0x0069009e0070,
  0x0070009d009c, 0x009e009d0070, 0x009f009d009e, 0x009f009e00a0, 0x006800a0009e, 0x00a000a1009f, 0x006800a200a0,
  0x006c00a20068, 0x00a300a100a0, 0x00a300a400a1, 0x00a200a500a0, 0x00a500a300a0, 0x006c00a600a2, 0x00a600a500a2,
  0x00a700a400a3, 0x00a700a800a4, 0x00a500a900a3, 0x00a900a700a3, 0x00ad00ae00a8, 0x00ad00a800a7, 0x00a600aa00a5,
  0x00aa00a900a5, 0x00ab00a6006c, 0x00ab00aa00a6, 0x00ab006c0077, 0x00af00ad00a7, 0x00af00b000ad, 0x00a900ac00a7,
  0x00ac00af00a7, 0x00aa00b100a9, 0x00ac00a900b1, 0x00b000af00b3, 0x00b000b300b4, 0x00af00ac00b2, 0x00af00b200b3,
  0x00ac00b100b2, 0x00b500b400b3, 0x00b600b300b2, 0x00b500b300b6, 0x00b700b200b1, 0x00b600b200b7, 0x00ba00b100aa,
  0x00b700b100ba, 0x00ba00aa00ab, 0x00b500b600b8, 0x00b800b600b7, 0x00b500b800b9, 0x00bb00b700ba, 0x00b800b700bb,
  0x00b900b800bc, 0x00bc00b800bb, 0x00b900bc00bd, 0x00ba00ab00cc, 0x007700cc00ab, 0x007700cd00cc, 0x00be00bd00bc,
  0x00be00bf00bd, 0x00cd00ce00cb, 0x00cd00cb00cc, 0x00bf00be00c0, 0x00c000be00bc, 0x00ca00cc00cb, 0x00ca00cb00c8,
  0x00ba00cc00c5, 0x00c500cc00ca, 0x00bb00ba00c5, 0x00c100bc00bb, 0x00c100bb00c5, 0x00c000bc00c1, 0x00c400c500ca,
  0x00c400c100c5, 0x00bf00c000c2, 0x00c200c000c1, 0x00c200c100c4, 0x00bf00c200c3, 0x00ca00c600c4, 0x00c200c400c6,
  0x00c300c200c6, 0x00ca00c800c6, 0x00c300c600c7, 0x00c700c600c8, 0x00c700c800c9, 0x00cf00d000d1, 0x00d400cf00d1,
  0x00d000cf00d2, 0x00d400d200cf, 0x00d100d000d3, 0x00d400e300d2, 0x00d300d900d1, 0x00d500d400d1, 0x00d500d100d9,
  0x00e300e600d2, 0x015500d500d9, 0x00ea00d200e6, 0x00d000d200ea, 0x00e300e900e6, 0x00ea00e600e9, 0x015500d90156,
  0x00d3015600d9, 0x00d000ea00d6, 0x00d300d000d7, 0x00d000d600d7, 0x00d301590156, 0x00d300d7015a, 0x015900d3015a,
  0x015501560157, 0x015701560159, 0x00d70163015a, 0x015801570159, 0x00d701d80163, 0x00d601d800d7, 0x015201570158,
  0x015201550157, 0x01580159015c, 0x0159015a015b, 0x015c0159015b, 0x015201580154, 0x01540158015c, 0x015a015f015b,
  0x015a0163015f, 0x015f01620161, 0x0160015f0161, 0x015b015f0160, 0x01de015f0163, 0x01de01e0015f, 0x01df01e001de,
  0x01df01de01dd, 0x01db01de0163, 0x01dd01de01db, 0x016301d801db, 0x01dd01db01dc, 0x01dc01db01da, 0x01da01db01d7,
  0x01d801d701db, 0x01da01d701d9, 0x01d901d701d6, 0x01d801d501d7, 0x00d601d501d8, 0x01d601d701d3, 0x01d501d301d7,
  0x01d601d301d4, 0x01d401d301d1, 0x00eb01d500d6, 0x00ea00eb00d6, 0x01d501d201d3, 0x00eb01d201d5, 0x01d101d301ce,
  0x01d201ce01d3, 0x01d101ce01d0, 0x01cf01d001ce, 0x01c701cf01ce, 0x00ea00ec00eb, 0x00ea00e900ec, 0x01c701ce01c6,
  0x01c601c501c7, 0x01d201cd01ce, 0x01cd01c601ce, 0x01cc01d200eb, 0x01cc01cd01d2, 0x00ec01cc00eb, 0x01c301c501c6,
  0x01c301c401c5, 0x01c101c401c3, 0x01cd01c901c6, 0x01c301c601c9, 0x01ca01cd01cc, 0x01ca01c901cd, 0x01c101c301be,
  0x01bb01c101be, 0x01c301c901c0, 0x01c001be01c3, 0x01c201c901ca, 0x01c201c001c9, 0x01cb01ca01cc, 0x00ec01cb01cc,
  0x01c801c201ca, 0x01cb01c801ca, 0x01b801bb01be, 0x01b801b901bb, 0x01b801b501b9, 0x01c001ba01be, 0x01ba01b801be,
  0x01c001c201bc, 0x01c001bc01ba, 0x01b301b501b8, 0x01b301b401b5, 0x01b301b101b4, 0x01ba01b601b8, 0x01b601b301b8,
  0x01b101b301b0, 0x01b101b001ae, 0x01ae01ab01af, 0x01ae01b001ab, 0x01aa01b001b3, 0x01aa01ab01b0, 0x01b601aa01b3,
  0x01aa01a701ab, 0x01ba01b701b6, 0x01ba01bc01b7, 0x01b601ac01aa, 0x01b601b701ac, 0x01a701a601a8, 0x01a201a601a7,
  0x01aa01ac01a9, 0x01aa01a901a7, 0x01a101a201a7, 0x01a901a101a7, 0x01a501a901ac, 0x01a501a101a9, 0x01ad01ac01b7,
  0x01ad01a501ac, 0x01a1019f01a2, 0x01b201ad01b7, 0x01b201b701bc, 0x019f019e01a2, 0x019e01a401a2, 0x019e01a301a4,
  0x01a0019f01a1, 0x01a501a001a1, 0x019e019f019b, 0x01a0019c019f, 0x019c019b019f, 0x019e019b0199, 0x019d019e0199,
  0x019c019a019b, 0x0196019d0199, 0x01960198019d, 0x019601950198, 0x0199019b0197, 0x019a0197019b, 0x019901930196,
  0x019901970193, 0x019001950196, 0x019301900196, 0x0190018f0195, 0x019301970192, 0x018d018f0190, 0x018d0189018f,
  0x0193018e0190, 0x018e018d0190, 0x01930192018e, 0x0189018d0187, 0x018901870185, 0x018e018b018d, 0x018b0187018d,
  0x018e0192018c, 0x018e018c018b, 0x018501870182, 0x018501820183, 0x0182017c0183, 0x018b01860187, 0x018601820187,
  0x0182017b017c, 0x017c017b0179, 0x018601800182, 0x0180017b0182, 0x018b01880186, 0x018b018c0188, 0x0179017b0176,
  0x017301790176, 0x0180017d017b, 0x017d0176017b, 0x018601810180, 0x018601880181, 0x017301760172, 0x016e01730172,
  0x017d01750176, 0x017501720176, 0x0180017e017d, 0x01800181017e, 0x016e0172016d, 0x016d016c016e, 0x016a016c016d,
  0x0171016d0172, 0x017501710172, 0x0169016a016d, 0x01710169016d, 0x01690164016a, 0x017401710175, 0x016401650166,
  0x016401600165, 0x01770175017d, 0x017401750177, 0x0177017d017e, 0x015e01600164, 0x015b0160015e, 0x015c015b015e,
  0x016701640169, 0x015e01640167, 0x017001690171, 0x017001710174, 0x016701690170, 0x015d015c015e, 0x015d015e0167,
  0x0154015c015d, 0x016f01700174, 0x016f01740177, 0x016b01670170, 0x016f016b0170, 0x0168015d0167, 0x016b01680167,
  0x01530154015d, 0x01680153015d, 0x014f01540153, 0x014f01520154, 0x0168014e0153, 0x016b014e0168, 0x014a014f0153,
  0x014a0153014e, 0x014c0152014f, 0x014c014f014a, 0x016b014b014e, 0x014a014e014b, 0x016b0148014b, 0x016f0148016b,
  0x0147014a014b, 0x0147014b0148, 0x0146014c014a, 0x0146014a0147, 0x014c01500152, 0x015001550152, 0x0149014c0146,
  0x0149014d014c, 0x014d0150014c, 0x014401490146, 0x014d01510150, 0x014401460141, 0x014101460147, 0x013d01440141,
  0x015100da0150, 0x015000da0155, 0x015100e100da, 0x00e100de00da, 0x00da00d50155, 0x00da00de00db, 0x00da00d800d5,
  0x00d800da00db, 0x00d800db00dc, 0x00d800d400d5, 0x00dc00dd00d8, 0x00d800df00d4, 0x00dd00df00d8, 0x00dd00e000df,
  0x00df00e300d4, 0x00e000e200df, 0x00e200e400df, 0x00df00e400e3, 0x00e200e500e4, 0x00e500e700e4, 0x00e400e800e3,
  0x00e300e800e9, 0x00e700ee00e4, 0x00e400ee00e8, 0x00e700ef00ee, 0x00ef00f100ee, 0x00f100f300ee, 0x00e800ed00e9,
  0x00ec00e900ed, 0x00ec00ed00f0, 0x00e800f000ed, 0x00ec00f001cb, 0x00e800f200f0, 0x00ee00f200e8, 0x01cb00f000f5,
  0x00f200f500f0, 0x01cb00f501c8, 0x00ee00f400f2, 0x00f200f400f5, 0x00f600ee00f3, 0x00ee00f600f4, 0x00f600f300f7,
  0x00f600f700f9, 0x00f400f800f5, 0x01c800f500f8, 0x00f400fe00f8, 0x01c800f800fe, 0x00f600fa00f4, 0x00f400fa00fe,
  0x00f900fb00f6, 0x00f900fc00fb, 0x00fc010000fb, 0x00fd00fa00f6, 0x00fd00f600fb, 0x00fa00ff00fe, 0x00fa00fd00ff,
  0x01c800fe01bf, 0x01bf00fe00ff, 0x01c801bf01c2, 0x01bf01bc01c2, 0x01bf01bd01bc, 0x01bd01bf00ff, 0x01bd01b201bc,
  0x010401bd00ff, 0x010401b201bd, 0x00fd010400ff, 0x010601b20104, 0x00fd01030104, 0x010301060104, 0x010300fd00fb,
  0x010a01b20106, 0x0103010a0106, 0x010a01ad01b2, 0x010300fb0101, 0x0100010100fb, 0x010001020101, 0x010201050101,
  0x01030109010a, 0x010901030101, 0x010c01ad010a, 0x0109010c010a, 0x010501070101, 0x010901010107, 0x010501080107,
  0x0108010b0107, 0x011001ad010c, 0x01090110010c, 0x011001a501ad, 0x010f01090107, 0x0109010f0110, 0x010b010d0107,
  0x010f0107010d, 0x010b010e010d, 0x010e0111010d, 0x010f01130110, 0x011301a50110, 0x0112010f010d, 0x010f01120113,
  0x0114010d0111, 0x0112010d0114, 0x011401110115, 0x011401150117, 0x011601a50113, 0x011201160113, 0x011601a001a5,
  0x0117011a0114, 0x0117011b011a, 0x011901a00116, 0x011201190116, 0x011801120114, 0x011201180119, 0x01180114011a,
  0x01a00119011c, 0x0118011c0119, 0x01a0011c019c, 0x0118011e011c, 0x019c011c011e, 0x011d0118011a, 0x0118011d011e,
  0x019c011e0121, 0x011d0121011e, 0x019c0121019a, 0x011f011a011b, 0x011d011a011f, 0x011f011b0120, 0x011d01230121,
  0x019a01210123, 0x0122011d011f, 0x011d01220123, 0x01200124011f, 0x0122011f0124, 0x012001250124, 0x019a01230194,
  0x019a01940197, 0x019401920197, 0x012201260123, 0x019401230126, 0x012201280126, 0x019401260128, 0x019401910192,
  0x019401280191, 0x0191018c0192, 0x012201270128, 0x012701220124, 0x01910128012b, 0x0127012b0128, 0x012501290124,
  0x012701240129, 0x0125012a0129, 0x0127012f012b, 0x0191012b012f, 0x012a012d0129, 0x012a012e012d, 0x012c01270129,
  0x012c0129012d, 0x0127012c012f, 0x0191018a018c, 0x0191012f018a, 0x018a0188018c, 0x012c0130012f, 0x018a012f0130,
  0x018a01840188, 0x0184018a0130, 0x018101880184, 0x012c01320130, 0x018401300132, 0x0131012c012d, 0x012c01310132,
  0x012e0133012d, 0x0131012d0133, 0x012e01340133, 0x013601320131, 0x013601840132, 0x013501310133, 0x013601310135,
  0x01810184017f, 0x0136017f0184, 0x017e0181017f, 0x013a01360135, 0x017f0136013a, 0x013901350133, 0x013a01350139,
  0x013401370133, 0x013901330137, 0x013401380137, 0x017f013a013b, 0x013b013a0139, 0x017e017f017a, 0x017f013b017a,
  0x0138013c0137, 0x0138013d013c, 0x013d0141013c, 0x017a013b013f, 0x0139013f013b, 0x017a0178017e, 0x017a013f0178,
  0x01780177017e, 0x0178016f0177, 0x0137013e0139, 0x0139013e013f, 0x0137013c013e, 0x0178013f0140, 0x013e0140013f,
  0x017801400143, 0x013e01430140, 0x01780143016f, 0x013c0142013e, 0x013c01410142, 0x013e01420143, 0x014101470142,
  0x014201470148, 0x016f01430145, 0x014201450143, 0x016f01450148, 0x014201480145]

/-- the table of /repo/src/vpx/mesh/bumpers/bumper_ring_mesh.rs -/
def bumperRingTable : MeshTable := unpackTable bumperRingVertices bumperRingTris

set_option maxRecDepth 100000 in
/-- the vertices of `BUMPER_SOCKET_MESH`, /repo/src/vpx/mesh/bumpers/bumper_socket_mesh.rs:18-501 -/
def bumperSocketVertices : List Nat := [
  0xbf9ecfea3c89656fba8094e6bf50ff973c3ac711bf13d07d3e1989df3d9bfdf8,
  0xbf9d28d83e370f39ba8094e6bf50ff973c3ac711bf13d07d3e198a653dae90bc,
  0xbf9dbd30be15097dba8094e6bf50ff973c3ac711bf13d07d3e171da33d8a105a,
  0xbf98d1283eace725ba8094e6bf50ff973c3ac711bf13d07d3e198aec3dc12381,
  0xbf91dacf3efb504cba8094e6bf50ff973c3ac711bf13d07d3e17214f3dd31099,
  0xbf8865303f22b6bfba8094e6bf50ff973c3ac711bf13d07d3e14b76f3de4fe37,
  0xbf01703f3e550a46ba8094e63f50ff97bc3ac711bf13d07d3de2d59d3dbdc487,
  0xbf08c73b3ea486adba8094e63f50ff97bc3ac711bf13d07d3de7e9533dca0dbb,
  0xbf7930be3f44fabeba8094e6bf50ff973c3ac711bf13d07d3e100f773df50764,
  0xbf5d52b13f63dfa0ba8094e6befc6a7f3f01c433bf3504813e0b677f3e028848,
  0xbf00c1fdbe4833c6ba8094e63f50ff97bc3ac711bf13d07d3ddbe1a83d906035,
  0xbed65b643f03e985ba8094e6bc3ac711bf50ff97bf13d07d3dde09bb3de1bd1f,
  0xbf00a1ad3ede1998ba8094e63f50ff97bc3ac711bf13d07d3de6277c3dd739f3,
  0xbf3da9b93f7edca0ba8094e63c3ac7113f50ff97bf13d07d3e04d7283e090d9d,
  0xbf99f773be9c5868ba8094e6bf50ff973c3ac711bf13d07d3e14b1ab3d704578,
  0xbe0f75973f45475aba8094e63f50ff97bc3ac711bf13d07d3dc2f48c3e018612,
  0xbe9c57193f0b405fba8094e6bc3ac711bf50ff97bf13d07d3dd1c64c3de6c2ad,
  0xbf1abf013f8abf77ba8094e63c3ac7113f50ff97bf13d07d3dfc8da03e0f92f3,
  0xbe28e3693f2ed213ba8094e63f50ff97bc3ac711bf13d07d3dc428d43df8cc9a,
  0xbd9907d93f558dceba8094e6bc3ac711bf50ff97bf13d07d3dbca9693e059fb2,
  0xbe4582993f031ad2ba8094e6bc3ac711bf50ff97bf13d07d3dc4a6a83de4f2ae,
  0xbe11fa763f18317bba8094e63f50ff97bc3ac711bf13d07d3dc031cf3def54d2,
  0xbda1c0ca3f077671ba8094e63c3ac7113f50ff97bf13d07d3db807ff3de91f2e,
  0xbde41feb3edb4dcfba8094e6bf50ff973c3ac711bf13d07d3dba237d3ddcf2d0,
  0xbe9b317f3f9a188bba8094e63c3ac7113f50ff97bf13d07d3ddc86cf3e18c6d6,
  0xbeea59e23f93afb8ba8094e63c3ac7113f50ff97bf13d07d3dec8a373e142cc3,
  0x3c5fe75c3f5b46bbba8094e6bc3ac711bf50ff97bf13d07d3db31f473e079789,
  0x3dc6eeb73f06d549ba8094e63c3ac7113f50ff97bf13d07d3da47a183debc6a8,
  0x3c0f53c53f011b0dba8094e63c3ac7113f50ff97bf13d07d3dadcd2d3de7fc33,
  0xbe12b5e53f9dde59ba8094e63c3ac7113f50ff97bf13d07d3dcaae293e1b2570,
  0x3c9c022a3f9ef04aba8094e63c3ac7113f50ff97bf13d07d3db8d5843e1d844d,
  0x3e3968943f9d49e9ba8094e63c3ac7113f50ff97bf13d07d3da667733e1d80e5,
  0x3eae16b53f98f241ba8094e63c3ac7113f50ff97bf13d07d3d93f9623e1d7dbf,
  0x3dcfa7a83f54eca7ba8094e6bc3ac711bf50ff97bf13d07d3da8e68e3e06e6da,
  0x3e28eda23f44302bba8094e6bf50ff973c3ac711bf13d07d3da0c0f03e03bcd3,
  0x3e002c4d3edbc3c6ba8094e63f50ff97bc3ac711bf13d07d3d9f98313de0e27e,
  0xbda9680e3ea14c44ba8094e6bf50ff973c3ac711bf13d07d3db508703dd0b5aa,
  0x3e55f6343f02be8cba8094e6bc3ac711bf50ff97bf13d07d3d977c033deb649d,
  0x3dbf2baa3ea230dbba8094e63f50ff97bc3ac711bf13d07d3da155503dd3c89f,
  0x3e2668c23f171a4cba8094e6bf50ff973c3ac711bf13d07d3d9e3f363df3d295,
  0xbdea94ff3e4f72b4ba8094e6bf50ff973c3ac711bf13d07d3db6c0d73dc3914f,
  0x3ea4ff653f0a1577ba8094e6bc3ac711bf50ff97bf13d07d3d8b4c7f3df0928a,
  0x3e3fd71b3f2d8fb4ba8094e6bf50ff973c3ac711bf13d07d3d9ce7cd3dfdf3b6,
  0x3df9e3863e505ea2ba8094e63f50ff97bc3ac711bf13d07d3d9c42203dc78b7a,
  0x3ede95313f01efd8ba8094e6bc3ac711bf50ff97bf13d07d3d7c4d233deeee95,
  0x3f234e983f888651ba8094e63c3ac7113f50ff97bf13d07d3d60d34a3e18c47a,
  0x3efc7fdc3f91fca0ba8094e63c3ac7113f50ff97bf13d07d3d8231833e1b20fb,
  0x3f4594083f797460ba8094e63c3ac7113f50ff97bf13d07d3d40c1fd3e1433d7,
  0x3f6478ea3f5d97b3ba8094e63f01c4333efc6a7fbf3504813d20b0af3e0fa377,
  0x3f0427423ed8f7dbba8094e6bf50ff973c3ac711bf13d07d3d67296f3de6e5cd,
  0x3f0b7e3d3e9ef651ba8094e6bf50ff973c3ac711bf13d07d3d5ceaf23ddaa25e,
  0x3f8b0cdd3f1b0575ba8094e63f50ff97bc3ac711bf13d07d3cd80e493e029d41,
  0x3f7f776c3f3deeccba8094e63f50ff97bc3ac711bf13d07d3d065c703e09207d,
  0x3f03589f3e4ac6ceba8094e6bf50ff973c3ac711bf13d07d3d6055753dcd70e7,
  0x3f93fd1e3eeae6a7ba8094e63f50ff97bc3ac711bf13d07d3cb2b55f3df53155,
  0x3f9a66aa3e9bbe66ba8094e63f50ff97bc3ac711bf13d07d3c8d5a5c3de527a2,
  0x3f9d980fbe384381ba8094e63f50ff97bc3ac711bf13d07d3c4d35a83daeb67c,
  0x3f9e2c673e13d578ba8094e63f50ff97bc3ac711bf13d07d3c73f5303dd338f8,
  0x3f9f3f29bc92d773ba8094e63f50ff97bc3ac711bf13d07d3c4d35a83dc149c7,
  0x3f01e397be56a61aba8094e6bf50ff973c3ac711bf13d07d3d542c3d3d9f7271,
  0x3f994068bead8149ba8094e63f50ff97bc3ac711bf13d07d3c4d35a83d9c22ab,
  0x3eda0ddcbe00d66fba8094e6bc3ac711bf50ff97bf13d07d3d69478d3da78a6e,
  0x3edbc9ac3deea961ba8094e63c3ac7113f50ff97bf13d07d3d7082493dc2df0d,
  0x3f093a93bea55497ba8094e6bf50ff973c3ac711bf13d07d3d4a04d13d9328b7,
  0x3ea1c4fc3db3f0feba8094e63c3ac7113f50ff97bf13d07d3d848a593dbdc2f4,
  0x3ea07831bdc08073ba8094e6bc3ac711bf50ff97bf13d07d3d81d29e3da945fa,
  0x3e505ea23df51d69ba8094e63c3ac7113f50ff97bf13d07d3d91b79e3dbf79c8,
  0x3e4ce78abdfb3743ba8094e6bc3ac711bf50ff97bf13d07d3d8e18ad3da42fa5,
  0x3dee3b47be510e88ba8094e63f50ff97bc3ac711bf13d07d3d962b6b3d99a6b5,
  0x3f88d467bf2303c0ba8094e63f50ff97bc3ac711bf13d07d3c8d41313d708ede,
  0x3f924a06befbea70ba8094e63f50ff97bc3ac711bf13d07d3c73dc053d8a350d,
  0x3f011516bedeea42ba8094e6bf50ff973c3ac711bf13d07d3d4d898b3d85fd05,
  0xbde52264be4dcb58ba8094e6bf50ff973c3ac711bf13d07d3dafcb4f3d96451c,
  0x3dad0edcbea21a2eba8094e63f50ff97bc3ac711bf13d07d3d97e34c3d8c82e0,
  0x3f5e311fbf642ca1ba8094e63efc6a7fbf01c433bf3504813cd7cd463d306b38,
  0x3f7a0f3dbf4547bfba8094e63f50ff97bc3ac711bf13d07d3cb2873c3d507c85,
  0xbdaa6a87bea0e736ba8094e6bf50ff973c3ac711bf13d07d3daab8a63d8a0770,
  0xbe4603d5bdeff759ba8094e6bc3ac711bf50ff97bf13d07d3dba554c3d9e5647,
  0x3de7c632bedc1ebdba8094e63f50ff97bc3ac711bf13d07d3d92c83f3d8045bb,
  0xbe4b1a2a3df7ff9bba8094e63c3ac7113f50ff97bf13d07d3dbed30f3db9085f,
  0xbe9f91603dbd48cbba8094e63c3ac7113f50ff97bf13d07d3dcb191e3db3f184,
  0xbe9c97b7bdaecaefba8094e6bc3ac711bf50ff97bf13d07d3dc782903da00d1b,
  0xbed9272d3dfe7536ba8094e63c3ac7113f50ff97bf13d07d3dd847f53db5ac8a,
  0xbed69c02bde981bfba8094e6bc3ac711bf50ff97bf13d07d3dd3cab83d9af188,
  0xbdeb966cbeda7ce1ba8094e6bf50ff973c3ac711bf13d07d3dac76d13d79da16,
  0x3ed74257bf045059ba8094e63c3ac7113f50ff97bf13d07d3d5dc6193d76f4bf,
  0x3da8bfc2bf07c0a0ba8094e6bc3ac711bf50ff97bf13d07d3d94b6a63d685879,
  0x3e474ff8bf0381c7ba8094e63c3ac7113f50ff97bf13d07d3d8845993d708cc5,
  0xbbaf6838bf01669dba8094e6bc3ac711bf50ff97bf13d07d3d9eee523d6aaf36,
  0x3e1573ebbf187d1cba8094e6bf50ff973c3ac711bf13d07d3d8c8e693d5bee3d,
  0xbdc005c4bf071f68ba8094e6bc3ac711bf50ff97bf13d07d3da8448d3d6312f5,
  0x3e2c5d64bf2f1da3ba8094e6bf50ff973c3ac711bf13d07d3d8897ea3d48ffb9,
  0xbe4b9ae1bf0219a8ba8094e63c3ac7113f50ff97bf13d07d3db492793d64da0a,
  0x3e9d3dc9bf0ba754ba8094e63c3ac7113f50ff97bf13d07d3d764cf93d6cebbc,
  0xbe22ef4ebf1765edba8094e63f50ff97bc3ac711bf13d07d3dae7e633d52fb1a,
  0x3e12ef91bf4592eaba8094e6bf50ff973c3ac711bf13d07d3d89ccb83d3480a6,
  0xbe3c5d20bf2ddb44ba8094e63f50ff97bc3ac711bf13d07d3dafd5453d3ebbfd,
  0xbe9fd1febf0970a4ba8094e63c3ac7113f50ff97bf13d07d3dc0c1fd3d5a7f3d,
  0xbed967cbbf014b16ba8094e63c3ac7113f50ff97bf13d07d3dcde6de3d5dc619,
  0xbe2573a8bf447bbbba8094e63f50ff97bc3ac711bf13d07d3dabfec13d2bb01d,
  0x3f1b9d80bf8ae547ba8094e6bc3ac711bf50ff97bf13d07d3d206d943cf88766,
  0x3f3e8837bf7f29a2ba8094e6bc3ac711bf50ff97bf13d07d3d062a1b3d1656ef,
  0x3eec16bebf93d639ba8094e6bc3ac711bf50ff97bf13d07d3d40767d3cd3bd16,
  0x3e9cee7cbf9a3f0cba8094e6bc3ac711bf50ff97bf13d07d3d607f673caef4e0,
  0x3da0064bbf55d96fba8094e63c3ac7113f50ff97bf13d07d3d9018613d241c3f,
  0xbc2847b2bf5b93bcba8094e63c3ac7113f50ff97bf13d07d3d99a2833d1c4007,
  0xbc80346ebf9f16d3ba8094e6bc3ac711bf50ff97bf13d07d3d93f1843c891e21,
  0x3e162fe0bf9e04daba8094e6bc3ac711bf50ff97bf13d07d3d8218593c9c0874,
  0xbdc8bf3cbf553837ba8094e63c3ac7113f50ff97bf13d07d3da3dab63d1f04de,
  0xbeac59b8bf9918caba8094e6bc3ac711bf50ff97bf13d07d3db8ca823c896356,
  0xbe35eeddbf9d7072ba8094e6bc3ac711bf50ff97bf13d07d3da65e033c893faf,
  0xbefac301bf922329ba8094e6bc3ac711bf50ff97bf13d07d3dca8fc13c9c475e,
  0xbf22702abf88acd2ba8094e6bc3ac711bf50ff97bf13d07d3ddc55003caf2b67,
  0xbf01907ebed7b118ba8094e63f50ff97bc3ac711bf13d07d3dd877ab3d6dd7aa,
  0xbf639a6bbf5de4c5ba8094e6bf01c433befc6a7fbf3504813dfc63283cf826ee,
  0xbf44b589bf79c172ba8094e6bc3ac711bf50ff97bf13d07d3dec5c143cd3a81e,
  0xbf08e78abe9daccdba8094e63f50ff97bc3ac711bf13d07d3ddd96ea3d832ebe,
  0xbf8a9d9dbf1b5287ba8094e6bf50ff973c3ac711bf13d07d3e0b5b2d3d302603,
  0xbf7e98eebf3e3bcdba8094e6bf50ff973c3ac711bf13d07d3e04c6613d161c37,
  0xbf938de7beeb80cbba8094e6bf50ff973c3ac711bf13d07d3e10064b3d503537,
  0x3c5ff8233f5b56973d7ae89f3d868db9bf5d0e563f00068e3f0d844d3e418b50,
  0x3c5fe75c3f5b46bbba8094e6bc378034bf5240b8bf11ff2e3f0bff583e620147,
  0x3dcfa7a83f54eca7ba8094e6bcb1c433bf52617cbf11c4333f07a4f83e639f34,
  0xbd9907d93f558dce3d7ae89f3d009d49bf59a0273f069ad43f1583733e50342b,
  0xbd9907d93f558dceba8094e6bbadab9fbf51eb85bf1282413f0fe6d63e6a4a8c,
  0x3dcfa7a83f54eca73d7ae89fbd74f0d8bf5c56d63f016f003f04c9973e43d534,
  0xbe0f75973f45475a3d7ae89f3f58db8cbd20902e3f07ae143f1ab68d3e6d69d3,
  0xbe0f75973f45475aba8094e63f51de6abc902de0bf1282413f1228dd3e79ca5c,
  0x3e28eda23f44302b3d7ae89fbf559b3d3d8240b83f0c28f63efae70c3e57b784,
  0x3e28eda23f44302bba8094e6bf51eb853badab9fbf1282413f0431f03e6e23f2,
  0xbe28e3693f2ed2133d7ae89f3f5b71763a51b7173f03d07d3f1bb7523e88826b,
  0xbe28e3693f2ed213ba8094e63f51ff2ebc3ac711bf12617c3f12c5a03e85a4ad,
  0x3e3fd71b3f2d8fb43d7ae89fbf5d8adb3d5e00d23eff14123ef30b9e3e7841ab,
  0x3e3fd71b3f2d8fb4ba8094e6bf51ff2e3c3ac711bf12617c3f0298143e7e41d5,
  0xbe11fa763f18317b3d7ae89f3f5be76d3ce219653f02de013f17bc6f3e990dbf,
  0xbe11fa763f18317bba8094e63f51eb85bbb0f27cbf1282413f111b3f3e8d8e65,
  0x3e2668c23f171a4c3d7ae89fbf5c7e283e07c84b3efb15b53ef50ce53e8ddedf,
  0x3e2668c23f171a4cba8094e6bf50f9093c3c6a7fbf13d70a3f02c57e3e87f3cf,
  0x3dc6eeb73f06d549ba8094e63aebedfa3f527bb3bf11bda53f051c193e8f7b18,
  0x3e5522643f2993f73d6807bc3f46a162bc9930be3f2168733eee90363e7ccc47,
  0x3e3544bb3f48ebee3d6807bc3f4985f0bcf0068e3f1db22d3ef9650a3e4fdc16,
  0x3dc6eeb73f06d5493d7ae89fbd0c7e283f5d8adb3efff2e53eff99c43e9c063a,
  0x3dde1b8f3f5a11ed3d6807bcbc47e2823f488ce73f1f14123f0486383e3bd6a6,
  0x3e31eb423f122de83d6807bc3f4865953ce147ae3f1f212d3ef224ab3e910cf6,
  0x3c0f53c53f011b0d3d7ae89f3da6e9793f5a30553f0446743f078fcd3ea3f6c2,
  0x3c0f53c53f011b0dba8094e63c3ac7113f50ff97bf13c9ef3f093f4b3e92f167,
  0xbda1c0ca3f077671ba8094e63c90ff973f51d7dcbf128f5c3f0d95ff3e92b778,
  0x3dd1ac9b3f022ae53d6807bcbd3851ecbf4652bd3f217c1c3efdcf253e9f4e44,
  0xbda1c0ca3f0776713d7ae89fbcb923a33f541f213f0f34d73f104fd33ea23f03,
  0x3beb2d0a3ef69b7c3d6807bcbc5013a9bf46e2eb3f21205c3f074b513ea7fc98,
  0x3decf6383eec9de03d6807bcbf4cf41fbbc49ba63f19652c3ef941423ea7a5b1,
  0xbdb0728f3f01c11e3d6807bc3c83126fbf4902de3f1e7d563f1094813ea69729,
  0xbdbfa3ba3edca9ce3d6807bc3f49374cbd0e8a723f1e00d23f0fe23f3eb4c661,
  0xbe1fcfc43f1287b13d6807bcbf49a0273d3367a13f1d566d3f1890f73e9dcec0,
  0xbe504e623f09793a3d6807bcbc23d70a3f48e8a73f1e9e1b3f1c45bb3ea64e27,
  0xbe4277813f30b9243d6807bcbf47a7873c56a1623f202de03f1e0dbb3e8805a3,
  0x3e47c4e33f08d21c3d6807bc3ccf41f23f4ce7043f1951833eec9d7c3e971950,
  0xbe232f453f4b1ef33d6807bcbf4c2f83bbd1b7173f1a64c33f1ce28f3e65fe97,
  0x3ea6fdeb3f12f5453d6807bc3c23d70a3f4d35a83f1902de3ed521bc3e8b48b2,
  0xbdaa78293f5c620b3d6807bc3cfd21ff3f49eecc3f1d288d3f16c3223e46cb53,
  0xbea757933f532bfe3d6807bc3caf4f0e3f484b5e3f1f5c293f3041353e51b60b,
  0x3c640c843f5fea923d6807bc3c3fb15b3f44af4f3f23d70a3f0dd2e13e3ae03b,
  0xbe5d744f3f5c572a3d6807bc3c92a3053f4893753f1f06f73f25b3af3e3b1d50,
  0x3c670c133f6344703d6807bc3c2a64c33f484b5e3f1f69443f0f14663e1f9592,
  0x3e0510903f60e8ea3d6807bc3bdb8bac3f487fcc3f1f27bb3f0365343e198e97,
  0xbdd0cdc83f61bbcf3d6807bc3c79096c3f4844d03f1f69443f1a89653e2a5ca3,
  0x3e79780c3f5ab23a3d6807bc3b79096c3f489a023f1f06f73eef036d3e19c497,
  0x3c9c04433f9ef10b3cd6451c3c20902e3f4ae1483f1c154d3f1400b93d3bc5df,
  0x3eb4cdfb3f50bda93d6807bc3a1d49523f4886593f1f27bb3ed773c13e205e1c,
  0x3e3968943f9d49e93cd6451c3bd1b7173f4a9fbe3f1c710d3f0496033d1f090f,
  0x3eae16b53f98f2413cd6451c3b3e0ded3f4a8c153f1c91d13eea5d4a3d215981,
  0xbe12b0213f9dde593cd6451c3c6f34d73f4adaba3f1c1bda3f231bef3d765ecc,
  0x3e3968943f9d49e9ba8094e63c3923a33f50f909bf13dd983f04d2913c93dd98,
  0x3eae16b53f98f241ba8094e63c3923a33f50f909bf13d70a3ee995683c9bd838,
  0x3c9c022a3f9ef04aba8094e63c3ac7113f50e560bf13f7cf3f14f4a53ccc1227,
  0x3efc7fdc3f91fca0ba8094e63c35dcc63f50ff97bf13d07d3ec9abb03ce032db,
  0xbe12b5e53f9dde59ba8094e63c3ac7113f50f909bf13d70a3f24b8f13d24abe7,
  0x3efc7fdc3f91fca03cd6451c3a83126f3f4b4a233f1b98c83ecbc5373d4420f7,
  0x3f234e983f888651ba8094e63c3780343f50f909bf13d70a3eaa06c83d34549b,
  0xbe9b2e9d3f9a188b3cd6451c3cde00d23f46a7f03f2154ca3f31a4df3da6fa40,
  0xbe9b317f3f9a188bba8094e63c3ac7113f50f909bf13d70a3f33d9dc3d802b84,
  0xbeea5ca33f93af083cd6451c3cadab9f3f4b367a3f1b9f563f3f63d43de04e1e,
  0xbeea59e23f93afb8ba8094e63c3c6a7f3f50ff97bf13d07d3f421d433dbc371e,
  0xbf1ac0833f8abebe3cd6451c3d1ce0763f432ca53f2560423f4c2e343e13f0bb,
  0xbf1abf013f8abf77ba8094e63c3e0ded3f50f909bf13d70a3f4f88123e02dadc,
  0x3f234e983f8886513cd6451cbb09a0273f4ba5e33f1b22d13eada31a3d839bcc,
  0x3f4594083f797460ba8094e63c35dcc63f50f909bf13d70a3e8bf39d3d8e1933,
  0x3ee9cd1c3f43368b3d6807bcbad1b7173f48e8a73f1eab363ec088d73e2d3177,
  0x3f4594083f7974603cd6451cbba0902e3f4c154d3f1a85883e90d3d03db44135,
  0x3f6478ea3f5d97b3ba8094e63f01b7173efc6a7fbf35119d3e60856e3dcfd86b,
  0x3f0d68a53f3256ef3d6807bcbb902de03f49930c3f1dd2f23eaaa7373e3fc86d,
  0x3f6478ea3f5d97b33cd6451c3ee69ad43f01eb853f3c0ebf3e6c3d683df287c2,
  0x3f7f776c3f3deeccba8094e63f50f909bc3fb15bbf13d70a3e2d86ec3e0ef805,
  0x3f2380bb3f1e699c3d6807bc3ef4d6a13eee2eb23f3eb1c43e961b4c3e57980f,
  0x3eeea52f3f0651d23d6807bcbab780343f4e2eb23f17bb303eb9a2a53e8f5621,
  0x3f36ce253f07c5583d6807bc3f495183bcd42c3d3f1e00d23e833f423e746499,
  0x3f7f776c3f3deecc3cd6451c3f4c49babcd916873f1a233a3e3b749b3e1f08cc,
  0x3f8b0cdd3f1b0575ba8094e63f50f909bc3fb15bbf13d70a3dff255f3e3c8323,
  0x3f46fcf03edd9d133d6807bc3f490ff9bcbedfa43f1e56043e64be833e8ad85e,
  0x3f8b0cdd3f1b05753cd6451c3f4bcd36bcc2f8383f1acd9f3e0f81a63e4abc94,
  0x3f93fd1e3eeae6a7ba8094e63f50f909bc3e0dedbf13d70a3dafaeff3e6fbb51,
  0x3f0ab55f3ee00a393d6807bc3f4d0e56bcc56d5d3f191d153ea7e0693e9b78ee,
  0x3f53c6b93ea7e4de3d6807bc3f488659bca71de73f1f0d843e47cbb43e9d801b,
  0x3f93fd1e3eeae6a73cd6451c3f4b645abcaa64c33f1b5dcc3dd304043e7bc87e,
  0x3f9a66aa3e9bbe66ba8094e63f50f909bc3c6a7fbf13dd983d5c68ec3e93dad7,
  0x3f9a66aa3e9bbe663cd6451c3f4b1c43bc902de03f1bc01a3d94677b3e98aeb8,
  0x3f9e2c673e13d578ba8094e63f50f909bc3ac711bf13dd983cef3b213eb1c348,
  0x3f5cf1f53e5e94253d6807bc3f482a99bc8ce7043f1f8a093e3015c23eb1cf35,
  0x3f9e2c673e13d5783cd6451c3f4aee63bc6a4a8c3f1c08313d48882f3eb54de8,
  0x3f9f3f29bc92d773ba8094e63f50f909bc3c6a7fbf13dd983c4b9a9e3ed12360,
  0x3f62569b3dd318fc3d6807bc3f483127bc6560423f1f837b3e1e0fc33ec784a9,
  0x3f141ce73ea007353d6807bc3f4d0e56bc4154ca3f19374c3e9ae0e33eb0e347,
  0x3f0b78253e4c93a73d6807bc3f4cd35bb951b7173f198c7e3e9ddf443ec77250,
  0x3f63df3bbc54b2743d6807bc3f480347bc2f4f0e3f1fc5053e11bda53ede87b1,
  0x3f9f3f29bc92d7733cd6451c3f4adababc3295ea3f1c22683d06f36f3ed34e12,
  0x3f9d980fbe384381ba8094e63f50f909bc3923a3bf13dd983b86ad2e3ef16ca4,
  0x3f618245be03f0fe3d6807bc3f4837b5bbf5c28f3f1f837b3e0b8aa03ef62c34,
  0x3f9d980fbe3843813cd6451c3f4ae148bbf5c28f3f1c1bda3ccd056c3ef22c88,
  0x3f994068bead8149ba8094e63f50f909bc3923a3bf13d70a3b86ad2e3f08fbb9,
  0x3f0695b8be526d483d6807bc3f4c28f6bcdc5d643f1a4a8c3e91aed53f096f76,
  0x3f5b4d27be784cf03d6807bc3f485f07bb8ce7043f1f559b3e0b923a3f06e393,
  0x3f994068bead81493cd6451c3f4b089abb89a0273f1bedfa3ccd2d453f08a7f8,
  0x3f924a06befbea70ba8094e63f50f909bc378034bf13d70a3c4a81993f1921ab,
  0x3f515864beb43b713d6807bc3f486c22baaa64c33f1f41f23e11c64c3f129b6b,
  0x3f924a06befbea703cd6451c3f4b4a23ba83126f3f1b98c83d0717163f181ba8,
  0x3f88d467bf2303c0ba8094e63f50f909bc378034bf13dd983cebdd333f28e65c,
  0x3f88d467bf2303c03cd6451c3f4ba5e33b09a0273f1b22d13d47af213f27314d,
  0x3f7a0f3dbf4547bfba8094e63f50f27cbc3923a3bf13e4263d59ddc23f38029f,
  0x3f43d007bee9374c3d6807bc3f48e2193aded2893f1eb1c43e1e3b043f1e0e1f,
  0x3f7a0f3dbf4547bf3cd6451c3f4c1bda3ba0902e3f1a85883d93b9f13f35a5ca,
  0x3f5e311fbf642ca1ba8094e63efc5048bf01bda5bf35119d3dae4f333f462f06,
  0x3f32f04abf0d1c5c3d6807bc3f498c7e3b8ce7043f1dd2f23e30c5eb3f290b95,
  0x3f0ded7cbeaacd183d6807bc3f4bc6a8bc03126f3f1af4f13e8605253f14b6fa,
  0x3f5e311fbf642ca13cd6451c3edf2e49bf0532613f3c01a33dd252483f43357e,
  0x3f3e8837bf7f29a2ba8094e6bc3fb15bbf50f909bf13d70a3dfddb123f532bbb,
  0x3f1f0319bf2334833d6807bc3eee2eb2bef4d6a13f3eb1c43e48d36b3f336018,
  0x3f0441ffbee3e4cd3d6807bc3f4b78033be8a71e3f1b5dcc3e89ec703f1ff349,
  0x3f085eb3bf3681cb3d6807bcbcd4fdf4bf494af53f1e00d23e65fa663f3cdb05,
  0x3f3e8837bf7f29a23cd6451cbcd91687bf4c49ba3f1a233a3e0f3b643f4fa398,
  0x3f1b9d80bf8ae547ba8094e6bc3fb15bbf50f909bf13d70a3e2d0e993f5ec083,
  0x3f093a93bea554973d72085bbf59930c3b449ba63f06e2eb3e89dd7f3f140f88,
  0x3f1b9d80bf8ae5473cd6451cbcc2f838bf4bcd363f1acd9f3e3b62843f5ab96f,
  0x3eec16bebf93d639ba8094e6bc3c6a7fbf50f909bf13d70a3e60c5653f68bc17,
  0x3edecd08bf46b0963d6807bcbcbedfa4bf48bac73f1ec56d3e83c7d63f45563b,
  0x3edb1cebbf077d523d6807bcbd0240b8bf4b573f3f1b573f3e97e8253f2943d0,
  0x3eec16bebf93d6393cd6451cbcaa64c3bf4b6ae83f1b573f3e6ce1c63f6447b2,
  0x3e9cee7cbf9a3f0cba8094e6bc3c6a7fbf50f909bf13d70a3e8c96ab3f70f323,
  0x3ea911cfbf5378dd3d6807bcbca71de7bf48a71e3f1edfa43e969a703f4ca1cf,
  0x3e9cee7cbf9a3f0c3cd6451cbc902de0bf4b1c433f1bc01a3e91717e3f6c2657,
  0x3e162fe0bf9e04daba8094e6bc3c6a7fbf50f909bf13d70a3eaa94bc3f7747d8,
  0x3e60ee07bf5ca42b3d6807bcbc8ce704bf481d7e3f1f97243eab5b0c3f529c24,
  0x3e39f2febf32c4933d6807bc3f452bd438d1b7173f2346dc3ebd56b03f3e6e11,
  0x3e162fe0bf9e04da3cd6451cbc6a4a8cbf4aee633f1c08313eae30a93f7238da,
  0xbc80346ebf9f16d3ba8094e6bc3c6a7fbf50f909bf13dd983ec9d55e3f7bb7e9,
  0x3dd7ccc0bf6208c03d6807bcbc656042bf4810623f1faace3ec191ff3f5721e6,
  0xbc80346ebf9f16d33cd6451cbc3295eabf4adaba3f1c22683ecc358b3f7677a3,
  0xbe35eeddbf9d7072ba8094e6bc3c6a7fbf50f909bf13dd983eea08e13f7e598e,
  0xbc2f709bbf6391823d6807bcbc2f4f0ebf4837b53f1f837b3ed87df63f5a2e4d,
  0x3e1c73acbf49743f3d6807bc3f474bc73cd5cfab3f2089a03ebfa7eb3f47952d,
  0xbe35eeddbf9d70723cd6451cbbf5c28fbf4ae1483f1c1bda3eeb23143f78f606,
  0xbeac59b8bf9918caba8094e6bc378034bf50f909bf13d70a3f057f633f7ef651,
  0xbe019c9dbf61347a3d6807bcbbf5c28fbf487fcc3f1f2e493eefeda63f5c23ea,
  0x3daa36a0bf59d69d3d6807bcbd2e7d56bf45e3543f220c4a3ecaa90d3f4f16c2,
  0xbeac59b8bf9918ca3cd6451cbb89a027bf4b089a3f1bedfa3f055a9f3f797eaa,
  0xbefac301bf922329ba8094e6bc3923a3bf50f909bf13d70a3f16172b3f7d64b6,
  0xbe75fe54bf5aff3b3d6807bcbb8ce704bf489a023f1f0d843f040b783f5c893b,
  0xbc2c5c14bf601f323d6807bcbc2dab9fbf4525463f2346dc3edb75ea3f534e33,
  0xbefac301bf9223293cd6451cba83126fbf4b4a233f1b98c83f1538153f77f20a,
  0xbf22702abf88acd2ba8094e6bc3c6a7fbf50ebeebf13eab33f2673933f799620,
  0xbeb3111fbf510aaa3d6807bcba9d4952bf48c1553f1edfa43f1022cd3f5b44a2,
  0xbdd46fdfbf5968303d6807bc3c9d4952bf4703b03f20f27c3eee2b283f530b7c,
  0xbf22702abf88acd23cd6451c3b09a027bf4ba5e33f1b22d13f24d90e3f7444e1,
  0xbf44b589bf79c172ba8094e6bc35dcc6bf50f909bf13d70a3f363d2e3f739410,
  0xbe32934bbf4983303d6807bcbf4a29c73d1ce0763f1cbfb13efe78e23f4ec5d2,
  0xbf44b589bf79c1723cd6451c3ba0902ebf4c154d3f1a85883f33ec893f6e8017,
  0xbf639a6bbf5de4c5ba8094e6bf01bda5befc5048bf35119d3f4522b83f6b7692,
  0xbee8101fbf43839d3d6807bc3b86594bbf48ce703f1ec56d3f1bf77b3f585565,
  0xbf0c8a37bf32a4013d6807bc3bdb8bacbf49652c3f1e0ded3f2759ab3f53d6b6,
  0xbf639a6bbf5de4c53cd6451cbee69ad4bf01eb853f3c0ebf3f4225c83f66ba38,
  0xbf7e98eebf3e3bcdba8094e6bf50ff973c4154cabf13d07d3f52d59d3f61611c,
  0xbf22a23cbf1eb6ae3d6807bcbef4d6a1beee2eb23f3eb8523f321b193f4de8f7,
  0xbf7e98eebf3e3bcd3cd6451cbf4c49ba3cd916873f1a233a3f4f39f33f5d1559,
  0xbf8a9d9dbf1b5287ba8094e6bf50f9093c3e0dedbf13d70a3f5f0ccc3f558341,
  0xbf35efa6bf08126a3d6807bcbf4972473cd4fdf43f1dd2f23f3bff7a3f469af6,
  0xbf05372abedbea4f3d6807bcbf4a9fbe3d1c0ebf3f1c28f63f27cdab3f33e4de,
  0xbf8a9d9dbf1b52873cd6451cbf4bcd363cc2f8383f1acd9f3f5ae42a3f51bea1,
  0xbf938de7beeb80cbba8094e6bf50f9093c3c6a7fbf13d70a3f6988903f481a05,
  0xbf461e71bede37153d6807bcbf48c7e33cbe0ded3f1eb1c43f44d65e3f3e1251,
  0xbf938de7beeb80cb3cd6451cbf4b645a3caa64c33f1b5dcc3f64e7ab3f44ef13,
  0xbf99f773be9c5868ba8094e6bf50f9093c3c6a7fbf13dd983f7219873f3968e8,
  0xbf52e829bea87e9e3d6807bcbf485f073ca71de73f1f41f23f4c61c83f3470fc,
  0xbf99f773be9c58683cd6451cbf4b1c433c902de03f1bc01a3f6d16553f36e58a,
  0xbf9dbd30be15097dba8094e6bf50f9093c3e0dedbf13d70a3f789d063f29b2f6,
  0xbf5c1377be5fc2a93d6807bcbf4851ec3c8db8bb3f1f559b3f5282623f29e28b,
  0xbf0db5fabea2cd183d6807bcbf49c77a3c809d493f1d7dbf3f2e10e03f2a3172,
  0xbf9dbd30be15097d3cd6451cbf4aee633c6a4a8c3f1c08313f734d8c3f27e293,
  0xbf9ecfea3c89656fba8094e6bf50f9093c3c6a7fbf13dd983f7cf3453f193900,
  0xbf6177fbbdd580803d6807bcbf4831273c6703b03f1f837b3f57253e3f1e9b28,
  0xbf05f7f9be4a187a3d6807bcbf4c710d3bd4fdf43f1a0f913f2d187e3f1dcd4f,
  0xbf6300bd3c41ce6c3d6807bcbf4803473c2f4f0e3f1fc5053f5a3ef33f12a423,
  0xbf9ecfea3c89656f3cd6451cbf4adaba3c3295ea3f1c22683f776ff43f182731,
  0xbf9d28d83e370f39ba8094e6bf50f9093c378034bf13d70a3f7ef2a63f0848cf,
  0xbf60a3d73e02bcb63d6807bcbf4837b53bf5c28f3f1f837b3f5bb2893f065d9e,
  0xbf9d28d83e370f393cd6451cbf4ae1483bf5c28f3f1c1bda3f79550d3f07fbce,
  0xbf98d1283eace725ba8094e6bf50f9093c378034bf13d70a3f7ea1a53eee7019,
  0xbf066d163e577b393d6807bcbf490ff93d06594b3f1e425b3f34de1a3eef3d5c,
  0xbf5a6ea83e771eb03d6807bcbf4831273b8ce7043f1f8a093f5b79d93ef4486b,
  0xbf98d1283eace7253cd6451cbf4b089a3b89a0273f1bedfa3f79014b3eef631b,
  0xbf91dacf3efb504cba8094e6bf50ebee3c3e0dedbf13e4263f7bf8443ecc78a7,
  0xbf5079f63eb3a14d3d6807bcbf48b4393aaa64c33f1eecc03f599aa63edc200c,
  0xbf91dacf3efb504c3cd6451cbf4b4a233a83126f3f1b98c83f7660803ecf16d3,
  0xbf8865303f22b6bfba8094e6bf50f9093c378034bf13d70a3f76cd4b3eabd3e5,
  0xbf0d0d5a3ea98e973d6807bcbf4bb98c3c902de03f1af4f13f3a48523ed94a90,
  0xbf42f1783ee89d6b3d6807bcbf49096cbaded2893f1e7d563f5613c23ec4b557,
  0xbf8865303f22b6bf3cd6451cbf4ba5e3bb09a0273f1b22d13f719b3d3eafe9b8,
  0xbf7930be3f44fabeba8094e6bf50ebee3c35dcc6bf13eab33f6fa10a3e8d8772,
  0xbf3211dc3f0ccf4a3d6807bcbf493dd9bb89a0273f1e3bcd3f50fb763eae7a96,
  0xbf7932403f44fabe3cd6451cbf4c2268bba0902e3f1a7efa3f6adeca3e92c2bd,
  0xbf5d52b13f63dfa0ba8094e6befc50483f01bda5bf35119d3f66b8303e62d128,
  0xbf5d52b13f63dfa03cd6451cbedf2e493f052bd43f3c01a33f6242073e6fc4c1,
  0xbf3da9b93f7edca0ba8094e63c3fb15b3f50f909bf13d70a3f5bf3f13e2f459e,
  0xbf1e249a3f22e7713d6807bcbeee2eb23ef4d6a13f3eb1c43f4a80493e99d628,
  0xbf3da9b93f7edca03cd6451c3cd916873f4c49ba3f1a233a3f57eb073e3ed02d,
  0xbf0780453f3634b93d6807bc3cd4fdf43f4972473f1dd2f23f42c0d73e87264a,
  0xbedd12cb3f4662353d6807bc3caa64c33f48d4fe3f1eab363f39f55a3e6d798e,
  0xbedbb7fa3f0863393d6807bc3d102de03f4ae7d53f1bda513f3153373eae831b,
  0xbea0f4303f0f73b03d6807bc3c95e9e23f476c8b3f206f693f26da553ea57f73,
  0xbf05d5b23ee4c1873d6807bcbf4b0f28bbd844d03f1be0df3f3907ea3ec1ede1,
  0xbed65b643f03e9853d76a0dc3cd77319bf598c7e3f06c8b43f2ffc013eb18a65,
  0xbf0d0d5a3ea98e973d6807bcbe5326183ca57a78be876c8b3f3a48523ed94a90,
  0xbf00a02c3ede19983d76a0dc3f585f07bd3b2fec3f0858793f36d14a3ec3ba13,
  0xbf016ece3e550a463d76a0dc3f5a92a33d7c50483f045a1d3f32eaa73eeefc16,
  0xbf08c73b3ea486ad3d76a0dc3f5cfaadb8d1b7173f0141203f3882bf3eda9a80,
  0xbed65b643f03e985ba8094e6bbce703bbf51cac1bf12b6ae3f2a4ffd3ebffbad,
  0xbf00a1ad3ede1998ba8094e63f51bda5bc86594bbf12bd3c3f2e2bbf3ecac40d,
  0xbe9c57193f0b405fba8094e6bc3923a3bf51d7dcbf129c783f241bb93eba2e1b,
  0xbf08c73b3ea486adba8094e63f51d7dcbc3923a3bf129c783f2edacb3ed74be8,
  0xbf01703f3e550a46ba8094e63f51c433bbd1b717bf12bd3c3f2c2afe3ee2b9f5,
  0xbe9c57193f0b405f3d76a0dcbcf837b5bf5d1b713f00cb293f25adc93ea85f07,
  0xbe4582993f031ad2ba8094e6bca0902ebf52339cbf120c4a3f1d801b3eba7525,
  0xbe4582993f031ad23d76a0dcbdbb98c8bf5bfb163f00cb293f1ad3a63eaac062,
  0xbde41feb3edb4dcf3d76a0dcbf55a1cb3c95182b3f0cfaad3f1186553eb5e4a4,
  0xbde41feb3edb4dcfba8094e6bf51c4333bce703bbf12bd3c3f182e023ec1b329,
  0xbed9272d3dfe75363d76a0dc3d6f9db23f578d503f094af53f295a6c3efac3a8,
  0xbed9272d3dfe7536ba8094e63c87fcb93f51bda5bf12b6ae3f26a5403eea2a6f,
  0xbda9680e3ea14c443d76a0dcbf5b71763db573eb3f01de6a3f0c31163ec9e365,
  0xbda9680e3ea14c44ba8094e6bf51d7dc3c3c6a7fbf129c783f15aa933ecd3804,
  0xbed8db273dc5aa2e3d6807bc3aebedfabf4bfb163f1ab3683f28c6b53f000608,
  0xbe9f91603dbd48cb3d76a0dc3bf27bb33f5a9fbe3f052bd43f1e21533efd2bd4,
  0xbe9f91603dbd48cbba8094e63c3ac7113f50ff97bf13d07d3f1fe76d3eea64a1,
  0xbe4b1a2a3df7ff9bba8094e63b5844d03f523a2abf1212d73f19b5423ee5716d,
  0xbe9f405f3d96eb4f3d6807bcbc4e703bbf4865953f1f48803f1db65f3f0053a0,
  0xbe4b1a2a3df7ff9b3d76a0dcbd3ac7113f5b7e913f03404f3f14216c3ef2a51e,
  0xbdea94ff3e4f72b43d76a0dcbf5f3b643c9ba5e33efa786c3f0d90193ee08d4c,
  0xbdea94ff3e4f72b4ba8094e6bf50ff973c3ac711bf13d07d3f1614493eda4357,
  0xbe4aabcd3dce65bf3d6807bcbd264c30bf4893753f1ebee03f13ac603ef68d97,
  0xbdea49803e367b5f3d6807bc3f492a303bbac7113f1e56043f0d1e543ee5284a,
  0xbd8790323ea161c33d6807bc3f47ae14bbf9096c3f202de03f0ab3033ec94fad,
  0x3d8f5b1d3ea2135e3d6807bcbf4b645a3c2f4f0e3f1b71763efcd0573ec48f54,
  0xbe46783abdc37a3e3d6807bc3aebedfa3f4ae1483f1c22683f0f74043f0e2878,
  0x3dbf2baa3ea230db3d7482bf3f59096cbc5844d03f07bb303ef89a463ec3beec,
  0xbed6d8d3bdbc86493d6807bc3ccb295f3f4a85883f1c779a3f24e3583f11cfcc,
  0xbe9cd5d8bd905c893d6807bc3c4ccccd3f471de73f20ded33f1a774f3f0ddfb9,
  0x3e002c4d3edbc3c63d7482bf3f591687bd178d503f075f703ef604e23ead931d,
  0xbf05f7f9be4a187a3d6807bcbdbb645a3d3c01a3be2fec573f2d187e3f1dcd4f,
  0x3e55f6343f02be8c3d7482bf3c7aacdabf55f06f3f0c84b63ee906ee3e9b061c,
  0x3e002c4d3edbc3c6ba8094e63f51b717bc88ce70bf12c3ca3ee4e2f33eb3ffac,
  0x3e55f6343f02be8cba8094e6bbce703bbf51c433bf12bd3c3edd7b853ea95161,
  0x3dbf2baa3ea230dbba8094e63f51d7dcbc3e0dedbf129c783ee607e63ec03c8e,
  0x3ea4ff653f0a1577ba8094e6bc3ac711bf51d7dcbf129c783ed168f93ea397ff,
  0x3df9e3863e505ea23d7482bf3f567a103ce978d53f0b923a3eed8e223ed73f10,
  0x3df9e3863e505ea2ba8094e63f51c433bbce703bbf12bd3c3ee0a1383ecb5159,
  0x3ea4ff653f0a15773d7482bfbc2dab9fbf56809d3f0bb98c3ed4764b3e922835,
  0x3ede95313f01efd8ba8094e6bca0902ebf522d0ebf1212d73ec42bfa3ea3c947,
  0x3ede95313f01efd83d7482bfbcf4f0d8bf5844d03f08c1553ebeee743e940f24,
  0x3f0427423ed8f7db3d7482bfbf4d49523d52f1aa3f185f073eac33943e9f210c,
  0x3f0427423ed8f7dbba8094e6bf51c4333bce703bbf12bd3c3eb94c013eab3f21,
  0x3f0b7e3d3e9ef6513d7482bfbf56a1623c68a71e3f0b7e913ea10b413eb2a561,
  0x3f0b7e3d3e9ef651ba8094e6bf51d7dc3c3923a3bf129c783eb39e493eb66a98,
  0x3f03589f3e4ac6ce3d7482bfbf55aee63d6978d53f0c36113ea3d1ab3ec91948,
  0x3f03589f3e4ac6ceba8094e6bf50ff973c3ac711bf13d07d3eb4918e3ec2cf96,
  0x3edbc9ac3deea961ba8094e63b51b7173f523a2abf1219653ebc16593ecd9104,
  0x3eee4fb93dec7fbb3d6807bcbd0ce704bf4ba5e33f1ae1483eaa25743ed9a47b,
  0x3edbc9ac3deea9613d7482bf3d1168733f5b4a233f03c9ef3eb1142b3edae536,
  0x3ea1c4fc3db3f0fe3d7482bf3da0f9093f57a7873f08793e3ec4d8fd3ee54bad,
  0x3ea1c4fc3db3f0feba8094e63c3ac7113f50ff97bf13d07d3ec8624e3ed2a130,
  0x3e505ea23df51d69ba8094e63c88ce703f51b717bf12c3ca3ed5b6a23ed280f1,
  0x3ea1a1983d8c12ae3d6807bcbc54fdf4bf49d4953f1d70a43ec423743ee8ed3e,
  0x3edd8106bde0d66f3d6807bcbb96bb993f4b78033f1b5dcc3ea75d573f02cc81,
  0x3e505ea23df51d693d7482bf3d706f693f56fd223f0a29c73edb1e5c3ee2dd16,
  0x3e4ff3283db8f8a53d6807bc3b4b295fbf4c22683f1a786c3eda19223ee8854d,
  0x3e4d1fe6bddbdc6a3d6807bc3ce8a71e3f4a85883f1c6a7f3ed300bd3f071184,
  0x3db59ee93e503cd13d6807bcbf4cfaad3cbfb15b3f193dd93ef3fa093ed88ebd,
  0x3ea09481bda0df593d6807bc3c271de73f4944673f1e28243ebeab583f02454e,
  0xbdba6613be4d2b2c3d6807bc3f4a36e3bcf694463f1cc63f3f03af323f15a4cf,
  0x3dd9baa1be47620f3d6807bcbf49ad43bc727bb33f1da5123ee1a06a3f112125,
  0x3e4ce78abdfb37433d72085b3d2161e5bf595e9e3f06dc5d3ed26fe73f08826b,
  0x3ea07831bdc080733d72085bbc3ac711bf5a64c33f0581063ebe15013f03bb95,
  0x3f01e397be56a61a3d72085bbf56f694bcae7d563f0ae7d53e95271c3f0a2175,
  0x3eda0ddcbe00d66f3d72085bbd428f5cbf5951833f06c2273ea81eef3f047b67,
  0x3eda0ddcbe00d66fba8094e6bca161e5bf521ff3bf121ff33ead39753f0c904f,
  0x3ea07831bdc08073ba8094e6bc3ac711bf51d14ebf12a3053eba81fe3f0c9720,
  0x3f01e397be56a61aba8094e6bf51c4333bce703bbf12bd3c3ea23a4b3f1030d3,
  0x3e4ce78abdfb3743ba8094e6bbd1b717bf51c433bf12bd3c3ec6afcd3f0f97dd,
  0x3f093a93bea55497ba8094e6bf51d14e3c3ac711bf12a3053e9cb9673f15d713,
  0x3dee3b47be510e883d72085b3f591d15bd2c08313f07381d3edf546d3f11cf46,
  0x3dee3b47be510e88ba8094e63f51bda5bc872b02bf12bd3c3ece11fd3f150bd8,
  0x3f011516bedeea423d72085bbf5a71de3dff62b73f019ce03e8ccf073f1f5009,
  0x3f011516bedeea42ba8094e6bf50f9093c3c6a7fbf13d07d3e9dece53f1c25d0,
  0x3ed74257bf045059ba8094e63b5ed2893f523a2abf1219653ea508923f21c5d6,
  0x3dad0edcbea21a2e3d72085b3f5902debc3780343f07c84b3ee1dbec3f1d1d47,
  0x3dad0edcbea21a2eba8094e63f51d14ebc3e0dedbf12a3053ecf24743f1b441c,
  0x3ed74257bf0450593d72085bbc6a4a8c3f5a30553f05d6393e99e14c3f2837c5,
  0x3de7c632bedc1ebd3d72085b3f570a3d3caa64c33f0acd9f3ed6ac433f2701eb,
  0x3de7c632bedc1ebdba8094e63f51c433bbd1b717bf12bd3c3ec99b2c3f20d1fa,
  0x3ea1b9b6bf0fad9f3d6807bcbc7aacdabf4978d53f1de00d3eab1c433f2f064f,
  0x3e9d3dc9bf0ba7543d72085b3dbb2fec3f5793de3f0816f03ead6c723f2db65f,
  0x3e9d3dc9bf0ba754ba8094e63c3ac7113f50ff97bf13d07d3eb147d03f245964,
  0x3e474ff8bf0381c7ba8094e63c86594b3f51bda5bf12b6ae3ebea93f3f24537e,
  0x3e474ff8bf0381c73d72085bbc9446743f517c1c3f13126f3ec3ce213f2c6738,
  0x3e40639dbf0743203d6807bc3c09a027bf4a92a33f1c84b63ec461b73f2e15fd,
  0x3dc52ac7bee369553d6807bcbf4ced913ccccccd3f194af53ed94db63f289928,
  0x3d858c4cbea1f6cb3d6807bcbf4b923a3c3780343f1b2fec3ee553ce3f1d6ece,
  0x3e219f80bf139baa3d6807bc3f49ba5ebd2e7d563f1d3c363ec783383f333eff,
  0x3daf8f8abf0272753d6807bcbc2dab9f3f47ef9e3f1fd8ae3ed8722a3f2ef3c3,
  0xbbe88df3bef883fd3d6807bc3c185f073f47381d3f20be0e3eeaecf23f2e6c2b,
  0x3e2c5d64bf2f1da33d79d3ccbf60be0e3aded2893ef532613ec0589b3f3d53bd,
  0x3e1573ebbf187d1c3d79d3ccbf5b8bacbc5013a93f03a29c3ec8c0273f354984,
  0x3e12ef91bf4592ea3d79d3ccbf5da5123d70d8453efe69ad3ec1f72f3f4653fc,
  0x3e2c5d64bf2f1da3ba8094e6bf51ff2e3c3ac711bf12617c3ed1e98e3f3f1594,
  0x3e12ef91bf4592eaba8094e6bf51de6a3c902de0bf1282413ed2a8443f4367b2,
  0x3e1573ebbf187d1cba8094e6bf51eb853badab9fbf1282413ed5d1e53f3b340d,
  0x3da0064bbf55d96fba8094e63ac49ba63f527bb3bf11bda53ed800c93f472fdc,
  0x3da8bfc2bf07c0a03d79d3ccbd7e5c92bf596bba3f0638863ed82cb23f30f744,
  0x3da8bfc2bf07c0a0ba8094e6bc902de0bf51de6abf1282413edd3ef73f38a266,
  0x3da0064bbf55d96f3d79d3ccbd009d493f5d42c43f007c853ecc347f3f4db8dc,
  0xbbaf6838bf01669d3d79d3ccbbdb8bacbf5cfaad3f013a933ee994e23f303dee,
  0xbbaf6838bf01669dba8094e6bc3ac711bf51ff2ebf12617c3ee63f363f389492,
  0xbc285879bf5ba2273d79d3cc3c9c779a3f5e00d23efed2893edc2aed3f51aad6,
  0xbc2847b2bf5b93bcba8094e63c3fb15b3f5240b8bf1205bc3edfd04a3f4968e8,
  0xbdc005c4bf071f683d79d3cc3d82a993bf5ac0833f03fe5d3ef9bc993f340725,
  0xbdc005c4bf071f68ba8094e6bc3c6a7fbf50ff97bf13c9ef3eee25ea3f3ab3ff,
  0xbe22ef4ebf1765edba8094e63f52617cbcadab9fbf11bda53ef2dafd3f3e743a,
  0xbdc8bf3cbf5538373d79d3cc3e0bc6a83f5c50483efb2fec3eedd93c3f516463,
  0xbdc8bf3cbf553837ba8094e63c3c6a7f3f50f909bf13d70a3ee8a5ce3f4934ce,
  0xbe2573a8bf447bbbba8094e63f527525baebedfabf11bda53eefbaed3f46c398,
  0xbe2573a8bf447bbb3d79d3cc3f5c63f13c3923a33f02339c3efcf9a03f4ca15a,
  0xbe4f7836bf32b65b3d6807bcbf4758e23cb5dcc63f2089a03f0403363f46c259,
  0xbe3c5d20bf2ddb443d79d3cc3f596bbabe05bc023f02eb1c3f02b0643f44852b,
  0xbe3c5d20bf2ddb44ba8094e63f50ff97bc3c6a7fbf13c9ef3ef3239a3f42d82c,
  0xbe22ef4ebf1765ed3d79d3cc3f5d0e563c22339c3f0119ce3f01f03d3f3b7846,
  0xbe2adbc6bf1340c43d6807bcbf47ef9ebcb50b0f3f1fc5053f030dd83f3a12f9,
  0xbdc6a876bf032f663d6807bc3d6978d53f456d5d3f2254613efb09c83f32a8da,
  0xbe9a7a63bf0d5e8d3d6807bcbc96bb99bf47d5673f1ff2e53f1075823f3abf77,
  0xbde318b9bee4996b3d6807bc3f4a30553c809d493f1cfaad3f004ef93f2ccb19,
  0xbedfed85bf0622f73d6807bc3bded289bf4c56d63f1a36e33f1dc1e83f3a9281,
  0xbe45479dbf05696e3d6807bcbd1652bdbf4893753f1ecbfb3f06c8603f35690a,
  0xbe9fd1febf0970a43d7477363cb5dcc63f5b851f3f0395813f11c50d3f397bb7,
  0xbe4b9ae1bf0219a83d747736bce147ae3f5be0df3f02eb1c3f07acd63f344b2b,
  0xbed967cbbf014b163d7477363d3717593f5724743f0a43fe3f1cefbb3f3868ec,
  0xbdeb966cbeda7ce13d747736bf5c01a33cfec56d3f02a9933f0125033f2b08ff,
  0xbe4b9ae1bf0219a8ba8094e63b5ed2893f523a2abf1212d73f0d64523f2d8d26,
  0xbe9fd1febf0970a4ba8094e63c3ac7113f50ff97bf13d07d3f139ce93f302b41,
  0xbdeb966cbeda7ce1ba8094e6bf50ff973c3ac711bf13d07d3f09aad63f280f45,
  0xbed967cbbf014b16ba8094e63c88ce703f51b717bf12c3ca3f1a53fc3f303526,
  0xbdaa6a87bea0e736ba8094e6bf51d7dc3c3e0dedbf129c783f0945843f21d12d,
  0xbf01907ebed7b118ba8094e63f51c433bbd1b717bf12bd3c3f1fd8cf3f2c66a1,
  0xbdaa6a87bea0e7363d747736bf5bfb163c535a863f02e48f3f0003bc3f1fe261,
  0xbde52264be4dcb58ba8094e6bf51c4333bd1b717bf12b6ae3f0c34e33f1c2c6f,
  0xbf018f2ebed7b13a3d7477363f59ad433d0c154d3f0673823f2698143f32c604,
  0xbf08e78abe9daccdba8094e63f51d7dcbc3e0dedbf129c783f22d8e43f26c4c6,
  0xbf08e78abe9daccd3d7477363f5b15b5bd044d013f0432ca3f2c7fcc3f28d35b,
  0xbf00c1fdbe4833c6ba8094e63f51b717bc872b02bf12c3ca3f2276b83f207b57,
  0xbf00c08bbe4833c63d7477363f595183bdc6dc5d3f0504813f2b2a5a3f1d2dba,
  0xbed69c02bde981bfba8094e6bbce703bbf51c433bf12bd3c3f1ebabf3f1b1c00,
  0xbed69c02bde981bf3d7477363d00346ebf5809d53f091d153f2470653f13dd44,
  0xbe9c97b7bdaecaefba8094e6bc3923a3bf51d7dcbf129c783f188d2a3f184535,
  0xbe9c97b7bdaecaef3d747736bb727bb3bf5c710d3f022d0e3f1a20cd3f0f4928,
  0xbe4603d5bdeff759ba8094e6bca0902ebf522d0ebf1212d73f11c4653f185bf2,
  0xbe4603d5bdeff7593d747736bd827525bf5a0f913f051eb83f0f01da3f10404a,
  0xbde52264be4dcb583d747736bf52e48f3ccb295f3f10f9093f05ae4f3f161f19,
  0xbd8913a5bea104f73d6807bc3f489a02bc07fcb93f1f06f73efd197a3f1f9d80]

set_option maxRecDepth 100000 in
/-- the triangles of `BUMPER_SOCKET_INDICES`, /repo/src/vpx/mesh/bumpers/bumper_socket_mesh.rs:506-693 -/
def bumperSocketTris : List Nat := [
  0x000000010002, 0x000200010003, 0x000300040005, 0x000200030006, 0x000300050007, 0x000300070006, 0x000700050008,
  0x000700080009, 0x00020006000a, 0x00070009000b, 0x0007000b000c, 0x000d000b0009, 0x0002000a000e, 0x000d000f000b,
  0x0010000b000f, 0x000d0011000f, 0x0010000f0012, 0x00110013000f, 0x001200140010, 0x001200150014, 0x001600140015,
  0x001600170014, 0x001100180013, 0x001100190018, 0x0018001a0013, 0x001b00170016, 0x001b0016001c, 0x0018001d001e,
  0x0018001e001a, 0x001a001e001f, 0x001a001f0020, 0x001a00200021, 0x002000220021, 0x001b00230017, 0x002300240017,
  0x00250023001b, 0x002300260024, 0x0025001b0027, 0x002600280024, 0x002900250027, 0x00290027002a, 0x0026002b0028,
  0x002c0029002a, 0x002c002a0022, 0x0020002d0022, 0x0020002e002d, 0x002c0022002d, 0x002c002d002f, 0x002c002f0030,
  0x00300031002c, 0x003000320031, 0x003000330032, 0x003000340033, 0x003300350032, 0x003300360037, 0x003300370035,
  0x003800350037, 0x003800370039, 0x00380039003a, 0x0038003b0035, 0x0038003c003b, 0x0035003b003d, 0x0035003d003e,
  0x003c003f003b, 0x003d0040003e, 0x003d00410040, 0x004100420040, 0x004100430042, 0x0043002b0042, 0x00430044002b,
  0x003c0045003f, 0x003c00460045, 0x00450047003f, 0x0048002b0044, 0x00480028002b, 0x004900480044, 0x0045004a0047,
  0x0045004b004a, 0x0049004c0048, 0x00280048004d, 0x004e004c0049, 0x0028004d004f, 0x004d0050004f, 0x004d00510050,
  0x005100520050, 0x005100530052, 0x005300060052, 0x0053000a0006, 0x004e0054004c, 0x004a00550047, 0x0054004e0056,
  0x0056004e0057, 0x005400560058, 0x005600570059, 0x00540058005a, 0x005b00590057, 0x005c0054005a, 0x005b0057005d,
  0x005b005d0055, 0x005c005a005e, 0x005b0055005f, 0x0060005c005e, 0x00600061005c, 0x006200610060, 0x006200600063,
  0x004a00640055, 0x004a00650064, 0x006600550064, 0x0066005f0055, 0x00660067005f, 0x00670068005f, 0x006700690068,
  0x0067006a0069, 0x0067006b006a, 0x006a006c0069, 0x006a0063006c, 0x006a006d0063, 0x006a006e006d, 0x00620063006d,
  0x0062006d006f, 0x0062006f0070, 0x007000710062, 0x007000720071, 0x007000730072, 0x007200740071, 0x007200750074,
  0x007200760075, 0x0075000a0074, 0x0075000e000a, 0x00750077000e, 0x00780079007a, 0x007b00790078, 0x007b007c0079,
  0x0078007a007d, 0x007e007c007b, 0x007e007f007c, 0x0080007d007a, 0x0080007a0081, 0x0082007f007e, 0x00820083007f,
  0x008400800081, 0x008400810085, 0x008600830082, 0x008600870083, 0x008800840085, 0x008800850089, 0x00880089008a,
  0x00800084008b, 0x0088008b0084, 0x007d0080008c, 0x0080008b008c, 0x0088008a008d, 0x007d008c008e, 0x0078007d008e,
  0x008d008f0088, 0x0088008f008b, 0x0090008d008a, 0x0090008a0091, 0x009000910092, 0x008d0093008f, 0x00900093008d,
  0x009400920087, 0x009000920094, 0x009400870086, 0x009000950093, 0x009400950090, 0x0096008f0093, 0x009400970095,
  0x009800930095, 0x009800950097, 0x009800960093, 0x009900970094, 0x009900940086, 0x00970099009a, 0x0097009a0098,
  0x0086009b0099, 0x00860082009b, 0x009a0099009b, 0x007e009b0082, 0x0096009c008f, 0x009c008b008f, 0x007e009d009b,
  0x009c009e008b, 0x007e009f009d, 0x007e007b009f, 0x009d00a0009b, 0x009a009b00a0, 0x007b007800a1, 0x007b00a1009f,
  0x0078008e00a1, 0x009f00a2009d, 0x009d00a200a0, 0x009f00a100a3, 0x00a1008e00a4, 0x00a100a400a3, 0x009f00a500a2,
  0x009f00a300a5, 0x008e00a600a4, 0x008e008c00a6, 0x00a700a300a4, 0x008c008b00a8, 0x008c00a800a6, 0x009e00a8008b,
  0x00a900a400a6, 0x00a700a400a9, 0x00aa00a600a8, 0x00a900a600aa, 0x00ab00a300a7, 0x00ab00a500a3, 0x00ac00a700a9,
  0x00ac00ae00a7, 0x00ae00ab00a7, 0x00ad00ac00a9, 0x00ad00a900aa, 0x00ae00b000ab, 0x00af00ad00aa, 0x00b000b300ab,
  0x00b300a500ab, 0x00b300a200a5, 0x00b000b400b3, 0x00af00aa00b1, 0x00aa00a800b1, 0x00b200af00b1, 0x00b400b500b3,
  0x00b500a200b3, 0x00b400b600b5, 0x00b500a000a2, 0x00b600b700b5, 0x00b700a000b5, 0x00b600b800b7, 0x00b200b100b9,
  0x00ba00b200b9, 0x00b100a800bb, 0x00b100bb00b9, 0x00a8009e00bb, 0x00ba00b900bc, 0x00bd00ba00bc, 0x00b900bb00be,
  0x00b900be00bc, 0x00bd00bc00bf, 0x00c000bd00bf, 0x00bc00be00c1, 0x00bc00c100bf, 0x00c200be00bb, 0x00be00c200c1,
  0x00c200bb009e, 0x00bf00c100c3, 0x00c200c300c1, 0x00c000bf00c4, 0x00bf00c300c4, 0x00c500c000c4, 0x00c400c300c6,
  0x00c500c400c7, 0x00c400c600c7, 0x00c800c500c7, 0x00c300c900c6, 0x00c200c900c3, 0x00c700c600ca, 0x00c900ca00c6,
  0x00c800c700cb, 0x00c700ca00cb, 0x00cc00c800cb, 0x00cc00cb00cd, 0x00ce00cc00cd, 0x00cb00ca00cf, 0x00cb00cf00cd,
  0x00ce00cd00d0, 0x00d100ce00d0, 0x00cd00cf00d2, 0x00cd00d200d0, 0x00cf00ca00d3, 0x00c900d300ca, 0x00cf00d400d2,
  0x00cf00d300d4, 0x00d000d200d5, 0x00d500d200d4, 0x00d100d000d6, 0x00d000d500d6, 0x00d700d100d6, 0x00d600d500d8,
  0x00d700d600d9, 0x00d600d800d9, 0x00da00d700d9, 0x00db00d800d5, 0x00db00d500d4, 0x00d900d800dc, 0x00dc00d800db,
  0x00da00d900dd, 0x00d900dc00dd, 0x00de00da00dd, 0x00dd00dc00df, 0x00df00dc00db, 0x00de00dd00e0, 0x00dd00df00e0,
  0x00e100de00e0, 0x00e100e000e2, 0x00e300e100e2, 0x00e000df00e4, 0x00e000e400e2, 0x00e300e200e5, 0x00e600e300e5,
  0x00e200e400e7, 0x00e200e700e5, 0x00e800e400df, 0x00e800df00db, 0x00e600e500e9, 0x00ea00e600e9, 0x00e500e700eb,
  0x00e500eb00e9, 0x00e400ec00e7, 0x00eb00e700ec, 0x00e400e800ec, 0x00e900eb00ed, 0x00ec00ed00eb, 0x00ea00e900ee,
  0x00e900ed00ee, 0x00ef00ea00ee, 0x00f000ec00e8, 0x00f000e800db, 0x00ef00ee00f1, 0x00f200ef00f1, 0x00ee00ed00f3,
  0x00ee00f300f1, 0x00ec00f400ed, 0x00f400f300ed, 0x00f200f100f5, 0x00f600f200f5, 0x00f100f300f7, 0x00f100f700f5,
  0x00f600f500f8, 0x00f900f600f8, 0x00f500f700fa, 0x00f500fa00f8, 0x00fb00f700f3, 0x00fb00fa00f7, 0x00f900f800fc,
  0x00fd00f900fc, 0x00f800fa00fe, 0x00f800fe00fc, 0x00fd00fc00ff, 0x010000fd00ff, 0x00fc00fe0101, 0x00fc010100ff,
  0x010200fe00fa, 0x00fb010200fa, 0x010000ff0103, 0x010401000103, 0x00ff01010105, 0x00ff01050103, 0x0106010100fe,
  0x0102010600fe, 0x010401030107, 0x010801040107, 0x010301050109, 0x010301090107, 0x010a01050101, 0x0106010a0101,
  0x01080107010b, 0x010c0108010b, 0x01070109010d, 0x0107010d010b, 0x010e01090105, 0x010a010e0105, 0x010c010b010f,
  0x0110010c010f, 0x010e01110109, 0x0111010d0109, 0x0110010f0112, 0x011301100112, 0x010b0114010f, 0x010b010d0114,
  0x010f01150112, 0x010f01140115, 0x011301120116, 0x011701130116, 0x011201150118, 0x011201180116, 0x011701160119,
  0x011a01170119, 0x01160118011b, 0x0116011b0119, 0x0115011c0118, 0x011b0118011c, 0x011a0119011d, 0x011e011a011d,
  0x0119011b011f, 0x0119011f011d, 0x011c011f011b, 0x011e011d0120, 0x0121011e0120, 0x011d011f0122, 0x011d01220120,
  0x012101200123, 0x012401210123, 0x012001220125, 0x012001250123, 0x01260122011f, 0x011c0126011f, 0x012401230127,
  0x012801240127, 0x012301250129, 0x012301290127, 0x0122012a0125, 0x0125012a0129, 0x01220126012a, 0x01270129012b,
  0x012b0129012a, 0x01280127012c, 0x0127012b012c, 0x012d0128012c, 0x012c012b012e, 0x012d012c012f, 0x012c012e012f,
  0x0130012d012f, 0x0131012e012b, 0x0131012b012a, 0x012f012e0132, 0x0132012e0131, 0x0130012f0133, 0x012f01320133,
  0x013401300133, 0x013301320135, 0x013401330136, 0x013301350136, 0x013701340136, 0x013801350132, 0x013801320131,
  0x013601350139, 0x013901350138, 0x01370136013a, 0x01360139013a, 0x013b0137013a, 0x013a0139013c, 0x0138013c0139,
  0x013b013a013d, 0x013a013c013d, 0x013e013b013d, 0x013e013d013f, 0x0140013e013f, 0x013d013c0141, 0x013d0141013f,
  0x0140013f0142, 0x00b801400142, 0x00b8014200b7, 0x013f01410143, 0x013f01430142, 0x0142014400b7, 0x014201430144,
  0x00b7014400a0, 0x014301410145, 0x014501440143, 0x013c01450141, 0x014600a00144, 0x014501460144, 0x009a00a00146,
  0x013c01470145, 0x01380147013c, 0x014801460145, 0x014901470138, 0x014a01450147, 0x0149014a0147, 0x014a01480145,
  0x014b01490138, 0x014b01380131, 0x0149014c014a, 0x014b014c0149, 0x014a014d0148, 0x014a014e014d, 0x014c014e014a,
  0x0148014d014f, 0x014c0150014e, 0x014b0150014c, 0x014b01510150, 0x0148014f0152, 0x014801520146, 0x0152009a0146,
  0x0152014f0153, 0x01520154009a, 0x015201530154, 0x01540098009a, 0x015501540153, 0x015401550098, 0x015501530156,
  0x01570151014b, 0x0157014b0131, 0x015701580151, 0x015901550156, 0x015900980155, 0x01590156015a, 0x01570131015b,
  0x012a015b0131, 0x015c01580157, 0x015c015d0158, 0x015c015e015d, 0x0157015b015f, 0x0157015f015c, 0x015c0160015e,
  0x015f0160015c, 0x0161015e0160, 0x01610162015e, 0x0161015a0162, 0x01610159015a, 0x016301610160, 0x015f01630160,
  0x015901610164, 0x016301640161, 0x015901650098, 0x015901640165, 0x016600980165, 0x016601650164, 0x016600960098,
  0x016701640163, 0x015f01670163, 0x016800960166, 0x0169015f015b, 0x012a0169015b, 0x015f016a0167, 0x0169016a015f,
  0x0168016b0096, 0x016b009c0096, 0x016c0169012a, 0x016b016d009c, 0x016d009e009c, 0x0168016e016b, 0x016b016e016f,
  0x016b016f016d, 0x01680170016e, 0x016d016f0171, 0x017201700168, 0x017201680166, 0x017201730170, 0x016d01710174,
  0x016d0174009e, 0x017401710175, 0x017400c2009e, 0x0174017600c2, 0x017401750176, 0x017600c900c2, 0x017701760175,
  0x0176017700c9, 0x017701750178, 0x00c901770179, 0x017901770178, 0x00c9017900d3, 0x01790178017a, 0x017b00d30179,
  0x017b0179017a, 0x017b017a017c, 0x017b00d400d3, 0x017b017c017d, 0x017b017e00d4, 0x017b017d017f, 0x017b017f017e,
  0x0180017f017d, 0x0180017d0181, 0x018001810182, 0x017f0183017e, 0x017f01800183, 0x00d4017e0184, 0x01830184017e,
  0x00d4018400db, 0x018001820185, 0x018501820173, 0x018501830180, 0x018501730172, 0x018501860183, 0x018601850172,
  0x018701830186, 0x018601720188, 0x018701860188, 0x017201660188, 0x016601640188, 0x018701890183, 0x018301890184,
  0x018a01880164, 0x0167018a0164, 0x01870188018b, 0x018a018b0188, 0x018c01890187, 0x018c0187018b, 0x018d01840189,
  0x018c018d0189, 0x018e00db0184, 0x00f000db018e, 0x018d018f0184, 0x018e0184018f, 0x018d0190018f, 0x018e018f0190,
  0x018d01910190, 0x018c0191018d, 0x018e01900192, 0x00f0018e0192, 0x018c01930191, 0x00f001920194, 0x01950193018c,
  0x018c018b0195, 0x019501960193, 0x019700f00194, 0x019701940198, 0x00f0019700ec, 0x019701980199, 0x019a01960195,
  0x019a0195018b, 0x019a019b0196, 0x019c00ec0197, 0x01970199019c, 0x019c00f400ec, 0x019d019b019a, 0x019d019e019b,
  0x019c019f00f4, 0x00f4019f00f3, 0x01a0019c0199, 0x019c01a0019f, 0x01a0019901a1, 0x00fb00f3019f, 0x01a001a101a2,
  0x01a301a2019e, 0x01a001a201a3, 0x01a3019e019d, 0x01a001a301a4, 0x019d01a401a3, 0x01a001a4019f, 0x019a01a5019d,
  0x019d01a501a4, 0x019a018b01a6, 0x019a01a601a5, 0x01a6018b018a, 0x019f01a401a7, 0x019f01a700fb, 0x01a401a501a8,
  0x01a401a801a7, 0x01a501a601a9, 0x01a501a901a8, 0x01aa00fb01a7, 0x01aa010200fb, 0x01ab01a701a8, 0x01aa01a701ab,
  0x01aa01ac0102, 0x01ac01060102, 0x01ab01ad01aa, 0x01aa01ad01ae, 0x01aa01ae01ac, 0x01ab01af01ad, 0x01ac01ae01b0,
  0x01b101af01ab, 0x01ab01a801b1, 0x01b101b201af, 0x01ac01b30106, 0x01ac01b001b3, 0x01b3010a0106, 0x01b401b201b1,
  0x01b401b101a8, 0x01b401a801a9, 0x01b401b501b2, 0x01b301b6010a, 0x01b601b301b0, 0x01b6010e010a, 0x01b601b001b7,
  0x01b801b501b4, 0x01a901b801b4, 0x01b801b901b5, 0x01b801ba01b9, 0x01bb01b601b7, 0x01b601bb010e, 0x01bb01b701bc,
  0x01bb0111010e, 0x01bb01bc01bd, 0x01bb01be0111, 0x01bb01bd01be, 0x01be01bf0111, 0x011101bf010d, 0x01c001be01bd,
  0x01be01c001bf, 0x01c001bd01c1, 0x01c001c101ba, 0x01bf0114010d, 0x01c001ba01c2, 0x01b801c201ba, 0x01c001c301bf,
  0x01c001c201c3, 0x01c401c201b8, 0x01c401c301c2, 0x01a901c401b8, 0x01bf01c50114, 0x01c301c501bf, 0x01c601c401a9,
  0x01c601c301c4, 0x01c7011401c5, 0x01c701150114, 0x011501c7011c, 0x01c301c801c5, 0x01c601c801c3, 0x01c901c701c5,
  0x01ca01c501c8, 0x01ca01c901c5, 0x01cb011c01c7, 0x01c901cb01c7, 0x01cc01ca01c8, 0x01cc01c801c6, 0x01c901ca01cd,
  0x01cc01cd01ca, 0x01c901cd01ce, 0x01cc01cf01cd, 0x01c901ce01d0, 0x01c901d001cb, 0x01cc01d101cf, 0x01cb01d001d2,
  0x01cc01d301d1, 0x01d301cc01c6, 0x01d301d401d1, 0x01cb01d201d5, 0x01cb01d5011c, 0x01d501d201d6, 0x01d50126011c,
  0x01d501d601d7, 0x01d501d70126, 0x01d7012a0126, 0x01d701d601d8, 0x01d7016c012a, 0x01d701d801d9, 0x01d701d9016c,
  0x01d901d801da, 0x016c01d901db, 0x01d901da01db, 0x016c01db0169, 0x01db01da01dc, 0x01db016a0169, 0x01db01dc01dd,
  0x01db01dd016a, 0x01dd01dc01de, 0x01dd0167016a, 0x01dd01df0167, 0x01dd01de01df, 0x01df018a0167, 0x01e001df01de,
  0x01df01e0018a, 0x01e001de01d4, 0x01d301e001d4, 0x01d3018a01e0, 0x01d301e1018a, 0x01d301c601e1, 0x01a6018a01e1,
  0x01c601a901e1, 0x01e101a901a6]

/-- the table of /repo/src/vpx/mesh/bumpers/bumper_socket_mesh.rs -/
def bumperSocketTable : MeshTable := unpackTable bumperSocketVertices bumperSocketTris

end Vpin
