import Verif.Model.MeshPack
/-
Generated by tools/meshdata.py from /repo/src/vpx/mesh/triggers/*_mesh.rs.
-/
namespace Vpin

set_option maxRecDepth 100000 in
/-- the vertices of `TRIGGER_BUTTON_MESH`, /repo/src/vpx/mesh/triggers/trigger_button_mesh.rs:14-543 -/
def triggerButtonVertices : List Nat := [
  0xbf505d64bf1062f63c3356dabf0e76c9bedfd8ae3f34dd2f3f08140e3f610460,
  0xbf2d11f1bf14aea73ddf88fdbf0e76c9bedfd8ae3f34dd2f3f09bbae3f573ba7,
  0xbf3bcc3abf01efa63ddf88fdbf0e76c9bedfd8ae3f34dd2f3f0cd7383f5ccf9e,
  0xbf2d11f1bf14aea73ddf88fdbf0e7d56bedf97243f34f0d83f09bbae3f573ba7,
  0xbf505d64bf1062f63c3356dabf0e7d56bedf97243f34f0d83f08140e3f610460,
  0xbf3ffe8fbf2540253c3356dabf0e7d56bedf97243f34f0d83f049e343f5ad091,
  0xbf3ffe8fbf2540253c3356dabf01c433befc9eed3f34f0d83f049e343f5ad091,
  0xbf1c713fbf25c3df3ddf88fdbf01c433befc9eed3f34f0d83f0723893f514b9d,
  0xbf2d11f1bf14aea73ddf88fdbf01c433befc9eed3f34f0d83f09bbae3f573ba7,
  0xbf6a0514bec421c03c3356dabf229c78be895e9e3f396bba3f108da03f6bf056,
  0xbf486d40bedb736d3ddf88fdbf229c78be895e9e3f396bba3f106e8f3f61f57b,
  0xbf5af49dbe83b7d83ddf88fdbf229c78be895e9e3f396bba3f18e2a03f6ac3eb,
  0xbf3ffe8fbf2540253c3356dabf01b717befced913f34dd2f3f049e343f5ad091,
  0xbf2d7c70bf383bf73c3356dabf01b717befced913f34dd2f3f01bcdc3f543548,
  0xbf1c713fbf25c3df3ddf88fdbf01b717befced913f34dd2f3f0723893f514b9d,
  0xbf2d7c70bf383bf73c3356dabee75254bf0b78033f34dd2f3f01bcdc3f543548,
  0xbf1913b6bf4928bf3c3356dabee75254bf0b78033f34dd2f3efeeb2d3f4d46e5,
  0xbf1c713fbf25c3df3ddf88fdbee75254bf0b78033f34dd2f3f0723893f514b9d,
  0xbeec6f7abf422bf13ddf88fdbed295eabf0db22d3f39652c3f039bfe3f449aaa,
  0xbf1c713fbf25c3df3ddf88fdbed295eabf0db22d3f39652c3f0723893f514b9d,
  0xbf1913b6bf4928bf3c3356dabed295eabf0db22d3f39652c3efeeb2d3f4d46e5,
  0xbf1913b6bf4928bf3c3356dabec86595bf16e9793f34e3bd3efeeb2d3f4d46e5,
  0xbf02fc48bf57d3c33c3356dabec86595bf16e9793f34e3bd3efb9f563f4618ad,
  0xbeec6f7abf422bf13ddf88fdbec86595bf16e9793f34e3bd3f039bfe3f449aaa,
  0xbf02fc48bf57d3c33c3356dabea6dc5dbf20cb293f34e3bd3efb9f563f4618ad,
  0xbed6e5cdbf640a7c3c3356dabea6dc5dbf20cb293f34e3bd3ef9a3f43f3ebf55,
  0xbeec6f7abf422bf13ddf88fdbea6dc5dbf20cb293f34e3bd3f039bfe3f449aaa,
  0xbed6e5cdbf640a7c3c3356dabe91d14ebf20cb293f39652c3ef9a3f43f3ebf55,
  0xbe95bbbfbf55d3ed3ddf88fdbe91d14ebf20cb293f39652c3f026b943f37517a,
  0xbeec6f7abf422bf13ddf88fdbe91d14ebf20cb293f39652c3f039bfe3f449aaa,
  0xbf5e15553e4fc47e3ddf88fdbf31ff2e3e0624dd3f34ea4b3f330b283f75fd05,
  0xbf7682953e67ae143c334a45bf31ff2e3e0624dd3f34ea4b3f3292603f7d0668,
  0xbf7b6b6e3dfef49d3c334a45bf31ff2e3e0624dd3f34ea4b3f2c5f293f7c091c,
  0xbf5e15553e4fc47e3ddf88fdbf31ff2e3e063f143f34ea4b3f330b283f75fd05,
  0xbf7b6b6e3dfef49d3c334a45bf31ff2e3e063f143f34ea4b3f2c5f293f7c091c,
  0xbf627f4e3de431be3ddf88fdbf31ff2e3e063f143f34ea4b3f2d78603f751969,
  0xbf7b6b6e3dfef49d3c334a45bf348e8a3d676c8b3f34ea4b3f2c5f293f7c091c,
  0xbf7d89ad3cad8c2a3c334a45bf348e8a3d676c8b3f34ea4b3f264a493f7a4485,
  0xbf627f4e3de431be3ddf88fdbf348e8a3d676c8b3f34ea4b3f2d78603f751969,
  0xbf7d89ad3cad8c2a3c334a45bf3487fd3d6703b03f34ea4b3f264a493f7a4485,
  0xbf6465c73c9800a83ddf88fdbf3487fd3d6703b03f34ea4b3f2800da3f73824d,
  0xbf627f4e3de431be3ddf88fdbf3487fd3d6703b03f34ea4b3f2d78603f751969,
  0xbf7d89ad3cad8c2a3c334a45bf350b0fbc9ba5e33f34ea4b3f264a493f7a4485,
  0xbf7cd328bda8a82a3c334a45bf350b0fbc9ba5e33f34ea4b3f2067ae3f77bd6a,
  0xbf6465c73c9800a83ddf88fdbf350b0fbc9ba5e33f34ea4b3f2800da3f73824d,
  0xbf7cd328bda8a82a3c334a45bf2ff2e5bd6147ae3f396bba3f2067ae3f77bd6a,
  0xbf6098d4be2acb863ddf88fdbf2ff2e5bd6147ae3f396bba3f1da7c13f6e4fa9,
  0xbf6465c73c9800a83ddf88fdbf2ff2e5bd6147ae3f396bba3f2800da3f73824d,
  0xbf7cd328bda8a82a3c334a45bf338866bdc083123f34e3bd3f37bb623e6260f6,
  0xbf794d40be3d66f13c3356dabf338866bdc083123f34e3bd3f37bb623e449f0e,
  0xbf6098d4be2acb863ddf88fdbf338866bdc083123f34e3bd3f3daa1d3e461e4f,
  0xbf794d40be3d66f13c3356dabf300000be2b851f3f34e3bd3f1ac80c3f747bee,
  0xbf5af49dbe83b7d83ddf88fdbf300000be2b851f3f34e3bd3f18e2a03f6ac3eb,
  0xbf6098d4be2acb863ddf88fdbf300000be2b851f3f34e3bd3f1da7c13f6e4fa9,
  0xbf794d40be3d66f13c3356dabf30068ebe2bedfa3f34d6a13f1ac80c3f747bee,
  0xbf7301b8be923f683c3356dabf30068ebe2bedfa3f34d6a13f15796c3f708894,
  0xbf5af49dbe83b7d83ddf88fdbf30068ebe2bedfa3f34d6a13f18e2a03f6ac3eb,
  0xbf5af49dbe83b7d83ddf88fdbf2a786cbe75a8583f34d6a13f18e2a03f6ac3eb,
  0xbf7301b8be923f683c3356dabf2a786cbe75a8583f34d6a13f15796c3f708894,
  0xbf6a0514bec421c03c3356dabf2a786cbe75a8583f34d6a13f108da03f6bf056,
  0xbed6e5cdbf640a7c3c3356dabe83f141bf28b4393f34e3bd3ef9a3f43f3ebf55,
  0xbea57d7cbf6db37d3c3356dabe83f141bf28b4393f34e3bd3ef8f9d33f374fe8,
  0xbe95bbbfbf55d3ed3ddf88fdbe83f141bf28b4393f34e3bd3f026b943f37517a,
  0xbea57d7cbf6db37d3c3356dabe3ef9dbbf2ebee03f34e3bd3ef8f9d33f374fe8,
  0xbe64ad79bf74b04b3c3356dabe3ef9dbbf2ebee03f34e3bd3ef9a32b3f2fe176,
  0xbe95bbbfbf55d3ed3ddf88fdbe3ef9dbbf2ebee03f34e3bd3f026b943f37517a,
  0xbe64ad79bf74b04b3c3356dabe1566cfbf2c7e283f3972473ef9a32b3f2fe176,
  0xbde29f17bf5fe76d3ddf88fdbe1566cfbf2c7e283f3972473f039d1b3f2a072d,
  0xbe95bbbfbf55d3ed3ddf88fdbe1566cfbf2c7e283f3972473f026b943f37517a,
  0xbe64ad79bf74b04b3c3356dabde76c8bbf32bd3c3f34f7663ef9a32b3f2fe176,
  0xbdf800a8bf78ecc83c3356dabde76c8bbf32bd3c3f34f7663efb9ecf3f288894,
  0xbde29f17bf5fe76d3ddf88fdbde76c8bbf32bd3c3f34f7663f039d1b3f2a072d,
  0xbdf800a8bf78ecc83c3356dabd1a0275bf34d0143f34f7663f48449e3e6e14be,
  0xbc9070fcbf612bb23ddf88fdbd1a0275bf34d0143f34f7663f4255e33e852d88,
  0xbde29f17bf5fe76d3ddf88fdbd1a0275bf34d0143f34f7663f4255e33e6f94c8,
  0xbdf800a8bf78ecc83c3356dabd19999abf34d0143f34f7663f48449e3e6e14be,
  0xbc9070fcbf7a54823c3356dabd19999abf34d0143f34f7663f48449e3e85ee13,
  0xbc9070fcbf612bb23ddf88fdbd19999abf34d0143f34f7663f4255e33e852d88,
  0x3d9a6506bf5fe76d3ddf88fd3d1a0275bf34d0143f34f7663f07251c3f1d562a,
  0xbc9070fcbf612bb23ddf88fd3d1a0275bf34d0143f34f7663f05186e3f239219,
  0xbc9070fcbf7a54823c3356da3d1a0275bf34d0143f34f7663efeeb0b3f215a08,
  0x3dafc611bf78ecc83c3356da3d19999abf34d0143f34f7663f01bcdc3f1a6aec,
  0x3d9a6506bf5fe76d3ddf88fd3d19999abf34d0143f34f7663f07251c3f1d562a,
  0xbc9070fcbf7a54823c3356da3d19999abf34d0143f34f7663efeeb0b3f215a08,
  0x3dafc611bf78ecc83c3356da3de76c8bbf32bd3c3f34f7663f01bcdc3f1a6aec,
  0x3e40902ebf74b04b3c3356da3de76c8bbf32bd3c3f34f7663f04a0903f13d157,
  0x3d9a6506bf5fe76d3ddf88fd3de76c8bbf32bd3c3f34f7663f07251c3f1d562a,
  0xbf5e6b72bef3cc8e3c3356dabf22e48fbe9e91003f34e3bd3f0c12f13f66bef0,
  0xbf486d40bedb736d3ddf88fdbf22e48fbe9e91003f34e3bd3f106e8f3f61f57b,
  0xbf6a0514bec421c03c3356dabf22e48fbe9e91003f34e3bd3f108da03f6bf056,
  0xbf5e6b72bef3cc8e3c3356dabf19a027bec000003f34e3bd3f0c12f13f66bef0,
  0xbf3bcc3abf01efa63ddf88fdbf19a027bec000003f34e3bd3f0cd7383f5ccf9e,
  0xbf486d40bedb736d3ddf88fdbf19a027bec000003f34e3bd3f106e8f3f61f57b,
  0xbf5e6b72bef3cc8e3c3356dabf19a027bec00d1b3f34dd2f3f0c12f13f66bef0,
  0xbf505d64bf1062f63c3356dabf19a027bec00d1b3f34dd2f3f08140e3f610460,
  0xbf3bcc3abf01efa63ddf88fdbf19a027bec00d1b3f34dd2f3f0cd7383f5ccf9e,
  0xbf36fcce3f2c92ff3c334a45bf0851ec3eee8a723f34e3bd3f50f7883f7635b5,
  0xbf48725c3f189ecb3c334a45bf0851ec3eee8a723f34e3bd3f4b33ca3f791a43,
  0xbf24f95d3f1b09203ddf88fdbf0851ec3eee8a723f34e3bd3f4e5fa63f6fdcdf,
  0xbf48725c3f189ecb3c334a45bf0acd9f3eda29c73f39652c3f4b33ca3f791a43,
  0xbf4263c73eeb34833ddf88fdbf0acd9f3eda29c73f39652c3f43ce853f74665e,
  0xbf24f95d3f1b09203ddf88fdbf0acd9f3eda29c73f39652c3f4e5fa63f6fdcdf,
  0xbf48725c3f189ecb3c334a45bf1446743ed055323f34d0143f4b33ca3f791a43,
  0xbf57b0603f02ecc03c334a45bf1446743ed055323f34d0143f45363f3f7b402d,
  0xbf4263c73eeb34833ddf88fdbf1446743ed055323f34d0143f43ce853f74665e,
  0xbf57b0603f02ecc03c334a45bf1e8a723eaf90973f34d6a13f45363f3f7b402d,
  0xbf64894c3ed773193c334a45bf1e8a723eaf90973f34d6a13f3f0fd03f7ca0c3,
  0xbf4263c73eeb34833ddf88fdbf1e8a723eaf90973f34d6a13f43ce853f74665e,
  0xbf64894c3ed773193c334a45bf1e8a723eaf5c293f34dd2f3f3f0fd03f7ca0c3,
  0xbf4dee243ec17a253ddf88fdbf1e8a723eaf5c293f34dd2f3f3e46e13f75a294,
  0xbf4263c73eeb34833ddf88fdbf1e8a723eaf5c293f34dd2f3f43ce853f74665e,
  0xbf64894c3ed773193c334a45bf26e9793e8cf41f3f34dd2f3f3f0fd03f7ca0c3,
  0xbf6ed99d3ea6989a3c334a45bf26e9793e8cf41f3f34dd2f3f38d3283f7d38ce,
  0xbf4dee243ec17a253ddf88fdbf26e9793e8cf41f3f34dd2f3f3e46e13f75a294,
  0xbf6ed99d3ea6989a3c334a45bf260aa63e6f837b3f396bba3f38d3283f7d38ce,
  0xbf5e15553e4fc47e3ddf88fdbf260aa63e6f837b3f396bba3f330b283f75fd05,
  0xbf4dee243ec17a253ddf88fdbf260aa63e6f837b3f396bba3f3e46e13f75a294,
  0xbf7682953e67ae143c334a45bf2d63883e514e3c3f34ea4b3f3292603f7d0668,
  0xbf5e15553e4fc47e3ddf88fdbf2d63883e514e3c3f34ea4b3f330b283f75fd05,
  0xbf6ed99d3ea6989a3c334a45bf2d63883e514e3c3f34ea4b3f38d3283f7d38ce,
  0xbe7dc7263f56e04c3ddf88fdbe19652c3f310cb33f34dd2f3f634eba3f5a15ca,
  0xbe2094a33f5bec893ddf88fdbe19652c3f310cb33f34dd2f3f662a6f3f545261,
  0xbe8c1ce73f6f20103c334a45be19652c3f310cb33f34dd2f3f683fe63f5dfc5d,
  0xbe8c1ce73f6f20103c334a45be63bcd33f2c01a33f34dd2f3f683fe63f5dfc5d,
  0xbebe78c03f66caac3c334a45be63bcd33f2c01a33f34dd2f3f6483fd3f63f5e8,
  0xbe7dc7263f56e04c3ddf88fdbe63bcd33f2c01a33f34dd2f3f634eba3f5a15ca,
  0xbd278f263f5e9dc73ddf88fdbd81d7dc3f32fec53f364c303f68f80e3f4ca6ec,
  0xbd8e368f3f778ef33c334a45bd81d7dc3f32fec53f364c303f6e03d53f50cc57,
  0xbe2094a33f5bec893ddf88fdbd81d7dc3f32fec53f364c303f662a6f3f545261,
  0xbd8e368f3f778ef33c334a45bd9ad42c3f342c3d3f34d6a13f6e03d53f50cc57,
  0xbe3093963f74ba523c334a45bd9ad42c3f342c3d3f34d6a13f6b6d013f579325,
  0xbe2094a33f5bec893ddf88fdbd9ad42c3f342c3d3f34d6a13f662a6f3f545261,
  0xbe3093963f74ba523c334a45be1930be3f3119ce3f34d6a13f6b6d013f579325,
  0xbe8c1ce73f6f20103c334a45be1930be3f3119ce3f34d6a13f683fe63f5dfc5d,
  0xbe2094a33f5bec893ddf88fdbe1930be3f3119ce3f34d6a13f662a6f3f545261,
  0x3e741c823f6f20103c334a453e19652c3f310cb33f34dd2f3f71f80a3f3b0e0b,
  0x3df8f0413f5bec893ddf88fd3e19652c3f310cb33f34dd2f3f6b73193f4154fc,
  0x3e59aa1d3f56e04c3ddf88fd3e19652c3f310cb33f34dd2f3f6c0bdd3f3aad92,
  0x3e741c823f6f20103c334a453e1930be3f31205c3f34d6a13f71f80a3f3b0e0b,
  0x3e0c764b3f74ba523c334a453e1930be3f31205c3f34d6a13f714d833f42743a,
  0x3df8f0413f5bec893ddf88fd3e1930be3f31205c3f34d6a13f6b73193f4154fc,
  0x3e0c764b3f74ba523c334a453d9ad42c3f342c3d3f34d6a13e5eed893e75fe54,
  0x3d0bfb163f778ef33c334a453d9ad42c3f342c3d3f34d6a13e5eed893e58383b,
  0x3df8f0413f5bec893ddf88fd3d9ad42c3f342c3d3f34d6a13e76a8763e747d80,
  0x3d0bfb163f778ef33c334a453d3780343f31205c3f38793e3f6ffb593f49bad4,
  0xbd278f263f5e9dc73ddf88fd3d3780343f31205c3f38793e3f68f80e3f4ca6ec,
  0x3df8f0413f5bec893ddf88fd3d3780343f31205c3f38793e3f6b73193f4154fc,
  0x3d0bfb163f778ef33c334a45000000003f35bc023f344d013e5eed893e58383b,
  0xbd8e368f3f778ef33c334a45000000003f35bc023f344d013e5eed893e3a9b07,
  0xbd278f263f5e9dc73ddf88fd000000003f35bc023f344d013e76a8763e45bccb,
  0xbe7dc7263f56e04c3ddf88fdbe809d493f2467383f39652c3f634eba3f5a15ca,
  0xbebe78c03f66caac3c334a45be809d493f2467383f39652c3f6483fd3f63f5e8,
  0xbed792293f4589373ddf88fdbe809d493f2467383f39652c3f5c228a3f645f29,
  0xbebe78c03f66caac3c334a45be958e223f24f7663f34ea4b3f6483fd3f63f5e8,
  0xbeeec56d3f5bd85a3c334a45be958e223f24f7663f34ea4b3f6045cc3f696e37,
  0xbed792293f4589373ddf88fdbe958e223f24f7663f34ea4b3f5c228a3f645f29,
  0xbed792293f4589373ddf88fdbeb7e9103f1c0ebf3f34ea4b3f5c228a3f645f29,
  0xbeeec56d3f5bd85a3c334a45beb7e9103f1c0ebf3f34ea4b3f6045cc3f696e37,
  0xbf0e3ab03f4e62453c334a45beb7e9103f1c0ebf3f34ea4b3f5b90323f6e54a4,
  0xbed792293f4589373ddf88fdbeb7ced93f1c22683f34dd2f3f5c228a3f645f29,
  0xbf0e3ab03f4e62453c334a45beb7ced93f1c22683f34dd2f3f5b90323f6e54a4,
  0xbf0055323f3970d63ddf88fdbeb7ced93f1c22683f34dd2f3f57e6e63f68c7d2,
  0xbf0e3ab03f4e62453c334a45bed82a993f1168733f34dd2f3f5b90323f6e54a4,
  0xbf23825e3f3e91533c334a45bed82a993f1168733f34dd2f3f5671373f729b39,
  0xbf0055323f3970d63ddf88fdbed82a993f1168733f34dd2f3f57e6e63f68c7d2,
  0xbf0055323f3970d63ddf88fdbee16f003f07d5673f396bba3f57e6e63f68c7d2,
  0xbf23825e3f3e91533c334a45bee16f003f07d5673f396bba3f5671373f729b39,
  0xbf24f95d3f1b09203ddf88fdbee16f003f07d5673f396bba3f4e5fa63f6fdcdf,
  0xbf23825e3f3e91533c334a45bef5cfab3f05119d3f34e3bd3f5671373f729b39,
  0xbf36fcce3f2c92ff3c334a45bef5cfab3f05119d3f34e3bd3f50f7883f7635b5,
  0xbf24f95d3f1b09203ddf88fdbef5cfab3f05119d3f34e3bd3f4e5fa63f6fdcdf,
  0x3f36f73cbf2540253c3356da3f01c433befc9eed3f34f0d83f206b8b3eedcad1,
  0x3f240a9ebf14aea73ddf88fd3f01c433befc9eed3f34f0d83f22ba8c3efaccf7,
  0x3f1369ecbf25c3df3ddf88fd3f01c433befc9eed3f34f0d83f1dab3b3f00531a,
  0x3f240a9ebf14aea73ddf88fd3f0e7d56bedf97243f34f0d83f22ba8c3efaccf7,
  0x3f36f73cbf2540253c3356da3f0e7d56bedf97243f34f0d83f206b8b3eedcad1,
  0x3f475643bf1062f63c3356da3f0e7d56bedf97243f34f0d83f264edf3ee8bf7f,
  0x3f240a9ebf14aea73ddf88fd3f0e76c9bedfd8ae3f34e3bd3f22ba8c3efaccf7,
  0x3f475643bf1062f63c3356da3f0e76c9bedfd8ae3f34e3bd3f264edf3ee8bf7f,
  0x3f32c4f8bf01efa63ddf88fd3f0e76c9bedfd8ae3f34e3bd3f28052d3ef64218,
  0x3f475643bf1062f63c3356da3f19a027bec00d1b3f34dd2f3f264edf3ee8bf7f,
  0x3f556430bef3cc8e3c3356da3f19a027bec00d1b3f34dd2f3f2c63493ee53954,
  0x3f32c4f8bf01efa63ddf88fd3f19a027bec00d1b3f34dd2f3f28052d3ef64218,
  0x3f556430bef3cc8e3c3356da3f1a71debeab0f283f395e9e3f2c63493ee53954,
  0x3f49d4b7beb092cd3ddf88fd3f1a71debeab0f283f395e9e3f330f8c3ef15076,
  0x3f32c4f8bf01efa63ddf88fd3f1a71debeab0f283f395e9e3f28052d3ef64218,
  0x3ec4d749bf640a7c3c3356da3e83f141bf28b4393f34e3bd3f0c15b13f07e33b,
  0x3e83ad19bf55d3ed3ddf88fd3e83f141bf28b4393f34e3bd3f0cda5e3f11d2e1,
  0x3e936ed6bf6db37d3c3356da3e83f141bf28b4393f34e3bd3f0816be3f0d9e62,
  0x3e83ad19bf55d3ed3ddf88fd3e91d14ebf20cb293f39652c3f0cda5e3f11d2e1,
  0x3ec4d749bf640a7c3c3356da3e91d14ebf20cb293f39652c3f0c15b13f07e33b,
  0x3eda60d4bf422bf13ddf88fd3e91d14ebf20cb293f39652c3f1478853f080150,
  0x3ec4d749bf640a7c3c3356da3ea6dc5dbf20cb293f34e3bd3f0c15b13f07e33b,
  0x3ef3ea0cbf57d3c33c3356da3ea6dc5dbf20cb293f34e3bd3f1090e63f02b160,
  0x3eda60d4bf422bf13ddf88fd3ea6dc5dbf20cb293f34e3bd3f1478853f080150,
  0x3f010b31bf34fcf83ddf88fd3ec86595bf16e9793f34e3bd3f18e5823f03e08b,
  0x3eda60d4bf422bf13ddf88fd3ec86595bf16e9793f34e3bd3f1478853f080150,
  0x3ef3ea0cbf57d3c33c3356da3ec86595bf16e9793f34e3bd3f1090e63f02b160,
  0x3f100c74bf4928bf3c3356da3ec86595bf16e9793f34e3bd3f157d7c3efc330d,
  0x3f010b31bf34fcf83ddf88fd3ee74539bf0b71763f34e3bd3f18e5823f03e08b,
  0x3f100c74bf4928bf3c3356da3ee74539bf0b71763f34e3bd3f157d7c3efc330d,
  0x3f24752ebf383bf73c3356da3ee74539bf0b71763f34e3bd3f1acb863ef44ed7,
  0x3f010b31bf34fcf83ddf88fd3ee7381dbf0b7e913f34dd2f3f18e5823f03e08b,
  0x3f24752ebf383bf73c3356da3ee7381dbf0b7e913f34dd2f3f1acb863ef44ed7,
  0x3f1369ecbf25c3df3ddf88fd3ee7381dbf0b7e913f34dd2f3f1dab3b3f00531a,
  0x3f24752ebf383bf73c3356da3f01b717befced913f34dd2f3f1acb863ef44ed7,
  0x3f36f73cbf2540253c3356da3f01b717befced913f34dd2f3f206b8b3eedcad1,
  0x3f1369ecbf25c3df3ddf88fd3f01b717befced913f34dd2f3f1dab3b3f00531a,
  0x3d9a6506bf5fe76d3ddf88fd3e1566cfbf2c7e283f3972473f07251c3f1d562a,
  0x3e40902ebf74b04b3c3356da3e1566cfbf2c7e283f3972473f04a0903f13d157,
  0x3e83ad19bf55d3ed3ddf88fd3e1566cfbf2c7e283f3972473f0cda5e3f11d2e1,
  0x3e40902ebf74b04b3c3356da3e3ef9dbbf2ebee03f34e3bd3f04a0903f13d157,
  0x3e936ed6bf6db37d3c3356da3e3ef9dbbf2ebee03f34e3bd3f0816be3f0d9e62,
  0x3e83ad19bf55d3ed3ddf88fd3e3ef9dbbf2ebee03f34e3bd3f0cda5e3f11d2e1,
  0x3f6d7b743e67ae143c334a453f31ff2e3e0624dd3f34ea4b3f5675473ef81a9c,
  0x3f550e023e4fc47e3ddf88fd3f31ff2e3e0624dd3f34ea4b3f534eba3f0208c0,
  0x3f72641b3dfef49d3c334a453f31ff2e3e0624dd3f34ea4b3f50fc723ef0e475,
  0x3f5977fb3de431be3ddf88fd3f31ff2e3e063f143f34ea4b3f4e63843efd95bc,
  0x3f72641b3dfef49d3c334a453f31ff2e3e063f143f34ea4b3f50fc723ef0e475,
  0x3f550e023e4fc47e3ddf88fd3f31ff2e3e063f143f34ea4b3f534eba3f0208c0,
  0x3f49d4b7beb092cd3ddf88fd3f2a71debe7611343f34d6a13f330f8c3ef15076,
  0x3f69fa76be923f683c3356da3f2a71debe7611343f34d6a13f38d75a3ee2db1f,
  0x3f51ed5bbe83b7d83ddf88fd3f2a71debe7611343f34d6a13f38af713ef0f495,
  0x3f69fa76be923f683c3356da3f30068ebe2bedfa3f34d6a13f38d75a3ee2db1f,
  0x3f7045febe3d66f13c3356da3f30068ebe2bedfa3f34d6a13f3f14ec3ee40c20,
  0x3f51ed5bbe83b7d83ddf88fd3f30068ebe2bedfa3f34d6a13f38af713ef0f495,
  0x3f7045febe3d66f13c3356da3f2d7dbfbe02a9933f39652c3f3f14ec3ee40c20,
  0x3f5abc62bd98811b3ddf88fd3f2d7dbfbe02a9933f39652c3f43d2633ef483ed,
  0x3f51ed5bbe83b7d83ddf88fd3f2d7dbfbe02a9933f39652c3f38af713ef0f495,
  0x3f7045febe3d66f13c3356da3f3374bcbdc189373f34f7663eef76c53e75fc7e,
  0x3f73d0f2bda8a82a3c334a453f3374bcbdc189373f34f7663eef76c53e5839ce,
  0x3f5abc62bd98811b3ddf88fd3f3374bcbdc189373f34f7663efb543b3e59b739,
  0x3f73d0f2bda8a82a3c334a453f350481bc9a02753f34f7663f453ab43ee6cacd,
  0x3f5b5e963c9800a83ddf88fd3f350481bc9a02753f34f7663f4934263ef860dd,
  0x3f5abc62bd98811b3ddf88fd3f350481bc9a02753f34f7663f43d2633ef483ed,
  0x3f7487873cad8c2a3c334a453f34fdf4bc9ba5e33f34fdf43f4b38503eeb167f,
  0x3f5b5e963c9800a83ddf88fd3f34fdf4bc9ba5e33f34fdf43f4934263ef860dd,
  0x3f73d0f2bda8a82a3c334a453f34fdf4bc9ba5e33f34fdf43f453ab43ee6cacd,
  0x3f7487873cad8c2a3c334a453f347ae13d6703b03f34fdf43f4b38503eeb167f,
  0x3f5977fb3de431be3ddf88fd3f347ae13d6703b03f34fdf43f4e63843efd95bc,
  0x3f5b5e963c9800a83ddf88fd3f347ae13d6703b03f34fdf43f4934263ef860dd,
  0x3f7487873cad8c2a3c334a453f3487fd3d6978d53f34ea4b3f4b38503eeb167f,
  0x3f72641b3dfef49d3c334a453f3487fd3d6978d53f34ea4b3f50fc723ef0e475,
  0x3f5977fb3de431be3ddf88fd3f3487fd3d6978d53f34ea4b3f4e63843efd95bc,
  0x3f60fdd2bec421c03c3356da3f22de01be9e91003f34e3bd3f32964f3ee33eff,
  0x3f49d4b7beb092cd3ddf88fd3f22de01be9e91003f34e3bd3f330f8c3ef15076,
  0x3f556430bef3cc8e3c3356da3f22de01be9e91003f34e3bd3f2c63493ee53954,
  0x3f69fa76be923f683c3356da3f2a6b51be75a8583f34e3bd3f38d75a3ee2db1f,
  0x3f49d4b7beb092cd3ddf88fd3f2a6b51be75a8583f34e3bd3f330f8c3ef15076,
  0x3f60fdd2bec421c03c3356da3f2a6b51be75a8583f34e3bd3f32964f3ee33eff,
  0x3f1a7b0b3f3e91533c334a453ed82a993f1168733f34dd2f3f6e05253f1dde7a,
  0x3f05335d3f4e62453c334a453ed82a993f1168733f34dd2f3f6ffc443f24ef46,
  0x3eee9c243f3970d63ddf88fd3ed82a993f1168733f34dd2f3f6a43673f26ca68,
  0x3ec583a53f4589373ddf88fd3eb7ced93f1c22683f34dd2f3f6b73083f2d552e,
  0x3eee9c243f3970d63ddf88fd3eb7ced93f1c22683f34dd2f3f6a43673f26ca68,
  0x3f05335d3f4e62453c334a453eb7ced93f1c22683f34dd2f3f6ffc443f24ef46,
  0x3edcb6e93f5bd85a3c334a453eb7e9103f1c0ebf3f34ea4b3f714eb13f2c358b,
  0x3ec583a53f4589373ddf88fd3eb7e9103f1c0ebf3f34ea4b3f6b73083f2d552e,
  0x3f05335d3f4e62453c334a453eb7e9103f1c0ebf3f34ea4b3f6ffc443f24ef46,
  0x3edcb6e93f5bd85a3c334a453e958e223f24f7663f34ea4b3f714eb13f2c358b,
  0x3eac6a1a3f66caac3c334a453e958e223f24f7663f34ea4b3f71f80a3f339c30,
  0x3ec583a53f4589373ddf88fd3e958e223f24f7663f34ea4b3f6b73083f2d552e,
  0x3eac6a1a3f66caac3c334a453e809d493f2467383f39652c3f71f80a3f339c30,
  0x3e59aa1d3f56e04c3ddf88fd3e809d493f2467383f39652c3f6c0bdd3f3aad92,
  0x3ec583a53f4589373ddf88fd3e809d493f2467383f39652c3f6b73083f2d552e,
  0x3e741c823f6f20103c334a453e63bcd33f2c01a33f34dd2f3f71f80a3f3b0e0b,
  0x3e59aa1d3f56e04c3ddf88fd3e63bcd33f2c01a33f34dd2f3f6c0bdd3f3aad92,
  0x3eac6a1a3f66caac3c334a453e63bcd33f2c01a33f34dd2f3f71f80a3f339c30,
  0x3f550e023e4fc47e3ddf88fd3f2d6a163e5134053f34ea4b3f534eba3f0208c0,
  0x3f6d7b743e67ae143c334a453f2d6a163e5134053f34ea4b3f5675473ef81a9c,
  0x3f4e2a6f3e9592533ddf88fd3f2d6a163e5134053f34ea4b3f57ea1c3f05e269,
  0x3f4e2a6f3e9592533ddf88fd3f26e9793e8cd9e83f34dd2f3f57ea1c3f05e269,
  0x3f5b820a3ed773193c334a453f26e9793e8cd9e83f34dd2f3f60486b3f053c04,
  0x3f44e6e23ec17a253ddf88fd3f26e9793e8cd9e83f34dd2f3f5c25393f0a4a17,
  0x3f44e6e23ec17a253ddf88fd3f1e7d563eaf837b3f34dd2f3f5c25393f0a4a17,
  0x3f5b820a3ed773193c334a453f1e7d563eaf837b3f34dd2f3f60486b3f053c04,
  0x3f4ea93f3f02ecc03c334a453f1e7d563eaf837b3f34dd2f3f6487123f0ab431,
  0x3f44e6e23ec17a253ddf88fd3f1e91003eaf69443f34d6a13f5c25393f0a4a17,
  0x3f4ea93f3f02ecc03c334a453f1e91003eaf69443f34d6a13f6487123f0ab431,
  0x3f395c743eeb34833ddf88fd3f1e91003eaf69443f34d6a13f5ff6c23f0f3472,
  0x3f4ea93f3f02ecc03c334a453f1446743ed055323f34d6a13f6487123f0ab431,
  0x3f3f6b3c3f189ecb3c334a453f1446743ed055323f34d6a13f6841ff3f10adde,
  0x3f395c743eeb34833ddf88fd3f1446743ed055323f34d6a13f5ff6c23f0f3472,
  0x3f3f6b3c3f189ecb3c334a453f0acd9f3eda29c73f39652c3f6841ff3f10adde,
  0x3f1bf21b3f1b09203ddf88fd3f0acd9f3eda29c73f39652c3f662b283f1a584f,
  0x3f395c743eeb34833ddf88fd3f0acd9f3eda29c73f39652c3f5ff6c23f0f3472,
  0x3f3f6b3c3f189ecb3c334a453f0851ec3eee978d3f34e3bd3f6841ff3f10adde,
  0x3f2df58c3f2c92ff3c334a453f0851ec3eee978d3f34e3bd3f6b6ee73f17176a,
  0x3f1bf21b3f1b09203ddf88fd3f0851ec3eee978d3f34e3bd3f662b283f1a584f,
  0x3f2df58c3f2c92ff3c334a453ef5cfab3f05119d3f34e3bd3f6b6ee73f17176a,
  0x3f1a7b0b3f3e91533c334a453ef5cfab3f05119d3f34e3bd3f6e05253f1dde7a,
  0x3f1bf21b3f1b09203ddf88fd3ef5cfab3f05119d3f34e3bd3f662b283f1a584f,
  0x3f1a7b0b3f3e91533c334a453ee16f003f07d5673f396bba3f6e05253f1dde7a,
  0x3eee9c243f3970d63ddf88fd3ee16f003f07d5673f396bba3f6a43673f26ca68,
  0x3f1bf21b3f1b09203ddf88fd3ee16f003f07d5673f396bba3f662b283f1a584f,
  0x3f4e2a6f3e9592533ddf88fd3f26e2eb3e8ce7043f34e3bd3f57ea1c3f05e269,
  0x3f65d24a3ea6989a3c334a453f26e2eb3e8ce7043f34e3bd3f5b93473f0054de,
  0x3f5b820a3ed773193c334a453f26e2eb3e8ce7043f34e3bd3f60486b3f053c04,
  0x3f4e2a6f3e9592533ddf88fd3f2d6a163e5168733f34e3bd3f57ea1c3f05e269,
  0x3f6d7b743e67ae143c334a453f2d6a163e5168733f34e3bd3f5675473ef81a9c,
  0x3f65d24a3ea6989a3c334a453f2d6a163e5168733f34e3bd3f5b93473f0054de,
  0xbf6a0514bec421c03c3356dabf6a6b51becadababd89374c3f37bb623e09e7fb,
  0xbf6b64d0beb3a29cbdd9b995bf24f766be87c84bbf379a6b3f0255e33e09e7fb,
  0xbf5e6b72bef3cc8e3c3356dabf5de00dbefab9f5bdc25aee3f37bb623ddb4f61,
  0xbf2edc2bbf2ffc65bdd9b995bee624ddbef5cfabbf40d8453f7daa1d3d94eb9a,
  0xbf1913b6bf4928bf3c3356dabf149ba6bf4aa64cbe437b4a3f48449e3dc4b557,
  0xbf2d7c70bf383bf73c3356dabf29c0ecbf3a9fbebe2e147b3f48449e3d94eb9a,
  0xbf2d7c70bf383bf73c3356dabf29c0ecbf3a9fbebe2e147b3f37bb623d03fc44,
  0xbf3ffe8fbf2540253c3356dabf3d3c36bf2844d0be1652bd3f37bb623d638434,
  0xbf2edc2bbf2ffc65bdd9b995bee624ddbef5cfabbf40d8453f0255e33d03fc44,
  0xbf02fc48bf57d3c33c3356dabefb98c8bf586595be56d5d03f48449e3df80022,
  0xbf045c03bf4f9431bdd9b995bea88ce7bf0d1b71bf4446743f7daa1d3df80022,
  0xbed6e5cdbf640a7c3c3356dabecbac71bf63a29cbe6786c23f48449e3e171e6d,
  0xbf7301b8be923f683c3356dabf743fe6be981062bd1b3d083f37bb623e27008a,
  0xbf1a7371bf40e92dbdd9b995bec8240bbf04c2f8bf42a9933f7daa1d3dc4b557,
  0xbf415e39bf1d0093bdd9b995bf015b57bededfa4bf3ebee03f0255e33d638434,
  0xbf505d64bf1062f63c3356dabf4ec56dbf13afb8bdf9096c3f37bb623da512a9,
  0xbf51bd1fbf082364bdd9b995bf0e978dbec49ba6bf3c84b63f0255e33da512a9,
  0xbf5fcb2ebee34d6abdd9b995bf1a71debea7a0f9bf3a29c73f0255e33ddb4f61,
  0xbed9a544bf5bcaeabdd9b995be87d567bf13bcd3bf45bc023f7daa1d3e171e6d,
  0xbea57d7cbf6db37d3c3356dabe9a43febf6c432dbe758e223f48449e3e336502,
  0xbc9070fcbf7a54823c3356da3ab78034bf76d5d0be87ae143f48449e3e85ee13,
  0xbcbc6866bf721501bdd9b995ba6bedfabf1e703bbf4916873f7daa1d3e85ee13,
  0x3da4c8bdbf70ad36bdd9b9953d8624ddbf1d42c4bf494af53f7daa1d3e94bc6a,
  0x3dafc611bf78ecc83c3356da3dd35a86bf7538efbe892a303f48449e3e94bc6a,
  0xbdf800a8bf78ecc83c3356dabdce075fbf75e354be84c2f83f48449e3e6e14be,
  0xbe6a2c23bf6c70b9bdd9b995be09ba5ebf1c3611bf47dbf53f7daa1d3e507cc8,
  0xbe017f41bf70ad36bdd9b995bd8adababf1e2824bf488ce73f7daa1d3e6e14be,
  0xbe64ad79bf74b04b3c3356dabe4ef34dbf725aeebe8075f73f48449e3e507cc8,
  0xbea83cd1bf6573ebbdd9b995be4d35a8bf18c7e3bf46e9793f7daa1d3e336502,
  0x3e3b1141bf6c70b9bdd9b9953e06594bbf1a7efabf4958103f7daa1d3ea34784,
  0x3e40902ebf74b04b3c3356da3e50b0f2bf710cb3be8944673f48449e3ea34784,
  0xbf48725c3f189ecb3c334a45bf4638863f19a6b53e4d35a83f37bb623ecdf0d4,
  0xbf385c893f34d280bdd9b995bf1055323f0dfa44bf1cac083f0255e33ed7be34,
  0xbf49d2183f20de4cbdd9b995bf1d63883efa43febf1e703b3f0255e33ecdf0d4,
  0xbf57b0603f02ecc03c334a45bf5666663f0412063e386c223f37bb623ec30100,
  0xbf7039473eb7179cbdd9b995bf3793de3e87c84bbf24fdf43f0255e33eaa3a6d,
  0xbf64894c3ed773193c334a45bf642c3d3ed9b3d03e2161e53f37bb623eb70d41,
  0xbf65e9083ee7f23dbdd9b995bf3126e93eaf9097bf22a3053f0255e33eb70d41,
  0xbf6ed99d3ea6989a3c334a45bf6f559b3ea865953e0865953f37bb623eaa3a6d,
  0xbf59101b3f0b2c52bdd9b995bf2865953ed5e9e2bf2068dc3f0255e33ec30100,
  0xbf24e2093f46d0e5bdd9b995bf014e3c3f1d566dbf1b22d13c1578a33cf5afb0,
  0xbf385c893f34d280bdd9b995bf1055323f0dfa44bf1cac083c1578a33c31cc96,
  0xbf23825e3f3e91533c334a45bf1fd2203f3ed9173e6f00693e5eed893cf5afb0,
  0xbf0e3ab03f4e62453c334a45bf09f55a3f4e3bcd3e7be76d3e5eed893d525248,
  0xbf0f9a5b3f56a1d7bdd9b995bee0f9093f2ae7d5bf19db233c1578a33d525248,
  0xbef184e43f6417ecbdd9b995bebc50483f36809dbf18db8c3c1578a33d98f3ed,
  0xbf746174be81c044bdd9b995bf2dcc64be4a8c15bf3504813f0255e33e270047,
  0xbf794d40be3d66f13c3356dabf7b1c43be4710cbbc0b43963f37bb623e449f0e,
  0xbf7aacfbbe1c68a9bdd9b995bf34d014be018937bf3254613f0255e33e449f0e,
  0xbf7cd328bda8a82a3c334a45bf7eecc0bdb67a103cacd9e83f37bb623e6260f6,
  0xbf7e32e4bd4d5843bdd9b995bf39d495bd535a86bf2f97243f0255e33e6260f6,
  0xbf7d89ad3cad8c2a3c334a45bf7fa4403c8e8a723d4ed9173f37bb623e7ffb48,
  0xbf7ee9683d5abf34bdd9b995bf3cb9243cd6a162bf2cd35b3f0255e33e7ffb48,
  0xbf7b6b6e3dfef49d3c334a45bf7d3c363dfd21ff3da2339c3f37bb623e8e8c69,
  0xbf7ccb193e207896bdd9b995bf3d5cfb3dd844d0bf2a233a3f0255e33e8e8c69,
  0xbf7682953e67ae143c334a45bf77c1be3e6944673ddaee633f37bb623e9cad9b,
  0xbf77e2503e84562ebdd9b995bf3bac713e3e2824bf2780343f0255e33e9cad9b,
  0xbe3612403f7cf9d3bdd9b995be037b4a3f4ba5e3bf179a6b3c1578a33e1d81ae,
  0xbe3093963f74ba523c334a45be1d14e43f7374bc3e896bba3e5eed893e1d81ae,
  0xbd8e368f3f778ef33c334a45bd4ed9173f765fd93e889a023e5eed893e3a9b07,
  0xbd99346a3f7fce53bdd9b995bd3367a13f4de00dbf17bb303c1578a33e3a9b07,
  0xbebe78c03f66caac3c334a45beb4af4f3f65e3543e869ad43e5eed893dcc4370,
  0xbec138373f6f0a3dbdd9b995be9532613f3fdf3bbf182a993c1578a33dcc4370,
  0xbeeec56d3f5bd85a3c334a45bee560423f5b4a233e8305533e5eed893d98f3ed,
  0xbe8c1ce73f6f20103c334a45be8240b83f6df3b63e88c1553e5eed893e013f4b,
  0xbe8edc3c3f775f91bdd9b995be5844d03f46fd22bf17bb303c1578a33e013f4b,
  0x3cebfec13f7fce53bdd9b9953d29930c3f4d9168bf1831273c1578a33e58383b,
  0x3d0bfb163f778ef33c334a453d5b22d13f76a7f03e864c303e5eed893e58383b,
  0x3e0c764b3f74ba523c334a453e20902e3f743fe63e828f5c3e5eed893e75fe54,
  0x3e06f75e3f7cf9d3bdd9b9953e0068dc3f4ac083bf18f5c33c1578a33e75fe54,
  0x3e741c823f6f20103c334a453e8474543f6f34d73e7ac7113e5eed893e89cbab,
  0x3e6e9d953f775f91bdd9b9953e5446743f458106bf19f55a3c1578a33e89cbab,
  0xbf36fcce3f2c92ff3c334a45bf33f7cf3f2d49523e5f6fd23f37bb623ed7be34,
  0xbf36fcce3f2c92ff3c334a45bf33f7cf3f2d49523e5f6fd23e5eed893c31cc96,
  0x3f359781bf1d0093bdd9b9953ef851ecbed6c8b4bf446dc63e84abc53ec0dd40,
  0x3f36f73cbf2540253c3356da3f3b50b1bf25e354be5893753eef76c53ec0dd40,
  0x3f231572bf2ffc65bdd9b9953edd7dbfbeedab9fbf45dcc63e84abc53eccce3e,
  0x3f24752ebf383bf73c3356da3f28240bbf3809d5be690ff93eef76c53eccce3e,
  0x3f100c74bf4928bf3c3356da3f1367a1bf480347be76c8b43eef76c53ed7be34,
  0x3f0eacb8bf40e92dbdd9b9953ec13a93bf00d1b7bf4703b03e84abc53ed7be34,
  0x3f100c74bf4928bf3c3356da3f1367a1bf480347be76c8b43f48449e3ed7be34,
  0x3ef3ea0cbf57d3c33c3356da3efa1cacbf55dcc6be80f9093f48449e3ecbcc29,
  0x3ef12a95bf4f9431bdd9b9953ea339c1bf097f63bf47e9103f7daa1d3ecbcc29,
  0x3f0eacb8bf40e92dbdd9b9953ec13a93bf00d1b7bf4703b03f7daa1d3ed7be34,
  0x3ec4d749bf640a7c3c3356da3ecb1c43bf615b57be852bd43f48449e3ebef7e4,
  0x3ec217d3bf5bcaeabdd9b9953e83fe5dbf109d49bf48a71e3f7daa1d3ebef7e4,
  0x3e90af60bf6573ebbdd9b9953e47fcb9bf164c30bf491d153f7daa1d3eb16873,
  0x3e936ed6bf6db37d3c3356da3e9a8588bf6a6b51be87e2823f48449e3eb16873,
  0x3f556430bef3cc8e3c3356da3f5bc01abef77319be303afb3eef76c53ea679ee,
  0x3f540475bee34d6abdd9b9953f13afb8bea0d1b7bf4106253e84abc53ea679ee,
  0x3f5f9e17beb3a29cbdd9b9953f1d97f6be822681bf3ef34d3e84abc53e9859c9,
  0x3f45f688bf082364bdd9b9953f089375bebd07c8bf42d0e53e84abc53eb4091c,
  0x3f7104603e207896bdd9b9953f358e223dd07c85bf329c783e84abc53e1d82ba,
  0x3f6c1bb93e84562ebdd9b9953f34538f3e3765febf2fd2203e84abc53e014057,
  0x3f6d7b743e67ae143c334a453f7930be3e69e1b13c95182b3eef76c53e014057,
  0x3f72641b3dfef49d3c334a453f7e00d23dfdf3b6bc3923a33eef76c53e1d82ba,
  0x3f7487873cad8c2a3c334a453f7fbe773c90ff97bd2786c23eef76c53e3a9f7b,
  0x3f7327cc3d5abf34bdd9b9953f34af4f3cd0e560bf3538ef3e84abc53e3a9f7b,
  0x3f73d0f2bda8a82a3c334a453f7e5c92bdb67a10bd8f5c293eef76c53e5839ce,
  0x3f727147bd4d5843bdd9b9953f31a9fcbd4b923abf37e2823e84abc53e5839ce,
  0x3f7045febe3d66f13c3356da3f79eeccbe45d639bdc84b5e3eef76c53e75fc7e,
  0x3f6ee643be1c68a9bdd9b9953f2ca57abdf8d4febf3a71de3e84abc53e75fc7e,
  0x3f69fa76be923f683c3356da3f729c78be969446bdfe5c923eef76c53e89cda3,
  0x3f689abbbe81c044bdd9b9953f25f6fdbe420c4abf3cc63f3e84abc53e89cda3,
  0x3f64728f3eb7179cbdd9b9953f30d1b73e8339c1bf2d1b713e84abc53dcc4d66,
  0x3f65d24a3ea6989a3c334a453f714e3c3ea9374c3d4361133eef76c53dcc4dec,
  0x3f60fdd2bec421c03c3356da3f6872b0bec872b0be18adac3eef76c53e9859c9,
  0x3f475643bf1062f63c3356da3f4cac08bf11a36ebe4587943eef76c53eb4091c,
  0x3f2df58c3f2c92ff3c334a453f368db93f2f06f73e1eecc03e5eed893eccce5f,
  0x3f3f6b3c3f189ecb3c334a453f48e2193f1b1c433e05bc023e5eed893ed7be34,
  0x3f2c95d13f34d280bdd9b9953f0c7e283f0acd9fbf22de013c1578a33eccce5f,
  0x3f4ea93f3f02ecc03c334a453f58fc503f0532613dd566cf3eef76c53d526634,
  0x3f4d49843f0b2c52bdd9b9953f230be13ecfdf3bbf27c1be3e84abc53d526634,
  0x3f3f6b3c3f189ecb3c334a453f48e2193f1b1c433e05bc023eef76c53cf5cf25,
  0x3f5b820a3ed773193c334a453f66872b3edb2fec3d9c779a3eef76c53d990215,
  0x3f5a224f3ee7f23dbdd9b9953f2b0f283eaa161ebf2a6b513e84abc53d990215,
  0x3eac6a1a3f66caac3c334a453eb780343f6780343e6dab9f3e5eed893e985921,
  0x3ed9f7733f6417ecbdd9b9953eb893753f341206bf1ccccd3c1578a33ea67b5f,
  0x3ea9aac53f6f0a3dbdd9b9953e926e983f3de69bbf1b4a233c1578a33e985921,
  0x3f3e0b803f20de4cbdd9b9953f18ce703ef3f7cfbf253f7d3c1578a33ed7be34,
  0x3f3e0b803f20de4cbdd9b9953f18ce703ef3f7cfbf253f7d3e84abc53cf5cf25,
  0x3f5a224f3ee7f23dbdd9b9953f2b0f283eaa161ebf2a6b513ecc42ea3f696a59,
  0x3f3e0b803f20de4cbdd9b9953f18ce703ef3f7cfbf253f7d3edc36113f5df86e,
  0x3f4d49843f0b2c52bdd9b9953f230be13ecfdf3bbf27c1be3ed4c0383f63f21b,
  0x3f2c95d13f34d280bdd9b9953f0c7e283f0acd9fbf22de013ee28fe23f578ee3,
  0x3f64728f3eb7179cbdd9b9953f30d1b73e8339c1bf2d1b713ec2d8a13f6e516e,
  0x3f7104603e207896bdd9b9953f358e223dd07c85bf329c783eadaaf83f763411,
  0x3f191b503f46d0e5bdd9b9953efc6a7f3f1a4a8cbf20a3d73ee7bc5e3f50c7d2,
  0x3f03d3a23f56a1d7bdd9b9953edc1bda3f281d7ebf1e9e1b3eebaa9b3f49b707,
  0x3ed9f7733f6417ecbdd9b9953eb893753f341206bf1ccccd3eee4f553f4270c1,
  0x3ea9aac53f6f0a3dbdd9b9953e926e983f3de69bbf1b4a233eefa2273f3b0a1c,
  0x3f6c1bb93e84562ebdd9b9953f34538f3e3765febf2fd2203eb89ca23f7298fe,
  0xbf65e9083ee7f23dbdd9b995bf3126e93eaf9097bf22a3053e89d1b33ee40b13,
  0x3f7327cc3d5abf34bdd9b9953f34af4f3cd0e560bf3538ef3ea222b43f791b0d,
  0x3f727147bd4d5843bdd9b9953f31a9fcbd4b923abf37e2823e96277c3f7b40e6,
  0x3f6ee643be1c68a9bdd9b9953f2ca57abdf8d4febf3a71de3e89dbec3f7ca04d,
  0x3ec217d3bf5bcaeabdd9b9953e83fe5dbf109d49bf48a71e3d8f75da3f66c322,
  0x3e90af60bf6573ebbdd9b9953e47fcb9bf164c30bf491d153d5efc7a3f6107ea,
  0x3e3b1141bf6c70b9bdd9b9953e06594bbf1a7efabf4958103d2799a23f5ad506,
  0x3ef12a95bf4f9431bdd9b9953ea339c1bf097f63bf47e9103db34f833f6bf4fd,
  0x3f0eacb8bf40e92dbdd9b9953ec13a93bf00d1b7bf4703b03ddab4313f708cd6,
  0x3f231572bf2ffc65bdd9b9953edd7dbfbeedab9fbf45dcc63e02923e3f747ef1,
  0x3f359781bf1d0093bdd9b9953ef851ecbed6c8b4bf446dc63e1912553f77c0f4,
  0x3f540475bee34d6abdd9b9953f13afb8bea0d1b7bf4106253e48f14e3f7c09a2,
  0x3f45f688bf082364bdd9b9953f089375bebd07c8bf42d0e53e309fa53f7a469d,
  0x3f5f9e17beb3a29cbdd9b9953f1d97f6be822681bf3ef34d3e61bd623f7d06dd,
  0x3f689abbbe81c044bdd9b9953f25f6fdbe420c4abf3cc63f3e7ac1903f7d38ce,
  0xbe8edc3c3f775f91bdd9b995be5844d03f46fd22bf17bb303edc31be3f10a9ef,
  0xbec138373f6f0a3dbdd9b995be9532613f3fdf3bbf182a993ed4ba0f3f0ab075,
  0xbe3612403f7cf9d3bdd9b995be037b4a3f4ba5e3bf179a6b3ee28c153f171327,
  0xbd99346a3f7fce53bdd9b995bd3367a13f4de00dbf17bb303ee7b9bf3f1dd9f5,
  0x3e6e9d953f775f91bdd9b9953e5446743f458106bf19f55a3eefa2273f339842,
  0x3e06f75e3f7cf9d3bdd9b9953e0068dc3f4ac083bf18f5c33eee4cf93f2c3223,
  0x3cebfec13f7fce53bdd9b9953d29930c3f4d9168bf1831273eeba8a43f24eb79,
  0xbef184e43f6417ecbdd9b995bebc50483f36809dbf18db8c3ecc3d8a3f053815,
  0xbf0f9a5b3f56a1d7bdd9b995bee0f9093f2ae7d5bf19db233ec2d2783f0051a8,
  0xbf24e2093f46d0e5bdd9b995bf014e3c3f1d566dbf1b22d13eb894603ef81648,
  0xbf385c893f34d280bdd9b995bf1055323f0dfa44bf1cac083eada1013ef0e12f,
  0xbf49d2183f20de4cbdd9b995bf1d63883efa43febf1e703b3ea219873eeb1833,
  0xbf59101b3f0b2c52bdd9b995bf2865953ed5e9e2bf2068dc3e961e713ee6cc3e,
  0xbf7039473eb7179cbdd9b995bf3793de3e87c84bbf24fdf43e7ab0853ee2db1f,
  0xbf77e2503e84562ebdd9b995bf3bac713e3e2824bf2780343e61ad643ee33fea,
  0xbf7ccb193e207896bdd9b995bf3d5cfb3dd844d0bf2a233a3e48e0873ee53a60,
  0xbf7ee9683d5abf34bdd9b995bf3cb9243cd6a162bf2cd35b3e308d093ee8c3b1,
  0xbf5fcb2ebee34d6abdd9b995bf1a71debea7a0f9bf3a29c73d8f5f4e3f07e76d,
  0xbf6b64d0beb3a29cbdd9b995bf24f766be87c84bbf379a6b3db334c63f02b5f6,
  0xbf746174be81c044bdd9b995bf2dcc64be4a8c15bf3504813dda93af3efc3b71,
  0xbf7e32e4bd4d5843bdd9b995bf39d495bd535a86bf2f97243e19029b3eedd1e5,
  0xbed9a544bf5bcaeabdd9b995be87d567bf13bcd3bf45bc023c2ac1093f2fe708,
  0xbea83cd1bf6573ebbdd9b995be4d35a8bf18c7e3bf46e9793c1578a33f375675,
  0xbe6a2c23bf6c70b9bdd9b995be09ba5ebf1c3611bf47dbf53c2aa7df3f3ec4e7,
  0xbe017f41bf70ad36bdd9b995bd8adababf1e2824bf488ce73c6a1c693f461dc9,
  0xbcbc6866bf721501bdd9b995ba6bedfabf1e703bbf4916873ca9d1f63f4d4c55,
  0x3da4c8bdbf70ad36bdd9b9953d8624ddbf1d42c4bf494af53cf2bcb63f543b71,
  0xbf7aacfbbe1c68a9bdd9b995bf34d014be018937bf3254613e0284163ef454bd,
  0xbf415e39bf1d0093bdd9b995bf015b57bededfa4bf3ebee03d2773e23f13d5cb,
  0xbf2edc2bbf2ffc65bdd9b995bee624ddbef5cfabbf40d8453cf2ba9d3f1a7104,
  0xbf51bd1fbf082364bdd9b995bf0e978dbec49ba6bf3c84b63d5ed0703f0da1ec,
  0xbf1a7371bf40e92dbdd9b995bec8240bbf04c2f8bf42a9933ca9d1f63f215f78,
  0xbf045c03bf4f9431bdd9b995bea88ce7bf0d1b71bf4446743c6a2d303f288db0,
  0x3f395c743eeb34833ddf88fd00000000000000003f8000003f5ff6c23f0f3472,
  0x3eee9c243f3970d63ddf88fd00000000000000003f8000003f6a43673f26ca68,
  0x3ec583a53f4589373ddf88fd00000000000000003f8000003f6b73083f2d552e,
  0x3e59aa1d3f56e04c3ddf88fd00000000000000003f8000003f6c0bdd3f3aad92,
  0x3f1bf21b3f1b09203ddf88fd00000000000000003f8000003f662b283f1a584f,
  0x3f44e6e23ec17a253ddf88fd00000000000000003f8000003f5c25393f0a4a17,
  0xbf6098d4be2acb863ddf88fd00000000000000003f8000003f1da7c13f6e4fa9,
  0x3f4e2a6f3e9592533ddf88fd00000000000000003f8000003f57ea1c3f05e269,
  0x3f51ed5bbe83b7d83ddf88fd00000000000000003f8000003f38af713ef0f495,
  0x3f240a9ebf14aea73ddf88fd00000000000000003f8000003f22ba8c3efaccf7,
  0x3f49d4b7beb092cd3ddf88fd00000000000000003f8000003f330f8c3ef15076,
  0x3f5abc62bd98811b3ddf88fd00000000000000003f8000003f43d2633ef483ed,
  0x3f5977fb3de431be3ddf88fd00000000000000003f8000003f4e63843efd95bc,
  0x3f5b5e963c9800a83ddf88fd00000000000000003f8000003f4934263ef860dd,
  0x3f550e023e4fc47e3ddf88fd00000000000000003f8000003f534eba3f0208c0,
  0x3f32c4f8bf01efa63ddf88fd00000000000000003f8000003f28052d3ef64218,
  0x3f1369ecbf25c3df3ddf88fd00000000000000003f8000003f1dab3b3f00531a,
  0x3eda60d4bf422bf13ddf88fd00000000000000003f8000003f1478853f080150,
  0x3f010b31bf34fcf83ddf88fd00000000000000003f8000003f18e5823f03e08b,
  0x3e83ad19bf55d3ed3ddf88fd00000000000000003f8000003f0cda5e3f11d2e1,
  0x3d9a6506bf5fe76d3ddf88fd00000000000000003f8000003f07251c3f1d562a,
  0xbd278f263f5e9dc73ddf88fd00000000000000003f8000003f68f80e3f4ca6ec,
  0x3df8f0413f5bec893ddf88fd00000000000000003f8000003f6b73193f4154fc,
  0xbe2094a33f5bec893ddf88fd00000000000000003f8000003f662a6f3f545261,
  0xbed792293f4589373ddf88fd00000000000000003f8000003f5c228a3f645f29,
  0xbe7dc7263f56e04c3ddf88fd00000000000000003f8000003f634eba3f5a15ca,
  0xbf0055323f3970d63ddf88fd00000000000000003f8000003f57e6e63f68c7d2,
  0xbf4263c73eeb34833ddf88fd00000000000000003f8000003f43ce853f74665e,
  0xbf24f95d3f1b09203ddf88fd00000000000000003f8000003f4e5fa63f6fdcdf,
  0xbf4dee243ec17a253ddf88fd00000000000000003f8000003f3e46e13f75a294,
  0xbf5e15553e4fc47e3ddf88fd00000000000000003f8000003f330b283f75fd05,
  0xbf627f4e3de431be3ddf88fd00000000000000003f8000003f2d78603f751969,
  0xbf6465c73c9800a83ddf88fd00000000000000003f8000003f2800da3f73824d,
  0xbc9070fcbf612bb23ddf88fd00000000000000003f8000003f05186e3f239219,
  0xbde29f17bf5fe76d3ddf88fd00000000000000003f8000003f039d1b3f2a072d,
  0xbe95bbbfbf55d3ed3ddf88fd00000000000000003f8000003f026b943f37517a,
  0xbeec6f7abf422bf13ddf88fd00000000000000003f8000003f039bfe3f449aaa,
  0xbf486d40bedb736d3ddf88fd00000000000000003f8000003f106e8f3f61f57b,
  0xbf3bcc3abf01efa63ddf88fd00000000000000003f8000003f0cd7383f5ccf9e,
  0xbf5af49dbe83b7d83ddf88fd00000000000000003f8000003f18e2a03f6ac3eb,
  0xbf2d11f1bf14aea73ddf88fd00000000000000003f8000003f09bbae3f573ba7,
  0xbf1c713fbf25c3df3ddf88fd00000000000000003f8000003f0723893f514b9d,
  0x3edcb6e93f5bd85a3c334a453ee8db8c3f5d288d3e5dcc643e5eed893ea67b5f,
  0x3f05335d3f4e62453c334a453f0c08313f502de03e4b295f3e5eed893eb40981,
  0x3f03d3a23f56a1d7bdd9b9953edc1bda3f281d7ebf1e9e1b3c1578a33eb40981,
  0x3f1a7b0b3f3e91533c334a453f222d0e3f40c49c3e362b6b3e5eed893ec0dc12,
  0x3f191b503f46d0e5bdd9b9953efc6a7f3f1a4a8cbf20a3d73c1578a33ec0dc12]

set_option maxRecDepth 100000 in
/-- the triangles of `TRIGGER_BUTTON_INDICES`, /repo/src/vpx/mesh/triggers/trigger_button_mesh.rs:546-626 -/
def triggerButtonTris : List Nat := [
  0x000000010002, 0x000300040005, 0x000600070008, 0x0009000a000b, 0x000c000d000e, 0x000f00100011, 0x001200130014,
  0x001500160017, 0x00180019001a, 0x001b001c001d, 0x001e001f0020, 0x002100220023, 0x002400250026, 0x002700280029,
  0x002a002b002c, 0x002d002e002f, 0x003000310032, 0x003300340035, 0x003600370038, 0x0039003a003b, 0x003c003d003e,
  0x003f00400041, 0x004200430044, 0x004500460047, 0x00480049004a, 0x004b004c004d, 0x004e004f0050, 0x005100520053,
  0x005400550056, 0x005700580059, 0x005a005b005c, 0x005d005e005f, 0x006000610062, 0x006300640065, 0x006600670068,
  0x0069006a006b, 0x006c006d006e, 0x006f00700071, 0x007200730074, 0x007500760077, 0x00780079007a, 0x007b007c007d,
  0x007e007f0080, 0x008100820083, 0x008400850086, 0x008700880089, 0x008a008b008c, 0x008d008e008f, 0x009000910092,
  0x009300940095, 0x009600970098, 0x0099009a009b, 0x009c009d009e, 0x009f00a000a1, 0x00a200a300a4, 0x00a500a600a7,
  0x00a800a900aa, 0x00ab00ac00ad, 0x00ae00af00b0, 0x00b100b200b3, 0x00b400b500b6, 0x00b700b800b9, 0x00ba00bb00bc,
  0x00bd00be00bf, 0x00c000c100c2, 0x00c300c400c5, 0x00c500c600c3, 0x00c700c800c9, 0x00ca00cb00cc, 0x00cd00ce00cf,
  0x00d000d100d2, 0x00d300d400d5, 0x00d600d700d8, 0x00d900da00db, 0x00dc00dd00de, 0x00df00e000e1, 0x00e200e300e4,
  0x00e500e600e7, 0x00e800e900ea, 0x00eb00ec00ed, 0x00ee00ef00f0, 0x00f100f200f3, 0x00f400f500f6, 0x00f700f800f9,
  0x00fa00fb00fc, 0x00fd00fe00ff, 0x010001010102, 0x010301040105, 0x010601070108, 0x0109010a010b, 0x010c010d010e,
  0x010f01100111, 0x011201130114, 0x011501160117, 0x01180119011a, 0x011b011c011d, 0x011e011f0120, 0x012101220123,
  0x012401250126, 0x012701280129, 0x012a012b012c, 0x012d012e012f, 0x013001310132, 0x013301340135, 0x013601370138,
  0x013601310137, 0x012e012d0139, 0x0130013a0131, 0x013b01350134, 0x013c013b0134, 0x013b013c013d, 0x013c012f013e,
  0x013d013c013e, 0x013e012f012e, 0x013f01400138, 0x01380137013f, 0x013a01370131, 0x014101420143, 0x014401410143,
  0x014101450142, 0x014601470145, 0x014801460145, 0x014001490146, 0x014801400146, 0x01440143014a, 0x014b0144014a,
  0x014501470142, 0x0140013f0149, 0x014c014d014e, 0x014c014e014f, 0x015001510152, 0x015101500153, 0x01540151014f,
  0x015101540152, 0x015501560157, 0x0154014f014e, 0x015701580159, 0x015501570159, 0x01590158015a, 0x012e0139015b,
  0x0139015c015d, 0x015b0139015d, 0x015c015e015f, 0x015d015c015f, 0x015e01600161, 0x015f015e0161, 0x016001620163,
  0x016101600163, 0x016401630162, 0x016301640165, 0x016501530150, 0x015301650164, 0x016601670168, 0x016901660168,
  0x016a016b015a, 0x016a015a016c, 0x016d016e016b, 0x016a016d016b, 0x01670166016e, 0x016d0167016e, 0x016f01700171,
  0x0172016f0171, 0x017201710173, 0x017401720173, 0x016c015a0158, 0x014d014c0175, 0x017601570156, 0x017701780179,
  0x0178017a0179, 0x017b017c0179, 0x017a017b0179, 0x017d017e017f, 0x017d017f0180, 0x01810182017f, 0x017e0181017f,
  0x018301810184, 0x018101830182, 0x0184014b0183, 0x018501860187, 0x014a0183014b, 0x018501880186, 0x0189018a018b,
  0x018c0189018b, 0x018d018e0189, 0x018c018d0189, 0x018f0190018e, 0x018d018f018e, 0x019101920190, 0x018f01910190,
  0x019301940192, 0x019101930192, 0x01950196018b, 0x019701850187, 0x018701930197, 0x019301870194, 0x019801880185,
  0x017801770188, 0x019801780188, 0x0199019a019b, 0x019c019d019e, 0x019f01a0019d, 0x019c019f019d, 0x019601a0019f,
  0x01a001960195, 0x01a101a201a3, 0x019a01a4019b, 0x019e019d01a5, 0x01a601a701a8, 0x01a601a901a7, 0x01a901a601aa,
  0x01a901ab01ac, 0x01ac01ab01ad, 0x01ad01ab01ae, 0x01ae01ab01af, 0x01a901b001ab, 0x01b101ab01b2, 0x01b101b201b3,
  0x01b001a901aa, 0x01b101b301b4, 0x01b501b601b7, 0x01b801b501b7, 0x01b901b801b7, 0x01ba01b901b7, 0x01bb01ba01b7,
  0x01b701bc01bd, 0x01b701be01bc, 0x01be01b701bf, 0x01b701bd01bb, 0x01c001ab01c1, 0x01c201ab01c0, 0x01c301ab01c2,
  0x01af01ab01c4, 0x01c401ab01c5, 0x01c501ab01c6, 0x01c601ab01c3, 0x01c701ab01c8, 0x01c801ab01c9, 0x01c901ab01ca,
  0x01ca01ab01cb, 0x01cb01ab01cc, 0x01cc01ab01b1, 0x01b101bf01cd, 0x01ce01bf01cf, 0x01cf01bf01d0, 0x01bf01d101d2,
  0x01bf01d201d3, 0x01d001bf01d4, 0x01b101b401bf, 0x01bf01ce01cd, 0x01c101ab01c7, 0x01d501bf01d6, 0x01d601bf01d7,
  0x01d701bf01d8, 0x01d801bf01d9, 0x01da01bf01b7, 0x01bf01db01d4, 0x01dc01bf01dd, 0x01bf01dc01de, 0x01bf01de01d1,
  0x01bf01d301db, 0x01df01bf01e0, 0x01e001bf01d5, 0x01dd01bf01df, 0x01d901bf01da, 0x01e101e201e3, 0x01e101e301e4,
  0x01e501e201e1, 0x01e601e701e8, 0x01e901ea01eb, 0x01ea01e901ec, 0x01ed01e701ee, 0x01ef01e701ed, 0x01eb01ea01f0,
  0x01ea01ee01f1, 0x01ea01ec01ee, 0x01ee01f201f3, 0x01f201ee01f4, 0x01f401ee01f5, 0x01f601e101f7, 0x01e101f601f8,
  0x01f701e101e4, 0x01f801e601e1, 0x01f901e601fa, 0x01e601f801fa, 0x01fb01e601f9, 0x01fc01e601fd, 0x01e601fc01fe,
  0x01fd01e601fb, 0x01e601ff0200, 0x020101e60200, 0x01e601fe01ff, 0x01e701ef01e8, 0x01e701e60201, 0x01f501ee0202,
  0x020201ee0203, 0x020301ee0204, 0x01ee02050204, 0x01ee01f301f1, 0x01ee02060207, 0x01ee02080206, 0x020801ee01e7,
  0x01ee02070209, 0x01ee020a0205, 0x01ee0209020a, 0x01680170016f, 0x01690168016f, 0x0195018b018a, 0x01a3017301a1,
  0x017301a30174, 0x01a1020b01a2, 0x020c01a2020b, 0x01a2020c020d, 0x020c020e020f, 0x020d020c020f, 0x020e0199019b,
  0x020f020e019b]

/-- the table of /repo/src/vpx/mesh/triggers/trigger_button_mesh.rs -/
def triggerButtonTable : MeshTable := unpackTable triggerButtonVertices triggerButtonTris

set_option maxRecDepth 100000 in
/-- the vertices of `TRIGGER_INDER_MESH`, /repo/src/vpx/mesh/triggers/trigger_inder_mesh.rs:14-167 -/
def triggerInderVertices : List Nat := [
  0xbfda89654235046c408ebc8c000000003f7ff2e53c9446743f6076b03e3ed30f,
  0x3fda89654235046c408ebc8c000000003f7ff2e53c9446743f6858ff3e3ed30f,
  0x3fda896542363606c14066c6000000003f7ff2e53c9446743f6858ff3ea0ec74,
  0xbfda896542212e52c0ecb62400000000bdf1758e3f7e353f3f703b603eb29803,
  0xbfda8965410601f0c132f88d00000000bdf1758e3f7e353f3f703b603e15b292,
  0x3fda8965410601f0c132f88d00000000bdf1758e3f7e353f3f781db03e15b292,
  0xbfda896540609c41c13d124600000000bf8000003be219653f50b2103e737ef6,
  0x3fda896540609c41c13d124600000000bf8000003be219653f5894603e737ef6,
  0x3fda8965406da83f418c2d1800000000bf8000003be219653f5894603eedc11e,
  0xbfda8965c20c0738c1af274400000000bf7fd2203d1e83e43f703b603f4784fd,
  0x3fda8965c20c0738c1af274400000000bf7fd2203d1e83e43f781db03f4784fd,
  0x3fda8965c207d17b40a9324400000000bf7fd2203d1e83e43f781db03f78bac7,
  0xbfda89654220d8c2404fc722bf80000000000000800000003e861e933d2c9e23,
  0xbfda8965422fa14840e8f64fbf80000000000000800000003e71b7e13bbdf4c3,
  0xbfda89654235046c408ebc8cbf80000000000000800000003e8715403adda48b,
  0xbfda8965416dd8c841a69830000000003ed86c223f6803473f50b2103f3d2242,
  0x3fda8965416dd8c841a69830000000003ed86c223f6803473f5894603f3d2242,
  0x3fda8965422fa14840e8f64f000000003ed86c223f6803473f5894603f7cfaf0,
  0xbfda896542363606c14066c6000000003e0068dcbf7dfa443f5894603ef2dcb1,
  0x3fda896542363606c14066c6000000003e0068dcbf7dfa443f6076b03ef2dcb1,
  0x3fda8965c1ac326ac1a40445000000003e0068dcbf7dfa443f6076b03f800000,
  0xbfda89654220d8c2404fc72200000000bed8ef35bf67e2823f703b603f0fe964,
  0x3fda89654220d8c2404fc72200000000bed8ef35bf67e2823f781db03f0fe964,
  0x3fda8965414c7fdf4180a0ba00000000bed8ef35bf67e2823f781db03f4003ac,
  0xbfda896540609c41c13d124600000000bdf5c28f3f7e28243f703b603f0fe964,
  0xbfda8965c1f1212ac17e20d900000000bdf5c28f3f7e28243f703b603eb29803,
  0x3fda8965c1f1212ac17e20d900000000bdf5c28f3f7e28243f781db03eb29803,
  0xbfda8965bfdc49c34182090e000000003ec87fccbf6b8bac3f6076b03edc903f,
  0x3fda8965bfdc49c34182090e000000003ec87fccbf6b8bac3f5894603edc903f,
  0x3fda8965c1e9d0ea409185f5000000003ec87fccbf6b8bac3f5894603e4e681b,
  0xbfda896542212e52c0ecb62400000000bf800000bbff97243f8000003f800000,
  0x3fda896542212e52c0ecb62400000000bf800000bbff97243f781db03f800000,
  0x3fda89654220d8c2404fc72200000000bf800000bbff97243f781db03f6b0154,
  0xbfda8965c1e9d0ea409185f5bf80000000000000800000003da33eff3f0f8f9b,
  0xbfda8965c2012e24410b6948bf80000000000000800000003d13825e3f132fcb,
  0xbfda8965c05c372241a86860bf8000000000000080000000000000003ea9fb40,
  0x3fda896540a9237041b6fbee3f80000000000000800000003ed399d43f3cc73b,
  0x3fda8965406da83f418c2d183f80000000000000800000003ee963fe3f36d656,
  0x3fda89654109d668418c79da3f80000000000000800000003eef670a3f4047a1,
  0xbfda8965c1e9d0ea409185f5000000003f7fbe77bd3717593f6858ff3f1decf6,
  0x3fda8965c1e9d0ea409185f5000000003f7fbe77bd3717593f703b603f1decf6,
  0x3fda8965c1f1212ac17e20d9000000003f7fbe77bd3717593f703b603f46bfdb,
  0x3fda89654220d8c2404fc7223f80000000000000800000003f2b685a3f75362f,
  0x3fda8965422fa14840e8f64f3f80000000000000800000003f24c7083f7e8416,
  0x3fda8965416dd8c841a698303f80000000000000800000003ee8c7193f4e136e,
  0xbfda89654109d668418c79da000000003f800000bc07fcb93f703b603f800000,
  0x3fda89654109d668418c79da000000003f800000bc07fcb93f6858ff3f800000,
  0x3fda8965410601f0c132f88d000000003f800000bc07fcb93f6858ff3f46bfdb,
  0x3fda8965c1e9d0ea409185f53f80000000000000800000003ef981bf3ee0e0ca,
  0x3fda8965c20c0738c1af27443f80000000000000800000003f2e747e3eb0750c,
  0x3fda8965c1f1212ac17e20d93f80000000000000800000003f298eda3ec7136a,
  0x3fda8965c207d17b40a932443f80000000000000800000003ef042d93ecf826f,
  0xbfda8965c2012e24410b694800000000bec951833f6b645a3f50b2103eedc11e,
  0x3fda8965c2012e24410b694800000000bec951833f6b645a3f5894603eedc11e,
  0x3fda8965c05c372241a8686000000000bec951833f6b645a3f5894603f1d0881,
  0x3fda8965414c7fdf4180a0ba3f80000000000000800000003efb3bda3f477b29,
  0x3fda8965411d98f041b2fb983f80000000000000800000003edb93683f45477c,
  0xbfda896542212e52c0ecb624bf80000000000000800000003eb582563d83779f,
  0xbfda89654234020640c496e8bf80000000000000800000003e7e939f00000000,
  0x3fda8965c1ac326ac1a404453f80000000000000800000003f393f9e3ee32a06,
  0x3fda896542363606c14066c63f80000000000000800000003f50b2103f772629,
  0x3fda8965410601f0c132f88d3f80000000000000800000003f3766513f30240b,
  0x3fda896540609c41c13d12463f80000000000000800000003f35bc343f267158,
  0x3fda896542212e52c0ecb6243f80000000000000800000003f431a2a3f6f910c,
  0x3fda89654235046c408ebc8c3f80000000000000800000003f2be3b03f7f912e,
  0x3fda89654234020640c496e83f80000000000000800000003f27fdf83f800000,
  0xbfda8965c207d17b40a93244bf80000000000000800000003d7c86cf3f183ec9,
  0x3fda8965c2012e24410b69483f80000000000000800000003ee3224b3ed9a06a,
  0x3fda8965c20674df40e80c203f80000000000000800000003ee7f6f53ed2f5fd,
  0xbfda89653f86ebff41b24b06bf800000000000008000000039b45ae63e975a10,
  0xbfda89653fbf483d4189a3c8bf80000000000000800000003d3a743a3e9b33fd,
  0xbfda8965c20674df40e80c20bf80000000000000800000003d3a27af3f168501,
  0xbfda8965406da83f418c2d18bf80000000000000800000003d458eeb3e925354,
  0x3fda8965c05c372241a868603f80000000000000800000003ed0b1ff3f2b0260,
  0x3fda8965bfdc49c34182090e3f80000000000000800000003ee82be93f2bb2ff,
  0x3fda89653fbf483d4189a3c83f80000000000000800000003ee800863f326613,
  0x3fda89653f86ebff41b24b063f80000000000000800000003ed0df373f3452f8,
  0xbfda8965416dd8c841a69830bf80000000000000800000003d40a8d23e47b246,
  0xbfda8965410601f0c132f88dbf80000000000000800000003e9e1a823e9fb7e9,
  0xbfda896540609c41c13d1246bf80000000000000800000003e9ac6473eb31d50,
  0xbfda8965414c7fdf4180a0babf80000000000000800000003daa26e53e62135e,
  0xbfda89654109d668418c79dabf80000000000000800000003d75a74c3e7ee17a,
  0xbfda8965411d98f041b2fb98bf80000000000000800000003cae16943e6ae211,
  0xbfda896540a9237041b6fbeebf80000000000000800000003bb9ecf63e8671ac,
  0xbfda8965c1f1212ac17e20d9bf80000000000000800000003e826bb53f1c764b,
  0xbfda8965c20c0738c1af2744bf80000000000000800000003e8c36fc3f27c57a,
  0xbfda8965c1ac326ac1a40445bf80000000000000800000003ea1cd3e3f0e6afd,
  0xbfda896542363606c14066c6bf80000000000000800000003ed0b1ff3d0d9e84,
  0xbfda896542363606c14066c6000000003f7ff2e53c9446743f6076b03ea0ec74,
  0x3fda896542212e52c0ecb62400000000bdf1758e3f7e353f3f781db03eb29803,
  0xbfda8965406da83f418c2d1800000000bf8000003be219653f50b2103eedc11e,
  0xbfda8965c207d17b40a9324400000000bf7fd2203d1e83e43f703b603f78bac7,
  0xbfda8965422fa14840e8f64f000000003ed86c223f6803473f50b2103f7cfaf0,
  0xbfda8965c1ac326ac1a40445000000003e0068dcbf7dfa443f5894603f800000,
  0xbfda8965414c7fdf4180a0ba00000000bed8ef35bf67e2823f703b603f4003ac,
  0x3fda896540609c41c13d124600000000bdf5c28f3f7e28243f781db03f0fe964,
  0xbfda8965c1e9d0ea409185f5000000003ec87fccbf6b8bac3f6076b03e4e67d7,
  0xbfda896542212e52c0ecb62400000000bf800000bc016f003f8000003f800000,
  0x3fda89654220d8c2404fc72200000000bf800000bc016f003f781db03f6b0154,
  0xbfda89654220d8c2404fc72200000000bf800000bc016f003f8000003f6b0154,
  0xbfda8965bfdc49c34182090ebf80000000000000800000003d3bcf4f3ea89a02,
  0xbfda8965c1f1212ac17e20d9000000003f7fbe77bd3717593f6858ff3f46bfdb,
  0xbfda8965410601f0c132f88d000000003f800000bc07fcb93f703b603f46bfdb,
  0xbfda8965c05c372241a8686000000000bec951833f6b645a3f50b2103f1d0881,
  0x3fda8965c20c0738c1af2744000000003dd25461bf7ea4a9000000003f800000,
  0xbfda8965c20c0738c1af2744000000003dd25461bf7ea4a9000000003f800000,
  0xbfda8965c1ac326ac1a40445000000003dd25461bf7ea4a9000000003f800000,
  0x3fda8965c1ac326ac1a40445000000003dd25461bf7ea4a9000000003f800000,
  0xbfda8965c20674df40e80c2000000000bf3e0ded3f2b851f3f703b603f7cb641,
  0x3fda8965c20674df40e80c2000000000bf3e0ded3f2b851f3f781db03f7cb641,
  0x3fda8965c2012e24410b694800000000bf3e0ded3f2b851f3f781db03f800000,
  0xbfda896540a9237041b6fbee000000003ddf06f73f7e76c93f50b2103f2a71ac,
  0x3fda896540a9237041b6fbee000000003ddf06f73f7e76c93f5894603f2a71ac,
  0x3fda8965411d98f041b2fb98000000003ddf06f73f7e76c93f5894603f32e1df,
  0xbfda89654235046c408ebc8c000000003f7d288d3e17dbf53f6076b03e3ed30f,
  0xbfda89654234020640c496e8000000003f7d288d3e17dbf53f6076b03e319b91,
  0x3fda89654234020640c496e8000000003f7d288d3e17dbf53f6858ff3e319b91,
  0xbfda8965422fa14840e8f64f000000003f3865953f318fc53f50b2103f7cfaf0,
  0x3fda8965422fa14840e8f64f000000003f3865953f318fc53f5894603f7cfaf0,
  0x3fda89654234020640c496e8000000003f3865953f318fc53f5894603f800000,
  0xbfda89653fbf483d4189a3c8000000003e9126e9bf7581063f6076b03ee9ed5b,
  0x3fda89653fbf483d4189a3c8000000003e9126e9bf7581063f5894603ee9ed5b,
  0x3fda8965bfdc49c34182090e000000003e9126e9bf7581063f5894603edc903f,
  0xbfda89653f86ebff41b24b0600000000be0c985f3f7d91683f50b2103f23a659,
  0x3fda89653f86ebff41b24b0600000000be0c985f3f7d91683f5894603f23a659,
  0x3fda896540a9237041b6fbee00000000be0c985f3f7d91683f5894603f2a71ac,
  0xbfda8965411d98f041b2fb98000000003e970a3d3f749ba63f50b2103f32e1df,
  0x3fda8965411d98f041b2fb98000000003e970a3d3f749ba63f5894603f32e1df,
  0x3fda8965416dd8c841a69830000000003e970a3d3f749ba63f5894603f3d2242,
  0xbfda8965c05c372241a8686000000000be87bb303f76d5d03f50b2103f1d0881,
  0x3fda8965c05c372241a8686000000000be87bb303f76d5d03f5894603f1d0881,
  0x3fda89653f86ebff41b24b0600000000be87bb303f76d5d03f5894603f23a659,
  0xbfda8965414c7fdf4180a0ba00000000beab7803bf7134053f703b603f4003ac,
  0x3fda8965414c7fdf4180a0ba00000000beab7803bf7134053f781db03f4003ac,
  0x3fda89654109d668418c79da00000000beab7803bf7134053f781db03f4784fd,
  0xbfda8965406da83f418c2d18000000003e10cb29bf7d6a163f6076b03ef2dcb1,
  0x3fda8965406da83f418c2d18000000003e10cb29bf7d6a163f5894603ef2dcb1,
  0x3fda89653fbf483d4189a3c8000000003e10cb29bf7d6a163f5894603ee9ed5b,
  0xbfda8965c207d17b40a9324400000000bf7c3c9f3e2ee6323f703b603f78bac7,
  0x3fda8965c207d17b40a9324400000000bf7c3c9f3e2ee6323f781db03f78bac7,
  0x3fda8965c20674df40e80c2000000000bf7c3c9f3e2ee6323f781db03f7cb641,
  0xbfda8965c2012e24410b694800000000bf3e0ded3f2b851f3f703b603f800000,
  0xbfda8965411d98f041b2fb98000000003ddf06f73f7e76c93f50b2103f32e1df,
  0x3fda89654235046c408ebc8c000000003f7d288d3e17dbf53f6858ff3e3ed30f,
  0xbfda89654234020640c496e8000000003f3865953f318fc53f50b2103f800000,
  0xbfda8965bfdc49c34182090e000000003e9126e9bf7581063f6076b03edc903f,
  0xbfda896540a9237041b6fbee00000000be0c985f3f7d91683f50b2103f2a71ac,
  0xbfda8965416dd8c841a69830000000003e970a3d3f749ba63f50b2103f3d2242,
  0xbfda89653f86ebff41b24b0600000000be87bb303f76d5d03f50b2103f23a659,
  0xbfda89654109d668418c79da00000000beab7803bf7134053f703b603f4784fd,
  0xbfda89653fbf483d4189a3c8000000003e10cb29bf7d6a163f6076b03ee9ed5b,
  0xbfda8965c20674df40e80c2000000000bf7c3c9f3e2ee6323f703b603f7cb641]

set_option maxRecDepth 100000 in
/-- the triangles of `TRIGGER_INDER_INDICES`, /repo/src/vpx/mesh/triggers/trigger_inder_mesh.rs:170-197 -/
def triggerInderTris : List Nat := [
  0x001e001f0020, 0x000000010002, 0x000000020058, 0x000300040005, 0x000300050059, 0x000600070008, 0x00060008005a,
  0x0009000a000b, 0x0009000b005b, 0x000c000d000e, 0x000e000d003a, 0x004d000d000c, 0x0039000c000e, 0x004d000c0050,
  0x0039000e0057, 0x00500052004d, 0x00390057004e, 0x005000510052, 0x0056004e0057, 0x005100530052, 0x004f004e0056,
  0x005100480053, 0x004e00480051, 0x004e004f0048, 0x004800450053, 0x00560054004f, 0x004800460045, 0x005600550054,
  0x002300450046, 0x005400550042, 0x002300460064, 0x005400420021, 0x002100230064, 0x002100220023, 0x002100420022,
  0x004200470022, 0x000f00100011, 0x000f0011005c, 0x001200130014, 0x00120014005d, 0x001500160017, 0x00150017005e,
  0x00180019001a, 0x0018001a005f, 0x001b001c001d, 0x001b001d0060, 0x002400250026, 0x00250024004c, 0x002400260038,
  0x0025004c004b, 0x0049004b004c, 0x003e00260025, 0x0049004a004b, 0x003700380026, 0x0030004a0049, 0x0037002c0038,
  0x003000490043, 0x002a002c0037, 0x003e003d0026, 0x002a002b002c, 0x003d003e003b, 0x003e0032003b, 0x002b002a0040,
  0x002b00400041, 0x0040002a003f, 0x0040003f003c, 0x003c003f003d, 0x003b003c003d, 0x0031003b0032, 0x003000310032,
  0x003000330031, 0x003000430033, 0x003300430044, 0x002700280029, 0x002700290065, 0x002d002e002f, 0x002d002f0066,
  0x003400350036, 0x003400360067, 0x006100620063, 0x00680069006a, 0x006b0068006a, 0x006c006d006e, 0x006c006e008d,
  0x006f00700071, 0x006f0071008e, 0x007200730074, 0x00720074008f, 0x007500760077, 0x007500770090, 0x00780079007a,
  0x0078007a0091, 0x007b007c007d, 0x007b007d0092, 0x007e007f0080, 0x007e00800093, 0x008100820083, 0x008100830094,
  0x008400850086, 0x008400860095, 0x008700880089, 0x008700890096, 0x008a008b008c, 0x008a008c0097]

/-- the table of /repo/src/vpx/mesh/triggers/trigger_inder_mesh.rs -/
def triggerInderTable : MeshTable := unpackTable triggerInderVertices triggerInderTris

set_option maxRecDepth 100000 in
/-- the vertices of `TRIGGER_SIMPLE_MESH`, /repo/src/vpx/mesh/triggers/trigger_simple_mesh.rs:14-64 -/
def triggerSimpleVertices : List Nat := [
  0x3fa448f9c1b42e4442063fbe3f7fc505bd13dd983ca0902e3e2aaac13f200000,
  0x3fa44788c235a521c1e931e53f7e2eb2bde4f7663d26b50b3e2aaac13f800000,
  0x3f2444d0c2314bbfc1e931e53f58ce703effbe77be3aacda000000003f800000,
  0x3f2447b2c1ac50be420448b63f5bf4883eedb8bbbe5c0ebf000000003f200000,
  0x3f2447b2c1ac50be420448b6000000003f6a71debecd9e843f8000003f200000,
  0x3f2444d0c2314bbfc1e931e5000000003f70624ebeb013a93f8000003f800000,
  0xbf244ff4c2314bbfc1e931e5bf067a103f4c8b44be95cfab3f5555503f800000,
  0xbf244d12c1ac50bc420448b6bf0196533f4a43febeb0ff973f5555503f200000,
  0xbfa44d3cc235a51fc1e931e5bf7e2eb2bde560423d264c303f2aaab03f800000,
  0xbfa44bcbc1b42e4242063fbebf7fd8aebcf34d6a3c9a02753f2aaab03f200000,
  0xbf245037c239fe77c1e931e5bedd3c36bf58e2193e9e353f3f0000003f800000,
  0xbf244d55c1bba15c420836dabef2e48fbf4adaba3ec45a1d3f0000003f200000,
  0x3f24448dc239fe77c1e931e53edd2f1bbf58e8a73e9e28243eaaaa9f3f800000,
  0x3f24476fc1bba15e420836da3ef3d07dbf4a4a8c3ec57a783eaaaa9f3f200000,
  0x3fa44913c1a69cac4211cda03f7df3b6bdbe425b3daee6323e2aaac13f1c0000,
  0x3f2447d4c1a26fdc420de0973f5b573f3eb67a10bebed289000000003f1c0000,
  0x3f2447d4c1a26fdc420de097000000003f2573ebbf435a863f8000003f1c0000,
  0xbf244cf0c1a26fda420de097bf0f41f23f0b089abf2041893f5555503f1c0000,
  0xbfa44bb2c1a69caa4211cda0bf7e2eb2bdb15b573da5aee63f2aaab03f1c0000,
  0xbf244d12c1aac9514215ba94bee8b439bf09374c3f361e4f3f0000003f1c0000,
  0x3f2447b2c1aac9534215ba943ee9ba5ebf0958103f35aee63eaaaa9f3f1c0000,
  0x3fa44945c18c18d54215e4a53f7e703b3c3780343ddfd8ae3e2aaac13f180000,
  0x3f244828c18c18d5421174e83f5d7dbfbccf41f2bf002de0000000003f180000,
  0x3f244828c18c18d5421174e880000000bd229c78bf7fcb923f8000003f180000,
  0xbf244c9dc18c18d3421174e8bf0dd97fbd1c0ebfbf54e3bd3f5555503f180000,
  0xbfa44b7fc18c18d34215e4a5bf7e7d563c42f8383ddcfaad3f2aaab03f180000,
  0xbf244c9dc18c18d3421a5477beeaa64c3d2b9f563f6346dc3f0000003f180000,
  0x3f244828c18c18d5421a54773eeae7d53d28c1553f6333333eaaaa9f3f180000,
  0x3fa44d23422f5592414403743f7f212d3d4985f03d8553263e2aaac13e500000,
  0x3f244fd3422cc27c4137244c3f59f55abeaa3055becfb7e9000000003e500000,
  0x3f244fd3422cc27c4137244c80000000bf2460aabf443fe63f8000003e500000,
  0xbf2444f2422cc27c4137244cbf07ae14bf0bb98cbf2624dd3f5555503e500000,
  0xbfa447a1422f559441440374bf7f1aa03d456d5d3d8c49ba3f2aaab03e500000,
  0xbf2444bf423247874151160cbeec63f13f0fa4403f2fdf3b3f0000003e500000,
  0x3f245005423247874151160c3eec7e283f0faace3f2fcb923eaaaa9f3e500000,
  0x3fa44d3c4235b875411e86da3f7e83e43dd4fdf43cd013a93e2aaac13e400000,
  0x3f244ff4423172544119a02a3f5da512bef9ce07bde3bcd3000000003e400000,
  0x3f244ff4423172544119a02a00000000bf7902debe6dab9f3f8000003e400000,
  0xbf2444d0423172544119a02abf0c56d6bf502752be4831273f5555503e400000,
  0xbfa447884235b877411e86dabf7e76c93ddab9f53cbe0ded3f2aaab03e400000,
  0xbf24448d4239fe7741236e07beeab3683f5c63f13e61e4f73f0000003e400000,
  0x3f2450374239fe7741236e073eeac0833f5c56d63e624dd33eaaaa9f3e400000,
  0x3fa44d014226a9d1c1e931e53f7fdf3bbd00346e3b5ed2893e2aaac100000000,
  0x3f244f7f4222507ac1e931e53f5c2f83bf01f8a13d4b295f0000000000000000,
  0x3f244f7f4222507ac1e931e500000000bf7ecbfb3dc710cb3f80000000000000,
  0xbf2445464222507ac1e931e5bef652bdbf5f5c293dadab9f3f55555000000000,
  0xbfa447c34226a9d3c1e931e5bf7fdf3bbcfd21ff3b5844d03f2aaab000000000,
  0xbf244502422b0333c1e931e5bf01eb853f5b98c8bda71de73f00000000000000,
  0x3f244fc2422b0333c1e931e53f01de6a3f5b9f56bda7ef9e3eaaaa9f00000000]

set_option maxRecDepth 100000 in
/-- the triangles of `TRIGGER_SIMPLE_INDICES`, /repo/src/vpx/mesh/triggers/trigger_simple_mesh.rs:67-140 -/
def triggerSimpleTris : List Nat := [
  0x000400050006, 0x000600070004, 0x000700060008, 0x001000040007, 0x000800090007, 0x00090008000a, 0x000700110010,
  0x001100070009, 0x001700100011, 0x000a000b0009, 0x000b000a000c, 0x000900120011, 0x00120009000b, 0x001100180017,
  0x001800110012, 0x001e00170018, 0x000c000d000b, 0x000d000c0001, 0x0018001f001e, 0x0025001e001f, 0x001200190018,
  0x001f00180019, 0x000b00130012, 0x001900120013, 0x0013000b000d, 0x001f00260025, 0x002c00250026, 0x0026002d002c,
  0x00190020001f, 0x0026001f0020, 0x002d00260027, 0x002000270026, 0x0027002e002d, 0x00200019001a, 0x0013001a0019,
  0x002700200021, 0x001a00210020, 0x002e00270028, 0x002100280027, 0x0028002f002e, 0x001a00130014, 0x000d00140013,
  0x002f00280029, 0x00290030002f, 0x002800210022, 0x002200290028, 0x0021001a001b, 0x001b00220021, 0x0014001b001a,
  0x003000290023, 0x0023002a0030, 0x0024002b002a, 0x002a00230024, 0x001d00240023, 0x001c00230029, 0x0023001c001d,
  0x00290022001c, 0x0016001d001c, 0x0015001c0022, 0x001c00150016, 0x0022001b0015, 0x000f00160015, 0x000e0015001b,
  0x0015000e000f, 0x001b0014000e, 0x0003000f000e, 0x0000000e0014, 0x000e00000003, 0x0014000d0000, 0x000000020003,
  0x00010000000d, 0x000000010002]

/-- the table of /repo/src/vpx/mesh/triggers/trigger_simple_mesh.rs -/
def triggerSimpleTable : MeshTable := unpackTable triggerSimpleVertices triggerSimpleTris

set_option maxRecDepth 100000 in
/-- the vertices of `TRIGGER_STAR_MESH`, /repo/src/vpx/mesh/triggers/trigger_star_mesh.rs:14-246 -/
def triggerStarVertices : List Nat := [
  0x000000003b198d043e9566ae00000000000000003f8000003f0000003edc28f6,
  0x3e376a72bd64cd753e9566cf3d7be76dbca3d70a3f7f76603f063bcd3f0143d0,
  0x3e376a723d7800223e9566ae3d7be76d3ca3d70a3f7f76603ef388663f0143d0,
  0x3eef9831bd32c83f3e82f8383e37b4a2000000003f7bda513f04ecfa3f2033a4,
  0x3eef98313d45f9df3e82f8163e37b4a2000000003f7bda513ef6260b3f2033a4,
  0x3e376a723d77ff15bd15b24f3f737b4a3e9e353f3951b7173e3d86ec3f7f89b5,
  0x3e376a723d7800223e9566ae3f737b4a3e9e353f800000003e3d86ec3f5e007e,
  0x3eef98313d45f9df3e82f8163d2fb7e93f7fc505ba1d49523e97789a3f601180,
  0x3e376a72bd64cd753e9566cf3f737b4abe9e353f000000003f5074fb3f5e007e,
  0x3e376a72bd64ce81bd15b24f3f737b4abe9e353f3951b7173f5074fb3f7f89b5,
  0x3eef9831bd32c83f3e82f8383d2fb7e9bf7fc505ba1d49523f33ceb83f601180,
  0x3f77ced9bcb8433d3dd638863d2c710dbf7fc5053a83126f3f027ab73f66e7f7,
  0x3f4abbfdbcf2580c3e34d6a13d2b9f56bf7fc5053b2a64c33f142f733f637564,
  0x3f4abbfd3d0c5da73e34d65e3e9d3c36000000003f73a29c3ef929453f42e6da,
  0x3f4abbfdbcf2580c3e34d6a13e9d3c36000000003f73a29c3f036b5d3f42e6da,
  0x3f4abbfd3d0c5da73e34d65e3d2b9f563f7fc5053b2a64c33ed719503f637564,
  0x3f77ced93cdea67f3dd638003ec1cac1000000003f6cf41f3efaae293f55c28f,
  0x3f77ced9bcb8433d3dd638863ec1cac1000000003f6cf41f3f02a8eb3f55c28f,
  0x3f77ced93cdea67f3dd638003d2c710d3f7fc5053a83126f3efab7fe3f66e7f7,
  0x3f77ced93cdea67f3dd638003f80000080000000800000003efab7fe3f66e7f7,
  0x3f77ced9bcb8433d3dd638863f80000080000000800000003f027ab73f66e7f7,
  0x3f77ced93cdea466bd15b24f3f80000080000000800000003efab7fe3f7f89b5,
  0x3f77ced9bcb84556bd15b24f3f80000080000000800000003f027ab73f7f89b5,
  0x3f77ced9bcb84556bd15b24f3d2d42c4bf7fc505000000003f027ab73f7f89b5,
  0x3f77ced93cdea466bd15b24f3d2d42c43f7fc505800000003efab7fe3f7f89b5,
  0x3de2b6aebe19a2c63e9566cf3d1ba5e3bd5638863f7f76603f1051ca3ef3dfb1,
  0x3eb3ff04be9eb13e3e82f8383e149518bdd7dbf53f7bda513f2172153f13bbf9,
  0x3ecfad08be712f0a3e82f8383e149518bdd7dbf53f7bda513f1979e13f198644,
  0x3e376a72bd64ce81bd15b24f3f737b4abe9e353f3951b7173e3d86ec3f7f89b5,
  0x3e376a72bd64cd753e9566cf3f737b4abe9e353f000000003e3d86ec3f5e007e,
  0x3ecfad08be712f0a3e82f8383f1f3b643f4872b0ba1d49523e97789a3f601180,
  0x3de2b6aebe19a2c63e9566cf3f167a10bf4f1aa0000000003f5074fb3f5e007e,
  0x3de2b6aebe19a30abd15b24f3f167a10bf4f1aa03951b7173f5074fb3f7f89b5,
  0x3eb3ff04be9eb13e3e82f838bf0d7732bf556042ba1d49523f33ceb83f601180,
  0x3f44be73bf1636c13dd6390dbf0da512bf553f7d3a83126f3f027ab73f66e7f7,
  0x3f1f3648befa5f853e34d6a1bf0dab9fbf5538ef3b2a64c33f142f733f637564,
  0x3f28d1b7bedfec9a3e34d6a13e7e5c92be38d4fe3f73a29c3f2f17373f34b641,
  0x3f1f3648befa5f853e34d6a13e7e5c92be38d4fe3f73a29c3f349f843f30b146,
  0x3f28d1b7bedfec9a3e34d6a13f1f06f73f489a023b2a64c33ed719503f637564,
  0x3f4c37c5bf0bed203dd6390d3e9cc63fbe63d70a3f6cf41f3f3aca253f4385b6,
  0x3f44be73bf1636c13dd6390d3e9cc63fbe63d70a3f6cf41f3f3f17f03f406541,
  0x3f4c37c5bf0bed203dd6390d3f1f0d843f4893753a83126f3efab7fe3f66e7f7,
  0x3f4c37c5bf0bed203dd6390d3f4f1aa0bf167a10000000003efab7fe3f66e7f7,
  0x3f44be73bf1636c13dd6390d3f4f1aa0bf167a10000000003f027ab73f66e7f7,
  0x3f4c37c5bf0bed31bd15b1423f4f1aa0bf167a10000000003efab7fe3f7f89b5,
  0x3f44be73bf1636d2bd15b1423f4f1aa0bf167a10000000003f027ab73f7f89b5,
  0x3f44be73bf1636d2bd15b142bf0d97f6bf55460b000000003f027ab73f7f89b5,
  0x3f4c37c5bf0bed31bd15b1423f1f1aa03f488ce7800000003efab7fe3f7f89b5,
  0x80000000be3e789e3e9566cf00000000bd84816f3f7f76603f142c0a3edc28f6,
  0x3dce9574bee9f6a93e82f8383d62eb1cbe2eb1c43f7bda513f3130cf3ef1c497,
  0x3e40dcfdbedb69123e82f8383d62eb1cbe2eb1c43f7bda513f2e25853f0240c8,
  0x3de2b6aebe19a30abd15b24f3f167a10bf4f1aa03951b7173e3d86ec3f7f89b5,
  0x3de2b6aebe19a2c63e9566cf3f167a10bf4f1aa0000000003e3d86ec3f5e007e,
  0x3e40dcfdbedb69123e82f8383f76a1623e892a30ba1d49523e97789a3f601180,
  0x80000000be3e789e3e9566cf00000000bf800000000000003f5074fb3f5e007e,
  0x80000000be3e78e2bd15b24f80000000bf8000003951b7173f5074fb3f7f89b5,
  0x3dce9574bee9f6a93e82f838bf6fd8aebeb2f1aaba1d49523f33ceb83f601180,
  0x3e8d0fa6bf6d105e3dd6390dbf6fec57beb288ce3a83126f3f027ab73f66e7f7,
  0x3e5b80edbf42c0e83e34d6e4bf6ff2e5beb27bb33b2a64c33f142f733f637564,
  0x3e8cd76bbf3db3d03e34d6e43dc25aeebe9581063f73a29c3f4f9d1b3f0b8b15,
  0x3e5b80edbf42c0e83e34d6e43dc25aeebe9581063f73a29c3f51ba1b3f050a13,
  0x3e8cd76bbf3db3d03e34d6e43f7694463e89a0273b2a64c33ed719503f637564,
  0x3ea53f18bf6922643dd6390d3def9db2beb851ec3f6cf41f3f61c8973f10a611,
  0x3e8d0fa6bf6d105e3dd6390d3def9db2beb851ec3f6cf41f3f636d763f0b96d1,
  0x3ea53f18bf6922643dd6390d3f7694463e89930c3a83126f3efab7fe3f66e7f7,
  0x3ea53f18bf6922643dd6390d3e9e353fbf7374bc000000003efab7fe3f66e7f7,
  0x3e8d0fa6bf6d105e3dd6390d3e9e353fbf7374bc000000003f027ab73f66e7f7,
  0x3ea53f18bf692275bd15b0363e9e353fbf7374bc000000003efab7fe3f7f89b5,
  0x3e8d0fa6bf6d105ebd15b0363e9e353fbf7374bc000000003f027ab73f7f89b5,
  0x3e8d0fa6bf6d105ebd15b036bf6fec57beb2a305000000003f027ab73f7f89b5,
  0x3ea53f18bf692275bd15b0363f769ad43e8978d5800000003efab7fe3f7f89b5,
  0xbde2b6aebe19a2c63e9566cfbd1ba5e3bd5638863f7f76603f1051ca3ec4723b,
  0xbe40dcfdbedb69123e82f838bd62eb1cbe2eb1c43f7bda513f2e25853eb3d05b,
  0xbdce94eebee9f6a93e82f838bd62eb1cbe2eb1c43f7bda513f3130cf3ec68d54,
  0x80000000be3e78e2bd15b24f80000000bf8000003951b7173e3d86ec3f7f89b5,
  0x80000000be3e789e3e9566cf00000000bf800000000000003e3d86ec3f5e007e,
  0xbdce94eebee9f6a93e82f8383f6fd8aebeb2f1aaba1d49523e97789a3f601180,
  0xbde2b6aebe19a2c63e9566cfbf167a10bf4f1aa0000000003f5074fb3f5e007e,
  0xbde2b6aebe19a30abd15b24fbf167a10bf4f1aa03951b7173f5074fb3f7f89b5,
  0xbe40dcfdbedb69123e82f838bf76a1623e892a30ba1d49523f33ceb83f601180,
  0xbea53f18bf6922643dd6390dbf7694463e89930c3a83126f3f027ab73f66e7f7,
  0xbe8cd76bbf3db3d03e34d6e4bf7694463e89a0273b2a64c33f142f733f637564,
  0xbe5b80edbf42c0e83e34d6e4bdc25aeebe9581063f73a29c3f51ba1b3eae3dc5,
  0xbe8cd76bbf3db3d03e34d6e4bdc25aeebe9581063f73a29c3f4f9d1b3ea13bc1,
  0xbe5b80edbf42c0e83e34d6e43f6ff2e5beb27bb33b2a64c33ed719503f637564,
  0xbe8d0fa6bf6d105e3dd6390dbdef9db2beb851ec3f6cf41f3f636d763ea1244a,
  0xbea53f18bf6922643dd6390dbdef9db2beb851ec3f6cf41f3f61c8973e9705c9,
  0xbe8d0fa6bf6d105e3dd6390d3f6fec57beb288ce3a83126f3efab7fe3f66e7f7,
  0xbe8d0fa6bf6d105e3dd6390dbe9e353fbf7374bc000000003efab7fe3f66e7f7,
  0xbea53f18bf6922643dd6390dbe9e353fbf7374bc000000003f027ab73f66e7f7,
  0xbe8d0fa6bf6d105ebd15b036be9e353fbf7374bc000000003efab7fe3f7f89b5,
  0xbea53f18bf692275bd15b036be9e353fbf7374bc000000003f027ab73f7f89b5,
  0xbea53f18bf692275bd15b036bf769ad43e8978d5800000003f027ab73f7f89b5,
  0xbe8d0fa6bf6d105ebd15b0363f6fec57beb2a305000000003efab7fe3f7f89b5,
  0xbe376a72bd64cd753e9566cfbd7be76dbca3d70a3f7f76603f063bcd3eb5ca6d,
  0xbecfad08be712f0a3e82f838be149518bdd7dbf53f7bda513f1979e13e854563,
  0xbeb3ff04be9eb13e3e82f838be149518bdd7dbf53f7bda513f2172153e90d9f9,
  0xbde2b6aebe19a30abd15b24fbf167a10bf4f1aa03951b7173e3d86ec3f7f89b5,
  0xbde2b6aebe19a2c63e9566cfbf167a10bf4f1aa0000000003e3d86ec3f5e007e,
  0xbeb3ff04be9eb13e3e82f8383f0d7732bf556042ba1d49523e97789a3f601180,
  0xbe376a72bd64cd753e9566cfbf737b4abe9e353f000000003f5074fb3f5e007e,
  0xbe376a72bd64ce81bd15b24fbf737b4abe9e353f3951b7173f5074fb3f7f89b5,
  0xbecfad08be712f0a3e82f838bf1f3b643f4872b0ba1d49523f33ceb83f601180,
  0xbf4c37b5bf0bed203dd6390dbf1f0d843f4893753a83126f3f027ab73f66e7f7,
  0xbf28d1b7bedfec9a3e34d6a1bf1f06f73f489a023b2a64c33f142f733f637564,
  0xbf1f3648befa5f853e34d6a1be7e5c92be38d4fe3f73a29c3f349f843e2ddebe,
  0xbf28d1b7bedfec9a3e34d6a1be7e5c92be38d4fe3f73a29c3f2f17373e1dcad1,
  0xbf1f3648befa5f853e34d6a13f0dab9fbf5538ef3b2a64c33ed719503f637564,
  0xbf44be73bf1636c13dd6390dbe9cc63fbe63d70a3f6cf41f3f3f17f03dde1e2e,
  0xbf4c37b5bf0bed203dd6390dbe9cc63fbe63d70a3f6cf41f3f3aca253dc51a00,
  0xbf44be73bf1636c13dd6390d3f0da512bf553f7d3a83126f3efab7fe3f66e7f7,
  0xbf44be73bf1636c13dd6390dbf4f1aa0bf167382000000003efab7fe3f66e7f7,
  0xbf4c37b5bf0bed203dd6390dbf4f1aa0bf167382000000003f027ab73f66e7f7,
  0xbf44be73bf1636d2bd15b142bf4f1aa0bf167a10000000003efab7fe3f7f89b5,
  0xbf4c37b5bf0bed31bd15b142bf4f1aa0bf167a10000000003f027ab73f7f89b5,
  0xbf4c37b5bf0bed31bd15b142bf1f1aa03f488ce7800000003f027ab73f7f89b5,
  0xbf44be73bf1636d2bd15b1423f0d97f6bf55460b000000003efab7fe3f7f89b5,
  0xbe376a723d7800223e9566aebd7be76d3ca3d70a3f7f76603ef388663eb5ca6d,
  0xbeef98313d45f9df3e82f816be37b4a2000000003f7bda513ef6262d3e6fd545,
  0xbeef9831bd32c83f3e82f838be37b4a2000000003f7bda513f04ecfa3e6fd545,
  0xbe376a72bd64ce81bd15b24fbf737b4abe9e353f3951b7173e3d86ec3f7f89b5,
  0xbe376a72bd64cd753e9566cfbf737b4abe9e353f000000003e3d86ec3f5e007e,
  0xbeef9831bd32c83f3e82f838bd2fb7e9bf7fc505ba1d49523e97789a3f601180,
  0xbe376a723d7800223e9566aebf737b4a3e9e353f800000003f5074fb3f5e007e,
  0xbe376a723d77ff15bd15b24fbf737b4a3e9e353f3951b7173f5074fb3f7f89b5,
  0xbeef98313d45f9df3e82f816bd2fb7e93f7fc505ba1d49523f33ceb83f601180,
  0xbf77ced93cdea67f3dd63800bd2c710d3f7fc5053a83126f3f027ab73f66e7f7,
  0xbf4abbfd3d0c5da73e34d65ebd2b9f563f7fc5053b2a64c33f142f733f637564,
  0xbf4abbfdbcf2580c3e34d6a1be9d3c36000000003f73a29c3f036b5d3dca10e0,
  0xbf4abbfd3d0c5da73e34d65ebe9d3c36000000003f73a29c3ef929453dca10e0,
  0xbf4abbfdbcf2580c3e34d6a1bd2b9f56bf7fc5053b2a64c33ed719503f637564,
  0xbf77ced9bcb8433d3dd63886bec1cac1000000003f6cf41f3f02a8eb3ccccccd,
  0xbf77ced93cdea67f3dd63800bec1cac1000000003f6cf41f3efaae293ccccccd,
  0xbf77ced9bcb8433d3dd63886bd2c710dbf7fc5053a83126f3efab7fe3f66e7f7,
  0xbf77ced9bcb8433d3dd63886bf80000080000000800000003efab7fe3f66e7f7,
  0xbf77ced93cdea67f3dd63800bf80000080000000800000003f027ab73f66e7f7,
  0xbf77ced9bcb84556bd15b24fbf80000080000000800000003efab7fe3f7f89b5,
  0xbf77ced93cdea466bd15b24fbf80000080000000800000003f027ab73f7f89b5,
  0xbf77ced93cdea466bd15b24fbd2d42c43f7fc505800000003f027ab73f7f89b5,
  0xbf77ced9bcb84556bd15b24fbd2d42c4bf7fc505000000003efab7fe3f7f89b5,
  0xbde2b6ae3e1e6f723e9566aebd1ba5e33d5638863f7f76603edf5c6c3ec4723b,
  0xbeb3ff043ea117943e82f816be1495183dd7dbf53f7bda513ebd1bd63e90d9f9,
  0xbecfad083e75fb723e82f816be1495183dd7dbf53f7bda513ecd0c5f3e854563,
  0xbe376a723d77ff15bd15b24fbf737b4a3e9e353f3951b7173e3d86ec3f7f89b5,
  0xbe376a723d7800223e9566aebf737b4a3e9e353f800000003e3d86ec3f5e007e,
  0xbecfad083e75fb723e82f816bf1f3b64bf4872b0ba1d49523e97789a3f601180,
  0xbde2b6ae3e1e6f723e9566aebf167a103f4f1aa0800000003f5074fb3f5e007e,
  0xbde2b6ae3e1e6f2fbd15b24fbf167a103f4f1aa03951b7173f5074fb3f7f89b5,
  0xbeb3ff043ea117943e82f8163f0d77323f556042ba1d49523f33ceb83f601180,
  0xbf44be733f1769db3dd6377a3f0da5123f553f7d3a83126f3f027ab73f66e7f7,
  0xbf1f36483efcc5b93e34d65e3f0dab9f3f5538ef3b2a64c33f142f733f637564,
  0xbf28d1b73ee252ce3e34d65ebe7e5c923e38d4fe3f73a29c3ea1d1913e1dcad1,
  0xbf1f36483efcc5b93e34d65ebe7e5c923e38d4fe3f73a29c3e96c0f93e2ddebe,
  0xbf28d1b73ee252ce3e34d65ebf1f06f7bf489a023b2a64c33ed719503f637564,
  0xbf4c37c53f0d203a3dd6377abe9cc63f3e63d70a3f6cf41f3e8a6bb53dc51a00,
  0xbf44be733f1769db3dd6377abe9cc63f3e63d70a3f6cf41f3e81d0203dde1e2e,
  0xbf4c37c53f0d203a3dd6377abf1f0d84bf4893753a83126f3efab7fe3f66e7f7,
  0xbf4c37c53f0d203a3dd6377abf4f1aa03f167a10800000003efab7fe3f66e7f7,
  0xbf44be733f1769db3dd6377abf4f1aa03f167a10800000003f027ab73f66e7f7,
  0xbf4c37c53f0d203abd15b35bbf4f1aa03f167a10800000003efab7fe3f7f89b5,
  0xbf44be733f1769cbbd15b35bbf4f1aa03f167a10800000003f027ab73f7f89b5,
  0xbf44be733f1769cbbd15b35b3f0d97f63f55460b800000003f027ab73f7f89b5,
  0xbf4c37c53f0d203abd15b35bbf1f1aa0bf488ce7000000003efab7fe3f7f89b5,
  0x000000003e43454a3e9566ae800000003d84816f3f7f76603ed7a7eb3edc28f6,
  0xbdce95743eec5cff3e82f816bd62eb1c3e2eb1c43f7bda513e9d9e623ec68d54,
  0xbe40dd403eddcf683e82f816bd62eb1c3e2eb1c43f7bda513ea3b4f63eb3d05b,
  0xbde2b6ae3e1e6f2fbd15b24fbf167a103f4f1aa03951b7173e3d86ec3f7f89b5,
  0xbde2b6ae3e1e6f723e9566aebf167a103f4f1aa0800000003e3d86ec3f5e007e,
  0xbe40dd403eddcf683e82f816bf76a162be892a30ba1d49523e97789a3f601180,
  0x000000003e43454a3e9566ae800000003f800000800000003f5074fb3f5e007e,
  0x000000003e434507bd15b24f800000003f8000003951b7173f5074fb3f7f89b5,
  0xbdce95743eec5cff3e82f8163f6fd8ae3eb2f1aaba1d49523f33ceb83f601180,
  0xbe8d0fa63f6e43783dd6377a3f6fec573eb288ce3a83126f3f027ab73f66e7f7,
  0xbe5b80ed3f43f4133e34d61b3f6ff2e53eb27bb33b2a64c33f142f733f637564,
  0xbe8cd76b3f3ee6eb3e34d61bbdc25aee3e9581063f73a29c3e418b933ea13bc1,
  0xbe5b80ed3f43f4133e34d61bbdc25aee3e9581063f73a29c3e3917d73eae3dc5,
  0xbe8cd76b3f3ee6eb3e34d61bbf769446be89a0273b2a64c33ed719503f637564,
  0xbea53f183f6a557e3dd6377abdef9db23eb851ec3f6cf41f3df1bb493e9705c9,
  0xbe8d0fa63f6e43783dd6377abdef9db23eb851ec3f6cf41f3de4944f3ea1244a,
  0xbea53f183f6a557e3dd6377abf769446be89930c3a83126f3efab7fe3f66e7f7,
  0xbea53f183f6a557e3dd6377abe9e353f3f7374bc800000003efab7fe3f66e7f7,
  0xbe8d0fa63f6e43783dd6377abe9e353f3f7374bc800000003f027ab73f66e7f7,
  0xbea53f183f6a556dbd15b467be9e353f3f7374bc800000003efab7fe3f7f89b5,
  0xbe8d0fa63f6e4367bd15b467be9e353f3f737b4a800000003f027ab73f7f89b5,
  0xbe8d0fa63f6e4367bd15b4673f6fec573eb2a305800000003f027ab73f7f89b5,
  0xbea53f183f6a556dbd15b467bf769ad4be8978d5000000003efab7fe3f7f89b5,
  0x3de2b6ae3e1e6f723e9566ae3d1ba5e33d5638863f7f76603edf5c6c3ef3dfb1,
  0x3e40dcfd3eddcf683e82f8163d62eb1c3e2eb1c43f7bda513ea3b4f63f0240c8,
  0x3dce94ee3eec5cff3e82f8163d62eb1c3e2eb1c43f7bda513e9d9e623ef1c497,
  0x000000003e434507bd15b24f800000003f8000003951b7173e3d86ec3f7f89b5,
  0x000000003e43454a3e9566ae800000003f800000800000003e3d86ec3f5e007e,
  0x3dce94ee3eec5cff3e82f816bf6fd8ae3eb2f1aaba1d49523e97789a3f601180,
  0x3de2b6ae3e1e6f723e9566ae3f167a103f4f1aa0800000003f5074fb3f5e007e,
  0x3de2b6ae3e1e6f2fbd15b24f3f167a103f4f1aa03951b7173f5074fb3f7f89b5,
  0x3e40dcfd3eddcf683e82f8163f76a162be892a30ba1d49523f33ceb83f601180,
  0x3ea53f183f6a557e3dd6377a3f769446be89930c3a83126f3f027ab73f66e7f7,
  0x3e8cd76b3f3ee6eb3e34d61b3f769446be89a0273b2a64c33f142f733f637564,
  0x3e5b80ed3f43f4133e34d61b3dc25aee3e9581063f73a29c3e3917d73f050a13,
  0x3e8cd76b3f3ee6eb3e34d61b3dc25aee3e9581063f73a29c3e418b933f0b8b15,
  0x3e5b80ed3f43f4133e34d61bbf6ff2e53eb27bb33b2a64c33ed719503f637564,
  0x3e8d0fa63f6e43783dd6377a3def9db23eb851ec3f6cf41f3de4944f3f0b96d1,
  0x3ea53f183f6a557e3dd6377a3def9db23eb851ec3f6cf41f3df1bb493f10a611,
  0x3e8d0fa63f6e43783dd6377abf6fec573eb288ce3a83126f3efab7fe3f66e7f7,
  0x3e8d0fa63f6e43783dd6377a3e9e353f3f7374bc800000003efab7fe3f66e7f7,
  0x3ea53f183f6a557e3dd6377a3e9e353f3f7374bc800000003f027ab73f66e7f7,
  0x3e8d0fa63f6e4367bd15b4673e9e353f3f7374bc800000003efab7fe3f7f89b5,
  0x3ea53f183f6a556dbd15b4673e9e353f3f7374bc800000003f027ab73f7f89b5,
  0x3ea53f183f6a556dbd15b4673f769ad4be8978d5000000003f027ab73f7f89b5,
  0x3e8d0fa63f6e4367bd15b467bf6fec573eb2a305800000003efab7fe3f7f89b5,
  0x3ecfad083e75fb723e82f8163e1495183dd7dbf53f7bda513ecd0c5f3f198644,
  0x3eb3ff043ea117943e82f8163e1495183dd7dbf53f7bda513ebd1bd63f13bbf9,
  0x3de2b6ae3e1e6f2fbd15b24f3f167a103f4f1aa03951b7173e3d86ec3f7f89b5,
  0x3de2b6ae3e1e6f723e9566ae3f167a103f4f1aa0800000003e3d86ec3f5e007e,
  0x3eb3ff043ea117943e82f816bf0d77323f556042ba1d49523e97789a3f601180,
  0x3e376a723d7800223e9566ae3f737b4a3e9e353f800000003f5074fb3f5e007e,
  0x3e376a723d77ff15bd15b24f3f737b4a3e9e353f3951b7173f5074fb3f7f89b5,
  0x3ecfad083e75fb723e82f8163f1f3b64bf4872b0ba1d49523f33ceb83f601180,
  0x3f4c37c53f0d203a3dd6377a3f1f0d84bf4893753a83126f3f027ab73f66e7f7,
  0x3f28d1b73ee252ce3e34d65e3f1f06f7bf489a023b2a64c33f142f733f637564,
  0x3f1f36483efcc5b93e34d65e3e7e5c923e38d4fe3f73a29c3e96c0f93f30b146,
  0x3f28d1b73ee252ce3e34d65e3e7e5c923e38d4fe3f73a29c3ea1d1913f34b641,
  0x3f1f36483efcc5b93e34d65ebf0dab9f3f5538ef3b2a64c33ed719503f637564,
  0x3f44be733f1769db3dd6377a3e9cc63f3e63d70a3f6cf41f3e81d0203f406541,
  0x3f4c37c53f0d203a3dd6377a3e9cc63f3e63d70a3f6cf41f3e8a6bb53f4385b6,
  0x3f44be733f1769db3dd6377abf0da5123f553f7d3a83126f3efab7fe3f66e7f7,
  0x3f44be733f1769db3dd6377a3f4f1aa03f167a10800000003efab7fe3f66e7f7,
  0x3f4c37c53f0d203a3dd6377a3f4f1aa03f167a10800000003f027ab73f66e7f7,
  0x3f44be733f1769dbbd15b35b3f4f1aa03f167a10800000003efab7fe3f7f89b5,
  0x3f4c37c53f0d203abd15b35b3f4f1aa03f167a10800000003f027ab73f7f89b5,
  0x3f4c37c53f0d203abd15b35b3f1f1aa0bf488ce7000000003f027ab73f7f89b5,
  0x3f44be733f1769dbbd15b35bbf0d97f63f55460b800000003efab7fe3f7f89b5]

set_option maxRecDepth 100000 in
/-- the triangles of `TRIGGER_STAR_INDICES`, /repo/src/vpx/mesh/triggers/trigger_star_mesh.rs:249-293 -/
def triggerStarTris : List Nat := [
  0x001300140015, 0x001600150014, 0x000000010002, 0x000200010003, 0x000400020003, 0x0003000e0004, 0x000d0004000e,
  0x000e0011000d, 0x0010000d0011, 0x0000000200ba, 0x00ba000200d1, 0x00d200ba00d1, 0x00d100dc00d2, 0x00db00d200dc,
  0x00dc00df00db, 0x00de00db00df, 0x000000ba00a3, 0x00a300ba00bb, 0x00bc00a300bb, 0x00bb00c600bc, 0x00c500bc00c6,
  0x00c600c900c5, 0x00c800c500c9, 0x000000a3008c, 0x008c00a300a4, 0x00a5008c00a4, 0x00a400af00a5, 0x00ae00a500af,
  0x00af00b200ae, 0x00b100ae00b2, 0x0000008c0075, 0x0075008c008d, 0x008e0075008d, 0x008d0098008e, 0x0097008e0098,
  0x0098009b0097, 0x009a0097009b, 0x00000075005e, 0x005e00750076, 0x0077005e0076, 0x007600810077, 0x008000770081,
  0x008100840080, 0x008300800084, 0x0000005e0047, 0x0047005e005f, 0x00600047005f, 0x005f006a0060, 0x00690060006a,
  0x006a006d0069, 0x006c0069006d, 0x000000470030, 0x003000470048, 0x004900300048, 0x004800530049, 0x005200490053,
  0x005300560052, 0x005500520056, 0x000000300019, 0x000000190001, 0x001900300031, 0x00010019001a, 0x003200190031,
  0x001b0001001a, 0x0031003c0032, 0x001a0025001b, 0x003b0032003c, 0x0024001b0025, 0x003c003f003b, 0x003e003b003f,
  0x002500280024, 0x002700240028, 0x000500060007, 0x0007000f0005, 0x000f00120005, 0x000500120018, 0x00080009000a,
  0x000c000a0009, 0x0009000b000c, 0x0017000b0009, 0x001c001d001e, 0x001e0026001c, 0x00260029001c, 0x001c0029002f,
  0x001f00200021, 0x002300210020, 0x002000220023, 0x002e00220020, 0x002a002b002c, 0x002d002c002b, 0x003300340035,
  0x0035003d0033, 0x003d00400033, 0x003300400046, 0x003600370038, 0x003a00380037, 0x00370039003a, 0x004500390037,
  0x004100420043, 0x004400430042, 0x004a004b004c, 0x004c0054004a, 0x00540057004a, 0x004a0057005d, 0x004d004e004f,
  0x0051004f004e, 0x004e00500051, 0x005c0050004e, 0x00580059005a, 0x005b005a0059, 0x006100620063, 0x0063006b0061,
  0x006b006e0061, 0x0061006e0074, 0x006400650066, 0x006800660065, 0x006500670068, 0x007300670065, 0x006f00700071,
  0x007200710070, 0x00780079007a, 0x007a00820078, 0x008200850078, 0x00780085008b, 0x007b007c007d, 0x007f007d007c,
  0x007c007e007f, 0x008a007e007c, 0x008600870088, 0x008900880087, 0x008f00900091, 0x00910099008f, 0x0099009c008f,
  0x008f009c00a2, 0x009200930094, 0x009600940093, 0x009300950096, 0x00a100950093, 0x009d009e009f, 0x00a0009f009e,
  0x00a600a700a8, 0x00a800b000a6, 0x00b000b300a6, 0x00a600b300b9, 0x00a900aa00ab, 0x00ad00ab00aa, 0x00aa00ac00ad,
  0x00b800ac00aa, 0x00b400b500b6, 0x00b700b600b5, 0x00bd00be00bf, 0x00bf00c700bd, 0x00c700ca00bd, 0x00bd00ca00d0,
  0x00c000c100c2, 0x00c400c200c1, 0x00c100c300c4, 0x00cf00c300c1, 0x00cb00cc00cd, 0x00ce00cd00cc, 0x00d300d400d5,
  0x00d500dd00d3, 0x00dd00e000d3, 0x00d300e000e6, 0x00d600d700d8, 0x00da00d800d7, 0x00d700d900da, 0x00e500d900d7,
  0x00e100e200e3, 0x00e400e300e2]

/-- the table of /repo/src/vpx/mesh/triggers/trigger_star_mesh.rs -/
def triggerStarTable : MeshTable := unpackTable triggerStarVertices triggerStarTris

set_option maxRecDepth 100000 in
/-- the vertices of `TRIGGER_WIRE_D_MESH`, /repo/src/vpx/mesh/triggers/trigger_wire_d_mesh.rs:14-218 -/
def triggerWireDVertices : List Nat := [
  0x3fa126e9c1f27a1e3ffb98f23f77ef9ebe5bf4883e00b7803e950b0f3d59e83e,
  0x3fa2786cc1ee30303fc2d10f3f7b367a3e25fd8bbdd4fdf43e9851ec3d7559b4,
  0x3faa81fec1cb8aa741000d763f7faacebd20f9093cfec56d3e4d013b3df381d8,
  0xbf9fdbe4409b130a41af1f4cbf793dd9bc257a783e6944673f76bb993f7de00d,
  0xbf9fdc9cc05253d241a648adbf7978d5bd70068e3e5d97f63f7566cf3f6a43fe,
  0xbf378d50c03c488441ae1134bf28db8cbe24f7663f3bf4883f76fd223f6b6ae8,
  0xbf2d4fdf41e2cc8b4149ce03bf1b7176bee28241bf28f5c33f0f69443e9e69ad,
  0xbf2d638841a6c0a941854fa9bf1c154dbea1205cbf3a3d713f01a9fc3ecf5c29,
  0xbf8ba29c41a897b441891095bf6c0831be200d1bbeb566cf3efe5c923ecd9168,
  0x3faa9364c05d0c5b41a365aa3f7fbe77bc5ed2893d3295ea3cdfa4403ecae7d5,
  0x3f7f0069c02c6fd6419ca6813f54d6a13df3b646bf0af4f13d2b9f563ecb851f,
  0x3f7f1aa040a1daec41a4b15b3f5594afbbb0f27cbf0d1b713ce703b03efd2f1b,
  0xbf373190c1f7794d401ee15dbf25aee6bf262b6b3ecca57a3f7745393f03d70a,
  0xbf8a536dc20a2126c0b939bbbf1fcb92bf419ce0be489a023f786c223ed32618,
  0x3ceb8738c20b8067c0a3c3df3c1ba5e3bf7fcb923d1f559b3f7c3c9f3ed44674,
  0xbf8bb646c02e446b419ea858bf6c779a3dab020cbebf62b73eeae7d53f2e76c9,
  0xbf8bac7140a2c2c241a6b08abf6cd9e8bb1d4952bec24dd33ee4b5dd3f1809d5,
  0xbf2d916840a0d9b241a27e28bf1d5cfb3b79096cbf49e83e3eea161e3f186c22,
  0xbf765a47422dafb0c0d5aa7cbf1f6944be4c63f1bf41b08a3f5831273ec339c1,
  0xbee38fbd423670abc0be201dbe9f559b3f66809dbe9bb2ff3f537b4a3eb85f07,
  0x3f2e7d6742361ec5c0befc7e3eda6b513f58240bbea60aa63f55f06f3eb26e98,
  0x3eff9724c1c1f18440e8e3c53ed4af4f3f29c77abf1f62b73f5c91d13f4afb7f,
  0xbdd7a787c1c17abb40e6666fbdf4538f3f390ff9bf2e3bcd3f5a1cac3f4b4a23,
  0xbdd6d5d0c190ca6641445392bdf212d73f0f6fd2bf51de6a3f586c223f32f1aa,
  0xbf37ae1440a9c67441b619cebf2865953bded2893f40d1b73f785f073f7f4880,
  0xbe1a1cacc03e38f341b02fb8be1f6fd2be5c0ebf3f76cf423f7978d53f6c01a3,
  0x3fa8623dc207e65ac0c5f1c73f505bc0bee16f00bec219653ed0f27c3c016f00,
  0x3f583127c20a52dfc0acdc513f09f55abf5645a2bdc32ca53ecc2f8300000000,
  0xbfa039c5c1f436153fc281edbf7b7803be26b50b3dbd70a43f303afb3f74c2f8,
  0xbf961bd2c206f537c0ddc613bf36e979be758e22bf2844d03f4d9e843f7a233a,
  0xbf8a536dc20a2126c0b939bbbf1fcb92bf419ce0be489a023f4a233a3f7d1b71,
  0x3f76bb9941ed73a7416654c53f4b645a3eb048173f000d1b3df5c28f3f4dab9f,
  0x3faa8c1e41e45617415feb6b3f7fb7e93cc56d5d3d243fe63e0504813f4bcd36,
  0x3faa8228420c3215410c711a3f7faace3d0ce7043d1b3d083e52a3053f6020c5,
  0xbe1844d0c1f9103d40296541be1aee63bf57f62b3f03e4263f79ba5e3f03dd98,
  0xbe18e219c1cf770c4118a78bbe1a9fbebf3624dd3f2fb15b3f78a71e3f1ea4a9,
  0xbf375254c1ce372641154e40bf265fd9bf0bcd363f0752543f7631f93f1e703b,
  0x3f7eb1c4c1ea5b673f90171a3f4d013b3f027bb3bea0f9093e9bf4883d86c227,
  0xbf8b8ef3420b6c6940fd9cd6bf6bc6a8be914120be88b4393f1e48e93e631f8a,
  0xbf8b98c841e54737415071dabf6bda51be604189bea474543f0d14e43e9c0ebf,
  0xbf9fe9af41e726994162009fbf797f633df318fc3e4226813f0a36e33e9930be,
  0x3faa7ca6422018c2401522033f7fb7e93d25119d3cd35a863e9a85883f702de0,
  0x3f7f837b421e28023fa442fa3f53c361bef66cf4be946dc63e9e69ad3f6d8adb,
  0x3f53c958422cee00c0d7b3223f050481be9c779abf4c432d3eda1cac3f79ad43,
  0x3f76f00740a90a0941b47df33f4bc6a83b89a0273f1af4f1000000003efe83e4,
  0x3faa8d224094db4241aca07a3f7faacebba0902e3d4ccccd3c5b8bac3efde69b,
  0x3faa8b97414803e441a5c6e93f7fb7e93bfc50483d3cd35b3ce978d53f188659,
  0xbf3765fec19a3ce2416ae079bf27ef9ebed5dcc63f20f27c3f75dcc63f38793e,
  0xbf9fca43c19a4497415a39d5bf795183be09eecc3e3ae1483f7446743f37d567,
  0x3f7edfa4c19297d0414baeea3f540b783e9e2824beef4f0e3e0e21963e4f27bb,
  0x3effcb92c19122e04145bc6e3ed638863f03126fbf400d1b3e1638863e513405,
  0x3effe5c9c12a68f7418397263ed74bc73ebb2fecbf548e8a3db5a8583e98793e,
  0x3f2e7d6742361ec5c0befc7e3eda6b513f58240bbea60aa63f72c3ca3f7f9724,
  0xbee38fbd423670abc0be201dbe9f559b3f66809dbe9bb2ff3f6df3b63f7fc505,
  0xbe1d495242267360401a337fbe1bda513f5851ec3f0339c13f6d4fdf3f666666,
  0xbf37f62b41ee64b54168dab4bf28240b3edb2fec3f1eecc03f698c7e3f31de6a,
  0xbf37dbf541af5a784196dc5bbf29096c3e9c91d13f2f9db23f6a02753f15c28f,
  0xbe1b8bac41b049454198c393be2075f73ecb6ae83f6779a73f6c710d3f159b3d,
  0x3ee90ff941b0088d41983f473ebe9e1b3ebf06f73f598c7e3f6f34d73f15a1cb,
  0x3ee8db8c41ef5005416b50433ebce0763f060aa63f449ba63f6ec56d3f31de6a,
  0x3ee9fbe7c13761974198f6953ebf62b7bebc28f63f5a02753f7b5dcc3f536113,
  0x3f772474c1358af64195efd33f4c8b44be72617c3f0d844d3f7dcc643f52ca58,
  0x3f770a3dc03ad2f641ac73193f4c6a7fbe0538ef3f1673823f7ea4a93f6b295f,
  0x3f76809d4224df82400c7e0b3f4a43fe3f06594b3ea2339c3e97dbf53f72e48f,
  0x3f769ad44210a03a411006f03f4a02753ee5a1cb3ed6e2eb3e4af4f13f6288ce,
  0x3f00d1b7421cbce63f8b9f233ed3dd98bf46c227bef367a13ea1205c3f6c56d6,
  0x3ee87fcc4211ced14113f0d23eba43fe3f2d844d3f2395813f6f06f73f4ca57a,
  0xbe1cc63f421205e94114a718be1dcc643f381d7e3f2d70a43f6c432d3f4cb924,
  0xbe1c0ebf41efa6a7416c3954be1f6fd23f0e83e43f50e5603f6c01a33f31e4f7,
  0x3f76809d4224df82400c7e0b3f4a43fe3f06594b3ea2339c3f7282413f65bc02,
  0x3ee83e424226356c401818763eb8a0903f4c154d3ef7e9103f7013a93f664c30,
  0x3f7f4f0e41e41c01414d50443f5425afbea28241beec08313e119ce03f49f55a,
  0x3f00831241e22394414809663ed758e2bf013405bf40ff973e18fc503f491687,
  0x3f00b0f242096e0d40f06a723ed65fd9bf27a787bf2113403e631f8a3f5cb924,
  0x3f76cf4241aea74541956df83f4c3c9f3e7afb7f3f0d07c83d6b851f3f346738,
  0x3faa8c3f41a59c164190d69b3f7fbe773c84b5dd3d2dab9f3d8d844d3f330be1,
  0xbf9fcceac1cc1bc54105fe8ebf78f5c3be34538f3e1c0ebf3f1a0f913f69fbe7,
  0xbf373190c1f7794d401ee15dbf25aee6bf262b6b3ecca57a3f2f48803f77d567,
  0x3f7f27bb414dbdf2419cf8d43f54f0d8be041893bf0a30553d2fb7e93f17a0f9,
  0xbf765a47422dafb0c0d5aa7cbf1f6944be4c63f1bf41b08a3f4f97243db8bac7,
  0xbf2d0e56421d35523f93c9bcbf191d15bf2f0d84bed604193f35f06f3e20ded3,
  0xbf8b851f421efd353fb2bd0abf6b7e91beab5dccbe5119ce3f3432ca3e1a1cac,
  0x3f003afb40a0577141a15d983ed9db233bb0f27cbf67ae143f61a36e3edfd8ae,
  0xbdd3c361409ffadf41a0923bbdf381d83bded289bf7e2eb23f5f2e493ee0ded3,
  0xbdd2f1aa414b578c419903afbdf1a9fcbe5eb852bf7809d53f6581063ec48e8a,
  0xbdd60419c129f43b4182d534bdf2e48f3ecd288dbf6893753f58ce703f19e1b1,
  0xbf2de00dc191a2ab4147c6abbf1be76d3ee49ba6bf27d5673f55a8583f32eb1c,
  0xbdd2f1aa414b578c419903afbdf1a9fcbe5eb852bf7809d53ef50b0f3f01d14e,
  0xbdd3c361409ffadf41a0923bbdf381d83bded289bf7e2eb23eee48e93f191687,
  0xbdd21ff341a5e93641839828bdef9db2bec985f0bf696bba3f03afb83ed13405,
  0xbf2d7dbf414c750a419adb22bf1ccccdbe3212d7bf4566cf3ef0e5603f010625,
  0x3f7ecbfbc1c3e88140f367a93f53c9ef3ecea4a9bec809d53e58fc503e008312,
  0x3f5a7ad9c2050e94c0e8b4393f137b4a3d428f5cbf50e5603f67fcb93f7f1412,
  0xbe750119c204a9d4c0f2ee89be22eb1c3e172474bf79e83e3f647ae13f7fc505,
  0xbdd8e219c1e745e63f4e771dbe1e1b093f574539bf04c9863f5e48e93f63c361,
  0x3f770a3dc03ad2f641ac73193f4c6a7fbe0538ef3f1673823c5ed2893ec9fbe7,
  0x3ee9c77ac03daf5341af9a6b3ebf7ceebe4f41f23f67b4a23f7c3c9f3f6bedfa,
  0x3f76f00740a90a0941b47df33f4bc6a83b89a0273f1af4f13f8000003f7eecc0,
  0xbf3779a7c1367d0941977e5dbf28d4febe96e2eb3f3106253f7624dd3f52f1aa,
  0xbe194af5c19b2a73416eaa68be1d2f1bbf0cac083f5240b83f7851ec3f38d4fe,
  0xbf3837b542258b3c401252a4bf2717593f262b6b3ec7fcb93f6adaba3f660aa6,
  0xbf9dd4524232cb74c0c7edb5bf42de013ecc8b44bf02c3ca3f6b089a3f7e9100,
  0xbf9fe6ac42218d3840132e06bf7972473e41205c3dfb15b53f3275253e1096bc,
  0x3eea57a8c1cf1df44117b8bf3ebbf488bf2b923a3f2525463f7b6ae83f1eab36,
  0x3eea161ec19ae881416d9db53ebe1b09bf04538f3f4573eb3f7b15b53f38ce70,
  0x3ee96bba40aa790741b7a4a93ebe83e43ba3d70a3f6d9e843f7d97f63f7fdf3b,
  0x3f76cf4241aea74541956df83f4c3c9f3e7afb7f3f0d07c83f71a9fc3f15d639,
  0x3f76bb9941ed73a7416654c53f4b645a3eb048173f000d1b3f7134053f31d7dc,
  0x3f772b02c19986674167f7693f4bd3c3beabedfa3f00ded33de872b03e43e426,
  0x3faa86e8c19a89894153dc253f7fb7e9bceb1c433d12a3053e00ebee3e4a233a,
  0x3faa8d7ec13c298d418bf4213f7fbe77bca64c303d20f9093d8831273e962b6b,
  0xbf2dcc64c12b12f34184ae4abf1c63f13ea3126fbf398c7e3f560aa63f19c0ec,
  0xbf8bc361c1937af0414f4bc9bf6c22683e5b3d08bea48e8a3f5333333f328241,
  0xbf8bc9efc1c51aae40f9d157bf6c3c9f3e8e8a72be8858793f54ea4b3f4b4a23,
  0xbdd53261c028b303419888cfbdf381d83e68c155bf776c8b3f5b22d13f02de01,
  0xbf2db8bbc02a73ef419a755abf1ced913e380347bf44f7663f5865953f029c78,
  0x3effe5c9c12a68f7418397263ed74bc73ebb2fecbf548e8a3f5b3d083f1978d5,
  0x3f003afb40a0577141a15d983ed9db233bb0f27cbf67ae143d1652bd3efcb924,
  0x3f005532414bcdeb4199c7443ed930bebe4b7803bf622d0e3d51b7173f172b02,
  0x3f772474c1358af64195efd33f4c8b44be72617c3f0d844d3d59e83e3e941206,
  0x3ee96bba40aa790741b7a4a93ebe83e43ba3d70a3f6d9e843f71d7dc3ec710cb,
  0x3f76f00740a90a0941b47df33f4bc6a83b89a0273f1af4f13f7446743ec83e42,
  0x3f76dc5d4156f05541ac21613f4c49ba3e0e075f3f1624dd3f72b6ae3ef61134,
  0x3faa3e7d4231ae3fc0caec963f47d5673e89a027bf107c853ed61e4f3f7d6388,
  0x3f2e7d6742361ec5c0befc7e3eda6b513f58240bbea60aa63ed4e3bd3f800000,
  0xbf9fea36420d8d4c410da80abf7930be3e236e2f3e28240b3f1bfb163e5b22d1,
  0xbf6a4d5ec1ea07ee3f82bce8bf4a09033f05e354bea4ea4b3f5a85883f6425af,
  0xbf2df3b6c1c29ec640ec8249bf1a85883f14c986bf0bb98c3f575f703f4b645a,
  0xbf9fea36420d8d4c410da80abf7930be3e236e2f3e28240b3f683e423f4c154d,
  0xbf9fe9af41e726994162009fbf797f633df318fc3e4226813f67fcb93f31d7dc,
  0xbf3816f0421138cd4111fffabf26c8b43f0df3b63f0487fd3f69ce073f4c84b6,
  0x3eeaa64cc1f89e2a402673973ebd21ffbf4b98c83ef61e4f3f7c7e283f03eab3,
  0x3f7758e2c1f63dea4016b8673f4381d8bf0e2eb23ea872b03f7eecc03f040b78,
  0x3f773eabc1cd3ff34112b8bf3f4a9931bee17c1c3ed916873f7dd97f3f1e7d56,
  0x3f7758e2c1f63dea4016b8673f4381d8bf0e2eb23ea872b03e92e48f3d40ebee,
  0xbf9fdc9cc05253d241a648adbf7978d5bd70068e3e5d97f63ee3d70a3f2f41f2,
  0x3f7f6fd2420aaf1340f8b8453f541893bed19ce0bec395813e5cc63f3f5dcc64,
  0x3effcb92c19122e04145bc6e3ed638863f03126fbf400d1b3f5adaba3f328f5c,
  0xbf9fdcb541a8614441925345bf79a0273da71de73e52f1aa3ef7e9103ecbb98c,
  0xbf8bc9efc1c51aae40f9d157bf6c3c9f3e8e8a72be8858793f1ce0763f67f62b,
  0xbf2d288d4209d90f40f32e3cbf1aa64cbf1339c1bf0d3c363f204ea53e690ff9,
  0xbdce075f422be9dac0da6ea6bda6e979bef0d845bf60f27c3f51f2133dcb5dcc,
  0xbdced917421c653f3f85ab6dbde6cf42bf589375bf0566cf3f3793de3e25e354,
  0x3f0068dc41a642b541844ed73ed837b5beb81062bf5504813f04c2f83ed288ce,
  0xbdd14e3c41e1aa564146c569bded5cfbbf0d5cfbbf535a863f1154ca3ea075f7,
  0x3f7f3b6441a7b8e1418749ed3f5460aabe692a30bf0288ce3da95e9e3f31a9fc,
  0x3f773eabc1cd3ff34112b8bf3f4a9931bee17c1c3ed916873e41f2133de2b6ae,
  0x3f772b02c19986674167f7693f4bd3c3beabedfa3f00ded33f7d844d3f386c22,
  0xbe1ad42c40aabdd941b83924be1f6fd23bc7e2823f7ce0763f6f1aa03ec6dc5d,
  0x3ee944674158c5bc41af26b43ebf06f73e56d5d03f6758e23f7041893ef54c98,
  0x3eff4880c1e7dca23f5e0e413ed06f693f4758e2bef46dc63e9f2e493d8e2196,
  0x3eff9724c1c1f18440e8e3c53ed4af4f3f29c77abf1f62b73e6075f73e036113,
  0xbf9fca43c19a4497415a39d5bf795183be09eecc3e3ae1483f08c1553f5a57a8,
  0xbf8bc361c1937af0414f4bc9bf6c22683e5b3d08bea48e8a3f0be76d3f58b439,
  0x3f00d1b7421cbce63f8b9f233ed3dd98bf46c227bef367a13f38ce703e2809d5,
  0xbf37ced94157df8a41adab01bf29096c3e31c4333f3b0f283f6b0f283ef5b574,
  0xbe1b3d0841591c2941afb4d6be205bc03e652bd43f7645a23f6d7dbf3ef53261,
  0xbf8ba5e3414ee6e8419ee17bbf6c6a7fbdb33333bebf3b643eebac713f005bc0,
  0xbf9fdcb541a8614441925345bf79a0273da71de73e52f1aa3f686c223f160aa6,
  0x3f76dc5d4156f05541ac21613f4c49ba3e0e075f3f1624dd3c8240b83f196bba,
  0x3f0013a9c02968e04199535b3ed893753e53c361bf61d7dc3d4e703b3ecbac71,
  0x3f00831241e22394414809663ed758e2bf013405bf40ff973f126e983ea1b08a,
  0xbdcfdf3b420920d740ee6a72bdea7efabf374bc7bf304ea53f2219653e6dab9f,
  0xbf9fce42c13a2fb1418f1e62bf7985f0bdc673823e4e075f3f748e8a3f5212d7,
  0xbf9fce42c13a2fb1418f1e62bf7985f0bdc673823e4e075f3ef5f6fd3f460aa6,
  0xbf8bbcd3c12d84d14188b5debf6c2f833e1b8bacbeb573eb3efcb9243f44c2f8,
  0xbf37ae1440a9c67441b619cebf2865953bded2893f40d1b73f6ca57a3ec7bb30,
  0xbf9fd7dc414c90ee41a7cee2bf798c7e3d2a64c33e60aa653f6978d53ef6d5d0,
  0x3eff4880c1e7dca23f5e0e413ed06f693f4758e2bef46dc63f60b7803f6381d8,
  0x3f0068dc41a642b541844ed73ed837b5beb81062bf5504813db98c7e3f310625,
  0x3f7eecc0c12c582c4186c7473f543fe63e5f8a09bf03c9ef3da4a8c13e97ced9,
  0x3f005532414bcdeb4199c7443ed930bebe4b7803bf622d0e3ef724743f0288ce,
  0xbf9fe6ac42218d3840132e06bf7972473e41205c3dfb15b53f6944673f655326,
  0xbf9fdbe4409b130a41af1f4cbf793dd9bc257a783e6944673edd97f63f182a99,
  0xbf9fd7dc414c90ee41a7cee2bf798c7e3d2a64c33e60aa653ee4d0143effe5c9,
  0xbf2db8bbc02a73ef419a755abf1ced913e380347bf44f7663ef048173f2e7d56,
  0xbe19b3d0c137b8044199865bbe1ed289bec8240b3f6844d03f78a0903f536e2f,
  0x3f00b0f242096e0d40f06a723ed65fd9bf27a787bf2113403f23404f3e6fec57,
  0x3f0013a9c02968e04199535b3ed893753e53c361bf61d7dc3f5d91683f02680a,
  0x3f583127c20a52dfc0acdc513f09f55abf5645a2bdc32ca53f8000003ed487fd,
  0xbf6a4d5ec1ea07ee3f82bce8bf4a09033f05e354bea4ea4b3f327bb33f72680a,
  0x3f769ad44210a03a411006f03f4a02753ee5a1cb3ed6e2eb3f71758e3f4c56d6,
  0x3fa8623dc207e65ac0c5f1c73f505bc0bee16f00bec219653f5096bc3f7e2824,
  0x3f583127c20a52dfc0acdc513f09f55abf5645a2bdc32ca53f4d013b3f7fe5c9,
  0x3ceb8738c20b8067c0a3c3df3c1ba5e3bf7fcb923d1f559b3f4a786c3f7fb15b,
  0xbe750119c204a9d4c0f2ee89be22eb1c3e172474bf79e83e3f51b7173f794467,
  0x3f5a7ad9c2050e94c0e8b4393f137b4a3d428f5cbf50e5603ed9db233c84b5dd,
  0xbdce075f422be9dac0da6ea6bda6e979bef0d845bf60f27c3f5b367a3ec04ea5,
  0x3faa3e7d4231ae3fc0caec963f47d5673e89a027bf107c853f5a233a3eb2bd3c,
  0x3f53c958422cee00c0d7b3223f050481be9c779abf4c432d3f5c3c9f3eb9e83e,
  0xbf9dd4524232cb74c0c7edb5bf42de013ecc8b44bf02c3ca3f544d013ec01a37,
  0xbe1ad42c40aabdd941b83924be1f6fd23bc7e2823f7ce0763f7ad42c3f800000,
  0xbf9fcceac1cc1bc54105fe8ebf78f5c3be34538f3e1c0ebf3f749ba63f1e1b09,
  0xbf375254c1ce372641154e40bf265fd9bf0bcd363f0752543f18a0903f6cac08,
  0x3f005532414bcdeb4199c7443ed930bebe4b7803bf622d0e3f67fcb93ec37b4a,
  0xbf9dd4524232cb74c0c7edb5bf42de013ecc8b44bf02c3ca3f4dab9f3d9b3d08,
  0xbf8bbcd3c12d84d14188b5debf6c2f833e1b8bacbeb573eb3f539c0f3f191d15,
  0xbf2d916840a0d9b241a27e28bf1d5cfb3b79096cbf49e83e3f5c779a3ee02752,
  0x3f53c958422cee00c0d7b3223f050481be9c779abf4c432d3f5333333dcf7660,
  0xbf9fdbe4409b130a41af1f4cbf793dd9bc257a783e6944673f6b0f283ec95e9e,
  0xbf2dcc64c12b12f34184ae4abf1c63f13ea3126fbf398c7e3f00f9093f4487fd,
  0xbf961bd2c206f537c0ddc613bf36e979be758e22bf2844d03f6075f73f800000,
  0x3f5a7ad9c2050e94c0e8b4393f137b4a3d428f5cbf50e5603f53126f3f7afb7f]

set_option maxRecDepth 100000 in
/-- the triangles of `TRIGGER_WIRE_D_INDICES`, /repo/src/vpx/mesh/triggers/trigger_wire_d_mesh.rs:221-289 -/
def triggerWireDTris : List Nat := [
  0x00bb00bc00bd, 0x00bb001400bc, 0x0012001400bb, 0x001200130014, 0x001200be0013, 0x000000010002, 0x00010000001a,
  0x001b001a0000, 0x001b00000086, 0x008600000002, 0x008600020092, 0x00250001001a, 0x0025001a00ba, 0x0096002500ba,
  0x002500960097, 0x005b00010025, 0x00250097005b, 0x005b00020001, 0x0032005b0097, 0x00920002006d, 0x00320031005b,
  0x0002005b0031, 0x00020031006d, 0x003100320033, 0x0092006d006c, 0x0031003300aa, 0x006d003100aa, 0x00aa003300a0,
  0x006c006d006e, 0x006d00aa006e, 0x006c006e0077, 0x00aa00a0000a, 0x006e00aa000a, 0x000a00a00075, 0x0077006e0009,
  0x006e000a0009, 0x00770009005f, 0x000a0075000b, 0x0009000a000b, 0x000b00750076, 0x005f0009002d, 0x0009000b002d,
  0x005f002d002c, 0x000b0076004e, 0x002d000b004e, 0x004e007600a9, 0x002c002d002e, 0x002d004e002e, 0x002c002e009f,
  0x004e00a90091, 0x002e004e0091, 0x009100a90048, 0x009f002e004b, 0x002e0091004b, 0x009f004b004a, 0x009100480047,
  0x004b00910047, 0x004700480049, 0x004a004b0020, 0x004b00470020, 0x004a0020001f, 0x004700490088, 0x002000470088,
  0x008800490041, 0x001f00200021, 0x002000880021, 0x001f00210040, 0x00880041002a, 0x00210088002a, 0x002a0041002b,
  0x002900400021, 0x0021002a0029, 0x0029002a002b, 0x0029003f0040, 0x0029002b007b, 0x007b003f0029, 0x007b007c003f,
  0x000300040005, 0x000300050018, 0x006200050004, 0x0062000400a3, 0x001800050019, 0x0018001900bf, 0x0019006900bf,
  0x00b000050062, 0x00b000190005, 0x001900600069, 0x00b000600019, 0x006000610069, 0x0060003e0061, 0x003c003e0060,
  0x00b0003c0060, 0x003c003d003e, 0x0062006300b0, 0x0063003c00b0, 0x00a3002f0062, 0x0062002f0063, 0x00a30030002f,
  0x0068003d003c, 0x00630068003c, 0x00680093003d, 0x0024002f0030, 0x0024003000c0, 0x00230063002f, 0x0023002f0024,
  0x002300680063, 0x006700930068, 0x002300670068, 0x006700850093, 0x002200230024, 0x002200670023, 0x00220024000c,
  0x008300850067, 0x002200830067, 0x008300840085, 0x000c000e0022, 0x000e00830022, 0x000e00840083, 0x000c000d000e,
  0x000e00b30084, 0x000600070008, 0x000600080027, 0x00270008008a, 0x000800ae008a, 0x0027008a0028, 0x0008009d00ae,
  0x0007009d0008, 0x00ad00ae009d, 0x002600270028, 0x00260028007d, 0x00ad009d0010, 0x0010008700ad, 0x00510026007d,
  0x0051007d0066, 0x008c00270026, 0x008c00060027, 0x004f00510066, 0x004f006600c3, 0x005000260051, 0x004f00500051,
  0x0050008c0026, 0x008d0050004f, 0x008e008c0050, 0x008d008e0050, 0x009a008d00c6, 0x009a008e008d, 0x00b1008e009a,
  0x008e00a2008c, 0x00b100a2008e, 0x00a20006008c, 0x00a100a200b1, 0x00a200900006, 0x00a1009000a2, 0x009000070006,
  0x008f009000a1, 0x008f00590090, 0x009000590007, 0x00ab0059008f, 0x00ab00570059, 0x0059005a0007, 0x00590057005a,
  0x0007005a009d, 0x005a0010009d, 0x00570011005a, 0x005a00110010, 0x005700580011, 0x000f00100011, 0x0010000f0087,
  0x000f001100af, 0x00a40087000f, 0x00a5000f00af, 0x00a4000f00a5, 0x00a500af00c8, 0x00a5009800a4, 0x00a500990098,
  0x004c00980099, 0x004c0099008b, 0x004c004d00c1, 0x001c004c008b, 0x004c001c004d, 0x001c008b00b4, 0x001c001e004d,
  0x001d001c00b4, 0x001c001d001e, 0x00b9001e001d, 0x00b900b8001e, 0x00b600b800b9, 0x00b600b700b8, 0x00b600b900ca,
  0x001500160017, 0x001500170089, 0x0016001500a8, 0x005500890017, 0x005500740089, 0x001600a8005e, 0x005c005e00a8,
  0x005c005d005e, 0x005e005d007e, 0x0016005e007e, 0x00c9007e005d, 0x0016007e007f, 0x007f00170016, 0x007e0071007f,
  0x007f00560017, 0x00710056007f, 0x005500170056, 0x007100700056, 0x006f00560070, 0x00550056006f, 0x006f007000c4,
  0x006f00720055, 0x007400550072, 0x006f00730072, 0x0074007200b2, 0x005300720073, 0x00b200720053, 0x0053007300c5,
  0x00b200530052, 0x005200530054, 0x0052005400c2, 0x003400350036, 0x003400360046, 0x003400460045, 0x003500640036,
  0x006400350065, 0x0064006500ac, 0x004600360043, 0x004300360064, 0x004500460042, 0x004600430042, 0x0045004200b5,
  0x0082006400ac, 0x004300640082, 0x008200ac0080, 0x004200430044, 0x008200440043, 0x00b50042003b, 0x00420044003b,
  0x00b5003b006b, 0x008000370082, 0x008200370044, 0x008000810037, 0x0039003b0044, 0x003700390044, 0x003a006b003b,
  0x0039003a003b, 0x003a006a006b, 0x003800370081, 0x003700380039, 0x00380081009e, 0x003a0039009c, 0x0038009c0039,
  0x0095006a003a, 0x003a009c0095, 0x0095007a006a, 0x009b0038009e, 0x0038009b009c, 0x009b009e00a7, 0x0078007a0095,
  0x00780079007a, 0x009400780095, 0x00940095009c, 0x0094009c009b, 0x0094009b00a6, 0x00a6009b00a7, 0x00a600a700c7]

/-- the table of /repo/src/vpx/mesh/triggers/trigger_wire_d_mesh.rs -/
def triggerWireDTable : MeshTable := unpackTable triggerWireDVertices triggerWireDTris

end Vpin
