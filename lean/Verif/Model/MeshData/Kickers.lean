import Verif.Model.MeshPack
/-
Generated by tools/meshdata.py from /repo/src/vpx/mesh/kickers/*_mesh.rs.
-/
namespace Vpin

set_option maxRecDepth 100000 in
/-- the vertices of `KICKER_CUP_VERTICES`, /repo/src/vpx/mesh/kickers/kicker_cup_mesh.rs:16-390 -/
def kickerCupVertices : List Nat := [
  0x3e245996bf78507abedfe7e2be072b023f7dc5d6800000003ef2a36a3df60957,
  0x00000000bf7dc8b8bf8302bcbe072b023f7dc5d6800000003f0000003eced699,
  0x80000000bf7dc8b8bedfe7e2be072b023f7dc5d6800000003f0000003df60957,
  0x00000000bf7dc8b8bf8302bcbe0710cb3f7dc5d6800000003f0000003eced699,
  0x3e245996bf78507abedfe7e2be0710cb3f7dc5d6800000003ef2a36a3df60957,
  0x3e247c31bf78507abf8302bcbe0710cb3f7dc5d6800000003ef2a0883eced699,
  0x3e249f0ebed56b01bf8302bc00000000000000003f8000003f746f8b3edc77de,
  0x00000000bf7dc8b8bf8302bc00000000000000003f8000003f6caea73e5b43d9,
  0x3e247c31bf78507abf8302bc00000000000000003f8000003f746de73e63821b,
  0x00000000380637bdbf8302bc00000000000000003f8000003f6caea73f1671ef,
  0x3e8c6bcfbe9cdff0bf8302bc00000000000000003f8000003f79e8d53ef1c609,
  0x3eaf7d0fbe106ee3bf8302bc00000000000000003f8000003f7d36823f08d62c,
  0x3ea387163d1510d4bf8302bc00000000000000003f8000003f7c16163f19f3d8,
  0x3e577c893e36a93fbf8302bc00000000000000003f8000003f76d4d43f27a605,
  0x000000003e7ccb7dbf8302bc00000000000000003f8000003f6caea73f2e414e,
  0x3e835aeabf7522fbbedfe7e200000000000000003f8000003e86b39a3e231876,
  0x3e249f0ebf468ab5bedfe7e200000000000000003f8000003e795dd53e6f3dc0,
  0x3e245996bf78507abedfe7e200000000000000003f8000003e794fad3e1de721,
  0x3eb287e4bf332f01bedfe7e200000000000000003f8000003e9056823e877037,
  0x3f337308bf3373e2bedfe7e200000000000000003f8000003eb52e733e8737da,
  0x3efc7da2bf16cf10bedfe7e200000000000000003f8000003e9f720d3e9e9f8c,
  0x3efdc63bbf5bc89fbedfe7e200000000000000003f8000003e9fb5283e4c8712,
  0x3f1a9f06bee3a8e7bedfe7e200000000000000003f8000003eab09c83ebcd6a1,
  0x3f7522a7be835e74bedfe7e200000000000000003f8000003ed004533ee42d8c,
  0x3f2c7582be8d88c2bedfe7e200000000000000003f8000003eb253543ee0066c,
  0x3f5bc819befdc8dabedfe7e200000000000000003f8000003ec5a89c3eb22a4e,
  0x3f328b09bdc4712ebedfe7e200000000000000003f8000003eb4cfaf3f02e47e,
  0x3f7522a73e835e0fbedfe7e200000000000000003f8000003ed004533f27c276,
  0x3f2c75823dad4131bedfe7e200000000000000003f8000003eb253543f15c5c5,
  0x3f7dc886b60637bdbedfe7e200000000000000003f8000003ed38cb93f0ceca7,
  0x3f1a9f063e817072bedfe7e200000000000000003f8000003eab09c83f275dab,
  0x3f3373083f3373b0bedfe7e200000000000000003f8000003eb52e733f563d60,
  0x3efd58c93ecb65aabedfe7e200000000000000003f8000003e9f9ee03f367946,
  0x3f5bc8193efdc875bedfe7e200000000000000003f8000003ec5a89c3f40c426,
  0x3e835aea3f7522c9bedfe7e200000000000000003f8000003e86b39a3f711330,
  0x3e38ce2d3f13e910bedfe7e200000000000000003f8000003e7d7d393f495a8e,
  0x3ed596643f640bbbbedfe7e200000000000000003f8000003e977fd03f6a17c2,
  0x000000003f19fe97bedfe7e200000000000000003f8000003e57bd493f4bd6d8,
  0x3e249f0ebf468ab5bedfe7e2be8aa64c3f2c49ba3f30346e3e795dd53e6f3dc0,
  0x3eb287e4bf332f01bedfe7e2be8aa64c3f2c49ba3f30346e3e9056823e877037,
  0x3e249f0ebed56b01bf49bb6bbe8aa64c3f2c49ba3f30346e3e795dd53ec2a844,
  0x3efc7da2bf16cf10bedfe7e2befad42c3f00e5603f3631f93e9f720d3e9e9f8c,
  0x3e8c6bcfbe9cdff0bf49bb6bbefad42c3f00e5603f3631f93e888db03ed9c1f8,
  0x3e249f0ebed56b01bf49bb6bbefad42c3f00e5603f3631f93e795dd53ec2a844,
  0x3efc7da2bf16cf10bedfe7e2bf109d493eddf3b63f33bcd33e9f720d3e9e9f8c,
  0x3f1a9f06bee3a8e7bedfe7e2bf109d493eddf3b63f33bcd33eab09c83ebcd6a1,
  0x3e8c6bcfbe9cdff0bf49bb6bbf109d493eddf3b63f33bcd33e888db03ed9c1f8,
  0x3f2c7582be8d88c2bedfe7e2bf259b3d3e89374c3f36c2273eb253543ee0066c,
  0x3eaf7d0fbe106ee3bf49bb6bbf259b3d3e89374c3f36c2273e8fb7633efc5847,
  0x3e8c6bcfbe9cdff0bf49bb6bbf259b3d3e89374c3f36c2273e888db03ed9c1f8,
  0x3f2c7582be8d88c2bedfe7e2bf34bc6a3dbe76c93f33bcd33eb253543ee0066c,
  0x3f328b09bdc4712ebedfe7e2bf34bc6a3dbe76c93f33bcd33eb4cfaf3f02e47e,
  0x3eaf7d0fbe106ee3bf49bb6bbf34bc6a3dbe76c93f33bcd33e8fb7633efc5847,
  0x3f2c75823dad4131bedfe7e2bf31bda5bdbb2fec3f36c2273eb253543f15c5c5,
  0x3ea387163d1510d4bf49bb6bbf31bda5bdbb2fec3f36c2273e8d45e93f10bb1b,
  0x3eaf7d0fbe106ee3bf49bb6bbf31bda5bdbb2fec3f36c2273e8fb7633efc5847,
  0x3f2c75823dad4131bedfe7e2bf286c22be8b851f3f33bcd33eb253543f15c5c5,
  0x3f1a9f063e817072bedfe7e2bf286c22be8b851f3f33bcd33eab09c83f275dab,
  0x3ea387163d1510d4bf49bb6bbf286c22be8b851f3f33bcd33e8d45e93f10bb1b,
  0x3efd58c93ecb65aabedfe7e2bf0df3b6bed9db233f3717593e9f9ee03f367946,
  0x3e577c893e36a93fbf49bb6bbf0df3b6bed9db233f3717593e81e0e73f1f94c8,
  0x3ea387163d1510d4bf49bb6bbf0df3b6bed9db233f3717593e8d45e93f10bb1b,
  0x3eb287e43f0212c7bedfe7e2bedc1bdabf112d773f33dd983e9056823f4210f1,
  0x3e577c893e36a93fbf49bb6bbedc1bdabf112d773f33dd983e81e0e73f1f94c8,
  0x3ed596643ee99264bedfe7e2bedc1bdabf112d773f33dd983e977fd03f3ca340,
  0x3e38ce2d3f13e910bedfe7e2be59ce07bf2758e23f39eecc3e7d7d393f495a8e,
  0x000000003e7ccb7dbf49bb6bbe59ce07bf2758e23f39eecc3e57bd493f26be9d,
  0x3e577c893e36a93fbf49bb6bbe59ce07bf2758e23f39eecc3e81e0e73f1f94c8,
  0x3efd58c93ee99264bedfe7e200000000000000003f8000003e9f9ee03f3ca340,
  0x3e38ce2d3f13e910bedfe7e2bdbcd35bbf3339c13f353f7d3e7d7d393f495a8e,
  0x000000003f19fe97bedfe7e2bdbcd35bbf3339c13f353f7d3e57bd493f4bd6d8,
  0x000000003e7ccb7dbf49bb6bbdbcd35bbf3339c13f353f7d3e57bd493f26be9d,
  0x3eb287e43f0212c7bedfe7e200000000000000003f8000003e9056823f4210f1,
  0x000000003f7dc886bedfe7e200000000000000003f8000003e57bd493f749ba6,
  0x3e249f0ebed56b01bf49bb6bbee01a373f1205bc3f31eb853e795dd53ec2a844,
  0x3eb287e4bf332f01bedfe7e2bee01a373f1205bc3f31eb853e9056823e877037,
  0x3efc7da2bf16cf10bedfe7e2bee01a373f1205bc3f31eb853e9f720d3e9e9f8c,
  0x3f1a9f06bee3a8e7bedfe7e2bf259b3d3e89374c3f36c2273eab09c83ebcd6a1,
  0x3f328b09bdc4712ebedfe7e2bf31bda5bdbb2fec3f36c2273eb4cfaf3f02e47e,
  0x3f1a9f063e817072bedfe7e2bf0f0069bed82a993f36c2273eab09c83f275dab,
  0x3efd58c93ecb65aabedfe7e2bf0f0069bed82a993f36c2273e9f9ee03f367946,
  0x3ea387163d1510d4bf49bb6bbf0f0069bed82a993f36c2273e8d45e93f10bb1b,
  0x3e577c893e36a93fbf49bb6bbe89374cbf25a1cb3f36c2273e81e0e73f1f94c8,
  0x3eb287e43f0212c7bedfe7e2be89374cbf25a1cb3f36c2273e9056823f4210f1,
  0x3e38ce2d3f13e910bedfe7e2be89374cbf25a1cb3f36c2273e7d7d393f495a8e,
  0x3e8c6bcfbe9cdff0bf49bb6bbf3288ce3f3779a7800000003f50c9433f51b5fa,
  0x3e8c6bcfbe9cdff0bf8302bcbf3288ce3f3779a7800000003f50c9433f7edf93,
  0x3e249f0ebed56b01bf49bb6bbf3288ce3f3779a7800000003f5cb4e13f51b5fa,
  0x3e249f0ebed56b01bf8302bcbf3288ce3f3779a7800000003f5cb4e13f7edf93,
  0x3eaf7d0fbe106ee3bf49bb6bbf6c84b63ec3f141800000003f4863063f51b5fa,
  0x3eaf7d0fbe106ee3bf8302bcbf6c84b63ec3f141800000003f4863063f7edf93,
  0x3e8c6bcfbe9cdff0bf49bb6bbf6c84b63ec3f141800000003f50c9433f51b5fa,
  0x3e8c6bcfbe9cdff0bf8302bcbf6c84b63ec3f141800000003f50c9433f7edf93,
  0x3ea387163d1510d4bf49bb6bbf7dcc64be05a1cb800000003f411f4f3f51b5fa,
  0x3ea387163d1510d4bf8302bcbf7dcc64be05a1cb800000003f411f4f3f7edf93,
  0x3eaf7d0fbe106ee3bf49bb6bbf7dcc64be05a1cb800000003f4863063f51b5fa,
  0x3eaf7d0fbe106ee3bf8302bcbf7dcc64be05a1cb800000003f4863063f7edf93,
  0x3e577c893e36a93fbf49bb6bbf4b15b5bf1bda51800000003f3a43ee3f51b5fa,
  0x3e577c893e36a93fbf8302bcbf4b15b5bf1bda51800000003f3a43ee3f7edf93,
  0x3ea387163d1510d4bf49bb6bbf4b15b5bf1bda51800000003f411f4f3f51b5fa,
  0x3ea387163d1510d4bf8302bcbf4b15b5bf1bda51800000003f411f4f3f7edf93,
  0x000000003e7ccb7dbf49bb6bbe9e76c9bf736e2f800000003f3215fd3f51b5fa,
  0x000000003e7ccb7dbf8302bcbe9e76c9bf736e2f800000003f3215fd3f7edf93,
  0x3e577c893e36a93fbf49bb6bbe9e76c9bf736e2f800000003f3a43ee3f51b5fa,
  0x3e577c893e36a93fbf8302bcbe9e76c9bf736e2f800000003f3a43ee3f7edf93,
  0x3e245996bf78507abedfe7e2bf8000003ab78034b951b7173f7b48d43f37e5c9,
  0x3e249f0ebf468ab5bedfe7e2bf8000003ab78034b951b7173f7044d03f37e5c9,
  0x3e247c31bf78507abf8302bcbf8000003ab78034b951b7173f7b47a63f7edf93,
  0x3e247c31bf78507abf8302bcbf8000003951b7173951b7173f7b47a63f7edf93,
  0x3e249f0ebf468ab5bedfe7e2bf8000003951b7173951b7173f7044d03f37e5c9,
  0x3e249f0ebed56b01bf49bb6bbf8000003951b7173951b7173f5cb4e13f51b5fa,
  0x3e247c31bf78507abf8302bcbf8000003951b717800000003f7b47a63f7edf93,
  0x3e249f0ebed56b01bf49bb6bbf8000003951b717800000003f5cb4e13f51b5fa,
  0x3e249f0ebed56b01bf8302bcbf8000003951b717800000003f5cb4e13f7edf93,
  0x3ed596643ee99264bedfe7e200000000000000003f8000003e977fd03f3ca340,
  0x3ed596643ee99264bedfe7e2bedc432dbf1119ce3f33dd983e977fd03f3ca340,
  0x3e577c893e36a93fbf49bb6bbedc432dbf1119ce3f33dd983e81e0e73f1f94c8,
  0x3efd58c93ecb65aabedfe7e2bedc432dbf1119ce3f33dd983e9f9ee03f367946,
  0x3efd58c93f5bc85cbedfe7e200000000000000003f8000003e9f9ee03f66b789,
  0x3ed596643f3e7408be0595bcbf80000000000000800000003f3ef5233f2cdf7a,
  0x3ed596643f640bbbbe0595bcbf80000000000000800000003f3ef5233f3fa3db,
  0x3ed596643f640bbbbedfe7e2bf80000000000000800000003f2f8aa03f3fa3db,
  0x3ed596643ee99264bedfe7e2bf80000000000000800000003f2f8aa03f062728,
  0x3efd58c93f5bc85cbedfe7e23f80000000000000800000003f52dcf43f3bbe12,
  0x3efd58c93f3e7408be0595bc3f80000000000000800000003f4372713f2cdf7a,
  0x3efd58c93ee99264bedfe7e23f80000000000000800000003f52dcf43f021d86,
  0x3efd58c93f5bc85cbe0595bc3f80000000000000800000003f4372713f3bbe12,
  0x3efd58c93ee99264bedfe7e200000000bf3ab9f53f2f1aa03f4372713f0cef24,
  0x3efd58c93f3e7408be0595bc00000000bf3ab9f53f2f1aa03f4372713f2cdf7a,
  0x3ed596643ee99264bedfe7e200000000bf3ab9f53f2f1aa03f3ef5233f0cef24,
  0x3ed596643f3e7408be0595bc00000000bf3ab9f53f2f1aa03f3ef5233f2cdf7a,
  0x3efd58c93f3e7408be0595bc00000000000000003f8000003f4372713f2cdf7a,
  0x3efd58c93f5bc85cbe0595bc00000000000000003f8000003f4372713f3bbe12,
  0x3ed596643f3e7408be0595bc00000000000000003f8000003f3ef5233f2cdf7a,
  0x3ed596643f640bbbbe0595bc00000000000000003f8000003f3ef5233f3fa3db,
  0x3efd58c93f5bc85c3a8aac97bec4816fbf6c63f1800000003daa6b0e3d2a4ca5,
  0x3ed596643f640bbbbe0595bcbec4816fbf6c63f1800000003d8ec0723d73f317,
  0x3efd58c93f5bc85cbe0595bcbec4816fbf6c63f1800000003daa6b0e3d73f317,
  0xbf7522a7be835e74bedfe7e23f7dcc643e05a1cb800000003f35553f3df60957,
  0xbf7dc886b60637bdbedfe7e23f7dcc643e05a1cb800000003f4000003df60957,
  0xbf7dc886b60637bd3a8aac973f7dcc643e05a1cb800000003f4000003d2a4ca5,
  0x00000000bf7dc8b8bf8302bc3e072b023f7dc5d6800000003f0000003eced699,
  0xbe245996bf78507abedfe7e23e072b023f7dc5d6800000003f06ae4b3df60957,
  0x80000000bf7dc8b8bedfe7e23e072b023f7dc5d6800000003f0000003df60957,
  0xbe245996bf78507abedfe7e23e0710cb3f7dc5d6800000003f06ae4b3df60957,
  0x00000000bf7dc8b8bf8302bc3e0710cb3f7dc5d6800000003f0000003eced699,
  0xbe247c31bf78507abf8302bc3e0710cb3f7dc5d6800000003f06afbc3eced699,
  0xbe249f0ebed56b01bf8302bc00000000000000003f8000003f64edd53edc77de,
  0xbe247c31bf78507abf8302bc00000000000000003f8000003f64edd53e63821b,
  0xbe8c6bcfbe9cdff0bf8302bc00000000000000003f8000003f5f74793ef1c609,
  0xbeaf7d0fbe106ee3bf8302bc00000000000000003f8000003f5c26dd3f08d62c,
  0xbea387163d1510d4bf8302bc00000000000000003f8000003f5d47493f19f3d8,
  0xbe577c893e36a93fbf8302bc00000000000000003f8000003f62888b3f27a605,
  0xbe249f0ebf468ab5bedfe7e200000000000000003f8000003e361cbd3e6f3dc0,
  0xbe835aeabf7522fbbedfe7e200000000000000003f8000003e2213a13e231876,
  0xbe245996bf78507abedfe7e200000000000000003f8000003e362ae53e1de721,
  0xbeb287e4bf332f01bedfe7e200000000000000003f8000003e0ecd8e3e877037,
  0xbefdc63bbf5bc89fbedfe7e200000000000000003f8000003de020813e4c8712,
  0xbf337308bf3373e2bedfe7e200000000000000003f8000003d8a3b583e8737da,
  0xbefc7da2bf16cf10bedfe7e200000000000000003f8000003de12cf13e9e9f8c,
  0xbf1a9f06bee3a8e7bedfe7e200000000000000003f8000003db2ce033ebcd6a1,
  0xbf5bc819befdc8dabedfe7e200000000000000003f8000003d10a56a3eb22a4e,
  0xbf7522a7be835e74bedfe7e200000000000000003f8000003c771eb03ee42d8c,
  0xbf2c7582be8d88c2bedfe7e200000000000000003f8000003d95a7d23ee0066c,
  0xbf328b09bdc4712ebedfe7e200000000000000003f8000003d8bb6673f02e47e,
  0xbf7dc886b60637bdbedfe7e200000000000000003f8000003c0611fd3f0ceca7,
  0xbf7522a73e835e0fbedfe7e200000000000000003f8000003c771eb03f27c276,
  0xbf2c75823dad4131bedfe7e200000000000000003f8000003d95a7d23f15c5c5,
  0xbf1a9f063e817072bedfe7e200000000000000003f8000003db2ce033f275dab,
  0xbf5bc8193efdc875bedfe7e200000000000000003f8000003d10a56a3f40c426,
  0xbf3373083f3373b0bedfe7e200000000000000003f8000003d8a3b583f563d60,
  0xbeb287e43f0212c7bedfe7e200000000000000003f8000003e0ecd8e3f4210f1,
  0xbe835aea3f7522c9bedfe7e200000000000000003f8000003e2213a13f711330,
  0xbed596643f640bbbbedfe7e200000000000000003f8000003e007b353f6a17c2,
  0xbe38ce2d3f13e910bedfe7e200000000000000003f8000003e31fd593f495a8e,
  0xbeb287e4bf332f01bedfe7e23e8aa64c3f2c49ba3f30346e3e0ecd8e3e877037,
  0xbe249f0ebf468ab5bedfe7e23e8aa64c3f2c49ba3f30346e3e361cbd3e6f3dc0,
  0xbe249f0ebed56b01bf49bb6b3e8aa64c3f2c49ba3f30346e3e361cbd3ec2a844,
  0xbe8c6bcfbe9cdff0bf49bb6b3efad42c3f00e5603f3631f93e1e5f313ed9c1f8,
  0xbefc7da2bf16cf10bedfe7e23efad42c3f00e5603f3631f93de12cf13e9e9f8c,
  0xbe249f0ebed56b01bf49bb6b3efad42c3f00e5603f3631f93e361cbd3ec2a844,
  0xbf1a9f06bee3a8e7bedfe7e23f109d493eddf3b63f33bcd33db2ce033ebcd6a1,
  0xbefc7da2bf16cf10bedfe7e23f109d493eddf3b63f33bcd33de12cf13e9e9f8c,
  0xbe8c6bcfbe9cdff0bf49bb6b3f109d493eddf3b63f33bcd33e1e5f313ed9c1f8,
  0xbeaf7d0fbe106ee3bf49bb6b3f259b3d3e89374c3f36c2273e100bcc3efc5847,
  0xbf2c7582be8d88c2bedfe7e23f259b3d3e89374c3f36c2273d95a7d23ee0066c,
  0xbe8c6bcfbe9cdff0bf49bb6b3f259b3d3e89374c3f36c2273e1e5f313ed9c1f8,
  0xbf328b09bdc4712ebedfe7e23f34bc6a3dbe76c93f33bcd33d8bb6673f02e47e,
  0xbf2c7582be8d88c2bedfe7e23f34bc6a3dbe76c93f33bcd33d95a7d23ee0066c,
  0xbeaf7d0fbe106ee3bf49bb6b3f34bc6a3dbe76c93f33bcd33e100bcc3efc5847,
  0xbea387163d1510d4bf49bb6b3f31bda5bdbb2fec3f36c2273e14eebf3f10bb1b,
  0xbf2c75823dad4131bedfe7e23f31bda5bdbb2fec3f36c2273d95a7d23f15c5c5,
  0xbeaf7d0fbe106ee3bf49bb6b3f31bda5bdbb2fec3f36c2273e100bcc3efc5847,
  0xbf1a9f063e817072bedfe7e23f286c22be8b851f3f33bcd33db2ce033f275dab,
  0xbf2c75823dad4131bedfe7e23f286c22be8b851f3f33bcd33d95a7d23f15c5c5,
  0xbea387163d1510d4bf49bb6b3f286c22be8b851f3f33bcd33e14eebf3f10bb1b,
  0xbe577c893e36a93fbf49bb6b3f0df3b6bed9db233f3717593e2bb9063f1f94c8,
  0xbefd58c93ecb65aabedfe7e23f0df3b6bed9db233f3717593de079a33f367946,
  0xbea387163d1510d4bf49bb6b3f0df3b6bed9db233f3717593e14eebf3f10bb1b,
  0xbe577c893e36a93fbf49bb6b3edc1bdabf112d773f33dd983e2bb9063f1f94c8,
  0xbeb287e43f0212c7bedfe7e23edc1bdabf112d773f33dd983e0ecd8e3f4210f1,
  0xbed596643ee99264bedfe7e23edc1bdabf112d773f33dd983e007b353f3ca340,
  0xbefd58c93ecb65aabedfe7e200000000000000003f8000003de079a33f367946,
  0x000000003e7ccb7dbf49bb6b3e59ce07bf2758e23f39eecc3e57bd493f26be9d,
  0xbe38ce2d3f13e910bedfe7e23e59ce07bf2758e23f39eecc3e31fd593f495a8e,
  0xbe577c893e36a93fbf49bb6b3e59ce07bf2758e23f39eecc3e2bb9063f1f94c8,
  0xbefd58c93ee99264bedfe7e200000000000000003f8000003de079a33f3ca340,
  0x000000003f19fe97bedfe7e23dbcd35bbf3339c13f353f7d3e57bd493f4bd6d8,
  0xbe38ce2d3f13e910bedfe7e23dbcd35bbf3339c13f353f7d3e31fd593f495a8e,
  0x000000003e7ccb7dbf49bb6b3dbcd35bbf3339c13f353f7d3e57bd493f26be9d,
  0xbeb287e4bf332f01bedfe7e23ee01a373f1205bc3f31eb853e0ecd8e3e877037,
  0xbe249f0ebed56b01bf49bb6b3ee01a373f1205bc3f31eb853e361cbd3ec2a844,
  0xbefc7da2bf16cf10bedfe7e23ee01a373f1205bc3f31eb853de12cf13e9e9f8c,
  0xbf1a9f06bee3a8e7bedfe7e23f259b3d3e89374c3f36c2273db2ce033ebcd6a1,
  0xbf328b09bdc4712ebedfe7e23f31bda5bdbb2fec3f36c2273d8bb6673f02e47e,
  0xbefd58c93ecb65aabedfe7e23f0f0069bed82a993f36c2273de079a33f367946,
  0xbf1a9f063e817072bedfe7e23f0f0069bed82a993f36c2273db2ce033f275dab,
  0xbea387163d1510d4bf49bb6b3f0f0069bed82a993f36c2273e14eebf3f10bb1b,
  0xbeb287e43f0212c7bedfe7e23e89374cbf25a1cb3f36c2273e0ecd8e3f4210f1,
  0xbe577c893e36a93fbf49bb6b3e89374cbf25a1cb3f36c2273e2bb9063f1f94c8,
  0xbe38ce2d3f13e910bedfe7e23e89374cbf25a1cb3f36c2273e31fd593f495a8e,
  0xbe249f0ebed56b01bf8302bc3f3288ce3f3779a7800000003f0747e93f7edf93,
  0xbe8c6bcfbe9cdff0bf49bb6b3f3288ce3f3779a7800000003f1333873f51b5fa,
  0xbe249f0ebed56b01bf49bb6b3f3288ce3f3779a7800000003f0747d83f51b5fa,
  0xbe8c6bcfbe9cdff0bf8302bc3f3288ce3f3779a7800000003f1333873f7edf93,
  0xbe8c6bcfbe9cdff0bf8302bc3f6c84b63ec3f141800000003f1333873f7edf93,
  0xbeaf7d0fbe106ee3bf49bb6b3f6c84b63ec3f141800000003f1b99c43f51b5fa,
  0xbe8c6bcfbe9cdff0bf49bb6b3f6c84b63ec3f141800000003f1333873f51b5fa,
  0xbeaf7d0fbe106ee3bf8302bc3f6c84b63ec3f141800000003f1b99c43f7edf93,
  0xbeaf7d0fbe106ee3bf8302bc3f7dcc64be05a1cb800000003f1b99c43f7edf93,
  0xbea387163d1510d4bf49bb6b3f7dcc64be05a1cb800000003f22dd8b3f51b5fa,
  0xbeaf7d0fbe106ee3bf49bb6b3f7dcc64be05a1cb800000003f1b99c43f51b5fa,
  0xbea387163d1510d4bf8302bc3f7dcc64be05a1cb800000003f22dd8b3f7edf93,
  0xbea387163d1510d4bf8302bc3f4b15b5bf1bda51800000003f22dd8b3f7edf93,
  0xbe577c893e36a93fbf49bb6b3f4b15b5bf1bda51800000003f29b8ed3f51b5fa,
  0xbea387163d1510d4bf49bb6b3f4b15b5bf1bda51800000003f22dd8b3f51b5fa,
  0xbe577c893e36a93fbf8302bc3f4b15b5bf1bda51800000003f29b8ed3f7edf93,
  0xbe577c893e36a93fbf8302bc3e9e76c9bf736e2f800000003f29b8ed3f7edf93,
  0x000000003e7ccb7dbf49bb6b3e9e76c9bf736e2f800000003f3215fd3f51b5fa,
  0xbe577c893e36a93fbf49bb6b3e9e76c9bf736e2f800000003f29b8ed3f51b5fa,
  0x000000003e7ccb7dbf8302bc3e9e76c9bf736e2f800000003f3215fd3f7edf93,
  0xbe249f0ebf468ab5bedfe7e23f8000003ab78034b951b7173ee76ff43f37e5c9,
  0xbe245996bf78507abedfe7e23f8000003ab78034b951b7173ed1680e3f37e5c9,
  0xbe247c31bf78507abf8302bc3f8000003ab78034b951b7173ed16a6a3f7edf93,
  0xbe249f0ebf468ab5bedfe7e23f8000003951b7173951b7173ee76ff43f37e5c9,
  0xbe247c31bf78507abf8302bc3f8000003951b7173951b7173ed16a6a3f7edf93,
  0xbe249f0ebed56b01bf49bb6b3f8000003951b7173951b7173f0747d83f51b5fa,
  0xbe249f0ebed56b01bf49bb6b3f8000003951b717000000003f0747d83f51b5fa,
  0xbe247c31bf78507abf8302bc3f8000003951b717000000003ed16a6a3f7edf93,
  0xbe249f0ebed56b01bf8302bc3f8000003951b717000000003f0747e93f7edf93,
  0xbed596643ee99264bedfe7e200000000000000003f8000003e007b353f3ca340,
  0xbe577c893e36a93fbf49bb6b3edc432dbf1119ce3f33dd983e2bb9063f1f94c8,
  0xbed596643ee99264bedfe7e23edc432dbf1119ce3f33dd983e007b353f3ca340,
  0xbefd58c93ecb65aabedfe7e23edc432dbf1119ce3f33dd983de079a33f367946,
  0xbefd58c93f5bc85cbedfe7e200000000000000003f8000003de079a33f66b789,
  0xbed596643f3e7408be0595bc3f80000000000000800000003f4372713ebd9c28,
  0xbed596643ee99264bedfe7e23f80000000000000800000003f52dcf43e605708,
  0xbed596643f640bbbbedfe7e23f80000000000000800000003f52dcf43ee324ea,
  0xbed596643f640bbbbe0595bc3f80000000000000800000003f4372713ee324ea,
  0xbefd58c93f3e7408be0595bcbf80000000000000800000003f3ef5233ebd9c28,
  0xbefd58c93f5bc85cbedfe7e2bf80000000000000800000003f2f8aa03edb5958,
  0xbefd58c93ee99264bedfe7e2bf80000000000000800000003f2f8aa03e50307f,
  0xbefd58c93f5bc85cbe0595bcbf80000000000000800000003f3ef5233edb5958,
  0xbed596643f3e7408be0595bc00000000bf3ab9f53f2f1aa03f4372713ebd9c28,
  0xbefd58c93ee99264bedfe7e200000000bf3ab9f53f2f1aa03f3ef5233e7b76f7,
  0xbed596643ee99264bedfe7e200000000bf3ab9f53f2f1aa03f4372713e7b76f7,
  0xbefd58c93f3e7408be0595bc00000000bf3ab9f53f2f1aa03f3ef5233ebd9c28,
  0xbed596643f640bbbbe0595bc00000000000000003f8000003f4372713ee324ea,
  0xbefd58c93f3e7408be0595bc00000000000000003f8000003f3ef5233ebd9c28,
  0xbed596643f3e7408be0595bc00000000000000003f8000003f4372713ebd9c28,
  0xbefd58c93f5bc85cbe0595bc00000000000000003f8000003f3ef5233edb5958,
  0xbd830c24bf6d67dcbe0372a4000000003f6786c23eda786c3f16c8d63ef16af0,
  0x3d83486fbf6d67dcbe0372a4000000003f6786c23eda786c3f1a5fe93ef16af0,
  0xbd830c24bf03036dbf813073000000003f6786c23eda786c3f16c8d63f1cb84a,
  0x3d83486fbf03036dbf813073000000003f6786c23eda786c3f1a66133f1cc34c,
  0x3d83486fbf6d67dcbe0372a4bf80000000000000800000003f260c283ef17d6b,
  0x3d83486fbf03036dbf813073bf80000000000000800000003f1a66133f1cc34c,
  0x3d8347e9bf75973ebf830510bf80000000000000800000003f26f1883f4d130e,
  0xbd830c24bf6d67dcbe0372a4000000003f7fd8aebd123a2a3f16c8d63ef16af0,
  0x3d83486fbf6d67dcbe0372a4000000003f7fd8aebd123a2a3f1a5fe93ef16af0,
  0x3d8347e9bf75973ebf830510000000003f7fd8aebd123a2a3f1a5fe93e11847f,
  0xbd830c24bf75973ebf830510000000003f7fd8aebd123a2a3f16c8d63e11847f,
  0xbd830c24bf6d67dcbe0372a43f80000000000000800000003f0b0fd03ef175f3,
  0xbd830c24bf75973ebf8305103f80000000000000800000003f0a2a5e3f4d0f52,
  0xbd830c24bf03036dbf8130733f80000000000000800000003f16c8d63f1cb84a,
  0xbd830caabf03035cbf8305103f80000000000000800000003f16c8d63f4d07fb,
  0xbd830c24bf03036dbf81307300000000bf800000800000003f16c8d63f1cb84a,
  0x3d8347e9bf03035cbf83051000000000bf800000800000003f1a66133f4d130e,
  0x3d83486fbf03036dbf81307300000000bf800000800000003f1a66133f1cc34c,
  0xbd830caabf03035cbf83051000000000bf800000800000003f16c8d63f4d07fb,
  0x3d8347e9bf03035cbf830510bf80000000000000800000003f1a66133f4d130e,
  0x3e835aeabf7522fb3a8aac97be6c56d63f5c7e283ee7bb303eeaab693d2a4ca5,
  0x80000000bf7dc8b83a8aac97000000003f6446743ee7bb303f0000003d2a4ca5,
  0x80000000bf9b851f3e34a44c800000003f1df3b63f4978d53f0000003ac49ba6,
  0x3ea0fdc1bf9638863e34a44cbe2388663f1893753f4978d53eeaab473ac49ba6,
  0x3f1b83cfbf86af2d3e34a44cbe9df3b63f08c7e33f4978d53ed555e73ac49ba6,
  0x3efdc63bbf5bc89f3a8aac97bee43fe63f45aee63ee7bb303ed556083d2a4ca5,
  0x3f337308bf3373e23a8aac97bf2168733f2168733ee7bb303ec000863d2a4ca5,
  0x3f5bef7cbf5bf0453e34a44cbedf62b73edf62b73f4978d53ec000863ac49ba6,
  0x3f86af04bf1b851f3e34a44cbf08c7e33e9df3b63f4978d53eaaab043ac49ba6,
  0x3f5bc819befdc8da3a8aac97bf45aee63ee43fe63ee7bb303eaaab043d2a4ca5,
  0x3f7522a7be835e743a8aac97bf5c7e283e6c56d63ee7bb303e9555823d2a4ca5,
  0x3f96387ebea1018e3e34a44cbf1893753e2388663f4978d53e9555823ac49ba6,
  0x3f9b851f800000003e34a44cbf1df3b6800000003f4978d53e8000003ac49ba6,
  0x3f7dc886b60637bd3a8aac97bf644674000000003ee7bb303e8000003d2a4ca5,
  0x3f7522a73e835e0f3a8aac97bf5c7e28be6c56d63ee7bb303e5554fc3d2a4ca5,
  0x3f96387e3ea1018e3e34a44cbf189375be2388663f4978d53e5554fc3ac49ba6,
  0x3f86af043f1b851f3e34a44cbf08c7e3be9df3b63f4978d53e2aa9f83ac49ba6,
  0x3f5bc8193efdc8753a8aac97bf45aee6bee43fe63ee7bb303e2aa9f83d2a4ca5,
  0x3f3373083f3373b03a8aac97bf213a93bf218fc53ee7c84b3dfffde73d2a4ca5,
  0x3f5bef7c3f5bf0453e34a44cbedf2e49bedf62b73f4985f03dfffde73ac49ba6,
  0x3f1b83cf3f86af2d3e34a44cbe9de69bbf08a0903f49930c3daaa8653ac49ba6,
  0x3efd58c93f5bc85c3a8aac97bee47454bf3ed9173efd70a43daa6b0e3d2a4ca5,
  0x3e835aea3f7522c93a8aac97be6cbfb1bf5c710d3ee7c84b3d2aa4ba3d2a4ca5,
  0x3ea0fdc13f9638863e34a44cbe238866bf1893753f4978d53d2aa5c63ac49ba6,
  0x800000003f7dc8863a8aac9700000000bf6446743ee7bb30000000003d2a4ca5,
  0x000000003f9b851f3e34a44c00000000bf1df3b63f4978d5000000003ac49ba6,
  0x3e245996bf78507abedfe7e2be04b5dd3f7dd97f3a6bedfa3ef2a36a3df60957,
  0x80000000bf7dc8b8bedfe7e2b951b7173f800000399d49523f0000003df60957,
  0x3e835aeabf7522fbbedfe7e2be8425af3f7752543a03126f3eeaab693df60957,
  0x3efdc63bbf5bc89fbedfe7e2bf0000003f5db22d800000003ed556083df60957,
  0x3f337308bf3373e2bedfe7e2bf3504813f350481800000003ec000863df60957,
  0x3f5bc819befdc8dabedfe7e2bf5db22d3f000000800000003eaaab043df60957,
  0x3f7522a7be835e74bedfe7e2bf7745393e84816f800000003e9555823df60957,
  0x3f7dc886b60637bdbedfe7e2bf80000000000000800000003e8000003df60957,
  0x3f7522a73e835e0fbedfe7e2bf774539be84816f800000003e5554fc3df60957,
  0x3f5bc8193efdc875bedfe7e2bf5db22dbf000000800000003e2aa9f83df60957,
  0x3f3373083f3373b0bedfe7e2bf34d6a1bf353261800000003dfffde73df60957,
  0x3efd58c93f5bc85cbedfe7e2bf1b7176bf4b6ae8800000003daa6b0e3df60957,
  0x3efd58c93f5bc85cbe0595bcbf1b7176bf4b6ae8800000003daa6b0e3d73f317,
  0x000000003f7dc886bedfe7e200000000bf80000080000000000000003df60957,
  0x3e835aea3f7522c9bedfe7e2be84d014bf773eab800000003d2aa4ba3df60957,
  0x3ed596643f640bbbbedfe7e2bec4816fbf6c63f1800000003d8ec0723df60957,
  0xbe835aeabf7522fb3a8aac973e6c56d63f5c7e283ee7bb303f0aaa4c3d2a4ca5,
  0xbea0fdc1bf9638863e34a44c3e2388663f1893753f4978d53f0aaa5c3ac49ba6,
  0xbf1b83cfbf86af2d3e34a44c3e9df3b63f08c7e33f4978d53f15550d3ac49ba6,
  0xbefdc63bbf5bc89f3a8aac973ee43fe63f45aee63ee7bb303f1554fc3d2a4ca5,
  0xbf337308bf3373e23a8aac973f2168733f2168733ee7bb303f1fffbd3d2a4ca5,
  0xbf5bef7cbf5bf0453e34a44c3edf62b73edf62b73f4978d53f1fffbd3ac49ba6,
  0xbf86af04bf1b851f3e34a44c3f08c7e33e9df3b63f4978d53f2aaa7e3ac49ba6,
  0xbf5bc819befdc8da3a8aac973f45aee63ee43fe63ee7bb303f2aaa7e3d2a4ca5,
  0xbf7522a7be835e743a8aac973f5c7e283e6c56d63ee7bb303f35553f3d2a4ca5,
  0xbf96387ebea1018e3e34a44c3f1893753e2388663f4978d53f35553f3ac49ba6,
  0xbf9b851f800000003e34a44c3f1df3b6800000003f4978d53f4000003ac49ba6,
  0xbf7dc886b60637bd3a8aac973f5ed289bc54fdf43efbf4883f4000003d2a4ca5,
  0xbf7522a73e835e0f3a8aac973f5c7e28be6c56d63ee7bb303f4aaac13d2a4ca5,
  0xbf96387e3ea1018e3e34a44c3f189375be2388663f4978d53f4aaac13ac49ba6,
  0xbf86af043f1b851f3e34a44c3f08c7e3be9df3b63f4978d53f5555823ac49ba6,
  0xbf5bc8193efdc8753a8aac973f45aee6bee43fe63ee7bb303f5555823d2a4ca5,
  0xbf3373083f3373b03a8aac973f214120bf2182aa3ee7d5673f6000433d2a4ca5,
  0xbf5bef7c3f5bf0453e34a44c3edf62b7bedf62b73f4978d53f6000433ac49ba6,
  0xbf1b83cf3f86af2d3e34a44c3e9dbf48bf08b4393f498c7e3f6aaaf33ac49ba6,
  0xbefd58c93f5bc85c3a8aac973ee3fe5dbf45c28f3ee7c84b3f6ab29e3d2a4ca5,
  0xbe835aea3f7522c93a8aac973e6cd9e8bf5c710d3ee7c84b3f7555a43d2a4ca5,
  0xbea0fdc13f9638863e34a44c3e23a29cbf1886593f497f633f7555a43ac49ba6,
  0x000000003f9b851f3e34a44c00000000bf1df3b63f4978d53f8000003ac49ba6,
  0x800000003f7dc8863a8aac9700000000bf6446743ee7bb303f8000003d2a4ca5,
  0xbe245996bf78507abedfe7e23e056d5d3f7dd2f23a03126f3f06ae4b3df60957,
  0xbe835aeabf7522fbbedfe7e23e83f1413f7758e2800000003f0aaa4c3df60957,
  0xbefdc63bbf5bc89fbedfe7e23f0000003f5db22d800000003f1554fc3df60957,
  0xbf337308bf3373e2bedfe7e23f3504813f350481800000003f1fffbd3df60957,
  0xbf5bc819befdc8dabedfe7e23f5db22d3f000000800000003f2aaa7e3df60957,
  0xbf7522a7be835e74bedfe7e23f7275253ea44d01800000003f35553f3df60957,
  0xbf7dc886b60637bdbedfe7e23f7dcc64be05a1cb800000003f4000003df60957,
  0xbf7522a73e835e0fbedfe7e23f774539be84816f800000003f4aaac13df60957,
  0xbf5bc8193efdc875bedfe7e23f5db22dbf000000800000003f5555823df60957,
  0xbf3373083f3373b0bedfe7e23f34d6a1bf353261800000003f6000433df60957,
  0xbefd58c93f5bc85cbedfe7e23f1b7176bf4b6ae8800000003f6ab29e3df60957,
  0xbefd58c93f5bc85cbe0595bc3f09652cbf580347800000003f6ab29e3d73f317,
  0xbed596643f640bbbbe0595bc3ec4816fbf6c63f1800000003f6e27f23d73f317,
  0xbe835aea3f7522c9bedfe7e23e84d014bf773eab800000003f7555a43df60957,
  0x000000003f7dc886bedfe7e200000000bf800000800000003f8000003df60957,
  0xbed596643f640bbbbedfe7e23ec4816fbf6c63f1800000003f6e27f23df60957]

set_option maxRecDepth 100000 in
/-- the triangles of `KICKER_CUP_INDICES`, /repo/src/vpx/mesh/kickers/kicker_cup_mesh.rs:394-460 -/
def kickerCupTris : List Nat := [
  0x000000010002, 0x000300040005, 0x000600070008, 0x000700930094, 0x000900070006, 0x000700090093, 0x0006000a0009,
  0x009500930009, 0x000b0009000a, 0x000900960095, 0x000c0009000b, 0x000900970096, 0x000d0009000c, 0x000900980097,
  0x000e0009000d, 0x0009000e0098, 0x000f00100011, 0x00120010000f, 0x0012000f0015, 0x001400120015, 0x001300140015,
  0x001600140013, 0x001600130019, 0x001800160019, 0x001700180019, 0x001a00180017, 0x001a0017001d, 0x001c001a001d,
  0x001b001c001d, 0x001e001c001b, 0x001e001b0021, 0x0020001e0021, 0x001f00200021, 0x0020001f0044, 0x0044001f0076,
  0x002000440072, 0x007200240048, 0x002300480024, 0x002200230024, 0x002500230022, 0x002500220049, 0x00ae00250049,
  0x00ac00ae0049, 0x00ab00ae00ac, 0x00ab00ac00ad, 0x00ad00fa00ab, 0x00ce00ca00fa, 0x00aa00ca00ce, 0x00aa00ce00fe,
  0x00a800ca00aa, 0x00a800aa00a9, 0x00a700a800a9, 0x00a600a700a9, 0x00a400a700a6, 0x00a400a600a5, 0x00a300a400a5,
  0x00a200a300a5, 0x00a000a300a2, 0x00a000a200a1, 0x009f00a000a1, 0x009e009f00a1, 0x009c009f009e, 0x009c009e009d,
  0x0099009c009d, 0x009a0099009d, 0x0099009a009b, 0x002600270028, 0x0029002a002b, 0x002c002d002e, 0x002f00300031,
  0x0031004d002f, 0x003200330034, 0x003500360037, 0x0037004e0035, 0x00380039003a, 0x003b003c003d, 0x003e003f0040,
  0x004100420043, 0x004500460047, 0x004a004b004c, 0x004f00500051, 0x005200530054, 0x005500560057, 0x005800570056,
  0x0059005a005b, 0x005c005b005a, 0x005d005e005f, 0x0060005f005e, 0x006100620063, 0x006400630062, 0x006500660067,
  0x006800670066, 0x0069006a006b, 0x006c006d006e, 0x006f00700071, 0x007300740075, 0x007700780079, 0x0079007a0077,
  0x007b007c007d, 0x007c007b007e, 0x007f00800081, 0x008200810080, 0x008300840085, 0x008500840086, 0x008700880089,
  0x014c0088014b, 0x014b00880139, 0x014b0139014a, 0x013b014a0139, 0x013900880138, 0x013c013b013a, 0x013a013b0139,
  0x01390137013a, 0x013901380137, 0x013701380136, 0x013801350136, 0x014901350138, 0x013501490148, 0x013501330136,
  0x014801470135, 0x013501340133, 0x013501470134, 0x013301340132, 0x014601340147, 0x013401310132, 0x013101340146,
  0x0131012f0132, 0x014601450131, 0x01310130012f, 0x013101450130, 0x012f0130012e, 0x014401300145, 0x0130012d012e,
  0x012d01300144, 0x012d012b012e, 0x01440143012d, 0x012d012c012b, 0x012d0143012c, 0x012b012c012a, 0x0142012c0143,
  0x012c0129012a, 0x0129012c0142, 0x01290127012a, 0x014201410129, 0x012901280127, 0x012901410128, 0x012701280126,
  0x014001280141, 0x012801230126, 0x012301280140, 0x012501260123, 0x0140013f0123, 0x012301240125, 0x01240123013f,
  0x013d0124013f, 0x01250124014e, 0x013d013e0124, 0x0124014d014e, 0x0124013e014d, 0x0165014d013e, 0x014d014f014e,
  0x014d01650166, 0x014d0150014f, 0x0150014d0166, 0x014f01500152, 0x016601670150, 0x015001510152, 0x015101500167,
  0x015101530152, 0x016701680151, 0x015101540153, 0x015401510168, 0x015301540156, 0x016801690154, 0x015401550156,
  0x016901550154, 0x01550169016a, 0x015501570156, 0x01580155016a, 0x015501580157, 0x01570158015a, 0x01580159015a,
  0x016b01590158, 0x0159015b015a, 0x0159016b016c, 0x0159015c015b, 0x015c0159016c, 0x015b015c015e, 0x016c016d015c,
  0x015c015d015e, 0x016d015d015c, 0x015d015f015e, 0x015d016d016e, 0x015d0160015f, 0x015d016e0160, 0x015f01600162,
  0x016e016f0170, 0x01700160016e, 0x017001710160, 0x016001610162, 0x017101610160, 0x016301620161, 0x016101710174,
  0x016401630161, 0x016101740172, 0x016401610172, 0x017201730164, 0x008a008b008c, 0x008d008e008f, 0x009000910092,
  0x00af00b000b1, 0x00b200b300b4, 0x00b500b600b7, 0x00b800b900ba, 0x00d500ba00b9, 0x00bb00bc00bd, 0x00be00bf00c0,
  0x00d600c000bf, 0x00c100c200c3, 0x00c400c500c6, 0x00c700c800c9, 0x00cb00cc00cd, 0x00cf00d000d1, 0x00d200d300d4,
  0x00d700d800d9, 0x00da00db00dc, 0x00dd00de00df, 0x00de00dd00e0, 0x00e100e200e3, 0x00e200e100e4, 0x00e500e600e7,
  0x00e600e500e8, 0x00e900ea00eb, 0x00ea00e900ec, 0x00ed00ee00ef, 0x00ee00ed00f0, 0x00f100f200f3, 0x00f400f500f6,
  0x00f700f800f9, 0x00fb00fc00fd, 0x00ff01000101, 0x0101010200ff, 0x010301040105, 0x010401030106, 0x010701080109,
  0x01080107010a, 0x010b010c010d, 0x010e010c010b, 0x010f01100111, 0x011101100112, 0x011301140115, 0x011401220115,
  0x011601170118, 0x011601180119, 0x011a011b011c, 0x011b011d011c, 0x011e011f0120, 0x0121011f011e]

/-- the table of /repo/src/vpx/mesh/kickers/kicker_cup_mesh.rs -/
def kickerCupTable : MeshTable := unpackTable kickerCupVertices kickerCupTris

set_option maxRecDepth 100000 in
/-- the vertices of `KICKER_GOTTLIEB_VERTICES`, /repo/src/vpx/mesh/kickers/kicker_gottlieb_mesh.rs:16-2350 -/
def kickerGottliebVertices : List Nat := [
  0x3eb410b63f6c068e3c8b6d87be7f62b7bf265fd93f37c84b3f2dfa443ea2b6ae,
  0x3e75c0ba3f7554a83c8b60f2be305532bf2bf4883f3872b03f2db22d3e98c7e3,
  0x3e8fa4403f725700bebe08afbe5652bdbf2fb15b3f3254613f3eab363e9c91d1,
  0x3e5b01433f76c1d3bebde84fbe285879bf3141203f33d70a3f3e83e43e96ae7d,
  0x3e3b11c73f787864bebe67d7be5cfaadbf2872b03f38adac3f3e83e43e93dd98,
  0x3e00c06a3f7ae4b03c8b630bbdc25aeebf30902e3f37c84b3f2d844d3e8ea4a9,
  0x3e3845dd3f78a2ecbf05387abd292a30bbbe0dedbf7fc5053f44f0d83e93b646,
  0x3d936cdf3f7c5bd1bf054b5abd6978d5bf318fc5bf37d5673f44dd2f3e8a161e,
  0x3d0a61173f7cefcc3c8b673cbce147aebf3240b83f379a6b3f2d77323e866666,
  0xbcadba4d3f7d1a65bf054b5a3c3923a3bf325aeebf37a0f93f44d6a13e81b08a,
  0xbd7378683f7cc1983c8b65233d1d4952bf3219653f37a0f93f2d77323e7c01a3,
  0xbdec6de73f7b913fbf054bad3d9374bcbf31bda5bf374bc73f44dd2f3e727bb3,
  0xbe1ed3953f7a3b363c8b673c3dd6d5d0bf304ea53f37a7873f2d844d3e6acd9f,
  0xbe34202e3f794717bebdde7a3e310cb3bf36594b3f2e21963f3e69ad3e676c8b,
  0xbe3aab043f792029bf0530163d10ff97bc15182bbf7fd2203f44e3bd3e6786c2,
  0x3e3b484dbf777532bebe67d7be5773193f28c7e33f38ce703f59c0ec3e597f63,
  0x3e3ad5bfbf777825bf0530e0bd3b98c83bef34d7bf7fb7e93f602de03e59652c,
  0x3e02135ebf79db44bf054c23bdb22d0e3f313405bf3765fe3f6027523e6353f8,
  0x3df91255bf7a0e953c8b6523bdbb98c83f306f693f3803473f48bac73e64c2f8,
  0x3e762457bf744ec63c8b6523be306f693f2be76d3f387fcc3f48e8a73e4faace,
  0x3e5b0186bf75c161bebde84fbe283e423f3147ae3f33d70a3f59c0ec3e53f7cf,
  0x3e8fa52bbf7158b8bebe0c39be5638863f2faace3f3254613f59e1b13e4816f0,
  0x3eb40d91bf6b061c3c8b71b9be7f97243f26594b3f37ced93f492a303e3be76d,
  0x3ec5cd4fbf676124bebe67d7be8fb7e93f28e2193f3275253f5a36e33e3573eb,
  0x3edfaa8bbf615b573c8b5ed9bea00d1b3f1f6fd23f379a6b3f4972473e2cf41f,
  0x3ef0bf1abf5cdfbdbebe67d7beb0d8453f20be0e3f328f5c3f5a7efa3e26b50b,
  0x3f049e77bf55a9333c8b6955bebe76c93f16a1623f37c84b3f49c77a3e1eb852,
  0x3f0cb8d0bf5061e9bebe67d7becf837b3f1773193f32680a3f5adaba3e18c7e3,
  0x3f1d5e4abf44303c3c8b6b6ebedeb8523f0a36e33f38793e3f4a43fe3e0ded29,
  0x3f241d2abf3e8a0dbebe67b6bef288ce3f0adaba3f31a36e3f5b5dcc3e0902de,
  0x3f331002bf3052933c8b75eabefdb22d3efa6b513f37c84b3f4aacda3e028f5c,
  0x3f3d73c9bf253d86bebe67d7bf0ae7d53ef2b0213f3189373eaeb1c43ebf2e49,
  0x3f241d2abf3e8a0dbebe67b6bef288ce3f0adaba3f31a36e3eaf00693ec4dd2f,
  0x3f331002bf3052933c8b75eabefdb22d3efa6b513f37c84b3e8ca57a3ec3126f,
  0x3f42e903bf1e8e3f3c8b673cbf0af4f13edf06f73f37d5673e8c56d63ebce076,
  0x3f4fce42bf0d28aebebe67d7bf179a6b3ecf5c293f3254613eae56043eb6d5d0,
  0x3f54a02cbf05fd053c8b5aa7bf1638863ebd3c363f3872b03e8bfb163eb44674,
  0x3f5c3d57bef18c3bbebe67d7bf2154ca3eaf27bb3f3275253eae147b3eafb7e9,
  0x3f62b4a6bed853e33c8b630bbf20aa653e9a85883f37bb303e8bb98c3eab50b1,
  0x3f68f388bebc7ef1bebe67d7bf2ae7d53e89d4953f31b08a3eade00d3ea67382,
  0x3f6bed20beac59b83c8b60f2bf27bb303e7126e93f37c84b3e8b851f3ea3a29c,
  0x3f727e74be82f5fdbebe67d7bf3161e53e4106253f322d0e3eadab9f3e9c6a7f,
  0x3f74b370be64dd723c8b630bbf2cbfb13e2041893f38a71e3e8b5dcc3e997247,
  0x3f78a02cbe12d880bebe67d7bf36809d3dd288ce3f3196533ead844d3e925461,
  0x3f7a6395bdaed9173c8b6523bf3068dc3d734d6a3f38e2193e8b43963e8d1b71,
  0x3f7b6c8b3b0051cabebe67d7bf38adac399d49523f3147ae3ead77323e85460b,
  0x3f7ada013d934f833c8b673cbf3020c5bd484b5e3f395e9e3e8b43963e7df3b6,
  0x3f78a04d3e16da45bebe67d7bf367a10bdd326183f319ce03ead844d3e706f69,
  0x3f74b3703e68e5823c8b673cbf2c5d64be205bc03f38fc503e8b5dcc3e61ff2e,
  0x3f727e743e84f6e0bebe67d7bf316873be416f003f321ff33eadab9f3e5c28f6,
  0x3f6a146a3eb8cbb03c8b6b6ebf253f7dbe7fb15b3f38c7e33e8b923a3e49eecc,
  0x3f68f3883ebe7989bebe67d7bf2b020cbe8a09033f318fc53eade00d3e47fcb9,
  0x3f5d4be03eefb3533c8b630bbf1ccccdbea7d5673f38240b3e8bd3c33e367a10,
  0x3f5c406c3ef39043bebe67d7bf218937beaf837b3f3226813eae147b3e352546,
  0x3f4e08293f10f2e03c8b630bbf11205cbecb923a3f38b4393e8c22683e24dd2f,
  0x3f4fce423f0e2c45bebe67b6bf17d567becf34d73f322d0e3eae56043e26cf42,
  0x3f3d72473f263c64bebe67d7bf0b4396bef14e3c3f31b7173eaeb1c43e15e9e2,
  0x3f3790433f2ccbd13c8b60f2bf019653bef182aa3f38d4fe3e8c985f3e113405,
  0x3f28d0ab3f3b381dbebe67d7bef851ecbf0745393f32617c3eaf00693e0a3d71,
  0x3f1d5a6c3f4531773c8b5aa7bedf62b7bf09b3d03f38a71e3f2f1aa03eb9b3d0,
  0x3f28d0ab3f3b381dbebe67d7bef851ecbf0745393f32617c3f404ea53ebdcc64,
  0x3f3790433f2ccbd13c8b60f2bf019653bef182aa3f38d4fe3f2f8a093ebf62b7,
  0x3f1670d23f4a6f72bebe67f9bedb4a23bf134d6a3f32617c3f3fdf3b3eb78d50,
  0x3f04a00a3f56ae4b3c8b5ed9bebe69adbf16a7f03f37c84b3f2e978d3eb14e3c,
  0x3efa85233f5b3e14bebe67d7beb8ef35bf1f5c293f31bda53f3f62b73eaef34d,
  0x3edfad8e3f625aff3c8b6d87be9f9724bf1f97243f3793de3f2e425b3eaa3055,
  0x3ec5d3783f6860ccbebe67d7be90f27cbf28ce703f3247453f3f00693ea5f06f,
  0xbe59e83e3f7780aabebe1b8f3e1ce076bf32ca583f32f8383f3e76c93e60aa65,
  0xbe7c9cd43f757d4a3c8b65233e2f4f0ebf2cd35b3f37b4a23f2da5123e5a36e3,
  0xbea505f33f6fbfc6bebe67d73e67d567bf2e48e93f3254613f3eb8523e4ccccd,
  0xbead64b63f6e4c1f3c8b60f23e70a3d7bf27e2823f37a7873f2dd97f3e4985f0,
  0xbed11c2a3f671a3bbebe67f93e95dcc6bf2780343f3282413f3ef34d3e3d21ff,
  0xbed96b553f6534483c8b6b6e3e978034bf217c1c3f37a0f93f2e1b093e39c0ec,
  0xbefb72823f5c6a3cbebe67d73eb758e2bf1f69443f3219653f3f41f23e2dfa44,
  0xbf01c4db3f5a16a53c8b5aa73eb58106bf19652c3f37c84b3f2e69ad3e2ab368,
  0xbf1b62523f491d36bebe67d73ee2680abf128f5c3f30be0e3f3fd2203e18c7e3,
  0xbf15ae2e3f4d05d13c8b78033ed0d845bf1096bc3f37a0f93f2ec56d3e1c5d64,
  0xbf284c383f3e24143c8b545c3eec154dbf05c91d3f3793de3f2f34d73e0ed917,
  0xbf3a12f93f2d0b85bebe67b63f071759befc779a3f310cb33f4089a03e041893,
  0xbf396bca3f2d92103c8b673c3f02339cbef2fec53f37e9103f2f8a093e058794,
  0xbf4cab933f16aed13c8b5aa73f0edfa4bed23a2a3f389a023e8d5cfb3f1db8bb,
  0xbf3a12f93f2d0b85bebe67b63f071759befc779a3f310cb33eb0068e3f20e560,
  0xbf396bca3f2d92103c8b673c3f02339cbef2fec53f37e9103e8e2eb23f21c433,
  0xbf53ec463f0ca07fbebe67b63f19ba5ebece48e93f30d1b73eaf1aa03f1bedfa,
  0xbf5fce963ef10f953c8b6d873f1be0dfbea95e9e3f3893753e8c8b443f1872b0,
  0xbf654de83edaf039bebe67f93f25aee6be9fcb923f320c4a3eae56043f16872b,
  0xbf6c3b603ebb2ebe3c8b630b3f257a78be84c2f83f37b4a23e8bfb163f13bcd3,
  0xbf70996b3ea43116bebe67d73f2e6320be6de00d3f31bda53eade00d3f11b717,
  0xbf73f5513e8e1c9b3c8b630b3f2b645abe46f6943f378d503e8bac713f0fcb92,
  0xbf78663c3e55d5f5bebe67d73f341893be1758e23f31f2133ead844d3f0cb296,
  0xbf7986a93e3f97683c8b673c3f2f1aa0be051eb83f37c1be3e8b6ae83f0bb98c,
  0xbf7da9fc3d925bb8bebe67d73f38c7e3bd47e2823f30be0e3ead4fdf3f06872b,
  0xbf7ce3ef3dc234223c8b673c3f319653bd8902de3f379a6b3e8b43963f0793de,
  0xbf7e034f3b0051ca3c8b673c3f32680a3a51b7173f379a6b3e8b367a3f0367a1,
  0xbf7d03a7bdb99b2cbebe67d73f37f62b3d85bc023f313a933ead4fdf3efe83e4,
  0xbf7ce400bdba36e33c8b673c3f3189373d86594b3f37ae143e8b43963efe76c9,
  0xbf7986dbbe3b98c83c8b630b3f2f41f23e0538ef3f37a0f93e8b6ae83ef62b6b,
  0xbf773094be69435bbebe67d73f3381d83e2e978d3f313a933ead91683ef22d0e,
  0xbf73f551be8c1bb93c8b60f23f2adaba3e4a3d713f37ced93e8bac713eee075f,
  0xbf6a62aabec3b18ebebe67d73f2ac7113e902de03f30902e3eae21963ee45a1d,
  0xbf6a1922bec438d23c8b673c3f2353f83e8a7efa3f3893753e8c154d3ee43fe6,
  0xbf5cc2c6bef993f73c8b78033f1b15b53eaf27bb3f37e2823e8ca57a3edad42c,
  0xbf57060cbf0689cabebe67b63f1c84b63ec43fe63f313a933eaef34d3ed77319,
  0xbf5002d1bf10d8993c8b6b6e3f11d7dc3ecd844d3f379a6b3e8d35a83ed3c361,
  0xbf41f2febf23355dbebe67b63f0c56d63ef048173f313a933eafdf3b3ecd5cfb,
  0xbf415db3bf23b4e53c8b3b323f0793de3ee7fcb93f379a6b3e8dd2f23ecd288d,
  0xbf310e88bf350c5f3c8b80673ef85f073f0000003f37a7873e8e63203ec872b0,
  0xbf24a106bf40aa54bebe67d73eee63203f0e0ded3f307c853f5b2fec3eb79a6b,
  0xbf41f2febf23355dbebe67b63f0c56d63ef048173f313a933f5bc01a3ebfa440,
  0xbf310e88bf350c5f3c8b80673ef85f073f0000003f37a7873f4a92a33ebc6a7f,
  0xbf1f2b13bf44cc8a3c8b80673ede353f3f0b7e913f37ae143f4a233a3eb5e9e2,
  0xbf0bdd44bf52cb433c8b6b6e3ec425af3f14e3bd3f37bb303f49c0ec3eaef34d,
  0xbefb5b2dbf5bc32fbebe67d73eb844d03f20d8453f30902e3f5a786c3ea9930c,
  0xbeeec094bf5ee33f3c8b673c3ea5f06f3f1de69b3f37a0f93f4972473ea793de,
  0xbec38d61bf6904f73c8b5aa73e8872b03f24af4f3f37bb303f492a303e9fd8ae,
  0xbebb4784bf6aaf04bebe67d73e88ce703f2ab3683f3219653f5a0f913e9e353f,
  0xbe96b65bbf7110f53c8b65233e5096bc3f2a85883f37ae143f48f5c33e97dbf5,
  0xbe8e60e5bf724ca5bebe67b63e4b43963f300d1b3f32ca583f59db233e963886,
  0xbe50bb6fbf76f4f13c8b60f23e0d6a163f2eb8523f37bb303f48ce703e8f9db2,
  0xbe59dc2fbf766d26bebe23293e15b5743f3226813f33fe5d3f59ba5e3e904817,
  0xbe34f82fbf784439bebdde7a3e33eab33f36ae7d3f2d9e843f59a6b53e8d013b,
  0xbdbd1f60bf7b43c83c8b673c3d76fd223f30c49c3f3886593f48b4393e8594af,
  0xbe38d9f9bf783a86bf0535113cfd21ff3be21965bf7fdf3b3f6020c53e8c7e28,
  0xbd737eb3bf7bc105bf054b5a3d2858793f31b717bf37f62b3f601a373e825aee,
  0x3cd08f65bf7c02c13c8b673cbc9d49523f31f8a13f37f62b3f48adac3e75f6fd,
  0x3d09f72fbf7befaebf054b5abce2eb1c3f322681bf37b4a23f601a373e7404ea,
  0x3f7b47843ccec205bf0530e0bc15182b80000000bf8000003e5119ce3f25f06f,
  0x3f7ff983bdc9eeccbf054b5a3f361134bd8bac71bf3318fc3e6809d53f263886,
  0x3f7a72a8bda18d69bf0530f0bc15182b3a1d4952bf8000003e61ff2e3f26dc5d,
  0x3f8085663d3178b3bf054b5a3f36e9793cef34d7bf32f1aa3e4f90973f24dd2f,
  0x3f7663c7be469121bf053101bc16bb993aebedfabf8000003e739c0f3f2851ec,
  0x3f7b2f45be5abef0bf054b5a3f3212d7be19652cbf33e4263e7b645a3f27fcb9,
  0x3f74e8fbbe9c2b30bf054b5a3f2d70a4be5d97f6bf33f7cf3e852bd43f29d495,
  0x3f6eaf79be9ca46ebf053101bc0ce7043b3e0dedbf8000003e840b783f2ab368,
  0x3f6c7464bec9a0cfbf054b383f275f70be903afbbf33c9ef3e8c56d63f2c0831,
  0x3f663a8ebec8ff11bf053112bbd4fdf43b727bb3bf8000003e8b0f283f2cd9e8,
  0x3f5edacbbf006291bf054b493f1ed289beb66cf4bf32de013e94bc6a3f2f4f0e,
  0x3f5cfb12beeedce4bf053a3fbbbe0ded3b3e0dedbf8000003e91a9fc3f2f559b,
  0x3f5283c3bf0924e1bf053101bc1d49523ba71de7bf7ff9723e97ced93f321965,
  0x3f4e68a1bf195044bf054b8c3f124dd3bed78d50bf34538f3e9c28f63f32f1aa,
  0x3f46ad1dbf19c993bf0527c4bc0ce7043be8a71ebf7ff9723e9c1bda3f346dc6,
  0x3f3f1d1dbf2c1217bf054b493f072474bef41f21bf33eab33ea189373f3631f9,
  0x3f392ac7bf29ea14bf053123bbcb295f3bd4fdf4bf8000003ea000003f36dc5d,
  0x3f29528fbf41cc53bf054b493ef0a3d7bf09eeccbf32f8383ea76c8b3f3aacda,
  0x3f285133bf3ab28ebf053123bbc7e2823bd4fdf4bf8000003ea4a8c13f3a511a,
  0x3f1600e2bf49cab0bf053133bbbe0ded3bf9096cbf8000003ea8b4393f3dfa44,
  0x3f0c6983bf57cd57bf054b5a3eca0903bf189a02bf3305533ead013b3f40624e,
  0x3f025bfbbf571b48bf053123bb9a02753c016f00bf8000003eabfb163f41cac1,
  0x3ee50614bf6696f6bf054b5a3ea44d01bf228f5cbf33e4263eb06f693f454c98,
  0x3edb09a6bf628523bf053112bb7f97243c06594bbf8000003eae978d3f45c91d,
  0x3eb8b4c0bf706d50bf054b6a3e83d70abf29999abf3412063eb254613f497247,
  0x3eaf75fbbf6bedd9bf053101bb51b7173c0b4396bf8000003eb06f693f49db23,
  0x3e8ab64abf7824e6bf054b5a3e44816fbf2f62b7bf33eab33eb374bc3f4dab9f,
  0x3e8247edbf733ecdbf053101bb16bb993c102de0bf8000003eb182aa3f4e00d2,
  0x3e1d8666bf7ee610bf054b5a3de83e42bf358106bf322d0e3eb3c3613f530be1,
  0x3e3ad5bfbf777825bf0530e0bd3b98c83bef34d7bf7fb7e93eb1d14e3f5126e9,
  0x3e02135ebf79db44bf054c23bdb22d0e3f313405bf3765fe3eb1a9fc3f541206,
  0x3c4a9260bf810b85bf054b5a3c7765febf3872b0bf31758e3eb27bb33f59652c,
  0x3d09f72fbf7befaebf054b5abce2eb1c3f322681bf37b4a23eb0d8453f5844d0,
  0xbd737eb3bf7bc105bf054b5a3d2858793f31b717bf37f62b3eaf41f23f5c5d64,
  0xbdd526d9bf8062febf054b5abd8d1b71bf367a10bf32a9933eb03afb3f5e83e4,
  0xbe38d9f9bf783a86bf0535113cfd21ff3be21965bf7fdf3b3eabedfa3f61b717,
  0xbe4a708fbf7d47aebf054b49be0ded29bf330be1bf3381d83ead844d3f6288ce,
  0xbea0d691bf75c0a9bf054b49be5f3b64bf2e353fbf3318fc3ea8f5c33f6765fe,
  0xbe94f052bf7157bcbf0530f03b09a0273c1374bcbf8000003ea7d5673f6652bd,
  0xbec1f601bf695b46bf0531013b6560423c0e8a72bf8000003ea3afb83f69eecc,
  0xbed878d9bf6ae3e7bf054b6abe971759bf261e4fbf3388663ea395813f6bda51,
  0xbeed57bcbf5f4539bf0530e03b902de03c09a027bf8000003e9edfa43f6d566d,
  0xbf07738ebf5ca88fbf054b49bebf06f7bf1c432dbf32de013e9ced913f700d1b,
  0xbf0b4cb2bf532d2cbf0530be3badab9f3bff9724bf8000003e997f633f707c85,
  0xbf2523a3bf47acc5bf054b6abee816f0bf0de69bbf32b0213e93f7cf3f747ae1,
  0xbf1ea23cbf453ae7bf0530f03bb439583be8a71ebf8000003e9381d83f735a86,
  0xbf34f8c6bf315a29bf0531013bdb8bac3be21965bf8000003e8b50b13f76809d,
  0xbf3f96e1bf2ebcc7bf054b5abf063f14bef94af5bf32d0e53e89d4953f7837b5,
  0xbf489b41bf1ad9aebf0530be3bef34d73bbe0dedbf8000003e8282413f7930be,
  0xbf526c2bbf1791f7bf054b6abf12eb1cbed7c1bebf33c3613e80d1b73f7ac083,
  0xbf59a5dbbf025109bf0530f03c03126f3b9d4952bf8000003e722d0e3f7b4396,
  0xbf5fc16abf034e87bf054b6abf1c7e28beb9999abf3418933e722d0e3f7c63f1,
  0xbf6b1e08bedbd3a2bf054b38bf25119dbe9a36e3bf33d70a3e624dd33f7da512,
  0xbf677836becfaa8bbf0531123c09a0273b727bb3bf8000003e5e83e43f7cd35b,
  0xbf76ad2ebea2e48fbf054b49bf2dcc64be657a78bf32f8383e4d844d3f7eab36,
  0xbf704ae8bea34374bf0531013c09a0273b449ba6bf8000003e4e703b3f7d9e84,
  0xbf76fcadbe6ab25bbf0530f03c185f073b16bb99bf8000003e3e0ded3f7e075f,
  0xbf7fbd06be3908a2bf054b5abf33dd98be0779a7bf32fec53e3487fd3f7f1412,
  0xbf7c5ceebdeaafbcbf0531013c1ba5e33a902de0bf8000003e2978d53f7df3b6,
  0xbf81a919bd84816fbf054b5abf35dcc6bd4bfb16bf33bcd33e1ff2e53f7ec56d,
  0xbf7e0fa13cceee0fbf05362f3c463f14b951b717bf7ff9723e1119ce3f7d0e56,
  0xbf81e4a43cf531dbbf054b5abf365fd93cb9f55abf338ef33e0f90973f7e0ded,
  0xbf809d953e18fa7bbf054b5abf34f0d83ddaee63bf3305533df65fd93f7c91d1,
  0xbf7b78573e1106eebf0530f03c1374bcba83126fbf8000003dfa786c3f7bac71,
  0xbf76fcdf3e6eadd6bf0531013c185f07bb09a027bf8000003ddc28f63f7a233a,
  0xbf796c403e936d44bf054b5abf2fb15b3e4c2f83bf330be13dc87fcc3f7a0f91,
  0xbf704ae83ea5475abf0530f03c102de0bb4b295fbf8000003dbeab363f783e42,
  0xbf6f354c3ecba1b2bf054b49bf27ced93e8db8bbbf33dd983da4dd2f3f776c8b,
  0xbf6776b43ed1b196bf0531123c07fcb9bb79096cbf8000003da305533f75fd8b,
  0xbf64ac2a3ef747d8bf054b5abf1fd2203eaf0069bf33d07d3d8a09033f74e3bd,
  0xbf59a37f3f0350b1bf0530e03c07fcb9bba3d70abf8000003d82de013f72bd3c,
  0xbf54894c3f15d51bbf054b5abf1559b43ed33333bf3318fc3d55cfab3f713a93,
  0xbf4899bf3f1bdbb1bf0530be3bf27bb3bbc154cabf8000003d4bfb163f6f06f7,
  0xbf41d8953f2d1288bf054b8cbf0816f03ef295eabf33bcd33d2027523f6d42c4,
  0xbf390cf63f2dfd59bf0531233bd844d0bbd1b717bf8000003d229c783f6bc01a,
  0xbf30d8233f3e55d2bf054b49bef758e23f05a1cbbf33f1413cf41f213f69c77a,
  0xbf27d60f3f3e8ddabf0530f03bc49ba6bbe56042bf8000003cfd21ff3f6844d0,
  0xbf1e44e93f4df3c7bf054b6abedbf4883f1147aebf33d07d3cb295ea3f661134,
  0xbf10536d3f50f57fbf0530f03bb43958bc03126fbf8000003cb295ea3f639581,
  0xbf04dad33f5f3711bf054b5abeba29c73f1d5cfbbf3333333c6219653f6119ce,
  0xbeed5ae23f60434ebf0531123b8ce704bc07fcb9bf8000003c727bb33f5eb1c4,
  0xbed4892b3f6cc5dabf054b38be939c0f3f26c227bf33a92a3c03126f3f5c154d,
  0xbec1f9053f6a5aeebf0531013b5ed289bc0ce704bf8000003c30f27c3f5a9fbe,
  0xbe9b0e3d3f77aa26bf054b5abe57f62b3f2e9e1bbf33404f3b9374bc3f56c227,
  0xbe94ea073f7257c9bf0530f03b2a64c3bc0ce704bf8000003c07fcb93f56809d,
  0xbe3aab043f792029bf0530163d10ff97bc15182bbf7fd2203bef34d73f518937,
  0xbe420ea63f7eadf7bf054b5abe05f06f3f3346dcbf33a92a3b5ed2893f518937,
  0xbdec6de73f7b913fbf054bad3d9374bcbf31bda5bf374bc73bff97243f4e5c92,
  0xbd9048173f814bf9bf054b5abd3fb15b3f37dbf5bf31bda53b9d49523f4c28f6,
  0xbcadba4d3f7d1a65bf054b5a3c3923a3bf325aeebf37a0f93c20902e3f4a29c7,
  0x3d3d102c3f8156b8bf054b5a3d1a02753f379a6bbf321ff33c07fcb93f4703b0,
  0x3d936cdf3f7c5bd1bf054b5abd6978d5bf318fc5bf37d5673c59e83e3f461134,
  0x3e29856a3f7f674dbf054b5a3df972473f34c2f8bf328f5c3c6d91683f41de6a,
  0x3e3845dd3f78a2ecbf05387abd292a30bbbe0dedbf7fc5053ca2339c3f411340,
  0x3e8254613f743e75bf0530f0baebedfabc0e8a72bf8000003ccccccd3f3e147b,
  0x3e8ee4193f788cf8bf054b5a3e4adaba3f2eecc0bf33e4263cb851ec3f3d0e56,
  0x3eaf75fb3f6ced81bf053101bb4b295fbc0ce704bf8000003d05f06f3f3a6b51,
  0x3ebcb0c03f70a394bf054b5a3e86a7f03f29096cbf3418933cfaacda3f395e9e,
  0x3edb0caa3f63865dbf053112bb7f9724bc06594bbf8000003d2b367a3f36f694,
  0x3ee8d0463f669f6bbf054b493ea631f93f21ff2ebf33f7cf3d23d70a3f35e354,
  0x3f076cdf3f5510b2bf053112bba71de7bbfc5048bf8000003d60ded33f32fec5,
  0x3f096c723f5a962dbf054b383ec4dd2f3f19652cbf33c9ef3d4f41f23f32a993,
  0x3f226ff83f48a3e8bf054b493ee91d153f0d42c4bf32de013d868db93f2ef34d,
  0x3f23f63c3f3fb7a6bf053123bbce703bbbe56042bf8000003d95182b3f2ecbfb,
  0x3f3cde8f3f2fb635bf054b5a3f06c8b43ef85f07bf32bd3c3daee6323f2b367a,
  0x3f392c493f2aedabbf0530f0bbd844d0bbc49ba6bf8000003db717593f2bc6a8,
  0x3f4855973f18a9bdbf053112bbef34d7bbc7e282bf8000003dd3f7cf3f29c77a,
  0x3f538b593f135222bf054b6a3f16a1623ecf7660bf331f8a3ddb22d13f283e42,
  0x3f543d683f075b92bf05275fbc4154cabbded289bf7ff9723dea4a8c3f288659,
  0x3f5e821f3eeb40f6bf053101bc22339cbb89a027bf7ff9723e00d1b73f2779a7,
  0x3f6606753ee808eabf054b493f23f7cf3ea3fe5dbf32b0213e051eb83f2617c2,
  0x3f6746cc3ec5ebfbbf053a71bc016f00bb2a64c3bf8000003e10b0f23f266666,
  0x3f73f1b73ea4d467bf054b5a3f2dc5d63e6809d5bf32d0e53e1db22d3f24c986,
  0x3f6eafde3e9ea24dbf0530f0bbd1b717bb4b295fbf8000003e20f9093f25b574,
  0x3f75068a3e61c715bf053112bc16bb99bb16bb99bf8000003e3141203f2566cf,
  0x3f7d01083e3ce39bbf054b5a3f3418933e044d01bf32eb1c3e3694463f2460aa,
  0x3f792ff53e0454debf053112bc1ba5e3ba902de0bf8000003e41a36e3f258106,
  0x3f80856ebd216e7a3c8b673c3f386c22bcf1a9fc3f3168733f1240b83f7de69b,
  0x3f7ff9943dd1f2563c8b673c3f37a7873d930be13f3168733f0c154d3f7ee632,
  0x3f7ada013d934f833c8b673cbf3020c5bd484b5e3f395e9e3f0d3c363f7db8bb,
  0x3f79d2bf3e784cf03c8b65233f33404f3e2cd9e83f3196533f05cfab3f7f06f7,
  0x3f74b3703e68e5823c8b673cbf2c5d64be205bc03f38fc503f0652bd3f7e00d2,
  0x3f70f3dc3eb5158c3c8b673c3f2c5d643e7e76c93f3240b83f00b7803f7e76c9,
  0x3f6a146a3eb8cbb03c8b6b6ebf253f7dbe7fb15b3f38c7e33f00346e3f7d4952,
  0x3f6773e23ee1ae4f3c8b673c3f2566cf3e9f559b3f326e983ef94af53f7d8adb,
  0x3f5d4be03eefb3533c8b630bbf1ccccdbea7d5673f38240b3ef645a23f7c0831,
  0x3f5be7d13f0629413c8b71b93f1d0e563ebda5123f3288ce3ef14e3c3f7c432d,
  0x3f4e08293f10f2e03c8b630bbf11205cbecb923a3f38b4393eeccccd3f7a3055,
  0x3f4e6a233f1a4a7b3c8b6d873f131f8a3edc01a33f324dd33ee9a0273f7a9931,
  0x3f3acdd13f31edc03c8b673c3f063f143efd07c83f3182aa3ee075f73f77f62b,
  0x3f3790433f2ccbd13c8b60f2bf019653bef182aa3f38d4fe3ee1f2133f77381d,
  0x3f2506683f4658e63c8b56753eece7043f0cd9e83f31f8a13ed810623f74e3bd,
  0x3f1d5a6c3f4531773c8b5aa7bedf62b7bf09b3d03f38a71e3ed803473f7381d8,
  0x3f0c67383f58d0143c8b73d23ec9374c3f1aacda3f31758e3ed055323f713a93,
  0x3f04a00a3f56ae4b3c8b5ed9bebe69adbf16a7f03f37c84b3ed07c853f6fd8ae,
  0x3ed9593e3f6a8c483c8b630b3e9e76c93f269ad43f317c1c3ec84b5e3f6c56d6,
  0x3edfad8e3f625aff3c8b6d87be9f9724bf1f97243f3793de3ecb367a3f6ca57a,
  0x3eb410b63f6c068e3c8b6d87be7f62b7bf265fd93f37c84b3ec6809d3f69374c,
  0x3ea1e42e3f758eb93c8b630b3e6c3c9f3f2de69b3f325aee3ec2b6ae3f67f62b,
  0x3e75c0ba3f7554a83c8b60f2be305532bf2bf4883f3872b03ec196533f648e8a,
  0x3e668e3f3f7c31383c8b673c3e27bb303f329c783f3288ce3ebef9db3f6425af,
  0x3e0739f33f804dfd3c8b673c3dc1205c3f3617c23f324dd33ebbf4883f602de0,
  0x3e00c06a3f7ae4b03c8b630bbdc25aeebf30902e3f37c84b3ebdbf483f5fb7e9,
  0x3c4b4aed3f818b9c3c8b673c3c2f4f0e3f3872b03f3182aa3eb93dd93f5afb7f,
  0x3d0a61173f7cefcc3c8b673cbce147aebf3240b83f379a6b3ebb8bac3f5bb98c,
  0xbd7378683f7cc1983c8b65233d1d4952bf3219653f37a0f93eba1cac3f579a6b,
  0xbe04801f3f8096573c8b673cbdb5a8583f3731903f3161e53eb78d503f54a8c1,
  0xbe1ed3953f7a3b363c8b673c3dd6d5d0bf304ea53f37a7873eb9652c3f534d6a,
  0xbe899aa63f7a30443c8b673cbe3d70a43f323a2a3f318fc53eb79a6b3f4e48e9,
  0xbe7c9cd43f757d4a3c8b65233e2f4f0ebf2cd35b3f37b4a23eb97f633f4f1aa0,
  0xbead64b63f6e4c1f3c8b60f23e70a3d7bf27e2823f37a7873eba6b513f4acd9f,
  0xbec22ad43f70a45d3c8b6d87be8872b03f2ab3683f3226813eb8ef353f491d15,
  0xbed96b553f6534483c8b6b6e3e978034bf217c1c3f37a0f93ebc0ebf3f46bb99,
  0xbef9e7753f63b1e23c8b673cbeafd2203f21f2133f31b7173ebb98c83f43e426,
  0xbf01c4db3f5a16a53c8b5aa73eb58106bf19652c3f37c84b3ebe76c93f42bd3c,
  0xbf1643783f53d5023c8b673cbed412063f1638863f3219653ebf48803f3f0069,
  0xbf15ae2e3f4d05d13c8b78033ed0d845bf1096bc3f37a0f93ec1a36e3f3edfa4,
  0xbf2e60d43f40bff43c8b630bbef694463f09096c3f31a36e3ec43fe63f3a3d71,
  0xbf284c383f3e24143c8b545c3eec154dbf05c91d3f3793de3ec57a783f3b295f,
  0xbf396bca3f2d92103c8b673c3f02339cbef2fec53f37e9103ec9fbe73f37ae14,
  0xbf43415b3f2b7b293c8b6d87bf0978d53ef3eab33f323a2a3eca09033f35e9e2,
  0xbf4cab933f16aed13c8b5aa73f0edfa4bed23a2a3f389a023ed089a03f33a29c,
  0xbf526c2b3f1893fb3c8b75eabf145a1d3ed82a993f3275253ecf76603f32b021,
  0xbf5fc2ec3f044bd33c8b673cbf1dd97f3ebb22d13f3282413ed573eb3f2fb7e9,
  0xbf5fce963ef10f953c8b6d873f1be0dfbea95e9e3f3893753ed97f633f2f5c29,
  0xbf6b1f8a3eddce3a3c8b71b9bf2666663e9b7e913f3254613edbf4883f2d0e56,
  0xbf6c3b603ebb2ebe3c8b630b3f257a78be84c2f83f37b4a23ee1bda53f2c5048,
  0xbf76acfb3ea4e3de3c8b6523bf2f27bb3e6786c23f3182aa3ee4ea4b3f2a29c7,
  0xbf73f5513e8e1c9b3c8b630b3f2b645abe46f6943f378d503ee8e8a73f2a3d71,
  0xbf7fbd383e3d07423c8b673cbf353f7d3e0865953f3189373ef03afb3f277319,
  0xbf7986a93e3f97683c8b673c3f2f1aa0be051eb83f37c1be3ef0624e3f288659,
  0xbf7ce3ef3dc234223c8b673c3f319653bd8902de3f379a6b3ef82a993f272b02,
  0xbf81a9193d8c81d43c8b6523bf37381d3d4b923a3f325aee3efa02753f25d639,
  0xbf7e034f3b0051ca3c8b673c3f32680a3a51b7173f379a6b3f000d1b3f2631f9,
  0xbf81e4a4bcd523b33c8b6523bf376c8bbca305533f3282413f0119ce3f24f766,
  0xbf7ce400bdba36e33c8b673c3f3189373d86594b3f37ae143f041f213f259b3d,
  0xbf80fd6dbdf67e413c8b6523bf361e4fbdb18fc53f3288ce3f0538ef3f247ae1,
  0xbf7986dbbe3b98c83c8b630b3f2f41f23e0538ef3f37a0f93f0837b53f2566cf,
  0xbf7de95bbe5afd113c8b6523bf3346dcbe1d97f63f326e983f096bba3f246738,
  0xbf73f551be8c1bb93c8b60f23f2adaba3e4a3d713f37ced93f0c50483f259b3d,
  0xbf77a659be9c280b3c8b6d87bf2ee632be5eb8523f3275253f0d91683f24b5dd,
  0xbf6a1922bec438d23c8b673c3f2353f83e8a7efa3f3893753f1161e53f266cf4,
  0xbf6f3483bec99daa3c8b673cbf28d4febe8fc5053f3282413f11b08a3f256d5d,
  0xbf64adbcbef543f23c8b75eabf2126e9beb055323f324dd33f15b5743f26872b,
  0xbf5cc2c6bef993f73c8b78033f1b15b53eaf27bb3f37e2823f1652bd3f27d567,
  0xbf548701bf14d7063c8b6b6ebf163f14bed652bd3f3168733f1aa64c3f287fcc,
  0xbf5002d1bf10d8993c8b6b6e3f11d7dc3ecd844d3f379a6b3f1a233a3f295e9e,
  0xbf415db3bf23b4e53c8b3b323f0793de3ee7fcb93f379a6b3f1dcc643f2b4396,
  0xbf3d830ebf30f6ad3c8b5ed9bf067382befd8adb3f3126e93f2020c53f2b851f,
  0xbf310e88bf350c5f3c8b80673ef85f073f0000003f37a7873f2141203f2d844d,
  0xbf22c461bf4997703c8b6fa0bee6a7f0bf106f693f31205c3f252bd43f2f559b,
  0xbf1f2b13bf44cc8a3c8b80673ede353f3f0b7e913f37ae143f247ae13f3013a9,
  0xbf0bdd44bf52cb433c8b6b6e3ec425af3f14e3bd3f37bb303f2779a73f32f1aa,
  0xbf04d940bf5e36a03c8b60f2bebcfaadbf1e91003f3161e53f29999a3f33d07d,
  0xbeeec094bf5ee33f3c8b673c3ea5f06f3f1de69b3f37a0f93f2a30553f3617c2,
  0xbed48c50bf6bc5693c8b6d87be950b0fbf2831273f3205bc3f2cc63f3f37e910,
  0xbec38d61bf6904f73c8b5aa73e8872b03f24af4f3f37bb303f2c985f3f3978d5,
  0xbe9b0985bf76aa4c3c8b6523be59999abf302de03f3196533f2f837b3f3c8b44,
  0xbe96b65bbf7110f53c8b65233e5096bc3f2a85883f37ae143f2eab363f3d14e4,
  0xbe50bb6fbf76f4f13c8b60f23e0d6a163f2eb8523f37bb303f3068dc3f40ded3,
  0xbe420b80bf7dadb83c8b673cbe087fccbf348e8a3f323a2a3f31a9fc3f414e3c,
  0xbdbd1f60bf7b43c83c8b673c3d76fd223f30c49c3f3886593f3205bc3f45aee6,
  0xbdc41edebf807ca63c8b673cbd82de01bf36e9793f325aee3f32fec53f455326,
  0xba9a671fbf81015c3c8b673c3b1d4952bf3793de3f32680a3f33f1413f4978d5,
  0x3cd08f65bf7c02c13c8b673cbc9d49523f31f8a13f37f62b3f3326183f4ad42c,
  0x3dbf44d4bf8062f63c8b65233d954c98bf36bb993f3254613f34816f3f4dab9f,
  0x3df91255bf7a0e953c8b6523bdbb98c83f306f693f3803473f339c0f3f4f212d,
  0x3e59218abf7c11d33c8b65233e1e353fbf33f1413f31bda53f34a8c13f53126f,
  0x3e762457bf744ec63c8b6523be306f693f2be76d3f387fcc3f3395813f548e8a,
  0x3ea5f916bf73dc483c8b6b6e3e6d7732bf2dcc643f325aee3f3439583f584b5e,
  0x3eb40d91bf6b061c3c8b71b9be7f97243f26594b3f37ced93f32f8383f59c77a,
  0x3ed2ef2cbf6ae6433c8b56753e97b4a2bf2717593f3282413f336e2f3f5c710d,
  0x3edfaa8bbf615b573c8b5ed9bea00d1b3f1f6fd23f379a6b3f3205bc3f5dd97f,
  0x3efe1c37bf5fda733c8b5ed93eb63886bf1f41f23f3288ce3f3240b83f6089a0,
  0x3f049e77bf55a9333c8b6955bebe76c93f16a1623f37c84b3f30b7803f61d14e,
  0x3f137d20bf52d9383c8b5aa73ed3b646bf15fd8b3f32680a3f30b7803f647ae1,
  0x3f1d5e4abf44303c3c8b6b6ebedeb8523f0a36e33f38793e3f2e83e43f66a7f0,
  0x3f26a726bf43f77b3c8b673c3eee7d56bf0ba5e33f32617c3f2ed2893f6844d0,
  0x3f331002bf3052933c8b75eabefdb22d3efa6b513f37c84b3f2be0df3f6b0f28,
  0x3f384f7fbf335a863c8b56753f03d07dbeff62b73f327bb33f2c91d13f6bda51,
  0x3f42e903bf1e8e3f3c8b673cbf0af4f13edf06f73f37d5673f29652c3f6e5c92,
  0x3f485597bf2134373c8b56753f0f34d7bee5a1cb3f3275253f2a02753f6f34d7,
  0x3f54a02cbf05fd053c8b5aa7bf1638863ebd3c363f3872b03f25c28f3f72339c,
  0x3f5698bbbf0d94083c8b673c3f19374cbec9ad433f3295ea3f2724743f725461,
  0x3f62f07cbef182ed3c8b69553f221965beabedfa3f3282413f2404ea3f751eb8,
  0x3f62b4a6bed853e33c8b630bbf20aa653e9a85883f37bb303f21e4f73f758106,
  0x3f6d4b06bec5b1213c8b5ed93f297f63be8d288d3f32680a3f20a3d73f77a0f9,
  0x3f6bed20beac59b83c8b60f2bf27bb303e7126e93f37c84b3f1e76c93f77ced9,
  0x3f758d04be981c713c8b6d873f2fb7e9be56d5d03f323a2a3f1d0e563f79ce07,
  0x3f74b370be64dd723c8b630bbf2cbfb13e2041893f38a71e3f19d4953f7a3d71,
  0x3f7d0108be38e0443c8b65233f358106be0346dc3f3182aa3f183e423f7c0831,
  0x3f7a6395bdaed9173c8b6523bf3068dc3d734d6a3f38e2193f1404ea3f7c5d64,
  0xbf81e4a4bcd523b33c8b6523bf376c8bbca305533f3282413f607c853f00ff97,
  0xbf81a9193d8c81d43c8b6523bf37381d3d4b923a3f325aee3f607c853f053f7d,
  0xbf81e4a43cf531dbbf054b5abf365fd93cb9f55abf338ef33f48ce703f0381d8,
  0xbf81a919bd84816fbf054b5abf35dcc6bd4bfb16bf33bcd33f48ce703efe83e4,
  0xbf80fd6dbdf67e413c8b6523bf361e4fbdb18fc53f3288ce3f6083123ef97f63,
  0xbf7fbd06be3908a2bf054b5abf33dd98be0779a7bf32fec53f48db8c3ef41206,
  0xbf7de95bbe5afd113c8b6523bf3346dcbe1d97f63f326e983f60902e3ef119ce,
  0xbf76ad2ebea2e48fbf054b49bf2dcc64be657a78bf32f8383f48ef353ee7ae14,
  0xbf77a659be9c280b3c8b6d87bf2ee632be5eb8523f3275253f609d493ee8e8a7,
  0xbf6f3483bec99daa3c8b673cbf28d4febe8fc5053f3282413f60b0f23ee0ded3,
  0xbf6b1e08bedbd3a2bf054b38bf25119dbe9a36e3bf33d70a3f490ff93edda512,
  0xbf64adbcbef543f23c8b75eabf2126e9beb055323f324dd33f60cb293ed930be,
  0xbf5fc16abf034e87bf054b6abf1c7e28beb9999abf3418933f492a303ed61e4f,
  0xbf548701bf14d7063c8b6b6ebf163f14bed652bd3f3168733f60f9093ecff972,
  0xbf526c2bbf1791f7bf054b6abf12eb1cbed7c1bebf33c3613f494af53ecef34d,
  0xbf3f96e1bf2ebcc7bf054b5abf063f14bef94af5bf32d0e53f497f633ec6cf42,
  0xbf3d830ebf30f6ad3c8b5ed9bf067382befd8adb3f3126e93f6134053ec60aa6,
  0xbf2523a3bf47acc5bf054b6abee816f0bf0de69bbf32b0213f2f3b643f1fa440,
  0xbf3d830ebf30f6ad3c8b5ed9bf067382befd8adb3f3126e93f4710cb3f2295ea,
  0xbf3f96e1bf2ebcc7bf054b5abf063f14bef94af5bf32d0e53f2fb15b3f228241,
  0xbf22c461bf4997703c8b6fa0bee6a7f0bf106f693f31205c3f4694463f1f4f0e,
  0xbf07738ebf5ca88fbf054b49bebf06f7bf1c432dbf32de013f2e9e1b3f1a9931,
  0xbf04d940bf5e36a03c8b60f2bebcfaadbf1e91003f3161e53f45f6fd3f1a36e3,
  0xbed878d9bf6ae3e7bf054b6abe971759bf261e4fbf3388663f2e2eb23f15f06f,
  0xbed48c50bf6bc5693c8b6d87be950b0fbf2831273f3205bc3f458e223f15aee6,
  0xbea0d691bf75c0a9bf054b49be5f3b64bf2e353fbf3318fc3f2de00d3f11205c,
  0xbe9b0985bf76aa4c3c8b6523be59999abf302de03f3196533f4538ef3f10b780,
  0xbe4a708fbf7d47aebf054b49be0ded29bf330be1bf3381d83f2d9e843f0bfb16,
  0xbe420b80bf7dadb83c8b673cbe087fccbf348e8a3f323a2a3f44fdf43f0bac71,
  0xbdd526d9bf8062febf054b5abd8d1b71bf367a10bf32a9933f2d844d3f07ced9,
  0xbdc41edebf807ca63c8b673cbd82de01bf36e9793f325aee3f44e3bd3f078034,
  0x3c4a9260bf810b85bf054b5a3c7765febf3872b0bf31758e3f2d77323f0295ea,
  0xba9a671fbf81015c3c8b673c3b1d4952bf3793de3f32680a3f44d6a13f03404f,
  0x3dbf44d4bf8062f63c8b65233d954c98bf36bb993f3254613f44dd2f3efe00d2,
  0x3e1d8666bf7ee610bf054b5a3de83e42bf358106bf322d0e3f2d844d3ef86c22,
  0x3e59218abf7c11d33c8b65233e1e353fbf33f1413f31bda53f44f7663ef34d6a,
  0x3e8ab64abf7824e6bf054b5a3e44816fbf2f62b7bf33eab33f2db22d3eedc5d6,
  0x3ea5f916bf73dc483c8b6b6e3e6d7732bf2dcc643f325aee3f4532613ee91d15,
  0x3eb8b4c0bf706d50bf054b6a3e83d70abf29999abf3412063f2de69b3ee5a1cb,
  0x3ed2ef2cbf6ae6433c8b56753e97b4a2bf2717593f3282413f456d5d3ee11340,
  0x3ee50614bf6696f6bf054b5a3ea44d01bf228f5cbf33e4263f2e28243eddb22d,
  0x3efe1c37bf5fda733c8b5ed93eb63886bf1f41f23f3288ce3f45bc023ed95810,
  0x3f0c6983bf57cd57bf054b5a3eca0903bf189a02bf3305533f2e91003ed46dc6,
  0x3f137d20bf52d9383c8b5aa73ed3b646bf15fd8b3f32680a3f4617c23ed205bc,
  0x3f29528fbf41cc53bf054b493ef0a3d7bf09eeccbf32f8383f2f2e493ec9fbe7,
  0x3f26a726bf43f77b3c8b673c3eee7d56bf0ba5e33f32617c3f46809d3ecb0f28,
  0x3f384f7fbf335a863c8b56753f03d07dbeff62b73f327bb33f46f6943ec49ba6,
  0x3f3f1d1dbf2c1217bf054b493f072474bef41f21bf33eab33f2fb15b3ec32ca5,
  0x3f485597bf2134373c8b56753f0f34d7bee5a1cb3f3275253f6a7efa3f7c8b44,
  0x3f384f7fbf335a863c8b56753f03d07dbeff62b73f327bb33f6ac0833f7f1aa0,
  0x3f3f1d1dbf2c1217bf054b493f072474bef41f21bf33eab33f5326183f7e76c9,
  0x3f4e68a1bf195044bf054b8c3f124dd3bed78d50bf34538f3f52d0e53f7b295f,
  0x3f5698bbbf0d94083c8b673c3f19374cbec9ad433f3295ea3f6a30553f791d15,
  0x3f5edacbbf006291bf054b493f1ed289beb66cf4bf32de013f527bb33f76c8b4,
  0x3f62f07cbef182ed3c8b69553f221965beabedfa3f3282413f69e83e3f7573eb,
  0x3f6c7464bec9a0cfbf054b383f275f70be903afbbf33c9ef3f522d0e3f71f213,
  0x3f6d4b06bec5b1213c8b5ed93f297f63be8d288d3f32680a3f69b3d03f719ce0,
  0x3f74e8fbbe9c2b30bf054b5a3f2d70a4be5d97f6bf33f7cf3f51ff2e3f6dfa44,
  0x3f758d04be981c713c8b6d873f2fb7e9be56d5d03f323a2a3f6985f03f6d9e84,
  0x3f7b2f45be5abef0bf054b5a3f3212d7be19652cbf33e4263f51de6a3f69db23,
  0x3f7d0108be38e0443c8b65233f358106be0346dc3f3182aa3f695e9e3f685f07,
  0x3f7ff983bdc9eeccbf054b5a3f361134bd8bac71bf3318fc3f51c4333f64af4f,
  0x3f80856ebd216e7a3c8b673c3f386c22bcf1a9fc3f3168733f6944673f620c4a,
  0x3f8085663d3178b3bf054b5a3f36e9793cef34d7bf32f1aa3f51bda53f5e4f76,
  0x3f7ff9943dd1f2563c8b673c3f37a7873d930be13f3168733f694af53f5bac71,
  0x3f7d01083e3ce39bbf054b5a3f3418933e044d01bf32eb1c3f51d14e3f57fcb9,
  0x3f79d2bf3e784cf03c8b65233f33404f3e2cd9e83f3196533f696bba3f556042,
  0x3f73f1b73ea4d467bf054b5a3f2dc5d63e6809d5bf32d0e53f5205bc3f51d14e,
  0x3f70f3dc3eb5158c3c8b673c3f2c5d643e7e76c93f3240b83f69a0273f50624e,
  0x3f6606753ee808eabf054b493f23f7cf3ea3fe5dbf32b0213f5254613f4be76d,
  0x3f6773e23ee1ae4f3c8b673c3f2566cf3e9f559b3f326e983f69d4953f4c779a,
  0x3f5be7d13f0629413c8b71b93f1d0e563ebda5123f3288ce3f6a0f913f48b439,
  0x3f538b593f135222bf054b6a3f16a1623ecf7660bf331f8a3f52b6ae3f466cf4,
  0x3f4e6a233f1a4a7b3c8b6d873f131f8a3edc01a33f324dd33f6a5e353f452bd4,
  0x3f3cde8f3f2fb635bf054b5a3f06c8b43ef85f07bf32bd3c3f532ca53f41d14e,
  0x3f3acdd13f31edc03c8b673c3f063f143efd07c83f3182aa3f6ab3683f41b08a,
  0x3f226ff83f48a3e8bf054b493ee91d153f0d42c4bf32de013f37ef9e3f7a786c,
  0x3f3acdd13f31edc03c8b673c3f063f143efd07c83f3182aa3f4fd8ae3f7e2196,
  0x3f3cde8f3f2fb635bf054b5a3f06c8b43ef85f07bf32bd3c3f38793e3f7e76c9,
  0x3f2506683f4658e63c8b56753eece7043f0cd9e83f31f8a13f4f69443f7ae148,
  0x3f0c67383f58d0143c8b73d23ec9374c3f1aacda3f31758e3f4eecc03f766666,
  0x3f096c723f5a962dbf054b383ec4dd2f3f19652cbf33c9ef3f3773193f75f6fd,
  0x3ee8d0463f669f6bbf054b493ea631f93f21ff2ebf33f7cf3f3724743f722d0e,
  0x3ed9593e3f6a8c483c8b630b3e9e76c93f269ad43f317c1c3f4e76c93f70b0f2,
  0x3ebcb0c03f70a394bf054b5a3e86a7f03f29096cbf3418933f36e2eb3f6e3bcd,
  0x3ea1e42e3f758eb93c8b630b3e6c3c9f3f2de69b3f325aee3f4e2eb23f6bc6a8,
  0x3e8ee4193f788cf8bf054b5a3e4adaba3f2eecc0bf33e4263f36ae7d3f6a29c7,
  0x3e668e3f3f7c31383c8b673c3e27bb303f329c783f3288ce3f4e00d23f67a0f9,
  0x3e29856a3f7f674dbf054b5a3df972473f34c2f8bf328f5c3f36872b3f650481,
  0x3e0739f33f804dfd3c8b673c3dc1205c3f3617c23f324dd33f4de69b3f636e2f,
  0x3d3d102c3f8156b8bf054b5a3d1a02753f379a6bbf321ff33f3673823f5f9db2,
  0x3c4b4aed3f818b9c3c8b673c3c2f4f0e3f3872b03f3182aa3f4dd97f3f5e075f,
  0xbd9048173f814bf9bf054b5abd3fb15b3f37dbf5bf31bda53f367a103f5a64c3,
  0xbe04801f3f8096573c8b673cbdb5a8583f3731903f3161e53f4ded293f57ae14,
  0xbe420ea63f7eadf7bf054b5abe05f06f3f3346dcbf33a92a3f3694463f55119d,
  0xbe899aa63f7a30443c8b673cbe3d70a43f323a2a3f318fc53f4e28243f517c1c,
  0xbe9b0e3d3f77aa26bf054b5abe57f62b3f2e9e1bbf33404f3f36cf423f500d1b,
  0xbec22ad43f70a45d3c8b6d87be8872b03f2ab3683f3226813f4e69ad3f4c985f,
  0xbed4892b3f6cc5dabf054b38be939c0f3f26c227bf33a92a3f371de73f4b15b5,
  0xbef9e7753f63b1e23c8b673cbeafd2203f21f2133f31b7173f4ecbfb3f47d567,
  0xbf04dad33f5f3711bf054b5abeba29c73f1d5cfbbf3333333f3780343f468db9,
  0xbf1643783f53d5023c8b673cbed412063f1638863f3219653f4f41f23f437b4a,
  0xbf1e44e93f4df3c7bf054b6abedbf4883f1147aebf33d07d3f37fcb93f42339c,
  0xbf2e60d43f40bff43c8b630bbef694463f09096c3f31a36e3f4fcb923f3f6fd2,
  0xbf30d8233f3e55d2bf054b49bef758e23f05a1cbbf33f1413f3872b03f3f1412,
  0xbf41d8953f2d1288bf054b8cbf0816f03ef295eabf33bcd33f4978d53f206f69,
  0xbf2e60d43f40bff43c8b630bbef694463f09096c3f31a36e3f6141203f2295ea,
  0xbf30d8233f3e55d2bf054b49bef758e23f05a1cbbf33f1413f49930c3f2295ea,
  0xbf43415b3f2b7b293c8b6d87bf0978d53ef3eab33f323a2a3f61205c3f202752,
  0xbf54894c3f15d51bbf054b5abf1559b43ed33333bf3318fc3f494af53f1c56d6,
  0xbf526c2b3f1893fb3c8b75eabf145a1d3ed82a993f3275253f60f9093f1ce076,
  0xbf5fc2ec3f044bd33c8b673cbf1dd97f3ebb22d13f3282413f60d8453f195183,
  0xbf64ac2a3ef747d8bf054b5abf1fd2203eaf0069bf33d07d3f491d153f17ced9,
  0xbf6b1f8a3eddce3a3c8b71b9bf2666663e9b7e913f3254613f60be0e3f1594af,
  0xbf6f354c3ecba1b2bf054b49bf27ced93e8db8bbbf33dd983f4902de3f13fe5d,
  0xbf76acfb3ea4e3de3c8b6523bf2f27bb3e6786c23f3182aa3f609d493f1096bc,
  0xbf796c403e936d44bf054b5abf2fb15b3e4c2f83bf330be13f48e8a73f0f0d84,
  0xbf7fbd383e3d07423c8b673cbf353f7d3e0865953f3189373f6089a03f0a71de,
  0xbf809d953e18fa7bbf054b5abf34f0d83ddaee63bf3305533f48d4fe3f08db8c,
  0xbd84a383bf784817bf0516873f13f7cfbf13f141bf137b4a3f0d5cfb3d4d9e84,
  0xbe34f82fbf784439bebdde7a3e33eab33f36ae7d3f2d9e843f08793e3d9c0ebf,
  0xbe38d9f9bf783a86bf0535113cfd21ff3be21965bf7fdf3b3f08793e3d4e703b,
  0xbd84a383bf784817bebdde7a3f13c361bf13d70a3f13c9ef3f0d5cfb3d9ba5e3,
  0xbe59df553f5cc2f8bebe67d7bf61d7dcbea068dc3eb3f7cf3f7d91683eb5c28f,
  0xbe59dc2fbf5b8bf0bebe67d7bf5fec573e9e425b3ebf212d3f7d91683d597f63,
  0xbe59dc2fbf766d26bebe23293e15b5743f3226813f33fe5d3f7d97f63d0e2196,
  0xbe59e83e3f7780aabebe1b8f3e1ce076bf32ca583f32f8383f7d97f63ebf2e49,
  0xbe59dc2fbf533d08bee0a71ebf26594bbf02a9933f10346e3f7ab3683d71a9fc,
  0xbe59dd3cbf5b83cfbee1fd7abf08db8c3f3851ec3ee28f5c3f7a85883d59e83e,
  0xbe59dc2fbf4b1f25bec52c38bf74af4fbad1b7173e967a103f7cfaad3d83e426,
  0xbe59dc2fbf31dd7fbec52c38bf74b5dd3a51b7173e966cf43f7cfaad3da75254,
  0xbe59dc2fbf3a4074bee13ab4bf263886bf045a1d3f0ec56d3f7a99313d9b7176,
  0xbe59dc72bf42a759bee15cc8bf266cf43f0487fd3f0e5c923f7a99313d8fc505,
  0xbe59dc2fbf57825ebee485e4bf249518bd4361133f43b6463f7a57a83d648e8a,
  0xbe59dc2fbf402646bee3e5dabf2972473e3d3c363f39fbe73f7a57a83d93404f,
  0xbe59dc72bf3d1959bee41398bf281062be26e9793f3c8b443f7a511a3d96f007,
  0xbe59dc2fbf212ae9bee1b0abbf23a29cbef958103f1858793f7a92a33dbe76c9,
  0xbe59dc72bf29d8d8bee06402bf29ce073f0d4fdf3f015b573f7aacda3db2617c,
  0xbe59dc2fbf189b95bec52c38bf74816fb951b7173e97b4a23f7cfaad3dcac083,
  0xbe59dc2fbefeb357bec52c38bf747ae13951b7173e97e9103f7cfaad3dee2eb2,
  0xbe59dc2fbecc300abec52c38bf746dc6000000003e981d7e3f7cfaad3e08e8a7,
  0xbe59dc2fbedd1defbee157efbf2624ddbf03fe5d3f0f34d73f7a92a33e02de01,
  0xbe59dc2fbeeddca5bee1461bbf26809d3f04f7663f0de00d3f7aa64c3df9a6b5,
  0xbe59dc2fbf27ea2dbee32767bf29ba5e3e986c223f2fd8ae3f7a6b513db53f7d,
  0xbe59dc2fbf24e810bee45953bf271759bd61b08a3f41758e3f7a511a3db8ef35,
  0xbe59dc2fbf07da30bee16766bf257a78bf01d14e3f11f8a13f7a92a33de21965,
  0xbe59dc2fbf102870bee1539cbf26594b3f04816f3f0e83e43f7a99313dd6a162,
  0xbe59dc72bf0d9daabee3e5b8bf2a57a83e4b78033f3837b53f7a57a83dda1cac,
  0xbe59dc2fbf0b0271bee44370bf280347be084b5e3f3e21963f7a511a3dddcc64,
  0xbe59dc2fbee8bf1abee3e682bf28e2193e3a92a33f3aa64c3f7a57a83dfd8adb,
  0xbe59dc72bee27aa7bee3ff04bf2872b0be29e1b13f3c08313f7a511a3e00b780,
  0xbe59dc2fbeaab0eabee16c1ebf2652bdbf0412063f0eecc03f7a9fbe3e14c986,
  0xbe59dc2fbebb43b7bee15747bf2666663f04a8c13f0e4f763f7a99313e0ed917,
  0xbe59dc2fbe99ac36bec52c38bf746dc6800000003e9844d03f7cfaad3e1a9fbe,
  0xbe59dc2fbe4e51d2bec52c38bf7495183a9d49523e9724743f7cfaad3e2c56d6,
  0xbe59dc2fbdd29457bec52c38bf747454800000003e981d7e3f7cfaad3e3e0ded,
  0xbe59dc2fbe0b1e9fbee1552ebf26594bbf0495183f0e69ad3f7a92a33e381d7e,
  0xbe59dc2fbe2e0f80bee07a07bf29c0ec3f0d0e563f01b7173f7aacda3e31f8a1,
  0xbe59dc72beb632c2bee3eb18bf2886593e339c0f3f3b645a3f7a57a83e10e560,
  0xbe59dc2fbeafabb9bee3e964bf28c7e3be3141203f3b50b13f7a57a83e12d773,
  0xbe59dc2fbe7055b9bee16830bf25f06fbf0339c13f102de03f7a92a33e264c30,
  0xbe59dc2fbe88b157bee1611cbf2652bd3f045a1d3f0eb1c43f7a92a33e20aa65,
  0xbe59dc72be83b060bee3e63fbf2972473e3e28243f39e83e3f7a57a83e224dd3,
  0xbe59dc2fbe7b86f4bee418d7bf2851ecbe1eecc03f3cbfb13f7a511a3e2425af,
  0xbe59dc2fbe268ba0bee324eabf2b645a3ea219653f2c01a33f7a6b513e334d6a,
  0xbe59dc2fbe154930bee3e985bf2a9931be5134053f3793de3f7a57a83e365fd9,
  0xbe59dc2fbe1e10cfbee44977bf2b8bac3d872b023f3d42c43f7a511a3e34d6a1,
  0xbe59dc2fbd191ddebee16830bf260aa6bf038ef33f0fb7e93f7a92a33e49ba5e,
  0xbe59dc2fbd8ee286bee155b4bf26872b3f04f0d83f0de00d3f7a99313e43fe5d,
  0xbe59dc2fbb8858ffbec52c38bf7460aab9d1b7173e9893753f7cfaad3e4fdf3b,
  0xbe59dc72bd76e504bee3d72cbf2923a33e409d493f3a09033f7a57a83e45d639,
  0xbe59dc2fbd441bb9bee40789bf283e42be22b6ae3f3c9eed3f7a511a3e47ae14,
  0xbe59dc2f3d7ab863bee16f87bf26bb99bf0532613f0d6a163f7a92a33e5b8bac,
  0xbe59dc2f3cf16b12bee19b6fbf25d6393f02b6ae3f10be0e3f7a92a33e560419,
  0xbe59dc2f3dc1882bbec52c38bf746738b8d1b7173e985f073f7cfaad3e619653,
  0xbe59dc2f3e45cbbcbec52c38bf74a234bac49ba63e96f0073f7cfaad3e734d6a,
  0xbe59dc2f3e95692bbec52c38bf74a2343a83126f3e96c8b43f7cfaad3e828241,
  0xbe59dc2f3e847e4abee15a08bf2617c2bf03f1413f0f4f0e3f7a92a33e7ef9db,
  0xbe59dc2f3e67e4debee16bbabf26f0073f0587943f0cd9e83f7a92a33e795810,
  0xbe59dc2f3d584e40bee3b03ebf293dd9be460aa63f39930c3f7a57a83e59ce07,
  0xbe59dc723d20663cbee3f551bf284b5e3e1b3d083f3cf41f3f7a511a3e5844d0,
  0xbe59dc2f3e25ae1dbee06877bf2a57a8bf0e5c923eff06f73f7ab9f53e6dfa44,
  0xbe59dc2f3e02f09ebee17482bf26594b3f041f213f0edfa43f7a92a33e67a0f9,
  0xbe59dc2f3e1edf1ebee2f556bf2b923abeac08313f29652c3f7a7efa3e6cf41f,
  0xbe59dc2f3e0cabc5bee3e660bf2a8c153e4d35a83f37e2823f7a57a83e694467,
  0xbe59dc2f3e163fddbee446b7bf2adababda64c303f3d7dbf3f7a511a3e6b1c43,
  0xbe59dc723e701d9fbee39baabf2978d53e4ded293f38d4fe3f7a57a83e7afb7f,
  0xbe59dc723e7e4c51bee3fca8bf2793debe1bf4883f3d8adb3f7a511a3e7cd35b,
  0xbe59dc2f3eb6d331bee19503bf228241bef2e48f3f1c22683f7a92a33e885879,
  0xbe59dc2f3ea5946cbee08312bf29ba5e3f0cf41f3f01d7dc3f7aacda3e855326,
  0xbe59dc2f3ec7ecffbec52c38bf746dc6b951b7173e9844d03f7cfaad3e8b6ae8,
  0xbe59dc2f3efa704cbec52c38bf746738ba03126f3e9844d03f7cfaad3e944674,
  0xbe59dc2f3f167a10bec52c38bf7487fd39d1b7173e978d503f7cfaad3e9d21ff,
  0xbe59dc2f3f0dfeebbee16180bf26b50bbf05460b3f0d5cfb3f7a92a33e9a1cac,
  0xbe59dc2f3f05d3edbee19dedbf25c28f3f028f5c3f10f9093f7a92a33e9758e2,
  0xbe59dc2f3ea94c23bee324eabf2b367a3ea0902e3f2c8b443f7a6b513e85fd8b,
  0xbe59dc723eadc076bee44decbf26cf42bc59e83e3f4226813f7a511a3e86e979,
  0xbe59dc2f3ee9847fbee15960bf2617c2bf03eab33f0f5c293f7a92a33e914120,
  0xbe59dc723ed8fbcabee16e16bf265fd93f042c3d3f0ecbfb3f7a92a33e8e6320,
  0xbe59dc723edde6debee3e5dabf2923a33e3717593f3a9fbe3f7a57a83e8f34d7,
  0xbe59dc723ee4241cbee3ff47bf28793ebe292a303f3c0ebf3f7a511a3e902de0,
  0xbe59dc2f3f0bc090bee3ba77bf29374cbe44d0143f39ad433f7a57a83e993dd9,
  0xbe59dc723f085565bee3f8babf287fcc3e1aee633f3ccccd3f7a511a3e98793e,
  0xbe59dc2f3f2754f3bee14552bf2617c2bf040b783f0f34d73f7a92a33ea30553,
  0xbe59dc2f3f1ed8f5bee12dbabf269ad43f0560423f0d5cfb3f7a99313ea01a37,
  0xbe59dc2f3f2fbbf9bec52c38bf747ae1ba3780343e97e9103f7cfaad3ea5fd8b,
  0xbe59dc2f3f48fda0bec52c38bf746dc6ba3780343e982a993f7cfaad3eaee632,
  0xbe59dc2f3f5c8c2ebed8eae2bf15f6fdbf4a85883e34538f3f7b4a233eb5c28f,
  0xbe59dc723f51bbbfbee20b1cbf222d0e3eeebee03f1e0ded3f7a8c153eb205bc,
  0xbe59dc723f59ea68bee13a71bf25e9e2befe83e43f13afb83f7a99313eb4c986,
  0xbe59dc723f562047bee465c7bf255326bd43c9ef3f43126f3f7a511a3eb35a86,
  0xbe59dc2f3f217764bee3e921bf28f5c33e40d1b73f3a29c73f7a57a83ea0f909,
  0xbe59dc2f3f247e39bee40faabf286c22be25460b3f3c50483f7a511a3ea1e4f7,
  0xbe59dc2f3f408fc9bee14e7fbf23d07dbefb22d13f1773193f7a92a33eabe0df,
  0xbe59dc723f385cbcbee1b0eebf23f1413efa92a33f1786c23f7aa64c3ea8e8a7,
  0xbe59dc2f3f3c2e02bee484f9bf2346dc3aebedfa3f452bd43f7a57a83eaa3d71,
  0xbe34202e3f794717bebdde7a3e310cb3bf36594b3f2e21963f70346e3ec2c3ca,
  0xbe34f82fbf784439bebdde7a3e33eab33f36ae7d3f2d9e843f7041893f38bac7,
  0xbe1784a9bf4e605fbebdde7abf0b573fbe6fec573f4e353f3f6ee6323f315b57,
  0xbe59e83e3f7780aabebe1b8f3e1ce076bf32ca583f32f8383f71d7dc3ec36113,
  0xbe59dc2fbf766d26bebe23293e15b5743f3226813f33fe5d3f71d7dc3f386c22,
  0xbe06ee74bf52467cbebdde7abe3020c5bf0d013b3f5113403f6e425b3f320c4a,
  0xbdeaf577bf51a3a1bebdde7a3e9b15b5bf044d013f4cfaad3f6d91683f31e4f7,
  0xbd84a383bf784817bebdde7a3f13c361bf13d70a3f13c9ef3f6b50b13f38c155,
  0xbdceca68bf4d0721bebdde7a3f166666be4a71de3f48e2193f6cf41f3f31205c,
  0xbd84a3833f794856bebdde7a3f13afb83f140b783f13afb83f6b50b13ec2b6ae,
  0xbdce789e3f558330bebdde7a3f1c01a33e31c4333f460aa63f6cf41f3ecf4f0e,
  0xbddeb7cc3f58c8efbebdde7a3ee1a36e3eee3bcd3f44816f3f6d42c43ece2eb2,
  0xbe00f7fd3f5b2c95bebdde7a3cb5dcc63f12c3ca3f51a9fc3f6e075f3ecd7732,
  0xbe0ee8083f599e95bebdde7abed34d6a3ef4a2343f46809d3f6e978d3ecded29,
  0xbe1854043f55e58ebebdde7abf1bd3c33e31f8a13f4631f93f6ef9db3ecf34d7,
  0xbdce789e3f558330bebdde7a3f1c01a33e31c4333f460aa63e2eb1c43be56042,
  0xbdcde1a0bf4c0208be8e1ed63f7bf488bdebedfa3e09eecc3e3edfa43e961e4f,
  0xbdceca68bf4d0721bebdde7a3f166666be4a71de3f48e2193e2ecbfb3e96872b,
  0xbdce0c9e3f54aa54be8dc8fc3f7ba5e33e0710cb3e02f8383e3ef9db3bf9096c,
  0xbdd367a1bf4e29fabe8bd61f3f68bac7becab3683e0504813e3fcb923e96e2eb,
  0xbdeaf577bf51a3a1bebdde7a3e9b15b5bf044d013f4cfaad3e2ee6323e977319,
  0xbddb2703bf4f823dbe8952f43f4a233abf0fc5053e7d21ff3e40d1b73e9765fe,
  0xbdef8d71bf51b78dbe886c873ee075f7bf6096bc3e47fcb93f263f143d8f5c29,
  0xbdeaf577bf51a3a1bebdde7a3e9b15b5bf044d013f4cfaad3f2645a23d5566cf,
  0xbddb2703bf4f823dbe8952f43f4a233abf0fc5053e7d21ff3f269ad43d8e8a72,
  0xbe05703fbf525beabe8759cdbde28241bf79c0ec3e425aee3f25a8583d8ff972,
  0xbe06ee74bf52467cbebdde7abe3020c5bf0d013b3f5113403f2594af3d54fdf4,
  0xbe135504bf4fd167be86df83bf5adababec1f2133eb573eb3f253f7d3d926e98,
  0xbe1784a9bf4e605fbebdde7abf0b573fbe6fec573f4e353f3f252bd43d55cfab,
  0xbe0cd1c8bf514ea0be83aa15befcb924bf1b645a3f1f6fd23f2559b43d92d773,
  0xbe18387ebf4d0a78be8c19e3bf7978d5be1652bd3e2e147b3f77c84b3dab6ae8,
  0xbe1784a9bf4e605fbebdde7abf0b573fbe6fec573f4e353f3f7395813da9fbe7,
  0xbe135504bf4fd167be86df83bf5adababec1f2133eb573eb3f7844d03da7ef9e,
  0xbe1833403f55a416be8c0f24bf7930be3e1b573f3e2f9db23f779a6b3ebdf3b6,
  0xbe1854043f55e58ebebdde7abf1bd3c33e31f8a13f4631f93f7395813ebe00d2,
  0xbe1353723f586ab1be86eb92bf5be76d3ebd07c83eb5a8583f7837b53ebedfa4,
  0xbe0cf8d73f59e56dbe83bf94bf00aa653f1cb2963f1c432d3f788ce73eb566cf,
  0xbe05c1833f57f141be81abd2be3780343e1f3b643f78adac3e79db233e971759,
  0xbe0cd1c8bf514ea0be83aa15befcb924bf1b645a3f1f6fd23e78a0903b656042,
  0xbe053719bf4f5b2dbe81adebbe0a233abe449ba63f78db8c3e79db233b9d4952,
  0xbe0cf8d73f59e56dbe83bf94bf00aa653f1cb2963f1c432d3e78a0903e97ced9,
  0xbe0cd1c8bf514ea0be83aa15befcb924bf1b645a3f1f6fd23f788ce73df58e22,
  0xbdfd75e2bf515593be841a053e7089a0bf3553263f2a6b513f25f06f3d926e98,
  0xbdfd75e2bf515593be841a053e7089a0bf3553263f2a6b513e7b15b53b7f9724,
  0xbe0ee8083f599e95bebdde7abed34d6a3ef4a2343f46809d3f7395813ebef9db,
  0xbe0cf8d73f59e56dbe83bf94bf00aa653f1cb2963f1c432d3f0041893d94af4f,
  0xbe0ee8083f599e95bebdde7abed34d6a3ef4a2343f46809d3f004ea53d591687,
  0xbe1353723f586ab1be86eb92bf5be76d3ebd07c83eb5a8583f005bc03d93dd98,
  0xbe0551d73f5af0d0be879aaebe1eb8523f78a0903e393dd93effd8ae3d919ce0,
  0xbe00f7fd3f5b2c95bebdde7a3cb5dcc63f12c3ca3f51a9fc3eff97243d5844d0,
  0xbe009b743f58f590be828fe23e25460b3f025aee3f586c223e7ac7113e977319,
  0xbdfe72113f5a37efbe84f1803e6a99313f4a3d713f118fc53eff559b3d93a92a,
  0xbe009b743f58f590be828fe23e25460b3f025aee3f586c223eff6fd23d94e3bd,
  0xbdfba4d73f57e521be81fe003e8a161e3e57dbf53f7089a03e7b2fec3e96f007,
  0xbdeb7aa23f58d5d8be84e6e23f0c5d643f0b089a3f22ca583efe76c93d93404f,
  0xbddd25ab3f56c97ebe8682953f43e4263e4fc5053f1c6a7f3e41a36e3bc7e282,
  0xbdda80493f5814a5be89e1f43f4d5cfb3f0d844d3e66cf423e409d493baa64c3,
  0xbdeb7aa23f58d5d8be84e6e23f0c5d643f0b089a3f22ca583e4226813ba0902e,
  0xbdd27a203f5621eabe8a9f173f6d21ff3e74a2343e953f7d3e404ea53bd4fdf4,
  0xbde8e25d3f59c194be88c3b13f0fec573f4c63f13e5d14e43efe69ad3d913405,
  0xbdfcdee33f5ac9f3be87e1543e848e8a3f71f8a13e4bfb163eff3b643d916873,
  0xbdeb7aa23f58d5d8be84e6e23f0c5d643f0b089a3f22ca583e7c6a7f3e9758e2,
  0xbde9563b3f571ef3be83e8363f0b923a3e18793e3f5333333e4275253bb78034,
  0xbde8e25d3f59c194be88c3b13f0fec573f4c63f13e5d14e43e4154ca3b9374bc,
  0xbde9563b3f571ef3be83e8363f0b923a3e18793e3f5333333e7d07c83e96c8b4,
  0xbddeb7cc3f58c8efbebdde7a3ee1a36e3eee3bcd3f44816f3efe00d23d591687,
  0xbdda80493f5814a5be89e1f43f4d5cfb3f0d844d3e66cf423efdf3b63d8fc505,
  0xbddeb7cc3f58c8efbebdde7a3ee1a36e3eee3bcd3f44816f3e2ecbfb3ba3d70a,
  0xbddf30e8bf4e7e31be8608d13f3bc01abe5fbe773f24c9863e41f2133e970a3d,
  0xbde8cd64bf508e69be864d1a3f191687bf1dab9f3f034d6a3e41f2133e979a6b,
  0xbdd4a3c6bf4d5476be894ea03f632ca5be0bc6a83ee16f003e40b7803e96a162,
  0xbde8cd64bf508e69be864d1a3f191687bf1dab9f3f034d6a3f2666663d90ff97,
  0xbdebd988bf4efe50be838eb03f02eb1cbe78ef353f52fec53f2645a23d926e98,
  0xbdfc0768bf4f3b86be81fc093e7381d8be6d0e563f717c1c3e7afb7f3ba0902e,
  0xbdebd988bf4efe50be838eb03f02eb1cbe78ef353f52fec53e7c9eed3ba71de7,
  0xbdef8d71bf51b78dbe886c873ee075f7bf6096bc3e47fcb93e413a933e97ced9,
  0xbdebd988bf4efe50be838eb03f02eb1cbe78ef353f52fec53e428f5c3e978034,
  0xbddf30e8bf4e7e31be8608d13f3bc01abe5fbe773f24c9863e7d70a43bb78034,
  0xbddd25ab3f56c97ebe8682953f43e4263e4fc5053f1c6a7f3e7dbf483e8d0e56,
  0xbd84a3833f794856bf0516873f13a92a3f144674bf1374bc3f71d7dc3ebf2e49,
  0xbd84a383bf784817bebdde7a3f13c361bf13d70a3f13c9ef3f6b50b13d037b4a,
  0xbd84a383bf784817bf0516873f13f7cfbf13f141bf137b4a3f71d7dc3d037b4a,
  0xbd84a3833f794856bebdde7a3f13afb83f140b783f13afb83f6b50b13ebf2e49,
  0xbf5445993ea57775bee069623f3e2eb23ebd97f63f0ec56d3f2a511a3e166cf4,
  0xbe59dc2f3ea5946cbee08312bf29ba5e3f0cf41f3f01d7dc3f2a511a3d5e69ad,
  0xbe59dc2f3ea94c23bee324eabf2b367a3ea0902e3f2c8b443f2a8c153d5e69ad,
  0xbe59dc2f3eb6d331bee19503bf228241bef2e48f3f1c22683f2b9f563d5e69ad,
  0xbf51de8b3eb14c44bee41aef3f1765febea2d0e53f3db22d3f2b15b53e24a8c1,
  0xbe59dc723eadc076bee44decbf26cf42bc59e83e3f4226813f2afb7f3d5e69ad,
  0xbf5386a13ea93bc1bee329c33f2c0ebf3d8e8a723f3cb9243f2a8c153e25e354,
  0xbf50b0d13eb6c6bdbee186983f04b5ddbf29a6b53f0a5e353f2b98c83e240b78,
  0xbf4cb6313ec7ecffbec52c383f56809dbefab9f53e76c8b43f20be0e3e3d70a4,
  0xbe59dc2f3eb6d331bee19503bf228241bef2e48f3f1c22683f234d6a3e935a86,
  0xbe59dc2f3ec7ecffbec52c38bf746dc6b951b7173e9844d03f20cb293e9374bc,
  0xbf50b0d13eb6c6bdbee186983f04b5ddbf29a6b53f0a5e353f2346dc3e3a92a3,
  0xbf48398a3ed9563bbee20dfe3f351eb83e7089a03f2aa64c3eec63f13e3f2e49,
  0xbe59dc2f3ec7ecffbec52c38bf746dc6b951b7173e9844d03ef18fc53e92e48f,
  0xbe59dc723ed8fbcabee16e16bf265fd93f042c3d3f0ecbfb3eec63f13e92ca58,
  0xbf4cb6313ec7ecffbec52c383f56809dbefab9f53e76c8b43ef18fc53e3c5048,
  0xbf45debe3ee1c1b5bee450f03f137b4abe935a863f43d70a3eaab3683cf41f21,
  0xbe59dc723edde6debee3e5dabf2923a33e3717593f3a9fbe3eab78033e032ca5,
  0xbe59dc723ee4241cbee3ff47bf28793ebe292a303f3c0ebf3eaa8c153e032ca5,
  0xbe59dc2f3ee9847fbee15960bf2617c2bf03eab33f0f5c293ea9a0273e032ca5,
  0xbf43a4b53ee962f1bee178b33ef13405bf2d07c83f1119ce3ea9ba5e3cfdf3b6,
  0xbf48398a3ed9563bbee20dfe3f351eb83e7089a03f2aa64c3eabc6a83cea4a8c,
  0xbe59dc723ed8fbcabee16e16bf265fd93f042c3d3f0ecbfb3eac22683e032ca5,
  0xbf3e465a3efa704cbec52c383f42d773bf185f073e8418933f252bd43da9c77a,
  0xbe59dc2f3ee9847fbee15960bf2617c2bf03eab33f0f5c293f27c84b3e33eab3,
  0xbe59dc2f3efa704cbec52c38bf746738ba03126f3e9844d03f2532613e341f21,
  0xbf43a4b53ee962f1bee178b33ef13405bf2d07c83f1119ce3f27b4a23dc36113,
  0xbf38435f3f05e5d2bee1d4743f34c9863e2872b03f3048173f42eb1c3f2573eb,
  0xbe59dc2f3efa704cbec52c38bf746738ba03126f3e9844d03f4560423f3c56d6,
  0xbe59dc2f3f05d3edbee19dedbf25c28f3f028f5c3f10f9093f42e48f3f3c49ba,
  0xbf3e465a3efa704cbec52c383f42d773bf185f073e8418933f4560423f24816f,
  0xbe59dc2f3f0bc090bee3ba77bf29374cbe44d0143f39ad433f3758e23df5f6fd,
  0xbf34e4b83f0a62edbee44e0e3f0a511abeb19ce03f443fe63f3779a73d08ce70,
  0xbe59dc723f085565bee3f8babf287fcc3e1aee633f3ccccd3f37bb303df5c28f,
  0xbf38435f3f05e5d2bee1d4743f34c9863e2872b03f3048173f3831273d00346e,
  0xbe59dc2f3f05d3edbee19dedbf25c28f3f028f5c3f10f9093f3837b53df5f6fd,
  0xbf323ec03f0dc5f8bee1dece3ed88659bf3495183f11a36e3f36f0073d2161e5,
  0xbe59dc2f3f0dfeebbee16180bf26b50bbf05460b3f0d5cfb3f3703b03df5f6fd,
  0xbe59dc2f3f0dfeebbee16180bf26b50bbf05460b3f0d5cfb3f1624dd3e2d42c4,
  0xbe59dc2f3f167a10bec52c38bf7487fd39d1b7173e978d503f138ef33e2d7732,
  0xbf2af2843f1679ccbec52d453f24c986bf35119d3e9581063f1388663db78034,
  0xbf323ec03f0dc5f8bee1dece3ed88659bf3495183f11a36e3f15f06f3dadab9f,
  0xbe59dc2f3f167a10bec52c38bf7487fd39d1b7173e978d503f1a99313e2f0069,
  0xbe59dc2f3f1ed8f5bee12dbabf269ad43f0560423f0d5cfb3f1809d53e2ecbfb,
  0xbf2333b93f1ecd3abee131873f36809d3ddc28f63f3161e53f1810623dd460aa,
  0xbf2af2843f1679ccbec52d453f24c986bf35119d3e9581063f1a99313dba92a3,
  0xbe59dc2f3f217764bee3e921bf28f5c33e40d1b73f3a29c73f43e4263df5f6fd,
  0xbe59dc2f3f247e39bee40faabf286c22be25460b3f3c50483f436e2f3df5f6fd,
  0xbf1f99d43f22617cbee462a23f041893bea45a1d3f4b50b13f43b6463d449ba6,
  0xbe59dc2f3f2754f3bee14552bf2617c2bf040b783f0f34d73f42fec53df5f6fd,
  0xbf1ae5473f26db94bee222923eba92a3bf34e3bd3f1b4a233f42f8383d50e560,
  0xbf2333b93f1ecd3abee131873f36809d3ddc28f63f3161e53f441f213d3c6a7f,
  0xbe59dc2f3f1ed8f5bee12dbabf269ad43f0560423f0d5cfb3f443fe63df5f6fd,
  0xbe59dc2f3f2754f3bee14552bf2617c2bf040b783f0f34d73f3adaba3f3be0df,
  0xbe59dc2f3f2fbbf9bec52c38bf747ae1ba3780343e97e9103f384b5e3f3bfb16,
  0xbf10b5ee3f2fbb73bec52d453f09a027bf4da5123e8339c13f37f62b3f2c28f6,
  0xbf1ae5473f26db94bee222923eba92a3bf34e3bd3f1b4a233f3a99313f2a3d71,
  0xbe59dc2f3f2fbbf9bec52c38bf747ae1ba3780343e97e9103f3cac083df5f6fd,
  0xbe59dc723f385cbcbee1b0eebf23f1413efa92a33f1786c23f3a43fe3df58e22,
  0xbf05845e3f38562ebee1ea363f262b6bbc6075f73f42b6ae3f3a30553d858794,
  0xbf10b5ee3f2fbb73bec52d453f09a027bf4da5123e8339c13f3cac083d6ecbfb,
  0xbefd92da3f3cf68cbee478643ecd35a8bef9f55a3f467a103d6bedfa3ce56042,
  0xbe59dc2f3f408fc9bee14e7fbf23d07dbefb22d13f1773193d6425af3d9eecc0,
  0xbef235b53f409d6bbee12e1f3e8e5604bf4b923a3f09eecc3d6425af3d009d49,
  0xbe59dc2f3f3c2e02bee484f9bf2346dc3aebedfa3f452bd43d6f9db23d9eb852,
  0xbf05845e3f38562ebee1ea363f262b6bbc6075f73f42b6ae3d76fd223cc710cb,
  0xbe59dc723f385cbcbee1b0eebf23f1413efa92a33f1786c23d78a0903d947ae1,
  0xbe59dc2f3f408fc9bee14e7fbf23d07dbefb22d13f1773193f3a233a3f3c154d,
  0xbe59dc2f3f48fda0bec52c38bf746dc6ba3780343e982a993f3793de3f3c2f83,
  0xbed538263f48fe15bec52c9d3eba29c7bf65e9e23e7d3c363f3765fe3f330be1,
  0xbef235b53f409d6bbee12e1f3e8e5604bf4b923a3f09eecc3f39e1b13f315b57,
  0xbed538263f48fe15bec52c9d3eba29c7bf65e9e23e7d3c363ee8b4393d2acd9f,
  0xbe59dc723f51bbbfbee20b1cbf222d0e3eeebee03f1e0ded3ee3bcd33d9e1b09,
  0xbeb04ec63f51971cbee1b4dd3f081d7ebe08e8a73f5617c23ee3d70a3d59e83e,
  0xbe59dc2f3f48fda0bec52c38bf746dc6ba3780343e982a993ee8b4393d9e83e4,
  0xbe59dc723f562047bee465c7bf255326bd43c9ef3f43126f3ef6872b3d95182b,
  0xbe59dc723f59ea68bee13a71bf25e9e2befe83e43f13afb83ef559b43d95182b,
  0xbe83d8e03f598256bee2274a3e32fec5bf4978d53f1779a73ef54c983d83e426,
  0xbe9db74a3f553251bee458683e8ca57abf074bc73f4da5123ef6ae7d3d65c91d,
  0xbe59dc723f51bbbfbee20b1cbf222d0e3eeebee03f1e0ded3ef7b4a23d95182b,
  0xbeb04ec63f51971cbee1b4dd3f081d7ebe08e8a73f5617c23ef7ced93d6e6320,
  0xbe83d8e03f598256bee2274a3e32fec5bf4978d53f1779a73f3972473f3a43fe,
  0xbe59dc723f59ea68bee13a71bf25e9e2befe83e43f13afb83f39652c3f3c49ba,
  0xbe59dc2f3f5c8c2ebed8eae2bf15f6fdbf4a85883e34538f3f38adac3f3c5048,
  0xbf627d9a3dc1882bbec52c383f6a786cbba0902e3ecd844d3d45d6393e93d07d,
  0xbe59dc2f3d7ab863bee16f87bf26bb99bf0532613f0d6a163d1c779a3e2f0069,
  0xbe59dc2f3dc1882bbec52c38bf746738b8d1b7173e985f073d45d6393e2ee632,
  0xbf633d5c3d7878b8bee1cb8a3f1f6944bf034d6a3f1745393d1f559b3e941f21,
  0xbf6172263e027d03bee155503f2f4f0e3ee666663f12bd3c3d94af4f3e3020c5,
  0xbe59dc2f3dc1882bbec52c38bf746738b8d1b7173e985f073da95e9e3e941f21,
  0xbe59dc2f3e02f09ebee17482bf26594b3f041f213f0edfa43d94af4f3e941206,
  0xbf627d9a3dc1882bbec52c383f6a786cbba0902e3ecd844d3da95e9e3e2f9db2,
  0xbe59dc2f3e25ae1dbee06877bf2a57a8bf0e5c923eff06f73f2205bc3e2f4f0e,
  0xbf60068e3e2547e0bee098f63f1d4952bf1edfa43ef9652c3f2212d73d706f69,
  0xbf6058cd3e1e071cbee324203f2432cabecf0d843f26e2eb3f2240b83d70068e,
  0xbf610df13e0ce358bee3ee803f2dbf483de1e4f73f39e1b13f22f1aa3d6dfa44,
  0xbe59dc2f3e0cabc5bee3e660bf2a8c153e4d35a83f37e2823f2305533e334d6a,
  0xbf60b4183e15ad54bee449773f295810be2944673f3b43963f2295ea3d6f34d7,
  0xbe59dc2f3e02f09ebee17482bf26594b3f041f213f0edfa43f235a863e334d6a,
  0xbf6172263e027d03bee155503f2f4f0e3ee666663f12bd3c3f2346dc3d6d288d,
  0xbe59dc2f3e1edf1ebee2f556bf2b923abeac08313f29652c3f221ff33e333333,
  0xbe59dc2f3e163fddbee446b7bf2adababda64c303f3d7dbf3f228f5c3e334d6a,
  0xbf5e61173e45cbbcbec52c383f685879be86594b3ea7d5673dda85883e327bb3,
  0xbe59dc2f3e25ae1dbee06877bf2a57a8bf0e5c923eff06f73dee63203e9404ea,
  0xbe59dc2f3e45cbbcbec52c38bf74a234bac49ba63e96f0073ddab9f53e941f21,
  0xbf60068e3e2547e0bee098f63f1d4952bf1edfa43ef9652c3deecbfb3e3126e9,
  0xbf5c48493e68826bbee20a523f3119ce3eb851ec3f203afb3f065fd93e324745,
  0xbe59dc2f3e45cbbcbec52c38bf74a234bac49ba63e96f0073f08f5c33e9374bc,
  0xbe59dc2f3e67e4debee16bbabf26f0073f0587943f0cd9e83f065fd93e935a86,
  0xbf5e61173e45cbbcbec52c383f685879be86594b3ea7d5673f08f5c33e310cb3,
  0xbe59dc723e7e4c51bee3fca8bf2793debe1bf4883f3d8adb3d985f073e2872b0,
  0xbf5b49173e7719f8bee459da3f215b57be0f0d843f437b4a3d98fc503d52f1aa,
  0xbe59dc723e701d9fbee39baabf2978d53e4ded293f38d4fe3d9c0ebf3e2872b0,
  0xbe59dc2f3e847e4abee15a08bf2617c2bf03f1413f0f4f0e3d94af4f3e2872b0,
  0xbf59ff713e84610fbee170723f0e6320bf16c8b43f1617c23d94e3bd3d55cfab,
  0xbf5c48493e68826bbee20a523f3119ce3eb851ec3f203afb3d9d49523d50e560,
  0xbe59dc2f3e67e4debee16bbabf26f0073f0587943f0cd9e83d9eb8523e2872b0,
  0xbf573a043e95692bbec52c383f6460aabebcfaad3e856d5d3f0f1aa03e361134,
  0xbe59dc2f3e847e4abee15a08bf2617c2bf03f1413f0f4f0e3f11b7173e935a86,
  0xbe59dc2f3e95692bbec52c38bf74a2343a83126f3e96c8b43f0f212d3e9374bc,
  0xbf59ff713e84610fbee170723f0e6320bf16c8b43f1617c23f11a9fc3e3404ea,
  0xbf5445993ea57775bee069623f3e2eb23ebd97f63f0ec56d3f18240b3e380347,
  0xbe59dc2f3e95692bbec52c38bf74a2343a83126f3e96c8b43f1a99313e9374bc,
  0xbe59dc2f3ea5946cbee08312bf29ba5e3f0cf41f3f01d7dc3f1816f03e935a86,
  0xbf573a043e95692bbec52c383f6460aabebcfaad3e856d5d3f1a99313e361134,
  0xbe59dc2fbb8858ffbec52c38bf7460aab9d1b7173e9893753c6219653e2eb1c4,
  0xbf638499bd17353bbee1333c3f2a161ebf001a373f0e21963b7f97243e941f21,
  0xbe59dc2fbd191ddebee16830bf260aa6bf038ef33f0fb7e93b79096c3e2ecbfb,
  0xbf63ba88bb8858ffbec52c383f75c91d3d5f3b643e8c7e283c6219653e941f21,
  0xbe59dc2f3d584e40bee3b03ebf293dd9be460aa63f39930c3f2ac0833e9374bc,
  0xbf6370483d4195cdbee44da93f253261bd4d35a83f431f8a3f2aee633e2d7732,
  0xbe59dc723d20663cbee3f551bf284b5e3e1b3d083f3cf41f3f2b1c433e9367a1,
  0xbf63a15e3cf166e0bee1ac583f2587943ee8c1553f1cd35b3f2b9f563e37e910,
  0xbe59dc2f3cf16b12bee19b6fbf25d6393f02b6ae3f10be0e3f2b9f563e9374bc,
  0xbf633d5c3d7878b8bee1cb8a3f1f6944bf034d6a3f1745393f2a5e353e343958,
  0xbe59dc2f3d7ab863bee16f87bf26bb99bf0532613f0d6a163f2a64c33e9374bc,
  0xbf63a15e3cf166e0bee1ac583f2587943ee8c1553f1cd35b3caf4f0e3e2e978d,
  0xbe59dc2fbb8858ffbec52c38bf7460aab9d1b7173e9893753cfdf3b63e941f21,
  0xbe59dc2f3cf16b12bee19b6fbf25d6393f02b6ae3f10be0e3cadab9f3e941206,
  0xbf63ba88bb8858ffbec52c383f75c91d3d5f3b643e8c7e283cfdf3b63e2eb1c4,
  0xbe80d9f9bf58f302bee43b923e542c3d3f29652c3f38793e3f3fe5c93f2a4a8c,
  0xbe59dc2fbf5b8bf0bebe67d7bf5fec573e9e425b3ebf212d3f3cac083f28793e,
  0xbe59dd3cbf5b83cfbee1fd7abf08db8c3f3851ec3ee28f5c3f3faace3f287fcc,
  0xbe96dd48bf559525bebe67b63e6ab3683f281d7e3f37e9103f3cc63f3f2c2f83,
  0xbe9a9a80bf54c176bee30fae3ebdb22d3e9e69ad3f60346e3f3fdf3b3f2c63f1,
  0xbea81733bf524e05bede1d003f10aa653df86c223f50ebee3f3f7cee3f2dbf48,
  0xbecbe5fbbf4a5f31bebe683c3e9de69b3f1fa4403f37e2823f3cfaad3f30ebee,
  0xbec8c0f0bf4b1e3abec52ce03e9f97243f6a36e33e8361133f3d8adb3f30a3d7,
  0xbee5ee13bf434df0bedfe1da3e85d6393f59eecc3ee8e8a73f3fdf3b3f334d6a,
  0xbef3c819bf3f313cbebe67943ebde69b3f1793de3f3724743f3d35a83f34816f,
  0xbeef151ebf4092bcbee3b2dd3ea5bc023f2bedfa3f2a9fbe3f4048173f3404ea,
  0xbef72eaebf3e08c0bee44d443edab9f53ed82a993f4cac083f406f693f34e3bd,
  0xbf0180c3bf3a237dbee124d13f27a7873c1d49523f416f003f40346e3f35e9e2,
  0xbf0b6d55bf330058bebe683c3ed958103f0d013b3f37f62b3f3d77323f37ae14,
  0xbf0ccc25bf31dca5bec52dcb3f0395813f4fbe773e8e48e93f3e147b3f37f62b,
  0xbf1679eebf29d28dbee070113eb10cb33f4fa4403ef18fc53f4083123f39c0ec,
  0xbf1c49fdbf24a2cbbebe67d73ef439583f02ca583f3710cb3f3dcc643f3ac083,
  0xbf1963aabf273b54bee3d5563edd70a43f065fd93f3bac713f40e5603f3a57a8,
  0xbf1ed4b2bf222175bee2d1073f18adac3e0275253f4ae1483f40f27c3f3b367a,
  0xbf20c72abf2041bcbedf8e5c3f40068ebe0af4f13f25aee63f40b7803f3b9f56,
  0xbf285be2bf185272bebe67d73f0467383ef2617c3f36872b3e4e8a723da6809d,
  0xbf1c49fdbf24a2cbbebe67d73ef439583f02ca583f3710cb3e4f27bb3d9b3d08,
  0xbf20c72abf2041bcbedf8e5c3f40068ebe0af4f13f25aee63e5566cf3da0f909,
  0xbf2818d7bf189b95bec52c383f2318fc3f3803473e8e7d563e50cb293da617c2,
  0xbf2f77e2bf103526bee14df93ed374bc3f37dbf53f0f5c293e59b3d03db2617c,
  0xbf33368bbf0ba57fbebe67943f0cb9243edd70a43f36f6943e4d9e843db851ec,
  0xbf329fe0bf0c4a73bee451fc3f048e8a3edcd35b3f3d288d3e5a85883db71759,
  0xbf343a75bf0a3eafbee3dd123f1e4f763e0fdf3b3f45f06f3e5a1cac3dbafb7f,
  0xbf366e44bf075d14bee069a53f3de00dbe4ff9723f23a29c3e58e2193dbe0ded,
  0xbf3c2bb6befeb357bec52c383f3da5123f1f27bb3e8226813e4f27bb3dc985f0,
  0xbf40e2e3bef0904fbebe67f93f17a7873ebe5c923f36f6943e4c63f13dd38ef3,
  0xbf41727abeee939fbee079c43eef90973f3eb8523ef367a13e57c1be3dd49518,
  0xbf42e211bee9e625bee3a3013f06c8b43f0467383f2cbfb13e58e2193dd8adac,
  0xbf446834bee4cab4bee44e513f1bcd363e526e983f4432ca3e58fc503ddc5d64,
  0xbf4694abbedd438dbee182883f388659be765fd93f2666663e57a7873de147ae,
  0xbf4b5c7dbecbe985bebe683c3f1e425b3ea147ae3f3858793e4b923a3ded5cfb,
  0xbf4b25e5becc300abec52c383f4fbe773ef9db233ea48e8a3e4dd2f23ded288d,
  0xbf4f400cbebb358fbee16f223f035a863f264c303f0f9db23e5724743df97247,
  0xbf524745bead52e3bebe67d73f25d6393e8ae7d53f363f143e4af4f13e016f00,
  0xbf50dc23beb3fb37bee44e513f18e2193e9f48803f3d42c43e57f62b3dfe2824,
  0xbf51f04ebeaef588bee3b9d03f2b923abcbedfa43f3de69b3e578d503e010625,
  0xbf530457bea9c38bbee074a73f3c8b44beb318fc3f1439583e566cf43e02a993,
  0xbf565450be9879c4bebe67d73f291d153e73d07d3f3645a23e4a8c153e08b439,
  0xbf561cdebe99ac36bec52c383f60a3d73ec3fe5d3e93d07d3e4ce7043e084b5e,
  0xbf590225be88bcbebee1656f3f0d77323f1b3d083f12680a3e5652bd3e0e703b,
  0xbf59dc40be8340d5bebe67d73f2c01a33e50ff973f363f143e4a3d713e102de0,
  0xbf5a353fbe80f473bee450f03f201a373e7c36113f3d91683e5724743e10cb29,
  0xbf5ace68be79ca5cbee3d9ec3f2dc5d6bd7212d73f3b645a3e56d5d03e12d773,
  0xbf5b83bebe6fcdeebee12bc33f368db9beca30553f144d013e55cfab3e144674,
  0xbf5e38ebbe46bca5bebe683c3f2d91683e1ce0763f3809d53e49eecc3e1b7176,
  0xbf5da976be4e51d2bec52c383f60c49cbd0ef34d3ef47ae13e4c49ba3e1a0275,
  0xbf5f6a51be2e13b2bee078b83f1b089a3f21ff2e3ef717593e5532613e1f8a09,
  0xbf5fc17bbe2704bcbee30ced3f2212d73ed6fd223f2673823e561e4f3e20aa65,
  0xbf6029bfbe1e392ebee44a1f3f28b4393e3765fe3f3b020c3e56a1623e221965,
  0xbf6086e0be15e397bee402083f2dcc64bdbcd35b3f3a786c3e56a1623e238866,
  0xbf622153bddaa68fbebe683c3f307c853db0f27c3f381d7e3e49a0273e2b1c43,
  0xbf60f57fbe0b70acbee17c3d3f304817bee083123f13d70a3e559b3d3e25aee6,
  0xbf622318bdd29457bec52c383f6e147b3e21e4f73ea9d4953e4be0df3e2bd3c3,
  0xbf62fe93bd8ea316bee171c13f1fb7e93f06809d3f1418933e5566cf3e31c433,
  0xbf637543bd2adc4dbebe67d73f337b4a3d11d14e3f3652bd3e4985f03e36c8b4,
  0xbf634246bd629b6bbee44fa03f27ef9e3e0e075f3f3ded293e566cf43e34538f,
  0xbf63633dbd407896bee3e5973f2c49babe38d4fe3f37a0f93e5638863e361134,
  0xbf638499bd17353bbee1333c3f2a161ebf001a373f0e21963e5532613e37b4a2,
  0xbf63bbc73b004103bebe67d73f339c0fbb5844d03f366cf43e4985f03e3eab36,
  0xbf63ba88bb8858ffbec52c383f75c91d3d5f3b643e8c7e283e4bc6a83e3d8adb,
  0xbf63a15e3cf166e0bee1ac583f2587943ee8c1553f1cd35b3e554c983e437b4a,
  0xbf62e2543db864cbbebe67d73f2ec56dbd9168733f3a30553e49a0273e4e703b,
  0xbf6370483d4195cdbee44da93f253261bd4d35a83f431f8a3e566cf43e46a7f0,
  0xbf633d5c3d7878b8bee1cb8a3f1f6944bf034d6a3f1745393e554c983e495183,
  0xbf627d9a3dc1882bbec52c383f6a786cbba0902e3ecd844d3e4be0df3e4f41f2,
  0xbf6172263e027d03bee155503f2f4f0e3ee666663f12bd3c3e559b3d3e5566cf,
  0xbf610df13e0ce358bee3ee803f2dbf483de1e4f73f39e1b13e56a1623e5758e2,
  0xbf60b4183e15ad54bee449773f295810be2944673f3b43963e56a1623e58adac,
  0xbf6058cd3e1e071cbee324203f2432cabecf0d843f26e2eb3e5652bd3e5a1cac,
  0xbf5e4c943e49652cbebe683c3f2d9168be19b3d03f3837b53e4a09033e619653,
  0xbf60068e3e2547e0bee098f63f1d4952bf1edfa43ef9652c3e5566cf3e5b573f,
  0xbf5e61173e45cbbcbec52c383f685879be86594b3ea7d5673e4c49ba3e60f909,
  0xbf5c48493e68826bbee20a523f3119ce3eb851ec3f203afb3e561e4f3e67381d,
  0xbf5b49173e7719f8bee459da3f215b57be0f0d843f437b4a3e5724743e6a3055,
  0xbf59dc403e854153bebe67d73f2bedfabe519ce03f364c303e4a57a83e6d0e56,
  0xbf59ff713e84610fbee170723f0e6320bf16c8b43f1617c23e5638863e6cbfb1,
  0xbf573a043e95692bbec52c383f6460aabebcfaad3e856d5d3e4ce7043e72ca58,
  0xbf5251c23eaf7597bebe67513f2538efbe8a57a83f36e9793e4b0f283e7bcd36,
  0xbf5445993ea57775bee069623f3e2eb23ebd97f63f0ec56d3e5638863e7837b5,
  0xbf5386a13ea93bc1bee329c33f2c0ebf3d8e8a723f3cb9243e5773193e79c0ec,
  0xbf51de8b3eb14c44bee41aef3f1765febea2d0e53f3db22d3e57f62b3e7be76d,
  0xbf50b0d13eb6c6bdbee186983f04b5ddbf29a6b53f0a5e353e5724743e7e5c92,
  0xbf4cb6313ec7ecffbec52c383f56809dbefab9f53e76c8b43e4dd2f23e8240b8,
  0xbf45fea83ee185f0bebe67733f1b923abeb182aa3f36e2eb3e4c2f833e86b50b,
  0xbf48398a3ed9563bbee20dfe3f351eb83e7089a03f2aa64c3e57dbf53e856042,
  0xbf45debe3ee1c1b5bee450f03f137b4abe935a863f43d70a3e5916873e86cf42,
  0xbf43a4b53ee962f1bee178b33ef13405bf2d07c83f1119ce3e5810623e88240b,
  0xbf3e465a3efa704cbec52c383f42d773bf185f073e8418933e4f27bb3e8b1c43,
  0xbf393b8e3f049fc7bebe67733f112d77bed1c4333f36f0073e4d4fdf3e8dab9f,
  0xbf38435f3f05e5d2bee1d4743f34c9863e2872b03f3048173e5916873e8e2196,
  0xbf34e4b83f0a62edbee44e0e3f0a511abeb19ce03f443fe63e5a85883e8fb7e9,
  0xbf323ec03f0dc5f8bee1dece3ed88659bf3495183f11a36e3e59999a3e90ff97,
  0xbf2c8fda3f14bec6bebe681b3f067382bee985f03f37e9103e4e56043e934d6a,
  0xbf2af2843f1679ccbec52d453f24c986bf35119d3e9581063e50cb293e93f7cf,
  0xbf2333b93f1ecd3abee131873f36809d3ddc28f63f3161e53e59ce073e966cf4,
  0xbf1d6b443f2489c2bebe67f93ef6e2ebbf01a9fc3f36fd223e4f5c293e97ced9,
  0xbf1f99d43f22617cbee462a23f041893bea45a1d3f4b50b13f3aee633f295e9e,
  0xbf1d6b443f2489c2bebe67f93ef6e2ebbf01a9fc3f36fd223f37ae143f29db23,
  0xbf2333b93f1ecd3abee131873f36809d3ddc28f63f3161e53f3ac0833f28c7e3,
  0xbf0b65883f3403efbebe67b63ed8793ebf0ded293f3780343f374bc73f2d21ff,
  0xbf05845e3f38562ebee1ea363f262b6bbc6075f73f42b6ae3f3a1cac3f2e1b09,
  0xbefd92da3f3cf68cbee478643ecd35a8bef9f55a3f467a103f3a43fe3f2f5c29,
  0xbef335f43f405708bebe67d73ebe4f76bf1773193f3724743f3703b03f305bc0,
  0xbef235b53f409d6bbee12e1f3e8e5604bf4b923a3f09eecc3f39fbe73f304817,
  0xbecbd9883f4b6135bebe67b63e9bcd36bf2020c53f37e9103f36c2273f33e426,
  0xbeb04ec63f51971cbee1b4dd3f081d7ebe08e8a73f5617c23f398c7e3f363f14,
  0xbea32d2c3f543d36bebe67f93e7b4a23bf273eab3f3758e23f3694463f3786c2,
  0xbe9db74a3f553251bee458683e8ca57abf074bc73f4da5123f39c77a3f380347,
  0xbe59df553f5cc2f8bebe67d7bf61d7dcbea068dc3eb3f7cf3f366cf43f3c56d6,
  0xbe59dc2fbf57825ebee485e4bf249518bd4361133f43b6463f6731903f3ad42c,
  0xbe59dc2fbf533d08bee0a71ebf26594bbf02a9933f10346e3f67dbf53f3b9f56,
  0xbe9a9a80bf54c176bee30fae3ebdb22d3e9e69ad3f60346e3f679a6b3f3ed917,
  0xbe80d9f9bf58f302bee43b923e542c3d3f29652c3f38793e3f66f6943f3c91d1,
  0xbe59dd3cbf5b83cfbee1fd7abf08db8c3f3851ec3ee28f5c3f66872b3f3ad42c,
  0xbe59dc2fbf533d08bee0a71ebf26594bbf02a9933f10346e3f1c8b443d398c7e,
  0xbea81733bf524e05bede1d003f10aa653df86c223f50ebee3f1cac083d85bc02,
  0xbe9a9a80bf54c176bee30fae3ebdb22d3e9e69ad3f60346e3f1c5d643d816f00,
  0xbe59dc2fbf4b1f25bec52c38bf74af4fbad1b7173e967a103f1ef9db3d3851ec,
  0xbec8c0f0bf4b1e3abec52ce03e9f97243f6a36e33e8361133f1ef9db3d9c779a,
  0xbe59dc72bf42a759bee15cc8bf266cf43f0487fd3f0e5c923f4041893f28b439,
  0xbe59dc2fbf4b1f25bec52c38bf74af4fbad1b7173e967a103f3db22d3f289a02,
  0xbef72eaebf3e08c0bee44d443edab9f53ed82a993f4cac083f145a1d3d96872b,
  0xbe59dc72bf3d1959bee41398bf281062be26e9793f3c8b443f1474543cd5cfab,
  0xbf0180c3bf3a237dbee124d13f27a7873c1d49523f416f003f14dd2f3d9d14e4,
  0xbe59dc2fbf402646bee3e5dabf2972473e3d3c363f39fbe73f13fe5d3cd5cfab,
  0xbeef151ebf4092bcbee3b2dd3ea5bc023f2bedfa3f2a9fbe3f13d70a3d90cb29,
  0xbee5ee13bf434df0bedfe1da3e85d6393f59eecc3ee8e8a73f1381d83d8b7803,
  0xbe59dc72bf42a759bee15cc8bf266cf43f0487fd3f0e5c923f13a92a3cd5cfab,
  0xbe59dc2fbf3a4074bee13ab4bf263886bf045a1d3f0ec56d3f14e3bd3cd5cfab,
  0xbf0180c3bf3a237dbee124d13f27a7873c1d49523f416f003f3e8a723de703b0,
  0xbe59dc2fbf31dd7fbec52c38bf74b5dd3a51b7173e966cf43f4113403d797247,
  0xbf0ccc25bf31dca5bec52dcb3f0395813f4fbe773e8e48e93f4113403df5f6fd,
  0xbe59dc2fbf3a4074bee13ab4bf263886bf045a1d3f0ec56d3f3e83e43d7a43fe,
  0xbe59dc72bf29d8d8bee06402bf29ce073f0d4fdf3f015b573f40ded33f28e8a7,
  0xbe59dc2fbf31dd7fbec52c38bf74b5dd3a51b7173e966cf43f3e63203f28ce70,
  0xbf1963aabf273b54bee3d5563edd70a43f065fd93f3bac713dbafb7f3dc36113,
  0xbe59dc2fbf24e810bee45953bf271759bd61b08a3f41758e3dbd70a43ce147ae,
  0xbf1ed4b2bf222175bee2d1073f18adac3e0275253f4ae1483dc0ebee3dcaf4f1,
  0xbe59dc2fbf212ae9bee1b0abbf23a29cbef958103f1858793dc1bda53ce147ae,
  0xbe59dc2fbf27ea2dbee32767bf29ba5e3e986c223f2fd8ae3db9c0ec3ce147ae,
  0xbe59dc2fbf212ae9bee1b0abbf23a29cbef958103f1858793cac08313dafb7e9,
  0xbf20c72abf2041bcbedf8e5c3f40068ebe0af4f13f25aee63caf4f0e3e22680a,
  0xbf1ed4b2bf222175bee2d1073f18adac3e0275253f4ae1483ca8c1553e12f1aa,
  0xbf1679eebf29d28dbee070113eb10cb33f4fa4403ef18fc53db74bc73dbfe5c9,
  0xbe59dc72bf29d8d8bee06402bf29ce073f0d4fdf3f015b573db81d7e3ce147ae,
  0xbe59dc2fbf189b95bec52c38bf74816fb951b7173e97b4a23cfd21ff3daf837b,
  0xbf2818d7bf189b95bec52c383f2318fc3f3803473e8e7d563cfd21ff3e2786c2,
  0xbe59dc2fbf189b95bec52c38bf74816fb951b7173e97b4a23f0ab9f53daa3055,
  0xbe59dc2fbf102870bee1539cbf26594b3f04816f3f0e83e43f0d49523daa9931,
  0xbf2f77e2bf103526bee14df93ed374bc3f37dbf53f0f5c293f0d42c43e2a161e,
  0xbf2818d7bf189b95bec52c383f2318fc3f3803473e8e7d563f0ab3683e24dd2f,
  0xbf2f77e2bf103526bee14df93ed374bc3f37dbf53f0f5c293f54b5dd3ded288d,
  0xbe59dc2fbf102870bee1539cbf26594b3f04816f3f0e83e43f54a8c13d04b5dd,
  0xbe59dc72bf0d9daabee3e5b8bf2a57a83e4b78033f3837b53f5504813d04b5dd,
  0xbf329fe0bf0c4a73bee451fc3f048e8a3edcd35b3f3d288d3f552bd43df0d845,
  0xbe59dc2fbf0b0271bee44370bf280347be084b5e3f3e21963f557a783d04b5dd,
  0xbf343a75bf0a3eafbee3dd123f1e4f763e0fdf3b3f45f06f3f55a1cb3df318fc,
  0xbe59dc2fbf07da30bee16766bf257a78bf01d14e3f11f8a13f55e9e23d04b5dd,
  0xbf366e44bf075d14bee069a53f3de00dbe4ff9723f23a29c3f55f06f3df5c28f,
  0xbe59dc2fbefeb357bec52c38bf747ae13951b7173e97e9103ee8b4393daca57a,
  0xbf366e44bf075d14bee069a53f3de00dbe4ff9723f23a29c3ee3afb83e305532,
  0xbe59dc2fbf07da30bee16766bf257a78bf01d14e3f11f8a13ee395813dad0e56,
  0xbf3c2bb6befeb357bec52c383f3da5123f1f27bb3e8226813ee8b4393e341f21,
  0xbe59dc2fbeeddca5bee1461bbf26809d3f04f7663f0de00d3ecde00d3da36e2f,
  0xbf3c2bb6befeb357bec52c383f3da5123f1f27bb3e8226813ec8e8a73e2f4f0e,
  0xbe59dc2fbefeb357bec52c38bf747ae13951b7173e97e9103ec902de3da30553,
  0xbf41727abeee939fbee079c43eef90973f3eb8523ef367a13ecde00d3e333333,
  0xbf42e211bee9e625bee3a3013f06c8b43f0467383f2cbfb13f49096c3df10cb3,
  0xbe59dc2fbee8bf1abee3e682bf28e2193e3a92a33f3aa64c3f490ff93caf4f0e,
  0xbf446834bee4cab4bee44e513f1bcd363e526e983f4432ca3f497f633df318fc,
  0xbe59dc2fbeeddca5bee1461bbf26809d3f04f7663f0de00d3f48b4393cbc6a7f,
  0xbf41727abeee939fbee079c43eef90973f3eb8523ef367a13f48adac3dd63886,
  0xbe59dc72bee27aa7bee3ff04bf2872b0be29e1b13f3c08313f4985f03caf4f0e,
  0xbe59dc2fbedd1defbee157efbf2624ddbf03fe5d3f0f34d73f49fbe73caf4f0e,
  0xbf4694abbedd438dbee182883f388659be765fd93f2666663f49eecc3df58e22,
  0xbe59dc2fbecc300abec52c38bf746dc6000000003e981d7e3f019ce03e3d70a4,
  0xbf4694abbedd438dbee182883f388659be765fd93f2666663efe28243e8816f0,
  0xbe59dc2fbedd1defbee157efbf2624ddbf03fe5d3f0f34d73efe0ded3e3da512,
  0xbf4b25e5becc300abec52c383f4fbe773ef9db233ea48e8a3f019ce03e92e48f,
  0xbe59dc2fbebb43b7bee15747bf2666663f04a8c13f0e4f763ec5460b3e3a786c,
  0xbf4b25e5becc300abec52c383f4fbe773ef9db233ea48e8a3ec01a373e914e3c,
  0xbe59dc2fbecc300abec52c38bf746dc6000000003e981d7e3ec0346e3e3a43fe,
  0xbf4f400cbebb358fbee16f223f035a863f264c303f0f9db23ec5460b3e92ca58,
  0xbe59dc2fbeafabb9bee3e964bf28c7e3be3141203f3b50b13f72d7733f7f1aa0,
  0xbf50dc23beb3fb37bee44e513f18e2193e9f48803f3d42c43f732ca53f6404ea,
  0xbe59dc72beb632c2bee3eb18bf2886593e339c0f3f3b645a3f734d6a3f7f1aa0,
  0xbf4f400cbebb358fbee16f223f035a863f264c303f0f9db23f73a29c3f643958,
  0xbe59dc2fbebb43b7bee15747bf2666663f04a8c13f0e4f763f73bcd33f7f1aa0,
  0xbf530457bea9c38bbee074a73f3c8b44beb318fc3f1439583f726e983f63afb8,
  0xbf51f04ebeaef588bee3b9d03f2b923abcbedfa43f3de69b3f72b0213f63d07d,
  0xbe59dc2fbeaab0eabee16c1ebf2652bdbf0412063f0eecc03f726e983f7d0e56,
  0xbe59dc2fbe99ac36bec52c38bf746dc6800000003e9844d03f1f00693e36e2eb,
  0xbf530457bea9c38bbee074a73f3c8b44beb318fc3f1439583f1c7e283e926e98,
  0xbe59dc2fbeaab0eabee16c1ebf2652bdbf0412063f0eecc03f1c91d13e36fd22,
  0xbf561cdebe99ac36bec52c383f60a3d73ec3fe5d3e93d07d3f1f00693e9374bc,
  0xbe59dc2fbe88b157bee1611cbf2652bd3f045a1d3f0eb1c43f161e4f3e34bc6a,
  0xbf561cdebe99ac36bec52c383f60a3d73ec3fe5d3e93d07d3f1381d83e924745,
  0xbe59dc2fbe99ac36bec52c38bf746dc6800000003e9844d03f138ef33e3487fd,
  0xbf590225be88bcbebee1656f3f0d77323f1b3d083f12680a3f1617c23e935a86,
  0xbf5a353fbe80f473bee450f03f201a373e7c36113f3d91683d2786c23d52f1aa,
  0xbe59dc72be83b060bee3e63fbf2972473e3e28243f39e83e3d2acd9f3e27bb30,
  0xbe59dc2fbe7b86f4bee418d7bf2851ecbe1eecc03f3cbfb13d236e2f3e27bb30,
  0xbf590225be88bcbebee1656f3f0d77323f1b3d083f12680a3d2ee6323d55cfab,
  0xbe59dc2fbe7055b9bee16830bf25f06fbf0339c13f102de03d1c779a3e27bb30,
  0xbf5b83bebe6fcdeebee12bc33f368db9beca30553f144d013d1ba5e33d5013a9,
  0xbf5ace68be79ca5cbee3d9ec3f2dc5d6bd7212d73f3b645a3d1fbe773d514e3c,
  0xbe59dc2fbe88b157bee1611cbf2652bd3f045a1d3f0eb1c43d3020c53e27bb30,
  0xbe59dc2fbe4e51d2bec52c38bf7495183a9d49523e9724743f0d5cfb3e318fc5,
  0xbf5b83bebe6fcdeebee12bc33f368db9beca30553f144d013f0acd9f3e92bd3c,
  0xbe59dc2fbe7055b9bee16830bf25f06fbf0339c13f102de03f0ac7113e31c433,
  0xbf5da976be4e51d2bec52c383f60c49cbd0ef34d3ef47ae13f0d5cfb3e9374bc,
  0xbe59dc2fbe2e0f80bee07a07bf29c0ec3f0d0e563f01b7173e0902de3e31a9fc,
  0xbf5da976be4e51d2bec52c383f60c49cbd0ef34d3ef47ae13dfdbf483e935a86,
  0xbe59dc2fbe4e51d2bec52c38bf7495183a9d49523e9724743dfe28243e31758e,
  0xbf5f6a51be2e13b2bee078b83f1b089a3f21ff2e3ef717593e08ce703e941206,
  0xbf5f6a51be2e13b2bee078b83f1b089a3f21ff2e3ef717593ec56d5d3d97c1be,
  0xbe59dc2fbe2e0f80bee07a07bf29c0ec3f0d0e563f01b7173ec56d5d3e3318fc,
  0xbe59dc2fbe268ba0bee324eabf2b645a3ea219653f2c01a33ec504813e3318fc,
  0xbe59dc2fbe1e10cfbee44977bf2b8bac3d872b023f3d42c43ec43fe63e333333,
  0xbf6029bfbe1e392ebee44a1f3f28b4393e3765fe3f3b020c3ec474543d70068e,
  0xbe59dc2fbe154930bee3e985bf2a9931be5134053f3793de3ec37b4a3e333333,
  0xbf6086e0be15e397bee402083f2dcc64bdbcd35b3f3a786c3ec3bcd33d6f34d7,
  0xbe59dc2fbe0b1e9fbee1552ebf26594bbf0495183f0e69ad3ec2d0e53e3318fc,
  0xbf60f57fbe0b70acbee17c3d3f304817bee083123f13d70a3ec2eb1c3d6dfa44,
  0xbf5fc17bbe2704bcbee30ced3f2212d73ed6fd223f2673823ec51eb83d714120,
  0xbe59dc2fbdd29457bec52c38bf747454800000003e981d7e3dcc985f3e2fd220,
  0xbf60f57fbe0b70acbee17c3d3f304817bee083123f13d70a3db81d7e3e93d07d,
  0xbe59dc2fbe0b1e9fbee1552ebf26594bbf0495183f0e69ad3db81d7e3e30068e,
  0xbf622318bdd29457bec52c383f6e147b3e21e4f73ea9d4953dcc985f3e941f21,
  0xbe59dc2fbd8ee286bee155b4bf26872b3f04f0d83f0de00d3d6353f83e941206,
  0xbf622318bdd29457bec52c383f6e147b3e21e4f73ea9d4953d8624dd3e2fd220,
  0xbe59dc2fbdd29457bec52c38bf747454800000003e981d7e3d8624dd3e941f21,
  0xbf62fe93bd8ea316bee171c13f1fb7e93f06809d3f1418933d63bcd33e2f1aa0,
  0xbf634246bd629b6bbee44fa03f27ef9e3e0e075f3f3ded293ed34d6a3d6978d5,
  0xbe59dc2fbd441bb9bee40789bf283e42be22b6ae3f3c9eed3ed2ca583e33b646,
  0xbf63633dbd407896bee3e5973f2c49babe38d4fe3f37a0f93ed26e983d690ff9,
  0xbe59dc72bd76e504bee3d72cbf2923a33e409d493f3a09033ed3b6463e33b646,
  0xbf62fe93bd8ea316bee171c13f1fb7e93f06809d3f1418933ed4538f3d69e1b1,
  0xbe59dc2fbd191ddebee16830bf260aa6bf038ef33f0fb7e93ed1eb853e33b646,
  0xbf638499bd17353bbee1333c3f2a161ebf001a373f0e21963ed1de6a3d68a71e,
  0xbe59dc2fbd8ee286bee155b4bf26872b3f04f0d83f0de00d3ed46dc63e33b646,
  0xbe59dc2fbf5b8bf0bebe67d7bf5fec573e9e425b3ebf212d3e0ce7043ea1205c,
  0xbe8e60e5bf724ca5bebe67b63e4b43963f300d1b3f32ca583e016f003e9930be,
  0xbe59dc2fbf766d26bebe23293e15b5743f3226813f33fe5d3e0ce7043e97b4a2,
  0xbe96dd48bf559525bebe67b63e6ab3683f281d7e3f37e9103dfd21ff3ea353f8,
  0xbebb4784bf6aaf04bebe67d73e88ce703f2ab3683f3219653de3f1413e9bda51,
  0xbecbe5fbbf4a5f31bebe683c3e9de69b3f1fa4403f37e2823dd8793e3ea7381d,
  0xbefb5b2dbf5bc32fbebe67d73eb844d03f20d8453f30902e3db81d7e3ea147ae,
  0xbef3c819bf3f313cbebe67943ebde69b3f1793de3f3724743dbd07c83eab1c43,
  0xbf0b6d55bf330058bebe683c3ed958103f0d013b3f37f62b3da4dd2f3eaf6944,
  0xbf24a106bf40aa54bebe67d73eee63203f0e0ded3f307c853d82a9933eaac083,
  0xbf1c49fdbf24a2cbbebe67d73ef439583f02ca583f3710cb3d8db8bb3eb46dc6,
  0xbf285be2bf185272bebe67d73f0467383ef2617c3f36872b3d79db233eb8bac7,
  0xbf33368bbf0ba57fbebe67943f0cb9243edd70a43f36f6943d5c5d643ebd3c36,
  0xbf41f2febf23355dbebe67b63f0c56d63ef048173f313a933d3439583eb4fdf4,
  0xbf40e2e3bef0904fbebe67f93f17a7873ebe5c923f36f6943d36ae7d3ec3fe5d,
  0xbf57060cbf0689cabebe67b63f1c84b63ec43fe63f313a933cf41f213ebf1412,
  0xbf4b5c7dbecbe985bebe683c3f1e425b3ea147ae3f3858793d1a02753eca71de,
  0xbf524745bead52e3bebe67d73f25d6393e8ae7d53f363f143d06594b3ecfd220,
  0xbf6a62aabec3b18ebebe67d73f2ac7113e902de03f30902e3c8b43963ecbfb16,
  0xbf565450be9879c4bebe67d73f291d153e73d07d3f3645a23cf694463ed374bc,
  0xbf59dc40be8340d5bebe67d73f2c01a33e50ff973f363f143ce2eb1c3ed73190,
  0xbf5e38ebbe46bca5bebe683c3f2d91683e1ce0763f3809d53ccbfb163edcd35b,
  0xbf773094be69435bbebe67d73f3381d83e2e978d3f313a933c06594b3ed9ce07,
  0xbf622153bddaa68fbebe683c3f307c853db0f27c3f381d7e3cb5dcc63ee4a8c1,
  0xbf7d03a7bdb99b2cbebe67d73f37f62b3d85bc023f313a933b8ce7043ee617c2,
  0xbf637543bd2adc4dbebe67d73f337b4a3d11d14e3f3652bd3cadab9f3eea7efa,
  0xbf63bbc73b004103bebe67d73f339c0fbb5844d03f366cf43cac08313eee703b,
  0xbf7da9fc3d925bb8bebe67d73f38c7e3bd47e2823f30be0e3b86594b3ef4a234,
  0xbf62e2543db864cbbebe67d73f2ec56dbd9168733f3a30553cb367a13ef652bd,
  0xbf78663c3e55d5f5bebe67d73f341893be1758e23f31f2133bebedfa3f008312,
  0xbf70996b3ea43116bebe67d73f2e6320be6de00d3f31bda53c4e703b3f058106,
  0xbf5e4c943e49652cbebe683c3f2d9168be19b3d03f3837b53ccb295f3effe5c9,
  0xbf59dc403e854153bebe67d73f2bedfabe519ce03f364c303ce2eb1c3f02d0e5,
  0xbf654de83edaf039bebe67f93f25aee6be9fcb923f320c4a3ca4a8c13f0a57a8,
  0xbf5251c23eaf7597bebe67513f2538efbe8a57a83f36e9793d06c2273f06809d,
  0xbf53ec463f0ca07fbebe67b63f19ba5ebece48e93f30d1b73d037b4a3f0fbe77,
  0xbf45fea83ee185f0bebe67733f1b923abeb182aa3f36e2eb3d2858793f0ae7d5,
  0xbf393b8e3f049fc7bebe67733f112d77bed1c4333f36f0073d4b923a3f0e6320,
  0xbf3a12f93f2d0b85bebe67b63f071759befc779a3f310cb33d4985f03f1573eb,
  0xbf2c8fda3f14bec6bebe681b3f067382bee985f03f37e9103d6e63203f113a93,
  0xbf1b62523f491d36bebe67d73ee2680abf128f5c3f30be0e3d8f5c293f1a57a8,
  0xbf1d6b443f2489c2bebe67f93ef6e2ebbf01a9fc3f36fd223d8c154d3f13fe5d,
  0xbf0b65883f3403efbebe67b63ed8793ebf0ded293f3780343da4dd2f3f16b50b,
  0xbefb72823f5c6a3cbebe67d73eb758e2bf1f69443f3219653db7b4a23f1dcc64,
  0xbef335f43f405708bebe67d73ebe4f76bf1773193f3724743dbd70a43f18e219,
  0xbed11c2a3f671a3bbebe67f93e95dcc6bf2780343f3282413dd4fdf43f1fb15b,
  0xbecbd9883f4b6135bebe67b63e9bcd36bf2020c53f37e9103dd8793e3f1acd9f,
  0xbea505f33f6fbfc6bebe67d73e67d567bf2e48e93f3254613df34d6a3f213405,
  0xbea32d2c3f543d36bebe67f93e7b4a23bf273eab3f3758e23df487fd3f1c5d64,
  0xbe59df553f5cc2f8bebe67d7bf61d7dcbea068dc3eb3f7cf3e0d013b3f1dd97f,
  0xbe59e83e3f7780aabebe1b8f3e1ce076bf32ca583f32f8383e0ce7043f228f5c,
  0xbd84a3833f794856bebdde7a3f13afb83f140b783f13afb83cb851ec3d5844d0,
  0xbe3aab043f792029bf0530163d10ff97bc15182bbf7fd2203b5ed2893da0c49c,
  0xbe34202e3f794717bebdde7a3e310cb3bf36594b3f2e21963b5ed2893d57dbf5,
  0xbd84a3833f794856bf0516873f13a92a3f144674bf1374bc3cb851ec3da12d77,
  0xbd84a3833f794856bf0516873f13a92a3f144674bf1374bc3f0487fd3e966cf4,
  0xbe38d9f9bf783a86bf0535113cfd21ff3be21965bf7fdf3b3efe9e1b3f2288ce,
  0xbe3aab043f792029bf0530163d10ff97bc15182bbf7fd2203efec56d3e96872b,
  0xbd84a383bf784817bf0516873f13f7cfbf13f141bf137b4a3f0487fd3f2295ea,
  0xbe94f052bf7157bcbf0530f03b09a0273c1374bcbf8000003ef54c983f2161e5,
  0xbe94ea073f7257c9bf0530f03b2a64c3bc0ce704bf8000003ef54c983e98e219,
  0xbec1f601bf695b46bf0531013b6560423c0e8a72bf8000003eed844d3f1ff972,
  0xbec1f9053f6a5aeebf0531013b5ed289bc0ce704bf8000003eed844d3e9bb2ff,
  0xbeed57bcbf5f4539bf0530e03b902de03c09a027bf8000003ee60aa63f1e353f,
  0xbeed5ae23f60434ebf0531123b8ce704bc07fcb9bf8000003ee60aa63e9f3b64,
  0xbf0b4cb2bf532d2cbf0530be3badab9f3bff9724bf8000003edeecc03f1c154d,
  0xbf10536d3f50f57fbf0530f03bb43958bc03126fbf8000003edd3c363ea4a8c1,
  0xbf1ea23cbf453ae7bf0530f03bb439583be8a71ebf8000003ed837b53f19a6b5,
  0xbf27d60f3f3e8ddabf0530f03bc49ba6bbe56042bf8000003ed50b0f3eab0f28,
  0xbf34f8c6bf315a29bf0531013bdb8bac3be21965bf8000003ed096bc3f161e4f,
  0xbf390cf63f2dfd59bf0531233bd844d0bbd1b717bf8000003ecf1aa03eb0d845,
  0xbf489b41bf1ad9aebf0530be3bef34d73bbe0dedbf8000003ec9ba5e3f12339c,
  0xbf4899bf3f1bdbb1bf0530be3bf27bb3bbc154cabf8000003ec9ba5e3eb73eab,
  0xbf59a5dbbf025109bf0530f03c03126f3b9d4952bf8000003ec3f1413f0de00d,
  0xbf59a37f3f0350b1bf0530e03c07fcb9bba3d70abf8000003ec3f1413ebfe5c9,
  0xbf677836becfaa8bbf0531123c09a0273b727bb3bf8000003ebf14123f093dd9,
  0xbf6776b43ed1b196bf0531123c07fcb9bb79096cbf8000003ebf14123ec91d15,
  0xbf704ae8bea34374bf0531013c09a0273b449ba6bf8000003ebc0ebf3f0559b4,
  0xbf704ae83ea5475abf0530f03c102de0bb4b295fbf8000003ebc0ebf3ed0f27c,
  0xbf76fcadbe6ab25bbf0530f03c185f073b16bb99bf8000003eb9c0ec3f014e3c,
  0xbf76fcdf3e6eadd6bf0531013c185f07bb09a027bf8000003eb9c0ec3ed9096c,
  0xbf7c5ceebdeaafbcbf0531013c1ba5e33a902de0bf8000003eb7f62b3ef844d0,
  0xbf7b78573e1106eebf0530f03c1374bcba83126fbf8000003eb82a993ee13a93,
  0xbf7e0fa13cceee0fbf05362f3c463f14b951b717bf7ff9723eb758e23eebb98c,
  0x3e3ad5bfbf777825bf0530e0bd3b98c83bef34d7bf7fb7e93f0872b03f2295ea,
  0x3e8254613f743e75bf0530f0baebedfabc0e8a72bf8000003f0b71763e986c22,
  0x3e8247edbf733ecdbf053101bb16bb993c102de0bf8000003f0b6ae83f21e4f7,
  0x3e3845dd3f78a2ecbf05387abd292a30bbbe0dedbf7fc5053f0872b03e96fd22,
  0x3e07bd49bf777aa2bf051687bf144d01bf13f7cfbf131f8a3f0645a23f2295ea,
  0x3e07bd493f787b24bf051687bf154c983f1339c1bf12de013f0645a23e96fd22,
  0x3eaf75fb3f6ced81bf053101bb4b295fbc0ce704bf8000003f0f4f0e3e9aee63,
  0x3eaf75fbbf6bedd9bf053101bb51b7173c0b4396bf8000003f0f4f0e3f20a3d7,
  0x3edb0caa3f63865dbf053112bb7f9724bc06594bbf8000003f130be13e9e2824,
  0x3edb09a6bf628523bf053112bb7f97243c06594bbf8000003f130be13f1f0069,
  0x3f076cdf3f5510b2bf053112bba71de7bbfc5048bf8000003f1779a73ea339c1,
  0x3f025bfbbf571b48bf053123bb9a02753c016f00bf8000003f16a1623f1d07c8,
  0x3f1600e2bf49cab0bf053133bbbe0ded3bf9096cbf8000003f1a02753f1ab9f5,
  0x3f23f63c3f3fb7a6bf053123bbce703bbbe56042bf8000003f1c63f13eaa9931,
  0x3f285133bf3ab28ebf053123bbc7e2823bd4fdf4bf8000003f1d288d3f181d7e,
  0x3f392c493f2aedabbf0530f0bbd844d0bbc49ba6bf8000003f20068e3eb1a9fc,
  0x3f392ac7bf29ea14bf053123bbcb295f3bd4fdf4bf8000003f2013a93f1538ef,
  0x3f4855973f18a9bdbf053112bbef34d7bbc7e282bf8000003f22a9933eb7f62b,
  0x3f46ad1dbf19c993bf0527c4bc0ce7043be8a71ebf7ff9723f22a9933f121965,
  0x3f543d683f075b92bf05275fbc4154cabbded289bf7ff9723f24fdf43ebec56d,
  0x3f5283c3bf0924e1bf053101bc1d49523ba71de7bf7ff9723f24fdf43f0eb1c4,
  0x3f5e821f3eeb40f6bf053101bc22339cbb89a027bf7ff9723f2703b03ec60aa6,
  0x3f5cfb12beeedce4bf053a3fbbbe0ded3b3e0dedbf8000003f2694463f0bf488,
  0x3f663a8ebec8ff11bf053112bbd4fdf43b727bb3bf8000003f27e2823f09374c,
  0x3f6746cc3ec5ebfbbf053a71bc016f00bb2a64c3bf8000003f2851ec3ecbb98c,
  0x3f6eafde3e9ea24dbf0530f0bbd1b717bb4b295fbf8000003f29652c3ed182aa,
  0x3f6eaf79be9ca46ebf053101bc0ce7043b3e0dedbf8000003f29652c3f0559b4,
  0x3f75068a3e61c715bf053112bc16bb99bb16bb99bf8000003f2a85883ed97f63,
  0x3f7663c7be469121bf053101bc16bb993aebedfabf8000003f2a9fbe3f00d1b7,
  0x3f792ff53e0454debf053112bc1ba5e3ba902de0bf8000003f2b4a233ee1a36e,
  0x3f7a72a8bda18d69bf0530f0bc15182b3a1d4952bf8000003f2b851f3ef65fd9,
  0x3f7b47843ccec205bf0530e0bc15182b80000000bf8000003f2bb2ff3eeccccd,
  0x3e611b1e3f558351bebdde7a3f19a0273e3ef9db3f4724743e13f7cf3be56042,
  0x3e615161bf4c15f4be8dcad13f7b15b5be0154ca3e185f073e2425af3e962b6b,
  0x3e60f239bf4d0721bebdde7a3f197f63be401a373f472b023e13f7cf3e96872b,
  0x3e615ad13f547bbbbe8dcfab3f7c0ebf3dc1205c3e166cf43e2425af3bfc5048,
  0x3e5d8cb0bf4ebdd3be8b0a4e3f5e075fbeec2f833e3fcb923e25460b3e971759,
  0x3e557c91bf511698bebdde7a3ebbcd36bf007c853f4886593e1412063e977319,
  0x3e5657fbbf50b9bbbe897a033f26c8b4bf3d97f63e28db8c3e4ed9173d889a02,
  0x3e557c91bf511698bebdde7a3ebbcd36bf007c853f4886593e4e703b3d48b439,
  0x3e5d8cb0bf4ebdd3be8b0a4e3f5e075fbeec2f833e3fcb923e4f5c293d8793de,
  0x3e4df00bbf51ec70be881b653eb9a6b5bf67fcb93e5eecc03e4d6a163d89374c,
  0x3e4444e1bf52749fbebdde7abd5566cfbf18240b3f4d77323e4b923a3d484b5e,
  0x3e42e771bf525beabe8759cdbdfdf3b6bf792a303e460aa63e4b78033d89a027,
  0x3e39378fbf51057dbebdde7abede5c92beef27bb3f452bd43e49eecc3d48b439,
  0x3e3b8562bf514ea0be83aa37befbda51bf1b573f3f1fd2203e4a3d713d8c7e28,
  0x3e3500d6bf4fd0e1be86e0b1bf5b573fbebe353f3eb717593e49ba5e3d8c154d,
  0x3e39378fbf51057dbebdde7abede5c92beef27bb3f452bd43f63d70a3da8f5c3,
  0x3e3500d6bf4fd0e1be86e0b1bf5b573fbebe353f3eb717593f6886593da9c77a,
  0x3e2fd47cbf4d2e1fbebdde7abf1d844dbe2d42c43f45182b3f63d70a3dad42c4,
  0x3e301de2bf4d0929be8c1bdabf794467be1c5d643e2d42c43f6803473dad42c4,
  0x3e3023213f55a2a5be8c111bbf79374c3e1b3d083e2f9db23f67d5673ebe69ad,
  0x3e3003ef3f55e5b0bebdde7abf1c985f3e31de6a3f4594af3f63d70a3ebe69ad,
  0x3e3502693f586a3cbe86ed03bf5be0df3ebd14e43eb5a8583f68793e3ebf559b,
  0x3e3b5dcc3f59e55cbe83bf94befff2e53f1d2f1b3f1c5d643f68ce703eb5dcc6,
  0x3e4296703f57f130be81abd2be3487fd3e21cac13f78bac73e8339c13e971759,
  0x3e3b8562bf514ea0be83aa37befbda51bf1b573f3f1fd2203e828f5c3b656042,
  0x3e432096bf4f5b1dbe81adebbe0816f0be428f5c3f7902de3e8339c13b9d4952,
  0x3e3b5dcc3f59e55cbe83bf94befff2e53f1d2f1b3f1c5d643e828f5c3e97ced9,
  0x3e3b8562bf514ea0be83aa37befbda51bf1b573f3f1fd2203f68ce703df765fe,
  0x3e499c39bf515582be841a263e769446bf339c0f3f2bb2ff3e4c985f3d8be0df,
  0x3e499c39bf515582be841a263e769446bf339c0f3f2bb2ff3e83bcd33b7f9724,
  0x3e396f223f599e84bebdde7abeddcc643ef1c4333f4487fd3f63d70a3ebf6fd2,
  0x3e3b5dcc3f59e55cbe83bf94befff2e53f1d2f1b3f1c5d643ecb923a3d944674,
  0x3e396f223f599e84bebdde7abeddcc643ef1c4333f4487fd3ecbb98c3d5844d0,
  0x3e3502693f586a3cbe86ed03bf5be0df3ebd14e43eb5a8583ecbd3c33d93a92a,
  0x3e4305d93f5af0d0be879aaebe18793e3f7865953e4346dc3ecae7d53d913405,
  0x3e4444183f5b08eebebdde7abd5844d03f17f62b3f4d91683ecae7d53d577319,
  0x3e47bdcf3f58f57fbe8290253e31de6a3ef923a33f5b2fec3e83a29c3e977319,
  0x3e4b03e23f5a1826be84de7f3e9a5e353f410cb33f1559b43eca3d713d9374bc,
  0x3e47bdcf3f58f57fbe8290253e31de6a3ef923a33f5b2fec3eca8c153d94af4f,
  0x3e4a28bb3f579703be81f1283e8106253e1cc63f3f749ba63e83bcd33e96f007,
  0x3e53cbc53f57a312be83fa093f0b78033e8f27bb3f4a64c33e84a8c13e96fd22,
  0x3e4b03e23f5a1826be84de7f3e9a5e353f410cb33f1559b43e8425af3e978d50,
  0x3e53cbc53f57a312be83fa093f0b78033e8f27bb3f4a64c33ec9a0273d93a92a,
  0x3e5771c93f589fc7be8771c93f3604193f0f27bb3eda511a3ec9374c3d919ce0,
  0x3e5771c93f589fc7be8771c93f3604193f0f27bb3eda511a3e26b50b3b9d4952,
  0x3e53cbc53f57a312be83fa093f0b78033e8f27bb3f4a64c33e27a0f93ba0902e,
  0x3e5a52263f56d677be86bfec3f4923a33e56d5d03f14f7663e26cf423bc7e282,
  0x3e5e5c4f3f560b0bbe89ca193f6666663e38ef353ecb0f283e25c91d3bd844d0,
  0x3e5559713f598e75be88fd3b3f19652c3f46dc5d3e46594b3ec96bba3d90624e,
  0x3e49e98e3f5ac9e2be87e1b93e800d1b3f73126f3e4226813eca4a8c3d90ff97,
  0x3e5ef6b63f56b4c8be8c382a3f6581063ed8fc503e0432ca3e24f7663bc7e282,
  0x3e5559713f598e75be88fd3b3f19652c3f46dc5d3e46594b3e25c91d3b96bb99,
  0x3e557aff3f59ab08bebdde7a3ebc01a33f000d1b3f48c1553ec978d53d5844d0,
  0x3e557aff3f59ab08bebdde7a3ebc01a33f000d1b3f48c1553e1412063ba3d70a,
  0x3e593bc1bf4e3d60be863c323f3f559bbe49eecc3f22680a3e271de73e96f007,
  0x3e551266bf503372be86006d3f1ec56dbf0ca57a3f0f559b3e2752543e978d50,
  0x3e5dabe2bf4d86dbbe8923e63f61e4f7be205bc03ee31f8a3e25fd8b3e96ae7d,
  0x3e4adc90bf4f4906be820cf23e8a0903be8000003f6e0ded3e83d70a3ba0902e,
  0x3e551266bf503372be86006d3f1ec56dbf0ca57a3f0f559b3e84a8c13b9374bc,
  0x3e529ae5bf4e7ad9be83938a3f03d70abe25c91d3f5780343e84a8c13bb0f27c,
  0x3e551266bf503372be86006d3f1ec56dbf0ca57a3f0f559b3e4e56043d8b0f28,
  0x3e5657fbbf50b9bbbe897a033f26c8b4bf3d97f63e28db8c3e2631f93e97b4a2,
  0x3e529ae5bf4e7ad9be83938a3f03d70abe25c91d3f5780343e27bb303e971759,
  0x3e593bc1bf4e3d60be863c323f3f559bbe49eecc3f22680a3e8504813bbac711,
  0x3e5a52263f56d677be86bfec3f4923a33e56d5d03f14f7663e851eb83e8d013b,
  0x3e07bd49bf777aa2bebe67d7bf153261bf1ae7d53f0adaba3edeecc03d4154ca,
  0x3e3ad5bfbf777825bf0530e0bd3b98c83bef34d7bf7fb7e93eda92a33d954c98,
  0x3e3b484dbf777532bebe67d7be5773193f28c7e33f38ce703eda92a33d41bda5,
  0x3e07bd49bf777aa2bf051687bf144d01bf13f7cfbf131f8a3edeecc03d954c98,
  0x3e07bd493f787b24bf051687bf154c983f1339c1bf12de013f670a3d3d99ce07,
  0x3e3b11c73f787864bebe67d7be5cfaadbf2872b03f38adac3f69374c3d4ac083,
  0x3e3845dd3f78a2ecbf05387abd292a30bbbe0dedbf7fc5053f69374c3d9a0275,
  0x3e07bd493f787b24bebe67d7bf1553263f1b1c433f0a7efa3f670a3d3d4a57a8,
  0x3e07bd49bf777aa2bf051687bf144d01bf13f7cfbf131f8a3f62fec53ec353f8,
  0x3e07bd493f76c1d3bebe03f7bf31ff2e3d29fbe73f37ae143f698c7e3f3872b0,
  0x3e07bd493f787b24bf051687bf154c983f1339c1bf12de013f62fec53f38bac7,
  0x3e07bd49bf75c161bebe07a3bf321ff3bd23d70a3f3793de3f698c7e3ec3e426,
  0x3e07bd49bf777aa2bebe67d7bf153261bf1ae7d53f0adaba3f6985f03ec353f8,
  0x3e07bd493f787b24bebe67d7bf1553263f1b1c433f0a7efa3f6985f03f38c155,
  0x3e8fa58f3f56f640bebe67b63f5b4a23be9bb2ff3ed559b43f7be76d3f33eab3,
  0x3e8fa52bbf7158b8bebe0c39be5638863f2faace3f3254613f7bda513ec7ae14,
  0x3e8fa5d3bf55e248bebe67b63f5be76d3e9c28f63ed295ea3f7be76d3ed15b57,
  0x3e8fa3fdbb8858ffbec52c383f747ae138d1b7173e97e9103f7c779a3f0e075f,
  0x3e8fa3fd3dc1882bbec52c383f74c986baf9096c3e95e9e23f7c779a3f127525,
  0x3e8fa3fd3ced1394bee15c423f26594b3f046dc63f0e978d3f7ecbfb3f0f7660,
  0x3e8fa41e3d84167bbedf88763f2c5d64bf12680a3eeff9723f7eb1c43f11205c,
  0x3e8fa3fd3d6a465abee2d7953f2930bebeb8ef353f2865953f7ef34d3f10d1b7,
  0x3e8fa3fd3d1f01b8bee3ea0c3f2aacda3e4ff9723f3793de3f7f14123f0ff2e5,
  0x3e8fa3fd3d4217d3bee449563f2b22d1bd94af4f3f3d77323f7f212d3f105532,
  0x3e8fa4403f725700bebe08afbe5652bdbf2fb15b3f3254613f7be0df3f38c155,
  0x3e8fa41e3f51fa01bee298ee3f2027523edfe5c93f2566cf3f7eecc03f331f8a,
  0x3e8fa5d33f56b8e9bee459da3ee7bb30bf2041893f228f5c3f7f1aa03f33eab3,
  0x3e8fa3fd3f48fda0bec52c383f7487fdba83126f3e9780343f7c779a3f3182aa,
  0x3e8fa3fd3f2fbbf9bec52c383f74bc6a3a83126f3e9645a23f7c779a3f2d0e56,
  0x3e8fa3fd3f40aadabee122fb3f26bb99bf05a1cb3f0d013b3f7ed2893f30068e,
  0x3e8fa3fd3f37a93bbee0348f3f2985f03f0d1b713f01f2133f7eb1c43f2e69ad,
  0x3e8fa3fd3f3a496fbee3dcad3f25b5743e6b020c3f3a0f913f7f06f73f2edfa4,
  0x3e8fa3fd3f3e07e6bee3e4043f28793ebe3694463f3b43963f7f14123f2f9724,
  0x3e8fa3fd3f167a10bec52c383f7495183a51b7173e9724743f7c779a3f28a090,
  0x3e8fa3fd3f275904bee138de3f25119dbf016f003f12bd3c3f7ed2893f2b98c8,
  0x3e8fa3fd3f1eaf57bee0d3f23f24538f3eff2e493f152bd43f7eb8523f2a0275,
  0x3e8fa3fd3f2379a7bee49de03f218fc5bc75c28f3f46872b3f7f1aa03f2ae7d5,
  0x3e8fa3fd3efa704cbec52c383f748e8a39d1b7173e974bc73f7c779a3f2432ca,
  0x3e8fa3fd3f0dfedabee15fcc3f264c30bf0432ca3f0ed9173f7ed9173f272474,
  0x3e8fa3db3f057a46bee0ecd93f26f6943f06bb993f0bac713f7eb1c43f258e22,
  0x3e8fa3fd3f08343bbee3e4ef3f2844d03e43126f3f3aa64c3f7f1aa03f2624dd,
  0x3e8fa3fd3f0b6684bee3f9a53f286c22be2d42c43f3be0df3f7f1aa03f26a162,
  0x3e8fa3fd3ec7ecffbec52c383f747ae1000000003e97e9103f7c779a3f1fc505,
  0x3e8fa3fd3ee98fa3bee14e1a3f26594bbf04d0143f0e3bcd3f7ed9173f22b6ae,
  0x3e8fa3fd3ed8df37bee15d923f260aa63f03bcd33f0f90973f7edfa43f2147ae,
  0x3e8fa3fd3ede4346bee4013f3f2886593e27bb303f3c154d3f7f1aa03f21d14e,
  0x3e8fa3fd3ee47eaebee3e5b83f28e219be3b98c83f3a99313f7f14123f224745,
  0x3e8fa3fd3e95692bbec52c383f74a2343a902de03e96f0073f7c779a3f1b50b1,
  0x3e8fa3fd3eb6f3f5bee164e93f263f14bf042c3d3f0eecc03f7ed2893f1e4f76,
  0x3e8fa3fd3ea59620bee086383f29ad433f0ce0763f01ff2e3f7ec56d3f1cbfb1,
  0x3e8fa3fd3ea94a90bee323363f2b6ae83ea147ae3f2c2f833f7f06f73f1d14e4,
  0x3e8fa3fd3eb1f080bee3e5973f2afb7fbe507c853f3745393f7f14123f1dd97f,
  0x3e8fa3fd3ead989ebee44ac73f2b71763d8275253f3d6a163f7f212d3f1d7732,
  0x3e8fa3fd3e45cbbcbec52c383f74a8c1bab780343e96c8b43f7c779a3f16e2eb,
  0x3e8fa3fd3e8473acbee15d4f3f265fd9bf048e8a3f0e69ad3f7ed9173f19d495,
  0x3e8fa3db3e67e953bee1719f3f25182b3f0096bc3f1374bc3f7edfa43f186c22,
  0x3e8fa3fd3e750df1bee445893f2851ec3dfd566d3f3e425b3f7f1aa03f18ef35,
  0x3e8fa3fd3e7eeaa7bee3e6603f2a5e35be4db8bb3f3809d53f7f14123f19652c,
  0x3e8fa3db3e25a709bee06c873f2aacdabf0ef34d3efcc63f3f7eb1c43f158e22,
  0x3e8fa3db3e029baebee158fb3f2611343f03dd983f0f6fd23f7ed9173f13f7cf,
  0x3e8fa3db3e1f4be8bee2deec3f2bc01abeb18fc53f27c84b3f7eecc03f155326,
  0x3e8fa3fd3e0d8666bee407893f29f55a3e3e425b3f3972473f7f1aa03f147ae1,
  0x3e8fa3fd3e16eac8bee43e963f2b295fbdcd9e843f3c9eed3f7f14123f14f766,
  0x3e8fa3fdbdd29457bec52c383f746738399d49523e9844d03f7c779a3f09930c,
  0x3e8fa3fdbd18cf3abee15ec03f266666bf04816f3f0e76c93f7ed9173f0c84b6,
  0x3e8fa3fdbd8ea52fbee164843f262b6b3f03f1413f0f3b643f7edfa43f0b1c43,
  0x3e8fa3fdbd729d41bee407ab3f285f073e27d5673f3c3c9f3f7f1aa03f0ba5e3,
  0x3e8fa3fdbd40b029bee3e6823f290ff9be3afb7f3f3a71de3f7f14123f0c1bda,
  0x3e8fa3fdbe4e51d2bec52c383f74a2343aded2893e96f0073f7c779a3f052546,
  0x3e8fa3fdbe0ba55dbee182453f267382bf03c3613f0f14123f7edfa43f081062,
  0x3e8fa3fdbe2e4474bee061843f29c77a3f0d42c43f01758e3f7ec56d3f068db9,
  0x3e8fa3fdbe267770bee329a23f2b573f3ea219653f2c154d3f7f06f73f06e979,
  0x3e8fa3fdbe153ef7bee3e7d13f2ae148be4ef34d3f3779a73f7f14123f07a787,
  0x3e8fa3fdbe1dfdf0bee44a623f2b98c83d81d7dc3f3d49523f7f212d3f074bc7,
  0x3e8fa3fdbe99ac36bec52c383f747ae1b99d49523e97ced93f7c779a3f00b780,
  0x3e8fa3fdbe70ac7ebee180b23f267a10bf03dd983f0ef34d3f7edfa43f03a29c,
  0x3e8fa3fdbe88ac7ebee166e03f2604193f0395813f0fbe773f7edfa43f023a2a,
  0x3e8fa41ebe835d03bee3fdb53f289a023e28240b3f3bfb163f7f1aa03f02c3ca,
  0x3e8fa3fdbe7a3f03bee3e7293f291d15be365fd93f3ab3683f7f14123f0339c1,
  0x3e8fa3fdbecc300abec52c383f746dc639d1b7173e9837b53f7c779a3ef89375,
  0x3e8fa3fdbeaa799abee132943f26a162bf0559b43f0d63883f7ec56d3efe9e1b,
  0x3e8fa3fdbebb15f9bee1a0cf3f23f1413efbda513f16fd223f7edfa43efba5e3,
  0x3e8fa3fdbeafa377bee3e48a3f2a71debe56d5d03f374bc73f7f14123efd97f6,
  0x3e8fa3fdbeb40725bee447a13f2930be3dcf41f23f3e5c923f7f212d3efcd35b,
  0x3e8fa3fdbefeb357bec52c383f747ae13a1d49523e97ced93f7c779a3eefaace,
  0x3e8fa3fdbedd4e6ebee177423f265fd9bf03f1413f0f00693f7ed9173ef58e22,
  0x3e8fa3fdbeedeefebee134483f260aa63f03e4263f0f6fd23f7ec56d3ef288ce,
  0x3e8fa3fdbee7e36dbee427c83f27e9103e1c432d3f3d42c43f7f1aa03ef3c361,
  0x3e8fa41ebee22878bee3e35c3f29e83ebe41205c3f3951833f7f14123ef4bc6a,
  0x3e8fa3fdbf189b95bec52c383f749ba6b951b7173e96f0073f7c779a3ee6cf42,
  0x3e8fa3fdbf07e197bee16edf3f266666bf0425af3f0ecbfb3f7ed9173eecb296,
  0x3e8fa3fdbf103622bee140bc3f2617c23f0425af3f0f212d3f7ed9173ee9d495,
  0x3e8fa3fdbf0d6766bee406e23f2858793e276c8b3f3c432d3f7f1aa03eeae7d5,
  0x3e8fa3fdbf0a55e3bee3e48a3f295810be38ef353f3a57a83f7f14123eebe0df,
  0x3e8fa3fdbf31dd7fbec52c383f74c9863a51b7173e95cfab3f7c779a3eddf3b6,
  0x3e8fa3fdbf20fe26bee1389b3f256042bf0196533f1240b83f7ed2893ee3d70a,
  0x3e8fa3fdbf29e03fbee05a2d3f28bac73f0b4a233f04ea4b3f7ec56d3ee0c49c,
  0x3e8fa3fdbf27486fbee3bcd33f282a993e7e425b3f363f143f7f0d843ee1b08a,
  0x3e8fa3fdbf246d72bee444bf3f27b4a2bdf8d4fe3f3ee6323f7f1aa03ee2d0e5,
  0x3e8fa3fdbf4b1f25bec52c383f74f0d8baded2893e94d6a13f7c779a3ed5182b,
  0x3e8fa3fdbf3a2fbebee11f923f251eb8bf01d14e3f1254613f7ed2893edafb7f,
  0x3e8fa3dbbf42cd08bee125ff3f2418933efc50483f16a1623f7ed9173ed81062,
  0x3e8fa3fdbf3e1f8ebee49de03f2212d7bcd6a1623f460aa63f7f1aa03ed9a6b5,
  0x3e8fa3dbbf52da45bedfbfa53f29eeccbf0dcc643f00aa653f7ebee03ed25461,
  0x3e8fa9e3bf55b025bee3fb7a3ecf00693eeee6323f495e9e3f7f14123ed15b57,
  0x3e60f239bf4d0721bebdde7a3f197f63be401a373f472b023f764c303f319653,
  0x3e8fa52bbf7158b8bebe0c39be5638863f2faace3f3254613f7395813f37f62b,
  0x3e8fa4403f725700bebe08afbe5652bdbf2fb15b3f3254613f7395813ec617c2,
  0x3e5b0186bf75c161bebde84fbe283e423f3147ae3f33d70a3f76872b3f38c155,
  0x3e557c91bf511698bebdde7a3ebbcd36bf007c853f4886593f76c8b43f3240b8,
  0x3e4444e1bf52749fbebdde7abd5566cfbf18240b3f4d77323f7780343f3288ce,
  0x3e39378fbf51057dbebdde7abede5c92beef27bb3f452bd43f77ef9e3f3240b8,
  0x3e07bd49bf75c161bebe07a3bf321ff3bd23d70a3f3793de3f7a1cac3f38c155,
  0x3e2fd47cbf4d2e1fbebdde7abf1d844dbe2d42c43f45182b3f7858793f319ce0,
  0x3e07bd493f76c1d3bebe03f7bf31ff2e3d29fbe73f37ae143f7a1cac3ec4816f,
  0x3e3003ef3f55e5b0bebdde7abf1c985f3e31de6a3f4594af3f7858793ed013a9,
  0x3e396f223f599e84bebdde7abeddcc643ef1c4333f4487fd3f77ef9e3ececbfb,
  0x3e5b01433f76c1d3bebde84fbe285879bf3141203f33d70a3f76872b3ec4816f,
  0x3e4444183f5b08eebebdde7abd5844d03f17f62b3f4d91683f7780343ece48e9,
  0x3e557aff3f59ab08bebdde7a3ebc01a33f000d1b3f48c1553f76c8b43ececbfb,
  0x3e611b1e3f558351bebdde7a3f19a0273e3ef9db3f4724743f764c303ed03afb,
  0x3f60cbb03d1de58ebee3e122bf2c779a3e41a36e3f36e2eb3f60068e3f3f6fd2,
  0x3e8fa3fd3d1f01b8bee3ea0c3f2aacda3e4ff9723f3793de3f5ff2e53f249518,
  0x3e8fa3fd3ced1394bee15c423f26594b3f046dc63f0e978d3f6055323f2710cb,
  0x3f60b2203d410e88bee45198bf281062be05bc023f3e353f3f5f97243f3f6944,
  0x3e8fa3fd3d4217d3bee449563f2b22d1bd94af4f3f3d77323f5f90973f249518,
  0x3e8fa3fd3d6a465abee2d7953f2930bebeb8ef353f2865953f5f1aa03f249518,
  0x3f607c0f3d7adc0abee17247bf1ff2e5bf0559b43f14e3bd3f5f14123f3f62b7,
  0x3f60e3de3ceadb40bee13f07bf29e1b13f0113403f0d7dbf3f6055323f3c7e28,
  0x3e8fa41e3d84167bbedf88763f2c5d64bf12680a3eeff9723ecdd2f23e3aacda,
  0x3e8fa3fd3d6a465abee2d7953f2930bebeb8ef353f2865953ece48e93e3aacda,
  0x3f607c0f3d7adc0abee17247bf1ff2e5bf0559b43f14e3bd3ece075f3e92e48f,
  0x3f5fbf1f3dc1882bbec52c38bf6b22d1bc8ce7043eca30553ec8e8a73e92b021,
  0x3e8fa3fd3dc1882bbec52c383f74c986baf9096c3e95e9e23ec902de3e3ac711,
  0x3e8fa3fd3dc1882bbec52c383f74c986baf9096c3e95e9e23eda9fbe3e92ca58,
  0x3f5eb40f3e028028bee14899bf2faace3ee7c84b3f11c4333edfa4403e3be76d,
  0x3e8fa3db3e029baebee158fb3f2611343f03dd983f0f6fd23edfbe773e92e48f,
  0x3f5fbf1f3dc1882bbec52c38bf6b22d1bc8ce7043eca30553eda92a33e3afb7f,
  0x3e8fa3db3e029baebee158fb3f2611343f03dd983f0f6fd23e8b6ae83e032ca5,
  0x3f5eb40f3e028028bee14899bf2faace3ee7c84b3f11c4333e8b5dcc3cca57a8,
  0x3f5e52df3e0c98e5bee3e511bf2ded293df694463f394af53e8bedfa3ccbfb16,
  0x3f5d45413e258e22bee07853bf1da512bf1fb15b3ef66cf43e8e075f3d178d50,
  0x3e8fa3db3e25a709bee06c873f2aacdabf0ef34d3efcc63f3e8e075f3de7381d,
  0x3f5d97d53e1e4e6abee316a0bf23d70abed134053f2694463e8db8bb3cd013a9,
  0x3f5df9483e155cd9bee44f7fbf291d15be22b6ae3f3bd3c33e8ccccd3ccd9e84,
  0x3e8fa3fd3e16eac8bee43e963f2b295fbdcd9e843f3c9eed3e8d35a83e032ca5,
  0x3e8fa3fd3e0d8666bee407893f29f55a3e3e425b3f3972473e8c3c9f3e032ca5,
  0x3e8fa3db3e1f4be8bee2deec3f2bc01abeb18fc53f27c84b3e8de00d3e032ca5,
  0x3e8fa3db3e25a709bee06c873f2aacdabf0ef34d3efcc63f3ef9f55a3e3cd35b,
  0x3f5ba26a3e45cbbcbec52c38bf67fcb9be88e8a73ea7bb303ef50b0f3e92617c,
  0x3e8fa3fd3e45cbbcbec52c383f74a8c1bab780343e96c8b43ef5182b3e3ced91,
  0x3f5d45413e258e22bee07853bf1da512bf1fb15b3ef66cf43ef9f55a3e92d773,
  0x3e8fa3fd3e45cbbcbec52c383f74a8c1bab780343e96c8b43f58ce703f258106,
  0x3f59beb23e65510dbee00c95bf3b78033ee0ebee3f0538ef3f5666663f3f1412,
  0x3e8fa3db3e67e953bee1719f3f25182b3f0096bc3f1374bc3f5638863f257a78,
  0x3f5ba26a3e45cbbcbec52c38bf67fcb9be88e8a73ea7bb303f58ce703f3f6fd2,
  0x3f5800113e7ea748bee3eff2bf1f06f7beb2b0213f33a29c3eb0be0e3e022681,
  0x3e8fa3fd3e7eeaa7bee3e6603f2a5e35be4db8bb3f3809d53eb096bc3ce703b0,
  0x3f589f1f3e75ef20bee44999bf294af5bdb3d07d3f3eb8523eb168733e028f5c,
  0x3e8fa3fd3e8473acbee15d4f3f265fd9bf048e8a3f0e69ad3eafdf3b3ce703b0,
  0x3e8fa3db3e67e953bee1719f3f25182b3f0096bc3f1374bc3eb254613ce703b0,
  0x3f59463d3e6c692fbee2f017bf3247453e4a57a83f309d493eb247453e02f838,
  0x3e8fa3fd3e750df1bee445893f2851ec3dfd566d3f3e425b3eb1758e3ce703b0,
  0x3f59beb23e65510dbee00c95bf3b78033ee0ebee3f0538ef3eb288ce3df4538f,
  0x3f573d083e847a7dbee164a6bf0fcb92bf20e5603f09c0ec3eb013a93e01bda5,
  0x3e8fa3fd3e8473acbee15d4f3f265fd9bf048e8a3f0e69ad3f0189373da339c1,
  0x3f547b573e95692bbec52c38bf643958bebd70a43e85bc023efdd97f3e3487fd,
  0x3e8fa3fd3e95692bbec52c383f74a2343a902de03e96f0073efde69b3da3a29c,
  0x3f573d083e847a7dbee164a6bf0fcb92bf20e5603f09c0ec3f0182aa3e362b6b,
  0x3e8fa3fd3e95692bbec52c383f74a2343a902de03e96f0073ef18fc53da5119d,
  0x3f5181cf3ea5944bbee0867bbf3d70a43ebb4a233f107c853eecbfb13e32fec5,
  0x3e8fa3fd3ea59620bee086383f29ad433f0ce0763f01ff2e3eec7e283da4a8c1,
  0x3f547b573e95692bbec52c38bf643958bebd70a43e85bc023ef18fc53e353f7d,
  0x3e8fa3fd3ea59620bee086383f29ad433f0ce0763f01ff2e3f31ff2e3cd42c3d,
  0x3f5181cf3ea5944bbee0867bbf3d70a43ebb4a233f107c853f31f8a13dc95183,
  0x3e8fa3fd3ea94a90bee323363f2b6ae83ea147ae3f2c2f833f31bda53cd42c3d,
  0x3f4df5e03eb6b9a1bee1a544bf03eab3bf2154ca3f14a8c13f30aa653ddf6fd2,
  0x3e8fa3fd3eb6f3f5bee164e93f263f14bf042c3d3f0eecc03f309d493d06594b,
  0x3e8fa3fd3eb1f080bee3e5973f2afb7fbe507c853f3745393f30ff973cd42c3d,
  0x3f50b7c33ea98efcbee34a23bf2f559b3da4a8c13f39652c3f31b08a3df52546,
  0x3f4fb1f23eae9553bee468cbbf1b6ae8be774bc73f41cac13f3141203df3b646,
  0x3e8fa3fd3ead989ebee44ac73f2b71763d8275253f3d6a163f315b573cd42c3d,
  0x3e8fa3fd3eb6f3f5bee164e93f263f14bf042c3d3f0eecc03f49999a3f24d014,
  0x3f49f7833ec7ecffbec52c38bf564c30befb573f3e7731903f471de73f3bac71,
  0x3e8fa3fd3ec7ecffbec52c383f747ae1000000003e97e9103f472b023f24d6a1,
  0x3f4df5e03eb6b9a1bee1a544bf03eab3bf2154ca3f14a8c13f49999a3f3c49ba,
  0x3e8fa3fd3ec7ecffbec52c383f747ae1000000003e97e9103ebcac083daf4f0e,
  0x3f4596853ed8f063bee17460bf3624dd3e75f6fd3f29096c3eb79a6b3e2147ae,
  0x3e8fa3fd3ed8df37bee15d923f260aa63f03bcd33f0f90973eb780343daf1aa0,
  0x3f49f7833ec7ecffbec52c38bf564c30befb573f3e7731903ebcac083e32fec5,
  0x3e8fa3fd3ed8df37bee15d923f260aa63f03bcd33f0f90973f590ff93d0b4396,
  0x3f4596853ed8f063bee17460bf3624dd3e75f6fd3f29096c3f5902de3df58e22,
  0x3e8fa3fd3ede4346bee4013f3f2886593e27bb303f3c154d3f589a023d0b4396,
  0x3f40e1503ee97482bee170b5bef126e9bf30cb293f0c84b63f57e9103df0068e,
  0x3e8fa3fd3ee98fa3bee14e1a3f26594bbf04d0143f0e3bcd3f57ced93d0b4396,
  0x3f42ddce3ee2ac97bee45c9abf121ff3be91eb853f451eb83f5865953df27bb3,
  0x3e8fa3fd3ee47eaebee3e5b83f28e219be3b98c83f3a99313f58240b3d0b4396,
  0x3e8fa3fd3ee98fa3bee14e1a3f26594bbf04d0143f0e3bcd3e0951833daa9931,
  0x3f3b88553efa704cbec52c38bf42b6aebf18adac3e8353f83dfdbf483e269ad4,
  0x3e8fa3fd3efa704cbec52c383f748e8a39d1b7173e974bc73dfe28243daacd9f,
  0x3f40e1503ee97482bee170b5bef126e9bf30cb293f0c84b63e0951833e2a161e,
  0x3e8fa3fd3efa704cbec52c383f748e8a39d1b7173e974bc73d61b08a3e27bb30,
  0x3f35798e3f05f56abee1df98bf34af4f3e27a0f93f306f693d84816f3db53f7d,
  0x3e8fa3db3f057a46bee0ecd93f26f6943f06bb993f0bac713d8346dc3e27d567,
  0x3f3b88553efa704cbec52c38bf42b6aebf18adac3e8353f83d61b08a3dad0e56,
  0x3f322a3d3f0a5e68bee44f5dbf0902debeb412063f449ba63f5ea4a93df0d845,
  0x3e8fa3fd3f08343bbee3e4ef3f2844d03e43126f3f3aa64c3f5f06f73d371759,
  0x3f35798e3f05f56abee1df98bf34af4f3e27a0f93f306f693f5f559b3df4f0d8,
  0x3f2f403e3f0e1a61bee146e5bed7f62bbf38240b3f0d4fdf3f5e2eb23ded9168,
  0x3e8fa3fd3f0b6684bee3f9a53f286c22be2d42c43f3be0df3f5e91003d371759,
  0x3e8fa3db3f057a46bee0ecd93f26f6943f06bb993f0bac713f5f6fd23d5d97f6,
  0x3e8fa3fd3f0dfedabee15fcc3f264c30bf0432ca3f0ed9173f5e21963d36ae7d,
  0x3e8fa3fd3f167a10bec52c383f7495183a51b7173e9724743e97dbf53d69e1b1,
  0x3e8fa3fd3f0dfedabee15fcc3f264c30bf0432ca3f0ed9173e9d07c83d6978d5,
  0x3f2f403e3f0e1a61bee146e5bed7f62bbf38240b3f0d4fdf3e9ced913e02c3ca,
  0x3f282d8c3f167a10bec52c38bf268db9bf3295ea3e99a6b53e97ced93dfc5048,
  0x3f2065623f1eddcebee145fabf37e9103de52bd43f2fc5053f4c01a33deb851f,
  0x3e8fa3fd3f167a10bec52c383f7495183a51b7173e9724743f4e703b3d5d97f6,
  0x3f282d8c3f167a10bec52c38bf268db9bf3295ea3e99a6b53f4e703b3df5f6fd,
  0x3e8fa3fd3f1eaf57bee0d3f23f24538f3eff2e493f152bd43f4c01a33d5cc63f,
  0x3f1dd12d3f216e8bbee3e37ebf0eab36be845a1d3f49fbe73f1027523da02752,
  0x3e8fa3fd3f1eaf57bee0d3f23f24538f3eff2e493f152bd43f1083123c9d4952,
  0x3f2065623f1eddcebee145fabf37e9103de52bd43f2fc5053f107c853da339c1,
  0x3e8fa3fd3f2379a7bee49de03f218fc5bc75c28f3f46872b3f0fd8ae3c9e1b09,
  0x3f1b05c93f242752bee44178bee7e282bf043fe63f3a09033f0fb15b3d9c432d,
  0x3e8fa3fd3f275904bee138de3f25119dbf016f003f12bd3c3f0f41f23c9d4952,
  0x3f17a0f93f275537bee14680beb5b574bf4487fd3f0893753f0f2e493d982a99,
  0x3f0df5cf3f2fbb73bec52d88bf097f63bf4d844d3e84b5dd3f07fcb93df1a9fc,
  0x3e8fa3fd3f275904bee138de3f25119dbf016f003f12bd3c3f04af4f3e2978d5,
  0x3f17a0f93f275537bee14680beb5b574bf4487fd3f0893753f058e223de31f8a,
  0x3e8fa3fd3f2fbbf9bec52c383f74bc6a3a83126f3e9645a23f073eab3e29fbe7,
  0x3f02e1ac3f384157bee1a75dbf28793ebbcb295f3f40be0e3de425af3d714120,
  0x3e8fa3fd3f2fbbf9bec52c383f74bc6a3a83126f3e9645a23dd119ce3dcc63f1,
  0x3f0df5cf3f2fbb73bec52d88bf097f63bf4d844d3e84b5dd3dd119ce3d53c361,
  0x3e8fa3fd3f37a93bbee0348f3f2985f03f0d1b713f01f2133de48e8a3dcc985f,
  0x3e8fa3fd3f3e07e6bee3e4043f28793ebe3694463f3b43963e00d1b73d123a2a,
  0x3efb8eb03f3bc819bee449dcbee0c49cbedbf4883f4a02753e025aee3d94e3bd,
  0x3ef2ae8e3f3eb91bbee38bcebeac0831bf2b6ae83f298c7e3e0000003d8e8a72,
  0x3e8fa3fd3f3a496fbee3dcad3f25b5743e6b020c3f3a0f913e0395813d12a305,
  0x3e8fa3fd3f40aadabee122fb3f26bb99bf05a1cb3f0d013b3dfef9db3d123a2a,
  0x3eeb1c863f411ba4bee00e49be8b4396bf59f55a3ee5aee63dfdbf483d8a3d71,
  0x3e8fa3fd3f37a93bbee0348f3f2985f03f0d1b713f01f2133e04d0143d507c85,
  0x3f02e1ac3f384157bee1a75dbf28793ebbcb295f3f40be0e3e04816f3d902de0,
  0x3ecfba023f48fe7abec52c7cbeba0f91bf6666663e767a103f0851ec3e130be1,
  0x3e8fa3fd3f40aadabee122fb3f26bb99bf05a1cb3f0d013b3f056d5d3e28f5c3,
  0x3eeb1c863f411ba4bee00e49be8b4396bf59f55a3ee5aee63f05fd8b3e0902de,
  0x3e8fa3fd3f48fda0bec52c383f7487fdba83126f3e9780343f07fcb93e2978d5,
  0x3e8fa3fd3f48fda0bec52c383f7487fdba83126f3e9780343ef18fc53d535a86,
  0x3eaa73f73f51ab4bbee22553bf0573ebbe0e8a723f5786c23eec710d3d7b15b5,
  0x3e8fa41e3f51fa01bee298ee3f2027523edfe5c93f2566cf3eec7e283d52f1aa,
  0x3ecfba023f48fe7abec52c7cbeba0f91bf6666663e767a103ef18fc53d96872b,
  0x3e8fa5d33f56b8e9bee459da3ee7bb30bf2041893f228f5c3f035a863e8e48e9,
  0x3e8fa41e3f51fa01bee298ee3f2027523edfe5c93f2566cf3f040b783e8e48e9,
  0x3eaa73f73f51ab4bbee22553bf0573ebbe0e8a723f5786c23f0404ea3e9212d7,
  0x3eaa73f73f51ab4bbee22553bf0573ebbe0e8a723f5786c23f05fd8b3e1f559b,
  0x3e8fa58f3f56f640bebe67b63f5b4a23be9bb2ff3ed559b43f08f5c33e295e9e,
  0x3e8fa5d33f56b8e9bee459da3ee7bb30bf2041893f228f5c3f05c28f3e285879,
  0x3ec3cc293f4c092dbebe67b6be997f63bf20346e3f3851ec3f08e8a73e1758e2,
  0x3eec371e3f40d046bebe6794bebd6388bf17c84b3f371de73f08ce703e096bba,
  0x3ef2ae8e3f3eb91bbee38bcebeac0831bf2b6ae83f298c7e3f05aee63e06a7f0,
  0x3efb8eb03f3bc819bee449dcbee0c49cbedbf4883f4a02753f058e223e032ca5,
  0x3f08d8ba3f33e7f3bebe6794bed88659bf0d70a43f37e2823f08a0903df93dd9,
  0x3f02e1ac3f384157bee1a75dbf28793ebbcb295f3f40be0e3f05d6393dfef9db,
  0x3f1a58b43f24e0dbbebe6794bef65fd9bf01bda53f371de73f085f073de147ae,
  0x3f1b05c93f242752bee44178bee7e282bf043fe63f3a09033f053f7d3de04189,
  0x3f1dd12d3f216e8bbee3e37ebf0eab36be845a1d3f49fbe73e70f27c3d978d50,
  0x3f1a58b43f24e0dbbebe6794bef65fd9bf01bda53f371de73e6425af3d96872b,
  0x3f1b05c93f242752bee44178bee7e282bf043fe63f3a09033e7126e93d93a92a,
  0x3f2065623f1eddcebee145fabf37e9103de52bd43f2fc5053e6fec573d9a9fbe,
  0x3f298b503f150afebebe683cbf063f14beea30553f37dbf53e63a29c3da92a30,
  0x3f282d8c3f167a10bec52c38bf268db9bf3295ea3e99a6b53e65fd8b3da6e979,
  0x3f2f403e3f0e1a61bee146e5bed7f62bbf38240b3f0d4fdf3e6f4f0e3db33333,
  0x3f362a913f051601bebe6773bf10f27cbed23a2a3f36f6943e631f8a3dbfb15b,
  0x3f322a3d3f0a5e68bee44f5dbf0902debeb412063f449ba63e7055323db81d7e,
  0x3f35798e3f05f56abee1df98bf34af4f3e27a0f93f306f693e6f1aa03dbe425b,
  0x3f3b88553efa704cbec52c38bf42b6aebf18adac3e8353f83e65460b3dcac083,
  0x3f430fe03ee227afbebe67b6bf1b8bacbeb1eb853f36d5d03e629c783ddbf488,
  0x3f40e1503ee97482bee170b5bef126e9bf30cb293f0c84b63e6ecbfb3dd70a3d,
  0x3f42ddce3ee2ac97bee45c9abf121ff3be91eb853f451eb83e6f9db23ddbf488,
  0x3f4596853ed8f063bee17460bf3624dd3e75f6fd3f29096c3e6e63203de28241,
  0x3f49f7833ec7ecffbec52c38bf564c30befb573f3e7731903e64c2f83dee6320,
  0x3f4f6ddb3eb03665bebe6751bf250b0fbe8ab3683f36fd223e62339c3dff2e49,
  0x3f4df5e03eb6b9a1bee1a544bf03eab3bf2154ca3f14a8c13e6e147b3dfa43fe,
  0x3f4fb1f23eae9553bee468cbbf1b6ae8be774bc73f41cac13e6f1aa03dffcb92,
  0x3f50b7c33ea98efcbee34a23bf2f559b3da4a8c13f39652c3e6ecbfb3e01a36e,
  0x3f5181cf3ea5944bbee0867bbf3d70a43ebb4a233f107c853e6d91683e037b4a,
  0x3f547b573e95692bbec52c38bf643958bebd70a43e85bc023e645a1d3e0902de,
  0x3f5703e23e85e9c0bebe67d7bf2be0dfbe523a2a3f364c303e61e4f73e0e703b,
  0x3f573d083e847a7dbee164a6bf0fcb92bf20e5603f09c0ec3e6de00d3e0f27bb,
  0x3f5800113e7ea748bee3eff2bf1f06f7beb2b0213f33a29c3e6ecbfb3e10ff97,
  0x3f589f1f3e75ef20bee44999bf294af5bdb3d07d3f3eb8523e6ecbfb3e126e98,
  0x3f5b83e03e4a105abebe683cbf2d9e84be19ce073f382a993e61b08a3e1a0275,
  0x3f59463d3e6c692fbee2f017bf3247453e4a57a83f309d493e6e147b3e144674,
  0x3f59beb23e65510dbee00c95bf3b78033ee0ebee3f0538ef3e6cf41f3e158106,
  0x3f5ba26a3e45cbbcbec52c38bf67fcb9be88e8a73ea7bb303e640b783e1ab9f5,
  0x3f5d45413e258e22bee07853bf1da512bf1fb15b3ef66cf43e6d288d3e204189,
  0x3f5d97d53e1e4e6abee316a0bf23d70abed134053f2694463e6e147b3e2161e5,
  0x3f6021e23db8e8eabebe67f9bf2ec56dbd9134053f3a29c73e6196533e2d5cfb,
  0x3f5df9483e155cd9bee44f7fbf291d15be22b6ae3f3bd3c33e6e978d3e2353f8,
  0x3f5e52df3e0c98e5bee3e511bf2ded293df694463f394af53e6e63203e25119d,
  0x3f5eb40f3e028028bee14899bf2faace3ee7c84b3f11c4333e6d5cfb3e26b50b,
  0x3f5fbf1f3dc1882bbec52c38bf6b22d1bc8ce7043eca30553e63f1413e2c8b44,
  0x3f607c0f3d7adc0abee17247bf1ff2e5bf0559b43f14e3bd3e6d77323e3295ea,
  0x3f60b2203d410e88bee45198bf281062be05bc023f3e353f3e6e7d563e350b0f,
  0x3f60cbb03d1de58ebee3e122bf2c779a3e41a36e3f36e2eb3e6e48e93e36e2eb,
  0x3f60e3de3ceadb40bee13f07bf29e1b13f0113403f0d7dbf3e6d288d3e38a090,
  0x3f60fd1a3b004103bebe67d7bf337b4aba83126f3f36872b3e617c1c3e3d21ff,
  0x3f60fbdbbb8858ffbec52c38bf75d6393d60ded33e8c08313e63d70a3e3e425b,
  0x3f60c63fbd176ee7bee13f4bbf2a3055beff97243f0e425b3e6d42c43e441893,
  0x3f607000bd7a99fabebe67b6bf3305533d463f143f3694463e6196533e487fcc,
  0x3f60a4c2bd4068dcbee3e511bf2c49babe374bc73f37b4a23e6e63203e45a1cb,
  0x3f6083a9bd630121bee45005bf2886593e03126f3f3de69b3e6e978d3e4779a7,
  0x3f60448dbd8d0a24bee1d990bf1ee6323f0467383f16dc5d3e6d77323e4a0903,
  0x3f5f6545bdd29457bec52c38bf73f7cf3e0189373e8cd9e83e63f1413e4ff972,
  0x3f5e7bb3be0465a5bebe67d7bf31bda53dd9b3d03f3638863e61b08a3e54c986,
  0x3f5e5647be08387ebedfaa47bf34f766bef9096c3f0374bc3e6d0e563e5566cf,
  0x3f5dee35be1266fdbee38c33bf2ac711be3afb7f3f38e8a73e6e48e93e56f007,
  0x3f5d3943be229414bee419e3bf1faace3e8a3d713f3bcd363e6e7d563e5a0275,
  0x3f5b735cbe47075bbebe681bbf2da5123e1eb8523f37e2823e61cac13e605bc0,
  0x3f5cafb4be2dc6a0bee09d28bf19eecc3f1dc5d63f02339c3e6d5cfb3e5c0ebf,
  0x3f5aeac8be4e51d2bec52c38bf664c303cbac7113edf3b643e6425af3e61b08a,
  0x3f58f228be6d41b7bedfabfcbf3b4396bedb645a3f07c84b3e6d5cfb3e671de7,
  0x3f5703e2be83e8bcbebe67d7bf2c01a33e523a2a3f3631f93e61ff2e3e6bd3c3,
  0x3f583c19be7769ecbee38d3fbf2dfa44be12bd3c3f3831273e6e7d563e68a71e,
  0x3f57761dbe80fd1abee45111bf2000003e6e7d563f3eb8523e6ee6323e6ae7d5,
  0x3f56469dbe88ab2ebee1715cbf0d77323f1b22d13f127bb33e6de00d3e6d5cfb,
  0x3f5372c5be993a93bebe67d7bf28fc503e750b0f3f3645a23e6219653e733333,
  0x3f535e31be99ac36bec52c38bf60b7803ec2680a3e959b3d3e6474543e7367a1,
  0x3f501388beaabeadbee1886ebf379a6bbea1b08a3f1f06f73e6e2eb23e797247,
  0x3f4f5bf7beae2ae5bebe67d7bf25aee63e8b9f563f363f143e624dd33e7a92a3,
  0x3f4ebbaabeb1218abee43e96bf2353f83ddd97f63f432ca53e6f4f0e3e7bb2ff,
  0x3f4d6abebeb7296fbee3a27bbf145a1d3ededfa43f30624e3e6f34d73e7d70a4,
  0x3f4c84f9bebb25b3bee169e4bf04816f3f2f48803f035a863e6e63203e7f1412,
  0x3f486c22becca72fbebe683cbf1e2eb23ea1d7dc3f384b5e3e629c783e829c78,
  0x3f486812becc300abec52c38bf4ef34d3efcfaad3ea3c9ef3e64f7663e828f5c,
  0x3f43c07fbedd9253bee203c5bf35aee6be66809d3f2ae7d53e6ecbfb3e85a1cb,
  0x3f3dde59bef17679bebe67f9bf1752543ebf06f73f3710cb3e6305533e8902de,
  0x3f414a6fbee60f5ebee45198bf18fc503e85c91d3f420c4a3e6fd2203e871de7,
  0x3f402f94bee9be2bbee3a909bf0710cb3f087fcc3f294af53e6f837b3e87e282,
  0x3f3eb9d4beee8017bee08e7abeef41f23f3db8bb3ef6d5d03e6e978d3e888ce7,
  0x3f396d3bbefeb357bec52c38bf3cd35b3f1fc5053e83fe5d3e6594af3e8b5dcc,
  0x3f303394bf0bf65ebebe67d7bf0c710d3ede353f3f36f0073e6388663e8fb7e9,
  0x3f3328e9bf08125abee215dbbf347ae1be1ff2e53f3113403e6f837b3e8e703b,
  0x3f2fdc9cbf0c508bbee4523fbf07fcb93eb844d03f445a1d3e7089a03e8fec57,
  0x3f2cd877bf1008d9bee18d26bed367a13f36dc5d3f10a3d73e6f837b3e913405,
  0x3f2562bfbf189b52bec52cbfbf2745393f3617c23e84a8c13e6666663e942c3d,
  0x3f20e369bf1d7332bebe67f9beff2e493efa6b513f373eab3e643fe63e95cfab,
  0x3f1e0360bf204684bedf8f47bf3eb1c4be04b5dd3f2786c23e6fb7e93e96d5d0,
  0x3f1bd30bbf226202bee3120abf1780343e1581063f4aee633e70f27c3e979a6b,
  0x3f16a6d2bf2739b0bee3d07dbedec56d3f08d4fe3f397f633dbb98c83e257a78,
  0x3f20e369bf1d7332bebe67f9beff2e493efa6b513f373eab3dd42c3d3e28c155,
  0x3f1bd30bbf226202bee3120abf1780343e1581063f4aee633dbb2fec3e27d567,
  0x3f11234fbf2c24c4bebe67b6bee816f03f07fcb93f373eab3dd59b3d3e2075f7,
  0x3f13cfd5bf29c0cabee0943ebeb0be0e3f4e703b3ef5cfab3dbe425b3e231f8a,
  0x3f0a0e0fbf31dc94bec52dcbbf0041893f557a783e6d0e563dd1b7173e1bda51,
  0x3ef4896ebf3d46a2bebe67b6bec1f2133f1594af3f37bb303dd773193e10cb29,
  0x3efd7258bf3a29fabee12d77bf2930be3b16bb993f4020c53dc01a373e14af4f,
  0x3ef4ff65bf3cf55ebee3f013bee7381d3ebc28f63f5020c53dbe0ded3e119ce0,
  0x3eebd05bbf3fe458bee427e9beb020c53f1c154d3f36cf423dbedfa43e0dd2f2,
  0x3ee0795fbf434c0abedfed85be872b023f56f0073ef30be13dc154ca3e0adaba,
  0x3ec51c19bf4ab335bebe683cbe9d14e43f1fb15b3f3803473dd8adac3e008312,
  0x3ec34678bf4b1e19bec52cbfbea2b6ae3f692a303e86e9793dd3f7cf3e001a37,
  0x3ea13ab4bf52908abedef8adbf0cb9243e02c3ca3f5353f83dc2f8383de9ad43,
  0x3e8fa5d3bf55e248bebe67b63f5be76d3e9c28f63ed295ea3dd8e2193ddc28f6,
  0x3e8fa9e3bf55b025bee3fb7a3ecf00693eeee6323f495e9e3dbfb15b3dde00d2,
  0x3e07bd49bf75c161bebe07a3bf321ff3bd23d70a3f3793de3eb318fc3ec4dd2f,
  0x3e3b484dbf777532bebe67d7be5773193f28c7e33f38ce703eb288ce3ec05bc0,
  0x3e5b0186bf75c161bebde84fbe283e423f3147ae3f33d70a3eb318fc3ebd97f6,
  0x3e07bd49bf777aa2bebe67d7bf153261bf1ae7d53f0adaba3eb27bb33ec4dd2f,
  0x3e3b11c73f787864bebe67d7be5cfaadbf2872b03f38adac3eb288ce3eb73eab,
  0x3e07bd493f76c1d3bebe03f7bf31ff2e3d29fbe73f37ae143eb318fc3eb2bd3c,
  0x3e5b01433f76c1d3bebde84fbe285879bf3141203f33d70a3eb318fc3eba0275,
  0x3e07bd493f787b24bebe67d7bf1553263f1b1c433f0a7efa3eb27bb33eb2bd3c,
  0x3ec5d3783f6860ccbebe67d7be90f27cbf28ce703f3247453e7cd35b3e9ed289,
  0x3e8fa4403f725700bebe08afbe5652bdbf2fb15b3f3254613e87bb303e9b573f,
  0x3e8fa58f3f56f640bebe67b63f5b4a23be9bb2ff3ed559b43e87c84b3ea50481,
  0x3ec3cc293f4c092dbebe67b6be997f63bf20346e3f3851ec3e7d8adb3ea8ce70,
  0x3eec371e3f40d046bebe6794bebd6388bf17c84b3f371de73e6f9db23eacbfb1,
  0x3efa85233f5b3e14bebe67d7beb8ef35bf1f5c293f31bda53e6acd9f3ea38866,
  0x3f08d8ba3f33e7f3bebe6794bed88659bf0d70a43f37e2823e62d0e53eb14e3c,
  0x3f1670d23f4a6f72bebe67f9bedb4a23bf134d6a3f32617c3e59652c3ea95e9e,
  0x3f1a58b43f24e0dbbebe6794bef65fd9bf01bda53f371de73e56bb993eb6872b,
  0x3f28d0ab3f3b381dbebe67d7bef851ecbf0745393f32617c3e4cb2963eaeb1c4,
  0x3f298b503f150afebebe683cbf063f14beea30553f37dbf53e4c49ba3ebc1bda,
  0x3f3d72473f263c64bebe67d7bf0b4396bef14e3c3f31b7173e3eab363eb61e4f,
  0x3f362a913f051601bebe6773bf10f27cbed23a2a3f36f6943e437b4a3ec1b08a,
  0x3f430fe03ee227afbebe67b6bf1b8bacbeb1eb853f36d5d03e3aacda3ec8b439,
  0x3f4fce423f0e2c45bebe67b6bf17d567becf34d73f322d0e3e31de6a3ebe83e4,
  0x3f4f6ddb3eb03665bebe6751bf250b0fbe8ab3683f36fd223e322d0e3ed182aa,
  0x3f5c406c3ef39043bebe67d7bf218937beaf837b3f3226813e2944673ec5aee6,
  0x3f68f3883ebe7989bebe67d7bf2b020cbe8a09033f318fc53e20aa653ecf0069,
  0x3f5703e23e85e9c0bebe67d7bf2be0dfbe523a2a3f364c303e2cd9e83ed8e219,
  0x3f5b83e03e4a105abebe683cbf2d9e84be19ce073f382a993e29e1b13edeab36,
  0x3f727e743e84f6e0bebe67d7bf316873be416f003f321ff33e1a02753ed91687,
  0x3f6021e23db8e8eabebe67f9bf2ec56dbd9134053f3a29c73e26e9793ee84b5e,
  0x3f78a04d3e16da45bebe67d7bf367a10bdd326183f319ce03e15e9e23ee32ca5,
  0x3f7b6c8b3b0051cabebe67d7bf38adac399d49523f3147ae3e1412063ef03afb,
  0x3f60fd1a3b004103bebe67d7bf337b4aba83126f3f36872b3e25fd8b3ef03afb,
  0x3f607000bd7a99fabebe67b6bf3305533d463f143f3694463e2666663ef5e9e2,
  0x3f78a02cbe12d880bebe67d7bf36809d3dd288ce3f3196533e15e9e23efd4952,
  0x3f727e74be82f5fdbebe67d7bf3161e53e4106253f322d0e3e1a02753f03b646,
  0x3f5e7bb3be0465a5bebe67d7bf31bda53dd9b3d03f3638863e27bb303efc0ebf,
  0x3f5b735cbe47075bbebe681bbf2da5123e1eb8523f37e2823e29e1b13f00f27c,
  0x3f68f388bebc7ef1bebe67d7bf2ae7d53e89d4953f31b08a3e20aa653f08bac7,
  0x3f5703e2be83e8bcbebe67d7bf2c01a33e523a2a3f3631f93e2cd9e83f03c9ef,
  0x3f5372c5be993a93bebe67d7bf28fc503e750b0f3f3645a23e2f4f0e3f05a858,
  0x3f5c3d57bef18c3bbebe67d7bf2154ca3eaf27bb3f3275253e2944673f0d6a16,
  0x3f4f5bf7beae2ae5bebe67d7bf25aee63e8b9f563f363f143e3212d73f078034,
  0x3f486c22becca72fbebe683cbf1e2eb23ea1d7dc3f384b5e3e36fd223f0a29c7,
  0x3f4fce42bf0d28aebebe67d7bf179a6b3ecf5c293f3254613e31de6a3f10f909,
  0x3f3dde59bef17679bebe67f9bf1752543ebf06f73f3710cb3e3e425b3f0d6388,
  0x3f3d73c9bf253d86bebe67d7bf0ae7d53ef2b0213f3189373e3eab363f152bd4,
  0x3f303394bf0bf65ebebe67d7bf0c710d3ede353f3f36f0073e47ae143f10c49c,
  0x3f241d2abf3e8a0dbebe67b6bef288ce3f0adaba3f31a36e3e5013a93f19a027,
  0x3f20e369bf1d7332bebe67f9beff2e493efa6b513f373eab3e523a2a3f13d70a,
  0x3f11234fbf2c24c4bebe67b6bee816f03f07fcb93f373eab3e5d14e43f166cf4,
  0x3f0cb8d0bf5061e9bebe67d7becf837b3f1773193f32680a3e600d1b3f1cc63f,
  0x3ef4896ebf3d46a2bebe67b6bec1f2133f1594af3f37bb303e6cd9e83f19652c,
  0x3ef0bf1abf5cdfbdbebe67d7beb0d8453f20be0e3f328f5c3e6e147b3f1ef9db,
  0x3ec5cd4fbf676124bebe67d7be8fb7e93f28e2193f3275253e7cd35b3f20d1b7,
  0x3ec51c19bf4ab335bebe683cbe9d14e43f1fb15b3f3803473e7d21ff3f1bc6a8,
  0x3e8fa5d3bf55e248bebe67b63f5be76d3e9c28f63ed295ea3e87c84b3f1dbf48,
  0x3e8fa52bbf7158b8bebe0c39be5638863f2faace3f3254613e87bb303f228f5c,
  0x3ea13ab4bf52908abedef8adbf0cb9243e02c3ca3f5353f83f62680a3f3ded29,
  0x3e8fa3dbbf52da45bedfbfa53f29eeccbf0dcc643f00aa653f624dd33f3f6fd2,
  0x3e8fa9e3bf55b025bee3fb7a3ecf00693eeee6323f495e9e3f6219653f3e978d,
  0x3e8fa3fdbf4b1f25bec52c383f74f0d8baded2893e94d6a13f64c9863f3f6944,
  0x3ec34678bf4b1e19bec52cbfbea2b6ae3f692a303e86e9793f64c9863f3ae7d5,
  0x3e8fa3dbbf42cd08bee125ff3f2418933efc50483f16a1623dbda5123ddcfaad,
  0x3e8fa3fdbf4b1f25bec52c383f74f0d8baded2893e94d6a13dd1eb853ddc28f6,
  0x3e8fa3fdbf3e1f8ebee49de03f2212d7bcd6a1623f460aa63f64a8c13d99ce07,
  0x3e8fa3dbbf42cd08bee125ff3f2418933efc50483f16a1623f63fe5d3d9a0275,
  0x3eebd05bbf3fe458bee427e9beb020c53f1c154d3f36cf423f642c3d3d3367a1,
  0x3efd7258bf3a29fabee12d77bf2930be3b16bb993f4020c53f652bd43d1ce076,
  0x3e8fa3fdbf3a2fbebee11f923f251eb8bf01d14e3f1254613f6538ef3d99ce07,
  0x3ef4ff65bf3cf55ebee3f013bee7381d3ebc28f63f5020c53f64c9863d257a78,
  0x3ee0795fbf434c0abedfed85be872b023f56f0073ef30be13f63d70a3d401a37,
  0x3e8fa3fdbf31dd7fbec52c383f74c9863a51b7173e95cfab3f17f62b3d1eecc0,
  0x3e8fa3fdbf3a2fbebee11f923f251eb8bf01d14e3f1254613f1a7efa3d1e1b09,
  0x3efd7258bf3a29fabee12d77bf2930be3b16bb993f4020c53f1a786c3d9cac08,
  0x3f0a0e0fbf31dc94bec52dcbbf0041893f557a783e6d0e563f17f62b3dac710d,
  0x3e8fa3fdbf29e03fbee05a2d3f28bac73f0b4a233f04ea4b3db81d7e3ddbc01a,
  0x3e8fa3fdbf31dd7fbec52c383f74c9863a51b7173e95cfab3dcc2f833ddaee63,
  0x3e8fa3fdbf27486fbee3bcd33f282a993e7e425b3f363f143eb837b53da0c49c,
  0x3e8fa3fdbf29e03fbee05a2d3f28bac73f0b4a233f04ea4b3eb780343da0c49c,
  0x3f16a6d2bf2739b0bee3d07dbedec56d3f08d4fe3f397f633eb844d03cc7e282,
  0x3e8fa3fdbf246d72bee444bf3f27b4a2bdf8d4fe3f3ee6323eb94af53da0c49c,
  0x3e8fa3fdbf20fe26bee1389b3f256042bf0196533f1240b83eba29c73da0c49c,
  0x3f1bd30bbf226202bee3120abf1780343e1581063f4aee633eb9b3d03cab367a,
  0x3f13cfd5bf29c0cabee0943ebeb0be0e3f4e703b3ef5cfab3eb765fe3cd4fdf4,
  0x3e8fa3fdbf20fe26bee1389b3f256042bf0196533f1240b83f5041893df5f6fd,
  0x3f1bd30bbf226202bee3120abf1780343e1581063f4aee633f502de03d98c7e3,
  0x3f1e0360bf204684bedf8f47bf3eb1c4be04b5dd3f2786c23f505bc03d79db23,
  0x3e8fa3fdbf189b95bec52c383f749ba6b951b7173e96f0073f52d0e53df58e22,
  0x3f2562bfbf189b52bec52cbfbf2745393f3617c23e84a8c13f52d0e53d648e8a,
  0x3e8fa3fdbf103622bee140bc3f2617c23f0425af3f0f212d3ea5d6393e032ca5,
  0x3e8fa3fdbf189b95bec52c383f749ba6b951b7173e96f0073ea0b7803e03126f,
  0x3f2562bfbf189b52bec52cbfbf2745393f3617c23e84a8c13ea09d493d82de01,
  0x3f2cd877bf1008d9bee18d26bed367a13f36dc5d3f10a3d73ea5bc023d95182b,
  0x3f2fdc9cbf0c508bbee4523fbf07fcb93eb844d03f445a1d3f0538ef3cf34d6a,
  0x3e8fa3fdbf0d6766bee406e23f2858793e276c8b3f3c432d3f0532613dcf0d84,
  0x3f2cd877bf1008d9bee18d26bed367a13f36dc5d3f10a3d73f04bc6a3d009d49,
  0x3f3328e9bf08125abee215dbbf347ae1be1ff2e53f3113403f05e3543ce2eb1c,
  0x3e8fa3fdbf0a55e3bee3e48a3f295810be38ef353f3a57a83f05a8583dcf0d84,
  0x3e8fa3fdbf07e197bee16edf3f266666bf0425af3f0ecbfb3f05fd8b3dcf0d84,
  0x3e8fa3fdbf103622bee140bc3f2617c23f0425af3f0f212d3f04bc6a3dcf0d84,
  0x3f3328e9bf08125abee215dbbf347ae1be1ff2e53f3113403b86594b3db78034,
  0x3e8fa3fdbefeb357bec52c383f747ae13a1d49523e97ced93c6075f73e276c8b,
  0x3e8fa3fdbf07e197bee16edf3f266666bf0425af3f0ecbfb3b6bedfa3e2786c2,
  0x3f396d3bbefeb357bec52c38bf3cd35b3f1fc5053e83fe5d3c6075f73daf4f0e,
  0x3f396d3bbefeb357bec52c38bf3cd35b3f1fc5053e83fe5d3f0f1aa03db9c0ec,
  0x3e8fa3fdbeedeefebee134483f260aa63f03e4263f0f6fd23f1196533e2cbfb1,
  0x3e8fa3fdbefeb357bec52c383f747ae13a1d49523e97ced93f0f27bb3e2ca57a,
  0x3f3eb9d4beee8017bee08e7abeef41f23f3db8bb3ef6d5d03f11a36e3db295ea,
  0x3e8fa3fdbeedeefebee134483f260aa63f03e4263f0f6fd23f5ae7d53de11340,
  0x3f3eb9d4beee8017bee08e7abeef41f23f3db8bb3ef6d5d03f5aee633d1c779a,
  0x3f402f94bee9be2bbee3a909bf0710cb3f087fcc3f294af53f5b1c433d1a0275,
  0x3f414a6fbee60f5ebee45198bf18fc503e85c91d3f420c4a3f5b7e913d16bb99,
  0x3e8fa41ebee22878bee3e35c3f29e83ebe41205c3f3951833f5be0df3df5f6fd,
  0x3e8fa3fdbee7e36dbee427c83f27e9103e1c432d3f3d42c43f5b6ae83df5f6fd,
  0x3f43c07fbedd9253bee203c5bf35aee6be66809d3f2ae7d53f5c0ebf3d11d14e,
  0x3e8fa3fdbedd4e6ebee177423f265fd9bf03f1413f0f00693f5c36113df5f6fd,
  0x3f43c07fbedd9253bee203c5bf35aee6be66809d3f2ae7d53f1c710d3db15b57,
  0x3e8fa3fdbecc300abec52c383f746dc639d1b7173e9837b53f1f06f73e2f9db2,
  0x3e8fa3fdbedd4e6ebee177423f265fd9bf03f1413f0f00693f1c710d3e2fb7e9,
  0x3f486812becc300abec52c38bf4ef34d3efcfaad3ea3c9ef3f1f06f73daa9931,
  0x3f486812becc300abec52c38bf4ef34d3efcfaad3ea3c9ef3f4b8bac3f25bc02,
  0x3e8fa3fdbebb15f9bee1a0cf3f23f1413efbda513f16fd223f4e21963f3c56d6,
  0x3e8fa3fdbecc300abec52c383f746dc639d1b7173e9837b53f4b923a3f3c49ba,
  0x3f4c84f9bebb25b3bee169e4bf04816f3f2f48803f035a863f4e1b093f25119d,
  0x3f4d6abebeb7296fbee3a27bbf145a1d3ededfa43f30624e3f341f213ce978d5,
  0x3e8fa3fdbeb40725bee447a13f2930be3dcf41f23f3e5c923f345a1d3df5f6fd,
  0x3e8fa3fdbebb15f9bee1a0cf3f23f1413efbda513f16fd223f33eab33df5f6fd,
  0x3e8fa3fdbeafa377bee3e48a3f2a71debe56d5d03f374bc73f34bc6a3df5f6fd,
  0x3f4ebbaabeb1218abee43e96bf2353f83ddd97f63f432ca53f348e8a3ce2eb1c,
  0x3f501388beaabeadbee1886ebf379a6bbea1b08a3f1f06f73f350b0f3d14af4f,
  0x3f4c84f9bebb25b3bee169e4bf04816f3f2f48803f035a863f33d07d3cecbfb1,
  0x3e8fa3fdbeaa799abee132943f26a162bf0559b43f0d63883f35182b3de11340,
  0x3f501388beaabeadbee1886ebf379a6bbea1b08a3f1f06f73edafb7f3da8240b,
  0x3e8fa3fdbe99ac36bec52c383f747ae1b99d49523e97ced93edfe5c93e33b646,
  0x3e8fa3fdbeaa799abee132943f26a162bf0559b43f0d63883edb089a3e33d07d,
  0x3f535e31be99ac36bec52c38bf60b7803ec2680a3e959b3d3edfe5c93da3a29c,
  0x3f535e31be99ac36bec52c38bf60b7803ec2680a3e959b3d3ef50b0f3da75254,
  0x3e8fa3fdbe88ac7ebee166e03f2604193f0395813f0fbe773efa36e33e35a858,
  0x3e8fa3fdbe99ac36bec52c383f747ae1b99d49523e97ced93ef5182b3e358e22,
  0x3f56469dbe88ab2ebee1715cbf0d77323f1b22d13f127bb33efa1cac3da3a29c,
  0x3f57761dbe80fd1abee45111bf2000003e6e7d563f3eb8523f2e3bcd3df4538f,
  0x3e8fa3fdbe7a3f03bee3e7293f291d15be365fd93f3ab3683f2dd97f3caa64c3,
  0x3e8fa41ebe835d03bee3fdb53f289a023e28240b3f3bfb163f2e4f763caa64c3,
  0x3e8fa3fdbe70ac7ebee180b23f267a10bf03dd983f0ef34d3f5a9fbe3f3f6fd2,
  0x3f583c19be7769ecbee38d3fbf2dfa44be12bd3c3f3831273f5a8c153f260aa6,
  0x3f58f228be6d41b7bedfabfcbf3b4396bedb645a3f07c84b3f5ac0833f25fd8b,
  0x3f56469dbe88ab2ebee1715cbf0d77323f1b22d13f127bb33f2eb8523df2e48f,
  0x3e8fa3fdbe88ac7ebee166e03f2604193f0395813f0fbe773f2ebee03caa64c3,
  0x3f583c19be7769ecbee38d3fbf2dfa44be12bd3c3f3831273f2dab9f3df559b4,
  0x3e8fa3fdbe70ac7ebee180b23f267a10bf03dd983f0ef34d3f2d844d3caa64c3,
  0x3e8fa3fdbe4e51d2bec52c383f74a2343aded2893e96f0073f5d35a83f3f6944,
  0x3f5aeac8be4e51d2bec52c38bf664c303cbac7113edf3b643f5d35a83f259b3d,
  0x3f5aeac8be4e51d2bec52c38bf664c303cbac7113edf3b643f51bda53f259b3d,
  0x3e8fa3fdbe2e4474bee061843f29c77a3f0d42c43f01758e3f5446743f3f6fd2,
  0x3e8fa3fdbe4e51d2bec52c383f74a2343aded2893e96f0073f51c4333f3f6944,
  0x3f5cafb4be2dc6a0bee09d28bf19eecc3f1dc5d63f02339c3f543fe63f255326,
  0x3f5d3943be229414bee419e3bf1faace3e8a3d713f3bcd363e9254613cd1b717,
  0x3e8fa3fdbe267770bee329a23f2b573f3ea219653f2c154d3e9205bc3e032ca5,
  0x3f5cafb4be2dc6a0bee09d28bf19eecc3f1dc5d63f02339c3e918fc53cd42c3d,
  0x3e8fa3fdbe1dfdf0bee44a623f2b98c83d81d7dc3f3d49523e92bd3c3e032ca5,
  0x3e8fa3fdbe153ef7bee3e7d13f2ae148be4ef34d3f3779a73e9374bc3e032ca5,
  0x3f5dee35be1266fdbee38c33bf2ac711be3afb7f3f38e8a73e93dd983cce703b,
  0x3e8fa3fdbe0ba55dbee182453f267382bf03c3613f0f14123e942c3d3e032ca5,
  0x3e8fa3fdbe0ba55dbee182453f267382bf03c3613f0f14123ee89a023e3b4a23,
  0x3f5dee35be1266fdbee38c33bf2ac711be3afb7f3f38e8a73ee8b4393e92617c,
  0x3f5e5647be08387ebedfaa47bf34f766bef9096c3f0374bc3ee84b5e3e926e98,
  0x3e8fa3fdbe2e4474bee061843f29c77a3f0d42c43f01758e3e9182aa3e032ca5,
  0x3e8fa3fdbdd29457bec52c383f746738399d49523e9844d03ee36e2f3e3b645a,
  0x3f5f6545bdd29457bec52c38bf73f7cf3e0189373e8cd9e83ee361133e92e48f,
  0x3f5f6545bdd29457bec52c38bf73f7cf3e0189373e8cd9e83ed1c4333e3b2fec,
  0x3e8fa3fdbd8ea52fbee164843f262b6b3f03f1413f0f3b643ed6f0073e92e48f,
  0x3e8fa3fdbdd29457bec52c383f746738399d49523e9844d03ed1d14e3e92ca58,
  0x3f60448dbd8d0a24bee1d990bf1ee6323f0467383f16dc5d3ed694463e3ae148,
  0x3f60a4c2bd4068dcbee3e511bf2c49babe374bc73f37b4a23f72bd3c3f61e4f7,
  0x3e8fa3fdbd40b029bee3e6823f290ff9be3afb7f3f3a71de3f72ca583f4710cb,
  0x3f6083a9bd630121bee45005bf2886593e03126f3f3de69b3f732ca53f61de6a,
  0x3f60c63fbd176ee7bee13f4bbf2a3055beff97243f0e425b3f7275253f61e4f7,
  0x3e8fa3fdbd18cf3abee15ec03f266666bf04816f3f0e76c93f7275253f4710cb,
  0x3e8fa3fdbd729d41bee407ab3f285f073e27d5673f3c3c9f3f73404f3f4710cb,
  0x3f60448dbd8d0a24bee1d990bf1ee6323f0467383f16dc5d3f73b6463f6075f7,
  0x3e8fa3fdbd8ea52fbee164843f262b6b3f03f1413f0f3b643f73b6463f4710cb,
  0x3f60c63fbd176ee7bee13f4bbf2a3055beff97243f0e425b3f27b4a23e934d6a,
  0x3e8fa3fdbb8858ffbec52c383f747ae138d1b7173e97e9103f2532613e3b645a,
  0x3e8fa3fdbd18cf3abee15ec03f266666bf04816f3f0e76c93f27c84b3e3b4a23,
  0x3f60fbdbbb8858ffbec52c38bf75d6393d60ded33e8c08313f252bd43e9374bc,
  0x3e8fa3fdbb8858ffbec52c383f747ae138d1b7173e97e9103eb758e23e92ca58,
  0x3f60e3de3ceadb40bee13f07bf29e1b13f0113403f0d7dbf3ebc1bda3e3a5e35,
  0x3e8fa3fd3ced1394bee15c423f26594b3f046dc63f0e978d3ebc432d3e92e48f,
  0x3f60fbdbbb8858ffbec52c38bf75d6393d60ded33e8c08313eb74bc73e3a29c7,
  0x3d31d92bbedee3d6becf89613f73126fbe2e63203e86f6943df212d73f38a090,
  0x3d350c1cbee571f3bed976143f7ccccdbe2147ae3bc49ba63df1de6a3f38f5c3,
  0x3d384018bee26e33bed34aed3ea3fe5dbf5353f83eeded293df1a9fc3f38b439,
  0x3d384018bed93661beccb74e3e9d6388be836e2f3f6a92a33dff2e493f39c0ec,
  0x3d31d92bbedee3d6becf89613f73126fbe2e63203e86f6943dffcb923f3a29c7,
  0x3d384018bee26e33bed34aed3ea3fe5dbf5353f83eeded293dff2e493f3a6b51,
  0x3d330942bed28e0dbecbca533f7ce7043b9d49523e1e83e43dff97243f395183,
  0x3d384018bec16e9cbed78ca83eac63f13f673eab3e8816f03dfaacda3f39c0ec,
  0x3d31d92bbec3e39fbed34b0e3f743fe63e6147ae3e5013a93dfb15b53f3a0f91,
  0x3d36a61abec8de4cbecec7433f7f837b3d4f41f23d0c7e283dfae1483f3a6b51,
  0x3d343fa3bec002e2bede1eb43f7fec573cbedfa4bc2dab9f3dfb15b53f394af5,
  0x3b3a3012bee5f99cbee2d2bb3f46b50bbf1f8a09bdc2c3ca3dde00d23f398c7e,
  0x3bd1c7debee58106bed9ab08bf4460aabf1fcb923e17a7873ddcfaad3f38f5c3,
  0x3b3a3012bee54aa1bed8fadf3f43404fbf1c01a33e5de69b3dde00d23f38e8a7,
  0x3bd1c7debee5cb14bee39f12bf4710cbbf19e1b1be3cb9243ddcfaad3f39a027,
  0x3b3a3012bee164c7beebaa7a3f527525beebedfabeab367a3dde00d23f3a3055,
  0x3bd1c7debedee3d6beee5bc8bf58f5c3bea00000bedba5e33ddd2f1b3f3a57a8,
  0x3b3a3012bed93661bef12ddc3f5cd35bbe1d97f6bef6bb993dde353f3f3a8588,
  0x3bd1c7debed2c01ebef22728bf4f5c293a03126fbf1624dd3de219653f39374c,
  0x3bd1c7debedee3d6beee5bc8bf58f5c3bea00000bedba5e33de24dd33f38b439,
  0x3b3a3012bed93661bef12ddc3f5cd35bbe1d97f6bef6bb993de31f8a3f38d4fe,
  0x3b3a3012bed0941dbef1c5c53f4758e23e1ba5e3bf1bcd363de31f8a3f395810,
  0x3b3a3012bec8adefbeef0bf23f4786c23e9e4f76bf0b7e913de31f8a3f39e83e,
  0x3bd1c7debec800a8beee95d9bf4786c23ec55326befce0763de219653f39f55a,
  0x3b3a3012bec21f2abee78d503f524dd33ef5b574be9da5123de31f8a3f3a6b51,
  0x3bd1c7debec08766bee43c19bf58f5c33f0374bcbe0951833de24dd33f3a71de,
  0x3b3a3012bebffa3cbeddebd93f5cb2963f0161e53d15e9e23de83e423f395183,
  0x3bd1c7debec08766bee43c19bf58f5c33f0374bcbe0951833de76c8b3f38f5c3,
  0x3b3a3012bec21f2abee78d503f524dd33ef5b574be9da5123de872b03f38ce70,
  0x3bd1c7debec16e9cbed78ca8bf5872b03eff14123e44d0143de7381d3f39c0ec,
  0x3b3a3012bec3e3c1bed34b0e3f58240b3ed724743eaa4a8c3de83e423f3a0f91,
  0x3bd1c7debec8adefbeced917bf4f3b643ea951833ef85f073de76c8b3f3a6b51,
  0x3b3a3012becaafdebecdf0913f46d5d03e5dcc643f1765fe3de872b03f3a8588,
  0x3b3a3012bed2c01ebecbbde03f4e6320bb09a0273f1773193ded5cfb3f395183,
  0x3bd1c7debec8adefbeced917bf4f3b643ea951833ef85f073dec8b443f38db8c,
  0x3b3a3012becaafdebecdf0913f46d5d03e5dcc643f1765fe3ded5cfb3f38d4fe,
  0x3bd1c7debed0941dbecc1f64bf47b4a23e1a1cac3f1b78033dec56d63f392a30,
  0x3bd1c7debed93661beccb74ebf5cd35bbe1d97f63ef6bb993dec56d63f39c0ec,
  0x3b3a3012bedee3d6becf89613f58793ebe9e4f763edec56d3ded5cfb3f3a29c7,
  0x3bd1c7debee164c7bed23ab0bf4f27bbbef0068e3eb54c983dec8b443f3a5e35,
  0x3bd1c7debee164c7bed23ab0bf4f27bbbef0068e3eb54c983ddd2f1b3f38a090,
  0x3b3a3012bedee3d6becf89613f58793ebe9e4f763edec56d3dde353f3f38a090,
  0x3d384018bec16e9cbed78ca83eac63f13f673eab3e8816f03db81d7e3f3a3d71,
  0x3d350c1cbee5f5f1bee2a2a13f7fdf3bbd02a9933bbac7113daa64c33f386595,
  0x3d343fa3bec002e2bede1eb43f7fec573cbedfa4bc2dab9f3dbb2fec3f39ce07,
  0x3d350c1cbee571f3bed976143f7ccccdbe2147ae3bc49ba63da88ce73f38d4fe,
  0x3d384018bee26e33bed34aed3ea3fe5dbf5353f83eeded293da858793f39652c,
  0x3d36a61abec8de4cbecec7433f7f837b3d4f41f23d0c7e283db295ea3f3a7efa,
  0x3d384018bed93661beccb74e3e9d6388be836e2f3f6a92a33daa99313f3a0f91,
  0x3d330942bed28e0dbecbca533f7ce7043b9d49523e1e83e43dae48e93f3a6b51,
  0x3d35b0bcbec1f538bee73b643de0ded33f76b50bbe793dd93dbc01a33f395810,
  0x3d361dc9bee1c369beeb59793f800000bbdb8bac3af9096c3daeb1c43f3809d5,
  0x3d35b0bcbec855dabeeed2ed3f8000003b378034baebedfa3dbb2fec3f38b439,
  0x3d3497b7bed9628dbef113403f7ff972bb86594bbc35dcc63db2fec53f37ef9e,
  0x3d3647bbbed28e0dbef21ab53f7fd220bc449ba63d0c154d3db74bc73f38240b,
  0xbce62132bed9bde8bed892abbf7df3b6bdbac7113db3d07d3d4a57a83f37b4a2,
  0xbcebaf10bed823eabedfca43bf7f5c29bd8d844dbc3780343d4985f03f383127,
  0xbccee17abee3c233bedf1c32bf77ced9be8075f73b7f97243d3d3c363f37f62b,
  0xbcbeccc4bee4c33bbed493eabf73126fbe8b78033e1f3b643d3fb15b3f373eab,
  0xbc9183b6beed31dbbed71f36bf60e560beea4a8c3e0c7e283d3645a23f374539,
  0x3b3955f8bef31077bec9fa123ee4b5ddbf412d773ef611343dc395813f3a64c3,
  0xbb05c24cbef61134bed3dd33beeea4a9bf565fd93e922d0e3dc226813f39ce07,
  0x3b250508bef92945bedac6693ecc710dbf696bba3dc361133dc2c3ca3f397247,
  0xbbbec67abef08edebecb9eaebf2c710dbf1fbe773ecadaba3dc226813f3a43fe,
  0xbc03382ebef3d1ccbed5041dbf38ce70bf29b3d03e4b295f3dc0ebee3f39ad43,
  0xbc83d9a9beeab021becee654bf5a3d71bedec56d3e9460aa3d3ac7113f36c8b4,
  0xbc03382ebef3d1ccbed5041dbf38ce70bf29b3d03e4b295f3d3020c53f370a3d,
  0xbbbec67abef08edebecb9eaebf2c710dbf1fbe773ecadaba3d35dcc63f36809d,
  0xbc30d0eebee970b5bec75126bf449ba6bee075f73eef0d843d3e0ded3f364c30,
  0xbb245d42beed4bcfbec5a188bf074bc7bf19ce073f198c7e3d3ac7113f362b6b,
  0xbc9dabe2bee301ebbecaf3e4bf66a162be88ce703eaf1aa03d4432ca3f36a7f0,
  0xbccee7c5bedafa2fbed016adbf778d50bdf6c8b43e65aee63d4ac0833f371de7,
  0x3b10d5a6beded203bebaa9933ec74539be8dab9f3f60ebee3dd66cf43f38e219,
  0xbb2350d3bee6d7a5bec03298bf1a36e3bedb22d13f2c779a3dd773193f39930c,
  0x3b3a0e84bee7dd23bebee88e3ef13405bef53f7d3f3d9e843dd604193f39a027,
  0xbbb4f1e5bed645c3bebbae47bf240b78bdb2617c3f4346dc3dd7dbf53f3872b0,
  0xbc3bf50ebee19221bec227d0bf4594afbe8b5dcc3f131f8a3dd8adac3f394467,
  0xbc3bf50ebee19221bec227d0bf4594afbe8b5dcc3f131f8a3d4779a73f361e4f,
  0xbbb4f1e5bed645c3bebbae47bf240b78bdb2617c3f4346dc3d51b7173f35f6fd,
  0xbc7e9318bed72431bec21ddabf56b50bbda617c23f09db233d521ff33f363f14,
  0xbceb6e0dbecd84f5beddd767bf7f4f0e3d95e9e23be8a71e3d542c3d3f383e42,
  0xbca89fc7beda1c69bec8079abf6b50b1bdfe28243ebf62b73d4d35a83f36a162,
  0xbca656acbed32767bec6b357bf6b8bac3c102de03ec872b03d5566cf3f369ad4,
  0xbcd651b1bed1d170bed005c4bf7a43fe3c9374bc3e56a1623d53c3613f374539,
  0xbc101d19bed07725bebd77d9bf3dfa443d4f41f23f2b1c433d59e83e3f361134,
  0xbbb7a1c2becb8844bebc70ebbf28adac3e2de00d3f3b98c83dd810623f37c1be,
  0x3b3a0e84bed13b5cbeb8d6b23ee68db93d29930c3f64538f3dd604193f3809d5,
  0xbcbef8cfbecb497bbecc332fbf723a2a3e06a7f03e9758e23d5c5d643f371de7,
  0xbc813a93becccee6bec2d927bf5a0f913e00ebee3f02339c3d5c5d643f367a10,
  0xbbb7a1c2becb8844bebc70ebbf28adac3e2de00d3f3b98c83d60ded33f363f14,
  0x3b39884cbeb7c5efbec3db3c3eda92a33f25aee63f21a9fc3dd604193f3703b0,
  0xbb1f83bebebebbfdbec0ad69bf0652bd3eea09033f37d5673dd73eab3f372b02,
  0x3b16aad2bec6c2cebebae0a03ed326183ea3afb83f5a64c33dd638863f3758e2,
  0xbbb8ae32beb9e16dbec65061bf2f837b3f0553263f02339c3d6cbfb13f36f694,
  0xbc0d3283bec2d0c4bec17354bf391d153ea4816f3f1c84b63d6703b03f36872b,
  0xbb1f83bebebebbfdbec0ad69bf0652bd3eea09033f37d5673d6ab3683f369ad4,
  0xbc7b938abec2ee63bec68987bf585f073e98c7e33ee3126f3d6560423f36dc5d,
  0xbca6defcbec152f4bece4de4bf69b3d03e9923a33e8e3bcd3d6560423f3765fe,
  0xbcdeca25bec830e4bed8bf7fbf7bb98c3e2161e53dba29c73d5b22d13f37fcb9,
  0x3b16aad2bec6c2cebebae0a03ed326183ea3afb83f5a64c33d6353f83f3631f9,
  0xbb7893fbbeb3f056becd08b3bf0ef34d3f3a786c3ecb43963dd0b0f23f39374c,
  0xbbb8ae32beb9e16dbec65061bf2f837b3f0553263f02339c3dd0e5603f39ce07,
  0x3b39884cbeb7c5efbec3db3c3eda92a33f25aee63f21a9fc3dced9173f39e1b1,
  0xbc2e429ebeb80065becce337bf46cf423f061e4f3eb333333d6f34d73f3779a7,
  0xbca80065bebb1e7ebede2f5abf6b020c3ecaf4f13c6bedfa3d6703b03f388659,
  0xbcbd273dbec01c0dbed71950bf72b0213e9773193defd2203d648e8a3f380347,
  0xbc8d002ebeb9ea79bed42507bf6000003ee3f1413e42a9933d6b851f3f37e910,
  0xbc3d6627beb415f4bed718a8bf45f6fd3f1d1b713e231f8a3d706f693f383127,
  0x3b2c4b4dbeae7d78bed41c1d3ecf90973f600d1b3e872b023dcf0d843f389a02,
  0xbbaa21a7beafbb0ebedc5d64bf1d0e563f49b3d03d57dbf53dd0e5603f38240b,
  0xbc3d6627beb415f4bed718a8bf45f6fd3f1d1b713e231f8a3dd1b7173f38adac,
  0x3b3a0e84bead7753bee4d2b33ee7a0f93f6205bcbe0106253dcf0d843f3793de,
  0xbb20e411beaf8e19bee71ed1bf0b020c3f4ec56dbe6b6ae83dd07c853f3779a7,
  0xbcc5a5fcbec0e9b4bee50353bf74d0143e8e075fbdbd3c363d600d1b3f38e8a7,
  0xbc814b5abeb669cfbee0ed3ebf5951833f070a3dbd072b023d6bedfa3f38ce70,
  0xbbaa21a7beafbb0ebedc5d64bf1d0e563f49b3d03d57dbf53d71a9fc3f38a71e,
  0xbc83afb8beb88a26bee9409abf5c50483ef3c361be3958103d676c8b3f394af5,
  0xbc10ea9ebeb26bb5bee685dbbf3c5d643f28adacbe200d1b3d6ecbfb3f393dd9,
  0x3b305b7dbeb4b0c0bef63d1d3ed07c853f36809dbf1226813dcf0d843f3703b0,
  0xbb299b6fbeb36b6ebef0ce70bf05d6393f447454bebe0ded3dd07c853f3710cb,
  0xbcd6f545beca6fa4beeb213ebf792a303e06dc5dbe4083123d5495183f392a30,
  0xbc9ac797bebf16b1beef46ccbf6611343ead1b71be8ef34d3d5f3b643f39999a,
  0xbc2f294ebeb7f541bef10343bf42680a3f08e219bebdcc643d6631f93f39d495,
  0x3b1c5e70bec3e8debf0103ea3ecb367a3ec538efbf55460b3dc8b4393f38db8c,
  0xbbbd4cfdbebdfa01befb2464bf20ff973ef367a1bf1d77323dc9eecc3f395810,
  0x3b305b7dbeb4b0c0bef63d1d3ed07c853f36809dbf1226813dc816f03f3a0f91,
  0xbb299b6fbeb36b6ebef0ce70bf05d6393f447454bebe0ded3d6a4a8c3f39db23,
  0x3b305b7dbeb4b0c0bef63d1d3ed07c853f36809dbf1226813d65c91d3f3a233a,
  0xbce5eaabbed60d67bee7a58fbf7e00d2bd20f909bdf212d73d49eecc3f38b439,
  0xbbbd4cfdbebdfa01befb2464bf20ff973ef367a1bf1d77323d5d97f63f3a4a8c,
  0xbc20cf18bec73450befdbc66bf3dd97f3e7a29c7bf1fec573d52f1aa3f3a6b51,
  0xbc9272c9bec41bb9bef57d39bf6134053e87d567beca161e3d58adac3f39eecc,
  0xbc20cf18bec73450befdbc66bf3dd97f3e7a29c7bf1fec573dca8c153f38a71e,
  0xbcaae8e2becee8b0bef62329bf6fbe773da12d77beaef34d3d4d9e843f39d495,
  0xbcd2e2fcbed38c54beeefa83bf77ef9ebac49ba6be7f2e493d4a57a83f394467,
  0xbc8b178bbece2307befa59c0bf5dab9f3db9c0ecbefbe76d3d4d35a83f3a1cac,
  0xbb2276b8bedd9d56bf00f862bf0c710dbe84f766bf4b71763dc951833f373190,
  0xbbb6f9fdbed4e421bf011e97bf274539bcfc5048bf419ce03dc9ba5e3f37bb30,
  0x3b3a0e84bed8de6ebf02555c3ee83127bdf69446bf6212d73dc7e2823f376c8b,
  0x3b3a1f4bbee5e4e7bf0008c83ee75254bed94af5bf48e2193dc7e2823f36c8b4,
  0xbb1070fcbee88c3fbefcb103bf08793ebf035a86bf2c36113dc951833f36cf42,
  0xbc1ff0ccbee58fb4befa5ce6bf3f4f0ebebcb924bf0d844d3d34a2343f39b3d0,
  0xbc2b430fbededa66befd7b63bf407c85be72617cbf1d844d3d3ac7113f3a0903,
  0xbb2276b8bedd9d56bf00f862bf0c710dbe84f766bf4b71763d3c01a33f3a4a8c,
  0xbb1070fcbee88c3fbefcb103bf08793ebf035a86bf2c36113d322d0e3f39c77a,
  0xbcbc2b95bedd8c09bef0ef78bf725aeebe276c8bbe8e147b3d3fb15b3f393dd9,
  0xbc8c0ad0bee15033bef6a423bf5fb15bbe85bc02bed212d73d3a5e353f398c7e,
  0x3b3955f8bef1e8c4bef5c7ac3ed930bebf373190bf0e147b3dc395813f3786c2,
  0xbb1070fcbee88c3fbefcb103bf08793ebf035a86bf2c36113dc1f2133f36f007,
  0x3b3a1f4bbee5e4e7bf0008c83ee75254bed94af5bf48e2193dc32ca53f36bb99,
  0xbb22877fbef6fc37bee5f80abf177319bf495183be35dcc63dc226813f38a090,
  0xbc3d449abef3480abedf4dbebf434d6abf258106ba3780343dc0b7803f38f5c3,
  0xbc1c12f1bef1e9d1beebbecbbf3cc63fbf2075f7be80ded33dc0b7803f381d7e,
  0xbb6df612bef1ff93bef1da59bf14e3bdbf34e3bdbece56043dc1f2133f37c84b,
  0xbc3178b3beeb9e8cbef44b0abf419ce0bef8793ebee0aa653d3089a03f393dd9,
  0xbb6df612bef1ff93bef1da59bf14e3bdbf34e3bdbece56043d2dab9f3f395810,
  0xbc1c12f1bef1e9d1beebbecbbf3cc63fbf2075f7be80ded33d2c710d3f388ce7,
  0xbb6df612bef1ff93bef1da59bf14e3bdbf34e3bdbece56043d2d42c43f3923a3,
  0xbcb69985bee61177beea0cd0bf6ff972be9b3d08be2f34d73d38bac73f38a71e,
  0xbcd66f0dbedfd934bee64c0ebf7a7efabe350b0fbdd9e83e3d401a373f387fcc,
  0xbc8f6f09bee9a2e8beee8cacbf6013a9beca7efabe8e703b3d33d07d3f38e219,
  0xbc7eb8d8beef9b35bee4aff7bf5a786cbf022d0ebdeab3683d3020c53f38240b,
  0xbca1cac1beebf291bedf312bbf6a71debecd9e84bb89a0273d3573eb3f37ced9,
  0xbc3d449abef3480abedf4dbebf434d6abf258106ba3780343d2e147b3f37ae14,
  0x3b39fdbdbef8df7abee4f1e53ee7ae14bf616873be1096bc3dc395813f38b439,
  0x3b2b81f9becaec6cbf0227d03ecf0d843e44d014bf64ea4b3dc816f03f385f07,
  0xbc2921cdbecf88dbbeff7e5fbf3fc5053d97c1bebf2886593dca8c153f381d7e,
  0xbb1f83bebebebbfdbec0ad69bf0652bd3eea09033f37d5673dd07c853f3a43fe,
  0xbb245d42beed4bcfbec5a188bf074bc7bf19ce073f198c7e3dd773193f3a1cac,
  0x3b3955f8bef31077bec9fa123ee4b5ddbf412d773ef611343dd638863f3a6b51,
  0xbbbec67abef08edebecb9eaebf2c710dbf1fbe773ecadaba3dd7a7873f3a5e35,
  0xbc30d0eebee970b5bec75126bf449ba6bee075f73eef0d843dd8793e3f39db23,
  0xbc101d19bed07725bebd77d9bf3dfa443d4f41f23f2b1c433dd8adac3f3809d5,
  0xbc2e429ebeb80065becce337bf46cf423f061e4f3eb333333dd1b7173f397f63,
  0xbb7893fbbeb3f056becd08b3bf0ef34d3f3a786c3ecb43963d71a9fc3f37a787,
  0xbc10ea9ebeb26bb5bee685dbbf3c5d643f28adacbe200d1b3dd182aa3f3793de,
  0xbb20e411beaf8e19bee71ed1bf0b020c3f4ec56dbe6b6ae83d6f34d73f3978d5,
  0xbc2f294ebeb7f541bef10343bf42680a3f08e219bebdcc643dca57a83f39e1b1,
  0xbc2921cdbecf88dbbeff7e5fbf3fc5053d97c1bebf2886593d4a57a83f3a6b51,
  0xbc91d14ebed8deb1bef981bfbf608312bdbb645abef182aa3d428f5c3f39db23,
  0xbbb6f9fdbed4e421bf011e97bf274539bcfc5048bf419ce03d4361133f3a5e35,
  0x3b250508bef92945bedac6693ecc710dbf696bba3dc361133d0ce7043f35a858,
  0x3b39fdbdbef8df7abee4f1e53ee7ae14bf616873be1096bc3d185f073f363886,
  0x3b3a3012bee5f99cbee2d2bb3f46b50bbf1f8a09bdc2c3ca3d0a09033f372474,
  0x3b3955f8bef1e8c4bef5c7ac3ed930bebf373190bf0e147b3d2161e53f374bc7,
  0x3b3a3012bee164c7beebaa7a3f527525beebedfabeab367a3d0e21963f37bb30,
  0x3b3a1f4bbee5e4e7bf0008c83ee75254bed94af5bf48e2193d22339c3f385f07,
  0x3b3a3012bed93661bef12ddc3f5cd35bbe1d97f6bef6bb993d0d4fdf3f386595,
  0x3b3a0e84bed8de6ebf02555c3ee83127bdf69446bf6212d73d1ce0763f393dd9,
  0x3b3a3012bed0941dbef1c5c53f4758e23e1ba5e3bf1bcd363d0865953f38e219,
  0x3b2b81f9becaec6cbf0227d03ecf0d843e44d014bf64ea4b3d123a2a3f3a0275,
  0x3b3a3012bec8adefbeef0bf23f4786c23e9e4f76bf0b7e913d009d493f3923a3,
  0x3b1c5e70bec3e8debf0103ea3ecb367a3ec538efbf55460b3d06c2273f3a64c3,
  0x3b305b7dbeb4b0c0bef63d1d3ed07c853f36809dbf1226813cf0068e3f3a7efa,
  0x3b3a3012bec21f2abee78d503f524dd33ef5b574be9da5123cecbfb13f3930be,
  0x3b3a0e84bead7753bee4d2b33ee7a0f93f6205bcbe0106253ccccccd3f3a29c7,
  0x3b3a3012bebffa3cbeddebd93f5cb2963f0161e53d15e9e23cdab9f53f38e219,
  0x3b2c4b4dbeae7d78bed41c1d3ecf90973f600d1b3e872b023cb439583f397247,
  0x3b3a3012bec3e3c1bed34b0e3f58240b3ed724743eaa4a8c3cce703b3f383e42,
  0x3b39884cbeb7c5efbec3db3c3eda92a33f25aee63f21a9fc3ca64c303f3837b5,
  0x3b3a3012becaafdebecdf0913f46d5d03e5dcc643f1765fe3ccd9e843f37a787,
  0x3b16aad2bec6c2cebebae0a03ed326183ea3afb83f5a64c33ca8c1553f372474,
  0x3b3a3012bed2c01ebecbbde03f4e6320bb09a0273f1773193cd5cfab3f372b02,
  0x3b3a0e84bed13b5cbeb8d6b23ee68db93d29930c3f64538f3cb439583f366cf4,
  0x3b10d5a6beded203bebaa9933ec74539be8dab9f3f60ebee3cc56d5d3f35dcc6,
  0x3b3a3012bedee3d6becf89613f58793ebe9e4f763edec56d3cebedfa3f36b50b,
  0x3b3a0e84bee7dd23bebee88e3ef13405bef53f7d3f3d9e843cdc5d643f358106,
  0x3b3955f8bef31077bec9fa123ee4b5ddbf412d773ef611343cfdf3b63f356042,
  0x3b3a3012bee54aa1bed8fadf3f43404fbf1c01a33e5de69b3d016f003f36bb99,
  0x3bd1c7debf59edf2bea70825bf2e5604be43afb83f34f7663ea858793f418937,
  0x3d31d92bbf5737dabea624bc3f2dab9fbd3ac7113f3bb98c3ea5e3543f4119ce,
  0x3bd1c7debf56600bbea62718bf2f7660bc2f4f0e3f3a64c33ea858793f411340,
  0x3bd1c7debf5ebbedbeab44a2bf2c2268bed8793e3f1b8bac3ea858793f424745,
  0x3d31d606bf5bc643bea817763f2c63f1be8e2eb23f2f69443ea5f06f3f41de6a,
  0x3bd1c7debf62e610beb3d189bf2c710dbf1d013b3ed333333ea865953f42de01,
  0x3d31d81fbf604513beadcdb33f2d7732befa6b513f0c985f3ea5f06f3f428241,
  0x3d31d92bbf633fb8beb4ff653f2d9168bf20c49c3ec3a29c3ea5e3543f42d0e5,
  0x3d31d92bbf042cc3beb3b4703f4154cabda0902e3f269ad43ea5e3543f367a10,
  0x3bd1c7debf042cc3beb3b470bf4161e5bda2680a3f26872b3ea865953f367a10,
  0x3d31d92bbee3fa8fbea7d32c3f2d35a8bdf1a9fc3f3a161e3ea5d6393f33e426,
  0x3bd1c7debee82279bea8e23bbf3020c5be2f837b3f34816f3ea84b5e3f344674,
  0x3d31d92bbed25f20bea7e2823f2f41f23dc154ca3f3902de3ea5d6393f32b6ae,
  0x3bd1c7debedc345dbea74afdbf2f7660bc5844d03f3a5e353ea83e423f3374bc,
  0x3d31d92bbec56495beab43b73f2f4f0e3e8631f93f2e0ded3ea5d6393f31f213,
  0x3bd1c7debece047dbea88d2abf2ec56d3e1d49523f36e2eb3ea83e423f32680a,
  0x3bd1c7debec22ea1beaca644bf30d8453e9559b43f295e9e3ea865953f31bda5,
  0x3d31d81fbd0b9fdcbf0a15333f37a0f93eb013a93f1b22d13d95e9e23f31f8a1,
  0x3d31d92b3d6f8594bf167f1b3f3a64c33e8617c23f2226813d95b5743f32f838,
  0x3bd1c7de3d7cc294bf16e05dbf3c01a33e7487fd3f22a9933d8bac713f3318fc,
  0x3bd1c7debe931ca8bec5acefbf32f8383eb717593f1e7d563d7be76d3f30ded3,
  0x3d31d81fbd0b9fdcbf0a15333f37a0f93eb013a93f1b22d13d872b023f38e219,
  0x3bd1c7debcdcaf2dbf0b04bcbf361e4f3eaf00693f1d35a83d7b15b53f38fc50,
  0x3d31db44be9bbf0ebec0cf3a3f32eb1c3eb212d73f1ff9723d872b023f305bc0,
  0x3d31db44be9bbf0ebec0cf3a3f32eb1c3eb212d73f1ff9723ea5e3543f30cb29,
  0x3bd1c7debe931ca8bec5acefbf32f8383eb717593f1e7d563ea865953f30cb29,
  0x3bd1c7debcdcaf2dbf0b04bcbf361e4f3eaf00693f1d35a83d8be0df3f31f213,
  0x3d31d92b3e2fc3b5bf1333db3f3c3611bec5a1cb3f0ea4a93d95b5743f36f007,
  0x3d31d92b3e47ee4ebf0d95ff3f3b9f56bf05e3543eded2893d95b5743f37e282,
  0x3bd1c7de3e3f3e03bf10169cbf3ded29bef168733ef412063d8bac713f378034,
  0x3d31d92b3e0dc0dbbf1770583f3d013bbe52a3053f2474543d9581063f35b574,
  0x3bd1c7de3e1f0846bf15b0ab3f2dfa44bea4d0143f28c1553d8bac713f36594b,
  0x3d31d92b3ddeeaa7bf18b1573f3a8588bd03126f3f2f27bb3d95b5743f34a234,
  0x3bd1c7de3df3a0c7bf188851bf3c7e28bdc4d0143f2b78033d8be0df3f34f0d8,
  0x3d31d92b3da6cd29bf1840183f3b15b53df837b53f2bf4883d95b5743f33b646,
  0x3bd1c7de3db801b4bf188d8fbf3af4f13d9b089a3f2dcc643d8be0df3f33f141,
  0x3bd1c7de3ecd3dc9be6fdc9cbf22f1aabee425af3f2126e93ea24dd33f30ded3,
  0x3d31d92b3ebac5c1be92704c3f3339c1bf18adac3ec902de3ea4d0143f2f6fd2,
  0x3d31d4fa3ecdc91dbe6f4cf53f237b4abedba5e33f238ef33ea4d0143f30e560,
  0x3bd1c7de3ebb9000be915810bf33d07dbf18240b3ec89a023ea2680a3f2f6fd2,
  0x3bd1c7de3e721683befc794fbf37ae14bf14c2f83ec48e8a3da40b783f3a29c7,
  0x3d31d92b3ebac5c1be92704c3f3339c1bf18adac3ec902de3d9b089a3f358e22,
  0x3bd1c7de3ebb9000be915810bf33d07dbf18240b3ec89a023da40b783f3559b4,
  0x3d31e29b3e81f14abeee3ed13f35a858bf187fcc3ec0b7803d9bda513f39ba5e,
  0x3d31e29b3e81f14abeee3ed13f35a858bf187fcc3ec0b7803d930be13f3a511a,
  0x3bd1c7de3e721683befc794fbf37ae14bf14c2f83ec48e8a3d8c7e283f39652c,
  0x3d31d7133ed26fa4be6d08d53f26a7f03cbe0ded3f423a2a3ea4c2f83f314120,
  0x3bd1c7de3ed2a3cfbe6cf894bf25fd8b3cc154ca3f42ca583ea24dd33f314120,
  0x3bd1c7de3f634b1fbde8094ebf28db8cbedf14123f1cc63f3ea24dd33f425aee,
  0x3d31d92b3f5c7a29be134c5e3f381d7ebf00b0f23ef58e223ea4c2f83f414120,
  0x3d31d92b3f634a99bde80cfa3f292a30bee31f8a3f1afb7f3ea4d0143f425aee,
  0x3bd1c7de3f58827bbe239325bf395183bef34d6a3f00068e3ea24dd33f408312,
  0x3d31d92b3f4f1002be4495e13f3b98c8bed0ff973f0b5dcc3ea4c2f83f3f06f7,
  0x3bd1d0423f4a3422be51cfbcbf3ab9f5bebd63883f134d6a3ea25aee3f3e6320,
  0x3d31d81f3f3bba67be719ef93f395e9ebe93f7cf3f2055323ea49ba63f3c3c9f,
  0x3bd1c7de3f3976abbe760bb3bf3b851fbe8346dc3f216f003ea240b83f3bb98c,
  0x3d31d92b3f2e3b36be8216613f3a511abe2f69443f2a02753ea49ba63f3a3d71,
  0x3bd1c7de3f2689fcbe856627bf39eeccbdf41f213f2d49523ea2680a3f392a30,
  0x3bd1c7de3f16ca15be88398abf3930bebba3d70a3f30be0e3ea240b83f36f007,
  0x3d31d92b3f1d3554be87bb953f39a027bd5cc63f3f2fbe773ea49ba63f37f62b,
  0x3d31d92b3f0d74c5be87852f3f3902de3d5b22d13f30624e3ea4a8c13f35dcc6,
  0x3bd1c7de3f069004be85f5cfbf38adac3dc985f03f2f7cee3ea240b83f34dd2f,
  0x3d31d92b3efd1efbbe830c463f388ce73e16f0073f2d5cfb3ea4c2f83f33eab3,
  0x3bd1c7de3eec6994be7dd50bbf3930be3e3df3b63f2a43fe3ea24dd33f32de01,
  0x3d31d92b3f650ebbbde1e4f73f273eabbde4f7663f3fb15b3ea4d0143f42a305,
  0x3bd1c7de3f67630bbde3d4f1bf27c1be3e8d844d3f33f7cf3ea24dd33f42eb1c,
  0x3bd1c7de3f6534adbde1c1d7bf27a0f9bdcd6a163f3fc5053ea24dd33f42a305,
  0x3d31d92b3f6787dfbde435f03f286c223e85d6393f34d0143ea4d0143f42eb1c,
  0x3bd1c7de3f67630bbde3d4f1bf27c1be3e8d844d3f33f7cf3c9446743f3a786c,
  0x3d31d92b3f695cfbbdedf9be3f28fc503f0c84b63f0346dc3c5844d03f3a57a8,
  0x3bd1c7de3f6a08f2bdf3c255bf21d7dc3f2d35a83ec161e53c9446743f3a29c7,
  0x3d31d92b3f6a4ae0bdfb8f583f2a43fe3f3793de3e554c983c56a1623f3a0f91,
  0x3d31d92b3f6787dfbde435f03f286c223e85d6393f34d0143c5844d03f3a8588,
  0x3d31d92b3f356649bf59f6ba3f3119ce3f0e8a72beeb6ae83ea305533f740b78,
  0x3d31d92b3f247bfebf6c2abb3f22617c3eae147bbf31b7173ea2d0e53f70f27c,
  0x3bd1c7de3f247dc3bf6c2785bf228f5c3eae2196bf318fc53ea553263f70f27c,
  0x3d31da383f45e386bf4388b93f332ca53f196bbabec6e9793ea339c13f7703b0,
  0x3bd1c7de3f450efebf450918bf30a3d73f19fbe7bece21963ea57a783f76f007,
  0x3d31d81f3f5317adbf2ce8a73f31e4f73f23f141bea793de3ea395813f79db23,
  0x3bd1c7de3f4fb45fbf332820bf31a36e3f20624ebeb5b5743ea5aee63f791d15,
  0x3d31d81f3f5c574bbf17d9ec3f32bd3c3f2a92a3be860aa63c54fdf43f2b3d08,
  0x3d31d81f3f5317adbf2ce8a73f31e4f73f23f141bea793de3c5844d03f29eecc,
  0x3bd1c7de3f576b09bf23bafebf3205bc3f2816f0be9581063c9374bc3f2a0275,
  0x3d31d92b3f61a0bebf08bdfd3f3205bc3f304189be52f1aa3c54fdf43f2ce076,
  0x3bd1c7de3f671d1dbee8c437bf30902e3f3559b4be194af53c902de03f2f4f0e,
  0x3d31d92b3f66f651bee87c633f340b783f321ff3be1581063c59e83e3f2f559b,
  0x3bd1c7de3f5f7b4abf0f67c3bf328f5c3f2d9e84be6d0e563c92a3053f2c28f6,
  0x3d31d92b3f6b1b15beb50f413f3134053f379a6bbda5460b3c54fdf43f327bb3,
  0x3bd1c7de3f6bc8e2bea74539bf2ff2e53f398c7ebd42f8383c90ff973f33404f,
  0x3d31d92b3f6c6834be597edc3f309d493f39374c3cd013a93c56a1623f371de7,
  0x3bd1c7de3f6c41abbe5751cebf331f8a3f36bb993cf34d6a3c91d14e3f371de7,
  0x3bd1c7de3f576b09bf23bafebf3205bc3f2816f0be9581063ea5c91d3f7a3055,
  0x3bd1c7de3f33be98bf5bc86dbf32eb1c3f0b0f28beee3bcd3ea553263f73bcd3,
  0x3bd1c7de3e8487fdbf74f616bf49e1b13e811340bf0f90973ea4c2f83f5fd8ae,
  0x3d31d92b3e8487fdbf74f6163f49e1b13e81205cbf0f90973ea240b83f5fd8ae,
  0x3bd1c7debf650a89becb8562bf2a3055bf397247be3afb7f3ea95e9e3f59a027,
  0x3d31d92bbf292e84bf64fbca3f38c7e3bf24d6a1be81d7dc3ea6c2273f77e910,
  0x3d31d92bbf651dbdbeca73503f2c56d6bf36e979be4346dc3ea6dc5d3f59999a,
  0x3bd1c7debf292e84bf64fbcabf38ce70bf24d014be81d7dc3ea951833f77e910,
  0x3bd1c7debf65373bbebe3172bf2a43febf3b367a3e1a9fbe3ea95e9e3f58c7e3,
  0x3d31d92bbf633fb8beb4ff653f2d9168bf20c49c3ec3a29c3ea779a73f583127,
  0x3bd1c7debf62e610beb3d189bf2c710dbf1d013b3ed333333ea96bba3f583127,
  0x3d31d713bf656c94bec403bc3f2e76c9bf3b573f3c3439583ea6e9793f59096c,
  0x3d31d81fbf64e5b4bebc8f113f2e48e9bf3404ea3e51eb853ea6f6943f589375,
  0x3bd1c7debee5cb14bee39f12bf4710cbbf19e1b1be3cb9243e95dcc63f4a4a8c,
  0x3bd1c7debee82279bea8e23bbf3020c5be2f837b3f34816f3e9d97f63f4a786c,
  0x3bd1c7debee58106bed9ab08bf4460aabf1fcb923e17a7873e9724743f4a5e35,
  0x3bd1c7debf0c2c5ebf7b545cbf33e426bcbfb15bbf360aa63e3645a23f43126f,
  0x3bd1c7debedee3d6beee5bc8bf58f5c3bea00000bedba5e33e946dc63f4aacda,
  0x3bd1c7debed2c01ebef22728bf4f5c293a03126fbf1624dd3e93b6463f4b6ae8,
  0x3bd1c7debec800a8beee95d9bf4786c23ec55326befce0763e93f7cf3f4c28f6,
  0x3bd1c7debec08766bee43c19bf58f5c33f0374bcbe0951833e9532613f4cb296,
  0x3bd1c7debe931ca8bec5acefbf32f8383eb717593f1e7d563e98793e3f50068e,
  0x3bd1c7debec22ea1beaca644bf30d8453e9559b43f295e9e3e9c84b63f4d1b71,
  0x3bd1c7debee164c7bed23ab0bf4f27bbbef0068e3eb54c983e9810623f4ab368,
  0x3bd1c7debedc345dbea74afdbf2f7660bc5844d03f3a5e353e9da5123f4b4a23,
  0x3bd1c7debed93661beccb74ebf5cd35bbe1d97f63ef6bb993e98a0903f4b4a23,
  0x3bd1c7debece047dbea88d2abf2ec56d3e1d49523f36e2eb3e9d2f1b3f4c6a7f,
  0x3bd1c7debed0941dbecc1f64bf47b4a23e1a1cac3f1b78033e98a0903f4be0df,
  0x3bd1c7debec8adefbeced917bf4f3b643ea951833ef85f073e9810623f4c5d64,
  0x3bd1c7debec16e9cbed78ca8bf5872b03eff14123e44d0143e96d5d03f4cc63f,
  0x3bd1c7debf650a89becb8562bf2a3055bf397247be3afb7f3e9cc63f3f3b0f28,
  0x3bd1c7debf62e610beb3d189bf2c710dbf1d013b3ed333333e9fcb923f3b8bac,
  0x3bd1c7debf5ebbedbeab44a2bf2c2268bed8793e3f1b8bac3ea0b7803f3c2268,
  0x3bd1c7debf65373bbebe3172bf2a43febf3b367a3e1a9fbe3e9e69ad3f3b295f,
  0x3bd1c7debf56600bbea62718bf2f7660bc2f4f0e3f3a64c33ea12d773f3d566d,
  0x3bd1c7debf292e84bf64fbcabf38ce70bf24d014be81d7dc3e43fe5d3f3f8a09,
  0x3bd1c7debf28663cbf676b3cbf32bd3cbf2c1bdabe7bcd363e42a9933f3f9724,
  0x3bd1c7debf277100bf69bee4bf32bd3cbf26872bbe99096c3e4154ca3f3fb15b,
  0x3bd1c7debf2650c6bf6bf4fdbf32bd3cbf1fd8aebeb34d6a3e401a373f3fcb92,
  0x3bd1c7debf2507b8bf6e0c07bf32bd3cbf181d7ebecc710d3e3ef9db3f3ff2e5,
  0x3bd1c7debf2397eebf70024bbf32b6aebf0f62b7bee44d013e3dbf483f401a37,
  0x3bd1c7debf220382bf71d639bf32b6aebf05bc02befaacda3e3cb9243f404817,
  0x3bd1c7debf204cadbf73861abf32b6aebef65fd9bf07b4a23e3bb2ff3f407c85,
  0x3bd1c7debf1e7579bf75106fbf32b6aebedfb15bbf1134053e3ac7113f40b780,
  0x3bd1c7debf1c7fedbf767382bf32b6aebec793debf19c0ec3e39f55a3f40f27c,
  0x3bd1c7debf1a6e44bf77ad9fbf32bd3cbeae2196bf2147ae3e3923a33f413405,
  0x3bd1c7debf1842b7bf78bd45bf32b6aebe938ef3bf27c84b3e386c223f417c1c,
  0x3bd1c7debf15ff2ebf79a0aebf32bd3cbe7020c5bf2d288d3e37ced93f41cac1,
  0x3bd1c7debf13a5e3bf7a5669bf32b6aebe379a6bbf316f003e374bc73f421965,
  0x3bd1c7debf1138debf7adca0bf32bd3cbdfc1bdabf348e8a3e36e2eb3f42680a,
  0x3bd1c7debf0eba5abf7b31d3bf32bd3cbd87c84bbf367a103e3694463f42bd3c,
  0x3bd1c7debf042cc3beb3b470bf4161e5bda2680a3f26872b3e9cb9243f4851ec,
  0x3bd1c7de3e3f3e03bf10169cbf3ded29bef168733ef412063e889a023f5faace,
  0x3bd1c7de3e31b003bf7dc172bf3460aabab78034bf35a8583e28f5c33f5bfb16,
  0x3bd1c7de3e1f0846bf15b0ab3f2dfa44bea4d0143f28c1553e876c8b3f5e978d,
  0x3bd1c7de3e37fcfcbf7dbdb6bf33afb83cbe0dedbf363f143e28db8c3f5c2f83,
  0x3bd1c7de3e3e2e6fbf7da78fbf33a92a3d683e42bf35cfab3e28db8c3f5c63f1,
  0x3bd1c7de3e444418bf7d7f0fbf339c0f3dba92a3bf34ea4b3e28db8c3f5c985f,
  0x3bd1c7de3e4a3db4bf7d4435bf3395813e010625bf338ef33e28db8c3f5ccccd,
  0x3bd1c7de3e501b43bf7cf712bf338ef33e25119dbf31bda53e28f5c33f5d013b,
  0x3bd1c7de3e55dbfdbf7c97a6bf338ef33e49374cbf2f69443e290ff93f5d35a8,
  0x3bd1c7de3e721683befc794fbf37ae14bf14c2f83ec48e8a3e8d288d3f61d7dc,
  0x3bd1c7de3e5b8024bf7c25f2bf3388663e6d42c4bf2c985f3e292a303f5d6a16,
  0x3bd1c7de3e610731bf7ba205bf3388663e885879bf2944673e295e9e3f5d97f6,
  0x3bd1c7de3e667126bf7b0bf2bf3388663e99b3d0bf2581063e29930c3f5dcc64,
  0x3bd1c7de3e6bbd7bbf7a63a6bf338ef33eaa9931bf214e3c3e29c77a3f5dfa44,
  0x3bd1c7de3e70ec31bf79a943bf338ef33ebac711bf1cbfb13e2a161e3f5e2eb2,
  0x3bd1c7de3e75fd05bf78dcbabf3395813eca57a8bf17d5673e2a7efa3f5e5c92,
  0x3bd1c7de3e7aefb3bf77fe19bf33a29c3ed9096cbf129c783e2acd9f3f5e8a72,
  0x3bd1c7de3e7fc3f8bf770d84bf33a92a3ee6e979bf0d2f1b3e2b367a3f5eb852,
  0x3bd1c7de3e823ca7bf760ac8bf33afb83ef3dd98bf078d503e57c1be3f59a6b5,
  0x3bd1c7de3e8487fdbf74f616bf49e1b13e811340bf0f90973e2c3c9f3f5f1412,
  0x3bd1c7de3ebb9000be915810bf33d07dbf18240b3ec89a023e9a0f913f673190,
  0x3bd1c7de3ecd3dc9be6fdc9cbf22f1aabee425af3f2126e93e9ced913f688659,
  0x3bd1c7de3ed2a3cfbe6cf894bf25fd8b3cc154ca3f42ca583e9d14e43f68e8a7,
  0x3bd1c7de3eec6994be7dd50bbf3930be3e3df3b63f2a43fe3e9b8bac3f6aa64c,
  0x3bd1c7de3f247dc3bf6c2785bf228f5c3eae2196bf318fc53e58fc503f6ded29,
  0x3bd1c7de3f33be98bf5bc86dbf32eb1c3f0b0f28beee3bcd3e60f9093f705532,
  0x3bd1c7de3f450efebf450918bf30a3d73f19fbe7bece21963e6b9f563f72f838,
  0x3bd1c7de3f4fb45fbf332820bf31a36e3f20624ebeb5b5743e7404ea3f74af4f,
  0x3bd1c7de3f069004be85f5cfbf38adac3dc985f03f2f7cee3e9a29c73f6cb924,
  0x3bd1c7de3f576b09bf23bafebf3205bc3f2816f0be9581063e7c1bda3f760aa6,
  0x3bd1c7de3f5f7b4abf0f67c3bf328f5c3f2d9e84be6d0e563e83126f3f776c8b,
  0x3bd1c7de3f16ca15be88398abf3930bebba3d70a3f30be0e3e9958103f6ee632,
  0x3bd1c7de3f671d1dbee8c437bf30902e3f3559b4be194af53e89fbe73f78e219,
  0x3bd1c7de3f2689fcbe856627bf39eeccbdf41f213f2d49523e9930be3f713405,
  0x3bd1c7de3f6bc8e2bea74539bf2ff2e53f398c7ebd42f8383e9254613f7a0f91,
  0x3bd1c7de3f3976abbe760bb3bf3b851fbe8346dc3f216f003e9a02753f73a92a,
  0x3bd1d0423f4a3422be51cfbcbf3ab9f5bebd63883f134d6a3e9bf4883f763f14,
  0x3bd1c7de3f6c41abbe5751cebf331f8a3f36bb993cf34d6a3e9a511a3f7aa64c,
  0x3bd1c7de3f58827bbe239325bf395183bef34d6a3f00068e3e9e5c923f783127,
  0x3bd1c7de3f6a08f2bdf3c255bf21d7dc3f2d35a83ec161e53ea075f73f7ab9f5,
  0x3bd1c7de3f634b1fbde8094ebf28db8cbedf14123f1cc63f3ea113403f79e1b1,
  0x3bd1c7de3f67630bbde3d4f1bf27c1be3e8d844d3f33f7cf3ea113403f7a71de,
  0x3bd1c7de3f6534adbde1c1d7bf27a0f9bdcd6a163f3fc5053ea13a933f7a233a,
  0x3bd1c7de3df3a0c7bf188851bf3c7e28bdc4d0143f2b78033e86f6943f5d2f1b,
  0x3bd1c7de3db801b4bf188d8fbf3af4f13d9b089a3f2dcc643e87381d3f5c28f6,
  0x3bd1c7de3d7cc294bf16e05dbf3c01a33e7487fd3f22a9933e87e2823f5b4a23,
  0x3bd1c7debcdcaf2dbf0b04bcbf361e4f3eaf00693f1d35a83e8bb98c3f5872b0,
  0x3bd1c7debf59edf2bea70825bf2e5604be43afb83f34f7663ea12d773f3cd9e8,
  0x3d31d92bbee3fa8fbea7d32c3f2d35a8bdf1a9fc3f3a161e3e1fa4403f6aee63,
  0x3d31d92bbf0c2c5ebf7b545c3f33dd98bcc08312bf3611343cd4fdf43f72bd3c,
  0x3d350c1cbee5f5f1bee2a2a13f7fdf3bbd02a9933bbac7113e1048173f6b8bac,
  0x3d350c1cbee571f3bed976143f7ccccdbe2147ae3bc49ba63e12d7733f6b6ae8,
  0x3d31d92bbedee3d6becf89613f73126fbe2e63203e86f6943e14fdf43f6ae7d5,
  0x3d330942bed28e0dbecbca533f7ce7043b9d49523e1e83e43e159b3d3f6a161e,
  0x3d361dc9bee1c369beeb59793f800000bbdb8bac3af9096c3e0dd2f23f6b50b1,
  0x3d3497b7bed9628dbef113403f7ff972bb86594bbc35dcc63e0c2f833f6ad42c,
  0x3d3647bbbed28e0dbef21ab53f7fd220bc449ba63d0c154d3e0bac713f6a43fe,
  0x3d35b0bcbec855dabeeed2ed3f8000003b378034baebedfa3e0c2f833f69b3d0,
  0x3d35b0bcbec1f538bee73b643de0ded33f76b50bbe793dd93e0ded293f69374c,
  0x3d343fa3bec002e2bede1eb43f7fec573cbedfa4bc2dab9f3e10624e3f6902de,
  0x3d31db44be9bbf0ebec0cf3a3f32eb1c3eb212d73f1ff9723e170a3d3f666cf4,
  0x3d31d92bbec56495beab43b73f2f4f0e3e8631f93f2e0ded3e1de69b3f68ef35,
  0x3d31d92bbec3e39fbed34b0e3f743fe63e6147ae3e5013a93e1326183f692a30,
  0x3d36a61abec8de4cbecec7433f7f837b3d4f41f23d0c7e283e14e3bd3f69930c,
  0x3d31d92bbed25f20bea7e2823f2f41f23dc154ca3f3902de3e1f212d3f69c0ec,
  0x3d31d713bf656c94bec403bc3f2e76c9bf3b573f3c3439583e2027523f7ac083,
  0x3d31d92bbf651dbdbeca73503f2c56d6bf36e979be4346dc3e1e00d23f7ac711,
  0x3d31d81fbf64e5b4bebc8f113f2e48e9bf3404ea3e51eb853e21ff2e3f7a9931,
  0x3d31d92bbf633fb8beb4ff653f2d9168bf20c49c3ec3a29c3e23f1413f7a4a8c,
  0x3d31d81fbf604513beadcdb33f2d7732befa6b513f0c985f3e2560423f79e1b1,
  0x3d31d606bf5bc643bea817763f2c63f1be8e2eb23f2f69443e2666663f794af5,
  0x3d31d92bbf5737dabea624bc3f2dab9fbd3ac7113f3bb98c3e26b50b3f787fcc,
  0x3d31d92bbf042cc3beb3b4703f4154cabda0902e3f269ad43e1dcc643f6d844d,
  0x3d31d92bbf0eba5abf7b31d33f32bd3cbd87c84bbf367a103cd6a1623f73126f,
  0x3d31d92bbf1138debf7adca03f32bd3cbdfc1bdabf348e8a3cd9e83e3f7367a1,
  0x3d31d81fbd0b9fdcbf0a15333f37a0f93eb013a93f1b22d13df837b53f5d7dbf,
  0x3d31d92b3d6f8594bf167f1b3f3a64c33e8617c23f2226813de8db8c3f5ab368,
  0x3d31d92b3da6cd29bf1840183f3b15b53df837b53f2bf4883de5fd8b3f59e1b1,
  0x3d31d92b3ddeeaa7bf18b1573f3a8588bd03126f3f2f27bb3de48e8a3f58ef35,
  0x3d31d92b3e0dc0dbbf1770583f3d013bbe52a3053f2474543de52bd43f57d567,
  0x3d31d92b3e2fc3b5bf1333db3f3c3611bec5a1cb3f0ea4a93de872b03f56ae7d,
  0x3d31d92b3e31b003bf7dc1723f3460aabab78034bf35a8583c54fdf43f59db23,
  0x3d31d92b3e37fcfcbf7dbdb63f33afb83cbe0dedbf363f143c535a863f59a027,
  0x3d31d92b3e3e2e6fbf7da78f3f33a92a3d683e42bf35cfab3c535a863f596bba,
  0x3d31d92b3e47ee4ebf0d95ff3f3b9f56bf05e3543eded2893ded5cfb3f55c91d,
  0x3d31d92b3e444418bf7d7f0f3f339c0f3dba92a3bf34ea4b3c535a863f59374c,
  0x3d31d92b3e4a3db4bf7d44353f3395813e010625bf338ef33c535a863f5902de,
  0x3d31d92b3e501b43bf7cf7123f338ef33e25119dbf31bda53c535a863f58ce70,
  0x3d31d92b3e55dbfdbf7c97a63f338ef33e49374cbf2f69443c54fdf43f589a02,
  0x3d31d92b3e5b8024bf7c25f23f3388663e6d42c4bf2c985f3c5844d03f586c22,
  0x3d31d92b3e610731bf7ba2053f3388663e885879bf2944673c5b8bac3f5837b5,
  0x3d31d92b3e667126bf7b0bf23f3388663e99b3d0bf2581063c5ed2893f580347,
  0x3d31d92b3e6bbd7bbf7a63a63f338ef33eaa9931bf214e3c3c6219653f57d567,
  0x3d31d92b3e70ec31bf79a9433f338ef33ebac711bf1cbfb13c6703b03f57a787,
  0x3d31e29b3e81f14abeee3ed13f35a858bf187fcc3ec0b7803e0275253f533333,
  0x3d31d92b3e75fd05bf78dcba3f3395813eca57a8bf17d5673c6d91683f5779a7,
  0x3d31d92b3e7aefb3bf77fe193f339c0f3ed9096cbf129c783c727bb33f574539,
  0x3d31d92b3e7fc3f8bf770d843f33a92a3ee6e979bf0d2f1b3c79096c3f571759,
  0x3d31d92b3e823ca7bf760ac83f33afb83ef3dd98bf078d503c809d493f56f007,
  0x3d31d92b3e8487fdbf74f6163f49e1b13e81205cbf0f90973c84b5dd3f56c227,
  0x3d31d92b3ebac5c1be92704c3f3339c1bf18adac3ec902de3e1844d03f4eb1c4,
  0x3d31d4fa3ecdc91dbe6f4cf53f237b4abedba5e33f238ef33e96e2eb3f3381d8,
  0x3d31d7133ed26fa4be6d08d53f26a7f03cbe0ded3f423a2a3e1e83e43f4ce704,
  0x3d31d92b3efd1efbbe830c463f388ce73e16f0073f2d5cfb3e19ce073f4a0f91,
  0x3d31d92b3f247bfebf6c2abb3f22617c3eae147bbf31b7173d7559b43f47e282,
  0x3d31d92b3f356649bf59f6ba3f3119ce3f0e8a72beeb6ae83d8c7e283f4538ef,
  0x3d31da383f45e386bf4388b93f332ca53f196bbabec6e9793d9ff2e53f42d773,
  0x3d31d81f3f5317adbf2ce8a73f31e4f73f23f141bea793de3db7b4a23f4089a0,
  0x3d31d92b3f0d74c5be87852f3f3902de3d5b22d13f30624e3e17a7873f480347,
  0x3d31d81f3f5c574bbf17d9ec3f32bd3c3f2a92a3be860aa63dcc63f13f3eecc0,
  0x3d31d92b3f61a0bebf08bdfd3f3205bc3f304189be52f1aa3ddaee633f3e075f,
  0x3d31d92b3f1d3554be87bb953f39a027bd5cc63f3f2fbe773e16a1623f45d639,
  0x3d31d92b3f66f651bee87c633f340b783f321ff3be1581063df0a3d73f3ced91,
  0x3d31d92b3f6b1b15beb50f413f3134053f379a6bbda5460b3e05a1cb3f3bedfa,
  0x3d31d92b3f2e3b36be8216613f3a511abe2f69443f2a02753e1724743f438ef3,
  0x3d31d81f3f3bba67be719ef93f395e9ebe93f7cf3f2055323e18e2193f419ce0,
  0x3d31d92b3f6c6834be597edc3f309d493f39374c3cd013a93e18c7e33f3b2fec,
  0x3d31d92b3f4f1002be4495e13f3b98c8bed0ff973f0b5dcc3e1d97f63f3f0069,
  0x3d31d92b3f5c7a29be134c5e3f381d7ebf00b0f23ef58e223e231f8a3f3ced91,
  0x3d31d92b3f6a4ae0bdfb8f583f2a43fe3f3793de3e554c983e24c2f83f3b089a,
  0x3d31d92b3f634a99bde80cfa3f292a30bee31f8a3f1afb7f3e26809d3f3bf488,
  0x3d31d92b3f695cfbbdedf9be3f28fc503f0c84b63f0346dc3e25c91d3f3b295f,
  0x3d31d92b3f6787dfbde435f03f286c223e85d6393f34d0143e26809d3f3b645a,
  0x3d31d92b3f650ebbbde1e4f73f273eabbde4f7663f3fb15b3e26cf423f3bac71,
  0x3d31d92bbf13a5e3bf7a56693f32b6aebe379a6bbf316f003cdd2f1b3f73bcd3,
  0x3d31d92bbf15ff2ebf79a0ae3f32bd3cbe7020c5bf2d288d3ce147ae3f740b78,
  0x3d31d92bbf1842b7bf78bd453f32b6aebe938ef3bf27c84b3ce631f93f74538f,
  0x3d31d92bbf1a6e44bf77ad9f3f32bd3cbeae2196bf2147ae3cebedfa3f749ba6,
  0x3d31d92bbf1c7fedbf7673823f32b6aebec793debf19c0ec3cf27bb33f74dd2f,
  0x3d31d92bbf1e7579bf75106f3f32b6aebedfb15bbf1134053cf9096c3f75182b,
  0x3d31d92bbf204cadbf73861a3f32b6aebef65fd9bf07b4a23d00346e3f755326,
  0x3d31d92bbf220382bf71d6393f32b6aebf05bc02befaacda3d044d013f758794,
  0x3d31d92bbf2397eebf70024b3f32b6aebf0f62b7bee44d013d0865953f75b574,
  0x3d31d92bbf2507b8bf6e0c073f32bd3cbf181d7ebecc710d3d0ce7043f75e354,
  0x3d31d92bbf2650c6bf6bf4fd3f32bd3cbf1fd8aebeb34d6a3d11d14e3f760419,
  0x3d31d92bbf277100bf69bee43f32bd3cbf26872bbe99096c3d16bb993f761e4f,
  0x3d31d92bbf28663cbf676b3c3f32bd3cbf2c1bdabe7bcd363d1c0ebf3f763886,
  0x3d31d92bbf292e84bf64fbca3f38c7e3bf24d6a1be81d7dc3d2161e53f764c30,
  0x3d31d92b3e5b8024bf7c25f23f3388663e6d42c4bf2c985f3ea240b83f5e0ded,
  0x3bd1c7de3e5b8024bf7c25f2bf3388663e6d42c4bf2c985f3ea4c2f83f5e0ded,
  0x3d31d92b3e610731bf7ba2053f3388663e885879bf2944673ea240b83f5e3bcd,
  0x3bd1c7de3e31b003bf7dc172bf3460aabab78034bf35a8583ea4d0143f5ca57a,
  0x3d31d92b3e37fcfcbf7dbdb63f33afb83cbe0dedbf363f143ea240b83f5cd35b,
  0x3d31d92b3e31b003bf7dc1723f3460aabab78034bf35a8583ea240b83f5c9eed,
  0x3bd1c7de3e3e2e6fbf7da78fbf33a92a3d683e42bf35cfab3ea4c2f83f5d07c8,
  0x3bd1c7de3e444418bf7d7f0fbf339c0f3dba92a3bf34ea4b3ea4c2f83f5d3c36,
  0x3d31d92b3e444418bf7d7f0f3f339c0f3dba92a3bf34ea4b3ea240b83f5d3c36,
  0x3bd1c7de3e37fcfcbf7dbdb6bf33afb83cbe0dedbf363f143ea4d0143f5cd9e8,
  0x3d31d92b3e4a3db4bf7d44353f3395813e010625bf338ef33ea240b83f5d70a4,
  0x3bd1c7de3e501b43bf7cf712bf338ef33e25119dbf31bda53ea4c2f83f5da512,
  0x3bd1c7de3e55dbfdbf7c97a6bf338ef33e49374cbf2f69443ea4c2f83f5dd97f,
  0x3d31d92b3e55dbfdbf7c97a63f338ef33e49374cbf2f69443ea240b83f5dd97f,
  0x3bd1c7debf0eba5abf7b31d3bf32bd3cbd87c84bbf367a103ea5aee63f44e3bd,
  0x3d31d92bbf0eba5abf7b31d33f32bd3cbd87c84bbf367a103ea32ca53f44e3bd,
  0x3bd1c7debf1138debf7adca0bf32bd3cbdfc1bdabf348e8a3ea5aee63f449518,
  0x3bd1c7debf15ff2ebf79a0aebf32bd3cbe7020c5bf2d288d3ea5bc023f4404ea,
  0x3d31d92bbf15ff2ebf79a0ae3f32bd3cbe7020c5bf2d288d3ea339c13f4404ea,
  0x3bd1c7debf1842b7bf78bd45bf32b6aebe938ef3bf27c84b3ea5bc023f43c9ef,
  0x3bd1c7debf13a5e3bf7a5669bf32b6aebe379a6bbf316f003ea5bc023f444d01,
  0x3d31d92bbf13a5e3bf7a56693f32b6aebe379a6bbf316f003ea32ca53f444d01,
  0x3bd1c7de3e610731bf7ba205bf3388663e885879bf2944673ea4c2f83f5e425b,
  0x3d31d92bbf1138debf7adca03f32bd3cbdfc1bdabf348e8a3ea32ca53f449518,
  0x3d31d92bbf1842b7bf78bd453f32b6aebe938ef3bf27c84b3ea339c13f43c9ef,
  0x3d31d92bbf1a6e44bf77ad9f3f32bd3cbeae2196bf2147ae3ea346dc3f438ef3,
  0x3d31d92bbf1c7fedbf7673823f32b6aebec793debf19c0ec3ea6dc5d3f7a92a3,
  0x3bd1c7debf1c7fedbf767382bf32b6aebec793debf19c0ec3ea95e9e3f7a92a3,
  0x3bd1c7debf1a6e44bf77ad9fbf32bd3cbeae2196bf2147ae3ea96bba3f7ac711,
  0x3d31d92bbf1e7579bf75106f3f32b6aebedfb15bbf1134053ea6dc5d3f7a57a8,
  0x3bd1c7debf1e7579bf75106fbf32b6aebedfb15bbf1134053ea95e9e3f7a57a8,
  0x3d31d92bbf2397eebf70024b3f32b6aebf0f62b7bee44d013ea6cf423f7985f0,
  0x3bd1c7debf2397eebf70024bbf32b6aebf0f62b7bee44d013ea951833f7985f0,
  0x3d31d92bbf220382bf71d6393f32b6aebf05bc02befaacda3ea6cf423f79ce07,
  0x3d31d92bbf204cadbf73861a3f32b6aebef65fd9bf07b4a23ea6dc5d3f7a161e,
  0x3bd1c7debf204cadbf73861abf32b6aebef65fd9bf07b4a23ea95e9e3f7a161e,
  0x3bd1c7debf220382bf71d639bf32b6aebf05bc02befaacda3ea951833f79d495,
  0x3bd1c7debf2507b8bf6e0c07bf32bd3cbf181d7ebecc710d3ea951833f793dd9,
  0x3d31d92bbf2507b8bf6e0c073f32bd3cbf181d7ebecc710d3ea6cf423f793dd9,
  0x3d31d92bbf2650c6bf6bf4fd3f32bd3cbf1fd8aebeb34d6a3ea6cf423f78e8a7,
  0x3bd1c7de3e667126bf7b0bf2bf3388663e99b3d0bf2581063ea4c2f83f5e703b,
  0x3bd1c7de3e6bbd7bbf7a63a6bf338ef33eaa9931bf214e3c3ea4c2f83f5ea4a9,
  0x3d31d92b3e6bbd7bbf7a63a63f338ef33eaa9931bf214e3c3ea240b83f5ea4a9,
  0x3d31d92b3e70ec31bf79a9433f338ef33ebac711bf1cbfb13ea240b83f5ed917,
  0x3bd1c7debf2650c6bf6bf4fdbf32bd3cbf1fd8aebeb34d6a3ea951833f78ef35,
  0x3d31d92bbf277100bf69bee43f32bd3cbf26872bbe99096c3ea6cf423f789a02,
  0x3bd1c7debf277100bf69bee4bf32bd3cbf26872bbe99096c3ea951833f789a02,
  0x3d31d92bbf28663cbf676b3c3f32bd3cbf2c1bdabe7bcd363ea6cf423f7844d0,
  0x3bd1c7debf28663cbf676b3cbf32bd3cbf2c1bdabe7bcd363ea951833f7844d0,
  0x3d31d92bbf0c2c5ebf7b545c3f33dd98bcc08312bf3611343ea32ca53f453261,
  0x3bd1c7de3e75fd05bf78dcbabf3395813eca57a8bf17d5673ea4c2f83f5f0d84,
  0x3bd1c7de3e7aefb3bf77fe19bf33a29c3ed9096cbf129c783ea4c2f83f5f41f2,
  0x3d31d92b3e7aefb3bf77fe193f339c0f3ed9096cbf129c783ea240b83f5f3b64,
  0x3bd1c7debf0c2c5ebf7b545cbf33e426bcbfb15bbf360aa63ea5aee63f453261,
  0x3d31d92b3e823ca7bf760ac83f33afb83ef3dd98bf078d503ea240b83f5fa440,
  0x3bd1c7de3e823ca7bf760ac8bf33afb83ef3dd98bf078d503ea4c2f83f5fa440,
  0x3bd1c7de3e7fc3f8bf770d84bf33a92a3ee6e979bf0d2f1b3ea4c2f83f5f6fd2,
  0x3d31d92b3e7fc3f8bf770d843f33a92a3ee6e979bf0d2f1b3ea240b83f5f6fd2,
  0x3d31d92b3e3e2e6fbf7da78f3f33a92a3d683e42bf35cfab3ea240b83f5d07c8,
  0x3bd1c7de3e70ec31bf79a943bf338ef33ebac711bf1cbfb13ea4c2f83f5ed917,
  0x3d31d92b3e75fd05bf78dcba3f3395813eca57a8bf17d5673ea240b83f5f0d84,
  0x3bd1c7de3e4a3db4bf7d4435bf3395813e010625bf338ef33ea4c2f83f5d70a4,
  0x3d31d92b3e501b43bf7cf7123f338ef33e25119dbf31bda53ea240b83f5da512,
  0x3d31d92b3e667126bf7b0bf23f3388663e99b3d0bf2581063ea240b83f5e703b]

set_option maxRecDepth 100000 in
/-- the triangles of `KICKER_GOTTLIEB_INDICES`, /repo/src/vpx/mesh/kickers/kicker_gottlieb_mesh.rs:2354-2880 -/
def kickerGottliebTris : List Nat := [
  0x05c305c405c5, 0x000000010002, 0x000200420000, 0x000300020001, 0x000000420041, 0x000100040003, 0x004200400041,
  0x000500040001, 0x00410040003f, 0x000600040005, 0x0040003e003f, 0x000700060005, 0x003f003e003b, 0x000800070005,
  0x003e003c003b, 0x003b003c003d, 0x000900070008, 0x000a00090008, 0x000b0009000a, 0x000c000b000a, 0x000e000b000d,
  0x000d000b000c, 0x0043000d000c, 0x00440043000c, 0x004500430044, 0x004600450044, 0x004700450046, 0x004800470046,
  0x004900470048, 0x004a00490048, 0x004b0049004a, 0x004c004b004a, 0x004d004b004c, 0x004e004b004d, 0x004f004e004d,
  0x000f00100011, 0x0012000f0011, 0x0011007d0012, 0x0013000f0012, 0x0012007d007c, 0x00130014000f, 0x007d007b007c,
  0x001500140013, 0x007c007b0079, 0x001600150013, 0x007b007a0079, 0x001700150016, 0x0079007a0078, 0x001800170016,
  0x007600790078, 0x001900170018, 0x007600780077, 0x001a00190018, 0x007700750076, 0x001b0019001a, 0x007600750074,
  0x001c001b001a, 0x007500730074, 0x001d001b001c, 0x001e001d001c, 0x007400730072, 0x007300700072, 0x007200700071,
  0x00710070006f, 0x0070006b006f, 0x006f006b006e, 0x006e006b006d, 0x006b006c006d, 0x001f00200021, 0x0022001f0021,
  0x0023001f0022, 0x002400230022, 0x002500230024, 0x002600250024, 0x002700250026, 0x002800270026, 0x002900270028,
  0x002a00290028, 0x002b0029002a, 0x002c002b002a, 0x002d002b002c, 0x002e002d002c, 0x002f002d002e, 0x0030002f002e,
  0x0031002f0030, 0x003200310030, 0x003300310032, 0x003400330032, 0x003500330034, 0x003600350034, 0x003700350036,
  0x003800370036, 0x003900380036, 0x003a00380039, 0x005000510052, 0x005300510050, 0x005400530050, 0x005500530054,
  0x005600550054, 0x005700550056, 0x005800570056, 0x005900570058, 0x005a00590058, 0x005b0059005a, 0x005c005b005a,
  0x005d005b005c, 0x005e005b005d, 0x005f005e005d, 0x0060005e005f, 0x0061005e0060, 0x006200610060, 0x006300610062,
  0x006400630062, 0x006500630064, 0x006600630065, 0x006700660065, 0x006800660067, 0x006900680067, 0x006a00680069,
  0x007e007f0080, 0x00820080007f, 0x0081007f007e, 0x00830082007f, 0x007e00f20081, 0x008400820083, 0x008100f200f1,
  0x008500820084, 0x00f200f000f1, 0x008600850084, 0x00f100f000ee, 0x008700850086, 0x00f000ef00ee, 0x008800870086,
  0x00ef00ed00ee, 0x008900870088, 0x00ee00ed00ec, 0x008a00890088, 0x00ed00eb00ec, 0x008b008a0088, 0x00ec00eb00e9,
  0x008c008a008b, 0x00eb00ea00e9, 0x008d008c008b, 0x00ea00e800e9, 0x008e008c008d, 0x00e900e800e6, 0x008f008e008d,
  0x00e800e700e6, 0x0090008e008f, 0x00e700e500e6, 0x00910090008f, 0x00e600e500e4, 0x00920091008f, 0x00e500e200e4,
  0x009300910092, 0x00e400e200e3, 0x009400930092, 0x00e300e200e1, 0x009500930094, 0x00e200e000e1, 0x009600950094,
  0x00e100e000df, 0x009700950096, 0x00e000de00df, 0x009800970096, 0x00df00de00dd, 0x009900970098, 0x00de00dc00dd,
  0x009a00990098, 0x00dd00dc00da, 0x009b0099009a, 0x00dc00db00da, 0x009c009b009a, 0x00db00d900da, 0x009d009c009a,
  0x00da00d900d8, 0x009e009c009d, 0x00d900d700d8, 0x009f009e009d, 0x00d800d700d6, 0x00a0009f009d, 0x00d700d500d6,
  0x00a1009f00a0, 0x00d600d500d4, 0x00a200a100a0, 0x00d500d300d4, 0x00a300a100a2, 0x00d400d300d1, 0x00a400a100a3,
  0x00d300d200d1, 0x00a500a400a3, 0x00d200d000d1, 0x00a600a500a3, 0x00d100d000cf, 0x00a700a500a6, 0x00d000ce00cf,
  0x00a800a700a6, 0x00cf00ce00cd, 0x00a900a700a8, 0x00ce00cc00cd, 0x00aa00a900a8, 0x00cd00cc00cb, 0x00ab00a900aa,
  0x00cc00ca00cb, 0x00ac00ab00aa, 0x00cb00ca00c9, 0x00ad00ac00aa, 0x00ca00c800c9, 0x00ae00ac00ad, 0x00c900c800c7,
  0x00af00ae00ad, 0x00c800c600c7, 0x00b000ae00af, 0x00c700c600c5, 0x00b100b000af, 0x00c600c400c5, 0x00b200b000b1,
  0x00c500c400c3, 0x00b300b000b2, 0x00c400c200c3, 0x00b400b300b2, 0x00c300c200c1, 0x00b500b300b4, 0x00c200c000c1,
  0x00b600b500b4, 0x00c100c000bf, 0x00b700b600b4, 0x00c000be00bf, 0x00b800b600b7, 0x00bf00be00bc, 0x00b900b800b7,
  0x00be00bd00bc, 0x00ba00b800b9, 0x00bd00ba00bc, 0x00bb00ba00b9, 0x00bc00ba00bb, 0x00f300f400f5, 0x00f600f500f4,
  0x00f5016500f3, 0x00f700f500f6, 0x00f301650164, 0x00f800f700f6, 0x016501630164, 0x00f900f700f8, 0x016401630162,
  0x00fa00f900f8, 0x016301610162, 0x00fb00f900fa, 0x016201610160, 0x00fc00fb00fa, 0x0161015f0160, 0x00fd00fb00fc,
  0x0160015f015e, 0x00fe00fd00fc, 0x015f015c015e, 0x00ff00fd00fe, 0x015e015c015d, 0x010000fd00ff, 0x015d015c015b,
  0x0101010000ff, 0x015c015a015b, 0x010201000101, 0x015b015a0159, 0x010301020101, 0x015a01580159, 0x010401020103,
  0x015901580157, 0x010501040103, 0x015801560157, 0x010601040105, 0x015701560155, 0x010701060105, 0x015601540155,
  0x010801070105, 0x015501540153, 0x010901070108, 0x015401520153, 0x010a01090108, 0x015301520151, 0x010b0109010a,
  0x015201500151, 0x010c0109010b, 0x01510150014f, 0x010d010c010b, 0x0150014e014f, 0x010e010c010d, 0x014f014e014d,
  0x010f010e010d, 0x014e014c014d, 0x0110010f010d, 0x014d014c014b, 0x0111010f0110, 0x014c014a014b, 0x011201110110,
  0x014b014a0149, 0x011301110112, 0x014a01470149, 0x011401130112, 0x014901470148, 0x011501140112, 0x014801470146,
  0x011601140115, 0x014701450146, 0x011701160115, 0x014601450143, 0x011801160117, 0x014501440143, 0x011901180117,
  0x014401420143, 0x011a01180119, 0x014301420141, 0x011b011a0119, 0x014201400141, 0x011c011a011b, 0x01410140013f,
  0x011d011c011b, 0x0140013e013f, 0x011e011d011b, 0x013f013e013c, 0x011f011d011e, 0x013e013d013c, 0x0120011f011e,
  0x013d013b013c, 0x0121011f0120, 0x013c013b013a, 0x0122011f0121, 0x013b0139013a, 0x012301220121, 0x013a01390137,
  0x012401220123, 0x013901380137, 0x012501240123, 0x013801360137, 0x012601240125, 0x013701360135, 0x012701260125,
  0x013601330135, 0x012801260127, 0x013501330134, 0x012901280127, 0x013401330132, 0x012a01290127, 0x013301310132,
  0x012b0129012a, 0x013201310130, 0x012c012b012a, 0x0131012f0130, 0x012d012b012c, 0x0130012f012e, 0x012e012d012c,
  0x012f012d012e, 0x016601670168, 0x016901660168, 0x0168016701dc, 0x016a01660169, 0x016701db01dc, 0x016b016a0169,
  0x01dc01db01da, 0x016c016a016b, 0x01db01d901da, 0x016d016c016b, 0x01da01d901d8, 0x016e016c016d, 0x01d901d701d8,
  0x016f016e016d, 0x01d801d701d6, 0x0170016f016d, 0x01d701d501d6, 0x0171016f0170, 0x01d601d501d3, 0x017201710170,
  0x01d501d401d3, 0x017301710172, 0x01d401d201d3, 0x017401730172, 0x01d301d201cf, 0x017501730174, 0x017601730175,
  0x01d201d001cf, 0x01cf01d001d1, 0x017701780179, 0x017a01780177, 0x017b017a0177, 0x017c017a017b, 0x017d017c017b,
  0x017e017c017d, 0x017f017e017d, 0x0180017e017f, 0x01810180017f, 0x018201800181, 0x018301820181, 0x018401820183,
  0x018501840183, 0x018601840185, 0x018701860185, 0x018801870185, 0x018901870188, 0x018a01890188, 0x018b0189018a,
  0x018c018b018a, 0x018d018b018c, 0x018e018d018c, 0x018f018d018e, 0x0190018f018e, 0x0191018f0190, 0x019201910190,
  0x019301910192, 0x019401930192, 0x019501940192, 0x019601970198, 0x019901960198, 0x019a01960199, 0x019b019a0199,
  0x019c019a019b, 0x019d019c019b, 0x019e019c019d, 0x019f019e019d, 0x01a0019e019f, 0x01a101a0019f, 0x01a201a001a1,
  0x01a301a201a1, 0x01a401a201a3, 0x01a501a401a3, 0x01a601a401a5, 0x01a701a601a5, 0x01a801a601a7, 0x01a901a801a7,
  0x01aa01a801a9, 0x01ab01aa01a9, 0x01ac01aa01ab, 0x01ad01ac01ab, 0x01ae01ad01ab, 0x01af01ad01ae, 0x01b001af01ae,
  0x01b101af01b0, 0x01b201b301b4, 0x01b501b301b2, 0x01b601b501b2, 0x01b701b601b2, 0x01b801b601b7, 0x01b901b601b8,
  0x01ba01b901b8, 0x01bb01b901ba, 0x01bc01bb01ba, 0x01bd01bb01bc, 0x01be01bd01bc, 0x01bf01bd01be, 0x01c001bf01be,
  0x01c101bf01c0, 0x01c201c101c0, 0x01c301c101c2, 0x01c401c301c2, 0x01c501c301c4, 0x01c601c501c4, 0x01c701c501c6,
  0x01c801c701c6, 0x01c901c701c8, 0x01ca01c901c8, 0x01cb01c901ca, 0x01cc01cb01ca, 0x01cd01cb01cc, 0x01ce01cd01cc,
  0x01dd01de01df, 0x01e001de01dd, 0x01e101e201e3, 0x01e401e101e3, 0x01e201e501e6, 0x01eb01e601e5, 0x01e701e501e2,
  0x01ea01e701e9, 0x01ec01ea01e9, 0x01ed01ec01e9, 0x01e901e701e8, 0x01e801e701e2, 0x01e801ee01ef, 0x01f501ef01ee,
  0x01f601f501ee, 0x01f001ee01e8, 0x01e201f001e8, 0x01f801f001f7, 0x01f901f801f7, 0x01fa01f901f7, 0x01f701f001f1,
  0x01f101f001e2, 0x01f201f101e2, 0x01f301f101f2, 0x01f401f101f3, 0x01fb01f401f3, 0x01fc01fb01f3, 0x01e201ff01f2,
  0x01ff01fd01f2, 0x01f201fd01fe, 0x020401fe01fd, 0x0205020401fd, 0x020001ff01e2, 0x020601ff0200, 0x020701ff0206,
  0x020802070206, 0x020902080206, 0x0201020001e2, 0x020202000201, 0x020302000202, 0x020a02030202, 0x020b020a0202,
  0x020c020a020b, 0x01e2020f0201, 0x01e1020f01e2, 0x020f020d0201, 0x0201020d020e, 0x0210020e020d, 0x02110210020d,
  0x01e10214020f, 0x02140212020f, 0x020f02120213, 0x021902130212, 0x021a02130219, 0x0215021401e1, 0x021b02140215,
  0x021c0214021b, 0x021d021c021b, 0x021e021c021d, 0x021f021e021d, 0x0216021501e1, 0x021702150216, 0x021802150217,
  0x022002180217, 0x022102200217, 0x01e102240216, 0x022402220216, 0x021602220223, 0x022902230222, 0x022a02290222,
  0x0225022401e1, 0x022b02240225, 0x022c0224022b, 0x022d022c022b, 0x022e022d022b, 0x0226022501e1, 0x022702250226,
  0x022802250227, 0x022f02280227, 0x02300228022f, 0x01e102330226, 0x0234023301e1, 0x0235023401e1, 0x023302310226,
  0x022602310232, 0x023902320231, 0x023a02390231, 0x023b02330234, 0x023c0233023b, 0x023d023c023b, 0x023602340235,
  0x023702360235, 0x023802360237, 0x023e023f0240, 0x0240024c023e, 0x02430240023f, 0x023e024c024b, 0x02440243023f,
  0x024b024a023e, 0x0241023f023e, 0x0242023f0241, 0x023e024a0247, 0x02450244023f, 0x024a02490247, 0x024602440245,
  0x024702460245, 0x024902480247, 0x024802460247, 0x024d024e024f, 0x0251024f024e, 0x0252024f0251, 0x025302520251,
  0x0250024e024d, 0x028402530251, 0x02840251024e, 0x024e02500278, 0x0250024d0278, 0x02780284024e, 0x024d02810276,
  0x0278024d0276, 0x028302890253, 0x027602750278, 0x027502840278, 0x025302820283, 0x028202530284, 0x02830282028a,
  0x027502820284, 0x027502760277, 0x0277027c0275, 0x027d02770276, 0x025402550256, 0x025702550254, 0x025502570258,
  0x025402680257, 0x025402850268, 0x028502860268, 0x0268025b0257, 0x0257025b0258, 0x025b02590258, 0x02580259025a,
  0x025c025d025e, 0x025c025f025d, 0x025f025c025e, 0x025d025f0260, 0x025e02670262, 0x0261025e0262, 0x025e0261025f,
  0x02610260025f, 0x026a02600261, 0x026302640265, 0x026602640263, 0x026502640269, 0x026602630270, 0x026502690287,
  0x028802870269, 0x026502730263, 0x027302650287, 0x027002630273, 0x027302870288, 0x0273027b0270, 0x0273027e027b,
  0x0288027e0273, 0x027e0288028c, 0x028b028c0288, 0x026b026c026d, 0x026e026c026b, 0x026e026f026c, 0x026e026b0271,
  0x0271026b0272, 0x027102720274, 0x027102740279, 0x0271027a026e, 0x027a026f026e, 0x0279027a0271, 0x0279026f027a,
  0x027f026f0279, 0x0280027f0279, 0x028d028e028f, 0x0290028e028d, 0x029102920293, 0x029302970291, 0x029602970293,
  0x029502970296, 0x029402950296, 0x029402980295, 0x0299029a029b, 0x029c029a0299, 0x029d029e029f, 0x02a0029e029d,
  0x02a102a202a3, 0x02a502a102a3, 0x02a402a502a3, 0x02a102a602a2, 0x02a202a602a7, 0x02a802a902aa, 0x02ab02a902a8,
  0x02ac02ad02ae, 0x02af02ad02ac, 0x02b002b102b2, 0x02b002b502b1, 0x02b602b502b0, 0x02b102b302b2, 0x02b202b302b4,
  0x02b702b802b9, 0x02ba02b702b9, 0x02bb02bc02bd, 0x02be02bb02bd, 0x02bf02c002c1, 0x02bf02c102c4, 0x02c402c502bf,
  0x02c002c302c1, 0x02c202c302c0, 0x02c602c702c8, 0x02c902c602c8, 0x02c8038302c9, 0x02c903830382, 0x038203830384,
  0x0385038302c8, 0x0386038502c8, 0x038703850386, 0x038803850387, 0x038903880387, 0x02d6038802d7, 0x02d702d402d6,
  0x02d402d502d6, 0x038a038802d6, 0x038b038a02d6, 0x038c038a038b, 0x038d038c038b, 0x02e2038c038d, 0x038e038c02e2,
  0x02e4038e02e2, 0x02e202e302e4, 0x02ca02cb02cc, 0x02cd02ca02cc, 0x02ce02cf02d0, 0x02d102cf02ce, 0x02d102ce02d2,
  0x02d102d202d3, 0x02d802d902da, 0x02db02d902d8, 0x02dc02dd02de, 0x02df02dc02de, 0x02dc02df02e0, 0x02df02e102e0,
  0x02e502e602e7, 0x02e802e602e5, 0x02e902ea02eb, 0x02ec02ea02e9, 0x02ed02ee02ef, 0x02ed02ef02f5, 0x02f502ef02f2,
  0x02f202f602f5, 0x02f602f202f1, 0x02f002f102f2, 0x02f102f002f3, 0x02f402f302f0, 0x02f702f802f9, 0x02fa02f802f7,
  0x02fb02fc02fd, 0x02fe02fc02fb, 0x02ff03000301, 0x030002ff0303, 0x0302030302ff, 0x030103000304, 0x030503010304,
  0x030603070308, 0x030903070306, 0x030a030b030c, 0x030d030b030a, 0x030e030f0310, 0x0311030f030e, 0x031203130314,
  0x031203170313, 0x031803170312, 0x031503140313, 0x031603140315, 0x0319031a031b, 0x031c031a0319, 0x031d031e031f,
  0x0320031e031d, 0x03210320031d, 0x032203200321, 0x032303200322, 0x032403230322, 0x039a03990324, 0x032403990325,
  0x032503230324, 0x032603230325, 0x032703260325, 0x032803260327, 0x032903260328, 0x032a03260329, 0x032b032a0329,
  0x03a803a7032b, 0x032b03a7032c, 0x032c032a032b, 0x032d032a032c, 0x032e032d032c, 0x032f032d032e, 0x0330032d032f,
  0x033103320333, 0x033403310333, 0x033503310334, 0x033603310335, 0x033703360335, 0x033803360337, 0x033903360338,
  0x033a03360339, 0x033b0336033a, 0x033c033b033a, 0x033d033b033c, 0x033e033b033d, 0x033f033b033e, 0x0340033b033f,
  0x03410340033f, 0x034203400341, 0x034303400342, 0x034403430342, 0x034503430344, 0x034603430345, 0x034703430346,
  0x034803470346, 0x034903470348, 0x034a03470349, 0x034b034a0349, 0x034c034a034b, 0x034d034a034c, 0x034e034a034d,
  0x034f034e034d, 0x0350034e034f, 0x0351034e0350, 0x0352034e0351, 0x0353034e0352, 0x0354034e0353, 0x035503540353,
  0x035603540355, 0x035703540356, 0x035803540357, 0x035903580357, 0x035a03580359, 0x035b0358035a, 0x035c0358035b,
  0x035d035c035b, 0x035e035c035d, 0x035f035c035e, 0x0360035f035e, 0x0361035f0360, 0x0362035f0361, 0x0363035f0362,
  0x0364035f0363, 0x0365035f0364, 0x0366035f0365, 0x0367035f0366, 0x036803670366, 0x036903670368, 0x036a03670369,
  0x036b0367036a, 0x036c0367036b, 0x036d036c036b, 0x036e036c036d, 0x036f036c036e, 0x0370036f036e, 0x0371036f0370,
  0x0372036f0371, 0x0373036f0372, 0x0374036f0373, 0x0375036f0374, 0x037603750374, 0x037703750376, 0x037803750377,
  0x037903750378, 0x037a03750379, 0x037b037a0379, 0x037c037a037b, 0x037d037a037c, 0x037e037a037d, 0x037f037e037d,
  0x0380037e037f, 0x0381037e0380, 0x038f03900391, 0x0392038f0391, 0x0393038f0392, 0x039403950396, 0x039703950394,
  0x039803950397, 0x039b039c039d, 0x03a2039d039c, 0x039e039c039b, 0x039b039f039e, 0x039e039f03a1, 0x039f03a003a1,
  0x03a303a403a5, 0x03a603a403a3, 0x03a903aa03ab, 0x03ab03aa03ac, 0x03a903ad03aa, 0x03ad03a903b1, 0x03b103b203ad,
  0x03ae03af03b0, 0x03ae03b303af, 0x03af03b303b4, 0x03b503b603b7, 0x03b803b503b7, 0x03b903ba03bb, 0x03bc03b903bb,
  0x03bc03bb03bd, 0x03be03bc03bd, 0x03bf03be03bd, 0x03c003be03bf, 0x03c103c203c3, 0x03c403c203c1, 0x03c503c603c7,
  0x03c803c603c5, 0x03c903ca03cb, 0x03c903cc03ca, 0x03cc03c903cd, 0x03cb03ca03ce, 0x03d003cb03ce, 0x03cf03d003ce,
  0x03d103d203d3, 0x03d403d203d1, 0x03d503d603d7, 0x03d803d603d5, 0x03d903da03db, 0x03da03dc03db, 0x03db03dc03dd,
  0x03d903df03da, 0x03e003df03d9, 0x03de03df03e0, 0x03e103e203e3, 0x03e403e203e1, 0x03e503e603e7, 0x03e803e603e5,
  0x03e903ea03eb, 0x03ec03ea03e9, 0x03ec03f003ea, 0x03eb03ef03e9, 0x03ef03eb03ed, 0x03ed03ee03ef, 0x03f103f203f3,
  0x03f403f203f1, 0x03f503f603f7, 0x03f803f603f5, 0x03f903fa03fb, 0x03fb040203f9, 0x040203fb03fd, 0x03fc03fd03fb,
  0x03fd03fc03fe, 0x03fe03ff03fd, 0x03ff03fe0400, 0x0400040103ff, 0x040304040405, 0x040604040403, 0x040704080409,
  0x040a04080407, 0x040b040c040d, 0x040d040c0410, 0x04100411040d, 0x040e040c040b, 0x040f040e040b, 0x040f0412040e,
  0x041304140415, 0x041604140413, 0x041704140416, 0x041804170416, 0x041904170418, 0x041a04190418, 0x041b0419041a,
  0x041c0419041b, 0x041d041c041b, 0x041e041c041d, 0x041f041c041e, 0x0420041c041f, 0x04210420041f, 0x042204200421,
  0x042304220421, 0x042404220423, 0x042504220424, 0x042604250424, 0x042704250426, 0x042804250427, 0x042904250428,
  0x042a04290428, 0x042b0429042a, 0x042c042b042a, 0x042d042b042c, 0x042e042b042d, 0x042f042e042d, 0x0430042e042f,
  0x04310430042f, 0x04320431042f, 0x043304310432, 0x043404310433, 0x043504340433, 0x043604340435, 0x043704360435,
  0x043804360437, 0x043904360438, 0x043a04390438, 0x043b0439043a, 0x043c043b043a, 0x043d043b043c, 0x043e043b043d,
  0x043f043e043d, 0x0440043e043f, 0x04410440043f, 0x044204400441, 0x044304420441, 0x044404420443, 0x044504420444,
  0x044604470448, 0x044904470446, 0x044a044b044c, 0x044d044b044a, 0x044e044c044b, 0x044f044c044e, 0x0450044f044e,
  0x0451044f0450, 0x045204510450, 0x045304510452, 0x045404530452, 0x045504530454, 0x045604550454, 0x045704550456,
  0x045804570456, 0x045904570458, 0x045a04590458, 0x045b0459045a, 0x045c045b045a, 0x045d045b045c, 0x045e045d045c,
  0x045f045d045e, 0x0460045f045e, 0x0461045f0460, 0x046204610460, 0x046304610462, 0x046404630462, 0x046504630464,
  0x046604650464, 0x046704680469, 0x046a04680467, 0x046b046a0467, 0x046c046a046b, 0x046d04690468, 0x046e0469046d,
  0x046f046e046d, 0x0470046e046f, 0x04710470046f, 0x047204700471, 0x047304720471, 0x047404730471, 0x047504730474,
  0x047604750474, 0x047704750476, 0x047804770476, 0x047904770478, 0x047a04790478, 0x047b0479047a, 0x047c047b047a,
  0x047d047b047c, 0x047e047d047c, 0x047f047e047c, 0x0480047e047f, 0x0481047e0480, 0x048204810480, 0x048304810482,
  0x048404830482, 0x048504830484, 0x048604850484, 0x048704880489, 0x048c0489048b, 0x048b04890488, 0x04be04c4048b,
  0x04c504be04bd, 0x048b04bd04be, 0x048b04bf04bd, 0x048b048804bf, 0x04bd04bf04b5, 0x048a04880487, 0x04b604bf0488,
  0x0488048a04b6, 0x04b504bf04b6, 0x048a048704b9, 0x048a04b904b6, 0x048704bc04b9, 0x04b904bc04ba, 0x04ba04b304b9,
  0x04b604b904b3, 0x04b304b504b6, 0x04b304b404b5, 0x048d048e048f, 0x0490048e048d, 0x04c30490048d, 0x0491048e0490,
  0x049004c304a3, 0x049204910490, 0x049004a30492, 0x049104920493, 0x04a304940492, 0x049204940493, 0x049404950493,
  0x049604970498, 0x049704a2049d, 0x049c0497049d, 0x049904980497, 0x04a5049b049c, 0x0499049a0498, 0x0498049a049b,
  0x049a04990497, 0x049c049b049a, 0x0497049c049a, 0x049e049f04a0, 0x04a1049f049e, 0x04a0049f04a4, 0x04a1049e04ab,
  0x04a004a404c0, 0x04a404c104c0, 0x04a004ae049e, 0x04ae04a004c0, 0x04ab049e04ae, 0x04c004c104c2, 0x04ae04c004c2,
  0x04ae04af04ab, 0x04c204af04ae, 0x04af04b004ab, 0x04af04c204c7, 0x04c604c704c2, 0x04a604a704a8, 0x04a904a704a6,
  0x04a904aa04a7, 0x04ac04a604ad, 0x04a904a604ac, 0x04b804aa04a9, 0x04ac04b804a9, 0x04bb04aa04b8, 0x04b704bb04b8,
  0x04b704b804ac, 0x04ac04b204b7, 0x04b104b204ac, 0x04c804c904ca, 0x04cb04c904c8, 0x04cc04cd04ce, 0x04cf04cd04cc,
  0x04d004d104d2, 0x04d104d504d2, 0x04d304d104d0, 0x04d404d304d0, 0x04d604d704d8, 0x04d604e004d7, 0x0530052f04d8,
  0x04d8052f052b, 0x04d604e104e2, 0x04e304e104d6, 0x052d052c052b, 0x052e052c052d, 0x052c0526052b, 0x052b052604d8,
  0x04e404e304d6, 0x04e504e304e4, 0x04e804e504e7, 0x04e704e504e6, 0x04e604e504e4, 0x04e904e404d6, 0x04ea04e404e9,
  0x04ec04ea04eb, 0x04eb04ea04e9, 0x04ed04e904d6, 0x04ee04e904ed, 0x04f104ee04f0, 0x04f004ee04ef, 0x04ef04ee04ed,
  0x04f204ed04d6, 0x04f304ed04f2, 0x04f604f304f5, 0x04f504f304f4, 0x04f404f304f2, 0x04f704f204d6, 0x04f804f204f7,
  0x04f904f804f7, 0x04fa04f804f9, 0x04fb04f804fa, 0x04fc04fb04fa, 0x04fd04f704d6, 0x04fe04f704fd, 0x050104fe0500,
  0x050004fe04ff, 0x04ff04fe04fd, 0x04da04fd04d6, 0x050204fd04da, 0x0503050204da, 0x050405020503, 0x050505040503,
  0x050605040505, 0x04da04d604d9, 0x04d904d604d8, 0x04db04da04d9, 0x04dc04da04db, 0x04dd04dc04db, 0x04de04dd04db,
  0x04df04dd04de, 0x050704d904d8, 0x050804d90507, 0x050b0508050a, 0x050a05080509, 0x050905080507, 0x050c050704d8,
  0x050d0507050c, 0x050e050d050c, 0x050f050d050e, 0x0510050d050f, 0x05110510050f, 0x0512050c04d8, 0x0513050c0512,
  0x051605130515, 0x051505130514, 0x051405130512, 0x0517051204d8, 0x051805120517, 0x051905180517, 0x051a05180519,
  0x051b051a0519, 0x051c051704d8, 0x051d0517051c, 0x0520051d051f, 0x051f051d051e, 0x051e051d051c, 0x0521051c04d8,
  0x0526052104d8, 0x0522051c0521, 0x052705210526, 0x052305220521, 0x052805270526, 0x052405220523, 0x052505220524,
  0x052905270528, 0x052a05270529, 0x053105320533, 0x053405320531, 0x053105330540, 0x053505340531, 0x0533053d0540,
  0x053605340535, 0x0540053d053f, 0x053705340536, 0x053f053d053e, 0x053805340537, 0x053e053d053c, 0x053905380537,
  0x053d053a053c, 0x053a05380539, 0x053c053a053b, 0x053b053a0539, 0x054105420543, 0x054305480541, 0x054205410544,
  0x054405450542, 0x054505440546, 0x054405470546, 0x0549054a054b, 0x054b054c0549, 0x0549054c054d, 0x054e054f0550,
  0x0551054f054e, 0x055205530554, 0x0554055a0552, 0x0559055a0554, 0x055405580559, 0x055905580557, 0x0557055b0559,
  0x055b05570556, 0x055505560557, 0x055c055d055e, 0x055f055d055c, 0x056005610562, 0x056305610560, 0x056405650566,
  0x056505640567, 0x056c05670564, 0x0565056a0566, 0x056a05690566, 0x05680569056a, 0x0568056b0569, 0x056d056e056f,
  0x0570056e056d, 0x057105720573, 0x057405720571, 0x057505760577, 0x05770576057b, 0x057c0577057b, 0x057c057d0577,
  0x057d057c057a, 0x057c0578057a, 0x05780579057a, 0x057e057f0580, 0x0581057f057e, 0x058205830584, 0x058505830582,
  0x058605870588, 0x0587058b0588, 0x058b058c0588, 0x058c058b058a, 0x0589058a058b, 0x058d058e058f, 0x0590058e058d,
  0x059105920593, 0x059405920591, 0x059505960597, 0x05970596059a, 0x059605950599, 0x059805990595, 0x05990598059b,
  0x059c059d059e, 0x059f059c059e, 0x05a005a105a2, 0x05a305a105a0, 0x05a405a505a6, 0x05a705a505a4, 0x05a805a705a4,
  0x05a905a705a8, 0x05a905a805aa, 0x05ab05ac05ad, 0x05ae05ac05ab, 0x05d005cf05ad, 0x05ad05cf05ab, 0x05cf05cd05ab,
  0x05ab05cd05ce, 0x05ce05cd05cc, 0x05cd05ca05cc, 0x05cc05ca05cb, 0x05cb05ca05bd, 0x05bd05ca05bb, 0x05bb05bc05bd,
  0x05be05bc05bb, 0x05ca05c905bb, 0x05bb05c905c6, 0x05c905c705c6, 0x05c605c705c8, 0x05af05b005b1, 0x05b205b005af,
  0x05b305b405b5, 0x05b705b305b5, 0x05b705b505b8, 0x05b605b405b3, 0x05b605ba05b4, 0x05b605b905ba, 0x05bf05c005c1,
  0x05c205c005bf, 0x05d105d205d3, 0x05d405d205d1, 0x05d505d205d4, 0x05d605d505d4, 0x05d705d505d6, 0x05d805d505d7,
  0x05d905d805d7, 0x05da05d805d9, 0x05db05d805da, 0x05dc05d805db, 0x05dd05dc05db, 0x05de05dc05dd, 0x05df05dc05de,
  0x05e005dc05df, 0x05e105dc05e0, 0x05e205e105e0, 0x05e305e105e2, 0x05e405e105e3, 0x05e505e105e4, 0x05e605e105e5,
  0x05e705e105e6, 0x05e805e705e6, 0x05e905e705e8, 0x05ea05e705e9, 0x05eb05e705ea, 0x05ec05eb05ea, 0x05ed05eb05ec,
  0x05ee05eb05ed, 0x05ef05eb05ee, 0x05f005eb05ef, 0x05f105eb05f0, 0x05f205f105f0, 0x05f305f105f2, 0x05f405f105f3,
  0x05f505f105f4, 0x05f605f105f5, 0x05f705f105f6, 0x05f805f105f7, 0x05f905f105f8, 0x05fa05f105f9, 0x05fb05fa05f9,
  0x05fc05fa05fb, 0x05fd05fa05fc, 0x05fe05fd05fc, 0x05ff05fd05fe, 0x060005fd05ff, 0x060105fd0600, 0x060205fd0601,
  0x060306020601, 0x060406020603, 0x060506020604, 0x060606020605, 0x060706060605, 0x060806060607, 0x060906060608,
  0x060a06060609, 0x060b060a0609, 0x060c060a060b, 0x060d060a060c, 0x060d060e060a, 0x060f060e060d, 0x0610060e060f,
  0x0611060e0610, 0x061206110610, 0x061306110612, 0x061406110613, 0x061506110614, 0x061606150614, 0x061706150616,
  0x061806150617, 0x061906180617, 0x061a06180619, 0x061b0618061a, 0x061c0618061b, 0x061d0618061c, 0x061e061d061c,
  0x061f061d061e, 0x0620061d061f, 0x0621061d0620, 0x0622061d0621, 0x062306220621, 0x062406220623, 0x062506260627,
  0x062806260625, 0x062906280625, 0x062a06280629, 0x06290681062a, 0x06810682062a, 0x062b0628062a, 0x062c062b062a,
  0x062d062b062c, 0x062e062b062d, 0x062f062b062e, 0x0630062b062f, 0x06310630062f, 0x062f06740631, 0x067406750631,
  0x063206300631, 0x063306300632, 0x063406330632, 0x063506360637, 0x063806360635, 0x0639063a063b, 0x063c063a0639,
  0x063d063e063f, 0x0640063d063f, 0x0641063d0640, 0x0642063d0641, 0x064306420641, 0x064406420643, 0x064506440643,
  0x064606440645, 0x064706460645, 0x064806460647, 0x064906480647, 0x064a06480649, 0x064b0648064a, 0x064c064b064a,
  0x064d064b064c, 0x064e064d064c, 0x064f064e064c, 0x0650064e064f, 0x0651064e0650, 0x065206510650, 0x065306510652,
  0x065406530652, 0x065506540652, 0x065606540655, 0x065706540656, 0x065806570656, 0x065906580656, 0x065a06580659,
  0x065b0658065a, 0x065c065b065a, 0x065d065b065c, 0x065e065b065d, 0x065f065e065d, 0x0660065e065f, 0x0661065e0660,
  0x066206610660, 0x066306610662, 0x066406630662, 0x066506630664, 0x066606650664, 0x066706650666, 0x066806650667,
  0x066906680667, 0x066a06680669, 0x066b066a0669, 0x066c066b0669, 0x066d066b066c, 0x066e066b066d, 0x066f06700671,
  0x06720670066f, 0x06730672066f, 0x067606770678, 0x06780677067c, 0x0678067b0676, 0x067b06790676, 0x06760679067a,
  0x067d067e067f, 0x0680067d067f, 0x068306840685, 0x068506840689, 0x068606830685, 0x068506880686, 0x068706860688,
  0x068a068b068c, 0x068d068a068c, 0x068e068d068c, 0x068f06900691, 0x0692068f0691, 0x069306940695, 0x069906950694,
  0x069306970694, 0x069606970693, 0x069806970696, 0x069a069b069c, 0x069d069b069a, 0x069e069f06a0, 0x06a1069f069e,
  0x06a206a306a4, 0x06a706a206a4, 0x06a506a706a4, 0x06a506a606a7, 0x06a506a806a6, 0x06a606a806a9, 0x06aa06ab06ac,
  0x06ad06ab06aa, 0x06ae06af06b0, 0x06b106af06ae, 0x06b206b306b4, 0x06b206b406b8, 0x06b306b206b6, 0x06b506b306b6,
  0x06b506b606b7, 0x06b706b906b5, 0x06ba06bb06bc, 0x06bd06bb06ba, 0x06be06bf06c0, 0x06c106bf06be, 0x06c206c306c4,
  0x06c206ca06c3, 0x06c306ca06cb, 0x06c806c206c4, 0x06c906c806c4, 0x06c506c606c7, 0x06c706cc06c5, 0x06cd06cc06c7,
  0x06ce06cf06d0, 0x06d106cf06ce, 0x06d206d306d4, 0x06d306dc06d4, 0x06d306d206d5, 0x06d506d206d7, 0x06d506d706d6,
  0x06d606d706d8, 0x06d906da06db, 0x06db06dd06d9, 0x06de06dd06db, 0x06df06e006e1, 0x06e206e006df, 0x06e306e406e5,
  0x06e406e306e6, 0x06e606e706e4, 0x06e506e406e8, 0x06e806e906e5, 0x06ea06e906e8, 0x06eb06ec06ed, 0x06ee06ec06eb,
  0x06ef06f006f1, 0x06f206f006ef, 0x06f306f406f5, 0x06f606f706f8, 0x06f906f706f6, 0x06fa06fb06fc, 0x06fd06fb06fa,
  0x06fe06ff0700, 0x06ff071b0700, 0x0700071b071c, 0x070106ff06fe, 0x0702070106fe, 0x070307010702, 0x070407030702,
  0x070507060707, 0x070807050707, 0x070907050708, 0x070a07050709, 0x070b070a0709, 0x070c070a070b, 0x070d070e070f,
  0x0710070e070d, 0x07110710070d, 0x071207100711, 0x071307120711, 0x071407150716, 0x071707150714, 0x071807170714,
  0x071907180714, 0x071a07180719, 0x071d071e071f, 0x0725071f071e, 0x0720071e071d, 0x07260725071e, 0x07210720071d,
  0x072707250726, 0x07220721071d, 0x072807270726, 0x072907270728, 0x072307210722, 0x072407230722, 0x072a072b072c,
  0x0792072c072b, 0x072b072a0743, 0x0792072b0773, 0x072b07430773, 0x0791072c0792, 0x077307840792, 0x079107920784,
  0x07730743076b, 0x077907840773, 0x076b07790773, 0x079307910784, 0x0779076b0776, 0x079307940791, 0x07a607840779,
  0x079507910794, 0x07910795072c, 0x078407850793, 0x0785078407a6, 0x07940793078f, 0x079407960795, 0x078f07960794,
  0x072e07950796, 0x0795072e072c, 0x072e07960735, 0x0793078d078f, 0x078f078d0790, 0x078d07930785, 0x0734072e0735,
  0x073507360734, 0x072d072c072e, 0x072e0734072d, 0x072c072d072a, 0x073707340736, 0x073707360738, 0x073907340737,
  0x0739072d0734, 0x073907370740, 0x072d073a072a, 0x072d0739073a, 0x078d0783078e, 0x073a07390744, 0x074007440739,
  0x0783078d0780, 0x07850780078d, 0x078207830780, 0x078107800785, 0x078007810782, 0x0781078507a6, 0x0782078107a7,
  0x07a607a70781, 0x07a707a607a5, 0x072a073a0746, 0x07440746073a, 0x07460743072a, 0x077a07a507a6, 0x07a5077a0775,
  0x0778077a07a6, 0x0779077807a6, 0x077607780779, 0x0776077a0778, 0x07760775077a, 0x077407750776, 0x07740776076d,
  0x07710772076d, 0x076807a30771, 0x0771076d0768, 0x076c076d0776, 0x076b076c0776, 0x07670768076d, 0x076c0767076d,
  0x0764076c076b, 0x076c07640767, 0x076b07430764, 0x076707650768, 0x076507670764, 0x076507660768, 0x0765075e0766,
  0x075507640743, 0x074307460755, 0x0764075b0765, 0x0765075b075e, 0x07640755075c, 0x0764075c075b, 0x075d075e075b,
  0x075b075c075d, 0x075e075a07a1, 0x075a075e075d, 0x075d075c0754, 0x075a075d0754, 0x07550754075c, 0x0753075a0754,
  0x075a07530750, 0x074a07540755, 0x07530754074a, 0x074a07550746, 0x075007530751, 0x075007510752, 0x075607520751,
  0x07560751074c, 0x07510753074b, 0x074b074c0751, 0x074a074b0753, 0x0747074c074b, 0x0745074a0746, 0x074a0745074b,
  0x074407450746, 0x0747074b0742, 0x07450742074b, 0x074407420745, 0x074107470742, 0x074407400742, 0x074007410742,
  0x072f07300731, 0x07320730072f, 0x073207330730, 0x073107300733, 0x0733078a0731, 0x07890731078a, 0x0789078a078b,
  0x078907970731, 0x078b078c0789, 0x078c07970789, 0x078c07860797, 0x0786078c0787, 0x078607870788, 0x073b073c073d,
  0x079b073d073c, 0x079c073d079b, 0x079d079c079b, 0x079e079b073c, 0x073c073f079e, 0x073f073c073b, 0x073e073f073b,
  0x073b0749073e, 0x0748073e0749, 0x079f073e0748, 0x07480749074f, 0x074d074e074f, 0x075707580759, 0x079a07590758,
  0x07a007580757, 0x0759075f0757, 0x0757075f0761, 0x075f07600761, 0x07620760075f, 0x076307600762, 0x076307a20760,
  0x076907630762, 0x076a07630769, 0x076e076f0770, 0x0770076f07a4, 0x076f076e0777, 0x0777076e0798, 0x079807990777,
  0x0798077c0799, 0x077c0798077d, 0x077b077c077d, 0x077e077b077d, 0x077f077b077e, 0x07a807a907aa, 0x07ab07aa07a9,
  0x07aa07c307a8, 0x07ac07aa07ab, 0x07a807c307c2, 0x07ad07ac07ab, 0x07c307c007c2, 0x07ae07ac07ad, 0x07c207c007c1,
  0x07af07ae07ad, 0x07c107c007bf, 0x07b007ae07af, 0x07c007bd07bf, 0x07b107b007af, 0x07bf07bd07be, 0x07b207b007b1,
  0x07be07bd07bc, 0x07b307b207b1, 0x07bd07bb07bc, 0x07b407b207b3, 0x07bc07bb07ba, 0x07b507b207b4, 0x07bb07b907ba,
  0x07b607b507b4, 0x07ba07b907b8, 0x07b707b507b6, 0x07b907b707b8, 0x07b807b707b6, 0x07c407c507c6, 0x07c507cd07c6,
  0x07c407c807c5, 0x07c507cc07cd, 0x07c707c807c4, 0x07cd07cc07cf, 0x07c707ca07c8, 0x07cc07ce07cf, 0x07c907ca07c7,
  0x07cb07ca07c9, 0x07cf07ce07d1, 0x07d007d107ce, 0x07d107d007d3, 0x07d207d307d0, 0x07d307d207d4, 0x07d207dc07d4,
  0x07d407dc07dd, 0x07d507d607d7, 0x07d707de07d5, 0x07e607d707d6, 0x07e607e707d7, 0x07e607e407e7, 0x07e407e507e7,
  0x07e407e207e5, 0x07e307e507e2, 0x07e207df07e3, 0x07df07e107e3, 0x07df07e007e1, 0x07e107e007f1, 0x07e007f007f1,
  0x07d807d907da, 0x07d807db07d9, 0x07e807e907ea, 0x07eb07e907e8, 0x07e807ea07f3, 0x07ea07f207f3, 0x07f307f20803,
  0x0802080307f2, 0x080308020801, 0x080208000801, 0x0801080007fe, 0x080007ff07fe, 0x07fe07ff07fd, 0x07fc07fd07ff,
  0x07fd07fc07fb, 0x07fc07fa07fb, 0x07fa07f907fb, 0x07f807f907fa, 0x07f907f807f7, 0x07f807f507f7, 0x07f707f507f4,
  0x07f407f507f6, 0x07f407f60804, 0x07f408040806, 0x080408050806, 0x080408070805, 0x07ec07ed07ee, 0x07ef07ed07ec,
  0x08080809080a, 0x0808080c0809, 0x0809080b080a, 0x081d080a080b, 0x081d081e080a, 0x081d081c081e, 0x081d081b081c,
  0x0818081c081b, 0x0818081b0819, 0x081708180819, 0x081a08180817, 0x0814081a0817, 0x0816081a0814, 0x081408150816,
  0x080d080e080f, 0x080f0820080d, 0x080f080e0821, 0x08200811080d, 0x0821080e0822, 0x0810080d0811, 0x082108220913,
  0x081208100811, 0x091309140821, 0x081308120811, 0x0813081f0812, 0x091509140913, 0x091609150913, 0x091509160910,
  0x091609110910, 0x090f09100911, 0x09110919090f, 0x0918090f0919, 0x091809190908, 0x090609180908, 0x090709060908,
  0x090509060907, 0x091c09050907, 0x091c08f30905, 0x091c08df08f3, 0x08de08f308df, 0x08dd08de08df, 0x08de08dd08e9,
  0x08e908dd08ea, 0x08e808e908ea, 0x08e808ea091b, 0x091a08e8091b, 0x08e7091a091b, 0x08e708e4091a, 0x08e508e408e7,
  0x08e308e408e5, 0x091708e308e5, 0x091708e608e3, 0x091708e108e6, 0x08e008e608e1, 0x08e008e108e2, 0x08e2091208e0,
  0x08e2090e0912, 0x090e08eb0912, 0x08ec08eb090e, 0x08eb08ec08ed, 0x08f408ed08ec, 0x08f408f108ed, 0x08f208f108f4,
  0x08ee08f108f2, 0x08ee08f208ef, 0x08ee08ef08f0, 0x08ef08f508f0, 0x08f508f908f0, 0x08f508f608f9, 0x08f608f808f9,
  0x08f608f708f8, 0x08fb08f808f7, 0x08fa08fb08f7, 0x08fa090008fb, 0x08ff090008fa, 0x08ff09010900, 0x08ff08fe0901,
  0x08fe08fd0901, 0x08fc08fd08fe, 0x090208fd08fc, 0x090208fc0903, 0x090209030904, 0x090409090902, 0x09090904090a,
  0x090a090b0909, 0x090b090a090c, 0x090b090c090d, 0x090c0826090d, 0x090c08240826, 0x082608240823, 0x082308240825,
  0x0825082a0823, 0x0823082a0827, 0x0827082a082b, 0x0827082b0828, 0x082708280829, 0x082c082d082e, 0x082d0836082e,
  0x08370836082d, 0x083808360837, 0x083908380837, 0x083a08380839, 0x083b083a0839, 0x0835083b0839, 0x083c083b0835,
  0x0833083c0835, 0x083508340833, 0x082f082d082c, 0x0834082f0833, 0x082d082f0852, 0x08340881082f, 0x0833082f0832,
  0x08810880082f, 0x0832082f0831, 0x0880087f082f, 0x0831082f0830, 0x0830082f082c, 0x082f087f087e, 0x087e0855082f,
  0x08550853082f, 0x0852082f0841, 0x082f08530854, 0x085408530856, 0x0841082f0851, 0x085708560853, 0x085108500841,
  0x085808570853, 0x085908580853, 0x085a08590853, 0x085b085a0853, 0x0850084f0841, 0x085c085b0853, 0x0841084f084e,
  0x085d085b085c, 0x084e084d0841, 0x085e085d085c, 0x084d084c0841, 0x085f085e085c, 0x0841084c084b, 0x0860085f085c,
  0x084b084a0841, 0x085c08610860, 0x084a08490841, 0x08620861085c, 0x084108490848, 0x08630862085c, 0x084808470841,
  0x08640863085c, 0x084708460841, 0x08650864085c, 0x084108460845, 0x085c08660865, 0x084508440841, 0x08670866085c,
  0x084408430841, 0x086808660867, 0x084108430842, 0x086908660868, 0x083d08410842, 0x086a08660869, 0x08820841083d,
  0x086b0866086a, 0x083f0882083d, 0x086c086b086a, 0x083d083e083f, 0x0840083e083d, 0x086d086c086a, 0x086e086d086a,
  0x086f086e086a, 0x0870086e086f, 0x08710870086f, 0x08720871086f, 0x087308710872, 0x087408730872, 0x087508730874,
  0x087608750874, 0x087708750876, 0x087808750877, 0x087908780877, 0x087a08780879, 0x087b087a0879, 0x087c087a087b,
  0x087d087c087b, 0x088308840885, 0x088608830885, 0x088708830886, 0x088908850884, 0x088808830887, 0x088a08890884,
  0x088308880893, 0x0884088b088a, 0x089308880890, 0x088c088b0884, 0x089008880892, 0x089208910890, 0x08900891088e,
  0x0884088d088c, 0x0890088e088f, 0x0884088e088d, 0x088f088e0884, 0x08840883089b, 0x089e088f0884, 0x089f089e0884,
  0x088408a0089f, 0x088408a108a0, 0x08a208a10884, 0x088408a308a2, 0x089a0884089b, 0x08a408a30884, 0x08a508a308a4,
  0x08a608a308a5, 0x089c0884089a, 0x08a708a308a6, 0x089d089c089a, 0x08a808a708a6, 0x089a08cf089d, 0x08a908a708a8,
  0x08d008cf089a, 0x08aa08a708a9, 0x08d108d0089a, 0x08ab08a708aa, 0x089a08d208d1, 0x08ac08a708ab, 0x08d308d2089a,
  0x08ad08a708ac, 0x08d408d3089a, 0x08ae08a708ad, 0x08af08a708ae, 0x08b008a708af, 0x089a08d508d4, 0x08b108a708b0,
  0x08d608d5089a, 0x08b208b108b0, 0x08d708d6089a, 0x08b308b108b2, 0x089a08d808d7, 0x08b408b108b3, 0x08d908d8089a,
  0x08b508b108b4, 0x08da08d9089a, 0x08b608b108b5, 0x089a08db08da, 0x08b608b708b1, 0x08dc08db089a, 0x08b808b708b6,
  0x089508dc089a, 0x08b608b908b8, 0x089a08990895, 0x08b608ba08b9, 0x089508990898, 0x08bb08ba08b6, 0x089808970895,
  0x08bc08ba08bb, 0x089508970896, 0x089408950896, 0x08bd08ba08bc, 0x08be08ba08bd, 0x08bf08ba08be, 0x08c008bf08be,
  0x08c108bf08c0, 0x08c208bf08c1, 0x08c308c208c1, 0x08c408c208c3, 0x08c508c208c4, 0x08c608c508c4, 0x08c708c608c4,
  0x08c808c608c7, 0x08c908c808c7, 0x08ca08c908c7, 0x08cb08c908ca, 0x08cc08cb08ca, 0x08cd08cb08cc, 0x08cd08ce08cb]

/-- the table of /repo/src/vpx/mesh/kickers/kicker_gottlieb_mesh.rs -/
def kickerGottliebTable : MeshTable := unpackTable kickerGottliebVertices kickerGottliebTris

set_option maxRecDepth 100000 in
/-- the vertices of `KICKER_HOLE_VERTICES`, /repo/src/vpx/mesh/kickers/kicker_hole_mesh.rs:16-209 -/
def kickerHoleVertices : List Nat := [
  0x3f4ba711358637bdbcb2b346be70f27cbcfdf3b63f78adac3e5555823e2dec1c,
  0x3f71185d3e8133e33cb178b3be70f27cbcfdf3b63f78adac3e2aaac100000000,
  0x3f44b6953e52d6edbcb2b346be70f27cbcfdf3b63f78adac3e2aaac13e2dec1c,
  0x3f79999a000000003cb178b3be70f27cbcfdf3b63f78adac3e55558200000000,
  0x3f5828f63ef9999a3cb178b3be60902ebdb9f55a3f78adac3e00004300000000,
  0x3f44b6953e52d6edbcb2b346be60902ebdb9f55a3f78adac3e2aaac13e2dec1c,
  0x3f71185d3e8133e33cb178b3be60902ebdb9f55a3f78adac3e2aaac100000000,
  0x3f305e3e3ecba776bcb2b346be60902ebdb9f55a3f78adac3e0000003e2dec1c,
  0x3f305e3e3ecba776bcb2b346be40d1b7be13f7cf3f78adac3e0000003e2dec1c,
  0x3f307e6b3f307e6b3cb178b3be40d1b7be13f7cf3f78adac3daaab0400000000,
  0x3f1000fc3f100150bcb2b346be40d1b7be13f7cf3f78adac3daaaa7e3e2dec1c,
  0x3f5828f63ef9999a3cb178b3be40d1b7be13f7cf3f78adac3e00004300000000,
  0x3f1000fc3f100150bcb2b346be13f7cfbe40d1b73f78adac3daaaa7e3e2dec1c,
  0x3f307e6b3f307e6b3cb178b3be13f7cfbe40d1b73f78adac3daaab0400000000,
  0x3ef9999a3f5828f63cb178b3be13f7cfbe40d1b73f78adac3d2aac1100000000,
  0x3ecba6ce3f305ea2bcb2b346be13f7cfbe40d1b73f78adac3d2aab043e2dec1c,
  0x3ecba6ce3f305ea2bcb2b346bdb9f55abe60902e3f78adac3d2aab043e2dec1c,
  0x3e8133e33f71185d3cb178b3bdb9f55abe60902e3f78adac0000000000000000,
  0x3e52d55a3f44b6fabcb2b346bdb9f55abe60902e3f78adac000000003e2dec1c,
  0x3ef9999a3f5828f63cb178b3bdb9f55abe60902e3f78adac3d2aac1100000000,
  0x3e52d55a3f44b6fabcb2b346bcfdf3b6be70f27c3f78adac3f7fffef3e2dec1c,
  0x3e8133e33f71185d3cb178b3bcfdf3b6be70f27c3f78adac3f7fffef00000000,
  0x000000003f79999a3cb178b3bcfdf3b6be70f27c3f78adac3f75555000000000,
  0xb68637bd3f4ba765bcb2b346bcfdf3b6be70f27c3f78adac3f7555503e2dec1c,
  0xb68637bd3f4ba765bcb2b3463cfdf3b6be70f27c3f78adac3f7555503e2dec1c,
  0xbe8133e33f71185d3cb178b33cfdf3b6be70f27c3f78adac3f6aaab000000000,
  0xbe52d7733f44b6fabcb2b3463cfdf3b6be70f27c3f78adac3f6aaa9f3e2dec1c,
  0x000000003f79999a3cb178b33cfdf3b6be70f27c3f78adac3f75555000000000,
  0xbe52d7733f44b6fabcb2b3463db9f55abe60902e3f78adac3f6aaa9f3e2dec1c,
  0xbe8133e33f71185d3cb178b33db9f55abe60902e3f78adac3f6aaab000000000,
  0xbef9999a3f5828f63cb178b33db9f55abe60902e3f78adac3f60000000000000,
  0xbecba7db3f305ea2bcb2b3463db9f55abe60902e3f78adac3f6000003e2dec1c,
  0xbecba7db3f305ea2bcb2b3463e13f7cfbe40d1b73f78adac3f6000003e2dec1c,
  0xbf307e6b3f307e6b3cb178b33e13f7cfbe40d1b73f78adac3f55555000000000,
  0xbf1001823f100150bcb2b3463e13f7cfbe40d1b73f78adac3f5555503e2dec1c,
  0xbef9999a3f5828f63cb178b33e13f7cfbe40d1b73f78adac3f60000000000000,
  0xbf1001823f100150bcb2b3463e40d1b7be13f7cf3f78adac3f5555503e2dec1c,
  0xbf307e6b3f307e6b3cb178b33e40d1b7be13f7cf3f78adac3f55555000000000,
  0xbf5828f63ef9999a3cb178b33e40d1b7be13f7cf3f78adac3f4aaab000000000,
  0xbf305ec43ecba776bcb2b3463e40d1b7be13f7cf3f78adac3f4aaab03e2dec1c,
  0xbf305ec43ecba776bcb2b3463e60902ebdb9f55a3f78adac3f4aaab03e2dec1c,
  0xbf71185d3e8133e33cb178b33e60902ebdb9f55a3f78adac3f40000000000000,
  0xbf44b71c3e52d6edbcb2b3463e60902ebdb9f55a3f78adac3f4000003e2dec1c,
  0xbf5828f63ef9999a3cb178b33e60902ebdb9f55a3f78adac3f4aaab000000000,
  0xbf44b71c3e52d6edbcb2b3463e70f27cbcfdf3b63f78adac3f4000003e2dec1c,
  0xbf71185d3e8133e33cb178b33e70f27cbcfdf3b63f78adac3f40000000000000,
  0xbf79999a000000003cb178b33e70f27cbcfdf3b63f78adac3f35556100000000,
  0xbf4ba798358637bdbcb2b3463e70f27cbcfdf3b63f78adac3f3555613e2dec1c,
  0xbf4ba798358637bdbcb2b3463e70f27c3cfdf3b63f78adac3f3555613e2dec1c,
  0xbf71185dbe8133e33cb178b33e70f27c3cfdf3b63f78adac3f2aaab000000000,
  0xbf44b71cbe52d624bcb2b3463e70f27c3cfdf3b63f78adac3f2aaab03e2dec1c,
  0xbf79999a000000003cb178b33e70f27c3cfdf3b63f78adac3f35556100000000,
  0xbf44b71cbe52d624bcb2b3463e60902e3db9f55a3f78adac3f2aaab03e2dec1c,
  0xbf71185dbe8133e33cb178b33e60902e3db9f55a3f78adac3f2aaab000000000,
  0xbf5828f6bef9999a3cb178b33e60902e3db9f55a3f78adac3f20000000000000,
  0xbf305ec4becba733bcb2b3463e60902e3db9f55a3f78adac3f2000113e2dec1c,
  0xbf305ec4becba733bcb2b3463e40d1b73e13f7cf3f78adac3f2000113e2dec1c,
  0xbf307e6bbf307e6b3cb178b33e40d1b73e13f7cf3f78adac3f15556100000000,
  0xbf100182bf10012ebcb2b3463e40d1b73e13f7cf3f78adac3f1555613e2dec1c,
  0xbf5828f6bef9999a3cb178b33e40d1b73e13f7cf3f78adac3f20000000000000,
  0xbf100182bf10012ebcb2b3463e13f7cf3e40d1b73f78adac3f1555613e2dec1c,
  0xbf307e6bbf307e6b3cb178b33e13f7cf3e40d1b73f78adac3f15556100000000,
  0xbef9999abf5828f63cb178b33e13f7cf3e40d1b73f78adac3f0aaab000000000,
  0xbecba7dbbf305e70bcb2b3463e13f7cf3e40d1b73f78adac3f0aaac13e2dec1c,
  0xbecba7dbbf305e70bcb2b3463db9f55a3e60902e3f78adac3f0aaac13e2dec1c,
  0xbe8133e3bf71185d3cb178b33db9f55a3e60902e3f78adac3f00000000000000,
  0xbe52d773bf44b6c8bcb2b3463db9f55a3e60902e3f78adac3f0000113e2dec1c,
  0xbef9999abf5828f63cb178b33db9f55a3e60902e3f78adac3f0aaab000000000,
  0xbe52d773bf44b6c8bcb2b3463cfdf3b63e70f27c3f78adac3f0000113e2dec1c,
  0xbe8133e3bf71185d3cb178b33cfdf3b63e70f27c3f78adac3f00000000000000,
  0x00000000bf79999a3cb178b33cfdf3b63e70f27c3f78adac3eeaaac100000000,
  0xb68637bdbf4ba744bcb2b3463cfdf3b63e70f27c3f78adac3eeaaae33e2dec1c,
  0xb68637bdbf4ba744bcb2b346bcfdf3b63e70f27c3f78adac3eeaaae33e2dec1c,
  0x3e8133e3bf71185d3cb178b3bcfdf3b63e70f27c3f78adac3ed5556100000000,
  0x3e52d55abf44b6c8bcb2b346bcfdf3b63e70f27c3f78adac3ed555823e2dec1c,
  0x00000000bf79999a3cb178b3bcfdf3b63e70f27c3f78adac3eeaaac100000000,
  0x3e52d55abf44b6c8bcb2b346bdb9f55a3e60902e3f78adac3ed555823e2dec1c,
  0x3e8133e3bf71185d3cb178b3bdb9f55a3e60902e3f78adac3ed5556100000000,
  0x3ef9999abf5828f63cb178b3bdb9f55a3e60902e3f78adac3ec0002200000000,
  0x3ecba6cebf305e70bcb2b346bdb9f55a3e60902e3f78adac3ec000223e2dec1c,
  0x3ecba6cebf305e70bcb2b346be13f7cf3e40d1b73f78adac3ec000223e2dec1c,
  0x3f307e6bbf307e6b3cb178b3be13f7cf3e40d1b73f78adac3eaaaac100000000,
  0x3f1000fcbf10012ebcb2b346be13f7cf3e40d1b73f78adac3eaaaac13e2dec1c,
  0x3ef9999abf5828f63cb178b3be13f7cf3e40d1b73f78adac3ec0002200000000,
  0x3f1000fcbf10012ebcb2b346be40d1b73e13f7cf3f78adac3eaaaac13e2dec1c,
  0x3f307e6bbf307e6b3cb178b3be40d1b73e13f7cf3f78adac3eaaaac100000000,
  0x3f5828f6bef9999a3cb178b3be40d1b73e13f7cf3f78adac3e95556100000000,
  0x3f305e3ebecba733bcb2b346be40d1b73e13f7cf3f78adac3e9555613e2dec1c,
  0x3f305e3ebecba733bcb2b346be60902e3db9f55a3f78adac3e9555613e2dec1c,
  0x3f71185dbe8133e33cb178b3be60902e3db9f55a3f78adac3e80002200000000,
  0x3f44b695be52d624bcb2b346be60902e3db9f55a3f78adac3e8000223e2dec1c,
  0x3f5828f6bef9999a3cb178b3be60902e3db9f55a3f78adac3e95556100000000,
  0x3f44b695be52d624bcb2b346be70f27c3cfdf3b63f78adac3e8000223e2dec1c,
  0x3f71185dbe8133e33cb178b3be70f27c3cfdf3b63f78adac3e80002200000000,
  0x3f79999a000000003cb178b3be70f27c3cfdf3b63f78adac3e55558200000000,
  0x3f4ba711358637bdbcb2b346be70f27c3cfdf3b63f78adac3e5555823e2dec1c,
  0x3f4ba711358637bdbef4e875bf7dcc64be05a1cb800000003e5555823f7e312f,
  0x3f4ba711358637bdbcb2b346bf7dcc64be05a1cb800000003e5555823e2dec1c,
  0x3f44b6953e52d6edbcb2b346bf7dcc64be05a1cb800000003e2aaac13e2dec1c,
  0x3f44b6953e52d6edbef4e875bf7dcc64be05a1cb800000003e2aaac13f7e312f,
  0x3f44b6953e52d6edbef4e875bf6c84b6bec3f141800000003e2aaac13f7e312f,
  0x3f305e3e3ecba776bcb2b346bf6c84b6bec3f141800000003e0000003e2dec1c,
  0x3f305e3e3ecba776bef4e875bf6c84b6bec3f141800000003e0000003f7e312f,
  0x3f44b6953e52d6edbcb2b346bf6c84b6bec3f141800000003e2aaac13e2dec1c,
  0x3f305e3e3ecba776bef4e875bf4b1c43bf1bda51800000003e0000003f7e312f,
  0x3f305e3e3ecba776bcb2b346bf4b1c43bf1bda51800000003e0000003e2dec1c,
  0x3f1000fc3f100150bcb2b346bf4b1c43bf1bda51800000003daaaa7e3e2dec1c,
  0x3f1000fc3f100150bef4e875bf4b1c43bf1bda51800000003daaaa7e3f7e312f,
  0x3f1000fc3f100150bef4e875bf1bda51bf4b1c43800000003daaaa7e3f7e312f,
  0x3ecba6ce3f305ea2bcb2b346bf1bda51bf4b1c43800000003d2aab043e2dec1c,
  0x3ecba6ce3f305ea2bef4e875bf1bda51bf4b1c43800000003d2aab043f7e312f,
  0x3f1000fc3f100150bcb2b346bf1bda51bf4b1c43800000003daaaa7e3e2dec1c,
  0x3ecba6ce3f305ea2bef4e875bec3f141bf6c84b6800000003d2aab043f7e312f,
  0x3e52d55a3f44b6fabcb2b346bec3f141bf6c84b680000000000000003e2dec1c,
  0x3e52d55a3f44b6fabef4e875bec3f141bf6c84b680000000000000003f7e312f,
  0x3ecba6ce3f305ea2bcb2b346bec3f141bf6c84b6800000003d2aab043e2dec1c,
  0x3e52d55a3f44b6fabef4e875be05a1cbbf7dcc64800000003f8002083f7e312f,
  0xb68637bd3f4ba765bcb2b346be05a1cbbf7dcc64800000003f7555503e2dec1c,
  0xb68637bd3f4ba765bef4e875be05a1cbbf7dcc64800000003f7555503f7e312f,
  0x3e52d55a3f44b6fabcb2b346be05a1cbbf7dcc64800000003f7fffef3e2dec1c,
  0xb68637bd3f4ba765bef4e8753e05a1cbbf7dcc64800000003f7555503f7e312f,
  0xb68637bd3f4ba765bcb2b3463e05a1cbbf7dcc64800000003f7555503e2dec1c,
  0xbe52d7733f44b6fabcb2b3463e05a1cbbf7dcc64800000003f6aaa9f3e2dec1c,
  0xbe52d7733f44b6fabef4e8753e05a1cbbf7dcc64800000003f6aaa9f3f7e312f,
  0xbe52d7733f44b6fabef4e8753ec3f141bf6c84b6800000003f6aaa9f3f7e312f,
  0xbecba7db3f305ea2bcb2b3463ec3f141bf6c84b6800000003f6000003e2dec1c,
  0xbecba7db3f305ea2bef4e8753ec3f141bf6c84b6800000003f6000003f7e312f,
  0xbe52d7733f44b6fabcb2b3463ec3f141bf6c84b6800000003f6aaa9f3e2dec1c,
  0xbecba7db3f305ea2bef4e8753f1bda51bf4b1c43800000003f6000003f7e312f,
  0xbecba7db3f305ea2bcb2b3463f1bda51bf4b1c43800000003f6000003e2dec1c,
  0xbf1001823f100150bcb2b3463f1bda51bf4b1c43800000003f5555503e2dec1c,
  0xbf1001823f100150bef4e8753f1bda51bf4b1c43800000003f5555503f7e312f,
  0xbf1001823f100150bef4e8753f4b1c43bf1bda51800000003f5555503f7e312f,
  0xbf305ec43ecba776bcb2b3463f4b1c43bf1bda51800000003f4aaab03e2dec1c,
  0xbf305ec43ecba776bef4e8753f4b1c43bf1bda51800000003f4aaab03f7e312f,
  0xbf1001823f100150bcb2b3463f4b1c43bf1bda51800000003f5555503e2dec1c,
  0xbf305ec43ecba776bef4e8753f6c84b6bec3f141800000003f4aaab03f7e312f,
  0xbf305ec43ecba776bcb2b3463f6c84b6bec3f141800000003f4aaab03e2dec1c,
  0xbf44b71c3e52d6edbcb2b3463f6c84b6bec3f141800000003f4000003e2dec1c,
  0xbf44b71c3e52d6edbef4e8753f6c84b6bec3f141800000003f4000003f7e312f,
  0xbf44b71c3e52d6edbef4e8753f7dcc64be05a1cb800000003f4000003f7e312f,
  0xbf4ba798358637bdbcb2b3463f7dcc64be05a1cb800000003f3555613e2dec1c,
  0xbf4ba798358637bdbef4e8753f7dcc64be05a1cb800000003f3555613f7e312f,
  0xbf44b71c3e52d6edbcb2b3463f7dcc64be05a1cb800000003f4000003e2dec1c,
  0xbf4ba798358637bdbef4e8753f7dcc643e05a1cb800000003f3555613f7e312f,
  0xbf4ba798358637bdbcb2b3463f7dcc643e05a1cb800000003f3555613e2dec1c,
  0xbf44b71cbe52d624bcb2b3463f7dcc643e05a1cb800000003f2aaab03e2dec1c,
  0xbf44b71cbe52d624bef4e8753f7dcc643e05a1cb800000003f2aaab03f7e312f,
  0xbf44b71cbe52d624bef4e8753f6c84b63ec3f141800000003f2aaab03f7e312f,
  0xbf305ec4becba733bcb2b3463f6c84b63ec3f141800000003f2000113e2dec1c,
  0xbf305ec4becba733bef4e8753f6c84b63ec3f141800000003f2000113f7e312f,
  0xbf44b71cbe52d624bcb2b3463f6c84b63ec3f141800000003f2aaab03e2dec1c,
  0xbf305ec4becba733bef4e8753f4b1c433f1bda51800000003f2000113f7e312f,
  0xbf305ec4becba733bcb2b3463f4b1c433f1bda51800000003f2000113e2dec1c,
  0xbf100182bf10012ebcb2b3463f4b1c433f1bda51800000003f1555613e2dec1c,
  0xbf100182bf10012ebef4e8753f4b1c433f1bda51800000003f1555613f7e312f,
  0xbf100182bf10012ebef4e8753f1bda513f4b1c43800000003f1555613f7e312f,
  0xbecba7dbbf305e70bcb2b3463f1bda513f4b1c43800000003f0aaac13e2dec1c,
  0xbecba7dbbf305e70bef4e8753f1bda513f4b1c43800000003f0aaac13f7e312f,
  0xbf100182bf10012ebcb2b3463f1bda513f4b1c43800000003f1555613e2dec1c,
  0xbecba7dbbf305e70bef4e8753ec3f1413f6c84b6800000003f0aaac13f7e312f,
  0xbecba7dbbf305e70bcb2b3463ec3f1413f6c84b6800000003f0aaac13e2dec1c,
  0xbe52d773bf44b6c8bcb2b3463ec3f1413f6c84b6800000003f0000113e2dec1c,
  0xbe52d773bf44b6c8bef4e8753ec3f1413f6c84b6800000003f0000113f7e312f,
  0xbe52d773bf44b6c8bef4e8753e05a1cb3f7dcc64800000003f0000113f7e312f,
  0xb68637bdbf4ba744bcb2b3463e05a1cb3f7dcc64800000003eeaaae33e2dec1c,
  0xb68637bdbf4ba744bef4e8753e05a1cb3f7dcc64800000003eeaaae33f7e312f,
  0xbe52d773bf44b6c8bcb2b3463e05a1cb3f7dcc64800000003f0000113e2dec1c,
  0xb68637bdbf4ba744bef4e875be05a1cb3f7dcc64800000003eeaaae33f7e312f,
  0xb68637bdbf4ba744bcb2b346be05a1cb3f7dcc64800000003eeaaae33e2dec1c,
  0x3e52d55abf44b6c8bcb2b346be05a1cb3f7dcc64800000003ed555823e2dec1c,
  0x3e52d55abf44b6c8bef4e875be05a1cb3f7dcc64800000003ed555823f7e312f,
  0x3e52d55abf44b6c8bef4e875bec3f1413f6c84b6800000003ed555823f7e312f,
  0x3ecba6cebf305e70bcb2b346bec3f1413f6c84b6800000003ec000223e2dec1c,
  0x3ecba6cebf305e70bef4e875bec3f1413f6c84b6800000003ec000223f7e312f,
  0x3e52d55abf44b6c8bcb2b346bec3f1413f6c84b6800000003ed555823e2dec1c,
  0x3ecba6cebf305e70bef4e875bf1bda513f4b1c43800000003ec000223f7e312f,
  0x3ecba6cebf305e70bcb2b346bf1bda513f4b1c43800000003ec000223e2dec1c,
  0x3f1000fcbf10012ebcb2b346bf1bda513f4b1c43800000003eaaaac13e2dec1c,
  0x3f1000fcbf10012ebef4e875bf1bda513f4b1c43800000003eaaaac13f7e312f,
  0x3f1000fcbf10012ebef4e875bf4b1c433f1bda51800000003eaaaac13f7e312f,
  0x3f305e3ebecba733bcb2b346bf4b1c433f1bda51800000003e9555613e2dec1c,
  0x3f305e3ebecba733bef4e875bf4b1c433f1bda51800000003e9555613f7e312f,
  0x3f1000fcbf10012ebcb2b346bf4b1c433f1bda51800000003eaaaac13e2dec1c,
  0x3f305e3ebecba733bef4e875bf6c84b63ec3f141800000003e9555613f7e312f,
  0x3f305e3ebecba733bcb2b346bf6c84b63ec3f141800000003e9555613e2dec1c,
  0x3f44b695be52d624bcb2b346bf6c84b63ec3f141800000003e8000223e2dec1c,
  0x3f44b695be52d624bef4e875bf6c84b63ec3f141800000003e8000223f7e312f,
  0x3f44b695be52d624bef4e875bf7dcc643e05a1cb800000003e8000223f7e312f,
  0x3f4ba711358637bdbcb2b346bf7dcc643e05a1cb800000003e5555823e2dec1c,
  0x3f4ba711358637bdbef4e875bf7dcc643e05a1cb800000003e5555823f7e312f,
  0x3f44b695be52d624bcb2b346bf7dcc643e05a1cb800000003e8000223e2dec1c]

set_option maxRecDepth 100000 in
/-- the triangles of `KICKER_HOLE_INDICES`, /repo/src/vpx/mesh/kickers/kicker_hole_mesh.rs:213-238 -/
def kickerHoleTris : List Nat := [
  0x000000010002, 0x000300010000, 0x000400050006, 0x000700050004, 0x00080009000a, 0x000b00090008, 0x000c000d000e,
  0x000c000e000f, 0x001000110012, 0x001300110010, 0x001400150016, 0x001400160017, 0x00180019001a, 0x001b00190018,
  0x001c001d001e, 0x001c001e001f, 0x002000210022, 0x002300210020, 0x002400250026, 0x002400260027, 0x00280029002a,
  0x002b00290028, 0x002c002d002e, 0x002c002e002f, 0x003000310032, 0x003300310030, 0x003400350036, 0x003400360037,
  0x00380039003a, 0x003b00390038, 0x003c003d003e, 0x003c003e003f, 0x004000410042, 0x004300410040, 0x004400450046,
  0x004400460047, 0x00480049004a, 0x004b00490048, 0x004c004d004e, 0x004c004e004f, 0x005000510052, 0x005300510050,
  0x005400550056, 0x005400560057, 0x00580059005a, 0x005b00590058, 0x005c005d005e, 0x005c005e005f, 0x006000610062,
  0x006000620063, 0x006400650066, 0x006500640067, 0x00680069006a, 0x006a006b0068, 0x006c006d006e, 0x006d006c006f,
  0x007000710072, 0x007100700073, 0x007400750076, 0x007500740077, 0x00780079007a, 0x007a007b0078, 0x007c007d007e,
  0x007d007c007f, 0x008000810082, 0x008200830080, 0x008400850086, 0x008500840087, 0x00880089008a, 0x008a008b0088,
  0x008c008d008e, 0x008d008c008f, 0x009000910092, 0x009200930090, 0x009400950096, 0x009500940097, 0x00980099009a,
  0x009a009b0098, 0x009c009d009e, 0x009d009c009f, 0x00a000a100a2, 0x00a200a300a0, 0x00a400a500a6, 0x00a500a400a7,
  0x00a800a900aa, 0x00aa00ab00a8, 0x00ac00ad00ae, 0x00ad00ac00af, 0x00b000b100b2, 0x00b200b300b0, 0x00b400b500b6,
  0x00b500b400b7, 0x00b800b900ba, 0x00ba00bb00b8, 0x00bc00bd00be, 0x00bd00bc00bf]

/-- the table of /repo/src/vpx/mesh/kickers/kicker_hole_mesh.rs -/
def kickerHoleTable : MeshTable := unpackTable kickerHoleVertices kickerHoleTris

set_option maxRecDepth 100000 in
/-- the vertices of `KICKER_PLATE_VERTICES`, /repo/src/vpx/mesh/kickers/kicker_plate_mesh.rs:16-66 -/
def kickerPlateVertices : List Nat := [
  0xbf948ce73ac75c4b3b24e37a00000000000000003f8000003f0000003ac49ba6,
  0xbf8f9410be96451c3b24e37a00000000000000003f8000003eeaab473ac49ba6,
  0xbca858793ac75c4b3b24e37a00000000000000003f8000003eeaab473ac49ba6,
  0xbf810037bf11856a3b24f44100000000000000003f8000003ed555e73ac49ba6,
  0xbca858793ac75c4b3b24e37a00000000000000003f8000003ed555e73ac49ba6,
  0xbf539f77bf4df6983b24f44100000000000000003f8000003ec000863ac49ba6,
  0xbca858793ac75c4b3b24e37a00000000000000003f8000003ec000863ac49ba6,
  0xbf172e49bf7c578e3b25050800000000000000003f8000003eaaab043ac49ba6,
  0xbca858793ac75c4b3b24e37a00000000000000003f8000003eaaab043ac49ba6,
  0xbea196d9bf8cbfa13b25050800000000000000003f8000003e9555823ac49ba6,
  0xbca858793ac75c4b3b24e37a00000000000000003f8000003e9555823ac49ba6,
  0xbca85879bf91b8783b25050800000000000000003f8000003e8000003ac49ba6,
  0xbca858793ac75c4b3b24e37a00000000000000003f8000003e8000003ac49ba6,
  0x3e8c8ba8bf8cbfa13b25050800000000000000003f8000003e5554fc3ac49ba6,
  0xbca858793ac75c4b3b24e37a00000000000000003f8000003e5554fc3ac49ba6,
  0x3f0ca8c1bf7c578e3b25050800000000000000003f8000003e2aa9f83ac49ba6,
  0xbca858793ac75c4b3b24e37a00000000000000003f8000003e2aa9f83ac49ba6,
  0x3f4919dfbf4df6983b24f44100000000000000003f8000003dfffde73ac49ba6,
  0xbca858793ac75c4b3b24e37a00000000000000003f8000003dfffde73ac49ba6,
  0x3f777ae5bf11856a3b24f44100000000000000003f8000003daaa8653ac49ba6,
  0xbca858793ac75c4b3b24e37a00000000000000003f8000003daaa8653ac49ba6,
  0x3f8a5144be96451c3b24e37a00000000000000003f8000003d2aa5c63ac49ba6,
  0xbca858793ac75c4b3b24e37a00000000000000003f8000003d2aa5c63ac49ba6,
  0x3f8f4a233ac75c4b3b24e37a00000000000000003f800000000000003ac49ba6,
  0xbca858793ac75c4b3b24e37a00000000000000003f800000000000003ac49ba6,
  0xbf8f94103e97d3b33b24d2b300000000000000003f8000003f0aaa5c3ac49ba6,
  0xbca858793ac75c4b3b24e37a00000000000000003f8000003f0000003ac49ba6,
  0xbf8100373f124cc73b24d2b300000000000000003f8000003f15550d3ac49ba6,
  0xbca858793ac75c4b3b24e37a00000000000000003f8000003f0aaa5c3ac49ba6,
  0xbf539f773f4ebde43b24c1ec00000000000000003f8000003f1fffbd3ac49ba6,
  0xbca858793ac75c4b3b24e37a00000000000000003f8000003f15550d3ac49ba6,
  0xbf172e493f7d1eeb3b24c1ec00000000000000003f8000003f2aaa7e3ac49ba6,
  0xbca858793ac75c4b3b24e37a00000000000000003f8000003f1fffbd3ac49ba6,
  0xbea196d93f8d23463b24c1ec00000000000000003f8000003f35553f3ac49ba6,
  0xbca858793ac75c4b3b24e37a00000000000000003f8000003f2aaa7e3ac49ba6,
  0xbca858793f921c263b24c1ec00000000000000003f8000003f4000003ac49ba6,
  0xbca858793ac75c4b3b24e37a00000000000000003f8000003f35553f3ac49ba6,
  0x3e8c8ba83f8d23463b24c1ec00000000000000003f8000003f4aaac13ac49ba6,
  0xbca858793ac75c4b3b24e37a00000000000000003f8000003f4000003ac49ba6,
  0x3f0ca8c13f7d1eeb3b24c1ec00000000000000003f8000003f5555823ac49ba6,
  0xbca858793ac75c4b3b24e37a00000000000000003f8000003f4aaac13ac49ba6,
  0x3f4919df3f4ebde43b24c1ec00000000000000003f8000003f6000433ac49ba6,
  0xbca858793ac75c4b3b24e37a00000000000000003f8000003f5555823ac49ba6,
  0x3f777ae53f124cc73b24d2b300000000000000003f8000003f6aaaf33ac49ba6,
  0xbca858793ac75c4b3b24e37a00000000000000003f8000003f6000433ac49ba6,
  0x3f8a51443e97d3b33b24d2b300000000000000003f8000003f7555a43ac49ba6,
  0xbca858793ac75c4b3b24e37a00000000000000003f8000003f6aaaf33ac49ba6,
  0x3f8f4a233ac75c4b3b24e37a00000000000000003f8000003f8000003ac49ba6,
  0xbca858793ac75c4b3b24e37a00000000000000003f8000003f7555a43ac49ba6]

set_option maxRecDepth 100000 in
/-- the triangles of `KICKER_PLATE_INDICES`, /repo/src/vpx/mesh/kickers/kicker_plate_mesh.rs:70-77 -/
def kickerPlateTris : List Nat := [
  0x001500170018, 0x001300150016, 0x001100130014, 0x000f00110012, 0x000d000f0010, 0x000b000d000e, 0x0009000b000c,
  0x00070009000a, 0x000500070008, 0x000300050006, 0x000100030004, 0x000000010002, 0x00190000001a, 0x001b0019001c,
  0x001d001b001e, 0x001f001d0020, 0x0021001f0022, 0x002300210024, 0x002500230026, 0x002700250028, 0x00290027002a,
  0x002b0029002c, 0x002d002b002e, 0x002f002d0030]

/-- the table of /repo/src/vpx/mesh/kickers/kicker_plate_mesh.rs -/
def kickerPlateTable : MeshTable := unpackTable kickerPlateVertices kickerPlateTris

set_option maxRecDepth 100000 in
/-- the vertices of `KICKER_SIMPLE_HOLE_VERTICES`, /repo/src/vpx/mesh/kickers/kicker_simple_hole_mesh.rs:16-59 -/
def kickerSimpleHoleVertices : List Nat := [
  0xbe99f5173f5f33fdbf1fb9ae3e9fe5c9bf733333000000003efee45c3d14f26b,
  0xbf1568b63f385d42bbc5c1403f1e4f76bf492a30000000003ea9d4d83f7c5932,
  0xbf1568b63f385d42bf1fb9ae3f1e4f76bf492a30000000003ea9d4d83d14f26b,
  0xbe99f4b23f5f340dbbc5c1403e9fe5c9bf733333000000003efee45c3f7c5932,
  0xbf4c301a3ef62ef5bbc5c1403f59930cbf06e2eb000000003e3e8b3b3f7c5932,
  0xbf4c301a3ef62ef5bf1fb9ae3f59930cbf06e2eb000000003e3e8b3b3d14f26b,
  0xbf6ab50b3e3b1c00bbc5c1403f7a9931be516873000000003d9e75363f7c5932,
  0xbf6ab50b3e3b1c00bf1fb9ae3f7a9931be516873000000003d9e75363d14f26b,
  0xbf6d4952be0d8234bbc5c1403f7d63883e1205bc000000003ca35f813f7c5932,
  0xbf6d4952be0d8234bf1fb9ae3f7d63883e1205bc000000003ca35f813d14f26b,
  0xbf539d2cbee2ebc4bbc5c1403f619ce03ef1eb85000000003ca35f813f7c5932,
  0xbf539d1bbee2ebc4bf1fb9ae3f619ce03ef1eb85000000003ca35f813d14f26b,
  0xbf20c943bf320dfebbc5c1403f2aa64c3f3ed917800000003d9e75363f7c5932,
  0xbf20c943bf320dfebf1fb9ae3f2aa64c3f3ed917800000003d9e75363d14f26b,
  0xbeb5de16bf5d5e5bbbc5c1403ebe28243f6db22d800000003e3e8b3b3f7c5932,
  0xbeb5de37bf5d5e9ebf1fb9ae3ebe28243f6db22d800000003e3e8b3b3d14f26b,
  0xbd27c06ebf6e2e1bbbc5c1403d009d493f7fdf3b800000003ea9d4d83f7c5932,
  0xbd27c06ebf6e2e1bbf1fb9ae3d009d493f7fdf3b800000003ea9d4d83d14f26b,
  0x3e8dba2cbf62759bbbc5c140be9fe5c93f733333800000003efee45c3f7c5932,
  0x3e8dba4dbf6275cdbf1fb9aebe9fe5c93f733333800000003efee45c3d14f26b,
  0x3f0f4b0ebf3b9ee0bbc5c140bf1e4f763f492a30800000003f29fa013f7c5932,
  0x3f0f4b1fbf3b9f23bf1fb9aebf1e4f763f492a30800000003f29fa013d14f26b,
  0x3f461262befcb2d9bbc5c140bf59930c3f06e2eb800000003f4f6e723f7c5932,
  0x3f461273befcb35fbf1fb9aebf59930c3f06e2eb800000003f4f6e723d14f26b,
  0x3f6497a6be482279bbc5c140bf7a99313e516873800000003f6b15c63f7c5932,
  0x3f6497b7be482279bf1fb9aebf7a99313e516873800000003f6b15c63d14f26b,
  0x3f67571d3e15f06fbf1fb9aebf7ced91be1e1b09800000003f7ad6453d14f26b,
  0x3f4d7fc73edc6801bbc5c140bf602752bef74bc7800000003f79c9713f7c5932,
  0x3f4d7fc73edc6801bf1fb9aebf602752bef74bc7800000003f7ad6453d14f26b,
  0x3f67570c3e15f0f6bbc5c140bf7ced91be1e1b09800000003f79c9713f7c5932,
  0x3f1aabef3f2ecc60bbc5c140bf2aa64cbf3ed289000000003f6b15c63f7c5932,
  0x3f1aabef3f2ecc60bf1fb9aebf2aa64cbf3ed289000000003f6b15c63d14f26b,
  0x3ea02f943f5d0b41bf1fb9aebdbfe5c9bf7edfa4000000003f4d819d3d14f26b,
  0x3e99a49c3f5bc8f3bbc5c1403da5119dbf7f27bb000000003f4b94b83f7c5932,
  0x3e99a49c3f5bc8f3bf1fb9ae3da5119dbf7f27bb000000003f4b94b83d14f26b,
  0x3ea02f943f5d0b41bbc5c140bdbfb15bbf7edfa4000000003f4d819d3f7c5932,
  0x3c8bc59c3f6aec6cbf1fb9aebd009d49bf7fdf3b000000003f29fa013d14f26b,
  0x3c8bc59c3f6aec6cbbc5c140bd009d49bf7fdf3b000000003f29fa013f7c5932,
  0x3f672bdc3e007bbbbbc5c140bf7fdf3b3d009d49800000003f79c9713f7c5932,
  0x3f672bed3e007aafbf1fb9aebf7fdf3b3d009d49800000003f7ad6453d14f26b,
  0x3ea9a36e3f5a1d43bbc5c140bf06e2ebbf59930c000000003f4f6e723f7c5932,
  0x3ea9a3903f5a1d11bf1fb9aebf06e979bf59930c000000003f4f6e723d14f26b]

set_option maxRecDepth 100000 in
/-- the triangles of `KICKER_SIMPLE_HOLE_INDICES`, /repo/src/vpx/mesh/kickers/kicker_simple_hole_mesh.rs:63-75 -/
def kickerSimpleHoleTris : List Nat := [
  0x000000010002, 0x000300010000, 0x000100040002, 0x002400030000, 0x000200040005, 0x002500030024, 0x000400060005,
  0x002200250024, 0x000500060007, 0x002100250022, 0x000600080007, 0x002000210022, 0x000700080009, 0x002300210020,
  0x0008000a0009, 0x002300200029, 0x0009000a000b, 0x002300290028, 0x000a000c000b, 0x00280029001f, 0x000b000c000d,
  0x0028001f001e, 0x000c000e000d, 0x001c001e001f, 0x000d000e000f, 0x001b001e001c, 0x000e0010000f, 0x001a001b001c,
  0x000f00100011, 0x001d001b001a, 0x001000120011, 0x001d001a0027, 0x001100120013, 0x001d00270026, 0x001200140013,
  0x002600270019, 0x001300140015, 0x002600190018, 0x001400160015, 0x001700180019, 0x001500160017, 0x001600180017]

/-- the table of /repo/src/vpx/mesh/kickers/kicker_simple_hole_mesh.rs -/
def kickerSimpleHoleTable : MeshTable := unpackTable kickerSimpleHoleVertices kickerSimpleHoleTris

set_option maxRecDepth 100000 in
/-- the vertices of `KICKER_T1_VERTICES`, /repo/src/vpx/mesh/kickers/kicker_t1_mesh.rs:16-674 -/
def kickerT1Vertices : List Nat := [
  0x3e0c692f3baa2a0bbf1c676abf77b4a2be7803473d93404f3f2803473ec9374c,
  0x3e0f8594bca35936bf22d8c3bf7fbe773cb9f55abd1a6b513f27dbf53ed1b717,
  0x3e0416bebd967ec8bf1c63bfbf6cb2963eb9b3d03def9db23f29652c3ee3afb8,
  0x3ddf316e3d892c49bf22d331bf4dab9fbf1865953c535a863f2ccccd3eb47ae1,
  0x3dd1947d3d993815bf1c663cbf365fd9bf33a29c3c102de03f2df3b63eb1d14e,
  0x3d3aabcd3de3e964bf22d331beaa71debf7161e5bc22339c3f3779a73ea56042,
  0x3d3cf5f53de16617bf1c679dbeaf7660bf704ea5bd1a02753f3745393ea538ef,
  0xbc8bbd383df2a950bf1c69403e039581bf7dd97f3c727bb33f4212d73ea339c1,
  0xbc9a4bdc3def06b3bf22d3313e10b0f2bf7cf41f3d7a43fe3f426e983ea2eb1c,
  0xbda3eb7d3dc187a5bf22d1e13f0339c1bf5a7efabdc0b7803f4cb2963eab50b1,
  0xbdce5c4f3d9f61aabf1c64243f3bc01abf2e075f3bf27bb33f4fec573eb14e3c,
  0xbdfc4a843d305ea2bf22d30f3f669ad4bed27bb3be0ef34d3f545a1d3ebc1bda,
  0xbe106a6ebc9235f8bf1c662c3f7f3b64bd9ad42c3c6d91683f5694463ed0ff97,
  0xbe0f5ad9bd12439abf22d01c3f7c84b63e2631f9bcca57a83f5673823ed6f007,
  0xbdef6599bdc29739bf1c678c3f5fb15b3ef7e9103d39f55a3f5346dc3eeb5dcc,
  0xbdd4623dbde88723bf22d6fe3f3f00693f2a57a83cbd3c363f50cb293ef14e3c,
  0xbda6b7aabe07f024bf1c67063f0db8bb3f547ae13d8be0df3f4d2f1b3ef851ec,
  0xbd0c197ebe2027d9bf22d46f3e8cf41f3f761e4fbac49ba63f44f0d83eff7cee,
  0xbc8bc383be236156bf1c69403d8902de3f7f69443c56a1623f4212d73f004817,
  0x3d3aabcdbe1c01a3bf22d331be8c7e283f750b0fbdbc36113f3779a73efe5c92,
  0x3d973f31be0f340dbf1c66e4bf090ff93f57e9103d398c7e3f32e48f3ef97f63,
  0x3dde4d5ebdde2930bf22d4b2bf4779a73f1f06f7bdac08313f2ce0763eef7660,
  0xbce94035bf0a01debeb94bbebf1fbe773f386c223e9afb7f3f4425af3f434d6a,
  0xbce9984abf5c4135bf1c676abf80000038d1b71738d1b7173f4425af3f79eecc,
  0xbce9984abf5419d2bd927350bf1cb2963e36fd223f4532613f4425af3f7487fd,
  0xbce9984abf091490bf1c676abf342c3d3f35d6393c2a64c33f4425af3f41de6a,
  0xbce9a2c6bf5b6e0dbda7c73fbf1793debf2bb2ff3ee4c2f83f4425af3f78ef35,
  0x3cb150dbbf539970bd93f8db3f1d566d3e6f9db23f40ded33f3b71763f743958,
  0x3cb13166bf0a59e2beb92e413f23fe5d3f34f7663e99999a3f3560423f43404f,
  0x3e99f7943ead1740be56f9fdbf173190bf242c3d3efad42c3f0b15b53e2b50b1,
  0x3eb3a6263eac9689bf1c676a3f6b7176bec90ff93a51b7173f02680a3e2cd9e8,
  0x3eb3a4b53ead79afbe5868fd3f1a71debf2673823eec710d3f02680a3e2b1c43,
  0x3e99f7943eac9689bf1c676abf34e3bdbf352bd43aded2893f0b15b53e2cd9e8,
  0x3eb3a6263ee3402dbe32370438d1b717bee752543f6460aa3f02680a3dc6a7f0,
  0x3eb39c0f3f08a6dbbdec9c0b3f0ce7043ed126e93f3a6b513f02680a3d185f07,
  0x3e99f85d3f0852d6bdecf744bf0f41f23ec32ca53f3c63f13f0b15b53d1c779a,
  0x3e99f7943edfea3ebe358a333b9d4952bedbcd363f6731903f0b15b53dcfdf3b,
  0x3e99f7943edfea3ebe358a33bf80000000000000000000003f0b15b53dcfdf3b,
  0x3e99f7943f09e42ebf1c676abea027523f7326183b7f97243f0b15b53d06594b,
  0xbeb3e5da3ead1740be56f9fdbf172b02bf242c3d3efad42c3f7c154d3e2b50b1,
  0xbe9a37483eac9689bf1c676a3f34e3bdbf352bd43aebedfa3f7361133e2cd9e8,
  0xbe9a38b93ead79afbe5868fd3f1a71debf2673823eec710d3f7361133e2b1c43,
  0xbeb3e5da3eac9689bf1c676abf6b98c8bec858793a51b7173f7c154d3e2cd9e8,
  0xbe9a37483ee34070be3236c1bba0902ebee6f6943f647ae13f7361133dc6a7f0,
  0xbe9a3bde3f083a64bdec33b53f0ef9db3ebcac083f3e425b3f7361133d1ba5e3,
  0xbeb3e37e3f08adbcbdec9f30bf0c9eed3ece2eb23f3b71763f7c154d3d1a6b51,
  0xbeb3e5da3edfea3ebe358a333b902de0bedaacda3f6779a73f7c154d3dcfdf3b,
  0xbe9a37483ee34070be3236c13f8000003951b71738d1b7173f7361133dc6a7f0,
  0xbe9a37483f09e42ebf1c676a3ea0346e3f7326183b79096c3f7361133d06594b,
  0x3eb3a6263eac9689bf1c676a00000000000000003f8000003f02680a3e2cd9e8,
  0x3e99f7943eac9689bf1c676a38d1b717800000003f8000003f0b15b53e2cd9e8,
  0x3e0c692f3baa2a0bbf1c676aba6bedfa3a1d49523f8000003f2803473ec9374c,
  0x3e0416bebd967ec8bf1c63bf38d1b717800000003f8000003f29652c3ee3afb8,
  0x3cb150dbbf5c4135bf1c676a80000000b8d1b7173f8000003f3b71763f79eecc,
  0x3cb150dbbf091490bf1c676ab9d1b717000000003f8000003f3b71763f41de6a,
  0x3dd1947d3d993815bf1c663c00000000000000003f8000003f2df3b63eb1d14e,
  0x3e99f7943f09e42ebf1c676a00000000000000003f8000003f0b15b53d06594b,
  0x3d3cf5f53de16617bf1c679db99d49523951b7173f8000003f3745393ea538ef,
  0xbc8bbd383df2a950bf1c69403951b7173951b7173f8000003f4212d73ea339c1,
  0xbe9a37483f09e42ebf1c676a00000000000000003f8000003f7361133d06594b,
  0xbdce5c4f3d9f61aabf1c64240000000038d1b7173f8000003f4fec573eb14e3c,
  0xbe9a37483eac9689bf1c676ab951b717000000003f8000003f7361133e2cd9e8,
  0xbe106a6ebc9235f8bf1c662cb951b717b8d1b7173f8000003f5694463ed0ff97,
  0xbeb3e5da3eac9689bf1c676a00000000000000003f8000003f7c154d3e2cd9e8,
  0xbce9984abf091490bf1c676a00000000000000003f8000003f4425af3f41de6a,
  0xbdef6599bdc29739bf1c678c3b03126f39d1b7173f8000003f5346dc3eeb5dcc,
  0xbda6b7aabe07f024bf1c670600000000000000003f8000003f4d2f1b3ef851ec,
  0xbc8bc383be236156bf1c694038d1b717800000003f8000003f4212d73f004817,
  0x3d973f31be0f340dbf1c66e4ba51b71738d1b7173f8000003f32e48f3ef97f63,
  0xbce9984abf5c4135bf1c676a00000000000000003f8000003f4425af3f79eecc,
  0x3cb150dbbf5c4135bf22d30f3f76d5d0be87bb30800000003f3b71763f79eecc,
  0x3cb150dbbf5c4135bf1c676a3f76d5d0be87bb30800000003f3b71763f79eecc,
  0x3eb3a6263eac9689bf22d30f3f7db22dbe0902de800000003f02680a3e2cd9e8,
  0xbeb3e5da3eac9689bf22d30fbf7dc5d6be067382800000003f7c154d3e2cd9e8,
  0xbce9984abf5c4135bf1c676abf772b02be85460b800000003f4425af3f79eecc,
  0xbce9984abf5c4135bf22d30fbf772b02be85460b800000003f4425af3f79eecc,
  0xbeb3e5da3f09e42ebf22d30fbf34c9863f353f7d3b9374bc3f7c154d3d06594b,
  0xbeb3e5da3edfea3ebe358a33bf80000038d1b717000000003f7c154d3dcfdf3b,
  0x3eb3a6263f09e42ebf22d30f3f34c9863f353f7d3b9a02753f02680a3d06594b,
  0x3eb3a6263ee3402dbe3237043f80000039d1b71738d1b7173f02680a3dc6a7f0,
  0xbdfc4a843d305ea2bf22d30fb99d4952b951b717bf8000003f545a1d3ebc1bda,
  0xbe0f5ad9bd12439abf22d01cb8d1b71780000000bf8000003f5673823ed6f007,
  0xbeb3e5da3eac9689bf22d30f38d1b71780000000bf8000003f7c154d3e2cd9e8,
  0xbda3eb7d3dc187a5bf22d1e18000000080000000bf8000003f4cb2963eab50b1,
  0xbeb3e5da3f09e42ebf22d30f8000000080000000bf8000003f7c154d3d06594b,
  0xbc9a4bdc3def06b3bf22d331b8d1b717b8d1b717bf8000003f426e983ea2eb1c,
  0x3eb3a6263f09e42ebf22d30f8000000080000000bf8000003f02680a3d06594b,
  0x3d3aabcd3de3e964bf22d3318000000080000000bf8000003f3779a73ea56042,
  0x3ddf316e3d892c49bf22d331b9d1b71739d1b717bf8000003f2ccccd3eb47ae1,
  0x3eb3a6263eac9689bf22d30f8000000080000000bf8000003f02680a3e2cd9e8,
  0x3e0f8594bca35936bf22d8c33951b71700000000bf8000003f27dbf53ed1b717,
  0x3cb150dbbf5c4135bf22d30f8000000080000000bf8000003f3b71763f79eecc,
  0x3dde4d5ebdde2930bf22d4b2bb102de03951b717bf8000003f2ce0763eef7660,
  0x3d3aabcdbe1c01a3bf22d331b8d1b71780000000bf8000003f3779a73efe5c92,
  0xbd0c197ebe2027d9bf22d46f39d1b71780000000bf8000003f44f0d83eff7cee,
  0xbce9984abf5c4135bf22d30f8000000080000000bf8000003f4425af3f79eecc,
  0xbdd4623dbde88723bf22d6febb378034b9d1b717bf8000003f50cb293ef14e3c,
  0x3cb150dbbf091490bf1c676a3f342c3d3f35d6393c3295ea3f3b71763f41de6a,
  0x3cb150dbbf5c4135bf1c676a3aded289bf8000003b51b7173f3b71763f79eecc,
  0x3cb15f89bf5aaeb0bda0157f3f181062bf1e48e93f03c3613f3b71763f78793e,
  0xbce9984abf5c4135bf1c676a00000000bf8000003b449ba63f4425af3f79eecc,
  0x3cb150dbbf5c4135bf22d30f00000000bf800000800000003f3b71763f79eecc,
  0xbce9984abf5c4135bf22d30f00000000bf800000800000003f4425af3f79eecc,
  0x3cb150dbbf5c4135bf1c676a3f80000000000000000000003f3b71763f79eecc,
  0x3e2018a4bead26fabf0bad9f3f000000bf5db22d399d49523e5eecc03f2ab368,
  0x3f0ea290bddb20b8bf1884e83effd8aebf5dbf483951b7173df7ced93f0e1b09,
  0x3f0ea290bddb2032bf0bad9f3effcb92bf5dbf48000000003df7ced93f0e1b09,
  0xbe6644d8bf0ef599bf1884e83f00068ebf5db22d38d1b7173e9e91003f45f06f,
  0xbe082e02bf015c10bf0bad9f3f000000bf5db22db8d1b7173e9333333f3f62b7,
  0xbe6644d8bf0ef599bf0bad9f3f0020c5bf5d9e84800000003e9e91003f45f06f,
  0xbf26b7243e38609abf0bad9fbf5db22dbf000000000000003ed3404f3ed53261,
  0xbe6644d8bf0ef599bf1884e8bf5db22dbf000000000000003e9e91003f45f06f,
  0xbe6644d8bf0ef599bf0bad9fbf5db22dbf000000000000003e9e91003f45f06f,
  0xbf26b7243e38609abf1884e8bf5db22dbf000000000000003ed3404f3ed53261,
  0xbe6644d8bf0ef599bf1884e88000000080000000bf8000003e9e91003f45f06f,
  0x3e905ea23e984ec6bf1884e88000000080000000bf8000003e3fe5c93eb82a99,
  0x3f0ea290bddb20b8bf1884e88000000080000000bf8000003df7ced93f0e1b09,
  0xbe8f44913e984ec6bf1884e88000000080000000bf8000003ea553263eb82a99,
  0xbebd7ecc3e984ec6bf1884e88000000080000000bf8000003eb07c853eb82a99,
  0x3ea5bb7b3e984ec6bf1884e88000000080000000bf8000003e35a8583eb82a99,
  0x3e905ea23ebd3240bf1884e88000000080000000bf8000003e3fe5c93ea6594b,
  0xbe8f44913eca09abbf1884e88000000080000000bf8000003ea553263ea02752,
  0x3e05f2883f21a9b9bf1884e88000000080000000bf8000003e65460b3e4b0f28,
  0xbf26b7243e38609abf1884e88000000080000000bf8000003ed3404f3ed53261,
  0xbebd7ecc3eaf4e23bf1884e88000000080000000bf8000003eb07c853ead0e56,
  0x3e05f2883f21a9cabf0bad9f8000000080000000bf8000003e65460b3e4b0f28,
  0x3e905ea23f16a1b6bf0bad9f8000000080000000bf8000003e3fe5c93e605bc0,
  0x3e905ea23ebd3240bf0bad9f8000000080000000bf8000003e3fe5c93ea6594b,
  0x3e855cd93f7ab873bf0bad2a8000000080000000bf8000003e45a1cb3d07fcb9,
  0x3f04cc9a3f5e4580bf0baebc8000000080000000bf8000003e05f06f3dafec57,
  0x3ebe98dd3f16a1b6bf0bad9f8000000080000000bf8000003e29930c3e605bc0,
  0x3f3377e23f3a0264bf0bad9f8000000080000000bf8000003db15b573e1cac08,
  0x3f530d0f3f14ebddbf0badb08000000080000000bf8000003d690ff93e643fe6,
  0x3ebe98dd3e984ec6bf0bad9f8000000080000000bf8000003e29930c3eb82a99,
  0x3f6b13ad3ed4bd34bf0bad9f8000000080000000bf8000003d0c7e283e9b2fec,
  0x3f7ab2183e6f9f88bf0badb08000000080000000bf8000003ca0902e3ec7ef9e,
  0x3f0ea290bddb2032bf0bad9f8000000080000000bf8000003df7ced93f0e1b09,
  0x3f8094d53d392d13bf0bad9f8000000080000000bf8000003c5d2f1b3ef69446,
  0x3f7e658cbe157ffabf0bad9f8000000080000000bf8000003c83e4263f12e48f,
  0x3f727514bea94be0bf0bad9f8000000080000000bf8000003ce075f73f29ad43,
  0x3f5daa3fbf0109c0bf0bad9f8000000080000000bf8000003d401a373f3f1412,
  0x3f40e8fbbf28a17bbf0badb08000000080000000bf8000003d978d503f522681,
  0x3e2018a4bead26fabf0bad9f8000000080000000bf8000003e5eecc03f2ab368,
  0x3f1dad54bf4993d5bf0bad9f8000000080000000bf8000003ddb573f3f620c4a,
  0x3ee827fabf63e532bf0bad9f8000000080000000bf8000003e15b5743f6eb852,
  0x3e8d4930bf7593b4bf0bad9f8000000080000000bf8000003e4189373f774bc7,
  0x3d9d5fddbf6c1e26bf0bad08bf03e4263e9aacdabf4d4fdf3e739c0f3f72680a,
  0x3e13415bbf7c9310bf0bad9f8000000038d1b717bf8000003e61ff2e3f7ae7d5,
  0x3ea5bb7b3e984ec6bf0bad9f8000000080000000bf8000003e35a8583eb82a99,
  0xbbf16f44bf7f62a6bf0bad9f8000000038d1b717bf8000003e83afb83f7c01a3,
  0x3ccbb3c8bf761f4bbf0bad4bbe3e28243f160aa6bf49e83e3e7f14123f777319,
  0xbcf4128cbf75a448bf0bad3a3e67381d3f12de01bf498c7e3e8617c23f775f70,
  0xbd9de482bf6b1bacbf0bad4b3f08f5c33e944674bf4b295f3e8be0df3f71d7dc,
  0xbe110d39bf7c9310bf0bad9f8000000038d1b717bf8000003e9446743f7ae7d5,
  0xbe6644d8bf0ef599bf0bad9f8000000080000000bf8000003e9e91003f45f06f,
  0xbe082e02bf015c10bf0bad9f8000000080000000bf8000003e9333333f3f62b7,
  0xbe947fbbbf745b3abf0bad9f8000000080000000bf8000003ea68db93f76b50b,
  0xbf5f8983bef99221bf0badb08000000080000000bf8000003eee703b3f3d07c8,
  0xbf26b7243e38609abf0bad9f8000000080000000bf8000003ed3404f3ed53261,
  0xbf439b24bf24d9a5bf0bad9f8000000080000000bf8000003ee0f9093f505532,
  0xbf5d6b763f03d007bf0badb08000000080000000bf8000003eed6a163e829c78,
  0xbebd7ecc3eaf4e23bf0bad9f8000000080000000bf8000003eb07c853ead0e56,
  0xbf7590d13e9e6adbbf0bad4b8000000080000000bf8000003ef886593eb5a858,
  0xbf499e953f207000bf0bad9f8000000080000000bf8000003ee418933e4d6a16,
  0xbebd7ecc3f16a1b6bf0bad9f8000000080000000bf8000003eb07c853e605bc0,
  0xbf2f65883f3d5315bf0bad9f8000000080000000bf8000003ed73eab3e1652bd,
  0xbf14ae003f52de12bf0bad9f8000000080000000bf8000003eca8c153dd7dbf5,
  0xbee713493f672bfebf0bad9f8000000080000000bf8000003eba6b513d8b4396,
  0xbe8f44913f16a1b6bf0bad9f8000000080000000bf8000003ea553263e605bc0,
  0xbe8c2a453f78f239bf0bad9f8000000080000000bf8000003ea48e8a3d0d4fdf,
  0xbdaee17a3f80e600bf0bad9f8000000080000000bf8000003e8d4fdf3c92a305,
  0x3d4797033f811a1abf0bad9f8000000080000000bf8000003e7972473c83e426,
  0xbe8f44913eca09abbf0bad9f8000000080000000bf8000003ea553263ea02752,
  0xbf80337b3d80f5e4bf0bad9f8000000080000000bf8000003efe425b3ef22d0e,
  0xbf7e84e0be01bde8bf0bad9f8000000080000000bf8000003efd63883f107c85,
  0xbf7366e8bea0b2a7bf0bad9f8000000080000000bf8000003ef7f62b3f279a6b,
  0xbf20a548bf46d02dbf0bad9f8000000080000000bf8000003ed02de03f60b780,
  0xbeeebf87bf61e95bbf0badb08000000080000000bf8000003ebc432d3f6dc5d6,
  0xbebd7ecc3f16a1b6befdacac00000000bf800000800000003eb07c853e605bc0,
  0xbe8f44913f16a1b6bf0bad9f00000000bf800000800000003ea553263e605bc0,
  0xbe8f44913f16a1b6befdacac00000000bf800000800000003ea553263e605bc0,
  0xbebd7ecc3f16a1b6bf0bad9f00000000bf800000800000003eb07c853e605bc0,
  0x3ebe98dd3f16a1b6befdacacbf80000000000000000000003e29930c3e605bc0,
  0x3ebe98dd3e984ec6bf0bad9fbf80000000000000000000003e29930c3eb82a99,
  0x3ebe98dd3e984ec6befdacacbf80000000000000000000003e29930c3eb82a99,
  0x3ebe98dd3f16a1b6bf0bad9fbf80000000000000000000003e29930c3e605bc0,
  0x3e905ea23f16a1b6befdacac00000000bf800000800000003e3fe5c93e605bc0,
  0x3ebe98dd3f16a1b6bf0bad9f00000000bf800000800000003e29930c3e605bc0,
  0x3ebe98dd3f16a1b6befdacac00000000bf800000800000003e29930c3e605bc0,
  0x3e905ea23f16a1b6bf0bad9f00000000bf800000800000003e3fe5c93e605bc0,
  0xbd89a240bf6ef45a3bd6b2293edf62b73ed645a23f4bedfa3e8ab3683f73d70a,
  0xbdaca81abf617d7cbbb302f73f1d566d3ee0ebee3f27bb303e8d35a83f6dab9f,
  0xbc5f82b2bf76b68d3bc942d53e4504813f7b367abbcb295f3e8467383f77d567,
  0x3d0f4949bf751fc53bc942d5bece8a723f6a3d71bb3e0ded3e7d21ff3f771759,
  0x3d9401c5bf6d06cd3bacd9e8befd8adb3ecab3683f45f6fd3e7439583f72eb1c,
  0x3dacc038bf627158bb995aafbf216f003edc0ebf3f2573eb3e7089a03f6d9168,
  0x3de1b75abf303bd6be28d6d4bf7d97f63e0bc6a83b9374bc3e6a4a8c3f560419,
  0x3de1deadbf303aa8befdacacbf7d8adb3e0c63f13c9374bc3e6a4a8c3f560419,
  0x3e2018a4bead26fabf0bad9fbf7dd2f23e027525bcd1b7173e5eecc03f2ab368,
  0x3e4fb6133d0f9e38befdaddabf7d566dbe13404fbb727bb33e54e3bd3ef93dd9,
  0x3e4fb1183c31e5c1bf0bad9fbf8000003b5844d0ba9d49523e53f7cf3eff1412,
  0xbde08312bf30b88dbe2933a03f543fe63f0f212dbb51b7173e9048173f55fd8b,
  0xbddfcc18bf302bb6befdacac3f6ab3683ecc63f13c3923a33e9048173f55fd8b,
  0xbe082e02bf015c10bf0bad9f3f7dd97f3e049ba63bce703b3e9333333f3f62b7,
  0xbe4d59d53c2ec4a4befdacac3f7fe5c93b9374bc3cd773193e9b573f3eff212d,
  0xbe4becab3d230660bf0bacd63f7c3611be2dab9f3cd6a1623e9ac7113ef81062,
  0x3c1bfdf8bf7f62a63bc942d53b5844d03a83126f3f8000003e8196533f7c01a3,
  0xbe110d39bf7c93103bc942d5ba902de0bbcb295f3f8000003e9446743f7ae7d5,
  0xbc5f82b2bf76b68d3bc942d53c11d14e3bc7e2823f7ff9723e8467383f77d567,
  0x3d0f4949bf751fc53bc942d53d1db22dbcc7e2823f7fbe773e7d21ff3f771759,
  0x3e13415bbf7c93103bc942d5bb09a0273c4154ca3f7ff9723e61ff2e3f7ae7d5,
  0x3e959ab7bf745b183bc942d5bb3e0ded3bff97243f8000003e3d70a43f76b50b,
  0x3eefd8cfbf61e95b3bc94b38bb102de03b3780343f8000003e1205bc3f6dc5d6,
  0x3ef27dedbf4d01e23bc35ce2bd67d5673dcaf4f13f7e56043e1119ce3f6374bc,
  0x3f2113b6bf46e7c53bc93a71bab780343ad1b7173f8000003dd4c9863f60c49c,
  0x3f3535b9bf1c2fb63bc4bd34bda2d0e53d92a3053f7e8a723db055323f4bb2ff,
  0x3f3a2d73bf2f964a3bc942d5bac49ba63ab780343f8000003da3d70a3f55aee6,
  0x3f53210cbf1172153bc93a71bad1b7173a902de03f8000003d68a71e3f46fd22,
  0x3f5e2ec3beb1118c3bc3a861bde45a1d3d4a57a83f7e147b3d401a373f2b7803,
  0x3f6b269ebecdc0983bc94b38bb102de03a902de03f8000003d0c154d3f327525,
  0x3f7ab218be6270f43bc942d5bb03126f39d1b7173f8000003ca0902e3f1c28f6,
  0x3f6ff8babd4914b13bc49ba6bdeb50b13bb780343f7e4f763d0106253f06e2eb,
  0x3f8094ffbd0414623bc942d5bb09a027000000003f8000003c5d2f1b3f04d6a1,
  0x3f7c6ed23e5d2e513bc929aabccbfb16bb89a0273f7fec573c9ba5e33ecc985f,
  0x3f63e5433e5ef1783b591eebbe714120bd8275253f7844d03d27ef9e3ecbc6a8,
  0x3f510ba63eefa9a03bc3dab6bdd21ff3bd73b6463f7e2eb23d762b6b3e8ee632,
  0x3f62f2b63ef72c523bc9e237bb1d4952ba9d49523f8000003d2e7d563e8adaba,
  0x3f41197a3f2bbc1b3bc942d500000000ba1d49523f8000003d9724743e3837b5,
  0x3f0c09d53f4776b43bcd2913bd800000bda8c1553f7e9e1b3e0154ca3e0a57a8,
  0x3f1d3ec43f4d3ea33bc93a713aaa64c33ad1b7173f8000003ddc28f63def34d7,
  0x3ee82c913f672baa3bc9320eba03126f39d1b7173f8000003e15b5743d8b4396,
  0x3e2b70693f6d50443bc258d6bcc710cbbdf318fc3f7e1b093e5c5d643d6bedfa,
  0x3e8d45413f78f2063bc93a71ba6bedfabb2a64c33f8000003e4189373d0d4fdf,
  0x3db34b513f80e6003bc93a71b8d1b717bb3780343f8000003e6fec573c92a305,
  0xbd3ec67a3f811a1a3bc942d5399d4952baebedfa3f8000003e888ce73c83e426,
  0xbe3340d53f6e35723bc660a23c902de0bddc91d13f7e76c93e9810623d74f0d8,
  0xbe8441353f7ab8a63bc91080399d4952bab780343f8000003ea282413d07fcb9,
  0xbf014f483f4b09743bc3547e3d621965bdbb645a3f7e8a723ec0f9093df9096c,
  0xbeeec6583f652f903bc9320e3a83126fbb09a0273f8000003ebc432d3d92d773,
  0xbf14ae003f52de123bc942d53ad1b717bb09a0273f8000003eca8c153dd7dbf5,
  0xbf3288163f3a57da3bc94b383ad1b717bad1b7173f8000003ed8c7e33e1c0ebf,
  0xbf3c26dd3f166f503bc3eb7d3db8ef35bd8d4fdf3f7e56043edced913e62b6ae,
  0xbf499e953f2070003bc942d53b03126fbac49ba63f8000003ee418933e4d6a16,
  0xbf5f95c43f000f023bc93a713aebedfaba6bedfa3f8000003eee703b3e863f14,
  0xbf6196d93ea28a833bc4c5973db1c433bd02a9933f7ee6323eef1aa03eb39c0f,
  0xbf736dec3ea71a7e3bc942d53af9096cba1d49523f8000003ef803473eb126e9,
  0xbf7e846a3e0ef73c3bc942d53b03126fb9d1b7173f8000003efd63883edf3b64,
  0xbf6fc4f43c9b77c03bc404a73dded289bb727bb33f7e7d563ef59b3d3efd14e4,
  0xbf80339cbd4d02473bc942d53b102de03951b7173f8000003efe425b3f070a3d,
  0xbf758ab9be9803043bc918e33b09a0273a1d49523f8000003ef886593f255326,
  0xbf636146be9138583bc3f3e03df58e223d243fe63f7df3b63ef013a93f23c9ef,
  0xbf4609abbf0496573bc35ce23dc2f8383d648e8a3f7e703b3ee1ff2e3f40b0f2,
  0xbf55af6cbf0d56d23bc9ea9a3b1d49523ad1b7173f8000003ee95e9e3f44d014,
  0xbf2f6220bf3a0ee93bc94b383ad1b7173ad1b7173f8000003ed73eab3f5a8c15,
  0xbf10317bbf3e1c373bc426353d9205bc3db958103f7e48e93ec7e2823f5c0831,
  0xbef7e1dabf603cb03bc93a713c5d2f1b3c6a4a8c3f7ff2e53ebe353f3f6c7e28,
  0xbeb9b90fbf55adb83b6baade3daca57a3e554c983f7972473eaf5c293f67d567,
  0xbe8c2ebabf7593923bc942d5ba6bedfa3c8b43963f7ff9723ea48e8a3f774bc7,
  0xbe3a27af3dbac797befdacac3f65d639bee09d493d1d49523e99096c3eeb5dcc,
  0xbe1318fc3e181f54bf0bb6aa3f389a02bf3141203cb367a13e941f213eddcc64,
  0xbdf4024b3e2db5d9befd9a953f0ecbfbbf5474543c4b295f3e9126e93ed8adac,
  0xbd0d45633e5308bcbf0bb4a23e5e00d2bf79e1b1bc2f4f0e3e86f6943ecfdf3b,
  0xbb4dfaca3e564734befda3c23c89a027bf7ff2e5bc3439583e832ca53ecf1aa0,
  0x3d87ac823e49f16bbf0bad9fbe99ce07bf742c3dba51b7173e7559b43ed15b57,
  0x3dc49ecb3e3ce0b9befdacacbeec8b44bf62f838bcae7d563e6e147b3ed487fd,
  0x3e0ab64a3e209742bf0badb0bf29eeccbf3f76603c3295ea3e6474543edb573f,
  0x3e2279573e0761ccbefdaccdbf4a9fbebf1c5d64bcb295ea3e5eb8523ee154ca,
  0x3e3c97d93dba500dbf0bad9fbf680347bed837b5bc92a3053e58793e3eeb6ae8,
  0xbe8f44913e984ec6befdacacb951b717000000003f8000003ea553263eb82a99,
  0xbb4dfaca3e564734befda3c238d1b71738d1b7173f8000003e832ca53ecf1aa0,
  0xbe8f44913f16a1b6befdacacb8d1b717000000003f8000003ea553263e605bc0,
  0xbdf4024b3e2db5d9befd9a95ba03126f3a03126f3f8000003e9126e93ed8adac,
  0xbe99055c3f24cc47befdacac00000000000000003f8000003ea7a0f93e45d639,
  0xbebd7ecc3f16a1b6befdacac00000000000000003f8000003eb07c853e605bc0,
  0xbe4684493f2eade6befdacac00000000000000003f8000003e9ab9f53e31de6a,
  0xbefc70863f022963befdacac00000000000000003f8000003ebf8a093e844d01,
  0xbebd7ecc3e984ec6befdacac00000000000000003f8000003eb07c853eb82a99,
  0xbed04a303f145af7befdacac00000000000000003f8000003eb50b0f3e64c2f8,
  0xbe3a27af3dbac797befdacacb9d1b717b951b7173f8000003e99096c3eeb5dcc,
  0xbe4d59d53c2ec4a4befdacac00000000000000003f8000003e9b573f3eff212d,
  0x3ebe98dd3e984ec6befdacac00000000000000003f8000003e29930c3eb82a99,
  0x3f01e96c3efdfeb9befdaccd00000000000000003f8000003e087fcc3e875f70,
  0x3ebe98dd3f16a1b6befdacac00000000000000003f8000003e29930c3e605bc0,
  0x3f1a81cb3ebe28edbefdacac00000000000000003f8000003de1b08a3ea617c2,
  0x3ea170503f2310aabefdacac00000000000000003f8000003e37e9103e49374c,
  0x3e905ea23f16a1b6befdacac38d1b717800000003f8000003e3fe5c93e605bc0,
  0x3ed1f9ad3f142e23befdacac00000000000000003f8000003e2041893e65119d,
  0x3e905ea23e984ec6befdacac38d1b717800000003f8000003e3fe5c93eb82a99,
  0x3e2c05d53f30db38befdacac0000000038d1b7173f8000003e5c28f63e2e978d,
  0x3e2279573e0761ccbefdaccd00000000000000003f8000003e5eb8523ee154ca,
  0x3dc49ecb3e3ce0b9befdacac399d4952ba03126f3f8000003e6e147b3ed487fd,
  0xbe3f0bafbf2be8eebefdacac00000000000000003f8000003e99ce073f53e426,
  0xbddfcc18bf302bb6befdacac00000000000000003f8000003e9048173f55fd8b,
  0xbe9c534cbf20b370befdacac00000000000000003f8000003ea865953f4e48e9,
  0xbee0d089bf0b1876befdacac00000000000000003f8000003eb8e2193f43e426,
  0xbf1126a6bed310fdbefdac6900000000000000003f8000003ec84b5e3f3374bc,
  0xbf29ac79be6bc276befdacac00000000000000003f8000003ed460aa3f1d42c4,
  0xbf32fe2ebd8d6cb5befdacac00000000000000003f8000003ed8ef353f095e9e,
  0xbf338e6d3d2d71f3befdacac00000000000000003f8000003ed972473ef73eab,
  0xbf2f5b813e2a1661befdacac00000000000000003f8000003ed724743ed8bac7,
  0xbf265d7d3e8bef28befdacac00000000000000003f8000003ed30be13ebe2824,
  0xbf17a51a3ec59c06befdacac00000000000000003f8000003ecbb98c3ea28241,
  0xbd8f6c6a3f350daebefdacac0000000038d1b7173f8000003e8b6ae83e26809d,
  0x3d28c5873f357332befdacac0000000038d1b7173f8000003e7b645a3e24c2f8,
  0x3f2708683e8b59bcbefdacac00000000000000003f8000003dc8b4393ebe69ad,
  0x3f30bdba3e1b96f2befdacac00000000000000003f8000003db6e2eb3edc432d,
  0x3e4fb6133d0f9e38befdadda00000000000000003f8000003e54e3bd3ef93dd9,
  0x3f3490b4bbcff21bbefdacac00000000000000003f8000003daf837b3f01a36e,
  0x3f3198f2bdeebd4dbefdacac00000000000000003f8000003db46dc63f0f4880,
  0x3f29797dbe72e0a0befdacac00000000000000003f8000003dc504813f1e1b09,
  0x3f1d1c3bbeadbc45befdacac00000000000000003f8000003ddbf4883f2ad42c,
  0x3f0ad3fabee38690befdacac00000000000000003f8000003e0000003f37ae14,
  0x3eedc22bbf05daadbefdacac00000000000000003f8000003e12d7733f418937,
  0x3eb98959bf192029befdacac00000000000000003f8000003e2c3c9f3f4aa64c,
  0x3e60b49ebf29cb47befdacac00000000000000003f8000003e4f76603f52a993,
  0x3de1deadbf303aa8befdacac00000000000000003f8000003e6a4a8c3f560419,
  0xbf5a4b99be87720dbba676213edc28f63e0e3bcd3f6460aa3eebedfa3f213405,
  0xbf3af1ccbf0841ddbaa009f63e8e56043e5e9e1b3f6f8a093edc01a33f41f213,
  0xbf44676abed6d331bc88db053f18b4393ea0ded33f3d14e43ee00d1b3f342c3d,
  0xbf6339d2bda2d59dbbb6d86f3ef3c3613d5e69ad3f60b0f23ef020c53f0a233a,
  0xbf63442c3dff8338bb8c79f63ef18fc5bd89a0273f610cb33eefc5053ee2d0e5,
  0xbe77b2893f5df83cbbb9e4933e178d50bee7d5673f6119ce3ea09d493db126e9,
  0x3f2f8e2a3f14f16fbb9c8861becacd9fbea84b5e3f5b7e913db923a33e63a29c,
  0x3f4d859d3ecfbbb6bbad8a11bedc9eedbe4865953f6182aa3d8000003e9e0ded,
  0xbd5cebff3f65e7eabbb12d343c9eecc0befe69ad3f5e1b093e89ad433d8fc505,
  0x3de19b913f64f345bba3f898bd27ef9ebeeea4a93f6240b83e6a30553d93a92a,
  0x3e6f5ba33f5e8544bb9edbf9be0154cabee9d4953f616f003e4b78033da9fbe7,
  0x3eb2d7523f54841fbb9cfdd2be47e282bef4538f3f5b573f3e2ee6323dd32618,
  0x3ef9e7753f40e022bbdc8755be73d07dbec1d7dc3f64f7663e0cb2963e1096bc,
  0x3f199a633f2b7ac4bb99524cbe9dd97fbeadab9f3f6381d83de4f7663e34538f,
  0x3f65a3b13d22c882bb73dc05bef5c28fbd2e7d563f604ea53d1fbe773ef65fd9,
  0x3f625bc8be04b620bbcdc012bef4c9863da3d70a3f5fe5c93d32fec53f10f909,
  0x3f57f5a5be956191bbb0079abedeb8523e194af53f634d6a3d5a511a3f25182b,
  0x3f43d5bbbeeabe6abbb40703bed6f0073e80d1b73f5f3b643d930be13f395810,
  0x3f5c59da3e407182bc831ad2bf104189bdfd566d3f5119ce3d4710cb3ed367a1,
  0xbf26a950bf14fd5dbc84f6e03eeb43963eddcc643f467a103ed2e48f3f489375,
  0xbf08b418bf35797dbbb6f9fd3e88240b3eb85f073f64ea4b3ec467383f588ce7,
  0xbec41c61bf48763abc861e933e84f7663f03c3613f512d773eb1eb853f616873,
  0xbe6a361abf5b4a12bbb14ec23e159b3d3f002de03f5a6b513e9f212d3f6a8588,
  0xbf509ba63ecd34bdba48cd643eb381d8be306f693f6ba5e33ee6dc5d3e9f2e49,
  0xbf2d62283f173c92bbb0d0ee3eb2d773be9e4f763f626e983ed717593e602752,
  0xbeff43633f433062ba80d8023e463f14be8cd9e83f7113403ec000003e0c7e28,
  0xbf56ee853e83da51bc88df373f28bac7be45f06f3f3a0f913eea3d713ec2339c,
  0xbf4647673ed63fffbc8461fa3f023a2abe93b6463f4faace3ee226813e9a9fbe,
  0xbf17c59c3f26d0d5bc8ac9f33edff2e5bf0119ce3f3e9e1b3ecbe0df3e41a36e,
  0xbed73a363f46f7f5bc8861633e94fdf4bf1487fd3f42bd3c3eb65fd93e04ea4b,
  0x3f1f6a62bf2373d2bb8deb10bea2680a3eb2d7733f61b7173dd773193f507c85,
  0x3eef43c8bf44c815bae15012be34538f3e99652c3f700d1b3e1288ce3f5f837b,
  0x3e9594d1bf57c5cebb75f4e4be42c3ca3f0ce7043f501a373e3df3b63f68adac,
  0x3f2b2fa9bf1090f7bc8090b4bf0a30553ee0ebee3f37d5673dc1f2133f466666,
  0x3ef592fbbf3a2e2cbc9103c9beab43963ef773193f4f1aa03e0f27bb3f5ab368,
  0x3e5610aebf581312bc9331a1be102de03f24d0143f4089a03e5205bc3f6930be,
  0xbde08312bf30b88dbe2933a03e2a7efa3f1e28243f44bc6a3e9048173f55fd8b,
  0xbe97a701bf21e3fcbe288df33e8a30553f1560423f4418933ea745393f4ed289,
  0xbedc6584bf0cf451be28cb8e3ec978d53f02bd3c3f43afb83eb7c1be3f44bc6a,
  0xbf0a9585bee30d30be28a5ce3efe9e1b3ed41f213f4326183ec56d5d3f3786c2,
  0xbf1cad15bead26d9be28d0893f0fd2203ea3126f3f4374bc3ece63203f2ab368,
  0xbf2972efbe6bec25be29231c3f1a7efa3e5cac083f4487fd3ed4538f3f1d4fdf,
  0xbf32b1d5bdaa832cbe28ac9f3f22d0e53da9fbe73f4467383ed8adac3f0b1c43,
  0xbf338e6d3d2d71f3be28d0893f23eab3bce560423f4487fd3ed972473ef73eab,
  0xbf2feef63e214b9dbe2874433f1fdf3bbe1134053f449ba63ed765fe3edad42c,
  0xbf265d7d3e8bef28be28d0893f194467be79a6b53f4353f83ed30be13ebe2824,
  0xbf190a133ec1758ebe289e343f0b645abeae978d3f442c3d3ecc63f13ea48e8a,
  0xbf0032443f005426be288ebd3ee9374cbee60aa63f44bc6a3ec068dc3e8624dd,
  0xbed04a303f145af7be28d0893ec2339cbf06f0073f42b0213eb50b0f3e64c2f8,
  0xbe9cfd6d3f23f067be2900823e9020c5bf149ba63f4395813ea88ce73e47ae14,
  0xbe4684493f2eade6be28d0893e3573ebbf1d97f63f4495183e9ab9f53e31de6a,
  0xbd9a8e713f3506ffbe288e7a3d88ce70bf2361133f445a1d3e8c154d3e26b50b,
  0x3d962f163f3507fbbe28d60abd827525bf2346dc3f44816f3e7381d83e269ad4,
  0x3e49e3433f2e9ef5be28d089be367a10bf1e703b3f43d70a3e54e3bd3e31f8a1,
  0x3e9d07a73f24419abe29003fbe8e2196bf148e8a3f4404ea3e3a0f913e4710cb,
  0x3ed1f9ad3f142e23be28d089bebf9724bf052bd43f4487fd3e2041893e65119d,
  0x3f010c6f3f000eaebe284513beea57a8bee418933f44f7663e096bba3e867382,
  0x3f18dec23ec3764fbe28d717bf09a6b5beb0be0e3f44ea4b3de4c2f83ea38866,
  0x3f2708683e8b59bcbe28d089bf19930cbe7333333f4395813dc8b4393ebe69ad,
  0x3f303d793e26249abe2889c2bf228241be0ef34d3f428f5c3db81d7e3ed9b3d0,
  0x3f34b0d13b807358be28e2a0bf244d01bbded2893f44538f3daf837b3f005bc0,
  0x3f3198f2bdeebcc7be28d089bf21a36e3dea4a8c3f445a1d3db46dc63f0f4880,
  0x3f2a51d2be6a7b4ebe28c3b1bf1b7e913e5e69ad3f439c0f3dc361133f1d14e4,
  0x3f1d1c3bbeadbc45be28d089bf0fd8ae3e9f8a093f442c3d3ddbf4883f2ad42c,
  0x3f0c6a0abedfe5a8be28c3b1befedfa43ed182aa3f43c3613dfced913f36c227,
  0x3eedc22bbf05da9dbe28d089beda02753ef923a33f4346dc3e12d7733f418937,
  0x3ebe0b70bf17d6f9be28ea7dbeac3c9f3f0da5123f4318fc3e2a161e3f49fbe7,
  0x3e6950b9bf2930adbe288c1ebe5724743f1b089a3f447ae13e4d6a163f524dd3,
  0x3de1b75abf303bd6be28d6d4be10e5603f2147ae3f437b4a3e6a4a8c3f560419,
  0xbe3f0bafbf2be8eebefdacac3e8f4f0e3f75c28f3ac49ba63e99ce073f53e426,
  0xbe97a701bf21e3fcbe288df33ed42c3d3f68fc50bbd4fdf43ea745393f4ed289,
  0xbe9c534cbf20b370befdacac3ee275253f659b3d3b4b295f3ea865953f4e48e9,
  0xbedc6584bf0cf451be28cb8e3f1c6a7f3f4aacdaba6bedfa3eb7c1be3f44bc6a,
  0xbee0d089bf0b1876befdacac3f20d1b73f472b023bc154ca3eb8e2193f43e426,
  0xbf0a9585bee30d30be28a5ce3f43b6463f250481bb96bb993ec56d5d3f3786c2,
  0xbf1126a6bed310fdbefdac693f4ec56d3f16e9793c28c1553ec84b5e3f3374bc,
  0xbf1cad15bead26d9be28d0893f5f837b3ef9a6b5bb30f27c3ece63203f2ab368,
  0xbf29ac79be6bc276befdacac3f7075f73eaf9db23c03126f3ed460aa3f1d42c4,
  0xbf2972efbe6bec25be29231c3f7196533ea95e9ebb16bb993ed4538f3f1d4fdf,
  0xbf32b1d5bdaa832cbe28ac9f3f7db8bb3e089a02ba9d49523ed8adac3f0b1c43,
  0xbf32fe2ebd8d6cb5befdacac3f7e2eb23df318fc3b30f27c3ed8ef353f095e9e,
  0xbf338e6d3d2d71f3be28d0893f7fb15bbd46a7f0ba6bedfa3ed972473ef73eab,
  0xbf338e6d3d2d71f3befdacac3f7f9db2bd6147ae3aaa64c33ed972473ef73eab,
  0xbf2feef63e214b9dbe2874433f7a0275be5c28f6b9d1b7173ed765fe3edad42c,
  0xbf2f5b813e2a1661befdacac3f7985f0be64c2f83ac49ba63ed724743ed8bac7,
  0xbf265d7d3e8bef28be28d0893f6d013bbec17c1cba1d49523ed30be13ebe2824,
  0xbf265d7d3e8bef28befdacac3f6c779abec432ca3ab780343ed30be13ebe2824,
  0xbf190a133ec1758ebe289e343f58793ebf08a71eba3780343ecc63f13ea48e8a,
  0xbf17a51a3ec59c06befdacac3f56a162bf0b8bac3b4b295f3ecbb98c3ea28241,
  0xbf0032443f005426be288ebd3f378d50bf327525ba83126f3ec068dc3e8624dd,
  0xbefc70863f022963befdacac3f357a78bf348e8a3b03126f3ebf8a093e844d01,
  0xbed04a303f145af7be28d0893f14af4fbf50624eba3780343eb50b0f3e64c2f8,
  0xbed04a303f145af7befdacac3f1381d8bf513a933aaa64c33eb50b0f3e64c2f8,
  0xbe9cfd6d3f23f067be2900823edf6fd2bf66594bb99d49523ea88ce73e47ae14,
  0xbe99055c3f24cc47befdacac3edbb2ffbf673eab3ac49ba63ea7a0f93e45d639,
  0xbe4684493f2eade6be28d0893e8ded29bf75f6fdba03126f3e9ab9f53e31de6a,
  0xbe4684493f2eade6befdacac3e8b9f56bf764c303a902de03e9ab9f53e31de6a,
  0xbd9a8e713f3506ffbe288e7a3dd38ef3bf7ea4a938d1b7173e8c154d3e26b50b,
  0xbd8f6c6a3f350daebefdacac3dd32618bf7ea4a9b99d49523e8b6ae83e26809d,
  0x3d962f163f3507fbbe28d60abdc710cbbf7ecbfbbb4b295f3e7381d83e269ad4,
  0x3d28c5873f357332befdacacbd6e6320bf7f90973a51b7173e7b645a3e24c2f8,
  0x3e2c05d53f30db38befdacacbe7a29c7bf783e423b9d49523e5c28f63e2e978d,
  0x3e49e3433f2e9ef5be28d089be8e6320bf75e354ba6bedfa3e54e3bd3e31f8a1,
  0x3e9d07a73f24419abe29003fbedd70a4bf66cf423b03126f3e3a0f913e4710cb,
  0x3ea170503f2310aabefdacacbedf7ceebf6652bd3af9096c3e37e9103e49374c,
  0x3ed1f9ad3f142e23be28d089bf14d6a1bf504817ba03126f3e2041893e65119d,
  0x3ed1f9ad3f142e23befdacacbf15cfabbf4f97243a9d49523e2041893e65119d,
  0x3f010c6f3f000eaebe284513bf37c1bebf3240b83951b7173e096bba3e867382,
  0x3f01e96c3efdfeb9befdaccdbf394467bf30aa653b3780343e087fcc3e875f70,
  0x3f18dec23ec3764fbe28d717bf57d567bf09a6b5ba902de03de4c2f83ea38866,
  0x3f1a81cb3ebe28edbefdacacbf596bbabf071de73ac49ba63de1b08a3ea617c2,
  0x3f2708683e8b59bcbe28d089bf6cb296bec3126fbaaa64c33dc8b4393ebe69ad,
  0x3f2708683e8b59bcbefdacacbf6d7dbfbebf2e493ac49ba63dc8b4393ebe69ad,
  0x3f303d793e26249abe2889c2bf7a29c7be59652cba51b7173db81d7e3ed9b3d0,
  0x3f30bdba3e1b96f2befdacacbf7ae148be4be0df3b4b295f3db6e2eb3edc432d,
  0x3f34b0d13b807358be28e2a0bf800000bb9d4952bab780343daf837b3f005bc0,
  0x3f3490b4bbcff21bbefdacacbf8000003bded2893b3780343daf837b3f01a36e,
  0x3f3198f2bdeebcc7be28d089bf7c1bda3e31a9fcba1d49523db46dc63f0f4880,
  0x3f3198f2bdeebd4dbefdacacbf7bda513e374bc73aaa64c33db46dc63f0f4880,
  0x3f2a51d2be6a7b4ebe28c3b1bf7134053eab851fb99d49523dc361133f1d14e4,
  0x3f29797dbe72e0a0befdacacbf706f693eafd2203ac49ba63dc504813f1e1b09,
  0x3f1d1c3bbeadbc45be28d089bf5f14123efb2fecba1d49523ddbf4883f2ad42c,
  0x3f1d1c3bbeadbc45befdacacbf5e63203efda5123ab780343ddbf4883f2ad42c,
  0x3f0c6a0abedfe5a8be28c3b1bf46d5d03f214120b951b7173dfced913f36c227,
  0x3f0ad3fabee38690befdacacbf4559b43f23126f3ac49ba63e0000003f37ae14,
  0x3eedc22bbf05da9dbe28d089bf28ce703f4075f7ba3780343e12d7733f418937,
  0x3eedc22bbf05daadbefdacacbf27ae143f416f003ab780343e12d7733f418937,
  0x3ebe0b70bf17d6f9be28ea7dbf04af4f3f5aee63ba902de03e2a161e3f49fbe7,
  0x3eb98959bf192029befdacacbf01cac13f5cac083b3e0ded3e2c3c9f3f4aa64c,
  0x3e6950b9bf2930adbe288c1ebea88ce73f71bda5ba6bedfa3e4d6a163f524dd3,
  0x3e60b49ebf29cb47befdacacbea3c9ef3f728f5c3b1d49523e4f76603f52a993,
  0x3de1b75abf303bd6be28d6d4be688ce73f795183ba6bedfa3e6a4a8c3f560419,
  0x3de1deadbf303aa8befdacacbe65c91d3f7978d5000000003e6a4a8c3f560419,
  0x3f8094d53d392d13bf0bad9f3f7fcb923d1d4952bbadab9f3c5d2f1b3ef69446,
  0x3f8094ffbd0414623bc942d53f7fdf3bbcf765fe3bf27bb33c5d2f1b3f04d6a1,
  0x3f7e658cbe157ffabf0bad9f3f7d0e56be1aee63bbcb295f3c83e4263f12e48f,
  0x3f7c6ed23e5d2e513bc929aa3f7a0f913e5aee633bf9096c3c9ba5e33ecc985f,
  0x3f7ab2183e6f9f88bf0badb03f79374c3e6a3055bb9374bc3ca0902e3ec7ef9e,
  0x3f6b13ad3ed4bd34bf0bad9f3f6a233a3ecf0d84bb51b7173d0c7e283e9b2fec,
  0x3f62f2b63ef72c523bc9e2373f626e983eeecbfb3c1374bc3d2e7d563e8adaba,
  0x3f530d0f3f14ebddbf0badb03f51c4333f12b6aebbded2893d690ff93e643fe6,
  0x3f41197a3f2bbc1b3bc942d53f40f9093f2831273bf9096c3d9724743e3837b5,
  0x3f3377e23f3a0264bf0bad9f3f3113403f38db8cbbf9096c3db15b573e1cac08,
  0x3f1d3ec43f4d3ea33bc93a713f1c710d3f4a9fbe3bce703b3ddc28f63def34d7,
  0x3f04cc9a3f5e4580bf0baebc3f02339c3f5c6a7fbc11d14e3e05f06f3dafec57,
  0x3ee82c913f672baa3bc9320e3ee56d5d3f64dd2f3b5844d03e15b5743d8b4396,
  0x3e855cd93f7ab873bf0bad2a3e88c1553f76ae7dbbc7e2823e45a1cb3d07fcb9,
  0x3e8d45413f78f2063bc93a713e8d013b3f7617c23b902de03e4189373d0d4fdf,
  0x3db34b513f80e6003bc93a713dbf14123f7edfa43a6bedfa3e6fec573c92a305,
  0x3d4797033f811a1abf0bad9f3d71a9fc3f7f9097baaa64c33e7972473c83e426,
  0xbdaee17a3f80e600bf0bad9fbdbf14123f7edfa4ba6bedfa3e8d4fdf3c92a305,
  0xbd3ec67a3f811a1a3bc942d5bd71a9fc3f7f90973aaa64c33e888ce73c83e426,
  0xbe8441353f7ab8a63bc91080be848e8a3f7745393b3e0ded3ea282413d07fcb9,
  0xbe8c2a453f78f239bf0bad9fbe8d013b3f7617c2bb902de03ea48e8a3d0d4fdf,
  0xbee713493f672bfebf0bad9fbee3bcd33f65460bbaaa64c33eba6b513d8b4396,
  0xbeeec6583f652f903bc9320ebee902de3f63f1413a9d49523ebc432d3d92d773,
  0xbf14ae003f52de12bf0bad9fbf13a92a3f51205cba83126f3eca8c153dd7dbf5,
  0xbf14ae003f52de123bc942d5bf154c983f4ff9723a6bedfa3eca8c153dd7dbf5,
  0xbf2f65883f3d5315bf0bad9fbf2f837b3f3a5e35ba6bedfa3ed73eab3e1652bd,
  0xbf3288163f3a57da3bc94b38bf317c1c3f387fcc3a6bedfa3ed8c7e33e1c0ebf,
  0xbf499e953f207000bf0bad9fbf489a023f1f0d84ba83126f3ee418933e4d6a16,
  0xbf499e953f2070003bc942d5bf49ce073f1d844d3a6bedfa3ee418933e4d6a16,
  0xbf5d6b763f03d007bf0badb0bf5e56043efdcc64ba9d49523eed6a163e829c78,
  0xbf5f95c43f000f023bc93a71bf5fbe773ef8c7e33a9d49523eee703b3e863f14,
  0xbf7590d13e9e6adbbf0bad4bbf7460aa3e988659bb8ce7043ef886593eb5a858,
  0xbf736dec3ea71a7e3bc942d5bf7288ce3ea3d70a3b9374bc3ef803473eb126e9,
  0xbf7e846a3e0ef73c3bc942d5bf7db8bb3e084b5e3badab9f3efd63883edf3b64,
  0xbf80337b3d80f5e4bf0bad9fbf7f76603d84b5ddbbf27bb33efe425b3ef22d0e,
  0xbf80339cbd4d02473bc942d5bf7f7660bd84b5dd3bf27bb33efe425b3f070a3d,
  0xbf7e84e0be01bde8bf0bad9fbf7db22dbe089a02bb9d49523efd63883f107c85,
  0xbf758ab9be9803043bc918e3bf73a92abe9cfaad3bf9096c3ef886593f255326,
  0xbf7366e8bea0b2a7bf0bad9fbf727bb3bea41893bb9374bc3ef7f62b3f279a6b,
  0xbf5f8983bef99221bf0badb0bf5f3b64befa92a3bb30f27c3eee703b3f3d07c8,
  0xbf55af6cbf0d56d23bc9ea9abf55f6fdbf0c8b443c1374bc3ee95e9e3f44d014,
  0xbf439b24bf24d9a5bf0bad9fbf42f838bf25e354bbce703b3ee0f9093f505532,
  0xbf2f6220bf3a0ee93bc94b38bf2ea4a9bf3b295f3c11d14e3ed73eab3f5a8c15,
  0xbf20a548bf46d02dbf0bad9fbf2020c5bf47bb30bbadab9f3ed02de03f60b780,
  0xbef7e1dabf603cb03bc93a71bef7f62bbf5ff9723b8ce7043ebe353f3f6c7e28,
  0xbeeebf87bf61e95bbf0badb0beedab9fbf62bd3cbba3d70a3ebc432d3f6dc5d6,
  0xbe947fbbbf745b3abf0bad9fbe97e910bf747ae1ba03126f3ea68db93f76b50b,
  0xbe8c2ebabf7593923bc942d5be9212d7bf7559b43a03126f3ea48e8a3f774bc7,
  0xbe110d39bf7c9310bf0bad9fbe159b3dbf7d42c4ba6bedfa3e9446743f7ae7d5,
  0xbe110d39bf7c93103bc942d5be0dd2f2bf7d8adb3a6bedfa3e9446743f7ae7d5,
  0xbbf16f44bf7f62a6bf0bad9fbbb78034bf800000bad1b7173e83afb83f7c01a3,
  0x3c1bfdf8bf7f62a63bc942d53bb78034bf8000003ad1b7173e8196533f7c01a3,
  0x3e13415bbf7c9310bf0bad9f3e0dd2f2bf7d8adbba6bedfa3e61ff2e3f7ae7d5,
  0x3e13415bbf7c93103bc942d53e159b3dbf7d42c43a6bedfa3e61ff2e3f7ae7d5,
  0x3e8d4930bf7593b4bf0bad9f3e90a3d7bf7594afba3780343e4189373f774bc7,
  0x3e959ab7bf745b183bc942d53e97b4a2bf74816f3a9d49523e3d70a43f76b50b,
  0x3ee827fabf63e532bf0bad9f3ee6c227bf6487fdbb09a0273e15b5743f6eb852,
  0x3eefd8cfbf61e95b3bc94b383eee6320bf628f5c3aebedfa3e1205bc3f6dc5d6,
  0x3f1dad54bf4993d5bf0bad9f3f1c7e28bf4a9931baded2893ddb573f3f620c4a,
  0x3f2113b6bf46e7c53bc93a713f1e6320bf491d15ba03126f3dd4c9863f60c49c,
  0x3f40e8fbbf28a17bbf0badb03f3f9724bf29c77abb8ce7043d978d503f522681,
  0x3f3a2d73bf2f964a3bc942d53f39a027bf304ea53a1d49523da3d70a3f55aee6,
  0x3f53210cbf1172153bc93a713f52ca58bf1147ae3ba71de73d68a71e3f46fd22,
  0x3f5daa3fbf0109c0bf0bad9f3f5c779abf021965bbcb295f3d401a373f3f1412,
  0x3f6b269ebecdc0983bc94b383f69db23bed048173bcb295f3d0c154d3f327525,
  0x3f727514bea94be0bf0bad9f3f7119cebeac0831bbcb295f3ce075f73f29ad43,
  0x3f7ab218be6270f43bc942d53f795810be6809d53bcb295f3ca0902e3f1c28f6,
  0x3e905ea23e984ec6bf1884e8000000003f800000800000003e3fe5c93eb82a99,
  0x3ea5bb7b3e984ec6bf0bad9f000000003f800000800000003e35a8583eb82a99,
  0x3ea5bb7b3e984ec6bf1884e8000000003f800000800000003e35a8583eb82a99,
  0x3e905ea23e984ec6befdacac000000003f800000800000003e3fe5c93eb82a99,
  0x3ebe98dd3e984ec6befdacac000000003f800000800000003e29930c3eb82a99,
  0x3ebe98dd3e984ec6bf0bad9f000000003f800000800000003e29930c3eb82a99,
  0xbe8f44913e984ec6befdacac000000003f800000800000003ea553263eb82a99,
  0xbebd7ecc3e984ec6bf1884e8000000003f800000800000003eb07c853eb82a99,
  0xbebd7ecc3e984ec6befdacac000000003f800000800000003eb07c853eb82a99,
  0xbe8f44913e984ec6bf1884e8000000003f800000800000003ea553263eb82a99,
  0xbebd7ecc3eaf4e23bf0bad9f3f80000000000000000000003eb07c853ead0e56,
  0xbebd7ecc3e984ec6bf1884e83f80000000000000000000003eb07c853eb82a99,
  0xbebd7ecc3eaf4e23bf1884e83f80000000000000000000003eb07c853ead0e56,
  0xbebd7ecc3e984ec6befdacac3f80000000000000000000003eb07c853eb82a99,
  0xbebd7ecc3f16a1b6befdacac3f80000000000000000000003eb07c853e605bc0,
  0xbebd7ecc3f16a1b6bf0bad9f3f80000000000000000000003eb07c853e605bc0,
  0x3e2018a4bead26fabf0bad9f3a83126fba03126f3f8000003e5eecc03f2ab368,
  0xbcb6d43dbe13a3a9bf0b95d5ba51b7173951b7173f8000003e856d5d3f121ff3,
  0xbe082e02bf015c10bf0bad9fb9d1b717ba3780343f8000003e9333333f3f62b7,
  0x3d8c2d6bbe042891bf0bad9f3aebedfa3a51b7173f8000003e74d6a13f109d49,
  0xbdd0ff11bdd5d702bf0bad9fbaaa64c338d1b7173f8000003e8f34d73f0d97f6,
  0xbe4becab3d230660bf0bacd6b8d1b71739d1b7173f8000003e9ac7113ef81062,
  0xbe113a0cbd32b991bf0bad9f3b7f97243b23d70a3f8000003e9412063f062b6b,
  0xbe1862f63ce9ca9fbf0bad9f3951b717800000003f8000003e94e3bd3efab9f5,
  0xbdf897a63dc3608dbf0bad9fba9d49523aded2893f8000003e918fc53eea64c3,
  0xbe1318fc3e181f54bf0bb6aabac49ba63b09a0273f8000003e941f213eddcc64,
  0xbd881d3b3e1183b6bf0bad9fbaaa64c33b102de03f8000003e8adaba3edf06f7,
  0xbd0d45633e5308bcbf0bb4a2ba6bedfa3af9096c3f8000003e86f6943ecfdf3b,
  0x3b956c0d3e21b585bf0bad9fba1d49523aaa64c33f8000003e82339c3edb2fec,
  0x3d87ac823e49f16bbf0bad9fb951b717399d49523f8000003e7559b43ed15b57,
  0x3d989acc3e0e542ebf0badb0b99d49523a83126f3f8000003e7367a13edfcb92,
  0x3e0ab64a3e209742bf0badb03a1d49523b23d70a3f8000003e6474543edb573f,
  0x3e0de93a3d945309bf0b99d43b6bedfa3aebedfa3f8000003e645a1d3ef05532,
  0x3e3c97d93dba500dbf0bad9f3bb780343b23d70a3f8000003e58793e3eeb6ae8,
  0x3e4fb1183c31e5c1bf0bad9f3b03126fba902de03f8000003e53f7cf3eff1412,
  0x3e1a99b7bc7b00bdbf0bad9f3a1d4952ba902de03f8000003e60c49c3f02bd3c,
  0x3dfce39bbda945fabf0bad9f00000000000000003f8000003e676c8b3f0aee63,
  0x3e905ea23ebd3240bf0bad9f3f80000000000000000000003e3fe5c93ea6594b,
  0x3e905ea23e984ec6bf1884e83f80000000000000000000003e3fe5c93eb82a99,
  0x3e905ea23ebd3240bf1884e83f80000000000000000000003e3fe5c93ea6594b,
  0x3e905ea23e984ec6befdacac3f80000000000000000000003e3fe5c93eb82a99,
  0x3e905ea23f16a1b6befdacac3f80000000000000000000003e3fe5c93e605bc0,
  0x3e905ea23f16a1b6bf0bad9f3f80000000000000000000003e3fe5c93e605bc0,
  0x3e05f2883f21a9b9bf1884e83f5db8bb3effe5c9800000003e65460b3e4b0f28,
  0x3e905ea23ebd3240bf0bad9f3f5db8bb3effe5c9800000003e3fe5c93ea6594b,
  0x3e905ea23ebd3240bf1884e83f5db8bb3effe5c9800000003e3fe5c93ea6594b,
  0x3e05f2883f21a9cabf0bad9f3f5da5123f001a37800000003e65460b3e4b0f28,
  0x3ea5bb7b3e984ec6bf1884e83f5db8bb3efff2e5800000003e35a8583eb82a99,
  0x3f0ea290bddb2032bf0bad9f3f5db8bb3efff2e5800000003df7ced93f0e1b09,
  0x3f0ea290bddb20b8bf1884e83f5db8bb3efff2e5800000003df7ced93f0e1b09,
  0x3ea5bb7b3e984ec6bf0bad9f3f5db8bb3efff2e5800000003e35a8583eb82a99,
  0xbe8f44913e984ec6bf1884e8bf80000000000000000000003ea553263eb82a99,
  0xbe8f44913eca09abbf0bad9fbf80000000000000000000003ea553263ea02752,
  0xbe8f44913eca09abbf1884e8bf80000000000000000000003ea553263ea02752,
  0xbe8f44913e984ec6befdacacbf80000000000000000000003ea553263eb82a99,
  0xbe8f44913f16a1b6befdacacbf80000000000000000000003ea553263e605bc0,
  0xbe8f44913f16a1b6bf0bad9fbf80000000000000000000003ea553263e605bc0,
  0x3e05f2883f21a9cabf0bad9fbeffd8ae3f5dbf48800000003e65460b3e4b0f28,
  0xbe8f44913eca09abbf1884e8beffd8ae3f5dbf48800000003ea553263ea02752,
  0xbe8f44913eca09abbf0bad9fbeffd8ae3f5dbf48800000003ea553263ea02752,
  0x3e05f2883f21a9b9bf1884e8beffd8ae3f5dbf48800000003e65460b3e4b0f28,
  0xbf26b7243e38609abf1884e8bf00068e3f5db22d800000003ed3404f3ed53261,
  0xbebd7ecc3eaf4e23bf0bad9fbf00068e3f5db22d800000003eb07c853ead0e56,
  0xbebd7ecc3eaf4e23bf1884e8bf00068e3f5db22d800000003eb07c853ead0e56,
  0xbf26b7243e38609abf0bad9fbf00068e3f5db22d800000003ed3404f3ed53261,
  0xbe06bc1f3d5fa54cbf1218bdbf6e91003eb97247bc86594b3e9254613ef4bc6a,
  0xbe08be73bce46ae4bf121944bf78adacbe727bb3bc7c50483e930be13f043fe6,
  0xbe0c20d5bc34f616beca4f87bf7dfa44bdff97243c4985f03e9367a13f022d0e,
  0xbe03458d3d6b69dbbeca4f87bf6ced913ec1d7dc3c4ccccd3e92617c3ef3b646,
  0xbda3d1cc3df8f81fbeca4e59bf1532613f50068e3c35dcc63e8c3c9f3ee4dd2f,
  0xbd7f27fe3e07ac3fbf1218cebef367a13f612d77bc9446743e8a233a3ee24dd3,
  0xbbf8a4c23e13b928beca4f87bd88ce703f7f62b73c902de03e83afb83ede0ded,
  0x3c1f94853e13b8e5bf1219443d8902de3f7f62b7bc902de03e8196533ede0ded,
  0x3d83a7543e07bdcfbeca50d73ee831273f641f213c7f97243e765fd93ee240b8,
  0x3da812383df90afebf1219eb3f1439583f50aa65bc8db8bb3e7212d73ee4dd2f,
  0x3dfc09813d960bf6beca4f873f5eecc03efb8bac3c8f5c293e67a0f93eefd220,
  0x3e0587513d6b1811bf1219443f6d566d3ebfcb92bc7f97243e65c91d3ef3b646,
  0x3e0f61243bd93815beca4fa93f7ff972bc1d49523c6a4a8c3e6388663f000d1b,
  0x3e0e5322bc337c9abf1219543f7ded29be01205cbc51b7173e63bcd33f022d0e,
  0x3df0b392bd97403ebeca511a3f4f4880bf1624dd3cac08313e69e1b13f09930c,
  0x3de8b008bd99bbaebf1219443f4ed917bf16c8b4bc59e83e3e69e1b13f09fbe7,
  0x3d757c4ebdf4bd77bf1219443ed05532bf69ce07bc816f003e76fd223f0f6944,
  0x3cff6d33be05e3dabeca49c33e322d0ebf3e425b3f2566cf3e7e28243f105bc0,
  0xbced8905be05e52abf121b09be5460aabf7a57a8bccf41f23e8631f93f105bc0,
  0xbd6cabc5bdf4bd77beca4f87be9c432dbf3041893f286c223e89d4953f0f6944,
  0xbdcd4fdfbdb56eadbf121954bf389a02bf314e3cbca8c1553e8ef34d3f0ba5e3,
  0xbde456f7bd99999abeca4f87bf4f5c29bf1617c23c6bedfa3e9055323f09fbe7,
  0xbe0c20d5bc34f616beca4f8700000000000000003f8000003e9367a13f022d0e,
  0x3e0f61243bd93815beca4fa980000000b8d1b7173f8000003e6388663f000d1b,
  0xbe03458d3d6b69dbbeca4f8700000000000000003f8000003e92617c3ef3b646,
  0x3df0b392bd97403ebeca511a0000000038d1b7173f8000003e69e1b13f09930c,
  0xbde456f7bd99999abeca4f8738d1b717800000003f8000003e9055323f09fbe7,
  0x3dfc09813d960bf6beca4f8700000000000000003f8000003e67a0f93eefd220,
  0xbda3d1cc3df8f81fbeca4e5980000000b8d1b7173f8000003e8c3c9f3ee4dd2f,
  0x3d83a7543e07bdcfbeca50d738d1b7173951b7173f8000003e765fd93ee240b8,
  0xbbf8a4c23e13b928beca4f8738d1b717800000003f8000003e83afb83ede0ded,
  0x3e0e5322bc337c9abf121954b8d1b717000000003f8000003e63bcd33f022d0e,
  0x3e1a975b3ce9ca9fbf1219443a83126f3a3780343f8000003e60c49c3efab9f5,
  0x3e0587513d6b1811bf1219443c535a863c16bb993f7ff9723e65c91d3ef3b646,
  0x3e136e72bd32b991bf1219443a902de0ba902de03f8000003e62680a3f062b6b,
  0x3de41dd23de4e486bf122cba3c6075f73c3923a33f7ff2e53e6ae7d53ee6dc5d,
  0x3da812383df90afebf1219eb3c87fcb93cb923a33f7fe5c93e7212d73ee4dd2f,
  0x3d0bdcad3e1e0653bf1219443a6bedfa3a1d49523f8000003e7d3c363edc0ebf,
  0x3c1f94853e13b8e5bf1219443a378034baded2893f8000003e8196533ede0ded,
  0xbd7976793e1721d5bf121512399d4952bb727bb33f8000003e89fbe73ede9e1b,
  0xbd7f27fe3e07ac3fbf1218ceba6bedfabb449ba63f8000003e8a233a3ee24dd3,
  0xbe0c3f3e3d91372abf122bd0bc8c154d3c3ac7113f7ff2e53e9326183ef0b0f2,
  0xbe06bc1f3d5fa54cbf1218bdbccbfb163c0ce7043f7fec573e9254613ef4bc6a,
  0xbe186552bc7b00bdbf121944baaa64c33951b7173f8000003e94e3bd3f02bd3c,
  0xbe08be73bce46ae4bf12194400000000000000003f8000003e930be13f043fe6,
  0xbdf87b57bda945fabf12194400000000000000003f8000003e918fc53f0aee63,
  0xbdcd4fdfbdb56eadbf12195438d1b71738d1b7173f8000003e8ef34d3f0ba5e3,
  0xbd879ee0be043394bf1219443a3780343a51b7173f8000003e8adaba3f109d49,
  0xbced8905be05e52abf121b093a3780343b51b7173f8000003e8631f93f105bc0,
  0x3b956c0dbe144c38bf121944399d4952b99d49523f8000003e82339c3f1288ce,
  0x3d757c4ebdf4bd77bf1219443c5844d0bcdc5d643f7fdf3b3e76fd223f0f6944,
  0x3dbc9ff9bded5f14bf1230cb3c5b8bacbc8c154d3f7ff2e53e6f837b3f0eb852,
  0x3de8b008bd99bbaebf1219443c8c154dbc89a0273f7fec573e69e1b13f09fbe7,
  0x3e1a99b7bc7b00bdbf0bad9fbf7e00d23dfbe76d3cb5dcc63e60c49c3f02bd3c,
  0x3e0de93a3d945309bf0b99d4bf658106bedbb2ff3de2eb1c3e645a1d3ef05532,
  0x3e1a975b3ce9ca9fbf121944bf7c49babe17dbf5bda8240b3e60c49c3efab9f5,
  0x3e136e72bd32b991bf121944bf6f7cee3eb487fdbcb50b0f3e62680a3f062b6b,
  0x3dfce39bbda945fabf0bad9fbf4ed9173f14b5dd3dc91d153e676c8b3f0aee63,
  0x3dbc9ff9bded5f14bf1230cbbf1a7efa3f4bf488bd037b4a3e6f837b3f0eb852,
  0x3d8c2d6bbe042891bf0bad9fbec3c9ef3f6c22683d5b8bac3e74d6a13f109d49,
  0x3b956c0dbe144c38bf121944bdb7e9103f7e9e1bbd57dbf53e82339c3f1288ce,
  0xbcb6d43dbe13a3a9bf0b95d53e27381d3f7c6a7f3d0793de3e856d5d3f121ff3,
  0xbd879ee0be043394bf1219443ee432ca3f63c361bdc9ba5e3e8adaba3f109d49,
  0xbdd0ff11bdd5d702bf0bad9f3f2a233a3f3f3b643ca9930c3e8f34d73f0d97f6,
  0xbdf87b57bda945fabf1219443f5119ce3f136e2fbd0e8a723e918fc53f0aee63,
  0xbe113a0cbd32b991bf0bad9f3f700d1b3eb0f27c3d0ef34d3e9412063f062b6b,
  0xbe186552bc7b00bdbf1219443f7dfa443dfd21ffbcbedfa43e94e3bd3f02bd3c,
  0xbe1862f63ce9ca9fbf0bad9f3f7c710dbe0d013b3dbe76c93e94e3bd3efab9f5,
  0xbe0c3f3e3d91372abf122bd03f67f62bbed844d0bcb5dcc63e9326183ef0b0f2,
  0xbdf897a63dc3608dbf0bad9f3f428f5cbf23bcd33debb98c3e918fc53eea64c3,
  0xbd7976793e1721d5bf1215123ecbb98cbf6ab368bd0f5c293e89fbe73ede9e1b,
  0xbd881d3b3e1183b6bf0bad9f3ef765febf5f1412bdacd9e83e8adaba3edf06f7,
  0x3b956c0d3e21b585bf0bad9f3c463f14bf7eecc03db8ef353e82339c3edb2fec,
  0x3d0bdcad3e1e0653bf121944be690ff9bf794467bc22339c3e7d3c363edc0ebf,
  0x3d989acc3e0e542ebf0badb0bef9e83ebf5e7d563da36e2f3e7367a13edfcb92,
  0x3de41dd23de4e486bf122cbabf37ced9bf2fd8aebde5c91d3e6ae7d53ee6dc5d]

set_option maxRecDepth 100000 in
/-- the triangles of `KICKER_T1_INDICES`, /repo/src/vpx/mesh/kickers/kicker_t1_mesh.rs:678-854 -/
def kickerT1Tris : List Nat := [
  0x006e006f0070, 0x0071006f006e, 0x000000010002, 0x000300010000, 0x000100150002, 0x000400030000, 0x000200150014,
  0x000500030004, 0x001500130014, 0x000600050004, 0x001400130012, 0x000700050006, 0x001300110012, 0x000800050007,
  0x001200110010, 0x000900080007, 0x0011000f0010, 0x000a00090007, 0x0010000f000e, 0x000b0009000a, 0x000f000d000e,
  0x000c000b000a, 0x000e000d000c, 0x000d000b000c, 0x001600170018, 0x001900170016, 0x001a00180017, 0x001900160061,
  0x001a00630018, 0x00610016001c, 0x00670061001c, 0x001a00620063, 0x00640062001a, 0x006500620064, 0x006600650064,
  0x00630067001b, 0x001b0067001c, 0x0063001b0018, 0x0016001b001c, 0x0018001b0016, 0x001d001e001f, 0x0046001e0047,
  0x0048001e0046, 0x001d001f0024, 0x004e001e0048, 0x001f00210024, 0x001f001e004f, 0x002400210023, 0x004f001e004e,
  0x0020001e001d, 0x001d00250020, 0x002100220023, 0x004e0022004f, 0x002000250026, 0x002500230026, 0x002300220026,
  0x0022004e0026, 0x0026004e0030, 0x004e004c0030, 0x004c002d0030, 0x004d002d004c, 0x004d004c002a, 0x002a004c0049,
  0x0027004d002a, 0x0049004a002a, 0x004b004a0049, 0x002a00280027, 0x0030002d002c, 0x002700280029, 0x002c002f0030,
  0x0030002f0028, 0x002f00290028, 0x002b002c002d, 0x00270029002e, 0x002e002b002d, 0x0029002b002e, 0x003100320033,
  0x003700330032, 0x003400310033, 0x003800370032, 0x003500310034, 0x003900370038, 0x003600350034, 0x0038003a0039,
  0x003400440036, 0x003b003a0038, 0x004400430036, 0x003b003c003a, 0x003600430040, 0x003d003c003b, 0x004300420040,
  0x003e003c003d, 0x004000420041, 0x0041003e0040, 0x003f003e003d, 0x0040003e003f, 0x003f00450040, 0x005000510052,
  0x005300500052, 0x00520051005f, 0x005400530052, 0x005f00510060, 0x005500530054, 0x005f0060005e, 0x005600550054,
  0x005f005e005b, 0x005700550056, 0x005e005d005b, 0x005800570056, 0x005d005c005b, 0x005900580056, 0x005c005a005b,
  0x0059005a0058, 0x005b005a0059, 0x00680069006a, 0x006b00690068, 0x006c006b0068, 0x006d006b006c, 0x007200730074,
  0x007300770074, 0x007500730072, 0x007500780073, 0x007900780075, 0x007a00780079, 0x007600750072, 0x0072007b0076,
  0x0076007b007c, 0x007d007e007f, 0x0080007e007d, 0x0081007e0080, 0x0080007d00ab, 0x0082007e0081, 0x00ab007d00aa,
  0x008300820081, 0x008400820083, 0x008500820084, 0x008600850084, 0x008700850086, 0x007d00a800aa, 0x007d00ac00a8,
  0x00aa00a800a9, 0x00a900a800a7, 0x00a800a400a7, 0x00a700a400a6, 0x00a600a400a5, 0x00a500a400a3, 0x00a400a100a3,
  0x00a300a100a0, 0x009e00a000a1, 0x00a200a0009e, 0x00ad00a2009e, 0x00ae00ad009e, 0x009e00af00ae, 0x009d00af009e,
  0x009a009d009e, 0x009f009d009a, 0x00b0009f009a, 0x009a00b100b0, 0x009c00b1009a, 0x009c009a0098, 0x0098009a009b,
  0x0099009c0098, 0x009900980095, 0x008800940085, 0x008800850087, 0x008900880087, 0x008a00880089, 0x008b0088008a,
  0x008c0088008b, 0x008d0088008c, 0x008e0088008d, 0x008f008e008d, 0x0090008e008f, 0x0091008e0090, 0x0092008e0091,
  0x009300920091, 0x009500920093, 0x009600920095, 0x009700960095, 0x009500980097, 0x00c000960097, 0x00c000c10096,
  0x00c100920096, 0x00be00c00097, 0x0097009800be, 0x00c100c20092, 0x00be009800bf, 0x00c900bf0098, 0x00ca00c90098,
  0x00cb00ca0098, 0x018100c900ca, 0x00cc00ca00cb, 0x018200c90181, 0x00cd00cc00cb, 0x018301820181, 0x010200cc00cd,
  0x018401820183, 0x0103010200cd, 0x018501840183, 0x010401020103, 0x018601840185, 0x010501040103, 0x018701860185,
  0x010601040105, 0x018801860187, 0x010701060105, 0x018901880187, 0x010801060107, 0x018a01880189, 0x010901080107,
  0x018b018a0189, 0x010a01080109, 0x018c018b0189, 0x010b010a0109, 0x018d018b018c, 0x00c7010a010b, 0x018e018d018c,
  0x00c800c7010b, 0x018f018d018e, 0x00c800c600c7, 0x0190018f018e, 0x00c700c600c5, 0x0191018f0190, 0x00c6009200c5,
  0x019201910190, 0x00c5009200c4, 0x019301910192, 0x00c4009200c3, 0x019401930192, 0x019501930194, 0x019601950194,
  0x019701950196, 0x019801970196, 0x019901970198, 0x019a01990198, 0x019b0199019a, 0x019c019b019a, 0x019d019b019c,
  0x019e019d019c, 0x019f019d019e, 0x01a0019f019e, 0x01a1019f01a0, 0x01a2019f01a1, 0x01a301a201a1, 0x01a401a301a1,
  0x01a501a301a4, 0x01a601a501a4, 0x01a701a501a6, 0x01a801a701a6, 0x01a901a701a8, 0x01aa01a901a8, 0x01ab01a901aa,
  0x01ac01ab01aa, 0x01ad01ab01ac, 0x01ae01ad01ac, 0x01af01ad01ae, 0x01b001af01ae, 0x01b101af01b0, 0x01b201b101b0,
  0x01b301b101b2, 0x01b401b301b2, 0x01b501b301b4, 0x01b601b501b4, 0x01b701b501b6, 0x01b801b701b6, 0x01b901b701b8,
  0x01ba01b901b8, 0x01bb01b901ba, 0x01bc01bb01ba, 0x01bd01bb01bc, 0x01be01bd01bc, 0x01bf01bd01be, 0x01c001bf01be,
  0x00c200c30092, 0x00d300c200d2, 0x00d400c200d3, 0x00d200c200ce, 0x00d500c200d4, 0x00d600d500d4, 0x00ce00c200d1,
  0x00d100d000ce, 0x00d000be00ce, 0x00ce00be00cf, 0x00cf00be0101, 0x00c300c2015c, 0x00c200d5015c, 0x00be01000101,
  0x0101010000ff, 0x00c3015c015f, 0x00c3015f0180, 0x0180015f017f, 0x015f015c017f, 0x017f015c017e, 0x010000fe00ff,
  0x00ff00fe00fd, 0x015c015e017e, 0x00fe00fb00fd, 0x00fd00fb00fc, 0x00fc00fb00f9, 0x015b015e015c, 0x015c00d5015b,
  0x015e015a017e, 0x015b015a015e, 0x017e015a017d, 0x00d500d7015b, 0x015b00d7015a, 0x00d700d500d6, 0x00d800d700d6,
  0x00d900d700d8, 0x015a015d017d, 0x017d015d017c, 0x014d015d015a, 0x015d014d017c, 0x015a00d7014d, 0x017c014d017b,
  0x017b014d017a, 0x00da00d700d9, 0x014d00d700da, 0x00db00da00d9, 0x014d014c017a, 0x014d00da014c, 0x017a014c0179,
  0x00dc00da00db, 0x014c014b0179, 0x014c00da014b, 0x0179014b0178, 0x00dd00da00dc, 0x014b00da00dd, 0x00de00dd00dc,
  0x00df00dd00de, 0x014b014a0178, 0x014b00dd014a, 0x014a014e0178, 0x0178014e0177, 0x014a00dd00e0, 0x00e0014e014a,
  0x00e000dd00df, 0x014e01430177, 0x0143014e00e0, 0x017701430176, 0x017601430175, 0x00e100e000df, 0x00e1014300e0,
  0x00e200e100df, 0x00e300e100e2, 0x014301420175, 0x00e101420143, 0x017501420174, 0x00e400e100e3, 0x014200e100e4,
  0x00e500e400e3, 0x014201490174, 0x014200e40149, 0x017401490173, 0x00e600e400e5, 0x014901480173, 0x014900e40148,
  0x017301480172, 0x014800e40147, 0x014801470172, 0x00e700e400e6, 0x014700e400e7, 0x00e800e700e6, 0x00e900e700e8,
  0x014701460172, 0x014700e70146, 0x017201460171, 0x00ea00e700e9, 0x014601450171, 0x014600e70145, 0x017101450170,
  0x00eb00e700ea, 0x014500e700eb, 0x00ec00eb00ea, 0x014501440170, 0x014500eb0144, 0x01700144016f, 0x00ed00eb00ec,
  0x00ee00ed00ec, 0x00ef00ed00ee, 0x00f000ed00ef, 0x014400eb0141, 0x01440141016f, 0x014100eb00ed, 0x016f0141016e,
  0x016e0141016d, 0x00f100ed00f0, 0x00f200f100f0, 0x00f300f100f2, 0x01410159016d, 0x016d0159016c, 0x014100ed0155,
  0x014101550159, 0x00ed00f10155, 0x01590158016c, 0x015501580159, 0x016c0158016b, 0x015501540158, 0x01580154016b,
  0x015500f10154, 0x016b0154016a, 0x00f400f100f3, 0x00f500f400f3, 0x00f600f400f5, 0x01540157016a, 0x016a01570169,
  0x015400f10153, 0x015301570154, 0x00f100f40153, 0x015701560169, 0x015301560157, 0x016901560168, 0x015301400156,
  0x015601400168, 0x015300f40140, 0x016801400167, 0x00f700f400f6, 0x00f400f70140, 0x00f800f700f6, 0x00f900f700f8,
  0x0140013f0167, 0x014000f7013f, 0x0167013f0166, 0x00fa00f700f9, 0x013f00f700fa, 0x00fb00fa00f9, 0x013f013c0166,
  0x013f00fa013c, 0x013c00fa00fb, 0x0166013c0165, 0x013c00fb013d, 0x00fe013d00fb, 0x013c013e0165, 0x013e013c013d,
  0x0165013e0164, 0x0164013e0163, 0x00fe0150013d, 0x013e014f0163, 0x013d014f013e, 0x0150014f013d, 0x0163014f0162,
  0x014f01500162, 0x00fe01000150, 0x015001510162, 0x010001510150, 0x016201510161, 0x015201510100, 0x015101520161,
  0x00be01520100, 0x016101520160, 0x00be00bf0152, 0x00bf01600152, 0x00b200b300b4, 0x00b500b300b2, 0x00b600b700b8,
  0x00b900b700b6, 0x00ba00bb00bc, 0x00bd00bb00ba, 0x010c010d010e, 0x010f010d010c, 0x0116010f010c, 0x01140116010c,
  0x011701160114, 0x010d012e010e, 0x010e012e0112, 0x01120110010e, 0x012f012e010d, 0x010e01100111, 0x010d0120012f,
  0x011001150111, 0x011501130111, 0x011101130114, 0x0113012d0114, 0x0114012d012c, 0x012c012b0114, 0x0114012b0117,
  0x012b012a0117, 0x012a01290117, 0x012901280117, 0x012801270117, 0x012701260117, 0x011701260125, 0x012501230117,
  0x011701230124, 0x0120010d011d, 0x011d011c0120, 0x011d010d011f, 0x011a011c011d, 0x010d0122011f, 0x011e011c011a,
  0x01220121011f, 0x0119011e011a, 0x011f01210118, 0x01180119011a, 0x011b01190118, 0x0130011b0118, 0x013101300118,
  0x011801210132, 0x013201310118, 0x013201330131, 0x013401330132, 0x013501340132, 0x013201360135, 0x013701360132,
  0x013201380137, 0x013901380132, 0x0132013a0139, 0x013b013a0132, 0x01c101c201c3, 0x01c2020301c3, 0x01c401c201c1,
  0x01c302030202, 0x01c501c401c1, 0x020302010202, 0x01c601c401c5, 0x020202010200, 0x01c701c401c6, 0x020101ff0200,
  0x01c801c701c6, 0x020001ff01fd, 0x01c901c701c8, 0x01ff01fe01fd, 0x01ca01c901c8, 0x01fe01fc01fd, 0x01cb01c901ca,
  0x01fd01fc01fb, 0x01cc01cb01ca, 0x01fc01fa01fb, 0x01cd01cb01cc, 0x01fb01fa01f9, 0x01ce01cd01cc, 0x01fa01f801f9,
  0x01cf01cd01ce, 0x01f901f801f7, 0x01d001cf01ce, 0x01f801f601f7, 0x01d101d001ce, 0x01f701f601f5, 0x01d201d001d1,
  0x01f601f401f5, 0x01d301d001d2, 0x01f501f401f3, 0x01d401d301d2, 0x01f401f201f3, 0x01d501d401d2, 0x01f301f201f1,
  0x01d601d401d5, 0x01f201f001f1, 0x01d701d401d6, 0x01f101f001ef, 0x01d801d701d6, 0x01f001ed01ef, 0x01d901d701d8,
  0x01ef01ed01ee, 0x01da01d901d8, 0x01ee01ed01ec, 0x01db01d901da, 0x01ed01eb01ec, 0x01dc01db01da, 0x01ec01eb01ea,
  0x01dd01db01dc, 0x01eb01e901ea, 0x01de01dd01dc, 0x01ea01e901e8, 0x01df01dd01de, 0x01e901e601e8, 0x01e001df01de,
  0x01e801e601e7, 0x01e101df01e0, 0x01e701e601e5, 0x01e201e101e0, 0x01e601e401e5, 0x01e301e201e0, 0x01e501e401e3,
  0x01e401e201e3, 0x020402050206, 0x020702050204, 0x020802050207, 0x020902050208, 0x020a020b020c, 0x020d020b020a,
  0x020e020f0210, 0x0211020f020e, 0x02120211020e, 0x020e02130212, 0x021402150216, 0x021702150214, 0x021502180216,
  0x021702140228, 0x021602180219, 0x021402260228, 0x0218021a0219, 0x022802260227, 0x021b0219021a, 0x022702260224,
  0x021c0219021b, 0x022602250224, 0x021d0219021c, 0x022502230224, 0x021e021d021c, 0x022402230222, 0x021f021d021e,
  0x022302210222, 0x0220021f021e, 0x022202210220, 0x0221021f0220, 0x0229022a022b, 0x022c022a0229, 0x022d022c0229,
  0x0229022e022d, 0x022f02300231, 0x02320230022f, 0x023302340235, 0x023602340233, 0x023702380239, 0x023a02380237,
  0x023b0238023a, 0x023c0238023b, 0x023d023e023f, 0x0240023e023d, 0x024102420243, 0x024402420241, 0x024502460247,
  0x024802450247, 0x02470246025a, 0x024902450248, 0x02460259025a, 0x024a02450249, 0x025a02590258, 0x024b024a0249,
  0x025902570258, 0x024c024a024b, 0x024d024c024b, 0x024e024c024d, 0x024f024e024d, 0x0250024e024f, 0x02510250024f,
  0x025202500251, 0x025302520251, 0x025402520253, 0x025502540253, 0x025602550253, 0x025702550256, 0x025802570256,
  0x0256025e0258, 0x0258025e025f, 0x025f025e025b, 0x025e025c025b, 0x025b025c025d, 0x0260025d025c, 0x0261025d0260,
  0x026202610260, 0x026302610262, 0x026402650266, 0x026702650264, 0x026802660265, 0x026402790267, 0x026902660268,
  0x026702790278, 0x026a02690268, 0x027902770278, 0x026b0269026a, 0x027802770276, 0x026c026b026a, 0x027702750276,
  0x026d026b026c, 0x027602750274, 0x026e026d026c, 0x027502730274, 0x026f026d026e, 0x027402730272, 0x0270026f026e,
  0x027302710272, 0x0271026f0270, 0x027202710270, 0x027a027b027c, 0x027d027a027c, 0x027c027b0290, 0x027e027a027d,
  0x027b028f0290, 0x027f027e027d, 0x0290028f028e, 0x0280027e027f, 0x028f028d028e, 0x02810280027f, 0x028e028d028b,
  0x028202800281, 0x028d028c028b, 0x028302820281, 0x028c028a028b, 0x028402820283, 0x028b028a0289, 0x028502840283,
  0x028a02880289, 0x028602840285, 0x028902880287, 0x028702860285, 0x028802860287]

/-- the table of /repo/src/vpx/mesh/kickers/kicker_t1_mesh.rs -/
def kickerT1Table : MeshTable := unpackTable kickerT1Vertices kickerT1Tris

set_option maxRecDepth 100000 in
/-- the vertices of `KICKER_WILLIAMS_VERTICES`, /repo/src/vpx/mesh/kickers/kicker_williams_mesh.rs:16-1260 -/
def kickerWilliamsVertices : List Nat := [
  0x3f59a74c3d352978bf811dd63f1154ca3f452bd4be94d6a13f7944673f133333,
  0x3f57811fbd3c1acebf85be983f1fbe77bf47ced93d1c0ebf3f7f62b73f169446,
  0x3f5793ab3d352a84bf862b8c3f1f1aa03f47ced93d8b0f283f7944673f16f694,
  0x3f5a04c0bd3c1acebf80ca2e3f0dfa44bf45182bbea1a36e3f7f62b73f131f8a,
  0x3f5f9b353d352978bf7bbf833eb6fd223f436e2fbf09c0ec3f7810623dafec57,
  0x3f5a04c0bd3c1acebf80ca2e3f0dfa44bf45182bbea1a36e3f71f2133d9c0ebf,
  0x3f59a74c3d352978bf811dd63f1154ca3f452bd4be94d6a13f7810623d9ad42c,
  0x3f603e42bd3c1acebf7b5b2d3ea2b6aebf44af4fbf0e353f3f71f2133db295ea,
  0x3f669ced3d352a84bf793bb03dcccccd3f402752bf2731903f7810623dcb923a,
  0x3f6a4229bd3c1acebf78d9d7bd25e354bf46bb99bf2106253f71f2133dd9e83e,
  0x3f6dd65a3d352a84bf799d34be475f703f42fec5bf1e353f3f7810623de809d5,
  0x3f73c4a0bd3c1acebf7c9abbbec3126fbf42fec5bf062b6b3f71f2133dfef9db,
  0x3f7682e83d352a84bf7f076cbef6a1623f46c227bed020c53f7810623e00d1b7,
  0x3f785e3ebd3c1acebf811740bf15a1cbbf402752be9dbf483f7e00d23e8c985f,
  0x3f73c4a0bd3c1acebf7c9abbbec3126fbf42fec5bf062b6b3f7f06f73e8c985f,
  0x3f7682e83d352a84bf7f076cbef6a1623f46c227bed020c53f7e978d3ea3afb8,
  0x3f7a73713d352a84bf8448e0bf236e2f3f43dd98bdaacd9f3f7c49ba3ea3afb8,
  0x3f7a83b2bd3c1acebf84a85dbf2624ddbf427525bd2e7d563f7c154d3e8c985f,
  0x3f798ab93d352a84bf87fa6ebf1fd8ae3f40be0e3e5532613f7a5e353ea3afb8,
  0x3f795de6bd3c1acebf8839debf1dd97fbf40be0e3e6bb98c3f7a3d713e8c985f,
  0x3f75f3413d352978bf8b1ddebef089a03f434d6a3ee36e2f3f7944673ea3afb8,
  0x3f756e8bbd3c1acebf8b6335bee6cf42bf436e2f3eece7043f7944673e8c985f,
  0x3f6e8e2e3d352a84bf8d8128be4467383f45182b3f1bcd363f7c28f63e87fcb9,
  0x3f756e8bbd3c1acebf8b6335bee6cf42bf436e2f3eece7043f7e3bcd3e61e4f7,
  0x3f75f3413d352978bf8b1ddebef089a03f434d6a3ee36e2f3f7e69ad3e87fcb9,
  0x3f6dd723bd3c1acebf8d9d2cbe28a71ebf452bd43f1dbf483f7bfb163e61e4f7,
  0x3f6455fc3d352a84bf8db0bc3e2cd9e83f47ced93f1a161e3f79ce073e87fcb9,
  0x3f638477bd3c1acebf8d909f3e4a233abf47ced93f17dbf53f79b3d03e61e4f7,
  0x3f5bbafe3d352a84bf8ad75a3ef7ced93f460aa63ed1758e3f7944673f1be76d,
  0x3f638477bd3c1acebf8d909f3e4a233abf47ced93f17dbf53f7f62b73f1ef9db,
  0x3f6455fc3d352a84bf8db0bc3e2cd9e83f47ced93f1a161e3f7944673f1f34d7,
  0x3f5b4257bd3c1acebf8a8cb53f007c85bf460aa63ec617c23f7f62b73f1b8bac,
  0xbf2ab6bfbd3c1acebf8f5d03be7367a1bf2f41f2bf3068dc3f70b7803f7631f9,
  0xbf222a3d3d352a84bf908c1ebdfaacda3f2cb924bf3a57a83f6a99313f71f213,
  0xbf1f1748bd3c1acebf90a687bd94af4fbf2f5c29bf39930c3f70b7803f7075f7,
  0xbf33519c3d352a84bf8d789abeb67a103f2d70a4bf24b5dd3f6a99313f7a5e35,
  0xbf3416bebd3c1acebf8d26afbec0f909bf2fec57bf1ef9db3f70b7803f7ad42c,
  0xbf3e5b75bd3c1acebf894a23bf047454bf2dbf48bf056d5d3f70b7803f7e2eb2,
  0xbf3d85be3d352a84bf899410befdd97f3f2fe5c9bf07fcb93f6a99313f7ed289,
  0xbf4455003d352a84bf85a89cbf198c7e3f2f559bbed3d07d3f7f62b73f7a161e,
  0xbf3d85be3d352a84bf899410befdd97f3f2fe5c9bf07fcb93f7f62b73f7e353f,
  0xbf3e5b75bd3c1acebf894a23bf047454bf2dbf48bf056d5d3f7944673f7d844d,
  0xbf471f9bbd3c1acebf836bb1bf221965bf2f41f2beb8d4fe3f7944673f77c84b,
  0xbf4a2e7f3d352978bf80274abf2d49523f2f9db2be88a71e3f7f62b73f747ae1,
  0xbf4b3e79bd3c1acebf7d1666bf2f34d7bf3147aebe69ad433f7944673f72d773,
  0xbf5057f33d352978bf69d81fbf3113403f339c0fbe2f837b3f7f41f23f684b5e,
  0xbf571e193d352978bf4ad278bf338ef33f3374bcbe0418933f7f3b643f589375,
  0xbf5424f6bd3c1acebf59bd0ebf3288cebf334d6abe1b22d13f7944673f60f909,
  0xbf59a198bd3c1acebf3bceb8bf344674bf339581bde041893f7951833f526e98,
  0xbf5cc3093d352978bf2553cebf34f7663f33afb8bdb295ea3f7eecc03f483127,
  0xbf5e862fbd3c1acebf160f91bf3645a2bf32fec5bd8587943f79a0273f3ded29,
  0xbf60ee4abd3c1acebec38152bf3b089abf2e147b3d7f97243f7944673f24c986,
  0xbf600d2c3d352978bf01e460bf3786c23f32339cbd1a6b513f7f4f0e3f344674,
  0xbf60929b3d352978bebea26ebf3b15b53f28fc503e3212d73f7f62b73f238ef3,
  0xbf222a3d3d352a84bf908c1ebdfaacda3f2cb924bf3a57a83f35b5743e2b50b1,
  0x3f299c063d352c9dbf1d48ed3f05bc023f33c3613ef7a7873f61d14e3f485f07,
  0x3f5793ab3d352a84bf862b8c3f1f1aa03f47ced93d8b0f283f4604193f65bc02,
  0x3f5bbafe3d352a84bf8ad75a3ef7ced93f460aa63ed1758e3f43b6463f681d7e,
  0x3f6455fc3d352a84bf8db0bc3e2cd9e83f47ced93f1a161e3f428f5c3f6ca57a,
  0x3f7e8cdf3d352a84bf90727e3e6f837b3f267a10bf39096c3f41de6a3f79c77a,
  0x3f6e8e2e3d352a84bf8d8128be4467383f45182b3f1bcd363f42de013f719653,
  0x3f75f3413d352978bf8b1ddebef089a03f434d6a3ee36e2f3f444d013f74f0d8,
  0x3f798ab93d352a84bf87fa6ebf1fd8ae3f40be0e3e5532613f4604193f767382,
  0x3f7a73713d352a84bf8448e0bf236e2f3f43dd98bdaacd9f3f47f62b3f766666,
  0x3f59a74c3d352978bf811dd63f1154ca3f452bd4be94d6a13f48adac3f660aa6,
  0x3f5f9b353d352978bf7bbf833eb6fd223f436e2fbf09c0ec3f4a85883f689a02,
  0x3f669ced3d352a84bf793bb03dcccccd3f402752bf2731903f4b6ae83f6bda51,
  0x3f758a013d352a84bf72ce893f06a1623f3594af3ef055323f5154ca3f6b2fec,
  0x3f6dd65a3d352a84bf799d34be475f703f42fec5bf1e353f3f4b78033f6f6fd2,
  0x3f7682e83d352a84bf7f076cbef6a1623f46c227bed020c53f4a43fe3f73dd98,
  0x3f83b6dd3d352978bf83533f3f20e5603f2b9f563ec9fbe73f48d4fe3f7cd35b,
  0xbf4a2e7f3d352978bf80274abf2d49523f2f9db2be88a71e3f3d07c83da9c77a,
  0xbf5057f33d352978bf69d81fbf3113403f339c0fbe2f837b3f4333333d84816f,
  0xbf4455003d352a84bf85a89cbf198c7e3f2f559bbed3d07d3f3a511a3dc5d639,
  0xbf3d85be3d352a84bf899410befdd97f3f2fe5c9bf07fcb93f3872b03de3bcd3,
  0xbf33519c3d352a84bf8d789abeb67a103f2d70a4bf24b5dd3f36c2273e0816f0,
  0x3f832e5a3d352a84bf8d9ddc3f128f5c3f2985f0bef78d503f4374bc3f7d6388,
  0x3f84e01a3d352a84bf8a47c33f3972473f29d495be4000003f454c983f7eb1c4,
  0x3f85036d3d352a84bf8689f43f3c710d3f2a0f913e04ea4b3f473eab3f7e703b,
  0x3daccff23d352a84bf1e75bcbdc710cb3f383e423f2ff9723f5d4fdf3efcd35b,
  0x3e80867b3d352a84bf15b1a7be3851ec3f3793de3f2c63f13f6147ae3f1559b4,
  0x3ebac8a33d352a84bf0c4c59be727bb33f3793de3f27ced93f64dd2f3f244d01,
  0x3f02b8633d352978bef9c497be22b6ae3f2af4f13f3a29c73f692a303f32eb1c,
  0x3f0cbc8c3d352978befeeac83ee9a0273f2d3c363f13eab33f68db8c3f389a02,
  0x3f09b0793d35232dbefb61993e8b9f563f2d5cfb3f2ef34d3f692a303f3758e2,
  0x3f05fa553d352652bef9902a3d9d49523f2d70a43f3b43963f69652c3f34ea4b,
  0xbd01700d3d352978bf20f91abcc49ba63f3752543f3295ea3f5bac713ede0ded,
  0xbdeafc483d352978bf20fb983cd5cfab3f383e423f319ce03f5b1c433ec8ce70,
  0xbe7ee5693d352978bf1da5a93de24dd33f392a303f2e7d563f5b22d13ea7bb30,
  0xbf571e193d352978bf4ad278bf338ef33f3374bcbe0418933f4b3d083d3923a3,
  0xbeb8b0af3d352978bf1737333e4240b83f3780343f2bc6a83f5c08313e894467,
  0xbf5cc3093d352978bf2553cebf34f7663f33afb8bdb295ea3f535a863cecbfb1,
  0xbee18a013d352978bf109dd03e74f0d83f3865953f26ae7d3f5d35a83e68db8c,
  0xbf600d2c3d352978bf01e460bf3786c23f32339cbd1a6b513f5dfa443c5b8bac,
  0xbf1101193d352978bf0276fb3ea3afb83f3951833f1c84b63f6000003e292a30,
  0xbf35f6233d352978bed7266c3ece7d563f3831273f10be0e3f64ea4b3db6ae7d,
  0xbf60929b3d352978bebea26ebf3b15b53f28fc503e3212d73f66bb993ba3d70a,
  0xbf4e05573d352a84beb0ab0d3ec4d0143f2dbf483f202de03f691d153d1f559b,
  0xbf5c9f1f3d352978beb33f85bed73eab3f2c432d3f1bcd363f686c223c3fb15b,
  0xbf56a24d3d352978beadd1e5be1cac083f2a99313f3ad42c3f692a303caf4f0e,
  0xbf512a953d35286bbeade7c93e1f6fd23f2ae7d53f3a64c33f695e9e3d00346e,
  0xbf5eaf683d352978beb74a56bf1809d53f2cac083ee09d493f67ced93bff9724,
  0x3f811066bd3c1acebf8f7b073eca0903bf2b4a23bf2134053f70b7803dffcb92,
  0x3f7ba52bbd3c1acebf90ae8e3df765febf2b6ae8bf3b98c83f70b7803e0ccccd,
  0x3f7e8cdf3d352a84bf90727e3e6f837b3f267a10bf39096c3f6a99313e074539,
  0x3f832e5a3d352a84bf8d9ddc3f128f5c3f2985f0bef78d503f6a99313dee978d,
  0x3f835f4ebd3c1acebf8d50553f178034bf2c0ebfbee3d70a3f70b7803dec8b44,
  0x3f84ca71bd3c1acebf8a95743f37dbf5bf2a3055be5288ce3f71f2133e126e98,
  0x3f835f4ebd3c1acebf8d50553f178034bf2c0ebfbee3d70a3f71f2133e0c985f,
  0x3f832e5a3d352a84bf8d9ddc3f128f5c3f2985f0bef78d503f7810623e0c985f,
  0x3f84e01a3d352a84bf8a47c33f3972473f29d495be4000003f7810623e135a86,
  0x3f851080bd3c1acebf86da3c3f3d9168bf29f55a3dd59b3d3f71f2133e1ed289,
  0x3f85036d3d352a84bf8689f43f3c710d3f2a0f913e04ea4b3f7810623e1ff2e5,
  0x3f83d00fbd3c1acebf8375753f2318fcbf2afb7f3ec4f7663f71f2133e2cf41f,
  0x3f83b6dd3d352978bf83533f3f20e5603f2b9f563ec9fbe73f7810623e2d9168,
  0x3f758a013d352a84bf72ce893f06a1623f3594af3ef055323f7604193e68240b,
  0x3f28e0dbbd3c200cbf1c813d3f0559b4bf33c9ef3ef86c223f7212d73ee01a37,
  0x3f299c063d352c9dbf1d48ed3f05bc023f33c3613ef7a7873f7810623ee0346e,
  0x3f0cbc8c3d352978befeeac83ee9a0273f2d3c363f13eab33f7809d53f0404ea,
  0x3f0ae83abd3c18b5befc4dcb3ec1cac1bf282a993f26f0073f71f8a13f04ea4b,
  0x3f28e0dbbd3c200cbf1c813d3f0559b4bf33c9ef3ef86c223f2cc63f3e5e353f,
  0xbf1f1748bd3c1acebf90a687bd94af4fbf2f5c29bf39930c3f00a3d73f53a92a,
  0x3f57811fbd3c1acebf85be983f1fbe77bf47ced93d1c0ebf3f113a933dd2f1aa,
  0x3f5a04c0bd3c1acebf80ca2e3f0dfa44bf45182bbea1a36e3f13dd983dce703b,
  0x3f603e42bd3c1acebf7b5b2d3ea2b6aebf44af4fbf0e353f3f15a1cb3db8bac7,
  0x3f6a4229bd3c1acebf78d9d7bd25e354bf46bb99bf2106253f16809d3d92a305,
  0x3f73c4a0bd3c1acebf7c9abbbec3126fbf42fec5bf062b6b3f15dcc63d5844d0,
  0x3f83d00fbd3c1acebf8375753f2318fcbf2afb7f3ec4f7663f13c3613c449ba6,
  0x3f785e3ebd3c1acebf811740bf15a1cbbf402752be9dbf483f1495183d2e147b,
  0x3f7a83b2bd3c1acebf84a85dbf2624ddbf427525bd2e7d563f12ca583d18c7e3,
  0x3f851080bd3c1acebf86da3c3f3d9168bf29f55a3dd59b3d3f1212d73bbe0ded,
  0x3f5b4257bd3c1acebf8a8cb53f007c85bf460aa63ec617c23f0ed9173dc1205c,
  0x3f638477bd3c1acebf8d909f3e4a233abf47ced93f17dbf53f0d97f63d9e1b09,
  0x3f7ba52bbd3c1acebf90ae8e3df765febf2b6ae8bf3b98c83f0c8b443cf0d845,
  0x3f6dd723bd3c1acebf8d9d2cbe28a71ebf452bd43f1dbf483f0dcc643d6c56d6,
  0x3f756e8bbd3c1acebf8b6335bee6cf42bf436e2f3eece7043f0f27bb3d34a234,
  0x3f795de6bd3c1acebf8839debf1dd97fbf40be0e3e6bb98c3f10e5603d19999a,
  0x3f835f4ebd3c1acebf8d50553f178034bf2c0ebfbee3d70a3f0e9e1b3c185f07,
  0x3f84ca71bd3c1acebf8a95743f37dbf5bf2a3055be5288ce3f1020c53badab9f,
  0xbf3416bebd3c1acebf8d26afbec0f909bf2fec57bf1ef9db3f01d7dc3f5e703b,
  0xbf2ab6bfbd3c1acebf8f5d03be7367a1bf2f41f2bf3068dc3f00f9093f598c7e,
  0xbf3e5b75bd3c1acebf894a23bf047454bf2dbf48bf056d5d3f03a29c3f63dd98,
  0xbf471f9bbd3c1acebf836bb1bf221965bf2f41f2beb8d4fe3f066cf43f68e8a7,
  0xbf4b3e79bd3c1acebf7d1666bf2f34d7bf3147aebe69ad433f08db8c3f6b851f,
  0xbe2aaa7ebd3c1acebf2044393d73b646bf38c1553f3089a03f260aa63f218fc5,
  0xbb64217dbd3c1acebf20c3a0bd257a78bf386c223f3141203f272b023f0bcd36,
  0xbf5424f6bd3c1acebf59bd0ebf3288cebf334d6abe1b22d13f11e4f73f71d14e,
  0xbeab0681bd3c1acebf1932c63e2ca57abf38db8c3f2bc01a3f26a7f03f3631f9,
  0xbefa7efabd3c1acebf0bc87e3e8a71debf38d4fe3f2305533f291d153f4b7803,
  0xbf2451fcbd3c1acebeeee7e63eb97247bf3923a33f16872b3f2d566d3f5fd8ae,
  0xbf41335dbd3c1acebec5ddd33edb22d1bf36c2273f0de69b3f3161e53f6e075f,
  0xbf58f180bd3c1acebeaf0414be8d7732bf2a09033f31d14e3f33f1413f7b7e91,
  0xbf4f6189bd3c1acebeaefa613ea00d1bbf287fcc3f2f4f0e3f343fe63f76d5d0,
  0xbf53d556bd3c1acebead63453be56042bf2cac083f3d013b3f345a1d3f791d15,
  0xbf59a198bd3c1acebf3bceb8bf344674bf339581bde041893f1951833f7624dd,
  0xbf5e862fbd3c1acebf160f91bf3645a2bf32fec5bd8587943f2425af3f7ae148,
  0xbf5e6bf8bd3c1acebeb68c05bf0ced91bf29eecc3f019ce03f32fec53f7dbf48,
  0xbf602f62bd3c1acebebc9de0bf2ff2e5bf2ce0763e8902de3f3212d73f7ea4a9,
  0xbf60ee4abd3c1acebec38152bf3b089abf2e147b3d7f97243f3113403f7ec56d,
  0x3e0c7bccbd3c1acebf1c383bbe000000bf3809d53f2f0d843f2916873ef74bc7,
  0x3e8222d5bd3c1acebf158a01be3e5c92bf3810623f2b71763f2c01a33ed7f62b,
  0x3ed50fa6bd3c1acebf074c4dbe8339c1bf3752543f2631f93f313a933eaded29,
  0x3f0ae83abd3c18b5befc4dcb3ec1cac1bf282a993f26f0073f3412063e90a3d7,
  0x3f0229b7bd3c1acebefa1102be34a234bf2bb2ff3f3872b03f342c3d3e99db23,
  0x3f05ed9ebd3c19c1bef993713d98c7e3bf2c63f13f3c49ba3f3460aa3e958106,
  0x3f811066bd3c1acebf8f7b073eca0903bf2b4a23bf2134053f0d5cfb3c8f5c29,
  0xbf56a24d3d352978beadd1e5be1cac083f2a99313f3ad42c3f7b020c3e2ab368,
  0xbf5c9f1f3d352978beb33f85bed73eab3f2c432d3f1bcd363f7c8b443e2ae7d5,
  0xbf58f180bd3c1acebeaf0414be8d7732bf2a09033f31d14e3f7b98c83e589375,
  0xbf5e6bf8bd3c1acebeb68c05bf0ced91bf29eecc3f019ce03f7d1b713e58793e,
  0xbf5eaf683d352978beb74a56bf1809d53f2cac083ee09d493f7d49523e2a9931,
  0xbf5e6bf8bd3c1acebeb68c05bf0ced91bf29eecc3f019ce03f794af53f21ff2e,
  0xbf5eaf683d352978beb74a56bf1809d53f2cac083ee09d493f7f62b73f21ff2e,
  0xbf602f62bd3c1acebebc9de0bf2ff2e5bf2ce0763e8902de3f7944673f22f838,
  0xbf53d556bd3c1acebead63453be56042bf2cac083f3d013b3f7a43fe3e589375,
  0xbf512a953d35286bbeade7c93e1f6fd23f2ae7d53f3a64c33f79c0ec3e2ab368,
  0xbf4e05573d352a84beb0ab0d3ec4d0143f2dbf483f202de03f7f62b73f053f7d,
  0xbf512a953d35286bbeade7c93e1f6fd23f2ae7d53f3a64c33f7f5c293f061134,
  0xbf4f6189bd3c1acebeaefa613ea00d1bbf287fcc3f2f4f0e3f7944673f05b574,
  0xbf4f6189bd3c1acebeaefa613ea00d1bbf287fcc3f2f4f0e3f797f633e589375,
  0xbf41335dbd3c1acebec5ddd33edb22d1bf36c2273f0de69b3f7985f03ef94af5,
  0xbf35f6233d352978bed7266c3ece7d563f3831273f10be0e3f7f34d73eee8a72,
  0xbf1101193d352978bf0276fb3ea3afb83f3951833f1c84b63f7f34d73ec8e8a7,
  0xbf2451fcbd3c1acebeeee7e63eb97247bf3923a33f16872b3f7978d53edbc01a,
  0xbee18a013d352978bf109dd03e74f0d83f3865953f26ae7d3f7f14123eadb8bb,
  0xbefa7efabd3c1acebf0bc87e3e8a71debf38d4fe3f2305533f7978d53eb74bc7,
  0xbeab0681bd3c1acebf1932c63e2ca57abf38db8c3f2bc01a3f7803473f128f5c,
  0xbeb8b0af3d352978bf1737333e4240b83f3780343f2bc6a83f7247453f0eb1c4,
  0xbee18a013d352978bf109dd03e74f0d83f3865953f26ae7d3f7240b83f0872b0,
  0xbe7ee5693d352978bf1da5a93de24dd33f392a303f2e7d563f7226813f1b3d08,
  0xbdeafc483d352978bf20fb983cd5cfab3f383e423f319ce03f7247453f2a0f91,
  0xbe2aaa7ebd3c1acebf2044393d73b646bf38c1553f3089a03f77d5673f2487fd,
  0xbb64217dbd3c1acebf20c3a0bd257a78bf386c223f3141203f7803473f38793e,
  0xbd01700d3d352978bf20f91abcc49ba63f3752543f3295ea3f7247453f33f141,
  0x3daccff23d352a84bf1e75bcbdc710cb3f383e423f2ff9723f7226813f42c3ca,
  0x3e80867b3d352a84bf15b1a7be3851ec3f3793de3f2c63f13f72680a3f59a6b5,
  0x3e0c7bccbd3c1acebf1c383bbe000000bf3809d53f2f0d843f77bb303f48e219,
  0x3f02b8633d352978bef9c497be22b6ae3f2af4f13f3a29c73f7205bc3f7b7803,
  0x3ebac8a33d352a84bf0c4c59be727bb33f3793de3f27ced93f72b6ae3f696bba,
  0x3ed50fa6bd3c1acebf074c4dbe8339c1bf3752543f2631f93f77c84b3f6fd220,
  0x3f0229b7bd3c1acebefa1102be34a234bf2bb2ff3f3872b03f7810623f7b98c8,
  0x3e8222d5bd3c1acebf158a01be3e5c92bf3810623f2b71763f7810623f58e8a7,
  0xbefa7efabd3c1acebf0bc87e3e8a71debf38d4fe3f2305533f7810623f085f07,
  0x3f09b0793d35232dbefb61993e8b9f563f2d5cfb3f2ef34d3f77e2823f059b3d,
  0x3f0ae83abd3c18b5befc4dcb3ec1cac1bf282a993f26f0073f7809d53f7ed917,
  0x3f09b0793d35232dbefb61993e8b9f563f2d5cfb3f2ef34d3f7219653f7ebee0,
  0x3f05ed9ebd3c19c1bef993713d98c7e3bf2c63f13f3c49ba3f7809d53f7dab9f,
  0x3f05fa553d352652bef9902a3d9d49523f2d70a43f3b43963f71f2133f7d6388,
  0xbf3813a9bf2de7b8bf390e99bf05d639bf002752bf30a3d73e9182aa3e87381d,
  0xbf4c4f1abe251223bf390e783dda511a3f28c7e3bf3e8a723ea710cb3ea1f213,
  0x3d6cd185be2731d3bf390e783df247453f3ab9f5bf2c7e283e8acd9f3edd21ff,
  0xbf187fdcbf4969f5bf390e78bedcac08bf13f141bf3168733e8985f03e88f5c3,
  0xbf649eaabedce571bf390e78bf24f766bea617c2bf3141203ea041893e8a7efa,
  0xbf724042be9a8566bf390e88bf2ee632be690ff9bf319ce03ea6b50b3e8ed917,
  0xbf58fb44be1428d4bf390e783ea0b7803f16809dbf3edfa43ea944673e9f8a09,
  0xbf79d239be415161bf390e78bf341206be1119cebf324dd33eabd3c33e93d07d,
  0xbf61eb96bdf12019bf390e783ef53f7d3ef460aabf3c985f3eab5dcc3e9eb852,
  0xbf678056bdb6e371bf390e783f1638863ea8db8cbf3d4fdf3ead1b713e9ef9db,
  0xbf7e2930bd960286bf390e78bf381d7ebd5c5d64bf315b573eb096bc3e99e83e,
  0xbf6c89c2bd1c93eabf390e783f2581063dcf41f2bf4196533eaf90973ea0f909,
  0xbf7e53333db8fffcbf390e78bf38b4393d800000bf3089a03eb6872b3ea425af,
  0xbf6ba41e3cc5564bbf390e783f23e426be2594afbf4041893eb1c4333ea4f766,
  0xbf65cf353d94f3febf390e783f0923a3bec6b50bbf3ff9723eb2ca583ea9930c,
  0xbf59fefc3deccd53bf390e783ea9930cbf1096bcbf4182aa3eb2bd3c3eaf5c29,
  0xbf75e5193e8c6e2bbf390e78bf329c783e4432cabf30b7803ebc28f63eb1eb85,
  0xbf4c32fd3e08ad25bf390e783dd91687bf28ce70bf3e8a723eb1b7173eb43958,
  0xbf6735a03edadb62bf390e78bf2765fe3e9a0f91bf31b08a3ebfe5c93ebf62b7,
  0xbf58e4433f07a54cbf390e78bf1bedfa3ec2339cbf3254613ec1d7dc3ec9a027,
  0xbf47bfd73f202ba6bf390e67bf0fdf3b3ee6809dbf31a36e3ec31f8a3ed44674,
  0xbf33a6373f3652dfbf390eaabf01205c3f02b021bf3247453ec3bcd33edf212d,
  0xbf1d46a23f4a25a7bf390e67bee3126f3f114e3cbf3196533ec3a29c3eea0903,
  0xbefed7a53f5e27e1bf390e67beb645a23f2075f7bf316f003ec2a9933ef6fd22,
  0xbeb327463f70025cbf390e88be804ea53f2dab9fbf30cb293ec04ea53f02ca58,
  0x3f4990193e07fd82bf390e78be0adababf23a92abf41c4333e7b4a233f11205c,
  0x3eacc5113f700219bf390e883e81f2133f2d3c36bf30ebee3ea9c77a3f1a9fbe,
  0x3ef871e73f5e27e1bf390e673eb6872b3f202de0bf31a36e3ea275253f1d9e84,
  0x3f1a12943f4a2813bf390e673ee147ae3f11cac1bf31bda53e9bc01a3f1f3b64,
  0x3f3078313f3657a8bf390e783f012d773f02b021bf3240b83e9611343f1fe5c9,
  0x3f448f653f20280bbf390e883f0fe5c93ee5e354bf31d14e3e9055323f1fdf3b,
  0x3f55b1643f07a7a8bf390e783f1bedfa3ec2339cbf324dd33e8aa64c3f1f41f2,
  0x3f64065b3edacf53bf390e883f26cf423e9b7176bf31f2133e85119d3f1df3b6,
  0x3f6ef1243ea3302fbf390e673f2e7d563e65119dbf325aee3e7f62b73f1c154d,
  0x3f7806d13e3b78cdbf390e783f363f143e00346ebf30e5603e734d6a3f18fc50,
  0x3f57f23d3ddc5ef6bf390e78bec22681bf0a7efabf4027523e75dcc63f125461,
  0x3f6186663d8d5f9abf390e78bf0d21ffbebc84b6bf3faace3e70a3d73f12680a,
  0x3f7bd0073ca5870ebf390e783f38adac3c0b4396bf3147ae3e6666663f147ae1,
  0x3f66fb2b3ca13c25bf390e78bf25119dbe10ff97bf404ea53e6b9f563f119ce0,
  0x3f675d03bd31422dbf390e78bf24af4f3dfa0f91bf417c1c3e671de73f0fb15b,
  0x3f790300be1262ccbf390e783f36f694bde1b08abf30d1b73e5b3d083f0ef34d,
  0x3f622489bdbc7043bf390e78bf1446743eb02de0bf3d2f1b3e64a8c13f0d844d,
  0x3f5c6812bdf5bbbfbf390e78bef2fec53ef844d0bf3c0ebf3e6425af3f0be0df,
  0x3f551efbbe11322fbf390e78beaab3683f161134bf3d07c83e6474543f0a36e3,
  0x3f6f0e91be9a7f80bf390e783f2f27bbbe65e354bf31a36e3e521ff33f08b439,
  0x3f4959d5be240315bf390e78be068db93f2645a2bf3fb7e93e6631f93f0816f0,
  0x3f616bcabedce571bf390e783f25460bbea2d0e5bf31bda53e4c2f833f02ca58,
  0x3f198202be27e1b9bf390e78be1de69b3f3a9931bf2ac7113e71de6a3f015b57,
  0x3ef79a07be8fdb0abf390e78bf3a29c73e182a99bf2b8bac3e70f27c3ef38ef3,
  0x3f0d4014be3c9364bf390e78bec09d493f219653bf2da5123e739c0f3efe425b,
  0x3f0081c3be70a633bf390e78bf2374bc3eba0f91bf2db22d3e7333333ef79a6b,
  0x3f06176ebe538002bf390e88bf05d6393f030553bf2e83e43e73d07d3efae148,
  0x3ef5aad6bee11e64bf390e78bf2412063e13404fbf410cb33e65fd8b3ee91d15,
  0x3f4f395cbf0d665abf390e783f17f62bbed21ff3bf313a933e47fcb93ef923a3,
  0x3ee8c36ebefde050bf390e78bf0a85883ec2339cbf4027523e636e2f3ee3fe5d,
  0x3ed50614bf088440bf390e78bebc91d13f0d1b71bf3faace3e6339c13edf06f7,
  0x3ebbbdbebf0dfa22bf390e78be1cc63f3f255326bf3f7cee3e64f7663eda43fe,
  0x3ea52a84bf0ebd2bbf390e783d178d503f2cc63fbf3cac083e6786c23ed6fd22,
  0x3ef8af1dbf59ea89bf390e783eb5cfabbf219653bf3083123e4793de3ed0068e,
  0x3eacad15bf6b7d0fbf390e783e805bc0bf2d7732bf30ff973e4c2f833ec161e5,
  0x3e9328b7bf0cfc2fbf390e783e5f3b643f241f21bf3c5d643e6a4a8c3ed4fdf4,
  0x3e381a58bf76e254bf390e783e0b923abf367a10bf3020c53e535a863eb3c361,
  0x3e7c9b84bf07dc8cbf390e783ec858793f09c77abf3f1aa03e6e7d563ed381d8,
  0x3c8cb6c8bf7b28b7bf390e783ca30553bf38adacbf313a933e5cac083ea75f70,
  0x3e564c30befbfa8fbf390e783f0d42c43ebaacdabf40068e3e73b6463ed34d6a,
  0xbdfb9f99bf797796bf390e78bdab367abf3793debf31205c3e6666663e9e0ded,
  0x3e3f5276bee0b9febf390e783f2559b43e0d844dbf40346e3e78ef353ed5182b,
  0xbe738c11bf741451bf390e78be2809d5bf32d0e5bf3254613e6f69443e974bc7,
  0xbeb31077bf6b7d52bf390e88be8147aebf2c985fbf31b08a3e793dd93e91b717,
  0xbef4794fbf5cad58bf390e78beae703bbf224745bf31bda53e82eb1c3e8c710d,
  0x3e3b72c5be8f7597bf390e783f3a71de3e27381dbf2a64c33e8282413ede69ad,
  0x3de4cd75be397892bf390e783ec17c1c3f24f0d8bf2a36e33e8865953edf9724,
  0x3e21a8acbe6567dcbf390e783f1b295f3edced91bf2b0f283e8553263ee04189,
  0x3e4f4be83f79c811bf390e783e1a511a3f341f21bf31cac13eafaace3f17381d,
  0xbd9c4eb53f7f2086bf390e78bd4710cb3f392a30bf3055323eb97f633f0e1b09,
  0x3db276fb3f7e77b4bf390e783d7f2e493f37dbf5bf316f003eb41f213f13bcd3,
  0xbe5c17653f79c865bf390e78be1b71763f341893bf31bda53ebd63883f08b439,
  0xbf526f3fbf0d63edbf390e99bf17d567bed295eabf312d773e997f633e87e282,
  0x3f19fa98bf45b856bf390e343ee16f00bf119653bf31de6a3e4587943edced91,
  0x3f34ddc6bf2debeabf390e883f053f7dbf00624ebf30e5603e45a1cb3eea0903,
  0x3f0081c3be70a633bf390e78bf2374bc3eba0f91bf2db22d3ec951833f263f14,
  0x3ef79a07be8fdb0abf390e78bf3a29c73e182a99bf2b8bac3ec95e9e3f245a1d,
  0x3ef78034be8f73c1bf1312b2bf3a71de3e1f3b643f2adaba3ed0a3d73f247454,
  0x3f00ed81be6ddb98bf1312b2bf218fc53ec0aa653f2da5123ed096bc3f267a10,
  0x3f06176ebe538002bf390e88bf05d6393f030553bf2e83e43ec944673f27e282,
  0x3f06aae3be5132f8bf1312b2bf02fec53f05e3543f2e83e43ed096bc3f2816f0,
  0x3f0d4014be3c9364bf390e78bec09d493f219653bf2da5123ec944673f298c7e,
  0x3f0df2bbbe3ae3e7bf1312b2beb9f55a3f237b4a3f2dab9f3ed089a03f29c77a,
  0x3f198202be27e1b9bf390e78be1de69b3f3a9931bf2ac7113ec944673f2bd3c3,
  0x3f19b4eebe281627bf1312b2be16d5d03f3a511a3f2b78033ed089a03f2bedfa,
  0x3f498e11be243676bf1312b2be0bac713f25182b3f4083123ed0b0f23f32f1aa,
  0x3f4959d5be240315bf390e78be068db93f2645a2bf3fb7e93ec95e9e3f32d773,
  0x3f551efbbe11322fbf390e78beaab3683f161134bf3d07c83ec95e9e3f350481,
  0x3f55d1c4be0f822cbf1312b2beb0be0e3f1439583f3d14e43ed0b0f23f3538ef,
  0x3f5c6812bdf5bbbfbf390e78bef2fec53ef844d0bf3c0ebf3ec95e9e3f36ae7d,
  0x3f5cfb87bdf11f0cbf1312a1bef844d03ef2fec53f3c0ebf3ed0a3d73f36e2eb,
  0x3f622489bdbc7043bf390e78bf1446743eb02de0bf3d2f1b3ec95e9e3f3851ec,
  0x3f62908abdb6da01bf1312b2bf1638863ea8db8c3f3d4fdf3ed0a3d73f388659,
  0x3f675d03bd31422dbf390e78bf24af4f3dfa0f91bf417c1c3ec944673f3a4a8c,
  0x3f6799b3bd1c92debf1312b2bf2581063dcf76603f4196533ed089a03f3a7efa,
  0x3f66fb2b3ca13c25bf390e78bf25119dbe10ff97bf404ea53ef212d73dacd9e8,
  0x3f675d03bd31422dbf390e78bf24af4f3dfa0f91bf417c1c3ef21ff33dbac711,
  0x3f6799b3bd1c92debf1312b2bf2581063dcf76603f4196533eeacd9f3db9f55a,
  0x3f66b4423cc534bdbf1312b2bf23e426be2594af3f4041893eeac0833dab367a,
  0x3f6186663d8d5f9abf390e78bf0d21ffbebc84b6bf3faace3ef205bc3d99652c,
  0x3f60de1a3d94fb55bf1312c2bf0a3055bec5119d3f3faace3eeac0833d97c1be,
  0x3f57f23d3ddc5ef6bf390e78bec22681bf0a7efabf4027523ef205bc3d85bc02,
  0x3f56fd973de1a501bf1312b2beba9fbebf0d42c43f40068e3eeac0833d841893,
  0x3f4990193e07fd82bf390e78be0adababf23a92abf41c4333ef21ff33d656042,
  0x3f495cc83e07c99bbf1312b2be051eb8bf24f0d83f40f27c3eeacd9f3d648e8a,
  0x3f4990193e07fd82bf390e78be0adababf23a92abf41c4333efb2fec3eb5c28f,
  0xbf4c50593e08d9f9bf1312b23dcf7660bf291d153f3e703b3ef38ef33e10ff97,
  0xbf4c32fd3e08ad25bf390e783dd91687bf28ce70bf3e8a723efae1483e11d14e,
  0x3f495cc83e07c99bbf1312b2be051eb8bf24f0d83f40f27c3ef3eab33eb566cf,
  0xbf59fefc3deccd53bf390e783ea9930cbf1096bcbf4182aa3efae1483e0816f0,
  0xbf56b91b3df7f844bf1312b23e8d1b71bf1e2eb23f3c7e283ef39c0f3e09d495,
  0xbf5e84163dd15c64bf1312b23edcac08bf05b5743f3c5d643ef3a92a3e0346dc,
  0xbf65cf353d94f3febf390e783f0923a3bec6b50bbf3ff9723efafb7f3df9096c,
  0xbf66771d3d8d59d5bf1312b23f0e7d56beba9fbe3f3f1aa03ef3b6463df5c28f,
  0xbf6ba41e3cc5564bbf390e783f23e426be2594afbf4041893efb15b53de6cf42,
  0xbf6beb293ca14cecbf1312b23f25119dbe10ff973f404ea53ef3d07d3de3bcd3,
  0xbf6c89c2bd1c93eabf390e783f2581063dcf41f2bf4196533efb2fec3ddbc01a,
  0xbf6c4d01bd314a90bf1312b23f24af4f3dfa43fe3f417c1c3ef3eab33dda1cac,
  0xbf678056bdb6e371bf390e783f1638863ea8db8cbf3d4fdf3ed611343d98fc50,
  0xbf6c89c2bd1c93eabf390e783f2581063dcf41f2bf4196533ed611343dab9f56,
  0xbf6c4d01bd314a90bf1312b23f24af4f3dfa43fe3f417c1c3ececbfb3da9fbe7,
  0xbf671434bdbc74fbbf1312b23f1446743eb03afb3f3d2f1b3ecebee03d97f62b,
  0xbf61eb96bdf12019bf390e783ef53f7d3ef460aabf3c985f3ed611343d8bac71,
  0xbf615800bdf5be5ebf1312b23eef5c293ef9db233f3cb2963ecebee03d8a71de,
  0xbf58fb44be1428d4bf390e783ea0b7803f16809dbf3edfa43ed611343d7765fe,
  0xbf57f4edbe164f55bf1312b23e9916873f1893753f3ec56d3ececbfb3d741f21,
  0xbf4c4f1abe251223bf390e783dda511a3f28c7e3bf3e8a723ed61e4f3d570a3d,
  0xbf4c3148be24e5d6bf1312b23dcf0d843f29c77a3f3dd97f3ececbfb3d56a162,
  0xbf4c4f1abe251223bf390e783dda511a3f28c7e3bf3e8a723ef7f62b3f60b780,
  0x3d6ea423be2704bcbf1312b23de7a0f93f3afb7f3f2c710d3eff3b643f7f5c29,
  0x3d6cd185be2731d3bf390e783df247453f3ab9f5bf2c7e283ef7f62b3f7f2e49,
  0xbf4c3148be24e5d6bf1312b23dcf0d843f29c77a3f3dd97f3eff3b643f60e560,
  0x3de4cd75be397892bf390e783ec17c1c3f24f0d8bf2a36e33ed1b7173f278034,
  0x3d6cd185be2731d3bf390e783df247453f3ab9f5bf2c7e283ed1c4333f25460b,
  0x3d6ea423be2704bcbf1312b23de7a0f93f3afb7f3f2c710d3ed9096c3f256042,
  0x3dca9d62be33e35cbf1312b23e98e2193f2b645a3f2e21963ed8fc503f26f694,
  0x3e0479d5be472fbabf1312b23eeeb1c43f10a3d73f2e48e93ed8fc503f288ce7,
  0x3e21a8acbe6567dcbf390e783f1b295f3edced91bf2b0f283ed1a9fc3f2a64c3,
  0x3e244c38be693a71bf1312b23f1f69443ece703b3f2bac713ed8ef353f2aacda,
  0x3e3b72c5be8f7597bf390e783f3a71de3e27381dbf2a64c33ed1a9fc3f2d14e4,
  0x3e3b3f21be8fdcbebf1312b23f3a36e33e1f3b643f2b1c433ed8ef353f2d2f1b,
  0x3e3f1e8ebee1209fbf1312b23f2412063e13404f3f410cb33ed9096c3f32e48f,
  0x3e3f5276bee0b9febf390e783f2559b43e0d844dbf40346e3ed1c4333f32ca58,
  0x3e564c30befbfa8fbf390e783f0d42c43ebaacdabf40068e3ed1c4333f354c98,
  0x3e58ed1cbefde204bf1312b23f0a7efa3ec2339c3f4027523ed9096c3f3594af,
  0x3e7c9b84bf07dc8cbf390e783ec858793f09c77abf3f1aa03ed1b7173f37c84b,
  0x3e80359cbf0884e8bf1312b23eba02753f0d8adb3f3ff9723ed9096c3f381062,
  0x3e9328b7bf0cfc2fbf390e783e5f3b643f241f21bf3c5d643ed1b7173f39c0ec,
  0x3e9e1523bf0e9846bf1312b23dd810623f25119d3f41d14e3ed8ef353f3a786c,
  0x3ea52a84bf0ebd2bbf390e783d178d503f2cc63fbf3cac083ed1a9fc3f3adaba,
  0x3ebbbdbebf0dfa22bf390e78be1cc63f3f255326bf3f7cee3eff7cee3f38f5c3,
  0x3ea52a84bf0ebd2bbf390e783d178d503f2cc63fbf3cac083eff7cee3f3aacda,
  0x3e9e1523bf0e9846bf1312b23dd810623f25119d3f41d14e3ef837b53f3a8c15,
  0x3ebe01debf0db2a2bf1312b2be25aee63f23e4263f4041893ef82a993f38c7e3,
  0x3ed50614bf088440bf390e78bebc91d13f0d1b71bf3faace3eff6fd23f369446,
  0x3ed6ee31bf07db90bf1312b2bec51eb83f0a29c73f3faace3ef82a993f36594b,
  0x3ee8c36ebefde050bf390e78bf0a85883ec2339cbf4027523eff6fd23f341893,
  0x3eea1405befbf9a5bf1312b2bf0d42c43ebaacda3f40068e3ef82a993f33e426,
  0x3ef5aad6bee11e64bf390e78bf2412063e13404fbf410cb33eff7cee3f31a9fc,
  0x3ef59104bee0b6fabf1312b2bf2559b43e0d844d3f40346e3ef837b53f319ce0,
  0x3ef5aad6bee11e64bf390e78bf2412063e13404fbf410cb33ebe1b093e852bd4,
  0x3ef78034be8f73c1bf1312b2bf3a71de3e1f3b643f2adaba3ec2f8383e6e147b,
  0x3ef79a07be8fdb0abf390e78bf3a29c73e182a99bf2b8bac3ec305533e84dd2f,
  0x3ef59104bee0b6fabf1312b2bf2559b43e0d844d3f40346e3ebe1b093e6e978d,
  0xbd9c4eb53f7f2086bf390e78bd4710cb3f392a30bf3055323eef90973f79a027,
  0x3db2a4983f7ea162bf1312b23d8b0f283f38bac73f30624e3ef6f0073f7ded29,
  0x3db276fb3f7e77b4bf390e783d7f2e493f37dbf5bf316f003eefb7e93f7ebee0,
  0xbd9c48f13f7ef61fbf1312b2bd456d5d3f3858793f3134053ef6d5d03f79a027,
  0xbe5c36973f79e54bbf1312b2be1a85883f34bc6a3f31205c3ef6ae7d3f7404ea,
  0xbe5c17653f79c865bf390e78be1b71763f341893bf31bda53eef69443f740b78,
  0xbeb327463f70025cbf390e88be804ea53f2dab9fbf30cb293eef4f0e3f6dfa44,
  0xbea7a2f03f71c411bf13127fbe6ab3683f2e0ded3f3254613ef6a1623f6f06f7,
  0xbedf1e083f667f4ebf1312b2bea1f2133f25c28f3f3182aa3ef694463f69c77a,
  0xbefed7a53f5e27e1bf390e67beb645a23f2075f7bf316f003eef41f23f669446,
  0xbf13badc3f516d4cbf1312c2bed581063f173eab3f30d1b73ef6872b3f6240b8,
  0xbf1d46a23f4a25a7bf390e67bee3126f3f114e3cbf3196533eef34d73f600d1b,
  0xbf33bf723f366c1abf131290bf017c1c3f03a29c3f314e3c3ef6872b3f5a9931,
  0xbf33a6373f3652dfbf390eaabf01205c3f02b021bf3247453eef41f23f5a9931,
  0xbf47bfd73f202ba6bf390e67bf0fdf3b3ee6809dbf31a36e3eef41f23f5538ef,
  0xbf4b6b6e3f1b7479bf1312a1bf12d7733edf14123f3196533ef694463f542c3d,
  0xbf58e4433f07a54cbf390e78bf1bedfa3ec2339cbf3254613eef4f0e3f4ff972,
  0xbf5f0aa23efad81bbf1312b2bf20ebee3eb39c0f3f31b7173ef6a1623f4ded29,
  0xbf6735a03edadb62bf390e78bf2765fe3e9a0f91bf31b08a3eef69443f4af4f1,
  0xbf6e3d0c3eb9c369bf1312a1bf2c36113e8425af3f3182aa3ef6bb993f481062,
  0xbf75e5193e8c6e2bbf390e78bf329c783e4432cabf30b7803eef90973f446738,
  0xbf78acd23e6a41e5bf1312c2bf346dc63e1ed2893f313a933ef6e2eb3f42a305,
  0xbf7e53333db8fffcbf390e78bf38b4393d800000bf3089a03eefb7e93f3f4f0e,
  0xbf7ebfba3d894574bf1312b2bf390ff93d29fbe73f30902e3ef6fd223f3f4f0e,
  0xbf7e2930bd960286bf390e78bf381d7ebd5c5d64bf315b573eeb0f283ea69ad4,
  0xbf7ebfba3d894574bf1312b2bf390ff93d29fbe73f30902e3ef288ce3eb126e9,
  0xbf7e53333db8fffcbf390e78bf38b4393d800000bf3089a03eeb43963eb205bc,
  0xbf7d98e1bdc5918abf1312b2bf3793debd9724743f3168733ef254613ea4b5dd,
  0xbf79d239be415161bf390e78bf341206be1119cebf324dd33eeaf4f13e9d07c8,
  0xbf774678be700fbbbf1312b2bf32a305be362b6b3f319ce03ef23a2a3e98fc50,
  0xbf724042be9a8566bf390e88bf2ee632be690ff9bf319ce03eeadaba3e92e48f,
  0xbf69d4b7bec75f0bbf1312a1bf295810be961e4f3f30b0f23ef21ff33e8a71de,
  0xbf649eaabedce571bf390e78bf24f766bea617c2bf3141203eeacd9f3e8631f9,
  0xbf5292a3bf0d7721bf1312c2bf1930bebed1a9fc3f304ea53ef205bc3e72617c,
  0xbf526f3fbf0d63edbf390e99bf17d567bed295eabf312d773eeac0833e72617c,
  0xbf3813a9bf2de7b8bf390e99bf05d639bf002752bf30a3d73eeac0833e53f7cf,
  0xbf3bf972bf295c53bf1312a1bf089375bef67a103f3205bc3ef205bc3e582a99,
  0xbf26889cbf3e3726bf13126fbeee8a72bf0cb9243f3182aa3ef212d73e42a993,
  0xbf187fdcbf4969f5bf390e78bedcac08bf13f141bf3168733eeacd9f3e361134,
  0xbf04b439bf56e0f4bf1312c2bec01a37bf1e1b093f30f27c3ef22d0e3e2594af,
  0xbef4794fbf5cad58bf390e78beae703bbf224745bf31bda53eeae7d53e1d97f6,
  0xbec94142bf66f4f1bf1312a1be903afbbf292a303f3219653ef247453e0e075f,
  0xbeb31077bf6b7d52bf390e88be8147aebf2c985fbf31b08a3eeb020c3e06c227,
  0xbe8582dcbf72e233bf1312b2be3c1bdabf32fec53f30ded33ef2617c3df14120,
  0xbe738c11bf741451bf390e78be2809d5bf32d0e5bf3254613eeb295f3dea4a8c,
  0xbdfb9f99bf797796bf390e78bdab367abf3793debf31205c3eeb43963dce703b,
  0xbdfbdb5ebf795864bf1312b2bdade00dbf36f0073f31bda53ef295ea3dca57a8,
  0x3c8c21e2bf7b533fbf1312b23ca2339cbf3985f03f3055323ef26e983f1b50b1,
  0xbdfbdb5ebf795864bf1312b2bdade00dbf36f0073f31bda53ef295ea3f1f41f2,
  0xbdfb9f99bf797796bf390e78bdab367abf3793debf31205c3eeb50b13f1f41f2,
  0x3c8cb6c8bf7b28b7bf390e783ca30553bf38adacbf313a933eeb295f3f1b50b1,
  0x3e381a58bf76e254bf390e783e0b923abf367a10bf3020c53eeb020c3f151eb8,
  0x3e38023abf76b8a6bf1312b23e0af4f1bf35a8583f30ff973ef247453f152546,
  0x3eacc9ebbf6ba4a5bf1312b23e819653bf2e28243f301a373ef22d0e3f0e4f76,
  0x3eacad15bf6b7d0fbf390e783e805bc0bf2d7732bf30ff973eeadaba3f0e4f76,
  0x3ef8af1dbf59ea89bf390e783eb5cfabbf219653bf3083123eeacd9f3f0703b0,
  0x3f0180c3bf56e137bf1312b23ebe9100bf1ef34d3f309d493ef212d73f05f6fd,
  0x3f19fa98bf45b856bf390e343ee16f00bf119653bf31de6a3eeac0833f00902e,
  0x3f23582abf3e3854bf13127f3eef9db2bf0c5d643f3168733ef205bc3efcb924,
  0x3f34ddc6bf2debeabf390e883f053f7dbf00624ebf30e5603eeac0833ef404ea,
  0x3f40e1f8bf208ebdbf1312a13f0e83e4beec7e283f30be0e3ef212d73eed844d,
  0x3f4f395cbf0d665abf390e783f17f62bbed21ff3bf313a933eeacd9f3ee4ea4b,
  0x3f5bfca8bef247cbbf1312c23f214120beb5a8583f30ded33ef22d0e3edc91d1,
  0x3f616bcabedce571bf390e783f25460bbea2d0e5bf31bda53eeae7d53ed86c22,
  0x3f6aecc0beb100a4bf13126f3f2b4a23be852bd43f32339c3ef247453ed07c85,
  0x3f6f0e91be9a7f80bf390e783f2f27bbbe65e354bf31a36e3eeb020c3ecca57a,
  0x3f741462be700863bf1312c23f32d773be3318fc3f319ce03ef2617c3ec710cb,
  0x3f790300be1262ccbf390e783f36f694bde1b08abf30d1b73eeb367a3ec00d1b,
  0x3f7a6634bdc59b80bf1312b23f375f70bd9a02753f3196533ef288ce3ebcb924,
  0x3f7bd0073ca5870ebf390e783f38adac3c0b4396bf3147ae3eeb5dcc3eb7f62b,
  0x3f7bb1d13ca59e1fbf1312b23f37ced93c0b43963f322d0e3efb3d083f1d9e84,
  0x3f7a6634bdc59b80bf1312b23f375f70bd9a02753f3196533efb573f3f1ff972,
  0x3f7bd0073ca5870ebf390e783f38adac3c0b4396bf3147ae3ef3f7cf3f1d97f6,
  0x3f79b1643e0c197ebf1312b23f36e2eb3dbc9eed3f3196533efb22d13f195183,
  0x3f7806d13e3b78cdbf390e783f363f143e00346ebf30e5603ef3d07d3f1779a7,
  0x3f7288f03e8c5e92bf1312b23f318fc53e44816f3f31bda53efb089a3f13b646,
  0x3f6ef1243ea3302fbf390e673f2e7d563e65119dbf325aee3ef3b6463f11bda5,
  0x3f68b9fe3ec4cc25bf1312b23f29db233e8b020c3f327bb33efaee633f0eb852,
  0x3f64065b3edacf53bf390e883f26cf423e9b7176bf31f2133ef3a92a3f0c9eed,
  0x3f5bd7c33efad81bbf1312c23f20902e3eb46dc63f31d14e3efae1483f0978d5,
  0x3f55b1643f07a7a8bf390e783f1bedfa3ec2339cbf324dd33ef39c0f3f0758e2,
  0x3f4839bd3f1b734bbf1312b23f1318fc3edde69b3f31bda53efae1483f030553,
  0x3f448f653f20280bbf390e883f0fe5c93ee5e354bf31d14e3ef38ef33f01eb85,
  0x3f34a8f43f32160ebf1312a13f0432ca3eff212d3f324dd33efae1483efb22d1,
  0x3f3078313f3657a8bf390e783f012d773f02b021bf3240b83ef38ef33ef8ef35,
  0x3f1ec15d3f466bb5bf1312d33ee944673f0e83e43f31d14e3efae1483ef04817,
  0x3f1a12943f4a2813bf390e673ee147ae3f11cac1bf31bda53ef39c0f3eee147b,
  0x3f0678293f57d47cbf1312e43ec5f06f3f1ac0833f324dd33efaee633ee594af,
  0x3ef871e73f5e27e1bf390e673eb6872b3f202de0bf31a36e3ef3a92a3ee161e5,
  0x3ed8b84a3f668113bf13127f3e9e5c923f2694463f3189373efafb7f3edb3d08,
  0x3eacc5113f700219bf390e883e81f2133f2d3c36bf30ebee3ef3c3613ed34d6a,
  0x3e8aac543f75a390bf1312b23e4b78033f31f2133f30ded33efb22d13ecd9e84,
  0x3e4f4be83f79c811bf390e783e1a511a3f341f21bf31cac13ef3eab33ec816f0,
  0x3db2a4983f7ea162bf1312b23d8b0f283f38bac73f30624e3efb4a233ec075f7,
  0x3db276fb3f7e77b4bf390e783d7f2e493f37dbf5bf316f003ef404ea3ec0aa65,
  0x3f5bfca8bef247cbbf1312c23f214120beb5a8583f30ded33de1e4f73e883e42,
  0x3f19b4eebe281627bf1312b2be16d5d03f3a511a3f2b78033df27bb33eacb296,
  0x3ef78034be8f73c1bf1312b2bf3a71de3e1f3b643f2adaba3dd2bd3c3eae978d,
  0x3ef59104bee0b6fabf1312b2bf2559b43e0d844d3f40346e3db958103ea624dd,
  0x3f00ed81be6ddb98bf1312b2bf218fc53ec0aa653f2da5123ddc91d13eb0068e,
  0x3f06aae3be5132f8bf1312b2bf02fec53f05e3543f2e83e43de388663eaff972,
  0x3f0df2bbbe3ae3e7bf1312b2beb9f55a3f237b4a3f2dab9f3dea4a8c3eaf1aa0,
  0x3f498e11be243676bf1312b2be0bac713f25182b3f4083123e051eb83e9f6fd2,
  0x3f6aecc0beb100a4bf13126f3f2b4a23be852bd43f32339c3dfced913e8b0f28,
  0x3f741462be700863bf1312c23f32d773be3318fc3f319ce03e091d153e8ed917,
  0x3f55d1c4be0f822cbf1312b2beb0be0e3f1439583f3d14e43e096bba3e9ced91,
  0x3f5cfb87bdf11f0cbf1312a1bef844d03ef2fec53f3c0ebf3e0ccccd3e9c28f6,
  0x3f7a6634bdc59b80bf1312b23f375f70bd9a02753f3196533e154c983e94f0d8,
  0x3f62908abdb6da01bf1312b2bf1638863ea8db8c3f3d4fdf3e10624e3e9c28f6,
  0x3f6799b3bd1c92debf1312b2bf2581063dcf76603f4196533e1566cf3e9dcc64,
  0x3f7bb1d13ca59e1fbf1312b23f37ced93c0b43963f322d0e3e1eb8523e9b2fec,
  0x3f66b4423cc534bdbf1312b2bf23e426be2594af3f4041893e1a02753ea18937,
  0x3f79b1643e0c197ebf1312b23f36e2eb3dbc9eed3f3196533e27381d3ea28f5c,
  0x3f60de1a3d94fb55bf1312c2bf0a3055bec5119d3f3faace3e1c5d643ea5f06f,
  0x3f56fd973de1a501bf1312b2beba9fbebf0d42c43f40068e3e1cfaad3eaae7d5,
  0x3f7288f03e8c5e92bf1312b23f318fc53e44816f3f31bda53e3020c53eac7e28,
  0x3f495cc83e07c99bbf1312b2be051eb8bf24f0d83f40f27c3e1b71763eb0068e,
  0x3f68b9fe3ec4cc25bf1312b23f29db233e8b020c3f327bb33e367a103eb58e22,
  0x3f5bd7c33efad81bbf1312c23f20902e3eb46dc63f31d14e3e3b7e913ebf62b7,
  0x3f4839bd3f1b734bbf1312b23f1318fc3edde69b3f31bda53e4000003ecbb98c,
  0x3f34a8f43f32160ebf1312a13f0432ca3eff212d3f324dd33e425aee3ed66cf4,
  0x3f1ec15d3f466bb5bf1312d33ee944673f0e83e43f31d14e3e4346dc3ee147ae,
  0x3f0678293f57d47cbf1312e43ec5f06f3f1ac0833f324dd33e42de013eec2f83,
  0x3ed8b84a3f668113bf13127f3e9e5c923f2694463f3189373e41205c3ef6fd22,
  0x3e8aac543f75a390bf1312b23e4b78033f31f2133f30ded33e3c50483f02ca58,
  0x3db2a4983f7ea162bf1312b23d8b0f283f38bac73f30624e3e3404ea3f0a8c15,
  0xbd9c48f13f7ef61fbf1312b2bd456d5d3f3858793f3134053e2a64c33f10a3d7,
  0xbf4c50593e08d9f9bf1312b23dcf7660bf291d153f3e703b3d70068e3f128241,
  0xbe5c36973f79e54bbf1312b2be1a85883f34bc6a3f31205c3e2075f73f152bd4,
  0xbea7a2f03f71c411bf13127fbe6ab3683f2e0ded3f3254613e1758e23f1872b0,
  0xbedf1e083f667f4ebf1312b2bea1f2133f25c28f3f3182aa3e0d4fdf3f1b22d1,
  0xbf13badc3f516d4cbf1312c2bed581063f173eab3f30d1b73dfcb9243f1ded29,
  0xbf33bf723f366c1abf131290bf017c1c3f03a29c3f314e3c3ddd63883f1f9097,
  0xbf4b6b6e3f1b7479bf1312a1bf12d7733edf14123f3196533dc1f2133f1ff2e5,
  0xbf5f0aa23efad81bbf1312b2bf20ebee3eb39c0f3f31b7173da6b50b3f1f6944,
  0xbf6e3d0c3eb9c369bf1312a1bf2c36113e8425af3f3182aa3d8be0df3f1df3b6,
  0xbf78acd23e6a41e5bf1312c2bf346dc63e1ed2893f313a933d6425af3f1b9f56,
  0xbf56b91b3df7f844bf1312b23e8d1b71bf1e2eb23f3c7e283d6282413f13a92a,
  0xbf5e84163dd15c64bf1312b23edcac08bf05b5743f3c5d643d5566cf3f143fe6,
  0xbf7ebfba3d894574bf1312b2bf390ff93d29fbe73f30902e3d2cd9e83f17ced9,
  0xbf66771d3d8d59d5bf1312b23f0e7d56beba9fbe3f3f1aa03d43c9ef3f146738,
  0xbf6beb293ca14cecbf1312b23f25119dbe10ff973f404ea53d2f4f0e3f13c361,
  0xbf6c4d01bd314a90bf1312b23f24af4f3dfa43fe3f417c1c3d1c0ebf3f11ff2e,
  0xbf7d98e1bdc5918abf1312b2bf3793debd9724743f3168733cf5c28f3f12fec5,
  0xbf671434bdbc74fbbf1312b23f1446743eb03afb3f3d2f1b3d1168733f0fec57,
  0xbf615800bdf5be5ebf1312b23eef5c293ef9db233f3cb2963d0e21963f0e48e9,
  0xbf774678be700fbbbf1312b2bf32a305be362b6b3f319ce03cac08313f0e2196,
  0xbf57f4edbe164f55bf1312b23e9916873f1893753f3ec56d3d0ef34d3f0c2f83,
  0xbf4c3148be24e5d6bf1312b23dcf0d843f29c77a3f3dd97f3d1581063f0a161e,
  0xbf69d4b7bec75f0bbf1312a1bf295810be961e4f3f30b0f23c4ccccd3f07bb30,
  0xbf5292a3bf0d7721bf1312c2bf1930bebed1a9fc3f304ea53bb439583eff6fd2,
  0xbf3bf972bf295c53bf1312a1bf089375bef67a103f3205bc3b16bb993ef2bd3c,
  0xbf26889cbf3e3726bf13126fbeee8a72bf0cb9243f3182aa3a902de03ee7e282,
  0x3d6ea423be2704bcbf1312b23de7a0f93f3afb7f3f2c710d3db15b573ed4d6a1,
  0xbf04b439bf56e0f4bf1312c2bec01a37bf1e1b093f30f27c3aded2893ed8a090,
  0xbec94142bf66f4f1bf1312a1be903afbbf292a303f3219653b89a0273ecbc6a8,
  0x3e3f1e8ebee1209fbf1312b23f2412063e13404f3f410cb33d96872b3ebb645a,
  0x3e3b3f21be8fdcbebf1312b23f3a36e33e1f3b643f2b1c433dade00d3ec50481,
  0x3dca9d62be33e35cbf1312b23e98e2193f2b645a3f2e21963db46dc63ed126e9,
  0x3e0479d5be472fbabf1312b23eeeb1c43f10a3d73f2e48e93db50b0f3ecdd2f2,
  0x3e244c38be693a71bf1312b23f1f69443ece703b3f2bac713db39c0f3ec9ad43,
  0xbe8582dcbf72e233bf1312b2be3c1bdabf32fec53f30ded33c0ce7043ebf62b7,
  0x3e58ed1cbefde204bf1312b23f0a7efa3ec2339c3f4027523d9096bc3eb66cf4,
  0xbdfbdb5ebf795864bf1312b2bdade00dbf36f0073f31bda53c6f34d73eb3b646,
  0x3c8c21e2bf7b533fbf1312b23ca2339cbf3985f03f3055323cb851ec3ea90ff9,
  0x3e80359cbf0884e8bf1312b23eba02753f0d8adb3f3ff9723d8f90973eb1758e,
  0x3e38023abf76b8a6bf1312b23e0af4f1bf35a8583f30ff973d0865953e9e0ded,
  0x3e9e1523bf0e9846bf1312b23dd810623f25119d3f41d14e3d930be13eabe0df,
  0x3eacc9ebbf6ba4a5bf1312b23e819653bf2e28243f301a373d3c01a33e94fdf4,
  0x3f0180c3bf56e137bf1312b23ebe9100bf1ef34d3f309d493d7d8adb3e8d42c4,
  0x3ebe01debf0db2a2bf1312b2be25aee63f23e4263f4041893d9ad42c3ea779a7,
  0x3ed6ee31bf07db90bf1312b2bec51eb83f0a29c73f3faace3da43fe63ea538ef,
  0x3f23582abf3e3854bf13127f3eef9db2bf0c5d643f3168733d9d7dbf3e88f5c3,
  0x3eea1405befbf9a5bf1312b2bf0d42c43ebaacda3f40068e3dae7d563ea4a8c1,
  0x3f40e1f8bf208ebdbf1312a13f0e83e4beec7e283f30be0e3dbd70a43e87381d,
  0x3e6d0dd0bec4cc8abf4ac82ebf36a1623e3f7ceebf2ce0763efc01a33d95182b,
  0x3eda0b5fbed71498bf4ac82e3f3b9f56bda19653bf2cfaad3ef559b43dca57a8,
  0x3e69d3ccbed3d31cbf4ac82ebf3ca57abd010625bf2ce0763efae1483d8e2196,
  0x3ed966e0bec7f9d7bf4ac82e3f393dd93e102de0bf2cfaad3ef694463dcfdf3b,
  0x3e78feacbeb6e7c5bf4ac82ebf1f69443ecce704bf2c22683efcd35b3d9e1b09,
  0x3ed45719beb9bbcfbf4ac82e3f25d6393eb6a162bf2c56d63ef803473dd288ce,
  0x3e8976bcbea8a527bf4ac82ebededfa43f1bac71bf29f55a3efd3c363dac0831,
  0x3ec8e886beab2c1fbf4ac82e3ef5dcc63f128241bf2a29c73ef9b3d03dd119ce,
  0x3e9e4303be9fa073bf4ac82ebe0d4fdf3f3c985fbf2978d53efce0763dbc3611,
  0x3eb4eca7bea0895dbf4ac82e3e48ce703f391d15bf298c7e3efb98c83dc985f0,
  0x3ed63561bee5b446bf4ac82e3f2d6388be95182bbf2cf41f3ef460aa3dc22681,
  0x3e6f9b99bee2aa3bbf4ac82ebf319ce0be832ca5bf2c49ba3ef98c7e3d89d495,
  0x3ece392ebef28e50bf4ac82e3f0e3bcdbefa1cacbf2c432d3ef3c3613db81d7e,
  0x3e80f1d4bef2c5e3bf4ac82ebf0f559bbefd566dbf2a233a3ef7dbf53d89374c,
  0x3ebf4385befeb980bf4ac82e3eadc5d6bf2a7efabf2a0f913ef39c0f3da9fbe7,
  0x3e9322d1bf00218ebf4ac82ebe9a511abf2fb15bbf2972473ef5cfab3d8ebee0,
  0x3ea95f03bf024389bf4ac82e3cd4fdf4bf3fbe77bf2978d53ef4538f3d9a6b51,
  0x3ed18373bee034f4beda8eb43eb8e219be0793de3f6c50483ecccccd3da29c78,
  0x3ed6f545bed4a6a8bedcb3e53f2cd9e8bd2161e53f3c91d13ecc49ba3daa64c3,
  0x3ed2235bbecdc832beda48303e7afb7f3c6f34d73f782a993ecb78033daa64c3,
  0x3ed96c83bed8fde3bee13dd93f721ff3be1205bc3e9566cf3ee88ce73f2a71de,
  0x3eda13a1bece2718bee1984a3f73d07d3d9652bd3e9773193ee7fcb93f2a786c,
  0x3ed6f545bed4a6a8bedcb3e53f2cd9e8bd2161e53f3c91d13ee858793f2a161e,
  0x3e8e1b8fbea66a33bee07f67bef581063f4c01a33ebc28f63efc01a33f4f212d,
  0x3e977af6bea5d1c4bedbeb9ebe67a0f93f19999a3f446dc63efc91d13f4ec56d,
  0x3e98303cbea18138bee16207be8e56043f6a5e353e94e3bd3efcfaad3f4f2e49,
  0x3e89fe00beb0f041bedab0eabe5a511a3e8a64c33f705bc03ec5119d3d8db8bb,
  0x3e99d92bbea88fa8beda5a47bd9cac083e6474543f78c7e33ec560423d9a9fbe,
  0x3e977af6bea5d1c4bedbeb9ebe67a0f93f19999a3f446dc63ec504813d9ad42c,
  0x3e84bcaebeb1626bbedc8909bf0367a13eea09033f39eecc3ec4dd2f3d8b0f28,
  0x3e84bcaebeb1626bbedc8909bf0367a13eea09033f39eecc3efa92a33f4ecbfb,
  0x3e84b429bead0edcbee1782dbf29e1b13f32b0213e89ba5e3efae1483f4f34d7,
  0x3e7f3fd9bec05be2beda5df2be921ff33e0106253f7339c13ec594af3d813a93,
  0x3e76edeebeb8f862bee1784fbf54b5dd3ef326183e9460aa3ef97f633f4f2e49,
  0x3e75d9e4bec02060bedd44ddbf3027523e860aa63f2d3c363ec560423d7d8adb,
  0x3e75d9e4bec02060bedd44ddbf3027523e860aa63f2d3c363ef8ef353f4ed289,
  0x3e6c52e7bec6f2a6bee190d1bf6fdf3b3e4b923a3e9318fc3ef837b53f4f2e49,
  0x3e702b84bed19a41bedc89f4bf30d8453c79096c3f390ff93ec6809d3d6b1c43,
  0x3e78800fbed4bad8beda511abe9559b4bd1c0ebf3f74a8c13ec6f6943d6cbfb1,
  0x3e7429e1bee780bbbee199ddbf5d21ffbedb4a233e87c84b3ef295ea3f3a71de,
  0x3e7c115ebee73216bedbfb7abf0c154dbe8ef34d3f4a02753ef2b0213f3ae148,
  0x3e6f498cbee07e17bee07d70bf641206be82c3ca3ec041893ef1eb853f3a8c15,
  0x3e802342bef13016bee154ebbf3f5c29bf16c8b43e9d3c363ef3a92a3f3a71de,
  0x3e8755debef44fc2bedc96ccbeea233abefd8adb3f3d1b713ef4538f3f3adaba,
  0x3e88116fbef9170dbee19ac8bf169ad4bf41de6a3e9141203ef4bc6a3f3a71de,
  0x3e91ba5ebeff310abee15571bedce076bf5a30553e9780343ef5c28f3f3a786c,
  0x3e96c051befe2457bedc9603be65e354bf23eab33f3c0ebf3ef5f6fd3f3ad42c,
  0x3e9c4bb2bf016eadbee19978be468db9bf6f0d843e9a02753ef6a1623f3a786c,
  0x3ea7a28cbf02161ebee15726bc56a162bf7439583e994af53ef724743f3a8588,
  0x3eabc5bdbf007981bedc7c0f3d8a0903bf2fc5053f3951833ef6fd223f3adaba,
  0x3eabc5bdbf007981bedc7c0f3d8a0903bf2fc5053f3951833eee56043f2a1cac,
  0x3ea7a28cbf02161ebee15726bc56a162bf7439583e994af53eeecbfb3f2a71de,
  0x3eb626f6bf010d4abee17e993e90cb29bf690ff93e9a9fbe3eed9e843f2a786c,
  0x3ebc23fbbefae9abbedb72823e6f9db2befd63883f563f143eecd9e83f2a161e,
  0x3ec36028befb84babee06e5d3eff3b64bf4951833ebab9f53eec49ba3f2a64c3,
  0x3ed5b6e5bee3ac4fbedf2a173f472474bea2d0e53f0ab9f53ee978d53f2a43fe,
  0x3e7c115ebee73216bedbfb7abf0c154dbe8ef34d3f4a02753ec872b03d5ed289,
  0x3e6f498cbee07e17bee07d70bf641206be82c3ca3ec041893ec7a0f93d5f3b64,
  0x3eca1e60bef0fb65bedbea0c3ee3bcd3bed247453f4bc01a3eeb295f3f2a0903,
  0x3ecdc487bef0ea18bedeec5b3f2b7176bf0893753f043fe63eeadaba3f2a43fe,
  0x3ed5b6e5bee3ac4fbedf2a173f472474bea2d0e53f0ab9f53ecd42c43da29c78,
  0x3eca1e60bef0fb65bedbea0c3ee3bcd3bed247453f4bc01a3ecd9e843d961e4f,
  0x3ecdc487bef0ea18bedeec5b3f2b7176bf0893753f043fe63ecdab9f3d9b7176,
  0x3e91b6b3bef858ffbedabf34be491d15bea831273f6c84b63ecadaba3d65c91d,
  0x3e8755debef44fc2bedc96ccbeea233abefd8adb3f3d1b713ec9fbe73d5d97f6,
  0x3e96c051befe2457bedc9603be65e354bf23eab33f3c0ebf3ecb9f563d669ad4,
  0x3eabc5bdbf007981bedc7c0f3d8a0903bf2fc5053f3951833ecd0e563d7be76d,
  0x3ea7d1bbbefcfaadbeda3fcdbc75c28fbe946dc63f74f7663ecc7e283d7a43fe,
  0x3e86188bbeec1bb9beda4a6bbe43126fbe1dcc643f7831273ec944673d6353f8,
  0x3ebc23fbbefae9abbedb72823e6f9db2befd63883f563f143ecd91683d89a027,
  0x3ec695d9beef607cbeda50d73e20902ebe1c0ebf3f79ce073ecd4fdf3d954c98,
  0x3ec9ca5cbef72607bee31b583f2a9931bf39f55a3e2c08313eeb923a3f2aa64c,
  0x3ed15bbcbeee2e6fbee2671f3f511340bf0a92a33e4d013b3eea71de3f2a92a3,
  0x3ed70154bee3b9d0bee2fa0d3f6cd9e8beb3eab33e12bd3c3ee95e9e3f2a9fbe,
  0x3e702b84bed19a41bedc89f4bf30d8453c79096c3f390ff93ef0be0e3f3ad42c,
  0x3e6a671fbed5dd2bbee176debf75460bbda88ce73e8c63f13ef0ff973f3a786c,
  0x3e6c52e7bec6f2a6bee190d1bf6fdf3b3e4b923a3e9318fc3ef013a93f3a786c,
  0x3e702b84bed19a41bedc89f4bf30d8453c79096c3f390ff93ef81d7e3f4ecbfb,
  0x3ec803cdbeb44d23beda66993e624dd33e58adac3f73b6463ec902de3dafec57,
  0x3ed476f3bec4e5d6bedbd44a3f13dd983e290ff93f4ca57a3ecaf4f13dafec57,
  0x3eccab3fbeb439bdbedc981c3f0c50483ed74bc73f3916873ec944673db295ea,
  0x3ec14df9bea94d2fbedd00503ec3bcd33f16f0073f361e4f3ec7c84b3db126e9,
  0x3eb52221bea84c49beda64e53dc6dc5d3e8ebee03f7495183ec6f6943dab6ae8,
  0x3eb58d7abea3f163bedd12ec3e5566cf3f309d493f317c1c3ec6a7f03dad0e56,
  0x3ea6f21fbea5171ebedab218bbe560423edad42c3f676c8b3ec5f06f3da47454,
  0x3ed476f3bec4e5d6bedbd44a3f13dd983e290ff93f4ca57a3ef8ef353f4db22d,
  0x3ed4d120bebbda0ebee07ebf3f5638863ed0068e3ebbf4883ef9db233f4d6a16,
  0x3eccab3fbeb439bdbedc981c3f0c50483ed74bc73f3916873efaee633f4db8bb,
  0x3ea7824dbea027d9bedf2c0ebc8240b83f5916873f07a0f93ec5a1cb3da617c2,
  0x3eda13a1bece2718bee1984a3f73d07d3d9652bd3e9773193ef844d03f4d5cfb,
  0x3ed6f545bed4a6a8bedcb3e53f2cd9e8bd2161e53f3c91d13ef81d7e3f4db8bb,
  0x3ed7de94bec2d8a1bee19ae93f6c6a7f3e8ac0833e8b0f283ef930be3f4d566d,
  0x3ed15b36beb54691bee19b6f3f4b367a3f0c7e283e8624dd3efa92a33f4d4fdf,
  0x3ec9ef95beac9d5abee1539c3f2504813f3474543e978d503efba5e33f4d566d,
  0x3ec14df9bea94d2fbedd00503ec3bcd33f16f0073f361e4f3efc6a7f3f4db22d,
  0x3ebd9b1bbea41334bee1bb493ed94af53f5dfa443e8587943efd07c83f4d4fdf,
  0x3eb58d7abea3f163bedd12ec3e5566cf3f309d493f317c1c3efd97f63f4db22d,
  0x3eb2cc2dbea08b97bee157693e58fc503f6fd8ae3e8e56043efdf3b63f4d5cfb,
  0x3ea7824dbea027d9bedf2c0ebc8240b83f5916873f07a0f93efe76c93f4d9168,
  0x3ea7824dbea027d9bedf2c0ebc8240b83f5916873f07a0f93efe353f3f4ef34d,
  0x3ea80c74be9eec39bee31d0dbba3d70a3f7d8adb3e0d35a83efe4f763f4f4f0e,
  0x3ea80c74be9eec39bee31d0dbba3d70a3f7d8adb3e0d35a83efe91003f4d35a8,
  0x3e69d3ccbed3d31cbf4ac82ebf3ca57abd010625bf2ce0763ef0d8453f2a0f91,
  0x3e6d0dd0bec4cc8abf4ac82ebf36a1623e3f7ceebf2ce0763ef013a93f2a0f91,
  0x3e6f9b99bee2aa3bbf4ac82ebf319ce0be832ca5bf2c49ba3ef22d0e3f2a0903,
  0x3e80f1d4bef2c5e3bf4ac82ebf0f559bbefd566dbf2a233a3ef3eab33f2a0903,
  0x3e9322d1bf00218ebf4ac82ebe9a511abf2fb15bbf2972473ef5f6fd3f2a0903,
  0x3ea95f03bf024389bf4ac82e3cd4fdf4bf3fbe77bf2978d53ef731903f2a161e,
  0x3ebf4385befeb980bf4ac82e3eadc5d6bf2a7efabf2a0f913eecb2963f3ae7d5,
  0x3ea95f03bf024389bf4ac82e3cd4fdf4bf3fbe77bf2978d53eeea4a93f3ae148,
  0x3ece392ebef28e50bf4ac82e3f0e3bcdbefa1cacbf2c432d3eeadaba3f3ae7d5,
  0x3ed63561bee5b446bf4ac82e3f2d6388be95182bbf2cf41f3ee978d53f3ae7d5,
  0x3eda0b5fbed71498bf4ac82e3f3b9f56bda19653bf2cfaad3ee84b5e3f3ae148,
  0x3ed966e0bec7f9d7bf4ac82e3f393dd93e102de0bf2cfaad3ef8c7e33f3ced91,
  0x3eda0b5fbed71498bf4ac82e3f3b9f56bda19653bf2cfaad3ef7f62b3f3ced91,
  0x3ed45719beb9bbcfbf4ac82e3f25d6393eb6a162bf2c56d63efa1cac3f3ce704,
  0x3ec8e886beab2c1fbf4ac82e3ef5dcc63f128241bf2a29c73efbda513f3ce704,
  0x3eb4eca7bea0895dbf4ac82e3e48ce703f391d15bf298c7e3efdd97f3f3ced91,
  0x3e9e4303be9fa073bf4ac82ebe0d4fdf3f3c985fbf2978d53efd7dbf3f5f9724,
  0x3eb4eca7bea0895dbf4ac82e3e48ce703f391d15bf298c7e3efe91003f5f9724,
  0x3e8976bcbea8a527bf4ac82ebededfa43f1bac71bf29f55a3efb645a3f5f9db2,
  0x3e78feacbeb6e7c5bf4ac82ebf1f69443ecce704bf2c22683ef98c7e3f5f9db2,
  0x3e6d0dd0bec4cc8abf4ac82ebf36a1623e3f7ceebf2ce0763ef851ec3f5f9724,
  0x3eeb4613bed53cdebf4ac82e3f3b367abd1d4952bf2e4f763ee538ef3f2bb98c,
  0x3e47ae58bed26f3fbf4ac82ebf3b5dccbc03126fbf2e69ad3edb8bac3f238866,
  0x3ee9f7f9bec3f7cfbf4ac82e3f37a7873e204189bf2dc5d63ee631f93f2a71de,
  0x3e4c7fbbbee39475bf4ac82ebf34b5ddbe4ef34dbf2dcc643edaacda3f24dd2f,
  0x3ee826ccbee64862bf4ac82e3f329c78be63d70abf2e56043ee3f1413f2cb924,
  0x3e5e703bbef7a95dbf4ac82ebf1c49babed7ced9bf2ba5e33eda1cac3f26c8b4,
  0x3ee0d0abbef5f97bbf4ac82e3f1e4f76bec8db8cbf2e4f763ee275253f2d5cfb,
  0x3ed5ba6fbf01a5ecbf4ac82e3efd566dbf0ac083bf2de00d3ee0d1b73f2da512,
  0x3e819bf6bf05053abf4ac82ebed41206bf1e00d2bf2b43963eda511a3f2923a3,
  0x3ec41d8fbf07b0f7bf4ac82e3e9f1412bf2be76dbf2c36113edec56d3f2d6388,
  0x3e998762bf0a1683bf4ac82ebe238866bf395810bf2bcd363edb645a3f2b3d08,
  0x3eaee17abf0a83f5bf4ac82e3da47454bf3b4396bf2d566d3edce0763f2c91d1,
  0x3e4d77fbbebd4867bf4ac82ebf33c3613e6bb98cbf2c779a3edd14e43f224745,
  0x3ee24db1beaf5b3ebf4ac82e3f237b4a3ebf559bbf2c36113ee6dc5d3f288ce7,
  0x3e66412dbea66cd3bf4ac82ebf1254613ef212d7bf2bac713edf62b73f216f00,
  0x3ed49258be9ef827bf4ac82e3ef74bc73f0ed289bf2cc63f3ee6e9793f26a162,
  0x3e873062be95e482bf4ac82ebeb611343f271de7bf2b3d083ee1d7dc3f217c1c,
  0x3ebe08afbe91231cbf4ac82e3e72ca583f35e9e2bf29930c3ee60aa63f2460aa,
  0x3e9fff9bbe8e18adbf4ac82ebd9e4f763f3da512bf2acd9f3ee425af3f22617c,
  0x3eea4357bec57b20bf3e1ed63f3886593e0d9e843f2de00d3ee624dd3f31a9fc,
  0x3e47a744becc3505bf3e1ed6bf3c5d643d6631f93f2cc63f3edbf4883f391687,
  0x3eeb2cc7bed6c6bdbf3e1ed63f3ae7d5bd6425af3f2e56043ee51eb83f3068dc,
  0x3e522b7cbeb7837bbf3e1ed6bf2cb2963e94c9863f2db8bb3edd97f63f3a3d71,
  0x3ee360d0beb143bfbf3e1ed63f268db93eb460aa3f2c36113ee6dc5d3f337b4a,
  0x3e6916cabea4c2b5bf3e1ed6bf0d35a83efe00d23f2bac713edf97243f3ad42c,
  0x3ed5b6a2bea00171bf3e1ed63efed2893f0b5dcc3f2cd9e83ee6f6943f357a78,
  0x3e892253be94e0b9bf3e1ed6bea9e1b13f2a4a8c3f2b3d083ee20c4a3f3ab9f5,
  0x3ec05c03be91fe22bf3e1ed63e88240b3f331f8a3f29c0ec3ee631f93f37a787,
  0x3ea22e3cbe8de2cebf3e1ed6bd4d9e843f3e5c923f2aacda3ee44d013f39ba5e,
  0x3e4bb7b7bee216c6bf3e1ed6bf366666be3717593f2db22d3edab9f53f3779a7,
  0x3ee7aa69bee7bf1fbf3e1ed63f313405be74bc6a3f2e56043ee3c9ef3f2f6fd2,
  0x3e5c0b9abef5d2afbf3e1ed6bf1fd8aebeccb2963f2bcd363eda1cac3f35a1cb,
  0x3edff994bef7440bbf3e1ed63f1be76dbed048173f2e4f763ee24dd33f2ed289,
  0x3ed49646bf022ad4bf3e1ed63ef66cf4bf0dfa443f2dc5d63ee0aa653f2e978d,
  0x3e7f9df5bf046488bf3e1ed6bedf559bbf1a161e3f2b43963eda43fe3f3346dc,
  0x3ec21db8bf082236bf3e1ed63e939c0fbf2e703b3f2c36113ede91003f2ee632,
  0x3e9765babf09d841bf3e1ed6be3d3c36bf37ef9e3f2bac713edb4a233f3126e9,
  0x3ead58a7bf0a96e6bf3e1ed63d797247bf3bc01a3f2d566d3edcc63f3f2fbe77,
  0x3eea4357bec57b20bf3e1ed63f3886593e0d9e843f2de00d3ec068dc3de4f766,
  0x3eeb2cc7bed6c6bdbf3e1ed63f3ae7d5bd6425af3f2e56043ec068dc3debedfa,
  0x3eeb4613bed53cdebf4ac82e3f3b367abd1d4952bf2e4f763ebe00d23dec2268,
  0x3ee9f7f9bec3f7cfbf4ac82e3f37a7873e204189bf2dc5d63ebdf3b63de3f141,
  0x3ee360d0beb143bfbf3e1ed63f268db93eb460aa3f2c36113ec05bc03dd6a162,
  0x3ee24db1beaf5b3ebf4ac82e3f237b4a3ebf559bbf2c36113ebdf3b63dd4fdf4,
  0x3ed5b6a2bea00171bf3e1ed63efed2893f0b5dcc3f2cd9e83ec05bc03dc6a7f0,
  0x3ed49258be9ef827bf4ac82e3ef74bc73f0ed289bf2cc63f3ebdf3b63dc5a1cb,
  0x3ec05c03be91fe22bf3e1ed63e88240b3f331f8a3f29c0ec3ec068dc3db50b0f,
  0x3ebe08afbe91231cbf4ac82e3e72ca583f35e9e2bf29930c3ebdf3b63db367a1,
  0x3ea22e3cbe8de2cebf3e1ed6bd4d9e843f3e5c923f2aacda3ec068dc3da75254,
  0x3e9fff9bbe8e18adbf4ac82ebd9e4f763f3da512bf2acd9f3ebe00d23da75254,
  0x3e892253be94e0b9bf3e1ed6bea9e1b13f2a4a8c3f2b3d083ec05bc03e1119ce,
  0x3ea22e3cbe8de2cebf3e1ed6bd4d9e843f3e5c923f2aacda3ec068dc3e19ce07,
  0x3e9fff9bbe8e18adbf4ac82ebd9e4f763f3da512bf2acd9f3ebe00d23e191687,
  0x3e873062be95e482bf4ac82ebeb611343f271de7bf2b3d083ebdf3b63e10624e,
  0x3e6916cabea4c2b5bf3e1ed6bf0d35a83efe00d23f2bac713ec05bc03e07c84b,
  0x3e66412dbea66cd3bf4ac82ebf1254613ef212d7bf2bac713ebdf3b63e06f694,
  0x3e522b7cbeb7837bbf3e1ed6bf2cb2963e94c9863f2db8bb3ec068dc3e00346e,
  0x3e4d77fbbebd4867bf4ac82ebf33c3613e6bb98cbf2c779a3ebdf3b63dfcb924,
  0x3e47a744becc3505bf3e1ed6bf3c5d643d6631f93f2cc63f3ec068dc3df52546,
  0x3e47ae58bed26f3fbf4ac82ebf3b5dccbc03126fbf2e69ad3ebe00d23df381d8,
  0x3e4bb7b7bee216c6bf3e1ed6bf366666be3717593f2db22d3ec068dc3e3b7e91,
  0x3e47a744becc3505bf3e1ed6bf3c5d643d6631f93f2cc63f3ec068dc3e410625,
  0x3e47ae58bed26f3fbf4ac82ebf3b5dccbc03126fbf2e69ad3ebe00d23e409d49,
  0x3e4c7fbbbee39475bf4ac82ebf34b5ddbe4ef34dbf2dcc643ebdf3b63e3b15b5,
  0x3e5c0b9abef5d2afbf3e1ed6bf1fd8aebeccb2963f2bcd363ec05bc03e3404ea,
  0x3e5e703bbef7a95dbf4ac82ebf1c49babed7ced9bf2ba5e33ebdf3b63e333333,
  0x3e7f9df5bf046488bf3e1ed6bedf559bbf1a161e3f2b43963ec05bc03e2ab368,
  0x3e819bf6bf05053abf4ac82ebed41206bf1e00d2bf2b43963ebdf3b63e29e1b1,
  0x3e9765babf09d841bf3e1ed6be3d3c36bf37ef9e3f2bac713ec068dc3e22680a,
  0x3e998762bf0a1683bf4ac82ebe238866bf395810bf2bcd363ebe00d23e21cac1,
  0x3ead58a7bf0a96e6bf3e1ed63d797247bf3bc01a3f2d566d3ec068dc3e6703b0,
  0x3e9765babf09d841bf3e1ed6be3d3c36bf37ef9e3f2bac713ec075f73e6a4a8c,
  0x3e998762bf0a1683bf4ac82ebe238866bf395810bf2bcd363ebe00d23e6a4a8c,
  0x3eaee17abf0a83f5bf4ac82e3da47454bf3b4396bf2d566d3ebe00d23e669ad4,
  0x3ec21db8bf082236bf3e1ed63e939c0fbf2e703b3f2c36113ec05bc03e602752,
  0x3ec41d8fbf07b0f7bf4ac82e3e9f1412bf2be76dbf2c36113ebdf3b63e5f6fd2,
  0x3ed49646bf022ad4bf3e1ed63ef66cf4bf0dfa443f2dc5d63ec05bc03e5844d0,
  0x3ed5ba6fbf01a5ecbf4ac82e3efd566dbf0ac083bf2de00d3ebdf3b63e57c1be,
  0x3edff994bef7440bbf3e1ed63f1be76dbed048173f2e4f763ec05bc03e5205bc,
  0x3ee0d0abbef5f97bbf4ac82e3f1e4f76bec8db8cbf2e4f763ebdf3b63e5182aa,
  0x3ee7aa69bee7bf1fbf3e1ed63f313405be74bc6a3f2e56043ec068dc3e4c2f83,
  0x3ee826ccbee64862bf4ac82e3f329c78be63d70abf2e56043ebdf3b63e4bac71,
  0x3eeb2cc7bed6c6bdbf3e1ed63f3ae7d5bd6425af3f2e56043ec068dc3e4710cb,
  0x3eeb4613bed53cdebf4ac82e3f3b367abd1d4952bf2e4f763ebe00d23e46a7f0,
  0x3c598bf8bf807a10bf3a87a03c6075f7bf378d50bf32680a3dd604193f7f6944,
  0xbda70868bf802446bf3a87a0bd676c8bbf373eabbf322d0e3dc361133f7f837b,
  0xbcd1dcd7bf7b0f06bf3a87a03c5ed2893f323a2abf37bb303dce075f3f7e703b,
  0xbdf36b4cbf797625bf3a87a03da2339c3f3119cebf37bb303dbbcd363f7e5604,
  0xbe4da76ebf7c49aabf3a87a0be0d35a8bf350481bf318fc53dabd3c33f7f0069,
  0xbe581dc1bf759f90bf3a87a03e138ef33f2e6320bf37bb303da9930c3f7dd97f,
  0xbea0cd42bf74bcf1bf3a87a0be5cfaadbf2f4f0ebf32339c3d954c983f7de69b,
  0xbe9a4bbabf6f93bcbf3a87b13e54c9863f2a233abf37bb303d978d503f7cf41f,
  0xbece646fbf6c43f6bf3a87b1be8ff972bf28e8a7bf32680a3d837b4a3f7c91d1,
  0xbec74949bf675c29bf3a87903e89eecc3f246738bf37b4a23d8624dd3f7ba5e3,
  0xbefa1e1dbf61b457bf3a87a0beaef34dbf216873bf32680a3d648e8a3f7ad42c,
  0xbef28156bf5d12babf3a87a03ea9374c3f1ca57abf37f62b3d6a4a8c3f79eecc,
  0xbf11da38bf552589bf3a87a0becded29bf184b5ebf322d0e3d43c9ef3f78b439,
  0xbf12643dbf4dca19bf3a87903ecadaba3f117c1cbf38a0903d42f8383f7758e2,
  0xbf2a7b0bbf429585bf3a87b1bef16873bf0bb98cbf3154ca3d1d49523f758106,
  0xbf2a2707bf3ae31dbf3a87c23eebd3c33f0559b4bf37fcb93d1ce0763f741f21,
  0xbf446d0dbf28f3edbf3a87a0bf0a29c7bef4f0d8bf3154ca3ce703b03f710cb3,
  0xbf3b456bbf2a1eb4bf3a87d33f028f5c3ef288cebf37ced93d016f003f713a93,
  0xbf4ab50bbf17d1eebf3a87c23f0d844d3ed8bac7bf37c1be3cd0e5603f6e075f,
  0xbf56c109bf114de8bf3a87b1bf16c8b4bed23a2abf322d0e3cab367a3f6ced91,
  0xbf5857d1bf042928bf3a87c23f1717593ebd07c8bf37c1be3ca3d70a3f6a8c15,
  0xbf639a39bef973dabf3a87a0bf201a37beb3c361bf32680a3c809d493f694af5,
  0xbf6409d5bedea897bf3a87a03f1f62b73e9fcb92bf37b4a23c7aacda3f66dc5d,
  0xbf6e7e74bece071cbf3a87c2bf27ced9be950b0fbf32617c3c3780343f656d5d,
  0xbf6dbca9beb2f3e4bf3a87b13f2631f93e7f7ceebf37ef9e3c3923a33f62f1aa,
  0xbf774c0abea0c176bf3a87b1bf2e0dedbe69e1b1bf32680a3bf9096c3f6161e5,
  0xbf76e5bdbe75daf0bf3a87b13f2b98c83e2f0069bf38db8c3bf5c28f3f5de69b,
  0xbf7df4f5be63e964bf3a87a0bf32c3cabe27a0f9bf32617c3b9a02753f5d288d,
  0xbf81312bbe045c79bf3a87b1bf35e354bdc7e282bf32680a3b2a64c33f58db8c,
  0xbf7d6d4cbdd17269bf3a87a03f2fdf3b3da36e2fbf38e8a73b902de03f578d50,
  0xbf8247cbbd0e1e71bf3a87a0bf37ae14bce21965bf322d0e3aaa64c33f547454,
  0xbf7ee5363c8389f8bf3a87a03f31ff2ebb16bb99bf37fcb93b51b7173f520c4a,
  0xbf8214d73daf4624bf3a87a0bf3809d53d6b1c43bf3154ca3a83126f3f4ed917,
  0xbf7d95893ddffa3cbf3a87a03f310cb3bd961e4fbf37ef9e3b5844d03f4dab9f,
  0xbf7ed7523e67e77dbf3a87a0bf3474543e1bda51bf315b573b1d49523f4837b5,
  0xbf78fe483e6476b0bf3a87b13f2cb924be1c779abf38db8c3b96bb993f4851ec,
  0xbf769cdc3ead8299bf3a8790bf2df3b63e6dab9fbf322d0e3ba0902e3f42e48f,
  0xbf6ec40d3eb6f34dbf3a87a03f257a78be793dd9bf391d153bff97243f41ff2e,
  0xbf6d9b0b3edaa433bf3a8790bf270a3d3e99652cbf32339c3bff97243f3eb852,
  0xbf5fc4093ef83105bf3a87a03f1b089abeaa233abf391d153c51b7173f3be76d,
  0xbf5f55ac3f08a149bf3a8790bf1d91683ec08312bf3154ca3c51b7173f39a027,
  0xbf4c4f6e3f1a43aabf3a87a03f0d70a4bed43958bf391d153ca0902e3f363f14,
  0xbf4a4ca53f2662dcbf3a8790bf0f62b73ee89a02bf315b573ca4a8c13f3404ea,
  0xbf34cc363f355cd9bf3a87a03efb573fbef97f63bf38e2193ce48e8a3f31205c,
  0xbf35f70e3f3c5543bf3a87b1bf0055323f039581bf32339c3cdfa4403f2fd220,
  0xbf23bb0e3f4c65a5bf3a87b1bee594af3f0f4880bf32680a3d0a71de3f2cbfb1,
  0xbf1e0c9e3f4965b2bf3a87c23edd07c8bf0b7e91bf3803473d1374bc3f2d3c36,
  0xbf1017123f5aae19bf3a87a0bec9e1b13f195e9ebf32680a3d2786c23f29fbe7,
  0xbf0a91753f5740e6bf3a87c23ebf6fd2bf161e4fbf37f62b3d3020c53f2a8c15,
  0xbef654713f6717adbf3a87a0beab1c433f22b6aebf3226813d46a7f03f2786c2,
  0xbee1ca193f65d873bf3a87a03e9b7e91bf1f5c29bf38a71e3d56a1623f27b4a2,
  0xbebe6fb53f73fef4bf3a87a0be8418933f2c6a7fbf3154ca3d70d8453f24fdf4,
  0xbea9a21f3f716a16bf3a87a03e6a3055bf27e282bf3831273d8068dc3f255326,
  0xbe718f3f3f7ebb66bf3a87b1be27a0f93f33fe5dbf3126e93d92a3053f22bd3c,
  0xbe6212943f7990e2bf3a87b13e16872bbf2d0e56bf38db8c3d95e9e23f23a29c,
  0xbdc32a8d3f823d60bf3a87a0bd87fcb93f37ced9bf315b573dae147b3f2161e5,
  0xbda81ecd3f7ed83cbf3a87a03d6353f8bf307c85bf38e8a73db0be0e3f22617c,
  0x3cb051013f82a26ebf3a87a03c8ce7043f37bb30bf32339c3dc4d0143f20ebee,
  0x3d14ed2d3f7f3d29bf3a87a0bcdd2f1bbf31de6abf37fcb93dc816f03f21ff2e,
  0x3dee57973f81bac3bf3a87b13db1c4333f363f14bf32680a3dd7a7873f210cb3,
  0x3e04b09f3f7d1373bf3a87b1bdc3c9efbf30902ebf37bb303dda511a3f222d0e,
  0x3e5718a83f7f620fbf3a87b13e1cc63f3f335a86bf32680a3dea161e3f219653,
  0x3e62b3cc3f78adcdbf3a87b1be240b78bf2d7dbfbf37bb303dec8b443f22ca58,
  0x3e9a59193f791be7bf3a87b13e5f212d3f2ee632bf32680a3dfc50483f2288ce,
  0x3e9f3b863f7219dbbf3a8790be66b50bbf2872b0bf37ef9e3dfe5c923f23c9ef,
  0x3ec7f51f3f70a41abf3a87903e8fdf3b3f28ef35bf32617c3e0710cb3f23e426,
  0x3ed602c93f6723abbf3a87a0be9837b5bf2020c5bf38adac3e09d4953f259b3d,
  0x3ef3bd163f66147bbf3a87a03eaf00693f216f00bf32617c3e0f90973f25a1cb,
  0x3f0594293f58620bbf3a8790bebd7dbfbf167a10bf382a993e1460aa3f280347,
  0x3f0eac213f5980e5bf3a87903ecc710d3f187fccbf32680a3e17c1be3f27bb30,
  0x3f1d96963f475bb4bf3a87a0bededfa4bf09e83ebf38a71e3e1dcc643f2af4f1,
  0x3f2235c63f4b09a6bf3a87903ee809d53f0e48e9bf32680a3e1f8a093f2a36e3,
  0x3f344dcb3f3ad2ddbf3a87a03f00d1b73f02d0e5bf32680a3e26cf423f2d013b,
  0x3f33edc83f32d880bf3a8790befe9e1bbef837b5bf3831273e26cf423f2e76c9,
  0x3f44c6933f290082bf3a87d33f0c779a3eec56d6bf326e983e2d5cfb3f301a37,
  0x3f47505d3f1ca07fbf3a87b1bf0ce076bed6ae7dbf38db8c3e2e7d563f32617c,
  0x3f5386f43f15b542bf3a87a03f16fd223ed0ff97bf325aee3e3367a13f3381d8,
  0x3f5b1c973efd6755bf3a87a0bf1a0275beadd2f2bf3916873e36ae7d3f37a787,
  0x3f606af43f010e13bf3a87b13f2013a93eb3b646bf326e983e38bac73f372b02,
  0x3f6b4afd3ed6c28bbf3a87a03f2851ec3e93d07dbf322d0e3e3d3c363f3b020c,
  0x3f6a7ce13ebc95c0bf3a87a0bf24b5ddbe81ff2ebf38e2193e3d21ff3f3d70a4,
  0x3f7639f73e9d0c1cbf3a87a03f30346e3e59b3d0bf3189373e41d7dc3f40346e,
  0x3f73b02d3e82d0e5bf3a87b1bf2c2268be31a9fcbf3837b53e413a933f4295ea,
  0x3f7d421c3e45b20cbf3a87b13f34f0d83e058794bf31f8a13e4538ef3f456d5d,
  0x3f797cb33e120792bf3a87a0bf2fa440bdbf7ceebf38b4393e43e4263f47d567,
  0x3f8096e63d9719f8bf3a87a03f3809d53d401a37bf318fc53e472b023f4af4f1,
  0x3f7bac823cc76f2abf3a87a0bf31c433bc3fb15bbf3831273e4553263f4d4fdf,
  0x3f80a194bd30c240bf3a87a03f3793debd0c154dbf32339c3e47c84b3f5068dc,
  0x3f7a8c05bdb9a73bbf3a87a0bf3020c53d93dd98bf38db8c3e4553263f52b021,
  0x3f7ee2cabe0ce465bf3a87a03f35aee6bdd3f7cfbf32680a3e475f703f54d6a1,
  0x3f747054be6a2a0bbf3a87b1bf2c08313e275254bf38e8a73e43afb83f5930be,
  0x3f7a40c8be6c5932bf3a87a03f32680abe2d9168bf32680a3e45f06f3f593dd9,
  0x3f736bc2bea4bb1bbf3a87b13f2d9168be6f837bbf32680a3e43c9ef3f5d8adb,
  0x3f6b4b94beaf03d1bf3a87c2bf26bb993e793dd9bf37fcb93e40b7803f5e8a72,
  0x3f6a6c5dbed1e8a3bf3a87b13f273190be97dbf5bf32617c3e40b7803f61bda5,
  0x3f61c832bedae3e7bf3a87a0bf2000003e9d21ffbf37bb303e3d8adb3f62a305,
  0x3f5f55bdbefd2f1bbf3a87a03f1f4f0ebeb65fd9bf326e983e3ced913f65c91d,
  0x3f564031bf025ebbbf3a87c2bf17dbf53eba9fbebf37c1be3e3972473f668db9,
  0x3f524ef0bf1315e8bf3a87a03f1624ddbed367a1bf32617c3e3837b53f69a027,
  0x3f48c75cbf162457bf3a8790bf0e69ad3ed66cf4bf37bb303e34a2343f6a43fe,
  0x3f436827bf264452bf3a87a03f0b851fbeeecbfbbf325aee3e32e48f3f6d3c36,
  0x3f397f63bf28904fbf3a87a0bf0318fc3ef0f27cbf37ef9e3e2f1aa03f6dbf48,
  0x3f32bf55bf37f51fbf3a87903eff62b7bf03dd98bf326e983e2cd9e83f709d49,
  0x3f24795fbf3d3b19bf3a87b1bee83e423f05fd8bbf38a71e3e276c8b3f71a9fc,
  0x3f208a8bbf4807eebf3a87a03ee5c91dbf0f3b64bf32617c3e2631f93f73b646,
  0x3f0c5693bf4f9ebfbf3a87c2bec8a71e3f12fec5bf3809d53e1e83e43f753f7d,
  0x3f0cda90bf5659f3bf3a877f3ec9d495bf19652cbf32617c3e1ed2893f767a10,
  0x3eefd1ddbf5c0f88bf3a87b1beaaf4f13f1c710dbf37bb303e16f0073f77b4a2,
  0x3eeff38cbf62b9f5bf3a87a03eac2f83bf222d0ebf32680a3e170a3d3f78e8a7,
  0x3ec4c9ebbf6688f0bf3a87a0be8cbfb13f23c9efbf37bb303e0ed9173f79ce07,
  0x3ec4052dbf6d198bbf3a87a03e8d1b71bf297f63bf32680a3e0ed9173f7afb7f,
  0x3e97f51fbf6ef08dbf3a87b1be57c1be3f29ad43bf37f62b3e0673823f7b851f,
  0x3e964eadbf75614ebf3a87b13e59652cbf2f62b7bf32617c3e063f143f7cb296,
  0x3e3de2efbf766d8bbf3a87b1be08ce703f2dfa44bf38a71e3df731903f7d14e4,
  0x3e4e7d56bf7b7a3ebf3a87b13e16bb99bf33afb8bf32680a3dfaacda3f7e00d2,
  0x3ddd4c77bf7f583abf3a87a03da5e354bf366cf4bf32680a3de872b03f7eecc0,
  0x3d8ad602bf7a65bfbf3a87a0bd6147ae3f316f00bf37fcb93de075f73f7e1b09,
  0xbd0ab820bf7b023f3c58f4f93c9eecc03f322d0e3f37bb303e9780343f21ff2e,
  0x3cb17482bf8073a33c58f4f93ca2339cbf3786c23f32680a3e9a43fe3f210cb3,
  0x3d73fa6ebf7a8bf43c58f0c7bd4779a73f319ce03f37ef9e3e9c0ebf3f224dd3,
  0xbd95e9e2bf8037933c58f0c7bd4bfb16bf3758e23f323a2a3e959b3d3f20ebee,
  0x3dee6645bf7f17df3c58f0c73db1f8a1bf363f143f32680a3e9eecc03f219653,
  0x3e32131bbf76fe2e3c58ec96be0189373f2e56043f38a71e3ea1a36e3f2339c1,
  0x3e56e3f8bf7b075b3c58f4f93e1cac08bf335a863f32680a3ea36e2f3f2288ce,
  0x3e9a6784bf74bc5a3c58f92b3e5f559bbf2eecc03f32680a3ea7e2823f23e426,
  0x3e93e857bf6f93bc3c58f4f9be5168733f2a233a3f37fcb93ea7381d3f24c986,
  0x3ec7f9f8bf6c42b73c58f0c73e8fdf3bbf28e8a73f32680a3eac2f833f25a1cb,
  0x3ec0eac0bf675c293c58f0c7be89fbe73f245a1d3f37c1be3eab78033f267a10,
  0x3ef3bd16bf61b6b33c58f4f93eaecbfbbf21758e3f32680a3eb048173f27bb30,
  0x3eec16bebf5d118c3c58d36bbea872b03f1d21ff3f37b4a23eaf837b3f288ce7,
  0x3f0ea759bf5529243c5912553ecc63f1bf188ce73f32617c3eb42c3d3f2a3055,
  0x3f0a90efbf50c9863c591eebbec60aa63f13f7cf3f37ef9e3eb35a863f2af4f1,
  0x3f223359bf46af8a3c5912553ee809d5bf0e425b3f326e983eb7c1be3f2d013b,
  0x3f223498bf3f2d1b3c58f4f9bee56d5d3f073eab3f38a0903eb7a7873f2e69ad,
  0x3f344b5ebf3677813c594d0e3f00cb29bf02c3ca3f3275253ebb15b53f3020c5,
  0x3f381030bf2a1eb43c58f0c7bf01f8a13ef374bc3f37e9103ebbb2ff3f32680a,
  0x3f44c8efbf249df13c5912553f0c7e28beec49ba3f326e983ebe1b093f3381d8,
  0x3f47822cbf17d45a3c591255bf0d7dbf3ed8bac73f37c1be3ebe83e43f35dcc6,
  0x3f538a8fbf1150553c5912553f16f694bed0f27c3f32680a3ec0b7803f372b02,
  0x3f552296bf0429283c58d36bbf172b023ebd2f1b3f37a7873ec0ebee3f39930c,
  0x3f606888bef96f003c59018e3f2013a9beb3d07d3f32680a3ec305533f3b089a,
  0x3f60d962bedea8973c591255bf1f4f0e3e9fcb923f37c84b3ec2f8383f3d7732,
  0x3f6b4cc2becdfd693c58f4f93f27d567be94fdf43f32617c3ec4ea4b3f3f1412,
  0x3f6a8922beb2f6403c58f0c7bf2638863e7f62b73f37ef9e3ec4a8c13f418937,
  0x3f741b97bea0ae323c58f4f93f2e075fbe69e1b13f32680a3ec666663f4346dc,
  0x3f73b43ebe75c7ce3c58f4f9bf2b98c83e2f00693f38e2193ec617c23f46bb99,
  0x3f7abffdbe6405f73c58e4323f32c3cabe27bb303f32617c3ec779a73f479a6b,
  0x3f7f2fdcbe046ae43c58f0c73f35e354bdc816f03f32617c3ec816f03f4bfb16,
  0x3f7a3ab0bdd177213c58f0c7bf2fdf3b3da36e2f3f38e8a73ec703b03f4d35a8,
  0x3f80ae75bd0e6f2f3c58f0c73f37ae14bce2eb1c3f322d0e3ec84b5e3f5068dc,
  0x3f7bb2ee3c83d1463c58f4f9bf31cac1bb9d49523f3831273ec710cb3f52bd3c,
  0x3f807b913daf4f943c58f0c73f37e9103d5e69ad3f318fc53ec7e2823f560419,
  0x3f79dfec3e062b6b3c58f4f9bf2fa440bdb53f7d3f38db8c3ec673823f5816f0,
  0x3f7cdbad3e4e21d93c58f92b3f349ba63e0cb2963f31ff2e3ec6dc5d3f5b645a,
  0x3f72ece13e8977c93c58f0c7bf2b089abe3780343f38e2193ec4c2f83f5e703b,
  0x3f7550db3ea2d6243c58f0c73f2f9db23e60f9093f318fc53ec51eb83f60c49c,
  0x3f691cf33ec2db623c58c6d6bf24c986be85a1cb3f382a993ec2b6ae3f639581,
  0x3f6a69593edab29e3c58d36b3f279a6b3e96d5d03f32339c3ec2d0e53f65c91d,
  0x3f5c90933ef835bd3c58d79dbf1adababeab923a3f38ef353ec000003f6851ec,
  0x3f5f5bc43f02ebb33c58c6d63f1f5c293eb66cf43f32617c3ec083123f69a027,
  0x3f524c943f1773b03c5940793f1611343ed35a863f3275253ebdd97f3f6d3c36,
  0x3f491dbd3f1a427c3c58f4f9bf0e147bbed38ef33f38d4fe3ebc01a33f6da512,
  0x3f43635e3f2aa4763c5912553f0b7e913eeea4a93f3275253ebac7113f709d49,
  0x3f35668c3f3153ac3c58b60fbf0096bcbef5cfab3f381d7e3eb810623f71b717,
  0x3f32c42f3f3c52e73c592fb23eff559b3f03d70a3f327bb33eb773193f73b646,
  0x3f1fe75c3f4576de3c58e864bee1d7dcbf08c1553f38a0903eb3c3613f752bd4,
  0x3f20882f3f4c63493c58f0c73ee5a1cb3f0f41f23f32680a3eb3d07d3f767a10,
  0x3f0cdf593f5ab1b33c591eeb3ec9d4953f194af53f3275253eafec573f78e8a7,
  0x3f075c293f5743423c58e432bec08312bf1581063f382a993eaee6323f783e42,
  0x3eefeeb33f6718db3c58c6d63eac49ba3f222d0e3f325aee3eabd3c33f7afb7f,
  0x3edb645a3f65d7453c58e432be9b7176bf1f62b73f38a71e3ea9d4953f7aa64c,
  0x3ec3f6c23f7179af3c591eeb3e8d013b3f2978d53f3275253ea786c23f7cb296,
  0x3ea339e23f716aad3c58ec96be6cf41fbf27e2823f37f62b3ea45a1d3f7c8b44,
  0x3e963b8a3f79c0db3c5909f23e59652c3f2f559b3f326e983ea3126f3f7e00d2,
  0x3e6aeee93f782edc3c58fd5dbe29c77abf2d21ff3f37bb303e9ff2e53f7d97f6,
  0x3e4eb7023f7fd5453c59018e3e16d5d03f33afb83f32680a3e9e83e43f7eecc0,
  0x3e0d0d8d3f7cc7083c58f4f9bdcf7660bf305bc03f37c1be3e9b645a3f7e3bcd,
  0x3ddd43073f81daf03c58ec963da5aee63f3673823f32617c3e99db233f7f6944,
  0x3d36b3bc3f7f239a3c58f4f9bd08ce70bf31d7dc3f37ef9e3e96c8b43f7e703b,
  0x3c5738613f82a8d23c58f0c73c2f4f0e3f37ced93f322d0e3e9532613f7f837b,
  0xbd903c8e3f7f0e6f3c58f4f93d43c9efbf30aa653f38db8c3e9126e93f7e2196,
  0xbddb5fa23f8218f83c58f4f9bd982a993f37a7873f3154ca3e8f4f0e3f7f0069,
  0xbe564e8b3f7a33ce3c58ec963e0ebee0bf2d6a163f38e8a73e8a64c33f7cf41f,
  0xbe7d5f573f7e06fb3c58ec96be30068e3f3381d83f3126e93e887fcc3f7d9168,
  0xbea5a3a13f7219443c58cf3a3e638866bf28793e3f38240b3e84dd2f3f7b4396,
  0xbec416df3f72e1ac3c58fd5dbe87d5673f2b9f563f3161e53e81f2133f7b3d08,
  0xbedc6ae43f6723143c5909f23e981d7ebf201a373f38b4393e7f7cee3f78fc50,
  0xbefa19443f66134d3c58c6d6beae147b3f21f2133f3226813e79c0ec3f78b439,
  0xbf08c49c3f5865a53c5912553ebc91d1bf16e2eb3f3810623e758e223f761e4f,
  0xbf11e16d3f597d4a3c58c6d6becc63f13f1893753f325aee3e71f8a13f763f14,
  0xbf1c5f073f4ab2183c58f4f93eda9fbebf0c91d13f37e9103e6e48e93f7374bc,
  0xbf256b123f4b0ae53c592fb2bee7ef9e3f0e48e93f3275253e6acd9f3f736e2f,
  0xbf32aa3b3f3778dd3c58dbcf3ef8793ebefc50483f38e2193e6617c23f6fb7e9,
  0xbf377bd03f3ad7a53c58b60fbf019ce03f026e983f321ff33e6425af3f705532,
  0xbf4c33d73f2404da3c58f92bbf109d493ee560423f3161e53e5cac083f6bf488,
  0xbf4a80393f1ca5483c58cb083f0c3c9fbed79a6b3f390ff93e5d7dbf3f6aa64c,
  0xbf60e5d63f0604e23c59231cbf1e83e43ebd07c83f3168733e554c983f6652bd,
  0xbf5e4e383efd6c2f3c58f0c73f1a0f91beadd2f23f390ff93e566cf43f650481,
  0xbf6e7c9e3ed6c28b3c59018ebf27b4a23e9652bd3f323a2a3e507c853f6161e5,
  0xbf6db1853ebc87553c58f0c73f24bc6abe80902e3f391d153e5119ce3f5ef9db,
  0xbf774c0a3ea975d13c58cb08bf2e83e43e67381d3f3226813e4d844d3f5d288d,
  0xbf7854583e7016ce3c58ec963f2c3c9fbe240b783f38e8a73e4db8bb3f58a71e,
  0xbf7f7a2d3e5c01e73c58f4f9bf34e3bd3e13f7cf3f3154ca3e4b0f283f57ae14,
  0xbf7d5c533df0c6f83c58ec963f30d845bda305533f37fcb93e4c2f833f532618,
  0xbf8230343d9700ce3c58f4f9bf382a993d4ac0833f315b573e49d4953f510cb3,
  0xbf7edeca3cc725c43c58f0c73f3205bcbc0e8a723f37ef9e3e4c154d3f4ecbfb,
  0xbf823aebbd3074a73c58f4f9bf3793debd0c154d3f32339c3e4a3d713f4b98c8,
  0xbf7dbe5ebdb9b34a3c58f0c73f3020c53d93dd983f38db8c3e4d1b713f497247,
  0xbf810ab3be0cdd513c58fd5dbf35a858bdd3f7cf3f32680a3e4b923a3f47381d,
  0xbf77a190be6a3ad23c58f0c73f2c0ebf3e2752543f38e2193e5013a93f430be1,
  0xbf7d74d6be6c3c9f3c58fd5dbf32617cbe2d91683f32680a3e4db8bb3f42e48f,
  0xbf769b07bea4d09a3c58e432bf2d8adbbe6fb7e93f32617c3e50cb293f3eb1c4,
  0xbf6e7dddbeaf03d13c58dbcf3f26c2273e7923a33f37f62b3e53f7cf3f3dd97f,
  0xbf6d9c39bed1ed7c3c58e432bf273190be97ced93f32617c3e54af4f3f3aacda,
  0xbf64fb12bedae89f3c59018e3f1ff2e53e9d21ff3f37c84b3e5810623f39eecc,
  0xbf6289dbbefd2f1b3c58f4f9bf1f559bbeb65fd93f326e983e594af53f36cf42,
  0xbf597311bf025c4f3c58d36b3f17e2823ebaacda3f37bb303e5ce0763f363886,
  0xbf55856abf13111f3c58b60fbf15dcc6bed50b0f3f321ff33e5e9e1b3f333333,
  0xbf4bf90ebf1621ea3c58b60f3f0e76c93ed67a103f37ae143e62680a3f32b6ae,
  0xbf42643dbf2b38b43c590e24bf08d4febef803473f314e3c3e66809d3f2f0069,
  0xbf3cb242bf2892bc3c594d0e3f030be13ef0cb293f3809d53e688ce73f2f7cee,
  0xbf27ab11bf3d3c583c58f0c73ee84b5e3f060aa63f389a023e710cb33f2bedfa,
  0xbf2827d9bf448d8f3c591ab9beee48e9bf0cf41f3f3168733e70f27c3f2a9931,
  0xbf0f8705bf4f9d803c58d36b3ec8a71e3f131f8a3f37e9103e7a92a33f28c155,
  0xbf101238bf5656583c591eebbecb0f28bf1923a33f3240b83e7a786c3f2786c2,
  0xbef637bdbf5c10b63c58d36b3eab0f283f1c63f13f37c1be3e8147ae3f26a7f0,
  0xbef6594bbf62b8b73c58f4f9beac3c9fbf221ff33f32680a3e8154ca3f2573eb,
  0xbecb2fa9bf6688593c5912553e8cb2963f23c3613f37c1be3e8587943f24f0d8,
  0xbeca6fa4bf6d184c3c58f4f9be8d288dbf2985f03f32617c3e85a1cb3f23bcd3,
  0xbe9e5626bf6ef08d3c5909f23e5a6b513f29ad433f37c1be3e89e1b13f239c0f,
  0xbe9cb210bf75614e3c59018ebe56bb99bf2fd2203f3226813e8a161e3f226e98,
  0xbe606291bf752d663c58f0c73e19652c3f2e147b3f37bb303e8e63203f22a993,
  0xbe41b5c8bf7cdaf53c58f92bbe05bc02bf3559b43f318fc53e8fec573f215b57,
  0xbe02174cbf7936613c58f0c73dae147b3f30ebee3f37bb303e92e48f3f221ff3,
  0xbcd1dcd7bf7b0f06bf3a87a03c5ed2893f323a2abf37bb303e970a3d3e800000,
  0x3d73fa6ebf7a8bf43c58f0c7bd4779a73f319ce03f37ef9e3e65119d3e7367a1,
  0x3d8ad602bf7a65bfbf3a87a0bd6147ae3f316f00bf37fcb93e96f0073e722d0e,
  0xbd0ab820bf7b023f3c58f4f93c9eecc03f322d0e3f37bb303e65460b3e809d49,
  0xbdf36b4cbf797625bf3a87a03da2339c3f3119cebf37bb303e9724743e852bd4,
  0xbe02174cbf7936613c58f0c73dae147b3f30ebee3f37bb303e6560423e852bd4,
  0xbe581dc1bf759f90bf3a87a03e138ef33f2e6320bf37bb303ebcd35b3ce8a71e,
  0xbe02174cbf7936613c58f0c73dae147b3f30ebee3f37bb303e9886593c83e426,
  0xbdf36b4cbf797625bf3a87a03da2339c3f3119cebf37bb303ebced913c75c28f,
  0xbe606291bf752d663c58f0c73e19652c3f2e147b3f37bb303e986c223cf1a9fc,
  0xbe9a4bbabf6f93bcbf3a87b13e54c9863f2a233abf37bb303ebcc63f3d2ee632,
  0xbe9e5626bf6ef08d3c5909f23e5a6b513f29ad433f37c1be3e9851ec3d33d07d,
  0xbec74949bf675c29bf3a87903e89eecc3f246738bf37b4a23ebcac083d6cbfb1,
  0xbecb2fa9bf6688593c5912553e8cb2963f23c3613f37c1be3e9844d03d7212d7,
  0xbef28156bf5d12babf3a87a03ea9374c3f1ca57abf37f62b3ebc9eed3d96bb99,
  0xbef637bdbf5c10b63c58d36b3eab0f283f1c63f13f37c1be3e982a993d99999a,
  0xbf12643dbf4dca19bf3a87903ecadaba3f117c1cbf38a0903ebc91d13dc01a37,
  0xbf0f8705bf4f9d803c58d36b3ec8a71e3f131f8a3f37e9103e982a993dbafb7f,
  0xbf27ab11bf3d3c583c58f0c73ee84b5e3f060aa63f389a023e981d7e3de69ad4,
  0xbf2a2707bf3ae31dbf3a87c23eebd3c33f0559b4bf37fcb93ebc84b63debb98c,
  0xbf3b456bbf2a1eb4bf3a87d33f028f5c3ef288cebf37ced93ebc84b63e075f70,
  0xbf3cb242bf2892bc3c594d0e3f030be13ef0cb293f3809d53e981d7e3e08ce70,
  0xbf4ab50bbf17d1eebf3a87c23f0d844d3ed8bac7bf37c1be3ebc84b63e18e219,
  0xbf4bf90ebf1621ea3c58b60f3f0e76c93ed67a103f37ae143e981d7e3e1a511a,
  0xbf5857d1bf042928bf3a87c23f1717593ebd07c8bf37c1be3ebc84b63e2a3055,
  0xbf597311bf025c4f3c58d36b3f17e2823ebaacda3f37bb303e981d7e3e2b851f,
  0xbf6409d5bedea897bf3a87a03f1f62b73e9fcb92bf37b4a23ebc91d13e3b15b5,
  0xbf64fb12bedae89f3c59018e3f1ff2e53e9d21ff3f37c84b3e982a993e3c84b6,
  0xbf6dbca9beb2f3e4bf3a87b13f2631f93e7f7ceebf37ef9e3ebc9eed3e4bac71,
  0xbf6e7dddbeaf03d13c58dbcf3f26c2273e7923a33f37f62b3e9837b53e4d013b,
  0xbf76e5bdbe75daf0bf3a87b13f2b98c83e2f0069bf38db8c3ebcac083e5f3b64,
  0xbf77a190be6a3ad23c58f0c73f2c0ebf3e2752543f38e2193e9844d03e611340,
  0xbf7d6d4cbdd17269bf3a87a03f2fdf3b3da36e2fbf38e8a73ebcd35b3e7573eb,
  0xbf7dbe5ebdb9b34a3c58f0c73f3020c53d93dd983f38db8c3e986c223e771759,
  0xbf7ee5363c8389f8bf3a87a03f31ff2ebb16bb99bf37fcb93ebced913e8346dc,
  0xbf7edeca3cc725c43c58f0c73f3205bcbc0e8a723f37ef9e3e9886593e83c9ef,
  0xbf7d95893ddffa3cbf3a87a03f310cb3bd961e4fbf37ef9e3ee9ad433ebc6a7f,
  0xbf7edeca3cc725c43c58f0c73f3205bcbc0e8a723f37ef9e3ec560423eb7dbf5,
  0xbf7ee5363c8389f8bf3a87a03f31ff2ebb16bb99bf37fcb93ee9c77a3eb7f62b,
  0xbf7d5c533df0c6f83c58ec963f30d845bda305533f37fcb93ec5460b3ebce076,
  0xbf78fe483e6476b0bf3a87b13f2cb924be1c779abf38db8c3ee9930c3ec4d014,
  0xbf7854583e7016ce3c58ec963f2c3c9fbe240b783f38e8a73ec51eb83ec5a1cb,
  0xbf6ec40d3eb6f34dbf3a87a03f257a78be793dd9bf391d153ee96bba3ecff972,
  0xbf6db1853ebc87553c58f0c73f24bc6abe80902e3f391d153ec4f7663ed0e560,
  0xbf5fc4093ef83105bf3a87a03f1b089abeaa233abf391d153ee951833edc01a3,
  0xbf5e4e383efd6c2f3c58f0c73f1a0f91beadd2f23f390ff93ec4dd2f3edcfaad,
  0xbf4c4f6e3f1a43aabf3a87a03f0d70a4bed43958bf391d153ee9374c3ee8a71e,
  0xbf4a80393f1ca5483c58cb083f0c3c9fbed79a6b3f390ff93ec4d0143ee9ad43,
  0xbf34cc363f355cd9bf3a87a03efb573fbef97f63bf38e2193ee92a303ef5a858,
  0xbf32aa3b3f3778dd3c58dbcf3ef8793ebefc50483f38e2193ec4c2f83ef6ae7d,
  0xbf1e0c9e3f4965b2bf3a87c23edd07c8bf0b7e91bf3803473ee92a303f005bc0,
  0xbf1c5f073f4ab2183c58f4f93eda9fbebf0c91d13f37e9103ec4c2f83f00b0f2,
  0xbf0a91753f5740e6bf3a87c23ebf6fd2bf161e4fbf37f62b3ee9374c3f04af4f,
  0xbf08c49c3f5865a53c5912553ebc91d1bf16e2eb3f3810623ec4c2f83f050b0f,
  0xbee1ca193f65d873bf3a87a03e9b7e91bf1f5c29bf38a71e3ee944673f09eecc,
  0xbedc6ae43f6723143c5909f23e981d7ebf201a373f38b4393ec4d0143f0a6b51,
  0xbea9a21f3f716a16bf3a87a03e6a3055bf27e282bf3831273ee951833f0f27bb,
  0xbea5a3a13f7219443c58cf3a3e638866bf28793e3f38240b3ec4ea4b3f0f7cee,
  0xbe6212943f7990e2bf3a87b13e16872bbf2d0e56bf38db8c3ee96bba3f13f7cf,
  0xbe564e8b3f7a33ce3c58ec963e0ebee0bf2d6a163f38e8a73ec504813f146738,
  0xbda81ecd3f7ed83cbf3a87a03d6353f8bf307c85bf38e8a73ee985f03f196bba,
  0xbd903c8e3f7f0e6f3c58f4f93d43c9efbf30aa653f38db8c3ec51eb83f19ce07,
  0x3d14ed2d3f7f3d29bf3a87a0bcdd2f1bbf31de6abf37fcb93ee9ad433f1d97f6,
  0x3d36b3bc3f7f239a3c58f4f9bd08ce70bf31d7dc3f37ef9e3ec5460b3f1dd2f2,
  0x3e04b09f3f7d1373bf3a87b1bdc3c9efbf30902ebf37bb303ee9c77a3f1ff972,
  0x3e0d0d8d3f7cc7083c58f4f9bdcf7660bf305bc03f37c1be3ec560423f1ff2e5,
  0x3e62b3cc3f78adcdbf3a87b1be240b78bf2d7dbfbf37bb303e62339c3cadab9f,
  0x3e0d0d8d3f7cc7083c58f4f9bdcf7660bf305bc03f37c1be3e197f633c22339c,
  0x3e04b09f3f7d1373bf3a87b1bdc3c9efbf30902ebf37bb303e62680a3c0ce704,
  0x3e6aeee93f782edc3c58fd5dbe29c77abf2d21ff3f37bb303e194af53cb851ec,
  0x3e9f3b863f7219dbbf3a8790be66b50bbf2872b0bf37ef9e3e61ff2e3d0e2196,
  0x3ea339e23f716aad3c58ec96be6cf41fbf27e2823f37f62b3e1916873d13dd98,
  0x3ed602c93f6723abbf3a87a0be9837b5bf2020c5bf38adac3e61cac13d57dbf5,
  0x3edb645a3f65d7453c58e432be9b7176bf1f62b73f38a71e3e18e2193d600d1b,
  0x3f0594293f58620bbf3a8790bebd7dbfbf167a10bf382a993e6196533d941206,
  0x3f075c293f5743423c58e432bec08312bf1581063f382a993e18adac3d9758e2,
  0x3f1d96963f475bb4bf3a87a0bededfa4bf09e83ebf38a71e3e617c1c3dbd07c8,
  0x3f1fe75c3f4576de3c58e864bee1d7dcbf08c1553f38a0903e1893753dc1bda5,
  0x3f33edc83f32d880bf3a8790befe9e1bbef837b5bf3831273e6161e53de872b0,
  0x3f35668c3f3153ac3c58b60fbf0096bcbef5cfab3f381d7e3e1893753debedfa,
  0x3f47505d3f1ca07fbf3a87b1bf0ce076bed6ae7dbf38db8c3e6161e53e09ba5e,
  0x3f491dbd3f1a427c3c58f4f9bf0e147bbed38ef33f38d4fe3e1893753e0c154d,
  0x3f5b1c973efd6755bf3a87a0bf1a0275beadd2f2bf3916873e6161e53e23d70a,
  0x3f5c90933ef835bd3c58d79dbf1adababeab923a3f38ef353e1893753e2631f9,
  0x3f6a7ce13ebc95c0bf3a87a0bf24b5ddbe81ff2ebf38e2193e617c1c3e3d8adb,
  0x3f691cf33ec2db623c58c6d6bf24c986be85a1cb3f382a993e18adac3e3b4a23,
  0x3f72ece13e8977c93c58f0c7bf2b089abe3780343f38e2193e18e2193e504817,
  0x3f73b02d3e82d0e5bf3a87b1bf2c2268be31a9fcbf3837b53e61b08a3e5288ce,
  0x3f797cb33e120792bf3a87a0bf2fa440bdbf7ceebf38b4393e61e4f73e65e354,
  0x3f79dfec3e062b6b3c58f4f9bf2fa440bdb53f7d3f38db8c3e1916873e67ef9e,
  0x3f7bac823cc76f2abf3a87a0bf31c433bc3fb15bbf3831273e6219653e78a090,
  0x3f7bb2ee3c83d1463c58f4f9bf31cac1bb9d49523f3831273e194af53e7a0f91,
  0x3f7a8c05bdb9a73bbf3a87a0bf3020c53d93dd98bf38db8c3e62680a3e83d70a,
  0x3f7a3ab0bdd177213c58f0c7bf2fdf3b3da36e2f3f38e8a73e19999a3e8432ca,
  0x3f747054be6a2a0bbf3a87b1bf2c08313e275254bf38e8a73e96fd223cca57a8,
  0x3f7a3ab0bdd177213c58f0c7bf2fdf3b3da36e2f3f38e8a73e6560423c20902e,
  0x3f7a8c05bdb9a73bbf3a87a0bf3020c53d93dd98bf38db8c3e9717593c0e8a72,
  0x3f73b43ebe75c7ce3c58f4f9bf2b98c83e2f00693f38e2193e65119d3cd844d0,
  0x3f6b4b94beaf03d1bf3a87c2bf26bb993e793dd9bf37fcb93e96d5d03d2ee632,
  0x3f6a8922beb2f6403c58f0c7bf2638863e7f62b73f37ef9e3e64dd2f3d343958,
  0x3f61c832bedae3e7bf3a87a0bf2000003e9d21ffbf37bb303e96c8b43d6cbfb1,
  0x3f60d962bedea8973c591255bf1f4f0e3e9fcb923f37c84b3e64a8c13d727bb3,
  0x3f564031bf025ebbbf3a87c2bf17dbf53eba9fbebf37c1be3e96bb993d96872b,
  0x3f552296bf0429283c58d36bbf172b023ebd2f1b3f37a7873e648e8a3d99999a,
  0x3f48c75cbf162457bf3a8790bf0e69ad3ed66cf4bf37bb303e96ae7d3db81d7e,
  0x3f47822cbf17d45a3c591255bf0d7dbf3ed8bac73f37c1be3e6474543dbb2fec,
  0x3f397f63bf28904fbf3a87a0bf0318fc3ef0f27cbf37ef9e3e96a1623dda511a,
  0x3f381030bf2a1eb43c58f0c7bf01f8a13ef374bc3f37e9103e6474543ddd6388,
  0x3f24795fbf3d3b19bf3a87b1bee83e423f05fd8bbf38a71e3e96a1623e028f5c,
  0x3f223498bf3f2d1b3c58f4f9bee56d5d3f073eab3f38a0903e645a1d3e04d014,
  0x3f0c5693bf4f9ebfbf3a87c2bec8a71e3f12fec5bf3809d53e96a1623e18adac,
  0x3f0a90efbf50c9863c591eebbec60aa63f13f7cf3f37ef9e3e645a1d3e1a511a,
  0x3eefd1ddbf5c0f88bf3a87b1beaaf4f13f1c710dbf37bb303e96a1623e29fbe7,
  0x3eec16bebf5d118c3c58d36bbea872b03f1d21ff3f37b4a23e6474543e2b9f56,
  0x3ec4c9ebbf6688f0bf3a87a0be8cbfb13f23c9efbf37bb303e96ae7d3e3b15b5,
  0x3ec0eac0bf675c293c58f0c7be89fbe73f245a1d3f37c1be3e648e8a3e3c84b6,
  0x3e97f51fbf6ef08dbf3a87b1be57c1be3f29ad43bf37f62b3e96bb993e4bac71,
  0x3e93e857bf6f93bc3c58f4f9be5168733f2a233a3f37fcb93e64a8c13e4d1b71,
  0x3e3de2efbf766d8bbf3a87b1be08ce703f2dfa44bf38a71e3e96d5d03e5f212d,
  0x3e32131bbf76fe2e3c58ec96be0189373f2e56043f38a71e3e64dd2f3e612d77,
  0xbdc32a8d3f823d60bf3a87a0bd87fcb93f37ced9bf315b573ac49ba63e6f9db2,
  0x3c5738613f82a8d23c58f0c73c2f4f0e3f37ced93f322d0e3d954c983e7fe5c9,
  0x3cb051013f82a26ebf3a87a03c8ce7043f37bb30bf32339c3aebedfa3e808312,
  0xbddb5fa23f8218f83c58f4f9bd982a993f37a7873f3154ca3d94e3bd3e6dc5d6,
  0xbe718f3f3f7ebb66bf3a87b1be27a0f93f33fe5dbf3126e93aaa64c33e589375,
  0xbe7d5f573f7e06fb3c58ec96be30068e3f3381d83f3126e93d9446743e56a162,
  0xbebe6fb53f73fef4bf3a87a0be8418933f2c6a7fbf3154ca3a902de03e3fe5c9,
  0xbec416df3f72e1ac3c58fd5dbe87d5673f2b9f563f3161e53d93dd983e3dbf48,
  0xbef654713f6717adbf3a87a0beab1c433f22b6aebf3226813a83126f3e2a3055,
  0xbefa19443f66134d3c58c6d6beae147b3f21f2133f3226813d93a92a3e28a71e,
  0xbf1017123f5aae19bf3a87a0bec9e1b13f195e9ebf32680a3a83126f3e189375,
  0xbf11e16d3f597d4a3c58c6d6becc63f13f1893753f325aee3d93a92a3e170a3d,
  0xbf23bb0e3f4c65a5bf3a87b1bee594af3f0f4880bf32680a3a6bedfa3e06dc5d,
  0xbf256b123f4b0ae53c592fb2bee7ef9e3f0e48e93f3275253d93a92a3e055326,
  0xbf35f70e3f3c5543bf3a87b1bf0055323f039581bf32339c3a83126f3dea4a8c,
  0xbf377bd03f3ad7a53c58b60fbf019ce03f026e983f321ff33d93a92a3de7381d,
  0xbf4a4ca53f2662dcbf3a8790bf0f62b73ee89a02bf315b573a83126f3dbf1412,
  0xbf4c33d73f2404da3c58f92bbf109d493ee560423f3161e53d93dd983dbac711,
  0xbf5f55ac3f08a149bf3a8790bf1d91683ec08312bf3154ca3a9d49523d8c154d,
  0xbf60e5d63f0604e23c59231cbf1e83e43ebd07c83f3168733d9412063d87c84b,
  0xbf6d9b0b3edaa433bf3a8790bf270a3d3e99652cbf32339c3aaa64c33d456d5d,
  0xbf6e7c9e3ed6c28b3c59018ebf27b4a23e9652bd3f323a2a3d947ae13d3fb15b,
  0xbf769cdc3ead8299bf3a8790bf2df3b63e6dab9fbf322d0e3ac49ba63d072b02,
  0xbf774c0a3ea975d13c58cb08bf2e83e43e67381d3f3226813d94af4f3d0240b8,
  0xbf7ed7523e67e77dbf3a87a0bf3474543e1bda51bf315b573aded2893c809d49,
  0xbf7f7a2d3e5c01e73c58f4f9bf34e3bd3e13f7cf3f3154ca3d954c983c656042,
  0xbf8214d73daf4624bf3a87a0bf3809d53d6b1c43bf3154ca3af9096c3aebedfa,
  0xbf8230343d9700ce3c58f4f9bf382a993d4ac0833f315b573d95b5743aebedfa,
  0xbf8247cbbd0e1e71bf3a87a0bf37ae14bce21965bf322d0e3ec9a0273f79a027,
  0xbf8230343d9700ce3c58f4f9bf382a993d4ac0833f315b573eee2eb23f7d97f6,
  0xbf8214d73daf4624bf3a87a0bf3809d53d6b1c43bf3154ca3ec9c77a3f7e147b,
  0xbf823aebbd3074a73c58f4f9bf3793debd0c154d3f32339c3eee075f3f794467,
  0xbf81312bbe045c79bf3a87b1bf35e354bdc7e282bf32680a3ec985f03f75dcc6,
  0xbf810ab3be0cdd513c58fd5dbf35a858bdd3f7cf3f32680a3eeded293f7573eb,
  0xbf7df4f5be63e964bf3a87a0bf32c3cabe27a0f9bf32617c3ec978d53f71de6a,
  0xbf7d74d6be6c3c9f3c58fd5dbf32617cbe2d91683f32680a3eede00d3f71758e,
  0xbf774c0abea0c176bf3a87b1bf2e0dedbe69e1b1bf32680a3ec95e9e3f6db8bb,
  0xbf769b07bea4d09a3c58e432bf2d8adbbe6fb7e93f32617c3eedc5d63f6d4952,
  0xbf6e7e74bece071cbf3a87c2bf27ced9be950b0fbf32617c3ec951833f697247,
  0xbf6d9c39bed1ed7c3c58e432bf273190be97ced93f32617c3eedb8bb3f6902de,
  0xbf639a39bef973dabf3a87a0bf201a37beb3c361bf32680a3ec944673f65182b,
  0xbf6289dbbefd2f1b3c58f4f9bf1f559bbeb65fd93f326e983eedb8bb3f64a234,
  0xbf56c109bf114de8bf3a87b1bf16c8b4bed23a2abf322d0e3ec944673f60aa65,
  0xbf55856abf13111f3c58b60fbf15dcc6bed50b0f3f321ff33eedab9f3f603afb,
  0xbf446d0dbf28f3edbf3a87a0bf0a29c7bef4f0d8bf3154ca3ec944673f5b367a,
  0xbf42643dbf2b38b43c590e24bf08d4febef803473f314e3c3eedab9f3f5a9931,
  0xbf2a7b0bbf429585bf3a87b1bef16873bf0bb98cbf3154ca3ec951833f54a234,
  0xbf2827d9bf448d8f3c591ab9beee48e9bf0cf41f3f3168733eedb8bb3f540b78,
  0xbf11da38bf552589bf3a87a0becded29bf184b5ebf322d0e3ec95e9e3f4f3b64,
  0xbf101238bf5656583c591eebbecb0f28bf1923a33f3240b83eedc5d63f4ecbfb,
  0xbefa1e1dbf61b457bf3a87a0beaef34dbf216873bf32680a3ec96bba3f4b22d1,
  0xbef6594bbf62b8b73c58f4f9beac3c9fbf221ff33f32680a3eedd2f23f4ab9f5,
  0xbece646fbf6c43f6bf3a87b1be8ff972bf28e8a7bf32680a3ec978d53f473190,
  0xbeca6fa4bf6d184c3c58f4f9be8d288dbf2985f03f32617c3eeded293f46cf42,
  0xbea0cd42bf74bcf1bf3a87a0be5cfaadbf2f4f0ebf32339c3ec9930c3f437b4a,
  0xbe9cb210bf75614e3c59018ebe56bb99bf2fd2203f3226813eedfa443f4318fc,
  0xbe4da76ebf7c49aabf3a87a0be0d35a8bf350481bf318fc53ec9ba5e3f3f41f2,
  0xbe41b5c8bf7cdaf53c58f92bbe05bc02bf3559b43f318fc53eee21963f3ec56d,
  0xbda70868bf802446bf3a87a0bd676c8bbf373eabbf322d0e3ec9d4953f3be76d,
  0xbd95e9e2bf8037933c58f0c7bd4bfb16bf3758e23f323a2a3eee3bcd3f3bda51,
  0x3c598bf8bf807a10bf3a87a03c6075f7bf378d50bf32680a3ec52bd43eae3bcd,
  0xbd95e9e2bf8037933c58f0c7bd4bfb16bf3758e23f323a2a3ee9ba5e3eb43958,
  0xbda70868bf802446bf3a87a0bd676c8bbf373eabbf322d0e3ec553263eb4af4f,
  0x3cb17482bf8073a33c58f4f93ca2339cbf3786c23f32680a3ee9930c3eadc5d6,
  0x3ddd4c77bf7f583abf3a87a03da5e354bf366cf4bf32680a3ec5119d3ea74539,
  0x3dee6645bf7f17df3c58f0c73db1f8a1bf363f143f32680a3ee978d53ea6c227,
  0x3e4e7d56bf7b7a3ebf3a87b13e16bb99bf33afb8bf32680a3ec504813e9fd8ae,
  0x3e56e3f8bf7b075b3c58f4f93e1cac08bf335a863f32680a3ee96bba3e9f4880,
  0x3e964eadbf75614ebf3a87b13e59652cbf2f62b7bf32617c3ec4ea4b3e980347,
  0x3e9a6784bf74bc5a3c58f92b3e5f559bbf2eecc03f32680a3ee951833e9758e2,
  0x3ec4052dbf6d198bbf3a87a03e8d1b71bf297f63bf32680a3ec4dd2f3e8fc505,
  0x3ec7f9f8bf6c42b73c58f0c73e8fdf3bbf28e8a73f32680a3ee944673e8f1aa0,
  0x3eeff38cbf62b9f5bf3a87a03eac2f83bf222d0ebf32680a3ec4d0143e874539,
  0x3ef3bd16bf61b6b33c58f4f93eaecbfbbf21758e3f32680a3ee9374c3e869ad4,
  0x3f0cda90bf5659f3bf3a877f3ec9d495bf19652cbf32617c3ec4c2f83e7d3c36,
  0x3f0ea759bf5529243c5912553ecc63f1bf188ce73f32617c3ee9374c3e7bcd36,
  0x3f208a8bbf4807eebf3a87a03ee5c91dbf0f3b64bf32617c3ec4c2f83e6b851f,
  0x3f223359bf46af8a3c5912553ee809d5bf0e425b3f326e983ee92a303e6a3055,
  0x3f32bf55bf37f51fbf3a87903eff62b7bf03dd98bf326e983ec4c2f83e59ce07,
  0x3f344b5ebf3677813c594d0e3f00cb29bf02c3ca3f3275253ee92a303e58793e,
  0x3f436827bf264452bf3a87a03f0b851fbeeecbfbbf325aee3ec4d0143e483127,
  0x3f44c8efbf249df13c5912553f0c7e28beec49ba3f326e983ee9374c3e46c227,
  0x3f524ef0bf1315e8bf3a87a03f1624ddbed367a1bf32617c3ec4d0143e36ae7d,
  0x3f538a8fbf1150553c5912553f16f694bed0f27c3f32680a3ee944673e3559b4,
  0x3f5f55bdbefd2f1bbf3a87a03f1f4f0ebeb65fd9bf326e983ec4dd2f3e2594af,
  0x3f606888bef96f003c59018e3f2013a9beb3d07d3f32680a3ee951833e243fe6,
  0x3f6a6c5dbed1e8a3bf3a87b13f273190be97dbf5bf32617c3ec4f7663e14fdf4,
  0x3f6b4cc2becdfd693c58f4f93f27d567be94fdf43f32617c3ee95e9e3e13c361,
  0x3f736bc2bea4bb1bbf3a87b13f2d9168be6f837bbf32680a3ec504813e051eb8,
  0x3f741b97bea0ae323c58f4f93f2e075fbe69e1b13f32680a3ee978d53e03e426,
  0x3f7a40c8be6c5932bf3a87a03f32680abe2d9168bf32680a3ec51eb83debedfa,
  0x3f7abffdbe6405f73c58e4323f32c3cabe27bb303f32617c3ee9930c3de9ad43,
  0x3f7ee2cabe0ce465bf3a87a03f35aee6bdd3f7cfbf32680a3ec538ef3dcfaace,
  0x3f7f2fdcbe046ae43c58f0c73f35e354bdc816f03f32617c3ee9ad433dcd6a16,
  0x3f80a194bd30c240bf3a87a03f3793debd0c154dbf32339c3ec553263dba5e35,
  0x3f80ae75bd0e6f2f3c58f0c73f37ae14bce2eb1c3f322d0e3ee9c77a3dbac711,
  0x3f8096e63d9719f8bf3a87a03f3809d53d401a37bf318fc53d9ad42c3e774bc7,
  0x3f80ae75bd0e6f2f3c58f0c73f37ae14bce2eb1c3f322d0e3e16872b3e8353f8,
  0x3f80a194bd30c240bf3a87a03f3793debd0c154dbf32339c3d9b71763e83c9ef,
  0x3f807b913daf4f943c58f0c73f37e9103d5e69ad3f318fc53e1638863e75c28f,
  0x3f7d421c3e45b20cbf3a87b13f34f0d83e058794bf31f8a13d9a6b513e65119d,
  0x3f7cdbad3e4e21d93c58f92b3f349ba63e0cb2963f31ff2e3e1604193e63d70a,
  0x3f7639f73e9d0c1cbf3a87a03f30346e3e59b3d0bf3189373d9a02753e51d14e,
  0x3f7550db3ea2d6243c58f0c73f2f9db23e60f9093f318fc53e15e9e23e4ff972,
  0x3f6b4afd3ed6c28bbf3a87a03f2851ec3e93d07dbf322d0e3d99ce073e3ced91,
  0x3f6a69593edab29e3c58d36b3f279a6b3e96d5d03f32339c3e15b5743e3b98c8,
  0x3f606af43f010e13bf3a87b13f2013a93eb3b646bf326e983d99999a3e2bedfa,
  0x3f5f5bc43f02ebb33c58c6d63f1f5c293eb66cf43f32617c3e15b5743e2a7efa,
  0x3f5386f43f15b542bf3a87a03f16fd223ed0ff97bf325aee3d99999a3e1a6b51,
  0x3f524c943f1773b03c5940793f1611343ed35a863f3275253e159b3d3e191687,
  0x3f44c6933f290082bf3a87d33f0c779a3eec56d6bf326e983d99999a3e08ce70,
  0x3f43635e3f2aa4763c5912553f0b7e913eeea4a93f3275253e159b3d3e075f70,
  0x3f344dcb3f3ad2ddbf3a87a03f00d1b73f02d0e5bf32680a3d99999a3dee2eb2,
  0x3f32c42f3f3c52e73c592fb23eff559b3f03d70a3f327bb33e159b3d3deb50b1,
  0x3f2235c63f4b09a6bf3a87903ee809d53f0e48e9bf32680a3d99999a3dcac083,
  0x3f20882f3f4c63493c58f0c73ee5a1cb3f0f41f23f32680a3e15b5743dc816f0,
  0x3f0eac213f5980e5bf3a87903ecc710d3f187fccbf32680a3d99ce073da7ef9e,
  0x3f0cdf593f5ab1b33c591eeb3ec9d4953f194af53f3275253e15b5743da5460b,
  0x3ef3bd163f66147bbf3a87a03eaf00693f216f00bf32617c3d9a02753d85f06f,
  0x3eefeeb33f6718db3c58c6d63eac49ba3f222d0e3f325aee3e15cfab3d8346dc,
  0x3ec7f51f3f70a41abf3a87903e8fdf3b3f28ef35bf32617c3d9a36e33d49eecc,
  0x3ec3f6c23f7179af3c591eeb3e8d013b3f2978d53f3275253e1604193d450481,
  0x3e9a59193f791be7bf3a87b13e5f212d3f2ee632bf32680a3d9a9fbe3d0adaba,
  0x3e963b8a3f79c0db3c5909f23e59652c3f2f559b3f326e983e161e4f3d05f06f,
  0x3e5718a83f7f620fbf3a87b13e1cc63f3f335a86bf32680a3d9b089a3c9e1b09,
  0x3e4eb7023f7fd5453c59018e3e16d5d03f33afb83f32680a3e1652bd3c95e9e2,
  0x3dee57973f81bac3bf3a87b13db1c4333f363f14bf32680a3d9b71763bbac711,
  0x3ddd43073f81daf03c58ec963da5aee63f3673823f32617c3e16872b3b9a0275,
  0x3ddd43073f81daf03c58ec963da5aee63f3673823f32617c3d95b5743e852bd4,
  0x3dee57973f81bac3bf3a87b13db1c4333f363f14bf32680a3af9096c3e852bd4]

set_option maxRecDepth 100000 in
/-- the triangles of `KICKER_WILLIAMS_INDICES`, /repo/src/vpx/mesh/kickers/kicker_williams_mesh.rs:1264-1564 -/
def kickerWilliamsTris : List Nat := [
  0x015501560157, 0x015801560155, 0x000000010002, 0x000300010000, 0x0001001f0002, 0x0002001f001c, 0x001f001d001c,
  0x001c001d001e, 0x000400050006, 0x000700050004, 0x000800070004, 0x000900070008, 0x000a00090008, 0x000b0009000a,
  0x000c000b000a, 0x000d000e000f, 0x0010000d000f, 0x0011000d0010, 0x001200110010, 0x001300110012, 0x001400130012,
  0x001500130014, 0x001600170018, 0x001900170016, 0x001a00190016, 0x001b0019001a, 0x002000210022, 0x002100670022,
  0x002300210020, 0x006800670021, 0x002400230020, 0x006600670068, 0x002500230024, 0x002600230025, 0x006900660068,
  0x006a00660069, 0x002700280029, 0x002a00270029, 0x002b0027002a, 0x002c002b002a, 0x002b002c002d, 0x002d002c002f,
  0x002e002d002f, 0x0030002e002f, 0x0031002e0030, 0x003100300032, 0x003200340031, 0x003300340032, 0x003500340033,
  0x003300ad0035, 0x00ac003500ad, 0x00ab00ac00ad, 0x003600370038, 0x003900360038, 0x003700400038, 0x003a00360039,
  0x003700410040, 0x003700420041, 0x004b004a0036, 0x0036004a0049, 0x003600490047, 0x003600470048, 0x004300420037,
  0x004400420043, 0x004500440043, 0x004600450043, 0x0046003f0045, 0x004e004d0046, 0x004d004c0046, 0x0046004c003b,
  0x003b003f0046, 0x003f003b003e, 0x003e003b003d, 0x003d003b003c, 0x003c003b003a, 0x003b0036003a, 0x003600480057,
  0x005700560036, 0x003600560037, 0x005800570048, 0x0056004f0037, 0x005900580048, 0x004f00500037, 0x005a00580059,
  0x005100370050, 0x005b005a0059, 0x005200370051, 0x005c005a005b, 0x005300370052, 0x005d005c005b, 0x005400530052,
  0x005500540052, 0x005e005c005d, 0x005f005e005d, 0x0060005f005d, 0x0061005f0060, 0x006000650061, 0x006100650062,
  0x006200630061, 0x006400610063, 0x006b006c006d, 0x006e006b006d, 0x006f006b006e, 0x0070006f006e, 0x0071006f0070,
  0x007200710070, 0x007100720073, 0x007400710073, 0x007500740073, 0x007600740075, 0x007700740076, 0x00cb00770076,
  0x00780079007a, 0x007b0078007a, 0x0083007a0079, 0x007c0078007b, 0x008400830079, 0x007d0078007c, 0x007e0078007d,
  0x008b008c0079, 0x0079008d008b, 0x008e008d0079, 0x008f008e0079, 0x007f0078007e, 0x0080007f007e, 0x0081007f0080,
  0x0082007f0081, 0x00820081008a, 0x008a00810089, 0x0090008f0079, 0x008900810085, 0x00a500890085, 0x008500810088,
  0x008800870085, 0x008700860085, 0x008600840085, 0x008500840079, 0x00900092008f, 0x009100900079, 0x007800910079,
  0x009300920090, 0x009f00910078, 0x009400920093, 0x00a0009f0078, 0x009500920094, 0x00a100a00078, 0x009600920095,
  0x00a200a10078, 0x00a300a100a2, 0x00a400a300a2, 0x009700920096, 0x009800970096, 0x009900970098, 0x009a00920097,
  0x009b009a0097, 0x009c009b0097, 0x009d009b009c, 0x009e009b009d, 0x00a600a700a8, 0x00a800a700a9, 0x00aa00a900a7,
  0x00a600a800ae, 0x00ae00af00a6, 0x00ae00b300af, 0x00b000b100b2, 0x00b400b000b2, 0x00b500b000b4, 0x00b500b400b7,
  0x00b600b500b7, 0x00b600b700b9, 0x00b800b600b9, 0x00ba00bb00bc, 0x00bc00ca00ba, 0x00ba00bd00bb, 0x00bd00ba00bf,
  0x00be00bd00bf, 0x00be00bf00c0, 0x00c000c100be, 0x00c000c200c1, 0x00c200c000c4, 0x00c300c200c4, 0x00c400c900c3,
  0x00c300c900c6, 0x00c600c900c7, 0x00c500c600c7, 0x00c800c500c7, 0x00c500c800ce, 0x00c500ce00cf, 0x00cf00ce00cd,
  0x00cc00cd00ce, 0x00d000d100d2, 0x00d0011d00d1, 0x011d00d400d1, 0x00d300d000d2, 0x00d400d500d1, 0x00d300d20115,
  0x00d600d100d5, 0x00d700d600d5, 0x00d800d600d7, 0x00d900d800d7, 0x00da00d900d7, 0x00db00d900da, 0x00dc00db00da,
  0x00dd00db00dc, 0x00de00dd00dc, 0x00df00de00dc, 0x00e000df00dc, 0x00e100df00e0, 0x00e200e100e0, 0x00e300e100e2,
  0x00e400e100e3, 0x00e500e100e4, 0x00e600e100e5, 0x00e700e100e6, 0x00e800e100e7, 0x00e900e100e8, 0x00ea00e900e8,
  0x00e8011c00ea, 0x00ea011c0119, 0x011c011a0119, 0x0119011a011b, 0x00eb00e900ea, 0x00ec00e900eb, 0x00ed00e900ec,
  0x00ee00e900ed, 0x00ef00e900ee, 0x00f000e900ef, 0x00f100e900f0, 0x00f200e900f1, 0x00f300e900f2, 0x00f400f300f2,
  0x00f500f400f2, 0x00f600f400f5, 0x00f700f600f5, 0x00f800f700f5, 0x00f900f700f8, 0x00fa00f900f8, 0x00fb00fa00f8,
  0x00fc00fb00f8, 0x00fd00fb00fc, 0x00fc00fe00fd, 0x00fd00fe00ff, 0x00fe010000ff, 0x010100ff0100, 0x010201010100,
  0x010301010102, 0x00fe01040100, 0x0105010400fe, 0x010601040105, 0x010701060105, 0x010801070105, 0x010901080105,
  0x0105011f0109, 0x011f011e0109, 0x011e010a0109, 0x010a010b0109, 0x010c0109010b, 0x010d010c010b, 0x010e010c010d,
  0x010f010e010d, 0x0110010e010f, 0x01110110010f, 0x011201100111, 0x011301120111, 0x011401120113, 0x011501120114,
  0x00d201120115, 0x0116011200d2, 0x0117011600d2, 0x011801160117, 0x012001210122, 0x012301200122, 0x012401200123,
  0x012501240123, 0x012601240125, 0x012701260125, 0x012801260127, 0x012901280127, 0x0129012a0128, 0x0128012a012b,
  0x012c012b012a, 0x012d012c012a, 0x012e012c012d, 0x012f012e012d, 0x0130012e012f, 0x01310130012f, 0x013201300131,
  0x013301320131, 0x013401350136, 0x013701340136, 0x013801340137, 0x013901380137, 0x013a01380139, 0x013b013a0139,
  0x013c013a013b, 0x013d013c013b, 0x013e013f0140, 0x0141013f013e, 0x01420140013f, 0x01430142013f, 0x014401420143,
  0x014501420144, 0x014601450144, 0x014701450146, 0x014801470146, 0x014901470148, 0x014a01490148, 0x014b014c014d,
  0x014e014b014d, 0x014f014b014e, 0x0150014f014e, 0x0151014f0150, 0x015201510150, 0x015301510152, 0x015401530152,
  0x0159015a015b, 0x015c0159015b, 0x015d0159015c, 0x015e0159015d, 0x015f015e015d, 0x0160015e015f, 0x01610160015f,
  0x016101620160, 0x016001620163, 0x016401630162, 0x016501640162, 0x016601640165, 0x016701660165, 0x016801660167,
  0x016901680167, 0x016a01680169, 0x016b016c016d, 0x016e016b016d, 0x016f016b016e, 0x0170016f016e, 0x0171016f0170,
  0x017201710170, 0x017301710172, 0x017401730172, 0x017501760177, 0x017801760175, 0x0179017a017b, 0x017c017a0179,
  0x017d017c0179, 0x017e017d0179, 0x017f017d017e, 0x0180017d017f, 0x01810180017f, 0x01820181017f, 0x018301810182,
  0x018401830182, 0x018501830184, 0x018601850184, 0x018701850186, 0x018801850187, 0x018901880187, 0x018a01880189,
  0x018b018a0189, 0x018c018a018b, 0x018d018c018b, 0x018e018c018d, 0x018f018e018d, 0x0190018e018f, 0x019101920193,
  0x019401920191, 0x019501940191, 0x019601940195, 0x019701960195, 0x019801960197, 0x019901980197, 0x019a01980199,
  0x019b019a0199, 0x019c019a019b, 0x019d019a019c, 0x019e019d019c, 0x019f019e019c, 0x01a0019e019f, 0x01a101a0019f,
  0x01a201a001a1, 0x01a301a201a1, 0x01a401a201a3, 0x01a501a401a3, 0x01a601a401a5, 0x01a701a401a6, 0x01a801a901aa,
  0x01ab01a801aa, 0x01ac01a801ab, 0x01ad01a801ac, 0x01ae01ad01ac, 0x01af01ae01ac, 0x01b001ae01af, 0x01b101ae01b0,
  0x01b201b101b0, 0x01b301b101b2, 0x01b401b301b2, 0x01b501b301b4, 0x01b601b501b4, 0x01b701b501b6, 0x01b801b701b6,
  0x01b901b701b8, 0x01ba01b901b8, 0x01bb01b901ba, 0x01bc01bb01ba, 0x01bd01bb01bc, 0x01be01bd01bc, 0x01bf01c001c1,
  0x01c201bf01c1, 0x01c301c201c1, 0x01c401c201c3, 0x01c501c401c3, 0x01c601c401c5, 0x01c701c601c5, 0x01c801c601c7,
  0x01c901c801c7, 0x01ca01c801c9, 0x01cb01ca01c9, 0x01cc01ca01cb, 0x01cd01cc01cb, 0x01ce01cc01cd, 0x01cf01ce01cd,
  0x01d001ce01cf, 0x01d101d001cf, 0x01d201d001d1, 0x01d301d201d1, 0x01d401d201d3, 0x01d501d401d3, 0x01d601d401d5,
  0x01d701d601d5, 0x01d801d901da, 0x01dc01da01d9, 0x01dd01dc01d9, 0x01d901de01dd, 0x01db01d801da, 0x01d801df01d9,
  0x01d801db0227, 0x01e001df01d8, 0x01db02260227, 0x01e101df01e0, 0x022702260225, 0x01e201df01e1, 0x022602240225,
  0x01e301e201e1, 0x022502240222, 0x01e401e301e1, 0x022402230222, 0x01e501e301e4, 0x022302200222, 0x01e601e501e4,
  0x022202200221, 0x01e701e601e4, 0x02210220021f, 0x01e801e601e7, 0x0220021e021f, 0x01e901e801e7, 0x021f021e021d,
  0x01ea01e801e9, 0x021e021b021d, 0x01eb01ea01e9, 0x021c021d021b, 0x01ec01eb01e9, 0x021a021c021b, 0x01ed01eb01ec,
  0x0215021a021b, 0x01ee01ed01ec, 0x0214021a0215, 0x01ef01ed01ee, 0x021502120214, 0x01f001ed01ef, 0x021402120213,
  0x01f101ed01f0, 0x021302120211, 0x01f201ed01f1, 0x021502160212, 0x01f301ed01f2, 0x021702120216, 0x021602180217,
  0x021902180216, 0x01f401ed01f3, 0x0212020d0211, 0x01f501ed01f4, 0x0211020d0210, 0x01f601ed01f5, 0x0210020d020f,
  0x01f701ed01f6, 0x020f020d020e, 0x01f801ed01f7, 0x020e020d020b, 0x020d020c020b, 0x020c020a020b, 0x020b020a0208,
  0x020a02090208, 0x020902070208, 0x020802070204, 0x020702060204, 0x020602050204, 0x020502030204, 0x020402030201,
  0x020302020201, 0x020201f80201, 0x020101f80200, 0x020001f801ff, 0x01ff01f801fe, 0x01fe01f801fd, 0x01fd01f801fc,
  0x01fc01f801fb, 0x01fb01f801fa, 0x01fa01f801f9, 0x01f901f801f7, 0x02280229022a, 0x022b02290228, 0x0232022a0229,
  0x022c022b0228, 0x0233022a0232, 0x022d022b022c, 0x023402330232, 0x022e022d022c, 0x023502330234, 0x022f022d022e,
  0x023602350234, 0x0230022f022e, 0x0231022f0230, 0x023702350236, 0x023802370236, 0x0239023a023b, 0x023b023a0277,
  0x02390264023a, 0x0276023b0277, 0x027602770278, 0x027602780279, 0x026502660264, 0x026402390265, 0x0279027a0276,
  0x027b027a0279, 0x0239026e0265, 0x026d0265026e, 0x027a027b027c, 0x0280027c027b, 0x027c02800244, 0x026d026e026b,
  0x026d026b026a, 0x026a026b0269, 0x02440243027c, 0x027c0243027a, 0x0269026b0267, 0x026702680269, 0x024202430244,
  0x024402450242, 0x026c02680267, 0x026b026c0267, 0x026b026e026c, 0x026e0239026c, 0x026c02600268, 0x026c0239024e,
  0x0260026c024e, 0x023b024e0239, 0x0276024e023b, 0x02610260024d, 0x0260024e024d, 0x0248024e0276, 0x024d024e0248,
  0x027a02480276, 0x02430248027a, 0x024202480243, 0x024202450248, 0x0248024a024d, 0x0245024a0248, 0x023c023d023e,
  0x0298023d023c, 0x023c023e025f, 0x02710298023c, 0x023c025f0271, 0x029802710297, 0x025f02700271, 0x027002970271,
  0x02630270025f, 0x029702700296, 0x02960270026f, 0x02700263026f, 0x0296026f0294, 0x0263025e026f, 0x0294026f025e,
  0x0262025e0263, 0x025e0262025d, 0x025c0294025e, 0x025d025c025e, 0x0294025c0295, 0x025c025d025a, 0x0295025c025b,
  0x025a025b025c, 0x023f02400241, 0x02410240028b, 0x02460240023f, 0x028c0241028b, 0x029e028c029f, 0x028c029e0241,
  0x02a00241029e, 0x024102a0023f, 0x023f02a00247, 0x023f02470246, 0x02a1024702a0, 0x024702490246, 0x024702a10249,
  0x02a2024902a1, 0x024b02460249, 0x024902a2024c, 0x0249024c024b, 0x024b024c0275, 0x024f02500251, 0x0250024f0252,
  0x025202530250, 0x0290024f0251, 0x024f02910252, 0x0291024f0290, 0x029102540252, 0x025302520254, 0x029202540291,
  0x027302900251, 0x025102720273, 0x02900273028e, 0x027402730272, 0x0274028e0273, 0x028e0274028f, 0x025302540255,
  0x025402920255, 0x025502560253, 0x029202570255, 0x025602550257, 0x029302570292, 0x025702930258, 0x025602570258,
  0x025802590256, 0x027d027e027f, 0x0281027d0282, 0x02990281029a, 0x027d02810283, 0x029902830281, 0x027d0283027e,
  0x029b02830299, 0x0283029b027e, 0x029b0284027e, 0x0284027f027e, 0x029c0284029b, 0x027f02840285, 0x0284029c0285,
  0x02850286027f, 0x029c02870285, 0x028702860285, 0x029d0287029c, 0x028702880286, 0x0287029d0289, 0x028802870289,
  0x029d028d0289, 0x02880289028a, 0x028d028a0289, 0x02a302a402a5, 0x02a602a402a3, 0x02af02a502a4, 0x02a702a602a3,
  0x02b002a502af, 0x02a802a602a7, 0x02b102b002af, 0x02a902a802a7, 0x02b202b002b1, 0x02aa02a802a9, 0x02b302b202b1,
  0x02ab02a802aa, 0x02b402b202b3, 0x02b502b402b3, 0x02ac02ab02aa, 0x02ad02ab02ac, 0x02ae02ad02ac, 0x02b602b702b8,
  0x02b902b702b6, 0x02c002b802b7, 0x02ba02b902b6, 0x02c102b802c0, 0x02bb02b902ba, 0x02c202c102c0, 0x02bc02bb02ba,
  0x02c302c102c2, 0x02bd02bb02bc, 0x02c402c302c2, 0x02be02bd02bc, 0x02bf02bd02be, 0x02c502c402c2, 0x02c602c402c5,
  0x02c702c602c5, 0x02c802c602c7, 0x02c902ca02cb, 0x02cc02c902cb, 0x02cd02c902cc, 0x02ce02cd02cc, 0x02cf02cd02ce,
  0x02d002cf02ce, 0x02d102cf02d0, 0x02d202d102d0, 0x02d302d102d2, 0x02d402d302d2, 0x02d502d602d7, 0x02d802d502d7,
  0x02d902d502d8, 0x02da02d902d8, 0x02db02d902da, 0x02dc02db02da, 0x02dd02db02dc, 0x02de02dd02dc, 0x02df02e002e1,
  0x02e202df02e1, 0x02e302df02e2, 0x02e402e302e2, 0x02e502e302e4, 0x02e602e502e4, 0x02e702e502e6, 0x02e802e702e6,
  0x02e902ea02eb, 0x02ec02e902eb, 0x02ed02e902ec, 0x02ee02ed02ec, 0x02ef02ed02ee, 0x02f002ef02ee, 0x02f102ef02f0,
  0x02f202f102f0, 0x02f302f102f2, 0x02f402f302f2, 0x02f502f302f4, 0x02f602f502f4, 0x02f702f802f9, 0x02f9036b02f7,
  0x02fa02f902f8, 0x02f7036b036a, 0x02fb02fa02f8, 0x036b0368036a, 0x02fc02fa02fb, 0x036a03680369, 0x02fd02fc02fb,
  0x036903680367, 0x02fe02fc02fd, 0x036803660367, 0x02ff02fe02fd, 0x036703660365, 0x030002fe02ff, 0x036603640365,
  0x0301030002ff, 0x036503640363, 0x030203000301, 0x036403620363, 0x030303020301, 0x036303620361, 0x030403020303,
  0x036203600361, 0x030503040303, 0x03610360035f, 0x030603040305, 0x0360035e035f, 0x030703060305, 0x035f035e035d,
  0x030803060307, 0x035e035c035d, 0x030903080307, 0x035d035c035b, 0x030a03090307, 0x035c035a035b, 0x030b0309030a,
  0x035b035a0359, 0x030c030b030a, 0x035a03580359, 0x030d030b030c, 0x035903580357, 0x030e030d030c, 0x035803560357,
  0x030f030d030e, 0x035703560355, 0x0310030f030e, 0x035603540355, 0x0311030f0310, 0x035503540353, 0x031203110310,
  0x035403510353, 0x031303110312, 0x035303510352, 0x031403110313, 0x035203510350, 0x031503140313, 0x0351034f0350,
  0x031603140315, 0x0350034f034e, 0x031703160315, 0x034f034d034e, 0x031803160317, 0x034e034d034c, 0x031903180317,
  0x034d034b034c, 0x031a03180319, 0x034c034b034a, 0x031b031a0319, 0x034b0349034a, 0x031c031a031b, 0x034a03490348,
  0x031d031c031b, 0x034903470348, 0x031e031c031d, 0x034803470346, 0x031f031e031d, 0x034703440346, 0x0320031e031f,
  0x034603440345, 0x03210320031f, 0x034503440343, 0x032203200321, 0x034403420343, 0x032303220321, 0x034303420341,
  0x032403220323, 0x034203400341, 0x032503220324, 0x03410340033f, 0x032603250324, 0x0340033d033f, 0x032703250326,
  0x033f033d033e, 0x032803270326, 0x033e033d033c, 0x032903270328, 0x033d033b033c, 0x032a03290328, 0x033c033b033a,
  0x032b0329032a, 0x033b0339033a, 0x032c032b032a, 0x033a03390338, 0x032d032b032c, 0x033903370338, 0x032e032d032c,
  0x033803370336, 0x032f032d032e, 0x033703350336, 0x0330032f032e, 0x033603350334, 0x0331032f0330, 0x033503330334,
  0x033203310330, 0x033403330332, 0x033303310332, 0x036c036d036e, 0x036f036d036c, 0x0370036e036d, 0x036c03e0036f,
  0x0371036e0370, 0x036f03e003df, 0x037203710370, 0x03e003de03df, 0x037303710372, 0x03df03de03dd, 0x037403710373,
  0x03de03dc03dd, 0x037503740373, 0x03dd03dc03db, 0x037603740375, 0x03dc03da03db, 0x037703760375, 0x03db03da03d9,
  0x037803760377, 0x03da03d803d9, 0x037903780377, 0x03d903d803d7, 0x037a03780379, 0x03d803d603d7, 0x037b037a0379,
  0x03d703d603d5, 0x037c037a037b, 0x03d603d403d5, 0x037d037c037b, 0x03d503d403d2, 0x037e037c037d, 0x03d403d303d2,
  0x037f037e037d, 0x03d303d103d2, 0x0380037e037f, 0x03d203d103d0, 0x03810380037f, 0x03d103cf03d0, 0x038203800381,
  0x03d003cf03ce, 0x038303820381, 0x03cf03cd03ce, 0x038403820383, 0x03ce03cd03cc, 0x038503840383, 0x03cd03cb03cc,
  0x038603840385, 0x03cc03cb03ca, 0x038703860385, 0x03cb03c803ca, 0x038803860387, 0x03ca03c803c9, 0x038903880387,
  0x03c903c803c7, 0x038a03880389, 0x03c803c603c7, 0x038b0388038a, 0x03c703c603c5, 0x038c038b038a, 0x03c603c403c5,
  0x038d038b038c, 0x03c503c403c3, 0x038e038d038c, 0x03c403c203c3, 0x038f038d038e, 0x03c303c203c1, 0x0390038f038e,
  0x03c203c003c1, 0x0391038f0390, 0x03c103c003bf, 0x039203910390, 0x03c003be03bf, 0x039303910392, 0x03bf03be03bd,
  0x039403930392, 0x03be03bc03bd, 0x039503930394, 0x03bd03bc03bb, 0x039603950394, 0x03bc03ba03bb, 0x039703950396,
  0x03bb03ba03b9, 0x039803950397, 0x03ba03b703b9, 0x039903980397, 0x03b903b703b8, 0x039a03980399, 0x03b803b703b6,
  0x039b039a0399, 0x03b703b503b6, 0x039c039a039b, 0x03b603b503b4, 0x039d039c039b, 0x03b503b303b4, 0x039e039c039d,
  0x03b403b303b2, 0x039f039c039e, 0x03b303b103b2, 0x03a0039f039e, 0x03b203b103b0, 0x03a1039f03a0, 0x03b103af03b0,
  0x03a203a103a0, 0x03b003af03ae, 0x03a303a103a2, 0x03af03ad03ae, 0x03a403a303a2, 0x03ae03ad03ac, 0x03a503a303a4,
  0x03ad03ab03ac, 0x03a603a503a4, 0x03ac03ab03aa, 0x03a703a503a6, 0x03ab03a903aa, 0x03a803a703a6, 0x03aa03a903a8,
  0x03a903a703a8, 0x03e103e203e3, 0x03e403e203e1, 0x03e503e403e1, 0x03e603e403e5, 0x03e2045803e3, 0x03e304580457,
  0x045804560457, 0x045704560455, 0x045604540455, 0x045504540453, 0x045404520453, 0x045304520451, 0x045204500451,
  0x04510450044f, 0x0450044e044f, 0x044f044e044d, 0x044e044c044d, 0x044d044c044b, 0x044c044a044b, 0x044b044a0449,
  0x044a04480449, 0x044904480447, 0x044804460447, 0x044704460445, 0x044604440445, 0x044504440443, 0x044404420443,
  0x04430442043f, 0x04420440043f, 0x043f04400441, 0x03e703e803e9, 0x03ea03e803e7, 0x03eb03ea03e7, 0x03ec03ea03eb,
  0x03ed03ec03eb, 0x03ee03ec03ed, 0x03ef03ee03ed, 0x03f003ee03ef, 0x03f103f003ef, 0x03f203f003f1, 0x03f303f203f1,
  0x03f403f303f1, 0x03f503f303f4, 0x03f603f303f5, 0x03f703f603f5, 0x03f803f603f7, 0x03f903f803f7, 0x03fa03f803f9,
  0x03fb03fa03f9, 0x03fc03fa03fb, 0x03fd03fc03fb, 0x03fe03fc03fd, 0x03ff03fe03fd, 0x040003fe03ff, 0x0401040003ff,
  0x040204000401, 0x040304020401, 0x040404020403, 0x040504060407, 0x040804060405, 0x040904080405, 0x040a04080409,
  0x040b040a0409, 0x040c040a040b, 0x040d040c040b, 0x040e040c040d, 0x040f040e040d, 0x0410040e040f, 0x04110410040f,
  0x041204100411, 0x041304120411, 0x041404120413, 0x041504140413, 0x041604140415, 0x041704160415, 0x041804160417,
  0x041904180417, 0x041a04180419, 0x041b041a0419, 0x041c041a041b, 0x041d041c041b, 0x041e041c041d, 0x041f041e041d,
  0x0420041e041f, 0x04210420041f, 0x042204200421, 0x042304240425, 0x042604240423, 0x042704260423, 0x042804260427,
  0x042904280427, 0x042a04280429, 0x042b042a0429, 0x042c042a042b, 0x042d042c042b, 0x042e042c042d, 0x042f042e042d,
  0x0430042e042f, 0x04310430042f, 0x043204300431, 0x043304320431, 0x043404320433, 0x043504340433, 0x043604340435,
  0x043704360435, 0x043804370435, 0x043904370438, 0x043a04370439, 0x043b043a0439, 0x043c043a043b, 0x043d043c043b,
  0x043e043c043d, 0x0459045a045b, 0x045a04d9045b, 0x045b04d904da, 0x045c045a0459, 0x045d045c0459, 0x045e045c045d,
  0x045f045e045d, 0x0460045e045f, 0x04610460045f, 0x046204600461, 0x046304620461, 0x046404620463, 0x046504640463,
  0x046604640465, 0x046704660465, 0x046804660467, 0x046904680467, 0x046a04680469, 0x046b046a0469, 0x046c046a046b,
  0x046d046c046b, 0x046e046c046d, 0x046f046e046d, 0x0470046e046f, 0x04710470046f, 0x047204700471, 0x047304720471,
  0x047404720473, 0x047504760477, 0x047804760475, 0x047904780475, 0x047a04780479, 0x047b047a0479, 0x047c047a047b,
  0x047d047c047b, 0x047e047c047d, 0x047f047e047d, 0x0480047e047f, 0x04810480047f, 0x048204800481, 0x048304820481,
  0x048404820483, 0x048504840483, 0x048604840485, 0x048704860485, 0x048804860487, 0x048904880487, 0x048a04880489,
  0x048b048a0489, 0x048c048a048b, 0x048d048c048b, 0x048e048c048d, 0x048f048e048d, 0x0490048e048f, 0x04910490048f,
  0x049204900491, 0x049304920491, 0x049404920493, 0x049504960497, 0x049804960495, 0x049904980495, 0x049a04980499,
  0x049b049a0499, 0x049c049a049b, 0x049d049c049b, 0x049e049c049d, 0x049f049e049d, 0x04a0049e049f, 0x04a104a0049f,
  0x04a204a004a1, 0x04a304a204a1, 0x04a404a204a3, 0x04a504a404a3, 0x04a604a404a5, 0x04a704a604a5, 0x04a804a604a7,
  0x04a904a804a7, 0x04aa04a804a9, 0x04ab04aa04a9, 0x04ac04aa04ab, 0x04ad04ac04ab, 0x04ae04ac04ad, 0x04af04ae04ad,
  0x04b004ae04af, 0x04b104b004af, 0x04b204b004b1, 0x04b304b204b1, 0x04b404b204b3, 0x04b504b404b3, 0x04b604b404b5,
  0x04b704b604b5, 0x04b804b604b7, 0x04b904ba04bb, 0x04bc04ba04b9, 0x04bd04bc04b9, 0x04be04bc04bd, 0x04bf04be04bd,
  0x04c004be04bf, 0x04c104c004bf, 0x04c204c004c1, 0x04c304c204c1, 0x04c404c204c3, 0x04c504c404c3, 0x04c604c404c5,
  0x04c704c604c5, 0x04c804c604c7, 0x04c904c804c7, 0x04ca04c804c9, 0x04cb04ca04c9, 0x04cc04ca04cb, 0x04cd04cc04cb,
  0x04ce04cc04cd, 0x04cf04ce04cd, 0x04d004ce04cf, 0x04d104d004cf, 0x04d204d004d1, 0x04d304d204d1, 0x04d404d204d3,
  0x04d504d404d3, 0x04d604d404d5, 0x04d704d604d5, 0x04d804d604d7]

/-- the table of /repo/src/vpx/mesh/kickers/kicker_williams_mesh.rs -/
def kickerWilliamsTable : MeshTable := unpackTable kickerWilliamsVertices kickerWilliamsTris

end Vpin
