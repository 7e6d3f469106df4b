import Verif.Model.MeshPack
/-
Generated by tools/meshdata.py from /repo/src/vpx/mesh/balls/*_mesh.rs.
-/
namespace Vpin

set_option maxRecDepth 100000 in
/-- the vertices of `BALL_VERTICES`, /repo/src/vpx/mesh/balls/ball_mesh.rs:14-196 -/
def ballVertices : List Nat := [
  0x00000000000000003f80000080000000800000003f8000003f2d77323f6bac71,
  0x3e8be9a7000000003f7641923e8ae7d5000000003f7666663f17ef9e3f58b439,
  0x3dacf0fa3e8510903f7641923dab9f563e8418933f7666663f42fec53f58b439,
  0x3f06964f000000003f59c4443f066666000000003f59e1b13f17ef9e3f45bc02,
  0x3eb93e3e3e86965f3f64f92b3eba43fe3e8752543f64a8c13f2d77323f4be0df,
  0x3e265bea3f0000003f59c4443e2617c23effa4403f59e1b13f42fec53f45bc02,
  0x3f3cf909000000003f2cb32d3f3d4952000000003f2c56d63f17ef9e3f32bd3c,
  0x3f1e2c673e8783be3f3d8ab93f1ea4a93e89374c3f3cd35b3f25cfab3f3923a3,
  0x3ee2a36a3f017e673f3d8ab93ee48e8a3f01b08a3f3cd35b3f351eb83f3923a3,
  0x3e6995683f33b9493f2cb32d3e69fbe73f3404ea3f2c56d63f42fec53f32bd3c,
  0x3f64f92b000000003ee4f93c3f64f766000000003ee4f7663f17ef9e3f1fc505,
  0x3f5297293e8510903f0176ee3f52680a3e85e3543f0189373f22680a3f245a1d,
  0x3f302d493f0000003f06964f3f302de03f0000003f0694463f2d77323f25f06f,
  0x3f005a1d3f33b9493f0176ee3f00b0f23f336e2f3f0189373f387fcc3f245a1d,
  0x3e8d83623f59c4443ee4f93c3e8d844d3f59c77a3ee4f7663f42fec53f1fc505,
  0x00000000000000003f80000080000000800000003f8000003f5886593f6bac71,
  0xbe6262023e247a183f764192be60c49c3e2353f83f7666663f6e0ded3f58b439,
  0xbe0d83843ed9c4333f64f92bbe0e56043edafb7f3f64a8c13f5886593f4be0df,
  0xbed9c4333e9e377a3f59c444bed97f633e9e00d23f59e1b13f6e0ded3f45bc02,
  0xbd7901083f2b5eb73f3d8ab9bd81d7dc3f2c154d3f3cd35b3f50ded33f3923a3,
  0xbeb046c73f13c9ef3f3d8ab9beb0068e3f14c2f83f3cd35b3f60346e3f3923a3,
  0xbf18e1d63ede26913f2cb32dbf1923a33ede83e43f2c56d63f6e0ded3f32bd3c,
  0x3be6644e3f5cd7cf3f0176ee3badab9f3f5ccccd3f0189373f4d7dbf3f245a1d,
  0xbe86965f3f4f1bbd3f06964fbe869ad43f4f1aa03f0694463f5886593f25f06f,
  0xbf0343b73f319b913f0176eebf02de013f31d7dc3f0189373f6395813f245a1d,
  0xbf393e4f3f06964f3ee4f93cbf393dd93f0694463ee4f7663f6e0ded3f1fc505,
  0x00000000000000003f80000080000000800000003f8000003e310cb33f6bac71,
  0xbe6262023e247a183f764192be60c49c3e2353f83f7666663db5dcc63f58b439,
  0xbe626202be247a183f764192be60c49cbe2353f83f7666663e8395813f58b439,
  0xbed9c4333e9e377a3f59c444bed97f633e9e00d23f59e1b13db5dcc63f45bc02,
  0xbee4f93c000000003f64f92bbee63f14000000003f64a8c13e310cb33f4be0df,
  0xbed9c433be9e377a3f59c444bed97f63be9e00d23f59e1b13e8395813f45bc02,
  0xbf27caa73e189efe3f3d8ab9bf28adac3e16f0073f3cd35b3f7bedfa3f3923a3,
  0xbf27caa73e189efe3f3d8ab9bf28adac3e16f0073f3cd35b3e126e983f3923a3,
  0xbf27caa7be189efe3f3d8ab9bf28adacbe16f0073f3cd35b3e4fc5053f3923a3,
  0xbf18e1d6bede26b33f2cb32dbf1923a3bede83e43f2c56d63e8395813f32bd3c,
  0xbf517a683e8be9853f0176eebf5196533e8b020c3f0189373f788ce73f245a1d,
  0xbf517a683e8be9853f0176eebf5196533e8b0f283f0189373e04ea4b3f245a1d,
  0xbf59c444000000003f06964fbf59c77a000000003f0694463e310cb33f25f06f,
  0xbf517a68be8be9a73f0176eebf519653be8b020c3f0189373e5d49523f245a1d,
  0xbf393e4fbf06964f3ee4f93cbf393dd9bf0694463ee4f7663e8395813f1fc505,
  0x00000000000000003f80000080000000800000003f8000003eaeb1c43f6bac71,
  0x3dacf0fabe8510903f7641923dab9f56be8418933f7666663ed9c0ec3f58b439,
  0xbe0d8384bed9c4333f64f92bbe0e5604bedafb7f3f64a8c13eaeb1c43f4be0df,
  0x3e265beabf0000003f59c4443e2617c2beffa4403f59e1b13ed9c0ec3f45bc02,
  0xbeb046c7bf13c9ef3f3d8ab9beb0068ebf14c2f83f3cd35b3e9f559b3f3923a3,
  0xbd790108bf2b5eb73f3d8ab9bd81d7dcbf2c154d3f3cd35b3ebe00d23f3923a3,
  0x3e699568bf33b9493f2cb32d3e69fbe7bf3404ea3f2c56d63ed9c0ec3f32bd3c,
  0xbf0343b7bf319b913f0176eebf02de01bf31d7dc3f0189373e9893753f245a1d,
  0xbe86963ebf4f1bbd3f06964fbe869ad4bf4f1aa03f0694463eaeb1c43f25f06f,
  0x3be66cb1bf5cd7cf3f0176ee3badab9fbf5ccccd3f0189373ec4c2f83f245a1d,
  0x3e8d8362bf59c4443ee4f93c3e8d844dbf59c77a3ee4f7663ed9c0ec3f1fc505,
  0x00000000000000003f80000080000000800000003f8000003f02680a3f6bac71,
  0x3eb93e3ebe86965f3f64f92b3eba43febe8752543f64a8c13f02680a3f4be0df,
  0x3ee2a36abf017e673f3d8ab93ee48e8abf01b08a3f3cd35b3ef573eb3f3923a3,
  0x3f1e2c67be8783be3f3d8ab93f1ea4a9be89374c3f3cd35b3f0a0f913f3923a3,
  0x3f005a1dbf33b9493f0176ee3f00b0f2bf336e2f3f0189373eeeb1c43f245a1d,
  0x3f302d49bf0000003f06964f3f302de0bf0000003f0694463f02680a3f25f06f,
  0x3f529729be8510903f0176ee3f52680abe85e3543f0189373f0d70a43f245a1d,
  0x3f75919bbe247a183e6e086c3f7559b4be2560423e70f27c3f1240b83f1013a9,
  0x3f75919b3e247a183e6e086c3f7559b43e2560423e70f27c3f1d9e843f1013a9,
  0x3f737868be9e377a000000003f737b4abe9e353f800000003f0d288d3f000000,
  0x3f80000000000000800000003f80000000000000bb3780343f17ef9e3f000000,
  0x3f7378683e9e377a800000003f737b4a3e9e353f800000003f22b0213f000000,
  0x3f5ed6aabede26b3be6e086c3f5ecbfbbedd8adbbe70f27c3f0816f03edfd8ae,
  0x3f7491f3be189efebe829f9d3f74538fbe16f007be84dd2f3f12a3053edc9eed,
  0x3f7491f33e189efebe829f9d3f74538f3e16f007be84dd2f3f1d3c363edc9eed,
  0x3f5ed6aa3ede26b3be6e086c3f5ecbfb3edd8adbbe70f27c3f27c84b3edfd8ae,
  0x3f393e4fbf06964fbee4f93c3f393dd9bf069446bee4f7663f02680a3ec075f7,
  0x3f517a68be8be9a7bf0176ee3f519653be8b020cbf0189373f0ce0763eb74bc7,
  0x3f59c44480000000bf06964f3f59c77a00000000bf0694463f17ef9e3eb41f21,
  0x3f517a683e8be985bf0176ee3f5196533e8b020cbf0189373f22f8383eb74bc7,
  0x3f393e4f3f06964fbee4f93c3f393dd93f069446bee4f7663f2d77323ec075f7,
  0x3ee5fbb53f5cd7cf3e6e086c3ee63f143f5c91d13e70f27c3f3d4fdf3f1013a9,
  0x3e131ceb3f7641923e6e086c3e1205bc3f761e4f3e70f27c3f48adac3f1013a9,
  0x3f1679143f4f1bbd800000003f167a103f4f1aa0800000003f383e423f000000,
  0x3e9e377a3f737868800000003e9e353f3f737b4abb30f27c3f42fec53f000000,
  0x000000003f80000080000000000000003f800000800000003f4dc5d63f000000,
  0x3f2e7ff63f319b91be6e086c3f2e353f3f31a9fcbe70f27c3f3326183edfd8ae,
  0x3edfba673f5ccf3abe829f9d3edec56d3f5cb924be84dd2f3f3db22d3edc9eed,
  0x3e1d27803f746402be829f9d3e1e69ad3f740b78be84dd2f3f484b5e3edc9eed,
  0xbe131ceb3f764192be6e086cbe1205bc3f761e4fbe70f27c3f52d7733edfd8ae,
  0x3f0343b73f319b91bf0176ee3f02de013f31d7dcbf0189373f37f62b3eb74bc7,
  0x3e86965f3f4f1bbdbf06964f3e869ad43f4f1aa0bf0694463f42fec53eb41f21,
  0xbbe6644e3f5cd7cfbf0176eebbadab9f3f5ccccdbf0189373f4e0ded3eb74bc7,
  0xbe8d83623f59c444bee4f93cbe8d844d3f59c77abee4f7663f5886593ec075f7,
  0xbf2e7ff63f319b913e6e086cbf2e353f3f31a9fc3e70f27c3f685f073f1013a9,
  0xbf5ed6aa3ede26913e6e086cbf5ecbfb3edd8adb3e70f27c3f73bcd33f1013a9,
  0xbf1679143f4f1bbd80000000bf167a103f4f1aa0800000003f634d6a3f000000,
  0xbf4f1bbd3f16791480000000bf4f1aa03f167a10bb30f27c3f6e0ded3f000000,
  0xbf7378683e9e377a80000000bf737b4a3e9e353f000000003f78d4fe3f000000,
  0xbee5fbb53f5cd7cfbe6e086cbee63f143f5c91d1be70f27c3f5e353f3edfd8ae,
  0xbf2f6f2a3f2e9f7bbe829f9dbf2f7cee3f2e2824be84dd2f3f68c1553edc9eed,
  0xbf5c49dc3ee1c5e7be829f9dbf5bda513ee22681be84dd2f3f735a863edc9eed,
  0xbf75919b3e247a18be6e086cbf7559b43e256042be70f27c3f7de69b3edfd8ae,
  0xbf005a1d3f33b949bf0176eebf00b0f23f336e2fbf0189373f6305533eb74bc7,
  0xbf302d493f000000bf06964fbf302de03f000000bf0694463f6e0ded3eb41f21,
  0xbf5297293e851090bf0176eebf52680a3e85e354bf0189373f791d153eb74bc7,
  0xbf75919b3e247a18be6e086cbf7559b43e256042be70f27c3e1a511a3edfd8ae,
  0xbf5297293e851090bf0176eebf52680a3e85e354bf0189373e072b023eb74bc7,
  0xbf64f92b80000000bee4f93cbf64f76680000000bee4f7663e310cb33ec075f7,
  0xbf5ed6aabede26b33e6e086cbf5ecbfbbedd8adb3e70f27c3e706f693f1013a9,
  0xbf2e7ff6bf319ba23e6e086cbf2e353fbf31a9fc3e70f27c3e8ef34d3f1013a9,
  0xbf737868be9e377a00000000bf737b4abe9e353f000000003e5c28f63f000000,
  0xbf4f1bbdbf16791400000000bf4f1aa0bf167a10bb3780343e8395813f000000,
  0xbf167914bf4f1bbd00000000bf167a10bf4f1aa0000000003e9923a33f000000,
  0xbf75919bbe247a18be6e086cbf7559b4be256042be70f27c3e47c84b3edfd8ae,
  0xbf5c49dcbee1c5e7be829f9dbf5bda51bee22681be84dd2f3e7212d73edc9eed,
  0xbf2f6f2abf2e9f7bbe829f9dbf2f7ceebf2e2824be84dd2f3e8e2eb23edc9eed,
  0xbee5fbb5bf5cd7e0be6e086cbee63f14bf5c91d1be70f27c3ea346dc3edfd8ae,
  0xbf529729be851090bf0176eebf52680abe85e354bf0189373e5b089a3eb74bc7,
  0xbf302d49bf000000bf06964fbf302de0bf000000bf0694463e8395813eb41f21,
  0xbf005a1dbf33b95abf0176eebf00b0f2bf336e2fbf0189373e99b3d03eb74bc7,
  0xbe8d8362bf59c444bee4f93cbe8d844dbf59c77abee4f7663eaeb1c43ec075f7,
  0x3e131cebbf7641923e6e086c3e1205bcbf761e4f3e70f27c3ece63203f1013a9,
  0x3ee5fbb5bf5cd7cf3e6e086c3ee63f14bf5c91d13e70f27c3ee51eb83f1013a9,
  0x00000000bf8000000000000000000000bf800000000000003ec432ca3f000000,
  0x3e9e377abf737868000000003e9e353fbf737b4abb30f27c3ed9c0ec3f000000,
  0x3f167914bf4f1bbd000000003f167a10bf4f1aa0000000003eef41f23f000000,
  0xbe131ca8bf764192be6e086cbe1205bcbf761e4fbe70f27c3eba0f913edfd8ae,
  0x3e1d2780bf746402be829f9d3e1e69adbf740b78be84dd2f3ecf27bb3edc9eed,
  0x3edfba67bf5ccf3abe829f9d3edec56dbf5cb924be84dd2f3ee45a1d3edc9eed,
  0x3f2e7ff6bf319b91be6e086c3f2e353fbf31a9fcbe70f27c3ef972473edfd8ae,
  0xbbe6644ebf5cd7cfbf0176eebbadab9fbf5ccccdbf0189373ec3a29c3eb74bc7,
  0x3e86965fbf4f1bbdbf06964f3e869ad4bf4f1aa0bf0694463ed9c0ec3eb41f21,
  0x3f0343b7bf319b91bf0176ee3f02de01bf31d7dcbf0189373eefd2203eb74bc7,
  0x3f4f1bbd3f167914800000003f4f1aa03f167a103b30f27c3f2d77323f000000,
  0x3f2f6f2a3f2e9f7b3e829f9d3f2f7cee3f2e28243e84dd2f3f32c3ca3f11b08a,
  0x3f5c49dc3ee1c5e73e829f9d3f5bda513ee226813e84dd2f3f282a993f11b08a,
  0xbe9e377a3f73787980000000be9e353f3f737b4a3b30f27c3f5886593f000000,
  0xbedfba673f5ccf3a3e829f9dbedec56d3f5cb9243e84dd2f3f5dd2f23f11b08a,
  0xbe1d27803f7464023e829f9dbe1e69ad3f740b783e84dd2f3f5339c13f11b08a,
  0xbf8000000000000080000000bf800000800000003b3780343e310cb33f000000,
  0xbf7378683e9e377a80000000bf737b4a3e9e353f000000003e060aa63f000000,
  0xbf7491f3be189efe3e829f9dbf74538fbe16f0073e84dd2f3e463f143f11b08a,
  0xbf7491f33e189efe3e829f9dbf74538f3e16f0073e84dd2f3e1bda513f11b08a,
  0xbf7491f33e189efe3e829f9dbf74538f3e16f0073e84dd2f3f7e48e93f11b08a,
  0xbe9e377abf73787900000000be9e353fbf737b4a3b30f27c3eaeb1c43f000000,
  0xbe1d2780bf7464023e829f9dbe1e69adbf740b783e84dd2f3eb93dd93f11b08a,
  0xbedfba67bf5ccf3a3e829f9dbedec56dbf5cb9243e84dd2f3ea418933f11b08a,
  0x3f4f1bbdbf167914000000003f4f1aa0bf167a103b30f27c3f02680a3f000000,
  0x3f5c49dcbee1c5e73e829f9d3f5bda51bee226813e84dd2f3f07b4a23f11b08a,
  0x3f2f6f2abf2e9f7b3e829f9d3f2f7ceebf2e28243e84dd2f3efa36e33f11b08a,
  0x0000000080000000bf8000008000000080000000bf8000003f42fec53da29c78,
  0xbdacf0fa3e851090bf764192bdab9f563e841893bf7666663f5886593e1d2f1b,
  0x3e6262023e247a18bf7641923e60c49c3e2353f8bf7666663f2d77323e1d2f1b,
  0xbe265bea3f000000bf59c444be2617c23effa440bf59e1b13f5886593e690ff9,
  0x3e0d83843ed9c433bf64f92b3e0e56043edafb7fbf64a8c13f42fec53e507c85,
  0x3ed9c4333e9e377abf59c4443ed97f633e9e00d2bf59e1b13f2d77323e690ff9,
  0xbe6995683f33b949bf2cb32dbe69fbe73f3404eabf2c56d63f5886593e9a8588,
  0x3d7901083f2b5eb7bf3d8ab93d81d7dc3f2c154dbf3cd35b3f4aa64c3e8db8bb,
  0x3eb046c73f13c9efbf3d8ab93eb0068e3f14c2f8bf3cd35b3f3b573f3e8db8bb,
  0x3f18e1d63ede26b3bf2cb32d3f1923a33ede83e4bf2c56d63f2d77323e9a8588,
  0x0000000080000000bf8000008000000080000000bf8000003db5dcc63da29c78,
  0xbe8be9a780000000bf764192be8ae7d580000000bf7666663e310cb33e1d2f1b,
  0xbdacf0fa3e851090bf764192bdab9f563e841893bf7666663b9a02753e1d2f1b,
  0xbf06964f80000000bf59c444bf06666680000000bf59e1b13e310cb33e690ff9,
  0xbeb93e3e3e86965fbf64f92bbeba43fe3e875254bf64a8c13db5dcc63e507c85,
  0xbeb93e3e3e86965fbf64f92bbeba43fe3e875254bf64a8c13f6e0ded3e507c85,
  0xbf3cf90980000000bf2cb32dbf3d495280000000bf2c56d63e310cb33e9a8588,
  0xbf1e2c673e8783bebf3d8ab9bf1ea4a93e89374cbf3cd35b3df34d6a3e8db8bb,
  0xbf1e2c673e8783bebf3d8ab9bf1ea4a93e894467bf3cd35b3f75bc023e8db8bb,
  0xbee2a36a3f017e67bf3d8ab9bee48e8a3f01b08abf3cd35b3f6666663e8db8bb,
  0x0000000080000000bf8000008000000080000000bf8000003e8395813da29c78,
  0xbdacf0fabe851090bf764192bdab9f56be841893bf7666663eaeb1c43e1d2f1b,
  0xbe265beabf000000bf59c444be2617c2beffa440bf59e1b13eaeb1c43e690ff9,
  0xbeb93e3ebe86965fbf64f92bbeba43febe875254bf64a8c13e8395813e507c85,
  0xbe699525bf33b949bf2cb32dbe69fbe7bf3404eabf2c56d63eaeb1c43e9a8588,
  0xbee2a36abf017e67bf3d8ab9bee48e8abf01b08abf3cd35b3e92f1aa3e8db8bb,
  0xbf1e2c67be8783bebf3d8ab9bf1ea4a9be89374cbf3cd35b3e688ce73e8db8bb,
  0x0000000080000000bf8000008000000080000000bf8000003ed9c0ec3da29c78,
  0x3e626202be247a18bf7641923e60c49cbe2353f8bf7666663f02680a3e1d2f1b,
  0x3ed9c433be9e377abf59c4443ed97f63be9e00d2bf59e1b13f02680a3e690ff9,
  0x3e0d8384bed9c433bf64f92b3e0e5604bedafb7fbf64a8c13ed9c0ec3e507c85,
  0x3f18e1d6bede26b3bf2cb32d3f1923a3bede83e4bf2c56d63f02680a3e9a8588,
  0x3eb046c7bf13c9efbf3d8ab93eb0068ebf14c2f8bf3cd35b3ee90ff93e8db8bb,
  0x3d790108bf2b5eb7bf3d8ab93d81d7dcbf2c154dbf3cd35b3eca64c33e8db8bb,
  0x0000000080000000bf8000008000000080000000bf8000003f17ef9e3da29c78,
  0x3ee4f93c80000000bf64f92b3ee63f1480000000bf64a8c13f17ef9e3e507c85,
  0x3f27caa73e189efebf3d8ab93f28adac3e16f007bf3cd35b3f1f97243e8db8bb,
  0x3f27caa7be189efebf3d8ab93f28adacbe16f007bf3cd35b3f1041893e8db8bb]

set_option maxRecDepth 100000 in
/-- the triangles of `BALL_INDICES`, /repo/src/vpx/mesh/balls/ball_mesh.rs:198-244 -/
def ballTris : List Nat := [
  0x0099009a009b, 0x009a009d009b, 0x009a009c009d, 0x009c00a0009d, 0x00a300a4009a, 0x009c009f00a0, 0x009f006300a0,
  0x009a00a6009c, 0x00a400a6009a, 0x009f00640063, 0x006200630064, 0x009c00a9009f, 0x00a600a9009c, 0x009f006e0064,
  0x00a9006e009f, 0x0064006a0062, 0x006a0064006e, 0x00a600a800a9, 0x006a00840062, 0x006200840085, 0x008400870085,
  0x00a9006f006e, 0x00a8006f00a9, 0x006a006e006b, 0x006b006e006f, 0x006a00670084, 0x0067006a006b, 0x008400860087,
  0x006700860084, 0x008600260087, 0x008700260025, 0x002100250026, 0x006700650086, 0x008600270026, 0x006500270086,
  0x002100260022, 0x002200260027, 0x006500670068, 0x0067006b0068, 0x006500280027, 0x0068006b006c, 0x006b006f006c,
  0x006500680066, 0x002800650066, 0x0068006c0069, 0x006600680069, 0x006c006f0070, 0x00a80070006f, 0x0069006c006d,
  0x006c0070006d, 0x002300270028, 0x002200270023, 0x006600300028, 0x002300280030, 0x0069008b0066, 0x008b00300066,
  0x006d00890069, 0x0089008b0069, 0x00230030002d, 0x008b00310030, 0x002d00300031, 0x001f00220023, 0x001f0023002d,
  0x001e00210022, 0x001e0022001f, 0x001d0021001e, 0x001b001d001e, 0x001b001e001c, 0x001c001e001f, 0x001a001b001c,
  0x001f002d002b, 0x001c001f002b, 0x002d0031002e, 0x002b002d002e, 0x0029001c002a, 0x001c002b002a, 0x008a0031008b,
  0x0089008a008b, 0x002a002b002c, 0x002b002e002c, 0x008a00320031, 0x002e00310032, 0x0074008a0089, 0x002e0032002f,
  0x002c002e002f, 0x00720032008a, 0x00740072008a, 0x002f00320033, 0x007200330032, 0x007700740089, 0x00770089006d,
  0x007200740075, 0x00710077006d, 0x006d00700071, 0x007400770078, 0x007400780075, 0x00770071007b, 0x0077007b0078,
  0x00a700710070, 0x00a7007b0071, 0x00a7007000a8, 0x0078007b007c, 0x00a500a700a8, 0x00a500a800a6, 0x00b0007b00a7,
  0x00a500b000a7, 0x00b0007c007b, 0x00a400a500a6, 0x00ad00b000a5, 0x00a400ad00a5, 0x00af007c00b0, 0x00ad00af00b0,
  0x0078007c0079, 0x007500780079, 0x00ab00ad00a4, 0x00aa00ab00a4, 0x00ac00af00ad, 0x00ab00ac00ad, 0x00af007d007c,
  0x0079007c007d, 0x00ac00ae00af, 0x00ae007d00af, 0x00ab00b200ac, 0x0079007d007a, 0x00b1009100ab, 0x009100b200ab,
  0x00ae0044007d, 0x007a007d0044, 0x00ac00b400ae, 0x00b200b400ac, 0x00ae00450044, 0x00b4004500ae, 0x00440040007a,
  0x004000440045, 0x00760079007a, 0x007500790076, 0x0040008c007a, 0x007a008c0076, 0x007300750076, 0x007200750073,
  0x003300720073, 0x008c008e0076, 0x0076008e0073, 0x007300380033, 0x008e00380073, 0x002f00330038, 0x008c008d008e,
  0x002f00380036, 0x002c002f0036, 0x008e00390038, 0x003600380039, 0x008d0039008e, 0x002c00360035, 0x002a002c0035,
  0x003600390037, 0x003500360037, 0x0034002a0001, 0x002a00350001, 0x00370039003a, 0x008d003a0039, 0x003500370003,
  0x000100350003, 0x0037003a0006, 0x000300370006, 0x003b003a008d, 0x003d008d008c, 0x003d003b008d, 0x0040003d008c,
  0x003b000a003a, 0x0006003a000a, 0x003d00400041, 0x004000450041, 0x003b003d003e, 0x003d0041003e, 0x000a003b003c,
  0x003b003e003c, 0x0006000a000b, 0x003c000b000a, 0x000300060007, 0x0006000b0007, 0x000100030004, 0x000300070004,
  0x000000010002, 0x000100040002, 0x0007000b000c, 0x000400070008, 0x0007000c0008, 0x0080000b003c, 0x0080000c000b,
  0x003c003e003f, 0x003f0080003c, 0x003e00410042, 0x003e0042003f, 0x004100450046, 0x004100460042, 0x00b400460045,
  0x003f00420043, 0x00b3004600b4, 0x00b200b300b4, 0x004200460047, 0x00b300470046, 0x004200470043, 0x009400b300b2,
  0x0091009400b2, 0x0098004700b3, 0x0094009800b3, 0x004300470048, 0x009800480047, 0x0043007e003f, 0x007e0080003f,
  0x0048004e0043, 0x004e007e0043, 0x009800520048, 0x004e00480052, 0x007e007f0080, 0x007f000c0080, 0x004e004b007e,
  0x004b007f007e, 0x004e0052004f, 0x004b004e004f, 0x007f000d000c, 0x0008000c000d, 0x004b0049007f, 0x0049000d007f,
  0x004b004f004c, 0x0049004b004c, 0x0008000d0009, 0x0049000e000d, 0x0009000d000e, 0x0049004c004a, 0x000e0049004a,
  0x000500080009, 0x000400080005, 0x000200040005, 0x0009000e0016, 0x004a0016000e, 0x000500090013, 0x000900160013,
  0x000200050011, 0x000500130011, 0x000f00020010, 0x000200110010, 0x001000110012, 0x001100130014, 0x001100140012,
  0x001300160017, 0x001300170014, 0x00830016004a, 0x008300170016, 0x001200140015, 0x001200150020, 0x001500240020,
  0x001400170018, 0x001400180015, 0x001500190024, 0x001500180019, 0x005700240019, 0x008800240057, 0x005a00880057,
  0x005600190018, 0x001900560057, 0x008200180017, 0x005600180082, 0x008200170083, 0x005600590057, 0x00570059005a,
  0x005800560082, 0x005600580059, 0x008100820083, 0x005800820081, 0x004d0083004a, 0x00810083004d, 0x004a004c004d,
  0x0059005d005a, 0x005a005d005e, 0x005d0061005e, 0x004c0050004d, 0x004c004f0050, 0x005d00600061, 0x00a100610060,
  0x0059005c005d, 0x005c0060005d, 0x0058005c0059, 0x00a1006000a2, 0x009e00a100a2, 0x005c005f0060, 0x00a20060005f,
  0x0058005b005c, 0x005b005f005c, 0x005b00580081, 0x009e00a20092, 0x0090009e0092, 0x00a2005f0095, 0x009200a20095,
  0x005b0055005f, 0x0095005f0055, 0x005b00810051, 0x0055005b0051, 0x00510081004d, 0x004d00500051, 0x005100540055,
  0x005000540051, 0x009500550054, 0x004f00530050, 0x005000530054, 0x004f00520053, 0x009500540096, 0x009600540053,
  0x009200950096, 0x009700530052, 0x009600530097, 0x009700520098, 0x009400970098, 0x009200960093, 0x009300960097,
  0x009300970094, 0x009000920093, 0x009100930094, 0x009000930091, 0x008f00900091]

/-- the table of /repo/src/vpx/mesh/balls/ball_mesh.rs -/
def ballTable : MeshTable := unpackTable ballVertices ballTris

end Vpin
