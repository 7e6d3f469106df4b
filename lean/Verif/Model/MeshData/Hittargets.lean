import Verif.Model.MeshPack
/-
Generated by tools/meshdata.py from /repo/src/vpx/mesh/hittargets/*_mesh.rs.
-/
namespace Vpin

set_option maxRecDepth 100000 in
/-- the vertices of `DROP_TARGET_T2_MESH`, /repo/src/vpx/mesh/hittargets/drop_target_t2_mesh.rs:8-97 -/
def dropTargetT2Vertices : List Nat := [
  0x3f0666663e19999a3ef978d5800000003f800000800000003f53f0673f3a81fe,
  0xbf0666663e19999a3ef978d5800000003f8000008000000038dc33723f3a81fe,
  0x3ed9999a3e19999a3fbe5e35800000003f7d5cfbbe12bd3c3f3fbbd83eaa7ded,
  0x3f0666663e19999a3fbe5e35800000003f750481be9460aa3f53f0673eaa7ded,
  0xbf0666663e19999a3fbe5e35800000003f750481be9460aa38dc33723eaa7ded,
  0xbed9999a3e19999a3fbe5e35800000003f7d5cfbbe12bd3c3da1a71a3eaa7ded,
  0x3ed9999a3e19999a3fd19168800000003f800000800000003f3ab0533e8caec9,
  0xbed9999a3e19999a3fd19168800000003f800000800000003dca02b83e8caec9,
  0x3f0666663e8000003fd19168800000003f750481be9460aa3f53f0673e83b624,
  0x3ed9999a3e8000003fd19168000000003f7b3d08be44d0143f3fbbd83e83b624,
  0xbed9999a3e8000003fd19168000000003f7b3d08be44d0143da1a71a3e83b624,
  0xbf0666663e8000003fd19168800000003f750481be9460aa38dc33723e83b624,
  0xbed9999a3e8000003fd191683f80000000000000800000003da1a71a3e83b624,
  0xbed9999a3e19999a3fd191683f80000000000000800000003dca02b83e8caec9,
  0xbed9999a3e19999a3fbe5e353f80000000000000800000003da1a71a3eaa7ded,
  0x3ed9999a3e19999a3fbe5e35bf80000000000000800000003f3fbbd83eaa7ded,
  0x3ed9999a3e19999a3fd19168bf80000000000000800000003f3ab0533e8caec9,
  0x3ed9999a3e8000003fd19168bf80000000000000800000003f3fbbd83e83b624,
  0x3ed9999a3e19999a3fd191680000000000000000bf8000003f3ab0533e8caec9,
  0xbed9999a3e19999a3fd191680000000000000000bf8000003dca02b83e8caec9,
  0x3ed9999a3e8000003fd191680000000000000000bf8000003f3fbbd83e83b624,
  0xbed9999a3e8000003fd191680000000000000000bf8000003da1a71a3e83b624,
  0x3f0666663e8000003fde5e35800000003f800000800000003f53f0673e680f13,
  0xbf0666663e8000003fde5e35800000003f80000080000000b80637bd3e680f13,
  0x3f066666be8000003fde5e3500000000000000003f8000003f53f0673912ccf7,
  0x3f0666663e8000003fde5e3500000000000000003f8000003f53f0673e680f13,
  0xbf0666663e8000003fde5e3500000000000000003f800000b80637bd3e680f13,
  0xbf066666be8000003fde5e3500000000000000003f800000b80637bd3912ccf7,
  0x3f066666be8000003fd1916800000000bf800000800000003f569ccb3c48fb87,
  0x3f066666be8000003fde5e3500000000bf800000800000003f569ccb3ac9fb61,
  0xbf066666be8000003fde5e3500000000bf800000800000003f7f91f73ac9fb61,
  0xbf066666be8000003fd1916800000000bf800000800000003f7f91f73c48fb87,
  0x3f066666be4ccccd3fcb2b0200000000bf350481bf3504813f569ccb3c906cca,
  0x3f066666be8000003fd1916800000000bf350481bf3504813f569ccb3c48fb87,
  0xbf066666be8000003fd1916800000000bf350481bf3504813f7f91f73c48fb87,
  0xbf066666be4ccccd3fcb2b0200000000bf350481bf3504813f7f91f73c906cca,
  0x3f066666be4ccccd3ef978d500000000bf800000800000003f569ccb3e15d9e4,
  0x3f066666be4ccccd3fcb2b0200000000bf800000800000003f569ccb3c906cca,
  0xbf066666be4ccccd3fcb2b0200000000bf800000800000003f7f91f73c906cca,
  0xbf066666be4ccccd3ef978d500000000bf800000800000003f7f91f73e15d9e4,
  0xbf066666be4ccccdbe26a7f000000000bf800000800000003f7f91f73e5d3dc9,
  0x3f066666be4ccccdbe26a7f000000000bf800000800000003f569ccb3e5d3dc9,
  0xbf066666be8000003fd19168bf80000000000000800000003f7fd4063e83b624,
  0xbf066666be8000003fde5e35bf80000000000000800000003f7fd4063e680f13,
  0xbf0666663e8000003fde5e35bf80000000000000800000003f53f0673e680f13,
  0xbf0666663e8000003fd19168bf80000000000000800000003f53f0673e83b624,
  0xbf066666be4ccccd3fcb2b02bf80000000000000800000003f7bac1d3e91c6f3,
  0xbf0666663e19999a3fbe5e35bf80000000000000800000003f5cc9eb3eaa7ded,
  0xbf066666be4ccccd3ef978d5bf80000000000000800000003f7bac1d3f3a81fe,
  0xbf0666663e19999a3e0c8b44bf80000000000000800000003f5cc9eb3f5fe005,
  0xbf066666bd4ccccdbde6e979bf80000000000000800000003f6e428d3f7b03c0,
  0xbf0666663e19999a3ef978d5bf80000000000000800000003f5cc9eb3f3a81fe,
  0x3f0666663e8000003fde5e353f80000000000000800000003f53f0673e680f13,
  0x3f066666be8000003fde5e353f80000000000000800000003f7fd4063e680f13,
  0x3f066666be8000003fd191683f80000000000000800000003f7fd4063e83b624,
  0x3f0666663e8000003fd191683f80000000000000800000003f53f0673e83b624,
  0x3f066666be4ccccd3fcb2b023f80000000000000800000003f7bac1d3e91c6f3,
  0x3f0666663e19999a3fbe5e353f80000000000000800000003f5cc9eb3eaa7ded,
  0x3f0666663e19999a3ef978d53f80000000000000800000003f5cc9eb3f3a81fe,
  0x3f066666be4ccccd3ef978d53f80000000000000800000003f7bac1d3f3a81fe,
  0x3f066666bd4ccccdbde6e9793f80000000000000800000003f6e428d3f7b03c0,
  0x3f0666663e19999a3e0c8b443f80000000000000800000003f5cc9eb3f5fe005,
  0xbf0666663e19999a3e0c8b44800000003f8000008000000038dc33723f5fe005,
  0x3f0666663e19999a3e0c8b44800000003f47e910bf1fec573f53f0673f5fe005,
  0x3f066666bd4ccccdbde6e979800000003f47e910bf1fec573f53f0673f7b03c0,
  0xbf066666bd4ccccdbde6e979800000003f47e910bf1fec5738dc33723f7b03c0,
  0x3f066666be4ccccdbe26a7f03f80000000000000800000003f7b7ee53f7ff1e9,
  0xbf066666bd4ccccdbe26a7f0800000003f8000008000000038dc33723f7ff6f5,
  0xbf066666bd4ccccdbde6e979800000003f8000008000000038dc33723f7b03c0,
  0x3f066666bd4ccccdbde6e979800000003f800000800000003f53f0673f7b03c0,
  0x3f066666bd4ccccdbe26a7f0800000003f800000800000003f53f0673f7ff6f5,
  0x3f066666bd4ccccdbe26a7f03f80000000000000800000003f6e428d3f7ff1e9,
  0xbf066666bd4ccccdbe26a7f0bf80000000000000800000003f6e428d3f7ff1e9,
  0xbf066666be4ccccdbe26a7f0bf80000000000000800000003f7b7ee53f7ff1e9,
  0xbf0666663e19999a3e0c8b44800000003f47e910bf1fec5738dc33723f5fe005,
  0x3f0666663e19999a3e0c8b44800000003f800000800000003f53f0673f5fe005,
  0x3e4ccccdbd4ccccdbde6e9793f7745393e84816f800000003f1254613f7b03c0,
  0x3e315ca73d4ccccdbde6e9793f5db22d3f000000800000003f0cec203f7b03c0,
  0x3e315ca73d4ccccd3e0c8b443f4694463f218fc5800000003f0cec203f5fe005,
  0x3dcccccd3dfc52e7bde6e9793f0000003f5db22d800000003efc4cbe3f7b03c0,
  0x3dcccccd3dfc52e73e0c8b443f0000003f5db22d800000003efc4cbe3f5fe005,
  0x000000003e19999abde6e979800000003f800000800000003ed3f0bb3f7b03c0,
  0x000000003e19999a3e0c8b44800000003f800000800000003ed3f0bb3f5fe005,
  0xbdcccccd3dfc52e7bde6e979bf0000003f5db22d800000003eab94b83f7b03c0,
  0xbdcccccd3dfc52e73e0c8b44bf0000003f5db22d800000003eab94b83f5fe005,
  0xbe315ca73d4ccccdbde6e979bf5db22d3f000000800000003e8e09353f7b03c0,
  0xbe315ca73d4ccccd3e0c8b44bf4694463f218fc5800000003e8e09353f5fe005,
  0xbe4ccccdbd4ccccdbde6e979bf7745393e84816f800000003e8338b43f7b03c0]

set_option maxRecDepth 100000 in
/-- the triangles of `DROP_TARGET_T2_INDICES`, /repo/src/vpx/mesh/hittargets/drop_target_t2_mesh.rs:99-108 -/
def dropTargetT2Tris : List Nat := [
  0x000c000d000e, 0x000000010002, 0x003e0000004b, 0x003e00010000, 0x000300000002, 0x000800030002, 0x000200090008,
  0x001600080009, 0x00160009000a, 0x000a00170016, 0x000b0017000a, 0x0004000b000a, 0x000a00050004, 0x000100040005,
  0x000100050002, 0x000600020005, 0x000500070006, 0x000f00100011, 0x001200130014, 0x001500140013, 0x00180019001a,
  0x001a001b0018, 0x001c001d001e, 0x001e001f001c, 0x002000210022, 0x002200230020, 0x002400250026, 0x002400260027,
  0x002700290024, 0x002700280029, 0x002a002b002c, 0x002a002c002d, 0x002e002a002d, 0x002e002d002f, 0x002e002f0033,
  0x002e00330030, 0x003300310030, 0x003000310032, 0x003200490030, 0x003200480049, 0x003400350036, 0x003700340036,
  0x003700360038, 0x003900370038, 0x00390038003a, 0x003a0038003b, 0x003b003d003a, 0x003b003c003d, 0x0042003c003b,
  0x0047003c0042, 0x003f00400041, 0x003f0041004a, 0x004300440045, 0x004500460043, 0x004c004d004e, 0x004e004d004f,
  0x004f0050004e, 0x0050004f0051, 0x005100520050, 0x005200510053, 0x005300540052, 0x005400530055, 0x005500560054,
  0x005700560055]

/-- the table of /repo/src/vpx/mesh/hittargets/drop_target_t2_mesh.rs -/
def dropTargetT2Table : MeshTable := unpackTable dropTargetT2Vertices dropTargetT2Tris

set_option maxRecDepth 100000 in
/-- the vertices of `DROP_TARGET_T3_MESH`, /repo/src/vpx/mesh/hittargets/drop_target_t3_mesh.rs:8-45 -/
def dropTargetT3Vertices : List Nat := [
  0x3f0666663e3333333e0a719b000000003f800000800000003f53d20f3f5ac14c,
  0xbf0666663e3333333e0a719b000000003f800000800000003b6219653f5ac14c,
  0x3f0666663e3333333fde1b00000000003f800000800000003f53d20f3e698e11,
  0xbf0666663e3333333fde1b00000000003f800000800000003b6219653e698e11,
  0x3f066666be3333333fde1b0000000000000000003f8000003f53d20f3a67ff58,
  0x3f0666663e3333333fde1b0000000000000000003f8000003f53d20f3e698e11,
  0xbf0666663e3333333fde1b0000000000000000003f8000003b6219653e698e11,
  0xbf066666be3333333fde1b0000000000000000003f8000003b6219653a67ff58,
  0x3f066666be3333333e0a719b00000000bf800000000000003f569ccb3e15d9e4,
  0x3f066666be3333333fde1b0000000000bf800000000000003f569ccb3a67ff58,
  0xbf066666be3333333fde1b0000000000bf800000000000003f7f91f73a67ff58,
  0xbf066666be3333333e0a719b00000000bf800000000000003f7f91f73e15d9e4,
  0xbf066666be333333be28c19800000000bf800000000000003f7f91f73e5d3dc9,
  0x3f066666be333333be28c19800000000bf800000000000003f569ccb3e5d3dc9,
  0xbf066666be3333333e0a719bbf80000000000000800000003f7b95813f5ac14c,
  0xbf0666663e3333333e0a719bbf80000000000000800000003f5cc9eb3f5ac14c,
  0xbf066666bccccccdbdeb1cc9bf80000000000000800000003f6e428d3f7b03c0,
  0xbf066666be3333333fde1b00bf80000000000000800000003f7b95813e698e11,
  0xbf0666663e3333333fde1b00bf80000000000000800000003f5cc9eb3e698e11,
  0x3f0666663e3333333fde1b003f80000000000000800000003f5cc9eb3e698e11,
  0x3f066666be3333333fde1b003f80000000000000800000003f7b95813e698e11,
  0x3f0666663e3333333e0a719b3f80000000000000800000003f5cc9eb3f5ac14c,
  0x3f066666be3333333e0a719b3f80000000000000800000003f7b95813f5ac14c,
  0x3f066666bccccccdbdeb1cc93f80000000000000800000003f6e428d3f7b03c0,
  0x3f0666663e3333333e0a719b000000003f47e910bf1fec573f53d20f3f5ac14c,
  0x3f066666bccccccdbdeb1cc9000000003f47e910bf1fec573f53d20f3f7b03c0,
  0xbf066666bccccccdbdeb1cc9000000003f47e910bf1fec573b6219653f7b03c0,
  0x3f066666be333333be28c1983f80000000000000800000003f7b95813f7ff1e9,
  0xbf066666bccccccdbe28c198000000003f800000800000003b6219653f7ff6f5,
  0xbf066666bccccccdbdeb1cc9000000003f800000800000003b6219653f7b03c0,
  0x3f066666bccccccdbdeb1cc9000000003f800000800000003f53d20f3f7b03c0,
  0x3f066666bccccccdbe28c198000000003f800000800000003f53d20f3f7ff6f5,
  0x3f066666bccccccdbe28c1983f80000000000000800000003f6e428d3f7ff1e9,
  0xbf066666bccccccdbe28c198bf80000000000000800000003f6e428d3f7ff1e9,
  0xbf066666be333333be28c198bf80000000000000800000003f7b95813f7ff1e9,
  0xbf0666663e3333333e0a719b000000003f47e910bf1fec573b6219653f5ac14c]

set_option maxRecDepth 100000 in
/-- the triangles of `DROP_TARGET_T3_INDICES`, /repo/src/vpx/mesh/hittargets/drop_target_t3_mesh.rs:47-51 -/
def dropTargetT3Tris : List Nat := [
  0x000000010002, 0x000100030002, 0x000400050006, 0x000600070004, 0x00080009000a, 0x0008000a000b, 0x000b000d0008,
  0x000b000c000d, 0x000e000f0010, 0x00100022000e, 0x001000210022, 0x0011000f000e, 0x00110012000f, 0x001300140015,
  0x001500140016, 0x001600170015, 0x001b00170016, 0x00200017001b, 0x00180019001a, 0x0018001a0023, 0x001c001d001e,
  0x001e001f001c]

/-- the table of /repo/src/vpx/mesh/hittargets/drop_target_t3_mesh.rs -/
def dropTargetT3Table : MeshTable := unpackTable dropTargetT3Vertices dropTargetT3Tris

set_option maxRecDepth 100000 in
/-- the vertices of `DROP_TARGET_T4_MESH`, /repo/src/vpx/mesh/hittargets/drop_target_t4_mesh.rs:8-77 -/
def dropTargetT4Vertices : List Nat := [
  0x3f0ccccdbce368f13fdeb5e53f7b6ae8000000003e4106253ed0dcdb3d6d30f0,
  0x3f0ccccd3dcccccd3efad7953f7b15b500000000be47c84b3e0c1e363c83126f,
  0x3f0ccccd3dcccccd3fdeb5e53f7b15b5000000003e47c84b3ed0dcdb3c83126f,
  0x3f0ccccdbdc708ee3efad7953f7ab9f500000000be4ea4a93e0c1e363da53c9b,
  0xbf0ccccd3dcccccd3fdeb5e5bf7b15b5000000003e47c84b3f1791923c83126f,
  0xbf0ccccdbdc708ee3efad795bf7ab9f500000000be4ea4a93f5cf8723da53c9b,
  0xbf0ccccdbce368f13fdeb5e5bf7b6ae8000000003e4106253f1791923d6d30f0,
  0xbf0ccccd3dcccccd3efad795bf7b15b500000000be47c84b3f5cf8723c83126f,
  0xbf090d063dcccccd3fe33c68bf350481000000003f3504813f165a043c83126f,
  0xbf090d06bcd3458d3fe33c68bf36b50b000000003f334d6a3f165a043d6a8b8f,
  0xbf0000003dcccccd3fe51c4cbe47c84b000000003f7b15b53f14d2913c83126f,
  0xbf000000bccccccd3fe51c4cbe491d15000000003f7b020c3f14d2913d697bfa,
  0xbf0000003dcccccd3ee13dfbbe47c84b00000000bf7b15b53f61f8f43c83126f,
  0xbf000000bdcccccd3ee13dfbbe46594b00000000bf7b295f3f61f8f43da72086,
  0xbf090d063dcccccd3ee8bd66bf35048100000000bf3504813f5fad5c3c83126f,
  0xbf090d06bdcb1c433ee8bd66bf33404f00000000bf36c8b43f5fad5c3da69271,
  0x3f0000003dcccccd3fe51c4c3e47c84b000000003f7b15b53ed65ade3c83126f,
  0x3f000000bccccccd3fe51c4c3e491d15000000003f7b020c3ed65ade3d697bfa,
  0x3f090d063dcccccd3fe33c683f350481000000003f3504813ed34bf93c83126f,
  0x3f090d06bcd3458d3fe33c683f36b50b000000003f334d6a3ed34bf93d6a8b8f,
  0x3f090d063dcccccd3ee8bd663f35048100000000bf3504813e014a903c83126f,
  0x3f090d06bdcb1c433ee8bd663f33404f00000000bf36c8b43e014a903da69271,
  0x3f0000003dcccccd3ee13dfb3e47c84b00000000bf7b15b53df0385c3c83126f,
  0x3f000000bdcccccd3ee13dfb3e46594b00000000bf7b295f3df0385c3da72086,
  0xbe99999abdcccccd3ee13dfb0000000000000000bf8000003f6d43d03da72086,
  0xbe99999a3dcccccd3ee13dfb0000000000000000bf8000003f6d43d03c83126f,
  0x3e99999abdcccccd3ee13dfb0000000000000000bf8000003d95e17e3da72086,
  0x3e99999a3dcccccd3ee13dfb0000000000000000bf8000003d95e17e3c83126f,
  0xbe99999a3dcccccdbe23ea70000000003f800000800000003df62b6b3f76872b,
  0xbe99999a3dcccccd3ee13dfb000000003f800000800000003df62b6b3f2fced9,
  0x3e99999a3dcccccd3ee13dfb000000003f800000800000003ec01a373f2fced9,
  0x3e99999a3dcccccdbe23ea70000000003f800000800000003ec01a373f76872b,
  0x3e99999abdcccccdbe23ea7000000000bf800000800000003f1ff2e53f76872b,
  0x3e99999abdcccccd3ee13dfb00000000bf7fd2203d178d503f1ff2e53f2fced9,
  0xbe99999abdcccccd3ee13dfb00000000bf7fd2203d178d503f613a933f2fced9,
  0xbe99999abdcccccdbe23ea7000000000bf800000800000003f613a933f76872b,
  0xbe99999abdcccccdbe23ea70bf80000000000000800000003f8000003da72086,
  0xbe99999abdcccccd3ee13dfbbf80000000000000800000003f6d43d03da72086,
  0xbe99999a3dcccccd3ee13dfbbf80000000000000800000003f6d43d03c83126f,
  0xbe99999a3dcccccdbe23ea70bf80000000000000800000003f8000003c83126f,
  0x3e99999a3dcccccdbe23ea703f8000000000000000000000000000003c83126f,
  0x3e99999a3dcccccd3ee13dfb3f80000000000000000000003d95e17e3c83126f,
  0x3e99999abdcccccd3ee13dfb3f80000000000000000000003d95e17e3da72086,
  0x3e99999abdcccccdbe23ea703f8000000000000000000000000000003da72086,
  0xbf0000003dcccccd3ee13dfb000000003f800000800000003d102de03f2fced9,
  0xbf0000003dcccccd3fe51c4c000000003f800000800000003d102de03de76c8b,
  0x3f0000003dcccccd3fe51c4c000000003f800000800000003eeb9f563de76c8b,
  0x3f0000003dcccccd3ee13dfb000000003f800000800000003eeb9f563f2fced9,
  0xbf090d063dcccccd3ee8bd66000000003f800000800000003ca543f23f2e36f4,
  0xbf090d063dcccccd3fe33c68000000003f800000800000003ca543f23df42bb6,
  0xbf0ccccd3dcccccd3efad795000000003f800000800000003c648e8a3f2a5e35,
  0xbf0ccccd3dcccccd3fdeb5e5000000003f800000800000003c648e8a3e0978d5,
  0x3f090d063dcccccd3ee8bd66000000003f800000800000003ef350d33f2e36f4,
  0x3f090d063dcccccd3fe33c68000000003f800000800000003ef350d33df42bb6,
  0x3f0ccccd3dcccccd3efad795000000003f800000800000003ef6809d3f2a5e35,
  0x3f0ccccd3dcccccd3fdeb5e5000000003f800000800000003ef6809d3e0978d5,
  0x3f000000bdcccccd3ee13dfb38d1b717bf7f9db23d6353f83f0a30553f2fced9,
  0x3f000000bccccccd3fe51c4c399d4952bf7f9db23d6353f83f0a30553de76c8b,
  0xbf000000bccccccd3fe51c4cb99d4952bf7f9db23d6353f83f76fd223de76c8b,
  0xbf000000bdcccccd3ee13dfbb8d1b717bf7f9db23d6353f83f76fd223f2fced9,
  0x3f090d06bdcb1c433ee8bd663a1d4952bf7f9db23d6353f83f0657973f2e36f4,
  0x3f090d06bcd3458d3fe33c683a03126fbf7f9db23d6353f83f0657973df42bb6,
  0x3f0ccccdbdc708ee3efad7953aebedfabf7f9db23d6353f83f04bfb13f2a5e35,
  0x3f0ccccdbce368f13fdeb5e5b9d1b717bf7f9db23d6353f83f04bfb13e0978d5,
  0xbf090d06bdcb1c433ee8bd66ba1d4952bf7f9db23d6353f83f7ad5e03f2e36f4,
  0xbf090d06bcd3458d3fe33c68ba03126fbf7f9db23d6353f83f7ad5e03df42bb6,
  0xbf0ccccdbdc708ee3efad795baded289bf7f9db23d6353f83f7c6dc63f2a5e35,
  0xbf0ccccdbce368f13fdeb5e539d1b717bf7f9db23d6353f83f7c6dc63e0978d5]

set_option maxRecDepth 100000 in
/-- the triangles of `DROP_TARGET_T4_INDICES`, /repo/src/vpx/mesh/hittargets/drop_target_t4_mesh.rs:79-87 -/
def dropTargetT4Tris : List Nat := [
  0x002400250026, 0x002600270024, 0x000000010002, 0x000000030001, 0x000000020013, 0x000100030014, 0x001200130002,
  0x001500140003, 0x001300120011, 0x001400150016, 0x001000110012, 0x001700160015, 0x000b00110010, 0x001b00160017,
  0x001a001b0017, 0x0010000a000b, 0x000b000a0009, 0x00080009000a, 0x000900080006, 0x000400060008, 0x000400050006,
  0x000400070005, 0x00050007000f, 0x000e000f0007, 0x000f000e000d, 0x000c000d000e, 0x000d000c0018, 0x000c00190018,
  0x001c001d001e, 0x001e001f001c, 0x001e001d002e, 0x002e002f001e, 0x002e0034002f, 0x002d002e001d, 0x0034002e0035,
  0x001d002c002d, 0x003400350036, 0x003500370036, 0x0031002d002c, 0x002c00300031, 0x003300310030, 0x003000320033,
  0x002000210022, 0x002200230020, 0x00220021003a, 0x003a003b0022, 0x003a0040003b, 0x0039003a0021, 0x0040003a0041,
  0x002100380039, 0x004000410042, 0x004100430042, 0x003d00390038, 0x0038003c003d, 0x003f003d003c, 0x003c003e003f,
  0x00280029002a, 0x002a002b0028]

/-- the table of /repo/src/vpx/mesh/hittargets/drop_target_t4_mesh.rs -/
def dropTargetT4Table : MeshTable := unpackTable dropTargetT4Vertices dropTargetT4Tris

set_option maxRecDepth 100000 in
/-- the vertices of `HIT_TARGET_FAT_RECTANGLE_MESH`, /repo/src/vpx/mesh/hittargets/hit_target_fat_rectangle_mesh.rs:8-311 -/
def hitTargetFatRectangleVertices : List Nat := [
  0x3e7364bfbc4f46243fd287093f80000000000000800000003f5ac3763e61693c,
  0x3e7364bfbe268cac3f350e133f80000000000000800000003f62074f3f06a0dc,
  0x3e7364bfbc4f46243f350e133f80000000000000800000003f5ac3763f06a0dc,
  0x3e7364bfbe268cac3fd287093f80000000000000800000003f62074f3e61693c,
  0xbe864da1bc4f46243fd2870980000000000000003f8000003f41693c3e61693c,
  0x3e7364bfbe268cac3fd2870980000000000000003f8000003f5ac3763e3c7b03,
  0x3e7364bfbc4f46243fd2870980000000000000003f8000003f5ac3763e61693c,
  0xbe864da1be268cac3fd2870980000000000000003f8000003f41693c3e3c7b03,
  0xbe864da1be268cac3f350e13bf80000000000000800000003f3a3cb83f06a0dc,
  0xbe864da1be268cac3fd28709bf80000000000000800000003f3a3cb83e61693c,
  0xbe864da1bc4f46243fd28709bf80000000000000800000003f41693c3e61693c,
  0xbe864da1bc4f46243f350e13bf80000000000000800000003f41693c3f06a0dc,
  0x3e7364bfbc4f46243fd28709000000003f800000800000003f5ac3763e61693c,
  0xbe864da1bc4f46243f350e13000000003f800000800000003f41693c3f06a0dc,
  0xbe864da1bc4f46243fd28709000000003f800000800000003f41693c3e61693c,
  0x3e7364bfbc4f46243f350e13000000003f800000800000003f5ac3763f06a0dc,
  0xbe864da1be268cac3f350e130000000000000000bf8000003f41693c3f0f7ae5,
  0xbe864da1bc4f46243f350e130000000000000000bf8000003f41693c3f06a0dc,
  0x3e7364bfbe268cac3f350e130000000000000000bf8000003f5ac3763f0f7ae5,
  0x3e7364bfbc4f46243f350e130000000000000000bf8000003f5ac3763f06a0dc,
  0x3e8018c6be268cac3fd420a33f80000000000000800000003f77f1c73f5a24dd,
  0x3e8018c6be59bf59bdd78f693f80000000000000800000003f1327cc3f5e7a31,
  0x3e8018c6be268cacbdd78f693f80000000000000800000003f1327cc3f5a24dd,
  0x3e8018c6be59bf593fd420a33f80000000000000800000003f77f1c73f5e7a31,
  0xbe8cb407be268cac3fd420a380000000000000003f8000003f7b1fcd3f4b518b,
  0x3e8018c6be59bf593fd420a380000000000000003f8000003f7f34f83f6348a1,
  0x3e8018c6be268cac3fd420a380000000000000003f8000003f7b1fcd3f6348a1,
  0xbe8cb407be59bf593fd420a380000000000000003f8000003f7f34f83f4b518b,
  0xbe8cb407be59bf59bdd78f69bf80000000000000800000003f1327cc3f391612,
  0xbe8cb407be59bf593fd420a3bf80000000000000800000003f77f1c73f391612,
  0xbe8cb407be268cac3fd420a3bf80000000000000800000003f77f1c73f3d4bad,
  0xbe8cb407be268cacbdd78f69bf80000000000000800000003f1327cc3f3d4bad,
  0x3e8018c6be268cac3fd420a3000000003f800000800000003f77f1c73f5a24dd,
  0xbe8cb407be268cacbdd78f69000000003f800000800000003f1327cc3f3d4bad,
  0xbe8cb407be268cac3fd420a3000000003f800000800000003f77f1c73f3d4bad,
  0x3e8018c6be268cacbdd78f69000000003f800000800000003f1327cc3f5a24dd,
  0x3e8018c6be59bf593fd420a300000000bf800000000000003f77f1c73f5e7a31,
  0xbe8cb407be59bf593fd420a300000000bf800000000000003f77f1c73f7b587d,
  0xbe8cb407be59bf59bdd78f6900000000bf800000000000003f1327cc3f7b587d,
  0x3e8018c6be59bf59bdd78f6900000000bf800000000000003f1327cc3f5e7a31,
  0x3e7364bf3e263d813fb8ed703f80000000000000800000003f64f1e53f08d6c3,
  0x3e7364bf3de61523bdd78f693f80000000000000800000003f61c24c3e5c814d,
  0x3e7364bf3e263d81bdd78f693f80000000000000800000003f64f1e53e5c814d,
  0x3e7364bf3de615233fb8ed703f80000000000000800000003f61c24c3f08d6c3,
  0xbe864da13e263d813fb8ed7080000000000000003f8000003f78b75f3efe221d,
  0x3e7364bf3de615233fb8ed7080000000000000003f8000003f7ca98b3f170835,
  0x3e7364bf3e263d813fb8ed7080000000000000003f8000003f78b75f3f170835,
  0xbe864da13de615233fb8ed7080000000000000003f8000003f7ca98b3efe221d,
  0xbe864da13de61523bdd78f69bf80000000000000800000003f7d3f9e3e5c814d,
  0xbe864da13de615233fb8ed70bf80000000000000800000003f7d3f9e3f08d6c3,
  0xbe864da13e263d813fb8ed70bf80000000000000800000003f7a275b3f08d6c3,
  0xbe864da13e263d81bdd78f69bf80000000000000800000003f7a275b3e5c814d,
  0x3e7364bf3e263d813fb8ed70000000003f800000800000003f64f1e53f08d6c3,
  0xbe864da13e263d81bdd78f69000000003f800000800000003f7a275b3e5c814d,
  0xbe864da13e263d813fb8ed70000000003f800000800000003f7a275b3f08d6c3,
  0x3e7364bf3e263d81bdd78f69000000003f800000800000003f64f1e53e5c814d,
  0x3e7364bf3de615233fb8ed7000000000bf800000000000003f61c24c3f08d6c3,
  0xbe864da13de615233fb8ed7000000000bf800000000000003f4c891a3f08d6c3,
  0xbe864da13de61523bdd78f6900000000bf800000000000003f4c891a3e5c814d,
  0x3e7364bf3de61523bdd78f6900000000bf800000000000003f61c24c3e5c814d,
  0xbf4326d03e4bb83d3fd8ed70bf0395813f5adaba3d8ef34d3da10f0f3d9eea21,
  0xbf416fca3e4bb83d3fdc20a3beeb6ae83f58ef353e87e2823da5d5b23d8d17c6,
  0xbf365a043e59702e3fd8ed70bdde9e1b3f7cf41f3dde9e1b3dc4b4d03d9eea21,
  0xbf3cc06a3e4bb83d3fde7853be87e2823f58ef353eeb6ae83db2e1ef3d800b89,
  0xbf365a043e4bb83d3fdf53d6bd8ef34d3f5adaba3f0395813dc4b4d03d7689ca,
  0xbf498d373e263d813fde7853bf42339c3ef6f0073ee041893d8f3c2e3d800b89,
  0xbf4c85903e263d813fd8ed70bf5d844d3efa02753de7381d3d86f6943d9eea21,
  0xbf4c85903de615233fdf53d6bf5be0df3e02de013efde69b3d7d32c63d66dacb,
  0xbf4ff39d3de615233fd8ed70bf7bc01a3e032ca53e032ca53d69b6b33d97c915,
  0xbf4326d03de615233fe40336befde69b3e02de013f5be0df3d99378f3d319e73,
  0xbf416fca3e263d813fe28709bee041893ef6f0073f42339c3da5d5b23d52e408,
  0xbf365a043e263d813fe40336bde7381d3efa02753f5d844d3dc4b4d03d4258d6,
  0xbf365a043de615233fe5ba3dbe032ca53e032ca53f7bc01a3dbd93c43d1e2260,
  0x3deaf3e43e3fd6d83f9231383e295e9e3f7be0dfbd8c49ba3f7cc9c93df5781c,
  0xbc49b4143e5973da3f98ed70000000003f800000800000003f691d043db445ed,
  0x3e0031cf3e3fd6d83f98ed703e374bc73f7be0df800000003f7e68c23db445ed,
  0x3dade8f73e3fd6d83f8c7b783e01a36e3f7be0dfbe01a36e3f782bfa3e165ecc,
  0x3d251a003e3fd6d83f88aac93d8c49ba3f7be0dfbe295e9e3f71434a3e28d60a,
  0xbc49b4143e3fd6d83f8753ce800000003f7be0dfbe374bc73f691d043e2f51f0,
  0xbd84fa053e3fd6d83f88aac9bd8c49ba3f7be0dfbe295e9e3f60f6ad3e28d60a,
  0xbde055753e3fd6d83f8c7b78be01a36e3f7be0dfbe01a36e3f5a0dfe3e165ecc,
  0xbe0eb0753e3fd6d83f923138be295e9e3f7be0dfbd8c49ba3f55703f3df5781c,
  0xbe19680e3e3fd6d83f98ed70be374bc73f7be0df800000003f53d1353db445ed,
  0xbe0eb0753e3fd6d83f9fa9a8be295e9e3f7be0df3d8c49ba3f55703f3d662670,
  0xbde055753e3fd6d83fa55f5fbe01a36e3f7be0df3e01a36e3f5a0dfe3cef3908,
  0xbd84fa053e3fd6d83fa93016bd8c49ba3f7be0df3e295e9e3f60f6ad3c36fe2e,
  0xbc49b4143e3fd6d83faa8709800000003f7be0df3e374bc73f691d043b9e774f,
  0x3d251a003e3fd6d83fa930163d8c49ba3f7be0df3e295e9e3f71434a3c36fe2e,
  0x3dade8f73e3fd6d83fa55f5f3e01a36e3f7be0df3e01a36e3f782bfa3cef3908,
  0x3deaf3e43e3fd6d83f9fa9a83e295e9e3f7be0df3d8c49ba3f7cc9c93d662670,
  0x3e02cf533e5969a13f918078bf4dfa443efba5e33eaaa64c3ec6e3d63e8b2f45,
  0x3deaf3e43e3fd6d83f923138bf4dfa443efba5e33eaaa64c3ec491d13e8a393f,
  0x3e0031cf3e3fd6d83f98ed70bf5ef34d3efba5e3800000003ec66f503e80d866,
  0x3e0ea0773e5969a13f98ed70bf5ef34d3efba5e3800000003ec8f25a3e80d866,
  0x3dc252053e5969a13f8b34e7bf1da5123efba5e33f1da5123ec108813e93f35a,
  0x3dade8f73e3fd6d83f8c7b78bf1da5123efba5e33f1da5123ebf41d13e922c88,
  0x3d3b32053e5969a13f87001dbeaaa64c3efba5e33f4dfa443eb8448d3e99ceaf,
  0x3d251a003e3fd6d83f88aac9beaaa64c3efba5e33f4dfa443eb74e663e977c89,
  0xbc49b4143e5969a13f8585f9800000003efba5e33f5ef34d3eaded8d3e9bdd33,
  0xbc49b4143e3fd6d83f8753ce800000003efba5e33f5ef34d3eaded8d3e995a29,
  0xbd9006083e5969a13f87001d3eaaa64c3efba5e33f4dfa443ea3968d3e99ceaf,
  0xbd84fa053e3fd6d83f88aac93eaaa64c3efba5e33f4dfa443ea48c933e977c89,
  0xbdf4be833e5969a13f8b34e73f1da5123efba5e33f1da5123e9ad29a3e93f35a,
  0xbde055753e3fd6d83f8c7b783f1da5123efba5e33f1da5123e9c994a3e922c88,
  0xbe1c05d53e5969a13f9180783f4dfa443efba5e33eaaa64c3e94f7233e8b2f45,
  0xbe0eb0753e3fd6d83f9231383f4dfa443efba5e33eaaa64c3e9749493e8a393f,
  0xbe27d6b63e5969a13f98ed703f5ef34d3efba5e3800000003e92e89f3e80d866,
  0xbe19680e3e3fd6d83f98ed703f5ef34d3efba5e3800000003e956ba93e80d866,
  0xbe1c05d53e5969a13fa05a683f4dfa443efba5e3beaaa64c3e94f7233e6d02cd,
  0xbe0eb0753e3fd6d83f9fa9a83f4dfa443efba5e3beaaa64c3e9749493e6eeed9,
  0xbdf4be833e5969a13fa6a5f03f1da5123efba5e3bf1da5123e9ad29a3e5b7ae5,
  0xbde055753e3fd6d83fa55f5f3f1da5123efba5e3bf1da5123e9c994a3e5f0846,
  0xbd9006083e5969a13faadac23eaaa64c3efba5e3bf4dfa443ea3968d3e4fc3f8,
  0xbd84fa053e3fd6d83fa930163eaaa64c3efba5e3bf4dfa443ea48c933e546845,
  0xbc49b4143e5969a13fac54de000000003efba5e3bf5ef34d3eaded8d3e4ba6f0,
  0xbc49b4143e3fd6d83faa8709000000003efba5e3bf5ef34d3eaded8d3e50ad04,
  0x3d3b32053e5969a13faadac2beaaa64c3efba5e3bf4dfa443eb8448d3e4fc3f8,
  0x3d251a003e3fd6d83fa93016beaaa64c3efba5e3bf4dfa443eb74e663e546845,
  0x3dc252053e5969a13fa6a5f0bf1da5123efba5e3bf1da5123ec108813e5b7ae5,
  0x3dade8f73e3fd6d83fa55f5fbf1da5123efba5e3bf1da5123ebf41d13e5f0846,
  0x3e02cf533e5969a13fa05a68bf4dfa443efba5e3beaaa64c3ec6e3d63e6d02cd,
  0x3deaf3e43e3fd6d83f9fa9a8bf4dfa443efba5e3beaaa64c3ec491d13e6eeed9,
  0xbe27d6b63e5969a13f98ed70000000003f800000800000003e92e89f3e80d866,
  0xbf365a043e59702e3f31dae0bdde9e1b3f7cf41fbdde9e1b3dc4b4d03ed9f623,
  0xbc49b4143e5969a13fac54de000000003f800000b8d1b7173eaded8d3e4ba6f0,
  0x3f300c633e59702e3fd8ed703dde9e1b3f7cf41f3dde9e1b3f1556f33d9eea21,
  0x3e0ea0773e5969a13f98ed70000000003f800000800000003ec8f25a3e80d866,
  0x3f300c633e59702e3f31dae03dde9e1b3f7cf41fbdde9e1b3f1556f33ed9f623,
  0xbc49b4143e5969a13f8585f9000000003f80000038d1b7173eaded8d3e9bdd33,
  0xbe1c05d53e5969a13f918078000000003f800000800000003e94f7233e8b2f45,
  0xbdf4be833e5969a13f8b34e7000000003f800000800000003e9ad29a3e93f35a,
  0xbd9006083e5969a13f87001d000000003f800000800000003ea3968d3e99ceaf,
  0x3d3b32053e5969a13f87001d000000003f800000800000003eb8448d3e99ceaf,
  0x3dc252053e5969a13f8b34e7000000003f800000800000003ec108813e93f35a,
  0x3e02cf533e5969a13f918078000000003f800000800000003ec6e3d63e8b2f45,
  0x3e02cf533e5969a13fa05a68000000003f800000800000003ec6e3d63e6d02cd,
  0x3dc252053e5969a13fa6a5f0000000003f800000800000003ec108813e5b7ae5,
  0x3d3b32053e5969a13faadac2000000003f800000800000003eb8448d3e4fc3f8,
  0xbd9006083e5969a13faadac2000000003f800000800000003ea3968d3e4fc3f8,
  0xbdf4be833e5969a13fa6a5f0000000003f800000800000003e9ad29a3e5b7ae5,
  0xbe1c05d53e5969a13fa05a68000000003f800000800000003e94f7233e6d02cd,
  0x3f300c633e4bb83d3fdf53d63d8ef34d3f5adaba3f0395813f1556f33d7689ca,
  0x3f300c633e263d813fe403363de7381d3efa02753f5d844d3f1556f33d4258d6,
  0x3f300c633de615233fe5ba3d3e032ca53e032ca53f7bc01a3f163b153d1e2260,
  0xbf4326d03e4bb83d3f31dae0bf0395813f5adababd8ef34d3da10f0f3ed9f623,
  0xbf4ff39d3de615233f31dae0bf7bc01a3e032ca5be032ca53d69b6b33edbbe66,
  0xbf4c85903e263d813f31dae0bf5d844d3efa0275bde7381d3d86f6943ed9f623,
  0x3f3b22293e4bb83d3fdc20a33eeb6ae83f58ef353e87e2823f1932c63d8d17c6,
  0x3f3cd9303e4bb83d3fd8ed703f0395813f5adaba3d8ef34d3f19cb9b3d9eea21,
  0x3f3672c93e4bb83d3fde78533e87e2823f58ef353eeb6ae83f17914f3d800b89,
  0x3f49a5fc3de615233fd8ed703f7bc01a3e032ca53e032ca53f1f52113d97c915,
  0x3f4638003e263d813fd8ed703f5d844d3efa02753de7381d3f1d0eaa3d9eea21,
  0x3f433f963e263d813fde78533f42339c3ef6f0073ee041893f1c05f73d800b89,
  0x3f4638003de615233fdf53d63f5be0df3e02de013efde69b3f1e1a503d66dacb,
  0x3f3b22293e263d813fe287093ee041893ef6f0073f42339c3f1932c63d52e408,
  0x3f3cd9303de615233fe403363efde69b3e02de013f5be0df3f1ac69b3d319e73,
  0x3f3cd9303e4bb83d3f31dae03f0395813f5adababd8ef34d3f19cb9b3ed9f623,
  0x3f49a5fc3de615233f31dae03f7bc01a3e032ca5be032ca53f1f52113edbbe66,
  0x3f4638003e263d813f31dae03f5d844d3efa0275bde7381d3f1d0eaa3ed9f623,
  0xbf416fca3e4bb83d3f2b7479beeb6ae83f58ef35be87e2823da5d5b23ede6aba,
  0xbf3cc06a3e4bb83d3f26c509be87e2823f58ef35beeb6ae83db2e1ef3ee1adc9,
  0xbf365a043e4bb83d3f250e13bd8ef34d3f5adababf0395813dc4b4d03ee2df72,
  0xbf498d373e263d813f26c509bf42339c3ef6f007bee041893d8f3c2e3ee1adc9,
  0xbf4c85903de615233f250e13bf5be0df3e02de01befde69b3d7d32c63ee4d552,
  0xbf416fca3e263d813f1ea7adbee041893ef6f007bf42339c3da5d5b23ee7542a,
  0xbf4326d03de615233f1baf42befde69b3e02de01bf5be0df3d99378f3eeb7cdd,
  0xbf365a043e263d813f1baf42bde7381d3efa0275bf5d844d3dc4b4d03ee96590,
  0xbf365a043de615233f184146be032ca53e032ca5bf7bc01a3dbd93c43eedec5f,
  0x3f300c633e4bb83d3f250e133d8ef34d3f5adababf0395813f1556f33ee2df72,
  0xbe931a6d3e263d813f1baf42000000003f1339c1bf516f003e79e0e73ee96590,
  0xbe931a6d3de615233f184146800000003e05a1cbbf7dcc643e79e0e73eedec5f,
  0x3f3b22293e4bb83d3f2b74793eeb6ae83f58ef35be87e2823f1932c63ede6aba,
  0x3f3672c93e4bb83d3f26c5093e87e2823f58ef35beeb6ae83f17914f3ee1adc9,
  0x3f433f963e263d813f26c5093f42339c3ef6f007bee041893f1c05f73ee1adc9,
  0x3f4638003de615233f250e133f5be0df3e02de01befde69b3f1e1a503ee4d552,
  0x3f3cd9303de615233f1baf423efde69b3e02de01bf5be0df3f1ac69b3eeb7cdd,
  0x3f3b22293e263d813f1ea7ad3ee041893ef6f007bf42339c3f1932c63ee7542a,
  0x3f300c633e263d813f1baf423de7381d3efa0275bf5d844d3f1556f33ee96590,
  0x3f300c633de615233f1841463e032ca53e032ca5bf7bc01a3f163b153eedec5f,
  0x3f300c63be7358f33fe5ba3d3e05a1cb000000003f7dcc643f1d0c4e3bd9f0a2,
  0xbf365a04be7358f33fe5ba3dbe05a1cb000000003f7dcc643d8709743bd9f0a2,
  0xbf4ff39dbe7358f33fd8ed70bf7dcc64000000003e05a1cb3ccda4cf3d427e95,
  0xbf4ff39dbe7358f33f31dae0bf7dcc6400000000be05a1cb3ccda4cf3ee960d9,
  0x3f49a5fcbe7358f33fd8ed703f7dcc64000000003e05a1cb3f2780673d427e95,
  0x3f463800be7358f33fdf53d63f5db22d000000003f0000003f2619db3cddbb9d,
  0x3f3cd930be7358f33fe403363f000000000000003f5db22d3f22465a3c469729,
  0x3f49a5fcbe7358f33f31dae03f7dcc6400000000be05a1cb3f2780673ee960d9,
  0x3f300c63be7358f33f1841463e05a1cb00000000bf7dcc643f1d0c4e3efe490a,
  0x3e867f2cbe7358f33f1841460000000000000000bf8000003ee76bc23efe490a,
  0x3e867f2c3de615233f184146800000003e05a1cbbf7dcc643edef1133eedec5f,
  0x3e867f2c3e263d813f1baf42000000003f1339c1bf516f003edef1133ee96590,
  0xbf365a04be7358f33f184146be05a1cb00000000bf7dcc643d8709743efe490a,
  0xbe931a6dbe7358f33f1841460000000000000000bf8000003e68de6e3efe490a,
  0x3f300c63be7358f33fdf53d600000000bf800000000000003ce3c5373f3dcec0,
  0x3f300c63be7358f33fe5ba3d00000000bf800000000000003ce3c5373f3b1bbd,
  0xbf365a04be7358f33fe5ba3d00000000bf800000000000003e9f01753f3b1bbd,
  0xbf365a04be7358f33fdf53d600000000bf800000000000003e9f01753f3dcec0,
  0xbf4326d0be7358f33fd8ed7000000000bf800000000000003ea4675a3f4081b2,
  0xbf4ff39dbe7358f33fd8ed7000000000bf800000000000003ea9cd603f4081b2,
  0xbf4ff39dbe7358f33f31dae000000000bf800000000000003ea9cd603f767d35,
  0xbf4326d0be7358f33f31dae000000000bf800000000000003ea4675a3f767d35,
  0x3f3cd930be7358f33fd8ed7000000000bf800000000000003c8d66f13f4081b2,
  0x3f49a5fcbe7358f33fd8ed7000000000bf800000000000003bdc22ab3f4081b2,
  0x3f463800be7358f33fdf53d600000000bf800000000000003c1c5a3e3f3dcec0,
  0x3f3b2229be7358f33fdc20a300000000bf800000000000003c98fa373f3f2831,
  0x3f3cd930be7358f33fe4033600000000bf800000000000003c8d66f13f3bd4e1,
  0x3f3672c9be7358f33fde785300000000bf800000000000003cb897203f3e2b49,
  0x3f3cd930be7358f33f31dae000000000bf800000000000003c8d66f13f767d35,
  0x3f49a5fcbe7358f33f31dae000000000bf800000000000003bdc22ab3f767d35,
  0x3e867f2cbe7358f33f250e1300000000bf800000000000003de3b8a23f793027,
  0x3e867f2cbe7358f33f18414600000000bf800000000000003de3b8a23f7be319,
  0x3f300c63be7358f33f18414600000000bf800000000000003ce3c5373f7be319,
  0x3f300c63be7358f33f250e1300000000bf800000000000003ce3c5373f793027,
  0xbf365a04be7358f33f250e1300000000bf800000000000003e9f01753f793027,
  0xbf365a04be7358f33f18414600000000bf800000000000003e9f01753f7be319,
  0xbe931a6dbe7358f33f18414600000000bf800000000000003e689f413f7be319,
  0xbe931a6dbe7358f33f250e1300000000bf800000000000003e689f413f793027,
  0xbf4c8590be7358f33fdf53d6bf5db22d000000003f0000003cfa743a3cddbb9d,
  0xbf4326d0be7358f33fe40336bf000000000000003f5db22d3d3a72223c469729,
  0xbf4c8590be7358f33fdf53d600000000bf800000000000003ea85b183f3dcec0,
  0xbf416fcabe7358f33fdc20a300000000bf800000000000003ea3ae473f3f2831,
  0xbf3cc06abe7358f33fde785300000000bf800000000000003ea1b4573f3e2b49,
  0xbf4326d0be7358f33fe4033600000000bf800000000000003ea4675a3f3bd4e1,
  0x3f463800be7358f33f250e133f5db22d00000000bf0000003f2619db3ef3d4f1,
  0x3f3cd930be7358f33f1baf423f00000000000000bf5db22d3f22465a3efb7bf2,
  0x3f463800be7358f33f250e1300000000bf800000000000003c1c5a3e3f793027,
  0x3f3b2229be7358f33f2b747900000000bf800000000000003c98fa373f77d6a6,
  0x3f3672c9be7358f33f26c50900000000bf800000000000003cb897203f78d38d,
  0x3f3cd930be7358f33f1baf4200000000bf800000000000003c8d66f13f7b29f6,
  0xbf4c8590be7358f33f250e13bf5db22d00000000bf0000003cfa743a3ef3d4f1,
  0xbf4326d0be7358f33f1baf42bf00000000000000bf5db22d3d3a72223efb7bf2,
  0xbf4c8590be7358f33f250e1300000000bf800000000000003ea85b183f793027,
  0xbf416fcabe7358f33f2b747900000000bf800000000000003ea3ae473f77d6a6,
  0xbf4326d0be7358f33f1baf4200000000bf800000000000003ea4675a3f7b29f6,
  0xbf3cc06abe7358f33f26c50900000000bf800000000000003ea1b4573f78d38d,
  0x3f300c633e263d813fdf53d6be05a1cb00000000bf7dcc643d3193f73f422fbe,
  0x3f300c63be7358f33fdf53d6be05a1cb00000000bf7dcc643ce3c5373f3dcec0,
  0xbf365a04be7358f33fdf53d63e05a1cb00000000bf7dcc643e9f01753f3dcec0,
  0xbf365a043e263d813fdf53d63e05a1cb00000000bf7dcc643e970b4a3f422fbe,
  0xbf4326d03e263d813fd8ed703f7dcc6400000000be05a1cb3e9ba55d3f447cc8,
  0xbf4326d0be7358f33fd8ed703f7dcc6400000000be05a1cb3ea4675a3f4081b2,
  0xbf4326d0be7358f33f31dae03f7dcc64000000003e05a1cb3ea4675a3f767d35,
  0xbf4326d03e263d813f31dae03f7dcc64000000003e05a1cb3e9ba55d3f72821f,
  0x3f3cd9303e263d813fd8ed70bf7dcc6400000000be05a1cb3d0cc35d3f447cc8,
  0x3f3cd930be7358f33fd8ed70bf7dcc6400000000be05a1cb3c8d66f13f4081b2,
  0x3f3b2229be7358f33fdc20a3bf5db22d00000000bf0000003c98fa373f3f2831,
  0x3f3b22293e263d813fdc20a3bf5db22d00000000bf0000003d11b1d93f435643,
  0x3f3cd9303e263d813f31dae0bf7dcc64000000003e05a1cb3d0cc35d3f72821f,
  0x3f3cd930be7358f33f31dae0bf7dcc64000000003e05a1cb3c8d66f13f767d35,
  0x3e867f2c3de615233f184146bf80000000000000800000003df53cde3f771c32,
  0x3e867f2cbe7358f33f184146bf80000000000000800000003de3b8a23f7be319,
  0x3e867f2cbe7358f33f250e13bf80000000000000800000003de3b8a23f793027,
  0x3e867f2c3e263d813f250e13bf80000000000000800000003df53cde3f74cf29,
  0x3e867f2c3e263d813f250e1380000000000000003f8000003df53cde3f74cf29,
  0x3e867f2cbe7358f33f250e1380000000000000003f8000003de3b8a23f793027,
  0x3f300c63be7358f33f250e13be05a1cb000000003f7dcc643ce3c5373f793027,
  0x3f300c633e263d813f250e13be05a1cb000000003f7dcc643d3193f73f74cf29,
  0xbf365a043e263d813f250e133e05a1cb000000003f7dcc643e970b4a3f74cf29,
  0xbf365a04be7358f33f250e133e05a1cb000000003f7dcc643e9f01753f793027,
  0xbe931a6dbe7358f33f250e1380000000000000003f8000003e689f413f793027,
  0xbe931a6d3e263d813f250e1380000000000000003f8000003e5fdd663f74cf29,
  0xbe931a6d3e263d813f250e133f80000000000000800000003e5fdd663f74cf29,
  0xbe931a6dbe7358f33f250e133f80000000000000800000003e689f413f793027,
  0xbe931a6d3de615233f1841463f80000000000000800000003e5fdd663f771c32,
  0xbe931a6dbe7358f33f1841463f80000000000000800000003e689f413f7be319,
  0x3f3672c9be7358f33fde7853bf00000000000000bf5db22d3cb897203f3e2b49,
  0x3f3672c93e263d813fde7853bf00000000000000bf5db22d3d1f2baa3f427ea6,
  0xbf416fca3e263d813fdc20a33f5db22d00000000bf0000003e9b078e3f435643,
  0xbf416fcabe7358f33fdc20a33f5db22d00000000bf0000003ea3ae473f3f2831,
  0xbf3cc06a3e263d813fde78533f00000000000000bf5db22d3e9958533f427ea6,
  0xbf3cc06abe7358f33fde78533f00000000000000bf5db22d3ea1b4573f3e2b49,
  0x3f3b22293e263d813f2b7479bf5db22d000000003f0000003d11b1d93f73a8a4,
  0x3f3b2229be7358f33f2b7479bf5db22d000000003f0000003c98fa373f77d6a6,
  0x3f3672c93e263d813f26c509bf000000000000003f5db22d3d1f2baa3f748041,
  0x3f3672c9be7358f33f26c509bf000000000000003f5db22d3cb897203f78d38d,
  0xbf416fcabe7358f33f2b74793f5db22d000000003f0000003ea3ae473f77d6a6,
  0xbf416fca3e263d813f2b74793f5db22d000000003f0000003e9b078e3f73a8a4,
  0xbf3cc06abe7358f33f26c5093f000000000000003f5db22d3ea1b4573f78d38d,
  0xbf3cc06a3e263d813f26c5093f000000000000003f5db22d3e9958533f748041,
  0x3e867f2c3e263d813f1baf42bf80000000000000800000003df53cde3f767e63,
  0xbe931a6d3e263d813f1baf423f80000000000000800000003e5fdd663f767e63,
  0x3e867f2c3e263d813f250e1300000000bf800000000000003df53cde3f74cf29,
  0x3f300c633e263d813f250e1300000000bf800000000000003d3193f73f74cf29,
  0xbc49b4143e263d813f98ed7000000000bf800000000000003e2d3dc93f5b7f6b,
  0xbe931a6d3e263d813f250e1300000000bf800000000000003e5fdd663f74cf29,
  0x3f3672c93e263d813f26c50900000000bf800000000000003d1f2baa3f748041,
  0x3f3b22293e263d813f2b747900000000bf800000000000003d11b1d93f73a8a4,
  0x3f3cd9303e263d813f31dae000000000bf800000000000003d0cc35d3f72821f,
  0x3f3cd9303e263d813fd8ed7000000000bf800000000000003d0cc35d3f447cc8,
  0x3f3b22293e263d813fdc20a300000000bf800000000000003d11b1d93f435643,
  0x3f3672c93e263d813fde785300000000bf800000000000003d1f2baa3f427ea6,
  0x3f300c633e263d813fdf53d600000000bf800000000000003d3193f73f422fbe,
  0xbf365a043e263d813fdf53d600000000bf800000000000003e970b4a3f422fbe,
  0xbf3cc06a3e263d813fde785300000000bf800000000000003e9958533f427ea6,
  0xbf416fca3e263d813fdc20a300000000bf800000000000003e9b078e3f435643,
  0xbf4326d03e263d813fd8ed7000000000bf800000000000003e9ba55d3f447cc8,
  0xbf4326d03e263d813f31dae000000000bf800000000000003e9ba55d3f72821f,
  0xbf416fca3e263d813f2b747900000000bf800000000000003e9b078e3f73a8a4,
  0xbf3cc06a3e263d813f26c50900000000bf800000000000003e9958533f748041,
  0xbf365a043e263d813f250e1300000000bf800000000000003e970b4a3f74cf29,
  0x3e867f2c3e263d813f1baf4200000000bf800000000000003df53cde3f767e63,
  0xbe931a6d3e263d813f1baf4200000000bf800000000000003e5fdd663f767e63]

set_option maxRecDepth 100000 in
/-- the triangles of `HIT_TARGET_FAT_RECTANGLE_INDICES`, /repo/src/vpx/mesh/hittargets/hit_target_fat_rectangle_mesh.rs:313-361 -/
def hitTargetFatRectangleTris : List Nat := [
  0x000000010002, 0x000000030001, 0x000400050006, 0x000400070005, 0x00080009000a, 0x000b0008000a, 0x000c000d000e,
  0x000c000f000d, 0x001000110012, 0x001300120011, 0x001400150016, 0x001400170015, 0x00180019001a, 0x0018001b0019,
  0x001c001d001e, 0x001f001c001e, 0x002000210022, 0x002000230021, 0x002400250026, 0x002700240026, 0x00280029002a,
  0x0028002b0029, 0x002c002d002e, 0x002c002f002d, 0x003000310032, 0x003300300032, 0x003400350036, 0x003400370035,
  0x00380039003a, 0x003b0038003a, 0x003c003d003e, 0x0041003d003c, 0x003e008a008b, 0x003e008b008c, 0x003e007c008a,
  0x003e008c007a, 0x0046003d0041, 0x003d003f003e, 0x003f003d0046, 0x007a007b003e, 0x007b007a0081, 0x007b00810082,
  0x007b00820083, 0x007b00830080, 0x003e007b003c, 0x0047003f0046, 0x003f0040003e, 0x00470040003f, 0x0040008d003e,
  0x0047008e0040, 0x008d0040008e, 0x007c003e007d, 0x007d003e008d, 0x007d0089007c, 0x007d00880089, 0x007d00870088,
  0x007e0087007d, 0x004700460048, 0x008e0047008f, 0x0048008f0047, 0x004800460045, 0x004500460041, 0x00b3008f0048,
  0x004800b400b3, 0x0048004500b4, 0x008f00b300b9, 0x00da00b40045, 0x00b9009b008f, 0x009b008e008f, 0x009b00b900b8,
  0x0045004300da, 0x004500410043, 0x00d900da0043, 0x00b80099009b, 0x009900b800b7, 0x009b009a008e, 0x0099009a009b,
  0x009a008d008e, 0x00b700960099, 0x009600b700ba, 0x0095008d009a, 0x007d008d0095, 0x0098009a0099, 0x00980095009a,
  0x009600980099, 0x009800930095, 0x007d00950093, 0x009600970098, 0x009700930098, 0x00ba009d0096, 0x00970096009d,
  0x00ba00df009d, 0x009400930097, 0x007d00930094, 0x009d009e0097, 0x00940097009e, 0x00ae009d00df, 0x00ae009e009d,
  0x00df00e000ae, 0x009e009c0094, 0x007d0094009c, 0x00ad009e00ae, 0x00ad009c009e, 0x00af00ae00e0, 0x00af00ad00ae,
  0x00e000bb00af, 0x00ad00ab009c, 0x00b200af00bb, 0x00bb00bc00b2, 0x00b200bc00bd, 0x00af00b000ad, 0x00b200b000af,
  0x00b000ab00ad, 0x00b200bd00b1, 0x00b100b000b2, 0x00b100bd00be, 0x00ac00ab00b0, 0x00b100ac00b0, 0x00a800b100be,
  0x00b100a800ac, 0x00a800be00a9, 0x00ab00ac007f, 0x009c00ab007f, 0x00ac00a8007f, 0x009c007f007d, 0x007e007d007f,
  0x0086007e007f, 0x007f00850086, 0x007f00840085, 0x007f00800084, 0x007f007b0080, 0x007f00a800a1, 0x00a1007b007f,
  0x00a800a900a1, 0x007b00a100a0, 0x00a600a100a9, 0x007b00a0009f, 0x00a400a100a6, 0x00a000a100a4, 0x00a700a600a9,
  0x00a700a900aa, 0x00bf00aa00c0, 0x00a700aa00bf, 0x00a700bf00e6, 0x00a500a600a7, 0x00e600a500a7, 0x00a500a400a6,
  0x00a500e600e5, 0x00a200a000a4, 0x00a2009f00a0, 0x00a300a400a5, 0x00e500a300a5, 0x00a200a400a3, 0x00a300e500b6,
  0x00b6009100a3, 0x009100a200a3, 0x009100b600b5, 0x0092009f00a2, 0x0091009200a2, 0x007b009f0090, 0x0090009f0092,
  0x0090003c007b, 0x00b500440091, 0x009100440092, 0x00b500d90044, 0x0043004400d9, 0x009200420090, 0x004200920044,
  0x003c00900042, 0x004300420044, 0x0041003c0042, 0x004100420043, 0x0049004a004b, 0x004c004a0049, 0x004b004a0059,
  0x004d004a004c, 0x0059004a0058, 0x004e004a004d, 0x0058004a0057, 0x004f004a004e, 0x0057004a0056, 0x0050004a004f,
  0x0056004a0055, 0x0051004a0050, 0x0055004a0054, 0x0052004a0051, 0x0054004a0053, 0x0053004a0052, 0x005a005b005c,
  0x005b005a005e, 0x005c005d005a, 0x005e005f005b, 0x005d005c0079, 0x005f005e0060, 0x00790078005d, 0x00600061005f,
  0x007800790077, 0x006100600062, 0x007700760078, 0x006200630061, 0x007600770075, 0x006300620064, 0x007500740076,
  0x006400650063, 0x007400750073, 0x006500640066, 0x007300720074, 0x006600670065, 0x007200730071, 0x006700660068,
  0x007100700072, 0x006800690067, 0x00700071006f, 0x00690068006a, 0x006f006e0070, 0x006a006b0069, 0x006e006f006d,
  0x006b006a006c, 0x006d006c006e, 0x006c006d006b, 0x00c100c200c3, 0x00c200c100ce, 0x00c300c400c1, 0x00ce00cd00c2,
  0x00c300de00c4, 0x00cd00ce00cc, 0x00dd00c400de, 0x00cd00cc00cb, 0x00db00dd00de, 0x00c900cb00cc, 0x00dc00dd00db,
  0x00c900ca00cb, 0x00db00c600dc, 0x00ca00c900cf, 0x00dc00c600c5, 0x00cf00d000ca, 0x00c500c600c7, 0x00e200d000cf,
  0x00c700c800c5, 0x00e100d000e2, 0x00c800c700e7, 0x00e200e300e1, 0x00c800e700e8, 0x00e100e300e4, 0x00e900e800e7,
  0x00e300d400e4, 0x00e900ea00e8, 0x00d300e400d4, 0x00ea00e900d6, 0x00d300d400d1, 0x00d100d200d3, 0x00d600d500ea,
  0x00d500d600d7, 0x00d700d800d5, 0x00eb00ec00ed, 0x00ec00eb010a, 0x00ed00ee00eb, 0x010a010900ec, 0x00ee00ed010e,
  0x0109010a00f6, 0x010e010d00ee, 0x00f600f50109, 0x010d010e010c, 0x00f500f600f3, 0x010c010b010d, 0x00f300f400f5,
  0x010b010c00f0, 0x00f400f300f7, 0x00f000ef010b, 0x00f700f800f4, 0x00ef00f000f1, 0x00f800f7010f, 0x00f100f200ef,
  0x010f011000f8, 0x00f200f10113, 0x0110010f0111, 0x0113011400f2, 0x011101120110, 0x011401130115, 0x011201110100,
  0x011501160114, 0x010000ff0112, 0x011601150102, 0x00ff010000fd, 0x00fd00fe00ff, 0x010201010116, 0x010101020103,
  0x010301040101, 0x00f900fa00fb, 0x00fb00fc00f9, 0x00fc011700f9, 0x010501060107, 0x010701180105, 0x010801070106,
  0x0119011a011b, 0x011a011d011b, 0x011b011d011e, 0x011b011e011f, 0x011b011f0120, 0x01200121011b, 0x01210122011b,
  0x011b01220123, 0x01230124011b, 0x01240125011b, 0x011b01250126, 0x011b01260127, 0x01270128011b, 0x01280129011b,
  0x0129012a011b, 0x011b012a012b, 0x012b011c011b, 0x011b011c0119, 0x012c0119011c, 0x012d012c011c]

/-- the table of /repo/src/vpx/mesh/hittargets/hit_target_fat_rectangle_mesh.rs -/
def hitTargetFatRectangleTable : MeshTable := unpackTable hitTargetFatRectangleVertices hitTargetFatRectangleTris

set_option maxRecDepth 100000 in
/-- the vertices of `HIT_TARGET_FAT_SQUARE_MESH`, /repo/src/vpx/mesh/hittargets/hit_target_fat_square_mesh.rs:8-311 -/
def hitTargetFatSquareVertices : List Nat := [
  0x3e6e7d9abc3d59923fd2d9063f80000000000000800000003f60f16f3e714552,
  0x3e6e7d9abe256de33f35b20c3f80000000000000800000003f6926fa3f0a54e7,
  0x3e6e7d9abc3d59923f35b20c3f80000000000000800000003f60f16f3f0a54e7,
  0x3e6e7d9abe256de33fd2d9063f80000000000000800000003f6926fa3e714552,
  0xbe88c133bc3d59923fd2d90680000000000000003f8000003f444bc23e714552,
  0x3e6e7d9abe256de33fd2d90680000000000000003f8000003f60f16f3e4c76d1,
  0x3e6e7d9abc3d59923fd2d90680000000000000003f8000003f60f16f3e714552,
  0xbe88c133be256de33fd2d90680000000000000003f8000003f444bc23e4c76d1,
  0xbe88c133be256de33f35b20cbf80000000000000800000003f3c30903f0a54e7,
  0xbe88c133be256de33fd2d906bf80000000000000800000003f3c30903e714552,
  0xbe88c133bc3d59923fd2d906bf80000000000000800000003f444bc23e714552,
  0xbe88c133bc3d59923f35b20cbf80000000000000800000003f444bc23f0a54e7,
  0x3e6e7d9abc3d59923fd2d906000000003f800000800000003f60f16f3e714552,
  0xbe88c133bc3d59923f35b20c000000003f800000800000003f444bc23f0a54e7,
  0xbe88c133bc3d59923fd2d906000000003f800000800000003f444bc23e714552,
  0x3e6e7d9abc3d59923f35b20c000000003f800000800000003f60f16f3f0a54e7,
  0xbe88c133be256de33f35b20c0000000000000000bf8000003f444bc23f132767,
  0xbe88c133bc3d59923f35b20c0000000000000000bf8000003f444bc23f0a54e7,
  0x3e6e7d9abe256de33f35b20c0000000000000000bf8000003f60f16f3f132767,
  0x3e6e7d9abc3d59923f35b20c0000000000000000bf8000003f60f16f3f0a54e7,
  0x3e7b4a66be256de33fd4729f3f80000000000000800000003f77b5af3f6ce875,
  0x3e7b4a66be58a0d3bdd26fa43f80000000000000800000003f12fb2b3f6f11e8,
  0x3e7b4a66be256de3bdd26fa43f80000000000000800000003f12fb2b3f6ce875,
  0x3e7b4a66be58a0d33fd4729f3f80000000000000800000003f77b5af3f6f11e8,
  0xbe8f279abe256de33fd4729f80000000000000003f8000003f77b5af3f5e83d3,
  0x3e7b4a66be58a0d33fd4729f80000000000000003f8000003f7c9f0e3f6ce875,
  0x3e7b4a66be256de33fd4729f80000000000000003f8000003f77b5af3f6ce875,
  0xbe8f279abe58a0d33fd4729f80000000000000003f8000003f7c9f0e3f5e83d3,
  0xbe8f279abe58a0d3bdd26fa4bf80000000000000800000003f12fb2b3f5c6a2b,
  0xbe8f279abe58a0d33fd4729fbf80000000000000800000003f77b5af3f5c6a2b,
  0xbe8f279abe256de33fd4729fbf80000000000000800000003f77b5af3f5e83d3,
  0xbe8f279abe256de3bdd26fa4bf80000000000000800000003f12fb2b3f5e83d3,
  0x3e7b4a66be256de33fd4729f000000003f800000800000003f77b5af3f6ce875,
  0xbe8f279abe256de3bdd26fa4000000003f800000800000003f12fb2b3f5e83d3,
  0xbe8f279abe256de33fd4729f000000003f800000800000003f77b5af3f5e83d3,
  0x3e7b4a66be256de3bdd26fa4000000003f800000800000003f12fb2b3f6ce875,
  0x3e7b4a66be58a0d33fd4729f00000000bf800000000000003f77b5af3f6f11e8,
  0xbe8f279abe58a0d33fd4729f00000000bf800000000000003f77b5af3f7d7918,
  0xbe8f279abe58a0d3bdd26fa400000000bf800000000000003f12fb2b3f7d7918,
  0x3e7b4a66be58a0d3bdd26fa400000000bf800000000000003f12fb2b3f6f11e8,
  0x3e6e7d9a3e275c073fb93f6c3f80000000000000800000003f6da6c63f491f92,
  0x3e6e7d9a3de852b5bdd26fa43f80000000000000800000003f12fb2b3f4b4906,
  0x3e6e7d9a3e275c07bdd26fa43f80000000000000800000003f12fb2b3f491f92,
  0x3e6e7d9a3de852b53fb93f6c3f80000000000000800000003f6da6c63f4b4906,
  0xbe88c1333e275c073fb93f6c80000000000000003f8000003f6da6c63f3abaf1,
  0x3e6e7d9a3de852b53fb93f6c80000000000000003f8000003f7266023f491f92,
  0x3e6e7d9a3e275c073fb93f6c80000000000000003f8000003f6da6c63f491f92,
  0xbe88c1333de852b53fb93f6c80000000000000003f8000003f7266023f3abaf1,
  0xbe88c1333de852b5bdd26fa4bf80000000000000800000003f12fb2b3f38a149,
  0xbe88c1333de852b53fb93f6cbf80000000000000800000003f6da6c63f38a149,
  0xbe88c1333e275c073fb93f6cbf80000000000000800000003f6da6c63f3abaf1,
  0xbe88c1333e275c07bdd26fa4bf80000000000000800000003f12fb2b3f3abaf1,
  0x3e6e7d9a3e275c073fb93f6c000000003f800000800000003f6da6c63f491f92,
  0xbe88c1333e275c07bdd26fa4000000003f800000800000003f12fb2b3f3abaf1,
  0xbe88c1333e275c073fb93f6c000000003f800000800000003f6da6c63f3abaf1,
  0x3e6e7d9a3e275c07bdd26fa4000000003f800000800000003f12fb2b3f491f92,
  0x3e6e7d9a3de852b53fb93f6c00000000bf800000000000003f6da6c63f4b4906,
  0xbe88c1333de852b53fb93f6c00000000bf800000000000003f6da6c63f59b036,
  0xbe88c1333de852b5bdd26fa400000000bf800000000000003f12fb2b3f59b036,
  0x3e6e7d9a3de852b5bdd26fa400000000bf800000000000003f12fb2b3f4b4906,
  0xbf112d663e4cd7063fd93f6cbf0395813f5adaba3d8ef34d3df66e873dc1198b,
  0xbf0f76603e4cd7063fdc729fbeeb6ae83f58ef353e87e2823dfbcd363dad0fe9,
  0xbf04609a3e5a8ef73fd93f6cbdde9e1b3f7cf41f3dde9e1b3e0f40e63dc1198b,
  0xbf0ac7003e4cd7063fdeca4fbe87e2823f58ef353eeb6ae83e053c153d9e64f5,
  0xbf04609a3e4cd7063fdfa5d3bd8ef34d3f5adaba3f0395813e0f40e63d990646,
  0xbf1793cd3e275c073fdeca4fbf42339c3ef6f0073ee041893de264e53d9e64f5,
  0xbf1a8c263e275c073fd93f6cbf5d844d3efa02753de7381d3dd9181a3dc1198b,
  0xbf1a8c263de852b53fdfa5d3bf5be0df3e02de013efde69b3dcfb1183d903537,
  0xbf1dfa333de852b53fd93f6cbf7bc01a3e032ca53e032ca53dc4bd343db9157b,
  0xbf112d663de852b53fe45532befde69b3e02de013f5be0df3ded9d773d6491b0,
  0xbf0f76603e275c073fe2d906bee041893ef6f0073f42339c3dfbcd363d84fca4,
  0xbf04609a3e275c073fe45532bde7381d3efa02753f5d844d3e0f40e63d775fb3,
  0xbf04609a3de852b53fe60c39be032ca53e032ca53f7bc01a3e0b3f213d4ea8da,
  0x3de1259a3e40f5a13f9283343e295e9e3f7be0dfbd8c49ba3f7cc9c93df5781c,
  0xbc8c13343e5a92a33f993f6c000000003f800000800000003f691d043db445ed,
  0x3df695533e40f5a13f993f6c3e374bc73f7be0df800000003f7e68c23db445ed,
  0x3da41aac3e40f5a13f8ccd753e01a36e3f7be0dfbe01a36e3f782bfa3e165ecc,
  0x3d117e783e40f5a13f88fcc63d8c49ba3f7be0dfbe295e9e3f71434a3e28d60a,
  0xbc8c13343e40f5a13f87a5ca800000003f7be0dfbe374bc73f691d043e2f51f0,
  0xbd8ec8503e40f5a13f88fcc6bd8c49ba3f7be0dfbe295e9e3f60f6ad3e28d60a,
  0xbdea23c03e40f5a13f8ccd75be01a36e3f7be0dfbe01a36e3f5a0dfe3e165ecc,
  0xbe13979a3e40f5a13f928334be295e9e3f7be0dfbd8c49ba3f55703f3df5781c,
  0xbe1e4f333e40f5a13f993f6cbe374bc73f7be0df800000003f53d1353db445ed,
  0xbe13979a3e40f5a13f9ffba4be295e9e3f7be0df3d8c49ba3f55703f3d662670,
  0xbdea23c03e40f5a13fa5b164be01a36e3f7be0df3e01a36e3f5a0dfe3cef3908,
  0xbd8ec8503e40f5a13fa98213bd8c49ba3f7be0df3e295e9e3f60f6ad3c36fe2e,
  0xbc8c13343e40f5a13faad90e800000003f7be0df3e374bc73f691d043b9e774f,
  0x3d117e783e40f5a13fa982133d8c49ba3f7be0df3e295e9e3f71434a3c36fe2e,
  0x3da41aac3e40f5a13fa5b1643e01a36e3f7be0df3e01a36e3f782bfa3cef3908,
  0x3de1259a3e40f5a13f9ffba43e295e9e3f7be0df3d8c49ba3f7cc9c93d662670,
  0x3dfbd05b3e5a886a3f91d274bf4dfa443efba5e33eaaa64c3ec7e1333ea016ad,
  0x3de1259a3e40f5a13f928334bf4dfa443efba5e33eaaa64c3ec545413e9f01fc,
  0x3df695533e40f5a13f993f6cbf5ef34d3efba5e3000000003ec75e423e9476d1,
  0x3e09b9523e5a886a3f993f6cbf5ef34d3efba5e3000000003eca31403e9476d1,
  0x3db883ba3e5a886a3f8b86ecbf1da5123efba5e33f1da5123ec14b9d3ea9f16b,
  0x3da41aac3e40f5a13f8ccd75bf1da5123efba5e33f1da5123ebf4c4d3ea7f23d,
  0x3d2795703e5a886a3f87521abeaaa64c3efba5e33f4dfa443eb770bd3eb08723,
  0x3d117e783e40f5a13f88fcc6beaaa64c3efba5e33f4dfa443eb65c0c3eadeb31,
  0xbc8c13343e5a886a3f85d7f5000000003efba5e33f5ef34d3eabd0e13eb2d70e,
  0xbc8c13343e40f5a13f87a5ca000000003efba5e33f5ef34d3eabd0e13eb00410,
  0xbd99d3cc3e5a886a3f87521a3eaaa64c3efba5e33f4dfa443ea031053eb08723,
  0xbd8ec8503e40f5a13f88fcc63eaaa64c3efba5e33f4dfa443ea145b73eadeb31,
  0xbdfe8cce3e5a886a3f8b86ec3f1da5123efba5e33f1da5123e9656473ea9f16b,
  0xbdea23c03e40f5a13f8ccd753f1da5123efba5e33f1da5123e9855753ea7f23d,
  0xbe20ecfa3e5a886a3f91d2743f4dfa443efba5e33eaaa64c3e8fc0903ea016ad,
  0xbe13979a3e40f5a13f9283343f4dfa443efba5e33eaaa64c3e925c813e9f01fc,
  0xbe2cbddc3e5a886a3f993f6c3f5ef34d3efba5e3000000003e8d70a43e9476d1,
  0xbe1e4f333e40f5a13f993f6c3f5ef34d3efba5e3000000003e9043813e9476d1,
  0xbe20ecfa3e5a886a3fa0ac643f4dfa443efba5e3beaaa64c3e8fc0903e88d6f5,
  0xbe13979a3e40f5a13f9ffba43f4dfa443efba5e3beaaa64c3e925c813e89eba7,
  0xbdfe8cce3e5a886a3fa6f7ec3f1da5123efba5e3bf1da5123e9656473e7df82b,
  0xbdea23c03e40f5a13fa5b1643f1da5123efba5e3bf1da5123e9855753e80fb65,
  0xbd99d3cc3e5a886a3fab2cbf3eaaa64c3efba5e3bf4dfa443ea031053e70ccbc,
  0xbd8ec8503e40f5a13fa982133eaaa64c3efba5e3bf4dfa443ea145b73e76049f,
  0xbc8c13343e5a886a3faca6db800000003efba5e3bf5ef34d3eabd0e13e6c2ce4,
  0xbc8c13343e40f5a13faad90e800000003efba5e3bf5ef34d3eabd0e13e71d2e1,
  0x3d2795703e5a886a3fab2cbfbeaaa64c3efba5e3bf4dfa443eb770bd3e70ccbc,
  0x3d117e783e40f5a13fa98213beaaa64c3efba5e3bf4dfa443eb65c0c3e76049f,
  0x3db883ba3e5a886a3fa6f7ecbf1da5123efba5e3bf1da5123ec14b9d3e7df82b,
  0x3da41aac3e40f5a13fa5b164bf1da5123efba5e3bf1da5123ebf4c4d3e80fb65,
  0x3dfbd05b3e5a886a3fa0ac64bf4dfa443efba5e3beaaa64c3ec7e1333e88d6f5,
  0x3de1259a3e40f5a13f9ffba4bf4dfa443efba5e3beaaa64c3ec545413e89eba7,
  0xbe2cbddc3e5a886a3f993f6c38d1b7173f800000000000003e8d70a43e9476d1,
  0xbf04609a3e5a8ef73f327ed8bdde9e1b3f7cf41fbdde9e1b3e0f40e63ef8a71e,
  0xbc8c13343e5a886a3faca6db800000003f800000b8d1b7173eabd0e13e6c2ce4,
  0x3ef73ecd3e5a8ef73fd93f6c3dde9e1b3f7cf41f3dde9e1b3f0800a83dc1198b,
  0x3e09b9523e5a886a3f993f6cb8d1b7173f800000000000003eca31403e9476d1,
  0x3ef73ecd3e5a8ef73f327ed83dde9e1b3f7cf41fbdde9e1b3f0800a83ef8a71e,
  0xbc8c13343e5a886a3f85d7f5000000003f80000038d1b7173eabd0e13eb2d70e,
  0xbe20ecfa3e5a886a3f91d274000000003f800000800000003e8fc0903ea016ad,
  0xbdfe8cce3e5a886a3f8b86ec000000003f800000800000003e9656473ea9f16b,
  0xbd99d3cc3e5a886a3f87521a000000003f800000800000003ea031053eb08723,
  0x3d2795703e5a886a3f87521a000000003f800000800000003eb770bd3eb08723,
  0x3db883ba3e5a886a3f8b86ec000000003f800000800000003ec14b9d3ea9f16b,
  0x3dfbd05b3e5a886a3f91d274000000003f800000800000003ec7e1333ea016ad,
  0x3dfbd05b3e5a886a3fa0ac64000000003f800000800000003ec7e1333e88d6f5,
  0x3db883ba3e5a886a3fa6f7ec000000003f800000800000003ec14b9d3e7df82b,
  0x3d2795703e5a886a3fab2cbf000000003f800000800000003eb770bd3e70ccbc,
  0xbd99d3cc3e5a886a3fab2cbf000000003f800000800000003ea031053e70ccbc,
  0xbdfe8cce3e5a886a3fa6f7ec000000003f800000800000003e9656473e7df82b,
  0xbe20ecfa3e5a886a3fa0ac64000000003f800000800000003e8fc0903e88d6f5,
  0x3ef73ecd3e4cd7063fdfa5d33d8ef34d3f5adaba3f0395813f0800a83d990646,
  0x3ef73ecd3e275c073fe455323de7381d3efa02753f5d844d3f0800a83d775fb3,
  0x3ef73ecd3de852b53fe60c393e032ca53e032ca53f7bc01a3f0901193d4ea8da,
  0xbf112d663e4cd7063f327ed8bf0395813f5adababd8ef34d3df66e873ef8a71e,
  0xbf1dfa333de852b53f327ed8bf7bc01a3e032ca5be032ca53dc4bd343efaa822,
  0xbf1a8c263e275c073f327ed8bf5d844d3efa0275bde7381d3dd9181a3ef8a71e,
  0x3f06b53d3e4cd7063fdc729f3eeb6ae83f58ef353e87e2823f0c573a3dad0fe9,
  0x3f086c333e4cd7063fd93f6c3f0395813f5adaba3d8ef34d3f0d03103dc1198b,
  0x3f0205cd3e4cd7063fdeca4f3e87e2823f58ef353eeb6ae83f0a81dc3d9e64f5,
  0x3f1539003de852b53fd93f6c3f7bc01a3e032ca53e032ca53f13394b3db9157b,
  0x3f11cb043e275c073fd93f6c3f5d844d3efa02753de7381d3f10adde3dc1198b,
  0x3f0ed29a3e275c073fdeca4f3f42339c3ef6f0073ee041893f0f84453d9e64f5,
  0x3f11cb043de852b53fdfa5d33f5be0df3e02de013efde69b3f11dabe3d903537,
  0x3f06b53d3e275c073fe2d9063ee041893ef6f0073f42339c3f0c573a3d84fca4,
  0x3f086c333de852b53fe455323efde69b3e02de013f5be0df3f0e1d323d6491b0,
  0x3f086c333e4cd7063f327ed83f0395813f5adababd8ef34d3f0d03103ef8a71e,
  0x3f1539003de852b53f327ed83f7bc01a3e032ca5be032ca53f13394b3efaa822,
  0x3f11cb043e275c073f327ed83f5d844d3efa0275bde7381d3f10adde3ef8a71e,
  0xbf0f76603e4cd7063f2c1872beeb6ae83f58ef35be87e2823dfbcd363efda9a8,
  0xbf0ac7003e4cd7063f276912be87e2823f58ef35beeb6ae83e053c153f00aa32,
  0xbf04609a3e4cd7063f25b20cbd8ef34d3f5adababf0395813e0f40e63f015608,
  0xbf1793cd3e275c073f276912bf42339c3ef6f007bee041893de264e53f00aa32,
  0xbf1a8c263de852b53f25b20cbf5be0df3e02de01befde69b3dcfb1183f02702a,
  0xbf0f76603e275c073f1f4ba5bee041893ef6f007bf42339c3dfbcd363f03d73d,
  0xbf112d663de852b53f1c533bbefde69b3e02de01bf5be0df3ded9d773f062db6,
  0xbf04609a3e275c073f1c533bbde7381d3efa0275bf5d844d3e0f40e63f0500c5,
  0xbf04609a3de852b53f18e53fbe032ca53e032ca5bf7bc01a3e0b3f213f078c33,
  0x3ef73ecd3e4cd7063f25b20c3d8ef34d3f5adababf0395813f0800a83f015608,
  0xbe958e003e275c073f1c533b000000003f1339c1bf516f003e697b313f0500c5,
  0xbe958e003de852b53f18e53f800000003e05a1cbbf7dcc643e697b313f078c33,
  0x3f06b53d3e4cd7063f2c18723eeb6ae83f58ef35be87e2823f0c573a3efda9a8,
  0x3f0205cd3e4cd7063f2769123e87e2823f58ef35beeb6ae83f0a81dc3f00aa32,
  0x3f0ed29a3e275c073f2769123f42339c3ef6f007bee041893f0f84453f00aa32,
  0x3f11cb043de852b53f25b20c3f5be0df3e02de01befde69b3f11dabe3f02702a,
  0x3f086c333de852b53f1c533b3efde69b3e02de01bf5be0df3f0e1d323f062db6,
  0x3f06b53d3e275c073f1f4ba53ee041893ef6f007bf42339c3f0c573a3f03d73d,
  0x3ef73ecd3e275c073f1c533b3de7381d3efa0275bf5d844d3f0800a83f0500c5,
  0x3ef73ecd3de852b53f18e53f3e032ca53e032ca5bf7bc01a3f0901193f078c33,
  0x3ef73ecdbe723a2a3fe60c393e05a1cb000000003f7dcc643f10ab3f3c6e02a7,
  0xbf04609abe723a2a3fe60c39be05a1cb000000003f7dcc643dd92d993c6e02a7,
  0xbf1dfa33be723a2a3fd93f6cbf7dcc64000000003e05a1cb3d7652373d7789a4,
  0xbf1dfa33be723a2a3f327ed8bf7dcc6400000000be05a1cb3d7652373f04fe26,
  0x3f153900be723a2a3fd93f6c3f7dcc64000000003e05a1cb3f1c6bcf3d7789a4,
  0x3f11cb04be723a2a3fdfa5d33f5db22d000000003f0000003f1ad8b23d1985ad,
  0x3f086c33be723a2a3fe455323f000000000000003f5db22d3f168b7e3ca964e9,
  0x3f153900be723a2a3f327ed83f7dcc6400000000be05a1cb3f1c6bcf3f04fe26,
  0x3ef73ecdbe723a2a3f18e53f3e05a1cb00000000bf7dcc643f10ab3f3f10beb6,
  0x3e840b9abe723a2a3f18e53f0000000000000000bf8000003eec73ef3f10beb6,
  0x3e840b9a3de852b53f18e53f800000003e05a1cbbf7dcc643ee2eb813f078c33,
  0x3e840b9a3e275c073f1c533b000000003f1339c1bf516f003ee2eb813f0500c5,
  0xbf04609abe723a2a3f18e53fbe05a1cb00000000bf7dcc643dd92d993f10beb6,
  0xbe958e00be723a2a3f18e53f0000000000000000bf8000003e565ba73f10beb6,
  0x3ef73ecdbe723a2a3fdfa5d300000000bf800000000000003d6ab0423f3e9425,
  0x3ef73ecdbe723a2a3fe60c3900000000bf800000000000003d6ab0423f3bd567,
  0xbf04609abe723a2a3fe60c3900000000bf800000000000003e8b24a73f3bd567,
  0xbf04609abe723a2a3fdfa5d300000000bf800000000000003e8b24a73f3e9425,
  0xbf112d66be723a2a3fd93f6c00000000bf800000000000003e90a2443f4152f4,
  0xbf1dfa33be723a2a3fd93f6c00000000bf800000000000003e961fc13f4152f4,
  0xbf1dfa33be723a2a3f327ed800000000bf800000000000003e961fc13f783a43,
  0xbf112d66be723a2a3f327ed800000000bf800000000000003e90a2443f783a43,
  0x3f086c33be723a2a3fd93f6c00000000bf800000000000003d3ec4613f4152f4,
  0x3f153900be723a2a3fd93f6c00000000bf800000000000003d12d7733f4152f4,
  0x3f11cb04be723a2a3fdfa5d300000000bf800000000000003d1e9d0f3f3e9425,
  0x3f06b53dbe723a2a3fdc729f00000000bf800000000000003d44a6223f3ff38c,
  0x3f086c33be723a2a3fe4553200000000bf800000000000003d3ec4613f3c91b0,
  0x3f0205cdbe723a2a3fdeca4f00000000bf800000000000003d54b9cb3f3ef252,
  0x3f086c33be723a2a3f327ed800000000bf800000000000003d3ec4613f783a43,
  0x3f153900be723a2a3f327ed800000000bf800000000000003d12d7733f783a43,
  0x3e840b9abe723a2a3f25b20c00000000bf800000000000003dd82ba63f7af901,
  0x3e840b9abe723a2a3f18e53f00000000bf800000000000003dd82ba63f7db7d0,
  0x3ef73ecdbe723a2a3f18e53f00000000bf800000000000003d6ab0423f7db7d0,
  0x3ef73ecdbe723a2a3f25b20c00000000bf800000000000003d6ab0423f7af901,
  0xbf04609abe723a2a3f25b20c00000000bf800000000000003e8b24a73f7af901,
  0xbf04609abe723a2a3f18e53f00000000bf800000000000003e8b24a73f7db7d0,
  0xbe958e00be723a2a3f18e53f00000000bf800000000000003e64df8b3f7db7d0,
  0xbe958e00be723a2a3f25b20c00000000bf800000000000003e64df8b3f7af901,
  0xbf1a8c26be723a2a3fdfa5d3bf5db22d000000003f0000003d87c17b3d1985ad,
  0xbf112d66be723a2a3fe45532bf000000000000003f5db22d3daa2b173ca964e9,
  0xbf1a8c26be723a2a3fdfa5d300000000bf800000000000003e94a72f3f3e9425,
  0xbf0f7660be723a2a3fdc729f00000000bf800000000000003e8fe5eb3f3ff38c,
  0xbf0ac700be723a2a3fdeca4f00000000bf800000000000003e8de3763f3ef252,
  0xbf112d66be723a2a3fe4553200000000bf800000000000003e90a2443f3c91b0,
  0x3f11cb04be723a2a3f25b20c3f5db22d00000000bf0000003f1ad8b23f0ade76,
  0x3f086c33be723a2a3f1c533b3f00000000000000bf5db22d3f168b7e3f0f2baa,
  0x3f11cb04be723a2a3f25b20c00000000bf800000000000003d1e9d0f3f7af901,
  0x3f06b53dbe723a2a3f2c187200000000bf800000000000003d44a6223f7999aa,
  0x3f0205cdbe723a2a3f27691200000000bf800000000000003d54b9cb3f7a9ae5,
  0x3f086c33be723a2a3f1c533b00000000bf800000000000003d3ec4613f7cfb76,
  0xbf1a8c26be723a2a3f25b20cbf5db22d00000000bf0000003d87c17b3f0ade76,
  0xbf112d66be723a2a3f1c533bbf00000000000000bf5db22d3daa2b173f0f2baa,
  0xbf1a8c26be723a2a3f25b20c00000000bf800000000000003e94a72f3f7af901,
  0xbf0f7660be723a2a3f2c187200000000bf800000000000003e8fe5eb3f7999aa,
  0xbf112d66be723a2a3f1c533b00000000bf800000000000003e90a2443f7cfb76,
  0xbf0ac700be723a2a3f27691200000000bf800000000000003e8de3763f7a9ae5,
  0x3ef73ecd3e275c073fdfa5d3be05a1cb00000000bf7dcc643d95bbbf3f430846,
  0x3ef73ecdbe723a2a3fdfa5d3be05a1cb00000000bf7dcc643d6ab0423f3e9425,
  0xbf04609abe723a2a3fdfa5d33e05a1cb00000000bf7dcc643e8b24a73f3e9425,
  0xbf04609a3e275c073fdfa5d33e05a1cb00000000bf7dcc643e830bbf3f430846,
  0xbf112d663e275c073fd93f6c3f7dcc6400000000be05a1cb3e87ba023f455f67,
  0xbf112d66be723a2a3fd93f6c3f7dcc6400000000be05a1cb3e90a2443f4152f4,
  0xbf112d66be723a2a3f327ed83f7dcc64000000003e05a1cb3e90a2443f783a43,
  0xbf112d663e275c073f327ed83f7dcc64000000003e05a1cb3e87ba023f742dcf,
  0x3f086c333e275c073fd93f6cbf7dcc6400000000be05a1cb3d8302b43f455f67,
  0x3f086c33be723a2a3fd93f6cbf7dcc6400000000be05a1cb3d3ec4613f4152f4,
  0x3f06b53dbe723a2a3fdc729fbf5db22d00000000bf0000003d44a6223f3ff38c,
  0x3f06b53d3e275c073fdc729fbf5db22d00000000bf0000003d8584f53f4433d7,
  0x3f086c333e275c073f327ed8bf7dcc64000000003e05a1cb3d8302b43f742dcf,
  0x3f086c33be723a2a3f327ed8bf7dcc64000000003e05a1cb3d3ec4613f783a43,
  0x3e840b9a3de852b53f18e53fbf80000000000000800000003de9fc6e3f78dc01,
  0x3e840b9abe723a2a3f18e53fbf80000000000000800000003dd82ba63f7db7d0,
  0x3e840b9abe723a2a3f25b20cbf80000000000000800000003dd82ba63f7af901,
  0x3e840b9a3e275c073f25b20cbf80000000000000800000003de9fc6e3f7684e0,
  0x3e840b9a3e275c073f25b20c80000000000000003f8000003de9fc6e3f7684e0,
  0x3e840b9abe723a2a3f25b20c80000000000000003f8000003dd82ba63f7af901,
  0x3ef73ecdbe723a2a3f25b20cbe05a1cb000000003f7dcc643d6ab0423f7af901,
  0x3ef73ecd3e275c073f25b20cbe05a1cb000000003f7dcc643d95bbbf3f7684e0,
  0xbf04609a3e275c073f25b20c3e05a1cb000000003f7dcc643e830bbf3f7684e0,
  0xbf04609abe723a2a3f25b20c3e05a1cb000000003f7dcc643e8b24a73f7af901,
  0xbe958e00be723a2a3f25b20c80000000000000003f8000003e64df8b3f7af901,
  0xbe958e003e275c073f25b20c80000000000000003f8000003e5bf76a3f7684e0,
  0xbe958e003e275c073f25b20c3f80000000000000800000003e5bf76a3f7684e0,
  0xbe958e00be723a2a3f25b20c3f80000000000000800000003e64df8b3f7af901,
  0xbe958e003de852b53f18e53f3f80000000000000800000003e5bf76a3f78dc01,
  0xbe958e00be723a2a3f18e53f3f80000000000000800000003e64df8b3f7db7d0,
  0x3f0205cdbe723a2a3fdeca4fbf00000000000000bf5db22d3d54b9cb3f3ef252,
  0x3f0205cd3e275c073fdeca4fbf00000000000000bf5db22d3d8c5f393f43588e,
  0xbf0f76603e275c073fdc729f3f5db22d00000000bf0000003e8719723f4433d7,
  0xbf0f7660be723a2a3fdc729f3f5db22d00000000bf0000003e8fe5eb3f3ff38c,
  0xbf0ac7003e275c073fdeca4f3f00000000000000bf5db22d3e8562e13f43588e,
  0xbf0ac700be723a2a3fdeca4f3f00000000000000bf5db22d3e8de3763f3ef252,
  0x3f06b53d3e275c073f2c1872bf5db22d000000003f0000003d8584f53f75594f,
  0x3f06b53dbe723a2a3f2c1872bf5db22d000000003f0000003d44a6223f7999aa,
  0x3f0205cd3e275c073f276912bf000000000000003f5db22d3d8c5f393f7634a8,
  0x3f0205cdbe723a2a3f276912bf000000000000003f5db22d3d54b9cb3f7a9ae5,
  0xbf0f7660be723a2a3f2c18723f5db22d000000003f0000003e8fe5eb3f7999aa,
  0xbf0f76603e275c073f2c18723f5db22d000000003f0000003e8719723f75594f,
  0xbf0ac700be723a2a3f2769123f000000000000003f5db22d3e8de3763f7a9ae5,
  0xbf0ac7003e275c073f2769123f000000000000003f5db22d3e8562e13f7634a8,
  0x3e840b9a3e275c073f1c533bbf80000000000000800000003de9fc6e3f783b82,
  0xbe958e003e275c073f1c533b3f80000000000000800000003e5bf76a3f783b82,
  0x3e840b9a3e275c073f25b20c00000000bf800000000000003de9fc6e3f7684e0,
  0x3ef73ecd3e275c073f25b20c00000000bf800000000000003d95bbbf3f7684e0,
  0xbc8c13343e275c073f993f6c00000000bf800000000000003e287ad13f5cc693,
  0xbe958e003e275c073f25b20c00000000bf800000000000003e5bf76a3f7684e0,
  0x3f0205cd3e275c073f27691200000000bf800000000000003d8c5f393f7634a8,
  0x3f06b53d3e275c073f2c187200000000bf800000000000003d8584f53f75594f,
  0x3f086c333e275c073f327ed800000000bf800000000000003d8302b43f742dcf,
  0x3f086c333e275c073fd93f6c00000000bf800000000000003d8302b43f455f67,
  0x3f06b53d3e275c073fdc729f00000000bf800000000000003d8584f53f4433d7,
  0x3f0205cd3e275c073fdeca4f00000000bf800000000000003d8c5f393f43588e,
  0x3ef73ecd3e275c073fdfa5d300000000bf800000000000003d95bbbf3f430846,
  0xbf04609a3e275c073fdfa5d300000000bf800000000000003e830bbf3f430846,
  0xbf0ac7003e275c073fdeca4f00000000bf800000000000003e8562e13f43588e,
  0xbf0f76603e275c073fdc729f00000000bf800000000000003e8719723f4433d7,
  0xbf112d663e275c073fd93f6c00000000bf800000000000003e87ba023f455f67,
  0xbf112d663e275c073f327ed800000000bf800000000000003e87ba023f742dcf,
  0xbf0f76603e275c073f2c187200000000bf800000000000003e8719723f75594f,
  0xbf0ac7003e275c073f27691200000000bf800000000000003e8562e13f7634a8,
  0xbf04609a3e275c073f25b20c00000000bf800000000000003e830bbf3f7684e0,
  0x3e840b9a3e275c073f1c533b00000000bf800000000000003de9fc6e3f783b82,
  0xbe958e003e275c073f1c533b00000000bf800000000000003e5bf76a3f783b82]

set_option maxRecDepth 100000 in
/-- the triangles of `HIT_TARGET_FAT_SQUARE_INDICES`, /repo/src/vpx/mesh/hittargets/hit_target_fat_square_mesh.rs:313-361 -/
def hitTargetFatSquareTris : List Nat := [
  0x000000010002, 0x000000030001, 0x000400050006, 0x000400070005, 0x00080009000a, 0x000b0008000a, 0x000c000d000e,
  0x000c000f000d, 0x001000110012, 0x001300120011, 0x001400150016, 0x001400170015, 0x00180019001a, 0x0018001b0019,
  0x001c001d001e, 0x001f001c001e, 0x002000210022, 0x002000230021, 0x002400250026, 0x002700240026, 0x00280029002a,
  0x0028002b0029, 0x002c002d002e, 0x002c002f002d, 0x003000310032, 0x003300300032, 0x003400350036, 0x003400370035,
  0x00380039003a, 0x003b0038003a, 0x003c003d003e, 0x0041003d003c, 0x003e008a008b, 0x003e008b008c, 0x003e007c008a,
  0x003e008c007a, 0x0046003d0041, 0x003d003f003e, 0x003f003d0046, 0x007a007b003e, 0x007b007a0081, 0x007b00810082,
  0x007b00820083, 0x007b00830080, 0x003e007b003c, 0x0047003f0046, 0x003f0040003e, 0x00470040003f, 0x0040008d003e,
  0x0047008e0040, 0x008d0040008e, 0x007c003e007d, 0x007d003e008d, 0x007d0089007c, 0x007d00880089, 0x007d00870088,
  0x007e0087007d, 0x004700460048, 0x008e0047008f, 0x0048008f0047, 0x004800460045, 0x004500460041, 0x00b3008f0048,
  0x004800b400b3, 0x0048004500b4, 0x008f00b300b9, 0x00da00b40045, 0x00b9009b008f, 0x009b008e008f, 0x009b00b900b8,
  0x0045004300da, 0x004500410043, 0x00d900da0043, 0x00b80099009b, 0x009900b800b7, 0x009b009a008e, 0x0099009a009b,
  0x009a008d008e, 0x00b700960099, 0x009600b700ba, 0x0095008d009a, 0x007d008d0095, 0x0098009a0099, 0x00980095009a,
  0x009600980099, 0x009800930095, 0x007d00950093, 0x009600970098, 0x009700930098, 0x00ba009d0096, 0x00970096009d,
  0x00ba00df009d, 0x009400930097, 0x007d00930094, 0x009d009e0097, 0x00940097009e, 0x00ae009d00df, 0x00ae009e009d,
  0x00df00e000ae, 0x009e009c0094, 0x007d0094009c, 0x00ad009e00ae, 0x00ad009c009e, 0x00af00ae00e0, 0x00af00ad00ae,
  0x00e000bb00af, 0x00ad00ab009c, 0x00b200af00bb, 0x00bb00bc00b2, 0x00b200bc00bd, 0x00af00b000ad, 0x00b200b000af,
  0x00b000ab00ad, 0x00b200bd00b1, 0x00b100b000b2, 0x00b100bd00be, 0x00ac00ab00b0, 0x00b100ac00b0, 0x00a800b100be,
  0x00b100a800ac, 0x00a800be00a9, 0x00ab00ac007f, 0x009c00ab007f, 0x00ac00a8007f, 0x009c007f007d, 0x007e007d007f,
  0x0086007e007f, 0x007f00850086, 0x007f00840085, 0x007f00800084, 0x007f007b0080, 0x007f00a800a1, 0x00a1007b007f,
  0x00a800a900a1, 0x007b00a100a0, 0x00a600a100a9, 0x007b00a0009f, 0x00a400a100a6, 0x00a000a100a4, 0x00a700a600a9,
  0x00a700a900aa, 0x00bf00aa00c0, 0x00a700aa00bf, 0x00a700bf00e6, 0x00a500a600a7, 0x00e600a500a7, 0x00a500a400a6,
  0x00a500e600e5, 0x00a200a000a4, 0x00a2009f00a0, 0x00a300a400a5, 0x00e500a300a5, 0x00a200a400a3, 0x00a300e500b6,
  0x00b6009100a3, 0x009100a200a3, 0x009100b600b5, 0x0092009f00a2, 0x0091009200a2, 0x007b009f0090, 0x0090009f0092,
  0x0090003c007b, 0x00b500440091, 0x009100440092, 0x00b500d90044, 0x0043004400d9, 0x009200420090, 0x004200920044,
  0x003c00900042, 0x004300420044, 0x0041003c0042, 0x004100420043, 0x0049004a004b, 0x004c004a0049, 0x004b004a0059,
  0x004d004a004c, 0x0059004a0058, 0x004e004a004d, 0x0058004a0057, 0x004f004a004e, 0x0057004a0056, 0x0050004a004f,
  0x0056004a0055, 0x0051004a0050, 0x0055004a0054, 0x0052004a0051, 0x0054004a0053, 0x0053004a0052, 0x005a005b005c,
  0x005c005d005a, 0x005b005a005e, 0x005d005c0079, 0x005e005f005b, 0x00790078005d, 0x005f005e0060, 0x007800790077,
  0x00600061005f, 0x007700760078, 0x006100600062, 0x007600770075, 0x006200630061, 0x007500740076, 0x006300620064,
  0x007400750073, 0x006400650063, 0x007300720074, 0x006500640066, 0x007200730071, 0x006600670065, 0x007100700072,
  0x006700660068, 0x00700071006f, 0x006800690067, 0x006f006e0070, 0x00690068006a, 0x006e006f006d, 0x006a006b0069,
  0x006d006c006e, 0x006b006a006c, 0x006c006d006b, 0x00c100c200c3, 0x00c300c400c1, 0x00c200c100ce, 0x00c300de00c4,
  0x00ce00cd00c2, 0x00dd00c400de, 0x00cd00ce00cc, 0x00db00dd00de, 0x00cd00cc00cb, 0x00dc00dd00db, 0x00c900cb00cc,
  0x00db00c600dc, 0x00c900ca00cb, 0x00dc00c600c5, 0x00ca00c900cf, 0x00c500c600c7, 0x00cf00d000ca, 0x00c700c800c5,
  0x00e200d000cf, 0x00c800c700e7, 0x00e100d000e2, 0x00c800e700e8, 0x00e200e300e1, 0x00e900e800e7, 0x00e100e300e4,
  0x00e900ea00e8, 0x00e300d400e4, 0x00ea00e900d6, 0x00d300e400d4, 0x00d600d500ea, 0x00d300d400d1, 0x00d100d200d3,
  0x00d500d600d7, 0x00d700d800d5, 0x00eb00ec00ed, 0x00ed00ee00eb, 0x00ec00eb010a, 0x00ee00ed010e, 0x010a010900ec,
  0x010e010d00ee, 0x0109010a00f6, 0x010d010e010c, 0x00f600f50109, 0x010c010b010d, 0x00f500f600f3, 0x010b010c00f0,
  0x00f300f400f5, 0x00f000ef010b, 0x00f400f300f7, 0x00ef00f000f1, 0x00f700f800f4, 0x00f100f200ef, 0x00f800f7010f,
  0x00f200f10113, 0x010f011000f8, 0x0113011400f2, 0x0110010f0111, 0x011401130115, 0x011101120110, 0x011501160114,
  0x011201110100, 0x011601150102, 0x010000ff0112, 0x010201010116, 0x00ff010000fd, 0x00fd00fe00ff, 0x010101020103,
  0x010301040101, 0x00f900fa00fb, 0x00fb00fc00f9, 0x00fc011700f9, 0x010501060107, 0x010701180105, 0x010801070106,
  0x0119011a011b, 0x011a011d011b, 0x011b011d011e, 0x011b011e011f, 0x011b011f0120, 0x01200121011b, 0x01210122011b,
  0x011b01220123, 0x01230124011b, 0x01240125011b, 0x011b01250126, 0x011b01260127, 0x01270128011b, 0x01280129011b,
  0x0129012a011b, 0x011b012a012b, 0x012b011c011b, 0x011b011c0119, 0x012c0119011c, 0x012d012c011c]

/-- the table of /repo/src/vpx/mesh/hittargets/hit_target_fat_square_mesh.rs -/
def hitTargetFatSquareTable : MeshTable := unpackTable hitTargetFatSquareVertices hitTargetFatSquareTris

set_option maxRecDepth 100000 in
/-- the vertices of `HIT_TARGET_RECTANGLE_MESH`, /repo/src/vpx/mesh/hittargets/hit_target_rectangle_mesh.rs:8-170 -/
def hitTargetRectangleVertices : List Nat := [
  0x3f2813233db23fee3f29a4483f7ebee000000000bdc985f03eeb52653f1970b5,
  0x3f2813233e49cf9a3f29a4483f7ebee000000000bdc985f03eeb52653f2170b5,
  0x3f2814513e49cf9a3fc1a0173f7ebee0000000003dc9ba5e3e82c7543f2170b5,
  0x3f2814513db23fee3fc1a0173f7ebee0000000003dc9ba5e3e82c7543f1970b5,
  0xbf318c7e3e49cf9a3f29a3d3bf7ebee000000000bdc9ba5e3f4164523f2170b5,
  0xbf318c7e3db23fee3f29a3d3bf7ebee000000000bdc9ba5e3f4164523f1970b5,
  0xbf318c7e3db23fee3fc1a017bf7ebee0000000003dc9ba5e3f75a9eb3f1970b5,
  0xbf318c7e3e49cf9a3fc1a017bf7ebee0000000003dc9ba5e3f75a9eb3f2170b5,
  0x3f04e11e3e49cf9a3fd339b03dc95183000000003f7ec56d3e5c5d643f2170b5,
  0xbf0e594b3e49cf9a3fd339b0bdc95183000000003f7ec56d000000003f2170b5,
  0x3f04e11e3db23fee3fd339b03dc95183000000003f7ec56d3e5c5d643f1970b5,
  0xbf0e594b3db23fee3fd339b0bdc95183000000003f7ec56d000000003f1970b5,
  0x3f04dff03e49cf9a3f0671153dc91d1500000000bf7ec56d3efff9513f2170b5,
  0xbf0e594b3db23fee3f0670a0bdc9518300000000bf7ec56d3f3715f93f1970b5,
  0xbf0e594b3e49cf9a3f0670a0bdc9518300000000bf7ec56d3f3715f93f2170b5,
  0x3f04dff03db23fee3f0671153dc91d1500000000bf7ec56d3efff9513f1970b5,
  0x3f1255f33db23fee3f091fe63ec40b7800000000bf6c7e283efad7f93f1970b5,
  0x3f1255f33e49cf9a3f091fe63ec40b7800000000bf6c7e283efad7f93f2170b5,
  0x3f1dc1723db23fee3f10c1443f35048100000000bf3504813ef592103f1970b5,
  0x3f1dc1723e49cf9a3f10c1443f35048100000000bf3504813ef592103f2170b5,
  0x3f2562d03db23fee3f1c2cc33f6c779a00000000bec418933ef0724b3f1970b5,
  0x3f2562d03e49cf9a3f1c2cc33f6c779a00000000bec418933ef0724b3f2170b5,
  0xbf1bce213db23fee3f091fe6bec4189300000000bf6c7e283f39a6613f1970b5,
  0xbf1bce213e49cf9a3f091fe6bec4189300000000bf6c7e283f39a6613f2170b5,
  0xbf27398f3db23fee3f10c144bf35048100000000bf3504813f3c30a13f1970b5,
  0xbf27398f3e49cf9a3f10c144bf35048100000000bf3504813f3c30a13f2170b5,
  0xbf2edafd3db23fee3f1c2cc3bf6c779a00000000bec432ca3f3ed46f3f1970b5,
  0xbf2edafd3e49cf9a3f1c2cc3bf6c779a00000000bec432ca3f3ed46f3f2170b5,
  0x3f1255f33db23fee3fd1e20d3ec41893000000003f6c7e283e669f063f1970b5,
  0x3f1255f33e49cf9a3fd1e20d3ec40b78000000003f6c7e283e669f063f2170b5,
  0x3f1dc1723db23fee3fce115e3f350481000000003f3504813e70c0273f1970b5,
  0x3f1dc1723e49cf9a3fce115e3f350481000000003f3504813e70c0273f2170b5,
  0x3f2562d03db23fee3fc85b9f3f6c779a000000003ec432ca3e7b4f1e3f1970b5,
  0x3f2562d03e49cf9a3fc85b9f3f6c779a000000003ec432ca3e7b4f1e3f2170b5,
  0xbf1bce213db23fee3fd1e20dbec41893000000003f6c7e283f7d6f973f1970b5,
  0xbf0e594b3db23fee3fd339b0bdc95183000000003f7ec56d3f8000003f1970b5,
  0xbf1bce213e49cf9a3fd1e20dbec41893000000003f6c7e283f7d6f973f2170b5,
  0xbf0e594b3e49cf9a3fd339b0bdc95183000000003f7ec56d3f8000003f2170b5,
  0xbf27398f3db23fee3fce115ebf350481000000003f3504813f7ac9b03f1970b5,
  0xbf27398f3e49cf9a3fce115ebf350481000000003f3504813f7ac9b03f2170b5,
  0xbf2edafd3db23fee3fc85b9fbf6c779a000000003ec432ca3f7839ce3f1970b5,
  0xbf2edafd3e49cf9a3fc85b9fbf6c779a000000003ec432ca3f7839ce3f2170b5,
  0x3f1255f33db23fee3f091fe680000000bf800000000000003cc436fc3f7e558f,
  0xbc9782d43db23fee3f8b390080000000bf800000000000003e2d755c3f5b8445,
  0x3f04dff03db23fee3f06711580000000bf800000000000003d172ffd3f7efec5,
  0x3f1dc1723db23fee3f10c14480000000bf800000000000003c5449993f7c7454,
  0x3f2562d03db23fee3f1c2cc380000000bf800000000000003bb7dc7b3f79a405,
  0x3f2813233db23fee3f29a44880000000bf800000000000003b461d863f7652ac,
  0xbf0e594b3db23fee3f0670a080000000bf800000000000003e9a90043f7efee7,
  0xbf1bce213db23fee3f091fe680000000bf800000000000003ea1320e3f7e558f,
  0xbf27398f3db23fee3f10c14480000000bf800000000000003ea6d30f3f7c7454,
  0xbf2edafd3db23fee3f1c2cc380000000bf800000000000003eaa95ea3f79a405,
  0xbf318c7e3db23fee3f29a3d380000000bf800000000000003eabe9c93f7652ce,
  0xbf318c7e3db23fee3fc1a01780000000bf800000000000003eabe9c93f40b5bb,
  0xbf2edafd3db23fee3fc85b9f80000000bf800000000000003eaa95ea3f3d6473,
  0xbf27398f3db23fee3fce115e80000000bf800000000000003ea6d30f3f3a9436,
  0xbf1bce213db23fee3fd1e20d80000000bf800000000000003ea1320e3f38b2ea,
  0xbf0e594b3db23fee3fd339b080000000bf800000000000003e9a90043f380991,
  0x3f04e11e3db23fee3fd339b080000000bf800000000000003d172bcb3f380991,
  0x3f1255f33db23fee3fd1e20d80000000bf800000000000003cc436fc3f38b2ea,
  0x3f1dc1723db23fee3fce115e80000000bf800000000000003c5449993f3a9436,
  0x3f2562d03db23fee3fc85b9f80000000bf800000000000003bb7dc7b3f3d6473,
  0x3f2814513db23fee3fc1a01780000000bf800000000000003b45c9a33f40b5bb,
  0x3f04dff03e49cf9a3f067115000000003f800000000000003f212ccf3f155d5f,
  0xbc9782d43e49cf9a3f8b3900000000003f800000000000003eb3e7d13e95b7f1,
  0x3f1255f33e49cf9a3f091fe6000000003f800000000000003f28245f3f13f9f8,
  0x3f1dc1723e49cf9a3f10c144000000003f800000000000003f2e0d783f100757,
  0x3f2562d03e49cf9a3f1c2cc3000000003f800000000000003f32007e3f0a1ec5,
  0x3f2813233e49cf9a3f29a448000000003f800000000000003f3365563f032713,
  0xbf0e594b3e49cf9a3f0670a0000000003f800000000000003d95d2d03f155d92,
  0xbf1bce213e49cf9a3f091fe6000000003f800000000000003d3c36113f13f9f8,
  0xbf27398f3e49cf9a3f10c144000000003f800000000000003cbb49173f100757,
  0xbf2edafd3e49cf9a3f1c2cc3000000003f800000000000003bf3a9b03f0a1ec5,
  0xbf318c7e3e49cf9a3f29a3d3000000003f800000000000003b026aa93f032757,
  0xbf318c7e3e49cf9a3fc1a017000000003f800000000000003b026aa93d9484d7,
  0xbf2edafd3e49cf9a3fc85b9f000000003f800000000000003bf3a9b03d3992c9,
  0xbf27398f3e49cf9a3fce115e000000003f800000000000003cbb49173cb61566,
  0xbf1bce213e49cf9a3fd1e20d000000003f800000000000003d3c36113bdef417,
  0xbf0e594b3e49cf9a3fd339b0000000003f800000000000003d95d2d03ab4bf90,
  0x3f04e11e3e49cf9a3fd339b0000000003f800000000000003f212d663ab4bf90,
  0x3f1255f33e49cf9a3fd1e20d000000003f800000000000003f28245f3bdef417,
  0x3f1dc1723e49cf9a3fce115e000000003f800000000000003f2e0d783cb61566,
  0x3f2562d03e49cf9a3fc85b9f000000003f800000000000003f32007e3d3992c9,
  0x3f2814513e49cf9a3fc1a017000000003f800000000000003f3365563d9484d7,
  0x3e6d0fa63db23fee3fa80b4e3f80000000000000000000003f5bb7743e4c0443,
  0x3e6d0fa63d7e34b9be9331a13f80000000000000000000003f5f55043f1495e1,
  0x3e6d0fa63db23feebe9331a13f80000000000000000000003f5bb7743f1495e1,
  0x3e6d0fa63d7e34b93fa80b4e3f80000000000000000000003f5f55043e4c0443,
  0xbe89782d3db23fee3fa80b4e00000000000000003f8000003f3d3aa33e4c0443,
  0x3e6d0fa63d7e34b93fa80b4e00000000000000003f8000003f5bb1293e3794ea,
  0x3e6d0fa63db23fee3fa80b4e00000000000000003f8000003f5bb7743e4c0443,
  0xbe89782d3d7e34b93fa80b4e00000000000000003f8000003f3d36723e3794ea,
  0xbe89782d3d7e34b9be9331a1bf80000000000000800000003f3998293f1495e1,
  0xbe89782d3d7e34b93fa80b4ebf80000000000000800000003f3998293e4c0443,
  0xbe89782d3db23fee3fa80b4ebf80000000000000800000003f3d3aa33e4c0443,
  0xbe89782d3db23feebe9331a1bf80000000000000800000003f3d3aa33f1495e1,
  0x3e6d0fa63db23fee3fa80b4e000000003f800000000000003f5bb7743e4c0443,
  0xbe89782d3db23feebe9331a1000000003f800000000000003f3d3aa33f1495e1,
  0xbe89782d3db23fee3fa80b4e000000003f800000000000003f3d3aa33e4c0443,
  0x3e6d0fa63db23feebe9331a1000000003f800000000000003f5bb7743f1495e1,
  0x3e6d0fa63d7e34b93fa80b4e80000000bf800000000000003f5f55043e4c0443,
  0xbe89782d3d7e34b93fa80b4e80000000bf800000000000003f7dd1d43e4c0443,
  0xbe89782d3d7e34b9be9331a180000000bf800000000000003f7dd1d43f1495e1,
  0x3e6d0fa63d7e34b9be9331a180000000bf800000000000003f5f55043f1495e1,
  0x3dde49b23e49cf9a3f847cd03e2978d53f7bda51bd8c7e283f7cc9c93df5781c,
  0xbc9782d43e6373b03f8b3908000000003f800000000000003f691d043db445ed,
  0x3df3b96b3e49cf9a3f8b39083e3780343f7bda51000000003f7e68c23db445ed,
  0x3da13ec43e49cf9a3f7d8e323e01bda53f7bda51be01bda53f782bfa3e165ecc,
  0x3d0bc59c3e49cf9a3f75ecc43d8c7e283f7bda51be2978d53f71434a3e28d60a,
  0xbc9782d43e49cf9a3f733ede800000003f7bda51be3780343f691d043e2f51f0,
  0xbd91a4383e49cf9a3f75ecc4bd8c7e283f7bda51be2978d53f60f6ad3e28d60a,
  0xbdecffa83e49cf9a3f7d8e32be01bda53f7bda51be01bda53f5a0dfe3e165ecc,
  0xbe15058e3e49cf9a3f847cd0be2978d53f7bda51bd8c7e283f55703f3df5781c,
  0xbe1fbd273e49cf9a3f8b3908be3780343f7bda51000000003f53d1353db445ed,
  0xbe15058e3e49cf9a3f91f549be2978d53f7bda513d8c7e283f55703f3d662670,
  0xbdecffa83e49cf9a3f97ab00be01bda53f7bda513e01bda53f5a0dfe3cef3908,
  0xbd91a4383e49cf9a3f9b7bafbd8c7e283f7bda513e2978d53f60f6ad3c36fe2e,
  0xbc9782d43e49cf9a3f9cd2aa800000003f7bda513e3780343f691d043b9e774f,
  0x3d0bc59c3e49cf9a3f9b7baf3d8c7e283f7bda513e2978d53f71434a3c36fe2e,
  0x3da13ec43e49cf9a3f97ab003e01bda53f7bda513e01bda53f782bfa3cef3908,
  0x3dde49b23e49cf9a3f91f5493e2978d53f7bda513d8c7e283f7cc9c93d662670,
  0x3e79dc72bc020e633fe339083f80000000000000000000003eff22183f2debea,
  0x3e79dc72be21ba803ee017553f80000000000000000000003f07c6973f761e93,
  0x3e79dc72bc020e633ee017553f80000000000000000000003eff22183f761e93,
  0x3e79dc72be21ba803fe339083f80000000000000000000003f07c6973f2debea,
  0xbe8fde94bc020e633fe3390800000000000000003f8000003ec5d69d3f2debea,
  0x3e79dc72be21ba803fe3390800000000000000003f8000003eff22183f2567dc,
  0x3e79dc72bc020e633fe3390800000000000000003f8000003eff22183f2debea,
  0xbe8fde94be21ba803fe3390800000000000000003f8000003ec5d69d3f2567dc,
  0xbe8fde94be21ba803ee01755bf80000000000000800000003eb5a0383f761e93,
  0xbe8fde94be21ba803fe33908bf80000000000000800000003eb5a0383f2debea,
  0xbe8fde94bc020e633fe33908bf80000000000000800000003ec5d69d3f2debea,
  0xbe8fde94bc020e633ee01755bf80000000000000800000003ec5d69d3f761e93,
  0x3e79dc72bc020e633fe33908000000003f800000000000003eff22183f2debea,
  0xbe8fde94bc020e633ee01755000000003f800000000000003ec5d69d3f761e93,
  0xbe8fde94bc020e633fe33908000000003f800000000000003ec5d69d3f2debea,
  0x3e79dc72bc020e633ee01755000000003f800000000000003eff22183f761e93,
  0xbe8fde94be21ba803ee017550000000000000000bf8000003ec5d69d3f7e48a6,
  0xbe8fde94bc020e633ee017550000000000000000bf8000003ec5d69d3f761e93,
  0x3e79dc72be21ba803ee017550000000000000000bf8000003eff22183f7e48a6,
  0x3e79dc72bc020e633ee017550000000000000000bf8000003eff22183f761e93,
  0x3e8354a0be21ba803fe4d2a23f80000000000000000000003f1277703f5a0914,
  0x3e8354a0be54edb3be931bdf3f80000000000000000000003f7ee3d63f545a92,
  0x3e8354a0be21ba80be931bdf3f80000000000000000000003f7ee3d63f5a0914,
  0x3e8354a0be54edb33fe4d2a23f80000000000000000000003f1277703f545a92,
  0xbe9644fabe21ba803fe4d2a200000000000000003f8000003f1277703f79a134,
  0x3e8354a0be54edb33fe4d2a200000000000000003f8000003f0d2e413f5a0914,
  0x3e8354a0be21ba803fe4d2a200000000000000003f8000003f1277703f5a0914,
  0xbe9644fabe54edb33fe4d2a200000000000000003f8000003f0d2e413f79a134,
  0xbe9644fabe54edb3be931bdfbf80000000000000800000003f7ee3d63f7f0cdd,
  0xbe9644fabe54edb33fe4d2a2bf80000000000000800000003f1277703f7f0cdd,
  0xbe9644fabe21ba803fe4d2a2bf80000000000000800000003f1277703f79a134,
  0xbe9644fabe21ba80be931bdfbf80000000000000800000003f7ee3d63f79a134,
  0x3e8354a0be21ba803fe4d2a2000000003f800000000000003f1277703f5a0914,
  0xbe9644fabe21ba80be931bdf000000003f800000000000003f7ee3d63f79a134,
  0xbe9644fabe21ba803fe4d2a2000000003f800000000000003f1277703f79a134,
  0x3e8354a0be21ba80be931bdf000000003f800000000000003f7ee3d63f5a0914,
  0x3e8354a0be54edb33fe4d2a280000000bf800000000000003f1277703f545a92,
  0xbe9644fabe54edb33fe4d2a280000000bf800000000000003f1277703f34bdba,
  0xbe9644fabe54edb3be931bdf80000000bf800000000000003f7ee3d63f34bdba,
  0x3e8354a0be54edb3be931bdf80000000bf800000000000003f7ee3d63f545a92]

set_option maxRecDepth 100000 in
/-- the triangles of `HIT_TARGET_RECTANGLE_INDICES`, /repo/src/vpx/mesh/hittargets/hit_target_rectangle_mesh.rs:172-190 -/
def hitTargetRectangleTris : List Nat := [
  0x005400550056, 0x005400570055, 0x000000010002, 0x000000140001, 0x000300000002, 0x000100140015, 0x002100030002,
  0x001400120015, 0x002100200003, 0x001500120013, 0x001f00200021, 0x001200100013, 0x001f001e0020, 0x001300100011,
  0x001d001e001f, 0x0010000f0011, 0x001d001c001e, 0x0011000f000c, 0x0008001c001d, 0x000c000f000d, 0x0008000a001c,
  0x000c000d000e, 0x00080009000a, 0x000a0009000b, 0x000e000d0016, 0x000e00160017, 0x001700160018, 0x001700180019,
  0x00190018001a, 0x0019001a001b, 0x001b001a0005, 0x001b00050004, 0x000400050006, 0x000700040006, 0x000600280007,
  0x000700280029, 0x002800260029, 0x002900260027, 0x002600220027, 0x002700220024, 0x002200230024, 0x002400230025,
  0x002a002b002c, 0x002b002a002d, 0x002b0030002c, 0x002b002d002e, 0x0030002b0031, 0x002b002e002f, 0x0031002b0032,
  0x002b002f003e, 0x0032002b0033, 0x003d002b003e, 0x002b00340033, 0x003c002b003d, 0x0034002b0035, 0x003b002b003c,
  0x0035002b0036, 0x003a002b003b, 0x0036002b0037, 0x0039002b003a, 0x0037002b0038, 0x0038002b0039, 0x003f00400041,
  0x003f00450040, 0x004200410040, 0x004600400045, 0x004300420040, 0x004700400046, 0x004400430040, 0x004800400047,
  0x005300440040, 0x004800490040, 0x005300400052, 0x004a00400049, 0x005200400051, 0x004b0040004a, 0x005100400050,
  0x004c0040004b, 0x00500040004f, 0x004d0040004c, 0x004f0040004e, 0x004e0040004d, 0x00580059005a, 0x0058005b0059,
  0x005c005d005e, 0x005f005c005e, 0x006000610062, 0x006000630061, 0x006400650066, 0x006700640066, 0x00680069006a,
  0x006b00690068, 0x006a00690078, 0x006c0069006b, 0x007800690077, 0x006d0069006c, 0x007700690076, 0x006e0069006d,
  0x007600690075, 0x006f0069006e, 0x007500690074, 0x00700069006f, 0x007400690073, 0x007100690070, 0x007300690072,
  0x007200690071, 0x0079007a007b, 0x0079007c007a, 0x007d007e007f, 0x007d0080007e, 0x008100820083, 0x008400810083,
  0x008500860087, 0x008500880086, 0x0089008a008b, 0x008c008b008a, 0x008d008e008f, 0x008d0090008e, 0x009100920093,
  0x009100940092, 0x009500960097, 0x009800950097, 0x0099009a009b, 0x0099009c009a, 0x009d009e009f, 0x00a0009d009f]

/-- the table of /repo/src/vpx/mesh/hittargets/hit_target_rectangle_mesh.rs -/
def hitTargetRectangleTable : MeshTable := unpackTable hitTargetRectangleVertices hitTargetRectangleTris

set_option maxRecDepth 100000 in
/-- the vertices of `HIT_TARGET_ROUND_MESH`, /repo/src/vpx/mesh/hittargets/hit_target_round_mesh.rs:8-218 -/
def hitTargetRoundVertices : List Nat := [
  0x3f16aed13daf82f53f7904603f7b15b500000000be47c84b3e6000003f212f1b,
  0x3f19b1d93e48650e3f8bcc8e3f80000000000000000000003e8000003f192f1b,
  0x3f19b1d93daf82f53f8bcc8e3f80000000000000000000003e8000003f212f1b,
  0x3f16aed13e48650e3f7904603f7b15b500000000be47c84b3e6000003f192f1b,
  0x3f0dc3373e48650e3f5b9c843f6c84b600000000bec3f1413e4000003f192f1b,
  0x3f0dc3373daf82f53f5b9c843f6c84b600000000bec3f1413e4000003f212f1b,
  0x3efe8dda3daf82f53f4082bf3f54dd2f00000000bf0e3bcd3e2000003f212f1b,
  0x3efe8dda3e48650e3f4082bf3f54dd2f00000000bf0e3bcd3e2000003f192f1b,
  0x3ed790da3e48650e3f28c1ca3f35048100000000bf3504813e0000003f192f1b,
  0x3ed790da3daf82f53f28c1ca3f35048100000000bf3504813e0000003f212f1b,
  0x3ea80ed03daf82f53f1543393f0e3bcd00000000bf54dd2f3dc000003f212f1b,
  0x3ea80ed03e48650e3f1543393f0e3bcd00000000bf54dd2f3dc000003f192f1b,
  0x3e63b6cc3e48650e3f06c6ef3ec3f14100000000bf6c84b63d8000003f192f1b,
  0x3e63b6cc3daf82f53f06c6ef3ec3f14100000000bf6c84b63d8000003f212f1b,
  0x3ddc2e343daf82f53efbb6cc3e47c84b00000000bf7b15b53d0000003f212f1b,
  0x3ddc2e343e48650e3efbb6cc3e47c84b00000000bf7b15b53d0000003f192f1b,
  0xbc43bd5a3e48650e3ef5b09a8000000000000000bf800000000000003f192f1b,
  0xbc43bd5a3daf82f53ef5b09a8000000000000000bf800000000000003f212f1b,
  0xbe068ec53daf82f53efbb6ccbe47c84b00000000bf7b15b53f7800003f212f1b,
  0xbc43bd5a3e48650e3ef5b09a8000000000000000bf8000003f8000003f192f1b,
  0xbc43bd5a3daf82f53ef5b09a8000000000000000bf8000003f8000003f212f1b,
  0xbe068ec53e48650e3efbb6ccbe47c84b00000000bf7b15b53f7800003f192f1b,
  0xbe7c2e773e48650e3f06c6efbec3f14100000000bf6c84b63f7000003f192f1b,
  0xbe7c2e773daf82f53f06c6efbec3f14100000000bf6c84b63f7000003f212f1b,
  0xbeb44aa53daf82f53f154339bf0e3bcd00000000bf54dd2f3f6800003f212f1b,
  0xbeb44aa53e48650e3f154339bf0e3bcd00000000bf54dd2f3f6800003f192f1b,
  0xbee3ccaf3e48650e3f28c1cabf35048100000000bf3504813f6000003f192f1b,
  0xbee3ccaf3daf82f53f28c1cabf35048100000000bf3504813f6000003f212f1b,
  0xbf0564d83daf82f53f4082bfbf54dd2f00000000bf0e3bcd3f5800003f212f1b,
  0xbf0564d83e48650e3f4082bfbf54dd2f00000000bf0e3bcd3f5800003f192f1b,
  0xbf13e1223e48650e3f5b9c84bf6c84b600000000bec3f1413f5000003f192f1b,
  0xbf13e1223daf82f53f5b9c84bf6c84b600000000bec3f1413f5000003f212f1b,
  0xbf1cccbc3daf82f53f790460bf7b15b500000000be47c84b3f4800003f212f1b,
  0xbf1cccbc3e48650e3f790460bf7b15b500000000be47c84b3f4800003f192f1b,
  0xbf1fcfc43e48650e3f8bcc8ebf80000000000000800000003f4000003f192f1b,
  0xbf1fcfc43daf82f53f8bcc8ebf80000000000000800000003f4000003f212f1b,
  0xbf1cccbc3daf82f53f9b16f4bf7b15b5000000003e47c84b3f3800003f212f1b,
  0xbf1cccbc3e48650e3f9b16f4bf7b15b5000000003e47c84b3f3800003f192f1b,
  0xbf13e1223e48650e3fa9cae2bf6c84b6000000003ec3f1413f3000003f192f1b,
  0xbf13e1223daf82f53fa9cae2bf6c84b6000000003ec3f1413f3000003f212f1b,
  0xbf0564d83daf82f53fb757c5bf54dd2f000000003f0e3bcd3f2800003f212f1b,
  0xbf0564d83e48650e3fb757c5bf54dd2f000000003f0e3bcd3f2800003f192f1b,
  0xbee3ccaf3e48650e3fc3383fbf350481000000003f3504813f2000003f192f1b,
  0xbee3ccaf3daf82f53fc3383fbf350481000000003f3504813f2000003f212f1b,
  0xbeb44aa53daf82f53fccf788bf0e3bcd000000003f54dd2f3f1800003f212f1b,
  0xbeb44aa53e48650e3fccf788bf0e3bcd000000003f54dd2f3f1800003f192f1b,
  0xbe7c2e773e48650e3fd435adbec3f141000000003f6c84b63f1000003f192f1b,
  0xbe7c2e773daf82f53fd435adbec3f141000000003f6c84b63f1000003f212f1b,
  0xbe068ec53daf82f53fd8ab71be47c84b000000003f7b15b53f0800003f212f1b,
  0xbe068ec53e48650e3fd8ab71be47c84b000000003f7b15b53f0800003f192f1b,
  0xbc43bd5a3e48650e3fda2cfe00000000000000003f8000003f0000003f192f1b,
  0xbc43bd5a3daf82f53fda2cfe00000000000000003f8000003f0000003f212f1b,
  0x3ddc2e343daf82f53fd8ab713e47c84b000000003f7b15b53ef000003f212f1b,
  0x3ddc2e343e48650e3fd8ab713e47c84b000000003f7b15b53ef000003f192f1b,
  0x3e63b6cc3e48650e3fd435ad3ec3f141000000003f6c84b63ee000003f192f1b,
  0x3e63b6cc3daf82f53fd435ad3ec3f141000000003f6c84b63ee000003f212f1b,
  0x3ea80ed03daf82f53fccf7883f0e3bcd000000003f54dd2f3ed000003f212f1b,
  0x3ea80ed03e48650e3fccf7883f0e3bcd000000003f54dd2f3ed000003f192f1b,
  0x3ed790da3e48650e3fc3383f3f350481000000003f3504813ec000003f192f1b,
  0x3ed790da3daf82f53fc3383f3f350481000000003f3504813ec000003f212f1b,
  0x3efe8dda3daf82f53fb757c53f54dd2f000000003f0e3bcd3eb000003f212f1b,
  0x3efe8dda3e48650e3fb757c53f54dd2f000000003f0e3bcd3eb000003f192f1b,
  0x3f0dc3373e48650e3fa9cae23f6c84b6000000003ec3f1413ea000003f192f1b,
  0x3f0dc3373daf82f53fa9cae23f6c84b6000000003ec3f1413ea000003f212f1b,
  0x3f16aed13daf82f53f9b16f43f7b15b5000000003e47c84b3e9000003f212f1b,
  0x3f16aed13e48650e3f9b16f43f7b15b5000000003e47c84b3e9000003f192f1b,
  0xbc43bd5a3e48650e3f8bcc8e000000003f800000800000003eb37a813e955de6,
  0x3f19b1d93e48650e3f8bcc8e000000003f800000800000003f240af23e955de6,
  0x3f16aed13e48650e3f790460000000003f800000800000003f229d733eb25bd9,
  0x3f0dc3373e48650e3f5b9c84000000003f800000800000003f1e630f3ece3c97,
  0x3efe8dda3e48650e3f4082bf000000003f800000800000003f1785403ee7edc8,
  0x3ed790da3e48650e3f28c1ca000000003f800000800000003f0e47aa3efe72b9,
  0x3ea80ed03e48650e3f154339000000003f800000800000003f0305213f0876f3,
  0x3e63b6cc3e48650e3f06c6ef000000003f800000800000003eec59103f0f54c1,
  0x3ddc2e343e48650e3efbb6cc000000003f800000800000003ed078753f138f36,
  0xbc43bd5a3e48650e3ef5b09a000000003f800000800000003eb37a813f14fcb5,
  0xbe068ec53e48650e3efbb6cc000000003f800000800000003e967c8d3f138f36,
  0xbe7c2e773e48650e3f06c6ef000000003f800000800000003e7537a03f0f54c1,
  0xbeb44aa53e48650e3f154339000000003f800000800000003e41d53d3f0876f3,
  0xbee3ccaf3e48650e3f28c1ca000000003f800000800000003e14cb5c3efe72b9,
  0xbf0564d83e48650e3f4082bf000000003f800000800000003ddfaa043ee7edc8,
  0xbf13e1223e48650e3f5b9c84000000003f800000800000003da8bb903ece3c97,
  0xbf1cccbc3e48650e3f790460000000003f800000800000003d86e7e63eb25bd9,
  0xbf1fcfc43e48650e3f8bcc8e000000003f800000800000003d76f7e43e955de6,
  0xbf1cccbc3e48650e3f9b16f4000000003f800000800000003d86e7e63e70bfe4,
  0xbf13e1223e48650e3fa9cae2000000003f800000800000003da8bb903e38feac,
  0xbf0564d83e48650e3fb757c5000000003f800000800000003ddfaa043e059c49,
  0xbee3ccaf3e48650e3fc3383f000000003f800000800000003e14cb5c3db1244a,
  0xbeb44aa53e48650e3fccf788000000003f800000800000003e41d53d3d4e6f2f,
  0xbe7c2e773e48650e3fd435ad000000003f800000800000003e7537a03cc1248d,
  0xbe068ec53e48650e3fd8ab71000000003f800000800000003e967c8d3be75793,
  0xbc43bd5a3e48650e3fda2cfe000000003f800000800000003eb37a813ac26139,
  0x3ddc2e343e48650e3fd8ab71000000003f800000800000003ed078753be75793,
  0x3e63b6cc3e48650e3fd435ad000000003f800000800000003eec59103cc1248d,
  0x3ea80ed03e48650e3fccf788000000003f800000800000003f0305213d4e6f2f,
  0x3ed790da3e48650e3fc3383f000000003f800000800000003f0e47aa3db1244a,
  0x3efe8dda3e48650e3fb757c5000000003f800000800000003f1785403e059c49,
  0x3f0dc3373e48650e3fa9cae2000000003f800000800000003f1e630f3e38feac,
  0x3f16aed13e48650e3f9b16f4000000003f800000800000003f229d733e70bfe4,
  0xbc43bd5a3daf82f53f8bcc8e80000000bf800000000000003e2ce78a3f5bb678,
  0x3f16aed13daf82f53f79046080000000bf800000000000003d0eeaea3f6288be,
  0x3f19b1d93daf82f53f8bcc8e80000000bf800000000000003d042b733f5bb678,
  0x3f0dc3373daf82f53f5b9c8480000000bf800000000000003d2ec17f3f6917e7,
  0x3efe8dda3daf82f53f4082bf80000000bf800000000000003d62749f3f6f2379,
  0x3ed790da3daf82f53f28c1ca80000000bf800000000000003d9403de3f746fdf,
  0x3ea80ed03daf82f53f15433980000000bf800000000000003dbe670e3f78c910,
  0x3e63b6cc3daf82f53f06c6ef80000000bf800000000000003deec3983f7c0443,
  0x3ddc2e343daf82f53efbb6cc80000000bf800000000000003e119e733f7e01ac,
  0xbc43bd5a3daf82f53ef5b09a80000000bf800000000000003e2ce78a3f7eada3,
  0xbe068ec53daf82f53efbb6cc80000000bf800000000000003e4830e43f7e01ac,
  0xbe7c2e773daf82f53f06c6ef80000000bf800000000000003e626d8b3f7c0443,
  0xbeb44aa53daf82f53f15433980000000bf800000000000003e7a9bd03f78c910,
  0xbee3ccaf3daf82f53f28c1ca80000000bf800000000000003e87e6b43f746fdf,
  0xbf0564d83daf82f53f4082bf80000000bf800000000000003e9099183f6f2379,
  0xbf13e1223daf82f53f5b9c8480000000bf800000000000003e970f7c3f6917e7,
  0xbf1cccbc3daf82f53f79046080000000bf800000000000003e9b0a4e3f6288be,
  0xbf1fcfc43daf82f53f8bcc8e80000000bf800000000000003e9c623d3f5bb678,
  0xbf1cccbc3daf82f53f9b16f480000000bf800000000000003e9b0a4e3f54e421,
  0xbf13e1223daf82f53fa9cae280000000bf800000000000003e970f7c3f4e54f8,
  0xbf0564d83daf82f53fb757c580000000bf800000000000003e9099183f484966,
  0xbee3ccaf3daf82f53fc3383f80000000bf800000000000003e87e6b43f42fd00,
  0xbeb44aa53daf82f53fccf78880000000bf800000000000003e7a9bd03f3ea3cf,
  0xbe7c2e773daf82f53fd435ad80000000bf800000000000003e626d8b3f3b689d,
  0xbe068ec53daf82f53fd8ab7180000000bf800000000000003e4830e43f396b33,
  0xbc43bd5a3daf82f53fda2cfe80000000bf800000000000003e2ce78a3f38bf3c,
  0x3ddc2e343daf82f53fd8ab7180000000bf800000000000003e119e733f396b33,
  0x3e63b6cc3daf82f53fd435ad80000000bf800000000000003deec3983f3b689d,
  0x3ea80ed03daf82f53fccf78880000000bf800000000000003dbe670e3f3ea3cf,
  0x3ed790da3daf82f53fc3383f80000000bf800000000000003d9403de3f42fd00,
  0x3efe8dda3daf82f53fb757c580000000bf800000000000003d62749f3f484966,
  0x3f0dc3373daf82f53fa9cae280000000bf800000000000003d2ec17f3f4e54f8,
  0x3f16aed13daf82f53f9b16f480000000bf800000000000003d0eeaea3f54e421,
  0x3e73c42a3daf82f53fa89ed43f80000000000000000000003f5bb7743e4c0443,
  0x3e73c42a3d78a8f4be90e38a3f80000000000000000000003f5f55043f1495e1,
  0x3e73c42a3daf82f5be90e38a3f80000000000000000000003f5bb7743f1495e1,
  0x3e73c42a3d78a8f43fa89ed43f80000000000000000000003f5f55043e4c0443,
  0xbe861deb3daf82f53fa89ed400000000000000003f8000003f3d3aa33e4c0443,
  0x3e73c42a3d78a8f43fa89ed400000000000000003f8000003f5bb1293e3794ea,
  0x3e73c42a3daf82f53fa89ed400000000000000003f8000003f5bb7743e4c0443,
  0xbe861deb3d78a8f43fa89ed400000000000000003f8000003f3d36723e3794ea,
  0xbe861deb3d78a8f4be90e38abf80000000000000800000003f3998293f1495e1,
  0xbe861deb3d78a8f43fa89ed4bf80000000000000800000003f3998293e4c0443,
  0xbe861deb3daf82f53fa89ed4bf80000000000000800000003f3d3aa33e4c0443,
  0xbe861deb3daf82f5be90e38abf80000000000000800000003f3d3aa33f1495e1,
  0x3e73c42a3daf82f53fa89ed4000000003f800000800000003f5bb7743e4c0443,
  0xbe861deb3daf82f5be90e38a000000003f800000800000003f3d3aa33f1495e1,
  0xbe861deb3daf82f53fa89ed4000000003f800000800000003f3d3aa33e4c0443,
  0x3e73c42a3daf82f5be90e38a000000003f800000800000003f5bb7743f1495e1,
  0x3e73c42a3d78a8f43fa89ed480000000bf800000000000003f5f55043e4c0443,
  0xbe861deb3d78a8f43fa89ed480000000bf800000000000003f7dd1d43e4c0443,
  0xbe861deb3d78a8f4be90e38a80000000bf800000000000003f7dd1d43f1495e1,
  0x3e73c42a3d78a8f4be90e38a80000000bf800000000000003f5f55043f1495e1,
  0x3debb2bc3e48650e3f8510563e29930c3f7bda51bd8c7e283f7cc9c93df5781c,
  0xbc43bd5a3e620ab73f8bcc8e000000003f800000800000003f691d043db445ed,
  0x3e00913a3e48650e3f8bcc8e3e3780343f7bda51800000003f7e68c23db445ed,
  0x3daea7ce3e48650e3f7eb53d3e01bda53f7bda51be01bda53f782bfa3e165ecc,
  0x3d2697af3e48650e3f7713cf3d8c7e283f7bda51be29930c3f71434a3e28d60a,
  0xbc43bd5a3e48650e3f7465e9000000003f7bda51be3780343f691d043e2f51f0,
  0xbd843b2e3e48650e3f7713cfbd8c7e283f7bda51be29930c3f60f6ad3e28d60a,
  0xbddf969e3e48650e3f7eb53dbe01bda53f7bda51be01bda53f5a0dfe3e165ecc,
  0xbe0e51093e48650e3f851056be29930c3f7bda51bd8c7e283f55703f3df5781c,
  0xbe1908e63e48650e3f8bcc8ebe3780343f7bda51800000003f53d1353db445ed,
  0xbe0e51093e48650e3f9288cebe29930c3f7bda513d8c7e283f55703f3d662670,
  0xbddf969e3e48650e3f983e85be01bda53f7bda513e01bda53f5a0dfe3cef3908,
  0xbd843b2e3e48650e3f9c0f34bd8c7e283f7bda513e29930c3f60f6ad3c36fe2e,
  0xbc43bd5a3e48650e3f9d6630000000003f7bda513e3780343f691d043b9e774f,
  0x3d2697af3e48650e3f9c0f343d8c7e283f7bda513e29930c3f71434a3c36fe2e,
  0x3daea7ce3e48650e3f983e853e01bda53f7bda513e01bda53f782bfa3cef3908,
  0x3debb2bc3e48650e3f9288ce3e29930c3f7bda513d8c7e283f7cc9c93d662670,
  0x3e80487cbc18201d3fe3cc8e3f80000000000000000000003eff22183f2debea,
  0x3e80487cbe23161a3ee2656b3f80000000000000000000003f07c6973f761e93,
  0x3e80487cbc18201d3ee2656b3f80000000000000000000003eff22183f761e93,
  0x3e80487cbe23161a3fe3cc8e3f80000000000000000000003f07c6973f2debea,
  0xbe8c8451bc18201d3fe3cc8e00000000000000003f8000003ec5d69d3f2debea,
  0x3e80487cbe23161a3fe3cc8e00000000000000003f8000003eff22183f2567dc,
  0x3e80487cbc18201d3fe3cc8e00000000000000003f8000003eff22183f2debea,
  0xbe8c8451be23161a3fe3cc8e00000000000000003f8000003ec5d69d3f2567dc,
  0xbe8c8451be23161a3ee2656bbf80000000000000800000003eb5a0383f761e93,
  0xbe8c8451be23161a3fe3cc8ebf80000000000000800000003eb5a0383f2debea,
  0xbe8c8451bc18201d3fe3cc8ebf80000000000000800000003ec5d69d3f2debea,
  0xbe8c8451bc18201d3ee2656bbf80000000000000800000003ec5d69d3f761e93,
  0x3e80487cbc18201d3fe3cc8e000000003f800000800000003eff22183f2debea,
  0xbe8c8451bc18201d3ee2656b000000003f800000800000003ec5d69d3f761e93,
  0xbe8c8451bc18201d3fe3cc8e000000003f800000800000003ec5d69d3f2debea,
  0x3e80487cbc18201d3ee2656b000000003f800000800000003eff22183f761e93,
  0xbe8c8451be23161a3ee2656b8000000000000000bf8000003ec5d69d3f7e48a6,
  0xbe8c8451bc18201d3ee2656b8000000000000000bf8000003ec5d69d3f761e93,
  0x3e80487cbe23161a3ee2656b8000000000000000bf8000003eff22183f7e48a6,
  0x3e80487cbc18201d3ee2656b8000000000000000bf8000003eff22183f761e93,
  0x3e86aee2be23161a3fe566303f80000000000000000000003f1277703f5a0914,
  0x3e86aee2be5647bbbe90cdc83f80000000000000000000003f7ee3d63f545a92,
  0x3e86aee2be23161abe90cdc83f80000000000000000000003f7ee3d63f5a0914,
  0x3e86aee2be5647bb3fe566303f80000000000000000000003f1277703f545a92,
  0xbe92eab8be23161a3fe5663000000000000000003f8000003f1277703f79a134,
  0x3e86aee2be5647bb3fe5663000000000000000003f8000003f0d2e413f5a0914,
  0x3e86aee2be23161a3fe5663000000000000000003f8000003f1277703f5a0914,
  0xbe92eab8be5647bb3fe5663000000000000000003f8000003f0d2e413f79a134,
  0xbe92eab8be5647bbbe90cdc8bf80000000000000800000003f7ee3d63f7f0cdd,
  0xbe92eab8be5647bb3fe56630bf80000000000000800000003f1277703f7f0cdd,
  0xbe92eab8be23161a3fe56630bf80000000000000800000003f1277703f79a134,
  0xbe92eab8be23161abe90cdc8bf80000000000000800000003f7ee3d63f79a134,
  0x3e86aee2be23161a3fe56630000000003f800000800000003f1277703f5a0914,
  0xbe92eab8be23161abe90cdc8000000003f800000800000003f7ee3d63f79a134,
  0xbe92eab8be23161a3fe56630000000003f800000800000003f1277703f79a134,
  0x3e86aee2be23161abe90cdc8000000003f800000800000003f7ee3d63f5a0914,
  0x3e86aee2be5647bb3fe5663080000000bf800000000000003f1277703f545a92,
  0xbe92eab8be5647bb3fe5663080000000bf800000000000003f1277703f34bdba,
  0xbe92eab8be5647bbbe90cdc880000000bf800000000000003f7ee3d63f34bdba,
  0x3e86aee2be5647bbbe90cdc880000000bf800000000000003f7ee3d63f545a92]

set_option maxRecDepth 100000 in
/-- the triangles of `HIT_TARGET_ROUND_INDICES`, /repo/src/vpx/mesh/hittargets/hit_target_round_mesh.rs:220-245 -/
def hitTargetRoundTris : List Nat := [
  0x008400850086, 0x008400870085, 0x000000010002, 0x000000030001, 0x000100410002, 0x000500030000, 0x000200410040,
  0x000400030005, 0x00400041003e, 0x000600040005, 0x0040003e003f, 0x000600070004, 0x003e003d003f, 0x000900070006,
  0x003f003d003c, 0x000800070009, 0x003c003d003a, 0x000a00080009, 0x003c003a003b, 0x000a000b0008, 0x003a0039003b,
  0x000d000b000a, 0x003b00390038, 0x000c000b000d, 0x003800390036, 0x000e000c000d, 0x003800360037, 0x000e000f000c,
  0x003600350037, 0x0011000f000e, 0x0010000f0011, 0x003700350034, 0x003400350032, 0x003400320033, 0x003200310033,
  0x003300310030, 0x00300031002e, 0x0030002e002f, 0x002e002d002f, 0x002f002d002c, 0x002c002d002a, 0x002c002a002b,
  0x002a0029002b, 0x002b00290028, 0x002800290026, 0x002800260027, 0x002600250027, 0x002700250024, 0x002400250022,
  0x002400220023, 0x002200210023, 0x002300210020, 0x00200021001e, 0x0020001e001f, 0x001e001d001f, 0x001f001d001c,
  0x001c001d001a, 0x001c001a001b, 0x001a0019001b, 0x001b00190018, 0x001800190016, 0x001800160017, 0x001600150017,
  0x001700150012, 0x001200150013, 0x001200130014, 0x004200430044, 0x004200620043, 0x004200440045, 0x004200610062,
  0x004200450046, 0x004200600061, 0x004200460047, 0x0042005f0060, 0x004200470048, 0x0042005e005f, 0x004200480049,
  0x0042005d005e, 0x00420049004a, 0x0042005c005d, 0x0042004a004b, 0x0042005b005c, 0x0042004b004c, 0x0042005a005b,
  0x0042004c004d, 0x00420059005a, 0x0042004d004e, 0x004200580059, 0x0042004e004f, 0x004200570058, 0x0042004f0050,
  0x004200560057, 0x004200500051, 0x004200550056, 0x004200510052, 0x004200540055, 0x004200520053, 0x004200530054,
  0x006300640065, 0x006300650083, 0x006300660064, 0x006300830082, 0x006300670066, 0x006300820081, 0x006300680067,
  0x006300810080, 0x006300690068, 0x00630080007f, 0x0063006a0069, 0x0063007f007e, 0x0063006b006a, 0x0063007e007d,
  0x0063006c006b, 0x0063007d007c, 0x0063006d006c, 0x0063007c007b, 0x0063006e006d, 0x0063007b007a, 0x0063006f006e,
  0x0063007a0079, 0x00630070006f, 0x006300790078, 0x006300710070, 0x006300780077, 0x006300720071, 0x006300770076,
  0x006300730072, 0x006300760075, 0x006300740073, 0x006300750074, 0x00880089008a, 0x0088008b0089, 0x008c008d008e,
  0x008f008c008e, 0x009000910092, 0x009000930091, 0x009400950096, 0x009700940096, 0x00980099009a, 0x009b00990098,
  0x009a009900a8, 0x009c0099009b, 0x00a8009900a7, 0x009d0099009c, 0x00a7009900a6, 0x009e0099009d, 0x00a6009900a5,
  0x009f0099009e, 0x00a5009900a4, 0x00a00099009f, 0x00a4009900a3, 0x00a1009900a0, 0x00a3009900a2, 0x00a2009900a1,
  0x00a900aa00ab, 0x00a900ac00aa, 0x00ad00ae00af, 0x00ad00b000ae, 0x00b100b200b3, 0x00b400b100b3, 0x00b500b600b7,
  0x00b500b800b6, 0x00b900ba00bb, 0x00bc00bb00ba, 0x00bd00be00bf, 0x00bd00c000be, 0x00c100c200c3, 0x00c100c400c2,
  0x00c500c600c7, 0x00c800c500c7, 0x00c900ca00cb, 0x00c900cc00ca, 0x00cd00ce00cf, 0x00d000cd00cf]

/-- the table of /repo/src/vpx/mesh/hittargets/hit_target_round_mesh.rs -/
def hitTargetRoundTable : MeshTable := unpackTable hitTargetRoundVertices hitTargetRoundTris

set_option maxRecDepth 100000 in
/-- the vertices of `HIT_TARGET_T1_SLIM_MESH`, /repo/src/vpx/mesh/hittargets/hit_target_t1_slim_mesh.rs:8-154 -/
def hitTargetT1SlimVertices : List Nat := [
  0x3e608cc53daf08cc3f34bfa13ed374bc00000000bf6923a33d9a0f913f192f1b,
  0x3e9ecbb83daf08cc3f433beb3f07525400000000bf5951833de6a6e33f192f1b,
  0x3e608cc5bcc918e33f34bfa13ed374bc00000000bf6923a33d9a0f913f212f1b,
  0x3e9ecbb8bcc918e33f433beb3f07525400000000bf5951833de6a6e33f212f1b,
  0x3dd5da27bcc918e33f2bd4173e47c84b00000000bf7b15b53d19f3c73f212f1b,
  0x3dd5da273daf08cc3f2bd4173e47c84b00000000bf7b15b53d19f3c73f192f1b,
  0xbc765dc03daf08cc3f28d0ff8000000000000000bf800000000000003f192f1b,
  0xbc765dc0bcc918e33f28d0ff8000000000000000bf800000000000003f212f1b,
  0xbe09b8ccbcc918e33f2bd417be47c84b00000000bf7b15b53f7660c43f212f1b,
  0xbc765dc03daf08cc3f28d0ff8000000000000000bf8000003f8000003f192f1b,
  0xbc765dc0bcc918e33f28d0ff8000000000000000bf8000003f8000003f212f1b,
  0xbe09b8cc3daf08cc3f2bd417be47c84b00000000bf7b15b53f7660c43f192f1b,
  0xbe7f587d3daf08cc3f34bfa1bed374bc00000000bf6923a33f6ce0653f192f1b,
  0xbe7f587dbcc918e33f34bfa1bed374bc00000000bf6923a33f6ce0653f212f1b,
  0xbeae3194bcc918e33f433bebbf07525400000000bf5951833f6345073f212f1b,
  0xbeae31943daf08cc3f433bebbf07525400000000bf5951833f6345073f192f1b,
  0xbe7f587d3daf08cc3feb3205bed374bc000000003f6923a33f13416c3f192f1b,
  0xbeae31943daf08cc3fe3f3e0bf075254000000003f5951833f1cdbcf3f192f1b,
  0xbe7f587dbcc918e33feb3205bed374bc000000003f6923a33f13416c3f212f1b,
  0xbeae3194bcc918e33fe3f3e0bf075254000000003f5951833f1cdbcf3f212f1b,
  0xbe09b8ccbcc918e33fefa7cabe47c84b000000003f7b15b53f099eb63f212f1b,
  0xbe09b8cc3daf08cc3fefa7cabe47c84b000000003f7b15b53f099eb63f192f1b,
  0xbc765dc03daf08cc3ff1295600000000000000003f8000003efffcdb3f192f1b,
  0xbc765dc0bcc918e33ff1295600000000000000003f8000003efffcdb3f212f1b,
  0x3dd5da27bcc918e33fefa7ca3e47c84b000000003f7b15b53eecbe833f212f1b,
  0x3dd5da273daf08cc3fefa7ca3e47c84b000000003f7b15b53eecbe833f192f1b,
  0x3e608cc53daf08cc3feb32053ed374bc000000003f6923a33ed9bda53f192f1b,
  0x3e608cc5bcc918e33feb32053ed374bc000000003f6923a33ed9bda53f212f1b,
  0x3e9ecbb8bcc918e33fe3f3e03f075254000000003f5951833ec67c283f212f1b,
  0x3e9ecbb83daf08cc3fe3f3e03f075254000000003f5951833ec67c283f192f1b,
  0xbc765dc03daf08cc3fa2c8ef000000003f800000800000003eb36ef83e9564d8,
  0x3e9ecbb83daf08cc3f433beb000000003f800000800000003f0132a53f08829d,
  0x3e608cc53daf08cc3f34bfa1000000003f800000800000003eec55223f0f6156,
  0x3dd5da273daf08cc3f2bd417000000003f800000800000003ed070b93f139c52,
  0xbc765dc03daf08cc3f28d0ff000000003f800000800000003eb36ef83f150a03,
  0xbe09b8cc3daf08cc3f2bd417000000003f800000800000003e966d373f139c52,
  0xbe7f587d3daf08cc3f34bfa1000000003f800000800000003e75119d3f0f6156,
  0xbeae31943daf08cc3f433beb000000003f800000800000003e48f10b3f08829d,
  0xbeae31943daf08cc3fe3f3e0000000003f800000800000003e48f10b3d4e22a3,
  0xbe7f587d3daf08cc3feb3205000000003f800000800000003e75119d3cc06e1a,
  0xbe09b8cc3daf08cc3fefa7ca000000003f800000800000003e966d373be43aa8,
  0xbc765dc03daf08cc3ff12956000000003f800000800000003eb36ef83ab588e3,
  0x3dd5da273daf08cc3fefa7ca000000003f800000800000003ed070b93be43aa8,
  0x3e608cc53daf08cc3feb3205000000003f800000800000003eec55223cc06e1a,
  0x3e9ecbb83daf08cc3fe3f3e0000000003f800000800000003f0132a53d4e22a3,
  0xbc765dc0bcc918e33fa2c8ef80000000bf800000800000003e2cdfad3f5b7b6c,
  0x3e608cc5bcc918e33f34bfa180000000bf800000800000003dee18263f7bf834,
  0x3e9ecbb8bcc918e33f433beb80000000bf800000800000003dc459963f78b84a,
  0x3dd5da27bcc918e33f2bd41780000000bf800000800000003e116f003f7df86e,
  0xbc765dc0bcc918e33f28d0ff80000000bf800000800000003e2cdfad3f7ea572,
  0xbe09b8ccbcc918e33f2bd41780000000bf800000800000003e48509c3f7df86e,
  0xbe7f587dbcc918e33f34bfa180000000bf800000800000003e62b3463f7bf834,
  0xbeae3194bcc918e33f433beb80000000bf800000800000003e77928e3f78b84a,
  0xbe7f587dbcc918e33feb320580000000bf800000800000003e62b3463f3afeb5,
  0xbeae3194bcc918e33fe3f3e080000000bf800000800000003e77928e3f3e3e8e,
  0xbe09b8ccbcc918e33fefa7ca80000000bf800000800000003e48509c3f38fe69,
  0xbc765dc0bcc918e33ff1295680000000bf800000800000003e2cdfad3f385176,
  0x3dd5da27bcc918e33fefa7ca80000000bf800000800000003e116f003f38fe69,
  0x3e608cc5bcc918e33feb320580000000bf800000800000003dee18263f3afeb5,
  0x3e9ecbb8bcc918e33fe3f3e080000000bf800000800000003dc459963f3e3e8e,
  0xbeae3194bcc918e33f433bebbf80000000000000800000003f6345073f212f1b,
  0xbeae3194bcc918e33fe3f3e0bf80000000000000800000003f1cdbcf3f212f1b,
  0xbeae31943daf08cc3f433bebbf80000000000000800000003f6345073f192f1b,
  0xbeae31943daf08cc3fe3f3e0bf80000000000000800000003f1cdbcf3f192f1b,
  0x3e9ecbb8bcc918e33f433beb3f80000000000000800000003de6a6e33f212f1b,
  0x3e9ecbb83daf08cc3f433beb3f80000000000000800000003de6a6e33f192f1b,
  0x3e9ecbb83daf08cc3fe3f3e03f80000000000000800000003ec67c283f192f1b,
  0x3e9ecbb8bcc918e33fe3f3e03f80000000000000800000003ec67c283f212f1b,
  0x3e709a24bcc918e33fbf9b2c3f80000000000000800000003f5bb7743e4c0443,
  0x3e709a24bd4aed9abdd3c89f3f80000000000000800000003f5f55043f1495e1,
  0x3e709a24bcc918e3bdd3c89f3f80000000000000800000003f5bb7743f1495e1,
  0x3e709a24bd4aed9a3fbf9b2c3f80000000000000800000003f5f55043e4c0443,
  0xbe87b2eebcc918e33fbf9b2c00000000000000003f8000003f3d3aa33e4c0443,
  0x3e709a24bd4aed9a3fbf9b2c00000000000000003f8000003f5bb1293e3794ea,
  0x3e709a24bcc918e33fbf9b2c00000000000000003f8000003f5bb7743e4c0443,
  0xbe87b2eebd4aed9a3fbf9b2c00000000000000003f8000003f3d36723e3794ea,
  0xbe87b2eebd4aed9abdd3c89fbf80000000000000800000003f3998293f1495e1,
  0xbe87b2eebd4aed9a3fbf9b2cbf80000000000000800000003f3998293e4c0443,
  0xbe87b2eebcc918e33fbf9b2cbf80000000000000800000003f3d3aa33e4c0443,
  0xbe87b2eebcc918e3bdd3c89fbf80000000000000800000003f3d3aa33f1495e1,
  0x3e709a24bcc918e33fbf9b2c000000003f800000800000003f5bb7743e4c0443,
  0xbe87b2eebcc918e3bdd3c89f000000003f800000800000003f3d3aa33f1495e1,
  0xbe87b2eebcc918e33fbf9b2c000000003f800000800000003f3d3aa33e4c0443,
  0x3e709a24bcc918e3bdd3c89f000000003f800000800000003f5bb7743f1495e1,
  0x3e709a24bd4aed9a3fbf9b2c80000000bf800000800000003f5f55043e4c0443,
  0xbe87b2eebd4aed9a3fbf9b2c80000000bf800000800000003f7dd1d43e4c0443,
  0xbe87b2eebd4aed9abdd3c89f80000000bf800000800000003f7dd1d43f1495e1,
  0x3e709a24bd4aed9abdd3c89f80000000bf800000800000003f5f55043f1495e1,
  0x3de55eaf3daf08cc3f9c0cae3e29930c3f7bda51bd8c7e283f7cc9c93df5781c,
  0xbc765dc03de255b03fa2c8ef000000003f800000800000003f691d043db445ed,
  0x3dface683daf08cc3fa2c8ef3e3780343f7bda51000000003f7e68c23db445ed,
  0x3da853c13daf08cc3f9656f73e01bda53f7bda51be01bda53f782bfa3e165ecc,
  0x3d19ef953daf08cc3f9286403d8c7e283f7bda51be29930c3f71434a3e28d60a,
  0xbc765dc03daf08cc3f912f4d800000003f7bda51be3780343f691d043e2f51f0,
  0xbd8a8f3b3daf08cc3f928640bd8c7e283f7bda51be29930c3f60f6ad3e28d60a,
  0xbde5eb313daf08cc3f9656f7be01bda53f7bda51be01bda53f5a0dfe3e165ecc,
  0xbe117b0f3daf08cc3f9c0caebe29930c3f7bda51bd8c7e283f55703f3df5781c,
  0xbe1c32ec3daf08cc3fa2c8efbe3780343f7bda51000000003f53d1353db445ed,
  0xbe117b0f3daf08cc3fa98527be29930c3f7bda513d8c7e283f55703f3d662670,
  0xbde5eb313daf08cc3faf3adebe01bda53f7bda513e01bda53f5a0dfe3cef3908,
  0xbd8a8f3b3daf08cc3fb30b8dbd8c7e283f7bda513e29930c3f60f6ad3c36fe2e,
  0xbc765dc03daf08cc3fb46289800000003f7bda513e3780343f691d043b9e774f,
  0x3d19ef953daf08cc3fb30b8d3d8c7e283f7bda513e29930c3f71434a3c36fe2e,
  0x3da853c13daf08cc3faf3ade3e01bda53f7bda513e01bda53f782bfa3cef3908,
  0x3de55eaf3daf08cc3fa985273e29930c3f7bda513d8c7e283f7cc9c93d662670,
  0x3e7d66f1bdf4d2f63ffac8e73f80000000000000800000003eff22183f2debea,
  0x3e7d66f1be8a018a3f1f2b673f80000000000000800000003f07c6973f761e93,
  0x3e7d66f1bdf4d2f63f1f2b673f80000000000000800000003eff22183f761e93,
  0x3e7d66f1be8a018a3ffac8e73f80000000000000800000003f07c6973f2debea,
  0xbe8e1954bdf4d2f63ffac8e700000000000000003f8000003ec5d69d3f2debea,
  0x3e7d66f1be8a018a3ffac8e700000000000000003f8000003eff22183f2567dc,
  0x3e7d66f1bdf4d2f63ffac8e700000000000000003f8000003eff22183f2debea,
  0xbe8e1954be8a018a3ffac8e700000000000000003f8000003ec5d69d3f2567dc,
  0xbe8e1954be8a018a3f1f2b67bf80000000000000800000003eb5a0383f761e93,
  0xbe8e1954be8a018a3ffac8e7bf80000000000000800000003eb5a0383f2debea,
  0xbe8e1954bdf4d2f63ffac8e7bf80000000000000800000003ec5d69d3f2debea,
  0xbe8e1954bdf4d2f63f1f2b67bf80000000000000800000003ec5d69d3f761e93,
  0x3e7d66f1bdf4d2f63ffac8e7000000003f800000800000003eff22183f2debea,
  0xbe8e1954bdf4d2f63f1f2b67000000003f800000800000003ec5d69d3f761e93,
  0xbe8e1954bdf4d2f63ffac8e7000000003f800000800000003ec5d69d3f2debea,
  0x3e7d66f1bdf4d2f63f1f2b67000000003f800000800000003eff22183f761e93,
  0xbe8e1954be8a018a3f1f2b678000000000000000bf8000003ec5d69d3f7e48a6,
  0xbe8e1954bdf4d2f63f1f2b678000000000000000bf8000003ec5d69d3f761e93,
  0x3e7d66f1be8a018a3f1f2b678000000000000000bf8000003eff22183f7e48a6,
  0x3e7d66f1bdf4d2f63f1f2b678000000000000000bf8000003eff22183f761e93,
  0x3e8519dfbe8a018a3ffc62803f80000000000000800000003f1277703f5a0914,
  0x3e8519dfbea39b24bdd371973f80000000000000800000003f7ee3d63f545a92,
  0x3e8519dfbe8a018abdd371973f80000000000000800000003f7ee3d63f5a0914,
  0x3e8519dfbea39b243ffc62803f80000000000000800000003f1277703f545a92,
  0xbe947fbbbe8a018a3ffc628000000000000000003f8000003f1277703f79a134,
  0x3e8519dfbea39b243ffc628000000000000000003f8000003f0d2e413f5a0914,
  0x3e8519dfbe8a018a3ffc628000000000000000003f8000003f1277703f5a0914,
  0xbe947fbbbea39b243ffc628000000000000000003f8000003f0d2e413f79a134,
  0xbe947fbbbea39b24bdd37197bf80000000000000800000003f7ee3d63f7f0cdd,
  0xbe947fbbbea39b243ffc6280bf80000000000000800000003f1277703f7f0cdd,
  0xbe947fbbbe8a018a3ffc6280bf80000000000000800000003f1277703f79a134,
  0xbe947fbbbe8a018abdd37197bf80000000000000800000003f7ee3d63f79a134,
  0x3e8519dfbe8a018a3ffc6280000000003f800000800000003f1277703f5a0914,
  0xbe947fbbbe8a018abdd37197000000003f800000800000003f7ee3d63f79a134,
  0xbe947fbbbe8a018a3ffc6280000000003f800000800000003f1277703f79a134,
  0x3e8519dfbe8a018abdd37197000000003f800000800000003f7ee3d63f5a0914,
  0x3e8519dfbea39b243ffc628080000000bf800000800000003f1277703f545a92,
  0xbe947fbbbea39b243ffc628080000000bf800000800000003f1277703f34bdba,
  0xbe947fbbbea39b24bdd3719780000000bf800000800000003f7ee3d63f34bdba,
  0x3e8519dfbea39b24bdd3719780000000bf800000800000003f7ee3d63f545a92]

set_option maxRecDepth 100000 in
/-- the triangles of `HIT_TARGET_T1_SLIM_INDICES`, /repo/src/vpx/mesh/hittargets/hit_target_t1_slim_mesh.rs:156-171 -/
def hitTargetT1SlimTris : List Nat := [
  0x003c003d003e, 0x003f003e003d, 0x000000010002, 0x000200010003, 0x000400000002, 0x000400050000, 0x000700050004,
  0x000600050007, 0x00080009000a, 0x0008000b0009, 0x000d000b0008, 0x000c000b000d, 0x000e000c000d, 0x000e000f000c,
  0x001000110012, 0x001200110013, 0x001400100012, 0x001400150010, 0x001700150014, 0x001600150017, 0x001800160017,
  0x001800190016, 0x001b00190018, 0x001a0019001b, 0x001c001a001b, 0x001c001d001a, 0x001e001f0020, 0x001e002c001f,
  0x001e00200021, 0x001e002b002c, 0x001e00210022, 0x001e002a002b, 0x001e00220023, 0x001e0029002a, 0x001e00230024,
  0x001e00280029, 0x001e00240025, 0x001e00270028, 0x00250026001e, 0x001e00260027, 0x002d002e002f, 0x002f003b002d,
  0x002d0030002e, 0x002d003b003a, 0x002d00310030, 0x002d003a0039, 0x002d00320031, 0x002d00390038, 0x002d00330032,
  0x002d00380037, 0x002d00340033, 0x002d00370035, 0x002d00360034, 0x002d00350036, 0x004000410042, 0x004200430040,
  0x004400450046, 0x004400470045, 0x00480049004a, 0x0048004b0049, 0x004c004d004e, 0x004f004c004e, 0x005000510052,
  0x005000530051, 0x005400550056, 0x005700540056, 0x00580059005a, 0x005b00590058, 0x005a00590068, 0x005c0059005b,
  0x006800590067, 0x005d0059005c, 0x006700590066, 0x005e0059005d, 0x006600590065, 0x005f0059005e, 0x006500590064,
  0x00600059005f, 0x006400590063, 0x006100590060, 0x006300590062, 0x006200590061, 0x0069006a006b, 0x0069006c006a,
  0x006d006e006f, 0x006d0070006e, 0x007100720073, 0x007400710073, 0x007500760077, 0x007500780076, 0x0079007a007b,
  0x007c007b007a, 0x007d007e007f, 0x007d0080007e, 0x008100820083, 0x008100840082, 0x008500860087, 0x008800850087,
  0x0089008a008b, 0x0089008c008a, 0x008d008e008f, 0x0090008d008f]

/-- the table of /repo/src/vpx/mesh/hittargets/hit_target_t1_slim_mesh.rs -/
def hitTargetT1SlimTable : MeshTable := unpackTable hitTargetT1SlimVertices hitTargetT1SlimTris

set_option maxRecDepth 100000 in
/-- the vertices of `HIT_TARGET_T2_SLIM_MESH`, /repo/src/vpx/mesh/hittargets/hit_target_t2_slim_mesh.rs:8-311 -/
def hitTargetT2SlimVertices : List Nat := [
  0x3e800f77bc447a183fcfd93c3f80000000000000800000003f4063393e87c287,
  0x3e800f77be25e02f3f2fb2793f80000000000000800000003f59e0833e46f7e4,
  0x3e800f77bc447a183f2fb2793f80000000000000800000003f59e0833e87c287,
  0x3e800f77be25e02f3fcfd93c3f80000000000000800000003f4063393e46f7e4,
  0xbe7fe111bc447a183fcfd93c00000000000000003f8000003f4063393f032cf9,
  0x3e800f77be25e02f3fcfd93c00000000000000003f8000003f3d61913e87c287,
  0x3e800f77bc447a183fcfd93c00000000000000003f8000003f4063393e87c287,
  0xbe7fe111be25e02f3fcfd93c00000000000000003f8000003f3d61913f032cf9,
  0xbe7fe111be25e02f3f2fb279bf80000000000000800000003f59e0833f151612,
  0xbe7fe111be25e02f3fcfd93cbf80000000000000800000003f4063393f151612,
  0xbe7fe111bc447a183fcfd93cbf80000000000000800000003f4063393f032cf9,
  0xbe7fe111bc447a183f2fb279bf80000000000000800000003f59e0833f032cf9,
  0x3e800f77bc447a183fcfd93c000000003f800000800000003f4063393e87c287,
  0xbe7fe111bc447a183f2fb279000000003f800000800000003f59e0833f032cf9,
  0xbe7fe111bc447a183fcfd93c000000003f800000800000003f4063393f032cf9,
  0x3e800f77bc447a183f2fb279000000003f800000800000003f59e0833e87c287,
  0xbe7fe111be25e02f3f2fb2790000000000000000bf8000003f5cc2613f032cf9,
  0xbe7fe111bc447a183f2fb2790000000000000000bf8000003f59e0833f032cf9,
  0x3e800f77be25e02f3f2fb2790000000000000000bf8000003f5cc2613e87c287,
  0x3e800f77bc447a183f2fb2790000000000000000bf8000003f59e0833e87c287,
  0x3e8675debe25e02f3fd172d63f80000000000000800000003f18b0f23f488e58,
  0x3e8675debe5912dcbe01361e3f80000000000000800000003f7a17a03f465d4a,
  0x3e8675debe25e02fbe01361e3f80000000000000800000003f7a17a03f488e58,
  0x3e8675debe5912dc3fd172d63f80000000000000800000003f18b0f23f465d4a,
  0xbe8656efbe25e02f3fd172d600000000000000003f8000003f18b0f23f57250b,
  0x3e8675debe5912dc3fd172d600000000000000003f8000003f13f1203f488e58,
  0x3e8675debe25e02f3fd172d600000000000000003f8000003f18b0f23f488e58,
  0xbe8656efbe5912dc3fd172d600000000000000003f8000003f13f1203f57250b,
  0xbe8656efbe5912dcbe01361ebf80000000000000800000003f7a17a03f5945fa,
  0xbe8656efbe5912dc3fd172d6bf80000000000000800000003f18b0f23f5945fa,
  0xbe8656efbe25e02f3fd172d6bf80000000000000800000003f18b0f23f57250b,
  0xbe8656efbe25e02fbe01361ebf80000000000000800000003f7a17a03f57250b,
  0x3e8675debe25e02f3fd172d6000000003f800000800000003f18b0f23f488e58,
  0xbe8656efbe25e02fbe01361e000000003f800000800000003f7a17a03f57250b,
  0xbe8656efbe25e02f3fd172d6000000003f800000800000003f18b0f23f57250b,
  0x3e8675debe25e02fbe01361e000000003f800000800000003f7a17a03f488e58,
  0x3e8675debe5912dc3fd172d600000000bf800000000000003f18b0f23f465d4a,
  0xbe8656efbe5912dc3fd172d600000000bf800000000000003f18b0e23f37c409,
  0xbe8656efbe5912dcbe01361e00000000bf800000000000003f7a17a03f37c409,
  0x3e8675debe5912dcbe01361e00000000bf800000000000003f7a17a03f465d4a,
  0x3e800f773e26e9ff3fb63fa33f80000000000000800000003f226aba3f6cd3bf,
  0x3e800f773de76ea4be01361e3f80000000000000800000003f7a17a03f6aa2c2,
  0x3e800f773e26e9ffbe01361e3f80000000000000800000003f7a17a03f6cd3bf,
  0x3e800f773de76ea43fb63fa33f80000000000000800000003f226aba3f6aa2c2,
  0xbe7fe1113e26e9ff3fb63fa300000000000000003f8000003f226aba3f7b6a72,
  0x3e800f773de76ea43fb63fa300000000000000003f8000003f1dd3aa3f6cd3bf,
  0x3e800f773e26e9ff3fb63fa300000000000000003f8000003f226aba3f6cd3bf,
  0xbe7fe1113de76ea43fb63fa300000000000000003f8000003f1dd3aa3f7b6a72,
  0xbe7fe1113de76ea4be01361ebf80000000000000800000003f7a17a03f7d8b72,
  0xbe7fe1113de76ea43fb63fa3bf80000000000000800000003f226aba3f7d8b72,
  0xbe7fe1113e26e9ff3fb63fa3bf80000000000000800000003f226aba3f7b6a72,
  0xbe7fe1113e26e9ffbe01361ebf80000000000000800000003f7a17a03f7b6a72,
  0x3e800f773e26e9ff3fb63fa3000000003f800000800000003f226aba3f6cd3bf,
  0xbe7fe1113e26e9ffbe01361e000000003f800000800000003f7a17a03f7b6a72,
  0xbe7fe1113e26e9ff3fb63fa3000000003f800000800000003f226aba3f7b6a72,
  0x3e800f773e26e9ffbe01361e000000003f800000800000003f7a17a03f6cd3bf,
  0x3e800f773de76ea43fb63fa300000000bf800000000000003f226aba3f6aa2c2,
  0xbe7fe1113de76ea43fb63fa300000000bf800000000000003f226aba3f5c0970,
  0xbe7fe1113de76ea4be01361e00000000bf800000000000003f7a17a03f5c0970,
  0x3e800f773de76ea4be01361e00000000bf800000000000003f7a17a03f6aa2c2,
  0xbeacbd553e4c64bb3fd63fa3bf0395813f5adaba3d8ef34d3f093c9b3dcc42ea,
  0xbea94f483e4c64bb3fd972d6beeb6ae83f58ef353e87e2823f0c07463dd23ee2,
  0xbe9323bc3e5a1cac3fd63fa3bdde9e1b3f7cf41f3dde9e1b3f093c9b3df8eda2,
  0xbe9ff0893e4c64bb3fdbca8ebe87e2823f58ef353eeb6ae83f0e12733de29846,
  0xbe9323bc3e4c64bb3fdca609bd8ef34d3f5adaba3f0395813f0ed1f23df8eda2,
  0xbeb98a223e26e9ff3fdbca8ebf42339c3ef6f0073ee041893f0e12733db5ed8d,
  0xbebf7ad53e26e9ff3fd63fa3bf5d844d3efa02753de7381d3f093c9b3dab9021,
  0xbebf7ad53de76ea43fdca609bf5be0df3e02de013efde69b3f100c633da11559,
  0xbec656ef3de76ea43fd63fa3bf7bc01a3e032ca53e032ca53f0a5a793d94e011,
  0xbeacbd553de76ea43fe15571befde69b3e02de013f5be0df3f1437a43dc26f61,
  0xbea94f483e26e9ff3fdfd93cbee041893ef6f0073f42339c3f119c8d3dd23ee2,
  0xbe9323bc3e26e9ff3fe15571bde7381d3efa02753f5d844d3f12e83a3df8eda2,
  0xbe9323bc3de76ea43fe30c6fbe032ca53e032ca53f7bc01a3f15be3c3deffeb0,
  0x3e0234223e4083563f8f836b3e295e9e3f7be0dfbd8c49ba3f7cc9c93df5781c,
  0x38f776c53e5a209b3f963fa3000000003f800000800000003f691d043db445ed,
  0x3e0cebff3e4083563f963fa33e374bc73f7be0df800000003f7e68c23db445ed,
  0x3dc75d573e4083563f89cdb33e01a36e3f7be0dfbe01a36e3f782bfa3e165ecc,
  0x3d5802c13e4083563f85fcfc3d8c49ba3f7be0dfbe295e9e3f71434a3e28d60a,
  0x38f776c53e4083563f84a609800000003f7be0dfbe374bc73f691d043e2f51f0,
  0xbd570b4a3e4083563f85fcfcbd8c49ba3f7be0dfbe295e9e3f60f6ad3e28d60a,
  0xbdc6e1153e4083563f89cdb3be01a36e3f7be0dfbe01a36e3f5a0dfe3e165ecc,
  0xbe01f6453e4083563f8f836bbe295e9e3f7be0dfbd8c49ba3f55703f3df5781c,
  0xbe0cadde3e4083563f963fa3be374bc73f7be0df800000003f53d1353db445ed,
  0xbe01f6453e4083563f9cfbe3be295e9e3f7be0df3d8c49ba3f55703f3d662670,
  0xbdc6e1153e4083563fa2b19abe01a36e3f7be0df3e01a36e3f5a0dfe3cef3908,
  0xbd570b4a3e4083563fa68249bd8c49ba3f7be0df3e295e9e3f60f6ad3c36fe2e,
  0x38f776c53e4083563fa7d945800000003f7be0df3e374bc73f691d043b9e774f,
  0x3d5802c13e4083563fa682493d8c49ba3f7be0df3e295e9e3f71434a3c36fe2e,
  0x3dc75d573e4083563fa2b19a3e01a36e3f7be0df3e01a36e3f782bfa3cef3908,
  0x3e0234223e4083563f9cfbe33e295e9e3f7be0df3d8c49ba3f7cc9c93d662670,
  0x3e0f89833e5a161e3f8ed2b3bf4dfa443efba5e33eaaa64c3e95da273e9dc098,
  0x3e0234223e4083563f8f836bbf4dfa443efba5e33eaaa64c3e970e913e9ad81b,
  0x3e0cebff3e4083563f963fa3bf5ef34d3efba5e3000000003ea2ceee3e9d2e94,
  0x3e1b5aa73e5a161e3f963fa3bf5ef34d3efba5e3000000003ea2ceee3ea05447,
  0x3ddbc6653e5a161e3f888723bf1da5123efba5e33f1da5123e8ade653e9669cf,
  0x3dc75d573e4083563f89cdb3bf1da5123efba5e33f1da5123e8d182b3e94300a,
  0x3d6e1ac53e5a161e3f845250beaaa64c3efba5e33f4dfa443e83879c3e8b6dec,
  0x3d5802c13e4083563f85fcfcbeaaa64c3efba5e33f4dfa443e8670193e8a39a4,
  0x38f776c53e5a161e3f82d834800000003efba5e33f5ef34d3e80f3ed3e7cf28c,
  0x38f776c53e4083563f84a609800000003efba5e33f5ef34d3e8419a03e7cf28c,
  0xbd6d234f3e5a161e3f8452503eaaa64c3efba5e33f4dfa443e83879c3e6308ff,
  0xbd570b4a3e4083563f85fcfc3eaaa64c3efba5e33f4dfa443e8670193e6571d2,
  0xbddb4a233e5a161e3f8887233f1da5123efba5e33f1da5123e8ade653e4d117b,
  0xbdc6e1153e4083563f89cdb33f1da5123efba5e33f1da5123e8d182b3e518506,
  0xbe0f4ba53e5a161e3f8ed2b33f4dfa443efba5e33eaaa64c3e95da273e3e63e9,
  0xbe01f6453e4083563f8f836b3f4dfa443efba5e33eaaa64c3e970e913e4434e3,
  0xbe1b1c863e5a161e3f963fa33f5ef34d3efba5e3800000003ea2ceee3e393c8a,
  0xbe0cadde3e4083563f963fa33f5ef34d3efba5e3800000003ea2ceee3e3f87f0,
  0xbe0f4ba53e5a161e3f9dac9b3f4dfa443efba5e3beaaa64c3eafc3b53e3e63e9,
  0xbe01f6453e4083563f9cfbe33f4dfa443efba5e3beaaa64c3eae8f4b3e4434e3,
  0xbddb4a233e5a161e3fa3f82b3f1da5123efba5e3bf1da5123ebabf773e4d117b,
  0xbdc6e1153e4083563fa2b19a3f1da5123efba5e3bf1da5123eb885b23e518506,
  0xbd6d234f3e5a161e3fa82cf53eaaa64c3efba5e3bf4dfa443ec216403e6308ff,
  0xbd570b4a3e4083563fa682493eaaa64c3efba5e3bf4dfa443ebf2dc33e6571d2,
  0x38f776c53e5a161e3fa9a71a000000003efba5e3bf5ef34d3ec4a9ef3e7cf28c,
  0x38f776c53e4083563fa7d945000000003efba5e3bf5ef34d3ec1841b3e7cf28c,
  0x3d6e1ac53e5a161e3fa82cf5beaaa64c3efba5e3bf4dfa443ec216403e8b6dec,
  0x3d5802c13e4083563fa68249beaaa64c3efba5e3bf4dfa443ebf2dc33e8a39a4,
  0x3ddbc6653e5a161e3fa3f82bbf1da5123efba5e3bf1da5123ebabf773e9669cf,
  0x3dc75d573e4083563fa2b19abf1da5123efba5e3bf1da5123eb885b23e94300a,
  0x3e0f89833e5a161e3f9dac9bbf4dfa443efba5e3beaaa64c3eafc3b53e9dc098,
  0x3e0234223e4083563f9cfbe3bf4dfa443efba5e3beaaa64c3eae8f4b3e9ad81b,
  0xbe1b1c863e5a161e3f963fa33951b7173f800000000000003ea2ceee3e393c8a,
  0xbe9323bc3e5a1cac3f2c7f45bdde9e1b3f7cf41fbdde9e1b3dcc929b3df8eda2,
  0x38f776c53e5a161e3fa9a71a800000003f800000b8d1b7173ec4a9ef3e7cf28c,
  0x3e9342ab3e5a1cac3fd63fa33dde9e1b3f7cf41f3dde9e1b3f093c9b3ebeb229,
  0x3e1b5aa73e5a161e3f963fa3b951b7173f800000000000003ea2ceee3ea05447,
  0x3e9342ab3e5a1cac3f2c7f453dde9e1b3f7cf41fbdde9e1b3dcc929b3ebeb24a,
  0x38f776c53e5a161e3f82d834000000003f80000038d1b7173e80f3ed3e7cf28c,
  0xbe0f4ba53e5a161e3f8ed2b338d1b7173f800000000000003e95da273e3e63e9,
  0xbddb4a233e5a161e3f888723000000003f800000800000003e8ade653e4d117b,
  0xbd6d234f3e5a161e3f845250000000003f80000038d1b7173e83879c3e6308ff,
  0x3d6e1ac53e5a161e3f845250000000003f80000038d1b7173e83879c3e8b6dec,
  0x3ddbc6653e5a161e3f888723000000003f800000800000003e8ade653e9669cf,
  0x3e0f89833e5a161e3f8ed2b3b8d1b7173f800000000000003e95da273e9dc098,
  0x3e0f89833e5a161e3f9dac9bb8d1b7173f800000000000003eafc3b53e9dc098,
  0x3ddbc6653e5a161e3fa3f82b000000003f800000800000003ebabf773e9669cf,
  0x3d6e1ac53e5a161e3fa82cf5800000003f800000b8d1b7173ec216403e8b6dec,
  0xbd6d234f3e5a161e3fa82cf5800000003f800000b8d1b7173ec216403e6308ff,
  0xbddb4a233e5a161e3fa3f82b000000003f800000800000003ebabf773e4d117b,
  0xbe0f4ba53e5a161e3f9dac9b38d1b7173f800000000000003eafc3b53e3e63e9,
  0x3e9342ab3e4c64bb3fdca6093d8ef34d3f5adaba3f0395813f0ed1f23ebeb229,
  0x3e9342ab3e26e9ff3fe155713de7381d3efa02753f5d844d3f12e83a3ebeb229,
  0x3e9342ab3de76ea43fe30c6f3e032ca53e032ca53f7bc01a3f15be3c3ec0ede5,
  0xbeacbd553e4c64bb3f2c7f45bf0395813f5adababd8ef34d3dcc929b3dcc42ea,
  0xbec656ef3de76ea43f2c7f45bf7bc01a3e032ca5be032ca53dc3a3a93d94e011,
  0xbebf7ad53e26e9ff3f2c7f45bf5d844d3efa0275bde7381d3dcc929b3dab9021,
  0x3ea96e373e4c64bb3fd972d63eeb6ae83f58ef353e87e2823f0c07463ec85dd9,
  0x3eacdc443e4c64bb3fd63fa33f0395813f5adaba3d8ef34d3f093c9b3ec9dcd7,
  0x3ea00f773e4c64bb3fdbca8e3e87e2823f58ef353eeb6ae83f0e12733ec44780,
  0x3ec675de3de76ea43fd63fa33f7bc01a3e032ca53e032ca53f0a5a793ed7b58d,
  0x3ebf99e53e26e9ff3fd63fa33f5d844d3efa02753de7381d3f093c9b3ed20989,
  0x3eb9a9113e26e9ff3fdbca8e3f42339c3ef6f0073ee041893f0e12733ecf722e,
  0x3ebf99e53de76ea43fdca6093f5be0df3e02de013efde69b3f100c633ed4a83b,
  0x3ea96e373e26e9ff3fdfd93c3ee041893ef6f0073f42339c3f119c8d3ec85dd9,
  0x3eacdc443de76ea43fe155713efde69b3e02de013f5be0df3f1437a43ecc51b9,
  0x3eacdc443e4c64bb3f2c7f453f0395813f5adababd8ef34d3dcc929b3ec9dcd7,
  0x3ec675de3de76ea43f2c7f453f7bc01a3e032ca5be032ca53dc3a3a93ed7b58d,
  0x3ebf99e53e26e9ff3f2c7f453f5d844d3efa0275bde7381d3dcc929b3ed20989,
  0xbea94f483e4c64bb3f2618dfbeeb6ae83f58ef35be87e2823db63d3e3dd23ee2,
  0xbe9ff0893e4c64bb3f21697fbe87e2823f58ef35beeb6ae83da5e3da3de29846,
  0xbe9323bc3e4c64bb3f1fb279bd8ef34d3f5adababf0395813d9fe7e23df8eda2,
  0xbeb98a223e26e9ff3f21697fbf42339c3ef6f007bee041893da5e3da3db5ed8d,
  0xbebf7ad53de76ea43f1fb279bf5be0df3e02de01befde69b3d9614593da11559,
  0xbea94f483e26e9ff3f194c12bee041893ef6f007bf42339c3d8992863dd23ee2,
  0xbeacbd553de76ea43f1653b9befde69b3e02de01bf5be0df3d6974a33dc26f61,
  0xbe9323bc3e26e9ff3f1653b9bde7381d3efa0275bf5d844d3d7e6b403df8eda2,
  0xbe9323bc3de76ea43f12e5acbe032ca53e032ca5bf7bc01a3d510a133deffeb0,
  0x3e9342ab3e4c64bb3f1fb2793d8ef34d3f5adababf0395813d9fe7e23ebeb24a,
  0xbe8cbd553e26e9ff3f1653b9000000003f1339c1bf516f003d7e6b403e022e1b,
  0xbe8cbd553de76ea43f12e5ac000000003e05a1cbbf7dcc643d510a133e022e1b,
  0x3ea96e373e4c64bb3f2618df3eeb6ae83f58ef35be87e2823db63d3e3ec85dd9,
  0x3ea00f773e4c64bb3f21697f3e87e2823f58ef35beeb6ae83da5e3da3ec44780,
  0x3eb9a9113e26e9ff3f21697f3f42339c3ef6f007bee041893da5e3da3ecf722e,
  0x3ebf99e53de76ea43f1fb2793f5be0df3e02de01befde69b3d9614593ed4a83b,
  0x3eacdc443de76ea43f1653b93efde69b3e02de01bf5be0df3d6974a33ecc51b9,
  0x3ea96e373e26e9ff3f194c123ee041893ef6f007bf42339c3d8992863ec85dd9,
  0x3e9342ab3e26e9ff3f1653b93de7381d3efa0275bf5d844d3d7e6b403ebeb24a,
  0x3e9342ab3de76ea43f12e5ac3e032ca53e032ca5bf7bc01a3d510a133ec0ede5,
  0x3e9342abbe72ac323fe30c6f3e05a1cb000000003f7dcc643f1ffe7e3ed203a3,
  0xbe9323bcbe72ac323fe30c6fbe05a1cb000000003f7dcc643f1ffe7e3daba7b9,
  0xbec656efbe72ac323fd63fa3bf7dcc64000000003e05a1cb3f12e5583d05bd0e,
  0xbec656efbe72ac323f2c7f45bf7dcc6400000000be05a1cb3d7e99633d05bd0e,
  0x3ec675debe72ac323fd63fa33f7dcc64000000003e05a1cb3f12e5583eec35f0,
  0x3ebf99e5be72ac323fdca6093f5db22d000000003f0000003f1971e33ee8b370,
  0x3eacdc44be72ac323fe155713f000000000000003f5db22d3f1e3d3e3edf1cda,
  0x3ec675debe72ac323f2c7f453f7dcc6400000000be05a1cb3d7e99633eec35f0,
  0x3e9342abbe72ac323f12e5ac3e05a1cb00000000bf7dcc643c341bfc3ed203a3,
  0x3e8cdc44be72ac323f12e5ac0000000000000000bf8000003c341bfc3ec3b949,
  0x3e8cdc443de76ea43f12e5ac000000003e05a1cbbf7dcc643d510a133ebbe3c1,
  0x3e8cdc443e26e9ff3f1653b9000000003f1339c1bf516f003d7e6b403ebbe3c1,
  0xbe9323bcbe72ac323f12e5acbe05a1cb00000000bf7dcc643c341bfc3daba7b9,
  0xbe8cbd55be72ac323f12e5ac0000000000000000bf8000003c341bfc3de4d120,
  0x3e9342abbe72ac323fdca60900000000bf800000000000003ea0fb653f476bd3,
  0x3e9342abbe72ac323fe30c6f00000000bf800000000000003ea7cd8a3f476bd3,
  0xbe9323bcbe72ac323fe30c6f00000000bf800000000000003ea7cd8a3f72eddd,
  0xbe9323bcbe72ac323fdca60900000000bf800000000000003ea0fb653f72eddd,
  0xbeacbd55be72ac323fd63fa300000000bf800000000000003e9a29413f7656ef,
  0xbec656efbe72ac323fd63fa300000000bf800000000000003e9a29413f79c001,
  0xbec656efbe72ac323f2c7f4500000000bf800000000000003d0df58c3f79c001,
  0xbeacbd55be72ac323f2c7f4500000000bf800000000000003d0df58c3f7656ef,
  0x3eacdc44be72ac323fd63fa300000000bf800000000000003e9a29413f4402d1,
  0x3ec675debe72ac323fd63fa300000000bf800000000000003e9a29413f4099bf,
  0x3ebf99e5be72ac323fdca60900000000bf800000000000003ea0fb653f4183a5,
  0x3ea96e37be72ac323fd972d600000000bf800000000000003e9d92533f4477bc,
  0x3eacdc44be72ac323fe1557100000000bf800000000000003ea5f99c3f4402d1,
  0x3ea00f77be72ac323fdbca8e00000000bf800000000000003ea0116f3f45b74a,
  0x3eacdc44be72ac323f2c7f4500000000bf800000000000003d0df58c3f4402d1,
  0x3ec675debe72ac323f2c7f4500000000bf800000000000003d0df58c3f4099bf,
  0x3e8cdc44be72ac323f1fb27900000000bf800000000000003caec8d63f4b2464,
  0x3e8cdc44be72ac323f12e5ac00000000bf800000000000003c0351593f4b2464,
  0x3e9342abbe72ac323f12e5ac00000000bf800000000000003c0351593f476bd3,
  0x3e9342abbe72ac323f1fb27900000000bf800000000000003caec8d63f476bd3,
  0xbe9323bcbe72ac323f1fb27900000000bf800000000000003caec8d63f72eddd,
  0xbe9323bcbe72ac323f12e5ac00000000bf800000000000003c0351593f72eddd,
  0xbe8cbd55be72ac323f12e5ac00000000bf800000000000003c0351593f6f354c,
  0xbe8cbd55be72ac323f1fb27900000000bf800000000000003caec8d63f6f354c,
  0xbebf7ad5be72ac323fdca609bf5db22d000000003f0000003f1971e33d21d10b,
  0xbeacbd55be72ac323fe15571bf000000000000003f5db22d3f1e3d3e3d6e85ba,
  0xbebf7ad5be72ac323fdca60900000000bf800000000000003ea0fb653f78d60a,
  0xbea94f48be72ac323fd972d600000000bf800000000000003e9d92533f75e1f4,
  0xbe9ff089be72ac323fdbca8e00000000bf800000000000003ea0116f3f74a266,
  0xbeacbd55be72ac323fe1557100000000bf800000000000003ea5f99c3f7656ef,
  0x3ebf99e5be72ac323f1fb2793f5db22d00000000bf0000003d15d0b73ee8b370,
  0x3eacdc44be72ac323f1653b93f00000000000000bf5db22d3c9235f83edf1cda,
  0x3ebf99e5be72ac323f1fb27900000000bf800000000000003caec8d63f4183a5,
  0x3ea96e37be72ac323f2618df00000000bf800000000000003ce559f73f4477bc,
  0x3ea00f77be72ac323f21697f00000000bf800000000000003cbd68403f45b74a,
  0x3eacdc44be72ac323f1653b900000000bf800000000000003c3dcad13f4402d1,
  0xbebf7ad5be72ac323f1fb279bf5db22d00000000bf0000003d15d0b73d21d10b,
  0xbeacbd55be72ac323f1653b9bf00000000000000bf5db22d3c9235f83d6e85ba,
  0xbebf7ad5be72ac323f1fb27900000000bf800000000000003caec8d63f78d60a,
  0xbea94f48be72ac323f2618df00000000bf800000000000003ce559f73f75e1f4,
  0xbeacbd55be72ac323f1653b900000000bf800000000000003c3dcad13f7656ef,
  0xbe9ff089be72ac323f21697f00000000bf800000000000003cbd68403f74a266,
  0x3e9342ab3e26e9ff3fdca609be05a1cb00000000bf7dcc643e95ea893f4c7379,
  0x3e9342abbe72ac323fdca609be05a1cb00000000bf7dcc643ea0fb653f476bd3,
  0xbe9323bcbe72ac323fdca6093e05a1cb00000000bf7dcc643ea0fb653f72eddd,
  0xbe9323bc3e26e9ff3fdca6093e05a1cb00000000bf7dcc643e95ea893f6de636,
  0xbeacbd553e26e9ff3fd63fa33f7dcc6400000000be05a1cb3e9019f43f70ce81,
  0xbeacbd55be72ac323fd63fa33f7dcc6400000000be05a1cb3e9a29413f7656ef,
  0xbeacbd55be72ac323f2c7f453f7dcc64000000003e05a1cb3d0df58c3f7656ef,
  0xbeacbd553e26e9ff3f2c7f453f7dcc64000000003e05a1cb3d5e6ff83f70ce81,
  0x3eacdc443e26e9ff3fd63fa3bf7dcc6400000000be05a1cb3e9019f43f498b2f,
  0x3eacdc44be72ac323fd63fa3bf7dcc6400000000be05a1cb3e9a29413f4402d1,
  0x3ea96e37be72ac323fd972d6bf5db22d00000000bf0000003e9d92533f4477bc,
  0x3ea96e373e26e9ff3fd972d6bf5db22d00000000bf0000003e93024f3f49eeee,
  0x3eacdc443e26e9ff3f2c7f45bf7dcc64000000003e05a1cb3d5e6ff83f498b2f,
  0x3eacdc44be72ac323f2c7f45bf7dcc64000000003e05a1cb3d0df58c3f4402d1,
  0x3e8cdc443de76ea43f12e5acbf80000000000000800000003d01669d3f4d2fd3,
  0x3e8cdc44be72ac323f12e5acbf80000000000000800000003c0351593f4b2464,
  0x3e8cdc44be72ac323f1fb279bf80000000000000800000003caec8d63f4b2464,
  0x3e8cdc443e26e9ff3f1fb279bf80000000000000800000003d2feb4a3f4d2fd3,
  0x3e8cdc443e26e9ff3f1fb27900000000000000003f8000003d2feb4a3f4d2fd3,
  0x3e8cdc44be72ac323f1fb27900000000000000003f8000003caec8d63f4b2464,
  0x3e9342abbe72ac323f1fb279be05a1cb000000003f7dcc643caec8d63f476bd3,
  0x3e9342ab3e26e9ff3f1fb279be05a1cb000000003f7dcc643d2feb4a3f4c7379,
  0xbe9323bc3e26e9ff3f1fb2793e05a1cb000000003f7dcc643d2feb4a3f6de636,
  0xbe9323bcbe72ac323f1fb2793e05a1cb000000003f7dcc643caec8d63f72eddd,
  0xbe8cbd55be72ac323f1fb27900000000000000003f8000003caec8d63f6f354c,
  0xbe8cbd553e26e9ff3f1fb27900000000000000003f8000003d2feb4a3f6d2b2c,
  0xbe8cbd553e26e9ff3f1fb2793f80000000000000800000003d2feb4a3f6d2b2c,
  0xbe8cbd55be72ac323f1fb2793f80000000000000800000003caec8d63f6f354c,
  0xbe8cbd553de76ea43f12e5ac3f80000000000000800000003d01669d3f6d2b2c,
  0xbe8cbd55be72ac323f12e5ac3f80000000000000800000003c0351593f6f354c,
  0x3ea00f77be72ac323fdbca8ebf00000000000000bf5db22d3ea0116f3f45b74a,
  0x3ea00f773e26e9ff3fdbca8ebf00000000000000bf5db22d3e95232d3f4aff5c,
  0xbea94f483e26e9ff3fd972d63f5db22d00000000bf0000003e93024f3f706ad3,
  0xbea94f48be72ac323fd972d63f5db22d00000000bf0000003e9d92533f75e1f4,
  0xbe9ff0893e26e9ff3fdbca8e3f00000000000000bf5db22d3e95232d3f6f5a64,
  0xbe9ff089be72ac323fdbca8e3f00000000000000bf5db22d3ea0116f3f74a266,
  0x3ea96e373e26e9ff3f2618dfbf5db22d000000003f0000003d472e273f49eeee,
  0x3ea96e37be72ac323f2618dfbf5db22d000000003f0000003ce559f73f4477bc,
  0x3ea00f773e26e9ff3f21697fbf000000000000003f5db22d3d3627393f4aff5c,
  0x3ea00f77be72ac323f21697fbf000000000000003f5db22d3cbd68403f45b74a,
  0xbea94f48be72ac323f2618df3f5db22d000000003f0000003ce559f73f75e1f4,
  0xbea94f483e26e9ff3f2618df3f5db22d000000003f0000003d472e273f706ad3,
  0xbe9ff089be72ac323f21697f3f000000000000003f5db22d3cbd68403f74a266,
  0xbe9ff0893e26e9ff3f21697f3f000000000000003f5db22d3d3627393f6f5a64,
  0x3e8cdc443e26e9ff3f1653b9bf80000000000000800000003d0ddd6e3f4d2fd3,
  0xbe8cbd553e26e9ff3f1653b93f80000000000000800000003d0ddd6e3f6d2b2c,
  0x3e8cdc443e26e9ff3f1fb27900000000bf800000000000003d2feb4a3f4d2fd3,
  0x3e9342ab3e26e9ff3f1fb27900000000bf800000000000003d2feb4a3f4c7379,
  0x38f776c53e26e9ff3f963fa300000000bf800000000000003e2be7f33f5d2d77,
  0xbe8cbd553e26e9ff3f1fb27900000000bf800000000000003d2feb4a3f6d2b2c,
  0x3ea00f773e26e9ff3f21697f00000000bf800000000000003d3627393f4aff5c,
  0x3ea96e373e26e9ff3f2618df00000000bf800000000000003d472e273f49eeee,
  0x3eacdc443e26e9ff3f2c7f4500000000bf800000000000003d5e6ff83f498b2f,
  0x3eacdc443e26e9ff3fd63fa300000000bf800000000000003e9019f43f498b2f,
  0x3ea96e373e26e9ff3fd972d600000000bf800000000000003e93024f3f49eeee,
  0x3ea00f773e26e9ff3fdbca8e00000000bf800000000000003e95232d3f4aff5c,
  0x3e9342ab3e26e9ff3fdca60900000000bf800000000000003e95ea893f4c7379,
  0xbe9323bc3e26e9ff3fdca60900000000bf800000000000003e95ea893f6de636,
  0xbe9ff0893e26e9ff3fdbca8e00000000bf800000000000003e95232d3f6f5a64,
  0xbea94f483e26e9ff3fd972d600000000bf800000000000003e93024f3f706ad3,
  0xbeacbd553e26e9ff3fd63fa300000000bf800000000000003e9019f43f70ce81,
  0xbeacbd553e26e9ff3f2c7f4500000000bf800000000000003d5e6ff83f70ce81,
  0xbea94f483e26e9ff3f2618df00000000bf800000000000003d472e273f706ad3,
  0xbe9ff0893e26e9ff3f21697f00000000bf800000000000003d3627393f6f5a64,
  0xbe9323bc3e26e9ff3f1fb27900000000bf800000000000003d2feb4a3f6de636,
  0x3e8cdc443e26e9ff3f1653b900000000bf800000000000003d0ddd6e3f4d2fd3,
  0xbe8cbd553e26e9ff3f1653b900000000bf800000000000003d0ddd6e3f6d2b2c]

set_option maxRecDepth 100000 in
/-- the triangles of `HIT_TARGET_T2_SLIM_INDICES`, /repo/src/vpx/mesh/hittargets/hit_target_t2_slim_mesh.rs:313-361 -/
def hitTargetT2SlimTris : List Nat := [
  0x000000010002, 0x000000030001, 0x000400050006, 0x000400070005, 0x00080009000a, 0x000b0008000a, 0x000c000d000e,
  0x000c000f000d, 0x001000110012, 0x001300120011, 0x001400150016, 0x001400170015, 0x00180019001a, 0x0018001b0019,
  0x001c001d001e, 0x001f001c001e, 0x002000210022, 0x002000230021, 0x002400250026, 0x002700240026, 0x00280029002a,
  0x0028002b0029, 0x002c002d002e, 0x002c002f002d, 0x003000310032, 0x003300300032, 0x003400350036, 0x003400370035,
  0x00380039003a, 0x003b0038003a, 0x003c003d003e, 0x0041003d003c, 0x003e008a008b, 0x003e008b008c, 0x003e007c008a,
  0x003e008c007a, 0x0046003d0041, 0x003d003f003e, 0x003f003d0046, 0x007a007b003e, 0x007b007a0081, 0x007b00810082,
  0x007b00820083, 0x007b00830080, 0x003e007b003c, 0x0047003f0046, 0x003f0040003e, 0x00470040003f, 0x0040008d003e,
  0x0047008e0040, 0x008d0040008e, 0x007c003e007d, 0x007d003e008d, 0x007d0089007c, 0x007d00880089, 0x007d00870088,
  0x007e0087007d, 0x004700460048, 0x008e0047008f, 0x0048008f0047, 0x004800460045, 0x004500460041, 0x00b3008f0048,
  0x004800b400b3, 0x0048004500b4, 0x008f00b300b9, 0x00da00b40045, 0x00b9009b008f, 0x009b008e008f, 0x009b00b900b8,
  0x0045004300da, 0x004500410043, 0x00d900da0043, 0x00b80099009b, 0x009900b800b7, 0x009b009a008e, 0x0099009a009b,
  0x009a008d008e, 0x00b700960099, 0x009600b700ba, 0x0095008d009a, 0x007d008d0095, 0x0098009a0099, 0x00980095009a,
  0x009600980099, 0x009800930095, 0x007d00950093, 0x009600970098, 0x009700930098, 0x00ba009d0096, 0x00970096009d,
  0x00ba00df009d, 0x009400930097, 0x007d00930094, 0x009d009e0097, 0x00940097009e, 0x00ae009d00df, 0x00ae009e009d,
  0x00df00e000ae, 0x009e009c0094, 0x007d0094009c, 0x00ad009e00ae, 0x00ad009c009e, 0x00af00ae00e0, 0x00af00ad00ae,
  0x00e000bb00af, 0x00ad00ab009c, 0x00b200af00bb, 0x00bb00bc00b2, 0x00b200bc00bd, 0x00af00b000ad, 0x00b200b000af,
  0x00b000ab00ad, 0x00b200bd00b1, 0x00b100b000b2, 0x00b100bd00be, 0x00ac00ab00b0, 0x00b100ac00b0, 0x00a800b100be,
  0x00b100a800ac, 0x00a800be00a9, 0x00ab00ac007f, 0x009c00ab007f, 0x00ac00a8007f, 0x009c007f007d, 0x007e007d007f,
  0x0086007e007f, 0x007f00850086, 0x007f00840085, 0x007f00800084, 0x007f007b0080, 0x007f00a800a1, 0x00a1007b007f,
  0x00a800a900a1, 0x007b00a100a0, 0x00a600a100a9, 0x007b00a0009f, 0x00a400a100a6, 0x00a000a100a4, 0x00a700a600a9,
  0x00a700a900aa, 0x00bf00aa00c0, 0x00a700aa00bf, 0x00a700bf00e6, 0x00a500a600a7, 0x00e600a500a7, 0x00a500a400a6,
  0x00a500e600e5, 0x00a200a000a4, 0x00a2009f00a0, 0x00a300a400a5, 0x00e500a300a5, 0x00a200a400a3, 0x00a300e500b6,
  0x00b6009100a3, 0x009100a200a3, 0x009100b600b5, 0x0092009f00a2, 0x0091009200a2, 0x007b009f0090, 0x0090009f0092,
  0x0090003c007b, 0x00b500440091, 0x009100440092, 0x00b500d90044, 0x0043004400d9, 0x009200420090, 0x004200920044,
  0x003c00900042, 0x004300420044, 0x0041003c0042, 0x004100420043, 0x0049004a004b, 0x004c004a0049, 0x004b004a0059,
  0x004d004a004c, 0x0059004a0058, 0x004e004a004d, 0x0058004a0057, 0x004f004a004e, 0x0057004a0056, 0x0050004a004f,
  0x0056004a0055, 0x0051004a0050, 0x0055004a0054, 0x0052004a0051, 0x0054004a0053, 0x0053004a0052, 0x005a005b005c,
  0x005b005a005e, 0x005c005d005a, 0x005e005f005b, 0x005d005c0079, 0x005f005e0060, 0x00790078005d, 0x00600061005f,
  0x007800790077, 0x006100600062, 0x007700760078, 0x006200630061, 0x007600770075, 0x006300620064, 0x007500740076,
  0x006400650063, 0x007400750073, 0x006500640066, 0x007300720074, 0x006600670065, 0x007200730071, 0x006700660068,
  0x007100700072, 0x006800690067, 0x00700071006f, 0x00690068006a, 0x006f006e0070, 0x006a006b0069, 0x006e006f006d,
  0x006b006a006c, 0x006d006c006e, 0x006c006d006b, 0x00c100c200c3, 0x00c200c100ce, 0x00c300c400c1, 0x00ce00cd00c2,
  0x00c300de00c4, 0x00cd00ce00cc, 0x00dd00c400de, 0x00cd00cc00cb, 0x00db00dd00de, 0x00c900cb00cc, 0x00dc00dd00db,
  0x00c900ca00cb, 0x00db00c600dc, 0x00ca00c900cf, 0x00dc00c600c5, 0x00cf00d000ca, 0x00c500c600c7, 0x00e200d000cf,
  0x00c700c800c5, 0x00e100d000e2, 0x00c800c700e7, 0x00e200e300e1, 0x00c800e700e8, 0x00e100e300e4, 0x00e900e800e7,
  0x00e300d400e4, 0x00e900ea00e8, 0x00d300e400d4, 0x00ea00e900d6, 0x00d300d400d1, 0x00d100d200d3, 0x00d600d500ea,
  0x00d500d600d7, 0x00d700d800d5, 0x00eb00ec00ed, 0x00ec00eb010a, 0x00ed00ee00eb, 0x010a010900ec, 0x00ee00ed010e,
  0x0109010a00f6, 0x010e010d00ee, 0x00f600f50109, 0x010d010e010c, 0x00f500f600f3, 0x010c010b010d, 0x00f300f400f5,
  0x010b010c00f0, 0x00f400f300f7, 0x00f000ef010b, 0x00f700f800f4, 0x00ef00f000f1, 0x00f800f7010f, 0x00f100f200ef,
  0x010f011000f8, 0x00f200f10113, 0x0110010f0111, 0x0113011400f2, 0x011101120110, 0x011401130115, 0x011201110100,
  0x011501160114, 0x010000ff0112, 0x011601150102, 0x00ff010000fd, 0x00fd00fe00ff, 0x010201010116, 0x010101020103,
  0x010301040101, 0x00f900fa00fb, 0x00fb00fc00f9, 0x00fc011700f9, 0x010501060107, 0x010701180105, 0x010801070106,
  0x0119011a011b, 0x011a011d011b, 0x011b011d011e, 0x011b011e011f, 0x011b011f0120, 0x01200121011b, 0x01210122011b,
  0x011b01220123, 0x01230124011b, 0x01240125011b, 0x011b01250126, 0x011b01260127, 0x01270128011b, 0x01280129011b,
  0x0129012a011b, 0x011b012a012b, 0x012b011c011b, 0x011b011c0119, 0x012c0119011c, 0x012d012c011c]

/-- the table of /repo/src/vpx/mesh/hittargets/hit_target_t2_slim_mesh.rs -/
def hitTargetT2SlimTable : MeshTable := unpackTable hitTargetT2SlimVertices hitTargetT2SlimTris

end Vpin
