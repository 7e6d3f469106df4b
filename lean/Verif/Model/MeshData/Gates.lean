import Verif.Model.MeshPack
/-
Generated by tools/meshdata.py from /repo/src/vpx/mesh/gates/*_mesh.rs.
-/
namespace Vpin

set_option maxRecDepth 100000 in
/-- the vertices of `GATE_BRACKET_MESH`, /repo/src/vpx/mesh/gates/gate_bracket_mesh.rs:7-192 -/
def gateBracketVertices : List Nat := [
  0x3eb2a7163ce060febafa58f70000000000000000bf8000003f0000003f000000,
  0x3eac82383de42071bafa58f70000000000000000bf8000003f0000003f000000,
  0x3eb2a7163de42071bafa58f70000000000000000bf8000003f0000003f000000,
  0x3eac82383ce060febafa58f70000000000000000bf8000003f0000003f000000,
  0x3eaf355dbd8c82e0bd80485abf35048100000000bf3504813f0000003f000000,
  0x3eac8238bd8c82e0bd4c6e6ebf7b15b500000000be47c84b3f0000003f000000,
  0x3eac82383ce060febd4c6e6ebf7b15b500000000be47c84b3f0000003f000000,
  0x3eaf355d3ce060febd80485abf35048100000000bf3504813f0000003f000000,
  0x3eb5b9a6bd8c82e0bd8b1466be47c84b00000000bf7b15b53f0000003f000000,
  0x3eac82383ce060febafa58f7bf80000000000000800000003f0000003f000000,
  0x3eb5b9a63ce060febd8b1466be47c84b00000000bf7b15b53f0000003f000000,
  0x3eac8238bd8c82e0bafa58f7bf80000000000000800000003f0000003f000000,
  0x3ef017b9bd8c82e0bd8b14ec0000000000000000bf8000003f0000003f000000,
  0x3ef017b93ce060febd8b14ec0000000000000000bf8000003f0000003f000000,
  0x3efc6174bd7eae5cbd8b14ec0000000000000000bf8000003f0000003f000000,
  0x3efc61743cabb235bd8b14ec0000000000000000bf8000003f0000003f000000,
  0x3f02b032bd36b7edbd8b14ec0000000000000000bf8000003f0000003f000000,
  0x3f02b0323b5e3b8abd8b14ec0000000000000000bf8000003f0000003f000000,
  0x3f045597bca8d435bd8b14ec0000000000000000bf8000003f0000003f000000,
  0x3eac8238bd8c82e03d8f8b59bf7b15b500000000be47ae143f0000003f000000,
  0x3eac82383de420713d8f8b59bf7b15b500000000be47ae143f0000003f000000,
  0x3eac82383de42071bafa58f7bf80000000000000800000003f0000003f000000,
  0x3eab9c0f3de420713d983b60bf350b0f00000000bf34fdf43f0000003f000000,
  0x3eab9c0fbd8c82e03d983b60bf350b0f00000000bf34fdf43f0000003f000000,
  0x3ea96feb3de420713d9bd513be47c84b00000000bf7b15b53f0000003f000000,
  0x3ea96febbd8c82e03d9bd513be47c84b00000000bf7b15b53f0000003f000000,
  0xbea87b9a3de420f73d9bd5993e47c84b00000000bf7b15b53f0000003f000000,
  0xbea87b9abd8c825a3d9bd5993e47c84b00000000bf7b15b53f0000003f000000,
  0xbeaaa79c3de420f73d983c6d3f35048100000000bf3504813f0000003f000000,
  0xbeaaa79cbd8c825a3d983c6d3f35048100000000bf3504813f0000003f000000,
  0xbeab8e083de420f73d8f8bdf3f7b15b500000000be47c84b3f0000003f000000,
  0xbeab8e08bd8c825a3d8f8bdf3f7b15b500000000be47c84b3f0000003f000000,
  0xbeab8e083ce06530bafa37693f80000000000000800000003f0000003f000000,
  0xbeab8e083de420f7bafa37693f80000000000000800000003f0000003f000000,
  0xbeab8e08bd8c825abafa37693f80000000000000800000003f0000003f000000,
  0xbeab8e083ce06530bd4c6d613f7b15b500000000be47c84b3f0000003f000000,
  0xbeab8e08bd8c825abd4c6d613f7b15b500000000be47c84b3f0000003f000000,
  0xbeae410b3ce06530bd8047d43f35048100000000bf3504813f0000003f000000,
  0xbeae410bbd8c825abd8047d43f35048100000000bf3504813f0000003f000000,
  0xbeb4c5763ce06530bd8b13e03e47c84b00000000bf7b15b53f0000003f000000,
  0xbeb4c576bd8c825abd8b13e03e47c84b00000000bf7b15b53f0000003f000000,
  0xbeef23ab3ce06530bd8b13e00000000000000000bf8000003f0000003f000000,
  0xbeef23abbd8c825abd8b13e00000000000000000bf8000003f0000003f000000,
  0xbefb6d653cabb667bd8b13e00000000000000000bf8000003f0000003f000000,
  0xbefb6d65bd7ead4fbd8b13e00000000000000000bf8000003f0000003f000000,
  0xbf0236093b5e4c51bd8b13e00000000000000000bf8000003f0000003f000000,
  0xbf023609bd36b6e1bd8b13e00000000000000000bf8000003f0000003f000000,
  0xbf03db7fbca8d21cbd8b13e00000000000000000bf8000003f0000003f000000,
  0x3eb2a716bd8c82e0bd4c6e6e3f7b15b5000000003e47c84b3f0000003f000000,
  0x3eb38d82bd8c82e0bd5dcf893f34fdf4000000003f350b0f3f0000003f000000,
  0x3eb38d823ce060febd5dcf893f34fdf4000000003f350b0f3f0000003f000000,
  0x3eb2a7163ce060febd4c6e6e3f7b15b5000000003e47c84b3f0000003f000000,
  0x3eb5b9a63ce060febd6501e23e47ae14000000003f7b15b53f0000003f000000,
  0x3eb2a716bd8c82e0bafa58f73f80000000000000800000003f0000003f000000,
  0x3eb5b9a6bd8c82e0bd6501e23e47ae14000000003f7b15b53f0000003f000000,
  0x3eb2a7163ce060febafa58f73f80000000000000800000003f0000003f000000,
  0x3ef017b93ce060febd6501e200000000000000003f8000003f0000003f000000,
  0x3eb2a716bd8c82e03d8f8b593f7b15b5000000003e47c84b3f0000003f000000,
  0x3ef017b9bd8c82e0bd6501e200000000000000003f8000003f0000003f000000,
  0x3efc61743cabb235bd6502ef00000000000000003f8000003f0000003f000000,
  0x3efc6174bd7eae5cbd6502ef00000000000000003f8000003f0000003f000000,
  0x3f02b0323b5e3b8abd6502ef00000000000000003f8000003f0000003f000000,
  0x3f02b032bd36b7edbd6502ef00000000000000003f8000003f0000003f000000,
  0x3f045597bca8d435bd6502ef00000000000000003f8000003f0000003f000000,
  0x3eb2a7163de420713d8f8b593f7b15b5000000003e47c84b3f0000003f000000,
  0x3eb2a7163de42071bafa58f73f80000000000000800000003f0000003f000000,
  0x3eaff434bd8c82e03da99c7c3f350481000000003f3504813f0000003f000000,
  0x3eaff4343de420713da99c7c3f350481000000003f3504813f0000003f000000,
  0x3ea96febbd8c82e03db468883e47c84b000000003f7b15b53f0000003f000000,
  0x3ea96feb3de420713db468883e47c84b000000003f7b15b53f0000003f000000,
  0xbea87b9abd8c825a3db4690ebe47c84b000000003f7b15b53f0000003f000000,
  0xbea87b9a3de420f73db4690ebe47c84b000000003f7b15b53f0000003f000000,
  0xbeaf0004bd8c825a3da99d02bf350481000000003f3504813f0000003f000000,
  0xbeaf00043de420f73da99d02bf350481000000003f3504813f0000003f000000,
  0xbeb1b307bd8c825a3d8f8bdfbf7b15b5000000003e47c84b3f0000003f000000,
  0xbeb1b3073de420f73d8f8bdfbf7b15b5000000003e47c84b3f0000003f000000,
  0xbeb1b3073ce06530bafa3769bf80000000000000800000003f0000003f000000,
  0xbeb1b3073de420f7bafa3769bf80000000000000800000003f0000003f000000,
  0xbeb1b307bd8c825abafa3769bf80000000000000800000003f0000003f000000,
  0xbeb1b307bd8c825abd4c6d61bf7b15b5000000003e47ae143f0000003f000000,
  0xbeb1b3073ce06530bd4c6d61bf7b15b5000000003e47ae143f0000003f000000,
  0xbeb29931bd8c825abd5dce7dbf350481000000003f3504813f0000003f000000,
  0xbeb299313ce06530bd5dce7dbf350481000000003f3504813f0000003f000000,
  0xbeb4c576bd8c825abd6500d6be47ae14000000003f7b15b53f0000003f000000,
  0xbeb4c5763ce06530bd6500d6be47ae14000000003f7b15b53f0000003f000000,
  0xbeef23abbd8c825abd6500d600000000000000003f8000003f0000003f000000,
  0xbeef23ab3ce06530bd6500d600000000000000003f8000003f0000003f000000,
  0xbefb6d65bd7ead4fbd6500d600000000000000003f8000003f0000003f000000,
  0xbefb6d653cabb667bd6500d600000000000000003f8000003f0000003f000000,
  0xbf023609bd36b6e1bd6500d600000000000000003f8000003f0000003f000000,
  0xbf0236093b5e4c51bd6500d600000000000000003f8000003f0000003f000000,
  0xbf03db7fbca8d21cbd6500d600000000000000003f8000003f0000003f000000,
  0x3eaf355dbd8c82e0bd80485a00000000bf800000800000003f0000003f000000,
  0x3eb5b9a6bd8c82e0bd6501e200000000bf800000800000003f0000003f000000,
  0x3eb38d82bd8c82e0bd5dcf8900000000bf800000800000003f0000003f000000,
  0x3eac8238bd8c82e0bd4c6e6e00000000bf800000800000003f0000003f000000,
  0x3eb5b9a6bd8c82e0bd8b146600000000bf800000800000003f0000003f000000,
  0x3eb2a716bd8c82e0bd4c6e6e00000000bf800000800000003f0000003f000000,
  0x3ef017b9bd8c82e0bd6501e23e05a1cbbf7dcc64800000003f0000003f000000,
  0x3eac8238bd8c82e0bafa58f700000000bf800000800000003f0000003f000000,
  0x3ef017b9bd8c82e0bd8b14ec3e05a1cbbf7dcc64800000003f0000003f000000,
  0x3eb2a716bd8c82e0bafa58f700000000bf800000800000003f0000003f000000,
  0x3efc6174bd7eae5cbd6502ef3f000000bf5db22d800000003f0000003f000000,
  0x3eac8238bd8c82e03d8f8b5900000000bf800000800000003f0000003f000000,
  0x3efc6174bd7eae5cbd8b14ec3f000000bf5db22d800000003f0000003f000000,
  0x3eb2a716bd8c82e03d8f8b5900000000bf800000800000003f0000003f000000,
  0x3f02b032bd36b7edbd6502ef3f5db22dbf000000800000003f0000003f000000,
  0x3eab9c0fbd8c82e03d983b6000000000bf800000800000003f0000003f000000,
  0x3f02b032bd36b7edbd8b14ec3f5db22dbf000000800000003f0000003f000000,
  0x3eaff434bd8c82e03da99c7c00000000bf800000800000003f0000003f000000,
  0x3f045597bca8d435bd6502ef3f80000000000000800000003f0000003f000000,
  0x3ea96febbd8c82e03d9bd51300000000bf800000800000003f0000003f000000,
  0x3f045597bca8d435bd8b14ec3f80000000000000800000003f0000003f000000,
  0x3ea96febbd8c82e03db4688800000000bf800000800000003f0000003f000000,
  0x3f02b0323b5e3b8abd6502ef3f5db22d3f000000800000003f0000003f000000,
  0xbea87b9abd8c825a3d9bd59900000000bf800000800000003f0000003f000000,
  0x3f02b0323b5e3b8abd8b14ec3f5db22d3f000000800000003f0000003f000000,
  0xbea87b9abd8c825a3db4690e00000000bf800000800000003f0000003f000000,
  0x3efc61743cabb235bd6502ef3f0000003f5db22d800000003f0000003f000000,
  0xbeaaa79cbd8c825a3d983c6d00000000bf800000800000003f0000003f000000,
  0x3efc61743cabb235bd8b14ec3f0000003f5db22d800000003f0000003f000000,
  0xbeaf0004bd8c825a3da99d0200000000bf800000800000003f0000003f000000,
  0x3ef017b93ce060febd6501e23e05a1cb3f7dcc64800000003f0000003f000000,
  0xbeab8e08bd8c825a3d8f8bdf00000000bf800000800000003f0000003f000000,
  0x3ef017b93ce060febd8b14ec3e05a1cb3f7dcc64800000003f0000003f000000,
  0xbeb1b307bd8c825a3d8f8bdf00000000bf800000800000003f0000003f000000,
  0x3eb5b9a63ce060febd6501e2000000003f800000800000003f0000003f000000,
  0xbeab8e08bd8c825abafa376900000000bf800000800000003f0000003f000000,
  0x3eb5b9a63ce060febd8b1466000000003f800000800000003f0000003f000000,
  0xbeb1b307bd8c825abafa376900000000bf800000800000003f0000003f000000,
  0x3eb38d823ce060febd5dcf89000000003f800000800000003f0000003f000000,
  0xbeab8e08bd8c825abd4c6d6100000000bf800000800000003f0000003f000000,
  0x3eaf355d3ce060febd80485a000000003f800000800000003f0000003f000000,
  0xbeb1b307bd8c825abd4c6d6100000000bf800000800000003f0000003f000000,
  0x3eb2a7163ce060febd4c6e6e000000003f800000800000003f0000003f000000,
  0xbeae410bbd8c825abd8047d400000000bf800000800000003f0000003f000000,
  0x3eac82383ce060febd4c6e6e000000003f800000800000003f0000003f000000,
  0xbeb29931bd8c825abd5dce7d00000000bf800000800000003f0000003f000000,
  0x3eb2a7163ce060febafa58f7000000003f800000800000003f0000003f000000,
  0x3eac82383ce060febafa58f7000000003f800000800000003f0000003f000000,
  0xbeb4c576bd8c825abd8b13e000000000bf800000800000003f0000003f000000,
  0xbeb4c576bd8c825abd6500d600000000bf800000800000003f0000003f000000,
  0xbeef23abbd8c825abd8b13e0be05a1cbbf7dcc64800000003f0000003f000000,
  0xbeef23abbd8c825abd6500d6be05a1cbbf7dcc64800000003f0000003f000000,
  0xbefb6d65bd7ead4fbd8b13e0bf000000bf5db22d800000003f0000003f000000,
  0xbefb6d65bd7ead4fbd6500d6bf000000bf5db22d800000003f0000003f000000,
  0xbf023609bd36b6e1bd8b13e0bf5db22dbf000000800000003f0000003f000000,
  0xbf023609bd36b6e1bd6500d6bf5db22dbf000000800000003f0000003f000000,
  0xbf03db7fbca8d21cbd8b13e0bf80000000000000800000003f0000003f000000,
  0xbf03db7fbca8d21cbd6500d6bf80000000000000800000003f0000003f000000,
  0xbf0236093b5e4c51bd8b13e0bf5db22d3f000000800000003f0000003f000000,
  0xbf0236093b5e4c51bd6500d6bf5db22d3f000000800000003f0000003f000000,
  0xbefb6d653cabb667bd8b13e0bf0000003f5db22d800000003f0000003f000000,
  0xbefb6d653cabb667bd6500d6bf0000003f5db22d800000003f0000003f000000,
  0xbeef23ab3ce06530bd8b13e0be05a1cb3f7dcc64800000003f0000003f000000,
  0xbeef23ab3ce06530bd6500d6be05a1cb3f7dcc64800000003f0000003f000000,
  0xbeb4c5763ce06530bd8b13e0000000003f800000800000003f0000003f000000,
  0xbeb4c5763ce06530bd6500d6000000003f800000800000003f0000003f000000,
  0xbeae410b3ce06530bd8047d4000000003f800000800000003f0000003f000000,
  0xbeb299313ce06530bd5dce7d000000003f800000800000003f0000003f000000,
  0xbeab8e083ce06530bd4c6d61000000003f800000800000003f0000003f000000,
  0xbeb1b3073ce06530bd4c6d61000000003f800000800000003f0000003f000000,
  0xbeab8e083ce06530bafa3769000000003f800000800000003f0000003f000000,
  0xbeb1b3073ce06530bafa3769000000003f800000800000003f0000003f000000,
  0x3eaff4343de420713da99c7c000000003f800000800000003f0000003f000000,
  0x3eac82383de420713d8f8b59000000003f800000800000003f0000003f000000,
  0x3eab9c0f3de420713d983b60000000003f800000800000003f0000003f000000,
  0x3ea96feb3de420713db46888000000003f800000800000003f0000003f000000,
  0x3eb2a7163de420713d8f8b59000000003f800000800000003f0000003f000000,
  0x3ea96feb3de420713d9bd513000000003f800000800000003f0000003f000000,
  0x3eac82383de42071bafa58f7000000003f800000800000003f0000003f000000,
  0x3eb2a7163de42071bafa58f7000000003f800000800000003f0000003f000000,
  0xbea87b9a3de420f73db4690e000000003f800000800000003f0000003f000000,
  0xbea87b9a3de420f73d9bd599000000003f800000800000003f0000003f000000,
  0xbeaf00043de420f73da99d02000000003f800000800000003f0000003f000000,
  0xbeaaa79c3de420f73d983c6d000000003f800000800000003f0000003f000000,
  0xbeb1b3073de420f73d8f8bdf000000003f800000800000003f0000003f000000,
  0xbeab8e083de420f73d8f8bdf000000003f800000800000003f0000003f000000,
  0xbeb1b3073de420f7bafa3769000000003f800000800000003f0000003f000000,
  0xbeab8e083de420f7bafa3769000000003f800000800000003f0000003f000000,
  0xbeb1b3073de420f7bafa37690000000000000000bf8000003f0000003f000000,
  0xbeab8e083de420f7bafa37690000000000000000bf8000003f0000003f000000,
  0xbeab8e083ce06530bafa37690000000000000000bf8000003f0000003f000000,
  0xbeb1b3073ce06530bafa37690000000000000000bf8000003f0000003f000000]

set_option maxRecDepth 100000 in
/-- the triangles of `GATE_BRACKET_INDICES`, /repo/src/vpx/mesh/gates/gate_bracket_mesh.rs:193-218 -/
def gateBracketTris : List Nat := [
  0x000000010002, 0x000100000003, 0x000400050006, 0x000600070004, 0x000800040007, 0x000900060005, 0x0007000a0008,
  0x0005000b0009, 0x000c0008000a, 0x000b00130009, 0x000a000d000c, 0x000c000d000e, 0x000f000e000d, 0x000f0010000e,
  0x000f00110010, 0x001100120010, 0x001400090013, 0x001400150009, 0x001600140013, 0x001300170016, 0x001800160017,
  0x001700190018, 0x001a00180019, 0x0019001b001a, 0x001c001a001b, 0x001b001d001c, 0x001e001c001d, 0x001d001f001e,
  0x001f0020001e, 0x0021001e0020, 0x001f00220020, 0x002300200022, 0x002200240023, 0x002500230024, 0x002400260025,
  0x002700250026, 0x002600280027, 0x002900270028, 0x0028002a0029, 0x0029002a002b, 0x002c002b002a, 0x002c002d002b,
  0x002c002e002d, 0x002e002f002d, 0x003000310032, 0x003200330030, 0x003400320031, 0x003500300033, 0x003100360034,
  0x003300370035, 0x003800340036, 0x003900350037, 0x0036003a0038, 0x003b0038003a, 0x003a003c003b, 0x003c003d003b,
  0x003c003e003d, 0x003e003f003d, 0x003900370040, 0x004100400037, 0x004200390040, 0x004000430042, 0x004400420043,
  0x004300450044, 0x004600440045, 0x004500470046, 0x004800460047, 0x004700490048, 0x004a00480049, 0x0049004b004a,
  0x004b004c004a, 0x004b004d004c, 0x004e004a004c, 0x004f004e004c, 0x004c0050004f, 0x0051004f0050, 0x005000520051,
  0x005300510052, 0x005200540053, 0x005500530054, 0x005400560055, 0x005700550056, 0x005600580057, 0x005800590057,
  0x0058005a0059, 0x005a005b0059, 0x005c005d005e, 0x005d005c0060, 0x005e005f005c, 0x0062005d0060, 0x0061005f005e,
  0x006000640062, 0x0063005f0061, 0x006600620064, 0x006100650063, 0x006400680066, 0x006700630065, 0x006a00660068,
  0x006500690067, 0x0068006c006a, 0x0069006b0067, 0x006e006a006c, 0x006b0069006d, 0x006c0070006e, 0x006d006f006b,
  0x0072006e0070, 0x006f006d0071, 0x007000740072, 0x0073006f0071, 0x007600720074, 0x007100750073, 0x007400780076,
  0x007500770073, 0x007a00760078, 0x007700750079, 0x0078007c007a, 0x00770079007b, 0x007e007a007c, 0x007d007b0079,
  0x007c0080007e, 0x007f007b007d, 0x00800082007e, 0x007d0081007f, 0x008200800084, 0x0083007f0081, 0x008200840086,
  0x008100850083, 0x008800860084, 0x008500870083, 0x008a00860088, 0x0088008b008a, 0x008700850089, 0x0089008c0087,
  0x008c0089008d, 0x008e008c008d, 0x008d008f008e, 0x0090008e008f, 0x008f00910090, 0x009200900091, 0x009100930092,
  0x009400920093, 0x009300950094, 0x009600940095, 0x009500970096, 0x009800960097, 0x009700990098, 0x009a00980099,
  0x0099009b009a, 0x009c009a009b, 0x009b009d009c, 0x009d009e009c, 0x009e009d009f, 0x009f00a0009e, 0x00a0009f00a1,
  0x00a200a000a1, 0x00a100a300a2, 0x00a400a500a6, 0x00a500a400a8, 0x00aa00a500a8, 0x00a800ab00aa, 0x00a600a700a4,
  0x00a700a600a9, 0x00ac00a700a9, 0x00a900ad00ac, 0x00ad00ae00ac, 0x00ae00ad00af, 0x00af00b000ae, 0x00b100b000af,
  0x00b200b000b1, 0x00b100b300b2, 0x00b400b500b6, 0x00b400b600b7]

/-- the table of /repo/src/vpx/mesh/gates/gate_bracket_mesh.rs -/
def gateBracketTable : MeshTable := unpackTable gateBracketVertices gateBracketTris

set_option maxRecDepth 100000 in
/-- the vertices of `GATE_LONG_PLATE_MESH`, /repo/src/vpx/mesh/gates/gate_long_plate_mesh.rs:7-70 -/
def gateLongPlateVertices : List Nat := [
  0x3e0d4fdfbb9fbe77befac5c180000000bf800000800000003f28ba303f6cf638,
  0xbe24dd2fbb9fbe77bef0885180000000bf800000800000003f5b26d03f653448,
  0xbe0d4fdfbb9fbe77befac5c180000000bf800000800000003f5745d03f6cf638,
  0x3e24dd2fbb9fbe77bef0885180000000bf800000800000003f24d9303f653448,
  0x3e0d4fdf3ba7ef9ebefac5c13eb35a8600000000bf6fc505000000003d984e40,
  0x3e24dd2f3ba7ef9ebef088513f5bcd3600000000bf0339c13c68b7e53d984e40,
  0x3e24dd2fbb9fbe77bef088513f5bcd3600000000bf0339c13c68b7e53dd9be4d,
  0x3e0d4fdfbb9fbe77befac5c13eb35a8600000000bf6fc505000000003dd9be4d,
  0xbe0d4fdf3ba7ef9ebefac5c1000000003f800000000000003e22e8c03f6cf638,
  0xbe24dd2f3ba7ef9ebef08851000000003f800000000000003e1364bf3f653448,
  0x3e0d4fdf3ba7ef9ebefac5c1000000003f800000000000003eae8ba03f6cf638,
  0x3e24dd2f3ba7ef9ebef08851000000003f800000000000003eb64da13f653448,
  0xbe0d4fdfbb9fbe77befac5c1beb35a8600000000bf6fc5053f5f36f03dd9be4d,
  0xbe24dd2fbb9fbe77bef08851bf5bcd3600000000bf0339c13f5b94103dd9be4d,
  0xbe24dd2f3ba7ef9ebef08851bf5bcd3600000000bf0339c13f5b94103d984e40,
  0xbe0d4fdf3ba7ef9ebefac5c1beb35a8600000000bf6fc5053f5f36f03d984e40,
  0x3e0d4fdfbb9fbe77befac5c13eb35a8600000000bf6fc5053f8000003dd9be4d,
  0x3e0d4fdf3ba7ef9ebefac5c13eb35a8600000000bf6fc5053f8000003d984e40,
  0x3e876c8bbb9fbe77bc20663c3f79c0ec00000000be60c49c3e8bd1ab3dd9be4d,
  0xbe876c8b3ba7ef9ebc20663cbf79c0ec00000000be60c49c3f1950653d984e40,
  0xbe876c8bbb9fbe77bc20663cbf79c0ec00000000be60c49c3f1950653dd9be4d,
  0xbe876c8bbb9fbe77bc20663c80000000bf800000800000003f6c9b203e4b1e9f,
  0x3e876c8bbb9fbe77bc20663c80000000bf800000800000003f1364e03e4b1e9f,
  0xbe876c8b3ba7ef9ebc20663c000000003f800000000000003d9b27033e4b1e9f,
  0x3e876c8b3ba7ef9ebc20663c000000003f800000000000003ed9363f3e4b1e9f,
  0x3e876c8b3ba7ef9e3c2747d880000000000000003f8000003ea8cbd13d984e40,
  0xbe876c8b3ba7ef9e3c2747d880000000000000003f8000003f0ae2b93d984e40,
  0xbe876c8bbb9fbe773c2747d880000000000000003f8000003f0ae2b93dd9be4d,
  0x3e876c8bbb9fbe773c2747d880000000000000003f8000003ea8cbd13dd9be4d,
  0x3e876c8b3ba7ef9ebc20663c3f79c0ec00000000be60c49c3e8bd1ab3d984e40,
  0xbec24dd33ba7ef9ebc20663cbf80000000000000800000003f12de983d984e40,
  0xbec24dd3bb9fbe77bc20663cbf80000000000000800000003f12de983dd9be4d,
  0xbec24dd33ba7ef9e3c2747d8bf80000000000000800000003f116e8b3d984e40,
  0xbec24dd3bb9fbe773c2747d8bf80000000000000800000003f116e8b3dd9be4d,
  0xbe876c8b3ba7ef9e3c2747d8000000003f800000000000003d9b27033e2c16df,
  0x3e876c8b3ba7ef9e3c2747d8000000003f800000000000003ed9363f3e2c16df,
  0x3ec24dd3bb9fbe77bc20663c3f80000000000000800000003e98c3b13dd9be4d,
  0x3ec24dd33ba7ef9ebc20663c3f80000000000000800000003e98c3b13d984e40,
  0x3ec24dd3bb9fbe773c2747d83f80000000000000800000003e9bb42d3dd9be4d,
  0x3ec24dd33ba7ef9e3c2747d83f80000000000000800000003e9bb42d3d984e40,
  0xbe876c8bbb9fbe773c2747d880000000bf800000800000003f6c9b203e2c16df,
  0x3e876c8bbb9fbe773c2747d880000000bf800000800000003f1364e03e2c16df,
  0xbec24dd3bb9fbe773c2747d880000000bf800000800000003f8000003e2c16df,
  0xbec24dd3bb9fbe77bc20663c80000000bf800000800000003f8000003e4b1e9f,
  0xbe876c8b3ba7ef9ebc20663c8000000000000000bf8000003f1950653d984e40,
  0xbe876c8bbb9fbe77bc20663c8000000000000000bf8000003f1950653dd9be4d,
  0xbec24dd33ba7ef9ebc20663c8000000000000000bf8000003f12de983d984e40,
  0xbec24dd3bb9fbe77bc20663c8000000000000000bf8000003f12de983dd9be4d,
  0xbec24dd33ba7ef9e3c2747d8000000003f80000000000000000000003e2c16df,
  0xbec24dd33ba7ef9ebc20663c000000003f80000000000000000000003e4b1e9f,
  0xbec24dd3bb9fbe773c2747d880000000000000003f8000003f116e8b3dd9be4d,
  0xbec24dd33ba7ef9e3c2747d880000000000000003f8000003f116e8b3d984e40,
  0x3e876c8bbb9fbe77bc20663c8000000000000000bf8000003e8bd1ab3dd9be4d,
  0x3e876c8b3ba7ef9ebc20663c8000000000000000bf8000003e8bd1ab3d984e40,
  0x3ec24dd3bb9fbe77bc20663c8000000000000000bf8000003e98c3b13dd9be4d,
  0x3ec24dd33ba7ef9ebc20663c8000000000000000bf8000003e98c3b13d984e40,
  0x3ec24dd3bb9fbe77bc20663c80000000bf800000800000003f0000003e4b1e9f,
  0x3ec24dd3bb9fbe773c2747d880000000bf800000800000003f0000003e2c16df,
  0x3ec24dd33ba7ef9ebc20663c000000003f800000000000003f0000003e4b1e9f,
  0x3ec24dd33ba7ef9e3c2747d8000000003f800000000000003f0000003e2c16df,
  0x3ec24dd33ba7ef9e3c2747d880000000000000003f8000003e9bb42d3d984e40,
  0x3ec24dd3bb9fbe773c2747d880000000000000003f8000003e9bb42d3dd9be4d]

set_option maxRecDepth 100000 in
/-- the triangles of `GATE_LONG_PLATE_INDICES`, /repo/src/vpx/mesh/gates/gate_long_plate_mesh.rs:71-78 -/
def gateLongPlateTris : List Nat := [
  0x001e001f0020, 0x0020001f0021, 0x000000010002, 0x000100000003, 0x000100030015, 0x001500030016, 0x002b0015002a,
  0x00150028002a, 0x001500160028, 0x002800160029, 0x002900160038, 0x003900290038, 0x000400050006, 0x000600070004,
  0x000600050012, 0x00120005001d, 0x00080009000a, 0x000b000a0009, 0x000b00090017, 0x000b00170018, 0x003000170031,
  0x002200170030, 0x001700220018, 0x001800220023, 0x00180023003a, 0x003a0023003b, 0x000c000d000e, 0x000e000d0013,
  0x0013000d0014, 0x000e000f000c, 0x0010000c000f, 0x000f00110010, 0x0019001a001b, 0x001b001a0032, 0x0032001a0033,
  0x001b001c0019, 0x0019001c003c, 0x003c001c003d, 0x002400250026, 0x002600250027, 0x002c002d002e, 0x002e002d002f,
  0x003400350036, 0x003600350037]

/-- the table of /repo/src/vpx/mesh/gates/gate_long_plate_mesh.rs -/
def gateLongPlateTable : MeshTable := unpackTable gateLongPlateVertices gateLongPlateTris

set_option maxRecDepth 100000 in
/-- the vertices of `GATE_PLATE_MESH`, /repo/src/vpx/mesh/gates/gate_plate_mesh.rs:7-78 -/
def gatePlateVertices : List Nat := [
  0x3e5f4a56bbad03dabeb3578280000000bf800000800000003f194d623f663fee,
  0xbe71322fbbad03dabead3fc080000000bf800000800000003f69acac3f604be4,
  0xbe5ffe2abbad03dabeb3578280000000bf800000800000003f66b29e3f663fee,
  0x3e707e5abbad03dabead3fc080000000bf800000800000003f1653543f604be4,
  0x3e5f4a563b9aaa3bbeb357823e9b4a2300000000bf73f141000000003dce008f,
  0x3e707e5a3b9aaa3bbead3fc03f54f76600000000bf0e147b3c3074a73dce008f,
  0x3e707e5abbad03dabead3fc03f54f76600000000bf0e147b3c3074a73df4df05,
  0x3e5f4a56bbad03dabeb357823e9b4a2300000000bf73f141000000003df4df05,
  0xbe5ffe2a3b9aaa3bbeb35782000000003f800000000000003dca6b0e3f663fee,
  0xbe71322f3b9aaa3bbead3fc0000000003f800000000000003db29aa23f604be4,
  0x3e5f4a563b9aaa3bbeb35782000000003f800000000000003ecd653d3f663fee,
  0x3e707e5a3b9aaa3bbead3fc0000000003f800000000000003ed359583f604be4,
  0xbe5ffe2abbad03dabeb35782be9b4a2300000000bf73f1413f48c8043df4df05,
  0xbe71322fbbad03dabead3fc0bf54f76600000000bf0e147b3f4606423df4df05,
  0xbe71322f3b9aaa3bbead3fc0bf54f76600000000bf0e147b3f4606423dce008f,
  0xbe5ffe2a3b9aaa3bbeb35782be9b4a2300000000bf73f1413f48c8043dce008f,
  0x3e5f4a56bbad03dabeb357823e9b4a2300000000bf73f1413f8000003df4df05,
  0x3e5f4a563b9aaa3bbeb357823e9b4a2300000000bf73f1413f8000003dce008f,
  0x3e9aa737bbad03dabba9a3d33f80000000000000800000003e6acd183df4df05,
  0x3e9aa737bbad03dabd276ea43f7e69ad00000000bde2eb1c3e5954223df4df05,
  0x3e9aa7373b9aaa3bbd276ea43f7e69ad00000000bde2eb1c3e5954223dce008f,
  0xbe9b0121bbad03dabd276ea4bf7e69ad00000000bde2eb1c3f1272fc3df4df05,
  0xbe9b0121bbad03dabba9a3d3bf80000000000000800000003f0e162f3df4df05,
  0xbe9b01213b9aaa3bbba9a3d3bf80000000000000800000003f0e162f3dce008f,
  0xbe9b01213b9aaa3bbd276ea4bf7e69ad00000000bde2eb1c3f1272fc3dce008f,
  0xbe9b0121bbad03dabd276ea480000000bf800000800000003f7594d13e96eb0b,
  0x3e9aa737bbad03dabd276ea480000000bf800000800000003f0a6b2f3e96eb0b,
  0xbe9b0121bbad03dabba9a3d380000000bf800000800000003f7594d13e666517,
  0xbe9b01213b9aaa3bbd276ea4000000003f800000000000003d26b2f23e96eb0b,
  0x3e9aa7373b9aaa3bbd276ea4000000003f800000000000003eeb29a23e96eb0b,
  0xbe9b01213b9aaa3bbba9a3d3000000003f800000000000003d26b2f23e666517,
  0x3e9aa7373b9aaa3b3bdc4c9d80000000000000003f8000003e84fd6d3dce008f,
  0xbe9b01213b9aaa3b3bdc4c9d80000000000000003f8000003f063cea3dce008f,
  0xbe9b0121bbad03da3bdc4c9d80000000000000003f8000003f063cea3df4df05,
  0x3e9aa737bbad03da3bdc4c9d80000000000000003f8000003e84fd6d3df4df05,
  0x3e9aa7373b9aaa3bbba9a3d33f80000000000000800000003e6acd183dce008f,
  0x3e9aa737bbad03dabba9a3d380000000bf800000800000003f0a6b2f3e666517,
  0x3e9aa7373b9aaa3bbba9a3d3000000003f800000000000003eeb29a23e666517,
  0xbeb91c2a3b9aaa3bbba9a3d3bf80000000000000800000003f0ad04e3dce008f,
  0xbeb91c2abbad03dabba9a3d3bf80000000000000800000003f0ad04e3df4df05,
  0xbeb91c2a3b9aaa3b3bdc4c9dbf80000000000000800000003f098be73dce008f,
  0xbeb91c2abbad03da3bdc4c9dbf80000000000000800000003f098be73df4df05,
  0xbe9b01213b9aaa3b3bdc4c9d000000003f800000000000003d26b2f23e4e94ab,
  0x3e9aa7373b9aaa3b3bdc4c9d000000003f800000000000003eeb29a23e4e94ab,
  0x3eb8c240bbad03dabba9a3d33f80000000000000800000003e77d8493df4df05,
  0x3eb8c2403b9aaa3bbba9a3d33f80000000000000800000003e77d8493dce008f,
  0x3eb8c240bbad03da3bdc4c9d3f80000000000000800000003e7cbea53df4df05,
  0x3eb8c2403b9aaa3b3bdc4c9d3f80000000000000800000003e7cbea53dce008f,
  0xbe9b0121bbad03da3bdc4c9d80000000bf800000800000003f7594d13e4e94ab,
  0x3e9aa737bbad03da3bdc4c9d80000000bf800000800000003f0a6b2f3e4e94ab,
  0xbeb91c2abbad03da3bdc4c9d80000000bf800000800000003f8000003e4e94ab,
  0xbeb91c2abbad03dabba9a3d380000000bf800000800000003f8000003e666517,
  0xbe9b01213b9aaa3bbba9a3d30000000000000000bf8000003f0e162f3dce008f,
  0xbe9b0121bbad03dabba9a3d30000000000000000bf8000003f0e162f3df4df05,
  0xbeb91c2a3b9aaa3bbba9a3d30000000000000000bf8000003f0ad04e3dce008f,
  0xbeb91c2abbad03dabba9a3d30000000000000000bf8000003f0ad04e3df4df05,
  0xbeb91c2a3b9aaa3b3bdc4c9d000000003f80000000000000000000003e4e94ab,
  0xbeb91c2a3b9aaa3bbba9a3d3000000003f80000000000000000000003e666517,
  0xbeb91c2abbad03da3bdc4c9d80000000000000003f8000003f098be73df4df05,
  0xbeb91c2a3b9aaa3b3bdc4c9d80000000000000003f8000003f098be73dce008f,
  0x3e9aa737bbad03dabba9a3d30000000000000000bf8000003e6acd183df4df05,
  0x3e9aa7373b9aaa3bbba9a3d30000000000000000bf8000003e6acd183dce008f,
  0x3eb8c240bbad03dabba9a3d30000000000000000bf8000003e77d8493df4df05,
  0x3eb8c2403b9aaa3bbba9a3d30000000000000000bf8000003e77d8493dce008f,
  0x3eb8c240bbad03dabba9a3d380000000bf800000800000003f0000003e666517,
  0x3eb8c240bbad03da3bdc4c9d80000000bf800000800000003f0000003e4e94ab,
  0x3eb8c2403b9aaa3bbba9a3d3000000003f800000000000003f0000003e666517,
  0x3eb8c2403b9aaa3b3bdc4c9d000000003f800000000000003f0000003e4e94ab,
  0x3eb8c2403b9aaa3b3bdc4c9d80000000000000003f8000003e7cbea53dce008f,
  0x3eb8c240bbad03da3bdc4c9d80000000000000003f8000003e7cbea53df4df05]

set_option maxRecDepth 100000 in
/-- the triangles of `GATE_PLATE_INDICES`, /repo/src/vpx/mesh/gates/gate_plate_mesh.rs:79-87 -/
def gatePlateTris : List Nat := [
  0x002600270028, 0x002800270029, 0x000000010002, 0x000100000003, 0x000100030019, 0x00190003001a, 0x001b0019001a,
  0x0024001b001a, 0x0033001b0032, 0x001b00300032, 0x001b00240030, 0x003000240031, 0x003100240040, 0x004100310040,
  0x000400050006, 0x000600070004, 0x000600050013, 0x001300050014, 0x001200130014, 0x002300120014, 0x00080009000a,
  0x000b000a0009, 0x000b0009001c, 0x000b001c001d, 0x001c001e001d, 0x001e0025001d, 0x0038001e0039, 0x002a001e0038,
  0x001e002a0025, 0x0025002a002b, 0x0025002b0042, 0x0042002b0043, 0x000c000d000e, 0x000e000f000c, 0x0010000c000f,
  0x000f00110010, 0x000e000d0018, 0x0018000d0015, 0x001500170018, 0x001500160017, 0x001f00200021, 0x00210020003a,
  0x003a0020003b, 0x00210022001f, 0x001f00220044, 0x004400220045, 0x002c002d002e, 0x002e002d002f, 0x003400350036,
  0x003600350037, 0x003c003d003e, 0x003e003d003f]

/-- the table of /repo/src/vpx/mesh/gates/gate_plate_mesh.rs -/
def gatePlateTable : MeshTable := unpackTable gatePlateVertices gatePlateTris

set_option maxRecDepth 100000 in
/-- the vertices of `GATE_WIRE_MESH`, /repo/src/vpx/mesh/gates/gate_wire_mesh.rs:7-194 -/
def gateWireVertices : List Nat := [
  0xbec49c2c360637bd3aec7432bf80000000000000800000003f0000003f000000,
  0xbec49c2cbb8aefb33bc625eabf80000000000000800000003f0000003f000000,
  0xbec49c2c360637bd3bffb8b2bf80000000000000800000003f0000003f000000,
  0xbec49c2cbbc48adf3aec7432bf80000000000000800000003f0000003f000000,
  0xbec49c2c3b8b19a43bc625eabf80000000000000800000003f0000003f000000,
  0xbec49c2cbb8aefb3bb1fc6dabf80000000000000800000003f0000003f000000,
  0xbec49c2c3bc4ac6d3aec7432bf80000000000000800000003f0000003f000000,
  0xbec49c2c360637bdbb897e99bf80000000000000800000003f0000003f000000,
  0xbec49c2c3b8b19a4bb1fc6dabf80000000000000800000003f0000003f000000,
  0x3c3c1f00bb8af816be30daa13ef58e22bf2ba5e33f10e5603f0000003f000000,
  0x3c507c85360637bdbe2f950c3f2703b0000000003f4205bc3f0000003f000000,
  0xb68637bd360637bdbe2a2f0600000000000000003f8000003f0000003f000000,
  0x3dea8544bb8af816beadea893edc28f6bf3ef34d3f023a2a3f0000003f000000,
  0xb68637bd3b8b19a4be2bfb9c000000003f29ba5e3f3fa4403f0000003f000000,
  0x3de46067bbc48adfbeaf73c1bd3573ebbf7f3b64bd8000003f0000003f000000,
  0xb68637bdbb8af816be2bfb9c00000000bf29ba5e3f3fa4403f0000003f000000,
  0x3c0afc48bbc48adfbe33ed0f3d35dcc6bf7f3b643d80346e3f0000003f000000,
  0x3ded106f360637bdbead479d3f24a234000000003f4404ea3f0000003f000000,
  0xb68637bdbbc48adfbe3053e300000000bf7ed9173dc226813f0000003f000000,
  0x3c3c1f003b8b19a4be30daa13ef58e223f2ba5e33f10e5603f0000003f000000,
  0x3df5c183bb8af816beaf14553e0b923abf39eecc3f2c779a3f0000003f000000,
  0xb68637bd3bc4ac6dbe3053e3000000003f7ed9173dc226813f0000003f000000,
  0x3df5c183bbc48adfbeb14079bca0902ebf7faacebd41bda53f0000003f000000,
  0x3dea85443b8b19a4beadea893edc28f63f3eecc03f023a2a3f0000003f000000,
  0x3df5c183360637bdbeae2e0a3e51d14e000000003f7a92a33f0000003f000000,
  0x3c0afc483bc4ac6dbe33ed0f3d35dcc63f7f3b643d80346e3f0000003f000000,
  0x3df5c1833b8b19a4beaf14553e0b923a3f39eecc3f2c779a3f0000003f000000,
  0x3de460673bc4ac6dbeaf73c1bd3573eb3f7f3b64bd8000003f0000003f000000,
  0xb60637bd3b8b19a4be34abe7800000003f41e4f7bf2724743f0000003f000000,
  0x3bb3a2593b8b19a4be36ffc1bedc28f63f3ef34dbf02339c3f0000003f000000,
  0x3df5c1833bc4ac6dbeb14079bca0902e3f7faacebd41bda53f0000003f000000,
  0x3dde3b8a3b8b19a4beb0fcf8bef58e223f2bac71bf10ded33f0000003f000000,
  0xb60637bd360637bdbe3678c0b8d1b71700000000bf8000003f0000003f000000,
  0x3b8aefb3360637bdbe384556bf24a23480000000bf4404ea3f0000003f000000,
  0x3df5c1833b8b19a4beb36c7abe142c3d3f2ded29bf38240b3f0000003f000000,
  0x3ddbafd9360637bdbeb19fe4bf2703b000000000bf4205bc3f0000003f000000,
  0xb68637bdbb8af816be34abe700000000bf41e4f7bf2724743f0000003f000000,
  0x3bb3a259bb8af816be36ffc1bedc28f6bf3eecc0bf023a2a3f0000003f000000,
  0x3df5c183360637bdbeb452e7be3ef9db00000000bf7b7e913f0000003f000000,
  0x3dde3b8abb8af816beb0fcf8bef58e22bf2bac71bf10ded33f0000003f000000,
  0x3df5c183bb8af816beb36c7abe142c3dbf2ded29bf38240b3f0000003f000000,
  0x3e63532ebb8af816beb36c7a3e142c3dbf2ded29bf38240b3f0000003f000000,
  0x3e63532ebbc48adfbeb140573ca0902ebf7faacebd4154ca3f0000003f000000,
  0x3e63532ebb8af816beaf1455be0b923abf39eecc3f2c710d3f0000003f000000,
  0x3e63532e360637bdbeb452c63e3ef9db00000000bf7b7e913f0000003f000000,
  0x3e63532e360637bdbeae2de8be51b717000000003f7a92a33f0000003f000000,
  0x3e63532e3b8b19a4beb36c7a3e142c3d3f2ded29bf382a993f0000003f000000,
  0x3e63532e3b8b19a4beaf1455be0b923a3f39eecc3f2c779a3f0000003f000000,
  0x3e63532e3bc4ac6dbeb140573ca0902e3f7faacebd4154ca3f0000003f000000,
  0x3e67ab32360637bdbead479dbf350481000000003f3504813f0000003f000000,
  0x3e68f10b3b8b19a4beadea89beec63f13f41e4f73eec63f13f0000003f000000,
  0x3e6c03793bc4ac6dbeaf73c13d89374c3f7ed917bd89374c3f0000003f000000,
  0x3e6f162b3b8b19a4beb0fcf83f0780343f29ba5ebf0780343f0000003f000000,
  0x3e705bc0360637bdbeb19fc33f35048100000000bf3504813f0000003f000000,
  0x3e6f9ce93bc4ac6dbeab1b7a3d4154ca3f7faacebca0902e3f0000003f000000,
  0x3e6f162bbb8af816beb0fcf83f078034bf29ba5ebf0780343f0000003f000000,
  0x3e73f5303b8b19a4beab1b7a3f38240b3f2ded29be142c3d3f0000003f000000,
  0x3e75c209360637bdbeab1b7a3f7b7e9100000000be3ef9db3f0000003f000000,
  0x3e6c0379bbc48adfbeaf73c13d89374cbf7ed917bd89374c3f0000003f000000,
  0x3e73f530bb8af816beab1b7a3f38240bbf2ded29be142c3d3f0000003f000000,
  0x3e68f10bbb8af816beadea89beec63f1bf41e4f73eec63f13f0000003f000000,
  0x3e6f9ce9bbc48adfbeab1b7a3d4154cabf7faacebc9fbe773f0000003f000000,
  0x3e6b44e5bb8af816beab1b7abf2c779abf39eecc3e0b923a3f0000003f000000,
  0x3e69780c360637bdbeab1b7abf7a92a3000000003e51d14e3f0000003f000000,
  0x3e6b44e5bb8af816bc2704bcbf381d7ebf2df3b63e142c3d3f0000003f000000,
  0x3e6b44e53b8b19a4beab1b7abf2c779a3f39eecc3e0b923a3f0000003f000000,
  0x3e6977c9360637bdbc2704bcbf7b7e91000000003e3ef9db3f0000003f000000,
  0x3e6b44e53b8b19a4bc2704bcbf381d7e3f2df3b63e142c3d3f0000003f000000,
  0x3e6f9ce93bc4ac6dbc2704bcbd41bda53f7faace3ca0902e3f0000003f000000,
  0x3e73f5303b8b19a4bc2704bc3f2c779a3f39eeccbe0b923a3f0000003f000000,
  0x3e7023ea3b8b19a43aa936c6bf0780343f29c0ec3f0780343f0000003f000000,
  0x3e75c183360637bdbc2704bc3f7a92a300000000be51d14e3f0000003f000000,
  0x3e7336153bc4ac6dbae00086bd896bba3f7ed9173d896bba3f0000003f000000,
  0x3e7648843b8b19a4bb9a4df43eec63f13f41e4f7beec63f13f0000003f000000,
  0x3e73f530bb8af816bc2704bc3f2c779abf39eeccbe0b923a3f0000003f000000,
  0x3e778e5c360637bdbbc308ff3f35048100000000bf3504813f0000003f000000,
  0x3e6f9ce9bbc48adfbc2704bcbd41bda5bf7faace3ca0902e3f0000003f000000,
  0x3e764884bb8af816bb9a4df43eec63f1bf41e4f7beec63f13f0000003f000000,
  0x3e733615bbc48adfbae00086bd896bbabf7ed9173d89374c3f0000003f000000,
  0x3e7023eabb8af8163aa936c6bf078034bf29c0ec3f0780343f0000003f000000,
  0x3e7be660bb8af816bb1fb6133e0b923abf39eeccbf2c779a3f0000003f000000,
  0x3e6eddce360637bd3b261177bf350481000000003f3504813f0000003f000000,
  0x3e7be660bbc48adf3aecb74ebca0902ebf7faace3d41bda53f0000003f000000,
  0x3e7be660bb8af8163bc62e4dbe142c3dbf2ded293f38240b3f0000003f000000,
  0x3e7be660360637bd3bffc979be3ef9db000000003f7b7e913f0000003f000000,
  0x3ec49b41bbc48adf3aecb74e80000000bf800000000000003f0000003f000000,
  0x3ec49b41bb8af8163bc636b180000000bf3504813f3504813f0000003f000000,
  0x3ec49b41bb8af816bb1fb61380000000bf350481bf3504813f0000003f000000,
  0x3ec49b41360637bd3bffc97900000000000000003f8000003f0000003f000000,
  0x3ec49b41360637bdbb896dd28000000000000000bf8000003f0000003f000000,
  0x3e7be6603b8b19a43bc62e4dbe142c3d3f2ded293f38240b3f0000003f000000,
  0x3ec49b413b8b11413bc636b1800000003f3504813f3504813f0000003f000000,
  0x3e7be6603bc4ac6d3aecb74ebca0902e3f7faace3d41bda53f0000003f000000,
  0x3ec49b413bc4ac6d3aecb74e000000003f800000000000003f0000003f000000,
  0x3e7be6603b8b19a4bb1fb6133e0b923a3f39eeccbf2c779a3f0000003f000000,
  0x3ec49b413b8b1141bb1fb613000000003f350481bf3504813f0000003f000000,
  0x3e7be660360637bdbb896dd23e51d14e80000000bf7a92a33f0000003f000000,
  0xbe705d53360637bdbeb19fe4bf35048180000000bf3504813f0000003f000000,
  0xbe6354c1360637bdbeb452e7be3f141200000000bf7b7e913f0000003f000000,
  0xbe6354c1bb8aefb3beb36c9cbe142c3dbf2de69bbf382a993f0000003f000000,
  0xbe6f177abb8aefb3beb0fd1abf078034bf29ba5ebf0786c23f0000003f000000,
  0xbdf5c39c360637bdbeb452e73e3f141200000000bf7b7e913f0000003f000000,
  0xbe75c316360637bdbeab1b9bbf7b7e9180000000be3ef9db3f0000003f000000,
  0xbdf5c39cbb8aefb3beb36c9c3e144674bf2de69bbf382a993f0000003f000000,
  0xbe6354c1bbc48adfbeb14079bca0902ebf7faacebd4154ca3f0000003f000000,
  0xbe73f6c2bb8aefb3beab1b9bbf382a99bf2de69bbe1446743f0000003f000000,
  0xbe6c050cbbc48adfbeaf73e2bd896bbabf7ed917bd896bba3f0000003f000000,
  0xbdf5c39cbbc48adfbeb140793ca0902ebf7faacebd41bda53f0000003f000000,
  0xbe6354c1bb8aefb3beaf14773e0b923abf39eecc3f2c779a3f0000003f000000,
  0xbe6f9e7cbbc48adfbeab1b9bbd4154cabf7faacebca0902e3f0000003f000000,
  0xbe68f29dbb8aefb3beadeaab3eec63f1bf41de6a3eec710d3f0000003f000000,
  0xbdf5c39cbb8aefb3beaf1455be0b923abf39e83e3f2c779a3f0000003f000000,
  0xbe6354c1360637bdbeae2e0a3e51b717000000003f7a92a33f0000003f000000,
  0xbe6b4678bb8aefb3beab1b9b3f2c7e28bf39e83e3e0b923a3f0000003f000000,
  0xbe67ad08360637bdbead47bf3f350481800000003f34fdf43f0000003f000000,
  0xbdf5c39c360637bdbeae2e0abe51b717000000003f7a92a33f0000003f000000,
  0xbe6354c13b8b19a4beaf14773e0b78033f39eecc3f2c779a3f0000003f000000,
  0xbe69799e360637bdbeab1b9b3f7a92a3b8d1b7173e51b7173f0000003f000000,
  0xbe68f29d3b8b19a4beadeaab3eec63f13f41e4f73eec63f13f0000003f000000,
  0xbdf5c39c3b8b19a4beaf1455be0b923a3f39eecc3f2c779a3f0000003f000000,
  0xbe6354c13bc4ac6dbeb14079bca0902e3f7faacebd4154ca3f0000003f000000,
  0xbe6b46783b8b19a4beab1b9b3f2c779a3f39eecc3e0b923a3f0000003f000000,
  0xbe6c050c3bc4ac6dbeaf73e2bd896bba3f7ed917bd89374c3f0000003f000000,
  0xbdf5c39c3bc4ac6dbeb140793ca0902e3f7faacebd41bda53f0000003f000000,
  0xbe6354c13b8b19a4beb36c9cbe142c3d3f2ded29bf382a993f0000003f000000,
  0xbe6f9e7c3bc4ac6dbeab1b9bbd4154ca3f7faacebca0902e3f0000003f000000,
  0xbe6f177a3b8b19a4beb0fd1abf0780343f29ba5ebf0780343f0000003f000000,
  0xbdf5c39c3b8b19a4beb36c9c3e1446743f2ded29bf382a993f0000003f000000,
  0xbe73f6c23b8b19a4beab1b9bbf382a993f2ded29be142c3d3f0000003f000000,
  0xbe73f6c23b8b19a4bc2708eebf2c710d3f39eeccbe0b923a3f0000003f000000,
  0xbe75c39c360637bdbc2708eebf7a92a3b8d1b717be51b7173f0000003f000000,
  0xbe73f6c2bb8aefb3bc2708eebf2c779abf39e83ebe0b923a3f0000003f000000,
  0xbe6f9ebf3bc4ac6dbc2708ee3d4154ca3f7faace3ca0902e3f0000003f000000,
  0xbe6f9ebfbbc48adfbc2708ee3d4154cabf7faace3ca0902e3f0000003f000000,
  0xbe6b46783b8b19a4bc2708ee3f382a993f2de69b3e1446743f0000003f000000,
  0xbe6b4678bb8aefb3bc2708ee3f382a99bf2de69b3e1446743f0000003f000000,
  0xbe6979e1360637bdbc2708ee3f7b7e91800000003e3f14123f0000003f000000,
  0xbe7337ebbbc48adfbae022143d896bbabf7ed9173d896bba3f0000003f000000,
  0xbe7025c0bb8aefb33aa915383f078034bf29ba5e3f0780343f0000003f000000,
  0xbe6edfe7360637bd3b2600b03f350481800000003f3504813f0000003f000000,
  0xbe7025c03b8b19a43aa915383f0780343f29ba5e3f0780343f0000003f000000,
  0xbe7337eb3bc4ac6dbae022143d896bba3f7ed9173d89374c3f0000003f000000,
  0xbe7be836360637bd3bffc1163e3f1412000000003f7b7e913f0000003f000000,
  0xbe764a9d3b8b19a4bb9a5658beec63f13f41e4f7beec63f13f0000003f000000,
  0xbe7be8363b8b19a43bc625ea3e142c3d3f2ded293f38240b3f0000003f000000,
  0xbe7be8363bc4ac6d3aec95c03ca0902e3f7faace3d41bda53f0000003f000000,
  0xbe778fef360637bdbbc31162bf350b0fb8d1b717bf34fdf43f0000003f000000,
  0xbec49c2c3bc4ac6d3aec7432000000003f800000000000003f0000003f000000,
  0xbec49c2c3b8b19a43bc625ea800000003f3504813f3504813f0000003f000000,
  0xbec49c2c3b8b19a4bb1fc6da000000003f350b0fbf3504813f0000003f000000,
  0xbec49c2c360637bd3bffb8b200000000000000003f8000003f0000003f000000,
  0xbe7be8363b8b19a4bb1fc6dabe0b923a3f39eeccbf2c779a3f0000003f000000,
  0xbec49c2c360637bdbb897e998000000000000000bf8000003f0000003f000000,
  0xbe7be836bb8aefb33bc625ea3e142c3dbf2ded293f38240b3f0000003f000000,
  0xbec49c2cbb8aefb33bc625ea80000000bf3504813f3504813f0000003f000000,
  0xbe7be836bbc48adf3aec95c03ca0902ebf7faace3d41bda53f0000003f000000,
  0xbec49c2cbbc48adf3aec743280000000bf800000000000003f0000003f000000,
  0xbe7be836bb8aefb3bb1fc6dabe0b923abf39e83ebf2c779a3f0000003f000000,
  0xbec49c2cbb8aefb3bb1fc6da80000000bf350481bf3504813f0000003f000000,
  0xbe764a9dbb8aefb3bb9a5658beec63f1bf41de6abeec710d3f0000003f000000,
  0xbe7be836360637bdbb897636be51d14e80000000bf7a92a33f0000003f000000,
  0xbc3c3c5c3b8b19a4be30dae4bef59b3d3f2ba5e33f10ded33f0000003f000000,
  0xbc5095af360637bdbe2f950cbf26fd22000000003f4205bc3f0000003f000000,
  0xbc0b15723bc4ac6dbe33ed52bd3573eb3f7f3b643d80346e3f0000003f000000,
  0xbc3c3c5cbb8af816be30dae4bef59b3dbf2ba5e33f10ded33f0000003f000000,
  0xbbb3d4ae3b8b19a4be36ffc13edc28f63f3eecc0bf023a2a3f0000003f000000,
  0xbc0b1572bbc48adfbe33ed52bd3573ebbf7f3b643d80346e3f0000003f000000,
  0xbb8b2208360637bdbe3845563f24a23400000000bf440b783f0000003f000000,
  0xbbb3d4aebb8af816be36ffc13edc28f6bf3eecc0bf023a2a3f0000003f000000,
  0xbddbb2ff360637bdbeb19fe43f2703b000000000bf4205bc3f0000003f000000,
  0xbdde3eafbb8aefb3beb0fcf83ef59b3dbf2ba5e3bf10ded33f0000003f000000,
  0xbde46306bbc48adfbeaf73c13d35dcc6bf7f3b64bd80346e3f0000003f000000,
  0xbdde3eaf3b8b19a4beb0fcf83ef58e223f2bac71bf10ded33f0000003f000000,
  0xbdea886abb8aefb3beadea89bedc3611bf3eecc03f023a2a3f0000003f000000,
  0xbded141a360637bdbead47bfbf24a234000000003f4404ea3f0000003f000000,
  0xbdea886a3b8b19a4beadea89bedc28f63f3eecc03f023a2a3f0000003f000000,
  0xbde463063bc4ac6dbeaf73c13d35dcc63f7f3b64bd80346e3f0000003f000000,
  0x3ec49b41360637bd3aecb74e3f80000080000000800000003f0000003f000000,
  0x3ec49b413b8b11413bc636b13f80000080000000800000003f0000003f000000,
  0x3ec49b41360637bd3bffc9793f80000080000000800000003f0000003f000000,
  0x3ec49b413bc4ac6d3aecb74e3f80000080000000800000003f0000003f000000,
  0x3ec49b41bb8af8163bc636b13f80000080000000800000003f0000003f000000,
  0x3ec49b413b8b1141bb1fb6133f80000080000000800000003f0000003f000000,
  0x3ec49b41bbc48adf3aecb74e3f80000080000000800000003f0000003f000000,
  0x3ec49b41360637bdbb896dd23f80000080000000800000003f0000003f000000,
  0x3ec49b41bb8af816bb1fb6133f80000080000000800000003f0000003f000000]

set_option maxRecDepth 100000 in
/-- the triangles of `GATE_WIRE_INDICES`, /repo/src/vpx/mesh/gates/gate_wire_mesh.rs:195-243 -/
def gateWireTris : List Nat := [
  0x000000010002, 0x000000030001, 0x000000020004, 0x000000050003, 0x000000040006, 0x000000070005, 0x000000060008,
  0x000000080007, 0x0009000a000b, 0x000a0009000c, 0x000b000a000d, 0x0009000e000c, 0x0013000d000a, 0x000a000c0011,
  0x00110013000a, 0x000b000f0009, 0x0011000c0014, 0x00100009000f, 0x00090010000e, 0x00160014000c, 0x000c000e0016,
  0x001400180011, 0x00280016000e, 0x001100180017, 0x001700130011, 0x000e00270028, 0x00100027000e, 0x001700190013,
  0x001000250027, 0x001900150013, 0x000d00130015, 0x002500100012, 0x000f00120010, 0x000d001500a3, 0x000f00a40012,
  0x00a300a1000d, 0x000b000d00a1, 0x000b00a2000f, 0x00a100a2000b, 0x00a4000f00a2, 0x00a100a300b0, 0x00a200a100af,
  0x00a100b000af, 0x00ae00a400a2, 0x00a200af00ae, 0x00a6001200a4, 0x00ad00a400ae, 0x00ad00a600a4, 0x00ae00af0077,
  0x001200a60024, 0x001200240025, 0x00ae007300ad, 0x0077007300ae, 0x00ab00a600ad, 0x007b007700af, 0x00af00b0007b,
  0x006f00ad0073, 0x00ad006f00ab, 0x007300770074, 0x00ab00a800a6, 0x00a8002400a6, 0x006f00730070, 0x007400700073,
  0x006b00ab006f, 0x007800740077, 0x0077007b0078, 0x0070006c006f, 0x006b006f006c, 0x007400720070, 0x00ab006b00aa,
  0x00aa00a800ab, 0x007200740076, 0x007800760074, 0x00700072006e, 0x006e006c0070, 0x007600750072, 0x0071006e0072,
  0x007200750071, 0x006c006e006a, 0x00760078007a, 0x006c0068006b, 0x006a0068006c, 0x007500760079, 0x007a00790076,
  0x0067006b0068, 0x006700aa006b, 0x007c007a0078, 0x007c0078007b, 0x00aa006700a9, 0x007b007f007c, 0x007f007b00b0,
  0x00a900a700aa, 0x00aa00a700a8, 0x00b000ac007f, 0x00a300ac00b0, 0x00a800a70020, 0x0020002400a8, 0x00a300a500ac,
  0x00a500a30015, 0x00a500a900ac, 0x00a500a700a9, 0x00ac00a90065, 0x0065007f00ac, 0x006500a90067, 0x00a700a5001c,
  0x0015001c00a5, 0x001c002000a7, 0x00150019001c, 0x006500670063, 0x006800630067, 0x007f00650062, 0x006300620065,
  0x0062007c007f, 0x006400630068, 0x0068006a0064, 0x006100620063, 0x006300640061, 0x0062007e007c, 0x007e00620061,
  0x007a007c007e, 0x006600610064, 0x007e007d007a, 0x0079007a007d, 0x00610080007e, 0x007d007e0080, 0x008000610066,
  0x0079007d0084, 0x007d00800081, 0x00810084007d, 0x008000660082, 0x008200810080, 0x006400690066, 0x00690064006a,
  0x008300820066, 0x006600690083, 0x006a006d0069, 0x006d006a006e, 0x006e0071006d, 0x008500830069, 0x0069006d0085,
  0x006d00710087, 0x00870085006d, 0x008800870071, 0x007100750088, 0x008900850087, 0x007500790086, 0x008600880075,
  0x008400860079, 0x008a00870088, 0x0087008a0089, 0x0086008b0088, 0x0088008b008a, 0x0084008c0086, 0x008b0086008c,
  0x0081008d0084, 0x008c0084008d, 0x0099008a008b, 0x008c008e008b, 0x008b008e0099, 0x008d0090008c, 0x008e008c0090,
  0x008d0081008f, 0x0082008f0081, 0x008e00900094, 0x00940096008e, 0x0099008e0096, 0x009300940090, 0x0096009a0099,
  0x009000910093, 0x0090008d0091, 0x008f0091008d, 0x009500930091, 0x009b0099009a, 0x008a0099009b, 0x009b0089008a,
  0x009a009c009b, 0x009100970095, 0x0091008f0097, 0x009800950097, 0x009d009b009c, 0x0089009b009d, 0x009c009e009d,
  0x009e009800a0, 0x00a0009d009e, 0x009700a00098, 0x009d009f0089, 0x009f009d00a0, 0x00850089009f, 0x009f00830085,
  0x0097009200a0, 0x00a00092009f, 0x00920097008f, 0x0083009f0092, 0x008f00820092, 0x009200820083, 0x001d001c0019,
  0x0020001c001d, 0x001b001d0019, 0x001b00190017, 0x001d00210020, 0x002400200021, 0x002100250024, 0x001f001d001b,
  0x001f0021001d, 0x002500210023, 0x00230021001f, 0x002500230027, 0x0017001a001b, 0x001a00170018, 0x001b001e001f,
  0x001e001b001a, 0x001f00220023, 0x0022001f001e, 0x002700230026, 0x002600230022, 0x002600280027, 0x002e0022001e,
  0x002c00260022, 0x0022002e002c, 0x002900280026, 0x0026002c0029, 0x0030001e001a, 0x001e0030002e, 0x002f001a0018,
  0x001a002f0030, 0x0018002d002f, 0x002d00180014, 0x002f00320030, 0x0014002b002d, 0x002b00140016, 0x002d0031002f,
  0x0032002f0031, 0x002a00160028, 0x0016002a002b, 0x00280029002a, 0x002d002b003c, 0x003c0031002d, 0x002b002a003a,
  0x003a003c002b, 0x002a00290037, 0x0037003a002a, 0x0031003c003e, 0x003500370029, 0x0029002c0035, 0x003c003a003d,
  0x003d003e003c, 0x003a0037003b, 0x003b003d003a, 0x003700350039, 0x0039003b0037, 0x0035002c0034, 0x002e0034002c,
  0x003900350038, 0x003400380035, 0x00300033002e, 0x0034002e0033, 0x003300300032, 0x003800340036, 0x003300360034,
  0x003200410033, 0x003600330041, 0x0031003f0032, 0x00410032003f, 0x003e003f0031, 0x004400360041, 0x00430041003f,
  0x004100430044, 0x0042003f003e, 0x003f00420043, 0x004500380036, 0x003600440045, 0x003e00400042, 0x0040003e003d,
  0x003800450047, 0x004700390038, 0x003d004c0040, 0x004c003d003b, 0x004a003b0039, 0x003b004a004c, 0x00390047004a,
  0x0040004c004e, 0x004c004a004d, 0x004d004e004c, 0x004a0047004b, 0x004b004d004a, 0x004500490047, 0x004b00470049,
  0x004400480045, 0x004900450048, 0x004d004b0060, 0x0049005e004b, 0x0060004b005e, 0x0048005c0049, 0x005e0049005c,
  0x004800440046, 0x004300460044, 0x005e005c005d, 0x005d005f005e, 0x0060005e005f, 0x005b005d005c, 0x005f00590060,
  0x005c005a005b, 0x005c0048005a, 0x0046005a0048, 0x0058005b005a, 0x005000600059, 0x00600050004d, 0x004e004d0050,
  0x005900570050, 0x005a00540058, 0x005a00460054, 0x005600580054, 0x005200500057, 0x00500052004e, 0x005700550052,
  0x005500560053, 0x005300520055, 0x005400530056, 0x004f004e0052, 0x00520053004f, 0x004e004f0040, 0x00420040004f,
  0x005300540051, 0x0051004f0053, 0x005100540046, 0x004f00510042, 0x004600430051, 0x004200510043, 0x00b100b200b3,
  0x00b100b400b2, 0x00b100b300b5, 0x00b100b600b4, 0x00b100b500b7, 0x00b100b800b6, 0x00b100b700b9, 0x00b100b900b8]

/-- the table of /repo/src/vpx/mesh/gates/gate_wire_mesh.rs -/
def gateWireTable : MeshTable := unpackTable gateWireVertices gateWireTris

set_option maxRecDepth 100000 in
/-- the vertices of `GATE_WIRE_RECTANGLE_MESH`, /repo/src/vpx/mesh/gates/gate_wire_rectangle_mesh.rs:7-152 -/
def gateWireRectangleVertices : List Nat := [
  0x3e449ba63b698138bea8a287bd9eecc03f4c2f833f191d153f2000003ed7d06c,
  0xbe449ba600000000bea793bc3df7ced93b83126f3f7e1b093f0000003f1417ca,
  0x3e449ba680000000bea793bcbdf7ced9bb83126f3f7e1b093f0000003ed7d06c,
  0xbe449ba63b698138bea8a2873d92d7733f4c08313f1985f03f2000003f1417ca,
  0xbe449ba63ba515cfbeab3051bc0b43963f7fec57bcc710cb3f4000003f1417ca,
  0x3e449ba63ba515cfbeab30513c11d14e3f7fe5c9bcd773193f4000003ed7d06c,
  0x3e449ba63b698138beadbdf93dcb295f3f441f21bf228f5c3f6000003ed7d06c,
  0xbe449ba63b698138beadbdf9bdc779a73f4425afbf229c783f6000003f1417ca,
  0xbe449ba600000000beaeccc4be138ef3ba03126fbf7d566d3f8000003f1417ca,
  0x3e449ba680000000beaeccc43e138ef33a03126fbf7d566d3f8000003ed7d06c,
  0x3e449ba6bb698138beadbdf93dc779a7bf4425afbf229c783e0000003ed7d06c,
  0xbe449ba600000000beaeccc4be138ef3ba03126fbf7d566d000000003f1417ca,
  0x3e449ba680000000beaeccc43e138ef33a03126fbf7d566d000000003ed7d06c,
  0xbe449ba6bb698138beadbdf9bdcb295fbf441f21bf228f5c3e0000003f1417ca,
  0xbe449ba6bba515cfbeab3051bc11d14ebf7fe5c9bcd773193e8000003f1417ca,
  0x3e449ba6bba515cfbeab30513c0b4396bf7fec57bcc710cb3e8000003ed7d06c,
  0x3e449ba6bb698138bea8a287bd92d773bf4c08313f1985f03ec000003ed7d06c,
  0xbe449ba6bb698138bea8a2873d9eecc0bf4c2f833f191d153ec000003f1417ca,
  0xbe4b0f2800000000bea6d7c73f2aa64cb8d1b7173f3ed2893f0000003f165354,
  0xbe4cc4ac3b698138bea797463eb2fec53f5c01a33ebf06f73f2000003f165354,
  0xbe50e5603ba515cfbea96590bd401a373f7f2e49bd84b5dd3f4000003f165354,
  0xbe5506143b698138beab33b9bee1205c3f410cb3bef9c0ec3f6000003f165354,
  0xbe56bb9900000000beabf338bf2f9db23951b717bf3a43fe3f8000003f165354,
  0xbe56bb9900000000beabf338bf2f9db23951b717bf3a43fe000000003f165354,
  0xbe550614bb698138beab33b9bedfb15bbf40ff97befb2fec3e0000003f165354,
  0xbe50e560bba515cfbea96590bd37e910bf7f2e49bd87fcb93e8000003f165354,
  0xbe4cc4acbb698138bea797463eae978dbf5bc6a83ec418933ec000003f165354,
  0xbe4cbccf00000000bea4054f3f7cc63fbbaa64c33e21ff2e3f0000003f188ede,
  0xbe4f27bb3b698138bea4054f3f0da5123f53eab33dbd07c83f2000003f188ede,
  0xbe54fdf43ba515cfbea4054fbcf41f213f7fdf3bbc51b7173f4000003f188ede,
  0xbe5ad42c3b698138bea4054fbf1a09033f4a0275bdfc1bda3f6000003f188ede,
  0xbe5d3f1800000000bea4054fbf7bc6a83a03126fbe3923a33f8000003f188ede,
  0xbe5d3f1800000000bea4054fbf7bc6a83a03126fbe3923a3000000003f188ede,
  0xbe5ad42cbb698138bea4054fbf1a161ebf4a161ebdf7ced93e0000003f188ede,
  0xbe54fdf4bba515cfbea4054fbce2eb1cbf7fdf3bbc42f8383e8000003f188ede,
  0xbe4f27bbbb698138bea4054f3f0e2196bf53c3613dafec573ec000003f188ede,
  0x3e4cc4ac3b698138bea79746beae978d3f5bc6a83ec418933f2000003ed35958,
  0x3e4b0f2880000000bea6d7c7bf2aa64c38d1b7173f3ed2893f0000003ed35958,
  0x3e50e5603ba515cfbea965903d37e9103f7f2e49bd87fcb93f4000003ed35958,
  0x3e5506143b698138beab33b93edfb15b3f40ff97befb2fec3f6000003ed35958,
  0x3e56bb9980000000beabf3383f2f9db2b951b717bf3a43fe3f8000003ed35958,
  0x3e550614bb698138beab33b93ee1205cbf410cb3bef9c0ec3e0000003ed35958,
  0x3e56bb9980000000beabf3383f2f9db2b951b717bf3a43fe000000003ed35958,
  0x3e50e560bba515cfbea965903d401a37bf7f2e49bd84b5dd3e8000003ed35958,
  0x3e4cc4acbb698138bea79746beb2fec5bf5c01a33ebf06f73ec000003ed35958,
  0x3e4f27bb3b698138bea4054fbf0e21963f53c3613dafec573f2000003ecee243,
  0x3e4cbccf80000000bea4054fbf7cc63f3baa64c33e21ff2e3f0000003ecee243,
  0x3e54fdf43ba515cfbea4054f3ce2eb1c3f7fdf3bbc42f8383f4000003ecee243,
  0x3e5ad42c3b698138bea4054f3f1a161e3f4a161ebdf7ced93f6000003ecee243,
  0x3e5d3f1880000000bea4054f3f7bc6a8ba03126fbe3923a33f8000003ecee243,
  0x3e5ad42cbb698138bea4054f3f1a0903bf4a0275bdfc1bda3e0000003ecee243,
  0x3e5d3f1880000000bea4054f3f7bc6a8ba03126fbe3923a3000000003ecee243,
  0x3e54fdf4bba515cfbea4054f3cf41f21bf7fdf3bbc51b7173e8000003ecee243,
  0x3e4f27bbbb698138bea4054fbf0da512bf53eab33dbd07c83ec000003ecee243,
  0xbe4cbccf00000000bc4a643d3f7bc6a83a03126f3e3923a33f0000003f4be836,
  0xbe4f27bb3b698138bc4a643d3f1a09033f4a02753dfc1bda3f2000003f4be836,
  0xbe54fdf43ba515cfbc4a643d3cf41f213f7fdf3b3c51b7173f4000003f4be836,
  0xbe5ad42c3b698138bc4a643dbf0da5123f53eab3bdbd07c83f6000003f4be836,
  0xbe5d3f1800000000bc4a643dbf7cc63fbbaa64c3be21ff2e3f8000003f4be836,
  0xbe5d3f1800000000bc4a643dbf7cc63fbbaa64c3be21ff2e000000003f4be836,
  0xbe5ad42cbb698138bc4a643dbf0e2196bf53c361bdafec573e0000003f4be836,
  0xbe54fdf4bba515cfbc4a643d3ce2eb1cbf7fdf3b3c42f8383e8000003f4be836,
  0xbe4f27bbbb698138bc4a643d3f1a161ebf4a161e3df7ced93ec000003f4be836,
  0x3e4f27bb3b698138bc4a643dbf1a161e3f4a161e3df7ced93f2000003e505f29,
  0x3e4cbccf80000000bc4a643dbf7bc6a8ba03126f3e3923a33f0000003e505f29,
  0x3e54fdf43ba515cfbc4a643dbce2eb1c3f7fdf3b3c42f8383f4000003e505f29,
  0x3e5ad42c3b698138bc4a643d3f0e21963f53c361bdafec573f6000003e505f29,
  0x3e5d3f1880000000bc4a643d3f7cc63f3baa64c3be21ff2e3f8000003e505f29,
  0x3e5ad42cbb698138bc4a643d3f0da512bf53eab3bdbd07c83e0000003e505f29,
  0x3e5d3f1880000000bc4a643d3f7cc63f3baa64c3be21ff2e000000003e505f29,
  0x3e54fdf4bba515cfbc4a643dbcf41f21bf7fdf3b3c51b7173e8000003e505f29,
  0x3e4f27bbbb698138bc4a643dbf1a0903bf4a02753dfc1bda3ec000003e505f29,
  0xbe53404f000000003b4d74923f2f9db23951b7173f3a43fe3f0000003f4e23c0,
  0xbe54f5d33b6981383adb6a1f3ee1205c3f410cb33ef9c0ec3f2000003f4e23c0,
  0xbe5916873ba515cfbaf2e05d3d401a373f7f2e493d84b5dd3f4000003f4e23c0,
  0xbe5d373b3b698138bbb04253beb2fec53f5c01a3bebf06f73f6000003f4e23c0,
  0xbe5eecc000000000bbe02214bf2aa64cb8d1b717bf3ed2893f8000003f4e23c0,
  0xbe5eecc000000000bbe02214bf2aa64cb8d1b717bf3ed289000000003f4e23c0,
  0xbe5d373bbb698138bbb04253beae978dbf5bc6a8bec418933e0000003f4e23c0,
  0xbe591687bba515cfbaf2e05d3d37e910bf7f2e493d87fcb93e8000003f4e23c0,
  0xbe54f5d3bb6981383adb6a1f3edfb15bbf40ff973efb2fec3ec000003f4e23c0,
  0xbe656042000000003c0e8ea43e138ef3ba03126f3f7d566d3f0000003f505f4a,
  0xbe6560423b6981383bd96a6a3dc779a73f4425af3f229c783f2000003f505f4a,
  0xbe6560423ba515cf3ad7e0263c0b43963f7fec573cc710cb3f4000003f505f4a,
  0xbe6560423b698138bb5ae3e7bd92d7733f4c0831bf1985f03f6000003f505f4a,
  0xbe65604200000000bbb124d1bdf7ced93b83126fbf7e1b093f8000003f505f4a,
  0xbe65604200000000bbb124d1bdf7ced93b83126fbf7e1b09000000003f505f4a,
  0xbe656042bb698138bb5ae3e7bd9eecc0bf4c2f83bf191d153e0000003f505f4a,
  0xbe656042bba515cf3ad7e0263c11d14ebf7fe5c93cd773193e8000003f505f4a,
  0xbe656042bb6981383bd96a6a3dcb295fbf441f213f228f5c3ec000003f505f4a,
  0x3e54f5d33b6981383adb6a1fbedfb15b3f40ff973efb2fec3f2000003e477100,
  0x3e53404f800000003b4d7492bf2f9db2b951b7173f3a43fe3f0000003e477100,
  0x3e5916873ba515cfbaf2e05dbd37e9103f7f2e493d87fcb93f4000003e477100,
  0x3e5d373b3b698138bbb042533eae978d3f5bc6a8bec418933f6000003e477100,
  0x3e5eecc080000000bbe022143f2aa64c38d1b717bf3ed2893f8000003e477100,
  0x3e5d373bbb698138bbb042533eb2fec5bf5c01a3bebf06f73e0000003e477100,
  0x3e5eecc080000000bbe022143f2aa64c38d1b717bf3ed289000000003e477100,
  0x3e591687bba515cfbaf2e05dbd401a37bf7f2e493d84b5dd3e8000003e477100,
  0x3e54f5d3bb6981383adb6a1fbee1205cbf410cb33ef9c0ec3ec000003e477100,
  0x3e6560423b6981383bd96a6abdcb295f3f441f213f228f5c3f2000003e3e82d8,
  0x3e656042800000003c0e8ea4be138ef33a03126f3f7d566d3f0000003e3e82d8,
  0x3e6560423ba515cf3ad7e026bc11d14e3f7fe5c93cd773193f4000003e3e82d8,
  0x3e6560423b698138bb5ae3e73d9eecc03f4c2f83bf191d153f6000003e3e82d8,
  0x3e65604280000000bbb124d13df7ced9bb83126fbf7e1b093f8000003e3e82d8,
  0x3e656042bb698138bb5ae3e73d92d773bf4c0831bf1985f03e0000003e3e82d8,
  0x3e65604280000000bbb124d13df7ced9bb83126fbf7e1b09000000003e3e82d8,
  0x3e656042bba515cf3ad7e026bc0b4396bf7fec573cc710cb3e8000003e3e82d8,
  0x3e656042bb6981383bd96a6abdc779a7bf4425af3f229c783ec000003e3e82d8,
  0x3ebc6a7f3b6981383bd96a6a000000003f49374c3f1e425b3f2000003e000000,
  0x3ebc6a7f800000003c0e8ea480000000800000003f8000003f0000003e000000,
  0x3ebc6a7f3ba515cf3ad7e026000000003f800000000000003f4000003e000000,
  0x3ebc6a7f3b698138bb5ae3e7000000003f49374cbf1e425b3f6000003e000000,
  0x3ebc6a7f80000000bbb124d18000000000000000bf8000003f8000003e000000,
  0x3ebc6a7fbb698138bb5ae3e780000000bf49374cbf1e425b3e0000003e000000,
  0x3ebc6a7f80000000bbb124d18000000000000000bf800000000000003e000000,
  0x3ebc6a7fbba515cf3ad7e02680000000bf800000000000003e8000003e000000,
  0x3ebc6a7fbb6981383bd96a6a80000000bf49374c3f1e425b3ec000003e000000,
  0xbebc6a7f000000003c0e8ea480000000800000003f8000003f0000003f600000,
  0xbebc6a7f3b6981383bd96a6a000000003f49374c3f1e425b3f2000003f600000,
  0xbebc6a7f3ba515cf3ad7e026000000003f800000000000003f4000003f600000,
  0xbebc6a7f3b698138bb5ae3e7000000003f49374cbf1e425b3f6000003f600000,
  0xbebc6a7f00000000bbb124d18000000000000000bf8000003f8000003f600000,
  0xbebc6a7f00000000bbb124d18000000000000000bf800000000000003f600000,
  0xbebc6a7fbb698138bb5ae3e780000000bf49374cbf1e425b3e0000003f600000,
  0xbebc6a7fbba515cf3ad7e02680000000bf800000000000003e8000003f600000,
  0xbebc6a7fbb6981383bd96a6a80000000bf49374c3f1e425b3ec000003f600000,
  0xbebc6a7f000000003ad7e026bf80000080000000800000003f0000003f700000,
  0xbebc6a7f000000003c0e8ea4bf80000080000000800000003f0000003f600000,
  0xbebc6a7f3b6981383bd96a6abf80000080000000800000003f5a82733f64afb4,
  0xbebc6a7f3ba515cf3ad7e026bf80000080000000800000003f8000003f700000,
  0xbebc6a7f3b698138bb5ae3e7bf80000080000000800000003f5a82733f7b504c,
  0xbebc6a7f00000000bbb124d1bf80000080000000800000003f0000003f800000,
  0xbebc6a7fbb698138bb5ae3e7bf80000080000000800000003e15f6343f7b504c,
  0xbebc6a7fbba515cf3ad7e026bf8000008000000080000000000000003f700000,
  0xbebc6a7fbb6981383bd96a6abf80000080000000800000003e15f6343f64afb4,
  0x3ebc6a7f800000003ad7e0263f80000000000000800000003f0000003d800000,
  0x3ebc6a7f3b6981383bd96a6a3f80000000000000800000003f5a82843dda8262,
  0x3ebc6a7f800000003c0e8ea43f80000000000000800000003f0000003e000000,
  0x3ebc6a7f3ba515cf3ad7e0263f80000000000000800000003f8000003d800000,
  0x3ebc6a7f3b698138bb5ae3e73f80000000000000800000003f5a82843c95f677,
  0x3ebc6a7f80000000bbb124d13f80000000000000800000003f00000000000000,
  0x3ebc6a7fbb698138bb5ae3e73f80000000000000800000003e15f6343c95f677,
  0x3ebc6a7fbba515cf3ad7e0263f8000000000000080000000000000003d800000,
  0x3ebc6a7fbb6981383bd96a6a3f80000000000000800000003e15f5f13dda8262]

set_option maxRecDepth 100000 in
/-- the triangles of `GATE_WIRE_RECTANGLE_INDICES`, /repo/src/vpx/mesh/gates/gate_wire_rectangle_mesh.rs:153-184 -/
def gateWireRectangleTris : List Nat := [
  0x006900720071, 0x007100680069, 0x006800710073, 0x006000690068, 0x0073006a0068, 0x006a00730074, 0x0068005f0060,
  0x005f0068006a, 0x00450060005f, 0x0074006b006a, 0x006b0074006d, 0x006a0061005f, 0x0061006a006b, 0x005f00440045,
  0x0044005f0061, 0x003300450044, 0x006d0064006b, 0x0064006d006c, 0x004400320033, 0x002a00330032, 0x006100460044,
  0x003200440046, 0x006b00620061, 0x004600610062, 0x0062006b0064, 0x00320029002a, 0x000c002a0029, 0x004600340032,
  0x002900320034, 0x006200470046, 0x003400460047, 0x0064005b0062, 0x00470062005b, 0x006c00630064, 0x005b00640063,
  0x0063006c006e, 0x005b00400047, 0x006e00650063, 0x0065006e006f, 0x0063005a005b, 0x005a00630065, 0x0040005b005a,
  0x006f00660065, 0x0066006f0070, 0x007000670066, 0x0065005c005a, 0x005c00650066, 0x005d00660067, 0x0066005d005c,
  0x0067005e005d, 0x003f005a005c, 0x005a003f0040, 0x0041005c005d, 0x005c0041003f, 0x0042005d005e, 0x005d00420041,
  0x005e00430042, 0x002d003f0041, 0x003000420043, 0x004300310030, 0x002f00410042, 0x00420030002f, 0x0041002f002d,
  0x002700300031, 0x003100280027, 0x0026002f0030, 0x003000270026, 0x0024002d002f, 0x002f00260024, 0x003f002d002e,
  0x002e0040003f, 0x002d00240025, 0x0025002e002d, 0x0040002e0035, 0x003500470040, 0x004700350034, 0x002e0025002c,
  0x002c0035002e, 0x002b00340035, 0x0035002c002b, 0x0034002b0029, 0x0010002c0025, 0x000a0029002b, 0x0029000a000c,
  0x000f002b002c, 0x002b000f000a, 0x002c0010000f, 0x000a000b000c, 0x000200250024, 0x002500020010, 0x000a000d000b,
  0x0017000b000d, 0x000f000e000a, 0x000e000d000a, 0x0010000e000f, 0x000d00180017, 0x0018000d000e, 0x002000170018,
  0x00100011000e, 0x001800210020, 0x003b00200021, 0x000e00190018, 0x002100180019, 0x0019000e0011, 0x0021003c003b,
  0x004d003b003c, 0x001900220021, 0x003c00210022, 0x0011001a0019, 0x00220019001a, 0x000100110010, 0x001a00110001,
  0x000200010010, 0x003c004e004d, 0x0056004d004e, 0x0022003d003c, 0x004e003c003d, 0x001a00230022, 0x003d00220023,
  0x004e00570056, 0x007a00560057, 0x0057007b007a, 0x003d004f004e, 0x0057004e004f, 0x007b00570058, 0x004f00580057,
  0x0058007c007b, 0x004f003d003e, 0x0023003e003d, 0x0058004f0050, 0x003e0050004f, 0x007c00580059, 0x005000590058,
  0x0059007d007c, 0x0050003e0036, 0x007d00590051, 0x00510075007d, 0x005900500048, 0x004800510059, 0x003600480050,
  0x007500510052, 0x005200760075, 0x005100480049, 0x004900520051, 0x004800360037, 0x003700490048, 0x007600520053,
  0x005300770076, 0x00520049004a, 0x004a00530052, 0x004900370038, 0x0038004a0049, 0x007700530054, 0x005400780077,
  0x0053004a004b, 0x004b00540053, 0x005500790078, 0x007800540055, 0x004c00550054, 0x0054004b004c, 0x003a004c004b,
  0x0039004b004a, 0x004b0039003a, 0x004a00380039, 0x001f003a0039, 0x0039001e001f, 0x001e00390038, 0x0016001f001e,
  0x0038001d001e, 0x001d00380037, 0x001e00150016, 0x0015001e001d, 0x000800160015, 0x0037001c001d, 0x001c00370036,
  0x001d00140015, 0x0014001d001c, 0x001500070008, 0x000700150014, 0x0036001b001c, 0x001b0036003e, 0x003e0023001b,
  0x001c00130014, 0x0013001c001b, 0x0012001b0023, 0x001b00120013, 0x0023001a0012, 0x00010012001a, 0x000400140013,
  0x001400040007, 0x000300130012, 0x001200010003, 0x001300030004, 0x000000030001, 0x000400030000, 0x000000010002,
  0x002400000002, 0x000000240026, 0x002600050000, 0x000500040000, 0x000500260027, 0x000600070004, 0x000600040005,
  0x002700060005, 0x000800070006, 0x000600270028, 0x000900080006, 0x002800090006, 0x007e007f0080, 0x007e0086007f,
  0x007e00800081, 0x007e00850086, 0x007e00810082, 0x007e00840085, 0x007e00820083, 0x007e00830084, 0x008700880089,
  0x00870089008f, 0x0087008a0088, 0x0087008f008e, 0x0087008b008a, 0x0087008e008d, 0x0087008c008b, 0x0087008d008c]

/-- the table of /repo/src/vpx/mesh/gates/gate_wire_rectangle_mesh.rs -/
def gateWireRectangleTable : MeshTable := unpackTable gateWireRectangleVertices gateWireRectangleTris

end Vpin
