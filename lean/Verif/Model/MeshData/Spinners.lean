import Verif.Model.MeshPack
/-
Generated by tools/meshdata.py from /repo/src/vpx/mesh/spinners/*_mesh.rs.
-/
namespace Vpin

set_option maxRecDepth 100000 in
/-- the vertices of `SPINNER_BRACKET_MESH`, /repo/src/vpx/mesh/spinners/spinner_bracket_mesh.rs:18-171 -/
def spinnerBracketVertices : List Nat := [
  0x3f028c483c0ab92c3ef3ceea80000000000000003f8000000000000000000000,
  0xbf028c483c0ab4fa3ef3cec880000000000000003f8000000000000000000000,
  0x3f028c48bc0ab4fa3ef3ceea80000000000000003f8000000000000000000000,
  0xbf028c48bc0ab92c3ef3cec880000000000000003f8000000000000000000000,
  0xbf028c483c0ab4fa3ef3cec8bd91d14e000000003f7f5c290000000000000000,
  0xbf0e52f03d091e213ef2209bbdd288ce000000003f7ea4a90000000000000000,
  0xbf0e52f0bd091f2e3ef2209bbdd288ce000000003f7ea4a90000000000000000,
  0xbf028c48bc0ab92c3ef3cec8bd91d14e000000003f7f5c290000000000000000,
  0x3f0e52f03d091f2e3ef220bc800000003dc0b7803f7edfa40000000000000000,
  0xbf0e52f03d091e213ef2209b800000003dc0b7803f7edfa40000000000000000,
  0x3f028c483c0ab92c3ef3ceea800000003e0538ef3f7dd2f20000000000000000,
  0xbf028c483c0ab4fa3ef3cec8800000003e0538ef3f7dd2f20000000000000000,
  0x3f0e52f0bd091e213ef220bc80000000bdc0b7803f7edfa40000000000000000,
  0x3f028c48bc0ab4fa3ef3ceea80000000be0538ef3f7dd2f20000000000000000,
  0xbf028c48bc0ab92c3ef3cec880000000be0538ef3f7dd2f20000000000000000,
  0xbf0e52f0bd091f2e3ef2209b80000000bdc0b7803f7edfa40000000000000000,
  0xbf1a19983dc49ba63eef5e85bd09a027000000003f7fd8ae0000000000000000,
  0xbf1a1998bdc49ba63eef5e85bd09a027000000003f7fd8ae0000000000000000,
  0x3f1a19983dc49ba63eef5e85800000003dafb7e93f7f0d840000000000000000,
  0xbf1a19983dc49ba63eef5e85800000003dafb7e93f7f0d840000000000000000,
  0x3f1a1998bdc49ba63eef5e8580000000bdafb7e93f7f0d840000000000000000,
  0xbf1a1998bdc49ba63eef5e8580000000bdafb7e93f7f0d840000000000000000,
  0xbf20157fbdc49ba63eef5e85becd1b71000000003f6a92a30000000000000000,
  0xbf20157f3dc49ba63eef5e85becd1b71000000003f6a92a30000000000000000,
  0xbf1a1998bdc49ba63eef5e8500000000bf800000000000000000000000000000,
  0xbf20157fbdc49ba63eef5e8500000000bf800000000000000000000000000000,
  0xbf1d0b41bdc49ba63ee2b60700000000bf800000000000000000000000000000,
  0xbf1d0b413dc49ba63ee2b607800000003f800000000000000000000000000000,
  0xbf20157f3dc49ba63eef5e85800000003f800000000000000000000000000000,
  0xbf1a19983dc49ba63eef5e85800000003f800000000000000000000000000000,
  0x3f1d0b41bdc49ba63ee2b62800000000bf800000000000000000000000000000,
  0x3f1a1998bdc49ba63eef5e8500000000bf800000000000000000000000000000,
  0x3f1d0b413dc49ba63ee2b628800000003f800000000000000000000000000000,
  0x3f1a19983dc49ba63eef5e85800000003f800000000000000000000000000000,
  0xbf1d0b413dc49ba63ee2b6073ec49ba600000000bf6c5d640000000000000000,
  0x3f1d0b413dc49ba63ee2b628bec49ba600000000bf6c5d640000000000000000,
  0x3f1d0b41bdc49ba63ee2b628bec49ba600000000bf6c5d640000000000000000,
  0xbf1d0b41bdc49ba63ee2b6073ec49ba600000000bf6c5d640000000000000000,
  0xbf25f06fbdc49ba63ee2b607bf6e5c92800000003ebab9f50000000000000000,
  0xbf25f06f3dc49ba63ee2b607bf6e5c92800000003ebab9f50000000000000000,
  0xbf20157fbdc49ba63edc988100000000bf800000000000000000000000000000,
  0xbf25f06fbdc49ba63ee2b60700000000bf800000000000000000000000000000,
  0xbf25f06f3dc49ba63ee2b607800000003f800000000000000000000000000000,
  0xbf20157f3dc49ba63edc9881800000003f800000000000000000000000000000,
  0xbf20157f3dc49ba63edc98813f6ca57a00000000bec339c10000000000000000,
  0xbf20157fbdc49ba63edc98813f6ca57a00000000bec339c10000000000000000,
  0xbf25f06fbdc49ba6bd092ccfbf6bc01a800000003ec786c20000000000000000,
  0xbf25f06f3dc49ba6bd092ccfbf6bc01a800000003ec786c20000000000000000,
  0xbf20157fbdc49ba6bd3a1b1900000000bf800000000000000000000000000000,
  0xbf25f06fbdc49ba6bd092ccf00000000bf800000000000000000000000000000,
  0xbf25f06f3dc49ba6bd092ccf800000003f800000000000000000000000000000,
  0xbf20157f3dc49ba6bd3a1b19800000003f800000000000000000000000000000,
  0xbf20157f3dc49ba6bd3a1b193f6e5c9200000000bebab9f50000000000000000,
  0xbf20157fbdc49ba6bd3a1b193f6e5c9200000000bebab9f50000000000000000,
  0xbf25f06fbdc49ba6bd8faf863ecd1b7100000000bf6a92a30000000000000000,
  0xbf25f06f3dc49ba6bd8faf863ecd1b7100000000bf6a92a30000000000000000,
  0xbf2917a4bdc49ba6bd3a1b1900000000bf800000000000000000000000000000,
  0xbf25f06fbdc49ba6bd8faf8600000000bf800000000000000000000000000000,
  0xbf25f06f3dc49ba6bd8faf86800000003f800000000000000000000000000000,
  0xbf2917a43dc49ba6bd3a1b19800000003f800000000000000000000000000000,
  0xbf2917a43dc49ba6bd3a1b19bec04ea5800000003f6d42c40000000000000000,
  0xbf2917a4bdc49ba6bd3a1b19bec04ea5800000003f6d42c40000000000000000,
  0xbf70ccbc3dc49b20bd8faf860000000080000000bf8000000000000000000000,
  0xbf7455223d8d0d4abd8faf860000000080000000bf8000000000000000000000,
  0xbf779229b58637bdbd8faf860000000080000000bf8000000000000000000000,
  0xbf70ccbcbdc49c2cbd8faf86bf05d639bf5a3d71800000000000000000000000,
  0xbf70ccbcbdc49c2cbd3a1b19bf05d639bf5a3d71800000000000000000000000,
  0xbf70ccbc3dc49b20bd3a1b19bf05d6393f5a3d71800000000000000000000000,
  0xbf70ccbc3dc49b20bd8faf86bf05d6393f5a3d71800000000000000000000000,
  0xbf70ccbcbdc49c2cbd3a1b1980000000000000003f8000000000000000000000,
  0xbf745522bd8d0dd0bd3a1b1980000000000000003f8000000000000000000000,
  0xbf779229b58637bdbd3a1b1980000000000000003f8000000000000000000000,
  0x3f0e52f0bd091e213ef220bc3dd288ce000000003f7ea4a90000000000000000,
  0x3f0e52f03d091f2e3ef220bc3dd288ce000000003f7ea4a90000000000000000,
  0x3f028c483c0ab92c3ef3ceea3d91d14e000000003f7f5c290000000000000000,
  0x3f028c48bc0ab4fa3ef3ceea3d91d14e000000003f7f5c290000000000000000,
  0x3f1a1998bdc49ba63eef5e853d09a027000000003f7fd8ae0000000000000000,
  0x3f1a19983dc49ba63eef5e853d09a027000000003f7fd8ae0000000000000000,
  0xbf76b0103d116335bd3a1b1980000000000000003f8000000000000000000000,
  0xbf76b010bd116441bd8faf860000000080000000bf8000000000000000000000,
  0xbf745522bd8d0dd0bd3a1b19bf6eb1c4beb9096c800000000000000000000000,
  0xbf76b010bd116441bd3a1b19bf7bb98cbe3a43fe800000000000000000000000,
  0xbf745522bd8d0dd0bd8faf86bf6eb1c4beb9096c800000000000000000000000,
  0xbf779229b58637bdbd3a1b19bf80000000000000800000000000000000000000,
  0xbf76b010bd116441bd8faf86bf7bb98cbe3a43fe800000000000000000000000,
  0xbf7455223d8d0d4abd3a1b19bf6eb1c43eb9096c800000000000000000000000,
  0xbf779229b58637bdbd8faf86bf80000000000000800000000000000000000000,
  0xbf76b0103d116335bd8faf86bf7bb98c3e3a43fe800000000000000000000000,
  0xbf7455223d8d0d4abd3a1b1980000000000000003f8000000000000000000000,
  0xbf76b0103d116335bd3a1b19bf7bb98c3e3a43fe800000000000000000000000,
  0xbf76b0103d116335bd8faf860000000080000000bf8000000000000000000000,
  0xbf7455223d8d0d4abd8faf86bf6eb1c43eb9096c800000000000000000000000,
  0xbf76b010bd116441bd3a1b1980000000000000003f8000000000000000000000,
  0xbf745522bd8d0dd0bd8faf860000000080000000bf8000000000000000000000,
  0xbf70ccbcbdc49c2cbd8faf860000000080000000bf8000000000000000000000,
  0xbf70ccbc3dc49b20bd3a1b1980000000000000003f8000000000000000000000,
  0x3f20157fbdc49ba63eef5e853ecd1b71000000003f6a92a30000000000000000,
  0x3f20157f3dc49ba63eef5e853ecd1b71000000003f6a92a30000000000000000,
  0x3f20157fbdc49ba63eef5e8500000000bf800000000000000000000000000000,
  0x3f20157f3dc49ba63eef5e85800000003f800000000000000000000000000000,
  0x3f25f06fbdc49ba63ee2b6283f6e5c92000000003ebab9f50000000000000000,
  0x3f25f06f3dc49ba63ee2b6283f6e5c92000000003ebab9f50000000000000000,
  0x3f25f06fbdc49ba63ee2b62800000000bf800000000000000000000000000000,
  0x3f20157fbdc49ba63edc98a200000000bf800000000000000000000000000000,
  0x3f25f06f3dc49ba63ee2b628800000003f800000000000000000000000000000,
  0x3f20157f3dc49ba63edc98a2800000003f800000000000000000000000000000,
  0x3f20157fbdc49ba63edc98a2bf6ca57a80000000bec339c10000000000000000,
  0x3f20157f3dc49ba63edc98a2bf6ca57a80000000bec339c10000000000000000,
  0x3f25f06fbdc49ba6bd092ccf3f6bc01a000000003ec786c20000000000000000,
  0x3f25f06f3dc49ba6bd092ccf3f6bc01a000000003ec786c20000000000000000,
  0x3f25f06fbdc49ba6bd092ccf00000000bf800000000000000000000000000000,
  0x3f20157fbdc49ba6bd3a1a0d00000000bf800000000000000000000000000000,
  0x3f25f06f3dc49ba6bd092ccf800000003f800000000000000000000000000000,
  0x3f20157f3dc49ba6bd3a1a0d800000003f800000000000000000000000000000,
  0x3f20157f3dc49ba6bd3a1a0dbf6e5c9280000000bebab9f50000000000000000,
  0x3f20157fbdc49ba6bd3a1a0dbf6e5c9280000000bebab9f50000000000000000,
  0x3f25f06fbdc49ba6bd8faeffbecd1b7180000000bf6a92a30000000000000000,
  0x3f25f06f3dc49ba6bd8faeffbecd1b7180000000bf6a92a30000000000000000,
  0x3f2917a4bdc49ba6bd3a1a0d00000000bf800000000000000000000000000000,
  0x3f25f06fbdc49ba6bd8faeff00000000bf800000000000000000000000000000,
  0x3f2917a43dc49ba6bd3a1a0d800000003f800000000000000000000000000000,
  0x3f25f06f3dc49ba6bd8faeff800000003f800000000000000000000000000000,
  0x3f2917a4bdc49ba6bd3a1a0d3ec04ea5000000003f6d42c40000000000000000,
  0x3f2917a43dc49ba6bd3a1a0d3ec04ea5000000003f6d42c40000000000000000,
  0x3f7455223d8d0dd0bd8faeff0000000080000000bf8000000000000000000000,
  0x3f70ccbc3dc49c2cbd8faeff0000000080000000bf8000000000000000000000,
  0x3f779229358637bdbd8faeff0000000080000000bf8000000000000000000000,
  0x3f70ccbcbdc49b20bd8faeff3f05d639bf5a3d71000000000000000000000000,
  0x3f70ccbcbdc49b20bd3a1a0d3f05d639bf5a3d71000000000000000000000000,
  0x3f70ccbc3dc49c2cbd8faeff3f05d6393f5a3d71000000000000000000000000,
  0x3f70ccbc3dc49c2cbd3a1a0d3f05d6393f5a3d71000000000000000000000000,
  0x3f745522bd8d0d4abd3a1a0d80000000000000003f8000000000000000000000,
  0x3f70ccbcbdc49b20bd3a1a0d80000000000000003f8000000000000000000000,
  0x3f779229358637bdbd3a1a0d80000000000000003f8000000000000000000000,
  0x3f76b0103d116441bd3a1a0d80000000000000003f8000000000000000000000,
  0x3f76b010bd116335bd8faeff0000000080000000bf8000000000000000000000,
  0x3f745522bd8d0d4abd8faeff3f6eb1c4beb9096c000000000000000000000000,
  0x3f76b010bd116335bd3a1a0d3f7bb98cbe3a43fe000000000000000000000000,
  0x3f745522bd8d0d4abd3a1a0d3f6eb1c4beb9096c000000000000000000000000,
  0x3f76b010bd116335bd8faeff3f7bb98cbe3a43fe000000000000000000000000,
  0x3f779229358637bdbd3a1a0d3f80000000000000000000000000000000000000,
  0x3f7455223d8d0dd0bd3a1a0d3f6eb1c43eb9096c000000000000000000000000,
  0x3f76b0103d116441bd8faeff3f7bb98c3e3a43fe000000000000000000000000,
  0x3f779229358637bdbd8faeff3f80000000000000000000000000000000000000,
  0x3f7455223d8d0dd0bd3a1a0d80000000000000003f8000000000000000000000,
  0x3f76b0103d116441bd3a1a0d3f7bb98c3e3a43fe000000000000000000000000,
  0x3f76b0103d116441bd8faeff0000000080000000bf8000000000000000000000,
  0x3f7455223d8d0dd0bd8faeff3f6eb1c43eb9096c000000000000000000000000,
  0x3f76b010bd116335bd3a1a0d80000000000000003f8000000000000000000000,
  0x3f745522bd8d0d4abd8faeff0000000080000000bf8000000000000000000000,
  0x3f70ccbcbdc49b20bd8faeff0000000080000000bf8000000000000000000000,
  0x3f70ccbc3dc49c2cbd3a1a0d80000000000000003f8000000000000000000000]

set_option maxRecDepth 100000 in
/-- the triangles of `SPINNER_BRACKET_INDICES`, /repo/src/vpx/mesh/spinners/spinner_bracket_mesh.rs:176-212 -/
def spinnerBracketTris : List Nat := [
  0x000000010002, 0x000100030002, 0x000400050006, 0x000600070004, 0x001100060005, 0x000500100011, 0x001600110010,
  0x001000170016, 0x002600160017, 0x001700270026, 0x002e00260027, 0x0027002f002e, 0x003d002e002f, 0x002f003c003d,
  0x003c005f0058, 0x003c0058004e, 0x003c004e0047, 0x003c0047003d, 0x003d0047005c, 0x003d005c0046, 0x0045003d0046,
  0x00080009000a, 0x0009000b000a, 0x000900080013, 0x001200130008, 0x000c000d000e, 0x000e000f000c, 0x0014000c000f,
  0x000f00150014, 0x00180019001a, 0x00190029001a, 0x0028001a0029, 0x002900310028, 0x0018001a001e, 0x003000280031,
  0x001e001f0018, 0x003100380030, 0x001e0062001f, 0x003900300038, 0x001e00660062, 0x004100390038, 0x0066001e0067,
  0x003800420041, 0x0067006e0066, 0x004100420050, 0x006e0067006f, 0x004100500052, 0x006f0076006e, 0x005000510052,
  0x0076006f0077, 0x005100540052, 0x00760077007f, 0x005100530054, 0x007f00800076, 0x005300560054, 0x008a0080007f,
  0x005600530057, 0x0088008a007f, 0x005700530059, 0x00880089008a, 0x0059005b0057, 0x0088008b0089, 0x005b00590055,
  0x008b008c0089, 0x00550044005b, 0x008b008f008c, 0x005500430044, 0x008e008c008f, 0x0043003b0044, 0x0091008c008e,
  0x003a0044003b, 0x008e00930091, 0x0033003a003b, 0x008d00910093, 0x003b00320033, 0x00930081008d, 0x002b00330032,
  0x00810082008d, 0x0032002a002b, 0x008100780082, 0x001b002b002a, 0x007800810079, 0x002a001c001b, 0x007800790071,
  0x001b001c001d, 0x007100700078, 0x0020001b001d, 0x007000710069, 0x001d00210020, 0x006900680070, 0x006800690020,
  0x002100630020, 0x002000630068, 0x002200230024, 0x002500220024, 0x0023006a0024, 0x0025002d0022, 0x006a0023006b,
  0x002c0022002d, 0x006a006b0072, 0x0034002c002d, 0x00720073006a, 0x002d00350034, 0x007200740073, 0x003500360034,
  0x007400720075, 0x003700340036, 0x009500960074, 0x008700950074, 0x007e00870074, 0x0075007e0074, 0x0092007e0075,
  0x007c00920075, 0x007c0075007d, 0x003e0037003f, 0x0037005a003f, 0x00370040005a, 0x003600400037, 0x0036004f0040,
  0x0036005d004f, 0x0036005e005d, 0x00480049004a, 0x004a004b0048, 0x00490048004c, 0x004c004d0049, 0x004d004c0060,
  0x00600061004d, 0x006100600064, 0x006400650061, 0x00650064006c, 0x006c006d0065, 0x006d006c007a, 0x007a007b006d,
  0x0083007a0084, 0x00830094007a, 0x00940085007a, 0x007a0085007b, 0x00850086007b, 0x00860090007b, 0x00900097007b]

/-- the table of /repo/src/vpx/mesh/spinners/spinner_bracket_mesh.rs -/
def spinnerBracketTable : MeshTable := unpackTable spinnerBracketVertices spinnerBracketTris

set_option maxRecDepth 100000 in
/-- the vertices of `SPINNER_PLATE_MESH`, /repo/src/vpx/mesh/spinners/spinner_plate_mesh.rs:18-247 -/
def spinnerPlateVertices : List Nat := [
  0x3eb99bf63ce160d93e599bb23f7ebee0000000003dc985f03f7451ec3f0a56cd,
  0x3eb99bf6bce15ec03e599bb23f7ebee0000000003dc985f03f7c51ec3f0a56cd,
  0x3eb99d45bce15ec0be599c393f7ebee000000000bdc9ba5e3f7c51ec3f3e9c56,
  0x3eb99d453ce160d9be599c393f7ebee000000000bdc9ba5e3f7451ec3f3e9c56,
  0xbeb99d45bce160d93e599c39bf7ebee0800000003dc9ba5e3f7c51ec3e7a6eb9,
  0xbeb99d453ce15ec03e599c39bf7ebee0800000003dc9ba5e3f7451ec3e7a6eb9,
  0xbeb99d243ce15ec0be599c7cbf7ebee080000000bdc9eecc3f7451ec3d25614e,
  0xbeb99d24bce160d9be599c7cbf7ebee080000000bdc9eecc3f7c51ec3d25614e,
  0x3e966a12bce15ec0be9001503dc9518300000000bf7ec56d3f7c51ec3f48e8a7,
  0xbe9669f0bce160d9be900171bdc9518380000000bf7ec56d3f7c51ec3f800000,
  0x3e966a123ce160d9be9001503dc9518300000000bf7ec56d3f7451ec3f48e8a7,
  0xbe9669f03ce15ec0be900171bdc9518380000000bf7ec56d3f7451ec3f800000,
  0x3e9668c2bce15ec03e90010c3dc91d15000000003f7ec56d3f7c51ec3f000358,
  0xbe966a123ce15ec03e900150bdc95183800000003f7ec56d3f7451ec3e91d40f,
  0xbe966a12bce160d93e900150bdc95183800000003f7ec56d3f7c51ec3e91d40f,
  0x3e9668c23ce160d93e90010c3dc91d15000000003f7ec56d3f7451ec3f000358,
  0x3ea3dec63ce160d93e8d523b3ec40b78000000003f6c7e283f7451ec3f029403,
  0x3ea3dec6bce15ec03e8d523b3ec40b78000000003f6c7e283f7c51ec3f029403,
  0x3eaf4a343ce160d93e85b0de3f350481000000003f3504813f7451ec3f0536f8,
  0x3eaf4a34bce15ec03e85b0de3f350481000000003f3504813f7c51ec3f0536f8,
  0x3eb6eb923ce160d93e748a9c3f6c779a000000003ec418933f7451ec3f07c6da,
  0x3eb6ebb3bce15ec03e748a9c3f6c779a000000003ec418933f7c51ec3f07c6da,
  0xbea3dee83ce15ec03e8d51f8bec41893800000003f6c7e283f7451ec3e8cb33e,
  0xbea3dee8bce160d93e8d51f8bec41893800000003f6c7e283f7c51ec3e8cb33e,
  0xbeaf4a563ce15ec03e85b09abf350481800000003f3504813f7451ec3e879ebf,
  0xbeaf4a56bce160d93e85b09abf350481800000003f3504813f7c51ec3e879ebf,
  0xbeb6ebb33ce15ec03e748a59bf6c779a800000003ec432ca3f7451ec3e825721,
  0xbeb6ebb3bce160d93e748a59bf6c779a800000003ec432ca3f7c51ec3e825721,
  0x3ea3dee83ce160d9be8d51f83ec4189300000000bf6c7e283f7451ec3f46583f,
  0x3ea3dee8bce15ec0be8d51f83ec4189300000000bf6c7e283f7c51ec3f46583f,
  0x3eaf4a563ce160d9be85b09a3f35048100000000bf3504813f7451ec3f43cff6,
  0x3eaf4a56bce15ec0be85b09a3f35048100000000bf3504813f7c51ec3f43cff6,
  0x3eb6ebb33ce160d9be748a593f6c779a00000000bec432ca3f7451ec3f412c38,
  0x3eb6ebb3bce15ec0be748a593f6c779a00000000bec432ca3f7c51ec3f412c38,
  0xbea3dec63ce15ec0be8d523bbec40b7880000000bf6c7e283f7451ec3c241a26,
  0xbe9669f03ce15ec0be900171bdc9518380000000bf7ec56d3f7451ec00000000,
  0xbea3dec6bce160d9be8d523bbec40b7880000000bf6c7e283f7c51ec3c241a26,
  0xbe9669f0bce160d9be900171bdc9518380000000bf7ec56d3f7c51ec00000000,
  0xbeaf4a343ce15ec0be85b0bcbf35048180000000bf3504813f7451ec3ca6ca04,
  0xbeaf4a34bce160d9be85b0bcbf35048180000000bf3504813f7c51ec3ca6ca04,
  0xbeb6ebb33ce15ec0be748a9cbf6c779a80000000bec432ca3f7451ec3cf8c650,
  0xbeb6eb92bce160d9be748a9cbf6c779a80000000bec432ca3f7c51ec3cf8c650,
  0x3ea3dec63ce160d93e8d523b800000003f800000000000003f4610383c64f766,
  0x800000003ce15ec080000000800000003f800000000000003f0000003e7fffbd,
  0x3e9668c23ce160d93e90010c800000003f800000000000003f404ee83c1b8cb9,
  0x3eaf4a343ce160d93e85b0de800000003f800000000000003f4af2303cdadfb5,
  0x3eb6eb923ce160d93e748a9c800000003f800000000000003f4e35613d3b8f58,
  0x3eb99bf63ce160d93e599bb2800000003f800000000000003f4f5ba33d8bd7f5,
  0xbe966a123ce15ec03e900150800000003f800000000000003e7ec28b3c1b8024,
  0xbea3dee83ce15ec03e8d51f8800000003f800000000000003e67bf1f3c64f766,
  0xbeaf4a563ce15ec03e85b09a800000003f800000000000003e54373f3cdadfb5,
  0xbeb6ebb33ce15ec03e748a59800000003f800000000000003e472a7c3d3b8f58,
  0xbeb99d453ce15ec03e599c39800000003f800000000000003e428f5c3d8bd662,
  0xbeb99d243ce15ec0be599c7c800000003f800000000000003e428f5c3edd0a46,
  0xbeb6ebb33ce15ec0be748a9c800000003f800000000000003e472a7c3ee88df3,
  0xbeaf4a343ce15ec0be85b0bc800000003f800000000000003e54373f3ef251c2,
  0xbea3dec63ce15ec0be8d523b800000003f800000000000003e67bf1f3ef8d823,
  0xbe9669f03ce15ec0be900171800000003f800000000000003e7ec28b3efb23dd,
  0x3e966a123ce160d9be900150800000003f800000000000003f404f5d3efb23dd,
  0x3ea3dee83ce160d9be8d51f8800000003f800000000000003f4610383ef8d823,
  0x3eaf4a563ce160d9be85b09a800000003f800000000000003f4af2303ef251c2,
  0x3eb6ebb33ce160d9be748a59800000003f800000000000003f4e35613ee88df3,
  0x3eb99d453ce160d9be599c39800000003f800000000000003f4f5c293edd0a46,
  0x3e9668c2bce15ec03e90010c00000000bf800000000000003e7ec4613f026e44,
  0x00000000bce15ec00000000000000000bf800000000000003f0000003f400000,
  0x3ea3dec6bce15ec03e8d523b00000000bf800000000000003e67bf1f3f0393de,
  0x3eaf4a34bce15ec03e85b0de00000000bf800000000000003e54373f3f06d70e,
  0x3eb6ebb3bce15ec03e748a9c00000000bf800000000000003e472a7c3f0bb906,
  0x3eb99bf6bce15ec03e599bb200000000bf800000000000003e4291753f117aff,
  0xbe966a12bce160d93e90015000000000bf800000000000003f404f5d3f026e11,
  0xbea3dee8bce160d93e8d51f800000000bf800000000000003f4610383f0393de,
  0xbeaf4a56bce160d93e85b09a00000000bf800000000000003f4af2303f06d70e,
  0xbeb6ebb3bce160d93e748a5900000000bf800000000000003f4e35613f0bb906,
  0xbeb99d45bce160d93e599c3900000000bf800000000000003f4f5c293f117acc,
  0xbeb99d24bce160d9be599c7c00000000bf800000000000003f4f5c293f6e8534,
  0xbeb6eb92bce160d9be748a9c00000000bf800000000000003f4e35613f7446fa,
  0xbeaf4a34bce160d9be85b0bc00000000bf800000000000003f4af2303f7928f2,
  0xbea3dec6bce160d9be8d523b00000000bf800000000000003f4610383f7c6c12,
  0xbe9669f0bce160d9be90017100000000bf800000000000003f404f5d3f7d91ef,
  0x3e966a12bce15ec0be90015000000000bf800000000000003e7ec28b3f7d91ef,
  0x3ea3dee8bce15ec0be8d51f800000000bf800000000000003e67bf1f3f7c6c12,
  0x3eaf4a56bce15ec0be85b09a00000000bf800000000000003e54373f3f7928f2,
  0x3eb6ebb3bce15ec0be748a5900000000bf800000000000003e472a7c3f7446fa,
  0x3eb99d45bce15ec0be599c3900000000bf800000000000003e428f5c3f6e8534,
  0x3ef333333c11eeaabd875bc4bdd2f1aa3f3851ec3f2faace3db78d503ea49d39,
  0xbef33333b58637bdbd7f9d6f3e0b0f283b902de03f7d9e843d978d503f2db164,
  0x3ef33333358637bdbd7f9b56be0b0f28bb902de03f7d9e843d978d503ea49d39,
  0xbef333333c11e647bd875cd13dc432ca3f3844d03f3000003db78d503f2db164,
  0xbef333333c4e5b42bd999a20bc6bedfa3f7fcb92bd17f62b3dd78d503f2db164,
  0x3ef333333c4e5f74bd9999133c7aacda3f7fc505bd23d70a3dd78d503ea49d39,
  0x3ef333333c11eeaabdabd6623e00d1b73f2ed289bf3831273df78d503ea49d39,
  0xbef333333c11e647bdabd76fbdfd21ff3f2ed289bf384b5e3df78d503f2db164,
  0xbef33333b58637bdbdb36588be2809d5ba1d4952bf7c84b63e0bc6a83f2db164,
  0x3ef33333358637bdbdb3647c3e2809d53a1d4952bf7c84b63e0bc6a83ea49d39,
  0x3ef33333bc11e647bdabd6623dfd21ffbf2ed289bf384b5e3cde353f3ea49d39,
  0xbef33333b58637bdbdb36588be2809d5ba1d4952bf7c84b63c3c6a7f3f2db164,
  0x3ef33333358637bdbdb3647c3e2809d53a1d4952bf7c84b63c3c6a7f3ea49d39,
  0xbef33333bc11eeaabdabd76fbe00d1b7bf2ed289bf3831273cde353f3f2db164,
  0xbef33333bc4e5f74bd999a20bc7aacdabf7fc505bd23d70a3d2f1aa03f2db164,
  0x3ef33333bc4e5b42bd9999133c6bedfabf7fcb92bd17f62b3d2f1aa03ea49d39,
  0x3ef33333bc11e647bd875bc4bdc432cabf3844d03f3000003d6f1aa03ea49d39,
  0xbef33333bc11eeaabd875cd13dd2f1aabf3851ec3f2faace3d6f1aa03f2db164,
  0xbef83d79b58637bdbd7520083f350481000000003f3504813d978d503f2fecee,
  0xbef9934f3c11e647bd7fceb83ee752543f469ad43ee17c1c3db78d503f2fecee,
  0xbefccccd3c4e5711bd8ccd53bda4dd2f3f7e6320bd9fbe773dd78d503f2fecee,
  0xbf0003253c11e647bd99b34abf088ce73f28b439bf07c1be3df78d503f2fecee,
  0xbf00ae10b58637bdbd9f0aa2bf35048180000000bf3504813e0bc6a83f2fecee,
  0xbf00ae10b58637bdbd9f0aa2bf35048180000000bf3504813c3c6a7f3f2fecee,
  0xbf000325bc11eeaabd99b34abf07c1bebf28b439bf088ce73cde353f3f2fecee,
  0xbefccccdbc4e5f74bd8ccd53bd9fbe77bf7e6320bda4dd2f3d2f1aa03f2fecee,
  0xbef9934fbc11eeaabd7fceb83ee17c1cbf469ad43ee752543d6f1aa03f2fecee,
  0xbef98d04b58637bdbd4ccdd93f7d9e84bb902de03e0b0f283d978d503f322878,
  0xbefb70ac3c11e647bd4ccdd93f2faace3f3851ec3dd2f1aa3db78d503f322878,
  0xbf0000003c4e5711bd4ccdd9bd23d70a3f7fc505bc7c50483dd78d503f322878,
  0xbf0247aa3c11e647bd4ccdd9bf3831273f2ed289be00d1b73df78d503f322878,
  0xbf03396db58637bdbd4ccdd9bf7c84b63a1d4952be2809d53e0bc6a83f322878,
  0xbf03396db58637bdbd4ccdd9bf7c84b63a1d4952be2809d53c3c6a7f3f322878,
  0xbf0247aabc11eeaabd4ccdd9bf384b5ebf2ed289bdfd21ff3cde353f3f322878,
  0xbf000000bc4e5f74bd4ccdd9bd17f62bbf7fcb92bc6bedfa3d2f1aa03f322878,
  0xbefb70acbc11eeaabd4ccdd93f300000bf3844d03dc432ca3d6f1aa03f322878,
  0x3ef9934f3c11eeaabd7fcc9fbee17c1c3f469ad43ee752543db78d503ea02624,
  0x3ef83d79358637bdbd751defbf350481800000003f3504813d978d503ea02624,
  0x3efccccd3c4e5f74bd8ccc473d9fbe773f7e6320bda4dd2f3dd78d503ea02624,
  0x3f0003253c11eeaabd99b23e3f07c1be3f28b439bf088ce73df78d503ea02624,
  0x3f00ae21358637bdbd9f09963f35048100000000bf3504813e0bc6a83ea02624,
  0x3f000325bc11e647bd99b23e3f088ce7bf28b439bf07c1be3cde353f3ea02624,
  0x3f00ae21358637bdbd9f09963f35048100000000bf3504813c3c6a7f3ea02624,
  0x3efccccdbc4e5711bd8ccc473da4dd2fbf7e6320bd9fbe773d2f1aa03ea02624,
  0x3ef9934fbc11e647bd7fcc9fbee75254bf469ad43ee17c1c3d6f1aa03ea02624,
  0x3efb70ac3c11eeaabd4ccbc0bf3000003f3844d03dc432ca3db78d503e9baf10,
  0x3ef98d26358637bdbd4ccbc0bf7d9e843b902de03e0b0f283d978d503e9baf10,
  0x3f0000003c4e5f74bd4ccbc03d17f62b3f7fcb92bc6bedfa3dd78d503e9baf10,
  0x3f0247aa3c11eeaabd4ccbc03f384b5e3f2ed289bdfd21ff3df78d503e9baf10,
  0x3f03397e358637bdbd4ccbc03f7c84b6ba1d4952be2809d53e0bc6a83e9baf10,
  0x3f0247aabc11e647bd4ccbc03f383127bf2ed289be00d1b73cde353f3e9baf10,
  0x3f03397e358637bdbd4ccbc03f7c84b6ba1d4952be2809d53c3c6a7f3e9baf10,
  0x3f000000bc4e5711bd4ccbc03d23d70abf7fc505bc7c50483d2f1aa03e9baf10,
  0x3efb70acbc11e647bd4ccbc0bf2faacebf3851ec3dd2f1aa3d6f1aa03e9baf10,
  0xbef98d26b58637bdbccccee63f7c84b63a1d49523e2809d53d978d503f46c97e,
  0xbefb70ac3c11e647bccccee63f3831273f2ed2893e00d1b73db78d503f46c97e,
  0xbf0000003c4e5711bccccee63d23d70a3f7fc5053c7c50483dd78d503f46c97e,
  0xbf0247aa3c11e647bccccee6bf2faace3f3851ecbdd2f1aa3df78d503f46c97e,
  0xbf03396db58637bdbccccee6bf7d9e84bb902de0be0b0f283e0bc6a83f46c97e,
  0xbf03396db58637bdbccccee6bf7d9e84bb902de0be0b0f283c3c6a7f3f46c97e,
  0xbf0247aabc11eeaabccccee6bf300000bf3844d0bdc432ca3cde353f3f46c97e,
  0xbf000000bc4e5f74bccccee63d17f62bbf7fcb923c6bedfa3d2f1aa03f46c97e,
  0xbefb70acbc11eeaabccccee63f384b5ebf2ed2893dfd21ff3d6f1aa03f46c97e,
  0x3efb70ac3c11eeaabccccab4bf384b5e3f2ed2893dfd21ff3db78d503e64da0a,
  0x3ef98d26358637bdbccccab4bf7c84b6ba1d49523e2809d53d978d503e64da0a,
  0x3f0000003c4e5f74bccccab4bd17f62b3f7fcb923c6bedfa3dd78d503e64da0a,
  0x3f0247aa3c11eeaabccccab43f3000003f3844d0bdc432ca3df78d503e64da0a,
  0x3f03396d358637bdbccccab43f7d9e843b902de0be0b0f283e0bc6a83e64da0a,
  0x3f0247aabc11e647bccccab43f2faacebf3851ecbdd2f1aa3cde353f3e64da0a,
  0x3f03396d358637bdbccccab43f7d9e843b902de0be0b0f283c3c6a7f3e64da0a,
  0x3f000000bc4e5711bccccab4bd23d70abf7fc5053c7c50483d2f1aa03e64da0a,
  0x3efb70acbc11e647bccccab4bf383127bf2ed2893e00d1b73d6f1aa03e64da0a,
  0xbefea3dfb58637bd3b2dff823f350481000000003f3504813d978d503f490508,
  0xbefff9b53c11e647384521de3f088ce73f28b4393f07c1be3db78d503f490508,
  0xbf01999a3c4e5711bbccd5303da4dd2f3f7e63203d9fbe773dd78d503f490508,
  0xbf0336593c11e647bc4d9a52bee752543f469ad4bee17c1c3df78d503f490508,
  0xbf03e143b58637bdbc785511bf35048180000000bf3504813e0bc6a83f490508,
  0xbf03e143b58637bdbc785511bf35048180000000bf3504813c3c6a7f3f490508,
  0xbf033659bc11eeaabc4d9a52bee17c1cbf469ad4bee752543cde353f3f490508,
  0xbf01999abc4e5f74bbccd5303d9fbe77bf7e63203da4dd2f3d2f1aa03f490508,
  0xbefff9b5bc11eeaa384521de3f07c1bebf28b4393f088ce73d6f1aa03f490508,
  0xbf066666b58637bd3c4e57113e2809d5ba1d49523f7c84b63d978d503f4b4092,
  0xbf0666663c11e6473c11e6473dfd21ff3f2ed2893f384b5e3db78d503f4b4092,
  0xbf0666663c4e5711b58637bd3c6bedfa3f7fcb923d17f62b3dd78d503f4b4092,
  0xbf0666663c11e647bc11eeaabdc432ca3f3844d0bf3000003df78d503f4b4092,
  0xbf066666b58637bdbc4e5f74be0b0f283b902de0bf7d9e843e0bc6a83f4b4092,
  0xbf066666b58637bdbc4e5f74be0b0f283b902de0bf7d9e843c3c6a7f3f4b4092,
  0xbf066666bc11eeaabc11eeaabdd2f1aabf3851ecbf2faace3cde353f3f4b4092,
  0xbf066666bc4e5f74b58637bd3c7c5048bf7fc5053d23d70a3d2f1aa03f4b4092,
  0xbf066666bc11eeaa3c11e6473e00d1b7bf2ed2893f3831273d6f1aa03f4b4092,
  0x3efff9b53c11eeaa384d8559bf07c1be3f28b4393f088ce73db78d503e5bebe1,
  0x3efea3df358637bd3b2e2110bf350481800000003f3504813d978d503e5bebe1,
  0x3f01999a3c4e5f74bbccc469bd9fbe773f7e63203da4dd2f3dd78d503e5bebe1,
  0x3f0336593c11eeaabc4d91ef3ee17c1c3f469ad4bee752543df78d503e5bebe1,
  0x3f03e143358637bdbc784cad3f35048100000000bf3504813e0bc6a83e5bebe1,
  0x3f033659bc11e647bc4d91ef3ee75254bf469ad4bee17c1c3cde353f3e5bebe1,
  0x3f03e143358637bdbc784cad3f35048100000000bf3504813c3c6a7f3e5bebe1,
  0x3f01999abc4e5711bbccc469bda4dd2fbf7e63203d9fbe773d2f1aa03e5bebe1,
  0x3efff9b5bc11e647384d8559bf088ce7bf28b4393f07c1be3d6f1aa03e5bebe1,
  0x3f0666663c11eeaa3c11eeaabe00d1b73f2ed2893f3831273db78d503e52fdb9,
  0x3f066666358637bd3c4e5f74be2809d53a1d49523f7c84b63d978d503e52fdb9,
  0x3f0666663c4e5f74358637bdbc7c50483f7fc5053d23d70a3dd78d503e52fdb9,
  0x3f0666663c11eeaabc11e6473dd2f1aa3f3851ecbf2faace3df78d503e52fdb9,
  0x3f066666358637bdbc4e57113e0b0f28bb902de0bf7d9e843e0bc6a83e52fdb9,
  0x3f066666bc11e647bc11e6473dc432cabf3844d0bf3000003cde353f3e52fdb9,
  0x3f066666358637bdbc4e57113e0b0f28bb902de0bf7d9e843c3c6a7f3e52fdb9,
  0x3f066666bc4e5711358637bdbc6bedfabf7fcb923d17f62b3d2f1aa03e52fdb9,
  0x3f066666bc11e6473c11eeaabdfd21ffbf2ed2893f384b5e3d6f1aa03e52fdb9,
  0x3f32cfc83c11f2dc3c11f2dc800000003f3504813f3504813db78d503e000000,
  0x3f32cfc8358637bd3c4e63a680000000000000003f8000003d978d503e000000,
  0x3f32cfc83c4e63a6358637bd800000003f800000000000003dd78d503e000000,
  0x3f32cfc83c11f2dcbc11e647800000003f350481bf3504813df78d503e000000,
  0x3f32cfc8358637bdbc4e57110000000000000000bf8000003e0bc6a83e000000,
  0x3f32cfc8bc11e647bc11e64700000000bf350481bf3504813cde353f3e000000,
  0x3f32cfc8358637bdbc4e57110000000000000000bf8000003c3c6a7f3e000000,
  0x3f32cfc8bc4e5711358637bd00000000bf800000000000003d2f1aa03e000000,
  0x3f32cfc8bc11e6473c11f2dc80000000bf3504813f3504813d6f1aa03e000000,
  0xbf334fb5b58637bd3c4e571180000000000000003f8000003d978d503f600000,
  0xbf334fb53c11e6473c11e647800000003f3504813f3504813db78d503f600000,
  0xbf334fb53c4e5711b58637bd800000003f800000000000003dd78d503f600000,
  0xbf334fb53c11e647bc11f2dc800000003f350481bf3504813df78d503f600000,
  0xbf334fb5b58637bdbc4e63a60000000000000000bf8000003e0bc6a83f600000,
  0xbf334fb5b58637bdbc4e63a60000000000000000bf8000003c3c6a7f3f600000,
  0xbf334fb5bc11f2dcbc11f2dc00000000bf350481bf3504813cde353f3f600000,
  0xbf334fb5bc4e63a6b58637bd00000000bf800000000000003d2f1aa03f600000,
  0xbf334fb5bc11f2dc3c11e64780000000bf3504813f3504813d6f1aa03f600000,
  0xbf334fb5b58637bdb58637bdbf80000000000000800000003d978d503f700000,
  0xbf334fb5b58637bd3c4e5711bf80000000000000800000003d978d503f600000,
  0xbf334fb53c11e6473c11e647bf80000000000000800000003df20fb23f64afb4,
  0xbf334fb53c4e5711b58637bdbf80000000000000800000003e0bc6a83f700000,
  0xbf334fb53c11e647bc11f2dcbf80000000000000800000003df20fb23f7b504c,
  0xbf334fb5b58637bdbc4e63a6bf80000000000000800000003d978d503f800000,
  0xbf334fb5bc11f2dcbc11f2dcbf80000000000000800000003cf42bb63f7b504c,
  0xbf334fb5bc4e63a6b58637bdbf80000000000000800000003c3c6a7f3f700000,
  0xbf334fb5bc11f2dc3c11e647bf80000000000000800000003cf42bb63f64afb4,
  0x3f32cfc8358637bd358637bd3f80000080000000800000003d978d503d800000,
  0x3f32cfc83c11f2dc3c11f2dc3f80000080000000800000003df20fb23dda8262,
  0x3f32cfc8358637bd3c4e63a63f80000080000000800000003d978d503e000000,
  0x3f32cfc83c4e63a6358637bd3f80000080000000800000003e0bc6a83d800000,
  0x3f32cfc83c11f2dcbc11e6473f80000080000000800000003df20fb23c95f677,
  0x3f32cfc8358637bdbc4e57113f80000080000000800000003d978d5000000000,
  0x3f32cfc8bc11e647bc11e6473f80000080000000800000003cf42bb63c95f677,
  0x3f32cfc8bc4e5711358637bd3f80000080000000800000003c3c6a7f3d800000,
  0x3f32cfc8bc11e6473c11f2dc3f80000080000000800000003cf42bb63dda8262]

set_option maxRecDepth 100000 in
/-- the triangles of `SPINNER_PLATE_INDICES`, /repo/src/vpx/mesh/spinners/spinner_plate_mesh.rs:252-329 -/
def spinnerPlateTris : List Nat := [
  0x000a0009000b, 0x00080009000a, 0x0008000a001c, 0x0008001c001d, 0x001d001c001e, 0x001d001e001f, 0x001f001e0020,
  0x001f00200021, 0x002100200003, 0x002100030002, 0x000300000002, 0x000000010002, 0x000000140001, 0x000100140015,
  0x001400120015, 0x001500120013, 0x001200100013, 0x001300100011, 0x0010000f0011, 0x0011000f000c, 0x000c000f000d,
  0x000c000d000e, 0x000e000d0016, 0x000e00160017, 0x001700160018, 0x001700180019, 0x00190018001a, 0x0019001a001b,
  0x001b001a0005, 0x001b00050004, 0x000400050006, 0x000700040006, 0x000600280007, 0x000700280029, 0x002800260029,
  0x002900260027, 0x002600220027, 0x002700220024, 0x002200230024, 0x002400230025, 0x002a002b002c, 0x002b002a002d,
  0x002b0030002c, 0x002b002d002e, 0x0030002b0031, 0x002b002e002f, 0x0031002b0032, 0x002b002f003e, 0x0032002b0033,
  0x003d002b003e, 0x002b00340033, 0x003c002b003d, 0x0034002b0035, 0x003b002b003c, 0x0035002b0036, 0x003a002b003b,
  0x0036002b0037, 0x0039002b003a, 0x0037002b0038, 0x0038002b0039, 0x003f00400041, 0x003f00450040, 0x004200410040,
  0x004600400045, 0x004300420040, 0x004700400046, 0x004400430040, 0x004800400047, 0x005300440040, 0x004800490040,
  0x005300400052, 0x004a00400049, 0x005200400051, 0x004b0040004a, 0x005100400050, 0x004c0040004b, 0x00500040004f,
  0x004d0040004c, 0x004f0040004e, 0x004e0040004d, 0x005400550056, 0x007800540056, 0x005600550064, 0x005600790078,
  0x007900560064, 0x00540078007a, 0x008100780079, 0x0083007a0078, 0x007800810083, 0x007a00590054, 0x007900820081,
  0x0059007a007b, 0x008200790080, 0x006400800079, 0x0084007b007a, 0x007a00830084, 0x007b00840085, 0x0085007c007b,
  0x009700850084, 0x005a007b007c, 0x007b005a0059, 0x007c005d005a, 0x005d005c005a, 0x008400960097, 0x009600840083,
  0x00b200970096, 0x008300950096, 0x009500830081, 0x009600b100b2, 0x00b100960095, 0x00bb00b200b1, 0x008100930095,
  0x009300810082, 0x009500b000b1, 0x00b000950093, 0x00b100ba00bb, 0x00ba00b100b0, 0x00c400bb00ba, 0x00ba00c300c4,
  0x00c300ba00b9, 0x00b000b900ba, 0x00b900c200c3, 0x00b900b000ae, 0x009300ae00b0, 0x00c200b900b7, 0x00ae00b700b9,
  0x00b700c000c2, 0x00ae00930094, 0x008200940093, 0x00b700ae00af, 0x009400af00ae, 0x00c000b700b8, 0x00af00b800b7,
  0x00b800c100c0, 0x009400820089, 0x008000890082, 0x00c100b800bf, 0x00bf00c800c1, 0x00b800af00b6, 0x00b600bf00b8,
  0x00af0094009b, 0x009b00b600af, 0x0089009b0094, 0x00c800bf00be, 0x00be00c700c8, 0x00bf00b600b5, 0x00b500be00bf,
  0x00b6009b009a, 0x009a00b500b6, 0x00c700be00bc, 0x00bc00c500c7, 0x00bd00c600c5, 0x00c500bc00bd, 0x00b400bd00bc,
  0x00b300bc00be, 0x00bc00b300b4, 0x00be00b500b3, 0x009900b400b3, 0x009800b300b5, 0x00b300980099, 0x00b5009a0098,
  0x008700990098, 0x009800860087, 0x00860098009a, 0x007e00870086, 0x009a00880086, 0x0088009a009b, 0x009b00890088,
  0x0086007d007e, 0x007d00860088, 0x0060007e007d, 0x007f00880089, 0x0088007f007d, 0x00890080007f, 0x007d005e0060,
  0x005e007d007f, 0x005e005f0060, 0x0063007f0080, 0x007f0063005e, 0x008000640063, 0x005e0061005f, 0x006b005f0061,
  0x00630062005e, 0x00620061005e, 0x006400620063, 0x0061006c006b, 0x006c00610062, 0x0074006b006c, 0x006400650062,
  0x005500650064, 0x0062006d006c, 0x006d00620065, 0x006c00750074, 0x0075006c006d, 0x008f00740075, 0x0065006e006d,
  0x006e00650055, 0x006d00760075, 0x0076006d006e, 0x00750090008f, 0x009000750076, 0x00a1008f0090, 0x006e00770076,
  0x009000a200a1, 0x00aa00a100a2, 0x007600910090, 0x00a200900091, 0x009100760077, 0x00a200ab00aa, 0x00ce00aa00ab,
  0x00ab00cf00ce, 0x009100a300a2, 0x00ab00a200a3, 0x00cf00ab00ac, 0x00a300ac00ab, 0x00ac00d000cf, 0x00a300910092,
  0x007700920091, 0x00ac00a300a4, 0x009200a400a3, 0x00d000ac00ad, 0x00a400ad00ac, 0x00ad00d100d0, 0x00a40092008a,
  0x00d100ad00a5, 0x00a500c900d1, 0x00ad00a4009c, 0x009c00a500ad, 0x008a009c00a4, 0x00c900a500a6, 0x00a600ca00c9,
  0x00a5009c009d, 0x009d00a600a5, 0x00ca00a600a7, 0x00a700cb00ca, 0x00a6009d009e, 0x009e00a700a6, 0x008b009d009c,
  0x009c008a008b, 0x008c009e009d, 0x009d008b008c, 0x00cb00a700a8, 0x00a800cc00cb, 0x00a900cd00cc, 0x00cc00a800a9,
  0x00a000a900a8, 0x009f00a800a7, 0x00a8009f00a0, 0x00a7009e009f, 0x008e00a0009f, 0x008d009f009e, 0x009f008d008e,
  0x009e008c008d, 0x0073008e008d, 0x008d00720073, 0x0072008d008c, 0x006a00730072, 0x008c00710072, 0x0071008c008b,
  0x00720069006a, 0x006900720071, 0x005c006a0069, 0x008b00700071, 0x0070008b008a, 0x0069005b005c, 0x005c005b005a,
  0x007100680069, 0x005b00690068, 0x006800710070, 0x005a005b0058, 0x00680058005b, 0x005a00580059, 0x005900580054,
  0x007000670068, 0x005800680067, 0x005800570054, 0x006700570058, 0x005400570055, 0x00670070006f, 0x008a006f0070,
  0x006f008a0092, 0x00920077006f, 0x005700670066, 0x006f00660067, 0x006600550057, 0x0066006f0077, 0x00550066006e,
  0x0077006e0066, 0x00d200d300d4, 0x00d200da00d3, 0x00d200d400d5, 0x00d200d900da, 0x00d200d500d6, 0x00d200d800d9,
  0x00d200d600d7, 0x00d200d700d8, 0x00db00dc00dd, 0x00db00dd00e3, 0x00db00de00dc, 0x00db00e300e2, 0x00db00df00de,
  0x00db00e200e1, 0x00db00e000df, 0x00db00e100e0]

/-- the table of /repo/src/vpx/mesh/spinners/spinner_plate_mesh.rs -/
def spinnerPlateTable : MeshTable := unpackTable spinnerPlateVertices spinnerPlateTris

end Vpin
