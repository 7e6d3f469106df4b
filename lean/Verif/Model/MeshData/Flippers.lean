import Verif.Model.MeshPack
/-
Generated by tools/meshdata.py from /repo/src/vpx/mesh/flippers/*_mesh.rs.
-/
namespace Vpin

set_option maxRecDepth 100000 in
/-- the vertices of `FLIPPER_BASE_MESH`, /repo/src/vpx/mesh/flippers/flipper_base_mesh.rs:18-123 -/
def flipperBaseVertices : List Nat := [
  0xbdcfb7e93f494c343b75f4e4bf7f76603d851eb8000000003e0143bf3ed8639d,
  0xbdcfb7e93f494c343f808b5dbf7f76603d851eb8000000003d8c881e3ef92642,
  0xbdc8a3f93f5004863f808b5dbf7745393e84816f000000003d6526963ef2df93,
  0xbdc8a3f93f5004863b75f4e4bf7745393e84816f000000003de867ae3ed73882,
  0xbd4fb86f3f5fc89f3b75f4e4bf0000003f5db22d000000003dc365453ece0ded,
  0xbd4fb86f3f5fc89f3f808b5dbf0000003f5db22d000000003cc99d023edba062,
  0xbcd70c563f6260b33f808b5dbe84816f3f774539000000003c94a2ba3ed255d2,
  0xbcd70c563f6260b33b75f4e4be84816f3f774539000000003dbdaf083ec9c64c,
  0x3d4fb86f3f5fc89f3b75f4e43f0000003f5db22d000000003dc108c43ebc5bd1,
  0x3d4fb86f3f5fc89f3f808b5d3f0000003f5db22d000000003c7c58ac3eb42246,
  0x3d92e0e33f5ba8503f808b5d3f3504813f350481000000003ca663413eaa0dbb,
  0x3d92e0e33f5ba8503b75f4e43f3504813f350481000000003dc9a0273eb86a0a,
  0xbd4fb86f3f5fc89f3b75f4e40000000000000000bf8000003caa1d753db78812,
  0xbcd70c563f6260b33b75f4e40000000000000000bf8000003c800c953d9e33ad,
  0x000000003f6343313b75f4e40000000000000000bf8000003c6343313d8303c0,
  0x3cd70c563f6260b33b75f4e40000000000000000bf8000003c7fb8b23d4fa483,
  0x3d4fb86f3f5fc89f3b75f4e40000000000000000bf8000003ca9c12f3d1cf249,
  0x3d92e0e33f5ba8503b75f4e40000000000000000bf8000003cec764b3ce2cdc0,
  0x3db3e3e33f5647aa3b75f4e40000000000000000bf8000003d21b8ed3c9ff2e5,
  0x3dc8a3f93f5004863b75f4e40000000000000000bf8000003d5460aa3c6bc409,
  0x3dcfb7e93f494c343b75f4e40000000000000000bf8000003d8560c83c4ef241,
  0x3dce5c4f000000003b75f4e40000000000000000bf8000003eecf6e03c4ee9dd,
  0x3dc7546dbcd5a3a13b75f4e40000000000000000bf8000003ef3b7d83c6b313c,
  0x3db2b6f2bd4e5c4f3b75f4e40000000000000000bf8000003efa03823c9f383f,
  0x3d91eb85bd91eb853b75f4e40000000000000000bf8000003eff6bc23ce17e35,
  0x3d4e5c4fbdb2b6f23b75f4e40000000000000000bf8000003f01c93f3d1bf26f,
  0x3cd5a3a1bdc7546d3b75f4e40000000000000000bf8000003f03179c3d4e464a,
  0x00000000bdce5c4f3b75f4e40000000000000000bf8000003f038a1a3d8225fa,
  0xbcd5a3a1bdc7546d3b75f4e40000000000000000bf8000003f03190d3d9d29dc,
  0xbd4e5c4fbdb2b6f23b75f4e40000000000000000bf8000003f01cc103db65882,
  0xbd91eb85bd91eb853b75f4e40000000000000000bf8000003eff73c13dcbf983,
  0xbdb2b6f2bd4e5c4f3b75f4e40000000000000000bf8000003efa0d353ddc9470,
  0xbdc7546dbcd5a3a13b75f4e40000000000000000bf8000003ef3c2db3de706d5,
  0xbdce5c4f000000003b75f4e40000000000000000bf8000003eed02253dea9b4a,
  0xbdcfb7e93f494c343b75f4e40000000000000000bf8000003d858dde3debfb9c,
  0xbdc8a3f93f5004863b75f4e40000000000000000bf8000003d54b8bf3de86cec,
  0xbdb3e3e33f5647aa3b75f4e40000000000000000bf8000003d2207923dddf3b6,
  0xbd92e0e33f5ba8503b75f4e40000000000000000bf8000003cecf8513dcd466f,
  0xbdb3e3e33f5647aa3f808b5d00000000000000003f8000003d41b8673e1bfe3b,
  0xbdc8a3f93f5004863f808b5d00000000000000003f8000003d7461313e16bc1f,
  0xbdcfb7e93f494c343f808b5d00000000000000003f8000003d9560853e14ef03,
  0xbdce5c4f000000003f808b5d00000000000000003f8000003ef0f6cf3e14eebf,
  0xbdc7546dbcd5a3a13f808b5d00000000000000003f8000003ef7b7e93e16b2f2,
  0xbdb2b6f2bd4e5c4f3f808b5d00000000000000003f8000003efe03713e1be6e6,
  0xbd91eb85bd91eb853f808b5d00000000000000003f8000003f01b5e93e242fa5,
  0xbd4e5c4fbdb2b6f23f808b5d00000000000000003f8000003f03c9363e2efcbd,
  0xbcd5a3a1bdc7546d3f808b5d00000000000000003f8000003f0517943e3b91b4,
  0x00000000bdce5c4f3f808b5d00000000000000003f8000003f058a223e4912dc,
  0x3cd5a3a1bdc7546d3f808b5d00000000000000003f8000003f0519053e569510,
  0x3d4e5c4fbdb2b6f23f808b5d00000000000000003f8000003f03cc083e632c1f,
  0x3d91eb85bd91eb853f808b5d00000000000000003f8000003f01b9e93e6dfce3,
  0x3db2b6f2bd4e5c4f3f808b5d00000000000000003f8000003efe0d453e764a17,
  0x3dc7546dbcd5a3a13f808b5d00000000000000003f8000003ef7c2ca3e7b838c,
  0x3dce5c4f000000003f808b5d00000000000000003f8000003ef102153e7d4dc6,
  0x3dcfb7e93f494c343f808b5d00000000000000003f8000003d958e223e7dfdac,
  0x3dc8a3f93f5004863f808b5d00000000000000003f8000003d74b9453e7c3697,
  0x3db3e3e33f5647aa3f808b5d00000000000000003f8000003d42070c3e76f9fd,
  0x3d92e0e33f5ba8503f808b5d00000000000000003f8000003d167ba23e6ea359,
  0x3d4fb86f3f5fc89f3f808b5d00000000000000003f8000003cea1c693e63c3e7,
  0x3cd70c563f6260b33f808b5d00000000000000003f8000003cc00b893e5719b5,
  0x000000003f6343313f808b5d00000000000000003f8000003cb1a2a53e4981bf,
  0xbcd70c563f6260b33f808b5d00000000000000003f8000003cbfdd663e3be8ff,
  0xbd4fb86f3f5fc89f3f808b5d00000000000000003f8000003ce9c23b3e2f3cb4,
  0xbd92e0e33f5ba8503f808b5d00000000000000003f8000003d163bac3e2459da,
  0x3d4e5c4fbdb2b6f23b75f4e43f000000bf5db22d000000003ee097853eb9e14c,
  0x3d4e5c4fbdb2b6f23f808b5d3f000000bf5db22d000000003f01bb7b3eadf3f9,
  0x3cd5a3a1bdc7546d3f808b5d3e84816fbf774539000000003f03076c3eb6cd8e,
  0x3cd5a3a1bdc7546d3b75f4e43e84816fbf774539000000003ee1d7133ebdb036,
  0xbdb3e3e33f5647aa3b75f4e4bf5db22d3f000000000000003dd8b47c3ed50d4a,
  0xbdb3e3e33f5647aa3f808b5dbf5db22d3f000000000000003d343e963eebf6e4,
  0xbd92e0e33f5ba8503f808b5dbf3504813f350481000000003d08bb903ee4345d,
  0xbd92e0e33f5ba8503b75f4e4bf3504813f350481000000003dcc64773ed1e53b,
  0x3cd70c563f6260b33b75f4e43e84816f3f774539000000003dbc579f3ec0b8f1,
  0x3cd70c563f6260b33f808b5d3e84816f3f774539000000003c5b5d893ebe5c0c,
  0x3dce5c4f000000003f808b5d3f7f6fd2bd86c227000000003eefeef63e8f8ca8,
  0x3dc7546dbcd5a3a13f808b5d3f774539be84816f000000003ef5b4cc3e9698dd,
  0x3dc7546dbcd5a3a13b75f4e43f774539be84816f000000003ed5d2073eb09ca2,
  0x3dce5c4f000000003b75f4e43f7f6fd2bd86c227000000003ed078b83eade072,
  0xbd4e5c4fbdb2b6f23b75f4e4bf000000bf5db22d000000003ee02e453ec9b2c4,
  0xbd4e5c4fbdb2b6f23f808b5dbf000000bf5db22d000000003f02c43f3ed2630f,
  0xbd91eb85bd91eb853f808b5dbf350481bf350481000000003f0182563edb69ba,
  0xbd91eb85bd91eb853b75f4e4bf350481bf350481000000003eddd50b3ecda2d7,
  0x00000000bdce5c4f3f808b5d00000000bf800000000000003f0369343ebffdc6,
  0x00000000bdce5c4f3b75f4e400000000bf800000000000003ee235723ec1adeb,
  0x3db2b6f2bd4e5c4f3f808b5d3f5db22dbf000000000000003efb12903e9dd69d,
  0x3db2b6f2bd4e5c4f3b75f4e43f5db22dbf000000000000003edabc943eb31466,
  0x000000003f6343313b75f4e4000000003f800000000000003dbb4aa93ec543af,
  0x000000003f6343313f808b5d000000003f800000000000003c6ac8603ec88180,
  0x3dcfb7e93f494c343b75f4e43f7f76603d851eb8000000003e0e004b3eafed42,
  0x3dcfb7e93f494c343f808b5d3f7f76603d851eb8000000003d4c069e3e8e1651,
  0x3dc8a3f93f5004863b75f4e43f7745393e84816f000000003decd8563eb22b7c,
  0x3dc8a3f93f5004863f808b5d3f7745393e84816f000000003d1b456b3e9702c5,
  0xbcd5a3a1bdc7546d3b75f4e4be84816fbf774539000000003ee1a1dc3ec5b121,
  0xbcd5a3a1bdc7546d3f808b5dbe84816fbf774539000000003f0369343ec930be,
  0xbdb2b6f2bd4e5c4f3f808b5dbf5db22dbf000000000000003eff64063ee4243e,
  0xbdb2b6f2bd4e5c4f3b75f4e4bf5db22dbf000000000000003eda88053ed16feb,
  0x3d91eb85bd91eb853b75f4e43f350481bf350481000000003ede49f53eb64a38,
  0x3d91eb85bd91eb853f808b5d3f350481bf350481000000003effbd273ea59d77,
  0xbdc7546dbcd5a3a13b75f4e4bf774539be84816f000000003ed62dc73ed505f3,
  0xbdc7546dbcd5a3a13f808b5dbf774539be84816f000000003efacc923eec80a6,
  0xbdce5c4f000000003f808b5dbf7f6fd2bd86c227000000003ef5694d3ef47dc3,
  0xbdce5c4f000000003b75f4e4bf7f6fd2bd86c227000000003ed09d283ed84d34,
  0x3db3e3e33f5647aa3b75f4e43f5db22d3f000000000000003dd66adb3eb52b2c,
  0x3db3e3e33f5647aa3f808b5d3f5db22d3f000000000000003ce4bcae3ea04dba]

set_option maxRecDepth 100000 in
/-- the triangles of `FLIPPER_BASE_INDICES`, /repo/src/vpx/mesh/flippers/flipper_base_mesh.rs:128-146 -/
def flipperBaseTris : List Nat := [
  0x000c000d000e, 0x000c000e000f, 0x000c000f0010, 0x000c00100011, 0x000c00110012, 0x000c00120013, 0x000c00130014,
  0x000c00140015, 0x000c00150016, 0x000c00160017, 0x000c00170018, 0x000c00180019, 0x000c0019001a, 0x000c001a001b,
  0x000c001b001c, 0x000c001c001d, 0x000c001d001e, 0x000c001e001f, 0x000c001f0020, 0x000c00200021, 0x000c00210022,
  0x000c00220023, 0x000c00230024, 0x000c00240025, 0x000000010002, 0x006500010000, 0x000000020003, 0x006500640001,
  0x000300020045, 0x006200640065, 0x000300450044, 0x006200630064, 0x004400450046, 0x005f00630062, 0x004400460047,
  0x005f005e0063, 0x004700460005, 0x0051005e005f, 0x004700050004, 0x00510050005e, 0x000400050006, 0x004e00500051,
  0x000400060007, 0x004e004f0050, 0x000700060057, 0x005c004f004e, 0x000700570056, 0x005c005d004f, 0x005600570049,
  0x0053005d005c, 0x005600490048, 0x00530052005d, 0x004800490009, 0x004200520053, 0x004800090008, 0x004200530043,
  0x00080009000a, 0x004000420043, 0x0008000a000b, 0x004000410042, 0x000b000a0067, 0x006000410040, 0x000b00670066,
  0x006000610041, 0x00660067005b, 0x005500610060, 0x0066005b005a, 0x005500540061, 0x005a005b0059, 0x004c00540055,
  0x005a00590058, 0x004c004b0054, 0x00580059004a, 0x004a004b004c, 0x0058004a004d, 0x004a004c004d, 0x002600270028,
  0x002600280029, 0x00260029002a, 0x0026002a002b, 0x0026002b002c, 0x0026002c002d, 0x0026002d002e, 0x0026002e002f,
  0x0026002f0030, 0x002600300031, 0x002600310032, 0x002600320033, 0x002600330034, 0x002600340035, 0x002600350036,
  0x002600360037, 0x002600370038, 0x002600380039, 0x00260039003a, 0x0026003a003b, 0x0026003b003c, 0x0026003c003d,
  0x0026003d003e, 0x0026003e003f]

/-- the table of /repo/src/vpx/mesh/flippers/flipper_base_mesh.rs -/
def flipperBaseTable : MeshTable := unpackTable flipperBaseVertices flipperBaseTris

end Vpin
