import Verif.Model.MeshPack
/-
Generated by tools/meshdata.py from /repo/src/vpx/mesh/lights/*_mesh.rs.
-/
namespace Vpin

set_option maxRecDepth 100000 in
/-- the vertices of `BULB_LIGHT_VERTICES`, /repo/src/vpx/mesh/lights/bulb_light_mesh.rs:19-87 -/
def bulbLightVertices : List Nat := [
  0x3e619503bec35d253f7c20713efe2824bf5c1bda3df4538f3f32e5583f1d627c,
  0x00000000bed06a2b3f93042e00000000bf6cc63f3ec2b6ae3f3060aa3f000000,
  0x00000000bee196533f7c207100000000bf7e28243df4538f3f3ac4f83f000000,
  0x3e5068dcbeb47e283f93042e3eecbfb1bf4d07c83ec2b6ae3f29e56d3f18305e,
  0x3eb47cd9be506a2b3f93042e3f4d0e56beecbfb13ec2b6ae3f18305e3f29e56d,
  0x3ec35bd5be6196533f7c20713f5c1bdabefe28243df4538f3f1d627c3f32e558,
  0x3ee1945b000000003f7c20713f7e2eb2000000003df4538f3f0000003f3ac4f8,
  0x3ed068dc000000003f93042e3f6cc63f000000003ec2b6ae3f0000003f3060aa,
  0x3eb47cd93e506a2b3f93042e3f4d0e563eecbfb13ec2b6ae3ecf9f453f29e56d,
  0x3ec35bd53e6196533f7c20713f5c1bda3efe28243df4538f3ec53b083f32e558,
  0x3e6195033ec35d253f7c20713efe28243f5c1bda3df4538f3e9a35503f1d627c,
  0x3e5068dc3eb47e283f93042e3eecbfb13f4d07c83ec2b6ae3eac35263f18305e,
  0x000000003ed06a2b3f93042e000000003f6cc63f3ec2b6ae3e9f3eab3f000000,
  0x000000003ee196533f7c2071000000003f7e28243df4538f3e8a76103f000000,
  0xbe6195033ec35d253f7c2071befe28243f5c1bda3df4538f3e9a35503ec53b08,
  0xbe5068dc3eb47e283f93042ebeecbfb13f4d07c83ec2b6ae3eac35263ecf9f45,
  0xbeb47cd93e506a2b3f93042ebf4d0e563eecbfb13ec2b6ae3ecf9f453eac3526,
  0xbec35bd53e6196533f7c2071bf5c1bda3efe28243df4538f3ec53b083e9a3550,
  0xbee1945b000000003f7c2071bf7e2eb2000000003df4538f3f0000003e8a7610,
  0xbed068dc000000003f93042ebf6cc63f000000003ec2b6ae3f0000003e9f3eab,
  0xbeb47cd9be506a2b3f93042ebf4d0e56beecbfb13ec2b6ae3f18305e3eac3526,
  0xbec35bd5be6196533f7c2071bf5c1bdabefe28243df4538f3f1d627c3e9a3550,
  0xbe619503bec35d253f7c2071befe2824bf5c1bda3df4538f3f32e5583ec53b08,
  0xbe5068dcbeb47e283f93042ebeecbfb1bf4d07c83ec2b6ae3f29e56d3ecf9f45,
  0x3e1f822cbe8a24893fa4c7b93eb4fdf4bf1cbfb13f350b0f3f2010e93f12836f,
  0x00000000be9f837b3fa4c7b900000000bf3694463f336e2f3f2506cd3f000000,
  0x3e8a23e2be1f837b3fa4c7b93f1e2196beb694463f336e2f3f12836f3f2010e9,
  0x3e9f822c000000003fa4c7b93f34fdf4000000003f350b0f3f0000003f2506cd,
  0x3e8a23e23e1f837b3fa4c7b93f1e21963eb694463f336e2f3edaf9233f2010e9,
  0x3e1f822c3e8a24893fa4c7b93eb4fdf43f1cbfb13f350b0f3ebfde2f3f12836f,
  0x000000003e9f837b3fa4c7b9000000003f3694463f336e2f3eb5f2673f000000,
  0xbe1f822c3e8a24893fa4c7b9beb4fdf43f1cbfb13f350b0f3ebfde2f3edaf923,
  0xbe8a23e23e1f837b3fa4c7b9bf1e21963eb694463f336e2f3edaf9233ebfde2f,
  0xbe9f822c000000003fa4c7b9bf34fdf4000000003f350b0f3f0000003eb5f267,
  0xbe8a23e2be1f837b3fa4c7b9bf1e2196beb694463f336e2f3f12836f3ebfde2f,
  0xbe1f822cbe8a24893fa4c7b9beb4fdf4bf1cbfb13f350b0f3f2010e93edaf923,
  0x00000000be2ca81a3fb0a62200000000bec57a783f6c2f833f1409e53f000000,
  0x3e1584f5bdaca81a3fb0a6223eab020cbe456d5d3f6c2f833f0a04f33f115a9f,
  0x3e1584f53daca81a3fb0a6223eab020c3e456d5d3f6c2f833eebf61b3f115a9f,
  0x000000003e2ca81a3fb0a622000000003ec57a783f6c2f833ed7ec353f000000,
  0xbe1584f53daca81a3fb0a622beab020c3e456d5d3f6c2f833eebf61b3edd4ac3,
  0xbe1584f5bdaca81a3fb0a622beab020cbe456d5d3f6c2f833f0a04f33edd4ac3,
  0x00000000000000003fb4d10f00000000000000003f8000003f0000003f000000,
  0x3e733333bed29fbe3e04fb553efed289bf5cac08bdc49ba63f6135443f381f86,
  0x00000000bef3352b3e04fb5500000000bf7ed289bdc49ba63f703efb3f000000,
  0x3ed29dc7be7334833e04fb553f5cac08befed289bdc49ba63f381f863f613544,
  0x3ef33333000000003e04fb553f7ed28900000000bdc49ba63f0000003f703efb,
  0x3ed29dc73e7334833e04fb553f5cac083efed289bdc49ba63e8fc0f43f613544,
  0x3e7333333ed29fbe3e04fb553efed2893f5cac08bdc49ba63df655e33f381f86,
  0x000000003ef3352b3e04fb55000000003f7ed289bdc49ba63d7c10523f000000,
  0xbe7333333ed29fbe3e04fb55befed2893f5cac08bdc49ba63df655e33e8fc0f4,
  0xbed29dc73e7334833e04fb55bf5cac083efed289bdc49ba63e8fc0f43df655e3,
  0xbef33333000000003e04fb55bf7ed28900000000bdc49ba63f0000003d7c1052,
  0xbed29dc7be7334833e04fb55bf5cac08befed289bdc49ba63f381f863df655e3,
  0xbe733333bed29fbe3e04fb55befed289bf5cac08bdc49ba63f6135443e8fc0f4,
  0x3e619503bec35d25bc4f03083ef8d4febf578034be706f693f6d198b3f3efd22,
  0x00000000bee19653bc4f030800000000bf78db8cbe706f693f7dfa443f000000,
  0x3ec35bd5be619653bc4f03083f578034bef8d4febe7055323f3efd223f6d198b,
  0x3ee1945b00000000bc4f03083f78db8c80000000be7055323f0000003f7dfa44,
  0x3ec35bd53e619653bc4f03083f5780343ef8d4febe7055323e8205bc3f6d198b,
  0x3e6195033ec35d25bc4f03083ef8d4fe3f578034be706f693d9733a93f3efd22,
  0x000000003ee19653bc4f0308000000003f78db8cbe706f693c016f003f000000,
  0xbe6195033ec35d25bc4f0308bef8d4fe3f578034be706f693d9733a93e8205bc,
  0xbec35bd53e619653bc4f0308bf5780343ef8d4febe7055323e8205bc3d9733a9,
  0xbee1945b00000000bc4f0308bf78db8c00000000be7055323f0000003c016f00,
  0xbec35bd5be619653bc4f0308bf578034bef8d4febe7055323f3efd223d9733a9,
  0xbe619503bec35d25bc4f0308bef8d4febf578034be706f693f6d198b3e8205bc]

set_option maxRecDepth 100000 in
/-- the triangles of `BULB_LIGHT_INDICES`, /repo/src/vpx/mesh/lights/bulb_light_mesh.rs:91-212 -/
def bulbLightTris : List Nat := [
  0x002c00380037, 0x0038002c0042, 0x0037002b002c, 0x002b0037002d, 0x0039002d0037, 0x002d0039003a, 0x002b0000002c,
  0x002d0000002b, 0x00360042002c, 0x003a002e002d, 0x004200360035, 0x003500410042, 0x004100350040, 0x002e003a002f,
  0x003b002f003a, 0x002f003b003c, 0x002e0006002d, 0x002f0006002e, 0x0005002d0006, 0x0000002d0005, 0x003c0030002f,
  0x000500040000, 0x000600040005, 0x0030003c0031, 0x003d0031003c, 0x0031003d003e, 0x0030000a002f, 0x0031000a0030,
  0x0006002f0009, 0x0009002f000a, 0x000900080006, 0x000a00080009, 0x000800070006, 0x000600070004, 0x000a000b0008,
  0x0007001b0004, 0x0008001b0007, 0x000c000b000a, 0x000b001d0008, 0x000c001d000b, 0x0008001c001b, 0x001d001c0008,
  0x000d000c000a, 0x000a0031000d, 0x001d0026001c, 0x001c0026001b, 0x000d0031000e, 0x000e000c000d, 0x0032000e0031,
  0x003e00320031, 0x0032003e0033, 0x0033000e0032, 0x003f0033003e, 0x0033003f0040, 0x004000340033, 0x003400400035,
  0x003400120033, 0x003500120034, 0x000e00330011, 0x001100330012, 0x00110010000e, 0x001200100011, 0x000e000f000c,
  0x0010000f000e, 0x000f001f000c, 0x0010001f000f, 0x001f001e000c, 0x000c001e001d, 0x001e0027001d, 0x001f0027001e,
  0x0026001d0027, 0x00100020001f, 0x00280027001f, 0x00200028001f, 0x002a00260027, 0x002a00270028, 0x002100200010,
  0x002100280020, 0x001300210010, 0x001200130010, 0x002100290028, 0x0029002a0028, 0x001400210013, 0x001400130012,
  0x002200290021, 0x001400220021, 0x002300290022, 0x002300220014, 0x00290024002a, 0x002900230024, 0x0026002a0025,
  0x0025002a0024, 0x0025001b0026, 0x001b0025001a, 0x001b001a0004, 0x001a00250018, 0x0004001a0018, 0x002400180025,
  0x000400180003, 0x000400030000, 0x001800240019, 0x001900240023, 0x000300180001, 0x001800190001, 0x000000030001,
  0x000100190023, 0x000000010002, 0x00000002002c, 0x000100230017, 0x001700230014, 0x001600020001, 0x000100170016,
  0x0016002c0002, 0x001600170014, 0x002c00160036, 0x003600160035, 0x001600140015, 0x001500350016, 0x001500140012,
  0x001200350015]

/-- the table of /repo/src/vpx/mesh/lights/bulb_light_mesh.rs -/
def bulbLightTable : MeshTable := unpackTable bulbLightVertices bulbLightTris

set_option maxRecDepth 100000 in
/-- the vertices of `BULB_SOCKET_VERTICES`, /repo/src/vpx/mesh/lights/bulb_socket_mesh.rs:14-607 -/
def bulbSocketVertices : List Nat := [
  0x0000000000000000bf423f030000000000000000bf8000003ebe13f53f800000,
  0x000000003ea11b1ebf423f03000000003f3bf488bf2dcc643e8000003f5ff76a,
  0x3da6ca043e9b9de5bf423f033e428f5c3f358e22bf2dcc643e9555613f5ff76a,
  0x000000003ec80b03bf247c63000000003f600000bef7dbf53e8000003f537ad5,
  0x3dcf19933ec13a0cbf247c633e67d5673f585f07bef7dbf53e9555613f537ad5,
  0x000000003ea11b1ebf2fa55d000000003f5a9fbebf0532613e8000003f5cf616,
  0x000000003ec80b03bda1da7b000000003f5404eabf0f76603e8000003f104370,
  0x3dcf19933ec13a0cbda1da7b3e5b71763f4ccccdbf0f76603e9555613f104370,
  0x000000003ef49279bd1f70df000000003f7adaba3e4be0df3e8000003f06a034,
  0x3dfd334c3eec3d04bd1f70df3e81d7dc3f7254613e4be0df3e9555613f06a034,
  0x000000003eb3ef6bbd1f70df00000000bf13bcd33f510cb33e8000003f08fd3b,
  0x3dba48303eadcdd5bd1f70dfbe18fc50bf0eb8523f510cb33e9555613f08fd3b,
  0x00000000000000003c0e000800000000000000003f8000003ec08dd200000000,
  0x3d522ea13e441a263c0e00083e4a3d713f3cb9243f2566cf3e9555613ef8e150,
  0x000000003e4b04ee3c0e0008000000003f4361133f2566cf3e8000003ef8e150,
  0x3e211b1e3e8b85a5bf423f033ebbf4883f22ca58bf2dcc643eaaaa9f3f5ff76a,
  0x3e480b243ead3e0cbf247c633ee000003f41ff2ebef7dbf53eaaaa9f3f537ad5,
  0x3da6ca043e9b9de5bf2fa55d3e624dd33f532ca5bf0532613e9555613f5cf616,
  0x3e480b243ead3e0cbda1da7b3ed404ea3f379a6bbf0f76603eaaaa9f3f104370,
  0x3e7492793ed3ce42bd1f70df3efae1483f5944673e4be0df3eaaaa9f3f06a034,
  0x3e33ef6b3e9bd406bd1f70dfbe93c361beffe5c93f510cb33eaaaa9f3f08fd3b,
  0x3dcb05323e2fd1dd3c0e00083ec361133f29374c3f2566cf3eaaaa9f3ef8e150,
  0x3e63d6c73e63d6c7bf423f033f04ea4b3f04ea4bbf2dcc643ec000003f5ff76a,
  0x3e8d73a83e8d73a8bf247c633f1e63203f1e6320bef7dbf53ec000003f537ad5,
  0x3e211b1e3e8b85a5bf2fa55d3eda9fbe3f3d566dbf0532613eaaaa9f3f5cf616,
  0x3e8d73a83e8d73a8bda1da7b3f15e9e23f15e9e2bf0f76603ec000003f104370,
  0x3eacf0523eacf052bd1f70df3f3161e53f3161e53e4be0df3ec000003f06a034,
  0x3e7e77923e7e7792bd1f70dfbed0f27cbed0f27c3f510cb33ec000003f08fd3b,
  0x3e0f8e7e3e0f8e7e3c0e00083f0a29c73f0a29c73f2566cf3ec000003ef8e150,
  0x3e8b85a53e211b1ebf423f033f22ca583ebbf488bf2dcc643ed555613f5ff76a,
  0x3ead3e0c3e480b24bf247c633f41ff2e3ee00000bef7dbf53ed555613f537ad5,
  0x3e63d6c73e63d6c7bf2fa55d3f1a92a33f1a92a3bf0532613ec000003f5cf616,
  0x3ead3e0c3e480b24bda1da7b3f379a6b3ed404eabf0f76603ed555613f104370,
  0x3ed3ce423e749279bd1f70df3f5944673efae1483e4be0df3ed555613f06a034,
  0x3e9bd4063e33ef6bbd1f70dfbeffe5c9be93c3613f510cb33ed555613f08fd3b,
  0x3e2fd1dd3dcb05323c0e00083f29374c3ec361133f2566cf3ed555613ef8e150,
  0x3e9b9de53da6ca04bf423f033f358e223e428f5cbf2dcc643eeaaa9f3f5ff76a,
  0x3ec13a0c3dcf1993bf247c633f585f073e67d567bef7dbf53eeaaa9f3f537ad5,
  0x3e8b85a53e211b1ebf2fa55d3f3d566d3eda9fbebf0532613ed555613f5cf616,
  0x3ec13a0c3dcf1993bda1da7b3f4ccccd3e5b7176bf0f76603eeaaa9f3f104370,
  0x3eec3d043dfd334cbd1f70df3f7254613e81d7dc3e4be0df3eeaaa9f3f06a034,
  0x3eadcdd53dba4830bd1f70dfbf0eb852be18fc503f510cb33eeaaa9f3f08fd3b,
  0x3e441a263d522ea13c0e00083f3cb9243e4a3d713f2566cf3eeaaa9f3ef8e150,
  0x3ea11b1e00000000bf423f033f3bf48800000000bf2dcc643f0000003f5ff76a,
  0x3ec80b0300000000bf247c633f60000000000000bef7dbf53f0000003f537ad5,
  0x3e9b9de53da6ca04bf2fa55d3f532ca53e624dd3bf0532613eeaaa9f3f5cf616,
  0x3ec80b0300000000bda1da7b3f5404ea00000000bf0f76603f0000003f104370,
  0x3ef4927900000000bd1f70df3f7adaba000000003e4be0df3f0000003f06a034,
  0x3eb3ef6b00000000bd1f70dfbf13bcd3000000003f510cb33f0000003f08fd3b,
  0x3e4b04ee000000003c0e00083f436113000000003f2566cf3f0000003ef8e150,
  0x3e9b9de5bda6ca04bf423f033f358e22be428f5cbf2dcc643f0aaab03f5ff76a,
  0x3ec13a0cbdcf1993bf247c633f585f07be67d567bef7dbf53f0aaab03f537ad5,
  0x3ea11b1e00000000bf2fa55d3f5a9fbe00000000bf0532613f0000003f5cf616,
  0x3ec13a0cbdcf1993bda1da7b3f4ccccdbe5b7176bf0f76603f0aaab03f104370,
  0x3eec3d04bdfd334cbd1f70df3f725461be81d7dc3e4be0df3f0aaab03f06a034,
  0x3eadcdd5bdba4830bd1f70dfbf0eb8523e18fc503f510cb33f0aaab03f08fd3b,
  0x3e441a26bd522ea13c0e00083f3cb924be4a3d713f2566cf3f0aaab03ef8e150,
  0x3e8b85a5be211b1ebf423f033f22ca58bebbf488bf2dcc643f1555503f5ff76a,
  0x3ead3e0cbe480b24bf247c633f41ff2ebee00000bef7dbf53f1555503f537ad5,
  0x3e9b9de5bda6ca04bf2fa55d3f532ca5be624dd3bf0532613f0aaab03f5cf616,
  0x3ead3e0cbe480b24bda1da7b3f379a6bbed404eabf0f76603f1555503f104370,
  0x3ed3ce42be749279bd1f70df3f594467befae1483e4be0df3f1555503f06a034,
  0x3e9bd406be33ef6bbd1f70dfbeffe5c93e93c3613f510cb33f1555503f08fd3b,
  0x3e2fd1ddbdcb05323c0e00083f29374cbec361133f2566cf3f1555503ef8e150,
  0x3e63d6c7be63d6c7bf423f033f04ea4bbf04ea4bbf2dcc643f2000003f5ff76a,
  0x3e8d73a8be8d73a8bf247c633f1e6320bf1e6320bef7dbf53f2000003f537ad5,
  0x3e8b85a5be211b1ebf2fa55d3f3d566dbeda9fbebf0532613f1555503f5cf616,
  0x3e8d73a8be8d73a8bda1da7b3f15e9e2bf15e9e2bf0f76603f2000003f104370,
  0x3eacf052beacf052bd1f70df3f3161e5bf3161e53e4be0df3f2000003f06a034,
  0x3e7e7792be7e7792bd1f70dfbed0f27c3ed0f27c3f510cb33f2000003f08fd3b,
  0x3e0f8e7ebe0f8e7e3c0e00083f0a29c7bf0a29c73f2566cf3f2000003ef8e150,
  0x3e211b1ebe8b85a5bf423f033ebbf488bf22ca58bf2dcc643f2aaab03f5ff76a,
  0x3e480b24bead3e0cbf247c633ee00000bf41ff2ebef7dbf53f2aaab03f537ad5,
  0x3e63d6c7be63d6c7bf2fa55d3f1a92a3bf1a92a3bf0532613f2000003f5cf616,
  0x3e480b24bead3e0cbda1da7b3ed404eabf379a6bbf0f76603f2aaab03f104370,
  0x3e749279bed3ce42bd1f70df3efae148bf5944673e4be0df3f2aaab03f06a034,
  0x3e33ef6bbe9bd406bd1f70dfbe93c3613effe5c93f510cb33f2aaab03f08fd3b,
  0x3dcb0532be2fd1dd3c0e00083ec36113bf29374c3f2566cf3f2aaab03ef8e150,
  0x3da6ca04be9b9de5bf423f033e428f5cbf358e22bf2dcc643f3555503f5ff76a,
  0x3dcf1993bec13a0cbf247c633e67d567bf585f07bef7dbf53f3555503f537ad5,
  0x3e211b1ebe8b85a5bf2fa55d3eda9fbebf3d566dbf0532613f2aaab03f5cf616,
  0x3dcf1993bec13a0cbda1da7b3e5b7176bf4ccccdbf0f76603f3555503f104370,
  0x3dfd334cbeec3d04bd1f70df3e81d7dcbf7254613e4be0df3f3555503f06a034,
  0x3dba4830beadcdd5bd1f70dfbe18fc503f0eb8523f510cb33f3555503f08fd3b,
  0x3d522ea1be441a263c0e00083e4a3d71bf3cb9243f2566cf3f3555503ef8e150,
  0x00000000bea11b1ebf423f0300000000bf3bf488bf2dcc643f4000003f5ff76a,
  0x00000000bec80b03bf247c6300000000bf600000bef7dbf53f4000003f537ad5,
  0x3da6ca04be9b9de5bf2fa55d3e624dd3bf532ca5bf0532613f3555503f5cf616,
  0x00000000bec80b03bda1da7b00000000bf5404eabf0f76603f4000003f104370,
  0x00000000bef49279bd1f70df00000000bf7adaba3e4be0df3f4000003f06a034,
  0x00000000beb3ef6bbd1f70df000000003f13bcd33f510cb33f4000003f08fd3b,
  0x00000000be4b04ee3c0e000800000000bf4361133f2566cf3f4000003ef8e150,
  0xbda6ca04be9b9de5bf423f03be428f5cbf358e22bf2dcc643f4aaab03f5ff76a,
  0xbdcf1993bec13a0cbf247c63be67d567bf585f07bef7dbf53f4aaab03f537ad5,
  0x00000000bea11b1ebf2fa55d00000000bf5a9fbebf0532613f4000003f5cf616,
  0xbdcf1993bec13a0cbda1da7bbe5b7176bf4ccccdbf0f76603f4aaab03f104370,
  0xbdfd334cbeec3d04bd1f70dfbe81d7dcbf7254613e4be0df3f4aaab03f06a034,
  0xbdba4830beadcdd5bd1f70df3e18fc503f0eb8523f510cb33f4aaab03f08fd3b,
  0xbd522ea1be441a263c0e0008be4a3d71bf3cb9243f2566cf3f4aaab03ef8e150,
  0xbe211b1ebe8b85a5bf423f03bebbf488bf22ca58bf2dcc643f5555503f5ff76a,
  0xbe480b24bead3e0cbf247c63bee00000bf41ff2ebef7dbf53f5555503f537ad5,
  0xbda6ca04be9b9de5bf2fa55dbe624dd3bf532ca5bf0532613f4aaab03f5cf616,
  0xbe480b24bead3e0cbda1da7bbed404eabf379a6bbf0f76603f5555503f104370,
  0xbe749279bed3ce42bd1f70dfbefae148bf5944673e4be0df3f5555503f06a034,
  0xbe33ef6bbe9bd406bd1f70df3e93c3613effe5c93f510cb33f5555503f08fd3b,
  0xbdcb0532be2fd1dd3c0e0008bec36113bf29374c3f2566cf3f5555503ef8e150,
  0xbe63d6c7be63d6c7bf423f03bf244d01bf244d01bed6d5d03f6000003f5ff76a,
  0xbe8d73a8be8d73a8bf247c63bf1e6320bf1e6320bef7dbf53f6000003f537ad5,
  0xbe211b1ebe8b85a5bf2fa55dbeda9fbebf3d566dbf0532613f5555503f5cf616,
  0xbe8d73a8be8d73a8bda1da7bbf15e9e2bf15e9e2bf0f76603f6000003f104370,
  0xbeacf052beacf052bd1f70dfbf3161e5bf3161e53e4be0df3f6000003f06a034,
  0xbe7e7792be7e7792bd1f70df3ed0f27c3ed0f27c3f510cb33f6000003f08fd3b,
  0xbe0f8e7ebe0f8e7e3c0e0008bf0a29c7bf0a29c73f2566cf3f6000003ef8e150,
  0xbe63d6c7be63d6c7bf423f030000000000000000bf800000be0000003f5ff76a,
  0xbe8b85a5be211b1ebf423f030000000000000000bf800000bdaaaa7e3f5ff76a,
  0xbead3e0cbe480b24bf247c63bf41ff2ebee00000bef7dbf53f6aaab03f537ad5,
  0xbe63d6c7be63d6c7bf2fa55dbf1a92a3bf1a92a3bf0532613f6000003f5cf616,
  0xbead3e0cbe480b24bda1da7bbf379a6bbed404eabf0f76603f6aaab03f104370,
  0xbed3ce42be749279bd1f70dfbf594467befae1483e4be0df3f6aaab03f06a034,
  0xbe9bd406be33ef6bbd1f70df3effe5c93e93c3613f510cb33f6aaab03f08fd3b,
  0xbe2fd1ddbdcb05323c0e0008bf4f4f0ebeef5c293eb581063f6aaab03ef8e150,
  0xbe9b9de5bda6ca04bf423f030000000000000000bf800000bd2aab043f5ff76a,
  0xbec13a0cbdcf1993bf247c63bf585f07be67d567bef7dbf53f7555503f537ad5,
  0xbe8b85a5be211b1ebf2fa55dbf3d566dbeda9fbebf0532613f6aaab03f5cf616,
  0xbec13a0cbdcf1993bda1da7bbf4ccccdbe5b7176bf0f76603f7555503f104370,
  0xbeec3d04bdfd334cbd1f70dfbf725461be81d7dc3e4be0df3f7555503f06a034,
  0xbeadcdd5bdba4830bd1f70df3f0eb8523e18fc503f510cb33f7555503f08fd3b,
  0xbe441a26bd522ea13c0e000800000000000000003f800000bd2aab043ef8e150,
  0xbe2fd1ddbdcb05323c0e000800000000000000003f800000bdaaaa7e3ef8e150,
  0xbea11b1e00000000bf423f03bef318fc3d800000bf60be0e000000003f5ff76a,
  0xbec80b0300000000bf247c63bf5e8a72bdea4a8cbef638863f8000003f537ad5,
  0xbe9b9de5bda6ca04bf2fa55dbf532ca5be624dd3bf0532613f7555503f5cf616,
  0xbec80b0300000000bda1da7bbf52c3cabdde00d2bf0ea4a93f8000003f104370,
  0xbef4927900000000bd1f70dfbf78ce70be03126f3e4a3d713f8000003f06a034,
  0xbeb3ef6b00000000bd1f70df3f1353f83d9b3d083f5075f73f8000003f08fd3b,
  0xbe4b04ee000000003c0e0008befa1cac3d83afb83f5ec56d000000003ef8e150,
  0xbe9b9de53da6ca04bf423f03bf358e223e428f5cbf2dcc643d2aab043f5ff76a,
  0xbec80b0300000000bf247c63bf5e8a723dea4a8cbef63886000000003f537ad5,
  0xbec13a0c3dcf1993bf247c63bf585f073e67d567bef7dbf53d2aab043f537ad5,
  0xbea11b1e00000000bf2fa55dbf593dd93de4c2f8bf045a1d000000003f5cf616,
  0xbec80b0300000000bda1da7bbf52c3ca3dde00d2bf0ea4a9000000003f104370,
  0xbec13a0c3dcf1993bda1da7bbf4ccccd3e5b7176bf0f76603d2aab043f104370,
  0xbef4927900000000bd1f70dfbf78ce703e03126f3e4a3d71000000003f06a034,
  0xbeec3d043dfd334cbd1f70dfbf7254613e81d7dc3e4be0df3d2aab043f06a034,
  0xbeb3ef6b00000000bd1f70df3f1353f8bd9b3d083f5075f7000000003f08fd3b,
  0xbeadcdd53dba4830bd1f70df3f0eb852be18fc503f510cb33d2aab043f08fd3b,
  0xbe441a263d522ea13c0e0008bf3cb9243e4a3d713f2566cf3d2aab043ef8e150,
  0xbe8b85a53e211b1ebf423f03bf22ca583ebbf488bf2dcc643daaaa7e3f5ff76a,
  0xbead3e0c3e480b24bf247c63bf41ff2e3ee00000bef7dbf53daaaa7e3f537ad5,
  0xbe9b9de53da6ca04bf2fa55dbf532ca53e624dd3bf0532613d2aab043f5cf616,
  0xbead3e0c3e480b24bda1da7bbf379a6b3ed404eabf0f76603daaaa7e3f104370,
  0xbed3ce423e749279bd1f70dfbf5944673efae1483e4be0df3daaaa7e3f06a034,
  0xbe9bd4063e33ef6bbd1f70df3effe5c9be93c3613f510cb33daaaa7e3f08fd3b,
  0xbe2fd1dd3dcb05323c0e0008bf29374c3ec361133f2566cf3daaaa7e3ef8e150,
  0xbe63d6c73e63d6c7bf423f03bf04ea4b3f04ea4bbf2dcc643e0000003f5ff76a,
  0xbe8d73a83e8d73a8bf247c63bf1e63203f1e6320bef7dbf53e0000003f537ad5,
  0xbe8b85a53e211b1ebf2fa55dbf3d566d3eda9fbebf0532613daaaa7e3f5cf616,
  0xbe8d73a83e8d73a8bda1da7bbf15e9e23f15e9e2bf0f76603e0000003f104370,
  0xbeacf0523eacf052bd1f70dfbf3161e53f3161e53e4be0df3e0000003f06a034,
  0xbe7e77923e7e7792bd1f70df3ed0f27cbed0f27c3f510cb33e0000003f08fd3b,
  0xbe0f8e7e3e0f8e7e3c0e0008bf0a29c73f0a29c73f2566cf3e0000003ef8e150,
  0xbe211b1e3e8b85a5bf423f03bebbf4883f22ca58bf2dcc643e2aaac13f5ff76a,
  0xbe480b243ead3e0cbf247c63bee000003f41ff2ebef7dbf53e2aaac13f537ad5,
  0xbe63d6c73e63d6c7bf2fa55dbf1a92a33f1a92a3bf0532613e0000003f5cf616,
  0xbe480b243ead3e0cbda1da7bbed404ea3f379a6bbf0f76603e2aaac13f104370,
  0xbe7492793ed3ce42bd1f70dfbefae1483f5944673e4be0df3e2aaac13f06a034,
  0xbe33ef6b3e9bd406bd1f70df3e93c361beffe5c93f510cb33e2aaac13f08fd3b,
  0xbdcb05323e2fd1dd3c0e0008bec361133f29374c3f2566cf3e2aaac13ef8e150,
  0xbda6ca043e9b9de5bf423f03be428f5c3f358e22bf2dcc643e55553f3f5ff76a,
  0xbdcf19933ec13a0cbf247c63be67d5673f585f07bef7dbf53e55553f3f537ad5,
  0xbe211b1e3e8b85a5bf2fa55dbeda9fbe3f3d566dbf0532613e2aaac13f5cf616,
  0xbdcf19933ec13a0cbda1da7bbe5b71763f4ccccdbf0f76603e55553f3f104370,
  0xbdfd334c3eec3d04bd1f70dfbe81d7dc3f7254613e4be0df3e55553f3f06a034,
  0xbdba48303eadcdd5bd1f70df3e18fc50bf0eb8523f510cb33e55553f3f08fd3b,
  0xbd522ea13e441a263c0e0008be4a3d713f3cb9243f2566cf3e55553f3ef8e150,
  0xbda6ca043e9b9de5bf2fa55dbe624dd33f532ca5bf0532613e55553f3f5cf616,
  0xbea11b1e00000000bf423f03bf7dcc64be05a1cb800000003f8000003f5ff76a,
  0xbe9b9de5bda6ca04bf423f03bf774539be84816f800000003f7555503f5ff76a,
  0xbea11b1e00000000bf2fa55dbf593dd9bde4c2f8bf045a1d3f8000003f5cf616,
  0xbe8b85a5be211b1ebf423f03bf5db22dbf000000800000003f6aaab03f5ff76a,
  0x000000003e64c9c9bf071a1a00000000bf2418933f447ae13e8000003f5f5dab,
  0x3d6cdc013e5cfe15bf071a1abe29e1b1bf1e7d563f447ae13e9555613f5f5dab,
  0x3de4c9c93e4622c4bf071a1abea41893bf0e1b093f447ae13eaaaa9f3f5f5dab,
  0x3e21c7153e21c715bf071a1abee809d5bee809d53f447ae13ec000003f5f5dab,
  0x3e4622c43de4c9c9bf071a1abf0e1b09bea418933f447ae13ed555613f5f5dab,
  0x3e5cfe153d6cdc01bf071a1abf1e7d56be29e1b13f447ae13eeaaa9f3f5f5dab,
  0x3e64c9c900000000bf071a1abf241893000000003f447ae13f0000003f5f5dab,
  0x3e5cfe15bd6cdc01bf071a1abf1e7d563e29e1b13f447ae13f0aaab03f5f5dab,
  0x3e4622c4bde4c9c9bf071a1abf0e1b093ea418933f447ae13f1555503f5f5dab,
  0x3e21c715be21c715bf071a1abee809d53ee809d53f447ae13f2000003f5f5dab,
  0x3de4c9c9be4622c4bf071a1abea418933f0e1b093f447ae13f2aaab03f5f5dab,
  0x3d6cdc01be5cfe15bf071a1abe29e1b13f1e7d563f447ae13f3555503f5f5dab,
  0x00000000be64c9c9bf071a1a000000003f2418933f447ae13f4000003f5f5dab,
  0xbd6cdc01be5cfe15bf071a1a3e29e1b13f1e7d563f447ae13f4aaab03f5f5dab,
  0xbde4c9c9be4622c4bf071a1a3ea418933f0e1b093f447ae13f5555503f5f5dab,
  0xbe21c715be21c715bf071a1a3ee809d53ee809d53f447ae13f6000003f5f5dab,
  0xbe4622c4bde4c9c9bf071a1a3f0e1b093ea418933f447ae13f6aaab03f5f5dab,
  0xbe5cfe15bd6cdc01bf071a1a3f1e7d563e29e1b13f447ae13f7555503f5f5dab,
  0xbe64c9c900000000bf071a1a3f2381d83dac3c9f3f43c9ef3f8000003f5f5dab,
  0xbe64c9c900000000bf071a1a3f2381d8bdac3c9f3f43c9ef000000003f5f5dab,
  0xbe5cfe153d6cdc01bf071a1a3f1e7d56be29e1b13f447ae13d2aab043f5f5dab,
  0xbe4622c43de4c9c9bf071a1a3f0e1b09bea418933f447ae13daaaa7e3f5f5dab,
  0xbe21c7153e21c715bf071a1a3ee809d5bee809d53f447ae13e0000003f5f5dab,
  0xbde4c9c93e4622c4bf071a1a3ea41893bf0e1b093f447ae13e2aaac13f5f5dab,
  0xbd6cdc013e5cfe15bf071a1a3e29e1b1bf1e7d563f447ae13e55553f3f5f5dab,
  0x000000003e1a7504bf071a1a000000003f34f7663f35119d3e8000003f695087,
  0x3d1fe75c3e153198bf071a1a3e3b645a3f2ecbfb3f35119d3e9555613f695087,
  0x3d9a74c13e05c359bf071a1a3eb4f0d83f1cb9243f35119d3eaaaa9f3f695087,
  0x3dda6f823dda6f82bf071a1a3efff2e53efff2e53f35119d3ec000003f695087,
  0x3e05c3593d9a74c1bf071a1a3f1cb9243eb4f0d83f35119d3ed555613f695087,
  0x3e1531983d1fe75cbf071a1a3f2ecbfb3e3b645a3f35119d3eeaaa9f3f695087,
  0x3e1a750400000000bf071a1a3f34f766000000003f35119d3f0000003f695087,
  0x3e153198bd1fe75cbf071a1a3f2ecbfbbe3b645a3f35119d3f0aaab03f695087,
  0x3e05c359bd9a74c1bf071a1a3f1cb924beb4f0d83f35119d3f1555503f695087,
  0x3dda6f82bdda6f82bf071a1a3efff2e5befff2e53f35119d3f2000003f695087,
  0x3d9a74c1be05c359bf071a1a3eb4f0d8bf1cb9243f35119d3f2aaab03f695087,
  0x3d1fe75cbe153198bf071a1a3e3b645abf2ecbfb3f35119d3f3555503f695087,
  0x00000000be1a7504bf071a1a00000000bf34f7663f35119d3f4000003f695087,
  0xbd1fe75cbe153198bf071a1abe3b645abf2ecbfb3f35119d3f4aaab03f695087,
  0xbd9a74c1be05c359bf071a1abeb4f0d8bf1cb9243f35119d3f5555503f695087,
  0xbdda6f82bdda6f82bf071a1abefff2e5befff2e53f35119d3f6000003f695087,
  0xbe05c359bd9a74c1bf071a1abf1cb924beb4f0d83f35119d3f6aaab03f695087,
  0xbe153198bd1fe75cbf071a1abf2ecbfbbe3b645a3f35119d3f7555503f695087,
  0xbe1a750400000000bf071a1abf3432cabdbdd97f3f3446743f8000003f695087,
  0xbe1a750400000000bf071a1abf3432ca3dbdd97f3f344674000000003f695087,
  0xbe1531983d1fe75cbf071a1abf2ecbfb3e3b645a3f35119d3d2aab043f695087,
  0xbe05c3593d9a74c1bf071a1abf1cb9243eb4f0d83f35119d3daaaa7e3f695087,
  0xbdda6f823dda6f82bf071a1abefff2e53efff2e53f35119d3e0000003f695087,
  0xbd9a74c13e05c359bf071a1abeb4f0d83f1cb9243f35119d3e2aaac13f695087,
  0xbd1fe75c3e153198bf071a1abe3b645a3f2ecbfb3f35119d3e55553f3f695087,
  0xbe441a26bd522ea13c0e0008bf7652bdbe83fe5dbdb46dc63f7555503ef8e150,
  0xbe4b04ee000000003c0e0008bf7cd9e8be051eb8bdb2ca583f8000003ef8e150,
  0x000000003e0f13cfbecc47a10000000000000000bf8000003e8000003f648cf8,
  0x000000003e1c5932becc47a10000000000000000bf8000003e8000003f62379b,
  0x3c37e4de3e15b680becc47a10000000000000000bf8000003e863e4b3f634cf5,
  0x000000003e299e95becc47a1000000003f4adababf1c28f63e8000003f5fef17,
  0x3cb7e2c53e1c5932becc47a13f2faace3ecadababf1c28f63e8be5113f61ece5,
  0x000000003e299e953d0d844d000000003f7cf41f3e1d49523e8000003ede7cd0,
  0x3cb7e2c53e1c59323d0d844d3f578d503f0816f03dbbcd363e8be5113edc1b11,
  0x000000003e02b1f73e174f2f000000003f7c432d3e2e2eb23e8000003e68372e,
  0x3cb7e2c53dead9273e174f2f3f6318fc3ee978d53d9134053e8fc0903e5a172b,
  0x000000003e02b1f73e859ea5000000003f7c432dbe2e2eb23e8000003e144242,
  0x3cb7e2c53dead9273e859ea53f6318fc3ee978d5bd9134053e8fc0903e0936c6,
  0x000000003e299e953ebf95d5000000003f71de6abea7c84b3e8000003e07d673,
  0x3cb7e2c53e1c59323ebf95d53f5c779a3ef5f6fdbe29930c3e8be5113dff0132,
  0x000000003e81e16d3f1f1d1d000000003f7c9eedbe2594af3e8000003dfc9cd4,
  0x3cb7e2c53e767d783f1f1d1d3f572b023f086c22bdc7ae143e8793bc3df1d3ed,
  0x000000003e81e16d3f3c18a4000000003f4adaba3f1c28f63e8000003dd8b71c,
  0x3cb7e2c53e767d783f3c18a43f2faace3ecadaba3f1c28f63e8793bc3dcf3908,
  0x000000003e767d783f3c18a400000000000000003f8000003e8000003dce6320,
  0x3c37e4de3e6fdac73f3c18a400000000000000003f8000003e83e6c53dc9656f,
  0x000000003e6938153f3c18a400000000000000003f8000003e8000003dc3f2d4,
  0x3c37e4de3e08711dbecc47a10000000000000000bf8000003e86d9173f65a61e,
  0x3cb7e2c53e01ce6cbecc47a13f2faacebecadababf1c28f63e8e481f3f669110,
  0x3cb7e2c53e01ce6c3d0d844d3f6318fcbee978d5bd9134053e8e481f3ed544bb,
  0x3cb7e2c53db5c39c3e174f2f3f578d50bf0816f0bdbbcd363e942fc73e34cb5c,
  0x3cb7e2c53db5c39c3e859ea53f578d50bf0816f03dbbcd363e942fc73ddbeec4,
  0x3cb7e2c53e01ce6c3ebf95d53f5bcd36bef7f62b3e2c08313e8e481f3dd802c1,
  0x3cb7e2c53e5bf2b23f1f1d1d3f636113bee8240b3d982a993e887c423dda0169,
  0x3cb7e2c53e5bf2b23f3c18a43f2faacebecadaba3f1c28f63e887c423dba5ca3,
  0x3c37e4de3e6295643f3c18a400000000000000003f8000003e84213a3dbeebb3,
  0x000000003e01ce6cbecc47a10000000000000000bf8000003e8000003f66ee95,
  0x000000003de91212becc47a100000000bf4adababf1c28f63e8000003f695bbc,
  0x000000003de912123d0d844d00000000bf7c432dbe2e2eb23e8000003ecff6b2,
  0x000000003d9b38d63e174f2f00000000bf7cf41fbe1d49523e8000003e1a7a85,
  0x000000003d9b38d63e859ea500000000bf7cf41f3e1d49523e8000003db8409e,
  0x000000003de912123ebf95d500000000bf7205bc3ea6dc5d3e8000003dc07896,
  0x000000003e4ead4f3f1f1d1d00000000bf7bcd363e3851ec3e8000003dccb07d,
  0x000000003e4ead4f3f3c18a400000000bf4adaba3f1c28f63e8000003daec398,
  0x000000003e5bf2b23f3c18a400000000000000003f8000003e8000003db967cb,
  0xbc37e4de3e08711dbecc47a10000000000000000bf8000003e724dd33f65a61e,
  0xbcb7e2c53e01ce6cbecc47a1bf2faacebecadababf1c28f63e636fc13f669110,
  0xbcb7e2c53e01ce6c3d0d844dbf6318fcbee978d5bd9134053e636fc13ed544bb,
  0xbcb7e2c53db5c39c3e174f2fbf578d50bf0816f0bdbbcd363e57a0733e34cb5c,
  0xbcb7e2c53db5c39c3e859ea5bf578d50bf0816f03dbbcd363e57a0733ddbeec4,
  0xbcb7e2c53e01ce6c3ebf95d5bf5bcd36bef7f62b3e2c08313e636fc13dd802c1,
  0xbcb7e2c53e5bf2b23f1f1d1dbf636113bee8240b3d982a993e6f077d3dda0169,
  0xbcb7e2c53e5bf2b23f3c18a4bf2faacebecadaba3f1c28f63e6f077d3dba5ca3,
  0xbc37e4de3e6295643f3c18a400000000000000003f8000003e77bd8c3dbeebb3,
  0xbc37e4de3e15b680becc47a10000000000000000bf8000003e73836b3f634cf5,
  0xbcb7e2c53e1c5932becc47a1bf2faace3ecadababf1c28f63e6835df3f61ece5,
  0xbcb7e2c53e1c59323d0d844dbf578d503f0816f03dbbcd363e6835df3edc1b11,
  0xbcb7e2c53dead9273e174f2fbf6318fc3ee978d53d9134053e607ee13e5a172b,
  0xbcb7e2c53dead9273e859ea5bf6318fc3ee978d5bd9134053e607ee13e0936c6,
  0xbcb7e2c53e1c59323ebf95d5bf5c779a3ef5f6fdbe29930c3e6835df3dff0132,
  0xbcb7e2c53e767d783f1f1d1dbf572b023f086c22bdc7ae143e70d8883df1d3ed,
  0xbcb7e2c53e767d783f3c18a4bf2faace3ecadaba3f1c28f63e70d8883dcf3908,
  0xbc37e4de3e6fdac73f3c18a400000000000000003f8000003e7832763dc9656f,
  0x00000000be0f13cfbecc47a10000000000000000bf8000003f4000003f648cf8,
  0x00000000be1c5932becc47a10000000000000000bf8000003f4000003f62379b,
  0xbc37e4debe15b680becc47a10000000000000000bf8000003f431f253f634cf5,
  0x00000000be299e95becc47a100000000bf4adababf1c28f63f4000003f5fef17,
  0xbcb7e2c5be1c5932becc47a1bf2faacebecadababf1c28f63f45f2883f61ece5,
  0x00000000be299e953d0d844d00000000bf7cf41f3e1d49523f4000003ede7cd0,
  0xbcb7e2c5be1c59323d0d844dbf578d50bf0816f03dbbcd363f45f2883edc1b11,
  0x00000000be02b1f73e174f2f00000000bf7c432d3e2e2eb23f4000003e68372e,
  0xbcb7e2c5bdead9273e174f2fbf6318fcbee978d53d9134053f47e0483e5a172b,
  0x00000000be02b1f73e859ea500000000bf7c432dbe2e2eb23f4000003e144242,
  0xbcb7e2c5bdead9273e859ea5bf6318fcbee978d5bd9134053f47e0483e0936c6,
  0x00000000be299e953ebf95d500000000bf71de6abea7c84b3f4000003e07d673,
  0xbcb7e2c5be1c59323ebf95d5bf5c779abef5f6fdbe29930c3f45f2883dff0132,
  0x00000000be81e16d3f1f1d1d00000000bf7c9eedbe2594af3f4000003dfc9cd4,
  0xbcb7e2c5be767d783f1f1d1dbf572b02bf086c22bdc7ae143f43c9de3df1d3ed,
  0x00000000be81e16d3f3c18a400000000bf4adaba3f1c28f63f4000003dd8b71c,
  0xbcb7e2c5be767d783f3c18a4bf2faacebecadaba3f1c28f63f43c9de3dcf3908,
  0x00000000be767d783f3c18a400000000000000003f8000003f4000003dce6320,
  0xbc37e4debe6fdac73f3c18a400000000000000003f8000003f41f3623dc9656f,
  0x00000000be6938153f3c18a400000000000000003f8000003f4000003dc3f2d4,
  0xbc37e4debe08711dbecc47a10000000000000000bf8000003f436c8b3f65a61e,
  0xbcb7e2c5be01ce6cbecc47a1bf2faace3ecadababf1c28f63f4724103f669110,
  0xbcb7e2c5be01ce6c3d0d844dbf6318fc3ee978d5bd9134053f4724103ed544bb,
  0xbcb7e2c5bdb5c39c3e174f2fbf578d503f0816f0bdbbcd363f4a17e33e34cb5c,
  0xbcb7e2c5bdb5c39c3e859ea5bf578d503f0816f03dbbcd363f4a17e33ddbeec4,
  0xbcb7e2c5be01ce6c3ebf95d5bf5bcd363ef7f62b3e2c08313f4724103dd802c1,
  0xbcb7e2c5be5bf2b23f1f1d1dbf6361133ee8240b3d982a993f443e213dda0169,
  0xbcb7e2c5be5bf2b23f3c18a4bf2faace3ecadaba3f1c28f63f443e213dba5ca3,
  0xbc37e4debe6295643f3c18a400000000000000003f8000003f42109d3dbeebb3,
  0x00000000be01ce6cbecc47a10000000000000000bf8000003f4000003f66ee95,
  0x00000000bde91212becc47a1000000003f4adababf1c28f63f4000003f695bbc,
  0x00000000bde912123d0d844d000000003f7c432dbe2e2eb23f4000003ecff6b2,
  0x00000000bd9b38d63e174f2f000000003f7cf41fbe1d49523f4000003e1a7a85,
  0x00000000bd9b38d63e859ea5000000003f7cf41f3e1d49523f4000003db8409e,
  0x00000000bde912123ebf95d5000000003f7205bc3ea6dc5d3f4000003dc07896,
  0x00000000be4ead4f3f1f1d1d000000003f7bcd363e3851ec3f4000003dccb07d,
  0x00000000be4ead4f3f3c18a4000000003f4adaba3f1c28f63f4000003daec398,
  0x00000000be5bf2b23f3c18a400000000000000003f8000003f4000003db967cb,
  0x3c37e4debe08711dbecc47a10000000000000000bf8000003f3c93753f65a61e,
  0x3cb7e2c5be01ce6cbecc47a13f2faace3ecadababf1c28f63f38dbf03f669110,
  0x3cb7e2c5be01ce6c3d0d844d3f6318fc3ee978d5bd9134053f38dbf03ed544bb,
  0x3cb7e2c5bdb5c39c3e174f2f3f578d503f0816f0bdbbcd363f35e81d3e34cb5c,
  0x3cb7e2c5bdb5c39c3e859ea53f578d503f0816f03dbbcd363f35e81d3ddbeec4,
  0x3cb7e2c5be01ce6c3ebf95d53f5bcd363ef7f62b3e2c08313f38dbf03dd802c1,
  0x3cb7e2c5be5bf2b23f1f1d1d3f6361133ee8240b3d982a993f3bc1df3dda0169,
  0x3cb7e2c5be5bf2b23f3c18a43f2faace3ecadaba3f1c28f63f3bc1df3dba5ca3,
  0x3c37e4debe6295643f3c18a400000000000000003f8000003f3def633dbeebb3,
  0x3c37e4debe15b680becc47a10000000000000000bf8000003f3ce0db3f634cf5,
  0x3cb7e2c5be1c5932becc47a13f2faacebecadababf1c28f63f3a0d783f61ece5,
  0x3cb7e2c5be1c59323d0d844d3f578d50bf0816f03dbbcd363f3a0d783edc1b11,
  0x3cb7e2c5bdead9273e174f2f3f6318fcbee978d53d9134053f381fb83e5a172b,
  0x3cb7e2c5bdead9273e859ea53f6318fcbee978d5bd9134053f381fb83e0936c6,
  0x3cb7e2c5be1c59323ebf95d53f5c779abef5f6fdbe29930c3f3a0d783dff0132,
  0x3cb7e2c5be767d783f1f1d1d3f572b02bf086c22bdc7ae143f3c36223df1d3ed,
  0x3cb7e2c5be767d783f3c18a43f2faacebecadaba3f1c28f63f3c36223dcf3908,
  0x3c37e4debe6fdac73f3c18a400000000000000003f8000003f3e0c9e3dc9656f,
  0x000000003e7a8bd23f33b310000000003f7f00693db404ea3e8000003ddaa476,
  0x000000003e798d473f3683d3000000003f21de6a3f4652bd3e8000003dd6b7ed,
  0x3bffd1dd3e79d7ba3f35b0ab3f098c7e3f2154ca3f0f76603e829b4a3dd7f5a5,
  0x000000003d94d61b3f42173c00000000bf1e7d563f49096c3e8000003cf93144,
  0x3cf000433d9704ff3f3eff093f177319bf18fc503f0a8c153e9ed1183d0a2446,
  0x000000003da2ecaf3f423f03000000003f0f41f23f542c3d3e8000003d083233,
  0x000000003d8b7f5a3f3b34e700000000bf415b573f27c84b3e8000003cf22e1b,
  0x3c2e4f333d8c4ac73f3a15333f022d0ebf3c9eed3ee418933e8c8e263cf7f067,
  0x000000003d7ad29a3f3b0d20000000003f20ff973f470a3d3e8000003cda07b3,
  0x3c2e4f333d7c68663f39ed6c3f02339c3f25bc023f114e3c3e8dee353cdff823,
  0x000000003d5525cc3f419ff5000000003ef1b7173f61b08a3e8000003cb32053,
  0x3cf000433d5983943f3e87c23f1773193efcb9243f232ca53ea914b13cd4067d,
  0x000000003d38f8a53f41782d00000000bf1e7d563f49096c3e8000003c9ba1b2,
  0x3cf000433d3d57793f3e5ffa3f177319bf18fc503f0a8c153eae08073cbf8db5,
  0x000000003d264c303f3a95c800000000bf415b573f27c84b3e8000003c911ada,
  0x3c2e4f333d27e1fc3f3976253f022d0ebf3c9eed3ee418933e94b1cd3c983d79,
  0x000000003d0a1f083f3a6e01000000003f20f9093f470a3d3e8000003c7151e7,
  0x3c2e4f333d0bb4d53f394e5d3f02339c3f25bc023f114e3c3e98a32f3c809b30,
  0x000000003cc8e4753f4100e7000000003ef1a9fc3f61b08a3e8000003c29930c,
  0x3cf000433cd1a21f3f3de8a33f1773193efcb9243f232ca53ec57eed3c889c1b,
  0x000000003c908c3f3f40d91f00000000bf1e7d563f49096c3e8000003bf440af,
  0x3cf000433c9947d03f3dc0db3f177319bf18fc503f0a8c153ed1af5c3c74666f,
  0x000000003c5662783f39f6ba00000000bf415b573f27c84b3e8000003bbbdbe4,
  0x3c2e4f333c5cb9aa3f38d7063f02339cbf3c9eed3ee418933eb677923bf7ec35,
  0x000000003bcb5bb43f39cef2000000003f20ff973f470a3d3e8000003b326395,
  0x3c2e4f333bd8127b3f38af3e3f02339c3f25bc023f114e3c3ed2c9d13bb4f1e5,
  0x00000000bb4404a73f4061c83d1581063e816f003f7780343f4000003aa61177,
  0x3cf00043bafc50483f3d49953f1773193efcb9243f232ca53f02ac543c4efaa4,
  0x00000000bc21b5c83f403a0000000000bf1e7d563f49096c3f4000003b8919f0,
  0x3cf00043bc103ea73f3d21cd3f177319bf18fc503f0a8c153f0be4bd3c57d391,
  0x00000000bc6c6bcf3f39579b00000000bf4154ca3f27c84b3f4000003bcfd8f1,
  0x3c2e4f33bc66106b3f3837f83f022d0ebf3c9eed3ee418933f2595793bff4ba5,
  0x00000000bcae8e1d3f392fe4000000003f20ff973f470a3d3f4000003c199568,
  0x3c2e4f33bcab62843f3810303f02339c3f25bc023f114e3c3f2cd5303c2a2e3c,
  0x00000000bcf9e7b83f3fc2b9000000003ef1b7173f61b08a3f4000003c544567,
  0x3cf00043bcf12c283f3caa763f1773193efcb9243f232ca53f20194c3c92ccf7,
  0x00000000bd1921043f3f9af200000000bf1e7d563f49096c3f4000003c82235b,
  0x3cf00043bd14c22f3f3c82ae3f177319bf18fc503f0a8c153f2457e23ca50508,
  0x00000000bd2bcd793f38b88d00000000bf415b573f27c84b3f4000003c976790,
  0x3c2e4f33bd2a37ac3f3798d93f02339cbf3c985f3ee418933f35c9f73c9bc98a,
  0x00000000bd47faa03f3890c5000000003f20f9093f470a3d3f4000003cb05101,
  0x3c2e4f33bd4664d43f3771223f022d0e3f25bc023f114e3c3f3730d73cb42cc3,
  0x00000000bd6da76e3f3f239a000000003ef1a9fc3f61b08a3f4000003cca3a4b,
  0x3cf00043bd6948993f3c0b673f1773193efcb9243f232ca53f2ca4903ce2c98e,
  0x00000000bd84e9c43f3efbd200000000bf1e7d563f49096c3f4000003ce2456f,
  0x3cf00043bd82bae03f3be39f3f177319bf18fc503f0a8c153f2e77f73cf8c650,
  0x00000000bd8e40853f38197e00000000bf415b573f27c84b3f4000003cfb139d,
  0x3c2e4f33bd8d759f3f36f9ca3f02339cbf3c9eed3ee418933f39c6093cfe2824,
  0x00000000bd9c57193f37f1b7000000003f20ff973f470a3d3f4000003d09ff93,
  0x3c2e4f33bd9b8bac3f36d2033f02339c3f25bc023f114e3c3f3a54713d0b7b29,
  0x00000000bdaf2cf93f3e848c000000003ef1a9fc3f61b08a3f4000003d153261,
  0x3cf00043bdacfe153f3b6c593f1773193efcb9243f2333333f3265bf3d1e6eeb,
  0x00000000be746dc63f35743f00000000bf7f0069bdb404ea3f4000003dd3c255,
  0x3c058bc6be7529783f3788553f0e6320bf2487fd3f06d5d03f3e9d0f3dd2391d,
  0x00000000be7577533f3864cb00000000bf263f143f42a9933f4000003dd16fca,
  0x3c34e54f3e7a8bd23f33b3103f473eab3f20aa653ca71de73e83acb43ddad96a,
  0x3d29b49a3d9c4b0a3f37866e3f5631f9bf0bac71bd4504813ea887ca3d1d29dc,
  0x3cf000433da51b933f3f26d03f0c8b443f145a1d3f1a30553e9c675a3d151f82,
  0x3c767f4e3d8e34763f375eb73f381d7ebf312d77bd79db233e9163353d00e6b0,
  0x3c767f4e3d801e693f3736f03f381d7e3f312d773d7a43fe3e933b973ce9ccb8,
  0x3d29b49a3d640faa3f370f283f562b6b3f0bac713d4504813eb4213a3cfc4c16,
  0x3d29b49a3d47e2823f36e7603f562b6bbf0bac71bd4504813eb95c643ce9057d,
  0x3c767f4e3d2bb6673f36bf983f381d7ebf312d77bd79db233e9c13fd3ca27d03,
  0x3c767f4e3d0f89403f3697d03f381d7e3f312d773d79db233ea10bc83c8b49e0,
  0x3d29b49a3ce6b8303f3670093f5631f93f0bac713d4504813ecf59ab3cb70260,
  0x3d29b49a3cae5ffa3f3648523f5631f9bf0bac71bd4504813ed953bd3caa582e,
  0x3c767f4e3c6c0b563f36208a3f381d7ebf312d77bd79db233ec1c3f03c18aa86,
  0x3c767f4e3bf6ad713f35f8c23f381d7e3f312d773d79db233eda31833bf6ceff,
  0x3d29b49a3a2a64c33f35d0fa3f562b6b3f0bac713d4504813efeb8d83c97f844,
  0x3d29b49abbcc1ca43f35a9333f5631f9bf0bac71bd4504813f06146a3c99c7bd,
  0x3c767f4ebc56c2f03f35816b3f381d7ebf3126e9bd79db233f1d333c3c12bc30,
  0x3c767f4ebca3b9ae3f3559b43f381d7e3f3126e93d7a43fe3f25b5853c381733,
  0x3d29b49abcdc13fd3f3531ec3f5631f93f0bac713d4504813f1770153cb59ff5,
  0x3d29b49abd0a37263f350a243f562b6bbf0bac71bd4504813f1bd8e03cc4a83b,
  0x3c767f4ebd2663413f34e25d3f381d7ebf312d77bd79db233f318c4c3c9fab97,
  0x3c767f4ebd4290693f34ba953f381d7e3f312d773d79db233f3380993cb7bd06,
  0x3d29b49abd5ebd903f3492cd3f5631f93f0bac713d4504813f2578f73cfbf1e9,
  0x3d29b49abd7ae9ab3f346b053f5631f9bf0bac71bd4504813f27c5483d08509c,
  0x3c767f4ebd8b8b693f34433d3f381d7ebf3126e9bd7a43fe3f37253e3d00c73b,
  0x3c767f4ebd99a1fd3f341b863f381d7e3f312d773d79db233f37ef7c3d0d3ae7,
  0x3d29b49abda7b80b3f33f3bf3f562b6b3f0bac713d4504813f2ceaaf3d294574,
  0x3c3cdbbebe746dc63f35743f3f46fd22bf20d845bcf837b53f3e08af3dd3fd0d,
  0x3bffd1dd3e7b3fa73f31b5633f0f0d843f20ff97bf0a5e353e82977d3ddd95dd,
  0x3cf000433da191153f300de53f177319befcb924bf232ca53e9cf9c23d1ec0b5,
  0x3d29b49a3daa619e3f37ae363f46c2273f20b7803d62eb1c3ea5a7093d27f2c3,
  0x3c2e4f333d901eac3f34a82a3f022d0ebf25bc02bf1154ca3e8c3a003d030c24,
  0x3c2e4f333d82089e3f3480633f022d0e3f3c9eedbee418933e8d872f3ced6dc2,
  0x3cf000433d6e9bbf3f2f968d3f1773193f18fc50bf0a8c153ea5f8b13cf72713,
  0x3cf000433d526e983f2f6ec63f177319befcb924bf232ca53eaa3b583ce07c42,
  0x3c2e4f333d2f8ad23f34091c3f02339cbf25bc02bf114e3c3e93d3c33ca38327,
  0x3c2e4f333d135dab3f33e1543f02339c3f3c9eedbee418933e976d983c8b19a4,
  0x3cf000433cfbd05b3f2ef77f3f1773193f18fc50bf0a8c153ebe0b0b3ca1ccd9,
  0x3cf000433cc3760c3f2ecfb73f177319befcb924bf232ca53ec84e1e3c902364,
  0x3c2e4f333c7b5d033f3369fd3f02339cbf25bc02bf114e3c3eb167ec3c0ae74f,
  0x3c2e4f333c0aa8653f3342353f02339c3f3c9eedbee418933ec93d533bca7935,
  0x3cf000433b5349bf3f2e58603f1773193f18fc50bf0a8c153ef711303c618efc,
  0x3cf00043bb6f77f23f2e30a93f177319befcb924bf232ca53f050e453c6225fa,
  0x3c2e4f33bc4771433f32caef3f02339cbf25bc02bf1154ca3f22bc623bf166e0,
  0x3c2e4f33bc9c10d83f32a3273f02339c3f3c9eedbee418933f2b3ffb3c230553,
  0x3cf00043bcc6fbd23f2db9523f1773193f18fc50bf0a8c153f1c344c3c92146a,
  0x3cf00043bcff56213f2d918a3f177319befcb924bf232ca53f2142c43ca44c7b,
  0x3c2e4f33bd228ed63f322be03f02339cbf25bc02bf114e3c3f3554433c99c38b,
  0x3c2e4f33bd3ebbfd3f3204193f02339c3f3c9eedbee418933f36d9383cb2d6ed,
  0x3cf00043bd54317b3f2d1a333f1773193f18fc50bf0a8c153f2b079e3ce4ecea,
  0x3cf00043bd705ea23f2cf27c3f177319befcb924bf232ca53f2d22533cfc610f,
  0x3c2e4f33bd89a1343f318cc13f02339cbf25bc02bf114e3c3f399a633cfefe0d,
  0x3c2e4f33bd97b7c83f3164f93f02339c3f3c9eedbee418933f3a30443d0c4589,
  0x3cf00043bda272863f2c7b243f1773193f18fc50bf0a8c153f31959a3d22c775,
  0x3c058bc6be73b1d13f3360283f0a786cbf1dc5d6bf1288ce3f3e9ae53dd58fb4,
  0x000000003e7b8a1a3f30e24c000000003f21758ebf46a7f03e8000003ddeacc9,
  0x000000003da3bff93f2cf5a100000000bef1b717bf61b08a3e8000003d199568,
  0x3cf000433dafa7223f3035ad3f0c8b443f2d0e56befb98c83e9ad2783d2ab25b,
  0x000000003d90ea183f33888700000000bf20ff97bf470a3d3e8000003d031ad2,
  0x000000003d82d3843f3360bf000000003f415b57bf27c84b3e8000003ced117b,
  0x000000003d72f9873f2c7e5a000000003f1e7d56bf49096c3e8000003ce4f97f,
  0x000000003d56cd6c3f2c569300000000bef1a9fcbf61b08a3e8000003ccab820,
  0x000000003d31209f3f32e96800000000bf20ff97bf470a3d3e8000003ca12514,
  0x000000003d14f3773f32c1a0000000003f415b57bf27c84b3e8000003c87ad08,
  0x000000003d0247023f2bdf3b000000003f1e7d56bf49096c3e8000003c76dfc6,
  0x000000003ccc33b53f2bb78400000000bef1b717bf61a9fc3e8000003c41b973,
  0x000000003c80da1b3f324a5a00000000bf20f909bf470a3d3e8000003beb8950,
  0x000000003c1103c93f322292000000003f415b57bf27c84b3e8000003b84a516,
  0x000000003b8c9b843f2b402d000000003f1e7d56bf49096c3e8000003b05d313,
  0x00000000bb299b6f3f2b18653e446738bf2bcd36bf3752543f4000003aa17b0f,
  0x00000000bc4115df3f31ab3b00000000bf20ff97bf470a3d3f4000003bb11c6d,
  0x00000000bc98e53f3f318373000000003f415b57bf27c84b3f4000003c0c5868,
  0x00000000bcbe40423f2aa11f000000003f1e7d56bf49096c3f4000003c35a20e,
  0x00000000bcf698783f2a795700000000bef1a9fcbf61b08a3f4000003c6b95e6,
  0x00000000bd20f9093f310c2c00000000bf20ff97bf470a3d3f4000003c940571,
  0x00000000bd3d26313f30e465000000003f415b57bf27c84b3f4000003cae019b,
  0x00000000bd4fd2a63f2a0200000000003f1e7d56bf49096c3f4000003cc6d82c,
  0x00000000bd6bffce3f29da3800000000bef1a9fcbf61b08a3f4000003ce2456f,
  0x00000000bd88d64d3f306d0d00000000bf20ff97bf470a3d3f4000003cfc04c9,
  0x00000000bd96ec5b3f304556000000003f4154cabf27c84b3f4000003d0b0293,
  0x00000000bda0431c3f2962f1000000003f1e7d56bf4902de3f4000003d197b31,
  0x00000000be7364393f3283b200000000bf1cac08bf4a71de3f4000003dd62739,
  0xbbffd1dd3e7b3fa73f31b563bf0f14123f20ff97bf0a5e353e7ad1073ddd95dd,
  0xbcf000433da191153f300de5bf177319befcb924bf232ca53e460c7c3d1ec0b5,
  0x000000003db1d68c3f2d1d69000000003f322d0ebf37ced93e8000003d2682b6,
  0xbc2e4f333d901eac3f34a82abf02339cbf25bc02bf114e3c3e678c003d030c24,
  0xbc2e4f333d82089e3f348063bf022d0e3f3c9eedbee418933e64f1a23ced6dc2,
  0xbcf000433d6e9bbf3f2f968dbf1773193f18fc50bf0a8c153e340e9d3cf72713,
  0xbcf000433d526e983f2f6ec6bf177319befcb924bf232ca53e2b89503ce07c42,
  0xbc2e4f333d2f8ad23f34091cbf02339cbf25bc02bf114e3c3e5858793ca38327,
  0xbc2e4f333d135dab3f33e154bf02339c3f3c9eedbee418933e5124d13c8b19a4,
  0xbcf000433cfbd05b3f2ef77fbf1773193f18fc50bf0a8c153e03e9ea3ca1ccd9,
  0xbcf000433cc3760c3f2ecfb7bf177319befcb924bf232ca53ddec7863c902364,
  0xbc2e4f333c7b5d033f3369fdbf022d0ebf25bc02bf114e3c3e1d30273c0ae74f,
  0xbc2e4f333c0aa8653f334235bf02339c3f3c9eedbee418933ddb0ab33bca7935,
  0xbcf000433b5349bf3f2e5860bea779a73f47fcb9bf08240b3c8eed033c618efc,
  0x00000000bb299b6f3f2b1865bec3f1413da64c30bf6b98c8be8000003aa17b0f,
  0xbcf00043bb6f77f23f2e30a9bec3f1413da617c2bf6b98c8bca1c8a83c6225fa,
  0xbc2e4f33bc4771433f32caefbf02339cbf25bc02bf114e3c3f5d439e3bf166e0,
  0xbc2e4f33bc9c10d83f32a327bf02339c3f3c9eedbee418933f54c0053c230553,
  0xbcf00043bcc6fbd23f2db952bf1773193f18fc50bf0a8c153f63cbb43c92146a,
  0xbcf00043bcff56213f2d918abf177319befcb924bf232ca53f5ebd3c3ca44c7b,
  0xbc2e4f33bd228ed63f322be0bf02339cbf25bc02bf114e3c3f4aabbd3c99c38b,
  0xbc2e4f33bd3ebbfd3f320419bf02339c3f3c9eedbee418933f4926c83cb2d6ed,
  0xbcf00043bd54317b3f2d1a33bf1773193f18fc50bf0a8c153f54f8623ce4ecea,
  0xbcf00043bd705ea23f2cf27cbf177319befcb924bf232ca53f52ddad3cfc610f,
  0xbc2e4f33bd89a1343f318cc1bf02339cbf25bc02bf114e3c3f46659d3cfefe0d,
  0xbc2e4f33bd97b7c83f3164f9bf02339c3f3c9eedbee418933f45cfbc3d0c4589,
  0xbcf00043bda272863f2c7b24bf1773193f18fc50bf0a8c153f4e6a663d22c775,
  0xbc058bc6be73b1d13f336028bf0a786cbf1dc5d6bf1282413f41651b3dd58fb4,
  0xbc34e54f3e7a8bd23f33b310bf473eab3f20aa653ca71de73e78a6983ddad96a,
  0xbd29b49a3d9c4b0a3f37866ebf562b6bbf0bac71bd4504813e2ef06b3d1d29dc,
  0xbcf000433dafa7223f3035adbf0c8b443f2d0e56befb98c83e4a5b103d2ab25b,
  0xbc767f4e3d8e34763f375eb7bf381d7ebf3126e9bd79db233e5d39973d00e6b0,
  0xbc767f4e3d801e693f3736f0bf381d7e3f312d773d7a43fe3e5988d33ce9ccb8,
  0xbd29b49a3d640faa3f370f28bf562b6b3f0bac713d4504813e17bd8c3cfc4c16,
  0xbd29b49a3d47e2823f36e760bf562b6bbf0bac71bd4504813e0d47393ce9057d,
  0xbc767f4e3d2bb6673f36bf98bf381d7ebf312d77bd7a43fe3e47d8063ca27d03,
  0xbc767f4e3d0f89403f3697d0bf381d7e3f312d773d79db233e3de8713c8b49e0,
  0xbd29b49a3ce6b8303f367009bf5631f93f0bac713d4504813dc299523cb70260,
  0xbd29b49a3cae5ffa3f364852bf5631f9bf0bac71bd4504813d9ab10c3caa582e,
  0xbc767f4e3c6c0b563f36208abf381d7ebf312d77bd79db233df8f0413c18aa86,
  0xbc767f4e3bf6ad713f35f8c2bf381d7e3f312d773d79db233d9739f33bf6ceff,
  0xbd29b49a3a2a64c33f35d0fabe81a36e3f76b50b3dae147b3b2393ee3c97f844,
  0xbcf00043bb6f77f23f2e30a9bf192a30bf332ca5bec7bb303f7af1bb3c6225fa,
  0xbd29b49abbcc1ca43f35a933bf562b6bbf0bac71bd4504813f79eb963c99c7bd,
  0xbcf000433b5349bf3f2e5860bf6c84b63d09a027bec32ca53f823bb43c618efc,
  0xbc767f4ebc56c2f03f35816bbf381d7ebf3126e9bd79db233f62ccc43c12bc30,
  0xbc767f4ebca3b9ae3f3559b4bf381d7e3f312d773d7a43fe3f5a4a7b3c381733,
  0xbd29b49abcdc13fd3f3531ecbf5631f93f0bac713d4504813f688feb3cb59ff5,
  0xbd29b49abd0a37263f350a24bf562b6bbf0bac71bd4504813f6427203cc4a83b,
  0xbc767f4ebd2663413f34e25dbf381d7ebf312d77bd7a43fe3f4e73b43c9fab97,
  0xbc767f4ebd4290693f34ba95bf381d7e3f312d773d79db233f4c7f673cb7bd06,
  0xbd29b49abd5ebd903f3492cdbf5631f93f0bac713d4504813f5a87093cfbf1e9,
  0xbd29b49abd7ae9ab3f346b05bf5631f9bf0bac71bd4504813f583ab83d08509c,
  0xbc767f4ebd8b8b693f34433dbf381d7ebf312d77bd7a43fe3f48dac23d00c73b,
  0xbc767f4ebd99a1fd3f341b86bf381d7e3f312d773d7a43fe3f4810843d0d3ae7,
  0xbd29b49abda7b80b3f33f3bfbf562b6b3f0bac713d4504813f5315513d294574,
  0xbc3cdbbebe746dc63f35743fbf46fd22bf20d845bcf837b53f41f7513dd3fd0d,
  0xbbffd1dd3e79d7ba3f35b0abbf098c7e3f2154ca3f0f76603e7ac96d3dd7f5a5,
  0xbcf000433d9704ff3f3eff09bf177319bf18fc503f0a8c153e425dd13d0a2446,
  0xbd29b49a3daa619e3f37ae36bf46c2273f20b7803d62eb1c3e34b1ee3d27f2c3,
  0xbc2e4f333d8c4ac73f3a1533bf02339cbf3c9eed3ee418933e66e3b43cf7f067,
  0xbc2e4f333d7c68663f39ed6cbf02339c3f25bc023f114e3c3e6423963cdff823,
  0xbcf000433d5983943f3e87c2bf1773193efcb9243f232ca53e2dd69d3cd4067d,
  0xbcf000433d3d57793f3e5ffabf177319bf18fc503f0a8c153e23eff23cbf8db5,
  0xbc2e4f333d27e1fc3f397625bf022d0ebf3c9eed3ee418933e569caa3c983d79,
  0xbc2e4f333d0bb4d53f394e5dbf02339c3f25bc023f114e3c3e4eb9a13c809b30,
  0xbcf000433cd1a21f3f3de8a3bf1773193efcb9243f232ca53dea044b3c889c1b,
  0xbcf000433c9947d03f3dc0dbbf177319bf18fc503f0a8c153db942913c74666f,
  0xbc2e4f333c5cb9aa3f38d706bf02339cbf3c9eed3ee418933e1310dc3bf7ec35,
  0xbc2e4f333bd8127b3f38af3ebf02339c3f25bc023f114e3c3db4d8ba3bb4f1e5,
  0xbcf00043bafc50483f3d4995be374bc73f72a9933e86cf42bc2b14ec3c4efaa4,
  0xbcf00043bc103ea73f3d21cdbf177319bf18fc503f0a8c153f741b433c57d391,
  0xbd29b49a3a2a64c33f35d0fabf80000080000000000000003f8051ca3c97f844,
  0xbc2e4f33bc66106b3f3837f8bf02339cbf3c9eed3ee418933f5a6a873bff4ba5,
  0xbc2e4f33bcab62843f381030bf02339c3f25bc023f114e3c3f532ad03c2a2e3c,
  0xbcf00043bcf12c283f3caa76bf1773193efcb9243f232ca53f5fe6b43c92ccf7,
  0xbcf00043bd14c22f3f3c82aebf177319bf18fc503f0a8c153f5ba81e3ca50508,
  0xbc2e4f33bd2a37ac3f3798d9bf02339cbf3c985f3ee418933f4a36093c9bc98a,
  0xbc2e4f33bd4664d43f377122bf022d0e3f25bc023f114e3c3f48cf293cb42cc3,
  0xbcf00043bd6948993f3c0b67bf1773193efcb9243f232ca53f535b703ce2c98e,
  0xbcf00043bd82bae03f3be39fbf177319bf18fc503f0a8c153f5188093cf8c650,
  0xbc2e4f33bd8d759f3f36f9cabf02339cbf3c9eed3ee418933f4639f73cfe2824,
  0xbc2e4f33bd9b8bac3f36d203bf02339c3f25bc023f114e3c3f45ab8f3d0b7b29,
  0xbcf00043bdacfe153f3b6c59bf1773193efcb9243f232ca53f4d9a413d1e6eeb,
  0xbc058bc6be7529783f378855bf0e6320bf2487fd3f06dc5d3f4162f13dd2391d,
  0xbcf000433da51b933f3f26d0bf0c8b443f145a1d3f1a30553e47314d3d151f82,
  0x00000000bb4404a73f4061c8bdd59b3d3f6fb15b3eabb98cbe8000003aa61177,
  0xbcf00043bafc50483f3d4995bf350481bd7ec56d3f34538f3f7d53ac3c4efaa4,
  0x00000000bdbfa54c3f3e560400000000bf32339c3f37c84b3f4000003d233ce6,
  0x3cf00043bdbd75e23f3b3dd13f0c8b44bf2d14e43efb98c83f3380fe3d2bf983,
  0x3d29b49abdb82fd73f33c5373f46c227bf20b780bd62eb1c3f2e69273d36a401,
  0x3cf00043bdb2ea533f2c4cad3f0c8b44bf1460aabf1a29c73f32d1073d3164c7,
  0x00000000bdb0bae93f29346a00000000bf0f41f2bf542c3d3f4000003d294467,
  0xbcf00043bdb2ea533f2c4cadbf0c8b44bf1460aabf1a29c73f4d2ef93d3164c7,
  0xbd29b49abdb82fd73f33c537bf46c227bf20b780bd62eb1c3f5196d93d36a401,
  0xbcf00043bdbd75e23f3b3dd1bf0c8b44bf2d14e43efb98c83f4c7f023d2bf983,
  0x00000000bdba42f23f36b5c480000000bf518fc53f1305533f4000003d2540cc,
  0x3c058bc6bdb9a7c13f35d95e3ee8f5c3bf50068e3eba6b513f3c58ac3d262670,
  0x3c3cdbbebdb82fd73f33c5373f17ae14bf4ced91bdb7e9103f3ace573d276b7f,
  0x3c058bc6bdb6b8733f31b1213ec594afbf4a8588bef2fec53f3c49ba3d275bc4,
  0x00000000bdb61cbd3f30d4bb00000000bf49ad43bf1dab9f3f4000003d26ec9e,
  0xbc058bc6bdb6b8733f31b121bec594afbf4a8588bef2fec53f43b6463d275bc4,
  0xbc3cdbbebdb82fd73f33c537bf17ae14bf4ced91bdb7e9103f4531a93d276b7f,
  0xbc058bc6bdb9a7c13f35d95ebee8f5c3bf50068e3eba6b513f43a7543d262670,
  0x3bffd1dd3da8f9f43f39abe23ebeab363f4d288d3eef90973e87b00c3d14573a,
  0x000000003da8650e3f3a7efa000000003f4d4fdf3f18e8a73e8000003d1288ce,
  0xbbffd1dd3da8f9f43f39abe2bebeab363f4d288d3eef90973e709fe83d14573a,
  0xbc34e54f3daa619e3f37ae36bf173eab3f4d07c83dc710cb3e6a7f3d3d17cf5f,
  0xbbffd1dd3dabc9473f35b08abeeff9723f4d5cfbbebd3c363e70dfdf3d1a09cc,
  0x000000003dac5e2d3f34dd72000000003f4dbf48bf1851ec3e8000003d1a975b,
  0x3bffd1dd3dabc9473f35b08a3ef0068e3f4d5cfbbebd3c363e8790113d1a09cc,
  0x3c34e54f3daa619e3f37ae363f173eab3f4d07c83dc710cb3e8ac0623d17cf5f]

set_option maxRecDepth 100000 in
/-- the triangles of `BULB_SOCKET_INDICES`, /repo/src/vpx/mesh/lights/bulb_socket_mesh.rs:610-893 -/
def bulbSocketTris : List Nat := [
  0x00b000b100b2, 0x00b200b10083, 0x0083008200b2, 0x00b100b30083, 0x007a00820083, 0x007a00840082, 0x008300b3007b,
  0x007b007a0083, 0x00b3006a007b, 0x007c0084007a, 0x007c00850084, 0x0073007a007b, 0x0073007c007a, 0x007b006a0074,
  0x00740073007b, 0x007d0085007c, 0x007d00860085, 0x0075007c0073, 0x0075007d007c, 0x007e0086007d, 0x007e00c60086,
  0x0076007d0075, 0x0076007e007d, 0x006b00750073, 0x006b00730074, 0x006d00760075, 0x006d0075006b, 0x00c500c6007e,
  0x00c500df00c6, 0x0077007e0076, 0x007700c5007e, 0x00de00df00c5, 0x00de00e700df, 0x00e600e700de, 0x00c400de00c5,
  0x00c400c50077, 0x00dd00e600de, 0x00dd00de00c4, 0x007800e600dd, 0x006f00c40077, 0x00c300dd00c4, 0x00c300c4006f,
  0x00dc007800dd, 0x00dc00dd00c3, 0x0070007800dc, 0x006e00770076, 0x006f0077006e, 0x006e0076006d, 0x000c00780070,
  0x0066006e006d, 0x0067006f006e, 0x0067006e0066, 0x0068006f0067, 0x006800c3006f, 0x0066006d0064, 0x0064006d006b,
  0x00c200c30068, 0x00c200dc00c3, 0x0064006b006c, 0x006c006b0074, 0x00db00dc00c2, 0x00db007000dc, 0x00740063006c,
  0x006a00630074, 0x0069007000db, 0x00000063006a, 0x000c00700069, 0x0063005c006c, 0x0000005c0063, 0x006c005c0065,
  0x00650064006c, 0x005c00550065, 0x00000055005c, 0x005d00640065, 0x005d00660064, 0x00650055005e, 0x005e005d0065,
  0x005f0066005d, 0x005f00670066, 0x0056005d005e, 0x0056005f005d, 0x0055004e005e, 0x0000004e0055, 0x00570056005e,
  0x005e004e0057, 0x00600067005f, 0x006000680067, 0x0058005f0056, 0x00580060005f, 0x006100680060, 0x006100c20068,
  0x005900600058, 0x005900610060, 0x004f00580056, 0x004f00560057, 0x005100590058, 0x00510058004f, 0x00c100c20061,
  0x00c100db00c2, 0x005a00610059, 0x005a00c10061, 0x00da00db00c1, 0x00da006900db, 0x00c000c1005a, 0x00c000da00c1,
  0x0052005a0059, 0x005200590051, 0x005300c0005a, 0x0053005a0052, 0x0062006900da, 0x00d900da00c0, 0x00d9006200da,
  0x000c00690062, 0x00bf00d900c0, 0x00bf00c00053, 0x005b006200d9, 0x000c0062005b, 0x00d800d900bf, 0x00d8005b00d9,
  0x004c00bf0053, 0x0054005b00d8, 0x000c005b0054, 0x00be00d800bf, 0x00be00bf004c, 0x00d7005400d8, 0x00d700d800be,
  0x004d005400d7, 0x000c0054004d, 0x00bd00d700be, 0x00d6004d00d7, 0x00d600d700bd, 0x0046004d00d6, 0x000c004d0046,
  0x00bd00be0045, 0x004500be004c, 0x00bc00d600bd, 0x003e00bd0045, 0x00bc00bd003e, 0x00d5004600d6, 0x00d500d600bc,
  0x003f004600d5, 0x000c0046003f, 0x00bb00d500bc, 0x00d4003f00d5, 0x00d400d500bb, 0x0038003f00d4, 0x000c003f0038,
  0x00bb00bc0037, 0x003700bc003e, 0x00ba00d400bb, 0x003000bb0037, 0x00ba00bb0030, 0x00d3003800d4, 0x00d300d400ba,
  0x0031003800d3, 0x000c00380031, 0x00b900d300ba, 0x00d2003100d3, 0x00d200d300b9, 0x002a003100d2, 0x000c0031002a,
  0x00b900ba0029, 0x002900ba0030, 0x00b800d200b9, 0x002200b90029, 0x00b800b90022, 0x00d1002a00d2, 0x00d100d200b8,
  0x0023002a00d1, 0x000c002a0023, 0x00b700d100b8, 0x00d0002300d1, 0x00d000d100b7, 0x001c002300d0, 0x000c0023001c,
  0x00b700b8001b, 0x001b00b80022, 0x000c007f0080, 0x000c0087007f, 0x001b0022001a, 0x000c00920087, 0x0087009200e0,
  0x00e0009200e1, 0x00e000e100c7, 0x0092009900e1, 0x000c00990092, 0x00c700e100c8, 0x00c700c80090, 0x00e1009900e2,
  0x00e100e200c8, 0x009900a000e2, 0x000c00a00099, 0x009000c80091, 0x00900091008e, 0x00c800e200c9, 0x00c800c90091,
  0x00e200a000e3, 0x00e200e300c9, 0x008e0091008f, 0x008e008f008c, 0x009100c90098, 0x00910098008f, 0x008c008f008d,
  0x008c008d0089, 0x008f00980097, 0x008f0097008d, 0x00c900ca0098, 0x00c900e300ca, 0x0098009f0097, 0x009800ca009f,
  0x008d00970096, 0x0089008d008a, 0x008d0096008a, 0x0089008a008b, 0x0097009e0096, 0x0097009f009e, 0x008b008a0095,
  0x00950081008b, 0x008a00960094, 0x008a00940095, 0x0096009e009d, 0x0096009d0094, 0x008800810095, 0x00950094009c,
  0x009c00880095, 0x0094009d009b, 0x0094009b009c, 0x00930088009c, 0x009c009b00a3, 0x00a30093009c, 0x000000810088,
  0x000000880093, 0x000000790081, 0x000000720079, 0x000000710072, 0x009a009300a3, 0x00000093009a, 0x00aa009a00a3,
  0x009b00a200a3, 0x00a300a200aa, 0x00a1009a00aa, 0x0000009a00a1, 0x009b00a400a2, 0x009d00a4009b, 0x00a200a900aa,
  0x009d00a500a4, 0x009e00a5009d, 0x00a400ab00a2, 0x00a200ab00a9, 0x00a500ac00a4, 0x00a400ac00ab, 0x009e00a600a5,
  0x009f00a6009e, 0x00a500ad00ac, 0x00a600ad00a5, 0x009f00cb00a6, 0x00ca00cb009f, 0x00a600cc00ad, 0x00cb00cc00a6,
  0x00ca00e400cb, 0x00e300e400ca, 0x00cb00e500cc, 0x00e400e500cb, 0x00e300a700e4, 0x00a000a700e3, 0x000c00a700a0,
  0x00a700ae00e4, 0x000c00ae00a7, 0x00e400ae00e5, 0x000c000e00ae, 0x00ae000e00e5, 0x000c000d000e, 0x00e5000e00cd,
  0x000e000d00cd, 0x00e500cd00cc, 0x000c0015000d, 0x000c001c0015, 0x00cd000d00ce, 0x000d001500ce, 0x00cc00cd00b4,
  0x00cd00ce00b4, 0x00cc00b400ad, 0x0015001c00cf, 0x00ce001500cf, 0x00cf001c00d0, 0x00b400ce00b5, 0x00ce00cf00b5,
  0x00ad00b4000a, 0x00b400b5000a, 0x00ad000a00ac, 0x00cf00d000b6, 0x00b500cf00b6, 0x00b600d000b7, 0x000a00b5000b,
  0x00b500b6000b, 0x00ac000a0008, 0x000a000b0008, 0x00ac000800ab, 0x00b600b70014, 0x000b00b60014, 0x001400b7001b,
  0x0008000b0009, 0x000b00140009, 0x00ab00080006, 0x000800090006, 0x00ab000600a9, 0x0014001b0013, 0x000900140013,
  0x0013001b001a, 0x000600090007, 0x000900130007, 0x00a900060003, 0x000600070003, 0x000700130012, 0x0013001a0012,
  0x000300070004, 0x000700120004, 0x00a9000300af, 0x00aa00a900af, 0x00af00a100aa, 0x00af00030005, 0x000300040005,
  0x00a800a100af, 0x000500a800af, 0x000000a100a8, 0x000100a80005, 0x000000a80001, 0x000500040011, 0x001100010005,
  0x000400100011, 0x000400120010, 0x001100020001, 0x000000010002, 0x001800020011, 0x001100100018, 0x000f00020018,
  0x00000002000f, 0x001200190010, 0x0012001a0019, 0x001000170018, 0x001000190017, 0x001f000f0018, 0x00180017001f,
  0x001a00210019, 0x001a00220021, 0x002200290021, 0x001900200017, 0x001900210020, 0x002100290028, 0x002100280020,
  0x002900300028, 0x00170020001e, 0x0017001e001f, 0x002000280027, 0x00200027001e, 0x00280030002f, 0x0028002f0027,
  0x00300037002f, 0x001e00270025, 0x002f00370036, 0x0037003e0036, 0x0027002f002e, 0x002f0036002e, 0x0027002e0025,
  0x0036003e003d, 0x003e0045003d, 0x002e00360035, 0x0036003d0035, 0x003d00450044, 0x0045004c0044, 0x0035003d003c,
  0x003d0044003c, 0x002e0035002c, 0x0025002e002c, 0x0035003c0033, 0x002c00350033, 0x003c00440043, 0x0044004c004b,
  0x0044004b0043, 0x004c0053004b, 0x004b00530052, 0x004b0052004a, 0x0043004b004a, 0x004a00520051, 0x003c0043003a,
  0x0033003c003a, 0x0043004a0041, 0x003a00430041, 0x004a00510048, 0x0041004a0048, 0x00480051004f, 0x003a00410042,
  0x0048004f0050, 0x0050004f0057, 0x004100480049, 0x004900480050, 0x004200410049, 0x005700470050, 0x004e00470057,
  0x00000047004e, 0x004700400050, 0x005000400049, 0x000000400047, 0x004000390049, 0x000000390040, 0x004900390042,
  0x003900320042, 0x000000320039, 0x003b003a0042, 0x00420032003b, 0x0033003a003b, 0x0032002b003b, 0x0000002b0032,
  0x00340033003b, 0x003b002b0034, 0x002c00330034, 0x002b00240034, 0x00000024002b, 0x002d002c0034, 0x00340024002d,
  0x0025002c002d, 0x0000001d0024, 0x0024001d002d, 0x00260025002d, 0x002d001d0026, 0x001e00250026, 0x001f001e0026,
  0x00000016001d, 0x001d00160026, 0x00260016001f, 0x0000000f0016, 0x0016000f001f, 0x00e800e900ea, 0x00e900ec00ea,
  0x00e8011700e9, 0x00eb00ec00e9, 0x011700eb00e9, 0x00e800ea00fc, 0x00e8010e0117, 0x00ea00fd00fc, 0x00ec00fd00ea,
  0x00e800fc0105, 0x00e80105010e, 0x00fc01060105, 0x00fd010600fc, 0x0105010f010e, 0x0106010f0105, 0x010e01180117,
  0x010f0118010e, 0x011800eb0117, 0x01060110010f, 0x010f01190118, 0x01100119010f, 0x011800ed00eb, 0x011900ed0118,
  0x010701100106, 0x00fd01070106, 0x0110011a0119, 0x00fe010700fd, 0x00ec00fe00fd, 0x010701110110, 0x0111011a0110,
  0x00eb00ee00ec, 0x00ee00fe00ec, 0x00ed00ee00eb, 0x00fe01080107, 0x010801110107, 0x00ee00ff00fe, 0x00ff010800fe,
  0x00ed00f000ee, 0x00f000ff00ee, 0x011900ef00ed, 0x00ef00f000ed, 0x011a00ef0119, 0x00f0010000ff, 0x00ef00f200f0,
  0x00f2010000f0, 0x011a00f100ef, 0x00f100f200ef, 0x0100010900ff, 0x00ff01090108, 0x00f201010100, 0x010901120108,
  0x010801120111, 0x0100010a0109, 0x0101010a0100, 0x010901130112, 0x010a01130109, 0x0112011b0111, 0x0111011b011a,
  0x011b00f1011a, 0x0112011c011b, 0x0113011c0112, 0x011b00f300f1, 0x011c00f3011b, 0x00f100f400f2, 0x00f300f400f1,
  0x00f4010100f2, 0x011c00f500f3, 0x00f300f600f4, 0x00f500f600f3, 0x00f401020101, 0x00f6010200f4, 0x011d00f5011c,
  0x0113011d011c, 0x00f500f800f6, 0x0114011d0113, 0x010a01140113, 0x011d00f700f5, 0x00f700f800f5, 0x0101010b010a,
  0x010b0114010a, 0x0102010b0101, 0x0114011e011d, 0x011e00f7011d, 0x010b01150114, 0x0115011e0114, 0x0102010c010b,
  0x010c0115010b, 0x00f601030102, 0x0103010c0102, 0x00f8010300f6, 0x010c01160115, 0x0103010d010c, 0x010d0116010c,
  0x00f801040103, 0x0104010d0103, 0x0116011f0115, 0x0115011f011e, 0x00fb0116010d, 0x00fb011f0116, 0x00fb010d0104,
  0x011f00f9011e, 0x00fb00f9011f, 0x011e00f900f7, 0x00fb010400fa, 0x00fb00fa00f9, 0x00f900fa00f7, 0x00fa010400f8,
  0x00f700fa00f8, 0x012001210122, 0x012101240122, 0x0120014f0121, 0x012301240121, 0x014f01230121, 0x012001220134,
  0x01200146014f, 0x012201350134, 0x012401350122, 0x01200134013d, 0x0120013d0146, 0x0134013e013d, 0x0135013e0134,
  0x013d01470146, 0x013e0147013d, 0x01460150014f, 0x014701500146, 0x01500123014f, 0x013e01480147, 0x014701510150,
  0x014801510147, 0x015001250123, 0x015101250150, 0x013f0148013e, 0x0135013f013e, 0x014801520151, 0x0136013f0135,
  0x012401360135, 0x013f01490148, 0x014901520148, 0x012301260124, 0x012601360124, 0x012501260123, 0x01360140013f,
  0x01400149013f, 0x012601370136, 0x013701400136, 0x012501280126, 0x012801370126, 0x015101270125, 0x012701280125,
  0x015201270151, 0x012801380137, 0x0127012a0128, 0x012a01380128, 0x015201290127, 0x0129012a0127, 0x013801410137,
  0x013701410140, 0x012a01390138, 0x0141014a0140, 0x0140014a0149, 0x013801420141, 0x013901420138, 0x0141014b014a,
  0x0142014b0141, 0x014a01530149, 0x014901530152, 0x015301290152, 0x014a01540153, 0x014b0154014a, 0x0153012b0129,
  0x0154012b0153, 0x0129012c012a, 0x012b012c0129, 0x012c0139012a, 0x0154012d012b, 0x012b012e012c, 0x012d012e012b,
  0x012c013a0139, 0x012e013a012c, 0x0155012d0154, 0x014b01550154, 0x012d0130012e, 0x014c0155014b, 0x0142014c014b,
  0x0155012f012d, 0x012f0130012d, 0x013901430142, 0x0143014c0142, 0x013a01430139, 0x014c01560155, 0x0156012f0155,
  0x0143014d014c, 0x014d0156014c, 0x013a01440143, 0x0144014d0143, 0x012e013b013a, 0x013b0144013a, 0x0130013b012e,
  0x0144014e014d, 0x013b01450144, 0x0145014e0144, 0x0130013c013b, 0x013c0145013b, 0x014e0157014d, 0x014d01570156,
  0x0133014e0145, 0x01330157014e, 0x01330145013c, 0x015701310156, 0x013301310157, 0x01560131012f, 0x0133013c0132,
  0x013301320131, 0x01310132012f, 0x0132013c0130, 0x012f01320130, 0x01580159015a, 0x015a01590248, 0x0158015a018f,
  0x024f015a0248, 0x018f015a024f, 0x024801590249, 0x024e018f024f, 0x015902190249, 0x015802190159, 0x01aa018f024e,
  0x0158018f01aa, 0x024e024f01c7, 0x015801aa01c5, 0x024d01aa024e, 0x01c501aa024d, 0x024d024e01e2, 0x01e2024e01c7,
  0x024c01c5024d, 0x015801c501e0, 0x01e001c5024c, 0x015801e001fc, 0x015801fc0219, 0x01fc01e0024b, 0x024b01e0024c,
  0x021901fc024a, 0x024a01fc024b, 0x02490219024a, 0x024c024d01fe, 0x01fe024d01e2, 0x024b024c021b, 0x021b024c01fe,
  0x024a024b0235, 0x0235024b021b, 0x0249024a015d, 0x015d024a0235, 0x01910249015d, 0x024802490191, 0x0235015b015d,
  0x01ac02480191, 0x024f024801ac, 0x01c7024f01ac, 0x015d015c0191, 0x015b015c015d, 0x0191019001ac, 0x015c01900191,
  0x01ac01ab01c7, 0x019001ab01ac, 0x01ab01c601c7, 0x01c701c601e2, 0x019001ad01ab, 0x01c601e101e2, 0x01e201e101fe,
  0x01ab01c801c6, 0x01ad01c801ab, 0x01c601e301e1, 0x01c801e301c6, 0x01e101fd01fe, 0x01fe01fd021b, 0x01e301ff01e1,
  0x01e101ff01fd, 0x01fd021a021b, 0x021b021a0235, 0x021a015b0235, 0x01fd021c021a, 0x01ff021c01fd, 0x021a015e015b,
  0x021c015e021a, 0x015e015f015b, 0x015b015f015c, 0x021c0160015e, 0x015f0192015c, 0x015c01920190, 0x019201ad0190,
  0x015e0161015f, 0x01600161015e, 0x015f01930192, 0x01610193015f, 0x019201ae01ad, 0x019301ae0192, 0x01ae01c901ad,
  0x01ad01c901c8, 0x019301af01ae, 0x01c901e401c8, 0x01c801e401e3, 0x01ae01ca01c9, 0x01af01ca01ae, 0x01c901e501e4,
  0x01ca01e501c9, 0x01e4020001e3, 0x01e3020001ff, 0x01e5020101e4, 0x01e402010200, 0x0200021d01ff, 0x01ff021d021c,
  0x021d0160021c, 0x0200021e021d, 0x0201021e0200, 0x021d01620160, 0x021e0162021d, 0x016201630160, 0x016001630161,
  0x021e01640162, 0x016301940161, 0x016101940193, 0x019401af0193, 0x016201650163, 0x016401650162, 0x016301950194,
  0x016501950163, 0x019401b001af, 0x019501b00194, 0x01b001cb01af, 0x01af01cb01ca, 0x019501b101b0, 0x01cb01e601ca,
  0x01ca01e601e5, 0x01b001cc01cb, 0x01b101cc01b0, 0x01cb01e701e6, 0x01cc01e701cb, 0x01e6020201e5, 0x01e502020201,
  0x01e7020301e6, 0x01e602030202, 0x0202021f0201, 0x0201021f021e, 0x021f0164021e, 0x02020220021f, 0x020302200202,
  0x021f01660164, 0x02200166021f, 0x016601670164, 0x016401670165, 0x022001680166, 0x016701960165, 0x016501960195,
  0x019601b10195, 0x016601690167, 0x016801690166, 0x016701970196, 0x016901970167, 0x019601b201b1, 0x019701b20196,
  0x01b201cd01b1, 0x01b101cd01cc, 0x019701b301b2, 0x01cd01e801cc, 0x01cc01e801e7, 0x01b201ce01cd, 0x01b301ce01b2,
  0x01cd01e901e8, 0x01ce01e901cd, 0x01e8020401e7, 0x01e702040203, 0x01e9020501e8, 0x01e802050204, 0x020402210203,
  0x020302210220, 0x022101680220, 0x020402220221, 0x020502220204, 0x0221016a0168, 0x0222016a0221, 0x016a016b0168,
  0x0168016b0169, 0x0222016c016a, 0x016b01980169, 0x016901980197, 0x019801b30197, 0x016a016d016b, 0x016c016d016a,
  0x016b01990198, 0x016d0199016b, 0x019801b401b3, 0x019901b40198, 0x01b401cf01b3, 0x01b301cf01ce, 0x019901b501b4,
  0x01cf01ea01ce, 0x01ce01ea01e9, 0x01b401d001cf, 0x01b501d001b4, 0x01cf01eb01ea, 0x01d001eb01cf, 0x01ea020601e9,
  0x01e902060205, 0x01eb020701ea, 0x01ea02070206, 0x020602230205, 0x020502230222, 0x0223016c0222, 0x020602240223,
  0x020702240206, 0x0223016e016c, 0x0224016e0223, 0x016e016f016c, 0x016c016f016d, 0x02240170016e, 0x016f019a016d,
  0x016d019a0199, 0x019a01b50199, 0x016e0171016f, 0x01700171016e, 0x016f019b019a, 0x0171019b016f, 0x019a01b601b5,
  0x019b01b6019a, 0x01b601d101b5, 0x01b501d101d0, 0x019b01b701b6, 0x01d101ec01d0, 0x01d001ec01eb, 0x01b601d201d1,
  0x01b701d201b6, 0x01d101ed01ec, 0x01d201ed01d1, 0x01d201ef01ed, 0x01ee01ef01d2, 0x01ed020901ec, 0x01b701d301d2,
  0x01ec02090208, 0x01ec020801eb, 0x020902260208, 0x01eb02080207, 0x020802260225, 0x020802250207, 0x022602360225,
  0x020702250224, 0x022502360170, 0x022501700224, 0x019c01b7019b, 0x0171019c019b, 0x017001730171, 0x0173019c0171,
  0x017201730170, 0x019c01b801b7, 0x01b801d301b7, 0x0173019d019c, 0x019d01b8019c, 0x017201750173, 0x0175019d0173,
  0x017401750172, 0x023701740172, 0x0175019e019d, 0x022701740237, 0x022802270237, 0x017401770175, 0x0177019e0175,
  0x022701760174, 0x017601770174, 0x020b02270228, 0x020c020b0228, 0x020a020b020c, 0x020b02290227, 0x022901760227,
  0x020a020d020b, 0x020d0229020b, 0x01f0020d020a, 0x01d301f0020a, 0x020d022a0229, 0x01d401f001d3, 0x01b801d401d3,
  0x01f0020e020d, 0x020e022a020d, 0x01d401f101f0, 0x01f1020e01f0, 0x01b901d401b8, 0x019d01b901b8, 0x019e01b9019d,
  0x01b901d501d4, 0x01d501f101d4, 0x019e01ba01b9, 0x01ba01d501b9, 0x019f01ba019e, 0x0177019f019e, 0x01ba01d601d5,
  0x0179019f0177, 0x017601790177, 0x019f01bb01ba, 0x01bb01d601ba, 0x017901a0019f, 0x01a001bb019f, 0x017801790176,
  0x022901780176, 0x022a01780229, 0x0178017b0179, 0x017b01a00179, 0x022a017a0178, 0x017a017b0178, 0x022b017a022a,
  0x020e022b022a, 0x017a017d017b, 0x020f022b020e, 0x01f1020f020e, 0x022b017c017a, 0x017c017d017a, 0x020f022c022b,
  0x022c017c022b, 0x01f2020f01f1, 0x01d501f201f1, 0x01d601f201d5, 0x01f20210020f, 0x0210022c020f, 0x01d601f301f2,
  0x01f3021001f2, 0x01d701f301d6, 0x01bb01d701d6, 0x01f302110210, 0x01bc01d701bb, 0x01a001bc01bb, 0x01d701f401f3,
  0x01f4021101f3, 0x01bc01d801d7, 0x01d801f401d7, 0x01a101bc01a0, 0x017b01a101a0, 0x017d01a1017b, 0x01a101bd01bc,
  0x01bd01d801bc, 0x017d01a201a1, 0x01a201bd01a1, 0x017f01a2017d, 0x017c017f017d, 0x01a201be01bd, 0x017e017f017c,
  0x022c017e017c, 0x017f01a301a2, 0x01a301be01a2, 0x017e0181017f, 0x018101a3017f, 0x022d017e022c, 0x0210022d022c,
  0x0211022d0210, 0x022d0180017e, 0x01800181017e, 0x0211022e022d, 0x022e0180022d, 0x0212022e0211, 0x01f402120211,
  0x022e01820180, 0x01f5021201f4, 0x01d801f501f4, 0x0212022f022e, 0x022f0182022e, 0x01f502130212, 0x0213022f0212,
  0x01d901f501d8, 0x01bd01d901d8, 0x01be01d901bd, 0x01d901f601f5, 0x01f6021301f5, 0x01be01da01d9, 0x01da01f601d9,
  0x01bf01da01be, 0x01a301bf01be, 0x01da01f701f6, 0x01a401bf01a3, 0x018101a401a3, 0x01bf01db01da, 0x01db01f701da,
  0x01a401c001bf, 0x01c001db01bf, 0x018301a40181, 0x018001830181, 0x018201830180, 0x018301a501a4, 0x01a501c001a4,
  0x018201850183, 0x018501a50183, 0x018401850182, 0x022f01840182, 0x018501a601a5, 0x02300184022f, 0x02130230022f,
  0x018401870185, 0x018701a60185, 0x023001860184, 0x018601870184, 0x021402300213, 0x01f602140213, 0x01f7021401f6,
  0x021402310230, 0x023101860230, 0x01f702150214, 0x021502310214, 0x01f8021501f7, 0x01db01f801f7, 0x021502320231,
  0x01dc01f801db, 0x01c001dc01db, 0x01f802160215, 0x021602320215, 0x01dc01f901f8, 0x01f9021601f8, 0x01c101dc01c0,
  0x01a501c101c0, 0x01a601c101a5, 0x01c101dd01dc, 0x01dd01f901dc, 0x01a601c201c1, 0x01c201dd01c1, 0x01a701c201a6,
  0x018701a701a6, 0x01c201de01dd, 0x018901a70187, 0x018601890187, 0x01a701c301c2, 0x01c301de01c2, 0x018901a801a7,
  0x01a801c301a7, 0x018801890186, 0x023101880186, 0x023201880231, 0x0188018b0189, 0x018b01a80189, 0x0232018a0188,
  0x018a018b0188, 0x0233018a0232, 0x021602330232, 0x018a0239018b, 0x021702330216, 0x01f902170216, 0x02330238018a,
  0x02380239018a, 0x0217023f0233, 0x023f02380233, 0x01fa021701f9, 0x01dd01fa01f9, 0x01de01fa01dd, 0x01fa023e0217,
  0x023e023f0217, 0x01de023d01fa, 0x023d023e01fa, 0x023c023d01de, 0x01c3023c01de, 0x023d0246023e, 0x023b023c01c3,
  0x01a8023b01c3, 0x023c0245023d, 0x02450246023d, 0x023b0244023c, 0x02440245023c, 0x023a023b01a8, 0x018b023a01a8,
  0x0239023a018b, 0x023a0243023b, 0x02430244023b, 0x02390242023a, 0x02420243023a, 0x024102420239, 0x023802410239,
  0x024201c40243, 0x024002410238, 0x023f02400238, 0x024101a90242, 0x01a901c40242, 0x018d01a90241, 0x0240018d0241,
  0x018c01c401a9, 0x018c01a9018d, 0x01c401df0243, 0x018c01df01c4, 0x024301df0244, 0x01df01fb0244, 0x018c01fb01df,
  0x024401fb0245, 0x01fb02180245, 0x018c021801fb, 0x024502180246, 0x018c02340218, 0x021802340246, 0x018c018d018e,
  0x018c018e0234, 0x018e018d0240, 0x024602340247, 0x0234018e0247, 0x0247018e0240, 0x02470240023f, 0x02460247023e,
  0x023e0247023f]

/-- the table of /repo/src/vpx/mesh/lights/bulb_socket_mesh.rs -/
def bulbSocketTable : MeshTable := unpackTable bulbSocketVertices bulbSocketTris

end Vpin
