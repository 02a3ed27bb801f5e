import Verif.Model.CLex

/-! # The tokens of the firmware

Generated by `tools/ctext.py`; `Props/CText.lean` proves that these are the tokens of the
text in `Model/CText.lean`. -/

namespace Asdf.C.Tokens

/-- The tokens of /repo/firmware/asdf/keymap_list.cmake. -/
def keymap_list_cmake : List Tok := [
  .id 0x6C697374, .paren, .id 0x415050454E44, .id 0x6B65796D61705F6C697374, .nl,
  .str [60, 99, 108, 97, 115, 115, 105, 99, 58, 48, 62], .nl,
  .str [60, 99, 108, 97, 115, 115, 105, 99, 95, 99, 97, 112, 115, 58, 49, 62], .nl,
  .str [60, 97, 112, 112, 108, 101, 50, 58, 50, 62], .nl,
  .str [60, 97, 112, 112, 108, 101, 50, 95, 99, 97, 112, 115, 58, 51, 62], .nl,
  .str [60, 115, 111, 108, 58, 52, 62], .nl, .str [60, 97, 99, 101, 49, 48, 48, 48, 58, 53, 62], .nl,
  .op 0x29, .nl]

/-- The tokens of /repo/firmware/asdf/src/asdf.h. -/
def asdf_h : List Tok := [
  .nl, .op 0x23, .id 0x6966, .op 0x21, .id 0x646566696E6564, .paren, .id 0x415344465F48, .op 0x29, .nl,
  .op 0x23, .id 0x646566696E65, .id 0x415344465F48, .nl, .op 0x23, .id 0x696E636C756465, .op 0x3C,
  .id 0x737464696F, .op 0x2E, .id 0x68, .op 0x3E, .nl, .op 0x23, .id 0x696E636C756465, .op 0x3C,
  .id 0x737464696E74, .op 0x2E, .id 0x68, .op 0x3E, .nl, .op 0x23, .id 0x646566696E65,
  .id 0x415344465F414354494F4E, .num 160 false, .nl, .op 0x23, .id 0x646566696E65,
  .id 0x415344465F494E56414C49445F434F4445, .id 0x415344465F414354494F4E, .nl, .op 0x23, .id 0x646566696E65,
  .id 0x415344465F4D41585F434F4C53, .num 8 false, .nl, .op 0x23, .id 0x646566696E65,
  .id 0x415344465F4D41585F524F5753, .num 16 false, .nl, .id 0x74797065646566, .id 0x75696E74385F74,
  .id 0x617364665F636F6C735F74, .op 0x3B, .nl, .id 0x74797065646566, .id 0x75696E74385F74,
  .id 0x617364665F6B6579636F64655F74, .op 0x3B, .nl, .id 0x74797065646566, .id 0x656E756D, .op 0x7B, .nl,
  .id 0x414354494F4E5F4E4F5448494E47, .op 0x3D, .id 0x415344465F414354494F4E, .op 0x2C, .nl,
  .id 0x414354494F4E5F5348494654, .op 0x2C, .nl, .id 0x414354494F4E5F53484946544C4F434B5F4F4E, .op 0x2C, .nl,
  .id 0x414354494F4E5F53484946544C4F434B5F544F47474C45, .op 0x2C, .nl, .id 0x414354494F4E5F43415053, .op 0x2C,
  .nl, .id 0x414354494F4E5F4354524C, .op 0x2C, .nl, .id 0x414354494F4E5F524550454154, .op 0x2C, .nl,
  .id 0x414354494F4E5F484552455F4953, .op 0x2C, .nl, .id 0x414354494F4E5F4D415053454C5F30, .op 0x2C, .nl,
  .id 0x414354494F4E5F4D415053454C5F31, .op 0x2C, .nl, .id 0x414354494F4E5F4D415053454C5F32, .op 0x2C, .nl,
  .id 0x414354494F4E5F4D415053454C5F33, .op 0x2C, .nl, .id 0x414354494F4E5F4155544F5245504541545F53454C454354,
  .op 0x2C, .nl, .id 0x414354494F4E5F5354524F42455F504F4C41524954595F53454C454354, .op 0x2C, .nl,
  .id 0x414354494F4E5F564C454431, .op 0x2C, .nl, .id 0x414354494F4E5F564C454432, .op 0x2C, .nl,
  .id 0x414354494F4E5F564C454433, .op 0x2C, .nl, .id 0x414354494F4E5F564F555431, .op 0x2C, .nl,
  .id 0x414354494F4E5F564F555432, .op 0x2C, .nl, .id 0x414354494F4E5F564F555433, .op 0x2C, .nl,
  .id 0x414354494F4E5F564F555434, .op 0x2C, .nl, .id 0x414354494F4E5F564F555435, .op 0x2C, .nl,
  .id 0x414354494F4E5F564F555436, .op 0x2C, .nl, .id 0x414354494F4E5F464E5F31, .op 0x2C, .nl,
  .id 0x414354494F4E5F464E5F32, .op 0x2C, .nl, .id 0x414354494F4E5F464E5F33, .op 0x2C, .nl,
  .id 0x414354494F4E5F464E5F34, .op 0x2C, .nl, .id 0x414354494F4E5F464E5F35, .op 0x2C, .nl,
  .id 0x414354494F4E5F464E5F36, .op 0x2C, .nl, .id 0x414354494F4E5F464E5F37, .op 0x2C, .nl,
  .id 0x414354494F4E5F464E5F38, .op 0x2C, .nl, .id 0x414354494F4E5F464E5F39, .op 0x2C, .nl,
  .id 0x414354494F4E5F464E5F3130, .op 0x2C, .nl, .id 0x414354494F4E5F464E5F3131, .op 0x2C, .nl,
  .id 0x52455345525645445F31, .op 0x2C, .nl, .id 0x52455345525645445F32, .op 0x2C, .nl,
  .id 0x52455345525645445F33, .op 0x2C, .nl, .id 0x52455345525645445F34, .op 0x2C, .nl,
  .id 0x52455345525645445F35, .op 0x2C, .nl, .id 0x52455345525645445F36, .op 0x2C, .nl,
  .id 0x52455345525645445F37, .op 0x2C, .nl, .id 0x52455345525645445F38, .op 0x2C, .nl,
  .id 0x52455345525645445F39, .op 0x2C, .nl, .id 0x52455345525645445F3130, .op 0x2C, .nl,
  .id 0x52455345525645445F3131, .op 0x2C, .nl, .id 0x52455345525645445F3132, .op 0x2C, .nl,
  .id 0x52455345525645445F3133, .op 0x2C, .nl, .id 0x52455345525645445F3134, .op 0x2C, .nl,
  .id 0x52455345525645445F3135, .op 0x2C, .nl, .id 0x52455345525645445F3136, .op 0x2C, .nl, .op 0x7D,
  .id 0x616374696F6E5F74, .op 0x3B, .nl, .id 0x766F6964, .id 0x617364665F696E6974, .paren, .id 0x766F6964,
  .op 0x29, .op 0x3B, .nl, .id 0x766F6964, .id 0x617364665F6B65797363616E, .paren, .id 0x766F6964, .op 0x29,
  .op 0x3B, .nl, .id 0x766F6964, .id 0x617364665F7075745F636F6465, .paren, .id 0x617364665F6B6579636F64655F74,
  .id 0x636F6465, .op 0x29, .op 0x3B, .nl, .id 0x696E74, .id 0x617364665F70757463, .paren, .id 0x63686172,
  .id 0x63, .op 0x2C, .id 0x46494C45, .op 0x2A, .id 0x73747265616D, .op 0x29, .op 0x3B, .nl,
  .id 0x617364665F6B6579636F64655F74, .id 0x617364665F6E6578745F636F6465, .paren, .id 0x766F6964, .op 0x29,
  .op 0x3B, .nl, .id 0x766F6964, .id 0x617364665F7365745F7072696E745F64656C6179, .paren, .id 0x75696E74385F74,
  .id 0x64656C61795F6D73, .op 0x29, .op 0x3B, .nl, .op 0x23, .id 0x656E646966, .nl]

/-- The tokens of /repo/firmware/asdf/src/asdf_ascii.h. -/
def asdf_ascii_h : List Tok := [
  .nl, .op 0x23, .id 0x6966, .op 0x21, .id 0x646566696E6564, .paren, .id 0x415344465F41534349495F48, .op 0x29,
  .nl, .op 0x23, .id 0x646566696E65, .id 0x415344465F41534349495F48, .nl, .id 0x74797065646566,
  .id 0x656E756D, .op 0x7B, .nl, .id 0x41534349495F4E554C4C, .op 0x3D, .num 0 false, .op 0x2C, .nl,
  .id 0x41534349495F4354524C5F41, .op 0x3D, .num 1 false, .op 0x2C, .nl, .id 0x41534349495F4354524C5F42,
  .op 0x3D, .num 2 false, .op 0x2C, .nl, .id 0x41534349495F4354524C5F43, .op 0x3D, .num 3 false, .op 0x2C,
  .nl, .id 0x41534349495F4354524C5F44, .op 0x3D, .num 4 false, .op 0x2C, .nl, .id 0x41534349495F4354524C5F45,
  .op 0x3D, .num 5 false, .op 0x2C, .nl, .id 0x41534349495F4354524C5F46, .op 0x3D, .num 6 false, .op 0x2C,
  .nl, .id 0x41534349495F4354524C5F47, .op 0x3D, .num 7 false, .op 0x2C, .nl, .id 0x41534349495F4354524C5F48,
  .op 0x3D, .num 8 false, .op 0x2C, .nl, .id 0x41534349495F4354524C5F49, .op 0x3D, .num 9 false, .op 0x2C,
  .nl, .id 0x41534349495F4354524C5F4A, .op 0x3D, .num 10 false, .op 0x2C, .nl, .id 0x41534349495F4354524C5F4B,
  .op 0x3D, .num 11 false, .op 0x2C, .nl, .id 0x41534349495F4354524C5F4C, .op 0x3D, .num 12 false, .op 0x2C,
  .nl, .id 0x41534349495F4354524C5F4D, .op 0x3D, .num 13 false, .op 0x2C, .nl, .id 0x41534349495F4354524C5F4E,
  .op 0x3D, .num 14 false, .op 0x2C, .nl, .id 0x41534349495F4354524C5F4F, .op 0x3D, .num 15 false, .op 0x2C,
  .nl, .id 0x41534349495F4354524C5F50, .op 0x3D, .num 16 false, .op 0x2C, .nl, .id 0x41534349495F4354524C5F51,
  .op 0x3D, .num 17 false, .op 0x2C, .nl, .id 0x41534349495F4354524C5F52, .op 0x3D, .num 18 false, .op 0x2C,
  .nl, .id 0x41534349495F4354524C5F53, .op 0x3D, .num 19 false, .op 0x2C, .nl, .id 0x41534349495F4354524C5F54,
  .op 0x3D, .num 20 false, .op 0x2C, .nl, .id 0x41534349495F4354524C5F55, .op 0x3D, .num 21 false, .op 0x2C,
  .nl, .id 0x41534349495F4354524C5F56, .op 0x3D, .num 22 false, .op 0x2C, .nl, .id 0x41534349495F4354524C5F57,
  .op 0x3D, .num 23 false, .op 0x2C, .nl, .id 0x41534349495F4354524C5F58, .op 0x3D, .num 24 false, .op 0x2C,
  .nl, .id 0x41534349495F4354524C5F59, .op 0x3D, .num 25 false, .op 0x2C, .nl, .id 0x41534349495F4354524C5F5A,
  .op 0x3D, .num 26 false, .op 0x2C, .nl, .id 0x41534349495F455343, .op 0x3D, .num 27 false, .op 0x2C, .nl,
  .id 0x41534349495F4653, .op 0x3D, .num 28 false, .op 0x2C, .nl, .id 0x41534349495F4753, .op 0x3D,
  .num 29 false, .op 0x2C, .nl, .id 0x41534349495F5253, .op 0x3D, .num 30 false, .op 0x2C, .nl,
  .id 0x41534349495F5553, .op 0x3D, .num 31 false, .op 0x2C, .nl, .id 0x41534349495F5350414345, .op 0x3D,
  .num 32 false, .op 0x2C, .nl, .id 0x41534349495F444F55424C455F51554F5445, .op 0x3D, .num 34 false, .op 0x2C,
  .nl, .id 0x41534349495F53494E474C455F51554F5445, .op 0x3D, .num 39 false, .op 0x2C, .nl,
  .id 0x41534349495F4C545F504152454E, .op 0x3D, .num 40 false, .op 0x2C, .nl,
  .id 0x41534349495F52545F504152454E, .op 0x3D, .num 41 false, .op 0x2C, .nl, .id 0x41534349495F434F4D4D41,
  .op 0x3D, .num 44 false, .op 0x2C, .nl, .id 0x41534349495F504552494F44, .op 0x3D, .num 46 false, .op 0x2C,
  .nl, .id 0x41534349495F5A45524F, .op 0x3D, .num 48 false, .op 0x2C, .nl, .id 0x41534349495F4154, .op 0x3D,
  .num 64 false, .op 0x2C, .nl, .id 0x41534349495F4C545F5351554152455F4252414345, .op 0x3D, .num 91 false,
  .op 0x2C, .nl, .id 0x41534349495F52545F5351554152455F4252414345, .op 0x3D, .num 93 false, .op 0x2C, .nl,
  .id 0x41534349495F554E44455253434F5245, .op 0x3D, .num 95 false, .op 0x2C, .nl,
  .id 0x41534349495F4241434B534C415348, .op 0x3D, .num 92 false, .op 0x2C, .nl, .id 0x41534349495F4341524554,
  .op 0x3D, .num 94 false, .op 0x2C, .nl, .id 0x41534349495F47524156455F414343454E54, .op 0x3D, .num 96 false,
  .op 0x2C, .nl, .id 0x41534349495F4C545F4355524C595F4252414345, .op 0x3D, .num 123 false, .op 0x2C, .nl,
  .id 0x41534349495F52545F4355524C595F4252414345, .op 0x3D, .num 125 false, .op 0x2C, .nl,
  .id 0x41534349495F54494C4445, .op 0x3D, .num 126 false, .op 0x2C, .nl, .id 0x41534349495F564552545F424152,
  .op 0x3D, .num 124 false, .op 0x2C, .nl, .id 0x41534349495F44454C, .op 0x3D, .num 127 false, .op 0x2C, .nl,
  .id 0x41534349495F4D41585F5052494E5441424C45, .op 0x3D, .num 127 false, .op 0x2C, .nl,
  .id 0x41534349495F4D494E5F5052494E5441424C45, .op 0x3D, .num 32 false, .op 0x2C, .nl, .op 0x7D,
  .id 0x61736369695F646566735F74, .op 0x3B, .nl, .op 0x23, .id 0x646566696E65, .id 0x41534349495F4E554C4C,
  .num 0 false, .nl, .op 0x23, .id 0x646566696E65, .id 0x41534349495F534F48, .id 0x41534349495F4354524C5F41,
  .nl, .op 0x23, .id 0x646566696E65, .id 0x41534349495F535458, .id 0x41534349495F4354524C5F42, .nl, .op 0x23,
  .id 0x646566696E65, .id 0x41534349495F455458, .id 0x41534349495F4354524C5F43, .nl, .op 0x23,
  .id 0x646566696E65, .id 0x41534349495F454F54, .id 0x41534349495F4354524C5F44, .nl, .op 0x23,
  .id 0x646566696E65, .id 0x41534349495F454E51, .id 0x41534349495F4354524C5F45, .nl, .op 0x23,
  .id 0x646566696E65, .id 0x41534349495F41434B, .id 0x41534349495F4354524C5F46, .nl, .op 0x23,
  .id 0x646566696E65, .id 0x41534349495F42454C, .id 0x41534349495F4354524C5F47, .nl, .op 0x23,
  .id 0x646566696E65, .id 0x41534349495F4253, .id 0x41534349495F4354524C5F48, .nl, .op 0x23,
  .id 0x646566696E65, .id 0x41534349495F544142, .id 0x41534349495F4354524C5F49, .nl, .op 0x23,
  .id 0x646566696E65, .id 0x41534349495F4C46, .id 0x41534349495F4354524C5F4A, .nl, .op 0x23,
  .id 0x646566696E65, .id 0x41534349495F5654, .id 0x41534349495F4354524C5F4B, .nl, .op 0x23,
  .id 0x646566696E65, .id 0x41534349495F4646, .id 0x41534349495F4354524C5F4C, .nl, .op 0x23,
  .id 0x646566696E65, .id 0x41534349495F4352, .id 0x41534349495F4354524C5F4D, .nl, .op 0x23,
  .id 0x646566696E65, .id 0x41534349495F534F, .id 0x41534349495F4354524C5F4E, .nl, .op 0x23,
  .id 0x646566696E65, .id 0x41534349495F5349, .id 0x41534349495F4354524C5F4F, .nl, .op 0x23,
  .id 0x646566696E65, .id 0x41534349495F444C45, .id 0x41534349495F4354524C5F50, .nl, .op 0x23,
  .id 0x646566696E65, .id 0x41534349495F444331, .id 0x41534349495F4354524C5F51, .nl, .op 0x23,
  .id 0x646566696E65, .id 0x41534349495F444332, .id 0x41534349495F4354524C5F52, .nl, .op 0x23,
  .id 0x646566696E65, .id 0x41534349495F444333, .id 0x41534349495F4354524C5F53, .nl, .op 0x23,
  .id 0x646566696E65, .id 0x41534349495F444334, .id 0x41534349495F4354524C5F54, .nl, .op 0x23,
  .id 0x646566696E65, .id 0x41534349495F4E414B, .id 0x41534349495F4354524C5F55, .nl, .op 0x23,
  .id 0x646566696E65, .id 0x41534349495F53594E, .id 0x41534349495F4354524C5F56, .nl, .op 0x23,
  .id 0x646566696E65, .id 0x41534349495F455442, .id 0x41534349495F4354524C5F57, .nl, .op 0x23,
  .id 0x646566696E65, .id 0x41534349495F43414E, .id 0x41534349495F4354524C5F58, .nl, .op 0x23,
  .id 0x646566696E65, .id 0x41534349495F454D, .id 0x41534349495F4354524C5F59, .nl, .op 0x23,
  .id 0x646566696E65, .id 0x41534349495F535542, .id 0x41534349495F4354524C5F5A, .nl, .op 0x23,
  .id 0x646566696E65, .id 0x41534349495F455343, .num 27 false, .nl, .op 0x23, .id 0x646566696E65,
  .id 0x41534349495F, .nl, .op 0x23, .id 0x656E646966, .nl]

/-- The tokens of /repo/firmware/asdf/src/asdf_buffer.h. -/
def asdf_buffer_h : List Tok := [
  .nl, .op 0x23, .id 0x6966, .op 0x21, .id 0x646566696E6564, .paren, .id 0x415344465F4255464645525F48,
  .op 0x29, .nl, .op 0x23, .id 0x646566696E65, .id 0x415344465F4255464645525F48, .nl, .op 0x23,
  .id 0x696E636C756465, .str [97, 115, 100, 102, 95, 99, 111, 110, 102, 105, 103, 46, 104], .nl, .op 0x23,
  .id 0x646566696E65, .id 0x415344465F4255464645525F494E56414C4944, .op 0x2D, .num 1 false, .nl, .op 0x23,
  .id 0x646566696E65, .id 0x415344465F4255464645525F4E554D5F48414E444C4553, .num 4 false, .nl,
  .id 0x74797065646566, .id 0x696E74385F74, .id 0x617364665F6275666665725F68616E646C655F74, .op 0x3B, .nl,
  .id 0x766F6964, .id 0x617364665F6275666665725F696E6974, .paren, .id 0x766F6964, .op 0x29, .op 0x3B, .nl,
  .id 0x617364665F6275666665725F68616E646C655F74, .id 0x617364665F6275666665725F6E6577, .paren,
  .id 0x696E7431365F74, .id 0x73697A65, .op 0x29, .op 0x3B, .nl, .id 0x766F6964,
  .id 0x617364665F6275666665725F707574, .paren, .id 0x617364665F6275666665725F68616E646C655F74,
  .id 0x68616E646C65, .op 0x2C, .id 0x617364665F6B6579636F64655F74, .id 0x636F6465, .op 0x29, .op 0x3B, .nl,
  .id 0x617364665F6B6579636F64655F74, .id 0x617364665F6275666665725F676574, .paren,
  .id 0x617364665F6275666665725F68616E646C655F74, .id 0x68616E646C65, .op 0x29, .op 0x3B, .nl, .op 0x23,
  .id 0x656E646966, .nl]

/-- The tokens of /repo/firmware/asdf/src/asdf_config.h. -/
def asdf_config_h : List Tok := [
  .nl, .op 0x23, .id 0x6966, .op 0x21, .id 0x646566696E6564, .paren, .id 0x434F4E4649475F48, .op 0x29, .nl,
  .op 0x23, .id 0x646566696E65, .id 0x434F4E4649475F48, .nl, .op 0x23, .id 0x646566696E65,
  .id 0x415344465F504F5349544956455F504F4C4152495459, .num 0 false, .nl, .op 0x23, .id 0x646566696E65,
  .id 0x415344465F4E454741544956455F504F4C4152495459, .op 0x28, .op 0x7E,
  .id 0x415344465F504F5349544956455F504F4C4152495459, .op 0x29, .nl, .op 0x23, .id 0x646566696E65,
  .id 0x415344465F44454641554C545F444154415F504F4C4152495459,
  .id 0x415344465F504F5349544956455F504F4C4152495459, .nl, .op 0x23, .id 0x646566696E65,
  .id 0x415344465F44454641554C545F5354524F42455F504F4C4152495459,
  .id 0x415344465F504F5349544956455F504F4C4152495459, .nl, .op 0x23, .id 0x646566696E65,
  .id 0x415344465F44454641554C545F52455345545F504F4C4152495459,
  .id 0x415344465F4E454741544956455F504F4C4152495459, .nl, .op 0x23, .id 0x646566696E65,
  .id 0x415344465F44454641554C545F53435245454E5F434C4541525F504F4C4152495459,
  .id 0x415344465F504F5349544956455F504F4C4152495459, .nl, .op 0x23, .id 0x646566696E65,
  .id 0x415344465F4B4559434F44455F4255464645525F53495A45, .num 16 false, .nl, .op 0x23, .id 0x646566696E65,
  .id 0x415344465F4D4553534147455F4255464645525F53495A45, .num 128 false, .nl, .op 0x23, .id 0x646566696E65,
  .id 0x415344465F4255464645525F504F4F4C5F53495A45, .op 0x28,
  .id 0x415344465F4D4553534147455F4255464645525F53495A45, .op 0x2B,
  .id 0x415344465F4B4559434F44455F4255464645525F53495A45, .op 0x29, .nl, .op 0x23, .id 0x646566696E65,
  .id 0x415344465F4445424F554E43455F54494D455F4D53, .num 10 false, .nl, .op 0x23, .id 0x646566696E65,
  .id 0x415344465F44454641554C545F5245504541545F5354415445, .id 0x5245504541545F4155544F, .nl, .op 0x23,
  .id 0x646566696E65, .id 0x415344465F4D4553534147455F4348415241435445525F44454C4159, .num 16 false, .nl,
  .op 0x23, .id 0x646566696E65, .id 0x415344465F4155544F5245504541545F54494D455F4D53, .num 525 false, .nl,
  .op 0x23, .id 0x646566696E65, .id 0x415344465F5245504541545F54494D455F4D53, .op 0x28, .num 1000 false,
  .op 0x2F, .num 15 false, .op 0x29, .nl, .op 0x23, .id 0x646566696E65,
  .id 0x415344465F50554C53455F44454C41595F53484F52545F5553, .num 10 false, .nl, .op 0x23, .id 0x646566696E65,
  .id 0x415344465F50554C53455F44454C41595F4C4F4E475F4D53, .num 50 false, .nl, .op 0x23, .id 0x646566696E65,
  .id 0x415344465F5649525455414C5F4F55545F44454641554C545F56414C5545, .num 1 false, .nl, .op 0x23,
  .id 0x646566696E65, .id 0x415344465F44454641554C545F4B45595F5343414E4E4552, .id 0x617364665F6B65797363616E,
  .nl, .op 0x23, .id 0x656E646966, .nl]

/-- The tokens of /repo/firmware/asdf/src/asdf_hook.h. -/
def asdf_hook_h : List Tok := [
  .nl, .op 0x23, .id 0x6966, .op 0x21, .id 0x646566696E6564, .paren, .id 0x415344465F484F4F4B535F48, .op 0x29,
  .nl, .op 0x23, .id 0x646566696E65, .id 0x415344465F484F4F4B535F48, .nl, .id 0x74797065646566,
  .id 0x656E756D, .op 0x7B, .nl, .id 0x415344465F484F4F4B5F4E554C4C, .op 0x2C, .nl,
  .id 0x415344465F484F4F4B5F4B45595F5343414E4E4552, .op 0x2C, .nl,
  .id 0x415344465F484F4F4B5F524F575F5343414E4E4552, .op 0x2C, .nl, .id 0x415344465F484F4F4B5F4F5554505554,
  .op 0x2C, .nl, .id 0x415344465F484F4F4B5F454143485F5343414E, .op 0x2C, .nl,
  .id 0x415344465F484F4F4B5F555345525F31, .op 0x2C, .nl, .id 0x415344465F484F4F4B5F555345525F32, .op 0x2C,
  .nl, .id 0x415344465F484F4F4B5F555345525F33, .op 0x2C, .nl, .id 0x415344465F484F4F4B5F555345525F34,
  .op 0x2C, .nl, .id 0x415344465F484F4F4B5F555345525F35, .op 0x2C, .nl,
  .id 0x415344465F484F4F4B5F555345525F36, .op 0x2C, .nl, .id 0x415344465F484F4F4B5F555345525F37, .op 0x2C,
  .nl, .id 0x415344465F484F4F4B5F555345525F38, .op 0x2C, .nl, .id 0x415344465F484F4F4B5F555345525F39,
  .op 0x2C, .nl, .id 0x415344465F484F4F4B5F555345525F3130, .op 0x2C, .nl,
  .id 0x415344465F484F4F4B5F555345525F3131, .op 0x2C, .nl, .id 0x415344465F4E554D5F484F4F4B53, .op 0x2C, .nl,
  .op 0x7D, .id 0x617364665F686F6F6B5F69645F74, .op 0x3B, .nl, .op 0x23, .id 0x646566696E65,
  .id 0x415344465F484F4F4B5F4B45594D41505F5345545550, .id 0x415344465F4E554D5F484F4F4B53, .nl,
  .id 0x74797065646566, .id 0x766F6964, .op 0x28, .op 0x2A, .id 0x617364665F686F6F6B5F66756E6374696F6E5F74,
  .op 0x29, .op 0x28, .id 0x766F6964, .op 0x29, .op 0x3B, .nl, .id 0x74797065646566, .id 0x737472756374,
  .op 0x7B, .nl, .id 0x617364665F686F6F6B5F69645F74, .id 0x686F6F6B5F6964, .op 0x3B, .nl,
  .id 0x617364665F686F6F6B5F66756E6374696F6E5F74, .id 0x686F6F6B5F66756E63, .op 0x3B, .nl, .op 0x7D,
  .id 0x617364665F686F6F6B5F696E697469616C697A65725F74, .op 0x3B, .nl, .id 0x766F6964,
  .id 0x617364665F686F6F6B5F65786563757465, .paren, .id 0x617364665F686F6F6B5F69645F74, .id 0x686F6F6B5F6964,
  .op 0x29, .op 0x3B, .nl, .id 0x617364665F686F6F6B5F66756E6374696F6E5F74, .id 0x617364665F686F6F6B5F676574,
  .paren, .id 0x617364665F686F6F6B5F69645F74, .id 0x686F6F6B5F6964, .op 0x29, .op 0x3B, .nl, .id 0x766F6964,
  .id 0x617364665F686F6F6B5F696E6974, .paren, .id 0x766F6964, .op 0x29, .op 0x3B, .nl, .id 0x766F6964,
  .id 0x617364665F686F6F6B5F61737369676E, .paren, .id 0x617364665F686F6F6B5F69645F74, .id 0x686F6F6B5F6964,
  .op 0x2C, .id 0x617364665F686F6F6B5F66756E6374696F6E5F74, .id 0x66756E63, .op 0x29, .op 0x3B, .nl, .op 0x23,
  .id 0x656E646966, .nl]

/-- The tokens of /repo/firmware/asdf/src/asdf_keymap_setup.h.in. -/
def asdf_keymap_setup_h_in : List Tok := [
  .nl, .id 0x766F6964, .id 0x617364665F6B65796D61705F7365747570, .paren, .id 0x75696E74385F74,
  .id 0x696E646578, .op 0x29, .op 0x3B, .nl, .id 0x75696E74385F74, .id 0x617364665F6B65796D61705F76616C6964,
  .paren, .id 0x75696E74385F74, .id 0x696E646578, .op 0x29, .op 0x3B, .nl]

/-- The tokens of /repo/firmware/asdf/src/asdf_keymaps.h. -/
def asdf_keymaps_h : List Tok := [
  .nl, .op 0x23, .id 0x6966, .op 0x21, .id 0x646566696E6564, .paren, .id 0x415344465F4B45594D4150535F48,
  .op 0x29, .nl, .op 0x23, .id 0x646566696E65, .id 0x415344465F4B45594D4150535F48, .nl, .op 0x23,
  .id 0x696E636C756465, .str [97, 115, 100, 102, 46, 104], .nl, .op 0x23, .id 0x696E636C756465,
  .str [97, 115, 100, 102, 95, 104, 111, 111, 107, 46, 104], .nl, .op 0x23, .id 0x696E636C756465,
  .str [97, 115, 100, 102, 95, 118, 105, 114, 116, 117, 97, 108, 46, 104], .nl, .op 0x23,
  .id 0x696E636C756465, .str [97, 115, 100, 102, 95, 112, 104, 121, 115, 105, 99, 97, 108, 46, 104], .nl,
  .op 0x23, .id 0x696E636C756465,
  .str [97, 115, 100, 102, 95, 109, 111, 100, 105, 102, 105, 101, 114, 115, 46, 104], .nl, .op 0x23,
  .id 0x646566696E65, .id 0x415344465F4B45594D41505F4249545F30, .num 1 false, .nl, .op 0x23,
  .id 0x646566696E65, .id 0x415344465F4B45594D41505F4249545F31, .num 2 false, .nl, .op 0x23,
  .id 0x646566696E65, .id 0x415344465F4B45594D41505F4249545F32, .num 4 false, .nl, .op 0x23,
  .id 0x646566696E65, .id 0x415344465F4B45594D41505F4249545F33, .num 8 false, .nl, .id 0x74797065646566,
  .id 0x737472756374, .op 0x7B, .nl, .id 0x617364665F6B6579636F64655F74, .op 0x2A, .id 0x6D6174726978,
  .op 0x3B, .nl, .id 0x75696E74385F74, .id 0x726F7773, .op 0x3B, .nl, .id 0x75696E74385F74, .id 0x636F6C73,
  .op 0x3B, .nl, .op 0x7D, .id 0x617364665F6B6579636F64655F6D61705F74, .op 0x3B, .nl, .id 0x766F6964,
  .id 0x617364665F6B65796D6170735F6164645F6D6170, .paren, .id 0x636F6E7374,
  .id 0x617364665F6B6579636F64655F74, .op 0x2A, .id 0x6D6174726978, .op 0x2C, .nl,
  .id 0x6D6F6469666965725F696E6465785F74, .id 0x6D6F6469666965725F696E646578, .op 0x2C, .nl,
  .id 0x75696E74385F74, .id 0x6E756D5F726F7773, .op 0x2C, .id 0x75696E74385F74, .id 0x6E756D5F636F6C73,
  .op 0x29, .op 0x3B, .nl, .id 0x75696E74385F74, .id 0x617364665F6B65796D6170735F6E756D5F726F7773, .paren,
  .id 0x766F6964, .op 0x29, .op 0x3B, .nl, .id 0x75696E74385F74,
  .id 0x617364665F6B65796D6170735F6E756D5F636F6C73, .paren, .id 0x766F6964, .op 0x29, .op 0x3B, .nl,
  .id 0x766F6964, .id 0x617364665F6B65796D6170735F73656C656374, .paren, .id 0x75696E74385F74,
  .id 0x696E646578, .op 0x29, .op 0x3B, .nl, .id 0x766F6964,
  .id 0x617364665F6B65796D6170735F6D61705F73656C6563745F305F636C656172, .paren, .id 0x766F6964, .op 0x29,
  .op 0x3B, .nl, .id 0x766F6964, .id 0x617364665F6B65796D6170735F6D61705F73656C6563745F305F736574, .paren,
  .id 0x766F6964, .op 0x29, .op 0x3B, .nl, .id 0x766F6964,
  .id 0x617364665F6B65796D6170735F6D61705F73656C6563745F315F636C656172, .paren, .id 0x766F6964, .op 0x29,
  .op 0x3B, .nl, .id 0x766F6964, .id 0x617364665F6B65796D6170735F6D61705F73656C6563745F315F736574, .paren,
  .id 0x766F6964, .op 0x29, .op 0x3B, .nl, .id 0x766F6964,
  .id 0x617364665F6B65796D6170735F6D61705F73656C6563745F325F636C656172, .paren, .id 0x766F6964, .op 0x29,
  .op 0x3B, .nl, .id 0x766F6964, .id 0x617364665F6B65796D6170735F6D61705F73656C6563745F325F736574, .paren,
  .id 0x766F6964, .op 0x29, .op 0x3B, .nl, .id 0x766F6964,
  .id 0x617364665F6B65796D6170735F6D61705F73656C6563745F335F636C656172, .paren, .id 0x766F6964, .op 0x29,
  .op 0x3B, .nl, .id 0x766F6964, .id 0x617364665F6B65796D6170735F6D61705F73656C6563745F335F736574, .paren,
  .id 0x766F6964, .op 0x29, .op 0x3B, .nl, .id 0x766F6964, .id 0x617364665F6B65796D6170735F696E6974, .paren,
  .id 0x766F6964, .op 0x29, .op 0x3B, .nl, .id 0x766F6964,
  .id 0x617364665F6B65796D61705F6164645F7669727475616C5F646576696365, .paren,
  .id 0x617364665F7669727475616C5F6465765F74, .id 0x7669727475616C5F646576, .op 0x2C, .nl,
  .id 0x617364665F706879736963616C5F6465765F74, .id 0x706879736963616C5F646576, .op 0x2C, .nl,
  .id 0x617364665F7669727475616C5F66756E6374696F6E5F74, .id 0x66756E6374696F6E, .op 0x2C,
  .id 0x75696E74385F74, .id 0x696E697469616C5F76616C7565, .op 0x29, .op 0x3B, .nl, .id 0x766F6964,
  .id 0x617364665F6B65796D61705F6164645F686F6F6B, .paren, .id 0x617364665F686F6F6B5F69645F74,
  .id 0x686F6F6B5F6964, .op 0x2C, .id 0x617364665F686F6F6B5F66756E6374696F6E5F74, .id 0x66756E6374696F6E,
  .op 0x29, .op 0x3B, .nl, .id 0x617364665F6B6579636F64655F74,
  .id 0x617364665F6B65796D6170735F6765745F636F6465, .paren, .id 0x75696E74385F74, .id 0x726F77, .op 0x2C,
  .id 0x75696E74385F74, .id 0x636F6C, .op 0x2C, .id 0x75696E74385F74, .id 0x6D6F6469666965725F696E646578,
  .op 0x29, .op 0x3B, .nl, .op 0x23, .id 0x656E646966, .nl]

/-- The tokens of /repo/firmware/asdf/src/asdf_modifiers.h. -/
def asdf_modifiers_h : List Tok := [
  .nl, .op 0x23, .id 0x6966, .op 0x21, .id 0x646566696E6564, .paren, .id 0x415344465F4D4F444946494552535F48,
  .op 0x29, .nl, .op 0x23, .id 0x646566696E65, .id 0x415344465F4D4F444946494552535F48, .nl, .op 0x23,
  .id 0x646566696E65, .id 0x415344465F4D4F444946494552535F53484946545F504F53, .num 0 false, .nl, .op 0x23,
  .id 0x646566696E65, .id 0x415344465F4D4F444946494552535F434150535F504F53, .num 1 false, .nl, .op 0x23,
  .id 0x646566696E65, .id 0x415344465F4D4F444946494552535F4354524C5F504F53, .num 2 false, .nl, .op 0x23,
  .id 0x646566696E65, .id 0x415344465F4D4F444946494552535F53484946545F4D41534B, .op 0x28, .num 1 false,
  .op 0x3C3C, .id 0x415344465F4D4F444946494552535F53484946545F504F53, .op 0x29, .nl, .op 0x23,
  .id 0x646566696E65, .id 0x415344465F4D4F444946494552535F434150535F4D41534B, .op 0x28, .num 1 false,
  .op 0x3C3C, .id 0x415344465F4D4F444946494552535F434150535F504F53, .op 0x29, .nl, .op 0x23,
  .id 0x646566696E65, .id 0x415344465F4D4F444946494552535F4354524C5F4D41534B, .op 0x28, .num 1 false,
  .op 0x3C3C, .id 0x415344465F4D4F444946494552535F4354524C5F504F53, .op 0x29, .nl, .id 0x74797065646566,
  .id 0x656E756D, .op 0x7B, .nl, .id 0x53484946545F4F46465F5354, .op 0x3D, .num 0 false, .op 0x2C, .nl,
  .id 0x53484946545F4F4E5F5354, .op 0x3D, .num 1 false, .op 0x2C, .nl, .id 0x53484946545F4C4F434B45445F5354,
  .op 0x3D, .num 2 false, .op 0x2C, .nl, .id 0x53484946545F424F54485F5354, .op 0x3D, .num 3 false, .nl,
  .op 0x7D, .id 0x73686966745F73746174655F74, .op 0x3B, .nl, .id 0x74797065646566, .id 0x656E756D, .op 0x7B,
  .nl, .id 0x434150535F4F46465F5354, .op 0x3D, .num 0 false, .op 0x2C, .nl,
  .id 0x434150535F4C4F434B45445F5354, .op 0x3D, .num 1 false, .op 0x2C, .nl, .op 0x7D,
  .id 0x636170735F73746174655F74, .op 0x3B, .nl, .id 0x74797065646566, .id 0x656E756D, .op 0x7B,
  .id 0x4354524C5F4F46465F5354, .op 0x3D, .num 0 false, .op 0x2C, .id 0x4354524C5F4F4E5F5354, .op 0x3D,
  .num 1 false, .op 0x7D, .id 0x6374726C5F73746174655F74, .op 0x3B, .nl, .id 0x74797065646566, .id 0x656E756D,
  .op 0x7B, .nl, .id 0x4D4F445F504C41494E5F4D4150, .op 0x3D, .num 0 false, .op 0x2C, .nl,
  .id 0x4D4F445F53484946545F4D4150, .op 0x2C, .nl, .id 0x4D4F445F434150535F4D4150, .op 0x2C, .nl,
  .id 0x4D4F445F4354524C5F4D4150, .op 0x2C, .nl, .id 0x415344465F4D4F445F4E554D5F4D4F44494649455253, .nl,
  .op 0x7D, .id 0x6D6F6469666965725F696E6465785F74, .op 0x3B, .nl, .id 0x766F6964,
  .id 0x617364665F6D6F6469666965725F73686966745F6163746976617465, .paren, .id 0x766F6964, .op 0x29, .op 0x3B,
  .nl, .id 0x766F6964, .id 0x617364665F6D6F6469666965725F73686966746C6F636B5F6F6E5F6163746976617465, .paren,
  .id 0x766F6964, .op 0x29, .op 0x3B, .nl, .id 0x766F6964,
  .id 0x617364665F6D6F6469666965725F73686966746C6F636B5F746F67676C655F6163746976617465, .paren,
  .id 0x766F6964, .op 0x29, .op 0x3B, .nl, .id 0x766F6964,
  .id 0x617364665F6D6F6469666965725F636170736C6F636B5F6163746976617465, .paren, .id 0x766F6964, .op 0x29,
  .op 0x3B, .nl, .id 0x766F6964, .id 0x617364665F6D6F6469666965725F6374726C5F6163746976617465, .paren,
  .id 0x766F6964, .op 0x29, .op 0x3B, .nl, .id 0x766F6964,
  .id 0x617364665F6D6F6469666965725F73686966745F64656163746976617465, .paren, .id 0x766F6964, .op 0x29,
  .op 0x3B, .nl, .id 0x766F6964, .id 0x617364665F6D6F6469666965725F6374726C5F64656163746976617465, .paren,
  .id 0x766F6964, .op 0x29, .op 0x3B, .nl, .id 0x766F6964, .id 0x617364665F6D6F646966696572735F696E6974,
  .paren, .id 0x766F6964, .op 0x29, .op 0x3B, .nl, .id 0x6D6F6469666965725F696E6465785F74,
  .id 0x617364665F6D6F6469666965725F696E646578, .paren, .id 0x766F6964, .op 0x29, .op 0x3B, .nl, .op 0x23,
  .id 0x656E646966, .nl]

/-- The tokens of /repo/firmware/asdf/src/asdf_physical.h. -/
def asdf_physical_h : List Tok := [
  .nl, .op 0x23, .id 0x6966, .op 0x21, .id 0x646566696E6564, .paren, .id 0x415344465F504859534943414C5F48,
  .op 0x29, .nl, .op 0x23, .id 0x646566696E65, .id 0x415344465F504859534943414C5F48, .nl, .op 0x23,
  .id 0x696E636C756465, .op 0x3C, .id 0x737464696E74, .op 0x2E, .id 0x68, .op 0x3E, .nl, .id 0x74797065646566,
  .id 0x656E756D, .op 0x7B, .nl, .id 0x504859534943414C5F4E4F5F4F5554, .op 0x3D, .num 0 false, .op 0x2C, .nl,
  .id 0x504859534943414C5F4F555431, .op 0x2C, .nl, .id 0x504859534943414C5F4F5554315F4F50454E5F4849, .op 0x2C,
  .nl, .id 0x504859534943414C5F4F5554315F4F50454E5F4C4F, .op 0x2C, .nl, .id 0x504859534943414C5F4F555432,
  .op 0x2C, .nl, .id 0x504859534943414C5F4F5554325F4F50454E5F4849, .op 0x2C, .nl,
  .id 0x504859534943414C5F4F5554325F4F50454E5F4C4F, .op 0x2C, .nl, .id 0x504859534943414C5F4F555433, .op 0x2C,
  .nl, .id 0x504859534943414C5F4F5554335F4F50454E5F4849, .op 0x2C, .nl,
  .id 0x504859534943414C5F4F5554335F4F50454E5F4C4F, .op 0x2C, .nl, .id 0x504859534943414C5F4C454431, .op 0x2C,
  .nl, .id 0x504859534943414C5F4C454432, .op 0x2C, .nl, .id 0x504859534943414C5F4C454433, .op 0x2C, .nl,
  .id 0x415344465F504859534943414C5F4E554D5F5245534F5552434553, .nl, .op 0x7D,
  .id 0x617364665F706879736963616C5F6465765F74, .op 0x3B, .nl, .id 0x766F6964,
  .id 0x617364665F706879736963616C5F736574, .paren, .id 0x617364665F706879736963616C5F6465765F74,
  .id 0x706879736963616C5F6F7574, .op 0x2C, .id 0x75696E74385F74, .id 0x76616C7565, .op 0x29, .op 0x3B, .nl,
  .id 0x766F6964, .id 0x617364665F706879736963616C5F6F6E, .paren,
  .id 0x617364665F706879736963616C5F6465765F74, .id 0x706879736963616C5F6F7574, .op 0x29, .op 0x3B, .nl,
  .id 0x766F6964, .id 0x617364665F706879736963616C5F6F6666, .paren,
  .id 0x617364665F706879736963616C5F6465765F74, .id 0x706879736963616C5F6F7574, .op 0x29, .op 0x3B, .nl,
  .id 0x766F6964, .id 0x617364665F706879736963616C5F617373657274, .paren,
  .id 0x617364665F706879736963616C5F6465765F74, .id 0x706879736963616C5F6F7574, .op 0x29, .op 0x3B, .nl,
  .id 0x766F6964, .id 0x617364665F706879736963616C5F746F67676C65, .paren,
  .id 0x617364665F706879736963616C5F6465765F74, .id 0x706879736963616C5F6F7574, .op 0x29, .op 0x3B, .nl,
  .id 0x75696E74385F74, .id 0x706879736963616C5F6465766963655F69735F617661696C61626C65, .paren,
  .id 0x617364665F706879736963616C5F6465765F74, .id 0x646576696365, .op 0x29, .op 0x3B, .nl,
  .id 0x617364665F706879736963616C5F6465765F74, .id 0x617364665F706879736963616C5F6E6578745F646576696365,
  .paren, .id 0x617364665F706879736963616C5F6465765F74, .id 0x646576696365, .op 0x29, .op 0x3B, .nl,
  .id 0x75696E74385F74, .id 0x617364665F706879736963616C5F616C6C6F63617465, .paren,
  .id 0x617364665F706879736963616C5F6465765F74, .id 0x706879736963616C5F6F7574, .op 0x2C,
  .id 0x617364665F706879736963616C5F6465765F74, .id 0x7461696C, .op 0x2C, .nl, .id 0x75696E74385F74,
  .id 0x696E697469616C5F76616C7565, .op 0x29, .op 0x3B, .nl, .id 0x766F6964,
  .id 0x617364665F706879736963616C5F696E6974, .paren, .id 0x766F6964, .op 0x29, .op 0x3B, .nl, .op 0x23,
  .id 0x656E646966, .nl]

/-- The tokens of /repo/firmware/asdf/src/asdf_print.h. -/
def asdf_print_h : List Tok := [
  .nl, .op 0x23, .id 0x6966, .op 0x21, .id 0x646566696E6564, .op 0x28, .id 0x415344465F5052494E545F48,
  .op 0x29, .nl, .op 0x23, .id 0x646566696E65, .id 0x415344465F5052494E545F48, .nl, .id 0x766F6964,
  .id 0x617364665F7072696E74, .paren, .id 0x636F6E7374, .id 0x63686172, .op 0x2A, .id 0x666D74, .op 0x2C,
  .op 0x2E2E2E, .op 0x29, .op 0x3B, .nl, .op 0x23, .id 0x656E646966, .nl]

/-- The tokens of /repo/firmware/asdf/src/asdf_repeat.h. -/
def asdf_repeat_h : List Tok := [
  .nl, .op 0x23, .id 0x6966, .op 0x21, .id 0x646566696E6564, .paren, .id 0x415344465F5245504541545F48,
  .op 0x29, .nl, .op 0x23, .id 0x646566696E65, .id 0x415344465F5245504541545F48, .nl, .op 0x23,
  .id 0x696E636C756465, .str [97, 115, 100, 102, 95, 99, 111, 110, 102, 105, 103, 46, 104], .nl,
  .id 0x766F6964, .id 0x617364665F7265706561745F696E6974, .paren, .id 0x766F6964, .op 0x29, .op 0x3B, .nl,
  .id 0x766F6964, .id 0x617364665F7265706561745F72657365745F636F756E74, .paren, .id 0x766F6964, .op 0x29,
  .op 0x3B, .nl, .id 0x766F6964, .id 0x617364665F7265706561745F6175746F5F6F6666, .paren, .id 0x766F6964,
  .op 0x29, .op 0x3B, .nl, .id 0x766F6964, .id 0x617364665F7265706561745F6175746F5F6F6E, .paren,
  .id 0x766F6964, .op 0x29, .op 0x3B, .nl, .id 0x766F6964, .id 0x617364665F7265706561745F6163746976617465,
  .paren, .id 0x766F6964, .op 0x29, .op 0x3B, .nl, .id 0x766F6964,
  .id 0x617364665F7265706561745F64656163746976617465, .paren, .id 0x766F6964, .op 0x29, .op 0x3B, .nl,
  .id 0x75696E74385F74, .id 0x617364665F726570656174, .paren, .id 0x766F6964, .op 0x29, .op 0x3B, .nl,
  .op 0x23, .id 0x656E646966, .nl]

/-- The tokens of /repo/firmware/asdf/src/asdf_virtual.h. -/
def asdf_virtual_h : List Tok := [
  .nl, .op 0x23, .id 0x6966, .op 0x21, .id 0x646566696E6564, .paren, .id 0x415344465F5649525455414C5F48,
  .op 0x29, .nl, .op 0x23, .id 0x646566696E65, .id 0x415344465F5649525455414C5F48, .nl, .op 0x23,
  .id 0x696E636C756465, .str [97, 115, 100, 102, 95, 112, 104, 121, 115, 105, 99, 97, 108, 46, 104], .nl,
  .id 0x74797065646566, .id 0x656E756D, .op 0x7B, .nl, .id 0x565F4E554C4C, .op 0x2C, .nl, .id 0x564F555431,
  .op 0x2C, .nl, .id 0x564F555432, .op 0x2C, .nl, .id 0x564F555433, .op 0x2C, .nl, .id 0x564F555434, .op 0x2C,
  .nl, .id 0x564F555435, .op 0x2C, .nl, .id 0x564F555436, .op 0x2C, .nl, .id 0x564C454431, .op 0x2C, .nl,
  .id 0x564C454432, .op 0x2C, .nl, .id 0x564C454433, .op 0x2C, .nl, .id 0x56434150535F4C4544, .op 0x2C, .nl,
  .id 0x5653484946545F4C4544, .op 0x2C, .nl, .id 0x415344465F5649525455414C5F4E554D5F5245534F5552434553, .nl,
  .op 0x7D, .id 0x617364665F7669727475616C5F6465765F74, .op 0x3B, .nl, .id 0x74797065646566, .id 0x656E756D,
  .op 0x7B, .nl, .id 0x565F4E4F46554E43, .op 0x2C, .nl, .id 0x565F5345545F4849, .op 0x2C, .nl,
  .id 0x565F5345545F4C4F, .op 0x2C, .nl, .id 0x565F50554C53455F53484F5254, .op 0x2C, .nl,
  .id 0x565F50554C53455F4C4F4E47, .op 0x2C, .nl, .id 0x565F544F47474C45, .op 0x2C, .nl,
  .id 0x415344465F5649525455414C5F4E554D5F46554E4354494F4E53, .nl, .op 0x7D,
  .id 0x617364665F7669727475616C5F66756E6374696F6E5F74, .op 0x3B, .nl, .id 0x74797065646566,
  .id 0x737472756374, .op 0x7B, .nl, .id 0x617364665F7669727475616C5F6465765F74,
  .id 0x7669727475616C5F646576696365, .op 0x3B, .nl, .id 0x617364665F706879736963616C5F6465765F74,
  .id 0x706879736963616C5F646576696365, .op 0x3B, .nl, .id 0x617364665F7669727475616C5F66756E6374696F6E5F74,
  .id 0x66756E6374696F6E, .op 0x3B, .nl, .id 0x75696E74385F74, .id 0x696E697469616C5F76616C7565, .op 0x3B,
  .nl, .op 0x7D, .id 0x617364665F7669727475616C5F696E697469616C697A65725F74, .op 0x3B, .nl, .id 0x766F6964,
  .id 0x617364665F7669727475616C5F616374696F6E, .paren, .id 0x617364665F7669727475616C5F6465765F74,
  .id 0x7669727475616C5F6F7574, .op 0x2C, .id 0x617364665F7669727475616C5F66756E6374696F6E5F74,
  .id 0x66756E6374696F6E, .op 0x29, .op 0x3B, .nl, .id 0x766F6964,
  .id 0x617364665F7669727475616C5F6163746976617465, .paren, .id 0x617364665F7669727475616C5F6465765F74,
  .id 0x7669727475616C5F6F7574, .op 0x29, .op 0x3B, .nl, .id 0x766F6964,
  .id 0x617364665F7669727475616C5F61737369676E, .paren, .id 0x617364665F7669727475616C5F6465765F74,
  .id 0x7669727475616C5F6F7574, .op 0x2C, .id 0x617364665F706879736963616C5F6465765F74,
  .id 0x706879736963616C5F6F7574, .op 0x2C, .nl, .id 0x617364665F7669727475616C5F66756E6374696F6E5F74,
  .id 0x66756E6374696F6E, .op 0x2C, .id 0x75696E74385F74, .id 0x696E697469616C5F76616C7565, .op 0x29,
  .op 0x3B, .nl, .id 0x766F6964, .id 0x617364665F7669727475616C5F696E6974, .paren, .id 0x766F6964, .op 0x29,
  .op 0x3B, .nl, .id 0x766F6964, .id 0x617364665F7669727475616C5F73796E63, .paren, .id 0x766F6964, .op 0x29,
  .op 0x3B, .nl, .op 0x23, .id 0x656E646966, .nl]

/-- The tokens of /repo/firmware/asdf/src/asdf_buffer.c. -/
def asdf_buffer_c : List Tok := [
  .nl, .op 0x23, .id 0x696E636C756465, .op 0x3C, .id 0x737464696F, .op 0x2E, .id 0x68, .op 0x3E, .nl,
  .op 0x23, .id 0x696E636C756465, .op 0x3C, .id 0x737464696E74, .op 0x2E, .id 0x68, .op 0x3E, .nl, .op 0x23,
  .id 0x696E636C756465, .str [97, 115, 100, 102, 46, 104], .nl, .op 0x23, .id 0x696E636C756465,
  .str [97, 115, 100, 102, 95, 98, 117, 102, 102, 101, 114, 46, 104], .nl, .id 0x74797065646566,
  .id 0x737472756374, .op 0x7B, .nl, .id 0x617364665F6B6579636F64655F74, .op 0x2A, .id 0x627566, .op 0x3B,
  .nl, .id 0x696E7431365F74, .id 0x73697A65, .op 0x3B, .nl, .id 0x75696E74385F74, .id 0x68656164, .op 0x3B,
  .nl, .id 0x75696E74385F74, .id 0x7461696C, .op 0x3B, .nl, .id 0x75696E74385F74, .id 0x636F756E74, .op 0x3B,
  .nl, .op 0x7D, .id 0x617364665F6275666665725F74, .op 0x3B, .nl, .id 0x737461746963,
  .id 0x617364665F6B6579636F64655F74, .id 0x6275666665725F706F6F6C, .op 0x5B,
  .id 0x415344465F4255464645525F504F4F4C5F53495A45, .op 0x5D, .op 0x3B, .nl, .id 0x737461746963,
  .id 0x617364665F6275666665725F74, .id 0x62756666657273, .op 0x5B,
  .id 0x415344465F4255464645525F4E554D5F48414E444C4553, .op 0x5D, .op 0x3B, .nl, .id 0x737461746963,
  .id 0x696E7431365F74, .id 0x6275666665725F706F6F6C5F6E6578745F617661696C61626C65, .op 0x3B, .nl,
  .id 0x737461746963, .id 0x617364665F6275666665725F68616E646C655F74, .id 0x6E6578745F68616E646C65, .op 0x3B,
  .nl, .id 0x766F6964, .id 0x617364665F6275666665725F696E6974, .paren, .id 0x766F6964, .op 0x29, .nl,
  .op 0x7B, .nl, .id 0x6275666665725F706F6F6C5F6E6578745F617661696C61626C65, .op 0x3D, .num 0 false, .op 0x3B,
  .nl, .id 0x6E6578745F68616E646C65, .op 0x3D, .num 0 false, .op 0x3B, .nl, .op 0x7D, .nl,
  .id 0x75696E74385F74, .id 0x6275666665725F68616E646C655F76616C6964, .paren,
  .id 0x617364665F6275666665725F68616E646C655F74, .id 0x68616E646C65, .op 0x29, .nl, .op 0x7B, .nl,
  .id 0x72657475726E, .op 0x28, .op 0x28, .id 0x68616E646C65, .op 0x3E3D, .num 0 false, .op 0x29, .op 0x2626,
  .op 0x28, .id 0x68616E646C65, .op 0x3C, .id 0x6E6578745F68616E646C65, .op 0x29, .op 0x29, .op 0x3B, .nl,
  .op 0x7D, .nl, .id 0x617364665F6275666665725F68616E646C655F74, .id 0x617364665F6275666665725F6E6577, .paren,
  .id 0x696E7431365F74, .id 0x73697A65, .op 0x29, .nl, .op 0x7B, .nl,
  .id 0x617364665F6275666665725F68616E646C655F74, .id 0x68616E646C65, .op 0x3D,
  .id 0x415344465F4255464645525F494E56414C4944, .op 0x3B, .nl, .id 0x6966, .op 0x28,
  .id 0x6E6578745F68616E646C65, .op 0x3C, .id 0x415344465F4255464645525F4E554D5F48414E444C4553, .op 0x29,
  .op 0x7B, .nl, .id 0x6966, .op 0x28, .id 0x73697A65, .op 0x3C3D, .op 0x28,
  .id 0x415344465F4255464645525F504F4F4C5F53495A45, .op 0x2D,
  .id 0x6275666665725F706F6F6C5F6E6578745F617661696C61626C65, .op 0x29, .op 0x29, .op 0x7B, .nl,
  .id 0x68616E646C65, .op 0x3D, .id 0x6E6578745F68616E646C65, .op 0x2B2B, .op 0x3B, .nl, .id 0x62756666657273,
  .op 0x5B, .id 0x68616E646C65, .op 0x5D, .op 0x2E, .id 0x73697A65, .op 0x3D, .id 0x73697A65, .op 0x3B, .nl,
  .id 0x62756666657273, .op 0x5B, .id 0x68616E646C65, .op 0x5D, .op 0x2E, .id 0x627566, .op 0x3D, .op 0x26,
  .id 0x6275666665725F706F6F6C, .op 0x5B, .id 0x6275666665725F706F6F6C5F6E6578745F617661696C61626C65,
  .op 0x5D, .op 0x3B, .nl, .id 0x62756666657273, .op 0x5B, .id 0x68616E646C65, .op 0x5D, .op 0x2E,
  .id 0x68656164, .op 0x3D, .num 0 false, .op 0x3B, .nl, .id 0x62756666657273, .op 0x5B, .id 0x68616E646C65,
  .op 0x5D, .op 0x2E, .id 0x7461696C, .op 0x3D, .num 0 false, .op 0x3B, .nl, .id 0x62756666657273, .op 0x5B,
  .id 0x68616E646C65, .op 0x5D, .op 0x2E, .id 0x636F756E74, .op 0x3D, .num 0 false, .op 0x3B, .nl,
  .id 0x6275666665725F706F6F6C5F6E6578745F617661696C61626C65, .op 0x2B3D, .id 0x73697A65, .op 0x3B, .nl,
  .op 0x7D, .nl, .op 0x7D, .nl, .id 0x72657475726E, .id 0x68616E646C65, .op 0x3B, .nl, .op 0x7D, .nl,
  .id 0x766F6964, .id 0x617364665F6275666665725F707574, .paren,
  .id 0x617364665F6275666665725F68616E646C655F74, .id 0x68616E646C65, .op 0x2C,
  .id 0x617364665F6B6579636F64655F74, .id 0x636F6465, .op 0x29, .nl, .op 0x7B, .nl, .id 0x6966, .op 0x28,
  .id 0x6275666665725F68616E646C655F76616C6964, .paren, .id 0x68616E646C65, .op 0x29, .op 0x29, .op 0x7B, .nl,
  .id 0x6966, .op 0x28, .id 0x62756666657273, .op 0x5B, .id 0x68616E646C65, .op 0x5D, .op 0x2E,
  .id 0x636F756E74, .op 0x3C, .id 0x62756666657273, .op 0x5B, .id 0x68616E646C65, .op 0x5D, .op 0x2E,
  .id 0x73697A65, .op 0x29, .op 0x7B, .nl, .id 0x62756666657273, .op 0x5B, .id 0x68616E646C65, .op 0x5D,
  .op 0x2E, .id 0x627566, .op 0x5B, .id 0x62756666657273, .op 0x5B, .id 0x68616E646C65, .op 0x5D, .op 0x2E,
  .id 0x68656164, .op 0x5D, .op 0x3D, .id 0x636F6465, .op 0x3B, .nl, .id 0x62756666657273, .op 0x5B,
  .id 0x68616E646C65, .op 0x5D, .op 0x2E, .id 0x68656164, .op 0x3D, .op 0x28, .id 0x62756666657273, .op 0x5B,
  .id 0x68616E646C65, .op 0x5D, .op 0x2E, .id 0x68656164, .op 0x2B, .num 1 false, .op 0x29, .op 0x25,
  .id 0x62756666657273, .op 0x5B, .id 0x68616E646C65, .op 0x5D, .op 0x2E, .id 0x73697A65, .op 0x3B, .nl,
  .id 0x62756666657273, .op 0x5B, .id 0x68616E646C65, .op 0x5D, .op 0x2E, .id 0x636F756E74, .op 0x2B2B,
  .op 0x3B, .nl, .op 0x7D, .nl, .op 0x7D, .nl, .op 0x7D, .nl, .id 0x617364665F6B6579636F64655F74,
  .id 0x617364665F6275666665725F676574, .paren, .id 0x617364665F6275666665725F68616E646C655F74,
  .id 0x68616E646C65, .op 0x29, .nl, .op 0x7B, .nl, .id 0x617364665F6B6579636F64655F74, .id 0x636F6465,
  .op 0x3D, .id 0x415344465F494E56414C49445F434F4445, .op 0x3B, .nl, .id 0x6966, .op 0x28,
  .id 0x6275666665725F68616E646C655F76616C6964, .paren, .id 0x68616E646C65, .op 0x29, .op 0x2626,
  .id 0x62756666657273, .op 0x5B, .id 0x68616E646C65, .op 0x5D, .op 0x2E, .id 0x636F756E74, .op 0x29,
  .op 0x7B, .nl, .id 0x636F6465, .op 0x3D, .id 0x62756666657273, .op 0x5B, .id 0x68616E646C65, .op 0x5D,
  .op 0x2E, .id 0x627566, .op 0x5B, .id 0x62756666657273, .op 0x5B, .id 0x68616E646C65, .op 0x5D, .op 0x2E,
  .id 0x7461696C, .op 0x5D, .op 0x3B, .nl, .id 0x62756666657273, .op 0x5B, .id 0x68616E646C65, .op 0x5D,
  .op 0x2E, .id 0x7461696C, .op 0x3D, .op 0x28, .id 0x62756666657273, .op 0x5B, .id 0x68616E646C65, .op 0x5D,
  .op 0x2E, .id 0x7461696C, .op 0x2B, .num 1 false, .op 0x29, .op 0x25, .id 0x62756666657273, .op 0x5B,
  .id 0x68616E646C65, .op 0x5D, .op 0x2E, .id 0x73697A65, .op 0x3B, .nl, .id 0x62756666657273, .op 0x5B,
  .id 0x68616E646C65, .op 0x5D, .op 0x2E, .id 0x636F756E74, .op 0x2D2D, .op 0x3B, .nl, .op 0x7D, .nl,
  .id 0x72657475726E, .id 0x636F6465, .op 0x3B, .nl, .op 0x7D, .nl]

/-- The tokens of /repo/firmware/asdf/src/asdf_repeat.c. -/
def asdf_repeat_c : List Tok := [
  .nl, .op 0x23, .id 0x696E636C756465, .op 0x3C, .id 0x737464696E74, .op 0x2E, .id 0x68, .op 0x3E, .nl,
  .op 0x23, .id 0x696E636C756465, .str [97, 115, 100, 102, 95, 114, 101, 112, 101, 97, 116, 46, 104], .nl,
  .id 0x74797065646566, .id 0x75696E7431365F74, .id 0x6B65795F74696D65725F74, .op 0x3B, .nl,
  .id 0x74797065646566, .id 0x656E756D, .op 0x7B, .nl, .id 0x5245504541545F4F4646, .op 0x3D, .num 0 false,
  .op 0x2C, .nl, .id 0x5245504541545F4F4E, .op 0x3D, .id 0x415344465F5245504541545F54494D455F4D53, .op 0x2C,
  .nl, .id 0x5245504541545F4155544F, .op 0x3D, .id 0x415344465F4155544F5245504541545F54494D455F4D53, .op 0x2C,
  .nl, .op 0x7D, .id 0x7265706561745F73746174655F74, .op 0x3B, .nl, .id 0x737461746963,
  .id 0x7265706561745F73746174655F74, .id 0x7265706561745F7374617465, .op 0x3B, .nl, .id 0x737461746963,
  .id 0x7265706561745F73746174655F74, .id 0x626173655F7265706561745F7374617465, .op 0x3B, .nl,
  .id 0x737461746963, .id 0x6B65795F74696D65725F74, .id 0x6B65795F7265706561745F74696D6572, .op 0x3B, .nl,
  .id 0x766F6964, .id 0x617364665F7265706561745F696E6974, .paren, .id 0x766F6964, .op 0x29, .nl, .op 0x7B,
  .nl, .id 0x7265706561745F7374617465, .op 0x3D, .id 0x626173655F7265706561745F7374617465, .op 0x3D,
  .id 0x415344465F44454641554C545F5245504541545F5354415445, .op 0x3B, .nl,
  .id 0x6B65795F7265706561745F74696D6572, .op 0x3D, .op 0x28, .id 0x6B65795F74696D65725F74, .op 0x29,
  .id 0x7265706561745F7374617465, .op 0x3B, .nl, .op 0x7D, .nl, .id 0x766F6964,
  .id 0x617364665F7265706561745F72657365745F636F756E74, .paren, .id 0x766F6964, .op 0x29, .nl, .op 0x7B, .nl,
  .id 0x6B65795F7265706561745F74696D6572, .op 0x3D, .op 0x28, .id 0x6B65795F74696D65725F74, .op 0x29,
  .id 0x7265706561745F7374617465, .op 0x3B, .nl, .op 0x7D, .nl, .id 0x766F6964,
  .id 0x617364665F7265706561745F6175746F5F6F6666, .paren, .id 0x766F6964, .op 0x29, .nl, .op 0x7B, .nl,
  .id 0x626173655F7265706561745F7374617465, .op 0x3D, .id 0x5245504541545F4F4646, .op 0x3B, .nl, .id 0x6966,
  .op 0x28, .id 0x5245504541545F4F4E, .op 0x213D, .id 0x7265706561745F7374617465, .op 0x29, .op 0x7B, .nl,
  .id 0x6B65795F7265706561745F74696D6572, .op 0x3D, .id 0x7265706561745F7374617465, .op 0x3D,
  .id 0x626173655F7265706561745F7374617465, .op 0x3B, .nl, .op 0x7D, .nl, .op 0x7D, .nl, .id 0x766F6964,
  .id 0x617364665F7265706561745F6175746F5F6F6E, .paren, .id 0x766F6964, .op 0x29, .nl, .op 0x7B, .nl,
  .id 0x626173655F7265706561745F7374617465, .op 0x3D, .id 0x5245504541545F4155544F, .op 0x3B, .nl, .id 0x6966,
  .op 0x28, .id 0x5245504541545F4F4E, .op 0x213D, .id 0x7265706561745F7374617465, .op 0x29, .op 0x7B, .nl,
  .id 0x6B65795F7265706561745F74696D6572, .op 0x3D, .id 0x7265706561745F7374617465, .op 0x3D,
  .id 0x626173655F7265706561745F7374617465, .op 0x3B, .nl, .op 0x7D, .nl, .op 0x7D, .nl, .id 0x766F6964,
  .id 0x617364665F7265706561745F6163746976617465, .paren, .id 0x766F6964, .op 0x29, .nl, .op 0x7B, .nl,
  .id 0x6966, .op 0x28, .id 0x6B65795F7265706561745F74696D6572, .op 0x3E, .id 0x5245504541545F4F4E,
  .op 0x7C7C, .id 0x5245504541545F4F4646, .op 0x3D3D, .id 0x7265706561745F7374617465, .op 0x29, .op 0x7B, .nl,
  .id 0x6B65795F7265706561745F74696D6572, .op 0x3D, .id 0x7265706561745F7374617465, .op 0x3D,
  .id 0x5245504541545F4F4E, .op 0x3B, .nl, .op 0x7D, .nl, .op 0x7D, .nl, .id 0x766F6964,
  .id 0x617364665F7265706561745F64656163746976617465, .paren, .id 0x766F6964, .op 0x29, .nl, .op 0x7B, .nl,
  .id 0x6B65795F7265706561745F74696D6572, .op 0x3D, .id 0x7265706561745F7374617465, .op 0x3D,
  .id 0x626173655F7265706561745F7374617465, .op 0x3B, .nl, .op 0x7D, .nl, .id 0x75696E74385F74,
  .id 0x617364665F726570656174, .paren, .id 0x766F6964, .op 0x29, .nl, .op 0x7B, .nl, .id 0x75696E74385F74,
  .id 0x74696D656F7574, .op 0x3D, .op 0x28, .id 0x6B65795F7265706561745F74696D6572, .op 0x2626, .op 0x21,
  .op 0x28, .op 0x2D2D, .id 0x6B65795F7265706561745F74696D6572, .op 0x29, .op 0x29, .op 0x3B, .nl, .id 0x6966,
  .op 0x28, .id 0x74696D656F7574, .op 0x29, .op 0x7B, .nl, .id 0x6B65795F7265706561745F74696D6572, .op 0x3D,
  .id 0x5245504541545F4F4E, .op 0x3B, .nl, .op 0x7D, .nl, .id 0x72657475726E, .id 0x74696D656F7574, .op 0x3B,
  .nl, .op 0x7D, .nl]

/-- The tokens of /repo/firmware/asdf/src/asdf_physical.c. -/
def asdf_physical_c : List Tok := [
  .nl, .op 0x23, .id 0x696E636C756465, .op 0x3C, .id 0x737464696E74, .op 0x2E, .id 0x68, .op 0x3E, .nl,
  .op 0x23, .id 0x696E636C756465, .str [97, 115, 100, 102, 95, 112, 104, 121, 115, 105, 99, 97, 108, 46, 104],
  .nl, .op 0x23, .id 0x696E636C756465, .str [97, 115, 100, 102, 95, 99, 111, 110, 102, 105, 103, 46, 104],
  .nl, .op 0x23, .id 0x696E636C756465, .str [97, 115, 100, 102, 95, 97, 114, 99, 104, 46, 104], .nl,
  .id 0x74797065646566, .id 0x737472756374, .op 0x7B, .nl, .id 0x766F6964, .op 0x28, .op 0x2A,
  .id 0x68616E646C6572, .op 0x29, .op 0x28, .id 0x75696E74385F74, .op 0x29, .op 0x3B, .nl,
  .id 0x75696E74385F74, .id 0x736861646F77, .op 0x3B, .nl, .id 0x617364665F706879736963616C5F6465765F74,
  .id 0x6E657874, .op 0x3B, .nl, .op 0x7D, .id 0x706879736963616C5F6465766963655F7461626C655F656E7472795F74,
  .op 0x3B, .nl, .id 0x737461746963, .id 0x706879736963616C5F6465766963655F7461626C655F656E7472795F74,
  .id 0x706879736963616C5F6465766963655F7461626C65, .op 0x5B,
  .id 0x415344465F504859534943414C5F4E554D5F5245534F5552434553, .op 0x5D, .op 0x3D, .op 0x7B, .nl, .op 0x5B,
  .id 0x504859534943414C5F4E4F5F4F5554, .op 0x5D, .op 0x3D, .op 0x7B, .op 0x2E, .id 0x68616E646C6572,
  .op 0x3D, .op 0x26, .id 0x617364665F617263685F6E756C6C5F6F7574707574, .op 0x2C, .op 0x7D, .op 0x2C, .nl,
  .op 0x5B, .id 0x504859534943414C5F4F555431, .op 0x5D, .op 0x3D, .op 0x7B, .op 0x2E, .id 0x68616E646C6572,
  .op 0x3D, .op 0x26, .id 0x617364665F617263685F6F7574315F736574, .op 0x2C, .op 0x7D, .op 0x2C, .nl, .op 0x5B,
  .id 0x504859534943414C5F4F555432, .op 0x5D, .op 0x3D, .op 0x7B, .op 0x2E, .id 0x68616E646C6572, .op 0x3D,
  .op 0x26, .id 0x617364665F617263685F6F7574325F736574, .op 0x2C, .op 0x7D, .op 0x2C, .nl, .op 0x5B,
  .id 0x504859534943414C5F4F555433, .op 0x5D, .op 0x3D, .op 0x7B, .op 0x2E, .id 0x68616E646C6572, .op 0x3D,
  .op 0x26, .id 0x617364665F617263685F6F7574335F736574, .op 0x2C, .op 0x7D, .op 0x2C, .nl, .op 0x5B,
  .id 0x504859534943414C5F4F5554315F4F50454E5F4849, .op 0x5D, .op 0x3D, .op 0x7B, .op 0x2E,
  .id 0x68616E646C6572, .op 0x3D, .op 0x26, .id 0x617364665F617263685F6F7574315F6F70656E5F68695F736574,
  .op 0x2C, .op 0x7D, .op 0x2C, .nl, .op 0x5B, .id 0x504859534943414C5F4F5554325F4F50454E5F4849, .op 0x5D,
  .op 0x3D, .op 0x7B, .op 0x2E, .id 0x68616E646C6572, .op 0x3D, .op 0x26,
  .id 0x617364665F617263685F6F7574325F6F70656E5F68695F736574, .op 0x2C, .op 0x7D, .op 0x2C, .nl, .op 0x5B,
  .id 0x504859534943414C5F4F5554335F4F50454E5F4849, .op 0x5D, .op 0x3D, .op 0x7B, .op 0x2E,
  .id 0x68616E646C6572, .op 0x3D, .op 0x26, .id 0x617364665F617263685F6F7574335F6F70656E5F68695F736574,
  .op 0x2C, .op 0x7D, .op 0x2C, .nl, .op 0x5B, .id 0x504859534943414C5F4F5554315F4F50454E5F4C4F, .op 0x5D,
  .op 0x3D, .op 0x7B, .op 0x2E, .id 0x68616E646C6572, .op 0x3D, .op 0x26,
  .id 0x617364665F617263685F6F7574315F6F70656E5F6C6F5F736574, .op 0x2C, .op 0x7D, .op 0x2C, .nl, .op 0x5B,
  .id 0x504859534943414C5F4F5554325F4F50454E5F4C4F, .op 0x5D, .op 0x3D, .op 0x7B, .op 0x2E,
  .id 0x68616E646C6572, .op 0x3D, .op 0x26, .id 0x617364665F617263685F6F7574325F6F70656E5F6C6F5F736574,
  .op 0x2C, .op 0x7D, .op 0x2C, .nl, .op 0x5B, .id 0x504859534943414C5F4F5554335F4F50454E5F4C4F, .op 0x5D,
  .op 0x3D, .op 0x7B, .op 0x2E, .id 0x68616E646C6572, .op 0x3D, .op 0x26,
  .id 0x617364665F617263685F6F7574335F6F70656E5F6C6F5F736574, .op 0x2C, .op 0x7D, .op 0x2C, .nl, .op 0x5B,
  .id 0x504859534943414C5F4C454431, .op 0x5D, .op 0x3D, .op 0x7B, .op 0x2E, .id 0x68616E646C6572, .op 0x3D,
  .op 0x26, .id 0x617364665F617263685F6C6564315F736574, .op 0x2C, .op 0x7D, .op 0x2C, .nl, .op 0x5B,
  .id 0x504859534943414C5F4C454432, .op 0x5D, .op 0x3D, .op 0x7B, .op 0x2E, .id 0x68616E646C6572, .op 0x3D,
  .op 0x26, .id 0x617364665F617263685F6C6564325F736574, .op 0x2C, .op 0x7D, .op 0x2C, .nl, .op 0x5B,
  .id 0x504859534943414C5F4C454433, .op 0x5D, .op 0x3D, .op 0x7B, .op 0x2E, .id 0x68616E646C6572, .op 0x3D,
  .op 0x26, .id 0x617364665F617263685F6C6564335F736574, .op 0x2C, .op 0x7D, .op 0x2C, .nl, .op 0x7D, .op 0x3B,
  .nl, .id 0x766F6964, .id 0x617364665F706879736963616C5F736574, .paren,
  .id 0x617364665F706879736963616C5F6465765F74, .id 0x706879736963616C5F6F7574, .op 0x2C,
  .id 0x75696E74385F74, .id 0x76616C7565, .op 0x29, .nl, .op 0x7B, .nl,
  .id 0x706879736963616C5F6465766963655F7461626C65, .op 0x5B, .id 0x706879736963616C5F6F7574, .op 0x5D,
  .op 0x2E, .id 0x68616E646C6572, .paren, .id 0x76616C7565, .op 0x29, .op 0x3B, .nl,
  .id 0x706879736963616C5F6465766963655F7461626C65, .op 0x5B, .id 0x706879736963616C5F6F7574, .op 0x5D,
  .op 0x2E, .id 0x736861646F77, .op 0x3D, .id 0x76616C7565, .op 0x3B, .nl, .op 0x7D, .nl, .id 0x766F6964,
  .id 0x617364665F706879736963616C5F6F6E, .paren, .id 0x617364665F706879736963616C5F6465765F74,
  .id 0x706879736963616C5F6F7574, .op 0x29, .nl, .op 0x7B, .nl,
  .id 0x706879736963616C5F6465766963655F7461626C65, .op 0x5B, .id 0x706879736963616C5F6F7574, .op 0x5D,
  .op 0x2E, .id 0x68616E646C6572, .paren, .num 1 false, .op 0x29, .op 0x3B, .nl,
  .id 0x706879736963616C5F6465766963655F7461626C65, .op 0x5B, .id 0x706879736963616C5F6F7574, .op 0x5D,
  .op 0x2E, .id 0x736861646F77, .op 0x3D, .num 1 false, .op 0x3B, .nl, .op 0x7D, .nl, .id 0x766F6964,
  .id 0x617364665F706879736963616C5F6F6666, .paren, .id 0x617364665F706879736963616C5F6465765F74,
  .id 0x706879736963616C5F6F7574, .op 0x29, .nl, .op 0x7B, .nl,
  .id 0x706879736963616C5F6465766963655F7461626C65, .op 0x5B, .id 0x706879736963616C5F6F7574, .op 0x5D,
  .op 0x2E, .id 0x68616E646C6572, .paren, .num 0 false, .op 0x29, .op 0x3B, .nl,
  .id 0x706879736963616C5F6465766963655F7461626C65, .op 0x5B, .id 0x706879736963616C5F6F7574, .op 0x5D,
  .op 0x2E, .id 0x736861646F77, .op 0x3D, .num 0 false, .op 0x3B, .nl, .op 0x7D, .nl, .id 0x766F6964,
  .id 0x617364665F706879736963616C5F617373657274, .paren, .id 0x617364665F706879736963616C5F6465765F74,
  .id 0x706879736963616C5F6F7574, .op 0x29, .nl, .op 0x7B, .nl, .id 0x75696E74385F74, .id 0x76616C7565,
  .op 0x3D, .id 0x706879736963616C5F6465766963655F7461626C65, .op 0x5B, .id 0x706879736963616C5F6F7574,
  .op 0x5D, .op 0x2E, .id 0x736861646F77, .op 0x3B, .nl, .id 0x706879736963616C5F6465766963655F7461626C65,
  .op 0x5B, .id 0x706879736963616C5F6F7574, .op 0x5D, .op 0x2E, .id 0x68616E646C6572, .paren,
  .id 0x76616C7565, .op 0x29, .op 0x3B, .nl, .op 0x7D, .nl, .id 0x766F6964,
  .id 0x617364665F706879736963616C5F746F67676C65, .paren, .id 0x617364665F706879736963616C5F6465765F74,
  .id 0x706879736963616C5F6F7574, .op 0x29, .nl, .op 0x7B, .nl, .id 0x75696E74385F74, .id 0x76616C7565,
  .op 0x3D, .id 0x706879736963616C5F6465766963655F7461626C65, .op 0x5B, .id 0x706879736963616C5F6F7574,
  .op 0x5D, .op 0x2E, .id 0x736861646F77, .op 0x3B, .nl, .id 0x617364665F706879736963616C5F736574, .paren,
  .id 0x706879736963616C5F6F7574, .op 0x2C, .op 0x21, .id 0x76616C7565, .op 0x29, .op 0x3B, .nl, .op 0x7D,
  .nl, .id 0x737461746963, .id 0x75696E74385F74, .id 0x76616C69645F706879736963616C5F646576696365, .paren,
  .id 0x617364665F706879736963616C5F6465765F74, .id 0x646576696365, .op 0x29, .nl, .op 0x7B, .nl,
  .id 0x72657475726E, .op 0x28, .id 0x646576696365, .op 0x3E, .id 0x504859534943414C5F4E4F5F4F5554,
  .op 0x2626, .id 0x646576696365, .op 0x3C, .id 0x415344465F504859534943414C5F4E554D5F5245534F5552434553,
  .op 0x29, .op 0x3B, .nl, .op 0x7D, .nl, .id 0x75696E74385F74,
  .id 0x706879736963616C5F6465766963655F69735F617661696C61626C65, .paren,
  .id 0x617364665F706879736963616C5F6465765F74, .id 0x646576696365, .op 0x29, .nl, .op 0x7B, .nl,
  .id 0x617364665F706879736963616C5F6465765F74, .id 0x63757272656E745F6F7574, .op 0x3D,
  .id 0x504859534943414C5F4E4F5F4F5554, .op 0x3B, .nl, .id 0x617364665F706879736963616C5F6465765F74,
  .id 0x6E6578745F6F7574, .op 0x3D, .id 0x706879736963616C5F6465766963655F7461626C65, .op 0x5B,
  .id 0x63757272656E745F6F7574, .op 0x5D, .op 0x2E, .id 0x6E657874, .op 0x3B, .nl, .id 0x7768696C65, .op 0x28,
  .id 0x6E6578745F6F7574, .op 0x213D, .id 0x504859534943414C5F4E4F5F4F5554, .op 0x2626,
  .id 0x6E6578745F6F7574, .op 0x213D, .id 0x646576696365, .op 0x29, .op 0x7B, .nl,
  .id 0x63757272656E745F6F7574, .op 0x3D, .id 0x6E6578745F6F7574, .op 0x3B, .nl, .id 0x6E6578745F6F7574,
  .op 0x3D, .id 0x706879736963616C5F6465766963655F7461626C65, .op 0x5B, .id 0x63757272656E745F6F7574,
  .op 0x5D, .op 0x2E, .id 0x6E657874, .op 0x3B, .nl, .op 0x7D, .nl, .id 0x72657475726E, .op 0x28,
  .id 0x504859534943414C5F4E4F5F4F5554, .op 0x3D3D, .id 0x6E6578745F6F7574, .op 0x29, .op 0x3F,
  .id 0x415344465F504859534943414C5F4E554D5F5245534F5552434553, .op 0x3A, .id 0x63757272656E745F6F7574,
  .op 0x3B, .nl, .op 0x7D, .nl, .id 0x617364665F706879736963616C5F6465765F74,
  .id 0x617364665F706879736963616C5F6E6578745F646576696365, .paren,
  .id 0x617364665F706879736963616C5F6465765F74, .id 0x646576696365, .op 0x29, .nl, .op 0x7B, .nl,
  .id 0x72657475726E, .id 0x706879736963616C5F6465766963655F7461626C65, .op 0x5B, .id 0x646576696365,
  .op 0x5D, .op 0x2E, .id 0x6E657874, .op 0x3B, .nl, .op 0x7D, .nl, .id 0x75696E74385F74,
  .id 0x617364665F706879736963616C5F616C6C6F63617465, .paren, .id 0x617364665F706879736963616C5F6465765F74,
  .id 0x706879736963616C5F6F7574, .op 0x2C, .id 0x617364665F706879736963616C5F6465765F74, .id 0x7461696C,
  .op 0x2C, .nl, .id 0x75696E74385F74, .id 0x696E697469616C5F76616C7565, .op 0x29, .nl, .op 0x7B, .nl,
  .id 0x75696E74385F74, .id 0x73756363657373, .op 0x3D, .num 0 false, .op 0x3B, .nl,
  .id 0x617364665F706879736963616C5F6465765F74, .id 0x7072656465636573736F72, .op 0x3D,
  .id 0x706879736963616C5F6465766963655F69735F617661696C61626C65, .paren, .id 0x706879736963616C5F6F7574,
  .op 0x29, .op 0x3B, .nl, .id 0x6966, .op 0x28, .id 0x76616C69645F706879736963616C5F646576696365, .paren,
  .id 0x706879736963616C5F6F7574, .op 0x29, .op 0x2626, .op 0x28,
  .id 0x415344465F504859534943414C5F4E554D5F5245534F5552434553, .op 0x213D, .id 0x7072656465636573736F72,
  .op 0x29, .op 0x29, .op 0x7B, .nl, .id 0x706879736963616C5F6465766963655F7461626C65, .op 0x5B,
  .id 0x7072656465636573736F72, .op 0x5D, .op 0x2E, .id 0x6E657874, .op 0x3D,
  .id 0x706879736963616C5F6465766963655F7461626C65, .op 0x5B, .id 0x706879736963616C5F6F7574, .op 0x5D,
  .op 0x2E, .id 0x6E657874, .op 0x3B, .nl, .id 0x706879736963616C5F6465766963655F7461626C65, .op 0x5B,
  .id 0x706879736963616C5F6F7574, .op 0x5D, .op 0x2E, .id 0x6E657874, .op 0x3D, .id 0x7461696C, .op 0x3B, .nl,
  .id 0x706879736963616C5F6465766963655F7461626C65, .op 0x5B, .id 0x706879736963616C5F6F7574, .op 0x5D,
  .op 0x2E, .id 0x736861646F77, .op 0x3D, .id 0x696E697469616C5F76616C7565, .op 0x3B, .nl,
  .id 0x73756363657373, .op 0x3D, .num 1 false, .op 0x3B, .nl, .op 0x7D, .nl, .id 0x72657475726E,
  .id 0x73756363657373, .op 0x3B, .nl, .op 0x7D, .nl, .id 0x766F6964,
  .id 0x617364665F706879736963616C5F696E6974, .paren, .id 0x766F6964, .op 0x29, .nl, .op 0x7B, .nl,
  .id 0x666F72, .op 0x28, .id 0x75696E74385F74, .id 0x69, .op 0x3D, .num 0 false, .op 0x3B, .id 0x69,
  .op 0x3C, .id 0x415344465F504859534943414C5F4E554D5F5245534F5552434553, .op 0x3B, .id 0x69, .op 0x2B2B,
  .op 0x29, .op 0x7B, .nl, .id 0x706879736963616C5F6465766963655F7461626C65, .op 0x5B, .id 0x69, .op 0x5D,
  .op 0x2E, .id 0x736861646F77, .op 0x3D, .id 0x415344465F5649525455414C5F4F55545F44454641554C545F56414C5545,
  .op 0x3B, .nl, .id 0x706879736963616C5F6465766963655F7461626C65, .op 0x5B, .id 0x69, .op 0x5D, .op 0x2E,
  .id 0x6E657874, .op 0x3D, .id 0x69, .op 0x2B, .num 1 false, .op 0x3B, .nl, .op 0x7D, .nl,
  .id 0x706879736963616C5F6465766963655F7461626C65, .op 0x5B,
  .id 0x415344465F504859534943414C5F4E554D5F5245534F5552434553, .op 0x2D, .num 1 false, .op 0x5D, .op 0x2E,
  .id 0x6E657874, .op 0x3D, .id 0x504859534943414C5F4E4F5F4F5554, .op 0x3B, .nl, .op 0x7D, .nl]

/-- The tokens of /repo/firmware/asdf/src/asdf_virtual.c. -/
def asdf_virtual_c : List Tok := [
  .nl, .op 0x23, .id 0x696E636C756465, .op 0x3C, .id 0x737464696E74, .op 0x2E, .id 0x68, .op 0x3E, .nl,
  .op 0x23, .id 0x696E636C756465, .str [97, 115, 100, 102, 95, 112, 104, 121, 115, 105, 99, 97, 108, 46, 104],
  .nl, .op 0x23, .id 0x696E636C756465,
  .str [97, 115, 100, 102, 95, 118, 105, 114, 116, 117, 97, 108, 46, 104], .nl, .op 0x23,
  .id 0x696E636C756465, .str [97, 115, 100, 102, 95, 99, 111, 110, 102, 105, 103, 46, 104], .nl, .op 0x23,
  .id 0x696E636C756465, .str [97, 115, 100, 102, 95, 97, 114, 99, 104, 46, 104], .nl, .id 0x737461746963,
  .id 0x737472756374, .op 0x7B, .nl, .id 0x617364665F706879736963616C5F6465765F74,
  .id 0x706879736963616C5F646576696365, .op 0x3B, .nl, .id 0x617364665F7669727475616C5F66756E6374696F6E5F74,
  .id 0x66756E6374696F6E, .op 0x3B, .nl, .op 0x7D, .id 0x7669727475616C5F6465766963655F7461626C65, .op 0x5B,
  .id 0x415344465F5649525455414C5F4E554D5F5245534F5552434553, .op 0x5D, .op 0x3B, .nl, .id 0x766F6964,
  .id 0x617364665F7669727475616C5F6D61705F66756E6374696F6E, .paren, .id 0x766F6964, .op 0x28, .op 0x2A,
  .id 0x66756E6374696F6E, .op 0x29, .op 0x28, .id 0x617364665F706879736963616C5F6465765F74, .op 0x29,
  .op 0x2C, .id 0x617364665F706879736963616C5F6465765F74, .id 0x646576696365, .op 0x29, .nl, .op 0x7B, .nl,
  .id 0x7768696C65, .op 0x28, .id 0x504859534943414C5F4E4F5F4F5554, .op 0x213D, .id 0x646576696365, .op 0x29,
  .op 0x7B, .nl, .op 0x28, .op 0x2A, .id 0x66756E6374696F6E, .op 0x29, .op 0x28, .id 0x646576696365, .op 0x29,
  .op 0x3B, .nl, .id 0x646576696365, .op 0x3D, .id 0x617364665F706879736963616C5F6E6578745F646576696365,
  .paren, .id 0x646576696365, .op 0x29, .op 0x3B, .nl, .op 0x7D, .nl, .op 0x7D, .nl, .id 0x766F6964,
  .id 0x617364665F7669727475616C5F616374696F6E, .paren, .id 0x617364665F7669727475616C5F6465765F74,
  .id 0x7669727475616C5F6F7574, .op 0x2C, .id 0x617364665F7669727475616C5F66756E6374696F6E5F74,
  .id 0x66756E6374696F6E, .op 0x29, .nl, .op 0x7B, .nl, .id 0x617364665F706879736963616C5F6465765F74,
  .id 0x6465766963655F6C697374, .op 0x3D, .id 0x7669727475616C5F6465766963655F7461626C65, .op 0x5B,
  .id 0x7669727475616C5F6F7574, .op 0x5D, .op 0x2E, .id 0x706879736963616C5F646576696365, .op 0x3B, .nl,
  .id 0x737769746368, .op 0x28, .id 0x66756E6374696F6E, .op 0x29, .op 0x7B, .nl, .id 0x63617365,
  .id 0x565F50554C53455F4C4F4E47, .op 0x3A, .op 0x7B, .nl,
  .id 0x617364665F7669727475616C5F6D61705F66756E6374696F6E, .paren, .op 0x26,
  .id 0x617364665F706879736963616C5F746F67676C65, .op 0x2C, .id 0x6465766963655F6C697374, .op 0x29, .op 0x3B,
  .nl, .id 0x617364665F617263685F70756C73655F64656C61795F6C6F6E67, .paren, .op 0x29, .op 0x3B, .nl,
  .id 0x617364665F7669727475616C5F6D61705F66756E6374696F6E, .paren, .op 0x26,
  .id 0x617364665F706879736963616C5F746F67676C65, .op 0x2C, .id 0x6465766963655F6C697374, .op 0x29, .op 0x3B,
  .nl, .id 0x627265616B, .op 0x3B, .nl, .op 0x7D, .nl, .id 0x63617365, .id 0x565F50554C53455F53484F5254,
  .op 0x3A, .op 0x7B, .nl, .id 0x617364665F7669727475616C5F6D61705F66756E6374696F6E, .paren, .op 0x26,
  .id 0x617364665F706879736963616C5F746F67676C65, .op 0x2C, .id 0x6465766963655F6C697374, .op 0x29, .op 0x3B,
  .nl, .id 0x617364665F617263685F70756C73655F64656C61795F73686F7274, .paren, .op 0x29, .op 0x3B, .nl,
  .id 0x617364665F7669727475616C5F6D61705F66756E6374696F6E, .paren, .op 0x26,
  .id 0x617364665F706879736963616C5F746F67676C65, .op 0x2C, .id 0x6465766963655F6C697374, .op 0x29, .op 0x3B,
  .nl, .id 0x627265616B, .op 0x3B, .nl, .op 0x7D, .nl, .id 0x63617365, .id 0x565F544F47474C45, .op 0x3A,
  .op 0x7B, .nl, .id 0x617364665F7669727475616C5F6D61705F66756E6374696F6E, .paren, .op 0x26,
  .id 0x617364665F706879736963616C5F746F67676C65, .op 0x2C, .id 0x6465766963655F6C697374, .op 0x29, .op 0x3B,
  .nl, .id 0x627265616B, .op 0x3B, .nl, .op 0x7D, .nl, .id 0x63617365, .id 0x565F5345545F4849, .op 0x3A,
  .op 0x7B, .nl, .id 0x617364665F7669727475616C5F6D61705F66756E6374696F6E, .paren, .op 0x26,
  .id 0x617364665F706879736963616C5F6F6E, .op 0x2C, .id 0x6465766963655F6C697374, .op 0x29, .op 0x3B, .nl,
  .id 0x627265616B, .op 0x3B, .nl, .op 0x7D, .nl, .id 0x63617365, .id 0x565F5345545F4C4F, .op 0x3A, .op 0x7B,
  .nl, .id 0x617364665F7669727475616C5F6D61705F66756E6374696F6E, .paren, .op 0x26,
  .id 0x617364665F706879736963616C5F6F6666, .op 0x2C, .id 0x6465766963655F6C697374, .op 0x29, .op 0x3B, .nl,
  .op 0x7D, .nl, .id 0x63617365, .id 0x565F4E4F46554E43, .op 0x3A, .nl, .id 0x64656661756C74, .op 0x3A,
  .id 0x627265616B, .op 0x3B, .nl, .op 0x7D, .nl, .op 0x7D, .nl, .id 0x766F6964,
  .id 0x617364665F7669727475616C5F6163746976617465, .paren, .id 0x617364665F7669727475616C5F6465765F74,
  .id 0x7669727475616C5F6F7574, .op 0x29, .nl, .op 0x7B, .nl, .id 0x617364665F7669727475616C5F616374696F6E,
  .paren, .id 0x7669727475616C5F6F7574, .op 0x2C, .id 0x7669727475616C5F6465766963655F7461626C65, .op 0x5B,
  .id 0x7669727475616C5F6F7574, .op 0x5D, .op 0x2E, .id 0x66756E6374696F6E, .op 0x29, .op 0x3B, .nl, .op 0x7D,
  .nl, .id 0x737461746963, .id 0x75696E74385F74, .id 0x76616C69645F7669727475616C5F646576696365, .paren,
  .id 0x617364665F7669727475616C5F6465765F74, .id 0x646576696365, .op 0x29, .nl, .op 0x7B, .nl,
  .id 0x72657475726E, .op 0x28, .id 0x646576696365, .op 0x3E, .id 0x565F4E554C4C, .op 0x2626,
  .id 0x646576696365, .op 0x3C, .id 0x415344465F5649525455414C5F4E554D5F5245534F5552434553, .op 0x29,
  .op 0x3B, .nl, .op 0x7D, .nl, .id 0x766F6964, .id 0x617364665F7669727475616C5F61737369676E, .paren,
  .id 0x617364665F7669727475616C5F6465765F74, .id 0x7669727475616C5F6F7574, .op 0x2C,
  .id 0x617364665F706879736963616C5F6465765F74, .id 0x706879736963616C5F6F7574, .op 0x2C, .nl,
  .id 0x617364665F7669727475616C5F66756E6374696F6E5F74, .id 0x66756E6374696F6E, .op 0x2C,
  .id 0x75696E74385F74, .id 0x696E697469616C5F76616C7565, .op 0x29, .nl, .op 0x7B, .nl, .id 0x6966, .op 0x28,
  .id 0x76616C69645F7669727475616C5F646576696365, .paren, .id 0x7669727475616C5F6F7574, .op 0x29, .op 0x29,
  .op 0x7B, .nl, .id 0x617364665F706879736963616C5F6465765F74, .id 0x7461696C, .op 0x3D,
  .id 0x7669727475616C5F6465766963655F7461626C65, .op 0x5B, .id 0x7669727475616C5F6F7574, .op 0x5D, .op 0x2E,
  .id 0x706879736963616C5F646576696365, .op 0x3B, .nl, .id 0x6966, .op 0x28,
  .id 0x617364665F706879736963616C5F616C6C6F63617465, .paren, .id 0x706879736963616C5F6F7574, .op 0x2C,
  .id 0x7461696C, .op 0x2C, .id 0x696E697469616C5F76616C7565, .op 0x29, .op 0x29, .op 0x7B, .nl,
  .id 0x7669727475616C5F6465766963655F7461626C65, .op 0x5B, .id 0x7669727475616C5F6F7574, .op 0x5D, .op 0x2E,
  .id 0x706879736963616C5F646576696365, .op 0x3D, .id 0x706879736963616C5F6F7574, .op 0x3B, .nl,
  .id 0x7669727475616C5F6465766963655F7461626C65, .op 0x5B, .id 0x7669727475616C5F6F7574, .op 0x5D, .op 0x2E,
  .id 0x66756E6374696F6E, .op 0x3D, .id 0x66756E6374696F6E, .op 0x3B, .nl, .op 0x7D, .nl, .op 0x7D, .nl,
  .op 0x7D, .nl, .id 0x766F6964, .id 0x617364665F7669727475616C5F696E6974, .paren, .id 0x766F6964, .op 0x29,
  .nl, .op 0x7B, .nl, .id 0x617364665F706879736963616C5F696E6974, .paren, .op 0x29, .op 0x3B, .nl,
  .id 0x666F72, .op 0x28, .id 0x75696E74385F74, .id 0x69, .op 0x3D, .num 0 false, .op 0x3B, .id 0x69,
  .op 0x3C, .id 0x415344465F5649525455414C5F4E554D5F5245534F5552434553, .op 0x3B, .id 0x69, .op 0x2B2B,
  .op 0x29, .op 0x7B, .nl, .id 0x7669727475616C5F6465766963655F7461626C65, .op 0x5B, .id 0x69, .op 0x5D,
  .op 0x2E, .id 0x66756E6374696F6E, .op 0x3D, .id 0x565F4E4F46554E43, .op 0x3B, .nl,
  .id 0x7669727475616C5F6465766963655F7461626C65, .op 0x5B, .id 0x69, .op 0x5D, .op 0x2E,
  .id 0x706879736963616C5F646576696365, .op 0x3D, .id 0x504859534943414C5F4E4F5F4F5554, .op 0x3B, .nl,
  .op 0x7D, .nl, .op 0x7D, .nl, .id 0x766F6964, .id 0x617364665F7669727475616C5F73796E63, .paren,
  .id 0x766F6964, .op 0x29, .nl, .op 0x7B, .nl, .id 0x666F72, .op 0x28, .id 0x75696E74385F74, .id 0x69,
  .op 0x3D, .num 0 false, .op 0x3B, .id 0x69, .op 0x3C,
  .id 0x415344465F504859534943414C5F4E554D5F5245534F5552434553, .op 0x3B, .id 0x69, .op 0x2B2B, .op 0x29,
  .op 0x7B, .nl, .id 0x617364665F706879736963616C5F617373657274, .paren, .op 0x28,
  .id 0x617364665F706879736963616C5F6465765F74, .op 0x29, .id 0x69, .op 0x29, .op 0x3B, .nl, .op 0x7D, .nl,
  .op 0x7D, .nl]

/-- The tokens of /repo/firmware/asdf/src/asdf_hook.c. -/
def asdf_hook_c : List Tok := [
  .nl, .op 0x23, .id 0x696E636C756465, .op 0x3C, .id 0x737464696E74, .op 0x2E, .id 0x68, .op 0x3E, .nl,
  .op 0x23, .id 0x696E636C756465, .op 0x3C, .id 0x737464646566, .op 0x2E, .id 0x68, .op 0x3E, .nl, .op 0x23,
  .id 0x696E636C756465, .str [97, 115, 100, 102, 95, 99, 111, 110, 102, 105, 103, 46, 104], .nl, .op 0x23,
  .id 0x696E636C756465, .str [97, 115, 100, 102, 95, 97, 114, 99, 104, 46, 104], .nl, .op 0x23,
  .id 0x696E636C756465, .str [97, 115, 100, 102, 95, 104, 111, 111, 107, 46, 104], .nl,
  .id 0x617364665F686F6F6B5F66756E6374696F6E5F74, .id 0x686F6F6B5F6D6170, .op 0x5B,
  .id 0x415344465F4E554D5F484F4F4B53, .op 0x5D, .op 0x3B, .nl, .id 0x766F6964,
  .id 0x617364665F686F6F6B5F6E756C6C5F66756E63, .paren, .id 0x766F6964, .op 0x29, .op 0x7B, .op 0x7D, .nl,
  .id 0x737461746963, .id 0x75696E74385F74, .id 0x617364665F686F6F6B5F76616C69645F6964, .paren,
  .id 0x617364665F686F6F6B5F69645F74, .id 0x6964, .op 0x29, .nl, .op 0x7B, .nl, .id 0x72657475726E, .op 0x28,
  .id 0x6964, .op 0x3E, .id 0x415344465F484F4F4B5F4E554C4C, .op 0x2626, .id 0x6964, .op 0x3C,
  .id 0x415344465F4E554D5F484F4F4B53, .op 0x29, .op 0x3B, .nl, .op 0x7D, .nl, .id 0x766F6964,
  .id 0x617364665F686F6F6B5F65786563757465, .paren, .id 0x617364665F686F6F6B5F69645F74, .id 0x686F6F6B5F6964,
  .op 0x29, .nl, .op 0x7B, .nl, .id 0x6966, .op 0x28, .id 0x617364665F686F6F6B5F76616C69645F6964, .paren,
  .id 0x686F6F6B5F6964, .op 0x29, .op 0x29, .op 0x7B, .nl, .id 0x686F6F6B5F6D6170, .op 0x5B,
  .id 0x686F6F6B5F6964, .op 0x5D, .op 0x28, .op 0x29, .op 0x3B, .nl, .op 0x7D, .nl, .op 0x7D, .nl,
  .id 0x617364665F686F6F6B5F66756E6374696F6E5F74, .id 0x617364665F686F6F6B5F676574, .paren,
  .id 0x617364665F686F6F6B5F69645F74, .id 0x686F6F6B5F6964, .op 0x29, .nl, .op 0x7B, .nl, .id 0x72657475726E,
  .id 0x617364665F686F6F6B5F76616C69645F6964, .paren, .id 0x686F6F6B5F6964, .op 0x29, .op 0x3F,
  .id 0x686F6F6B5F6D6170, .op 0x5B, .id 0x686F6F6B5F6964, .op 0x5D, .op 0x3A,
  .id 0x617364665F686F6F6B5F6E756C6C5F66756E63, .op 0x3B, .nl, .op 0x7D, .nl, .id 0x766F6964,
  .id 0x617364665F686F6F6B5F61737369676E, .paren, .id 0x617364665F686F6F6B5F69645F74, .id 0x686F6F6B5F6964,
  .op 0x2C, .id 0x617364665F686F6F6B5F66756E6374696F6E5F74, .id 0x66756E63, .op 0x29, .nl, .op 0x7B, .nl,
  .id 0x6966, .op 0x28, .id 0x617364665F686F6F6B5F76616C69645F6964, .paren, .id 0x686F6F6B5F6964, .op 0x29,
  .op 0x29, .op 0x7B, .nl, .id 0x686F6F6B5F6D6170, .op 0x5B, .id 0x686F6F6B5F6964, .op 0x5D, .op 0x3D,
  .id 0x66756E63, .op 0x3B, .nl, .op 0x7D, .nl, .op 0x7D, .nl, .id 0x766F6964,
  .id 0x617364665F686F6F6B5F696E6974, .paren, .id 0x766F6964, .op 0x29, .nl, .op 0x7B, .nl, .id 0x666F72,
  .op 0x28, .id 0x75696E74385F74, .id 0x69, .op 0x3D, .num 0 false, .op 0x3B, .id 0x69, .op 0x3C,
  .id 0x415344465F4E554D5F484F4F4B53, .op 0x3B, .id 0x69, .op 0x2B2B, .op 0x29, .op 0x7B, .nl,
  .id 0x686F6F6B5F6D6170, .op 0x5B, .id 0x69, .op 0x5D, .op 0x3D, .op 0x26,
  .id 0x617364665F686F6F6B5F6E756C6C5F66756E63, .op 0x3B, .nl, .op 0x7D, .nl, .id 0x686F6F6B5F6D6170,
  .op 0x5B, .id 0x415344465F484F4F4B5F524F575F5343414E4E4552, .op 0x5D, .op 0x3D, .op 0x28,
  .id 0x617364665F686F6F6B5F66756E6374696F6E5F74, .op 0x29,
  .id 0x415344465F415243485F44454641554C545F524F575F5343414E4E4552, .op 0x3B, .nl, .id 0x686F6F6B5F6D6170,
  .op 0x5B, .id 0x415344465F484F4F4B5F4F5554505554, .op 0x5D, .op 0x3D, .op 0x28,
  .id 0x617364665F686F6F6B5F66756E6374696F6E5F74, .op 0x29,
  .id 0x415344465F415243485F44454641554C545F4F5554505554, .op 0x3B, .nl, .id 0x686F6F6B5F6D6170, .op 0x5B,
  .id 0x415344465F484F4F4B5F4B45595F5343414E4E4552, .op 0x5D, .op 0x3D, .op 0x28,
  .id 0x617364665F686F6F6B5F66756E6374696F6E5F74, .op 0x29,
  .id 0x415344465F44454641554C545F4B45595F5343414E4E4552, .op 0x3B, .nl, .op 0x7D, .nl]

/-- The tokens of /repo/firmware/asdf/src/asdf_modifiers.c. -/
def asdf_modifiers_c : List Tok := [
  .nl, .op 0x23, .id 0x696E636C756465, .op 0x3C, .id 0x737464696E74, .op 0x2E, .id 0x68, .op 0x3E, .nl,
  .op 0x23, .id 0x696E636C756465,
  .str [97, 115, 100, 102, 95, 109, 111, 100, 105, 102, 105, 101, 114, 115, 46, 104], .nl, .op 0x23,
  .id 0x696E636C756465, .str [97, 115, 100, 102, 95, 112, 104, 121, 115, 105, 99, 97, 108, 46, 104], .nl,
  .op 0x23, .id 0x696E636C756465, .str [97, 115, 100, 102, 95, 118, 105, 114, 116, 117, 97, 108, 46, 104],
  .nl, .op 0x23, .id 0x696E636C756465, .str [97, 115, 100, 102, 95, 97, 114, 99, 104, 46, 104], .nl,
  .id 0x737461746963, .id 0x73686966745F73746174655F74, .id 0x73686966745F7374617465, .op 0x3B, .nl,
  .id 0x737461746963, .id 0x636170735F73746174655F74, .id 0x636170735F7374617465, .op 0x3B, .nl,
  .id 0x737461746963, .id 0x6374726C5F73746174655F74, .id 0x6374726C5F7374617465, .op 0x3B, .nl,
  .id 0x737461746963, .id 0x636F6E7374, .id 0x6D6F6469666965725F696E6465785F74,
  .id 0x6D6F6469666965725F6D617070696E67, .op 0x5B, .op 0x5D, .op 0x3D, .op 0x7B,
  .id 0x4D4F445F504C41494E5F4D4150, .op 0x2C, .nl, .id 0x4D4F445F53484946545F4D4150, .op 0x2C, .nl,
  .id 0x4D4F445F434150535F4D4150, .op 0x2C, .nl, .id 0x4D4F445F53484946545F4D4150, .op 0x2C, .nl,
  .id 0x4D4F445F4354524C5F4D4150, .op 0x2C, .nl, .id 0x4D4F445F4354524C5F4D4150, .op 0x2C,
  .id 0x4D4F445F4354524C5F4D4150, .op 0x2C, .id 0x4D4F445F4354524C5F4D4150, .op 0x7D, .op 0x3B, .nl,
  .id 0x766F6964, .id 0x617364665F6D6F6469666965725F7365745F73686966745F7374617465, .paren,
  .id 0x75696E74385F74, .id 0x6E65775F7374617465, .op 0x29, .nl, .op 0x7B, .nl, .id 0x73686966745F7374617465,
  .op 0x3D, .id 0x6E65775F7374617465, .op 0x3B, .nl, .id 0x617364665F7669727475616C5F616374696F6E, .paren,
  .id 0x5653484946545F4C4544, .op 0x2C, .op 0x28, .op 0x28, .id 0x73686966745F7374617465, .op 0x26,
  .id 0x53484946545F4C4F434B45445F5354, .op 0x29, .op 0x3F, .id 0x565F5345545F4849, .op 0x3A,
  .id 0x565F5345545F4C4F, .op 0x29, .op 0x29, .op 0x3B, .nl, .op 0x7D, .nl, .id 0x766F6964,
  .id 0x617364665F6D6F6469666965725F73686966745F6163746976617465, .paren, .id 0x766F6964, .op 0x29, .nl,
  .op 0x7B, .nl, .id 0x617364665F6D6F6469666965725F7365745F73686966745F7374617465, .paren,
  .id 0x53484946545F4F4E5F5354, .op 0x29, .op 0x3B, .nl, .op 0x7D, .nl, .id 0x766F6964,
  .id 0x617364665F6D6F6469666965725F73686966746C6F636B5F6F6E5F6163746976617465, .paren, .id 0x766F6964,
  .op 0x29, .nl, .op 0x7B, .nl, .id 0x617364665F6D6F6469666965725F7365745F73686966745F7374617465, .paren,
  .id 0x73686966745F7374617465, .op 0x7C, .id 0x53484946545F4C4F434B45445F5354, .op 0x29, .op 0x3B, .nl,
  .op 0x7D, .nl, .id 0x766F6964,
  .id 0x617364665F6D6F6469666965725F73686966746C6F636B5F746F67676C655F6163746976617465, .paren,
  .id 0x766F6964, .op 0x29, .nl, .op 0x7B, .nl,
  .id 0x617364665F6D6F6469666965725F7365745F73686966745F7374617465, .paren, .id 0x73686966745F7374617465,
  .op 0x5E, .id 0x53484946545F4C4F434B45445F5354, .op 0x29, .op 0x3B, .nl, .op 0x7D, .nl, .id 0x737461746963,
  .id 0x766F6964, .id 0x617364665F6D6F6469666965725F7365745F636170735F7374617465, .paren,
  .id 0x75696E74385F74, .id 0x6E65775F7374617465, .op 0x29, .nl, .op 0x7B, .nl, .id 0x636170735F7374617465,
  .op 0x3D, .id 0x6E65775F7374617465, .op 0x3B, .nl, .id 0x617364665F7669727475616C5F616374696F6E, .paren,
  .id 0x56434150535F4C4544, .op 0x2C, .op 0x28, .id 0x636170735F7374617465, .op 0x3F, .id 0x565F5345545F4849,
  .op 0x3A, .id 0x565F5345545F4C4F, .op 0x29, .op 0x29, .op 0x3B, .nl, .op 0x7D, .nl, .id 0x766F6964,
  .id 0x617364665F6D6F6469666965725F636170736C6F636B5F6163746976617465, .paren, .id 0x766F6964, .op 0x29, .nl,
  .op 0x7B, .nl, .id 0x617364665F6D6F6469666965725F7365745F636170735F7374617465, .paren,
  .id 0x636170735F7374617465, .op 0x5E3D, .id 0x434150535F4C4F434B45445F5354, .op 0x29, .op 0x3B, .nl,
  .op 0x7D, .nl, .id 0x766F6964, .id 0x617364665F6D6F6469666965725F6374726C5F6163746976617465, .paren,
  .id 0x766F6964, .op 0x29, .nl, .op 0x7B, .nl, .id 0x6374726C5F7374617465, .op 0x3D,
  .id 0x4354524C5F4F4E5F5354, .op 0x3B, .nl, .op 0x7D, .nl, .id 0x766F6964,
  .id 0x617364665F6D6F6469666965725F73686966745F64656163746976617465, .paren, .id 0x766F6964, .op 0x29, .nl,
  .op 0x7B, .nl, .id 0x617364665F6D6F6469666965725F7365745F73686966745F7374617465, .paren,
  .id 0x53484946545F4F46465F5354, .op 0x29, .op 0x3B, .nl, .op 0x7D, .nl, .id 0x766F6964,
  .id 0x617364665F6D6F6469666965725F6374726C5F64656163746976617465, .paren, .id 0x766F6964, .op 0x29, .nl,
  .op 0x7B, .nl, .id 0x6374726C5F7374617465, .op 0x3D, .id 0x4354524C5F4F46465F5354, .op 0x3B, .nl, .op 0x7D,
  .nl, .id 0x766F6964, .id 0x617364665F6D6F646966696572735F696E6974, .paren, .id 0x766F6964, .op 0x29, .nl,
  .op 0x7B, .nl, .id 0x617364665F6D6F6469666965725F7365745F73686966745F7374617465, .paren,
  .id 0x53484946545F4F46465F5354, .op 0x29, .op 0x3B, .nl,
  .id 0x617364665F6D6F6469666965725F7365745F636170735F7374617465, .paren, .id 0x434150535F4F46465F5354,
  .op 0x29, .op 0x3B, .nl, .id 0x6374726C5F7374617465, .op 0x3D, .id 0x4354524C5F4F46465F5354, .op 0x3B, .nl,
  .op 0x7D, .nl, .id 0x6D6F6469666965725F696E6465785F74, .id 0x617364665F6D6F6469666965725F696E646578, .paren,
  .id 0x766F6964, .op 0x29, .nl, .op 0x7B, .nl, .id 0x75696E74385F74, .id 0x6163746976655F6D6F64696669657273,
  .op 0x3D, .num 0 false, .op 0x3B, .nl, .id 0x6966, .op 0x28, .id 0x73686966745F7374617465, .op 0x29,
  .op 0x7B, .nl, .id 0x6163746976655F6D6F64696669657273, .op 0x7C3D,
  .id 0x415344465F4D4F444946494552535F53484946545F4D41534B, .op 0x3B, .nl, .op 0x7D, .nl, .id 0x6966,
  .op 0x28, .id 0x636170735F7374617465, .op 0x29, .op 0x7B, .nl, .id 0x6163746976655F6D6F64696669657273,
  .op 0x7C3D, .id 0x415344465F4D4F444946494552535F434150535F4D41534B, .op 0x3B, .nl, .op 0x7D, .nl,
  .id 0x6966, .op 0x28, .id 0x6374726C5F7374617465, .op 0x29, .op 0x7B, .nl,
  .id 0x6163746976655F6D6F64696669657273, .op 0x7C3D, .id 0x415344465F4D4F444946494552535F4354524C5F4D41534B,
  .op 0x3B, .nl, .op 0x7D, .nl, .id 0x72657475726E, .id 0x6D6F6469666965725F6D617070696E67, .op 0x5B,
  .id 0x6163746976655F6D6F64696669657273, .op 0x5D, .op 0x3B, .nl, .op 0x7D, .nl]

/-- The tokens of /repo/firmware/asdf/src/asdf_keymaps.c. -/
def asdf_keymaps_c : List Tok := [
  .nl, .op 0x23, .id 0x696E636C756465, .op 0x3C, .id 0x737464696E74, .op 0x2E, .id 0x68, .op 0x3E, .nl,
  .op 0x23, .id 0x696E636C756465, .op 0x3C, .id 0x737464646566, .op 0x2E, .id 0x68, .op 0x3E, .nl, .op 0x23,
  .id 0x696E636C756465, .str [97, 115, 100, 102, 95, 99, 111, 110, 102, 105, 103, 46, 104], .nl, .op 0x23,
  .id 0x696E636C756465, .str [97, 115, 100, 102, 46, 104], .nl, .op 0x23, .id 0x696E636C756465,
  .str [97, 115, 100, 102, 95, 97, 114, 99, 104, 46, 104], .nl, .op 0x23, .id 0x696E636C756465,
  .str [97, 115, 100, 102, 95, 118, 105, 114, 116, 117, 97, 108, 46, 104], .nl, .op 0x23,
  .id 0x696E636C756465, .str [97, 115, 100, 102, 95, 104, 111, 111, 107, 46, 104], .nl, .op 0x23,
  .id 0x696E636C756465,
  .str [97, 115, 100, 102, 95, 107, 101, 121, 109, 97, 112, 95, 115, 101, 116, 117, 112, 46, 104], .nl,
  .op 0x23, .id 0x696E636C756465, .str [97, 115, 100, 102, 95, 107, 101, 121, 109, 97, 112, 115, 46, 104],
  .nl, .op 0x23, .id 0x696E636C756465,
  .str [97, 115, 100, 102, 95, 109, 111, 100, 105, 102, 105, 101, 114, 115, 46, 104], .nl, .id 0x737461746963,
  .id 0x617364665F6B6579636F64655F6D61705F74, .id 0x6B65796D617073, .op 0x5B,
  .id 0x415344465F4D4F445F4E554D5F4D4F44494649455253, .op 0x5D, .op 0x3D, .op 0x7B, .op 0x7D, .op 0x3B, .nl,
  .id 0x737461746963, .id 0x75696E74385F74, .id 0x63757272656E745F6B6579626F6172645F696E646578, .op 0x3B, .nl,
  .id 0x766F6964, .id 0x617364665F6B65796D6170735F6164645F6D6170, .paren, .id 0x636F6E7374,
  .id 0x617364665F6B6579636F64655F74, .op 0x2A, .id 0x6D6174726978, .op 0x2C, .nl,
  .id 0x6D6F6469666965725F696E6465785F74, .id 0x6D6F6469666965725F696E646578, .op 0x2C, .nl,
  .id 0x75696E74385F74, .id 0x6E756D5F726F7773, .op 0x2C, .id 0x75696E74385F74, .id 0x6E756D5F636F6C73,
  .op 0x29, .nl, .op 0x7B, .nl, .id 0x6966, .op 0x28, .op 0x28, .id 0x6D6F6469666965725F696E646578, .op 0x3C,
  .id 0x415344465F4D4F445F4E554D5F4D4F44494649455253, .op 0x29, .nl, .op 0x2626, .op 0x28,
  .id 0x6E756D5F726F7773, .op 0x3C3D, .id 0x415344465F4D41585F524F5753, .op 0x29, .nl, .op 0x2626, .op 0x28,
  .id 0x6E756D5F636F6C73, .op 0x3C3D, .id 0x415344465F4D41585F434F4C53, .op 0x29, .op 0x29, .nl, .op 0x7B,
  .nl, .id 0x6B65796D617073, .op 0x5B, .id 0x6D6F6469666965725F696E646578, .op 0x5D, .op 0x2E,
  .id 0x6D6174726978, .op 0x3D, .op 0x28, .id 0x617364665F6B6579636F64655F74, .op 0x2A, .op 0x29,
  .id 0x6D6174726978, .op 0x3B, .nl, .id 0x6B65796D617073, .op 0x5B, .id 0x6D6F6469666965725F696E646578,
  .op 0x5D, .op 0x2E, .id 0x726F7773, .op 0x3D, .id 0x6E756D5F726F7773, .op 0x3B, .nl, .id 0x6B65796D617073,
  .op 0x5B, .id 0x6D6F6469666965725F696E646578, .op 0x5D, .op 0x2E, .id 0x636F6C73, .op 0x3D,
  .id 0x6E756D5F636F6C73, .op 0x3B, .nl, .op 0x7D, .nl, .op 0x7D, .nl, .id 0x75696E74385F74,
  .id 0x617364665F6B65796D6170735F6E756D5F726F7773, .paren, .id 0x766F6964, .op 0x29, .nl, .op 0x7B, .nl,
  .id 0x72657475726E, .id 0x6B65796D617073, .op 0x5B, .id 0x617364665F6D6F6469666965725F696E646578, .paren,
  .op 0x29, .op 0x5D, .op 0x2E, .id 0x726F7773, .op 0x3B, .nl, .op 0x7D, .nl, .id 0x75696E74385F74,
  .id 0x617364665F6B65796D6170735F6E756D5F636F6C73, .paren, .id 0x766F6964, .op 0x29, .nl, .op 0x7B, .nl,
  .id 0x72657475726E, .id 0x6B65796D617073, .op 0x5B, .id 0x617364665F6D6F6469666965725F696E646578, .paren,
  .op 0x29, .op 0x5D, .op 0x2E, .id 0x636F6C73, .op 0x3B, .nl, .op 0x7D, .nl, .id 0x737461746963,
  .id 0x766F6964, .id 0x617364665F6B65796D6170735F7265736574, .paren, .id 0x766F6964, .op 0x29, .nl, .op 0x7B,
  .nl, .id 0x666F72, .op 0x28, .id 0x75696E74385F74, .id 0x69, .op 0x3D, .num 0 false, .op 0x3B, .id 0x69,
  .op 0x3C, .id 0x415344465F4D4F445F4E554D5F4D4F44494649455253, .op 0x3B, .id 0x69, .op 0x2B2B, .op 0x29,
  .op 0x7B, .nl, .id 0x617364665F6B65796D6170735F6164645F6D6170, .paren, .op 0x28, .id 0x636F6E7374,
  .id 0x617364665F6B6579636F64655F74, .op 0x2A, .op 0x29, .id 0x4E554C4C, .op 0x2C, .op 0x28,
  .id 0x6D6F6469666965725F696E6465785F74, .op 0x29, .id 0x69, .op 0x2C, .nl, .num 0 false, .op 0x2C,
  .num 0 false, .op 0x29, .op 0x3B, .nl, .op 0x7D, .nl, .id 0x617364665F7669727475616C5F696E6974, .paren,
  .op 0x29, .op 0x3B, .nl, .id 0x617364665F686F6F6B5F696E6974, .paren, .op 0x29, .op 0x3B, .nl, .op 0x7D, .nl,
  .id 0x766F6964, .id 0x617364665F6B65796D6170735F737769746368, .paren, .id 0x75696E74385F74,
  .id 0x696E646578, .op 0x29, .nl, .op 0x7B, .nl, .id 0x6966, .op 0x28,
  .id 0x617364665F6B65796D61705F76616C6964, .paren, .id 0x696E646578, .op 0x29, .op 0x29, .op 0x7B, .nl,
  .id 0x63757272656E745F6B6579626F6172645F696E646578, .op 0x3D, .id 0x696E646578, .op 0x3B, .nl,
  .id 0x617364665F617263685F696E6974, .paren, .op 0x29, .op 0x3B, .nl,
  .id 0x617364665F6B65796D6170735F7265736574, .paren, .op 0x29, .op 0x3B, .nl,
  .id 0x617364665F6B65796D61705F7365747570, .paren, .id 0x696E646578, .op 0x29, .op 0x3B, .nl, .op 0x7D, .nl,
  .op 0x7D, .nl, .id 0x766F6964, .id 0x617364665F6B65796D6170735F73656C656374, .paren, .id 0x75696E74385F74,
  .id 0x696E646578, .op 0x29, .nl, .op 0x7B, .nl, .id 0x6966, .op 0x28, .id 0x696E646578, .op 0x213D,
  .id 0x63757272656E745F6B6579626F6172645F696E646578, .op 0x29, .op 0x7B, .nl,
  .id 0x617364665F6B65796D6170735F737769746368, .paren, .id 0x696E646578, .op 0x29, .op 0x3B, .nl, .op 0x7D,
  .nl, .op 0x7D, .nl, .id 0x766F6964, .id 0x617364665F6B65796D6170735F696E6974, .paren, .id 0x766F6964,
  .op 0x29, .nl, .op 0x7B, .nl, .id 0x617364665F6B65796D6170735F737769746368, .paren, .num 0 false, .op 0x29,
  .op 0x3B, .nl, .op 0x7D, .nl, .id 0x766F6964,
  .id 0x617364665F6B65796D6170735F6D61705F73656C6563745F305F636C656172, .paren, .id 0x766F6964, .op 0x29, .nl,
  .op 0x7B, .nl, .id 0x617364665F6B65796D6170735F73656C656374, .paren,
  .id 0x63757272656E745F6B6579626F6172645F696E646578, .op 0x26, .op 0x28, .op 0x7E,
  .id 0x415344465F4B45594D41505F4249545F30, .op 0x29, .op 0x29, .op 0x3B, .nl, .op 0x7D, .nl, .id 0x766F6964,
  .id 0x617364665F6B65796D6170735F6D61705F73656C6563745F305F736574, .paren, .id 0x766F6964, .op 0x29, .nl,
  .op 0x7B, .nl, .id 0x617364665F6B65796D6170735F73656C656374, .paren,
  .id 0x63757272656E745F6B6579626F6172645F696E646578, .op 0x7C, .id 0x415344465F4B45594D41505F4249545F30,
  .op 0x29, .op 0x3B, .nl, .op 0x7D, .nl, .id 0x766F6964,
  .id 0x617364665F6B65796D6170735F6D61705F73656C6563745F315F636C656172, .paren, .id 0x766F6964, .op 0x29, .nl,
  .op 0x7B, .nl, .id 0x617364665F6B65796D6170735F73656C656374, .paren,
  .id 0x63757272656E745F6B6579626F6172645F696E646578, .op 0x26, .op 0x28, .op 0x7E,
  .id 0x415344465F4B45594D41505F4249545F31, .op 0x29, .op 0x29, .op 0x3B, .nl, .op 0x7D, .nl, .id 0x766F6964,
  .id 0x617364665F6B65796D6170735F6D61705F73656C6563745F315F736574, .paren, .id 0x766F6964, .op 0x29, .nl,
  .op 0x7B, .nl, .id 0x617364665F6B65796D6170735F73656C656374, .paren,
  .id 0x63757272656E745F6B6579626F6172645F696E646578, .op 0x7C, .id 0x415344465F4B45594D41505F4249545F31,
  .op 0x29, .op 0x3B, .nl, .op 0x7D, .nl, .id 0x766F6964,
  .id 0x617364665F6B65796D6170735F6D61705F73656C6563745F325F636C656172, .paren, .id 0x766F6964, .op 0x29, .nl,
  .op 0x7B, .nl, .id 0x617364665F6B65796D6170735F73656C656374, .paren,
  .id 0x63757272656E745F6B6579626F6172645F696E646578, .op 0x26, .op 0x28, .op 0x7E,
  .id 0x415344465F4B45594D41505F4249545F32, .op 0x29, .op 0x29, .op 0x3B, .nl, .op 0x7D, .nl, .id 0x766F6964,
  .id 0x617364665F6B65796D6170735F6D61705F73656C6563745F325F736574, .paren, .id 0x766F6964, .op 0x29, .nl,
  .op 0x7B, .nl, .id 0x617364665F6B65796D6170735F73656C656374, .paren,
  .id 0x63757272656E745F6B6579626F6172645F696E646578, .op 0x7C, .id 0x415344465F4B45594D41505F4249545F32,
  .op 0x29, .op 0x3B, .nl, .op 0x7D, .nl, .id 0x766F6964,
  .id 0x617364665F6B65796D6170735F6D61705F73656C6563745F335F636C656172, .paren, .id 0x766F6964, .op 0x29, .nl,
  .op 0x7B, .nl, .id 0x617364665F6B65796D6170735F73656C656374, .paren,
  .id 0x63757272656E745F6B6579626F6172645F696E646578, .op 0x26, .op 0x28, .op 0x7E,
  .id 0x415344465F4B45594D41505F4249545F33, .op 0x29, .op 0x29, .op 0x3B, .nl, .op 0x7D, .nl, .id 0x766F6964,
  .id 0x617364665F6B65796D6170735F6D61705F73656C6563745F335F736574, .paren, .id 0x766F6964, .op 0x29, .nl,
  .op 0x7B, .nl, .id 0x617364665F6B65796D6170735F73656C656374, .paren,
  .id 0x63757272656E745F6B6579626F6172645F696E646578, .op 0x7C, .id 0x415344465F4B45594D41505F4249545F33,
  .op 0x29, .op 0x3B, .nl, .op 0x7D, .nl, .id 0x617364665F6B6579636F64655F74,
  .id 0x617364665F6B65796D6170735F6765745F636F6465, .paren, .id 0x636F6E7374, .id 0x75696E74385F74,
  .id 0x726F77, .op 0x2C, .id 0x636F6E7374, .id 0x75696E74385F74, .id 0x636F6C, .op 0x2C, .nl,
  .id 0x636F6E7374, .id 0x75696E74385F74, .id 0x6D6F6469666965725F696E646578, .op 0x29, .nl, .op 0x7B, .nl,
  .id 0x75696E74385F74, .id 0x6E756D5F636F6C73, .op 0x3D, .id 0x6B65796D617073, .op 0x5B,
  .id 0x63757272656E745F6B6579626F6172645F696E646578, .op 0x5D, .op 0x2E, .id 0x636F6C73, .op 0x3B, .nl,
  .id 0x617364665F6B6579636F64655F74, .id 0x6B6579636F6465, .op 0x3D, .num 0 false, .op 0x3B, .nl, .id 0x6966,
  .op 0x28, .id 0x6B65796D617073, .op 0x5B, .id 0x63757272656E745F6B6579626F6172645F696E646578, .op 0x5D,
  .op 0x2E, .id 0x636F6C73, .op 0x2626, .id 0x6B65796D617073, .op 0x5B,
  .id 0x63757272656E745F6B6579626F6172645F696E646578, .op 0x5D, .op 0x2E, .id 0x726F7773, .op 0x29, .op 0x7B,
  .nl, .id 0x617364665F6B6579636F64655F74, .op 0x28, .op 0x2A, .id 0x6B6579636F64655F6D6174726978, .op 0x29,
  .op 0x5B, .id 0x6E756D5F636F6C73, .op 0x5D, .op 0x3D, .op 0x28, .id 0x766F6964, .op 0x2A, .op 0x29,
  .op 0x28, .id 0x6B65796D617073, .op 0x5B, .id 0x6D6F6469666965725F696E646578, .op 0x5D, .op 0x2E,
  .id 0x6D6174726978, .op 0x29, .op 0x3B, .nl, .id 0x6B6579636F6465, .op 0x3D,
  .id 0x464C4153485F524541445F4D41545249585F454C454D454E54, .paren, .id 0x6B6579636F64655F6D6174726978,
  .op 0x2C, .id 0x726F77, .op 0x2C, .id 0x636F6C, .op 0x29, .op 0x3B, .nl, .op 0x7D, .nl, .id 0x72657475726E,
  .id 0x6B6579636F6465, .op 0x3B, .nl, .op 0x7D, .nl]

/-- The tokens of /repo/firmware/asdf/src/asdf.c. -/
def asdf_c : List Tok := [
  .nl, .op 0x23, .id 0x696E636C756465, .op 0x3C, .id 0x737464696F, .op 0x2E, .id 0x68, .op 0x3E, .nl,
  .op 0x23, .id 0x696E636C756465, .op 0x3C, .id 0x737464696E74, .op 0x2E, .id 0x68, .op 0x3E, .nl, .op 0x23,
  .id 0x696E636C756465, .str [97, 115, 100, 102, 46, 104], .nl, .op 0x23, .id 0x696E636C756465,
  .str [97, 115, 100, 102, 95, 97, 115, 99, 105, 105, 46, 104], .nl, .op 0x23, .id 0x696E636C756465,
  .str [97, 115, 100, 102, 95, 112, 104, 121, 115, 105, 99, 97, 108, 46, 104], .nl, .op 0x23,
  .id 0x696E636C756465, .str [97, 115, 100, 102, 95, 118, 105, 114, 116, 117, 97, 108, 46, 104], .nl,
  .op 0x23, .id 0x696E636C756465, .str [97, 115, 100, 102, 95, 107, 101, 121, 109, 97, 112, 115, 46, 104],
  .nl, .op 0x23, .id 0x696E636C756465, .str [97, 115, 100, 102, 95, 114, 101, 112, 101, 97, 116, 46, 104],
  .nl, .op 0x23, .id 0x696E636C756465,
  .str [97, 115, 100, 102, 95, 109, 111, 100, 105, 102, 105, 101, 114, 115, 46, 104], .nl, .op 0x23,
  .id 0x696E636C756465, .str [97, 115, 100, 102, 95, 98, 117, 102, 102, 101, 114, 46, 104], .nl, .op 0x23,
  .id 0x696E636C756465, .str [97, 115, 100, 102, 95, 97, 114, 99, 104, 46, 104], .nl, .op 0x23,
  .id 0x696E636C756465, .str [97, 115, 100, 102, 95, 104, 111, 111, 107, 46, 104], .nl, .id 0x737461746963,
  .id 0x617364665F636F6C735F74, .id 0x6C6173745F737461626C655F6B65795F7374617465, .op 0x5B,
  .id 0x415344465F4D41585F524F5753, .op 0x5D, .op 0x3B, .nl, .id 0x737461746963, .id 0x75696E74385F74,
  .id 0x6465626F756E63655F636F756E74657273, .op 0x5B, .id 0x415344465F4D41585F524F5753, .op 0x5D, .op 0x5B,
  .id 0x415344465F4D41585F434F4C53, .op 0x5D, .op 0x3B, .nl, .id 0x737461746963,
  .id 0x617364665F6B6579636F64655F74, .id 0x6C6173745F6B6579, .op 0x3B, .nl, .id 0x737461746963,
  .id 0x617364665F6275666665725F68616E646C655F74, .id 0x617364665F6B6579636F64655F627566666572, .op 0x3B, .nl,
  .id 0x737461746963, .id 0x617364665F6275666665725F68616E646C655F74,
  .id 0x617364665F6D6573736167655F627566666572, .op 0x3B, .nl, .id 0x737461746963, .id 0x75696E7431365F74,
  .id 0x617364665F7072696E745F64656C61795F6D73, .op 0x3B, .nl, .id 0x766F6964,
  .id 0x617364665F7075745F636F6465, .paren, .id 0x617364665F6B6579636F64655F74, .id 0x636F6465, .op 0x29, .nl,
  .op 0x7B, .nl, .id 0x617364665F6275666665725F707574, .paren, .id 0x617364665F6B6579636F64655F627566666572,
  .op 0x2C, .id 0x636F6465, .op 0x29, .op 0x3B, .nl, .op 0x7D, .nl, .id 0x696E74, .id 0x617364665F70757463,
  .paren, .id 0x63686172, .id 0x63, .op 0x2C, .id 0x46494C45, .op 0x2A, .id 0x73747265616D, .op 0x29, .nl,
  .op 0x7B, .nl, .id 0x6966, .op 0x28, .chr 10, .op 0x3D3D, .id 0x63, .op 0x29, .op 0x7B, .nl,
  .id 0x617364665F70757463, .paren, .chr 13, .op 0x2C, .id 0x73747265616D, .op 0x29, .op 0x3B, .nl, .op 0x7D,
  .nl, .id 0x617364665F6275666665725F707574, .paren, .id 0x617364665F6D6573736167655F627566666572, .op 0x2C,
  .op 0x28, .id 0x617364665F6B6579636F64655F74, .op 0x29, .id 0x63, .op 0x29, .op 0x3B, .nl,
  .id 0x72657475726E, .op 0x28, .id 0x696E74, .op 0x29, .id 0x63, .op 0x3B, .nl, .op 0x7D, .nl,
  .id 0x617364665F6B6579636F64655F74, .id 0x617364665F6E6578745F636F6465, .paren, .id 0x766F6964, .op 0x29,
  .nl, .op 0x7B, .nl, .id 0x617364665F6B6579636F64655F74, .id 0x636F6465, .op 0x3D,
  .id 0x617364665F6275666665725F676574, .paren, .id 0x617364665F6D6573736167655F627566666572, .op 0x29,
  .op 0x3B, .nl, .id 0x6966, .op 0x28, .id 0x415344465F494E56414C49445F434F4445, .op 0x3D3D, .id 0x636F6465,
  .op 0x29, .op 0x7B, .nl, .id 0x636F6465, .op 0x3D, .id 0x617364665F6275666665725F676574, .paren,
  .id 0x617364665F6B6579636F64655F627566666572, .op 0x29, .op 0x3B, .nl, .op 0x7D, .id 0x656C7365, .op 0x7B,
  .nl, .id 0x617364665F617263685F64656C61795F6D73, .paren, .id 0x617364665F7072696E745F64656C61795F6D73,
  .op 0x29, .op 0x3B, .nl, .op 0x7D, .nl, .id 0x72657475726E, .id 0x636F6465, .op 0x3B, .nl, .op 0x7D, .nl,
  .id 0x766F6964, .id 0x617364665F7365745F7072696E745F64656C6179, .paren, .id 0x75696E74385F74,
  .id 0x64656C61795F6D73, .op 0x29, .nl, .op 0x7B, .nl, .id 0x617364665F7072696E745F64656C61795F6D73,
  .op 0x3D, .id 0x64656C61795F6D73, .op 0x3B, .nl, .op 0x7D, .nl, .id 0x617364665F6B6579636F64655F74,
  .id 0x617364665F6C6F6F6B75705F6B6579636F6465, .paren, .id 0x75696E74385F74, .id 0x726F77, .op 0x2C,
  .id 0x75696E74385F74, .id 0x636F6C, .op 0x29, .nl, .op 0x7B, .nl, .id 0x72657475726E,
  .id 0x617364665F6B65796D6170735F6765745F636F6465, .paren, .id 0x726F77, .op 0x2C, .id 0x636F6C, .op 0x2C,
  .id 0x617364665F6D6F6469666965725F696E646578, .paren, .op 0x29, .op 0x29, .op 0x3B, .nl, .op 0x7D, .nl,
  .id 0x737461746963, .id 0x766F6964, .id 0x617364665F61637469766174655F616374696F6E, .paren,
  .id 0x616374696F6E5F74, .id 0x6B6579636F6465, .op 0x29, .nl, .op 0x7B, .nl, .id 0x737769746368, .op 0x28,
  .id 0x6B6579636F6465, .op 0x29, .op 0x7B, .nl, .id 0x63617365, .id 0x414354494F4E5F5348494654, .op 0x3A,
  .op 0x7B, .nl, .id 0x617364665F6D6F6469666965725F73686966745F6163746976617465, .paren, .op 0x29, .op 0x3B,
  .nl, .id 0x627265616B, .op 0x3B, .nl, .op 0x7D, .nl, .id 0x63617365,
  .id 0x414354494F4E5F53484946544C4F434B5F4F4E, .op 0x3A, .op 0x7B, .nl,
  .id 0x617364665F6D6F6469666965725F73686966746C6F636B5F6F6E5F6163746976617465, .paren, .op 0x29, .op 0x3B,
  .nl, .id 0x627265616B, .op 0x3B, .nl, .op 0x7D, .nl, .id 0x63617365,
  .id 0x414354494F4E5F53484946544C4F434B5F544F47474C45, .op 0x3A, .op 0x7B, .nl,
  .id 0x617364665F6D6F6469666965725F73686966746C6F636B5F746F67676C655F6163746976617465, .paren, .op 0x29,
  .op 0x3B, .nl, .id 0x627265616B, .op 0x3B, .nl, .op 0x7D, .nl, .id 0x63617365, .id 0x414354494F4E5F43415053,
  .op 0x3A, .op 0x7B, .nl, .id 0x617364665F6D6F6469666965725F636170736C6F636B5F6163746976617465, .paren,
  .op 0x29, .op 0x3B, .nl, .id 0x627265616B, .op 0x3B, .nl, .op 0x7D, .nl, .id 0x63617365,
  .id 0x414354494F4E5F4354524C, .op 0x3A, .op 0x7B, .nl,
  .id 0x617364665F6D6F6469666965725F6374726C5F6163746976617465, .paren, .op 0x29, .op 0x3B, .nl,
  .id 0x627265616B, .op 0x3B, .nl, .op 0x7D, .nl, .id 0x63617365, .id 0x414354494F4E5F524550454154, .op 0x3A,
  .op 0x7B, .nl, .id 0x617364665F7265706561745F6163746976617465, .paren, .op 0x29, .op 0x3B, .nl,
  .id 0x627265616B, .op 0x3B, .nl, .op 0x7D, .nl, .id 0x63617365, .id 0x414354494F4E5F4D415053454C5F30,
  .op 0x3A, .op 0x7B, .nl, .id 0x617364665F6B65796D6170735F6D61705F73656C6563745F305F736574, .paren, .op 0x29,
  .op 0x3B, .nl, .id 0x627265616B, .op 0x3B, .nl, .op 0x7D, .nl, .id 0x63617365,
  .id 0x414354494F4E5F4D415053454C5F31, .op 0x3A, .op 0x7B, .nl,
  .id 0x617364665F6B65796D6170735F6D61705F73656C6563745F315F736574, .paren, .op 0x29, .op 0x3B, .nl,
  .id 0x627265616B, .op 0x3B, .nl, .op 0x7D, .nl, .id 0x63617365, .id 0x414354494F4E5F4D415053454C5F32,
  .op 0x3A, .op 0x7B, .nl, .id 0x617364665F6B65796D6170735F6D61705F73656C6563745F325F736574, .paren, .op 0x29,
  .op 0x3B, .nl, .id 0x627265616B, .op 0x3B, .nl, .op 0x7D, .nl, .id 0x63617365,
  .id 0x414354494F4E5F4D415053454C5F33, .op 0x3A, .op 0x7B, .nl,
  .id 0x617364665F6B65796D6170735F6D61705F73656C6563745F335F736574, .paren, .op 0x29, .op 0x3B, .nl,
  .id 0x627265616B, .op 0x3B, .nl, .op 0x7D, .nl, .id 0x63617365,
  .id 0x414354494F4E5F5354524F42455F504F4C41524954595F53454C454354, .op 0x3A, .op 0x7B, .nl,
  .id 0x617364665F617263685F7365745F706F735F7374726F6265, .paren, .op 0x29, .op 0x3B, .nl, .id 0x627265616B,
  .op 0x3B, .nl, .op 0x7D, .nl, .id 0x63617365, .id 0x414354494F4E5F4155544F5245504541545F53454C454354,
  .op 0x3A, .op 0x7B, .nl, .id 0x617364665F7265706561745F6175746F5F6F6E, .paren, .op 0x29, .op 0x3B, .nl,
  .id 0x627265616B, .op 0x3B, .nl, .op 0x7D, .nl, .id 0x63617365, .id 0x414354494F4E5F564C454431, .op 0x3A,
  .op 0x7B, .nl, .id 0x617364665F7669727475616C5F6163746976617465, .paren, .id 0x564C454431, .op 0x29,
  .op 0x3B, .nl, .id 0x627265616B, .op 0x3B, .nl, .op 0x7D, .nl, .id 0x63617365,
  .id 0x414354494F4E5F564C454432, .op 0x3A, .op 0x7B, .nl, .id 0x617364665F7669727475616C5F6163746976617465,
  .paren, .id 0x564C454432, .op 0x29, .op 0x3B, .nl, .id 0x627265616B, .op 0x3B, .nl, .op 0x7D, .nl,
  .id 0x63617365, .id 0x414354494F4E5F564C454433, .op 0x3A, .op 0x7B, .nl,
  .id 0x617364665F7669727475616C5F6163746976617465, .paren, .id 0x564C454433, .op 0x29, .op 0x3B, .nl,
  .id 0x627265616B, .op 0x3B, .nl, .op 0x7D, .nl, .id 0x63617365, .id 0x414354494F4E5F564F555431, .op 0x3A,
  .op 0x7B, .nl, .id 0x617364665F7669727475616C5F6163746976617465, .paren, .id 0x564F555431, .op 0x29,
  .op 0x3B, .nl, .id 0x627265616B, .op 0x3B, .nl, .op 0x7D, .nl, .id 0x63617365,
  .id 0x414354494F4E5F564F555432, .op 0x3A, .op 0x7B, .nl, .id 0x617364665F7669727475616C5F6163746976617465,
  .paren, .id 0x564F555432, .op 0x29, .op 0x3B, .nl, .id 0x627265616B, .op 0x3B, .nl, .op 0x7D, .nl,
  .id 0x63617365, .id 0x414354494F4E5F564F555433, .op 0x3A, .op 0x7B, .nl,
  .id 0x617364665F7669727475616C5F6163746976617465, .paren, .id 0x564F555433, .op 0x29, .op 0x3B, .nl,
  .id 0x627265616B, .op 0x3B, .nl, .op 0x7D, .nl, .id 0x63617365, .id 0x414354494F4E5F564F555434, .op 0x3A,
  .op 0x7B, .nl, .id 0x617364665F7669727475616C5F6163746976617465, .paren, .id 0x564F555434, .op 0x29,
  .op 0x3B, .nl, .id 0x627265616B, .op 0x3B, .nl, .op 0x7D, .nl, .id 0x63617365,
  .id 0x414354494F4E5F564F555435, .op 0x3A, .op 0x7B, .nl, .id 0x617364665F7669727475616C5F6163746976617465,
  .paren, .id 0x564F555435, .op 0x29, .op 0x3B, .nl, .id 0x627265616B, .op 0x3B, .nl, .op 0x7D, .nl,
  .id 0x63617365, .id 0x414354494F4E5F564F555436, .op 0x3A, .op 0x7B, .nl,
  .id 0x617364665F7669727475616C5F6163746976617465, .paren, .id 0x564F555436, .op 0x29, .op 0x3B, .nl,
  .id 0x627265616B, .op 0x3B, .nl, .op 0x7D, .nl, .id 0x63617365, .id 0x414354494F4E5F4E4F5448494E47,
  .op 0x3A, .nl, .id 0x63617365, .id 0x414354494F4E5F484552455F4953, .op 0x3A, .nl, .id 0x63617365,
  .id 0x414354494F4E5F464E5F31, .op 0x3A, .nl, .id 0x617364665F686F6F6B5F65786563757465, .paren,
  .id 0x415344465F484F4F4B5F555345525F31, .op 0x29, .op 0x3B, .nl, .id 0x627265616B, .op 0x3B, .nl,
  .id 0x63617365, .id 0x414354494F4E5F464E5F32, .op 0x3A, .nl, .id 0x617364665F686F6F6B5F65786563757465,
  .paren, .id 0x415344465F484F4F4B5F555345525F32, .op 0x29, .op 0x3B, .nl, .id 0x627265616B, .op 0x3B, .nl,
  .id 0x63617365, .id 0x414354494F4E5F464E5F33, .op 0x3A, .nl, .id 0x617364665F686F6F6B5F65786563757465,
  .paren, .id 0x415344465F484F4F4B5F555345525F33, .op 0x29, .op 0x3B, .nl, .id 0x627265616B, .op 0x3B, .nl,
  .id 0x63617365, .id 0x414354494F4E5F464E5F34, .op 0x3A, .nl, .id 0x617364665F686F6F6B5F65786563757465,
  .paren, .id 0x415344465F484F4F4B5F555345525F34, .op 0x29, .op 0x3B, .nl, .id 0x627265616B, .op 0x3B, .nl,
  .id 0x63617365, .id 0x414354494F4E5F464E5F35, .op 0x3A, .nl, .id 0x617364665F686F6F6B5F65786563757465,
  .paren, .id 0x415344465F484F4F4B5F555345525F35, .op 0x29, .op 0x3B, .nl, .id 0x627265616B, .op 0x3B, .nl,
  .id 0x63617365, .id 0x414354494F4E5F464E5F36, .op 0x3A, .nl, .id 0x617364665F686F6F6B5F65786563757465,
  .paren, .id 0x415344465F484F4F4B5F555345525F36, .op 0x29, .op 0x3B, .nl, .id 0x627265616B, .op 0x3B, .nl,
  .id 0x63617365, .id 0x414354494F4E5F464E5F37, .op 0x3A, .nl, .id 0x617364665F686F6F6B5F65786563757465,
  .paren, .id 0x415344465F484F4F4B5F555345525F37, .op 0x29, .op 0x3B, .nl, .id 0x627265616B, .op 0x3B, .nl,
  .id 0x63617365, .id 0x414354494F4E5F464E5F38, .op 0x3A, .nl, .id 0x617364665F686F6F6B5F65786563757465,
  .paren, .id 0x415344465F484F4F4B5F555345525F38, .op 0x29, .op 0x3B, .nl, .id 0x627265616B, .op 0x3B, .nl,
  .id 0x63617365, .id 0x414354494F4E5F464E5F39, .op 0x3A, .nl, .id 0x617364665F686F6F6B5F65786563757465,
  .paren, .id 0x415344465F484F4F4B5F555345525F39, .op 0x29, .op 0x3B, .nl, .id 0x627265616B, .op 0x3B, .nl,
  .id 0x63617365, .id 0x414354494F4E5F464E5F3130, .op 0x3A, .nl, .id 0x617364665F686F6F6B5F65786563757465,
  .paren, .id 0x415344465F484F4F4B5F555345525F3130, .op 0x29, .op 0x3B, .nl, .id 0x627265616B, .op 0x3B, .nl,
  .id 0x64656661756C74, .op 0x3A, .id 0x627265616B, .op 0x3B, .nl, .op 0x7D, .nl, .op 0x7D, .nl,
  .id 0x737461746963, .id 0x766F6964, .id 0x617364665F646561637469766174655F616374696F6E, .paren,
  .id 0x616374696F6E5F74, .id 0x6B6579636F6465, .op 0x29, .nl, .op 0x7B, .nl, .id 0x737769746368, .op 0x28,
  .id 0x6B6579636F6465, .op 0x29, .op 0x7B, .nl, .id 0x63617365, .id 0x414354494F4E5F5348494654, .op 0x3A,
  .op 0x7B, .nl, .id 0x617364665F6D6F6469666965725F73686966745F64656163746976617465, .paren, .op 0x29,
  .op 0x3B, .nl, .id 0x627265616B, .op 0x3B, .nl, .op 0x7D, .nl, .id 0x63617365, .id 0x414354494F4E5F4354524C,
  .op 0x3A, .op 0x7B, .nl, .id 0x617364665F6D6F6469666965725F6374726C5F64656163746976617465, .paren, .op 0x29,
  .op 0x3B, .nl, .id 0x627265616B, .op 0x3B, .nl, .op 0x7D, .nl, .id 0x63617365,
  .id 0x414354494F4E5F524550454154, .op 0x3A, .op 0x7B, .nl,
  .id 0x617364665F7265706561745F64656163746976617465, .paren, .op 0x29, .op 0x3B, .nl, .id 0x627265616B,
  .op 0x3B, .nl, .op 0x7D, .nl, .id 0x63617365, .id 0x414354494F4E5F4D415053454C5F30, .op 0x3A, .op 0x7B, .nl,
  .id 0x617364665F6B65796D6170735F6D61705F73656C6563745F305F636C656172, .paren, .op 0x29, .op 0x3B, .nl,
  .id 0x627265616B, .op 0x3B, .nl, .op 0x7D, .nl, .id 0x63617365, .id 0x414354494F4E5F4D415053454C5F31,
  .op 0x3A, .op 0x7B, .nl, .id 0x617364665F6B65796D6170735F6D61705F73656C6563745F315F636C656172, .paren,
  .op 0x29, .op 0x3B, .nl, .id 0x627265616B, .op 0x3B, .nl, .op 0x7D, .nl, .id 0x63617365,
  .id 0x414354494F4E5F4D415053454C5F32, .op 0x3A, .op 0x7B, .nl,
  .id 0x617364665F6B65796D6170735F6D61705F73656C6563745F325F636C656172, .paren, .op 0x29, .op 0x3B, .nl,
  .id 0x627265616B, .op 0x3B, .nl, .op 0x7D, .nl, .id 0x63617365, .id 0x414354494F4E5F4D415053454C5F33,
  .op 0x3A, .op 0x7B, .nl, .id 0x617364665F6B65796D6170735F6D61705F73656C6563745F335F636C656172, .paren,
  .op 0x29, .op 0x3B, .nl, .id 0x627265616B, .op 0x3B, .nl, .op 0x7D, .nl, .id 0x63617365,
  .id 0x414354494F4E5F5354524F42455F504F4C41524954595F53454C454354, .op 0x3A, .op 0x7B, .nl,
  .id 0x617364665F617263685F7365745F6E65675F7374726F6265, .paren, .op 0x29, .op 0x3B, .nl, .id 0x627265616B,
  .op 0x3B, .nl, .op 0x7D, .nl, .id 0x63617365, .id 0x414354494F4E5F4155544F5245504541545F53454C454354,
  .op 0x3A, .op 0x7B, .nl, .id 0x617364665F7265706561745F6175746F5F6F6666, .paren, .op 0x29, .op 0x3B, .nl,
  .id 0x627265616B, .op 0x3B, .nl, .op 0x7D, .nl, .id 0x63617365, .id 0x414354494F4E5F4E4F5448494E47,
  .op 0x3A, .nl, .id 0x64656661756C74, .op 0x3A, .id 0x627265616B, .op 0x3B, .nl, .op 0x7D, .nl, .op 0x7D,
  .nl, .id 0x737461746963, .id 0x766F6964, .id 0x617364665F61637469766174655F6B6579, .paren,
  .id 0x617364665F6B6579636F64655F74, .id 0x6B6579636F6465, .op 0x29, .nl, .op 0x7B, .nl, .id 0x6966,
  .op 0x28, .id 0x6B6579636F6465, .op 0x3E, .id 0x415344465F414354494F4E, .op 0x29, .op 0x7B, .nl,
  .id 0x617364665F61637469766174655F616374696F6E, .paren, .op 0x28, .id 0x616374696F6E5F74, .op 0x29,
  .id 0x6B6579636F6465, .op 0x29, .op 0x3B, .nl, .op 0x7D, .nl, .id 0x656C7365, .op 0x7B, .nl,
  .id 0x617364665F7075745F636F6465, .paren, .id 0x6B6579636F6465, .op 0x29, .op 0x3B, .nl, .id 0x6966,
  .op 0x28, .id 0x6C6173745F6B6579, .op 0x213D, .id 0x6B6579636F6465, .op 0x29, .op 0x7B, .nl,
  .id 0x6C6173745F6B6579, .op 0x3D, .id 0x6B6579636F6465, .op 0x3B, .nl,
  .id 0x617364665F7265706561745F72657365745F636F756E74, .paren, .op 0x29, .op 0x3B, .nl, .op 0x7D, .nl,
  .op 0x7D, .nl, .op 0x7D, .nl, .id 0x737461746963, .id 0x766F6964,
  .id 0x617364665F646561637469766174655F6B6579, .paren, .id 0x617364665F6B6579636F64655F74,
  .id 0x6B6579636F6465, .op 0x29, .nl, .op 0x7B, .nl, .id 0x6966, .op 0x28, .id 0x6B6579636F6465, .op 0x3E,
  .id 0x415344465F414354494F4E, .op 0x29, .op 0x7B, .nl, .id 0x617364665F646561637469766174655F616374696F6E,
  .paren, .op 0x28, .id 0x616374696F6E5F74, .op 0x29, .id 0x6B6579636F6465, .op 0x29, .op 0x3B, .nl, .op 0x7D,
  .nl, .id 0x656C7365, .op 0x7B, .nl, .id 0x6966, .op 0x28, .id 0x6C6173745F6B6579, .op 0x3D3D,
  .id 0x6B6579636F6465, .op 0x29, .op 0x7B, .nl, .id 0x6C6173745F6B6579, .op 0x3D,
  .id 0x414354494F4E5F4E4F5448494E47, .op 0x3B, .nl, .op 0x7D, .nl, .op 0x7D, .nl, .op 0x7D, .nl,
  .id 0x737461746963, .id 0x766F6964, .id 0x617364665F68616E646C655F6B65795F70726573735F6F725F72656C65617365,
  .paren, .id 0x75696E74385F74, .id 0x726F77, .op 0x2C, .id 0x75696E74385F74, .id 0x636F6C, .op 0x2C,
  .id 0x75696E74385F74, .id 0x6B65795F7761735F70726573736564, .op 0x29, .nl, .op 0x7B, .nl,
  .id 0x75696E74385F74, .op 0x2A, .id 0x6465626F756E63655F636F756E74, .op 0x3D, .op 0x26,
  .id 0x6465626F756E63655F636F756E74657273, .op 0x5B, .id 0x726F77, .op 0x5D, .op 0x5B, .id 0x636F6C,
  .op 0x5D, .op 0x3B, .nl, .id 0x6966, .op 0x28, .op 0x21, .op 0x28, .op 0x2D2D, .op 0x28, .op 0x2A,
  .id 0x6465626F756E63655F636F756E74, .op 0x29, .op 0x29, .op 0x29, .op 0x7B, .nl, .op 0x2A,
  .id 0x6465626F756E63655F636F756E74, .op 0x3D, .id 0x415344465F4445424F554E43455F54494D455F4D53, .op 0x3B,
  .nl, .id 0x6966, .op 0x28, .id 0x6B65795F7761735F70726573736564, .op 0x29, .op 0x7B, .nl,
  .id 0x6C6173745F737461626C655F6B65795F7374617465, .op 0x5B, .id 0x726F77, .op 0x5D, .op 0x7C3D,
  .num 1 false, .op 0x3C3C, .id 0x636F6C, .op 0x3B, .nl, .id 0x617364665F61637469766174655F6B6579, .paren,
  .id 0x617364665F6C6F6F6B75705F6B6579636F6465, .paren, .id 0x726F77, .op 0x2C, .id 0x636F6C, .op 0x29,
  .op 0x29, .op 0x3B, .nl, .op 0x7D, .nl, .id 0x656C7365, .op 0x7B, .nl,
  .id 0x6C6173745F737461626C655F6B65795F7374617465, .op 0x5B, .id 0x726F77, .op 0x5D, .op 0x263D, .op 0x7E,
  .op 0x28, .num 1 false, .op 0x3C3C, .id 0x636F6C, .op 0x29, .op 0x3B, .nl,
  .id 0x617364665F646561637469766174655F6B6579, .paren, .id 0x617364665F6C6F6F6B75705F6B6579636F6465, .paren,
  .id 0x726F77, .op 0x2C, .id 0x636F6C, .op 0x29, .op 0x29, .op 0x3B, .nl, .op 0x7D, .nl, .op 0x7D, .nl,
  .op 0x7D, .nl, .id 0x737461746963, .id 0x766F6964,
  .id 0x617364665F68616E646C655F6B65795F68656C645F70726573736564, .paren, .id 0x75696E74385F74, .id 0x726F77,
  .op 0x2C, .id 0x75696E74385F74, .id 0x636F6C, .op 0x29, .nl, .op 0x7B, .nl, .id 0x6966, .op 0x28,
  .id 0x617364665F6C6F6F6B75705F6B6579636F6465, .paren, .id 0x726F77, .op 0x2C, .id 0x636F6C, .op 0x29,
  .op 0x3D3D, .id 0x6C6173745F6B6579, .op 0x29, .op 0x7B, .nl, .id 0x6966, .op 0x28,
  .id 0x617364665F726570656174, .paren, .op 0x29, .op 0x29, .op 0x7B, .nl,
  .id 0x617364665F61637469766174655F6B6579, .paren, .id 0x6C6173745F6B6579, .op 0x29, .op 0x3B, .nl, .op 0x7D,
  .nl, .op 0x7D, .nl, .op 0x7D, .nl, .id 0x766F6964, .id 0x617364665F6B65797363616E, .paren, .id 0x766F6964,
  .op 0x29, .nl, .op 0x7B, .nl, .id 0x617364665F636F6C735F74, .op 0x28, .op 0x2A, .id 0x726F775F726561646572,
  .op 0x29, .op 0x28, .id 0x75696E74385F74, .op 0x29, .op 0x3D, .op 0x28, .id 0x617364665F636F6C735F74,
  .paren, .op 0x2A, .op 0x29, .op 0x28, .id 0x75696E74385F74, .op 0x29, .op 0x29,
  .id 0x617364665F686F6F6B5F676574, .paren, .id 0x415344465F484F4F4B5F524F575F5343414E4E4552, .op 0x29,
  .op 0x3B, .nl, .id 0x617364665F686F6F6B5F65786563757465, .paren,
  .id 0x415344465F484F4F4B5F454143485F5343414E, .op 0x29, .op 0x3B, .nl, .id 0x666F72, .op 0x28,
  .id 0x75696E74385F74, .id 0x726F77, .op 0x3D, .num 0 false, .op 0x3B, .id 0x726F77, .op 0x3C,
  .id 0x617364665F6B65796D6170735F6E756D5F726F7773, .paren, .op 0x29, .op 0x3B, .id 0x726F77, .op 0x2B2B,
  .op 0x29, .op 0x7B, .nl, .id 0x617364665F636F6C735F74, .id 0x726F775F6B65795F7374617465, .op 0x3D, .op 0x28,
  .op 0x2A, .id 0x726F775F726561646572, .op 0x29, .op 0x28, .id 0x726F77, .op 0x29, .op 0x3B, .nl,
  .id 0x617364665F636F6C735F74, .id 0x6368616E676564, .op 0x3D, .id 0x726F775F6B65795F7374617465, .op 0x5E,
  .id 0x6C6173745F737461626C655F6B65795F7374617465, .op 0x5B, .id 0x726F77, .op 0x5D, .op 0x3B, .nl,
  .id 0x666F72, .op 0x28, .id 0x75696E74385F74, .id 0x636F6C, .op 0x3D, .num 0 false, .op 0x3B, .id 0x636F6C,
  .op 0x3C, .id 0x617364665F6B65796D6170735F6E756D5F636F6C73, .paren, .op 0x29, .op 0x3B, .id 0x636F6C,
  .op 0x2B2B, .op 0x29, .op 0x7B, .nl, .id 0x6966, .op 0x28, .id 0x6368616E676564, .op 0x26, .num 1 false,
  .op 0x29, .op 0x7B, .nl, .id 0x617364665F68616E646C655F6B65795F70726573735F6F725F72656C65617365, .paren,
  .id 0x726F77, .op 0x2C, .id 0x636F6C, .op 0x2C, .id 0x726F775F6B65795F7374617465, .op 0x26, .num 1 false,
  .op 0x29, .op 0x3B, .nl, .op 0x7D, .nl, .id 0x656C7365, .id 0x6966, .op 0x28,
  .id 0x726F775F6B65795F7374617465, .op 0x26, .num 1 false, .op 0x29, .op 0x7B, .nl,
  .id 0x617364665F68616E646C655F6B65795F68656C645F70726573736564, .paren, .id 0x726F77, .op 0x2C,
  .id 0x636F6C, .op 0x29, .op 0x3B, .nl, .op 0x7D, .nl, .id 0x6368616E676564, .op 0x3E3E3D, .num 1 false,
  .op 0x3B, .nl, .id 0x726F775F6B65795F7374617465, .op 0x3E3E3D, .num 1 false, .op 0x3B, .nl, .op 0x7D, .nl,
  .op 0x7D, .nl, .op 0x7D, .nl, .id 0x766F6964, .id 0x617364665F6170706C795F616C6C5F616374696F6E73, .paren,
  .id 0x766F6964, .op 0x29, .nl, .op 0x7B, .nl, .id 0x617364665F636F6C735F74, .op 0x28, .op 0x2A,
  .id 0x726F775F726561646572, .op 0x29, .op 0x28, .id 0x75696E74385F74, .op 0x29, .op 0x3D, .op 0x28,
  .id 0x617364665F636F6C735F74, .paren, .op 0x2A, .op 0x29, .op 0x28, .id 0x75696E74385F74, .op 0x29,
  .op 0x29, .id 0x617364665F686F6F6B5F676574, .paren, .id 0x415344465F484F4F4B5F524F575F5343414E4E4552,
  .op 0x29, .op 0x3B, .nl, .id 0x666F72, .op 0x28, .id 0x75696E74385F74, .id 0x726F77, .op 0x3D, .num 0 false,
  .op 0x3B, .id 0x726F77, .op 0x3C, .id 0x617364665F6B65796D6170735F6E756D5F726F7773, .paren, .op 0x29,
  .op 0x3B, .id 0x726F77, .op 0x2B2B, .op 0x29, .op 0x7B, .nl, .id 0x617364665F636F6C735F74,
  .id 0x726F775F6B65795F7374617465, .op 0x3D, .op 0x28, .op 0x2A, .id 0x726F775F726561646572, .op 0x29,
  .op 0x28, .id 0x726F77, .op 0x29, .op 0x3B, .nl, .id 0x6C6173745F737461626C655F6B65795F7374617465, .op 0x5B,
  .id 0x726F77, .op 0x5D, .op 0x3D, .id 0x726F775F6B65795F7374617465, .op 0x3B, .nl, .id 0x666F72, .op 0x28,
  .id 0x75696E74385F74, .id 0x636F6C, .op 0x3D, .num 0 false, .op 0x3B, .id 0x636F6C, .op 0x3C,
  .id 0x617364665F6B65796D6170735F6E756D5F636F6C73, .paren, .op 0x29, .op 0x3B, .id 0x636F6C, .op 0x2B2B,
  .op 0x29, .op 0x7B, .nl, .id 0x617364665F6B6579636F64655F74, .id 0x636F6465, .op 0x3D,
  .id 0x617364665F6C6F6F6B75705F6B6579636F6465, .paren, .id 0x726F77, .op 0x2C, .id 0x636F6C, .op 0x29,
  .op 0x3B, .nl, .id 0x6966, .op 0x28, .id 0x726F775F6B65795F7374617465, .op 0x26, .num 1 false, .op 0x29,
  .op 0x7B, .nl, .id 0x617364665F61637469766174655F616374696F6E, .paren, .id 0x636F6465, .op 0x29, .op 0x3B,
  .nl, .op 0x7D, .id 0x656C7365, .op 0x7B, .nl, .id 0x617364665F646561637469766174655F616374696F6E, .paren,
  .id 0x636F6465, .op 0x29, .op 0x3B, .nl, .op 0x7D, .nl, .id 0x726F775F6B65795F7374617465, .op 0x3E3E3D,
  .num 1 false, .op 0x3B, .nl, .op 0x7D, .nl, .op 0x7D, .nl, .op 0x7D, .nl, .id 0x766F6964,
  .id 0x617364665F696E6974, .paren, .id 0x766F6964, .op 0x29, .nl, .op 0x7B, .nl, .id 0x6C6173745F6B6579,
  .op 0x3D, .id 0x414354494F4E5F4E4F5448494E47, .op 0x3B, .nl, .id 0x617364665F6275666665725F696E6974, .paren,
  .op 0x29, .op 0x3B, .nl, .id 0x617364665F7265706561745F696E6974, .paren, .op 0x29, .op 0x3B, .nl,
  .id 0x617364665F6B65796D6170735F696E6974, .paren, .op 0x29, .op 0x3B, .nl,
  .id 0x617364665F6B6579636F64655F627566666572, .op 0x3D, .id 0x617364665F6275666665725F6E6577, .paren,
  .id 0x415344465F4B4559434F44455F4255464645525F53495A45, .op 0x29, .op 0x3B, .nl,
  .id 0x617364665F6D6573736167655F627566666572, .op 0x3D, .id 0x617364665F6275666665725F6E6577, .paren,
  .id 0x415344465F4D4553534147455F4255464645525F53495A45, .op 0x29, .op 0x3B, .nl, .id 0x666F72, .op 0x28,
  .id 0x75696E74385F74, .id 0x726F77, .op 0x3D, .num 0 false, .op 0x3B, .id 0x726F77, .op 0x3C,
  .id 0x415344465F4D41585F524F5753, .op 0x3B, .id 0x726F77, .op 0x2B2B, .op 0x29, .op 0x7B, .nl,
  .id 0x6C6173745F737461626C655F6B65795F7374617465, .op 0x5B, .id 0x726F77, .op 0x5D, .op 0x3D, .num 0 false,
  .op 0x3B, .nl, .id 0x666F72, .op 0x28, .id 0x75696E74385F74, .id 0x636F6C, .op 0x3D, .num 0 false, .op 0x3B,
  .id 0x636F6C, .op 0x3C, .id 0x415344465F4D41585F434F4C53, .op 0x3B, .id 0x636F6C, .op 0x2B2B, .op 0x29,
  .op 0x7B, .nl, .id 0x6465626F756E63655F636F756E74657273, .op 0x5B, .id 0x726F77, .op 0x5D, .op 0x5B,
  .id 0x636F6C, .op 0x5D, .op 0x3D, .id 0x415344465F4445424F554E43455F54494D455F4D53, .op 0x3B, .nl, .op 0x7D,
  .nl, .op 0x7D, .nl, .op 0x7D, .nl]

/-- The tokens of /repo/firmware/asdf/src/main.c. -/
def main_c : List Tok := [
  .nl, .op 0x23, .id 0x696E636C756465, .op 0x3C, .id 0x737464696E74, .op 0x2E, .id 0x68, .op 0x3E, .nl,
  .op 0x23, .id 0x696E636C756465, .str [97, 115, 100, 102, 46, 104], .nl, .op 0x23, .id 0x696E636C756465,
  .str [97, 115, 100, 102, 95, 97, 114, 99, 104, 46, 104], .nl, .op 0x23, .id 0x696E636C756465,
  .str [97, 115, 100, 102, 95, 98, 117, 102, 102, 101, 114, 46, 104], .nl, .op 0x23, .id 0x696E636C756465,
  .str [97, 115, 100, 102, 95, 104, 111, 111, 107, 46, 104], .nl, .id 0x696E74, .id 0x6D61696E, .paren,
  .id 0x766F6964, .op 0x29, .nl, .op 0x7B, .nl, .id 0x617364665F696E6974, .paren, .op 0x29, .op 0x3B, .nl,
  .id 0x7768696C65, .op 0x28, .num 1 false, .op 0x29, .op 0x7B, .nl, .id 0x6966, .op 0x28,
  .id 0x617364665F617263685F7469636B, .paren, .op 0x29, .op 0x29, .op 0x7B, .nl,
  .id 0x617364665F6B6579636F64655F74, .id 0x636F6465, .op 0x3D, .id 0x617364665F6E6578745F636F6465, .paren,
  .op 0x29, .op 0x3B, .nl, .id 0x6966, .op 0x28, .id 0x636F6465, .op 0x3C,
  .id 0x415344465F494E56414C49445F434F4445, .op 0x29, .op 0x7B, .nl, .id 0x766F6964, .op 0x28, .op 0x2A,
  .id 0x6F75747075745F66756E6374696F6E, .op 0x29, .op 0x28, .id 0x617364665F6B6579636F64655F74, .op 0x29,
  .op 0x3D, .nl, .op 0x28, .id 0x766F6964, .op 0x28, .op 0x2A, .op 0x29, .op 0x28,
  .id 0x617364665F6B6579636F64655F74, .op 0x29, .op 0x29, .id 0x617364665F686F6F6B5F676574, .paren,
  .id 0x415344465F484F4F4B5F4F5554505554, .op 0x29, .op 0x3B, .nl, .op 0x28, .op 0x2A,
  .id 0x6F75747075745F66756E6374696F6E, .op 0x29, .op 0x28, .id 0x636F6465, .op 0x29, .op 0x3B, .nl, .op 0x7D,
  .nl, .id 0x617364665F6B65797363616E, .paren, .op 0x29, .op 0x3B, .nl, .op 0x7D, .nl, .op 0x7D, .nl,
  .op 0x7D, .nl]

/-- The tokens of /repo/firmware/asdf/src/Keymaps/asdf_keymap_defs_dipswitch.h. -/
def asdf_keymap_defs_dipswitch_h : List Tok := [
  .nl, .op 0x23, .id 0x6966, .op 0x21, .id 0x646566696E6564, .op 0x28, .id 0x444550535F4449505357495443485F48,
  .op 0x29, .nl, .op 0x23, .id 0x646566696E65, .id 0x444550535F4449505357495443485F48, .nl, .op 0x23,
  .id 0x646566696E65, .id 0x415344465F4B45594D41505F4449505F5357495443484553, .op 0x5B,
  .id 0x415344465F415243485F4449505357495443485F524F57, .op 0x5D, .op 0x3D, .op 0x7B, .op 0x5B, .num 0 false,
  .op 0x5D, .op 0x3D, .id 0x414354494F4E5F4D415053454C5F30, .op 0x2C, .op 0x5B, .num 1 false, .op 0x5D,
  .op 0x3D, .id 0x414354494F4E5F4D415053454C5F31, .op 0x2C, .op 0x5B, .num 2 false, .op 0x5D, .op 0x3D,
  .id 0x414354494F4E5F4D415053454C5F32, .op 0x2C, .op 0x5B, .num 3 false, .op 0x5D, .op 0x3D,
  .id 0x414354494F4E5F4D415053454C5F33, .op 0x2C, .op 0x5B, .num 5 false, .op 0x5D, .op 0x3D,
  .id 0x414354494F4E5F464E5F3131, .op 0x2C, .op 0x5B, .num 6 false, .op 0x5D, .op 0x3D,
  .id 0x414354494F4E5F5354524F42455F504F4C41524954595F53454C454354, .op 0x2C, .op 0x5B, .num 7 false,
  .op 0x5D, .op 0x3D, .id 0x414354494F4E5F4155544F5245504541545F53454C454354, .op 0x2C, .op 0x7D, .nl,
  .op 0x23, .id 0x656E646966, .nl]

/-- The tokens of /repo/firmware/asdf/src/Keymaps/asdf_keymap_classic.h. -/
def asdf_keymap_classic_h : List Tok := [
  .nl, .op 0x23, .id 0x6966, .op 0x21, .id 0x646566696E6564, .paren,
  .id 0x415344465F4B45594D41505F444546535F434C41535349435F48, .op 0x29, .nl, .op 0x23, .id 0x646566696E65,
  .id 0x415344465F4B45594D41505F444546535F434C41535349435F48, .nl, .op 0x23, .id 0x696E636C756465,
  .str [97, 115, 100, 102, 95, 104, 111, 111, 107, 46, 104], .nl, .op 0x23, .id 0x646566696E65,
  .id 0x434C41535349435F4E554D5F524F5753, .num 9 false, .nl, .op 0x23, .id 0x646566696E65,
  .id 0x434C41535349435F4E554D5F434F4C53, .num 8 false, .nl, .op 0x23, .id 0x646566696E65,
  .id 0x434C41535349435F414354494F4E5F425245414B, .id 0x414354494F4E5F4E4F5448494E47, .nl, .op 0x23,
  .id 0x646566696E65, .id 0x434C41535349435F5649525455414C5F5245534554, .id 0x564F555431, .nl, .op 0x23,
  .id 0x646566696E65, .id 0x434C41535349435F414354494F4E5F5245534554, .id 0x414354494F4E5F564F555431, .nl,
  .op 0x23, .id 0x646566696E65, .id 0x434C41535349435F52455345545F4F5554505554,
  .id 0x504859534943414C5F4F5554335F4F50454E5F4849, .nl, .op 0x23, .id 0x646566696E65,
  .id 0x434C41535349435F52455345545F4143544956455F56414C5545, .num 0 false, .nl, .op 0x23, .id 0x646566696E65,
  .id 0x434C41535349435F5649525455414C5F434C525F534352, .id 0x564F555432, .nl, .op 0x23, .id 0x646566696E65,
  .id 0x434C41535349435F414354494F4E5F434C454152, .id 0x414354494F4E5F564F555432, .nl, .op 0x23,
  .id 0x646566696E65, .id 0x434C41535349435F434C525F5343525F4F5554,
  .id 0x504859534943414C5F4F5554315F4F50454E5F4C4F, .nl, .op 0x23, .id 0x646566696E65,
  .id 0x434C41535349435F434C525F5343525F4143544956455F56414C5545, .num 1 false, .nl, .op 0x23,
  .id 0x646566696E65, .id 0x434C41535349435F5649525455414C5F504F5745525F4C4544, .id 0x564C454431, .nl,
  .op 0x23, .id 0x646566696E65, .id 0x434C41535349435F504F5745525F4C4544, .id 0x504859534943414C5F4C454431,
  .nl, .op 0x23, .id 0x646566696E65, .id 0x434C41535349435F504F5745525F4C45445F494E49545F56414C5545,
  .num 1 false, .nl, .op 0x23, .id 0x646566696E65, .id 0x434C41535349435F434150535F4C4544,
  .id 0x504859534943414C5F4C454433, .nl, .op 0x23, .id 0x646566696E65,
  .id 0x434C41535349435F434150535F4C45445F494E49545F56414C5545, .num 0 false, .nl, .op 0x23,
  .id 0x646566696E65, .id 0x434C41535349435F49445F4D4553534147455F484F4F4B,
  .id 0x415344465F484F4F4B5F555345525F3130, .nl, .op 0x23, .id 0x646566696E65,
  .id 0x4150504C45534F46545F4B4559424F4152445F544553545F484F4F4B, .id 0x415344465F484F4F4B5F555345525F39, .nl,
  .op 0x23, .id 0x646566696E65, .id 0x415344465F434C41535349435F5052494E545F5350454544, .num 40 false, .nl,
  .op 0x23, .id 0x656E646966, .nl]

/-- The tokens of /repo/firmware/asdf/src/Keymaps/asdf_keymap_classic_add_map.h. -/
def asdf_keymap_classic_add_map_h : List Tok := [
  .nl, .op 0x23, .id 0x6966, .op 0x21, .id 0x646566696E6564, .paren,
  .id 0x415344465F4B45594D41505F434C41535349435F4144445F4D41505F48, .op 0x29, .nl, .op 0x23,
  .id 0x646566696E65, .id 0x415344465F4B45594D41505F434C41535349435F4144445F4D41505F48, .nl, .op 0x23,
  .id 0x696E636C756465, .str [97, 115, 100, 102, 95, 109, 111, 100, 105, 102, 105, 101, 114, 115, 46, 104],
  .nl, .id 0x74797065646566, .id 0x656E756D, .op 0x7B, .nl, .id 0x434C41535349435F504C41494E5F4D4150,
  .op 0x2C, .nl, .id 0x434C41535349435F434150535F4D4150, .op 0x2C, .nl,
  .id 0x434C41535349435F53484946545F4D4150, .op 0x2C, .nl, .id 0x434C41535349435F4354524C5F4D4150, .op 0x2C,
  .nl, .op 0x7D, .id 0x636C61737369635F6D61705F696E6465785F74, .op 0x3B, .nl, .id 0x766F6964,
  .id 0x636C61737369635F6164645F6D6170, .paren, .id 0x636F6E7374,
  .id 0x636C61737369635F6D61705F696E6465785F74, .id 0x6D61705F696E646578, .op 0x2C,
  .id 0x6D6F6469666965725F696E6465785F74, .id 0x6D6F6469666965725F696E646578, .op 0x29, .op 0x3B, .nl,
  .op 0x23, .id 0x656E646966, .nl]

/-- The tokens of /repo/firmware/asdf/src/Keymaps/asdf_keymap_apple2.h. -/
def asdf_keymap_apple2_h : List Tok := [
  .nl, .op 0x23, .id 0x6966, .op 0x21, .id 0x646566696E6564, .paren,
  .id 0x415344465F4B45594D41505F444546535F4150504C45325F48, .op 0x29, .nl, .op 0x23, .id 0x646566696E65,
  .id 0x415344465F4B45594D41505F444546535F4150504C45325F48, .nl, .op 0x23, .id 0x696E636C756465,
  .str [97, 115, 100, 102, 95, 104, 111, 111, 107, 46, 104], .nl, .op 0x23, .id 0x646566696E65,
  .id 0x4150504C45534F46545F4B4559424F4152445F54455354, .id 0x415344465F484F4F4B5F555345525F33, .nl, .op 0x23,
  .id 0x646566696E65, .id 0x4150504C45325F49445F4D455353414745, .id 0x415344465F484F4F4B5F555345525F3130, .nl,
  .op 0x23, .id 0x646566696E65, .id 0x4150504C45325F41534349495F54455354,
  .id 0x415344465F484F4F4B5F555345525F3131, .nl, .op 0x23, .id 0x646566696E65,
  .id 0x4150504C45325F5052494E545F44454C4159, .num 40 false, .nl, .op 0x23, .id 0x656E646966, .nl]

/-- The tokens of /repo/firmware/asdf/src/Keymaps/asdf_keymap_apple2_caps.h. -/
def asdf_keymap_apple2_caps_h : List Tok := [
  .nl, .op 0x23, .id 0x6966, .op 0x21, .id 0x646566696E6564, .paren,
  .id 0x415344465F4B45594D41505F444546535F4150504C45325F434150535F48, .op 0x29, .nl, .op 0x23,
  .id 0x646566696E65, .id 0x415344465F4B45594D41505F444546535F4150504C45325F434150535F48, .nl, .op 0x23,
  .id 0x646566696E65, .id 0x4150504C45534F46545F4B4559424F4152445F54455354,
  .id 0x415344465F484F4F4B5F555345525F39, .nl, .op 0x23, .id 0x646566696E65,
  .id 0x4150504C45325F434150535F49445F4D455353414745, .id 0x415344465F484F4F4B5F555345525F3130, .nl, .op 0x23,
  .id 0x646566696E65, .id 0x4150504C45325F5052494E545F44454C4159, .num 40 false, .nl, .op 0x23,
  .id 0x656E646966, .nl]

/-- The tokens of /repo/firmware/asdf/src/Keymaps/asdf_keymap_apple2_add_map.h. -/
def asdf_keymap_apple2_add_map_h : List Tok := [
  .nl, .op 0x23, .id 0x6966, .op 0x21, .id 0x646566696E6564, .paren,
  .id 0x415344465F4B45594D41505F4150504C455F4144445F4D41505F48, .op 0x29, .nl, .op 0x23, .id 0x646566696E65,
  .id 0x415344465F4B45594D41505F4150504C455F4144445F4D41505F48, .nl, .op 0x23, .id 0x696E636C756465,
  .str [97, 115, 100, 102, 95, 107, 101, 121, 109, 97, 112, 95, 100, 101, 102, 115, 95, 100, 105, 112, 115, 119, 105, 116, 99, 104, 46, 104],
  .nl, .op 0x23, .id 0x696E636C756465,
  .str [97, 115, 100, 102, 95, 109, 111, 100, 105, 102, 105, 101, 114, 115, 46, 104], .nl, .op 0x23,
  .id 0x646566696E65, .id 0x415344465F4150504C45325F4E554D5F524F5753, .num 9 false, .nl, .op 0x23,
  .id 0x646566696E65, .id 0x415344465F4150504C45325F4E554D5F434F4C53, .num 8 false, .nl, .op 0x23,
  .id 0x646566696E65, .id 0x4150504C455F414354494F4E5F5245534554, .id 0x414354494F4E5F564F555431, .nl,
  .op 0x23, .id 0x646566696E65, .id 0x4150504C455F5649525455414C5F5245534554, .id 0x564F555431, .nl, .op 0x23,
  .id 0x646566696E65, .id 0x4150504C455F52455345545F4F5554505554,
  .id 0x504859534943414C5F4F5554335F4F50454E5F4849, .nl, .op 0x23, .id 0x646566696E65,
  .id 0x4150504C455F52455345545F4143544956455F56414C5545, .num 0 false, .nl, .op 0x23, .id 0x646566696E65,
  .id 0x4150504C455F414354494F4E5F434C454152, .id 0x414354494F4E5F564F555432, .nl, .op 0x23,
  .id 0x646566696E65, .id 0x4150504C455F5649525455414C5F434C525F534352, .id 0x564F555432, .nl, .op 0x23,
  .id 0x646566696E65, .id 0x4150504C455F434C525F5343525F4F5554505554,
  .id 0x504859534943414C5F4F5554315F4F50454E5F4C4F, .nl, .op 0x23, .id 0x646566696E65,
  .id 0x4150504C455F434C525F5343525F4143544956455F56414C5545, .num 1 false, .nl, .op 0x23, .id 0x646566696E65,
  .id 0x4150504C455F5649525455414C5F504F5745525F4C4544, .id 0x564C454431, .nl, .op 0x23, .id 0x646566696E65,
  .id 0x4150504C455F504F5745525F4C4544, .id 0x504859534943414C5F4C454431, .nl, .op 0x23, .id 0x646566696E65,
  .id 0x4150504C455F504F5745525F4C45445F494E49545F56414C5545, .num 0 false, .nl, .op 0x23, .id 0x646566696E65,
  .id 0x4150504C455F5649525455414C5F44495341424C45445F4C4544, .id 0x564C454432, .nl, .op 0x23,
  .id 0x646566696E65, .id 0x4150504C455F44495341424C45445F4C4544, .id 0x504859534943414C5F4C454433, .nl,
  .op 0x23, .id 0x646566696E65, .id 0x4150504C455F44495341424C45445F494E49545F56414C5545, .num 0 false, .nl,
  .op 0x23, .id 0x646566696E65, .id 0x415344465F4150504C45325F4449505F5357495443484553,
  .id 0x415344465F4B45594D41505F4449505F5357495443484553, .nl, .op 0x23, .id 0x646566696E65,
  .id 0x4150504C455F4C4546545F4152524F57, .id 0x41534349495F4354524C5F48, .nl, .op 0x23, .id 0x646566696E65,
  .id 0x4150504C455F52494748545F4152524F57, .id 0x41534349495F4354524C5F55, .nl, .id 0x74797065646566,
  .id 0x656E756D, .op 0x7B, .nl, .id 0x4150504C455F504C41494E5F4D4150, .op 0x2C, .nl,
  .id 0x4150504C455F434150535F4D4150, .op 0x2C, .nl, .id 0x4150504C455F53484946545F4D4150, .op 0x2C, .nl,
  .id 0x4150504C455F434150535F53484946545F4D4150, .op 0x2C, .nl, .id 0x4150504C455F4354524C5F4D4150, .nl,
  .op 0x7D, .id 0x6170706C655F6D61705F696E6465785F74, .op 0x3B, .nl, .id 0x766F6964,
  .id 0x6170706C65736F66745F6B6579626F6172645F74657374, .paren, .id 0x766F6964, .op 0x29, .op 0x3B, .nl,
  .id 0x766F6964, .id 0x6170706C655F6164645F6D6170, .paren, .id 0x636F6E7374,
  .id 0x6170706C655F6D61705F696E6465785F74, .id 0x6D61705F696E646578, .op 0x2C,
  .id 0x6D6F6469666965725F696E6465785F74, .id 0x6D6F6469666965725F696E646578, .op 0x29, .op 0x3B, .nl,
  .op 0x23, .id 0x656E646966, .nl]

/-- The tokens of /repo/firmware/asdf/src/Keymaps/asdf_keymap_sol.h. -/
def asdf_keymap_sol_h : List Tok := [
  .nl, .op 0x23, .id 0x6966, .op 0x21, .id 0x646566696E6564, .paren, .id 0x415344465F4B45594D41505F534F4C5F48,
  .op 0x29, .nl, .op 0x23, .id 0x646566696E65, .id 0x415344465F4B45594D41505F534F4C5F48, .nl, .op 0x23,
  .id 0x696E636C756465, .str [97, 115, 100, 102, 46, 104], .nl, .op 0x23, .id 0x696E636C756465,
  .str [97, 115, 100, 102, 95, 107, 101, 121, 109, 97, 112, 95, 100, 101, 102, 115, 95, 100, 105, 112, 115, 119, 105, 116, 99, 104, 46, 104],
  .nl, .op 0x23, .id 0x646566696E65, .id 0x415344465F534F4C5F4E554D5F524F5753, .num 13 false, .nl, .op 0x23,
  .id 0x646566696E65, .id 0x415344465F534F4C5F4E554D5F434F4C53, .num 8 false, .nl, .op 0x23,
  .id 0x646566696E65, .id 0x534F4C5F5052494E545F44454C4159, .num 40 false, .nl, .op 0x23, .id 0x646566696E65,
  .id 0x534F4C5F49445F4D4553534147455F484F4F4B, .id 0x415344465F484F4F4B5F555345525F3130, .nl, .op 0x23,
  .id 0x646566696E65, .id 0x534F4C5F4E554D5F524F5753, .num 13 false, .nl, .op 0x23, .id 0x646566696E65,
  .id 0x534F4C5F4E554D5F434F4C53, .num 8 false, .nl, .op 0x23, .id 0x646566696E65,
  .id 0x534F4C5F4B42445F565245534554, .id 0x564F555431, .nl, .op 0x23, .id 0x646566696E65,
  .id 0x534F4C5F4B42445F56425245414B, .id 0x564F555432, .nl, .op 0x23, .id 0x646566696E65,
  .id 0x534F4C5F4B42445F564C4F43414C, .id 0x564F555433, .nl, .op 0x23, .id 0x646566696E65,
  .id 0x534F4C5F4B42445F4C45445F4F4E, .num 1 false, .nl, .op 0x23, .id 0x646566696E65,
  .id 0x534F4C5F4B42445F4C45445F4F4646, .num 0 false, .nl, .op 0x23, .id 0x646566696E65,
  .id 0x534F4C5F4B42445F53484946544C4F434B5F414354494F4E, .id 0x414354494F4E5F53484946544C4F434B5F4F4E, .nl,
  .op 0x23, .id 0x646566696E65, .id 0x534F4C5F4B42445F5649525455414C5F53554231, .paren,
  .id 0x534F4C5F56444556494345, .op 0x29, .id 0x414354494F4E5F, .op 0x2323, .id 0x534F4C5F56444556494345, .nl,
  .op 0x23, .id 0x646566696E65, .id 0x534F4C5F4B42445F5649525455414C5F535542, .paren,
  .id 0x534F4C5F56444556494345, .op 0x29, .id 0x534F4C5F4B42445F5649525455414C5F53554231, .paren,
  .id 0x534F4C5F56444556494345, .op 0x29, .nl, .op 0x23, .id 0x646566696E65,
  .id 0x534F4C5F4B42445F4C4F43414C5F414354494F4E, .id 0x534F4C5F4B42445F5649525455414C5F535542, .paren,
  .id 0x534F4C5F4B42445F564C4F43414C, .op 0x29, .nl, .op 0x23, .id 0x646566696E65,
  .id 0x534F4C5F4B42445F52455345545F414354494F4E, .id 0x534F4C5F4B42445F5649525455414C5F535542, .paren,
  .id 0x534F4C5F4B42445F565245534554, .op 0x29, .nl, .op 0x23, .id 0x646566696E65,
  .id 0x534F4C5F4B42445F425245414B5F414354494F4E, .id 0x534F4C5F4B42445F5649525455414C5F535542, .paren,
  .id 0x534F4C5F4B42445F56425245414B, .op 0x29, .nl, .op 0x23, .id 0x646566696E65,
  .id 0x534F4C5F41534349495F4C4F4144, .num 140 false, .nl, .op 0x23, .id 0x646566696E65,
  .id 0x534F4C5F41534349495F4D4F44455F53454C454354, .num 128 false, .nl, .op 0x23, .id 0x646566696E65,
  .id 0x534F4C5F41534349495F55505F4152524F57, .num 151 false, .nl, .op 0x23, .id 0x646566696E65,
  .id 0x534F4C5F41534349495F4C545F4152524F57, .num 129 false, .nl, .op 0x23, .id 0x646566696E65,
  .id 0x534F4C5F41534349495F52545F4152524F57, .num 147 false, .nl, .op 0x23, .id 0x646566696E65,
  .id 0x534F4C5F41534349495F444E5F4152524F57, .num 154 false, .nl, .op 0x23, .id 0x646566696E65,
  .id 0x534F4C5F41534349495F484F4D45, .num 142 false, .nl, .op 0x23, .id 0x646566696E65,
  .id 0x534F4C5F41534349495F434C454152, .num 139 false, .nl, .op 0x23, .id 0x646566696E65,
  .id 0x534F4C5F4B42445F54544C5F48494748, .num 1 false, .nl, .op 0x23, .id 0x646566696E65,
  .id 0x534F4C5F4B42445F54544C5F4C4F57, .num 0 false, .nl, .op 0x23, .id 0x646566696E65,
  .id 0x534F4C5F4B42445F4C45445F555050455243415345, .id 0x504859534943414C5F4C454431, .nl, .op 0x23,
  .id 0x646566696E65, .id 0x534F4C5F4B42445F4C45445F4C4F43414C, .id 0x504859534943414C5F4C454432, .nl,
  .op 0x23, .id 0x646566696E65, .id 0x534F4C5F4B42445F4C45445F53484946544C4F434B,
  .id 0x504859534943414C5F4C454433, .nl, .op 0x23, .id 0x646566696E65,
  .id 0x534F4C5F4B42445F54544C4F55545F5245534554, .id 0x504859534943414C5F4F5554335F4F50454E5F4849, .nl,
  .op 0x23, .id 0x646566696E65, .id 0x534F4C5F4B42445F54544C4F55545F425245414B,
  .id 0x504859534943414C5F4F555432, .nl, .op 0x23, .id 0x646566696E65,
  .id 0x534F4C5F4B42445F54544C4F55545F4C4F43414C, .id 0x504859534943414C5F4F555431, .nl, .op 0x23,
  .id 0x646566696E65, .id 0x415344465F534F4C5F4449505F5357495443484553,
  .id 0x415344465F4B45594D41505F4449505F5357495443484553, .nl, .op 0x23, .id 0x656E646966, .nl]

/-- The tokens of /repo/firmware/asdf/src/Keymaps/asdf_keymap_ace1000.h. -/
def asdf_keymap_ace1000_h : List Tok := [
  .nl, .op 0x23, .id 0x6966, .op 0x21, .id 0x646566696E6564, .paren,
  .id 0x415344465F4B45594D41505F444546535F414345313030305F48, .op 0x29, .nl, .op 0x23, .id 0x646566696E65,
  .id 0x415344465F4B45594D41505F444546535F414345313030305F48, .nl, .op 0x23, .id 0x696E636C756465,
  .str [97, 115, 100, 102, 95, 104, 111, 111, 107, 46, 104], .nl, .op 0x23, .id 0x646566696E65,
  .id 0x414345313030305F4E554D5F524F5753, .num 10 false, .nl, .op 0x23, .id 0x646566696E65,
  .id 0x414345313030305F4E554D5F434F4C53, .num 8 false, .nl, .op 0x23, .id 0x646566696E65,
  .id 0x414345313030305F414354494F4E5F425245414B, .id 0x414354494F4E5F4E4F5448494E47, .nl, .op 0x23,
  .id 0x646566696E65, .id 0x414345313030305F5649525455414C5F5245534554, .id 0x564F555431, .nl, .op 0x23,
  .id 0x646566696E65, .id 0x414345313030305F414354494F4E5F5245534554, .id 0x414354494F4E5F564F555431, .nl,
  .op 0x23, .id 0x646566696E65, .id 0x414345313030305F52455345545F4F5554505554,
  .id 0x504859534943414C5F4F5554335F4F50454E5F4849, .nl, .op 0x23, .id 0x646566696E65,
  .id 0x414345313030305F52455345545F4143544956455F56414C5545, .num 0 false, .nl, .op 0x23, .id 0x646566696E65,
  .id 0x414345313030305F5649525455414C5F434C525F534352, .id 0x564F555432, .nl, .op 0x23, .id 0x646566696E65,
  .id 0x414345313030305F414354494F4E5F434C454152, .id 0x414354494F4E5F564F555432, .nl, .op 0x23,
  .id 0x646566696E65, .id 0x414345313030305F434C525F5343525F4F5554,
  .id 0x504859534943414C5F4F5554315F4F50454E5F4C4F, .nl, .op 0x23, .id 0x646566696E65,
  .id 0x414345313030305F434C525F5343525F4143544956455F56414C5545, .num 1 false, .nl, .op 0x23,
  .id 0x646566696E65, .id 0x414345313030305F5649525455414C5F504F5745525F4C4544, .id 0x564C454431, .nl,
  .op 0x23, .id 0x646566696E65, .id 0x414345313030305F504F5745525F4C4544, .id 0x504859534943414C5F4C454431,
  .nl, .op 0x23, .id 0x646566696E65, .id 0x414345313030305F504F5745525F4C45445F494E49545F56414C5545,
  .num 1 false, .nl, .op 0x23, .id 0x646566696E65, .id 0x414345313030305F434150535F4C4544,
  .id 0x504859534943414C5F4C454433, .nl, .op 0x23, .id 0x646566696E65,
  .id 0x414345313030305F434150535F4C45445F494E49545F56414C5545, .num 0 false, .nl, .op 0x23,
  .id 0x646566696E65, .id 0x414345313030305F49445F4D4553534147455F484F4F4B,
  .id 0x415344465F484F4F4B5F555345525F3130, .nl, .op 0x23, .id 0x646566696E65,
  .id 0x4150504C45534F46545F4B4559424F4152445F544553545F484F4F4B, .id 0x415344465F484F4F4B5F555345525F39, .nl,
  .op 0x23, .id 0x646566696E65, .id 0x415344465F414345313030305F5052494E545F5350454544, .num 40 false, .nl,
  .op 0x23, .id 0x656E646966, .nl]

/-- The tokens of /repo/firmware/asdf/src/Keymaps/asdf_keymap_ace1000_add_map.h. -/
def asdf_keymap_ace1000_add_map_h : List Tok := [
  .nl, .op 0x23, .id 0x6966, .op 0x21, .id 0x646566696E6564, .paren,
  .id 0x415344465F4B45594D41505F414345313030305F4144445F4D41505F48, .op 0x29, .nl, .op 0x23,
  .id 0x646566696E65, .id 0x415344465F4B45594D41505F414345313030305F4144445F4D41505F48, .nl, .op 0x23,
  .id 0x696E636C756465,
  .str [97, 115, 100, 102, 95, 107, 101, 121, 109, 97, 112, 95, 100, 101, 102, 115, 95, 100, 105, 112, 115, 119, 105, 116, 99, 104, 46, 104],
  .nl, .op 0x23, .id 0x696E636C756465,
  .str [97, 115, 100, 102, 95, 109, 111, 100, 105, 102, 105, 101, 114, 115, 46, 104], .nl,
  .id 0x74797065646566, .id 0x656E756D, .op 0x7B, .nl, .id 0x414345313030305F504C41494E5F4D4150, .op 0x2C,
  .nl, .id 0x414345313030305F434150535F4D4150, .op 0x2C, .nl, .id 0x414345313030305F53484946545F4D4150,
  .op 0x2C, .nl, .id 0x414345313030305F4354524C5F4D4150, .op 0x2C, .nl, .op 0x7D,
  .id 0x616365313030305F6D61705F696E6465785F74, .op 0x3B, .nl, .id 0x766F6964,
  .id 0x616365313030305F6164645F6D6170, .paren, .id 0x636F6E7374,
  .id 0x616365313030305F6D61705F696E6465785F74, .id 0x6D61705F696E646578, .op 0x2C,
  .id 0x6D6F6469666965725F696E6465785F74, .id 0x6D6F6469666965725F696E646578, .op 0x29, .op 0x3B, .nl,
  .id 0x766F6964, .id 0x616365313030305F6B6579626F6172645F74657374, .paren, .id 0x766F6964, .op 0x29,
  .op 0x3B, .nl, .op 0x23, .id 0x646566696E65, .id 0x415344465F4143455F4449505F5357495443484553,
  .id 0x415344465F4B45594D41505F4449505F5357495443484553, .nl, .op 0x23, .id 0x646566696E65,
  .id 0x4143455F4B45595F30, .num 48 false, .nl, .op 0x23, .id 0x646566696E65, .id 0x4143455F4B45595F31,
  .num 49 false, .nl, .op 0x23, .id 0x646566696E65, .id 0x4143455F4B45595F32, .num 50 false, .nl, .op 0x23,
  .id 0x646566696E65, .id 0x4143455F4B45595F33, .num 51 false, .nl, .op 0x23, .id 0x646566696E65,
  .id 0x4143455F4B45595F34, .num 52 false, .nl, .op 0x23, .id 0x646566696E65, .id 0x4143455F4B45595F35,
  .num 53 false, .nl, .op 0x23, .id 0x646566696E65, .id 0x4143455F4B45595F36, .num 54 false, .nl, .op 0x23,
  .id 0x646566696E65, .id 0x4143455F4B45595F37, .num 55 false, .nl, .op 0x23, .id 0x646566696E65,
  .id 0x4143455F4B45595F38, .num 56 false, .nl, .op 0x23, .id 0x646566696E65, .id 0x4143455F4B45595F39,
  .num 57 false, .nl, .op 0x23, .id 0x646566696E65, .id 0x4143455F4B45595F41, .num 97 false, .nl, .op 0x23,
  .id 0x646566696E65, .id 0x4143455F4B45595F42, .num 98 false, .nl, .op 0x23, .id 0x646566696E65,
  .id 0x4143455F4B45595F425245414B, .num 3 false, .nl, .op 0x23, .id 0x646566696E65, .id 0x4143455F4B45595F43,
  .num 99 false, .nl, .op 0x23, .id 0x646566696E65, .id 0x4143455F4B45595F434F4D4D41, .num 44 false, .nl,
  .op 0x23, .id 0x646566696E65, .id 0x4143455F4B45595F4354524C5F30, .num 48 false, .nl, .op 0x23,
  .id 0x646566696E65, .id 0x4143455F4B45595F4354524C5F31, .num 49 false, .nl, .op 0x23, .id 0x646566696E65,
  .id 0x4143455F4B45595F4354524C5F32, .num 50 false, .nl, .op 0x23, .id 0x646566696E65,
  .id 0x4143455F4B45595F4354524C5F33, .num 51 false, .nl, .op 0x23, .id 0x646566696E65,
  .id 0x4143455F4B45595F4354524C5F34, .num 52 false, .nl, .op 0x23, .id 0x646566696E65,
  .id 0x4143455F4B45595F4354524C5F35, .num 53 false, .nl, .op 0x23, .id 0x646566696E65,
  .id 0x4143455F4B45595F4354524C5F36, .num 54 false, .nl, .op 0x23, .id 0x646566696E65,
  .id 0x4143455F4B45595F4354524C5F37, .num 55 false, .nl, .op 0x23, .id 0x646566696E65,
  .id 0x4143455F4B45595F4354524C5F38, .num 56 false, .nl, .op 0x23, .id 0x646566696E65,
  .id 0x4143455F4B45595F4354524C5F39, .num 57 false, .nl, .op 0x23, .id 0x646566696E65,
  .id 0x4143455F4B45595F4354524C5F41, .num 1 false, .nl, .op 0x23, .id 0x646566696E65,
  .id 0x4143455F4B45595F4354524C5F42, .num 2 false, .nl, .op 0x23, .id 0x646566696E65,
  .id 0x4143455F4B45595F4354524C5F425245414B, .num 3 false, .nl, .op 0x23, .id 0x646566696E65,
  .id 0x4143455F4B45595F4354524C5F43, .num 3 false, .nl, .op 0x23, .id 0x646566696E65,
  .id 0x4143455F4B45595F4354524C5F434F4D4D41, .num 44 false, .nl, .op 0x23, .id 0x646566696E65,
  .id 0x4143455F4B45595F4354524C5F4355524C59, .num 123 false, .nl, .op 0x23, .id 0x646566696E65,
  .id 0x4143455F4B45595F4354524C5F44, .num 4 false, .nl, .op 0x23, .id 0x646566696E65,
  .id 0x4143455F4B45595F4354524C5F45, .num 5 false, .nl, .op 0x23, .id 0x646566696E65,
  .id 0x4143455F4B45595F4354524C5F455343, .num 27 false, .nl, .op 0x23, .id 0x646566696E65,
  .id 0x4143455F4B45595F4354524C5F46, .num 6 false, .nl, .op 0x23, .id 0x646566696E65,
  .id 0x4143455F4B45595F4354524C5F47, .num 7 false, .nl, .op 0x23, .id 0x646566696E65,
  .id 0x4143455F4B45595F4354524C5F48, .num 8 false, .nl, .op 0x23, .id 0x646566696E65,
  .id 0x4143455F4B45595F4354524C5F49, .num 9 false, .nl, .op 0x23, .id 0x646566696E65,
  .id 0x4143455F4B45595F4354524C5F4A, .num 10 false, .nl, .op 0x23, .id 0x646566696E65,
  .id 0x4143455F4B45595F4354524C5F4B, .num 11 false, .nl, .op 0x23, .id 0x646566696E65,
  .id 0x4143455F4B45595F4354524C5F4C, .num 12 false, .nl, .op 0x23, .id 0x646566696E65,
  .id 0x4143455F4B45595F4354524C5F4C454654, .num 8 false, .nl, .op 0x23, .id 0x646566696E65,
  .id 0x4143455F4B45595F4354524C5F4D, .num 13 false, .nl, .op 0x23, .id 0x646566696E65,
  .id 0x4143455F4B45595F4354524C5F4E, .num 14 false, .nl, .op 0x23, .id 0x646566696E65,
  .id 0x4143455F4B45595F4354524C5F4E554D5F30, .num 48 false, .nl, .op 0x23, .id 0x646566696E65,
  .id 0x4143455F4B45595F4354524C5F4E554D5F31, .num 49 false, .nl, .op 0x23, .id 0x646566696E65,
  .id 0x4143455F4B45595F4354524C5F4E554D5F32, .num 50 false, .nl, .op 0x23, .id 0x646566696E65,
  .id 0x4143455F4B45595F4354524C5F4E554D5F33, .num 51 false, .nl, .op 0x23, .id 0x646566696E65,
  .id 0x4143455F4B45595F4354524C5F4E554D5F34, .num 52 false, .nl, .op 0x23, .id 0x646566696E65,
  .id 0x4143455F4B45595F4354524C5F4E554D5F35, .num 53 false, .nl, .op 0x23, .id 0x646566696E65,
  .id 0x4143455F4B45595F4354524C5F4E554D5F36, .num 54 false, .nl, .op 0x23, .id 0x646566696E65,
  .id 0x4143455F4B45595F4354524C5F4E554D5F37, .num 55 false, .nl, .op 0x23, .id 0x646566696E65,
  .id 0x4143455F4B45595F4354524C5F4E554D5F38, .num 56 false, .nl, .op 0x23, .id 0x646566696E65,
  .id 0x4143455F4B45595F4354524C5F4E554D5F39, .num 57 false, .nl, .op 0x23, .id 0x646566696E65,
  .id 0x4143455F4B45595F4354524C5F4754, .num 62 false, .nl, .op 0x23, .id 0x646566696E65,
  .id 0x4143455F4B45595F4354524C5F4D494E5553, .num 45 false, .nl, .op 0x23, .id 0x646566696E65,
  .id 0x4143455F4B45595F4354524C5F53504C4154, .num 42 false, .nl, .op 0x23, .id 0x646566696E65,
  .id 0x4143455F4B45595F4354524C5F4E554D5F504552494F44, .num 46 false, .nl, .op 0x23, .id 0x646566696E65,
  .id 0x4143455F4B45595F4354524C5F4E554D5F504C5553, .num 43 false, .nl, .op 0x23, .id 0x646566696E65,
  .id 0x4143455F4B45595F4354524C5F4F, .num 15 false, .nl, .op 0x23, .id 0x646566696E65,
  .id 0x4143455F4B45595F4354524C5F50, .num 16 false, .nl, .op 0x23, .id 0x646566696E65,
  .id 0x4143455F4B45595F52455455524E, .num 13 false, .nl, .op 0x23, .id 0x646566696E65,
  .id 0x4143455F4B45595F4354524C5F5041555345, .num 19 false, .nl, .op 0x23, .id 0x646566696E65,
  .id 0x4143455F4B45595F4354524C5F504552494F44, .num 46 false, .nl, .op 0x23, .id 0x646566696E65,
  .id 0x4143455F4B45595F4354524C5F504C5553, .num 61 false, .nl, .op 0x23, .id 0x646566696E65,
  .id 0x4143455F4B45595F4354524C5F51, .num 17 false, .nl, .op 0x23, .id 0x646566696E65,
  .id 0x4143455F4B45595F4354524C5F534C415348, .num 47 false, .nl, .op 0x23, .id 0x646566696E65,
  .id 0x4143455F4B45595F4354524C5F51554F5445, .num 39 false, .nl, .op 0x23, .id 0x646566696E65,
  .id 0x4143455F4B45595F4354524C5F52, .num 18 false, .nl, .op 0x23, .id 0x646566696E65,
  .id 0x4143455F4B45595F4354524C5F5249474854, .num 21 false, .nl, .op 0x23, .id 0x646566696E65,
  .id 0x4143455F4B45595F4354524C5F53, .num 19 false, .nl, .op 0x23, .id 0x646566696E65,
  .id 0x4143455F4B45595F4354524C5F53454D49, .num 59 false, .nl, .op 0x23, .id 0x646566696E65,
  .id 0x4143455F4B45595F4354524C5F5350414345, .num 32 false, .nl, .op 0x23, .id 0x646566696E65,
  .id 0x4143455F4B45595F4354524C5F535155415245, .num 29 false, .nl, .op 0x23, .id 0x646566696E65,
  .id 0x4143455F4B45595F4354524C5F54, .num 20 false, .nl, .op 0x23, .id 0x646566696E65,
  .id 0x4143455F4B45595F4354524C5F544142, .num 9 false, .nl, .op 0x23, .id 0x646566696E65,
  .id 0x4143455F4B45595F4354524C5F55, .num 21 false, .nl, .op 0x23, .id 0x646566696E65,
  .id 0x4143455F4B45595F4354524C5F554E44455253434F5245, .num 61 false, .nl, .op 0x23, .id 0x646566696E65,
  .id 0x4143455F4B45595F4354524C5F56, .num 22 false, .nl, .op 0x23, .id 0x646566696E65,
  .id 0x4143455F4B45595F4354524C5F57, .num 23 false, .nl, .op 0x23, .id 0x646566696E65,
  .id 0x4143455F4B45595F4354524C5F58, .num 24 false, .nl, .op 0x23, .id 0x646566696E65,
  .id 0x4143455F4B45595F4354524C5F59, .num 25 false, .nl, .op 0x23, .id 0x646566696E65,
  .id 0x4143455F4B45595F4354524C5F5A, .num 26 false, .nl, .op 0x23, .id 0x646566696E65,
  .id 0x4143455F4B45595F4355524C59, .num 123 false, .nl, .op 0x23, .id 0x646566696E65,
  .id 0x4143455F4B45595F44, .num 100 false, .nl, .op 0x23, .id 0x646566696E65, .id 0x4143455F4B45595F45,
  .num 101 false, .nl, .op 0x23, .id 0x646566696E65, .id 0x4143455F4B45595F455343, .num 27 false, .nl,
  .op 0x23, .id 0x646566696E65, .id 0x4143455F4B45595F46, .num 102 false, .nl, .op 0x23, .id 0x646566696E65,
  .id 0x4143455F4B45595F47, .num 103 false, .nl, .op 0x23, .id 0x646566696E65, .id 0x4143455F4B45595F48,
  .num 104 false, .nl, .op 0x23, .id 0x646566696E65, .id 0x4143455F4B45595F49, .num 105 false, .nl, .op 0x23,
  .id 0x646566696E65, .id 0x4143455F4B45595F4A, .num 106 false, .nl, .op 0x23, .id 0x646566696E65,
  .id 0x4143455F4B45595F4B, .num 107 false, .nl, .op 0x23, .id 0x646566696E65, .id 0x4143455F4B45595F4C,
  .num 108 false, .nl, .op 0x23, .id 0x646566696E65, .id 0x4143455F4B45595F4C454654, .num 8 false, .nl,
  .op 0x23, .id 0x646566696E65, .id 0x4143455F4B45595F4D, .num 109 false, .nl, .op 0x23, .id 0x646566696E65,
  .id 0x4143455F4B45595F4E, .num 110 false, .nl, .op 0x23, .id 0x646566696E65,
  .id 0x4143455F4B45595F4E554D5F30, .num 48 false, .nl, .op 0x23, .id 0x646566696E65,
  .id 0x4143455F4B45595F4E554D5F31, .num 49 false, .nl, .op 0x23, .id 0x646566696E65,
  .id 0x4143455F4B45595F4E554D5F32, .num 50 false, .nl, .op 0x23, .id 0x646566696E65,
  .id 0x4143455F4B45595F4E554D5F33, .num 51 false, .nl, .op 0x23, .id 0x646566696E65,
  .id 0x4143455F4B45595F4E554D5F34, .num 52 false, .nl, .op 0x23, .id 0x646566696E65,
  .id 0x4143455F4B45595F4E554D5F35, .num 53 false, .nl, .op 0x23, .id 0x646566696E65,
  .id 0x4143455F4B45595F4E554D5F36, .num 54 false, .nl, .op 0x23, .id 0x646566696E65,
  .id 0x4143455F4B45595F4E554D5F37, .num 55 false, .nl, .op 0x23, .id 0x646566696E65,
  .id 0x4143455F4B45595F4E554D5F38, .num 56 false, .nl, .op 0x23, .id 0x646566696E65,
  .id 0x4143455F4B45595F4E554D5F39, .num 57 false, .nl, .op 0x23, .id 0x646566696E65,
  .id 0x4143455F4B45595F4754, .num 62 false, .nl, .op 0x23, .id 0x646566696E65,
  .id 0x4143455F4B45595F4D494E5553, .num 45 false, .nl, .op 0x23, .id 0x646566696E65,
  .id 0x4143455F4B45595F53504C4154, .num 42 false, .nl, .op 0x23, .id 0x646566696E65,
  .id 0x4143455F4B45595F4E554D5F504552494F44, .num 46 false, .nl, .op 0x23, .id 0x646566696E65,
  .id 0x4143455F4B45595F4E554D5F504C5553, .num 43 false, .nl, .op 0x23, .id 0x646566696E65,
  .id 0x4143455F4B45595F4F, .num 111 false, .nl, .op 0x23, .id 0x646566696E65, .id 0x4143455F4B45595F50,
  .num 112 false, .nl, .op 0x23, .id 0x646566696E65, .id 0x4143455F4B45595F5041555345, .num 19 false, .nl,
  .op 0x23, .id 0x646566696E65, .id 0x4143455F4B45595F504552494F44, .num 46 false, .nl, .op 0x23,
  .id 0x646566696E65, .id 0x4143455F4B45595F504C5553, .num 61 false, .nl, .op 0x23, .id 0x646566696E65,
  .id 0x4143455F4B45595F51, .num 113 false, .nl, .op 0x23, .id 0x646566696E65,
  .id 0x4143455F4B45595F534C415348, .num 47 false, .nl, .op 0x23, .id 0x646566696E65,
  .id 0x4143455F4B45595F51554F5445, .num 39 false, .nl, .op 0x23, .id 0x646566696E65,
  .id 0x4143455F4B45595F52, .num 114 false, .nl, .op 0x23, .id 0x646566696E65,
  .id 0x4143455F4B45595F5249474854, .num 21 false, .nl, .op 0x23, .id 0x646566696E65,
  .id 0x4143455F4B45595F53, .num 115 false, .nl, .op 0x23, .id 0x646566696E65, .id 0x4143455F4B45595F53454D49,
  .num 59 false, .nl, .op 0x23, .id 0x646566696E65, .id 0x4143455F4B45595F53484946545F30, .num 41 false, .nl,
  .op 0x23, .id 0x646566696E65, .id 0x4143455F4B45595F53484946545F31, .num 33 false, .nl, .op 0x23,
  .id 0x646566696E65, .id 0x4143455F4B45595F53484946545F32, .num 64 false, .nl, .op 0x23, .id 0x646566696E65,
  .id 0x4143455F4B45595F53484946545F33, .num 35 false, .nl, .op 0x23, .id 0x646566696E65,
  .id 0x4143455F4B45595F53484946545F34, .num 36 false, .nl, .op 0x23, .id 0x646566696E65,
  .id 0x4143455F4B45595F53484946545F35, .num 37 false, .nl, .op 0x23, .id 0x646566696E65,
  .id 0x4143455F4B45595F53484946545F36, .num 94 false, .nl, .op 0x23, .id 0x646566696E65,
  .id 0x4143455F4B45595F53484946545F37, .num 38 false, .nl, .op 0x23, .id 0x646566696E65,
  .id 0x4143455F4B45595F53484946545F38, .num 42 false, .nl, .op 0x23, .id 0x646566696E65,
  .id 0x4143455F4B45595F53484946545F39, .num 40 false, .nl, .op 0x23, .id 0x646566696E65,
  .id 0x4143455F4B45595F53484946545F41, .num 65 false, .nl, .op 0x23, .id 0x646566696E65,
  .id 0x4143455F4B45595F53484946545F42, .num 66 false, .nl, .op 0x23, .id 0x646566696E65,
  .id 0x4143455F4B45595F53484946545F425245414B, .num 3 false, .nl, .op 0x23, .id 0x646566696E65,
  .id 0x4143455F4B45595F53484946545F43, .num 67 false, .nl, .op 0x23, .id 0x646566696E65,
  .id 0x4143455F4B45595F53484946545F434F4D4D41, .num 60 false, .nl, .op 0x23, .id 0x646566696E65,
  .id 0x4143455F4B45595F53484946545F4355524C59, .num 125 false, .nl, .op 0x23, .id 0x646566696E65,
  .id 0x4143455F4B45595F53484946545F44, .num 68 false, .nl, .op 0x23, .id 0x646566696E65,
  .id 0x4143455F4B45595F53484946545F45, .num 69 false, .nl, .op 0x23, .id 0x646566696E65,
  .id 0x4143455F4B45595F53484946545F455343, .num 27 false, .nl, .op 0x23, .id 0x646566696E65,
  .id 0x4143455F4B45595F53484946545F46, .num 70 false, .nl, .op 0x23, .id 0x646566696E65,
  .id 0x4143455F4B45595F53484946545F47, .num 71 false, .nl, .op 0x23, .id 0x646566696E65,
  .id 0x4143455F4B45595F53484946545F48, .num 72 false, .nl, .op 0x23, .id 0x646566696E65,
  .id 0x4143455F4B45595F53484946545F49, .num 73 false, .nl, .op 0x23, .id 0x646566696E65,
  .id 0x4143455F4B45595F53484946545F4A, .num 74 false, .nl, .op 0x23, .id 0x646566696E65,
  .id 0x4143455F4B45595F53484946545F4B, .num 75 false, .nl, .op 0x23, .id 0x646566696E65,
  .id 0x4143455F4B45595F53484946545F4C, .num 76 false, .nl, .op 0x23, .id 0x646566696E65,
  .id 0x4143455F4B45595F53484946545F4C454654, .num 8 false, .nl, .op 0x23, .id 0x646566696E65,
  .id 0x4143455F4B45595F53484946545F4D, .num 77 false, .nl, .op 0x23, .id 0x646566696E65,
  .id 0x4143455F4B45595F53484946545F4E, .num 78 false, .nl, .op 0x23, .id 0x646566696E65,
  .id 0x4143455F4B45595F53484946545F4E554D5F30, .num 48 false, .nl, .op 0x23, .id 0x646566696E65,
  .id 0x4143455F4B45595F53484946545F4E554D5F31, .num 49 false, .nl, .op 0x23, .id 0x646566696E65,
  .id 0x4143455F4B45595F53484946545F4E554D5F32, .num 50 false, .nl, .op 0x23, .id 0x646566696E65,
  .id 0x4143455F4B45595F53484946545F4E554D5F33, .num 51 false, .nl, .op 0x23, .id 0x646566696E65,
  .id 0x4143455F4B45595F53484946545F4E554D5F34, .num 52 false, .nl, .op 0x23, .id 0x646566696E65,
  .id 0x4143455F4B45595F53484946545F4E554D5F35, .num 53 false, .nl, .op 0x23, .id 0x646566696E65,
  .id 0x4143455F4B45595F53484946545F4E554D5F36, .num 54 false, .nl, .op 0x23, .id 0x646566696E65,
  .id 0x4143455F4B45595F53484946545F4E554D5F37, .num 55 false, .nl, .op 0x23, .id 0x646566696E65,
  .id 0x4143455F4B45595F53484946545F4E554D5F38, .num 56 false, .nl, .op 0x23, .id 0x646566696E65,
  .id 0x4143455F4B45595F53484946545F4E554D5F39, .num 57 false, .nl, .op 0x23, .id 0x646566696E65,
  .id 0x4143455F4B45595F53484946545F4754, .num 62 false, .nl, .op 0x23, .id 0x646566696E65,
  .id 0x4143455F4B45595F53484946545F4D494E5553, .num 45 false, .nl, .op 0x23, .id 0x646566696E65,
  .id 0x4143455F4B45595F53484946545F53504C4154, .num 42 false, .nl, .op 0x23, .id 0x646566696E65,
  .id 0x4143455F4B45595F53484946545F4E554D5F504552494F44, .num 46 false, .nl, .op 0x23, .id 0x646566696E65,
  .id 0x4143455F4B45595F53484946545F4E554D5F504C5553, .num 43 false, .nl, .op 0x23, .id 0x646566696E65,
  .id 0x4143455F4B45595F53484946545F4F, .num 79 false, .nl, .op 0x23, .id 0x646566696E65,
  .id 0x4143455F4B45595F53484946545F50, .num 80 false, .nl, .op 0x23, .id 0x646566696E65,
  .id 0x4143455F4B45595F53484946545F5041555345, .num 19 false, .nl, .op 0x23, .id 0x646566696E65,
  .id 0x4143455F4B45595F53484946545F504552494F44, .num 62 false, .nl, .op 0x23, .id 0x646566696E65,
  .id 0x4143455F4B45595F53484946545F504C5553, .num 43 false, .nl, .op 0x23, .id 0x646566696E65,
  .id 0x4143455F4B45595F53484946545F51, .num 81 false, .nl, .op 0x23, .id 0x646566696E65,
  .id 0x4143455F4B45595F53484946545F534C415348, .num 63 false, .nl, .op 0x23, .id 0x646566696E65,
  .id 0x4143455F4B45595F53484946545F51554F5445, .num 34 false, .nl, .op 0x23, .id 0x646566696E65,
  .id 0x4143455F4B45595F53484946545F52, .num 82 false, .nl, .op 0x23, .id 0x646566696E65,
  .id 0x4143455F4B45595F53484946545F5249474854, .num 21 false, .nl, .op 0x23, .id 0x646566696E65,
  .id 0x4143455F4B45595F53484946545F53, .num 83 false, .nl, .op 0x23, .id 0x646566696E65,
  .id 0x4143455F4B45595F53484946545F53454D49, .num 58 false, .nl, .op 0x23, .id 0x646566696E65,
  .id 0x4143455F4B45595F53484946545F5350414345, .num 32 false, .nl, .op 0x23, .id 0x646566696E65,
  .id 0x4143455F4B45595F53484946545F535155415245, .num 93 false, .nl, .op 0x23, .id 0x646566696E65,
  .id 0x4143455F4B45595F53484946545F54, .num 84 false, .nl, .op 0x23, .id 0x646566696E65,
  .id 0x4143455F4B45595F53484946545F544142, .num 9 false, .nl, .op 0x23, .id 0x646566696E65,
  .id 0x4143455F4B45595F53484946545F55, .num 85 false, .nl, .op 0x23, .id 0x646566696E65,
  .id 0x4143455F4B45595F53484946545F554E44455253434F5245, .num 95 false, .nl, .op 0x23, .id 0x646566696E65,
  .id 0x4143455F4B45595F53484946545F56, .num 86 false, .nl, .op 0x23, .id 0x646566696E65,
  .id 0x4143455F4B45595F53484946545F57, .num 87 false, .nl, .op 0x23, .id 0x646566696E65,
  .id 0x4143455F4B45595F53484946545F58, .num 88 false, .nl, .op 0x23, .id 0x646566696E65,
  .id 0x4143455F4B45595F53484946545F59, .num 89 false, .nl, .op 0x23, .id 0x646566696E65,
  .id 0x4143455F4B45595F53484946545F5A, .num 90 false, .nl, .op 0x23, .id 0x646566696E65,
  .id 0x4143455F4B45595F5350414345, .num 32 false, .nl, .op 0x23, .id 0x646566696E65,
  .id 0x4143455F4B45595F535155415245, .num 91 false, .nl, .op 0x23, .id 0x646566696E65,
  .id 0x4143455F4B45595F54, .num 116 false, .nl, .op 0x23, .id 0x646566696E65, .id 0x4143455F4B45595F544142,
  .num 9 false, .nl, .op 0x23, .id 0x646566696E65, .id 0x4143455F4B45595F55, .num 117 false, .nl, .op 0x23,
  .id 0x646566696E65, .id 0x4143455F4B45595F554E44455253434F5245, .num 45 false, .nl, .op 0x23,
  .id 0x646566696E65, .id 0x4143455F4B45595F56, .num 118 false, .nl, .op 0x23, .id 0x646566696E65,
  .id 0x4143455F4B45595F57, .num 119 false, .nl, .op 0x23, .id 0x646566696E65, .id 0x4143455F4B45595F58,
  .num 120 false, .nl, .op 0x23, .id 0x646566696E65, .id 0x4143455F4B45595F59, .num 121 false, .nl, .op 0x23,
  .id 0x646566696E65, .id 0x4143455F4B45595F5A, .num 122 false, .nl, .op 0x23, .id 0x656E646966, .nl]

/-- The tokens of /repo/firmware/asdf/src/Keymaps/asdf_keymap_classic_add_map.c. -/
def asdf_keymap_classic_add_map_c : List Tok := [
  .nl, .op 0x23, .id 0x696E636C756465, .str [97, 115, 100, 102, 95, 97, 114, 99, 104, 46, 104], .nl, .op 0x23,
  .id 0x696E636C756465, .str [97, 115, 100, 102, 46, 104], .nl, .op 0x23, .id 0x696E636C756465,
  .str [97, 115, 100, 102, 95, 97, 115, 99, 105, 105, 46, 104], .nl, .op 0x23, .id 0x696E636C756465,
  .str [97, 115, 100, 102, 95, 107, 101, 121, 109, 97, 112, 115, 46, 104], .nl, .op 0x23,
  .id 0x696E636C756465,
  .str [97, 115, 100, 102, 95, 107, 101, 121, 109, 97, 112, 95, 99, 108, 97, 115, 115, 105, 99, 46, 104], .nl,
  .op 0x23, .id 0x696E636C756465,
  .str [97, 115, 100, 102, 95, 107, 101, 121, 109, 97, 112, 95, 99, 108, 97, 115, 115, 105, 99, 95, 97, 100, 100, 95, 109, 97, 112, 46, 104],
  .nl, .op 0x23, .id 0x696E636C756465,
  .str [97, 115, 100, 102, 95, 107, 101, 121, 109, 97, 112, 95, 100, 101, 102, 115, 95, 100, 105, 112, 115, 119, 105, 116, 99, 104, 46, 104],
  .nl, .op 0x23, .id 0x646566696E65, .id 0x415344465F434C41535349435F4449505F5357495443484553,
  .id 0x415344465F4B45594D41505F4449505F5357495443484553, .nl, .id 0x74797065646566,
  .id 0x617364665F6B6579636F64655F74, .id 0x636C61737369635F6B6579636F64655F6D61747269785F74, .op 0x5B,
  .id 0x434C41535349435F4E554D5F524F5753, .op 0x5D, .op 0x5B, .id 0x434C41535349435F4E554D5F434F4C53,
  .op 0x5D, .op 0x3B, .nl, .id 0x636F6E7374, .id 0x464C415348,
  .id 0x636C61737369635F6B6579636F64655F6D61747269785F74, .id 0x636C61737369635F706C61696E5F6D6174726978,
  .op 0x3D, .op 0x7B, .nl, .op 0x5B, .num 0 false, .op 0x5D, .op 0x3D, .op 0x7B,
  .id 0x414354494F4E5F4E4F5448494E47, .op 0x2C, .id 0x414354494F4E5F5348494654, .op 0x2C,
  .id 0x414354494F4E5F5348494654, .op 0x2C, .id 0x414354494F4E5F4E4F5448494E47, .op 0x2C,
  .id 0x41534349495F455343, .op 0x2C, .id 0x41534349495F544142, .op 0x2C, .nl, .id 0x414354494F4E5F4354524C,
  .op 0x2C, .id 0x41534349495F4241434B534C415348, .op 0x7D, .op 0x2C, .nl, .op 0x5B, .num 1 false, .op 0x5D,
  .op 0x3D, .op 0x7B, .id 0x41534349495F44454C, .op 0x2C, .chr 112, .op 0x2C, .chr 59, .op 0x2C, .chr 47,
  .op 0x2C, .id 0x41534349495F5350414345, .op 0x2C, .chr 122, .op 0x2C, .chr 97, .op 0x2C, .chr 113, .op 0x7D,
  .op 0x2C, .nl, .op 0x5B, .num 2 false, .op 0x5D, .op 0x3D, .op 0x7B,
  .id 0x434C41535349435F414354494F4E5F425245414B, .op 0x2C, .id 0x41534349495F434F4D4D41, .op 0x2C, .chr 109,
  .op 0x2C, .chr 110, .op 0x2C, .chr 98, .op 0x2C, .chr 118, .op 0x2C, .chr 99, .op 0x2C, .chr 120, .op 0x7D,
  .op 0x2C, .nl, .op 0x5B, .num 3 false, .op 0x5D, .op 0x3D, .op 0x7B, .id 0x414354494F4E5F4E4F5448494E47,
  .op 0x2C, .chr 107, .op 0x2C, .chr 106, .op 0x2C, .chr 104, .op 0x2C, .chr 103, .op 0x2C, .chr 102,
  .op 0x2C, .chr 100, .op 0x2C, .chr 115, .op 0x7D, .op 0x2C, .nl, .op 0x5B, .num 4 false, .op 0x5D, .op 0x3D,
  .op 0x7B, .id 0x414354494F4E5F4E4F5448494E47, .op 0x2C, .chr 105, .op 0x2C, .chr 117, .op 0x2C, .chr 121,
  .op 0x2C, .chr 116, .op 0x2C, .chr 114, .op 0x2C, .chr 101, .op 0x2C, .chr 119, .op 0x7D, .op 0x2C, .nl,
  .op 0x5B, .num 5 false, .op 0x5D, .op 0x3D, .op 0x7B, .id 0x414354494F4E5F4E4F5448494E47, .op 0x2C,
  .id 0x414354494F4E5F524550454154, .op 0x2C, .id 0x414354494F4E5F43415053, .op 0x2C, .id 0x41534349495F4352,
  .op 0x2C, .id 0x41534349495F4C46, .op 0x2C, .chr 111, .op 0x2C, .chr 108, .op 0x2C,
  .id 0x41534349495F504552494F44, .op 0x7D, .op 0x2C, .nl, .op 0x5B, .num 6 false, .op 0x5D, .op 0x3D,
  .op 0x7B, .id 0x41534349495F54494C4445, .op 0x2C, .id 0x41534349495F52545F5351554152455F4252414345,
  .op 0x2C, .id 0x41534349495F4C545F5351554152455F4252414345, .op 0x2C, .chr 45, .op 0x2C, .chr 58, .op 0x2C,
  .id 0x41534349495F5A45524F, .op 0x2C, .chr 57, .op 0x2C, .nl, .chr 56, .op 0x7D, .op 0x2C, .nl, .op 0x5B,
  .num 7 false, .op 0x5D, .op 0x3D, .op 0x7B, .id 0x41534349495F4154, .op 0x2C, .chr 55, .op 0x2C, .chr 54,
  .op 0x2C, .chr 53, .op 0x2C, .chr 52, .op 0x2C, .chr 51, .op 0x2C, .chr 50, .op 0x2C, .chr 49, .op 0x7D,
  .op 0x2C, .nl, .id 0x415344465F434C41535349435F4449505F5357495443484553, .nl, .op 0x7D, .op 0x3B, .nl,
  .id 0x636F6E7374, .id 0x464C415348, .id 0x636C61737369635F6B6579636F64655F6D61747269785F74,
  .id 0x636C61737369635F73686966745F6D6174726978, .op 0x3D, .op 0x7B, .nl, .op 0x5B, .num 0 false, .op 0x5D,
  .op 0x3D, .op 0x7B, .id 0x414354494F4E5F4E4F5448494E47, .op 0x2C, .id 0x414354494F4E5F5348494654, .op 0x2C,
  .id 0x414354494F4E5F5348494654, .op 0x2C, .id 0x414354494F4E5F4E4F5448494E47, .op 0x2C,
  .id 0x41534349495F455343, .op 0x2C, .id 0x41534349495F544142, .op 0x2C, .nl, .id 0x414354494F4E5F4354524C,
  .op 0x2C, .id 0x41534349495F564552545F424152, .op 0x7D, .op 0x2C, .nl, .op 0x5B, .num 1 false, .op 0x5D,
  .op 0x3D, .op 0x7B, .id 0x41534349495F44454C, .op 0x2C, .chr 80, .op 0x2C, .chr 43, .op 0x2C, .chr 63,
  .op 0x2C, .id 0x41534349495F5350414345, .op 0x2C, .chr 90, .op 0x2C, .chr 65, .op 0x2C, .chr 81, .op 0x7D,
  .op 0x2C, .nl, .op 0x5B, .num 2 false, .op 0x5D, .op 0x3D, .op 0x7B,
  .id 0x434C41535349435F414354494F4E5F434C454152, .op 0x2C, .chr 60, .op 0x2C, .chr 77, .op 0x2C, .chr 78,
  .op 0x2C, .chr 66, .op 0x2C, .chr 86, .op 0x2C, .chr 67, .op 0x2C, .chr 88, .op 0x7D, .op 0x2C, .nl,
  .op 0x5B, .num 3 false, .op 0x5D, .op 0x3D, .op 0x7B, .id 0x414354494F4E5F4E4F5448494E47, .op 0x2C, .chr 75,
  .op 0x2C, .chr 74, .op 0x2C, .chr 72, .op 0x2C, .chr 71, .op 0x2C, .chr 70, .op 0x2C, .chr 68, .op 0x2C,
  .chr 83, .op 0x7D, .op 0x2C, .nl, .op 0x5B, .num 4 false, .op 0x5D, .op 0x3D, .op 0x7B,
  .id 0x414354494F4E5F4E4F5448494E47, .op 0x2C, .chr 73, .op 0x2C, .chr 85, .op 0x2C, .chr 89, .op 0x2C,
  .chr 84, .op 0x2C, .chr 82, .op 0x2C, .chr 69, .op 0x2C, .chr 87, .op 0x7D, .op 0x2C, .nl, .op 0x5B,
  .num 5 false, .op 0x5D, .op 0x3D, .op 0x7B, .id 0x414354494F4E5F4E4F5448494E47, .op 0x2C,
  .id 0x414354494F4E5F524550454154, .op 0x2C, .id 0x414354494F4E5F43415053, .op 0x2C, .id 0x41534349495F4352,
  .op 0x2C, .id 0x41534349495F4C46, .op 0x2C, .chr 79, .op 0x2C, .chr 76, .op 0x2C, .chr 62, .op 0x7D,
  .op 0x2C, .nl, .op 0x5B, .num 6 false, .op 0x5D, .op 0x3D, .op 0x7B, .id 0x41534349495F54494C4445, .op 0x2C,
  .id 0x41534349495F52545F4355524C595F4252414345, .op 0x2C, .id 0x41534349495F4C545F4355524C595F4252414345,
  .op 0x2C, .chr 61, .op 0x2C, .chr 42, .op 0x2C, .id 0x41534349495F5A45524F, .op 0x2C, .nl,
  .id 0x41534349495F52545F504152454E, .op 0x2C, .id 0x41534349495F4C545F504152454E, .op 0x7D, .op 0x2C, .nl,
  .op 0x5B, .num 7 false, .op 0x5D, .op 0x3D, .op 0x7B, .id 0x41534349495F47524156455F414343454E54, .op 0x2C,
  .id 0x41534349495F53494E474C455F51554F5445, .op 0x2C, .chr 38, .op 0x2C, .chr 37, .op 0x2C, .chr 36,
  .op 0x2C, .chr 35, .op 0x2C, .id 0x41534349495F444F55424C455F51554F5445, .op 0x2C, .chr 33, .op 0x7D,
  .op 0x2C, .nl, .id 0x415344465F434C41535349435F4449505F5357495443484553, .nl, .op 0x7D, .op 0x3B, .nl,
  .id 0x636F6E7374, .id 0x464C415348, .id 0x636C61737369635F6B6579636F64655F6D61747269785F74,
  .id 0x636C61737369635F636170735F6D6174726978, .op 0x3D, .op 0x7B, .nl, .op 0x5B, .num 0 false, .op 0x5D,
  .op 0x3D, .op 0x7B, .id 0x414354494F4E5F4E4F5448494E47, .op 0x2C, .id 0x414354494F4E5F5348494654, .op 0x2C,
  .id 0x414354494F4E5F5348494654, .op 0x2C, .id 0x414354494F4E5F4E4F5448494E47, .op 0x2C,
  .id 0x41534349495F455343, .op 0x2C, .id 0x41534349495F544142, .op 0x2C, .nl, .id 0x414354494F4E5F4354524C,
  .op 0x2C, .id 0x41534349495F4241434B534C415348, .op 0x7D, .op 0x2C, .nl, .op 0x5B, .num 1 false, .op 0x5D,
  .op 0x3D, .op 0x7B, .id 0x41534349495F44454C, .op 0x2C, .chr 80, .op 0x2C, .chr 59, .op 0x2C, .chr 47,
  .op 0x2C, .id 0x41534349495F5350414345, .op 0x2C, .chr 90, .op 0x2C, .chr 65, .op 0x2C, .chr 81, .op 0x7D,
  .op 0x2C, .nl, .op 0x5B, .num 2 false, .op 0x5D, .op 0x3D, .op 0x7B,
  .id 0x434C41535349435F414354494F4E5F425245414B, .op 0x2C, .id 0x41534349495F434F4D4D41, .op 0x2C, .chr 77,
  .op 0x2C, .chr 78, .op 0x2C, .chr 66, .op 0x2C, .chr 86, .op 0x2C, .chr 67, .op 0x2C, .chr 88, .op 0x7D,
  .op 0x2C, .nl, .op 0x5B, .num 3 false, .op 0x5D, .op 0x3D, .op 0x7B, .id 0x414354494F4E5F4E4F5448494E47,
  .op 0x2C, .chr 75, .op 0x2C, .chr 74, .op 0x2C, .chr 72, .op 0x2C, .chr 71, .op 0x2C, .chr 70, .op 0x2C,
  .chr 68, .op 0x2C, .chr 83, .op 0x7D, .op 0x2C, .nl, .op 0x5B, .num 4 false, .op 0x5D, .op 0x3D, .op 0x7B,
  .id 0x414354494F4E5F4E4F5448494E47, .op 0x2C, .chr 73, .op 0x2C, .chr 85, .op 0x2C, .chr 89, .op 0x2C,
  .chr 84, .op 0x2C, .chr 82, .op 0x2C, .chr 69, .op 0x2C, .chr 87, .op 0x7D, .op 0x2C, .nl, .op 0x5B,
  .num 5 false, .op 0x5D, .op 0x3D, .op 0x7B, .id 0x414354494F4E5F4E4F5448494E47, .op 0x2C,
  .id 0x414354494F4E5F524550454154, .op 0x2C, .id 0x414354494F4E5F43415053, .op 0x2C, .id 0x41534349495F4352,
  .op 0x2C, .id 0x41534349495F4C46, .op 0x2C, .chr 79, .op 0x2C, .chr 76, .op 0x2C,
  .id 0x41534349495F504552494F44, .op 0x7D, .op 0x2C, .nl, .op 0x5B, .num 6 false, .op 0x5D, .op 0x3D,
  .op 0x7B, .id 0x41534349495F54494C4445, .op 0x2C, .id 0x41534349495F52545F5351554152455F4252414345,
  .op 0x2C, .id 0x41534349495F4C545F5351554152455F4252414345, .op 0x2C, .chr 45, .op 0x2C, .chr 58, .op 0x2C,
  .id 0x41534349495F5A45524F, .op 0x2C, .chr 57, .op 0x2C, .nl, .chr 56, .op 0x7D, .op 0x2C, .nl, .op 0x5B,
  .num 7 false, .op 0x5D, .op 0x3D, .op 0x7B, .id 0x41534349495F4154, .op 0x2C, .chr 55, .op 0x2C, .chr 54,
  .op 0x2C, .chr 53, .op 0x2C, .chr 52, .op 0x2C, .chr 51, .op 0x2C, .chr 50, .op 0x2C, .chr 49, .op 0x7D,
  .op 0x2C, .nl, .id 0x415344465F434C41535349435F4449505F5357495443484553, .nl, .op 0x7D, .op 0x3B, .nl,
  .id 0x636F6E7374, .id 0x464C415348, .id 0x636C61737369635F6B6579636F64655F6D61747269785F74,
  .id 0x636C61737369635F6374726C5F6D6174726978, .op 0x3D, .op 0x7B, .nl, .op 0x5B, .num 0 false, .op 0x5D,
  .op 0x3D, .op 0x7B, .id 0x414354494F4E5F4E4F5448494E47, .op 0x2C, .id 0x414354494F4E5F5348494654, .op 0x2C,
  .id 0x414354494F4E5F5348494654, .op 0x2C, .id 0x414354494F4E5F4E4F5448494E47, .op 0x2C,
  .id 0x41534349495F455343, .op 0x2C, .id 0x41534349495F544142, .op 0x2C, .nl, .id 0x414354494F4E5F4354524C,
  .op 0x2C, .num 28 false, .op 0x7D, .op 0x2C, .nl, .op 0x5B, .num 1 false, .op 0x5D, .op 0x3D, .op 0x7B,
  .id 0x414354494F4E5F4E4F5448494E47, .op 0x2C, .id 0x41534349495F4354524C5F50, .op 0x2C,
  .id 0x414354494F4E5F4E4F5448494E47, .op 0x2C, .id 0x414354494F4E5F4E4F5448494E47, .op 0x2C,
  .id 0x41534349495F5350414345, .op 0x2C, .id 0x41534349495F4354524C5F5A, .op 0x2C, .nl,
  .id 0x41534349495F4354524C5F41, .op 0x2C, .id 0x41534349495F4354524C5F51, .op 0x7D, .op 0x2C, .nl, .op 0x5B,
  .num 2 false, .op 0x5D, .op 0x3D, .op 0x7B, .id 0x434C41535349435F414354494F4E5F5245534554, .op 0x2C,
  .id 0x41534349495F434F4D4D41, .op 0x2C, .id 0x41534349495F4354524C5F4D, .op 0x2C,
  .id 0x41534349495F4354524C5F4E, .op 0x2C, .id 0x41534349495F4354524C5F42, .op 0x2C,
  .id 0x41534349495F4354524C5F56, .op 0x2C, .nl, .id 0x41534349495F4354524C5F43, .op 0x2C,
  .id 0x41534349495F4354524C5F58, .op 0x7D, .op 0x2C, .nl, .op 0x5B, .num 3 false, .op 0x5D, .op 0x3D,
  .op 0x7B, .id 0x414354494F4E5F4E4F5448494E47, .op 0x2C, .id 0x41534349495F4354524C5F4B, .op 0x2C,
  .id 0x41534349495F4354524C5F4A, .op 0x2C, .id 0x41534349495F4354524C5F48, .op 0x2C,
  .id 0x41534349495F4354524C5F47, .op 0x2C, .id 0x41534349495F4354524C5F46, .op 0x2C, .nl,
  .id 0x41534349495F4354524C5F44, .op 0x2C, .id 0x41534349495F4354524C5F53, .op 0x7D, .op 0x2C, .nl, .op 0x5B,
  .num 4 false, .op 0x5D, .op 0x3D, .op 0x7B, .id 0x414354494F4E5F4E4F5448494E47, .op 0x2C,
  .id 0x41534349495F4354524C5F49, .op 0x2C, .id 0x41534349495F4354524C5F55, .op 0x2C,
  .id 0x41534349495F4354524C5F59, .op 0x2C, .id 0x41534349495F4354524C5F54, .op 0x2C,
  .id 0x41534349495F4354524C5F52, .op 0x2C, .nl, .id 0x41534349495F4354524C5F45, .op 0x2C,
  .id 0x41534349495F4354524C5F57, .op 0x7D, .op 0x2C, .nl, .op 0x5B, .num 5 false, .op 0x5D, .op 0x3D,
  .op 0x7B, .id 0x414354494F4E5F4E4F5448494E47, .op 0x2C, .id 0x414354494F4E5F524550454154, .op 0x2C,
  .id 0x414354494F4E5F43415053, .op 0x2C, .id 0x41534349495F4352, .op 0x2C, .id 0x41534349495F4C46, .op 0x2C,
  .id 0x41534349495F4354524C5F4F, .op 0x2C, .nl, .id 0x41534349495F4354524C5F4C, .op 0x2C,
  .id 0x414354494F4E5F4E4F5448494E47, .op 0x7D, .op 0x2C, .nl, .op 0x5B, .num 6 false, .op 0x5D, .op 0x3D,
  .op 0x7B, .id 0x414354494F4E5F4E4F5448494E47, .op 0x2C, .num 29 false, .op 0x2C, .id 0x41534349495F455343,
  .op 0x2C, .id 0x414354494F4E5F4E4F5448494E47, .op 0x2C, .id 0x414354494F4E5F4E4F5448494E47, .op 0x2C,
  .id 0x414354494F4E5F464E5F3130, .op 0x2C, .nl, .id 0x414354494F4E5F464E5F39, .op 0x2C,
  .id 0x414354494F4E5F464E5F38, .op 0x7D, .op 0x2C, .nl, .op 0x5B, .num 7 false, .op 0x5D, .op 0x3D, .op 0x7B,
  .id 0x41534349495F4E554C4C, .op 0x2C, .id 0x414354494F4E5F464E5F37, .op 0x2C, .id 0x414354494F4E5F464E5F36,
  .op 0x2C, .id 0x414354494F4E5F464E5F35, .op 0x2C, .id 0x414354494F4E5F464E5F34, .op 0x2C,
  .id 0x414354494F4E5F464E5F33, .op 0x2C, .id 0x414354494F4E5F464E5F32, .op 0x2C, .nl,
  .id 0x414354494F4E5F464E5F31, .op 0x7D, .op 0x2C, .nl,
  .id 0x415344465F434C41535349435F4449505F5357495443484553, .nl, .op 0x7D, .op 0x3B, .nl, .id 0x737461746963,
  .id 0x636F6E7374, .id 0x636C61737369635F6B6579636F64655F6D61747269785F74, .op 0x2A,
  .id 0x636C61737369635F6D617073, .op 0x5B, .op 0x5D, .op 0x3D, .op 0x7B, .nl, .op 0x5B,
  .id 0x434C41535349435F434150535F4D4150, .op 0x5D, .op 0x3D, .op 0x26,
  .id 0x636C61737369635F636170735F6D6174726978, .op 0x2C, .nl, .op 0x5B,
  .id 0x434C41535349435F504C41494E5F4D4150, .op 0x5D, .op 0x3D, .op 0x26,
  .id 0x636C61737369635F706C61696E5F6D6174726978, .op 0x2C, .nl, .op 0x5B,
  .id 0x434C41535349435F53484946545F4D4150, .op 0x5D, .op 0x3D, .op 0x26,
  .id 0x636C61737369635F73686966745F6D6174726978, .op 0x2C, .nl, .op 0x5B,
  .id 0x434C41535349435F4354524C5F4D4150, .op 0x5D, .op 0x3D, .op 0x26,
  .id 0x636C61737369635F6374726C5F6D6174726978, .op 0x2C, .nl, .op 0x7D, .op 0x3B, .nl, .id 0x766F6964,
  .id 0x636C61737369635F6164645F6D6170, .paren, .id 0x636F6E7374,
  .id 0x636C61737369635F6D61705F696E6465785F74, .id 0x6D61705F696E646578, .op 0x2C, .nl,
  .id 0x6D6F6469666965725F696E6465785F74, .id 0x6D6F6469666965725F696E646578, .op 0x29, .nl, .op 0x7B, .nl,
  .id 0x617364665F6B6579636F64655F74, .op 0x28, .op 0x2A, .id 0x6D6174726978, .op 0x29, .op 0x5B,
  .id 0x434C41535349435F4E554D5F434F4C53, .op 0x5D, .op 0x3D, .nl, .op 0x28,
  .id 0x617364665F6B6579636F64655F74, .op 0x28, .op 0x2A, .op 0x29, .op 0x5B,
  .id 0x434C41535349435F4E554D5F434F4C53, .op 0x5D, .op 0x29, .id 0x636C61737369635F6D617073, .op 0x5B,
  .id 0x6D61705F696E646578, .op 0x5D, .op 0x3B, .nl, .id 0x617364665F6B65796D6170735F6164645F6D6170, .paren,
  .op 0x26, .id 0x6D6174726978, .op 0x5B, .num 0 false, .op 0x5D, .op 0x5B, .num 0 false, .op 0x5D, .op 0x2C,
  .id 0x6D6F6469666965725F696E646578, .op 0x2C, .op 0x28, .id 0x75696E74385F74, .op 0x29,
  .id 0x434C41535349435F4E554D5F524F5753, .op 0x2C, .nl, .op 0x28, .id 0x75696E74385F74, .op 0x29,
  .id 0x434C41535349435F4E554D5F434F4C53, .op 0x29, .op 0x3B, .nl, .op 0x7D, .nl]

/-- The tokens of /repo/firmware/asdf/src/Keymaps/asdf_keymap_classic.c. -/
def asdf_keymap_classic_c : List Tok := [
  .nl, .op 0x23, .id 0x696E636C756465, .str [97, 115, 100, 102, 46, 104], .nl, .op 0x23, .id 0x696E636C756465,
  .str [97, 115, 100, 102, 95, 107, 101, 121, 109, 97, 112, 115, 46, 104], .nl, .op 0x23,
  .id 0x696E636C756465, .str [97, 115, 100, 102, 95, 118, 105, 114, 116, 117, 97, 108, 46, 104], .nl,
  .op 0x23, .id 0x696E636C756465,
  .str [97, 115, 100, 102, 95, 109, 111, 100, 105, 102, 105, 101, 114, 115, 46, 104], .nl, .op 0x23,
  .id 0x696E636C756465, .str [97, 115, 100, 102, 95, 112, 114, 105, 110, 116, 46, 104], .nl, .op 0x23,
  .id 0x696E636C756465,
  .str [97, 115, 100, 102, 95, 107, 101, 121, 109, 97, 112, 95, 99, 108, 97, 115, 115, 105, 99, 46, 104], .nl,
  .op 0x23, .id 0x696E636C756465,
  .str [97, 115, 100, 102, 95, 107, 101, 121, 109, 97, 112, 95, 99, 108, 97, 115, 115, 105, 99, 95, 97, 100, 100, 95, 109, 97, 112, 46, 104],
  .nl, .op 0x23, .id 0x696E636C756465,
  .str [97, 115, 100, 102, 95, 107, 101, 121, 109, 97, 112, 95, 97, 112, 112, 108, 101, 50, 95, 97, 100, 100, 95, 109, 97, 112, 46, 104],
  .nl, .id 0x766F6964, .id 0x636C61737369635F69645F6D657373616765, .paren, .id 0x766F6964, .op 0x29, .op 0x7B,
  .nl, .id 0x617364665F7072696E74, .paren,
  .str [91, 75, 101, 121, 109, 97, 112, 58, 32, 99, 108, 97, 115, 115, 105, 99, 93, 10], .op 0x29, .op 0x3B,
  .nl, .op 0x7D, .nl, .id 0x766F6964, .id 0x73657475705F636C61737369635F6B65796D6170, .paren, .id 0x766F6964,
  .op 0x29, .nl, .op 0x7B, .nl, .id 0x617364665F7365745F7072696E745F64656C6179, .paren,
  .id 0x415344465F434C41535349435F5052494E545F5350454544, .op 0x29, .op 0x3B, .nl,
  .id 0x636C61737369635F6164645F6D6170, .paren, .id 0x434C41535349435F504C41494E5F4D4150, .op 0x2C,
  .id 0x4D4F445F504C41494E5F4D4150, .op 0x29, .op 0x3B, .nl, .id 0x636C61737369635F6164645F6D6170, .paren,
  .id 0x434C41535349435F434150535F4D4150, .op 0x2C, .id 0x4D4F445F434150535F4D4150, .op 0x29, .op 0x3B, .nl,
  .id 0x636C61737369635F6164645F6D6170, .paren, .id 0x434C41535349435F53484946545F4D4150, .op 0x2C,
  .id 0x4D4F445F53484946545F4D4150, .op 0x29, .op 0x3B, .nl, .id 0x636C61737369635F6164645F6D6170, .paren,
  .id 0x434C41535349435F4354524C5F4D4150, .op 0x2C, .id 0x4D4F445F4354524C5F4D4150, .op 0x29, .op 0x3B, .nl,
  .id 0x617364665F686F6F6B5F61737369676E, .paren, .id 0x434C41535349435F49445F4D4553534147455F484F4F4B,
  .op 0x2C, .id 0x636C61737369635F69645F6D657373616765, .op 0x29, .op 0x3B, .nl,
  .id 0x617364665F686F6F6B5F61737369676E, .paren,
  .id 0x4150504C45534F46545F4B4559424F4152445F544553545F484F4F4B, .op 0x2C,
  .id 0x6170706C65736F66745F6B6579626F6172645F74657374, .op 0x29, .op 0x3B, .nl,
  .id 0x617364665F7669727475616C5F61737369676E, .paren,
  .id 0x434C41535349435F5649525455414C5F504F5745525F4C4544, .op 0x2C,
  .id 0x434C41535349435F504F5745525F4C4544, .op 0x2C, .id 0x565F4E4F46554E43, .op 0x2C,
  .id 0x434C41535349435F504F5745525F4C45445F494E49545F56414C5545, .op 0x29, .op 0x3B, .nl,
  .id 0x617364665F7669727475616C5F61737369676E, .paren, .id 0x56434150535F4C4544, .op 0x2C,
  .id 0x434C41535349435F434150535F4C4544, .op 0x2C, .id 0x565F4E4F46554E43, .op 0x2C,
  .id 0x434C41535349435F434150535F4C45445F494E49545F56414C5545, .op 0x29, .op 0x3B, .nl,
  .id 0x617364665F7669727475616C5F61737369676E, .paren, .id 0x434C41535349435F5649525455414C5F5245534554,
  .op 0x2C, .id 0x434C41535349435F52455345545F4F5554505554, .op 0x2C, .id 0x565F50554C53455F53484F5254,
  .op 0x2C, .op 0x21, .id 0x434C41535349435F52455345545F4143544956455F56414C5545, .op 0x29, .op 0x3B, .nl,
  .id 0x617364665F7669727475616C5F61737369676E, .paren, .id 0x434C41535349435F5649525455414C5F434C525F534352,
  .op 0x2C, .id 0x434C41535349435F434C525F5343525F4F5554, .op 0x2C, .id 0x565F50554C53455F4C4F4E47, .op 0x2C,
  .op 0x21, .id 0x434C41535349435F434C525F5343525F4143544956455F56414C5545, .op 0x29, .op 0x3B, .nl, .op 0x7D,
  .nl]

/-- The tokens of /repo/firmware/asdf/src/Keymaps/asdf_keymap_classic_caps.c. -/
def asdf_keymap_classic_caps_c : List Tok := [
  .nl, .op 0x23, .id 0x696E636C756465, .str [97, 115, 100, 102, 46, 104], .nl, .op 0x23, .id 0x696E636C756465,
  .str [97, 115, 100, 102, 95, 107, 101, 121, 109, 97, 112, 115, 46, 104], .nl, .op 0x23,
  .id 0x696E636C756465, .str [97, 115, 100, 102, 95, 112, 114, 105, 110, 116, 46, 104], .nl, .op 0x23,
  .id 0x696E636C756465, .str [97, 115, 100, 102, 95, 118, 105, 114, 116, 117, 97, 108, 46, 104], .nl,
  .op 0x23, .id 0x696E636C756465,
  .str [97, 115, 100, 102, 95, 109, 111, 100, 105, 102, 105, 101, 114, 115, 46, 104], .nl, .op 0x23,
  .id 0x696E636C756465,
  .str [97, 115, 100, 102, 95, 107, 101, 121, 109, 97, 112, 95, 99, 108, 97, 115, 115, 105, 99, 46, 104], .nl,
  .op 0x23, .id 0x696E636C756465,
  .str [97, 115, 100, 102, 95, 107, 101, 121, 109, 97, 112, 95, 99, 108, 97, 115, 115, 105, 99, 95, 97, 100, 100, 95, 109, 97, 112, 46, 104],
  .nl, .op 0x23, .id 0x696E636C756465,
  .str [97, 115, 100, 102, 95, 107, 101, 121, 109, 97, 112, 95, 97, 112, 112, 108, 101, 50, 95, 97, 100, 100, 95, 109, 97, 112, 46, 104],
  .nl, .id 0x766F6964, .id 0x636C61737369635F636170735F69645F6D657373616765, .paren, .id 0x766F6964, .op 0x29,
  .op 0x7B, .nl, .id 0x617364665F7072696E74, .paren,
  .str [91, 75, 101, 121, 109, 97, 112, 58, 32, 99, 108, 97, 115, 115, 105, 99, 93, 10], .op 0x29, .op 0x3B,
  .nl, .op 0x7D, .nl, .id 0x766F6964, .id 0x73657475705F636C61737369635F636170735F6B65796D6170, .paren,
  .id 0x766F6964, .op 0x29, .nl, .op 0x7B, .nl, .id 0x617364665F7365745F7072696E745F64656C6179, .paren,
  .id 0x415344465F434C41535349435F5052494E545F5350454544, .op 0x29, .op 0x3B, .nl,
  .id 0x636C61737369635F6164645F6D6170, .paren, .id 0x434C41535349435F434150535F4D4150, .op 0x2C,
  .id 0x4D4F445F504C41494E5F4D4150, .op 0x29, .op 0x3B, .nl, .id 0x636C61737369635F6164645F6D6170, .paren,
  .id 0x434C41535349435F434150535F4D4150, .op 0x2C, .id 0x4D4F445F434150535F4D4150, .op 0x29, .op 0x3B, .nl,
  .id 0x636C61737369635F6164645F6D6170, .paren, .id 0x434C41535349435F53484946545F4D4150, .op 0x2C,
  .id 0x4D4F445F53484946545F4D4150, .op 0x29, .op 0x3B, .nl, .id 0x636C61737369635F6164645F6D6170, .paren,
  .id 0x434C41535349435F4354524C5F4D4150, .op 0x2C, .id 0x4D4F445F4354524C5F4D4150, .op 0x29, .op 0x3B, .nl,
  .id 0x617364665F686F6F6B5F61737369676E, .paren, .id 0x434C41535349435F49445F4D4553534147455F484F4F4B,
  .op 0x2C, .id 0x636C61737369635F636170735F69645F6D657373616765, .op 0x29, .op 0x3B, .nl,
  .id 0x617364665F686F6F6B5F61737369676E, .paren,
  .id 0x4150504C45534F46545F4B4559424F4152445F544553545F484F4F4B, .op 0x2C,
  .id 0x6170706C65736F66745F6B6579626F6172645F74657374, .op 0x29, .op 0x3B, .nl,
  .id 0x617364665F7669727475616C5F61737369676E, .paren,
  .id 0x434C41535349435F5649525455414C5F504F5745525F4C4544, .op 0x2C,
  .id 0x434C41535349435F504F5745525F4C4544, .op 0x2C, .id 0x565F4E4F46554E43, .op 0x2C,
  .id 0x434C41535349435F504F5745525F4C45445F494E49545F56414C5545, .op 0x29, .op 0x3B, .nl,
  .id 0x617364665F7669727475616C5F61737369676E, .paren,
  .id 0x434C41535349435F5649525455414C5F504F5745525F4C4544, .op 0x2C, .id 0x434C41535349435F434150535F4C4544,
  .op 0x2C, .id 0x565F4E4F46554E43, .op 0x2C, .id 0x434C41535349435F434150535F4C45445F494E49545F56414C5545,
  .op 0x29, .op 0x3B, .nl, .id 0x617364665F7669727475616C5F61737369676E, .paren,
  .id 0x434C41535349435F5649525455414C5F5245534554, .op 0x2C, .id 0x434C41535349435F52455345545F4F5554505554,
  .op 0x2C, .id 0x565F50554C53455F53484F5254, .op 0x2C, .op 0x21,
  .id 0x434C41535349435F52455345545F4143544956455F56414C5545, .op 0x29, .op 0x3B, .nl,
  .id 0x617364665F7669727475616C5F61737369676E, .paren, .id 0x434C41535349435F5649525455414C5F434C525F534352,
  .op 0x2C, .id 0x434C41535349435F434C525F5343525F4F5554, .op 0x2C, .id 0x565F50554C53455F4C4F4E47, .op 0x2C,
  .op 0x21, .id 0x434C41535349435F434C525F5343525F4143544956455F56414C5545, .op 0x29, .op 0x3B, .nl, .op 0x7D,
  .nl]

/-- The tokens of /repo/firmware/asdf/src/Keymaps/asdf_keymap_apple2_add_map.c. -/
def asdf_keymap_apple2_add_map_c : List Tok := [
  .nl, .op 0x23, .id 0x696E636C756465, .str [97, 115, 100, 102, 95, 97, 114, 99, 104, 46, 104], .nl, .op 0x23,
  .id 0x696E636C756465, .str [97, 115, 100, 102, 46, 104], .nl, .op 0x23, .id 0x696E636C756465,
  .str [97, 115, 100, 102, 95, 112, 114, 105, 110, 116, 46, 104], .nl, .op 0x23, .id 0x696E636C756465,
  .str [97, 115, 100, 102, 95, 97, 115, 99, 105, 105, 46, 104], .nl, .op 0x23, .id 0x696E636C756465,
  .str [97, 115, 100, 102, 95, 107, 101, 121, 109, 97, 112, 115, 46, 104], .nl, .op 0x23,
  .id 0x696E636C756465,
  .str [97, 115, 100, 102, 95, 107, 101, 121, 109, 97, 112, 95, 97, 112, 112, 108, 101, 50, 95, 97, 100, 100, 95, 109, 97, 112, 46, 104],
  .nl, .op 0x23, .id 0x646566696E65, .id 0x415344465F4150504C45325F4449505F5357495443484553,
  .id 0x415344465F4B45594D41505F4449505F5357495443484553, .nl, .id 0x74797065646566,
  .id 0x617364665F6B6579636F64655F74, .id 0x6170706C655F6B6579636F64655F6D61747269785F74, .op 0x5B,
  .id 0x415344465F4150504C45325F4E554D5F524F5753, .op 0x5D, .op 0x5B,
  .id 0x415344465F4150504C45325F4E554D5F434F4C53, .op 0x5D, .op 0x3B, .nl, .id 0x636F6E7374, .id 0x464C415348,
  .id 0x6170706C655F6B6579636F64655F6D61747269785F74, .id 0x6170706C655F706C61696E5F6D6174726978, .op 0x3D,
  .op 0x7B, .nl, .op 0x5B, .num 0 false, .op 0x5D, .op 0x3D, .op 0x7B, .id 0x414354494F4E5F43415053, .op 0x2C,
  .id 0x414354494F4E5F5348494654, .op 0x2C, .id 0x414354494F4E5F5348494654, .op 0x2C,
  .id 0x414354494F4E5F4E4F5448494E47, .op 0x2C, .nl, .id 0x414354494F4E5F4E4F5448494E47, .op 0x2C,
  .id 0x41534349495F455343, .op 0x2C, .id 0x414354494F4E5F4354524C, .op 0x2C,
  .id 0x4150504C455F52494748545F4152524F57, .op 0x7D, .op 0x2C, .nl, .op 0x5B, .num 1 false, .op 0x5D,
  .op 0x3D, .op 0x7B, .id 0x41534349495F44454C, .op 0x2C, .chr 112, .op 0x2C, .chr 59, .op 0x2C, .chr 47,
  .op 0x2C, .id 0x41534349495F5350414345, .op 0x2C, .chr 122, .op 0x2C, .chr 97, .op 0x2C, .chr 113, .op 0x7D,
  .op 0x2C, .nl, .op 0x5B, .num 2 false, .op 0x5D, .op 0x3D, .op 0x7B, .id 0x414354494F4E5F4E4F5448494E47,
  .op 0x2C, .id 0x41534349495F434F4D4D41, .op 0x2C, .chr 109, .op 0x2C, .chr 110, .op 0x2C, .chr 98, .op 0x2C,
  .chr 118, .op 0x2C, .chr 99, .op 0x2C, .chr 120, .op 0x7D, .op 0x2C, .nl, .op 0x5B, .num 3 false, .op 0x5D,
  .op 0x3D, .op 0x7B, .id 0x414354494F4E5F4E4F5448494E47, .op 0x2C, .chr 107, .op 0x2C, .chr 106, .op 0x2C,
  .chr 104, .op 0x2C, .chr 103, .op 0x2C, .chr 102, .op 0x2C, .chr 100, .op 0x2C, .chr 115, .op 0x7D,
  .op 0x2C, .nl, .op 0x5B, .num 4 false, .op 0x5D, .op 0x3D, .op 0x7B, .id 0x414354494F4E5F4E4F5448494E47,
  .op 0x2C, .chr 105, .op 0x2C, .chr 117, .op 0x2C, .chr 121, .op 0x2C, .chr 116, .op 0x2C, .chr 114,
  .op 0x2C, .chr 101, .op 0x2C, .chr 119, .op 0x7D, .op 0x2C, .nl, .op 0x5B, .num 5 false, .op 0x5D, .op 0x3D,
  .op 0x7B, .id 0x414354494F4E5F4E4F5448494E47, .op 0x2C, .id 0x414354494F4E5F4E4F5448494E47, .op 0x2C,
  .id 0x414354494F4E5F4E4F5448494E47, .op 0x2C, .id 0x41534349495F4352, .op 0x2C, .chr 94, .op 0x2C, .chr 111,
  .op 0x2C, .chr 108, .op 0x2C, .id 0x41534349495F504552494F44, .op 0x7D, .op 0x2C, .nl, .op 0x5B,
  .num 6 false, .op 0x5D, .op 0x3D, .op 0x7B, .id 0x414354494F4E5F4E4F5448494E47, .op 0x2C,
  .id 0x414354494F4E5F4E4F5448494E47, .op 0x2C, .id 0x414354494F4E5F4E4F5448494E47, .op 0x2C, .chr 45,
  .op 0x2C, .chr 58, .op 0x2C, .id 0x41534349495F5A45524F, .op 0x2C, .chr 57, .op 0x2C, .chr 56, .op 0x7D,
  .op 0x2C, .nl, .op 0x5B, .num 7 false, .op 0x5D, .op 0x3D, .op 0x7B, .id 0x4150504C455F4C4546545F4152524F57,
  .op 0x2C, .chr 55, .op 0x2C, .chr 54, .op 0x2C, .chr 53, .op 0x2C, .chr 52, .op 0x2C, .chr 51, .op 0x2C,
  .chr 50, .op 0x2C, .chr 49, .op 0x7D, .op 0x2C, .nl, .id 0x415344465F4150504C45325F4449505F5357495443484553,
  .nl, .op 0x7D, .op 0x3B, .nl, .id 0x636F6E7374, .id 0x464C415348,
  .id 0x6170706C655F6B6579636F64655F6D61747269785F74, .id 0x6170706C655F73686966745F6D6174726978, .op 0x3D,
  .op 0x7B, .nl, .op 0x5B, .num 0 false, .op 0x5D, .op 0x3D, .op 0x7B, .id 0x414354494F4E5F43415053, .op 0x2C,
  .id 0x414354494F4E5F5348494654, .op 0x2C, .id 0x414354494F4E5F5348494654, .op 0x2C,
  .id 0x414354494F4E5F4E4F5448494E47, .op 0x2C, .nl, .id 0x414354494F4E5F4E4F5448494E47, .op 0x2C,
  .id 0x41534349495F455343, .op 0x2C, .id 0x414354494F4E5F4354524C, .op 0x2C,
  .id 0x4150504C455F52494748545F4152524F57, .op 0x7D, .op 0x2C, .nl, .op 0x5B, .num 1 false, .op 0x5D,
  .op 0x3D, .op 0x7B, .id 0x414354494F4E5F4E4F5448494E47, .op 0x2C, .chr 80, .op 0x2C, .chr 43, .op 0x2C,
  .chr 63, .op 0x2C, .id 0x41534349495F5350414345, .op 0x2C, .chr 90, .op 0x2C, .chr 65, .op 0x2C, .chr 81,
  .op 0x7D, .op 0x2C, .nl, .op 0x5B, .num 2 false, .op 0x5D, .op 0x3D, .op 0x7B,
  .id 0x414354494F4E5F4E4F5448494E47, .op 0x2C, .chr 60, .op 0x2C, .chr 77, .op 0x2C, .chr 78, .op 0x2C,
  .chr 66, .op 0x2C, .chr 86, .op 0x2C, .chr 67, .op 0x2C, .chr 88, .op 0x7D, .op 0x2C, .nl, .op 0x5B,
  .num 3 false, .op 0x5D, .op 0x3D, .op 0x7B, .id 0x414354494F4E5F4E4F5448494E47, .op 0x2C, .chr 75, .op 0x2C,
  .chr 74, .op 0x2C, .chr 72, .op 0x2C, .chr 71, .op 0x2C, .chr 70, .op 0x2C, .chr 68, .op 0x2C, .chr 83,
  .op 0x7D, .op 0x2C, .nl, .op 0x5B, .num 4 false, .op 0x5D, .op 0x3D, .op 0x7B,
  .id 0x414354494F4E5F4E4F5448494E47, .op 0x2C, .chr 73, .op 0x2C, .chr 85, .op 0x2C, .chr 89, .op 0x2C,
  .chr 84, .op 0x2C, .chr 82, .op 0x2C, .chr 69, .op 0x2C, .chr 87, .op 0x7D, .op 0x2C, .nl, .op 0x5B,
  .num 5 false, .op 0x5D, .op 0x3D, .op 0x7B, .id 0x414354494F4E5F4E4F5448494E47, .op 0x2C,
  .id 0x414354494F4E5F4E4F5448494E47, .op 0x2C, .id 0x414354494F4E5F4E4F5448494E47, .op 0x2C,
  .id 0x41534349495F4352, .op 0x2C, .id 0x41534349495F4154, .op 0x2C, .chr 79, .op 0x2C, .chr 76, .op 0x2C,
  .chr 62, .op 0x7D, .op 0x2C, .nl, .op 0x5B, .num 6 false, .op 0x5D, .op 0x3D, .op 0x7B,
  .id 0x414354494F4E5F4E4F5448494E47, .op 0x2C, .id 0x414354494F4E5F4E4F5448494E47, .op 0x2C,
  .id 0x4150504C455F414354494F4E5F434C454152, .op 0x2C, .chr 61, .op 0x2C, .nl, .chr 42, .op 0x2C,
  .id 0x41534349495F4154, .op 0x2C, .id 0x41534349495F52545F504152454E, .op 0x2C,
  .id 0x41534349495F4C545F504152454E, .op 0x7D, .op 0x2C, .nl, .op 0x5B, .num 7 false, .op 0x5D, .op 0x3D,
  .op 0x7B, .id 0x4150504C455F4C4546545F4152524F57, .op 0x2C, .id 0x41534349495F53494E474C455F51554F5445,
  .op 0x2C, .chr 38, .op 0x2C, .chr 37, .op 0x2C, .chr 36, .op 0x2C, .chr 35, .op 0x2C,
  .id 0x41534349495F444F55424C455F51554F5445, .op 0x2C, .chr 33, .op 0x7D, .op 0x2C, .nl,
  .id 0x415344465F4150504C45325F4449505F5357495443484553, .nl, .op 0x7D, .op 0x3B, .nl, .id 0x636F6E7374,
  .id 0x464C415348, .id 0x6170706C655F6B6579636F64655F6D61747269785F74,
  .id 0x6170706C655F636170735F73686966745F6D6174726978, .op 0x3D, .op 0x7B, .nl, .op 0x5B, .num 0 false,
  .op 0x5D, .op 0x3D, .op 0x7B, .id 0x414354494F4E5F43415053, .op 0x2C, .id 0x414354494F4E5F5348494654,
  .op 0x2C, .id 0x414354494F4E5F5348494654, .op 0x2C, .id 0x414354494F4E5F4E4F5448494E47, .op 0x2C, .nl,
  .id 0x414354494F4E5F4E4F5448494E47, .op 0x2C, .id 0x41534349495F455343, .op 0x2C,
  .id 0x414354494F4E5F4354524C, .op 0x2C, .id 0x4150504C455F52494748545F4152524F57, .op 0x7D, .op 0x2C, .nl,
  .op 0x5B, .num 1 false, .op 0x5D, .op 0x3D, .op 0x7B, .id 0x414354494F4E5F4E4F5448494E47, .op 0x2C,
  .id 0x41534349495F4154, .op 0x2C, .chr 43, .op 0x2C, .chr 63, .op 0x2C, .id 0x41534349495F5350414345,
  .op 0x2C, .chr 90, .op 0x2C, .chr 65, .op 0x2C, .chr 81, .op 0x7D, .op 0x2C, .nl, .op 0x5B, .num 2 false,
  .op 0x5D, .op 0x3D, .op 0x7B, .id 0x414354494F4E5F4E4F5448494E47, .op 0x2C, .chr 60, .op 0x2C, .chr 77,
  .op 0x2C, .chr 94, .op 0x2C, .chr 66, .op 0x2C, .chr 86, .op 0x2C, .chr 67, .op 0x2C, .chr 88, .op 0x7D,
  .op 0x2C, .nl, .op 0x5B, .num 3 false, .op 0x5D, .op 0x3D, .op 0x7B, .id 0x414354494F4E5F4E4F5448494E47,
  .op 0x2C, .chr 75, .op 0x2C, .chr 74, .op 0x2C, .chr 72, .op 0x2C, .chr 71, .op 0x2C, .chr 70, .op 0x2C,
  .chr 68, .op 0x2C, .chr 83, .op 0x7D, .op 0x2C, .nl, .op 0x5B, .num 4 false, .op 0x5D, .op 0x3D, .op 0x7B,
  .id 0x414354494F4E5F4E4F5448494E47, .op 0x2C, .chr 73, .op 0x2C, .chr 85, .op 0x2C, .chr 89, .op 0x2C,
  .chr 84, .op 0x2C, .chr 82, .op 0x2C, .chr 69, .op 0x2C, .chr 87, .op 0x7D, .op 0x2C, .nl, .op 0x5B,
  .num 5 false, .op 0x5D, .op 0x3D, .op 0x7B, .id 0x414354494F4E5F4E4F5448494E47, .op 0x2C,
  .id 0x414354494F4E5F4E4F5448494E47, .op 0x2C, .id 0x414354494F4E5F4E4F5448494E47, .op 0x2C,
  .id 0x41534349495F4352, .op 0x2C, .id 0x414354494F4E5F524550454154, .op 0x2C, .chr 79, .op 0x2C, .chr 76,
  .op 0x2C, .chr 62, .op 0x7D, .op 0x2C, .nl, .op 0x5B, .num 6 false, .op 0x5D, .op 0x3D, .op 0x7B,
  .id 0x414354494F4E5F4E4F5448494E47, .op 0x2C, .id 0x414354494F4E5F4E4F5448494E47, .op 0x2C,
  .id 0x4150504C455F414354494F4E5F434C454152, .op 0x2C, .chr 61, .op 0x2C, .nl, .chr 42, .op 0x2C,
  .id 0x414354494F4E5F4E4F5448494E47, .op 0x2C, .id 0x41534349495F52545F504152454E, .op 0x2C,
  .id 0x41534349495F4C545F504152454E, .op 0x7D, .op 0x2C, .nl, .op 0x5B, .num 7 false, .op 0x5D, .op 0x3D,
  .op 0x7B, .id 0x4150504C455F4C4546545F4152524F57, .op 0x2C, .id 0x41534349495F53494E474C455F51554F5445,
  .op 0x2C, .chr 38, .op 0x2C, .chr 37, .op 0x2C, .chr 36, .op 0x2C, .chr 35, .op 0x2C,
  .id 0x41534349495F444F55424C455F51554F5445, .op 0x2C, .chr 33, .op 0x7D, .op 0x2C, .nl,
  .id 0x415344465F4150504C45325F4449505F5357495443484553, .nl, .op 0x7D, .op 0x3B, .nl, .id 0x636F6E7374,
  .id 0x464C415348, .id 0x6170706C655F6B6579636F64655F6D61747269785F74,
  .id 0x6170706C655F636170735F6D6174726978, .op 0x3D, .op 0x7B, .nl, .op 0x5B, .num 0 false, .op 0x5D,
  .op 0x3D, .op 0x7B, .id 0x414354494F4E5F43415053, .op 0x2C, .id 0x414354494F4E5F5348494654, .op 0x2C,
  .id 0x414354494F4E5F5348494654, .op 0x2C, .id 0x414354494F4E5F4E4F5448494E47, .op 0x2C, .nl,
  .id 0x414354494F4E5F4E4F5448494E47, .op 0x2C, .id 0x41534349495F455343, .op 0x2C,
  .id 0x414354494F4E5F4354524C, .op 0x2C, .id 0x4150504C455F52494748545F4152524F57, .op 0x7D, .op 0x2C, .nl,
  .op 0x5B, .num 1 false, .op 0x5D, .op 0x3D, .op 0x7B, .id 0x414354494F4E5F4E4F5448494E47, .op 0x2C, .chr 80,
  .op 0x2C, .chr 59, .op 0x2C, .chr 47, .op 0x2C, .id 0x41534349495F5350414345, .op 0x2C, .chr 90, .op 0x2C,
  .chr 65, .op 0x2C, .chr 81, .op 0x7D, .op 0x2C, .nl, .op 0x5B, .num 2 false, .op 0x5D, .op 0x3D, .op 0x7B,
  .id 0x414354494F4E5F4E4F5448494E47, .op 0x2C, .id 0x41534349495F434F4D4D41, .op 0x2C, .chr 77, .op 0x2C,
  .chr 78, .op 0x2C, .chr 66, .op 0x2C, .chr 86, .op 0x2C, .chr 67, .op 0x2C, .chr 88, .op 0x7D, .op 0x2C,
  .nl, .op 0x5B, .num 3 false, .op 0x5D, .op 0x3D, .op 0x7B, .id 0x414354494F4E5F4E4F5448494E47, .op 0x2C,
  .chr 75, .op 0x2C, .chr 74, .op 0x2C, .chr 72, .op 0x2C, .chr 71, .op 0x2C, .chr 70, .op 0x2C, .chr 68,
  .op 0x2C, .chr 83, .op 0x7D, .op 0x2C, .nl, .op 0x5B, .num 4 false, .op 0x5D, .op 0x3D, .op 0x7B,
  .id 0x414354494F4E5F4E4F5448494E47, .op 0x2C, .chr 73, .op 0x2C, .chr 85, .op 0x2C, .chr 89, .op 0x2C,
  .chr 84, .op 0x2C, .chr 82, .op 0x2C, .chr 69, .op 0x2C, .chr 87, .op 0x7D, .op 0x2C, .nl, .op 0x5B,
  .num 5 false, .op 0x5D, .op 0x3D, .op 0x7B, .id 0x414354494F4E5F4E4F5448494E47, .op 0x2C,
  .id 0x414354494F4E5F4E4F5448494E47, .op 0x2C, .id 0x414354494F4E5F4E4F5448494E47, .op 0x2C,
  .id 0x41534349495F4352, .op 0x2C, .id 0x414354494F4E5F524550454154, .op 0x2C, .chr 79, .op 0x2C, .chr 76,
  .op 0x2C, .id 0x41534349495F504552494F44, .op 0x7D, .op 0x2C, .nl, .op 0x5B, .num 6 false, .op 0x5D,
  .op 0x3D, .op 0x7B, .id 0x414354494F4E5F4E4F5448494E47, .op 0x2C, .id 0x414354494F4E5F4E4F5448494E47,
  .op 0x2C, .id 0x414354494F4E5F4E4F5448494E47, .op 0x2C, .chr 45, .op 0x2C, .chr 58, .op 0x2C,
  .id 0x41534349495F5A45524F, .op 0x2C, .chr 57, .op 0x2C, .chr 56, .op 0x7D, .op 0x2C, .nl, .op 0x5B,
  .num 7 false, .op 0x5D, .op 0x3D, .op 0x7B, .id 0x4150504C455F4C4546545F4152524F57, .op 0x2C, .chr 55,
  .op 0x2C, .chr 54, .op 0x2C, .chr 53, .op 0x2C, .chr 52, .op 0x2C, .chr 51, .op 0x2C, .chr 50, .op 0x2C,
  .chr 49, .op 0x7D, .op 0x2C, .nl, .id 0x415344465F4150504C45325F4449505F5357495443484553, .nl, .op 0x7D,
  .op 0x3B, .nl, .id 0x636F6E7374, .id 0x464C415348, .id 0x6170706C655F6B6579636F64655F6D61747269785F74,
  .id 0x6170706C655F6374726C5F6D6174726978, .op 0x3D, .op 0x7B, .nl, .op 0x5B, .num 0 false, .op 0x5D,
  .op 0x3D, .op 0x7B, .id 0x414354494F4E5F43415053, .op 0x2C, .id 0x414354494F4E5F5348494654, .op 0x2C,
  .id 0x414354494F4E5F5348494654, .op 0x2C, .id 0x414354494F4E5F4E4F5448494E47, .op 0x2C, .nl,
  .id 0x414354494F4E5F4E4F5448494E47, .op 0x2C, .id 0x41534349495F455343, .op 0x2C,
  .id 0x414354494F4E5F4354524C, .op 0x2C, .id 0x4150504C455F52494748545F4152524F57, .op 0x7D, .op 0x2C, .nl,
  .op 0x5B, .num 1 false, .op 0x5D, .op 0x3D, .op 0x7B, .id 0x414354494F4E5F4E4F5448494E47, .op 0x2C,
  .id 0x41534349495F4354524C5F50, .op 0x2C, .id 0x414354494F4E5F4E4F5448494E47, .op 0x2C,
  .id 0x41534349495F4241434B534C415348, .op 0x2C, .nl, .id 0x41534349495F5350414345, .op 0x2C,
  .id 0x41534349495F4354524C5F5A, .op 0x2C, .id 0x41534349495F4354524C5F41, .op 0x2C,
  .id 0x41534349495F4354524C5F51, .op 0x7D, .op 0x2C, .nl, .op 0x5B, .num 2 false, .op 0x5D, .op 0x3D,
  .op 0x7B, .id 0x414354494F4E5F4E4F5448494E47, .op 0x2C, .id 0x41534349495F4C545F5351554152455F4252414345,
  .op 0x2C, .id 0x41534349495F4354524C5F4D, .op 0x2C, .id 0x41534349495F4354524C5F4E, .op 0x2C, .nl,
  .id 0x41534349495F4354524C5F42, .op 0x2C, .id 0x41534349495F4354524C5F56, .op 0x2C,
  .id 0x41534349495F4354524C5F43, .op 0x2C, .id 0x41534349495F4354524C5F58, .op 0x7D, .op 0x2C, .nl, .op 0x5B,
  .num 3 false, .op 0x5D, .op 0x3D, .op 0x7B, .id 0x414354494F4E5F4E4F5448494E47, .op 0x2C,
  .id 0x41534349495F4354524C5F4B, .op 0x2C, .id 0x41534349495F4354524C5F4A, .op 0x2C,
  .id 0x41534349495F4354524C5F48, .op 0x2C, .nl, .id 0x41534349495F4354524C5F47, .op 0x2C,
  .id 0x41534349495F4354524C5F46, .op 0x2C, .id 0x41534349495F4354524C5F44, .op 0x2C,
  .id 0x41534349495F4354524C5F53, .op 0x7D, .op 0x2C, .nl, .op 0x5B, .num 4 false, .op 0x5D, .op 0x3D,
  .op 0x7B, .id 0x414354494F4E5F4E4F5448494E47, .op 0x2C, .id 0x41534349495F4354524C5F49, .op 0x2C,
  .id 0x41534349495F4354524C5F55, .op 0x2C, .id 0x41534349495F4354524C5F59, .op 0x2C, .nl,
  .id 0x41534349495F4354524C5F54, .op 0x2C, .id 0x41534349495F4354524C5F52, .op 0x2C,
  .id 0x41534349495F4354524C5F45, .op 0x2C, .id 0x41534349495F4354524C5F57, .op 0x7D, .op 0x2C, .nl, .op 0x5B,
  .num 5 false, .op 0x5D, .op 0x3D, .op 0x7B, .id 0x414354494F4E5F4E4F5448494E47, .op 0x2C,
  .id 0x414354494F4E5F4E4F5448494E47, .op 0x2C, .id 0x414354494F4E5F4E4F5448494E47, .op 0x2C,
  .id 0x41534349495F4352, .op 0x2C, .nl, .id 0x414354494F4E5F524550454154, .op 0x2C,
  .id 0x41534349495F4354524C5F4F, .op 0x2C, .id 0x41534349495F4354524C5F4C, .op 0x2C,
  .id 0x41534349495F52545F5351554152455F4252414345, .op 0x7D, .op 0x2C, .nl, .op 0x5B, .num 6 false, .op 0x5D,
  .op 0x3D, .op 0x7B, .id 0x414354494F4E5F4E4F5448494E47, .op 0x2C, .id 0x414354494F4E5F4E4F5448494E47,
  .op 0x2C, .id 0x4150504C455F414354494F4E5F5245534554, .op 0x2C, .id 0x41534349495F554E44455253434F5245,
  .op 0x2C, .nl, .id 0x414354494F4E5F4E4F5448494E47, .op 0x2C, .id 0x414354494F4E5F464E5F3130, .op 0x2C,
  .id 0x41534349495F52545F4355524C595F4252414345, .op 0x2C, .id 0x41534349495F4C545F4355524C595F4252414345,
  .op 0x7D, .op 0x2C, .nl, .op 0x5B, .num 7 false, .op 0x5D, .op 0x3D, .op 0x7B, .id 0x41534349495F44454C,
  .op 0x2C, .id 0x41534349495F47524156455F414343454E54, .op 0x2C, .id 0x41534349495F4341524554, .op 0x2C,
  .id 0x414354494F4E5F464E5F35, .op 0x2C, .nl, .id 0x414354494F4E5F464E5F34, .op 0x2C,
  .id 0x414354494F4E5F464E5F33, .op 0x2C, .id 0x41534349495F54494C4445, .op 0x2C,
  .id 0x41534349495F564552545F424152, .op 0x7D, .op 0x2C, .nl,
  .id 0x415344465F4150504C45325F4449505F5357495443484553, .nl, .op 0x7D, .op 0x3B, .nl, .id 0x737461746963,
  .id 0x636F6E7374, .id 0x6170706C655F6B6579636F64655F6D61747269785F74, .op 0x2A, .id 0x6170706C655F6D617073,
  .op 0x5B, .op 0x5D, .op 0x3D, .op 0x7B, .nl, .op 0x5B, .id 0x4150504C455F434150535F4D4150, .op 0x5D,
  .op 0x3D, .op 0x26, .id 0x6170706C655F636170735F6D6174726978, .op 0x2C, .nl, .op 0x5B,
  .id 0x4150504C455F504C41494E5F4D4150, .op 0x5D, .op 0x3D, .op 0x26,
  .id 0x6170706C655F706C61696E5F6D6174726978, .op 0x2C, .nl, .op 0x5B, .id 0x4150504C455F53484946545F4D4150,
  .op 0x5D, .op 0x3D, .op 0x26, .id 0x6170706C655F73686966745F6D6174726978, .op 0x2C, .nl, .op 0x5B,
  .id 0x4150504C455F4354524C5F4D4150, .op 0x5D, .op 0x3D, .op 0x26, .id 0x6170706C655F6374726C5F6D6174726978,
  .op 0x2C, .nl, .op 0x5B, .id 0x4150504C455F434150535F53484946545F4D4150, .op 0x5D, .op 0x3D, .op 0x26,
  .id 0x6170706C655F636170735F73686966745F6D6174726978, .nl, .op 0x7D, .op 0x3B, .nl, .id 0x766F6964,
  .id 0x6170706C65736F66745F6B6579626F6172645F74657374, .paren, .id 0x766F6964, .op 0x29, .nl, .op 0x7B, .nl,
  .id 0x617364665F7072696E74, .paren,
  .str [49, 48, 71, 69, 84, 65, 36, 40, 48, 41, 58, 65, 61, 65, 83, 67, 40, 65, 36, 40, 48, 41, 41, 58, 65, 36, 40, 49, 41, 61, 34, 67, 84, 76, 43, 34, 43, 67, 72, 82, 36, 40, 65, 32, 43, 32, 54, 52, 41, 58, 63, 34, 39, 34, 59, 65, 36, 40, 65, 60, 51, 50, 41, 59, 34, 39, 32, 61, 32, 34, 59, 65, 58, 73, 70, 65, 60, 62, 51, 71, 79, 84, 79, 49, 48, 13],
  .op 0x29, .op 0x3B, .nl, .op 0x7D, .nl, .id 0x766F6964, .id 0x6170706C655F6164645F6D6170, .paren,
  .id 0x636F6E7374, .id 0x6170706C655F6D61705F696E6465785F74, .id 0x6D61705F696E646578, .op 0x2C, .nl,
  .id 0x6D6F6469666965725F696E6465785F74, .id 0x6D6F6469666965725F696E646578, .op 0x29, .nl, .op 0x7B, .nl,
  .id 0x617364665F6B6579636F64655F74, .op 0x28, .op 0x2A, .id 0x6D6174726978, .op 0x29, .op 0x5B,
  .id 0x415344465F4150504C45325F4E554D5F434F4C53, .op 0x5D, .op 0x3D, .nl, .op 0x28,
  .id 0x617364665F6B6579636F64655F74, .op 0x28, .op 0x2A, .op 0x29, .op 0x5B,
  .id 0x415344465F4150504C45325F4E554D5F434F4C53, .op 0x5D, .op 0x29, .id 0x6170706C655F6D617073, .op 0x5B,
  .id 0x6D61705F696E646578, .op 0x5D, .op 0x3B, .nl, .id 0x617364665F6B65796D6170735F6164645F6D6170, .paren,
  .op 0x26, .id 0x6D6174726978, .op 0x5B, .num 0 false, .op 0x5D, .op 0x5B, .num 0 false, .op 0x5D, .op 0x2C,
  .id 0x6D6F6469666965725F696E646578, .op 0x2C, .op 0x28, .id 0x75696E74385F74, .op 0x29,
  .id 0x415344465F4150504C45325F4E554D5F524F5753, .op 0x2C, .nl, .op 0x28, .id 0x75696E74385F74, .op 0x29,
  .id 0x415344465F4150504C45325F4E554D5F434F4C53, .op 0x29, .op 0x3B, .nl, .op 0x7D, .nl]

/-- The tokens of /repo/firmware/asdf/src/Keymaps/asdf_keymap_apple2.c. -/
def asdf_keymap_apple2_c : List Tok := [
  .nl, .op 0x23, .id 0x696E636C756465, .str [97, 115, 100, 102, 95, 112, 114, 105, 110, 116, 46, 104], .nl,
  .op 0x23, .id 0x696E636C756465, .str [97, 115, 100, 102, 95, 104, 111, 111, 107, 46, 104], .nl, .op 0x23,
  .id 0x696E636C756465, .str [97, 115, 100, 102, 95, 107, 101, 121, 109, 97, 112, 115, 46, 104], .nl,
  .op 0x23, .id 0x696E636C756465, .str [97, 115, 100, 102, 95, 118, 105, 114, 116, 117, 97, 108, 46, 104],
  .nl, .op 0x23, .id 0x696E636C756465,
  .str [97, 115, 100, 102, 95, 109, 111, 100, 105, 102, 105, 101, 114, 115, 46, 104], .nl, .op 0x23,
  .id 0x696E636C756465,
  .str [97, 115, 100, 102, 95, 107, 101, 121, 109, 97, 112, 95, 97, 112, 112, 108, 101, 50, 95, 97, 100, 100, 95, 109, 97, 112, 46, 104],
  .nl, .op 0x23, .id 0x696E636C756465,
  .str [97, 115, 100, 102, 95, 107, 101, 121, 109, 97, 112, 95, 97, 112, 112, 108, 101, 50, 46, 104], .nl,
  .id 0x766F6964, .id 0x6170706C65325F69645F6D657373616765, .paren, .id 0x766F6964, .op 0x29, .nl, .op 0x7B,
  .nl, .id 0x617364665F7072696E74, .paren,
  .str [91, 75, 101, 121, 109, 97, 112, 58, 32, 65, 112, 112, 108, 101, 32, 50, 32, 40, 117, 47, 108, 32, 99, 97, 115, 101, 41, 93],
  .op 0x29, .op 0x3B, .nl, .op 0x7D, .nl, .id 0x766F6964, .id 0x73657475705F6170706C65325F6B65796D6170,
  .paren, .id 0x766F6964, .op 0x29, .nl, .op 0x7B, .nl, .id 0x617364665F7365745F7072696E745F64656C6179,
  .paren, .id 0x4150504C45325F5052494E545F44454C4159, .op 0x29, .op 0x3B, .nl,
  .id 0x6170706C655F6164645F6D6170, .paren, .id 0x4150504C455F504C41494E5F4D4150, .op 0x2C,
  .id 0x4D4F445F504C41494E5F4D4150, .op 0x29, .op 0x3B, .nl, .id 0x6170706C655F6164645F6D6170, .paren,
  .id 0x4150504C455F434150535F4D4150, .op 0x2C, .id 0x4D4F445F434150535F4D4150, .op 0x29, .op 0x3B, .nl,
  .id 0x6170706C655F6164645F6D6170, .paren, .id 0x4150504C455F53484946545F4D4150, .op 0x2C,
  .id 0x4D4F445F53484946545F4D4150, .op 0x29, .op 0x3B, .nl, .id 0x6170706C655F6164645F6D6170, .paren,
  .id 0x4150504C455F4354524C5F4D4150, .op 0x2C, .id 0x4D4F445F4354524C5F4D4150, .op 0x29, .op 0x3B, .nl,
  .id 0x617364665F686F6F6B5F61737369676E, .paren, .id 0x4150504C45534F46545F4B4559424F4152445F54455354,
  .op 0x2C, .id 0x6170706C65736F66745F6B6579626F6172645F74657374, .op 0x29, .op 0x3B, .nl,
  .id 0x617364665F686F6F6B5F61737369676E, .paren, .id 0x4150504C45325F49445F4D455353414745, .op 0x2C,
  .id 0x6170706C65325F69645F6D657373616765, .op 0x29, .op 0x3B, .nl,
  .id 0x617364665F7669727475616C5F61737369676E, .paren, .id 0x56434150535F4C4544, .op 0x2C,
  .id 0x4150504C455F504F5745525F4C4544, .op 0x2C, .id 0x565F4E4F46554E43, .op 0x2C,
  .id 0x4150504C455F504F5745525F4C45445F494E49545F56414C5545, .op 0x29, .op 0x3B, .nl,
  .id 0x617364665F7669727475616C5F61737369676E, .paren,
  .id 0x4150504C455F5649525455414C5F44495341424C45445F4C4544, .op 0x2C,
  .id 0x4150504C455F44495341424C45445F4C4544, .op 0x2C, .id 0x565F4E4F46554E43, .op 0x2C,
  .id 0x4150504C455F44495341424C45445F494E49545F56414C5545, .op 0x29, .op 0x3B, .nl,
  .id 0x617364665F7669727475616C5F61737369676E, .paren, .id 0x4150504C455F5649525455414C5F5245534554,
  .op 0x2C, .id 0x4150504C455F52455345545F4F5554505554, .op 0x2C, .id 0x565F50554C53455F53484F5254, .op 0x2C,
  .op 0x21, .id 0x4150504C455F52455345545F4143544956455F56414C5545, .op 0x29, .op 0x3B, .nl,
  .id 0x617364665F7669727475616C5F61737369676E, .paren, .id 0x4150504C455F5649525455414C5F434C525F534352,
  .op 0x2C, .id 0x4150504C455F434C525F5343525F4F5554505554, .op 0x2C, .id 0x565F50554C53455F4C4F4E47,
  .op 0x2C, .op 0x21, .id 0x4150504C455F434C525F5343525F4143544956455F56414C5545, .op 0x29, .op 0x3B, .nl,
  .id 0x617364665F6D6F6469666965725F636170736C6F636B5F6163746976617465, .paren, .op 0x29, .op 0x3B, .nl,
  .op 0x7D, .nl]

/-- The tokens of /repo/firmware/asdf/src/Keymaps/asdf_keymap_apple2_caps.c. -/
def asdf_keymap_apple2_caps_c : List Tok := [
  .nl, .op 0x23, .id 0x696E636C756465, .str [97, 115, 100, 102, 95, 112, 114, 105, 110, 116, 46, 104], .nl,
  .op 0x23, .id 0x696E636C756465, .str [97, 115, 100, 102, 95, 107, 101, 121, 109, 97, 112, 115, 46, 104],
  .nl, .op 0x23, .id 0x696E636C756465,
  .str [97, 115, 100, 102, 95, 118, 105, 114, 116, 117, 97, 108, 46, 104], .nl, .op 0x23,
  .id 0x696E636C756465, .str [97, 115, 100, 102, 95, 109, 111, 100, 105, 102, 105, 101, 114, 115, 46, 104],
  .nl, .op 0x23, .id 0x696E636C756465,
  .str [97, 115, 100, 102, 95, 107, 101, 121, 109, 97, 112, 95, 97, 112, 112, 108, 101, 50, 95, 97, 100, 100, 95, 109, 97, 112, 46, 104],
  .nl, .op 0x23, .id 0x696E636C756465,
  .str [97, 115, 100, 102, 95, 107, 101, 121, 109, 97, 112, 95, 97, 112, 112, 108, 101, 50, 95, 99, 97, 112, 115, 46, 104],
  .nl, .id 0x766F6964, .id 0x6170706C65325F636170735F69645F6D657373616765, .paren, .id 0x766F6964, .op 0x29,
  .op 0x7B, .nl, .id 0x617364665F7072696E74, .paren,
  .str [91, 75, 101, 121, 109, 97, 112, 58, 32, 65, 112, 112, 108, 101, 32, 50, 32, 67, 65, 80, 83, 93],
  .op 0x29, .op 0x3B, .nl, .op 0x7D, .nl, .id 0x766F6964,
  .id 0x73657475705F6170706C65325F636170735F6B65796D6170, .paren, .id 0x766F6964, .op 0x29, .nl, .op 0x7B,
  .nl, .id 0x617364665F7365745F7072696E745F64656C6179, .paren, .id 0x4150504C45325F5052494E545F44454C4159,
  .op 0x29, .op 0x3B, .nl, .id 0x6170706C655F6164645F6D6170, .paren, .id 0x4150504C455F434150535F4D4150,
  .op 0x2C, .id 0x4D4F445F504C41494E5F4D4150, .op 0x29, .op 0x3B, .nl, .id 0x6170706C655F6164645F6D6170,
  .paren, .id 0x4150504C455F434150535F4D4150, .op 0x2C, .id 0x4D4F445F434150535F4D4150, .op 0x29, .op 0x3B,
  .nl, .id 0x6170706C655F6164645F6D6170, .paren, .id 0x4150504C455F434150535F53484946545F4D4150, .op 0x2C,
  .id 0x4D4F445F53484946545F4D4150, .op 0x29, .op 0x3B, .nl, .id 0x6170706C655F6164645F6D6170, .paren,
  .id 0x4150504C455F4354524C5F4D4150, .op 0x2C, .id 0x4D4F445F4354524C5F4D4150, .op 0x29, .op 0x3B, .nl,
  .id 0x617364665F686F6F6B5F61737369676E, .paren, .id 0x4150504C45534F46545F4B4559424F4152445F54455354,
  .op 0x2C, .id 0x6170706C65736F66745F6B6579626F6172645F74657374, .op 0x29, .op 0x3B, .nl,
  .id 0x617364665F686F6F6B5F61737369676E, .paren, .id 0x4150504C45325F434150535F49445F4D455353414745,
  .op 0x2C, .id 0x6170706C65325F636170735F69645F6D657373616765, .op 0x29, .op 0x3B, .nl,
  .id 0x617364665F7669727475616C5F61737369676E, .paren, .id 0x4150504C455F5649525455414C5F504F5745525F4C4544,
  .op 0x2C, .id 0x4150504C455F504F5745525F4C4544, .op 0x2C, .id 0x565F4E4F46554E43, .op 0x2C,
  .id 0x4150504C455F504F5745525F4C45445F494E49545F56414C5545, .op 0x29, .op 0x3B, .nl,
  .id 0x617364665F7669727475616C5F61737369676E, .paren,
  .id 0x4150504C455F5649525455414C5F44495341424C45445F4C4544, .op 0x2C,
  .id 0x4150504C455F44495341424C45445F4C4544, .op 0x2C, .id 0x565F4E4F46554E43, .op 0x2C,
  .id 0x4150504C455F44495341424C45445F494E49545F56414C5545, .op 0x29, .op 0x3B, .nl,
  .id 0x617364665F7669727475616C5F61737369676E, .paren, .id 0x4150504C455F5649525455414C5F5245534554,
  .op 0x2C, .id 0x4150504C455F52455345545F4F5554505554, .op 0x2C, .id 0x565F50554C53455F53484F5254, .op 0x2C,
  .op 0x21, .id 0x4150504C455F52455345545F4143544956455F56414C5545, .op 0x29, .op 0x3B, .nl,
  .id 0x617364665F7669727475616C5F61737369676E, .paren, .id 0x4150504C455F5649525455414C5F434C525F534352,
  .op 0x2C, .id 0x4150504C455F434C525F5343525F4F5554505554, .op 0x2C, .id 0x565F50554C53455F4C4F4E47,
  .op 0x2C, .op 0x21, .id 0x4150504C455F434C525F5343525F4143544956455F56414C5545, .op 0x29, .op 0x3B, .nl,
  .op 0x7D, .nl]

/-- The tokens of /repo/firmware/asdf/src/Keymaps/asdf_keymap_sol.c. -/
def asdf_keymap_sol_c : List Tok := [
  .nl, .op 0x23, .id 0x696E636C756465, .str [97, 115, 100, 102, 95, 97, 114, 99, 104, 46, 104], .nl, .op 0x23,
  .id 0x696E636C756465, .str [97, 115, 100, 102, 95, 107, 101, 121, 109, 97, 112, 95, 115, 111, 108, 46, 104],
  .nl, .op 0x23, .id 0x696E636C756465, .str [97, 115, 100, 102, 46, 104], .nl, .op 0x23, .id 0x696E636C756465,
  .str [97, 115, 100, 102, 95, 97, 115, 99, 105, 105, 46, 104], .nl, .op 0x23, .id 0x696E636C756465,
  .str [97, 115, 100, 102, 95, 109, 111, 100, 105, 102, 105, 101, 114, 115, 46, 104], .nl, .op 0x23,
  .id 0x696E636C756465, .str [97, 115, 100, 102, 95, 107, 101, 121, 109, 97, 112, 115, 46, 104], .nl,
  .op 0x23, .id 0x696E636C756465, .str [97, 115, 100, 102, 95, 112, 114, 105, 110, 116, 46, 104], .nl,
  .op 0x23, .id 0x646566696E65, .id 0x534F4C5F5052494E545F44454C4159, .num 40 false, .nl, .op 0x23,
  .id 0x646566696E65, .id 0x534F4C5F49445F4D4553534147455F484F4F4B, .id 0x415344465F484F4F4B5F555345525F3130,
  .nl, .id 0x737461746963, .id 0x636F6E7374, .id 0x464C415348, .id 0x617364665F6B6579636F64655F74,
  .id 0x736F6C5F706C61696E5F6D6170, .op 0x5B, .id 0x415344465F534F4C5F4E554D5F524F5753, .op 0x5D, .op 0x5B,
  .id 0x415344465F534F4C5F4E554D5F434F4C53, .op 0x5D, .op 0x3D, .op 0x7B, .nl, .op 0x5B, .num 0 false,
  .op 0x5D, .op 0x3D, .op 0x7B, .id 0x414354494F4E5F4354524C, .op 0x2C,
  .id 0x534F4C5F4B42445F53484946544C4F434B5F414354494F4E, .op 0x2C, .chr 97, .op 0x2C, .chr 115, .op 0x2C,
  .chr 100, .op 0x2C, .chr 102, .op 0x2C, .chr 103, .op 0x2C, .chr 104, .op 0x7D, .op 0x2C, .nl, .op 0x5B,
  .num 1 false, .op 0x5D, .op 0x3D, .op 0x7B, .chr 106, .op 0x2C, .chr 107, .op 0x2C, .chr 108, .op 0x2C,
  .chr 59, .op 0x2C, .chr 58, .op 0x2C, .id 0x41534349495F44454C, .op 0x2C, .id 0x414354494F4E5F524550454154,
  .op 0x2C, .id 0x414354494F4E5F4354524C, .op 0x7D, .op 0x2C, .nl, .op 0x5B, .num 2 false, .op 0x5D, .op 0x3D,
  .op 0x7B, .id 0x414354494F4E5F43415053, .op 0x2C, .id 0x414354494F4E5F5348494654, .op 0x2C, .chr 122,
  .op 0x2C, .chr 120, .op 0x2C, .chr 99, .op 0x2C, .chr 118, .op 0x2C, .chr 98, .op 0x2C, .chr 110, .op 0x7D,
  .op 0x2C, .nl, .op 0x5B, .num 3 false, .op 0x5D, .op 0x3D, .op 0x7B, .chr 109, .op 0x2C,
  .id 0x41534349495F434F4D4D41, .op 0x2C, .id 0x41534349495F504552494F44, .op 0x2C, .chr 47, .op 0x2C,
  .id 0x414354494F4E5F5348494654, .op 0x2C, .id 0x534F4C5F41534349495F4D4F44455F53454C454354, .op 0x2C,
  .id 0x414354494F4E5F4E4F5448494E47, .op 0x2C, .nl, .id 0x414354494F4E5F4E4F5448494E47, .op 0x7D, .op 0x2C,
  .nl, .op 0x5B, .num 4 false, .op 0x5D, .op 0x3D, .op 0x7B, .id 0x41534349495F455343, .op 0x2C, .chr 49,
  .op 0x2C, .chr 50, .op 0x2C, .chr 51, .op 0x2C, .chr 52, .op 0x2C, .chr 53, .op 0x2C, .chr 54, .op 0x2C,
  .chr 55, .op 0x7D, .op 0x2C, .nl, .op 0x5B, .num 5 false, .op 0x5D, .op 0x3D, .op 0x7B, .chr 56, .op 0x2C,
  .chr 57, .op 0x2C, .id 0x41534349495F5A45524F, .op 0x2C, .chr 45, .op 0x2C, .chr 94, .op 0x2C,
  .id 0x41534349495F4C545F5351554152455F4252414345, .op 0x2C, .id 0x41534349495F4241434B534C415348, .op 0x2C,
  .nl, .id 0x41534349495F52545F5351554152455F4252414345, .op 0x7D, .op 0x2C, .nl, .op 0x5B, .num 6 false,
  .op 0x5D, .op 0x3D, .op 0x7B, .id 0x534F4C5F4B42445F425245414B5F414354494F4E, .op 0x2C,
  .id 0x41534349495F544142, .op 0x2C, .chr 113, .op 0x2C, .chr 119, .op 0x2C, .chr 101, .op 0x2C, .chr 114,
  .op 0x2C, .chr 116, .op 0x2C, .chr 121, .op 0x7D, .op 0x2C, .nl, .op 0x5B, .num 7 false, .op 0x5D, .op 0x3D,
  .op 0x7B, .chr 117, .op 0x2C, .chr 105, .op 0x2C, .chr 111, .op 0x2C, .chr 112, .op 0x2C,
  .id 0x41534349495F4154, .op 0x2C, .id 0x41534349495F4352, .op 0x2C, .id 0x41534349495F4C46, .op 0x2C,
  .id 0x534F4C5F41534349495F4C4F4144, .op 0x7D, .op 0x2C, .nl, .op 0x5B, .num 9 false, .op 0x5D, .op 0x3D,
  .op 0x7B, .id 0x534F4C5F4B42445F4C4F43414C5F414354494F4E, .op 0x2C,
  .id 0x534F4C5F41534349495F55505F4152524F57, .op 0x2C, .id 0x534F4C5F41534349495F4C545F4152524F57, .op 0x2C,
  .id 0x41534349495F5350414345, .op 0x2C, .nl, .id 0x534F4C5F41534349495F52545F4152524F57, .op 0x2C,
  .id 0x534F4C5F41534349495F444E5F4152524F57, .op 0x2C, .id 0x534F4C5F41534349495F484F4D45, .op 0x2C,
  .id 0x534F4C5F41534349495F434C454152, .op 0x7D, .op 0x2C, .nl, .op 0x5B, .num 10 false, .op 0x5D, .op 0x3D,
  .op 0x7B, .chr 45, .op 0x2C, .chr 55, .op 0x2C, .chr 42, .op 0x2C, .chr 56, .op 0x2C, .chr 47, .op 0x2C,
  .chr 57, .op 0x2C, .id 0x414354494F4E5F4E4F5448494E47, .op 0x2C, .id 0x414354494F4E5F4E4F5448494E47,
  .op 0x7D, .op 0x2C, .nl, .op 0x5B, .num 11 false, .op 0x5D, .op 0x3D, .op 0x7B, .chr 52, .op 0x2C, .chr 49,
  .op 0x2C, .chr 53, .op 0x2C, .chr 50, .op 0x2C, .chr 54, .op 0x2C, .chr 51, .op 0x2C,
  .id 0x414354494F4E5F4E4F5448494E47, .op 0x2C, .id 0x414354494F4E5F4E4F5448494E47, .op 0x7D, .op 0x2C, .nl,
  .op 0x5B, .num 12 false, .op 0x5D, .op 0x3D, .op 0x7B, .chr 48, .op 0x2C, .id 0x41534349495F504552494F44,
  .op 0x2C, .chr 43, .op 0x2C, .id 0x414354494F4E5F4E4F5448494E47, .op 0x2C,
  .id 0x414354494F4E5F4E4F5448494E47, .op 0x2C, .id 0x414354494F4E5F4E4F5448494E47, .op 0x2C,
  .id 0x414354494F4E5F4E4F5448494E47, .op 0x2C, .nl, .id 0x414354494F4E5F4E4F5448494E47, .op 0x7D, .op 0x2C,
  .nl, .id 0x415344465F534F4C5F4449505F5357495443484553, .op 0x2C, .nl, .op 0x7D, .op 0x3B, .nl,
  .id 0x737461746963, .id 0x636F6E7374, .id 0x464C415348, .id 0x617364665F6B6579636F64655F74,
  .id 0x736F6C5F636170735F6D6170, .op 0x5B, .id 0x415344465F534F4C5F4E554D5F524F5753, .op 0x5D, .op 0x5B,
  .id 0x415344465F534F4C5F4E554D5F434F4C53, .op 0x5D, .op 0x3D, .op 0x7B, .nl, .op 0x5B, .num 0 false,
  .op 0x5D, .op 0x3D, .op 0x7B, .id 0x414354494F4E5F4354524C, .op 0x2C,
  .id 0x534F4C5F4B42445F53484946544C4F434B5F414354494F4E, .op 0x2C, .chr 65, .op 0x2C, .chr 83, .op 0x2C,
  .chr 68, .op 0x2C, .chr 70, .op 0x2C, .chr 71, .op 0x2C, .chr 72, .op 0x7D, .op 0x2C, .nl, .op 0x5B,
  .num 1 false, .op 0x5D, .op 0x3D, .op 0x7B, .chr 74, .op 0x2C, .chr 75, .op 0x2C, .chr 76, .op 0x2C,
  .chr 59, .op 0x2C, .chr 58, .op 0x2C, .id 0x41534349495F44454C, .op 0x2C, .id 0x414354494F4E5F524550454154,
  .op 0x2C, .id 0x414354494F4E5F4354524C, .op 0x7D, .op 0x2C, .nl, .op 0x5B, .num 2 false, .op 0x5D, .op 0x3D,
  .op 0x7B, .id 0x414354494F4E5F43415053, .op 0x2C, .id 0x414354494F4E5F5348494654, .op 0x2C, .chr 90,
  .op 0x2C, .chr 88, .op 0x2C, .chr 67, .op 0x2C, .chr 86, .op 0x2C, .chr 66, .op 0x2C, .chr 78, .op 0x7D,
  .op 0x2C, .nl, .op 0x5B, .num 3 false, .op 0x5D, .op 0x3D, .op 0x7B, .chr 77, .op 0x2C,
  .id 0x41534349495F434F4D4D41, .op 0x2C, .id 0x41534349495F504552494F44, .op 0x2C, .chr 47, .op 0x2C,
  .id 0x414354494F4E5F5348494654, .op 0x2C, .id 0x534F4C5F41534349495F4D4F44455F53454C454354, .op 0x2C,
  .id 0x414354494F4E5F4E4F5448494E47, .op 0x2C, .nl, .id 0x414354494F4E5F4E4F5448494E47, .op 0x7D, .op 0x2C,
  .nl, .op 0x5B, .num 4 false, .op 0x5D, .op 0x3D, .op 0x7B, .id 0x41534349495F455343, .op 0x2C, .chr 49,
  .op 0x2C, .chr 50, .op 0x2C, .chr 51, .op 0x2C, .chr 52, .op 0x2C, .chr 53, .op 0x2C, .chr 54, .op 0x2C,
  .chr 55, .op 0x7D, .op 0x2C, .nl, .op 0x5B, .num 5 false, .op 0x5D, .op 0x3D, .op 0x7B, .chr 56, .op 0x2C,
  .chr 57, .op 0x2C, .id 0x41534349495F5A45524F, .op 0x2C, .chr 45, .op 0x2C, .chr 94, .op 0x2C,
  .id 0x41534349495F4C545F5351554152455F4252414345, .op 0x2C, .id 0x41534349495F4241434B534C415348, .op 0x2C,
  .nl, .id 0x41534349495F52545F5351554152455F4252414345, .op 0x7D, .op 0x2C, .nl, .op 0x5B, .num 6 false,
  .op 0x5D, .op 0x3D, .op 0x7B, .id 0x534F4C5F4B42445F425245414B5F414354494F4E, .op 0x2C,
  .id 0x41534349495F544142, .op 0x2C, .chr 81, .op 0x2C, .chr 87, .op 0x2C, .chr 69, .op 0x2C, .chr 82,
  .op 0x2C, .chr 84, .op 0x2C, .chr 89, .op 0x7D, .op 0x2C, .nl, .op 0x5B, .num 7 false, .op 0x5D, .op 0x3D,
  .op 0x7B, .chr 85, .op 0x2C, .chr 73, .op 0x2C, .chr 79, .op 0x2C, .chr 80, .op 0x2C,
  .id 0x41534349495F4154, .op 0x2C, .id 0x41534349495F4352, .op 0x2C, .id 0x41534349495F4C46, .op 0x2C,
  .id 0x534F4C5F41534349495F4C4F4144, .op 0x7D, .op 0x2C, .nl, .op 0x5B, .num 9 false, .op 0x5D, .op 0x3D,
  .op 0x7B, .id 0x534F4C5F4B42445F4C4F43414C5F414354494F4E, .op 0x2C,
  .id 0x534F4C5F41534349495F55505F4152524F57, .op 0x2C, .id 0x534F4C5F41534349495F4C545F4152524F57, .op 0x2C,
  .id 0x41534349495F5350414345, .op 0x2C, .nl, .id 0x534F4C5F41534349495F52545F4152524F57, .op 0x2C,
  .id 0x534F4C5F41534349495F444E5F4152524F57, .op 0x2C, .id 0x534F4C5F41534349495F484F4D45, .op 0x2C,
  .id 0x534F4C5F41534349495F434C454152, .op 0x7D, .op 0x2C, .nl, .op 0x5B, .num 10 false, .op 0x5D, .op 0x3D,
  .op 0x7B, .chr 45, .op 0x2C, .chr 55, .op 0x2C, .chr 42, .op 0x2C, .chr 56, .op 0x2C, .chr 47, .op 0x2C,
  .chr 57, .op 0x2C, .id 0x414354494F4E5F4E4F5448494E47, .op 0x2C, .id 0x414354494F4E5F4E4F5448494E47,
  .op 0x7D, .op 0x2C, .nl, .op 0x5B, .num 11 false, .op 0x5D, .op 0x3D, .op 0x7B, .chr 52, .op 0x2C, .chr 49,
  .op 0x2C, .chr 53, .op 0x2C, .chr 50, .op 0x2C, .chr 54, .op 0x2C, .chr 51, .op 0x2C,
  .id 0x414354494F4E5F4E4F5448494E47, .op 0x2C, .id 0x414354494F4E5F4E4F5448494E47, .op 0x7D, .op 0x2C, .nl,
  .op 0x5B, .num 12 false, .op 0x5D, .op 0x3D, .op 0x7B, .chr 48, .op 0x2C, .id 0x41534349495F504552494F44,
  .op 0x2C, .chr 43, .op 0x2C, .id 0x414354494F4E5F4E4F5448494E47, .op 0x2C,
  .id 0x414354494F4E5F4E4F5448494E47, .op 0x2C, .id 0x414354494F4E5F4E4F5448494E47, .op 0x2C,
  .id 0x414354494F4E5F4E4F5448494E47, .op 0x2C, .nl, .id 0x414354494F4E5F4E4F5448494E47, .op 0x7D, .op 0x2C,
  .nl, .id 0x415344465F534F4C5F4449505F5357495443484553, .op 0x2C, .nl, .op 0x7D, .op 0x3B, .nl,
  .id 0x737461746963, .id 0x636F6E7374, .id 0x464C415348, .id 0x617364665F6B6579636F64655F74,
  .id 0x736F6C5F73686966745F6D6170, .op 0x5B, .id 0x415344465F534F4C5F4E554D5F524F5753, .op 0x5D, .op 0x5B,
  .id 0x415344465F534F4C5F4E554D5F434F4C53, .op 0x5D, .op 0x3D, .op 0x7B, .nl, .op 0x5B, .num 0 false,
  .op 0x5D, .op 0x3D, .op 0x7B, .id 0x414354494F4E5F4354524C, .op 0x2C,
  .id 0x534F4C5F4B42445F53484946544C4F434B5F414354494F4E, .op 0x2C, .chr 65, .op 0x2C, .chr 83, .op 0x2C,
  .chr 68, .op 0x2C, .chr 70, .op 0x2C, .chr 71, .op 0x2C, .chr 72, .op 0x7D, .op 0x2C, .nl, .op 0x5B,
  .num 1 false, .op 0x5D, .op 0x3D, .op 0x7B, .chr 74, .op 0x2C, .chr 75, .op 0x2C, .chr 76, .op 0x2C,
  .chr 59, .op 0x2C, .chr 58, .op 0x2C, .id 0x41534349495F554E44455253434F5245, .op 0x2C,
  .id 0x414354494F4E5F524550454154, .op 0x2C, .id 0x414354494F4E5F4354524C, .op 0x7D, .op 0x2C, .nl, .op 0x5B,
  .num 2 false, .op 0x5D, .op 0x3D, .op 0x7B, .id 0x414354494F4E5F43415053, .op 0x2C,
  .id 0x414354494F4E5F5348494654, .op 0x2C, .chr 90, .op 0x2C, .chr 88, .op 0x2C, .chr 67, .op 0x2C, .chr 86,
  .op 0x2C, .chr 66, .op 0x2C, .chr 78, .op 0x7D, .op 0x2C, .nl, .op 0x5B, .num 3 false, .op 0x5D, .op 0x3D,
  .op 0x7B, .chr 77, .op 0x2C, .chr 60, .op 0x2C, .chr 62, .op 0x2C, .chr 63, .op 0x2C,
  .id 0x414354494F4E5F5348494654, .op 0x2C, .id 0x534F4C5F41534349495F4D4F44455F53454C454354, .op 0x2C,
  .id 0x414354494F4E5F4E4F5448494E47, .op 0x2C, .id 0x414354494F4E5F4E4F5448494E47, .op 0x7D, .op 0x2C, .nl,
  .op 0x5B, .num 4 false, .op 0x5D, .op 0x3D, .op 0x7B, .id 0x41534349495F455343, .op 0x2C, .chr 33, .op 0x2C,
  .id 0x41534349495F444F55424C455F51554F5445, .op 0x2C, .chr 35, .op 0x2C, .chr 36, .op 0x2C, .chr 37,
  .op 0x2C, .chr 38, .op 0x2C, .id 0x41534349495F53494E474C455F51554F5445, .op 0x7D, .op 0x2C, .nl, .op 0x5B,
  .num 5 false, .op 0x5D, .op 0x3D, .op 0x7B, .id 0x41534349495F4C545F504152454E, .op 0x2C,
  .id 0x41534349495F52545F504152454E, .op 0x2C, .id 0x41534349495F5350414345, .op 0x2C, .chr 61, .op 0x2C,
  .id 0x41534349495F54494C4445, .op 0x2C, .id 0x41534349495F4C545F5351554152455F4252414345, .op 0x2C, .nl,
  .id 0x41534349495F4241434B534C415348, .op 0x2C, .id 0x41534349495F52545F5351554152455F4252414345, .op 0x7D,
  .op 0x2C, .nl, .op 0x5B, .num 6 false, .op 0x5D, .op 0x3D, .op 0x7B,
  .id 0x534F4C5F4B42445F425245414B5F414354494F4E, .op 0x2C, .id 0x41534349495F544142, .op 0x2C, .chr 81,
  .op 0x2C, .chr 87, .op 0x2C, .chr 69, .op 0x2C, .chr 82, .op 0x2C, .chr 84, .op 0x2C, .chr 89, .op 0x7D,
  .op 0x2C, .nl, .op 0x5B, .num 7 false, .op 0x5D, .op 0x3D, .op 0x7B, .chr 85, .op 0x2C, .chr 73, .op 0x2C,
  .chr 79, .op 0x2C, .chr 80, .op 0x2C, .id 0x41534349495F47524156455F414343454E54, .op 0x2C,
  .id 0x41534349495F4352, .op 0x2C, .id 0x41534349495F4C46, .op 0x2C, .id 0x534F4C5F41534349495F4C4F4144,
  .op 0x7D, .op 0x2C, .nl, .op 0x5B, .num 9 false, .op 0x5D, .op 0x3D, .op 0x7B,
  .id 0x534F4C5F4B42445F4C4F43414C5F414354494F4E, .op 0x2C, .id 0x534F4C5F41534349495F55505F4152524F57,
  .op 0x2C, .id 0x534F4C5F41534349495F4C545F4152524F57, .op 0x2C, .id 0x41534349495F5350414345, .op 0x2C, .nl,
  .id 0x534F4C5F41534349495F52545F4152524F57, .op 0x2C, .id 0x534F4C5F41534349495F444E5F4152524F57, .op 0x2C,
  .id 0x534F4C5F41534349495F484F4D45, .op 0x2C, .id 0x534F4C5F41534349495F434C454152, .op 0x7D, .op 0x2C, .nl,
  .op 0x5B, .num 10 false, .op 0x5D, .op 0x3D, .op 0x7B, .chr 45, .op 0x2C, .chr 55, .op 0x2C, .chr 42,
  .op 0x2C, .chr 56, .op 0x2C, .chr 47, .op 0x2C, .chr 57, .op 0x2C, .id 0x414354494F4E5F4E4F5448494E47,
  .op 0x2C, .id 0x414354494F4E5F4E4F5448494E47, .op 0x7D, .op 0x2C, .nl, .op 0x5B, .num 11 false, .op 0x5D,
  .op 0x3D, .op 0x7B, .chr 52, .op 0x2C, .chr 49, .op 0x2C, .chr 53, .op 0x2C, .chr 50, .op 0x2C, .chr 54,
  .op 0x2C, .chr 51, .op 0x2C, .id 0x414354494F4E5F4E4F5448494E47, .op 0x2C,
  .id 0x414354494F4E5F4E4F5448494E47, .op 0x7D, .op 0x2C, .nl, .op 0x5B, .num 12 false, .op 0x5D, .op 0x3D,
  .op 0x7B, .chr 48, .op 0x2C, .id 0x41534349495F504552494F44, .op 0x2C, .chr 43, .op 0x2C,
  .id 0x414354494F4E5F4E4F5448494E47, .op 0x2C, .id 0x414354494F4E5F4E4F5448494E47, .op 0x2C,
  .id 0x414354494F4E5F4E4F5448494E47, .op 0x2C, .id 0x414354494F4E5F4E4F5448494E47, .op 0x2C, .nl,
  .id 0x414354494F4E5F4E4F5448494E47, .op 0x7D, .op 0x2C, .nl,
  .id 0x415344465F534F4C5F4449505F5357495443484553, .op 0x2C, .nl, .op 0x7D, .op 0x3B, .nl,
  .id 0x737461746963, .id 0x636F6E7374, .id 0x464C415348, .id 0x617364665F6B6579636F64655F74,
  .id 0x736F6C5F6374726C5F6D6170, .op 0x5B, .id 0x415344465F534F4C5F4E554D5F524F5753, .op 0x5D, .op 0x5B,
  .id 0x415344465F534F4C5F4E554D5F434F4C53, .op 0x5D, .op 0x3D, .op 0x7B, .nl, .op 0x5B, .num 0 false,
  .op 0x5D, .op 0x3D, .op 0x7B, .id 0x414354494F4E5F4354524C, .op 0x2C,
  .id 0x534F4C5F4B42445F53484946544C4F434B5F414354494F4E, .op 0x2C, .id 0x41534349495F4354524C5F41, .op 0x2C,
  .id 0x41534349495F4354524C5F53, .op 0x2C, .id 0x41534349495F4354524C5F44, .op 0x2C, .nl,
  .id 0x41534349495F4354524C5F46, .op 0x2C, .id 0x41534349495F4354524C5F47, .op 0x2C,
  .id 0x41534349495F4354524C5F48, .op 0x7D, .op 0x2C, .nl, .op 0x5B, .num 1 false, .op 0x5D, .op 0x3D,
  .op 0x7B, .id 0x41534349495F4354524C5F4A, .op 0x2C, .id 0x41534349495F4354524C5F4B, .op 0x2C,
  .id 0x41534349495F4354524C5F4C, .op 0x2C, .id 0x41534349495F5654, .op 0x2C, .id 0x41534349495F4C46,
  .op 0x2C, .id 0x41534349495F44454C, .op 0x2C, .nl, .id 0x534F4C5F4B42445F52455345545F414354494F4E, .op 0x2C,
  .id 0x414354494F4E5F4354524C, .op 0x7D, .op 0x2C, .nl, .op 0x5B, .num 2 false, .op 0x5D, .op 0x3D, .op 0x7B,
  .id 0x414354494F4E5F43415053, .op 0x2C, .id 0x414354494F4E5F5348494654, .op 0x2C,
  .id 0x41534349495F4354524C5F5A, .op 0x2C, .id 0x41534349495F4354524C5F58, .op 0x2C,
  .id 0x41534349495F4354524C5F43, .op 0x2C, .id 0x41534349495F4354524C5F56, .op 0x2C, .nl,
  .id 0x41534349495F4354524C5F42, .op 0x2C, .id 0x41534349495F4354524C5F4E, .op 0x7D, .op 0x2C, .nl, .op 0x5B,
  .num 3 false, .op 0x5D, .op 0x3D, .op 0x7B, .id 0x41534349495F4354524C5F4D, .op 0x2C,
  .id 0x41534349495F4646, .op 0x2C, .id 0x41534349495F534F, .op 0x2C, .id 0x41534349495F5349, .op 0x2C,
  .id 0x414354494F4E5F5348494654, .op 0x2C, .id 0x534F4C5F41534349495F4D4F44455F53454C454354, .op 0x2C, .nl,
  .id 0x414354494F4E5F4E4F5448494E47, .op 0x2C, .id 0x414354494F4E5F4E4F5448494E47, .op 0x7D, .op 0x2C, .nl,
  .op 0x5B, .num 4 false, .op 0x5D, .op 0x3D, .op 0x7B, .id 0x41534349495F455343, .op 0x2C,
  .id 0x41534349495F534F48, .op 0x2C, .id 0x41534349495F535458, .op 0x2C, .id 0x41534349495F455458, .op 0x2C,
  .id 0x41534349495F454F54, .op 0x2C, .id 0x41534349495F454E51, .op 0x2C, .id 0x41534349495F41434B, .op 0x2C,
  .id 0x41534349495F42454C, .op 0x7D, .op 0x2C, .nl, .op 0x5B, .num 5 false, .op 0x5D, .op 0x3D, .op 0x7B,
  .id 0x41534349495F4253, .op 0x2C, .id 0x41534349495F544142, .op 0x2C, .id 0x41534349495F4E554C4C, .op 0x2C,
  .id 0x41534349495F4352, .op 0x2C, .id 0x41534349495F5253, .op 0x2C, .id 0x41534349495F455343, .op 0x2C,
  .id 0x41534349495F4653, .op 0x2C, .id 0x41534349495F4753, .op 0x7D, .op 0x2C, .nl, .op 0x5B, .num 6 false,
  .op 0x5D, .op 0x3D, .op 0x7B, .id 0x534F4C5F4B42445F425245414B5F414354494F4E, .op 0x2C,
  .id 0x41534349495F544142, .op 0x2C, .id 0x41534349495F4354524C5F51, .op 0x2C,
  .id 0x41534349495F4354524C5F57, .op 0x2C, .id 0x41534349495F4354524C5F45, .op 0x2C,
  .id 0x41534349495F4354524C5F52, .op 0x2C, .nl, .id 0x41534349495F4354524C5F54, .op 0x2C,
  .id 0x41534349495F4354524C5F59, .op 0x7D, .op 0x2C, .nl, .op 0x5B, .num 7 false, .op 0x5D, .op 0x3D,
  .op 0x7B, .id 0x41534349495F4354524C5F55, .op 0x2C, .id 0x41534349495F4354524C5F49, .op 0x2C,
  .id 0x41534349495F4354524C5F4F, .op 0x2C, .id 0x41534349495F4354524C5F50, .op 0x2C,
  .id 0x41534349495F4E554C4C, .op 0x2C, .id 0x41534349495F4352, .op 0x2C, .id 0x41534349495F4C46, .op 0x2C,
  .nl, .id 0x534F4C5F41534349495F4C4F4144, .op 0x7D, .op 0x2C, .nl, .op 0x5B, .num 9 false, .op 0x5D,
  .op 0x3D, .op 0x7B, .id 0x534F4C5F4B42445F4C4F43414C5F414354494F4E, .op 0x2C,
  .id 0x534F4C5F41534349495F55505F4152524F57, .op 0x2C, .id 0x534F4C5F41534349495F4C545F4152524F57, .op 0x2C,
  .id 0x41534349495F5350414345, .op 0x2C, .nl, .id 0x534F4C5F41534349495F52545F4152524F57, .op 0x2C,
  .id 0x534F4C5F41534349495F444E5F4152524F57, .op 0x2C, .id 0x534F4C5F41534349495F484F4D45, .op 0x2C,
  .id 0x534F4C5F41534349495F434C454152, .op 0x7D, .op 0x2C, .nl, .op 0x5B, .num 10 false, .op 0x5D, .op 0x3D,
  .op 0x7B, .chr 45, .op 0x2C, .chr 55, .op 0x2C, .chr 42, .op 0x2C, .chr 56, .op 0x2C, .chr 47, .op 0x2C,
  .chr 57, .op 0x2C, .id 0x414354494F4E5F4E4F5448494E47, .op 0x2C, .id 0x414354494F4E5F4E4F5448494E47,
  .op 0x7D, .op 0x2C, .nl, .op 0x5B, .num 11 false, .op 0x5D, .op 0x3D, .op 0x7B, .chr 52, .op 0x2C, .chr 49,
  .op 0x2C, .chr 53, .op 0x2C, .chr 50, .op 0x2C, .chr 54, .op 0x2C, .chr 51, .op 0x2C,
  .id 0x414354494F4E5F4E4F5448494E47, .op 0x2C, .id 0x414354494F4E5F4E4F5448494E47, .op 0x7D, .op 0x2C, .nl,
  .op 0x5B, .num 12 false, .op 0x5D, .op 0x3D, .op 0x7B, .chr 48, .op 0x2C, .id 0x41534349495F504552494F44,
  .op 0x2C, .chr 43, .op 0x2C, .id 0x414354494F4E5F4E4F5448494E47, .op 0x2C,
  .id 0x414354494F4E5F4E4F5448494E47, .op 0x2C, .id 0x414354494F4E5F4E4F5448494E47, .op 0x2C,
  .id 0x414354494F4E5F4E4F5448494E47, .op 0x2C, .nl, .id 0x414354494F4E5F4E4F5448494E47, .op 0x7D, .op 0x2C,
  .nl, .id 0x415344465F534F4C5F4449505F5357495443484553, .op 0x2C, .nl, .op 0x7D, .op 0x3B, .nl,
  .id 0x737461746963, .id 0x766F6964, .id 0x736F6C5F6164645F6D6170, .paren, .id 0x636F6E7374,
  .id 0x617364665F6B6579636F64655F74, .op 0x28, .op 0x2A, .id 0x6D6174726978, .op 0x29, .op 0x5B,
  .id 0x415344465F534F4C5F4E554D5F434F4C53, .op 0x5D, .op 0x2C, .nl, .id 0x6D6F6469666965725F696E6465785F74,
  .id 0x6D6F6469666965725F696E646578, .op 0x29, .nl, .op 0x7B, .nl,
  .id 0x617364665F6B65796D6170735F6164645F6D6170, .paren, .op 0x26, .id 0x6D6174726978, .op 0x5B,
  .num 0 false, .op 0x5D, .op 0x5B, .num 0 false, .op 0x5D, .op 0x2C, .id 0x6D6F6469666965725F696E646578,
  .op 0x2C, .op 0x28, .id 0x75696E74385F74, .op 0x29, .id 0x415344465F534F4C5F4E554D5F524F5753, .op 0x2C, .nl,
  .op 0x28, .id 0x75696E74385F74, .op 0x29, .id 0x415344465F534F4C5F4E554D5F434F4C53, .op 0x29, .op 0x3B, .nl,
  .op 0x7D, .nl, .id 0x737461746963, .id 0x766F6964, .id 0x736F6C5F69645F6D657373616765, .paren,
  .id 0x766F6964, .op 0x29, .nl, .op 0x7B, .nl, .id 0x617364665F7072696E74, .paren,
  .str [91, 75, 101, 121, 98, 100, 58, 32, 83, 111, 108, 45, 50, 48, 93], .op 0x29, .op 0x3B, .nl, .op 0x7D,
  .nl, .id 0x766F6964, .id 0x73657475705F736F6C5F6B65796D6170, .paren, .id 0x766F6964, .op 0x29, .nl,
  .op 0x7B, .nl, .id 0x736F6C5F6164645F6D6170, .paren, .id 0x736F6C5F706C61696E5F6D6170, .op 0x2C,
  .id 0x4D4F445F504C41494E5F4D4150, .op 0x29, .op 0x3B, .nl, .id 0x736F6C5F6164645F6D6170, .paren,
  .id 0x736F6C5F636170735F6D6170, .op 0x2C, .id 0x4D4F445F434150535F4D4150, .op 0x29, .op 0x3B, .nl,
  .id 0x736F6C5F6164645F6D6170, .paren, .id 0x736F6C5F73686966745F6D6170, .op 0x2C,
  .id 0x4D4F445F53484946545F4D4150, .op 0x29, .op 0x3B, .nl, .id 0x736F6C5F6164645F6D6170, .paren,
  .id 0x736F6C5F6374726C5F6D6170, .op 0x2C, .id 0x4D4F445F4354524C5F4D4150, .op 0x29, .op 0x3B, .nl,
  .id 0x617364665F7365745F7072696E745F64656C6179, .paren, .id 0x534F4C5F5052494E545F44454C4159, .op 0x29,
  .op 0x3B, .nl, .id 0x617364665F7669727475616C5F61737369676E, .paren, .id 0x56434150535F4C4544, .op 0x2C,
  .id 0x534F4C5F4B42445F4C45445F555050455243415345, .op 0x2C, .id 0x565F4E4F46554E43, .op 0x2C,
  .id 0x534F4C5F4B42445F4C45445F4F4646, .op 0x29, .op 0x3B, .nl, .id 0x617364665F7669727475616C5F61737369676E,
  .paren, .id 0x5653484946545F4C4544, .op 0x2C, .id 0x534F4C5F4B42445F4C45445F53484946544C4F434B, .op 0x2C,
  .id 0x565F4E4F46554E43, .op 0x2C, .id 0x534F4C5F4B42445F4C45445F4F4646, .op 0x29, .op 0x3B, .nl,
  .id 0x617364665F7669727475616C5F61737369676E, .paren, .id 0x534F4C5F4B42445F564C4F43414C, .op 0x2C,
  .id 0x534F4C5F4B42445F54544C4F55545F4C4F43414C, .op 0x2C, .id 0x565F544F47474C45, .op 0x2C,
  .id 0x534F4C5F4B42445F54544C5F48494748, .op 0x29, .op 0x3B, .nl,
  .id 0x617364665F7669727475616C5F61737369676E, .paren, .id 0x534F4C5F4B42445F564C4F43414C, .op 0x2C,
  .id 0x534F4C5F4B42445F4C45445F4C4F43414C, .op 0x2C, .id 0x565F544F47474C45, .op 0x2C,
  .id 0x534F4C5F4B42445F4C45445F4F4646, .op 0x29, .op 0x3B, .nl, .id 0x617364665F7669727475616C5F61737369676E,
  .paren, .id 0x534F4C5F4B42445F565245534554, .op 0x2C, .id 0x534F4C5F4B42445F54544C4F55545F5245534554,
  .op 0x2C, .id 0x565F50554C53455F53484F5254, .op 0x2C, .id 0x534F4C5F4B42445F54544C5F48494748, .op 0x29,
  .op 0x3B, .nl, .id 0x617364665F7669727475616C5F61737369676E, .paren, .id 0x534F4C5F4B42445F56425245414B,
  .op 0x2C, .id 0x534F4C5F4B42445F54544C4F55545F425245414B, .op 0x2C, .id 0x565F50554C53455F4C4F4E47,
  .op 0x2C, .id 0x534F4C5F4B42445F54544C5F48494748, .op 0x29, .op 0x3B, .nl,
  .id 0x617364665F6D6F6469666965725F636170736C6F636B5F6163746976617465, .paren, .op 0x29, .op 0x3B, .nl,
  .id 0x617364665F617263685F7365745F6E65675F7374726F6265, .paren, .op 0x29, .op 0x3B, .nl,
  .id 0x617364665F686F6F6B5F61737369676E, .paren, .id 0x534F4C5F49445F4D4553534147455F484F4F4B, .op 0x2C,
  .id 0x736F6C5F69645F6D657373616765, .op 0x29, .op 0x3B, .nl, .op 0x7D, .nl]

/-- The tokens of /repo/firmware/asdf/src/Keymaps/asdf_keymap_ace1000_add_map.c. -/
def asdf_keymap_ace1000_add_map_c : List Tok := [
  .nl, .op 0x23, .id 0x696E636C756465, .str [97, 115, 100, 102, 95, 97, 114, 99, 104, 46, 104], .nl, .op 0x23,
  .id 0x696E636C756465, .str [97, 115, 100, 102, 46, 104], .nl, .op 0x23, .id 0x696E636C756465,
  .str [97, 115, 100, 102, 95, 97, 115, 99, 105, 105, 46, 104], .nl, .op 0x23, .id 0x696E636C756465,
  .str [97, 115, 100, 102, 95, 112, 114, 105, 110, 116, 46, 104], .nl, .op 0x23, .id 0x696E636C756465,
  .str [97, 115, 100, 102, 95, 107, 101, 121, 109, 97, 112, 115, 46, 104], .nl, .op 0x23,
  .id 0x696E636C756465,
  .str [97, 115, 100, 102, 95, 107, 101, 121, 109, 97, 112, 95, 97, 99, 101, 49, 48, 48, 48, 46, 104], .nl,
  .op 0x23, .id 0x696E636C756465,
  .str [97, 115, 100, 102, 95, 107, 101, 121, 109, 97, 112, 95, 97, 99, 101, 49, 48, 48, 48, 95, 97, 100, 100, 95, 109, 97, 112, 46, 104],
  .nl, .op 0x23, .id 0x696E636C756465,
  .str [97, 115, 100, 102, 95, 107, 101, 121, 109, 97, 112, 95, 100, 101, 102, 115, 95, 100, 105, 112, 115, 119, 105, 116, 99, 104, 46, 104],
  .nl, .op 0x23, .id 0x646566696E65, .id 0x415344465F414345313030305F4449505F5357495443484553,
  .id 0x415344465F4B45594D41505F4449505F5357495443484553, .nl, .id 0x74797065646566,
  .id 0x617364665F6B6579636F64655F74, .id 0x616365313030305F6B6579636F64655F6D61747269785F74, .op 0x5B,
  .id 0x414345313030305F4E554D5F524F5753, .op 0x5D, .op 0x5B, .id 0x414345313030305F4E554D5F434F4C53,
  .op 0x5D, .op 0x3B, .nl, .id 0x636F6E7374, .id 0x464C415348,
  .id 0x616365313030305F6B6579636F64655F6D61747269785F74, .id 0x616365313030305F706C61696E5F6D6174726978,
  .op 0x3D, .op 0x7B, .nl, .op 0x5B, .num 0 false, .op 0x5D, .op 0x3D, .op 0x7B, .id 0x4143455F4B45595F455343,
  .op 0x2C, .id 0x4143455F4B45595F425245414B, .op 0x2C, .id 0x4143455F4B45595F5041555345, .op 0x2C,
  .id 0x414354494F4E5F4354524C, .op 0x2C, .id 0x4143455F4B45595F544142, .op 0x2C,
  .id 0x414354494F4E5F43415053, .op 0x2C, .id 0x414354494F4E5F5348494654, .op 0x2C,
  .id 0x4143455F4B45595F5350414345, .op 0x2C, .op 0x7D, .op 0x2C, .nl, .op 0x5B, .num 1 false, .op 0x5D,
  .op 0x3D, .op 0x7B, .id 0x4143455F4B45595F31, .op 0x2C, .id 0x4143455F4B45595F51, .op 0x2C,
  .id 0x4143455F4B45595F41, .op 0x2C, .id 0x4143455F4B45595F5A, .op 0x2C, .id 0x4143455F4B45595F32, .op 0x2C,
  .id 0x4143455F4B45595F57, .op 0x2C, .id 0x4143455F4B45595F53, .op 0x2C, .id 0x4143455F4B45595F58, .op 0x2C,
  .op 0x7D, .op 0x2C, .nl, .op 0x5B, .num 2 false, .op 0x5D, .op 0x3D, .op 0x7B, .id 0x4143455F4B45595F33,
  .op 0x2C, .id 0x4143455F4B45595F45, .op 0x2C, .id 0x4143455F4B45595F44, .op 0x2C, .id 0x4143455F4B45595F43,
  .op 0x2C, .id 0x4143455F4B45595F34, .op 0x2C, .id 0x4143455F4B45595F52, .op 0x2C, .id 0x4143455F4B45595F46,
  .op 0x2C, .id 0x4143455F4B45595F56, .op 0x2C, .op 0x7D, .op 0x2C, .nl, .op 0x5B, .num 3 false, .op 0x5D,
  .op 0x3D, .op 0x7B, .id 0x4143455F4B45595F35, .op 0x2C, .id 0x4143455F4B45595F54, .op 0x2C,
  .id 0x4143455F4B45595F47, .op 0x2C, .id 0x4143455F4B45595F42, .op 0x2C, .id 0x4143455F4B45595F36, .op 0x2C,
  .id 0x4143455F4B45595F59, .op 0x2C, .id 0x4143455F4B45595F48, .op 0x2C, .id 0x4143455F4B45595F4E, .op 0x2C,
  .op 0x7D, .op 0x2C, .nl, .op 0x5B, .num 4 false, .op 0x5D, .op 0x3D, .op 0x7B, .id 0x4143455F4B45595F37,
  .op 0x2C, .id 0x4143455F4B45595F55, .op 0x2C, .id 0x4143455F4B45595F4A, .op 0x2C, .id 0x4143455F4B45595F4D,
  .op 0x2C, .id 0x4143455F4B45595F38, .op 0x2C, .id 0x4143455F4B45595F49, .op 0x2C, .id 0x4143455F4B45595F4B,
  .op 0x2C, .id 0x4143455F4B45595F434F4D4D41, .op 0x2C, .op 0x7D, .op 0x2C, .nl, .op 0x5B, .num 5 false,
  .op 0x5D, .op 0x3D, .op 0x7B, .id 0x4143455F4B45595F39, .op 0x2C, .id 0x4143455F4B45595F4F, .op 0x2C,
  .id 0x4143455F4B45595F4C, .op 0x2C, .id 0x4143455F4B45595F504552494F44, .op 0x2C,
  .id 0x4143455F4B45595F5249474854, .op 0x2C, .id 0x4143455F4B45595F554E44455253434F5245, .op 0x2C,
  .id 0x4143455F4B45595F504C5553, .op 0x2C, .id 0x4143455F4B45595F53504C4154, .op 0x2C, .op 0x7D, .op 0x2C,
  .nl, .op 0x5B, .num 6 false, .op 0x5D, .op 0x3D, .op 0x7B, .id 0x4143455F4B45595F30, .op 0x2C,
  .id 0x4143455F4B45595F50, .op 0x2C, .id 0x4143455F4B45595F53454D49, .op 0x2C,
  .id 0x4143455F4B45595F534C415348, .op 0x2C, .id 0x4143455F4B45595F37, .op 0x2C, .id 0x4143455F4B45595F34,
  .op 0x2C, .id 0x4143455F4B45595F31, .op 0x2C, .id 0x4143455F4B45595F4754, .op 0x2C, .op 0x7D, .op 0x2C, .nl,
  .op 0x5B, .num 7 false, .op 0x5D, .op 0x3D, .op 0x7B, .id 0x4143455F4B45595F4D494E5553, .op 0x2C,
  .id 0x4143455F4B45595F4355524C59, .op 0x2C, .id 0x4143455F4B45595F51554F5445, .op 0x2C,
  .id 0x414354494F4E5F5348494654, .op 0x2C, .id 0x4143455F4B45595F38, .op 0x2C, .id 0x4143455F4B45595F35,
  .op 0x2C, .id 0x4143455F4B45595F32, .op 0x2C, .id 0x4143455F4B45595F30, .op 0x2C, .op 0x7D, .op 0x2C, .nl,
  .op 0x5B, .num 9 false, .op 0x5D, .op 0x3D, .op 0x7B, .id 0x4143455F4B45595F534C415348, .op 0x2C,
  .id 0x4143455F4B45595F535155415245, .op 0x2C, .id 0x4143455F4B45595F52455455524E, .op 0x2C,
  .id 0x4143455F4B45595F4C454654, .op 0x2C, .id 0x4143455F4B45595F39, .op 0x2C, .id 0x4143455F4B45595F36,
  .op 0x2C, .id 0x4143455F4B45595F33, .op 0x2C, .id 0x4143455F4B45595F504552494F44, .op 0x2C, .op 0x7D,
  .op 0x2C, .nl, .id 0x415344465F4143455F4449505F5357495443484553, .op 0x2C, .nl, .op 0x7D, .op 0x3B, .nl,
  .id 0x636F6E7374, .id 0x464C415348, .id 0x616365313030305F6B6579636F64655F6D61747269785F74,
  .id 0x616365313030305F73686966745F6D6174726978, .op 0x3D, .op 0x7B, .nl, .op 0x5B, .num 0 false, .op 0x5D,
  .op 0x3D, .op 0x7B, .id 0x4143455F4B45595F53484946545F455343, .op 0x2C,
  .id 0x4143455F4B45595F53484946545F425245414B, .op 0x2C, .id 0x4143455F4B45595F53484946545F5041555345,
  .op 0x2C, .id 0x414354494F4E5F4354524C, .op 0x2C, .id 0x4143455F4B45595F53484946545F544142, .op 0x2C,
  .id 0x414354494F4E5F43415053, .op 0x2C, .id 0x414354494F4E5F5348494654, .op 0x2C,
  .id 0x4143455F4B45595F53484946545F5350414345, .op 0x2C, .op 0x7D, .op 0x2C, .nl, .op 0x5B, .num 1 false,
  .op 0x5D, .op 0x3D, .op 0x7B, .id 0x4143455F4B45595F53484946545F31, .op 0x2C,
  .id 0x4143455F4B45595F53484946545F51, .op 0x2C, .id 0x4143455F4B45595F53484946545F41, .op 0x2C,
  .id 0x4143455F4B45595F53484946545F5A, .op 0x2C, .id 0x4143455F4B45595F53484946545F32, .op 0x2C,
  .id 0x4143455F4B45595F53484946545F57, .op 0x2C, .id 0x4143455F4B45595F53484946545F53, .op 0x2C,
  .id 0x4143455F4B45595F53484946545F58, .op 0x2C, .op 0x7D, .op 0x2C, .nl, .op 0x5B, .num 2 false, .op 0x5D,
  .op 0x3D, .op 0x7B, .id 0x4143455F4B45595F53484946545F33, .op 0x2C, .id 0x4143455F4B45595F53484946545F45,
  .op 0x2C, .id 0x4143455F4B45595F53484946545F44, .op 0x2C, .id 0x4143455F4B45595F53484946545F43, .op 0x2C,
  .id 0x4143455F4B45595F53484946545F34, .op 0x2C, .id 0x4143455F4B45595F53484946545F52, .op 0x2C,
  .id 0x4143455F4B45595F53484946545F46, .op 0x2C, .id 0x4143455F4B45595F53484946545F56, .op 0x2C, .op 0x7D,
  .op 0x2C, .nl, .op 0x5B, .num 3 false, .op 0x5D, .op 0x3D, .op 0x7B, .id 0x4143455F4B45595F53484946545F35,
  .op 0x2C, .id 0x4143455F4B45595F53484946545F54, .op 0x2C, .id 0x4143455F4B45595F53484946545F47, .op 0x2C,
  .id 0x4143455F4B45595F53484946545F42, .op 0x2C, .id 0x4143455F4B45595F53484946545F36, .op 0x2C,
  .id 0x4143455F4B45595F53484946545F59, .op 0x2C, .id 0x4143455F4B45595F53484946545F48, .op 0x2C,
  .id 0x4143455F4B45595F53484946545F4E, .op 0x2C, .op 0x7D, .op 0x2C, .nl, .op 0x5B, .num 4 false, .op 0x5D,
  .op 0x3D, .op 0x7B, .id 0x4143455F4B45595F53484946545F37, .op 0x2C, .id 0x4143455F4B45595F53484946545F55,
  .op 0x2C, .id 0x4143455F4B45595F53484946545F4A, .op 0x2C, .id 0x4143455F4B45595F53484946545F4D, .op 0x2C,
  .id 0x4143455F4B45595F53484946545F38, .op 0x2C, .id 0x4143455F4B45595F53484946545F49, .op 0x2C,
  .id 0x4143455F4B45595F53484946545F4B, .op 0x2C, .id 0x4143455F4B45595F53484946545F434F4D4D41, .op 0x2C,
  .op 0x7D, .op 0x2C, .nl, .op 0x5B, .num 5 false, .op 0x5D, .op 0x3D, .op 0x7B,
  .id 0x4143455F4B45595F53484946545F39, .op 0x2C, .id 0x4143455F4B45595F53484946545F4F, .op 0x2C,
  .id 0x4143455F4B45595F53484946545F4C, .op 0x2C, .id 0x4143455F4B45595F53484946545F504552494F44, .op 0x2C,
  .id 0x4143455F4B45595F53484946545F5249474854, .op 0x2C,
  .id 0x4143455F4B45595F53484946545F554E44455253434F5245, .op 0x2C,
  .id 0x4143455F4B45595F53484946545F504C5553, .op 0x2C, .id 0x4143455F4B45595F53484946545F53504C4154,
  .op 0x2C, .op 0x7D, .op 0x2C, .nl, .op 0x5B, .num 6 false, .op 0x5D, .op 0x3D, .op 0x7B,
  .id 0x4143455F4B45595F53484946545F30, .op 0x2C, .id 0x4143455F4B45595F53484946545F50, .op 0x2C,
  .id 0x4143455F4B45595F53484946545F53454D49, .op 0x2C, .id 0x4143455F4B45595F53484946545F534C415348,
  .op 0x2C, .id 0x4143455F4B45595F53484946545F37, .op 0x2C, .id 0x4143455F4B45595F53484946545F34, .op 0x2C,
  .id 0x4143455F4B45595F53484946545F31, .op 0x2C, .id 0x4143455F4B45595F53484946545F4754, .op 0x2C, .op 0x7D,
  .op 0x2C, .nl, .op 0x5B, .num 7 false, .op 0x5D, .op 0x3D, .op 0x7B,
  .id 0x4143455F4B45595F53484946545F4D494E5553, .op 0x2C, .id 0x4143455F4B45595F53484946545F4355524C59,
  .op 0x2C, .id 0x4143455F4B45595F53484946545F51554F5445, .op 0x2C, .id 0x414354494F4E5F5348494654, .op 0x2C,
  .id 0x4143455F4B45595F53484946545F38, .op 0x2C, .id 0x4143455F4B45595F53484946545F35, .op 0x2C,
  .id 0x4143455F4B45595F53484946545F32, .op 0x2C, .id 0x4143455F4B45595F53484946545F30, .op 0x2C, .op 0x7D,
  .op 0x2C, .nl, .op 0x5B, .num 9 false, .op 0x5D, .op 0x3D, .op 0x7B,
  .id 0x4143455F4B45595F53484946545F534C415348, .op 0x2C, .id 0x4143455F4B45595F53484946545F535155415245,
  .op 0x2C, .id 0x4143455F4B45595F52455455524E, .op 0x2C, .id 0x4143455F4B45595F53484946545F4C454654,
  .op 0x2C, .id 0x4143455F4B45595F53484946545F39, .op 0x2C, .id 0x4143455F4B45595F53484946545F36, .op 0x2C,
  .id 0x4143455F4B45595F53484946545F33, .op 0x2C, .id 0x4143455F4B45595F53484946545F504552494F44, .op 0x2C,
  .op 0x7D, .op 0x2C, .nl, .id 0x415344465F4143455F4449505F5357495443484553, .op 0x2C, .nl, .op 0x7D,
  .op 0x3B, .nl, .id 0x636F6E7374, .id 0x464C415348, .id 0x616365313030305F6B6579636F64655F6D61747269785F74,
  .id 0x616365313030305F636170735F6D6174726978, .op 0x3D, .op 0x7B, .nl, .op 0x5B, .num 0 false, .op 0x5D,
  .op 0x3D, .op 0x7B, .id 0x4143455F4B45595F455343, .op 0x2C, .id 0x4143455F4B45595F425245414B, .op 0x2C,
  .id 0x4143455F4B45595F5041555345, .op 0x2C, .id 0x414354494F4E5F4354524C, .op 0x2C,
  .id 0x4143455F4B45595F544142, .op 0x2C, .id 0x414354494F4E5F43415053, .op 0x2C,
  .id 0x414354494F4E5F5348494654, .op 0x2C, .id 0x4143455F4B45595F5350414345, .op 0x2C, .op 0x7D, .op 0x2C,
  .nl, .op 0x5B, .num 1 false, .op 0x5D, .op 0x3D, .op 0x7B, .id 0x4143455F4B45595F31, .op 0x2C,
  .id 0x4143455F4B45595F53484946545F51, .op 0x2C, .id 0x4143455F4B45595F53484946545F41, .op 0x2C,
  .id 0x4143455F4B45595F53484946545F5A, .op 0x2C, .id 0x4143455F4B45595F32, .op 0x2C,
  .id 0x4143455F4B45595F53484946545F57, .op 0x2C, .id 0x4143455F4B45595F53484946545F53, .op 0x2C,
  .id 0x4143455F4B45595F53484946545F58, .op 0x2C, .op 0x7D, .op 0x2C, .nl, .op 0x5B, .num 2 false, .op 0x5D,
  .op 0x3D, .op 0x7B, .id 0x4143455F4B45595F33, .op 0x2C, .id 0x4143455F4B45595F53484946545F45, .op 0x2C,
  .id 0x4143455F4B45595F53484946545F44, .op 0x2C, .id 0x4143455F4B45595F53484946545F43, .op 0x2C,
  .id 0x4143455F4B45595F34, .op 0x2C, .id 0x4143455F4B45595F53484946545F52, .op 0x2C,
  .id 0x4143455F4B45595F53484946545F46, .op 0x2C, .id 0x4143455F4B45595F53484946545F56, .op 0x2C, .op 0x7D,
  .op 0x2C, .nl, .op 0x5B, .num 3 false, .op 0x5D, .op 0x3D, .op 0x7B, .id 0x4143455F4B45595F35, .op 0x2C,
  .id 0x4143455F4B45595F53484946545F54, .op 0x2C, .id 0x4143455F4B45595F53484946545F47, .op 0x2C,
  .id 0x4143455F4B45595F53484946545F42, .op 0x2C, .id 0x4143455F4B45595F36, .op 0x2C,
  .id 0x4143455F4B45595F53484946545F59, .op 0x2C, .id 0x4143455F4B45595F53484946545F48, .op 0x2C,
  .id 0x4143455F4B45595F53484946545F4E, .op 0x2C, .op 0x7D, .op 0x2C, .nl, .op 0x5B, .num 4 false, .op 0x5D,
  .op 0x3D, .op 0x7B, .id 0x4143455F4B45595F37, .op 0x2C, .id 0x4143455F4B45595F53484946545F55, .op 0x2C,
  .id 0x4143455F4B45595F53484946545F4A, .op 0x2C, .id 0x4143455F4B45595F53484946545F4D, .op 0x2C,
  .id 0x4143455F4B45595F38, .op 0x2C, .id 0x4143455F4B45595F53484946545F49, .op 0x2C,
  .id 0x4143455F4B45595F53484946545F4B, .op 0x2C, .id 0x4143455F4B45595F434F4D4D41, .op 0x2C, .op 0x7D,
  .op 0x2C, .nl, .op 0x5B, .num 5 false, .op 0x5D, .op 0x3D, .op 0x7B, .id 0x4143455F4B45595F39, .op 0x2C,
  .id 0x4143455F4B45595F53484946545F4F, .op 0x2C, .id 0x4143455F4B45595F53484946545F4C, .op 0x2C,
  .id 0x4143455F4B45595F504552494F44, .op 0x2C, .id 0x4143455F4B45595F5249474854, .op 0x2C,
  .id 0x4143455F4B45595F554E44455253434F5245, .op 0x2C, .id 0x4143455F4B45595F504C5553, .op 0x2C,
  .id 0x4143455F4B45595F53504C4154, .op 0x2C, .op 0x7D, .op 0x2C, .nl, .op 0x5B, .num 6 false, .op 0x5D,
  .op 0x3D, .op 0x7B, .id 0x4143455F4B45595F30, .op 0x2C, .id 0x4143455F4B45595F53484946545F50, .op 0x2C,
  .id 0x4143455F4B45595F53454D49, .op 0x2C, .id 0x4143455F4B45595F534C415348, .op 0x2C,
  .id 0x4143455F4B45595F37, .op 0x2C, .id 0x4143455F4B45595F34, .op 0x2C, .id 0x4143455F4B45595F31, .op 0x2C,
  .id 0x4143455F4B45595F4754, .op 0x2C, .op 0x7D, .op 0x2C, .nl, .op 0x5B, .num 7 false, .op 0x5D, .op 0x3D,
  .op 0x7B, .id 0x4143455F4B45595F4D494E5553, .op 0x2C, .id 0x4143455F4B45595F4355524C59, .op 0x2C,
  .id 0x4143455F4B45595F51554F5445, .op 0x2C, .id 0x414354494F4E5F5348494654, .op 0x2C,
  .id 0x4143455F4B45595F38, .op 0x2C, .id 0x4143455F4B45595F35, .op 0x2C, .id 0x4143455F4B45595F32, .op 0x2C,
  .id 0x4143455F4B45595F30, .op 0x2C, .op 0x7D, .op 0x2C, .nl, .op 0x5B, .num 9 false, .op 0x5D, .op 0x3D,
  .op 0x7B, .id 0x4143455F4B45595F534C415348, .op 0x2C, .id 0x4143455F4B45595F535155415245, .op 0x2C,
  .id 0x4143455F4B45595F52455455524E, .op 0x2C, .id 0x4143455F4B45595F4C454654, .op 0x2C,
  .id 0x4143455F4B45595F39, .op 0x2C, .id 0x4143455F4B45595F36, .op 0x2C, .id 0x4143455F4B45595F33, .op 0x2C,
  .id 0x4143455F4B45595F504552494F44, .op 0x2C, .op 0x7D, .op 0x2C, .nl,
  .id 0x415344465F4143455F4449505F5357495443484553, .op 0x2C, .nl, .op 0x7D, .op 0x3B, .nl, .id 0x636F6E7374,
  .id 0x464C415348, .id 0x616365313030305F6B6579636F64655F6D61747269785F74,
  .id 0x616365313030305F6374726C5F6D6174726978, .op 0x3D, .op 0x7B, .nl, .op 0x5B, .num 0 false, .op 0x5D,
  .op 0x3D, .op 0x7B, .id 0x4143455F4B45595F455343, .op 0x2C, .id 0x4143455F4B45595F425245414B, .op 0x2C,
  .id 0x4143455F4B45595F5041555345, .op 0x2C, .id 0x414354494F4E5F4354524C, .op 0x2C,
  .id 0x4143455F4B45595F544142, .op 0x2C, .id 0x414354494F4E5F43415053, .op 0x2C,
  .id 0x414354494F4E5F5348494654, .op 0x2C, .id 0x4143455F4B45595F5350414345, .op 0x2C, .op 0x7D, .op 0x2C,
  .nl, .op 0x5B, .num 1 false, .op 0x5D, .op 0x3D, .op 0x7B, .id 0x4143455F4B45595F4354524C5F31, .op 0x2C,
  .id 0x4143455F4B45595F4354524C5F51, .op 0x2C, .id 0x4143455F4B45595F4354524C5F41, .op 0x2C,
  .id 0x4143455F4B45595F4354524C5F5A, .op 0x2C, .id 0x4143455F4B45595F4354524C5F32, .op 0x2C,
  .id 0x4143455F4B45595F4354524C5F57, .op 0x2C, .id 0x4143455F4B45595F4354524C5F53, .op 0x2C,
  .id 0x4143455F4B45595F4354524C5F58, .op 0x2C, .op 0x7D, .op 0x2C, .nl, .op 0x5B, .num 2 false, .op 0x5D,
  .op 0x3D, .op 0x7B, .id 0x4143455F4B45595F4354524C5F33, .op 0x2C, .id 0x4143455F4B45595F4354524C5F45,
  .op 0x2C, .id 0x4143455F4B45595F4354524C5F44, .op 0x2C, .id 0x4143455F4B45595F4354524C5F43, .op 0x2C,
  .id 0x4143455F4B45595F4354524C5F34, .op 0x2C, .id 0x4143455F4B45595F4354524C5F52, .op 0x2C,
  .id 0x4143455F4B45595F4354524C5F46, .op 0x2C, .id 0x4143455F4B45595F4354524C5F56, .op 0x2C, .op 0x7D,
  .op 0x2C, .nl, .op 0x5B, .num 3 false, .op 0x5D, .op 0x3D, .op 0x7B, .id 0x4143455F4B45595F4354524C5F35,
  .op 0x2C, .id 0x4143455F4B45595F4354524C5F54, .op 0x2C, .id 0x4143455F4B45595F4354524C5F47, .op 0x2C,
  .id 0x4143455F4B45595F4354524C5F42, .op 0x2C, .id 0x4143455F4B45595F4354524C5F36, .op 0x2C,
  .id 0x4143455F4B45595F4354524C5F59, .op 0x2C, .id 0x4143455F4B45595F4354524C5F48, .op 0x2C,
  .id 0x4143455F4B45595F4354524C5F4E, .op 0x2C, .op 0x7D, .op 0x2C, .nl, .op 0x5B, .num 4 false, .op 0x5D,
  .op 0x3D, .op 0x7B, .id 0x4143455F4B45595F4354524C5F37, .op 0x2C, .id 0x4143455F4B45595F4354524C5F55,
  .op 0x2C, .id 0x4143455F4B45595F4354524C5F4A, .op 0x2C, .id 0x4143455F4B45595F4354524C5F4D, .op 0x2C,
  .id 0x4143455F4B45595F4354524C5F38, .op 0x2C, .id 0x4143455F4B45595F4354524C5F49, .op 0x2C,
  .id 0x4143455F4B45595F4354524C5F4B, .op 0x2C, .id 0x4143455F4B45595F4354524C5F434F4D4D41, .op 0x2C,
  .op 0x7D, .op 0x2C, .nl, .op 0x5B, .num 5 false, .op 0x5D, .op 0x3D, .op 0x7B,
  .id 0x4143455F4B45595F4354524C5F39, .op 0x2C, .id 0x4143455F4B45595F4354524C5F4F, .op 0x2C,
  .id 0x4143455F4B45595F4354524C5F4C, .op 0x2C, .id 0x4143455F4B45595F4354524C5F504552494F44, .op 0x2C,
  .id 0x4143455F4B45595F4354524C5F5249474854, .op 0x2C, .id 0x4143455F4B45595F4354524C5F554E44455253434F5245,
  .op 0x2C, .id 0x4143455F4B45595F4354524C5F504C5553, .op 0x2C, .id 0x4143455F4B45595F4354524C5F53504C4154,
  .op 0x2C, .op 0x7D, .op 0x2C, .nl, .op 0x5B, .num 6 false, .op 0x5D, .op 0x3D, .op 0x7B,
  .id 0x4143455F4B45595F4354524C5F30, .op 0x2C, .id 0x4143455F4B45595F4354524C5F50, .op 0x2C,
  .id 0x4143455F4B45595F4354524C5F53454D49, .op 0x2C, .id 0x4143455F4B45595F4354524C5F534C415348, .op 0x2C,
  .id 0x4143455F4B45595F4354524C5F37, .op 0x2C, .id 0x4143455F4B45595F4354524C5F34, .op 0x2C,
  .id 0x4143455F4B45595F4354524C5F31, .op 0x2C, .id 0x4143455F4B45595F4354524C5F4754, .op 0x2C, .op 0x7D,
  .op 0x2C, .nl, .op 0x5B, .num 7 false, .op 0x5D, .op 0x3D, .op 0x7B,
  .id 0x4143455F4B45595F4354524C5F4D494E5553, .op 0x2C, .id 0x4143455F4B45595F4354524C5F4355524C59, .op 0x2C,
  .id 0x4143455F4B45595F4354524C5F51554F5445, .op 0x2C, .id 0x414354494F4E5F5348494654, .op 0x2C,
  .id 0x4143455F4B45595F4354524C5F38, .op 0x2C, .id 0x4143455F4B45595F4354524C5F35, .op 0x2C,
  .id 0x4143455F4B45595F4354524C5F32, .op 0x2C, .id 0x4143455F4B45595F4354524C5F30, .op 0x2C, .op 0x7D,
  .op 0x2C, .nl, .op 0x5B, .num 9 false, .op 0x5D, .op 0x3D, .op 0x7B,
  .id 0x4143455F4B45595F4354524C5F534C415348, .op 0x2C, .id 0x4143455F4B45595F4354524C5F535155415245,
  .op 0x2C, .id 0x4143455F4B45595F52455455524E, .op 0x2C, .id 0x4143455F4B45595F4354524C5F4C454654, .op 0x2C,
  .id 0x4143455F4B45595F4354524C5F39, .op 0x2C, .id 0x4143455F4B45595F4354524C5F36, .op 0x2C,
  .id 0x4143455F4B45595F4354524C5F33, .op 0x2C, .id 0x4143455F4B45595F4354524C5F504552494F44, .op 0x2C,
  .op 0x7D, .op 0x2C, .nl, .id 0x415344465F4143455F4449505F5357495443484553, .op 0x2C, .nl, .op 0x7D,
  .op 0x3B, .nl, .id 0x737461746963, .id 0x636F6E7374, .id 0x616365313030305F6B6579636F64655F6D61747269785F74,
  .op 0x2A, .id 0x616365313030305F6D617073, .op 0x5B, .op 0x5D, .op 0x3D, .op 0x7B, .nl, .op 0x5B,
  .id 0x414345313030305F434150535F4D4150, .op 0x5D, .op 0x3D, .op 0x26,
  .id 0x616365313030305F636170735F6D6174726978, .op 0x2C, .nl, .op 0x5B,
  .id 0x414345313030305F504C41494E5F4D4150, .op 0x5D, .op 0x3D, .op 0x26,
  .id 0x616365313030305F706C61696E5F6D6174726978, .op 0x2C, .nl, .op 0x5B,
  .id 0x414345313030305F53484946545F4D4150, .op 0x5D, .op 0x3D, .op 0x26,
  .id 0x616365313030305F73686966745F6D6174726978, .op 0x2C, .nl, .op 0x5B,
  .id 0x414345313030305F4354524C5F4D4150, .op 0x5D, .op 0x3D, .op 0x26,
  .id 0x616365313030305F6374726C5F6D6174726978, .op 0x2C, .nl, .op 0x7D, .op 0x3B, .nl, .id 0x766F6964,
  .id 0x616365313030305F6164645F6D6170, .paren, .id 0x636F6E7374,
  .id 0x616365313030305F6D61705F696E6465785F74, .id 0x6D61705F696E646578, .op 0x2C, .nl,
  .id 0x6D6F6469666965725F696E6465785F74, .id 0x6D6F6469666965725F696E646578, .op 0x29, .nl, .op 0x7B, .nl,
  .id 0x617364665F6B6579636F64655F74, .op 0x28, .op 0x2A, .id 0x6D6174726978, .op 0x29, .op 0x5B,
  .id 0x414345313030305F4E554D5F434F4C53, .op 0x5D, .op 0x3D, .nl, .op 0x28,
  .id 0x617364665F6B6579636F64655F74, .op 0x28, .op 0x2A, .op 0x29, .op 0x5B,
  .id 0x414345313030305F4E554D5F434F4C53, .op 0x5D, .op 0x29, .id 0x616365313030305F6D617073, .op 0x5B,
  .id 0x6D61705F696E646578, .op 0x5D, .op 0x3B, .nl, .id 0x617364665F6B65796D6170735F6164645F6D6170, .paren,
  .op 0x26, .id 0x6D6174726978, .op 0x5B, .num 0 false, .op 0x5D, .op 0x5B, .num 0 false, .op 0x5D, .op 0x2C,
  .id 0x6D6F6469666965725F696E646578, .op 0x2C, .op 0x28, .id 0x75696E74385F74, .op 0x29,
  .id 0x414345313030305F4E554D5F524F5753, .op 0x2C, .nl, .op 0x28, .id 0x75696E74385F74, .op 0x29,
  .id 0x414345313030305F4E554D5F434F4C53, .op 0x29, .op 0x3B, .nl, .op 0x7D, .nl, .id 0x766F6964,
  .id 0x616365313030305F6B6579626F6172645F74657374, .paren, .id 0x766F6964, .op 0x29, .nl, .op 0x7B, .nl,
  .id 0x617364665F7072696E74, .paren,
  .str [49, 48, 71, 69, 84, 65, 36, 40, 48, 41, 58, 65, 61, 65, 83, 67, 40, 65, 36, 40, 48, 41, 41, 58, 65, 36, 40, 49, 41, 61, 34, 67, 84, 76, 43, 34, 43, 67, 72, 82, 36, 40, 65, 32, 43, 32, 54, 52, 41, 58, 63, 34, 39, 34, 59, 65, 36, 40, 65, 60, 51, 50, 41, 59, 34, 39, 32, 61, 32, 34, 59, 65, 58, 73, 70, 65, 60, 62, 51, 71, 79, 84, 79, 49, 48, 13],
  .op 0x29, .op 0x3B, .nl, .op 0x7D, .nl]

/-- The tokens of /repo/firmware/asdf/src/Keymaps/asdf_keymap_ace1000.c. -/
def asdf_keymap_ace1000_c : List Tok := [
  .nl, .op 0x23, .id 0x696E636C756465, .str [97, 115, 100, 102, 46, 104], .nl, .op 0x23, .id 0x696E636C756465,
  .str [97, 115, 100, 102, 95, 107, 101, 121, 109, 97, 112, 115, 46, 104], .nl, .op 0x23,
  .id 0x696E636C756465, .str [97, 115, 100, 102, 95, 118, 105, 114, 116, 117, 97, 108, 46, 104], .nl,
  .op 0x23, .id 0x696E636C756465,
  .str [97, 115, 100, 102, 95, 109, 111, 100, 105, 102, 105, 101, 114, 115, 46, 104], .nl, .op 0x23,
  .id 0x696E636C756465, .str [97, 115, 100, 102, 95, 112, 114, 105, 110, 116, 46, 104], .nl, .op 0x23,
  .id 0x696E636C756465,
  .str [97, 115, 100, 102, 95, 107, 101, 121, 109, 97, 112, 95, 97, 99, 101, 49, 48, 48, 48, 46, 104], .nl,
  .op 0x23, .id 0x696E636C756465,
  .str [97, 115, 100, 102, 95, 107, 101, 121, 109, 97, 112, 95, 97, 99, 101, 49, 48, 48, 48, 95, 97, 100, 100, 95, 109, 97, 112, 46, 104],
  .nl, .op 0x23, .id 0x696E636C756465,
  .str [97, 115, 100, 102, 95, 107, 101, 121, 109, 97, 112, 95, 97, 112, 112, 108, 101, 50, 95, 97, 100, 100, 95, 109, 97, 112, 46, 104],
  .nl, .id 0x766F6964, .id 0x616365313030305F69645F6D657373616765, .paren, .id 0x766F6964, .op 0x29, .op 0x7B,
  .nl, .id 0x617364665F7072696E74, .paren,
  .str [91, 75, 101, 121, 109, 97, 112, 58, 32, 97, 99, 101, 49, 48, 48, 48, 93, 10], .op 0x29, .op 0x3B, .nl,
  .op 0x7D, .nl, .id 0x766F6964, .id 0x73657475705F616365313030305F6B65796D6170, .paren, .id 0x766F6964,
  .op 0x29, .nl, .op 0x7B, .nl, .id 0x617364665F7365745F7072696E745F64656C6179, .paren,
  .id 0x415344465F414345313030305F5052494E545F5350454544, .op 0x29, .op 0x3B, .nl,
  .id 0x616365313030305F6164645F6D6170, .paren, .id 0x414345313030305F504C41494E5F4D4150, .op 0x2C,
  .id 0x4D4F445F504C41494E5F4D4150, .op 0x29, .op 0x3B, .nl, .id 0x616365313030305F6164645F6D6170, .paren,
  .id 0x414345313030305F434150535F4D4150, .op 0x2C, .id 0x4D4F445F434150535F4D4150, .op 0x29, .op 0x3B, .nl,
  .id 0x616365313030305F6164645F6D6170, .paren, .id 0x414345313030305F53484946545F4D4150, .op 0x2C,
  .id 0x4D4F445F53484946545F4D4150, .op 0x29, .op 0x3B, .nl, .id 0x616365313030305F6164645F6D6170, .paren,
  .id 0x414345313030305F4354524C5F4D4150, .op 0x2C, .id 0x4D4F445F4354524C5F4D4150, .op 0x29, .op 0x3B, .nl,
  .id 0x617364665F686F6F6B5F61737369676E, .paren, .id 0x414345313030305F49445F4D4553534147455F484F4F4B,
  .op 0x2C, .id 0x616365313030305F69645F6D657373616765, .op 0x29, .op 0x3B, .nl,
  .id 0x617364665F686F6F6B5F61737369676E, .paren,
  .id 0x4150504C45534F46545F4B4559424F4152445F544553545F484F4F4B, .op 0x2C,
  .id 0x616365313030305F6B6579626F6172645F74657374, .op 0x29, .op 0x3B, .nl,
  .id 0x617364665F7669727475616C5F61737369676E, .paren,
  .id 0x414345313030305F5649525455414C5F504F5745525F4C4544, .op 0x2C,
  .id 0x414345313030305F504F5745525F4C4544, .op 0x2C, .id 0x565F4E4F46554E43, .op 0x2C,
  .id 0x414345313030305F504F5745525F4C45445F494E49545F56414C5545, .op 0x29, .op 0x3B, .nl,
  .id 0x617364665F7669727475616C5F61737369676E, .paren, .id 0x56434150535F4C4544, .op 0x2C,
  .id 0x414345313030305F434150535F4C4544, .op 0x2C, .id 0x565F4E4F46554E43, .op 0x2C,
  .id 0x414345313030305F434150535F4C45445F494E49545F56414C5545, .op 0x29, .op 0x3B, .nl,
  .id 0x617364665F7669727475616C5F61737369676E, .paren, .id 0x414345313030305F5649525455414C5F5245534554,
  .op 0x2C, .id 0x414345313030305F52455345545F4F5554505554, .op 0x2C, .id 0x565F50554C53455F53484F5254,
  .op 0x2C, .op 0x21, .id 0x414345313030305F52455345545F4143544956455F56414C5545, .op 0x29, .op 0x3B, .nl,
  .id 0x617364665F7669727475616C5F61737369676E, .paren, .id 0x414345313030305F5649525455414C5F434C525F534352,
  .op 0x2C, .id 0x414345313030305F434C525F5343525F4F5554, .op 0x2C, .id 0x565F50554C53455F4C4F4E47, .op 0x2C,
  .op 0x21, .id 0x414345313030305F434C525F5343525F4143544956455F56414C5545, .op 0x29, .op 0x3B, .nl,
  .id 0x617364665F6D6F6469666965725F636170736C6F636B5F6163746976617465, .paren, .op 0x29, .op 0x3B, .nl,
  .op 0x7D, .nl]

/-- The tokens of /repo/firmware/asdf/src/Arch/asdf_arch_atmega328p.h. -/
def asdf_arch_atmega328p_h : List Tok := [
  .nl, .op 0x23, .id 0x6966, .op 0x21, .id 0x646566696E6564, .paren, .id 0x415344465F415243485F48, .op 0x29,
  .nl, .op 0x23, .id 0x646566696E65, .id 0x415344465F415243485F48, .nl, .op 0x23, .id 0x696E636C756465,
  .op 0x3C, .id 0x617672, .op 0x2F, .id 0x696F, .op 0x2E, .id 0x68, .op 0x3E, .nl, .op 0x23,
  .id 0x696E636C756465, .op 0x3C, .id 0x617672, .op 0x2F, .id 0x70676D7370616365, .op 0x2E, .id 0x68,
  .op 0x3E, .nl, .op 0x23, .id 0x696E636C756465, .str [97, 115, 100, 102, 46, 104], .nl, .op 0x23,
  .id 0x646566696E65, .id 0x465F435055, .num 8000000 true, .nl, .op 0x23, .id 0x646566696E65,
  .id 0x415344465F5354524F42455F4C454E4754485F5553, .num 10 false, .nl, .op 0x23, .id 0x646566696E65,
  .id 0x535953434C4B5F44495631, .num 0 false, .nl, .op 0x23, .id 0x646566696E65, .id 0x535953434C4B5F44495632,
  .op 0x28, .id 0x434C4B505330, .op 0x29, .nl, .op 0x23, .id 0x646566696E65, .id 0x535943434C4B5F44495634,
  .op 0x28, .id 0x434C4B505331, .op 0x29, .nl, .op 0x23, .id 0x646566696E65, .id 0x535953434C4B5F44495638,
  .op 0x28, .id 0x434C4B505331, .op 0x7C, .id 0x434C4B505330, .op 0x29, .nl, .op 0x23, .id 0x646566696E65,
  .id 0x535953434C4B5F4449563136, .op 0x28, .id 0x434C4B505332, .op 0x29, .nl, .op 0x23, .id 0x646566696E65,
  .id 0x535953434C4B5F4449563332, .op 0x28, .id 0x434C4B505332, .op 0x7C, .id 0x434C4B505330, .op 0x29, .nl,
  .op 0x23, .id 0x646566696E65, .id 0x535953434C4B5F4449563634, .op 0x28, .id 0x434C4B505332, .op 0x7C,
  .id 0x434C4B505331, .op 0x29, .nl, .op 0x23, .id 0x646566696E65, .id 0x535953434C4B5F444956313238, .op 0x28,
  .id 0x434C4B505332, .op 0x7C, .id 0x434C4B505331, .op 0x7C, .id 0x434C4B505330, .op 0x29, .nl, .op 0x23,
  .id 0x646566696E65, .id 0x535953434C4B5F444956323536, .op 0x28, .id 0x434C4B505333, .op 0x29, .nl, .op 0x23,
  .id 0x646566696E65, .id 0x544D5230415F504F53, .num 0 false, .nl, .op 0x23, .id 0x646566696E65,
  .id 0x544D5230425F504F53, .num 8 false, .nl, .op 0x23, .id 0x646566696E65, .id 0x544D5230494D534B5F504F53,
  .num 16 false, .nl, .op 0x23, .id 0x646566696E65, .id 0x544D523041, .op 0x28, .num 1 true, .op 0x3C3C,
  .id 0x544D5230415F504F53, .op 0x29, .nl, .op 0x23, .id 0x646566696E65, .id 0x544D523042, .op 0x28,
  .num 1 true, .op 0x3C3C, .id 0x544D5230425F504F53, .op 0x29, .nl, .op 0x23, .id 0x646566696E65,
  .id 0x544D5230494D534B, .op 0x28, .num 1 true, .op 0x3C3C, .id 0x544D5230494D534B5F504F53, .op 0x29, .nl,
  .op 0x23, .id 0x646566696E65, .id 0x54494D4552305F434F4D5F415F444953434F4E4E4543544544, .num 0 false, .nl,
  .op 0x23, .id 0x646566696E65, .id 0x54494D4552305F434F4D5F425F444953434F4E4E4543544544, .num 0 false, .nl,
  .op 0x23, .id 0x646566696E65, .id 0x54494D4552305F57464D5F435443, .op 0x28, .id 0x544D523041, .op 0x3C3C,
  .id 0x57474D3031, .op 0x29, .nl, .op 0x23, .id 0x646566696E65, .id 0x54494D4552305F4449563634, .op 0x28,
  .op 0x28, .id 0x544D523042, .op 0x3C3C, .id 0x43533031, .op 0x29, .op 0x7C, .op 0x28, .id 0x544D523042,
  .op 0x3C3C, .id 0x43533030, .op 0x29, .op 0x29, .nl, .op 0x23, .id 0x646566696E65,
  .id 0x54494D4552305F494E545F4F4E5F434F4D41, .op 0x28, .id 0x544D5230494D534B, .op 0x3C3C,
  .id 0x4F4349453041, .op 0x29, .nl, .op 0x23, .id 0x646566696E65, .id 0x54494D4552305F494E545F4F4E5F434F4D42,
  .op 0x28, .id 0x544D5230494D534B, .op 0x3C3C, .id 0x4F4349453042, .op 0x29, .nl, .op 0x23,
  .id 0x646566696E65, .id 0x54494D4552305F494E545F4F565F454E41424C45, .op 0x28, .id 0x544D5230494D534B,
  .op 0x3C3C, .id 0x544F494530, .op 0x29, .nl, .op 0x23, .id 0x646566696E65, .id 0x544D5231415F504F53,
  .num 0 false, .nl, .op 0x23, .id 0x646566696E65, .id 0x544D5231425F504F53, .num 8 false, .nl, .op 0x23,
  .id 0x646566696E65, .id 0x544D5231435F504F53, .num 16 false, .nl, .op 0x23, .id 0x646566696E65,
  .id 0x544D5231494D534B5F504F53, .num 24 false, .nl, .op 0x23, .id 0x646566696E65, .id 0x544D523141,
  .op 0x28, .num 1 true, .op 0x3C3C, .id 0x544D5231415F504F53, .op 0x29, .nl, .op 0x23, .id 0x646566696E65,
  .id 0x544D523142, .op 0x28, .num 1 true, .op 0x3C3C, .id 0x544D5231425F504F53, .op 0x29, .nl, .op 0x23,
  .id 0x646566696E65, .id 0x544D523143, .op 0x28, .num 1 true, .op 0x3C3C, .id 0x544D5231435F504F53, .op 0x29,
  .nl, .op 0x23, .id 0x646566696E65, .id 0x544D5231494D534B, .op 0x28, .num 1 true, .op 0x3C3C,
  .id 0x544D5231494D534B5F504F53, .op 0x29, .nl, .op 0x23, .id 0x646566696E65,
  .id 0x544D5231415F434D50415F434C525F4D415443485F5345545F424F54544F4D, .op 0x28, .num 1 false, .op 0x3C3C,
  .id 0x434F4D314131, .op 0x29, .nl, .op 0x23, .id 0x646566696E65,
  .id 0x544D5231415F434D50425F434C525F4D415443485F5345545F424F54544F4D, .op 0x28, .num 1 false, .op 0x3C3C,
  .id 0x434F4D314231, .op 0x29, .nl, .op 0x23, .id 0x646566696E65,
  .id 0x544D5231415F434D50435F434C525F4D415443485F5345545F424F54544F4D, .op 0x28, .num 1 false, .op 0x3C3C,
  .id 0x434F4D314331, .op 0x29, .nl, .op 0x23, .id 0x646566696E65,
  .id 0x544D52315F434D50415F434C525F4D415443485F5345545F424F54544F4D, .op 0x28, .id 0x544D523141, .op 0x3C3C,
  .id 0x434F4D314131, .op 0x29, .nl, .op 0x23, .id 0x646566696E65,
  .id 0x544D52315F434D50425F434C525F4D415443485F5345545F424F54544F4D, .op 0x28, .id 0x544D523141, .op 0x3C3C,
  .id 0x434F4D314231, .op 0x29, .nl, .op 0x23, .id 0x646566696E65,
  .id 0x544D52315F434D50435F434C525F4D415443485F5345545F424F54544F4D, .op 0x28, .id 0x544D523141, .op 0x3C3C,
  .id 0x434F4D314331, .op 0x29, .nl, .op 0x23, .id 0x646566696E65, .id 0x544D5231425F494E5F4341505F504F53,
  .num 64 true, .nl, .op 0x23, .id 0x646566696E65, .id 0x544D5231425F494E5F4341505F4E4547, .num 0 true, .nl,
  .op 0x23, .id 0x646566696E65, .id 0x544D5231425F494E5F4341505F4E4F4953455F43414E43454C, .num 128 true, .nl,
  .op 0x23, .id 0x646566696E65, .id 0x544D5231435F464F4341, .num 128 true, .nl, .op 0x23, .id 0x646566696E65,
  .id 0x544D5231435F464F4342, .num 64 true, .nl, .op 0x23, .id 0x646566696E65, .id 0x544D5231435F464F4343,
  .num 32 true, .nl, .op 0x23, .id 0x646566696E65, .id 0x544D5231494D5F494E545F434D505F4D415443485F41,
  .op 0x28, .num 1 true, .op 0x3C3C, .id 0x4F4349453141, .op 0x29, .nl, .op 0x23, .id 0x646566696E65,
  .id 0x544D5231494D5F494E545F434D505F4D415443485F42, .op 0x28, .num 1 true, .op 0x3C3C, .id 0x4F4349453142,
  .op 0x29, .nl, .op 0x23, .id 0x646566696E65, .id 0x544D5231494D5F494E545F434D505F4D415443485F43, .op 0x28,
  .num 1 true, .op 0x3C3C, .id 0x4F4349453143, .op 0x29, .nl, .op 0x23, .id 0x646566696E65,
  .id 0x544D52315F434D50415F444953434F4E4E4543544544, .num 0 true, .nl, .op 0x23, .id 0x646566696E65,
  .id 0x544D52315F434D50425F444953434F4E4E4543544544, .num 0 true, .nl, .op 0x23, .id 0x646566696E65,
  .id 0x544D52315F434D50435F444953434F4E4E4543544544, .num 0 true, .nl, .op 0x23, .id 0x646566696E65,
  .id 0x544D52315F494E545F4F4E5F434D5041, .op 0x28, .id 0x544D5231494D5F494E545F434D505F4D415443485F41,
  .op 0x3C3C, .id 0x544D5231494D534B5F504F53, .op 0x29, .nl, .op 0x23, .id 0x646566696E65,
  .id 0x544D5231425F4F4646, .num 0 false, .nl, .op 0x23, .id 0x646566696E65, .id 0x544D52315F4F4646,
  .num 0 false, .nl, .op 0x23, .id 0x646566696E65, .id 0x544D5231425F44495631, .op 0x28, .num 1 true,
  .op 0x3C3C, .id 0x43533130, .op 0x29, .nl, .op 0x23, .id 0x646566696E65, .id 0x544D5231425F44495638,
  .op 0x28, .num 2 true, .op 0x3C3C, .id 0x43533130, .op 0x29, .nl, .op 0x23, .id 0x646566696E65,
  .id 0x544D5231425F4449563634, .op 0x28, .num 3 true, .op 0x3C3C, .id 0x43533130, .op 0x29, .nl, .op 0x23,
  .id 0x646566696E65, .id 0x544D5231425F444956323536, .op 0x28, .num 4 true, .op 0x3C3C, .id 0x43533130,
  .op 0x29, .nl, .op 0x23, .id 0x646566696E65, .id 0x544D5231425F44495631303234, .op 0x28, .num 5 true,
  .op 0x3C3C, .id 0x43533130, .op 0x29, .nl, .op 0x23, .id 0x646566696E65,
  .id 0x544D5231425F4558545F46414C4C494E475F45444745, .op 0x28, .num 6 true, .op 0x3C3C, .id 0x43533130,
  .op 0x29, .nl, .op 0x23, .id 0x646566696E65, .id 0x544D5231425F4558545F524953494E475F45444745, .op 0x28,
  .num 7 true, .op 0x3C3C, .id 0x43533130, .op 0x29, .nl, .op 0x23, .id 0x646566696E65,
  .id 0x544D5231425F434C4B5F4D41534B, .num 7 true, .nl, .op 0x23, .id 0x646566696E65,
  .id 0x544D52315F44495631, .op 0x28, .id 0x544D5231425F44495631, .op 0x3C3C, .id 0x544D5231425F504F53,
  .op 0x29, .nl, .op 0x23, .id 0x646566696E65, .id 0x544D52315F44495638, .op 0x28, .id 0x544D5231425F44495638,
  .op 0x3C3C, .id 0x544D5231425F504F53, .op 0x29, .nl, .op 0x23, .id 0x646566696E65,
  .id 0x544D52315F4449563634, .op 0x28, .id 0x544D5231425F4449563634, .op 0x3C3C, .id 0x544D5231425F504F53,
  .op 0x29, .nl, .op 0x23, .id 0x646566696E65, .id 0x544D52315F444956323536, .op 0x28,
  .id 0x544D5231425F444956323536, .op 0x3C3C, .id 0x544D5231425F504F53, .op 0x29, .nl, .op 0x23,
  .id 0x646566696E65, .id 0x544D52315F44495631303234, .op 0x28, .id 0x544D5231425F44495631303234, .op 0x3C3C,
  .id 0x544D5231425F504F53, .op 0x29, .nl, .op 0x23, .id 0x646566696E65,
  .id 0x544D52315F4558545F46414C4C494E475F45444745, .op 0x28,
  .id 0x544D5231425F4558545F46414C4C494E475F45444745, .op 0x3C3C, .id 0x544D5231425F504F53, .op 0x29, .nl,
  .op 0x23, .id 0x646566696E65, .id 0x544D52315F4558545F524953494E475F45444745, .op 0x28,
  .id 0x544D5231425F4558545F524953494E475F45444745, .op 0x3C3C, .id 0x544D5231425F504F53, .op 0x29, .nl,
  .op 0x23, .id 0x646566696E65, .id 0x544D5231425F454447455F53454C5F504F534954495645, .op 0x28, .num 1 false,
  .op 0x3C3C, .id 0x4943455331, .op 0x29, .nl, .op 0x23, .id 0x646566696E65,
  .id 0x544D5231425F454447455F53454C5F4E45474154495645, .num 0 true, .nl, .op 0x23, .id 0x646566696E65,
  .id 0x544D52315F454447455F53454C5F504F534954495645, .op 0x28, .id 0x544D523142, .op 0x3C3C,
  .id 0x4943455331, .op 0x29, .nl, .op 0x23, .id 0x646566696E65,
  .id 0x544D52315F454447455F53454C5F4E45474154495645, .num 0 true, .nl, .op 0x23, .id 0x646566696E65,
  .id 0x544D52315F57464D5F4E4F524D414C, .num 0 true, .nl, .op 0x23, .id 0x646566696E65,
  .id 0x544D52315F57464D5F50574D5F504338, .op 0x28, .id 0x544D523141, .op 0x3C3C, .id 0x57474D3130, .op 0x29,
  .nl, .op 0x23, .id 0x646566696E65, .id 0x544D52315F57464D5F50574D5F504339, .op 0x28, .id 0x544D523141,
  .op 0x3C3C, .id 0x57474D3131, .op 0x29, .nl, .op 0x23, .id 0x646566696E65,
  .id 0x544D52315F57464D5F50574D5F50433130, .op 0x28, .op 0x28, .id 0x544D523141, .op 0x3C3C,
  .id 0x57474D3131, .op 0x29, .op 0x7C, .op 0x28, .id 0x544D523141, .op 0x3C3C, .id 0x57474D3130, .op 0x29,
  .op 0x29, .nl, .op 0x23, .id 0x646566696E65, .id 0x544D52315F57464D5F435443, .op 0x28, .id 0x544D523142,
  .op 0x3C3C, .id 0x57474D3132, .op 0x29, .nl, .op 0x23, .id 0x646566696E65,
  .id 0x544D52315F57464D5F50574D5F4641535438, .op 0x28, .op 0x28, .id 0x544D523142, .op 0x3C3C,
  .id 0x57474D3132, .op 0x29, .op 0x7C, .op 0x28, .id 0x544D523141, .op 0x3C3C, .id 0x57474D3130, .op 0x29,
  .op 0x29, .nl, .op 0x23, .id 0x646566696E65, .id 0x544D52315F57464D5F50574D5F4641535439, .op 0x28, .op 0x28,
  .id 0x544D523142, .op 0x3C3C, .id 0x57474D3132, .op 0x29, .op 0x7C, .op 0x28, .id 0x544D523141, .op 0x3C3C,
  .id 0x57474D3131, .op 0x29, .op 0x29, .nl, .op 0x23, .id 0x646566696E65,
  .id 0x544D52315F57464D5F50574D5F464153543130, .op 0x28, .op 0x28, .id 0x544D523142, .op 0x3C3C,
  .id 0x57474D3132, .op 0x29, .op 0x7C, .op 0x28, .id 0x544D523141, .op 0x3C3C, .id 0x57474D3131, .op 0x29,
  .op 0x7C, .op 0x28, .id 0x544D523141, .op 0x3C3C, .id 0x57474D3130, .op 0x29, .op 0x29, .nl, .op 0x23,
  .id 0x646566696E65, .id 0x544D52315F57464D5F50574D5F5046435F494352, .op 0x28, .id 0x544D523142, .op 0x3C3C,
  .id 0x57474D3133, .op 0x29, .nl, .op 0x23, .id 0x646566696E65,
  .id 0x544D52315F57464D5F50574D5F5046435F4F435241, .op 0x28, .op 0x28, .id 0x544D523142, .op 0x3C3C,
  .id 0x57474D3133, .op 0x29, .op 0x7C, .op 0x28, .id 0x544D523141, .op 0x3C3C, .id 0x57474D3130, .op 0x29,
  .op 0x29, .nl, .op 0x23, .id 0x646566696E65, .id 0x544D52315F57464D5F50574D5F50435F494352, .op 0x28,
  .op 0x28, .id 0x544D523142, .op 0x3C3C, .id 0x57474D3133, .op 0x29, .op 0x7C, .op 0x28, .id 0x544D523141,
  .op 0x3C3C, .id 0x57474D3131, .op 0x29, .op 0x29, .nl, .op 0x23, .id 0x646566696E65,
  .id 0x544D52315F57464D5F50574D5F50435F4F435241, .op 0x28, .op 0x28, .id 0x544D523142, .op 0x3C3C,
  .id 0x57474D3133, .op 0x29, .op 0x7C, .op 0x28, .id 0x544D523141, .op 0x3C3C, .id 0x57474D3131, .op 0x29,
  .op 0x7C, .op 0x28, .id 0x544D523141, .op 0x3C3C, .id 0x57474D3132, .op 0x29, .op 0x29, .nl, .op 0x23,
  .id 0x646566696E65, .id 0x544D52315F57464D5F4354435F494352, .op 0x28, .op 0x28, .id 0x544D523142,
  .op 0x3C3C, .id 0x57474D3133, .op 0x29, .op 0x7C, .op 0x28, .id 0x544D523142, .op 0x3C3C, .id 0x57474D3132,
  .op 0x29, .op 0x29, .nl, .op 0x23, .id 0x646566696E65, .id 0x544D52315F57464D5F50574D5F464153545F494352,
  .op 0x28, .op 0x28, .id 0x544D523142, .op 0x3C3C, .id 0x57474D3133, .op 0x29, .op 0x7C, .op 0x28,
  .id 0x544D523142, .op 0x3C3C, .id 0x57474D3132, .op 0x29, .op 0x7C, .op 0x28, .id 0x544D523141, .op 0x3C3C,
  .id 0x57474D3131, .op 0x29, .op 0x29, .nl, .op 0x23, .id 0x646566696E65,
  .id 0x544D52315F57464D5F50574D5F464153545F4F435241, .op 0x28, .op 0x28, .id 0x544D523142, .op 0x3C3C,
  .id 0x57474D3133, .op 0x29, .op 0x7C, .op 0x28, .id 0x544D523142, .op 0x3C3C, .id 0x57474D3132, .op 0x29,
  .op 0x7C, .op 0x28, .id 0x544D523141, .op 0x3C3C, .id 0x57474D3131, .op 0x29, .op 0x7C, .op 0x28,
  .id 0x544D523141, .op 0x3C3C, .id 0x57474D3130, .op 0x29, .op 0x29, .nl, .op 0x23, .id 0x646566696E65,
  .id 0x50494E5F494E505554, .num 0 false, .nl, .op 0x23, .id 0x646566696E65, .id 0x50494E5F4F5554505554,
  .num 1 false, .nl, .op 0x23, .id 0x646566696E65, .id 0x414C4C5F494E50555453, .num 0 false, .nl, .op 0x23,
  .id 0x646566696E65, .id 0x414C4C5F4F555450555453, .num 255 false, .nl, .op 0x23, .id 0x646566696E65,
  .id 0x415344465F524F575F504F5254, .id 0x504F525443, .nl, .op 0x23, .id 0x646566696E65,
  .id 0x415344465F524F575F444452, .id 0x44445243, .nl, .op 0x23, .id 0x646566696E65,
  .id 0x415344465F524F575F4D41534B, .num 15 false, .nl, .op 0x23, .id 0x646566696E65,
  .id 0x415344465F524F575F4F4646534554, .num 0 false, .nl, .op 0x23, .id 0x646566696E65,
  .id 0x415344465F434F4C5F504F5254, .id 0x504F525442, .nl, .op 0x23, .id 0x646566696E65,
  .id 0x415344465F434F4C5F50494E, .id 0x50494E42, .nl, .op 0x23, .id 0x646566696E65,
  .id 0x415344465F434F4C5F444452, .id 0x44445242, .nl, .op 0x23, .id 0x646566696E65,
  .id 0x415344465F434F4C5F424954, .num 0 false, .nl, .op 0x23, .id 0x646566696E65,
  .id 0x415344465F434F4C5F50554C4C555053, .num 0 false, .nl, .op 0x23, .id 0x646566696E65,
  .id 0x415344465F434F4C434C4B5F504F5254, .id 0x504F525442, .nl, .op 0x23, .id 0x646566696E65,
  .id 0x415344465F434F4C434C4B5F50494E53, .id 0x50494E42, .nl, .op 0x23, .id 0x646566696E65,
  .id 0x415344465F434F4C434C4B5F444452, .id 0x44445242, .nl, .op 0x23, .id 0x646566696E65,
  .id 0x415344465F434F4C434C4B5F424954, .num 2 false, .nl, .op 0x23, .id 0x646566696E65,
  .id 0x415344465F434F4C4D4F44455F504F5254, .id 0x504F525442, .nl, .op 0x23, .id 0x646566696E65,
  .id 0x415344465F434F4C4D4F44455F50494E53, .id 0x50494E42, .nl, .op 0x23, .id 0x646566696E65,
  .id 0x415344465F434F4C4D4F44455F444452, .id 0x44445242, .nl, .op 0x23, .id 0x646566696E65,
  .id 0x415344465F434F4C4D4F44455F424954, .num 1 false, .nl, .op 0x23, .id 0x646566696E65,
  .id 0x415344465F41534349495F504F5254, .id 0x504F525444, .nl, .op 0x23, .id 0x646566696E65,
  .id 0x415344465F41534349495F444452, .id 0x44445244, .nl, .op 0x23, .id 0x646566696E65,
  .id 0x415344465F4C4544315F504F5254, .id 0x504F525443, .nl, .op 0x23, .id 0x646566696E65,
  .id 0x415344465F4C4544315F444452, .id 0x44445243, .nl, .op 0x23, .id 0x646566696E65,
  .id 0x415344465F4C4544315F424954, .num 4 false, .nl, .op 0x23, .id 0x646566696E65,
  .id 0x415344465F4C4544325F504F5254, .id 0x504F525442, .nl, .op 0x23, .id 0x646566696E65,
  .id 0x415344465F4C4544325F444452, .id 0x44445242, .nl, .op 0x23, .id 0x646566696E65,
  .id 0x415344465F4C4544325F424954, .num 5 false, .nl, .op 0x23, .id 0x646566696E65,
  .id 0x415344465F4C4544335F504F5254, .id 0x504F525442, .nl, .op 0x23, .id 0x646566696E65,
  .id 0x415344465F4C4544335F444452, .id 0x44445242, .nl, .op 0x23, .id 0x646566696E65,
  .id 0x415344465F4C4544335F424954, .num 4 false, .nl, .op 0x23, .id 0x646566696E65,
  .id 0x415344465F4F5554315F504F5254, .id 0x504F525443, .nl, .op 0x23, .id 0x646566696E65,
  .id 0x415344465F4F5554315F50494E, .id 0x50494E43, .nl, .op 0x23, .id 0x646566696E65,
  .id 0x415344465F4F5554315F444452, .id 0x44445243, .nl, .op 0x23, .id 0x646566696E65,
  .id 0x415344465F4F5554315F424954, .num 5 false, .nl, .op 0x23, .id 0x646566696E65,
  .id 0x415344465F4F5554325F504F5254, .id 0x504F525442, .nl, .op 0x23, .id 0x646566696E65,
  .id 0x415344465F4F5554325F50494E, .id 0x50494E42, .nl, .op 0x23, .id 0x646566696E65,
  .id 0x415344465F4F5554325F444452, .id 0x44445242, .nl, .op 0x23, .id 0x646566696E65,
  .id 0x415344465F4F5554325F424954, .num 3 false, .nl, .op 0x23, .id 0x646566696E65,
  .id 0x415344465F4F5554335F504F5254, .id 0x504F525442, .nl, .op 0x23, .id 0x646566696E65,
  .id 0x415344465F4F5554335F50494E, .id 0x50494E42, .nl, .op 0x23, .id 0x646566696E65,
  .id 0x415344465F4F5554335F444452, .id 0x44445242, .nl, .op 0x23, .id 0x646566696E65,
  .id 0x415344465F4F5554335F424954, .num 7 false, .nl, .op 0x23, .id 0x646566696E65,
  .id 0x415344465F5354524F42455F504F5254, .id 0x504F525442, .nl, .op 0x23, .id 0x646566696E65,
  .id 0x415344465F5354524F42455F50494E, .id 0x50494E42, .nl, .op 0x23, .id 0x646566696E65,
  .id 0x415344465F5354524F42455F444452, .id 0x44445242, .nl, .op 0x23, .id 0x646566696E65,
  .id 0x415344465F5354524F42455F424954, .num 6 false, .nl, .op 0x23, .id 0x646566696E65,
  .id 0x415344465F415243485F4449505F5357495443485F524F57, .num 8 false, .nl, .op 0x23, .id 0x646566696E65,
  .id 0x465553455F494E5445524E414C5F384D485A5F4F53435F304D53, .op 0x28, .id 0x465553455F434B53454C30,
  .op 0x7C, .id 0x465553455F434B53454C32, .op 0x7C, .id 0x465553455F434B53454C33, .op 0x7C,
  .id 0x465553455F53555430, .op 0x7C, .id 0x465553455F53555431, .op 0x29, .nl, .op 0x23, .id 0x646566696E65,
  .id 0x465553455F494E5445524E414C5F384D485A5F4F53435F344D53, .op 0x28, .id 0x465553455F434B53454C30,
  .op 0x7C, .id 0x465553455F434B53454C32, .op 0x7C, .id 0x465553455F434B53454C33, .op 0x7C,
  .id 0x465553455F53555431, .op 0x29, .nl, .op 0x23, .id 0x646566696E65,
  .id 0x465553455F494E5445524E414C5F384D485A5F4F53435F36354D53, .op 0x28, .id 0x465553455F434B53454C30,
  .op 0x7C, .id 0x465553455F434B53454C32, .op 0x7C, .id 0x465553455F434B53454C33, .op 0x7C,
  .id 0x465553455F53555430, .op 0x29, .nl, .op 0x23, .id 0x646566696E65, .id 0x464C415348,
  .id 0x50524F474D454D, .nl, .op 0x23, .id 0x646566696E65, .id 0x464C4153485F52454144, .op 0x28, .id 0x61,
  .op 0x29, .id 0x70676D5F726561645F62797465, .paren, .op 0x28, .id 0x61, .op 0x29, .op 0x29, .nl, .op 0x23,
  .id 0x646566696E65, .id 0x464C4153485F524541445F4D41545249585F454C454D454E54, .paren, .id 0x6D6174726978,
  .op 0x2C, .id 0x726F77, .op 0x2C, .id 0x636F6C, .op 0x29, .id 0x70676D5F726561645F62797465, .paren,
  .op 0x26, .op 0x28, .op 0x28, .id 0x6D6174726978, .op 0x29, .op 0x5B, .op 0x28, .id 0x726F77, .op 0x29,
  .op 0x5D, .op 0x5B, .op 0x28, .id 0x636F6C, .op 0x29, .op 0x5D, .op 0x29, .op 0x29, .nl, .op 0x23,
  .id 0x646566696E65, .id 0x5449434B5F434F554E54, .num 124 false, .nl, .op 0x23, .id 0x646566696E65,
  .id 0x415344465F415243485F44454641554C545F524F575F5343414E4E4552,
  .id 0x617364665F617263685F726561645F726F77, .nl, .op 0x23, .id 0x646566696E65,
  .id 0x415344465F415243485F44454641554C545F4F5554505554, .id 0x617364665F617263685F73656E645F636F6465, .nl,
  .op 0x23, .id 0x646566696E65, .id 0x415344465F415243485F4449505357495443485F524F57, .num 8 false, .nl,
  .id 0x766F6964, .id 0x617364665F617263685F7365745F706F735F7374726F6265, .paren, .id 0x766F6964, .op 0x29,
  .op 0x3B, .nl, .id 0x766F6964, .id 0x617364665F617263685F7365745F6E65675F7374726F6265, .paren,
  .id 0x766F6964, .op 0x29, .op 0x3B, .nl, .id 0x766F6964, .id 0x617364665F617263685F6E756C6C5F6F7574707574,
  .paren, .id 0x75696E74385F74, .id 0x76616C7565, .op 0x29, .op 0x3B, .nl, .id 0x766F6964,
  .id 0x617364665F617263685F6C6564315F736574, .paren, .id 0x75696E74385F74, .id 0x76616C7565, .op 0x29,
  .op 0x3B, .nl, .id 0x766F6964, .id 0x617364665F617263685F6C6564325F736574, .paren, .id 0x75696E74385F74,
  .id 0x76616C7565, .op 0x29, .op 0x3B, .nl, .id 0x766F6964, .id 0x617364665F617263685F6C6564335F736574,
  .paren, .id 0x75696E74385F74, .id 0x76616C7565, .op 0x29, .op 0x3B, .nl, .id 0x766F6964,
  .id 0x617364665F617263685F6F7574315F736574, .paren, .id 0x75696E74385F74, .id 0x76616C7565, .op 0x29,
  .op 0x3B, .nl, .id 0x766F6964, .id 0x617364665F617263685F6F7574315F6F70656E5F68695F736574, .paren,
  .id 0x75696E74385F74, .id 0x76616C7565, .op 0x29, .op 0x3B, .nl, .id 0x766F6964,
  .id 0x617364665F617263685F6F7574315F6F70656E5F6C6F5F736574, .paren, .id 0x75696E74385F74, .id 0x76616C7565,
  .op 0x29, .op 0x3B, .nl, .id 0x766F6964, .id 0x617364665F617263685F6F7574325F736574, .paren,
  .id 0x75696E74385F74, .id 0x76616C7565, .op 0x29, .op 0x3B, .nl, .id 0x766F6964,
  .id 0x617364665F617263685F6F7574325F6F70656E5F68695F736574, .paren, .id 0x75696E74385F74, .id 0x76616C7565,
  .op 0x29, .op 0x3B, .nl, .id 0x766F6964, .id 0x617364665F617263685F6F7574325F6F70656E5F6C6F5F736574, .paren,
  .id 0x75696E74385F74, .id 0x76616C7565, .op 0x29, .op 0x3B, .nl, .id 0x766F6964,
  .id 0x617364665F617263685F6F7574335F736574, .paren, .id 0x75696E74385F74, .id 0x76616C7565, .op 0x29,
  .op 0x3B, .nl, .id 0x766F6964, .id 0x617364665F617263685F6F7574335F6F70656E5F68695F736574, .paren,
  .id 0x75696E74385F74, .id 0x76616C7565, .op 0x29, .op 0x3B, .nl, .id 0x766F6964,
  .id 0x617364665F617263685F6F7574335F6F70656E5F6C6F5F736574, .paren, .id 0x75696E74385F74, .id 0x76616C7565,
  .op 0x29, .op 0x3B, .nl, .id 0x617364665F636F6C735F74, .id 0x617364665F617263685F726561645F726F77, .paren,
  .id 0x75696E74385F74, .id 0x726F77, .op 0x29, .op 0x3B, .nl, .id 0x766F6964,
  .id 0x617364665F617263685F70756C73655F64656C61795F73686F7274, .paren, .id 0x766F6964, .op 0x29, .op 0x3B,
  .nl, .id 0x766F6964, .id 0x617364665F617263685F70756C73655F64656C61795F6C6F6E67, .paren, .id 0x766F6964,
  .op 0x29, .op 0x3B, .nl, .id 0x766F6964, .id 0x617364665F617263685F64656C61795F6D73, .paren,
  .id 0x75696E7431365F74, .id 0x64656C61795F6D73, .op 0x29, .op 0x3B, .nl, .id 0x75696E74385F74,
  .id 0x617364665F617263685F7469636B, .paren, .id 0x766F6964, .op 0x29, .op 0x3B, .nl, .id 0x766F6964,
  .id 0x617364665F617263685F73656E645F636F6465, .paren, .id 0x617364665F6B6579636F64655F74, .id 0x636F6465,
  .op 0x29, .op 0x3B, .nl, .id 0x766F6964, .id 0x617364665F617263685F696E6974, .paren, .id 0x766F6964,
  .op 0x29, .op 0x3B, .nl, .op 0x23, .id 0x656E646966, .nl]

/-- The tokens of /repo/firmware/asdf/src/Arch/asdf_arch_atmega2560.h. -/
def asdf_arch_atmega2560_h : List Tok := [
  .nl, .op 0x23, .id 0x6966, .op 0x21, .id 0x646566696E6564, .paren, .id 0x415344465F415243485F48, .op 0x29,
  .nl, .op 0x23, .id 0x646566696E65, .id 0x415344465F415243485F48, .nl, .op 0x23, .id 0x696E636C756465,
  .op 0x3C, .id 0x617672, .op 0x2F, .id 0x696F, .op 0x2E, .id 0x68, .op 0x3E, .nl, .op 0x23,
  .id 0x696E636C756465, .op 0x3C, .id 0x617672, .op 0x2F, .id 0x70676D7370616365, .op 0x2E, .id 0x68,
  .op 0x3E, .nl, .op 0x23, .id 0x696E636C756465, .str [97, 115, 100, 102, 46, 104], .nl, .op 0x23,
  .id 0x646566696E65, .id 0x465F435055, .num 16000000 true, .nl, .op 0x23, .id 0x646566696E65,
  .id 0x415344465F5354524F42455F4C454E4754485F5553, .num 10 false, .nl, .op 0x23, .id 0x646566696E65,
  .id 0x415344465F4B4559424F4152445F524F575F534554544C494E475F54494D455F5553, .num 4 false, .nl, .op 0x23,
  .id 0x646566696E65, .id 0x535953434C4B5F44495631, .num 0 false, .nl, .op 0x23, .id 0x646566696E65,
  .id 0x535953434C4B5F44495632, .op 0x28, .id 0x434C4B505330, .op 0x29, .nl, .op 0x23, .id 0x646566696E65,
  .id 0x535943434C4B5F44495634, .op 0x28, .id 0x434C4B505331, .op 0x29, .nl, .op 0x23, .id 0x646566696E65,
  .id 0x535953434C4B5F44495638, .op 0x28, .id 0x434C4B505331, .op 0x7C, .id 0x434C4B505330, .op 0x29, .nl,
  .op 0x23, .id 0x646566696E65, .id 0x535953434C4B5F4449563136, .op 0x28, .id 0x434C4B505332, .op 0x29, .nl,
  .op 0x23, .id 0x646566696E65, .id 0x535953434C4B5F4449563332, .op 0x28, .id 0x434C4B505332, .op 0x7C,
  .id 0x434C4B505330, .op 0x29, .nl, .op 0x23, .id 0x646566696E65, .id 0x535953434C4B5F4449563634, .op 0x28,
  .id 0x434C4B505332, .op 0x7C, .id 0x434C4B505331, .op 0x29, .nl, .op 0x23, .id 0x646566696E65,
  .id 0x535953434C4B5F444956313238, .op 0x28, .id 0x434C4B505332, .op 0x7C, .id 0x434C4B505331, .op 0x7C,
  .id 0x434C4B505330, .op 0x29, .nl, .op 0x23, .id 0x646566696E65, .id 0x535953434C4B5F444956323536, .op 0x28,
  .id 0x434C4B505333, .op 0x29, .nl, .op 0x23, .id 0x646566696E65, .id 0x544D5230415F504F53, .num 0 false,
  .nl, .op 0x23, .id 0x646566696E65, .id 0x544D5230425F504F53, .num 8 false, .nl, .op 0x23,
  .id 0x646566696E65, .id 0x544D5230494D534B5F504F53, .num 16 false, .nl, .op 0x23, .id 0x646566696E65,
  .id 0x544D523041, .op 0x28, .num 1 true, .op 0x3C3C, .id 0x544D5230415F504F53, .op 0x29, .nl, .op 0x23,
  .id 0x646566696E65, .id 0x544D523042, .op 0x28, .num 1 true, .op 0x3C3C, .id 0x544D5230425F504F53, .op 0x29,
  .nl, .op 0x23, .id 0x646566696E65, .id 0x544D5230494D534B, .op 0x28, .num 1 true, .op 0x3C3C,
  .id 0x544D5230494D534B5F504F53, .op 0x29, .nl, .op 0x23, .id 0x646566696E65,
  .id 0x54494D4552305F434F4D5F415F444953434F4E4E4543544544, .num 0 false, .nl, .op 0x23, .id 0x646566696E65,
  .id 0x54494D4552305F434F4D5F425F444953434F4E4E4543544544, .num 0 false, .nl, .op 0x23, .id 0x646566696E65,
  .id 0x54494D4552305F57464D5F435443, .op 0x28, .id 0x544D523041, .op 0x3C3C, .id 0x57474D3031, .op 0x29, .nl,
  .op 0x23, .id 0x646566696E65, .id 0x54494D4552305F4449563634, .op 0x28, .op 0x28, .id 0x544D523042,
  .op 0x3C3C, .id 0x43533031, .op 0x29, .op 0x7C, .op 0x28, .id 0x544D523042, .op 0x3C3C, .id 0x43533030,
  .op 0x29, .op 0x29, .nl, .op 0x23, .id 0x646566696E65, .id 0x54494D4552305F494E545F4F4E5F434F4D41, .op 0x28,
  .id 0x544D5230494D534B, .op 0x3C3C, .id 0x4F4349453041, .op 0x29, .nl, .op 0x23, .id 0x646566696E65,
  .id 0x54494D4552305F494E545F4F4E5F434F4D42, .op 0x28, .id 0x544D5230494D534B, .op 0x3C3C,
  .id 0x4F4349453042, .op 0x29, .nl, .op 0x23, .id 0x646566696E65,
  .id 0x54494D4552305F494E545F4F565F454E41424C45, .op 0x28, .id 0x544D5230494D534B, .op 0x3C3C,
  .id 0x544F494530, .op 0x29, .nl, .op 0x23, .id 0x646566696E65, .id 0x544D5258415F504F53, .num 0 false, .nl,
  .op 0x23, .id 0x646566696E65, .id 0x544D5258425F504F53, .num 8 false, .nl, .op 0x23, .id 0x646566696E65,
  .id 0x544D5258435F504F53, .num 16 false, .nl, .op 0x23, .id 0x646566696E65, .id 0x544D5258494D534B5F504F53,
  .num 24 false, .nl, .op 0x23, .id 0x646566696E65, .id 0x544D525841, .op 0x28, .num 1 true, .op 0x3C3C,
  .id 0x544D5258415F504F53, .op 0x29, .nl, .op 0x23, .id 0x646566696E65, .id 0x544D525842, .op 0x28,
  .num 1 true, .op 0x3C3C, .id 0x544D5258425F504F53, .op 0x29, .nl, .op 0x23, .id 0x646566696E65,
  .id 0x544D525843, .op 0x28, .num 1 true, .op 0x3C3C, .id 0x544D5258435F504F53, .op 0x29, .nl, .op 0x23,
  .id 0x646566696E65, .id 0x544D5258494D534B, .op 0x28, .num 1 true, .op 0x3C3C,
  .id 0x544D5258494D534B5F504F53, .op 0x29, .nl, .op 0x23, .id 0x646566696E65,
  .id 0x544D5258415F434D50415F434C525F4D415443485F5345545F424F54544F4D, .op 0x28, .num 1 false, .op 0x3C3C,
  .id 0x434F4D314131, .op 0x29, .nl, .op 0x23, .id 0x646566696E65,
  .id 0x544D5258415F434D50425F434C525F4D415443485F5345545F424F54544F4D, .op 0x28, .num 1 false, .op 0x3C3C,
  .id 0x434F4D314231, .op 0x29, .nl, .op 0x23, .id 0x646566696E65,
  .id 0x544D5258415F434D50435F434C525F4D415443485F5345545F424F54544F4D, .op 0x28, .num 1 false, .op 0x3C3C,
  .id 0x434F4D314331, .op 0x29, .nl, .op 0x23, .id 0x646566696E65,
  .id 0x544D52585F434D50415F434C525F4D415443485F5345545F424F54544F4D, .op 0x28, .id 0x544D525841, .op 0x3C3C,
  .id 0x434F4D314131, .op 0x29, .nl, .op 0x23, .id 0x646566696E65,
  .id 0x544D52585F434D50425F434C525F4D415443485F5345545F424F54544F4D, .op 0x28, .id 0x544D525841, .op 0x3C3C,
  .id 0x434F4D314231, .op 0x29, .nl, .op 0x23, .id 0x646566696E65,
  .id 0x544D52585F434D50435F434C525F4D415443485F5345545F424F54544F4D, .op 0x28, .id 0x544D525841, .op 0x3C3C,
  .id 0x434F4D314331, .op 0x29, .nl, .op 0x23, .id 0x646566696E65, .id 0x544D5258425F494E5F4341505F504F53,
  .num 64 true, .nl, .op 0x23, .id 0x646566696E65, .id 0x544D5258425F494E5F4341505F4E4547, .num 0 true, .nl,
  .op 0x23, .id 0x646566696E65, .id 0x544D5258425F494E5F4341505F4E4F4953455F43414E43454C, .num 128 true, .nl,
  .op 0x23, .id 0x646566696E65, .id 0x544D5258435F464F4341, .num 128 true, .nl, .op 0x23, .id 0x646566696E65,
  .id 0x544D5258435F464F4342, .num 64 true, .nl, .op 0x23, .id 0x646566696E65, .id 0x544D5258435F464F4343,
  .num 32 true, .nl, .op 0x23, .id 0x646566696E65, .id 0x544D5258494D5F494E545F434D505F4D415443485F41,
  .op 0x28, .num 1 true, .op 0x3C3C, .id 0x4F4349453141, .op 0x29, .nl, .op 0x23, .id 0x646566696E65,
  .id 0x544D5258494D5F494E545F434D505F4D415443485F42, .op 0x28, .num 1 true, .op 0x3C3C, .id 0x4F4349453142,
  .op 0x29, .nl, .op 0x23, .id 0x646566696E65, .id 0x544D5258494D5F494E545F434D505F4D415443485F43, .op 0x28,
  .num 1 true, .op 0x3C3C, .id 0x4F4349453143, .op 0x29, .nl, .op 0x23, .id 0x646566696E65,
  .id 0x544D52585F434D50415F444953434F4E4E4543544544, .num 0 true, .nl, .op 0x23, .id 0x646566696E65,
  .id 0x544D52585F434D50425F444953434F4E4E4543544544, .num 0 true, .nl, .op 0x23, .id 0x646566696E65,
  .id 0x544D52585F434D50435F444953434F4E4E4543544544, .num 0 true, .nl, .op 0x23, .id 0x646566696E65,
  .id 0x544D52585F494E545F4F4E5F434D5041, .op 0x28, .id 0x544D5258494D5F494E545F434D505F4D415443485F41,
  .op 0x3C3C, .id 0x544D5258494D534B5F504F53, .op 0x29, .nl, .op 0x23, .id 0x646566696E65,
  .id 0x544D5258425F4F4646, .num 0 false, .nl, .op 0x23, .id 0x646566696E65, .id 0x544D52585F4F4646,
  .num 0 false, .nl, .op 0x23, .id 0x646566696E65, .id 0x544D5258425F44495631, .op 0x28, .num 1 true,
  .op 0x3C3C, .id 0x43533130, .op 0x29, .nl, .op 0x23, .id 0x646566696E65, .id 0x544D5258425F44495638,
  .op 0x28, .num 2 true, .op 0x3C3C, .id 0x43533130, .op 0x29, .nl, .op 0x23, .id 0x646566696E65,
  .id 0x544D5258425F4449563634, .op 0x28, .num 3 true, .op 0x3C3C, .id 0x43533130, .op 0x29, .nl, .op 0x23,
  .id 0x646566696E65, .id 0x544D5258425F444956323536, .op 0x28, .num 4 true, .op 0x3C3C, .id 0x43533130,
  .op 0x29, .nl, .op 0x23, .id 0x646566696E65, .id 0x544D5258425F44495631303234, .op 0x28, .num 5 true,
  .op 0x3C3C, .id 0x43533130, .op 0x29, .nl, .op 0x23, .id 0x646566696E65,
  .id 0x544D5258425F4558545F46414C4C494E475F45444745, .op 0x28, .num 6 true, .op 0x3C3C, .id 0x43533130,
  .op 0x29, .nl, .op 0x23, .id 0x646566696E65, .id 0x544D5258425F4558545F524953494E475F45444745, .op 0x28,
  .num 7 true, .op 0x3C3C, .id 0x43533130, .op 0x29, .nl, .op 0x23, .id 0x646566696E65,
  .id 0x544D5258425F434C4B5F4D41534B, .num 7 true, .nl, .op 0x23, .id 0x646566696E65,
  .id 0x544D52585F44495631, .op 0x28, .id 0x544D5258425F44495631, .op 0x3C3C, .id 0x544D5258425F504F53,
  .op 0x29, .nl, .op 0x23, .id 0x646566696E65, .id 0x544D52585F44495638, .op 0x28, .id 0x544D5258425F44495638,
  .op 0x3C3C, .id 0x544D5258425F504F53, .op 0x29, .nl, .op 0x23, .id 0x646566696E65,
  .id 0x544D52585F4449563634, .op 0x28, .id 0x544D5258425F4449563634, .op 0x3C3C, .id 0x544D5258425F504F53,
  .op 0x29, .nl, .op 0x23, .id 0x646566696E65, .id 0x544D52585F444956323536, .op 0x28,
  .id 0x544D5258425F444956323536, .op 0x3C3C, .id 0x544D5258425F504F53, .op 0x29, .nl, .op 0x23,
  .id 0x646566696E65, .id 0x544D52585F44495631303234, .op 0x28, .id 0x544D5258425F44495631303234, .op 0x3C3C,
  .id 0x544D5258425F504F53, .op 0x29, .nl, .op 0x23, .id 0x646566696E65,
  .id 0x544D52585F4558545F46414C4C494E475F45444745, .op 0x28,
  .id 0x544D5258425F4558545F46414C4C494E475F45444745, .op 0x3C3C, .id 0x544D5258425F504F53, .op 0x29, .nl,
  .op 0x23, .id 0x646566696E65, .id 0x544D52585F4558545F524953494E475F45444745, .op 0x28,
  .id 0x544D5258425F4558545F524953494E475F45444745, .op 0x3C3C, .id 0x544D5258425F504F53, .op 0x29, .nl,
  .op 0x23, .id 0x646566696E65, .id 0x544D5258425F454447455F53454C5F504F534954495645, .op 0x28, .num 1 false,
  .op 0x3C3C, .id 0x4943455331, .op 0x29, .nl, .op 0x23, .id 0x646566696E65,
  .id 0x544D5258425F454447455F53454C5F4E45474154495645, .num 0 true, .nl, .op 0x23, .id 0x646566696E65,
  .id 0x544D52585F454447455F53454C5F504F534954495645, .op 0x28, .id 0x544D525842, .op 0x3C3C,
  .id 0x4943455331, .op 0x29, .nl, .op 0x23, .id 0x646566696E65,
  .id 0x544D52585F454447455F53454C5F4E45474154495645, .num 0 true, .nl, .op 0x23, .id 0x646566696E65,
  .id 0x544D52585F57464D5F4E4F524D414C, .num 0 true, .nl, .op 0x23, .id 0x646566696E65,
  .id 0x544D52585F57464D5F50574D5F504338, .op 0x28, .id 0x544D525841, .op 0x3C3C, .id 0x57474D3130, .op 0x29,
  .nl, .op 0x23, .id 0x646566696E65, .id 0x544D52585F57464D5F50574D5F504339, .op 0x28, .id 0x544D525841,
  .op 0x3C3C, .id 0x57474D3131, .op 0x29, .nl, .op 0x23, .id 0x646566696E65,
  .id 0x544D52585F57464D5F50574D5F50433130, .op 0x28, .op 0x28, .id 0x544D525841, .op 0x3C3C,
  .id 0x57474D3131, .op 0x29, .op 0x7C, .op 0x28, .id 0x544D525841, .op 0x3C3C, .id 0x57474D3130, .op 0x29,
  .op 0x29, .nl, .op 0x23, .id 0x646566696E65, .id 0x544D52585F57464D5F435443, .op 0x28, .id 0x544D525842,
  .op 0x3C3C, .id 0x57474D3132, .op 0x29, .nl, .op 0x23, .id 0x646566696E65,
  .id 0x544D52585F57464D5F50574D5F4641535438, .op 0x28, .op 0x28, .id 0x544D525842, .op 0x3C3C,
  .id 0x57474D3132, .op 0x29, .op 0x7C, .op 0x28, .id 0x544D525841, .op 0x3C3C, .id 0x57474D3130, .op 0x29,
  .op 0x29, .nl, .op 0x23, .id 0x646566696E65, .id 0x544D52585F57464D5F50574D5F4641535439, .op 0x28, .op 0x28,
  .id 0x544D525842, .op 0x3C3C, .id 0x57474D3132, .op 0x29, .op 0x7C, .op 0x28, .id 0x544D525841, .op 0x3C3C,
  .id 0x57474D3131, .op 0x29, .op 0x29, .nl, .op 0x23, .id 0x646566696E65,
  .id 0x544D52585F57464D5F50574D5F464153543130, .op 0x28, .op 0x28, .id 0x544D525842, .op 0x3C3C,
  .id 0x57474D3132, .op 0x29, .op 0x7C, .op 0x28, .id 0x544D525841, .op 0x3C3C, .id 0x57474D3131, .op 0x29,
  .op 0x7C, .op 0x28, .id 0x544D525841, .op 0x3C3C, .id 0x57474D3130, .op 0x29, .op 0x29, .nl, .op 0x23,
  .id 0x646566696E65, .id 0x544D52585F57464D5F50574D5F5046435F494352, .op 0x28, .id 0x544D525842, .op 0x3C3C,
  .id 0x57474D3133, .op 0x29, .nl, .op 0x23, .id 0x646566696E65,
  .id 0x544D52585F57464D5F50574D5F5046435F4F435241, .op 0x28, .op 0x28, .id 0x544D525842, .op 0x3C3C,
  .id 0x57474D3133, .op 0x29, .op 0x7C, .op 0x28, .id 0x544D525841, .op 0x3C3C, .id 0x57474D3130, .op 0x29,
  .op 0x29, .nl, .op 0x23, .id 0x646566696E65, .id 0x544D52585F57464D5F50574D5F50435F494352, .op 0x28,
  .op 0x28, .id 0x544D525842, .op 0x3C3C, .id 0x57474D3133, .op 0x29, .op 0x7C, .op 0x28, .id 0x544D525841,
  .op 0x3C3C, .id 0x57474D3131, .op 0x29, .op 0x29, .nl, .op 0x23, .id 0x646566696E65,
  .id 0x544D52585F57464D5F50574D5F50435F4F435241, .op 0x28, .op 0x28, .id 0x544D525842, .op 0x3C3C,
  .id 0x57474D3133, .op 0x29, .op 0x7C, .op 0x28, .id 0x544D525841, .op 0x3C3C, .id 0x57474D3131, .op 0x29,
  .op 0x7C, .op 0x28, .id 0x544D525841, .op 0x3C3C, .id 0x57474D3132, .op 0x29, .op 0x29, .nl, .op 0x23,
  .id 0x646566696E65, .id 0x544D52585F57464D5F4354435F494352, .op 0x28, .op 0x28, .id 0x544D525842,
  .op 0x3C3C, .id 0x57474D3133, .op 0x29, .op 0x7C, .op 0x28, .id 0x544D525842, .op 0x3C3C, .id 0x57474D3132,
  .op 0x29, .op 0x29, .nl, .op 0x23, .id 0x646566696E65, .id 0x544D52585F57464D5F50574D5F464153545F494352,
  .op 0x28, .op 0x28, .id 0x544D525842, .op 0x3C3C, .id 0x57474D3133, .op 0x29, .op 0x7C, .op 0x28,
  .id 0x544D525842, .op 0x3C3C, .id 0x57474D3132, .op 0x29, .op 0x7C, .op 0x28, .id 0x544D525841, .op 0x3C3C,
  .id 0x57474D3131, .op 0x29, .op 0x29, .nl, .op 0x23, .id 0x646566696E65,
  .id 0x544D52585F57464D5F50574D5F464153545F4F435241, .op 0x28, .op 0x28, .id 0x544D525842, .op 0x3C3C,
  .id 0x57474D3133, .op 0x29, .op 0x7C, .op 0x28, .id 0x544D525842, .op 0x3C3C, .id 0x57474D3132, .op 0x29,
  .op 0x7C, .op 0x28, .id 0x544D525841, .op 0x3C3C, .id 0x57474D3131, .op 0x29, .op 0x7C, .op 0x28,
  .id 0x544D525841, .op 0x3C3C, .id 0x57474D3130, .op 0x29, .op 0x29, .nl, .op 0x23, .id 0x646566696E65,
  .id 0x5553415254415F504F53, .num 0 false, .nl, .op 0x23, .id 0x646566696E65, .id 0x5553415254425F504F53,
  .num 8 false, .nl, .op 0x23, .id 0x646566696E65, .id 0x5553415254435F504F53, .num 16 false, .nl, .op 0x23,
  .id 0x646566696E65, .id 0x555341525441, .op 0x28, .num 1 true, .op 0x3C3C, .id 0x5553415254415F504F53,
  .op 0x29, .nl, .op 0x23, .id 0x646566696E65, .id 0x555341525442, .op 0x28, .num 1 true, .op 0x3C3C,
  .id 0x5553415254425F504F53, .op 0x29, .nl, .op 0x23, .id 0x646566696E65, .id 0x555341525443, .op 0x28,
  .num 1 true, .op 0x3C3C, .id 0x5553415254435F504F53, .op 0x29, .nl, .op 0x23, .id 0x646566696E65,
  .id 0x5553415254415F444154415F5245475F454D505459, .op 0x28, .num 1 false, .op 0x3C3C, .id 0x55445230,
  .op 0x29, .nl, .op 0x23, .id 0x646566696E65, .id 0x5553415254415F4652414D455F4552524F52, .op 0x28,
  .num 1 false, .op 0x3C3C, .id 0x464530, .op 0x29, .nl, .op 0x23, .id 0x646566696E65,
  .id 0x5553415254415F444154415F4F56455252554E, .op 0x28, .num 1 false, .op 0x3C3C, .id 0x444F5230, .op 0x29,
  .nl, .op 0x23, .id 0x646566696E65, .id 0x5553415254415F5041524954595F4552524F52, .op 0x28, .num 1 false,
  .op 0x3C3C, .id 0x55504530, .op 0x29, .nl, .op 0x23, .id 0x646566696E65,
  .id 0x5553415254415F444F55424C455F5350454544, .op 0x28, .num 1 false, .op 0x3C3C, .id 0x55325830, .op 0x29,
  .nl, .op 0x23, .id 0x646566696E65, .id 0x5553415254415F4D554C54495F50524F434553534F52, .op 0x28,
  .num 1 false, .op 0x3C3C, .id 0x4D50434D30, .op 0x29, .nl, .op 0x23, .id 0x646566696E65,
  .id 0x55534152545F444154415F5245475F454D505459, .op 0x28, .id 0x555341525441, .op 0x3C3C, .id 0x55445230,
  .op 0x29, .nl, .op 0x23, .id 0x646566696E65, .id 0x55534152545F4652414D455F4552524F52, .op 0x28,
  .id 0x555341525441, .op 0x3C3C, .id 0x464530, .op 0x29, .nl, .op 0x23, .id 0x646566696E65,
  .id 0x55534152545F444154415F4F56455252554E, .op 0x28, .id 0x555341525441, .op 0x3C3C, .id 0x444F5230,
  .op 0x29, .nl, .op 0x23, .id 0x646566696E65, .id 0x55534152545F5041524954595F4552524F52, .op 0x28,
  .id 0x555341525441, .op 0x3C3C, .id 0x55504530, .op 0x29, .nl, .op 0x23, .id 0x646566696E65,
  .id 0x55534152545F444F55424C455F5350454544, .op 0x28, .id 0x555341525441, .op 0x3C3C, .id 0x55325830,
  .op 0x29, .nl, .op 0x23, .id 0x646566696E65, .id 0x55534152545F4D554C54495F50524F434553534F52, .op 0x28,
  .id 0x555341525441, .op 0x3C3C, .id 0x4D50434D30, .op 0x29, .nl, .op 0x23, .id 0x646566696E65,
  .id 0x5553415254425F52585F434F4D504C4554455F494E545F454E, .op 0x28, .num 1 false, .op 0x3C3C,
  .id 0x525843494530, .op 0x29, .nl, .op 0x23, .id 0x646566696E65,
  .id 0x5553415254425F54585F434F4D504C4554455F494E545F454E, .op 0x28, .num 1 false, .op 0x3C3C,
  .id 0x545843494530, .op 0x29, .nl, .op 0x23, .id 0x646566696E65,
  .id 0x5553415254425F444154415F5245475F454D5054595F494E545F454E, .op 0x28, .num 1 false, .op 0x3C3C,
  .id 0x554452494530, .op 0x29, .nl, .op 0x23, .id 0x646566696E65, .id 0x5553415254425F444154415F5258454E,
  .op 0x28, .num 1 false, .op 0x3C3C, .id 0x5258454E30, .op 0x29, .nl, .op 0x23, .id 0x646566696E65,
  .id 0x5553415254425F444154415F5458454E, .op 0x28, .num 1 false, .op 0x3C3C, .id 0x5458454E30, .op 0x29, .nl,
  .op 0x23, .id 0x646566696E65, .id 0x5553415254425F53495A455F39, .op 0x28, .num 1 false, .op 0x3C3C,
  .id 0x5543535A3032, .op 0x29, .nl, .op 0x23, .id 0x646566696E65, .id 0x5553415254425F52585F4249545F38,
  .op 0x28, .num 1 false, .op 0x3C3C, .id 0x5258423830, .op 0x29, .nl, .op 0x23, .id 0x646566696E65,
  .id 0x5553415254425F54585F4249545F38, .op 0x28, .num 1 false, .op 0x3C3C, .id 0x5458423830, .op 0x29, .nl,
  .op 0x23, .id 0x646566696E65, .id 0x55534152545F52585F434F4D504C4554455F494E545F454E, .op 0x28,
  .id 0x555341525442, .op 0x3C3C, .id 0x525843494530, .op 0x29, .nl, .op 0x23, .id 0x646566696E65,
  .id 0x55534152545F54585F434F4D504C4554455F494E545F454E, .op 0x28, .id 0x555341525442, .op 0x3C3C,
  .id 0x545843494530, .op 0x29, .nl, .op 0x23, .id 0x646566696E65,
  .id 0x55534152545F444154415F5245475F454D5054595F494E545F454E, .op 0x28, .id 0x555341525442, .op 0x3C3C,
  .id 0x554452494530, .op 0x29, .nl, .op 0x23, .id 0x646566696E65, .id 0x55534152545F444154415F5258454E,
  .op 0x28, .id 0x555341525442, .op 0x3C3C, .id 0x5258454E30, .op 0x29, .nl, .op 0x23, .id 0x646566696E65,
  .id 0x55534152545F444154415F5458454E, .op 0x28, .id 0x555341525442, .op 0x3C3C, .id 0x5458454E30, .op 0x29,
  .nl, .op 0x23, .id 0x646566696E65, .id 0x55534152545F52585F4249545F38, .op 0x28, .id 0x555341525442,
  .op 0x3C3C, .id 0x5258423830, .op 0x29, .nl, .op 0x23, .id 0x646566696E65,
  .id 0x55534152545F54585F4249545F38, .op 0x28, .id 0x555341525442, .op 0x3C3C, .id 0x5458423830, .op 0x29,
  .nl, .op 0x23, .id 0x646566696E65, .id 0x5553415254435F4D4F44455F4153594E435F5553415254, .op 0x28,
  .num 0 true, .op 0x3C3C, .id 0x554D53454C3030, .op 0x29, .nl, .op 0x23, .id 0x646566696E65,
  .id 0x5553415254435F4D4F44455F53594E435F5553415254, .op 0x28, .num 1 true, .op 0x3C3C, .id 0x554D53454C3030,
  .op 0x29, .nl, .op 0x23, .id 0x646566696E65, .id 0x5553415254435F4D4F44455F4D5350494D, .op 0x28,
  .num 3 true, .op 0x3C3C, .id 0x554D53454C3030, .op 0x29, .nl, .op 0x23, .id 0x646566696E65,
  .id 0x55534152545F4D4F44455F4153594E435F5553415254, .op 0x28,
  .id 0x5553415254435F4D4F44455F4153594E435F5553415254, .op 0x3C3C, .id 0x5553415254435F504F53, .op 0x29, .nl,
  .op 0x23, .id 0x646566696E65, .id 0x55534152545F4D4F44455F53594E435F5553415254, .op 0x28,
  .id 0x5553415254435F4D4F44455F53594E435F5553415254, .op 0x3C3C, .id 0x5553415254435F504F53, .op 0x29, .nl,
  .op 0x23, .id 0x646566696E65, .id 0x55534152545F4D4F44455F4D5350494D, .op 0x28,
  .id 0x5553415254435F4D4F44455F4D5350494D, .op 0x3C3C, .id 0x5553415254435F504F53, .op 0x29, .nl, .op 0x23,
  .id 0x646566696E65, .id 0x5553415254435F5041524954595F4E4F4E45, .num 0 false, .nl, .op 0x23,
  .id 0x646566696E65, .id 0x5553415254435F5041524954595F4556454E, .op 0x28, .num 1 true, .op 0x3C3C,
  .id 0x55504D3030, .op 0x29, .nl, .op 0x23, .id 0x646566696E65, .id 0x5553415254435F5041524954595F4F4444,
  .op 0x28, .num 3 false, .op 0x3C3C, .id 0x55504D3030, .op 0x29, .nl, .op 0x23, .id 0x646566696E65,
  .id 0x55534152545F5041524954595F4E4F4E45, .num 0 false, .nl, .op 0x23, .id 0x646566696E65,
  .id 0x55534152545F5041524954595F4556454E, .op 0x28, .id 0x5553415254435F5041524954595F4556454E, .op 0x3C3C,
  .id 0x5553415254435F504F53, .op 0x29, .nl, .op 0x23, .id 0x646566696E65,
  .id 0x55534152545F5041524954595F4F4444, .op 0x28, .id 0x5553415254435F5041524954595F4F4444, .op 0x3C3C,
  .id 0x5553415254435F504F53, .op 0x29, .nl, .op 0x23, .id 0x646566696E65, .id 0x5553415254435F53544F505F31,
  .num 0 false, .nl, .op 0x23, .id 0x646566696E65, .id 0x5553415254435F53544F505F32, .op 0x28, .num 1 false,
  .op 0x3C3C, .id 0x5553425330, .op 0x29, .nl, .op 0x23, .id 0x646566696E65, .id 0x55534152545F53544F505F31,
  .num 0 false, .nl, .op 0x23, .id 0x646566696E65, .id 0x55534152545F53544F505F32, .op 0x28,
  .id 0x555341525443, .op 0x3C3C, .id 0x5553425330, .op 0x29, .nl, .op 0x23, .id 0x646566696E65,
  .id 0x5553415254435F53495A455F35, .num 0 false, .nl, .op 0x23, .id 0x646566696E65,
  .id 0x5553415254435F53495A455F36, .op 0x28, .num 1 true, .op 0x3C3C, .id 0x5543535A3030, .op 0x29, .nl,
  .op 0x23, .id 0x646566696E65, .id 0x5553415254435F53495A455F37, .op 0x28, .num 2 true, .op 0x3C3C,
  .id 0x5543535A3030, .op 0x29, .nl, .op 0x23, .id 0x646566696E65, .id 0x5553415254435F53495A455F38, .op 0x28,
  .num 3 true, .op 0x3C3C, .id 0x5543535A3030, .op 0x29, .nl, .op 0x23, .id 0x646566696E65,
  .id 0x5553415254435F53495A455F39, .id 0x5553415254435F53495A455F38, .nl, .op 0x23, .id 0x646566696E65,
  .id 0x55534152545F53495A455F35, .num 0 false, .nl, .op 0x23, .id 0x646566696E65,
  .id 0x55534152545F53495A455F36, .op 0x28, .id 0x5553415254435F53495A455F36, .op 0x3C3C,
  .id 0x5553415254435F504F53, .op 0x29, .nl, .op 0x23, .id 0x646566696E65, .id 0x55534152545F53495A455F37,
  .op 0x28, .id 0x5553415254435F53495A455F37, .op 0x3C3C, .id 0x5553415254435F504F53, .op 0x29, .nl, .op 0x23,
  .id 0x646566696E65, .id 0x55534152545F53495A455F38, .op 0x28, .id 0x5553415254435F53495A455F38, .op 0x3C3C,
  .id 0x5553415254435F504F53, .op 0x29, .nl, .op 0x23, .id 0x646566696E65, .id 0x55534152545F53495A455F39,
  .op 0x28, .op 0x28, .id 0x5553415254425F53495A455F39, .op 0x3C3C, .id 0x5553415254425F504F53, .op 0x29,
  .op 0x7C, .op 0x28, .id 0x5553415254435F53495A455F39, .op 0x3C3C, .id 0x5553415254435F504F53, .op 0x29,
  .op 0x29, .nl, .op 0x23, .id 0x646566696E65, .id 0x5553415254435F434C4B5F54585F524953494E47, .num 0 false,
  .nl, .op 0x23, .id 0x646566696E65, .id 0x55534152545F434C4B5F54585F524953494E47, .num 0 false, .nl,
  .op 0x23, .id 0x646566696E65, .id 0x5553415254435F434C4B5F54585F46414C4C494E47, .op 0x28, .num 1 false,
  .op 0x3C3C, .id 0x5543504F4C30, .op 0x29, .nl, .op 0x23, .id 0x646566696E65,
  .id 0x55534152545F434C4B5F54585F46414C4C494E47, .op 0x28, .id 0x555341525443, .op 0x3C3C,
  .id 0x5543504F4C30, .op 0x29, .nl, .op 0x23, .id 0x646566696E65, .id 0x50494E5F494E505554, .num 0 false,
  .nl, .op 0x23, .id 0x646566696E65, .id 0x50494E5F4F5554505554, .num 1 false, .nl, .op 0x23,
  .id 0x646566696E65, .id 0x414C4C5F494E50555453, .num 0 false, .nl, .op 0x23, .id 0x646566696E65,
  .id 0x414C4C5F4F555450555453, .num 255 false, .nl, .op 0x23, .id 0x646566696E65,
  .id 0x414C4C5F50554C4C555053, .num 255 false, .nl, .op 0x23, .id 0x646566696E65,
  .id 0x415344465F4849524F575F504F5254, .id 0x504F525441, .nl, .op 0x23, .id 0x646566696E65,
  .id 0x415344465F4849524F575F444452, .id 0x44445241, .nl, .op 0x23, .id 0x646566696E65,
  .id 0x415344465F4849524F575F50494E, .id 0x50494E41, .nl, .op 0x23, .id 0x646566696E65,
  .id 0x415344465F4C4F524F575F504F5254, .id 0x504F52544A, .nl, .op 0x23, .id 0x646566696E65,
  .id 0x415344465F4C4F524F575F444452, .id 0x4444524A, .nl, .op 0x23, .id 0x646566696E65,
  .id 0x415344465F4C4F524F575F50494E, .id 0x50494E4A, .nl, .op 0x23, .id 0x646566696E65,
  .id 0x415344465F434F4C554D4E535F504F5254, .id 0x504F525443, .nl, .op 0x23, .id 0x646566696E65,
  .id 0x415344465F434F4C554D4E535F50494E, .id 0x50494E43, .nl, .op 0x23, .id 0x646566696E65,
  .id 0x415344465F434F4C554D4E535F444452, .id 0x44445243, .nl, .op 0x23, .id 0x646566696E65,
  .id 0x415344465F41534349495F504F5254, .id 0x504F525448, .nl, .op 0x23, .id 0x646566696E65,
  .id 0x415344465F41534349495F444452, .id 0x44445248, .nl, .op 0x23, .id 0x646566696E65,
  .id 0x415344465F4C4544315F504F5254, .id 0x504F525444, .nl, .op 0x23, .id 0x646566696E65,
  .id 0x415344465F4C4544315F444452, .id 0x44445244, .nl, .op 0x23, .id 0x646566696E65,
  .id 0x415344465F4C4544315F424954, .num 5 false, .nl, .op 0x23, .id 0x646566696E65,
  .id 0x415344465F4C4544325F504F5254, .id 0x504F525444, .nl, .op 0x23, .id 0x646566696E65,
  .id 0x415344465F4C4544325F444452, .id 0x44445244, .nl, .op 0x23, .id 0x646566696E65,
  .id 0x415344465F4C4544325F424954, .num 6 false, .nl, .op 0x23, .id 0x646566696E65,
  .id 0x415344465F4C4544335F504F5254, .id 0x504F525444, .nl, .op 0x23, .id 0x646566696E65,
  .id 0x415344465F4C4544335F444452, .id 0x44445244, .nl, .op 0x23, .id 0x646566696E65,
  .id 0x415344465F4C4544335F424954, .num 7 false, .nl, .op 0x23, .id 0x646566696E65,
  .id 0x415344465F4F5554315F504F5254, .id 0x504F525442, .nl, .op 0x23, .id 0x646566696E65,
  .id 0x415344465F4F5554315F50494E, .id 0x50494E42, .nl, .op 0x23, .id 0x646566696E65,
  .id 0x415344465F4F5554315F444452, .id 0x44445242, .nl, .op 0x23, .id 0x646566696E65,
  .id 0x415344465F4F5554315F424954, .num 5 false, .nl, .op 0x23, .id 0x646566696E65,
  .id 0x415344465F4F5554325F504F5254, .id 0x504F525442, .nl, .op 0x23, .id 0x646566696E65,
  .id 0x415344465F4F5554325F50494E, .id 0x50494E42, .nl, .op 0x23, .id 0x646566696E65,
  .id 0x415344465F4F5554325F444452, .id 0x44445242, .nl, .op 0x23, .id 0x646566696E65,
  .id 0x415344465F4F5554325F424954, .num 6 false, .nl, .op 0x23, .id 0x646566696E65,
  .id 0x415344465F4F5554335F504F5254, .id 0x504F525442, .nl, .op 0x23, .id 0x646566696E65,
  .id 0x415344465F4F5554335F50494E, .id 0x50494E42, .nl, .op 0x23, .id 0x646566696E65,
  .id 0x415344465F4F5554335F444452, .id 0x44445242, .nl, .op 0x23, .id 0x646566696E65,
  .id 0x415344465F4F5554335F424954, .num 7 false, .nl, .op 0x23, .id 0x646566696E65,
  .id 0x415344465F5354524F42455F504F5254, .id 0x504F525442, .nl, .op 0x23, .id 0x646566696E65,
  .id 0x415344465F5354524F42455F50494E, .id 0x50494E42, .nl, .op 0x23, .id 0x646566696E65,
  .id 0x415344465F5354524F42455F444452, .id 0x44445242, .nl, .op 0x23, .id 0x646566696E65,
  .id 0x415344465F5354524F42455F424954, .num 4 false, .nl, .op 0x23, .id 0x646566696E65,
  .id 0x415344465F4F53495F4B42455F504F5254, .id 0x415344465F4849524F575F504F5254, .nl, .op 0x23,
  .id 0x646566696E65, .id 0x415344465F4F53495F4B42455F444452, .id 0x415344465F4849524F575F444452, .nl,
  .op 0x23, .id 0x646566696E65, .id 0x415344465F4F53495F4B42455F424954, .num 1 false, .nl, .op 0x23,
  .id 0x646566696E65, .id 0x415344465F4F53495F52575F504F5254, .id 0x415344465F4849524F575F504F5254, .nl,
  .op 0x23, .id 0x646566696E65, .id 0x415344465F4F53495F52575F444452, .id 0x415344465F4849524F575F444452, .nl,
  .op 0x23, .id 0x646566696E65, .id 0x415344465F4F53495F52575F424954, .num 2 false, .nl, .op 0x23,
  .id 0x646566696E65, .id 0x415344465F415243485F4449505F5357495443485F524F57, .num 8 false, .nl, .op 0x23,
  .id 0x646566696E65, .id 0x465553455F494E5445524E414C5F384D485A5F4F53435F344D53, .op 0x28,
  .id 0x465553455F434B53454C31, .op 0x7C, .id 0x465553455F53555430, .op 0x29, .nl, .op 0x23,
  .id 0x646566696E65, .id 0x465553455F494E5445524E414C5F384D485A5F4F53435F36354D53, .op 0x28,
  .id 0x465553455F434B53454C31, .op 0x7C, .id 0x465553455F53555431, .op 0x29, .nl, .op 0x23,
  .id 0x646566696E65, .id 0x465553455F5854414C5F31364D485A5F344D53, .op 0x28, .id 0x465553455F434B53454C32,
  .op 0x7C, .id 0x465553455F434B53454C31, .op 0x7C, .id 0x434B53454C30, .op 0x7C, .id 0x465553455F53555431,
  .op 0x29, .nl, .op 0x23, .id 0x646566696E65, .id 0x465553455F5854414C5F31364D485A5F36354D53, .op 0x28,
  .id 0x465553455F434B53454C32, .op 0x7C, .id 0x465553455F434B53454C31, .op 0x7C, .id 0x434B53454C30,
  .op 0x7C, .id 0x465553455F53555431, .op 0x7C, .id 0x465553455F53555430, .op 0x29, .nl, .op 0x23,
  .id 0x646566696E65, .id 0x464C415348, .id 0x50524F474D454D, .nl, .op 0x23, .id 0x646566696E65,
  .id 0x464C4153485F52454144, .op 0x28, .id 0x61, .op 0x29, .id 0x70676D5F726561645F62797465, .paren,
  .op 0x28, .id 0x61, .op 0x29, .op 0x29, .nl, .op 0x23, .id 0x646566696E65,
  .id 0x464C4153485F524541445F4D41545249585F454C454D454E54, .paren, .id 0x6D6174726978, .op 0x2C,
  .id 0x726F77, .op 0x2C, .id 0x636F6C, .op 0x29, .id 0x70676D5F726561645F62797465, .paren, .op 0x26,
  .op 0x28, .op 0x28, .id 0x6D6174726978, .op 0x29, .op 0x5B, .op 0x28, .id 0x726F77, .op 0x29, .op 0x5D,
  .op 0x5B, .op 0x28, .id 0x636F6C, .op 0x29, .op 0x5D, .op 0x29, .op 0x29, .nl, .op 0x23, .id 0x646566696E65,
  .id 0x5449434B5F434F554E54, .num 249 false, .nl, .op 0x23, .id 0x646566696E65,
  .id 0x415344465F415243485F44454641554C545F524F575F5343414E4E4552, .op 0x26,
  .id 0x617364665F617263685F726561645F726F77, .nl, .op 0x23, .id 0x646566696E65,
  .id 0x415344465F415243485F44454641554C545F4F5554505554, .op 0x26,
  .id 0x617364665F617263685F73656E645F636F6465, .nl, .op 0x23, .id 0x646566696E65,
  .id 0x415344465F415243485F4449505357495443485F524F57, .num 8 false, .nl, .id 0x766F6964,
  .id 0x617364665F617263685F7365745F706F735F7374726F6265, .paren, .id 0x766F6964, .op 0x29, .op 0x3B, .nl,
  .id 0x766F6964, .id 0x617364665F617263685F7365745F6E65675F7374726F6265, .paren, .id 0x766F6964, .op 0x29,
  .op 0x3B, .nl, .id 0x766F6964, .id 0x617364665F617263685F6E756C6C5F6F7574707574, .paren,
  .id 0x75696E74385F74, .id 0x76616C7565, .op 0x29, .op 0x3B, .nl, .id 0x766F6964,
  .id 0x617364665F617263685F6C6564315F736574, .paren, .id 0x75696E74385F74, .id 0x76616C7565, .op 0x29,
  .op 0x3B, .nl, .id 0x766F6964, .id 0x617364665F617263685F6C6564325F736574, .paren, .id 0x75696E74385F74,
  .id 0x76616C7565, .op 0x29, .op 0x3B, .nl, .id 0x766F6964, .id 0x617364665F617263685F6C6564335F736574,
  .paren, .id 0x75696E74385F74, .id 0x76616C7565, .op 0x29, .op 0x3B, .nl, .id 0x766F6964,
  .id 0x617364665F617263685F6F7574315F736574, .paren, .id 0x75696E74385F74, .id 0x76616C7565, .op 0x29,
  .op 0x3B, .nl, .id 0x766F6964, .id 0x617364665F617263685F6F7574315F6F70656E5F68695F736574, .paren,
  .id 0x75696E74385F74, .id 0x76616C7565, .op 0x29, .op 0x3B, .nl, .id 0x766F6964,
  .id 0x617364665F617263685F6F7574315F6F70656E5F6C6F5F736574, .paren, .id 0x75696E74385F74, .id 0x76616C7565,
  .op 0x29, .op 0x3B, .nl, .id 0x766F6964, .id 0x617364665F617263685F6F7574325F736574, .paren,
  .id 0x75696E74385F74, .id 0x76616C7565, .op 0x29, .op 0x3B, .nl, .id 0x766F6964,
  .id 0x617364665F617263685F6F7574325F6F70656E5F68695F736574, .paren, .id 0x75696E74385F74, .id 0x76616C7565,
  .op 0x29, .op 0x3B, .nl, .id 0x766F6964, .id 0x617364665F617263685F6F7574325F6F70656E5F6C6F5F736574, .paren,
  .id 0x75696E74385F74, .id 0x76616C7565, .op 0x29, .op 0x3B, .nl, .id 0x766F6964,
  .id 0x617364665F617263685F6F7574335F736574, .paren, .id 0x75696E74385F74, .id 0x76616C7565, .op 0x29,
  .op 0x3B, .nl, .id 0x766F6964, .id 0x617364665F617263685F6F7574335F6F70656E5F68695F736574, .paren,
  .id 0x75696E74385F74, .id 0x76616C7565, .op 0x29, .op 0x3B, .nl, .id 0x766F6964,
  .id 0x617364665F617263685F6F7574335F6F70656E5F6C6F5F736574, .paren, .id 0x75696E74385F74, .id 0x76616C7565,
  .op 0x29, .op 0x3B, .nl, .id 0x617364665F636F6C735F74, .id 0x617364665F617263685F726561645F726F77, .paren,
  .id 0x75696E74385F74, .id 0x726F77, .op 0x29, .op 0x3B, .nl, .id 0x766F6964,
  .id 0x617364665F617263685F70756C73655F64656C61795F73686F7274, .paren, .id 0x766F6964, .op 0x29, .op 0x3B,
  .nl, .id 0x766F6964, .id 0x617364665F617263685F70756C73655F64656C61795F6C6F6E67, .paren, .id 0x766F6964,
  .op 0x29, .op 0x3B, .nl, .id 0x766F6964, .id 0x617364665F617263685F64656C61795F6D73, .paren,
  .id 0x75696E7431365F74, .id 0x64656C61795F6D73, .op 0x29, .op 0x3B, .nl, .id 0x75696E74385F74,
  .id 0x617364665F617263685F7469636B, .paren, .id 0x766F6964, .op 0x29, .op 0x3B, .nl, .id 0x766F6964,
  .id 0x617364665F617263685F73656E645F636F6465, .paren, .id 0x617364665F6B6579636F64655F74, .id 0x636F6465,
  .op 0x29, .op 0x3B, .nl, .id 0x766F6964, .id 0x617364665F617263685F696E6974, .paren, .id 0x766F6964,
  .op 0x29, .op 0x3B, .nl, .op 0x23, .id 0x656E646966, .nl]

/-- The tokens of /repo/firmware/asdf/src/Arch/asdf_arch_atmega328p.c. -/
def asdf_arch_atmega328p_c : List Tok := [
  .nl, .op 0x23, .id 0x696E636C756465, .str [97, 115, 100, 102, 95, 97, 114, 99, 104, 46, 104], .nl, .op 0x23,
  .id 0x696E636C756465, .op 0x3C, .id 0x617672, .op 0x2F, .id 0x696F, .op 0x2E, .id 0x68, .op 0x3E, .nl,
  .op 0x23, .id 0x696E636C756465, .op 0x3C, .id 0x617672, .op 0x2F, .id 0x696E74657272757074, .op 0x2E,
  .id 0x68, .op 0x3E, .nl, .op 0x23, .id 0x696E636C756465, .op 0x3C, .id 0x7574696C, .op 0x2F,
  .id 0x64656C6179, .op 0x2E, .id 0x68, .op 0x3E, .nl, .op 0x23, .id 0x696E636C756465, .op 0x3C,
  .id 0x737464696E74, .op 0x2E, .id 0x68, .op 0x3E, .nl, .op 0x23, .id 0x696E636C756465,
  .str [97, 115, 100, 102, 46, 104], .nl, .op 0x23, .id 0x696E636C756465,
  .str [97, 115, 100, 102, 95, 99, 111, 110, 102, 105, 103, 46, 104], .nl, .id 0x737461746963,
  .id 0x766F6C6174696C65, .id 0x75696E74385F74, .id 0x7469636B, .op 0x3D, .num 0 false, .op 0x3B, .nl,
  .id 0x737461746963, .id 0x75696E74385F74, .id 0x646174615F706F6C6172697479, .op 0x3D,
  .id 0x415344465F44454641554C545F444154415F504F4C4152495459, .op 0x3B, .nl, .id 0x495352, .paren,
  .id 0x54494D4552305F434F4D50415F76656374, .op 0x29, .nl, .op 0x7B, .nl, .id 0x7469636B, .op 0x3D,
  .num 1 false, .op 0x3B, .nl, .op 0x7D, .nl, .id 0x737461746963, .id 0x696E6C696E65, .id 0x766F6964,
  .id 0x7365745F626974, .paren, .id 0x766F6C6174696C65, .id 0x75696E74385F74, .op 0x2A, .id 0x706F7274,
  .op 0x2C, .id 0x75696E74385F74, .id 0x626974, .op 0x29, .nl, .op 0x7B, .nl, .op 0x2A, .id 0x706F7274,
  .op 0x7C3D, .op 0x28, .num 1 false, .op 0x3C3C, .id 0x626974, .op 0x29, .op 0x3B, .nl, .op 0x7D, .nl,
  .id 0x737461746963, .id 0x696E6C696E65, .id 0x766F6964, .id 0x636C6561725F626974, .paren,
  .id 0x766F6C6174696C65, .id 0x75696E74385F74, .op 0x2A, .id 0x706F7274, .op 0x2C, .id 0x75696E74385F74,
  .id 0x626974, .op 0x29, .nl, .op 0x7B, .nl, .op 0x2A, .id 0x706F7274, .op 0x263D, .op 0x7E, .op 0x28,
  .num 1 false, .op 0x3C3C, .id 0x626974, .op 0x29, .op 0x3B, .nl, .op 0x7D, .nl, .id 0x737461746963,
  .id 0x766F6964, .id 0x617263685F74696D6572305F636F6E666967, .paren, .id 0x75696E7433325F74, .id 0x62697473,
  .op 0x29, .nl, .op 0x7B, .nl, .id 0x544343523042, .op 0x3D, .num 0 false, .op 0x3B, .nl, .id 0x544343523041,
  .op 0x3D, .op 0x28, .id 0x62697473, .op 0x3E3E, .id 0x544D5230415F504F53, .op 0x29, .op 0x26,
  .num 255 false, .op 0x3B, .nl, .id 0x54494D534B30, .op 0x3D, .op 0x28, .id 0x62697473, .op 0x3E3E,
  .id 0x544D5230494D534B5F504F53, .op 0x29, .op 0x26, .num 255 false, .op 0x3B, .nl, .id 0x544343523042,
  .op 0x3D, .op 0x28, .id 0x62697473, .op 0x3E3E, .id 0x544D5230425F504F53, .op 0x29, .op 0x26,
  .num 255 false, .op 0x3B, .nl, .op 0x7D, .nl, .id 0x737461746963, .id 0x766F6964,
  .id 0x617364665F617263685F7469636B5F74696D65725F696E6974, .paren, .id 0x766F6964, .op 0x29, .nl, .op 0x7B,
  .nl, .id 0x7469636B, .op 0x3D, .num 0 false, .op 0x3B, .nl, .id 0x4F43523041, .op 0x3D,
  .id 0x5449434B5F434F554E54, .op 0x3B, .nl, .id 0x617263685F74696D6572305F636F6E666967, .paren,
  .id 0x54494D4552305F57464D5F435443, .op 0x7C, .id 0x54494D4552305F4449563634, .op 0x7C,
  .id 0x54494D4552305F494E545F4F4E5F434F4D41, .op 0x29, .op 0x3B, .nl, .op 0x7D, .nl, .id 0x75696E74385F74,
  .id 0x617364665F617263685F7469636B, .paren, .id 0x766F6964, .op 0x29, .nl, .op 0x7B, .nl,
  .id 0x75696E74385F74, .id 0x72657476616C, .op 0x3D, .id 0x7469636B, .op 0x3B, .nl, .id 0x7469636B, .op 0x3D,
  .num 0 false, .op 0x3B, .nl, .id 0x72657475726E, .id 0x72657476616C, .op 0x3B, .nl, .op 0x7D, .nl,
  .id 0x737461746963, .id 0x766F6964, .id 0x617364665F617263685F696E69745F636C6F636B, .paren, .id 0x766F6964,
  .op 0x29, .nl, .op 0x7B, .nl, .id 0x434C4B5052, .op 0x3D, .op 0x28, .id 0x434C4B504345, .op 0x7C,
  .id 0x535953434C4B5F44495631, .op 0x29, .op 0x3B, .nl, .op 0x7D, .nl, .id 0x737461746963, .id 0x766F6964,
  .id 0x617364665F617263685F696E69745F6C656473, .paren, .id 0x766F6964, .op 0x29, .nl, .op 0x7B, .nl,
  .id 0x7365745F626974, .paren, .op 0x26, .id 0x415344465F4C4544315F444452, .op 0x2C,
  .id 0x415344465F4C4544315F424954, .op 0x29, .op 0x3B, .nl, .id 0x7365745F626974, .paren, .op 0x26,
  .id 0x415344465F4C4544325F444452, .op 0x2C, .id 0x415344465F4C4544325F424954, .op 0x29, .op 0x3B, .nl,
  .id 0x7365745F626974, .paren, .op 0x26, .id 0x415344465F4C4544335F444452, .op 0x2C,
  .id 0x415344465F4C4544335F424954, .op 0x29, .op 0x3B, .nl, .op 0x7D, .nl, .id 0x766F6964,
  .id 0x617364665F617263685F6C6564315F736574, .paren, .id 0x75696E74385F74, .id 0x76616C7565, .op 0x29, .nl,
  .op 0x7B, .nl, .id 0x6966, .op 0x28, .id 0x76616C7565, .op 0x29, .op 0x7B, .nl, .id 0x636C6561725F626974,
  .paren, .op 0x26, .id 0x415344465F4C4544315F504F5254, .op 0x2C, .id 0x415344465F4C4544315F424954, .op 0x29,
  .op 0x3B, .nl, .op 0x7D, .nl, .id 0x656C7365, .op 0x7B, .nl, .id 0x7365745F626974, .paren, .op 0x26,
  .id 0x415344465F4C4544315F504F5254, .op 0x2C, .id 0x415344465F4C4544315F424954, .op 0x29, .op 0x3B, .nl,
  .op 0x7D, .nl, .op 0x7D, .nl, .id 0x766F6964, .id 0x617364665F617263685F6C6564325F736574, .paren,
  .id 0x75696E74385F74, .id 0x76616C7565, .op 0x29, .nl, .op 0x7B, .nl, .id 0x6966, .op 0x28,
  .id 0x76616C7565, .op 0x29, .op 0x7B, .nl, .id 0x7365745F626974, .paren, .op 0x26,
  .id 0x415344465F4C4544325F504F5254, .op 0x2C, .id 0x415344465F4C4544325F424954, .op 0x29, .op 0x3B, .nl,
  .op 0x7D, .nl, .id 0x656C7365, .op 0x7B, .nl, .id 0x636C6561725F626974, .paren, .op 0x26,
  .id 0x415344465F4C4544325F504F5254, .op 0x2C, .id 0x415344465F4C4544325F424954, .op 0x29, .op 0x3B, .nl,
  .op 0x7D, .nl, .op 0x7D, .nl, .id 0x766F6964, .id 0x617364665F617263685F6C6564335F736574, .paren,
  .id 0x75696E74385F74, .id 0x76616C7565, .op 0x29, .nl, .op 0x7B, .nl, .id 0x6966, .op 0x28,
  .id 0x76616C7565, .op 0x29, .op 0x7B, .nl, .id 0x7365745F626974, .paren, .op 0x26,
  .id 0x415344465F4C4544335F504F5254, .op 0x2C, .id 0x415344465F4C4544335F424954, .op 0x29, .op 0x3B, .nl,
  .op 0x7D, .nl, .id 0x656C7365, .op 0x7B, .nl, .id 0x636C6561725F626974, .paren, .op 0x26,
  .id 0x415344465F4C4544335F504F5254, .op 0x2C, .id 0x415344465F4C4544335F424954, .op 0x29, .op 0x3B, .nl,
  .op 0x7D, .nl, .op 0x7D, .nl, .id 0x766F6964, .id 0x617364665F617263685F6F7574315F736574, .paren,
  .id 0x75696E74385F74, .id 0x76616C7565, .op 0x29, .nl, .op 0x7B, .nl, .id 0x6966, .op 0x28,
  .id 0x76616C7565, .op 0x29, .op 0x7B, .nl, .id 0x7365745F626974, .paren, .op 0x26,
  .id 0x415344465F4F5554315F504F5254, .op 0x2C, .id 0x415344465F4F5554315F424954, .op 0x29, .op 0x3B, .nl,
  .op 0x7D, .nl, .id 0x656C7365, .op 0x7B, .nl, .id 0x636C6561725F626974, .paren, .op 0x26,
  .id 0x415344465F4F5554315F504F5254, .op 0x2C, .id 0x415344465F4F5554315F424954, .op 0x29, .op 0x3B, .nl,
  .op 0x7D, .nl, .id 0x7365745F626974, .paren, .op 0x26, .id 0x415344465F4F5554315F444452, .op 0x2C,
  .id 0x415344465F4F5554315F424954, .op 0x29, .op 0x3B, .nl, .op 0x7D, .nl, .id 0x766F6964,
  .id 0x617364665F617263685F6F7574315F6F70656E5F68695F736574, .paren, .id 0x75696E74385F74, .id 0x76616C7565,
  .op 0x29, .nl, .op 0x7B, .nl, .id 0x6966, .op 0x28, .id 0x76616C7565, .op 0x29, .op 0x7B, .nl,
  .id 0x636C6561725F626974, .paren, .op 0x26, .id 0x415344465F4F5554315F444452, .op 0x2C,
  .id 0x415344465F4F5554315F424954, .op 0x29, .op 0x3B, .nl, .id 0x7365745F626974, .paren, .op 0x26,
  .id 0x415344465F4F5554315F504F5254, .op 0x2C, .id 0x415344465F4F5554315F424954, .op 0x29, .op 0x3B, .nl,
  .op 0x7D, .nl, .id 0x656C7365, .op 0x7B, .nl, .id 0x636C6561725F626974, .paren, .op 0x26,
  .id 0x415344465F4F5554315F504F5254, .op 0x2C, .id 0x415344465F4F5554315F424954, .op 0x29, .op 0x3B, .nl,
  .id 0x7365745F626974, .paren, .op 0x26, .id 0x415344465F4F5554315F444452, .op 0x2C,
  .id 0x415344465F4F5554315F424954, .op 0x29, .op 0x3B, .nl, .op 0x7D, .nl, .op 0x7D, .nl, .id 0x766F6964,
  .id 0x617364665F617263685F6F7574315F6F70656E5F6C6F5F736574, .paren, .id 0x75696E74385F74, .id 0x76616C7565,
  .op 0x29, .nl, .op 0x7B, .nl, .id 0x6966, .op 0x28, .id 0x76616C7565, .op 0x29, .op 0x7B, .nl,
  .id 0x7365745F626974, .paren, .op 0x26, .id 0x415344465F4F5554315F504F5254, .op 0x2C,
  .id 0x415344465F4F5554315F424954, .op 0x29, .op 0x3B, .nl, .id 0x7365745F626974, .paren, .op 0x26,
  .id 0x415344465F4F5554315F444452, .op 0x2C, .id 0x415344465F4F5554315F424954, .op 0x29, .op 0x3B, .nl,
  .op 0x7D, .nl, .id 0x656C7365, .op 0x7B, .nl, .id 0x636C6561725F626974, .paren, .op 0x26,
  .id 0x415344465F4F5554315F444452, .op 0x2C, .id 0x415344465F4F5554315F424954, .op 0x29, .op 0x3B, .nl,
  .id 0x636C6561725F626974, .paren, .op 0x26, .id 0x415344465F4F5554315F504F5254, .op 0x2C,
  .id 0x415344465F4F5554315F424954, .op 0x29, .op 0x3B, .nl, .op 0x7D, .nl, .op 0x7D, .nl, .id 0x766F6964,
  .id 0x617364665F617263685F6F7574325F736574, .paren, .id 0x75696E74385F74, .id 0x76616C7565, .op 0x29, .nl,
  .op 0x7B, .nl, .id 0x6966, .op 0x28, .id 0x76616C7565, .op 0x29, .op 0x7B, .nl, .id 0x636C6561725F626974,
  .paren, .op 0x26, .id 0x415344465F4F5554325F504F5254, .op 0x2C, .id 0x415344465F4F5554325F424954, .op 0x29,
  .op 0x3B, .nl, .op 0x7D, .nl, .id 0x656C7365, .op 0x7B, .nl, .id 0x7365745F626974, .paren, .op 0x26,
  .id 0x415344465F4F5554325F504F5254, .op 0x2C, .id 0x415344465F4F5554325F424954, .op 0x29, .op 0x3B, .nl,
  .op 0x7D, .nl, .id 0x7365745F626974, .paren, .op 0x26, .id 0x415344465F4F5554325F444452, .op 0x2C,
  .id 0x415344465F4F5554325F424954, .op 0x29, .op 0x3B, .nl, .op 0x7D, .nl, .id 0x766F6964,
  .id 0x617364665F617263685F6E756C6C5F6F7574707574, .paren, .id 0x75696E74385F74, .id 0x76616C7565, .op 0x29,
  .nl, .op 0x7B, .nl, .op 0x28, .id 0x766F6964, .op 0x29, .id 0x76616C7565, .op 0x3B, .nl, .op 0x7D, .nl,
  .id 0x766F6964, .id 0x617364665F617263685F6F7574325F6F70656E5F68695F736574, .paren, .id 0x75696E74385F74,
  .id 0x76616C7565, .op 0x29, .nl, .op 0x7B, .nl, .id 0x617364665F617263685F6E756C6C5F6F7574707574, .paren,
  .id 0x76616C7565, .op 0x29, .op 0x3B, .nl, .op 0x7D, .nl, .id 0x766F6964,
  .id 0x617364665F617263685F6F7574325F6F70656E5F6C6F5F736574, .paren, .id 0x75696E74385F74, .id 0x76616C7565,
  .op 0x29, .nl, .op 0x7B, .nl, .id 0x617364665F617263685F6E756C6C5F6F7574707574, .paren, .id 0x76616C7565,
  .op 0x29, .op 0x3B, .nl, .op 0x7D, .nl, .id 0x766F6964, .id 0x617364665F617263685F6F7574335F736574, .paren,
  .id 0x75696E74385F74, .id 0x76616C7565, .op 0x29, .nl, .op 0x7B, .nl, .id 0x6966, .op 0x28,
  .id 0x76616C7565, .op 0x29, .op 0x7B, .nl, .id 0x7365745F626974, .paren, .op 0x26,
  .id 0x415344465F4F5554335F504F5254, .op 0x2C, .id 0x415344465F4F5554335F424954, .op 0x29, .op 0x3B, .nl,
  .op 0x7D, .nl, .id 0x656C7365, .op 0x7B, .nl, .id 0x636C6561725F626974, .paren, .op 0x26,
  .id 0x415344465F4F5554335F504F5254, .op 0x2C, .id 0x415344465F4F5554335F424954, .op 0x29, .op 0x3B, .nl,
  .op 0x7D, .nl, .id 0x7365745F626974, .paren, .op 0x26, .id 0x415344465F4F5554335F444452, .op 0x2C,
  .id 0x415344465F4F5554335F424954, .op 0x29, .op 0x3B, .nl, .op 0x7D, .nl, .id 0x766F6964,
  .id 0x617364665F617263685F6F7574335F6F70656E5F68695F736574, .paren, .id 0x75696E74385F74, .id 0x76616C7565,
  .op 0x29, .nl, .op 0x7B, .nl, .id 0x6966, .op 0x28, .id 0x76616C7565, .op 0x29, .op 0x7B, .nl,
  .id 0x636C6561725F626974, .paren, .op 0x26, .id 0x415344465F4F5554335F444452, .op 0x2C,
  .id 0x415344465F4F5554335F424954, .op 0x29, .op 0x3B, .nl, .id 0x7365745F626974, .paren, .op 0x26,
  .id 0x415344465F4F5554335F504F5254, .op 0x2C, .id 0x415344465F4F5554335F424954, .op 0x29, .op 0x3B, .nl,
  .op 0x7D, .nl, .id 0x656C7365, .op 0x7B, .nl, .id 0x636C6561725F626974, .paren, .op 0x26,
  .id 0x415344465F4F5554335F504F5254, .op 0x2C, .id 0x415344465F4F5554335F424954, .op 0x29, .op 0x3B, .nl,
  .id 0x7365745F626974, .paren, .op 0x26, .id 0x415344465F4F5554335F444452, .op 0x2C,
  .id 0x415344465F4F5554335F424954, .op 0x29, .op 0x3B, .nl, .op 0x7D, .nl, .op 0x7D, .nl, .id 0x766F6964,
  .id 0x617364665F617263685F6F7574335F6F70656E5F6C6F5F736574, .paren, .id 0x75696E74385F74, .id 0x76616C7565,
  .op 0x29, .nl, .op 0x7B, .nl, .id 0x6966, .op 0x28, .id 0x76616C7565, .op 0x29, .op 0x7B, .nl,
  .id 0x7365745F626974, .paren, .op 0x26, .id 0x415344465F4F5554335F504F5254, .op 0x2C,
  .id 0x415344465F4F5554335F424954, .op 0x29, .op 0x3B, .nl, .id 0x7365745F626974, .paren, .op 0x26,
  .id 0x415344465F4F5554335F444452, .op 0x2C, .id 0x415344465F4F5554335F424954, .op 0x29, .op 0x3B, .nl,
  .op 0x7D, .nl, .id 0x656C7365, .op 0x7B, .nl, .id 0x636C6561725F626974, .paren, .op 0x26,
  .id 0x415344465F4F5554335F444452, .op 0x2C, .id 0x415344465F4F5554335F424954, .op 0x29, .op 0x3B, .nl,
  .id 0x636C6561725F626974, .paren, .op 0x26, .id 0x415344465F4F5554335F504F5254, .op 0x2C,
  .id 0x415344465F4F5554335F424954, .op 0x29, .op 0x3B, .nl, .op 0x7D, .nl, .op 0x7D, .nl, .id 0x766F6964,
  .id 0x617364665F617263685F7365745F706F735F7374726F6265, .paren, .id 0x766F6964, .op 0x29, .nl, .op 0x7B,
  .nl, .id 0x636C6561725F626974, .paren, .op 0x26, .id 0x415344465F5354524F42455F504F5254, .op 0x2C,
  .id 0x415344465F5354524F42455F424954, .op 0x29, .op 0x3B, .nl, .id 0x7365745F626974, .paren, .op 0x26,
  .id 0x415344465F5354524F42455F444452, .op 0x2C, .id 0x415344465F5354524F42455F424954, .op 0x29, .op 0x3B,
  .nl, .op 0x7D, .nl, .id 0x766F6964, .id 0x617364665F617263685F7365745F6E65675F7374726F6265, .paren,
  .id 0x766F6964, .op 0x29, .nl, .op 0x7B, .nl, .id 0x7365745F626974, .paren, .op 0x26,
  .id 0x415344465F5354524F42455F504F5254, .op 0x2C, .id 0x415344465F5354524F42455F424954, .op 0x29, .op 0x3B,
  .nl, .id 0x7365745F626974, .paren, .op 0x26, .id 0x415344465F5354524F42455F444452, .op 0x2C,
  .id 0x415344465F5354524F42455F424954, .op 0x29, .op 0x3B, .nl, .op 0x7D, .nl, .id 0x737461746963,
  .id 0x766F6964, .id 0x617364665F617263685F696E69745F61736369695F6F7574707574, .paren, .id 0x766F6964,
  .op 0x29, .nl, .op 0x7B, .nl, .id 0x415344465F41534349495F504F5254, .op 0x3D,
  .id 0x646174615F706F6C6172697479, .op 0x3B, .nl, .id 0x415344465F41534349495F444452, .op 0x3D,
  .id 0x414C4C5F4F555450555453, .op 0x3B, .nl, .op 0x7D, .nl, .id 0x737461746963, .id 0x766F6964,
  .id 0x617364665F617263685F696E69745F636F6C756D6E5F636F6E74726F6C, .paren, .id 0x766F6964, .op 0x29, .nl,
  .op 0x7B, .nl, .id 0x636C6561725F626974, .paren, .op 0x26, .id 0x415344465F434F4C434C4B5F504F5254, .op 0x2C,
  .id 0x415344465F434F4C434C4B5F424954, .op 0x29, .op 0x3B, .nl, .id 0x7365745F626974, .paren, .op 0x26,
  .id 0x415344465F434F4C434C4B5F444452, .op 0x2C, .id 0x415344465F434F4C434C4B5F424954, .op 0x29, .op 0x3B,
  .nl, .id 0x7365745F626974, .paren, .op 0x26, .id 0x415344465F434F4C4D4F44455F504F5254, .op 0x2C,
  .id 0x415344465F434F4C4D4F44455F424954, .op 0x29, .op 0x3B, .nl, .id 0x7365745F626974, .paren, .op 0x26,
  .id 0x415344465F434F4C4D4F44455F444452, .op 0x2C, .id 0x415344465F434F4C4D4F44455F424954, .op 0x29,
  .op 0x3B, .nl, .id 0x636C6561725F626974, .paren, .op 0x26, .id 0x415344465F434F4C5F444452, .op 0x2C,
  .id 0x415344465F434F4C5F424954, .op 0x29, .op 0x3B, .nl, .id 0x636C6561725F626974, .paren, .op 0x26,
  .id 0x415344465F434F4C5F504F5254, .op 0x2C, .id 0x415344465F434F4C5F424954, .op 0x29, .op 0x3B, .nl,
  .op 0x7D, .nl, .id 0x737461746963, .id 0x766F6964,
  .id 0x617364665F617263685F696E69745F726F775F6F757470757473, .paren, .id 0x766F6964, .op 0x29, .nl, .op 0x7B,
  .nl, .id 0x415344465F524F575F504F5254, .op 0x263D, .op 0x7E, .id 0x415344465F524F575F4D41534B, .op 0x3B,
  .nl, .id 0x415344465F524F575F444452, .op 0x7C3D, .id 0x415344465F524F575F4D41534B, .op 0x3B, .nl, .op 0x7D,
  .nl, .id 0x766F6964, .id 0x617364665F617263685F70756C73655F64656C61795F73686F7274, .paren, .id 0x766F6964,
  .op 0x29, .nl, .op 0x7B, .nl, .id 0x5F64656C61795F7573, .paren,
  .id 0x415344465F50554C53455F44454C41595F53484F52545F5553, .op 0x29, .op 0x3B, .nl, .op 0x7D, .nl,
  .id 0x766F6964, .id 0x617364665F617263685F70756C73655F64656C61795F6C6F6E67, .paren, .id 0x766F6964,
  .op 0x29, .nl, .op 0x7B, .nl, .id 0x5F64656C61795F6D73, .paren,
  .id 0x415344465F50554C53455F44454C41595F4C4F4E475F4D53, .op 0x29, .op 0x3B, .nl, .op 0x7D, .nl,
  .id 0x766F6964, .id 0x617364665F617263685F64656C61795F6D73, .paren, .id 0x75696E7431365F74,
  .id 0x64656C61795F6D73, .op 0x29, .nl, .op 0x7B, .nl, .id 0x666F72, .op 0x28, .id 0x75696E7431365F74,
  .id 0x69, .op 0x3D, .num 0 false, .op 0x3B, .id 0x69, .op 0x3C, .id 0x64656C61795F6D73, .op 0x3B, .id 0x69,
  .op 0x2B2B, .op 0x29, .op 0x7B, .nl, .id 0x5F64656C61795F6D73, .paren, .num 1 false, .op 0x29, .op 0x3B,
  .nl, .op 0x7D, .nl, .op 0x7D, .nl, .id 0x766F6964, .id 0x617364665F617263685F696E6974, .paren,
  .id 0x766F6964, .op 0x29, .nl, .op 0x7B, .nl, .id 0x636C69, .paren, .op 0x29, .op 0x3B, .nl, .id 0x7469636B,
  .op 0x3D, .num 0 false, .op 0x3B, .nl, .id 0x617364665F617263685F696E69745F636C6F636B, .paren, .op 0x29,
  .op 0x3B, .nl, .id 0x617364665F617263685F7469636B5F74696D65725F696E6974, .paren, .op 0x29, .op 0x3B, .nl,
  .id 0x617364665F617263685F696E69745F61736369695F6F7574707574, .paren, .op 0x29, .op 0x3B, .nl,
  .id 0x646174615F706F6C6172697479, .op 0x3D, .id 0x415344465F44454641554C545F444154415F504F4C4152495459,
  .op 0x3B, .nl, .id 0x6966, .op 0x28, .id 0x415344465F44454641554C545F5354524F42455F504F4C4152495459,
  .op 0x3D3D, .id 0x415344465F504F5349544956455F504F4C4152495459, .op 0x29, .op 0x7B, .nl,
  .id 0x617364665F617263685F7365745F706F735F7374726F6265, .paren, .op 0x29, .op 0x3B, .nl, .op 0x7D,
  .id 0x656C7365, .op 0x7B, .nl, .id 0x617364665F617263685F7365745F6E65675F7374726F6265, .paren, .op 0x29,
  .op 0x3B, .nl, .op 0x7D, .nl, .id 0x617364665F617263685F696E69745F6C656473, .paren, .op 0x29, .op 0x3B, .nl,
  .id 0x617364665F617263685F696E69745F6C656473, .paren, .op 0x29, .op 0x3B, .nl,
  .id 0x617364665F617263685F696E69745F726F775F6F757470757473, .paren, .op 0x29, .op 0x3B, .nl,
  .id 0x617364665F617263685F696E69745F636F6C756D6E5F636F6E74726F6C, .paren, .op 0x29, .op 0x3B, .nl,
  .id 0x736569, .paren, .op 0x29, .op 0x3B, .nl, .op 0x7D, .nl, .id 0x617364665F636F6C735F74,
  .id 0x617364665F617263685F726561645F726F77, .paren, .id 0x75696E74385F74, .id 0x726F77, .op 0x29, .nl,
  .op 0x7B, .nl, .id 0x617364665F636F6C735F74, .id 0x636F6C73, .op 0x3D, .num 0 false, .op 0x3B, .nl,
  .id 0x415344465F524F575F504F5254, .op 0x3D, .op 0x28, .id 0x415344465F524F575F504F5254, .op 0x26, .op 0x7E,
  .id 0x415344465F524F575F4D41534B, .op 0x29, .nl, .op 0x7C, .op 0x28, .op 0x28, .id 0x726F77, .op 0x26,
  .id 0x415344465F524F575F4D41534B, .op 0x29, .op 0x3C3C, .id 0x415344465F524F575F4F4646534554, .op 0x29,
  .op 0x3B, .nl, .id 0x636C6561725F626974, .paren, .op 0x26, .id 0x415344465F434F4C4D4F44455F504F5254,
  .op 0x2C, .id 0x415344465F434F4C4D4F44455F424954, .op 0x29, .op 0x3B, .nl, .id 0x7365745F626974, .paren,
  .op 0x26, .id 0x415344465F434F4C434C4B5F504F5254, .op 0x2C, .id 0x415344465F434F4C434C4B5F424954, .op 0x29,
  .op 0x3B, .nl, .id 0x636C6561725F626974, .paren, .op 0x26, .id 0x415344465F434F4C434C4B5F504F5254, .op 0x2C,
  .id 0x415344465F434F4C434C4B5F424954, .op 0x29, .op 0x3B, .nl, .id 0x7365745F626974, .paren, .op 0x26,
  .id 0x415344465F434F4C4D4F44455F504F5254, .op 0x2C, .id 0x415344465F434F4C4D4F44455F424954, .op 0x29,
  .op 0x3B, .nl, .id 0x666F72, .op 0x28, .id 0x75696E74385F74, .id 0x69, .op 0x3D, .num 0 false, .op 0x3B,
  .id 0x69, .op 0x3C, .id 0x415344465F4D41585F434F4C53, .op 0x3B, .id 0x69, .op 0x2B2B, .op 0x29, .op 0x7B,
  .nl, .id 0x636F6C73, .op 0x7C3D, .op 0x28, .op 0x28, .op 0x28, .op 0x7E, .op 0x28,
  .id 0x415344465F434F4C5F50494E, .op 0x29, .op 0x3E3E, .id 0x415344465F434F4C5F424954, .op 0x29, .op 0x26,
  .num 1 false, .op 0x29, .op 0x3C3C, .id 0x69, .op 0x29, .op 0x3B, .nl, .id 0x7365745F626974, .paren,
  .op 0x26, .id 0x415344465F434F4C434C4B5F504F5254, .op 0x2C, .id 0x415344465F434F4C434C4B5F424954, .op 0x29,
  .op 0x3B, .nl, .id 0x636C6561725F626974, .paren, .op 0x26, .id 0x415344465F434F4C434C4B5F504F5254, .op 0x2C,
  .id 0x415344465F434F4C434C4B5F424954, .op 0x29, .op 0x3B, .nl, .op 0x7D, .nl, .id 0x72657475726E,
  .id 0x636F6C73, .op 0x3B, .nl, .op 0x7D, .nl, .id 0x766F6964, .id 0x617364665F617263685F73656E645F636F6465,
  .paren, .id 0x617364665F6B6579636F64655F74, .id 0x636F6465, .op 0x29, .nl, .op 0x7B, .nl,
  .id 0x415344465F41534349495F504F5254, .op 0x3D, .op 0x28, .id 0x636F6465, .op 0x5E,
  .id 0x646174615F706F6C6172697479, .op 0x29, .op 0x3B, .nl, .id 0x7365745F626974, .paren, .op 0x26,
  .id 0x415344465F5354524F42455F50494E, .op 0x2C, .id 0x415344465F5354524F42455F424954, .op 0x29, .op 0x3B,
  .nl, .id 0x5F64656C61795F7573, .paren, .id 0x415344465F5354524F42455F4C454E4754485F5553, .op 0x29, .op 0x3B,
  .nl, .id 0x7365745F626974, .paren, .op 0x26, .id 0x415344465F5354524F42455F50494E, .op 0x2C,
  .id 0x415344465F5354524F42455F424954, .op 0x29, .op 0x3B, .nl, .op 0x7D, .nl]

/-- The tokens of /repo/firmware/asdf/src/Arch/asdf_arch_atmega2560.c. -/
def asdf_arch_atmega2560_c : List Tok := [
  .nl, .op 0x23, .id 0x696E636C756465, .str [97, 115, 100, 102, 95, 97, 114, 99, 104, 46, 104], .nl, .op 0x23,
  .id 0x696E636C756465, .op 0x3C, .id 0x617672, .op 0x2F, .id 0x696F, .op 0x2E, .id 0x68, .op 0x3E, .nl,
  .op 0x23, .id 0x696E636C756465, .op 0x3C, .id 0x617672, .op 0x2F, .id 0x696E74657272757074, .op 0x2E,
  .id 0x68, .op 0x3E, .nl, .op 0x23, .id 0x696E636C756465, .op 0x3C, .id 0x7574696C, .op 0x2F,
  .id 0x64656C6179, .op 0x2E, .id 0x68, .op 0x3E, .nl, .op 0x23, .id 0x696E636C756465, .op 0x3C,
  .id 0x737464696E74, .op 0x2E, .id 0x68, .op 0x3E, .nl, .op 0x23, .id 0x696E636C756465,
  .str [97, 115, 100, 102, 95, 99, 111, 110, 102, 105, 103, 46, 104], .nl, .id 0x737461746963,
  .id 0x766F6C6174696C65, .id 0x75696E74385F74, .id 0x7469636B, .op 0x3D, .num 0 false, .op 0x3B, .nl,
  .id 0x737461746963, .id 0x75696E74385F74, .id 0x646174615F706F6C6172697479, .op 0x3D,
  .id 0x415344465F44454641554C545F444154415F504F4C4152495459, .op 0x3B, .nl, .id 0x495352, .paren,
  .id 0x54494D4552305F434F4D50415F76656374, .op 0x29, .nl, .op 0x7B, .nl, .id 0x7469636B, .op 0x3D,
  .num 1 false, .op 0x3B, .nl, .op 0x7D, .nl, .id 0x737461746963, .id 0x696E6C696E65, .id 0x766F6964,
  .id 0x7365745F626974, .paren, .id 0x766F6C6174696C65, .id 0x75696E74385F74, .op 0x2A, .id 0x706F7274,
  .op 0x2C, .id 0x75696E74385F74, .id 0x626974, .op 0x29, .nl, .op 0x7B, .nl, .op 0x2A, .id 0x706F7274,
  .op 0x7C3D, .op 0x28, .num 1 false, .op 0x3C3C, .id 0x626974, .op 0x29, .op 0x3B, .nl, .op 0x7D, .nl,
  .id 0x737461746963, .id 0x696E6C696E65, .id 0x766F6964, .id 0x636C6561725F626974, .paren,
  .id 0x766F6C6174696C65, .id 0x75696E74385F74, .op 0x2A, .id 0x706F7274, .op 0x2C, .id 0x75696E74385F74,
  .id 0x626974, .op 0x29, .nl, .op 0x7B, .nl, .op 0x2A, .id 0x706F7274, .op 0x263D, .op 0x7E, .op 0x28,
  .num 1 false, .op 0x3C3C, .id 0x626974, .op 0x29, .op 0x3B, .nl, .op 0x7D, .nl, .id 0x737461746963,
  .id 0x766F6964, .id 0x617263685F74696D6572305F636F6E666967, .paren, .id 0x75696E7433325F74, .id 0x62697473,
  .op 0x29, .nl, .op 0x7B, .nl, .id 0x544343523042, .op 0x3D, .num 0 false, .op 0x3B, .nl, .id 0x544343523041,
  .op 0x3D, .op 0x28, .id 0x62697473, .op 0x3E3E, .id 0x544D5230415F504F53, .op 0x29, .op 0x26,
  .num 255 false, .op 0x3B, .nl, .id 0x54494D534B30, .op 0x3D, .op 0x28, .id 0x62697473, .op 0x3E3E,
  .id 0x544D5230494D534B5F504F53, .op 0x29, .op 0x26, .num 255 false, .op 0x3B, .nl, .id 0x544343523042,
  .op 0x3D, .op 0x28, .id 0x62697473, .op 0x3E3E, .id 0x544D5230425F504F53, .op 0x29, .op 0x26,
  .num 255 false, .op 0x3B, .nl, .op 0x7D, .nl, .id 0x737461746963, .id 0x766F6964,
  .id 0x617364665F617263685F7469636B5F74696D65725F696E6974, .paren, .id 0x766F6964, .op 0x29, .nl, .op 0x7B,
  .nl, .id 0x7469636B, .op 0x3D, .num 0 false, .op 0x3B, .nl, .id 0x4F43523041, .op 0x3D,
  .id 0x5449434B5F434F554E54, .op 0x3B, .nl, .id 0x617263685F74696D6572305F636F6E666967, .paren,
  .id 0x54494D4552305F57464D5F435443, .op 0x7C, .id 0x54494D4552305F4449563634, .op 0x7C,
  .id 0x54494D4552305F494E545F4F4E5F434F4D41, .op 0x29, .op 0x3B, .nl, .op 0x7D, .nl, .id 0x75696E74385F74,
  .id 0x617364665F617263685F7469636B, .paren, .id 0x766F6964, .op 0x29, .nl, .op 0x7B, .nl,
  .id 0x75696E74385F74, .id 0x72657476616C, .op 0x3D, .id 0x7469636B, .op 0x3B, .nl, .id 0x7469636B, .op 0x3D,
  .num 0 false, .op 0x3B, .nl, .id 0x72657475726E, .id 0x72657476616C, .op 0x3B, .nl, .op 0x7D, .nl,
  .id 0x737461746963, .id 0x766F6964, .id 0x617364665F617263685F696E69745F636C6F636B, .paren, .id 0x766F6964,
  .op 0x29, .nl, .op 0x7B, .nl, .id 0x434C4B5052, .op 0x3D, .op 0x28, .id 0x434C4B504345, .op 0x7C,
  .id 0x535953434C4B5F44495631, .op 0x29, .op 0x3B, .nl, .op 0x7D, .nl, .id 0x737461746963, .id 0x766F6964,
  .id 0x617364665F617263685F696E69745F6C656473, .paren, .id 0x766F6964, .op 0x29, .nl, .op 0x7B, .nl,
  .id 0x7365745F626974, .paren, .op 0x26, .id 0x415344465F4C4544315F444452, .op 0x2C,
  .id 0x415344465F4C4544315F424954, .op 0x29, .op 0x3B, .nl, .id 0x7365745F626974, .paren, .op 0x26,
  .id 0x415344465F4C4544325F444452, .op 0x2C, .id 0x415344465F4C4544325F424954, .op 0x29, .op 0x3B, .nl,
  .id 0x7365745F626974, .paren, .op 0x26, .id 0x415344465F4C4544335F444452, .op 0x2C,
  .id 0x415344465F4C4544335F424954, .op 0x29, .op 0x3B, .nl, .op 0x7D, .nl, .id 0x766F6964,
  .id 0x617364665F617263685F6C6564315F736574, .paren, .id 0x75696E74385F74, .id 0x76616C7565, .op 0x29, .nl,
  .op 0x7B, .nl, .id 0x6966, .op 0x28, .id 0x76616C7565, .op 0x29, .op 0x7B, .nl, .id 0x636C6561725F626974,
  .paren, .op 0x26, .id 0x415344465F4C4544315F504F5254, .op 0x2C, .id 0x415344465F4C4544315F424954, .op 0x29,
  .op 0x3B, .nl, .op 0x7D, .nl, .id 0x656C7365, .op 0x7B, .nl, .id 0x7365745F626974, .paren, .op 0x26,
  .id 0x415344465F4C4544315F504F5254, .op 0x2C, .id 0x415344465F4C4544315F424954, .op 0x29, .op 0x3B, .nl,
  .op 0x7D, .nl, .op 0x7D, .nl, .id 0x766F6964, .id 0x617364665F617263685F6C6564325F736574, .paren,
  .id 0x75696E74385F74, .id 0x76616C7565, .op 0x29, .nl, .op 0x7B, .nl, .id 0x6966, .op 0x28,
  .id 0x76616C7565, .op 0x29, .op 0x7B, .nl, .id 0x636C6561725F626974, .paren, .op 0x26,
  .id 0x415344465F4C4544325F504F5254, .op 0x2C, .id 0x415344465F4C4544325F424954, .op 0x29, .op 0x3B, .nl,
  .op 0x7D, .nl, .id 0x656C7365, .op 0x7B, .nl, .id 0x7365745F626974, .paren, .op 0x26,
  .id 0x415344465F4C4544325F504F5254, .op 0x2C, .id 0x415344465F4C4544325F424954, .op 0x29, .op 0x3B, .nl,
  .op 0x7D, .nl, .op 0x7D, .nl, .id 0x766F6964, .id 0x617364665F617263685F6C6564335F736574, .paren,
  .id 0x75696E74385F74, .id 0x76616C7565, .op 0x29, .nl, .op 0x7B, .nl, .id 0x6966, .op 0x28,
  .id 0x76616C7565, .op 0x29, .op 0x7B, .nl, .id 0x636C6561725F626974, .paren, .op 0x26,
  .id 0x415344465F4C4544335F504F5254, .op 0x2C, .id 0x415344465F4C4544335F424954, .op 0x29, .op 0x3B, .nl,
  .op 0x7D, .nl, .id 0x656C7365, .op 0x7B, .nl, .id 0x7365745F626974, .paren, .op 0x26,
  .id 0x415344465F4C4544335F504F5254, .op 0x2C, .id 0x415344465F4C4544335F424954, .op 0x29, .op 0x3B, .nl,
  .op 0x7D, .nl, .op 0x7D, .nl, .id 0x766F6964, .id 0x617364665F617263685F6E756C6C5F6F7574707574, .paren,
  .id 0x75696E74385F74, .id 0x76616C7565, .op 0x29, .nl, .op 0x7B, .nl, .op 0x28, .id 0x766F6964, .op 0x29,
  .id 0x76616C7565, .op 0x3B, .nl, .op 0x7D, .nl, .id 0x766F6964, .id 0x617364665F617263685F6F7574315F736574,
  .paren, .id 0x75696E74385F74, .id 0x76616C7565, .op 0x29, .nl, .op 0x7B, .nl, .id 0x6966, .op 0x28,
  .id 0x76616C7565, .op 0x29, .op 0x7B, .nl, .id 0x7365745F626974, .paren, .op 0x26,
  .id 0x415344465F4F5554315F504F5254, .op 0x2C, .id 0x415344465F4F5554315F424954, .op 0x29, .op 0x3B, .nl,
  .op 0x7D, .nl, .id 0x656C7365, .op 0x7B, .nl, .id 0x636C6561725F626974, .paren, .op 0x26,
  .id 0x415344465F4F5554315F504F5254, .op 0x2C, .id 0x415344465F4F5554315F424954, .op 0x29, .op 0x3B, .nl,
  .op 0x7D, .nl, .id 0x7365745F626974, .paren, .op 0x26, .id 0x415344465F4F5554315F444452, .op 0x2C,
  .id 0x415344465F4F5554315F424954, .op 0x29, .op 0x3B, .nl, .op 0x7D, .nl, .id 0x766F6964,
  .id 0x617364665F617263685F6F7574315F6F70656E5F68695F736574, .paren, .id 0x75696E74385F74, .id 0x76616C7565,
  .op 0x29, .nl, .op 0x7B, .nl, .id 0x6966, .op 0x28, .id 0x76616C7565, .op 0x29, .op 0x7B, .nl,
  .id 0x636C6561725F626974, .paren, .op 0x26, .id 0x415344465F4F5554315F444452, .op 0x2C,
  .id 0x415344465F4F5554315F424954, .op 0x29, .op 0x3B, .nl, .id 0x7365745F626974, .paren, .op 0x26,
  .id 0x415344465F4F5554315F504F5254, .op 0x2C, .id 0x415344465F4F5554315F424954, .op 0x29, .op 0x3B, .nl,
  .op 0x7D, .nl, .id 0x656C7365, .op 0x7B, .nl, .id 0x636C6561725F626974, .paren, .op 0x26,
  .id 0x415344465F4F5554315F504F5254, .op 0x2C, .id 0x415344465F4F5554315F424954, .op 0x29, .op 0x3B, .nl,
  .id 0x7365745F626974, .paren, .op 0x26, .id 0x415344465F4F5554315F444452, .op 0x2C,
  .id 0x415344465F4F5554315F424954, .op 0x29, .op 0x3B, .nl, .op 0x7D, .nl, .op 0x7D, .nl, .id 0x766F6964,
  .id 0x617364665F617263685F6F7574315F6F70656E5F6C6F5F736574, .paren, .id 0x75696E74385F74, .id 0x76616C7565,
  .op 0x29, .nl, .op 0x7B, .nl, .id 0x6966, .op 0x28, .id 0x76616C7565, .op 0x29, .op 0x7B, .nl,
  .id 0x7365745F626974, .paren, .op 0x26, .id 0x415344465F4F5554315F504F5254, .op 0x2C,
  .id 0x415344465F4F5554315F424954, .op 0x29, .op 0x3B, .nl, .id 0x7365745F626974, .paren, .op 0x26,
  .id 0x415344465F4F5554315F444452, .op 0x2C, .id 0x415344465F4F5554315F424954, .op 0x29, .op 0x3B, .nl,
  .op 0x7D, .nl, .id 0x656C7365, .op 0x7B, .nl, .id 0x636C6561725F626974, .paren, .op 0x26,
  .id 0x415344465F4F5554315F444452, .op 0x2C, .id 0x415344465F4F5554315F424954, .op 0x29, .op 0x3B, .nl,
  .id 0x636C6561725F626974, .paren, .op 0x26, .id 0x415344465F4F5554315F504F5254, .op 0x2C,
  .id 0x415344465F4F5554315F424954, .op 0x29, .op 0x3B, .nl, .op 0x7D, .nl, .op 0x7D, .nl, .id 0x766F6964,
  .id 0x617364665F617263685F6F7574325F736574, .paren, .id 0x75696E74385F74, .id 0x76616C7565, .op 0x29, .nl,
  .op 0x7B, .nl, .id 0x6966, .op 0x28, .id 0x76616C7565, .op 0x29, .op 0x7B, .nl, .id 0x7365745F626974,
  .paren, .op 0x26, .id 0x415344465F4F5554325F504F5254, .op 0x2C, .id 0x415344465F4F5554325F424954, .op 0x29,
  .op 0x3B, .nl, .op 0x7D, .nl, .id 0x656C7365, .op 0x7B, .nl, .id 0x636C6561725F626974, .paren, .op 0x26,
  .id 0x415344465F4F5554325F504F5254, .op 0x2C, .id 0x415344465F4F5554325F424954, .op 0x29, .op 0x3B, .nl,
  .op 0x7D, .nl, .id 0x7365745F626974, .paren, .op 0x26, .id 0x415344465F4F5554325F444452, .op 0x2C,
  .id 0x415344465F4F5554325F424954, .op 0x29, .op 0x3B, .nl, .op 0x7D, .nl, .id 0x766F6964,
  .id 0x617364665F617263685F6F7574325F6F70656E5F68695F736574, .paren, .id 0x75696E74385F74, .id 0x76616C7565,
  .op 0x29, .nl, .op 0x7B, .nl, .id 0x6966, .op 0x28, .id 0x76616C7565, .op 0x29, .op 0x7B, .nl,
  .id 0x636C6561725F626974, .paren, .op 0x26, .id 0x415344465F4F5554325F444452, .op 0x2C,
  .id 0x415344465F4F5554325F424954, .op 0x29, .op 0x3B, .nl, .id 0x7365745F626974, .paren, .op 0x26,
  .id 0x415344465F4F5554325F504F5254, .op 0x2C, .id 0x415344465F4F5554325F424954, .op 0x29, .op 0x3B, .nl,
  .op 0x7D, .nl, .id 0x656C7365, .op 0x7B, .nl, .id 0x636C6561725F626974, .paren, .op 0x26,
  .id 0x415344465F4F5554325F504F5254, .op 0x2C, .id 0x415344465F4F5554325F424954, .op 0x29, .op 0x3B, .nl,
  .id 0x7365745F626974, .paren, .op 0x26, .id 0x415344465F4F5554325F444452, .op 0x2C,
  .id 0x415344465F4F5554325F424954, .op 0x29, .op 0x3B, .nl, .op 0x7D, .nl, .op 0x7D, .nl, .id 0x766F6964,
  .id 0x617364665F617263685F6F7574325F6F70656E5F6C6F5F736574, .paren, .id 0x75696E74385F74, .id 0x76616C7565,
  .op 0x29, .nl, .op 0x7B, .nl, .id 0x6966, .op 0x28, .id 0x76616C7565, .op 0x29, .op 0x7B, .nl,
  .id 0x7365745F626974, .paren, .op 0x26, .id 0x415344465F4F5554325F504F5254, .op 0x2C,
  .id 0x415344465F4F5554325F424954, .op 0x29, .op 0x3B, .nl, .id 0x7365745F626974, .paren, .op 0x26,
  .id 0x415344465F4F5554325F444452, .op 0x2C, .id 0x415344465F4F5554325F424954, .op 0x29, .op 0x3B, .nl,
  .op 0x7D, .nl, .id 0x656C7365, .op 0x7B, .nl, .id 0x636C6561725F626974, .paren, .op 0x26,
  .id 0x415344465F4F5554325F444452, .op 0x2C, .id 0x415344465F4F5554325F424954, .op 0x29, .op 0x3B, .nl,
  .id 0x636C6561725F626974, .paren, .op 0x26, .id 0x415344465F4F5554325F504F5254, .op 0x2C,
  .id 0x415344465F4F5554325F424954, .op 0x29, .op 0x3B, .nl, .op 0x7D, .nl, .op 0x7D, .nl, .id 0x766F6964,
  .id 0x617364665F617263685F6F7574335F736574, .paren, .id 0x75696E74385F74, .id 0x76616C7565, .op 0x29, .nl,
  .op 0x7B, .nl, .id 0x6966, .op 0x28, .id 0x76616C7565, .op 0x29, .op 0x7B, .nl, .id 0x7365745F626974,
  .paren, .op 0x26, .id 0x415344465F4F5554335F504F5254, .op 0x2C, .id 0x415344465F4F5554335F424954, .op 0x29,
  .op 0x3B, .nl, .op 0x7D, .nl, .id 0x656C7365, .op 0x7B, .nl, .id 0x636C6561725F626974, .paren, .op 0x26,
  .id 0x415344465F4F5554335F504F5254, .op 0x2C, .id 0x415344465F4F5554335F424954, .op 0x29, .op 0x3B, .nl,
  .op 0x7D, .nl, .id 0x7365745F626974, .paren, .op 0x26, .id 0x415344465F4F5554335F444452, .op 0x2C,
  .id 0x415344465F4F5554335F424954, .op 0x29, .op 0x3B, .nl, .op 0x7D, .nl, .id 0x766F6964,
  .id 0x617364665F617263685F6F7574335F6F70656E5F68695F736574, .paren, .id 0x75696E74385F74, .id 0x76616C7565,
  .op 0x29, .nl, .op 0x7B, .nl, .id 0x6966, .op 0x28, .id 0x76616C7565, .op 0x29, .op 0x7B, .nl,
  .id 0x636C6561725F626974, .paren, .op 0x26, .id 0x415344465F4F5554335F444452, .op 0x2C,
  .id 0x415344465F4F5554335F424954, .op 0x29, .op 0x3B, .nl, .id 0x7365745F626974, .paren, .op 0x26,
  .id 0x415344465F4F5554335F504F5254, .op 0x2C, .id 0x415344465F4F5554335F424954, .op 0x29, .op 0x3B, .nl,
  .op 0x7D, .nl, .id 0x656C7365, .op 0x7B, .nl, .id 0x636C6561725F626974, .paren, .op 0x26,
  .id 0x415344465F4F5554335F504F5254, .op 0x2C, .id 0x415344465F4F5554335F424954, .op 0x29, .op 0x3B, .nl,
  .id 0x7365745F626974, .paren, .op 0x26, .id 0x415344465F4F5554335F444452, .op 0x2C,
  .id 0x415344465F4F5554335F424954, .op 0x29, .op 0x3B, .nl, .op 0x7D, .nl, .op 0x7D, .nl, .id 0x766F6964,
  .id 0x617364665F617263685F6F7574335F6F70656E5F6C6F5F736574, .paren, .id 0x75696E74385F74, .id 0x76616C7565,
  .op 0x29, .nl, .op 0x7B, .nl, .id 0x6966, .op 0x28, .id 0x76616C7565, .op 0x29, .op 0x7B, .nl,
  .id 0x7365745F626974, .paren, .op 0x26, .id 0x415344465F4F5554335F504F5254, .op 0x2C,
  .id 0x415344465F4F5554335F424954, .op 0x29, .op 0x3B, .nl, .id 0x7365745F626974, .paren, .op 0x26,
  .id 0x415344465F4F5554335F444452, .op 0x2C, .id 0x415344465F4F5554335F424954, .op 0x29, .op 0x3B, .nl,
  .op 0x7D, .nl, .id 0x656C7365, .op 0x7B, .nl, .id 0x636C6561725F626974, .paren, .op 0x26,
  .id 0x415344465F4F5554335F444452, .op 0x2C, .id 0x415344465F4F5554335F424954, .op 0x29, .op 0x3B, .nl,
  .id 0x636C6561725F626974, .paren, .op 0x26, .id 0x415344465F4F5554335F504F5254, .op 0x2C,
  .id 0x415344465F4F5554335F424954, .op 0x29, .op 0x3B, .nl, .op 0x7D, .nl, .op 0x7D, .nl, .id 0x766F6964,
  .id 0x617364665F617263685F7365745F706F735F7374726F6265, .paren, .id 0x766F6964, .op 0x29, .nl, .op 0x7B,
  .nl, .id 0x636C6561725F626974, .paren, .op 0x26, .id 0x415344465F5354524F42455F504F5254, .op 0x2C,
  .id 0x415344465F5354524F42455F424954, .op 0x29, .op 0x3B, .nl, .id 0x7365745F626974, .paren, .op 0x26,
  .id 0x415344465F5354524F42455F444452, .op 0x2C, .id 0x415344465F5354524F42455F424954, .op 0x29, .op 0x3B,
  .nl, .op 0x7D, .nl, .id 0x766F6964, .id 0x617364665F617263685F7365745F6E65675F7374726F6265, .paren,
  .id 0x766F6964, .op 0x29, .nl, .op 0x7B, .nl, .id 0x7365745F626974, .paren, .op 0x26,
  .id 0x415344465F5354524F42455F504F5254, .op 0x2C, .id 0x415344465F5354524F42455F424954, .op 0x29, .op 0x3B,
  .nl, .id 0x7365745F626974, .paren, .op 0x26, .id 0x415344465F5354524F42455F444452, .op 0x2C,
  .id 0x415344465F5354524F42455F424954, .op 0x29, .op 0x3B, .nl, .op 0x7D, .nl, .id 0x737461746963,
  .id 0x766F6964, .id 0x617364665F617263685F696E69745F61736369695F6F7574707574, .paren, .id 0x766F6964,
  .op 0x29, .nl, .op 0x7B, .nl, .id 0x415344465F41534349495F504F5254, .op 0x3D,
  .id 0x646174615F706F6C6172697479, .op 0x3B, .nl, .id 0x415344465F41534349495F444452, .op 0x3D,
  .id 0x414C4C5F4F555450555453, .op 0x3B, .nl, .op 0x7D, .nl, .id 0x737461746963, .id 0x766F6964,
  .id 0x617364665F617263685F696E69745F636F6C756D6E73, .paren, .id 0x766F6964, .op 0x29, .nl, .op 0x7B, .nl,
  .id 0x415344465F434F4C554D4E535F444452, .op 0x3D, .id 0x414C4C5F494E50555453, .op 0x3B, .nl,
  .id 0x415344465F434F4C554D4E535F504F5254, .op 0x3D, .id 0x414C4C5F50554C4C555053, .op 0x3B, .nl, .op 0x7D,
  .nl, .id 0x737461746963, .id 0x766F6964, .id 0x617364665F617263685F696E69745F726F775F6F757470757473, .paren,
  .id 0x766F6964, .op 0x29, .nl, .op 0x7B, .nl, .id 0x415344465F4849524F575F444452, .op 0x3D,
  .id 0x414C4C5F4F555450555453, .op 0x3B, .nl, .id 0x415344465F4C4F524F575F444452, .op 0x3D,
  .id 0x414C4C5F4F555450555453, .op 0x3B, .nl, .op 0x7D, .nl, .id 0x766F6964,
  .id 0x617364665F617263685F70756C73655F64656C61795F73686F7274, .paren, .id 0x766F6964, .op 0x29, .nl,
  .op 0x7B, .nl, .id 0x5F64656C61795F7573, .paren, .id 0x415344465F50554C53455F44454C41595F53484F52545F5553,
  .op 0x29, .op 0x3B, .nl, .op 0x7D, .nl, .id 0x766F6964,
  .id 0x617364665F617263685F70756C73655F64656C61795F6C6F6E67, .paren, .id 0x766F6964, .op 0x29, .nl, .op 0x7B,
  .nl, .id 0x5F64656C61795F6D73, .paren, .id 0x415344465F50554C53455F44454C41595F4C4F4E475F4D53, .op 0x29,
  .op 0x3B, .nl, .op 0x7D, .nl, .id 0x766F6964, .id 0x617364665F617263685F64656C61795F6D73, .paren,
  .id 0x75696E7431365F74, .id 0x64656C61795F6D73, .op 0x29, .nl, .op 0x7B, .nl, .id 0x666F72, .op 0x28,
  .id 0x75696E7431365F74, .id 0x69, .op 0x3D, .num 0 false, .op 0x3B, .id 0x69, .op 0x3C,
  .id 0x64656C61795F6D73, .op 0x3B, .id 0x69, .op 0x2B2B, .op 0x29, .op 0x7B, .nl, .id 0x5F64656C61795F6D73,
  .paren, .num 1 false, .op 0x29, .op 0x3B, .nl, .op 0x7D, .nl, .op 0x7D, .nl, .id 0x766F6964,
  .id 0x617364665F617263685F696E6974, .paren, .id 0x766F6964, .op 0x29, .nl, .op 0x7B, .nl, .id 0x636C69,
  .paren, .op 0x29, .op 0x3B, .nl, .id 0x7469636B, .op 0x3D, .num 0 false, .op 0x3B, .nl,
  .id 0x617364665F617263685F696E69745F636C6F636B, .paren, .op 0x29, .op 0x3B, .nl,
  .id 0x617364665F617263685F7469636B5F74696D65725F696E6974, .paren, .op 0x29, .op 0x3B, .nl,
  .id 0x617364665F617263685F696E69745F61736369695F6F7574707574, .paren, .op 0x29, .op 0x3B, .nl,
  .id 0x646174615F706F6C6172697479, .op 0x3D, .id 0x415344465F44454641554C545F444154415F504F4C4152495459,
  .op 0x3B, .nl, .id 0x6966, .op 0x28, .id 0x415344465F44454641554C545F5354524F42455F504F4C4152495459,
  .op 0x3D3D, .id 0x415344465F504F5349544956455F504F4C4152495459, .op 0x29, .op 0x7B, .nl,
  .id 0x617364665F617263685F7365745F706F735F7374726F6265, .paren, .op 0x29, .op 0x3B, .nl, .op 0x7D,
  .id 0x656C7365, .op 0x7B, .nl, .id 0x617364665F617263685F7365745F6E65675F7374726F6265, .paren, .op 0x29,
  .op 0x3B, .nl, .op 0x7D, .nl, .id 0x617364665F617263685F696E69745F6C656473, .paren, .op 0x29, .op 0x3B, .nl,
  .id 0x617364665F617263685F696E69745F726F775F6F757470757473, .paren, .op 0x29, .op 0x3B, .nl,
  .id 0x617364665F617263685F696E69745F636F6C756D6E73, .paren, .op 0x29, .op 0x3B, .nl, .id 0x736569, .paren,
  .op 0x29, .op 0x3B, .nl, .op 0x7D, .nl, .id 0x617364665F636F6C735F74,
  .id 0x617364665F617263685F726561645F726F77, .paren, .id 0x75696E74385F74, .id 0x726F77, .op 0x29, .nl,
  .op 0x7B, .nl, .id 0x75696E7433325F74, .id 0x726F7773, .op 0x3D, .op 0x7E, .op 0x28, .num 1 true,
  .op 0x3C3C, .id 0x726F77, .op 0x29, .op 0x3B, .nl, .id 0x415344465F4C4F524F575F504F5254, .op 0x3D, .op 0x28,
  .id 0x75696E74385F74, .op 0x29, .op 0x28, .id 0x726F7773, .op 0x26, .num 255 false, .op 0x29, .op 0x3B, .nl,
  .id 0x5F64656C61795F7573, .paren,
  .id 0x415344465F4B4559424F4152445F524F575F534554544C494E475F54494D455F5553, .op 0x29, .op 0x3B, .nl,
  .id 0x415344465F4849524F575F504F5254, .op 0x3D, .op 0x28, .id 0x75696E74385F74, .op 0x29, .op 0x28,
  .op 0x28, .id 0x726F7773, .op 0x3E3E, .num 8 false, .op 0x29, .op 0x26, .num 255 false, .op 0x29, .op 0x3B,
  .nl, .id 0x5F64656C61795F7573, .paren,
  .id 0x415344465F4B4559424F4152445F524F575F534554544C494E475F54494D455F5553, .op 0x29, .op 0x3B, .nl,
  .id 0x72657475726E, .op 0x7E, .op 0x28, .id 0x617364665F636F6C735F74, .op 0x29,
  .id 0x415344465F434F4C554D4E535F50494E, .op 0x3B, .nl, .op 0x7D, .nl, .id 0x617364665F636F6C735F74,
  .id 0x617364665F617263685F6F73695F726561645F726F77, .paren, .id 0x75696E74385F74, .id 0x726F77, .op 0x29,
  .nl, .op 0x7B, .nl, .id 0x617364665F636F6C735F74, .id 0x636F6C73, .op 0x3B, .nl, .id 0x6966, .op 0x28,
  .id 0x726F77, .op 0x3E, .num 7 false, .op 0x29, .op 0x7B, .nl, .id 0x636F6C73, .op 0x3D,
  .id 0x617364665F617263685F726561645F726F77, .paren, .id 0x726F77, .op 0x29, .op 0x3B, .nl, .op 0x7D, .nl,
  .id 0x656C7365, .op 0x7B, .nl, .id 0x636C6561725F626974, .paren, .op 0x26,
  .id 0x415344465F4F53495F4B42455F504F5254, .op 0x2C, .id 0x415344465F4F53495F4B42455F424954, .op 0x29,
  .op 0x3B, .nl, .id 0x415344465F434F4C554D4E535F444452, .op 0x3D, .id 0x414C4C5F4F555450555453, .op 0x3B,
  .nl, .id 0x415344465F434F4C554D4E535F504F5254, .op 0x3D, .op 0x28, .num 1 false, .op 0x3C3C, .id 0x726F77,
  .op 0x29, .op 0x3B, .nl, .id 0x636C6561725F626974, .paren, .op 0x26, .id 0x415344465F4F53495F52575F504F5254,
  .op 0x2C, .id 0x415344465F4F53495F52575F424954, .op 0x29, .op 0x3B, .nl, .id 0x7365745F626974, .paren,
  .op 0x26, .id 0x415344465F4F53495F52575F504F5254, .op 0x2C, .id 0x415344465F4F53495F52575F424954, .op 0x29,
  .op 0x3B, .nl, .id 0x415344465F434F4C554D4E535F444452, .op 0x3D, .id 0x414C4C5F494E50555453, .op 0x3B, .nl,
  .id 0x72657475726E, .id 0x415344465F434F4C554D4E535F50494E, .op 0x3B, .nl,
  .id 0x415344465F4C4F524F575F504F5254, .op 0x3D, .id 0x726F77, .op 0x26, .num 255 false, .op 0x3B, .nl,
  .id 0x636F6C73, .op 0x3D, .op 0x28, .id 0x617364665F636F6C735F74, .op 0x29,
  .id 0x415344465F434F4C554D4E535F504F5254, .op 0x3B, .nl, .op 0x7D, .nl, .id 0x72657475726E, .id 0x636F6C73,
  .op 0x3B, .nl, .op 0x7D, .nl, .id 0x766F6964, .id 0x617364665F617263685F73656E645F636F6465, .paren,
  .id 0x617364665F6B6579636F64655F74, .id 0x636F6465, .op 0x29, .nl, .op 0x7B, .nl,
  .id 0x415344465F41534349495F504F5254, .op 0x3D, .op 0x28, .id 0x636F6465, .op 0x5E,
  .id 0x646174615F706F6C6172697479, .op 0x29, .op 0x3B, .nl, .id 0x7365745F626974, .paren, .op 0x26,
  .id 0x415344465F5354524F42455F50494E, .op 0x2C, .id 0x415344465F5354524F42455F424954, .op 0x29, .op 0x3B,
  .nl, .id 0x5F64656C61795F7573, .paren, .id 0x415344465F5354524F42455F4C454E4754485F5553, .op 0x29, .op 0x3B,
  .nl, .id 0x7365745F626974, .paren, .op 0x26, .id 0x415344465F5354524F42455F50494E, .op 0x2C,
  .id 0x415344465F5354524F42455F424954, .op 0x29, .op 0x3B, .nl, .op 0x7D, .nl]

end Asdf.C.Tokens
