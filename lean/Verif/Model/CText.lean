/-! # The text of the firmware

Generated by `tools/ctext.py`: the C files of the firmware and the list of key maps, line by
line, unchanged; do not edit.  A line is the number whose digits, base 256, are its bytes;
the comment shows it. -/

namespace Asdf.C.Text

/-- /repo/firmware/asdf/keymap_list.cmake, lines 1-8. -/
def keymap_list_cmake : List Nat := [
  0x6C69737428415050454E44206B65796D61705F6C697374 -- list(APPEND keymap_list
, 0x2020223C636C61737369633A303E22 --   "<classic:0>"
, 0x2020223C636C61737369635F636170733A313E22 --   "<classic_caps:1>"
, 0x2020223C6170706C65323A323E22 --   "<apple2:2>"
, 0x2020223C6170706C65325F636170733A333E22 --   "<apple2_caps:3>"
, 0x2020223C736F6C3A343E22 --   "<sol:4>"
, 0x2020223C616365313030303A353E22 --   "<ace1000:5>"
, 0x202029 --   )
  ]

/-- /repo/firmware/asdf/src/asdf.h, lines 1-164. -/
def asdf_h : List Nat := [
  0x2F2F202D2A2D206D6F64653A20433B207461622D77696474683A2034203B20696E64656E742D746162732D6D6F64653A206E696C202D2A2D -- // -*- mode: C; tab-width: 4 ; indent-tabs-mode: nil -*-
, 0x2F2F -- //
, 0x2F2F20556E6976657273616C204B6579626F6172642050726F6A656374 -- // Universal Keyboard Project
, 0x2F2F2041534446206B6579626F617264206669726D77617265 -- // ASDF keyboard firmware
, 0x2F2F -- //
, 0x2F2F20617364662E68 -- // asdf.h
, 0x2F2F -- //
, 0x2F2F20436F7079726967687420323031392044617669642046656E796573 -- // Copyright 2019 David Fenyes
, 0x2F2F -- //
, 0x2F2F20546869732070726F6772616D206973206672656520736F6674776172653A20796F752063616E2072656469737472696275746520697420616E642F6F72206D6F6469667920697420756E646572 -- // This program is free software: you can redistribute it and/or modify it under
, 0x2F2F20746865207465726D73206F662074686520474E552047656E6572616C205075626C6963204C6963656E7365206173207075626C697368656420627920746865204672656520536F667477617265 -- // the terms of the GNU General Public License as published by the Free Software
, 0x2F2F20466F756E646174696F6E2C206569746865722076657273696F6E2033206F6620746865204C6963656E73652C206F722028617420796F7572206F7074696F6E2920616E79206C61746572 -- // Foundation, either version 3 of the License, or (at your option) any later
, 0x2F2F2076657273696F6E2E -- // version.
, 0x2F2F -- //
, 0x2F2F20546869732070726F6772616D20697320646973747269627574656420696E2074686520686F706520746861742069742077696C6C2062652075736566756C2C2062757420574954484F5554 -- // This program is distributed in the hope that it will be useful, but WITHOUT
, 0x2F2F20414E592057415252414E54593B20776974686F7574206576656E2074686520696D706C6965642077617272616E7479206F66204D45524348414E544142494C495459206F72204649544E455353 -- // ANY WARRANTY; without even the implied warranty of MERCHANTABILITY or FITNESS
, 0x2F2F20464F52204120504152544943554C415220505552504F53452E205365652074686520474E552047656E6572616C205075626C6963204C6963656E736520666F72206D6F7265 -- // FOR A PARTICULAR PURPOSE. See the GNU General Public License for more
, 0x2F2F2064657461696C732E -- // details.
, 0x2F2F -- //
, 0x2F2F20596F752073686F756C642068617665207265636569766564206120636F7079206F662074686520474E552047656E6572616C205075626C6963204C6963656E736520616C6F6E672077697468 -- // You should have received a copy of the GNU General Public License along with
, 0x2F2F20746869732070726F6772616D2E204966206E6F742C20736565203C68747470733A2F2F7777772E676E752E6F72672F6C6963656E7365732F3E2E -- // this program. If not, see <https://www.gnu.org/licenses/>.
, 0x2F2F -- //
, 0x0 -- 
, 0x2369662021646566696E656428415344465F4829 -- #if !defined(ASDF_H)
, 0x23646566696E6520415344465F48 -- #define ASDF_H
, 0x0 -- 
, 0x23696E636C756465203C737464696F2E683E -- #include <stdio.h>
, 0x23696E636C756465203C737464696E742E683E -- #include <stdint.h>
, 0x0 -- 
, 0x2F2F20446566696E652074686520636F6465206174207768696368206B6579626F61726420616374696F6E7320626567696E2E20436F6465732062656C6F7720746869732076616C756520617265 -- // Define the code at which keyboard actions begin. Codes below this value are
, 0x2F2F2076616C75657320746F206265207472616E736D697474656420746F2074686520686F7374206D616368696E652E20436F6465732061626F766520746869732076616C756520617265 -- // values to be transmitted to the host machine. Codes above this value are
, 0x2F2F20616374696F6E7320746F20626520706572666F726D65642E -- // actions to be performed.
, 0x23646566696E6520415344465F414354494F4E2030784130202F2F20534F4C2D3230207573657320636F64657320307838302D30783941 -- #define ASDF_ACTION 0xA0 // SOL-20 uses codes 0x80-0x9A
, 0x0 -- 
, 0x2F2F20616E20616374696F6E20636F6465206973206E6F7420612076616C6964206B6579636F64652E -- // an action code is not a valid keycode.
, 0x23646566696E6520415344465F494E56414C49445F434F444520415344465F414354494F4E -- #define ASDF_INVALID_CODE ASDF_ACTION
, 0x0 -- 
, 0x2F2F20646566696E6520415344465F4D41585F434F4C5320746F2066697420696E20617364665F636F6C735F74 -- // define ASDF_MAX_COLS to fit in asdf_cols_t
, 0x23646566696E6520415344465F4D41585F434F4C532038 -- #define ASDF_MAX_COLS 8
, 0x23646566696E6520415344465F4D41585F524F5753203136 -- #define ASDF_MAX_ROWS 16
, 0x0 -- 
, 0x2F2F20666F7220656666696369656E6379206F6E20382D626974206D616368696E65732C20757365203820636F6C756D6E732070657220726F772E20466F7220313620636F6C756D6E7320706572 -- // for efficiency on 8-bit machines, use 8 columns per row. For 16 columns per
, 0x2F2F20726F772C206368616E676520636F6C735F7420746F2075696E7431365F7420616E6420696E63726561736520415344465F4E554D5F434F4C5320746F2031362E -- // row, change cols_t to uint16_t and increase ASDF_NUM_COLS to 16.
, 0x747970656465662075696E74385F7420617364665F636F6C735F743B -- typedef uint8_t asdf_cols_t;
, 0x0 -- 
, 0x2F2F204153434949206B6579636F64657320617265203720626974732E20416E20382D62697420646174617479706520656E636F6465732041534349492C20706C7573206120666C616720666F722061 -- // ASCII keycodes are 7 bits. An 8-bit datatype encodes ASCII, plus a flag for a
, 0x2F2F206B65792066756E6374696F6E2E20466F72206C6F6E67657220636F6465732C207375636820617320657874656E646564204153434949206F7220756E69636F64652C206368616E6765 -- // key function. For longer codes, such as extended ASCII or unicode, change
, 0x2F2F206B6579636F64655F7420617070726F7072696174656C792C20616E6420616C736F206368616E676520415344465F414354494F4E20736F20746861742074686520616374696F6E206B6579 -- // keycode_t appropriately, and also change ASDF_ACTION so that the action key
, 0x2F2F20636F6465732028656E756D65726174656420696E20616374696F6E5F742920646F206E6F7420636F6E666C69637420776974682074686520656E636F64696E6720736368656D652E -- // codes (enumerated in action_t) do not conflict with the encoding scheme.
, 0x747970656465662075696E74385F7420617364665F6B6579636F64655F743B -- typedef uint8_t asdf_keycode_t;
, 0x0 -- 
, 0x0 -- 
, 0x2F2F2054686973207479706564656620656E756D657261746573207468652076616C696420414354494F4E53207468616E2063616E2062652073706563696669656420696E2061206B65796D61702E -- // This typedef enumerates the valid ACTIONS than can be specified in a keymap.
, 0x7479706564656620656E756D207B -- typedef enum {
, 0x2020414354494F4E5F4E4F5448494E47203D20415344465F414354494F4E2C --   ACTION_NOTHING = ASDF_ACTION,
, 0x2020414354494F4E5F53484946542C --   ACTION_SHIFT,
, 0x2020414354494F4E5F53484946544C4F434B5F4F4E2C --   ACTION_SHIFTLOCK_ON,
, 0x2020414354494F4E5F53484946544C4F434B5F544F47474C452C --   ACTION_SHIFTLOCK_TOGGLE,
, 0x2020414354494F4E5F434150532C --   ACTION_CAPS,
, 0x2020414354494F4E5F4354524C2C --   ACTION_CTRL,
, 0x2020414354494F4E5F5245504541542C --   ACTION_REPEAT,
, 0x2020414354494F4E5F484552455F49532C --   ACTION_HERE_IS,
, 0x2020414354494F4E5F4D415053454C5F302C --   ACTION_MAPSEL_0,
, 0x2020414354494F4E5F4D415053454C5F312C --   ACTION_MAPSEL_1,
, 0x2020414354494F4E5F4D415053454C5F322C --   ACTION_MAPSEL_2,
, 0x2020414354494F4E5F4D415053454C5F332C --   ACTION_MAPSEL_3,
, 0x2020414354494F4E5F4155544F5245504541545F53454C4543542C --   ACTION_AUTOREPEAT_SELECT,
, 0x2020414354494F4E5F5354524F42455F504F4C41524954595F53454C4543542C --   ACTION_STROBE_POLARITY_SELECT,
, 0x2020414354494F4E5F564C4544312C --   ACTION_VLED1,
, 0x2020414354494F4E5F564C4544322C --   ACTION_VLED2,
, 0x2020414354494F4E5F564C4544332C --   ACTION_VLED3,
, 0x2020414354494F4E5F564F5554312C --   ACTION_VOUT1,
, 0x2020414354494F4E5F564F5554322C --   ACTION_VOUT2,
, 0x2020414354494F4E5F564F5554332C --   ACTION_VOUT3,
, 0x2020414354494F4E5F564F5554342C --   ACTION_VOUT4,
, 0x2020414354494F4E5F564F5554352C --   ACTION_VOUT5,
, 0x2020414354494F4E5F564F5554362C --   ACTION_VOUT6,
, 0x2020414354494F4E5F464E5F312C --   ACTION_FN_1,
, 0x2020414354494F4E5F464E5F322C --   ACTION_FN_2,
, 0x2020414354494F4E5F464E5F332C --   ACTION_FN_3,
, 0x2020414354494F4E5F464E5F342C --   ACTION_FN_4,
, 0x2020414354494F4E5F464E5F352C --   ACTION_FN_5,
, 0x2020414354494F4E5F464E5F362C --   ACTION_FN_6,
, 0x2020414354494F4E5F464E5F372C --   ACTION_FN_7,
, 0x2020414354494F4E5F464E5F382C --   ACTION_FN_8,
, 0x2020414354494F4E5F464E5F392C --   ACTION_FN_9,
, 0x2020414354494F4E5F464E5F31302C --   ACTION_FN_10,
, 0x2020414354494F4E5F464E5F31312C --   ACTION_FN_11,
, 0x202052455345525645445F312C --   RESERVED_1,
, 0x202052455345525645445F322C --   RESERVED_2,
, 0x202052455345525645445F332C --   RESERVED_3,
, 0x202052455345525645445F342C --   RESERVED_4,
, 0x202052455345525645445F352C --   RESERVED_5,
, 0x202052455345525645445F362C --   RESERVED_6,
, 0x202052455345525645445F372C --   RESERVED_7,
, 0x202052455345525645445F382C --   RESERVED_8,
, 0x202052455345525645445F392C --   RESERVED_9,
, 0x202052455345525645445F31302C --   RESERVED_10,
, 0x202052455345525645445F31312C --   RESERVED_11,
, 0x202052455345525645445F31322C --   RESERVED_12,
, 0x202052455345525645445F31332C --   RESERVED_13,
, 0x202052455345525645445F31342C --   RESERVED_14,
, 0x202052455345525645445F31352C --   RESERVED_15,
, 0x202052455345525645445F31362C --   RESERVED_16,
, 0x7D20616374696F6E5F743B -- } action_t;
, 0x0 -- 
, 0x0 -- 
, 0x2F2F2050524F4345445552453A20617364665F696E6974 -- // PROCEDURE: asdf_init
, 0x2F2F20494E505554533A206E6F6E65 -- // INPUTS: none
, 0x2F2F204F5554505554533A206E6F6E65 -- // OUTPUTS: none
, 0x2F2F204445534352495054494F4E3A20696E697469616C697A6520746865206B6579626F61726420737461746520616E64206465626F756E636520636F756E74657273 -- // DESCRIPTION: initialize the keyboard state and debounce counters
, 0x766F696420617364665F696E697428766F6964293B -- void asdf_init(void);
, 0x0 -- 
, 0x2F2F2050524F4345445552453A20617364665F6B65797363616E -- // PROCEDURE: asdf_keyscan
, 0x2F2F20494E505554533A206E6F6E65 -- // INPUTS: none
, 0x2F2F204F5554505554533A206E6F6E65 -- // OUTPUTS: none
, 0x2F2F204445534352495054494F4E3A205363616E7320746865206B6579206D61747269782E20466F72206561636820726F772C20726561642074686520636F6C756D6E7320616E6420636F6D70617265 -- // DESCRIPTION: Scans the key matrix. For each row, read the columns and compare
, 0x2F2F2077697468206C61737420737461626C652073746174652E20466F722065616368206368616E676564206B65792C2063616C6C2061206B65792D6368616E67652068616E646C6572 -- // with last stable state. For each changed key, call a key-change handler
, 0x2F2F2066756E6374696F6E2E20466F72206561636820737461626C652070726573736564206B65792C2063616C6C20612022636F6E74696E756564207072657373222068616E646C6572 -- // function. For each stable pressed key, call a "continued press" handler
, 0x2F2F2066756E6374696F6E2E -- // function.
, 0x766F696420617364665F6B65797363616E28766F6964293B -- void asdf_keyscan(void);
, 0x0 -- 
, 0x2F2F2050524F4345445552453A20617364665F7075745F636F6465 -- // PROCEDURE: asdf_put_code
, 0x2F2F20494E505554533A2028617364665F6B6579636F64655F742920636F64653A20636F646520746F20626520627566666572656420666F72206F7574707574 -- // INPUTS: (asdf_keycode_t) code: code to be buffered for output
, 0x2F2F204F5554505554533A206E6F6E65 -- // OUTPUTS: none
, 0x2F2F204445534352495054494F4E3A2054616B65732061206B6579636F646520617267756D656E7420616E64206275666665727320666F72206F75747075742E -- // DESCRIPTION: Takes a keycode argument and buffers for output.
, 0x2F2F204E4F5445533A204966206275666665722069732066756C6C2C2073696C656E746C792064726F702074686520636F64652E -- // NOTES: If buffer is full, silently drop the code.
, 0x766F696420617364665F7075745F636F646528617364665F6B6579636F64655F7420636F6465293B -- void asdf_put_code(asdf_keycode_t code);
, 0x0 -- 
, 0x2F2F2050524F4345445552453A20617364665F70757463 -- // PROCEDURE: asdf_putc
, 0x2F2F20494E505554533A2028636861722920633A2063686172616374657220746F20626520627566666572656420666F72206F7574707574 -- // INPUTS: (char) c: character to be buffered for output
, 0x2F2F2020202020202020202846494C452A292073747265616D3A206F6E6C7920666F722070726F746F74797065206D61746368696E67 -- //         (FILE*) stream: only for prototype matching
, 0x2F2F204F5554505554533A206E6F6E65 -- // OUTPUTS: none
, 0x2F2F204445534352495054494F4E3A2054616B65732061206368617261637465722067656E657261746564206279207468652073797374656D20616E64206275666665727320666F72 -- // DESCRIPTION: Takes a character generated by the system and buffers for
, 0x2F2F206F75747075742E -- // output.
, 0x2F2F204E4F5445533A204966206275666665722069732066756C6C2C2073696C656E746C792064726F702074686520636F64652E -- // NOTES: If buffer is full, silently drop the code.
, 0x696E7420617364665F70757463286368617220632C2046494C45202A73747265616D293B -- int asdf_putc(char c, FILE *stream);
, 0x0 -- 
, 0x2F2F2050524F4345445552453A20617364665F6E6578745F636F6465 -- // PROCEDURE: asdf_next_code
, 0x2F2F20494E505554533A206E6F6E65 -- // INPUTS: none
, 0x2F2F204F5554505554533A2028617364665F6B6579636F64655F74292072657475726E73206E6578742076616C756520696E206275666665722E20496620626F7468206275666665727320617265 -- // OUTPUTS: (asdf_keycode_t) returns next value in buffer. If both buffers are
, 0x2F2F20656D7074792C2074686520636F646520415344465F494E56414C49445F434F44452069732072657475726E65642E -- // empty, the code ASDF_INVALID_CODE is returned.
, 0x2F2F204445534352495054494F4E3A20436865636B7320746865206D657373616765206275666665722C20616E642072657475726E73206120636861726163746572 -- // DESCRIPTION: Checks the message buffer, and returns a character
, 0x2F2F2069662070726573656E742E20204F74686572776973652C2072657475726E20746865206E65787420636F646520696E20746865206B6579636F6465 -- // if present.  Otherwise, return the next code in the keycode
, 0x2F2F206275666665722E -- // buffer.
, 0x2F2F204E4F5445533A20412064656C617920697320656E666F7263656420666F722073797374656D206D657373616765732C20746F2072656475636520746865207269736B206F662064726F70706564 -- // NOTES: A delay is enforced for system messages, to reduce the risk of dropped
, 0x2F2F2063686172616374657273207769746820756E627566666572656420706F6C6C696E6720686F7374732E204E6F2064656C6179206973206E656564656420666F72207479706564 -- // characters with unbuffered polling hosts. No delay is needed for typed
, 0x2F2F206B6579636F6465732C206173207468657365206172652067656E6572617465642061742068756D616E207370656564732E -- // keycodes, as these are generated at human speeds.
, 0x617364665F6B6579636F64655F7420617364665F6E6578745F636F646528766F6964293B -- asdf_keycode_t asdf_next_code(void);
, 0x0 -- 
, 0x2F2F2050524F4345445552453A20617364665F7365745F7072696E745F64656C6179 -- // PROCEDURE: asdf_set_print_delay
, 0x2F2F20494E505554533A202875696E74385F74292064656C61795F6D73 -- // INPUTS: (uint8_t) delay_ms
, 0x2F2F204F5554505554533A206E6F6E65 -- // OUTPUTS: none
, 0x2F2F204445534352495054494F4E3A2073657473207468652064656C617920746F2062652075736564206279207468652073797374656D207072696E7420627566666572 -- // DESCRIPTION: sets the delay to be used by the system print buffer
, 0x2F2F204E4F5445533A20412064656C617920697320656E666F7263656420666F722073797374656D206D657373616765732C20746F2072656475636520746865207269736B206F662064726F70706564 -- // NOTES: A delay is enforced for system messages, to reduce the risk of dropped
, 0x2F2F2063686172616374657273207769746820756E627566666572656420706F6C6C696E6720686F7374732E204E6F2064656C6179206973206E656564656420666F72207479706564 -- // characters with unbuffered polling hosts. No delay is needed for typed
, 0x2F2F206B6579636F6465732C206173207468657365206172652067656E6572617465642061742068756D616E207370656564732E -- // keycodes, as these are generated at human speeds.
, 0x766F696420617364665F7365745F7072696E745F64656C61792875696E74385F742064656C61795F6D73293B -- void asdf_set_print_delay(uint8_t delay_ms);
, 0x0 -- 
, 0x23656E646966202F2F2021646566696E65642028415344465F4829 -- #endif // !defined (ASDF_H)
, 0x0 -- 
, 0x0 -- 
, 0x2F2F2D2D2D2D2D2D2D7C2D2D2D2D2D2D2D2D2D7C2D2D2D2D2D2D2D2D2D2B2D2D2D2D2D2D2D2D2D2B2D2D2D2D2D2D2D2D2D2B2D2D2D2D2D2D2D2D2D2B2D2D2D2D2D2D2D2D2D2B2D2D2D2D2D2D2D2D2D2B -- //-------|---------|---------+---------+---------+---------+---------+---------+
, 0x2F2F2041626F7665206C696E6520697320383020636F6C756D6E732C20616E642073686F756C6420646973706C617920636F6D706C6574656C7920696E2074686520656469746F722E -- // Above line is 80 columns, and should display completely in the editor.
  ]

/-- /repo/firmware/asdf/src/asdf_ascii.h, lines 1-124. -/
def asdf_ascii_h : List Nat := [
  0x2F2F202D2A2D206D6F64653A20433B207461622D77696474683A2034203B20696E64656E742D746162732D6D6F64653A206E696C202D2A2D -- // -*- mode: C; tab-width: 4 ; indent-tabs-mode: nil -*-
, 0x2F2F -- //
, 0x2F2F2020556E6966696564204B6579626F6172642050726F6A656374 -- //  Unified Keyboard Project
, 0x2F2F202041534446206B6579626F617264206669726D77617265 -- //  ASDF keyboard firmware
, 0x2F2F -- //
, 0x2F2F2020617364665F61736369692E68 -- //  asdf_ascii.h
, 0x2F2F -- //
, 0x2F2F20546869732066696C6520636F6E7461696E7320646566696E6974696F6E73206F6620415343494920636F6E74726F6C20636F64657320616E64206365727461696E2073796D626F6C7320666F72 -- // This file contains definitions of ASCII control codes and certain symbols for
, 0x2F2F206B65796D617020646566696E6974696F6E732E2054686520707572706F736520697320746F20696D70726F766520726561646162696C69747920616E6420636F6E73697374656E6379206F66 -- // keymap definitions. The purpose is to improve readability and consistency of
, 0x2F2F20746865206B65796D6170206D617472696365732C20616E642061766F6964206573636170696E67207370656369616C206368617261637465727320696E20746865206B65796D6170 -- // the keymap matrices, and avoid escaping special characters in the keymap
, 0x2F2F20646566696E6974696F6E732E -- // definitions.
, 0x2F2F -- //
, 0x2F2F20436F7079726967687420323031392044617669642046656E796573 -- // Copyright 2019 David Fenyes
, 0x2F2F -- //
, 0x2F2F20546869732070726F6772616D206973206672656520736F6674776172653A20796F752063616E2072656469737472696275746520697420616E642F6F72206D6F6469667920697420756E646572 -- // This program is free software: you can redistribute it and/or modify it under
, 0x2F2F20746865207465726D73206F662074686520474E552047656E6572616C205075626C6963204C6963656E7365206173207075626C697368656420627920746865204672656520536F667477617265 -- // the terms of the GNU General Public License as published by the Free Software
, 0x2F2F20466F756E646174696F6E2C206569746865722076657273696F6E2033206F6620746865204C6963656E73652C206F722028617420796F7572206F7074696F6E2920616E79206C61746572 -- // Foundation, either version 3 of the License, or (at your option) any later
, 0x2F2F2076657273696F6E2E -- // version.
, 0x2F2F -- //
, 0x2F2F20546869732070726F6772616D20697320646973747269627574656420696E2074686520686F706520746861742069742077696C6C2062652075736566756C2C2062757420574954484F5554 -- // This program is distributed in the hope that it will be useful, but WITHOUT
, 0x2F2F20414E592057415252414E54593B20776974686F7574206576656E2074686520696D706C6965642077617272616E7479206F66204D45524348414E544142494C495459206F72204649544E455353 -- // ANY WARRANTY; without even the implied warranty of MERCHANTABILITY or FITNESS
, 0x2F2F20464F52204120504152544943554C415220505552504F53452E205365652074686520474E552047656E6572616C205075626C6963204C6963656E736520666F72206D6F7265 -- // FOR A PARTICULAR PURPOSE. See the GNU General Public License for more
, 0x2F2F2064657461696C732E -- // details.
, 0x2F2F -- //
, 0x2F2F20596F752073686F756C642068617665207265636569766564206120636F7079206F662074686520474E552047656E6572616C205075626C6963204C6963656E736520616C6F6E672077697468 -- // You should have received a copy of the GNU General Public License along with
, 0x2F2F20746869732070726F6772616D2E204966206E6F742C20736565203C68747470733A2F2F7777772E676E752E6F72672F6C6963656E7365732F3E2E -- // this program. If not, see <https://www.gnu.org/licenses/>.
, 0x2F2F -- //
, 0x0 -- 
, 0x2369662021646566696E656428415344465F41534349495F4829 -- #if !defined(ASDF_ASCII_H)
, 0x23646566696E6520415344465F41534349495F48 -- #define ASDF_ASCII_H
, 0x0 -- 
, 0x2F2F204C697374206F6620616C6C20415343494920636F6E74726F6C20636F646573 -- // List of all ASCII control codes
, 0x7479706564656620656E756D207B -- typedef enum {
, 0x202041534349495F4E554C4C203D20307830302C --   ASCII_NULL = 0x00,
, 0x202041534349495F4354524C5F41203D20307830312C --   ASCII_CTRL_A = 0x01,
, 0x202041534349495F4354524C5F42203D20307830322C --   ASCII_CTRL_B = 0x02,
, 0x202041534349495F4354524C5F43203D20307830332C --   ASCII_CTRL_C = 0x03,
, 0x202041534349495F4354524C5F44203D20307830342C --   ASCII_CTRL_D = 0x04,
, 0x202041534349495F4354524C5F45203D20307830352C --   ASCII_CTRL_E = 0x05,
, 0x202041534349495F4354524C5F46203D20307830362C --   ASCII_CTRL_F = 0x06,
, 0x202041534349495F4354524C5F47203D20307830372C --   ASCII_CTRL_G = 0x07,
, 0x202041534349495F4354524C5F48203D20307830382C --   ASCII_CTRL_H = 0x08,
, 0x202041534349495F4354524C5F49203D20307830392C --   ASCII_CTRL_I = 0x09,
, 0x202041534349495F4354524C5F4A203D20307830612C --   ASCII_CTRL_J = 0x0a,
, 0x202041534349495F4354524C5F4B203D20307830622C --   ASCII_CTRL_K = 0x0b,
, 0x202041534349495F4354524C5F4C203D20307830632C --   ASCII_CTRL_L = 0x0c,
, 0x202041534349495F4354524C5F4D203D20307830642C --   ASCII_CTRL_M = 0x0d,
, 0x202041534349495F4354524C5F4E203D20307830652C --   ASCII_CTRL_N = 0x0e,
, 0x202041534349495F4354524C5F4F203D20307830662C --   ASCII_CTRL_O = 0x0f,
, 0x202041534349495F4354524C5F50203D20307831302C --   ASCII_CTRL_P = 0x10,
, 0x202041534349495F4354524C5F51203D20307831312C --   ASCII_CTRL_Q = 0x11,
, 0x202041534349495F4354524C5F52203D20307831322C --   ASCII_CTRL_R = 0x12,
, 0x202041534349495F4354524C5F53203D20307831332C --   ASCII_CTRL_S = 0x13,
, 0x202041534349495F4354524C5F54203D20307831342C --   ASCII_CTRL_T = 0x14,
, 0x202041534349495F4354524C5F55203D20307831352C --   ASCII_CTRL_U = 0x15,
, 0x202041534349495F4354524C5F56203D20307831362C --   ASCII_CTRL_V = 0x16,
, 0x202041534349495F4354524C5F57203D20307831372C --   ASCII_CTRL_W = 0x17,
, 0x202041534349495F4354524C5F58203D20307831382C --   ASCII_CTRL_X = 0x18,
, 0x202041534349495F4354524C5F59203D20307831392C --   ASCII_CTRL_Y = 0x19,
, 0x202041534349495F4354524C5F5A203D20307831612C --   ASCII_CTRL_Z = 0x1a,
, 0x202041534349495F455343203D20307831622C --   ASCII_ESC = 0x1b,
, 0x202041534349495F4653203D20307831632C202F2F2046696C6520536570617261746F72 --   ASCII_FS = 0x1c, // File Separator
, 0x202041534349495F4753203D20307831642C202F2F2047726F757020536570617261746F72 --   ASCII_GS = 0x1d, // Group Separator
, 0x202041534349495F5253203D20307831652C202F2F205265636F726420536570617261746F72 --   ASCII_RS = 0x1e, // Record Separator
, 0x202041534349495F5553203D20307831662C202F2F20556E697420536570617261746F72 --   ASCII_US = 0x1f, // Unit Separator
, 0x202041534349495F5350414345203D20307832302C --   ASCII_SPACE = 0x20,
, 0x202041534349495F444F55424C455F51554F5445203D20307832322C --   ASCII_DOUBLE_QUOTE = 0x22,
, 0x202041534349495F53494E474C455F51554F5445203D20307832372C --   ASCII_SINGLE_QUOTE = 0x27,
, 0x202041534349495F4C545F504152454E203D20307832382C --   ASCII_LT_PAREN = 0x28,
, 0x202041534349495F52545F504152454E203D20307832392C --   ASCII_RT_PAREN = 0x29,
, 0x202041534349495F434F4D4D41203D20307832432C --   ASCII_COMMA = 0x2C,
, 0x202041534349495F504552494F44203D20307832652C --   ASCII_PERIOD = 0x2e,
, 0x202041534349495F5A45524F203D20307833302C --   ASCII_ZERO = 0x30,
, 0x202041534349495F4154203D20307834302C --   ASCII_AT = 0x40,
, 0x202041534349495F4C545F5351554152455F4252414345203D20307835622C --   ASCII_LT_SQUARE_BRACE = 0x5b,
, 0x202041534349495F52545F5351554152455F4252414345203D20307835642C --   ASCII_RT_SQUARE_BRACE = 0x5d,
, 0x202041534349495F554E44455253434F5245203D20307835662C --   ASCII_UNDERSCORE = 0x5f,
, 0x202041534349495F4241434B534C415348203D20307835632C --   ASCII_BACKSLASH = 0x5c,
, 0x202041534349495F4341524554203D20307835652C --   ASCII_CARET = 0x5e,
, 0x202041534349495F47524156455F414343454E54203D20307836302C --   ASCII_GRAVE_ACCENT = 0x60,
, 0x202041534349495F4C545F4355524C595F4252414345203D20307837622C --   ASCII_LT_CURLY_BRACE = 0x7b,
, 0x202041534349495F52545F4355524C595F4252414345203D20307837642C --   ASCII_RT_CURLY_BRACE = 0x7d,
, 0x202041534349495F54494C4445203D20307837652C --   ASCII_TILDE = 0x7e,
, 0x202041534349495F564552545F424152203D20307837632C --   ASCII_VERT_BAR = 0x7c,
, 0x202041534349495F44454C203D20307837662C --   ASCII_DEL = 0x7f,
, 0x202041534349495F4D41585F5052494E5441424C45203D20307837662C --   ASCII_MAX_PRINTABLE = 0x7f,
, 0x202041534349495F4D494E5F5052494E5441424C45203D20307832302C --   ASCII_MIN_PRINTABLE = 0x20,
, 0x7D2061736369695F646566735F743B -- } ascii_defs_t;
, 0x0 -- 
, 0x23646566696E652041534349495F4E554C4C2030 -- #define ASCII_NULL 0
, 0x23646566696E652041534349495F534F482041534349495F4354524C5F41202F2F205374617274206F662048656164696E67 -- #define ASCII_SOH ASCII_CTRL_A // Start of Heading
, 0x23646566696E652041534349495F5354582041534349495F4354524C5F42202F2F205374617274206F662054657874 -- #define ASCII_STX ASCII_CTRL_B // Start of Text
, 0x23646566696E652041534349495F4554582041534349495F4354524C5F43202F2F20456E64206F662054657874 -- #define ASCII_ETX ASCII_CTRL_C // End of Text
, 0x23646566696E652041534349495F454F542041534349495F4354524C5F44202F2F20456E64206F66205472616E736D697373696F6E -- #define ASCII_EOT ASCII_CTRL_D // End of Transmission
, 0x23646566696E652041534349495F454E512041534349495F4354524C5F45202F2F20456E7175697279 -- #define ASCII_ENQ ASCII_CTRL_E // Enquiry
, 0x23646566696E652041534349495F41434B2041534349495F4354524C5F46202F2F2041636B6E6C6F776C65646765 -- #define ASCII_ACK ASCII_CTRL_F // Acknlowledge
, 0x23646566696E652041534349495F42454C2041534349495F4354524C5F47202F2F2042656C6C -- #define ASCII_BEL ASCII_CTRL_G // Bell
, 0x23646566696E652041534349495F42532041534349495F4354524C5F4820202F2F204261636B7370616365 -- #define ASCII_BS ASCII_CTRL_H  // Backspace
, 0x23646566696E652041534349495F5441422041534349495F4354524C5F49202F2F20486F72697A6F6E74616C20546162 -- #define ASCII_TAB ASCII_CTRL_I // Horizontal Tab
, 0x23646566696E652041534349495F4C462041534349495F4354524C5F4A20202F2F204C696E652046656564 -- #define ASCII_LF ASCII_CTRL_J  // Line Feed
, 0x23646566696E652041534349495F56542041534349495F4354524C5F4B20202F2F20566572746963616C20546162 -- #define ASCII_VT ASCII_CTRL_K  // Vertical Tab
, 0x23646566696E652041534349495F46462041534349495F4354524C5F4C20202F2F20466F726D2046656564 -- #define ASCII_FF ASCII_CTRL_L  // Form Feed
, 0x23646566696E652041534349495F43522041534349495F4354524C5F4D20202F2F2043617272696167652052657475726E -- #define ASCII_CR ASCII_CTRL_M  // Carriage Return
, 0x23646566696E652041534349495F534F2041534349495F4354524C5F4E20202F2F205368696674204F7574 -- #define ASCII_SO ASCII_CTRL_N  // Shift Out
, 0x23646566696E652041534349495F53492041534349495F4354524C5F4F20202F2F20536869667420496E -- #define ASCII_SI ASCII_CTRL_O  // Shift In
, 0x23646566696E652041534349495F444C452041534349495F4354524C5F50202F2F2044617461204C696E6B20457363617065 -- #define ASCII_DLE ASCII_CTRL_P // Data Link Escape
, 0x23646566696E652041534349495F4443312041534349495F4354524C5F51202F2F2044657669636520436F6E74726F6C2031 -- #define ASCII_DC1 ASCII_CTRL_Q // Device Control 1
, 0x23646566696E652041534349495F4443322041534349495F4354524C5F52202F2F2044657669636520436F6E74726F6C2032 -- #define ASCII_DC2 ASCII_CTRL_R // Device Control 2
, 0x23646566696E652041534349495F4443332041534349495F4354524C5F53202F2F2044657669636520436F6E74726F6C2033 -- #define ASCII_DC3 ASCII_CTRL_S // Device Control 3
, 0x23646566696E652041534349495F4443342041534349495F4354524C5F54202F2F2044657669636520436F6E74726F6C2034 -- #define ASCII_DC4 ASCII_CTRL_T // Device Control 4
, 0x23646566696E652041534349495F4E414B2041534349495F4354524C5F55202F2F204E656761746976652041636B6E6C6F776C65646765 -- #define ASCII_NAK ASCII_CTRL_U // Negative Acknlowledge
, 0x23646566696E652041534349495F53594E2041534349495F4354524C5F56202F2F2053796E6368726F6E6F75732049646C65 -- #define ASCII_SYN ASCII_CTRL_V // Synchronous Idle
, 0x23646566696E652041534349495F4554422041534349495F4354524C5F57202F2F20456E64206F66205472616E736D697373696F6E20426C6F636B -- #define ASCII_ETB ASCII_CTRL_W // End of Transmission Block
, 0x23646566696E652041534349495F43414E2041534349495F4354524C5F58202F2F2043616E63656C -- #define ASCII_CAN ASCII_CTRL_X // Cancel
, 0x23646566696E652041534349495F454D2041534349495F4354524C5F5920202F2F20456E64206F66204D656469756D -- #define ASCII_EM ASCII_CTRL_Y  // End of Medium
, 0x23646566696E652041534349495F5355422041534349495F4354524C5F5A202F2F2053756273746974757465 -- #define ASCII_SUB ASCII_CTRL_Z // Substitute
, 0x23646566696E652041534349495F4553432030783162 -- #define ASCII_ESC 0x1b
, 0x0 -- 
, 0x0 -- 
, 0x23646566696E652041534349495F -- #define ASCII_
, 0x23656E646966202F2F2021646566696E65642028415344465F41534349495F4829 -- #endif // !defined (ASDF_ASCII_H)
, 0x0 -- 
, 0x2F2F2D2D2D2D2D2D2D7C2D2D2D2D2D2D2D2D2D7C2D2D2D2D2D2D2D2D2D2B2D2D2D2D2D2D2D2D2D2B2D2D2D2D2D2D2D2D2D2B2D2D2D2D2D2D2D2D2D2B2D2D2D2D2D2D2D2D2D2B2D2D2D2D2D2D2D2D2D2B -- //-------|---------|---------+---------+---------+---------+---------+---------+
, 0x2F2F2041626F7665206C696E6520697320383020636F6C756D6E732C20616E642073686F756C6420646973706C617920636F6D706C6574656C7920696E2074686520656469746F722E -- // Above line is 80 columns, and should display completely in the editor.
  ]

/-- /repo/firmware/asdf/src/asdf_buffer.h, lines 1-78. -/
def asdf_buffer_h : List Nat := [
  0x2F2F202D2A2D206D6F64653A20433B207461622D77696474683A2034203B20696E64656E742D746162732D6D6F64653A206E696C202D2A2D -- // -*- mode: C; tab-width: 4 ; indent-tabs-mode: nil -*-
, 0x2F2F -- //
, 0x2F2F20556E6966696564204B6579626F6172642050726F6A656374 -- // Unified Keyboard Project
, 0x2F2F2041534446206B6579626F617264206669726D77617265 -- // ASDF keyboard firmware
, 0x2F2F -- //
, 0x2F2F20617364665F6275666665722E68 -- // asdf_buffer.h
, 0x2F2F -- //
, 0x2F2F20436F6E7461696E7320646566696E6974696F6E7320616E642070726F746F747970657320666F72207468652061736466206B6579636F6465206F7574707574206275666665722E -- // Contains definitions and prototypes for the asdf keycode output buffer.
, 0x2F2F -- //
, 0x2F2F20436F7079726967687420323031392044617669642046656E796573 -- // Copyright 2019 David Fenyes
, 0x2F2F -- //
, 0x2F2F20546869732070726F6772616D206973206672656520736F6674776172653A20796F752063616E2072656469737472696275746520697420616E642F6F72206D6F6469667920697420756E646572 -- // This program is free software: you can redistribute it and/or modify it under
, 0x2F2F20746865207465726D73206F662074686520474E552047656E6572616C205075626C6963204C6963656E7365206173207075626C697368656420627920746865204672656520536F667477617265 -- // the terms of the GNU General Public License as published by the Free Software
, 0x2F2F20466F756E646174696F6E2C206569746865722076657273696F6E2033206F6620746865204C6963656E73652C206F722028617420796F7572206F7074696F6E2920616E79206C61746572 -- // Foundation, either version 3 of the License, or (at your option) any later
, 0x2F2F2076657273696F6E2E -- // version.
, 0x2F2F -- //
, 0x2F2F20546869732070726F6772616D20697320646973747269627574656420696E2074686520686F706520746861742069742077696C6C2062652075736566756C2C2062757420574954484F5554 -- // This program is distributed in the hope that it will be useful, but WITHOUT
, 0x2F2F20414E592057415252414E54593B20776974686F7574206576656E2074686520696D706C6965642077617272616E7479206F66204D45524348414E544142494C495459206F72204649544E455353 -- // ANY WARRANTY; without even the implied warranty of MERCHANTABILITY or FITNESS
, 0x2F2F20464F52204120504152544943554C415220505552504F53452E205365652074686520474E552047656E6572616C205075626C6963204C6963656E736520666F72206D6F7265 -- // FOR A PARTICULAR PURPOSE. See the GNU General Public License for more
, 0x2F2F2064657461696C732E -- // details.
, 0x2F2F -- //
, 0x2F2F20596F752073686F756C642068617665207265636569766564206120636F7079206F662074686520474E552047656E6572616C205075626C6963204C6963656E736520616C6F6E672077697468 -- // You should have received a copy of the GNU General Public License along with
, 0x2F2F20746869732070726F6772616D2E204966206E6F742C20736565203C68747470733A2F2F7777772E676E752E6F72672F6C6963656E7365732F3E2E -- // this program. If not, see <https://www.gnu.org/licenses/>.
, 0x2F2F -- //
, 0x0 -- 
, 0x2369662021646566696E656428415344465F4255464645525F4829 -- #if !defined(ASDF_BUFFER_H)
, 0x23646566696E6520415344465F4255464645525F48 -- #define ASDF_BUFFER_H
, 0x0 -- 
, 0x2F2F20415344465F4255464645525F504F4F4C5F53495A4520697320646566696E656420696E20617364665F636F6E6669672E68 -- // ASDF_BUFFER_POOL_SIZE is defined in asdf_config.h
, 0x23696E636C7564652022617364665F636F6E6669672E6822 -- #include "asdf_config.h"
, 0x0 -- 
, 0x2F2F205573656420746F2064657369676E61746520616E20696E76616C6964206275666665722E -- // Used to designate an invalid buffer.
, 0x23646566696E6520415344465F4255464645525F494E56414C4944202D31 -- #define ASDF_BUFFER_INVALID -1
, 0x0 -- 
, 0x2F2F2053657474696E6720746865206E756D626572206F662068616E646C657320746F20312077696C6C20776F726B206966206F6E6C79206F6E6520627566666572206973207265717572697265642C -- // Setting the number of handles to 1 will work if only one buffer is requrired,
, 0x2F2F20616E642077696C6C2073617665206120666577206279746573206F662052414D2E2042757420746865207465737420636F6465206E65656473206174206C65617374203220627566666572 -- // and will save a few bytes of RAM. But the test code needs at least 2 buffer
, 0x2F2F2068616E646C657320746F207465737420746865206D6F64756C652C20736F207765206C6561766520697420617420322E -- // handles to test the module, so we leave it at 2.
, 0x23646566696E6520415344465F4255464645525F4E554D5F48414E444C45532034 -- #define ASDF_BUFFER_NUM_HANDLES 4
, 0x0 -- 
, 0x0 -- 
, 0x2F2F20546865206275666665722068616E646C6520747970652073686F756C642062652061626C6520746F2068616E646C6520746865206578706563746564206E756D626572206F6620627566666572732E -- // The buffer handle type should be able to handle the expected number of buffers.
, 0x7479706564656620696E74385F7420617364665F6275666665725F68616E646C655F743B -- typedef int8_t asdf_buffer_handle_t;
, 0x0 -- 
, 0x2F2F2050524F4345445552453A20617364665F6275666665725F696E6974 -- // PROCEDURE: asdf_buffer_init
, 0x2F2F20494E505554533A206E6F6E65 -- // INPUTS: none
, 0x2F2F204F5554505554533A206E6F6E65 -- // OUTPUTS: none
, 0x2F2F204445534352495054494F4E3A20496E697469616C697A65207468652062756666657220706F6F6C20616E642068616E646C6573 -- // DESCRIPTION: Initialize the buffer pool and handles
, 0x766F696420617364665F6275666665725F696E697428766F6964293B -- void asdf_buffer_init(void);
, 0x0 -- 
, 0x2F2F2050524F4345445552453A20617364665F6275666665725F6E6577 -- // PROCEDURE: asdf_buffer_new
, 0x2F2F20494E505554533A202875696E7431365F74292073697A653A2073697A65206F66207468652062756666657220746F20616C6C6F636174652E -- // INPUTS: (uint16_t) size: size of the buffer to allocate.
, 0x2F2F204F5554505554533A2072657475726E732028617364665F6275666665725F68616E646C655F74292068616E646C6520746F206964656E74696679207468652062756666657220616C6C6F63617465642066726F6D20746865 -- // OUTPUTS: returns (asdf_buffer_handle_t) handle to identify the buffer allocated from the
, 0x2F2F20202020202020202020706F6F6C2E -- //          pool.
, 0x2F2F204445534352495054494F4E3A2052656365697665732061207265717565737420746F20616C6C6F6361746520612066697865642D73697A65206275666665722066726F6D20746865 -- // DESCRIPTION: Receives a request to allocate a fixed-size buffer from the
, 0x2F2F20706F6F6C2E20496620746865726520697320656E6F75676820726F6F6D20696E207468652062756666657220706F6F6C2C20616E642069662061206275666665722068616E646C65206973 -- // pool. If there is enough room in the buffer pool, and if a buffer handle is
, 0x2F2F20617661696C61626C652C207468656E20616C6C6F636174652073706163652066726F6D2074686520706F6F6C2C20696E697469616C697A6520746865206E65787420617661696C61626C65 -- // available, then allocate space from the pool, initialize the next available
, 0x2F2F20627566666572207374727563742C20616E642072657475726E207468652068616E646C652E -- // buffer struct, and return the handle.
, 0x617364665F6275666665725F68616E646C655F7420617364665F6275666665725F6E657728696E7431365F742073697A65293B -- asdf_buffer_handle_t asdf_buffer_new(int16_t size);
, 0x0 -- 
, 0x2F2F2050524F4345445552453A20617364665F6275666665725F707574 -- // PROCEDURE: asdf_buffer_put
, 0x2F2F20494E505554533A28617364665F6275666665725F7429206275666665725F68616E646C653A20706F696E74657220746F2074686520627566666572207374727563742E -- // INPUTS:(asdf_buffer_t) buffer_handle: pointer to the buffer struct.
, 0x2F2F202020202020202028617364665F6B6579636F64655F742920636F64653A20636F646520746F20626520616464656420746F207468652071756575652E -- //        (asdf_keycode_t) code: code to be added to the queue.
, 0x2F2F204F5554505554533A204E6F6E65 -- // OUTPUTS: None
, 0x2F2F204445534352495054494F4E3A2041646420746865206B6579636F646520746F207468652068656164206F6620746865206F7574707574206275666665722E2049662074686520627566666572 -- // DESCRIPTION: Add the keycode to the head of the output buffer. If the buffer
, 0x2F2F2069732066756C6C2C2071756965746C792064726F7020746865206B6579636F64652E -- // is full, quietly drop the keycode.
, 0x766F696420617364665F6275666665725F70757428617364665F6275666665725F68616E646C655F742068616E646C652C20617364665F6B6579636F64655F7420636F6465293B -- void asdf_buffer_put(asdf_buffer_handle_t handle, asdf_keycode_t code);
, 0x0 -- 
, 0x2F2F2050524F4345445552453A20617364665F6275666665725F676574 -- // PROCEDURE: asdf_buffer_get
, 0x2F2F20494E505554533A204E6F6E65 -- // INPUTS: None
, 0x2F2F204F5554505554533A2072657475726E73206E65787420636F646520696E20746865206275666665722E -- // OUTPUTS: returns next code in the buffer.
, 0x2F2F204445534352495054494F4E3A204765747320746865206E6578742071756575656420636F646520696E20746865206F75747075742062756666657220616E642072657475726E20746865 -- // DESCRIPTION: Gets the next queued code in the output buffer and return the
, 0x2F2F2076616C75652E -- // value.
, 0x617364665F6B6579636F64655F7420617364665F6275666665725F67657428617364665F6275666665725F68616E646C655F742068616E646C65293B -- asdf_keycode_t asdf_buffer_get(asdf_buffer_handle_t handle);
, 0x0 -- 
, 0x23656E646966202F2F2021646566696E65642028415344465F4255464645525F4829 -- #endif // !defined (ASDF_BUFFER_H)
, 0x0 -- 
, 0x2F2F2D2D2D2D2D2D2D7C2D2D2D2D2D2D2D2D2D7C2D2D2D2D2D2D2D2D2D2B2D2D2D2D2D2D2D2D2D2B2D2D2D2D2D2D2D2D2D2B2D2D2D2D2D2D2D2D2D2B2D2D2D2D2D2D2D2D2D2B2D2D2D2D2D2D2D2D2D2B -- //-------|---------|---------+---------+---------+---------+---------+---------+
, 0x2F2F2041626F7665206C696E6520697320383020636F6C756D6E732C20616E642073686F756C6420646973706C617920636F6D706C6574656C7920696E2074686520656469746F722E -- // Above line is 80 columns, and should display completely in the editor.
  ]

/-- /repo/firmware/asdf/src/asdf_config.h, lines 1-92. -/
def asdf_config_h : List Nat := [
  0x2F2F202D2A2D206D6F64653A20433B207461622D77696474683A2034203B20696E64656E742D746162732D6D6F64653A206E696C202D2A2D -- // -*- mode: C; tab-width: 4 ; indent-tabs-mode: nil -*-
, 0x2F2F -- //
, 0x2F2F2020556E6976657273616C204B6579626F6172642050726F6A656374 -- //  Universal Keyboard Project
, 0x2F2F202041534446206B6579626F617264206669726D77617265 -- //  ASDF keyboard firmware
, 0x2F2F -- //
, 0x2F2F2020617364665F636F6E6669672E68 -- //  asdf_config.h
, 0x2F2F -- //
, 0x2F2F20546869732066696C65206761746865727320636F6E66696775726174696F6E20706172616D65746572732072656C6174656420746F2074686520757365722D64657465637461626C65 -- // This file gathers configuration parameters related to the user-detectable
, 0x2F2F206B6579626F61726420657870657269656E63652E20466F72206578616D706C652C20707574206B6579206465626F756E63652074696D65732C207265706561742072617465732C -- // keyboard experience. For example, put key debounce times, repeat rates,
, 0x2F2F206275666665722073697A65642C20626175642072617465732C206574632E20686572652E2044657461696C7320737563682061732070726F636573736F7220636C6F636B2073706565642C -- // buffer sized, baud rates, etc. here. Details such as processor clock speed,
, 0x2F2F206574632E2073686F756C6420676F20696E20746865206172636869746563747572652D646570656E64656E742066696C65732E2053797374656D2064657461696C732073756368206173 -- // etc. should go in the architecture-dependent files. System details such as
, 0x2F2F206E756D626572206F66206275666665722068616E646C65732C206574632E2073686F756C6420676F20776974682074686520617070726F707269617465206D6F64756C652C20627574 -- // number of buffer handles, etc. should go with the appropriate module, but
, 0x2F2F206365727461696E206275666665722073697A6564206D617920676F206865726520696620746865792063616E2061666665637420746865207573657220657870657269656E6365202873756368 -- // certain buffer sized may go here if they can affect the user experience (such
, 0x2F2F20617320686F77206C6F6E672061206D6163726F2063616E206265292E -- // as how long a macro can be).
, 0x2F2F -- //
, 0x2F2F20436F7079726967687420323031392044617669642046656E796573 -- // Copyright 2019 David Fenyes
, 0x2F2F20546869732070726F6772616D206973206672656520736F6674776172653A20796F752063616E2072656469737472696275746520697420616E642F6F72206D6F6469667920697420756E646572 -- // This program is free software: you can redistribute it and/or modify it under
, 0x2F2F20746865207465726D73206F662074686520474E552047656E6572616C205075626C6963204C6963656E7365206173207075626C697368656420627920746865204672656520536F667477617265 -- // the terms of the GNU General Public License as published by the Free Software
, 0x2F2F20466F756E646174696F6E2C206569746865722076657273696F6E2033206F6620746865204C6963656E73652C206F722028617420796F7572206F7074696F6E2920616E79206C61746572 -- // Foundation, either version 3 of the License, or (at your option) any later
, 0x2F2F2076657273696F6E2E -- // version.
, 0x2F2F -- //
, 0x2F2F20546869732070726F6772616D20697320646973747269627574656420696E2074686520686F706520746861742069742077696C6C2062652075736566756C2C2062757420574954484F5554 -- // This program is distributed in the hope that it will be useful, but WITHOUT
, 0x2F2F20414E592057415252414E54593B20776974686F7574206576656E2074686520696D706C6965642077617272616E7479206F66204D45524348414E544142494C495459206F72204649544E455353 -- // ANY WARRANTY; without even the implied warranty of MERCHANTABILITY or FITNESS
, 0x2F2F20464F52204120504152544943554C415220505552504F53452E205365652074686520474E552047656E6572616C205075626C6963204C6963656E736520666F72206D6F7265 -- // FOR A PARTICULAR PURPOSE. See the GNU General Public License for more
, 0x2F2F2064657461696C732E -- // details.
, 0x2F2F -- //
, 0x2F2F20596F752073686F756C642068617665207265636569766564206120636F7079206F662074686520474E552047656E6572616C205075626C6963204C6963656E736520616C6F6E672077697468 -- // You should have received a copy of the GNU General Public License along with
, 0x2F2F20746869732070726F6772616D2E204966206E6F742C20736565203C68747470733A2F2F7777772E676E752E6F72672F6C6963656E7365732F3E2E -- // this program. If not, see <https://www.gnu.org/licenses/>.
, 0x2F2F -- //
, 0x0 -- 
, 0x2369662021646566696E656428434F4E4649475F4829 -- #if !defined(CONFIG_H)
, 0x23646566696E6520434F4E4649475F48 -- #define CONFIG_H
, 0x0 -- 
, 0x23646566696E6520415344465F504F5349544956455F504F4C41524954592030 -- #define ASDF_POSITIVE_POLARITY 0
, 0x23646566696E6520415344465F4E454741544956455F504F4C415249545920287E415344465F504F5349544956455F504F4C415249545929 -- #define ASDF_NEGATIVE_POLARITY (~ASDF_POSITIVE_POLARITY)
, 0x0 -- 
, 0x2F2F206461746120706F6C617269747920697320706F7369746976652028696E616374697665206973206C6F772C20616374697665206973206869676829 -- // data polarity is positive (inactive is low, active is high)
, 0x23646566696E6520415344465F44454641554C545F444154415F504F4C415249545920415344465F504F5349544956455F504F4C4152495459 -- #define ASDF_DEFAULT_DATA_POLARITY ASDF_POSITIVE_POLARITY
, 0x0 -- 
, 0x2F2F205374726F626520706F6C617269747920697320706F7369746976652028696E616374697665206973206C6F772C20616374697665206973206869676829 -- // Strobe polarity is positive (inactive is low, active is high)
, 0x23646566696E6520415344465F44454641554C545F5354524F42455F504F4C415249545920415344465F504F5349544956455F504F4C4152495459 -- #define ASDF_DEFAULT_STROBE_POLARITY ASDF_POSITIVE_POLARITY
, 0x0 -- 
, 0x2F2F205245534554206F757470757420706F6C6172697479206973206E656761746976652028696E61637469766520697320686967682C20616374697665206973206C6F7729 -- // RESET output polarity is negative (inactive is high, active is low)
, 0x23646566696E6520415344465F44454641554C545F52455345545F504F4C415249545920415344465F4E454741544956455F504F4C4152495459 -- #define ASDF_DEFAULT_RESET_POLARITY ASDF_NEGATIVE_POLARITY
, 0x0 -- 
, 0x2F2F2053435245454E5F434C454152206F757470757420706F6C617269747920697320706F7369746976652028696E616374697665206973206C6F772C20616374697665206973206869676829 -- // SCREEN_CLEAR output polarity is positive (inactive is low, active is high)
, 0x23646566696E6520415344465F44454641554C545F53435245454E5F434C4541525F504F4C415249545920415344465F504F5349544956455F504F4C4152495459 -- #define ASDF_DEFAULT_SCREEN_CLEAR_POLARITY ASDF_POSITIVE_POLARITY
, 0x0 -- 
, 0x0 -- 
, 0x2F2F2044617461207374727563747572652073697A65733A -- // Data structure sizes:
, 0x0 -- 
, 0x2F2F2073697A65206F6620746865206B6579636F6465206F7574707574206275666665722E -- // size of the keycode output buffer.
, 0x23646566696E6520415344465F4B4559434F44455F4255464645525F53495A45203136 -- #define ASDF_KEYCODE_BUFFER_SIZE 16
, 0x0 -- 
, 0x23646566696E6520415344465F4D4553534147455F4255464645525F53495A4520313238 -- #define ASDF_MESSAGE_BUFFER_SIZE 128
, 0x0 -- 
, 0x23646566696E6520415344465F4255464645525F504F4F4C5F53495A452028415344465F4D4553534147455F4255464645525F53495A45202B20415344465F4B4559434F44455F4255464645525F53495A4529 -- #define ASDF_BUFFER_POOL_SIZE (ASDF_MESSAGE_BUFFER_SIZE + ASDF_KEYCODE_BUFFER_SIZE)
, 0x0 -- 
, 0x2F2F206B6579206465626F756E636520706572696F642028696E206D73656329 -- // key debounce period (in msec)
, 0x23646566696E6520415344465F4445424F554E43455F54494D455F4D53203130 -- #define ASDF_DEBOUNCE_TIME_MS 10
, 0x0 -- 
, 0x2F2F204175746F7265706561742064656661756C74206265686176696F722E2053657420746F205245504541545F4155544F20666F722064656661756C74206175746F7265706561742E -- // Autorepeat default behavior. Set to REPEAT_AUTO for default autorepeat.
, 0x2F2F2053657420746F205245504541545F4F464620666F722064656661756C74206E6F206175746F7265706561742062792064656661756C742E -- // Set to REPEAT_OFF for default no autorepeat by default.
, 0x23646566696E6520415344465F44454641554C545F5245504541545F5354415445205245504541545F4155544F -- #define ASDF_DEFAULT_REPEAT_STATE REPEAT_AUTO
, 0x0 -- 
, 0x2F2F2074696D6520746F2077616974206265666F72652073656E64696E6720636F6E7365637574697665206D657373616765206368617261637465727320746F2074686520686F73742C20746F -- // time to wait before sending consecutive message characters to the host, to
, 0x2F2F20656E737572652074686174206D657373616765732061726520696E74616374206F6E20686F737473207468617420706F6C6C2074686520706F727420776974686F7574 -- // ensure that messages are intact on hosts that poll the port without
, 0x2F2F20627566666572696E672E2028696E206D73656329 -- // buffering. (in msec)
, 0x23646566696E6520415344465F4D4553534147455F4348415241435445525F44454C4159203136202F2F6D736563 -- #define ASDF_MESSAGE_CHARACTER_DELAY 16 //msec
, 0x0 -- 
, 0x2F2F2074696D6520746F20686F6C6420646F776E2061206B657920696E206D696C6C697365636F6E6473206265666F7265206175746F72657065617420737461727473 -- // time to hold down a key in milliseconds before autorepeat starts
, 0x23646566696E6520415344465F4155544F5245504541545F54494D455F4D5320353235202F2F20353235206D7365632E -- #define ASDF_AUTOREPEAT_TIME_MS 525 // 525 msec.
, 0x0 -- 
, 0x2F2F2074696D65206265747765656E2072657065617473206F66206120636861726163746572207769746820726570656174206B65792068656C642C206F7220696E206175746F72657065617420286D696C6C697365636F6E647329 -- // time between repeats of a character with repeat key held, or in autorepeat (milliseconds)
, 0x23646566696E6520415344465F5245504541545F54494D455F4D53202831303030202F20313529202F2F206C35206368617261637465727320706572207365632E -- #define ASDF_REPEAT_TIME_MS (1000 / 15) // l5 characters per sec.
, 0x0 -- 
, 0x2F2F206475726174696F6E206F66206B6579626F617264206F75747075742070756C736573202852455345542C2053435245454E20434C4541522C20425245414B2C206574632E29 -- // duration of keyboard output pulses (RESET, SCREEN CLEAR, BREAK, etc.)
, 0x23646566696E6520415344465F50554C53455F44454C41595F53484F52545F5553203130 -- #define ASDF_PULSE_DELAY_SHORT_US 10
, 0x0 -- 
, 0x2F2F206475726174696F6E206F66206B6579626F617264206F75747075742070756C736573202852455345542C2053435245454E20434C4541522C20425245414B2C206574632E29 -- // duration of keyboard output pulses (RESET, SCREEN CLEAR, BREAK, etc.)
, 0x23646566696E6520415344465F50554C53455F44454C41595F4C4F4E475F4D53203530 -- #define ASDF_PULSE_DELAY_LONG_MS 50
, 0x0 -- 
, 0x2F2F2044454641554C542076616C7565206F66206B6579626F617264206F757470757473 -- // DEFAULT value of keyboard outputs
, 0x23646566696E6520415344465F5649525455414C5F4F55545F44454641554C545F56414C55452031202F2F2048696768206966206E6F7420757365642E -- #define ASDF_VIRTUAL_OUT_DEFAULT_VALUE 1 // High if not used.
, 0x0 -- 
, 0x2F2F2044454641554C54206B6579207363616E20726F7574696E65 -- // DEFAULT key scan routine
, 0x23646566696E6520415344465F44454641554C545F4B45595F5343414E4E455220617364665F6B65797363616E -- #define ASDF_DEFAULT_KEY_SCANNER asdf_keyscan
, 0x0 -- 
, 0x23656E646966202F2A2021646566696E65642028434F4E4649475F4829202A2F -- #endif /* !defined (CONFIG_H) */
, 0x0 -- 
, 0x2F2F2D2D2D2D2D2D2D7C2D2D2D2D2D2D2D2D2D7C2D2D2D2D2D2D2D2D2D2B2D2D2D2D2D2D2D2D2D2B2D2D2D2D2D2D2D2D2D2B2D2D2D2D2D2D2D2D2D2B2D2D2D2D2D2D2D2D2D2B2D2D2D2D2D2D2D2D2D2B -- //-------|---------|---------+---------+---------+---------+---------+---------+
, 0x2F2F2041626F7665206C696E6520697320383020636F6C756D6E732C20616E642073686F756C6420646973706C617920636F6D706C6574656C7920696E2074686520656469746F722E -- // Above line is 80 columns, and should display completely in the editor.
  ]

/-- /repo/firmware/asdf/src/asdf_hook.h, lines 1-98. -/
def asdf_hook_h : List Nat := [
  0x2F2F202D2A2D206D6F64653A20433B207461622D77696474683A2034203B20696E64656E742D746162732D6D6F64653A206E696C202D2A2D -- // -*- mode: C; tab-width: 4 ; indent-tabs-mode: nil -*-
, 0x2F2F -- //
, 0x2F2F20556E666966696564204B6579626F6172642050726F6A656374 -- // Unfified Keyboard Project
, 0x2F2F2041534446206B6579626F617264206669726D77617265 -- // ASDF keyboard firmware
, 0x2F2F -- //
, 0x2F2F20617364665F686F6F6B2E68 -- // asdf_hook.h
, 0x2F2F -- //
, 0x2F2F20446566696E6974696F6E7320616E642070726F746F747970657320666F7220636F6E666967757261626C652066756E6374696F6E20686F6F6B73 -- // Definitions and prototypes for configurable function hooks
, 0x2F2F -- //
, 0x2F2F20436F7079726967687420323031392044617669642046656E796573 -- // Copyright 2019 David Fenyes
, 0x2F2F20546869732070726F6772616D206973206672656520736F6674776172653A20796F752063616E2072656469737472696275746520697420616E642F6F72206D6F6469667920697420756E646572 -- // This program is free software: you can redistribute it and/or modify it under
, 0x2F2F20746865207465726D73206F662074686520474E552047656E6572616C205075626C6963204C6963656E7365206173207075626C697368656420627920746865204672656520536F667477617265 -- // the terms of the GNU General Public License as published by the Free Software
, 0x2F2F20466F756E646174696F6E2C206569746865722076657273696F6E2033206F6620746865204C6963656E73652C206F722028617420796F7572206F7074696F6E2920616E79206C61746572 -- // Foundation, either version 3 of the License, or (at your option) any later
, 0x2F2F2076657273696F6E2E -- // version.
, 0x2F2F -- //
, 0x2F2F20546869732070726F6772616D20697320646973747269627574656420696E2074686520686F706520746861742069742077696C6C2062652075736566756C2C2062757420574954484F5554 -- // This program is distributed in the hope that it will be useful, but WITHOUT
, 0x2F2F20414E592057415252414E54593B20776974686F7574206576656E2074686520696D706C6965642077617272616E7479206F66204D45524348414E544142494C495459206F72204649544E455353 -- // ANY WARRANTY; without even the implied warranty of MERCHANTABILITY or FITNESS
, 0x2F2F20464F52204120504152544943554C415220505552504F53452E205365652074686520474E552047656E6572616C205075626C6963204C6963656E736520666F72206D6F7265 -- // FOR A PARTICULAR PURPOSE. See the GNU General Public License for more
, 0x2F2F2064657461696C732E -- // details.
, 0x2F2F -- //
, 0x2F2F20596F752073686F756C642068617665207265636569766564206120636F7079206F662074686520474E552047656E6572616C205075626C6963204C6963656E736520616C6F6E672077697468 -- // You should have received a copy of the GNU General Public License along with
, 0x2F2F20746869732070726F6772616D2E204966206E6F742C20736565203C68747470733A2F2F7777772E676E752E6F72672F6C6963656E7365732F3E2E -- // this program. If not, see <https://www.gnu.org/licenses/>.
, 0x2F2F -- //
, 0x0 -- 
, 0x2369662021646566696E656428415344465F484F4F4B535F4829 -- #if !defined(ASDF_HOOKS_H)
, 0x23646566696E6520415344465F484F4F4B535F48 -- #define ASDF_HOOKS_H
, 0x0 -- 
, 0x2F2F205468657365206172652022686F6F6B7322206F7574707574206964656E7469666965727320746861742063616E206265206D617070656420746F20746865207265616C206F757470757473207573696E67 -- // These are "hooks" output identifiers that can be mapped to the real outputs using
, 0x2F2F206B65796D617020696E697469616C697A657220636F6D6D616E64732E -- // keymap initializer commands.
, 0x7479706564656620656E756D207B -- typedef enum {
, 0x2020415344465F484F4F4B5F4E554C4C2C --   ASDF_HOOK_NULL,
, 0x2020415344465F484F4F4B5F4B45595F5343414E4E45522C --   ASDF_HOOK_KEY_SCANNER,
, 0x2020415344465F484F4F4B5F524F575F5343414E4E45522C --   ASDF_HOOK_ROW_SCANNER,
, 0x2020415344465F484F4F4B5F4F55545055542C --   ASDF_HOOK_OUTPUT,
, 0x2020415344465F484F4F4B5F454143485F5343414E2C --   ASDF_HOOK_EACH_SCAN,
, 0x2020415344465F484F4F4B5F555345525F312C --   ASDF_HOOK_USER_1,
, 0x2020415344465F484F4F4B5F555345525F322C --   ASDF_HOOK_USER_2,
, 0x2020415344465F484F4F4B5F555345525F332C --   ASDF_HOOK_USER_3,
, 0x2020415344465F484F4F4B5F555345525F342C --   ASDF_HOOK_USER_4,
, 0x2020415344465F484F4F4B5F555345525F352C --   ASDF_HOOK_USER_5,
, 0x2020415344465F484F4F4B5F555345525F362C --   ASDF_HOOK_USER_6,
, 0x2020415344465F484F4F4B5F555345525F372C --   ASDF_HOOK_USER_7,
, 0x2020415344465F484F4F4B5F555345525F382C --   ASDF_HOOK_USER_8,
, 0x2020415344465F484F4F4B5F555345525F392C --   ASDF_HOOK_USER_9,
, 0x2020415344465F484F4F4B5F555345525F31302C --   ASDF_HOOK_USER_10,
, 0x2020415344465F484F4F4B5F555345525F31312C --   ASDF_HOOK_USER_11,
, 0x2020415344465F4E554D5F484F4F4B532C --   ASDF_NUM_HOOKS,
, 0x7D20617364665F686F6F6B5F69645F743B -- } asdf_hook_id_t;
, 0x0 -- 
, 0x23646566696E6520415344465F484F4F4B5F4B45594D41505F534554555020415344465F4E554D5F484F4F4B53 -- #define ASDF_HOOK_KEYMAP_SETUP ASDF_NUM_HOOKS
, 0x0 -- 
, 0x2F2F2045616368206B65796D61702073706563696669657320616E206172726179206F6620696E697469616C697A6572207374727563747320746F20636F6E6669677572652066756E6374696F6E20686F6F6B732C -- // Each keymap specifies an array of initializer structs to configure function hooks,
, 0x2F2F2073706563696679696E672074686520686F6F6B20494420616E64206D61707065642066756E6374696F6E2E -- // specifying the hook ID and mapped function.
, 0x0 -- 
, 0x7479706564656620766F696420282A617364665F686F6F6B5F66756E6374696F6E5F742928766F6964293B -- typedef void (*asdf_hook_function_t)(void);
, 0x0 -- 
, 0x7479706564656620737472756374207B -- typedef struct {
, 0x2020617364665F686F6F6B5F69645F7420686F6F6B5F69643B --   asdf_hook_id_t hook_id;
, 0x2020617364665F686F6F6B5F66756E6374696F6E5F7420686F6F6B5F66756E633B --   asdf_hook_function_t hook_func;
, 0x7D20617364665F686F6F6B5F696E697469616C697A65725F743B -- } asdf_hook_initializer_t;
, 0x0 -- 
, 0x0 -- 
, 0x2F2F2050524F4345445552453A20617364665F686F6F6B5F65786563757465 -- // PROCEDURE: asdf_hook_execute
, 0x2F2F20494E505554533A2028617364665F686F6F6B5F69645F742920686F6F6B5F69643A2054686520686F6F6B20666F7220776869636820746F206578656375746520617474616368652066756E6374696F6E732E -- // INPUTS: (asdf_hook_id_t) hook_id: The hook for which to execute attache functions.
, 0x2F2F204F5554505554533A206E6F6E65 -- // OUTPUTS: none
, 0x2F2F204445534352495054494F4E3A2069662074686520686F6F6B2049442069732076616C69642C207468656E2065786563757465207468652066756E6374696F6E20617474616368656420746F2074686520686F6F6B2E -- // DESCRIPTION: if the hook ID is valid, then execute the function attached to the hook.
, 0x2F2F205349444520454646454354533A207661726961626C6520646570656E64696E67206F6E2074686520686F6F6B732E -- // SIDE EFFECTS: variable depending on the hooks.
, 0x766F696420617364665F686F6F6B5F6578656375746528617364665F686F6F6B5F69645F7420686F6F6B5F6964293B -- void asdf_hook_execute(asdf_hook_id_t hook_id);
, 0x0 -- 
, 0x2F2F2050524F4345445552453A20617364665F686F6F6B5F676574 -- // PROCEDURE: asdf_hook_get
, 0x2F2F20494E505554533A2028617364665F686F6F6B5F69645F742920686F6F6B5F69643A2054686520686F6F6B20666F7220776869636820746F20726574726965766520746865206174746163686564 -- // INPUTS: (asdf_hook_id_t) hook_id: The hook for which to retrieve the attached
, 0x2F2F2066756E6374696F6E2E -- // function.
, 0x2F2F204F5554505554533A206E6F6E65 -- // OUTPUTS: none
, 0x2F2F204445534352495054494F4E3A2069662074686520686F6F6B2049442069732076616C69642C207468656E207265747269657665207468652066756E6374696F6E20617474616368656420746F2074686520686F6F6B2E -- // DESCRIPTION: if the hook ID is valid, then retrieve the function attached to the hook.
, 0x2F2F205349444520454646454354533A206E6F6E65 -- // SIDE EFFECTS: none
, 0x617364665F686F6F6B5F66756E6374696F6E5F7420617364665F686F6F6B5F67657428617364665F686F6F6B5F69645F7420686F6F6B5F6964293B -- asdf_hook_function_t asdf_hook_get(asdf_hook_id_t hook_id);
, 0x0 -- 
, 0x2F2F2050524F4345445552453A20617364665F686F6F6B5F696E6974 -- // PROCEDURE: asdf_hook_init
, 0x2F2F20494E505554533A206E6F6E65 -- // INPUTS: none
, 0x2F2F204F5554505554533A206E6F6E65 -- // OUTPUTS: none
, 0x2F2F204445534352495054494F4E3A20496E697469616C697A65732066756E6374696F6E20686F6F6B7320666F72207468652073656C6563746564206B65796D61702E2049662061 -- // DESCRIPTION: Initializes function hooks for the selected keymap. If a
, 0x2F2F2066756E6374696F6E2069732061737369676E656420746F2074686520224B45594D41505F53455455502220686F6F6B2C207468656E2065786563757465207468652066756E6374696F6E2E -- // function is assigned to the "KEYMAP_SETUP" hook, then execute the function.
, 0x2F2F205468657265206973206E6F2061637475616C20736C6F74207768657265204B45594D41505F53455455502066756E6374696F6E73206172652073746F7265642E -- // There is no actual slot where KEYMAP_SETUP functions are stored.
, 0x766F696420617364665F686F6F6B5F696E697428766F6964293B -- void asdf_hook_init(void);
, 0x0 -- 
, 0x2F2F2050524F4345445552453A20617364665F686F6F6B5F61737369676E -- // PROCEDURE: asdf_hook_assign
, 0x2F2F20494E505554533A2028617364665F686F6F6B5F69645F742920686F6F6B5F69643A2054686520686F6F6B20666F7220776869636820746F206578656375746520617474616368652066756E6374696F6E732E -- // INPUTS: (asdf_hook_id_t) hook_id: The hook for which to execute attache functions.
, 0x2F2F20202020202020202028617364665F686F6F6B5F66756E6374696F6E5F74292066756E633A2066756E6374696F6E20746F20626520617474616368656420746F2074686520686F6F6B2E -- //         (asdf_hook_function_t) func: function to be attached to the hook.
, 0x2F2F204F5554505554533A206E6F6E65 -- // OUTPUTS: none
, 0x2F2F204445534352495054494F4E3A2049662074686520686F6F6B2049442069732076616C69642C206D6170207468652066756E6374696F6E20746F2074686520686F6F6B2049442E -- // DESCRIPTION: If the hook ID is valid, map the function to the hook ID.
, 0x2F2F2049676E6F7265206966206E6F742076616C69642E -- // Ignore if not valid.
, 0x766F696420617364665F686F6F6B5F61737369676E28617364665F686F6F6B5F69645F7420686F6F6B5F69642C20617364665F686F6F6B5F66756E6374696F6E5F742066756E63293B -- void asdf_hook_assign(asdf_hook_id_t hook_id, asdf_hook_function_t func);
, 0x0 -- 
, 0x0 -- 
, 0x23656E646966202F2A2021646566696E65642028415344465F484F4F4B535F4829202A2F -- #endif /* !defined (ASDF_HOOKS_H) */
, 0x0 -- 
, 0x2F2F2D2D2D2D2D2D2D7C2D2D2D2D2D2D2D2D2D7C2D2D2D2D2D2D2D2D2D2B2D2D2D2D2D2D2D2D2D2B2D2D2D2D2D2D2D2D2D2B2D2D2D2D2D2D2D2D2D2B2D2D2D2D2D2D2D2D2D2B2D2D2D2D2D2D2D2D2D2B -- //-------|---------|---------+---------+---------+---------+---------+---------+
, 0x2F2F2041626F7665206C696E6520697320383020636F6C756D6E732C20616E642073686F756C6420646973706C617920636F6D706C6574656C7920696E2074686520656469746F722E -- // Above line is 80 columns, and should display completely in the editor.
  ]

/-- /repo/firmware/asdf/src/asdf_keymap_setup.h.in, lines 1-47. -/
def asdf_keymap_setup_h_in : List Nat := [
  0x2F2F202D2A2D206D6F64653A20433B207461622D77696474683A2032203B20696E64656E742D746162732D6D6F64653A206E696C202D2A2D20 -- // -*- mode: C; tab-width: 2 ; indent-tabs-mode: nil -*- 
, 0x2F2F -- //
, 0x2F2F20556E6966696564204B6579626F6172642050726F6A656374 -- // Unified Keyboard Project
, 0x2F2F2041534446206B6579626F617264206669726D77617265 -- // ASDF keyboard firmware
, 0x2F2F -- //
, 0x2F2F20617364665F6B65796D61705F7461626C652E63 -- // asdf_keymap_table.c
, 0x2F2F -- //
, 0x2F2F20696E697469616C697A65206B65796D61702073657475702066756E6374696F6E207461626C65 -- // initialize keymap setup function table
, 0x2F2F -- //
, 0x2F2F202A2A2A204155544F2D67656E6572617465642066696C652E2020444F204E4F5420454449542E202A2A2A -- // *** AUTO-generated file.  DO NOT EDIT. ***
, 0x2F2F202A2A2A20546F206D6F646966792074656D706C6174652C20656469742024524F4F542F7372632F4B65796D6170732F617364665F6B65796D61705F7461626C652E632E696E202A2A2A -- // *** To modify template, edit $ROOT/src/Keymaps/asdf_keymap_table.c.in ***
, 0x2F2F202A2A2A20546F206D6F64696679206B65796D6170206C6973742C20656469742024524F4F542F6B65796D61705F6C6973742E636D616B65 -- // *** To modify keymap list, edit $ROOT/keymap_list.cmake
, 0x2F2F -- //
, 0x2F2F20436F7079726967687420323031392044617669642046656E796573 -- // Copyright 2019 David Fenyes
, 0x2F2F -- //
, 0x2F2F20546869732070726F6772616D206973206672656520736F6674776172653A20796F752063616E2072656469737472696275746520697420616E642F6F72206D6F6469667920697420756E646572 -- // This program is free software: you can redistribute it and/or modify it under
, 0x2F2F20746865207465726D73206F662074686520474E552047656E6572616C205075626C6963204C6963656E7365206173207075626C697368656420627920746865204672656520536F667477617265 -- // the terms of the GNU General Public License as published by the Free Software
, 0x2F2F20466F756E646174696F6E2C206569746865722076657273696F6E2033206F6620746865204C6963656E73652C206F722028617420796F7572206F7074696F6E2920616E79206C61746572 -- // Foundation, either version 3 of the License, or (at your option) any later
, 0x2F2F2076657273696F6E2E -- // version.
, 0x2F2F -- //
, 0x2F2F20546869732070726F6772616D20697320646973747269627574656420696E2074686520686F706520746861742069742077696C6C2062652075736566756C2C2062757420574954484F5554 -- // This program is distributed in the hope that it will be useful, but WITHOUT
, 0x2F2F20414E592057415252414E54593B20776974686F7574206576656E2074686520696D706C6965642077617272616E7479206F66204D45524348414E544142494C495459206F72204649544E455353 -- // ANY WARRANTY; without even the implied warranty of MERCHANTABILITY or FITNESS
, 0x2F2F20464F52204120504152544943554C415220505552504F53452E205365652074686520474E552047656E6572616C205075626C6963204C6963656E736520666F72206D6F7265 -- // FOR A PARTICULAR PURPOSE. See the GNU General Public License for more
, 0x2F2F2064657461696C732E -- // details.
, 0x2F2F -- //
, 0x2F2F20596F752073686F756C642068617665207265636569766564206120636F7079206F662074686520474E552047656E6572616C205075626C6963204C6963656E736520616C6F6E672077697468 -- // You should have received a copy of the GNU General Public License along with
, 0x2F2F20746869732070726F6772616D2E204966206E6F742C20736565203C68747470733A2F2F7777772E676E752E6F72672F6C6963656E7365732F3E2E -- // this program. If not, see <https://www.gnu.org/licenses/>.
, 0x2F2F -- //
, 0x0 -- 
, 0x2F2F2050524F4345445552453A20617364665F6B65796D61705F7365747570 -- // PROCEDURE: asdf_keymap_setup
, 0x2F2F20494E505554533A202875696E74385F742920696E646578202D20696E646578206F6620746865206B65796D61702073657475702066756E6374696F6E20746F2063616C6C -- // INPUTS: (uint8_t) index - index of the keymap setup function to call
, 0x2F2F204F5554505554533A206E6F6E65 -- // OUTPUTS: none
, 0x2F2F204445534352495054494F4E3A20546869732066756E6374696F6E2063616C6C7320746865206B65796D61702073657475702066756E6374696F6E20737065636966696564 -- // DESCRIPTION: This function calls the keymap setup function specified
, 0x2F2F202020202020202020202020202062792074686520696E6465782E -- //              by the index.
, 0x2F2F205349444520454646454354533A20536565204465736372697074696F6E -- // SIDE EFFECTS: See Description
, 0x766F696420617364665F6B65796D61705F73657475702875696E74385F7420696E646578293B -- void asdf_keymap_setup(uint8_t index);
, 0x0 -- 
, 0x2F2F2050524F4345445552453A20617364665F6B65796D61705F76616C6964 -- // PROCEDURE: asdf_keymap_valid
, 0x2F2F20494E505554533A202875696E74385F742920696E646578202D20696E646578206F6620746865206B65796D61702073657475702066756E6374696F6E20746F20636865636B -- // INPUTS: (uint8_t) index - index of the keymap setup function to check
, 0x2F2F204F5554505554533A202875696E74755F74292072657475726E73205452554520286E6F6E7A65726F292069662076616C69642C2046414C534520283029206F7468657277697365 -- // OUTPUTS: (uintu_t) returns TRUE (nonzero) if valid, FALSE (0) otherwise
, 0x2F2F204445534352495054494F4E3A20546869732066756E6374696F6E2072657475726E7320545255452069662074686520696E64657820636F72726573706F6E647320746F -- // DESCRIPTION: This function returns TRUE if the index corresponds to
, 0x2F2F2020202020202020202020202020612076616C6964206B65796D61702E -- //              a valid keymap.
, 0x75696E74385F7420617364665F6B65796D61705F76616C69642875696E74385F7420696E646578293B -- uint8_t asdf_keymap_valid(uint8_t index);
, 0x0 -- 
, 0x2F2F2D2D2D2D2D2D2D7C2D2D2D2D2D2D2D2D2D7C2D2D2D2D2D2D2D2D2D2B2D2D2D2D2D2D2D2D2D2B2D2D2D2D2D2D2D2D2D2B2D2D2D2D2D2D2D2D2D2B2D2D2D2D2D2D2D2D2D2B2D2D2D2D2D2D2D2D2D2B -- //-------|---------|---------+---------+---------+---------+---------+---------+
, 0x2F2F2041626F7665206C696E6520697320383020636F6C756D6E732C20616E642073686F756C6420646973706C617920636F6D706C6574656C7920696E2074686520656469746F722E -- // Above line is 80 columns, and should display completely in the editor.
, 0x0 -- 
  ]

/-- /repo/firmware/asdf/src/asdf_keymaps.h, lines 1-183. -/
def asdf_keymaps_h : List Nat := [
  0x2F2F202D2A2D206D6F64653A20433B207461622D77696474683A2034203B20696E64656E742D746162732D6D6F64653A206E696C202D2A2D -- // -*- mode: C; tab-width: 4 ; indent-tabs-mode: nil -*-
, 0x2F2F -- //
, 0x2F2F2020556E666966696564204B6579626F6172642050726F6A656374 -- //  Unfified Keyboard Project
, 0x2F2F202041534446206B6579626F617264206669726D77617265 -- //  ASDF keyboard firmware
, 0x2F2F -- //
, 0x2F2F2020617364665F6B65796D6170732E68 -- //  asdf_keymaps.h
, 0x2F2F -- //
, 0x2F2F20436F7079726967687420323031392044617669642046656E796573 -- // Copyright 2019 David Fenyes
, 0x2F2F -- //
, 0x2F2F20546869732070726F6772616D206973206672656520736F6674776172653A20796F752063616E2072656469737472696275746520697420616E642F6F72206D6F6469667920697420756E646572 -- // This program is free software: you can redistribute it and/or modify it under
, 0x2F2F20746865207465726D73206F662074686520474E552047656E6572616C205075626C6963204C6963656E7365206173207075626C697368656420627920746865204672656520536F667477617265 -- // the terms of the GNU General Public License as published by the Free Software
, 0x2F2F20466F756E646174696F6E2C206569746865722076657273696F6E2033206F6620746865204C6963656E73652C206F722028617420796F7572206F7074696F6E2920616E79206C61746572 -- // Foundation, either version 3 of the License, or (at your option) any later
, 0x2F2F2076657273696F6E2E -- // version.
, 0x2F2F -- //
, 0x2F2F20546869732070726F6772616D20697320646973747269627574656420696E2074686520686F706520746861742069742077696C6C2062652075736566756C2C2062757420574954484F5554 -- // This program is distributed in the hope that it will be useful, but WITHOUT
, 0x2F2F20414E592057415252414E54593B20776974686F7574206576656E2074686520696D706C6965642077617272616E7479206F66204D45524348414E544142494C495459206F72204649544E455353 -- // ANY WARRANTY; without even the implied warranty of MERCHANTABILITY or FITNESS
, 0x2F2F20464F52204120504152544943554C415220505552504F53452E205365652074686520474E552047656E6572616C205075626C6963204C6963656E736520666F72206D6F7265 -- // FOR A PARTICULAR PURPOSE. See the GNU General Public License for more
, 0x2F2F2064657461696C732E -- // details.
, 0x2F2F -- //
, 0x2F2F20596F752073686F756C642068617665207265636569766564206120636F7079206F662074686520474E552047656E6572616C205075626C6963204C6963656E736520616C6F6E672077697468 -- // You should have received a copy of the GNU General Public License along with
, 0x2F2F20746869732070726F6772616D2E204966206E6F742C20736565203C68747470733A2F2F7777772E676E752E6F72672F6C6963656E7365732F3E2E -- // this program. If not, see <https://www.gnu.org/licenses/>.
, 0x0 -- 
, 0x2F2F205768696C65207468657265206973206E6F7468696E672070726576656E74696E672061207374616E64617264206B6579626F6172642066726F6D20686176696E6720626F74682061 -- // While there is nothing preventing a standard keyboard from having both a
, 0x2F2F20225368696674204C6F636B22206B657920616E642061202243617073204C6F636B22206B65792C20757375616C6C79206F6E6C79206F6E652077696C6C2062652070726573656E742E20466F72 -- // "Shift Lock" key and a "Caps Lock" key, usually only one will be present. For
, 0x2F2F2074657374696E672C20626F7468206D7573742062652070726573656E7420746F20746573742074686569722066756E6374696F6E616C6974792E -- // testing, both must be present to test their functionality.
, 0x0 -- 
, 0x2369662021646566696E656428415344465F4B45594D4150535F4829 -- #if !defined(ASDF_KEYMAPS_H)
, 0x23646566696E6520415344465F4B45594D4150535F48 -- #define ASDF_KEYMAPS_H
, 0x0 -- 
, 0x23696E636C7564652022617364662E6822 -- #include "asdf.h"
, 0x23696E636C7564652022617364665F686F6F6B2E6822 -- #include "asdf_hook.h"
, 0x23696E636C7564652022617364665F7669727475616C2E6822 -- #include "asdf_virtual.h"
, 0x23696E636C7564652022617364665F706879736963616C2E6822 -- #include "asdf_physical.h"
, 0x23696E636C7564652022617364665F6D6F646966696572732E6822 -- #include "asdf_modifiers.h"
, 0x0 -- 
, 0x2F2F20446566696E65207468652062697420706F736974696F6E206F662065616368206B65796D617020444950207377697463682E2054686520444950207377697463682076616C756573206174 -- // Define the bit position of each keymap DIP switch. The DIP switch values at
, 0x2F2F20656163682062697420706F736974696F6E2063616E206265207573656420746F2073656C656374207468652063757272656E74206B65796D61702E205468697320726571756972657320746865 -- // each bit position can be used to select the current keymap. This requires the
, 0x2F2F2044495020737769746368657320746F206265206D617070656420746F2074686520617364665F6B65796D6170735F73656C6563745F585F736574282920616E64 -- // DIP switches to be mapped to the asdf_keymaps_select_X_set() and
, 0x2F2F20617364665F6B65796D6170735F73656C6563745F585F636C65617228292066756E6374696F6E7320696E2065616368206B65796D61702E -- // asdf_keymaps_select_X_clear() functions in each keymap.
, 0x23646566696E6520415344465F4B45594D41505F4249545F302031 -- #define ASDF_KEYMAP_BIT_0 1
, 0x23646566696E6520415344465F4B45594D41505F4249545F312032 -- #define ASDF_KEYMAP_BIT_1 2
, 0x23646566696E6520415344465F4B45594D41505F4249545F322034 -- #define ASDF_KEYMAP_BIT_2 4
, 0x23646566696E6520415344465F4B45594D41505F4249545F332038 -- #define ASDF_KEYMAP_BIT_3 8
, 0x0 -- 
, 0x2F2F20646566696E65207468652073747275637420666F722065616368206B65796D6170206D617472697820696E20746865206B65796D61702061727261792E204F6E6520706572 -- // define the struct for each keymap matrix in the keymap array. One per
, 0x2F2F206D6F6469666965722073746174652E2045616368206B65796D61702063616E20686176652069742773206F776E20726F7720616E6420636F6C756D6E20636F756E742E -- // modifier state. Each keymap can have it's own row and column count.
, 0x7479706564656620737472756374207B -- typedef struct {
, 0x2020617364665F6B6579636F64655F74202A6D61747269783B --   asdf_keycode_t *matrix;
, 0x202075696E74385F7420726F77733B --   uint8_t rows;
, 0x202075696E74385F7420636F6C733B --   uint8_t cols;
, 0x7D20617364665F6B6579636F64655F6D61705F743B -- } asdf_keycode_map_t;
, 0x0 -- 
, 0x2F2F2050524F4345445552453A20617364665F6B65796D6170735F6164645F6D6170 -- // PROCEDURE: asdf_keymaps_add_map
, 0x2F2F20494E505554533A2028617364665F6B6579636F64655F74202A29206D6174726978202D20706F696E74657220746F20746865206B6579636F6465206D617472697820746F2061646420696E20746F206D6170 -- // INPUTS: (asdf_keycode_t *) matrix - pointer to the keycode matrix to add in to map
, 0x2F2F2020202020202020202875696E74385F7429206D6F6469666965725F696E646578202D20746865206D6F6469666965722076616C756520666F7220746865206B6579636F6465206D6174726978206265696E67206164646564 -- //         (uint8_t) modifier_index - the modifier value for the keycode matrix being added
, 0x2F2F2020202020202020202875696E74385F742920726F7773202D206E756D626572206F6620726F777320696E20746865206B65796D6170 -- //         (uint8_t) rows - number of rows in the keymap
, 0x2F2F2020202020202020202875696E74385F742920636F6C73202D206E756D626572206F6620636F6C756D6E7320696E20746865206B65796D6170 -- //         (uint8_t) cols - number of columns in the keymap
, 0x2F2F204F5554505554533A206E6F6E65 -- // OUTPUTS: none
, 0x2F2F204445534352495054494F4E3A2043616C6C6564206279206B65796D6170206275696C64696E67206D6F64756C65732E205468697320726F7574696E6520616464732061206B65796D617020746F207468652063757272656E74 -- // DESCRIPTION: Called by keymap building modules. This routine adds a keymap to the current
, 0x2F2F2073657475702066756E6374696F6E20696E746F20746865206B65796D61702073657475702061727261792E -- // setup function into the keymap setup array.
, 0x2F2F204E4F5445533A20496620746865206B65796D6170206D6F64696669657220696E6465782C206E756D5F726F77732C206F72206E756D5F636F6C7320617265206E6F742076616C6964207468656E206E6F -- // NOTES: If the keymap modifier index, num_rows, or num_cols are not valid then no
, 0x2F2F20616374696F6E20697320706572666F726D65642E -- // action is performed.
, 0x766F696420617364665F6B65796D6170735F6164645F6D617028636F6E737420617364665F6B6579636F64655F74202A6D61747269782C -- void asdf_keymaps_add_map(const asdf_keycode_t *matrix,
, 0x20202020202020202020202020202020202020202020202020206D6F6469666965725F696E6465785F74206D6F6469666965725F696E6465782C --                           modifier_index_t modifier_index,
, 0x202020202020202020202020202020202020202020202020202075696E74385F74206E756D5F726F77732C2075696E74385F74206E756D5F636F6C73293B --                           uint8_t num_rows, uint8_t num_cols);
, 0x0 -- 
, 0x2F2F2050524F4345445552453A20617364665F6B65796D6170735F6E756D5F726F7773 -- // PROCEDURE: asdf_keymaps_num_rows
, 0x2F2F20494E505554533A206E6F6E65 -- // INPUTS: none
, 0x2F2F204F5554505554533A2075696E74385F74202D2072657475726E73206E756D626572206F6620726F777320696E206B65796D617020666F722063757272656E74206D6F646966696572207374617465 -- // OUTPUTS: uint8_t - returns number of rows in keymap for current modifier state
, 0x2F2F204445534352495054494F4E3A20536565204F555450555453 -- // DESCRIPTION: See OUTPUTS
, 0x75696E74385F7420617364665F6B65796D6170735F6E756D5F726F777328766F6964293B -- uint8_t asdf_keymaps_num_rows(void);
, 0x0 -- 
, 0x2F2F2050524F4345445552453A20617364665F6B65796D6170735F6E756D5F636F6C73 -- // PROCEDURE: asdf_keymaps_num_cols
, 0x2F2F20494E505554533A206E6F6E65 -- // INPUTS: none
, 0x2F2F204F5554505554533A2075696E74385F74202D2072657475726E73206E756D626572206F6620636F6C756D6E7320696E206B65796D617020666F722063757272656E74206D6F646966696572207374617465 -- // OUTPUTS: uint8_t - returns number of columns in keymap for current modifier state
, 0x2F2F204445534352495054494F4E3A20536565204F555450555453 -- // DESCRIPTION: See OUTPUTS
, 0x75696E74385F7420617364665F6B65796D6170735F6E756D5F636F6C7328766F6964293B -- uint8_t asdf_keymaps_num_cols(void);
, 0x0 -- 
, 0x2F2F2050524F4345445552453A20617364665F6B65796D6170735F73656C656374 -- // PROCEDURE: asdf_keymaps_select
, 0x2F2F20494E505554533A202875696E74385F742920696E646578202D20696E646578206F6620746865206B65796D6170206E756D62657220746F2073656C656374 -- // INPUTS: (uint8_t) index - index of the keymap number to select
, 0x2F2F204F5554505554533A206E6F6E65 -- // OUTPUTS: none
, 0x2F2F204445534352495054494F4E3A2061636365707473206120696E6465782076616C75652E2049662074686520726571756573746564206B65796D617020696E6465782069732076616C69642C -- // DESCRIPTION: accepts a index value. If the requested keymap index is valid,
, 0x2F2F207468656E2061737369676E207468652076616C756520746F2074686520676C6F62616C2028746F20746865206D6F64756C6529206B65796D61705F696E646578207661726961626C652E204966 -- // then assign the value to the global (to the module) keymap_index variable. If
, 0x2F2F2072657175657374656420696E646578206973206E6F742076616C6964207468656E20646F206E6F7468696E672E -- // requested index is not valid then do nothing.
, 0x766F696420617364665F6B65796D6170735F73656C6563742875696E74385F7420696E646578293B -- void asdf_keymaps_select(uint8_t index);
, 0x0 -- 
, 0x2F2F2050524F4345445552453A20617364665F6B65796D6170735F6D61705F73656C6563745F305F636C656172 -- // PROCEDURE: asdf_keymaps_map_select_0_clear
, 0x2F2F20494E505554533A206E6F6E65 -- // INPUTS: none
, 0x2F2F204F5554505554533A206E6F6E65 -- // OUTPUTS: none
, 0x2F2F204445534352495054494F4E3A2063616C6C6564207768656E206D61702073656C656374203020737769746368206973206F70656E2E20436C656172732074686520302062697420696E20746865 -- // DESCRIPTION: called when map select 0 switch is open. Clears the 0 bit in the
, 0x2F2F206B65796D617020696E6465782E -- // keymap index.
, 0x766F696420617364665F6B65796D6170735F6D61705F73656C6563745F305F636C65617228766F6964293B -- void asdf_keymaps_map_select_0_clear(void);
, 0x0 -- 
, 0x2F2F2050524F4345445552453A20617364665F6B65796D6170735F6D61705F73656C6563745F305F736574 -- // PROCEDURE: asdf_keymaps_map_select_0_set
, 0x2F2F20494E505554533A206E6F6E65 -- // INPUTS: none
, 0x2F2F204F5554505554533A206E6F6E65 -- // OUTPUTS: none
, 0x2F2F204445534352495054494F4E3A2063616C6C6564207768656E206D61702073656C65637420302073776974636820697320636C6F7365642E20536574732074686520302062697420696E20746865 -- // DESCRIPTION: called when map select 0 switch is closed. Sets the 0 bit in the
, 0x2F2F206B65796D617020696E6465782C2069662074686520726573756C74696E67206B65796D617020696E6465782069732076616C69642E20204F746865727769736520646F206E6F7468696E672E -- // keymap index, if the resulting keymap index is valid.  Otherwise do nothing.
, 0x766F696420617364665F6B65796D6170735F6D61705F73656C6563745F305F73657428766F6964293B -- void asdf_keymaps_map_select_0_set(void);
, 0x0 -- 
, 0x2F2F2050524F4345445552453A20617364665F6B65796D6170735F6D61705F73656C6563745F315F636C656172 -- // PROCEDURE: asdf_keymaps_map_select_1_clear
, 0x2F2F20494E505554533A206E6F6E65 -- // INPUTS: none
, 0x2F2F204F5554505554533A206E6F6E65 -- // OUTPUTS: none
, 0x2F2F204445534352495054494F4E3A2063616C6C6564207768656E206D61702073656C656374203120737769746368206973206F70656E2E20436C656172732074686520312062697420696E20746865 -- // DESCRIPTION: called when map select 1 switch is open. Clears the 1 bit in the
, 0x2F2F206B65796D617020696E6465782E -- // keymap index.
, 0x766F696420617364665F6B65796D6170735F6D61705F73656C6563745F315F636C65617228766F6964293B -- void asdf_keymaps_map_select_1_clear(void);
, 0x0 -- 
, 0x2F2F2050524F4345445552453A20617364665F6B65796D6170735F6D61705F73656C6563745F315F736574 -- // PROCEDURE: asdf_keymaps_map_select_1_set
, 0x2F2F20494E505554533A206E6F6E65 -- // INPUTS: none
, 0x2F2F204F5554505554533A206E6F6E65 -- // OUTPUTS: none
, 0x2F2F204445534352495054494F4E3A2063616C6C6564207768656E206D61702073656C65637420312073776974636820697320636C6F7365642E20536574732074686520302062697420696E20746865 -- // DESCRIPTION: called when map select 1 switch is closed. Sets the 0 bit in the
, 0x2F2F206B65796D617020696E6465782C2069662074686520726573756C74696E67206B65796D617020696E6465782069732076616C69642E20204F746865727769736520646F206E6F7468696E672E -- // keymap index, if the resulting keymap index is valid.  Otherwise do nothing.
, 0x766F696420617364665F6B65796D6170735F6D61705F73656C6563745F315F73657428766F6964293B -- void asdf_keymaps_map_select_1_set(void);
, 0x0 -- 
, 0x2F2F2050524F4345445552453A20617364665F6B65796D6170735F6D61705F73656C6563745F325F636C656172 -- // PROCEDURE: asdf_keymaps_map_select_2_clear
, 0x2F2F20494E505554533A206E6F6E65 -- // INPUTS: none
, 0x2F2F204F5554505554533A206E6F6E65 -- // OUTPUTS: none
, 0x2F2F204445534352495054494F4E3A2063616C6C6564207768656E206D61702073656C656374203220737769746368206973206F70656E2E20436C656172732074686520322062697420696E20746865 -- // DESCRIPTION: called when map select 2 switch is open. Clears the 2 bit in the
, 0x2F2F206B65796D617020696E6465782E -- // keymap index.
, 0x766F696420617364665F6B65796D6170735F6D61705F73656C6563745F325F636C65617228766F6964293B -- void asdf_keymaps_map_select_2_clear(void);
, 0x0 -- 
, 0x2F2F2050524F4345445552453A20617364665F6B65796D6170735F6D61705F73656C6563745F325F736574 -- // PROCEDURE: asdf_keymaps_map_select_2_set
, 0x2F2F20494E505554533A206E6F6E65 -- // INPUTS: none
, 0x2F2F204F5554505554533A206E6F6E65 -- // OUTPUTS: none
, 0x2F2F204445534352495054494F4E3A2063616C6C6564207768656E206D61702073656C65637420322073776974636820697320636C6F7365642E20536574732074686520302062697420696E20746865 -- // DESCRIPTION: called when map select 2 switch is closed. Sets the 0 bit in the
, 0x2F2F206B65796D617020696E6465782C2069662074686520726573756C74696E67206B65796D617020696E6465782069732076616C69642E20204F746865727769736520646F206E6F7468696E672E -- // keymap index, if the resulting keymap index is valid.  Otherwise do nothing.
, 0x766F696420617364665F6B65796D6170735F6D61705F73656C6563745F325F73657428766F6964293B -- void asdf_keymaps_map_select_2_set(void);
, 0x0 -- 
, 0x2F2F2050524F4345445552453A20617364665F6B65796D6170735F6D61705F73656C6563745F335F636C656172 -- // PROCEDURE: asdf_keymaps_map_select_3_clear
, 0x2F2F20494E505554533A206E6F6E65 -- // INPUTS: none
, 0x2F2F204F5554505554533A206E6F6E65 -- // OUTPUTS: none
, 0x2F2F204445534352495054494F4E3A2063616C6C6564207768656E206D61702073656C656374203320737769746368206973206F70656E2E20436C656172732074686520332062697420696E20746865 -- // DESCRIPTION: called when map select 3 switch is open. Clears the 3 bit in the
, 0x2F2F206B65796D617020696E6465782E -- // keymap index.
, 0x766F696420617364665F6B65796D6170735F6D61705F73656C6563745F335F636C65617228766F6964293B -- void asdf_keymaps_map_select_3_clear(void);
, 0x0 -- 
, 0x2F2F2050524F4345445552453A20617364665F6B65796D6170735F6D61705F73656C6563745F335F736574 -- // PROCEDURE: asdf_keymaps_map_select_3_set
, 0x2F2F20494E505554533A206E6F6E65 -- // INPUTS: none
, 0x2F2F204F5554505554533A206E6F6E65 -- // OUTPUTS: none
, 0x2F2F204445534352495054494F4E3A2063616C6C6564207768656E206D61702073656C65637420332073776974636820697320636C6F7365642E20536574732074686520302062697420696E20746865 -- // DESCRIPTION: called when map select 3 switch is closed. Sets the 0 bit in the
, 0x2F2F206B65796D617020696E6465782C2069662074686520726573756C74696E67206B65796D617020696E6465782069732076616C69642E20204F746865727769736520646F206E6F7468696E672E -- // keymap index, if the resulting keymap index is valid.  Otherwise do nothing.
, 0x766F696420617364665F6B65796D6170735F6D61705F73656C6563745F335F73657428766F6964293B -- void asdf_keymaps_map_select_3_set(void);
, 0x0 -- 
, 0x2F2F2050524F4345445552453A20617364665F6B65796D6170735F696E6974 -- // PROCEDURE: asdf_keymaps_init
, 0x2F2F20494E505554533A206E6F6E65 -- // INPUTS: none
, 0x2F2F204F5554505554533A206E6F6E65 -- // OUTPUTS: none
, 0x2F2F204445534352495054494F4E3A2041737369676E7320746865206B65796D61707320746F2074686520696E64696365732073706563696669656420627920746865206D6F646966696572 -- // DESCRIPTION: Assigns the keymaps to the indices specified by the modifier
, 0x2F2F20696E6465782C20746F2061766F696420686172642D636F64696E6720636F6E7374616E7420696E6465782076616C7565732E -- // index, to avoid hard-coding constant index values.
, 0x766F696420617364665F6B65796D6170735F696E697428766F6964293B -- void asdf_keymaps_init(void);
, 0x0 -- 
, 0x2F2F2050524F4345445552453A20617364665F6B65796D61705F6164645F7669727475616C5F646576696365 -- // PROCEDURE: asdf_keymap_add_virtual_device
, 0x2F2F20494E505554533A2028617364665F7669727475616C5F6465765F7429207669727475616C5F6465763A20546865207669727475616C20646576696365206265696E672061737369676E6564 -- // INPUTS: (asdf_virtual_dev_t) virtual_dev: The virtual device being assigned
, 0x2F2F20202020202020202028617364665F706879736963616C5F6465765F742920706879736963616C5F6465763A2054686520706879736963616C2064657669636520617474616368656420746F20746865207669727475616C20646576696365 -- //         (asdf_physical_dev_t) physical_dev: The physical device attached to the virtual device
, 0x2F2F20202020202020202028617364665F7669727475616C5F66756E6374696F6E5F74292066756E6374696F6E3A207468652066756E6374696F6E206173736F636961746564207769746820746865207669727475616C20646576696365 -- //         (asdf_virtual_function_t) function: the function associated with the virtual device
, 0x2F2F2020202020202020202875696E74385F742920696E697469616C5F76616C75653A2054686520696E697469616C207374617465206F6620746865207669727475616C20646576696365 -- //         (uint8_t) initial_value: The initial state of the virtual device
, 0x2F2F204F5554505554533A206E6F6E65 -- // OUTPUTS: none
, 0x2F2F204445534352495054494F4E3A204275696C647320746865207669727475616C2064657669636520696E697469616C697A6572207374727563747572652E205573657320746865 -- // DESCRIPTION: Builds the virtual device initializer structure. Uses the
, 0x2F2F20617267756D656E747320746F206275696C6420616E20656E74727920696E20746865207669727475616C2064657669636520696E697469616C697A65722073747275637475726520666F72 -- // arguments to build an entry in the virtual device initializer structure for
, 0x2F2F207468652063757272656E74206B65796D61702E -- // the current keymap.
, 0x766F696420617364665F6B65796D61705F6164645F7669727475616C5F64657669636528617364665F7669727475616C5F6465765F74207669727475616C5F6465762C -- void asdf_keymap_add_virtual_device(asdf_virtual_dev_t virtual_dev,
, 0x202020202020202020202020202020202020202020202020202020202020202020202020617364665F706879736963616C5F6465765F7420706879736963616C5F6465762C --                                     asdf_physical_dev_t physical_dev,
, 0x202020202020202020202020202020202020202020202020202020202020202020202020617364665F7669727475616C5F66756E6374696F6E5F742066756E6374696F6E2C2075696E74385F7420696E697469616C5F76616C7565293B --                                     asdf_virtual_function_t function, uint8_t initial_value);
, 0x0 -- 
, 0x2F2F2050524F4345445552453A20617364665F6B65796D61705F6164645F686F6F6B -- // PROCEDURE: asdf_keymap_add_hook
, 0x2F2F20494E505554533A2028617364665F686F6F6B5F69645F742920686F6F6B5F69643A207479706520494420666F72207468652070726F766964656420686F6F6B2066756E6374696F6E -- // INPUTS: (asdf_hook_id_t) hook_id: type ID for the provided hook function
, 0x2F2F20202020202020202028617364665F686F6F6B5F66756E6374696F6E5F74292066756E6374696F6E3A207468652066756E6374696F6E206173736F63696174656420776974682074686520686F6F6B2E -- //         (asdf_hook_function_t) function: the function associated with the hook.
, 0x2F2F204F5554505554533A206E6F6E65 -- // OUTPUTS: none
, 0x2F2F204445534352495054494F4E3A204275696C64732074686520686F6F6B20696E697469616C697A6572207461626C6520666F72207468652063757272656E74206B65796D6170 -- // DESCRIPTION: Builds the hook initializer table for the current keymap
, 0x766F696420617364665F6B65796D61705F6164645F686F6F6B28617364665F686F6F6B5F69645F7420686F6F6B5F69642C20617364665F686F6F6B5F66756E6374696F6E5F742066756E6374696F6E293B -- void asdf_keymap_add_hook(asdf_hook_id_t hook_id, asdf_hook_function_t function);
, 0x0 -- 
, 0x0 -- 
, 0x2F2F2050524F4345445552453A20617364665F6B65796D6170735F6765745F636F6465 -- // PROCEDURE: asdf_keymaps_get_code
, 0x2F2F20494E505554533A20726F772C20636F6C3A20726F7720616E6420636F6C756D6E206F66206B6579207468617420686173206265656E2070726573736564 -- // INPUTS: row, col: row and column of key that has been pressed
, 0x2F2F2020202020202020206D6F646966696572735F696E6465783A20696E64657820696E746F20746865206B65796D61702061727261792C206261736564206F6E206D6F646966696572207374617465 -- //         modifiers_index: index into the keymap array, based on modifier state
, 0x2F2F204F5554505554533A2072657475726E732061206B657920636F64652E -- // OUTPUTS: returns a key code.
, 0x2F2F204445534352495054494F4E3A20476976656E2061206B657920726F7720616E6420636F6C756D6E2C20616E6420616E20696E646578206261736564206F6E206D6F646966696572 -- // DESCRIPTION: Given a key row and column, and an index based on modifier
, 0x2F2F2073746174652C2072657475726E2074686520617070726F707269617465206B6579636F64652E -- // state, return the appropriate keycode.
, 0x617364665F6B6579636F64655F7420617364665F6B65796D6170735F6765745F636F64652875696E74385F7420726F772C2075696E74385F7420636F6C2C2075696E74385F74206D6F6469666965725F696E646578293B -- asdf_keycode_t asdf_keymaps_get_code(uint8_t row, uint8_t col, uint8_t modifier_index);
, 0x0 -- 
, 0x0 -- 
, 0x23656E646966202F2A2021646566696E65642028415344465F4B45594D4150535F4829202A2F -- #endif /* !defined (ASDF_KEYMAPS_H) */
, 0x0 -- 
, 0x2F2F2D2D2D2D2D2D2D7C2D2D2D2D2D2D2D2D2D7C2D2D2D2D2D2D2D2D2D2B2D2D2D2D2D2D2D2D2D2B2D2D2D2D2D2D2D2D2D2B2D2D2D2D2D2D2D2D2D2B2D2D2D2D2D2D2D2D2D2B2D2D2D2D2D2D2D2D2D2B -- //-------|---------|---------+---------+---------+---------+---------+---------+
, 0x2F2F2041626F7665206C696E6520697320383020636F6C756D6E732C20616E642073686F756C6420646973706C617920636F6D706C6574656C7920696E2074686520656469746F722E -- // Above line is 80 columns, and should display completely in the editor.
  ]

/-- /repo/firmware/asdf/src/asdf_modifiers.h, lines 1-140. -/
def asdf_modifiers_h : List Nat := [
  0x2F2F202D2A2D206D6F64653A20433B207461622D77696474683A2034203B20696E64656E742D746162732D6D6F64653A206E696C202D2A2D -- // -*- mode: C; tab-width: 4 ; indent-tabs-mode: nil -*-
, 0x2F2F -- //
, 0x2F2F2020556E666966696564204B6579626F6172642050726F6A656374 -- //  Unfified Keyboard Project
, 0x2F2F202041534446206B6579626F617264206669726D77617265 -- //  ASDF keyboard firmware
, 0x2F2F -- //
, 0x2F2F2020617364665F6D6F646966696572732E68 -- //  asdf_modifiers.h
, 0x2F2F -- //
, 0x2F2F20436F7079726967687420323031392044617669642046656E796573 -- // Copyright 2019 David Fenyes
, 0x2F2F -- //
, 0x2F2F20546869732070726F6772616D206973206672656520736F6674776172653A20796F752063616E2072656469737472696275746520697420616E642F6F72206D6F6469667920697420756E646572 -- // This program is free software: you can redistribute it and/or modify it under
, 0x2F2F20746865207465726D73206F662074686520474E552047656E6572616C205075626C6963204C6963656E7365206173207075626C697368656420627920746865204672656520536F667477617265 -- // the terms of the GNU General Public License as published by the Free Software
, 0x2F2F20466F756E646174696F6E2C206569746865722076657273696F6E2033206F6620746865204C6963656E73652C206F722028617420796F7572206F7074696F6E2920616E79206C61746572 -- // Foundation, either version 3 of the License, or (at your option) any later
, 0x2F2F2076657273696F6E2E -- // version.
, 0x2F2F -- //
, 0x2F2F20546869732070726F6772616D20697320646973747269627574656420696E2074686520686F706520746861742069742077696C6C2062652075736566756C2C2062757420574954484F5554 -- // This program is distributed in the hope that it will be useful, but WITHOUT
, 0x2F2F20414E592057415252414E54593B20776974686F7574206576656E2074686520696D706C6965642077617272616E7479206F66204D45524348414E544142494C495459206F72204649544E455353 -- // ANY WARRANTY; without even the implied warranty of MERCHANTABILITY or FITNESS
, 0x2F2F20464F52204120504152544943554C415220505552504F53452E205365652074686520474E552047656E6572616C205075626C6963204C6963656E736520666F72206D6F7265 -- // FOR A PARTICULAR PURPOSE. See the GNU General Public License for more
, 0x2F2F2064657461696C732E -- // details.
, 0x2F2F -- //
, 0x2F2F20596F752073686F756C642068617665207265636569766564206120636F7079206F662074686520474E552047656E6572616C205075626C6963204C6963656E736520616C6F6E672077697468 -- // You should have received a copy of the GNU General Public License along with
, 0x2F2F20746869732070726F6772616D2E204966206E6F742C20736565203C68747470733A2F2F7777772E676E752E6F72672F6C6963656E7365732F3E2E -- // this program. If not, see <https://www.gnu.org/licenses/>.
, 0x0 -- 
, 0x2369662021646566696E656428415344465F4D4F444946494552535F4829 -- #if !defined(ASDF_MODIFIERS_H)
, 0x23646566696E6520415344465F4D4F444946494552535F48 -- #define ASDF_MODIFIERS_H
, 0x0 -- 
, 0x2F2F2054686520616374697665206D6F6469666965727320617265207573656420746F206275696C6420616E20696E64657820696E746F2061206D617020746861742064657465726D696E6473 -- // The active modifiers are used to build an index into a map that determinds
, 0x2F2F207768696368206D6F646966696572206D61702069732073656C65637465642E202054686520666F6C6C6F77696E6720646566696E65207468652062697420706F736974696F6E20666F722065616368206D6F6469666965722E -- // which modifier map is selected.  The following define the bit position for each modifier.
, 0x2F2F20466F72206578616D706C652C20696620534849465420616E64204354524C20617265206163746976652C20746865206D6F64696669657220696E64657820776F756C64206265 -- // For example, if SHIFT and CTRL are active, the modifier index would be
, 0x2F2F -- //
, 0x2F2F202831203C3C20415344465F4D4F444946494552535F53484946545F504F5329207C202831203C3C20415344465F4D4F444946494552535F434150535F504F5329 -- // (1 << ASDF_MODIFIERS_SHIFT_POS) | (1 << ASDF_MODIFIERS_CAPS_POS)
, 0x2F2F203D202831203C3C203029207C202831203C3C203129 -- // = (1 << 0) | (1 << 1)
, 0x2F2F203D202831207C203229 -- // = (1 | 2)
, 0x2F2F203D2033 -- // = 3
, 0x2F2F -- //
, 0x2F2F20536F2C206966204354524C2B53484946542069732061207370656369616C206D6F6469666965722C207468656E206D6F6469666965725F6D617070696E675B335D2077696C6C20706F696E74 -- // So, if CTRL+SHIFT is a special modifier, then modifier_mapping[3] will point
, 0x2F2F20746F20746865204354524C2B5348494654206D61702E20416C7465726E61746976656C792C206966204354524C2B5348494654206973207468652073616D65206173206A757374204354524C2C -- // to the CTRL+SHIFT map. Alternatively, if CTRL+SHIFT is the same as just CTRL,
, 0x2F2F207468656E206D6F6469666965725F6D617070696E675B335D2077696C6C20706F696E7420746F20746865204354524C206D61702E -- // then modifier_mapping[3] will point to the CTRL map.
, 0x23646566696E6520415344465F4D4F444946494552535F53484946545F504F532030 -- #define ASDF_MODIFIERS_SHIFT_POS 0
, 0x23646566696E6520415344465F4D4F444946494552535F434150535F504F532031 -- #define ASDF_MODIFIERS_CAPS_POS 1
, 0x23646566696E6520415344465F4D4F444946494552535F4354524C5F504F532032 -- #define ASDF_MODIFIERS_CTRL_POS 2
, 0x0 -- 
, 0x23646566696E6520415344465F4D4F444946494552535F53484946545F4D41534B202831203C3C20415344465F4D4F444946494552535F53484946545F504F5329 -- #define ASDF_MODIFIERS_SHIFT_MASK (1 << ASDF_MODIFIERS_SHIFT_POS)
, 0x23646566696E6520415344465F4D4F444946494552535F434150535F4D41534B202831203C3C20415344465F4D4F444946494552535F434150535F504F5329 -- #define ASDF_MODIFIERS_CAPS_MASK (1 << ASDF_MODIFIERS_CAPS_POS)
, 0x23646566696E6520415344465F4D4F444946494552535F4354524C5F4D41534B202831203C3C20415344465F4D4F444946494552535F4354524C5F504F5329 -- #define ASDF_MODIFIERS_CTRL_MASK (1 << ASDF_MODIFIERS_CTRL_POS)
, 0x0 -- 
, 0x2F2F20446566696E6520746865206C6567616C20534849465420616E642053484946544C4F434B20737461746573 -- // Define the legal SHIFT and SHIFTLOCK states
, 0x7479706564656620656E756D207B -- typedef enum {
, 0x202053484946545F4F46465F5354203D20302C --   SHIFT_OFF_ST = 0,
, 0x202053484946545F4F4E5F5354203D20312C --   SHIFT_ON_ST = 1,
, 0x202053484946545F4C4F434B45445F5354203D20322C --   SHIFT_LOCKED_ST = 2,
, 0x202053484946545F424F54485F5354203D2033202F2F204E65766572206578706C696369746C79207365742E20534849465420616E642053484946544C4F434B20746F6765746865722E --   SHIFT_BOTH_ST = 3 // Never explicitly set. SHIFT and SHIFTLOCK together.
, 0x0 -- 
, 0x7D2073686966745F73746174655F743B -- } shift_state_t;
, 0x0 -- 
, 0x2F2F20446566696E6520746865206C6567616C204341505320616E6420434150534C4F434B20737461746573 -- // Define the legal CAPS and CAPSLOCK states
, 0x7479706564656620656E756D207B -- typedef enum {
, 0x2020434150535F4F46465F5354203D20302C --   CAPS_OFF_ST = 0,
, 0x2020434150535F4C4F434B45445F5354203D20312C --   CAPS_LOCKED_ST = 1,
, 0x7D20636170735F73746174655F743B -- } caps_state_t;
, 0x0 -- 
, 0x2F2F20446566696E6520746865206C6567616C204354524C20737461746573 -- // Define the legal CTRL states
, 0x7479706564656620656E756D207B204354524C5F4F46465F5354203D20302C204354524C5F4F4E5F5354203D2031207D206374726C5F73746174655F743B -- typedef enum { CTRL_OFF_ST = 0, CTRL_ON_ST = 1 } ctrl_state_t;
, 0x0 -- 
, 0x2F2F20446566696E6520746865206C6567616C206D6F646966696572206D617070696E67732E20496E207468697320636173652C20776520646566696E652034206D6170732C20666F7220504C41494E -- // Define the legal modifier mappings. In this case, we define 4 maps, for PLAIN
, 0x2F2F20286E6F206D6F646966696572292C2053484946542C20434150532C20616E64204354524C2E205768656E20636F6D62696E6174696F6E73206F66207468657365206D6F64696669657273 -- // (no modifier), SHIFT, CAPS, and CTRL. When combinations of these modifiers
, 0x2F2F20617265206163746976652C207468656E2074686520707265636564656E63652069732064657465726D696E656420627920746865206D6F6469666965725F6D617070696E675B5D -- // are active, then the precedence is determined by the modifier_mapping[]
, 0x2F2F2061727261792E -- // array.
, 0x7479706564656620656E756D207B -- typedef enum {
, 0x20204D4F445F504C41494E5F4D4150203D20302C --   MOD_PLAIN_MAP = 0,
, 0x20204D4F445F53484946545F4D41502C --   MOD_SHIFT_MAP,
, 0x20204D4F445F434150535F4D41502C --   MOD_CAPS_MAP,
, 0x20204D4F445F4354524C5F4D41502C --   MOD_CTRL_MAP,
, 0x2020415344465F4D4F445F4E554D5F4D4F44494649455253 --   ASDF_MOD_NUM_MODIFIERS
, 0x7D206D6F6469666965725F696E6465785F743B -- } modifier_index_t;
, 0x0 -- 
, 0x2F2F2050524F4345445552453A20617364665F6D6F6469666965725F73686966745F6163746976617465 -- // PROCEDURE: asdf_modifier_shift_activate
, 0x2F2F20494E505554533A206E6F6E65 -- // INPUTS: none
, 0x2F2F204F5554505554533A206E6F6E65 -- // OUTPUTS: none
, 0x2F2F204445534352495054494F4E3A207365747320534849465420737461746520746F204F4E -- // DESCRIPTION: sets SHIFT state to ON
, 0x2F2F -- //
, 0x766F696420617364665F6D6F6469666965725F73686966745F616374697661746528766F6964293B -- void asdf_modifier_shift_activate(void);
, 0x0 -- 
, 0x2F2F2050524F4345445552453A20617364665F6D6F6469666965725F73686966746C6F636B5F6F6E5F6163746976617465 -- // PROCEDURE: asdf_modifier_shiftlock_on_activate
, 0x2F2F20494E505554533A206E6F6E65 -- // INPUTS: none
, 0x2F2F204F5554505554533A206E6F6E65 -- // OUTPUTS: none
, 0x2F2F204445534352495054494F4E3A20736574732053484946544C4F434B20737461746520746F204F4E -- // DESCRIPTION: sets SHIFTLOCK state to ON
, 0x766F696420617364665F6D6F6469666965725F73686966746C6F636B5F6F6E5F616374697661746528766F6964293B -- void asdf_modifier_shiftlock_on_activate(void);
, 0x0 -- 
, 0x2F2F2050524F4345445552453A20617364665F6D6F6469666965725F73686966746C6F636B5F746F67676C655F6163746976617465 -- // PROCEDURE: asdf_modifier_shiftlock_toggle_activate
, 0x2F2F20494E505554533A206E6F6E65 -- // INPUTS: none
, 0x2F2F204F5554505554533A206E6F6E65 -- // OUTPUTS: none
, 0x2F2F204445534352495054494F4E3A20546F67676C65732053484946544C4F434B2073746174652E -- // DESCRIPTION: Toggles SHIFTLOCK state.
, 0x766F696420617364665F6D6F6469666965725F73686966746C6F636B5F746F67676C655F616374697661746528766F6964293B -- void asdf_modifier_shiftlock_toggle_activate(void);
, 0x0 -- 
, 0x2F2F2050524F4345445552453A20617364665F6D6F6469666965725F636170736C6F636B5F6163746976617465 -- // PROCEDURE: asdf_modifier_capslock_activate
, 0x2F2F20494E505554533A206E6F6E65 -- // INPUTS: none
, 0x2F2F204F5554505554533A206E6F6E65 -- // OUTPUTS: none
, 0x2F2F204445534352495054494F4E3A205475726E73206F6E20436170736C6F636B207374617465 -- // DESCRIPTION: Turns on Capslock state
, 0x2F2F -- //
, 0x766F696420617364665F6D6F6469666965725F636170736C6F636B5F616374697661746528766F6964293B -- void asdf_modifier_capslock_activate(void);
, 0x0 -- 
, 0x2F2F2050524F4345445552453A20617364665F6D6F6469666965725F6374726C5F6163746976617465 -- // PROCEDURE: asdf_modifier_ctrl_activate
, 0x2F2F20494E505554533A206E6F6E65 -- // INPUTS: none
, 0x2F2F204F5554505554533A206E6F6E65 -- // OUTPUTS: none
, 0x2F2F204445534352495054494F4E3A205475726E73206F6E204354524C206D6F6465 -- // DESCRIPTION: Turns on CTRL mode
, 0x2F2F -- //
, 0x766F696420617364665F6D6F6469666965725F6374726C5F616374697661746528766F6964293B -- void asdf_modifier_ctrl_activate(void);
, 0x0 -- 
, 0x2F2F2050524F4345445552453A20617364665F6D6F6469666965725F73686966745F64656163746976617465 -- // PROCEDURE: asdf_modifier_shift_deactivate
, 0x2F2F20494E505554533A206E6F6E65 -- // INPUTS: none
, 0x2F2F204F5554505554533A206E6F6E65 -- // OUTPUTS: none
, 0x2F2F204445534352495054494F4E3A205475726E73206F6666207368696674206D6F64652E -- // DESCRIPTION: Turns off shift mode.
, 0x2F2F -- //
, 0x766F696420617364665F6D6F6469666965725F73686966745F6465616374697661746528766F6964293B -- void asdf_modifier_shift_deactivate(void);
, 0x0 -- 
, 0x2F2F2050524F4345445552453A20617364665F6D6F6469666965725F6374726C5F64656163746976617465 -- // PROCEDURE: asdf_modifier_ctrl_deactivate
, 0x2F2F20494E505554533A206E6F6E65 -- // INPUTS: none
, 0x2F2F204F5554505554533A206E6F6E65 -- // OUTPUTS: none
, 0x2F2F204445534352495054494F4E3A205475726E73206F6666204354524C206D6F6465 -- // DESCRIPTION: Turns off CTRL mode
, 0x2F2F -- //
, 0x766F696420617364665F6D6F6469666965725F6374726C5F6465616374697661746528766F6964293B -- void asdf_modifier_ctrl_deactivate(void);
, 0x0 -- 
, 0x2F2F2050524F4345445552453A20617364665F6D6F646966696572735F696E6974 -- // PROCEDURE: asdf_modifiers_init
, 0x2F2F20494E505554533A206E6F6E65 -- // INPUTS: none
, 0x2F2F204F5554505554533A206E6F6E65 -- // OUTPUTS: none
, 0x2F2F204445534352495054494F4E3A20496E697469616C697A6520746865206D6F646966696572206B6579207374617465207661726961626C657320746F204F4646207374617465 -- // DESCRIPTION: Initialize the modifier key state variables to OFF state
, 0x2F2F -- //
, 0x766F696420617364665F6D6F646966696572735F696E697428766F6964293B -- void asdf_modifiers_init(void);
, 0x0 -- 
, 0x2F2F2050524F4345445552453A20617364665F6D6F6469666965725F696E646578 -- // PROCEDURE: asdf_modifier_index
, 0x2F2F20494E505554533A206E6F6E65 -- // INPUTS: none
, 0x2F2F204F5554505554533A2072657475726E732075696E74385F7420696E64657820696E746F206B6579206D61702C206261736564206F6E206D6F646966696572206B657920737461747573 -- // OUTPUTS: returns uint8_t index into key map, based on modifier key status
, 0x2F2F204445534352495054494F4E3A20536565204F555450555453 -- // DESCRIPTION: See OUTPUTS
, 0x2F2F -- //
, 0x6D6F6469666965725F696E6465785F7420617364665F6D6F6469666965725F696E64657828766F6964293B -- modifier_index_t asdf_modifier_index(void);
, 0x0 -- 
, 0x23656E646966202F2F2021646566696E65642028415344465F4D4F444946494552535F4829 -- #endif // !defined (ASDF_MODIFIERS_H)
, 0x0 -- 
, 0x2F2F2D2D2D2D2D2D2D7C2D2D2D2D2D2D2D2D2D7C2D2D2D2D2D2D2D2D2D2B2D2D2D2D2D2D2D2D2D2B2D2D2D2D2D2D2D2D2D2B2D2D2D2D2D2D2D2D2D2B2D2D2D2D2D2D2D2D2D2B2D2D2D2D2D2D2D2D2D2B -- //-------|---------|---------+---------+---------+---------+---------+---------+
, 0x2F2F2041626F7665206C696E6520697320383020636F6C756D6E732C20616E642073686F756C6420646973706C617920636F6D706C6574656C7920696E2074686520656469746F722E -- // Above line is 80 columns, and should display completely in the editor.
  ]

/-- /repo/firmware/asdf/src/asdf_physical.h, lines 1-126. -/
def asdf_physical_h : List Nat := [
  0x2F2F202D2A2D206D6F64653A20433B207461622D77696474683A2034203B20696E64656E742D746162732D6D6F64653A206E696C202D2A2D -- // -*- mode: C; tab-width: 4 ; indent-tabs-mode: nil -*-
, 0x2F2F -- //
, 0x2F2F20556E666966696564204B6579626F6172642050726F6A656374 -- // Unfified Keyboard Project
, 0x2F2F2041534446206B6579626F617264206669726D77617265 -- // ASDF keyboard firmware
, 0x2F2F -- //
, 0x2F2F20617364665F706879736963616C2E68 -- // asdf_physical.h
, 0x2F2F -- //
, 0x2F2F20446566696E6974696F6E7320616E642070726F746F747970657320666F7220706879736963616C204C454420616E64207669727475616C206F7574707574207265736F75726365732E -- // Definitions and prototypes for physical LED and virtual output resources.
, 0x2F2F -- //
, 0x2F2F20436F7079726967687420323031392044617669642046656E796573 -- // Copyright 2019 David Fenyes
, 0x2F2F20546869732070726F6772616D206973206672656520736F6674776172653A20796F752063616E2072656469737472696275746520697420616E642F6F72206D6F6469667920697420756E646572 -- // This program is free software: you can redistribute it and/or modify it under
, 0x2F2F20746865207465726D73206F662074686520474E552047656E6572616C205075626C6963204C6963656E7365206173207075626C697368656420627920746865204672656520536F667477617265 -- // the terms of the GNU General Public License as published by the Free Software
, 0x2F2F20466F756E646174696F6E2C206569746865722076657273696F6E2033206F6620746865204C6963656E73652C206F722028617420796F7572206F7074696F6E2920616E79206C61746572 -- // Foundation, either version 3 of the License, or (at your option) any later
, 0x2F2F2076657273696F6E2E -- // version.
, 0x2F2F -- //
, 0x2F2F20546869732070726F6772616D20697320646973747269627574656420696E2074686520686F706520746861742069742077696C6C2062652075736566756C2C2062757420574954484F5554 -- // This program is distributed in the hope that it will be useful, but WITHOUT
, 0x2F2F20414E592057415252414E54593B20776974686F7574206576656E2074686520696D706C6965642077617272616E7479206F66204D45524348414E544142494C495459206F72204649544E455353 -- // ANY WARRANTY; without even the implied warranty of MERCHANTABILITY or FITNESS
, 0x2F2F20464F52204120504152544943554C415220505552504F53452E205365652074686520474E552047656E6572616C205075626C6963204C6963656E736520666F72206D6F7265 -- // FOR A PARTICULAR PURPOSE. See the GNU General Public License for more
, 0x2F2F2064657461696C732E -- // details.
, 0x2F2F -- //
, 0x2F2F20596F752073686F756C642068617665207265636569766564206120636F7079206F662074686520474E552047656E6572616C205075626C6963204C6963656E736520616C6F6E672077697468 -- // You should have received a copy of the GNU General Public License along with
, 0x2F2F20746869732070726F6772616D2E204966206E6F742C20736565203C68747470733A2F2F7777772E676E752E6F72672F6C6963656E7365732F3E2E -- // this program. If not, see <https://www.gnu.org/licenses/>.
, 0x2F2F -- //
, 0x0 -- 
, 0x2369662021646566696E656428415344465F504859534943414C5F4829 -- #if !defined(ASDF_PHYSICAL_H)
, 0x23646566696E6520415344465F504859534943414C5F48 -- #define ASDF_PHYSICAL_H
, 0x0 -- 
, 0x23696E636C756465203C737464696E742E683E -- #include <stdint.h>
, 0x0 -- 
, 0x2F2F2054686520617364665F7669727475616C5F7265616C5F6465765F7420656E756D657261746573207265616C206F75747075747320746861742063616E2062652061737369676E656420746F -- // The asdf_virtual_real_dev_t enumerates real outputs that can be assigned to
, 0x2F2F207669727475616C206F757470757473207669612074686520617364665F7669727475616C5F61737369676E28292066756E6374696F6E2E20546865206E616D65206973206120626974 -- // virtual outputs via the asdf_virtual_assign() function. The name is a bit
, 0x2F2F20636F6E667573696E672C20636F6E7461696E696E67207669727475616C20616E64207265616C2E2054686520227669727475616C2220706172742072656665727320746F20746865 -- // confusing, containing virtual and real. The "virtual" part refers to the
, 0x2F2F206D6F64756C6520616E642074686520227265616C5F64657622207061727420617474656D70747320746F20636C617269667920746861742074686573652061726520746865 -- // module and the "real_dev" part attempts to clarify that these are the
, 0x2F2F206861726477617265206F75747075747320696D706C656D656E74656420627920746865206172636869746563747572652D7370656369666963206D6F64756C652E -- // hardware outputs implemented by the architecture-specific module.
, 0x7479706564656620656E756D207B -- typedef enum {
, 0x2020504859534943414C5F4E4F5F4F5554203D20302C --   PHYSICAL_NO_OUT = 0,
, 0x2020504859534943414C5F4F5554312C --   PHYSICAL_OUT1,
, 0x2020504859534943414C5F4F5554315F4F50454E5F48492C --   PHYSICAL_OUT1_OPEN_HI,
, 0x2020504859534943414C5F4F5554315F4F50454E5F4C4F2C --   PHYSICAL_OUT1_OPEN_LO,
, 0x2020504859534943414C5F4F5554322C --   PHYSICAL_OUT2,
, 0x2020504859534943414C5F4F5554325F4F50454E5F48492C --   PHYSICAL_OUT2_OPEN_HI,
, 0x2020504859534943414C5F4F5554325F4F50454E5F4C4F2C --   PHYSICAL_OUT2_OPEN_LO,
, 0x2020504859534943414C5F4F5554332C --   PHYSICAL_OUT3,
, 0x2020504859534943414C5F4F5554335F4F50454E5F48492C --   PHYSICAL_OUT3_OPEN_HI,
, 0x2020504859534943414C5F4F5554335F4F50454E5F4C4F2C --   PHYSICAL_OUT3_OPEN_LO,
, 0x2020504859534943414C5F4C4544312C --   PHYSICAL_LED1,
, 0x2020504859534943414C5F4C4544322C --   PHYSICAL_LED2,
, 0x2020504859534943414C5F4C4544332C --   PHYSICAL_LED3,
, 0x2020415344465F504859534943414C5F4E554D5F5245534F5552434553 --   ASDF_PHYSICAL_NUM_RESOURCES
, 0x7D20617364665F706879736963616C5F6465765F743B -- } asdf_physical_dev_t;
, 0x0 -- 
, 0x2F2F2050524F4345445552453A20617364665F706879736963616C5F736574 -- // PROCEDURE: asdf_physical_set
, 0x2F2F20494E505554533A2028617364665F706879736963616C5F6465765F742920706879736963616C5F6F75743A207768696368207265616C206F757470757420746F20736574206F7220636C656172 -- // INPUTS: (asdf_physical_dev_t) physical_out: which real output to set or clear
, 0x2F2F20494E505554533A202875696E74385F74292076616C7565 -- // INPUTS: (uint8_t) value
, 0x2F2F204F5554505554533A206E6F6E65 -- // OUTPUTS: none
, 0x2F2F204445534352495054494F4E3A2049662074686520706879736963616C207265736F757263652069732076616C69642C2073657420746F20686967682069662076616C756520697320747275652C206C6F77 -- // DESCRIPTION: If the physical resource is valid, set to high if value is true, low
, 0x2F2F2069662066616C73652E -- // if false.
, 0x766F696420617364665F706879736963616C5F73657428617364665F706879736963616C5F6465765F7420706879736963616C5F6F75742C2075696E74385F742076616C7565293B -- void asdf_physical_set(asdf_physical_dev_t physical_out, uint8_t value);
, 0x0 -- 
, 0x2F2F2050524F4345445552453A20617364665F706879736963616C5F6F6E -- // PROCEDURE: asdf_physical_on
, 0x2F2F20494E505554533A2028617364665F706879736963616C5F6465765F742920706879736963616C5F6F75743A207768696368207265616C206F757470757420746F2073657420746F204F4E -- // INPUTS: (asdf_physical_dev_t) physical_out: which real output to set to ON
, 0x2F2F204F5554505554533A206E6F6E65 -- // OUTPUTS: none
, 0x2F2F204445534352495054494F4E3A2049662074686520706879736963616C207265736F757263652069732076616C69642C2073657420746F2068696768 -- // DESCRIPTION: If the physical resource is valid, set to high
, 0x766F696420617364665F706879736963616C5F6F6E28617364665F706879736963616C5F6465765F7420706879736963616C5F6F7574293B -- void asdf_physical_on(asdf_physical_dev_t physical_out);
, 0x0 -- 
, 0x2F2F2050524F4345445552453A20617364665F706879736963616C5F6F6666 -- // PROCEDURE: asdf_physical_off
, 0x2F2F20494E505554533A2028617364665F706879736963616C5F6465765F742920706879736963616C5F6F75743A207768696368207265616C206F757470757420746F2073657420746F204F4646 -- // INPUTS: (asdf_physical_dev_t) physical_out: which real output to set to OFF
, 0x2F2F204F5554505554533A206E6F6E65 -- // OUTPUTS: none
, 0x2F2F204445534352495054494F4E3A2049662074686520706879736963616C207265736F757263652069732076616C69642C2073657420746F206C6F77 -- // DESCRIPTION: If the physical resource is valid, set to low
, 0x766F696420617364665F706879736963616C5F6F666628617364665F706879736963616C5F6465765F7420706879736963616C5F6F7574293B -- void asdf_physical_off(asdf_physical_dev_t physical_out);
, 0x0 -- 
, 0x2F2F2050524F4345445552453A20617364665F706879736963616C5F617373657274 -- // PROCEDURE: asdf_physical_assert
, 0x2F2F20494E505554533A2028617364665F706879736963616C5F6465765F742920706879736963616C5F6F75743A20776869636820706879736963616C207265736F7572636520746F20736574206F7220636C656172 -- // INPUTS: (asdf_physical_dev_t) physical_out: which physical resource to set or clear
, 0x2F2F20494E505554533A206E6F6E65 -- // INPUTS: none
, 0x2F2F204F5554505554533A206E6F6E65 -- // OUTPUTS: none
, 0x2F2F204445534352495054494F4E3A20417373657274207468652076616C7565206F662074686520706879736963616C207265736F7572636520736861646F77207265676973746572206F6E20746865206F75747075742E -- // DESCRIPTION: Assert the value of the physical resource shadow register on the output.
, 0x766F696420617364665F706879736963616C5F61737365727428617364665F706879736963616C5F6465765F7420706879736963616C5F6F7574293B -- void asdf_physical_assert(asdf_physical_dev_t physical_out);
, 0x0 -- 
, 0x2F2F2050524F4345445552453A20617364665F706879736963616C5F746F67676C65 -- // PROCEDURE: asdf_physical_toggle
, 0x2F2F20494E505554533A2028617364665F706879736963616C5F6465765F742920706879736963616C5F6F75743A20776869636820706879736963616C207265736F7572636520746F20746F67676C65 -- // INPUTS: (asdf_physical_dev_t) physical_out: which physical resource to toggle
, 0x2F2F20494E505554533A206E6F6E65 -- // INPUTS: none
, 0x2F2F204F5554505554533A206E6F6E65 -- // OUTPUTS: none
, 0x2F2F204445534352495054494F4E3A20546F67676C65207468652076616C7565206F662074686520706879736963616C207265736F757263652E -- // DESCRIPTION: Toggle the value of the physical resource.
, 0x766F696420617364665F706879736963616C5F746F67676C6528617364665F706879736963616C5F6465765F7420706879736963616C5F6F7574293B -- void asdf_physical_toggle(asdf_physical_dev_t physical_out);
, 0x0 -- 
, 0x2F2F2050524F4345445552453A20706879736963616C5F6465766963655F69735F617661696C61626C65 -- // PROCEDURE: physical_device_is_available
, 0x2F2F20494E505554533A20617364665F706879736963616C5F6465765F7420726571756965737465645F646576696365 -- // INPUTS: asdf_physical_dev_t requiested_device
, 0x2F2F204F5554505554533A2072657475726E7320504859534943414C5F4E4F5F4F55542069662064657669636520697320616C7265617920616C6C6F63617465642E204966206E6F742079657420616C6C6F63617465642C -- // OUTPUTS: returns PHYSICAL_NO_OUT if device is alreay allocated. If not yet allocated,
, 0x2F2F2072657475726E732074686520696E646578206F66207468652064657669636520696E2074686520617661696C61626C65206C697374206265666F72652074686520726571756573746564 -- // returns the index of the device in the available list before the requested
, 0x2F2F206465766963652E -- // device.
, 0x2F2F204445534352495054494F4E3A206974657261746573207468726F75676820746865206C696E6B6564206C697374206F6620617661696C61626C6520646576696365732E20496620746865 -- // DESCRIPTION: iterates through the linked list of available devices. If the
, 0x2F2F207265717565737465645F64657669636520697320656E636F756E74657265642C2072657475726E2074686520656C656D656E74206265666F72652074686520726571756573746564 -- // requested_device is encountered, return the element before the requested
, 0x2F2F2064657669636520696E20746865206C6973742E202049662074686520656E64206F6620746865206C69737420697320726561636865642C2072657475726E20504859534943414C5F4E4F5F4F55542E -- // device in the list.  If the end of the list is reached, return PHYSICAL_NO_OUT.
, 0x75696E74385F7420706879736963616C5F6465766963655F69735F617661696C61626C6528617364665F706879736963616C5F6465765F7420646576696365293B -- uint8_t physical_device_is_available(asdf_physical_dev_t device);
, 0x0 -- 
, 0x2F2F2050524F4345445552453A20617364665F706879736963616C5F6E6578745F646576696365 -- // PROCEDURE: asdf_physical_next_device
, 0x2F2F20494E505554533A2028617364665F706879736963616C5F6465765F742920646576696365202D207468652063757272656E7420706879736963616C207265736F75726365206174746163686564 -- // INPUTS: (asdf_physical_dev_t) device - the current physical resource attached
, 0x2F2F20746F20746865207669727475616C206F7574707574206265696E67206F70657261746564206F6E -- // to the virtual output being operated on
, 0x2F2F204F5554505554533A2028617364665F706879736963616C5F6465765F74292072657475726E7320746865206E65787420706879736963616C207265736F757263652061737369676E656420746F -- // OUTPUTS: (asdf_physical_dev_t) returns the next physical resource assigned to
, 0x2F2F20746865207669727475616C206F75747075742E -- // the virtual output.
, 0x617364665F706879736963616C5F6465765F7420617364665F706879736963616C5F6E6578745F64657669636528617364665F706879736963616C5F6465765F7420646576696365293B -- asdf_physical_dev_t asdf_physical_next_device(asdf_physical_dev_t device);
, 0x0 -- 
, 0x2F2F2050524F4345445552453A20617364665F706879736963616C5F616C6C6F63617465 -- // PROCEDURE: asdf_physical_allocate
, 0x2F2F20494E505554533A2028617364665F706879736963616C5F6F75745F742920706879736963616C5F6F7574202D20746865206465736972656420706879736963616C207265736F7572636520746F20616C6C6F636174652E -- // INPUTS: (asdf_physical_out_t) physical_out - the desired physical resource to allocate.
, 0x2F2F20202020202020202028617364665F706879736963616C5F6F75745F7429207461696C202D20746865206C697374206F6620706879736963616C207265736F757263657320746F207461636B206F6E -- //         (asdf_physical_out_t) tail - the list of physical resources to tack on
, 0x2F2F202020202020202020746F2074686520726571756573746564207265736F757263652C20696620617661696C61626C652E -- //         to the requested resource, if available.
, 0x2F2F204F5554505554533A2028617364665F706879736963616C5F6F75745F74292072657475726E7320545255452069662074686520616C6C6F636174696F6E2069732073756363657366756C2C -- // OUTPUTS: (asdf_physical_out_t) returns TRUE if the allocation is succesful,
, 0x2F2F2020202020202020202046414C534520283029206F74686572776973652E -- //          FALSE (0) otherwise.
, 0x2F2F204445534352495054494F4E3A20436865636B2074686174207468652072657175657374656420706879736963616C207265736F757263652069732076616C696420616E64 -- // DESCRIPTION: Check that the requested physical resource is valid and
, 0x2F2F20617661696C61626C652E20496620736F2C207468656E2072656D6F766520746865207265736F757263652066726F6D2074686520706879736963616C207265736F75726365207461626C65 -- // available. If so, then remove the resource from the physical resource table
, 0x2F2F20616E642061737369676E20616E20696E697469616C2076616C75652C207468656E2072657475726E20612054525545202831292E2052657475726E2046414C534520283029206966 -- // and assign an initial value, then return a TRUE (1). Return FALSE (0) if
, 0x2F2F20616C6C6F636174696F6E20776173206E6F74207375636365737366756C2E -- // allocation was not successful.
, 0x75696E74385F7420617364665F706879736963616C5F616C6C6F6361746528617364665F706879736963616C5F6465765F7420706879736963616C5F6F75742C20617364665F706879736963616C5F6465765F74207461696C2C -- uint8_t asdf_physical_allocate(asdf_physical_dev_t physical_out, asdf_physical_dev_t tail,
, 0x2020202020202020202020202020202020202020202020202020202020202075696E74385F7420696E697469616C5F76616C7565293B --                                uint8_t initial_value);
, 0x0 -- 
, 0x2F2F2050524F4345445552453A20617364665F706879736963616C5F696E6974 -- // PROCEDURE: asdf_physical_init
, 0x2F2F20494E505554533A206E6F6E65 -- // INPUTS: none
, 0x2F2F204F5554505554533A206E6F6E65 -- // OUTPUTS: none
, 0x2F2F204445534352495054494F4E3A20496E697469616C697A6520706879736963616C207265736F75726365207461626C65 -- // DESCRIPTION: Initialize physical resource table
, 0x766F696420617364665F706879736963616C5F696E697428766F6964293B -- void asdf_physical_init(void);
, 0x0 -- 
, 0x0 -- 
, 0x23656E646966202F2A2021646566696E65642028415344465F504859534943414C5F4829202A2F -- #endif /* !defined (ASDF_PHYSICAL_H) */
, 0x0 -- 
, 0x2F2F2D2D2D2D2D2D2D7C2D2D2D2D2D2D2D2D2D7C2D2D2D2D2D2D2D2D2D2B2D2D2D2D2D2D2D2D2D2B2D2D2D2D2D2D2D2D2D2B2D2D2D2D2D2D2D2D2D2B2D2D2D2D2D2D2D2D2D2B2D2D2D2D2D2D2D2D2D2B -- //-------|---------|---------+---------+---------+---------+---------+---------+
, 0x2F2F2041626F7665206C696E6520697320383020636F6C756D6E732C20616E642073686F756C6420646973706C617920636F6D706C6574656C7920696E2074686520656469746F722E -- // Above line is 80 columns, and should display completely in the editor.
  ]

/-- /repo/firmware/asdf/src/asdf_print.h, lines 1-37. -/
def asdf_print_h : List Nat := [
  0x2F2F202D2A2D206D6F64653A20433B207461622D77696474683A2034203B20696E64656E742D746162732D6D6F64653A206E696C202D2A2D -- // -*- mode: C; tab-width: 4 ; indent-tabs-mode: nil -*-
, 0x2F2F -- //
, 0x2F2F20556E666966696564204B6579626F6172642050726F6A656374 -- // Unfified Keyboard Project
, 0x2F2F2041534446206B6579626F617264206669726D77617265 -- // ASDF keyboard firmware
, 0x2F2F -- //
, 0x2F2F20617364665F7072696E742E68 -- // asdf_print.h
, 0x2F2F -- //
, 0x2F2F20436F7079726967687420323031392044617669642046656E796573 -- // Copyright 2019 David Fenyes
, 0x2F2F20546869732070726F6772616D206973206672656520736F6674776172653A20796F752063616E2072656469737472696275746520697420616E642F6F72206D6F6469667920697420756E646572 -- // This program is free software: you can redistribute it and/or modify it under
, 0x2F2F20746865207465726D73206F662074686520474E552047656E6572616C205075626C6963204C6963656E7365206173207075626C697368656420627920746865204672656520536F667477617265 -- // the terms of the GNU General Public License as published by the Free Software
, 0x2F2F20466F756E646174696F6E2C206569746865722076657273696F6E2033206F6620746865204C6963656E73652C206F722028617420796F7572206F7074696F6E2920616E79206C61746572 -- // Foundation, either version 3 of the License, or (at your option) any later
, 0x2F2F2076657273696F6E2E -- // version.
, 0x2F2F -- //
, 0x2F2F20546869732070726F6772616D20697320646973747269627574656420696E2074686520686F706520746861742069742077696C6C2062652075736566756C2C2062757420574954484F5554 -- // This program is distributed in the hope that it will be useful, but WITHOUT
, 0x2F2F20414E592057415252414E54593B20776974686F7574206576656E2074686520696D706C6965642077617272616E7479206F66204D45524348414E544142494C495459206F72204649544E455353 -- // ANY WARRANTY; without even the implied warranty of MERCHANTABILITY or FITNESS
, 0x2F2F20464F52204120504152544943554C415220505552504F53452E205365652074686520474E552047656E6572616C205075626C6963204C6963656E736520666F72206D6F7265 -- // FOR A PARTICULAR PURPOSE. See the GNU General Public License for more
, 0x2F2F2064657461696C732E -- // details.
, 0x2F2F -- //
, 0x2F2F20596F752073686F756C642068617665207265636569766564206120636F7079206F662074686520474E552047656E6572616C205075626C6963204C6963656E736520616C6F6E672077697468 -- // You should have received a copy of the GNU General Public License along with
, 0x2F2F20746869732070726F6772616D2E204966206E6F742C20736565203C68747470733A2F2F7777772E676E752E6F72672F6C6963656E7365732F3E2E -- // this program. If not, see <https://www.gnu.org/licenses/>.
, 0x2F2F -- //
, 0x0 -- 
, 0x2369662021646566696E65642028415344465F5052494E545F4829 -- #if !defined (ASDF_PRINT_H)
, 0x23646566696E6520415344465F5052494E545F48 -- #define ASDF_PRINT_H
, 0x0 -- 
, 0x2F2F2D2D2D2D2D2D2D7C2D2D2D2D2D2D2D2D2D7C2D2D2D2D2D2D2D2D2D2B2D2D2D2D2D2D2D2D2D2B2D2D2D2D2D2D2D2D2D2B2D2D2D2D2D2D2D2D2D2B2D2D2D2D2D2D2D2D2D2B2D2D2D2D2D2D2D2D2D2B -- //-------|---------|---------+---------+---------+---------+---------+---------+
, 0x2F2F2041626F7665206C696E6520697320383020636F6C756D6E732C20616E642073686F756C6420646973706C617920636F6D706C6574656C7920696E2074686520656469746F722E -- // Above line is 80 columns, and should display completely in the editor.
, 0x0 -- 
, 0x2F2F2050524F4345445552453A20617364665F7072696E74 -- // PROCEDURE: asdf_print
, 0x2F2F20494E505554533A20282A636861722920666D74202D20666F726D617420737472696E67 -- // INPUTS: (*char) fmt - format string
, 0x2F2F20202020202020202076615F6172676C697374202D206C697374206F66206172677320666F7220666D7420737472696E67 -- //         va_arglist - list of args for fmt string
, 0x2F2F204F5554505554533A206E6F6E65 -- // OUTPUTS: none
, 0x2F2F204445534352495054494F4E3A206F757470757420746F206173636969206F757470757420706F7274207573696E672076667072696E74662829 -- // DESCRIPTION: output to ascii output port using vfprintf()
, 0x2F2F20434F4D504C45584954593A2031 -- // COMPLEXITY: 1
, 0x766F696420617364665F7072696E7428636F6E73742063686172202A666D742C202E2E2E293B -- void asdf_print(const char *fmt, ...);
, 0x0 -- 
, 0x23656E646966202F2A2021646566696E65642028415344465F5052494E545F4829202A2F -- #endif /* !defined (ASDF_PRINT_H) */
  ]

/-- /repo/firmware/asdf/src/asdf_repeat.h, lines 1-80. -/
def asdf_repeat_h : List Nat := [
  0x2F2F202D2A2D206D6F64653A20433B207461622D77696474683A2032203B20696E64656E742D746162732D6D6F64653A206E696C202D2A2D -- // -*- mode: C; tab-width: 2 ; indent-tabs-mode: nil -*-
, 0x2F2F -- //
, 0x2F2F20556E666966696564204B6579626F6172642050726F6A656374 -- // Unfified Keyboard Project
, 0x2F2F2041534446206B6579626F617264206669726D77617265 -- // ASDF keyboard firmware
, 0x2F2F -- //
, 0x2F2F20617364665F7265706561742E68 -- // asdf_repeat.h
, 0x2F2F -- //
, 0x2F2F20436F7079726967687420323031392044617669642046656E796573 -- // Copyright 2019 David Fenyes
, 0x2F2F -- //
, 0x2F2F20546869732070726F6772616D206973206672656520736F6674776172653A20796F752063616E2072656469737472696275746520697420616E642F6F72206D6F64696679206974 -- // This program is free software: you can redistribute it and/or modify it
, 0x2F2F20756E64657220746865207465726D73206F662074686520474E552047656E6572616C205075626C6963204C6963656E7365206173207075626C6973686564206279207468652046726565 -- // under the terms of the GNU General Public License as published by the Free
, 0x2F2F20536F66747761726520466F756E646174696F6E2C206569746865722076657273696F6E2033206F6620746865204C6963656E73652C206F722028617420796F7572206F7074696F6E2920616E79 -- // Software Foundation, either version 3 of the License, or (at your option) any
, 0x2F2F206C617465722076657273696F6E2E -- // later version.
, 0x2F2F -- //
, 0x2F2F20546869732070726F6772616D20697320646973747269627574656420696E2074686520686F706520746861742069742077696C6C2062652075736566756C2C2062757420574954484F5554 -- // This program is distributed in the hope that it will be useful, but WITHOUT
, 0x2F2F20414E592057415252414E54593B20776974686F7574206576656E2074686520696D706C6965642077617272616E7479206F66204D45524348414E544142494C495459206F72204649544E455353 -- // ANY WARRANTY; without even the implied warranty of MERCHANTABILITY or FITNESS
, 0x2F2F20464F52204120504152544943554C415220505552504F53452E205365652074686520474E552047656E6572616C205075626C6963204C6963656E736520666F72206D6F7265 -- // FOR A PARTICULAR PURPOSE. See the GNU General Public License for more
, 0x2F2F2064657461696C732E -- // details.
, 0x2F2F -- //
, 0x2F2F20596F752073686F756C642068617665207265636569766564206120636F7079206F662074686520474E552047656E6572616C205075626C6963204C6963656E736520616C6F6E672077697468 -- // You should have received a copy of the GNU General Public License along with
, 0x2F2F20746869732070726F6772616D2E204966206E6F742C20736565203C68747470733A2F2F7777772E676E752E6F72672F6C6963656E7365732F3E2E -- // this program. If not, see <https://www.gnu.org/licenses/>.
, 0x2F2F -- //
, 0x2F2F -- //
, 0x0 -- 
, 0x2369662021646566696E656428415344465F5245504541545F4829 -- #if !defined(ASDF_REPEAT_H)
, 0x23646566696E6520415344465F5245504541545F48 -- #define ASDF_REPEAT_H
, 0x0 -- 
, 0x23696E636C7564652022617364665F636F6E6669672E6822 -- #include "asdf_config.h"
, 0x0 -- 
, 0x2F2F2050524F4345445552453A20617364665F7265706561745F696E6974 -- // PROCEDURE: asdf_repeat_init
, 0x2F2F20494E505554533A206E6F6E65 -- // INPUTS: none
, 0x2F2F204F5554505554533A206E6F6E65 -- // OUTPUTS: none
, 0x2F2F204445534352495054494F4E3A20496E697469616C697A652074686520726570656174207374617465207374617465206D616368696E65 -- // DESCRIPTION: Initialize the repeat state state machine
, 0x766F696420617364665F7265706561745F696E697428766F6964293B -- void asdf_repeat_init(void);
, 0x0 -- 
, 0x2F2F2050524F4345445552453A20617364665F726570656173745F72657365745F636F756E74 -- // PROCEDURE: asdf_repeast_reset_count
, 0x2F2F20494E505554533A206E6F6E65 -- // INPUTS: none
, 0x2F2F204F5554505554533A206E6F6E65 -- // OUTPUTS: none
, 0x2F2F204445534352495054494F4E3A20726573657473207468652072657065617420636F756E74657220666F72207468652063757272656E74206B65792C20746F20626567696E2061206E6577 -- // DESCRIPTION: resets the repeat counter for the current key, to begin a new
, 0x2F2F20726570656174206379636C652E2020526573657374206973206261736564206F6E2072657065617420737461746520286E6F207265706561742C206175746F7265706561742C206E6F726D616C20726570656174292E -- // repeat cycle.  Resest is based on repeat state (no repeat, autorepeat, normal repeat).
, 0x766F696420617364665F7265706561745F72657365745F636F756E7428766F6964293B -- void asdf_repeat_reset_count(void);
, 0x0 -- 
, 0x2F2F2050524F4345445552453A20617364665F7265706561745F6175746F5F6F6666 -- // PROCEDURE: asdf_repeat_auto_off
, 0x2F2F20494E505554533A206E6F6E65 -- // INPUTS: none
, 0x2F2F204F5554505554533A206E6F6E65 -- // OUTPUTS: none
, 0x2F2F204445534352495054494F4E3A205475726E73204175746F726570656174206D6F6465206F6666 -- // DESCRIPTION: Turns Autorepeat mode off
, 0x766F696420617364665F7265706561745F6175746F5F6F666628766F6964293B -- void asdf_repeat_auto_off(void);
, 0x0 -- 
, 0x2F2F2050524F4345445552453A20617364665F7265706561745F6175746F5F6F6E -- // PROCEDURE: asdf_repeat_auto_on
, 0x2F2F20494E505554533A206E6F6E65 -- // INPUTS: none
, 0x2F2F204F5554505554533A206E6F6E65 -- // OUTPUTS: none
, 0x2F2F204445534352495054494F4E3A205475726E73204175746F726570656174206D6F6465206F6E -- // DESCRIPTION: Turns Autorepeat mode on
, 0x766F696420617364665F7265706561745F6175746F5F6F6E28766F6964293B -- void asdf_repeat_auto_on(void);
, 0x0 -- 
, 0x2F2F2050524F4345445552453A20617364665F7265706561745F6163746976617465 -- // PROCEDURE: asdf_repeat_activate
, 0x2F2F20494E505554533A206E6F6E65 -- // INPUTS: none
, 0x2F2F204F5554505554533A206E6F6E65 -- // OUTPUTS: none
, 0x2F2F204445534352495054494F4E3A2073657420726570656174207374617465206D616368696E6520746F20726570656174206D6F64652E2043616C6C6564207768656E20524550454154206B6579 -- // DESCRIPTION: set repeat state machine to repeat mode. Called when REPEAT key
, 0x2F2F20697320707265737365642E -- // is pressed.
, 0x766F696420617364665F7265706561745F616374697661746528766F6964293B -- void asdf_repeat_activate(void);
, 0x0 -- 
, 0x2F2F2050524F4345445552453A20617364665F7265706561745F64656163746976617465 -- // PROCEDURE: asdf_repeat_deactivate
, 0x2F2F20494E505554533A206E6F6E65 -- // INPUTS: none
, 0x2F2F204F5554505554533A206E6F6E65 -- // OUTPUTS: none
, 0x2F2F204445534352495054494F4E3A20526573657420726570656174207374617465206D616368696E6520746F2064656661756C742073746174652E2043616C6C6564207768656E20524550454154 -- // DESCRIPTION: Reset repeat state machine to default state. Called when REPEAT
, 0x2F2F206B65792069732072656C65617365642E -- // key is released.
, 0x766F696420617364665F7265706561745F6465616374697661746528766F6964293B -- void asdf_repeat_deactivate(void);
, 0x0 -- 
, 0x2F2F2050524F4345445552453A20617364665F726570656174 -- // PROCEDURE: asdf_repeat
, 0x2F2F20494E505554533A206E6F6E65 -- // INPUTS: none
, 0x2F2F204F5554505554533A206E6F6E65 -- // OUTPUTS: none
, 0x2F2F204445534352495054494F4E3A20636F756E747320646F776E20746865207265706561742074696D657220286966206163746976617465642920616E642072657475726E7320612054525545 -- // DESCRIPTION: counts down the repeat timer (if activated) and returns a TRUE
, 0x2F2F2076616C7565207768656E2074686520636F756E7465722074696D6573206F75742E204120747275652076616C75657320696E64696361746573207468617420746865206C6173742076616C7565 -- // value when the counter times out. A true values indicates that the last value
, 0x2F2F2073686F756C6420626520726570656174656420746F20746865206F75747075742E -- // should be repeated to the output.
, 0x75696E74385F7420617364665F72657065617428766F6964293B -- uint8_t asdf_repeat(void);
, 0x0 -- 
, 0x23656E646966202F2F2021646566696E65642028415344465F5245504541545F4829 -- #endif // !defined (ASDF_REPEAT_H)
, 0x0 -- 
, 0x2F2F2D2D2D2D2D2D2D7C2D2D2D2D2D2D2D2D2D7C2D2D2D2D2D2D2D2D2D2B2D2D2D2D2D2D2D2D2D2B2D2D2D2D2D2D2D2D2D2B2D2D2D2D2D2D2D2D2D2B2D2D2D2D2D2D2D2D2D2B2D2D2D2D2D2D2D2D2D2B -- //-------|---------|---------+---------+---------+---------+---------+---------+
, 0x2F2F2041626F7665206C696E6520697320383020636F6C756D6E732C20616E642073686F756C6420646973706C617920636F6D706C6574656C7920696E2074686520656469746F722E -- // Above line is 80 columns, and should display completely in the editor.
  ]

/-- /repo/firmware/asdf/src/asdf_virtual.h, lines 1-112. -/
def asdf_virtual_h : List Nat := [
  0x2F2F202D2A2D206D6F64653A20433B207461622D77696474683A2034203B20696E64656E742D746162732D6D6F64653A206E696C202D2A2D -- // -*- mode: C; tab-width: 4 ; indent-tabs-mode: nil -*-
, 0x2F2F -- //
, 0x2F2F20556E666966696564204B6579626F6172642050726F6A656374 -- // Unfified Keyboard Project
, 0x2F2F2041534446206B6579626F617264206669726D77617265 -- // ASDF keyboard firmware
, 0x2F2F -- //
, 0x2F2F20617364665F7669727475616C2E68 -- // asdf_virtual.h
, 0x2F2F -- //
, 0x2F2F20446566696E6974696F6E7320616E642070726F746F747970657320666F72207669727475616C204C454420616E64207669727475616C206F7574707574206D616E6167656D656E742E -- // Definitions and prototypes for virtual LED and virtual output management.
, 0x2F2F -- //
, 0x2F2F20436F7079726967687420323031392044617669642046656E796573 -- // Copyright 2019 David Fenyes
, 0x2F2F20546869732070726F6772616D206973206672656520736F6674776172653A20796F752063616E2072656469737472696275746520697420616E642F6F72206D6F6469667920697420756E646572 -- // This program is free software: you can redistribute it and/or modify it under
, 0x2F2F20746865207465726D73206F662074686520474E552047656E6572616C205075626C6963204C6963656E7365206173207075626C697368656420627920746865204672656520536F667477617265 -- // the terms of the GNU General Public License as published by the Free Software
, 0x2F2F20466F756E646174696F6E2C206569746865722076657273696F6E2033206F6620746865204C6963656E73652C206F722028617420796F7572206F7074696F6E2920616E79206C61746572 -- // Foundation, either version 3 of the License, or (at your option) any later
, 0x2F2F2076657273696F6E2E -- // version.
, 0x2F2F -- //
, 0x2F2F20546869732070726F6772616D20697320646973747269627574656420696E2074686520686F706520746861742069742077696C6C2062652075736566756C2C2062757420574954484F5554 -- // This program is distributed in the hope that it will be useful, but WITHOUT
, 0x2F2F20414E592057415252414E54593B20776974686F7574206576656E2074686520696D706C6965642077617272616E7479206F66204D45524348414E544142494C495459206F72204649544E455353 -- // ANY WARRANTY; without even the implied warranty of MERCHANTABILITY or FITNESS
, 0x2F2F20464F52204120504152544943554C415220505552504F53452E205365652074686520474E552047656E6572616C205075626C6963204C6963656E736520666F72206D6F7265 -- // FOR A PARTICULAR PURPOSE. See the GNU General Public License for more
, 0x2F2F2064657461696C732E -- // details.
, 0x2F2F -- //
, 0x2F2F20596F752073686F756C642068617665207265636569766564206120636F7079206F662074686520474E552047656E6572616C205075626C6963204C6963656E736520616C6F6E672077697468 -- // You should have received a copy of the GNU General Public License along with
, 0x2F2F20746869732070726F6772616D2E204966206E6F742C20736565203C68747470733A2F2F7777772E676E752E6F72672F6C6963656E7365732F3E2E -- // this program. If not, see <https://www.gnu.org/licenses/>.
, 0x2F2F -- //
, 0x0 -- 
, 0x2369662021646566696E656428415344465F5649525455414C5F4829 -- #if !defined(ASDF_VIRTUAL_H)
, 0x23646566696E6520415344465F5649525455414C5F48 -- #define ASDF_VIRTUAL_H
, 0x0 -- 
, 0x23696E636C7564652022617364665F706879736963616C2E6822 -- #include "asdf_physical.h"
, 0x0 -- 
, 0x2F2F2054686573652061726520227669727475616C22206F7574707574206964656E7469666965727320746861742063616E206265206D617070656420746F20746865207265616C206F757470757473207573696E67 -- // These are "virtual" output identifiers that can be mapped to the real outputs using
, 0x2F2F206B65796D617020696E697469616C697A657220636F6D6D616E64732E -- // keymap initializer commands.
, 0x7479706564656620656E756D207B -- typedef enum {
, 0x2020565F4E554C4C2C --   V_NULL,
, 0x2020564F5554312C --   VOUT1,
, 0x2020564F5554322C --   VOUT2,
, 0x2020564F5554332C --   VOUT3,
, 0x2020564F5554342C --   VOUT4,
, 0x2020564F5554352C --   VOUT5,
, 0x2020564F5554362C --   VOUT6,
, 0x2020564C4544312C --   VLED1,
, 0x2020564C4544322C --   VLED2,
, 0x2020564C4544332C --   VLED3,
, 0x202056434150535F4C45442C --   VCAPS_LED,
, 0x20205653484946545F4C45442C --   VSHIFT_LED,
, 0x2020415344465F5649525455414C5F4E554D5F5245534F5552434553 --   ASDF_VIRTUAL_NUM_RESOURCES
, 0x7D20617364665F7669727475616C5F6465765F743B -- } asdf_virtual_dev_t;
, 0x0 -- 
, 0x0 -- 
, 0x7479706564656620656E756D207B -- typedef enum {
, 0x2020565F4E4F46554E432C --   V_NOFUNC,
, 0x2020565F5345545F48492C --   V_SET_HI,
, 0x2020565F5345545F4C4F2C --   V_SET_LO,
, 0x2020565F50554C53455F53484F52542C --   V_PULSE_SHORT,
, 0x2020565F50554C53455F4C4F4E472C --   V_PULSE_LONG,
, 0x2020565F544F47474C452C --   V_TOGGLE,
, 0x2020415344465F5649525455414C5F4E554D5F46554E4354494F4E53 --   ASDF_VIRTUAL_NUM_FUNCTIONS
, 0x7D20617364665F7669727475616C5F66756E6374696F6E5F743B -- } asdf_virtual_function_t;
, 0x0 -- 
, 0x2F2F2045616368206B65796D61702073706563696669657320616E206172726179206F6620696E697469616C697A6572207374727563747320746F20636F6E666967757265207669727475616C -- // Each keymap specifies an array of initializer structs to configure virtual
, 0x2F2F20646576696365732C2073706563696679696E6720746865206D6170706564207265616C2064657669636520616E6420696E697469616C2076616C75652E -- // devices, specifying the mapped real device and initial value.
, 0x7479706564656620737472756374207B -- typedef struct {
, 0x2020617364665F7669727475616C5F6465765F74207669727475616C5F6465766963653B --   asdf_virtual_dev_t virtual_device;
, 0x2020617364665F706879736963616C5F6465765F7420706879736963616C5F6465766963653B --   asdf_physical_dev_t physical_device;
, 0x2020617364665F7669727475616C5F66756E6374696F6E5F742066756E6374696F6E3B --   asdf_virtual_function_t function;
, 0x202075696E74385F7420696E697469616C5F76616C75653B --   uint8_t initial_value;
, 0x7D20617364665F7669727475616C5F696E697469616C697A65725F743B -- } asdf_virtual_initializer_t;
, 0x0 -- 
, 0x2F2F2050524F4345445552453A20617364665F7669727475616C5F616374696F6E -- // PROCEDURE: asdf_virtual_action
, 0x2F2F20494E505554533A2028617364665F7669727475616C5F6465765F7429207669727475616C5F6F75743A207768696368207669727475616C206F757470757420746F206D6F64696679 -- // INPUTS: (asdf_virtual_dev_t) virtual_out: which virtual output to modify
, 0x2F2F20494E505554533A2028617364665F7669727475616C5F66756E6374696F6E5F74292066756E6374696F6E3A20776861742066756E6374696F6E20746F206170706C7920746F20746865207669727475616C206F7574707574 -- // INPUTS: (asdf_virtual_function_t) function: what function to apply to the virtual output
, 0x2F2F204F5554505554533A206E6F6E65 -- // OUTPUTS: none
, 0x2F2F204445534352495054494F4E3A20666F722065616368207265616C206F7574707574206D617070656420746F20746865207669727475616C206F75747075742C206170706C7920746865 -- // DESCRIPTION: for each real output mapped to the virtual output, apply the
, 0x2F2F207370656369666965642066756E6374696F6E2E -- // specified function.
, 0x766F696420617364665F7669727475616C5F616374696F6E28617364665F7669727475616C5F6465765F74207669727475616C5F6F75742C20617364665F7669727475616C5F66756E6374696F6E5F742066756E6374696F6E293B -- void asdf_virtual_action(asdf_virtual_dev_t virtual_out, asdf_virtual_function_t function);
, 0x0 -- 
, 0x2F2F2050524F4345445552453A20617364665F7669727475616C5F6163746976617465 -- // PROCEDURE: asdf_virtual_activate
, 0x2F2F20494E505554533A20617364665F7669727475616C5F6465765F743A20546865207669727475616C2064657669636520746F20626520616374697661746564 -- // INPUTS: asdf_virtual_dev_t: The virtual device to be activated
, 0x2F2F204F5554505554533A206E6F6E65 -- // OUTPUTS: none
, 0x2F2F204445534352495054494F4E3A20666F722065616368207265616C206F7574707574206D617070656420746F20746865207669727475616C206F75747075742C206170706C7920746865 -- // DESCRIPTION: for each real output mapped to the virtual output, apply the
, 0x2F2F2066756E6374696F6E2061737369676E656420746F20746865207669727475616C206F757470757420617420696E697469616C697A6174696F6E2E -- // function assigned to the virtual output at initialization.
, 0x766F696420617364665F7669727475616C5F616374697661746528617364665F7669727475616C5F6465765F74207669727475616C5F6F7574293B -- void asdf_virtual_activate(asdf_virtual_dev_t virtual_out);
, 0x0 -- 
, 0x2F2F2050524F4345445552453A20617364665F7669727475616C5F61737369676E -- // PROCEDURE: asdf_virtual_assign
, 0x2F2F20494E505554533A2028617364665F7669727475616C5F6465765F7429207669727475616C5F6F7574202D207669727475616C206F757470757420746F2062652070616972656420776974682074686520706879736963616C207265736F75726365 -- // INPUTS: (asdf_virtual_dev_t) virtual_out - virtual output to be paired with the physical resource
, 0x2F2F20202020202020202028617364665F706879736963616C5F6465765F742920706879736963616C5F6F757420746F2062652061737369676E656420746F20746865207669727475616C206F75747075742E -- //         (asdf_physical_dev_t) physical_out to be assigned to the virtual output.
, 0x2F2F20202020202020202028617364665F7669727475616C5F66756E6374696F6E5F7429202D207468652066756E6374696F6E20746F206265206170706C69656420746F20746865207669727475616C -- //         (asdf_virtual_function_t) - the function to be applied to the virtual
, 0x2F2F2020202020202020202020202020646576696365207768656E206163746976617465642062792061206B657970726573732E -- //              device when activated by a keypress.
, 0x2F2F2020202020202020202875696E74385F742920696E697469616C5F76616C7565202D2074686520696E697469616C207374617465206F662074686520706879736963616C207265736F757263652E -- //         (uint8_t) initial_value - the initial state of the physical resource.
, 0x2F2F204F5554505554533A206E6F6E65 -- // OUTPUTS: none
, 0x2F2F204445534352495054494F4E3A206D617020746865207669727475616C206F757470757420737065636966696564206279206E65775F766F757420746F20706879736963616C5F6F75742C206966 -- // DESCRIPTION: map the virtual output specified by new_vout to physical_out, if
, 0x2F2F20626F746820617267756D656E7473206172652076616C69642E2049676E6F7265206966206E6F742076616C69642E -- // both arguments are valid. Ignore if not valid.
, 0x2F2F204E4F5445533A20696620746865207669727475616C206F757470757420697320696E76616C69642C206F722074686520706879736963616C207265736F7572636520697320696E76616C69642C -- // NOTES: if the virtual output is invalid, or the physical resource is invalid,
, 0x2F2F206F722074686520706879736963616C207265736F7572636520697320616C72656164792061737369676E65642C207468656E206E6F7468696E672068617070656E732E -- // or the physical resource is already assigned, then nothing happens.
, 0x766F696420617364665F7669727475616C5F61737369676E28617364665F7669727475616C5F6465765F74207669727475616C5F6F75742C20617364665F706879736963616C5F6465765F7420706879736963616C5F6F75742C -- void asdf_virtual_assign(asdf_virtual_dev_t virtual_out, asdf_physical_dev_t physical_out,
, 0x20202020202020202020202020202020202020202020202020617364665F7669727475616C5F66756E6374696F6E5F742066756E6374696F6E2C2075696E74385F7420696E697469616C5F76616C7565293B --                          asdf_virtual_function_t function, uint8_t initial_value);
, 0x0 -- 
, 0x2F2F2050524F4345445552453A20617364665F7669727475616C5F696E6974 -- // PROCEDURE: asdf_virtual_init
, 0x2F2F20494E505554533A20696E697469616C697A657273 -- // INPUTS: initializers
, 0x2F2F204F5554505554533A206E6F6E65 -- // OUTPUTS: none
, 0x2F2F204445534352495054494F4E3A20496E697469616C697A657320746865204C454420616E64206F7574707574206D617070696E67 -- // DESCRIPTION: Initializes the LED and output mapping
, 0x766F696420617364665F7669727475616C5F696E697428766F6964293B -- void asdf_virtual_init(void);
, 0x0 -- 
, 0x2F2F2050524F4345445552453A20617364665F7669727475616C5F73796E63 -- // PROCEDURE: asdf_virtual_sync
, 0x2F2F20494E505554533A206E6F6E65 -- // INPUTS: none
, 0x2F2F204F5554505554533A206E6F6E65 -- // OUTPUTS: none
, 0x2F2F204445534352495054494F4E3A2053796E6368726F6E697A652074686520706879736963616C206F757470757473207769746820746865697220636F6E74726F6C6C696E67207669727475616C20646576696365732E -- // DESCRIPTION: Synchronize the physical outputs with their controlling virtual devices.
, 0x766F696420617364665F7669727475616C5F73796E6328766F6964293B -- void asdf_virtual_sync(void);
, 0x0 -- 
, 0x23656E646966202F2A2021646566696E65642028415344465F5649525455414C5F4829202A2F -- #endif /* !defined (ASDF_VIRTUAL_H) */
, 0x0 -- 
, 0x2F2F2D2D2D2D2D2D2D7C2D2D2D2D2D2D2D2D2D7C2D2D2D2D2D2D2D2D2D2B2D2D2D2D2D2D2D2D2D2B2D2D2D2D2D2D2D2D2D2B2D2D2D2D2D2D2D2D2D2B2D2D2D2D2D2D2D2D2D2B2D2D2D2D2D2D2D2D2D2B -- //-------|---------|---------+---------+---------+---------+---------+---------+
, 0x2F2F2041626F7665206C696E6520697320383020636F6C756D6E732C20616E642073686F756C6420646973706C617920636F6D706C6574656C7920696E2074686520656469746F722E -- // Above line is 80 columns, and should display completely in the editor.
  ]

/-- /repo/firmware/asdf/src/asdf_buffer.c, lines 1-205. -/
def asdf_buffer_c : List Nat := [
  0x2F2F202D2A2D206D6F64653A20433B207461622D77696474683A2032203B20696E64656E742D746162732D6D6F64653A206E696C202D2A2D -- // -*- mode: C; tab-width: 2 ; indent-tabs-mode: nil -*-
, 0x2F2F -- //
, 0x2F2F20556E6966696564204B6579626F6172642050726F6A656374 -- // Unified Keyboard Project
, 0x2F2F2041534446206B6579626F617264206669726D77617265 -- // ASDF keyboard firmware
, 0x2F2F -- //
, 0x2F2F20617364665F6275666665722E63 -- // asdf_buffer.c
, 0x2F2F -- //
, 0x2F2F205468697320697320612063697263756C617220627566666572206D6F64756C6520746861742063616E206265207573656420627920616E792070617274206F662074686520636F6465 -- // This is a circular buffer module that can be used by any part of the code
, 0x2F2F207468617420726571756972657320627566666572696E672E20427566666572696E672070726F766964657320616E20696E74657266616365206265747765656E20746865 -- // that requires buffering. Buffering provides an interface between the
, 0x2F2F2067656E65726174696F6E206F66206B6579636F64657320616E64207468652068617264776172652D6C6576656C206B6579636F6465207472616E736D697373696F6E2C207768696368206D6179 -- // generation of keycodes and the hardware-level keycode transmission, which may
, 0x2F2F206F6363757220617420646966666572656E742072617465732E -- // occur at different rates.
, 0x2F2F -- //
, 0x2F2F20436F7079726967687420323031392044617669642046656E796573 -- // Copyright 2019 David Fenyes
, 0x2F2F -- //
, 0x2F2F20546869732070726F6772616D206973206672656520736F6674776172653A20796F752063616E2072656469737472696275746520697420616E642F6F72206D6F6469667920697420756E646572 -- // This program is free software: you can redistribute it and/or modify it under
, 0x2F2F20746865207465726D73206F662074686520474E552047656E6572616C205075626C6963204C6963656E7365206173207075626C697368656420627920746865204672656520536F667477617265 -- // the terms of the GNU General Public License as published by the Free Software
, 0x2F2F20466F756E646174696F6E2C206569746865722076657273696F6E2033206F6620746865204C6963656E73652C206F722028617420796F7572206F7074696F6E2920616E79206C61746572 -- // Foundation, either version 3 of the License, or (at your option) any later
, 0x2F2F2076657273696F6E2E -- // version.
, 0x2F2F -- //
, 0x2F2F20546869732070726F6772616D20697320646973747269627574656420696E2074686520686F706520746861742069742077696C6C2062652075736566756C2C2062757420574954484F5554 -- // This program is distributed in the hope that it will be useful, but WITHOUT
, 0x2F2F20414E592057415252414E54593B20776974686F7574206576656E2074686520696D706C6965642077617272616E7479206F66204D45524348414E544142494C495459206F72204649544E455353 -- // ANY WARRANTY; without even the implied warranty of MERCHANTABILITY or FITNESS
, 0x2F2F20464F52204120504152544943554C415220505552504F53452E205365652074686520474E552047656E6572616C205075626C6963204C6963656E736520666F72206D6F7265 -- // FOR A PARTICULAR PURPOSE. See the GNU General Public License for more
, 0x2F2F2064657461696C732E -- // details.
, 0x2F2F -- //
, 0x2F2F20596F752073686F756C642068617665207265636569766564206120636F7079206F662074686520474E552047656E6572616C205075626C6963204C6963656E736520616C6F6E672077697468 -- // You should have received a copy of the GNU General Public License along with
, 0x2F2F20746869732070726F6772616D2E204966206E6F742C20736565203C68747470733A2F2F7777772E676E752E6F72672F6C6963656E7365732F3E2E -- // this program. If not, see <https://www.gnu.org/licenses/>.
, 0x0 -- 
, 0x0 -- 
, 0x23696E636C756465203C737464696F2E683E -- #include <stdio.h>
, 0x23696E636C756465203C737464696E742E683E -- #include <stdint.h>
, 0x23696E636C7564652022617364662E6822 -- #include "asdf.h"
, 0x23696E636C7564652022617364665F6275666665722E6822 -- #include "asdf_buffer.h"
, 0x0 -- 
, 0x2F2F20496D706C656D656E746174696F6E204E6F7465733A -- // Implementation Notes:
, 0x2F2F -- //
, 0x2F2F203129204E6F74652074686174207468697320696D706C656D656E746174696F6E20646F6573206E6F7420737570706F72742064796E616D696320616C6C6F636174696F6E20616E64 -- // 1) Note that this implementation does not support dynamic allocation and
, 0x2F2F2066726565696E67206F6620627566666572732E20456163682062756666657220697320616C6C6F6361746564206174207374617274757020616E6420697320737461626C6520666F7265766572 -- // freeing of buffers. Each buffer is allocated at startup and is stable forever
, 0x2F2F20616674657277617264732E -- // afterwards.
, 0x2F2F -- //
, 0x2F2F203229204275666665722068616E646C65732061726520696E646963657320696E746F20616E206172726179206F66206275666665722D747261636B696E6720737472756374757265732E -- // 2) Buffer handles are indices into an array of buffer-tracking structures.
, 0x2F2F205573696E6720696E646963657320726174686572207468616E20706F696E7465727320696E63757273206120736D616C6C20706572666F726D616E63652070656E616C747920666F7220746865 -- // Using indices rather than pointers incurs a small performance penalty for the
, 0x2F2F206578747261206C6576656C206F6620696E646972656374696F6E2C20627574206166666F7264732074686520616476616E74616765206F662074657374696E672074686520627566666572 -- // extra level of indirection, but affords the advantage of testing the buffer
, 0x2F2F2068616E646C6520666F722076616C69646974792E -- // handle for validity.
, 0x0 -- 
, 0x0 -- 
, 0x2F2F20446566696E6520746865206C6F772D6C6576656C2064657461696C7320666F722065616368206275666665722E -- // Define the low-level details for each buffer.
, 0x7479706564656620737472756374207B -- typedef struct {
, 0x2020617364665F6B6579636F64655F74202A6275663B --   asdf_keycode_t *buf;
, 0x2020696E7431365F742073697A653B --   int16_t size;
, 0x202075696E74385F7420686561643B --   uint8_t head;
, 0x202075696E74385F74207461696C3B --   uint8_t tail;
, 0x202075696E74385F7420636F756E743B --   uint8_t count;
, 0x7D20617364665F6275666665725F743B -- } asdf_buffer_t;
, 0x0 -- 
, 0x2F2F20546869732069732074686520706F6F6C206F6620636F64657320617661696C61626C6520666F7220627566666572696E672E205468697320706F6F6C206973206469766964656420616D6F6E67 -- // This is the pool of codes available for buffering. This pool is divided among
, 0x2F2F2074686520616C6C6F636174656420627566666572732E -- // the allocated buffers.
, 0x73746174696320617364665F6B6579636F64655F74206275666665725F706F6F6C5B415344465F4255464645525F504F4F4C5F53495A455D3B -- static asdf_keycode_t buffer_pool[ASDF_BUFFER_POOL_SIZE];
, 0x0 -- 
, 0x2F2F20546869732061727261792073746F7265732074686520627566666572696E672064657461696C7320666F72206561636820616C6C6F6361746564206275666665722E20546865206E756D626572 -- // This array stores the buffering details for each allocated buffer. The number
, 0x2F2F206F6620617661696C61626C65206275666665727320697320646566696E656420696E20746865206865616465722066696C652E -- // of available buffers is defined in the header file.
, 0x73746174696320617364665F6275666665725F7420627566666572735B415344465F4255464645525F4E554D5F48414E444C45535D3B -- static asdf_buffer_t buffers[ASDF_BUFFER_NUM_HANDLES];
, 0x0 -- 
, 0x2F2F20496E646578206F662074686520626567696E6E696E67206F6620756E616C6C6F63617465642070617274206F66207468652062756666657220706F6F6C2E -- // Index of the beginning of unallocated part of the buffer pool.
, 0x73746174696320696E7431365F74206275666665725F706F6F6C5F6E6578745F617661696C61626C653B -- static int16_t buffer_pool_next_available;
, 0x0 -- 
, 0x2F2F20496E646578206F6620746865206E65787420617661696C61626C65206275666665722068616E646C65 -- // Index of the next available buffer handle
, 0x73746174696320617364665F6275666665725F68616E646C655F74206E6578745F68616E646C653B -- static asdf_buffer_handle_t next_handle;
, 0x0 -- 
, 0x0 -- 
, 0x2F2F2050524F4345445552453A20617364665F6275666665725F696E6974 -- // PROCEDURE: asdf_buffer_init
, 0x2F2F20494E505554533A206E6F6E65 -- // INPUTS: none
, 0x2F2F204F5554505554533A206E6F6E65 -- // OUTPUTS: none
, 0x2F2F -- //
, 0x2F2F204445534352495054494F4E3A20496E697469616C697A65207468652062756666657220706F6F6C20616E642068616E646C6573 -- // DESCRIPTION: Initialize the buffer pool and handles
, 0x2F2F -- //
, 0x2F2F205349444520454646454354533A20536565206465736372697074696F6E -- // SIDE EFFECTS: See description
, 0x2F2F -- //
, 0x2F2F204E4F5445533A -- // NOTES:
, 0x2F2F -- //
, 0x2F2F2053434F50453A207075626C6963 -- // SCOPE: public
, 0x2F2F -- //
, 0x2F2F20434F4D504C45584954593A2031 -- // COMPLEXITY: 1
, 0x2F2F -- //
, 0x766F696420617364665F6275666665725F696E697428766F696429 -- void asdf_buffer_init(void)
, 0x7B -- {
, 0x20206275666665725F706F6F6C5F6E6578745F617661696C61626C65203D20303B --   buffer_pool_next_available = 0;
, 0x20206E6578745F68616E646C65203D20303B --   next_handle = 0;
, 0x7D -- }
, 0x0 -- 
, 0x2F2F2050524F4345445552453A206275666665725F68616E646C655F76616C6964 -- // PROCEDURE: buffer_handle_valid
, 0x2F2F20494E505554533A202875696E74385F74292068616E646C65202D2068616E646C6520746F20626520636865636B6564 -- // INPUTS: (uint8_t) handle - handle to be checked
, 0x2F2F204F5554505554533A2072657475726E732054525545206966207468652068616E646C6520697320612076616C696420616C6C6F63617465642068616E646C652E -- // OUTPUTS: returns TRUE if the handle is a valid allocated handle.
, 0x2F2F -- //
, 0x2F2F204445534352495054494F4E3A2052657475726E732054525545206966207468652068616E646C65206973206F6E65207468617420686173206265656E20616C6C6F63617465642E -- // DESCRIPTION: Returns TRUE if the handle is one that has been allocated.
, 0x2F2F -- //
, 0x2F2F205349444520454646454354533A206E6F6E65 -- // SIDE EFFECTS: none
, 0x2F2F -- //
, 0x2F2F204E4F5445533A -- // NOTES:
, 0x2F2F -- //
, 0x2F2F2053434F50453A2070726976617465 -- // SCOPE: private
, 0x2F2F -- //
, 0x2F2F20434F4D504C45584954593A2031 -- // COMPLEXITY: 1
, 0x2F2F -- //
, 0x75696E74385F74206275666665725F68616E646C655F76616C696428617364665F6275666665725F68616E646C655F742068616E646C6529 -- uint8_t buffer_handle_valid(asdf_buffer_handle_t handle)
, 0x7B -- {
, 0x202072657475726E20282868616E646C65203E3D203029202626202868616E646C65203C206E6578745F68616E646C6529293B --   return ((handle >= 0) && (handle < next_handle));
, 0x7D -- }
, 0x0 -- 
, 0x2F2F2050524F4345445552453A20617364665F6275666665725F6E6577 -- // PROCEDURE: asdf_buffer_new
, 0x2F2F20494E505554533A202875696E7431365F74292073697A653A2073697A65206F66207468652062756666657220746F20616C6C6F636174652E -- // INPUTS: (uint16_t) size: size of the buffer to allocate.
, 0x2F2F -- //
, 0x2F2F204F5554505554533A2072657475726E7320612075696E74385F742068616E646C6520746F206964656E74696679207468652062756666657220616C6C6F63617465642066726F6D20746865 -- // OUTPUTS: returns a uint8_t handle to identify the buffer allocated from the
, 0x2F2F20202020202020202020706F6F6C2E -- //          pool.
, 0x2F2F -- //
, 0x2F2F204445534352495054494F4E3A2052656365697665732061207265717565737420746F20616C6C6F6361746520612066697865642D73697A65206275666665722066726F6D20746865 -- // DESCRIPTION: Receives a request to allocate a fixed-size buffer from the
, 0x2F2F20706F6F6C2E20496620746865726520697320656E6F75676820726F6F6D20696E207468652062756666657220706F6F6C2C20616E642069662061206275666665722068616E646C65206973 -- // pool. If there is enough room in the buffer pool, and if a buffer handle is
, 0x2F2F20617661696C61626C652C207468656E20616C6C6F636174652073706163652066726F6D2074686520706F6F6C2C20696E697469616C697A6520746865206E65787420617661696C61626C65 -- // available, then allocate space from the pool, initialize the next available
, 0x2F2F20627566666572207374727563742C20616E642072657475726E207468652068616E646C652E -- // buffer struct, and return the handle.
, 0x2F2F -- //
, 0x2F2F205349444520454646454354533A207365652061626F7665 -- // SIDE EFFECTS: see above
, 0x2F2F -- //
, 0x2F2F2053434F50453A207075626C6963 -- // SCOPE: public
, 0x2F2F -- //
, 0x2F2F20434F4D504C45584954593A2033 -- // COMPLEXITY: 3
, 0x2F2F -- //
, 0x617364665F6275666665725F68616E646C655F7420617364665F6275666665725F6E657728696E7431365F742073697A6529 -- asdf_buffer_handle_t asdf_buffer_new(int16_t size)
, 0x7B -- {
, 0x2020617364665F6275666665725F68616E646C655F742068616E646C65203D20415344465F4255464645525F494E56414C49443B --   asdf_buffer_handle_t handle = ASDF_BUFFER_INVALID;
, 0x0 -- 
, 0x2020696620286E6578745F68616E646C65203C20415344465F4255464645525F4E554D5F48414E444C455329207B --   if (next_handle < ASDF_BUFFER_NUM_HANDLES) {
, 0x202020206966202873697A65203C3D2028415344465F4255464645525F504F4F4C5F53495A45202D206275666665725F706F6F6C5F6E6578745F617661696C61626C652929207B --     if (size <= (ASDF_BUFFER_POOL_SIZE - buffer_pool_next_available)) {
, 0x20202020202068616E646C65203D206E6578745F68616E646C652B2B3B --       handle = next_handle++;
, 0x0 -- 
, 0x202020202020627566666572735B68616E646C655D2E73697A65203D2073697A653B --       buffers[handle].size = size;
, 0x202020202020627566666572735B68616E646C655D2E627566203D20266275666665725F706F6F6C5B6275666665725F706F6F6C5F6E6578745F617661696C61626C655D3B --       buffers[handle].buf = &buffer_pool[buffer_pool_next_available];
, 0x202020202020627566666572735B68616E646C655D2E68656164203D20303B --       buffers[handle].head = 0;
, 0x202020202020627566666572735B68616E646C655D2E7461696C203D20303B --       buffers[handle].tail = 0;
, 0x202020202020627566666572735B68616E646C655D2E636F756E74203D20303B --       buffers[handle].count = 0;
, 0x0 -- 
, 0x2020202020206275666665725F706F6F6C5F6E6578745F617661696C61626C65202B3D2073697A653B --       buffer_pool_next_available += size;
, 0x202020207D --     }
, 0x20207D --   }
, 0x202072657475726E2068616E646C653B --   return handle;
, 0x7D -- }
, 0x0 -- 
, 0x0 -- 
, 0x2F2F2050524F4345445552453A20617364665F6275666665725F707574 -- // PROCEDURE: asdf_buffer_put
, 0x2F2F -- //
, 0x2F2F20494E505554533A28617364665F6275666665725F7429206275666665725F68616E646C653A20706F696E74657220746F2074686520627566666572207374727563742E -- // INPUTS:(asdf_buffer_t) buffer_handle: pointer to the buffer struct.
, 0x2F2F202020202020202028617364665F6B6579636F64655F742920636F64653A20636F646520746F20626520616464656420746F207468652071756575652E -- //        (asdf_keycode_t) code: code to be added to the queue.
, 0x2F2F -- //
, 0x2F2F204F5554505554533A204E6F6E65 -- // OUTPUTS: None
, 0x2F2F -- //
, 0x2F2F204445534352495054494F4E3A2041646420746865206B6579636F646520746F207468652068656164206F6620746865206F7574707574206275666665722E2049662074686520627566666572 -- // DESCRIPTION: Add the keycode to the head of the output buffer. If the buffer
, 0x2F2F2069732066756C6C2C2071756965746C792064726F7020746865206B6579636F64652E -- // is full, quietly drop the keycode.
, 0x2F2F -- //
, 0x2F2F205349444520454646454354533A20536565204445534352495054494F4E -- // SIDE EFFECTS: See DESCRIPTION
, 0x2F2F -- //
, 0x2F2F204E4F5445533A -- // NOTES:
, 0x2F2F -- //
, 0x2F2F20434F4D504C45584954593A2033 -- // COMPLEXITY: 3
, 0x2F2F -- //
, 0x2F2F2053434F50453A207075626C6963 -- // SCOPE: public
, 0x2F2F -- //
, 0x766F696420617364665F6275666665725F70757428617364665F6275666665725F68616E646C655F742068616E646C652C20617364665F6B6579636F64655F7420636F646529 -- void asdf_buffer_put(asdf_buffer_handle_t handle, asdf_keycode_t code)
, 0x7B -- {
, 0x2020696620286275666665725F68616E646C655F76616C69642868616E646C652929207B --   if (buffer_handle_valid(handle)) {
, 0x2020202069662028627566666572735B68616E646C655D2E636F756E74203C20627566666572735B68616E646C655D2E73697A6529207B --     if (buffers[handle].count < buffers[handle].size) {
, 0x202020202020627566666572735B68616E646C655D2E6275665B627566666572735B68616E646C655D2E686561645D203D20636F64653B --       buffers[handle].buf[buffers[handle].head] = code;
, 0x202020202020627566666572735B68616E646C655D2E68656164203D2028627566666572735B68616E646C655D2E68656164202B203129202520627566666572735B68616E646C655D2E73697A653B --       buffers[handle].head = (buffers[handle].head + 1) % buffers[handle].size;
, 0x202020202020627566666572735B68616E646C655D2E636F756E742B2B3B --       buffers[handle].count++;
, 0x202020207D --     }
, 0x20207D --   }
, 0x7D -- }
, 0x0 -- 
, 0x2F2F2050524F4345445552453A20617364665F6275666665725F676574 -- // PROCEDURE: asdf_buffer_get
, 0x2F2F -- //
, 0x2F2F20494E505554533A204E6F6E65 -- // INPUTS: None
, 0x2F2F -- //
, 0x2F2F204F5554505554533A2072657475726E73206E65787420636F646520696E20746865206275666665722E -- // OUTPUTS: returns next code in the buffer.
, 0x2F2F -- //
, 0x2F2F204445534352495054494F4E3A204765747320746865206E6578742071756575656420636F646520696E20746865206F75747075742062756666657220616E642072657475726E20746865 -- // DESCRIPTION: Gets the next queued code in the output buffer and return the
, 0x2F2F2076616C75652E -- // value.
, 0x2F2F -- //
, 0x2F2F205349444520454646454354533A2052656D6F766573206120636F64652066726F6D207468652071756575652E -- // SIDE EFFECTS: Removes a code from the queue.
, 0x2F2F -- //
, 0x2F2F204E4F5445533A204966207468652062756666657220697320656D7074792C2074686520636F646520415344465F494E56414C49445F434F44452069732072657475726E65642E -- // NOTES: If the buffer is empty, the code ASDF_INVALID_CODE is returned.
, 0x2F2F -- //
, 0x2F2F20434F4D504C45584954593A2032 -- // COMPLEXITY: 2
, 0x2F2F -- //
, 0x2F2F2053434F50453A205075626C6963 -- // SCOPE: Public
, 0x2F2F -- //
, 0x617364665F6B6579636F64655F7420617364665F6275666665725F67657428617364665F6275666665725F68616E646C655F742068616E646C6529 -- asdf_keycode_t asdf_buffer_get(asdf_buffer_handle_t handle)
, 0x7B -- {
, 0x2020617364665F6B6579636F64655F7420636F6465203D20415344465F494E56414C49445F434F44453B --   asdf_keycode_t code = ASDF_INVALID_CODE;
, 0x2020696620286275666665725F68616E646C655F76616C69642868616E646C652920262620627566666572735B68616E646C655D2E636F756E7429207B --   if (buffer_handle_valid(handle) && buffers[handle].count) {
, 0x20202020636F6465203D20627566666572735B68616E646C655D2E6275665B627566666572735B68616E646C655D2E7461696C5D3B --     code = buffers[handle].buf[buffers[handle].tail];
, 0x20202020627566666572735B68616E646C655D2E7461696C203D2028627566666572735B68616E646C655D2E7461696C202B203129202520627566666572735B68616E646C655D2E73697A653B --     buffers[handle].tail = (buffers[handle].tail + 1) % buffers[handle].size;
, 0x20202020627566666572735B68616E646C655D2E636F756E742D2D3B --     buffers[handle].count--;
, 0x20207D --   }
, 0x202072657475726E20636F64653B --   return code;
, 0x7D -- }
, 0x0 -- 
, 0x2F2F2D2D2D2D2D2D2D7C2D2D2D2D2D2D2D2D2D7C2D2D2D2D2D2D2D2D2D2B2D2D2D2D2D2D2D2D2D2B2D2D2D2D2D2D2D2D2D2B2D2D2D2D2D2D2D2D2D2B2D2D2D2D2D2D2D2D2D2B2D2D2D2D2D2D2D2D2D2B -- //-------|---------|---------+---------+---------+---------+---------+---------+
, 0x2F2F2041626F7665206C696E6520697320383020636F6C756D6E732C20616E642073686F756C6420646973706C617920636F6D706C6574656C7920696E2074686520656469746F722E -- // Above line is 80 columns, and should display completely in the editor.
  ]

/-- /repo/firmware/asdf/src/asdf_repeat.c, lines 1-221. -/
def asdf_repeat_c : List Nat := [
  0x2F2F202D2A2D206D6F64653A20433B207461622D77696474683A2032203B20696E64656E742D746162732D6D6F64653A206E696C202D2A2D -- // -*- mode: C; tab-width: 2 ; indent-tabs-mode: nil -*-
, 0x2F2F -- //
, 0x2F2F20556E666966696564204B6579626F6172642050726F6A656374 -- // Unfified Keyboard Project
, 0x2F2F2041534446206B6579626F617264206669726D77617265 -- // ASDF keyboard firmware
, 0x2F2F -- //
, 0x2F2F20617364665F7265706561742E63 -- // asdf_repeat.c
, 0x2F2F -- //
, 0x2F2F20546869732066696C6520636F6E7461696E7320746865206B657920726570656174206C6F6769632E -- // This file contains the key repeat logic.
, 0x2F2F -- //
, 0x2F2F20436F7079726967687420323031392044617669642046656E796573 -- // Copyright 2019 David Fenyes
, 0x2F2F -- //
, 0x2F2F20546869732070726F6772616D206973206672656520736F6674776172653A20796F752063616E2072656469737472696275746520697420616E642F6F72206D6F6469667920697420756E646572 -- // This program is free software: you can redistribute it and/or modify it under
, 0x2F2F20746865207465726D73206F662074686520474E552047656E6572616C205075626C6963204C6963656E7365206173207075626C697368656420627920746865204672656520536F667477617265 -- // the terms of the GNU General Public License as published by the Free Software
, 0x2F2F20466F756E646174696F6E2C206569746865722076657273696F6E2033206F6620746865204C6963656E73652C206F722028617420796F7572206F7074696F6E2920616E79206C61746572 -- // Foundation, either version 3 of the License, or (at your option) any later
, 0x2F2F2076657273696F6E2E -- // version.
, 0x2F2F -- //
, 0x2F2F20546869732070726F6772616D20697320646973747269627574656420696E2074686520686F706520746861742069742077696C6C2062652075736566756C2C2062757420574954484F5554 -- // This program is distributed in the hope that it will be useful, but WITHOUT
, 0x2F2F20414E592057415252414E54593B20776974686F7574206576656E2074686520696D706C6965642077617272616E7479206F66204D45524348414E544142494C495459206F72204649544E455353 -- // ANY WARRANTY; without even the implied warranty of MERCHANTABILITY or FITNESS
, 0x2F2F20464F52204120504152544943554C415220505552504F53452E205365652074686520474E552047656E6572616C205075626C6963204C6963656E736520666F72206D6F7265 -- // FOR A PARTICULAR PURPOSE. See the GNU General Public License for more
, 0x2F2F2064657461696C732E -- // details.
, 0x2F2F -- //
, 0x2F2F20596F752073686F756C642068617665207265636569766564206120636F7079206F662074686520474E552047656E6572616C205075626C6963204C6963656E736520616C6F6E672077697468 -- // You should have received a copy of the GNU General Public License along with
, 0x2F2F20746869732070726F6772616D2E204966206E6F742C20736565203C68747470733A2F2F7777772E676E752E6F72672F6C6963656E7365732F3E2E -- // this program. If not, see <https://www.gnu.org/licenses/>.
, 0x0 -- 
, 0x23696E636C756465203C737464696E742E683E -- #include <stdint.h>
, 0x23696E636C7564652022617364665F7265706561742E6822 -- #include "asdf_repeat.h"
, 0x0 -- 
, 0x2F2F2054686973206D6F64756C65206B6565707320747261636B206F6620612073696E676C6520726570656174206576656E742E204974206973206E6F6E2D7265656E7472616E742E2054686973 -- // This module keeps track of a single repeat event. It is non-reentrant. This
, 0x2F2F206D616B65732073656E736520666F7220612073696E676C65206B6579626F6172642C2073696E6365206F6E6C79206F6E65206B65792063616E2072657065617420617420616E7920676976656E -- // makes sense for a single keyboard, since only one key can repeat at any given
, 0x2F2F2074696D652E -- // time.
, 0x2F2F -- //
, 0x0 -- 
, 0x0 -- 
, 0x2F2F20636F756E7465727320666F72206B6579207265706561742074696D696E67206172652031362D62697420756E7369676E6564 -- // counters for key repeat timing are 16-bit unsigned
, 0x747970656465662075696E7431365F74206B65795F74696D65725F743B -- typedef uint16_t key_timer_t;
, 0x0 -- 
, 0x2F2F205468652022537461746522206F662074686520726570656174206C6F676963206973207468652063757272656E742072657065617420726174652E2054686973206973207468652076616C7565 -- // The "State" of the repeat logic is the current repeat rate. This is the value
, 0x2F2F206C6F6164656420696E746F20746865207265706561742074696D6572207768656E20696E20726570656174206D6F646520286175746F726570656174206F7220726570656174206B657929 -- // loaded into the repeat timer when in repeat mode (autorepeat or repeat key)
, 0x2F2F20616E642061206B657920697320707265737365642E -- // and a key is pressed.
, 0x2F2F -- //
, 0x2F2F204966207468652062617365207374617465206973205245504541545F4F46462C207468656E206B65792072657065746974696F6E206F6E6C79206F6363757273207768656E20746865 -- // If the base state is REPEAT_OFF, then key repetition only occurs when the
, 0x2F2F20524550454154206B6579206973207072657373656420616C6F6E67207769746820612022636F646522206B65792E -- // REPEAT key is pressed along with a "code" key.
, 0x2F2F -- //
, 0x2F2F204966207468652062617365207374617465206973205245504541545F4155544F2C207468656E206B65792072657065746974696F6E206F6363757273207768656E2074686520524550454154 -- // If the base state is REPEAT_AUTO, then key repetition occurs when the REPEAT
, 0x2F2F206B65792069732070726573736564207769746820612022636F646522206B6579202C206F72207768656E20612022636F646522206B65792069732068656C6420666F7220746865 -- // key is pressed with a "code" key , or when a "code" key is held for the
, 0x2F2F206175746F7265706561742064656C61792E -- // autorepeat delay.
, 0x2F2F -- //
, 0x2F2F204F6276696F75736C792C207468652062617365207374617465206973206E65766572205245504541545F4F4E2C20776869636820776F756C6420696E7374616E746C7920726570656174 -- // Obviously, the base state is never REPEAT_ON, which would instantly repeat
, 0x2F2F20616E79206B6579207768656E20707265737365642E -- // any key when pressed.
, 0x7479706564656620656E756D207B -- typedef enum {
, 0x20205245504541545F4F4646203D20302C2020202020202020202020202020202020202020202020202F2F206E6F20726570656174 --   REPEAT_OFF = 0,                        // no repeat
, 0x20205245504541545F4F4E203D20415344465F5245504541545F54494D455F4D532C202020202020202F2F2063757272656E746C7920726570656174696E67 --   REPEAT_ON = ASDF_REPEAT_TIME_MS,       // currently repeating
, 0x20205245504541545F4155544F203D20415344465F4155544F5245504541545F54494D455F4D532C202F2F207761697420666F72206175746F7265706561742064656C61792C207468656E20737461727420726570656174696E67 --   REPEAT_AUTO = ASDF_AUTOREPEAT_TIME_MS, // wait for autorepeat delay, then start repeating
, 0x7D207265706561745F73746174655F743B -- } repeat_state_t;
, 0x0 -- 
, 0x2F2F20436F6E7461696E73207468652063757272656E7420726570656174207374617465 -- // Contains the current repeat state
, 0x737461746963207265706561745F73746174655F74207265706561745F73746174653B -- static repeat_state_t repeat_state;
, 0x0 -- 
, 0x2F2F20436F6E7461696E732074686520626173656C696E65207265706561742073746174652028656974686572206E6F20726570656174206F72206175746F726570656174292E205768656E2061 -- // Contains the baseline repeat state (either no repeat or autorepeat). When a
, 0x2F2F206B65792069732072656C65617365642C206F72207768656E2074686520726570656174206B65792069732072656C65617365642C2074686520726570656174207374617465206973 -- // key is released, or when the repeat key is released, the repeat state is
, 0x2F2F20726573657420746F20746869732076616C75652E -- // reset to this value.
, 0x737461746963207265706561745F73746174655F7420626173655F7265706561745F73746174653B -- static repeat_state_t base_repeat_state;
, 0x0 -- 
, 0x2F2F20546865207265706561742074696D657220636F756E747320646F776E20746F20746865206E65787420726570656174206576656E74 -- // The repeat timer counts down to the next repeat event
, 0x737461746963206B65795F74696D65725F74206B65795F7265706561745F74696D65723B -- static key_timer_t key_repeat_timer;
, 0x0 -- 
, 0x0 -- 
, 0x2F2F2050524F4345445552453A20617364665F7265706561745F696E6974 -- // PROCEDURE: asdf_repeat_init
, 0x2F2F20494E505554533A206E6F6E65 -- // INPUTS: none
, 0x2F2F204F5554505554533A206E6F6E65 -- // OUTPUTS: none
, 0x2F2F -- //
, 0x2F2F204445534352495054494F4E3A20496E697469616C697A652074686520726570656174207374617465207374617465206D616368696E65 -- // DESCRIPTION: Initialize the repeat state state machine
, 0x2F2F -- //
, 0x2F2F205349444520454646454354533A20736565204445534352495054494F4E -- // SIDE EFFECTS: see DESCRIPTION
, 0x2F2F -- //
, 0x2F2F20434F4D504C45584954593A2031 -- // COMPLEXITY: 1
, 0x2F2F -- //
, 0x766F696420617364665F7265706561745F696E697428766F696429 -- void asdf_repeat_init(void)
, 0x7B -- {
, 0x20207265706561745F7374617465203D20626173655F7265706561745F7374617465203D20415344465F44454641554C545F5245504541545F53544154453B --   repeat_state = base_repeat_state = ASDF_DEFAULT_REPEAT_STATE;
, 0x20206B65795F7265706561745F74696D6572203D20286B65795F74696D65725F7429207265706561745F73746174653B --   key_repeat_timer = (key_timer_t) repeat_state;
, 0x7D -- }
, 0x0 -- 
, 0x2F2F2050524F4345445552453A20617364665F726570656173745F72657365745F636F756E74 -- // PROCEDURE: asdf_repeast_reset_count
, 0x2F2F20494E505554533A206E6F6E65 -- // INPUTS: none
, 0x2F2F204F5554505554533A206E6F6E65 -- // OUTPUTS: none
, 0x2F2F -- //
, 0x2F2F204445534352495054494F4E3A20726573657473207468652072657065617420636F756E74657220666F72207468652063757272656E74206B65792C20746F20626567696E2061206E6577 -- // DESCRIPTION: resets the repeat counter for the current key, to begin a new
, 0x2F2F20726570656174206379636C652E2054686520636F756E74657220697320726573657420746F2074686520636F756E74646F776E2076616C756520666F72207468652063757272656E74 -- // repeat cycle. The counter is reset to the countdown value for the current
, 0x2F2F20737461746520286E6F207265706561742C206175746F7265706561742C206E6F726D616C20726570656174292E -- // state (no repeat, autorepeat, normal repeat).
, 0x2F2F -- //
, 0x2F2F205349444520454646454354533A20736565204445534352495054494F4E -- // SIDE EFFECTS: see DESCRIPTION
, 0x2F2F -- //
, 0x2F2F2053434F50453A205075626C6963 -- // SCOPE: Public
, 0x2F2F -- //
, 0x2F2F20434F4D504C45584954593A2031 -- // COMPLEXITY: 1
, 0x2F2F -- //
, 0x766F696420617364665F7265706561745F72657365745F636F756E7428766F696429 -- void asdf_repeat_reset_count(void)
, 0x7B -- {
, 0x20206B65795F7265706561745F74696D6572203D20286B65795F74696D65725F7429207265706561745F73746174653B --   key_repeat_timer = (key_timer_t) repeat_state;
, 0x7D -- }
, 0x0 -- 
, 0x2F2F2050524F4345445552453A20617364665F7265706561745F6175746F5F6F6666 -- // PROCEDURE: asdf_repeat_auto_off
, 0x2F2F20494E505554533A206E6F6E65 -- // INPUTS: none
, 0x2F2F204F5554505554533A206E6F6E65 -- // OUTPUTS: none
, 0x2F2F -- //
, 0x2F2F204445534352495054494F4E3A205475726E73204175746F726570656174206D6F6465206F66662062792073657474696E6720746865206261736520737461746520746F -- // DESCRIPTION: Turns Autorepeat mode off by setting the base state to
, 0x2F2F206175746F7265706561742E204966206B657920697320726570656174696E672C207468656E20746865206E6577206265686176696F722077696C6C206265207265616C697A6564206166746572 -- // autorepeat. If key is repeating, then the new behavior will be realized after
, 0x2F2F2074686520726570656174206B65792069732072656C65617365642E20546869732066756E6374696F6E2063616E20626520626F756E6420746F2061206B6579206F722044495020737769746368 -- // the repeat key is released. This function can be bound to a key or DIP switch
, 0x2F2F20746F207475726E206175746F726570656174206F66662E -- // to turn autorepeat off.
, 0x2F2F -- //
, 0x2F2F205349444520454646454354533A20536565204445534352495054494F4E -- // SIDE EFFECTS: See DESCRIPTION
, 0x2F2F -- //
, 0x2F2F2053434F50453A207075626C6963 -- // SCOPE: public
, 0x2F2F -- //
, 0x2F2F20434F4D504C45584954593A2031 -- // COMPLEXITY: 1
, 0x2F2F -- //
, 0x766F696420617364665F7265706561745F6175746F5F6F666628766F696429 -- void asdf_repeat_auto_off(void)
, 0x7B -- {
, 0x2020626173655F7265706561745F7374617465203D205245504541545F4F46463B --   base_repeat_state = REPEAT_OFF;
, 0x2020696620285245504541545F4F4E20213D207265706561745F737461746529207B --   if (REPEAT_ON != repeat_state) {
, 0x202020206B65795F7265706561745F74696D6572203D207265706561745F7374617465203D20626173655F7265706561745F73746174653B --     key_repeat_timer = repeat_state = base_repeat_state;
, 0x20207D --   }
, 0x7D -- }
, 0x0 -- 
, 0x2F2F2050524F4345445552453A20617364665F7265706561745F6175746F5F6F6E -- // PROCEDURE: asdf_repeat_auto_on
, 0x2F2F20494E505554533A206E6F6E65 -- // INPUTS: none
, 0x2F2F204F5554505554533A206E6F6E65 -- // OUTPUTS: none
, 0x2F2F -- //
, 0x2F2F204445534352495054494F4E3A205475726E73204175746F726570656174206D6F6465206F6E2062792073657474696E6720746865206261736520737461746520746F -- // DESCRIPTION: Turns Autorepeat mode on by setting the base state to
, 0x2F2F206175746F7265706561742E204966206B657920697320726570656174696E672C207468656E20746865206E6577206265686176696F722077696C6C206265207265616C697A6564206166746572 -- // autorepeat. If key is repeating, then the new behavior will be realized after
, 0x2F2F2074686520726570656174206B65792069732072656C65617365642E2020546869732066756E6374696F6E2063616E20626520626F756E6420746F2061206B6579206F722044495020737769746368 -- // the repeat key is released.  This function can be bound to a key or DIP switch
, 0x2F2F20746F207475726E206175746F726570656174206F6E2E -- // to turn autorepeat on.
, 0x2F2F -- //
, 0x2F2F205349444520454646454354533A207365652061626F7665 -- // SIDE EFFECTS: see above
, 0x2F2F -- //
, 0x2F2F2053434F50453A207075626C6963 -- // SCOPE: public
, 0x2F2F -- //
, 0x2F2F20434F4D504C45584954593A2031 -- // COMPLEXITY: 1
, 0x2F2F -- //
, 0x766F696420617364665F7265706561745F6175746F5F6F6E28766F696429 -- void asdf_repeat_auto_on(void)
, 0x7B -- {
, 0x2020626173655F7265706561745F7374617465203D205245504541545F4155544F3B --   base_repeat_state = REPEAT_AUTO;
, 0x2020696620285245504541545F4F4E20213D207265706561745F737461746529207B --   if (REPEAT_ON != repeat_state) {
, 0x202020206B65795F7265706561745F74696D6572203D207265706561745F7374617465203D20626173655F7265706561745F73746174653B --     key_repeat_timer = repeat_state = base_repeat_state;
, 0x20207D --   }
, 0x7D -- }
, 0x0 -- 
, 0x2F2F2050524F4345445552453A20617364665F7265706561745F6163746976617465 -- // PROCEDURE: asdf_repeat_activate
, 0x2F2F20494E505554533A206E6F6E65 -- // INPUTS: none
, 0x2F2F204F5554505554533A206E6F6E65 -- // OUTPUTS: none
, 0x2F2F -- //
, 0x2F2F204445534352495054494F4E3A2073657420726570656174207374617465206D616368696E6520746F20726570656174206D6F64652E2043616C6C6564207768656E20524550454154206B6579 -- // DESCRIPTION: set repeat state machine to repeat mode. Called when REPEAT key
, 0x2F2F20697320707265737365642E -- // is pressed.
, 0x2F2F -- //
, 0x2F2F205349444520454646454354533A20736565204445534352495054494F4E -- // SIDE EFFECTS: see DESCRIPTION
, 0x2F2F -- //
, 0x2F2F204E4F5445533A2049662061206B6579206973207072657373656420616E6420746865206B65792074696D6572206973206C657373207468616E206F7220657175616C20746F20746865 -- // NOTES: If a key is pressed and the key timer is less than or equal to the
, 0x2F2F206E6F726D616C2072657065617420726174652C207468656E20646F6E2774206368616E6765207468652074696D696E672C20746F2061766F696420617070656172616E6365206F66 -- // normal repeat rate, then don't change the timing, to avoid appearance of
, 0x2F2F2073747574746572696E672E -- // stuttering.
, 0x2F2F -- //
, 0x2F2F20434F4D504C45584954593A2031 -- // COMPLEXITY: 1
, 0x2F2F -- //
, 0x766F696420617364665F7265706561745F616374697661746528766F696429 -- void asdf_repeat_activate(void)
, 0x7B -- {
, 0x2020696620286B65795F7265706561745F74696D6572203E205245504541545F4F4E207C7C205245504541545F4F4646203D3D207265706561745F737461746529207B --   if (key_repeat_timer > REPEAT_ON || REPEAT_OFF == repeat_state) {
, 0x202020206B65795F7265706561745F74696D6572203D207265706561745F7374617465203D205245504541545F4F4E3B --     key_repeat_timer = repeat_state = REPEAT_ON;
, 0x20207D --   }
, 0x7D -- }
, 0x0 -- 
, 0x2F2F2050524F4345445552453A20617364665F7265706561745F64656163746976617465 -- // PROCEDURE: asdf_repeat_deactivate
, 0x2F2F20494E505554533A206E6F6E65 -- // INPUTS: none
, 0x2F2F204F5554505554533A206E6F6E65 -- // OUTPUTS: none
, 0x2F2F -- //
, 0x2F2F204445534352495054494F4E3A2052657365742072657065617420737461746520746F2064656661756C742073746174652E2043616C6C6564207768656E20524550454154 -- // DESCRIPTION: Reset repeat state to default state. Called when REPEAT
, 0x2F2F206B65792069732072656C65617365642E -- // key is released.
, 0x2F2F -- //
, 0x2F2F205349444520454646454354533A20536565204445534352495054494F4E -- // SIDE EFFECTS: See DESCRIPTION
, 0x2F2F -- //
, 0x2F2F204E4F5445533A2052656C656173696E672072657065617420646973727570747320616E79207265706561742074696D6572732E2049662061206B6579206973207374696C6C2068656C64 -- // NOTES: Releasing repeat disrupts any repeat timers. If a key is still held
, 0x2F2F20646F776E206166746572205245504541542069732072656C65617365642C20616E64206175746F726570656174206D6F646520697320656E61626C65642C207468656E2072657374617274 -- // down after REPEAT is released, and autorepeat mode is enabled, then restart
, 0x2F2F20746865206175746F7265706561742074696D65722E204F74686572776973652064697361626C65207265706561742E -- // the autorepeat timer. Otherwise disable repeat.
, 0x2F2F -- //
, 0x2F2F2053434F50453A205075626C6963 -- // SCOPE: Public
, 0x2F2F -- //
, 0x2F2F20434F4D504C45584954593A2031 -- // COMPLEXITY: 1
, 0x2F2F -- //
, 0x766F696420617364665F7265706561745F6465616374697661746528766F696429 -- void asdf_repeat_deactivate(void)
, 0x7B -- {
, 0x20206B65795F7265706561745F74696D6572203D207265706561745F7374617465203D20626173655F7265706561745F73746174653B --   key_repeat_timer = repeat_state = base_repeat_state;
, 0x7D -- }
, 0x0 -- 
, 0x2F2F2050524F4345445552453A20617364665F726570656174 -- // PROCEDURE: asdf_repeat
, 0x2F2F20494E505554533A206E6F6E65 -- // INPUTS: none
, 0x2F2F204F5554505554533A206E6F6E65 -- // OUTPUTS: none
, 0x2F2F -- //
, 0x2F2F204445534352495054494F4E3A20636F756E747320646F776E20746865207265706561742074696D657220286966206163746976617465642920616E642072657475726E7320612054525545 -- // DESCRIPTION: counts down the repeat timer (if activated) and returns a TRUE
, 0x2F2F2076616C7565207768656E2074686520636F756E7465722074696D6573206F75742E204120747275652076616C75657320696E64696361746573207468617420746865206C6173742076616C7565 -- // value when the counter times out. A true values indicates that the last value
, 0x2F2F2073686F756C6420626520726570656174656420746F20746865206F75747075742E -- // should be repeated to the output.
, 0x2F2F -- //
, 0x2F2F205349444520454646454354533A206E6F6E65 -- // SIDE EFFECTS: none
, 0x2F2F -- //
, 0x2F2F204E4F5445533A20546865206B65795F7265706561745F74696D6572206973206F6E6C792064656372656D656E746564206966206974206973206E6F6E7A65726F2E -- // NOTES: The key_repeat_timer is only decremented if it is nonzero.
, 0x2F2F -- //
, 0x2F2F2053434F50453A205075626C6963 -- // SCOPE: Public
, 0x2F2F -- //
, 0x2F2F20434F4D504C45584954593A2032 -- // COMPLEXITY: 2
, 0x2F2F -- //
, 0x75696E74385F7420617364665F72657065617428766F696429 -- uint8_t asdf_repeat(void)
, 0x7B -- {
, 0x202075696E74385F742074696D656F7574203D20286B65795F7265706561745F74696D65722026262021282D2D6B65795F7265706561745F74696D657229293B --   uint8_t timeout = (key_repeat_timer && !(--key_repeat_timer));
, 0x0 -- 
, 0x20206966202874696D656F757429207B --   if (timeout) {
, 0x202020206B65795F7265706561745F74696D6572203D205245504541545F4F4E3B --     key_repeat_timer = REPEAT_ON;
, 0x20207D --   }
, 0x0 -- 
, 0x202072657475726E2074696D656F75743B --   return timeout;
, 0x7D -- }
, 0x0 -- 
, 0x2F2F2D2D2D2D2D2D2D7C2D2D2D2D2D2D2D2D2D7C2D2D2D2D2D2D2D2D2D2B2D2D2D2D2D2D2D2D2D2B2D2D2D2D2D2D2D2D2D2B2D2D2D2D2D2D2D2D2D2B2D2D2D2D2D2D2D2D2D2B2D2D2D2D2D2D2D2D2D2B -- //-------|---------|---------+---------+---------+---------+---------+---------+
, 0x2F2F2041626F7665206C696E6520697320383020636F6C756D6E732C20616E642073686F756C6420646973706C617920636F6D706C6574656C7920696E2074686520656469746F722E -- // Above line is 80 columns, and should display completely in the editor.
  ]

/-- /repo/firmware/asdf/src/asdf_physical.c, lines 1-317. -/
def asdf_physical_c : List Nat := [
  0x2F2F202D2A2D206D6F64653A20433B207461622D77696474683A2032203B20696E64656E742D746162732D6D6F64653A206E696C202D2A2D -- // -*- mode: C; tab-width: 2 ; indent-tabs-mode: nil -*-
, 0x2F2F -- //
, 0x2F2F20556E6966696564204B6579626F6172642050726F6A656374 -- // Unified Keyboard Project
, 0x2F2F2041534446206B6579626F617264206669726D77617265 -- // ASDF keyboard firmware
, 0x2F2F -- //
, 0x2F2F20617364665F706879736963616C2E63 -- // asdf_physical.c
, 0x2F2F -- //
, 0x2F2F20546869732066696C6520636F6E7461696E7320636F646520746F206D616E61676520706879736963616C207265736F757263657320616E642073657276657320617320616E20415049 -- // This file contains code to manage physical resources and serves as an API
, 0x2F2F206265747765656E20746865207669727475616C206C6179657220616E64207468652061726368697465637475726520737065636966696320636F64652E -- // between the virtual layer and the architecture specific code.
, 0x2F2F -- //
, 0x2F2F20436F7079726967687420323031392044617669642046656E796573 -- // Copyright 2019 David Fenyes
, 0x2F2F -- //
, 0x2F2F20546869732070726F6772616D206973206672656520736F6674776172653A20796F752063616E2072656469737472696275746520697420616E642F6F72206D6F6469667920697420756E646572 -- // This program is free software: you can redistribute it and/or modify it under
, 0x2F2F20746865207465726D73206F662074686520474E552047656E6572616C205075626C6963204C6963656E7365206173207075626C697368656420627920746865204672656520536F667477617265 -- // the terms of the GNU General Public License as published by the Free Software
, 0x2F2F20466F756E646174696F6E2C206569746865722076657273696F6E2033206F6620746865204C6963656E73652C206F722028617420796F7572206F7074696F6E2920616E79206C61746572 -- // Foundation, either version 3 of the License, or (at your option) any later
, 0x2F2F2076657273696F6E2E -- // version.
, 0x2F2F -- //
, 0x2F2F20546869732070726F6772616D20697320646973747269627574656420696E2074686520686F706520746861742069742077696C6C2062652075736566756C2C2062757420574954484F5554 -- // This program is distributed in the hope that it will be useful, but WITHOUT
, 0x2F2F20414E592057415252414E54593B20776974686F7574206576656E2074686520696D706C6965642077617272616E7479206F66204D45524348414E544142494C495459206F72204649544E455353 -- // ANY WARRANTY; without even the implied warranty of MERCHANTABILITY or FITNESS
, 0x2F2F20464F52204120504152544943554C415220505552504F53452E205365652074686520474E552047656E6572616C205075626C6963204C6963656E736520666F72206D6F7265 -- // FOR A PARTICULAR PURPOSE. See the GNU General Public License for more
, 0x2F2F2064657461696C732E -- // details.
, 0x2F2F -- //
, 0x2F2F20596F752073686F756C642068617665207265636569766564206120636F7079206F662074686520474E552047656E6572616C205075626C6963204C6963656E736520616C6F6E672077697468 -- // You should have received a copy of the GNU General Public License along with
, 0x2F2F20746869732070726F6772616D2E204966206E6F742C20736565203C68747470733A2F2F7777772E676E752E6F72672F6C6963656E7365732F3E2E -- // this program. If not, see <https://www.gnu.org/licenses/>.
, 0x2F2F -- //
, 0x0 -- 
, 0x23696E636C756465203C737464696E742E683E -- #include <stdint.h>
, 0x23696E636C7564652022617364665F706879736963616C2E6822 -- #include "asdf_physical.h"
, 0x23696E636C7564652022617364665F636F6E6669672E6822 -- #include "asdf_config.h"
, 0x23696E636C7564652022617364665F617263682E6822 -- #include "asdf_arch.h"
, 0x0 -- 
, 0x0 -- 
, 0x2F2F20466F72206561636820706879736963616C207265736F757263652C20746865726520697320612068616E646C657220616E6420612022736861646F772220726567697374657220666F7220746865206F75747075742076616C75652E -- // For each physical resource, there is a handler and a "shadow" register for the output value.
, 0x2F2F -- //
, 0x2F2F20466F72206C696E65206F7574707574732C2074686520736861646F77207265676973746572207065726D697473206D616368696E6520696E646570656E64656E74 -- // For line outputs, the shadow register permits machine independent
, 0x2F2F20696D706C656D656E746174696F6E73206F662074686520746F67676C6520616E642070756C73652066756E6374696F6E7320746F20626520696D706C656D656E74656420696E2074686973 -- // implementations of the toggle and pulse functions to be implemented in this
, 0x2F2F206D6F64756C652C20726571756972696E67206F6E6C7920612022736574222066756E6374696F6E20666F72206561636820706879736963616C207265736F7572636520696E20746865 -- // module, requiring only a "set" function for each physical resource in the
, 0x2F2F206172636869746563747572652D646570656E64656E74206C617965722E205468697320696D706C656D656E746174696F6E206973206E6F7420617320656666696369656E742C20627574 -- // architecture-dependent layer. This implementation is not as efficient, but
, 0x2F2F207468652074696D696E67206973206E6F7420637269746963616C2C20616E6420746865206576656E74732061726520736F20696E6672657175656E74207468617420746865 -- // the timing is not critical, and the events are so infrequent that the
, 0x2F2F2062656E6566697473206F6620746865207265666163746F72696E6720666172206F7574776569676820616E7920706572666F726D616E63652070656E616C74792E -- // benefits of the refactoring far outweigh any performance penalty.
, 0x0 -- 
, 0x7479706564656620737472756374207B -- typedef struct {
, 0x2020766F696420282A68616E646C6572292875696E74385F74293B --   void (*handler)(uint8_t);
, 0x202075696E74385F7420736861646F773B --   uint8_t shadow;
, 0x2020617364665F706879736963616C5F6465765F74206E6578743B --   asdf_physical_dev_t next;
, 0x7D20706879736963616C5F6465766963655F7461626C655F656E7472795F743B -- } physical_device_table_entry_t;
, 0x0 -- 
, 0x0 -- 
, 0x2F2F20706879736963616C5F68616E646C65725B5D20636F6E7461696E73207468652073657428292066756E6374696F6E20666F722065616368207265616C206F7574707574206465766963652E -- // physical_handler[] contains the set() function for each real output device.
, 0x73746174696320706879736963616C5F6465766963655F7461626C655F656E7472795F7420706879736963616C5F6465766963655F7461626C655B415344465F504859534943414C5F4E554D5F5245534F55524345535D203D207B -- static physical_device_table_entry_t physical_device_table[ASDF_PHYSICAL_NUM_RESOURCES] = {
, 0x20205B504859534943414C5F4E4F5F4F55545D203D207B2E68616E646C6572203D2026617364665F617263685F6E756C6C5F6F75747075742C7D2C --   [PHYSICAL_NO_OUT] = {.handler = &asdf_arch_null_output,},
, 0x20205B504859534943414C5F4F5554315D203D207B2E68616E646C6572203D2026617364665F617263685F6F7574315F7365742C7D2C --   [PHYSICAL_OUT1] = {.handler = &asdf_arch_out1_set,},
, 0x20205B504859534943414C5F4F5554325D203D207B2E68616E646C6572203D2026617364665F617263685F6F7574325F7365742C7D2C --   [PHYSICAL_OUT2] = {.handler = &asdf_arch_out2_set,},
, 0x20205B504859534943414C5F4F5554335D203D207B2E68616E646C6572203D2026617364665F617263685F6F7574335F7365742C7D2C --   [PHYSICAL_OUT3] = {.handler = &asdf_arch_out3_set,},
, 0x20205B504859534943414C5F4F5554315F4F50454E5F48495D203D207B2E68616E646C6572203D2026617364665F617263685F6F7574315F6F70656E5F68695F7365742C7D2C --   [PHYSICAL_OUT1_OPEN_HI] = {.handler = &asdf_arch_out1_open_hi_set,},
, 0x20205B504859534943414C5F4F5554325F4F50454E5F48495D203D207B2E68616E646C6572203D2026617364665F617263685F6F7574325F6F70656E5F68695F7365742C7D2C --   [PHYSICAL_OUT2_OPEN_HI] = {.handler = &asdf_arch_out2_open_hi_set,},
, 0x20205B504859534943414C5F4F5554335F4F50454E5F48495D203D207B2E68616E646C6572203D2026617364665F617263685F6F7574335F6F70656E5F68695F7365742C7D2C --   [PHYSICAL_OUT3_OPEN_HI] = {.handler = &asdf_arch_out3_open_hi_set,},
, 0x20205B504859534943414C5F4F5554315F4F50454E5F4C4F5D203D207B2E68616E646C6572203D2026617364665F617263685F6F7574315F6F70656E5F6C6F5F7365742C7D2C --   [PHYSICAL_OUT1_OPEN_LO] = {.handler = &asdf_arch_out1_open_lo_set,},
, 0x20205B504859534943414C5F4F5554325F4F50454E5F4C4F5D203D207B2E68616E646C6572203D2026617364665F617263685F6F7574325F6F70656E5F6C6F5F7365742C7D2C --   [PHYSICAL_OUT2_OPEN_LO] = {.handler = &asdf_arch_out2_open_lo_set,},
, 0x20205B504859534943414C5F4F5554335F4F50454E5F4C4F5D203D207B2E68616E646C6572203D2026617364665F617263685F6F7574335F6F70656E5F6C6F5F7365742C7D2C --   [PHYSICAL_OUT3_OPEN_LO] = {.handler = &asdf_arch_out3_open_lo_set,},
, 0x20205B504859534943414C5F4C4544315D203D207B2E68616E646C6572203D2026617364665F617263685F6C6564315F7365742C7D2C --   [PHYSICAL_LED1] = {.handler = &asdf_arch_led1_set,},
, 0x20205B504859534943414C5F4C4544325D203D207B2E68616E646C6572203D2026617364665F617263685F6C6564325F7365742C7D2C --   [PHYSICAL_LED2] = {.handler = &asdf_arch_led2_set,},
, 0x20205B504859534943414C5F4C4544335D203D207B2E68616E646C6572203D2026617364665F617263685F6C6564335F7365742C7D2C --   [PHYSICAL_LED3] = {.handler = &asdf_arch_led3_set,},
, 0x7D3B -- };
, 0x0 -- 
, 0x0 -- 
, 0x2F2F2050524F4345445552453A20617364665F706879736963616C5F736574 -- // PROCEDURE: asdf_physical_set
, 0x2F2F20494E505554533A2028617364665F706879736963616C5F6465765F742920706879736963616C5F6F75743A207768696368207265616C206F757470757420746F20736574206F7220636C656172 -- // INPUTS: (asdf_physical_dev_t) physical_out: which real output to set or clear
, 0x2F2F20494E505554533A202875696E74385F74292076616C7565 -- // INPUTS: (uint8_t) value
, 0x2F2F204F5554505554533A206E6F6E65 -- // OUTPUTS: none
, 0x2F2F -- //
, 0x2F2F204445534352495054494F4E3A2049662074686520706879736963616C207265736F757263652069732076616C69642C2073657420746F20686967682069662076616C756520697320747275652C206C6F77 -- // DESCRIPTION: If the physical resource is valid, set to high if value is true, low
, 0x2F2F2069662066616C73652E -- // if false.
, 0x2F2F -- //
, 0x2F2F205349444520454646454354533A207365652061626F7665 -- // SIDE EFFECTS: see above
, 0x2F2F -- //
, 0x2F2F204E4F5445533A204E6F20626F756E647320636865636B696E672E20205468652063616C6C6572206D75737420656E7375726520612076616C696420646576696365 -- // NOTES: No bounds checking.  The caller must ensure a valid device
, 0x2F2F -- //
, 0x2F2F2053434F50453A207075626C6963 -- // SCOPE: public
, 0x2F2F -- //
, 0x2F2F20434F4D504C45584954593A2031 -- // COMPLEXITY: 1
, 0x2F2F -- //
, 0x766F696420617364665F706879736963616C5F73657428617364665F706879736963616C5F6465765F7420706879736963616C5F6F75742C2075696E74385F742076616C756529 -- void asdf_physical_set(asdf_physical_dev_t physical_out, uint8_t value)
, 0x7B -- {
, 0x2020706879736963616C5F6465766963655F7461626C655B706879736963616C5F6F75745D2E68616E646C65722876616C7565293B --   physical_device_table[physical_out].handler(value);
, 0x2020706879736963616C5F6465766963655F7461626C655B706879736963616C5F6F75745D2E736861646F77203D2076616C75653B --   physical_device_table[physical_out].shadow = value;
, 0x7D -- }
, 0x0 -- 
, 0x2F2F2050524F4345445552453A20617364665F706879736963616C5F6F6E -- // PROCEDURE: asdf_physical_on
, 0x2F2F20494E505554533A2028617364665F706879736963616C5F6465765F742920706879736963616C5F6F75743A207768696368207265616C206F757470757420746F2073657420746F204F4E -- // INPUTS: (asdf_physical_dev_t) physical_out: which real output to set to ON
, 0x2F2F204F5554505554533A206E6F6E65 -- // OUTPUTS: none
, 0x2F2F -- //
, 0x2F2F204445534352495054494F4E3A2049662074686520706879736963616C207265736F757263652069732076616C69642C2073657420746F2068696768 -- // DESCRIPTION: If the physical resource is valid, set to high
, 0x2F2F -- //
, 0x2F2F205349444520454646454354533A207365652061626F7665 -- // SIDE EFFECTS: see above
, 0x2F2F -- //
, 0x2F2F204E4F5445533A204E6F20626F756E647320636865636B696E672E20205468652063616C6C6572206D75737420656E7375726520612076616C696420646576696365 -- // NOTES: No bounds checking.  The caller must ensure a valid device
, 0x2F2F -- //
, 0x2F2F2053434F50453A207075626C6963 -- // SCOPE: public
, 0x2F2F -- //
, 0x2F2F20434F4D504C45584954593A2031 -- // COMPLEXITY: 1
, 0x2F2F -- //
, 0x766F696420617364665F706879736963616C5F6F6E28617364665F706879736963616C5F6465765F7420706879736963616C5F6F757429 -- void asdf_physical_on(asdf_physical_dev_t physical_out)
, 0x7B -- {
, 0x2020706879736963616C5F6465766963655F7461626C655B706879736963616C5F6F75745D2E68616E646C65722831293B --   physical_device_table[physical_out].handler(1);
, 0x2020706879736963616C5F6465766963655F7461626C655B706879736963616C5F6F75745D2E736861646F77203D20313B --   physical_device_table[physical_out].shadow = 1;
, 0x7D -- }
, 0x0 -- 
, 0x2F2F2050524F4345445552453A20617364665F706879736963616C5F6F6666 -- // PROCEDURE: asdf_physical_off
, 0x2F2F20494E505554533A2028617364665F706879736963616C5F6465765F742920706879736963616C5F6F75743A207768696368207265616C206F757470757420746F2073657420746F204F4646 -- // INPUTS: (asdf_physical_dev_t) physical_out: which real output to set to OFF
, 0x2F2F204F5554505554533A206E6F6E65 -- // OUTPUTS: none
, 0x2F2F -- //
, 0x2F2F204445534352495054494F4E3A2049662074686520706879736963616C207265736F757263652069732076616C69642C2073657420746F206C6F77 -- // DESCRIPTION: If the physical resource is valid, set to low
, 0x2F2F -- //
, 0x2F2F205349444520454646454354533A207365652061626F7665 -- // SIDE EFFECTS: see above
, 0x2F2F -- //
, 0x2F2F204E4F5445533A204E6F20626F756E647320636865636B696E672E20205468652063616C6C6572206D75737420656E7375726520612076616C696420646576696365 -- // NOTES: No bounds checking.  The caller must ensure a valid device
, 0x2F2F -- //
, 0x2F2F2053434F50453A207075626C6963 -- // SCOPE: public
, 0x2F2F -- //
, 0x2F2F20434F4D504C45584954593A2031 -- // COMPLEXITY: 1
, 0x2F2F -- //
, 0x766F696420617364665F706879736963616C5F6F666628617364665F706879736963616C5F6465765F7420706879736963616C5F6F757429 -- void asdf_physical_off(asdf_physical_dev_t physical_out)
, 0x7B -- {
, 0x2020706879736963616C5F6465766963655F7461626C655B706879736963616C5F6F75745D2E68616E646C65722830293B --   physical_device_table[physical_out].handler(0);
, 0x2020706879736963616C5F6465766963655F7461626C655B706879736963616C5F6F75745D2E736861646F77203D20303B --   physical_device_table[physical_out].shadow = 0;
, 0x7D -- }
, 0x0 -- 
, 0x0 -- 
, 0x2F2F2050524F4345445552453A20617364665F706879736963616C5F617373657274 -- // PROCEDURE: asdf_physical_assert
, 0x2F2F20494E505554533A2028617364665F706879736963616C5F6465765F742920706879736963616C5F6F75743A20776869636820706879736963616C207265736F7572636520746F20736574206F7220636C656172 -- // INPUTS: (asdf_physical_dev_t) physical_out: which physical resource to set or clear
, 0x2F2F20494E505554533A206E6F6E65 -- // INPUTS: none
, 0x2F2F204F5554505554533A206E6F6E65 -- // OUTPUTS: none
, 0x2F2F -- //
, 0x2F2F204445534352495054494F4E3A20417373657274207468652076616C7565206F662074686520706879736963616C207265736F7572636520736861646F77207265676973746572206F6E20746865206F75747075742E -- // DESCRIPTION: Assert the value of the physical resource shadow register on the output.
, 0x2F2F -- //
, 0x2F2F205349444520454646454354533A207365652061626F7665 -- // SIDE EFFECTS: see above
, 0x2F2F -- //
, 0x2F2F204E4F5445533A204E6F20626F756E647320636865636B696E672E20204F6E6C792063616C6C65642066726F6D20696E697469616C697A6174696F6E20636F64652E -- // NOTES: No bounds checking.  Only called from initialization code.
, 0x2F2F -- //
, 0x2F2F2053434F50453A207075626C6963 -- // SCOPE: public
, 0x2F2F -- //
, 0x2F2F20434F4D504C45584954593A2031 -- // COMPLEXITY: 1
, 0x2F2F -- //
, 0x766F696420617364665F706879736963616C5F61737365727428617364665F706879736963616C5F6465765F7420706879736963616C5F6F757429 -- void asdf_physical_assert(asdf_physical_dev_t physical_out)
, 0x7B -- {
, 0x202075696E74385F742076616C7565203D20706879736963616C5F6465766963655F7461626C655B706879736963616C5F6F75745D2E736861646F773B --   uint8_t value = physical_device_table[physical_out].shadow;
, 0x2020706879736963616C5F6465766963655F7461626C655B706879736963616C5F6F75745D2E68616E646C65722876616C7565293B --   physical_device_table[physical_out].handler(value);
, 0x7D -- }
, 0x0 -- 
, 0x2F2F2050524F4345445552453A20617364665F706879736963616C5F746F67676C65 -- // PROCEDURE: asdf_physical_toggle
, 0x2F2F20494E505554533A2028617364665F706879736963616C5F6465765F742920706879736963616C5F6F75743A20776869636820706879736963616C207265736F7572636520746F20746F67676C65 -- // INPUTS: (asdf_physical_dev_t) physical_out: which physical resource to toggle
, 0x2F2F20494E505554533A206E6F6E65 -- // INPUTS: none
, 0x2F2F204F5554505554533A206E6F6E65 -- // OUTPUTS: none
, 0x2F2F -- //
, 0x2F2F204445534352495054494F4E3A20546F67676C65207468652076616C7565206F662074686520706879736963616C207265736F757263652E -- // DESCRIPTION: Toggle the value of the physical resource.
, 0x2F2F -- //
, 0x2F2F205349444520454646454354533A207365652061626F7665 -- // SIDE EFFECTS: see above
, 0x2F2F -- //
, 0x2F2F204E4F5445533A204E6F20626F756E647320636865636B696E672E20204F6E6C792063616C6C65642066726F6D20696E697469616C697A6174696F6E20636F64652E -- // NOTES: No bounds checking.  Only called from initialization code.
, 0x2F2F -- //
, 0x2F2F2053434F50453A207075626C6963 -- // SCOPE: public
, 0x2F2F -- //
, 0x2F2F20434F4D504C45584954593A2031 -- // COMPLEXITY: 1
, 0x2F2F -- //
, 0x766F696420617364665F706879736963616C5F746F67676C6528617364665F706879736963616C5F6465765F7420706879736963616C5F6F757429 -- void asdf_physical_toggle(asdf_physical_dev_t physical_out)
, 0x7B -- {
, 0x202075696E74385F742076616C7565203D20706879736963616C5F6465766963655F7461626C655B706879736963616C5F6F75745D2E736861646F773B --   uint8_t value = physical_device_table[physical_out].shadow;
, 0x0 -- 
, 0x2020617364665F706879736963616C5F73657428706879736963616C5F6F75742C202176616C7565293B --   asdf_physical_set(physical_out, !value);
, 0x7D -- }
, 0x0 -- 
, 0x2F2F2050524F4345445552453A2076616C69645F706879736963616C5F646576696365 -- // PROCEDURE: valid_physical_device
, 0x2F2F20494E505554533A2028617364665F706879736963616C5F6465765F742920646576696365 -- // INPUTS: (asdf_physical_dev_t) device
, 0x2F2F204F5554505554533A2072657475726E7320747275652028312920696620746865206465766963652069732076616C69642C2066616C736520283029206966206E6F742076616C69642E -- // OUTPUTS: returns true (1) if the device is valid, false (0) if not valid.
, 0x2F2F -- //
, 0x2F2F204445534352495054494F4E3A207465737420746F207365652069662064657669636520697320612076616C6964206465766963652076616C75652E -- // DESCRIPTION: test to see if device is a valid device value.
, 0x2F2F -- //
, 0x2F2F205349444520454646454354533A -- // SIDE EFFECTS:
, 0x2F2F -- //
, 0x2F2F204E4F5445533A -- // NOTES:
, 0x2F2F -- //
, 0x2F2F2053434F50453A2070726976617465 -- // SCOPE: private
, 0x2F2F -- //
, 0x2F2F20434F4D504C45584954593A2031 -- // COMPLEXITY: 1
, 0x2F2F -- //
, 0x7374617469632075696E74385F742076616C69645F706879736963616C5F64657669636528617364665F706879736963616C5F6465765F742064657669636529 -- static uint8_t valid_physical_device(asdf_physical_dev_t device)
, 0x7B -- {
, 0x202072657475726E2028646576696365203E20504859534943414C5F4E4F5F4F555420262620646576696365203C20415344465F504859534943414C5F4E554D5F5245534F5552434553293B --   return (device > PHYSICAL_NO_OUT && device < ASDF_PHYSICAL_NUM_RESOURCES);
, 0x7D -- }
, 0x0 -- 
, 0x2F2F2050524F4345445552453A20706879736963616C5F6465766963655F69735F617661696C61626C65 -- // PROCEDURE: physical_device_is_available
, 0x2F2F20494E505554533A20617364665F706879736963616C5F6465765F7420726571756965737465645F646576696365 -- // INPUTS: asdf_physical_dev_t requiested_device
, 0x2F2F204F5554505554533A2072657475726E7320504859534943414C5F4E4F5F4F55542069662064657669636520697320616C7265617920616C6C6F63617465642E204966206E6F742079657420616C6C6F63617465642C -- // OUTPUTS: returns PHYSICAL_NO_OUT if device is alreay allocated. If not yet allocated,
, 0x2F2F2072657475726E732074686520696E646578206F66207468652064657669636520696E2074686520617661696C61626C65206C697374206265666F72652074686520726571756573746564 -- // returns the index of the device in the available list before the requested
, 0x2F2F206465766963652E -- // device.
, 0x2F2F -- //
, 0x2F2F204445534352495054494F4E3A206974657261746573207468726F75676820746865206C696E6B6564206C697374206F6620617661696C61626C6520646576696365732E20496620746865 -- // DESCRIPTION: iterates through the linked list of available devices. If the
, 0x2F2F207265717565737465645F64657669636520697320656E636F756E74657265642C2072657475726E2074686520656C656D656E74206265666F72652074686520726571756573746564 -- // requested_device is encountered, return the element before the requested
, 0x2F2F2064657669636520696E20746865206C6973742E202049662074686520656E64206F6620746865206C69737420697320726561636865642C2072657475726E20504859534943414C5F4E4F5F4F55542E -- // device in the list.  If the end of the list is reached, return PHYSICAL_NO_OUT.
, 0x2F2F -- //
, 0x2F2F205349444520454646454354533A206E6F6E65 -- // SIDE EFFECTS: none
, 0x2F2F -- //
, 0x2F2F204E4F5445533A -- // NOTES:
, 0x2F2F -- //
, 0x2F2F2053434F50453A207075626C6963 -- // SCOPE: public
, 0x2F2F -- //
, 0x2F2F20434F4D504C45584954593A2033 -- // COMPLEXITY: 3
, 0x2F2F -- //
, 0x75696E74385F7420706879736963616C5F6465766963655F69735F617661696C61626C6528617364665F706879736963616C5F6465765F742064657669636529 -- uint8_t physical_device_is_available(asdf_physical_dev_t device)
, 0x7B -- {
, 0x2020617364665F706879736963616C5F6465765F742063757272656E745F6F7574203D20504859534943414C5F4E4F5F4F55543B --   asdf_physical_dev_t current_out = PHYSICAL_NO_OUT;
, 0x2020617364665F706879736963616C5F6465765F74206E6578745F6F7574203D20706879736963616C5F6465766963655F7461626C655B63757272656E745F6F75745D2E6E6578743B --   asdf_physical_dev_t next_out = physical_device_table[current_out].next;
, 0x0 -- 
, 0x20207768696C6520286E6578745F6F757420213D20504859534943414C5F4E4F5F4F5554202626206E6578745F6F757420213D2064657669636529207B --   while (next_out != PHYSICAL_NO_OUT && next_out != device) {
, 0x2020202063757272656E745F6F7574203D206E6578745F6F75743B --     current_out = next_out;
, 0x202020206E6578745F6F7574203D20706879736963616C5F6465766963655F7461626C655B63757272656E745F6F75745D2E6E6578743B --     next_out = physical_device_table[current_out].next;
, 0x20207D --   }
, 0x202072657475726E2028504859534943414C5F4E4F5F4F5554203D3D206E6578745F6F757429203F20415344465F504859534943414C5F4E554D5F5245534F5552434553203A2063757272656E745F6F75743B --   return (PHYSICAL_NO_OUT == next_out) ? ASDF_PHYSICAL_NUM_RESOURCES : current_out;
, 0x7D -- }
, 0x0 -- 
, 0x2F2F2050524F4345445552453A20617364665F706879736963616C5F6E6578745F646576696365 -- // PROCEDURE: asdf_physical_next_device
, 0x2F2F20494E505554533A2028617364665F706879736963616C5F6465765F742920646576696365202D207468652063757272656E7420706879736963616C207265736F75726365206174746163686564 -- // INPUTS: (asdf_physical_dev_t) device - the current physical resource attached
, 0x2F2F20746F20746865207669727475616C206F7574707574206265696E67206F70657261746564206F6E -- // to the virtual output being operated on
, 0x2F2F -- //
, 0x2F2F204F5554505554533A2028617364665F706879736963616C5F6465765F74292072657475726E7320746865206E65787420706879736963616C207265736F757263652061737369676E656420746F -- // OUTPUTS: (asdf_physical_dev_t) returns the next physical resource assigned to
, 0x2F2F20746865207669727475616C206F75747075742E -- // the virtual output.
, 0x2F2F -- //
, 0x2F2F204445534352495054494F4E3A205365652061626F76652E -- // DESCRIPTION: See above.
, 0x2F2F -- //
, 0x2F2F205349444520454646454354533A204E6F6E652E -- // SIDE EFFECTS: None.
, 0x2F2F -- //
, 0x2F2F204E4F5445533A -- // NOTES:
, 0x2F2F -- //
, 0x2F2F2053434F50453A207075626C6963 -- // SCOPE: public
, 0x2F2F -- //
, 0x2F2F20434F4D504C45584954593A2031 -- // COMPLEXITY: 1
, 0x2F2F -- //
, 0x617364665F706879736963616C5F6465765F7420617364665F706879736963616C5F6E6578745F64657669636528617364665F706879736963616C5F6465765F742064657669636529 -- asdf_physical_dev_t asdf_physical_next_device(asdf_physical_dev_t device)
, 0x7B -- {
, 0x202072657475726E20706879736963616C5F6465766963655F7461626C655B6465766963655D2E6E6578743B --   return physical_device_table[device].next;
, 0x7D -- }
, 0x0 -- 
, 0x2F2F2050524F4345445552453A20617364665F706879736963616C5F616C6C6F63617465 -- // PROCEDURE: asdf_physical_allocate
, 0x2F2F -- //
, 0x2F2F20494E505554533A2028617364665F706879736963616C5F6F75745F742920706879736963616C5F6F7574202D20746865206465736972656420706879736963616C207265736F7572636520746F20616C6C6F636174652E -- // INPUTS: (asdf_physical_out_t) physical_out - the desired physical resource to allocate.
, 0x2F2F20202020202020202028617364665F706879736963616C5F6F75745F7429207461696C202D20746865206C697374206F6620706879736963616C207265736F757263657320746F207461636B206F6E -- //         (asdf_physical_out_t) tail - the list of physical resources to tack on
, 0x2F2F202020202020202020746F2074686520726571756573746564207265736F757263652C20696620617661696C61626C652E -- //         to the requested resource, if available.
, 0x2F2F -- //
, 0x2F2F204F5554505554533A2028617364665F706879736963616C5F6F75745F74292072657475726E7320545255452069662074686520616C6C6F636174696F6E2069732073756363657366756C2C -- // OUTPUTS: (asdf_physical_out_t) returns TRUE if the allocation is succesful,
, 0x2F2F2020202020202020202046414C534520283029206F74686572776973652E -- //          FALSE (0) otherwise.
, 0x2F2F -- //
, 0x2F2F204445534352495054494F4E3A20436865636B2074686174207468652072657175657374656420706879736963616C207265736F757263652069732076616C696420616E64 -- // DESCRIPTION: Check that the requested physical resource is valid and
, 0x2F2F20617661696C61626C652E20496620736F2C207468656E2072656D6F766520746865207265736F757263652066726F6D2074686520706879736963616C207265736F75726365207461626C65 -- // available. If so, then remove the resource from the physical resource table
, 0x2F2F20616E642061737369676E20616E20696E697469616C2076616C75652C207468656E2072657475726E20612054525545202831292E2052657475726E2046414C534520283029206966 -- // and assign an initial value, then return a TRUE (1). Return FALSE (0) if
, 0x2F2F20616C6C6F636174696F6E20776173206E6F74207375636365737366756C2E -- // allocation was not successful.
, 0x2F2F -- //
, 0x2F2F205349444520454646454354533A207365652061626F76652E -- // SIDE EFFECTS: see above.
, 0x2F2F -- //
, 0x2F2F2053434F50453A207075626C6963 -- // SCOPE: public
, 0x2F2F -- //
, 0x2F2F20434F4D504C45584954593A2032 -- // COMPLEXITY: 2
, 0x2F2F -- //
, 0x75696E74385F7420617364665F706879736963616C5F616C6C6F6361746528617364665F706879736963616C5F6465765F7420706879736963616C5F6F75742C20617364665F706879736963616C5F6465765F74207461696C2C -- uint8_t asdf_physical_allocate(asdf_physical_dev_t physical_out, asdf_physical_dev_t tail,
, 0x2020202020202020202020202020202020202020202020202020202020202075696E74385F7420696E697469616C5F76616C756529 --                                uint8_t initial_value)
, 0x7B -- {
, 0x202075696E74385F742073756363657373203D20303B --   uint8_t success = 0;
, 0x2020617364665F706879736963616C5F6465765F74207072656465636573736F72203D20706879736963616C5F6465766963655F69735F617661696C61626C6528706879736963616C5F6F7574293B --   asdf_physical_dev_t predecessor = physical_device_is_available(physical_out);
, 0x0 -- 
, 0x20206966202876616C69645F706879736963616C5F64657669636528706879736963616C5F6F7574292026262028415344465F504859534943414C5F4E554D5F5245534F555243455320213D207072656465636573736F722929207B --   if (valid_physical_device(physical_out) && (ASDF_PHYSICAL_NUM_RESOURCES != predecessor)) {
, 0x0 -- 
, 0x202020202F2F2072656D6F76652066726F6D20617661696C61626C65206C6973743A --     // remove from available list:
, 0x20202020706879736963616C5F6465766963655F7461626C655B7072656465636573736F725D2E6E657874203D20706879736963616C5F6465766963655F7461626C655B706879736963616C5F6F75745D2E6E6578743B --     physical_device_table[predecessor].next = physical_device_table[physical_out].next;
, 0x0 -- 
, 0x202020202F2F207461636B20746865207461696C206F6E20746F2074686520706879736963616C207265736F75726365 --     // tack the tail on to the physical resource
, 0x0 -- 
, 0x20202020706879736963616C5F6465766963655F7461626C655B706879736963616C5F6F75745D2E6E657874203D207461696C3B --     physical_device_table[physical_out].next = tail;
, 0x0 -- 
, 0x202020202F2F2054686520706879736963616C207265736F7572636520736861646F772076616C75652069732073657420686572652E2054686520736861646F772076616C75657320617265 --     // The physical resource shadow value is set here. The shadow values are
, 0x202020202F2F20617373657274656420746F20746865206F757470757473206F6E6C7920616674657220616C6C207468652061737369676E6D656E74732068617665206265656E --     // asserted to the outputs only after all the assignments have been
, 0x202020202F2F20706572666F726D65642E --     // performed.
, 0x20202020706879736963616C5F6465766963655F7461626C655B706879736963616C5F6F75745D2E736861646F77203D20696E697469616C5F76616C75653B --     physical_device_table[physical_out].shadow = initial_value;
, 0x0 -- 
, 0x2020202073756363657373203D20313B --     success = 1;
, 0x20207D --   }
, 0x202072657475726E20737563636573733B --   return success;
, 0x7D -- }
, 0x0 -- 
, 0x2F2F2050524F4345445552453A20617364665F706879736963616C5F696E6974 -- // PROCEDURE: asdf_physical_init
, 0x2F2F20494E505554533A206E6F6E65 -- // INPUTS: none
, 0x2F2F204F5554505554533A206E6F6E65 -- // OUTPUTS: none
, 0x2F2F -- //
, 0x2F2F204445534352495054494F4E3A20496E697469616C697A6520706879736963616C207265736F75726365207461626C65 -- // DESCRIPTION: Initialize physical resource table
, 0x2F2F -- //
, 0x2F2F205349444520454646454354533A207365652061626F7665 -- // SIDE EFFECTS: see above
, 0x2F2F -- //
, 0x2F2F204E4F5445533A -- // NOTES:
, 0x2F2F -- //
, 0x2F2F2053434F50453A207075626C6963 -- // SCOPE: public
, 0x2F2F -- //
, 0x2F2F20434F4D504C45584954593A2032 -- // COMPLEXITY: 2
, 0x2F2F -- //
, 0x766F696420617364665F706879736963616C5F696E697428766F696429 -- void asdf_physical_init(void)
, 0x7B -- {
, 0x20202F2F20696E697469616C697A6520746865206C696E6B6564206C697374206F6620667265652064657669636573 --   // initialize the linked list of free devices
, 0x2020666F72202875696E74385F742069203D20303B2069203C20415344465F504859534943414C5F4E554D5F5245534F55524345533B20692B2B29207B --   for (uint8_t i = 0; i < ASDF_PHYSICAL_NUM_RESOURCES; i++) {
, 0x20202020706879736963616C5F6465766963655F7461626C655B695D2E736861646F77203D20415344465F5649525455414C5F4F55545F44454641554C545F56414C55453B --     physical_device_table[i].shadow = ASDF_VIRTUAL_OUT_DEFAULT_VALUE;
, 0x20202020706879736963616C5F6465766963655F7461626C655B695D2E6E657874203D2069202B20313B202F2F20696E697469616C697A6520706F696E74657220746F206E65787420696E207461626C65 --     physical_device_table[i].next = i + 1; // initialize pointer to next in table
, 0x20207D --   }
, 0x20202F2F20546865206C617374206974656D20696E20746865207461626C65206973206C6566742077697468206120626F677573206E65787420706F696E74657220286265796F6E6420746865 --   // The last item in the table is left with a bogus next pointer (beyond the
, 0x20202F2F20656E64206F662074686520617272617929206166746572207468652061626F7665206C6F6F702E204D616B6520746865206C61737420656C656D656E7420706F696E7420746F --   // end of the array) after the above loop. Make the last element point to
, 0x20202F2F20504859534943414C5F4E4F5F4F55542E --   // PHYSICAL_NO_OUT.
, 0x2020706879736963616C5F6465766963655F7461626C655B415344465F504859534943414C5F4E554D5F5245534F5552434553202D20315D2E6E657874203D20504859534943414C5F4E4F5F4F55543B202F2F20656E64206F66206C6973742E --   physical_device_table[ASDF_PHYSICAL_NUM_RESOURCES - 1].next = PHYSICAL_NO_OUT; // end of list.
, 0x7D -- }
, 0x0 -- 
, 0x2F2F2D2D2D2D2D2D2D7C2D2D2D2D2D2D2D2D2D7C2D2D2D2D2D2D2D2D2D2B2D2D2D2D2D2D2D2D2D2B2D2D2D2D2D2D2D2D2D2B2D2D2D2D2D2D2D2D2D2B2D2D2D2D2D2D2D2D2D2B2D2D2D2D2D2D2D2D2D2B -- //-------|---------|---------+---------+---------+---------+---------+---------+
, 0x2F2F2041626F7665206C696E6520697320383020636F6C756D6E732C20616E642073686F756C6420646973706C617920636F6D706C6574656C7920696E2074686520656469746F722E -- // Above line is 80 columns, and should display completely in the editor.
  ]

/-- /repo/firmware/asdf/src/asdf_virtual.c, lines 1-248. -/
def asdf_virtual_c : List Nat := [
  0x2F2F202D2A2D206D6F64653A20433B207461622D77696474683A2032203B20696E64656E742D746162732D6D6F64653A206E696C202D2A2D -- // -*- mode: C; tab-width: 2 ; indent-tabs-mode: nil -*-
, 0x2F2F -- //
, 0x2F2F20556E6966696564204B6579626F6172642050726F6A656374 -- // Unified Keyboard Project
, 0x2F2F2041534446206B6579626F617264206669726D77617265 -- // ASDF keyboard firmware
, 0x2F2F -- //
, 0x2F2F20617364665F7669727475616C5F6F7574707574732E63 -- // asdf_virtual_outputs.c
, 0x2F2F -- //
, 0x2F2F20546869732066696C6520636F6E7461696E7320636F64652074686174206D61707320227669727475616C22204C45447320616E64206F757470757473207265666572656E636564206279 -- // This file contains code that maps "virtual" LEDs and outputs referenced by
, 0x2F2F2074686520636F646520746F2061637475616C204C45447320616E64206F75747075747320696E2068617264776172652E2054686973206B65657073206B65796D61702D7370656369666963 -- // the code to actual LEDs and outputs in hardware. This keeps keymap-specific
, 0x2F2F2064657461696C73206F7574206F6620746865206172636869746563747572652D646570656E64656E742066696C65732C20616E642070726F7669646573206120666C657869626C6520776179 -- // details out of the architecture-dependent files, and provides a flexible way
, 0x2F2F20666F7220746865206B65796D617020646566696E6974696F6E7320746F207370656369667920746865204C454420616E64206F75747075742066756E6374696F6E7320666F72 -- // for the keymap definitions to specify the LED and output functions for
, 0x2F2F20646966666572656E74206B65796D617073206F72206B6579626F617264206C61796F7574732E -- // different keymaps or keyboard layouts.
, 0x2F2F -- //
, 0x2F2F20436F7079726967687420323031392044617669642046656E796573 -- // Copyright 2019 David Fenyes
, 0x2F2F -- //
, 0x2F2F20546869732070726F6772616D206973206672656520736F6674776172653A20796F752063616E2072656469737472696275746520697420616E642F6F72206D6F6469667920697420756E646572 -- // This program is free software: you can redistribute it and/or modify it under
, 0x2F2F20746865207465726D73206F662074686520474E552047656E6572616C205075626C6963204C6963656E7365206173207075626C697368656420627920746865204672656520536F667477617265 -- // the terms of the GNU General Public License as published by the Free Software
, 0x2F2F20466F756E646174696F6E2C206569746865722076657273696F6E2033206F6620746865204C6963656E73652C206F722028617420796F7572206F7074696F6E2920616E79206C61746572 -- // Foundation, either version 3 of the License, or (at your option) any later
, 0x2F2F2076657273696F6E2E -- // version.
, 0x2F2F -- //
, 0x2F2F20546869732070726F6772616D20697320646973747269627574656420696E2074686520686F706520746861742069742077696C6C2062652075736566756C2C2062757420574954484F5554 -- // This program is distributed in the hope that it will be useful, but WITHOUT
, 0x2F2F20414E592057415252414E54593B20776974686F7574206576656E2074686520696D706C6965642077617272616E7479206F66204D45524348414E544142494C495459206F72204649544E455353 -- // ANY WARRANTY; without even the implied warranty of MERCHANTABILITY or FITNESS
, 0x2F2F20464F52204120504152544943554C415220505552504F53452E205365652074686520474E552047656E6572616C205075626C6963204C6963656E736520666F72206D6F7265 -- // FOR A PARTICULAR PURPOSE. See the GNU General Public License for more
, 0x2F2F2064657461696C732E -- // details.
, 0x2F2F -- //
, 0x2F2F20596F752073686F756C642068617665207265636569766564206120636F7079206F662074686520474E552047656E6572616C205075626C6963204C6963656E736520616C6F6E672077697468 -- // You should have received a copy of the GNU General Public License along with
, 0x2F2F20746869732070726F6772616D2E204966206E6F742C20736565203C68747470733A2F2F7777772E676E752E6F72672F6C6963656E7365732F3E2E -- // this program. If not, see <https://www.gnu.org/licenses/>.
, 0x2F2F -- //
, 0x0 -- 
, 0x23696E636C756465203C737464696E742E683E -- #include <stdint.h>
, 0x23696E636C7564652022617364665F706879736963616C2E6822 -- #include "asdf_physical.h"
, 0x23696E636C7564652022617364665F7669727475616C2E6822 -- #include "asdf_virtual.h"
, 0x23696E636C7564652022617364665F636F6E6669672E6822 -- #include "asdf_config.h"
, 0x23696E636C7564652022617364665F617263682E6822 -- #include "asdf_arch.h"
, 0x0 -- 
, 0x2F2F207669727475616C5F6465766963655F7461626C655B5D20636F6E7461696E7320616C6C20746865207669727475616C206F7574707574732E20416E -- // virtual_device_table[] contains all the virtual outputs. An
, 0x2F2F20617364665F7669727475616C5F6F75747075745F742076616C7565206973207573656420746F206964656E74696679206561636820656C656D656E742E204561636820656C656D656E74206973 -- // asdf_virtual_output_t value is used to identify each element. Each element is
, 0x2F2F2061207669727475616C206F75747075742C20636F6E7461696E696E6720616E20617364665F7669727475616C5F706879736963616C5F6465765F742076616C756520696E6469636174696E67 -- // a virtual output, containing an asdf_virtual_physical_dev_t value indicating
, 0x2F2F2074686520666972737420696E20746865206C697374206F6620706879736963616C207265736F75726365732028696620616E79292061737369676E656420746F20746865207669727475616C -- // the first in the list of physical resources (if any) assigned to the virtual
, 0x2F2F206465766963652E204561636820656C656D656E7420616C736F20636F6E7461696E7320612066756E6374696F6E20746861742063616E206265206170706C69656420746F20746865 -- // device. Each element also contains a function that can be applied to the
, 0x2F2F20706879736963616C207265736F7572636573207768656E20746865207669727475616C206F7574707574206973206163746976617465642062792061206B657970726573732E -- // physical resources when the virtual output is activated by a keypress.
, 0x73746174696320737472756374207B -- static struct {
, 0x2020617364665F706879736963616C5F6465765F7420706879736963616C5F6465766963653B202F2F2045616368207669727475616C206F757470757420706F696E747320746F2061206C696E6B6564 --   asdf_physical_dev_t physical_device; // Each virtual output points to a linked
, 0x2020202020202020202020202020202020202020202020202020202020202020202020202020202F2F206C697374206F6620616E79206E756D626572206F6620706879736963616C207265736F75726365732E --                                        // list of any number of physical resources.
, 0x2020617364665F7669727475616C5F66756E6374696F6E5F742066756E6374696F6E3B --   asdf_virtual_function_t function;
, 0x7D207669727475616C5F6465766963655F7461626C655B415344465F5649525455414C5F4E554D5F5245534F55524345535D3B -- } virtual_device_table[ASDF_VIRTUAL_NUM_RESOURCES];
, 0x0 -- 
, 0x2F2F2050524F4345445552453A20617364665F7669727475616C5F6D61705F66756E6374696F6E -- // PROCEDURE: asdf_virtual_map_function
, 0x0 -- 
, 0x2F2F20494E505554533A -- // INPUTS:
, 0x2F2F20202028617364665F7669727475616C5F66756E6374696F6E5F74292066756E6374696F6E202D2066756E6374696F6E20746F206170706C7920746F20646576696365732E -- //   (asdf_virtual_function_t) function - function to apply to devices.
, 0x2F2F20202028617364665F706879736963616C5F6465766963655F742920646576696365202D20666972737420706879736963616C2064657669636520696E206C696E6B6564206C697374 -- //   (asdf_physical_device_t) device - first physical device in linked list
, 0x2F2F -- //
, 0x2F2F204F5554505554533A206E6F6E65 -- // OUTPUTS: none
, 0x2F2F -- //
, 0x2F2F204445534352495054494F4E3A204974657261746573207468726F7567682061206C696E6B6564206C697374206F6620706879736963616C20646576696365732C206170706C79696E6720746865 -- // DESCRIPTION: Iterates through a linked list of physical devices, applying the
, 0x2F2F207370656369666965642066756E6374696F6E20746F2065616368206465766963652E -- // specified function to each device.
, 0x2F2F -- //
, 0x2F2F205349444520454646454354533A20736565204445534352495054494F4E -- // SIDE EFFECTS: see DESCRIPTION
, 0x2F2F -- //
, 0x2F2F204E4F5445533A -- // NOTES:
, 0x2F2F -- //
, 0x2F2F2053434F50453A2070726976617465 -- // SCOPE: private
, 0x2F2F -- //
, 0x2F2F20434F4D504C45584954593A2032 -- // COMPLEXITY: 2
, 0x2F2F -- //
, 0x766F696420617364665F7669727475616C5F6D61705F66756E6374696F6E28766F696420282A66756E6374696F6E2928617364665F706879736963616C5F6465765F74292C20617364665F706879736963616C5F6465765F742064657669636529 -- void asdf_virtual_map_function(void (*function)(asdf_physical_dev_t), asdf_physical_dev_t device)
, 0x7B -- {
, 0x20207768696C652028504859534943414C5F4E4F5F4F555420213D2064657669636529207B --   while (PHYSICAL_NO_OUT != device) {
, 0x20202020282A66756E6374696F6E2928646576696365293B --     (*function)(device);
, 0x20202020646576696365203D20617364665F706879736963616C5F6E6578745F64657669636528646576696365293B --     device = asdf_physical_next_device(device);
, 0x20207D --   }
, 0x7D -- }
, 0x0 -- 
, 0x2F2F2050524F4345445552453A20617364665F7669727475616C5F616374696F6E -- // PROCEDURE: asdf_virtual_action
, 0x2F2F20494E505554533A2028617364665F7669727475616C5F6F75747075745F7429207669727475616C5F6F75743A207768696368207669727475616C206F757470757420746F206D6F64696679 -- // INPUTS: (asdf_virtual_output_t) virtual_out: which virtual output to modify
, 0x2F2F20494E505554533A2028617364665F7669727475616C5F66756E6374696F6E5F74292066756E6374696F6E3A20776861742066756E6374696F6E20746F206170706C7920746F20746865207669727475616C206F7574707574 -- // INPUTS: (asdf_virtual_function_t) function: what function to apply to the virtual output
, 0x2F2F204F5554505554533A206E6F6E65 -- // OUTPUTS: none
, 0x2F2F -- //
, 0x2F2F204445534352495054494F4E3A20666F72206561636820706879736963616C207265736F75726365206D617070656420746F20746865207669727475616C206F75747075742C206170706C7920746865 -- // DESCRIPTION: for each physical resource mapped to the virtual output, apply the
, 0x2F2F207370656369666965642066756E6374696F6E2E -- // specified function.
, 0x2F2F -- //
, 0x2F2F205349444520454646454354533A207365652061626F7665 -- // SIDE EFFECTS: see above
, 0x2F2F -- //
, 0x2F2F204E4F5445533A20546865207669727475616C206F757470757420706F696E747320746F2061206C696E6B6564206C697374206F6620706879736963616C207265736F75726365732E -- // NOTES: The virtual output points to a linked list of physical resources.
, 0x2F2F -- //
, 0x2F2F2053434F50453A207075626C6963 -- // SCOPE: public
, 0x2F2F -- //
, 0x2F2F20434F4D504C45584954593A2036 -- // COMPLEXITY: 6
, 0x2F2F -- //
, 0x0 -- 
, 0x766F696420617364665F7669727475616C5F616374696F6E28617364665F7669727475616C5F6465765F74207669727475616C5F6F75742C20617364665F7669727475616C5F66756E6374696F6E5F742066756E6374696F6E29 -- void asdf_virtual_action(asdf_virtual_dev_t virtual_out, asdf_virtual_function_t function)
, 0x7B -- {
, 0x2020617364665F706879736963616C5F6465765F74206465766963655F6C697374203D207669727475616C5F6465766963655F7461626C655B7669727475616C5F6F75745D2E706879736963616C5F6465766963653B --   asdf_physical_dev_t device_list = virtual_device_table[virtual_out].physical_device;
, 0x0 -- 
, 0x2020737769746368202866756E6374696F6E29207B --   switch (function) {
, 0x0 -- 
, 0x202020206361736520565F50554C53455F4C4F4E473A207B --     case V_PULSE_LONG: {
, 0x202020202020617364665F7669727475616C5F6D61705F66756E6374696F6E2826617364665F706879736963616C5F746F67676C652C206465766963655F6C697374293B --       asdf_virtual_map_function(&asdf_physical_toggle, device_list);
, 0x202020202020617364665F617263685F70756C73655F64656C61795F6C6F6E6728293B --       asdf_arch_pulse_delay_long();
, 0x202020202020617364665F7669727475616C5F6D61705F66756E6374696F6E2826617364665F706879736963616C5F746F67676C652C206465766963655F6C697374293B --       asdf_virtual_map_function(&asdf_physical_toggle, device_list);
, 0x202020202020627265616B3B --       break;
, 0x202020207D --     }
, 0x202020206361736520565F50554C53455F53484F52543A207B --     case V_PULSE_SHORT: {
, 0x202020202020617364665F7669727475616C5F6D61705F66756E6374696F6E2826617364665F706879736963616C5F746F67676C652C206465766963655F6C697374293B --       asdf_virtual_map_function(&asdf_physical_toggle, device_list);
, 0x202020202020617364665F617263685F70756C73655F64656C61795F73686F727428293B --       asdf_arch_pulse_delay_short();
, 0x202020202020617364665F7669727475616C5F6D61705F66756E6374696F6E2826617364665F706879736963616C5F746F67676C652C206465766963655F6C697374293B --       asdf_virtual_map_function(&asdf_physical_toggle, device_list);
, 0x202020202020627265616B3B --       break;
, 0x202020207D --     }
, 0x202020206361736520565F544F47474C453A207B --     case V_TOGGLE: {
, 0x202020202020617364665F7669727475616C5F6D61705F66756E6374696F6E2826617364665F706879736963616C5F746F67676C652C206465766963655F6C697374293B --       asdf_virtual_map_function(&asdf_physical_toggle, device_list);
, 0x202020202020627265616B3B --       break;
, 0x202020207D --     }
, 0x202020206361736520565F5345545F48493A207B --     case V_SET_HI: {
, 0x202020202020617364665F7669727475616C5F6D61705F66756E6374696F6E2826617364665F706879736963616C5F6F6E2C206465766963655F6C697374293B --       asdf_virtual_map_function(&asdf_physical_on, device_list);
, 0x202020202020627265616B3B --       break;
, 0x202020207D --     }
, 0x202020206361736520565F5345545F4C4F3A207B --     case V_SET_LO: {
, 0x202020202020617364665F7669727475616C5F6D61705F66756E6374696F6E2826617364665F706879736963616C5F6F66662C206465766963655F6C697374293B --       asdf_virtual_map_function(&asdf_physical_off, device_list);
, 0x202020207D --     }
, 0x202020206361736520565F4E4F46554E433A --     case V_NOFUNC:
, 0x2020202064656661756C743A20627265616B3B --     default: break;
, 0x20207D --   }
, 0x7D -- }
, 0x0 -- 
, 0x2F2F2050524F4345445552453A20617364665F7669727475616C5F6163746976617465 -- // PROCEDURE: asdf_virtual_activate
, 0x2F2F20494E505554533A20617364665F7669727475616C5F6465765F743A20546865207669727475616C206F757470757420746F20626520616374697661746564 -- // INPUTS: asdf_virtual_dev_t: The virtual output to be activated
, 0x2F2F204F5554505554533A206E6F6E65 -- // OUTPUTS: none
, 0x2F2F -- //
, 0x2F2F204445534352495054494F4E3A20666F72206561636820706879736963616C207265736F75726365206D617070656420746F20746865207669727475616C206F75747075742C206170706C7920746865 -- // DESCRIPTION: for each physical resource mapped to the virtual output, apply the
, 0x2F2F2066756E6374696F6E2061737369676E656420746F20746865207669727475616C206F757470757420617420696E697469616C697A6174696F6E2E -- // function assigned to the virtual output at initialization.
, 0x2F2F -- //
, 0x2F2F205349444520454646454354533A207365652061626F7665 -- // SIDE EFFECTS: see above
, 0x2F2F -- //
, 0x2F2F204E4F5445533A20546865207669727475616C206F757470757420706F696E747320746F2061206C696E6B6564206C697374206F6620706879736963616C207265736F75726365732E -- // NOTES: The virtual output points to a linked list of physical resources.
, 0x2F2F -- //
, 0x2F2F2053434F50453A207075626C6963 -- // SCOPE: public
, 0x2F2F -- //
, 0x2F2F20434F4D504C45584954593A2031 -- // COMPLEXITY: 1
, 0x2F2F -- //
, 0x766F696420617364665F7669727475616C5F616374697661746528617364665F7669727475616C5F6465765F74207669727475616C5F6F757429 -- void asdf_virtual_activate(asdf_virtual_dev_t virtual_out)
, 0x7B -- {
, 0x2020617364665F7669727475616C5F616374696F6E287669727475616C5F6F75742C207669727475616C5F6465766963655F7461626C655B7669727475616C5F6F75745D2E66756E6374696F6E293B --   asdf_virtual_action(virtual_out, virtual_device_table[virtual_out].function);
, 0x7D -- }
, 0x0 -- 
, 0x2F2F2050524F4345445552453A2076616C69645F7669727475616C5F646576696365 -- // PROCEDURE: valid_virtual_device
, 0x2F2F20494E505554533A2028617364665F7669727475616C5F6465765F742920646576696365 -- // INPUTS: (asdf_virtual_dev_t) device
, 0x2F2F204F5554505554533A2072657475726E7320747275652028312920696620746865206465766963652069732076616C69642C2066616C736520283029206966206E6F742076616C69642E -- // OUTPUTS: returns true (1) if the device is valid, false (0) if not valid.
, 0x2F2F -- //
, 0x2F2F204445534352495054494F4E3A207465737420746F207365652069662064657669636520697320612076616C6964206465766963652076616C75652E -- // DESCRIPTION: test to see if device is a valid device value.
, 0x2F2F -- //
, 0x2F2F205349444520454646454354533A -- // SIDE EFFECTS:
, 0x2F2F -- //
, 0x2F2F204E4F5445533A -- // NOTES:
, 0x2F2F -- //
, 0x2F2F2053434F50453A2070726976617465 -- // SCOPE: private
, 0x2F2F -- //
, 0x2F2F20434F4D504C45584954593A2031 -- // COMPLEXITY: 1
, 0x2F2F -- //
, 0x7374617469632075696E74385F742076616C69645F7669727475616C5F64657669636528617364665F7669727475616C5F6465765F742064657669636529 -- static uint8_t valid_virtual_device(asdf_virtual_dev_t device)
, 0x7B -- {
, 0x202072657475726E2028646576696365203E20565F4E554C4C20262620646576696365203C20415344465F5649525455414C5F4E554D5F5245534F5552434553293B --   return (device > V_NULL && device < ASDF_VIRTUAL_NUM_RESOURCES);
, 0x7D -- }
, 0x0 -- 
, 0x2F2F2050524F4345445552453A20617364665F7669727475616C5F61737369676E -- // PROCEDURE: asdf_virtual_assign
, 0x2F2F20494E505554533A2028617364665F7669727475616C5F6465765F7429207669727475616C5F6F7574202D207669727475616C206F757470757420746F2062652070616972656420776974682074686520706879736963616C207265736F75726365 -- // INPUTS: (asdf_virtual_dev_t) virtual_out - virtual output to be paired with the physical resource
, 0x2F2F20202020202020202028617364665F706879736963616C5F6465765F742920706879736963616C5F6F757420746F2062652061737369676E656420746F20746865207669727475616C206F75747075742E -- //         (asdf_physical_dev_t) physical_out to be assigned to the virtual output.
, 0x2F2F20202020202020202028617364665F7669727475616C5F66756E6374696F6E5F7429202D207468652066756E6374696F6E20746F206265206170706C69656420746F20746865207669727475616C -- //         (asdf_virtual_function_t) - the function to be applied to the virtual
, 0x2F2F2020202020202020202020202020646576696365207768656E206163746976617465642062792061206B657970726573732E -- //              device when activated by a keypress.
, 0x2F2F2020202020202020202875696E74385F742920696E697469616C5F76616C7565202D2074686520696E697469616C207374617465206F662074686520706879736963616C207265736F757263652E -- //         (uint8_t) initial_value - the initial state of the physical resource.
, 0x2F2F -- //
, 0x2F2F204F5554505554533A206E6F6E65 -- // OUTPUTS: none
, 0x2F2F -- //
, 0x2F2F204445534352495054494F4E3A206D617020746865207669727475616C206F757470757420737065636966696564206279206E65775F766F757420746F20706879736963616C5F6F75742C206966 -- // DESCRIPTION: map the virtual output specified by new_vout to physical_out, if
, 0x2F2F20626F746820617267756D656E7473206172652076616C69642E2049676E6F7265206966206E6F742076616C69642E -- // both arguments are valid. Ignore if not valid.
, 0x2F2F -- //
, 0x2F2F205349444520454646454354533A207365652061626F76652E -- // SIDE EFFECTS: see above.
, 0x2F2F -- //
, 0x2F2F204E4F5445533A -- // NOTES:
, 0x2F2F202020696620746865207669727475616C206F757470757420697320696E76616C69642C206F722074686520706879736963616C207265736F7572636520697320696E76616C69642C206F72 -- //   if the virtual output is invalid, or the physical resource is invalid, or
, 0x2F2F20202074686520706879736963616C207265736F7572636520697320616C72656164792061737369676E65642C207468656E206E6F7468696E672068617070656E732E -- //   the physical resource is already assigned, then nothing happens.
, 0x2F2F -- //
, 0x2F2F2053434F50453A2070726976617465 -- // SCOPE: private
, 0x2F2F -- //
, 0x2F2F20434F4D504C45584954593A2033 -- // COMPLEXITY: 3
, 0x2F2F -- //
, 0x766F696420617364665F7669727475616C5F61737369676E28617364665F7669727475616C5F6465765F74207669727475616C5F6F75742C20617364665F706879736963616C5F6465765F7420706879736963616C5F6F75742C -- void asdf_virtual_assign(asdf_virtual_dev_t virtual_out, asdf_physical_dev_t physical_out,
, 0x2020202020202020202020202020202020202020202020202020202020202020617364665F7669727475616C5F66756E6374696F6E5F742066756E6374696F6E2C2075696E74385F7420696E697469616C5F76616C756529 --                                 asdf_virtual_function_t function, uint8_t initial_value)
, 0x7B -- {
, 0x20206966202876616C69645F7669727475616C5F646576696365287669727475616C5F6F75742929207B --   if (valid_virtual_device(virtual_out)) {
, 0x20202020617364665F706879736963616C5F6465765F74207461696C203D207669727475616C5F6465766963655F7461626C655B7669727475616C5F6F75745D2E706879736963616C5F6465766963653B --     asdf_physical_dev_t tail = virtual_device_table[virtual_out].physical_device;
, 0x0 -- 
, 0x2020202069662028617364665F706879736963616C5F616C6C6F6361746528706879736963616C5F6F75742C207461696C2C20696E697469616C5F76616C75652929207B --     if (asdf_physical_allocate(physical_out, tail, initial_value)) {
, 0x0 -- 
, 0x2020202020207669727475616C5F6465766963655F7461626C655B7669727475616C5F6F75745D2E706879736963616C5F646576696365203D20706879736963616C5F6F75743B --       virtual_device_table[virtual_out].physical_device = physical_out;
, 0x2020202020207669727475616C5F6465766963655F7461626C655B7669727475616C5F6F75745D2E66756E6374696F6E203D2066756E6374696F6E3B --       virtual_device_table[virtual_out].function = function;
, 0x202020207D --     }
, 0x20207D --   }
, 0x7D -- }
, 0x0 -- 
, 0x2F2F2050524F4345445552453A20617364665F7669727475616C5F696E6974 -- // PROCEDURE: asdf_virtual_init
, 0x2F2F20494E505554533A206E6F6E65 -- // INPUTS: none
, 0x2F2F204F5554505554533A206E6F6E65 -- // OUTPUTS: none
, 0x2F2F -- //
, 0x2F2F204445534352495054494F4E3A20496E697469616C697A657320746865204C454420616E64206F7574707574206D617070696E67 -- // DESCRIPTION: Initializes the LED and output mapping
, 0x2F2F -- //
, 0x2F2F205349444520454646454354533A207365652061626F7665 -- // SIDE EFFECTS: see above
, 0x2F2F -- //
, 0x2F2F204E4F5445533A2020415344465F5649525455414C5F4F55545F44454641554C545F56414C554520697320646566696E656420696E20617364665F636F6E6669672E68 -- // NOTES:  ASDF_VIRTUAL_OUT_DEFAULT_VALUE is defined in asdf_config.h
, 0x2F2F -- //
, 0x2F2F2053434F50453A207075626C6963 -- // SCOPE: public
, 0x2F2F -- //
, 0x2F2F20434F4D504C45584954593A2034 -- // COMPLEXITY: 4
, 0x2F2F -- //
, 0x766F696420617364665F7669727475616C5F696E697428766F696429 -- void asdf_virtual_init(void)
, 0x7B -- {
, 0x20202F2F20696E697469616C697A652074686520706879736963616C207265736F75726365207461626C652065766572792074696D65207669727475616C206F7574707574207461626C65206973 --   // initialize the physical resource table every time virtual output table is
, 0x20202F2F20696E697469616C697A65642E --   // initialized.
, 0x2020617364665F706879736963616C5F696E697428293B --   asdf_physical_init();
, 0x0 -- 
, 0x20202F2F20696E697469616C697A65206C697374206F66207669727475616C206F757470757473 --   // initialize list of virtual outputs
, 0x2020666F72202875696E74385F742069203D20303B2069203C20415344465F5649525455414C5F4E554D5F5245534F55524345533B20692B2B29207B --   for (uint8_t i = 0; i < ASDF_VIRTUAL_NUM_RESOURCES; i++) {
, 0x202020207669727475616C5F6465766963655F7461626C655B695D2E66756E6374696F6E203D20565F4E4F46554E433B --     virtual_device_table[i].function = V_NOFUNC;
, 0x202020207669727475616C5F6465766963655F7461626C655B695D2E706879736963616C5F646576696365203D20504859534943414C5F4E4F5F4F55543B --     virtual_device_table[i].physical_device = PHYSICAL_NO_OUT;
, 0x20207D --   }
, 0x7D -- }
, 0x0 -- 
, 0x2F2F2050524F4345445552453A20617364665F7669727475616C5F73796E63 -- // PROCEDURE: asdf_virtual_sync
, 0x2F2F20494E505554533A206E6F6E65 -- // INPUTS: none
, 0x2F2F204F5554505554533A206E6F6E65 -- // OUTPUTS: none
, 0x2F2F -- //
, 0x2F2F204445534352495054494F4E3A2053796E6368726F6E697A652074686520706879736963616C206F757470757473207769746820746865697220636F6E74726F6C6C696E67207669727475616C20646576696365732E -- // DESCRIPTION: Synchronize the physical outputs with their controlling virtual devices.
, 0x2F2F -- //
, 0x2F2F205349444520454646454354533A207365652061626F7665 -- // SIDE EFFECTS: see above
, 0x2F2F -- //
, 0x2F2F2053434F50453A207075626C6963 -- // SCOPE: public
, 0x2F2F -- //
, 0x2F2F20434F4D504C45584954593A2032 -- // COMPLEXITY: 2
, 0x2F2F -- //
, 0x766F696420617364665F7669727475616C5F73796E6328766F696429 -- void asdf_virtual_sync(void)
, 0x7B -- {
, 0x2020666F72202875696E74385F742069203D20303B2069203C20415344465F504859534943414C5F4E554D5F5245534F55524345533B20692B2B29207B --   for (uint8_t i = 0; i < ASDF_PHYSICAL_NUM_RESOURCES; i++) {
, 0x20202020617364665F706879736963616C5F6173736572742828617364665F706879736963616C5F6465765F74292069293B --     asdf_physical_assert((asdf_physical_dev_t) i);
, 0x20207D --   }
, 0x7D -- }
, 0x0 -- 
, 0x2F2F2D2D2D2D2D2D2D7C2D2D2D2D2D2D2D2D2D7C2D2D2D2D2D2D2D2D2D2B2D2D2D2D2D2D2D2D2D2B2D2D2D2D2D2D2D2D2D2B2D2D2D2D2D2D2D2D2D2B2D2D2D2D2D2D2D2D2D2B2D2D2D2D2D2D2D2D2D2B -- //-------|---------|---------+---------+---------+---------+---------+---------+
, 0x2F2F2041626F7665206C696E6520697320383020636F6C756D6E732C20616E642073686F756C6420646973706C617920636F6D706C6574656C7920696E2074686520656469746F722E -- // Above line is 80 columns, and should display completely in the editor.
  ]

/-- /repo/firmware/asdf/src/asdf_hook.c, lines 1-176. -/
def asdf_hook_c : List Nat := [
  0x2F2F202D2A2D206D6F64653A20433B207461622D77696474683A2032203B20696E64656E742D746162732D6D6F64653A206E696C202D2A2D -- // -*- mode: C; tab-width: 2 ; indent-tabs-mode: nil -*-
, 0x2F2F -- //
, 0x2F2F20556E6966696564204B6579626F6172642050726F6A656374 -- // Unified Keyboard Project
, 0x2F2F2041534446206B6579626F617264206669726D77617265 -- // ASDF keyboard firmware
, 0x2F2F -- //
, 0x2F2F20617364665F686F6F6B2E63 -- // asdf_hook.c
, 0x2F2F -- //
, 0x2F2F20546869732066696C6520636F6E7461696E7320636F646520746F20616C6C6F772066756E6374696F6E2022686F6F6B732220746F2062652073706563696669656420696E20746865 -- // This file contains code to allow function "hooks" to be specified in the
, 0x2F2F206B65796D61702066696C65732C20736F207468617420746865206B65796D61702063616E2064657465726D696E65207468652068616E646C696E65206F66206365727461696E -- // keymap files, so that the keymap can determine the handline of certain
, 0x2F2F2066756E6374696F6E732C2073756368206173206B6579626F617264207363616E6E65722C206F75747075742028706172616C6C656C2C2073657269616C2C205553422C206574632E292C -- // functions, such as keyboard scanner, output (parallel, serial, USB, etc.),
, 0x2F2F206B6579626F6172642073657475702028652E672E2C2073657420636170736C6F636B206F7220656D756C617465206F74686572206B657970726573736573292C206F722073706563696679 -- // keyboard setup (e.g., set capslock or emulate other keypresses), or specify
, 0x2F2F2066756E6374696F6E7320746F2062652072756E206174206576657279206B65797363616E2E20546865206B6579626F617264206C6F67696320636F64652061636365737320746865 -- // functions to be run at every keyscan. The keyboard logic code access the
, 0x2F2F2066756E6374696F6E616C697479207669612074686520686F6F6B73206D6F64756C6520726174686572207468616E206469726563746C792063616C6C696E67207363616E6E696E67 -- // functionality via the hooks module rather than directly calling scanning
, 0x2F2F2066756E6374696F6E732C206574632E -- // functions, etc.
, 0x2F2F -- //
, 0x2F2F20436F7079726967687420323031392044617669642046656E796573 -- // Copyright 2019 David Fenyes
, 0x2F2F -- //
, 0x2F2F20546869732070726F6772616D206973206672656520736F6674776172653A20796F752063616E2072656469737472696275746520697420616E642F6F72206D6F6469667920697420756E646572 -- // This program is free software: you can redistribute it and/or modify it under
, 0x2F2F20746865207465726D73206F662074686520474E552047656E6572616C205075626C6963204C6963656E7365206173207075626C697368656420627920746865204672656520536F667477617265 -- // the terms of the GNU General Public License as published by the Free Software
, 0x2F2F20466F756E646174696F6E2C206569746865722076657273696F6E2033206F6620746865204C6963656E73652C206F722028617420796F7572206F7074696F6E2920616E79206C61746572 -- // Foundation, either version 3 of the License, or (at your option) any later
, 0x2F2F2076657273696F6E2E -- // version.
, 0x2F2F -- //
, 0x2F2F20546869732070726F6772616D20697320646973747269627574656420696E2074686520686F706520746861742069742077696C6C2062652075736566756C2C2062757420574954484F5554 -- // This program is distributed in the hope that it will be useful, but WITHOUT
, 0x2F2F20414E592057415252414E54593B20776974686F7574206576656E2074686520696D706C6965642077617272616E7479206F66204D45524348414E544142494C495459206F72204649544E455353 -- // ANY WARRANTY; without even the implied warranty of MERCHANTABILITY or FITNESS
, 0x2F2F20464F52204120504152544943554C415220505552504F53452E205365652074686520474E552047656E6572616C205075626C6963204C6963656E736520666F72206D6F7265 -- // FOR A PARTICULAR PURPOSE. See the GNU General Public License for more
, 0x2F2F2064657461696C732E -- // details.
, 0x2F2F -- //
, 0x2F2F20596F752073686F756C642068617665207265636569766564206120636F7079206F662074686520474E552047656E6572616C205075626C6963204C6963656E736520616C6F6E672077697468 -- // You should have received a copy of the GNU General Public License along with
, 0x2F2F20746869732070726F6772616D2E204966206E6F742C20736565203C68747470733A2F2F7777772E676E752E6F72672F6C6963656E7365732F3E2E -- // this program. If not, see <https://www.gnu.org/licenses/>.
, 0x2F2F -- //
, 0x0 -- 
, 0x23696E636C756465203C737464696E742E683E -- #include <stdint.h>
, 0x23696E636C756465203C7374646465662E683E -- #include <stddef.h>
, 0x23696E636C7564652022617364665F636F6E6669672E6822 -- #include "asdf_config.h"
, 0x23696E636C7564652022617364665F617263682E6822 -- #include "asdf_arch.h"
, 0x23696E636C7564652022617364665F686F6F6B2E6822 -- #include "asdf_hook.h"
, 0x0 -- 
, 0x0 -- 
, 0x2F2F20686F6F6B735F7461626C655B5D20636F6E7461696E7320616C6C207468652066756E6374696F6E20686F6F6B732E2054686520656E74727920666F72206561636820494420636F6E7461696E73 -- // hooks_table[] contains all the function hooks. The entry for each ID contains
, 0x2F2F206120706F696E74657220746F2074686520666972737420696E20746865206C697374206F662066756E6374696F6E732028696620616E79292061737369676E656420746F2074686520686F6F6B -- // a pointer to the first in the list of functions (if any) assigned to the hook
, 0x2F2F2049442E -- // ID.
, 0x617364665F686F6F6B5F66756E6374696F6E5F7420686F6F6B5F6D61705B415344465F4E554D5F484F4F4B535D3B -- asdf_hook_function_t hook_map[ASDF_NUM_HOOKS];
, 0x0 -- 
, 0x2F2F2050524F4345445552453A20617364665F686F6F6B5F6E756C6C5F66756E63 -- // PROCEDURE: asdf_hook_null_func
, 0x2F2F20494E505554533A206E6F6E65 -- // INPUTS: none
, 0x2F2F204F5554505554533A206E6F6E65 -- // OUTPUTS: none
, 0x2F2F -- //
, 0x2F2F204445534352495054494F4E3A2064756D6D792066756E6374696F6E2C2064656661756C7420686F6F6B20666F7220616C6C20627574206F757470757420616E64207363616E6E65722E -- // DESCRIPTION: dummy function, default hook for all but output and scanner.
, 0x2F2F -- //
, 0x2F2F205349444520454646454354533A206E6F6E65 -- // SIDE EFFECTS: none
, 0x2F2F -- //
, 0x2F2F204E4F5445533A -- // NOTES:
, 0x2F2F -- //
, 0x2F2F2053434F50453A2070726976617465 -- // SCOPE: private
, 0x2F2F -- //
, 0x2F2F20434F4D504C45584954593A2031 -- // COMPLEXITY: 1
, 0x2F2F -- //
, 0x766F696420617364665F686F6F6B5F6E756C6C5F66756E6328766F696429207B7D -- void asdf_hook_null_func(void) {}
, 0x0 -- 
, 0x0 -- 
, 0x2F2F2050524F4345445552453A20617364665F686F6F6B5F76616C69645F6964 -- // PROCEDURE: asdf_hook_valid_id
, 0x2F2F20494E505554533A2028617364665F686F6F6B5F69645F742920686F6F6B5F69743A204944206F662074686520686F6F6B20746F20626520746573746564 -- // INPUTS: (asdf_hook_id_t) hook_it: ID of the hook to be tested
, 0x2F2F204F5554505554533A2072657475726E732074727565202831292069662074686520686F6F6B2049442069732076616C69642C2066616C736520283029206966206E6F742076616C69642E -- // OUTPUTS: returns true (1) if the hook ID is valid, false (0) if not valid.
, 0x2F2F -- //
, 0x2F2F204445534352495054494F4E3A207465737420746F2073656520696620686F6F6B732049442069732076616C69642028692E652E2C2077697468696E207468652076616C69642072616E676529 -- // DESCRIPTION: test to see if hooks ID is valid (i.e., within the valid range)
, 0x2F2F -- //
, 0x2F2F205349444520454646454354533A206E6F6E65 -- // SIDE EFFECTS: none
, 0x2F2F -- //
, 0x2F2F204E4F5445533A -- // NOTES:
, 0x2F2F -- //
, 0x2F2F2053434F50453A2070726976617465 -- // SCOPE: private
, 0x2F2F -- //
, 0x2F2F20434F4D504C45584954593A2031 -- // COMPLEXITY: 1
, 0x2F2F -- //
, 0x7374617469632075696E74385F7420617364665F686F6F6B5F76616C69645F696428617364665F686F6F6B5F69645F7420696429 -- static uint8_t asdf_hook_valid_id(asdf_hook_id_t id)
, 0x7B -- {
, 0x202072657475726E20286964203E20415344465F484F4F4B5F4E554C4C202626206964203C20415344465F4E554D5F484F4F4B53293B --   return (id > ASDF_HOOK_NULL && id < ASDF_NUM_HOOKS);
, 0x7D -- }
, 0x0 -- 
, 0x2F2F2050524F4345445552453A20617364665F686F6F6B5F65786563757465 -- // PROCEDURE: asdf_hook_execute
, 0x2F2F20494E505554533A2028617364665F686F6F6B5F69645F742920686F6F6B5F69643A2054686520686F6F6B20666F7220776869636820746F206578656375746520746865206174746163686564 -- // INPUTS: (asdf_hook_id_t) hook_id: The hook for which to execute the attached
, 0x2F2F2066756E6374696F6E2E -- // function.
, 0x2F2F -- //
, 0x2F2F204F5554505554533A206E6F6E65 -- // OUTPUTS: none
, 0x0 -- 
, 0x2F2F204445534352495054494F4E3A2069662074686520686F6F6B2049442069732076616C69642C207468656E2065786563757465207468652066756E6374696F6E20617474616368656420746F2074686520686F6F6B2E -- // DESCRIPTION: if the hook ID is valid, then execute the function attached to the hook.
, 0x2F2F -- //
, 0x2F2F205349444520454646454354533A207661726961626C6520646570656E64696E67206F6E2074686520686F6F6B732E -- // SIDE EFFECTS: variable depending on the hooks.
, 0x2F2F -- //
, 0x2F2F204E4F5445533A -- // NOTES:
, 0x2F2F -- //
, 0x2F2F2053434F50453A207075626C6963 -- // SCOPE: public
, 0x2F2F -- //
, 0x2F2F20434F4D504C45584954593A2032 -- // COMPLEXITY: 2
, 0x2F2F -- //
, 0x766F696420617364665F686F6F6B5F6578656375746528617364665F686F6F6B5F69645F7420686F6F6B5F696429 -- void asdf_hook_execute(asdf_hook_id_t hook_id)
, 0x7B -- {
, 0x202069662028617364665F686F6F6B5F76616C69645F696428686F6F6B5F69642929207B --   if (asdf_hook_valid_id(hook_id)) {
, 0x20202020686F6F6B5F6D61705B686F6F6B5F69645D28293B --     hook_map[hook_id]();
, 0x20207D --   }
, 0x7D -- }
, 0x0 -- 
, 0x2F2F2050524F4345445552453A20617364665F686F6F6B5F676574 -- // PROCEDURE: asdf_hook_get
, 0x2F2F20494E505554533A2028617364665F686F6F6B5F69645F742920686F6F6B5F69643A2054686520686F6F6B20666F7220776869636820746F20726574726965766520746865206174746163686564 -- // INPUTS: (asdf_hook_id_t) hook_id: The hook for which to retrieve the attached
, 0x2F2F2066756E6374696F6E2E -- // function.
, 0x2F2F204F5554505554533A206E6F6E65 -- // OUTPUTS: none
, 0x0 -- 
, 0x2F2F204445534352495054494F4E3A2069662074686520686F6F6B2049442069732076616C69642C207468656E207265747269657665207468652066756E6374696F6E20617474616368656420746F2074686520686F6F6B2E -- // DESCRIPTION: if the hook ID is valid, then retrieve the function attached to the hook.
, 0x2F2F -- //
, 0x2F2F205349444520454646454354533A207661726961626C6520646570656E64696E67206F6E2074686520686F6F6B732E -- // SIDE EFFECTS: variable depending on the hooks.
, 0x2F2F -- //
, 0x2F2F204E4F5445533A -- // NOTES:
, 0x2F2F -- //
, 0x2F2F2053434F50453A207075626C6963 -- // SCOPE: public
, 0x2F2F -- //
, 0x2F2F20434F4D504C45584954593A2032 -- // COMPLEXITY: 2
, 0x2F2F -- //
, 0x617364665F686F6F6B5F66756E6374696F6E5F7420617364665F686F6F6B5F67657428617364665F686F6F6B5F69645F7420686F6F6B5F696429 -- asdf_hook_function_t asdf_hook_get(asdf_hook_id_t hook_id)
, 0x7B -- {
, 0x202072657475726E20617364665F686F6F6B5F76616C69645F696428686F6F6B5F696429203F20686F6F6B5F6D61705B686F6F6B5F69645D203A20617364665F686F6F6B5F6E756C6C5F66756E633B --   return asdf_hook_valid_id(hook_id) ? hook_map[hook_id] : asdf_hook_null_func;
, 0x7D -- }
, 0x0 -- 
, 0x2F2F2050524F4345445552453A20617364665F686F6F6B5F61737369676E -- // PROCEDURE: asdf_hook_assign
, 0x2F2F20494E505554533A2028617364665F686F6F6B5F69645F742920686F6F6B5F69643A2054686520686F6F6B20666F7220776869636820746F206578656375746520617474616368652066756E6374696F6E732E -- // INPUTS: (asdf_hook_id_t) hook_id: The hook for which to execute attache functions.
, 0x2F2F20202020202020202028617364665F686F6F6B5F66756E6374696F6E5F74292066756E633A2066756E6374696F6E20746F20626520617474616368656420746F2074686520686F6F6B2E -- //         (asdf_hook_function_t) func: function to be attached to the hook.
, 0x2F2F -- //
, 0x2F2F204F5554505554533A206E6F6E65 -- // OUTPUTS: none
, 0x2F2F -- //
, 0x2F2F204445534352495054494F4E3A2049662074686520686F6F6B2049442069732076616C69642C206D6170207468652066756E6374696F6E20746F2074686520686F6F6B2049442E -- // DESCRIPTION: If the hook ID is valid, map the function to the hook ID.
, 0x2F2F2049676E6F7265206966206E6F742076616C69642E -- // Ignore if not valid.
, 0x2F2F -- //
, 0x2F2F205349444520454646454354533A207365652061626F76652E -- // SIDE EFFECTS: see above.
, 0x2F2F -- //
, 0x2F2F204E4F5445533A -- // NOTES:
, 0x2F2F -- //
, 0x2F2F2053434F50453A207075626C6963 -- // SCOPE: public
, 0x2F2F -- //
, 0x2F2F20434F4D504C45584954593A2032 -- // COMPLEXITY: 2
, 0x2F2F -- //
, 0x766F696420617364665F686F6F6B5F61737369676E28617364665F686F6F6B5F69645F7420686F6F6B5F69642C20617364665F686F6F6B5F66756E6374696F6E5F742066756E6329 -- void asdf_hook_assign(asdf_hook_id_t hook_id, asdf_hook_function_t func)
, 0x7B -- {
, 0x202069662028617364665F686F6F6B5F76616C69645F696428686F6F6B5F69642929207B --   if (asdf_hook_valid_id(hook_id)) {
, 0x20202020686F6F6B5F6D61705B686F6F6B5F69645D203D2066756E633B --     hook_map[hook_id] = func;
, 0x20207D --   }
, 0x7D -- }
, 0x0 -- 
, 0x2F2F2050524F4345445552453A20617364665F686F6F6B5F696E6974 -- // PROCEDURE: asdf_hook_init
, 0x2F2F20494E505554533A206E6F6E65 -- // INPUTS: none
, 0x2F2F204F5554505554533A206E6F6E65 -- // OUTPUTS: none
, 0x2F2F -- //
, 0x2F2F204445534352495054494F4E3A20496E697469616C697A65732066756E6374696F6E20686F6F6B7320666F72207468652073656C6563746564206B65796D61702E2049662061 -- // DESCRIPTION: Initializes function hooks for the selected keymap. If a
, 0x2F2F2066756E6374696F6E2069732061737369676E656420746F2074686520224B45594D41505F53455455502220686F6F6B2C207468656E2065786563757465207468652066756E6374696F6E2E -- // function is assigned to the "KEYMAP_SETUP" hook, then execute the function.
, 0x2F2F205468657265206973206E6F2061637475616C20736C6F74207768657265204B45594D41505F53455455502066756E6374696F6E73206172652073746F7265642E -- // There is no actual slot where KEYMAP_SETUP functions are stored.
, 0x2F2F -- //
, 0x2F2F205349444520454646454354533A207365652061626F7665 -- // SIDE EFFECTS: see above
, 0x2F2F -- //
, 0x2F2F204E4F5445533A -- // NOTES:
, 0x2F2F -- //
, 0x2F2F2053434F50453A207075626C6963 -- // SCOPE: public
, 0x2F2F -- //
, 0x2F2F20434F4D504C45584954593A2034 -- // COMPLEXITY: 4
, 0x2F2F -- //
, 0x766F696420617364665F686F6F6B5F696E697428766F696429 -- void asdf_hook_init(void)
, 0x7B -- {
, 0x20202F2F20696E697469616C697A6520686F6F6B7320746F206E756C6C2066756E6374696F6E --   // initialize hooks to null function
, 0x2020666F72202875696E74385F742069203D20303B2069203C20415344465F4E554D5F484F4F4B533B20692B2B29207B --   for (uint8_t i = 0; i < ASDF_NUM_HOOKS; i++) {
, 0x20202020686F6F6B5F6D61705B695D203D2026617364665F686F6F6B5F6E756C6C5F66756E633B --     hook_map[i] = &asdf_hook_null_func;
, 0x20207D --   }
, 0x0 -- 
, 0x2020686F6F6B5F6D61705B415344465F484F4F4B5F524F575F5343414E4E45525D203D2028617364665F686F6F6B5F66756E6374696F6E5F742920415344465F415243485F44454641554C545F524F575F5343414E4E45523B --   hook_map[ASDF_HOOK_ROW_SCANNER] = (asdf_hook_function_t) ASDF_ARCH_DEFAULT_ROW_SCANNER;
, 0x2020686F6F6B5F6D61705B415344465F484F4F4B5F4F55545055545D203D2028617364665F686F6F6B5F66756E6374696F6E5F742920415344465F415243485F44454641554C545F4F55545055543B --   hook_map[ASDF_HOOK_OUTPUT] = (asdf_hook_function_t) ASDF_ARCH_DEFAULT_OUTPUT;
, 0x2020686F6F6B5F6D61705B415344465F484F4F4B5F4B45595F5343414E4E45525D203D2028617364665F686F6F6B5F66756E6374696F6E5F742920415344465F44454641554C545F4B45595F5343414E4E45523B --   hook_map[ASDF_HOOK_KEY_SCANNER] = (asdf_hook_function_t) ASDF_DEFAULT_KEY_SCANNER;
, 0x7D -- }
, 0x0 -- 
, 0x2F2F2D2D2D2D2D2D2D7C2D2D2D2D2D2D2D2D2D7C2D2D2D2D2D2D2D2D2D2B2D2D2D2D2D2D2D2D2D2B2D2D2D2D2D2D2D2D2D2B2D2D2D2D2D2D2D2D2D2B2D2D2D2D2D2D2D2D2D2B2D2D2D2D2D2D2D2D2D2B -- //-------|---------|---------+---------+---------+---------+---------+---------+
, 0x2F2F2041626F7665206C696E6520697320383020636F6C756D6E732C20616E642073686F756C6420646973706C617920636F6D706C6574656C7920696E2074686520656469746F722E -- // Above line is 80 columns, and should display completely in the editor.
  ]

/-- /repo/firmware/asdf/src/asdf_modifiers.c, lines 1-242. -/
def asdf_modifiers_c : List Nat := [
  0x2F2F202D2A2D6D6F6465203A20433B -- // -*-mode : C;
, 0x2F2F20746162202D207769647468203A20323B20696E64656E742D746162732D6D6F64653A206E696C202D2A2D -- // tab - width : 2; indent-tabs-mode: nil -*-
, 0x2F2F -- //
, 0x2F2F2020556E666966696564204B6579626F6172642050726F6A656374 -- //  Unfified Keyboard Project
, 0x2F2F202041534446206B6579626F617264206669726D77617265 -- //  ASDF keyboard firmware
, 0x2F2F -- //
, 0x2F2F2020617364665F6D6F646966696572732E63 -- //  asdf_modifiers.c
, 0x2F2F -- //
, 0x2F2F20546869732066696C6520636F6E7461696E7320746865206C6F67696320666F7220746865206D6F646966696572206B6579732E20416E79206E6577206D6F64696669657273206F72 -- // This file contains the logic for the modifier keys. Any new modifiers or
, 0x2F2F207370656369616C2068616E646C696E6720676F657320686572652E -- // special handling goes here.
, 0x2F2F -- //
, 0x2F2F20436F7079726967687420323031392044617669642046656E796573 -- // Copyright 2019 David Fenyes
, 0x2F2F -- //
, 0x2F2F20546869732070726F6772616D206973206672656520736F6674776172653A20796F752063616E2072656469737472696275746520697420616E642F6F72206D6F6469667920697420756E646572 -- // This program is free software: you can redistribute it and/or modify it under
, 0x2F2F20746865207465726D73206F662074686520474E552047656E6572616C205075626C6963204C6963656E7365206173207075626C697368656420627920746865204672656520536F667477617265 -- // the terms of the GNU General Public License as published by the Free Software
, 0x2F2F20466F756E646174696F6E2C206569746865722076657273696F6E2033206F6620746865204C6963656E73652C206F722028617420796F7572206F7074696F6E2920616E79206C61746572 -- // Foundation, either version 3 of the License, or (at your option) any later
, 0x2F2F2076657273696F6E2E -- // version.
, 0x2F2F -- //
, 0x2F2F20546869732070726F6772616D20697320646973747269627574656420696E2074686520686F706520746861742069742077696C6C2062652075736566756C2C2062757420574954484F5554 -- // This program is distributed in the hope that it will be useful, but WITHOUT
, 0x2F2F20414E592057415252414E54593B20776974686F7574206576656E2074686520696D706C6965642077617272616E7479206F66204D45524348414E544142494C495459206F72204649544E455353 -- // ANY WARRANTY; without even the implied warranty of MERCHANTABILITY or FITNESS
, 0x2F2F20464F52204120504152544943554C415220505552504F53452E205365652074686520474E552047656E6572616C205075626C6963204C6963656E736520666F72206D6F7265 -- // FOR A PARTICULAR PURPOSE. See the GNU General Public License for more
, 0x2F2F2064657461696C732E -- // details.
, 0x2F2F -- //
, 0x2F2F20596F752073686F756C642068617665207265636569766564206120636F7079206F662074686520474E552047656E6572616C205075626C6963204C6963656E736520616C6F6E672077697468 -- // You should have received a copy of the GNU General Public License along with
, 0x2F2F20746869732070726F6772616D2E204966206E6F742C20736565203C68747470733A2F2F7777772E676E752E6F72672F6C6963656E7365732F3E2E -- // this program. If not, see <https://www.gnu.org/licenses/>.
, 0x0 -- 
, 0x23696E636C756465203C737464696E742E683E -- #include <stdint.h>
, 0x23696E636C7564652022617364665F6D6F646966696572732E6822 -- #include "asdf_modifiers.h"
, 0x23696E636C7564652022617364665F706879736963616C2E6822 -- #include "asdf_physical.h"
, 0x23696E636C7564652022617364665F7669727475616C2E6822 -- #include "asdf_virtual.h"
, 0x23696E636C7564652022617364665F617263682E6822 -- #include "asdf_arch.h"
, 0x0 -- 
, 0x2F2F2053746F72657320746865207374617465206F662074686520534849465420616E642053484946544C4F434B206B657973 -- // Stores the state of the SHIFT and SHIFTLOCK keys
, 0x7374617469632073686966745F73746174655F742073686966745F73746174653B -- static shift_state_t shift_state;
, 0x0 -- 
, 0x2F2F2053746F72657320746865207374617465206F6620746865204341505320616E6420434150534C4F434B206B657973 -- // Stores the state of the CAPS and CAPSLOCK keys
, 0x73746174696320636170735F73746174655F7420636170735F73746174653B -- static caps_state_t caps_state;
, 0x0 -- 
, 0x2F2F2053746F72657320746865207374617465206F6620746865204354524C206B6579732E -- // Stores the state of the CTRL keys.
, 0x737461746963206374726C5F73746174655F74206374726C5F73746174653B -- static ctrl_state_t ctrl_state;
, 0x0 -- 
, 0x2F2F2054686520616374697665206D6F646966696572206D617020646570656E6473206F6E207468652063757272656E74207374617465206F6620746865206D6F646966696572 -- // The active modifier map depends on the current state of the modifier
, 0x2F2F207661726961626C65732E20546865206D617020656E636F64657320746865206F72646572206F7220707265636564656E6365206F662074686520766172696F7573206D6F646966696572732E -- // variables. The map encodes the order or precedence of the various modifiers.
, 0x73746174696320636F6E7374206D6F6469666965725F696E6465785F74206D6F6469666965725F6D617070696E675B5D203D207B204D4F445F504C41494E5F4D41502C202F2F20307830303A206E6F206D6F64696669657273 -- static const modifier_index_t modifier_mapping[] = { MOD_PLAIN_MAP, // 0x00: no modifiers
, 0x20202020202020202020202020202020202020202020202020202020202020202020202020202020202020202020202020202020204D4F445F53484946545F4D41502C202F2F20307830313A206F6E6C7920534849465420616374697665 --                                                      MOD_SHIFT_MAP, // 0x01: only SHIFT active
, 0x20202020202020202020202020202020202020202020202020202020202020202020202020202020202020202020202020202020204D4F445F434150535F4D41502C20202F2F20307830323A206F6E6C79204341505320616374697665 --                                                      MOD_CAPS_MAP,  // 0x02: only CAPS active
, 0x20202020202020202020202020202020202020202020202020202020202020202020202020202020202020202020202020202020204D4F445F53484946545F4D41502C202F2F20307830333A204341505320616E6420534849465420616374697665 --                                                      MOD_SHIFT_MAP, // 0x03: CAPS and SHIFT active
, 0x20202020202020202020202020202020202020202020202020202020202020202020202020202020202020202020202020202020204D4F445F4354524C5F4D41502C20202F2F204354524C206F766572726964657320534849465420616E642043415053 --                                                      MOD_CTRL_MAP,  // CTRL overrides SHIFT and CAPS
, 0x20202020202020202020202020202020202020202020202020202020202020202020202020202020202020202020202020202020204D4F445F4354524C5F4D41502C20204D4F445F4354524C5F4D41502C204D4F445F4354524C5F4D4150207D3B --                                                      MOD_CTRL_MAP,  MOD_CTRL_MAP, MOD_CTRL_MAP };
, 0x0 -- 
, 0x0 -- 
, 0x2F2F2050524F4345445552453A207365745F73686966745F7374617465 -- // PROCEDURE: set_shift_state
, 0x2F2F20494E505554533A202875696E74385F74292073746174653A20746865206E6577207368696674207374617465 -- // INPUTS: (uint8_t) state: the new shift state
, 0x2F2F204F5554505554533A206E6F6E65 -- // OUTPUTS: none
, 0x2F2F -- //
, 0x2F2F204445534352495054494F4E3A207365747320534849465420737461746520746F207370656369666965642076616C75652C20616E6420616C736F207365742073686966746C6F636B204C4544 -- // DESCRIPTION: sets SHIFT state to specified value, and also set shiftlock LED
, 0x2F2F -- //
, 0x2F2F205349444520454646454354533A20736565204445534352495054494F4E -- // SIDE EFFECTS: see DESCRIPTION
, 0x2F2F -- //
, 0x2F2F20434F4D504C45584954593A2031 -- // COMPLEXITY: 1
, 0x2F2F -- //
, 0x766F696420617364665F6D6F6469666965725F7365745F73686966745F73746174652875696E74385F74206E65775F737461746529 -- void asdf_modifier_set_shift_state(uint8_t new_state)
, 0x7B -- {
, 0x202073686966745F7374617465203D206E65775F73746174653B --   shift_state = new_state;
, 0x2020617364665F7669727475616C5F616374696F6E285653484946545F4C45442C20282873686966745F737461746520262053484946545F4C4F434B45445F535429203F20565F5345545F4849203A20565F5345545F4C4F29293B --   asdf_virtual_action(VSHIFT_LED, ((shift_state & SHIFT_LOCKED_ST) ? V_SET_HI : V_SET_LO));
, 0x7D -- }
, 0x0 -- 
, 0x2F2F2050524F4345445552453A20617364665F6D6F6469666965725F73686966745F6163746976617465 -- // PROCEDURE: asdf_modifier_shift_activate
, 0x2F2F20494E505554533A206E6F6E65 -- // INPUTS: none
, 0x2F2F204F5554505554533A206E6F6E65 -- // OUTPUTS: none
, 0x2F2F -- //
, 0x2F2F204445534352495054494F4E3A207365747320534849465420737461746520746F204F4E -- // DESCRIPTION: sets SHIFT state to ON
, 0x2F2F -- //
, 0x2F2F205349444520454646454354533A20736565204445534352495054494F4E -- // SIDE EFFECTS: see DESCRIPTION
, 0x2F2F -- //
, 0x2F2F20434F4D504C45584954593A2031 -- // COMPLEXITY: 1
, 0x2F2F -- //
, 0x766F696420617364665F6D6F6469666965725F73686966745F616374697661746528766F696429 -- void asdf_modifier_shift_activate(void)
, 0x7B -- {
, 0x2020617364665F6D6F6469666965725F7365745F73686966745F73746174652853484946545F4F4E5F5354293B --   asdf_modifier_set_shift_state(SHIFT_ON_ST);
, 0x7D -- }
, 0x0 -- 
, 0x0 -- 
, 0x2F2F2050524F4345445552453A20617364665F6D6F6469666965725F73686966746C6F636B5F6F6E5F6163746976617465 -- // PROCEDURE: asdf_modifier_shiftlock_on_activate
, 0x2F2F20494E505554533A206E6F6E65 -- // INPUTS: none
, 0x2F2F204F5554505554533A206E6F6E65 -- // OUTPUTS: none
, 0x2F2F -- //
, 0x2F2F204445534352495054494F4E3A20736574732053484946544C4F434B20737461746520746F204F4E -- // DESCRIPTION: sets SHIFTLOCK state to ON
, 0x2F2F -- //
, 0x2F2F204E4F5445533A -- // NOTES:
, 0x2F2F -- //
, 0x2F2F205349444520454646454354533A20616666656374732073686966745F7374617465206173206465736372696265642E -- // SIDE EFFECTS: affects shift_state as described.
, 0x2F2F -- //
, 0x2F2F20434F4D504C45584954593A2031 -- // COMPLEXITY: 1
, 0x2F2F -- //
, 0x766F696420617364665F6D6F6469666965725F73686966746C6F636B5F6F6E5F616374697661746528766F696429 -- void asdf_modifier_shiftlock_on_activate(void)
, 0x7B -- {
, 0x2020617364665F6D6F6469666965725F7365745F73686966745F73746174652873686966745F7374617465207C2053484946545F4C4F434B45445F5354293B --   asdf_modifier_set_shift_state(shift_state | SHIFT_LOCKED_ST);
, 0x7D -- }
, 0x0 -- 
, 0x2F2F2050524F4345445552453A20617364665F6D6F6469666965725F73686966746C6F636B5F746F67676C655F6163746976617465 -- // PROCEDURE: asdf_modifier_shiftlock_toggle_activate
, 0x2F2F20494E505554533A206E6F6E65 -- // INPUTS: none
, 0x2F2F204F5554505554533A206E6F6E65 -- // OUTPUTS: none
, 0x2F2F -- //
, 0x2F2F204445534352495054494F4E3A20546F67676C65732053484946544C4F434B2073746174652E -- // DESCRIPTION: Toggles SHIFTLOCK state.
, 0x2F2F -- //
, 0x2F2F204E4F5445533A -- // NOTES:
, 0x2F2F -- //
, 0x2F2F205349444520454646454354533A20736565204445534352495054494F4E -- // SIDE EFFECTS: see DESCRIPTION
, 0x2F2F -- //
, 0x2F2F20434F4D504C45584954593A2031 -- // COMPLEXITY: 1
, 0x2F2F -- //
, 0x766F696420617364665F6D6F6469666965725F73686966746C6F636B5F746F67676C655F616374697661746528766F696429 -- void asdf_modifier_shiftlock_toggle_activate(void)
, 0x7B -- {
, 0x2020617364665F6D6F6469666965725F7365745F73686966745F73746174652873686966745F7374617465205E2053484946545F4C4F434B45445F5354293B --   asdf_modifier_set_shift_state(shift_state ^ SHIFT_LOCKED_ST);
, 0x7D -- }
, 0x0 -- 
, 0x2F2F2050524F4345445552453A20617364665F6D6F6469666965725F7365745F636170735F7374617465 -- // PROCEDURE: asdf_modifier_set_caps_state
, 0x2F2F20494E505554533A202875696E74385F7429206E65775F7374617465 -- // INPUTS: (uint8_t) new_state
, 0x2F2F204F5554505554533A206E6F6E65 -- // OUTPUTS: none
, 0x2F2F -- //
, 0x2F2F204445534352495054494F4E3A2073657473204341505320737461746520616E6420736574732043415053204C45442E -- // DESCRIPTION: sets CAPS state and sets CAPS LED.
, 0x2F2F -- //
, 0x2F2F205349444520454646454354533A20736565204445534352495054494F4E -- // SIDE EFFECTS: see DESCRIPTION
, 0x2F2F -- //
, 0x2F2F20434F4D504C45584954593A2031 -- // COMPLEXITY: 1
, 0x2F2F -- //
, 0x73746174696320766F696420617364665F6D6F6469666965725F7365745F636170735F73746174652875696E74385F74206E65775F737461746529 -- static void asdf_modifier_set_caps_state(uint8_t new_state)
, 0x7B -- {
, 0x2020636170735F7374617465203D206E65775F73746174653B --   caps_state = new_state;
, 0x2020617364665F7669727475616C5F616374696F6E2856434150535F4C45442C2028636170735F7374617465203F20565F5345545F4849203A20565F5345545F4C4F29293B --   asdf_virtual_action(VCAPS_LED, (caps_state ? V_SET_HI : V_SET_LO));
, 0x7D -- }
, 0x0 -- 
, 0x2F2F2050524F4345445552453A20617364665F6D6F6469666965725F636170736C6F636B5F6163746976617465 -- // PROCEDURE: asdf_modifier_capslock_activate
, 0x2F2F20494E505554533A206E6F6E65 -- // INPUTS: none
, 0x2F2F204F5554505554533A206E6F6E65 -- // OUTPUTS: none
, 0x2F2F -- //
, 0x2F2F204445534352495054494F4E3A20546F67676C657320436170736C6F636B207374617465 -- // DESCRIPTION: Toggles Capslock state
, 0x2F2F -- //
, 0x2F2F205349444520454646454354533A20736565204445534352495054494F4E -- // SIDE EFFECTS: see DESCRIPTION
, 0x2F2F -- //
, 0x2F2F20434F4D504C45584954593A2031 -- // COMPLEXITY: 1
, 0x2F2F -- //
, 0x766F696420617364665F6D6F6469666965725F636170736C6F636B5F616374697661746528766F696429 -- void asdf_modifier_capslock_activate(void)
, 0x7B -- {
, 0x2020617364665F6D6F6469666965725F7365745F636170735F737461746528636170735F7374617465205E3D20434150535F4C4F434B45445F5354293B --   asdf_modifier_set_caps_state(caps_state ^= CAPS_LOCKED_ST);
, 0x7D -- }
, 0x0 -- 
, 0x2F2F2050524F4345445552453A20617364665F6D6F6469666965725F6374726C5F6163746976617465 -- // PROCEDURE: asdf_modifier_ctrl_activate
, 0x2F2F20494E505554533A206E6F6E65 -- // INPUTS: none
, 0x2F2F204F5554505554533A206E6F6E65 -- // OUTPUTS: none
, 0x2F2F -- //
, 0x2F2F204445534352495054494F4E3A205475726E73206F6E204354524C206D6F6465 -- // DESCRIPTION: Turns on CTRL mode
, 0x2F2F -- //
, 0x2F2F205349444520454646454354533A20736565204445534352495054494F4E -- // SIDE EFFECTS: see DESCRIPTION
, 0x2F2F -- //
, 0x2F2F20434F4D504C45584954593A2031 -- // COMPLEXITY: 1
, 0x2F2F -- //
, 0x766F696420617364665F6D6F6469666965725F6374726C5F616374697661746528766F696429 -- void asdf_modifier_ctrl_activate(void)
, 0x7B -- {
, 0x20206374726C5F7374617465203D204354524C5F4F4E5F53543B --   ctrl_state = CTRL_ON_ST;
, 0x7D -- }
, 0x0 -- 
, 0x2F2F2050524F4345445552453A20617364665F6D6F6469666965725F73686966745F64656163746976617465 -- // PROCEDURE: asdf_modifier_shift_deactivate
, 0x2F2F20494E505554533A206E6F6E65 -- // INPUTS: none
, 0x2F2F204F5554505554533A206E6F6E65 -- // OUTPUTS: none
, 0x2F2F -- //
, 0x2F2F204445534352495054494F4E3A205475726E73206F6666207368696674206D6F64652E -- // DESCRIPTION: Turns off shift mode.
, 0x2F2F -- //
, 0x2F2F205349444520454646454354533A20536565204445534352495054494F4E -- // SIDE EFFECTS: See DESCRIPTION
, 0x2F2F -- //
, 0x2F2F204E4F5445533A207468697320616C736F20636C6561727320616E792053484946545F4C4F434B20636F6E646974696F6E2E -- // NOTES: this also clears any SHIFT_LOCK condition.
, 0x2F2F -- //
, 0x2F2F20434F4D504C45584954593A2031 -- // COMPLEXITY: 1
, 0x2F2F -- //
, 0x766F696420617364665F6D6F6469666965725F73686966745F6465616374697661746528766F696429 -- void asdf_modifier_shift_deactivate(void)
, 0x7B -- {
, 0x2020617364665F6D6F6469666965725F7365745F73686966745F73746174652853484946545F4F46465F5354293B --   asdf_modifier_set_shift_state(SHIFT_OFF_ST);
, 0x7D -- }
, 0x0 -- 
, 0x2F2F2050524F4345445552453A20617364665F6D6F6469666965725F6374726C5F64656163746976617465 -- // PROCEDURE: asdf_modifier_ctrl_deactivate
, 0x2F2F20494E505554533A206E6F6E65 -- // INPUTS: none
, 0x2F2F204F5554505554533A206E6F6E65 -- // OUTPUTS: none
, 0x2F2F -- //
, 0x2F2F204445534352495054494F4E3A205475726E73206F6666204354524C206D6F6465 -- // DESCRIPTION: Turns off CTRL mode
, 0x2F2F -- //
, 0x2F2F205349444520454646454354533A20536565204445534352495054494F4E -- // SIDE EFFECTS: See DESCRIPTION
, 0x2F2F -- //
, 0x2F2F20434F4D504C45584954593A2031 -- // COMPLEXITY: 1
, 0x2F2F -- //
, 0x766F696420617364665F6D6F6469666965725F6374726C5F6465616374697661746528766F696429 -- void asdf_modifier_ctrl_deactivate(void)
, 0x7B -- {
, 0x20206374726C5F7374617465203D204354524C5F4F46465F53543B --   ctrl_state = CTRL_OFF_ST;
, 0x7D -- }
, 0x0 -- 
, 0x2F2F2050524F4345445552453A20617364665F6D6F646966696572735F696E6974 -- // PROCEDURE: asdf_modifiers_init
, 0x2F2F20494E505554533A206E6F6E65 -- // INPUTS: none
, 0x2F2F204F5554505554533A206E6F6E65 -- // OUTPUTS: none
, 0x2F2F -- //
, 0x2F2F204445534352495054494F4E3A20496E697469616C697A6520746865206D6F646966696572206B6579207374617465207661726961626C657320746F204F4646207374617465 -- // DESCRIPTION: Initialize the modifier key state variables to OFF state
, 0x2F2F -- //
, 0x2F2F205349444520454646454354533A20736565204445534352495054494F4E -- // SIDE EFFECTS: see DESCRIPTION
, 0x2F2F -- //
, 0x2F2F20434F4D504C45584954593A2031 -- // COMPLEXITY: 1
, 0x2F2F -- //
, 0x766F696420617364665F6D6F646966696572735F696E697428766F696429 -- void asdf_modifiers_init(void)
, 0x7B -- {
, 0x2020617364665F6D6F6469666965725F7365745F73686966745F73746174652853484946545F4F46465F5354293B --   asdf_modifier_set_shift_state(SHIFT_OFF_ST);
, 0x2020617364665F6D6F6469666965725F7365745F636170735F737461746528434150535F4F46465F5354293B --   asdf_modifier_set_caps_state(CAPS_OFF_ST);
, 0x20206374726C5F7374617465203D204354524C5F4F46465F53543B --   ctrl_state = CTRL_OFF_ST;
, 0x7D -- }
, 0x0 -- 
, 0x2F2F2050524F4345445552453A20617364665F6D6F6469666965725F696E646578 -- // PROCEDURE: asdf_modifier_index
, 0x2F2F20494E505554533A206E6F6E65 -- // INPUTS: none
, 0x2F2F204F5554505554533A2072657475726E732075696E74385F7420696E64657820696E746F206B6579206D61702C206261736564206F6E207768696368206D6F6469666965727320617265206163746976652E -- // OUTPUTS: returns uint8_t index into key map, based on which modifiers are active.
, 0x2F2F -- //
, 0x2F2F204445534352495054494F4E3A20536565204F555450555453 -- // DESCRIPTION: See OUTPUTS
, 0x2F2F -- //
, 0x2F2F205349444520454646454354533A206E6F6E65 -- // SIDE EFFECTS: none
, 0x2F2F -- //
, 0x2F2F20434F4D504C45584954593A2034 -- // COMPLEXITY: 4
, 0x2F2F -- //
, 0x6D6F6469666965725F696E6465785F7420617364665F6D6F6469666965725F696E64657828766F696429 -- modifier_index_t asdf_modifier_index(void)
, 0x7B -- {
, 0x202075696E74385F74206163746976655F6D6F64696669657273203D20303B --   uint8_t active_modifiers = 0;
, 0x0 -- 
, 0x20206966202873686966745F737461746529207B --   if (shift_state) {
, 0x202020206163746976655F6D6F64696669657273207C3D20415344465F4D4F444946494552535F53484946545F4D41534B3B --     active_modifiers |= ASDF_MODIFIERS_SHIFT_MASK;
, 0x20207D --   }
, 0x202069662028636170735F737461746529207B --   if (caps_state) {
, 0x202020206163746976655F6D6F64696669657273207C3D20415344465F4D4F444946494552535F434150535F4D41534B3B --     active_modifiers |= ASDF_MODIFIERS_CAPS_MASK;
, 0x20207D --   }
, 0x2020696620286374726C5F737461746529207B --   if (ctrl_state) {
, 0x202020206163746976655F6D6F64696669657273207C3D20415344465F4D4F444946494552535F4354524C5F4D41534B3B --     active_modifiers |= ASDF_MODIFIERS_CTRL_MASK;
, 0x20207D --   }
, 0x0 -- 
, 0x202072657475726E206D6F6469666965725F6D617070696E675B6163746976655F6D6F646966696572735D3B --   return modifier_mapping[active_modifiers];
, 0x7D -- }
, 0x0 -- 
, 0x0 -- 
, 0x2F2F2D2D2D2D2D2D2D7C2D2D2D2D2D2D2D2D2D7C2D2D2D2D2D2D2D2D2D2B2D2D2D2D2D2D2D2D2D2B2D2D2D2D2D2D2D2D2D2B2D2D2D2D2D2D2D2D2D2B2D2D2D2D2D2D2D2D2D2B2D2D2D2D2D2D2D2D2D2B -- //-------|---------|---------+---------+---------+---------+---------+---------+
, 0x2F2F2041626F7665206C696E6520697320383020636F6C756D6E732C20616E642073686F756C6420646973706C617920636F6D706C6574656C7920696E2074686520656469746F722E -- // Above line is 80 columns, and should display completely in the editor.
  ]

/-- /repo/firmware/asdf/src/asdf_keymaps.c, lines 1-408. -/
def asdf_keymaps_c : List Nat := [
  0x2F2F202D2A2D206D6F64653A20433B207461622D77696474683A2032203B20696E64656E742D746162732D6D6F64653A206E696C202D2A2D -- // -*- mode: C; tab-width: 2 ; indent-tabs-mode: nil -*-
, 0x2F2F -- //
, 0x2F2F20556E6966696564204B6579626F6172642050726F6A656374 -- // Unified Keyboard Project
, 0x2F2F2041534446206B6579626F617264206669726D77617265 -- // ASDF keyboard firmware
, 0x2F2F -- //
, 0x2F2F20617364665F6B65796D6170732E63 -- // asdf_keymaps.c
, 0x2F2F -- //
, 0x2F2F20436F7079726967687420323031392044617669642046656E796573 -- // Copyright 2019 David Fenyes
, 0x2F2F -- //
, 0x2F2F20546869732070726F6772616D206973206672656520736F6674776172653A20796F752063616E2072656469737472696275746520697420616E642F6F72206D6F6469667920697420756E646572 -- // This program is free software: you can redistribute it and/or modify it under
, 0x2F2F20746865207465726D73206F662074686520474E552047656E6572616C205075626C6963204C6963656E7365206173207075626C697368656420627920746865204672656520536F667477617265 -- // the terms of the GNU General Public License as published by the Free Software
, 0x2F2F20466F756E646174696F6E2C206569746865722076657273696F6E2033206F6620746865204C6963656E73652C206F722028617420796F7572206F7074696F6E2920616E79206C61746572 -- // Foundation, either version 3 of the License, or (at your option) any later
, 0x2F2F2076657273696F6E2E -- // version.
, 0x2F2F -- //
, 0x2F2F20546869732070726F6772616D20697320646973747269627574656420696E2074686520686F706520746861742069742077696C6C2062652075736566756C2C2062757420574954484F5554 -- // This program is distributed in the hope that it will be useful, but WITHOUT
, 0x2F2F20414E592057415252414E54593B20776974686F7574206576656E2074686520696D706C6965642077617272616E7479206F66204D45524348414E544142494C495459206F72204649544E455353 -- // ANY WARRANTY; without even the implied warranty of MERCHANTABILITY or FITNESS
, 0x2F2F20464F52204120504152544943554C415220505552504F53452E205365652074686520474E552047656E6572616C205075626C6963204C6963656E736520666F72206D6F7265 -- // FOR A PARTICULAR PURPOSE. See the GNU General Public License for more
, 0x2F2F2064657461696C732E -- // details.
, 0x2F2F -- //
, 0x2F2F20596F752073686F756C642068617665207265636569766564206120636F7079206F662074686520474E552047656E6572616C205075626C6963204C6963656E736520616C6F6E672077697468 -- // You should have received a copy of the GNU General Public License along with
, 0x2F2F20746869732070726F6772616D2E204966206E6F742C20736565203C68747470733A2F2F7777772E676E752E6F72672F6C6963656E7365732F3E2E -- // this program. If not, see <https://www.gnu.org/licenses/>.
, 0x0 -- 
, 0x23696E636C756465203C737464696E742E683E -- #include <stdint.h>
, 0x23696E636C756465203C7374646465662E683E -- #include <stddef.h>
, 0x23696E636C7564652022617364665F636F6E6669672E6822 -- #include "asdf_config.h"
, 0x23696E636C7564652022617364662E6822 -- #include "asdf.h"
, 0x23696E636C7564652022617364665F617263682E6822 -- #include "asdf_arch.h"
, 0x23696E636C7564652022617364665F7669727475616C2E6822 -- #include "asdf_virtual.h"
, 0x23696E636C7564652022617364665F686F6F6B2E6822 -- #include "asdf_hook.h"
, 0x23696E636C7564652022617364665F6B65796D61705F73657475702E6822 -- #include "asdf_keymap_setup.h"
, 0x23696E636C7564652022617364665F6B65796D6170732E6822 -- #include "asdf_keymaps.h"
, 0x23696E636C7564652022617364665F6D6F646966696572732E6822 -- #include "asdf_modifiers.h"
, 0x0 -- 
, 0x2F2F20546865206B65796D617020617272617920636F6E7461696E7320746865206B65796D617020696E666F726D6174696F6E20666F722065616368206D6F646966696572207374617465 -- // The keymap array contains the keymap information for each modifier state
, 0x2F2F20546869732073747275637475726520697320706F70756C61746564207573696E672074686520617364665F6B65796D6170735F6164645F6D617028292066756E6374696F6E2E -- // This structure is populated using the asdf_keymaps_add_map() function.
, 0x73746174696320617364665F6B6579636F64655F6D61705F74206B65796D6170735B415344465F4D4F445F4E554D5F4D4F444946494552535D203D207B7D3B -- static asdf_keycode_map_t keymaps[ASDF_MOD_NUM_MODIFIERS] = {};
, 0x0 -- 
, 0x2F2F205468652063757272656E74206B65796D617020696E6465782E2020546869732069732073746F72656420736F2062697477697365206F70657261746F7273206F6E20746865206B65796D617020696E6465782063616E20626520706572666F726D65642E -- // The current keymap index.  This is stored so bitwise operators on the keymap index can be performed.
, 0x7374617469632075696E74385F742063757272656E745F6B6579626F6172645F696E6465783B -- static uint8_t current_keyboard_index;
, 0x0 -- 
, 0x2F2F2050524F4345445552453A20617364665F6B65796D6170735F6164645F6D6170 -- // PROCEDURE: asdf_keymaps_add_map
, 0x2F2F20494E505554533A2028617364665F6B6579636F64655F74202A29202D20706F696E74657220746F20746865206B6579636F6465206D617472697820746F2061646420696E20746F206D6170 -- // INPUTS: (asdf_keycode_t *) - pointer to the keycode matrix to add in to map
, 0x2F2F2020202020202020202875696E74385F7429206D6F6469666965725F696E646578202D20746865206D6F6469666965722076616C756520666F7220746865206B6579636F6465206D6174726978206265696E67206164646564 -- //         (uint8_t) modifier_index - the modifier value for the keycode matrix being added
, 0x2F2F2020202020202020202875696E74385F742920726F7773202D206E756D626572206F6620726F777320696E20746865206B65796D6170 -- //         (uint8_t) rows - number of rows in the keymap
, 0x2F2F2020202020202020202875696E74385F742920636F6C73202D206E756D626572206F6620636F6C756D6E7320696E20746865206B65796D6170 -- //         (uint8_t) cols - number of columns in the keymap
, 0x2F2F -- //
, 0x2F2F204F5554505554533A206E6F6E65 -- // OUTPUTS: none
, 0x2F2F -- //
, 0x2F2F204445534352495054494F4E3A2043616C6C6564206279206B65796D6170206275696C64696E67206D6F64756C65732E205468697320726F7574696E6520616464732061206B65796D617020746F207468652063757272656E74 -- // DESCRIPTION: Called by keymap building modules. This routine adds a keymap to the current
, 0x2F2F2073657475702066756E6374696F6E20696E746F20746865206B65796D61702073657475702061727261792E -- // setup function into the keymap setup array.
, 0x2F2F -- //
, 0x2F2F205349444520454646454354533A -- // SIDE EFFECTS:
, 0x2F2F -- //
, 0x2F2F204E4F5445533A20496620746865206B65796D6170206D6F64696669657220696E6465782C206E756D5F726F77732C206F72206E756D5F636F6C7320617265206E6F742076616C6964207468656E206E6F -- // NOTES: If the keymap modifier index, num_rows, or num_cols are not valid then no
, 0x2F2F20616374696F6E20697320706572666F726D65642E -- // action is performed.
, 0x2F2F -- //
, 0x2F2F2053434F50453A207075626C6963 -- // SCOPE: public
, 0x2F2F -- //
, 0x2F2F20434F4D504C45584954593A2031 -- // COMPLEXITY: 1
, 0x766F696420617364665F6B65796D6170735F6164645F6D617028636F6E737420617364665F6B6579636F64655F74202A6D61747269782C -- void asdf_keymaps_add_map(const asdf_keycode_t *matrix,
, 0x20202020202020202020202020202020202020202020202020206D6F6469666965725F696E6465785F74206D6F6469666965725F696E6465782C --                           modifier_index_t modifier_index,
, 0x202020202020202020202020202020202020202020202020202075696E74385F74206E756D5F726F77732C2075696E74385F74206E756D5F636F6C7329 --                           uint8_t num_rows, uint8_t num_cols)
, 0x7B -- {
, 0x202069662028286D6F6469666965725F696E646578203C20415344465F4D4F445F4E554D5F4D4F4449464945525329 --   if ((modifier_index < ASDF_MOD_NUM_MODIFIERS)
, 0x202020202020262620286E756D5F726F7773203C3D20415344465F4D41585F524F575329 --       && (num_rows <= ASDF_MAX_ROWS)
, 0x202020202020262620286E756D5F636F6C73203C3D20415344465F4D41585F434F4C532929 --       && (num_cols <= ASDF_MAX_COLS))
, 0x202020207B --     {
, 0x2020202020206B65796D6170735B6D6F6469666965725F696E6465785D2E6D6174726978203D2028617364665F6B6579636F64655F74202A29206D61747269783B --       keymaps[modifier_index].matrix = (asdf_keycode_t *) matrix;
, 0x2020202020206B65796D6170735B6D6F6469666965725F696E6465785D2E726F7773203D206E756D5F726F77733B --       keymaps[modifier_index].rows = num_rows;
, 0x2020202020206B65796D6170735B6D6F6469666965725F696E6465785D2E636F6C73203D206E756D5F636F6C733B --       keymaps[modifier_index].cols = num_cols;
, 0x202020207D --     }
, 0x7D -- }
, 0x0 -- 
, 0x2F2F2050524F4345445552453A20617364665F6B65796D6170735F6E756D5F726F7773 -- // PROCEDURE: asdf_keymaps_num_rows
, 0x2F2F20494E505554533A206E6F6E65 -- // INPUTS: none
, 0x2F2F204F5554505554533A2075696E74385F74202D2072657475726E73206E756D626572206F6620726F777320696E206B65796D617020666F722063757272656E74206D6F646966696572207374617465 -- // OUTPUTS: uint8_t - returns number of rows in keymap for current modifier state
, 0x2F2F -- //
, 0x2F2F204445534352495054494F4E3A20536565204F555450555453 -- // DESCRIPTION: See OUTPUTS
, 0x2F2F -- //
, 0x2F2F205349444520454646454354533A206E6F6E65 -- // SIDE EFFECTS: none
, 0x2F2F -- //
, 0x2F2F204E4F5445533A -- // NOTES:
, 0x2F2F -- //
, 0x2F2F2053434F50453A207075626C696365 -- // SCOPE: publice
, 0x2F2F -- //
, 0x2F2F20434F4D504C45584954593A2031 -- // COMPLEXITY: 1
, 0x2F2F -- //
, 0x75696E74385F7420617364665F6B65796D6170735F6E756D5F726F777328766F696429 -- uint8_t asdf_keymaps_num_rows(void)
, 0x7B -- {
, 0x202072657475726E206B65796D6170735B617364665F6D6F6469666965725F696E64657828295D2E726F77733B --   return keymaps[asdf_modifier_index()].rows;
, 0x7D -- }
, 0x0 -- 
, 0x2F2F2050524F4345445552453A20617364665F6B65796D6170735F6E756D5F636F6C73 -- // PROCEDURE: asdf_keymaps_num_cols
, 0x2F2F20494E505554533A206E6F6E65 -- // INPUTS: none
, 0x2F2F204F5554505554533A2075696E74385F74202D2072657475726E73206E756D626572206F6620636F6C756D6E7320696E206B65796D617020666F722063757272656E74206D6F646966696572207374617465 -- // OUTPUTS: uint8_t - returns number of columns in keymap for current modifier state
, 0x2F2F -- //
, 0x2F2F204445534352495054494F4E3A20536565204F555450555453 -- // DESCRIPTION: See OUTPUTS
, 0x2F2F -- //
, 0x2F2F205349444520454646454354533A206E6F6E65 -- // SIDE EFFECTS: none
, 0x2F2F -- //
, 0x2F2F204E4F5445533A -- // NOTES:
, 0x2F2F -- //
, 0x2F2F2053434F50453A207075626C696365 -- // SCOPE: publice
, 0x2F2F -- //
, 0x2F2F20434F4D504C45584954593A2031 -- // COMPLEXITY: 1
, 0x2F2F -- //
, 0x75696E74385F7420617364665F6B65796D6170735F6E756D5F636F6C7328766F696429 -- uint8_t asdf_keymaps_num_cols(void)
, 0x7B -- {
, 0x202072657475726E206B65796D6170735B617364665F6D6F6469666965725F696E64657828295D2E636F6C733B --   return keymaps[asdf_modifier_index()].cols;
, 0x7D -- }
, 0x0 -- 
, 0x2F2F2050524F4345445552453A20617364665F6B65796D6170735F7265736574 -- // PROCEDURE: asdf_keymaps_reset
, 0x2F2F20494E505554533A206E6F6E65 -- // INPUTS: none
, 0x2F2F204F5554505554533A206E6F6E65 -- // OUTPUTS: none
, 0x2F2F -- //
, 0x2F2F204445534352495054494F4E3A205265736574206B65796D61707320746F20696E697469616C2073746174653A -- // DESCRIPTION: Reset keymaps to initial state:
, 0x2F2F20202020202020202020202020202D20436C65617220616C6C206B6579636F6465206D617070696E67206D617472696365732E -- //              - Clear all keycode mapping matrices.
, 0x2F2F20202020202020202020202020202D20436C65617220616C6C207669727475616C2064657669636573 -- //              - Clear all virtual devices
, 0x2F2F20202020202020202020202020202D20526573657420616C6C20686F6F6B7320746F2064656661756C742073746174652E -- //              - Reset all hooks to default state.
, 0x2F2F -- //
, 0x2F2F205349444520454646454354533A20736565204445534352495054494F4E -- // SIDE EFFECTS: see DESCRIPTION
, 0x2F2F -- //
, 0x2F2F2053434F50453A2070726976617465 -- // SCOPE: private
, 0x2F2F -- //
, 0x2F2F20434F4D504C45584954593A2032 -- // COMPLEXITY: 2
, 0x2F2F -- //
, 0x73746174696320766F696420617364665F6B65796D6170735F726573657428766F696429 -- static void asdf_keymaps_reset(void)
, 0x7B -- {
, 0x20202F2F20436C65617220616C6C206B6579636F6465206D617070696E6773 --   // Clear all keycode mappings
, 0x2020666F72202875696E74385F742069203D20303B2069203C20415344465F4D4F445F4E554D5F4D4F444946494552533B20692B2B29207B --   for (uint8_t i = 0; i < ASDF_MOD_NUM_MODIFIERS; i++) {
, 0x20202020617364665F6B65796D6170735F6164645F6D61702828636F6E737420617364665F6B6579636F64655F74202A29204E554C4C2C20286D6F6469666965725F696E6465785F742920692C --     asdf_keymaps_add_map((const asdf_keycode_t *) NULL, (modifier_index_t) i,
, 0x20202020202020202020202020202020202020202020202020302C2030293B --                          0, 0);
, 0x20207D --   }
, 0x0 -- 
, 0x20202F2F20436C656172207669727475616C2064657669636573 --   // Clear virtual devices
, 0x2020617364665F7669727475616C5F696E697428293B --   asdf_virtual_init();
, 0x0 -- 
, 0x20202F2F20526573657420686F6F6B73 --   // Reset hooks
, 0x2020617364665F686F6F6B5F696E697428293B --   asdf_hook_init();
, 0x7D -- }
, 0x0 -- 
, 0x2F2F2050524F4345445552453A20617364665F6B65796D6170735F737769746368 -- // PROCEDURE: asdf_keymaps_switch
, 0x2F2F20494E505554533A202875696E74385F742920696E646578202D20696E646578206F6620746865206B65796D6170206E756D62657220746F2073776974636820746F -- // INPUTS: (uint8_t) index - index of the keymap number to switch to
, 0x2F2F204F5554505554533A206E6F6E65 -- // OUTPUTS: none
, 0x2F2F -- //
, 0x2F2F204445534352495054494F4E3A2061636365707473206120696E6465782076616C75652E -- // DESCRIPTION: accepts a index value.
, 0x2F2F2031292061737369676E207468652076616C756520746F2074686520676C6F62616C2028746F20746865206D6F64756C65292063757272656E745F6B6579626F6172645F696E646578207661726961626C65 -- // 1) assign the value to the global (to the module) current_keyboard_index variable
, 0x2F2F203229206578656375746520746865206172636869746563747572652D646570656E64656E7420696E697420726F7574696E652C20746F20756E646F20616E792073657474696E6773 -- // 2) execute the architecture-dependent init routine, to undo any settings
, 0x2F2F2020202066726F6D207468652070726576696F7573206B65796D6170 -- //    from the previous keymap
, 0x2F2F203329206578656375746520746865206B65796D61702D737065636966696320736574757020726F7574696E652E -- // 3) execute the keymap-specific setup routine.
, 0x2F2F -- //
, 0x2F2F205349444520454646454354533A20536565204445534352495054494F4E -- // SIDE EFFECTS: See DESCRIPTION
, 0x2F2F -- //
, 0x2F2F204E4F5445533A204966207468652072657175657374656420696E646578206973206E6F742076616C69642C207468656E206E6F20616374696F6E20697320706572666F726D65642E -- // NOTES: If the requested index is not valid, then no action is performed.
, 0x2F2F -- //
, 0x2F2F2053434F50453A207075626C6963 -- // SCOPE: public
, 0x2F2F -- //
, 0x2F2F20434F4D504C45584954593A2032 -- // COMPLEXITY: 2
, 0x2F2F -- //
, 0x766F696420617364665F6B65796D6170735F7377697463682875696E74385F7420696E64657829 -- void asdf_keymaps_switch(uint8_t index)
, 0x7B -- {
, 0x20202F2F20776520736574207468652063757272656E74206B65796D617020696E64657820696E206F7264657220746F20747261636B20746865207374617465206F662074686520444950 --   // we set the current keymap index in order to track the state of the DIP
, 0x20202F2F2073776974636865732C20627574206F6E6C792073776974636820746F20612076616C6964206D6170 --   // switches, but only switch to a valid map
, 0x0 -- 
, 0x202069662028617364665F6B65796D61705F76616C696428696E6465782929207B --   if (asdf_keymap_valid(index)) {
, 0x2020202063757272656E745F6B6579626F6172645F696E646578203D20696E6465783B --     current_keyboard_index = index;
, 0x0 -- 
, 0x20202020617364665F617263685F696E697428293B --     asdf_arch_init();
, 0x20202020617364665F6B65796D6170735F726573657428293B --     asdf_keymaps_reset();
, 0x0 -- 
, 0x20202020617364665F6B65796D61705F736574757028696E646578293B --     asdf_keymap_setup(index);
, 0x20207D --   }
, 0x7D -- }
, 0x0 -- 
, 0x2F2F2050524F4345445552453A20617364665F6B65796D6170735F73656C656374 -- // PROCEDURE: asdf_keymaps_select
, 0x2F2F20494E505554533A202875696E74385F742920696E646578202D20696E646578206F6620746865206B65796D6170206E756D62657220746F2073656C656374 -- // INPUTS: (uint8_t) index - index of the keymap number to select
, 0x2F2F204F5554505554533A206E6F6E65 -- // OUTPUTS: none
, 0x2F2F -- //
, 0x2F2F204445534352495054494F4E3A2061636365707473206120696E6465782076616C75652E20496620746865206B6579626F61726420697320646966666572656E742066726F6D20746865 -- // DESCRIPTION: accepts a index value. If the keyboard is different from the
, 0x2F2F2063757272656E746C7920616374697665206B6579626F6172642C207468656E20617474656D707420746F2073776974636820746F20746865206E6577206B6579626F61726420696E646578 -- // currently active keyboard, then attempt to switch to the new keyboard index
, 0x2F2F -- //
, 0x2F2F205349444520454646454354533A20536565204445534352495054494F4E -- // SIDE EFFECTS: See DESCRIPTION
, 0x2F2F -- //
, 0x2F2F204E4F5445533A -- // NOTES:
, 0x2F2F -- //
, 0x2F2F2053434F50453A207075626C6963 -- // SCOPE: public
, 0x2F2F -- //
, 0x2F2F20434F4D504C45584954593A2032 -- // COMPLEXITY: 2
, 0x2F2F -- //
, 0x766F696420617364665F6B65796D6170735F73656C6563742875696E74385F7420696E64657829 -- void asdf_keymaps_select(uint8_t index)
, 0x7B -- {
, 0x0 -- 
, 0x202069662028696E64657820213D2063757272656E745F6B6579626F6172645F696E64657829207B --   if (index != current_keyboard_index) {
, 0x20202020617364665F6B65796D6170735F73776974636828696E646578293B --     asdf_keymaps_switch(index);
, 0x20207D --   }
, 0x7D -- }
, 0x0 -- 
, 0x2F2F2050524F4345445552453A20617364665F6B65796D6170735F696E6974 -- // PROCEDURE: asdf_keymaps_init
, 0x2F2F20494E505554533A206E6F6E65 -- // INPUTS: none
, 0x2F2F204F5554505554533A206E6F6E65 -- // OUTPUTS: none
, 0x2F2F -- //
, 0x2F2F204445534352495054494F4E3A20696E697469616C697A6520746865206B65796D6170206C6973742E2043616C6C656420617420737461727475702E20546869732066756E6374696F6E -- // DESCRIPTION: initialize the keymap list. Called at startup. This function
, 0x2F2F20737769746368657320746F206B6579626F61726420302E205468652073776974636820726F7574696E6520636C65616E7320757020746865206B6579626F6172642064617461 -- // switches to keyboard 0. The switch routine cleans up the keyboard data
, 0x2F2F20737472756374757265732E -- // structures.
, 0x2F2F -- //
, 0x2F2F205349444520454646454354533A20536565204445534352495054494F4E -- // SIDE EFFECTS: See DESCRIPTION
, 0x2F2F -- //
, 0x2F2F2053434F50453A207075626C6963 -- // SCOPE: public
, 0x2F2F -- //
, 0x2F2F20434F4D504C45584954593A2031 -- // COMPLEXITY: 1
, 0x2F2F -- //
, 0x766F696420617364665F6B65796D6170735F696E697428766F696429 -- void asdf_keymaps_init(void)
, 0x7B -- {
, 0x2020617364665F6B65796D6170735F7377697463682830293B --   asdf_keymaps_switch(0);
, 0x7D -- }
, 0x0 -- 
, 0x2F2F2050524F4345445552453A20617364665F6B65796D6170735F6D61705F73656C6563745F305F636C656172 -- // PROCEDURE: asdf_keymaps_map_select_0_clear
, 0x2F2F20494E505554533A206E6F6E65 -- // INPUTS: none
, 0x2F2F204F5554505554533A206E6F6E65 -- // OUTPUTS: none
, 0x2F2F -- //
, 0x2F2F204445534352495054494F4E3A2063616C6C6564207768656E206D61702073656C656374203020737769746368206973206F70656E2E20436C656172732074686520302062697420696E20746865 -- // DESCRIPTION: called when map select 0 switch is open. Clears the 0 bit in the
, 0x2F2F206B65796D617020696E6465782E -- // keymap index.
, 0x2F2F -- //
, 0x2F2F205349444520454646454354533A206368616E6765732073656C6563746564206B65796D6170 -- // SIDE EFFECTS: changes selected keymap
, 0x2F2F -- //
, 0x2F2F204E4F5445533A -- // NOTES:
, 0x2F2F -- //
, 0x2F2F2053434F50453A207075626C6963 -- // SCOPE: public
, 0x2F2F -- //
, 0x2F2F20434F4D504C45584954593A2031 -- // COMPLEXITY: 1
, 0x2F2F -- //
, 0x766F696420617364665F6B65796D6170735F6D61705F73656C6563745F305F636C65617228766F696429 -- void asdf_keymaps_map_select_0_clear(void)
, 0x7B -- {
, 0x2020617364665F6B65796D6170735F73656C6563742863757272656E745F6B6579626F6172645F696E646578202620287E415344465F4B45594D41505F4249545F3029293B --   asdf_keymaps_select(current_keyboard_index & (~ASDF_KEYMAP_BIT_0));
, 0x7D -- }
, 0x0 -- 
, 0x2F2F2050524F4345445552453A20617364665F6B65796D6170735F6D61705F73656C6563745F305F736574 -- // PROCEDURE: asdf_keymaps_map_select_0_set
, 0x2F2F20494E505554533A206E6F6E65 -- // INPUTS: none
, 0x2F2F204F5554505554533A206E6F6E65 -- // OUTPUTS: none
, 0x2F2F -- //
, 0x2F2F204445534352495054494F4E3A2063616C6C6564207768656E206D61702073656C65637420302073776974636820697320636C6F7365642E20536574732074686520302062697420696E20746865 -- // DESCRIPTION: called when map select 0 switch is closed. Sets the 0 bit in the
, 0x2F2F206B65796D617020696E6465782E -- // keymap index.
, 0x2F2F -- //
, 0x2F2F205349444520454646454354533A206368616E6765732073656C6563746564206B65796D6170 -- // SIDE EFFECTS: changes selected keymap
, 0x2F2F -- //
, 0x2F2F204E4F5445533A -- // NOTES:
, 0x2F2F -- //
, 0x2F2F2053434F50453A207075626C6963 -- // SCOPE: public
, 0x2F2F -- //
, 0x2F2F20434F4D504C45584954593A2031 -- // COMPLEXITY: 1
, 0x2F2F -- //
, 0x766F696420617364665F6B65796D6170735F6D61705F73656C6563745F305F73657428766F696429 -- void asdf_keymaps_map_select_0_set(void)
, 0x7B -- {
, 0x2020617364665F6B65796D6170735F73656C6563742863757272656E745F6B6579626F6172645F696E646578207C20415344465F4B45594D41505F4249545F30293B --   asdf_keymaps_select(current_keyboard_index | ASDF_KEYMAP_BIT_0);
, 0x7D -- }
, 0x0 -- 
, 0x2F2F2050524F4345445552453A20617364665F6B65796D6170735F6D61705F73656C6563745F315F636C656172 -- // PROCEDURE: asdf_keymaps_map_select_1_clear
, 0x2F2F20494E505554533A206E6F6E65 -- // INPUTS: none
, 0x2F2F204F5554505554533A206E6F6E65 -- // OUTPUTS: none
, 0x2F2F -- //
, 0x2F2F204445534352495054494F4E3A2063616C6C6564207768656E206D61702073656C656374203120737769746368206973206F70656E2E20436C656172732074686520312062697420696E20746865 -- // DESCRIPTION: called when map select 1 switch is open. Clears the 1 bit in the
, 0x2F2F206B65796D617020696E6465782E -- // keymap index.
, 0x2F2F -- //
, 0x2F2F205349444520454646454354533A206368616E6765732073656C6563746564206B65796D6170 -- // SIDE EFFECTS: changes selected keymap
, 0x2F2F -- //
, 0x2F2F204E4F5445533A -- // NOTES:
, 0x2F2F -- //
, 0x2F2F2053434F50453A207075626C6963 -- // SCOPE: public
, 0x2F2F -- //
, 0x2F2F20434F4D504C45584954593A2031 -- // COMPLEXITY: 1
, 0x2F2F -- //
, 0x766F696420617364665F6B65796D6170735F6D61705F73656C6563745F315F636C65617228766F696429 -- void asdf_keymaps_map_select_1_clear(void)
, 0x7B -- {
, 0x2020617364665F6B65796D6170735F73656C6563742863757272656E745F6B6579626F6172645F696E646578202620287E415344465F4B45594D41505F4249545F3129293B --   asdf_keymaps_select(current_keyboard_index & (~ASDF_KEYMAP_BIT_1));
, 0x7D -- }
, 0x0 -- 
, 0x2F2F2050524F4345445552453A20617364665F6B65796D6170735F6D61705F73656C6563745F315F736574 -- // PROCEDURE: asdf_keymaps_map_select_1_set
, 0x2F2F20494E505554533A206E6F6E65 -- // INPUTS: none
, 0x2F2F204F5554505554533A206E6F6E65 -- // OUTPUTS: none
, 0x2F2F -- //
, 0x2F2F204445534352495054494F4E3A2063616C6C6564207768656E206D61702073656C65637420312073776974636820697320636C6F7365642E20536574732074686520312062697420696E20746865 -- // DESCRIPTION: called when map select 1 switch is closed. Sets the 1 bit in the
, 0x2F2F206B65796D617020696E6465782E -- // keymap index.
, 0x2F2F -- //
, 0x2F2F205349444520454646454354533A206368616E6765732073656C6563746564206B65796D6170 -- // SIDE EFFECTS: changes selected keymap
, 0x2F2F -- //
, 0x2F2F204E4F5445533A -- // NOTES:
, 0x2F2F -- //
, 0x2F2F2053434F50453A207075626C6963 -- // SCOPE: public
, 0x2F2F -- //
, 0x2F2F20434F4D504C45584954593A2031 -- // COMPLEXITY: 1
, 0x2F2F -- //
, 0x766F696420617364665F6B65796D6170735F6D61705F73656C6563745F315F73657428766F696429 -- void asdf_keymaps_map_select_1_set(void)
, 0x7B -- {
, 0x2020617364665F6B65796D6170735F73656C6563742863757272656E745F6B6579626F6172645F696E646578207C20415344465F4B45594D41505F4249545F31293B --   asdf_keymaps_select(current_keyboard_index | ASDF_KEYMAP_BIT_1);
, 0x7D -- }
, 0x0 -- 
, 0x2F2F2050524F4345445552453A20617364665F6B65796D6170735F6D61705F73656C6563745F325F636C656172 -- // PROCEDURE: asdf_keymaps_map_select_2_clear
, 0x2F2F20494E505554533A206E6F6E65 -- // INPUTS: none
, 0x2F2F204F5554505554533A206E6F6E65 -- // OUTPUTS: none
, 0x2F2F -- //
, 0x2F2F204445534352495054494F4E3A2063616C6C6564207768656E206D61702073656C656374203220737769746368206973206F70656E2E20436C656172732074686520322062697420696E20746865 -- // DESCRIPTION: called when map select 2 switch is open. Clears the 2 bit in the
, 0x2F2F206B65796D617020696E6465782E -- // keymap index.
, 0x2F2F -- //
, 0x2F2F205349444520454646454354533A206368616E6765732073656C6563746564206B65796D6170 -- // SIDE EFFECTS: changes selected keymap
, 0x2F2F -- //
, 0x2F2F204E4F5445533A -- // NOTES:
, 0x2F2F -- //
, 0x2F2F2053434F50453A207075626C6963 -- // SCOPE: public
, 0x2F2F -- //
, 0x2F2F20434F4D504C45584954593A2031 -- // COMPLEXITY: 1
, 0x2F2F -- //
, 0x766F696420617364665F6B65796D6170735F6D61705F73656C6563745F325F636C65617228766F696429 -- void asdf_keymaps_map_select_2_clear(void)
, 0x7B -- {
, 0x2020617364665F6B65796D6170735F73656C6563742863757272656E745F6B6579626F6172645F696E646578202620287E415344465F4B45594D41505F4249545F3229293B --   asdf_keymaps_select(current_keyboard_index & (~ASDF_KEYMAP_BIT_2));
, 0x7D -- }
, 0x0 -- 
, 0x2F2F2050524F4345445552453A20617364665F6B65796D6170735F6D61705F73656C6563745F325F736574 -- // PROCEDURE: asdf_keymaps_map_select_2_set
, 0x2F2F20494E505554533A206E6F6E65 -- // INPUTS: none
, 0x2F2F204F5554505554533A206E6F6E65 -- // OUTPUTS: none
, 0x2F2F -- //
, 0x2F2F204445534352495054494F4E3A2063616C6C6564207768656E206D61702073656C65637420322073776974636820697320636C6F7365642E20536574732074686520322062697420696E20746865 -- // DESCRIPTION: called when map select 2 switch is closed. Sets the 2 bit in the
, 0x2F2F206B65796D617020696E6465782E -- // keymap index.
, 0x2F2F -- //
, 0x2F2F205349444520454646454354533A206368616E6765732073656C6563746564206B65796D6170 -- // SIDE EFFECTS: changes selected keymap
, 0x2F2F -- //
, 0x2F2F204E4F5445533A -- // NOTES:
, 0x2F2F -- //
, 0x2F2F2053434F50453A207075626C6963 -- // SCOPE: public
, 0x2F2F -- //
, 0x2F2F20434F4D504C45584954593A2031 -- // COMPLEXITY: 1
, 0x2F2F -- //
, 0x766F696420617364665F6B65796D6170735F6D61705F73656C6563745F325F73657428766F696429 -- void asdf_keymaps_map_select_2_set(void)
, 0x7B -- {
, 0x2020617364665F6B65796D6170735F73656C6563742863757272656E745F6B6579626F6172645F696E646578207C20415344465F4B45594D41505F4249545F32293B --   asdf_keymaps_select(current_keyboard_index | ASDF_KEYMAP_BIT_2);
, 0x7D -- }
, 0x0 -- 
, 0x2F2F2050524F4345445552453A20617364665F6B65796D6170735F6D61705F73656C6563745F335F636C656172 -- // PROCEDURE: asdf_keymaps_map_select_3_clear
, 0x2F2F20494E505554533A206E6F6E65 -- // INPUTS: none
, 0x2F2F204F5554505554533A206E6F6E65 -- // OUTPUTS: none
, 0x2F2F -- //
, 0x2F2F204445534352495054494F4E3A2063616C6C6564207768656E206D61702073656C656374203320737769746368206973206F70656E2E20436C656172732074686520332062697420696E20746865 -- // DESCRIPTION: called when map select 3 switch is open. Clears the 3 bit in the
, 0x2F2F206B65796D617020696E6465782E -- // keymap index.
, 0x2F2F -- //
, 0x2F2F205349444520454646454354533A206368616E6765732073656C6563746564206B65796D6170 -- // SIDE EFFECTS: changes selected keymap
, 0x2F2F -- //
, 0x2F2F204E4F5445533A -- // NOTES:
, 0x2F2F -- //
, 0x2F2F2053434F50453A207075626C6963 -- // SCOPE: public
, 0x2F2F -- //
, 0x2F2F20434F4D504C45584954593A2031 -- // COMPLEXITY: 1
, 0x2F2F -- //
, 0x766F696420617364665F6B65796D6170735F6D61705F73656C6563745F335F636C65617228766F696429 -- void asdf_keymaps_map_select_3_clear(void)
, 0x7B -- {
, 0x2020617364665F6B65796D6170735F73656C6563742863757272656E745F6B6579626F6172645F696E646578202620287E415344465F4B45594D41505F4249545F3329293B --   asdf_keymaps_select(current_keyboard_index & (~ASDF_KEYMAP_BIT_3));
, 0x7D -- }
, 0x0 -- 
, 0x2F2F2050524F4345445552453A20617364665F6B65796D6170735F6D61705F73656C6563745F335F736574 -- // PROCEDURE: asdf_keymaps_map_select_3_set
, 0x2F2F20494E505554533A206E6F6E65 -- // INPUTS: none
, 0x2F2F204F5554505554533A206E6F6E65 -- // OUTPUTS: none
, 0x2F2F -- //
, 0x2F2F204445534352495054494F4E3A2063616C6C6564207768656E206D61702073656C65637420332073776974636820697320636C6F7365642E20536574732074686520332062697420696E20746865 -- // DESCRIPTION: called when map select 3 switch is closed. Sets the 3 bit in the
, 0x2F2F206B65796D617020696E6465782E -- // keymap index.
, 0x2F2F -- //
, 0x2F2F205349444520454646454354533A206368616E6765732073656C6563746564206B65796D6170 -- // SIDE EFFECTS: changes selected keymap
, 0x2F2F -- //
, 0x2F2F204E4F5445533A -- // NOTES:
, 0x2F2F -- //
, 0x2F2F2053434F50453A207075626C6963 -- // SCOPE: public
, 0x2F2F -- //
, 0x2F2F20434F4D504C45584954593A2031 -- // COMPLEXITY: 1
, 0x2F2F -- //
, 0x766F696420617364665F6B65796D6170735F6D61705F73656C6563745F335F73657428766F696429 -- void asdf_keymaps_map_select_3_set(void)
, 0x7B -- {
, 0x2020617364665F6B65796D6170735F73656C6563742863757272656E745F6B6579626F6172645F696E646578207C20415344465F4B45594D41505F4249545F33293B --   asdf_keymaps_select(current_keyboard_index | ASDF_KEYMAP_BIT_3);
, 0x7D -- }
, 0x0 -- 
, 0x2F2F2050524F4345445552453A20617364665F6B65796D6170735F6765745F636F6465 -- // PROCEDURE: asdf_keymaps_get_code
, 0x2F2F20494E505554533A20726F772C20636F6C3A20726F7720616E6420636F6C756D6E206F66206B6579207468617420686173206265656E2070726573736564 -- // INPUTS: row, col: row and column of key that has been pressed
, 0x2F2F2020202020202020206D6F646966696572735F696E6465783A20696E64657820696E746F20746865206B65796D61702061727261792C206261736564206F6E206D6F646966696572207374617465 -- //         modifiers_index: index into the keymap array, based on modifier state
, 0x2F2F204F5554505554533A2072657475726E732061206B657920636F64652E -- // OUTPUTS: returns a key code.
, 0x2F2F -- //
, 0x2F2F204445534352495054494F4E3A20476976656E2061206B657920726F7720616E6420636F6C756D6E2C20616E6420616E20696E646578206261736564206F6E206D6F646966696572 -- // DESCRIPTION: Given a key row and column, and an index based on modifier
, 0x2F2F2073746174652C2072657475726E2074686520617070726F707269617465206B6579636F64652E -- // state, return the appropriate keycode.
, 0x2F2F -- //
, 0x2F2F205349444520454646454354533A206E6F6E65 -- // SIDE EFFECTS: none
, 0x2F2F -- //
, 0x2F2F2053434F50453A207075626C6963 -- // SCOPE: public
, 0x2F2F -- //
, 0x2F2F204E4F5445533A2053696E6365207468652066697273742076616C756520696E206561636820726F772069732074686520706879736963616C20726F77206E756D6265722C207765206164642031 -- // NOTES: Since the first value in each row is the physical row number, we add 1
, 0x2F2F20746F2074686520636F6C756D6E206E756D62657220746F20726561642074686520636F646520666F72206120676976656E20726F7720616E6420636F6C756D6E206E756D6265722E -- // to the column number to read the code for a given row and column number.
, 0x2F2F -- //
, 0x2F2F20434F4D504C45584954593A2031 -- // COMPLEXITY: 1
, 0x2F2F -- //
, 0x617364665F6B6579636F64655F7420617364665F6B65796D6170735F6765745F636F646528636F6E73742075696E74385F7420726F772C20636F6E73742075696E74385F7420636F6C2C -- asdf_keycode_t asdf_keymaps_get_code(const uint8_t row, const uint8_t col,
, 0x20202020202020202020202020202020202020202020202020202020202020202020202020636F6E73742075696E74385F74206D6F6469666965725F696E64657829 --                                      const uint8_t modifier_index)
, 0x7B -- {
, 0x202075696E74385F74206E756D5F636F6C73203D206B65796D6170735B63757272656E745F6B6579626F6172645F696E6465785D2E636F6C733B --   uint8_t num_cols = keymaps[current_keyboard_index].cols;
, 0x2020617364665F6B6579636F64655F74206B6579636F6465203D20303B --   asdf_keycode_t keycode = 0;
, 0x0 -- 
, 0x2020696620286B65796D6170735B63757272656E745F6B6579626F6172645F696E6465785D2E636F6C73202626206B65796D6170735B63757272656E745F6B6579626F6172645F696E6465785D2E726F777329207B --   if (keymaps[current_keyboard_index].cols && keymaps[current_keyboard_index].rows) {
, 0x20202020617364665F6B6579636F64655F7420282A6B6579636F64655F6D6174726978295B6E756D5F636F6C735D203D2028766F6964202A2920286B65796D6170735B6D6F6469666965725F696E6465785D2E6D6174726978293B --     asdf_keycode_t (*keycode_matrix)[num_cols] = (void *) (keymaps[modifier_index].matrix);
, 0x202020206B6579636F6465203D20464C4153485F524541445F4D41545249585F454C454D454E54286B6579636F64655F6D61747269782C20726F772C20636F6C293B --     keycode = FLASH_READ_MATRIX_ELEMENT(keycode_matrix, row, col);
, 0x20207D --   }
, 0x202072657475726E206B6579636F64653B --   return keycode;
, 0x7D -- }
, 0x0 -- 
, 0x2F2F2D2D2D2D2D2D2D7C2D2D2D2D2D2D2D2D2D7C2D2D2D2D2D2D2D2D2D2B2D2D2D2D2D2D2D2D2D2B2D2D2D2D2D2D2D2D2D2B2D2D2D2D2D2D2D2D2D2B2D2D2D2D2D2D2D2D2D2B2D2D2D2D2D2D2D2D2D2B -- //-------|---------|---------+---------+---------+---------+---------+---------+
, 0x2F2F2041626F7665206C696E6520697320383020636F6C756D6E732C20616E642073686F756C6420646973706C617920636F6D706C6574656C7920696E2074686520656469746F722E -- // Above line is 80 columns, and should display completely in the editor.
  ]

/-- /repo/firmware/asdf/src/asdf.c, lines 1-667. -/
def asdf_c : List Nat := [
  0x2F2F2046696C65207265636F6D6D656E746564206279207265636F6D6D656E742E637070 -- // File recommented by recomment.cpp
, 0x2F2F206F6E2044656320203920323031392061742031303A31343A30352E -- // on Dec  9 2019 at 10:14:05.
, 0x2F2F -- //
, 0x2F2F202D2A2D206D6F64653A20433B207461622D77696474683A2032203B20696E64656E742D746162732D6D6F64653A206E696C202D2A2D -- // -*- mode: C; tab-width: 2 ; indent-tabs-mode: nil -*-
, 0x2F2F -- //
, 0x2F2F2020556E6976657273616C204B6579626F6172642050726F6A656374 -- //  Universal Keyboard Project
, 0x2F2F202041534446206669726D77617265202D20736D616C6C2C20666173742C20616E642073696D706C65206B6579626F61726420656E636F6465722E -- //  ASDF firmware - small, fast, and simple keyboard encoder.
, 0x2F2F -- //
, 0x2F2F2020617364662E63 -- //  asdf.c
, 0x2F2F -- //
, 0x2F2F20546869732066696C6520636F6E7461696E7320636F646520666F723A -- // This file contains code for:
, 0x2F2F202D20746865206D61696E207363616E20636F646520616E64206B65792068616E646C657220726F7574696E6573 -- // - the main scan code and key handler routines
, 0x2F2F202D206B6579206D6174726978206465636C61726174696F6E7320616E64206B6579626F617264207374617465207661726961626C6573206E6F742064656C656761746564 -- // - key matrix declarations and keyboard state variables not delegated
, 0x2F2F202020656C736577686572652E -- //   elsewhere.
, 0x2F2F202D204B6579206465626F756E63696E67206C6F67696320616E64206461746120737475637475726573 -- // - Key debouncing logic and data stuctures
, 0x2F2F202D206469737061746368206F66207370656369616C2066756E6374696F6E7320626F756E6420746F206B6579732E -- // - dispatch of special functions bound to keys.
, 0x2F2F -- //
, 0x2F2F20436F7079726967687420323031392044617669642046656E796573 -- // Copyright 2019 David Fenyes
, 0x2F2F -- //
, 0x2F2F2020546869732070726F6772616D206973206672656520736F6674776172653A20796F752063616E2072656469737472696275746520697420616E642F6F72206D6F64696679206974 -- //  This program is free software: you can redistribute it and/or modify it
, 0x2F2F20756E64657220746865207465726D73206F662074686520474E552047656E6572616C205075626C6963204C6963656E7365206173207075626C6973686564206279207468652046726565 -- // under the terms of the GNU General Public License as published by the Free
, 0x2F2F20536F66747761726520466F756E646174696F6E2C206569746865722076657273696F6E2033206F6620746865204C6963656E73652C206F722028617420796F7572206F7074696F6E2920616E79 -- // Software Foundation, either version 3 of the License, or (at your option) any
, 0x2F2F206C617465722076657273696F6E2E -- // later version.
, 0x2F2F -- //
, 0x2F2F20546869732070726F6772616D20697320646973747269627574656420696E2074686520686F706520746861742069742077696C6C2062652075736566756C2C2062757420574954484F5554 -- // This program is distributed in the hope that it will be useful, but WITHOUT
, 0x2F2F20414E592057415252414E54593B20776974686F7574206576656E2074686520696D706C6965642077617272616E7479206F66204D45524348414E544142494C495459206F72204649544E455353 -- // ANY WARRANTY; without even the implied warranty of MERCHANTABILITY or FITNESS
, 0x2F2F20464F52204120504152544943554C415220505552504F53452E205365652074686520474E552047656E6572616C205075626C6963204C6963656E736520666F72206D6F7265 -- // FOR A PARTICULAR PURPOSE. See the GNU General Public License for more
, 0x2F2F2064657461696C732E -- // details.
, 0x2F2F -- //
, 0x2F2F20596F752073686F756C642068617665207265636569766564206120636F7079206F662074686520474E552047656E6572616C205075626C6963204C6963656E736520616C6F6E672077697468 -- // You should have received a copy of the GNU General Public License along with
, 0x2F2F20746869732070726F6772616D2E204966206E6F742C20736565203C68747470733A2F2F7777772E676E752E6F72672F6C6963656E7365732F3E2E -- // this program. If not, see <https://www.gnu.org/licenses/>.
, 0x0 -- 
, 0x23696E636C756465203C737464696F2E683E -- #include <stdio.h>
, 0x23696E636C756465203C737464696E742E683E -- #include <stdint.h>
, 0x23696E636C7564652022617364662E6822 -- #include "asdf.h"
, 0x23696E636C7564652022617364665F61736369692E6822 -- #include "asdf_ascii.h"
, 0x23696E636C7564652022617364665F706879736963616C2E6822 -- #include "asdf_physical.h"
, 0x23696E636C7564652022617364665F7669727475616C2E6822 -- #include "asdf_virtual.h"
, 0x23696E636C7564652022617364665F6B65796D6170732E6822 -- #include "asdf_keymaps.h"
, 0x23696E636C7564652022617364665F7265706561742E6822 -- #include "asdf_repeat.h"
, 0x23696E636C7564652022617364665F6D6F646966696572732E6822 -- #include "asdf_modifiers.h"
, 0x23696E636C7564652022617364665F6275666665722E6822 -- #include "asdf_buffer.h"
, 0x23696E636C7564652022617364665F617263682E6822 -- #include "asdf_arch.h"
, 0x23696E636C7564652022617364665F686F6F6B2E6822 -- #include "asdf_hook.h"
, 0x0 -- 
, 0x2F2F20546865206B6579207363616E6E6572206B6565707320747261636B206F6620746865206C61737420737461626C6520286465626F756E63656429207374617465206F662065616368206B6579 -- // The key scanner keeps track of the last stable (debounced) state of each key
, 0x2F2F20696E20746865206D61747269782C206F6E652062697420706572206B65792C203820626974732070657220726F772E -- // in the matrix, one bit per key, 8 bits per row.
, 0x73746174696320617364665F636F6C735F74206C6173745F737461626C655F6B65795F73746174655B415344465F4D41585F524F57535D3B -- static asdf_cols_t last_stable_key_state[ASDF_MAX_ROWS];
, 0x0 -- 
, 0x2F2F2045616368206B6579206973206465626F756E6365642073657061726174656C792C20737570706F7274696E672074727565204E2D6B657920726F6C6C6F7665722C20616C6C6F77696E672061 -- // Each key is debounced separately, supporting true N-key rollover, allowing a
, 0x2F2F206E6577206B657920746F2062652070726573736564207768656E207468652070726576696F75736C792070726573736564206B6579206973207374696C6C206465626F756E63696E672E -- // new key to be pressed when the previously pressed key is still debouncing.
, 0x2F2F20546869732072657175697265732061206465626F756E636520636F756E74657220666F722065616368206B65792E20546869732069732069732061206C617267652052414D -- // This requires a debounce counter for each key. This is is a large RAM
, 0x2F2F20666F6F747072696E742C20363420627974657320666F7220616E203820782038206B6579206D61747269782E20497420776F756C6420626520706F737369626C6520746F206F6E6C79 -- // footprint, 64 bytes for an 8 x 8 key matrix. It would be possible to only
, 0x2F2F206465626F756E636520746865206D6F737420726563656E746C792070726573736564206B657920616E6420726564756365207468652052414D20757361676520746F20612073696E676C65 -- // debounce the most recently pressed key and reduce the RAM usage to a single
, 0x2F2F206465626F756E636520636F756E757465722E20486F77657665722C207468697320776F756C642070726F6261626C79207265717569726520646966666572656E742068616E646C696E67206F66 -- // debounce counuter. However, this would probably require different handling of
, 0x2F2F206B6579207072657373657320616E642072656C65617365732C20616E64207370656369616C2068616E646C696E6720666F72206D6F646966696572206B6579732C2070657268617073 -- // key presses and releases, and special handling for modifier keys, perhaps
, 0x2F2F20696E636C7564696E67207365706172617465206465626F756E6365206C6F67696320696E207468652068616E646C65727320666F7220746F67676C65206B6579732073756368206173 -- // including separate debounce logic in the handlers for toggle keys such as
, 0x2F2F20434150535F4C4F434B2E -- // CAPS_LOCK.
, 0x7374617469632075696E74385F74206465626F756E63655F636F756E746572735B415344465F4D41585F524F57535D5B415344465F4D41585F434F4C535D3B -- static uint8_t debounce_counters[ASDF_MAX_ROWS][ASDF_MAX_COLS];
, 0x0 -- 
, 0x2F2F2053746F72657320746865206C617374206B65792070726573736564 -- // Stores the last key pressed
, 0x73746174696320617364665F6B6579636F64655F74206C6173745F6B65793B -- static asdf_keycode_t last_key;
, 0x0 -- 
, 0x2F2F2054686973206973207468652068616E646C6520666F72207468652063686172206F757470757420627566666572 -- // This is the handle for the char output buffer
, 0x73746174696320617364665F6275666665725F68616E646C655F7420617364665F6B6579636F64655F6275666665723B -- static asdf_buffer_handle_t asdf_keycode_buffer;
, 0x0 -- 
, 0x2F2F2054686973206973207468652068616E646C6520666F7220746865206D657373616765206F757470757420627566666572 -- // This is the handle for the message output buffer
, 0x73746174696320617364665F6275666665725F68616E646C655F7420617364665F6D6573736167655F6275666665723B -- static asdf_buffer_handle_t asdf_message_buffer;
, 0x0 -- 
, 0x2F2F205468652064656C61792074696D6520666F7220737472696E67732073656E742076696120706172616C6C656C20706F72742E2054686973206973206E65656465642062656361757365 -- // The delay time for strings sent via parallel port. This is needed because
, 0x2F2F206D6F7374206B6579626F617264732068617665206E6F2068616E647368616B696E672C20616E64207765206E65656420746F20616C6C6F772074696D6520666F7220766172696F7573 -- // most keyboards have no handshaking, and we need to allow time for various
, 0x2F2F20656E7669726F6E6D656E747320746F2070726F636573732074686520636861726163746572732E20536F6D652C207375636820617320626173696320696E746572707265746572732C20617265 -- // environments to process the characters. Some, such as basic interpreters, are
, 0x2F2F2072617468657220736C6F772E2020536F20776520776520616C6C6F77206B6579626F617264206D6F64756C657320746F206D6F646966697920746869732064656C61792E -- // rather slow.  So we we allow keyboard modules to modifiy this delay.
, 0x7374617469632075696E7431365F7420617364665F7072696E745F64656C61795F6D733B -- static uint16_t asdf_print_delay_ms;
, 0x0 -- 
, 0x2F2F2050524F4345445552453A20617364665F7075745F636F6465 -- // PROCEDURE: asdf_put_code
, 0x2F2F20494E505554533A2028617364665F6B6579636F64655F742920636F64653A20636F646520746F20626520627566666572656420666F72206F7574707574 -- // INPUTS: (asdf_keycode_t) code: code to be buffered for output
, 0x2F2F204F5554505554533A206E6F6E65 -- // OUTPUTS: none
, 0x2F2F -- //
, 0x2F2F204445534352495054494F4E3A2054616B65732061206B6579636F646520617267756D656E7420616E64206275666665727320666F72206F75747075742E -- // DESCRIPTION: Takes a keycode argument and buffers for output.
, 0x2F2F -- //
, 0x2F2F205349444520454646454354533A206D6F646966696573206275666665722073746174652E -- // SIDE EFFECTS: modifies buffer state.
, 0x2F2F -- //
, 0x2F2F204E4F5445533A204966206275666665722069732066756C6C2C2073696C656E746C792064726F702074686520636F64652E -- // NOTES: If buffer is full, silently drop the code.
, 0x2F2F -- //
, 0x2F2F2053434F50453A207075626C6963 -- // SCOPE: public
, 0x2F2F -- //
, 0x2F2F20434F4D504C45584954593A2031 -- // COMPLEXITY: 1
, 0x2F2F -- //
, 0x766F696420617364665F7075745F636F646528617364665F6B6579636F64655F7420636F646529 -- void asdf_put_code(asdf_keycode_t code)
, 0x7B -- {
, 0x2020617364665F6275666665725F70757428617364665F6B6579636F64655F6275666665722C20636F6465293B --   asdf_buffer_put(asdf_keycode_buffer, code);
, 0x7D -- }
, 0x0 -- 
, 0x2F2F2050524F4345445552453A20617364665F70757463 -- // PROCEDURE: asdf_putc
, 0x2F2F20494E505554533A2028636861722920633A2063686172616374657220746F20626520627566666572656420666F72206F7574707574 -- // INPUTS: (char) c: character to be buffered for output
, 0x2F2F2020202020202020202846494C45202A292073747265616D202D206F6E6C79207573656420746F206D617463682070726F746F747970652E -- //         (FILE *) stream - only used to match prototype.
, 0x2F2F204F5554505554533A206E6F6E65 -- // OUTPUTS: none
, 0x2F2F -- //
, 0x2F2F204445534352495054494F4E3A2054616B65732061206368617261637465722067656E657261746564206279207468652073797374656D20616E64206275666665727320666F72 -- // DESCRIPTION: Takes a character generated by the system and buffers for
, 0x2F2F206F75747075742E -- // output.
, 0x2F2F -- //
, 0x2F2F205349444520454646454354533A206D6F646966696573206275666665722073746174652E -- // SIDE EFFECTS: modifies buffer state.
, 0x2F2F -- //
, 0x2F2F204E4F5445533A204966206275666665722069732066756C6C2C2073696C656E746C792064726F702074686520636F64652E -- // NOTES: If buffer is full, silently drop the code.
, 0x2F2F -- //
, 0x2F2F2053434F50453A207075626C6963 -- // SCOPE: public
, 0x2F2F -- //
, 0x2F2F20434F4D504C45584954593A2031 -- // COMPLEXITY: 1
, 0x2F2F -- //
, 0x696E7420617364665F70757463286368617220632C2046494C45202A73747265616D29 -- int asdf_putc(char c, FILE *stream)
, 0x7B -- {
, 0x20202F2F20666F72206D657373616765732C2061646420435220746F204C463A --   // for messages, add CR to LF:
, 0x202069662028275C6E27203D3D206329207B --   if ('\n' == c) {
, 0x20202020617364665F7075746328275C72272C2073747265616D293B --     asdf_putc('\r', stream);
, 0x20207D --   }
, 0x2020617364665F6275666665725F70757428617364665F6D6573736167655F6275666665722C2028617364665F6B6579636F64655F74292063293B --   asdf_buffer_put(asdf_message_buffer, (asdf_keycode_t) c);
, 0x202072657475726E2028696E742920633B --   return (int) c;
, 0x7D -- }
, 0x0 -- 
, 0x2F2F2050524F4345445552453A20617364665F6E6578745F636F6465 -- // PROCEDURE: asdf_next_code
, 0x2F2F20494E505554533A206E6F6E65 -- // INPUTS: none
, 0x2F2F -- //
, 0x2F2F204F5554505554533A2028617364665F6B6579636F64655F74292072657475726E73206E6578742076616C756520696E206275666665722E20496620626F7468206275666665727320617265 -- // OUTPUTS: (asdf_keycode_t) returns next value in buffer. If both buffers are
, 0x2F2F20656D7074792C2074686520636F646520415344465F494E56414C49445F434F44452069732072657475726E65642E -- // empty, the code ASDF_INVALID_CODE is returned.
, 0x2F2F -- //
, 0x2F2F204445534352495054494F4E3A20436865636B7320746865206D657373616765206275666665722C20616E642072657475726E73206120636861726163746572 -- // DESCRIPTION: Checks the message buffer, and returns a character
, 0x2F2F2069662070726573656E742E20204F74686572776973652C2072657475726E20746865206E65787420636F646520696E20746865206B6579636F6465 -- // if present.  Otherwise, return the next code in the keycode
, 0x2F2F206275666665722E -- // buffer.
, 0x2F2F -- //
, 0x2F2F205349444520454646454354533A206D6F646966696573206275666665722073746174652E -- // SIDE EFFECTS: modifies buffer state.
, 0x2F2F -- //
, 0x2F2F204E4F5445533A20412064656C617920697320656E666F7263656420666F722073797374656D206D657373616765732C20746F2072656475636520746865207269736B206F662064726F70706564 -- // NOTES: A delay is enforced for system messages, to reduce the risk of dropped
, 0x2F2F2063686172616374657273207769746820756E627566666572656420706F6C6C696E6720686F7374732E204E6F2064656C6179206973206E656564656420666F72207479706564 -- // characters with unbuffered polling hosts. No delay is needed for typed
, 0x2F2F206B6579636F6465732C206173207468657365206172652067656E6572617465642061742068756D616E207370656564732E -- // keycodes, as these are generated at human speeds.
, 0x2F2F -- //
, 0x2F2F2053434F50453A207075626C6963 -- // SCOPE: public
, 0x2F2F -- //
, 0x2F2F20434F4D504C45584954593A2032 -- // COMPLEXITY: 2
, 0x2F2F -- //
, 0x617364665F6B6579636F64655F7420617364665F6E6578745F636F646528766F696429 -- asdf_keycode_t asdf_next_code(void)
, 0x7B -- {
, 0x2020617364665F6B6579636F64655F7420636F6465203D20617364665F6275666665725F67657428617364665F6D6573736167655F627566666572293B --   asdf_keycode_t code = asdf_buffer_get(asdf_message_buffer);
, 0x202069662028415344465F494E56414C49445F434F4445203D3D20636F646529207B --   if (ASDF_INVALID_CODE == code) {
, 0x20202020636F6465203D20617364665F6275666665725F67657428617364665F6B6579636F64655F627566666572293B --     code = asdf_buffer_get(asdf_keycode_buffer);
, 0x20207D20656C7365207B --   } else {
, 0x202020202F2F20666F722073797374656D206D657373616765 --     // for system message
, 0x20202020617364665F617263685F64656C61795F6D7328617364665F7072696E745F64656C61795F6D73293B --     asdf_arch_delay_ms(asdf_print_delay_ms);
, 0x20207D --   }
, 0x202072657475726E20636F64653B --   return code;
, 0x7D -- }
, 0x0 -- 
, 0x2F2F2050524F4345445552453A20617364665F7365745F7072696E745F64656C6179 -- // PROCEDURE: asdf_set_print_delay
, 0x2F2F20494E505554533A202875696E74385F74292064656C61795F6D73 -- // INPUTS: (uint8_t) delay_ms
, 0x2F2F -- //
, 0x2F2F204F5554505554533A206E6F6E65 -- // OUTPUTS: none
, 0x2F2F -- //
, 0x2F2F204445534352495054494F4E3A2073657473207468652064656C617920746F2062652075736564206279207468652073797374656D207072696E7420627566666572 -- // DESCRIPTION: sets the delay to be used by the system print buffer
, 0x2F2F -- //
, 0x2F2F205349444520454646454354533A206D6F646966696573206368617261637465722064656C6179207661726961626C652E -- // SIDE EFFECTS: modifies character delay variable.
, 0x2F2F -- //
, 0x2F2F204E4F5445533A20412064656C617920697320656E666F7263656420666F722073797374656D206D657373616765732C20746F2072656475636520746865207269736B206F662064726F70706564 -- // NOTES: A delay is enforced for system messages, to reduce the risk of dropped
, 0x2F2F2063686172616374657273207769746820756E627566666572656420706F6C6C696E6720686F7374732E204E6F2064656C6179206973206E656564656420666F72207479706564 -- // characters with unbuffered polling hosts. No delay is needed for typed
, 0x2F2F206B6579636F6465732C206173207468657365206172652067656E6572617465642061742068756D616E207370656564732E -- // keycodes, as these are generated at human speeds.
, 0x2F2F -- //
, 0x2F2F2053434F50453A207075626C6963 -- // SCOPE: public
, 0x2F2F -- //
, 0x2F2F20434F4D504C45584954593A2031 -- // COMPLEXITY: 1
, 0x2F2F -- //
, 0x766F696420617364665F7365745F7072696E745F64656C61792875696E74385F742064656C61795F6D7329 -- void asdf_set_print_delay(uint8_t delay_ms)
, 0x7B -- {
, 0x2020617364665F7072696E745F64656C61795F6D73203D2064656C61795F6D733B --   asdf_print_delay_ms = delay_ms;
, 0x7D -- }
, 0x0 -- 
, 0x2F2F2050524F4345445552453A20617364665F6C6F6F6B75705F6B6579636F6465 -- // PROCEDURE: asdf_lookup_keycode
, 0x2F2F20494E505554533A20726F772C20636F6C3A2073706563696679206120726F7720616E6420636F6C756D6E20696E20746865206B6579626F617264206D6174726978 -- // INPUTS: row, col: specify a row and column in the keyboard matrix
, 0x2F2F204F5554505554533A2072657475726E732061206B6579636F6465 -- // OUTPUTS: returns a keycode
, 0x2F2F -- //
, 0x2F2F204445534352495054494F4E3A20476976656E206120726F7720616E6420636F6C756D6E20696E20746865206B6579626F617264206D61747269782C2072657475726E7320746865 -- // DESCRIPTION: Given a row and column in the keyboard matrix, returns the
, 0x2F2F20636F72726573706F6E64696E67206B6579636F64652C20646570656E64696E67206F6E20746865207374617465206F6620746865206D6F646966696572206B6579732E -- // corresponding keycode, depending on the state of the modifier keys.
, 0x2F2F -- //
, 0x2F2F205349444520454646454354533A206E6F6E65 -- // SIDE EFFECTS: none
, 0x2F2F -- //
, 0x2F2F204E4F5445533A -- // NOTES:
, 0x2F2F -- //
, 0x2F2F2053434F50453A2070726976617465 -- // SCOPE: private
, 0x2F2F -- //
, 0x2F2F20434F4D504C45584954593A2031 -- // COMPLEXITY: 1
, 0x2F2F -- //
, 0x617364665F6B6579636F64655F7420617364665F6C6F6F6B75705F6B6579636F64652875696E74385F7420726F772C2075696E74385F7420636F6C29 -- asdf_keycode_t asdf_lookup_keycode(uint8_t row, uint8_t col)
, 0x7B -- {
, 0x202072657475726E20617364665F6B65796D6170735F6765745F636F646528726F772C20636F6C2C20617364665F6D6F6469666965725F696E6465782829293B --   return asdf_keymaps_get_code(row, col, asdf_modifier_index());
, 0x7D -- }
, 0x0 -- 
, 0x2F2F2050524F4345445552453A20617364665F61637469766174655F616374696F6E -- // PROCEDURE: asdf_activate_action
, 0x2F2F20494E505554533A206B6579636F64653A20616E20616374696F6E206B657920636F6465 -- // INPUTS: keycode: an action key code
, 0x2F2F204F5554505554533A206E6F6E65 -- // OUTPUTS: none
, 0x2F2F -- //
, 0x2F2F204445534352495054494F4E3A205468697320726F7574696E652069732063616C6C6564207768656E2061206B657920626F756E6420746F20616E20616374696F6E20636F6465206973 -- // DESCRIPTION: This routine is called when a key bound to an action code is
, 0x2F2F20707265737365642C20616E64206D6170732074686520616374696F6E20636F646520746F20612066756E6374696F6E2063616C6C2C206F72206F7468657220616374696F6E -- // pressed, and maps the action code to a function call, or other action
, 0x2F2F20617070726F70726961746520666F722061637469766174696F6E206F66207468652066756E6374696F6E2E -- // appropriate for activation of the function.
, 0x2F2F -- //
, 0x2F2F205349444520454646454354533A20416C6C2074686520616374696F6E73206D61792068617665207369646520656666656374732C20646570656E64696E67206F6E207468652066756E6374696F6E2063616C6C65642E -- // SIDE EFFECTS: All the actions may have side effects, depending on the function called.
, 0x2F2F -- //
, 0x2F2F2053434F50453A2070726976617465 -- // SCOPE: private
, 0x2F2F -- //
, 0x2F2F204E4F5445533A2054686520737769746368282920636F756C6420626520696D706C656D656E74656420617320616E206172726179206F662066756E6374696F6E20706F696E746572732C -- // NOTES: The switch() could be implemented as an array of function pointers,
, 0x2F2F20657373656E7469616C6C792061206A756D70207461626C652E20486F77657665722C20746865207377697463682073746174656D656E742077696C6C20616C736F206265 -- // essentially a jump table. However, the switch statement will also be
, 0x2F2F20696D706C656D656E7465642061732061206A756D70207461626C652C20616E64206D6179206265206D6F726520656666696369656E746C7920696D706C656D656E7465642061732061 -- // implemented as a jump table, and may be more efficiently implemented as a
, 0x2F2F20636F6465206A756D70207461626C65207468616E20616E206172726179206F6620706F696E746572732073746F72656420696E20666C617368207468617420776F756C642072657175697265 -- // code jump table than an array of pointers stored in flash that would require
, 0x2F2F20616E206164646974696F6E616C20666C6173682D72656164206F7065726174696F6E2E20416C736F2C2074686520737769746368206A756D707461626C652077696C6C206D616B65206D6F7265 -- // an additional flash-read operation. Also, the switch jumptable will make more
, 0x2F2F20656666696369656E7420757365206F66207370616365207468616E206120737061727365206172726179206F662066756E6374696F6E20706F696E746572732E20546865 -- // efficient use of space than a sparse array of function pointers. The
, 0x2F2F20726564756374696F6E20696E206379636C6F6D657472696320636F6D706C6578697479206279207573696E6720616E206172726179206973206120746563686E6963616C6974792C -- // reduction in cyclometric complexity by using an array is a technicality,
, 0x2F2F2073696E63652074686520656C656D656E7473206D757374207374696C6C20626520656E7465726564206173206C696E6573206F6620636F646520696E20736F6D652070617274206F6620746865 -- // since the elements must still be entered as lines of code in some part of the
, 0x2F2F2070726F6772616D2E2020486572652C20746865792061726520617272616E67656420696E2074686520706C61636520746865792061726520757365642E -- // program.  Here, they are arranged in the place they are used.
, 0x2F2F -- //
, 0x2F2F20434F4D504C45584954593A203120282B313820666F72207468652073776974636829 -- // COMPLEXITY: 1 (+18 for the switch)
, 0x2F2F -- //
, 0x73746174696320766F696420617364665F61637469766174655F616374696F6E28616374696F6E5F74206B6579636F646529 -- static void asdf_activate_action(action_t keycode)
, 0x7B -- {
, 0x202073776974636820286B6579636F646529207B --   switch (keycode) {
, 0x0 -- 
, 0x202020206361736520414354494F4E5F53484946543A207B --     case ACTION_SHIFT: {
, 0x202020202020617364665F6D6F6469666965725F73686966745F616374697661746528293B --       asdf_modifier_shift_activate();
, 0x202020202020627265616B3B --       break;
, 0x202020207D --     }
, 0x202020206361736520414354494F4E5F53484946544C4F434B5F4F4E3A207B --     case ACTION_SHIFTLOCK_ON: {
, 0x202020202020617364665F6D6F6469666965725F73686966746C6F636B5F6F6E5F616374697661746528293B --       asdf_modifier_shiftlock_on_activate();
, 0x202020202020627265616B3B --       break;
, 0x202020207D --     }
, 0x202020206361736520414354494F4E5F53484946544C4F434B5F544F47474C453A207B --     case ACTION_SHIFTLOCK_TOGGLE: {
, 0x202020202020617364665F6D6F6469666965725F73686966746C6F636B5F746F67676C655F616374697661746528293B --       asdf_modifier_shiftlock_toggle_activate();
, 0x202020202020627265616B3B --       break;
, 0x202020207D --     }
, 0x202020206361736520414354494F4E5F434150533A207B --     case ACTION_CAPS: {
, 0x202020202020617364665F6D6F6469666965725F636170736C6F636B5F616374697661746528293B --       asdf_modifier_capslock_activate();
, 0x202020202020627265616B3B --       break;
, 0x202020207D --     }
, 0x202020206361736520414354494F4E5F4354524C3A207B --     case ACTION_CTRL: {
, 0x202020202020617364665F6D6F6469666965725F6374726C5F616374697661746528293B --       asdf_modifier_ctrl_activate();
, 0x202020202020627265616B3B --       break;
, 0x202020207D --     }
, 0x202020206361736520414354494F4E5F5245504541543A207B --     case ACTION_REPEAT: {
, 0x202020202020617364665F7265706561745F616374697661746528293B --       asdf_repeat_activate();
, 0x202020202020627265616B3B --       break;
, 0x202020207D --     }
, 0x202020206361736520414354494F4E5F4D415053454C5F303A207B --     case ACTION_MAPSEL_0: {
, 0x202020202020617364665F6B65796D6170735F6D61705F73656C6563745F305F73657428293B --       asdf_keymaps_map_select_0_set();
, 0x202020202020627265616B3B --       break;
, 0x202020207D --     }
, 0x202020206361736520414354494F4E5F4D415053454C5F313A207B --     case ACTION_MAPSEL_1: {
, 0x202020202020617364665F6B65796D6170735F6D61705F73656C6563745F315F73657428293B --       asdf_keymaps_map_select_1_set();
, 0x202020202020627265616B3B --       break;
, 0x202020207D --     }
, 0x202020206361736520414354494F4E5F4D415053454C5F323A207B --     case ACTION_MAPSEL_2: {
, 0x202020202020617364665F6B65796D6170735F6D61705F73656C6563745F325F73657428293B --       asdf_keymaps_map_select_2_set();
, 0x202020202020627265616B3B --       break;
, 0x202020207D --     }
, 0x202020206361736520414354494F4E5F4D415053454C5F333A207B --     case ACTION_MAPSEL_3: {
, 0x202020202020617364665F6B65796D6170735F6D61705F73656C6563745F335F73657428293B --       asdf_keymaps_map_select_3_set();
, 0x202020202020627265616B3B --       break;
, 0x202020207D --     }
, 0x202020206361736520414354494F4E5F5354524F42455F504F4C41524954595F53454C4543543A207B --     case ACTION_STROBE_POLARITY_SELECT: {
, 0x202020202020617364665F617263685F7365745F706F735F7374726F626528293B --       asdf_arch_set_pos_strobe();
, 0x202020202020627265616B3B --       break;
, 0x202020207D --     }
, 0x202020206361736520414354494F4E5F4155544F5245504541545F53454C4543543A207B --     case ACTION_AUTOREPEAT_SELECT: {
, 0x202020202020617364665F7265706561745F6175746F5F6F6E28293B --       asdf_repeat_auto_on();
, 0x202020202020627265616B3B --       break;
, 0x202020207D --     }
, 0x202020206361736520414354494F4E5F564C4544313A207B --     case ACTION_VLED1: {
, 0x202020202020617364665F7669727475616C5F616374697661746528564C454431293B --       asdf_virtual_activate(VLED1);
, 0x202020202020627265616B3B --       break;
, 0x202020207D --     }
, 0x202020206361736520414354494F4E5F564C4544323A207B --     case ACTION_VLED2: {
, 0x202020202020617364665F7669727475616C5F616374697661746528564C454432293B --       asdf_virtual_activate(VLED2);
, 0x202020202020627265616B3B --       break;
, 0x202020207D --     }
, 0x202020206361736520414354494F4E5F564C4544333A207B --     case ACTION_VLED3: {
, 0x202020202020617364665F7669727475616C5F616374697661746528564C454433293B --       asdf_virtual_activate(VLED3);
, 0x202020202020627265616B3B --       break;
, 0x202020207D --     }
, 0x202020206361736520414354494F4E5F564F5554313A207B --     case ACTION_VOUT1: {
, 0x202020202020617364665F7669727475616C5F616374697661746528564F555431293B --       asdf_virtual_activate(VOUT1);
, 0x202020202020627265616B3B --       break;
, 0x202020207D --     }
, 0x202020206361736520414354494F4E5F564F5554323A207B --     case ACTION_VOUT2: {
, 0x202020202020617364665F7669727475616C5F616374697661746528564F555432293B --       asdf_virtual_activate(VOUT2);
, 0x202020202020627265616B3B --       break;
, 0x202020207D --     }
, 0x202020206361736520414354494F4E5F564F5554333A207B --     case ACTION_VOUT3: {
, 0x202020202020617364665F7669727475616C5F616374697661746528564F555433293B --       asdf_virtual_activate(VOUT3);
, 0x202020202020627265616B3B --       break;
, 0x202020207D --     }
, 0x202020206361736520414354494F4E5F564F5554343A207B --     case ACTION_VOUT4: {
, 0x202020202020617364665F7669727475616C5F616374697661746528564F555434293B --       asdf_virtual_activate(VOUT4);
, 0x202020202020627265616B3B --       break;
, 0x202020207D --     }
, 0x202020206361736520414354494F4E5F564F5554353A207B --     case ACTION_VOUT5: {
, 0x202020202020617364665F7669727475616C5F616374697661746528564F555435293B --       asdf_virtual_activate(VOUT5);
, 0x202020202020627265616B3B --       break;
, 0x202020207D --     }
, 0x202020206361736520414354494F4E5F564F5554363A207B --     case ACTION_VOUT6: {
, 0x202020202020617364665F7669727475616C5F616374697661746528564F555436293B --       asdf_virtual_activate(VOUT6);
, 0x202020202020627265616B3B --       break;
, 0x202020207D --     }
, 0x202020206361736520414354494F4E5F4E4F5448494E473A --     case ACTION_NOTHING:
, 0x202020206361736520414354494F4E5F484552455F49533A --     case ACTION_HERE_IS:
, 0x202020206361736520414354494F4E5F464E5F313A --     case ACTION_FN_1:
, 0x202020202020617364665F686F6F6B5F6578656375746528415344465F484F4F4B5F555345525F31293B --       asdf_hook_execute(ASDF_HOOK_USER_1);
, 0x202020202020627265616B3B --       break;
, 0x202020206361736520414354494F4E5F464E5F323A --     case ACTION_FN_2:
, 0x202020202020617364665F686F6F6B5F6578656375746528415344465F484F4F4B5F555345525F32293B --       asdf_hook_execute(ASDF_HOOK_USER_2);
, 0x202020202020627265616B3B --       break;
, 0x202020206361736520414354494F4E5F464E5F333A --     case ACTION_FN_3:
, 0x202020202020617364665F686F6F6B5F6578656375746528415344465F484F4F4B5F555345525F33293B --       asdf_hook_execute(ASDF_HOOK_USER_3);
, 0x202020202020627265616B3B --       break;
, 0x202020206361736520414354494F4E5F464E5F343A --     case ACTION_FN_4:
, 0x202020202020617364665F686F6F6B5F6578656375746528415344465F484F4F4B5F555345525F34293B --       asdf_hook_execute(ASDF_HOOK_USER_4);
, 0x202020202020627265616B3B --       break;
, 0x202020206361736520414354494F4E5F464E5F353A --     case ACTION_FN_5:
, 0x202020202020617364665F686F6F6B5F6578656375746528415344465F484F4F4B5F555345525F35293B --       asdf_hook_execute(ASDF_HOOK_USER_5);
, 0x202020202020627265616B3B --       break;
, 0x202020206361736520414354494F4E5F464E5F363A --     case ACTION_FN_6:
, 0x202020202020617364665F686F6F6B5F6578656375746528415344465F484F4F4B5F555345525F36293B --       asdf_hook_execute(ASDF_HOOK_USER_6);
, 0x202020202020627265616B3B --       break;
, 0x202020206361736520414354494F4E5F464E5F373A --     case ACTION_FN_7:
, 0x202020202020617364665F686F6F6B5F6578656375746528415344465F484F4F4B5F555345525F37293B --       asdf_hook_execute(ASDF_HOOK_USER_7);
, 0x202020202020627265616B3B --       break;
, 0x202020206361736520414354494F4E5F464E5F383A --     case ACTION_FN_8:
, 0x202020202020617364665F686F6F6B5F6578656375746528415344465F484F4F4B5F555345525F38293B --       asdf_hook_execute(ASDF_HOOK_USER_8);
, 0x202020202020627265616B3B --       break;
, 0x202020206361736520414354494F4E5F464E5F393A --     case ACTION_FN_9:
, 0x202020202020617364665F686F6F6B5F6578656375746528415344465F484F4F4B5F555345525F39293B --       asdf_hook_execute(ASDF_HOOK_USER_9);
, 0x202020202020627265616B3B --       break;
, 0x202020206361736520414354494F4E5F464E5F31303A --     case ACTION_FN_10:
, 0x202020202020617364665F686F6F6B5F6578656375746528415344465F484F4F4B5F555345525F3130293B --       asdf_hook_execute(ASDF_HOOK_USER_10);
, 0x202020202020627265616B3B --       break;
, 0x2020202064656661756C743A20627265616B3B --     default: break;
, 0x20207D --   }
, 0x7D -- }
, 0x0 -- 
, 0x2F2F2050524F4345445552453A20617364665F646561637469766174655F616374696F6E -- // PROCEDURE: asdf_deactivate_action
, 0x2F2F20494E505554533A206B6579636F64653A20616E20616374696F6E206B657920636F6465 -- // INPUTS: keycode: an action key code
, 0x2F2F204F5554505554533A206E6F6E65 -- // OUTPUTS: none
, 0x2F2F -- //
, 0x2F2F204445534352495054494F4E3A205468697320726F7574696E652069732063616C6C6564207768656E2061206B657920626F756E6420746F20616E20616374696F6E20636F6465206973 -- // DESCRIPTION: This routine is called when a key bound to an action code is
, 0x2F2F2072656C65617365642C20616E64206D6170732074686520616374696F6E20636F646520746F20612066756E6374696F6E2063616C6C2C206F72206F7468657220616374696F6E -- // released, and maps the action code to a function call, or other action
, 0x2F2F20617070726F70726961746520666F7220646561637469766174696F6E206F66207468652066756E6374696F6E2E -- // appropriate for deactivation of the function.
, 0x2F2F -- //
, 0x2F2F205349444520454646454354533A20416C6C2074686520616374696F6E73206D61792068617665207369646520656666656374732C20646570656E64696E67206F6E207468652066756E6374696F6E2063616C6C65642E -- // SIDE EFFECTS: All the actions may have side effects, depending on the function called.
, 0x2F2F -- //
, 0x2F2F2053434F50453A2070726976617465 -- // SCOPE: private
, 0x2F2F -- //
, 0x2F2F204E4F5445533A20536565204E4F544520666F7220617364665F61637469766174655F616374696F6E28292E20546865205669727475616C204F7574707574732068617665 -- // NOTES: See NOTE for asdf_activate_action(). The Virtual Outputs have
, 0x2F2F20616374697661746528292066756E6374696F6E732C20627574206E6F206465616374697661746528292066756E6374696F6E732C20616E64206172652068616E646C656420627920746865 -- // activate() functions, but no deactivate() functions, and are handled by the
, 0x2F2F2064656661756C7420636173652E -- // default case.
, 0x2F2F -- //
, 0x2F2F20434F4D504C45584954593A203120282B3920666F7220746865207377697463682C20736565206E6F746529 -- // COMPLEXITY: 1 (+9 for the switch, see note)
, 0x2F2F -- //
, 0x73746174696320766F696420617364665F646561637469766174655F616374696F6E28616374696F6E5F74206B6579636F646529 -- static void asdf_deactivate_action(action_t keycode)
, 0x7B -- {
, 0x202073776974636820286B6579636F646529207B --   switch (keycode) {
, 0x202020206361736520414354494F4E5F53484946543A207B --     case ACTION_SHIFT: {
, 0x202020202020617364665F6D6F6469666965725F73686966745F6465616374697661746528293B --       asdf_modifier_shift_deactivate();
, 0x202020202020627265616B3B --       break;
, 0x202020207D --     }
, 0x202020206361736520414354494F4E5F4354524C3A207B --     case ACTION_CTRL: {
, 0x202020202020617364665F6D6F6469666965725F6374726C5F6465616374697661746528293B --       asdf_modifier_ctrl_deactivate();
, 0x202020202020627265616B3B --       break;
, 0x202020207D --     }
, 0x202020206361736520414354494F4E5F5245504541543A207B --     case ACTION_REPEAT: {
, 0x202020202020617364665F7265706561745F6465616374697661746528293B --       asdf_repeat_deactivate();
, 0x202020202020627265616B3B --       break;
, 0x202020207D --     }
, 0x202020206361736520414354494F4E5F4D415053454C5F303A207B --     case ACTION_MAPSEL_0: {
, 0x202020202020617364665F6B65796D6170735F6D61705F73656C6563745F305F636C65617228293B --       asdf_keymaps_map_select_0_clear();
, 0x202020202020627265616B3B --       break;
, 0x202020207D --     }
, 0x202020206361736520414354494F4E5F4D415053454C5F313A207B --     case ACTION_MAPSEL_1: {
, 0x202020202020617364665F6B65796D6170735F6D61705F73656C6563745F315F636C65617228293B --       asdf_keymaps_map_select_1_clear();
, 0x202020202020627265616B3B --       break;
, 0x202020207D --     }
, 0x202020206361736520414354494F4E5F4D415053454C5F323A207B --     case ACTION_MAPSEL_2: {
, 0x202020202020617364665F6B65796D6170735F6D61705F73656C6563745F325F636C65617228293B --       asdf_keymaps_map_select_2_clear();
, 0x202020202020627265616B3B --       break;
, 0x202020207D --     }
, 0x202020206361736520414354494F4E5F4D415053454C5F333A207B --     case ACTION_MAPSEL_3: {
, 0x202020202020617364665F6B65796D6170735F6D61705F73656C6563745F335F636C65617228293B --       asdf_keymaps_map_select_3_clear();
, 0x202020202020627265616B3B --       break;
, 0x202020207D --     }
, 0x202020206361736520414354494F4E5F5354524F42455F504F4C41524954595F53454C4543543A207B --     case ACTION_STROBE_POLARITY_SELECT: {
, 0x202020202020617364665F617263685F7365745F6E65675F7374726F626528293B --       asdf_arch_set_neg_strobe();
, 0x202020202020627265616B3B --       break;
, 0x202020207D --     }
, 0x202020206361736520414354494F4E5F4155544F5245504541545F53454C4543543A207B --     case ACTION_AUTOREPEAT_SELECT: {
, 0x202020202020617364665F7265706561745F6175746F5F6F666628293B --       asdf_repeat_auto_off();
, 0x202020202020627265616B3B --       break;
, 0x202020207D --     }
, 0x202020206361736520414354494F4E5F4E4F5448494E473A --     case ACTION_NOTHING:
, 0x2020202064656661756C743A20627265616B3B --     default: break;
, 0x20207D --   }
, 0x7D -- }
, 0x0 -- 
, 0x2F2F2050524F4345445552453A20617364665F61637469766174655F6B6579 -- // PROCEDURE: asdf_activate_key
, 0x2F2F20494E505554533A206B6579636F6465202D2074686520636F646520666F722061206B6579207468617420686173206265656E20707265737365642E -- // INPUTS: keycode - the code for a key that has been pressed.
, 0x2F2F204F5554505554533A206E6F6E65 -- // OUTPUTS: none
, 0x2F2F -- //
, 0x2F2F204445534352495054494F4E3A2043616C6C6564207768656E2061206B657920686173206265656E20707265737365642E20496620746865206B657920697320626F756E6420746F2061 -- // DESCRIPTION: Called when a key has been pressed. If the key is bound to a
, 0x2F2F2076616C75652C206F7574707574207468652076616C75652E20496620746865206B657920697320626F756E6420746F20616E20616374696F6E2C2063616C6C2074686520616374697661746520616374696F6E -- // value, output the value. If the key is bound to an action, call the activate action
, 0x2F2F2068616E646C6572207769746820746865206B6579636F64652E -- // handler with the keycode.
, 0x2F2F -- //
, 0x2F2F205349444520454646454354533A2049662074686520636F646520697320612076616C75652C20746865206C617374206B6579206973207570646174656420746F207468652063757272656E74 -- // SIDE EFFECTS: If the code is a value, the last key is updated to the current
, 0x2F2F2076616C75652C20616E64207265706561742074696D65722069732072657365742E2049662074686520636F646520697320616E20616374696F6E20636F64652C20746865206163746976617465 -- // value, and repeat timer is reset. If the code is an action code, the activate
, 0x2F2F20616374696F6E20646973706174636865722070726F6475636573207369646520656666656374732E202053656520617364665F61637469766174655F616374696F6E2829 -- // action dispatcher produces side effects.  See asdf_activate_action()
, 0x2F2F -- //
, 0x2F2F2053434F50453A2070726976617465 -- // SCOPE: private
, 0x2F2F -- //
, 0x2F2F20434F4D504C45584954593A2033 -- // COMPLEXITY: 3
, 0x2F2F -- //
, 0x73746174696320766F696420617364665F61637469766174655F6B657928617364665F6B6579636F64655F74206B6579636F646529 -- static void asdf_activate_key(asdf_keycode_t keycode)
, 0x7B -- {
, 0x2020696620286B6579636F6465203E20415344465F414354494F4E29207B202F2F20415344465F414354494F4E203D20415344465F4E4F5448494E47203D206E6F20616374696F6E2E --   if (keycode > ASDF_ACTION) { // ASDF_ACTION = ASDF_NOTHING = no action.
, 0x20202020617364665F61637469766174655F616374696F6E2828616374696F6E5F7429206B6579636F6465293B --     asdf_activate_action((action_t) keycode);
, 0x20207D --   }
, 0x2020656C7365207B --   else {
, 0x0 -- 
, 0x202020202F2F2061637469766174652061206E657720636F6461626C65206B65797072657373 --     // activate a new codable keypress
, 0x20202020617364665F7075745F636F6465286B6579636F6465293B --     asdf_put_code(keycode);
, 0x20202020696620286C6173745F6B657920213D206B6579636F646529207B --     if (last_key != keycode) {
, 0x2020202020206C6173745F6B6579203D206B6579636F64653B --       last_key = keycode;
, 0x202020202020617364665F7265706561745F72657365745F636F756E7428293B --       asdf_repeat_reset_count();
, 0x202020207D --     }
, 0x20207D --   }
, 0x7D -- }
, 0x0 -- 
, 0x2F2F2050524F4345445552453A20617364665F646561637469766174655F6B6579 -- // PROCEDURE: asdf_deactivate_key
, 0x2F2F20494E505554533A206B6579636F6465202D2074686520636F646520666F722061206B6579207468617420686173206265656E2072656C6561736564 -- // INPUTS: keycode - the code for a key that has been released
, 0x2F2F204F5554505554533A206E6F6E65 -- // OUTPUTS: none
, 0x2F2F -- //
, 0x2F2F204445534352495054494F4E3A2043616C6C6564207768656E2061206B657920686173206265656E2072656C65617365642E20496620746865206B657920697320626F756E6420746F2061 -- // DESCRIPTION: Called when a key has been released. If the key is bound to a
, 0x2F2F2076616C75652C206F7574707574207468652076616C75652E20496620746865206B657920697320626F756E6420746F20616E20616374696F6E2C2063616C6C207468652064656163746976617465 -- // value, output the value. If the key is bound to an action, call the deactivate
, 0x2F2F20616374696F6E2068616E646C6572207769746820746865206B6579636F64652E -- // action handler with the keycode.
, 0x2F2F -- //
, 0x2F2F205349444520454646454354533A2049662074686520636F646520697320612076616C75652C20746865206C617374206B65792069732073657420746F20414354494F4E5F4E4F5448494E472C -- // SIDE EFFECTS: If the code is a value, the last key is set to ACTION_NOTHING,
, 0x2F2F207768696368206973206566666563746976656C792061204E4F502E2049662074686520636F646520697320616E20616374696F6E20636F64652C20746865206465616374697661746520616374696F6E -- // which is effectively a NOP. If the code is an action code, the deactivate action
, 0x2F2F20646973706174636865722070726F6475636573207369646520656666656374732E2053656520617364665F646561637469766174655F616374696F6E2829 -- // dispatcher produces side effects. See asdf_deactivate_action()
, 0x2F2F -- //
, 0x2F2F2053434F50453A2070726976617465 -- // SCOPE: private
, 0x2F2F -- //
, 0x2F2F20434F4D504C45584954593A2033 -- // COMPLEXITY: 3
, 0x2F2F -- //
, 0x73746174696320766F696420617364665F646561637469766174655F6B657928617364665F6B6579636F64655F74206B6579636F646529 -- static void asdf_deactivate_key(asdf_keycode_t keycode)
, 0x7B -- {
, 0x2020696620286B6579636F6465203E20415344465F414354494F4E29207B --   if (keycode > ASDF_ACTION) {
, 0x20202020617364665F646561637469766174655F616374696F6E2828616374696F6E5F7429206B6579636F6465293B --     asdf_deactivate_action((action_t) keycode);
, 0x20207D --   }
, 0x2020656C7365207B --   else {
, 0x202020202F2F206465616374697661746520612072656C6561736564206B65797072657373 --     // deactivate a released keypress
, 0x20202020696620286C6173745F6B6579203D3D206B6579636F646529207B --     if (last_key == keycode) {
, 0x2020202020206C6173745F6B6579203D20414354494F4E5F4E4F5448494E473B --       last_key = ACTION_NOTHING;
, 0x202020207D --     }
, 0x20207D --   }
, 0x7D -- }
, 0x0 -- 
, 0x2F2F2050524F4345445552453A20617364665F68616E646C655F6B65795F70726573735F6F725F72656C65617365 -- // PROCEDURE: asdf_handle_key_press_or_release
, 0x2F2F20494E505554533A20726F772C20636F6C3A2074686520726F7720616E6420636F6C756D6E206E756D626572206F6620746865206B6579207468617420686173206368616E6765642E -- // INPUTS: row, col: the row and column number of the key that has changed.
, 0x2F2F204F5554505554533A206E6F6E65 -- // OUTPUTS: none
, 0x2F2F -- //
, 0x2F2F204445534352495054494F4E3A20476976656E206120726F7720616E6420636F6C756D6E206F662061206B6579207468617420686173206368616E6765643A -- // DESCRIPTION: Given a row and column of a key that has changed:
, 0x2F2F -- //
, 0x2F2F203129204465626F756E636520746865206B65792062792064656372656D656E74696E672061206465626F756E63652074696D65722E204966206E6F7420796574206465626F756E6365642C -- // 1) Debounce the key by decrementing a debounce timer. If not yet debounced,
, 0x2F2F2020202072657475726E2E -- //    return.
, 0x2F2F203229205768656E20746865206B6579206973206465626F756E6365642C20696620746865206B657920697320707265737365642C207468656E2063616C6C207468652061637469766174696F6E -- // 2) When the key is debounced, if the key is pressed, then call the activation
, 0x2F2F2020202066756E6374696F6E206173736F636961746564207769746820746865206B65792E204F74686572776973652C20696620746865206B65792069732072656C65617365642C2063616C6C -- //    function associated with the key. Otherwise, if the key is released, call
, 0x2F2F2020202074686520646561637469766174696F6E2066756E6374696F6E20666F7220746865206B65792E -- //    the deactivation function for the key.
, 0x2F2F -- //
, 0x2F2F205349444520454646454354533A202D204D6F646966696573206465626F756E636520636F756E74657220666F722074686520726F7720616E6420636F6C756D6E -- // SIDE EFFECTS: - Modifies debounce counter for the row and column
, 0x2F2F2020202020202020202020202020202D204166746572206B6579206465626F756E6365732C206D6F64696669657320746865207461626C65206F6620737461626C65206B657920737461746573 -- //               - After key debounces, modifies the table of stable key states
, 0x2F2F2020202020202020202020202020202D2041637469766174652F646561637469766174652066756E6374696F6E73206861766520736964652065666665637473 -- //               - Activate/deactivate functions have side effects
, 0x2F2F -- //
, 0x2F2F204E4F5445533A -- // NOTES:
, 0x2F2F -- //
, 0x2F2F2053434F50453A2070726976617465 -- // SCOPE: private
, 0x2F2F -- //
, 0x2F2F20434F4D504C45584954593A2033 -- // COMPLEXITY: 3
, 0x2F2F -- //
, 0x73746174696320766F696420617364665F68616E646C655F6B65795F70726573735F6F725F72656C656173652875696E74385F7420726F772C2075696E74385F7420636F6C2C2075696E74385F74206B65795F7761735F7072657373656429 -- static void asdf_handle_key_press_or_release(uint8_t row, uint8_t col, uint8_t key_was_pressed)
, 0x7B -- {
, 0x202075696E74385F74202A6465626F756E63655F636F756E74203D20266465626F756E63655F636F756E746572735B726F775D5B636F6C5D3B --   uint8_t *debounce_count = &debounce_counters[row][col];
, 0x0 -- 
, 0x20206966202821282D2D282A6465626F756E63655F636F756E74292929207B --   if (!(--(*debounce_count))) {
, 0x0 -- 
, 0x202020202F2F206465626F756E63652074696D6564206F75742E20536574206E657720737461626C6520737461746520616E64206163746976617465206F72 --     // debounce timed out. Set new stable state and activate or
, 0x0 -- 
, 0x202020202F2F2064656163746976617465206B65792E --     // deactivate key.
, 0x202020202A6465626F756E63655F636F756E74203D20415344465F4445424F554E43455F54494D455F4D533B --     *debounce_count = ASDF_DEBOUNCE_TIME_MS;
, 0x20202020696620286B65795F7761735F7072657373656429207B --     if (key_was_pressed) {
, 0x2020202020206C6173745F737461626C655F6B65795F73746174655B726F775D207C3D2031203C3C20636F6C3B --       last_stable_key_state[row] |= 1 << col;
, 0x202020202020617364665F61637469766174655F6B657928617364665F6C6F6F6B75705F6B6579636F646528726F772C20636F6C29293B --       asdf_activate_key(asdf_lookup_keycode(row, col));
, 0x202020207D --     }
, 0x20202020656C7365207B --     else {
, 0x2020202020202F2F206B6579207761732072656C6561736564 --       // key was released
, 0x2020202020206C6173745F737461626C655F6B65795F73746174655B726F775D20263D207E2831203C3C20636F6C293B --       last_stable_key_state[row] &= ~(1 << col);
, 0x202020202020617364665F646561637469766174655F6B657928617364665F6C6F6F6B75705F6B6579636F646528726F772C20636F6C29293B --       asdf_deactivate_key(asdf_lookup_keycode(row, col));
, 0x202020207D --     }
, 0x20207D --   }
, 0x7D -- }
, 0x0 -- 
, 0x2F2F2050524F4345445552453A20617364665F68616E646C655F6B65795F68656C645F70726573736564 -- // PROCEDURE: asdf_handle_key_held_pressed
, 0x2F2F20494E505554533A20726F772C20636F6C3A2054686520726F7720616E6420636F6C756D6E206F662061206B65792074686174206973206265696E672068656C6420646F776E -- // INPUTS: row, col: The row and column of a key that is being held down
, 0x2F2F204F5554505554533A206E6F6E65 -- // OUTPUTS: none
, 0x2F2F -- //
, 0x2F2F204445534352495054494F4E3A20476976656E206120726F7720616E6420636F6C756D6E206F662061206B6579207468617420686173206265656E206465626F756E63656420616E64 -- // DESCRIPTION: Given a row and column of a key that has been debounced and
, 0x2F2F20636F6E74696E75657320746F20626520707265737365643A -- // continues to be pressed:
, 0x2F2F2031292044657465726D696E65206966207468697320697320746865206C617374206B657920707265737365642E -- // 1) Determine if this is the last key pressed.
, 0x2F2F203229204966206974277320746865206D6F737420726563656E74206B65792C207468656E20636865636B20746F2073656520696620697427732074696D6520746F2072657065617420746865206B657920636F64652E -- // 2) If it's the most recent key, then check to see if it's time to repeat the key code.
, 0x2F2F20332920496620697427732074696D6520746F207265706561742C207468656E20646F207468652072657065617420616E6420726573657420746865207265706561742074696D65722E -- // 3) If it's time to repeat, then do the repeat and reset the repeat timer.
, 0x2F2F -- //
, 0x2F2F205349444520454646454354533A -- // SIDE EFFECTS:
, 0x2F2F202D20436175736573207265706561742074696D657220746F207469636B2C20616E64206D617920726573657420746865207265706561742074696D65722E -- // - Causes repeat timer to tick, and may reset the repeat timer.
, 0x2F2F202D2061637469766174655F6B657928292077696C6C2073656E642061206B657920636F64652E -- // - activate_key() will send a key code.
, 0x2F2F -- //
, 0x2F2F204E4F5445533A206C6173745F6B657920697320616C776179732061206B657920636F64652C206E6576657220616E20616374696F6E2066756E6374696F6E2C20736F206F6E6C792076616C6964 -- // NOTES: last_key is always a key code, never an action function, so only valid
, 0x2F2F206B657920636F6465732077696C6C2062652072657065617465642E -- // key codes will be repeated.
, 0x2F2F -- //
, 0x2F2F2053434F50453A2070726976617465 -- // SCOPE: private
, 0x2F2F -- //
, 0x2F2F20434F4D504C45584954593A2033 -- // COMPLEXITY: 3
, 0x2F2F -- //
, 0x73746174696320766F696420617364665F68616E646C655F6B65795F68656C645F707265737365642875696E74385F7420726F772C2075696E74385F7420636F6C29 -- static void asdf_handle_key_held_pressed(uint8_t row, uint8_t col)
, 0x7B -- {
, 0x202069662028617364665F6C6F6F6B75705F6B6579636F646528726F772C20636F6C29203D3D206C6173745F6B657929207B --   if (asdf_lookup_keycode(row, col) == last_key) {
, 0x0 -- 
, 0x202020202F2F206966206C617374206465626F756E63656420636F64652D70726F647563696E67206B6579206973207374696C6C20707265737365642C2068616E646C6520726570656174 --     // if last debounced code-producing key is still pressed, handle repeat
, 0x2020202069662028617364665F726570656174282929207B --     if (asdf_repeat()) {
, 0x202020202020617364665F61637469766174655F6B6579286C6173745F6B6579293B --       asdf_activate_key(last_key);
, 0x202020207D --     }
, 0x20207D --   }
, 0x7D -- }
, 0x0 -- 
, 0x2F2F2050524F4345445552453A20617364665F6B65797363616E -- // PROCEDURE: asdf_keyscan
, 0x2F2F20494E505554533A206E6F6E65 -- // INPUTS: none
, 0x2F2F204F5554505554533A206E6F6E65 -- // OUTPUTS: none
, 0x2F2F -- //
, 0x2F2F204445534352495054494F4E3A205363616E7320746865206B6579206D61747269782E20466F72206561636820726F772C20726561642074686520636F6C756D6E7320616E6420636F6D70617265 -- // DESCRIPTION: Scans the key matrix. For each row, read the columns and compare
, 0x2F2F2077697468206C61737420737461626C652073746174652E20466F722065616368206368616E676564206B65792C2063616C6C2061206B65792D6368616E67652068616E646C6572 -- // with last stable state. For each changed key, call a key-change handler
, 0x2F2F2066756E6374696F6E2E20466F72206561636820737461626C652070726573736564206B65792C2063616C6C20612022636F6E74696E756564207072657373222068616E646C6572 -- // function. For each stable pressed key, call a "continued press" handler
, 0x2F2F2066756E6374696F6E2E -- // function.
, 0x2F2F -- //
, 0x2F2F205349444520454646454354533A -- // SIDE EFFECTS:
, 0x2F2F -- //
, 0x2F2F204E4F5445533A20312920546865206B6579626F6172642073746174652069732073746F72656420617320616E206172726179206F6620776F7264732C2077697468206F6E6520776F7264 -- // NOTES: 1) The keyboard state is stored as an array of words, with one word
, 0x2F2F202020202020202020202070657220726F772C20616E6420656163682062697420696E206120776F726420726570726573656E74696E67206F6E65206B657920696E2074686520726F772E -- //           per row, and each bit in a word representing one key in the row.
, 0x2F2F -- //
, 0x2F2F20202020202020203229205768696C652069742069732074656D7074696E6720746F2075736520626974206861636B7320746F2072656475636520746865206E756D626572206F66 -- //        2) While it is tempting to use bit hacks to reduce the number of
, 0x2F2F20202020202020202020206379636C6573207468726F7567682074686520696E6E6572206C6F6F702C20492068617665206F7074656420746F206A757374206C6F6F70206F76657220616C6C -- //           cycles through the inner loop, I have opted to just loop over all
, 0x2F2F2020202020202020202020746865206269747320286173206C6F6E672061732074686572652061726520736F6D65206368616E676564206F722070726573736564206B657973292E20466F72 -- //           the bits (as long as there are some changed or pressed keys). For
, 0x2F2F2020202020202020202020616E20382D62697420776F72642C2062697420747269636B7320646F6E27742064656C69766572206D75636820706572666F726D616E636520626F6F73742C -- //           an 8-bit word, bit tricks don't deliver much performance boost,
, 0x2F2F202020202020202020202062757420646F20646563726561736520636F646520636C61726974792E -- //           but do decrease code clarity.
, 0x2F2F -- //
, 0x2F2F20434F4D504C45584954593A2035 -- // COMPLEXITY: 5
, 0x2F2F -- //
, 0x766F696420617364665F6B65797363616E28766F696429 -- void asdf_keyscan(void)
, 0x7B -- {
, 0x2020617364665F636F6C735F7420282A726F775F726561646572292875696E74385F7429203D2028617364665F636F6C735F74282A292875696E74385F74292920617364665F686F6F6B5F67657428415344465F484F4F4B5F524F575F5343414E4E4552293B --   asdf_cols_t (*row_reader)(uint8_t) = (asdf_cols_t(*)(uint8_t)) asdf_hook_get(ASDF_HOOK_ROW_SCANNER);
, 0x0 -- 
, 0x2020617364665F686F6F6B5F6578656375746528415344465F484F4F4B5F454143485F5343414E293B --   asdf_hook_execute(ASDF_HOOK_EACH_SCAN);
, 0x2020666F72202875696E74385F7420726F77203D20303B20726F77203C20617364665F6B65796D6170735F6E756D5F726F777328293B20726F772B2B29207B --   for (uint8_t row = 0; row < asdf_keymaps_num_rows(); row++) {
, 0x20202020617364665F636F6C735F7420726F775F6B65795F7374617465203D20282A726F775F7265616465722928726F77293B --     asdf_cols_t row_key_state = (*row_reader)(row);
, 0x0 -- 
, 0x20202020617364665F636F6C735F74206368616E676564203D20726F775F6B65795F7374617465205E206C6173745F737461626C655F6B65795F73746174655B726F775D3B --     asdf_cols_t changed = row_key_state ^ last_stable_key_state[row];
, 0x0 -- 
, 0x202020202F2F206C6F6F70206F76657220746865206269747320756E74696C20616C6C206368616E676564206F722070726573736564206B65797320696E2074686520726F77206172652068616E646C65642E --     // loop over the bits until all changed or pressed keys in the row are handled.
, 0x20202020666F72202875696E74385F7420636F6C203D20303B202F2A286368616E676564207C7C20726F775F6B65795F737461746529202626202A2F636F6C203C20617364665F6B65796D6170735F6E756D5F636F6C7328293B20636F6C2B2B29207B --     for (uint8_t col = 0; /*(changed || row_key_state) && */col < asdf_keymaps_num_cols(); col++) {
, 0x202020202020696620286368616E6765642026203129207B --       if (changed & 1) {
, 0x20202020202020202F2F206B657920737461746520697320646966666572656E742066726F6D206C61737420737461626C65207374617465 --         // key state is different from last stable state
, 0x2020202020202020617364665F68616E646C655F6B65795F70726573735F6F725F72656C6561736528726F772C20636F6C2C20726F775F6B65795F737461746520262031293B --         asdf_handle_key_press_or_release(row, col, row_key_state & 1);
, 0x2020202020207D --       }
, 0x202020202020656C73652069662028726F775F6B65795F73746174652026203129207B --       else if (row_key_state & 1) {
, 0x2020202020202020617364665F68616E646C655F6B65795F68656C645F7072657373656428726F772C20636F6C293B --         asdf_handle_key_held_pressed(row, col);
, 0x2020202020207D --       }
, 0x2020202020206368616E676564203E3E3D20313B --       changed >>= 1;
, 0x202020202020726F775F6B65795F7374617465203E3E3D20313B --       row_key_state >>= 1;
, 0x202020207D --     }
, 0x20207D --   }
, 0x7D -- }
, 0x0 -- 
, 0x2F2F2050524F4345445552453A20617364665F6170706C795F616C6C5F616374696F6E73 -- // PROCEDURE: asdf_apply_all_actions
, 0x2F2F20494E505554533A206E6F6E65 -- // INPUTS: none
, 0x2F2F204F5554505554533A206E6F6E65 -- // OUTPUTS: none
, 0x2F2F -- //
, 0x2F2F204445534352495054494F4E3A205363616E7320746865206B6579206D61747269782E20466F72206561636820726F772C20726561642074686520636F6C756D6E732C20616E6420666F72 -- // DESCRIPTION: Scans the key matrix. For each row, read the columns, and for
, 0x2F2F2065616368206269742C20696620616E20616374696F6E206973207370656369666965642C207468656E2063616C6C20746865206163746976617465206F722064656163746976617465 -- // each bit, if an action is specified, then call the activate or deactivate
, 0x2F2F2066756E6374696F6E20666F72207468617420616374696F6E2C206261736564206F6E20746865206B65792073746174652E2054686973206973206E656365737361727920746F20656E73757265 -- // function for that action, based on the key state. This is necessary to ensure
, 0x2F2F207468617420636F6E66696775726174696F6E2073657474696E67732C20737563682061732044495020737769746368657320616E64206A756D7065722073657474696E67732C20617265 -- // that configuration settings, such as DIP switches and jumper settings, are
, 0x2F2F2070726F7065726C792068616E646C6564207768656E2061206B65796D6170206973206368616E6765642E -- // properly handled when a keymap is changed.
, 0x0 -- 
, 0x2F2F205349444520454646454354533A20536565204445534352495054494F4E -- // SIDE EFFECTS: See DESCRIPTION
, 0x2F2F -- //
, 0x2F2F20434F4D504C45584954593A2035 -- // COMPLEXITY: 5
, 0x2F2F -- //
, 0x2F2F2053434F50453A2070726976617465 -- // SCOPE: private
, 0x2F2F -- //
, 0x766F696420617364665F6170706C795F616C6C5F616374696F6E7328766F696429 -- void asdf_apply_all_actions(void)
, 0x7B -- {
, 0x2020617364665F636F6C735F7420282A726F775F726561646572292875696E74385F7429203D2028617364665F636F6C735F74282A292875696E74385F74292920617364665F686F6F6B5F67657428415344465F484F4F4B5F524F575F5343414E4E4552293B --   asdf_cols_t (*row_reader)(uint8_t) = (asdf_cols_t(*)(uint8_t)) asdf_hook_get(ASDF_HOOK_ROW_SCANNER);
, 0x0 -- 
, 0x2020666F72202875696E74385F7420726F77203D20303B20726F77203C20617364665F6B65796D6170735F6E756D5F726F777328293B20726F772B2B29207B --   for (uint8_t row = 0; row < asdf_keymaps_num_rows(); row++) {
, 0x20202020617364665F636F6C735F7420726F775F6B65795F7374617465203D20282A726F775F7265616465722928726F77293B --     asdf_cols_t row_key_state = (*row_reader)(row);
, 0x0 -- 
, 0x202020202F2F20546F2061766F696420646F75626C6520616374696F6E732C2061737369676E206C61737420737461626C65206B657920737461746520746F2063757272656E742073746174652E --     // To avoid double actions, assign last stable key state to current state.
, 0x202020206C6173745F737461626C655F6B65795F73746174655B726F775D203D20726F775F6B65795F73746174653B --     last_stable_key_state[row] = row_key_state;
, 0x0 -- 
, 0x202020202F2F206C6F6F70206F76657220746865206269747320756E74696C20616C6C206368616E676564206F722070726573736564206B65797320696E2074686520726F77206172652068616E646C65642E --     // loop over the bits until all changed or pressed keys in the row are handled.
, 0x20202020666F72202875696E74385F7420636F6C203D20303B20636F6C203C20617364665F6B65796D6170735F6E756D5F636F6C7328293B20636F6C2B2B29207B --     for (uint8_t col = 0; col < asdf_keymaps_num_cols(); col++) {
, 0x202020202020617364665F6B6579636F64655F7420636F6465203D20617364665F6C6F6F6B75705F6B6579636F646528726F772C20636F6C293B --       asdf_keycode_t code = asdf_lookup_keycode(row, col);
, 0x20202020202069662028726F775F6B65795F73746174652026203129207B --       if (row_key_state & 1) {
, 0x2020202020202020617364665F61637469766174655F616374696F6E28636F6465293B --         asdf_activate_action(code);
, 0x2020202020207D20656C7365207B --       } else {
, 0x2020202020202020617364665F646561637469766174655F616374696F6E28636F6465293B --         asdf_deactivate_action(code);
, 0x2020202020207D --       }
, 0x202020202020726F775F6B65795F7374617465203E3E3D20313B --       row_key_state >>= 1;
, 0x202020207D --     }
, 0x20207D --   }
, 0x7D -- }
, 0x0 -- 
, 0x0 -- 
, 0x2F2F2050524F4345445552453A20617364665F696E6974 -- // PROCEDURE: asdf_init
, 0x2F2F20494E505554533A206E6F6E65 -- // INPUTS: none
, 0x2F2F204F5554505554533A206E6F6E65 -- // OUTPUTS: none
, 0x2F2F -- //
, 0x2F2F204445534352495054494F4E3A205265736572766520616E206F75747075742062756666657220746F20686F6C64206B6579636F64657320746F2062652073656E742C20616E64 -- // DESCRIPTION: Reserve an output buffer to hold keycodes to be sent, and
, 0x2F2F20696E697469616C697A6520746865206B6579626F61726420737461746520616E64206465626F756E636520636F756E74657273 -- // initialize the keyboard state and debounce counters
, 0x2F2F -- //
, 0x2F2F205349444520454646454354533A20736565204445534352495054494F4E -- // SIDE EFFECTS: see DESCRIPTION
, 0x2F2F -- //
, 0x2F2F2053434F50453A207075626C6963 -- // SCOPE: public
, 0x2F2F -- //
, 0x2F2F20434F4D504C45584954593A2033 -- // COMPLEXITY: 3
, 0x2F2F -- //
, 0x766F696420617364665F696E697428766F696429 -- void asdf_init(void)
, 0x7B -- {
, 0x0 -- 
, 0x20206C6173745F6B6579203D20414354494F4E5F4E4F5448494E473B --   last_key = ACTION_NOTHING;
, 0x0 -- 
, 0x2020617364665F6275666665725F696E697428293B20202F2F20696E697469616C697A65207468652062756666657273 --   asdf_buffer_init();  // initialize the buffers
, 0x2020617364665F7265706561745F696E697428293B20202F2F20696E697469616C697A65207468652072657065617420636F756E74657273 --   asdf_repeat_init();  // initialize the repeat counters
, 0x2020617364665F6B65796D6170735F696E697428293B202F2F20696E697469616C697A65206B65796D6170732E205468697320616C736F20696E697469616C697A657320746865206D6F646966696572 --   asdf_keymaps_init(); // initialize keymaps. This also initializes the modifier
, 0x20202020202020202020202020202020202020202020202F2F206B6579207374617465732E --                        // key states.
, 0x20202F2F207265736572766520612062756666657220666F7220746865204153434949206F75747075743A --   // reserve a buffer for the ASCII output:
, 0x2020617364665F6B6579636F64655F627566666572203D20617364665F6275666665725F6E657728415344465F4B4559434F44455F4255464645525F53495A45293B --   asdf_keycode_buffer = asdf_buffer_new(ASDF_KEYCODE_BUFFER_SIZE);
, 0x2020617364665F6D6573736167655F627566666572203D20617364665F6275666665725F6E657728415344465F4D4553534147455F4255464645525F53495A45293B --   asdf_message_buffer = asdf_buffer_new(ASDF_MESSAGE_BUFFER_SIZE);
, 0x0 -- 
, 0x20202F2F20496E697469616C697A6520616C6C20746865206B65797320746F2074686520756E707265737365642073746174652C20616E6420696E697469616C7A6520746865206465626F756E6365 --   // Initialize all the keys to the unpressed state, and initialze the debounce
, 0x20202F2F20636F756E746572732E --   // counters.
, 0x2020666F72202875696E74385F7420726F77203D20303B20726F77203C20415344465F4D41585F524F57533B20726F772B2B29207B --   for (uint8_t row = 0; row < ASDF_MAX_ROWS; row++) {
, 0x202020206C6173745F737461626C655F6B65795F73746174655B726F775D203D20303B --     last_stable_key_state[row] = 0;
, 0x20202020666F72202875696E74385F7420636F6C203D20303B20636F6C203C20415344465F4D41585F434F4C533B20636F6C2B2B29207B --     for (uint8_t col = 0; col < ASDF_MAX_COLS; col++) {
, 0x2020202020206465626F756E63655F636F756E746572735B726F775D5B636F6C5D203D20415344465F4445424F554E43455F54494D455F4D533B --       debounce_counters[row][col] = ASDF_DEBOUNCE_TIME_MS;
, 0x202020207D --     }
, 0x20207D --   }
, 0x7D -- }
, 0x0 -- 
, 0x0 -- 
, 0x2F2F2D2D2D2D2D2D2D7C2D2D2D2D2D2D2D2D2D7C2D2D2D2D2D2D2D2D2D2B2D2D2D2D2D2D2D2D2D2B2D2D2D2D2D2D2D2D2D2B2D2D2D2D2D2D2D2D2D2B2D2D2D2D2D2D2D2D2D2B2D2D2D2D2D2D2D2D2D2B -- //-------|---------|---------+---------+---------+---------+---------+---------+
, 0x2F2F2041626F7665206C696E6520697320383020636F6C756D6E732C20616E642073686F756C6420646973706C617920636F6D706C6574656C7920696E2074686520656469746F722E -- // Above line is 80 columns, and should display completely in the editor.
  ]

/-- /repo/firmware/asdf/src/main.c, lines 1-84. -/
def main_c : List Nat := [
  0x2F2F202D2A2D206D6F64653A20433B207461622D77696474683A2032203B20696E64656E742D746162732D6D6F64653A206E696C202D2A2D -- // -*- mode: C; tab-width: 2 ; indent-tabs-mode: nil -*-
, 0x2F2F -- //
, 0x2F2F20556E666966696564204B6579626F6172642050726F6A656374 -- // Unfified Keyboard Project
, 0x2F2F2041534446206B6579626F617264206669726D77617265 -- // ASDF keyboard firmware
, 0x2F2F -- //
, 0x2F2F206D61696E2E63 -- // main.c
, 0x2F2F -- //
, 0x2F2F206D61696E2070726F6772616D206C6F6F702E2020496E697469616C697A652068617264776172652E20205363686564756C65206B6579207363616E7320616E6420692F6F2E -- // main program loop.  Initialize hardware.  Schedule key scans and i/o.
, 0x2F2F -- //
, 0x2F2F20436F7079726967687420323031392044617669642046656E796573 -- // Copyright 2019 David Fenyes
, 0x2F2F -- //
, 0x2F2F20546869732070726F6772616D206973206672656520736F6674776172653A20796F752063616E2072656469737472696275746520697420616E642F6F72206D6F6469667920697420756E646572 -- // This program is free software: you can redistribute it and/or modify it under
, 0x2F2F20746865207465726D73206F662074686520474E552047656E6572616C205075626C6963204C6963656E7365206173207075626C697368656420627920746865204672656520536F667477617265 -- // the terms of the GNU General Public License as published by the Free Software
, 0x2F2F20466F756E646174696F6E2C206569746865722076657273696F6E2033206F6620746865204C6963656E73652C206F722028617420796F7572206F7074696F6E2920616E79206C61746572 -- // Foundation, either version 3 of the License, or (at your option) any later
, 0x2F2F2076657273696F6E2E -- // version.
, 0x2F2F -- //
, 0x2F2F20546869732070726F6772616D20697320646973747269627574656420696E2074686520686F706520746861742069742077696C6C2062652075736566756C2C2062757420574954484F5554 -- // This program is distributed in the hope that it will be useful, but WITHOUT
, 0x2F2F20414E592057415252414E54593B20776974686F7574206576656E2074686520696D706C6965642077617272616E7479206F66204D45524348414E544142494C495459206F72204649544E455353 -- // ANY WARRANTY; without even the implied warranty of MERCHANTABILITY or FITNESS
, 0x2F2F20464F52204120504152544943554C415220505552504F53452E205365652074686520474E552047656E6572616C205075626C6963204C6963656E736520666F72206D6F7265 -- // FOR A PARTICULAR PURPOSE. See the GNU General Public License for more
, 0x2F2F2064657461696C732E -- // details.
, 0x2F2F -- //
, 0x2F2F20596F752073686F756C642068617665207265636569766564206120636F7079206F662074686520474E552047656E6572616C205075626C6963204C6963656E736520616C6F6E672077697468 -- // You should have received a copy of the GNU General Public License along with
, 0x2F2F20746869732070726F6772616D2E204966206E6F742C20736565203C68747470733A2F2F7777772E676E752E6F72672F6C6963656E7365732F3E2E -- // this program. If not, see <https://www.gnu.org/licenses/>.
, 0x0 -- 
, 0x23696E636C756465203C737464696E742E683E -- #include <stdint.h>
, 0x23696E636C7564652022617364662E6822 -- #include "asdf.h"
, 0x23696E636C7564652022617364665F617263682E6822 -- #include "asdf_arch.h"
, 0x23696E636C7564652022617364665F6275666665722E6822 -- #include "asdf_buffer.h"
, 0x23696E636C7564652022617364665F686F6F6B2E6822 -- #include "asdf_hook.h"
, 0x0 -- 
, 0x2F2F2050524F4345445552453A206D61696E -- // PROCEDURE: main
, 0x2F2F20494E505554533A206E6F6E65 -- // INPUTS: none
, 0x2F2F204F5554505554533A206E6F6E65 -- // OUTPUTS: none
, 0x2F2F -- //
, 0x2F2F204445534352495054494F4E3A20496E697469616C697A652068617264776172652C205363686564756C65206B6579207363616E7320616E6420692F6F -- // DESCRIPTION: Initialize hardware, Schedule key scans and i/o
, 0x2F2F -- //
, 0x2F2F205349444520454646454354533A205365652061626F7665 -- // SIDE EFFECTS: See above
, 0x2F2F -- //
, 0x2F2F204E4F5445533A205468697320636F6465206A75737420696E697469616C697A6573207468652068617264776172652C20616E64207468656E206C6F6F70732E20546865206C6F6F70 -- // NOTES: This code just initializes the hardware, and then loops. The loop
, 0x2F2F20696E636C756465733A -- // includes:
, 0x2F2F -- //
, 0x2F2F20202020202D20436865636B2065766572792031206D7320286F7220776861746576657220746865207469636B2069732073657420746F292C2063616C6C7320746865206B6579626F617264 -- //     - Check every 1 ms (or whatever the tick is set to), calls the keyboard
, 0x2F2F202020202020207363616E20726F7574696E652E -- //       scan routine.
, 0x2F2F -- //
, 0x2F2F20202020202D20436865636B2065766572792070617373207468726F75676820696620616E7920636861726163746572732061726520627566666572656420746F2073656E642E20496620736F2C -- //     - Check every pass through if any characters are buffered to send. If so,
, 0x2F2F2020202020202073656E64207468656D2E -- //       send them.
, 0x2F2F -- //
, 0x2F2F2054686973206973206E6F7420746865206D6F737420656666696369656E7420757365206F66207468652068617264776172652C2062757420697320616E206578616D706C65206F6620686F77 -- // This is not the most efficient use of the hardware, but is an example of how
, 0x2F2F20746865206B6579626F617264207363616E6E657220697320757365642E204F6620636F757273652C2074686973206C6F6F702063616E206265207265706C61636564207769746820616E -- // the keyboard scanner is used. Of course, this loop can be replaced with an
, 0x2F2F2052544F532070726F636573732061732077656C6C2E20496620616E2052544F5320697320757365642C207468656E20617364665F6275666665722063616E206265206D6F646966696564 -- // RTOS process as well. If an RTOS is used, then asdf_buffer can be modified
, 0x2F2F20746F207573652052544F53206D6573736167652071756575657320696E7374656164206F6620616E20696E7465726E616C206275666665722C206F7220746F206B65657020746865 -- // to use RTOS message queues instead of an internal buffer, or to keep the
, 0x2F2F20696E7465726E616C2062756666657220616E6420757365206120636F756E74696E672073656D6170686F726520746F20696E646963617465206368617261637465727320696E20746865 -- // internal buffer and use a counting semaphore to indicate characters in the
, 0x2F2F206275666665722E -- // buffer.
, 0x2F2F -- //
, 0x2F2F20496620796F752061726520616464696E67207370656369616C2066756E6374696F6E73207768656E207573696E6720616E2052544F532C206D616B65207375726520746865 -- // If you are adding special functions when using an RTOS, make sure the
, 0x2F2F2066756E6374696F6E7320646F206E6F7420626C6F636B2C206F7220646F20616E7920686561767920636F6D7075746174696F6E2E205261746865722C20746865792073686F756C64206265 -- // functions do not block, or do any heavy computation. Rather, they should be
, 0x2F2F20736D616C6C20616E642070617373206D6573736167657320746F20617070726F7072696174652070726F63657373657320746F2068616E646C652074686520616374697669746965732E -- // small and pass messages to appropriate processes to handle the activities.
, 0x2F2F -- //
, 0x2F2F20434F4D504C45584954593A2032 -- // COMPLEXITY: 2
, 0x2F2F -- //
, 0x696E74206D61696E28766F696429 -- int main(void)
, 0x7B -- {
, 0x20202F2F20696E697469616C697A6520746865206B6579626F617264206C6F6769633A --   // initialize the keyboard logic:
, 0x2020617364665F696E697428293B --   asdf_init();
, 0x0 -- 
, 0x20207768696C6520283129207B --   while (1) {
, 0x0 -- 
, 0x2020202069662028617364665F617263685F7469636B282929207B --     if (asdf_arch_tick()) {
, 0x202020202020617364665F6B6579636F64655F7420636F6465203D20617364665F6E6578745F636F646528293B --       asdf_keycode_t code = asdf_next_code();
, 0x0 -- 
, 0x20202020202069662028636F6465203C20415344465F494E56414C49445F434F444529207B --       if (code < ASDF_INVALID_CODE) {
, 0x202020202020202020202F2F205468697320697320696E7369646520746865206C6F6F70206265636175736520746865206F75747075742066756E6374696F6E206D6179206368616E6765 --           // This is inside the loop because the output function may change
, 0x20202020202020202020766F696420282A6F75747075745F66756E6374696F6E2928617364665F6B6579636F64655F7429203D --           void (*output_function)(asdf_keycode_t) =
, 0x2020202020202020202028766F696420282A2928617364665F6B6579636F64655F74292920617364665F686F6F6B5F67657428415344465F484F4F4B5F4F5554505554293B --           (void (*)(asdf_keycode_t)) asdf_hook_get(ASDF_HOOK_OUTPUT);
, 0x20202020202020202020282A6F75747075745F66756E6374696F6E2928636F6465293B --           (*output_function)(code);
, 0x2020202020207D --       }
, 0x202020202020617364665F6B65797363616E28293B --       asdf_keyscan();
, 0x202020207D --     }
, 0x20207D --   }
, 0x7D -- }
, 0x0 -- 
, 0x0 -- 
, 0x2F2F2D2D2D2D2D2D2D7C2D2D2D2D2D2D2D2D2D7C2D2D2D2D2D2D2D2D2D2B2D2D2D2D2D2D2D2D2D2B2D2D2D2D2D2D2D2D2D2B2D2D2D2D2D2D2D2D2D2B2D2D2D2D2D2D2D2D2D2B2D2D2D2D2D2D2D2D2D2B -- //-------|---------|---------+---------+---------+---------+---------+---------+
, 0x2F2F2041626F7665206C696E6520697320383020636F6C756D6E732C20616E642073686F756C6420646973706C617920636F6D706C6574656C7920696E2074686520656469746F722E -- // Above line is 80 columns, and should display completely in the editor.
  ]

/-- /repo/firmware/asdf/src/asdf_keymap_setup.c.in, lines 1-92. -/
def asdf_keymap_setup_c_in : List Nat := [
  0x2F2F202D2A2D206D6F64653A20433B207461622D77696474683A2032203B20696E64656E742D746162732D6D6F64653A206E696C202D2A2D20 -- // -*- mode: C; tab-width: 2 ; indent-tabs-mode: nil -*- 
, 0x2F2F -- //
, 0x2F2F20556E6966696564204B6579626F6172642050726F6A656374 -- // Unified Keyboard Project
, 0x2F2F2041534446206B6579626F617264206669726D77617265 -- // ASDF keyboard firmware
, 0x2F2F -- //
, 0x2F2F20617364665F6B65796D61705F7461626C652E63 -- // asdf_keymap_table.c
, 0x2F2F -- //
, 0x2F2F20696E697469616C697A65206B65796D61702073657475702066756E6374696F6E207461626C65 -- // initialize keymap setup function table
, 0x2F2F -- //
, 0x2F2F202A2A2A204155544F2D67656E6572617465642066696C652E2020444F204E4F5420454449542E202A2A2A -- // *** AUTO-generated file.  DO NOT EDIT. ***
, 0x2F2F202A2A2A20546F206D6F646966792074656D706C6174652C20656469742024524F4F542F7372632F4B65796D6170732F617364665F6B65796D61705F7461626C652E632E696E202A2A2A -- // *** To modify template, edit $ROOT/src/Keymaps/asdf_keymap_table.c.in ***
, 0x2F2F202A2A2A20546F206D6F64696679206B65796D6170206C6973742C20656469742024524F4F542F6B65796D61705F6C6973742E636D616B65 -- // *** To modify keymap list, edit $ROOT/keymap_list.cmake
, 0x2F2F -- //
, 0x2F2F20436F7079726967687420323031392044617669642046656E796573 -- // Copyright 2019 David Fenyes
, 0x2F2F -- //
, 0x2F2F20546869732070726F6772616D206973206672656520736F6674776172653A20796F752063616E2072656469737472696275746520697420616E642F6F72206D6F6469667920697420756E646572 -- // This program is free software: you can redistribute it and/or modify it under
, 0x2F2F20746865207465726D73206F662074686520474E552047656E6572616C205075626C6963204C6963656E7365206173207075626C697368656420627920746865204672656520536F667477617265 -- // the terms of the GNU General Public License as published by the Free Software
, 0x2F2F20466F756E646174696F6E2C206569746865722076657273696F6E2033206F6620746865204C6963656E73652C206F722028617420796F7572206F7074696F6E2920616E79206C61746572 -- // Foundation, either version 3 of the License, or (at your option) any later
, 0x2F2F2076657273696F6E2E -- // version.
, 0x2F2F -- //
, 0x2F2F20546869732070726F6772616D20697320646973747269627574656420696E2074686520686F706520746861742069742077696C6C2062652075736566756C2C2062757420574954484F5554 -- // This program is distributed in the hope that it will be useful, but WITHOUT
, 0x2F2F20414E592057415252414E54593B20776974686F7574206576656E2074686520696D706C6965642077617272616E7479206F66204D45524348414E544142494C495459206F72204649544E455353 -- // ANY WARRANTY; without even the implied warranty of MERCHANTABILITY or FITNESS
, 0x2F2F20464F52204120504152544943554C415220505552504F53452E205365652074686520474E552047656E6572616C205075626C6963204C6963656E736520666F72206D6F7265 -- // FOR A PARTICULAR PURPOSE. See the GNU General Public License for more
, 0x2F2F2064657461696C732E -- // details.
, 0x2F2F -- //
, 0x2F2F20596F752073686F756C642068617665207265636569766564206120636F7079206F662074686520474E552047656E6572616C205075626C6963204C6963656E736520616C6F6E672077697468 -- // You should have received a copy of the GNU General Public License along with
, 0x2F2F20746869732070726F6772616D2E204966206E6F742C20736565203C68747470733A2F2F7777772E676E752E6F72672F6C6963656E7365732F3E2E -- // this program. If not, see <https://www.gnu.org/licenses/>.
, 0x2F2F -- //
, 0x0 -- 
, 0x23696E636C756465203C737464696E742E683E -- #include <stdint.h>
, 0x0 -- 
, 0x406B65796D61705F6465636C61726174696F6E7340 -- @keymap_declarations@
, 0x0 -- 
, 0x2F2F2050524F4345445552453A20617364665F6B65796D61705F7365747570 -- // PROCEDURE: asdf_keymap_setup
, 0x2F2F -- //
, 0x2F2F20494E505554533A202875696E74385F742920696E646578202D20696E646578206F6620746865206B65796D61702073657475702066756E6374696F6E20746F2063616C6C -- // INPUTS: (uint8_t) index - index of the keymap setup function to call
, 0x2F2F204F5554505554533A206E6F6E65 -- // OUTPUTS: none
, 0x2F2F2F2F -- ////
, 0x2F2F204445534352495054494F4E3A20546869732066756E6374696F6E2063616C6C7320746865206B65796D61702073657475702066756E6374696F6E20737065636966696564 -- // DESCRIPTION: This function calls the keymap setup function specified
, 0x2F2F202020202020202020202020202062792074686520696E6465782E -- //              by the index.
, 0x2F2F -- //
, 0x2F2F205349444520454646454354533A20536565204465736372697074696F6E -- // SIDE EFFECTS: See Description
, 0x2F2F -- //
, 0x2F2F204E4F5445533A20546869732066756E6374696F6E206973206E656365737361727920626563617573652066756E6374696F6E7320646566696E656420696E2065787465726E616C -- // NOTES: This function is necessary because functions defined in external
, 0x2F2F206D6F64756C657320617265206E6F7420636F6E7369646572656420636F6D70696C652D74696D6520636F6E7374616E74732062792074686520433939207374616E646172642C20736F20746865 -- // modules are not considered compile-time constants by the C99 standard, so the
, 0x2F2F2061727261792063616E6E6F7420626520696E697469616C697A65642077697468206120636F6D70696C652D74696D65206465636C61726174696F6E2E -- // array cannot be initialized with a compile-time declaration.
, 0x2F2F -- //
, 0x2F2F2053434F50453A207075626C6963 -- // SCOPE: public
, 0x2F2F -- //
, 0x2F2F20434F4D504C45584954593A2031 -- // COMPLEXITY: 1
, 0x2F2F -- //
, 0x766F696420617364665F6B65796D61705F73657475702875696E74385F7420696E64657829207B -- void asdf_keymap_setup(uint8_t index) {
, 0x202073776974636828696E64657829207B --   switch(index) {
, 0x2020202064656661756C743A20406B65796D61705F7461626C6540 --     default: @keymap_table@
, 0x20207D --   }
, 0x7D -- }
, 0x0 -- 
, 0x2F2F2050524F4345445552453A20617364665F6B65796D61705F76616C6964 -- // PROCEDURE: asdf_keymap_valid
, 0x2F2F -- //
, 0x2F2F20494E505554533A202875696E74385F742920696E646578202D20696E646578206F6620746865206B65796D61702073657475702066756E6374696F6E20746F20636865636B -- // INPUTS: (uint8_t) index - index of the keymap setup function to check
, 0x2F2F204F5554505554533A202875696E74755F74292072657475726E73205452554520286E6F6E7A65726F292069662076616C69642C2046414C534520283029206F7468657277697365 -- // OUTPUTS: (uintu_t) returns TRUE (nonzero) if valid, FALSE (0) otherwise
, 0x2F2F -- //
, 0x2F2F204445534352495054494F4E3A20546869732066756E6374696F6E2072657475726E7320545255452069662074686520696E64657820636F72726573706F6E647320746F -- // DESCRIPTION: This function returns TRUE if the index corresponds to
, 0x2F2F2020202020202020202020202020612076616C6964206B65796D61702E -- //              a valid keymap.
, 0x2F2F -- //
, 0x2F2F205349444520454646454354533A206E6F6E65 -- // SIDE EFFECTS: none
, 0x2F2F -- //
, 0x2F2F204E4F5445533A -- // NOTES:
, 0x2F2F -- //
, 0x2F2F2053434F50453A207075626C6963 -- // SCOPE: public
, 0x2F2F -- //
, 0x2F2F20434F4D504C45584954593A2031 -- // COMPLEXITY: 1
, 0x2F2F -- //
, 0x75696E74385F7420617364665F6B65796D61705F76616C69642875696E74385F7420696E64657829207B -- uint8_t asdf_keymap_valid(uint8_t index) {
, 0x202075696E74385F742076616C6964203D20303B --   uint8_t valid = 0;
, 0x0 -- 
, 0x202073776974636828696E64657829207B20406B65796D61705F76616C696440 --   switch(index) { @keymap_valid@
, 0x20202020202076616C6964203D20313B --       valid = 1;
, 0x20202020627265616B3B --     break;
, 0x0 -- 
, 0x2020202064656661756C743A --     default:
, 0x20202020202076616C6964203D20303B --       valid = 0;
, 0x20202020627265616B3B --     break;
, 0x20207D --   }
, 0x0 -- 
, 0x202072657475726E2076616C69643B --   return valid;
, 0x7D -- }
, 0x0 -- 
, 0x0 -- 
, 0x2F2F2D2D2D2D2D2D2D7C2D2D2D2D2D2D2D2D2D7C2D2D2D2D2D2D2D2D2D2B2D2D2D2D2D2D2D2D2D2B2D2D2D2D2D2D2D2D2D2B2D2D2D2D2D2D2D2D2D2B2D2D2D2D2D2D2D2D2D2B2D2D2D2D2D2D2D2D2D2B -- //-------|---------|---------+---------+---------+---------+---------+---------+
, 0x2F2F2041626F7665206C696E6520697320383020636F6C756D6E732C20616E642073686F756C6420646973706C617920636F6D706C6574656C7920696E2074686520656469746F722E -- // Above line is 80 columns, and should display completely in the editor.
, 0x0 -- 
  ]

/-- /repo/firmware/asdf/src/Keymaps/asdf_keymap_defs_dipswitch.h, lines 1-47. -/
def asdf_keymap_defs_dipswitch_h : List Nat := [
  0x2F2F202D2A2D206D6F64653A20433B207461622D77696474683A2034203B20696E64656E742D746162732D6D6F64653A206E696C202D2A2D20 -- // -*- mode: C; tab-width: 4 ; indent-tabs-mode: nil -*- 
, 0x2F2F -- //
, 0x2F2F20556E666966696564204B6579626F6172642050726F6A656374 -- // Unfified Keyboard Project
, 0x2F2F2041534446206B6579626F617264206669726D77617265 -- // ASDF keyboard firmware
, 0x2F2F -- //
, 0x2F2F20617364665F6B65796D61705F646566735F6469707377697463682E68 -- // asdf_keymap_defs_dipswitch.h
, 0x2F2F -- //
, 0x2F2F20436F6E7461696E73206465666974696F6E7320666F7220444950207377697463682073657474696E67732073686172656420627920616C6C206B65796D6170732E -- // Contains defitions for DIP switch settings shared by all keymaps.
, 0x2F2F -- //
, 0x2F2F20436F7079726967687420323031392044617669642046656E796573 -- // Copyright 2019 David Fenyes
, 0x2F2F20546869732070726F6772616D206973206672656520736F6674776172653A20796F752063616E2072656469737472696275746520697420616E642F6F72206D6F6469667920697420756E646572 -- // This program is free software: you can redistribute it and/or modify it under
, 0x2F2F20746865207465726D73206F662074686520474E552047656E6572616C205075626C6963204C6963656E7365206173207075626C697368656420627920746865204672656520536F667477617265 -- // the terms of the GNU General Public License as published by the Free Software
, 0x2F2F20466F756E646174696F6E2C206569746865722076657273696F6E2033206F6620746865204C6963656E73652C206F722028617420796F7572206F7074696F6E2920616E79206C61746572 -- // Foundation, either version 3 of the License, or (at your option) any later
, 0x2F2F2076657273696F6E2E -- // version.
, 0x2F2F -- //
, 0x2F2F20546869732070726F6772616D20697320646973747269627574656420696E2074686520686F706520746861742069742077696C6C2062652075736566756C2C2062757420574954484F5554 -- // This program is distributed in the hope that it will be useful, but WITHOUT
, 0x2F2F20414E592057415252414E54593B20776974686F7574206576656E2074686520696D706C6965642077617272616E7479206F66204D45524348414E544142494C495459206F72204649544E455353 -- // ANY WARRANTY; without even the implied warranty of MERCHANTABILITY or FITNESS
, 0x2F2F20464F52204120504152544943554C415220505552504F53452E205365652074686520474E552047656E6572616C205075626C6963204C6963656E736520666F72206D6F7265 -- // FOR A PARTICULAR PURPOSE. See the GNU General Public License for more
, 0x2F2F2064657461696C732E -- // details.
, 0x2F2F -- //
, 0x2F2F20596F752073686F756C642068617665207265636569766564206120636F7079206F662074686520474E552047656E6572616C205075626C6963204C6963656E736520616C6F6E672077697468 -- // You should have received a copy of the GNU General Public License along with
, 0x2F2F20746869732070726F6772616D2E204966206E6F742C20736565203C68747470733A2F2F7777772E676E752E6F72672F6C6963656E7365732F3E2E -- // this program. If not, see <https://www.gnu.org/licenses/>.
, 0x2F2F -- //
, 0x20 --  
, 0x2369662021646566696E65642028444550535F4449505357495443485F4829 -- #if !defined (DEPS_DIPSWITCH_H)
, 0x23646566696E6520444550535F4449505357495443485F48 -- #define DEPS_DIPSWITCH_H
, 0x0 -- 
, 0x23646566696E6520415344465F4B45594D41505F4449505F5357495443484553202020202020202020202020202020202020202020202020202020202020202020202020205C -- #define ASDF_KEYMAP_DIP_SWITCHES                                     \
, 0x20205B415344465F415243485F4449505357495443485F524F575D203D207B202020202020202020202020202020202020202020202020202020202020202020202020205C --   [ASDF_ARCH_DIPSWITCH_ROW] = {                                     \
, 0x202020202020202020202020202020202020202020202020202020202020205B305D203D20414354494F4E5F4D415053454C5F302C2020202020202020202020202020205C --                                [0] = ACTION_MAPSEL_0,               \
, 0x202020202020202020202020202020202020202020202020202020202020205B315D203D20414354494F4E5F4D415053454C5F312C2020202020202020202020202020205C --                                [1] = ACTION_MAPSEL_1,               \
, 0x202020202020202020202020202020202020202020202020202020202020205B325D203D20414354494F4E5F4D415053454C5F322C2020202020202020202020202020205C --                                [2] = ACTION_MAPSEL_2,               \
, 0x202020202020202020202020202020202020202020202020202020202020205B335D203D20414354494F4E5F4D415053454C5F332C2020202020202020202020202020205C --                                [3] = ACTION_MAPSEL_3,               \
, 0x202020202020202020202020202020202020202020202020202020202020205B355D203D20414354494F4E5F464E5F31312C202020202020202020202020202020202020205C --                                [5] = ACTION_FN_11,                   \
, 0x202020202020202020202020202020202020202020202020202020202020205B365D203D20414354494F4E5F5354524F42455F504F4C41524954595F53454C4543542C205C --                                [6] = ACTION_STROBE_POLARITY_SELECT, \
, 0x202020202020202020202020202020202020202020202020202020202020205B375D203D20414354494F4E5F4155544F5245504541545F53454C4543542C2020202020205C --                                [7] = ACTION_AUTOREPEAT_SELECT,      \
, 0x20207D --   }
, 0x0 -- 
, 0x2F2F -- //
, 0x2F2F2044657669636520616E64207065726970686572616C20646566696E6974696F6E732C20636F6D6D656E74732073686F756C6420696E636C75646520757365206F6620646576696365732E -- // Device and peripheral definitions, comments should include use of devices.
, 0x2F2F20506C65617365 -- // Please
, 0x2F2F -- //
, 0x0 -- 
, 0x23656E646966202F2A2021646566696E65642028444550535F4449505357495443485F4829202A2F -- #endif /* !defined (DEPS_DIPSWITCH_H) */
, 0x0 -- 
, 0x2F2F2D2D2D2D2D2D2D7C2D2D2D2D2D2D2D2D2D7C2D2D2D2D2D2D2D2D2D2B2D2D2D2D2D2D2D2D2D2B2D2D2D2D2D2D2D2D2D2B2D2D2D2D2D2D2D2D2D2B2D2D2D2D2D2D2D2D2D2B2D2D2D2D2D2D2D2D2D2B -- //-------|---------|---------+---------+---------+---------+---------+---------+
, 0x2F2F2041626F7665206C696E6520697320383020636F6C756D6E732C20616E642073686F756C6420646973706C617920636F6D706C6574656C7920696E2074686520656469746F722E -- // Above line is 80 columns, and should display completely in the editor.
  ]

/-- /repo/firmware/asdf/src/Keymaps/asdf_keymap_classic.h, lines 1-69. -/
def asdf_keymap_classic_h : List Nat := [
  0x2F2F202D2A2D206D6F64653A20433B207461622D77696474683A2034203B20696E64656E742D746162732D6D6F64653A206E696C202D2A2D -- // -*- mode: C; tab-width: 4 ; indent-tabs-mode: nil -*-
, 0x2F2F -- //
, 0x2F2F20556E666966696564204B6579626F6172642050726F6A656374 -- // Unfified Keyboard Project
, 0x2F2F2041534446206B6579626F617264206669726D77617265 -- // ASDF keyboard firmware
, 0x2F2F -- //
, 0x2F2F20617364665F6B65796D61705F636C61737369632E68 -- // asdf_keymap_classic.h
, 0x2F2F -- //
, 0x2F2F204173636969206B65796D617073 -- // Ascii keymaps
, 0x2F2F -- //
, 0x2F2F20436F7079726967687420323031392044617669642046656E796573 -- // Copyright 2019 David Fenyes
, 0x2F2F -- //
, 0x2F2F20546869732070726F6772616D206973206672656520736F6674776172653A20796F752063616E2072656469737472696275746520697420616E642F6F72206D6F6469667920697420756E646572 -- // This program is free software: you can redistribute it and/or modify it under
, 0x2F2F20746865207465726D73206F662074686520474E552047656E6572616C205075626C6963204C6963656E7365206173207075626C697368656420627920746865204672656520536F667477617265 -- // the terms of the GNU General Public License as published by the Free Software
, 0x2F2F20466F756E646174696F6E2C206569746865722076657273696F6E2033206F6620746865204C6963656E73652C206F722028617420796F7572206F7074696F6E2920616E79206C61746572 -- // Foundation, either version 3 of the License, or (at your option) any later
, 0x2F2F2076657273696F6E2E -- // version.
, 0x2F2F -- //
, 0x2F2F20546869732070726F6772616D20697320646973747269627574656420696E2074686520686F706520746861742069742077696C6C2062652075736566756C2C2062757420574954484F5554 -- // This program is distributed in the hope that it will be useful, but WITHOUT
, 0x2F2F20414E592057415252414E54593B20776974686F7574206576656E2074686520696D706C6965642077617272616E7479206F66204D45524348414E544142494C495459206F72204649544E455353 -- // ANY WARRANTY; without even the implied warranty of MERCHANTABILITY or FITNESS
, 0x2F2F20464F52204120504152544943554C415220505552504F53452E205365652074686520474E552047656E6572616C205075626C6963204C6963656E736520666F72206D6F7265 -- // FOR A PARTICULAR PURPOSE. See the GNU General Public License for more
, 0x2F2F2064657461696C732E -- // details.
, 0x2F2F -- //
, 0x2F2F20596F752073686F756C642068617665207265636569766564206120636F7079206F662074686520474E552047656E6572616C205075626C6963204C6963656E736520616C6F6E672077697468 -- // You should have received a copy of the GNU General Public License along with
, 0x2F2F20746869732070726F6772616D2E204966206E6F742C20736565203C68747470733A2F2F7777772E676E752E6F72672F6C6963656E7365732F3E2E -- // this program. If not, see <https://www.gnu.org/licenses/>.
, 0x0 -- 
, 0x0 -- 
, 0x2F2F20546F20757365207468697320617363696920666F722061206E6577206B65796D61702C206564697420746865206B65796D61707320646566696E6974696F6E73206173 -- // To use this ascii for a new keymap, edit the keymaps definitions as
, 0x2F2F20646573697265642E20546865206B65796D61707320617265206F7267616E697A65642066726F6D20726F7720302C20636F756E74696E67207570776172642C20616E64206561636820726F77 -- // desired. The keymaps are organized from row 0, counting upward, and each row
, 0x2F2F20696E636C756465732074686520636F6C756D6E732066726F6D20302D4E554D5F434F4C532E -- // includes the columns from 0-NUM_COLS.
, 0x2F2F -- //
, 0x0 -- 
, 0x2369662021646566696E656428415344465F4B45594D41505F444546535F434C41535349435F4829 -- #if !defined(ASDF_KEYMAP_DEFS_CLASSIC_H)
, 0x23646566696E6520415344465F4B45594D41505F444546535F434C41535349435F48 -- #define ASDF_KEYMAP_DEFS_CLASSIC_H
, 0x0 -- 
, 0x23696E636C7564652022617364665F686F6F6B2E6822 -- #include "asdf_hook.h"
, 0x0 -- 
, 0x2F2F204564697420746865206E756D626572206F6620726F777320616E6420636F6C756D6E73207573656420696E2074686973206D61702E20496620746865206E756D626572206973206C657373 -- // Edit the number of rows and columns used in this map. If the number is less
, 0x2F2F207468616E20746865206D617869756D2C2074686520756E7573656420656C656D656E74732077696C6C20626520696E697469616C697A656420746F20302E -- // than the maxium, the unused elements will be initialized to 0.
, 0x0 -- 
, 0x23646566696E6520434C41535349435F4E554D5F524F57532039202F2F204449502073776974636865732061726520726F77203820287A65726F20626173656429 -- #define CLASSIC_NUM_ROWS 9 // DIP switches are row 8 (zero based)
, 0x23646566696E6520434C41535349435F4E554D5F434F4C532038 -- #define CLASSIC_NUM_COLS 8
, 0x0 -- 
, 0x23646566696E6520434C41535349435F414354494F4E5F425245414B20414354494F4E5F4E4F5448494E47 -- #define CLASSIC_ACTION_BREAK ACTION_NOTHING
, 0x0 -- 
, 0x23646566696E6520434C41535349435F5649525455414C5F524553455420564F555431 -- #define CLASSIC_VIRTUAL_RESET VOUT1
, 0x23646566696E6520434C41535349435F414354494F4E5F524553455420414354494F4E5F564F555431 -- #define CLASSIC_ACTION_RESET ACTION_VOUT1
, 0x23646566696E6520434C41535349435F52455345545F4F555450555420504859534943414C5F4F5554335F4F50454E5F4849 -- #define CLASSIC_RESET_OUTPUT PHYSICAL_OUT3_OPEN_HI
, 0x23646566696E6520434C41535349435F52455345545F4143544956455F56414C55452030 -- #define CLASSIC_RESET_ACTIVE_VALUE 0
, 0x0 -- 
, 0x23646566696E6520434C41535349435F5649525455414C5F434C525F53435220564F555432 -- #define CLASSIC_VIRTUAL_CLR_SCR VOUT2
, 0x23646566696E6520434C41535349435F414354494F4E5F434C45415220414354494F4E5F564F555432 -- #define CLASSIC_ACTION_CLEAR ACTION_VOUT2
, 0x23646566696E6520434C41535349435F434C525F5343525F4F555420504859534943414C5F4F5554315F4F50454E5F4C4F -- #define CLASSIC_CLR_SCR_OUT PHYSICAL_OUT1_OPEN_LO
, 0x23646566696E6520434C41535349435F434C525F5343525F4143544956455F56414C55452031 -- #define CLASSIC_CLR_SCR_ACTIVE_VALUE 1
, 0x0 -- 
, 0x23646566696E6520434C41535349435F5649525455414C5F504F5745525F4C454420564C454431 -- #define CLASSIC_VIRTUAL_POWER_LED VLED1
, 0x23646566696E6520434C41535349435F504F5745525F4C454420504859534943414C5F4C454431 -- #define CLASSIC_POWER_LED PHYSICAL_LED1
, 0x23646566696E6520434C41535349435F504F5745525F4C45445F494E49545F56414C55452031 -- #define CLASSIC_POWER_LED_INIT_VALUE 1
, 0x0 -- 
, 0x23646566696E6520434C41535349435F434150535F4C454420504859534943414C5F4C454433 -- #define CLASSIC_CAPS_LED PHYSICAL_LED3
, 0x23646566696E6520434C41535349435F434150535F4C45445F494E49545F56414C55452030 -- #define CLASSIC_CAPS_LED_INIT_VALUE 0
, 0x0 -- 
, 0x23646566696E6520434C41535349435F49445F4D4553534147455F484F4F4B20415344465F484F4F4B5F555345525F3130 -- #define CLASSIC_ID_MESSAGE_HOOK ASDF_HOOK_USER_10
, 0x23646566696E65204150504C45534F46545F4B4559424F4152445F544553545F484F4F4B20415344465F484F4F4B5F555345525F39 -- #define APPLESOFT_KEYBOARD_TEST_HOOK ASDF_HOOK_USER_9
, 0x0 -- 
, 0x23646566696E6520415344465F434C41535349435F5052494E545F5350454544203430 -- #define ASDF_CLASSIC_PRINT_SPEED 40
, 0x0 -- 
, 0x23656E646966202F2A2021646566696E65642028415344465F4B45594D41505F444546535F41534349495F4829202A2F -- #endif /* !defined (ASDF_KEYMAP_DEFS_ASCII_H) */
, 0x0 -- 
, 0x2F2F2D2D2D2D2D2D2D7C2D2D2D2D2D2D2D2D2D7C2D2D2D2D2D2D2D2D2D2B2D2D2D2D2D2D2D2D2D2B2D2D2D2D2D2D2D2D2D2B2D2D2D2D2D2D2D2D2D2B2D2D2D2D2D2D2D2D2D2B2D2D2D2D2D2D2D2D2D2B -- //-------|---------|---------+---------+---------+---------+---------+---------+
, 0x2F2F2041626F7665206C696E6520697320383020636F6C756D6E732C20616E642073686F756C6420646973706C617920636F6D706C6574656C7920696E2074686520656469746F722E -- // Above line is 80 columns, and should display completely in the editor.
  ]

/-- /repo/firmware/asdf/src/Keymaps/asdf_keymap_classic_add_map.h, lines 1-50. -/
def asdf_keymap_classic_add_map_h : List Nat := [
  0x2F2F202D2A2D206D6F64653A20433B207461622D77696474683A2034203B20696E64656E742D746162732D6D6F64653A206E696C202D2A2D -- // -*- mode: C; tab-width: 4 ; indent-tabs-mode: nil -*-
, 0x2F2F -- //
, 0x2F2F20556E666966696564204B6579626F6172642050726F6A656374 -- // Unfified Keyboard Project
, 0x2F2F2041534446206B6579626F617264206669726D77617265 -- // ASDF keyboard firmware
, 0x2F2F -- //
, 0x2F2F20617364665F6B65796D61705F636C61737369635F6164645F6D61702E68 -- // asdf_keymap_classic_add_map.h
, 0x2F2F -- //
, 0x2F2F20646566696E6573206B65796D6170206D6174726963657320616E64206164645F6D617028292066756E6374696F6E20666F7220636C6173736963206C61796F757473 -- // defines keymap matrices and add_map() function for classic layouts
, 0x2F2F -- //
, 0x2F2F20436F7079726967687420323031392044617669642046656E796573 -- // Copyright 2019 David Fenyes
, 0x2F2F -- //
, 0x2F2F20546869732070726F6772616D206973206672656520736F6674776172653A20796F752063616E2072656469737472696275746520697420616E642F6F72206D6F6469667920697420756E646572 -- // This program is free software: you can redistribute it and/or modify it under
, 0x2F2F20746865207465726D73206F662074686520474E552047656E6572616C205075626C6963204C6963656E7365206173207075626C697368656420627920746865204672656520536F667477617265 -- // the terms of the GNU General Public License as published by the Free Software
, 0x2F2F20466F756E646174696F6E2C206569746865722076657273696F6E2033206F6620746865204C6963656E73652C206F722028617420796F7572206F7074696F6E2920616E79206C61746572 -- // Foundation, either version 3 of the License, or (at your option) any later
, 0x2F2F2076657273696F6E2E -- // version.
, 0x2F2F -- //
, 0x2F2F20546869732070726F6772616D20697320646973747269627574656420696E2074686520686F706520746861742069742077696C6C2062652075736566756C2C2062757420574954484F5554 -- // This program is distributed in the hope that it will be useful, but WITHOUT
, 0x2F2F20414E592057415252414E54593B20776974686F7574206576656E2074686520696D706C6965642077617272616E7479206F66204D45524348414E544142494C495459206F72204649544E455353 -- // ANY WARRANTY; without even the implied warranty of MERCHANTABILITY or FITNESS
, 0x2F2F20464F52204120504152544943554C415220505552504F53452E205365652074686520474E552047656E6572616C205075626C6963204C6963656E736520666F72206D6F7265 -- // FOR A PARTICULAR PURPOSE. See the GNU General Public License for more
, 0x2F2F2064657461696C732E -- // details.
, 0x2F2F -- //
, 0x2F2F20596F752073686F756C642068617665207265636569766564206120636F7079206F662074686520474E552047656E6572616C205075626C6963204C6963656E736520616C6F6E672077697468 -- // You should have received a copy of the GNU General Public License along with
, 0x2F2F20746869732070726F6772616D2E204966206E6F742C20736565203C68747470733A2F2F7777772E676E752E6F72672F6C6963656E7365732F3E2E -- // this program. If not, see <https://www.gnu.org/licenses/>.
, 0x0 -- 
, 0x0 -- 
, 0x2F2F20546F20757365207468697320617363696920666F722061206E6577206B65796D61702C206564697420746865206B65796D61707320646566696E6974696F6E73206173 -- // To use this ascii for a new keymap, edit the keymaps definitions as
, 0x2F2F20646573697265642E20546865206B65796D61707320617265206F7267616E697A65642066726F6D20726F7720302C20636F756E74696E67207570776172642C20616E64206561636820726F77 -- // desired. The keymaps are organized from row 0, counting upward, and each row
, 0x2F2F20696E636C756465732074686520636F6C756D6E732066726F6D20302D4E554D5F434F4C532E -- // includes the columns from 0-NUM_COLS.
, 0x2F2F -- //
, 0x0 -- 
, 0x2369662021646566696E656428415344465F4B45594D41505F434C41535349435F4144445F4D41505F4829 -- #if !defined(ASDF_KEYMAP_CLASSIC_ADD_MAP_H)
, 0x23646566696E6520415344465F4B45594D41505F434C41535349435F4144445F4D41505F48 -- #define ASDF_KEYMAP_CLASSIC_ADD_MAP_H
, 0x0 -- 
, 0x23696E636C7564652022617364665F6D6F646966696572732E6822 -- #include "asdf_modifiers.h"
, 0x0 -- 
, 0x7479706564656620656E756D207B -- typedef enum {
, 0x2020434C41535349435F504C41494E5F4D41502C --   CLASSIC_PLAIN_MAP,
, 0x2020434C41535349435F434150535F4D41502C --   CLASSIC_CAPS_MAP,
, 0x2020434C41535349435F53484946545F4D41502C --   CLASSIC_SHIFT_MAP,
, 0x2020434C41535349435F4354524C5F4D41502C --   CLASSIC_CTRL_MAP,
, 0x7D20636C61737369635F6D61705F696E6465785F743B -- } classic_map_index_t;
, 0x0 -- 
, 0x0 -- 
, 0x2F2F2066756E6374696F6E2070726F746F7479706573 -- // function prototypes
, 0x766F696420636C61737369635F6164645F6D617028636F6E737420636C61737369635F6D61705F696E6465785F74206D61705F696E6465782C206D6F6469666965725F696E6465785F74206D6F6469666965725F696E646578293B -- void classic_add_map(const classic_map_index_t map_index, modifier_index_t modifier_index);
, 0x0 -- 
, 0x23656E646966202F2A2021646566696E65642028415344465F4B45594D41505F434C41535349435F4144445F4D41505F4829202A2F -- #endif /* !defined (ASDF_KEYMAP_CLASSIC_ADD_MAP_H) */
, 0x0 -- 
, 0x2F2F2D2D2D2D2D2D2D7C2D2D2D2D2D2D2D2D2D7C2D2D2D2D2D2D2D2D2D2B2D2D2D2D2D2D2D2D2D2B2D2D2D2D2D2D2D2D2D2B2D2D2D2D2D2D2D2D2D2B2D2D2D2D2D2D2D2D2D2B2D2D2D2D2D2D2D2D2D2B -- //-------|---------|---------+---------+---------+---------+---------+---------+
, 0x2F2F2041626F7665206C696E6520697320383020636F6C756D6E732C20616E642073686F756C6420646973706C617920636F6D706C6574656C7920696E2074686520656469746F722E -- // Above line is 80 columns, and should display completely in the editor.
  ]

/-- /repo/firmware/asdf/src/Keymaps/asdf_keymap_apple2.h, lines 1-54. -/
def asdf_keymap_apple2_h : List Nat := [
  0x2F2F202D2A2D206D6F64653A20433B207461622D77696474683A2034203B20696E64656E742D746162732D6D6F64653A206E696C202D2A2D -- // -*- mode: C; tab-width: 4 ; indent-tabs-mode: nil -*-
, 0x2F2F -- //
, 0x2F2F20556E666966696564204B6579626F6172642050726F6A656374 -- // Unfified Keyboard Project
, 0x2F2F2041534446206B6579626F617264206669726D77617265 -- // ASDF keyboard firmware
, 0x2F2F -- //
, 0x2F2F20617364665F6B65796D61705F6170706C65322E68 -- // asdf_keymap_apple2.h
, 0x2F2F -- //
, 0x2F2F204170706C652032206B65796D617073 -- // Apple 2 keymaps
, 0x2F2F -- //
, 0x2F2F20436F7079726967687420323031392044617669642046656E796573 -- // Copyright 2019 David Fenyes
, 0x2F2F -- //
, 0x2F2F20546869732070726F6772616D206973206672656520736F6674776172653A20796F752063616E2072656469737472696275746520697420616E642F6F72206D6F6469667920697420756E646572 -- // This program is free software: you can redistribute it and/or modify it under
, 0x2F2F20746865207465726D73206F662074686520474E552047656E6572616C205075626C6963204C6963656E7365206173207075626C697368656420627920746865204672656520536F667477617265 -- // the terms of the GNU General Public License as published by the Free Software
, 0x2F2F20466F756E646174696F6E2C206569746865722076657273696F6E2033206F6620746865204C6963656E73652C206F722028617420796F7572206F7074696F6E2920616E79206C61746572 -- // Foundation, either version 3 of the License, or (at your option) any later
, 0x2F2F2076657273696F6E2E -- // version.
, 0x2F2F -- //
, 0x2F2F20546869732070726F6772616D20697320646973747269627574656420696E2074686520686F706520746861742069742077696C6C2062652075736566756C2C2062757420574954484F5554 -- // This program is distributed in the hope that it will be useful, but WITHOUT
, 0x2F2F20414E592057415252414E54593B20776974686F7574206576656E2074686520696D706C6965642077617272616E7479206F66204D45524348414E544142494C495459206F72204649544E455353 -- // ANY WARRANTY; without even the implied warranty of MERCHANTABILITY or FITNESS
, 0x2F2F20464F52204120504152544943554C415220505552504F53452E205365652074686520474E552047656E6572616C205075626C6963204C6963656E736520666F72206D6F7265 -- // FOR A PARTICULAR PURPOSE. See the GNU General Public License for more
, 0x2F2F2064657461696C732E -- // details.
, 0x2F2F -- //
, 0x2F2F20596F752073686F756C642068617665207265636569766564206120636F7079206F662074686520474E552047656E6572616C205075626C6963204C6963656E736520616C6F6E672077697468 -- // You should have received a copy of the GNU General Public License along with
, 0x2F2F20746869732070726F6772616D2E204966206E6F742C20736565203C68747470733A2F2F7777772E676E752E6F72672F6C6963656E7365732F3E2E -- // this program. If not, see <https://www.gnu.org/licenses/>.
, 0x0 -- 
, 0x0 -- 
, 0x2F2F20546869732066696C6520737570706C69657320746865204170706C652032204153434949206B6579626F617264206B65796D61702E202054776F2076617269616E7473206172652070726F76696465643A -- // This file supplies the Apple 2 ASCII keyboard keymap.  Two variants are provided:
, 0x2F2F -- //
, 0x2F2F20312920416E2055707065722F4C6F776572636173652076617269616E742E20546869732076617269616E74206D6F76657320746865204020616E64205E2073796D626F6C732066726F6D -- // 1) An Upper/Lowercase variant. This variant moves the @ and ^ symbols from
, 0x2F2F20202020746865205020616E64204E206B65797320746F2074686520524550454154206B65792C2073696E636520746865205020616E64204E206B657973206E65656420746F2072657365727665 -- //    the P and N keys to the REPEAT key, since the P and N keys need to reserve
, 0x2F2F2020202074686520736869667465642076616C756520666F72207468652075707065726361736520636861726163746572732E20416C736F2C207468652022506F77657222206B6579 -- //    the shifted value for the uppercase characters. Also, the "Power" key
, 0x2F2F20202020646F75626C6573206173206120636170732D6C6F636B206B65792E -- //    doubles as a caps-lock key.
, 0x2F2F -- //
, 0x2F2F20322920412043415053206F6E6C79206B6579626F6172642C20666F6C6C6F77696E6720746865207374616E64617264204170706C6520494920636F6E76656E74696F6E7320616E64 -- // 2) A CAPS only keyboard, following the standard Apple II conventions and
, 0x2F2F202020206C61796F75742C2077697468205E2061626F766520746865204E206B657920616E6420402061626F7665207468652050206B65792C20616E6420612066756E6374696F6E696E67 -- //    layout, with ^ above the N key and @ above the P key, and a functioning
, 0x2F2F20202020524550454154206B65792E -- //    REPEAT key.
, 0x2F2F -- //
, 0x2F2F20466F7220626F74682076617269616E74732C204354524C2B524553455420697320726571756972656420666F7220612073797374656D2072657365742E -- // For both variants, CTRL+RESET is required for a system reset.
, 0x0 -- 
, 0x2369662021646566696E656428415344465F4B45594D41505F444546535F4150504C45325F4829 -- #if !defined(ASDF_KEYMAP_DEFS_APPLE2_H)
, 0x23646566696E6520415344465F4B45594D41505F444546535F4150504C45325F48 -- #define ASDF_KEYMAP_DEFS_APPLE2_H
, 0x0 -- 
, 0x23696E636C7564652022617364665F686F6F6B2E6822 -- #include "asdf_hook.h"
, 0x0 -- 
, 0x23646566696E65204150504C45534F46545F4B4559424F4152445F5445535420415344465F484F4F4B5F555345525F33 -- #define APPLESOFT_KEYBOARD_TEST ASDF_HOOK_USER_3
, 0x23646566696E65204150504C45325F49445F4D45535341474520415344465F484F4F4B5F555345525F3130 -- #define APPLE2_ID_MESSAGE ASDF_HOOK_USER_10
, 0x23646566696E65204150504C45325F41534349495F5445535420415344465F484F4F4B5F555345525F3131 -- #define APPLE2_ASCII_TEST ASDF_HOOK_USER_11
, 0x0 -- 
, 0x23646566696E65204150504C45325F5052494E545F44454C4159203430202F2F206D736563 -- #define APPLE2_PRINT_DELAY 40 // msec
, 0x0 -- 
, 0x0 -- 
, 0x23656E646966202F2A2021646566696E65642028415344465F4B45594D41505F444546535F4150504C45325F4829202A2F -- #endif /* !defined (ASDF_KEYMAP_DEFS_APPLE2_H) */
, 0x0 -- 
, 0x2F2F2D2D2D2D2D2D2D7C2D2D2D2D2D2D2D2D2D7C2D2D2D2D2D2D2D2D2D2B2D2D2D2D2D2D2D2D2D2B2D2D2D2D2D2D2D2D2D2B2D2D2D2D2D2D2D2D2D2B2D2D2D2D2D2D2D2D2D2B2D2D2D2D2D2D2D2D2D2B -- //-------|---------|---------+---------+---------+---------+---------+---------+
, 0x2F2F2041626F7665206C696E6520697320383020636F6C756D6E732C20616E642073686F756C6420646973706C617920636F6D706C6574656C7920696E2074686520656469746F722E -- // Above line is 80 columns, and should display completely in the editor.
  ]

/-- /repo/firmware/asdf/src/Keymaps/asdf_keymap_apple2_caps.h, lines 1-51. -/
def asdf_keymap_apple2_caps_h : List Nat := [
  0x2F2F202D2A2D206D6F64653A20433B207461622D77696474683A2034203B20696E64656E742D746162732D6D6F64653A206E696C202D2A2D -- // -*- mode: C; tab-width: 4 ; indent-tabs-mode: nil -*-
, 0x2F2F -- //
, 0x2F2F20556E666966696564204B6579626F6172642050726F6A656374 -- // Unfified Keyboard Project
, 0x2F2F2041534446206B6579626F617264206669726D77617265 -- // ASDF keyboard firmware
, 0x2F2F -- //
, 0x2F2F20617364665F6B65796D61705F6170706C65325F636170732E68 -- // asdf_keymap_apple2_caps.h
, 0x2F2F -- //
, 0x2F2F204170706C652032206B65796D617073 -- // Apple 2 keymaps
, 0x2F2F -- //
, 0x2F2F20436F7079726967687420323031392044617669642046656E796573 -- // Copyright 2019 David Fenyes
, 0x2F2F -- //
, 0x2F2F20546869732070726F6772616D206973206672656520736F6674776172653A20796F752063616E2072656469737472696275746520697420616E642F6F72206D6F6469667920697420756E646572 -- // This program is free software: you can redistribute it and/or modify it under
, 0x2F2F20746865207465726D73206F662074686520474E552047656E6572616C205075626C6963204C6963656E7365206173207075626C697368656420627920746865204672656520536F667477617265 -- // the terms of the GNU General Public License as published by the Free Software
, 0x2F2F20466F756E646174696F6E2C206569746865722076657273696F6E2033206F6620746865204C6963656E73652C206F722028617420796F7572206F7074696F6E2920616E79206C61746572 -- // Foundation, either version 3 of the License, or (at your option) any later
, 0x2F2F2076657273696F6E2E -- // version.
, 0x2F2F -- //
, 0x2F2F20546869732070726F6772616D20697320646973747269627574656420696E2074686520686F706520746861742069742077696C6C2062652075736566756C2C2062757420574954484F5554 -- // This program is distributed in the hope that it will be useful, but WITHOUT
, 0x2F2F20414E592057415252414E54593B20776974686F7574206576656E2074686520696D706C6965642077617272616E7479206F66204D45524348414E544142494C495459206F72204649544E455353 -- // ANY WARRANTY; without even the implied warranty of MERCHANTABILITY or FITNESS
, 0x2F2F20464F52204120504152544943554C415220505552504F53452E205365652074686520474E552047656E6572616C205075626C6963204C6963656E736520666F72206D6F7265 -- // FOR A PARTICULAR PURPOSE. See the GNU General Public License for more
, 0x2F2F2064657461696C732E -- // details.
, 0x2F2F -- //
, 0x2F2F20596F752073686F756C642068617665207265636569766564206120636F7079206F662074686520474E552047656E6572616C205075626C6963204C6963656E736520616C6F6E672077697468 -- // You should have received a copy of the GNU General Public License along with
, 0x2F2F20746869732070726F6772616D2E204966206E6F742C20736565203C68747470733A2F2F7777772E676E752E6F72672F6C6963656E7365732F3E2E -- // this program. If not, see <https://www.gnu.org/licenses/>.
, 0x0 -- 
, 0x0 -- 
, 0x2F2F20546869732066696C6520737570706C69657320746865204170706C652032204153434949206B6579626F617264206B65796D61702E202054776F2076617269616E7473206172652070726F76696465643A -- // This file supplies the Apple 2 ASCII keyboard keymap.  Two variants are provided:
, 0x2F2F -- //
, 0x2F2F20312920416E2055707065722F4C6F776572636173652076617269616E742E20546869732076617269616E74206D6F76657320746865204020616E64205E2073796D626F6C732066726F6D -- // 1) An Upper/Lowercase variant. This variant moves the @ and ^ symbols from
, 0x2F2F20202020746865205020616E64204E206B65797320746F2074686520524550454154206B65792C2073696E636520746865205020616E64204E206B657973206E65656420746F2072657365727665 -- //    the P and N keys to the REPEAT key, since the P and N keys need to reserve
, 0x2F2F2020202074686520736869667465642076616C756520666F72207468652075707065726361736520636861726163746572732E20416C736F2C207468652022506F77657222206B6579 -- //    the shifted value for the uppercase characters. Also, the "Power" key
, 0x2F2F20202020646F75626C6573206173206120636170732D6C6F636B206B65792E -- //    doubles as a caps-lock key.
, 0x2F2F -- //
, 0x2F2F20322920412043415053206F6E6C79206B6579626F6172642C20666F6C6C6F77696E6720746865207374616E64617264204170706C6520494920636F6E76656E74696F6E7320616E64 -- // 2) A CAPS only keyboard, following the standard Apple II conventions and
, 0x2F2F202020206C61796F75742C2077697468205E2061626F766520746865204E206B657920616E6420402061626F7665207468652050206B65792C20616E6420612066756E6374696F6E696E67 -- //    layout, with ^ above the N key and @ above the P key, and a functioning
, 0x2F2F20202020524550454154206B65792E -- //    REPEAT key.
, 0x2F2F -- //
, 0x2F2F20466F7220626F74682076617269616E74732C204354524C2B524553455420697320726571756972656420666F7220612073797374656D2072657365742E -- // For both variants, CTRL+RESET is required for a system reset.
, 0x0 -- 
, 0x2369662021646566696E656428415344465F4B45594D41505F444546535F4150504C45325F434150535F4829 -- #if !defined(ASDF_KEYMAP_DEFS_APPLE2_CAPS_H)
, 0x23646566696E6520415344465F4B45594D41505F444546535F4150504C45325F434150535F48 -- #define ASDF_KEYMAP_DEFS_APPLE2_CAPS_H
, 0x0 -- 
, 0x23646566696E65204150504C45534F46545F4B4559424F4152445F5445535420415344465F484F4F4B5F555345525F39 -- #define APPLESOFT_KEYBOARD_TEST ASDF_HOOK_USER_9
, 0x23646566696E65204150504C45325F434150535F49445F4D45535341474520415344465F484F4F4B5F555345525F3130 -- #define APPLE2_CAPS_ID_MESSAGE ASDF_HOOK_USER_10
, 0x0 -- 
, 0x23646566696E65204150504C45325F5052494E545F44454C4159203430202F2F206D736563 -- #define APPLE2_PRINT_DELAY 40 // msec
, 0x0 -- 
, 0x0 -- 
, 0x23656E646966202F2A2021646566696E65642028415344465F4B45594D41505F444546535F4150504C45325F434150535F4829202A2F -- #endif /* !defined (ASDF_KEYMAP_DEFS_APPLE2_CAPS_H) */
, 0x0 -- 
, 0x2F2F2D2D2D2D2D2D2D7C2D2D2D2D2D2D2D2D2D7C2D2D2D2D2D2D2D2D2D2B2D2D2D2D2D2D2D2D2D2B2D2D2D2D2D2D2D2D2D2B2D2D2D2D2D2D2D2D2D2B2D2D2D2D2D2D2D2D2D2B2D2D2D2D2D2D2D2D2D2B -- //-------|---------|---------+---------+---------+---------+---------+---------+
, 0x2F2F2041626F7665206C696E6520697320383020636F6C756D6E732C20616E642073686F756C6420646973706C617920636F6D706C6574656C7920696E2074686520656469746F722E -- // Above line is 80 columns, and should display completely in the editor.
  ]

/-- /repo/firmware/asdf/src/Keymaps/asdf_keymap_apple2_add_map.h, lines 1-80. -/
def asdf_keymap_apple2_add_map_h : List Nat := [
  0x2F2F202D2A2D206D6F64653A20433B207461622D77696474683A2034203B20696E64656E742D746162732D6D6F64653A206E696C202D2A2D -- // -*- mode: C; tab-width: 4 ; indent-tabs-mode: nil -*-
, 0x2F2F -- //
, 0x2F2F20556E666966696564204B6579626F6172642050726F6A656374 -- // Unfified Keyboard Project
, 0x2F2F2041534446206B6579626F617264206669726D77617265 -- // ASDF keyboard firmware
, 0x2F2F -- //
, 0x2F2F20617364665F6B65796D61705F6170706C655F6164645F6D61702E68 -- // asdf_keymap_apple_add_map.h
, 0x2F2F -- //
, 0x2F2F20646566696E6573206B65796D6170206D6174726963657320616E64206164645F6D617028292066756E6374696F6E20666F72206170706C6532206C61796F757473 -- // defines keymap matrices and add_map() function for apple2 layouts
, 0x2F2F -- //
, 0x2F2F20436F7079726967687420323031392044617669642046656E796573 -- // Copyright 2019 David Fenyes
, 0x2F2F -- //
, 0x2F2F20546869732070726F6772616D206973206672656520736F6674776172653A20796F752063616E2072656469737472696275746520697420616E642F6F72206D6F6469667920697420756E646572 -- // This program is free software: you can redistribute it and/or modify it under
, 0x2F2F20746865207465726D73206F662074686520474E552047656E6572616C205075626C6963204C6963656E7365206173207075626C697368656420627920746865204672656520536F667477617265 -- // the terms of the GNU General Public License as published by the Free Software
, 0x2F2F20466F756E646174696F6E2C206569746865722076657273696F6E2033206F6620746865204C6963656E73652C206F722028617420796F7572206F7074696F6E2920616E79206C61746572 -- // Foundation, either version 3 of the License, or (at your option) any later
, 0x2F2F2076657273696F6E2E -- // version.
, 0x2F2F -- //
, 0x2F2F20546869732070726F6772616D20697320646973747269627574656420696E2074686520686F706520746861742069742077696C6C2062652075736566756C2C2062757420574954484F5554 -- // This program is distributed in the hope that it will be useful, but WITHOUT
, 0x2F2F20414E592057415252414E54593B20776974686F7574206576656E2074686520696D706C6965642077617272616E7479206F66204D45524348414E544142494C495459206F72204649544E455353 -- // ANY WARRANTY; without even the implied warranty of MERCHANTABILITY or FITNESS
, 0x2F2F20464F52204120504152544943554C415220505552504F53452E205365652074686520474E552047656E6572616C205075626C6963204C6963656E736520666F72206D6F7265 -- // FOR A PARTICULAR PURPOSE. See the GNU General Public License for more
, 0x2F2F2064657461696C732E -- // details.
, 0x2F2F -- //
, 0x2F2F20596F752073686F756C642068617665207265636569766564206120636F7079206F662074686520474E552047656E6572616C205075626C6963204C6963656E736520616C6F6E672077697468 -- // You should have received a copy of the GNU General Public License along with
, 0x2F2F20746869732070726F6772616D2E204966206E6F742C20736565203C68747470733A2F2F7777772E676E752E6F72672F6C6963656E7365732F3E2E -- // this program. If not, see <https://www.gnu.org/licenses/>.
, 0x0 -- 
, 0x0 -- 
, 0x2F2F20546F20757365207468697320617363696920666F722061206E6577206B65796D61702C206564697420746865206B65796D61707320646566696E6974696F6E73206173 -- // To use this ascii for a new keymap, edit the keymaps definitions as
, 0x2F2F20646573697265642E20546865206B65796D61707320617265206F7267616E697A65642066726F6D20726F7720302C20636F756E74696E67207570776172642C20616E64206561636820726F77 -- // desired. The keymaps are organized from row 0, counting upward, and each row
, 0x2F2F20696E636C756465732074686520636F6C756D6E732066726F6D20302D4E554D5F434F4C532E -- // includes the columns from 0-NUM_COLS.
, 0x2F2F -- //
, 0x0 -- 
, 0x2369662021646566696E656428415344465F4B45594D41505F4150504C455F4144445F4D41505F4829 -- #if !defined(ASDF_KEYMAP_APPLE_ADD_MAP_H)
, 0x23646566696E6520415344465F4B45594D41505F4150504C455F4144445F4D41505F48 -- #define ASDF_KEYMAP_APPLE_ADD_MAP_H
, 0x0 -- 
, 0x23696E636C7564652022617364665F6B65796D61705F646566735F6469707377697463682E6822 -- #include "asdf_keymap_defs_dipswitch.h"
, 0x23696E636C7564652022617364665F6D6F646966696572732E6822 -- #include "asdf_modifiers.h"
, 0x0 -- 
, 0x23646566696E6520415344465F4150504C45325F4E554D5F524F57532039202F2F204449502073776974636865732061726520726F77203820287A65726F2D626173656429 -- #define ASDF_APPLE2_NUM_ROWS 9 // DIP switches are row 8 (zero-based)
, 0x23646566696E6520415344465F4150504C45325F4E554D5F434F4C532038 -- #define ASDF_APPLE2_NUM_COLS 8
, 0x0 -- 
, 0x23646566696E65204150504C455F414354494F4E5F524553455420414354494F4E5F564F555431 -- #define APPLE_ACTION_RESET ACTION_VOUT1
, 0x23646566696E65204150504C455F5649525455414C5F524553455420564F555431 -- #define APPLE_VIRTUAL_RESET VOUT1
, 0x23646566696E65204150504C455F52455345545F4F555450555420504859534943414C5F4F5554335F4F50454E5F4849 -- #define APPLE_RESET_OUTPUT PHYSICAL_OUT3_OPEN_HI
, 0x23646566696E65204150504C455F52455345545F4143544956455F56414C55452030 -- #define APPLE_RESET_ACTIVE_VALUE 0
, 0x0 -- 
, 0x23646566696E65204150504C455F414354494F4E5F434C45415220414354494F4E5F564F555432 -- #define APPLE_ACTION_CLEAR ACTION_VOUT2
, 0x23646566696E65204150504C455F5649525455414C5F434C525F53435220564F555432 -- #define APPLE_VIRTUAL_CLR_SCR VOUT2
, 0x23646566696E65204150504C455F434C525F5343525F4F555450555420504859534943414C5F4F5554315F4F50454E5F4C4F -- #define APPLE_CLR_SCR_OUTPUT PHYSICAL_OUT1_OPEN_LO
, 0x23646566696E65204150504C455F434C525F5343525F4143544956455F56414C55452031 -- #define APPLE_CLR_SCR_ACTIVE_VALUE 1
, 0x0 -- 
, 0x23646566696E65204150504C455F5649525455414C5F504F5745525F4C454420564C454431 -- #define APPLE_VIRTUAL_POWER_LED VLED1
, 0x23646566696E65204150504C455F504F5745525F4C454420504859534943414C5F4C454431 -- #define APPLE_POWER_LED PHYSICAL_LED1
, 0x23646566696E65204150504C455F504F5745525F4C45445F494E49545F56414C55452030202F2F20546F67676C6573207768656E2063617073206C6F636B20697320616374697661746564 -- #define APPLE_POWER_LED_INIT_VALUE 0 // Toggles when caps lock is activated
, 0x0 -- 
, 0x23646566696E65204150504C455F5649525455414C5F44495341424C45445F4C454420564C454432 -- #define APPLE_VIRTUAL_DISABLED_LED VLED2
, 0x23646566696E65204150504C455F44495341424C45445F4C454420504859534943414C5F4C454433 -- #define APPLE_DISABLED_LED PHYSICAL_LED3
, 0x23646566696E65204150504C455F44495341424C45445F494E49545F56414C55452030 -- #define APPLE_DISABLED_INIT_VALUE 0
, 0x0 -- 
, 0x23646566696E6520415344465F4150504C45325F4449505F535749544348455320415344465F4B45594D41505F4449505F5357495443484553 -- #define ASDF_APPLE2_DIP_SWITCHES ASDF_KEYMAP_DIP_SWITCHES
, 0x0 -- 
, 0x23646566696E65204150504C455F4C4546545F4152524F572041534349495F4354524C5F48 -- #define APPLE_LEFT_ARROW ASCII_CTRL_H
, 0x23646566696E65204150504C455F52494748545F4152524F572041534349495F4354524C5F55 -- #define APPLE_RIGHT_ARROW ASCII_CTRL_U
, 0x0 -- 
, 0x7479706564656620656E756D207B -- typedef enum {
, 0x20204150504C455F504C41494E5F4D41502C --   APPLE_PLAIN_MAP,
, 0x20204150504C455F434150535F4D41502C --   APPLE_CAPS_MAP,
, 0x20204150504C455F53484946545F4D41502C --   APPLE_SHIFT_MAP,
, 0x20204150504C455F434150535F53484946545F4D41502C --   APPLE_CAPS_SHIFT_MAP,
, 0x20204150504C455F4354524C5F4D4150 --   APPLE_CTRL_MAP
, 0x7D206170706C655F6D61705F696E6465785F743B -- } apple_map_index_t;
, 0x0 -- 
, 0x0 -- 
, 0x2F2F2066756E6374696F6E2070726F746F7479706573 -- // function prototypes
, 0x766F6964206170706C65736F66745F6B6579626F6172645F7465737428766F6964293B -- void applesoft_keyboard_test(void);
, 0x0 -- 
, 0x766F6964206170706C655F6164645F6D617028636F6E7374206170706C655F6D61705F696E6465785F74206D61705F696E6465782C206D6F6469666965725F696E6465785F74206D6F6469666965725F696E646578293B -- void apple_add_map(const apple_map_index_t map_index, modifier_index_t modifier_index);
, 0x0 -- 
, 0x23656E646966202F2A2021646566696E65642028415344465F4B45594D41505F4150504C455F4144445F4D41505F4829202A2F -- #endif /* !defined (ASDF_KEYMAP_APPLE_ADD_MAP_H) */
, 0x0 -- 
, 0x2F2F2D2D2D2D2D2D2D7C2D2D2D2D2D2D2D2D2D7C2D2D2D2D2D2D2D2D2D2B2D2D2D2D2D2D2D2D2D2B2D2D2D2D2D2D2D2D2D2B2D2D2D2D2D2D2D2D2D2B2D2D2D2D2D2D2D2D2D2B2D2D2D2D2D2D2D2D2D2B -- //-------|---------|---------+---------+---------+---------+---------+---------+
, 0x2F2F2041626F7665206C696E6520697320383020636F6C756D6E732C20616E642073686F756C6420646973706C617920636F6D706C6574656C7920696E2074686520656469746F722E -- // Above line is 80 columns, and should display completely in the editor.
  ]

/-- /repo/firmware/asdf/src/Keymaps/asdf_keymap_sol.h, lines 1-127. -/
def asdf_keymap_sol_h : List Nat := [
  0x2F2F202D2A2D206D6F64653A20433B207461622D77696474683A2034203B20696E64656E742D746162732D6D6F64653A206E696C202D2A2D -- // -*- mode: C; tab-width: 4 ; indent-tabs-mode: nil -*-
, 0x2F2F -- //
, 0x2F2F20556E666966696564204B6579626F6172642050726F6A656374 -- // Unfified Keyboard Project
, 0x2F2F2041534446206B6579626F617264206669726D77617265 -- // ASDF keyboard firmware
, 0x2F2F -- //
, 0x2F2F20617364665F6B65796D6170735F736F6C2E68 -- // asdf_keymaps_sol.h
, 0x2F2F -- //
, 0x2F2F204173636969206B65796D617073 -- // Ascii keymaps
, 0x2F2F -- //
, 0x2F2F20436F7079726967687420323031392044617669642046656E796573 -- // Copyright 2019 David Fenyes
, 0x2F2F -- //
, 0x2F2F20546869732070726F6772616D206973206672656520736F6674776172653A20796F752063616E2072656469737472696275746520697420616E642F6F72206D6F6469667920697420756E646572 -- // This program is free software: you can redistribute it and/or modify it under
, 0x2F2F20746865207465726D73206F662074686520474E552047656E6572616C205075626C6963204C6963656E7365206173207075626C697368656420627920746865204672656520536F667477617265 -- // the terms of the GNU General Public License as published by the Free Software
, 0x2F2F20466F756E646174696F6E2C206569746865722076657273696F6E2033206F6620746865204C6963656E73652C206F722028617420796F7572206F7074696F6E2920616E79206C61746572 -- // Foundation, either version 3 of the License, or (at your option) any later
, 0x2F2F2076657273696F6E2E -- // version.
, 0x2F2F -- //
, 0x2F2F20546869732070726F6772616D20697320646973747269627574656420696E2074686520686F706520746861742069742077696C6C2062652075736566756C2C2062757420574954484F5554 -- // This program is distributed in the hope that it will be useful, but WITHOUT
, 0x2F2F20414E592057415252414E54593B20776974686F7574206576656E2074686520696D706C6965642077617272616E7479206F66204D45524348414E544142494C495459206F72204649544E455353 -- // ANY WARRANTY; without even the implied warranty of MERCHANTABILITY or FITNESS
, 0x2F2F20464F52204120504152544943554C415220505552504F53452E205365652074686520474E552047656E6572616C205075626C6963204C6963656E736520666F72206D6F7265 -- // FOR A PARTICULAR PURPOSE. See the GNU General Public License for more
, 0x2F2F2064657461696C732E -- // details.
, 0x2F2F -- //
, 0x2F2F20596F752073686F756C642068617665207265636569766564206120636F7079206F662074686520474E552047656E6572616C205075626C6963204C6963656E736520616C6F6E672077697468 -- // You should have received a copy of the GNU General Public License along with
, 0x2F2F20746869732070726F6772616D2E204966206E6F742C20736565203C68747470733A2F2F7777772E676E752E6F72672F6C6963656E7365732F3E2E -- // this program. If not, see <https://www.gnu.org/licenses/>.
, 0x0 -- 
, 0x0 -- 
, 0x2F2F20546F20757365207468697320617363696920666F722061206E6577206B65796D61702C206564697420746865206B65796D61707320646566696E6974696F6E73206173 -- // To use this ascii for a new keymap, edit the keymaps definitions as
, 0x2F2F20646573697265642E20546865206B65796D61707320617265206F7267616E697A65642066726F6D20726F7720302C20636F756E74696E67207570776172642C20616E64206561636820726F77 -- // desired. The keymaps are organized from row 0, counting upward, and each row
, 0x2F2F20696E636C756465732074686520636F6C756D6E732066726F6D20302D4E554D5F434F4C532E -- // includes the columns from 0-NUM_COLS.
, 0x2F2F -- //
, 0x0 -- 
, 0x2369662021646566696E656428415344465F4B45594D41505F534F4C5F4829 -- #if !defined(ASDF_KEYMAP_SOL_H)
, 0x23646566696E6520415344465F4B45594D41505F534F4C5F48 -- #define ASDF_KEYMAP_SOL_H
, 0x23696E636C7564652022617364662E6822 -- #include "asdf.h"
, 0x23696E636C7564652022617364665F6B65796D61705F646566735F6469707377697463682E6822 -- #include "asdf_keymap_defs_dipswitch.h"
, 0x0 -- 
, 0x2F2F204564697420746865206E756D626572206F6620726F777320616E6420636F6C756D6E73207573656420696E2074686973206D61702E20496620746865206E756D626572206973206C657373 -- // Edit the number of rows and columns used in this map. If the number is less
, 0x2F2F207468616E20746865206D617869756D2C2074686520756E7573656420656C656D656E74732077696C6C20626520696E697469616C697A656420746F20302E -- // than the maxium, the unused elements will be initialized to 0.
, 0x0 -- 
, 0x23646566696E6520415344465F534F4C5F4E554D5F524F5753203133202F2F204449502073776974636865732061726520726F772039 -- #define ASDF_SOL_NUM_ROWS 13 // DIP switches are row 9
, 0x23646566696E6520415344465F534F4C5F4E554D5F434F4C532038 -- #define ASDF_SOL_NUM_COLS 8
, 0x0 -- 
, 0x0 -- 
, 0x2F2F204B6579204D617472697820666F7220636F6D62696E6174696F6E206F6620415343494920636F6E74726F6C6C6572202841544D656761333238502076657273696F6E2920616E6420436C6173736963204153434949206D6174726978 -- // Key Matrix for combination of ASCII controller (ATMega328P version) and Classic ASCII matrix
, 0x2F2F -- //
, 0x2F2F20436F6C2D3E202020302020202020202020202031202020202020202020203220202020202020202020332020202020202020202034202020202020202020203520202020202020202020362020202020202020202037 -- // Col->   0          1          2          3          4          5          6          7
, 0x2F2F20526F7720302020204C74204374726C2020202053686966744C6F636B202041202020202020202020205320202020202020202020442020202020202020202046202020202020202020204728616C7068612920202048 -- // Row 0   Lt Ctrl    ShiftLock  A          S          D          F          G(alpha)   H
, 0x2F2F20526F7720312020204A202020202020202020204B202020202020202020204C202020202020202020203B2873656D6929202020203A28636F6C6F6E2920202044454C202020202020202052657065617420202020205274204374726C -- // Row 1   J          K          L          ;(semi)    :(colon)   DEL        Repeat     Rt Ctrl
, 0x2F2F20526F77203220202055707065724361736520204C742053686966742020205A202020202020202020205820202020202020202020432020202020202020202056202020202020202020204228616C706861292020204E -- // Row 2   UpperCase  Lt Shift   Z          X          C          V          B(alpha)   N
, 0x2F2F20526F7720332020204D202020202020202020202C28636F6D6D61292020202E28706572696F642920202F28736C6173682920202052742053686966742020204D6F646553656C656374 -- // Row 3   M          ,(comma)   .(period)  /(slash)   Rt Shift   ModeSelect
, 0x2F2F20526F772034202020455343202020202020202031202020202020202020203220202020202020202020332020202020202020202034202020202020202020203520202020202020202020362873697829202020202037 -- // Row 4   ESC        1          2          3          4          5          6(six)     7
, 0x2F2F20526F7720352020203828656967687429202020392020202020202020202030287A65726F29202020202D284461736829202020205E284361726574292020205B202020202020202020205C202020202020202020205D -- // Row 5   8(eight)   9          0(zero)    -(Dash)    ^(Caret)   [          \          ]
, 0x2F2F20526F772036202020425245414B20202020202054414220202020202020205120202020202020202020572020202020202020202045202020202020202020205220202020202020202020542020202020202020202059 -- // Row 6   BREAK      TAB        Q          W          E          R          T          Y
, 0x2F2F20526F772037202020552020202020202020202049202020202020202020204F28616C706861292020205020202020202020202020402861742920202020202052657475726E20202020204C696E65466565642020204C6F6164 -- // Row 7   U          I          O(alpha)   P          @(at)      Return     LineFeed   Load
, 0x2F2F20526F7720392020204C4F43414C20202020202055704172726F77202020204C744172726F7720202020537061636562617220202052744172726F7720202020446E4172726F7720202020486F6D6520202020202020436C656172 -- // Row 9   LOCAL      UpArrow    LtArrow    Spacebar   RtArrow    DnArrow    Home       Clear
, 0x2F2F20526F7720313020204E502D4D696E75732020204E502D37202020202020204E502D54696D65732020204E502D38202020202020204E502D44697669646520204E502D3920202020202020286E6F6E65292020202020286E6F6E6529 -- // Row 10  NP-Minus   NP-7       NP-Times   NP-8       NP-Divide  NP-9       (none)     (none)
, 0x2F2F20526F7720313120204E502D34202020202020204E502D31202020202020204E502D35202020202020204E502D32202020202020204E502D36202020202020204E502D3320202020202020286E6F6E65292020202020286E6F6E6529 -- // Row 11  NP-4       NP-1       NP-5       NP-2       NP-6       NP-3       (none)     (none)
, 0x2F2F20526F7720313220204E502D30202020202020204E502D706572696F6420204E502D506C7573 -- // Row 12  NP-0       NP-period  NP-Plus
, 0x2F2F -- //
, 0x2F2F20526F77203820202044495020737769746368657320302D37 -- // Row 8   DIP switches 0-7
, 0x2F2F -- //
, 0x2F2F20506879736963616C205265736F75726365206D617070696E673A -- // Physical Resource mapping:
, 0x2F2F204C4544313A2055505045522043415345 -- // LED1: UPPER CASE
, 0x2F2F204C4544323A204C4F43414C -- // LED2: LOCAL
, 0x2F2F204C4544333A205348494654204C4F434B -- // LED3: SHIFT LOCK
, 0x2F2F204F5554313A205245534554 -- // OUT1: RESET
, 0x2F2F204F5554323A20425245414B -- // OUT2: BREAK
, 0x2F2F204F5554333A204C4F43414C -- // OUT3: LOCAL
, 0x0 -- 
, 0x2F2F204E6F7465733A -- // Notes:
, 0x2F2F -- //
, 0x2F2F20312920546F20656E7375726520636F6E73697374656E742044495020737769746368206F7065726174696F6E2077697468696E20746865206B65796D61702C2061 -- // 1) To ensure consistent DIP switch operation within the keymap, a
, 0x2F2F20202020415344465F534F4C5F4449505F5357495443484553206D6163726F20697320646566696E65642E204B656570696E672074686520414354494F4E5F4D415053454C302D33 -- //    ASDF_SOL_DIP_SWITCHES macro is defined. Keeping the ACTION_MAPSEL0-3
, 0x2F2F20202020646566696E6974696F6E7320696E20706F736974696F6E7320302D3320656E737572657320636F6E73697374656E74206D61702073656C656374696F6E20616D6F6E6720616C6C -- //    definitions in positions 0-3 ensures consistent map selection among all
, 0x2F2F202020206B65796D6170732E -- //    keymaps.
, 0x0 -- 
, 0x0 -- 
, 0x23646566696E6520534F4C5F5052494E545F44454C4159203430202F2F206D736563 -- #define SOL_PRINT_DELAY 40 // msec
, 0x23646566696E6520534F4C5F49445F4D4553534147455F484F4F4B20415344465F484F4F4B5F555345525F3130 -- #define SOL_ID_MESSAGE_HOOK ASDF_HOOK_USER_10
, 0x0 -- 
, 0x23646566696E6520534F4C5F4E554D5F524F5753203133 -- #define SOL_NUM_ROWS 13
, 0x23646566696E6520534F4C5F4E554D5F434F4C532038 -- #define SOL_NUM_COLS 8
, 0x0 -- 
, 0x23646566696E6520534F4C5F4B42445F56524553455420564F555431 -- #define SOL_KBD_VRESET VOUT1
, 0x23646566696E6520534F4C5F4B42445F56425245414B20564F555432 -- #define SOL_KBD_VBREAK VOUT2
, 0x23646566696E6520534F4C5F4B42445F564C4F43414C20564F555433 -- #define SOL_KBD_VLOCAL VOUT3
, 0x23646566696E6520534F4C5F4B42445F4C45445F4F4E2031 -- #define SOL_KBD_LED_ON 1
, 0x23646566696E6520534F4C5F4B42445F4C45445F4F46462030 -- #define SOL_KBD_LED_OFF 0
, 0x0 -- 
, 0x2F2F2054686520534F4C206D616E75616C20287365632E20372E372E382920696E646963617465732073686966746C6F636B206C6F636B73205348494654206F6E2C20616E64205348494654 -- // The SOL manual (sec. 7.7.8) indicates shiftlock locks SHIFT on, and SHIFT
, 0x2F2F2072657475726E7320746F20756E736869667465642E20466F7220546F67676C65206265686176696F722C206368616E676520746F20414354494F4E5F53484946544C4F434B5F544F47474C452E -- // returns to unshifted. For Toggle behavior, change to ACTION_SHIFTLOCK_TOGGLE.
, 0x23646566696E6520534F4C5F4B42445F53484946544C4F434B5F414354494F4E20414354494F4E5F53484946544C4F434B5F4F4E -- #define SOL_KBD_SHIFTLOCK_ACTION ACTION_SHIFTLOCK_ON
, 0x0 -- 
, 0x0 -- 
, 0x2F2F2054686520776569726420432070726570726F636573736F7220657870616E73696F6E206265686176696F72207265717569726573206F6E652064657265666572656E636520666F722065616368 -- // The weird C preprocessor expansion behavior requires one dereference for each
, 0x2F2F20657870616E73696F6E2E -- // expansion.
, 0x23646566696E6520534F4C5F4B42445F5649525455414C5F5355423128534F4C5F564445564943452920414354494F4E5F20232320534F4C5F56444556494345 -- #define SOL_KBD_VIRTUAL_SUB1(SOL_VDEVICE) ACTION_ ## SOL_VDEVICE
, 0x23646566696E6520534F4C5F4B42445F5649525455414C5F53554228534F4C5F564445564943452920534F4C5F4B42445F5649525455414C5F5355423128534F4C5F5644455649434529 -- #define SOL_KBD_VIRTUAL_SUB(SOL_VDEVICE) SOL_KBD_VIRTUAL_SUB1(SOL_VDEVICE)
, 0x23646566696E6520534F4C5F4B42445F4C4F43414C5F414354494F4E20534F4C5F4B42445F5649525455414C5F53554228534F4C5F4B42445F564C4F43414C29 -- #define SOL_KBD_LOCAL_ACTION SOL_KBD_VIRTUAL_SUB(SOL_KBD_VLOCAL)
, 0x23646566696E6520534F4C5F4B42445F52455345545F414354494F4E20534F4C5F4B42445F5649525455414C5F53554228534F4C5F4B42445F56524553455429 -- #define SOL_KBD_RESET_ACTION SOL_KBD_VIRTUAL_SUB(SOL_KBD_VRESET)
, 0x23646566696E6520534F4C5F4B42445F425245414B5F414354494F4E20534F4C5F4B42445F5649525455414C5F53554228534F4C5F4B42445F56425245414B29 -- #define SOL_KBD_BREAK_ACTION SOL_KBD_VIRTUAL_SUB(SOL_KBD_VBREAK)
, 0x0 -- 
, 0x23646566696E6520534F4C5F41534349495F4C4F41442030783843 -- #define SOL_ASCII_LOAD 0x8C
, 0x23646566696E6520534F4C5F41534349495F4D4F44455F53454C4543542030783830 -- #define SOL_ASCII_MODE_SELECT 0x80
, 0x23646566696E6520534F4C5F41534349495F55505F4152524F572030783937 -- #define SOL_ASCII_UP_ARROW 0x97
, 0x23646566696E6520534F4C5F41534349495F4C545F4152524F572030783831 -- #define SOL_ASCII_LT_ARROW 0x81
, 0x23646566696E6520534F4C5F41534349495F52545F4152524F572030783933 -- #define SOL_ASCII_RT_ARROW 0x93
, 0x23646566696E6520534F4C5F41534349495F444E5F4152524F572030783961 -- #define SOL_ASCII_DN_ARROW 0x9a
, 0x23646566696E6520534F4C5F41534349495F484F4D452030783865 -- #define SOL_ASCII_HOME 0x8e
, 0x23646566696E6520534F4C5F41534349495F434C4541522030783862 -- #define SOL_ASCII_CLEAR 0x8b
, 0x0 -- 
, 0x23646566696E6520534F4C5F4B42445F54544C5F484947482031 -- #define SOL_KBD_TTL_HIGH 1
, 0x23646566696E6520534F4C5F4B42445F54544C5F4C4F572030 -- #define SOL_KBD_TTL_LOW 0
, 0x0 -- 
, 0x23646566696E6520534F4C5F4B42445F4C45445F55505045524341534520504859534943414C5F4C454431 -- #define SOL_KBD_LED_UPPERCASE PHYSICAL_LED1
, 0x23646566696E6520534F4C5F4B42445F4C45445F4C4F43414C20504859534943414C5F4C454432 -- #define SOL_KBD_LED_LOCAL PHYSICAL_LED2
, 0x23646566696E6520534F4C5F4B42445F4C45445F53484946544C4F434B20504859534943414C5F4C454433 -- #define SOL_KBD_LED_SHIFTLOCK PHYSICAL_LED3
, 0x23646566696E6520534F4C5F4B42445F54544C4F55545F524553455420504859534943414C5F4F5554335F4F50454E5F4849202F2F20456D756C617465206F70656E20636F6C6C6563746F72206F75747075742E -- #define SOL_KBD_TTLOUT_RESET PHYSICAL_OUT3_OPEN_HI // Emulate open collector output.
, 0x23646566696E6520534F4C5F4B42445F54544C4F55545F425245414B20504859534943414C5F4F555432 -- #define SOL_KBD_TTLOUT_BREAK PHYSICAL_OUT2
, 0x23646566696E6520534F4C5F4B42445F54544C4F55545F4C4F43414C20504859534943414C5F4F555431 -- #define SOL_KBD_TTLOUT_LOCAL PHYSICAL_OUT1
, 0x0 -- 
, 0x23646566696E6520415344465F534F4C5F4449505F535749544348455320415344465F4B45594D41505F4449505F5357495443484553 -- #define ASDF_SOL_DIP_SWITCHES ASDF_KEYMAP_DIP_SWITCHES
, 0x0 -- 
, 0x0 -- 
, 0x23656E646966202F2A2021646566696E65642028415344465F4B45594D41505F534F4C5F4829202A2F -- #endif /* !defined (ASDF_KEYMAP_SOL_H) */
, 0x0 -- 
, 0x2F2F2D2D2D2D2D2D2D7C2D2D2D2D2D2D2D2D2D7C2D2D2D2D2D2D2D2D2D2B2D2D2D2D2D2D2D2D2D2B2D2D2D2D2D2D2D2D2D2B2D2D2D2D2D2D2D2D2D2B2D2D2D2D2D2D2D2D2D2B2D2D2D2D2D2D2D2D2D2B -- //-------|---------|---------+---------+---------+---------+---------+---------+
, 0x2F2F2041626F7665206C696E6520697320383020636F6C756D6E732C20616E642073686F756C6420646973706C617920636F6D706C6574656C7920696E2074686520656469746F722E -- // Above line is 80 columns, and should display completely in the editor.
  ]

/-- /repo/firmware/asdf/src/Keymaps/asdf_keymap_ace1000.h, lines 1-71. -/
def asdf_keymap_ace1000_h : List Nat := [
  0x2F2F202D2A2D206D6F64653A20433B207461622D77696474683A2034203B20696E64656E742D746162732D6D6F64653A206E696C202D2A2D -- // -*- mode: C; tab-width: 4 ; indent-tabs-mode: nil -*-
, 0x2F2F -- //
, 0x2F2F20556E666966696564204B6579626F6172642050726F6A656374 -- // Unfified Keyboard Project
, 0x2F2F2041534446206B6579626F617264206669726D77617265 -- // ASDF keyboard firmware
, 0x2F2F -- //
, 0x2F2F20617364665F6B65796D61705F616365313030302E68 -- // asdf_keymap_ace1000.h
, 0x2F2F -- //
, 0x2F2F204153434949206B65796D61707320666F7220746865204672616E6B6C696E204143452031303030207265706C6163656D656E74206B6579626F617264 -- // ASCII keymaps for the Franklin ACE 1000 replacement keyboard
, 0x2F2F2068747470733A2F2F6769746875622E636F6D2F727975636174732F4672616E6B6C696E2D4143452D313030302D4B6579626F617264 -- // https://github.com/ryucats/Franklin-ACE-1000-Keyboard
, 0x2F2F -- //
, 0x2F2F20436F70797269676874203230323320436872697320525955 -- // Copyright 2023 Chris RYU
, 0x2F2F20436F7079726967687420323031392044617669642046656E796573 -- // Copyright 2019 David Fenyes
, 0x2F2F -- //
, 0x2F2F20546869732070726F6772616D206973206672656520736F6674776172653A20796F752063616E2072656469737472696275746520697420616E642F6F72206D6F6469667920697420756E646572 -- // This program is free software: you can redistribute it and/or modify it under
, 0x2F2F20746865207465726D73206F662074686520474E552047656E6572616C205075626C6963204C6963656E7365206173207075626C697368656420627920746865204672656520536F667477617265 -- // the terms of the GNU General Public License as published by the Free Software
, 0x2F2F20466F756E646174696F6E2C206569746865722076657273696F6E2033206F6620746865204C6963656E73652C206F722028617420796F7572206F7074696F6E2920616E79206C61746572 -- // Foundation, either version 3 of the License, or (at your option) any later
, 0x2F2F2076657273696F6E2E -- // version.
, 0x2F2F -- //
, 0x2F2F20546869732070726F6772616D20697320646973747269627574656420696E2074686520686F706520746861742069742077696C6C2062652075736566756C2C2062757420574954484F5554 -- // This program is distributed in the hope that it will be useful, but WITHOUT
, 0x2F2F20414E592057415252414E54593B20776974686F7574206576656E2074686520696D706C6965642077617272616E7479206F66204D45524348414E544142494C495459206F72204649544E455353 -- // ANY WARRANTY; without even the implied warranty of MERCHANTABILITY or FITNESS
, 0x2F2F20464F52204120504152544943554C415220505552504F53452E205365652074686520474E552047656E6572616C205075626C6963204C6963656E736520666F72206D6F7265 -- // FOR A PARTICULAR PURPOSE. See the GNU General Public License for more
, 0x2F2F2064657461696C732E -- // details.
, 0x2F2F -- //
, 0x2F2F20596F752073686F756C642068617665207265636569766564206120636F7079206F662074686520474E552047656E6572616C205075626C6963204C6963656E736520616C6F6E672077697468 -- // You should have received a copy of the GNU General Public License along with
, 0x2F2F20746869732070726F6772616D2E204966206E6F742C20736565203C68747470733A2F2F7777772E676E752E6F72672F6C6963656E7365732F3E2E -- // this program. If not, see <https://www.gnu.org/licenses/>.
, 0x0 -- 
, 0x0 -- 
, 0x2F2F20546F20757365207468697320617363696920666F722061206E6577206B65796D61702C206564697420746865206B65796D61707320646566696E6974696F6E73206173 -- // To use this ascii for a new keymap, edit the keymaps definitions as
, 0x2F2F20646573697265642E20546865206B65796D61707320617265206F7267616E697A65642066726F6D20726F7720302C20636F756E74696E67207570776172642C20616E64206561636820726F77 -- // desired. The keymaps are organized from row 0, counting upward, and each row
, 0x2F2F20696E636C756465732074686520636F6C756D6E732066726F6D20302D4E554D5F434F4C532E -- // includes the columns from 0-NUM_COLS.
, 0x2F2F -- //
, 0x0 -- 
, 0x2369662021646566696E656428415344465F4B45594D41505F444546535F414345313030305F4829 -- #if !defined(ASDF_KEYMAP_DEFS_ACE1000_H)
, 0x23646566696E6520415344465F4B45594D41505F444546535F414345313030305F48 -- #define ASDF_KEYMAP_DEFS_ACE1000_H
, 0x0 -- 
, 0x23696E636C7564652022617364665F686F6F6B2E6822 -- #include "asdf_hook.h"
, 0x0 -- 
, 0x2F2F204564697420746865206E756D626572206F6620726F777320616E6420636F6C756D6E73207573656420696E2074686973206D61702E20496620746865206E756D626572206973206C657373 -- // Edit the number of rows and columns used in this map. If the number is less
, 0x2F2F207468616E20746865206D617869756D2C2074686520756E7573656420656C656D656E74732077696C6C20626520696E697469616C697A656420746F20302E -- // than the maxium, the unused elements will be initialized to 0.
, 0x0 -- 
, 0x23646566696E6520414345313030305F4E554D5F524F5753203130202F2F204449502073776974636865732061726520726F77203820287A65726F20626173656429 -- #define ACE1000_NUM_ROWS 10 // DIP switches are row 8 (zero based)
, 0x23646566696E6520414345313030305F4E554D5F434F4C532038 -- #define ACE1000_NUM_COLS 8
, 0x0 -- 
, 0x23646566696E6520414345313030305F414354494F4E5F425245414B20414354494F4E5F4E4F5448494E47 -- #define ACE1000_ACTION_BREAK ACTION_NOTHING
, 0x0 -- 
, 0x23646566696E6520414345313030305F5649525455414C5F524553455420564F555431 -- #define ACE1000_VIRTUAL_RESET VOUT1
, 0x23646566696E6520414345313030305F414354494F4E5F524553455420414354494F4E5F564F555431 -- #define ACE1000_ACTION_RESET ACTION_VOUT1
, 0x23646566696E6520414345313030305F52455345545F4F555450555420504859534943414C5F4F5554335F4F50454E5F4849 -- #define ACE1000_RESET_OUTPUT PHYSICAL_OUT3_OPEN_HI
, 0x23646566696E6520414345313030305F52455345545F4143544956455F56414C55452030 -- #define ACE1000_RESET_ACTIVE_VALUE 0
, 0x0 -- 
, 0x23646566696E6520414345313030305F5649525455414C5F434C525F53435220564F555432 -- #define ACE1000_VIRTUAL_CLR_SCR VOUT2
, 0x23646566696E6520414345313030305F414354494F4E5F434C45415220414354494F4E5F564F555432 -- #define ACE1000_ACTION_CLEAR ACTION_VOUT2
, 0x23646566696E6520414345313030305F434C525F5343525F4F555420504859534943414C5F4F5554315F4F50454E5F4C4F -- #define ACE1000_CLR_SCR_OUT PHYSICAL_OUT1_OPEN_LO
, 0x23646566696E6520414345313030305F434C525F5343525F4143544956455F56414C55452031 -- #define ACE1000_CLR_SCR_ACTIVE_VALUE 1
, 0x0 -- 
, 0x23646566696E6520414345313030305F5649525455414C5F504F5745525F4C454420564C454431 -- #define ACE1000_VIRTUAL_POWER_LED VLED1
, 0x23646566696E6520414345313030305F504F5745525F4C454420504859534943414C5F4C454431 -- #define ACE1000_POWER_LED PHYSICAL_LED1
, 0x23646566696E6520414345313030305F504F5745525F4C45445F494E49545F56414C55452031 -- #define ACE1000_POWER_LED_INIT_VALUE 1
, 0x0 -- 
, 0x23646566696E6520414345313030305F434150535F4C454420504859534943414C5F4C454433 -- #define ACE1000_CAPS_LED PHYSICAL_LED3
, 0x23646566696E6520414345313030305F434150535F4C45445F494E49545F56414C55452030 -- #define ACE1000_CAPS_LED_INIT_VALUE 0
, 0x0 -- 
, 0x23646566696E6520414345313030305F49445F4D4553534147455F484F4F4B20415344465F484F4F4B5F555345525F3130 -- #define ACE1000_ID_MESSAGE_HOOK ASDF_HOOK_USER_10
, 0x23646566696E65204150504C45534F46545F4B4559424F4152445F544553545F484F4F4B20415344465F484F4F4B5F555345525F39 -- #define APPLESOFT_KEYBOARD_TEST_HOOK ASDF_HOOK_USER_9
, 0x0 -- 
, 0x23646566696E6520415344465F414345313030305F5052494E545F5350454544203430 -- #define ASDF_ACE1000_PRINT_SPEED 40
, 0x0 -- 
, 0x23656E646966202F2A2021646566696E65642028415344465F4B45594D41505F444546535F414345313030305F4829202A2F -- #endif /* !defined (ASDF_KEYMAP_DEFS_ACE1000_H) */
, 0x0 -- 
, 0x2F2F2D2D2D2D2D2D2D7C2D2D2D2D2D2D2D2D2D7C2D2D2D2D2D2D2D2D2D2B2D2D2D2D2D2D2D2D2D2B2D2D2D2D2D2D2D2D2D2B2D2D2D2D2D2D2D2D2D2B2D2D2D2D2D2D2D2D2D2B2D2D2D2D2D2D2D2D2D2B -- //-------|---------|---------+---------+---------+---------+---------+---------+
, 0x2F2F2041626F7665206C696E6520697320383020636F6C756D6E732C20616E642073686F756C6420646973706C617920636F6D706C6574656C7920696E2074686520656469746F722E -- // Above line is 80 columns, and should display completely in the editor.
  ]

/-- /repo/firmware/asdf/src/Keymaps/asdf_keymap_ace1000_add_map.h, lines 1-254. -/
def asdf_keymap_ace1000_add_map_h : List Nat := [
  0x2F2F202D2A2D206D6F64653A20433B207461622D77696474683A2034203B20696E64656E742D746162732D6D6F64653A206E696C202D2A2D -- // -*- mode: C; tab-width: 4 ; indent-tabs-mode: nil -*-
, 0x2F2F -- //
, 0x2F2F20556E666966696564204B6579626F6172642050726F6A656374 -- // Unfified Keyboard Project
, 0x2F2F2041534446206B6579626F617264206669726D77617265 -- // ASDF keyboard firmware
, 0x2F2F -- //
, 0x2F2F20617364665F6B65796D61705F636C61737369635F6164645F6D61702E68 -- // asdf_keymap_classic_add_map.h
, 0x2F2F -- //
, 0x2F2F204B65796D6170206D6174726963657320616E64206164645F6D617028292066756E6374696F6E20666F7220746865204672616E6B6C696E204143452031303030207265706C6163656D656E74206B6579626F617264 -- // Keymap matrices and add_map() function for the Franklin ACE 1000 replacement keyboard
, 0x2F2F2068747470733A2F2F6769746875622E636F6D2F727975636174732F4672616E6B6C696E2D4143452D313030302D4B6579626F617264 -- // https://github.com/ryucats/Franklin-ACE-1000-Keyboard
, 0x2F2F -- //
, 0x2F2F20436F70797269676874203230323320436872697320525955 -- // Copyright 2023 Chris RYU
, 0x2F2F20436F7079726967687420323031392044617669642046656E796573 -- // Copyright 2019 David Fenyes
, 0x2F2F -- //
, 0x2F2F20546869732070726F6772616D206973206672656520736F6674776172653A20796F752063616E2072656469737472696275746520697420616E642F6F72206D6F6469667920697420756E646572 -- // This program is free software: you can redistribute it and/or modify it under
, 0x2F2F20746865207465726D73206F662074686520474E552047656E6572616C205075626C6963204C6963656E7365206173207075626C697368656420627920746865204672656520536F667477617265 -- // the terms of the GNU General Public License as published by the Free Software
, 0x2F2F20466F756E646174696F6E2C206569746865722076657273696F6E2033206F6620746865204C6963656E73652C206F722028617420796F7572206F7074696F6E2920616E79206C61746572 -- // Foundation, either version 3 of the License, or (at your option) any later
, 0x2F2F2076657273696F6E2E -- // version.
, 0x2F2F -- //
, 0x2F2F20546869732070726F6772616D20697320646973747269627574656420696E2074686520686F706520746861742069742077696C6C2062652075736566756C2C2062757420574954484F5554 -- // This program is distributed in the hope that it will be useful, but WITHOUT
, 0x2F2F20414E592057415252414E54593B20776974686F7574206576656E2074686520696D706C6965642077617272616E7479206F66204D45524348414E544142494C495459206F72204649544E455353 -- // ANY WARRANTY; without even the implied warranty of MERCHANTABILITY or FITNESS
, 0x2F2F20464F52204120504152544943554C415220505552504F53452E205365652074686520474E552047656E6572616C205075626C6963204C6963656E736520666F72206D6F7265 -- // FOR A PARTICULAR PURPOSE. See the GNU General Public License for more
, 0x2F2F2064657461696C732E -- // details.
, 0x2F2F -- //
, 0x2F2F20596F752073686F756C642068617665207265636569766564206120636F7079206F662074686520474E552047656E6572616C205075626C6963204C6963656E736520616C6F6E672077697468 -- // You should have received a copy of the GNU General Public License along with
, 0x2F2F20746869732070726F6772616D2E204966206E6F742C20736565203C68747470733A2F2F7777772E676E752E6F72672F6C6963656E7365732F3E2E -- // this program. If not, see <https://www.gnu.org/licenses/>.
, 0x0 -- 
, 0x2369662021646566696E656428415344465F4B45594D41505F414345313030305F4144445F4D41505F4829 -- #if !defined(ASDF_KEYMAP_ACE1000_ADD_MAP_H)
, 0x23646566696E6520415344465F4B45594D41505F414345313030305F4144445F4D41505F48 -- #define ASDF_KEYMAP_ACE1000_ADD_MAP_H
, 0x0 -- 
, 0x23696E636C7564652022617364665F6B65796D61705F646566735F6469707377697463682E6822 -- #include "asdf_keymap_defs_dipswitch.h"
, 0x23696E636C7564652022617364665F6D6F646966696572732E6822 -- #include "asdf_modifiers.h"
, 0x0 -- 
, 0x7479706564656620656E756D207B -- typedef enum {
, 0x2020414345313030305F504C41494E5F4D41502C --   ACE1000_PLAIN_MAP,
, 0x2020414345313030305F434150535F4D41502C --   ACE1000_CAPS_MAP,
, 0x2020414345313030305F53484946545F4D41502C --   ACE1000_SHIFT_MAP,
, 0x2020414345313030305F4354524C5F4D41502C --   ACE1000_CTRL_MAP,
, 0x7D20616365313030305F6D61705F696E6465785F743B -- } ace1000_map_index_t;
, 0x0 -- 
, 0x0 -- 
, 0x2F2F2066756E6374696F6E2070726F746F7479706573 -- // function prototypes
, 0x766F696420616365313030305F6164645F6D617028636F6E737420616365313030305F6D61705F696E6465785F74206D61705F696E6465782C206D6F6469666965725F696E6465785F74206D6F6469666965725F696E646578293B -- void ace1000_add_map(const ace1000_map_index_t map_index, modifier_index_t modifier_index);
, 0x766F696420616365313030305F6B6579626F6172645F7465737428766F6964293B -- void ace1000_keyboard_test(void);
, 0x0 -- 
, 0x23646566696E6520415344465F4143455F4449505F535749544348455320415344465F4B45594D41505F4449505F5357495443484553 -- #define ASDF_ACE_DIP_SWITCHES ASDF_KEYMAP_DIP_SWITCHES
, 0x0 -- 
, 0x2F2F204B65792076616C756520646566696E6974696F6E73 -- // Key value definitions
, 0x23646566696E65204143455F4B45595F300930783330 -- #define ACE_KEY_0	0x30
, 0x23646566696E65204143455F4B45595F310930783331 -- #define ACE_KEY_1	0x31
, 0x23646566696E65204143455F4B45595F320930783332 -- #define ACE_KEY_2	0x32
, 0x23646566696E65204143455F4B45595F330930783333 -- #define ACE_KEY_3	0x33
, 0x23646566696E65204143455F4B45595F340930783334 -- #define ACE_KEY_4	0x34
, 0x23646566696E65204143455F4B45595F350930783335 -- #define ACE_KEY_5	0x35
, 0x23646566696E65204143455F4B45595F360930783336 -- #define ACE_KEY_6	0x36
, 0x23646566696E65204143455F4B45595F370930783337 -- #define ACE_KEY_7	0x37
, 0x23646566696E65204143455F4B45595F380930783338 -- #define ACE_KEY_8	0x38
, 0x23646566696E65204143455F4B45595F390930783339 -- #define ACE_KEY_9	0x39
, 0x23646566696E65204143455F4B45595F410930783631 -- #define ACE_KEY_A	0x61
, 0x23646566696E65204143455F4B45595F420930783632 -- #define ACE_KEY_B	0x62
, 0x23646566696E65204143455F4B45595F425245414B0930783033 -- #define ACE_KEY_BREAK	0x03
, 0x23646566696E65204143455F4B45595F430930783633 -- #define ACE_KEY_C	0x63
, 0x23646566696E65204143455F4B45595F434F4D4D410930783263 -- #define ACE_KEY_COMMA	0x2c
, 0x23646566696E65204143455F4B45595F4354524C5F300930783330 -- #define ACE_KEY_CTRL_0	0x30
, 0x23646566696E65204143455F4B45595F4354524C5F310930783331 -- #define ACE_KEY_CTRL_1	0x31
, 0x23646566696E65204143455F4B45595F4354524C5F320930783332 -- #define ACE_KEY_CTRL_2	0x32
, 0x23646566696E65204143455F4B45595F4354524C5F330930783333 -- #define ACE_KEY_CTRL_3	0x33
, 0x23646566696E65204143455F4B45595F4354524C5F340930783334 -- #define ACE_KEY_CTRL_4	0x34
, 0x23646566696E65204143455F4B45595F4354524C5F350930783335 -- #define ACE_KEY_CTRL_5	0x35
, 0x23646566696E65204143455F4B45595F4354524C5F360930783336 -- #define ACE_KEY_CTRL_6	0x36
, 0x23646566696E65204143455F4B45595F4354524C5F370930783337 -- #define ACE_KEY_CTRL_7	0x37
, 0x23646566696E65204143455F4B45595F4354524C5F380930783338 -- #define ACE_KEY_CTRL_8	0x38
, 0x23646566696E65204143455F4B45595F4354524C5F390930783339 -- #define ACE_KEY_CTRL_9	0x39
, 0x23646566696E65204143455F4B45595F4354524C5F410930783031 -- #define ACE_KEY_CTRL_A	0x01
, 0x23646566696E65204143455F4B45595F4354524C5F420930783032 -- #define ACE_KEY_CTRL_B	0x02
, 0x23646566696E65204143455F4B45595F4354524C5F425245414B0930783033 -- #define ACE_KEY_CTRL_BREAK	0x03
, 0x23646566696E65204143455F4B45595F4354524C5F430930783033 -- #define ACE_KEY_CTRL_C	0x03
, 0x23646566696E65204143455F4B45595F4354524C5F434F4D4D410930783263 -- #define ACE_KEY_CTRL_COMMA	0x2c
, 0x23646566696E65204143455F4B45595F4354524C5F4355524C590930783762 -- #define ACE_KEY_CTRL_CURLY	0x7b
, 0x23646566696E65204143455F4B45595F4354524C5F440930783034 -- #define ACE_KEY_CTRL_D	0x04
, 0x23646566696E65204143455F4B45595F4354524C5F450930783035 -- #define ACE_KEY_CTRL_E	0x05
, 0x23646566696E65204143455F4B45595F4354524C5F4553430930783162 -- #define ACE_KEY_CTRL_ESC	0x1b
, 0x23646566696E65204143455F4B45595F4354524C5F460930783036 -- #define ACE_KEY_CTRL_F	0x06
, 0x23646566696E65204143455F4B45595F4354524C5F470930783037 -- #define ACE_KEY_CTRL_G	0x07
, 0x23646566696E65204143455F4B45595F4354524C5F480930783038 -- #define ACE_KEY_CTRL_H	0x08
, 0x23646566696E65204143455F4B45595F4354524C5F490930783039 -- #define ACE_KEY_CTRL_I	0x09
, 0x23646566696E65204143455F4B45595F4354524C5F4A0930783061 -- #define ACE_KEY_CTRL_J	0x0a
, 0x23646566696E65204143455F4B45595F4354524C5F4B0930783062 -- #define ACE_KEY_CTRL_K	0x0b
, 0x23646566696E65204143455F4B45595F4354524C5F4C0930783063 -- #define ACE_KEY_CTRL_L	0x0c
, 0x23646566696E65204143455F4B45595F4354524C5F4C4546540930783038 -- #define ACE_KEY_CTRL_LEFT	0x08
, 0x23646566696E65204143455F4B45595F4354524C5F4D0930783064 -- #define ACE_KEY_CTRL_M	0x0d
, 0x23646566696E65204143455F4B45595F4354524C5F4E0930783065 -- #define ACE_KEY_CTRL_N	0x0e
, 0x23646566696E65204143455F4B45595F4354524C5F4E554D5F300930783330 -- #define ACE_KEY_CTRL_NUM_0	0x30
, 0x23646566696E65204143455F4B45595F4354524C5F4E554D5F310930783331 -- #define ACE_KEY_CTRL_NUM_1	0x31
, 0x23646566696E65204143455F4B45595F4354524C5F4E554D5F320930783332 -- #define ACE_KEY_CTRL_NUM_2	0x32
, 0x23646566696E65204143455F4B45595F4354524C5F4E554D5F330930783333 -- #define ACE_KEY_CTRL_NUM_3	0x33
, 0x23646566696E65204143455F4B45595F4354524C5F4E554D5F340930783334 -- #define ACE_KEY_CTRL_NUM_4	0x34
, 0x23646566696E65204143455F4B45595F4354524C5F4E554D5F350930783335 -- #define ACE_KEY_CTRL_NUM_5	0x35
, 0x23646566696E65204143455F4B45595F4354524C5F4E554D5F360930783336 -- #define ACE_KEY_CTRL_NUM_6	0x36
, 0x23646566696E65204143455F4B45595F4354524C5F4E554D5F370930783337 -- #define ACE_KEY_CTRL_NUM_7	0x37
, 0x23646566696E65204143455F4B45595F4354524C5F4E554D5F380930783338 -- #define ACE_KEY_CTRL_NUM_8	0x38
, 0x23646566696E65204143455F4B45595F4354524C5F4E554D5F390930783339 -- #define ACE_KEY_CTRL_NUM_9	0x39
, 0x23646566696E65204143455F4B45595F4354524C5F47540930783365 -- #define ACE_KEY_CTRL_GT	0x3e
, 0x23646566696E65204143455F4B45595F4354524C5F4D494E55530930783264 -- #define ACE_KEY_CTRL_MINUS	0x2d
, 0x23646566696E65204143455F4B45595F4354524C5F53504C41540930783261 -- #define ACE_KEY_CTRL_SPLAT	0x2a
, 0x23646566696E65204143455F4B45595F4354524C5F4E554D5F504552494F440930783265 -- #define ACE_KEY_CTRL_NUM_PERIOD	0x2e
, 0x23646566696E65204143455F4B45595F4354524C5F4E554D5F504C55530930783262 -- #define ACE_KEY_CTRL_NUM_PLUS	0x2b
, 0x23646566696E65204143455F4B45595F4354524C5F4F0930783066 -- #define ACE_KEY_CTRL_O	0x0f
, 0x23646566696E65204143455F4B45595F4354524C5F500930783130 -- #define ACE_KEY_CTRL_P	0x10
, 0x23646566696E65204143455F4B45595F52455455524E2030783064 -- #define ACE_KEY_RETURN 0x0d
, 0x23646566696E65204143455F4B45595F4354524C5F50415553450930783133 -- #define ACE_KEY_CTRL_PAUSE	0x13
, 0x23646566696E65204143455F4B45595F4354524C5F504552494F440930783265 -- #define ACE_KEY_CTRL_PERIOD	0x2e
, 0x23646566696E65204143455F4B45595F4354524C5F504C55530930783364 -- #define ACE_KEY_CTRL_PLUS	0x3d
, 0x23646566696E65204143455F4B45595F4354524C5F510930783131 -- #define ACE_KEY_CTRL_Q	0x11
, 0x23646566696E65204143455F4B45595F4354524C5F534C4153480930783266 -- #define ACE_KEY_CTRL_SLASH	0x2f
, 0x23646566696E65204143455F4B45595F4354524C5F51554F54450930783237 -- #define ACE_KEY_CTRL_QUOTE	0x27
, 0x23646566696E65204143455F4B45595F4354524C5F520930783132 -- #define ACE_KEY_CTRL_R	0x12
, 0x23646566696E65204143455F4B45595F4354524C5F52494748540930783135 -- #define ACE_KEY_CTRL_RIGHT	0x15
, 0x23646566696E65204143455F4B45595F4354524C5F530930783133 -- #define ACE_KEY_CTRL_S	0x13
, 0x23646566696E65204143455F4B45595F4354524C5F53454D490930783362 -- #define ACE_KEY_CTRL_SEMI	0x3b
, 0x23646566696E65204143455F4B45595F4354524C5F53504143450930783230 -- #define ACE_KEY_CTRL_SPACE	0x20
, 0x23646566696E65204143455F4B45595F4354524C5F5351554152450930783164 -- #define ACE_KEY_CTRL_SQUARE	0x1d
, 0x23646566696E65204143455F4B45595F4354524C5F540930783134 -- #define ACE_KEY_CTRL_T	0x14
, 0x23646566696E65204143455F4B45595F4354524C5F5441420930783039 -- #define ACE_KEY_CTRL_TAB	0x09
, 0x23646566696E65204143455F4B45595F4354524C5F550930783135 -- #define ACE_KEY_CTRL_U	0x15
, 0x23646566696E65204143455F4B45595F4354524C5F554E44455253434F52450930783364 -- #define ACE_KEY_CTRL_UNDERSCORE	0x3d
, 0x23646566696E65204143455F4B45595F4354524C5F560930783136 -- #define ACE_KEY_CTRL_V	0x16
, 0x23646566696E65204143455F4B45595F4354524C5F570930783137 -- #define ACE_KEY_CTRL_W	0x17
, 0x23646566696E65204143455F4B45595F4354524C5F580930783138 -- #define ACE_KEY_CTRL_X	0x18
, 0x23646566696E65204143455F4B45595F4354524C5F590930783139 -- #define ACE_KEY_CTRL_Y	0x19
, 0x23646566696E65204143455F4B45595F4354524C5F5A0930783161 -- #define ACE_KEY_CTRL_Z	0x1a
, 0x23646566696E65204143455F4B45595F4355524C590930783762 -- #define ACE_KEY_CURLY	0x7b
, 0x23646566696E65204143455F4B45595F440930783634 -- #define ACE_KEY_D	0x64
, 0x23646566696E65204143455F4B45595F450930783635 -- #define ACE_KEY_E	0x65
, 0x23646566696E65204143455F4B45595F4553430930783162 -- #define ACE_KEY_ESC	0x1b
, 0x23646566696E65204143455F4B45595F460930783636 -- #define ACE_KEY_F	0x66
, 0x23646566696E65204143455F4B45595F470930783637 -- #define ACE_KEY_G	0x67
, 0x23646566696E65204143455F4B45595F480930783638 -- #define ACE_KEY_H	0x68
, 0x23646566696E65204143455F4B45595F490930783639 -- #define ACE_KEY_I	0x69
, 0x23646566696E65204143455F4B45595F4A0930783661 -- #define ACE_KEY_J	0x6a
, 0x23646566696E65204143455F4B45595F4B0930783662 -- #define ACE_KEY_K	0x6b
, 0x23646566696E65204143455F4B45595F4C0930783663 -- #define ACE_KEY_L	0x6c
, 0x23646566696E65204143455F4B45595F4C4546540930783038 -- #define ACE_KEY_LEFT	0x08
, 0x23646566696E65204143455F4B45595F4D0930783664 -- #define ACE_KEY_M	0x6d
, 0x23646566696E65204143455F4B45595F4E0930783665 -- #define ACE_KEY_N	0x6e
, 0x23646566696E65204143455F4B45595F4E554D5F300930783330 -- #define ACE_KEY_NUM_0	0x30
, 0x23646566696E65204143455F4B45595F4E554D5F310930783331 -- #define ACE_KEY_NUM_1	0x31
, 0x23646566696E65204143455F4B45595F4E554D5F320930783332 -- #define ACE_KEY_NUM_2	0x32
, 0x23646566696E65204143455F4B45595F4E554D5F330930783333 -- #define ACE_KEY_NUM_3	0x33
, 0x23646566696E65204143455F4B45595F4E554D5F340930783334 -- #define ACE_KEY_NUM_4	0x34
, 0x23646566696E65204143455F4B45595F4E554D5F350930783335 -- #define ACE_KEY_NUM_5	0x35
, 0x23646566696E65204143455F4B45595F4E554D5F360930783336 -- #define ACE_KEY_NUM_6	0x36
, 0x23646566696E65204143455F4B45595F4E554D5F370930783337 -- #define ACE_KEY_NUM_7	0x37
, 0x23646566696E65204143455F4B45595F4E554D5F380930783338 -- #define ACE_KEY_NUM_8	0x38
, 0x23646566696E65204143455F4B45595F4E554D5F390930783339 -- #define ACE_KEY_NUM_9	0x39
, 0x23646566696E65204143455F4B45595F47540930783365 -- #define ACE_KEY_GT	0x3e
, 0x23646566696E65204143455F4B45595F4D494E55530930783264 -- #define ACE_KEY_MINUS	0x2d
, 0x23646566696E65204143455F4B45595F53504C41540930783261 -- #define ACE_KEY_SPLAT	0x2a
, 0x23646566696E65204143455F4B45595F4E554D5F504552494F440930783265 -- #define ACE_KEY_NUM_PERIOD	0x2e
, 0x23646566696E65204143455F4B45595F4E554D5F504C55530930783262 -- #define ACE_KEY_NUM_PLUS	0x2b
, 0x23646566696E65204143455F4B45595F4F0930783666 -- #define ACE_KEY_O	0x6f
, 0x23646566696E65204143455F4B45595F500930783730 -- #define ACE_KEY_P	0x70
, 0x23646566696E65204143455F4B45595F50415553450930783133 -- #define ACE_KEY_PAUSE	0x13
, 0x23646566696E65204143455F4B45595F504552494F440930783265 -- #define ACE_KEY_PERIOD	0x2e
, 0x23646566696E65204143455F4B45595F504C55530930783364 -- #define ACE_KEY_PLUS	0x3d
, 0x23646566696E65204143455F4B45595F510930783731 -- #define ACE_KEY_Q	0x71
, 0x23646566696E65204143455F4B45595F534C4153480930783266 -- #define ACE_KEY_SLASH	0x2f
, 0x23646566696E65204143455F4B45595F51554F54450930783237 -- #define ACE_KEY_QUOTE	0x27
, 0x23646566696E65204143455F4B45595F520930783732 -- #define ACE_KEY_R	0x72
, 0x23646566696E65204143455F4B45595F52494748540930783135 -- #define ACE_KEY_RIGHT	0x15
, 0x23646566696E65204143455F4B45595F530930783733 -- #define ACE_KEY_S	0x73
, 0x23646566696E65204143455F4B45595F53454D490930783362 -- #define ACE_KEY_SEMI	0x3b
, 0x23646566696E65204143455F4B45595F53484946545F300930783239 -- #define ACE_KEY_SHIFT_0	0x29
, 0x23646566696E65204143455F4B45595F53484946545F310930783231 -- #define ACE_KEY_SHIFT_1	0x21
, 0x23646566696E65204143455F4B45595F53484946545F320930783430 -- #define ACE_KEY_SHIFT_2	0x40
, 0x23646566696E65204143455F4B45595F53484946545F330930783233 -- #define ACE_KEY_SHIFT_3	0x23
, 0x23646566696E65204143455F4B45595F53484946545F340930783234 -- #define ACE_KEY_SHIFT_4	0x24
, 0x23646566696E65204143455F4B45595F53484946545F350930783235 -- #define ACE_KEY_SHIFT_5	0x25
, 0x23646566696E65204143455F4B45595F53484946545F360930783565 -- #define ACE_KEY_SHIFT_6	0x5e
, 0x23646566696E65204143455F4B45595F53484946545F370930783236 -- #define ACE_KEY_SHIFT_7	0x26
, 0x23646566696E65204143455F4B45595F53484946545F380930783261 -- #define ACE_KEY_SHIFT_8	0x2a
, 0x23646566696E65204143455F4B45595F53484946545F390930783238 -- #define ACE_KEY_SHIFT_9	0x28
, 0x23646566696E65204143455F4B45595F53484946545F410930783431 -- #define ACE_KEY_SHIFT_A	0x41
, 0x23646566696E65204143455F4B45595F53484946545F420930783432 -- #define ACE_KEY_SHIFT_B	0x42
, 0x23646566696E65204143455F4B45595F53484946545F425245414B0930783033 -- #define ACE_KEY_SHIFT_BREAK	0x03
, 0x23646566696E65204143455F4B45595F53484946545F430930783433 -- #define ACE_KEY_SHIFT_C	0x43
, 0x23646566696E65204143455F4B45595F53484946545F434F4D4D410930783363 -- #define ACE_KEY_SHIFT_COMMA	0x3c
, 0x23646566696E65204143455F4B45595F53484946545F4355524C590930783764 -- #define ACE_KEY_SHIFT_CURLY	0x7d
, 0x23646566696E65204143455F4B45595F53484946545F440930783434 -- #define ACE_KEY_SHIFT_D	0x44
, 0x23646566696E65204143455F4B45595F53484946545F450930783435 -- #define ACE_KEY_SHIFT_E	0x45
, 0x23646566696E65204143455F4B45595F53484946545F4553430930783162 -- #define ACE_KEY_SHIFT_ESC	0x1b
, 0x23646566696E65204143455F4B45595F53484946545F460930783436 -- #define ACE_KEY_SHIFT_F	0x46
, 0x23646566696E65204143455F4B45595F53484946545F470930783437 -- #define ACE_KEY_SHIFT_G	0x47
, 0x23646566696E65204143455F4B45595F53484946545F480930783438 -- #define ACE_KEY_SHIFT_H	0x48
, 0x23646566696E65204143455F4B45595F53484946545F490930783439 -- #define ACE_KEY_SHIFT_I	0x49
, 0x23646566696E65204143455F4B45595F53484946545F4A0930783461 -- #define ACE_KEY_SHIFT_J	0x4a
, 0x23646566696E65204143455F4B45595F53484946545F4B0930783462 -- #define ACE_KEY_SHIFT_K	0x4b
, 0x23646566696E65204143455F4B45595F53484946545F4C0930783463 -- #define ACE_KEY_SHIFT_L	0x4c
, 0x23646566696E65204143455F4B45595F53484946545F4C4546540930783038 -- #define ACE_KEY_SHIFT_LEFT	0x08
, 0x23646566696E65204143455F4B45595F53484946545F4D0930783464 -- #define ACE_KEY_SHIFT_M	0x4d
, 0x23646566696E65204143455F4B45595F53484946545F4E0930783465 -- #define ACE_KEY_SHIFT_N	0x4e
, 0x23646566696E65204143455F4B45595F53484946545F4E554D5F300930783330 -- #define ACE_KEY_SHIFT_NUM_0	0x30
, 0x23646566696E65204143455F4B45595F53484946545F4E554D5F310930783331 -- #define ACE_KEY_SHIFT_NUM_1	0x31
, 0x23646566696E65204143455F4B45595F53484946545F4E554D5F320930783332 -- #define ACE_KEY_SHIFT_NUM_2	0x32
, 0x23646566696E65204143455F4B45595F53484946545F4E554D5F330930783333 -- #define ACE_KEY_SHIFT_NUM_3	0x33
, 0x23646566696E65204143455F4B45595F53484946545F4E554D5F340930783334 -- #define ACE_KEY_SHIFT_NUM_4	0x34
, 0x23646566696E65204143455F4B45595F53484946545F4E554D5F350930783335 -- #define ACE_KEY_SHIFT_NUM_5	0x35
, 0x23646566696E65204143455F4B45595F53484946545F4E554D5F360930783336 -- #define ACE_KEY_SHIFT_NUM_6	0x36
, 0x23646566696E65204143455F4B45595F53484946545F4E554D5F370930783337 -- #define ACE_KEY_SHIFT_NUM_7	0x37
, 0x23646566696E65204143455F4B45595F53484946545F4E554D5F380930783338 -- #define ACE_KEY_SHIFT_NUM_8	0x38
, 0x23646566696E65204143455F4B45595F53484946545F4E554D5F390930783339 -- #define ACE_KEY_SHIFT_NUM_9	0x39
, 0x23646566696E65204143455F4B45595F53484946545F47540930783365 -- #define ACE_KEY_SHIFT_GT	0x3e
, 0x23646566696E65204143455F4B45595F53484946545F4D494E55530930783264 -- #define ACE_KEY_SHIFT_MINUS	0x2d
, 0x23646566696E65204143455F4B45595F53484946545F53504C41540930783261 -- #define ACE_KEY_SHIFT_SPLAT	0x2a
, 0x23646566696E65204143455F4B45595F53484946545F4E554D5F504552494F440930783265 -- #define ACE_KEY_SHIFT_NUM_PERIOD	0x2e
, 0x23646566696E65204143455F4B45595F53484946545F4E554D5F504C55530930783262 -- #define ACE_KEY_SHIFT_NUM_PLUS	0x2b
, 0x23646566696E65204143455F4B45595F53484946545F4F0930783466 -- #define ACE_KEY_SHIFT_O	0x4f
, 0x23646566696E65204143455F4B45595F53484946545F500930783530 -- #define ACE_KEY_SHIFT_P	0x50
, 0x23646566696E65204143455F4B45595F53484946545F50415553450930783133 -- #define ACE_KEY_SHIFT_PAUSE	0x13
, 0x23646566696E65204143455F4B45595F53484946545F504552494F440930783365 -- #define ACE_KEY_SHIFT_PERIOD	0x3e
, 0x23646566696E65204143455F4B45595F53484946545F504C55530930783262 -- #define ACE_KEY_SHIFT_PLUS	0x2b
, 0x23646566696E65204143455F4B45595F53484946545F510930783531 -- #define ACE_KEY_SHIFT_Q	0x51
, 0x23646566696E65204143455F4B45595F53484946545F534C4153480930783366 -- #define ACE_KEY_SHIFT_SLASH	0x3f
, 0x23646566696E65204143455F4B45595F53484946545F51554F54450930783232 -- #define ACE_KEY_SHIFT_QUOTE	0x22
, 0x23646566696E65204143455F4B45595F53484946545F520930783532 -- #define ACE_KEY_SHIFT_R	0x52
, 0x23646566696E65204143455F4B45595F53484946545F52494748540930783135 -- #define ACE_KEY_SHIFT_RIGHT	0x15
, 0x23646566696E65204143455F4B45595F53484946545F530930783533 -- #define ACE_KEY_SHIFT_S	0x53
, 0x23646566696E65204143455F4B45595F53484946545F53454D490930783361 -- #define ACE_KEY_SHIFT_SEMI	0x3a
, 0x23646566696E65204143455F4B45595F53484946545F53504143450930783230 -- #define ACE_KEY_SHIFT_SPACE	0x20
, 0x23646566696E65204143455F4B45595F53484946545F5351554152450930783564 -- #define ACE_KEY_SHIFT_SQUARE	0x5d
, 0x23646566696E65204143455F4B45595F53484946545F540930783534 -- #define ACE_KEY_SHIFT_T	0x54
, 0x23646566696E65204143455F4B45595F53484946545F5441420930783039 -- #define ACE_KEY_SHIFT_TAB	0x09
, 0x23646566696E65204143455F4B45595F53484946545F550930783535 -- #define ACE_KEY_SHIFT_U	0x55
, 0x23646566696E65204143455F4B45595F53484946545F554E44455253434F52450930783566 -- #define ACE_KEY_SHIFT_UNDERSCORE	0x5f
, 0x23646566696E65204143455F4B45595F53484946545F560930783536 -- #define ACE_KEY_SHIFT_V	0x56
, 0x23646566696E65204143455F4B45595F53484946545F570930783537 -- #define ACE_KEY_SHIFT_W	0x57
, 0x23646566696E65204143455F4B45595F53484946545F580930783538 -- #define ACE_KEY_SHIFT_X	0x58
, 0x23646566696E65204143455F4B45595F53484946545F590930783539 -- #define ACE_KEY_SHIFT_Y	0x59
, 0x23646566696E65204143455F4B45595F53484946545F5A0930783541 -- #define ACE_KEY_SHIFT_Z	0x5A
, 0x23646566696E65204143455F4B45595F53504143450930783230 -- #define ACE_KEY_SPACE	0x20
, 0x23646566696E65204143455F4B45595F5351554152450930783562 -- #define ACE_KEY_SQUARE	0x5b
, 0x23646566696E65204143455F4B45595F540930783734 -- #define ACE_KEY_T	0x74
, 0x23646566696E65204143455F4B45595F5441420930783039 -- #define ACE_KEY_TAB	0x09
, 0x23646566696E65204143455F4B45595F550930783735 -- #define ACE_KEY_U	0x75
, 0x23646566696E65204143455F4B45595F554E44455253434F52450930783264 -- #define ACE_KEY_UNDERSCORE	0x2d
, 0x23646566696E65204143455F4B45595F560930783736 -- #define ACE_KEY_V	0x76
, 0x23646566696E65204143455F4B45595F570930783737 -- #define ACE_KEY_W	0x77
, 0x23646566696E65204143455F4B45595F580930783738 -- #define ACE_KEY_X	0x78
, 0x23646566696E65204143455F4B45595F590930783739 -- #define ACE_KEY_Y	0x79
, 0x23646566696E65204143455F4B45595F5A0930783761 -- #define ACE_KEY_Z	0x7a
, 0x0 -- 
, 0x23656E646966202F2A2021646566696E65642028415344465F4B45594D41505F414345313030305F4144445F4D41505F4829202A2F -- #endif /* !defined (ASDF_KEYMAP_ACE1000_ADD_MAP_H) */
, 0x0 -- 
, 0x2F2F2D2D2D2D2D2D2D7C2D2D2D2D2D2D2D2D2D7C2D2D2D2D2D2D2D2D2D2B2D2D2D2D2D2D2D2D2D2B2D2D2D2D2D2D2D2D2D2B2D2D2D2D2D2D2D2D2D2B2D2D2D2D2D2D2D2D2D2B2D2D2D2D2D2D2D2D2D2B -- //-------|---------|---------+---------+---------+---------+---------+---------+
, 0x2F2F2041626F7665206C696E6520697320383020636F6C756D6E732C20616E642073686F756C6420646973706C617920636F6D706C6574656C7920696E2074686520656469746F722E -- // Above line is 80 columns, and should display completely in the editor.
  ]

/-- /repo/firmware/asdf/src/Keymaps/asdf_keymap_classic_add_map.c, lines 1-156. -/
def asdf_keymap_classic_add_map_c : List Nat := [
  0x2F2F202D2A2D206D6F64653A20433B207461622D77696474683A2032203B20696E64656E742D746162732D6D6F64653A206E696C202D2A2D -- // -*- mode: C; tab-width: 2 ; indent-tabs-mode: nil -*-
, 0x2F2F -- //
, 0x2F2F20556E6966696564204B6579626F6172642050726F6A656374 -- // Unified Keyboard Project
, 0x2F2F2041534446206B6579626F617264206669726D77617265 -- // ASDF keyboard firmware
, 0x2F2F -- //
, 0x2F2F20617364665F6B65796D61705F636C61737369632E63 -- // asdf_keymap_classic.c
, 0x2F2F -- //
, 0x2F2F20646566696E657320746865206B65796D6170206D617472696365732075736564206279207468652022636C6173736963222041444D203341207374796C65206B65796D61702076617269616E7473 -- // defines the keymap matrices used by the "classic" ADM 3A style keymap variants
, 0x2F2F -- //
, 0x2F2F20436F7079726967687420323031392044617669642046656E796573 -- // Copyright 2019 David Fenyes
, 0x2F2F -- //
, 0x2F2F20546869732070726F6772616D206973206672656520736F6674776172653A20796F752063616E2072656469737472696275746520697420616E642F6F72206D6F6469667920697420756E646572 -- // This program is free software: you can redistribute it and/or modify it under
, 0x2F2F20746865207465726D73206F662074686520474E552047656E6572616C205075626C6963204C6963656E7365206173207075626C697368656420627920746865204672656520536F667477617265 -- // the terms of the GNU General Public License as published by the Free Software
, 0x2F2F20466F756E646174696F6E2C206569746865722076657273696F6E2033206F6620746865204C6963656E73652C206F722028617420796F7572206F7074696F6E2920616E79206C61746572 -- // Foundation, either version 3 of the License, or (at your option) any later
, 0x2F2F2076657273696F6E2E -- // version.
, 0x2F2F -- //
, 0x2F2F20546869732070726F6772616D20697320646973747269627574656420696E2074686520686F706520746861742069742077696C6C2062652075736566756C2C2062757420574954484F5554 -- // This program is distributed in the hope that it will be useful, but WITHOUT
, 0x2F2F20414E592057415252414E54593B20776974686F7574206576656E2074686520696D706C6965642077617272616E7479206F66204D45524348414E544142494C495459206F72204649544E455353 -- // ANY WARRANTY; without even the implied warranty of MERCHANTABILITY or FITNESS
, 0x2F2F20464F52204120504152544943554C415220505552504F53452E205365652074686520474E552047656E6572616C205075626C6963204C6963656E736520666F72206D6F7265 -- // FOR A PARTICULAR PURPOSE. See the GNU General Public License for more
, 0x2F2F2064657461696C732E -- // details.
, 0x2F2F -- //
, 0x2F2F20596F752073686F756C642068617665207265636569766564206120636F7079206F662074686520474E552047656E6572616C205075626C6963204C6963656E736520616C6F6E672077697468 -- // You should have received a copy of the GNU General Public License along with
, 0x2F2F20746869732070726F6772616D2E204966206E6F742C20736565203C68747470733A2F2F7777772E676E752E6F72672F6C6963656E7365732F3E2E -- // this program. If not, see <https://www.gnu.org/licenses/>.
, 0x2F2F -- //
, 0x0 -- 
, 0x23696E636C7564652022617364665F617263682E6822 -- #include "asdf_arch.h"
, 0x23696E636C7564652022617364662E6822 -- #include "asdf.h"
, 0x23696E636C7564652022617364665F61736369692E6822 -- #include "asdf_ascii.h"
, 0x23696E636C7564652022617364665F6B65796D6170732E6822 -- #include "asdf_keymaps.h"
, 0x23696E636C7564652022617364665F6B65796D61705F636C61737369632E6822 -- #include "asdf_keymap_classic.h"
, 0x23696E636C7564652022617364665F6B65796D61705F636C61737369635F6164645F6D61702E6822 -- #include "asdf_keymap_classic_add_map.h"
, 0x23696E636C7564652022617364665F6B65796D61705F646566735F6469707377697463682E6822 -- #include "asdf_keymap_defs_dipswitch.h"
, 0x0 -- 
, 0x2F2F204B6579204D617472697820666F7220636F6D62696E6174696F6E206F6620415343494920636F6E74726F6C6C657220616E6420436C6173736963204153434949206D6174726978 -- // Key Matrix for combination of ASCII controller and Classic ASCII matrix
, 0x2F2F -- //
, 0x2F2F20436F6C2D3E202020302020202020202020202031202020202020202020203220202020202020202020332020202020202020202034202020202020202020203520202020202020202020362020202020202020202037 -- // Col->   0          1          2          3          4          5          6          7
, 0x2F2F20526F772030202020504F574552202020202020522D5368696674202020204C2D536869667420202020286E6F206B657929202020455343202020202020202054414220202020202020204354524C202020202020205C286261636B736C61736829 -- // Row 0   POWER      R-Shift    L-Shift    (no key)   ESC        TAB        CTRL       \(backslash)
, 0x2F2F20526F7720312020205275626F7574202020202050202020202020202020203B202020202020202020202F2020202020202020202053504143454241522020205A20202020202020202020412020202020202020202051 -- // Row 1   Rubout     P          ;          /          SPACEBAR   Z          A          Q
, 0x2F2F20526F772032202020427265616B2020202020202C28636F6D6D61292020204D202020202020202020204E2020202020202020202042202020202020202020205620202020202020202020432020202020202020202058 -- // Row 2   Break      ,(comma)   M          N          B          V          C          X
, 0x2F2F20526F77203320202053706172652020202020204B202020202020202020204A20202020202020202020482020202020202020202047202020202020202020204620202020202020202020442020202020202020202041 -- // Row 3   Spare      K          J          H          G          F          D          A
, 0x2F2F20526F7720342020205274206172726F7720202049202020202020202020205520202020202020202020592020202020202020202054202020202020202020205220202020202020202020452020202020202020202057 -- // Row 4   Rt arrow   I          U          Y          T          R          E          W
, 0x2F2F20526F7720352020204C54206172726F772020205265706561742020202020436170734C6F636B20202052657475726E20202020204C696E65466565642020204F28616C706861292020204C202020202020202020202E28706572696F6429 -- // Row 5   LT arrow   Repeat     CapsLock   Return     LineFeed   O(alpha)   L          .(period)
, 0x2F2F20526F7720362020207E2874696C6465292020205D202020202020202020205B202020202020202020202D286461736829202020203A28636F6C6F6E2920202030286E756D6572616C2920392020202020202020202038 -- // Row 6   ~(tilde)   ]          [          -(dash)    :(colon)   0(numeral) 9          8
, 0x2F2F20526F772037202020402861742920202020202037202020202020202020203620202020202020202020352020202020202020202034202020202020202020203320202020202020202020322020202020202020202031 -- // Row 7   @(at)      7          6          5          4          3          2          1
, 0x2F2F -- //
, 0x2F2F20526F772031352044495020737769746368657320302D37 -- // Row 15 DIP switches 0-7
, 0x2F2F -- //
, 0x2F2F204E6F7465733A -- // Notes:
, 0x2F2F -- //
, 0x2F2F20312920546865206B6579732061626F766520636F72726573706F6E6420746F207468652073696C6B2073637265656E206F6E20746865205043422E20466F7220746865204F534920616E64 -- // 1) The keys above correspond to the silk screen on the PCB. For the OSI and
, 0x2F2F202020204170706C65206C61796F7574732C20746865206B657973206D6179206E6F7420616C6C206D61746368207468652073696C6B2073637265656E2E205768656E206372656174696E672061 -- //    Apple layouts, the keys may not all match the silk screen. When creating a
, 0x2F2F202020206C61796F757420646966666572656E742066726F6D207468652073696C6B2073637265656E2C206C6F6F6B2075702074686520726F7720616E6420636F6C756D6E20666F7220746865 -- //    layout different from the silk screen, look up the row and column for the
, 0x2F2F2020202073696C6B2073637265656E206C6162656C20617420746865206465736972656420706F736974696F6E2C20616E64207468656E20706C616365207468652064657369726564 -- //    silk screen label at the desired position, and then place the desired
, 0x2F2F2020202066756E6374696F6E20696E20746865206B65796D617020646566696E6974696F6E20617420746865206465736972656420726F7720616E6420636F6C756D6E2E20466F72 -- //    function in the keymap definition at the desired row and column. For
, 0x2F2F202020206578616D706C652C20746865204170706C652032206B65796D617020706C61636573207468652022524553455422206B65792061742074686520225B222073696C6B2D73637265656E -- //    example, the Apple 2 keymap places the "RESET" key at the "[" silk-screen
, 0x2F2F20202020706F736974696F6E2C20526F7720362C20436F6C20322E20546865206B65796D617020706C6163657320414354494F4E5F524553455420617420526F7720362C20436F6C203220696E -- //    position, Row 6, Col 2. The keymap places ACTION_RESET at Row 6, Col 2 in
, 0x2F2F202020207468652022415344465F4150504C45325F4354524C5F4D41502220746F206D6170207468652052455345542066756E6374696F6E20746F20746865204354524C2D5245534554206B6579 -- //    the "ASDF_APPLE2_CTRL_MAP" to map the RESET function to the CTRL-RESET key
, 0x2F2F20202020636F6D62696E6174696F6E2E -- //    combination.
, 0x2F2F -- //
, 0x2F2F20322920546F20656E7375726520636F6E73697374656E742044495020737769746368206F7065726174696F6E2077697468696E20746865206B65796D61702C2061 -- // 2) To ensure consistent DIP switch operation within the keymap, a
, 0x2F2F20202020415344465F41534349495F4449505F5357495443484553206D6163726F20697320646566696E65642E204B656570696E672074686520414354494F4E5F4D415053454C302D33 -- //    ASDF_ASCII_DIP_SWITCHES macro is defined. Keeping the ACTION_MAPSEL0-3
, 0x2F2F20202020646566696E6974696F6E7320696E20706F736974696F6E7320302D3320656E737572657320636F6E73697374656E74206D61702073656C656374696F6E20616D6F6E6720616C6C -- //    definitions in positions 0-3 ensures consistent map selection among all
, 0x2F2F202020206B65796D6170732E -- //    keymaps.
, 0x0 -- 
, 0x23646566696E6520415344465F434C41535349435F4449505F535749544348455320415344465F4B45594D41505F4449505F5357495443484553 -- #define ASDF_CLASSIC_DIP_SWITCHES ASDF_KEYMAP_DIP_SWITCHES
, 0x0 -- 
, 0x7479706564656620617364665F6B6579636F64655F7420636C61737369635F6B6579636F64655F6D61747269785F745B434C41535349435F4E554D5F524F57535D5B434C41535349435F4E554D5F434F4C535D3B -- typedef asdf_keycode_t classic_keycode_matrix_t[CLASSIC_NUM_ROWS][CLASSIC_NUM_COLS];
, 0x0 -- 
, 0x0 -- 
, 0x0 -- 
, 0x636F6E737420464C41534820636C61737369635F6B6579636F64655F6D61747269785F7420636C61737369635F706C61696E5F6D6174726978203D207B -- const FLASH classic_keycode_matrix_t classic_plain_matrix = {
, 0x20205B305D203D207B20414354494F4E5F4E4F5448494E472C20414354494F4E5F53484946542C20414354494F4E5F53484946542C20414354494F4E5F4E4F5448494E472C2041534349495F4553432C2041534349495F5441422C --   [0] = { ACTION_NOTHING, ACTION_SHIFT, ACTION_SHIFT, ACTION_NOTHING, ASCII_ESC, ASCII_TAB,
, 0x20202020202020202020414354494F4E5F4354524C2C2041534349495F4241434B534C415348207D2C --           ACTION_CTRL, ASCII_BACKSLASH },
, 0x20205B315D203D207B2041534349495F44454C2C202770272C20273B272C20272F272C2041534349495F53504143452C20277A272C202761272C20277127207D2C --   [1] = { ASCII_DEL, 'p', ';', '/', ASCII_SPACE, 'z', 'a', 'q' },
, 0x20205B325D203D207B20434C41535349435F414354494F4E5F425245414B2C2041534349495F434F4D4D412C20276D272C20276E272C202762272C202776272C202763272C20277827207D2C --   [2] = { CLASSIC_ACTION_BREAK, ASCII_COMMA, 'm', 'n', 'b', 'v', 'c', 'x' },
, 0x20205B335D203D207B20414354494F4E5F4E4F5448494E472C20276B272C20276A272C202768272C202767272C202766272C202764272C20277327207D2C --   [3] = { ACTION_NOTHING, 'k', 'j', 'h', 'g', 'f', 'd', 's' },
, 0x20205B345D203D207B20414354494F4E5F4E4F5448494E472C202769272C202775272C202779272C202774272C202772272C202765272C20277727207D2C --   [4] = { ACTION_NOTHING, 'i', 'u', 'y', 't', 'r', 'e', 'w' },
, 0x20205B355D203D207B20414354494F4E5F4E4F5448494E472C20414354494F4E5F5245504541542C20414354494F4E5F434150532C2041534349495F43522C2041534349495F4C462C20276F272C20276C272C2041534349495F504552494F44207D2C --   [5] = { ACTION_NOTHING, ACTION_REPEAT, ACTION_CAPS, ASCII_CR, ASCII_LF, 'o', 'l', ASCII_PERIOD },
, 0x20205B365D203D207B2041534349495F54494C44452C2041534349495F52545F5351554152455F42524143452C2041534349495F4C545F5351554152455F42524143452C20272D272C20273A272C2041534349495F5A45524F2C202739272C --   [6] = { ASCII_TILDE, ASCII_RT_SQUARE_BRACE, ASCII_LT_SQUARE_BRACE, '-', ':', ASCII_ZERO, '9',
, 0x20202020202020202020273827207D2C --           '8' },
, 0x20205B375D203D207B2041534349495F41542C202737272C202736272C202735272C202734272C202733272C202732272C20273127207D2C --   [7] = { ASCII_AT, '7', '6', '5', '4', '3', '2', '1' },
, 0x2020415344465F434C41535349435F4449505F5357495443484553 --   ASDF_CLASSIC_DIP_SWITCHES
, 0x7D3B -- };
, 0x0 -- 
, 0x636F6E737420464C41534820636C61737369635F6B6579636F64655F6D61747269785F7420636C61737369635F73686966745F6D6174726978203D207B -- const FLASH classic_keycode_matrix_t classic_shift_matrix = {
, 0x20205B305D203D207B20414354494F4E5F4E4F5448494E472C20414354494F4E5F53484946542C20414354494F4E5F53484946542C20414354494F4E5F4E4F5448494E472C2041534349495F4553432C2041534349495F5441422C --   [0] = { ACTION_NOTHING, ACTION_SHIFT, ACTION_SHIFT, ACTION_NOTHING, ASCII_ESC, ASCII_TAB,
, 0x20202020202020202020414354494F4E5F4354524C2C2041534349495F564552545F424152207D2C --           ACTION_CTRL, ASCII_VERT_BAR },
, 0x20205B315D203D207B2041534349495F44454C2C202750272C20272B272C20273F272C2041534349495F53504143452C20275A272C202741272C20275127207D2C --   [1] = { ASCII_DEL, 'P', '+', '?', ASCII_SPACE, 'Z', 'A', 'Q' },
, 0x20205B325D203D207B20434C41535349435F414354494F4E5F434C4541522C20273C272C20274D272C20274E272C202742272C202756272C202743272C20275827207D2C --   [2] = { CLASSIC_ACTION_CLEAR, '<', 'M', 'N', 'B', 'V', 'C', 'X' },
, 0x20205B335D203D207B20414354494F4E5F4E4F5448494E472C20274B272C20274A272C202748272C202747272C202746272C202744272C20275327207D2C --   [3] = { ACTION_NOTHING, 'K', 'J', 'H', 'G', 'F', 'D', 'S' },
, 0x20205B345D203D207B20414354494F4E5F4E4F5448494E472C202749272C202755272C202759272C202754272C202752272C202745272C20275727207D2C --   [4] = { ACTION_NOTHING, 'I', 'U', 'Y', 'T', 'R', 'E', 'W' },
, 0x20205B355D203D207B20414354494F4E5F4E4F5448494E472C20414354494F4E5F5245504541542C20414354494F4E5F434150532C2041534349495F43522C2041534349495F4C462C20274F272C20274C272C20273E27207D2C --   [5] = { ACTION_NOTHING, ACTION_REPEAT, ACTION_CAPS, ASCII_CR, ASCII_LF, 'O', 'L', '>' },
, 0x20205B365D203D207B2041534349495F54494C44452C2041534349495F52545F4355524C595F42524143452C2041534349495F4C545F4355524C595F42524143452C20273D272C20272A272C2041534349495F5A45524F2C --   [6] = { ASCII_TILDE, ASCII_RT_CURLY_BRACE, ASCII_LT_CURLY_BRACE, '=', '*', ASCII_ZERO,
, 0x2020202020202020202041534349495F52545F504152454E2C2041534349495F4C545F504152454E207D2C --           ASCII_RT_PAREN, ASCII_LT_PAREN },
, 0x20205B375D203D207B2041534349495F47524156455F414343454E542C2041534349495F53494E474C455F51554F54452C202726272C202725272C202724272C202723272C2041534349495F444F55424C455F51554F54452C20272127207D2C --   [7] = { ASCII_GRAVE_ACCENT, ASCII_SINGLE_QUOTE, '&', '%', '$', '#', ASCII_DOUBLE_QUOTE, '!' },
, 0x2020415344465F434C41535349435F4449505F5357495443484553 --   ASDF_CLASSIC_DIP_SWITCHES
, 0x7D3B -- };
, 0x0 -- 
, 0x636F6E737420464C41534820636C61737369635F6B6579636F64655F6D61747269785F7420636C61737369635F636170735F6D6174726978203D207B -- const FLASH classic_keycode_matrix_t classic_caps_matrix = {
, 0x20205B305D203D207B20414354494F4E5F4E4F5448494E472C20414354494F4E5F53484946542C20414354494F4E5F53484946542C20414354494F4E5F4E4F5448494E472C2041534349495F4553432C2041534349495F5441422C --   [0] = { ACTION_NOTHING, ACTION_SHIFT, ACTION_SHIFT, ACTION_NOTHING, ASCII_ESC, ASCII_TAB,
, 0x20202020202020202020414354494F4E5F4354524C2C2041534349495F4241434B534C415348207D2C --           ACTION_CTRL, ASCII_BACKSLASH },
, 0x20205B315D203D207B2041534349495F44454C2C202750272C20273B272C20272F272C2041534349495F53504143452C20275A272C202741272C20275127207D2C --   [1] = { ASCII_DEL, 'P', ';', '/', ASCII_SPACE, 'Z', 'A', 'Q' },
, 0x20205B325D203D207B20434C41535349435F414354494F4E5F425245414B2C2041534349495F434F4D4D412C20274D272C20274E272C202742272C202756272C202743272C20275827207D2C --   [2] = { CLASSIC_ACTION_BREAK, ASCII_COMMA, 'M', 'N', 'B', 'V', 'C', 'X' },
, 0x20205B335D203D207B20414354494F4E5F4E4F5448494E472C20274B272C20274A272C202748272C202747272C202746272C202744272C20275327207D2C --   [3] = { ACTION_NOTHING, 'K', 'J', 'H', 'G', 'F', 'D', 'S' },
, 0x20205B345D203D207B20414354494F4E5F4E4F5448494E472C202749272C202755272C202759272C202754272C202752272C202745272C20275727207D2C --   [4] = { ACTION_NOTHING, 'I', 'U', 'Y', 'T', 'R', 'E', 'W' },
, 0x20205B355D203D207B20414354494F4E5F4E4F5448494E472C20414354494F4E5F5245504541542C20414354494F4E5F434150532C2041534349495F43522C2041534349495F4C462C20274F272C20274C272C2041534349495F504552494F44207D2C --   [5] = { ACTION_NOTHING, ACTION_REPEAT, ACTION_CAPS, ASCII_CR, ASCII_LF, 'O', 'L', ASCII_PERIOD },
, 0x20205B365D203D207B2041534349495F54494C44452C2041534349495F52545F5351554152455F42524143452C2041534349495F4C545F5351554152455F42524143452C20272D272C20273A272C2041534349495F5A45524F2C202739272C --   [6] = { ASCII_TILDE, ASCII_RT_SQUARE_BRACE, ASCII_LT_SQUARE_BRACE, '-', ':', ASCII_ZERO, '9',
, 0x20202020202020202020273827207D2C --           '8' },
, 0x20205B375D203D207B2041534349495F41542C202737272C202736272C202735272C202734272C202733272C202732272C20273127207D2C --   [7] = { ASCII_AT, '7', '6', '5', '4', '3', '2', '1' },
, 0x2020415344465F434C41535349435F4449505F5357495443484553 --   ASDF_CLASSIC_DIP_SWITCHES
, 0x7D3B -- };
, 0x0 -- 
, 0x636F6E737420464C41534820636C61737369635F6B6579636F64655F6D61747269785F7420636C61737369635F6374726C5F6D6174726978203D207B -- const FLASH classic_keycode_matrix_t classic_ctrl_matrix = {
, 0x20205B305D203D207B20414354494F4E5F4E4F5448494E472C20414354494F4E5F53484946542C20414354494F4E5F53484946542C20414354494F4E5F4E4F5448494E472C2041534349495F4553432C2041534349495F5441422C --   [0] = { ACTION_NOTHING, ACTION_SHIFT, ACTION_SHIFT, ACTION_NOTHING, ASCII_ESC, ASCII_TAB,
, 0x20202020202020202020414354494F4E5F4354524C2C2030783163207D2C --           ACTION_CTRL, 0x1c },
, 0x20205B315D203D207B20414354494F4E5F4E4F5448494E472C2041534349495F4354524C5F502C20414354494F4E5F4E4F5448494E472C20414354494F4E5F4E4F5448494E472C2041534349495F53504143452C2041534349495F4354524C5F5A2C --   [1] = { ACTION_NOTHING, ASCII_CTRL_P, ACTION_NOTHING, ACTION_NOTHING, ASCII_SPACE, ASCII_CTRL_Z,
, 0x2020202020202020202041534349495F4354524C5F412C2041534349495F4354524C5F51207D2C --           ASCII_CTRL_A, ASCII_CTRL_Q },
, 0x20205B325D203D207B20434C41535349435F414354494F4E5F52455345542C2041534349495F434F4D4D412C2041534349495F4354524C5F4D2C2041534349495F4354524C5F4E2C2041534349495F4354524C5F422C2041534349495F4354524C5F562C --   [2] = { CLASSIC_ACTION_RESET, ASCII_COMMA, ASCII_CTRL_M, ASCII_CTRL_N, ASCII_CTRL_B, ASCII_CTRL_V,
, 0x2020202020202020202041534349495F4354524C5F432C2041534349495F4354524C5F58207D2C --           ASCII_CTRL_C, ASCII_CTRL_X },
, 0x20205B335D203D207B20414354494F4E5F4E4F5448494E472C2041534349495F4354524C5F4B2C2041534349495F4354524C5F4A2C2041534349495F4354524C5F482C2041534349495F4354524C5F472C2041534349495F4354524C5F462C --   [3] = { ACTION_NOTHING, ASCII_CTRL_K, ASCII_CTRL_J, ASCII_CTRL_H, ASCII_CTRL_G, ASCII_CTRL_F,
, 0x2020202020202020202041534349495F4354524C5F442C2041534349495F4354524C5F53207D2C --           ASCII_CTRL_D, ASCII_CTRL_S },
, 0x20205B345D203D207B20414354494F4E5F4E4F5448494E472C2041534349495F4354524C5F492C2041534349495F4354524C5F552C2041534349495F4354524C5F592C2041534349495F4354524C5F542C2041534349495F4354524C5F522C --   [4] = { ACTION_NOTHING, ASCII_CTRL_I, ASCII_CTRL_U, ASCII_CTRL_Y, ASCII_CTRL_T, ASCII_CTRL_R,
, 0x2020202020202020202041534349495F4354524C5F452C2041534349495F4354524C5F57207D2C --           ASCII_CTRL_E, ASCII_CTRL_W },
, 0x20205B355D203D207B20414354494F4E5F4E4F5448494E472C20414354494F4E5F5245504541542C20414354494F4E5F434150532C2041534349495F43522C2041534349495F4C462C2041534349495F4354524C5F4F2C --   [5] = { ACTION_NOTHING, ACTION_REPEAT, ACTION_CAPS, ASCII_CR, ASCII_LF, ASCII_CTRL_O,
, 0x2020202020202020202041534349495F4354524C5F4C2C20414354494F4E5F4E4F5448494E47207D2C --           ASCII_CTRL_L, ACTION_NOTHING },
, 0x20205B365D203D207B20414354494F4E5F4E4F5448494E472C20307831642C2041534349495F4553432C20414354494F4E5F4E4F5448494E472C20414354494F4E5F4E4F5448494E472C20414354494F4E5F464E5F31302C --   [6] = { ACTION_NOTHING, 0x1d, ASCII_ESC, ACTION_NOTHING, ACTION_NOTHING, ACTION_FN_10,
, 0x20202020202020202020414354494F4E5F464E5F392C20414354494F4E5F464E5F38207D2C --           ACTION_FN_9, ACTION_FN_8 },
, 0x20205B375D203D207B2041534349495F4E554C4C2C20414354494F4E5F464E5F372C20414354494F4E5F464E5F362C20414354494F4E5F464E5F352C20414354494F4E5F464E5F342C20414354494F4E5F464E5F332C20414354494F4E5F464E5F322C --   [7] = { ASCII_NULL, ACTION_FN_7, ACTION_FN_6, ACTION_FN_5, ACTION_FN_4, ACTION_FN_3, ACTION_FN_2,
, 0x20202020202020202020414354494F4E5F464E5F31207D2C --           ACTION_FN_1 },
, 0x2020415344465F434C41535349435F4449505F5357495443484553 --   ASDF_CLASSIC_DIP_SWITCHES
, 0x7D3B -- };
, 0x0 -- 
, 0x0 -- 
, 0x0 -- 
, 0x73746174696320636F6E737420636C61737369635F6B6579636F64655F6D61747269785F74202A636C61737369635F6D6170735B5D203D207B -- static const classic_keycode_matrix_t *classic_maps[] = {
, 0x20205B434C41535349435F434150535F4D41505D203D2026636C61737369635F636170735F6D61747269782C --   [CLASSIC_CAPS_MAP] = &classic_caps_matrix,
, 0x20205B434C41535349435F504C41494E5F4D41505D203D2026636C61737369635F706C61696E5F6D61747269782C --   [CLASSIC_PLAIN_MAP] = &classic_plain_matrix,
, 0x20205B434C41535349435F53484946545F4D41505D203D2026636C61737369635F73686966745F6D61747269782C --   [CLASSIC_SHIFT_MAP] = &classic_shift_matrix,
, 0x20205B434C41535349435F4354524C5F4D41505D203D2026636C61737369635F6374726C5F6D61747269782C --   [CLASSIC_CTRL_MAP] = &classic_ctrl_matrix,
, 0x7D3B -- };
, 0x0 -- 
, 0x2020766F696420636C61737369635F6164645F6D617028636F6E737420636C61737369635F6D61705F696E6465785F74206D61705F696E6465782C --   void classic_add_map(const classic_map_index_t map_index,
, 0x20202020202020202020202020202020202020202020206D6F6469666965725F696E6465785F74206D6F6469666965725F696E64657829 --                        modifier_index_t modifier_index)
, 0x7B -- {
, 0x0 -- 
, 0x2020617364665F6B6579636F64655F7420282A6D6174726978295B434C41535349435F4E554D5F434F4C535D203D --   asdf_keycode_t (*matrix)[CLASSIC_NUM_COLS] =
, 0x2020202028617364665F6B6579636F64655F7420282A295B434C41535349435F4E554D5F434F4C535D2920636C61737369635F6D6170735B6D61705F696E6465785D3B --     (asdf_keycode_t (*)[CLASSIC_NUM_COLS]) classic_maps[map_index];
, 0x0 -- 
, 0x20202020617364665F6B65796D6170735F6164645F6D617028266D61747269785B305D5B305D2C206D6F6469666965725F696E6465782C202875696E74385F742920434C41535349435F4E554D5F524F57532C --     asdf_keymaps_add_map(&matrix[0][0], modifier_index, (uint8_t) CLASSIC_NUM_ROWS,
, 0x20202020202020202020202020202020202020202020202875696E74385F742920434C41535349435F4E554D5F434F4C53293B --                        (uint8_t) CLASSIC_NUM_COLS);
, 0x7D -- }
, 0x0 -- 
, 0x0 -- 
, 0x0 -- 
, 0x2F2F2D2D2D2D2D2D2D7C2D2D2D2D2D2D2D2D2D7C2D2D2D2D2D2D2D2D2D2B2D2D2D2D2D2D2D2D2D2B2D2D2D2D2D2D2D2D2D2B2D2D2D2D2D2D2D2D2D2B2D2D2D2D2D2D2D2D2D2B2D2D2D2D2D2D2D2D2D2B -- //-------|---------|---------+---------+---------+---------+---------+---------+
, 0x2F2F2041626F7665206C696E6520697320383020636F6C756D6E732C20616E642073686F756C6420646973706C617920636F6D706C6574656C7920696E2074686520656469746F722E -- // Above line is 80 columns, and should display completely in the editor.
  ]

/-- /repo/firmware/asdf/src/Keymaps/asdf_keymap_classic.c, lines 1-84. -/
def asdf_keymap_classic_c : List Nat := [
  0x2F2F202D2A2D206D6F64653A20433B207461622D77696474683A2032203B20696E64656E742D746162732D6D6F64653A206E696C202D2A2D -- // -*- mode: C; tab-width: 2 ; indent-tabs-mode: nil -*-
, 0x2F2F -- //
, 0x2F2F20556E6966696564204B6579626F6172642050726F6A656374 -- // Unified Keyboard Project
, 0x2F2F2041534446206B6579626F617264206669726D77617265 -- // ASDF keyboard firmware
, 0x2F2F -- //
, 0x2F2F20617364665F6B65796D61705F636C61737369632E63 -- // asdf_keymap_classic.c
, 0x2F2F -- //
, 0x2F2F20496D706C656D656E7473207468652022636C6173736963222041444D203341207374796C65206B65796D617073 -- // Implements the "classic" ADM 3A style keymaps
, 0x2F2F -- //
, 0x2F2F20436F7079726967687420323031392044617669642046656E796573 -- // Copyright 2019 David Fenyes
, 0x2F2F -- //
, 0x2F2F20546869732070726F6772616D206973206672656520736F6674776172653A20796F752063616E2072656469737472696275746520697420616E642F6F72206D6F6469667920697420756E646572 -- // This program is free software: you can redistribute it and/or modify it under
, 0x2F2F20746865207465726D73206F662074686520474E552047656E6572616C205075626C6963204C6963656E7365206173207075626C697368656420627920746865204672656520536F667477617265 -- // the terms of the GNU General Public License as published by the Free Software
, 0x2F2F20466F756E646174696F6E2C206569746865722076657273696F6E2033206F6620746865204C6963656E73652C206F722028617420796F7572206F7074696F6E2920616E79206C61746572 -- // Foundation, either version 3 of the License, or (at your option) any later
, 0x2F2F2076657273696F6E2E -- // version.
, 0x2F2F -- //
, 0x2F2F20546869732070726F6772616D20697320646973747269627574656420696E2074686520686F706520746861742069742077696C6C2062652075736566756C2C2062757420574954484F5554 -- // This program is distributed in the hope that it will be useful, but WITHOUT
, 0x2F2F20414E592057415252414E54593B20776974686F7574206576656E2074686520696D706C6965642077617272616E7479206F66204D45524348414E544142494C495459206F72204649544E455353 -- // ANY WARRANTY; without even the implied warranty of MERCHANTABILITY or FITNESS
, 0x2F2F20464F52204120504152544943554C415220505552504F53452E205365652074686520474E552047656E6572616C205075626C6963204C6963656E736520666F72206D6F7265 -- // FOR A PARTICULAR PURPOSE. See the GNU General Public License for more
, 0x2F2F2064657461696C732E -- // details.
, 0x2F2F -- //
, 0x2F2F20596F752073686F756C642068617665207265636569766564206120636F7079206F662074686520474E552047656E6572616C205075626C6963204C6963656E736520616C6F6E672077697468 -- // You should have received a copy of the GNU General Public License along with
, 0x2F2F20746869732070726F6772616D2E204966206E6F742C20736565203C68747470733A2F2F7777772E676E752E6F72672F6C6963656E7365732F3E2E -- // this program. If not, see <https://www.gnu.org/licenses/>.
, 0x2F2F -- //
, 0x0 -- 
, 0x23696E636C7564652022617364662E6822 -- #include "asdf.h"
, 0x23696E636C7564652022617364665F6B65796D6170732E6822 -- #include "asdf_keymaps.h"
, 0x23696E636C7564652022617364665F7669727475616C2E6822 -- #include "asdf_virtual.h"
, 0x23696E636C7564652022617364665F6D6F646966696572732E6822 -- #include "asdf_modifiers.h"
, 0x23696E636C7564652022617364665F7072696E742E6822 -- #include "asdf_print.h"
, 0x23696E636C7564652022617364665F6B65796D61705F636C61737369632E6822 -- #include "asdf_keymap_classic.h"
, 0x23696E636C7564652022617364665F6B65796D61705F636C61737369635F6164645F6D61702E6822 -- #include "asdf_keymap_classic_add_map.h"
, 0x23696E636C7564652022617364665F6B65796D61705F6170706C65325F6164645F6D61702E6822 -- #include "asdf_keymap_apple2_add_map.h"
, 0x0 -- 
, 0x766F696420636C61737369635F69645F6D65737361676528766F696429207B -- void classic_id_message(void) {
, 0x2020617364665F7072696E7428225B4B65796D61703A20636C61737369635D5C6E22293B --   asdf_print("[Keymap: classic]\n");
, 0x7D -- }
, 0x0 -- 
, 0x2F2F2050524F4345445552453A -- // PROCEDURE:
, 0x2F2F20494E505554533A -- // INPUTS:
, 0x2F2F204F5554505554533A -- // OUTPUTS:
, 0x2F2F -- //
, 0x2F2F204445534352495054494F4E3A -- // DESCRIPTION:
, 0x2F2F -- //
, 0x2F2F205349444520454646454354533A -- // SIDE EFFECTS:
, 0x2F2F -- //
, 0x2F2F204E4F5445533A -- // NOTES:
, 0x2F2F -- //
, 0x2F2F2053434F50453A -- // SCOPE:
, 0x2F2F -- //
, 0x2F2F20434F4D504C45584954593A -- // COMPLEXITY:
, 0x2F2F -- //
, 0x0 -- 
, 0x766F69642073657475705F636C61737369635F6B65796D617028766F696429 -- void setup_classic_keymap(void)
, 0x7B -- {
, 0x2020617364665F7365745F7072696E745F64656C617928415344465F434C41535349435F5052494E545F5350454544293B202F2F6D736563 --   asdf_set_print_delay(ASDF_CLASSIC_PRINT_SPEED); //msec
, 0x0 -- 
, 0x2020636C61737369635F6164645F6D617028434C41535349435F504C41494E5F4D41502C204D4F445F504C41494E5F4D4150293B --   classic_add_map(CLASSIC_PLAIN_MAP, MOD_PLAIN_MAP);
, 0x2020636C61737369635F6164645F6D617028434C41535349435F434150535F4D41502C204D4F445F434150535F4D4150293B --   classic_add_map(CLASSIC_CAPS_MAP, MOD_CAPS_MAP);
, 0x2020636C61737369635F6164645F6D617028434C41535349435F53484946545F4D41502C204D4F445F53484946545F4D4150293B --   classic_add_map(CLASSIC_SHIFT_MAP, MOD_SHIFT_MAP);
, 0x2020636C61737369635F6164645F6D617028434C41535349435F4354524C5F4D41502C204D4F445F4354524C5F4D4150293B --   classic_add_map(CLASSIC_CTRL_MAP, MOD_CTRL_MAP);
, 0x0 -- 
, 0x2020617364665F686F6F6B5F61737369676E28434C41535349435F49445F4D4553534147455F484F4F4B2C20636C61737369635F69645F6D657373616765293B --   asdf_hook_assign(CLASSIC_ID_MESSAGE_HOOK, classic_id_message);
, 0x2020617364665F686F6F6B5F61737369676E284150504C45534F46545F4B4559424F4152445F544553545F484F4F4B2C206170706C65736F66745F6B6579626F6172645F74657374293B --   asdf_hook_assign(APPLESOFT_KEYBOARD_TEST_HOOK, applesoft_keyboard_test);
, 0x0 -- 
, 0x20202F2F2041737369676E20706F776572204C454420746F207669727475616C20706F776572204C45442C20616E6420696E697469616C697A6520746F204F4E --   // Assign power LED to virtual power LED, and initialize to ON
, 0x2020617364665F7669727475616C5F61737369676E28434C41535349435F5649525455414C5F504F5745525F4C45442C20434C41535349435F504F5745525F4C45442C20565F4E4F46554E432C20434C41535349435F504F5745525F4C45445F494E49545F56414C5545293B --   asdf_virtual_assign(CLASSIC_VIRTUAL_POWER_LED, CLASSIC_POWER_LED, V_NOFUNC, CLASSIC_POWER_LED_INIT_VALUE);
, 0x0 -- 
, 0x20202F2F2041737369676E2043415053204C454420746F207669727475616C2043415053204C45442C20616E6420696E697469616C697A6520746F2074686520494E49542076616C75652C20746F --   // Assign CAPS LED to virtual CAPS LED, and initialize to the INIT value, to
, 0x20202F2F206D617463682074686520696E697469616C20434150534C4F434B2073746174652E2054686520636170736C6F636B20737461746520636F64652077696C6C20616C74657220746865 --   // match the initial CAPSLOCK state. The capslock state code will alter the
, 0x20202F2F207669727475616C204C4544206163636F7264696E6720746F207468652073746174652E --   // virtual LED according to the state.
, 0x0 -- 
, 0x2020617364665F7669727475616C5F61737369676E2856434150535F4C45442C20434C41535349435F434150535F4C45442C20565F4E4F46554E432C20434C41535349435F434150535F4C45445F494E49545F56414C5545293B --   asdf_virtual_assign(VCAPS_LED, CLASSIC_CAPS_LED, V_NOFUNC, CLASSIC_CAPS_LED_INIT_VALUE);
, 0x0 -- 
, 0x20202F2F2061737369676E205245534554206F757470757420746F20746865207669727475616C205245534554206F75747075742C20636F6E66696775726520746F2070726F6475636520612073686F72742070756C7365207768656E20616374697661746564 --   // assign RESET output to the virtual RESET output, configure to produce a short pulse when activated
, 0x2020617364665F7669727475616C5F61737369676E28434C41535349435F5649525455414C5F52455345542C20434C41535349435F52455345545F4F55545055542C20565F50554C53455F53484F52542C2021434C41535349435F52455345545F4143544956455F56414C5545293B --   asdf_virtual_assign(CLASSIC_VIRTUAL_RESET, CLASSIC_RESET_OUTPUT, V_PULSE_SHORT, !CLASSIC_RESET_ACTIVE_VALUE);
, 0x0 -- 
, 0x20202F2F2061737369676E2074686520434C52534352206F757470757420746F20746865207669727475616C20434C52534352206F75747075742C20636F6E66696775726520746F2070726F647563652061206C6F6E672070756C7365207768656E20616374697661746564 --   // assign the CLRSCR output to the virtual CLRSCR output, configure to produce a long pulse when activated
, 0x2020617364665F7669727475616C5F61737369676E28434C41535349435F5649525455414C5F434C525F5343522C20434C41535349435F434C525F5343525F4F55542C20565F50554C53455F4C4F4E472C2021434C41535349435F434C525F5343525F4143544956455F56414C5545293B --   asdf_virtual_assign(CLASSIC_VIRTUAL_CLR_SCR, CLASSIC_CLR_SCR_OUT, V_PULSE_LONG, !CLASSIC_CLR_SCR_ACTIVE_VALUE);
, 0x7D -- }
, 0x0 -- 
, 0x0 -- 
, 0x2F2F2D2D2D2D2D2D2D7C2D2D2D2D2D2D2D2D2D7C2D2D2D2D2D2D2D2D2D2B2D2D2D2D2D2D2D2D2D2B2D2D2D2D2D2D2D2D2D2B2D2D2D2D2D2D2D2D2D2B2D2D2D2D2D2D2D2D2D2B2D2D2D2D2D2D2D2D2D2B -- //-------|---------|---------+---------+---------+---------+---------+---------+
, 0x2F2F2041626F7665206C696E6520697320383020636F6C756D6E732C20616E642073686F756C6420646973706C617920636F6D706C6574656C7920696E2074686520656469746F722E -- // Above line is 80 columns, and should display completely in the editor.
  ]

/-- /repo/firmware/asdf/src/Keymaps/asdf_keymap_classic_caps.c, lines 1-87. -/
def asdf_keymap_classic_caps_c : List Nat := [
  0x2F2F202D2A2D206D6F64653A20433B207461622D77696474683A2032203B20696E64656E742D746162732D6D6F64653A206E696C202D2A2D -- // -*- mode: C; tab-width: 2 ; indent-tabs-mode: nil -*-
, 0x2F2F -- //
, 0x2F2F20556E6966696564204B6579626F6172642050726F6A656374 -- // Unified Keyboard Project
, 0x2F2F2041534446206B6579626F617264206669726D77617265 -- // ASDF keyboard firmware
, 0x2F2F -- //
, 0x2F2F20617364665F6B65796D61705F636C61737369632E63 -- // asdf_keymap_classic.c
, 0x2F2F -- //
, 0x2F2F20496D706C656D656E7473207468652022636C6173736963222041444D203341207374796C65206B65796D617073 -- // Implements the "classic" ADM 3A style keymaps
, 0x2F2F -- //
, 0x2F2F20436F7079726967687420323031392044617669642046656E796573 -- // Copyright 2019 David Fenyes
, 0x2F2F -- //
, 0x2F2F20546869732070726F6772616D206973206672656520736F6674776172653A20796F752063616E2072656469737472696275746520697420616E642F6F72206D6F6469667920697420756E646572 -- // This program is free software: you can redistribute it and/or modify it under
, 0x2F2F20746865207465726D73206F662074686520474E552047656E6572616C205075626C6963204C6963656E7365206173207075626C697368656420627920746865204672656520536F667477617265 -- // the terms of the GNU General Public License as published by the Free Software
, 0x2F2F20466F756E646174696F6E2C206569746865722076657273696F6E2033206F6620746865204C6963656E73652C206F722028617420796F7572206F7074696F6E2920616E79206C61746572 -- // Foundation, either version 3 of the License, or (at your option) any later
, 0x2F2F2076657273696F6E2E -- // version.
, 0x2F2F -- //
, 0x2F2F20546869732070726F6772616D20697320646973747269627574656420696E2074686520686F706520746861742069742077696C6C2062652075736566756C2C2062757420574954484F5554 -- // This program is distributed in the hope that it will be useful, but WITHOUT
, 0x2F2F20414E592057415252414E54593B20776974686F7574206576656E2074686520696D706C6965642077617272616E7479206F66204D45524348414E544142494C495459206F72204649544E455353 -- // ANY WARRANTY; without even the implied warranty of MERCHANTABILITY or FITNESS
, 0x2F2F20464F52204120504152544943554C415220505552504F53452E205365652074686520474E552047656E6572616C205075626C6963204C6963656E736520666F72206D6F7265 -- // FOR A PARTICULAR PURPOSE. See the GNU General Public License for more
, 0x2F2F2064657461696C732E -- // details.
, 0x2F2F -- //
, 0x2F2F20596F752073686F756C642068617665207265636569766564206120636F7079206F662074686520474E552047656E6572616C205075626C6963204C6963656E736520616C6F6E672077697468 -- // You should have received a copy of the GNU General Public License along with
, 0x2F2F20746869732070726F6772616D2E204966206E6F742C20736565203C68747470733A2F2F7777772E676E752E6F72672F6C6963656E7365732F3E2E -- // this program. If not, see <https://www.gnu.org/licenses/>.
, 0x2F2F -- //
, 0x0 -- 
, 0x23696E636C7564652022617364662E6822 -- #include "asdf.h"
, 0x23696E636C7564652022617364665F6B65796D6170732E6822 -- #include "asdf_keymaps.h"
, 0x23696E636C7564652022617364665F7072696E742E6822 -- #include "asdf_print.h"
, 0x23696E636C7564652022617364665F7669727475616C2E6822 -- #include "asdf_virtual.h"
, 0x23696E636C7564652022617364665F6D6F646966696572732E6822 -- #include "asdf_modifiers.h"
, 0x23696E636C7564652022617364665F6B65796D61705F636C61737369632E6822 -- #include "asdf_keymap_classic.h"
, 0x23696E636C7564652022617364665F6B65796D61705F636C61737369635F6164645F6D61702E6822 -- #include "asdf_keymap_classic_add_map.h"
, 0x23696E636C7564652022617364665F6B65796D61705F6170706C65325F6164645F6D61702E6822 -- #include "asdf_keymap_apple2_add_map.h"
, 0x0 -- 
, 0x0 -- 
, 0x0 -- 
, 0x766F696420636C61737369635F636170735F69645F6D65737361676528766F696429207B -- void classic_caps_id_message(void) {
, 0x2020617364665F7072696E7428225B4B65796D61703A20636C61737369635D5C6E22293B --   asdf_print("[Keymap: classic]\n");
, 0x7D -- }
, 0x0 -- 
, 0x0 -- 
, 0x2F2F2050524F4345445552453A -- // PROCEDURE:
, 0x2F2F20494E505554533A -- // INPUTS:
, 0x2F2F204F5554505554533A -- // OUTPUTS:
, 0x2F2F -- //
, 0x2F2F204445534352495054494F4E3A -- // DESCRIPTION:
, 0x2F2F -- //
, 0x2F2F205349444520454646454354533A -- // SIDE EFFECTS:
, 0x2F2F -- //
, 0x2F2F204E4F5445533A -- // NOTES:
, 0x2F2F -- //
, 0x2F2F2053434F50453A -- // SCOPE:
, 0x2F2F -- //
, 0x2F2F20434F4D504C45584954593A -- // COMPLEXITY:
, 0x2F2F -- //
, 0x0 -- 
, 0x766F69642073657475705F636C61737369635F636170735F6B65796D617028766F696429 -- void setup_classic_caps_keymap(void)
, 0x7B -- {
, 0x2020617364665F7365745F7072696E745F64656C617928415344465F434C41535349435F5052494E545F5350454544293B --   asdf_set_print_delay(ASDF_CLASSIC_PRINT_SPEED);
, 0x0 -- 
, 0x20202F2F20666F722074686520414C4C2043415053206B65796D61702C207468652022706C61696E22206D6F6465206973207468652073616D652061732022616C6C206361707322206D6F64653A --   // for the ALL CAPS keymap, the "plain" mode is the same as "all caps" mode:
, 0x2020636C61737369635F6164645F6D617028434C41535349435F434150535F4D41502C204D4F445F504C41494E5F4D4150293B --   classic_add_map(CLASSIC_CAPS_MAP, MOD_PLAIN_MAP);
, 0x2020636C61737369635F6164645F6D617028434C41535349435F434150535F4D41502C204D4F445F434150535F4D4150293B --   classic_add_map(CLASSIC_CAPS_MAP, MOD_CAPS_MAP);
, 0x2020636C61737369635F6164645F6D617028434C41535349435F53484946545F4D41502C204D4F445F53484946545F4D4150293B --   classic_add_map(CLASSIC_SHIFT_MAP, MOD_SHIFT_MAP);
, 0x2020636C61737369635F6164645F6D617028434C41535349435F4354524C5F4D41502C204D4F445F4354524C5F4D4150293B --   classic_add_map(CLASSIC_CTRL_MAP, MOD_CTRL_MAP);
, 0x0 -- 
, 0x2020617364665F686F6F6B5F61737369676E28434C41535349435F49445F4D4553534147455F484F4F4B2C20636C61737369635F636170735F69645F6D657373616765293B --   asdf_hook_assign(CLASSIC_ID_MESSAGE_HOOK, classic_caps_id_message);
, 0x2020617364665F686F6F6B5F61737369676E284150504C45534F46545F4B4559424F4152445F544553545F484F4F4B2C206170706C65736F66745F6B6579626F6172645F74657374293B --   asdf_hook_assign(APPLESOFT_KEYBOARD_TEST_HOOK, applesoft_keyboard_test);
, 0x0 -- 
, 0x20202F2F2041737369676E20706F776572204C454420746F207669727475616C20706F776572204C45442C20616E6420696E697469616C697A6520746F204F4E --   // Assign power LED to virtual power LED, and initialize to ON
, 0x2020617364665F7669727475616C5F61737369676E28434C41535349435F5649525455414C5F504F5745525F4C45442C20434C41535349435F504F5745525F4C45442C20565F4E4F46554E432C20434C41535349435F504F5745525F4C45445F494E49545F56414C5545293B --   asdf_virtual_assign(CLASSIC_VIRTUAL_POWER_LED, CLASSIC_POWER_LED, V_NOFUNC, CLASSIC_POWER_LED_INIT_VALUE);
, 0x0 -- 
, 0x20202F2F204265636175736520746865207669727475616C20706F776572204C4544206E65766572206368616E6765732C20616C736F2061737369676E2074686520434150534C4F434B --   // Because the virtual power LED never changes, also assign the CAPSLOCK
, 0x20202F2F20706879736963616C204C454420746F20746865207669727475616C20506F776572204C45442C20616E6420696E7469616C697A6520746F204F464620286F722063616E206368616E6765 --   // physical LED to the virtual Power LED, and intialize to OFF (or can change
, 0x20202F2F20746F204F4E20646570656E64696E67206F6E20707265666572656E636529 --   // to ON depending on preference)
, 0x2020617364665F7669727475616C5F61737369676E28434C41535349435F5649525455414C5F504F5745525F4C45442C20434C41535349435F434150535F4C45442C20565F4E4F46554E432C20434C41535349435F434150535F4C45445F494E49545F56414C5545293B --   asdf_virtual_assign(CLASSIC_VIRTUAL_POWER_LED, CLASSIC_CAPS_LED, V_NOFUNC, CLASSIC_CAPS_LED_INIT_VALUE);
, 0x0 -- 
, 0x20202F2F2061737369676E205245534554206F757470757420746F20746865207669727475616C205245534554206F75747075742C20636F6E66696775726520746F2070726F6475636520612073686F72742070756C7365207768656E20616374697661746564 --   // assign RESET output to the virtual RESET output, configure to produce a short pulse when activated
, 0x2020617364665F7669727475616C5F61737369676E28434C41535349435F5649525455414C5F52455345542C20434C41535349435F52455345545F4F55545055542C20565F50554C53455F53484F52542C2021434C41535349435F52455345545F4143544956455F56414C5545293B --   asdf_virtual_assign(CLASSIC_VIRTUAL_RESET, CLASSIC_RESET_OUTPUT, V_PULSE_SHORT, !CLASSIC_RESET_ACTIVE_VALUE);
, 0x0 -- 
, 0x20202F2F2061737369676E2074686520434C52534352206F757470757420746F20746865207669727475616C20434C52534352206F75747075742C20636F6E66696775726520746F2070726F647563652061206C6F6E672070756C7365207768656E20616374697661746564 --   // assign the CLRSCR output to the virtual CLRSCR output, configure to produce a long pulse when activated
, 0x2020617364665F7669727475616C5F61737369676E28434C41535349435F5649525455414C5F434C525F5343522C20434C41535349435F434C525F5343525F4F55542C20565F50554C53455F4C4F4E472C2021434C41535349435F434C525F5343525F4143544956455F56414C5545293B --   asdf_virtual_assign(CLASSIC_VIRTUAL_CLR_SCR, CLASSIC_CLR_SCR_OUT, V_PULSE_LONG, !CLASSIC_CLR_SCR_ACTIVE_VALUE);
, 0x7D -- }
, 0x0 -- 
, 0x0 -- 
, 0x2F2F2D2D2D2D2D2D2D7C2D2D2D2D2D2D2D2D2D7C2D2D2D2D2D2D2D2D2D2B2D2D2D2D2D2D2D2D2D2B2D2D2D2D2D2D2D2D2D2B2D2D2D2D2D2D2D2D2D2B2D2D2D2D2D2D2D2D2D2B2D2D2D2D2D2D2D2D2D2B -- //-------|---------|---------+---------+---------+---------+---------+---------+
, 0x2F2F2041626F7665206C696E6520697320383020636F6C756D6E732C20616E642073686F756C6420646973706C617920636F6D706C6574656C7920696E2074686520656469746F722E -- // Above line is 80 columns, and should display completely in the editor.
  ]

/-- /repo/firmware/asdf/src/Keymaps/asdf_keymap_apple2_add_map.c, lines 1-171. -/
def asdf_keymap_apple2_add_map_c : List Nat := [
  0x2F2F202D2A2D206D6F64653A20433B207461622D77696474683A2032203B20696E64656E742D746162732D6D6F64653A206E696C202D2A2D -- // -*- mode: C; tab-width: 2 ; indent-tabs-mode: nil -*-
, 0x2F2F -- //
, 0x2F2F20556E6966696564204B6579626F6172642050726F6A656374 -- // Unified Keyboard Project
, 0x2F2F2041534446206B6579626F617264206669726D77617265 -- // ASDF keyboard firmware
, 0x2F2F -- //
, 0x2F2F20617364665F6B65796D61705F636C61737369632E63 -- // asdf_keymap_classic.c
, 0x2F2F -- //
, 0x2F2F20646566696E657320746865206B65796D6170206D617472696365732075736564206279207468652022636C6173736963222041444D203341207374796C65206B65796D61702076617269616E7473 -- // defines the keymap matrices used by the "classic" ADM 3A style keymap variants
, 0x2F2F -- //
, 0x2F2F20436F7079726967687420323031392044617669642046656E796573 -- // Copyright 2019 David Fenyes
, 0x2F2F -- //
, 0x2F2F20546869732070726F6772616D206973206672656520736F6674776172653A20796F752063616E2072656469737472696275746520697420616E642F6F72206D6F6469667920697420756E646572 -- // This program is free software: you can redistribute it and/or modify it under
, 0x2F2F20746865207465726D73206F662074686520474E552047656E6572616C205075626C6963204C6963656E7365206173207075626C697368656420627920746865204672656520536F667477617265 -- // the terms of the GNU General Public License as published by the Free Software
, 0x2F2F20466F756E646174696F6E2C206569746865722076657273696F6E2033206F6620746865204C6963656E73652C206F722028617420796F7572206F7074696F6E2920616E79206C61746572 -- // Foundation, either version 3 of the License, or (at your option) any later
, 0x2F2F2076657273696F6E2E -- // version.
, 0x2F2F -- //
, 0x2F2F20546869732070726F6772616D20697320646973747269627574656420696E2074686520686F706520746861742069742077696C6C2062652075736566756C2C2062757420574954484F5554 -- // This program is distributed in the hope that it will be useful, but WITHOUT
, 0x2F2F20414E592057415252414E54593B20776974686F7574206576656E2074686520696D706C6965642077617272616E7479206F66204D45524348414E544142494C495459206F72204649544E455353 -- // ANY WARRANTY; without even the implied warranty of MERCHANTABILITY or FITNESS
, 0x2F2F20464F52204120504152544943554C415220505552504F53452E205365652074686520474E552047656E6572616C205075626C6963204C6963656E736520666F72206D6F7265 -- // FOR A PARTICULAR PURPOSE. See the GNU General Public License for more
, 0x2F2F2064657461696C732E -- // details.
, 0x2F2F -- //
, 0x2F2F20596F752073686F756C642068617665207265636569766564206120636F7079206F662074686520474E552047656E6572616C205075626C6963204C6963656E736520616C6F6E672077697468 -- // You should have received a copy of the GNU General Public License along with
, 0x2F2F20746869732070726F6772616D2E204966206E6F742C20736565203C68747470733A2F2F7777772E676E752E6F72672F6C6963656E7365732F3E2E -- // this program. If not, see <https://www.gnu.org/licenses/>.
, 0x2F2F -- //
, 0x0 -- 
, 0x23696E636C7564652022617364665F617263682E6822 -- #include "asdf_arch.h"
, 0x23696E636C7564652022617364662E6822 -- #include "asdf.h"
, 0x23696E636C7564652022617364665F7072696E742E6822 -- #include "asdf_print.h"
, 0x23696E636C7564652022617364665F61736369692E6822 -- #include "asdf_ascii.h"
, 0x23696E636C7564652022617364665F6B65796D6170732E6822 -- #include "asdf_keymaps.h"
, 0x23696E636C7564652022617364665F6B65796D61705F6170706C65325F6164645F6D61702E6822 -- #include "asdf_keymap_apple2_add_map.h"
, 0x0 -- 
, 0x2F2F204B6579204D617472697820666F7220636F6D62696E6174696F6E206F6620415343494920636F6E74726F6C6C657220616E64204170706C65204153434949206D6174726978 -- // Key Matrix for combination of ASCII controller and Apple ASCII matrix
, 0x2F2F -- //
, 0x2F2F20436F6C2D3E202020302020202020202020202031202020202020202020203220202020202020202020332020202020202020202034202020202020202020203520202020202020202020362020202020202020202037 -- // Col->   0          1          2          3          4          5          6          7
, 0x2F2F20526F772030202020504F574552202020202020522D5368696674202020204C2D536869667420202020286E6F206B657929202020455343202020202020202054414220202020202020204354524C202020202020205C286261636B736C61736829 -- // Row 0   POWER      R-Shift    L-Shift    (no key)   ESC        TAB        CTRL       \(backslash)
, 0x2F2F20526F7720312020205275626F7574202020202050202020202020202020203B202020202020202020202F2020202020202020202053504143454241522020205A20202020202020202020412020202020202020202051 -- // Row 1   Rubout     P          ;          /          SPACEBAR   Z          A          Q
, 0x2F2F20526F772032202020427265616B2020202020202C28636F6D6D61292020204D202020202020202020204E2020202020202020202042202020202020202020205620202020202020202020432020202020202020202058 -- // Row 2   Break      ,(comma)   M          N          B          V          C          X
, 0x2F2F20526F77203320202053706172652020202020204B202020202020202020204A20202020202020202020482020202020202020202047202020202020202020204620202020202020202020442020202020202020202041 -- // Row 3   Spare      K          J          H          G          F          D          A
, 0x2F2F20526F7720342020205274206172726F7720202049202020202020202020205520202020202020202020592020202020202020202054202020202020202020205220202020202020202020452020202020202020202057 -- // Row 4   Rt arrow   I          U          Y          T          R          E          W
, 0x2F2F20526F7720352020204C54206172726F772020205265706561742020202020436170734C6F636B20202052657475726E20202020204C696E65466565642020204F28616C706861292020204C202020202020202020202E28706572696F6429 -- // Row 5   LT arrow   Repeat     CapsLock   Return     LineFeed   O(alpha)   L          .(period)
, 0x2F2F20526F7720362020207E2874696C6465292020205D202020202020202020205B202020202020202020202D286461736829202020203A28636F6C6F6E2920202030286E756D6572616C2920392020202020202020202038 -- // Row 6   ~(tilde)   ]          [          -(dash)    :(colon)   0(numeral) 9          8
, 0x2F2F20526F772037202020402861742920202020202037202020202020202020203620202020202020202020352020202020202020202034202020202020202020203320202020202020202020322020202020202020202031 -- // Row 7   @(at)      7          6          5          4          3          2          1
, 0x2F2F -- //
, 0x2F2F20526F772031352044495020737769746368657320302D37 -- // Row 15 DIP switches 0-7
, 0x2F2F -- //
, 0x2F2F204E6F7465733A -- // Notes:
, 0x2F2F -- //
, 0x2F2F20312920546865206B6579732061626F766520636F72726573706F6E6420746F207468652073696C6B2073637265656E206F6E20746865205043422E20466F7220746865204F534920616E64 -- // 1) The keys above correspond to the silk screen on the PCB. For the OSI and
, 0x2F2F202020204170706C65206C61796F7574732C20746865206B657973206D6179206E6F7420616C6C206D61746368207468652073696C6B2073637265656E2E205768656E206372656174696E672061 -- //    Apple layouts, the keys may not all match the silk screen. When creating a
, 0x2F2F202020206C61796F757420646966666572656E742066726F6D207468652073696C6B2073637265656E2C206C6F6F6B2075702074686520726F7720616E6420636F6C756D6E20666F7220746865 -- //    layout different from the silk screen, look up the row and column for the
, 0x2F2F2020202073696C6B2073637265656E206C6162656C20617420746865206465736972656420706F736974696F6E2C20616E64207468656E20706C616365207468652064657369726564 -- //    silk screen label at the desired position, and then place the desired
, 0x2F2F2020202066756E6374696F6E20696E20746865206B65796D617020646566696E6974696F6E20617420746865206465736972656420726F7720616E6420636F6C756D6E2E20466F72 -- //    function in the keymap definition at the desired row and column. For
, 0x2F2F202020206578616D706C652C20746865204170706C652032206B65796D617020706C61636573207468652022524553455422206B65792061742074686520225B222073696C6B2D73637265656E -- //    example, the Apple 2 keymap places the "RESET" key at the "[" silk-screen
, 0x2F2F20202020706F736974696F6E2C20526F7720362C20436F6C20322E20546865206B65796D617020706C6163657320414354494F4E5F524553455420617420526F7720362C20436F6C203220696E -- //    position, Row 6, Col 2. The keymap places ACTION_RESET at Row 6, Col 2 in
, 0x2F2F202020207468652022415344465F4150504C45325F4354524C5F4D41502220746F206D6170207468652052455345542066756E6374696F6E20746F20746865204354524C2D5245534554206B6579 -- //    the "ASDF_APPLE2_CTRL_MAP" to map the RESET function to the CTRL-RESET key
, 0x2F2F20202020636F6D62696E6174696F6E2E -- //    combination.
, 0x2F2F -- //
, 0x2F2F20322920546F20656E7375726520636F6E73697374656E742044495020737769746368206F7065726174696F6E2077697468696E20746865206B65796D61702C2061 -- // 2) To ensure consistent DIP switch operation within the keymap, a
, 0x2F2F20202020415344465F41534349495F4449505F5357495443484553206D6163726F20697320646566696E65642E204B656570696E672074686520414354494F4E5F4D415053454C302D33 -- //    ASDF_ASCII_DIP_SWITCHES macro is defined. Keeping the ACTION_MAPSEL0-3
, 0x2F2F20202020646566696E6974696F6E7320696E20706F736974696F6E7320302D3320656E737572657320636F6E73697374656E74206D61702073656C656374696F6E20616D6F6E6720616C6C -- //    definitions in positions 0-3 ensures consistent map selection among all
, 0x2F2F202020206B65796D6170732E -- //    keymaps.
, 0x0 -- 
, 0x23646566696E6520415344465F4150504C45325F4449505F535749544348455320415344465F4B45594D41505F4449505F5357495443484553 -- #define ASDF_APPLE2_DIP_SWITCHES ASDF_KEYMAP_DIP_SWITCHES
, 0x0 -- 
, 0x7479706564656620617364665F6B6579636F64655F74206170706C655F6B6579636F64655F6D61747269785F745B415344465F4150504C45325F4E554D5F524F57535D5B415344465F4150504C45325F4E554D5F434F4C535D3B -- typedef asdf_keycode_t apple_keycode_matrix_t[ASDF_APPLE2_NUM_ROWS][ASDF_APPLE2_NUM_COLS];
, 0x0 -- 
, 0x0 -- 
, 0x636F6E737420464C415348206170706C655F6B6579636F64655F6D61747269785F74206170706C655F706C61696E5F6D6174726978203D207B -- const FLASH apple_keycode_matrix_t apple_plain_matrix = {
, 0x2020205B305D203D207B20414354494F4E5F434150532C20414354494F4E5F53484946542C20414354494F4E5F53484946542C20414354494F4E5F4E4F5448494E472C --    [0] = { ACTION_CAPS, ACTION_SHIFT, ACTION_SHIFT, ACTION_NOTHING,
, 0x2020202020202020202020414354494F4E5F4E4F5448494E472C2041534349495F4553432C20202020414354494F4E5F4354524C2C20204150504C455F52494748545F4152524F57207D2C --            ACTION_NOTHING, ASCII_ESC,    ACTION_CTRL,  APPLE_RIGHT_ARROW },
, 0x2020205B315D203D207B2041534349495F44454C2C202770272C20273B272C20272F272C2041534349495F53504143452C20277A272C202761272C20277127207D2C --    [1] = { ASCII_DEL, 'p', ';', '/', ASCII_SPACE, 'z', 'a', 'q' },
, 0x2020205B325D203D207B20414354494F4E5F4E4F5448494E472C2041534349495F434F4D4D412C20276D272C20276E272C202762272C202776272C202763272C20277827207D2C --    [2] = { ACTION_NOTHING, ASCII_COMMA, 'm', 'n', 'b', 'v', 'c', 'x' },
, 0x2020205B335D203D207B20414354494F4E5F4E4F5448494E472C20276B272C20276A272C202768272C202767272C202766272C202764272C20277327207D2C --    [3] = { ACTION_NOTHING, 'k', 'j', 'h', 'g', 'f', 'd', 's' },
, 0x2020205B345D203D207B20414354494F4E5F4E4F5448494E472C202769272C202775272C202779272C202774272C202772272C202765272C20277727207D2C --    [4] = { ACTION_NOTHING, 'i', 'u', 'y', 't', 'r', 'e', 'w' },
, 0x2020205B355D203D207B20414354494F4E5F4E4F5448494E472C20414354494F4E5F4E4F5448494E472C20414354494F4E5F4E4F5448494E472C2041534349495F43522C20275E272C20276F272C20276C272C2041534349495F504552494F44207D2C --    [5] = { ACTION_NOTHING, ACTION_NOTHING, ACTION_NOTHING, ASCII_CR, '^', 'o', 'l', ASCII_PERIOD },
, 0x2020205B365D203D207B20414354494F4E5F4E4F5448494E472C20414354494F4E5F4E4F5448494E472C20414354494F4E5F4E4F5448494E472C20272D272C20273A272C2041534349495F5A45524F2C202739272C20273827207D2C --    [6] = { ACTION_NOTHING, ACTION_NOTHING, ACTION_NOTHING, '-', ':', ASCII_ZERO, '9', '8' },
, 0x2020205B375D203D207B204150504C455F4C4546545F4152524F572C202737272C202736272C202735272C202734272C202733272C202732272C20273127207D2C --    [7] = { APPLE_LEFT_ARROW, '7', '6', '5', '4', '3', '2', '1' },
, 0x202020415344465F4150504C45325F4449505F5357495443484553 --    ASDF_APPLE2_DIP_SWITCHES
, 0x7D3B -- };
, 0x0 -- 
, 0x636F6E737420464C415348206170706C655F6B6579636F64655F6D61747269785F74206170706C655F73686966745F6D6174726978203D207B -- const FLASH apple_keycode_matrix_t apple_shift_matrix = {
, 0x2020205B305D203D207B20414354494F4E5F434150532C20414354494F4E5F53484946542C20414354494F4E5F53484946542C20414354494F4E5F4E4F5448494E472C --    [0] = { ACTION_CAPS, ACTION_SHIFT, ACTION_SHIFT, ACTION_NOTHING,
, 0x2020202020414354494F4E5F4E4F5448494E472C2041534349495F4553432C20202020414354494F4E5F4354524C2C20204150504C455F52494748545F4152524F57207D2C --      ACTION_NOTHING, ASCII_ESC,    ACTION_CTRL,  APPLE_RIGHT_ARROW },
, 0x2020205B315D203D207B20414354494F4E5F4E4F5448494E472C202750272C20272B272C20273F272C2041534349495F53504143452C20275A272C202741272C20275127207D2C --    [1] = { ACTION_NOTHING, 'P', '+', '?', ASCII_SPACE, 'Z', 'A', 'Q' },
, 0x2020205B325D203D207B20414354494F4E5F4E4F5448494E472C20273C272C20274D272C20274E272C202742272C202756272C202743272C20275827207D2C --    [2] = { ACTION_NOTHING, '<', 'M', 'N', 'B', 'V', 'C', 'X' },
, 0x2020205B335D203D207B20414354494F4E5F4E4F5448494E472C20274B272C20274A272C202748272C202747272C202746272C202744272C20275327207D2C --    [3] = { ACTION_NOTHING, 'K', 'J', 'H', 'G', 'F', 'D', 'S' },
, 0x2020205B345D203D207B20414354494F4E5F4E4F5448494E472C202749272C202755272C202759272C202754272C202752272C202745272C20275727207D2C --    [4] = { ACTION_NOTHING, 'I', 'U', 'Y', 'T', 'R', 'E', 'W' },
, 0x2020205B355D203D207B20414354494F4E5F4E4F5448494E472C20414354494F4E5F4E4F5448494E472C20414354494F4E5F4E4F5448494E472C2041534349495F43522C2041534349495F41542C20274F272C20274C272C20273E27207D2C --    [5] = { ACTION_NOTHING, ACTION_NOTHING, ACTION_NOTHING, ASCII_CR, ASCII_AT, 'O', 'L', '>' },
, 0x2020205B365D203D207B20414354494F4E5F4E4F5448494E472C20414354494F4E5F4E4F5448494E472C204150504C455F414354494F4E5F434C4541522C20273D272C --    [6] = { ACTION_NOTHING, ACTION_NOTHING, APPLE_ACTION_CLEAR, '=',
, 0x2020202020202020202020272A272C2041534349495F41542C2041534349495F52545F504152454E2C2041534349495F4C545F504152454E207D2C --            '*', ASCII_AT, ASCII_RT_PAREN, ASCII_LT_PAREN },
, 0x2020205B375D203D207B204150504C455F4C4546545F4152524F572C2041534349495F53494E474C455F51554F54452C202726272C202725272C202724272C202723272C2041534349495F444F55424C455F51554F54452C20272127207D2C --    [7] = { APPLE_LEFT_ARROW, ASCII_SINGLE_QUOTE, '&', '%', '$', '#', ASCII_DOUBLE_QUOTE, '!' },
, 0x202020415344465F4150504C45325F4449505F5357495443484553 --    ASDF_APPLE2_DIP_SWITCHES
, 0x7D3B -- };
, 0x0 -- 
, 0x636F6E737420464C415348206170706C655F6B6579636F64655F6D61747269785F74206170706C655F636170735F73686966745F6D6174726978203D207B -- const FLASH apple_keycode_matrix_t apple_caps_shift_matrix = {
, 0x2020205B305D203D207B20414354494F4E5F434150532C20414354494F4E5F53484946542C20414354494F4E5F53484946542C20414354494F4E5F4E4F5448494E472C --    [0] = { ACTION_CAPS, ACTION_SHIFT, ACTION_SHIFT, ACTION_NOTHING,
, 0x2020202020414354494F4E5F4E4F5448494E472C2041534349495F4553432C20202020414354494F4E5F4354524C2C20204150504C455F52494748545F4152524F57207D2C --      ACTION_NOTHING, ASCII_ESC,    ACTION_CTRL,  APPLE_RIGHT_ARROW },
, 0x2020205B315D203D207B20414354494F4E5F4E4F5448494E472C2041534349495F41542C20272B272C20273F272C2041534349495F53504143452C20275A272C202741272C20275127207D2C --    [1] = { ACTION_NOTHING, ASCII_AT, '+', '?', ASCII_SPACE, 'Z', 'A', 'Q' },
, 0x2020205B325D203D207B20414354494F4E5F4E4F5448494E472C20273C272C20274D272C20275E272C202742272C202756272C202743272C20275827207D2C --    [2] = { ACTION_NOTHING, '<', 'M', '^', 'B', 'V', 'C', 'X' },
, 0x2020205B335D203D207B20414354494F4E5F4E4F5448494E472C20274B272C20274A272C202748272C202747272C202746272C202744272C20275327207D2C --    [3] = { ACTION_NOTHING, 'K', 'J', 'H', 'G', 'F', 'D', 'S' },
, 0x2020205B345D203D207B20414354494F4E5F4E4F5448494E472C202749272C202755272C202759272C202754272C202752272C202745272C20275727207D2C --    [4] = { ACTION_NOTHING, 'I', 'U', 'Y', 'T', 'R', 'E', 'W' },
, 0x2020205B355D203D207B20414354494F4E5F4E4F5448494E472C20414354494F4E5F4E4F5448494E472C20414354494F4E5F4E4F5448494E472C2041534349495F43522C20414354494F4E5F5245504541542C20274F272C20274C272C20273E27207D2C --    [5] = { ACTION_NOTHING, ACTION_NOTHING, ACTION_NOTHING, ASCII_CR, ACTION_REPEAT, 'O', 'L', '>' },
, 0x2020205B365D203D207B20414354494F4E5F4E4F5448494E472C20414354494F4E5F4E4F5448494E472C204150504C455F414354494F4E5F434C4541522C20273D272C --    [6] = { ACTION_NOTHING, ACTION_NOTHING, APPLE_ACTION_CLEAR, '=',
, 0x2020202020202020202020272A272C20414354494F4E5F4E4F5448494E472C2041534349495F52545F504152454E2C2041534349495F4C545F504152454E207D2C --            '*', ACTION_NOTHING, ASCII_RT_PAREN, ASCII_LT_PAREN },
, 0x2020205B375D203D207B204150504C455F4C4546545F4152524F572C2041534349495F53494E474C455F51554F54452C202726272C202725272C202724272C202723272C2041534349495F444F55424C455F51554F54452C20272127207D2C --    [7] = { APPLE_LEFT_ARROW, ASCII_SINGLE_QUOTE, '&', '%', '$', '#', ASCII_DOUBLE_QUOTE, '!' },
, 0x202020415344465F4150504C45325F4449505F5357495443484553 --    ASDF_APPLE2_DIP_SWITCHES
, 0x7D3B -- };
, 0x0 -- 
, 0x636F6E737420464C415348206170706C655F6B6579636F64655F6D61747269785F74206170706C655F636170735F6D6174726978203D207B -- const FLASH apple_keycode_matrix_t apple_caps_matrix = {
, 0x2020205B305D203D207B20414354494F4E5F434150532C20414354494F4E5F53484946542C20414354494F4E5F53484946542C20414354494F4E5F4E4F5448494E472C --    [0] = { ACTION_CAPS, ACTION_SHIFT, ACTION_SHIFT, ACTION_NOTHING,
, 0x202020202020202020202020414354494F4E5F4E4F5448494E472C2041534349495F4553432C20202020414354494F4E5F4354524C2C20204150504C455F52494748545F4152524F57207D2C --             ACTION_NOTHING, ASCII_ESC,    ACTION_CTRL,  APPLE_RIGHT_ARROW },
, 0x202020205B315D203D207B20414354494F4E5F4E4F5448494E472C202750272C20273B272C20272F272C2041534349495F53504143452C20275A272C202741272C20275127207D2C --     [1] = { ACTION_NOTHING, 'P', ';', '/', ASCII_SPACE, 'Z', 'A', 'Q' },
, 0x202020205B325D203D207B20414354494F4E5F4E4F5448494E472C2041534349495F434F4D4D412C20274D272C20274E272C202742272C202756272C202743272C20275827207D2C --     [2] = { ACTION_NOTHING, ASCII_COMMA, 'M', 'N', 'B', 'V', 'C', 'X' },
, 0x202020205B335D203D207B20414354494F4E5F4E4F5448494E472C20274B272C20274A272C202748272C202747272C202746272C202744272C20275327207D2C --     [3] = { ACTION_NOTHING, 'K', 'J', 'H', 'G', 'F', 'D', 'S' },
, 0x202020205B345D203D207B20414354494F4E5F4E4F5448494E472C202749272C202755272C202759272C202754272C202752272C202745272C20275727207D2C --     [4] = { ACTION_NOTHING, 'I', 'U', 'Y', 'T', 'R', 'E', 'W' },
, 0x202020205B355D203D207B20414354494F4E5F4E4F5448494E472C20414354494F4E5F4E4F5448494E472C20414354494F4E5F4E4F5448494E472C2041534349495F43522C20414354494F4E5F5245504541542C20274F272C20274C272C2041534349495F504552494F44207D2C --     [5] = { ACTION_NOTHING, ACTION_NOTHING, ACTION_NOTHING, ASCII_CR, ACTION_REPEAT, 'O', 'L', ASCII_PERIOD },
, 0x202020205B365D203D207B20414354494F4E5F4E4F5448494E472C20414354494F4E5F4E4F5448494E472C20414354494F4E5F4E4F5448494E472C20272D272C20273A272C2041534349495F5A45524F2C202739272C20273827207D2C --     [6] = { ACTION_NOTHING, ACTION_NOTHING, ACTION_NOTHING, '-', ':', ASCII_ZERO, '9', '8' },
, 0x202020205B375D203D207B204150504C455F4C4546545F4152524F572C202737272C202736272C202735272C202734272C202733272C202732272C20273127207D2C --     [7] = { APPLE_LEFT_ARROW, '7', '6', '5', '4', '3', '2', '1' },
, 0x20202020415344465F4150504C45325F4449505F5357495443484553 --     ASDF_APPLE2_DIP_SWITCHES
, 0x7D3B -- };
, 0x0 -- 
, 0x636F6E737420464C415348206170706C655F6B6579636F64655F6D61747269785F74206170706C655F6374726C5F6D6174726978203D207B -- const FLASH apple_keycode_matrix_t apple_ctrl_matrix = {
, 0x2020205B305D203D207B20414354494F4E5F434150532C20414354494F4E5F53484946542C20414354494F4E5F53484946542C20414354494F4E5F4E4F5448494E472C --    [0] = { ACTION_CAPS, ACTION_SHIFT, ACTION_SHIFT, ACTION_NOTHING,
, 0x2020202020202020202020414354494F4E5F4E4F5448494E472C2041534349495F4553432C20202020414354494F4E5F4354524C2C20204150504C455F52494748545F4152524F57207D2C --            ACTION_NOTHING, ASCII_ESC,    ACTION_CTRL,  APPLE_RIGHT_ARROW },
, 0x2020205B315D203D207B20414354494F4E5F4E4F5448494E472C2041534349495F4354524C5F502C20414354494F4E5F4E4F5448494E472C2041534349495F4241434B534C4153482C --    [1] = { ACTION_NOTHING, ASCII_CTRL_P, ACTION_NOTHING, ASCII_BACKSLASH,
, 0x202020202020202020202041534349495F53504143452C2020202041534349495F4354524C5F5A2C2041534349495F4354524C5F412C20202041534349495F4354524C5F51207D2C --            ASCII_SPACE,    ASCII_CTRL_Z, ASCII_CTRL_A,   ASCII_CTRL_Q },
, 0x2020205B325D203D207B20414354494F4E5F4E4F5448494E472C2041534349495F4C545F5351554152455F42524143452C2041534349495F4354524C5F4D2C2041534349495F4354524C5F4E2C --    [2] = { ACTION_NOTHING, ASCII_LT_SQUARE_BRACE, ASCII_CTRL_M, ASCII_CTRL_N,
, 0x202020202020202020202041534349495F4354524C5F422C2041534349495F4354524C5F562C2041534349495F4354524C5F432C2041534349495F4354524C5F58207D2C --            ASCII_CTRL_B, ASCII_CTRL_V, ASCII_CTRL_C, ASCII_CTRL_X },
, 0x2020205B335D203D207B20414354494F4E5F4E4F5448494E472C2041534349495F4354524C5F4B2C2041534349495F4354524C5F4A2C2041534349495F4354524C5F482C --    [3] = { ACTION_NOTHING, ASCII_CTRL_K, ASCII_CTRL_J, ASCII_CTRL_H,
, 0x202020202020202020202041534349495F4354524C5F472C2041534349495F4354524C5F462C2041534349495F4354524C5F442C2041534349495F4354524C5F53207D2C --            ASCII_CTRL_G, ASCII_CTRL_F, ASCII_CTRL_D, ASCII_CTRL_S },
, 0x2020205B345D203D207B20414354494F4E5F4E4F5448494E472C2041534349495F4354524C5F492C2041534349495F4354524C5F552C2041534349495F4354524C5F592C --    [4] = { ACTION_NOTHING, ASCII_CTRL_I, ASCII_CTRL_U, ASCII_CTRL_Y,
, 0x202020202020202020202041534349495F4354524C5F542C2041534349495F4354524C5F522C2041534349495F4354524C5F452C2041534349495F4354524C5F57207D2C --            ASCII_CTRL_T, ASCII_CTRL_R, ASCII_CTRL_E, ASCII_CTRL_W },
, 0x2020205B355D203D207B20414354494F4E5F4E4F5448494E472C20414354494F4E5F4E4F5448494E472C20414354494F4E5F4E4F5448494E472C202041534349495F43522C --    [5] = { ACTION_NOTHING, ACTION_NOTHING, ACTION_NOTHING,  ASCII_CR,
, 0x2020202020202020202020414354494F4E5F5245504541542C20202020202041534349495F4354524C5F4F2C20202041534349495F4354524C5F4C2C2041534349495F52545F5351554152455F4252414345207D2C --            ACTION_REPEAT,      ASCII_CTRL_O,   ASCII_CTRL_L, ASCII_RT_SQUARE_BRACE },
, 0x2020205B365D203D207B20414354494F4E5F4E4F5448494E472C20414354494F4E5F4E4F5448494E472C204150504C455F414354494F4E5F52455345542C202041534349495F554E44455253434F52452C --    [6] = { ACTION_NOTHING, ACTION_NOTHING, APPLE_ACTION_RESET,  ASCII_UNDERSCORE,
, 0x2020202020202020202020414354494F4E5F4E4F5448494E472C20414354494F4E5F464E5F31302C2041534349495F52545F4355524C595F42524143452C2041534349495F4C545F4355524C595F4252414345207D2C --            ACTION_NOTHING, ACTION_FN_10, ASCII_RT_CURLY_BRACE, ASCII_LT_CURLY_BRACE },
, 0x2020205B375D203D207B2041534349495F44454C2C2041534349495F47524156455F414343454E542C2041534349495F43415245542C20414354494F4E5F464E5F352C --    [7] = { ASCII_DEL, ASCII_GRAVE_ACCENT, ASCII_CARET, ACTION_FN_5,
, 0x202020202020202020202020414354494F4E5F464E5F342C20414354494F4E5F464E5F332C2041534349495F54494C44452C2041534349495F564552545F424152207D2C --             ACTION_FN_4, ACTION_FN_3, ASCII_TILDE, ASCII_VERT_BAR },
, 0x202020415344465F4150504C45325F4449505F5357495443484553 --    ASDF_APPLE2_DIP_SWITCHES
, 0x7D3B -- };
, 0x0 -- 
, 0x0 -- 
, 0x73746174696320636F6E7374206170706C655F6B6579636F64655F6D61747269785F74202A6170706C655F6D6170735B5D203D207B -- static const apple_keycode_matrix_t *apple_maps[] = {
, 0x20205B4150504C455F434150535F4D41505D203D20266170706C655F636170735F6D61747269782C --   [APPLE_CAPS_MAP] = &apple_caps_matrix,
, 0x20205B4150504C455F504C41494E5F4D41505D203D20266170706C655F706C61696E5F6D61747269782C --   [APPLE_PLAIN_MAP] = &apple_plain_matrix,
, 0x20205B4150504C455F53484946545F4D41505D203D20266170706C655F73686966745F6D61747269782C --   [APPLE_SHIFT_MAP] = &apple_shift_matrix,
, 0x20205B4150504C455F4354524C5F4D41505D203D20266170706C655F6374726C5F6D61747269782C --   [APPLE_CTRL_MAP] = &apple_ctrl_matrix,
, 0x20205B4150504C455F434150535F53484946545F4D41505D203D20266170706C655F636170735F73686966745F6D6174726978 --   [APPLE_CAPS_SHIFT_MAP] = &apple_caps_shift_matrix
, 0x7D3B -- };
, 0x0 -- 
, 0x766F6964206170706C65736F66745F6B6579626F6172645F7465737428766F696429 -- void applesoft_keyboard_test(void)
, 0x7B -- {
, 0x20202020617364665F7072696E742822313047455441242830293A413D415343284124283029293A41242831293D5C2243544C2B5C222B434852242841202B203634293A3F5C22275C223B412428413C3332293B5C2227203D205C223B413A4946413C3E33474F544F31305C7222293B --     asdf_print("10GETA$(0):A=ASC(A$(0)):A$(1)=\"CTL+\"+CHR$(A + 64):?\"'\";A$(A<32);\"' = \";A:IFA<>3GOTO10\r");
, 0x7D -- }
, 0x0 -- 
, 0x766F6964206170706C655F6164645F6D617028636F6E7374206170706C655F6D61705F696E6465785F74206D61705F696E6465782C -- void apple_add_map(const apple_map_index_t map_index,
, 0x20202020202020202020202020202020202020202020206D6F6469666965725F696E6465785F74206D6F6469666965725F696E64657829 --                        modifier_index_t modifier_index)
, 0x7B -- {
, 0x0 -- 
, 0x2020617364665F6B6579636F64655F7420282A6D6174726978295B415344465F4150504C45325F4E554D5F434F4C535D203D --   asdf_keycode_t (*matrix)[ASDF_APPLE2_NUM_COLS] =
, 0x2020202028617364665F6B6579636F64655F7420282A295B415344465F4150504C45325F4E554D5F434F4C535D29206170706C655F6D6170735B6D61705F696E6465785D3B --     (asdf_keycode_t (*)[ASDF_APPLE2_NUM_COLS]) apple_maps[map_index];
, 0x0 -- 
, 0x20202020617364665F6B65796D6170735F6164645F6D617028266D61747269785B305D5B305D2C206D6F6469666965725F696E6465782C202875696E74385F742920415344465F4150504C45325F4E554D5F524F57532C --     asdf_keymaps_add_map(&matrix[0][0], modifier_index, (uint8_t) ASDF_APPLE2_NUM_ROWS,
, 0x20202020202020202020202020202020202020202020202875696E74385F742920415344465F4150504C45325F4E554D5F434F4C53293B --                        (uint8_t) ASDF_APPLE2_NUM_COLS);
, 0x7D -- }
, 0x0 -- 
, 0x0 -- 
, 0x0 -- 
, 0x2F2F2D2D2D2D2D2D2D7C2D2D2D2D2D2D2D2D2D7C2D2D2D2D2D2D2D2D2D2B2D2D2D2D2D2D2D2D2D2B2D2D2D2D2D2D2D2D2D2B2D2D2D2D2D2D2D2D2D2B2D2D2D2D2D2D2D2D2D2B2D2D2D2D2D2D2D2D2D2B -- //-------|---------|---------+---------+---------+---------+---------+---------+
, 0x2F2F2041626F7665206C696E6520697320383020636F6C756D6E732C20616E642073686F756C6420646973706C617920636F6D706C6574656C7920696E2074686520656469746F722E -- // Above line is 80 columns, and should display completely in the editor.
  ]

/-- /repo/firmware/asdf/src/Keymaps/asdf_keymap_apple2.c, lines 1-89. -/
def asdf_keymap_apple2_c : List Nat := [
  0x2F2F202D2A2D206D6F64653A20433B207461622D77696474683A2032203B20696E64656E742D746162732D6D6F64653A206E696C202D2A2D20 -- // -*- mode: C; tab-width: 2 ; indent-tabs-mode: nil -*- 
, 0x2F2F -- //
, 0x2F2F20556E6966696564204B6579626F6172642050726F6A656374 -- // Unified Keyboard Project
, 0x2F2F2041534446206B6579626F617264206669726D77617265 -- // ASDF keyboard firmware
, 0x2F2F -- //
, 0x2F2F20617364665F6B65796D61705F6170706C65322E63 -- // asdf_keymap_apple2.c
, 0x2F2F -- //
, 0x2F2F20736574207570206B65796D61707320666F72204170706C65204949206B6579626F61726473 -- // set up keymaps for Apple II keyboards
, 0x2F2F -- //
, 0x2F2F20436F7079726967687420323031392044617669642046656E796573 -- // Copyright 2019 David Fenyes
, 0x2F2F -- //
, 0x2F2F20546869732070726F6772616D206973206672656520736F6674776172653A20796F752063616E2072656469737472696275746520697420616E642F6F72206D6F6469667920697420756E646572 -- // This program is free software: you can redistribute it and/or modify it under
, 0x2F2F20746865207465726D73206F662074686520474E552047656E6572616C205075626C6963204C6963656E7365206173207075626C697368656420627920746865204672656520536F667477617265 -- // the terms of the GNU General Public License as published by the Free Software
, 0x2F2F20466F756E646174696F6E2C206569746865722076657273696F6E2033206F6620746865204C6963656E73652C206F722028617420796F7572206F7074696F6E2920616E79206C61746572 -- // Foundation, either version 3 of the License, or (at your option) any later
, 0x2F2F2076657273696F6E2E -- // version.
, 0x2F2F -- //
, 0x2F2F20546869732070726F6772616D20697320646973747269627574656420696E2074686520686F706520746861742069742077696C6C2062652075736566756C2C2062757420574954484F5554 -- // This program is distributed in the hope that it will be useful, but WITHOUT
, 0x2F2F20414E592057415252414E54593B20776974686F7574206576656E2074686520696D706C6965642077617272616E7479206F66204D45524348414E544142494C495459206F72204649544E455353 -- // ANY WARRANTY; without even the implied warranty of MERCHANTABILITY or FITNESS
, 0x2F2F20464F52204120504152544943554C415220505552504F53452E205365652074686520474E552047656E6572616C205075626C6963204C6963656E736520666F72206D6F7265 -- // FOR A PARTICULAR PURPOSE. See the GNU General Public License for more
, 0x2F2F2064657461696C732E -- // details.
, 0x2F2F -- //
, 0x2F2F20596F752073686F756C642068617665207265636569766564206120636F7079206F662074686520474E552047656E6572616C205075626C6963204C6963656E736520616C6F6E672077697468 -- // You should have received a copy of the GNU General Public License along with
, 0x2F2F20746869732070726F6772616D2E204966206E6F742C20736565203C68747470733A2F2F7777772E676E752E6F72672F6C6963656E7365732F3E2E -- // this program. If not, see <https://www.gnu.org/licenses/>.
, 0x2F2F -- //
, 0x0 -- 
, 0x0 -- 
, 0x23696E636C7564652022617364665F7072696E742E6822 -- #include "asdf_print.h"
, 0x23696E636C7564652022617364665F686F6F6B2E6822 -- #include "asdf_hook.h"
, 0x23696E636C7564652022617364665F6B65796D6170732E6822 -- #include "asdf_keymaps.h"
, 0x23696E636C7564652022617364665F7669727475616C2E6822 -- #include "asdf_virtual.h"
, 0x23696E636C7564652022617364665F6D6F646966696572732E6822 -- #include "asdf_modifiers.h"
, 0x23696E636C7564652022617364665F6B65796D61705F6170706C65325F6164645F6D61702E6822 -- #include "asdf_keymap_apple2_add_map.h"
, 0x23696E636C7564652022617364665F6B65796D61705F6170706C65322E6822 -- #include "asdf_keymap_apple2.h"
, 0x0 -- 
, 0x2F2F2050524F4345445552453A -- // PROCEDURE:
, 0x2F2F20494E505554533A -- // INPUTS:
, 0x2F2F204F5554505554533A -- // OUTPUTS:
, 0x2F2F -- //
, 0x2F2F204445534352495054494F4E3A -- // DESCRIPTION:
, 0x2F2F -- //
, 0x2F2F205349444520454646454354533A -- // SIDE EFFECTS:
, 0x2F2F -- //
, 0x2F2F204E4F5445533A -- // NOTES:
, 0x2F2F -- //
, 0x2F2F2053434F50453A -- // SCOPE:
, 0x2F2F -- //
, 0x2F2F20434F4D504C45584954593A -- // COMPLEXITY:
, 0x2F2F -- //
, 0x0 -- 
, 0x766F6964206170706C65325F69645F6D65737361676528766F696429 -- void apple2_id_message(void)
, 0x7B -- {
, 0x2020617364665F7072696E7428225B4B65796D61703A204170706C6520322028752F6C2063617365295D22293B --   asdf_print("[Keymap: Apple 2 (u/l case)]");
, 0x7D -- }
, 0x0 -- 
, 0x766F69642073657475705F6170706C65325F6B65796D617028766F696429 -- void setup_apple2_keymap(void)
, 0x7B -- {
, 0x2020617364665F7365745F7072696E745F64656C6179284150504C45325F5052494E545F44454C4159293B --   asdf_set_print_delay(APPLE2_PRINT_DELAY);
, 0x0 -- 
, 0x0 -- 
, 0x20206170706C655F6164645F6D6170284150504C455F504C41494E5F4D41502C204D4F445F504C41494E5F4D4150293B --   apple_add_map(APPLE_PLAIN_MAP, MOD_PLAIN_MAP);
, 0x20206170706C655F6164645F6D6170284150504C455F434150535F4D41502C204D4F445F434150535F4D4150293B --   apple_add_map(APPLE_CAPS_MAP, MOD_CAPS_MAP);
, 0x20206170706C655F6164645F6D6170284150504C455F53484946545F4D41502C204D4F445F53484946545F4D4150293B --   apple_add_map(APPLE_SHIFT_MAP, MOD_SHIFT_MAP);
, 0x20206170706C655F6164645F6D6170284150504C455F4354524C5F4D41502C204D4F445F4354524C5F4D4150293B --   apple_add_map(APPLE_CTRL_MAP, MOD_CTRL_MAP);
, 0x0 -- 
, 0x2020617364665F686F6F6B5F61737369676E284150504C45534F46545F4B4559424F4152445F544553542C206170706C65736F66745F6B6579626F6172645F74657374293B --   asdf_hook_assign(APPLESOFT_KEYBOARD_TEST, applesoft_keyboard_test);
, 0x2020617364665F686F6F6B5F61737369676E284150504C45325F49445F4D4553534147452C206170706C65325F69645F6D657373616765293B --   asdf_hook_assign(APPLE2_ID_MESSAGE, apple2_id_message);
, 0x0 -- 
, 0x20202F2F204174746163682074686520706879736963616C20504F574552204C4544206173207468652043415053204C45442E2041737369676E206E6F20747269676765726564 --   // Attach the physical POWER LED as the CAPS LED. Assign no triggered
, 0x20202F2F2066756E6374696F6E2C20616E6420696E697469616C697A6520746F20696E697469616C207374617465206F66207468652043415053206C6F6769632E205468652043415053204C4544 --   // function, and initialize to initial state of the CAPS logic. The CAPS LED
, 0x20202F2F2077696C6C20626520636F6E74726F6C6C656420627920746865207374617465206F662074686520434150534C4F434B206C6F6769632E --   // will be controlled by the state of the CAPSLOCK logic.
, 0x0 -- 
, 0x2020617364665F7669727475616C5F61737369676E2856434150535F4C45442C204150504C455F504F5745525F4C45442C20565F4E4F46554E432C204150504C455F504F5745525F4C45445F494E49545F56414C5545293B --   asdf_virtual_assign(VCAPS_LED, APPLE_POWER_LED, V_NOFUNC, APPLE_POWER_LED_INIT_VALUE);
, 0x0 -- 
, 0x20202F2F2041737369676E2043415053204C454420746F206F6666202864697361626C656429 --   // Assign CAPS LED to off (disabled)
, 0x2020617364665F7669727475616C5F61737369676E284150504C455F5649525455414C5F44495341424C45445F4C45442C204150504C455F44495341424C45445F4C45442C20565F4E4F46554E432C204150504C455F44495341424C45445F494E49545F56414C5545293B --   asdf_virtual_assign(APPLE_VIRTUAL_DISABLED_LED, APPLE_DISABLED_LED, V_NOFUNC, APPLE_DISABLED_INIT_VALUE);
, 0x0 -- 
, 0x20202F2F2061737369676E205245534554206F757470757420746F20746865207669727475616C205245534554206F75747075742C20636F6E66696775726520746F2070726F6475636520612073686F72742070756C7365207768656E20616374697661746564 --   // assign RESET output to the virtual RESET output, configure to produce a short pulse when activated
, 0x2020617364665F7669727475616C5F61737369676E284150504C455F5649525455414C5F52455345542C204150504C455F52455345545F4F55545055542C20565F50554C53455F53484F52542C20214150504C455F52455345545F4143544956455F56414C5545293B --   asdf_virtual_assign(APPLE_VIRTUAL_RESET, APPLE_RESET_OUTPUT, V_PULSE_SHORT, !APPLE_RESET_ACTIVE_VALUE);
, 0x0 -- 
, 0x20202F2F2061737369676E2074686520434C52534352206F757470757420746F20746865207669727475616C20434C52534352206F75747075742C20636F6E66696775726520746F2070726F647563652061206C6F6E672070756C7365207768656E20616374697661746564 --   // assign the CLRSCR output to the virtual CLRSCR output, configure to produce a long pulse when activated
, 0x2020617364665F7669727475616C5F61737369676E284150504C455F5649525455414C5F434C525F5343522C204150504C455F434C525F5343525F4F55545055542C20565F50554C53455F4C4F4E472C20214150504C455F434C525F5343525F4143544956455F56414C5545293B --   asdf_virtual_assign(APPLE_VIRTUAL_CLR_SCR, APPLE_CLR_SCR_OUTPUT, V_PULSE_LONG, !APPLE_CLR_SCR_ACTIVE_VALUE);
, 0x0 -- 
, 0x2020617364665F6D6F6469666965725F636170736C6F636B5F616374697661746528293B202F2F20466F72204170706C6520322C2073746172742077697468204341505320616374697665 --   asdf_modifier_capslock_activate(); // For Apple 2, start with CAPS active
, 0x7D -- }
, 0x0 -- 
, 0x0 -- 
, 0x2F2F2D2D2D2D2D2D2D7C2D2D2D2D2D2D2D2D2D7C2D2D2D2D2D2D2D2D2D2B2D2D2D2D2D2D2D2D2D2B2D2D2D2D2D2D2D2D2D2B2D2D2D2D2D2D2D2D2D2B2D2D2D2D2D2D2D2D2D2B2D2D2D2D2D2D2D2D2D2B -- //-------|---------|---------+---------+---------+---------+---------+---------+
, 0x2F2F2041626F7665206C696E6520697320383020636F6C756D6E732C20616E642073686F756C6420646973706C617920636F6D706C6574656C7920696E2074686520656469746F722E -- // Above line is 80 columns, and should display completely in the editor.
, 0x0 -- 
  ]

/-- /repo/firmware/asdf/src/Keymaps/asdf_keymap_apple2_caps.c, lines 1-80. -/
def asdf_keymap_apple2_caps_c : List Nat := [
  0x2F2F202D2A2D206D6F64653A20433B207461622D77696474683A2032203B20696E64656E742D746162732D6D6F64653A206E696C202D2A2D -- // -*- mode: C; tab-width: 2 ; indent-tabs-mode: nil -*-
, 0x2F2F -- //
, 0x2F2F20556E6966696564204B6579626F6172642050726F6A656374 -- // Unified Keyboard Project
, 0x2F2F2041534446206B6579626F617264206669726D77617265 -- // ASDF keyboard firmware
, 0x2F2F -- //
, 0x2F2F20617364665F6B65796D61705F6170706C65325F636170732E63 -- // asdf_keymap_apple2_caps.c
, 0x2F2F -- //
, 0x2F2F20736574207570206B65796D61707320666F7220414C4C2043415053204170706C65204949206B6579626F61726473 -- // set up keymaps for ALL CAPS Apple II keyboards
, 0x2F2F -- //
, 0x2F2F20436F7079726967687420323031392044617669642046656E796573 -- // Copyright 2019 David Fenyes
, 0x2F2F -- //
, 0x2F2F20546869732070726F6772616D206973206672656520736F6674776172653A20796F752063616E2072656469737472696275746520697420616E642F6F72206D6F6469667920697420756E646572 -- // This program is free software: you can redistribute it and/or modify it under
, 0x2F2F20746865207465726D73206F662074686520474E552047656E6572616C205075626C6963204C6963656E7365206173207075626C697368656420627920746865204672656520536F667477617265 -- // the terms of the GNU General Public License as published by the Free Software
, 0x2F2F20466F756E646174696F6E2C206569746865722076657273696F6E2033206F6620746865204C6963656E73652C206F722028617420796F7572206F7074696F6E2920616E79206C61746572 -- // Foundation, either version 3 of the License, or (at your option) any later
, 0x2F2F2076657273696F6E2E -- // version.
, 0x2F2F -- //
, 0x2F2F20546869732070726F6772616D20697320646973747269627574656420696E2074686520686F706520746861742069742077696C6C2062652075736566756C2C2062757420574954484F5554 -- // This program is distributed in the hope that it will be useful, but WITHOUT
, 0x2F2F20414E592057415252414E54593B20776974686F7574206576656E2074686520696D706C6965642077617272616E7479206F66204D45524348414E544142494C495459206F72204649544E455353 -- // ANY WARRANTY; without even the implied warranty of MERCHANTABILITY or FITNESS
, 0x2F2F20464F52204120504152544943554C415220505552504F53452E205365652074686520474E552047656E6572616C205075626C6963204C6963656E736520666F72206D6F7265 -- // FOR A PARTICULAR PURPOSE. See the GNU General Public License for more
, 0x2F2F2064657461696C732E -- // details.
, 0x2F2F -- //
, 0x2F2F20596F752073686F756C642068617665207265636569766564206120636F7079206F662074686520474E552047656E6572616C205075626C6963204C6963656E736520616C6F6E672077697468 -- // You should have received a copy of the GNU General Public License along with
, 0x2F2F20746869732070726F6772616D2E204966206E6F742C20736565203C68747470733A2F2F7777772E676E752E6F72672F6C6963656E7365732F3E2E -- // this program. If not, see <https://www.gnu.org/licenses/>.
, 0x2F2F -- //
, 0x0 -- 
, 0x0 -- 
, 0x23696E636C7564652022617364665F7072696E742E6822 -- #include "asdf_print.h"
, 0x23696E636C7564652022617364665F6B65796D6170732E6822 -- #include "asdf_keymaps.h"
, 0x23696E636C7564652022617364665F7669727475616C2E6822 -- #include "asdf_virtual.h"
, 0x23696E636C7564652022617364665F6D6F646966696572732E6822 -- #include "asdf_modifiers.h"
, 0x23696E636C7564652022617364665F6B65796D61705F6170706C65325F6164645F6D61702E6822 -- #include "asdf_keymap_apple2_add_map.h"
, 0x23696E636C7564652022617364665F6B65796D61705F6170706C65325F636170732E6822 -- #include "asdf_keymap_apple2_caps.h"
, 0x0 -- 
, 0x766F6964206170706C65325F636170735F69645F6D65737361676528766F696429207B -- void apple2_caps_id_message(void) {
, 0x2020617364665F7072696E7428225B4B65796D61703A204170706C65203220434150535D22293B --   asdf_print("[Keymap: Apple 2 CAPS]");
, 0x7D -- }
, 0x0 -- 
, 0x2F2F2050524F4345445552453A2073657475705F6170706C65325F636170735F6B65796D6170 -- // PROCEDURE: setup_apple2_caps_keymap
, 0x2F2F20494E505554533A206E6F6E65 -- // INPUTS: none
, 0x2F2F204F5554505554533A206E6F6E65 -- // OUTPUTS: none
, 0x2F2F -- //
, 0x2F2F204445534352495054494F4E3A20536574207570206B65796D61707320666F7220414C4C2043415053206170706C652032206B6579626F617264 -- // DESCRIPTION: Set up keymaps for ALL CAPS apple 2 keyboard
, 0x2F2F -- //
, 0x2F2F205349444520454646454354533A20536565204445534352495054494F4E -- // SIDE EFFECTS: See DESCRIPTION
, 0x2F2F -- //
, 0x2F2F204E4F5445533A -- // NOTES:
, 0x2F2F -- //
, 0x2F2F2053434F50453A207075626C6963 -- // SCOPE: public
, 0x2F2F -- //
, 0x2F2F20434F4D504C45584954593A2031 -- // COMPLEXITY: 1
, 0x2F2F -- //
, 0x766F69642073657475705F6170706C65325F636170735F6B65796D617028766F696429 -- void setup_apple2_caps_keymap(void)
, 0x7B -- {
, 0x2020617364665F7365745F7072696E745F64656C6179284150504C45325F5052494E545F44454C4159293B --   asdf_set_print_delay(APPLE2_PRINT_DELAY);
, 0x0 -- 
, 0x20206170706C655F6164645F6D6170284150504C455F434150535F4D41502C204D4F445F504C41494E5F4D4150293B --   apple_add_map(APPLE_CAPS_MAP, MOD_PLAIN_MAP);
, 0x20206170706C655F6164645F6D6170284150504C455F434150535F4D41502C204D4F445F434150535F4D4150293B --   apple_add_map(APPLE_CAPS_MAP, MOD_CAPS_MAP);
, 0x20206170706C655F6164645F6D6170284150504C455F434150535F53484946545F4D41502C204D4F445F53484946545F4D4150293B --   apple_add_map(APPLE_CAPS_SHIFT_MAP, MOD_SHIFT_MAP);
, 0x20206170706C655F6164645F6D6170284150504C455F4354524C5F4D41502C204D4F445F4354524C5F4D4150293B --   apple_add_map(APPLE_CTRL_MAP, MOD_CTRL_MAP);
, 0x0 -- 
, 0x2020617364665F686F6F6B5F61737369676E284150504C45534F46545F4B4559424F4152445F544553542C206170706C65736F66745F6B6579626F6172645F74657374293B --   asdf_hook_assign(APPLESOFT_KEYBOARD_TEST, applesoft_keyboard_test);
, 0x2020617364665F686F6F6B5F61737369676E284150504C45325F434150535F49445F4D4553534147452C206170706C65325F636170735F69645F6D657373616765293B --   asdf_hook_assign(APPLE2_CAPS_ID_MESSAGE, apple2_caps_id_message);
, 0x0 -- 
, 0x20202F2F205475726E2074686520504F574552204C4544206F6E20616E6420646F6E27742061737369676E20746F20616E792066756E6374696F6E --   // Turn the POWER LED on and don't assign to any function
, 0x0 -- 
, 0x2020617364665F7669727475616C5F61737369676E284150504C455F5649525455414C5F504F5745525F4C45442C204150504C455F504F5745525F4C45442C20565F4E4F46554E432C204150504C455F504F5745525F4C45445F494E49545F56414C5545293B --   asdf_virtual_assign(APPLE_VIRTUAL_POWER_LED, APPLE_POWER_LED, V_NOFUNC, APPLE_POWER_LED_INIT_VALUE);
, 0x0 -- 
, 0x20202F2F2041737369676E2043415053204C454420746F206F6666202864697361626C656429 --   // Assign CAPS LED to off (disabled)
, 0x2020617364665F7669727475616C5F61737369676E284150504C455F5649525455414C5F44495341424C45445F4C45442C204150504C455F44495341424C45445F4C45442C20565F4E4F46554E432C204150504C455F44495341424C45445F494E49545F56414C5545293B --   asdf_virtual_assign(APPLE_VIRTUAL_DISABLED_LED, APPLE_DISABLED_LED, V_NOFUNC, APPLE_DISABLED_INIT_VALUE);
, 0x0 -- 
, 0x20202F2F2061737369676E205245534554206F757470757420746F20746865207669727475616C205245534554206F75747075742C20636F6E66696775726520746F2070726F6475636520612073686F72742070756C7365207768656E20616374697661746564 --   // assign RESET output to the virtual RESET output, configure to produce a short pulse when activated
, 0x2020617364665F7669727475616C5F61737369676E284150504C455F5649525455414C5F52455345542C204150504C455F52455345545F4F55545055542C20565F50554C53455F53484F52542C20214150504C455F52455345545F4143544956455F56414C5545293B --   asdf_virtual_assign(APPLE_VIRTUAL_RESET, APPLE_RESET_OUTPUT, V_PULSE_SHORT, !APPLE_RESET_ACTIVE_VALUE);
, 0x0 -- 
, 0x20202F2F2061737369676E2074686520434C52534352206F757470757420746F20746865207669727475616C20434C52534352206F75747075742C20636F6E66696775726520746F2070726F647563652061206C6F6E672070756C7365207768656E20616374697661746564 --   // assign the CLRSCR output to the virtual CLRSCR output, configure to produce a long pulse when activated
, 0x2020617364665F7669727475616C5F61737369676E284150504C455F5649525455414C5F434C525F5343522C204150504C455F434C525F5343525F4F55545055542C20565F50554C53455F4C4F4E472C20214150504C455F434C525F5343525F4143544956455F56414C5545293B --   asdf_virtual_assign(APPLE_VIRTUAL_CLR_SCR, APPLE_CLR_SCR_OUTPUT, V_PULSE_LONG, !APPLE_CLR_SCR_ACTIVE_VALUE);
, 0x7D -- }
, 0x0 -- 
, 0x0 -- 
, 0x2F2F2D2D2D2D2D2D2D7C2D2D2D2D2D2D2D2D2D7C2D2D2D2D2D2D2D2D2D2B2D2D2D2D2D2D2D2D2D2B2D2D2D2D2D2D2D2D2D2B2D2D2D2D2D2D2D2D2D2B2D2D2D2D2D2D2D2D2D2B2D2D2D2D2D2D2D2D2D2B -- //-------|---------|---------+---------+---------+---------+---------+---------+
, 0x2F2F2041626F7665206C696E6520697320383020636F6C756D6E732C20616E642073686F756C6420646973706C617920636F6D706C6574656C7920696E2074686520656469746F722E -- // Above line is 80 columns, and should display completely in the editor.
  ]

/-- /repo/firmware/asdf/src/Keymaps/asdf_keymap_sol.c, lines 1-187. -/
def asdf_keymap_sol_c : List Nat := [
  0x2F2F202D2A2D206D6F64653A20433B207461622D77696474683A2032203B20696E64656E742D746162732D6D6F64653A206E696C202D2A2D -- // -*- mode: C; tab-width: 2 ; indent-tabs-mode: nil -*-
, 0x2F2F -- //
, 0x2F2F20556E6966696564204B6579626F6172642050726F6A656374 -- // Unified Keyboard Project
, 0x2F2F2041534446206B6579626F617264206669726D77617265 -- // ASDF keyboard firmware
, 0x2F2F -- //
, 0x2F2F20617364665F6B65796D61705F736F6C2E63 -- // asdf_keymap_sol.c
, 0x2F2F -- //
, 0x2F2F20496D706C656D656E747320746865206B65796D617020646566696E6974696F6E20616E6420736574757020726F7574696E657320666F722074686520736F6C2D3230206B65796D6170 -- // Implements the keymap definition and setup routines for the sol-20 keymap
, 0x2F2F -- //
, 0x2F2F20436F7079726967687420323031392044617669642046656E796573 -- // Copyright 2019 David Fenyes
, 0x2F2F -- //
, 0x2F2F20546869732070726F6772616D206973206672656520736F6674776172653A20796F752063616E2072656469737472696275746520697420616E642F6F72206D6F6469667920697420756E646572 -- // This program is free software: you can redistribute it and/or modify it under
, 0x2F2F20746865207465726D73206F662074686520474E552047656E6572616C205075626C6963204C6963656E7365206173207075626C697368656420627920746865204672656520536F667477617265 -- // the terms of the GNU General Public License as published by the Free Software
, 0x2F2F20466F756E646174696F6E2C206569746865722076657273696F6E2033206F6620746865204C6963656E73652C206F722028617420796F7572206F7074696F6E2920616E79206C61746572 -- // Foundation, either version 3 of the License, or (at your option) any later
, 0x2F2F2076657273696F6E2E -- // version.
, 0x2F2F -- //
, 0x2F2F20546869732070726F6772616D20697320646973747269627574656420696E2074686520686F706520746861742069742077696C6C2062652075736566756C2C2062757420574954484F5554 -- // This program is distributed in the hope that it will be useful, but WITHOUT
, 0x2F2F20414E592057415252414E54593B20776974686F7574206576656E2074686520696D706C6965642077617272616E7479206F66204D45524348414E544142494C495459206F72204649544E455353 -- // ANY WARRANTY; without even the implied warranty of MERCHANTABILITY or FITNESS
, 0x2F2F20464F52204120504152544943554C415220505552504F53452E205365652074686520474E552047656E6572616C205075626C6963204C6963656E736520666F72206D6F7265 -- // FOR A PARTICULAR PURPOSE. See the GNU General Public License for more
, 0x2F2F2064657461696C732E -- // details.
, 0x2F2F -- //
, 0x2F2F20596F752073686F756C642068617665207265636569766564206120636F7079206F662074686520474E552047656E6572616C205075626C6963204C6963656E736520616C6F6E672077697468 -- // You should have received a copy of the GNU General Public License along with
, 0x2F2F20746869732070726F6772616D2E204966206E6F742C20736565203C68747470733A2F2F7777772E676E752E6F72672F6C6963656E7365732F3E2E -- // this program. If not, see <https://www.gnu.org/licenses/>.
, 0x2F2F -- //
, 0x0 -- 
, 0x23696E636C7564652022617364665F617263682E6822 -- #include "asdf_arch.h"
, 0x23696E636C7564652022617364665F6B65796D61705F736F6C2E6822 -- #include "asdf_keymap_sol.h"
, 0x23696E636C7564652022617364662E6822 -- #include "asdf.h"
, 0x23696E636C7564652022617364665F61736369692E6822 -- #include "asdf_ascii.h"
, 0x23696E636C7564652022617364665F6D6F646966696572732E6822 -- #include "asdf_modifiers.h"
, 0x23696E636C7564652022617364665F6B65796D6170732E6822 -- #include "asdf_keymaps.h"
, 0x23696E636C7564652022617364665F7072696E742E6822 -- #include "asdf_print.h"
, 0x0 -- 
, 0x0 -- 
, 0x23646566696E6520534F4C5F5052494E545F44454C4159203430202F2F206D736563 -- #define SOL_PRINT_DELAY 40 // msec
, 0x23646566696E6520534F4C5F49445F4D4553534147455F484F4F4B20415344465F484F4F4B5F555345525F3130 -- #define SOL_ID_MESSAGE_HOOK ASDF_HOOK_USER_10
, 0x0 -- 
, 0x73746174696320636F6E737420464C41534820617364665F6B6579636F64655F7420736F6C5F706C61696E5F6D61705B415344465F534F4C5F4E554D5F524F57535D5B415344465F534F4C5F4E554D5F434F4C535D203D207B -- static const FLASH asdf_keycode_t sol_plain_map[ASDF_SOL_NUM_ROWS][ASDF_SOL_NUM_COLS] = {
, 0x20205B305D203D207B20414354494F4E5F4354524C2C20534F4C5F4B42445F53484946544C4F434B5F414354494F4E2C202761272C202773272C202764272C202766272C202767272C20276827207D2C --   [0] = { ACTION_CTRL, SOL_KBD_SHIFTLOCK_ACTION, 'a', 's', 'd', 'f', 'g', 'h' },
, 0x20205B315D203D207B20276A272C20276B272C20276C272C20273B272C20273A272C2041534349495F44454C2C20414354494F4E5F5245504541542C20414354494F4E5F4354524C207D2C --   [1] = { 'j', 'k', 'l', ';', ':', ASCII_DEL, ACTION_REPEAT, ACTION_CTRL },
, 0x20205B325D203D207B20414354494F4E5F434150532C20414354494F4E5F53484946542C20277A272C202778272C202763272C202776272C202762272C20276E27207D2C --   [2] = { ACTION_CAPS, ACTION_SHIFT, 'z', 'x', 'c', 'v', 'b', 'n' },
, 0x20205B335D203D207B20276D272C2041534349495F434F4D4D412C2041534349495F504552494F442C20272F272C20414354494F4E5F53484946542C20534F4C5F41534349495F4D4F44455F53454C4543542C20414354494F4E5F4E4F5448494E472C --   [3] = { 'm', ASCII_COMMA, ASCII_PERIOD, '/', ACTION_SHIFT, SOL_ASCII_MODE_SELECT, ACTION_NOTHING,
, 0x20202020202020202020414354494F4E5F4E4F5448494E47207D2C --           ACTION_NOTHING },
, 0x20205B345D203D207B2041534349495F4553432C202731272C202732272C202733272C202734272C202735272C202736272C20273727207D2C --   [4] = { ASCII_ESC, '1', '2', '3', '4', '5', '6', '7' },
, 0x20205B355D203D207B202738272C202739272C2041534349495F5A45524F2C20272D272C20275E272C2041534349495F4C545F5351554152455F42524143452C2041534349495F4241434B534C4153482C --   [5] = { '8', '9', ASCII_ZERO, '-', '^', ASCII_LT_SQUARE_BRACE, ASCII_BACKSLASH,
, 0x2020202020202020202041534349495F52545F5351554152455F4252414345207D2C --           ASCII_RT_SQUARE_BRACE },
, 0x20205B365D203D207B20534F4C5F4B42445F425245414B5F414354494F4E2C2041534349495F5441422C202771272C202777272C202765272C202772272C202774272C20277927207D2C --   [6] = { SOL_KBD_BREAK_ACTION, ASCII_TAB, 'q', 'w', 'e', 'r', 't', 'y' },
, 0x20205B375D203D207B202775272C202769272C20276F272C202770272C2041534349495F41542C2041534349495F43522C2041534349495F4C462C20534F4C5F41534349495F4C4F4144207D2C --   [7] = { 'u', 'i', 'o', 'p', ASCII_AT, ASCII_CR, ASCII_LF, SOL_ASCII_LOAD },
, 0x20205B395D203D207B20534F4C5F4B42445F4C4F43414C5F414354494F4E2C20534F4C5F41534349495F55505F4152524F572C20534F4C5F41534349495F4C545F4152524F572C2041534349495F53504143452C --   [9] = { SOL_KBD_LOCAL_ACTION, SOL_ASCII_UP_ARROW, SOL_ASCII_LT_ARROW, ASCII_SPACE,
, 0x20202020202020202020534F4C5F41534349495F52545F4152524F572C20534F4C5F41534349495F444E5F4152524F572C20534F4C5F41534349495F484F4D452C20534F4C5F41534349495F434C454152207D2C --           SOL_ASCII_RT_ARROW, SOL_ASCII_DN_ARROW, SOL_ASCII_HOME, SOL_ASCII_CLEAR },
, 0x20205B31305D203D207B20272D272C202737272C20272A272C202738272C20272F272C202739272C20414354494F4E5F4E4F5448494E472C20414354494F4E5F4E4F5448494E47207D2C --   [10] = { '-', '7', '*', '8', '/', '9', ACTION_NOTHING, ACTION_NOTHING },
, 0x20205B31315D203D207B202734272C202731272C202735272C202732272C202736272C202733272C20414354494F4E5F4E4F5448494E472C20414354494F4E5F4E4F5448494E47207D2C --   [11] = { '4', '1', '5', '2', '6', '3', ACTION_NOTHING, ACTION_NOTHING },
, 0x20205B31325D203D207B202730272C2041534349495F504552494F442C20272B272C20414354494F4E5F4E4F5448494E472C20414354494F4E5F4E4F5448494E472C20414354494F4E5F4E4F5448494E472C20414354494F4E5F4E4F5448494E472C --   [12] = { '0', ASCII_PERIOD, '+', ACTION_NOTHING, ACTION_NOTHING, ACTION_NOTHING, ACTION_NOTHING,
, 0x2020202020202020202020414354494F4E5F4E4F5448494E47207D2C --            ACTION_NOTHING },
, 0x2020415344465F534F4C5F4449505F53574954434845532C --   ASDF_SOL_DIP_SWITCHES,
, 0x7D3B -- };
, 0x0 -- 
, 0x73746174696320636F6E737420464C41534820617364665F6B6579636F64655F7420736F6C5F636170735F6D61705B415344465F534F4C5F4E554D5F524F57535D5B415344465F534F4C5F4E554D5F434F4C535D203D207B -- static const FLASH asdf_keycode_t sol_caps_map[ASDF_SOL_NUM_ROWS][ASDF_SOL_NUM_COLS] = {
, 0x20205B305D203D207B20414354494F4E5F4354524C2C20534F4C5F4B42445F53484946544C4F434B5F414354494F4E2C202741272C202753272C202744272C202746272C202747272C20274827207D2C --   [0] = { ACTION_CTRL, SOL_KBD_SHIFTLOCK_ACTION, 'A', 'S', 'D', 'F', 'G', 'H' },
, 0x20205B315D203D207B20274A272C20274B272C20274C272C20273B272C20273A272C2041534349495F44454C2C20414354494F4E5F5245504541542C20414354494F4E5F4354524C207D2C --   [1] = { 'J', 'K', 'L', ';', ':', ASCII_DEL, ACTION_REPEAT, ACTION_CTRL },
, 0x20205B325D203D207B20414354494F4E5F434150532C20414354494F4E5F53484946542C20275A272C202758272C202743272C202756272C202742272C20274E27207D2C --   [2] = { ACTION_CAPS, ACTION_SHIFT, 'Z', 'X', 'C', 'V', 'B', 'N' },
, 0x20205B335D203D207B20274D272C2041534349495F434F4D4D412C2041534349495F504552494F442C20272F272C20414354494F4E5F53484946542C20534F4C5F41534349495F4D4F44455F53454C4543542C20414354494F4E5F4E4F5448494E472C --   [3] = { 'M', ASCII_COMMA, ASCII_PERIOD, '/', ACTION_SHIFT, SOL_ASCII_MODE_SELECT, ACTION_NOTHING,
, 0x20202020202020202020414354494F4E5F4E4F5448494E47207D2C --           ACTION_NOTHING },
, 0x20205B345D203D207B2041534349495F4553432C202731272C202732272C202733272C202734272C202735272C202736272C20273727207D2C202F2A2A2F --   [4] = { ASCII_ESC, '1', '2', '3', '4', '5', '6', '7' }, /**/
, 0x20205B355D203D207B202738272C202739272C2041534349495F5A45524F2C20272D272C20275E272C2041534349495F4C545F5351554152455F42524143452C2041534349495F4241434B534C4153482C --   [5] = { '8', '9', ASCII_ZERO, '-', '^', ASCII_LT_SQUARE_BRACE, ASCII_BACKSLASH,
, 0x2020202020202020202041534349495F52545F5351554152455F4252414345207D2C --           ASCII_RT_SQUARE_BRACE },
, 0x20205B365D203D207B20534F4C5F4B42445F425245414B5F414354494F4E2C2041534349495F5441422C202751272C202757272C202745272C202752272C202754272C20275927207D2C --   [6] = { SOL_KBD_BREAK_ACTION, ASCII_TAB, 'Q', 'W', 'E', 'R', 'T', 'Y' },
, 0x20205B375D203D207B202755272C202749272C20274F272C202750272C2041534349495F41542C2041534349495F43522C2041534349495F4C462C20534F4C5F41534349495F4C4F4144207D2C --   [7] = { 'U', 'I', 'O', 'P', ASCII_AT, ASCII_CR, ASCII_LF, SOL_ASCII_LOAD },
, 0x20205B395D203D207B20534F4C5F4B42445F4C4F43414C5F414354494F4E2C20534F4C5F41534349495F55505F4152524F572C20534F4C5F41534349495F4C545F4152524F572C2041534349495F53504143452C --   [9] = { SOL_KBD_LOCAL_ACTION, SOL_ASCII_UP_ARROW, SOL_ASCII_LT_ARROW, ASCII_SPACE,
, 0x20202020202020202020534F4C5F41534349495F52545F4152524F572C20534F4C5F41534349495F444E5F4152524F572C20534F4C5F41534349495F484F4D452C20534F4C5F41534349495F434C454152207D2C --           SOL_ASCII_RT_ARROW, SOL_ASCII_DN_ARROW, SOL_ASCII_HOME, SOL_ASCII_CLEAR },
, 0x20205B31305D203D207B20272D272C202737272C20272A272C202738272C20272F272C202739272C20414354494F4E5F4E4F5448494E472C20414354494F4E5F4E4F5448494E47207D2C --   [10] = { '-', '7', '*', '8', '/', '9', ACTION_NOTHING, ACTION_NOTHING },
, 0x20205B31315D203D207B202734272C202731272C202735272C202732272C202736272C202733272C20414354494F4E5F4E4F5448494E472C20414354494F4E5F4E4F5448494E47207D2C --   [11] = { '4', '1', '5', '2', '6', '3', ACTION_NOTHING, ACTION_NOTHING },
, 0x20205B31325D203D207B202730272C2041534349495F504552494F442C20272B272C20414354494F4E5F4E4F5448494E472C20414354494F4E5F4E4F5448494E472C20414354494F4E5F4E4F5448494E472C20414354494F4E5F4E4F5448494E472C --   [12] = { '0', ASCII_PERIOD, '+', ACTION_NOTHING, ACTION_NOTHING, ACTION_NOTHING, ACTION_NOTHING,
, 0x2020202020202020202020414354494F4E5F4E4F5448494E47207D2C --            ACTION_NOTHING },
, 0x2020415344465F534F4C5F4449505F53574954434845532C --   ASDF_SOL_DIP_SWITCHES,
, 0x7D3B -- };
, 0x0 -- 
, 0x0 -- 
, 0x73746174696320636F6E737420464C41534820617364665F6B6579636F64655F7420736F6C5F73686966745F6D61705B415344465F534F4C5F4E554D5F524F57535D5B415344465F534F4C5F4E554D5F434F4C535D203D207B -- static const FLASH asdf_keycode_t sol_shift_map[ASDF_SOL_NUM_ROWS][ASDF_SOL_NUM_COLS] = {
, 0x20205B305D203D207B20414354494F4E5F4354524C2C20534F4C5F4B42445F53484946544C4F434B5F414354494F4E2C202741272C202753272C202744272C202746272C202747272C20274827207D2C --   [0] = { ACTION_CTRL, SOL_KBD_SHIFTLOCK_ACTION, 'A', 'S', 'D', 'F', 'G', 'H' },
, 0x20205B315D203D207B20274A272C20274B272C20274C272C20273B272C20273A272C2041534349495F554E44455253434F52452C20414354494F4E5F5245504541542C20414354494F4E5F4354524C207D2C --   [1] = { 'J', 'K', 'L', ';', ':', ASCII_UNDERSCORE, ACTION_REPEAT, ACTION_CTRL },
, 0x20205B325D203D207B20414354494F4E5F434150532C20414354494F4E5F53484946542C20275A272C202758272C202743272C202756272C202742272C20274E27207D2C --   [2] = { ACTION_CAPS, ACTION_SHIFT, 'Z', 'X', 'C', 'V', 'B', 'N' },
, 0x20205B335D203D207B20274D272C20273C272C20273E272C20273F272C20414354494F4E5F53484946542C20534F4C5F41534349495F4D4F44455F53454C4543542C20414354494F4E5F4E4F5448494E472C20414354494F4E5F4E4F5448494E47207D2C --   [3] = { 'M', '<', '>', '?', ACTION_SHIFT, SOL_ASCII_MODE_SELECT, ACTION_NOTHING, ACTION_NOTHING },
, 0x20205B345D203D207B2041534349495F4553432C202721272C2041534349495F444F55424C455F51554F54452C202723272C202724272C202725272C202726272C2041534349495F53494E474C455F51554F5445207D2C --   [4] = { ASCII_ESC, '!', ASCII_DOUBLE_QUOTE, '#', '$', '%', '&', ASCII_SINGLE_QUOTE },
, 0x20205B355D203D207B2041534349495F4C545F504152454E2C2041534349495F52545F504152454E2C2041534349495F53504143452C20273D272C2041534349495F54494C44452C2041534349495F4C545F5351554152455F42524143452C --   [5] = { ASCII_LT_PAREN, ASCII_RT_PAREN, ASCII_SPACE, '=', ASCII_TILDE, ASCII_LT_SQUARE_BRACE,
, 0x2020202020202020202041534349495F4241434B534C4153482C2041534349495F52545F5351554152455F4252414345207D2C --           ASCII_BACKSLASH, ASCII_RT_SQUARE_BRACE },
, 0x20205B365D203D207B20534F4C5F4B42445F425245414B5F414354494F4E2C2041534349495F5441422C202751272C202757272C202745272C202752272C202754272C20275927207D2C --   [6] = { SOL_KBD_BREAK_ACTION, ASCII_TAB, 'Q', 'W', 'E', 'R', 'T', 'Y' },
, 0x20205B375D203D207B202755272C202749272C20274F272C202750272C2041534349495F47524156455F414343454E542C2041534349495F43522C2041534349495F4C462C20534F4C5F41534349495F4C4F4144207D2C --   [7] = { 'U', 'I', 'O', 'P', ASCII_GRAVE_ACCENT, ASCII_CR, ASCII_LF, SOL_ASCII_LOAD },
, 0x20205B395D203D207B20534F4C5F4B42445F4C4F43414C5F414354494F4E2C20534F4C5F41534349495F55505F4152524F572C20534F4C5F41534349495F4C545F4152524F572C2041534349495F53504143452C --   [9] = { SOL_KBD_LOCAL_ACTION, SOL_ASCII_UP_ARROW, SOL_ASCII_LT_ARROW, ASCII_SPACE,
, 0x20202020202020202020534F4C5F41534349495F52545F4152524F572C20534F4C5F41534349495F444E5F4152524F572C20534F4C5F41534349495F484F4D452C20534F4C5F41534349495F434C454152207D2C --           SOL_ASCII_RT_ARROW, SOL_ASCII_DN_ARROW, SOL_ASCII_HOME, SOL_ASCII_CLEAR },
, 0x20205B31305D203D207B20272D272C202737272C20272A272C202738272C20272F272C202739272C20414354494F4E5F4E4F5448494E472C20414354494F4E5F4E4F5448494E47207D2C --   [10] = { '-', '7', '*', '8', '/', '9', ACTION_NOTHING, ACTION_NOTHING },
, 0x20205B31315D203D207B202734272C202731272C202735272C202732272C202736272C202733272C20414354494F4E5F4E4F5448494E472C20414354494F4E5F4E4F5448494E47207D2C --   [11] = { '4', '1', '5', '2', '6', '3', ACTION_NOTHING, ACTION_NOTHING },
, 0x20205B31325D203D207B202730272C2041534349495F504552494F442C20272B272C20414354494F4E5F4E4F5448494E472C20414354494F4E5F4E4F5448494E472C20414354494F4E5F4E4F5448494E472C20414354494F4E5F4E4F5448494E472C --   [12] = { '0', ASCII_PERIOD, '+', ACTION_NOTHING, ACTION_NOTHING, ACTION_NOTHING, ACTION_NOTHING,
, 0x2020202020202020202020414354494F4E5F4E4F5448494E47207D2C --            ACTION_NOTHING },
, 0x2020415344465F534F4C5F4449505F53574954434845532C --   ASDF_SOL_DIP_SWITCHES,
, 0x7D3B -- };
, 0x0 -- 
, 0x0 -- 
, 0x73746174696320636F6E737420464C41534820617364665F6B6579636F64655F7420736F6C5F6374726C5F6D61705B415344465F534F4C5F4E554D5F524F57535D5B415344465F534F4C5F4E554D5F434F4C535D203D207B -- static const FLASH asdf_keycode_t sol_ctrl_map[ASDF_SOL_NUM_ROWS][ASDF_SOL_NUM_COLS] = {
, 0x20205B305D203D207B20414354494F4E5F4354524C2C20534F4C5F4B42445F53484946544C4F434B5F414354494F4E2C2041534349495F4354524C5F412C2041534349495F4354524C5F532C2041534349495F4354524C5F442C --   [0] = { ACTION_CTRL, SOL_KBD_SHIFTLOCK_ACTION, ASCII_CTRL_A, ASCII_CTRL_S, ASCII_CTRL_D,
, 0x2020202020202020202041534349495F4354524C5F462C2041534349495F4354524C5F472C2041534349495F4354524C5F48207D2C --           ASCII_CTRL_F, ASCII_CTRL_G, ASCII_CTRL_H },
, 0x20205B315D203D207B2041534349495F4354524C5F4A2C2041534349495F4354524C5F4B2C2041534349495F4354524C5F4C2C2041534349495F56542C2041534349495F4C462C2041534349495F44454C2C --   [1] = { ASCII_CTRL_J, ASCII_CTRL_K, ASCII_CTRL_L, ASCII_VT, ASCII_LF, ASCII_DEL,
, 0x20202020202020202020534F4C5F4B42445F52455345545F414354494F4E2C20414354494F4E5F4354524C207D2C --           SOL_KBD_RESET_ACTION, ACTION_CTRL },
, 0x20205B325D203D207B20414354494F4E5F434150532C20414354494F4E5F53484946542C2041534349495F4354524C5F5A2C2041534349495F4354524C5F582C2041534349495F4354524C5F432C2041534349495F4354524C5F562C --   [2] = { ACTION_CAPS, ACTION_SHIFT, ASCII_CTRL_Z, ASCII_CTRL_X, ASCII_CTRL_C, ASCII_CTRL_V,
, 0x2020202020202020202041534349495F4354524C5F422C2041534349495F4354524C5F4E207D2C --           ASCII_CTRL_B, ASCII_CTRL_N },
, 0x20205B335D203D207B2041534349495F4354524C5F4D2C2041534349495F46462C2041534349495F534F2C2041534349495F53492C20414354494F4E5F53484946542C20534F4C5F41534349495F4D4F44455F53454C4543542C --   [3] = { ASCII_CTRL_M, ASCII_FF, ASCII_SO, ASCII_SI, ACTION_SHIFT, SOL_ASCII_MODE_SELECT,
, 0x20202020202020202020414354494F4E5F4E4F5448494E472C20414354494F4E5F4E4F5448494E47207D2C --           ACTION_NOTHING, ACTION_NOTHING },
, 0x20205B345D203D207B2041534349495F4553432C2041534349495F534F482C2041534349495F5354582C2041534349495F4554582C2041534349495F454F542C2041534349495F454E512C2041534349495F41434B2C2041534349495F42454C207D2C --   [4] = { ASCII_ESC, ASCII_SOH, ASCII_STX, ASCII_ETX, ASCII_EOT, ASCII_ENQ, ASCII_ACK, ASCII_BEL },
, 0x20205B355D203D207B2041534349495F42532C2041534349495F5441422C2041534349495F4E554C4C2C2041534349495F43522C2041534349495F52532C2041534349495F4553432C2041534349495F46532C2041534349495F4753207D2C --   [5] = { ASCII_BS, ASCII_TAB, ASCII_NULL, ASCII_CR, ASCII_RS, ASCII_ESC, ASCII_FS, ASCII_GS },
, 0x20205B365D203D207B20534F4C5F4B42445F425245414B5F414354494F4E2C2041534349495F5441422C2041534349495F4354524C5F512C2041534349495F4354524C5F572C2041534349495F4354524C5F452C2041534349495F4354524C5F522C --   [6] = { SOL_KBD_BREAK_ACTION, ASCII_TAB, ASCII_CTRL_Q, ASCII_CTRL_W, ASCII_CTRL_E, ASCII_CTRL_R,
, 0x2020202020202020202041534349495F4354524C5F542C2041534349495F4354524C5F59207D2C --           ASCII_CTRL_T, ASCII_CTRL_Y },
, 0x20205B375D203D207B2041534349495F4354524C5F552C2041534349495F4354524C5F492C2041534349495F4354524C5F4F2C2041534349495F4354524C5F502C2041534349495F4E554C4C2C2041534349495F43522C2041534349495F4C462C --   [7] = { ASCII_CTRL_U, ASCII_CTRL_I, ASCII_CTRL_O, ASCII_CTRL_P, ASCII_NULL, ASCII_CR, ASCII_LF,
, 0x20202020202020202020534F4C5F41534349495F4C4F4144207D2C --           SOL_ASCII_LOAD },
, 0x20205B395D203D207B20534F4C5F4B42445F4C4F43414C5F414354494F4E2C20534F4C5F41534349495F55505F4152524F572C20534F4C5F41534349495F4C545F4152524F572C2041534349495F53504143452C --   [9] = { SOL_KBD_LOCAL_ACTION, SOL_ASCII_UP_ARROW, SOL_ASCII_LT_ARROW, ASCII_SPACE,
, 0x20202020202020202020534F4C5F41534349495F52545F4152524F572C20534F4C5F41534349495F444E5F4152524F572C20534F4C5F41534349495F484F4D452C20534F4C5F41534349495F434C454152207D2C --           SOL_ASCII_RT_ARROW, SOL_ASCII_DN_ARROW, SOL_ASCII_HOME, SOL_ASCII_CLEAR },
, 0x20205B31305D203D207B20272D272C202737272C20272A272C202738272C20272F272C202739272C20414354494F4E5F4E4F5448494E472C20414354494F4E5F4E4F5448494E47207D2C --   [10] = { '-', '7', '*', '8', '/', '9', ACTION_NOTHING, ACTION_NOTHING },
, 0x20205B31315D203D207B202734272C202731272C202735272C202732272C202736272C202733272C20414354494F4E5F4E4F5448494E472C20414354494F4E5F4E4F5448494E47207D2C --   [11] = { '4', '1', '5', '2', '6', '3', ACTION_NOTHING, ACTION_NOTHING },
, 0x20205B31325D203D207B202730272C2041534349495F504552494F442C20272B272C20414354494F4E5F4E4F5448494E472C20414354494F4E5F4E4F5448494E472C20414354494F4E5F4E4F5448494E472C20414354494F4E5F4E4F5448494E472C --   [12] = { '0', ASCII_PERIOD, '+', ACTION_NOTHING, ACTION_NOTHING, ACTION_NOTHING, ACTION_NOTHING,
, 0x2020202020202020202020414354494F4E5F4E4F5448494E47207D2C --            ACTION_NOTHING },
, 0x2020415344465F534F4C5F4449505F53574954434845532C --   ASDF_SOL_DIP_SWITCHES,
, 0x7D3B -- };
, 0x0 -- 
, 0x0 -- 
, 0x2F2F2050524F4345445552453A20736F6C5F6164645F6D6170 -- // PROCEDURE: sol_add_map
, 0x2F2F20494E505554533A20617364665F6B6579636F64655F7420282A6D617472697829202D206120534F4C5F4E554D5F524F5753207820534F4C5F4E554D5F434F4C53206D6174726978206F66206B6579636F64657320666F72206561636820706879736963616C20726F772F636F6C756D6E2070616972 -- // INPUTS: asdf_keycode_t (*matrix) - a SOL_NUM_ROWS x SOL_NUM_COLS matrix of keycodes for each physical row/column pair
, 0x2F2F2020202020202020206D6F6469666965725F696E6465785F74206D6F64696669657220696E646578202D20746865206D6F64696669657220737461746520636F72726573706F6E64696E6720746F20746865206B6579636F6465206D6174726978 -- //         modifier_index_t modifier index - the modifier state corresponding to the keycode matrix
, 0x2F2F204F5554505554533A206E6F6E65 -- // OUTPUTS: none
, 0x2F2F204445534352495054494F4E3A2050617373657320746865206B6579636F6465206D617472697820616E64206D6F646966696572207374617465207468726F75676820746F -- // DESCRIPTION: Passes the keycode matrix and modifier state through to
, 0x2F2F20617364665F6B65796D6170735F6164645F6D617028292C20616C6F6E6720776974682074686520726F772F636F6C756D6E2064696D656E73696F6E732E -- // asdf_keymaps_add_map(), along with the row/column dimensions.
, 0x2F2F -- //
, 0x2F2F205349444520454646454354533A20746865206D617472697820697320616464656420746F20746865206B65796D6170 -- // SIDE EFFECTS: the matrix is added to the keymap
, 0x2F2F -- //
, 0x2F2F2053434F50453A2070726976617465 -- // SCOPE: private
, 0x2F2F -- //
, 0x2F2F20434F4D504C45584954593A2031 -- // COMPLEXITY: 1
, 0x2F2F -- //
, 0x73746174696320766F696420736F6C5F6164645F6D617028636F6E737420617364665F6B6579636F64655F7420282A6D6174726978295B415344465F534F4C5F4E554D5F434F4C535D2C -- static void sol_add_map(const asdf_keycode_t (*matrix)[ASDF_SOL_NUM_COLS],
, 0x2020202020202020202020202020202020202020202020206D6F6469666965725F696E6465785F74206D6F6469666965725F696E64657829 --                         modifier_index_t modifier_index)
, 0x7B -- {
, 0x2020617364665F6B65796D6170735F6164645F6D617028266D61747269785B305D5B305D2C206D6F6469666965725F696E6465782C202875696E74385F742920415344465F534F4C5F4E554D5F524F57532C --   asdf_keymaps_add_map(&matrix[0][0], modifier_index, (uint8_t) ASDF_SOL_NUM_ROWS,
, 0x20202020202020202020202020202020202020202020202875696E74385F742920415344465F534F4C5F4E554D5F434F4C53293B --                        (uint8_t) ASDF_SOL_NUM_COLS);
, 0x7D -- }
, 0x0 -- 
, 0x0 -- 
, 0x73746174696320766F696420736F6C5F69645F6D65737361676528766F696429 -- static void sol_id_message(void)
, 0x7B -- {
, 0x2020617364665F7072696E7428225B4B657962643A20536F6C2D32305D22293B --   asdf_print("[Keybd: Sol-20]");
, 0x7D -- }
, 0x0 -- 
, 0x766F69642073657475705F736F6C5F6B65796D617028766F696429 -- void setup_sol_keymap(void)
, 0x7B -- {
, 0x2020736F6C5F6164645F6D617028736F6C5F706C61696E5F6D61702C204D4F445F504C41494E5F4D4150293B --   sol_add_map(sol_plain_map, MOD_PLAIN_MAP);
, 0x2020736F6C5F6164645F6D617028736F6C5F636170735F6D61702C204D4F445F434150535F4D4150293B --   sol_add_map(sol_caps_map, MOD_CAPS_MAP);
, 0x2020736F6C5F6164645F6D617028736F6C5F73686966745F6D61702C204D4F445F53484946545F4D4150293B --   sol_add_map(sol_shift_map, MOD_SHIFT_MAP);
, 0x2020736F6C5F6164645F6D617028736F6C5F6374726C5F6D61702C204D4F445F4354524C5F4D4150293B --   sol_add_map(sol_ctrl_map, MOD_CTRL_MAP);
, 0x0 -- 
, 0x2020617364665F7365745F7072696E745F64656C617928534F4C5F5052494E545F44454C4159293B --   asdf_set_print_delay(SOL_PRINT_DELAY);
, 0x0 -- 
, 0x20202F2F205365742075702074686520414C4C2043415053204C45442C2064656661756C74203D206F6666 --   // Set up the ALL CAPS LED, default = off
, 0x2020617364665F7669727475616C5F61737369676E2856434150535F4C45442C20534F4C5F4B42445F4C45445F5550504552434153452C20565F4E4F46554E432C20534F4C5F4B42445F4C45445F4F4646293B --   asdf_virtual_assign(VCAPS_LED, SOL_KBD_LED_UPPERCASE, V_NOFUNC, SOL_KBD_LED_OFF);
, 0x0 -- 
, 0x20202F2F2053657420757020746865205348494654204C45442C2064656661756C74203D206F6666 --   // Set up the SHIFT LED, default = off
, 0x2020617364665F7669727475616C5F61737369676E285653484946545F4C45442C20534F4C5F4B42445F4C45445F53484946544C4F434B2C20565F4E4F46554E432C20534F4C5F4B42445F4C45445F4F4646293B --   asdf_virtual_assign(VSHIFT_LED, SOL_KBD_LED_SHIFTLOCK, V_NOFUNC, SOL_KBD_LED_OFF);
, 0x0 -- 
, 0x20202F2F2053657420757020746865204C4F43414C204C454420616E64206F75747075742C2064656661756C74204C45443D4F46462C2054544C206F757470757420484947482E20426F7468204C4544 --   // Set up the LOCAL LED and output, default LED=OFF, TTL output HIGH. Both LED
, 0x20202F2F20616E642054544C206F75742061726520626F756E6420746F207468652073617665207669727475616C206465766963652E --   // and TTL out are bound to the save virtual device.
, 0x2020617364665F7669727475616C5F61737369676E28534F4C5F4B42445F564C4F43414C2C20534F4C5F4B42445F54544C4F55545F4C4F43414C2C20565F544F47474C452C20534F4C5F4B42445F54544C5F48494748293B --   asdf_virtual_assign(SOL_KBD_VLOCAL, SOL_KBD_TTLOUT_LOCAL, V_TOGGLE, SOL_KBD_TTL_HIGH);
, 0x2020617364665F7669727475616C5F61737369676E28534F4C5F4B42445F564C4F43414C2C20534F4C5F4B42445F4C45445F4C4F43414C2C20565F544F47474C452C20534F4C5F4B42445F4C45445F4F4646293B --   asdf_virtual_assign(SOL_KBD_VLOCAL, SOL_KBD_LED_LOCAL, V_TOGGLE, SOL_KBD_LED_OFF);
, 0x0 -- 
, 0x20202F2F2053657420757020746865205245534554206F75747075742C2070726F6475636520612073686F72742070756C7365207768656E206163746976617465642E2044656661756C74206F75747075742048494748 --   // Set up the RESET output, produce a short pulse when activated. Default output HIGH
, 0x2020617364665F7669727475616C5F61737369676E28534F4C5F4B42445F5652455345542C20534F4C5F4B42445F54544C4F55545F52455345542C20565F50554C53455F53484F52542C20534F4C5F4B42445F54544C5F48494748293B --   asdf_virtual_assign(SOL_KBD_VRESET, SOL_KBD_TTLOUT_RESET, V_PULSE_SHORT, SOL_KBD_TTL_HIGH);
, 0x0 -- 
, 0x20202F2F205365742075702074686520425245414B206F75747075742C2070726F647563652061206C6F6E672070756C7365207768656E206163746976617465642C2064656661756C74206F75747075742068696768 --   // Set up the BREAK output, produce a long pulse when activated, default output high
, 0x2020617364665F7669727475616C5F61737369676E28534F4C5F4B42445F56425245414B2C20534F4C5F4B42445F54544C4F55545F425245414B2C20565F50554C53455F4C4F4E472C20534F4C5F4B42445F54544C5F48494748293B --   asdf_virtual_assign(SOL_KBD_VBREAK, SOL_KBD_TTLOUT_BREAK, V_PULSE_LONG, SOL_KBD_TTL_HIGH);
, 0x0 -- 
, 0x20202F2F2041637469766174652074686520414C4C2043415053206D6F646520746F20656D756C61746520746865206F726967696E616C206B6579626F6172643A --   // Activate the ALL CAPS mode to emulate the original keyboard:
, 0x2020617364665F6D6F6469666965725F636170736C6F636B5F616374697661746528293B --   asdf_modifier_capslock_activate();
, 0x0 -- 
, 0x20202F2F20436F6E666967757265206E65676174697665207374726F6265 --   // Configure negative strobe
, 0x2020617364665F617263685F7365745F6E65675F7374726F626528293B --   asdf_arch_set_neg_strobe();
, 0x0 -- 
, 0x2020617364665F686F6F6B5F61737369676E28534F4C5F49445F4D4553534147455F484F4F4B2C20736F6C5F69645F6D657373616765293B --   asdf_hook_assign(SOL_ID_MESSAGE_HOOK, sol_id_message);
, 0x7D -- }
, 0x0 -- 
, 0x0 -- 
, 0x2F2F2D2D2D2D2D2D2D7C2D2D2D2D2D2D2D2D2D7C2D2D2D2D2D2D2D2D2D2B2D2D2D2D2D2D2D2D2D2B2D2D2D2D2D2D2D2D2D2B2D2D2D2D2D2D2D2D2D2B2D2D2D2D2D2D2D2D2D2B2D2D2D2D2D2D2D2D2D2B -- //-------|---------|---------+---------+---------+---------+---------+---------+
, 0x2F2F2041626F7665206C696E6520697320383020636F6C756D6E732C20616E642073686F756C6420646973706C617920636F6D706C6574656C7920696E2074686520656469746F722E -- // Above line is 80 columns, and should display completely in the editor.
  ]

/-- /repo/firmware/asdf/src/Keymaps/asdf_keymap_ace1000_add_map.c, lines 1-122. -/
def asdf_keymap_ace1000_add_map_c : List Nat := [
  0x2F2F202D2A2D206D6F64653A20433B207461622D77696474683A2032203B20696E64656E742D746162732D6D6F64653A206E696C202D2A2D -- // -*- mode: C; tab-width: 2 ; indent-tabs-mode: nil -*-
, 0x2F2F -- //
, 0x2F2F20556E6966696564204B6579626F6172642050726F6A656374 -- // Unified Keyboard Project
, 0x2F2F2041534446206B6579626F617264206669726D77617265 -- // ASDF keyboard firmware
, 0x2F2F -- //
, 0x2F2F20617364665F6B65796D61705F616365313030305F6164645F6D61702E63 -- // asdf_keymap_ace1000_add_map.c
, 0x2F2F -- //
, 0x2F2F204B65796D6170206D61747269636573207573656420627920746865204672616E6B6C696E204143452031303030207265706C6163656D656E74206B6579626F617264 -- // Keymap matrices used by the Franklin ACE 1000 replacement keyboard
, 0x2F2F2068747470733A2F2F6769746875622E636F6D2F727975636174732F4672616E6B6C696E2D4143452D313030302D4B6579626F617264 -- // https://github.com/ryucats/Franklin-ACE-1000-Keyboard
, 0x2F2F -- //
, 0x2F2F20436F70797269676874203230323320436872697320525955 -- // Copyright 2023 Chris RYU
, 0x2F2F20436F7079726967687420323031392044617669642046656E796573 -- // Copyright 2019 David Fenyes
, 0x2F2F -- //
, 0x2F2F20546869732070726F6772616D206973206672656520736F6674776172653A20796F752063616E2072656469737472696275746520697420616E642F6F72206D6F6469667920697420756E646572 -- // This program is free software: you can redistribute it and/or modify it under
, 0x2F2F20746865207465726D73206F662074686520474E552047656E6572616C205075626C6963204C6963656E7365206173207075626C697368656420627920746865204672656520536F667477617265 -- // the terms of the GNU General Public License as published by the Free Software
, 0x2F2F20466F756E646174696F6E2C206569746865722076657273696F6E2033206F6620746865204C6963656E73652C206F722028617420796F7572206F7074696F6E2920616E79206C61746572 -- // Foundation, either version 3 of the License, or (at your option) any later
, 0x2F2F2076657273696F6E2E -- // version.
, 0x2F2F -- //
, 0x2F2F20546869732070726F6772616D20697320646973747269627574656420696E2074686520686F706520746861742069742077696C6C2062652075736566756C2C2062757420574954484F5554 -- // This program is distributed in the hope that it will be useful, but WITHOUT
, 0x2F2F20414E592057415252414E54593B20776974686F7574206576656E2074686520696D706C6965642077617272616E7479206F66204D45524348414E544142494C495459206F72204649544E455353 -- // ANY WARRANTY; without even the implied warranty of MERCHANTABILITY or FITNESS
, 0x2F2F20464F52204120504152544943554C415220505552504F53452E205365652074686520474E552047656E6572616C205075626C6963204C6963656E736520666F72206D6F7265 -- // FOR A PARTICULAR PURPOSE. See the GNU General Public License for more
, 0x2F2F2064657461696C732E -- // details.
, 0x2F2F -- //
, 0x2F2F20596F752073686F756C642068617665207265636569766564206120636F7079206F662074686520474E552047656E6572616C205075626C6963204C6963656E736520616C6F6E672077697468 -- // You should have received a copy of the GNU General Public License along with
, 0x2F2F20746869732070726F6772616D2E204966206E6F742C20736565203C68747470733A2F2F7777772E676E752E6F72672F6C6963656E7365732F3E2E -- // this program. If not, see <https://www.gnu.org/licenses/>.
, 0x2F2F -- //
, 0x0 -- 
, 0x23696E636C7564652022617364665F617263682E6822 -- #include "asdf_arch.h"
, 0x23696E636C7564652022617364662E6822 -- #include "asdf.h"
, 0x23696E636C7564652022617364665F61736369692E6822 -- #include "asdf_ascii.h"
, 0x23696E636C7564652022617364665F7072696E742E6822 -- #include "asdf_print.h"
, 0x23696E636C7564652022617364665F6B65796D6170732E6822 -- #include "asdf_keymaps.h"
, 0x23696E636C7564652022617364665F6B65796D61705F616365313030302E6822 -- #include "asdf_keymap_ace1000.h"
, 0x23696E636C7564652022617364665F6B65796D61705F616365313030305F6164645F6D61702E6822 -- #include "asdf_keymap_ace1000_add_map.h"
, 0x23696E636C7564652022617364665F6B65796D61705F646566735F6469707377697463682E6822 -- #include "asdf_keymap_defs_dipswitch.h"
, 0x0 -- 
, 0x2F2F204B6579204D617472697820666F7220746865204672616E6B6C696E204143452031303030207265706C6163656D656E74206B6579626F61726420627920436872697320525955 -- // Key Matrix for the Franklin ACE 1000 replacement keyboard by Chris RYU
, 0x0 -- 
, 0x23646566696E6520415344465F414345313030305F4449505F535749544348455320415344465F4B45594D41505F4449505F5357495443484553 -- #define ASDF_ACE1000_DIP_SWITCHES ASDF_KEYMAP_DIP_SWITCHES
, 0x0 -- 
, 0x7479706564656620617364665F6B6579636F64655F7420616365313030305F6B6579636F64655F6D61747269785F745B414345313030305F4E554D5F524F57535D5B414345313030305F4E554D5F434F4C535D3B -- typedef asdf_keycode_t ace1000_keycode_matrix_t[ACE1000_NUM_ROWS][ACE1000_NUM_COLS];
, 0x0 -- 
, 0x636F6E737420464C41534820616365313030305F6B6579636F64655F6D61747269785F7420616365313030305F706C61696E5F6D6174726978203D207B -- const FLASH ace1000_keycode_matrix_t ace1000_plain_matrix = {
, 0x202020205B305D203D207B204143455F4B45595F4553432C204143455F4B45595F425245414B2C204143455F4B45595F50415553452C20414354494F4E5F4354524C2C204143455F4B45595F5441422C20414354494F4E5F434150532C20414354494F4E5F53484946542C204143455F4B45595F53504143452C20207D2C --     [0] = { ACE_KEY_ESC, ACE_KEY_BREAK, ACE_KEY_PAUSE, ACTION_CTRL, ACE_KEY_TAB, ACTION_CAPS, ACTION_SHIFT, ACE_KEY_SPACE,  },
, 0x202020205B315D203D207B204143455F4B45595F312C204143455F4B45595F512C204143455F4B45595F412C204143455F4B45595F5A2C204143455F4B45595F322C204143455F4B45595F572C204143455F4B45595F532C204143455F4B45595F582C20207D2C --     [1] = { ACE_KEY_1, ACE_KEY_Q, ACE_KEY_A, ACE_KEY_Z, ACE_KEY_2, ACE_KEY_W, ACE_KEY_S, ACE_KEY_X,  },
, 0x202020205B325D203D207B204143455F4B45595F332C204143455F4B45595F452C204143455F4B45595F442C204143455F4B45595F432C204143455F4B45595F342C204143455F4B45595F522C204143455F4B45595F462C204143455F4B45595F562C20207D2C --     [2] = { ACE_KEY_3, ACE_KEY_E, ACE_KEY_D, ACE_KEY_C, ACE_KEY_4, ACE_KEY_R, ACE_KEY_F, ACE_KEY_V,  },
, 0x202020205B335D203D207B204143455F4B45595F352C204143455F4B45595F542C204143455F4B45595F472C204143455F4B45595F422C204143455F4B45595F362C204143455F4B45595F592C204143455F4B45595F482C204143455F4B45595F4E2C20207D2C --     [3] = { ACE_KEY_5, ACE_KEY_T, ACE_KEY_G, ACE_KEY_B, ACE_KEY_6, ACE_KEY_Y, ACE_KEY_H, ACE_KEY_N,  },
, 0x202020205B345D203D207B204143455F4B45595F372C204143455F4B45595F552C204143455F4B45595F4A2C204143455F4B45595F4D2C204143455F4B45595F382C204143455F4B45595F492C204143455F4B45595F4B2C204143455F4B45595F434F4D4D412C20207D2C --     [4] = { ACE_KEY_7, ACE_KEY_U, ACE_KEY_J, ACE_KEY_M, ACE_KEY_8, ACE_KEY_I, ACE_KEY_K, ACE_KEY_COMMA,  },
, 0x202020205B355D203D207B204143455F4B45595F392C204143455F4B45595F4F2C204143455F4B45595F4C2C204143455F4B45595F504552494F442C204143455F4B45595F52494748542C204143455F4B45595F554E44455253434F52452C204143455F4B45595F504C55532C204143455F4B45595F53504C41542C20207D2C --     [5] = { ACE_KEY_9, ACE_KEY_O, ACE_KEY_L, ACE_KEY_PERIOD, ACE_KEY_RIGHT, ACE_KEY_UNDERSCORE, ACE_KEY_PLUS, ACE_KEY_SPLAT,  },
, 0x202020205B365D203D207B204143455F4B45595F302C204143455F4B45595F502C204143455F4B45595F53454D492C204143455F4B45595F534C4153482C204143455F4B45595F372C204143455F4B45595F342C204143455F4B45595F312C204143455F4B45595F47542C20207D2C --     [6] = { ACE_KEY_0, ACE_KEY_P, ACE_KEY_SEMI, ACE_KEY_SLASH, ACE_KEY_7, ACE_KEY_4, ACE_KEY_1, ACE_KEY_GT,  },
, 0x202020205B375D203D207B204143455F4B45595F4D494E55532C204143455F4B45595F4355524C592C204143455F4B45595F51554F54452C20414354494F4E5F53484946542C204143455F4B45595F382C204143455F4B45595F352C204143455F4B45595F322C204143455F4B45595F302C20207D2C --     [7] = { ACE_KEY_MINUS, ACE_KEY_CURLY, ACE_KEY_QUOTE, ACTION_SHIFT, ACE_KEY_8, ACE_KEY_5, ACE_KEY_2, ACE_KEY_0,  },
, 0x202020205B395D203D207B204143455F4B45595F534C4153482C204143455F4B45595F5351554152452C204143455F4B45595F52455455524E2C204143455F4B45595F4C4546542C204143455F4B45595F392C204143455F4B45595F362C204143455F4B45595F332C204143455F4B45595F504552494F442C20207D2C --     [9] = { ACE_KEY_SLASH, ACE_KEY_SQUARE, ACE_KEY_RETURN, ACE_KEY_LEFT, ACE_KEY_9, ACE_KEY_6, ACE_KEY_3, ACE_KEY_PERIOD,  },
, 0x20202020415344465F4143455F4449505F53574954434845532C --     ASDF_ACE_DIP_SWITCHES,
, 0x7D3B -- };
, 0x0 -- 
, 0x636F6E737420464C41534820616365313030305F6B6579636F64655F6D61747269785F7420616365313030305F73686966745F6D6174726978203D207B -- const FLASH ace1000_keycode_matrix_t ace1000_shift_matrix = {
, 0x202020205B305D203D207B204143455F4B45595F53484946545F4553432C204143455F4B45595F53484946545F425245414B2C204143455F4B45595F53484946545F50415553452C20414354494F4E5F4354524C2C204143455F4B45595F53484946545F5441422C20414354494F4E5F434150532C20414354494F4E5F53484946542C204143455F4B45595F53484946545F53504143452C20207D2C --     [0] = { ACE_KEY_SHIFT_ESC, ACE_KEY_SHIFT_BREAK, ACE_KEY_SHIFT_PAUSE, ACTION_CTRL, ACE_KEY_SHIFT_TAB, ACTION_CAPS, ACTION_SHIFT, ACE_KEY_SHIFT_SPACE,  },
, 0x202020205B315D203D207B204143455F4B45595F53484946545F312C204143455F4B45595F53484946545F512C204143455F4B45595F53484946545F412C204143455F4B45595F53484946545F5A2C204143455F4B45595F53484946545F322C204143455F4B45595F53484946545F572C204143455F4B45595F53484946545F532C204143455F4B45595F53484946545F582C20207D2C --     [1] = { ACE_KEY_SHIFT_1, ACE_KEY_SHIFT_Q, ACE_KEY_SHIFT_A, ACE_KEY_SHIFT_Z, ACE_KEY_SHIFT_2, ACE_KEY_SHIFT_W, ACE_KEY_SHIFT_S, ACE_KEY_SHIFT_X,  },
, 0x202020205B325D203D207B204143455F4B45595F53484946545F332C204143455F4B45595F53484946545F452C204143455F4B45595F53484946545F442C204143455F4B45595F53484946545F432C204143455F4B45595F53484946545F342C204143455F4B45595F53484946545F522C204143455F4B45595F53484946545F462C204143455F4B45595F53484946545F562C20207D2C --     [2] = { ACE_KEY_SHIFT_3, ACE_KEY_SHIFT_E, ACE_KEY_SHIFT_D, ACE_KEY_SHIFT_C, ACE_KEY_SHIFT_4, ACE_KEY_SHIFT_R, ACE_KEY_SHIFT_F, ACE_KEY_SHIFT_V,  },
, 0x202020205B335D203D207B204143455F4B45595F53484946545F352C204143455F4B45595F53484946545F542C204143455F4B45595F53484946545F472C204143455F4B45595F53484946545F422C204143455F4B45595F53484946545F362C204143455F4B45595F53484946545F592C204143455F4B45595F53484946545F482C204143455F4B45595F53484946545F4E2C20207D2C --     [3] = { ACE_KEY_SHIFT_5, ACE_KEY_SHIFT_T, ACE_KEY_SHIFT_G, ACE_KEY_SHIFT_B, ACE_KEY_SHIFT_6, ACE_KEY_SHIFT_Y, ACE_KEY_SHIFT_H, ACE_KEY_SHIFT_N,  },
, 0x202020205B345D203D207B204143455F4B45595F53484946545F372C204143455F4B45595F53484946545F552C204143455F4B45595F53484946545F4A2C204143455F4B45595F53484946545F4D2C204143455F4B45595F53484946545F382C204143455F4B45595F53484946545F492C204143455F4B45595F53484946545F4B2C204143455F4B45595F53484946545F434F4D4D412C20207D2C --     [4] = { ACE_KEY_SHIFT_7, ACE_KEY_SHIFT_U, ACE_KEY_SHIFT_J, ACE_KEY_SHIFT_M, ACE_KEY_SHIFT_8, ACE_KEY_SHIFT_I, ACE_KEY_SHIFT_K, ACE_KEY_SHIFT_COMMA,  },
, 0x202020205B355D203D207B204143455F4B45595F53484946545F392C204143455F4B45595F53484946545F4F2C204143455F4B45595F53484946545F4C2C204143455F4B45595F53484946545F504552494F442C204143455F4B45595F53484946545F52494748542C204143455F4B45595F53484946545F554E44455253434F52452C204143455F4B45595F53484946545F504C55532C204143455F4B45595F53484946545F53504C41542C20207D2C --     [5] = { ACE_KEY_SHIFT_9, ACE_KEY_SHIFT_O, ACE_KEY_SHIFT_L, ACE_KEY_SHIFT_PERIOD, ACE_KEY_SHIFT_RIGHT, ACE_KEY_SHIFT_UNDERSCORE, ACE_KEY_SHIFT_PLUS, ACE_KEY_SHIFT_SPLAT,  },
, 0x202020205B365D203D207B204143455F4B45595F53484946545F302C204143455F4B45595F53484946545F502C204143455F4B45595F53484946545F53454D492C204143455F4B45595F53484946545F534C4153482C204143455F4B45595F53484946545F372C204143455F4B45595F53484946545F342C204143455F4B45595F53484946545F312C204143455F4B45595F53484946545F47542C20207D2C --     [6] = { ACE_KEY_SHIFT_0, ACE_KEY_SHIFT_P, ACE_KEY_SHIFT_SEMI, ACE_KEY_SHIFT_SLASH, ACE_KEY_SHIFT_7, ACE_KEY_SHIFT_4, ACE_KEY_SHIFT_1, ACE_KEY_SHIFT_GT,  },
, 0x202020205B375D203D207B204143455F4B45595F53484946545F4D494E55532C204143455F4B45595F53484946545F4355524C592C204143455F4B45595F53484946545F51554F54452C20414354494F4E5F53484946542C204143455F4B45595F53484946545F382C204143455F4B45595F53484946545F352C204143455F4B45595F53484946545F322C204143455F4B45595F53484946545F302C20207D2C --     [7] = { ACE_KEY_SHIFT_MINUS, ACE_KEY_SHIFT_CURLY, ACE_KEY_SHIFT_QUOTE, ACTION_SHIFT, ACE_KEY_SHIFT_8, ACE_KEY_SHIFT_5, ACE_KEY_SHIFT_2, ACE_KEY_SHIFT_0,  },
, 0x202020205B395D203D207B204143455F4B45595F53484946545F534C4153482C204143455F4B45595F53484946545F5351554152452C204143455F4B45595F52455455524E2C204143455F4B45595F53484946545F4C4546542C204143455F4B45595F53484946545F392C204143455F4B45595F53484946545F362C204143455F4B45595F53484946545F332C204143455F4B45595F53484946545F504552494F442C20207D2C --     [9] = { ACE_KEY_SHIFT_SLASH, ACE_KEY_SHIFT_SQUARE, ACE_KEY_RETURN, ACE_KEY_SHIFT_LEFT, ACE_KEY_SHIFT_9, ACE_KEY_SHIFT_6, ACE_KEY_SHIFT_3, ACE_KEY_SHIFT_PERIOD,  },
, 0x20202020415344465F4143455F4449505F53574954434845532C --     ASDF_ACE_DIP_SWITCHES,
, 0x7D3B -- };
, 0x0 -- 
, 0x636F6E737420464C41534820616365313030305F6B6579636F64655F6D61747269785F7420616365313030305F636170735F6D6174726978203D207B -- const FLASH ace1000_keycode_matrix_t ace1000_caps_matrix = {
, 0x202020205B305D203D207B204143455F4B45595F4553432C204143455F4B45595F425245414B2C204143455F4B45595F50415553452C20414354494F4E5F4354524C2C204143455F4B45595F5441422C20414354494F4E5F434150532C20414354494F4E5F53484946542C204143455F4B45595F53504143452C20207D2C --     [0] = { ACE_KEY_ESC, ACE_KEY_BREAK, ACE_KEY_PAUSE, ACTION_CTRL, ACE_KEY_TAB, ACTION_CAPS, ACTION_SHIFT, ACE_KEY_SPACE,  },
, 0x202020205B315D203D207B204143455F4B45595F312C204143455F4B45595F53484946545F512C204143455F4B45595F53484946545F412C204143455F4B45595F53484946545F5A2C204143455F4B45595F322C204143455F4B45595F53484946545F572C204143455F4B45595F53484946545F532C204143455F4B45595F53484946545F582C20207D2C --     [1] = { ACE_KEY_1, ACE_KEY_SHIFT_Q, ACE_KEY_SHIFT_A, ACE_KEY_SHIFT_Z, ACE_KEY_2, ACE_KEY_SHIFT_W, ACE_KEY_SHIFT_S, ACE_KEY_SHIFT_X,  },
, 0x202020205B325D203D207B204143455F4B45595F332C204143455F4B45595F53484946545F452C204143455F4B45595F53484946545F442C204143455F4B45595F53484946545F432C204143455F4B45595F342C204143455F4B45595F53484946545F522C204143455F4B45595F53484946545F462C204143455F4B45595F53484946545F562C20207D2C --     [2] = { ACE_KEY_3, ACE_KEY_SHIFT_E, ACE_KEY_SHIFT_D, ACE_KEY_SHIFT_C, ACE_KEY_4, ACE_KEY_SHIFT_R, ACE_KEY_SHIFT_F, ACE_KEY_SHIFT_V,  },
, 0x202020205B335D203D207B204143455F4B45595F352C204143455F4B45595F53484946545F542C204143455F4B45595F53484946545F472C204143455F4B45595F53484946545F422C204143455F4B45595F362C204143455F4B45595F53484946545F592C204143455F4B45595F53484946545F482C204143455F4B45595F53484946545F4E2C20207D2C --     [3] = { ACE_KEY_5, ACE_KEY_SHIFT_T, ACE_KEY_SHIFT_G, ACE_KEY_SHIFT_B, ACE_KEY_6, ACE_KEY_SHIFT_Y, ACE_KEY_SHIFT_H, ACE_KEY_SHIFT_N,  },
, 0x202020205B345D203D207B204143455F4B45595F372C204143455F4B45595F53484946545F552C204143455F4B45595F53484946545F4A2C204143455F4B45595F53484946545F4D2C204143455F4B45595F382C204143455F4B45595F53484946545F492C204143455F4B45595F53484946545F4B2C204143455F4B45595F434F4D4D412C20207D2C --     [4] = { ACE_KEY_7, ACE_KEY_SHIFT_U, ACE_KEY_SHIFT_J, ACE_KEY_SHIFT_M, ACE_KEY_8, ACE_KEY_SHIFT_I, ACE_KEY_SHIFT_K, ACE_KEY_COMMA,  },
, 0x202020205B355D203D207B204143455F4B45595F392C204143455F4B45595F53484946545F4F2C204143455F4B45595F53484946545F4C2C204143455F4B45595F504552494F442C204143455F4B45595F52494748542C204143455F4B45595F554E44455253434F52452C204143455F4B45595F504C55532C204143455F4B45595F53504C41542C20207D2C --     [5] = { ACE_KEY_9, ACE_KEY_SHIFT_O, ACE_KEY_SHIFT_L, ACE_KEY_PERIOD, ACE_KEY_RIGHT, ACE_KEY_UNDERSCORE, ACE_KEY_PLUS, ACE_KEY_SPLAT,  },
, 0x202020205B365D203D207B204143455F4B45595F302C204143455F4B45595F53484946545F502C204143455F4B45595F53454D492C204143455F4B45595F534C4153482C204143455F4B45595F372C204143455F4B45595F342C204143455F4B45595F312C204143455F4B45595F47542C20207D2C --     [6] = { ACE_KEY_0, ACE_KEY_SHIFT_P, ACE_KEY_SEMI, ACE_KEY_SLASH, ACE_KEY_7, ACE_KEY_4, ACE_KEY_1, ACE_KEY_GT,  },
, 0x202020205B375D203D207B204143455F4B45595F4D494E55532C204143455F4B45595F4355524C592C204143455F4B45595F51554F54452C20414354494F4E5F53484946542C204143455F4B45595F382C204143455F4B45595F352C204143455F4B45595F322C204143455F4B45595F302C20207D2C --     [7] = { ACE_KEY_MINUS, ACE_KEY_CURLY, ACE_KEY_QUOTE, ACTION_SHIFT, ACE_KEY_8, ACE_KEY_5, ACE_KEY_2, ACE_KEY_0,  },
, 0x202020205B395D203D207B204143455F4B45595F534C4153482C204143455F4B45595F5351554152452C204143455F4B45595F52455455524E2C204143455F4B45595F4C4546542C204143455F4B45595F392C204143455F4B45595F362C204143455F4B45595F332C204143455F4B45595F504552494F442C20207D2C --     [9] = { ACE_KEY_SLASH, ACE_KEY_SQUARE, ACE_KEY_RETURN, ACE_KEY_LEFT, ACE_KEY_9, ACE_KEY_6, ACE_KEY_3, ACE_KEY_PERIOD,  },
, 0x20202020415344465F4143455F4449505F53574954434845532C --     ASDF_ACE_DIP_SWITCHES,
, 0x7D3B -- };
, 0x0 -- 
, 0x636F6E737420464C41534820616365313030305F6B6579636F64655F6D61747269785F7420616365313030305F6374726C5F6D6174726978203D207B -- const FLASH ace1000_keycode_matrix_t ace1000_ctrl_matrix = {
, 0x202020205B305D203D207B204143455F4B45595F4553432C204143455F4B45595F425245414B2C204143455F4B45595F50415553452C20414354494F4E5F4354524C2C204143455F4B45595F5441422C20414354494F4E5F434150532C20414354494F4E5F53484946542C204143455F4B45595F53504143452C20207D2C --     [0] = { ACE_KEY_ESC, ACE_KEY_BREAK, ACE_KEY_PAUSE, ACTION_CTRL, ACE_KEY_TAB, ACTION_CAPS, ACTION_SHIFT, ACE_KEY_SPACE,  },
, 0x202020205B315D203D207B204143455F4B45595F4354524C5F312C204143455F4B45595F4354524C5F512C204143455F4B45595F4354524C5F412C204143455F4B45595F4354524C5F5A2C204143455F4B45595F4354524C5F322C204143455F4B45595F4354524C5F572C204143455F4B45595F4354524C5F532C204143455F4B45595F4354524C5F582C20207D2C --     [1] = { ACE_KEY_CTRL_1, ACE_KEY_CTRL_Q, ACE_KEY_CTRL_A, ACE_KEY_CTRL_Z, ACE_KEY_CTRL_2, ACE_KEY_CTRL_W, ACE_KEY_CTRL_S, ACE_KEY_CTRL_X,  },
, 0x202020205B325D203D207B204143455F4B45595F4354524C5F332C204143455F4B45595F4354524C5F452C204143455F4B45595F4354524C5F442C204143455F4B45595F4354524C5F432C204143455F4B45595F4354524C5F342C204143455F4B45595F4354524C5F522C204143455F4B45595F4354524C5F462C204143455F4B45595F4354524C5F562C20207D2C --     [2] = { ACE_KEY_CTRL_3, ACE_KEY_CTRL_E, ACE_KEY_CTRL_D, ACE_KEY_CTRL_C, ACE_KEY_CTRL_4, ACE_KEY_CTRL_R, ACE_KEY_CTRL_F, ACE_KEY_CTRL_V,  },
, 0x202020205B335D203D207B204143455F4B45595F4354524C5F352C204143455F4B45595F4354524C5F542C204143455F4B45595F4354524C5F472C204143455F4B45595F4354524C5F422C204143455F4B45595F4354524C5F362C204143455F4B45595F4354524C5F592C204143455F4B45595F4354524C5F482C204143455F4B45595F4354524C5F4E2C20207D2C --     [3] = { ACE_KEY_CTRL_5, ACE_KEY_CTRL_T, ACE_KEY_CTRL_G, ACE_KEY_CTRL_B, ACE_KEY_CTRL_6, ACE_KEY_CTRL_Y, ACE_KEY_CTRL_H, ACE_KEY_CTRL_N,  },
, 0x202020205B345D203D207B204143455F4B45595F4354524C5F372C204143455F4B45595F4354524C5F552C204143455F4B45595F4354524C5F4A2C204143455F4B45595F4354524C5F4D2C204143455F4B45595F4354524C5F382C204143455F4B45595F4354524C5F492C204143455F4B45595F4354524C5F4B2C204143455F4B45595F4354524C5F434F4D4D412C20207D2C --     [4] = { ACE_KEY_CTRL_7, ACE_KEY_CTRL_U, ACE_KEY_CTRL_J, ACE_KEY_CTRL_M, ACE_KEY_CTRL_8, ACE_KEY_CTRL_I, ACE_KEY_CTRL_K, ACE_KEY_CTRL_COMMA,  },
, 0x202020205B355D203D207B204143455F4B45595F4354524C5F392C204143455F4B45595F4354524C5F4F2C204143455F4B45595F4354524C5F4C2C204143455F4B45595F4354524C5F504552494F442C204143455F4B45595F4354524C5F52494748542C204143455F4B45595F4354524C5F554E44455253434F52452C204143455F4B45595F4354524C5F504C55532C204143455F4B45595F4354524C5F53504C41542C20207D2C --     [5] = { ACE_KEY_CTRL_9, ACE_KEY_CTRL_O, ACE_KEY_CTRL_L, ACE_KEY_CTRL_PERIOD, ACE_KEY_CTRL_RIGHT, ACE_KEY_CTRL_UNDERSCORE, ACE_KEY_CTRL_PLUS, ACE_KEY_CTRL_SPLAT,  },
, 0x202020205B365D203D207B204143455F4B45595F4354524C5F302C204143455F4B45595F4354524C5F502C204143455F4B45595F4354524C5F53454D492C204143455F4B45595F4354524C5F534C4153482C204143455F4B45595F4354524C5F372C204143455F4B45595F4354524C5F342C204143455F4B45595F4354524C5F312C204143455F4B45595F4354524C5F47542C20207D2C --     [6] = { ACE_KEY_CTRL_0, ACE_KEY_CTRL_P, ACE_KEY_CTRL_SEMI, ACE_KEY_CTRL_SLASH, ACE_KEY_CTRL_7, ACE_KEY_CTRL_4, ACE_KEY_CTRL_1, ACE_KEY_CTRL_GT,  },
, 0x202020205B375D203D207B204143455F4B45595F4354524C5F4D494E55532C204143455F4B45595F4354524C5F4355524C592C204143455F4B45595F4354524C5F51554F54452C20414354494F4E5F53484946542C204143455F4B45595F4354524C5F382C204143455F4B45595F4354524C5F352C204143455F4B45595F4354524C5F322C204143455F4B45595F4354524C5F302C20207D2C --     [7] = { ACE_KEY_CTRL_MINUS, ACE_KEY_CTRL_CURLY, ACE_KEY_CTRL_QUOTE, ACTION_SHIFT, ACE_KEY_CTRL_8, ACE_KEY_CTRL_5, ACE_KEY_CTRL_2, ACE_KEY_CTRL_0,  },
, 0x202020205B395D203D207B204143455F4B45595F4354524C5F534C4153482C204143455F4B45595F4354524C5F5351554152452C204143455F4B45595F52455455524E2C204143455F4B45595F4354524C5F4C4546542C204143455F4B45595F4354524C5F392C204143455F4B45595F4354524C5F362C204143455F4B45595F4354524C5F332C204143455F4B45595F4354524C5F504552494F442C20207D2C --     [9] = { ACE_KEY_CTRL_SLASH, ACE_KEY_CTRL_SQUARE, ACE_KEY_RETURN, ACE_KEY_CTRL_LEFT, ACE_KEY_CTRL_9, ACE_KEY_CTRL_6, ACE_KEY_CTRL_3, ACE_KEY_CTRL_PERIOD,  },
, 0x20202020415344465F4143455F4449505F53574954434845532C --     ASDF_ACE_DIP_SWITCHES,
, 0x7D3B -- };
, 0x0 -- 
, 0x73746174696320636F6E737420616365313030305F6B6579636F64655F6D61747269785F74202A616365313030305F6D6170735B5D203D207B -- static const ace1000_keycode_matrix_t *ace1000_maps[] = {
, 0x20205B414345313030305F434150535F4D41505D203D2026616365313030305F636170735F6D61747269782C --   [ACE1000_CAPS_MAP] = &ace1000_caps_matrix,
, 0x20205B414345313030305F504C41494E5F4D41505D203D2026616365313030305F706C61696E5F6D61747269782C --   [ACE1000_PLAIN_MAP] = &ace1000_plain_matrix,
, 0x20205B414345313030305F53484946545F4D41505D203D2026616365313030305F73686966745F6D61747269782C --   [ACE1000_SHIFT_MAP] = &ace1000_shift_matrix,
, 0x20205B414345313030305F4354524C5F4D41505D203D2026616365313030305F6374726C5F6D61747269782C --   [ACE1000_CTRL_MAP] = &ace1000_ctrl_matrix,
, 0x7D3B -- };
, 0x0 -- 
, 0x766F696420616365313030305F6164645F6D617028636F6E737420616365313030305F6D61705F696E6465785F74206D61705F696E6465782C -- void ace1000_add_map(const ace1000_map_index_t map_index,
, 0x2020202020202020202020202020202020202020206D6F6469666965725F696E6465785F74206D6F6469666965725F696E64657829 --                      modifier_index_t modifier_index)
, 0x7B -- {
, 0x0 -- 
, 0x2020617364665F6B6579636F64655F7420282A6D6174726978295B414345313030305F4E554D5F434F4C535D203D --   asdf_keycode_t (*matrix)[ACE1000_NUM_COLS] =
, 0x2020202028617364665F6B6579636F64655F7420282A295B414345313030305F4E554D5F434F4C535D2920616365313030305F6D6170735B6D61705F696E6465785D3B --     (asdf_keycode_t (*)[ACE1000_NUM_COLS]) ace1000_maps[map_index];
, 0x0 -- 
, 0x20202020617364665F6B65796D6170735F6164645F6D617028266D61747269785B305D5B305D2C206D6F6469666965725F696E6465782C202875696E74385F742920414345313030305F4E554D5F524F57532C --     asdf_keymaps_add_map(&matrix[0][0], modifier_index, (uint8_t) ACE1000_NUM_ROWS,
, 0x20202020202020202020202020202020202020202020202875696E74385F742920414345313030305F4E554D5F434F4C53293B --                        (uint8_t) ACE1000_NUM_COLS);
, 0x7D -- }
, 0x0 -- 
, 0x766F696420616365313030305F6B6579626F6172645F7465737428766F696429 -- void ace1000_keyboard_test(void)
, 0x7B -- {
, 0x20202020617364665F7072696E742822313047455441242830293A413D415343284124283029293A41242831293D5C2243544C2B5C222B434852242841202B203634293A3F5C22275C223B412428413C3332293B5C2227203D205C223B413A4946413C3E33474F544F31305C7222293B --     asdf_print("10GETA$(0):A=ASC(A$(0)):A$(1)=\"CTL+\"+CHR$(A + 64):?\"'\";A$(A<32);\"' = \";A:IFA<>3GOTO10\r");
, 0x7D -- }
, 0x0 -- 
, 0x0 -- 
, 0x0 -- 
, 0x0 -- 
, 0x2F2F2D2D2D2D2D2D2D7C2D2D2D2D2D2D2D2D2D7C2D2D2D2D2D2D2D2D2D2B2D2D2D2D2D2D2D2D2D2B2D2D2D2D2D2D2D2D2D2B2D2D2D2D2D2D2D2D2D2B2D2D2D2D2D2D2D2D2D2B2D2D2D2D2D2D2D2D2D2B -- //-------|---------|---------+---------+---------+---------+---------+---------+
, 0x2F2F2041626F7665206C696E6520697320383020636F6C756D6E732C20616E642073686F756C6420646973706C617920636F6D706C6574656C7920696E2074686520656469746F722E -- // Above line is 80 columns, and should display completely in the editor.
  ]

/-- /repo/firmware/asdf/src/Keymaps/asdf_keymap_ace1000.c, lines 1-89. -/
def asdf_keymap_ace1000_c : List Nat := [
  0x2F2F202D2A2D206D6F64653A20433B207461622D77696474683A2032203B20696E64656E742D746162732D6D6F64653A206E696C202D2A2D -- // -*- mode: C; tab-width: 2 ; indent-tabs-mode: nil -*-
, 0x2F2F -- //
, 0x2F2F20556E6966696564204B6579626F6172642050726F6A656374 -- // Unified Keyboard Project
, 0x2F2F2041534446206B6579626F617264206669726D77617265 -- // ASDF keyboard firmware
, 0x2F2F -- //
, 0x2F2F20617364665F6B65796D61705F636C61737369632E63 -- // asdf_keymap_classic.c
, 0x2F2F -- //
, 0x2F2F20496D706C656D656E747320746865204672616E6B6C696E204143452031303030207265706C6163656D656E74206B6579626F617264206B65796D617073 -- // Implements the Franklin ACE 1000 replacement keyboard keymaps
, 0x2F2F2068747470733A2F2F6769746875622E636F6D2F727975636174732F4672616E6B6C696E2D4143452D313030302D4B6579626F617264 -- // https://github.com/ryucats/Franklin-ACE-1000-Keyboard
, 0x2F2F -- //
, 0x2F2F20436F70797269676874203230323320436872697320525955 -- // Copyright 2023 Chris RYU
, 0x2F2F20436F7079726967687420323031392044617669642046656E796573 -- // Copyright 2019 David Fenyes
, 0x2F2F -- //
, 0x2F2F20546869732070726F6772616D206973206672656520736F6674776172653A20796F752063616E2072656469737472696275746520697420616E642F6F72206D6F6469667920697420756E646572 -- // This program is free software: you can redistribute it and/or modify it under
, 0x2F2F20746865207465726D73206F662074686520474E552047656E6572616C205075626C6963204C6963656E7365206173207075626C697368656420627920746865204672656520536F667477617265 -- // the terms of the GNU General Public License as published by the Free Software
, 0x2F2F20466F756E646174696F6E2C206569746865722076657273696F6E2033206F6620746865204C6963656E73652C206F722028617420796F7572206F7074696F6E2920616E79206C61746572 -- // Foundation, either version 3 of the License, or (at your option) any later
, 0x2F2F2076657273696F6E2E -- // version.
, 0x2F2F -- //
, 0x2F2F20546869732070726F6772616D20697320646973747269627574656420696E2074686520686F706520746861742069742077696C6C2062652075736566756C2C2062757420574954484F5554 -- // This program is distributed in the hope that it will be useful, but WITHOUT
, 0x2F2F20414E592057415252414E54593B20776974686F7574206576656E2074686520696D706C6965642077617272616E7479206F66204D45524348414E544142494C495459206F72204649544E455353 -- // ANY WARRANTY; without even the implied warranty of MERCHANTABILITY or FITNESS
, 0x2F2F20464F52204120504152544943554C415220505552504F53452E205365652074686520474E552047656E6572616C205075626C6963204C6963656E736520666F72206D6F7265 -- // FOR A PARTICULAR PURPOSE. See the GNU General Public License for more
, 0x2F2F2064657461696C732E -- // details.
, 0x2F2F -- //
, 0x2F2F20596F752073686F756C642068617665207265636569766564206120636F7079206F662074686520474E552047656E6572616C205075626C6963204C6963656E736520616C6F6E672077697468 -- // You should have received a copy of the GNU General Public License along with
, 0x2F2F20746869732070726F6772616D2E204966206E6F742C20736565203C68747470733A2F2F7777772E676E752E6F72672F6C6963656E7365732F3E2E -- // this program. If not, see <https://www.gnu.org/licenses/>.
, 0x2F2F -- //
, 0x0 -- 
, 0x23696E636C7564652022617364662E6822 -- #include "asdf.h"
, 0x23696E636C7564652022617364665F6B65796D6170732E6822 -- #include "asdf_keymaps.h"
, 0x23696E636C7564652022617364665F7669727475616C2E6822 -- #include "asdf_virtual.h"
, 0x23696E636C7564652022617364665F6D6F646966696572732E6822 -- #include "asdf_modifiers.h"
, 0x23696E636C7564652022617364665F7072696E742E6822 -- #include "asdf_print.h"
, 0x23696E636C7564652022617364665F6B65796D61705F616365313030302E6822 -- #include "asdf_keymap_ace1000.h"
, 0x23696E636C7564652022617364665F6B65796D61705F616365313030305F6164645F6D61702E6822 -- #include "asdf_keymap_ace1000_add_map.h"
, 0x23696E636C7564652022617364665F6B65796D61705F6170706C65325F6164645F6D61702E6822 -- #include "asdf_keymap_apple2_add_map.h"
, 0x0 -- 
, 0x766F696420616365313030305F69645F6D65737361676528766F696429207B -- void ace1000_id_message(void) {
, 0x2020617364665F7072696E7428225B4B65796D61703A20616365313030305D5C6E22293B --   asdf_print("[Keymap: ace1000]\n");
, 0x7D -- }
, 0x0 -- 
, 0x2F2F2050524F4345445552453A -- // PROCEDURE:
, 0x2F2F20494E505554533A -- // INPUTS:
, 0x2F2F204F5554505554533A -- // OUTPUTS:
, 0x2F2F -- //
, 0x2F2F204445534352495054494F4E3A -- // DESCRIPTION:
, 0x2F2F -- //
, 0x2F2F205349444520454646454354533A -- // SIDE EFFECTS:
, 0x2F2F -- //
, 0x2F2F204E4F5445533A -- // NOTES:
, 0x2F2F -- //
, 0x2F2F2053434F50453A -- // SCOPE:
, 0x2F2F -- //
, 0x2F2F20434F4D504C45584954593A -- // COMPLEXITY:
, 0x2F2F -- //
, 0x0 -- 
, 0x766F69642073657475705F616365313030305F6B65796D617028766F696429 -- void setup_ace1000_keymap(void)
, 0x7B -- {
, 0x2020617364665F7365745F7072696E745F64656C617928415344465F414345313030305F5052494E545F5350454544293B202F2F6D736563 --   asdf_set_print_delay(ASDF_ACE1000_PRINT_SPEED); //msec
, 0x0 -- 
, 0x2020616365313030305F6164645F6D617028414345313030305F504C41494E5F4D41502C204D4F445F504C41494E5F4D4150293B --   ace1000_add_map(ACE1000_PLAIN_MAP, MOD_PLAIN_MAP);
, 0x2020616365313030305F6164645F6D617028414345313030305F434150535F4D41502C204D4F445F434150535F4D4150293B --   ace1000_add_map(ACE1000_CAPS_MAP, MOD_CAPS_MAP);
, 0x2020616365313030305F6164645F6D617028414345313030305F53484946545F4D41502C204D4F445F53484946545F4D4150293B --   ace1000_add_map(ACE1000_SHIFT_MAP, MOD_SHIFT_MAP);
, 0x2020616365313030305F6164645F6D617028414345313030305F4354524C5F4D41502C204D4F445F4354524C5F4D4150293B --   ace1000_add_map(ACE1000_CTRL_MAP, MOD_CTRL_MAP);
, 0x0 -- 
, 0x2020617364665F686F6F6B5F61737369676E28414345313030305F49445F4D4553534147455F484F4F4B2C20616365313030305F69645F6D657373616765293B --   asdf_hook_assign(ACE1000_ID_MESSAGE_HOOK, ace1000_id_message);
, 0x2020617364665F686F6F6B5F61737369676E284150504C45534F46545F4B4559424F4152445F544553545F484F4F4B2C20616365313030305F6B6579626F6172645F74657374293B --   asdf_hook_assign(APPLESOFT_KEYBOARD_TEST_HOOK, ace1000_keyboard_test);
, 0x0 -- 
, 0x20202F2F2041737369676E20706F776572204C454420746F207669727475616C20706F776572204C45442C20616E6420696E697469616C697A6520746F204F4E --   // Assign power LED to virtual power LED, and initialize to ON
, 0x2020617364665F7669727475616C5F61737369676E28414345313030305F5649525455414C5F504F5745525F4C45442C20414345313030305F504F5745525F4C45442C20565F4E4F46554E432C20414345313030305F504F5745525F4C45445F494E49545F56414C5545293B --   asdf_virtual_assign(ACE1000_VIRTUAL_POWER_LED, ACE1000_POWER_LED, V_NOFUNC, ACE1000_POWER_LED_INIT_VALUE);
, 0x0 -- 
, 0x20202F2F2041737369676E2043415053204C454420746F207669727475616C2043415053204C45442C20616E6420696E697469616C697A6520746F2074686520494E49542076616C75652C20746F --   // Assign CAPS LED to virtual CAPS LED, and initialize to the INIT value, to
, 0x20202F2F206D617463682074686520696E697469616C20434150534C4F434B2073746174652E2054686520636170736C6F636B20737461746520636F64652077696C6C20616C74657220746865 --   // match the initial CAPSLOCK state. The capslock state code will alter the
, 0x20202F2F207669727475616C204C4544206163636F7264696E6720746F207468652073746174652E --   // virtual LED according to the state.
, 0x0 -- 
, 0x2020617364665F7669727475616C5F61737369676E2856434150535F4C45442C20414345313030305F434150535F4C45442C20565F4E4F46554E432C20414345313030305F434150535F4C45445F494E49545F56414C5545293B --   asdf_virtual_assign(VCAPS_LED, ACE1000_CAPS_LED, V_NOFUNC, ACE1000_CAPS_LED_INIT_VALUE);
, 0x0 -- 
, 0x20202F2F2061737369676E205245534554206F757470757420746F20746865207669727475616C205245534554206F75747075742C20636F6E66696775726520746F2070726F6475636520612073686F72742070756C7365207768656E20616374697661746564 --   // assign RESET output to the virtual RESET output, configure to produce a short pulse when activated
, 0x2020617364665F7669727475616C5F61737369676E28414345313030305F5649525455414C5F52455345542C20414345313030305F52455345545F4F55545055542C20565F50554C53455F53484F52542C2021414345313030305F52455345545F4143544956455F56414C5545293B --   asdf_virtual_assign(ACE1000_VIRTUAL_RESET, ACE1000_RESET_OUTPUT, V_PULSE_SHORT, !ACE1000_RESET_ACTIVE_VALUE);
, 0x0 -- 
, 0x20202F2F2061737369676E2074686520434C52534352206F757470757420746F20746865207669727475616C20434C52534352206F75747075742C20636F6E66696775726520746F2070726F647563652061206C6F6E672070756C7365207768656E20616374697661746564 --   // assign the CLRSCR output to the virtual CLRSCR output, configure to produce a long pulse when activated
, 0x2020617364665F7669727475616C5F61737369676E28414345313030305F5649525455414C5F434C525F5343522C20414345313030305F434C525F5343525F4F55542C20565F50554C53455F4C4F4E472C2021414345313030305F434C525F5343525F4143544956455F56414C5545293B --   asdf_virtual_assign(ACE1000_VIRTUAL_CLR_SCR, ACE1000_CLR_SCR_OUT, V_PULSE_LONG, !ACE1000_CLR_SCR_ACTIVE_VALUE);
, 0x0 -- 
, 0x20202F2F207475726E206F6E2063617073206C6F636B --   // turn on caps lock
, 0x2020617364665F6D6F6469666965725F636170736C6F636B5F616374697661746528293B --   asdf_modifier_capslock_activate();
, 0x7D -- }
, 0x0 -- 
, 0x0 -- 
, 0x2F2F2D2D2D2D2D2D2D7C2D2D2D2D2D2D2D2D2D7C2D2D2D2D2D2D2D2D2D2B2D2D2D2D2D2D2D2D2D2B2D2D2D2D2D2D2D2D2D2B2D2D2D2D2D2D2D2D2D2B2D2D2D2D2D2D2D2D2D2B2D2D2D2D2D2D2D2D2D2B -- //-------|---------|---------+---------+---------+---------+---------+---------+
, 0x2F2F2041626F7665206C696E6520697320383020636F6C756D6E732C20616E642073686F756C6420646973706C617920636F6D706C6574656C7920696E2074686520656469746F722E -- // Above line is 80 columns, and should display completely in the editor.
  ]

/-- /repo/firmware/asdf/src/Arch/asdf_arch_atmega328p.h, lines 1-407. -/
def asdf_arch_atmega328p_h : List Nat := [
  0x2F2F202D2A2D206D6F64653A20433B207461622D77696474683A2034203B20696E64656E742D746162732D6D6F64653A206E696C202D2A2D -- // -*- mode: C; tab-width: 4 ; indent-tabs-mode: nil -*-
, 0x2F2F -- //
, 0x2F2F2020556E666966696564204B6579626F6172642050726F6A656374 -- //  Unfified Keyboard Project
, 0x2F2F202041534446206B6579626F617264206669726D77617265 -- //  ASDF keyboard firmware
, 0x2F2F -- //
, 0x2F2F2020617364665F617263685F61746D656761333238702E68 -- //  asdf_arch_atmega328p.h
, 0x2F2F -- //
, 0x2F2F20436F6E7461696E73206172636869746563747572652D737065636966696320646566696E6974696F6E7320666F72207468652061746D65676120333238702E -- // Contains architecture-specific definitions for the atmega 328p.
, 0x2F2F -- //
, 0x2F2F -- //
, 0x2F2F20436F7079726967687420323031392044617669642046656E796573 -- // Copyright 2019 David Fenyes
, 0x2F2F -- //
, 0x2F2F20546869732070726F6772616D206973206672656520736F6674776172653A20796F752063616E2072656469737472696275746520697420616E642F6F72206D6F6469667920697420756E646572 -- // This program is free software: you can redistribute it and/or modify it under
, 0x2F2F20746865207465726D73206F662074686520474E552047656E6572616C205075626C6963204C6963656E7365206173207075626C697368656420627920746865204672656520536F667477617265 -- // the terms of the GNU General Public License as published by the Free Software
, 0x2F2F20466F756E646174696F6E2C206569746865722076657273696F6E2033206F6620746865204C6963656E73652C206F722028617420796F7572206F7074696F6E2920616E79206C61746572 -- // Foundation, either version 3 of the License, or (at your option) any later
, 0x2F2F2076657273696F6E2E -- // version.
, 0x2F2F -- //
, 0x2F2F20546869732070726F6772616D20697320646973747269627574656420696E2074686520686F706520746861742069742077696C6C2062652075736566756C2C2062757420574954484F5554 -- // This program is distributed in the hope that it will be useful, but WITHOUT
, 0x2F2F20414E592057415252414E54593B20776974686F7574206576656E2074686520696D706C6965642077617272616E7479206F66204D45524348414E544142494C495459206F72204649544E455353 -- // ANY WARRANTY; without even the implied warranty of MERCHANTABILITY or FITNESS
, 0x2F2F20464F52204120504152544943554C415220505552504F53452E205365652074686520474E552047656E6572616C205075626C6963204C6963656E736520666F72206D6F7265 -- // FOR A PARTICULAR PURPOSE. See the GNU General Public License for more
, 0x2F2F2064657461696C732E -- // details.
, 0x2F2F -- //
, 0x2F2F20596F752073686F756C642068617665207265636569766564206120636F7079206F662074686520474E552047656E6572616C205075626C6963204C6963656E736520616C6F6E672077697468 -- // You should have received a copy of the GNU General Public License along with
, 0x2F2F20746869732070726F6772616D2E204966206E6F742C20736565203C68747470733A2F2F7777772E676E752E6F72672F6C6963656E7365732F3E2E -- // this program. If not, see <https://www.gnu.org/licenses/>.
, 0x0 -- 
, 0x2369662021646566696E656428415344465F415243485F4829 -- #if !defined(ASDF_ARCH_H)
, 0x23646566696E6520415344465F415243485F48 -- #define ASDF_ARCH_H
, 0x0 -- 
, 0x23696E636C756465203C6176722F696F2E683E -- #include <avr/io.h>
, 0x23696E636C756465203C6176722F70676D73706163652E683E -- #include <avr/pgmspace.h>
, 0x0 -- 
, 0x23696E636C7564652022617364662E6822 -- #include "asdf.h"
, 0x0 -- 
, 0x2F2F2041534446206B6579626F61726420646566696E6974696F6E733A -- // ASDF keyboard definitions:
, 0x0 -- 
, 0x23646566696E6520465F43505520383030303030304C -- #define F_CPU 8000000L
, 0x0 -- 
, 0x23646566696E6520415344465F5354524F42455F4C454E4754485F5553203130202F2F207374726F6265206C656E67746820696E206D6963726F7365636F6E6473 -- #define ASDF_STROBE_LENGTH_US 10 // strobe length in microseconds
, 0x0 -- 
, 0x0 -- 
, 0x2F2F20436C6F636B20646566696E6974696F6E733A -- // Clock definitions:
, 0x23646566696E6520535953434C4B5F444956312030 -- #define SYSCLK_DIV1 0
, 0x23646566696E6520535953434C4B5F444956322028434C4B50533029 -- #define SYSCLK_DIV2 (CLKPS0)
, 0x23646566696E6520535943434C4B5F444956342028434C4B50533129 -- #define SYCCLK_DIV4 (CLKPS1)
, 0x23646566696E6520535953434C4B5F444956382028434C4B505331207C20434C4B50533029 -- #define SYSCLK_DIV8 (CLKPS1 | CLKPS0)
, 0x23646566696E6520535953434C4B5F44495631362028434C4B50533229 -- #define SYSCLK_DIV16 (CLKPS2)
, 0x23646566696E6520535953434C4B5F44495633322028434C4B505332207C20434C4B50533029 -- #define SYSCLK_DIV32 (CLKPS2 | CLKPS0)
, 0x23646566696E6520535953434C4B5F44495636342028434C4B505332207C20434C4B50533129 -- #define SYSCLK_DIV64 (CLKPS2 | CLKPS1)
, 0x23646566696E6520535953434C4B5F4449563132382028434C4B505332207C20434C4B505331207C20434C4B50533029 -- #define SYSCLK_DIV128 (CLKPS2 | CLKPS1 | CLKPS0)
, 0x23646566696E6520535953434C4B5F4449563235362028434C4B50533329 -- #define SYSCLK_DIV256 (CLKPS3)
, 0x0 -- 
, 0x2F2F20446566696E65206669656C647320666F7220726567697374657220412C20422C20696E74657272757074206D61736B20617320382D626974206D61736B732C20616E64 -- // Define fields for register A, B, interrupt mask as 8-bit masks, and
, 0x2F2F206173206D61736B73206F666673657420696E746F206120636F6D62696E656420636F6E66696720776F7264 -- // as masks offset into a combined config word
, 0x23646566696E6520544D5230415F504F532030 -- #define TMR0A_POS 0
, 0x23646566696E6520544D5230425F504F532038 -- #define TMR0B_POS 8
, 0x23646566696E6520544D5230494D534B5F504F53203136 -- #define TMR0IMSK_POS 16
, 0x23646566696E6520544D5230412028314C203C3C20544D5230415F504F5329 -- #define TMR0A (1L << TMR0A_POS)
, 0x23646566696E6520544D5230422028314C203C3C20544D5230425F504F5329 -- #define TMR0B (1L << TMR0B_POS)
, 0x23646566696E6520544D5230494D534B2028314C203C3C20544D5230494D534B5F504F5329 -- #define TMR0IMSK (1L << TMR0IMSK_POS)
, 0x0 -- 
, 0x23646566696E652054494D4552305F434F4D5F415F444953434F4E4E45435445442030 -- #define TIMER0_COM_A_DISCONNECTED 0
, 0x23646566696E652054494D4552305F434F4D5F425F444953434F4E4E45435445442030 -- #define TIMER0_COM_B_DISCONNECTED 0
, 0x23646566696E652054494D4552305F57464D5F4354432028544D523041203C3C2057474D303129 -- #define TIMER0_WFM_CTC (TMR0A << WGM01)
, 0x23646566696E652054494D4552305F4449563634202828544D523042203C3C204353303129207C2028544D523042203C3C20435330302929 -- #define TIMER0_DIV64 ((TMR0B << CS01) | (TMR0B << CS00))
, 0x23646566696E652054494D4552305F494E545F4F4E5F434F4D412028544D5230494D534B203C3C204F434945304129 -- #define TIMER0_INT_ON_COMA (TMR0IMSK << OCIE0A)
, 0x23646566696E652054494D4552305F494E545F4F4E5F434F4D422028544D5230494D534B203C3C204F434945304229 -- #define TIMER0_INT_ON_COMB (TMR0IMSK << OCIE0B)
, 0x23646566696E652054494D4552305F494E545F4F565F454E41424C452028544D5230494D534B203C3C20544F49453029 -- #define TIMER0_INT_OV_ENABLE (TMR0IMSK << TOIE0)
, 0x0 -- 
, 0x2F2F204D6163726F7320666F722031362D6269742074696D657220312E2041546D65676133323850206461746173686565742073656374696F6E2031352C20702E20313038 -- // Macros for 16-bit timer 1. ATmega328P datasheet section 15, p. 108
, 0x2F2F -- //
, 0x2F2F20446566696E65206669656C647320666F722052656769737465727320412C20422C20432C20494E54204D61736B2072656769737465727320617320382D626974 -- // Define fields for Registers A, B, C, INT Mask registers as 8-bit
, 0x2F2F206D61736B732C20616E64206173206D61736B73206F666673657420696E746F20612033322D62697420636F6D62696E656420636F6E66696720776F72642E -- // masks, and as masks offset into a 32-bit combined config word.
, 0x2F2F -- //
, 0x2F2F204D6163726F20646566696E6974696F6E7320666F7220696E646976696475616C2072656769737465727320617265206E616D656420544D5231415F2A2C -- // Macro definitions for individual registers are named TMR1A_*,
, 0x2F2F20544D5231425F2A2C20616E6420544D5231435F2A2E -- // TMR1B_*, and TMR1C_*.
, 0x2F2F -- //
, 0x2F2F204D6163726F7320666F7220746865206F6E652D7374657020636F6D62696E65642074696D657220636F6E6669672066756E6374696F6E7320617265206E616D6564 -- // Macros for the one-step combined timer config functions are named
, 0x2F2F20544D52315F2A2E -- // TMR1_*.
, 0x2F2F -- //
, 0x2F2F -- //
, 0x2F2F204578616D706C65733A -- // Examples:
, 0x2F2F2020202F2F2055736520544D5231425F2A20646566696E6974696F6E20746F2073657420544343523142207265676973746572 -- //   // Use TMR1B_* definition to set TCCR1B register
, 0x2F2F202020544343523142207C3D20544D5231425F444956313B -- //   TCCR1B |= TMR1B_DIV1;
, 0x2F2F -- //
, 0x2F2F2020202F2F2055736520544D52315F2A20646566696E6974696F6E7320746F20636F6E6669677572652074696D6572207769746820636F6E6669672066756E6374696F6E -- //   // Use TMR1_* definitions to configure timer with config function
, 0x2F2F20202074696D6572315F636F6E66696728544D52315F57464D5F435443207C20544D52315F494E545F4F4E5F434D5041293B -- //   timer1_config(TMR1_WFM_CTC | TMR1_INT_ON_CMPA);
, 0x2F2F -- //
, 0x23646566696E6520544D5231415F504F532030 -- #define TMR1A_POS 0
, 0x23646566696E6520544D5231425F504F532038 -- #define TMR1B_POS 8
, 0x23646566696E6520544D5231435F504F53203136 -- #define TMR1C_POS 16
, 0x23646566696E6520544D5231494D534B5F504F53203234 -- #define TMR1IMSK_POS 24
, 0x23646566696E6520544D5231412028314C203C3C20544D5231415F504F5329 -- #define TMR1A (1L << TMR1A_POS)
, 0x23646566696E6520544D5231422028314C203C3C20544D5231425F504F5329 -- #define TMR1B (1L << TMR1B_POS)
, 0x23646566696E6520544D5231432028314C203C3C20544D5231435F504F5329 -- #define TMR1C (1L << TMR1C_POS)
, 0x23646566696E6520544D5231494D534B2028314C203C3C20544D5231494D534B5F504F5329 -- #define TMR1IMSK (1L << TMR1IMSK_POS)
, 0x0 -- 
, 0x2F2F2031362D6269742074696D6572207265672041202D204461746173686565742031372E31312E312C20702E20313534 -- // 16-bit timer reg A - Datasheet 17.11.1, p. 154
, 0x23646566696E6520544D5231415F434D50415F434C525F4D415443485F5345545F424F54544F4D202831203C3C20434F4D31413129 -- #define TMR1A_CMPA_CLR_MATCH_SET_BOTTOM (1 << COM1A1)
, 0x23646566696E6520544D5231415F434D50425F434C525F4D415443485F5345545F424F54544F4D202831203C3C20434F4D31423129 -- #define TMR1A_CMPB_CLR_MATCH_SET_BOTTOM (1 << COM1B1)
, 0x23646566696E6520544D5231415F434D50435F434C525F4D415443485F5345545F424F54544F4D202831203C3C20434F4D31433129 -- #define TMR1A_CMPC_CLR_MATCH_SET_BOTTOM (1 << COM1C1)
, 0x23646566696E6520544D52315F434D50415F434C525F4D415443485F5345545F424F54544F4D2028544D523141203C3C20434F4D31413129 -- #define TMR1_CMPA_CLR_MATCH_SET_BOTTOM (TMR1A << COM1A1)
, 0x23646566696E6520544D52315F434D50425F434C525F4D415443485F5345545F424F54544F4D2028544D523141203C3C20434F4D31423129 -- #define TMR1_CMPB_CLR_MATCH_SET_BOTTOM (TMR1A << COM1B1)
, 0x23646566696E6520544D52315F434D50435F434C525F4D415443485F5345545F424F54544F4D2028544D523141203C3C20434F4D31433129 -- #define TMR1_CMPC_CLR_MATCH_SET_BOTTOM (TMR1A << COM1C1)
, 0x0 -- 
, 0x2F2F2031362D6269742074696D6572207265672042202D204461746173686565742031372E31312E362C20702E20313536 -- // 16-bit timer reg B - Datasheet 17.11.6, p. 156
, 0x0 -- 
, 0x23646566696E6520544D5231425F494E5F4341505F504F5320307834304C -- #define TMR1B_IN_CAP_POS 0x40L
, 0x23646566696E6520544D5231425F494E5F4341505F4E454720304C -- #define TMR1B_IN_CAP_NEG 0L
, 0x23646566696E6520544D5231425F494E5F4341505F4E4F4953455F43414E43454C20307838304C -- #define TMR1B_IN_CAP_NOISE_CANCEL 0x80L
, 0x0 -- 
, 0x2F2F2031362D6269742074696D6572207265672043202D2D20736565206461746173686565742C2031372E31312E392C20702E20313537 -- // 16-bit timer reg C -- see datasheet, 17.11.9, p. 157
, 0x23646566696E6520544D5231435F464F434120307838304C -- #define TMR1C_FOCA 0x80L
, 0x23646566696E6520544D5231435F464F434220307834304C -- #define TMR1C_FOCB 0x40L
, 0x23646566696E6520544D5231435F464F434320307832304C -- #define TMR1C_FOCC 0x20L
, 0x0 -- 
, 0x2F2F2031362D6269742074696D657220696E74206D61736B202D2D20736565206461746173686565742031372E31312E33332C20702E203136312E -- // 16-bit timer int mask -- see datasheet 17.11.33, p. 161.
, 0x23646566696E6520544D5231494D5F494E545F434D505F4D415443485F412028314C203C3C204F434945314129 -- #define TMR1IM_INT_CMP_MATCH_A (1L << OCIE1A)
, 0x23646566696E6520544D5231494D5F494E545F434D505F4D415443485F422028314C203C3C204F434945314229 -- #define TMR1IM_INT_CMP_MATCH_B (1L << OCIE1B)
, 0x23646566696E6520544D5231494D5F494E545F434D505F4D415443485F432028314C203C3C204F434945314329 -- #define TMR1IM_INT_CMP_MATCH_C (1L << OCIE1C)
, 0x0 -- 
, 0x2F2F2031362D6269742074696D657220616C6C207265676973746572733A -- // 16-bit timer all registers:
, 0x23646566696E6520544D52315F434D50415F444953434F4E4E454354454420304C -- #define TMR1_CMPA_DISCONNECTED 0L
, 0x23646566696E6520544D52315F434D50425F444953434F4E4E454354454420304C -- #define TMR1_CMPB_DISCONNECTED 0L
, 0x23646566696E6520544D52315F434D50435F444953434F4E4E454354454420304C -- #define TMR1_CMPC_DISCONNECTED 0L
, 0x23646566696E6520544D52315F494E545F4F4E5F434D50412028544D5231494D5F494E545F434D505F4D415443485F41203C3C20544D5231494D534B5F504F5329 -- #define TMR1_INT_ON_CMPA (TMR1IM_INT_CMP_MATCH_A << TMR1IMSK_POS)
, 0x0 -- 
, 0x2F2F2031362D6269742074696D657220636C6F636B206D6F646573202D2073656520446174617368656574207461626C652031372D362C2020702E20313537 -- // 16-bit timer clock modes - see Datasheet table 17-6,  p. 157
, 0x23646566696E6520544D5231425F4F46462030 -- #define TMR1B_OFF 0
, 0x23646566696E6520544D52315F4F46462030 -- #define TMR1_OFF 0
, 0x23646566696E6520544D5231425F444956312028307830314C203C3C204353313029 -- #define TMR1B_DIV1 (0x01L << CS10)
, 0x23646566696E6520544D5231425F444956382028307830324C203C3C204353313029 -- #define TMR1B_DIV8 (0x02L << CS10)
, 0x23646566696E6520544D5231425F44495636342028307830334C203C3C204353313029 -- #define TMR1B_DIV64 (0x03L << CS10)
, 0x23646566696E6520544D5231425F4449563235362028307830344C203C3C204353313029 -- #define TMR1B_DIV256 (0x04L << CS10)
, 0x23646566696E6520544D5231425F444956313032342028307830354C203C3C204353313029 -- #define TMR1B_DIV1024 (0x05L << CS10)
, 0x23646566696E6520544D5231425F4558545F46414C4C494E475F454447452028307830364C203C3C204353313029 -- #define TMR1B_EXT_FALLING_EDGE (0x06L << CS10)
, 0x23646566696E6520544D5231425F4558545F524953494E475F454447452028307830374C203C3C204353313029 -- #define TMR1B_EXT_RISING_EDGE (0x07L << CS10)
, 0x23646566696E6520544D5231425F434C4B5F4D41534B20307830374C -- #define TMR1B_CLK_MASK 0x07L
, 0x23646566696E6520544D52315F444956312028544D5231425F44495631203C3C20544D5231425F504F5329 -- #define TMR1_DIV1 (TMR1B_DIV1 << TMR1B_POS)
, 0x23646566696E6520544D52315F444956382028544D5231425F44495638203C3C20544D5231425F504F5329 -- #define TMR1_DIV8 (TMR1B_DIV8 << TMR1B_POS)
, 0x23646566696E6520544D52315F44495636342028544D5231425F4449563634203C3C20544D5231425F504F5329 -- #define TMR1_DIV64 (TMR1B_DIV64 << TMR1B_POS)
, 0x23646566696E6520544D52315F4449563235362028544D5231425F444956323536203C3C20544D5231425F504F5329 -- #define TMR1_DIV256 (TMR1B_DIV256 << TMR1B_POS)
, 0x23646566696E6520544D52315F444956313032342028544D5231425F44495631303234203C3C20544D5231425F504F5329 -- #define TMR1_DIV1024 (TMR1B_DIV1024 << TMR1B_POS)
, 0x23646566696E6520544D52315F4558545F46414C4C494E475F454447452028544D5231425F4558545F46414C4C494E475F45444745203C3C20544D5231425F504F5329 -- #define TMR1_EXT_FALLING_EDGE (TMR1B_EXT_FALLING_EDGE << TMR1B_POS)
, 0x23646566696E6520544D52315F4558545F524953494E475F454447452028544D5231425F4558545F524953494E475F45444745203C3C20544D5231425F504F5329 -- #define TMR1_EXT_RISING_EDGE (TMR1B_EXT_RISING_EDGE << TMR1B_POS)
, 0x0 -- 
, 0x23646566696E6520544D5231425F454447455F53454C5F504F534954495645202831203C3C20494345533129 -- #define TMR1B_EDGE_SEL_POSITIVE (1 << ICES1)
, 0x23646566696E6520544D5231425F454447455F53454C5F4E4547415449564520304C -- #define TMR1B_EDGE_SEL_NEGATIVE 0L
, 0x23646566696E6520544D52315F454447455F53454C5F504F5349544956452028544D523142203C3C20494345533129 -- #define TMR1_EDGE_SEL_POSITIVE (TMR1B << ICES1)
, 0x23646566696E6520544D52315F454447455F53454C5F4E4547415449564520304C -- #define TMR1_EDGE_SEL_NEGATIVE 0L
, 0x0 -- 
, 0x2F2F2031362D6269742077617665666F726D206D6F64657320286163726F737320726567204120616E6420422920446174617368656574205461626C652031372E322C207020313435 -- // 16-bit waveform modes (across reg A and B) Datasheet Table 17.2, p 145
, 0x23646566696E6520544D52315F57464D5F4E4F524D414C20304C -- #define TMR1_WFM_NORMAL 0L
, 0x23646566696E6520544D52315F57464D5F50574D5F5043382028544D523141203C3C2057474D3130292020202020202020202020202020202020202020202020202F2F2050574D20506861736520436F727265637420382D626974 -- #define TMR1_WFM_PWM_PC8 (TMR1A << WGM10)                        // PWM Phase Correct 8-bit
, 0x23646566696E6520544D52315F57464D5F50574D5F5043392028544D523141203C3C2057474D3131292020202020202020202020202020202020202020202020202F2F2050574D20506861736520434F727265637420392D626974 -- #define TMR1_WFM_PWM_PC9 (TMR1A << WGM11)                        // PWM Phase COrrect 9-bit
, 0x23646566696E6520544D52315F57464D5F50574D5F50433130202828544D523141203C3C2057474D313129207C2028544D523141203C3C2057474D3130292920202F2F2050574D20506861736520436F72726563742031302D626974 -- #define TMR1_WFM_PWM_PC10 ((TMR1A << WGM11) | (TMR1A << WGM10))  // PWM Phase Correct 10-bit
, 0x23646566696E6520544D52315F57464D5F4354432028544D523142203C3C2057474D313229202020202020202020202020202020202020202020202020202020202F2F20435443 -- #define TMR1_WFM_CTC (TMR1B << WGM12)                            // CTC
, 0x23646566696E6520544D52315F57464D5F50574D5F4641535438202828544D523142203C3C2057474D313229207C2028544D523141203C3C2057474D31302929202F2F2050574D204661737420382D626974 -- #define TMR1_WFM_PWM_FAST8 ((TMR1B << WGM12) | (TMR1A << WGM10)) // PWM Fast 8-bit
, 0x23646566696E6520544D52315F57464D5F50574D5F4641535439202828544D523142203C3C2057474D313229207C2028544D523141203C3C2057474D31312929202F2F2050574D204661737420392D626974 -- #define TMR1_WFM_PWM_FAST9 ((TMR1B << WGM12) | (TMR1A << WGM11)) // PWM Fast 9-bit
, 0x23646566696E6520544D52315F57464D5F50574D5F4641535431302020202020202020202020202020202020202020202020202020202020202020202020202020202020202020202020202020202020202020202020202020202020202020202020205C -- #define TMR1_WFM_PWM_FAST10                                                                        \
, 0x20202828544D523142203C3C2057474D313229207C2028544D523141203C3C2057474D313129207C2028544D523141203C3C2057474D31302929202F2F2050574D20466173742031302D626974 --   ((TMR1B << WGM12) | (TMR1A << WGM11) | (TMR1A << WGM10)) // PWM Fast 10-bit
, 0x23646566696E6520544D52315F57464D5F50574D5F5046435F4943522028544D523142203C3C2057474D31332920202020202020202020202020202F2F2050574D20506861736520616E64204672657120436F72726563742C2054704F503D494352 -- #define TMR1_WFM_PWM_PFC_ICR (TMR1B << WGM13)              // PWM Phase and Freq Correct, TpOP=ICR
, 0x23646566696E6520544D52315F57464D5F50574D5F5046435F4F435241202020202020202020202020202020202020202020202020202020202020202020202020202020202020202020202020202020202020202020202020202020202020202020205C -- #define TMR1_WFM_PWM_PFC_OCRA                                                                      \
, 0x20202828544D523142203C3C2057474D313329207C2028544D523141203C3C2057474D31302929202F2F2050574D20506861736520616E64204672657120436F72726563742C20544F50203D204F435241 --   ((TMR1B << WGM13) | (TMR1A << WGM10)) // PWM Phase and Freq Correct, TOP = OCRA
, 0x23646566696E6520544D52315F57464D5F50574D5F50435F494352202828544D523142203C3C2057474D313329207C2028544D523141203C3C2057474D31312929202F2F2050574D205068617365436F72726563742C20544F50203D20494352 -- #define TMR1_WFM_PWM_PC_ICR ((TMR1B << WGM13) | (TMR1A << WGM11)) // PWM PhaseCorrect, TOP = ICR
, 0x23646566696E6520544D52315F57464D5F50574D5F50435F4F43524120202020202020202020202020202020202020202020202020202020202020202020202020202020202020202020202020202020202020202020202020202020202020202020205C -- #define TMR1_WFM_PWM_PC_OCRA                                                                       \
, 0x20202828544D523142203C3C2057474D313329207C2028544D523141203C3C2057474D313129207C2028544D523141203C3C2057474D3132292920202020202F2F2050574D205068617365436F72726563742C20544F503D4F435241 --   ((TMR1B << WGM13) | (TMR1A << WGM11) | (TMR1A << WGM12))     // PWM PhaseCorrect, TOP=OCRA
, 0x23646566696E6520544D52315F57464D5F4354435F494352202828544D523142203C3C2057474D313329207C2028544D523142203C3C2057474D31322929202F2F204354432C20544F50203D20494352 -- #define TMR1_WFM_CTC_ICR ((TMR1B << WGM13) | (TMR1B << WGM12)) // CTC, TOP = ICR
, 0x23646566696E6520544D52315F57464D5F50574D5F464153545F494352202020202020202020202020202020202020202020202020202020202020202020202020202020202020202020202020202020202020202020202020202020202020202020205C -- #define TMR1_WFM_PWM_FAST_ICR                                                                      \
, 0x20202828544D523142203C3C2057474D313329207C2028544D523142203C3C2057474D313229207C2028544D523141203C3C2057474D31312929202F2F2050574D20466173742C20544F50203D20494352 --   ((TMR1B << WGM13) | (TMR1B << WGM12) | (TMR1A << WGM11)) // PWM Fast, TOP = ICR
, 0x23646566696E6520544D52315F57464D5F50574D5F464153545F4F4352412020202020202020202020202020202020202020202020202020202020202020202020202020202020202020202020202020202020202020202020202020202020202020205C -- #define TMR1_WFM_PWM_FAST_OCRA                                                                     \
, 0x20202828544D523142203C3C2057474D313329207C2028544D523142203C3C2057474D313229207C2028544D523141203C3C2057474D3131292020202020202020202020202020202020202020202020202020202020202020202020202020202020205C --   ((TMR1B << WGM13) | (TMR1B << WGM12) | (TMR1A << WGM11)                                          \
, 0x2020207C2028544D523141203C3C2057474D31302929202F2F2050574D20466173742C20544F50203D204F435241 --    | (TMR1A << WGM10)) // PWM Fast, TOP = OCRA
, 0x0 -- 
, 0x0 -- 
, 0x2F2F20492F4F20706F727420646566696E6974696F6E733A -- // I/O port definitions:
, 0x0 -- 
, 0x23646566696E652050494E5F494E5055542030 -- #define PIN_INPUT 0
, 0x23646566696E652050494E5F4F55545055542031 -- #define PIN_OUTPUT 1
, 0x23646566696E6520414C4C5F494E505554532030 -- #define ALL_INPUTS 0
, 0x23646566696E6520414C4C5F4F5554505554532030786666 -- #define ALL_OUTPUTS 0xff
, 0x0 -- 
, 0x23646566696E6520415344465F524F575F504F525420504F525443 -- #define ASDF_ROW_PORT PORTC
, 0x23646566696E6520415344465F524F575F4444522044445243 -- #define ASDF_ROW_DDR DDRC
, 0x23646566696E6520415344465F524F575F4D41534B2030783066 -- #define ASDF_ROW_MASK 0x0f
, 0x23646566696E6520415344465F524F575F4F46465345542030 -- #define ASDF_ROW_OFFSET 0
, 0x0 -- 
, 0x23646566696E6520415344465F434F4C5F504F525420504F525442 -- #define ASDF_COL_PORT PORTB
, 0x23646566696E6520415344465F434F4C5F50494E2050494E42 -- #define ASDF_COL_PIN PINB
, 0x23646566696E6520415344465F434F4C5F4444522044445242 -- #define ASDF_COL_DDR DDRB
, 0x23646566696E6520415344465F434F4C5F4249542030 -- #define ASDF_COL_BIT 0
, 0x23646566696E6520415344465F434F4C5F50554C4C5550532030202F2F2064697361626C65207765616B2070756C6C7570 -- #define ASDF_COL_PULLUPS 0 // disable weak pullup
, 0x0 -- 
, 0x23646566696E6520415344465F434F4C434C4B5F504F525420504F525442 -- #define ASDF_COLCLK_PORT PORTB
, 0x23646566696E6520415344465F434F4C434C4B5F50494E532050494E42 -- #define ASDF_COLCLK_PINS PINB
, 0x23646566696E6520415344465F434F4C434C4B5F4444522044445242 -- #define ASDF_COLCLK_DDR DDRB
, 0x23646566696E6520415344465F434F4C434C4B5F4249542032 -- #define ASDF_COLCLK_BIT 2
, 0x0 -- 
, 0x23646566696E6520415344465F434F4C4D4F44455F504F525420504F525442 -- #define ASDF_COLMODE_PORT PORTB
, 0x23646566696E6520415344465F434F4C4D4F44455F50494E532050494E42 -- #define ASDF_COLMODE_PINS PINB
, 0x23646566696E6520415344465F434F4C4D4F44455F4444522044445242 -- #define ASDF_COLMODE_DDR DDRB
, 0x23646566696E6520415344465F434F4C4D4F44455F4249542031 -- #define ASDF_COLMODE_BIT 1
, 0x0 -- 
, 0x23646566696E6520415344465F41534349495F504F525420504F525444 -- #define ASDF_ASCII_PORT PORTD
, 0x23646566696E6520415344465F41534349495F4444522044445244 -- #define ASDF_ASCII_DDR DDRD
, 0x0 -- 
, 0x23646566696E6520415344465F4C4544315F504F525420504F525443 -- #define ASDF_LED1_PORT PORTC
, 0x23646566696E6520415344465F4C4544315F4444522044445243 -- #define ASDF_LED1_DDR DDRC
, 0x23646566696E6520415344465F4C4544315F4249542034 -- #define ASDF_LED1_BIT 4
, 0x0 -- 
, 0x23646566696E6520415344465F4C4544325F504F525420504F525442 -- #define ASDF_LED2_PORT PORTB
, 0x23646566696E6520415344465F4C4544325F4444522044445242 -- #define ASDF_LED2_DDR DDRB
, 0x23646566696E6520415344465F4C4544325F4249542035 -- #define ASDF_LED2_BIT 5
, 0x0 -- 
, 0x23646566696E6520415344465F4C4544335F504F525420504F525442 -- #define ASDF_LED3_PORT PORTB
, 0x23646566696E6520415344465F4C4544335F4444522044445242 -- #define ASDF_LED3_DDR DDRB
, 0x23646566696E6520415344465F4C4544335F4249542034 -- #define ASDF_LED3_BIT 4
, 0x0 -- 
, 0x23646566696E6520415344465F4F5554315F504F525420504F525443 -- #define ASDF_OUT1_PORT PORTC
, 0x23646566696E6520415344465F4F5554315F50494E2050494E43 -- #define ASDF_OUT1_PIN PINC
, 0x23646566696E6520415344465F4F5554315F4444522044445243 -- #define ASDF_OUT1_DDR DDRC
, 0x23646566696E6520415344465F4F5554315F4249542035 -- #define ASDF_OUT1_BIT 5
, 0x0 -- 
, 0x23646566696E6520415344465F4F5554325F504F525420504F525442 -- #define ASDF_OUT2_PORT PORTB
, 0x23646566696E6520415344465F4F5554325F50494E2050494E42 -- #define ASDF_OUT2_PIN PINB
, 0x23646566696E6520415344465F4F5554325F4444522044445242 -- #define ASDF_OUT2_DDR DDRB
, 0x23646566696E6520415344465F4F5554325F4249542033 -- #define ASDF_OUT2_BIT 3
, 0x0 -- 
, 0x23646566696E6520415344465F4F5554335F504F525420504F525442 -- #define ASDF_OUT3_PORT PORTB
, 0x23646566696E6520415344465F4F5554335F50494E2050494E42 -- #define ASDF_OUT3_PIN PINB
, 0x23646566696E6520415344465F4F5554335F4444522044445242 -- #define ASDF_OUT3_DDR DDRB
, 0x23646566696E6520415344465F4F5554335F4249542037 -- #define ASDF_OUT3_BIT 7
, 0x0 -- 
, 0x23646566696E6520415344465F5354524F42455F504F525420504F525442 -- #define ASDF_STROBE_PORT PORTB
, 0x23646566696E6520415344465F5354524F42455F50494E2050494E42 -- #define ASDF_STROBE_PIN PINB
, 0x23646566696E6520415344465F5354524F42455F4444522044445242 -- #define ASDF_STROBE_DDR DDRB
, 0x23646566696E6520415344465F5354524F42455F4249542036 -- #define ASDF_STROBE_BIT 6
, 0x0 -- 
, 0x23646566696E6520415344465F415243485F4449505F5357495443485F524F572038 -- #define ASDF_ARCH_DIP_SWITCH_ROW 8
, 0x0 -- 
, 0x23646566696E6520465553455F494E5445524E414C5F384D485A5F4F53435F304D532028465553455F434B53454C30207C20465553455F434B53454C32207C20465553455F434B53454C33207C20465553455F53555430207C20465553455F5355543129 -- #define FUSE_INTERNAL_8MHZ_OSC_0MS (FUSE_CKSEL0 | FUSE_CKSEL2 | FUSE_CKSEL3 | FUSE_SUT0 | FUSE_SUT1)
, 0x23646566696E6520465553455F494E5445524E414C5F384D485A5F4F53435F344D532028465553455F434B53454C30207C20465553455F434B53454C32207C20465553455F434B53454C33207C20465553455F5355543129 -- #define FUSE_INTERNAL_8MHZ_OSC_4MS (FUSE_CKSEL0 | FUSE_CKSEL2 | FUSE_CKSEL3 | FUSE_SUT1)
, 0x23646566696E6520465553455F494E5445524E414C5F384D485A5F4F53435F36354D532028465553455F434B53454C30207C20465553455F434B53454C32207C20465553455F434B53454C33207C20465553455F5355543029 -- #define FUSE_INTERNAL_8MHZ_OSC_65MS (FUSE_CKSEL0 | FUSE_CKSEL2 | FUSE_CKSEL3 | FUSE_SUT0)
, 0x0 -- 
, 0x23646566696E6520464C4153482050524F474D454D -- #define FLASH PROGMEM
, 0x0 -- 
, 0x2F2F206E6F7420696D706C656D656E746564207769746820646F2D7768696C652830292062656361757365207468697320697320612066756E6374696F6E2063616C6C20746861742072657475726E73 -- // not implemented with do-while(0) because this is a function call that returns
, 0x2F2F20612076616C75652C20616E6420706172616D65746572732061726520657870616E64656420696E736964652074686520706172616D65746572206C6973742C20736F20746869732077696C6C -- // a value, and parameters are expanded inside the parameter list, so this will
, 0x2F2F2062652076616C6964207768656E20737562737469747574696E6720666F722066756E6374696F6E2D6C696B652073796E7461782E -- // be valid when substituting for function-like syntax.
, 0x23646566696E6520464C4153485F52454144202861292070676D5F726561645F627974652828612929 -- #define FLASH_READ (a) pgm_read_byte((a))
, 0x23646566696E6520464C4153485F524541445F4D41545249585F454C454D454E54286D61747269782C20726F772C20636F6C292070676D5F726561645F62797465282628286D6174726978295B28726F77295D5B28636F6C295D2929 -- #define FLASH_READ_MATRIX_ELEMENT(matrix, row, col) pgm_read_byte(&((matrix)[(row)][(col)]))
, 0x0 -- 
, 0x2F2F20466F722031206D73207469636B2C202838303030303030202F203634287072657363616C652929202F2031303030287573656329202D2031203D20313234 -- // For 1 ms tick, (8000000 / 64(prescale)) / 1000(usec) - 1 = 124
, 0x23646566696E65205449434B5F434F554E5420313234 -- #define TICK_COUNT 124
, 0x0 -- 
, 0x0 -- 
, 0x2F2F2044656661756C74206B6579206D617472697820726F77207363616E6E6572 -- // Default key matrix row scanner
, 0x23646566696E6520415344465F415243485F44454641554C545F524F575F5343414E4E455220617364665F617263685F726561645F726F77 -- #define ASDF_ARCH_DEFAULT_ROW_SCANNER asdf_arch_read_row
, 0x0 -- 
, 0x2F2F2044656661756C74206B6579626F617264206F7574707574 -- // Default keyboard output
, 0x23646566696E6520415344465F415243485F44454641554C545F4F555450555420617364665F617263685F73656E645F636F6465 -- #define ASDF_ARCH_DEFAULT_OUTPUT asdf_arch_send_code
, 0x0 -- 
, 0x2F2F2044495020737769746368206973206F6E20726F772038 -- // DIP switch is on row 8
, 0x23646566696E6520415344465F415243485F4449505357495443485F524F572038 -- #define ASDF_ARCH_DIPSWITCH_ROW 8
, 0x0 -- 
, 0x2F2F2050524F4345445552453A20617364665F617263685F706F735F7374726F6265 -- // PROCEDURE: asdf_arch_pos_strobe
, 0x2F2F20494E505554533A206E6F6E65 -- // INPUTS: none
, 0x2F2F204F5554505554533A206E6F6E65 -- // OUTPUTS: none
, 0x2F2F204445534352495054494F4E3A20496E697469616C697A65207374726F6265206F757470757420746F20706F73697469766520706F6C61726974792E20496E697469616C207374617465206973 -- // DESCRIPTION: Initialize strobe output to positive polarity. Initial state is
, 0x2F2F204C4F57 -- // LOW
, 0x2020766F696420617364665F617263685F7365745F706F735F7374726F626528766F6964293B --   void asdf_arch_set_pos_strobe(void);
, 0x0 -- 
, 0x2F2F2050524F4345445552453A20617364665F617263685F6E65675F7374726F6265 -- // PROCEDURE: asdf_arch_neg_strobe
, 0x2F2F20494E505554533A206E6F6E65 -- // INPUTS: none
, 0x2F2F204F5554505554533A206E6F6E65 -- // OUTPUTS: none
, 0x2F2F204445534352495054494F4E3A20496E697469616C697A65207374726F6265206F7574707574 -- // DESCRIPTION: Initialize strobe output
, 0x766F696420617364665F617263685F7365745F6E65675F7374726F626528766F6964293B -- void asdf_arch_set_neg_strobe(void);
, 0x0 -- 
, 0x2F2F2050524F4345445552453A20617364665F617263685F6E756C6C5F6F7574707574 -- // PROCEDURE: asdf_arch_null_output
, 0x2F2F20494E505554533A202875696E74385F74292076616C7565202D2069676E6F726564 -- // INPUTS: (uint8_t) value - ignored
, 0x2F2F204F5554505554533A206E6F6E65 -- // OUTPUTS: none
, 0x2F2F204445534352495054494F4E3A206E756C6C2F64756D6D79206F75747075742066756E6374696F6E -- // DESCRIPTION: null/dummy output function
, 0x2F2F204E4F5445533A204E6F7420737570706F7274656420666F72207468652041544D6567612D33323820415343494920696E746572666163652E -- // NOTES: Not supported for the ATMega-328 ASCII interface.
, 0x766F696420617364665F617263685F6E756C6C5F6F75747075742875696E74385F742076616C7565293B -- void asdf_arch_null_output(uint8_t value);
, 0x0 -- 
, 0x2F2F2050524F4345445552453A20617364665F617263685F6C6564315F736574 -- // PROCEDURE: asdf_arch_led1_set
, 0x2F2F20494E505554533A202875696E74385F74292076616C7565 -- // INPUTS: (uint8_t) value
, 0x2F2F204F5554505554533A206E6F6E65 -- // OUTPUTS: none
, 0x2F2F204445534352495054494F4E3A2049662076616C756520697320747275652C207475726E206F6E204C4544312E202049662076616C75652069732066616C73652C207475726E206F6666204C454431 -- // DESCRIPTION: If value is true, turn on LED1.  If value is false, turn off LED1
, 0x766F696420617364665F617263685F6C6564315F7365742875696E74385F742076616C7565293B -- void asdf_arch_led1_set(uint8_t value);
, 0x0 -- 
, 0x2F2F2050524F4345445552453A20617364665F617263685F6C6564325F736574 -- // PROCEDURE: asdf_arch_led2_set
, 0x2F2F20494E505554533A202875696E74385F74292076616C7565 -- // INPUTS: (uint8_t) value
, 0x2F2F204F5554505554533A206E6F6E65 -- // OUTPUTS: none
, 0x2F2F204445534352495054494F4E3A2049662076616C756520697320747275652C207475726E206F6E204C4544322E202049662076616C75652069732066616C73652C207475726E206F6666204C454432 -- // DESCRIPTION: If value is true, turn on LED2.  If value is false, turn off LED2
, 0x766F696420617364665F617263685F6C6564325F7365742875696E74385F742076616C7565293B -- void asdf_arch_led2_set(uint8_t value);
, 0x0 -- 
, 0x2F2F2050524F4345445552453A20617364665F617263685F6C6564335F736574 -- // PROCEDURE: asdf_arch_led3_set
, 0x2F2F20494E505554533A202875696E74385F74292076616C7565 -- // INPUTS: (uint8_t) value
, 0x2F2F204F5554505554533A206E6F6E65 -- // OUTPUTS: none
, 0x2F2F204445534352495054494F4E3A2049662076616C756520697320747275652C207475726E206F6E204C4544332E202049662076616C75652069732066616C73652C207475726E206F6666204C454433 -- // DESCRIPTION: If value is true, turn on LED3.  If value is false, turn off LED3
, 0x766F696420617364665F617263685F6C6564335F7365742875696E74385F742076616C7565293B -- void asdf_arch_led3_set(uint8_t value);
, 0x0 -- 
, 0x2F2F2050524F4345445552453A20617364665F617263685F6F7574315F736574 -- // PROCEDURE: asdf_arch_out1_set
, 0x2F2F20494E505554533A202875696E74385F74292076616C7565 -- // INPUTS: (uint8_t) value
, 0x2F2F204F5554505554533A206E6F6E65 -- // OUTPUTS: none
, 0x2F2F204445534352495054494F4E3A205365747320746865204F555431206269742069662076616C756520697320747275652C20616E6420636C656172204F5554312069662076616C75652069732066616C73652E -- // DESCRIPTION: Sets the OUT1 bit if value is true, and clear OUT1 if value is false.
, 0x766F696420617364665F617263685F6F7574315F7365742875696E74385F742076616C7565293B -- void asdf_arch_out1_set(uint8_t value);
, 0x0 -- 
, 0x2F2F2050524F4345445552453A20617364665F617263685F6F7574315F6F70656E5F68695F736574 -- // PROCEDURE: asdf_arch_out1_open_hi_set
, 0x2F2F20494E505554533A202875696E74385F74292076616C7565 -- // INPUTS: (uint8_t) value
, 0x2F2F204F5554505554533A206E6F6E65 -- // OUTPUTS: none
, 0x2F2F204445534352495054494F4E3A205365747320746865204F5554312062697420746F2068692D7A2069662076616C756520697320747275652C20616E64206C6F772069662076616C75652069732066616C73652E -- // DESCRIPTION: Sets the OUT1 bit to hi-z if value is true, and low if value is false.
, 0x766F696420617364665F617263685F6F7574315F6F70656E5F68695F7365742875696E74385F742076616C7565293B -- void asdf_arch_out1_open_hi_set(uint8_t value);
, 0x0 -- 
, 0x2F2F2050524F4345445552453A20617364665F617263685F6F7574315F6F70656E5F6C6F5F736574 -- // PROCEDURE: asdf_arch_out1_open_lo_set
, 0x2F2F20494E505554533A202875696E74385F74292076616C7565 -- // INPUTS: (uint8_t) value
, 0x2F2F204F5554505554533A206E6F6E65 -- // OUTPUTS: none
, 0x2F2F204445534352495054494F4E3A205365747320746865204F5554312062697420746F2068692D7A2069662076616C756520697320747275652C20616E64206C6F772069662076616C75652069732066616C73652E -- // DESCRIPTION: Sets the OUT1 bit to hi-z if value is true, and low if value is false.
, 0x766F696420617364665F617263685F6F7574315F6F70656E5F6C6F5F7365742875696E74385F742076616C7565293B -- void asdf_arch_out1_open_lo_set(uint8_t value);
, 0x0 -- 
, 0x2F2F2050524F4345445552453A20617364665F617263685F6F7574325F736574 -- // PROCEDURE: asdf_arch_out2_set
, 0x2F2F20494E505554533A202875696E74385F74292076616C7565 -- // INPUTS: (uint8_t) value
, 0x2F2F204F5554505554533A206E6F6E65 -- // OUTPUTS: none
, 0x2F2F204445534352495054494F4E3A205365747320746865204F555432206269742069662076616C756520697320747275652C20616E6420636C656172204F5554322069662076616C75652069732066616C73652E -- // DESCRIPTION: Sets the OUT2 bit if value is true, and clear OUT2 if value is false.
, 0x766F696420617364665F617263685F6F7574325F7365742875696E74385F742076616C7565293B -- void asdf_arch_out2_set(uint8_t value);
, 0x0 -- 
, 0x2F2F2050524F4345445552453A20617364665F617263685F6F7574325F6F70656E5F68695F736574 -- // PROCEDURE: asdf_arch_out2_open_hi_set
, 0x2F2F20494E505554533A202875696E74385F74292076616C7565 -- // INPUTS: (uint8_t) value
, 0x2F2F204F5554505554533A206E6F6E65 -- // OUTPUTS: none
, 0x2F2F204445534352495054494F4E3A205365747320746865204F5554322062697420746F2068692D7A2069662076616C756520697320747275652C20616E64206C6F772069662076616C75652069732066616C73652E -- // DESCRIPTION: Sets the OUT2 bit to hi-z if value is true, and low if value is false.
, 0x2F2F204E4F5445533A204E6F7420737570706F7274656420666F72207468652041544D6567612D33323820415343494920696E746572666163652E -- // NOTES: Not supported for the ATMega-328 ASCII interface.
, 0x766F696420617364665F617263685F6F7574325F6F70656E5F68695F7365742875696E74385F742076616C7565293B -- void asdf_arch_out2_open_hi_set(uint8_t value);
, 0x0 -- 
, 0x2F2F2050524F4345445552453A20617364665F617263685F6F7574325F6F70656E5F6C6F5F736574 -- // PROCEDURE: asdf_arch_out2_open_lo_set
, 0x2F2F20494E505554533A202875696E74385F74292076616C7565 -- // INPUTS: (uint8_t) value
, 0x2F2F204F5554505554533A206E6F6E65 -- // OUTPUTS: none
, 0x2F2F204445534352495054494F4E3A205365747320746865204F5554322062697420746F20686967682069662076616C756520697320747275652C20616E642068692D7A2069662076616C75652069732066616C73652E -- // DESCRIPTION: Sets the OUT2 bit to high if value is true, and hi-z if value is false.
, 0x766F696420617364665F617263685F6F7574325F6F70656E5F6C6F5F7365742875696E74385F742076616C7565293B -- void asdf_arch_out2_open_lo_set(uint8_t value);
, 0x0 -- 
, 0x2F2F2050524F4345445552453A20617364665F617263685F6F7574335F736574 -- // PROCEDURE: asdf_arch_out3_set
, 0x2F2F20494E505554533A202875696E74385F74292076616C7565 -- // INPUTS: (uint8_t) value
, 0x2F2F204F5554505554533A206E6F6E65 -- // OUTPUTS: none
, 0x2F2F204445534352495054494F4E3A205365747320746865204F555433206269742069662076616C756520697320747275652C20616E6420636C656172204F5554332069662076616C75652069732066616C73652E -- // DESCRIPTION: Sets the OUT3 bit if value is true, and clear OUT3 if value is false.
, 0x766F696420617364665F617263685F6F7574335F7365742875696E74385F742076616C7565293B -- void asdf_arch_out3_set(uint8_t value);
, 0x0 -- 
, 0x2F2F2050524F4345445552453A20617364665F617263685F6F7574335F6F70656E5F68695F736574 -- // PROCEDURE: asdf_arch_out3_open_hi_set
, 0x2F2F20494E505554533A202875696E74385F74292076616C7565 -- // INPUTS: (uint8_t) value
, 0x2F2F204F5554505554533A206E6F6E65 -- // OUTPUTS: none
, 0x2F2F204445534352495054494F4E3A205365747320746865204F5554332062697420746F2068692D7A2069662076616C756520697320747275652C20616E64206C6F772069662076616C75652069732066616C73652E -- // DESCRIPTION: Sets the OUT3 bit to hi-z if value is true, and low if value is false.
, 0x766F696420617364665F617263685F6F7574335F6F70656E5F68695F7365742875696E74385F742076616C7565293B -- void asdf_arch_out3_open_hi_set(uint8_t value);
, 0x0 -- 
, 0x2F2F2050524F4345445552453A20617364665F617263685F6F7574335F6F70656E5F6C6F5F736574 -- // PROCEDURE: asdf_arch_out3_open_lo_set
, 0x2F2F20494E505554533A202875696E74385F74292076616C7565 -- // INPUTS: (uint8_t) value
, 0x2F2F204F5554505554533A206E6F6E65 -- // OUTPUTS: none
, 0x2F2F204445534352495054494F4E3A205365747320746865204F5554332062697420746F2068692D7A2069662076616C756520697320747275652C20616E64206C6F772069662076616C75652069732066616C73652E -- // DESCRIPTION: Sets the OUT3 bit to hi-z if value is true, and low if value is false.
, 0x766F696420617364665F617263685F6F7574335F6F70656E5F6C6F5F7365742875696E74385F742076616C7565293B -- void asdf_arch_out3_open_lo_set(uint8_t value);
, 0x0 -- 
, 0x2F2F2050524F4345445552453A20617364665F617263685F726561645F726F77 -- // PROCEDURE: asdf_arch_read_row
, 0x2F2F20494E505554533A202875696E74385F742920726F773A2074686520726F77206E756D62657220746F206265207363616E6E6564 -- // INPUTS: (uint8_t) row: the row number to be scanned
, 0x2F2F204F5554505554533A2072657475726E73206120776F726420636F6E7461696E696E6720746865206163746976652028707265737365642920636F6C756D6E73 -- // OUTPUTS: returns a word containing the active (pressed) columns
, 0x2F2F204445534352495054494F4E3A204F7574707574732074686520617267756D656E7420746F2074686520524F5720706F72742C207468656E2072656164732074686520636F6C756D6E20706F7274 -- // DESCRIPTION: Outputs the argument to the ROW port, then reads the column port
, 0x2F2F20616E642072657475726E73207468652076616C75652E205468652076616C756520697320612062696E61727920726570726573656E746174696F6E206F6620746865206B657973 -- // and returns the value. The value is a binary representation of the keys
, 0x2F2F20707265737365642077697468696E2074686520726F772C207769746820313D707265737365642C20303D72656C65617365642E -- // pressed within the row, with 1=pressed, 0=released.
, 0x617364665F636F6C735F7420617364665F617263685F726561645F726F772875696E74385F7420726F77293B -- asdf_cols_t asdf_arch_read_row(uint8_t row);
, 0x0 -- 
, 0x2F2F2050524F4345445552453A20617364665F617263685F70756C73655F64656C61795F73686F7274 -- // PROCEDURE: asdf_arch_pulse_delay_short
, 0x2F2F20494E505554533A206E6F6E65 -- // INPUTS: none
, 0x2F2F204F5554505554533A206E6F6E65 -- // OUTPUTS: none
, 0x2F2F204445534352495054494F4E3A2044656C617973206120666978656420616D6F756E74206F662074696D6520666F72206B6579626F617264206F75747075742070756C7365732073706563696669656420627920415344465F50554C53455F44454C41595F53484F52545F5553 -- // DESCRIPTION: Delays a fixed amount of time for keyboard output pulses specified by ASDF_PULSE_DELAY_SHORT_US
, 0x766F696420617364665F617263685F70756C73655F64656C61795F73686F727428766F6964293B -- void asdf_arch_pulse_delay_short(void);
, 0x0 -- 
, 0x0 -- 
, 0x2F2F2050524F4345445552453A20617364665F617263685F70756C73655F64656C61795F6C6F6E67 -- // PROCEDURE: asdf_arch_pulse_delay_long
, 0x2F2F20494E505554533A206E6F6E65 -- // INPUTS: none
, 0x2F2F204F5554505554533A206E6F6E65 -- // OUTPUTS: none
, 0x2F2F204445534352495054494F4E3A2044656C617973206120666978656420616D6F756E74206F662074696D6520666F72206B6579626F617264206F75747075742070756C7365732073706563696669656420627920415344465F50554C53455F44454C41595F4C4F4E475F4D53 -- // DESCRIPTION: Delays a fixed amount of time for keyboard output pulses specified by ASDF_PULSE_DELAY_LONG_MS
, 0x766F696420617364665F617263685F70756C73655F64656C61795F6C6F6E6728766F6964293B -- void asdf_arch_pulse_delay_long(void);
, 0x0 -- 
, 0x2F2F2050524F4345445552453A20617364665F617263685F64656C61795F6D73 -- // PROCEDURE: asdf_arch_delay_ms
, 0x2F2F20494E505554533A202875696E743136292064656C61795F6D73202D207468652064656C617920696E206D7365632E -- // INPUTS: (uint16) delay_ms - the delay in msec.
, 0x2F2F204F5554505554533A206E6F6E65 -- // OUTPUTS: none
, 0x2F2F204445534352495054494F4E3A2044656C617973206120737065636966696564206E756D626572206F66206D696C6C697365636F6E6473 -- // DESCRIPTION: Delays a specified number of milliseconds
, 0x766F696420617364665F617263685F64656C61795F6D732875696E7431365F742064656C61795F6D73293B -- void asdf_arch_delay_ms(uint16_t delay_ms);
, 0x0 -- 
, 0x2F2F2050524F4345445552453A20617364665F617263685F7469636B -- // PROCEDURE: asdf_arch_tick
, 0x2F2F20494E505554533A206E6F6E65 -- // INPUTS: none
, 0x2F2F204F5554505554533A2072657475726E73206120312069662074686520316D732074696D65722074696D6564206F75742C2030206F7468657277697365 -- // OUTPUTS: returns a 1 if the 1ms timer timed out, 0 otherwise
, 0x75696E74385F7420617364665F617263685F7469636B28766F6964293B -- uint8_t asdf_arch_tick(void);
, 0x0 -- 
, 0x2F2F2050524F4345445552453A20617364665F617263685F73656E645F636F6465 -- // PROCEDURE: asdf_arch_send_code
, 0x2F2F20494E505554533A20286B6579636F64655F742920636F6465202D2074686520636F646520746F206265206F757470757420627920746865206B6579626F617264 -- // INPUTS: (keycode_t) code - the code to be output by the keyboard
, 0x2F2F204F5554505554533A206E6F6E65 -- // OUTPUTS: none
, 0x2F2F204445534352495054494F4E3A2054616B657320612063686172616374657220636F646520616E64206F7574707574732074686520636F6465206F6E206120706172616C6C656C204153434949 -- // DESCRIPTION: Takes a character code and outputs the code on a parallel ASCII
, 0x2F2F20706F72742C20776974682061207374726F62652E205468697320726F7574696E6520636F756C64206265207265706C61636564207769746820554152542C204932432C205553422C206F72 -- // port, with a strobe. This routine could be replaced with UART, I2C, USB, or
, 0x2F2F206F74686572206F7574707574206D656368616E69736D2C206F6620636F757273652E -- // other output mechanism, of course.
, 0x766F696420617364665F617263685F73656E645F636F646528617364665F6B6579636F64655F7420636F6465293B -- void asdf_arch_send_code(asdf_keycode_t code);
, 0x0 -- 
, 0x2F2F2050524F4345445552453A20617364665F617263685F696E6974 -- // PROCEDURE: asdf_arch_init
, 0x2F2F20494E505554533A206E6F6E65 -- // INPUTS: none
, 0x2F2F204F5554505554533A206E6F6E65 -- // OUTPUTS: none
, 0x2F2F204445534352495054494F4E3A207365747320757020616C6C2074686520686172647761726520666F7220746865206B6579626F617264 -- // DESCRIPTION: sets up all the hardware for the keyboard
, 0x766F696420617364665F617263685F696E697428766F6964293B -- void asdf_arch_init(void);
, 0x0 -- 
, 0x23656E646966202F2A2021646566696E65642028415344465F415243485F4829202A2F -- #endif /* !defined (ASDF_ARCH_H) */
, 0x0 -- 
, 0x2F2F2D2D2D2D2D2D2D7C2D2D2D2D2D2D2D2D2D7C2D2D2D2D2D2D2D2D2D2B2D2D2D2D2D2D2D2D2D2B2D2D2D2D2D2D2D2D2D2B2D2D2D2D2D2D2D2D2D2B2D2D2D2D2D2D2D2D2D2B2D2D2D2D2D2D2D2D2D2B -- //-------|---------|---------+---------+---------+---------+---------+---------+
, 0x2F2F2041626F7665206C696E6520697320383020636F6C756D6E732C20616E642073686F756C6420646973706C617920636F6D706C6574656C7920696E2074686520656469746F722E -- // Above line is 80 columns, and should display completely in the editor.
  ]

/-- /repo/firmware/asdf/src/Arch/asdf_arch_atmega2560.h, lines 1-506. -/
def asdf_arch_atmega2560_h : List Nat := [
  0x2F2F202D2A2D206D6F64653A20433B207461622D77696474683A2034203B20696E64656E742D746162732D6D6F64653A206E696C202D2A2D -- // -*- mode: C; tab-width: 4 ; indent-tabs-mode: nil -*-
, 0x2F2F -- //
, 0x2F2F2020556E666966696564204B6579626F6172642050726F6A656374 -- //  Unfified Keyboard Project
, 0x2F2F202041534446206B6579626F617264206669726D77617265 -- //  ASDF keyboard firmware
, 0x2F2F -- //
, 0x2F2F2020617364665F617263685F61746D656761323536302E68 -- //  asdf_arch_atmega2560.h
, 0x2F2F -- //
, 0x2F2F20436F6E7461696E73206172636869746563747572652D737065636966696320646566696E6974696F6E7320666F72207468652061746D6567612032353630 -- // Contains architecture-specific definitions for the atmega 2560
, 0x2F2F -- //
, 0x2F2F -- //
, 0x2F2F20436F7079726967687420323031392044617669642046656E796573 -- // Copyright 2019 David Fenyes
, 0x2F2F -- //
, 0x2F2F20546869732070726F6772616D206973206672656520736F6674776172653A20796F752063616E2072656469737472696275746520697420616E642F6F72206D6F6469667920697420756E646572 -- // This program is free software: you can redistribute it and/or modify it under
, 0x2F2F20746865207465726D73206F662074686520474E552047656E6572616C205075626C6963204C6963656E7365206173207075626C697368656420627920746865204672656520536F667477617265 -- // the terms of the GNU General Public License as published by the Free Software
, 0x2F2F20466F756E646174696F6E2C206569746865722076657273696F6E2033206F6620746865204C6963656E73652C206F722028617420796F7572206F7074696F6E2920616E79206C61746572 -- // Foundation, either version 3 of the License, or (at your option) any later
, 0x2F2F2076657273696F6E2E -- // version.
, 0x2F2F -- //
, 0x2F2F20546869732070726F6772616D20697320646973747269627574656420696E2074686520686F706520746861742069742077696C6C2062652075736566756C2C2062757420574954484F5554 -- // This program is distributed in the hope that it will be useful, but WITHOUT
, 0x2F2F20414E592057415252414E54593B20776974686F7574206576656E2074686520696D706C6965642077617272616E7479206F66204D45524348414E544142494C495459206F72204649544E455353 -- // ANY WARRANTY; without even the implied warranty of MERCHANTABILITY or FITNESS
, 0x2F2F20464F52204120504152544943554C415220505552504F53452E205365652074686520474E552047656E6572616C205075626C6963204C6963656E736520666F72206D6F7265 -- // FOR A PARTICULAR PURPOSE. See the GNU General Public License for more
, 0x2F2F2064657461696C732E -- // details.
, 0x2F2F -- //
, 0x2F2F20596F752073686F756C642068617665207265636569766564206120636F7079206F662074686520474E552047656E6572616C205075626C6963204C6963656E736520616C6F6E672077697468 -- // You should have received a copy of the GNU General Public License along with
, 0x2F2F20746869732070726F6772616D2E204966206E6F742C20736565203C68747470733A2F2F7777772E676E752E6F72672F6C6963656E7365732F3E2E -- // this program. If not, see <https://www.gnu.org/licenses/>.
, 0x0 -- 
, 0x2369662021646566696E656428415344465F415243485F4829 -- #if !defined(ASDF_ARCH_H)
, 0x23646566696E6520415344465F415243485F48 -- #define ASDF_ARCH_H
, 0x0 -- 
, 0x23696E636C756465203C6176722F696F2E683E -- #include <avr/io.h>
, 0x23696E636C756465203C6176722F70676D73706163652E683E -- #include <avr/pgmspace.h>
, 0x0 -- 
, 0x23696E636C7564652022617364662E6822 -- #include "asdf.h"
, 0x0 -- 
, 0x2F2F2041534446206B6579626F61726420646566696E6974696F6E733A -- // ASDF keyboard definitions:
, 0x0 -- 
, 0x23646566696E6520465F4350552031363030303030304C -- #define F_CPU 16000000L
, 0x0 -- 
, 0x23646566696E6520415344465F5354524F42455F4C454E4754485F5553203130202F2F207374726F6265206C656E67746820696E206D6963726F7365636F6E6473 -- #define ASDF_STROBE_LENGTH_US 10 // strobe length in microseconds
, 0x23646566696E6520415344465F4B4559424F4152445F524F575F534554544C494E475F54494D455F55532034202F2F2074696D6520666F72206B6579626F6172642063617061636974616E636520746F -- #define ASDF_KEYBOARD_ROW_SETTLING_TIME_US 4 // time for keyboard capacitance to
, 0x2020202020202020202020202020202020202020202020202020202020202020202020202020202020202020202F2F20736574746C65206265666F72652073616D706C696E67 --                                              // settle before sampling
, 0x0 -- 
, 0x2F2F20436C6F636B20646566696E6974696F6E733A -- // Clock definitions:
, 0x23646566696E6520535953434C4B5F444956312030 -- #define SYSCLK_DIV1 0
, 0x23646566696E6520535953434C4B5F444956322028434C4B50533029 -- #define SYSCLK_DIV2 (CLKPS0)
, 0x23646566696E6520535943434C4B5F444956342028434C4B50533129 -- #define SYCCLK_DIV4 (CLKPS1)
, 0x23646566696E6520535953434C4B5F444956382028434C4B505331207C20434C4B50533029 -- #define SYSCLK_DIV8 (CLKPS1 | CLKPS0)
, 0x23646566696E6520535953434C4B5F44495631362028434C4B50533229 -- #define SYSCLK_DIV16 (CLKPS2)
, 0x23646566696E6520535953434C4B5F44495633322028434C4B505332207C20434C4B50533029 -- #define SYSCLK_DIV32 (CLKPS2 | CLKPS0)
, 0x23646566696E6520535953434C4B5F44495636342028434C4B505332207C20434C4B50533129 -- #define SYSCLK_DIV64 (CLKPS2 | CLKPS1)
, 0x23646566696E6520535953434C4B5F4449563132382028434C4B505332207C20434C4B505331207C20434C4B50533029 -- #define SYSCLK_DIV128 (CLKPS2 | CLKPS1 | CLKPS0)
, 0x23646566696E6520535953434C4B5F4449563235362028434C4B50533329 -- #define SYSCLK_DIV256 (CLKPS3)
, 0x0 -- 
, 0x2F2F2054696D6572203020646566696E6974696F6E73 -- // Timer 0 definitions
, 0x2F2F20446566696E65206669656C647320666F7220726567697374657220412C20422C20696E74657272757074206D61736B20617320382D626974206D61736B732C20616E64 -- // Define fields for register A, B, interrupt mask as 8-bit masks, and
, 0x2F2F206173206D61736B73206F666673657420696E746F206120636F6D62696E656420636F6E66696720776F7264 -- // as masks offset into a combined config word
, 0x23646566696E6520544D5230415F504F532030 -- #define TMR0A_POS 0
, 0x23646566696E6520544D5230425F504F532038 -- #define TMR0B_POS 8
, 0x23646566696E6520544D5230494D534B5F504F53203136 -- #define TMR0IMSK_POS 16
, 0x23646566696E6520544D5230412028314C203C3C20544D5230415F504F5329 -- #define TMR0A (1L << TMR0A_POS)
, 0x23646566696E6520544D5230422028314C203C3C20544D5230425F504F5329 -- #define TMR0B (1L << TMR0B_POS)
, 0x23646566696E6520544D5230494D534B2028314C203C3C20544D5230494D534B5F504F5329 -- #define TMR0IMSK (1L << TMR0IMSK_POS)
, 0x0 -- 
, 0x23646566696E652054494D4552305F434F4D5F415F444953434F4E4E45435445442030 -- #define TIMER0_COM_A_DISCONNECTED 0
, 0x23646566696E652054494D4552305F434F4D5F425F444953434F4E4E45435445442030 -- #define TIMER0_COM_B_DISCONNECTED 0
, 0x23646566696E652054494D4552305F57464D5F4354432028544D523041203C3C2057474D303129 -- #define TIMER0_WFM_CTC (TMR0A << WGM01)
, 0x23646566696E652054494D4552305F4449563634202828544D523042203C3C204353303129207C2028544D523042203C3C20435330302929 -- #define TIMER0_DIV64 ((TMR0B << CS01) | (TMR0B << CS00))
, 0x23646566696E652054494D4552305F494E545F4F4E5F434F4D412028544D5230494D534B203C3C204F434945304129 -- #define TIMER0_INT_ON_COMA (TMR0IMSK << OCIE0A)
, 0x23646566696E652054494D4552305F494E545F4F4E5F434F4D422028544D5230494D534B203C3C204F434945304229 -- #define TIMER0_INT_ON_COMB (TMR0IMSK << OCIE0B)
, 0x23646566696E652054494D4552305F494E545F4F565F454E41424C452028544D5230494D534B203C3C20544F49453029 -- #define TIMER0_INT_OV_ENABLE (TMR0IMSK << TOIE0)
, 0x0 -- 
, 0x2F2F204D6163726F7320666F722031362D6269742074696D65727320312C20332C20342C20352E204461746173686565742073656374696F6E2031372C20702E20313333 -- // Macros for 16-bit timers 1, 3, 4, 5. Datasheet section 17, p. 133
, 0x2F2F -- //
, 0x2F2F20446566696E65206669656C647320666F722052656769737465727320412C20422C20432C20494E54204D61736B2072656769737465727320617320382D626974 -- // Define fields for Registers A, B, C, INT Mask registers as 8-bit
, 0x2F2F206D61736B732C20616E64206173206D61736B73206F666673657420696E746F20612033322D62697420636F6D62696E656420636F6E66696720776F72642E -- // masks, and as masks offset into a 32-bit combined config word.
, 0x2F2F -- //
, 0x2F2F204D6163726F20646566696E6974696F6E7320666F7220696E646976696475616C2072656769737465727320617265206E616D656420544D5258415F2A2C -- // Macro definitions for individual registers are named TMRXA_*,
, 0x2F2F20544D5258425F2A2C20616E6420544D5258435F2A2E -- // TMRXB_*, and TMRXC_*.
, 0x2F2F -- //
, 0x2F2F204D6163726F7320666F7220746865206F6E652D7374657020636F6D62696E65642074696D657220636F6E6669672066756E6374696F6E7320617265206E616D6564 -- // Macros for the one-step combined timer config functions are named
, 0x2F2F20544D52585F2A2E -- // TMRX_*.
, 0x2F2F -- //
, 0x2F2F -- //
, 0x2F2F204578616D706C65733A -- // Examples:
, 0x2F2F2020202F2F2055736520544D5258425F2A20646566696E6974696F6E20746F2073657420544343523442207265676973746572 -- //   // Use TMRXB_* definition to set TCCR4B register
, 0x2F2F202020544343523442207C3D20544D5258425F444956313B -- //   TCCR4B |= TMRXB_DIV1;
, 0x2F2F -- //
, 0x2F2F2020202F2F2055736520544D52585F2A20646566696E6974696F6E7320746F20636F6E6669677572652074696D6572207769746820636F6E6669672066756E6374696F6E -- //   // Use TMRX_* definitions to configure timer with config function
, 0x2F2F20202070726F636573736F725F74696D6572345F636F6E66696728544D52585F57464D5F435443207C20544D52585F494E545F4F4E5F434D5041293B -- //   processor_timer4_config(TMRX_WFM_CTC | TMRX_INT_ON_CMPA);
, 0x2F2F -- //
, 0x23646566696E6520544D5258415F504F532030 -- #define TMRXA_POS 0
, 0x23646566696E6520544D5258425F504F532038 -- #define TMRXB_POS 8
, 0x23646566696E6520544D5258435F504F53203136 -- #define TMRXC_POS 16
, 0x23646566696E6520544D5258494D534B5F504F53203234 -- #define TMRXIMSK_POS 24
, 0x23646566696E6520544D5258412028314C203C3C20544D5258415F504F5329 -- #define TMRXA (1L << TMRXA_POS)
, 0x23646566696E6520544D5258422028314C203C3C20544D5258425F504F5329 -- #define TMRXB (1L << TMRXB_POS)
, 0x23646566696E6520544D5258432028314C203C3C20544D5258435F504F5329 -- #define TMRXC (1L << TMRXC_POS)
, 0x23646566696E6520544D5258494D534B2028314C203C3C20544D5258494D534B5F504F5329 -- #define TMRXIMSK (1L << TMRXIMSK_POS)
, 0x0 -- 
, 0x2F2F2031362D6269742074696D6572207265672041202D204461746173686565742031372E31312E312C20702E20313534 -- // 16-bit timer reg A - Datasheet 17.11.1, p. 154
, 0x23646566696E6520544D5258415F434D50415F434C525F4D415443485F5345545F424F54544F4D202831203C3C20434F4D31413129 -- #define TMRXA_CMPA_CLR_MATCH_SET_BOTTOM (1 << COM1A1)
, 0x23646566696E6520544D5258415F434D50425F434C525F4D415443485F5345545F424F54544F4D202831203C3C20434F4D31423129 -- #define TMRXA_CMPB_CLR_MATCH_SET_BOTTOM (1 << COM1B1)
, 0x23646566696E6520544D5258415F434D50435F434C525F4D415443485F5345545F424F54544F4D202831203C3C20434F4D31433129 -- #define TMRXA_CMPC_CLR_MATCH_SET_BOTTOM (1 << COM1C1)
, 0x23646566696E6520544D52585F434D50415F434C525F4D415443485F5345545F424F54544F4D2028544D525841203C3C20434F4D31413129 -- #define TMRX_CMPA_CLR_MATCH_SET_BOTTOM (TMRXA << COM1A1)
, 0x23646566696E6520544D52585F434D50425F434C525F4D415443485F5345545F424F54544F4D2028544D525841203C3C20434F4D31423129 -- #define TMRX_CMPB_CLR_MATCH_SET_BOTTOM (TMRXA << COM1B1)
, 0x23646566696E6520544D52585F434D50435F434C525F4D415443485F5345545F424F54544F4D2028544D525841203C3C20434F4D31433129 -- #define TMRX_CMPC_CLR_MATCH_SET_BOTTOM (TMRXA << COM1C1)
, 0x0 -- 
, 0x2F2F2031362D6269742074696D6572207265672042202D204461746173686565742031372E31312E362C20702E20313536 -- // 16-bit timer reg B - Datasheet 17.11.6, p. 156
, 0x0 -- 
, 0x23646566696E6520544D5258425F494E5F4341505F504F5320307834304C -- #define TMRXB_IN_CAP_POS 0x40L
, 0x23646566696E6520544D5258425F494E5F4341505F4E454720304C -- #define TMRXB_IN_CAP_NEG 0L
, 0x23646566696E6520544D5258425F494E5F4341505F4E4F4953455F43414E43454C20307838304C -- #define TMRXB_IN_CAP_NOISE_CANCEL 0x80L
, 0x0 -- 
, 0x2F2F2031362D6269742074696D6572207265672043202D2D20736565206461746173686565742C2031372E31312E392C20702E20313537 -- // 16-bit timer reg C -- see datasheet, 17.11.9, p. 157
, 0x23646566696E6520544D5258435F464F434120307838304C -- #define TMRXC_FOCA 0x80L
, 0x23646566696E6520544D5258435F464F434220307834304C -- #define TMRXC_FOCB 0x40L
, 0x23646566696E6520544D5258435F464F434320307832304C -- #define TMRXC_FOCC 0x20L
, 0x0 -- 
, 0x2F2F2031362D6269742074696D657220696E74206D61736B202D2D20736565206461746173686565742031372E31312E33332C20702E203136312E -- // 16-bit timer int mask -- see datasheet 17.11.33, p. 161.
, 0x23646566696E6520544D5258494D5F494E545F434D505F4D415443485F412028314C203C3C204F434945314129 -- #define TMRXIM_INT_CMP_MATCH_A (1L << OCIE1A)
, 0x23646566696E6520544D5258494D5F494E545F434D505F4D415443485F422028314C203C3C204F434945314229 -- #define TMRXIM_INT_CMP_MATCH_B (1L << OCIE1B)
, 0x23646566696E6520544D5258494D5F494E545F434D505F4D415443485F432028314C203C3C204F434945314329 -- #define TMRXIM_INT_CMP_MATCH_C (1L << OCIE1C)
, 0x0 -- 
, 0x2F2F2031362D6269742074696D657220616C6C207265676973746572733A -- // 16-bit timer all registers:
, 0x23646566696E6520544D52585F434D50415F444953434F4E4E454354454420304C -- #define TMRX_CMPA_DISCONNECTED 0L
, 0x23646566696E6520544D52585F434D50425F444953434F4E4E454354454420304C -- #define TMRX_CMPB_DISCONNECTED 0L
, 0x23646566696E6520544D52585F434D50435F444953434F4E4E454354454420304C -- #define TMRX_CMPC_DISCONNECTED 0L
, 0x23646566696E6520544D52585F494E545F4F4E5F434D50412028544D5258494D5F494E545F434D505F4D415443485F41203C3C20544D5258494D534B5F504F5329 -- #define TMRX_INT_ON_CMPA (TMRXIM_INT_CMP_MATCH_A << TMRXIMSK_POS)
, 0x0 -- 
, 0x2F2F2031362D6269742074696D657220636C6F636B206D6F646573202D2073656520446174617368656574207461626C652031372D362C2020702E20313537 -- // 16-bit timer clock modes - see Datasheet table 17-6,  p. 157
, 0x23646566696E6520544D5258425F4F46462030 -- #define TMRXB_OFF 0
, 0x23646566696E6520544D52585F4F46462030 -- #define TMRX_OFF 0
, 0x23646566696E6520544D5258425F444956312028307830314C203C3C204353313029 -- #define TMRXB_DIV1 (0x01L << CS10)
, 0x23646566696E6520544D5258425F444956382028307830324C203C3C204353313029 -- #define TMRXB_DIV8 (0x02L << CS10)
, 0x23646566696E6520544D5258425F44495636342028307830334C203C3C204353313029 -- #define TMRXB_DIV64 (0x03L << CS10)
, 0x23646566696E6520544D5258425F4449563235362028307830344C203C3C204353313029 -- #define TMRXB_DIV256 (0x04L << CS10)
, 0x23646566696E6520544D5258425F444956313032342028307830354C203C3C204353313029 -- #define TMRXB_DIV1024 (0x05L << CS10)
, 0x23646566696E6520544D5258425F4558545F46414C4C494E475F454447452028307830364C203C3C204353313029 -- #define TMRXB_EXT_FALLING_EDGE (0x06L << CS10)
, 0x23646566696E6520544D5258425F4558545F524953494E475F454447452028307830374C203C3C204353313029 -- #define TMRXB_EXT_RISING_EDGE (0x07L << CS10)
, 0x23646566696E6520544D5258425F434C4B5F4D41534B20307830374C -- #define TMRXB_CLK_MASK 0x07L
, 0x23646566696E6520544D52585F444956312028544D5258425F44495631203C3C20544D5258425F504F5329 -- #define TMRX_DIV1 (TMRXB_DIV1 << TMRXB_POS)
, 0x23646566696E6520544D52585F444956382028544D5258425F44495638203C3C20544D5258425F504F5329 -- #define TMRX_DIV8 (TMRXB_DIV8 << TMRXB_POS)
, 0x23646566696E6520544D52585F44495636342028544D5258425F4449563634203C3C20544D5258425F504F5329 -- #define TMRX_DIV64 (TMRXB_DIV64 << TMRXB_POS)
, 0x23646566696E6520544D52585F4449563235362028544D5258425F444956323536203C3C20544D5258425F504F5329 -- #define TMRX_DIV256 (TMRXB_DIV256 << TMRXB_POS)
, 0x23646566696E6520544D52585F444956313032342028544D5258425F44495631303234203C3C20544D5258425F504F5329 -- #define TMRX_DIV1024 (TMRXB_DIV1024 << TMRXB_POS)
, 0x23646566696E6520544D52585F4558545F46414C4C494E475F454447452028544D5258425F4558545F46414C4C494E475F45444745203C3C20544D5258425F504F5329 -- #define TMRX_EXT_FALLING_EDGE (TMRXB_EXT_FALLING_EDGE << TMRXB_POS)
, 0x23646566696E6520544D52585F4558545F524953494E475F454447452028544D5258425F4558545F524953494E475F45444745203C3C20544D5258425F504F5329 -- #define TMRX_EXT_RISING_EDGE (TMRXB_EXT_RISING_EDGE << TMRXB_POS)
, 0x0 -- 
, 0x23646566696E6520544D5258425F454447455F53454C5F504F534954495645202831203C3C20494345533129 -- #define TMRXB_EDGE_SEL_POSITIVE (1 << ICES1)
, 0x23646566696E6520544D5258425F454447455F53454C5F4E4547415449564520304C -- #define TMRXB_EDGE_SEL_NEGATIVE 0L
, 0x23646566696E6520544D52585F454447455F53454C5F504F5349544956452028544D525842203C3C20494345533129 -- #define TMRX_EDGE_SEL_POSITIVE (TMRXB << ICES1)
, 0x23646566696E6520544D52585F454447455F53454C5F4E4547415449564520304C -- #define TMRX_EDGE_SEL_NEGATIVE 0L
, 0x0 -- 
, 0x2F2F2031362D6269742077617665666F726D206D6F64657320286163726F737320726567204120616E6420422920446174617368656574205461626C652031372E322C207020313435 -- // 16-bit waveform modes (across reg A and B) Datasheet Table 17.2, p 145
, 0x23646566696E6520544D52585F57464D5F4E4F524D414C20304C -- #define TMRX_WFM_NORMAL 0L
, 0x23646566696E6520544D52585F57464D5F50574D5F5043382028544D525841203C3C2057474D3130292020202020202020202020202020202020202020202020202F2F2050574D20506861736520436F727265637420382D626974 -- #define TMRX_WFM_PWM_PC8 (TMRXA << WGM10)                        // PWM Phase Correct 8-bit
, 0x23646566696E6520544D52585F57464D5F50574D5F5043392028544D525841203C3C2057474D3131292020202020202020202020202020202020202020202020202F2F2050574D20506861736520434F727265637420392D626974 -- #define TMRX_WFM_PWM_PC9 (TMRXA << WGM11)                        // PWM Phase COrrect 9-bit
, 0x23646566696E6520544D52585F57464D5F50574D5F50433130202828544D525841203C3C2057474D313129207C2028544D525841203C3C2057474D3130292920202F2F2050574D20506861736520436F72726563742031302D626974 -- #define TMRX_WFM_PWM_PC10 ((TMRXA << WGM11) | (TMRXA << WGM10))  // PWM Phase Correct 10-bit
, 0x23646566696E6520544D52585F57464D5F4354432028544D525842203C3C2057474D313229202020202020202020202020202020202020202020202020202020202F2F20435443 -- #define TMRX_WFM_CTC (TMRXB << WGM12)                            // CTC
, 0x23646566696E6520544D52585F57464D5F50574D5F4641535438202828544D525842203C3C2057474D313229207C2028544D525841203C3C2057474D31302929202F2F2050574D204661737420382D626974 -- #define TMRX_WFM_PWM_FAST8 ((TMRXB << WGM12) | (TMRXA << WGM10)) // PWM Fast 8-bit
, 0x23646566696E6520544D52585F57464D5F50574D5F4641535439202828544D525842203C3C2057474D313229207C2028544D525841203C3C2057474D31312929202F2F2050574D204661737420392D626974 -- #define TMRX_WFM_PWM_FAST9 ((TMRXB << WGM12) | (TMRXA << WGM11)) // PWM Fast 9-bit
, 0x23646566696E6520544D52585F57464D5F50574D5F4641535431302020202020202020202020202020202020202020202020202020202020202020202020202020202020202020202020202020202020202020202020202020202020202020202020205C -- #define TMRX_WFM_PWM_FAST10                                                                        \
, 0x20202828544D525842203C3C2057474D313229207C2028544D525841203C3C2057474D313129207C2028544D525841203C3C2057474D31302929202F2F2050574D20466173742031302D626974 --   ((TMRXB << WGM12) | (TMRXA << WGM11) | (TMRXA << WGM10)) // PWM Fast 10-bit
, 0x23646566696E6520544D52585F57464D5F50574D5F5046435F4943522028544D525842203C3C2057474D31332920202020202020202020202020202F2F2050574D20506861736520616E64204672657120436F72726563742C2054704F503D494352 -- #define TMRX_WFM_PWM_PFC_ICR (TMRXB << WGM13)              // PWM Phase and Freq Correct, TpOP=ICR
, 0x23646566696E6520544D52585F57464D5F50574D5F5046435F4F435241202020202020202020202020202020202020202020202020202020202020202020202020202020202020202020202020202020202020202020202020202020202020202020205C -- #define TMRX_WFM_PWM_PFC_OCRA                                                                      \
, 0x20202828544D525842203C3C2057474D313329207C2028544D525841203C3C2057474D31302929202F2F2050574D20506861736520616E64204672657120436F72726563742C20544F50203D204F435241 --   ((TMRXB << WGM13) | (TMRXA << WGM10)) // PWM Phase and Freq Correct, TOP = OCRA
, 0x23646566696E6520544D52585F57464D5F50574D5F50435F494352202828544D525842203C3C2057474D313329207C2028544D525841203C3C2057474D31312929202F2F2050574D205068617365436F72726563742C20544F50203D20494352 -- #define TMRX_WFM_PWM_PC_ICR ((TMRXB << WGM13) | (TMRXA << WGM11)) // PWM PhaseCorrect, TOP = ICR
, 0x23646566696E6520544D52585F57464D5F50574D5F50435F4F43524120202020202020202020202020202020202020202020202020202020202020202020202020202020202020202020202020202020202020202020202020202020202020202020205C -- #define TMRX_WFM_PWM_PC_OCRA                                                                       \
, 0x20202828544D525842203C3C2057474D313329207C2028544D525841203C3C2057474D313129207C2028544D525841203C3C2057474D3132292920202020202F2F2050574D205068617365436F72726563742C20544F503D4F435241 --   ((TMRXB << WGM13) | (TMRXA << WGM11) | (TMRXA << WGM12))     // PWM PhaseCorrect, TOP=OCRA
, 0x23646566696E6520544D52585F57464D5F4354435F494352202828544D525842203C3C2057474D313329207C2028544D525842203C3C2057474D31322929202F2F204354432C20544F50203D20494352 -- #define TMRX_WFM_CTC_ICR ((TMRXB << WGM13) | (TMRXB << WGM12)) // CTC, TOP = ICR
, 0x23646566696E6520544D52585F57464D5F50574D5F464153545F494352202020202020202020202020202020202020202020202020202020202020202020202020202020202020202020202020202020202020202020202020202020202020202020205C -- #define TMRX_WFM_PWM_FAST_ICR                                                                      \
, 0x20202828544D525842203C3C2057474D313329207C2028544D525842203C3C2057474D313229207C2028544D525841203C3C2057474D31312929202F2F2050574D20466173742C20544F50203D20494352 --   ((TMRXB << WGM13) | (TMRXB << WGM12) | (TMRXA << WGM11)) // PWM Fast, TOP = ICR
, 0x23646566696E6520544D52585F57464D5F50574D5F464153545F4F4352412020202020202020202020202020202020202020202020202020202020202020202020202020202020202020202020202020202020202020202020202020202020202020205C -- #define TMRX_WFM_PWM_FAST_OCRA                                                                     \
, 0x20202828544D525842203C3C2057474D313329207C2028544D525842203C3C2057474D313229207C2028544D525841203C3C2057474D3131292020202020202020202020202020202020202020202020202020202020202020202020202020202020205C --   ((TMRXB << WGM13) | (TMRXB << WGM12) | (TMRXA << WGM11)                                          \
, 0x2020207C2028544D525841203C3C2057474D31302929202F2F2050574D20466173742C20544F50203D204F435241 --    | (TMRXA << WGM10)) // PWM Fast, TOP = OCRA
, 0x0 -- 
, 0x2F2F20555341525420636F6E66696775726174696F6E20284461746173686565742073656374696F6E2032322C20702E2032303029 -- // USART configuration (Datasheet section 22, p. 200)
, 0x2F2F -- //
, 0x2F2F204D6163726F20646566696E6974696F6E7320666F7220696E646976696475616C2072656769737465727320617265206E616D6564205553415254415F2A2C -- // Macro definitions for individual registers are named USARTA_*,
, 0x2F2F205553415254425F2A2C20616E64205553415254435F2A2E -- // USARTB_*, and USARTC_*.
, 0x2F2F -- //
, 0x2F2F204D6163726F7320666F7220746865206F6E652D7374657020636F6D62696E65642074696D657220636F6E6669672066756E6374696F6E7320617265206E616D6564 -- // Macros for the one-step combined timer config functions are named
, 0x2F2F2055534152545F2A2E -- // USART_*.
, 0x2F2F -- //
, 0x2F2F -- //
, 0x2F2F204578616D706C65733A -- // Examples:
, 0x2F2F2020202F2F20557365205553415254425F2A20646566696E6974696F6E20746F2073657420554353523142207265676973746572 -- //   // Use USARTB_* definition to set UCSR1B register
, 0x2F2F2020202020554353523142207C3D205553415254425F444154415F5245475F454D5054595F494E545F454E3B202F2F20656E61626C6520696E74657272757074206F6E2074782072656720656D707479 -- //     UCSR1B |= USARTB_DATA_REG_EMPTY_INT_EN; // enable interrupt on tx reg empty
, 0x2F2F -- //
, 0x2F2F2020202F2F205573652055534152545F2A20646566696E6974696F6E7320746F20636F6E666967757265207573617274207769746820636F6E6669672066756E6374696F6E -- //   // Use USART_* definitions to configure usart with config function
, 0x2F2F20202070726F636573736F725F7573617274335F636F6E6669672855534152545F53495A455F38207C2055534152545F5041524954595F4E4F4E45207C2055534152545F53544F505F31207C2055534152545F444154415F5458454E207C -- //   processor_usart3_config(USART_SIZE_8 | USART_PARITY_NONE | USART_STOP_1 | USART_DATA_TXEN |
, 0x2F2F20202020202020202020202020202020202020202020202020202055534152545F444154415F5258454E207C2055534152545F52585F434F4D504C4554455F494E545F454E293B -- //                           USART_DATA_RXEN | USART_RX_COMPLETE_INT_EN);
, 0x2F2F -- //
, 0x23646566696E65205553415254415F504F532030 -- #define USARTA_POS 0
, 0x23646566696E65205553415254425F504F532038 -- #define USARTB_POS 8
, 0x23646566696E65205553415254435F504F53203136 -- #define USARTC_POS 16
, 0x23646566696E65205553415254412028314C203C3C205553415254415F504F5329 -- #define USARTA (1L << USARTA_POS)
, 0x23646566696E65205553415254422028314C203C3C205553415254425F504F5329 -- #define USARTB (1L << USARTB_POS)
, 0x23646566696E65205553415254432028314C203C3C205553415254435F504F5329 -- #define USARTC (1L << USARTC_POS)
, 0x0 -- 
, 0x2F2F20555341525420526567697374657220412C204461746173686565742032322E31302E322C20702E20323139 -- // USART Register A, Datasheet 22.10.2, p. 219
, 0x0 -- 
, 0x23646566696E65205553415254415F444154415F5245475F454D505459202831203C3C205544523029 -- #define USARTA_DATA_REG_EMPTY (1 << UDR0)
, 0x23646566696E65205553415254415F4652414D455F4552524F52202831203C3C2046453029 -- #define USARTA_FRAME_ERROR (1 << FE0)
, 0x23646566696E65205553415254415F444154415F4F56455252554E202831203C3C20444F523029 -- #define USARTA_DATA_OVERRUN (1 << DOR0)
, 0x23646566696E65205553415254415F5041524954595F4552524F52202831203C3C205550453029 -- #define USARTA_PARITY_ERROR (1 << UPE0)
, 0x23646566696E65205553415254415F444F55424C455F5350454544202831203C3C205532583029 -- #define USARTA_DOUBLE_SPEED (1 << U2X0)
, 0x23646566696E65205553415254415F4D554C54495F50524F434553534F52202831203C3C204D50434D3029 -- #define USARTA_MULTI_PROCESSOR (1 << MPCM0)
, 0x23646566696E652055534152545F444154415F5245475F454D5054592028555341525441203C3C205544523029 -- #define USART_DATA_REG_EMPTY (USARTA << UDR0)
, 0x23646566696E652055534152545F4652414D455F4552524F522028555341525441203C3C2046453029 -- #define USART_FRAME_ERROR (USARTA << FE0)
, 0x23646566696E652055534152545F444154415F4F56455252554E2028555341525441203C3C20444F523029 -- #define USART_DATA_OVERRUN (USARTA << DOR0)
, 0x23646566696E652055534152545F5041524954595F4552524F522028555341525441203C3C205550453029 -- #define USART_PARITY_ERROR (USARTA << UPE0)
, 0x23646566696E652055534152545F444F55424C455F53504545442028555341525441203C3C205532583029 -- #define USART_DOUBLE_SPEED (USARTA << U2X0)
, 0x23646566696E652055534152545F4D554C54495F50524F434553534F522028555341525441203C3C204D50434D3029 -- #define USART_MULTI_PROCESSOR (USARTA << MPCM0)
, 0x0 -- 
, 0x2F2F20555341525420526567697374657220422C204461746173686565742032322E31302E332C20702E20323230 -- // USART Register B, Datasheet 22.10.3, p. 220
, 0x0 -- 
, 0x23646566696E65205553415254425F52585F434F4D504C4554455F494E545F454E202831203C3C2052584349453029 -- #define USARTB_RX_COMPLETE_INT_EN (1 << RXCIE0)
, 0x23646566696E65205553415254425F54585F434F4D504C4554455F494E545F454E202831203C3C2054584349453029 -- #define USARTB_TX_COMPLETE_INT_EN (1 << TXCIE0)
, 0x23646566696E65205553415254425F444154415F5245475F454D5054595F494E545F454E202831203C3C2055445249453029 -- #define USARTB_DATA_REG_EMPTY_INT_EN (1 << UDRIE0)
, 0x23646566696E65205553415254425F444154415F5258454E202831203C3C205258454E3029 -- #define USARTB_DATA_RXEN (1 << RXEN0)
, 0x23646566696E65205553415254425F444154415F5458454E202831203C3C205458454E3029 -- #define USARTB_DATA_TXEN (1 << TXEN0)
, 0x23646566696E65205553415254425F53495A455F39202831203C3C205543535A303229 -- #define USARTB_SIZE_9 (1 << UCSZ02)
, 0x23646566696E65205553415254425F52585F4249545F38202831203C3C20525842383029 -- #define USARTB_RX_BIT_8 (1 << RXB80)
, 0x23646566696E65205553415254425F54585F4249545F38202831203C3C20545842383029 -- #define USARTB_TX_BIT_8 (1 << TXB80)
, 0x23646566696E652055534152545F52585F434F4D504C4554455F494E545F454E2028555341525442203C3C2052584349453029 -- #define USART_RX_COMPLETE_INT_EN (USARTB << RXCIE0)
, 0x23646566696E652055534152545F54585F434F4D504C4554455F494E545F454E2028555341525442203C3C2054584349453029 -- #define USART_TX_COMPLETE_INT_EN (USARTB << TXCIE0)
, 0x23646566696E652055534152545F444154415F5245475F454D5054595F494E545F454E2028555341525442203C3C2055445249453029 -- #define USART_DATA_REG_EMPTY_INT_EN (USARTB << UDRIE0)
, 0x23646566696E652055534152545F444154415F5258454E2028555341525442203C3C205258454E3029 -- #define USART_DATA_RXEN (USARTB << RXEN0)
, 0x23646566696E652055534152545F444154415F5458454E2028555341525442203C3C205458454E3029 -- #define USART_DATA_TXEN (USARTB << TXEN0)
, 0x23646566696E652055534152545F52585F4249545F382028555341525442203C3C20525842383029 -- #define USART_RX_BIT_8 (USARTB << RXB80)
, 0x23646566696E652055534152545F54585F4249545F382028555341525442203C3C20545842383029 -- #define USART_TX_BIT_8 (USARTB << TXB80)
, 0x0 -- 
, 0x2F2F20555341525420526567697374657220432C204461746173686565742032322E31302E342C20702E323231 -- // USART Register C, Datasheet 22.10.4, p.221
, 0x23646566696E65205553415254435F4D4F44455F4153594E435F55534152542028307830304C203C3C20554D53454C303029 -- #define USARTC_MODE_ASYNC_USART (0x00L << UMSEL00)
, 0x23646566696E65205553415254435F4D4F44455F53594E435F55534152542028307830314C203C3C20554D53454C303029 -- #define USARTC_MODE_SYNC_USART (0x01L << UMSEL00)
, 0x23646566696E65205553415254435F4D4F44455F4D5350494D2028307830334C203C3C20554D53454C303029 -- #define USARTC_MODE_MSPIM (0x03L << UMSEL00)
, 0x23646566696E652055534152545F4D4F44455F4153594E435F555341525420285553415254435F4D4F44455F4153594E435F5553415254203C3C205553415254435F504F5329 -- #define USART_MODE_ASYNC_USART (USARTC_MODE_ASYNC_USART << USARTC_POS)
, 0x23646566696E652055534152545F4D4F44455F53594E435F555341525420285553415254435F4D4F44455F53594E435F5553415254203C3C205553415254435F504F5329 -- #define USART_MODE_SYNC_USART (USARTC_MODE_SYNC_USART << USARTC_POS)
, 0x23646566696E652055534152545F4D4F44455F4D5350494D20285553415254435F4D4F44455F4D5350494D203C3C205553415254435F504F5329 -- #define USART_MODE_MSPIM (USARTC_MODE_MSPIM << USARTC_POS)
, 0x0 -- 
, 0x23646566696E65205553415254435F5041524954595F4E4F4E452030 -- #define USARTC_PARITY_NONE 0
, 0x23646566696E65205553415254435F5041524954595F4556454E2028307830314C203C3C2055504D303029 -- #define USARTC_PARITY_EVEN (0x01L << UPM00)
, 0x23646566696E65205553415254435F5041524954595F4F4444202830783033203C3C2055504D303029 -- #define USARTC_PARITY_ODD (0x03 << UPM00)
, 0x23646566696E652055534152545F5041524954595F4E4F4E452030 -- #define USART_PARITY_NONE 0
, 0x23646566696E652055534152545F5041524954595F4556454E20285553415254435F5041524954595F4556454E203C3C205553415254435F504F5329 -- #define USART_PARITY_EVEN (USARTC_PARITY_EVEN << USARTC_POS)
, 0x23646566696E652055534152545F5041524954595F4F444420285553415254435F5041524954595F4F4444203C3C205553415254435F504F5329 -- #define USART_PARITY_ODD (USARTC_PARITY_ODD << USARTC_POS)
, 0x0 -- 
, 0x23646566696E65205553415254435F53544F505F312030 -- #define USARTC_STOP_1 0
, 0x23646566696E65205553415254435F53544F505F32202831203C3C20555342533029 -- #define USARTC_STOP_2 (1 << USBS0)
, 0x23646566696E652055534152545F53544F505F312030 -- #define USART_STOP_1 0
, 0x23646566696E652055534152545F53544F505F322028555341525443203C3C20555342533029 -- #define USART_STOP_2 (USARTC << USBS0)
, 0x0 -- 
, 0x23646566696E65205553415254435F53495A455F352030 -- #define USARTC_SIZE_5 0
, 0x23646566696E65205553415254435F53495A455F362028307830314C203C3C205543535A303029 -- #define USARTC_SIZE_6 (0x01L << UCSZ00)
, 0x23646566696E65205553415254435F53495A455F372028307830324C203C3C205543535A303029 -- #define USARTC_SIZE_7 (0x02L << UCSZ00)
, 0x23646566696E65205553415254435F53495A455F382028307830334C203C3C205543535A303029 -- #define USARTC_SIZE_8 (0x03L << UCSZ00)
, 0x23646566696E65205553415254435F53495A455F39205553415254435F53495A455F38 -- #define USARTC_SIZE_9 USARTC_SIZE_8
, 0x23646566696E652055534152545F53495A455F352030 -- #define USART_SIZE_5 0
, 0x23646566696E652055534152545F53495A455F3620285553415254435F53495A455F36203C3C205553415254435F504F5329 -- #define USART_SIZE_6 (USARTC_SIZE_6 << USARTC_POS)
, 0x23646566696E652055534152545F53495A455F3720285553415254435F53495A455F37203C3C205553415254435F504F5329 -- #define USART_SIZE_7 (USARTC_SIZE_7 << USARTC_POS)
, 0x23646566696E652055534152545F53495A455F3820285553415254435F53495A455F38203C3C205553415254435F504F5329 -- #define USART_SIZE_8 (USARTC_SIZE_8 << USARTC_POS)
, 0x23646566696E652055534152545F53495A455F392028285553415254425F53495A455F39203C3C205553415254425F504F5329207C20285553415254435F53495A455F39203C3C205553415254435F504F532929 -- #define USART_SIZE_9 ((USARTB_SIZE_9 << USARTB_POS) | (USARTC_SIZE_9 << USARTC_POS))
, 0x0 -- 
, 0x23646566696E65205553415254435F434C4B5F54585F524953494E472030 -- #define USARTC_CLK_TX_RISING 0
, 0x23646566696E652055534152545F434C4B5F54585F524953494E472030 -- #define USART_CLK_TX_RISING 0
, 0x23646566696E65205553415254435F434C4B5F54585F46414C4C494E47202831203C3C205543504F4C3029 -- #define USARTC_CLK_TX_FALLING (1 << UCPOL0)
, 0x23646566696E652055534152545F434C4B5F54585F46414C4C494E472028555341525443203C3C205543504F4C3029 -- #define USART_CLK_TX_FALLING (USARTC << UCPOL0)
, 0x0 -- 
, 0x0 -- 
, 0x0 -- 
, 0x2F2F20492F4F20706F727420646566696E6974696F6E733A -- // I/O port definitions:
, 0x0 -- 
, 0x23646566696E652050494E5F494E5055542030 -- #define PIN_INPUT 0
, 0x23646566696E652050494E5F4F55545055542031 -- #define PIN_OUTPUT 1
, 0x23646566696E6520414C4C5F494E505554532030 -- #define ALL_INPUTS 0
, 0x23646566696E6520414C4C5F4F5554505554532030786666 -- #define ALL_OUTPUTS 0xff
, 0x23646566696E6520414C4C5F50554C4C5550532030786666 -- #define ALL_PULLUPS 0xff
, 0x0 -- 
, 0x23646566696E6520415344465F4849524F575F504F525420504F525441 -- #define ASDF_HIROW_PORT PORTA
, 0x23646566696E6520415344465F4849524F575F4444522044445241 -- #define ASDF_HIROW_DDR DDRA
, 0x23646566696E6520415344465F4849524F575F50494E2050494E41 -- #define ASDF_HIROW_PIN PINA
, 0x0 -- 
, 0x23646566696E6520415344465F4C4F524F575F504F525420504F52544A -- #define ASDF_LOROW_PORT PORTJ
, 0x23646566696E6520415344465F4C4F524F575F444452204444524A -- #define ASDF_LOROW_DDR DDRJ
, 0x23646566696E6520415344465F4C4F524F575F50494E2050494E4A -- #define ASDF_LOROW_PIN PINJ
, 0x0 -- 
, 0x23646566696E6520415344465F434F4C554D4E535F504F525420504F525443 -- #define ASDF_COLUMNS_PORT PORTC
, 0x23646566696E6520415344465F434F4C554D4E535F50494E2050494E43 -- #define ASDF_COLUMNS_PIN PINC
, 0x23646566696E6520415344465F434F4C554D4E535F4444522044445243 -- #define ASDF_COLUMNS_DDR DDRC
, 0x0 -- 
, 0x23646566696E6520415344465F41534349495F504F525420504F525448 -- #define ASDF_ASCII_PORT PORTH
, 0x23646566696E6520415344465F41534349495F4444522044445248 -- #define ASDF_ASCII_DDR DDRH
, 0x0 -- 
, 0x23646566696E6520415344465F4C4544315F504F525420504F525444 -- #define ASDF_LED1_PORT PORTD
, 0x23646566696E6520415344465F4C4544315F4444522044445244 -- #define ASDF_LED1_DDR DDRD
, 0x23646566696E6520415344465F4C4544315F4249542035 -- #define ASDF_LED1_BIT 5
, 0x0 -- 
, 0x23646566696E6520415344465F4C4544325F504F525420504F525444 -- #define ASDF_LED2_PORT PORTD
, 0x23646566696E6520415344465F4C4544325F4444522044445244 -- #define ASDF_LED2_DDR DDRD
, 0x23646566696E6520415344465F4C4544325F4249542036 -- #define ASDF_LED2_BIT 6
, 0x0 -- 
, 0x23646566696E6520415344465F4C4544335F504F525420504F525444 -- #define ASDF_LED3_PORT PORTD
, 0x23646566696E6520415344465F4C4544335F4444522044445244 -- #define ASDF_LED3_DDR DDRD
, 0x23646566696E6520415344465F4C4544335F4249542037 -- #define ASDF_LED3_BIT 7
, 0x0 -- 
, 0x23646566696E6520415344465F4F5554315F504F525420504F525442 -- #define ASDF_OUT1_PORT PORTB
, 0x23646566696E6520415344465F4F5554315F50494E2050494E42 -- #define ASDF_OUT1_PIN PINB
, 0x23646566696E6520415344465F4F5554315F4444522044445242 -- #define ASDF_OUT1_DDR DDRB
, 0x23646566696E6520415344465F4F5554315F4249542035 -- #define ASDF_OUT1_BIT 5
, 0x0 -- 
, 0x23646566696E6520415344465F4F5554325F504F525420504F525442 -- #define ASDF_OUT2_PORT PORTB
, 0x23646566696E6520415344465F4F5554325F50494E2050494E42 -- #define ASDF_OUT2_PIN PINB
, 0x23646566696E6520415344465F4F5554325F4444522044445242 -- #define ASDF_OUT2_DDR DDRB
, 0x23646566696E6520415344465F4F5554325F4249542036 -- #define ASDF_OUT2_BIT 6
, 0x0 -- 
, 0x23646566696E6520415344465F4F5554335F504F525420504F525442 -- #define ASDF_OUT3_PORT PORTB
, 0x23646566696E6520415344465F4F5554335F50494E2050494E42 -- #define ASDF_OUT3_PIN PINB
, 0x23646566696E6520415344465F4F5554335F4444522044445242 -- #define ASDF_OUT3_DDR DDRB
, 0x23646566696E6520415344465F4F5554335F4249542037 -- #define ASDF_OUT3_BIT 7
, 0x0 -- 
, 0x23646566696E6520415344465F5354524F42455F504F525420504F525442 -- #define ASDF_STROBE_PORT PORTB
, 0x23646566696E6520415344465F5354524F42455F50494E2050494E42 -- #define ASDF_STROBE_PIN PINB
, 0x23646566696E6520415344465F5354524F42455F4444522044445242 -- #define ASDF_STROBE_DDR DDRB
, 0x23646566696E6520415344465F5354524F42455F4249542034 -- #define ASDF_STROBE_BIT 4
, 0x0 -- 
, 0x23646566696E6520415344465F4F53495F4B42455F504F525420415344465F4849524F575F504F5254 -- #define ASDF_OSI_KBE_PORT ASDF_HIROW_PORT
, 0x23646566696E6520415344465F4F53495F4B42455F44445220415344465F4849524F575F444452 -- #define ASDF_OSI_KBE_DDR ASDF_HIROW_DDR
, 0x23646566696E6520415344465F4F53495F4B42455F4249542031 -- #define ASDF_OSI_KBE_BIT 1
, 0x0 -- 
, 0x23646566696E6520415344465F4F53495F52575F504F525420415344465F4849524F575F504F5254 -- #define ASDF_OSI_RW_PORT ASDF_HIROW_PORT
, 0x23646566696E6520415344465F4F53495F52575F44445220415344465F4849524F575F444452 -- #define ASDF_OSI_RW_DDR ASDF_HIROW_DDR
, 0x23646566696E6520415344465F4F53495F52575F4249542032 -- #define ASDF_OSI_RW_BIT 2
, 0x0 -- 
, 0x23646566696E6520415344465F415243485F4449505F5357495443485F524F572038 -- #define ASDF_ARCH_DIP_SWITCH_ROW 8
, 0x0 -- 
, 0x23646566696E6520465553455F494E5445524E414C5F384D485A5F4F53435F344D532028465553455F434B53454C31207C20465553455F5355543029 -- #define FUSE_INTERNAL_8MHZ_OSC_4MS (FUSE_CKSEL1 | FUSE_SUT0)
, 0x23646566696E6520465553455F494E5445524E414C5F384D485A5F4F53435F36354D532028465553455F434B53454C31207C20465553455F5355543129 -- #define FUSE_INTERNAL_8MHZ_OSC_65MS (FUSE_CKSEL1 | FUSE_SUT1)
, 0x23646566696E6520465553455F5854414C5F31364D485A5F344D532028465553455F434B53454C32207C20465553455F434B53454C31207C20434B53454C30207C20465553455F5355543129 -- #define FUSE_XTAL_16MHZ_4MS (FUSE_CKSEL2 | FUSE_CKSEL1 | CKSEL0 | FUSE_SUT1)
, 0x23646566696E6520465553455F5854414C5F31364D485A5F36354D532028465553455F434B53454C32207C20465553455F434B53454C31207C20434B53454C30207C20465553455F53555431207C20465553455F5355543029 -- #define FUSE_XTAL_16MHZ_65MS (FUSE_CKSEL2 | FUSE_CKSEL1 | CKSEL0 | FUSE_SUT1 | FUSE_SUT0)
, 0x23646566696E6520464C4153482050524F474D454D -- #define FLASH PROGMEM
, 0x0 -- 
, 0x2F2F206E6F7420696D706C656D656E746564207769746820646F2D7768696C652830292062656361757365207468697320697320612066756E6374696F6E2063616C6C20746861742072657475726E73 -- // not implemented with do-while(0) because this is a function call that returns
, 0x2F2F20612076616C75652C20616E6420706172616D65746572732061726520657870616E64656420696E736964652074686520706172616D65746572206C6973742C20736F20746869732077696C6C -- // a value, and parameters are expanded inside the parameter list, so this will
, 0x2F2F2062652076616C6964207768656E20737562737469747574696E6720666F722066756E6374696F6E2D6C696B652073796E7461782E -- // be valid when substituting for function-like syntax.
, 0x23646566696E6520464C4153485F52454144202861292070676D5F726561645F627974652828612929 -- #define FLASH_READ (a) pgm_read_byte((a))
, 0x23646566696E6520464C4153485F524541445F4D41545249585F454C454D454E54286D61747269782C20726F772C20636F6C292070676D5F726561645F62797465282628286D6174726978295B28726F77295D5B28636F6C295D2929 -- #define FLASH_READ_MATRIX_ELEMENT(matrix, row, col) pgm_read_byte(&((matrix)[(row)][(col)]))
, 0x0 -- 
, 0x2F2F20466F722031206D73207469636B2C20283136303030303030202F203634287072657363616C652929202F2031303030287573656329202D2031203D20323439 -- // For 1 ms tick, (16000000 / 64(prescale)) / 1000(usec) - 1 = 249
, 0x23646566696E65205449434B5F434F554E5420323439 -- #define TICK_COUNT 249
, 0x0 -- 
, 0x2F2F2044656661756C74206B6579206D617472697820726F77207363616E6E6572 -- // Default key matrix row scanner
, 0x23646566696E6520415344465F415243485F44454641554C545F524F575F5343414E4E45522026617364665F617263685F726561645F726F77 -- #define ASDF_ARCH_DEFAULT_ROW_SCANNER &asdf_arch_read_row
, 0x0 -- 
, 0x2F2F2044656661756C74206B6579626F617264206F7574707574 -- // Default keyboard output
, 0x23646566696E6520415344465F415243485F44454641554C545F4F55545055542026617364665F617263685F73656E645F636F6465 -- #define ASDF_ARCH_DEFAULT_OUTPUT &asdf_arch_send_code
, 0x0 -- 
, 0x2F2F2044495020737769746368206973206F6E20726F772038 -- // DIP switch is on row 8
, 0x23646566696E6520415344465F415243485F4449505357495443485F524F572038 -- #define ASDF_ARCH_DIPSWITCH_ROW 8
, 0x0 -- 
, 0x0 -- 
, 0x2F2F2050524F4345445552453A20617364665F617263685F706F735F7374726F6265 -- // PROCEDURE: asdf_arch_pos_strobe
, 0x2F2F20494E505554533A206E6F6E65 -- // INPUTS: none
, 0x2F2F204F5554505554533A206E6F6E65 -- // OUTPUTS: none
, 0x2F2F204445534352495054494F4E3A20496E697469616C697A65207374726F6265206F757470757420746F20706F73697469766520706F6C61726974792E20496E697469616C207374617465206973 -- // DESCRIPTION: Initialize strobe output to positive polarity. Initial state is
, 0x2F2F204C4F57 -- // LOW
, 0x766F696420617364665F617263685F7365745F706F735F7374726F626528766F6964293B -- void asdf_arch_set_pos_strobe(void);
, 0x0 -- 
, 0x2F2F2050524F4345445552453A20617364665F617263685F6E65675F7374726F6265 -- // PROCEDURE: asdf_arch_neg_strobe
, 0x2F2F20494E505554533A206E6F6E65 -- // INPUTS: none
, 0x2F2F204F5554505554533A206E6F6E65 -- // OUTPUTS: none
, 0x2F2F204445534352495054494F4E3A20496E697469616C697A65207374726F6265206F7574707574 -- // DESCRIPTION: Initialize strobe output
, 0x766F696420617364665F617263685F7365745F6E65675F7374726F626528766F6964293B -- void asdf_arch_set_neg_strobe(void);
, 0x0 -- 
, 0x0 -- 
, 0x2F2F2050524F4345445552453A20617364665F617263685F6E756C6C5F6F7574707574 -- // PROCEDURE: asdf_arch_null_output
, 0x2F2F20494E505554533A202875696E74385F74292076616C7565202D2069676E6F726564 -- // INPUTS: (uint8_t) value - ignored
, 0x2F2F204F5554505554533A206E6F6E65 -- // OUTPUTS: none
, 0x2F2F204445534352495054494F4E3A206E756C6C2F64756D6D79206F75747075742066756E6374696F6E -- // DESCRIPTION: null/dummy output function
, 0x2F2F204E4F5445533A204E6F7420737570706F7274656420666F72207468652041544D6567612D33323820415343494920696E746572666163652E -- // NOTES: Not supported for the ATMega-328 ASCII interface.
, 0x766F696420617364665F617263685F6E756C6C5F6F75747075742875696E74385F742076616C7565293B -- void asdf_arch_null_output(uint8_t value);
, 0x0 -- 
, 0x2F2F2050524F4345445552453A20617364665F617263685F6C6564315F736574 -- // PROCEDURE: asdf_arch_led1_set
, 0x2F2F20494E505554533A202875696E74385F74292076616C7565 -- // INPUTS: (uint8_t) value
, 0x2F2F204F5554505554533A206E6F6E65 -- // OUTPUTS: none
, 0x2F2F204445534352495054494F4E3A2049662076616C756520697320747275652C207475726E206F6E204C4544312E202049662076616C75652069732066616C73652C207475726E206F6666204C454431 -- // DESCRIPTION: If value is true, turn on LED1.  If value is false, turn off LED1
, 0x766F696420617364665F617263685F6C6564315F7365742875696E74385F742076616C7565293B -- void asdf_arch_led1_set(uint8_t value);
, 0x0 -- 
, 0x2F2F2050524F4345445552453A20617364665F617263685F6C6564325F736574 -- // PROCEDURE: asdf_arch_led2_set
, 0x2F2F20494E505554533A202875696E74385F74292076616C7565 -- // INPUTS: (uint8_t) value
, 0x2F2F204F5554505554533A206E6F6E65 -- // OUTPUTS: none
, 0x2F2F204445534352495054494F4E3A2049662076616C756520697320747275652C207475726E206F6E204C4544322E202049662076616C75652069732066616C73652C207475726E206F6666204C454432 -- // DESCRIPTION: If value is true, turn on LED2.  If value is false, turn off LED2
, 0x766F696420617364665F617263685F6C6564325F7365742875696E74385F742076616C7565293B -- void asdf_arch_led2_set(uint8_t value);
, 0x0 -- 
, 0x2F2F2050524F4345445552453A20617364665F617263685F6C6564335F736574 -- // PROCEDURE: asdf_arch_led3_set
, 0x2F2F20494E505554533A202875696E74385F74292076616C7565 -- // INPUTS: (uint8_t) value
, 0x2F2F204F5554505554533A206E6F6E65 -- // OUTPUTS: none
, 0x2F2F204445534352495054494F4E3A2049662076616C756520697320747275652C207475726E206F6E204C4544332E202049662076616C75652069732066616C73652C207475726E206F6666204C454433 -- // DESCRIPTION: If value is true, turn on LED3.  If value is false, turn off LED3
, 0x766F696420617364665F617263685F6C6564335F7365742875696E74385F742076616C7565293B -- void asdf_arch_led3_set(uint8_t value);
, 0x0 -- 
, 0x2F2F2050524F4345445552453A20617364665F617263685F6F7574315F736574 -- // PROCEDURE: asdf_arch_out1_set
, 0x2F2F20494E505554533A202875696E74385F74292076616C7565 -- // INPUTS: (uint8_t) value
, 0x2F2F204F5554505554533A206E6F6E65 -- // OUTPUTS: none
, 0x2F2F204445534352495054494F4E3A205365747320746865204F555431206269742069662076616C756520697320747275652C20616E6420636C656172204F5554312069662076616C75652069732066616C73652E -- // DESCRIPTION: Sets the OUT1 bit if value is true, and clear OUT1 if value is false.
, 0x766F696420617364665F617263685F6F7574315F7365742875696E74385F742076616C7565293B -- void asdf_arch_out1_set(uint8_t value);
, 0x0 -- 
, 0x2F2F2050524F4345445552453A20617364665F617263685F6F7574315F6F70656E5F68695F736574 -- // PROCEDURE: asdf_arch_out1_open_hi_set
, 0x2F2F20494E505554533A202875696E74385F74292076616C7565 -- // INPUTS: (uint8_t) value
, 0x2F2F204F5554505554533A206E6F6E65 -- // OUTPUTS: none
, 0x2F2F204445534352495054494F4E3A205365747320746865204F5554312062697420746F2068692D7A2069662076616C756520697320747275652C20616E64206C6F772069662076616C75652069732066616C73652E -- // DESCRIPTION: Sets the OUT1 bit to hi-z if value is true, and low if value is false.
, 0x766F696420617364665F617263685F6F7574315F6F70656E5F68695F7365742875696E74385F742076616C7565293B -- void asdf_arch_out1_open_hi_set(uint8_t value);
, 0x0 -- 
, 0x2F2F2050524F4345445552453A20617364665F617263685F6F7574315F6F70656E5F6C6F5F736574 -- // PROCEDURE: asdf_arch_out1_open_lo_set
, 0x2F2F20494E505554533A202875696E74385F74292076616C7565 -- // INPUTS: (uint8_t) value
, 0x2F2F204F5554505554533A206E6F6E65 -- // OUTPUTS: none
, 0x2F2F204445534352495054494F4E3A205365747320746865204F5554312062697420746F2068692D7A2069662076616C756520697320747275652C20616E64206C6F772069662076616C75652069732066616C73652E -- // DESCRIPTION: Sets the OUT1 bit to hi-z if value is true, and low if value is false.
, 0x766F696420617364665F617263685F6F7574315F6F70656E5F6C6F5F7365742875696E74385F742076616C7565293B -- void asdf_arch_out1_open_lo_set(uint8_t value);
, 0x0 -- 
, 0x2F2F2050524F4345445552453A20617364665F617263685F6F7574325F736574 -- // PROCEDURE: asdf_arch_out2_set
, 0x2F2F20494E505554533A202875696E74385F74292076616C7565 -- // INPUTS: (uint8_t) value
, 0x2F2F204F5554505554533A206E6F6E65 -- // OUTPUTS: none
, 0x2F2F204445534352495054494F4E3A205365747320746865204F555432206269742069662076616C756520697320747275652C20616E6420636C656172204F5554322069662076616C75652069732066616C73652E -- // DESCRIPTION: Sets the OUT2 bit if value is true, and clear OUT2 if value is false.
, 0x766F696420617364665F617263685F6F7574325F7365742875696E74385F742076616C7565293B -- void asdf_arch_out2_set(uint8_t value);
, 0x0 -- 
, 0x2F2F2050524F4345445552453A20617364665F617263685F6F7574325F6F70656E5F68695F736574 -- // PROCEDURE: asdf_arch_out2_open_hi_set
, 0x2F2F20494E505554533A202875696E74385F74292076616C7565 -- // INPUTS: (uint8_t) value
, 0x2F2F204F5554505554533A206E6F6E65 -- // OUTPUTS: none
, 0x2F2F204445534352495054494F4E3A205365747320746865204F5554322062697420746F2068692D7A2069662076616C756520697320747275652C20616E64206C6F772069662076616C75652069732066616C73652E -- // DESCRIPTION: Sets the OUT2 bit to hi-z if value is true, and low if value is false.
, 0x2F2F204E4F5445533A204E6F7420737570706F7274656420666F72207468652041544D6567612D33323820415343494920696E746572666163652E -- // NOTES: Not supported for the ATMega-328 ASCII interface.
, 0x766F696420617364665F617263685F6F7574325F6F70656E5F68695F7365742875696E74385F742076616C7565293B -- void asdf_arch_out2_open_hi_set(uint8_t value);
, 0x0 -- 
, 0x2F2F2050524F4345445552453A20617364665F617263685F6F7574325F6F70656E5F6C6F5F736574 -- // PROCEDURE: asdf_arch_out2_open_lo_set
, 0x2F2F20494E505554533A202875696E74385F74292076616C7565 -- // INPUTS: (uint8_t) value
, 0x2F2F204F5554505554533A206E6F6E65 -- // OUTPUTS: none
, 0x2F2F204445534352495054494F4E3A205365747320746865204F5554322062697420746F20686967682069662076616C756520697320747275652C20616E642068692D7A2069662076616C75652069732066616C73652E -- // DESCRIPTION: Sets the OUT2 bit to high if value is true, and hi-z if value is false.
, 0x766F696420617364665F617263685F6F7574325F6F70656E5F6C6F5F7365742875696E74385F742076616C7565293B -- void asdf_arch_out2_open_lo_set(uint8_t value);
, 0x0 -- 
, 0x2F2F2050524F4345445552453A20617364665F617263685F6F7574335F736574 -- // PROCEDURE: asdf_arch_out3_set
, 0x2F2F20494E505554533A202875696E74385F74292076616C7565 -- // INPUTS: (uint8_t) value
, 0x2F2F204F5554505554533A206E6F6E65 -- // OUTPUTS: none
, 0x2F2F204445534352495054494F4E3A205365747320746865204F555433206269742069662076616C756520697320747275652C20616E6420636C656172204F5554332069662076616C75652069732066616C73652E -- // DESCRIPTION: Sets the OUT3 bit if value is true, and clear OUT3 if value is false.
, 0x766F696420617364665F617263685F6F7574335F7365742875696E74385F742076616C7565293B -- void asdf_arch_out3_set(uint8_t value);
, 0x0 -- 
, 0x2F2F2050524F4345445552453A20617364665F617263685F6F7574335F6F70656E5F68695F736574 -- // PROCEDURE: asdf_arch_out3_open_hi_set
, 0x2F2F20494E505554533A202875696E74385F74292076616C7565 -- // INPUTS: (uint8_t) value
, 0x2F2F204F5554505554533A206E6F6E65 -- // OUTPUTS: none
, 0x2F2F204445534352495054494F4E3A205365747320746865204F5554332062697420746F2068692D7A2069662076616C756520697320747275652C20616E64206C6F772069662076616C75652069732066616C73652E -- // DESCRIPTION: Sets the OUT3 bit to hi-z if value is true, and low if value is false.
, 0x766F696420617364665F617263685F6F7574335F6F70656E5F68695F7365742875696E74385F742076616C7565293B -- void asdf_arch_out3_open_hi_set(uint8_t value);
, 0x0 -- 
, 0x2F2F2050524F4345445552453A20617364665F617263685F6F7574335F6F70656E5F6C6F5F736574 -- // PROCEDURE: asdf_arch_out3_open_lo_set
, 0x2F2F20494E505554533A202875696E74385F74292076616C7565 -- // INPUTS: (uint8_t) value
, 0x2F2F204F5554505554533A206E6F6E65 -- // OUTPUTS: none
, 0x2F2F204445534352495054494F4E3A205365747320746865204F5554332062697420746F2068692D7A2069662076616C756520697320747275652C20616E64206C6F772069662076616C75652069732066616C73652E -- // DESCRIPTION: Sets the OUT3 bit to hi-z if value is true, and low if value is false.
, 0x766F696420617364665F617263685F6F7574335F6F70656E5F6C6F5F7365742875696E74385F742076616C7565293B -- void asdf_arch_out3_open_lo_set(uint8_t value);
, 0x0 -- 
, 0x2F2F2050524F4345445552453A20617364665F617263685F726561645F726F77 -- // PROCEDURE: asdf_arch_read_row
, 0x2F2F20494E505554533A202875696E74385F742920726F773A2074686520726F77206E756D62657220746F206265207363616E6E6564 -- // INPUTS: (uint8_t) row: the row number to be scanned
, 0x2F2F204F5554505554533A2072657475726E73206120776F726420636F6E7461696E696E6720746865206163746976652028707265737365642920636F6C756D6E73 -- // OUTPUTS: returns a word containing the active (pressed) columns
, 0x2F2F204445534352495054494F4E3A204F7574707574732074686520617267756D656E7420746F2074686520524F5720706F72742C207468656E2072656164732074686520636F6C756D6E20706F7274 -- // DESCRIPTION: Outputs the argument to the ROW port, then reads the column port
, 0x2F2F20616E642072657475726E73207468652076616C75652E205468652076616C756520697320612062696E61727920726570726573656E746174696F6E206F6620746865206B657973 -- // and returns the value. The value is a binary representation of the keys
, 0x2F2F20707265737365642077697468696E2074686520726F772C207769746820313D707265737365642C20303D72656C65617365642E -- // pressed within the row, with 1=pressed, 0=released.
, 0x617364665F636F6C735F7420617364665F617263685F726561645F726F772875696E74385F7420726F77293B -- asdf_cols_t asdf_arch_read_row(uint8_t row);
, 0x0 -- 
, 0x2F2F2050524F4345445552453A20617364665F617263685F70756C73655F64656C61795F73686F7274 -- // PROCEDURE: asdf_arch_pulse_delay_short
, 0x2F2F20494E505554533A206E6F6E65 -- // INPUTS: none
, 0x2F2F204F5554505554533A206E6F6E65 -- // OUTPUTS: none
, 0x2F2F204445534352495054494F4E3A2044656C617973206120666978656420616D6F756E74206F662074696D6520666F72206B6579626F617264206F75747075742070756C73657320737065636966696564206279 -- // DESCRIPTION: Delays a fixed amount of time for keyboard output pulses specified by
, 0x2F2F20415344465F50554C53455F44454C41595F53484F52545F5553 -- // ASDF_PULSE_DELAY_SHORT_US
, 0x766F696420617364665F617263685F70756C73655F64656C61795F73686F727428766F6964293B -- void asdf_arch_pulse_delay_short(void);
, 0x0 -- 
, 0x0 -- 
, 0x2F2F2050524F4345445552453A20617364665F617263685F70756C73655F64656C61795F6C6F6E67 -- // PROCEDURE: asdf_arch_pulse_delay_long
, 0x2F2F20494E505554533A206E6F6E65 -- // INPUTS: none
, 0x2F2F204F5554505554533A206E6F6E65 -- // OUTPUTS: none
, 0x2F2F204445534352495054494F4E3A2044656C617973206120666978656420616D6F756E74206F662074696D6520666F72206B6579626F617264206F75747075742070756C73657320737065636966696564206279 -- // DESCRIPTION: Delays a fixed amount of time for keyboard output pulses specified by
, 0x2F2F20415344465F50554C53455F44454C41595F4C4F4E475F4D53 -- // ASDF_PULSE_DELAY_LONG_MS
, 0x766F696420617364665F617263685F70756C73655F64656C61795F6C6F6E6728766F6964293B -- void asdf_arch_pulse_delay_long(void);
, 0x0 -- 
, 0x2F2F2050524F4345445552453A20617364665F617263685F64656C61795F6D73 -- // PROCEDURE: asdf_arch_delay_ms
, 0x2F2F20494E505554533A202875696E743136292064656C61795F6D73202D207468652064656C617920696E206D7365632E -- // INPUTS: (uint16) delay_ms - the delay in msec.
, 0x2F2F204F5554505554533A206E6F6E65 -- // OUTPUTS: none
, 0x2F2F204445534352495054494F4E3A2044656C617973206120737065636966696564206E756D626572206F66206D696C6C697365636F6E6473 -- // DESCRIPTION: Delays a specified number of milliseconds
, 0x766F696420617364665F617263685F64656C61795F6D732875696E7431365F742064656C61795F6D73293B -- void asdf_arch_delay_ms(uint16_t delay_ms);
, 0x0 -- 
, 0x2F2F2050524F4345445552453A20617364665F617263685F7469636B -- // PROCEDURE: asdf_arch_tick
, 0x2F2F20494E505554533A206E6F6E65 -- // INPUTS: none
, 0x2F2F204F5554505554533A2072657475726E73206120312069662074686520316D732074696D65722074696D6564206F75742C2030206F7468657277697365 -- // OUTPUTS: returns a 1 if the 1ms timer timed out, 0 otherwise
, 0x75696E74385F7420617364665F617263685F7469636B28766F6964293B -- uint8_t asdf_arch_tick(void);
, 0x0 -- 
, 0x2F2F2050524F4345445552453A20617364665F617263685F73656E645F636F6465 -- // PROCEDURE: asdf_arch_send_code
, 0x2F2F20494E505554533A20286B6579636F64655F742920636F6465202D2074686520636F646520746F206265206F757470757420627920746865206B6579626F617264 -- // INPUTS: (keycode_t) code - the code to be output by the keyboard
, 0x2F2F204F5554505554533A206E6F6E65 -- // OUTPUTS: none
, 0x2F2F204445534352495054494F4E3A2054616B657320612063686172616374657220636F646520616E64206F7574707574732074686520636F6465206F6E206120706172616C6C656C204153434949 -- // DESCRIPTION: Takes a character code and outputs the code on a parallel ASCII
, 0x2F2F20706F72742C20776974682061207374726F62652E205468697320726F7574696E6520636F756C64206265207265706C61636564207769746820554152542C204932432C205553422C206F72 -- // port, with a strobe. This routine could be replaced with UART, I2C, USB, or
, 0x2F2F206F74686572206F7574707574206D656368616E69736D2C206F6620636F757273652E -- // other output mechanism, of course.
, 0x766F696420617364665F617263685F73656E645F636F646528617364665F6B6579636F64655F7420636F6465293B -- void asdf_arch_send_code(asdf_keycode_t code);
, 0x0 -- 
, 0x2F2F2050524F4345445552453A20617364665F617263685F696E6974 -- // PROCEDURE: asdf_arch_init
, 0x2F2F20494E505554533A206E6F6E65 -- // INPUTS: none
, 0x2F2F204F5554505554533A206E6F6E65 -- // OUTPUTS: none
, 0x2F2F204445534352495054494F4E3A207365747320757020616C6C2074686520686172647761726520666F7220746865206B6579626F617264 -- // DESCRIPTION: sets up all the hardware for the keyboard
, 0x766F696420617364665F617263685F696E697428766F6964293B -- void asdf_arch_init(void);
, 0x0 -- 
, 0x23656E646966202F2A2021646566696E65642028415344465F415243485F4829202A2F -- #endif /* !defined (ASDF_ARCH_H) */
, 0x0 -- 
, 0x2F2F2D2D2D2D2D2D2D7C2D2D2D2D2D2D2D2D2D7C2D2D2D2D2D2D2D2D2D2B2D2D2D2D2D2D2D2D2D2B2D2D2D2D2D2D2D2D2D2B2D2D2D2D2D2D2D2D2D2B2D2D2D2D2D2D2D2D2D2B2D2D2D2D2D2D2D2D2D2B -- //-------|---------|---------+---------+---------+---------+---------+---------+
, 0x2F2F2041626F7665206C696E6520697320383020636F6C756D6E732C20616E642073686F756C6420646973706C617920636F6D706C6574656C7920696E2074686520656469746F722E -- // Above line is 80 columns, and should display completely in the editor.
  ]

/-- /repo/firmware/asdf/src/Arch/asdf_arch_atmega328p.c, lines 1-838. -/
def asdf_arch_atmega328p_c : List Nat := [
  0x2F2F202D2A2D206D6F64653A20433B207461622D77696474683A2032203B20696E64656E742D746162732D6D6F64653A206E696C202D2A2D -- // -*- mode: C; tab-width: 2 ; indent-tabs-mode: nil -*-
, 0x2F2F -- //
, 0x2F2F20556E666966696564204B6579626F6172642050726F6A656374 -- // Unfified Keyboard Project
, 0x2F2F2041534446206B6579626F617264206669726D77617265 -- // ASDF keyboard firmware
, 0x2F2F -- //
, 0x2F2F20617364665F617263682E63 -- // asdf_arch.c
, 0x2F2F -- //
, 0x2F2F20546869732066696C6520636F6E7461696E7320616C6C207468652061726368697465637475726520646570656E64656E7420636F64652C20696E636C7564696E67207265676973746572 -- // This file contains all the architecture dependent code, including register
, 0x2F2F2073657475702C20492F4F2C2074696D6572732C206574632E -- // setup, I/O, timers, etc.
, 0x2F2F -- //
, 0x2F2F20436F7079726967687420323031392044617669642046656E796573 -- // Copyright 2019 David Fenyes
, 0x2F2F -- //
, 0x2F2F20546869732070726F6772616D206973206672656520736F6674776172653A20796F752063616E2072656469737472696275746520697420616E642F6F72206D6F6469667920697420756E646572 -- // This program is free software: you can redistribute it and/or modify it under
, 0x2F2F20746865207465726D73206F662074686520474E552047656E6572616C205075626C6963204C6963656E7365206173207075626C697368656420627920746865204672656520536F667477617265 -- // the terms of the GNU General Public License as published by the Free Software
, 0x2F2F20466F756E646174696F6E2C206569746865722076657273696F6E2033206F6620746865204C6963656E73652C206F722028617420796F7572206F7074696F6E2920616E79206C61746572 -- // Foundation, either version 3 of the License, or (at your option) any later
, 0x2F2F2076657273696F6E2E -- // version.
, 0x2F2F -- //
, 0x2F2F20546869732070726F6772616D20697320646973747269627574656420696E2074686520686F706520746861742069742077696C6C2062652075736566756C2C2062757420574954484F5554 -- // This program is distributed in the hope that it will be useful, but WITHOUT
, 0x2F2F20414E592057415252414E54593B20776974686F7574206576656E2074686520696D706C6965642077617272616E7479206F66204D45524348414E544142494C495459206F72204649544E455353 -- // ANY WARRANTY; without even the implied warranty of MERCHANTABILITY or FITNESS
, 0x2F2F20464F52204120504152544943554C415220505552504F53452E205365652074686520474E552047656E6572616C205075626C6963204C6963656E736520666F72206D6F7265 -- // FOR A PARTICULAR PURPOSE. See the GNU General Public License for more
, 0x2F2F2064657461696C732E -- // details.
, 0x2F2F -- //
, 0x2F2F20596F752073686F756C642068617665207265636569766564206120636F7079206F662074686520474E552047656E6572616C205075626C6963204C6963656E736520616C6F6E672077697468 -- // You should have received a copy of the GNU General Public License along with
, 0x2F2F20746869732070726F6772616D2E204966206E6F742C20736565203C68747470733A2F2F7777772E676E752E6F72672F6C6963656E7365732F3E2E -- // this program. If not, see <https://www.gnu.org/licenses/>.
, 0x0 -- 
, 0x0 -- 
, 0x2F2F20576972696E6720496E666F726D6174696F6E3A -- // Wiring Information:
, 0x2F2F20436869703A207B4D6963726F636F6E74726F6C6C6572207479706520616E642076657273696F6E7D -- // Chip: {Microcontroller type and version}
, 0x2F2F -- //
, 0x2F2F204578616D706C653A -- // Example:
, 0x2F2F2050494E202020202020202020204E414D4520202020202046554E4354494F4E -- // PIN          NAME      FUNCTION
, 0x2F2F2031342D31392C392C3130202020504F5254422020202020434F4C554D4E20696E70757473202831206269742070657220636F6C756D6E29 -- // 14-19,9,10   PORTB     COLUMN inputs (1 bit per column)
, 0x2F2F2032332D32352020202020202020504F525443302D322020524F57206F7574707574732028726F77206E756D62657229 -- // 23-25        PORTC0-2  ROW outputs (row number)
, 0x2F2F2032372020202020202020202020504F52544334 -- // 27           PORTC4
, 0x0 -- 
, 0x23696E636C7564652022617364665F617263682E6822 -- #include "asdf_arch.h"
, 0x0 -- 
, 0x23696E636C756465203C6176722F696F2E683E -- #include <avr/io.h>
, 0x23696E636C756465203C6176722F696E746572727570742E683E -- #include <avr/interrupt.h>
, 0x23696E636C756465203C7574696C2F64656C61792E683E -- #include <util/delay.h>
, 0x23696E636C756465203C737464696E742E683E -- #include <stdint.h>
, 0x23696E636C7564652022617364662E6822 -- #include "asdf.h"
, 0x23696E636C7564652022617364665F636F6E6669672E6822 -- #include "asdf_config.h"
, 0x0 -- 
, 0x73746174696320766F6C6174696C652075696E74385F74207469636B203D20303B -- static volatile uint8_t tick = 0;
, 0x0 -- 
, 0x7374617469632075696E74385F7420646174615F706F6C6172697479203D20415344465F44454641554C545F444154415F504F4C41524954593B -- static uint8_t data_polarity = ASDF_DEFAULT_DATA_POLARITY;
, 0x0 -- 
, 0x0 -- 
, 0x2F2F2050524F4345445552453A2049535220666F722054696D65722030206F766572666C6F77 -- // PROCEDURE: ISR for Timer 0 overflow
, 0x2F2F20494E505554533A206E6F6E65 -- // INPUTS: none
, 0x2F2F204F5554505554533A6E6F6E65 -- // OUTPUTS:none
, 0x2F2F -- //
, 0x2F2F204445534352495054494F4E3A204F63637572732065766572792031206D732E2020536574207469636B20666C61672C206B69636B207761746368646F672E -- // DESCRIPTION: Occurs every 1 ms.  Set tick flag, kick watchdog.
, 0x2F2F -- //
, 0x2F2F205349444520454646454354533A -- // SIDE EFFECTS:
, 0x2F2F -- //
, 0x2F2F204E4F5445533A -- // NOTES:
, 0x2F2F -- //
, 0x2F2F2053434F50453A -- // SCOPE:
, 0x2F2F -- //
, 0x2F2F20434F4D504C45584954593A -- // COMPLEXITY:
, 0x2F2F -- //
, 0x4953522854494D4552305F434F4D50415F7665637429 -- ISR(TIMER0_COMPA_vect)
, 0x7B -- {
, 0x20207469636B203D20313B --   tick = 1;
, 0x7D -- }
, 0x0 -- 
, 0x2F2F2050524F4345445552453A207365745F626974 -- // PROCEDURE: set_bit
, 0x2F2F20494E505554533A20706F72743A20706F696E74657220746F2061202875696E74382920706F7274 -- // INPUTS: port: pointer to a (uint8) port
, 0x2F2F2020202020202020206269743A2062697420706F736974696F6E20746F20626520736574 -- //         bit: bit position to be set
, 0x2F2F204F5554505554533A206E6F6E65 -- // OUTPUTS: none
, 0x2F2F -- //
, 0x2F2F204445534352495054494F4E3A2047697665206120706F7274206164647265737320616E642062697420706F736974696F6E2C20736574207468652062697420706F736974696F6E2E -- // DESCRIPTION: Give a port address and bit position, set the bit position.
, 0x2F2F -- //
, 0x2F2F205349444520454646454354533A20536565204445534352495054494F4E -- // SIDE EFFECTS: See DESCRIPTION
, 0x2F2F -- //
, 0x2F2F204E4F5445533A204465636C6172656420696E6C696E652E2057696C6C206F6E6C7920626520696E6C696E656420666F722066756E6374696F6E7320696E2074686973206D6F64756C652C20736F -- // NOTES: Declared inline. Will only be inlined for functions in this module, so
, 0x2F2F20616C736F206465636C61726564207374617469632E -- // also declared static.
, 0x2F2F -- //
, 0x2F2F2053434F50453A2070726976617465 -- // SCOPE: private
, 0x2F2F -- //
, 0x2F2F20434F4D504C45584954593A2031 -- // COMPLEXITY: 1
, 0x2F2F -- //
, 0x73746174696320696E6C696E6520766F6964207365745F62697428766F6C6174696C652075696E74385F74202A706F72742C2075696E74385F742062697429 -- static inline void set_bit(volatile uint8_t *port, uint8_t bit)
, 0x7B -- {
, 0x20202A706F7274207C3D202831203C3C20626974293B --   *port |= (1 << bit);
, 0x7D -- }
, 0x0 -- 
, 0x2F2F2050524F4345445552453A20636C6561725F626974 -- // PROCEDURE: clear_bit
, 0x2F2F20494E505554533A20706F72743A20706F696E74657220746F2061202875696E74382920706F7274 -- // INPUTS: port: pointer to a (uint8) port
, 0x2F2F2020202020202020206269743A2062697420706F736974696F6E20746F20626520636C6561726564 -- //         bit: bit position to be cleared
, 0x2F2F204F5554505554533A206E6F6E65 -- // OUTPUTS: none
, 0x2F2F -- //
, 0x2F2F204445534352495054494F4E3A2047697665206120706F7274206164647265737320616E642062697420706F736974696F6E2C20636C656172207468652062697420706F736974696F6E2E -- // DESCRIPTION: Give a port address and bit position, clear the bit position.
, 0x2F2F -- //
, 0x2F2F205349444520454646454354533A20536565204445534352495054494F4E -- // SIDE EFFECTS: See DESCRIPTION
, 0x2F2F -- //
, 0x2F2F204E4F5445533A204465636C6172656420696E6C696E652E2057696C6C206F6E6C7920626520696E6C696E656420666F722066756E6374696F6E7320696E2074686973206D6F64756C652C20736F -- // NOTES: Declared inline. Will only be inlined for functions in this module, so
, 0x2F2F20616C736F206465636C61726564207374617469632E -- // also declared static.
, 0x2F2F -- //
, 0x2F2F2053434F50453A2070726976617465 -- // SCOPE: private
, 0x2F2F -- //
, 0x2F2F20434F4D504C45584954593A2031 -- // COMPLEXITY: 1
, 0x2F2F -- //
, 0x73746174696320696E6C696E6520766F696420636C6561725F62697428766F6C6174696C652075696E74385F74202A706F72742C2075696E74385F742062697429 -- static inline void clear_bit(volatile uint8_t *port, uint8_t bit)
, 0x7B -- {
, 0x20202A706F727420263D207E2831203C3C20626974293B --   *port &= ~(1 << bit);
, 0x7D -- }
, 0x0 -- 
, 0x2F2F2050524F4345445552453A20617263685F74696D6572305F636F6E666967 -- // PROCEDURE: arch_timer0_config
, 0x2F2F -- //
, 0x2F2F20494E505554533A20626974733A206120342062797465206669656C6420636F6E7461696E696E672074686520636F6E66696775726174696F6E2076616C75657320666F7220746865 -- // INPUTS: bits: a 4 byte field containing the configuration values for the
, 0x2F2F20382D6269742074696D657230204120616E64204220636F6E74726F6C207265676973746572732C20616E642074686520696E74657272757074206D61736B2072656769737465722E -- // 8-bit timer0 A and B control registers, and the interrupt mask register.
, 0x2F2F -- //
, 0x2F2F204F5554505554533A206E6F6E65 -- // OUTPUTS: none
, 0x2F2F -- //
, 0x2F2F204445534352495054494F4E3A2054616B65732061203420627974652076616C756520776974682073657474696E677320666F7220616C6C2074686520636F6E74726F6C -- // DESCRIPTION: Takes a 4 byte value with settings for all the control
, 0x2F2F2072656769737465727320666F722074686520382D62697420636F756E7465722F74696D6572202874696D65722030292C20616E6420777269746573207468656D20616C6C -- // registers for the 8-bit counter/timer (timer 0), and writes them all
, 0x2F2F20746F207468652072657370656374697665207265676973746572732E -- // to the respective registers.
, 0x2F2F -- //
, 0x2F2F205349444520454646454354533A207365652061626F7665 -- // SIDE EFFECTS: see above
, 0x2F2F -- //
, 0x2F2F204E4F5445533A2053657474696E6720616C6C20746865206269747320746F6765746865722C20616E642077726974696E6720616C6C20746865207265676973746572732066726F6D2061 -- // NOTES: Setting all the bits together, and writing all the registers from a
, 0x2F2F2073696E676C6520776F7264207065726D697473206D6F726520636C65617220696E697469616C697A6174696F6E206F6620636F6E74726F6C206669656C6473207468617420617265 -- // single word permits more clear initialization of control fields that are
, 0x2F2F20737072656164206163726F7373206D6F7265207468616E206F6E6520776F72642E -- // spread across more than one word.
, 0x2F2F -- //
, 0x2F2F20434F4D504C45584954593A2031 -- // COMPLEXITY: 1
, 0x2F2F -- //
, 0x2F2F2053434F50453A2070726976617465 -- // SCOPE: private
, 0x2F2F -- //
, 0x73746174696320766F696420617263685F74696D6572305F636F6E6669672875696E7433325F74206269747329 -- static void arch_timer0_config(uint32_t bits)
, 0x7B -- {
, 0x2020544343523042203D20303B202F2F206669727374207475726E206F66662074696D65722E --   TCCR0B = 0; // first turn off timer.
, 0x2020544343523041203D202862697473203E3E20544D5230415F504F5329202620307866663B --   TCCR0A = (bits >> TMR0A_POS) & 0xff;
, 0x202054494D534B30203D202862697473203E3E20544D5230494D534B5F504F5329202620307866663B --   TIMSK0 = (bits >> TMR0IMSK_POS) & 0xff;
, 0x2020544343523042203D202862697473203E3E20544D5230425F504F5329202620307866663B202F2F2053657420746865206D6F64652028616E64207475726E206F6E2074696D657229206C617374 --   TCCR0B = (bits >> TMR0B_POS) & 0xff; // Set the mode (and turn on timer) last
, 0x7D -- }
, 0x0 -- 
, 0x2F2F2050524F4345445552453A20617263685F7469636B5F74696D65725F696E6974 -- // PROCEDURE: arch_tick_timer_init
, 0x2F2F20494E505554533A206E6F6E65 -- // INPUTS: none
, 0x2F2F204F5554505554533A206E6F6E65 -- // OUTPUTS: none
, 0x2F2F -- //
, 0x2F2F204445534352495054494F4E3A205365747320757020316D73207469636B2074696D65722E -- // DESCRIPTION: Sets up 1ms tick timer.
, 0x2F2F -- //
, 0x2F2F205349444520454646454354533A -- // SIDE EFFECTS:
, 0x2F2F -- //
, 0x2F2F204E4F5445533A205365742075702054696D6572203020696E20435443206D6F646520666F722031206D73206F766572666C6F772E -- // NOTES: Set up Timer 0 in CTC mode for 1 ms overflow.
, 0x2F2F -- //
, 0x2F2F2053434F50453A2070726976617465 -- // SCOPE: private
, 0x2F2F -- //
, 0x2F2F20434F4D504C45584954593A2031 -- // COMPLEXITY: 1
, 0x2F2F -- //
, 0x73746174696320766F696420617364665F617263685F7469636B5F74696D65725F696E697428766F696429 -- static void asdf_arch_tick_timer_init(void)
, 0x7B -- {
, 0x20207469636B203D20303B --   tick = 0;
, 0x0 -- 
, 0x20202F2F2073657420636F6D706172652072656769737465722066697273742C20736F2074696D65722063616E206F70657261746520636F72726563746C7920617320736F6F6E206173206974206973 --   // set compare register first, so timer can operate correctly as soon as it is
, 0x20202F2F20656E61626C65642E --   // enabled.
, 0x20204F43523041203D205449434B5F434F554E543B --   OCR0A = TICK_COUNT;
, 0x0 -- 
, 0x20202F2F206F70657261746520696E20435443206D6F646520746F206F766572666C6F772061742065786163746C792031206D73 --   // operate in CTC mode to overflow at exactly 1 ms
, 0x20202F2F207072657363616C6572203D20363420616E64206F757470757420636F6D706172652076616C756520697320323530 --   // prescaler = 64 and output compare value is 250
, 0x2020617263685F74696D6572305F636F6E6669672854494D4552305F57464D5F435443207C2054494D4552305F4449563634207C2054494D4552305F494E545F4F4E5F434F4D41293B --   arch_timer0_config(TIMER0_WFM_CTC | TIMER0_DIV64 | TIMER0_INT_ON_COMA);
, 0x7D -- }
, 0x0 -- 
, 0x2F2F2050524F4345445552453A20617364665F617263685F7469636B -- // PROCEDURE: asdf_arch_tick
, 0x2F2F20494E505554533A206E6F6E65 -- // INPUTS: none
, 0x2F2F204F5554505554533A2072657475726E73206120312069662074686520316D732074696D65722074696D6564206F75742C2030206F7468657277697365 -- // OUTPUTS: returns a 1 if the 1ms timer timed out, 0 otherwise
, 0x2F2F -- //
, 0x2F2F204445534352495054494F4E3A20536565204F7574707574732E -- // DESCRIPTION: See Outputs.
, 0x2F2F -- //
, 0x2F2F205349444520454646454354533A205A65726F6573206F7574207468652031206D732074696D657220666C61672E -- // SIDE EFFECTS: Zeroes out the 1 ms timer flag.
, 0x2F2F -- //
, 0x2F2F204E4F5445533A -- // NOTES:
, 0x2F2F -- //
, 0x2F2F2053434F50453A207075626C6963 -- // SCOPE: public
, 0x2F2F -- //
, 0x2F2F20434F4D504C45584954593A2031 -- // COMPLEXITY: 1
, 0x2F2F -- //
, 0x75696E74385F7420617364665F617263685F7469636B28766F696429 -- uint8_t asdf_arch_tick(void)
, 0x7B -- {
, 0x202075696E74385F742072657476616C203D207469636B3B --   uint8_t retval = tick;
, 0x20207469636B203D20303B --   tick = 0;
, 0x202072657475726E2072657476616C3B --   return retval;
, 0x7D -- }
, 0x0 -- 
, 0x2F2F2050524F4345445552453A20617364665F617263685F696E69745F74696D657273 -- // PROCEDURE: asdf_arch_init_timers
, 0x2F2F20494E505554533A206E6F6E65 -- // INPUTS: none
, 0x2F2F204F5554505554533A206E6F6E65 -- // OUTPUTS: none
, 0x2F2F -- //
, 0x2F2F204445534352495054494F4E3A20536574732075702074696D657220666F722031206D7320696E74657276616C73 -- // DESCRIPTION: Sets up timer for 1 ms intervals
, 0x2F2F -- //
, 0x2F2F205349444520454646454354533A20536565204445534352495054494F4E -- // SIDE EFFECTS: See DESCRIPTION
, 0x2F2F -- //
, 0x2F2F2053434F50453A2070726976617465 -- // SCOPE: private
, 0x2F2F -- //
, 0x2F2F20434F4D504C45584954593A2031 -- // COMPLEXITY: 1
, 0x2F2F -- //
, 0x73746174696320766F696420617364665F617263685F696E69745F636C6F636B28766F696429 -- static void asdf_arch_init_clock(void)
, 0x7B -- {
, 0x2020434C4B5052203D2028434C4B504345207C20535953434C4B5F44495631293B --   CLKPR = (CLKPCE | SYSCLK_DIV1);
, 0x7D -- }
, 0x0 -- 
, 0x2F2F2050524F4345445552453A20617364665F617263685F696E69745F6F757470757473 -- // PROCEDURE: asdf_arch_init_outputs
, 0x2F2F20494E505554533A206E6F6E65 -- // INPUTS: none
, 0x2F2F204F5554505554533A206E6F6E65 -- // OUTPUTS: none
, 0x2F2F -- //
, 0x2F2F204445534352495054494F4E3A20496E697469616C697A6520616C6C204C454420706F727473206173206F7574707574732E2056616C75657320617265206E6F742073657420686572652E -- // DESCRIPTION: Initialize all LED ports as outputs. Values are not set here.
, 0x2F2F2054686579206172652073657420627920746865206B65796D617020636F6465 -- // They are set by the keymap code
, 0x2F2F -- //
, 0x2F2F205349444520454646454354533A20536565204445534352495054494F4E -- // SIDE EFFECTS: See DESCRIPTION
, 0x2F2F -- //
, 0x2F2F2053434F50453A2070726976617465 -- // SCOPE: private
, 0x2F2F -- //
, 0x2F2F20434F4D504C45584954593A2031 -- // COMPLEXITY: 1
, 0x2F2F -- //
, 0x73746174696320766F696420617364665F617263685F696E69745F6C65647328766F696429 -- static void asdf_arch_init_leds(void)
, 0x7B -- {
, 0x20207365745F6269742826415344465F4C4544315F4444522C20415344465F4C4544315F424954293B --   set_bit(&ASDF_LED1_DDR, ASDF_LED1_BIT);
, 0x20207365745F6269742826415344465F4C4544325F4444522C20415344465F4C4544325F424954293B --   set_bit(&ASDF_LED2_DDR, ASDF_LED2_BIT);
, 0x20207365745F6269742826415344465F4C4544335F4444522C20415344465F4C4544335F424954293B --   set_bit(&ASDF_LED3_DDR, ASDF_LED3_BIT);
, 0x7D -- }
, 0x0 -- 
, 0x0 -- 
, 0x2F2F2050524F4345445552453A20617364665F617263685F6C6564315F736574 -- // PROCEDURE: asdf_arch_led1_set
, 0x2F2F20494E505554533A202875696E74385F74292076616C7565 -- // INPUTS: (uint8_t) value
, 0x2F2F204F5554505554533A206E6F6E65 -- // OUTPUTS: none
, 0x2F2F -- //
, 0x2F2F204445534352495054494F4E3A2049662076616C756520697320747275652C207475726E206F6E204C4544312E202049662076616C75652069732066616C73652C207475726E206F6666204C454431 -- // DESCRIPTION: If value is true, turn on LED1.  If value is false, turn off LED1
, 0x2F2F -- //
, 0x2F2F205349444520454646454354533A205365652061626F76652E -- // SIDE EFFECTS: See above.
, 0x2F2F -- //
, 0x2F2F204E4F5445533A20546865204C45443120706F72742064726976657320746865204C4544206469726563746C792062792070756C6C696E672074686520636174686F6465206C6F772C20736F -- // NOTES: The LED1 port drives the LED directly by pulling the cathode low, so
, 0x2F2F20636C656172696E672074686520626974207475726E7320746865204C4544206F6E2E -- // clearing the bit turns the LED on.
, 0x2F2F -- //
, 0x2F2F2053434F50453A207075626C6963 -- // SCOPE: public
, 0x2F2F -- //
, 0x2F2F20434F4D504C45584954593A2032 -- // COMPLEXITY: 2
, 0x2F2F -- //
, 0x766F696420617364665F617263685F6C6564315F7365742875696E74385F742076616C756529 -- void asdf_arch_led1_set(uint8_t value)
, 0x7B -- {
, 0x20206966202876616C756529207B --   if (value) {
, 0x20202020636C6561725F6269742826415344465F4C4544315F504F52542C20415344465F4C4544315F424954293B --     clear_bit(&ASDF_LED1_PORT, ASDF_LED1_BIT);
, 0x20207D --   }
, 0x2020656C7365207B --   else {
, 0x202020207365745F6269742826415344465F4C4544315F504F52542C20415344465F4C4544315F424954293B --     set_bit(&ASDF_LED1_PORT, ASDF_LED1_BIT);
, 0x20207D --   }
, 0x7D -- }
, 0x0 -- 
, 0x2F2F2050524F4345445552453A20617364665F617263685F6C6564325F736574 -- // PROCEDURE: asdf_arch_led2_set
, 0x2F2F20494E505554533A202875696E74385F74292076616C7565 -- // INPUTS: (uint8_t) value
, 0x2F2F204F5554505554533A206E6F6E65 -- // OUTPUTS: none
, 0x2F2F -- //
, 0x2F2F204445534352495054494F4E3A2049662076616C756520697320747275652C207475726E206F6E204C4544322E202049662076616C75652069732066616C73652C207475726E206F6666204C454432 -- // DESCRIPTION: If value is true, turn on LED2.  If value is false, turn off LED2
, 0x2F2F -- //
, 0x2F2F205349444520454646454354533A205365652061626F76652E -- // SIDE EFFECTS: See above.
, 0x2F2F -- //
, 0x2F2F204E4F5445533A20546865204C454432206F75747075742064726976657320746865204C45442076696120616E20696E766572746572206275666665722C20736F20612068696768 -- // NOTES: The LED2 output drives the LED via an inverter buffer, so a high
, 0x2F2F206F75747075742070756C6C7320746865204C454420636174686F6465206C6F772C206C69676874696E6720746865204C45442E -- // output pulls the LED cathode low, lighting the LED.
, 0x2F2F -- //
, 0x2F2F2053434F50453A207075626C6963 -- // SCOPE: public
, 0x2F2F -- //
, 0x2F2F20434F4D504C45584954593A2032 -- // COMPLEXITY: 2
, 0x2F2F -- //
, 0x766F696420617364665F617263685F6C6564325F7365742875696E74385F742076616C756529 -- void asdf_arch_led2_set(uint8_t value)
, 0x7B -- {
, 0x20206966202876616C756529207B --   if (value) {
, 0x202020207365745F6269742826415344465F4C4544325F504F52542C20415344465F4C4544325F424954293B --     set_bit(&ASDF_LED2_PORT, ASDF_LED2_BIT);
, 0x20207D --   }
, 0x2020656C7365207B --   else {
, 0x20202020636C6561725F6269742826415344465F4C4544325F504F52542C20415344465F4C4544325F424954293B --     clear_bit(&ASDF_LED2_PORT, ASDF_LED2_BIT);
, 0x20207D --   }
, 0x7D -- }
, 0x0 -- 
, 0x2F2F2050524F4345445552453A20617364665F617263685F6C6564335F736574 -- // PROCEDURE: asdf_arch_led3_set
, 0x2F2F20494E505554533A202875696E74385F74292076616C7565 -- // INPUTS: (uint8_t) value
, 0x2F2F204F5554505554533A206E6F6E65 -- // OUTPUTS: none
, 0x2F2F -- //
, 0x2F2F204445534352495054494F4E3A2049662076616C756520697320747275652C207475726E206F6E204C4544332E202049662076616C75652069732066616C73652C207475726E206F6666204C454433 -- // DESCRIPTION: If value is true, turn on LED3.  If value is false, turn off LED3
, 0x2F2F -- //
, 0x2F2F205349444520454646454354533A205365652061626F76652E -- // SIDE EFFECTS: See above.
, 0x2F2F -- //
, 0x2F2F204E4F5445533A20546865204C454433206F75747075742064726976657320746865204C45442076696120616E20696E766572746572206275666665722C20736F20612068696768 -- // NOTES: The LED3 output drives the LED via an inverter buffer, so a high
, 0x2F2F206F75747075742070756C6C7320746865204C454420636174686F6465206C6F772C206C69676874696E6720746865204C45442E -- // output pulls the LED cathode low, lighting the LED.
, 0x2F2F -- //
, 0x2F2F2053434F50453A207075626C6963 -- // SCOPE: public
, 0x2F2F -- //
, 0x2F2F20434F4D504C45584954593A2032 -- // COMPLEXITY: 2
, 0x2F2F -- //
, 0x766F696420617364665F617263685F6C6564335F7365742875696E74385F742076616C756529 -- void asdf_arch_led3_set(uint8_t value)
, 0x7B -- {
, 0x20206966202876616C756529207B --   if (value) {
, 0x202020207365745F6269742826415344465F4C4544335F504F52542C20415344465F4C4544335F424954293B --     set_bit(&ASDF_LED3_PORT, ASDF_LED3_BIT);
, 0x20207D --   }
, 0x2020656C7365207B --   else {
, 0x20202020636C6561725F6269742826415344465F4C4544335F504F52542C20415344465F4C4544335F424954293B --     clear_bit(&ASDF_LED3_PORT, ASDF_LED3_BIT);
, 0x20207D --   }
, 0x7D -- }
, 0x0 -- 
, 0x2F2F2050524F4345445552453A20617364665F617263685F6F7574315F736574 -- // PROCEDURE: asdf_arch_out1_set
, 0x2F2F20494E505554533A202875696E74385F74292076616C7565 -- // INPUTS: (uint8_t) value
, 0x2F2F204F5554505554533A206E6F6E65 -- // OUTPUTS: none
, 0x2F2F -- //
, 0x2F2F204445534352495054494F4E3A205365747320746865204F555431206269742069662076616C756520697320747275652C20616E6420636C656172204F5554312069662076616C75652069732066616C73652E -- // DESCRIPTION: Sets the OUT1 bit if value is true, and clear OUT1 if value is false.
, 0x2F2F -- //
, 0x2F2F205349444520454646454354533A205365652061626F76652E -- // SIDE EFFECTS: See above.
, 0x2F2F -- //
, 0x2F2F204E4F5445533A -- // NOTES:
, 0x2F2F -- //
, 0x2F2F2053434F50453A207075626C6963 -- // SCOPE: public
, 0x2F2F -- //
, 0x2F2F20434F4D504C45584954593A2032 -- // COMPLEXITY: 2
, 0x2F2F -- //
, 0x766F696420617364665F617263685F6F7574315F7365742875696E74385F742076616C756529 -- void asdf_arch_out1_set(uint8_t value)
, 0x7B -- {
, 0x20206966202876616C756529207B --   if (value) {
, 0x202020207365745F6269742826415344465F4F5554315F504F52542C20415344465F4F5554315F424954293B --     set_bit(&ASDF_OUT1_PORT, ASDF_OUT1_BIT);
, 0x20207D --   }
, 0x2020656C7365207B --   else {
, 0x20202020636C6561725F6269742826415344465F4F5554315F504F52542C20415344465F4F5554315F424954293B --     clear_bit(&ASDF_OUT1_PORT, ASDF_OUT1_BIT);
, 0x20207D --   }
, 0x20207365745F6269742826415344465F4F5554315F4444522C20415344465F4F5554315F424954293B --   set_bit(&ASDF_OUT1_DDR, ASDF_OUT1_BIT);
, 0x7D -- }
, 0x0 -- 
, 0x2F2F2050524F4345445552453A20617364665F617263685F6F7574315F6F70656E5F68695F736574 -- // PROCEDURE: asdf_arch_out1_open_hi_set
, 0x2F2F20494E505554533A202875696E74385F74292076616C7565 -- // INPUTS: (uint8_t) value
, 0x2F2F204F5554505554533A206E6F6E65 -- // OUTPUTS: none
, 0x2F2F -- //
, 0x2F2F204445534352495054494F4E3A205365747320746865204F5554312062697420746F2068692D7A2069662076616C756520697320747275652C20616E64206C6F772069662076616C75652069732066616C73652E -- // DESCRIPTION: Sets the OUT1 bit to hi-z if value is true, and low if value is false.
, 0x2F2F -- //
, 0x2F2F205349444520454646454354533A205365652061626F76652E -- // SIDE EFFECTS: See above.
, 0x2F2F -- //
, 0x2F2F204E4F5445533A -- // NOTES:
, 0x2F2F -- //
, 0x2F2F2053434F50453A207075626C6963 -- // SCOPE: public
, 0x2F2F -- //
, 0x2F2F20434F4D504C45584954593A2032 -- // COMPLEXITY: 2
, 0x2F2F -- //
, 0x766F696420617364665F617263685F6F7574315F6F70656E5F68695F7365742875696E74385F742076616C756529 -- void asdf_arch_out1_open_hi_set(uint8_t value)
, 0x7B -- {
, 0x20206966202876616C756529207B --   if (value) {
, 0x20202020636C6561725F6269742826415344465F4F5554315F4444522C20415344465F4F5554315F424954293B --     clear_bit(&ASDF_OUT1_DDR, ASDF_OUT1_BIT);
, 0x202020207365745F6269742826415344465F4F5554315F504F52542C20415344465F4F5554315F424954293B --     set_bit(&ASDF_OUT1_PORT, ASDF_OUT1_BIT);
, 0x20207D --   }
, 0x2020656C7365207B --   else {
, 0x20202020636C6561725F6269742826415344465F4F5554315F504F52542C20415344465F4F5554315F424954293B --     clear_bit(&ASDF_OUT1_PORT, ASDF_OUT1_BIT);
, 0x202020207365745F6269742826415344465F4F5554315F4444522C20415344465F4F5554315F424954293B --     set_bit(&ASDF_OUT1_DDR, ASDF_OUT1_BIT);
, 0x20207D --   }
, 0x7D -- }
, 0x0 -- 
, 0x2F2F2050524F4345445552453A20617364665F617263685F6F7574315F6F70656E5F6C6F5F736574 -- // PROCEDURE: asdf_arch_out1_open_lo_set
, 0x2F2F20494E505554533A202875696E74385F74292076616C7565 -- // INPUTS: (uint8_t) value
, 0x2F2F204F5554505554533A206E6F6E65 -- // OUTPUTS: none
, 0x2F2F -- //
, 0x2F2F204445534352495054494F4E3A205365747320746865204F5554312062697420746F20686967682069662076616C756520697320747275652C20616E642068692D7A2069662076616C75652069732066616C73652E -- // DESCRIPTION: Sets the OUT1 bit to high if value is true, and hi-z if value is false.
, 0x2F2F -- //
, 0x2F2F205349444520454646454354533A205365652061626F76652E -- // SIDE EFFECTS: See above.
, 0x2F2F -- //
, 0x2F2F204E4F5445533A -- // NOTES:
, 0x2F2F -- //
, 0x2F2F2053434F50453A207075626C6963 -- // SCOPE: public
, 0x2F2F -- //
, 0x2F2F20434F4D504C45584954593A2032 -- // COMPLEXITY: 2
, 0x2F2F -- //
, 0x766F696420617364665F617263685F6F7574315F6F70656E5F6C6F5F7365742875696E74385F742076616C756529 -- void asdf_arch_out1_open_lo_set(uint8_t value)
, 0x7B -- {
, 0x20206966202876616C756529207B --   if (value) {
, 0x202020207365745F6269742826415344465F4F5554315F504F52542C20415344465F4F5554315F424954293B --     set_bit(&ASDF_OUT1_PORT, ASDF_OUT1_BIT);
, 0x202020207365745F6269742826415344465F4F5554315F4444522C20415344465F4F5554315F424954293B --     set_bit(&ASDF_OUT1_DDR, ASDF_OUT1_BIT);
, 0x20207D --   }
, 0x2020656C7365207B --   else {
, 0x20202020636C6561725F6269742826415344465F4F5554315F4444522C20415344465F4F5554315F424954293B --     clear_bit(&ASDF_OUT1_DDR, ASDF_OUT1_BIT);
, 0x20202020636C6561725F6269742826415344465F4F5554315F504F52542C20415344465F4F5554315F424954293B --     clear_bit(&ASDF_OUT1_PORT, ASDF_OUT1_BIT);
, 0x20207D --   }
, 0x7D -- }
, 0x0 -- 
, 0x2F2F2050524F4345445552453A20617364665F617263685F6F7574325F736574 -- // PROCEDURE: asdf_arch_out2_set
, 0x2F2F20494E505554533A202875696E74385F74292076616C7565 -- // INPUTS: (uint8_t) value
, 0x2F2F204F5554505554533A206E6F6E65 -- // OUTPUTS: none
, 0x2F2F -- //
, 0x2F2F204445534352495054494F4E3A205365747320746865204F555432206269742069662076616C756520697320747275652C20616E6420636C656172204F5554322069662076616C75652069732066616C73652E -- // DESCRIPTION: Sets the OUT2 bit if value is true, and clear OUT2 if value is false.
, 0x2F2F -- //
, 0x2F2F205349444520454646454354533A205365652061626F76652E -- // SIDE EFFECTS: See above.
, 0x2F2F -- //
, 0x2F2F204E4F5445533A204F55543220697320696E766572746564206279207468652037343034206275666665722C20736F20636C656172696E672074686520626974207365747320746865206F757470757420686967682E20204F555432 -- // NOTES: OUT2 is inverted by the 7404 buffer, so clearing the bit sets the output high.  OUT2
, 0x2F2F2063616E6E6F74206265206869676820696D706564616E63652E -- // cannot be high impedance.
, 0x2F2F -- //
, 0x2F2F2053434F50453A207075626C6963 -- // SCOPE: public
, 0x2F2F -- //
, 0x2F2F20434F4D504C45584954593A2032 -- // COMPLEXITY: 2
, 0x2F2F -- //
, 0x766F696420617364665F617263685F6F7574325F7365742875696E74385F742076616C756529 -- void asdf_arch_out2_set(uint8_t value)
, 0x7B -- {
, 0x20206966202876616C756529207B --   if (value) {
, 0x20202020636C6561725F6269742826415344465F4F5554325F504F52542C20415344465F4F5554325F424954293B --     clear_bit(&ASDF_OUT2_PORT, ASDF_OUT2_BIT);
, 0x20207D --   }
, 0x2020656C7365207B --   else {
, 0x202020207365745F6269742826415344465F4F5554325F504F52542C20415344465F4F5554325F424954293B --     set_bit(&ASDF_OUT2_PORT, ASDF_OUT2_BIT);
, 0x20207D --   }
, 0x20207365745F6269742826415344465F4F5554325F4444522C20415344465F4F5554325F424954293B --   set_bit(&ASDF_OUT2_DDR, ASDF_OUT2_BIT);
, 0x7D -- }
, 0x0 -- 
, 0x2F2F2050524F4345445552453A20617364665F617263685F6E756C6C5F6F7574707574 -- // PROCEDURE: asdf_arch_null_output
, 0x2F2F20494E505554533A202875696E74385F74292076616C7565202D2069676E6F726564 -- // INPUTS: (uint8_t) value - ignored
, 0x2F2F204F5554505554533A206E6F6E65 -- // OUTPUTS: none
, 0x2F2F -- //
, 0x2F2F204445534352495054494F4E3A20446F6573206E6F7468696E672E -- // DESCRIPTION: Does nothing.
, 0x2F2F -- //
, 0x2F2F205349444520454646454354533A205365652061626F76652E -- // SIDE EFFECTS: See above.
, 0x2F2F -- //
, 0x2F2F204E4F5445533A -- // NOTES:
, 0x2F2F -- //
, 0x2F2F2053434F50453A207075626C6963 -- // SCOPE: public
, 0x2F2F -- //
, 0x2F2F20434F4D504C45584954593A2032 -- // COMPLEXITY: 2
, 0x2F2F -- //
, 0x766F696420617364665F617263685F6E756C6C5F6F75747075742875696E74385F742076616C756529 -- void asdf_arch_null_output(uint8_t value)
, 0x7B -- {
, 0x202028766F6964292076616C75653B --   (void) value;
, 0x7D -- }
, 0x0 -- 
, 0x2F2F2050524F4345445552453A20617364665F617263685F6F7574325F6F70656E5F68695F736574 -- // PROCEDURE: asdf_arch_out2_open_hi_set
, 0x2F2F20494E505554533A202875696E74385F74292076616C7565 -- // INPUTS: (uint8_t) value
, 0x2F2F204F5554505554533A206E6F6E65 -- // OUTPUTS: none
, 0x2F2F -- //
, 0x2F2F204445534352495054494F4E3A205365747320746865204F5554322062697420746F2068692D7A2069662076616C756520697320747275652C20616E64206C6F772069662076616C75652069732066616C73652E -- // DESCRIPTION: Sets the OUT2 bit to hi-z if value is true, and low if value is false.
, 0x2F2F -- //
, 0x2F2F205349444520454646454354533A205365652061626F76652E -- // SIDE EFFECTS: See above.
, 0x2F2F -- //
, 0x2F2F204E4F5445533A204E6F7420737570706F7274656420666F72207468652041544D6567612D33323820415343494920696E746572666163652E -- // NOTES: Not supported for the ATMega-328 ASCII interface.
, 0x2F2F -- //
, 0x2F2F2053434F50453A207075626C6963 -- // SCOPE: public
, 0x2F2F -- //
, 0x2F2F20434F4D504C45584954593A2032 -- // COMPLEXITY: 2
, 0x2F2F -- //
, 0x766F696420617364665F617263685F6F7574325F6F70656E5F68695F7365742875696E74385F742076616C756529 -- void asdf_arch_out2_open_hi_set(uint8_t value)
, 0x7B -- {
, 0x2020617364665F617263685F6E756C6C5F6F75747075742876616C7565293B --   asdf_arch_null_output(value);
, 0x7D -- }
, 0x0 -- 
, 0x2F2F2050524F4345445552453A20617364665F617263685F6F7574325F6F70656E5F6C6F5F736574 -- // PROCEDURE: asdf_arch_out2_open_lo_set
, 0x2F2F20494E505554533A202875696E74385F74292076616C7565 -- // INPUTS: (uint8_t) value
, 0x2F2F204F5554505554533A206E6F6E65 -- // OUTPUTS: none
, 0x2F2F -- //
, 0x2F2F204445534352495054494F4E3A205365747320746865204F5554322062697420746F20686967682069662076616C756520697320747275652C20616E642068692D7A2069662076616C75652069732066616C73652E -- // DESCRIPTION: Sets the OUT2 bit to high if value is true, and hi-z if value is false.
, 0x2F2F -- //
, 0x2F2F205349444520454646454354533A205365652061626F76652E -- // SIDE EFFECTS: See above.
, 0x2F2F -- //
, 0x2F2F204E4F5445533A204E6F7420737570706F7274656420666F72207468652041544D6567612D33323820415343494920696E746572666163652E -- // NOTES: Not supported for the ATMega-328 ASCII interface.
, 0x2F2F -- //
, 0x2F2F2053434F50453A207075626C6963 -- // SCOPE: public
, 0x2F2F -- //
, 0x2F2F20434F4D504C45584954593A2032 -- // COMPLEXITY: 2
, 0x2F2F -- //
, 0x766F696420617364665F617263685F6F7574325F6F70656E5F6C6F5F7365742875696E74385F742076616C756529 -- void asdf_arch_out2_open_lo_set(uint8_t value)
, 0x7B -- {
, 0x2020617364665F617263685F6E756C6C5F6F75747075742876616C7565293B --   asdf_arch_null_output(value);
, 0x7D -- }
, 0x0 -- 
, 0x2F2F2050524F4345445552453A20617364665F617263685F6F7574335F736574 -- // PROCEDURE: asdf_arch_out3_set
, 0x2F2F20494E505554533A202875696E74385F74292076616C7565 -- // INPUTS: (uint8_t) value
, 0x2F2F204F5554505554533A206E6F6E65 -- // OUTPUTS: none
, 0x2F2F -- //
, 0x2F2F204445534352495054494F4E3A205365747320746865204F555433206269742069662076616C756520697320747275652C20616E6420636C656172204F5554332069662076616C75652069732066616C73652E -- // DESCRIPTION: Sets the OUT3 bit if value is true, and clear OUT3 if value is false.
, 0x2F2F -- //
, 0x2F2F205349444520454646454354533A205365652061626F76652E -- // SIDE EFFECTS: See above.
, 0x2F2F -- //
, 0x2F2F204E4F5445533A -- // NOTES:
, 0x2F2F -- //
, 0x2F2F2053434F50453A207075626C6963 -- // SCOPE: public
, 0x2F2F -- //
, 0x2F2F20434F4D504C45584954593A2032 -- // COMPLEXITY: 2
, 0x2F2F -- //
, 0x766F696420617364665F617263685F6F7574335F7365742875696E74385F742076616C756529 -- void asdf_arch_out3_set(uint8_t value)
, 0x7B -- {
, 0x20206966202876616C756529207B --   if (value) {
, 0x202020207365745F6269742826415344465F4F5554335F504F52542C20415344465F4F5554335F424954293B --     set_bit(&ASDF_OUT3_PORT, ASDF_OUT3_BIT);
, 0x20207D --   }
, 0x2020656C7365207B --   else {
, 0x20202020636C6561725F6269742826415344465F4F5554335F504F52542C20415344465F4F5554335F424954293B --     clear_bit(&ASDF_OUT3_PORT, ASDF_OUT3_BIT);
, 0x20207D --   }
, 0x20207365745F6269742826415344465F4F5554335F4444522C20415344465F4F5554335F424954293B --   set_bit(&ASDF_OUT3_DDR, ASDF_OUT3_BIT);
, 0x7D -- }
, 0x0 -- 
, 0x2F2F2050524F4345445552453A20617364665F617263685F6F7574335F6F70656E5F68695F736574 -- // PROCEDURE: asdf_arch_out3_open_hi_set
, 0x2F2F20494E505554533A202875696E74385F74292076616C7565 -- // INPUTS: (uint8_t) value
, 0x2F2F204F5554505554533A206E6F6E65 -- // OUTPUTS: none
, 0x2F2F -- //
, 0x2F2F204445534352495054494F4E3A205365747320746865204F5554332062697420746F2068692D7A2069662076616C756520697320747275652C20616E64206C6F772069662076616C75652069732066616C73652E -- // DESCRIPTION: Sets the OUT3 bit to hi-z if value is true, and low if value is false.
, 0x2F2F -- //
, 0x2F2F205349444520454646454354533A205365652061626F76652E -- // SIDE EFFECTS: See above.
, 0x2F2F -- //
, 0x2F2F204E4F5445533A -- // NOTES:
, 0x2F2F -- //
, 0x2F2F2053434F50453A207075626C6963 -- // SCOPE: public
, 0x2F2F -- //
, 0x2F2F20434F4D504C45584954593A2032 -- // COMPLEXITY: 2
, 0x2F2F -- //
, 0x766F696420617364665F617263685F6F7574335F6F70656E5F68695F7365742875696E74385F742076616C756529 -- void asdf_arch_out3_open_hi_set(uint8_t value)
, 0x7B -- {
, 0x20206966202876616C756529207B --   if (value) {
, 0x20202020636C6561725F6269742826415344465F4F5554335F4444522C20415344465F4F5554335F424954293B --     clear_bit(&ASDF_OUT3_DDR, ASDF_OUT3_BIT);
, 0x202020207365745F6269742826415344465F4F5554335F504F52542C20415344465F4F5554335F424954293B --     set_bit(&ASDF_OUT3_PORT, ASDF_OUT3_BIT);
, 0x20207D --   }
, 0x2020656C7365207B --   else {
, 0x20202020636C6561725F6269742826415344465F4F5554335F504F52542C20415344465F4F5554335F424954293B --     clear_bit(&ASDF_OUT3_PORT, ASDF_OUT3_BIT);
, 0x202020207365745F6269742826415344465F4F5554335F4444522C20415344465F4F5554335F424954293B --     set_bit(&ASDF_OUT3_DDR, ASDF_OUT3_BIT);
, 0x20207D --   }
, 0x7D -- }
, 0x0 -- 
, 0x2F2F2050524F4345445552453A20617364665F617263685F6F7574335F6F70656E5F6C6F5F736574 -- // PROCEDURE: asdf_arch_out3_open_lo_set
, 0x2F2F20494E505554533A202875696E74385F74292076616C7565 -- // INPUTS: (uint8_t) value
, 0x2F2F204F5554505554533A206E6F6E65 -- // OUTPUTS: none
, 0x2F2F -- //
, 0x2F2F204445534352495054494F4E3A205365747320746865204F5554332062697420746F20686967682069662076616C756520697320747275652C20616E642068692D7A2069662076616C75652069732066616C73652E -- // DESCRIPTION: Sets the OUT3 bit to high if value is true, and hi-z if value is false.
, 0x2F2F -- //
, 0x2F2F205349444520454646454354533A205365652061626F76652E -- // SIDE EFFECTS: See above.
, 0x2F2F -- //
, 0x2F2F204E4F5445533A -- // NOTES:
, 0x2F2F -- //
, 0x2F2F2053434F50453A207075626C6963 -- // SCOPE: public
, 0x2F2F -- //
, 0x2F2F20434F4D504C45584954593A2032 -- // COMPLEXITY: 2
, 0x2F2F -- //
, 0x766F696420617364665F617263685F6F7574335F6F70656E5F6C6F5F7365742875696E74385F742076616C756529 -- void asdf_arch_out3_open_lo_set(uint8_t value)
, 0x7B -- {
, 0x20206966202876616C756529207B --   if (value) {
, 0x202020207365745F6269742826415344465F4F5554335F504F52542C20415344465F4F5554335F424954293B --     set_bit(&ASDF_OUT3_PORT, ASDF_OUT3_BIT);
, 0x202020207365745F6269742826415344465F4F5554335F4444522C20415344465F4F5554335F424954293B --     set_bit(&ASDF_OUT3_DDR, ASDF_OUT3_BIT);
, 0x20207D --   }
, 0x2020656C7365207B --   else {
, 0x20202020636C6561725F6269742826415344465F4F5554335F4444522C20415344465F4F5554335F424954293B --     clear_bit(&ASDF_OUT3_DDR, ASDF_OUT3_BIT);
, 0x20202020636C6561725F6269742826415344465F4F5554335F504F52542C20415344465F4F5554335F424954293B --     clear_bit(&ASDF_OUT3_PORT, ASDF_OUT3_BIT);
, 0x20207D --   }
, 0x7D -- }
, 0x0 -- 
, 0x2F2F2050524F4345445552453A20617364665F617263685F706F735F7374726F6265 -- // PROCEDURE: asdf_arch_pos_strobe
, 0x2F2F20494E505554533A206E6F6E65 -- // INPUTS: none
, 0x2F2F204F5554505554533A206E6F6E65 -- // OUTPUTS: none
, 0x2F2F -- //
, 0x2F2F204445534352495054494F4E3A20496E697469616C697A65207374726F6265206F757470757420746F20706F73697469766520706F6C61726974792E20496E697469616C207374617465206973 -- // DESCRIPTION: Initialize strobe output to positive polarity. Initial state is
, 0x2F2F204C4F57 -- // LOW
, 0x2F2F -- //
, 0x2F2F205349444520454646454354533A20536565204445534352495054494F4E -- // SIDE EFFECTS: See DESCRIPTION
, 0x2F2F -- //
, 0x2F2F2053434F50453A207075626C6963 -- // SCOPE: public
, 0x2F2F -- //
, 0x2F2F20434F4D504C45584954593A2031 -- // COMPLEXITY: 1
, 0x2F2F -- //
, 0x766F696420617364665F617263685F7365745F706F735F7374726F626528766F696429 -- void asdf_arch_set_pos_strobe(void)
, 0x7B -- {
, 0x2020636C6561725F6269742826415344465F5354524F42455F504F52542C20415344465F5354524F42455F424954293B --   clear_bit(&ASDF_STROBE_PORT, ASDF_STROBE_BIT);
, 0x20207365745F6269742826415344465F5354524F42455F4444522C20415344465F5354524F42455F424954293B --   set_bit(&ASDF_STROBE_DDR, ASDF_STROBE_BIT);
, 0x7D -- }
, 0x0 -- 
, 0x2F2F2050524F4345445552453A20617364665F617263685F6E65675F7374726F6265 -- // PROCEDURE: asdf_arch_neg_strobe
, 0x2F2F20494E505554533A206E6F6E65 -- // INPUTS: none
, 0x2F2F204F5554505554533A206E6F6E65 -- // OUTPUTS: none
, 0x2F2F -- //
, 0x2F2F204445534352495054494F4E3A20496E697469616C697A65207374726F6265206F7574707574 -- // DESCRIPTION: Initialize strobe output
, 0x2F2F -- //
, 0x2F2F205349444520454646454354533A20536565204445534352495054494F4E -- // SIDE EFFECTS: See DESCRIPTION
, 0x2F2F -- //
, 0x2F2F2053434F50453A2070726976617465 -- // SCOPE: private
, 0x2F2F -- //
, 0x2F2F20434F4D504C45584954593A2031 -- // COMPLEXITY: 1
, 0x2F2F -- //
, 0x766F696420617364665F617263685F7365745F6E65675F7374726F626528766F696429 -- void asdf_arch_set_neg_strobe(void)
, 0x7B -- {
, 0x20207365745F6269742826415344465F5354524F42455F504F52542C20415344465F5354524F42455F424954293B --   set_bit(&ASDF_STROBE_PORT, ASDF_STROBE_BIT);
, 0x20207365745F6269742826415344465F5354524F42455F4444522C20415344465F5354524F42455F424954293B --   set_bit(&ASDF_STROBE_DDR, ASDF_STROBE_BIT);
, 0x7D -- }
, 0x0 -- 
, 0x2F2F2050524F4345445552453A20617364665F617263685F696E69745F61736369695F6F7574707574 -- // PROCEDURE: asdf_arch_init_ascii_output
, 0x2F2F20494E505554533A206E6F6E65 -- // INPUTS: none
, 0x2F2F204F5554505554533A206E6F6E65 -- // OUTPUTS: none
, 0x2F2F -- //
, 0x2F2F204445534352495054494F4E3A2053657473207570206F757470757420706F727420666F72204153434949206F7574707574 -- // DESCRIPTION: Sets up output port for ASCII output
, 0x2F2F -- //
, 0x2F2F205349444520454646454354533A20536565204445534352495054494F4E -- // SIDE EFFECTS: See DESCRIPTION
, 0x2F2F -- //
, 0x2F2F2053434F50453A2070726976617465 -- // SCOPE: private
, 0x2F2F -- //
, 0x2F2F20434F4D504C45584954593A2031 -- // COMPLEXITY: 1
, 0x2F2F -- //
, 0x73746174696320766F696420617364665F617263685F696E69745F61736369695F6F757470757428766F696429 -- static void asdf_arch_init_ascii_output(void)
, 0x7B -- {
, 0x0 -- 
, 0x20202F2F2073657420616C6C206F757470757473 --   // set all outputs
, 0x2020415344465F41534349495F504F5254203D20646174615F706F6C61726974793B --   ASDF_ASCII_PORT = data_polarity;
, 0x2020415344465F41534349495F444452203D20414C4C5F4F5554505554533B --   ASDF_ASCII_DDR = ALL_OUTPUTS;
, 0x7D -- }
, 0x0 -- 
, 0x2F2F2050524F4345445552453A20617364665F617263685F696E69745F636F6C756D6E5F696E70757473 -- // PROCEDURE: asdf_arch_init_column_inputs
, 0x2F2F20494E505554533A206E6F6E65 -- // INPUTS: none
, 0x2F2F204F5554505554533A206E6F6E65 -- // OUTPUTS: none
, 0x2F2F -- //
, 0x2F2F204445534352495054494F4E3A20636F6E6669677572652074686520736869667420726567697374657220636F6E74726F6C206C696E65732E20546865204D4F444520636F6E74726F6C206973 -- // DESCRIPTION: configure the shift register control lines. The MODE control is
, 0x2F2F204C4F5720666F7220736869667420616E64204849474820666F72206C6F61642E20205368696674206F72204C6F6164206F6363757273207768656E20434C4B20676F657320686967682E -- // LOW for shift and HIGH for load.  Shift or Load occurs when CLK goes high.
, 0x2F2F -- //
, 0x2F2F205349444520454646454354533A20436F6E74 -- // SIDE EFFECTS: Cont
, 0x2F2F -- //
, 0x2F2F2053434F50453A2070726976617465 -- // SCOPE: private
, 0x2F2F -- //
, 0x2F2F20434F4D504C45584954593A2031 -- // COMPLEXITY: 1
, 0x2F2F -- //
, 0x73746174696320766F696420617364665F617263685F696E69745F636F6C756D6E5F636F6E74726F6C28766F696429 -- static void asdf_arch_init_column_control(void)
, 0x7B -- {
, 0x0 -- 
, 0x20202F2F20434F4C434C4B206973206F757470757420616E6420696E697469616C697A6564204C4F57 --   // COLCLK is output and initialized LOW
, 0x2020636C6561725F6269742826415344465F434F4C434C4B5F504F52542C20415344465F434F4C434C4B5F424954293B --   clear_bit(&ASDF_COLCLK_PORT, ASDF_COLCLK_BIT);
, 0x20207365745F6269742826415344465F434F4C434C4B5F4444522C20415344465F434F4C434C4B5F424954293B --   set_bit(&ASDF_COLCLK_DDR, ASDF_COLCLK_BIT);
, 0x0 -- 
, 0x20202F2F20434F4C4D4F4445206973206F757470757420616E6420696E697469616C697A65642048494748 --   // COLMODE is output and initialized HIGH
, 0x20207365745F6269742826415344465F434F4C4D4F44455F504F52542C20415344465F434F4C4D4F44455F424954293B --   set_bit(&ASDF_COLMODE_PORT, ASDF_COLMODE_BIT);
, 0x20207365745F6269742826415344465F434F4C4D4F44455F4444522C20415344465F434F4C4D4F44455F424954293B --   set_bit(&ASDF_COLMODE_DDR, ASDF_COLMODE_BIT);
, 0x0 -- 
, 0x20202F2F20434F4C20697320696E7075742C206E6F207765616B2070756C6C75702E --   // COL is input, no weak pullup.
, 0x2020636C6561725F6269742826415344465F434F4C5F4444522C20415344465F434F4C5F424954293B --   clear_bit(&ASDF_COL_DDR, ASDF_COL_BIT);
, 0x2020636C6561725F6269742826415344465F434F4C5F504F52542C20415344465F434F4C5F424954293B --   clear_bit(&ASDF_COL_PORT, ASDF_COL_BIT);
, 0x7D -- }
, 0x0 -- 
, 0x2F2F2050524F4345445552453A20617364665F617263685F696E69745F726F775F6F757470757473 -- // PROCEDURE: asdf_arch_init_row_outputs
, 0x2F2F20494E505554533A206E6F6E65 -- // INPUTS: none
, 0x2F2F204F5554505554533A206E6F6E65 -- // OUTPUTS: none
, 0x2F2F -- //
, 0x2F2F204445534352495054494F4E3A2053657473207570206F757470757420706F727420746F206C61746368206B6579626F617264206D617472697820726F7720666F72207363616E6E696E672E -- // DESCRIPTION: Sets up output port to latch keyboard matrix row for scanning.
, 0x2F2F -- //
, 0x2F2F205349444520454646454354533A20536565204445534352495054494F4E -- // SIDE EFFECTS: See DESCRIPTION
, 0x2F2F -- //
, 0x2F2F2053434F50453A2070726976617465 -- // SCOPE: private
, 0x2F2F -- //
, 0x2F2F20434F4D504C45584954593A2031 -- // COMPLEXITY: 1
, 0x2F2F -- //
, 0x73746174696320766F696420617364665F617263685F696E69745F726F775F6F75747075747328766F696429 -- static void asdf_arch_init_row_outputs(void)
, 0x7B -- {
, 0x2020415344465F524F575F504F525420263D207E415344465F524F575F4D41534B3B --   ASDF_ROW_PORT &= ~ASDF_ROW_MASK;
, 0x2020415344465F524F575F444452207C3D20415344465F524F575F4D41534B3B --   ASDF_ROW_DDR |= ASDF_ROW_MASK;
, 0x7D -- }
, 0x0 -- 
, 0x2F2F2050524F4345445552453A20617364665F617263685F70756C73655F64656C61795F73686F7274 -- // PROCEDURE: asdf_arch_pulse_delay_short
, 0x2F2F20494E505554533A206E6F6E65 -- // INPUTS: none
, 0x2F2F204F5554505554533A206E6F6E65 -- // OUTPUTS: none
, 0x2F2F -- //
, 0x2F2F204445534352495054494F4E3A2044656C617973206120666978656420616D6F756E74206F662074696D6520666F72206B6579626F617264206F75747075742070756C7365732073706563696669656420627920415344465F50554C53455F44454C41595F53484F52545F5553 -- // DESCRIPTION: Delays a fixed amount of time for keyboard output pulses specified by ASDF_PULSE_DELAY_SHORT_US
, 0x2F2F -- //
, 0x2F2F205349444520454646454354533A207365652061626F76652E -- // SIDE EFFECTS: see above.
, 0x2F2F -- //
, 0x2F2F204E4F5445533A2053657420415344465F50554C53455F44454C41595F555320696E20617364665F636F6E6669672E68 -- // NOTES: Set ASDF_PULSE_DELAY_US in asdf_config.h
, 0x2F2F -- //
, 0x2F2F2053434F50453A207075626C6963 -- // SCOPE: public
, 0x2F2F -- //
, 0x2F2F20434F4D504C45584954593A2031 -- // COMPLEXITY: 1
, 0x2F2F -- //
, 0x766F696420617364665F617263685F70756C73655F64656C61795F73686F727428766F696429 -- void asdf_arch_pulse_delay_short(void)
, 0x7B -- {
, 0x20205F64656C61795F757328415344465F50554C53455F44454C41595F53484F52545F5553293B --   _delay_us(ASDF_PULSE_DELAY_SHORT_US);
, 0x7D -- }
, 0x0 -- 
, 0x2F2F2050524F4345445552453A20617364665F617263685F70756C73655F64656C61795F6C6F6E67 -- // PROCEDURE: asdf_arch_pulse_delay_long
, 0x2F2F20494E505554533A206E6F6E65 -- // INPUTS: none
, 0x2F2F204F5554505554533A206E6F6E65 -- // OUTPUTS: none
, 0x2F2F -- //
, 0x2F2F204445534352495054494F4E3A2044656C617973206120666978656420616D6F756E74206F662074696D6520666F72206B6579626F617264206F75747075742070756C7365732073706563696669656420627920415344465F50554C53455F44454C41595F4C4F4E475F4D53 -- // DESCRIPTION: Delays a fixed amount of time for keyboard output pulses specified by ASDF_PULSE_DELAY_LONG_MS
, 0x2F2F -- //
, 0x2F2F205349444520454646454354533A207365652061626F76652E -- // SIDE EFFECTS: see above.
, 0x2F2F -- //
, 0x2F2F204E4F5445533A2053657420415344465F50554C53455F44454C41595F555320696E20617364665F636F6E6669672E68 -- // NOTES: Set ASDF_PULSE_DELAY_US in asdf_config.h
, 0x2F2F -- //
, 0x2F2F2053434F50453A207075626C6963 -- // SCOPE: public
, 0x2F2F -- //
, 0x2F2F20434F4D504C45584954593A2031 -- // COMPLEXITY: 1
, 0x2F2F -- //
, 0x766F696420617364665F617263685F70756C73655F64656C61795F6C6F6E6728766F696429 -- void asdf_arch_pulse_delay_long(void)
, 0x7B -- {
, 0x20205F64656C61795F6D7328415344465F50554C53455F44454C41595F4C4F4E475F4D53293B --   _delay_ms(ASDF_PULSE_DELAY_LONG_MS);
, 0x7D -- }
, 0x0 -- 
, 0x2F2F2050524F4345445552453A20617364665F617263685F64656C61795F6D73 -- // PROCEDURE: asdf_arch_delay_ms
, 0x2F2F20494E505554533A202875696E743136292064656C61795F6D73202D207468652064656C617920696E206D7365632E -- // INPUTS: (uint16) delay_ms - the delay in msec.
, 0x2F2F204F5554505554533A206E6F6E65 -- // OUTPUTS: none
, 0x2F2F -- //
, 0x2F2F204445534352495054494F4E3A2044656C617973206120737065636966696564206E756D626572206F66206D696C6C697365636F6E6473 -- // DESCRIPTION: Delays a specified number of milliseconds
, 0x2F2F -- //
, 0x2F2F205349444520454646454354533A207365652061626F76652E -- // SIDE EFFECTS: see above.
, 0x2F2F -- //
, 0x2F2F2053434F50453A207075626C6963 -- // SCOPE: public
, 0x2F2F -- //
, 0x2F2F20434F4D504C45584954593A2031 -- // COMPLEXITY: 1
, 0x2F2F -- //
, 0x766F696420617364665F617263685F64656C61795F6D732875696E7431365F742064656C61795F6D7329 -- void asdf_arch_delay_ms(uint16_t delay_ms)
, 0x7B -- {
, 0x2020666F72202875696E7431365F7420693D303B2069203C2064656C61795F6D733B20692B2B29207B --   for (uint16_t i=0; i < delay_ms; i++) {
, 0x202020205F64656C61795F6D732831293B --     _delay_ms(1);
, 0x20207D --   }
, 0x7D -- }
, 0x0 -- 
, 0x2F2F2050524F4345445552453A20617364665F617263685F696E6974 -- // PROCEDURE: asdf_arch_init
, 0x2F2F20494E505554533A206E6F6E65 -- // INPUTS: none
, 0x2F2F204F5554505554533A206E6F6E65 -- // OUTPUTS: none
, 0x2F2F -- //
, 0x2F2F204445534352495054494F4E3A207365747320757020616C6C2074686520686172647761726520666F7220746865206B6579626F617264 -- // DESCRIPTION: sets up all the hardware for the keyboard
, 0x2F2F -- //
, 0x2F2F205349444520454646454354533A20736565204445534352495054494F4E -- // SIDE EFFECTS: see DESCRIPTION
, 0x2F2F -- //
, 0x2F2F2053434F50453A207075626C6963 -- // SCOPE: public
, 0x2F2F -- //
, 0x2F2F20434F4D504C45584954593A2031 -- // COMPLEXITY: 1
, 0x2F2F -- //
, 0x766F696420617364665F617263685F696E697428766F696429 -- void asdf_arch_init(void)
, 0x7B -- {
, 0x20202F2F2064697361626C6520696E74657272757074733A --   // disable interrupts:
, 0x2020636C6928293B --   cli();
, 0x0 -- 
, 0x20202F2F20636C6561722074686520316D732074696D657220666C61673B --   // clear the 1ms timer flag;
, 0x20207469636B203D20303B --   tick = 0;
, 0x0 -- 
, 0x20202F2F207365742075702074696D65727320666F722031206D73656320696E74657276616C73 --   // set up timers for 1 msec intervals
, 0x2020617364665F617263685F696E69745F636C6F636B28293B --   asdf_arch_init_clock();
, 0x2020617364665F617263685F7469636B5F74696D65725F696E697428293B --   asdf_arch_tick_timer_init();
, 0x0 -- 
, 0x20202F2F20736574207570204153434949206F757470757420706F7274 --   // set up ASCII output port
, 0x2020617364665F617263685F696E69745F61736369695F6F757470757428293B --   asdf_arch_init_ascii_output();
, 0x0 -- 
, 0x20202F2F20696E697469616C697A65206B6579626F617264206461746120706F6C617269747920616E64207374726F626520706F6C6172697479 --   // initialize keyboard data polarity and strobe polarity
, 0x2020646174615F706F6C6172697479203D20415344465F44454641554C545F444154415F504F4C41524954593B --   data_polarity = ASDF_DEFAULT_DATA_POLARITY;
, 0x0 -- 
, 0x202069662028415344465F44454641554C545F5354524F42455F504F4C4152495459203D3D20415344465F504F5349544956455F504F4C415249545929207B --   if (ASDF_DEFAULT_STROBE_POLARITY == ASDF_POSITIVE_POLARITY) {
, 0x20202020617364665F617263685F7365745F706F735F7374726F626528293B --     asdf_arch_set_pos_strobe();
, 0x20207D20656C7365207B --   } else {
, 0x20202020617364665F617263685F7365745F6E65675F7374726F626528293B --     asdf_arch_set_neg_strobe();
, 0x20207D --   }
, 0x0 -- 
, 0x2020617364665F617263685F696E69745F6C65647328293B --   asdf_arch_init_leds();
, 0x0 -- 
, 0x2020617364665F617263685F696E69745F6C65647328293B --   asdf_arch_init_leds();
, 0x0 -- 
, 0x20202F2F2073657420757020726F77206F757470757420706F7274 --   // set up row output port
, 0x2020617364665F617263685F696E69745F726F775F6F75747075747328293B --   asdf_arch_init_row_outputs();
, 0x0 -- 
, 0x20202F2F2073657420757020636F6C756D6E20636F6E74726F6C206C696E6573 --   // set up column control lines
, 0x2020617364665F617263685F696E69745F636F6C756D6E5F636F6E74726F6C28293B --   asdf_arch_init_column_control();
, 0x0 -- 
, 0x20202F2F20656E61626C6520696E74657272757074733A --   // enable interrupts:
, 0x202073656928293B --   sei();
, 0x7D -- }
, 0x0 -- 
, 0x0 -- 
, 0x2F2F2050524F4345445552453A20617364665F617263685F726561645F726F77 -- // PROCEDURE: asdf_arch_read_row
, 0x2F2F20494E505554533A202875696E74385F742920726F773A2074686520726F77206E756D62657220746F206265207363616E6E6564 -- // INPUTS: (uint8_t) row: the row number to be scanned
, 0x2F2F204F5554505554533A2072657475726E73206120776F726420636F6E7461696E696E6720746865206163746976652028707265737365642920636F6C756D6E73 -- // OUTPUTS: returns a word containing the active (pressed) columns
, 0x2F2F -- //
, 0x2F2F204445534352495054494F4E3A204F7574707574732074686520617267756D656E7420746F2074686520524F5720706F72742C207468656E2072656164732074686520636F6C756D6E20706F7274 -- // DESCRIPTION: Outputs the argument to the ROW port, then reads the column port
, 0x2F2F20616E642072657475726E73207468652076616C75652E205468652076616C756520697320612062696E61727920726570726573656E746174696F6E206F6620746865206B657973 -- // and returns the value. The value is a binary representation of the keys
, 0x2F2F20707265737365642077697468696E2074686520726F772C207769746820313D707265737365642C20303D72656C65617365642E -- // pressed within the row, with 1=pressed, 0=released.
, 0x2F2F -- //
, 0x2F2F205349444520454646454354533A205365747320524F57206F757470757420706F72742E -- // SIDE EFFECTS: Sets ROW output port.
, 0x2F2F -- //
, 0x2F2F204E4F5445533A -- // NOTES:
, 0x2F2F -- //
, 0x2F2F20312920546865206B65796D617020726570726573656E747320616E20756E70726573736564206B657920617320612022302220616E6420612070726573736564206B65792061732061 -- // 1) The keymap represents an unpressed key as a "0" and a pressed key as a
, 0x2F2F202020202231222E20536F2C2069662061206B657970726573732070756C6C732074686520636F6C756D6E206C696E65206C6F772C207468656E207468652072656164696E67206F6620746865 -- //    "1". So, if a keypress pulls the column line low, then the reading of the
, 0x2F2F20202020706879736963616C2062697473206D75737420626520696E7665727465642E -- //    physical bits must be inverted.
, 0x2F2F -- //
, 0x2F2F2053434F50453A207075626C6963 -- // SCOPE: public
, 0x2F2F -- //
, 0x2F2F20434F4D504C45584954593A2031 -- // COMPLEXITY: 1
, 0x2F2F -- //
, 0x617364665F636F6C735F7420617364665F617263685F726561645F726F772875696E74385F7420726F7729 -- asdf_cols_t asdf_arch_read_row(uint8_t row)
, 0x7B -- {
, 0x2020617364665F636F6C735F7420636F6C73203D20303B --   asdf_cols_t cols = 0;
, 0x0 -- 
, 0x20202F2F2066697273742C206F757470757420746865206E657720726F772076616C75653A --   // first, output the new row value:
, 0x2020415344465F524F575F504F5254203D2028415344465F524F575F504F52542026207E415344465F524F575F4D41534B2920 --   ASDF_ROW_PORT = (ASDF_ROW_PORT & ~ASDF_ROW_MASK) 
, 0x202020207C202828726F77202620415344465F524F575F4D41534B29203C3C20415344465F524F575F4F4646534554293B --     | ((row & ASDF_ROW_MASK) << ASDF_ROW_OFFSET);
, 0x0 -- 
, 0x0 -- 
, 0x20202F2F207265616420696E2074686520636F6C756D6E732E2020536574204C4F4144206D6F646520616E642070756C736520636C6F636B2E --   // read in the columns.  Set LOAD mode and pulse clock.
, 0x2020636C6561725F6269742826415344465F434F4C4D4F44455F504F52542C20415344465F434F4C4D4F44455F424954293B --   clear_bit(&ASDF_COLMODE_PORT, ASDF_COLMODE_BIT);
, 0x0 -- 
, 0x20207365745F6269742826415344465F434F4C434C4B5F504F52542C20415344465F434F4C434C4B5F424954293B --   set_bit(&ASDF_COLCLK_PORT, ASDF_COLCLK_BIT);
, 0x2020636C6561725F6269742826415344465F434F4C434C4B5F504F52542C20415344465F434F4C434C4B5F424954293B --   clear_bit(&ASDF_COLCLK_PORT, ASDF_COLCLK_BIT);
, 0x0 -- 
, 0x20202F2F20736574206261636B20746F205348494654206D6F6465 --   // set back to SHIFT mode
, 0x20207365745F6269742826415344465F434F4C4D4F44455F504F52542C20415344465F434F4C4D4F44455F424954293B --   set_bit(&ASDF_COLMODE_PORT, ASDF_COLMODE_BIT);
, 0x0 -- 
, 0x20202F2F20416674657220746865206C6F6164206F7065726174696F6E2C20746865204C534220697320616C726561647920617420746865206F75747075742070696E2C20736F207468657265 --   // After the load operation, the LSB is already at the output pin, so there
, 0x20202F2F2077696C6C206265206F6E652066657765722072656164207468616E20636C6F636B2070756C73652E20436F6E74696E75652072656164696E6720746865206269747320756E74696C --   // will be one fewer read than clock pulse. Continue reading the bits until
, 0x20202F2F20746865206C65616465722062697420697320696E2074686520626F756E6461727920706F736974696F6E2E --   // the leader bit is in the boundary position.
, 0x2020666F72202875696E74385F742069203D20303B2069203C20415344465F4D41585F434F4C533B20692B2B29207B --   for (uint8_t i = 0; i < ASDF_MAX_COLS; i++) {
, 0x0 -- 
, 0x202020202F2F20696E7665727420746865206269747320617320746865792061726520726561642028736565206E6F7465203129 --     // invert the bits as they are read (see note 1)
, 0x20202020636F6C73207C3D202828287E28415344465F434F4C5F50494E29203E3E20415344465F434F4C5F424954292026203129203C3C2069293B --     cols |= (((~(ASDF_COL_PIN) >> ASDF_COL_BIT) & 1) << i);
, 0x0 -- 
, 0x202020207365745F6269742826415344465F434F4C434C4B5F504F52542C20415344465F434F4C434C4B5F424954293B --     set_bit(&ASDF_COLCLK_PORT, ASDF_COLCLK_BIT);
, 0x20202020636C6561725F6269742826415344465F434F4C434C4B5F504F52542C20415344465F434F4C434C4B5F424954293B --     clear_bit(&ASDF_COLCLK_PORT, ASDF_COLCLK_BIT);
, 0x20207D --   }
, 0x0 -- 
, 0x202072657475726E20636F6C733B --   return cols;
, 0x7D -- }
, 0x0 -- 
, 0x0 -- 
, 0x2F2F2050524F4345445552453A20617364665F617263685F73656E645F636F6465 -- // PROCEDURE: asdf_arch_send_code
, 0x2F2F20494E505554533A20286B6579636F64655F742920636F6465202D2074686520372D62697420415343494920636F646520746F206265206F757470757420627920746865206B6579626F617264 -- // INPUTS: (keycode_t) code - the 7-bit ASCII code to be output by the keyboard
, 0x2F2F204F5554505554533A206E6F6E65 -- // OUTPUTS: none
, 0x2F2F -- //
, 0x2F2F204445534352495054494F4E3A2054616B657320612063686172616374657220636F646520616E64206F7574707574732074686520636F6465206F6E206120706172616C6C656C204153434949 -- // DESCRIPTION: Takes a character code and outputs the code on a parallel ASCII
, 0x2F2F20706F72742C20776974682061207374726F62652E205468697320726F7574696E6520636F756C64206265207265706C61636564207769746820554152542C204932432C205553422C206F72 -- // port, with a strobe. This routine could be replaced with UART, I2C, USB, or
, 0x2F2F206F74686572206F7574707574206D656368616E69736D2C206F6620636F757273652E -- // other output mechanism, of course.
, 0x2F2F -- //
, 0x2F2F205349444520454646454354533A205365652061626F76652E -- // SIDE EFFECTS: See above.
, 0x2F2F -- //
, 0x2F2F204E4F5445533A20546865207374726F6265206973207365742062792074686520415344465F5354524F42455F4C454E47544820646566696E6974696F6E2E205468652064617461 -- // NOTES: The strobe is set by the ASDF_STROBE_LENGTH definition. The data
, 0x2F2F206F757470757420616E64207374726F626520706F6C61726974792061726520736574206279207468652073746174696320646174615F706F6C617269747920616E6420737461746963 -- // output and strobe polarity are set by the static data_polarity and static
, 0x2F2F207374726F62655F706F6C6172697479207661726961626C65732E -- // strobe_polarity variables.
, 0x2F2F -- //
, 0x2F2F2053434F50453A -- // SCOPE:
, 0x2F2F -- //
, 0x2F2F20434F4D504C45584954593A -- // COMPLEXITY:
, 0x2F2F -- //
, 0x0 -- 
, 0x766F696420617364665F617263685F73656E645F636F646528617364665F6B6579636F64655F7420636F646529 -- void asdf_arch_send_code(asdf_keycode_t code)
, 0x7B -- {
, 0x2020415344465F41534349495F504F5254203D2028636F6465205E20646174615F706F6C6172697479293B --   ASDF_ASCII_PORT = (code ^ data_polarity);
, 0x0 -- 
, 0x0 -- 
, 0x20202F2F20746F67676C65207374726F62652E20204D7573742074657374206265666F72652073657474696E6720746F2061766F69642073707572696F7573207374726F6265 --   // toggle strobe.  Must test before setting to avoid spurious strobe
, 0x20207365745F6269742826415344465F5354524F42455F50494E2C20415344465F5354524F42455F424954293B --   set_bit(&ASDF_STROBE_PIN, ASDF_STROBE_BIT);
, 0x0 -- 
, 0x20205F64656C61795F757328415344465F5354524F42455F4C454E4754485F5553293B --   _delay_us(ASDF_STROBE_LENGTH_US);
, 0x0 -- 
, 0x20207365745F6269742826415344465F5354524F42455F50494E2C20415344465F5354524F42455F424954293B --   set_bit(&ASDF_STROBE_PIN, ASDF_STROBE_BIT);
, 0x7D -- }
, 0x0 -- 
, 0x2F2F2D2D2D2D2D2D2D7C2D2D2D2D2D2D2D2D2D7C2D2D2D2D2D2D2D2D2D2B2D2D2D2D2D2D2D2D2D2B2D2D2D2D2D2D2D2D2D2B2D2D2D2D2D2D2D2D2D2B2D2D2D2D2D2D2D2D2D2B2D2D2D2D2D2D2D2D2D2B -- //-------|---------|---------+---------+---------+---------+---------+---------+
, 0x2F2F2041626F7665206C696E6520697320383020636F6C756D6E732C20616E642073686F756C6420646973706C617920636F6D706C6574656C7920696E2074686520656469746F722E -- // Above line is 80 columns, and should display completely in the editor.
, 0x2F2F -- //
  ]

/-- /repo/firmware/asdf/src/Arch/asdf_arch_atmega2560.c, lines 1-869. -/
def asdf_arch_atmega2560_c : List Nat := [
  0x2F2F202D2A2D206D6F64653A20433B207461622D77696474683A2032203B20696E64656E742D746162732D6D6F64653A206E696C202D2A2D -- // -*- mode: C; tab-width: 2 ; indent-tabs-mode: nil -*-
, 0x2F2F -- //
, 0x2F2F20556E666966696564204B6579626F6172642050726F6A656374 -- // Unfified Keyboard Project
, 0x2F2F2041534446206B6579626F617264206669726D77617265 -- // ASDF keyboard firmware
, 0x2F2F -- //
, 0x2F2F20617364665F617263682E63 -- // asdf_arch.c
, 0x2F2F -- //
, 0x2F2F20546869732066696C6520636F6E7461696E7320616C6C207468652061726368697465637475726520646570656E64656E7420636F64652C20696E636C7564696E67207265676973746572 -- // This file contains all the architecture dependent code, including register
, 0x2F2F2073657475702C20492F4F2C2074696D6572732C206574632E -- // setup, I/O, timers, etc.
, 0x2F2F -- //
, 0x2F2F20436F7079726967687420323031392044617669642046656E796573 -- // Copyright 2019 David Fenyes
, 0x2F2F -- //
, 0x2F2F20546869732070726F6772616D206973206672656520736F6674776172653A20796F752063616E2072656469737472696275746520697420616E642F6F72206D6F6469667920697420756E646572 -- // This program is free software: you can redistribute it and/or modify it under
, 0x2F2F20746865207465726D73206F662074686520474E552047656E6572616C205075626C6963204C6963656E7365206173207075626C697368656420627920746865204672656520536F667477617265 -- // the terms of the GNU General Public License as published by the Free Software
, 0x2F2F20466F756E646174696F6E2C206569746865722076657273696F6E2033206F6620746865204C6963656E73652C206F722028617420796F7572206F7074696F6E2920616E79206C61746572 -- // Foundation, either version 3 of the License, or (at your option) any later
, 0x2F2F2076657273696F6E2E -- // version.
, 0x2F2F -- //
, 0x2F2F20546869732070726F6772616D20697320646973747269627574656420696E2074686520686F706520746861742069742077696C6C2062652075736566756C2C2062757420574954484F5554 -- // This program is distributed in the hope that it will be useful, but WITHOUT
, 0x2F2F20414E592057415252414E54593B20776974686F7574206576656E2074686520696D706C6965642077617272616E7479206F66204D45524348414E544142494C495459206F72204649544E455353 -- // ANY WARRANTY; without even the implied warranty of MERCHANTABILITY or FITNESS
, 0x2F2F20464F52204120504152544943554C415220505552504F53452E205365652074686520474E552047656E6572616C205075626C6963204C6963656E736520666F72206D6F7265 -- // FOR A PARTICULAR PURPOSE. See the GNU General Public License for more
, 0x2F2F2064657461696C732E -- // details.
, 0x2F2F -- //
, 0x2F2F20596F752073686F756C642068617665207265636569766564206120636F7079206F662074686520474E552047656E6572616C205075626C6963204C6963656E736520616C6F6E672077697468 -- // You should have received a copy of the GNU General Public License along with
, 0x2F2F20746869732070726F6772616D2E204966206E6F742C20736565203C68747470733A2F2F7777772E676E752E6F72672F6C6963656E7365732F3E2E -- // this program. If not, see <https://www.gnu.org/licenses/>.
, 0x0 -- 
, 0x0 -- 
, 0x2F2F20576972696E6720496E666F726D6174696F6E3A -- // Wiring Information:
, 0x2F2F20436869703A207B4D6963726F636F6E74726F6C6C6572207479706520616E642076657273696F6E7D -- // Chip: {Microcontroller type and version}
, 0x2F2F -- //
, 0x2F2F204578616D706C653A -- // Example:
, 0x2F2F2050494E202020202020202020204E414D4520202020202046554E4354494F4E -- // PIN          NAME      FUNCTION
, 0x2F2F2031342D31392C392C3130202020504F5254422020202020434F4C554D4E20696E70757473202831206269742070657220636F6C756D6E29 -- // 14-19,9,10   PORTB     COLUMN inputs (1 bit per column)
, 0x2F2F2032332D32352020202020202020504F525443302D322020524F57206F7574707574732028726F77206E756D62657229 -- // 23-25        PORTC0-2  ROW outputs (row number)
, 0x2F2F2032372020202020202020202020504F52544334 -- // 27           PORTC4
, 0x0 -- 
, 0x23696E636C7564652022617364665F617263682E6822 -- #include "asdf_arch.h"
, 0x0 -- 
, 0x23696E636C756465203C6176722F696F2E683E -- #include <avr/io.h>
, 0x23696E636C756465203C6176722F696E746572727570742E683E -- #include <avr/interrupt.h>
, 0x23696E636C756465203C7574696C2F64656C61792E683E -- #include <util/delay.h>
, 0x23696E636C756465203C737464696E742E683E -- #include <stdint.h>
, 0x0 -- 
, 0x23696E636C7564652022617364665F636F6E6669672E6822 -- #include "asdf_config.h"
, 0x0 -- 
, 0x2F2F205469636B20697320747275652065766572792031206D732E -- // Tick is true every 1 ms.
, 0x73746174696320766F6C6174696C652075696E74385F74207469636B203D20303B -- static volatile uint8_t tick = 0;
, 0x0 -- 
, 0x2F2F206461746120706F6C6172697479206D6179206265206368616E6765642077697468206120444950207377697463682C20736F2077652075736520612073746174696320696E7374656164206F66206120636F6E7374616E74 -- // data polarity may be changed with a DIP switch, so we use a static instead of a constant
, 0x7374617469632075696E74385F7420646174615F706F6C6172697479203D20415344465F44454641554C545F444154415F504F4C41524954593B -- static uint8_t data_polarity = ASDF_DEFAULT_DATA_POLARITY;
, 0x0 -- 
, 0x2F2F2050524F4345445552453A2049535220666F722054696D65722030206F766572666C6F77 -- // PROCEDURE: ISR for Timer 0 overflow
, 0x2F2F20494E505554533A206E6F6E65 -- // INPUTS: none
, 0x2F2F204F5554505554533A6E6F6E65 -- // OUTPUTS:none
, 0x2F2F -- //
, 0x2F2F204445534352495054494F4E3A204F63637572732065766572792031206D732E2020536574207469636B20666C61672C206B69636B207761746368646F672E -- // DESCRIPTION: Occurs every 1 ms.  Set tick flag, kick watchdog.
, 0x2F2F -- //
, 0x2F2F205349444520454646454354533A -- // SIDE EFFECTS:
, 0x2F2F -- //
, 0x2F2F204E4F5445533A -- // NOTES:
, 0x2F2F -- //
, 0x2F2F2053434F50453A -- // SCOPE:
, 0x2F2F -- //
, 0x2F2F20434F4D504C45584954593A -- // COMPLEXITY:
, 0x2F2F -- //
, 0x4953522854494D4552305F434F4D50415F7665637429 -- ISR(TIMER0_COMPA_vect)
, 0x7B -- {
, 0x20207469636B203D20313B --   tick = 1;
, 0x7D -- }
, 0x0 -- 
, 0x2F2F2050524F4345445552453A207365745F626974 -- // PROCEDURE: set_bit
, 0x2F2F20494E505554533A20706F72743A20706F696E74657220746F2061202875696E74382920706F7274 -- // INPUTS: port: pointer to a (uint8) port
, 0x2F2F2020202020202020206269743A2062697420706F736974696F6E20746F20626520736574 -- //         bit: bit position to be set
, 0x2F2F204F5554505554533A206E6F6E65 -- // OUTPUTS: none
, 0x2F2F -- //
, 0x2F2F204445534352495054494F4E3A2047697665206120706F7274206164647265737320616E642062697420706F736974696F6E2C20736574207468652062697420706F736974696F6E2E -- // DESCRIPTION: Give a port address and bit position, set the bit position.
, 0x2F2F -- //
, 0x2F2F205349444520454646454354533A20536565204445534352495054494F4E -- // SIDE EFFECTS: See DESCRIPTION
, 0x2F2F -- //
, 0x2F2F204E4F5445533A204465636C6172656420696E6C696E652E2057696C6C206F6E6C7920626520696E6C696E656420666F722066756E6374696F6E7320696E2074686973206D6F64756C652C20736F -- // NOTES: Declared inline. Will only be inlined for functions in this module, so
, 0x2F2F20616C736F206465636C61726564207374617469632E -- // also declared static.
, 0x2F2F -- //
, 0x2F2F2053434F50453A2070726976617465 -- // SCOPE: private
, 0x2F2F -- //
, 0x2F2F20434F4D504C45584954593A2031 -- // COMPLEXITY: 1
, 0x2F2F -- //
, 0x73746174696320696E6C696E6520766F6964207365745F62697428766F6C6174696C652075696E74385F74202A706F72742C2075696E74385F742062697429 -- static inline void set_bit(volatile uint8_t *port, uint8_t bit)
, 0x7B -- {
, 0x20202A706F7274207C3D202831203C3C20626974293B --   *port |= (1 << bit);
, 0x7D -- }
, 0x0 -- 
, 0x2F2F2050524F4345445552453A20636C6561725F626974 -- // PROCEDURE: clear_bit
, 0x2F2F20494E505554533A20706F72743A20706F696E74657220746F2061202875696E74382920706F7274 -- // INPUTS: port: pointer to a (uint8) port
, 0x2F2F2020202020202020206269743A2062697420706F736974696F6E20746F20626520636C6561726564 -- //         bit: bit position to be cleared
, 0x2F2F204F5554505554533A206E6F6E65 -- // OUTPUTS: none
, 0x2F2F -- //
, 0x2F2F204445534352495054494F4E3A2047697665206120706F7274206164647265737320616E642062697420706F736974696F6E2C20636C656172207468652062697420706F736974696F6E2E -- // DESCRIPTION: Give a port address and bit position, clear the bit position.
, 0x2F2F -- //
, 0x2F2F205349444520454646454354533A20536565204445534352495054494F4E -- // SIDE EFFECTS: See DESCRIPTION
, 0x2F2F -- //
, 0x2F2F204E4F5445533A204465636C6172656420696E6C696E652E2057696C6C206F6E6C7920626520696E6C696E656420666F722066756E6374696F6E7320696E2074686973206D6F64756C652C20736F -- // NOTES: Declared inline. Will only be inlined for functions in this module, so
, 0x2F2F20616C736F206465636C61726564207374617469632E -- // also declared static.
, 0x2F2F -- //
, 0x2F2F2053434F50453A2070726976617465 -- // SCOPE: private
, 0x2F2F -- //
, 0x2F2F20434F4D504C45584954593A2031 -- // COMPLEXITY: 1
, 0x2F2F -- //
, 0x73746174696320696E6C696E6520766F696420636C6561725F62697428766F6C6174696C652075696E74385F74202A706F72742C2075696E74385F742062697429 -- static inline void clear_bit(volatile uint8_t *port, uint8_t bit)
, 0x7B -- {
, 0x20202A706F727420263D207E2831203C3C20626974293B --   *port &= ~(1 << bit);
, 0x7D -- }
, 0x0 -- 
, 0x2F2F2050524F4345445552453A20617263685F74696D6572305F636F6E666967 -- // PROCEDURE: arch_timer0_config
, 0x2F2F -- //
, 0x2F2F20494E505554533A20626974733A206120342062797465206669656C6420636F6E7461696E696E672074686520636F6E66696775726174696F6E2076616C75657320666F7220746865 -- // INPUTS: bits: a 4 byte field containing the configuration values for the
, 0x2F2F20382D6269742074696D657230204120616E64204220636F6E74726F6C207265676973746572732C20616E642074686520696E74657272757074206D61736B2072656769737465722E -- // 8-bit timer0 A and B control registers, and the interrupt mask register.
, 0x2F2F -- //
, 0x2F2F204F5554505554533A206E6F6E65 -- // OUTPUTS: none
, 0x2F2F -- //
, 0x2F2F204445534352495054494F4E3A2054616B65732061203420627974652076616C756520776974682073657474696E677320666F7220616C6C2074686520636F6E74726F6C -- // DESCRIPTION: Takes a 4 byte value with settings for all the control
, 0x2F2F2072656769737465727320666F722074686520382D62697420636F756E7465722F74696D6572202874696D65722030292C20616E6420777269746573207468656D20616C6C -- // registers for the 8-bit counter/timer (timer 0), and writes them all
, 0x2F2F20746F207468652072657370656374697665207265676973746572732E -- // to the respective registers.
, 0x2F2F -- //
, 0x2F2F205349444520454646454354533A207365652061626F7665 -- // SIDE EFFECTS: see above
, 0x2F2F -- //
, 0x2F2F204E4F5445533A2053657474696E6720616C6C20746865206269747320746F6765746865722C20616E642077726974696E6720616C6C20746865207265676973746572732066726F6D2061 -- // NOTES: Setting all the bits together, and writing all the registers from a
, 0x2F2F2073696E676C6520776F7264207065726D697473206D6F726520636C65617220696E697469616C697A6174696F6E206F6620636F6E74726F6C206669656C6473207468617420617265 -- // single word permits more clear initialization of control fields that are
, 0x2F2F20737072656164206163726F7373206D6F7265207468616E206F6E6520776F72642E -- // spread across more than one word.
, 0x2F2F -- //
, 0x2F2F20434F4D504C45584954593A2031 -- // COMPLEXITY: 1
, 0x2F2F -- //
, 0x2F2F2053434F50453A2070726976617465 -- // SCOPE: private
, 0x2F2F -- //
, 0x73746174696320766F696420617263685F74696D6572305F636F6E6669672875696E7433325F74206269747329 -- static void arch_timer0_config(uint32_t bits)
, 0x7B -- {
, 0x2020544343523042203D20303B202F2F206669727374207475726E206F66662074696D65722E --   TCCR0B = 0; // first turn off timer.
, 0x2020544343523041203D202862697473203E3E20544D5230415F504F5329202620307866663B --   TCCR0A = (bits >> TMR0A_POS) & 0xff;
, 0x202054494D534B30203D202862697473203E3E20544D5230494D534B5F504F5329202620307866663B --   TIMSK0 = (bits >> TMR0IMSK_POS) & 0xff;
, 0x2020544343523042203D202862697473203E3E20544D5230425F504F5329202620307866663B202F2F2053657420746865206D6F64652028616E64207475726E206F6E2074696D657229206C617374 --   TCCR0B = (bits >> TMR0B_POS) & 0xff; // Set the mode (and turn on timer) last
, 0x7D -- }
, 0x0 -- 
, 0x2F2F2050524F4345445552453A20617263685F7469636B5F74696D65725F696E6974 -- // PROCEDURE: arch_tick_timer_init
, 0x2F2F20494E505554533A206E6F6E65 -- // INPUTS: none
, 0x2F2F204F5554505554533A206E6F6E65 -- // OUTPUTS: none
, 0x2F2F -- //
, 0x2F2F204445534352495054494F4E3A205365747320757020316D73207469636B2074696D65722E -- // DESCRIPTION: Sets up 1ms tick timer.
, 0x2F2F -- //
, 0x2F2F205349444520454646454354533A -- // SIDE EFFECTS:
, 0x2F2F -- //
, 0x2F2F204E4F5445533A205365742075702054696D6572203020696E20435443206D6F646520666F722031206D73206F766572666C6F772E -- // NOTES: Set up Timer 0 in CTC mode for 1 ms overflow.
, 0x2F2F -- //
, 0x2F2F2053434F50453A2070726976617465 -- // SCOPE: private
, 0x2F2F -- //
, 0x2F2F20434F4D504C45584954593A2031 -- // COMPLEXITY: 1
, 0x2F2F -- //
, 0x73746174696320766F696420617364665F617263685F7469636B5F74696D65725F696E697428766F696429 -- static void asdf_arch_tick_timer_init(void)
, 0x7B -- {
, 0x20207469636B203D20303B --   tick = 0;
, 0x0 -- 
, 0x20202F2F2073657420636F6D706172652072656769737465722066697273742C20736F2074696D65722063616E206F70657261746520636F72726563746C7920617320736F6F6E206173206974206973 --   // set compare register first, so timer can operate correctly as soon as it is
, 0x20202F2F20656E61626C65642E --   // enabled.
, 0x20204F43523041203D205449434B5F434F554E543B --   OCR0A = TICK_COUNT;
, 0x0 -- 
, 0x20202F2F206F70657261746520696E20435443206D6F646520746F206F766572666C6F772061742065786163746C792031206D73 --   // operate in CTC mode to overflow at exactly 1 ms
, 0x20202F2F207072657363616C6572203D20363420616E64206F757470757420636F6D706172652076616C756520697320323530 --   // prescaler = 64 and output compare value is 250
, 0x2020617263685F74696D6572305F636F6E6669672854494D4552305F57464D5F435443207C2054494D4552305F4449563634207C2054494D4552305F494E545F4F4E5F434F4D41293B --   arch_timer0_config(TIMER0_WFM_CTC | TIMER0_DIV64 | TIMER0_INT_ON_COMA);
, 0x7D -- }
, 0x0 -- 
, 0x2F2F2050524F4345445552453A20617364665F617263685F7469636B -- // PROCEDURE: asdf_arch_tick
, 0x2F2F20494E505554533A206E6F6E65 -- // INPUTS: none
, 0x2F2F204F5554505554533A2072657475726E73206120312069662074686520316D732074696D65722074696D6564206F75742C2030206F7468657277697365 -- // OUTPUTS: returns a 1 if the 1ms timer timed out, 0 otherwise
, 0x2F2F -- //
, 0x2F2F204445534352495054494F4E3A20536565204F7574707574732E -- // DESCRIPTION: See Outputs.
, 0x2F2F -- //
, 0x2F2F205349444520454646454354533A205A65726F6573206F7574207468652031206D732074696D657220666C61672E -- // SIDE EFFECTS: Zeroes out the 1 ms timer flag.
, 0x2F2F -- //
, 0x2F2F204E4F5445533A -- // NOTES:
, 0x2F2F -- //
, 0x2F2F2053434F50453A207075626C6963 -- // SCOPE: public
, 0x2F2F -- //
, 0x2F2F20434F4D504C45584954593A2031 -- // COMPLEXITY: 1
, 0x2F2F -- //
, 0x75696E74385F7420617364665F617263685F7469636B28766F696429 -- uint8_t asdf_arch_tick(void)
, 0x7B -- {
, 0x202075696E74385F742072657476616C203D207469636B3B --   uint8_t retval = tick;
, 0x20207469636B203D20303B --   tick = 0;
, 0x202072657475726E2072657476616C3B --   return retval;
, 0x7D -- }
, 0x0 -- 
, 0x2F2F2050524F4345445552453A20617364665F617263685F696E69745F74696D657273 -- // PROCEDURE: asdf_arch_init_timers
, 0x2F2F20494E505554533A206E6F6E65 -- // INPUTS: none
, 0x2F2F204F5554505554533A206E6F6E65 -- // OUTPUTS: none
, 0x2F2F -- //
, 0x2F2F204445534352495054494F4E3A20536574732075702074696D657220666F722031206D7320696E74657276616C73 -- // DESCRIPTION: Sets up timer for 1 ms intervals
, 0x2F2F -- //
, 0x2F2F205349444520454646454354533A20536565204445534352495054494F4E -- // SIDE EFFECTS: See DESCRIPTION
, 0x2F2F -- //
, 0x2F2F2053434F50453A2070726976617465 -- // SCOPE: private
, 0x2F2F -- //
, 0x2F2F20434F4D504C45584954593A2031 -- // COMPLEXITY: 1
, 0x2F2F -- //
, 0x73746174696320766F696420617364665F617263685F696E69745F636C6F636B28766F696429 -- static void asdf_arch_init_clock(void)
, 0x7B -- {
, 0x2020434C4B5052203D2028434C4B504345207C20535953434C4B5F44495631293B --   CLKPR = (CLKPCE | SYSCLK_DIV1);
, 0x7D -- }
, 0x0 -- 
, 0x2F2F2050524F4345445552453A20617364665F617263685F696E69745F6F757470757473 -- // PROCEDURE: asdf_arch_init_outputs
, 0x2F2F20494E505554533A206E6F6E65 -- // INPUTS: none
, 0x2F2F204F5554505554533A206E6F6E65 -- // OUTPUTS: none
, 0x2F2F -- //
, 0x2F2F204445534352495054494F4E3A20496E697469616C697A6520616C6C204C454420706F727473206173206F7574707574732E2056616C75657320617265206E6F742073657420686572652E -- // DESCRIPTION: Initialize all LED ports as outputs. Values are not set here.
, 0x2F2F2054686579206172652073657420627920746865206B65796D617020636F6465 -- // They are set by the keymap code
, 0x2F2F -- //
, 0x2F2F205349444520454646454354533A20536565204445534352495054494F4E -- // SIDE EFFECTS: See DESCRIPTION
, 0x2F2F -- //
, 0x2F2F2053434F50453A2070726976617465 -- // SCOPE: private
, 0x2F2F -- //
, 0x2F2F20434F4D504C45584954593A2031 -- // COMPLEXITY: 1
, 0x2F2F -- //
, 0x73746174696320766F696420617364665F617263685F696E69745F6C65647328766F696429 -- static void asdf_arch_init_leds(void)
, 0x7B -- {
, 0x20207365745F6269742826415344465F4C4544315F4444522C20415344465F4C4544315F424954293B --   set_bit(&ASDF_LED1_DDR, ASDF_LED1_BIT);
, 0x20207365745F6269742826415344465F4C4544325F4444522C20415344465F4C4544325F424954293B --   set_bit(&ASDF_LED2_DDR, ASDF_LED2_BIT);
, 0x20207365745F6269742826415344465F4C4544335F4444522C20415344465F4C4544335F424954293B --   set_bit(&ASDF_LED3_DDR, ASDF_LED3_BIT);
, 0x7D -- }
, 0x0 -- 
, 0x0 -- 
, 0x2F2F2050524F4345445552453A20617364665F617263685F6C6564315F736574 -- // PROCEDURE: asdf_arch_led1_set
, 0x2F2F20494E505554533A202875696E74385F74292076616C7565 -- // INPUTS: (uint8_t) value
, 0x2F2F204F5554505554533A206E6F6E65 -- // OUTPUTS: none
, 0x2F2F -- //
, 0x2F2F204445534352495054494F4E3A2049662076616C756520697320747275652C207475726E206F6E204C4544312E202049662076616C75652069732066616C73652C207475726E206F6666204C454431 -- // DESCRIPTION: If value is true, turn on LED1.  If value is false, turn off LED1
, 0x2F2F -- //
, 0x2F2F205349444520454646454354533A205365652061626F76652E -- // SIDE EFFECTS: See above.
, 0x2F2F -- //
, 0x2F2F204E4F5445533A20546865204C45443120706F72742064726976657320746865204C4544206469726563746C792062792070756C6C696E672074686520636174686F6465206C6F772C20736F -- // NOTES: The LED1 port drives the LED directly by pulling the cathode low, so
, 0x2F2F20636C656172696E672074686520626974207475726E7320746865204C4544206F6E2E -- // clearing the bit turns the LED on.
, 0x2F2F -- //
, 0x2F2F2053434F50453A207075626C6963 -- // SCOPE: public
, 0x2F2F -- //
, 0x2F2F20434F4D504C45584954593A2032 -- // COMPLEXITY: 2
, 0x2F2F -- //
, 0x766F696420617364665F617263685F6C6564315F7365742875696E74385F742076616C756529 -- void asdf_arch_led1_set(uint8_t value)
, 0x7B -- {
, 0x20206966202876616C756529207B --   if (value) {
, 0x20202020636C6561725F6269742826415344465F4C4544315F504F52542C20415344465F4C4544315F424954293B --     clear_bit(&ASDF_LED1_PORT, ASDF_LED1_BIT);
, 0x20207D --   }
, 0x2020656C7365207B --   else {
, 0x202020207365745F6269742826415344465F4C4544315F504F52542C20415344465F4C4544315F424954293B --     set_bit(&ASDF_LED1_PORT, ASDF_LED1_BIT);
, 0x20207D --   }
, 0x7D -- }
, 0x0 -- 
, 0x2F2F2050524F4345445552453A20617364665F617263685F6C6564325F736574 -- // PROCEDURE: asdf_arch_led2_set
, 0x2F2F20494E505554533A202875696E74385F74292076616C7565 -- // INPUTS: (uint8_t) value
, 0x2F2F204F5554505554533A206E6F6E65 -- // OUTPUTS: none
, 0x2F2F -- //
, 0x2F2F204445534352495054494F4E3A2049662076616C756520697320747275652C207475726E206F6E204C4544322E202049662076616C75652069732066616C73652C207475726E206F6666204C454432 -- // DESCRIPTION: If value is true, turn on LED2.  If value is false, turn off LED2
, 0x2F2F -- //
, 0x2F2F205349444520454646454354533A205365652061626F76652E -- // SIDE EFFECTS: See above.
, 0x2F2F -- //
, 0x2F2F204E4F5445533A20546865204C454432206F75747075742064726976657320746865204C45442076696120616E20696E766572746572206275666665722C20736F20612068696768 -- // NOTES: The LED2 output drives the LED via an inverter buffer, so a high
, 0x2F2F206F75747075742070756C6C7320746865204C454420636174686F6465206C6F772C206C69676874696E6720746865204C45442E -- // output pulls the LED cathode low, lighting the LED.
, 0x2F2F -- //
, 0x2F2F2053434F50453A207075626C6963 -- // SCOPE: public
, 0x2F2F -- //
, 0x2F2F20434F4D504C45584954593A2032 -- // COMPLEXITY: 2
, 0x2F2F -- //
, 0x766F696420617364665F617263685F6C6564325F7365742875696E74385F742076616C756529 -- void asdf_arch_led2_set(uint8_t value)
, 0x7B -- {
, 0x20206966202876616C756529207B --   if (value) {
, 0x20202020636C6561725F6269742826415344465F4C4544325F504F52542C20415344465F4C4544325F424954293B --     clear_bit(&ASDF_LED2_PORT, ASDF_LED2_BIT);
, 0x20207D --   }
, 0x2020656C7365207B --   else {
, 0x202020207365745F6269742826415344465F4C4544325F504F52542C20415344465F4C4544325F424954293B --     set_bit(&ASDF_LED2_PORT, ASDF_LED2_BIT);
, 0x20207D --   }
, 0x7D -- }
, 0x0 -- 
, 0x2F2F2050524F4345445552453A20617364665F617263685F6C6564335F736574 -- // PROCEDURE: asdf_arch_led3_set
, 0x2F2F20494E505554533A202875696E74385F74292076616C7565 -- // INPUTS: (uint8_t) value
, 0x2F2F204F5554505554533A206E6F6E65 -- // OUTPUTS: none
, 0x2F2F -- //
, 0x2F2F204445534352495054494F4E3A2049662076616C756520697320747275652C207475726E206F6E204C4544332E202049662076616C75652069732066616C73652C207475726E206F6666204C454433 -- // DESCRIPTION: If value is true, turn on LED3.  If value is false, turn off LED3
, 0x2F2F -- //
, 0x2F2F205349444520454646454354533A205365652061626F76652E -- // SIDE EFFECTS: See above.
, 0x2F2F -- //
, 0x2F2F204E4F5445533A20546865204C454433206F75747075742064726976657320746865204C45442076696120616E20696E766572746572206275666665722C20736F20612068696768 -- // NOTES: The LED3 output drives the LED via an inverter buffer, so a high
, 0x2F2F206F75747075742070756C6C7320746865204C454420636174686F6465206C6F772C206C69676874696E6720746865204C45442E -- // output pulls the LED cathode low, lighting the LED.
, 0x2F2F -- //
, 0x2F2F2053434F50453A207075626C6963 -- // SCOPE: public
, 0x2F2F -- //
, 0x2F2F20434F4D504C45584954593A2032 -- // COMPLEXITY: 2
, 0x2F2F -- //
, 0x766F696420617364665F617263685F6C6564335F7365742875696E74385F742076616C756529 -- void asdf_arch_led3_set(uint8_t value)
, 0x7B -- {
, 0x20206966202876616C756529207B --   if (value) {
, 0x20202020636C6561725F6269742826415344465F4C4544335F504F52542C20415344465F4C4544335F424954293B --     clear_bit(&ASDF_LED3_PORT, ASDF_LED3_BIT);
, 0x20207D --   }
, 0x2020656C7365207B --   else {
, 0x202020207365745F6269742826415344465F4C4544335F504F52542C20415344465F4C4544335F424954293B --     set_bit(&ASDF_LED3_PORT, ASDF_LED3_BIT);
, 0x20207D --   }
, 0x7D -- }
, 0x0 -- 
, 0x2F2F2050524F4345445552453A20617364665F617263685F6E756C6C5F6F7574707574 -- // PROCEDURE: asdf_arch_null_output
, 0x2F2F20494E505554533A202875696E74385F74292076616C7565202D2069676E6F726564 -- // INPUTS: (uint8_t) value - ignored
, 0x2F2F204F5554505554533A206E6F6E65 -- // OUTPUTS: none
, 0x2F2F -- //
, 0x2F2F204445534352495054494F4E3A20446F6573206E6F7468696E672E -- // DESCRIPTION: Does nothing.
, 0x2F2F -- //
, 0x2F2F205349444520454646454354533A205365652061626F76652E -- // SIDE EFFECTS: See above.
, 0x2F2F -- //
, 0x2F2F204E4F5445533A -- // NOTES:
, 0x2F2F -- //
, 0x2F2F2053434F50453A207075626C6963 -- // SCOPE: public
, 0x2F2F -- //
, 0x2F2F20434F4D504C45584954593A2032 -- // COMPLEXITY: 2
, 0x2F2F -- //
, 0x766F696420617364665F617263685F6E756C6C5F6F75747075742875696E74385F742076616C756529 -- void asdf_arch_null_output(uint8_t value)
, 0x7B -- {
, 0x202028766F6964292076616C75653B --   (void) value;
, 0x7D -- }
, 0x0 -- 
, 0x2F2F2050524F4345445552453A20617364665F617263685F6F7574315F736574 -- // PROCEDURE: asdf_arch_out1_set
, 0x2F2F20494E505554533A202875696E74385F74292076616C7565 -- // INPUTS: (uint8_t) value
, 0x2F2F204F5554505554533A206E6F6E65 -- // OUTPUTS: none
, 0x2F2F -- //
, 0x2F2F204445534352495054494F4E3A205365747320746865204F555431206269742069662076616C756520697320747275652C20616E6420636C656172204F5554312069662076616C75652069732066616C73652E -- // DESCRIPTION: Sets the OUT1 bit if value is true, and clear OUT1 if value is false.
, 0x2F2F -- //
, 0x2F2F205349444520454646454354533A205365652061626F76652E -- // SIDE EFFECTS: See above.
, 0x2F2F -- //
, 0x2F2F204E4F5445533A -- // NOTES:
, 0x2F2F -- //
, 0x2F2F2053434F50453A207075626C6963 -- // SCOPE: public
, 0x2F2F -- //
, 0x2F2F20434F4D504C45584954593A2032 -- // COMPLEXITY: 2
, 0x2F2F -- //
, 0x766F696420617364665F617263685F6F7574315F7365742875696E74385F742076616C756529 -- void asdf_arch_out1_set(uint8_t value)
, 0x7B -- {
, 0x20206966202876616C756529207B --   if (value) {
, 0x202020207365745F6269742826415344465F4F5554315F504F52542C20415344465F4F5554315F424954293B --     set_bit(&ASDF_OUT1_PORT, ASDF_OUT1_BIT);
, 0x20207D --   }
, 0x2020656C7365207B --   else {
, 0x20202020636C6561725F6269742826415344465F4F5554315F504F52542C20415344465F4F5554315F424954293B --     clear_bit(&ASDF_OUT1_PORT, ASDF_OUT1_BIT);
, 0x20207D --   }
, 0x20207365745F6269742826415344465F4F5554315F4444522C20415344465F4F5554315F424954293B --   set_bit(&ASDF_OUT1_DDR, ASDF_OUT1_BIT);
, 0x7D -- }
, 0x0 -- 
, 0x2F2F2050524F4345445552453A20617364665F617263685F6F7574315F6F70656E5F68695F736574 -- // PROCEDURE: asdf_arch_out1_open_hi_set
, 0x2F2F20494E505554533A202875696E74385F74292076616C7565 -- // INPUTS: (uint8_t) value
, 0x2F2F204F5554505554533A206E6F6E65 -- // OUTPUTS: none
, 0x2F2F -- //
, 0x2F2F204445534352495054494F4E3A205365747320746865204F5554312062697420746F2068692D7A2069662076616C756520697320747275652C20616E64206C6F772069662076616C75652069732066616C73652E -- // DESCRIPTION: Sets the OUT1 bit to hi-z if value is true, and low if value is false.
, 0x2F2F -- //
, 0x2F2F205349444520454646454354533A205365652061626F76652E -- // SIDE EFFECTS: See above.
, 0x2F2F -- //
, 0x2F2F204E4F5445533A -- // NOTES:
, 0x2F2F -- //
, 0x2F2F2053434F50453A207075626C6963 -- // SCOPE: public
, 0x2F2F -- //
, 0x2F2F20434F4D504C45584954593A2032 -- // COMPLEXITY: 2
, 0x2F2F -- //
, 0x766F696420617364665F617263685F6F7574315F6F70656E5F68695F7365742875696E74385F742076616C756529 -- void asdf_arch_out1_open_hi_set(uint8_t value)
, 0x7B -- {
, 0x20206966202876616C756529207B --   if (value) {
, 0x20202020636C6561725F6269742826415344465F4F5554315F4444522C20415344465F4F5554315F424954293B --     clear_bit(&ASDF_OUT1_DDR, ASDF_OUT1_BIT);
, 0x202020207365745F6269742826415344465F4F5554315F504F52542C20415344465F4F5554315F424954293B --     set_bit(&ASDF_OUT1_PORT, ASDF_OUT1_BIT);
, 0x20207D --   }
, 0x2020656C7365207B --   else {
, 0x20202020636C6561725F6269742826415344465F4F5554315F504F52542C20415344465F4F5554315F424954293B --     clear_bit(&ASDF_OUT1_PORT, ASDF_OUT1_BIT);
, 0x202020207365745F6269742826415344465F4F5554315F4444522C20415344465F4F5554315F424954293B --     set_bit(&ASDF_OUT1_DDR, ASDF_OUT1_BIT);
, 0x20207D --   }
, 0x7D -- }
, 0x0 -- 
, 0x2F2F2050524F4345445552453A20617364665F617263685F6F7574315F6F70656E5F6C6F5F736574 -- // PROCEDURE: asdf_arch_out1_open_lo_set
, 0x2F2F20494E505554533A202875696E74385F74292076616C7565 -- // INPUTS: (uint8_t) value
, 0x2F2F204F5554505554533A206E6F6E65 -- // OUTPUTS: none
, 0x2F2F -- //
, 0x2F2F204445534352495054494F4E3A205365747320746865204F5554312062697420746F20686967682069662076616C756520697320747275652C20616E642068692D7A2069662076616C75652069732066616C73652E -- // DESCRIPTION: Sets the OUT1 bit to high if value is true, and hi-z if value is false.
, 0x2F2F -- //
, 0x2F2F205349444520454646454354533A205365652061626F76652E -- // SIDE EFFECTS: See above.
, 0x2F2F -- //
, 0x2F2F204E4F5445533A -- // NOTES:
, 0x2F2F -- //
, 0x2F2F2053434F50453A207075626C6963 -- // SCOPE: public
, 0x2F2F -- //
, 0x2F2F20434F4D504C45584954593A2032 -- // COMPLEXITY: 2
, 0x2F2F -- //
, 0x766F696420617364665F617263685F6F7574315F6F70656E5F6C6F5F7365742875696E74385F742076616C756529 -- void asdf_arch_out1_open_lo_set(uint8_t value)
, 0x7B -- {
, 0x20206966202876616C756529207B --   if (value) {
, 0x202020207365745F6269742826415344465F4F5554315F504F52542C20415344465F4F5554315F424954293B --     set_bit(&ASDF_OUT1_PORT, ASDF_OUT1_BIT);
, 0x202020207365745F6269742826415344465F4F5554315F4444522C20415344465F4F5554315F424954293B --     set_bit(&ASDF_OUT1_DDR, ASDF_OUT1_BIT);
, 0x20207D --   }
, 0x2020656C7365207B --   else {
, 0x20202020636C6561725F6269742826415344465F4F5554315F4444522C20415344465F4F5554315F424954293B --     clear_bit(&ASDF_OUT1_DDR, ASDF_OUT1_BIT);
, 0x20202020636C6561725F6269742826415344465F4F5554315F504F52542C20415344465F4F5554315F424954293B --     clear_bit(&ASDF_OUT1_PORT, ASDF_OUT1_BIT);
, 0x20207D --   }
, 0x7D -- }
, 0x0 -- 
, 0x2F2F2050524F4345445552453A20617364665F617263685F6F7574325F736574 -- // PROCEDURE: asdf_arch_out2_set
, 0x2F2F20494E505554533A202875696E74385F74292076616C7565 -- // INPUTS: (uint8_t) value
, 0x2F2F204F5554505554533A206E6F6E65 -- // OUTPUTS: none
, 0x2F2F -- //
, 0x2F2F204445534352495054494F4E3A205365747320746865204F555432206269742069662076616C756520697320747275652C20616E6420636C656172204F5554322069662076616C75652069732066616C73652E -- // DESCRIPTION: Sets the OUT2 bit if value is true, and clear OUT2 if value is false.
, 0x2F2F -- //
, 0x2F2F205349444520454646454354533A205365652061626F76652E -- // SIDE EFFECTS: See above.
, 0x2F2F -- //
, 0x2F2F204E4F5445533A -- // NOTES:
, 0x2F2F -- //
, 0x2F2F2053434F50453A207075626C6963 -- // SCOPE: public
, 0x2F2F -- //
, 0x2F2F20434F4D504C45584954593A2032 -- // COMPLEXITY: 2
, 0x2F2F -- //
, 0x766F696420617364665F617263685F6F7574325F7365742875696E74385F742076616C756529 -- void asdf_arch_out2_set(uint8_t value)
, 0x7B -- {
, 0x20206966202876616C756529207B --   if (value) {
, 0x202020207365745F6269742826415344465F4F5554325F504F52542C20415344465F4F5554325F424954293B --     set_bit(&ASDF_OUT2_PORT, ASDF_OUT2_BIT);
, 0x20207D --   }
, 0x2020656C7365207B --   else {
, 0x20202020636C6561725F6269742826415344465F4F5554325F504F52542C20415344465F4F5554325F424954293B --     clear_bit(&ASDF_OUT2_PORT, ASDF_OUT2_BIT);
, 0x20207D --   }
, 0x20207365745F6269742826415344465F4F5554325F4444522C20415344465F4F5554325F424954293B --   set_bit(&ASDF_OUT2_DDR, ASDF_OUT2_BIT);
, 0x7D -- }
, 0x0 -- 
, 0x2F2F2050524F4345445552453A20617364665F617263685F6F7574325F6F70656E5F68695F736574 -- // PROCEDURE: asdf_arch_out2_open_hi_set
, 0x2F2F20494E505554533A202875696E74385F74292076616C7565 -- // INPUTS: (uint8_t) value
, 0x2F2F204F5554505554533A206E6F6E65 -- // OUTPUTS: none
, 0x2F2F -- //
, 0x2F2F204445534352495054494F4E3A205365747320746865204F5554322062697420746F2068692D7A2069662076616C756520697320747275652C20616E64206C6F772069662076616C75652069732066616C73652E -- // DESCRIPTION: Sets the OUT2 bit to hi-z if value is true, and low if value is false.
, 0x2F2F -- //
, 0x2F2F205349444520454646454354533A205365652061626F76652E -- // SIDE EFFECTS: See above.
, 0x2F2F -- //
, 0x2F2F204E4F5445533A -- // NOTES:
, 0x2F2F -- //
, 0x2F2F2053434F50453A207075626C6963 -- // SCOPE: public
, 0x2F2F -- //
, 0x2F2F20434F4D504C45584954593A2032 -- // COMPLEXITY: 2
, 0x2F2F -- //
, 0x766F696420617364665F617263685F6F7574325F6F70656E5F68695F7365742875696E74385F742076616C756529 -- void asdf_arch_out2_open_hi_set(uint8_t value)
, 0x7B -- {
, 0x20206966202876616C756529207B --   if (value) {
, 0x20202020636C6561725F6269742826415344465F4F5554325F4444522C20415344465F4F5554325F424954293B --     clear_bit(&ASDF_OUT2_DDR, ASDF_OUT2_BIT);
, 0x202020207365745F6269742826415344465F4F5554325F504F52542C20415344465F4F5554325F424954293B --     set_bit(&ASDF_OUT2_PORT, ASDF_OUT2_BIT);
, 0x20207D --   }
, 0x2020656C7365207B --   else {
, 0x20202020636C6561725F6269742826415344465F4F5554325F504F52542C20415344465F4F5554325F424954293B --     clear_bit(&ASDF_OUT2_PORT, ASDF_OUT2_BIT);
, 0x202020207365745F6269742826415344465F4F5554325F4444522C20415344465F4F5554325F424954293B --     set_bit(&ASDF_OUT2_DDR, ASDF_OUT2_BIT);
, 0x20207D --   }
, 0x7D -- }
, 0x0 -- 
, 0x2F2F2050524F4345445552453A20617364665F617263685F6F7574325F6F70656E5F6C6F5F736574 -- // PROCEDURE: asdf_arch_out2_open_lo_set
, 0x2F2F20494E505554533A202875696E74385F74292076616C7565 -- // INPUTS: (uint8_t) value
, 0x2F2F204F5554505554533A206E6F6E65 -- // OUTPUTS: none
, 0x2F2F -- //
, 0x2F2F204445534352495054494F4E3A205365747320746865204F5554322062697420746F20686967682069662076616C756520697320747275652C20616E642068692D7A2069662076616C75652069732066616C73652E -- // DESCRIPTION: Sets the OUT2 bit to high if value is true, and hi-z if value is false.
, 0x2F2F -- //
, 0x2F2F205349444520454646454354533A205365652061626F76652E -- // SIDE EFFECTS: See above.
, 0x2F2F -- //
, 0x2F2F204E4F5445533A -- // NOTES:
, 0x2F2F -- //
, 0x2F2F2053434F50453A207075626C6963 -- // SCOPE: public
, 0x2F2F -- //
, 0x2F2F20434F4D504C45584954593A2032 -- // COMPLEXITY: 2
, 0x2F2F -- //
, 0x766F696420617364665F617263685F6F7574325F6F70656E5F6C6F5F7365742875696E74385F742076616C756529 -- void asdf_arch_out2_open_lo_set(uint8_t value)
, 0x7B -- {
, 0x20206966202876616C756529207B --   if (value) {
, 0x202020207365745F6269742826415344465F4F5554325F504F52542C20415344465F4F5554325F424954293B --     set_bit(&ASDF_OUT2_PORT, ASDF_OUT2_BIT);
, 0x202020207365745F6269742826415344465F4F5554325F4444522C20415344465F4F5554325F424954293B --     set_bit(&ASDF_OUT2_DDR, ASDF_OUT2_BIT);
, 0x20207D --   }
, 0x2020656C7365207B --   else {
, 0x20202020636C6561725F6269742826415344465F4F5554325F4444522C20415344465F4F5554325F424954293B --     clear_bit(&ASDF_OUT2_DDR, ASDF_OUT2_BIT);
, 0x20202020636C6561725F6269742826415344465F4F5554325F504F52542C20415344465F4F5554325F424954293B --     clear_bit(&ASDF_OUT2_PORT, ASDF_OUT2_BIT);
, 0x20207D --   }
, 0x7D -- }
, 0x0 -- 
, 0x2F2F2050524F4345445552453A20617364665F617263685F6F7574335F736574 -- // PROCEDURE: asdf_arch_out3_set
, 0x2F2F20494E505554533A202875696E74385F74292076616C7565 -- // INPUTS: (uint8_t) value
, 0x2F2F204F5554505554533A206E6F6E65 -- // OUTPUTS: none
, 0x2F2F -- //
, 0x2F2F204445534352495054494F4E3A205365747320746865204F555433206269742069662076616C756520697320747275652C20616E6420636C656172204F5554332069662076616C75652069732066616C73652E -- // DESCRIPTION: Sets the OUT3 bit if value is true, and clear OUT3 if value is false.
, 0x2F2F -- //
, 0x2F2F205349444520454646454354533A205365652061626F76652E -- // SIDE EFFECTS: See above.
, 0x2F2F -- //
, 0x2F2F204E4F5445533A -- // NOTES:
, 0x2F2F -- //
, 0x2F2F2053434F50453A207075626C6963 -- // SCOPE: public
, 0x2F2F -- //
, 0x2F2F20434F4D504C45584954593A2032 -- // COMPLEXITY: 2
, 0x2F2F -- //
, 0x766F696420617364665F617263685F6F7574335F7365742875696E74385F742076616C756529 -- void asdf_arch_out3_set(uint8_t value)
, 0x7B -- {
, 0x20206966202876616C756529207B --   if (value) {
, 0x202020207365745F6269742826415344465F4F5554335F504F52542C20415344465F4F5554335F424954293B --     set_bit(&ASDF_OUT3_PORT, ASDF_OUT3_BIT);
, 0x20207D --   }
, 0x2020656C7365207B --   else {
, 0x20202020636C6561725F6269742826415344465F4F5554335F504F52542C20415344465F4F5554335F424954293B --     clear_bit(&ASDF_OUT3_PORT, ASDF_OUT3_BIT);
, 0x20207D --   }
, 0x20207365745F6269742826415344465F4F5554335F4444522C20415344465F4F5554335F424954293B --   set_bit(&ASDF_OUT3_DDR, ASDF_OUT3_BIT);
, 0x7D -- }
, 0x0 -- 
, 0x2F2F2050524F4345445552453A20617364665F617263685F6F7574335F6F70656E5F68695F736574 -- // PROCEDURE: asdf_arch_out3_open_hi_set
, 0x2F2F20494E505554533A202875696E74385F74292076616C7565 -- // INPUTS: (uint8_t) value
, 0x2F2F204F5554505554533A206E6F6E65 -- // OUTPUTS: none
, 0x2F2F -- //
, 0x2F2F204445534352495054494F4E3A205365747320746865204F5554332062697420746F2068692D7A2069662076616C756520697320747275652C20616E64206C6F772069662076616C75652069732066616C73652E -- // DESCRIPTION: Sets the OUT3 bit to hi-z if value is true, and low if value is false.
, 0x2F2F -- //
, 0x2F2F205349444520454646454354533A205365652061626F76652E -- // SIDE EFFECTS: See above.
, 0x2F2F -- //
, 0x2F2F204E4F5445533A -- // NOTES:
, 0x2F2F -- //
, 0x2F2F2053434F50453A207075626C6963 -- // SCOPE: public
, 0x2F2F -- //
, 0x2F2F20434F4D504C45584954593A2032 -- // COMPLEXITY: 2
, 0x2F2F -- //
, 0x766F696420617364665F617263685F6F7574335F6F70656E5F68695F7365742875696E74385F742076616C756529 -- void asdf_arch_out3_open_hi_set(uint8_t value)
, 0x7B -- {
, 0x20206966202876616C756529207B --   if (value) {
, 0x20202020636C6561725F6269742826415344465F4F5554335F4444522C20415344465F4F5554335F424954293B --     clear_bit(&ASDF_OUT3_DDR, ASDF_OUT3_BIT);
, 0x202020207365745F6269742826415344465F4F5554335F504F52542C20415344465F4F5554335F424954293B --     set_bit(&ASDF_OUT3_PORT, ASDF_OUT3_BIT);
, 0x20207D --   }
, 0x2020656C7365207B --   else {
, 0x20202020636C6561725F6269742826415344465F4F5554335F504F52542C20415344465F4F5554335F424954293B --     clear_bit(&ASDF_OUT3_PORT, ASDF_OUT3_BIT);
, 0x202020207365745F6269742826415344465F4F5554335F4444522C20415344465F4F5554335F424954293B --     set_bit(&ASDF_OUT3_DDR, ASDF_OUT3_BIT);
, 0x20207D --   }
, 0x7D -- }
, 0x0 -- 
, 0x2F2F2050524F4345445552453A20617364665F617263685F6F7574335F6F70656E5F6C6F5F736574 -- // PROCEDURE: asdf_arch_out3_open_lo_set
, 0x2F2F20494E505554533A202875696E74385F74292076616C7565 -- // INPUTS: (uint8_t) value
, 0x2F2F204F5554505554533A206E6F6E65 -- // OUTPUTS: none
, 0x2F2F -- //
, 0x2F2F204445534352495054494F4E3A205365747320746865204F5554332062697420746F20686967682069662076616C756520697320747275652C20616E642068692D7A2069662076616C75652069732066616C73652E -- // DESCRIPTION: Sets the OUT3 bit to high if value is true, and hi-z if value is false.
, 0x2F2F -- //
, 0x2F2F205349444520454646454354533A205365652061626F76652E -- // SIDE EFFECTS: See above.
, 0x2F2F -- //
, 0x2F2F204E4F5445533A -- // NOTES:
, 0x2F2F -- //
, 0x2F2F2053434F50453A207075626C6963 -- // SCOPE: public
, 0x2F2F -- //
, 0x2F2F20434F4D504C45584954593A2032 -- // COMPLEXITY: 2
, 0x2F2F -- //
, 0x766F696420617364665F617263685F6F7574335F6F70656E5F6C6F5F7365742875696E74385F742076616C756529 -- void asdf_arch_out3_open_lo_set(uint8_t value)
, 0x7B -- {
, 0x20206966202876616C756529207B --   if (value) {
, 0x202020207365745F6269742826415344465F4F5554335F504F52542C20415344465F4F5554335F424954293B --     set_bit(&ASDF_OUT3_PORT, ASDF_OUT3_BIT);
, 0x202020207365745F6269742826415344465F4F5554335F4444522C20415344465F4F5554335F424954293B --     set_bit(&ASDF_OUT3_DDR, ASDF_OUT3_BIT);
, 0x20207D --   }
, 0x2020656C7365207B --   else {
, 0x20202020636C6561725F6269742826415344465F4F5554335F4444522C20415344465F4F5554335F424954293B --     clear_bit(&ASDF_OUT3_DDR, ASDF_OUT3_BIT);
, 0x20202020636C6561725F6269742826415344465F4F5554335F504F52542C20415344465F4F5554335F424954293B --     clear_bit(&ASDF_OUT3_PORT, ASDF_OUT3_BIT);
, 0x20207D --   }
, 0x7D -- }
, 0x0 -- 
, 0x2F2F2050524F4345445552453A20617364665F617263685F706F735F7374726F6265 -- // PROCEDURE: asdf_arch_pos_strobe
, 0x2F2F20494E505554533A206E6F6E65 -- // INPUTS: none
, 0x2F2F204F5554505554533A206E6F6E65 -- // OUTPUTS: none
, 0x2F2F -- //
, 0x2F2F204445534352495054494F4E3A20496E697469616C697A65207374726F6265206F757470757420746F20706F73697469766520706F6C61726974792E20496E697469616C207374617465206973 -- // DESCRIPTION: Initialize strobe output to positive polarity. Initial state is
, 0x2F2F204C4F57 -- // LOW
, 0x2F2F -- //
, 0x2F2F205349444520454646454354533A20536565204445534352495054494F4E -- // SIDE EFFECTS: See DESCRIPTION
, 0x2F2F -- //
, 0x2F2F2053434F50453A207075626C6963 -- // SCOPE: public
, 0x2F2F -- //
, 0x2F2F20434F4D504C45584954593A2031 -- // COMPLEXITY: 1
, 0x2F2F -- //
, 0x766F696420617364665F617263685F7365745F706F735F7374726F626528766F696429 -- void asdf_arch_set_pos_strobe(void)
, 0x7B -- {
, 0x2020636C6561725F6269742826415344465F5354524F42455F504F52542C20415344465F5354524F42455F424954293B --   clear_bit(&ASDF_STROBE_PORT, ASDF_STROBE_BIT);
, 0x20207365745F6269742826415344465F5354524F42455F4444522C20415344465F5354524F42455F424954293B --   set_bit(&ASDF_STROBE_DDR, ASDF_STROBE_BIT);
, 0x7D -- }
, 0x0 -- 
, 0x2F2F2050524F4345445552453A20617364665F617263685F6E65675F7374726F6265 -- // PROCEDURE: asdf_arch_neg_strobe
, 0x2F2F20494E505554533A206E6F6E65 -- // INPUTS: none
, 0x2F2F204F5554505554533A206E6F6E65 -- // OUTPUTS: none
, 0x2F2F -- //
, 0x2F2F204445534352495054494F4E3A20496E697469616C697A65207374726F6265206F7574707574 -- // DESCRIPTION: Initialize strobe output
, 0x2F2F -- //
, 0x2F2F205349444520454646454354533A20536565204445534352495054494F4E -- // SIDE EFFECTS: See DESCRIPTION
, 0x2F2F -- //
, 0x2F2F2053434F50453A2070726976617465 -- // SCOPE: private
, 0x2F2F -- //
, 0x2F2F20434F4D504C45584954593A2031 -- // COMPLEXITY: 1
, 0x2F2F -- //
, 0x766F696420617364665F617263685F7365745F6E65675F7374726F626528766F696429 -- void asdf_arch_set_neg_strobe(void)
, 0x7B -- {
, 0x20207365745F6269742826415344465F5354524F42455F504F52542C20415344465F5354524F42455F424954293B --   set_bit(&ASDF_STROBE_PORT, ASDF_STROBE_BIT);
, 0x20207365745F6269742826415344465F5354524F42455F4444522C20415344465F5354524F42455F424954293B --   set_bit(&ASDF_STROBE_DDR, ASDF_STROBE_BIT);
, 0x7D -- }
, 0x0 -- 
, 0x2F2F2050524F4345445552453A20617364665F617263685F696E69745F61736369695F6F7574707574 -- // PROCEDURE: asdf_arch_init_ascii_output
, 0x2F2F20494E505554533A206E6F6E65 -- // INPUTS: none
, 0x2F2F204F5554505554533A206E6F6E65 -- // OUTPUTS: none
, 0x2F2F -- //
, 0x2F2F204445534352495054494F4E3A2053657473207570206F757470757420706F727420666F72204153434949206F7574707574 -- // DESCRIPTION: Sets up output port for ASCII output
, 0x2F2F -- //
, 0x2F2F205349444520454646454354533A20536565204445534352495054494F4E -- // SIDE EFFECTS: See DESCRIPTION
, 0x2F2F -- //
, 0x2F2F2053434F50453A2070726976617465 -- // SCOPE: private
, 0x2F2F -- //
, 0x2F2F20434F4D504C45584954593A2031 -- // COMPLEXITY: 1
, 0x2F2F -- //
, 0x73746174696320766F696420617364665F617263685F696E69745F61736369695F6F757470757428766F696429 -- static void asdf_arch_init_ascii_output(void)
, 0x7B -- {
, 0x20202F2F2073657420616C6C206F757470757473 --   // set all outputs
, 0x2020415344465F41534349495F504F5254203D20646174615F706F6C61726974793B --   ASDF_ASCII_PORT = data_polarity;
, 0x2020415344465F41534349495F444452203D20414C4C5F4F5554505554533B --   ASDF_ASCII_DDR = ALL_OUTPUTS;
, 0x7D -- }
, 0x0 -- 
, 0x2F2F2050524F4345445552453A20617364665F617263685F696E69745F636F6C756D6E73 -- // PROCEDURE: asdf_arch_init_columns
, 0x2F2F20494E505554533A206E6F6E65 -- // INPUTS: none
, 0x2F2F204F5554505554533A206E6F6E65 -- // OUTPUTS: none
, 0x2F2F -- //
, 0x2F2F204445534352495054494F4E3A205365747320757020636F6C756D6E7320706F727420617320696E70757420616E6420656E61626C65207765616B2070756C6C7570732E -- // DESCRIPTION: Sets up columns port as input and enable weak pullups.
, 0x2F2F -- //
, 0x2F2F205349444520454646454354533A20536565204445534352495054494F4E -- // SIDE EFFECTS: See DESCRIPTION
, 0x2F2F -- //
, 0x2F2F2053434F50453A2070726976617465 -- // SCOPE: private
, 0x2F2F -- //
, 0x2F2F20434F4D504C45584954593A2031 -- // COMPLEXITY: 1
, 0x2F2F -- //
, 0x73746174696320766F696420617364665F617263685F696E69745F636F6C756D6E7328766F696429 -- static void asdf_arch_init_columns(void)
, 0x7B -- {
, 0x2020415344465F434F4C554D4E535F444452203D20414C4C5F494E505554533B --   ASDF_COLUMNS_DDR = ALL_INPUTS;
, 0x2020415344465F434F4C554D4E535F504F5254203D20414C4C5F50554C4C5550533B --   ASDF_COLUMNS_PORT = ALL_PULLUPS;
, 0x7D -- }
, 0x0 -- 
, 0x2F2F2050524F4345445552453A20617364665F617263685F696E69745F726F775F6F757470757473 -- // PROCEDURE: asdf_arch_init_row_outputs
, 0x2F2F20494E505554533A206E6F6E65 -- // INPUTS: none
, 0x2F2F204F5554505554533A206E6F6E65 -- // OUTPUTS: none
, 0x2F2F -- //
, 0x2F2F204445534352495054494F4E3A2053657473207570206F757470757420706F727420746F206C61746368206B6579626F617264206D617472697820726F7720666F72207363616E6E696E672E -- // DESCRIPTION: Sets up output port to latch keyboard matrix row for scanning.
, 0x2F2F -- //
, 0x2F2F205349444520454646454354533A20536565204445534352495054494F4E -- // SIDE EFFECTS: See DESCRIPTION
, 0x2F2F -- //
, 0x2F2F2053434F50453A2070726976617465 -- // SCOPE: private
, 0x2F2F -- //
, 0x2F2F20434F4D504C45584954593A2031 -- // COMPLEXITY: 1
, 0x2F2F -- //
, 0x73746174696320766F696420617364665F617263685F696E69745F726F775F6F75747075747328766F696429 -- static void asdf_arch_init_row_outputs(void)
, 0x7B -- {
, 0x2020415344465F4849524F575F444452203D20414C4C5F4F5554505554533B --   ASDF_HIROW_DDR = ALL_OUTPUTS;
, 0x2020415344465F4C4F524F575F444452203D20414C4C5F4F5554505554533B --   ASDF_LOROW_DDR = ALL_OUTPUTS;
, 0x7D -- }
, 0x0 -- 
, 0x2F2F2050524F4345445552453A20617364665F617263685F70756C73655F64656C61795F73686F7274 -- // PROCEDURE: asdf_arch_pulse_delay_short
, 0x2F2F20494E505554533A206E6F6E65 -- // INPUTS: none
, 0x2F2F204F5554505554533A206E6F6E65 -- // OUTPUTS: none
, 0x2F2F -- //
, 0x2F2F204445534352495054494F4E3A2044656C617973206120666978656420616D6F756E74206F662074696D6520666F72206B6579626F617264206F75747075742070756C73657320737065636966696564206279 -- // DESCRIPTION: Delays a fixed amount of time for keyboard output pulses specified by
, 0x2F2F20415344465F50554C53455F44454C41595F53484F52545F5553 -- // ASDF_PULSE_DELAY_SHORT_US
, 0x2F2F -- //
, 0x2F2F205349444520454646454354533A207365652061626F76652E -- // SIDE EFFECTS: see above.
, 0x2F2F -- //
, 0x2F2F204E4F5445533A2053657420415344465F50554C53455F44454C41595F555320696E20617364665F636F6E6669672E68 -- // NOTES: Set ASDF_PULSE_DELAY_US in asdf_config.h
, 0x2F2F -- //
, 0x2F2F2053434F50453A207075626C6963 -- // SCOPE: public
, 0x2F2F -- //
, 0x2F2F20434F4D504C45584954593A2031 -- // COMPLEXITY: 1
, 0x2F2F -- //
, 0x766F696420617364665F617263685F70756C73655F64656C61795F73686F727428766F696429 -- void asdf_arch_pulse_delay_short(void)
, 0x7B -- {
, 0x20205F64656C61795F757328415344465F50554C53455F44454C41595F53484F52545F5553293B --   _delay_us(ASDF_PULSE_DELAY_SHORT_US);
, 0x7D -- }
, 0x0 -- 
, 0x2F2F2050524F4345445552453A20617364665F617263685F70756C73655F64656C61795F6C6F6E67 -- // PROCEDURE: asdf_arch_pulse_delay_long
, 0x2F2F20494E505554533A206E6F6E65 -- // INPUTS: none
, 0x2F2F204F5554505554533A206E6F6E65 -- // OUTPUTS: none
, 0x2F2F -- //
, 0x2F2F204445534352495054494F4E3A2044656C617973206120666978656420616D6F756E74206F662074696D6520666F72206B6579626F617264206F75747075742070756C73657320737065636966696564206279 -- // DESCRIPTION: Delays a fixed amount of time for keyboard output pulses specified by
, 0x2F2F20415344465F50554C53455F44454C41595F4C4F4E475F4D53 -- // ASDF_PULSE_DELAY_LONG_MS
, 0x2F2F -- //
, 0x2F2F205349444520454646454354533A207365652061626F76652E -- // SIDE EFFECTS: see above.
, 0x2F2F -- //
, 0x2F2F204E4F5445533A2053657420415344465F50554C53455F44454C41595F555320696E20617364665F636F6E6669672E68 -- // NOTES: Set ASDF_PULSE_DELAY_US in asdf_config.h
, 0x2F2F -- //
, 0x2F2F2053434F50453A207075626C6963 -- // SCOPE: public
, 0x2F2F -- //
, 0x2F2F20434F4D504C45584954593A2031 -- // COMPLEXITY: 1
, 0x2F2F -- //
, 0x766F696420617364665F617263685F70756C73655F64656C61795F6C6F6E6728766F696429 -- void asdf_arch_pulse_delay_long(void)
, 0x7B -- {
, 0x20205F64656C61795F6D7328415344465F50554C53455F44454C41595F4C4F4E475F4D53293B --   _delay_ms(ASDF_PULSE_DELAY_LONG_MS);
, 0x7D -- }
, 0x0 -- 
, 0x2F2F2050524F4345445552453A20617364665F617263685F64656C61795F6D73 -- // PROCEDURE: asdf_arch_delay_ms
, 0x2F2F20494E505554533A202875696E743136292064656C61795F6D73202D207468652064656C617920696E206D7365632E -- // INPUTS: (uint16) delay_ms - the delay in msec.
, 0x2F2F204F5554505554533A206E6F6E65 -- // OUTPUTS: none
, 0x2F2F -- //
, 0x2F2F204445534352495054494F4E3A2044656C617973206120737065636966696564206E756D626572206F66206D696C6C697365636F6E6473 -- // DESCRIPTION: Delays a specified number of milliseconds
, 0x2F2F -- //
, 0x2F2F205349444520454646454354533A207365652061626F76652E -- // SIDE EFFECTS: see above.
, 0x2F2F -- //
, 0x2F2F2053434F50453A207075626C6963 -- // SCOPE: public
, 0x2F2F -- //
, 0x2F2F20434F4D504C45584954593A2031 -- // COMPLEXITY: 1
, 0x2F2F -- //
, 0x766F696420617364665F617263685F64656C61795F6D732875696E7431365F742064656C61795F6D7329 -- void asdf_arch_delay_ms(uint16_t delay_ms)
, 0x7B -- {
, 0x2020666F72202875696E7431365F7420693D303B2069203C2064656C61795F6D733B20692B2B29207B --   for (uint16_t i=0; i < delay_ms; i++) {
, 0x202020205F64656C61795F6D732831293B --     _delay_ms(1);
, 0x20207D --   }
, 0x7D -- }
, 0x0 -- 
, 0x2F2F2050524F4345445552453A20617364665F617263685F696E6974 -- // PROCEDURE: asdf_arch_init
, 0x2F2F20494E505554533A206E6F6E65 -- // INPUTS: none
, 0x2F2F204F5554505554533A206E6F6E65 -- // OUTPUTS: none
, 0x2F2F -- //
, 0x2F2F204445534352495054494F4E3A207365747320757020616C6C2074686520686172647761726520666F7220746865206B6579626F617264 -- // DESCRIPTION: sets up all the hardware for the keyboard
, 0x2F2F -- //
, 0x2F2F205349444520454646454354533A20736565204445534352495054494F4E -- // SIDE EFFECTS: see DESCRIPTION
, 0x2F2F -- //
, 0x2F2F2053434F50453A207075626C6963 -- // SCOPE: public
, 0x2F2F -- //
, 0x2F2F20434F4D504C45584954593A2031 -- // COMPLEXITY: 1
, 0x2F2F -- //
, 0x766F696420617364665F617263685F696E697428766F696429 -- void asdf_arch_init(void)
, 0x7B -- {
, 0x20202F2F2064697361626C6520696E74657272757074733A --   // disable interrupts:
, 0x2020636C6928293B --   cli();
, 0x0 -- 
, 0x20202F2F20636C6561722074686520316D732074696D657220666C61673B --   // clear the 1ms timer flag;
, 0x20207469636B203D20303B --   tick = 0;
, 0x0 -- 
, 0x20202F2F207365742075702074696D65727320666F722031206D73656320696E74657276616C73 --   // set up timers for 1 msec intervals
, 0x2020617364665F617263685F696E69745F636C6F636B28293B --   asdf_arch_init_clock();
, 0x2020617364665F617263685F7469636B5F74696D65725F696E697428293B --   asdf_arch_tick_timer_init();
, 0x0 -- 
, 0x20202F2F20736574207570204153434949206F757470757420706F7274 --   // set up ASCII output port
, 0x2020617364665F617263685F696E69745F61736369695F6F757470757428293B --   asdf_arch_init_ascii_output();
, 0x0 -- 
, 0x20202F2F20696E697469616C697A65206B6579626F617264206461746120706F6C617269747920616E64207374726F626520706F6C6172697479 --   // initialize keyboard data polarity and strobe polarity
, 0x2020646174615F706F6C6172697479203D20415344465F44454641554C545F444154415F504F4C41524954593B --   data_polarity = ASDF_DEFAULT_DATA_POLARITY;
, 0x0 -- 
, 0x202069662028415344465F44454641554C545F5354524F42455F504F4C4152495459203D3D20415344465F504F5349544956455F504F4C415249545929207B --   if (ASDF_DEFAULT_STROBE_POLARITY == ASDF_POSITIVE_POLARITY) {
, 0x20202020617364665F617263685F7365745F706F735F7374726F626528293B --     asdf_arch_set_pos_strobe();
, 0x20207D20656C7365207B --   } else {
, 0x20202020617364665F617263685F7365745F6E65675F7374726F626528293B --     asdf_arch_set_neg_strobe();
, 0x20207D --   }
, 0x0 -- 
, 0x2020617364665F617263685F696E69745F6C65647328293B --   asdf_arch_init_leds();
, 0x0 -- 
, 0x20202F2F2073657420757020726F7720616E6420636F6C756D6E20706F727473 --   // set up row and column ports
, 0x2020617364665F617263685F696E69745F726F775F6F75747075747328293B --   asdf_arch_init_row_outputs();
, 0x2020617364665F617263685F696E69745F636F6C756D6E7328293B --   asdf_arch_init_columns();
, 0x0 -- 
, 0x20202F2F20656E61626C6520696E74657272757074733A --   // enable interrupts:
, 0x202073656928293B --   sei();
, 0x7D -- }
, 0x0 -- 
, 0x2F2F2050524F4345445552453A20617364665F617263685F726561645F726F77 -- // PROCEDURE: asdf_arch_read_row
, 0x2F2F20494E505554533A202875696E74385F742920726F773A2074686520726F77206E756D62657220746F206265207363616E6E6564 -- // INPUTS: (uint8_t) row: the row number to be scanned
, 0x2F2F204F5554505554533A2072657475726E73206120776F726420636F6E7461696E696E6720746865206163746976652028707265737365642920636F6C756D6E73 -- // OUTPUTS: returns a word containing the active (pressed) columns
, 0x2F2F -- //
, 0x2F2F204445534352495054494F4E3A204F7574707574732074686520617267756D656E7420746F2074686520524F5720706F7274732C207468656E2072656164732074686520636F6C756D6E -- // DESCRIPTION: Outputs the argument to the ROW ports, then reads the column
, 0x2F2F20706F727420616E642072657475726E73207468652076616C75652E205468652076616C756520697320612062696E61727920726570726573656E746174696F6E206F6620746865206B657973 -- // port and returns the value. The value is a binary representation of the keys
, 0x2F2F20707265737365642077697468696E2074686520726F772C207769746820313D707265737365642C20303D72656C65617365642E -- // pressed within the row, with 1=pressed, 0=released.
, 0x2F2F -- //
, 0x2F2F205349444520454646454354533A205365747320524F57206F757470757420706F72742E -- // SIDE EFFECTS: Sets ROW output port.
, 0x2F2F -- //
, 0x2F2F204E4F5445533A -- // NOTES:
, 0x2F2F -- //
, 0x2F2F20312920546865206B65796D617020726570726573656E747320616E20756E70726573736564206B657920617320612022302220616E6420612070726573736564206B65792061732061 -- // 1) The keymap represents an unpressed key as a "0" and a pressed key as a
, 0x2F2F202020202231222E20536F2C2069662061206B657970726573732070756C6C732074686520636F6C756D6E206C696E65206C6F772C207468656E207468652072656164696E67206F6620746865 -- //    "1". So, if a keypress pulls the column line low, then the reading of the
, 0x2F2F20202020706879736963616C2062697473206D75737420626520696E7665727465642E -- //    physical bits must be inverted.
, 0x2F2F -- //
, 0x2F2F203229204120736D616C6C2064656C61792028327573656329206973207265717569726564206265747765656E2073657474696E6720746865206B6579626F61726420726F77206F757470757473 -- // 2) A small delay (2usec) is required between setting the keyboard row outputs
, 0x2F2F20202020616E642072656164696E672074686520636F6C756D6E732C2077686963682049207468696E6B2069732064756520746F2063617061636974616E6365206163726F737320746865 -- //    and reading the columns, which I think is due to capacitance across the
, 0x2F2F20202020726576657273652D6269617365642064696F6465732E -- //    reverse-biased diodes.
, 0x2F2F -- //
, 0x2F2F2053434F50453A207075626C6963 -- // SCOPE: public
, 0x2F2F -- //
, 0x2F2F20434F4D504C45584954593A2031 -- // COMPLEXITY: 1
, 0x2F2F -- //
, 0x617364665F636F6C735F7420617364665F617263685F726561645F726F772875696E74385F7420726F7729 -- asdf_cols_t asdf_arch_read_row(uint8_t row)
, 0x7B -- {
, 0x202075696E7433325F7420726F7773203D207E28314C203C3C20726F77293B --   uint32_t rows = ~(1L << row);
, 0x0 -- 
, 0x2020415344465F4C4F524F575F504F5254203D202875696E74385F742928726F777320262030786666293B --   ASDF_LOROW_PORT = (uint8_t)(rows & 0xff);
, 0x20205F64656C61795F757328415344465F4B4559424F4152445F524F575F534554544C494E475F54494D455F5553293B --   _delay_us(ASDF_KEYBOARD_ROW_SETTLING_TIME_US);
, 0x2020415344465F4849524F575F504F5254203D202875696E74385F74292828726F7773203E3E20382920262030786666293B --   ASDF_HIROW_PORT = (uint8_t)((rows >> 8) & 0xff);
, 0x20205F64656C61795F757328415344465F4B4559424F4152445F524F575F534554544C494E475F54494D455F5553293B --   _delay_us(ASDF_KEYBOARD_ROW_SETTLING_TIME_US);
, 0x0 -- 
, 0x202072657475726E207E28617364665F636F6C735F742920415344465F434F4C554D4E535F50494E3B --   return ~(asdf_cols_t) ASDF_COLUMNS_PIN;
, 0x7D -- }
, 0x0 -- 
, 0x2F2F2050524F4345445552453A20617364665F617263685F6F73695F726561645F726F77 -- // PROCEDURE: asdf_arch_osi_read_row
, 0x2F2F20494E505554533A202875696E74385F742920726F773A2074686520726F77206E756D62657220746F206265207363616E6E6564 -- // INPUTS: (uint8_t) row: the row number to be scanned
, 0x2F2F204F5554505554533A2072657475726E73206120776F726420636F6E7461696E696E6720746865206163746976652028707265737365642920636F6C756D6E73 -- // OUTPUTS: returns a word containing the active (pressed) columns
, 0x2F2F -- //
, 0x2F2F204445534352495054494F4E3A204F7574707574732074686520617267756D656E7420746F2074686520524F5720706F7274732C207468656E2072656164732074686520636F6C756D6E -- // DESCRIPTION: Outputs the argument to the ROW ports, then reads the column
, 0x2F2F20706F727420616E642072657475726E73207468652076616C75652E205468652076616C756520697320612062696E61727920726570726573656E746174696F6E206F6620746865206B657973 -- // port and returns the value. The value is a binary representation of the keys
, 0x2F2F20707265737365642077697468696E2074686520726F772C207769746820313D707265737365642C20303D72656C65617365642E -- // pressed within the row, with 1=pressed, 0=released.
, 0x2F2F -- //
, 0x2F2F205349444520454646454354533A205365747320524F57206F757470757420706F72742E -- // SIDE EFFECTS: Sets ROW output port.
, 0x2F2F -- //
, 0x2F2F204E4F5445533A -- // NOTES:
, 0x2F2F -- //
, 0x2F2F20312920546865206B65796D617020726570726573656E747320616E20756E70726573736564206B657920617320612022302220616E6420612070726573736564206B65792061732061 -- // 1) The keymap represents an unpressed key as a "0" and a pressed key as a
, 0x2F2F202020202231222E20536F2C2069662061206B657970726573732070756C6C732074686520636F6C756D6E206C696E65206C6F772C207468656E207468652072656164696E67206F6620746865 -- //    "1". So, if a keypress pulls the column line low, then the reading of the
, 0x2F2F20202020706879736963616C2062697473206D75737420626520696E7665727465642E -- //    physical bits must be inverted.
, 0x2F2F -- //
, 0x2F2F2053434F50453A207075626C6963 -- // SCOPE: public
, 0x2F2F -- //
, 0x2F2F20434F4D504C45584954593A2031 -- // COMPLEXITY: 1
, 0x2F2F -- //
, 0x617364665F636F6C735F7420617364665F617263685F6F73695F726561645F726F772875696E74385F7420726F7729 -- asdf_cols_t asdf_arch_osi_read_row(uint8_t row)
, 0x7B -- {
, 0x2020617364665F636F6C735F7420636F6C733B --   asdf_cols_t cols;
, 0x0 -- 
, 0x202069662028726F77203E203729207B --   if (row > 7) {
, 0x20202020636F6C73203D20617364665F617263685F726561645F726F7728726F77293B --     cols = asdf_arch_read_row(row);
, 0x20207D --   }
, 0x2020656C7365207B --   else {
, 0x202020202F2F20656E61626C6520746865204F5349206B6579626F617264 --     // enable the OSI keyboard
, 0x20202020636C6561725F6269742826415344465F4F53495F4B42455F504F52542C20415344465F4F53495F4B42455F424954293B --     clear_bit(&ASDF_OSI_KBE_PORT, ASDF_OSI_KBE_BIT);
, 0x0 -- 
, 0x202020202F2F2072656769737465722074686520726F7720746F2062652072656164 --     // register the row to be read
, 0x20202020415344465F434F4C554D4E535F444452203D20414C4C5F4F5554505554533B --     ASDF_COLUMNS_DDR = ALL_OUTPUTS;
, 0x0 -- 
, 0x20202020415344465F434F4C554D4E535F504F5254203D202831203C3C20726F77293B --     ASDF_COLUMNS_PORT = (1 << row);
, 0x20202020636C6561725F6269742826415344465F4F53495F52575F504F52542C20415344465F4F53495F52575F424954293B --     clear_bit(&ASDF_OSI_RW_PORT, ASDF_OSI_RW_BIT);
, 0x202020207365745F6269742826415344465F4F53495F52575F504F52542C20415344465F4F53495F52575F424954293B --     set_bit(&ASDF_OSI_RW_PORT, ASDF_OSI_RW_BIT);
, 0x0 -- 
, 0x202020202F2F205265616420696E2074686520636F6C756D6E73 --     // Read in the columns
, 0x20202020415344465F434F4C554D4E535F444452203D20414C4C5F494E505554533B --     ASDF_COLUMNS_DDR = ALL_INPUTS;
, 0x2020202072657475726E20415344465F434F4C554D4E535F50494E3B --     return ASDF_COLUMNS_PIN;
, 0x0 -- 
, 0x20202020415344465F4C4F524F575F504F5254203D20726F77202620307866663B --     ASDF_LOROW_PORT = row & 0xff;
, 0x0 -- 
, 0x20202020636F6C73203D2028617364665F636F6C735F742920415344465F434F4C554D4E535F504F52543B --     cols = (asdf_cols_t) ASDF_COLUMNS_PORT;
, 0x20207D --   }
, 0x202072657475726E20636F6C733B --   return cols;
, 0x7D -- }
, 0x0 -- 
, 0x0 -- 
, 0x2F2F2050524F4345445552453A20617364665F617263685F73656E645F636F6465 -- // PROCEDURE: asdf_arch_send_code
, 0x2F2F20494E505554533A20286B6579636F64655F742920636F6465202D2074686520372D62697420415343494920636F646520746F206265206F757470757420627920746865206B6579626F617264 -- // INPUTS: (keycode_t) code - the 7-bit ASCII code to be output by the keyboard
, 0x2F2F204F5554505554533A206E6F6E65 -- // OUTPUTS: none
, 0x2F2F -- //
, 0x2F2F204445534352495054494F4E3A2054616B657320612063686172616374657220636F646520616E64206F7574707574732074686520636F6465206F6E206120706172616C6C656C204153434949 -- // DESCRIPTION: Takes a character code and outputs the code on a parallel ASCII
, 0x2F2F20706F72742C20776974682061207374726F62652E205468697320726F7574696E6520636F756C64206265207265706C61636564207769746820554152542C204932432C205553422C206F72 -- // port, with a strobe. This routine could be replaced with UART, I2C, USB, or
, 0x2F2F206F74686572206F7574707574206D656368616E69736D2C206F6620636F757273652E -- // other output mechanism, of course.
, 0x2F2F -- //
, 0x2F2F205349444520454646454354533A205365652061626F76652E -- // SIDE EFFECTS: See above.
, 0x2F2F -- //
, 0x2F2F204E4F5445533A20546865207374726F6265206973207365742062792074686520415344465F5354524F42455F4C454E47544820646566696E6974696F6E2E205468652064617461 -- // NOTES: The strobe is set by the ASDF_STROBE_LENGTH definition. The data
, 0x2F2F206F757470757420616E64207374726F626520706F6C61726974792061726520736574206279207468652073746174696320646174615F706F6C617269747920616E6420737461746963 -- // output and strobe polarity are set by the static data_polarity and static
, 0x2F2F207374726F62655F706F6C6172697479207661726961626C65732E -- // strobe_polarity variables.
, 0x2F2F -- //
, 0x2F2F2053434F50453A -- // SCOPE:
, 0x2F2F -- //
, 0x2F2F20434F4D504C45584954593A -- // COMPLEXITY:
, 0x2F2F -- //
, 0x0 -- 
, 0x766F696420617364665F617263685F73656E645F636F646528617364665F6B6579636F64655F7420636F646529 -- void asdf_arch_send_code(asdf_keycode_t code)
, 0x7B -- {
, 0x2020415344465F41534349495F504F5254203D2028636F6465205E20646174615F706F6C6172697479293B --   ASDF_ASCII_PORT = (code ^ data_polarity);
, 0x0 -- 
, 0x0 -- 
, 0x20202F2F20746F67676C65207374726F62652E20204D7573742074657374206265666F72652073657474696E6720746F2061766F69642073707572696F7573207374726F6265 --   // toggle strobe.  Must test before setting to avoid spurious strobe
, 0x20207365745F6269742826415344465F5354524F42455F50494E2C20415344465F5354524F42455F424954293B --   set_bit(&ASDF_STROBE_PIN, ASDF_STROBE_BIT);
, 0x0 -- 
, 0x20205F64656C61795F757328415344465F5354524F42455F4C454E4754485F5553293B --   _delay_us(ASDF_STROBE_LENGTH_US);
, 0x0 -- 
, 0x20207365745F6269742826415344465F5354524F42455F50494E2C20415344465F5354524F42455F424954293B --   set_bit(&ASDF_STROBE_PIN, ASDF_STROBE_BIT);
, 0x7D -- }
, 0x0 -- 
, 0x2F2F2D2D2D2D2D2D2D7C2D2D2D2D2D2D2D2D2D7C2D2D2D2D2D2D2D2D2D2B2D2D2D2D2D2D2D2D2D2B2D2D2D2D2D2D2D2D2D2B2D2D2D2D2D2D2D2D2D2B2D2D2D2D2D2D2D2D2D2B2D2D2D2D2D2D2D2D2D2B -- //-------|---------|---------+---------+---------+---------+---------+---------+
, 0x2F2F2041626F7665206C696E6520697320383020636F6C756D6E732C20616E642073686F756C6420646973706C617920636F6D706C6574656C7920696E2074686520656469746F722E -- // Above line is 80 columns, and should display completely in the editor.
, 0x2F2F -- //
  ]

end Asdf.C.Text
