import Verif.Model.Basic

/-! # Key tables of the unit tests

Generated by `tools/gen_testmaps.py` from `test/test_asdf_keymap_defs.h`; do not edit. -/

namespace Asdf.Tests

/-- `ASDF_TEST_PLAIN_MAP` (test/test_asdf_keymap_defs.h:67-79), row-major. -/
def testPlain : List Code := [
  0xC2, 0xA1, 0xA1, 0xA0, 0xA4, 0x1B, 0xA5, 0x5C,
  0xA0, 0x70, 0x3B, 0x2F, 0x20, 0x7A, 0x61, 0x71,
  0xA0, 0x2C, 0x6D, 0x6E, 0x62, 0x76, 0x63, 0x78,
  0xA0, 0x6B, 0x6A, 0x68, 0x67, 0x66, 0x64, 0x73,
  0xA0, 0x69, 0x75, 0x79, 0x74, 0x72, 0x65, 0x77,
  0xA6, 0xA7, 0xA2, 0x0D, 0x0A, 0x6F, 0x6C, 0x2E,
  0x7E, 0x5D, 0x5B, 0x2D, 0x3A, 0x30, 0x39, 0x38,
  0xA0, 0x37, 0x36, 0x35, 0x34, 0x33, 0x32, 0x31,
  0xA8, 0xA9, 0xAA, 0xAB, 0x00, 0x00, 0x00, 0x00]

/-- `ASDF_TEST_CAPS_MAP` (test/test_asdf_keymap_defs.h:81-93), row-major. -/
def testCaps : List Code := [
  0xC3, 0xA1, 0xA1, 0xA0, 0xA0, 0x1B, 0xA5, 0x5C,
  0xA0, 0x50, 0x3B, 0x2F, 0x20, 0x5A, 0x41, 0x51,
  0xA0, 0x2C, 0x4D, 0x4E, 0x42, 0x56, 0x43, 0x58,
  0xA0, 0x4B, 0x4A, 0x48, 0x47, 0x46, 0x44, 0x53,
  0xA0, 0x49, 0x55, 0x59, 0x54, 0x52, 0x45, 0x57,
  0xA6, 0xA7, 0xA2, 0x0D, 0x0A, 0x4F, 0x4C, 0x2E,
  0x7E, 0x5D, 0x5B, 0x2D, 0x3A, 0x30, 0x39, 0x38,
  0xA0, 0x37, 0x36, 0x35, 0x34, 0x33, 0x32, 0x31,
  0xA8, 0xA9, 0xAA, 0xAB, 0x00, 0x00, 0x00, 0x00]

/-- `ASDF_TEST_SHIFT_MAP` (test/test_asdf_keymap_defs.h:95-109), row-major. -/
def testShift : List Code := [
  0xC4, 0xA1, 0xA1, 0xA0, 0xA0, 0x1B, 0xA5, 0x7C,
  0xA0, 0x50, 0x2B, 0x3F, 0x20, 0x5A, 0x41, 0x51,
  0xA0, 0x3E, 0x4D, 0x4E, 0x42, 0x56, 0x43, 0x58,
  0xA0, 0x4B, 0x4A, 0x48, 0x47, 0x46, 0x44, 0x53,
  0xA0, 0x49, 0x55, 0x59, 0x54, 0x52, 0x45, 0x57,
  0xA6, 0xA7, 0xA2, 0x0D, 0x0A, 0x4F, 0x4C, 0x3C,
  0x7E, 0x7D, 0x7B, 0x3D, 0x2A, 0x30, 0x29, 0x28,
  0xA0, 0x27, 0x26, 0x25, 0x24, 0x23, 0x22, 0x21,
  0xA8, 0xA9, 0xAA, 0xAB, 0x00, 0x00, 0x00, 0x00]

/-- `ASDF_TEST_CTRL_MAP` (test/test_asdf_keymap_defs.h:112-131), row-major. -/
def testCtrl : List Code := [
  0xC5, 0xA1, 0xA1, 0xA0, 0xA0, 0x1B, 0xA5, 0x1C,
  0xA0, 0x10, 0xA0, 0xA0, 0x20, 0x1A, 0x01, 0x11,
  0xA0, 0x2C, 0x0D, 0x0E, 0x02, 0x16, 0x03, 0x18,
  0xA0, 0x0B, 0x0A, 0x08, 0x07, 0x06, 0x04, 0x13,
  0xA0, 0x09, 0x15, 0x19, 0x14, 0x12, 0x05, 0x17,
  0xA6, 0xA7, 0xA2, 0x0D, 0x0A, 0x0F, 0x0C, 0xA0,
  0xA0, 0x1D, 0x1B, 0xA0, 0xA0, 0xB7, 0xBF, 0xBE,
  0xA0, 0xBD, 0xBC, 0xBB, 0xBA, 0xB9, 0xB8, 0xB8,
  0xA8, 0xA9, 0xAA, 0xAB, 0x00, 0x00, 0x00, 0x00]

/-- `ASDF_TEST2_PLAIN_MAP` (test/test_asdf_keymap_defs.h:134-146), row-major. -/
def test2Plain : List Code := [
  0xC6, 0xA1, 0xA1, 0xA0, 0xA4, 0x1B, 0xA5, 0x5C,
  0xA0, 0x70, 0x3B, 0x2F, 0x20, 0x7A, 0x61, 0x71,
  0xA0, 0x2C, 0x6D, 0x6E, 0x62, 0x76, 0x63, 0x78,
  0xA0, 0x6B, 0x6A, 0x68, 0x67, 0x66, 0x64, 0x73,
  0xA0, 0x69, 0x75, 0x79, 0x74, 0x72, 0x65, 0x77,
  0xA6, 0xA7, 0xA2, 0x0D, 0x0A, 0x6F, 0x6C, 0x2E,
  0x7E, 0x5D, 0x5B, 0x2D, 0x3A, 0x30, 0x39, 0x38,
  0xA0, 0x37, 0x36, 0x35, 0x34, 0x33, 0x32, 0x31,
  0xA8, 0xA9, 0xAA, 0xAB, 0x00, 0x00, 0x00, 0x00]

/-- `ASDF_TEST2_CAPS_MAP` (test/test_asdf_keymap_defs.h:148-160), row-major. -/
def test2Caps : List Code := [
  0xC7, 0xA1, 0xA1, 0xA0, 0xA0, 0x1B, 0xA5, 0x5C,
  0xA0, 0x50, 0x3B, 0x2F, 0x20, 0x5A, 0x41, 0x51,
  0xA0, 0x2C, 0x4D, 0x4E, 0x42, 0x56, 0x43, 0x58,
  0xA0, 0x4B, 0x4A, 0x48, 0x47, 0x46, 0x44, 0x53,
  0xA0, 0x49, 0x55, 0x59, 0x54, 0x52, 0x45, 0x57,
  0xA6, 0xA7, 0xA2, 0x0D, 0x0A, 0x4F, 0x4C, 0x2E,
  0x7E, 0x5D, 0x5B, 0x2D, 0x3A, 0x30, 0x39, 0x38,
  0xA0, 0x37, 0x36, 0x35, 0x34, 0x33, 0x32, 0x31,
  0xA8, 0xA9, 0xAA, 0xAB, 0x00, 0x00, 0x00, 0x00]

/-- `ASDF_TEST2_SHIFT_MAP` (test/test_asdf_keymap_defs.h:162-176), row-major. -/
def test2Shift : List Code := [
  0xC8, 0xA1, 0xA1, 0xA0, 0xA0, 0x1B, 0xA5, 0x7C,
  0xA0, 0x50, 0x2B, 0x3F, 0x20, 0x5A, 0x41, 0x51,
  0xA0, 0x3E, 0x4D, 0x4E, 0x42, 0x56, 0x43, 0x58,
  0xA0, 0x4B, 0x4A, 0x48, 0x47, 0x46, 0x44, 0x53,
  0xA0, 0x49, 0x55, 0x59, 0x54, 0x52, 0x45, 0x57,
  0xA6, 0xA7, 0xA2, 0x0D, 0x0A, 0x4F, 0x4C, 0x3C,
  0x7E, 0x7D, 0x7B, 0x3D, 0x2A, 0x30, 0x29, 0x28,
  0xA0, 0x27, 0x26, 0x25, 0x24, 0x23, 0x22, 0x21,
  0xA8, 0xA9, 0xAA, 0xAB, 0x00, 0x00, 0x00, 0x00]

/-- `ASDF_TEST2_CTRL_MAP` (test/test_asdf_keymap_defs.h:179-198), row-major. -/
def test2Ctrl : List Code := [
  0xC9, 0xA1, 0xA1, 0xA0, 0xA0, 0x1B, 0xA5, 0x1C,
  0xA0, 0x10, 0xA0, 0xA0, 0x20, 0x1A, 0x01, 0x11,
  0xA0, 0x2C, 0x0D, 0x0E, 0x02, 0x16, 0x03, 0x18,
  0xA0, 0x0B, 0x0A, 0x08, 0x07, 0x06, 0x04, 0x13,
  0xA0, 0x09, 0x15, 0x19, 0x14, 0x12, 0x05, 0x17,
  0xA6, 0xA7, 0xA2, 0x0D, 0x0A, 0x0F, 0x0C, 0xA0,
  0xA0, 0x1D, 0x1B, 0xA0, 0xA0, 0xB7, 0xBF, 0xBE,
  0xA0, 0xBD, 0xBC, 0xBB, 0xBA, 0xB9, 0xB8, 0xB8,
  0xA8, 0xA9, 0xAA, 0xAB, 0x00, 0x00, 0x00, 0x00]

end Asdf.Tests
