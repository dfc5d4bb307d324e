/-!
# Character sets, palettes and key tables

Generated by tools/gen_vte_tables.py from src/tsm/tsm-vte-charsets.c and src/tsm/tsm-vte.c.
-/

namespace Verif.Vte

/-- `tsm_vte_unicode_lower` (src/tsm/tsm-vte-charsets.c:77-174). -/
def unicodeLower : List Nat := [
  0, 33, 34, 35, 36, 37, 38, 39, 40, 41, 42, 43, 44, 45, 46, 47, 48, 49, 50, 51, 52, 53, 54, 55,
  56, 57, 58, 59, 60, 61, 62, 63, 64, 65, 66, 67, 68, 69, 70, 71, 72, 73, 74, 75, 76, 77, 78, 79,
  80, 81, 82, 83, 84, 85, 86, 87, 88, 89, 90, 91, 92, 93, 94, 95, 96, 97, 98, 99, 100, 101, 102,
  103, 104, 105, 106, 107, 108, 109, 110, 111, 112, 113, 114, 115, 116, 117, 118, 119, 120, 121,
  122, 123, 124, 125, 126, 0]

/-- `tsm_vte_unicode_upper` (src/tsm/tsm-vte-charsets.c:183-280). -/
def unicodeUpper : List Nat := [
  0, 161, 162, 163, 164, 165, 166, 167, 168, 169, 170, 171, 172, 173, 174, 175, 176, 177, 178,
  179, 180, 181, 182, 183, 184, 185, 186, 187, 188, 189, 190, 191, 192, 193, 194, 195, 196, 197,
  198, 199, 200, 201, 202, 203, 204, 205, 206, 207, 208, 209, 210, 211, 212, 213, 214, 215, 216,
  217, 218, 219, 220, 221, 222, 223, 224, 225, 226, 227, 228, 229, 230, 231, 232, 233, 234, 235,
  236, 237, 238, 239, 240, 241, 242, 243, 244, 245, 246, 247, 248, 249, 250, 251, 252, 253, 254, 0]

/-- `tsm_vte_dec_supplemental_graphics` (src/tsm/tsm-vte-charsets.c:291-388). -/
def decSupplemental : List Nat := [
  0, 161, 162, 163, 0, 165, 0, 167, 164, 169, 170, 171, 0, 0, 0, 0, 176, 177, 178, 179, 0, 181,
  182, 183, 0, 185, 186, 187, 188, 189, 0, 191, 192, 193, 194, 195, 196, 197, 198, 199, 200, 201,
  202, 203, 204, 205, 206, 207, 0, 209, 210, 211, 212, 213, 214, 338, 216, 217, 218, 219, 220,
  376, 0, 223, 224, 225, 226, 227, 228, 229, 230, 231, 232, 233, 234, 235, 236, 237, 238, 239, 0,
  241, 242, 243, 244, 245, 246, 339, 248, 249, 250, 251, 252, 255, 0, 0]

/-- `tsm_vte_dec_special_graphics` (src/tsm/tsm-vte-charsets.c:400-497). -/
def decSpecial : List Nat := [
  0, 33, 34, 35, 36, 37, 38, 39, 40, 41, 42, 43, 44, 45, 46, 47, 48, 49, 50, 51, 52, 53, 54, 55,
  56, 57, 58, 59, 60, 61, 62, 63, 64, 65, 66, 67, 68, 69, 70, 71, 72, 73, 74, 75, 76, 77, 78, 79,
  80, 81, 82, 83, 84, 85, 86, 87, 88, 89, 90, 91, 92, 93, 94, 0, 9830, 9618, 9225, 9228, 9229,
  9226, 176, 177, 9252, 9227, 9496, 9488, 9484, 9492, 9532, 9146, 9147, 9472, 9148, 9149, 9500,
  9508, 9524, 9516, 9474, 8804, 8805, 960, 8800, 163, 8901, 0]

/-- `color_palette_legacy` (src/tsm/tsm-vte.c:200-220). -/
def paletteLegacy : List (Nat × Nat × Nat) := [
  (0, 0, 0), (205, 0, 0), (0, 205, 0), (205, 205, 0), (0, 0, 238), (205, 0, 205), (0, 205, 205),
  (229, 229, 229), (127, 127, 127), (255, 0, 0), (0, 255, 0), (255, 255, 0), (92, 92, 255),
  (255, 0, 255), (0, 255, 255), (255, 255, 255), (229, 229, 229), (0, 0, 0)]

/-- `color_palette_vga` (src/tsm/tsm-vte.c:223-243). -/
def paletteVga : List (Nat × Nat × Nat) := [
  (0, 0, 0), (170, 0, 0), (0, 170, 0), (170, 85, 0), (0, 0, 170), (170, 0, 170), (0, 170, 170),
  (170, 170, 170), (85, 85, 85), (255, 85, 85), (85, 255, 85), (255, 255, 85), (85, 85, 255),
  (255, 85, 255), (85, 255, 255), (255, 255, 255), (170, 170, 170), (0, 0, 0)]

/-- `color_palette_solarized` (src/tsm/tsm-vte.c:245-265). -/
def paletteSolarized : List (Nat × Nat × Nat) := [
  (7, 54, 66), (220, 50, 47), (133, 153, 0), (181, 137, 0), (38, 139, 210), (211, 54, 130),
  (42, 161, 152), (238, 232, 213), (0, 43, 54), (203, 75, 22), (88, 110, 117), (101, 123, 131),
  (131, 148, 150), (108, 113, 196), (147, 161, 161), (253, 246, 227), (238, 232, 213), (7, 54, 66)]

/-- `color_palette_solarized_black` (src/tsm/tsm-vte.c:267-287). -/
def paletteSolarizedBlack : List (Nat × Nat × Nat) := [
  (0, 0, 0), (220, 50, 47), (133, 153, 0), (181, 137, 0), (38, 139, 210), (211, 54, 130),
  (42, 161, 152), (238, 232, 213), (0, 43, 54), (203, 75, 22), (88, 110, 117), (101, 123, 131),
  (131, 148, 150), (108, 113, 196), (147, 161, 161), (253, 246, 227), (238, 232, 213), (0, 0, 0)]

/-- `color_palette_solarized_white` (src/tsm/tsm-vte.c:289-309). -/
def paletteSolarizedWhite : List (Nat × Nat × Nat) := [
  (7, 54, 66), (220, 50, 47), (133, 153, 0), (181, 137, 0), (38, 139, 210), (211, 54, 130),
  (42, 161, 152), (238, 232, 213), (0, 43, 54), (203, 75, 22), (88, 110, 117), (101, 123, 131),
  (131, 148, 150), (108, 113, 196), (147, 161, 161), (253, 246, 227), (7, 54, 66), (238, 232, 213)]

/-- `color_palette_soft_black` (src/tsm/tsm-vte.c:311-331). -/
def paletteSoftBlack : List (Nat × Nat × Nat) := [
  (63, 63, 63), (112, 80, 80), (96, 180, 138), (223, 175, 143), (154, 184, 215), (220, 140, 195),
  (140, 208, 211), (255, 255, 255), (112, 144, 128), (220, 163, 163), (114, 213, 163),
  (240, 223, 175), (148, 191, 243), (236, 147, 211), (147, 224, 227), (220, 220, 204),
  (220, 220, 204), (44, 44, 44)]

/-- `color_palette_base16_dark` (src/tsm/tsm-vte.c:333-353). -/
def paletteBase16Dark : List (Nat × Nat × Nat) := [
  (0, 0, 0), (171, 70, 66), (161, 181, 108), (247, 202, 136), (124, 175, 194), (186, 139, 175),
  (134, 193, 185), (170, 170, 170), (85, 85, 85), (171, 70, 66), (161, 181, 108), (247, 202, 136),
  (124, 175, 194), (186, 139, 175), (134, 193, 185), (255, 255, 255), (216, 216, 216),
  (24, 24, 24)]

/-- `color_palette_base16_light` (src/tsm/tsm-vte.c:355-375). -/
def paletteBase16Light : List (Nat × Nat × Nat) := [
  (0, 0, 0), (171, 70, 66), (161, 181, 108), (247, 202, 136), (124, 175, 194), (186, 139, 175),
  (134, 193, 185), (170, 170, 170), (85, 85, 85), (171, 70, 66), (161, 181, 108), (247, 202, 136),
  (124, 175, 194), (186, 139, 175), (134, 193, 185), (255, 255, 255), (24, 24, 24),
  (216, 216, 216)]

/-- The keys handled with CTRL and what is sent (src/tsm/tsm-vte.c:2582-2720,
external/xkbcommon/xkbcommon-keysyms.h). -/
def ctrlKeys : List (Nat × UInt8) := [
  (0x32, 0), (0x20, 0), (0x61, 1), (0x41, 1), (0x62, 2), (0x42, 2), (0x63, 3), (0x43, 3),
  (0x64, 4), (0x44, 4), (0x65, 5), (0x45, 5), (0x66, 6), (0x46, 6), (0x67, 7), (0x47, 7),
  (0x68, 8), (0x48, 8), (0x69, 9), (0x49, 9), (0x6a, 10), (0x4a, 10), (0x6b, 11), (0x4b, 11),
  (0x6c, 12), (0x4c, 12), (0x6d, 13), (0x4d, 13), (0x6e, 14), (0x4e, 14), (0x6f, 15), (0x4f, 15),
  (0x70, 16), (0x50, 16), (0x71, 17), (0x51, 17), (0x72, 18), (0x52, 18), (0x73, 19), (0x53, 19),
  (0x74, 20), (0x54, 20), (0x75, 21), (0x55, 21), (0x76, 22), (0x56, 22), (0x77, 23), (0x57, 23),
  (0x78, 24), (0x58, 24), (0x79, 25), (0x59, 25), (0x7a, 26), (0x5a, 26), (0x33, 27), (0x5b, 27),
  (0x7b, 27), (0x34, 28), (0x5c, 28), (0x7c, 28), (0x35, 29), (0x5d, 29), (0x7d, 29), (0x36, 30),
  (0x60, 30), (0x7e, 30), (0x37, 31), (0x2f, 31), (0x3f, 31), (0x38, 127)]

/-- What a key sends, see `keyTable`; the strings are those of the C code in their order
(src/tsm/tsm-vte.c:2722-3092). -/
inductive KeyAct where
  /-- one fixed string -/
  | plain (b : List UInt8)
  /-- depends on `backspace_sends_delete` -/
  | backspace (del bs : List UInt8)
  /-- depends on the keypad application mode -/
  | keypad (app num : List UInt8)
  /-- depends on the cursor key mode -/
  | cursor (app num : List UInt8)
  /-- depends on the line-feed/new-line mode -/
  | enter (nl cr : List UInt8)
  /-- the keypad's enter key: keypad application mode, then as `enter` -/
  | kpEnter (app nl cr : List UInt8)
  /-- depends on SHIFT -/
  | shifted (sh norm : List UInt8)
  /-- arrow keys: CTRL, then as `cursor` -/
  | arrow (ctrl app num : List UInt8)
  deriving DecidableEq, Repr

/-- The `switch (keysym)` (src/tsm/tsm-vte.c:2722-3092, external/xkbcommon/xkbcommon-keysyms.h);
strings are given as bytes. -/
def keyTable : List (Nat × KeyAct) := [
  (0xff08, .backspace [127] [8]),
  (0xff09, .plain [9]),
  (0xff89, .plain [9]),
  (0xfe20, .plain [27, 91, 90]),
  (0xff0a, .plain [10]),
  (0xff0b, .plain [11]),
  (0xff15, .plain [21]),
  (0xff1b, .plain [27]),
  (0xff8d, .kpEnter [27, 79, 77] [13, 10] [13]),
  (0xff0d, .enter [13, 10] [13]),
  (0xff68, .plain [27, 91, 49, 126]),
  (0xff63, .plain [27, 91, 50, 126]),
  (0xffff, .plain [27, 91, 51, 126]),
  (0xff60, .plain [27, 91, 52, 126]),
  (0xff55, .plain [27, 91, 53, 126]),
  (0xff9a, .plain [27, 91, 53, 126]),
  (0xff9b, .plain [27, 91, 54, 126]),
  (0xff56, .plain [27, 91, 54, 126]),
  (0xff52, .arrow [27, 91, 49, 59, 53, 65] [27, 79, 65] [27, 91, 65]),
  (0xff97, .arrow [27, 91, 49, 59, 53, 65] [27, 79, 65] [27, 91, 65]),
  (0xff54, .arrow [27, 91, 49, 59, 53, 66] [27, 79, 66] [27, 91, 66]),
  (0xff99, .arrow [27, 91, 49, 59, 53, 66] [27, 79, 66] [27, 91, 66]),
  (0xff53, .arrow [27, 91, 49, 59, 53, 67] [27, 79, 67] [27, 91, 67]),
  (0xff98, .arrow [27, 91, 49, 59, 53, 67] [27, 79, 67] [27, 91, 67]),
  (0xff51, .arrow [27, 91, 49, 59, 53, 68] [27, 79, 68] [27, 91, 68]),
  (0xff96, .arrow [27, 91, 49, 59, 53, 68] [27, 79, 68] [27, 91, 68]),
  (0xff9e, .keypad [27, 79, 112] [48]),
  (0xffb0, .keypad [27, 79, 112] [48]),
  (0xffb1, .keypad [27, 79, 113] [49]),
  (0xffb2, .keypad [27, 79, 114] [50]),
  (0xffb3, .keypad [27, 79, 115] [51]),
  (0xffb4, .keypad [27, 79, 116] [52]),
  (0xffb5, .keypad [27, 79, 117] [53]),
  (0xffb6, .keypad [27, 79, 118] [54]),
  (0xffb7, .keypad [27, 79, 119] [55]),
  (0xffb8, .keypad [27, 79, 120] [56]),
  (0xffb9, .keypad [27, 79, 121] [57]),
  (0xffad, .keypad [27, 79, 109] [45]),
  (0xffac, .keypad [27, 79, 108] [44]),
  (0xff9f, .keypad [27, 79, 110] [46]),
  (0xffae, .keypad [27, 79, 110] [46]),
  (0xffbd, .keypad [27, 79, 106] [47]),
  (0xffaf, .keypad [27, 79, 106] [47]),
  (0xffaa, .keypad [27, 79, 111] [42]),
  (0xffab, .keypad [27, 79, 107] [43]),
  (0xff50, .cursor [27, 79, 72] [27, 91, 72]),
  (0xff95, .cursor [27, 79, 72] [27, 91, 72]),
  (0xff57, .cursor [27, 79, 70] [27, 91, 70]),
  (0xff9c, .cursor [27, 79, 70] [27, 91, 70]),
  (0xff80, .plain [32]),
  (0xffbe, .shifted [27, 91, 50, 51, 126] [27, 79, 80]),
  (0xff91, .shifted [27, 91, 50, 51, 126] [27, 79, 80]),
  (0xffbf, .shifted [27, 91, 50, 52, 126] [27, 79, 81]),
  (0xff92, .shifted [27, 91, 50, 52, 126] [27, 79, 81]),
  (0xffc0, .shifted [27, 91, 50, 53, 126] [27, 79, 82]),
  (0xff93, .shifted [27, 91, 50, 53, 126] [27, 79, 82]),
  (0xffc1, .shifted [27, 91, 50, 54, 126] [27, 79, 83]),
  (0xff94, .shifted [27, 91, 50, 54, 126] [27, 79, 83]),
  (0xffc2, .shifted [27, 91, 50, 56, 126] [27, 91, 49, 53, 126]),
  (0xffc3, .shifted [27, 91, 50, 57, 126] [27, 91, 49, 55, 126]),
  (0xffc4, .shifted [27, 91, 51, 49, 126] [27, 91, 49, 56, 126]),
  (0xffc5, .shifted [27, 91, 51, 50, 126] [27, 91, 49, 57, 126]),
  (0xffc6, .shifted [27, 91, 51, 51, 126] [27, 91, 50, 48, 126]),
  (0xffc7, .shifted [27, 91, 51, 52, 126] [27, 91, 50, 49, 126]),
  (0xffc8, .shifted [27, 91, 50, 51, 59, 50, 126] [27, 91, 50, 51, 126]),
  (0xffc9, .shifted [27, 91, 50, 52, 59, 50, 126] [27, 91, 50, 52, 126]),
  (0xffca, .shifted [27, 91, 50, 53, 59, 50, 126] [27, 91, 50, 53, 126]),
  (0xffcb, .shifted [27, 91, 50, 54, 59, 50, 126] [27, 91, 50, 54, 126]),
  (0xffcc, .shifted [27, 91, 50, 56, 59, 50, 126] [27, 91, 50, 56, 126]),
  (0xffcd, .shifted [27, 91, 50, 57, 59, 50, 126] [27, 91, 50, 57, 126]),
  (0xffce, .shifted [27, 91, 51, 49, 59, 50, 126] [27, 91, 51, 49, 126]),
  (0xffcf, .shifted [27, 91, 51, 50, 59, 50, 126] [27, 91, 51, 50, 126]),
  (0xffd0, .shifted [27, 91, 51, 51, 59, 50, 126] [27, 91, 51, 51, 126]),
  (0xffd1, .shifted [27, 91, 51, 52, 59, 50, 126] [27, 91, 51, 52, 126])]

end Verif.Vte
