/-!
# The colours of the named palettes

As published, independent of the tables in the code.
-/

namespace Verif.Spec.Palettes

/-- Red, green and blue of `0xrrggbb`. -/
def rgb (n : Nat) : Nat × Nat × Nat := (n / 65536, n / 256 % 256, n % 256)

/-- A component of a colour: on or off. -/
def part (n bit on : Nat) : Nat := if n.testBit bit then on else 0

/-- The 16 colours of a VGA: bit 0 is red, 1 green, 2 blue and 3 the intensity; dark yellow is brown. -/
def vga (n : Nat) : Nat × Nat × Nat :=
  if n = 3 then rgb 0xaa5500
  else (part n 0 170 + part n 3 85, part n 1 170 + part n 3 85, part n 2 170 + part n 3 85)

/-- The 16 colours of xterm. -/
def xterm (n : Nat) : Nat × Nat × Nat :=
  if n = 4 then rgb 0x0000ee
  else if n = 7 then rgb 0xe5e5e5
  else if n = 8 then rgb 0x7f7f7f
  else if n = 12 then rgb 0x5c5cff
  else if n < 8 then (part n 0 205, part n 1 205, part n 2 205)
  else (part n 0 255, part n 1 255, part n 2 255)

/-- Solarized: base02, red, green, yellow, blue, magenta, cyan, base2, base03, orange, base01, base00, base0, violet, base1,
base3. -/
def solarized : List Nat := [0x073642, 0xdc322f, 0x859900, 0xb58900, 0x268bd2, 0xd33682, 0x2aa198, 0xeee8d5, 0x002b36, 0xcb4b16,
  0x586e75, 0x657b83, 0x839496, 0x6c71c4, 0x93a1a1, 0xfdf6e3]

/-- The palette of the theme Soft Black. -/
def softBlack : List Nat := [0x3f3f3f, 0x705050, 0x60b48a, 0xdfaf8f, 0x9ab8d7, 0xdc8cc3, 0x8cd0d3, 0xffffff, 0x709080, 0xdca3a3,
  0x72d5a3, 0xf0dfaf, 0x94bff3, 0xec93d3, 0x93e0e3, 0xdcdccc]

/-- Base16: base08, base0B, base0A, base0D, base0E and base0C. -/
def base16Colours : List Nat := [0xab4642, 0xa1b56c, 0xf7ca88, 0x7cafc2, 0xba8baf, 0x86c1b9]

/-- Base16: the same colours also as bright ones, between black, two greys and white. -/
def base16 : List Nat := [0x000000] ++ base16Colours ++ [0xaaaaaa, 0x555555] ++ base16Colours ++ [0xffffff]

/-- The palette with these 16 colours, and these foreground and background colours. -/
def with_ (l : List (Nat × Nat × Nat)) (fg bg : Nat) : List (Nat × Nat × Nat) := l ++ [rgb fg, rgb bg]

/-- The palettes by name. -/
def named : List (String × List (Nat × Nat × Nat)) :=
  [("solarized", with_ (solarized.map rgb) 0xeee8d5 0x073642),
    ("solarized-black", with_ ((solarized.set 0 0x000000).map rgb) 0xeee8d5 0x000000),
    ("solarized-white", with_ (solarized.map rgb) 0x073642 0xeee8d5),
    ("soft-black", with_ (softBlack.map rgb) 0xdcdccc 0x2c2c2c),
    ("base16-dark", with_ (base16.map rgb) 0xd8d8d8 0x181818),
    ("base16-light", with_ (base16.map rgb) 0x181818 0xd8d8d8),
    ("vga", with_ ((List.range 16).map vga) 0xaaaaaa 0x000000),
    ("legacy", with_ ((List.range 16).map xterm) 0xe5e5e5 0x000000)]

end Verif.Spec.Palettes
