import Verif.Spec.Vte
import Verif.Spec.Utf8
import Verif.Spec.Sgr

/-!
# Text, character sets and OSC strings

What a terminal does with printable text, with the shifts and designations of character sets,
and with the payload of an operating system command.
-/

namespace Verif
namespace Vte

/-- The UTF-8 form of a code point. -/
def utf8 (g : Nat) : List UInt8 := (Spec.Utf8.bytes g).map UInt8.ofNat

/-- In the current mode `g` can be sent as UTF-8: every ASCII character, and in UTF-8 mode every
code point that has a UTF-8 form. -/
def Typable (v : Vte) (g : Nat) : Prop :=
  g < 128 ∨ (v.f7bit = false ∧ v.f8bit = false ∧ Spec.Utf8.Encodable g)

/-- Not a C0 or C1 control character. -/
def Graphic (g : Nat) : Prop := 0x20 ≤ g ∧ ¬ (0x80 ≤ g ∧ g ≤ 0x9f)

/-! ### OSC strings -/

/-- Characters that do not end an OSC string: all but BEL, CAN, SUB, ESC and the C1 controls. -/
def Payload (g : Nat) : Prop := g ≠ 7 ∧ g ≠ 0x18 ∧ g ≠ 0x1a ∧ g ≠ 0x1b ∧ ¬ (0x80 ≤ g ∧ g ≤ 0x9f)

/-- The string that is collected: without control characters, and without characters that do not
fit into 127 bytes. -/
def oscText (gs : List Nat) : List UInt8 :=
  gs.foldl (fun s g => if g < 0x20 ∨ 127 < s.length + (utf8 g).length then s else s ++ utf8 g) []

/-! ### Character sets -/

/-- The character at position `i` (0 is the position of the space) of a set with 96 positions.
The lines of the special graphics are those of the VT100; `none` means that the set has no
character there. -/
def glyph : Cset → Nat → Option Nat
  | .unicodeLower, i => some (32 + i)
  | .unicodeUpper, i => some (160 + i)
  | .decSpecial, i =>
    if i < 63 then some (32 + i)
    else if i = 63 then none
    else ([0x2666, 0x2592, 0x2409, 0x240c, 0x240d, 0x240a, 0xb0, 0xb1, 0x2424, 0x240b, 0x2518, 0x2510, 0x250c,
      0x2514, 0x253c, 0x23ba, 0x23bb, 0x2500, 0x23bc, 0x23bd, 0x251c, 0x2524, 0x2534, 0x252c, 0x2502, 0x2264,
      0x2265, 0x3c0, 0x2260, 0xa3, 0x22c5] : List Nat)[i - 64]?
  | .decSupplemental, i =>
    if i ∈ [4, 6, 12, 13, 14, 15, 20, 24, 30, 48, 62, 80, 94] then none
    else if i = 8 then some 0xa4
    else if i = 55 then some 0x152
    else if i = 61 then some 0x178
    else if i = 87 then some 0x153
    else if i = 93 then some 0xff
    else some (160 + i)

/-- The state of the character sets: the sets G0 to G3, the ones shifted in for codes 33 to 126
and 161 to 254, and the one for the next code of the lower half only. -/
structure Charsets where
  set : Slot → Cset
  gl : Slot
  gr : Slot
  next : Option Slot

/-- The state of the character sets of an emulator. -/
def charsets (v : Vte) : Charsets :=
  { set := fun | .g0 => v.g0 | .g1 => v.g1 | .g2 => v.g2 | .g3 => v.g3
    gl := v.gl, gr := v.gr, next := v.glt }

/-- Text, shifts and designations. -/
inductive Item where
  | text (g : Nat)
  /-- SI, SO, LS2, LS3 -/
  | lockLeft (s : Slot)
  /-- LS1R, LS2R, LS3R; there is none for G0 -/
  | lockRight (s : Slot)
  /-- SS2, SS3 -/
  | single (s : Slot)
  /-- `ESC ( F` and so on, with the final character `F` -/
  | designate (s : Slot) (f : UInt8)

/-- The set designated by a final character: `B`, `<`, `0`, and the national ones. -/
def finalSet (f : UInt8) : Option Cset :=
  if f = 0x42 then some .unicodeLower
  else if f = 0x3c then some .decSupplemental
  else if f = 0x30 then some .decSpecial
  else if f ∈ ([0x41, 0x34, 0x43, 0x35, 0x52, 0x51, 0x4b, 0x59, 0x45, 0x36, 0x5a, 0x48, 0x37, 0x3d] : List UInt8)
    then some .unicodeUpper
  else none

/-- The bytes of an item. -/
def Item.bytes : Item → List UInt8
  | .text g => utf8 g
  | .lockLeft .g0 => [15]
  | .lockLeft .g1 => [14]
  | .lockLeft .g2 => [27, 110]
  | .lockLeft .g3 => [27, 111]
  | .lockRight .g0 => []
  | .lockRight .g1 => [27, 126]
  | .lockRight .g2 => [27, 125]
  | .lockRight .g3 => [27, 124]
  | .single .g2 => [27, 78]
  | .single .g3 => [27, 79]
  | .single _ => []
  | .designate .g0 f => [27, 40, f]
  | .designate .g1 f => [27, 41, f]
  | .designate .g2 f => [27, 42, f]
  | .designate .g3 f => [27, 43, f]

/-- Items that exist and can be sent in the current mode. -/
def Item.Valid (v : Vte) : Item → Prop
  | .text g => Typable v g ∧ Graphic g
  | .lockLeft _ => True
  | .lockRight s => s ≠ .g0
  | .single s => s = .g2 ∨ s = .g3
  | .designate _ f => finalSet f ≠ none

/-- The effect of an item: the new state, and the characters to be shown (0 stands for a missing
character). -/
def Charsets.step (c : Charsets) : Item → Charsets × List Nat
  | .text g =>
    if 33 ≤ g ∧ g ≤ 126 then
      ({ c with next := none }, [(glyph (c.set (c.next.getD c.gl)) (g - 32)).getD 0])
    else if 161 ≤ g ∧ g ≤ 254 then (c, [(glyph (c.set c.gr) (g - 160)).getD 0])
    else (c, [g])
  | .lockLeft s => ({ c with gl := s }, [])
  | .lockRight s => ({ c with gr := s }, [])
  | .single s => ({ c with next := some s }, [])
  | .designate s f =>
    ({ c with set := fun t => if t = s then (finalSet f).getD (c.set s) else c.set t }, [])

/-- The effect of items one after the other. -/
def Charsets.run (c : Charsets) : List Item → Charsets × List Nat
  | [] => (c, [])
  | i :: is => (((c.step i).1.run is).1, (c.step i).2 ++ ((c.step i).1.run is).2)

/-- Only the screen, the character sets, the parser and the colours of the current attributes may
differ. -/
def SameButText (v v' : Vte) : Prop :=
  v' = { v with
    con := v'.con, gl := v'.gl, gr := v'.gr, glt := v'.glt, g0 := v'.g0, g1 := v'.g1, g2 := v'.g2, g3 := v'.g3
    cattr := v'.cattr, mach := v'.mach, state := v'.state, argc := v'.argc, argv := v'.argv
    csiFlags := v'.csiFlags, oscLen := v'.oscLen, oscArg := v'.oscArg }

end Vte
end Verif
