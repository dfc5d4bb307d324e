import Verif.Spec.Text

/-!
# Conformance levels (C84) and text in the 7-bit and 8-bit modes (C53)
-/

namespace Verif
namespace Vte

/-- The conformance levels: 61 is the VT100, 62 to 64 are its successors. Any other number stands for
no level. -/
inductive Level
  | vt100
  | vt200
  | none
deriving DecidableEq

/-- The level with a given number. -/
def Level.ofNumber (n : Nat) : Level := if n = 61 then .vt100 else if 62 ≤ n ∧ n ≤ 64 then .vt200 else .none

/-- `w` with the decoding and the character sets of a level. The VT100 has 7-bit characters, its successors have
8-bit characters; both have ASCII in the left half and the DEC supplemental graphics in the right half. Without a
level `w` is left alone. `c1` is the wish for 8-bit control characters. -/
def atLevel (w : Vte) (c1 : Bool) : Level → Vte
  | .vt100 => { w with flags := w.flags ||| 0x10, g0 := .unicodeLower, g1 := .decSupplemental }
  | .vt200 => { w with flags := w.flags ||| (if c1 then 0x28 else 0x08), g0 := .unicodeLower, g1 := .decSupplemental }
  | .none => w

/-- The code of the character for which a byte stands in the 7-bit and 8-bit modes. In 8-bit mode, if plain `char` is
signed, bytes from 0x80 on do not stand for any character. -/
def byteCode (v : Vte) (b : UInt8) : Nat :=
  if v.f7bit then b.toNat % 128 else if v.sg ∧ 128 ≤ b.toNat then 0 else b.toNat

/-- Bytes that do not stand for a control character in the 7-bit and 8-bit modes. -/
def GraphicByte (v : Vte) (b : UInt8) : Prop :=
  if v.f7bit then Graphic (b.toNat % 128) else (v.sg = true ∧ 128 ≤ b.toNat) ∨ Graphic b.toNat

end Vte
end Verif
