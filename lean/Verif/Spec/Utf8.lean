/-!
# Specification of UTF-8, independent of the model

Arithmetic description of RFC 3629 by division and remainder.
-/

namespace Verif.Spec.Utf8

/-- Code points the library agrees to encode: at most U+10FFFF, no surrogate,
no noncharacter (tsm-unicode.c:355-359, comment). -/
def Encodable (g : Nat) : Prop :=
  g ≤ 0x10FFFF ∧ ¬ (0xD800 ≤ g ∧ g ≤ 0xDFFF) ∧ ¬ (0xFDD0 ≤ g ∧ g ≤ 0xFDEF) ∧
  g % 65536 ≠ 65535 ∧ g % 65536 ≠ 65534

instance (g : Nat) : Decidable (Encodable g) := by unfold Encodable; infer_instance

/-- The shortest UTF-8 form of a code point, as numbers. -/
def bytes (g : Nat) : List Nat :=
  if g < 128 then [g]
  else if g < 2048 then [192 + g / 64, 128 + g % 64]
  else if g < 65536 then [224 + g / 4096, 128 + g / 64 % 64, 128 + g % 64]
  else [240 + g / 262144, 128 + g / 4096 % 64, 128 + g / 64 % 64, 128 + g % 64]

/-- An overlong sequence starts somewhere in the byte string: C0 or C1, or E0
followed by a byte below A0, or F0 followed by a byte below 90. -/
def OverlongStart : List Nat → Prop
  | [] => False
  | [a] => a = 0xC0 ∨ a = 0xC1
  | a :: b :: rest =>
    (a = 0xC0 ∨ a = 0xC1) ∨ (a = 0xE0 ∧ b < 0xA0) ∨ (a = 0xF0 ∧ b < 0x90) ∨
    OverlongStart (b :: rest)

end Verif.Spec.Utf8
