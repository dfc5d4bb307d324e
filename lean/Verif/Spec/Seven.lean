import Verif.Model.VteApi
import Verif.Spec.Trace

/-!
# Strings that every client reads alike
-/

namespace Verif
namespace Vte

/-- All bytes are ASCII: the string means the same to a client that reads UTF-8, Latin-1 or 7-bit characters. -/
def Seven (b : List UInt8) : Prop := ∀ x ∈ b, x.toNat < 128

/-- A call with arguments that need no byte beyond ASCII: the character of a key, if there is one, is in ASCII,
and the mouse is among the first 95 columns and rows, with a button and modifiers that exist. -/
def Call.ascii : Call → Prop
  | .keyboard _ _ _ u => u < 128 ∨ u = 0xffffffff
  | .mouse cx cy _ _ button _ mods => cx < 95 ∧ cy < 95 ∧ button < 64 ∧ mods < 64
  | _ => True

/-- A call that does not type a character beyond ASCII. -/
def Call.untyped : Call → Prop
  | .keyboard _ _ _ u => u < 128 ∨ u = 0xffffffff
  | _ => True

end Vte
end Verif
