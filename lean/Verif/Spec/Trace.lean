import Verif.Spec.Text
import Verif.Spec.Settings

/-!
# What reading input may send, show and set
-/

namespace Verif
namespace Vte

/-! ### Answers -/

/-- One to ten decimal digits. -/
def Digits (q : List UInt8) : Prop := q ≠ [] ∧ q.length ≤ 10 ∧ ∀ b ∈ q, IsDigit b

/-- The strings a terminal sends on request of the program that runs in it. -/
inductive Answer : List UInt8 → Prop
  /-- ACK, the answer to ENQ -/
  | ack : Answer [6]
  /-- primary device attributes, `ESC [ ? 60 ; 1 ; 6 ; 9 ; 15 c` -/
  | primary : Answer [27, 91, 63, 54, 48, 59, 49, 59, 54, 59, 57, 59, 49, 53, 99]
  /-- secondary device attributes, `ESC [ > 1 ; 1 ; 0 c` -/
  | secondary : Answer [27, 91, 62, 49, 59, 49, 59, 48, 99]
  /-- device status, `ESC [ 0 n` -/
  | ready : Answer [27, 91, 48, 110]
  /-- cursor position, `ESC [ row ; column R` -/
  | position (row col : List UInt8) : Digits row → Digits col → Answer ([27, 91] ++ row ++ [59] ++ col ++ [82])

/-- The strings that were sent. -/
def sent : List Event → List (List UInt8)
  | [] => []
  | .write b :: es => b :: sent es
  | _ :: es => sent es

/-! ### Modes -/

/-- The modes the emulator keeps agree with those of its screen: insert mode, reverse video, origin mode,
auto-wrap and text cursor. -/
structure Synced (v : Vte) : Prop where
  insert : v.con.flags.getLsbD 0 = v.flags.getLsbD 7
  inverse : v.con.flags.getLsbD 3 = v.flags.getLsbD 10
  origin : v.con.flags.getLsbD 2 = v.flags.getLsbD 11
  wrap : v.con.flags.getLsbD 1 = v.flags.getLsbD 12
  cursor : v.con.flags.getLsbD 4 = !v.flags.getLsbD 9

/-- The calls that do not go past the emulator to set modes of its screen. -/
def Call.own : Call → Bool
  | .screen c => !c.setsModes
  | _ => true

/-! ### Characters -/

/-- The glyph is in a cell of one of the two screens or of the scrollback, including the cells that are kept
outside of the visible area. -/
def Stores (v : Vte) (g : Glyph) : Prop :=
  ∃ l, (l ∈ v.con.main ∨ l ∈ v.con.alt ∨ l ∈ v.con.sb) ∧ ∃ c, c ∈ l.cells ∧ c.glyph = g


/-- The character `ch` is shown for the character `raw` of the input: an inverted question mark for SUB,
the position of one of the character sets for a code of the lower or the upper half, and the character
itself otherwise. -/
def Shows (raw ch : Nat) : Prop :=
  (raw = 0x1a ∧ ch = 0xbf) ∨
  (Graphic raw ∧
    if 33 ≤ raw ∧ raw ≤ 126 then ∃ c, glyph c (raw - 32) = some ch
    else if 161 ≤ raw ∧ raw ≤ 254 then ∃ c, glyph c (raw - 160) = some ch
    else ch = raw)

end Vte
end Verif
