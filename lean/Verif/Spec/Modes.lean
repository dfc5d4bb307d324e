import Verif.Spec.Controls
import Verif.Model.Screen

/-!
# Modes

What setting and resetting the modes of ECMA-48 and the DEC private modes means. A mode is a bit of the flags of
the emulator (which the keyboard and the parser consult, see C55, C76), a list of calls on the screen, or both.
-/

namespace Verif
namespace Vte

/-- A mode with its bit and what setting (`true`) or resetting it does to the screen. -/
structure ModeInfo where
  bit : Option Nat
  calls : Bool → List Screen.Call

/-- Setting or resetting a flag of the screen. -/
def flip (f : BitVec 32) (on : Bool) : List Screen.Call := [if on then .setFlags f else .resetFlags f]

/-- The modes of ECMA-48: keyboard action, insert, send/receive, line feed/new line. -/
def ansiTable : List (Nat × ModeInfo) :=
  [(2, ⟨some 6, fun _ => []⟩), (4, ⟨some 7, flip 1⟩), (12, ⟨some 8, fun _ => []⟩), (20, ⟨some 2, fun _ => []⟩)]

/-- The DEC private modes without those of the mouse and those that store the cursor: application cursor keys,
inverse screen, origin mode, auto wrap, key repeat, visible cursor, national character sets, and the alternate
screen in two variants, the second of which clears it when leaving. -/
def decTable : List (Nat × ModeInfo) :=
  [(1, ⟨some 0, fun _ => []⟩), (5, ⟨some 10, flip 8⟩), (6, ⟨some 11, flip 4⟩), (7, ⟨some 12, flip 2⟩),
    (8, ⟨some 13, fun _ => []⟩), (25, ⟨some 9, fun on => flip 16 (!on)⟩), (42, ⟨some 14, fun _ => []⟩),
    (47, ⟨none, flip 64⟩), (1047, ⟨none, fun on => (if on then [] else [.eraseScreen false]) ++ flip 64 on⟩)]

/-- The other DEC private modes: those of the mouse, and those that store and restore the cursor. -/
def otherModes : List Nat := [9, 1002, 1003, 1006, 1016, 1048, 1049]

/-- The bit of mode `n`. -/
def modeBit (dec : Bool) (n : Nat) : Option Nat := ((if dec then decTable else ansiTable).lookup n).bind (·.bit)

/-- The calls for mode `n`; none for unknown modes. -/
def modeCalls (dec set : Bool) (n : Nat) : List Screen.Call :=
  (((if dec then decTable else ansiTable).lookup n).map fun i => i.calls set).getD []

end Vte
end Verif
