import Verif.Spec.Canvas
import Verif.Spec.Reachable

/-!
# What leaves the reference terminal at its top

The reference terminal of Spec/Canvas.lean has no memory for rows that scroll off. `Canvas.gone` says which rows those
are; a terminal with a scrollback keeps them.
-/

namespace Verif
namespace Canvas

/-- The row that a line feed pushes out of the scroll region of the main screen. -/
def fedRow (c : Canvas) : List (Nat → Option Glyph) := if c.main.isNone ∧ c.y = c.bot then [c.cell c.top] else []

/-- The rows that a command pushes out of the scroll region of the main screen, from top to bottom. -/
def gone (c : Canvas) : Cmd → List (Nat → Option Glyph)
  | .text _ wd =>
    if wd ≠ 0 ∧ c.autowrap = true ∧ (c.w ≤ c.x ∨ (c.w < c.x + wd ∧ wd ≤ c.w)) then c.fedRow else []
  | .lineFeed | .index | .nextLine => c.fedRow
  | .csi n k =>
    if k = 'S' ∧ c.main.isNone then
      (List.range (min (max 1 (Vte.number n)) (c.bot + 1 - c.top))).map fun i => c.cell (c.top + i)
    else []
  | _ => []

/-- Commands of a program that writes line by line, such as a shell or a compiler: text, control characters, styles, modes, character sets, and
editing within the current line. -/
def _root_.Verif.Cmd.Line : Cmd → Prop
  | .text _ _ | .carriageReturn | .lineFeed | .backspace | .tab | .index | .nextLine | .style _ | .setTab
  | .insert _ | .autowrap _ | .newline _ | .save | .charset _ _ | .shift _
  | .cursor _ | .reverse _ | .arrows _ | .keypad _ | .echo _ | .other _ _ | .ask _ => True
  | .csi _ k => k ∈ ['C', 'D', 'G', 'K', 'X', '@', 'P', 'I', 'Z', 'g']
  | _ => False

/-- A command goes to the next line. -/
def feeds (c : Canvas) : Cmd → Bool
  | .text _ wd => decide (wd ≠ 0) && c.autowrap && decide (c.w ≤ c.x ∨ (c.w < c.x + wd ∧ wd ≤ c.w))
  | .lineFeed | .index | .nextLine => true
  | _ => false

/-- One more empty row at the bottom. -/
def grow (c : Canvas) : Canvas :=
  { c with h := c.h + 1, bot := c.bot + 1, cell := fun i j => if i = c.h then if j < c.w then some c.blank else none else c.cell i j }

/-- A terminal that prints on an endless roll of paper: instead of scrolling, it adds a row at the bottom. -/
def print (c : Canvas) (a : Cmd) : Canvas := (if c.feeds a = true ∧ c.y = c.bot then c.grow else c).step a

/-- Printing commands one after the other. -/
def printAll (c : Canvas) (l : List Cmd) : Canvas := l.foldl print c

/-- The first `n` rows. -/
def rows (c : Canvas) (n : Nat) : List (Nat → Option Glyph) := (List.range n).map c.cell

/-- The rows that leave while commands are executed one after the other. -/
def goneAll : Canvas → List Cmd → List (Nat → Option Glyph)
  | _, [] => []
  | c, a :: l => c.gone a ++ goneAll (c.step a) l

end Canvas

/-- The scrollback, oldest row first, as far as the screen is wide. -/
def View.kept (u : View) : List (Nat → Option Glyph) := u.sb.map fun r j => if j < u.sizeX then r.2[j]? else none

/-- The document: the scrollback followed by the screen. -/
def View.doc (u : View) : List (Nat → Option Glyph) := u.kept ++ (List.range u.sizeY).map u.grid

end Verif
