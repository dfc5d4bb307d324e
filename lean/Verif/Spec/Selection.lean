import Verif.Spec.Render
import Verif.Spec.Utf8

/-!
# What copying a selection is supposed to return
-/

namespace Verif
namespace Screen

/-- The characters of all document lines: the scrollback, then the screen. Lines
can be longer than the screen is wide (after narrowing it). -/
def doc (s : Screen) : List (List Nat) := (s.sb ++ s.lines).map fun l => l.cells.map Cell.ch

end Screen

namespace Spec.Selection

/-- A row without its trailing empty cells. -/
def trim (row : List Nat) : List Nat := (row.reverse.dropWhile (fun c => decide (c = 0))).reverse

/-- UTF-8 of a character; code points that cannot be encoded are left out. -/
def utf8 (g : Nat) : List Nat := if Spec.Utf8.Encodable g then Spec.Utf8.bytes g else []

/-- First and last column (exclusive) selected in document line `r` by a selection
from `(r1, c1)` to `(r2, c2)` on a screen of width `w`. -/
@[reducible] def colFrom (r1 c1 r : Nat) : Nat := if r = r1 then c1 else 0
@[reducible] def colTo (w r2 c2 r : Nat) : Nat := if r = r2 then c2 + 1 else w

/-- The selected characters of a row, up to its last non-empty cell. -/
def piece (lo hi : Nat) (row : List Nat) : List Nat := ((trim row).take hi).drop lo

/-- The selected parts of the document lines `r1 … r2`. -/
def pieces (doc : List (List Nat)) (w r1 c1 r2 c2 : Nat) : List (List Nat) :=
  (List.range' r1 (r2 + 1 - r1)).map fun r =>
    piece (colFrom r1 c1 r) (colTo w r2 c2 r) (doc[r]?.getD [])

/-- The selected text as UTF-8: the selected parts, separated by newlines. -/
def text (rows : List (List Nat)) : List Nat :=
  [10].intercalate (rows.map fun r => r.flatMap utf8)

end Spec.Selection
end Verif
