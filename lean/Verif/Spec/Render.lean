import Verif.Spec.Screen

/-!
# What a drawing is supposed to show

All lines of a terminal, the scrollback followed by the screen, form one document;
the view starts at document line `topIndex`.
-/

namespace Verif
namespace View

/-- The glyph in row `i`, column `j` of the view: that of document line
`topIndex + i`, or a blank one beyond the end of a scrollback line. -/
def shown (v : View) (i j : Nat) : Glyph :=
  if v.topIndex + i < v.sb.length then
    ((v.sb[v.topIndex + i]?).bind (·.2[j]?)).getD v.blank
  else (v.grid (v.topIndex + i - v.sb.length) j).getD v.blank

/-- The cursor is shown in row `i`, column `j` of the view. -/
def cursorAt (v : View) (i j : Nat) : Bool :=
  !v.flags.getLsbD 4 && decide (v.topIndex + i = v.sb.length + v.cursorY ∧ j = v.col)

/-- The document line of a selection endpoint. -/
def docRow (v : View) (p : SelPos) : Nat :=
  match p.line with
  | some q => (v.sb.map Prod.fst).idxOf q
  | none => v.sb.length + p.y.toNat

/-- A selection endpoint at a cell of an existing document line. -/
def Anchored (v : View) (p : SelPos) : Prop :=
  p.x < v.sizeX ∧ match p.line with
  | some q => q ∈ v.sb.map Prod.fst
  | none => 0 ≤ p.y ∧ p.y < v.sizeY

instance (v : View) (p : SelPos) : Decidable (v.Anchored p) := by
  unfold Anchored
  cases p.line <;> exact inferInstance

/-- Position `(r, j)` of the document is not after position `(r', j')`. -/
@[reducible] def NotAfter (r j r' j' : Nat) : Prop := r < r' ∨ (r = r' ∧ j ≤ j')

/-- The cell in row `i`, column `j` of the view lies between the endpoints of the
selection, in whatever order they are. -/
def Selected (v : View) (i j : Nat) : Prop :=
  v.selActive = true ∧
    ((NotAfter (v.docRow v.selStart) v.selStart.x (v.topIndex + i) j ∧
      NotAfter (v.topIndex + i) j (v.docRow v.selEnd) v.selEnd.x) ∨
     (NotAfter (v.docRow v.selEnd) v.selEnd.x (v.topIndex + i) j ∧
      NotAfter (v.topIndex + i) j (v.docRow v.selStart) v.selStart.x))

instance (v : View) (i j : Nat) : Decidable (v.Selected i j) := by
  unfold Selected; exact inferInstance

end View
end Verif
