import Verif.Spec.Widget

/-!
# What a drag with the mouse is supposed to mark
-/

namespace Verif.Gtk

/-- The row and the column of the cell at a position of the mouse, which is a number of 1/65536 pixels. -/
def rowAt (fs : Faces) (y : Int) : Int := y / (65536 * fs.regular.height)
def columnAt (fs : Faces) (x : Int) : Int := x / (65536 * fs.regular.width)

/-- In reading order, the cell in row `i` and column `j` is neither before `(r, c)` nor after `(r', c')`. -/
def Reads (r c i j r' c' : Int) : Prop := (r < i ∨ r = i ∧ c ≤ j) ∧ (i < r' ∨ i = r' ∧ j ≤ c')

instance (r c i j r' c' : Int) : Decidable (Reads r c i j r' c') := by
  unfold Reads; exact inferInstance

/-- The cell in row `i` and column `j` of the window lies between the two positions of the mouse, whichever comes first. -/
def Marked (fs : Faces) (x0 y0 x y : Int) (i j : Nat) : Prop :=
  Reads (rowAt fs y0) (columnAt fs x0) i j (rowAt fs y) (columnAt fs x) ∨
  Reads (rowAt fs y) (columnAt fs x) i j (rowAt fs y0) (columnAt fs x0)

instance (fs : Faces) (x0 y0 x y : Int) (i j : Nat) : Decidable (Marked fs x0 y0 x y i j) := by
  unfold Marked; exact inferInstance

end Verif.Gtk
