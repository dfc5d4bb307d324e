import Verif.Spec.Render
import Verif.Spec.Wcwidth
import Verif.Model.ScreenApi

/-!
# Where a glyph on the screen may come from
-/

namespace Verif

/-- A printable character that was written with this attribute by one of the calls. Its width is
that of the character, or 0 if it is covered by the wide character left of it. -/
def Glyph.Written (cs : List Screen.Call) (g : Glyph) : Prop :=
  Screen.Call.write g.ch g.attr ∈ cs ∧ g.ch ≤ 0x7fffffff ∧ Spec.Wcwidth.width g.ch ≠ 0 ∧
    (g.width = Spec.Wcwidth.width g.ch ∨ g.width = 0)

/-- No character, with an attribute that was the default at some time: the initial ones (white on black, and
all zero for the main screen), or one that was set. -/
def Glyph.Empty (cs : List Screen.Call) (g : Glyph) : Prop :=
  g.ch = 0 ∧ g.width ≤ 1 ∧
    (g.attr = { Attr.zero with fr := 255, fg := 255, fb := 255 } ∨ g.attr = Attr.zero ∨
      Screen.Call.setDefAttr g.attr ∈ cs)

/-- The glyph is in a cell of one of the two screens or in the scrollback. -/
def View.Holds (v : View) (g : Glyph) : Prop :=
  (∃ i j, v.main i j = some g) ∨ (∃ i j, v.alt i j = some g) ∨ ∃ row, row ∈ v.sb ∧ g ∈ row.2

end Verif
