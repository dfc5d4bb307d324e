import Verif.Model.Gtk.Widget

/-!
# What a drawing puts on the window (src/gtktsm/gtktsm-terminal.c:1055-1078, 1302-1311)

The shadow buffer is copied to the window, then the part without cells is filled. What cairo does with a path
(`winding`) is trusted.
-/

namespace Verif.Gtk
open Verif

/-- A point of a path, in pixels. -/
abbrev Corner := Nat × Nat

/-- The lines of a closed path (`cairo_move_to`, `cairo_line_to`, `cairo_close_path`,
src/gtktsm/gtktsm-terminal.c:1071-1077). -/
def edges (p : List Corner) : List (Corner × Corner) := p.zip (p.drop 1 ++ p.take 1)

/-- Whether a line passes right of the middle of a pixel, and in which direction: the middle is at
`(x + 1/2, y + 1/2)`, all terms are multiplied by 2 (`cairo_fill` with its default rule,
src/gtktsm/gtktsm-terminal.c:1078). -/
def crossing (x y : Nat) (e : Corner × Corner) : Int :=
  let side : Int := ((e.2.2 : Int) - e.1.2) * (2 * e.1.1 - (2 * x + 1)) + ((e.2.1 : Int) - e.1.1) * (2 * y + 1 - 2 * e.1.2)
  if e.1.2 ≤ y ∧ y < e.2.2 ∧ 0 < side then 1
  else if e.2.2 ≤ y ∧ y < e.1.2 ∧ side < 0 then -1
  else 0

/-- How often a path goes around the middle of a pixel. `cairo_fill` fills the pixels for which this is not 0
(src/gtktsm/gtktsm-terminal.c:1078); simplified: pixels that a slanted line divides are filled in part. -/
def winding (p : List Corner) (x y : Nat) : Int := ((edges p).map (crossing x y)).foldr (· + ·) 0

/-- The path around the part without cells (src/gtktsm/gtktsm-terminal.c:1071-1077). -/
def padding (w h rw rh : Nat) : List Corner := [(w, 0), (w, h), (0, h), (0, rh), (rw, rh), (rw, 0)]

/-- The colour of that part, and of the window without faces (src/gtktsm/gtktsm-terminal.c:1066-1070, 1304-1308). -/
def Wid.backdrop (w : Wid) : Nat := pack w.vte.defAttr.br w.vte.defAttr.bg w.vte.defAttr.bb

/-- The pixel of the window after a drawing: `w` is the widget after it, `x` and `y` are inside of the window. `none`
is memory that was never written to (src/gtktsm/gtktsm-terminal.c:1055-1078, 1302-1311). -/
def Wid.painted (w : Wid) (x y : Nat) : Option Nat :=
  match w.faces with
  | none => some w.backdrop
  | some fs =>
    if winding (padding (u32 (w.vte.con.sizeX * fs.regular.width)) (u32 (w.vte.con.sizeY * fs.regular.height))
        w.rend.width w.rend.height) x y ≠ 0 then some w.backdrop
    else w.rend.data (y * w.rend.stride + 4 * x)

end Verif.Gtk
