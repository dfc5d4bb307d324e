import Verif.Spec.Canvas
import Verif.Spec.Picture
import Verif.Spec.Widget

/-!
# What the window shows
-/

namespace Verif

/-- The colours are bytes. -/
structure Attr.Coloured (a : Attr) : Prop where
  fr : a.fr < 256
  fg : a.fg < 256
  fb : a.fb < 256
  br : a.br < 256
  bg : a.bg < 256
  bb : a.bb < 256

/-- A cell of a terminal on which no wide characters were printed. -/
structure Glyph.Narrow (g : Glyph) : Prop where
  width : g.width = 1
  ch : g.ch ≤ 0x10ffff
  attr : g.attr.Coloured

/-- Characters are at most one column wide. -/
def Cmd.Thin : Cmd → Prop
  | .text _ wd => wd ≤ 1
  | _ => True

/-- The terminal has only cells of one column, with colours that are bytes, also in what it has saved. -/
structure Canvas.Fine (c : Canvas) : Prop where
  cell : ∀ i j g, c.cell i j = some g → g.Narrow
  pen : c.pen.Coloured
  base : c.base.Coloured
  saved : c.saved.pen.Coloured
  palette : ∀ k ∈ c.palette, k.1 < 256 ∧ k.2.1 < 256 ∧ k.2.2 < 256
  main : ∀ p, c.main = some p → ∀ i j g, p.1 i j = some g → g.Narrow

namespace Gtk

/-- The faces have cells of the same size. -/
structure Faces.OneSize (fs : Faces) : Prop where
  bold : ∀ f, fs.bold = some f → f.width = fs.regular.width ∧ f.height = fs.regular.height
  italic : ∀ f, fs.italic = some f → f.width = fs.regular.width ∧ f.height = fs.regular.height

/-- What a drawing of the widget finds: it does not mark what it draws, its faces have the same size, the live screen
is in view, the cell right of a wide character belongs to it, and such cells were empty before. -/
structure Wid.Neat (w : Wid) : Prop where
  marks : w.showDirty = false
  faces : ∀ fs, w.faces = some fs → fs.OneSize
  live : w.vte.con.view.sbPos = none
  wide : ∀ i j, i < w.vte.con.sizeY → j + 1 < w.vte.con.sizeX → (w.vte.con.view.shown i j).width = 2 →
    (w.vte.con.view.shown i (j + 1)).width = 0
  half : ∀ i j, i < w.vte.con.sizeY → j < w.vte.con.sizeX → (w.vte.con.view.shown i j).width = 0 →
    (w.vte.con.view.shown i j).ch = 0 ∧ 0 < j ∧ (w.vte.con.view.shown i (j - 1)).width = 2

/-- A widget with faces whose window has got its size, and since then the fonts were not changed, and every drawing was
neat. Anything else may have happened. -/
inductive Wid.Tended (ink : Ink) : Wid → Prop
  | sized {w w' : Wid} {x y : Nat} {m : Bool} : Live ink w → w.faces.isSome = true → (Wid.Ev.configure x y m).Valid →
      (Wid.Ev.configure x y m).Fits → w.step ink (.configure x y m) = .ok w' → Tended ink w'
  | event {w w' : Wid} {e : Wid.Ev} : Tended ink w → e.Valid → (∀ x y m, e ≠ .configure x y m) → (∀ n, e ≠ .font n) →
      e ≠ .draw → w.step ink e = .ok w' → Tended ink w'
  | draw {w w' : Wid} : Tended ink w → w.Neat → w.step ink .draw = .ok w' → Tended ink w'

/-- What is drawn for the cell `g`: nothing for an empty cell or a plain space. -/
def lookOf (g : Glyph) (inverted : Bool) : Screen.DrawCall :=
  { id := 0, ch := g.ch, len := if g.ch = 0 ∨ (g.ch = 32 ∧ g.attr.underline = false) then 0 else 1, width := g.width
    x := 0, y := 0, attr := { g.attr with inverse := xor g.attr.inverse inverted }, age := 0 }

/-- The window shows the terminal `c`: every pixel of every cell is opaque and has the colour that belongs to the character
and attributes of that cell. The cell of the cursor is shown in reverse unless the cursor is hidden, and all cells are if the
terminal has its colours reversed. -/
def Wid.Displays (ink : Ink) (w : Wid) (c : Canvas) : Prop :=
  ∀ fs, w.faces = some fs → ∀ X Y, X < w.rend.width → Y < w.rend.height → X < c.w * fs.regular.width →
    Y < c.h * fs.regular.height →
    ∃ g m, c.cell (Y / fs.regular.height) (X / fs.regular.width) = some g ∧ w.rend.at X Y = some (opaque32 m) ∧
      Shows ink fs (lookOf g (xor (!c.hidden && decide (Y / fs.regular.height = c.y ∧ X / fs.regular.width = c.col)) c.reversed))
        (X % fs.regular.width) (Y % fs.regular.height) m

/-- A widget whose child has been heard out: all that it has written has been read, and the emulator is between two
commands, in its normal modes, without wide characters. -/
structure Wid.Ready (ink : Ink) (w : Wid) : Prop where
  tended : w.Tended ink
  child : ∃ t, w.pty = some t ∧ t.io.inq = []
  normal : w.vte.Normal
  fine : w.vte.canvas.Fine

/-- Only output of the child and its reading. -/
def Wid.Ev.Output : Wid.Ev → Prop
  | .child _ | .dispatch .. | .idle .. => True
  | _ => False

/-- While the events happen, there is only output of the child, its reading, and neat drawings, none of which comes after an
overflow of the counter of changes (64 bits) of the screen. -/
def Wid.Watched (ink : Ink) : List Wid.Ev → Wid → Prop
  | [], _ => True
  | e :: es, w => (e.Output ∨ (e = .draw ∧ w.Neat ∧ w.vte.con.ageReset = false)) ∧
      ∀ w', w.step ink e = .ok w' → Watched ink es w'

/-- All cells of the emulator are in view as they are. -/
structure Wid.Plainly (w : Wid) : Prop where
  marks : w.showDirty = false
  faces : ∀ fs, w.faces = some fs → fs.OneSize
  live : w.vte.con.view.sbPos = none
  nothing : w.vte.con.view.selActive = false

end Gtk
end Verif
