import Verif.Spec.Gtk
import Verif.Spec.Reachable

/-!
# A screen, its renderer and what the window should show
-/

namespace Verif.Gtk
open Verif Verif.Screen

/-- A screen with the faces and the renderer that show it, and two notes on the past:
`restyled` tells whether the default attributes were set since the last drawing, `stale`
whether, since the window got its size, the fonts were replaced, something was drawn that
was not tidy (see `Tidy`), or cells were marked. -/
structure St where
  scr : Screen
  faces : Faces
  rend : Rend
  restyled : Bool
  stale : Bool

def isSetDefAttr : Call → Bool
  | .setDefAttr .. => true
  | _ => false

/-- The calls of one drawing and their surroundings are such that cells do not get in each
other's way. -/
structure Tidy (st : St) (calls : List DrawCall) (age : Nat) : Prop where
  /-- all faces have cells of the same size -/
  bold : ∀ f, st.faces.bold = some f → f.width = st.faces.regular.width ∧ f.height = st.faces.regular.height
  italic : ∀ f, st.faces.italic = some f → f.width = st.faces.regular.width ∧ f.height = st.faces.regular.height
  /-- pixel positions are 32-bit numbers -/
  w32 : (st.scr.sizeX + 1) * st.faces.regular.width < 4294967296
  h32 : st.scr.sizeY * st.faces.regular.height < 4294967296
  /-- the cell right of a wide character was not overwritten -/
  wide : ∀ c ∈ calls, c.width = 2 → ∀ d ∈ calls, d.y = c.y → d.x = c.x + 1 → d.width = 0
  /-- a cell without a width is the right half of a wide character, and was empty before -/
  covered : ∀ c ∈ calls, c.width = 0 → c.len = 0 ∧ ∃ d ∈ calls, d.y = c.y ∧ d.x + 1 = c.x ∧ d.width = 2
  /-- after `set_def_attr` something else has changed as well, or no scrollback is shown -/
  restyled : st.restyled = true → age ≠ st.rend.age ∨ st.scr.sbPos = none

/-- What a widget does with its screen and its renderer: any calls of the library, changes of
the font, resizes of the window (which always allocate a new buffer), and drawings. -/
inductive Session (ink : Ink) : St → Prop
  | start {s : Screen} {fs : Faces} {w h : Nat} {r : Rend} : Reachable s → fs.Fresh → w < 4294967296 →
      h < 4294967296 → 4 * (max w 1 * max h 1) < 2147483648 → realloc true w h = .ok (some r) →
      Session ink ⟨s, fs, r, false, false⟩
  | call {st : St} {c : Call} {s : Screen} : Session ink st → c.Valid → c ≠ .draw → (∀ x y, c ≠ .resize x y) →
      c.run st.scr = .ok s → Session ink { st with scr := s, restyled := st.restyled || isSetDefAttr c }
  | font {st : St} {fs : Faces} : Session ink st → fs.Fresh → Session ink { st with faces := fs, stale := true }
  | resize {st : St} {w h x y : Nat} {r : Rend} {s : Screen} : Session ink st → w < 4294967296 → h < 4294967296 →
      4 * (max w 1 * max h 1) < 2147483648 → realloc true w h = .ok (some r) → (Call.resize x y).Valid →
      (Call.resize x y).run st.scr = .ok s → Session ink ⟨s, st.faces, r, false, false⟩
  | draw {st : St} {calls : List DrawCall} {age : Nat} {s : Screen} {fs : Faces} {r : Rend} {stale : Bool} :
      Session ink st → st.scr.draw = .ok (calls, age, s) →
      rendererDraw ink false st.faces st.rend calls age = .ok (fs, r) → (stale = false → st.stale = false ∧ Tidy st calls age) →
      Session ink ⟨s, fs, r, false, stale⟩
  /-- a drawing that marks what it draws anew (property `show-dirty`) -/
  | mark {st : St} {calls : List DrawCall} {age : Nat} {s : Screen} {fs : Faces} {r : Rend} :
      Session ink st → st.scr.draw = .ok (calls, age, s) → rendererDraw ink true st.faces st.rend calls age = .ok (fs, r) →
      Session ink ⟨s, fs, r, false, true⟩

/-- A face before anything was drawn with it. -/
def Face.clean (f : Face) : Face := { f with glyphs := fun _ => none }

def Faces.clean (fs : Faces) : Faces := ⟨fs.regular.clean, fs.bold.map Face.clean, fs.italic.map Face.clean⟩

/-- The face for an attribute: the bold one, else the italic one, else the regular one. -/
def Faces.style (fs : Faces) (a : Attr) : Face :=
  (((if a.bold then fs.bold else none) <|> (if a.italic then fs.italic else none)).getD fs.regular)

def foreground (a : Attr) : Rgb := if a.inverse then ⟨a.br, a.bg, a.bb⟩ else ⟨a.fr, a.fg, a.fb⟩

def background (a : Attr) : Rgb := if a.inverse then ⟨a.fr, a.fg, a.fb⟩ else ⟨a.br, a.bg, a.bb⟩

/-- The pixel is a pixel of the cell, or of both cells if the character is wide. -/
structure Owns (fs : Faces) (c : DrawCall) (X Y : Nat) : Prop where
  left : c.x * fs.regular.width ≤ X
  right : X < (c.x + c.width) * fs.regular.width
  top : c.y * fs.regular.height ≤ Y
  bottom : Y < (c.y + 1) * fs.regular.height

/-- The pixel of the cell is on its edge; a cell that does not fit into the buffer of `W` by `H` pixels is cut off. -/
def OnEdge (fs : Faces) (W H : Nat) (c : DrawCall) (X Y : Nat) : Prop :=
  X = c.x * fs.regular.width ∨ X + 1 = min ((c.x + c.width) * fs.regular.width) W ∨
  Y = c.y * fs.regular.height ∨ Y + 1 = min ((c.y + 1) * fs.regular.height) H

/-- `m` is the colour of the pixel in column `dx` and row `dy` of a cell: of the underline, of
the background if the cell is empty or the font has no glyph for it, and otherwise a mixture
according to the glyph. Glyphs of more than 32767 pixels in a direction are not drawn. -/
def Shows (ink : Ink) (fs : Faces) (c : DrawCall) (dx dy : Nat) (m : Rgb) : Prop :=
  let f := fs.style c.attr
  if c.attr.underline = true ∧ f.underlinePos ≤ dy ∧ dy < f.underlinePos + f.lineThickness then m = foreground c.attr
  else if c.len = 0 ∨ 32767 < f.width * c.width ∨ 32767 < f.height then m = background c.attr
  else
    match ink f.key c.ch c.width with
    | none => m = background c.attr
    | some bytes =>
      let g : GlyphBuf :=
        { format := f.format, width := f.width * c.width
          stride := ((f.format.bpp * (f.width * c.width) + 7) / 8 + 3) / 4 * 4
          height := f.height, cap := 0, buffer := bytes }
      Nearest (foreground c.attr).r (background c.attr).r (g.cover dy dx).r m.r ∧
      Nearest (foreground c.attr).g (background c.attr).g (g.cover dy dx).g m.g ∧
      Nearest (foreground c.attr).b (background c.attr).b (g.cover dy dx).b m.b

end Verif.Gtk
