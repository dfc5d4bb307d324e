import Verif.Proofs.Gtk.Renderer

/-!
# What the renderer of the example terminal is expected to do
-/

namespace Verif.Gtk
open Verif

/-- What happens to a renderer: its window gets a new size, the fonts are replaced, or a
drawing is made. -/
inductive Op
  | resize (mallocOk : Bool) (w h : Nat)
  | font (fs : Faces)
  | draw (debug : Bool) (calls : List Screen.DrawCall) (age : Nat)

/-- One operation. If there is no memory for a new size, the widget ends the process; here
the renderer is kept. -/
def Op.run (ink : Ink) : Op → Faces × Rend → G (Faces × Rend)
  | .resize ok w h, st =>
    match realloc ok w h with
    | .error e => .error e
    | .ok none => .ok st
    | .ok (some r) => .ok (st.1, r)
  | .font fs, st => .ok (fs, st.2)
  | .draw debug calls age, st => rendererDraw ink debug st.1 st.2 calls age

def runOps (ink : Ink) : List Op → Faces × Rend → G (Faces × Rend)
  | [], st => .ok st
  | o :: os, st => do
    let st ← o.run ink st
    runOps ink os st

/-- A face as `gtktsm_face_new` makes it, from extents that pango may report. -/
def Face.Fresh (f : Face) : Prop :=
  ∃ key fmt w h b, w < 2147483648 ∧ h < 2147483648 ∧ b < 4294967296 ∧ measureFace key fmt w h b = some f

/-- Faces as `terminal_set_font` makes them. -/
structure Faces.Fresh (fs : Faces) : Prop where
  regular : fs.regular.Fresh
  bold : ∀ f, fs.bold = some f → f.Fresh
  italic : ∀ f, fs.italic = some f → f.Fresh

/-- Sizes are 32-bit numbers, and fonts are new. -/
def Op.Valid : Op → Prop
  | .resize _ w h => w < 4294967296 ∧ h < 4294967296
  | .font fs => fs.Fresh
  | .draw .. => True

/-- The window has less than 2^31 bytes of pixels. -/
def Op.Fits : Op → Prop
  | .resize _ w h => 4 * (max w 1 * max h 1) < 2147483648
  | _ => True

/-- `m` is the mixture of a foreground channel `f` and a background channel `b` for
coverage `a` of 255, rounded to the nearest number. -/
def Nearest (f b a m : Nat) : Prop :=
  2 * (f * a + b * (255 - a)) ≤ 510 * m + 255 ∧ 510 * m ≤ 2 * (f * a + b * (255 - a)) + 255

/-- Coverage of the pixel in row `k` and column `i` of a glyph, for red, green and blue. A
glyph with one bit per pixel has full or no coverage; the leftmost pixel is the lowest bit
of a byte. -/
def GlyphBuf.cover (g : GlyphBuf) (k i : Nat) : Rgb :=
  match g.format with
  | .a1 => if (g.buffer (k * g.stride + i / 8)).testBit (i % 8) then ⟨255, 255, 255⟩ else ⟨0, 0, 0⟩
  | .a8 =>
    let a := g.buffer (k * g.stride + i)
    ⟨a, a, a⟩
  | .xrgb32 =>
    ⟨g.buffer (k * g.stride + 4 * i + 2), g.buffer (k * g.stride + 4 * i + 1), g.buffer (k * g.stride + 4 * i)⟩

/-- The channels are bytes. -/
structure Rgb.Byte (c : Rgb) : Prop where
  r : c.r < 256
  g : c.g < 256
  b : c.b < 256

/-- An opaque pixel with the given channels. -/
def opaque32 (c : Rgb) : Nat := 255 * 16777216 + c.r * 65536 + c.g * 256 + c.b

end Verif.Gtk
