import Verif.Model.Render

/-!
# The cell renderer of the example terminal (src/gtktsm/gtktsm-terminal.c:60-1079)

Pango and cairo are not modelled; what they do for the renderer is a parameter
(`Ink`) or a documented check of cairo (`strideFor`, `sizeOk`).
-/

namespace Verif.Gtk
open Verif

/-- Ways to leave defined behaviour. A separate type, as none of them occurs in the
library. -/
inductive Fault
  /-- a store outside the shadow buffer -/
  | write
  /-- a load outside the buffer of a glyph -/
  | read
  /-- `abs` of `INT_MIN` -/
  | abs
  /-- conversion of a `double` to `unsigned int` that cannot represent it -/
  | cast
  deriving DecidableEq, Repr

/-- A computation of the widget. -/
abbrev G (α : Type) := Except Fault α

/-! ### Fonts and glyphs -/

/-- `enum gtktsm_glyph_format` without `GTKTSM_GLYPH_INVALID`, which `create_glyph`
never chooses (src/gtktsm/gtktsm-terminal.c:81-86, 372-384). -/
inductive Format | a1 | a8 | xrgb32
  deriving DecidableEq, Repr

/-- Bits per pixel of a format in cairo. -/
def Format.bpp : Format → Nat
  | .a1 => 1
  | .a8 => 8
  | .xrgb32 => 32

/-- `cairo_format_stride_for_width`, as called at
src/gtktsm/gtktsm-terminal.c:386 and 557: bytes per row, rounded up to four, and -1
(`none`) for a width that is too large. The function of cairo is trusted. -/
def strideFor (bpp w : Nat) : Option Nat :=
  if w ≥ 2147483640 / bpp then none else some (((bpp * w + 7) / 8 + 3) / 4 * 4)

/-- The sizes `cairo_image_surface_create_for_data` accepts
(src/gtktsm/gtktsm-terminal.c:393-401, 562-571). Trusted. -/
def sizeOk (w h : Nat) : Bool := decide (w ≤ 32767) && decide (h ≤ 32767)

/-- `struct gtktsm_glyph` (src/gtktsm/gtktsm-terminal.c:88-98). `cap` is the number of
bytes allocated for `buffer`; `surface` is not modelled. -/
structure GlyphBuf where
  format : Format
  width : Nat
  stride : Nat
  height : Nat
  cap : Nat
  buffer : Nat → Nat

/-- `struct gtktsm_face` (src/gtktsm/gtktsm-terminal.c:65-79). `key` stands for the
pango context, `format` for the anti-aliasing mode. The hash table is the map it
implements (C64). Reference counts and the unused position of the strikethrough are
left out. -/
structure Face where
  key : Nat
  format : Format
  width : Nat
  height : Nat
  underlinePos : Nat
  lineThickness : Nat
  glyphs : Nat → Option GlyphBuf

/-- What pango and cairo draw for a face, a code point and a number of cells: the bytes
of the glyph's buffer, or `none` if that fails (src/gtktsm/gtktsm-terminal.c:393-441).
A parameter of the model. -/
abbrev Ink := Nat → Nat → Nat → Option (Nat → Nat)

/-- `measure_pango` and the checks of `init_pango`
(src/gtktsm/gtktsm-terminal.c:190-237, 271-276): the metrics of a face from the extents
of the sample text, which has 88 bytes, and its baseline. -/
def measureFace (key : Nat) (fmt : Format) (recW recH baseline : Nat) : Option Face :=
  let width := (recW + 87) / 88
  let height := recH
  let thick := min (sub32 height baseline / 2) (height / 14)
  let thick := max thick 1
  let upos := min (u32 (baseline + thick)) (sub32 height thick)
  if width = 0 ∨ height = 0 then none
  else some { key := key, format := fmt, width := width, height := height, underlinePos := upos
              lineThickness := thick, glyphs := fun _ => none }

/-- `create_glyph` (src/gtktsm/gtktsm-terminal.c:354-454). For a stride of -1 and for
sizes it refuses, cairo returns a surface in an error state. -/
def createGlyph (ink : Ink) (f : Face) (ch cwidth : Nat) : Option GlyphBuf :=
  let width := u32 (f.width * cwidth)
  match strideFor f.format.bpp width with
  | none => none
  | some stride =>
    if sizeOk width f.height then
      match ink f.key ch cwidth with
      | none => none
      | some b => some { format := f.format, width := width, stride := stride, height := f.height
                         cap := u32 (stride * f.height), buffer := b }
    else none

/-- `gtktsm_face_render` (src/gtktsm/gtktsm-terminal.c:456-501), without failing
allocations for the table and the glyph (these are in `Ink`). -/
def faceRender (ink : Ink) (f : Face) (id ch len cwidth : Nat) : Face × Option GlyphBuf :=
  match f.glyphs id with
  | some g => (f, some g)
  | none =>
    if len = 0 ∨ cwidth = 0 then (f, none)
    else
      match createGlyph ink f ch cwidth with
      | none => (f, none)
      | some g => ({ f with glyphs := fun i => if i = id then some g else f.glyphs i }, some g)

/-! ### The shadow buffer -/

/-- `struct gtktsm_renderer` (src/gtktsm/gtktsm-terminal.c:519-526). `cap` is the number of
bytes allocated for `data`, `data o` the 32-bit word at byte offset `o`, `none` if it was
not stored to since the allocation. -/
structure Rend where
  width : Nat
  height : Nat
  stride : Nat
  cap : Nat
  data : Nat → Option Nat
  age : Nat

/-- `abs` of an `unsigned int` passed as `int` (src/gtktsm/gtktsm-terminal.c:558). -/
def absInt (n : Nat) : G Nat :=
  if n < 2147483648 then .ok n
  else if n = 2147483648 then .error .abs
  else .ok (4294967296 - n)

/-- `renderer_realloc` (src/gtktsm/gtktsm-terminal.c:544-586): the new buffer, or `none`
with the old one kept. `mallocOk` is the outcome of the allocations. With a stride of -1
the argument of `abs` is the negated height. -/
def realloc (mallocOk : Bool) (w h : Nat) : G (Option Rend) := do
  let w := if w = 0 then 1 else w
  let h := if h = 0 then 1 else h
  match strideFor 32 w with
  | none =>
    let _ ← absInt (sub32 0 h)
    return none
  | some stride =>
    let cap ← absInt (u32 (stride * h))
    if mallocOk && sizeOk w h then
      return some { width := w, height := h, stride := stride, cap := cap, data := fun _ => none, age := 0 }
    else return none

/-- `((uint32_t*)dst)[i] = out` with `dst` at byte offset `o - 4 * i` of the buffer
(src/gtktsm/gtktsm-terminal.c:667, 705-710, 743, 794, 860). -/
def Rend.store (r : Rend) (o v : Nat) : G Rend :=
  if o + 4 ≤ r.cap then .ok { r with data := fun p => if p = o then some v else r.data p }
  else .error .write

/-- The inner loops over the pixels of a row, from index `i` on, `n` of them left
(src/gtktsm/gtktsm-terminal.c:666-667, 731-744, 765-795, 818-861). -/
def rowLoop (px : Nat → G Nat) (dst : Nat) : Nat → Nat → Rend → G Rend
  | 0, _, r => .ok r
  | n + 1, i, r => do
    let v ← px i
    let r ← r.store (dst + 4 * i) v
    rowLoop px dst n (i + 1) r

/-- The outer loops `while (height--)` (src/gtktsm/gtktsm-terminal.c:665-670, 730-748,
764-799, 817-865); `k` counts rows from 0. Forming the address of the row after the last
one is not regarded as a fault. -/
def rowsLoop (px : Nat → Nat → G Nat) (width : Nat) : Nat → Nat → Nat → Rend → G Rend
  | 0, _, _, r => .ok r
  | n + 1, k, dst, r => do
    let r ← rowLoop (px k) dst width 0 r
    rowsLoop px width n (k + 1) (dst + r.stride) r

/-- Clipping of one dimension (src/gtktsm/gtktsm-terminal.c:646-657, 685-696, 879-898). -/
def clip (lim x w : Nat) : Option Nat :=
  let tmp := u32 (x + w)
  if tmp ≤ x ∨ x ≥ lim then none else if tmp > lim then some (lim - x) else some w

/-- Byte offset of a pixel, computed in `unsigned int`
(src/gtktsm/gtktsm-terminal.c:661, 700, 902). -/
def Rend.offset (r : Rend) (x y : Nat) : Nat := u32 (y * r.stride + x * 4)

/-- A pixel (src/gtktsm/gtktsm-terminal.c:662, 701, 742, 793, 859). The shift of `0xff`
into the sign bit is taken as GCC defines it. -/
def pack (r g b : Nat) : Nat := 0xff000000 ||| r <<< 16 ||| g <<< 8 ||| b

/-- Three colour channels. -/
structure Rgb where
  r : Nat
  g : Nat
  b : Nat
  deriving DecidableEq, Repr

/-- `renderer_fill` (src/gtktsm/gtktsm-terminal.c:634-671). -/
def Rend.fill (r : Rend) (x y w h : Nat) (c : Rgb) : G Rend :=
  match clip r.width x w with
  | none => .ok r
  | some w =>
    match clip r.height y h with
    | none => .ok r
    | some h => rowsLoop (fun _ _ => .ok (pack c.r c.g c.b)) w h 0 (r.offset x y) r

/-- The full rows of the border (src/gtktsm/gtktsm-terminal.c:708-711). -/
def highlightRow (w h i dst : Nat) (r : Rend) : G Rend :=
  if i = 0 ∨ u32 (i + 1) = h then rowLoop (fun _ => .ok (pack 0xd0 0x10 0x10)) dst w 0 r else .ok r

/-- The row loop of `renderer_highlight` (src/gtktsm/gtktsm-terminal.c:704-714), `n` rows
left, `i` the row. -/
def highlightRows (w h : Nat) : Nat → Nat → Nat → Rend → G Rend
  | 0, _, _, r => .ok r
  | n + 1, i, dst, r => do
    let r ← r.store dst (pack 0xd0 0x10 0x10)
    let r ← r.store (dst + 4 * pred32 w) (pack 0xd0 0x10 0x10)
    let r ← highlightRow w h i dst r
    highlightRows w h n (i + 1) (dst + r.stride) r

/-- `renderer_highlight` (src/gtktsm/gtktsm-terminal.c:674-715). -/
def Rend.highlight (r : Rend) (x y w h : Nat) : G Rend :=
  match clip r.width x w with
  | none => .ok r
  | some w =>
    match clip r.height y h with
    | none => .ok r
    | some h => highlightRows w h h 0 (r.offset x y) r

/-- A load of a byte of a glyph's buffer (src/gtktsm/gtktsm-terminal.c:732, 766, 819). -/
def GlyphBuf.load (g : GlyphBuf) (o : Nat) : G Nat :=
  if o < g.cap then .ok (g.buffer o) else .error .read

/-- Mixing one channel (src/gtktsm/gtktsm-terminal.c:766-790, 830-856): `f` the
foreground, `b` the background, `a` the coverage. -/
def mix (f b a : Nat) : Nat :=
  if a = 0 then b
  else if a = 255 then f
  else
    let t := f * a + b * (255 - a)
    let t := t + 0x80
    (t + t >>> 8) >>> 8

/-- One pixel of `renderer_blend_a1` (src/gtktsm/gtktsm-terminal.c:731-743), in row `k`. -/
def pxA1 (g : GlyphBuf) (f b : Rgb) (k i : Nat) : G Nat := do
  let s ← g.load (k * g.stride + i / 8)
  return if s &&& 1 <<< (i % 8) ≠ 0 then pack f.r f.g f.b else pack b.r b.g b.b

/-- One pixel of `renderer_blend_a8` (src/gtktsm/gtktsm-terminal.c:765-794), in row `k`. -/
def pxA8 (g : GlyphBuf) (f b : Rgb) (k i : Nat) : G Nat := do
  let s ← g.load (k * g.stride + i)
  return pack (mix f.r b.r s) (mix f.g b.g s) (mix f.b b.b s)

/-- One pixel of `renderer_blend_xrgb32` (src/gtktsm/gtktsm-terminal.c:818-860), in row `k`, on
a little-endian machine: blue is the first byte. All four bytes are loaded. -/
def pxXrgb32 (g : GlyphBuf) (f b : Rgb) (k i : Nat) : G Nat := do
  let bm ← g.load (k * g.stride + i * 4)
  let gm ← g.load (k * g.stride + i * 4 + 1)
  let rm ← g.load (k * g.stride + i * 4 + 2)
  let _ ← g.load (k * g.stride + i * 4 + 3)
  return pack (mix f.r b.r rm) (mix f.g b.g gm) (mix f.b b.b bm)

/-- The switch over the formats (src/gtktsm/gtktsm-terminal.c:905-936). -/
def px (g : GlyphBuf) (f b : Rgb) : Nat → Nat → G Nat :=
  match g.format with
  | .a1 => pxA1 g f b
  | .a8 => pxA8 g f b
  | .xrgb32 => pxXrgb32 g f b

/-- `renderer_blend` (src/gtktsm/gtktsm-terminal.c:868-937). -/
def Rend.blend (r : Rend) (g : GlyphBuf) (x y : Nat) (f b : Rgb) : G Rend :=
  match clip r.width x g.width with
  | none => .ok r
  | some w =>
    match clip r.height y g.height with
    | none => .ok r
    | some h => rowsLoop (px g f b) w h 0 (r.offset x y) r

/-! ### Drawing -/

/-- The faces of `struct gtktsm_renderer_ctx` (src/gtktsm/gtktsm-terminal.c:528-542) that
are used; the bold italic one is not. The cell size is that of the regular face (lines
1330-1331). -/
structure Faces where
  regular : Face
  bold : Option Face
  italic : Option Face

/-- Foreground and background of a cell (src/gtktsm/gtktsm-terminal.c:969-984). -/
def colours (a : Attr) : Rgb × Rgb :=
  if a.inverse then (⟨a.br, a.bg, a.bb⟩, ⟨a.fr, a.fg, a.fb⟩) else (⟨a.fr, a.fg, a.fb⟩, ⟨a.br, a.bg, a.bb⟩)

/-- The face of a cell, and the faces with that face replaced
(src/gtktsm/gtktsm-terminal.c:987-992). -/
def Faces.pick (fs : Faces) (a : Attr) : Face × (Face → Faces) :=
  match a.bold, fs.bold with
  | true, some f => (f, fun f => { fs with bold := some f })
  | _, _ =>
    match a.italic, fs.italic with
    | true, some f => (f, fun f => { fs with italic := some f })
    | _, _ => (fs.regular, fun f => { fs with regular := f })

/-- The glyph, or the background if there is none
(src/gtktsm/gtktsm-terminal.c:995-1024): `face` is the face of the cell, `put` replaces it. -/
def drawBody (ink : Ink) (fs : Faces) (face : Face) (put : Face → Faces) (r : Rend) (c : Screen.DrawCall)
    (x y w h : Nat) : G (Faces × Rend) :=
  let (f, b) := colours c.attr
  if c.len = 0 then (r.fill x y w h b).map (fun r => (fs, r))
  else
    let p := faceRender ink face c.id c.ch c.len c.width
    match p.2 with
    | none => (r.fill x y w h b).map (fun r => (put p.1, r))
    | some g => (r.blend g x y f b).map (fun r => (put p.1, r))

/-- The underline (src/gtktsm/gtktsm-terminal.c:1026-1032). -/
def drawUnderline (face : Face) (r : Rend) (c : Screen.DrawCall) (x y w : Nat) : G Rend :=
  if c.attr.underline then r.fill x (u32 (y + face.underlinePos)) w face.lineThickness (colours c.attr).1
  else .ok r

/-- The border for debugging (src/gtktsm/gtktsm-terminal.c:1034-1039). -/
def drawBorder (on : Bool) (r : Rend) (x y w h : Nat) : G Rend :=
  if on then r.highlight x y w h else .ok r

/-- The condition for not drawing a cell (src/gtktsm/gtktsm-terminal.c:961). -/
def skips (r : Rend) (c : Screen.DrawCall) : Bool :=
  decide (c.age ≠ 0) && decide (r.age ≠ 0) && decide (c.age ≤ r.age)

/-- `renderer_draw_cell` (src/gtktsm/gtktsm-terminal.c:939-1041). -/
def drawCell (ink : Ink) (debug : Bool) (fs : Faces) (r : Rend) (c : Screen.DrawCall) : G (Faces × Rend) :=
  if skips r c && !debug then .ok (fs, r)
  else do
    let x := u32 (c.x * fs.regular.width)
    let y := u32 (c.y * fs.regular.height)
    let w := u32 (fs.regular.width * c.width)
    let h := fs.regular.height
    let (face, put) := fs.pick c.attr
    let p ← drawBody ink fs face put r c x y w h
    let r1 ← drawUnderline face p.2 c x y w
    let r2 ← drawBorder (!skips r c && debug) r1 x y w h
    return (p.1, r2)

/-- All calls of one drawing, in order. -/
def drawCells (ink : Ink) (debug : Bool) : Faces → Rend → List Screen.DrawCall → G (Faces × Rend)
  | fs, r, [] => .ok (fs, r)
  | fs, r, c :: cs => do
    let (fs, r) ← drawCell ink debug fs r c
    drawCells ink debug fs r cs

/-- `gtktsm_renderer_draw` (src/gtktsm/gtktsm-terminal.c:1043-1079) up to the copying of
the shadow buffer to the window and the painting of the padding, which cairo does:
`calls` and `age` are the calls of and the result of `tsm_screen_draw`. -/
def rendererDraw (ink : Ink) (debug : Bool) (fs : Faces) (r : Rend) (calls : List Screen.DrawCall) (age : Nat) :
    G (Faces × Rend) := do
  let (fs, r) ← drawCells ink debug fs r calls
  return (fs, { r with age := age })

end Verif.Gtk
