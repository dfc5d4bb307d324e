import Verif.Model.Screen

/-!
# What a user of the screen API can see

`View` is the observable part of a screen: the two character grids as functions
of row and column, the scrollback, the cursor, margins, tab stops, flags and the
selection. It forgets ages, the allocation oracle, and all memory beyond the
visible size. Functional properties are stated as equations between views, so
they also say what does *not* change.
-/

namespace Verif

/-- What is shown in one cell (`ch`, `width`, `attr` of `struct cell`,
src/tsm/libtsm-int.h:82-87). -/
structure Glyph where
  ch : Nat
  width : Nat
  attr : Attr
  deriving DecidableEq, Repr

/-- The visible part of a cell (src/tsm/libtsm-int.h:82-87). -/
@[reducible] def Cell.glyph (c : Cell) : Glyph := ⟨c.ch, c.width, c.attr⟩

/-- A character grid: `g row column`; `none` outside the screen. -/
abbrev Grid := Nat → Nat → Option Glyph

/-- The visible `h` rows and `w` columns of an array of lines. -/
def gridOf (w h : Nat) (ls : List Line) : Grid := fun i j =>
  if i < h ∧ j < w then (ls[i]?.bind (·.cells[j]?)).map Cell.glyph else none

/-- A scrollback row: its identity and all its glyphs. -/
@[reducible] def Line.row (l : Line) : Nat × List Glyph := (l.sbId, l.cells.map Cell.glyph)

/-- Observable state of a screen (the fields of `struct tsm_screen`,
src/tsm/libtsm-int.h:106-158, minus ageing and allocation bookkeeping). -/
structure View where
  flags : BitVec 32
  defAttr : Attr
  defAttrMain : Attr
  sizeX : Nat
  sizeY : Nat
  marginTop : Nat
  marginBottom : Nat
  useAlt : Bool
  main : Grid
  alt : Grid
  sb : List (Nat × List Glyph)
  sbMax : Nat
  sbPos : Option Nat
  sbPosNum : Nat
  sbLastId : Nat
  cursorX : Nat
  cursorY : Nat
  tabs : Nat → Option Bool
  selActive : Bool
  selStart : SelPos
  selEnd : SelPos

/-- Observable state of a screen. -/
def Screen.view (s : Screen) : View :=
  { flags := s.flags, defAttr := s.defAttr, defAttrMain := s.defAttrMain
    sizeX := s.sizeX, sizeY := s.sizeY, marginTop := s.marginTop, marginBottom := s.marginBottom
    useAlt := s.useAlt
    main := gridOf s.sizeX s.sizeY s.main
    alt := gridOf s.sizeX s.sizeY s.alt
    sb := s.sb.map Line.row
    sbMax := s.sbMax, sbPos := s.sbPos, sbPosNum := s.sbPosNum, sbLastId := s.sbLastId
    cursorX := s.cursorX, cursorY := s.cursorY
    tabs := fun i => if i < s.sizeX then s.tabRuler[i]? else none
    selActive := s.selActive, selStart := s.selStart, selEnd := s.selEnd }

namespace View

/-- The grid that is currently displayed. -/
@[reducible] def grid (v : View) : Grid := if v.useAlt then v.alt else v.main

/-- Replace the displayed grid. -/
@[reducible] def setGrid (v : View) (g : Grid) : View :=
  if v.useAlt then { v with alt := g } else { v with main := g }

/-- An erased cell: no character, width 1, default attributes. -/
@[reducible] def blank (v : View) : Glyph := ⟨0, 1, v.defAttr⟩

end View
end Verif
