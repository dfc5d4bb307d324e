import Verif.Spec.View

/-!
# Specification of screen operations on the observable state

Each definition says in terms of rows and columns what an operation is supposed
to do; none of them refers to the model of the C code. A grid maps a row and a
column to the glyph shown there (`none` outside the screen).
-/

namespace Verif
namespace View

/-- An erased cell at row `i`, column `j` (`none` outside the screen). -/
@[reducible] def blankAt (v : View) (i j : Nat) : Option Glyph :=
  if i < v.sizeY ∧ j < v.sizeX then some v.blank else none

/-- What erasing does to one glyph: protected glyphs survive a selective
erase. -/
def wipe (v : View) (selective : Bool) (g : Glyph) : Glyph :=
  if selective = true ∧ g.attr.protect = true then g else v.blank

/-- Erase all cells in region `P`; nothing else changes. -/
def erase (v : View) (selective : Bool) (P : Nat → Nat → Prop) [∀ i j, Decidable (P i j)] : View :=
  v.setGrid fun i j => if P i j then (v.grid i j).map (v.wipe selective) else v.grid i j

/-- Rows `lo .. hi` move up by `n`, blank rows come in from below. -/
def rowsUp (v : View) (lo hi n : Nat) : Grid := fun i j =>
  if lo ≤ i ∧ i ≤ hi then if i + n ≤ hi then v.grid (i + n) j else v.blankAt i j
  else v.grid i j

/-- Rows `lo .. hi` move down by `n`, blank rows come in from above. -/
def rowsDown (v : View) (lo hi n : Nat) : Grid := fun i j =>
  if lo ≤ i ∧ i ≤ hi then if lo + n ≤ i then v.grid (i - n) j else v.blankAt i j
  else v.grid i j

/-- In row `y`, cells from column `x` on move right by `n`, blank cells come
in at `x`, cells pushed over the edge are lost. -/
def cellsRight (v : View) (y x n : Nat) : Grid := fun i j =>
  if i = y ∧ x ≤ j ∧ j < v.sizeX then if x + n ≤ j then v.grid i (j - n) else v.blankAt i j
  else v.grid i j

/-- In row `y`, cells from column `x + n` on move left by `n`, cells `x .. x+n-1`
are lost, blank cells come in at the right edge. -/
def cellsLeft (v : View) (y x n : Nat) : Grid := fun i j =>
  if i = y ∧ x ≤ j ∧ j < v.sizeX then if j + n < v.sizeX then v.grid i (j + n) else v.blankAt i j
  else v.grid i j

/-- The cursor column as far as it lies on the screen (a larger value means that
a line wrap is pending). -/
@[reducible] def col (v : View) : Nat := min v.cursorX (v.sizeX - 1)

/-- Number of rows in the scroll region. -/
@[reducible] def regionSize (v : View) : Nat := v.marginBottom + 1 - v.marginTop

/-- The newest `n` entries of a list (oldest first). -/
@[reducible] def newest {α : Type} (n : Nat) (l : List α) : List α := l.drop (l.length - n)

/-- Scrollback rows get consecutive numbers. -/
@[reducible] def number (base : Nat) (rows : List (List Glyph)) : List (Nat × List Glyph) :=
  rows.mapIdx fun k r => (base + k + 1, r)

/-- A selection endpoint after the screen moved up by `n` rows, where `ids` are
the lines in the scrollback afterwards: an endpoint on row `y` moves to row
`y - n`, or into the scrollback line that row `y` has become (`n - y` lines from
the end), or becomes "top" (no line, row -1) if there is no such line any more.
An endpoint in a scrollback line stays there as long as the line exists. -/
def follow (ids : List Nat) (n : Nat) (p : SelPos) : SelPos :=
  match p.line with
  | some q => if q ∈ ids then p else { p with line := none, y := -1 }
  | none =>
    if p.y < 0 then p
    else if (n : Int) ≤ p.y then { p with y := p.y - n }
    else { p with line := ids.reverse[n - p.y.toNat - 1]?, y := -1 }

/-- `v'` is `v` with the scroll region moved up by `n` rows. The rows that left
the region, `rows`, are appended to the scrollback (`kept`), which keeps only
the newest `sbMax` ones; nothing is appended on the alternate screen, and rows
can only get lost if memory is exhausted (`¬ mem`). -/
structure ScrollUp (v v' : View) (n : Nat) (mem : Prop) (rows kept : List (List Glyph)) : Prop where
  /-- Only the displayed grid, the scrollback and the selection change. -/
  eq : v' = { v.setGrid (v.rowsUp v.marginTop v.marginBottom n) with
    sb := v'.sb, sbPos := v'.sbPos, sbPosNum := v'.sbPosNum, sbLastId := v'.sbLastId
    selStart := v'.selStart, selEnd := v'.selEnd }
  len : rows.length = n
  row : ∀ k j, k < n → j < v.sizeX → (rows[k]?.bind (·[j]?)) = v.grid (v.marginTop + k) j
  sub : kept.Sublist rows
  alt : v.useAlt = true → kept = []
  full : v.useAlt = false → mem → kept = rows
  sb : v'.sb = newest v.sbMax (v.sb ++ number v.sbLastId kept)
  last : v'.sbLastId = if v.sbMax = 0 then v.sbLastId else v.sbLastId + kept.length
  /-- A view of the live screen stays one. -/
  live : v.sbPos = none → v'.sbPos = none
  /-- A scrolled-back view keeps its distance from the oldest line … -/
  scrolled : ∀ (k p : Nat), v.sbPos = some p → (v.sb[k]?).map Prod.fst = some p →
    v.flags.getLsbD 5 = false → v'.sbPos = (v'.sb[k]?).map Prod.fst
  /-- … or, in fixed-position mode, its line as long as that exists. -/
  fixed : ∀ p, v.sbPos = some p → v.flags.getLsbD 5 = true →
    v'.sbPos = if p ∈ v'.sb.map Prod.fst then some p else v'.sb.head?.map Prod.fst
  /-- The endpoints of an active selection move along. -/
  sel : v.useAlt = false → mem →
    v'.selStart = (if v.selActive then follow (v'.sb.map Prod.fst) n v.selStart else v.selStart) ∧
    v'.selEnd = if v.selActive then follow (v'.sb.map Prod.fst) n v.selEnd else v.selEnd

/-- A selection endpoint after lines left the scrollback, where `ids` are the
lines still there: an endpoint in a line that is gone becomes "top". -/
@[reducible] def keepSel (ids : List Nat) (p : SelPos) : SelPos :=
  match p.line with
  | none => p
  | some q => if q ∈ ids then p else { p with line := none, y := -1 }

/-- The view position after the oldest lines left the scrollback: the same line
if it is still there, otherwise the oldest line left. -/
@[reducible] def keepPos (ids : List Nat) (p : Option Nat) : Option Nat :=
  match p with
  | none => none
  | some q => if q ∈ ids then some q else ids.head?

/-- Number of scrollback lines above the top row of the view; all of them if
the live screen is shown. -/
@[reducible] def topIndex (v : View) : Nat :=
  match v.sbPos with
  | none => v.sb.length
  | some p => (v.sb.map Prod.fst).idxOf p

/-- Last row the cursor reaches by line feeds: the bottom margin, or the last
row of the screen if the cursor is below it. -/
@[reducible] def lastRow (v : View) : Nat :=
  if v.cursorY ≤ v.marginBottom then v.marginBottom else v.sizeY - 1

/-- First row the cursor reaches by reverse line feeds. -/
@[reducible] def firstRow (v : View) : Nat := if v.marginTop ≤ v.cursorY then v.marginTop else 0

/-- The next character starts a new line. -/
@[reducible] def wraps (v : View) : Prop := v.sizeX ≤ v.cursorX ∧ v.flags.getLsbD 1 = true

/-- Column of the next character. -/
@[reducible] def writeCol (v : View) : Nat := if v.wraps then 0 else v.col

/-- Row of the next character. -/
@[reducible] def writeRow (v : View) : Nat :=
  if v.wraps then min (v.cursorY + 1) v.lastRow else v.cursorY

/-- Writing the next character scrolls. -/
@[reducible] def writeScrolls (v : View) : Prop := v.wraps ∧ v.cursorY = v.lastRow

/-- A character `g` occupying `len` columns is put at row `y`, column `x`: the
following covered cells become zero-width, and if `ins` is set the rest of the
row moves right by `len`. -/
def put (v : View) (y x len : Nat) (ins : Bool) (g : Glyph) : Grid := fun i j =>
  if i = y ∧ j < v.sizeX then
    if j < x then v.grid i j
    else if j = x then some g
    else if j < x + len then (v.grid i j).map (fun c => { c with width := 0 })
    else if ins then v.grid i (j - len) else v.grid i j
  else v.grid i j

/-- The grid `g` of size `w`×`h` shown on `x`×`y` cells, starting at row `d`; new
cells show `b`. -/
def refit (g : Grid) (w h d x y : Nat) (b : Glyph) : Grid := fun i j =>
  if i < y ∧ j < x then
    if i + d < h ∧ j < w then g (i + d) j else some b
  else none

/-- Tab stops in every eighth column of `x` columns. -/
@[reducible] def everyEighth (x : Nat) : Nat → Option Bool := fun i =>
  if i < x then some (decide (i % 8 = 0)) else none

/-- The view `x` columns wide, its height unchanged. -/
@[reducible] def widened (v : View) (x : Nat) : View :=
  { v with
    sizeX := x, marginTop := 0, marginBottom := v.sizeY - 1, tabs := everyEighth x
    cursorX := min v.cursorX (x - 1)
    main := refit v.main v.sizeX v.sizeY 0 x v.sizeY ⟨0, 1, v.defAttrMain⟩
    alt := refit v.alt v.sizeX v.sizeY 0 x v.sizeY v.blank }

/-- `v'` is `v` resized to `x`×`y`: both grids keep their top left part, except
that the displayed one loses its topmost rows if it gets too high; those rows go
to the scrollback as by scrolling. -/
structure Resized (v v' : View) (x y : Nat) (mem : Prop) : Prop where
  eq : v' = { v with
    sizeX := x, sizeY := y, marginTop := 0, marginBottom := y - 1, tabs := everyEighth x
    cursorX := min v.cursorX (x - 1), cursorY := v.cursorY - (v.sizeY - y)
    main := refit v.main v.sizeX v.sizeY (if v.useAlt then 0 else v.sizeY - y) x y
      ⟨0, 1, v.defAttrMain⟩
    alt := refit v.alt v.sizeX v.sizeY (if v.useAlt then v.sizeY - y else 0) x y v.blank
    sb := v'.sb, sbPos := v'.sbPos, sbPosNum := v'.sbPosNum, sbLastId := v'.sbLastId
    selStart := v'.selStart, selEnd := v'.selEnd }
  same : v.sizeY ≤ y → v'.sb = v.sb ∧ v'.sbPos = v.sbPos ∧ v'.sbPosNum = v.sbPosNum ∧
    v'.sbLastId = v.sbLastId ∧ v'.selStart = v.selStart ∧ v'.selEnd = v.selEnd
  scroll : y < v.sizeY → ∃ u rows kept, ScrollUp (v.widened x) u (v.sizeY - y) mem rows kept ∧
    v'.sb = u.sb ∧ v'.sbPos = u.sbPos ∧ v'.sbLastId = u.sbLastId ∧
    v'.selStart = u.selStart ∧ v'.selEnd = u.selEnd

end View
end Verif
