import Verif.Model.ScreenOps

/-!
# Rendering (src/tsm/tsm-render.c:45-200)
-/

namespace Verif
namespace Screen

/-- The arguments of one invocation of `tsm_screen_draw_cb`
(src/tsm/libtsm.h:175-184) that do not depend on the caller. `ch` are the code
points the pointer argument refers to, before the length is applied. -/
structure DrawCall where
  id : Nat
  ch : Nat
  len : Nat
  width : Nat
  x : Nat
  y : Nat
  attr : Attr
  age : Nat
  deriving DecidableEq, Repr

/-- The scrollback from the line with identity `p` on (following `next`
pointers; `NULL` is the empty list). -/
def sbFrom (sb : List Line) (p : Option Nat) : List Line :=
  match p with
  | none => []
  | some id => sb.dropWhile (fun l => decide (l.sbId ≠ id))

/-- Two's complement 32-bit value of an `int` converted to `unsigned int`. -/
def toU32 (y : Int) : Nat := (y % 4294967296).toNat

/-- `cursor_x`, clamped as at src/tsm/tsm-render.c:66-68. -/
def drawCurX (s : Screen) : Nat := if s.cursorX ≥ s.sizeX then pred32 s.sizeX else s.cursorX

/-- `cursor_y`, clamped as at src/tsm/tsm-render.c:69-71. -/
def drawCurY (s : Screen) : Nat := if s.cursorY ≥ s.sizeY then pred32 s.sizeY else s.cursorY

/-- One endpoint's contribution to the initial `in_sel` toggling
(src/tsm/tsm-render.c:79-90): it is "top", or lies in a scrollback line above
the view. -/
def selAbove (pos : Option Nat) (p : SelPos) : Bool :=
  match p.line with
  | none => decide (p.y = -1)
  | some id =>
    match pos with
    | none => true
    | some top => decide (id < top)

/-- The initial value of `in_sel` (src/tsm/tsm-render.c:78-90). -/
def drawInSel (s : Screen) : Bool :=
  if s.selActive then xor (selAbove s.sbPos s.selStart) (selAbove s.sbPos s.selEnd) else false

/-- `sel_start`/`sel_end` of the row loop (src/tsm/tsm-render.c:102-113): `line`
is the scrollback line of the row (`none` for a row of the live screen), `k` the
number of live rows up to and including this row. A live row is never the
scrollback line an endpoint points to. -/
def selRow (line : Option Nat) (k : Nat) (p : SelPos) : Bool :=
  match p.line with
  | some id => decide (line = some id)
  | none => decide (toU32 p.y = pred32 k)

/-- State carried from cell to cell: `in_sel` and `was_sel`. -/
structure SelSt where
  inSel : Bool
  wasSel : Bool
  deriving DecidableEq, Repr

/-- Toggling at one endpoint (src/tsm/tsm-render.c:127-136). -/
def selToggle (hit : Bool) (q : SelSt) : SelSt :=
  if hit then { inSel := !q.inSel, wasSel := q.inSel } else q

/-- Selection state before the cell in column `j` is drawn
(src/tsm/tsm-render.c:126-137). -/
def selCell (s : Screen) (rs re : Bool) (j : Nat) (q : SelSt) : SelSt :=
  if s.selActive then
    selToggle (re && decide (j = s.selEnd.x)) (selToggle (rs && decide (j = s.selStart.x)) q)
  else q

/-- The age passed for a cell (src/tsm/tsm-render.c:155-163). -/
def drawAge (s : Screen) (cell : Cell) (l : Line) : Nat :=
  if s.ageReset then 0
  else
    let age := cell.age
    let age := if l.age > age then l.age else age
    if s.age > age then s.age else age

/-- The id of a glyph (src/tsm/tsm-render.c:166-176); the attribute bits are
above all symbol values, so `|=` is addition. -/
def drawId (ch : Nat) (a : Attr) : Nat :=
  ch ||| (if a.bold then 1 <<< 31 else 0) ||| (if a.italic then 1 <<< 32 else 0)
    ||| (if a.underline then 1 <<< 33 else 0) ||| (if a.inverse then 1 <<< 34 else 0)
    ||| (if a.blink then 1 <<< 35 else 0)

/-- The callback arguments for one cell (src/tsm/tsm-render.c:119-190) and the
selection state after it. -/
def drawCell (s : Screen) (l : Line) (k i j : Nat) (rs re : Bool) (q : SelSt) : DrawCall × SelSt :=
  let cell := (l.cells[j]?).getD s.blank
  let q := s.selCell rs re j q
  let attr := cell.attr
  let attr := if k = s.drawCurY + 1 ∧ j = s.drawCurX ∧ s.fHide = false
    then { attr with inverse := !attr.inverse } else attr
  let attr := if s.fInverse then { attr with inverse := !attr.inverse } else attr
  let sel := q.inSel || q.wasSel
  let attr := if sel then { attr with inverse := !attr.inverse } else attr
  let q := if sel then { q with wasSel := false } else q
  let ch := if cell.ch ≤ UCS4_MAX then cell.ch else 0
  let len := if cell.ch = 0 ∨ (cell.ch = 32 ∧ attr.underline = false) then 0 else 1
  ({ id := drawId cell.ch attr, ch := ch, len := len, width := cell.width, x := j, y := i
     attr := attr, age := s.drawAge cell l }, q)

/-- The column loop (src/tsm/tsm-render.c:118-191) for the remaining `n`
columns from `j` on. -/
def drawCols (s : Screen) (l : Line) (k i : Nat) (rs re : Bool) :
    Nat → Nat → SelSt → List DrawCall × SelSt
  | 0, _, q => ([], q)
  | n + 1, j, q =>
    let (c, q) := s.drawCell l k i j rs re q
    let (cs, q) := drawCols s l k i rs re n (j + 1) q
    (c :: cs, q)

/-- The row loop (src/tsm/tsm-render.c:92-192) for the remaining `n` rows from
`i` on; `iter` is the rest of the scrollback, `k` counts live rows. -/
def drawRows (s : Screen) : Nat → Nat → List Line → Nat → SelSt → R (List DrawCall)
  | 0, _, _, _, _ => .ok []
  | n + 1, i, iter, k, q =>
    match iter with
    | l :: iter => do
      let q := if s.selActive then { q with wasSel := false } else q
      let (cs, q) := s.drawCols l k i (s.selActive && selRow (some l.sbId) k s.selStart)
        (s.selActive && selRow (some l.sbId) k s.selEnd) s.sizeX 0 q
      let rest ← drawRows s n (i + 1) iter k q
      return cs ++ rest
    | [] =>
      match s.lines[k]? with
      | none => .error .oobLine
      | some l => do
        let q := if s.selActive then { q with wasSel := false } else q
        let (cs, q) := s.drawCols l (k + 1) i (s.selActive && selRow none (k + 1) s.selStart)
          (s.selActive && selRow none (k + 1) s.selEnd) s.sizeX 0 q
        let rest ← drawRows s n (i + 1) [] (k + 1) q
        return cs ++ rest

/-- `tsm_screen_draw` (src/tsm/tsm-render.c:45-200): the callback invocations,
the returned age, and the screen afterwards. The callback's return value only
controls debug messages; callbacks that modify the screen are not modelled. -/
def draw (s : Screen) : R (List DrawCall × Nat × Screen) := do
  let cs ← s.drawRows s.sizeY 0 (sbFrom s.sb s.sbPos) 0 ⟨s.drawInSel, false⟩
  return if s.ageReset then (cs, 0, { s with ageReset := false }) else (cs, s.ageCnt, s)

end Screen
end Verif
