import Verif.Model.Base
import Verif.Model.Wcwidth

/-!
# Screen state and internal helpers (src/tsm/libtsm-int.h:82-172,
src/tsm/tsm-screen.c:70-474)

Conventions:
* `unsigned int` values are `Nat`s; arithmetic that could wrap is written with
  `u32`, `pred32`, `sub32`.
* Lines are owned structurally: the active buffer, the inactive buffer and the
  scrollback are three lists of lines. A pointer to a scrollback line is the
  line's `sb_id`, which is unique. Pointers to lines of the main or alternate
  buffer are never stored anywhere in the C code except in these arrays.
* `allocOk n` says whether the n-th allocation succeeds.
-/

namespace Verif

/-- `struct tsm_screen_attr` (src/tsm/libtsm.h:158-173). -/
structure Attr where
  fccode : Int
  bccode : Int
  fr : Nat
  fg : Nat
  fb : Nat
  br : Nat
  bg : Nat
  bb : Nat
  bold : Bool
  italic : Bool
  underline : Bool
  inverse : Bool
  protect : Bool
  blink : Bool
  deriving DecidableEq, Repr, Inhabited

/-- An all-zero `struct tsm_screen_attr` (`memset(con, 0, ..)`,
src/tsm/tsm-screen.c:490). -/
def Attr.zero : Attr :=
  { fccode := 0, bccode := 0, fr := 0, fg := 0, fb := 0, br := 0, bg := 0, bb := 0,
    bold := false, italic := false, underline := false, inverse := false, protect := false,
    blink := false }

/-- `struct cell` (src/tsm/libtsm-int.h:82-87). -/
structure Cell where
  ch : Nat
  width : Nat
  attr : Attr
  age : Nat
  deriving DecidableEq, Repr, Inhabited

/-- `struct line` (src/tsm/libtsm-int.h:89-97). `size` is the length of
`cells`; `next`/`prev` are implied by the position in the scrollback list. The
`sbId` of a line that never was in the scrollback is uninitialised in C and 0
here; it is never read. -/
structure Line where
  cells : List Cell
  age : Nat
  sbId : Nat
  deriving DecidableEq, Repr, Inhabited

/-- `struct selection_pos` (src/tsm/libtsm-int.h:99-104). `line` is NULL or a
scrollback line (given by its id), see tsm-selection.c:64-82 and
tsm-screen.c:323-342 for the only assignments. -/
structure SelPos where
  line : Option Nat
  x : Nat
  y : Int
  deriving DecidableEq, Repr, Inhabited

/-- `struct tsm_screen` (src/tsm/libtsm-int.h:106-158) without reference count,
logging, `opts` and symbol table. The symbol table is private to the screen and
nothing ever appends to it, so it is permanently empty. `line_num` is
`main.length`. `useAlt` says whether `lines == alt_lines`. -/
structure Screen where
  flags : BitVec 32
  defAttr : Attr
  defAttrMain : Attr
  ageCnt : Nat
  ageReset : Bool
  sizeX : Nat
  sizeY : Nat
  marginTop : Nat
  marginBottom : Nat
  useAlt : Bool
  main : List Line
  alt : List Line
  age : Nat
  sbCount : Nat
  sb : List Line
  sbMax : Nat
  sbPos : Option Nat
  sbPosNum : Nat
  sbLastId : Nat
  cursorX : Nat
  cursorY : Nat
  tabRuler : List Bool
  selActive : Bool
  selStart : SelPos
  selEnd : SelPos
  allocOk : Nat → Bool
  allocN : Nat

namespace Screen

/-! ### Flags (src/tsm/libtsm.h:150-156) -/

/-- `TSM_SCREEN_INSERT_MODE` (src/tsm/libtsm.h:150). -/
def INSERT_MODE : BitVec 32 := 0x01#32
/-- `TSM_SCREEN_AUTO_WRAP` (src/tsm/libtsm.h:151). -/
def AUTO_WRAP : BitVec 32 := 0x02#32
/-- `TSM_SCREEN_REL_ORIGIN` (src/tsm/libtsm.h:152). -/
def REL_ORIGIN : BitVec 32 := 0x04#32
/-- `TSM_SCREEN_INVERSE` (src/tsm/libtsm.h:153). -/
def INVERSE : BitVec 32 := 0x08#32
/-- `TSM_SCREEN_HIDE_CURSOR` (src/tsm/libtsm.h:154). -/
def HIDE_CURSOR : BitVec 32 := 0x10#32
/-- `TSM_SCREEN_FIXED_POS` (src/tsm/libtsm.h:155). -/
def FIXED_POS : BitVec 32 := 0x20#32
/-- `TSM_SCREEN_ALTERNATE` (src/tsm/libtsm.h:156). -/
def ALTERNATE : BitVec 32 := 0x40#32

/-- The test `con->flags & TSM_SCREEN_INSERT_MODE` (src/tsm/libtsm.h:150). -/
@[reducible] def fInsert (s : Screen) : Bool := s.flags.getLsbD 0
/-- The test `con->flags & TSM_SCREEN_AUTO_WRAP` (src/tsm/libtsm.h:151). -/
@[reducible] def fWrap (s : Screen) : Bool := s.flags.getLsbD 1
/-- The test `con->flags & TSM_SCREEN_REL_ORIGIN` (src/tsm/libtsm.h:152). -/
@[reducible] def fOrigin (s : Screen) : Bool := s.flags.getLsbD 2
/-- The test `con->flags & TSM_SCREEN_INVERSE` (src/tsm/libtsm.h:153). -/
@[reducible] def fInverse (s : Screen) : Bool := s.flags.getLsbD 3
/-- The test `con->flags & TSM_SCREEN_HIDE_CURSOR` (src/tsm/libtsm.h:154). -/
@[reducible] def fHide (s : Screen) : Bool := s.flags.getLsbD 4
/-- The test `con->flags & TSM_SCREEN_FIXED_POS` (src/tsm/libtsm.h:155). -/
@[reducible] def fFixed (s : Screen) : Bool := s.flags.getLsbD 5
/-- The test `con->flags & TSM_SCREEN_ALTERNATE` (src/tsm/libtsm.h:156). -/
@[reducible] def fAlt (s : Screen) : Bool := s.flags.getLsbD 6

/-! ### Buffers -/

/-- `con->lines` (src/tsm/libtsm-int.h:132), the active one of the two buffers. -/
def lines (s : Screen) : List Line := if s.useAlt then s.alt else s.main

/-- Assignment to entries of `con->lines` (src/tsm/libtsm-int.h:132). -/
def withLines (s : Screen) (ls : List Line) : Screen :=
  if s.useAlt then { s with alt := ls } else { s with main := ls }

/-- `screen_inc_age` (src/tsm/libtsm-int.h:166-172); `tsm_age_t` is
`uint_fast32_t` (src/tsm/libtsm.h:148), taken to have 64 bits as on x86-64 glibc. -/
def incAge (s : Screen) : Screen :=
  let n := (s.ageCnt + 1) % 18446744073709551616
  if n = 0 then { s with ageReset := true, ageCnt := 1 } else { s with ageCnt := n }

/-- `con->age = con->age_cnt` (the "TODO: more sophisticated ageing" lines,
e.g. src/tsm/tsm-screen.c:192-193). -/
def touch (s : Screen) : Screen := { s with age := s.ageCnt }

/-- One `malloc`/`realloc`: does it succeed, and the screen afterwards. -/
def alloc (s : Screen) : Bool × Screen := (s.allocOk s.allocN, { s with allocN := s.allocN + 1 })

/-! ### Raw memory helpers -/

/-- `memmove(&l[dst], &l[src], n * sizeof)` on an array; going beyond the array
is undefined behaviour of kind `k`. (C library; used at
src/tsm/tsm-screen.c:315, 373, 409, 1406, 1446, 1482, 1515.) -/
def memmove {α : Type} (k : UB) (l : List α) (dst src n : Nat) : R (List α) :=
  if dst + n ≤ l.length ∧ src + n ≤ l.length then
    .ok (l.take dst ++ (l.drop src).take n ++ l.drop (dst + n))
  else .error k

/-- `memcpy(&l[dst], ys, ..)` on an array; going beyond the array is undefined
behaviour of kind `k`. (C library; used at src/tsm/tsm-screen.c:320, 378, 1410,
1450.) -/
def memcpy {α : Type} (k : UB) (l : List α) (dst : Nat) (ys : List α) : R (List α) :=
  if dst + ys.length ≤ l.length then .ok (l.take dst ++ ys ++ l.drop (dst + ys.length))
  else .error k

/-- `for (i = lo; i < hi; ++i) cells[i] = f(cells[i])` with a bounds check
(src/tsm/tsm-screen.c:150, 309, 368, 413-421, 453, 1401, 1441, 1486-1487, 1520-1521). -/
def updCells (cells : List Cell) (lo hi : Nat) (f : Cell → Cell) : R (List Cell) :=
  if lo < hi ∧ cells.length < hi then .error .oobCell
  else .ok (cells.mapIdx (fun i c => if lo ≤ i ∧ i < hi then f c else c))

/-! ### Cells and lines -/

/-- `screen_cell_init_generic` (src/tsm/tsm-screen.c:113-120). -/
def blankWith (s : Screen) (a : Attr) : Cell := { ch := 0, width := 1, attr := a, age := s.ageCnt }

/-- `screen_cell_init` (src/tsm/tsm-screen.c:122-125). -/
def blank (s : Screen) : Cell := s.blankWith s.defAttr

/-- `line_new` (src/tsm/tsm-screen.c:127-155). The two `malloc` calls count as
one allocation; failure (-EINVAL for width 0, -ENOMEM) is `none`. -/
def lineNew (s : Screen) (width : Nat) : Option Line × Screen :=
  if width = 0 then (none, s)
  else
    let (ok, s) := s.alloc
    if ok then (some { cells := List.replicate width s.blank, age := s.ageCnt, sbId := 0 }, s)
    else (none, s)

/-- `line_resize` (src/tsm/tsm-screen.c:163-185) for a non-NULL line and
non-zero width; `none` is -ENOMEM. -/
def lineResize (s : Screen) (l : Line) (width : Nat) : Option Line × Screen :=
  if l.cells.length < width then
    let (ok, s) := s.alloc
    if ok then
      (some { l with cells := l.cells ++ List.replicate (width - l.cells.length) s.blank }, s)
    else (none, s)
  else (some l, s)

/-- The loop `for (j = 0; j < con->size_x; ++j) screen_cell_init(...)` over one
line (src/tsm/tsm-screen.c:309-310, 368-369, 1401-1402, 1441-1442). -/
def clearLine (s : Screen) (l : Line) : R Line := do
  let cells ← updCells l.cells 0 s.sizeX (fun _ => s.blank)
  return { l with cells := cells }

/-- Coordinates (row, column) of `get_cursor_cell`
(src/tsm/tsm-screen.c:70-83). -/
def cursorCell (s : Screen) : Nat × Nat :=
  (if s.cursorY ≥ s.sizeY then pred32 s.sizeY else s.cursorY,
   if s.cursorX ≥ s.sizeX then pred32 s.sizeX else s.cursorX)

/-- `c = get_cursor_cell(con); c->age = con->age_cnt`
(src/tsm/tsm-screen.c:103-104, 109-110, 1012-1013, 1041-1042). -/
def markCursor (s : Screen) : R Screen :=
  match s.lines[s.cursorCell.1]? with
  | none => .error .oobLine
  | some l =>
    if s.cursorCell.2 < l.cells.length then
      .ok (s.withLines (s.lines.set s.cursorCell.1
        { l with cells := l.cells.modify s.cursorCell.2 (fun c => { c with age := s.ageCnt }) }))
    else .error .oobCell

/-- `move_cursor` (src/tsm/tsm-screen.c:85-111). -/
def moveCursor (s : Screen) (x y : Nat) : R Screen :=
  if s.fHide then .ok { s with cursorX := x, cursorY := y }
  else if s.cursorX = x ∧ s.cursorY = y then .ok s
  else do
    let s ← s.markCursor
    markCursor { s with cursorX := x, cursorY := y }

/-! ### Scrollback list -/

/-- `line->next` of the scrollback line with the given id: outer `none` if no
such line is in the list (dangling pointer), inner `none` for NULL
(src/tsm/libtsm-int.h:90). -/
def nextId : List Line → Nat → Option (Option Nat)
  | [], _ => none
  | l :: ls, p => if l.sbId = p then some (ls.head?.map Line.sbId) else nextId ls p

/-- `line->prev` of the scrollback line with the given id
(src/tsm/libtsm-int.h:91). -/
def prevId : Option Nat → List Line → Nat → Option (Option Nat)
  | _, [], _ => none
  | q, l :: ls, p => if l.sbId = p then some q else prevId (some l.sbId) ls p

/-- The update of one selection endpoint when the line with id `id` is freed
(src/tsm/tsm-screen.c:243-252 and the similar code in
tsm_screen_set_max_sb). -/
def dropSel (p : SelPos) (id : Nat) : SelPos :=
  if p.line = some id then { p with line := none, y := -1 } else p

/-- New `sb_pos` and `sb_pos_num` when the oldest line, with id `old`, is
evicted (src/tsm/tsm-screen.c:230-241). The line that is about to be linked is
identified by the id it gets at line 256, `sbLastId + 1`. -/
def evictPos (s : Screen) (old : Nat) : R (Option Nat × Nat) :=
  match s.sbPos with
  | none => .ok (none, s.sbPosNum)
  | some p =>
    if p = old ∨ s.fFixed = false then
      match nextId s.sb p with
      | none => .error .dangling
      | some (some q) => .ok (some q, u32 (s.sbPosNum + 1))
      | some none => .ok (some (s.sbLastId + 1), 0)
    else .ok (some p, s.sbPosNum)

/-- The eviction branch of `link_to_scrollback` (src/tsm/tsm-screen.c:215-254):
remove and free the oldest line. -/
def sbEvict (s : Screen) : R Screen :=
  match s.sb with
  | [] => .error .nullDeref
  | tmp :: rest => do
    let (pos, num) ← s.evictPos tmp.sbId
    return { s with
      sb := rest
      sbCount := pred32 s.sbCount
      sbPos := pos
      sbPosNum := num
      selStart := if s.selActive then dropSel s.selStart tmp.sbId else s.selStart
      selEnd := if s.selActive then dropSel s.selEnd tmp.sbId else s.selEnd }

/-- The linking part of `link_to_scrollback` (src/tsm/tsm-screen.c:256-269). -/
def sbAppend (s : Screen) (line : Line) : Screen :=
  { s with
    sb := s.sb ++ [{ line with sbId := s.sbLastId + 1 }]
    sbLastId := s.sbLastId + 1
    sbCount := u32 (s.sbCount + 1)
    sbPosNum := if s.sbPos = none then u32 (s.sbCount + 1) else s.sbPosNum }

/-- `link_to_scrollback` (src/tsm/tsm-screen.c:188-270). With `sb_max == 0` the
line is freed; the comparison of selection pointers with it (lines 196-205) is
always false because selections only point to scrollback lines. -/
def linkToScrollback (s : Screen) (line : Line) : R Screen :=
  let s := s.touch
  if s.sbMax = 0 then .ok s
  else do
    let s ← if s.sbCount ≥ s.sbMax then s.sbEvict else .ok s
    return s.sbAppend line

/-! ### Scrolling -/

/-- The `for (i = 0; i < num; ++i)` loop of `screen_scroll_up`
(src/tsm/tsm-screen.c:298-312), returning `cache`. On failure of `line_new`
(always on the alternate screen) the old line is cleared in place and reused;
the array slots themselves are overwritten right after the loop, so only the
cache matters. -/
def scrollUpLoop : Nat → Nat → Screen → R (Screen × List Line)
  | 0, _, s => .ok (s, [])
  | n + 1, i, s =>
    match s.lines[s.marginTop + i]? with
    | none => .error .oobLine
    | some l =>
      let (nl, s) := if s.fAlt then (none, s) else s.lineNew s.sizeX
      match nl with
      | some nl => do
        let s ← s.linkToScrollback l
        let (s, rest) ← scrollUpLoop n (i + 1) s
        return (s, nl :: rest)
      | none => do
        let cl ← s.clearLine l
        let (s, rest) ← scrollUpLoop n (i + 1) s
        return (s, cl :: rest)

/-- Selection adjustment at the end of `screen_scroll_up`
(src/tsm/tsm-screen.c:323-342) for one endpoint: an on-screen endpoint moves up
by `num`; if it leaves the screen it becomes the `k`-th newest scrollback line,
where `-k` is the new row (the `while` loop walks `k - 1` times to `prev`), or
"top" if there are fewer. -/
def scrollSel (sb : List Line) (num : Nat) (p : SelPos) : SelPos :=
  if p.line = none ∧ p.y ≥ 0 then
    let y := p.y - num
    if y < 0 then
      { p with line := (sb.reverse[(-y).toNat - 1]?).map Line.sbId, y := -1 }
    else { p with y := y }
  else p

/-- The body of `screen_scroll_up` for at most 128 lines
(src/tsm/tsm-screen.c:296-342); `num` is already clamped to `max`. -/
def scrollUpChunk (s : Screen) (max num : Nat) : R Screen := do
  let (s, cache) ← scrollUpLoop num 0 s
  let ls ← (if num < max then
      memmove .oobLine s.lines s.marginTop (s.marginTop + num) (max - num)
    else .ok s.lines : R (List Line))
  let ls ← memcpy .oobLine ls (s.marginTop + (max - num)) cache
  let s := s.withLines ls
  return if s.selActive then
      { s with selStart := scrollSel s.sb num s.selStart, selEnd := scrollSel s.sb num s.selEnd }
    else s

/-- `screen_scroll_up` (src/tsm/tsm-screen.c:272-343). The recursion splits
requests above 128 lines into chunks; the first argument bounds its depth
(`num` is always enough as every chunk handles 128 lines). -/
def scrollUpFuel : Nat → Screen → Nat → R Screen
  | 0, s, _ => .ok s
  | fuel + 1, s, num =>
    if num = 0 then .ok s
    else
      let s := s.touch
      let max := sub32 (s.marginBottom + 1) s.marginTop
      let num := if num > max then max else num
      if num > 128 then do
        let s ← scrollUpChunk s max 128
        scrollUpFuel fuel s (num - 128)
      else scrollUpChunk s max num

/-- `screen_scroll_up` (src/tsm/tsm-screen.c:272-343). -/
def scrollUpI (s : Screen) (num : Nat) : R Screen := scrollUpFuel num s num

/-- Loop that takes line `idx i` out for `i = i₀, i₀+1, ..` (`n` iterations),
clears it in place and remembers it in `cache`
(src/tsm/tsm-screen.c:366-370, 1399-1403, 1439-1443). Returns the line array
with the cleared lines still in place, and the cache. -/
def takeRows (s : Screen) (idx : Nat → Nat) : Nat → Nat → List Line → R (List Line × List Line)
  | 0, _, ls => .ok (ls, [])
  | n + 1, i, ls =>
    match ls[idx i]? with
    | none => .error .oobLine
    | some l => do
      let cl ← s.clearLine l
      let (ls, rest) ← takeRows s idx n (i + 1) (ls.set (idx i) cl)
      return (ls, cl :: rest)

/-- Body of `screen_scroll_down` for at most 128 lines
(src/tsm/tsm-screen.c:364-386). The row of a selection endpoint is an `int` in C, which wraps when it passes 2^31 - 1; here
it does not. Only a selection that was started two thousand million rows below the screen gets there. -/
def scrollDownChunk (s : Screen) (max num : Nat) : R Screen := do
  let (ls, cache) ← takeRows s (fun i => sub32 s.marginBottom i) num 0 s.lines
  let ls ← (if num < max then
      memmove .oobLine ls (s.marginTop + num) s.marginTop (max - num)
    else .ok ls : R (List Line))
  let ls ← memcpy .oobLine ls s.marginTop cache
  let s := s.withLines ls
  let f : SelPos → SelPos := fun p => if p.line = none ∧ p.y ≥ 0 then { p with y := p.y + num } else p
  return if s.selActive then { s with selStart := f s.selStart, selEnd := f s.selEnd } else s

/-- `screen_scroll_down` (src/tsm/tsm-screen.c:345-387), recursion as in
`scrollUpFuel`. -/
def scrollDownFuel : Nat → Screen → Nat → R Screen
  | 0, s, _ => .ok s
  | fuel + 1, s, num =>
    if num = 0 then .ok s
    else
      let s := s.touch
      let max := sub32 (s.marginBottom + 1) s.marginTop
      let num := if num > max then max else num
      if num > 128 then do
        let s ← scrollDownChunk s max 128
        scrollDownFuel fuel s (num - 128)
      else scrollDownChunk s max num

/-- `screen_scroll_down` (src/tsm/tsm-screen.c:345-387). -/
def scrollDownI (s : Screen) (num : Nat) : R Screen := scrollDownFuel num s num

/-! ### Writing and erasing -/

/-- The insert-mode part of `screen_write` (src/tsm/tsm-screen.c:406-411). The
comparison `(int)x < ((int)con->size_x - len)` is done in `unsigned int`
because `len` is unsigned. -/
def insertShift (s : Screen) (l : Line) (x len : Nat) : R Line :=
  if s.fInsert ∧ x < sub32 s.sizeX len then do
    let cells ← memmove .insertMove l.cells (x + len) x (sub32 (sub32 s.sizeX len) x)
    return { l with cells := cells, age := s.ageCnt }
  else .ok l

/-- `screen_write` (src/tsm/tsm-screen.c:389-422). -/
def writeAt (s : Screen) (x y ch len : Nat) (attr : Attr) : R Screen :=
  if len = 0 then .ok s
  else if x ≥ s.sizeX ∨ y ≥ s.sizeY then .ok s
  else match s.lines[y]? with
    | none => .error .oobLine
    | some l => do
      let l ← s.insertShift l x len
      let cells ← updCells l.cells x (x + 1)
        (fun _ => { ch := ch, width := len, attr := attr, age := s.ageCnt })
      let cells ← updCells cells (x + 1) (min (x + len) s.sizeX)
        (fun c => { c with age := s.ageCnt, width := 0 })
      return s.withLines (s.lines.set y { l with cells := cells })

/-- Inner loop of `screen_erase_region` (src/tsm/tsm-screen.c:453-458). -/
def eraseCells (s : Screen) (cells : List Cell) (xFrom to : Nat) (protect : Bool) : R (List Cell) :=
  updCells cells xFrom (to + 1) (fun c => if protect && c.attr.protect then c else s.blank)

/-- Outer loop of `screen_erase_region` (src/tsm/tsm-screen.c:442-460); the
first argument is the number of rows left. No line pointer is NULL. -/
def eraseRows (s : Screen) (protect : Bool) (xTo yTo : Nat) :
    Nat → Nat → Nat → List Line → R (List Line)
  | 0, _, _, ls => .ok ls
  | n + 1, yFrom, xFrom, ls =>
    match ls[yFrom]? with
    | none => .error .oobLine
    | some l => do
      let to := if yFrom = yTo then xTo else pred32 s.sizeX
      let cells ← s.eraseCells l.cells xFrom to protect
      eraseRows s protect xTo yTo n (yFrom + 1) 0 (ls.set yFrom { l with cells := cells })

/-- `screen_erase_region` (src/tsm/tsm-screen.c:424-461). -/
def eraseRegion (s : Screen) (xFrom yFrom xTo yTo : Nat) (protect : Bool) : R Screen := do
  let s := s.touch
  let yTo := if yTo ≥ s.sizeY then pred32 s.sizeY else yTo
  let xTo := if xTo ≥ s.sizeX then pred32 s.sizeX else xTo
  let ls ← eraseRows s protect xTo yTo (yTo + 1 - yFrom) yFrom xFrom s.lines
  return s.withLines ls

/-- `to_abs_y` (src/tsm/tsm-screen.c:468-474). -/
def toAbsY (s : Screen) (y : Nat) : Nat := if s.fOrigin then u32 (s.marginTop + y) else y

end Screen
end Verif
