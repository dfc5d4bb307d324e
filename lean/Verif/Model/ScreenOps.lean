import Verif.Model.Screen

/-!
# Public screen operations (src/tsm/tsm-screen.c:476-1648)

All functions return immediately for a NULL screen pointer; a `Screen` value
here stands for a non-NULL pointer. Operations that cannot touch memory are
plain functions, the others return `R Screen`.
-/

namespace Verif
namespace Screen

/-! ### Construction and resizing -/

/-- The state after the assignments at the start of `tsm_screen_new`
(src/tsm/tsm-screen.c:490-498). `lines`, `main_lines`, `alt_lines` and
`tab_ruler` are NULL, i.e. empty arrays. -/
def zero (allocOk : Nat → Bool) : Screen :=
  { flags := 0#32
    defAttr := { Attr.zero with fr := 255, fg := 255, fb := 255 }
    defAttrMain := Attr.zero
    ageCnt := 1, ageReset := false, sizeX := 0, sizeY := 0, marginTop := 0, marginBottom := 0
    useAlt := false, main := [], alt := [], age := 1
    sbCount := 0, sb := [], sbMax := 0, sbPos := none, sbPosNum := 0, sbLastId := 0
    cursorX := 0, cursorY := 0, tabRuler := []
    selActive := false, selStart := ⟨none, 0, 0⟩, selEnd := ⟨none, 0, 0⟩
    allocOk := allocOk, allocN := 0 }

/-- The `while (con->line_num < y)` loop of `tsm_screen_resize`
(src/tsm/tsm-screen.c:647-661); the first argument is the number of missing
lines. `false` means that an allocation failed. -/
def growLines (width : Nat) : Nat → Screen → Bool × Screen
  | 0, s => (true, s)
  | n + 1, s =>
    match s.lineNew width with
    | (none, s) => (false, s)
    | (some m, s) =>
      match s.lineNew width with
      | (none, s) => (false, s)
      | (some a, s) => growLines width n { s with main := s.main ++ [m], alt := s.alt ++ [a] }

/-- First part of `tsm_screen_resize` (src/tsm/tsm-screen.c:622-662): allocate
missing lines. -/
def resizeLines (s : Screen) (x y : Nat) : Bool × Screen :=
  if y > s.main.length then
    let (ok, s) := s.alloc
    if ok then
      let (ok, s) := s.alloc
      if ok then growLines (if x > s.sizeX then x else s.sizeX) (y - s.main.length) s
      else (false, s)
    else (false, s)
  else (true, s)

/-- The loop over all lines in the second part of `tsm_screen_resize`
(src/tsm/tsm-screen.c:673-680) from index `i` on; the first argument is the
number of lines left. -/
def widenLines (x : Nat) : Nat → Nat → Screen → R (Bool × Screen)
  | 0, _, s => .ok (true, s)
  | n + 1, i, s =>
    match s.main[i]?, s.alt[i]? with
    | some m, some a =>
      match s.lineResize m x with
      | (none, s) => .ok (false, s)
      | (some m, s) =>
        let s := { s with main := s.main.set i m }
        match s.lineResize a x with
        | (none, s) => .ok (false, s)
        | (some a, s) => widenLines x n (i + 1) { s with alt := s.alt.set i a }
    | _, _ => .error .oobLine

/-- Second part of `tsm_screen_resize` (src/tsm/tsm-screen.c:667-681). The new
part of the tab ruler is uninitialised in C and `false` here; it is written
before `size_x` is increased. (After a failed resize the part beyond `size_x` stays uninitialised; only `tab_left` with the cursor two
beyond the last column reads it, see C21.) -/
def resizeWidth (s : Screen) (x : Nat) : R (Bool × Screen) :=
  if x > s.sizeX then
    let (ok, s) := s.alloc
    if ok then
      widenLines x s.main.length 0
        { s with tabRuler := s.tabRuler.take x ++ List.replicate (x - s.tabRuler.length) false }
    else .ok (false, s)
  else .ok (true, s)

/-- Clearing of main line `j` (src/tsm/tsm-screen.c:690-697). -/
def clearMain (s : Screen) (start j : Nat) (l : Line) : Line :=
  let i := if j < s.sizeY then start else 0
  { l with cells := l.cells.mapIdx fun k c => if i ≤ k then s.blankWith s.defAttrMain else c }

/-- Clearing of alternate line `j` (src/tsm/tsm-screen.c:699-705). -/
def clearAlt (s : Screen) (x j : Nat) (l : Line) : R Line := do
  let cells ← updCells l.cells (if j < s.sizeY then s.sizeX else 0) x (fun _ => s.blank)
  return { l with cells := cells }

/-- `clearAlt` for all alternate lines from index `j` on
(src/tsm/tsm-screen.c:689-706). -/
def clearAlts (s : Screen) (x : Nat) : Nat → List Line → R (List Line)
  | _, [] => .ok []
  | j, l :: ls => do
    let l ← s.clearAlt x j l
    let ls ← clearAlts s x (j + 1) ls
    return l :: ls

/-- The loop `for (i = 0; i < x; ++i)` initialising the tab ruler
(src/tsm/tsm-screen.c:713-718, 980-985). -/
def initTabs (tab : List Bool) (x : Nat) : R (List Bool) :=
  if tab.length < x then .error .oobTab
  else .ok (tab.mapIdx fun i b => if i < x then decide (i % 8 = 0) else b)

/-- Third part of `tsm_screen_resize` (src/tsm/tsm-screen.c:683-728): clear the
padding, reset margins and tabs, set the width. -/
def resizeClear (s : Screen) (x : Nat) : R Screen := do
  let s := s.incAge
  let start := if x > s.sizeX then s.sizeX else x
  let alt ← s.clearAlts x 0 s.alt
  let main := s.main.mapIdx (fun j l => s.clearMain start j l)
  let tab ← initTabs s.tabRuler x
  let s := { s with
    main := main, alt := alt, marginTop := 0, marginBottom := pred32 s.sizeY, tabRuler := tab
    sizeX := x }
  if s.cursorX ≥ s.sizeX then s.moveCursor (pred32 s.sizeX) s.cursorY else return s

/-- Last part of `tsm_screen_resize` (src/tsm/tsm-screen.c:730-745): scroll when
the height shrinks, set the height. -/
def resizeHeight (s : Screen) (y : Nat) : R Screen := do
  let s ← (if y < s.sizeY then do
      let diff := s.sizeY - y
      let s ← s.scrollUpI diff
      if s.cursorY > diff then s.moveCursor s.cursorX (s.cursorY - diff)
      else s.moveCursor s.cursorX 0
    else .ok s : R Screen)
  let s := { s with sizeY := y, marginBottom := pred32 y }
  if s.cursorY ≥ s.sizeY then s.moveCursor s.cursorX (pred32 s.sizeY) else return s

/-- Return values of `tsm_screen_resize` (src/tsm/tsm-screen.c:601-746). -/
inductive Ret where
  | ok
  | einval
  | enomem
  deriving DecidableEq, Repr

/-- `tsm_screen_resize` (src/tsm/tsm-screen.c:601-746). -/
def resize (s : Screen) (x y : Nat) : R (Ret × Screen) :=
  if x = 0 ∨ y = 0 then .ok (.einval, s)
  else if s.sizeX = x ∧ s.sizeY = y then .ok (.ok, s)
  else
    let (ok, s) := s.resizeLines x y
    if ok then do
      let (ok, s) ← s.resizeWidth x
      if ok then do
        let s ← s.resizeClear x
        let s ← s.resizeHeight y
        return (.ok, s)
      else return (.enomem, s)
    else .ok (.enomem, s)

/-- `tsm_screen_new` (src/tsm/tsm-screen.c:477-524) after the allocation of the
screen itself and of its symbol table; `none` if the initial resize fails. -/
def new (allocOk : Nat → Bool) : R (Option Screen) := do
  let (ret, s) ← (zero allocOk).resize 80 24
  return if ret = .ok then some s else none

/-! ### Margins, scrollback, flags, tabs -/

/-- `tsm_screen_set_margins` (src/tsm/tsm-screen.c:749-774). -/
def setMargins (s : Screen) (top bottom : Nat) : Screen :=
  let top := if top = 0 then 1 else top
  if bottom ≤ top then { s with marginTop := 0, marginBottom := pred32 s.sizeY }
  else if bottom > s.sizeY then { s with marginTop := 0, marginBottom := pred32 s.sizeY }
  else { s with marginTop := top - 1, marginBottom := bottom - 1 }

/-- The `while (con->sb_count > max)` loop of `tsm_screen_set_max_sb`
(src/tsm/tsm-screen.c:790-815); the first argument bounds the number of
iterations (`sb_count` is enough). -/
def trimSb (max : Nat) : Nat → Screen → R Screen
  | 0, s => .ok s
  | n + 1, s =>
    if s.sbCount > max then
      match s.sb with
      | [] => .error .nullDeref
      | l :: rest =>
        trimSb max n { s with
          sb := rest
          sbCount := pred32 s.sbCount
          sbPos := if s.sbPos = some l.sbId then rest.head?.map Line.sbId else s.sbPos
          selStart := if s.selActive then dropSel s.selStart l.sbId else s.selStart
          selEnd := if s.selActive then dropSel s.selEnd l.sbId else s.selEnd }
    else .ok s

/-- `tsm_screen_set_max_sb` (src/tsm/tsm-screen.c:778-818). -/
def setMaxSb (s : Screen) (max : Nat) : R Screen := do
  let s ← trimSb max s.sbCount s.incAge.touch
  return { s with sbMax := max }

/-- Lines 846-853 of `tsm_screen_clear_sb` (src/tsm/tsm-screen.c:822-855) for
one selection endpoint. -/
def clearSel (p : SelPos) : SelPos := if p.line = none then p else { p with line := none, y := -1 }

/-- `tsm_screen_clear_sb` (src/tsm/tsm-screen.c:822-855). -/
def clearSb (s : Screen) : Screen :=
  let s := s.incAge.touch
  { s with
    sb := [], sbCount := 0, sbPos := none, sbPosNum := 0
    selStart := if s.selActive then clearSel s.selStart else s.selStart
    selEnd := if s.selActive then clearSel s.selEnd else s.selEnd }

/-- The `while (num--)` loop of `tsm_screen_sb_up`
(src/tsm/tsm-screen.c:867-880). -/
def sbUpLoop : Nat → Screen → R Screen
  | 0, s => .ok s
  | n + 1, s =>
    match s.sbPos with
    | some p =>
      match prevId none s.sb p with
      | none => .error .dangling
      | some none => .ok s
      | some (some q) => sbUpLoop n { s with sbPos := some q, sbPosNum := pred32 s.sbPosNum }
    | none =>
      match s.sb.getLast? with
      | none => .ok s
      | some l => sbUpLoop n { s with sbPos := some l.sbId, sbPosNum := pred32 s.sbCount }

/-- `tsm_screen_sb_up` (src/tsm/tsm-screen.c:858-881). -/
def sbUp (s : Screen) (num : Nat) : R Screen :=
  if num = 0 then .ok s else sbUpLoop num s.incAge.touch

/-- The `while (num--)` loop of `tsm_screen_sb_down`
(src/tsm/tsm-screen.c:893-900). -/
def sbDownLoop : Nat → Screen → R Screen
  | 0, s => .ok s
  | n + 1, s =>
    match s.sbPos with
    | some p =>
      match nextId s.sb p with
      | none => .error .dangling
      | some q => sbDownLoop n { s with sbPos := q, sbPosNum := u32 (s.sbPosNum + 1) }
    | none => .ok s

/-- `tsm_screen_sb_down` (src/tsm/tsm-screen.c:884-901). -/
def sbDown (s : Screen) (num : Nat) : R Screen :=
  if num = 0 then .ok s else sbDownLoop num s.incAge.touch

/-- `tsm_screen_sb_page_up` (src/tsm/tsm-screen.c:904-911). -/
def sbPageUp (s : Screen) (num : Nat) : R Screen :=
  if num = 0 then .ok s else s.incAge.sbUp (u32 (num * s.sizeY))

/-- `tsm_screen_sb_page_down` (src/tsm/tsm-screen.c:914-921). -/
def sbPageDown (s : Screen) (num : Nat) : R Screen :=
  if num = 0 then .ok s else s.incAge.sbDown (u32 (num * s.sizeY))

/-- `tsm_screen_sb_reset` (src/tsm/tsm-screen.c:924-935). -/
def sbReset (s : Screen) : Screen :=
  if s.sbPos = none then s else { s.incAge.touch with sbPos := none, sbPosNum := 0 }

/-- `tsm_screen_set_def_attr` (src/tsm/tsm-screen.c:956-962), `attr` non-NULL. -/
def setDefAttr (s : Screen) (a : Attr) : Screen := { s with defAttr := a }

/-- `tsm_screen_reset` (src/tsm/tsm-screen.c:965-986). -/
def reset (s : Screen) : R Screen := do
  let s := s.incAge.touch
  let tab ← initTabs s.tabRuler s.sizeX
  return { s with
    flags := 0#32, marginTop := 0, marginBottom := pred32 s.sizeY, useAlt := false
    tabRuler := tab }

/-- `tsm_screen_set_flags` (src/tsm/tsm-screen.c:989-1018). -/
def setFlags (s : Screen) (flags : BitVec 32) : R Screen :=
  if flags = 0#32 then .ok s
  else do
    let s := s.incAge
    let old := s.flags
    let s := { s with flags := s.flags ||| flags }
    let s := if !old.getLsbD 6 && flags.getLsbD 6 then
        { s with age := s.ageCnt, useAlt := true, defAttrMain := s.defAttr }
      else s
    let s ← (if !old.getLsbD 4 && flags.getLsbD 4 then s.markCursor else .ok s : R Screen)
    return if !old.getLsbD 3 && flags.getLsbD 3 then s.touch else s

/-- `tsm_screen_reset_flags` (src/tsm/tsm-screen.c:1021-1047). -/
def resetFlags (s : Screen) (flags : BitVec 32) : R Screen :=
  if flags = 0#32 then .ok s
  else do
    let s := s.incAge
    let old := s.flags
    let s := { s with flags := s.flags &&& ~~~flags }
    let s := if old.getLsbD 6 && flags.getLsbD 6 then
        { s with age := s.ageCnt, useAlt := false }
      else s
    let s ← (if old.getLsbD 4 && flags.getLsbD 4 then s.markCursor else .ok s : R Screen)
    return if old.getLsbD 3 && flags.getLsbD 3 then s.touch else s

/-- Assignment `con->tab_ruler[con->cursor_x] = b`
(src/tsm/tsm-screen.c:1082, 1091). -/
def putTab (s : Screen) (b : Bool) : R Screen :=
  if s.cursorX ≥ s.sizeX then .ok s
  else if s.cursorX < s.tabRuler.length then
    .ok { s with tabRuler := s.tabRuler.set s.cursorX b }
  else .error .oobTab

/-- `tsm_screen_set_tabstop` (src/tsm/tsm-screen.c:1077-1083). -/
def setTabstop (s : Screen) : R Screen := s.putTab true

/-- `tsm_screen_reset_tabstop` (src/tsm/tsm-screen.c:1086-1092). -/
def resetTabstop (s : Screen) : R Screen := s.putTab false

/-- `tsm_screen_reset_all_tabstops` (src/tsm/tsm-screen.c:1095-1104). -/
def resetAllTabstops (s : Screen) : R Screen :=
  if s.tabRuler.length < s.sizeX then .error .oobTab
  else .ok { s with tabRuler := s.tabRuler.mapIdx fun i b => if i < s.sizeX then false else b }

/-! ### Writing and moving -/

/-- `TSM_UCS4_MAX` (src/tsm/libtsm.h). -/
def UCS4_MAX : Nat := 0x7fffffff

/-- `tsm_symbol_get_width(con->sym_table, ch)` (src/tsm/tsm-unicode.c:314-328)
for the screen's permanently empty symbol table: a symbol above `TSM_UCS4_MAX`
is not found and replaced by the default symbol 0. -/
def symWidth (ch : Nat) : R Nat :=
  if ch ≤ UCS4_MAX then Wcwidth.ucs4GetWidth ch else Wcwidth.ucs4GetWidth 0

/-- `tsm_screen_write` (src/tsm/tsm-screen.c:1107-1141) with the width already
computed and non-zero. -/
def writeW (s : Screen) (ch len : Nat) (attr : Attr) : R Screen := do
  let s := s.incAge
  let last := if s.cursorY ≤ s.marginBottom ∨ s.cursorY ≥ s.sizeY then s.marginBottom
    else pred32 s.sizeY
  let s ← (if s.cursorX ≥ s.sizeX then
      if s.fWrap then s.moveCursor 0 (u32 (s.cursorY + 1))
      else s.moveCursor (pred32 s.sizeX) s.cursorY
    else .ok s : R Screen)
  let s ← (if s.cursorY > last then do
      let s ← s.moveCursor s.cursorX last
      s.scrollUpI 1
    else .ok s : R Screen)
  let s ← s.writeAt s.cursorX s.cursorY ch len attr
  s.moveCursor (u32 (s.cursorX + len)) s.cursorY

/-- `tsm_screen_write` (src/tsm/tsm-screen.c:1107-1141). -/
def write (s : Screen) (ch : Nat) (attr : Attr) : R Screen := do
  let len ← symWidth ch
  if len = 0 then return s
  s.writeW ch len attr

/-- `tsm_screen_scroll_up` (src/tsm/tsm-screen.c:1156-1164). -/
def scrollUp (s : Screen) (num : Nat) : R Screen :=
  if num = 0 then .ok s else s.incAge.scrollUpI num

/-- `tsm_screen_scroll_down` (src/tsm/tsm-screen.c:1167-1175). -/
def scrollDown (s : Screen) (num : Nat) : R Screen :=
  if num = 0 then .ok s else s.incAge.scrollDownI num

/-- `tsm_screen_move_to` (src/tsm/tsm-screen.c:1178-1202). -/
def moveTo (s : Screen) (x y : Nat) : R Screen :=
  let s := s.incAge
  let last := if s.fOrigin then s.marginBottom else pred32 s.sizeY
  let x := if x ≥ s.sizeX then pred32 s.sizeX else x
  let y := s.toAbsY y
  let y := if y > last then last else y
  s.moveCursor x y

/-- `tsm_screen_move_up` (src/tsm/tsm-screen.c:1205-1229). -/
def moveUp (s : Screen) (num : Nat) (scroll : Bool) : R Screen :=
  if num = 0 then .ok s
  else do
    let s := s.incAge
    let size := if s.cursorY ≥ s.marginTop then s.marginTop else 0
    let diff := sub32 s.cursorY size
    if num > diff then do
      let s ← (if scroll then s.scrollDownI (num - diff) else .ok s : R Screen)
      s.moveCursor s.cursorX size
    else s.moveCursor s.cursorX (sub32 s.cursorY num)

/-- `tsm_screen_move_down` (src/tsm/tsm-screen.c:1232-1256). -/
def moveDown (s : Screen) (num : Nat) (scroll : Bool) : R Screen :=
  if num = 0 then .ok s
  else do
    let s := s.incAge
    let size := if s.cursorY ≤ s.marginBottom then u32 (s.marginBottom + 1) else s.sizeY
    let diff := pred32 (sub32 size s.cursorY)
    if num > diff then do
      let s ← (if scroll then s.scrollUpI (num - diff) else .ok s : R Screen)
      s.moveCursor s.cursorX (pred32 size)
    else s.moveCursor s.cursorX (u32 (s.cursorY + num))

/-- `tsm_screen_move_left` (src/tsm/tsm-screen.c:1259-1279). -/
def moveLeft (s : Screen) (num : Nat) : R Screen :=
  if num = 0 then .ok s
  else
    let s := s.incAge
    let num := if num > s.sizeX then s.sizeX else num
    let x := if s.cursorX ≥ s.sizeX then pred32 s.sizeX else s.cursorX
    if num > x then s.moveCursor 0 s.cursorY else s.moveCursor (x - num) s.cursorY

/-- `tsm_screen_move_right` (src/tsm/tsm-screen.c:1282-1296). -/
def moveRight (s : Screen) (num : Nat) : R Screen :=
  if num = 0 then .ok s
  else
    let s := s.incAge
    let num := if num > s.sizeX then s.sizeX else num
    if u32 (num + s.cursorX) ≥ s.sizeX then s.moveCursor (pred32 s.sizeX) s.cursorY
    else s.moveCursor (u32 (s.cursorX + num)) s.cursorY

/-- `tsm_screen_move_line_end` (src/tsm/tsm-screen.c:1299-1307). -/
def moveLineEnd (s : Screen) : R Screen :=
  let s := s.incAge
  s.moveCursor (pred32 s.sizeX) s.cursorY

/-- `tsm_screen_move_line_home` (src/tsm/tsm-screen.c:1310-1318). -/
def moveLineHome (s : Screen) : R Screen :=
  let s := s.incAge
  s.moveCursor 0 s.cursorY

/-- `tsm_screen_newline` (src/tsm/tsm-screen.c:1144-1153). -/
def newline (s : Screen) : R Screen := do
  let s ← s.incAge.moveDown 1 true
  s.moveLineHome

/-! ### Tabs -/

/-- Inner loop of `tsm_screen_tab_right` (src/tsm/tsm-screen.c:1332-1335) from
column `j` on; the first argument bounds the number of iterations (`size_x` is
enough). -/
def scanRight (tab : List Bool) (sizeX : Nat) : Nat → Nat → R Nat
  | 0, j => .ok j
  | n + 1, j =>
    if j < sizeX then
      match tab[j]? with
      | none => .error .oobTab
      | some true => .ok j
      | some false => scanRight tab sizeX n (j + 1)
    else .ok j

/-- Outer loop of `tsm_screen_tab_right` (src/tsm/tsm-screen.c:1331-1340); the
first argument counts down `num - i`. -/
def tabRightLoop (tab : List Bool) (sizeX : Nat) : Nat → Nat → R Nat
  | 0, x => .ok x
  | n + 1, x => do
    let x ← scanRight tab sizeX sizeX (u32 (x + 1))
    if u32 (x + 1) ≥ sizeX then return x
    tabRightLoop tab sizeX n x

/-- `tsm_screen_tab_right` (src/tsm/tsm-screen.c:1321-1347). -/
def tabRight (s : Screen) (num : Nat) : R Screen :=
  if num = 0 then .ok s
  else do
    let s := s.incAge
    let x ← tabRightLoop s.tabRuler s.sizeX num s.cursorX
    let x := if x ≥ s.sizeX then pred32 s.sizeX else x
    s.moveCursor x s.cursorY

/-- Inner loop of `tsm_screen_tab_left` (src/tsm/tsm-screen.c:1362-1365) from
column `j` on. The C variable is signed and starts at `x - 1`, i.e. -1 for
`x = 0`; the values -1 and 0 behave the same and are both 0 here. -/
def scanLeft (tab : List Bool) : Nat → R Nat
  | 0 => .ok 0
  | j + 1 =>
    match tab[j + 1]? with
    | none => .error .oobTab
    | some true => .ok (j + 1)
    | some false => scanLeft tab j

/-- Outer loop of `tsm_screen_tab_left` (src/tsm/tsm-screen.c:1361-1372); the
first argument counts down `num - i`. -/
def tabLeftLoop (tab : List Bool) : Nat → Nat → R Nat
  | 0, x => .ok x
  | n + 1, x => do
    let j ← scanLeft tab (x - 1)
    if j = 0 then return 0
    tabLeftLoop tab n j

/-- `tsm_screen_tab_left` (src/tsm/tsm-screen.c:1350-1375). -/
def tabLeft (s : Screen) (num : Nat) : R Screen :=
  if num = 0 then .ok s
  else do
    let s := s.incAge
    let x ← tabLeftLoop s.tabRuler num s.cursorX
    s.moveCursor x s.cursorY

/-! ### Inserting, deleting, erasing -/

/-- `tsm_screen_insert_lines` (src/tsm/tsm-screen.c:1378-1415). The array
`cache[num]` lives on the stack; stack exhaustion is not modelled. -/
def insertLines (s : Screen) (num : Nat) : R Screen :=
  if num = 0 then .ok s
  else if s.cursorY < s.marginTop ∨ s.cursorY > s.marginBottom then .ok s
  else do
    let s := s.incAge.touch
    let max := u32 (sub32 s.marginBottom s.cursorY + 1)
    let num := if num > max then max else num
    let (ls, cache) ← takeRows s (fun i => sub32 s.marginBottom i) num 0 s.lines
    let ls ← (if num < max then do
        let ls ← memmove .oobLine ls (s.cursorY + num) s.cursorY (max - num)
        memcpy .oobLine ls s.cursorY cache
      else .ok ls : R (List Line))
    return { s.withLines ls with cursorX := 0 }

/-- `tsm_screen_delete_lines` (src/tsm/tsm-screen.c:1418-1455). -/
def deleteLines (s : Screen) (num : Nat) : R Screen :=
  if num = 0 then .ok s
  else if s.cursorY < s.marginTop ∨ s.cursorY > s.marginBottom then .ok s
  else do
    let s := s.incAge.touch
    let max := u32 (sub32 s.marginBottom s.cursorY + 1)
    let num := if num > max then max else num
    let (ls, cache) ← takeRows s (fun i => s.cursorY + i) num 0 s.lines
    let ls ← (if num < max then do
        let ls ← memmove .oobLine ls s.cursorY (s.cursorY + num) (max - num)
        memcpy .oobLine ls (s.cursorY + (max - num)) cache
      else .ok ls : R (List Line))
    return { s.withLines ls with cursorX := 0 }

/-- Cursor clamping in `tsm_screen_insert_chars` and `tsm_screen_delete_chars`
(src/tsm/tsm-screen.c:1470-1473, 1503-1506). -/
def clampCursor (s : Screen) : Screen :=
  { s with
    cursorX := if s.cursorX ≥ s.sizeX then pred32 s.sizeX else s.cursorX
    cursorY := if s.cursorY ≥ s.sizeY then pred32 s.sizeY else s.cursorY }

/-- `tsm_screen_insert_chars` (src/tsm/tsm-screen.c:1458-1488). -/
def insertChars (s : Screen) (num : Nat) : R Screen :=
  if num = 0 ∨ s.sizeY = 0 ∨ s.sizeX = 0 then .ok s
  else
    let s := s.incAge.touch.clampCursor
    let max := s.sizeX - s.cursorX
    let num := if num > max then max else num
    let mv := max - num
    match s.lines[s.cursorY]? with
    | none => .error .oobLine
    | some l => do
      let cells ← (if mv ≠ 0 then memmove .oobCell l.cells (s.cursorX + num) s.cursorX mv
        else .ok l.cells : R (List Cell))
      let cells ← updCells cells s.cursorX (s.cursorX + num) (fun _ => s.blank)
      return s.withLines (s.lines.set s.cursorY { l with cells := cells })

/-- `tsm_screen_delete_chars` (src/tsm/tsm-screen.c:1491-1521). -/
def deleteChars (s : Screen) (num : Nat) : R Screen :=
  if num = 0 ∨ s.sizeY = 0 ∨ s.sizeX = 0 then .ok s
  else
    let s := s.incAge.touch.clampCursor
    let max := s.sizeX - s.cursorX
    let num := if num > max then max else num
    let mv := max - num
    match s.lines[s.cursorY]? with
    | none => .error .oobLine
    | some l => do
      let cells ← (if mv ≠ 0 then memmove .oobCell l.cells s.cursorX (s.cursorX + num) mv
        else .ok l.cells : R (List Cell))
      let cells ← updCells cells (s.cursorX + mv) (s.cursorX + mv + num) (fun _ => s.blank)
      return s.withLines (s.lines.set s.cursorY { l with cells := cells })

/-- Clamped cursor column used by the erase functions
(src/tsm/tsm-screen.c:1533-1536, 1551-1554, 1571-1574, 1629-1632). -/
def eraseX (s : Screen) : Nat := if s.cursorX ≥ s.sizeX then pred32 s.sizeX else s.cursorX

/-- `tsm_screen_erase_cursor` (src/tsm/tsm-screen.c:1524-1539). -/
def eraseCursor (s : Screen) : R Screen :=
  s.incAge.eraseRegion s.eraseX s.cursorY s.eraseX s.cursorY false

/-- `tsm_screen_erase_chars` (src/tsm/tsm-screen.c:1542-1558). -/
def eraseChars (s : Screen) (num : Nat) : R Screen :=
  if num = 0 then .ok s
  else s.incAge.eraseRegion s.eraseX s.cursorY (pred32 (u32 (s.eraseX + num))) s.cursorY false

/-- `tsm_screen_erase_cursor_to_end` (src/tsm/tsm-screen.c:1561-1578). -/
def eraseCursorToEnd (s : Screen) (protect : Bool) : R Screen :=
  s.incAge.eraseRegion s.eraseX s.cursorY (pred32 s.sizeX) s.cursorY protect

/-- `tsm_screen_erase_home_to_cursor` (src/tsm/tsm-screen.c:1581-1591). -/
def eraseHomeToCursor (s : Screen) (protect : Bool) : R Screen :=
  s.incAge.eraseRegion 0 s.cursorY s.cursorX s.cursorY protect

/-- `tsm_screen_erase_current_line` (src/tsm/tsm-screen.c:1594-1604). -/
def eraseCurrentLine (s : Screen) (protect : Bool) : R Screen :=
  s.incAge.eraseRegion 0 s.cursorY (pred32 s.sizeX) s.cursorY protect

/-- `tsm_screen_erase_screen_to_cursor` (src/tsm/tsm-screen.c:1607-1616). -/
def eraseScreenToCursor (s : Screen) (protect : Bool) : R Screen :=
  s.incAge.eraseRegion 0 0 s.cursorX s.cursorY protect

/-- `tsm_screen_erase_cursor_to_screen` (src/tsm/tsm-screen.c:1619-1636). -/
def eraseCursorToScreen (s : Screen) (protect : Bool) : R Screen :=
  s.incAge.eraseRegion s.eraseX s.cursorY (pred32 s.sizeX) (pred32 s.sizeY) protect

/-- `tsm_screen_erase_screen` (src/tsm/tsm-screen.c:1639-1648). -/
def eraseScreen (s : Screen) (protect : Bool) : R Screen :=
  s.incAge.eraseRegion 0 0 (pred32 s.sizeX) (pred32 s.sizeY) protect

end Screen
end Verif
