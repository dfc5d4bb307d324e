import Verif.Model.ScreenApi

/-!
# The screen with explicit pointers (src/tsm/tsm-screen.c, tsm-render.c, tsm-selection.c)

The model of `Screen.lean` owns lines structurally: three lists of lines. Here the same functions are modelled once
more with a heap of `struct line` objects, arrays of pointers, the doubly linked list of the scrollback, and explicit
`malloc` and `free`. Using a pointer that is not allocated is undefined behaviour (`dangling`), and so is freeing
one (`badFree`). The allocator may return any address that is not in use, in particular one that was freed before.

Simplifications:
* A `struct line` and its array of cells are one object (`line_new` and `line_free` allocate and free both).
* The arrays `main_lines`, `alt_lines` and `tab_ruler`, the screen itself and its symbol table are not heap objects.
* Functions that only access the screen's fields and the cells of the lines in the two arrays, but neither the
  arrays themselves nor the scrollback nor the selection, are those of `Screen.lean`, applied to the lines that the
  pointers refer to (`access`); their results are stored through the same pointers.
-/

namespace Verif

/-- `struct line` (src/tsm/libtsm-int.h:89-97); NULL is `none`. -/
structure LineObj where
  next : Option Nat
  prev : Option Nat
  line : Line

/-- The heap of lines: the allocated addresses and the objects at them (the model of `malloc`/`free`, used at
src/tsm/tsm-screen.c:136-147, 157-161). -/
structure Heap where
  live : List Nat
  obj : Nat → LineObj

namespace Heap

/-- `*a` for a pointer to a `struct line` (src/tsm/libtsm-int.h:89-97). -/
def read (h : Heap) (a : Nat) : R LineObj := if a ∈ h.live then .ok (h.obj a) else .error .dangling

/-- An assignment to fields of `*a` (src/tsm/libtsm-int.h:89-97). -/
def modify (h : Heap) (a : Nat) (f : LineObj → LineObj) : R Heap :=
  if a ∈ h.live then .ok { h with obj := fun b => if b = a then f (h.obj a) else h.obj b } else .error .dangling

/-- `line_free(a)` (src/tsm/tsm-screen.c:157-161). -/
def free (h : Heap) (a : Nat) : R Heap :=
  if a ∈ h.live then .ok { h with live := h.live.erase a } else .error .badFree

/-- The lines that an array of pointers refers to (reads through `con->lines[i]`, src/tsm/libtsm-int.h:132-134). -/
def reads (h : Heap) : List Nat → R (List Line)
  | [] => .ok []
  | a :: as => do
    let o ← h.read a
    let ls ← reads h as
    return o.line :: ls

/-- Storing lines through an array of pointers (writes through `con->lines[i]`, src/tsm/libtsm-int.h:132-134). -/
def writes : Heap → List Nat → List Line → R Heap
  | h, a :: as, l :: ls => do
    let h ← h.modify a (fun o => { o with line := l })
    writes h as ls
  | h, _, _ => .ok h

end Heap

/-- An allocator: the choice of an address for the `n`-th allocation, given the addresses in use. It may do
anything but return an address in use (C library, used at src/tsm/tsm-screen.c:136). -/
structure Allocator where
  choose : List Nat → Nat → Nat
  fresh : ∀ live n, choose live n ∉ live

/-- `struct tsm_screen` (src/tsm/libtsm-int.h:106-158). `sc` holds the fields that are not pointers to lines; its
components `main`, `alt`, `sb` and `sbPos` and the lines of its selection are not used (they are empty). The pointers
are `main_lines`, `alt_lines` (with `lines` being one of them, see `Screen.useAlt`), `sb_first`, `sb_last`, `sb_pos`,
`sel_start.line` and `sel_end.line`. -/
structure PScreen where
  sc : Screen
  heap : Heap
  al : Allocator
  main : List Nat
  alt : List Nat
  first : Option Nat
  last : Option Nat
  pos : Option Nat
  selS : Option Nat
  selE : Option Nat

namespace PScreen

/-- A change of fields that are not pointers, e.g. `screen_inc_age` (src/tsm/libtsm-int.h:166-172). -/
def onSc (p : PScreen) (f : Screen → Screen) : PScreen := { p with sc := f p.sc }

/-- `con->lines` (src/tsm/libtsm-int.h:132). -/
def lines (p : PScreen) : List Nat := if p.sc.useAlt then p.alt else p.main

/-- Assignment to entries of `con->lines` (src/tsm/libtsm-int.h:132). -/
def withLines (p : PScreen) (as : List Nat) : PScreen :=
  if p.sc.useAlt then { p with alt := as } else { p with main := as }

/-- A function that accesses fields of the screen and the cells of its lines only (e.g. `move_cursor`,
src/tsm/tsm-screen.c:85-111). -/
def access {α : Type} (p : PScreen) (f : Screen → R (α × Screen)) : R (α × PScreen) := do
  let m ← p.heap.reads p.main
  let a ← p.heap.reads p.alt
  let (r, s) ← f { p.sc with main := m, alt := a }
  let h ← p.heap.writes p.main s.main
  let h ← h.writes p.alt s.alt
  return (r, { p with sc := { s with main := [], alt := [] }, heap := h })

/-- `access` for a function without result (e.g. `move_cursor`, src/tsm/tsm-screen.c:85-111). -/
def cells (p : PScreen) (f : Screen → R Screen) : R PScreen := do
  let r ← p.access (fun s => do let s ← f s; return ((), s))
  return r.2

/-- `line_new` (src/tsm/tsm-screen.c:127-155). -/
def lineNew (p : PScreen) (width : Nat) : Option Nat × PScreen :=
  if width = 0 then (none, p)
  else
    let (ok, s) := p.sc.alloc
    if ok then
      let a := p.al.choose p.heap.live p.sc.allocN
      let o : LineObj := ⟨none, none, ⟨List.replicate width s.blank, s.ageCnt, 0⟩⟩
      (some a, { p with sc := s, heap := ⟨a :: p.heap.live, fun b => if b = a then o else p.heap.obj b⟩ })
    else (none, { p with sc := s })

/-- `line_free` (src/tsm/tsm-screen.c:157-161). -/
def lineFree (p : PScreen) (a : Nat) : R PScreen := do
  let h ← p.heap.free a
  return { p with heap := h }

/-- Clearing the line at `a` (src/tsm/tsm-screen.c:309-310, 368-369, 1401-1402, 1441-1442). -/
def clearLine (p : PScreen) (a : Nat) : R PScreen := do
  let o ← p.heap.read a
  let l ← p.sc.clearLine o.line
  let h ← p.heap.modify a (fun o => { o with line := l })
  return { p with heap := h }

/-! ### Scrollback -/

/-- The update of the selection when the line at `a` is freed (src/tsm/tsm-screen.c:196-205, 243-252, 804-813). -/
def dropSel (p : PScreen) (a : Nat) : PScreen :=
  if p.sc.selActive then
    let p := if p.selS = some a then
      { p with selS := none, sc := { p.sc with selStart := { p.sc.selStart with y := -1 } } } else p
    if p.selE = some a then
      { p with selE := none, sc := { p.sc with selEnd := { p.sc.selEnd with y := -1 } } } else p
  else p

/-- Removal of the line `*a` at the head of the list (src/tsm/tsm-screen.c:216-221, 791-796). -/
def unlinkFirst (p : PScreen) : R (Nat × PScreen) :=
  match p.first with
  | none => .error .nullDeref
  | some a => do
    let o ← p.heap.read a
    let p := { p with first := o.next }
    let p ← (match o.next with
      | some n => do
        let h ← p.heap.modify n (fun x => { x with prev := none })
        return { p with heap := h }
      | none => .ok { p with last := none } : R PScreen)
    return (a, p)

/-- `--con->sb_count` (src/tsm/tsm-screen.c:222, 797). -/
def countDown (s : Screen) : Screen := { s with sbCount := pred32 s.sbCount }

/-- The update of `sb_pos` when the line at `a` is evicted and the one at `line` is about to be linked
(src/tsm/tsm-screen.c:230-241). -/
def evictPos (p : PScreen) (a line : Nat) : R PScreen :=
  match p.pos with
  | none => .ok p
  | some q =>
    if q = a ∨ p.sc.fFixed = false then do
      let o ← p.heap.read q
      match o.next with
      | some n => return { p with pos := some n, sc := { p.sc with sbPosNum := u32 (p.sc.sbPosNum + 1) } }
      | none => return { p with pos := some line, sc := { p.sc with sbPosNum := 0 } }
    else .ok p

/-- The eviction branch of `link_to_scrollback` (src/tsm/tsm-screen.c:215-254). -/
def sbEvict (p : PScreen) (line : Nat) : R PScreen := do
  let (a, p) ← p.unlinkFirst
  let p ← (p.onSc countDown).evictPos a line
  (p.dropSel a).lineFree a

/-- The linking part of `link_to_scrollback` (src/tsm/tsm-screen.c:256-269). -/
def sbAppend (p : PScreen) (line : Nat) : R PScreen := do
  let id := p.sc.sbLastId + 1
  let h ← p.heap.modify line (fun o => { next := none, prev := p.last, line := { o.line with sbId := id } })
  let p ← (match p.last with
    | some z => do
      let h ← h.modify z (fun o => { o with next := some line })
      return { p with heap := h }
    | none => .ok { p with heap := h, first := some line } : R PScreen)
  let n := u32 (p.sc.sbCount + 1)
  return { p with
    last := some line
    sc := { p.sc with
      sbLastId := id, sbCount := n
      sbPosNum := if p.pos = none then n else p.sc.sbPosNum } }

/-- `link_to_scrollback` (src/tsm/tsm-screen.c:188-270). -/
def linkToScrollback (p : PScreen) (line : Nat) : R PScreen :=
  let p := p.onSc Screen.touch
  if p.sc.sbMax = 0 then (p.dropSel line).lineFree line
  else do
    let p ← if p.sc.sbCount ≥ p.sc.sbMax then p.sbEvict line else .ok p
    p.sbAppend line

/-! ### Scrolling -/

/-- The `for (i = 0; i < num; ++i)` loop of `screen_scroll_up` (src/tsm/tsm-screen.c:298-312), returning `cache`. -/
def scrollUpLoop : Nat → Nat → PScreen → R (PScreen × List Nat)
  | 0, _, p => .ok (p, [])
  | n + 1, i, p =>
    match p.lines[p.sc.marginTop + i]? with
    | none => .error .oobLine
    | some a =>
      let (b, p) := if p.sc.fAlt then (none, p) else p.lineNew p.sc.sizeX
      match b with
      | some b => do
        let p ← p.linkToScrollback a
        let (p, rest) ← scrollUpLoop n (i + 1) p
        return (p, b :: rest)
      | none => do
        let p ← p.clearLine a
        let (p, rest) ← scrollUpLoop n (i + 1) p
        return (p, a :: rest)

/-- The walk to older lines at the end of `screen_scroll_up` (src/tsm/tsm-screen.c:328-329, 337-338). -/
def walkPrev (h : Heap) : Nat → Option Nat → R (Option Nat)
  | 0, q => .ok q
  | _ + 1, none => .ok none
  | n + 1, some a => do
    let o ← h.read a
    walkPrev h n o.prev

/-- Selection adjustment at the end of `screen_scroll_up` (src/tsm/tsm-screen.c:323-342) for one endpoint with line
`q` and row `y`. -/
def scrollSel (p : PScreen) (num : Nat) (q : Option Nat) (y : Int) : R (Option Nat × Int) :=
  if q = none ∧ y ≥ 0 then
    let y := y - num
    if y < 0 then do
      let q ← walkPrev p.heap ((-y).toNat - 1) p.last
      return (q, -1)
    else .ok (none, y)
  else .ok (q, y)

/-- The body of `screen_scroll_up` for at most 128 lines (src/tsm/tsm-screen.c:296-342). -/
def scrollUpChunk (p : PScreen) (max num : Nat) : R PScreen := do
  let (p, cache) ← scrollUpLoop num 0 p
  let as ← (if num < max then
      Screen.memmove .oobLine p.lines p.sc.marginTop (p.sc.marginTop + num) (max - num)
    else .ok p.lines : R (List Nat))
  let as ← Screen.memcpy .oobLine as (p.sc.marginTop + (max - num)) cache
  let p := p.withLines as
  if p.sc.selActive then do
    let (a, y) ← p.scrollSel num p.selS p.sc.selStart.y
    let p := { p with selS := a, sc := { p.sc with selStart := { p.sc.selStart with y := y } } }
    let (a, y) ← p.scrollSel num p.selE p.sc.selEnd.y
    return { p with selE := a, sc := { p.sc with selEnd := { p.sc.selEnd with y := y } } }
  else return p

/-- `screen_scroll_up` (src/tsm/tsm-screen.c:272-343), see `Screen.scrollUpFuel`. -/
def scrollUpFuel : Nat → PScreen → Nat → R PScreen
  | 0, p, _ => .ok p
  | fuel + 1, p, num =>
    if num = 0 then .ok p
    else
      let p := p.onSc Screen.touch
      let max := sub32 (p.sc.marginBottom + 1) p.sc.marginTop
      let num := if num > max then max else num
      if num > 128 then do
        let p ← scrollUpChunk p max 128
        scrollUpFuel fuel p (num - 128)
      else scrollUpChunk p max num

/-- `screen_scroll_up` (src/tsm/tsm-screen.c:272-343). -/
def scrollUpI (p : PScreen) (num : Nat) : R PScreen := scrollUpFuel num p num

/-- Loop that clears line `idx i` for `i = i₀, i₀+1, ..` (`n` iterations) and remembers it in `cache`
(src/tsm/tsm-screen.c:366-370, 1399-1403, 1439-1443). -/
def takeRows (idx : Nat → Nat) : Nat → Nat → PScreen → R (PScreen × List Nat)
  | 0, _, p => .ok (p, [])
  | n + 1, i, p =>
    match p.lines[idx i]? with
    | none => .error .oobLine
    | some a => do
      let p ← p.clearLine a
      let (p, rest) ← takeRows idx n (i + 1) p
      return (p, a :: rest)

/-- Body of `screen_scroll_down` for at most 128 lines (src/tsm/tsm-screen.c:364-386). -/
def scrollDownChunk (p : PScreen) (max num : Nat) : R PScreen := do
  let (p, cache) ← takeRows (fun i => sub32 p.sc.marginBottom i) num 0 p
  let as ← (if num < max then
      Screen.memmove .oobLine p.lines (p.sc.marginTop + num) p.sc.marginTop (max - num)
    else .ok p.lines : R (List Nat))
  let as ← Screen.memcpy .oobLine as p.sc.marginTop cache
  let p := p.withLines as
  if p.sc.selActive then
    let y := p.sc.selStart.y
    let p := if p.selS = none ∧ y ≥ 0 then
      p.onSc fun s => { s with selStart := { s.selStart with y := y + num } } else p
    let y := p.sc.selEnd.y
    return if p.selE = none ∧ y ≥ 0 then
      p.onSc fun s => { s with selEnd := { s.selEnd with y := y + num } } else p
  else return p

/-- `screen_scroll_down` (src/tsm/tsm-screen.c:345-387). -/
def scrollDownFuel : Nat → PScreen → Nat → R PScreen
  | 0, p, _ => .ok p
  | fuel + 1, p, num =>
    if num = 0 then .ok p
    else
      let p := p.onSc Screen.touch
      let max := sub32 (p.sc.marginBottom + 1) p.sc.marginTop
      let num := if num > max then max else num
      if num > 128 then do
        let p ← scrollDownChunk p max 128
        scrollDownFuel fuel p (num - 128)
      else scrollDownChunk p max num

/-- `screen_scroll_down` (src/tsm/tsm-screen.c:345-387). -/
def scrollDownI (p : PScreen) (num : Nat) : R PScreen := scrollDownFuel num p num

/-- `move_cursor` (src/tsm/tsm-screen.c:85-111). -/
def moveCursor (p : PScreen) (x y : Nat) : R PScreen := p.cells (fun s => s.moveCursor x y)

/-! ### Construction, resizing and destruction -/

/-- The `while (con->line_num < y)` loop of `tsm_screen_resize` (src/tsm/tsm-screen.c:647-661). -/
def growLines (width : Nat) : Nat → PScreen → R (Bool × PScreen)
  | 0, p => .ok (true, p)
  | n + 1, p =>
    match p.lineNew width with
    | (none, p) => .ok (false, p)
    | (some m, p) =>
      match p.lineNew width with
      | (none, p) => do
        let p ← p.lineFree m
        return (false, p)
      | (some a, p) => growLines width n { p with main := p.main ++ [m], alt := p.alt ++ [a] }

/-- First part of `tsm_screen_resize` (src/tsm/tsm-screen.c:622-662). -/
def resizeLines (p : PScreen) (x y : Nat) : R (Bool × PScreen) :=
  if y > p.main.length then
    let (ok, s) := p.sc.alloc
    if ok then
      let (ok, s) := s.alloc
      let p := { p with sc := s }
      if ok then growLines (if x > p.sc.sizeX then x else p.sc.sizeX) (y - p.main.length) p
      else .ok (false, p)
    else .ok (false, { p with sc := s })
  else .ok (true, p)

/-- Last part of `tsm_screen_resize` (src/tsm/tsm-screen.c:730-745). -/
def resizeHeight (p : PScreen) (y : Nat) : R PScreen := do
  let p ← (if y < p.sc.sizeY then do
      let diff := p.sc.sizeY - y
      let p ← p.scrollUpI diff
      if p.sc.cursorY > diff then p.moveCursor p.sc.cursorX (p.sc.cursorY - diff)
      else p.moveCursor p.sc.cursorX 0
    else .ok p : R PScreen)
  let p := p.onSc fun s => { s with sizeY := y, marginBottom := pred32 y }
  if p.sc.cursorY ≥ p.sc.sizeY then p.moveCursor p.sc.cursorX (pred32 p.sc.sizeY) else return p

/-- `tsm_screen_resize` (src/tsm/tsm-screen.c:601-746). -/
def resize (p : PScreen) (x y : Nat) : R (Screen.Ret × PScreen) :=
  if x = 0 ∨ y = 0 then .ok (.einval, p)
  else if p.sc.sizeX = x ∧ p.sc.sizeY = y then .ok (.ok, p)
  else do
    let (ok, p) ← p.resizeLines x y
    if ok then do
      let (ok, p) ← p.access (fun s => s.resizeWidth x)
      if ok then do
        let p ← p.cells (fun s => s.resizeClear x)
        let p ← p.resizeHeight y
        return (.ok, p)
      else return (.enomem, p)
    else return (.enomem, p)

/-- The loop over the lines of both arrays when a screen is destroyed (src/tsm/tsm-screen.c:514-517, 545-548). -/
def freeLines : List Nat → List Nat → Heap → R Heap
  | m :: ms, a :: as, h => do
    let h ← h.free m
    let h ← h.free a
    freeLines ms as h
  | _, _, h => .ok h

/-- The loop of `tsm_screen_clear_sb` (src/tsm/tsm-screen.c:833-837); the first argument bounds the number of
iterations (the number of allocated lines is enough). -/
def freeSb : Nat → Option Nat → Heap → R Heap
  | _, none, h => .ok h
  | 0, some _, _ => .error .hang
  | n + 1, some a, h => do
    let o ← h.read a
    let h ← h.free a
    freeSb n o.next h

/-- `tsm_screen_clear_sb` (src/tsm/tsm-screen.c:822-855). -/
def clearSb (p : PScreen) : R PScreen := do
  let p := p.onSc fun s => s.incAge.touch
  let h ← freeSb p.heap.live.length p.first p.heap
  let p := { p with
    heap := h, first := none, last := none, pos := none
    sc := { p.sc with sbCount := 0, sbPosNum := 0 } }
  if p.sc.selActive then
    let p := if p.selS = none then p else
      { p with selS := none, sc := { p.sc with selStart := { p.sc.selStart with y := -1 } } }
    return if p.selE = none then p else
      { p with selE := none, sc := { p.sc with selEnd := { p.sc.selEnd with y := -1 } } }
  else return p

/-- The release of the lines in `tsm_screen_unref` when the last reference is dropped
(src/tsm/tsm-screen.c:545-554): the heap that remains. -/
def destroy (p : PScreen) : R Heap := do
  let h ← freeLines p.main p.alt p.heap
  let p ← clearSb { p with heap := h }
  return p.heap

/-- `tsm_screen_new` (src/tsm/tsm-screen.c:477-524) after the allocation of the screen itself and of its symbol
table. If the initial resize fails, all lines are freed, and the heap that remains is returned. -/
def new (al : Allocator) (allocOk : Nat → Bool) : R (Heap ⊕ PScreen) := do
  let p : PScreen :=
    { sc := Screen.zero allocOk, heap := ⟨[], fun _ => ⟨none, none, default⟩⟩, al := al
      main := [], alt := [], first := none, last := none, pos := none, selS := none, selE := none }
  let (ret, p) ← p.resize 80 24
  if ret = .ok then return .inr p
  else do
    let h ← freeLines p.main p.alt p.heap
    return .inl h

/-! ### Other functions that handle pointers to lines -/

/-- The loop of `tsm_screen_set_max_sb` (src/tsm/tsm-screen.c:790-815); the first argument bounds the number of
iterations (`sb_count` is enough). -/
def trimSb (max : Nat) : Nat → PScreen → R PScreen
  | 0, p => .ok p
  | n + 1, p =>
    if p.sc.sbCount > max then do
      let (a, p) ← p.unlinkFirst
      let p := p.onSc countDown
      let p := if p.pos = some a then { p with pos := p.first } else p
      let p ← (p.dropSel a).lineFree a
      trimSb max n p
    else .ok p

/-- `tsm_screen_set_max_sb` (src/tsm/tsm-screen.c:778-818). -/
def setMaxSb (p : PScreen) (max : Nat) : R PScreen := do
  let p ← trimSb max p.sc.sbCount (p.onSc fun s => s.incAge.touch)
  return p.onSc fun s => { s with sbMax := max }

/-- The loop of `tsm_screen_sb_up` (src/tsm/tsm-screen.c:867-880). -/
def sbUpLoop : Nat → PScreen → R PScreen
  | 0, p => .ok p
  | n + 1, p =>
    match p.pos with
    | some q => do
      let o ← p.heap.read q
      match o.prev with
      | none => return p
      | some z => sbUpLoop n { p with pos := some z, sc := { p.sc with sbPosNum := pred32 p.sc.sbPosNum } }
    | none =>
      match p.last with
      | none => .ok p
      | some z => sbUpLoop n { p with pos := some z, sc := { p.sc with sbPosNum := pred32 p.sc.sbCount } }

/-- `tsm_screen_sb_up` (src/tsm/tsm-screen.c:858-881). -/
def sbUp (p : PScreen) (num : Nat) : R PScreen :=
  if num = 0 then .ok p else sbUpLoop num (p.onSc fun s => s.incAge.touch)

/-- The loop of `tsm_screen_sb_down` (src/tsm/tsm-screen.c:893-900). -/
def sbDownLoop : Nat → PScreen → R PScreen
  | 0, p => .ok p
  | n + 1, p =>
    match p.pos with
    | some q => do
      let o ← p.heap.read q
      sbDownLoop n { p with pos := o.next, sc := { p.sc with sbPosNum := u32 (p.sc.sbPosNum + 1) } }
    | none => .ok p

/-- `tsm_screen_sb_down` (src/tsm/tsm-screen.c:884-901). -/
def sbDown (p : PScreen) (num : Nat) : R PScreen :=
  if num = 0 then .ok p else sbDownLoop num (p.onSc fun s => s.incAge.touch)

/-- `tsm_screen_sb_page_up` (src/tsm/tsm-screen.c:904-911). -/
def sbPageUp (p : PScreen) (num : Nat) : R PScreen :=
  if num = 0 then .ok p else (p.onSc Screen.incAge).sbUp (u32 (num * p.sc.sizeY))

/-- `tsm_screen_sb_page_down` (src/tsm/tsm-screen.c:914-921). -/
def sbPageDown (p : PScreen) (num : Nat) : R PScreen :=
  if num = 0 then .ok p else (p.onSc Screen.incAge).sbDown (u32 (num * p.sc.sizeY))

/-- `tsm_screen_sb_reset` (src/tsm/tsm-screen.c:924-935). -/
def sbReset (p : PScreen) : PScreen :=
  if p.pos = none then p
  else { p with pos := none, sc := { p.sc.incAge.touch with sbPosNum := 0 } }

/-- `tsm_screen_write` (src/tsm/tsm-screen.c:1107-1141) with the width already computed and non-zero. -/
def writeW (p : PScreen) (ch len : Nat) (attr : Attr) : R PScreen := do
  let p := p.onSc Screen.incAge
  let last := if p.sc.cursorY ≤ p.sc.marginBottom ∨ p.sc.cursorY ≥ p.sc.sizeY then p.sc.marginBottom
    else pred32 p.sc.sizeY
  let p ← (if p.sc.cursorX ≥ p.sc.sizeX then
      if p.sc.fWrap then p.moveCursor 0 (u32 (p.sc.cursorY + 1))
      else p.moveCursor (pred32 p.sc.sizeX) p.sc.cursorY
    else .ok p : R PScreen)
  let p ← (if p.sc.cursorY > last then do
      let p ← p.moveCursor p.sc.cursorX last
      p.scrollUpI 1
    else .ok p : R PScreen)
  let p ← p.cells (fun s => s.writeAt p.sc.cursorX p.sc.cursorY ch len attr)
  p.moveCursor (u32 (p.sc.cursorX + len)) p.sc.cursorY

/-- `tsm_screen_write` (src/tsm/tsm-screen.c:1107-1141). -/
def write (p : PScreen) (ch : Nat) (attr : Attr) : R PScreen := do
  let len ← Screen.symWidth ch
  if len = 0 then return p
  p.writeW ch len attr

/-- `tsm_screen_scroll_up` (src/tsm/tsm-screen.c:1156-1164). -/
def scrollUp (p : PScreen) (num : Nat) : R PScreen :=
  if num = 0 then .ok p else (p.onSc Screen.incAge).scrollUpI num

/-- `tsm_screen_scroll_down` (src/tsm/tsm-screen.c:1167-1175). -/
def scrollDown (p : PScreen) (num : Nat) : R PScreen :=
  if num = 0 then .ok p else (p.onSc Screen.incAge).scrollDownI num

/-- `tsm_screen_move_up` (src/tsm/tsm-screen.c:1205-1229). -/
def moveUp (p : PScreen) (num : Nat) (scroll : Bool) : R PScreen :=
  if num = 0 then .ok p
  else do
    let p := p.onSc Screen.incAge
    let size := if p.sc.cursorY ≥ p.sc.marginTop then p.sc.marginTop else 0
    let diff := sub32 p.sc.cursorY size
    if num > diff then do
      let p ← (if scroll then p.scrollDownI (num - diff) else .ok p : R PScreen)
      p.moveCursor p.sc.cursorX size
    else p.moveCursor p.sc.cursorX (sub32 p.sc.cursorY num)

/-- `tsm_screen_move_down` (src/tsm/tsm-screen.c:1232-1256). -/
def moveDown (p : PScreen) (num : Nat) (scroll : Bool) : R PScreen :=
  if num = 0 then .ok p
  else do
    let p := p.onSc Screen.incAge
    let size := if p.sc.cursorY ≤ p.sc.marginBottom then u32 (p.sc.marginBottom + 1) else p.sc.sizeY
    let diff := pred32 (sub32 size p.sc.cursorY)
    if num > diff then do
      let p ← (if scroll then p.scrollUpI (num - diff) else .ok p : R PScreen)
      p.moveCursor p.sc.cursorX (pred32 size)
    else p.moveCursor p.sc.cursorX (u32 (p.sc.cursorY + num))

/-- `tsm_screen_newline` (src/tsm/tsm-screen.c:1144-1153). -/
def newline (p : PScreen) : R PScreen := do
  let p ← (p.onSc Screen.incAge).moveDown 1 true
  p.cells Screen.moveLineHome

/-- `tsm_screen_insert_lines` (src/tsm/tsm-screen.c:1378-1415). -/
def insertLines (p : PScreen) (num : Nat) : R PScreen :=
  if num = 0 then .ok p
  else if p.sc.cursorY < p.sc.marginTop ∨ p.sc.cursorY > p.sc.marginBottom then .ok p
  else do
    let p := p.onSc fun s => s.incAge.touch
    let max := u32 (sub32 p.sc.marginBottom p.sc.cursorY + 1)
    let num := if num > max then max else num
    let (p, cache) ← takeRows (fun i => sub32 p.sc.marginBottom i) num 0 p
    let as ← (if num < max then do
        let as ← Screen.memmove .oobLine p.lines (p.sc.cursorY + num) p.sc.cursorY (max - num)
        Screen.memcpy .oobLine as p.sc.cursorY cache
      else .ok p.lines : R (List Nat))
    return (p.withLines as).onSc fun s => { s with cursorX := 0 }

/-- `tsm_screen_delete_lines` (src/tsm/tsm-screen.c:1418-1455). -/
def deleteLines (p : PScreen) (num : Nat) : R PScreen :=
  if num = 0 then .ok p
  else if p.sc.cursorY < p.sc.marginTop ∨ p.sc.cursorY > p.sc.marginBottom then .ok p
  else do
    let p := p.onSc fun s => s.incAge.touch
    let max := u32 (sub32 p.sc.marginBottom p.sc.cursorY + 1)
    let num := if num > max then max else num
    let (p, cache) ← takeRows (fun i => p.sc.cursorY + i) num 0 p
    let as ← (if num < max then do
        let as ← Screen.memmove .oobLine p.lines p.sc.cursorY (p.sc.cursorY + num) (max - num)
        Screen.memcpy .oobLine as (p.sc.cursorY + (max - num)) cache
      else .ok p.lines : R (List Nat))
    return (p.withLines as).onSc fun s => { s with cursorX := 0 }

/-- The `while (y && pos)` loop of `selection_set` (src/tsm/tsm-selection.c:72-75). -/
def selWalk (h : Heap) : Nat → Option Nat → R (Nat × Option Nat)
  | 0, pos => .ok (0, pos)
  | y + 1, none => .ok (y + 1, none)
  | y + 1, some a => do
    let o ← h.read a
    selWalk h y o.next

/-- `tsm_screen_selection_start` (src/tsm/tsm-selection.c:97-112). -/
def selectionStart (p : PScreen) (x y : Nat) : R PScreen := do
  let (y, q) ← selWalk p.heap y p.pos
  let e : SelPos := ⟨none, x, Screen.toI32 y⟩
  return { p with
    selS := q, selE := q
    sc := { p.sc.incAge.touch with selActive := true, selStart := e, selEnd := e } }

/-- `tsm_screen_selection_target` (src/tsm/tsm-selection.c:114-127). -/
def selectionTarget (p : PScreen) (x y : Nat) : R PScreen :=
  if p.sc.selActive then do
    let (y, q) ← selWalk p.heap y p.pos
    return { p with selE := q, sc := { p.sc.incAge.touch with selEnd := ⟨none, x, Screen.toI32 y⟩ } }
  else .ok p

/-! ### Rendering -/

/-- One endpoint's contribution to the initial `in_sel` (src/tsm/tsm-render.c:79-90). -/
def selAbove (p : PScreen) (q : Option Nat) (y : Int) : R Bool :=
  match q with
  | none => .ok (decide (y = -1))
  | some a =>
    match p.pos with
    | none => .ok true
    | some t => do
      let o ← p.heap.read a
      let top ← p.heap.read t
      return decide (o.line.sbId < top.line.sbId)

/-- `sel_start`/`sel_end` of the row loop (src/tsm/tsm-render.c:102-113): `line` is the line of the row. -/
def selRow (line k : Nat) (q : Option Nat) (y : Int) : Bool :=
  match q with
  | some a => decide (a = line)
  | none => decide (Screen.toU32 y = pred32 k)

/-- The row loop (src/tsm/tsm-render.c:92-192) for the remaining `n` rows from `i` on. -/
def drawRows (p : PScreen) : Nat → Nat → Option Nat → Nat → Screen.SelSt → R (List Screen.DrawCall)
  | 0, _, _, _, _ => .ok []
  | n + 1, i, iter, k, q =>
    match iter with
    | some a => do
      let o ← p.heap.read a
      let q := if p.sc.selActive then { q with wasSel := false } else q
      let (cs, q) := p.sc.drawCols o.line k i (p.sc.selActive && selRow a k p.selS p.sc.selStart.y)
        (p.sc.selActive && selRow a k p.selE p.sc.selEnd.y) p.sc.sizeX 0 q
      let rest ← drawRows p n (i + 1) o.next k q
      return cs ++ rest
    | none =>
      match p.lines[k]? with
      | none => .error .oobLine
      | some a => do
        let o ← p.heap.read a
        let q := if p.sc.selActive then { q with wasSel := false } else q
        let (cs, q) := p.sc.drawCols o.line (k + 1) i (p.sc.selActive && selRow a (k + 1) p.selS p.sc.selStart.y)
          (p.sc.selActive && selRow a (k + 1) p.selE p.sc.selEnd.y) p.sc.sizeX 0 q
        let rest ← drawRows p n (i + 1) none (k + 1) q
        return cs ++ rest

/-- `tsm_screen_draw` (src/tsm/tsm-render.c:45-200): the callback invocations, the returned age, and the screen
afterwards. -/
def draw (p : PScreen) : R (List Screen.DrawCall × Nat × PScreen) := do
  let inSel ← (if p.sc.selActive then do
      let a ← p.selAbove p.selS p.sc.selStart.y
      let b ← p.selAbove p.selE p.sc.selEnd.y
      return xor a b
    else .ok false : R Bool)
  let cs ← p.drawRows p.sc.sizeY 0 p.pos 0 ⟨inSel, false⟩
  return if p.sc.ageReset then (cs, 0, p.onSc fun s => { s with ageReset := false }) else (cs, p.sc.ageCnt, p)

/-! ### Copying the selection

A `struct selection_pos` is a `SelPos` whose `line` is a pointer. The functions of `Selection.lean` that only compare
`line` pointers (`countScreen`, `selLenSb`, `selLen`) are used for these as well. -/

/-- The loop of `norm_selection` (src/tsm/tsm-selection.c:219-226) from `iter` on; the first argument bounds the
number of iterations. -/
def normLoop (h : Heap) (last : Option Nat) : Nat → Option Nat → SelPos × SelPos → R (SelPos × SelPos)
  | _, none, ab => .ok ab
  | 0, some _, _ => .error .hang
  | n + 1, some it, ab =>
    if some it = last then .ok ab
    else do
      let o ← h.read it
      normLoop h last n o.next (if some it = ab.1.line then (ab.2, ab.1) else ab)

/-- `norm_selection` (src/tsm/tsm-selection.c:191-250). -/
def normSel (p : PScreen) (a b : SelPos) : R (SelPos × SelPos) :=
  if b.line = none ∧ b.y = -1 then .ok (b, a)
  else if a.line ≠ none ∧ b.line ≠ none then
    if a.line = b.line then .ok (if a.x > b.x then (b, a) else (a, b))
    else normLoop p.heap p.last (p.heap.live.length + 1) b.line (a, b)
  else if a.line = none ∧ b.line ≠ none then .ok (b, a)
  else if a.y = b.y then .ok (if a.x > b.x then (b, a) else (a, b))
  else .ok (if a.y > b.y then (b, a) else (a, b))

/-- The loop of `selection_count_lines_sb` (src/tsm/tsm-selection.c:267-276). -/
def countLoop (h : Heap) (last : Option Nat) : Nat → Option Nat → R Nat
  | _, none => .ok 0
  | 0, some _ => .error .hang
  | n + 1, some it =>
    if some it = last then .ok 1
    else do
      let o ← h.read it
      let k ← countLoop h last n o.next
      return k + 1

/-- `selection_count_lines_sb` (src/tsm/tsm-selection.c:257-279). -/
def countSb (p : PScreen) (a b : SelPos) : R Nat :=
  if a.line ≠ none ∧ a.line = b.line then .ok 1
  else countLoop p.heap p.last (p.heap.live.length + 1) a.line

/-- The loop of `copy_lines_sb` (src/tsm/tsm-selection.c:366-382). -/
def copySbLoop (p : PScreen) (a b : SelPos) : Nat → Option Nat → R (List UInt8)
  | _, none => .ok []
  | 0, some _ => .error .hang
  | n + 1, some it => do
    let o ← p.heap.read it
    let out := Screen.copyLine o.line (if some it = a.line then a.x else 0) (p.sc.selLenSb a b it)
    if some it = p.last ∨ some it = b.line then .ok out
    else do
      let rest ← copySbLoop p a b n o.next
      return out ++ rest

/-- `copy_lines_sb` (src/tsm/tsm-selection.c:358-385). -/
def copySb (p : PScreen) (a b : SelPos) : R (List UInt8) :=
  copySbLoop p a b (p.heap.live.length + 1) a.line

/-- The loop of `copy_lines` (src/tsm/tsm-selection.c:399-408). -/
def copyScreenLoop (p : PScreen) (a b : SelPos) : Nat → Int → R (List UInt8)
  | 0, _ => .ok []
  | n + 1, i =>
    if i < 0 then .error .oobLine
    else
      match p.lines[i.toNat]? with
      | none => .error .oobLine
      | some q => do
        let o ← p.heap.read q
        let rest ← copyScreenLoop p a b n (i + 1)
        return Screen.copyLine o.line (if a.line = none ∧ i = a.y then a.x else 0) (p.sc.selLen a b i) ++ rest

/-- `copy_lines` (src/tsm/tsm-selection.c:390-411). -/
def copyScreen (p : PScreen) (a b : SelPos) : R (List UInt8) :=
  if b.line ≠ none then .ok []
  else copyScreenLoop p a b (b.y - a.y + 1).toNat a.y

/-- The replacement of a "top" start (src/tsm/tsm-selection.c:448-456). -/
def topStart (p : PScreen) (a : SelPos) : SelPos :=
  if a.line = none ∧ a.y = -1 then
    if p.first ≠ none then { a with line := p.first, x := 0 } else { a with y := 0, x := 0 }
  else a

/-- `tsm_screen_selection_copy` (src/tsm/tsm-selection.c:413-476), see `Screen.selectionCopy`. -/
def selectionCopy (p : PScreen) : R Screen.CopyRet :=
  let a := { p.sc.selStart with line := p.selS }
  let b := { p.sc.selEnd with line := p.selE }
  if p.sc.selActive = false then .ok .enoent
  else if a.y = -1 ∧ a.line = none ∧ b.y = -1 ∧ b.line = none then .ok (.text [])
  else do
    let (a, b) ← p.normSel a b
    let a := p.topStart a
    let n ← p.countSb a b
    let total : Int := (n : Int) + Screen.countScreen a b
    let bufSize := Screen.toU32 ((p.sc.sizeX : Int) * total * 4 + 1)
    if bufSize ≥ 2147483648 ∨ p.sc.allocOk p.sc.allocN = false then return .enomem
    else do
      let out ← p.copySb a b
      let out2 ← p.copyScreen a b
      let out := out ++ out2
      if out.length > bufSize then .error .copyBuf
      else return .text out.dropLast

/-! ### Histories -/

/-- Execute a call (src/tsm/libtsm.h:192-266). The calls in the last line access only fields of the screen and
cells. -/
def run (p : PScreen) : Screen.Call → R PScreen
  | .resize x y => do let r ← p.resize x y; return r.2
  | .setMaxSb m => p.setMaxSb m
  | .clearSb => p.clearSb
  | .sbUp n => p.sbUp n
  | .sbDown n => p.sbDown n
  | .sbPageUp n => p.sbPageUp n
  | .sbPageDown n => p.sbPageDown n
  | .sbReset => .ok p.sbReset
  | .write ch a => p.write ch a
  | .newline => p.newline
  | .scrollUp n => p.scrollUp n
  | .scrollDown n => p.scrollDown n
  | .moveUp n b => p.moveUp n b
  | .moveDown n b => p.moveDown n b
  | .insertLines n => p.insertLines n
  | .deleteLines n => p.deleteLines n
  | .selectionReset => .ok (p.onSc Screen.selectionReset)
  | .selectionStart x y => p.selectionStart x y
  | .selectionTarget x y => p.selectionTarget x y
  | .draw => do let r ← p.draw; return r.2.2
  | c => p.cells c.run

/-- Execute calls one after the other (src/tsm/libtsm.h:192-266). -/
def runAll : List Screen.Call → PScreen → R PScreen
  | [], p => .ok p
  | c :: cs, p => do
    let p ← p.run c
    runAll cs p

/-- A screen fresh from `tsm_screen_new` (src/tsm/tsm-screen.c:477-524) after a history of calls; if it could not be
created, the heap that remains. -/
def history (al : Allocator) (allocOk : Nat → Bool) (cs : List Screen.Call) : R (Heap ⊕ PScreen) := do
  match ← new al allocOk with
  | .inl h => return .inl h
  | .inr p =>
    let p ← runAll cs p
    return .inr p

end PScreen
end Verif
