import Verif.Spec.Controls
import Verif.Spec.Sgr

/-!
# A reference terminal

A terminal as the manuals describe it: a grid of cells, a cursor, a scroll region, modes and a pen. The commands are the
ones a full-screen program uses; each has its bytes and its effect on the grid. Nothing here refers to the screen
of the emulator, to its parser or to its modes.
-/

namespace Verif

/-- `a` with the RGB values of its entries of the palette `p` filled in. -/
def Sgr.resolve (p : List (Nat × Nat × Nat)) (a : Attr) : Attr :=
  let f := if 0 ≤ a.fccode then (p[(Sgr.foreEntry a).toNat]?).getD (0, 0, 0) else (a.fr, a.fg, a.fb)
  let b := if 0 ≤ a.bccode then (p[a.bccode.toNat]?).getD (0, 0, 0) else (a.br, a.bg, a.bb)
  { a with fr := f.1, fg := f.2.1, fb := f.2.2, br := b.1, bg := b.2.1, bb := b.2.2 }

/-- Sets of characters for the codes 33 to 126: ASCII, the line drawing set of the VT100, and the upper half of
Latin-1. -/
inductive Charset where
  | ascii
  | lines
  | latin
  deriving DecidableEq

/-- The character a set has for a code from 33 to 126. The line drawing set differs from ASCII from code 95 on: a
blank, a diamond, a checkerboard, symbols for HT, FF, CR and LF, degree and plus/minus signs, symbols for NL and VT,
the corners ┘ ┐ ┌ └ and the crossing ┼, five horizontal lines from top to bottom of the cell with ─ in the middle, the
tees ├ ┤ ┴ ┬ and the vertical line │, ≤ ≥ π ≠ £ and a centred dot. -/
def Charset.char : Charset → Nat → Nat
  | .ascii, g => g
  | .lines, g =>
    if g < 95 then g else
      (([0x20, 0x2666, 0x2592, 0x2409, 0x240c, 0x240d, 0x240a, 0xb0, 0xb1, 0x2424, 0x240b, 0x2518, 0x2510, 0x250c, 0x2514, 0x253c,
        0x23ba, 0x23bb, 0x2500, 0x23bc, 0x23bd, 0x251c, 0x2524, 0x2534, 0x252c, 0x2502, 0x2264, 0x2265, 0x3c0, 0x2260, 0xa3,
        0x22c5] : List Nat)[g - 95]?).getD g
  | .latin, g => g + 128

/-- The character sets G0 and G1, and whether G1 is in use instead of G0 (it has been shifted out). -/
structure Canvas.Sets where
  g0 : Charset
  g1 : Charset
  out : Bool
  deriving DecidableEq

/-- The set in use. -/
def Canvas.Sets.current (s : Canvas.Sets) : Charset := if s.out then s.g1 else s.g0

/-- What `ESC 7` saves: the position of the cursor, the pen, auto-wrap and origin mode, and which of G0 and G1 is in use.
(Some terminals also save what G0 and G1 are; libtsm does not, see C47.) -/
structure Canvas.Saved where
  x : Nat
  y : Nat
  pen : Attr
  autowrap : Bool
  origin : Bool
  out : Bool

/-- The reference terminal: `w`×`h` cells by row and column, the cursor at row `y` and column `x` (`w` or more if
the last column has just been written, so that the next character wraps), the scroll region from row `top` to row
`bot`, the attributes of new text `pen` and the ones of unstyled text `base`, the columns that are tab stops, the
modes, what has been saved, while the alternate screen is shown, the cells of the main screen and the position
to return to, the character sets, whether the cursor is hidden and all colours are reversed, and whether the cursor keys and the
keypad send their application codes, and whether what is typed is shown by the terminal itself. -/
structure Canvas where
  w : Nat
  h : Nat
  cell : Nat → Nat → Option Glyph
  x : Nat
  y : Nat
  top : Nat
  bot : Nat
  pen : Attr
  base : Attr
  palette : List (Nat × Nat × Nat)
  tabs : Nat → Bool
  insert : Bool
  autowrap : Bool
  origin : Bool
  newline : Bool
  saved : Canvas.Saved
  main : Option ((Nat → Nat → Option Glyph) × Nat × Nat)
  sets : Canvas.Sets
  hidden : Bool
  reversed : Bool
  arrows : Bool
  keypad : Bool
  echo : Bool

namespace Canvas

/-- The character that is shown for `g`: the set in use is for the codes 33 to 126 only. -/
def shown (c : Canvas) (g : Nat) : Nat := if 33 ≤ g ∧ g ≤ 126 then c.sets.current.char g else g

/-- An empty cell in the current background colour. -/
def blank (c : Canvas) : Glyph := ⟨0, 1, c.pen⟩

/-- The empty cell at a position on the screen. -/
def blankAt (c : Canvas) (i j : Nat) : Option Glyph := if i < c.h ∧ j < c.w then some c.blank else none

/-- The column of the cursor; a pending wrap counts as the last column. -/
def col (c : Canvas) : Nat := min c.x (c.w - 1)

/-- Erasing the cells with `P`. -/
def fill (c : Canvas) (P : Nat → Nat → Bool) : Canvas :=
  { c with cell := fun i j => if P i j then (c.cell i j).map (fun _ => c.blank) else c.cell i j }

/-- Rows `lo` to `hi` go up by `n`, and empty rows come in from below. -/
def rowsUp (c : Canvas) (lo hi n : Nat) : Canvas :=
  { c with cell := fun i j =>
      if lo ≤ i ∧ i ≤ hi then if i + n ≤ hi then c.cell (i + n) j else c.blankAt i j else c.cell i j }

/-- Rows `lo` to `hi` go down by `n`, and empty rows come in from above. -/
def rowsDown (c : Canvas) (lo hi n : Nat) : Canvas :=
  { c with cell := fun i j =>
      if lo ≤ i ∧ i ≤ hi then if lo + n ≤ i then c.cell (i - n) j else c.blankAt i j else c.cell i j }

/-- A line feed: on the last row of the scroll region the region scrolls; otherwise the cursor goes down as long
as there are rows. -/
def lineFeed (c : Canvas) : Canvas :=
  if c.y = c.bot then c.rowsUp c.top c.bot 1 else { c with y := min (c.y + 1) (c.h - 1) }

/-- A reverse line feed. -/
def reverseFeed (c : Canvas) : Canvas :=
  if c.y = c.top then c.rowsDown c.top c.bot 1 else { c with y := c.y - 1 }

/-- Where a character of width `wd` goes: with auto-wrap to a new line if it does not fit into the current one, and
otherwise at most to the last column. -/
def wrap (c : Canvas) (wd : Nat) : Canvas :=
  if c.autowrap then
    if c.w ≤ c.x ∨ (c.w < c.x + wd ∧ wd ≤ c.w) then { c.lineFeed with x := 0 } else c
  else { c with x := c.col }

/-- A character of width `wd` at the cursor: it is shown in one cell, and the other cells it covers have no width
of their own. In insert mode the rest of the row goes right. -/
def put (c : Canvas) (g wd : Nat) : Canvas :=
  { c with
    x := c.x + wd
    cell := fun i j =>
      if i = c.y ∧ c.x ≤ j ∧ j < c.w then
        if j = c.x then some ⟨g, wd, c.pen⟩
        else if j < c.x + wd then (c.cell i j).map (fun d => { d with width := 0 })
        else if c.insert then c.cell i (j - wd) else c.cell i j
      else c.cell i j }

/-- The row with number `n`, counted from 0; in origin mode the rows are those of the scroll region. -/
def rowAt (c : Canvas) (n : Nat) : Nat := if c.origin then min (c.top + n) c.bot else min n (c.h - 1)

/-- The column of the `n`-th tab stop right of the cursor, or the last column. -/
def tabRight (c : Canvas) (n : Nat) : Nat :=
  (((List.range c.w).filter fun j => decide (c.col < j) && c.tabs j)[n - 1]?).getD (c.w - 1)

/-- The column of the `n`-th tab stop left of the cursor, or the first column. -/
def tabLeft (c : Canvas) (n : Nat) : Nat :=
  ((((List.range c.w).filter fun j => decide (j < c.col) && c.tabs j).reverse)[n - 1]?).getD 0

/-- Setting or clearing the tab stop at the cursor. -/
def putTab (c : Canvas) (on : Bool) : Canvas := { c with tabs := fun j => if j = c.col then on else c.tabs j }

/-- The sequences `ESC [ n k`: cursor movement, erasing, inserting, deleting, scrolling and tab
stops. -/
def csi (c : Canvas) (n : Nat) (k : Char) : Canvas :=
  let m := max 1 n
  let up := { c with y := max (c.y - m) (if c.top ≤ c.y then c.top else 0) }
  let down := { c with y := min (c.y + m) (if c.y ≤ c.bot then c.bot else c.h - 1) }
  let inside := decide (c.top ≤ c.y ∧ c.y ≤ c.bot)
  if k = 'A' then up
  else if k = 'B' then down
  else if k = 'C' then { c with x := min (c.col + m) (c.w - 1) }
  else if k = 'D' then { c with x := c.col - m }
  else if k = 'E' then { down with x := 0 }
  else if k = 'F' then { up with x := 0 }
  else if k = 'G' then { c with x := min (n - 1) (c.w - 1) }
  else if k = 'J' then
    if n = 0 then c.fill (fun i j => decide (c.y < i ∨ (i = c.y ∧ c.col ≤ j)))
    else if n = 1 then c.fill (fun i j => decide (i < c.y ∨ (i = c.y ∧ j ≤ c.col)))
    else if n = 2 then c.fill (fun _ _ => true)
    else c
  else if k = 'K' then
    if n = 0 then c.fill (fun i j => decide (i = c.y ∧ c.col ≤ j))
    else if n = 1 then c.fill (fun i j => decide (i = c.y ∧ j ≤ c.col))
    else if n = 2 then c.fill (fun i _ => decide (i = c.y))
    else c
  else if k = 'L' then if inside then { c.rowsDown c.y c.bot m with x := 0 } else c
  else if k = 'M' then if inside then { c.rowsUp c.y c.bot m with x := 0 } else c
  else if k = 'S' then c.rowsUp c.top c.bot m
  else if k = 'T' then c.rowsDown c.top c.bot m
  else if k = 'X' then c.fill (fun i j => decide (i = c.y ∧ c.col ≤ j ∧ j < c.col + m))
  else if k = '@' then
    { c with
      x := c.col
      cell := fun i j =>
        if i = c.y ∧ c.col ≤ j ∧ j < c.w then if c.col + m ≤ j then c.cell i (j - m) else c.blankAt i j else c.cell i j }
  else if k = 'P' then
    { c with
      x := c.col
      cell := fun i j =>
        if i = c.y ∧ c.col ≤ j ∧ j < c.w then if j + m < c.w then c.cell i (j + m) else c.blankAt i j else c.cell i j }
  else if k = 'd' then { c with x := c.col, y := c.rowAt (n - 1) }
  else if k = 'e' then { c with x := c.col, y := min (c.y + m) (if c.origin then c.bot else c.h - 1) }
  else if k = 'I' then { c with x := c.tabRight m }
  else if k = 'Z' then { c with x := c.tabLeft m }
  else if k = 'g' then if n = 0 then c.putTab false else if n = 3 then { c with tabs := fun _ => false } else c
  else c

/-- The letters of these sequences. -/
def letters : List Char := ['A', 'B', 'C', 'D', 'E', 'F', 'G', 'J', 'K', 'L', 'M', 'S', 'T', 'X', '@', 'P', 'd', 'e', 'I', 'Z', 'g']

end Canvas

/-- The questions a program can ask. -/
inductive Query where
  /-- `ESC [ 5 n`: does the terminal work? -/
  | status
  /-- `ESC [ 6 n`: where is the cursor? -/
  | position
  /-- `ESC [ c`: what kind of terminal is it? -/
  | identity
  deriving DecidableEq

/-- Commands of a full-screen program. Numbers are given by their digits. -/
inductive Cmd where
  /-- a character of width `wd`, which is subject to the character sets -/
  | text (g wd : Nat)
  | carriageReturn
  | lineFeed
  | backspace
  | tab
  /-- `ESC D` -/
  | index
  /-- `ESC E` -/
  | nextLine
  /-- `ESC M` -/
  | reverseFeed
  /-- `ESC [ r ; c H` -/
  | goto (r c : List UInt8)
  /-- `ESC [ n k` -/
  | csi (n : List UInt8) (k : Char)
  /-- `ESC [ … m` -/
  | style (ps : List (List UInt8))
  /-- `ESC [ t ; b r` and `ESC [ ; H`: setting the scroll region moves the cursor home; not all terminals do so by
  themselves, so programs that set it go on to move the cursor. -/
  | region (t b : List UInt8)
  /-- `ESC H` -/
  | setTab
  /-- `ESC [ 4 h` and `ESC [ 4 l` -/
  | insert (on : Bool)
  /-- `ESC [ ? 7 h` and `ESC [ ? 7 l` -/
  | autowrap (on : Bool)
  /-- `ESC [ 20 h` and `ESC [ 20 l` -/
  | newline (on : Bool)
  /-- `ESC [ ? 6 h` and `ESC [ ? 6 l`, and `ESC [ ; H`: as for `region`. -/
  | origin (on : Bool)
  /-- `ESC 7` -/
  | save
  /-- `ESC 8` -/
  | restore
  /-- `ESC [ ? 1049 h` -/
  | enter
  /-- `ESC [ ? 1049 l` -/
  | leave
  /-- `ESC ( 0`, `ESC ( B`, `ESC ) 0` and `ESC ) B`: G0 or G1 (`one`) is the line drawing set or ASCII -/
  | charset (one lines : Bool)
  /-- SO and SI -/
  | shift (out : Bool)
  /-- `ESC [ ? 25 h` and `ESC [ ? 25 l` -/
  | cursor (on : Bool)
  /-- `ESC [ ? 5 h` and `ESC [ ? 5 l` -/
  | reverse (on : Bool)
  /-- `ESC [ ? 1 h` and `ESC [ ? 1 l` -/
  | arrows (on : Bool)
  /-- `ESC =` and `ESC >` -/
  | keypad (on : Bool)
  /-- `ESC [ 12 l` and `ESC [ 12 h` -/
  | echo (on : Bool)
  /-- `ESC [ ? n h` and `ESC [ ? n l` with a mode that this terminal does not have, such as the blinking cursor (12) or bracketed
  paste (2004) -/
  | other (n : List UInt8) (on : Bool)
  | ask (q : Query)

namespace Cmd

/-- The last byte of the sequences that set and reset modes. -/
def mode (on : Bool) : UInt8 := if on then 104 else 108

/-- The bytes of a command. -/
def bytes : Cmd → List UInt8
  | text g _ => Vte.utf8 g
  | carriageReturn => [13]
  | lineFeed => [10]
  | backspace => [8]
  | tab => [9]
  | index => [27, 68]
  | nextLine => [27, 69]
  | reverseFeed => [27, 77]
  | goto r c => 27 :: 91 :: (r ++ 59 :: (c ++ [72]))
  | csi n k => 27 :: 91 :: (n ++ [UInt8.ofNat k.toNat])
  | style ps => 27 :: 91 :: (Vte.joined ps ++ [109])
  | region t b => (27 :: 91 :: (t ++ 59 :: (b ++ [114]))) ++ [27, 91, 59, 72]
  | setTab => [27, 72]
  | insert on => [27, 91, 52, mode on]
  | autowrap on => [27, 91, 63, 55, mode on]
  | newline on => [27, 91, 50, 48, mode on]
  | origin on => [27, 91, 63, 54, mode on] ++ [27, 91, 59, 72]
  | save => [27, 55]
  | restore => [27, 56]
  | enter => [27, 91, 63, 49, 48, 52, 57, 104]
  | leave => [27, 91, 63, 49, 48, 52, 57, 108]
  | charset one lines => [27, if one then 41 else 40, if lines then 48 else 66]
  | shift out => [if out then 14 else 15]
  | cursor on => [27, 91, 63, 50, 53, mode on]
  | reverse on => [27, 91, 63, 53, mode on]
  | arrows on => [27, 91, 63, 49, mode on]
  | keypad on => [27, if on then 61 else 62]
  | echo on => [27, 91, 49, 50, mode (!on)]
  | other n on => 27 :: 91 :: 63 :: (n ++ [mode on])
  | ask .status => [27, 91, 53, 110]
  | ask .position => [27, 91, 54, 110]
  | ask .identity => [27, 91, 99]

end Cmd

/-- The effect of a command. -/
def Canvas.step (c : Canvas) : Cmd → Canvas
  | .text g wd => if wd = 0 then c else (c.wrap wd).put (c.shown g) wd
  | .carriageReturn => { c with x := 0 }
  | .lineFeed => if c.newline then { c.lineFeed with x := 0 } else c.lineFeed
  | .backspace => { c with x := c.col - 1 }
  | .tab => { c with x := c.tabRight 1 }
  | .index => c.lineFeed
  | .nextLine => { c.lineFeed with x := 0 }
  | .reverseFeed => c.reverseFeed
  | .goto r k => { c with x := min (Vte.number k - 1) (c.w - 1), y := c.rowAt (Vte.number r - 1) }
  | .csi n k => c.csi (Vte.number n) k
  | .style ps => { c with pen := Sgr.resolve c.palette (Sgr.attributes c.base c.pen (Vte.sgrParams ps)) }
  | .region t b =>
    let top := if t = [] ∧ b = [] then 0 else Vte.number t - 1
    let bot := if t = [] ∧ b = [] then c.h - 1 else Vte.number b - 1
    { c with top := top, bot := bot, x := 0, y := if c.origin then top else 0 }
  | .setTab => c.putTab true
  | .insert on => { c with insert := on }
  | .autowrap on => { c with autowrap := on }
  | .newline on => { c with newline := on }
  | .origin on => { c with origin := on, x := 0, y := if on then c.top else 0 }
  | .save => { c with saved := ⟨c.x, c.y, c.pen, c.autowrap, c.origin, c.sets.out⟩ }
  | .restore =>
    { c with
      x := c.saved.x, y := min c.saved.y (c.h - 1), pen := c.saved.pen
      autowrap := c.saved.autowrap, origin := c.saved.origin, sets := { c.sets with out := c.saved.out } }
  | .enter =>
    match c.main with
    | none => { c with cell := c.blankAt, main := some (c.cell, c.x, c.y) }
    | some _ => { c with cell := c.blankAt }
  | .leave =>
    match c.main with
    | none => c
    | some (cell, x, y) => { c with cell := cell, x := x, y := min y (c.h - 1), main := none }
  | .charset one lines =>
    let k := if lines then Charset.lines else Charset.ascii
    { c with sets := if one then { c.sets with g1 := k } else { c.sets with g0 := k } }
  | .shift out => { c with sets := { c.sets with out := out } }
  | .cursor on => { c with hidden := !on }
  | .reverse on => { c with reversed := on }
  | .arrows on => { c with arrows := on }
  | .keypad on => { c with keypad := on }
  | .echo on => { c with echo := on }
  | .other _ _ => c
  | .ask _ => c

/-- The effect of commands one after the other. -/
def Canvas.run (c : Canvas) (l : List Cmd) : Canvas := l.foldl Canvas.step c

/-- The decimal digits of a number; the first argument bounds how many. -/
def decimalF : Nat → Nat → List UInt8
  | 0, _ => []
  | f + 1, n => (if n < 10 then [] else decimalF f (n / 10)) ++ [UInt8.ofNat (48 + n % 10)]

/-- The decimal digits of a number. -/
def decimal (n : Nat) : List UInt8 := decimalF (n + 1) n

/-- What the terminal answers: `ESC [ 0 n` if it works; `ESC [ row ; column R` for the position of the cursor, counted from 1 and in origin
mode from the top of the scroll region; and `ESC [ ? 60 ; 1 ; 6 ; 9 ; 15 c` for what it is. -/
def Canvas.reply (c : Canvas) : Cmd → List (List UInt8)
  | .ask .status => [[27, 91, 48, 110]]
  | .ask .position => [[27, 91] ++ decimal ((if c.origin then c.y - c.top else c.y) + 1) ++ [59] ++ decimal (c.col + 1) ++ [82]]
  | .ask .identity => [27 :: ("[?60;1;6;9;15c".toList.map fun k => UInt8.ofNat k.toNat)]
  | _ => []

/-- The answers to commands one after the other. -/
def Canvas.replies : Canvas → List Cmd → List (List UInt8)
  | _, [] => []
  | c, a :: l => c.reply a ++ replies (c.step a) l

/-- Digits of a number below 655360. -/
def Num (q : List UInt8) : Prop := (∀ d ∈ q, Vte.IsDigit d) ∧ Vte.number q ≤ 655359

/-- The commands are well-formed: characters are no control characters and have the width given; numbers are
numbers; a scroll region has at least two rows on the screen, or is left out to mean the whole screen; a style has at most 16 parameters, and the last of
16 does not begin an extended colour; the modes that this terminal does not have are all but those for which there is a
command, those of the keyboard (8) and of national character sets (42), and those of the mouse and the alternate screen. -/
def Cmd.Valid (h : Nat) : Cmd → Prop
  | .text g wd => Spec.Utf8.Encodable g ∧ Vte.Graphic g ∧ Wcwidth.ucs4GetWidth g = .ok wd
  | .goto r c => Num r ∧ Num c
  | .csi n k => Num n ∧ k ∈ Canvas.letters
  | .style ps => ps ≠ [] ∧ (∀ q ∈ ps, ∀ d ∈ q, Vte.IsDigit d) ∧
      ∀ q, ps[15]? = some q → Vte.number q ≠ 38 ∧ Vte.number q ≠ 48
  | .other n _ => (∀ d ∈ n, Vte.IsDigit d) ∧
      Vte.number n ∉ [1, 5, 6, 7, 8, 25, 42, 47, 1047, 1048, 1049, 9, 1002, 1003, 1006, 1016]
  | .region t b => (t = [] ∧ b = []) ∨
      (Num t ∧ Num b ∧ 1 ≤ Vte.number t ∧ Vte.number t < Vte.number b ∧ Vte.number b ≤ h)
  | _ => True

/-- A line feed does not happen on the last row of the screen below the scroll region. -/
def Canvas.CanFeed (c : Canvas) : Prop := c.bot < c.y → c.y < c.h - 1

/-- A character of width `wd` can be written: no wrap on the last row below the scroll region, it is not wide in the
last column, nor wider than the screen in insert mode. -/
def Canvas.Fits (c : Canvas) (wd : Nat) : Prop :=
  (c.autowrap = true → (c.w ≤ c.x ∧ wd ≠ 0 → c.CanFeed) ∧ (c.x < c.w → wd ≤ c.w → c.x + wd ≤ c.w)) ∧
    (c.insert = true → wd ≤ c.w)

/-- The cases in which the emulator does what a terminal should do: no line feed or wrap on the last row below the
scroll region, no reverse line feed on the first row above it, no wide character in the last column, no character
wider than the screen in insert mode; no tab stop is set, cleared or looked for backwards right after the last column
has been written; columns are not addressed in origin mode, neither alone nor by returning to a saved position; a
position that is returned to was not right after the last column; the alternate screen is entered from the main
screen and left to it; the blank of the line drawing set is not used; the position of the cursor is not asked for in origin mode or right after the last
column has been written; and after G1 has been designated, no Latin-1 characters
(161 to 254) are sent. -/
def Canvas.Tame (c : Canvas) : Cmd → Prop
  | .text g wd => c.Fits wd ∧ (c.sets.current = .lines → g ≠ 95) ∧ (161 ≤ g ∧ g ≤ 254 → c.sets.g1 = .latin)
  | .lineFeed | .nextLine | .index => c.CanFeed
  | .reverseFeed => c.y < c.top → 0 < c.y
  | .setTab => c.x < c.w
  | .csi _ k => (k = 'G' ∨ k = 'e' → c.origin = false) ∧ (k = 'Z' ∨ k = 'g' → c.x < c.w)
  | .restore => c.origin = false ∧ c.saved.x < c.w
  | .enter => c.main.isNone
  | .leave => c.origin = false ∧ ∃ p ∈ c.main, p.2.1 < c.w
  | .ask q => q = .position → c.origin = false ∧ c.x < c.w
  | _ => True

/-- The terminal after power-on. -/
def Canvas.initial (w h : Nat) (base : Attr) (palette : List (Nat × Nat × Nat)) : Canvas :=
  { w := w, h := h, cell := fun i j => if i < h ∧ j < w then some ⟨0, 1, base⟩ else none, x := 0, y := 0
    top := 0, bot := h - 1, pen := base, base := base, palette := palette
    tabs := fun j => decide (j < w ∧ j % 8 = 0), insert := false, autowrap := true, origin := false, newline := false
    saved := { x := 0, y := 0, pen := base, autowrap := true, origin := false, out := false }
    main := none, sets := ⟨.ascii, .latin, false⟩
    hidden := false, reversed := false, arrows := false, keypad := false, echo := false }

/-- Commands for which the emulator does not differ on a terminal without a scroll region: no scroll region is set,
characters are not wide, tab stops stay, origin mode is not used, no position is returned to or asked for, and the character sets
stay. -/
def Cmd.Plain : Cmd → Prop
  | .text _ wd => wd ≤ 1
  | .region t b => t = [] ∧ b = []
  | .csi _ k => k ≠ 'Z' ∧ k ≠ 'g'
  | .setTab | .restore | .enter | .leave | .charset _ _ | .shift _ => False
  | .origin on => on = false
  | .ask q => q ≠ .position
  | _ => True

/-- All commands are, one after the other. -/
def Canvas.TameAll : Canvas → List Cmd → Prop
  | _, [] => True
  | c, a :: l => c.Tame a ∧ TameAll (c.step a) l

namespace Vte

/-- The character set with the codes of a table. The Normal emulator has none of the DEC supplemental table. -/
def _root_.Verif.Charset.of : Cset → Charset
  | .unicodeLower => .ascii
  | .decSpecial => .lines
  | .unicodeUpper | .decSupplemental => .latin

/-- What an emulator shows. -/
def canvas (v : Vte) : Canvas :=
  { w := v.con.sizeX, h := v.con.sizeY, cell := v.con.view.grid, x := v.con.cursorX, y := v.con.cursorY
    top := v.con.marginTop, bot := v.con.marginBottom, pen := v.cattr, base := v.defAttr, palette := v.palette
    tabs := fun j => (v.con.view.tabs j).getD false
    insert := v.con.flags.getLsbD 0, autowrap := v.con.flags.getLsbD 1, origin := v.con.flags.getLsbD 2
    newline := v.fNewline
    saved := ⟨v.saved.cursorX, v.saved.cursorY, v.saved.cattr, v.saved.wrapMode, v.saved.originMode,
      decide (v.saved.gl = .g1)⟩
    main := if v.con.useAlt then some (v.con.view.main, v.altX, v.altY) else none
    sets := ⟨.of v.g0, .of v.g1, decide (v.gl = .g1)⟩
    hidden := v.con.flags.getLsbD 4, reversed := v.con.flags.getLsbD 3, arrows := v.fCursorKey, keypad := v.fKeypad
    echo := !v.fNoEcho }

/-- The emulator is in its normal modes: UTF-8, G0 or G1 in use for codes up to 126 and G1 for
those from 161 on, G0 and G1 are not the DEC supplemental set, erasing with the current background; no
sequence or character has been begun. The modes of the emulator agree with those of its screen (see C73), and what
has been saved is of this kind, too. -/
structure Normal (v : Vte) : Prop where
  state : v.state = .ground
  mach : v.mach.state = .start ∨ v.mach.state = .accept ∨ v.mach.state = .reject
  f7 : v.f7bit = false
  f8 : v.f8bit = false
  bce : v.fBce = true
  gl : v.gl = .g0 ∨ v.gl = .g1
  gr : v.gr = .g1
  glt : v.glt = none
  g0 : v.g0 ≠ .decSupplemental
  g1 : v.g1 ≠ .decSupplemental
  wrap : v.con.flags.getLsbD 1 = v.fWrap
  origin : v.con.flags.getLsbD 2 = v.fOrigin
  back : v.con.defAttr = v.cattr
  pen : Sgr.Resolved v.palette v.cattr v.cattr
  savedGl : v.saved.gl = .g0 ∨ v.saved.gl = .g1
  savedGr : v.saved.gr = .g1
  savedPen : Sgr.Resolved v.palette v.saved.cattr v.saved.cattr

end Vte
end Verif
