import Verif.Model.Render
import Verif.Model.Utf8

/-!
# Selections (src/tsm/tsm-selection.c)
-/

namespace Verif
namespace Screen

/-- `unsigned int` converted to `int`. -/
def toI32 (n : Nat) : Int :=
  if n % 4294967296 < 2147483648 then ((n % 4294967296 : Nat) : Int)
  else ((n % 4294967296 : Nat) : Int) - 4294967296

/-- The `while (y && pos)` loop of `selection_set`
(src/tsm/tsm-selection.c:72-75); `pos` is the rest of the scrollback. -/
def selWalk : Nat → List Line → Nat × List Line
  | 0, pos => (0, pos)
  | y + 1, [] => (y + 1, [])
  | y + 1, _ :: pos => selWalk y pos

/-- `selection_set` (src/tsm/tsm-selection.c:64-82). -/
def selSet (s : Screen) (x y : Nat) : SelPos :=
  let r := selWalk y (sbFrom s.sb s.sbPos)
  { line := r.2.head?.map Line.sbId, x := x, y := toI32 r.1 }

/-- `tsm_screen_selection_reset` (src/tsm/tsm-selection.c:84-95). -/
def selectionReset (s : Screen) : Screen := { s.incAge.touch with selActive := false }

/-- `tsm_screen_selection_start` (src/tsm/tsm-selection.c:97-112). -/
def selectionStart (s : Screen) (x y : Nat) : Screen :=
  let p := s.selSet x y
  { s.incAge.touch with selActive := true, selStart := p, selEnd := p }

/-- `tsm_screen_selection_target` (src/tsm/tsm-selection.c:114-127). -/
def selectionTarget (s : Screen) (x y : Nat) : Screen :=
  if s.selActive then { s.incAge.touch with selEnd := s.selSet x y } else s

/-- `calc_line_len` (src/tsm/tsm-selection.c:130-142): position after the last
cell with a character. -/
def lineLen : List Cell → Nat
  | [] => 0
  | c :: cs => if lineLen cs = 0 then (if c.ch = 0 then 0 else 1) else lineLen cs + 1

/-- The cells `start ≤ i < end` of a line as UTF-8 (the loop at
src/tsm/tsm-selection.c:165-172; its `else` branch is unreachable). -/
def copyCells (cells : List Cell) (start stop : Nat) : List UInt8 :=
  ((cells.take stop).drop start).flatMap (fun c => Utf8.encode c.ch)

/-- `copy_line` (src/tsm/tsm-selection.c:147-175); `len` is the `unsigned int`
argument. -/
def copyLine (l : Line) (start len : Nat) : List UInt8 :=
  let n := lineLen l.cells
  if start > n then []
  else
    let stop := u32 (start + len)
    let stop := if stop > n then n else stop
    copyCells l.cells start stop ++ Utf8.encode 10

/-- The lines from `start` up to, but not including, the last one: what the loop
of `norm_selection` visits (src/tsm/tsm-selection.c:219-226). -/
def normScan (sb : List Line) (fromId target : Nat) : Bool :=
  (sbFrom sb (some fromId)).dropLast.any (fun l => l.sbId = target)

/-- `norm_selection` (src/tsm/tsm-selection.c:191-250); returns the new `start`
and `end`. -/
def normSel (sb : List Line) (a b : SelPos) : SelPos × SelPos :=
  if b.line = none ∧ b.y = -1 then (b, a)
  else
    match a.line, b.line with
    | some la, some lb =>
      if la = lb then (if a.x > b.x then (b, a) else (a, b))
      else if normScan sb lb la then (b, a) else (a, b)
    | none, some _ => (b, a)
    | _, none =>
      -- also reached with `start->line` set and `end->line` NULL
      if a.y = b.y then (if a.x > b.x then (b, a) else (a, b))
      else if a.y > b.y then (b, a) else (a, b)

/-- `selection_count_lines_sb` (src/tsm/tsm-selection.c:257-279). -/
def countSb (sb : List Line) (a b : SelPos) : Nat :=
  match a.line with
  | none => 0
  | some la => if b.line = some la then 1 else (sbFrom sb (some la)).length

/-- `selection_count_lines` (src/tsm/tsm-selection.c:286-294). -/
def countScreen (a b : SelPos) : Int :=
  if a.line ≠ none ∧ b.line ≠ none then 0 else b.y - a.y + 1

/-- `calc_selection_line_len_sb` (src/tsm/tsm-selection.c:299-318), as the
`unsigned int` it is passed on as. -/
def selLenSb (s : Screen) (a b : SelPos) (id : Nat) : Nat :=
  if a.line = b.line then u32 (sub32 b.x a.x + 1)
  else if a.line = some id then sub32 s.sizeX a.x
  else if b.line = some id then u32 (b.x + 1)
  else s.sizeX

/-- `calc_selection_line_len` (src/tsm/tsm-selection.c:323-344). -/
def selLen (s : Screen) (a b : SelPos) (i : Int) : Nat :=
  if a.line = none ∧ a.y = b.y then u32 (sub32 b.x a.x + 1)
  else if a.line = none ∧ i = a.y then sub32 s.sizeX a.x
  else if i = b.y then u32 (b.x + 1)
  else s.sizeX

/-- The loop of `copy_lines_sb` (src/tsm/tsm-selection.c:367-382) over the rest
of the scrollback. -/
def copySbLoop (s : Screen) (a b : SelPos) : List Line → List UInt8
  | [] => []
  | l :: rest =>
    copyLine l (if a.line = some l.sbId then a.x else 0) (s.selLenSb a b l.sbId) ++
      if b.line = some l.sbId then [] else copySbLoop s a b rest

/-- `copy_lines_sb` (src/tsm/tsm-selection.c:358-385). -/
def copySb (s : Screen) (a b : SelPos) : List UInt8 :=
  match a.line with
  | none => []
  | some id => copySbLoop s a b (sbFrom s.sb (some id))

/-- The loop of `copy_lines` (src/tsm/tsm-selection.c:399-408): `n` rows from
row `i` on. Row indices outside the line array are undefined behaviour. -/
def copyScreenLoop (s : Screen) (a b : SelPos) : Nat → Int → R (List UInt8)
  | 0, _ => .ok []
  | n + 1, i =>
    if i < 0 then .error .oobLine
    else
      match s.lines[i.toNat]? with
      | none => .error .oobLine
      | some l => do
        let rest ← copyScreenLoop s a b n (i + 1)
        return copyLine l (if a.line = none ∧ i = a.y then a.x else 0) (s.selLen a b i) ++ rest

/-- `copy_lines` (src/tsm/tsm-selection.c:390-411). -/
def copyScreen (s : Screen) (a b : SelPos) : R (List UInt8) :=
  if b.line ≠ none then .ok []
  else copyScreenLoop s a b (b.y - a.y + 1).toNat a.y

/-- The replacement of a "top" start (src/tsm/tsm-selection.c:448-456). -/
def topStart (sb : List Line) (a : SelPos) : SelPos :=
  if a.line = none ∧ a.y = -1 then
    match sb with
    | l :: _ => { a with line := some l.sbId, x := 0 }
    | [] => { a with y := 0, x := 0 }
  else a

/-- Result of `tsm_screen_selection_copy`. -/
inductive CopyRet where
  | enoent
  | enomem
  /-- The returned length is that of the text. -/
  | text (out : List UInt8)
  deriving DecidableEq, Repr

/-- `tsm_screen_selection_copy` (src/tsm/tsm-selection.c:413-476). The output
buffer has `size_x * lines * 4 + 1` bytes (as an `int`; a negative size makes
`calloc` fail); the bytes are written consecutively, so the first one written
beyond its end is detected by comparing lengths. `allocOk` says whether the
allocations succeed. -/
def selectionCopy (s : Screen) : R CopyRet :=
  if s.selActive = false then .ok .enoent
  else if s.selStart.y = -1 ∧ s.selStart.line = none ∧ s.selEnd.y = -1 ∧ s.selEnd.line = none then
    .ok (.text [])
  else
    let (a, b) := normSel s.sb s.selStart s.selEnd
    let a := topStart s.sb a
    let total : Int := (countSb s.sb a b : Int) + countScreen a b
    let bufSize := toU32 ((s.sizeX : Int) * total * 4 + 1)
    if bufSize ≥ 2147483648 ∨ s.allocOk s.allocN = false then .ok .enomem
    else do
      let out := s.copySb a b
      let out2 ← s.copyScreen a b
      let out := out ++ out2
      if out.length > bufSize then .error .copyBuf
      else return .text out.dropLast

end Screen
end Verif
