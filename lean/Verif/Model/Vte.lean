import Verif.Model.ScreenApi
import Verif.Model.Utf8
import Verif.Model.VteTables

/-!
# Terminal emulator state and actions (src/tsm/tsm-vte.c:60-2138)

Conventions:
* The screen is owned by the emulator; screen functions are called through `scr`.
* Callbacks are recorded in the list of events `log`, oldest first. Callbacks do not call
  back into the library. `oscCb` and `mouseCb` tell whether a callback is set.
* `int` values are integers, `unsigned int` values natural numbers.
* `sg` tells whether plain `char` is signed.
* The pointers `gl`, `gr`, `glt`, `grt` always point to one of `g0`..`g3`: they are modelled
  by the name of that variable.
* `vte_write` used while parsing is `reply`. If it would feed `tsm_vte_input` again (local
  echo outside of parsing) the outcome is `reenter`; it is proved that this never happens.
-/

namespace Verif

/-- `enum parser_state` (src/tsm/tsm-vte.c:62-79). -/
inductive PState where
  | none | ground | esc | escInt | csiEntry | csiParam | csiInt | csiIgnore | dcsEntry | dcsParam
  | dcsInt | dcsPass | dcsIgnore | oscString | stIgnore
  deriving DecidableEq, Repr

/-- `enum parser_action` (src/tsm/tsm-vte.c:82-99). -/
inductive Action where
  | none | ignore | print | execute | clear | collect | param | escDispatch | csiDispatch
  | dcsStart | dcsCollect | dcsEnd | oscStart | oscCollect | oscEnd
  deriving DecidableEq, Repr

/-- The character sets (src/tsm/libtsm-int.h:176-181). -/
inductive Cset where
  | unicodeLower | unicodeUpper | decSupplemental | decSpecial
  deriving DecidableEq, Repr

/-- The variables `g0`..`g3` (src/tsm/tsm-vte.c:186-189). -/
inductive Slot where
  | g0 | g1 | g2 | g3
  deriving DecidableEq, Repr

/-- A call of a callback: `write_cb` and `osc_cb` with the bytes, `mouse_cb` with its
arguments (src/tsm/libtsm.h:401-415). -/
inductive Event where
  | write (b : List UInt8)
  | osc (b : List UInt8)
  | mouse (track : Nat) (pixels : Bool)
  deriving DecidableEq, Repr

/-- `struct vte_saved_state` (src/tsm/tsm-vte.c:140-148). -/
structure Saved where
  cursorX : Nat
  cursorY : Nat
  cattr : Attr
  gl : Slot
  gr : Slot
  wrapMode : Bool
  originMode : Bool
  deriving DecidableEq

/-- A palette: entries red, green, blue (src/tsm/tsm-vte.c:181-182). -/
abbrev Palette := List (Nat × Nat × Nat)

/-- `struct tsm_vte` (src/tsm/tsm-vte.c:150-194) without reference count, logging and user
data. -/
structure Vte where
  con : Screen
  paletteName : Option String
  bsDelete : Bool
  mach : Utf8.Mach
  parseCnt : Nat
  state : PState
  argc : Nat
  argv : List Int
  csiFlags : BitVec 32
  oscCb : Bool
  oscLen : Nat
  oscArg : List UInt8
  mouseCb : Bool
  mouseMode : Nat
  mouseEvent : Nat
  mouseLastCol : Nat
  mouseLastRow : Nat
  customPalette : Option Palette
  palette : Palette
  defAttr : Attr
  cattr : Attr
  flags : BitVec 32
  gl : Slot
  gr : Slot
  glt : Option Slot
  grt : Option Slot
  g0 : Cset
  g1 : Cset
  g2 : Cset
  g3 : Cset
  saved : Saved
  altX : Nat
  altY : Nat
  sg : Bool
  log : List Event

namespace Vte

/-! ### Flags (src/tsm/tsm-vte.c:102-138, src/tsm/libtsm.h:290-307) -/

/-- `TSM_VTE_FLAG_CURSOR_KEY_MODE` is set (src/tsm/libtsm.h:290). -/
@[reducible] def fCursorKey (v : Vte) : Bool := v.flags.getLsbD 0
/-- `TSM_VTE_FLAG_KEYPAD_APPLICATION_MODE` is set (src/tsm/libtsm.h:291). -/
@[reducible] def fKeypad (v : Vte) : Bool := v.flags.getLsbD 1
/-- `TSM_VTE_FLAG_LINE_FEED_NEW_LINE_MODE` is set (src/tsm/libtsm.h:292). -/
@[reducible] def fNewline (v : Vte) : Bool := v.flags.getLsbD 2
/-- `TSM_VTE_FLAG_8BIT_MODE` is set (src/tsm/libtsm.h:293). -/
@[reducible] def f8bit (v : Vte) : Bool := v.flags.getLsbD 3
/-- `TSM_VTE_FLAG_7BIT_MODE` is set (src/tsm/libtsm.h:294). -/
@[reducible] def f7bit (v : Vte) : Bool := v.flags.getLsbD 4
/-- `TSM_VTE_FLAG_SEND_RECEIVE_MODE` is set, i.e. no local echo (src/tsm/libtsm.h:298). -/
@[reducible] def fNoEcho (v : Vte) : Bool := v.flags.getLsbD 8
/-- `TSM_VTE_FLAG_ORIGIN_MODE` is set (src/tsm/libtsm.h:301). -/
@[reducible] def fOrigin (v : Vte) : Bool := v.flags.getLsbD 11
/-- `TSM_VTE_FLAG_AUTO_WRAP_MODE` is set (src/tsm/libtsm.h:302). -/
@[reducible] def fWrap (v : Vte) : Bool := v.flags.getLsbD 12
/-- `TSM_VTE_FLAG_BACKGROUND_COLOR_ERASE_MODE` is set (src/tsm/libtsm.h:305). -/
@[reducible] def fBce (v : Vte) : Bool := v.flags.getLsbD 15
/-- `TSM_VTE_FLAG_PREPEND_ESCAPE` is set (src/tsm/libtsm.h:306). -/
@[reducible] def fPrepend (v : Vte) : Bool := v.flags.getLsbD 16
/-- `TSM_VTE_FLAG_TITE_INHIBIT_MODE` is set (src/tsm/libtsm.h:307). -/
@[reducible] def fInhibit (v : Vte) : Bool := v.flags.getLsbD 17

/-- `set_reset_flag` for the flag with bit number `k` (src/tsm/tsm-vte.c:1496-1503). -/
def setFlag (v : Vte) (set : Bool) (k : Nat) : Vte :=
  { v with flags := if set then v.flags ||| BitVec.twoPow 32 k else v.flags &&& ~~~ (BitVec.twoPow 32 k) }

/-- `CSI_BANG` is set (src/tsm/tsm-vte.c:102). -/
@[reducible] def cBang (v : Vte) : Bool := v.csiFlags.getLsbD 0
/-- `CSI_CASH` is set (src/tsm/tsm-vte.c:103). -/
@[reducible] def cCash (v : Vte) : Bool := v.csiFlags.getLsbD 1
/-- `CSI_WHAT` is set (src/tsm/tsm-vte.c:104). -/
@[reducible] def cWhat (v : Vte) : Bool := v.csiFlags.getLsbD 2
/-- `CSI_GT` is set (src/tsm/tsm-vte.c:105). -/
@[reducible] def cGt (v : Vte) : Bool := v.csiFlags.getLsbD 3
/-- `CSI_SPACE` is set (src/tsm/tsm-vte.c:106). -/
@[reducible] def cSpace (v : Vte) : Bool := v.csiFlags.getLsbD 4
/-- `CSI_MULT` is set (src/tsm/tsm-vte.c:109). -/
@[reducible] def cMult (v : Vte) : Bool := v.csiFlags.getLsbD 7
/-- `CSI_PLUS` is set (src/tsm/tsm-vte.c:110). -/
@[reducible] def cPlus (v : Vte) : Bool := v.csiFlags.getLsbD 8
/-- `CSI_POPEN` is set (src/tsm/tsm-vte.c:111). -/
@[reducible] def cPopen (v : Vte) : Bool := v.csiFlags.getLsbD 9
/-- `CSI_PCLOSE` is set (src/tsm/tsm-vte.c:112). -/
@[reducible] def cPclose (v : Vte) : Bool := v.csiFlags.getLsbD 10

/-! ### Helpers -/

/-- Calling a function of the screen (e.g. src/tsm/tsm-vte.c:870). -/
def scr (v : Vte) (c : Screen.Call) : R Vte := do
  let s ← c.run v.con
  pure { v with con := s }

/-- Calling a callback (e.g. src/tsm/tsm-vte.c:708). -/
def emit (v : Vte) (e : Event) : Vte := { v with log := v.log ++ [e] }

/-- Reading `vte->csi_argv[i]` (e.g. src/tsm/tsm-vte.c:1019). -/
def arg (v : Vte) (i : Nat) : R Int :=
  match v.argv[i]? with
  | some a => .ok a
  | none => .error .csiArg

/-- `get_palette` (src/tsm/tsm-vte.c:377-402). -/
def getPalette (name : Option String) (custom : Option Palette) : Palette :=
  match name with
  | none => paletteLegacy
  | some n =>
    match (if n = "custom" then custom else none) with
    | some p => p
    | none =>
      if n = "solarized" then paletteSolarized
      else if n = "solarized-black" then paletteSolarizedBlack
      else if n = "solarized-white" then paletteSolarizedWhite
      else if n = "soft-black" then paletteSoftBlack
      else if n = "base16-dark" then paletteBase16Dark
      else if n = "base16-light" then paletteBase16Light
      else if n = "vga" then paletteVga
      else if n = "legacy" then paletteLegacy
      else paletteLegacy

/-- Reading `vte->palette[code]` (src/tsm/tsm-vte.c:424-426, 434-436). -/
def lookup (p : Palette) (code : Nat) : R (Nat × Nat × Nat) :=
  match p[code]? with
  | some c => .ok c
  | none => .error .oobTable

/-- The palette index for a foreground code (src/tsm/tsm-vte.c:418-422); 16 is
`TSM_COLOR_FOREGROUND`, 18 `TSM_COLOR_NUM`. -/
def fgIndex (a : Attr) : Nat :=
  let code := if a.bold = true ∧ a.fccode < 8 then a.fccode + 8 else a.fccode
  if 18 ≤ code then 16 else code.toNat

/-- The palette index for a background code (src/tsm/tsm-vte.c:431-432); 17 is
`TSM_COLOR_BACKGROUND`. -/
def bgIndex (a : Attr) : Nat :=
  if 18 ≤ a.bccode then 17 else a.bccode.toNat

/-- The first half of `to_rgb` (src/tsm/tsm-vte.c:416-427). -/
def fgRgb (p : Palette) (a : Attr) : R Attr :=
  if 0 ≤ a.fccode then do
    let c ← lookup p (fgIndex a)
    pure { a with fr := c.1, fg := c.2.1, fb := c.2.2 }
  else .ok a

/-- The second half of `to_rgb` (src/tsm/tsm-vte.c:429-437). -/
def bgRgb (p : Palette) (a : Attr) : R Attr :=
  if 0 ≤ a.bccode then do
    let c ← lookup p (bgIndex a)
    pure { a with br := c.1, bg := c.2.1, bb := c.2.2 }
  else .ok a

/-- `to_rgb` (src/tsm/tsm-vte.c:412-438). -/
def toRgb (p : Palette) (a : Attr) : R Attr := do
  let a ← fgRgb p a
  bgRgb p a

/-- `copy_fcolor` (src/tsm/tsm-vte.c:440-447). -/
def copyF (dest src : Attr) : Attr :=
  { dest with fccode := src.fccode, fr := src.fr, fg := src.fg, fb := src.fb }

/-- `copy_bcolor` (src/tsm/tsm-vte.c:449-456). -/
def copyB (dest src : Attr) : Attr :=
  { dest with bccode := src.bccode, br := src.br, bg := src.bg, bb := src.bb }

/-- The end of `vte_write_debug` (src/tsm/tsm-vte.c:706-710): passing the bytes on, after an
ESC if `TSM_VTE_FLAG_PREPEND_ESCAPE` is set. -/
def send (v : Vte) (b : List UInt8) : Vte :=
  ((if v.fPrepend then v.emit (.write [27]) else v).emit (.write b)).setFlag false 16

/-- `vte_write` called while parsing (src/tsm/tsm-vte.c:682-711). -/
def reply (v : Vte) (b : List UInt8) : R Vte :=
  if v.parseCnt = 0 ∧ v.fNoEcho = false then .error .reenter else .ok (v.send b)

/-- `write_console` (src/tsm/tsm-vte.c:719-723). -/
def writeConsole (v : Vte) (sym : Nat) : R Vte := do
  let a ← toRgb v.palette v.cattr
  scr { v with cattr := a } (.write sym a)

/-- `reset_state` (src/tsm/tsm-vte.c:725-742). -/
def resetState (v : Vte) : Vte :=
  { v with
    saved :=
      { cursorX := 0, cursorY := 0, originMode := false, wrapMode := true, gl := .g0, gr := .g1,
        cattr :=
          { copyB (copyF v.saved.cattr v.defAttr) v.defAttr with
            bold := false, italic := false, underline := false, inverse := false, protect := false,
            blink := false } } }

/-- `save_state` (src/tsm/tsm-vte.c:744-753). -/
def saveState (v : Vte) : Vte :=
  { v with
    saved :=
      { cursorX := v.con.cursorX, cursorY := v.con.cursorY, cattr := v.cattr, gl := v.gl, gr := v.gr,
        wrapMode := v.fWrap, originMode := v.fOrigin } }

/-- Setting (or clearing) a flag of the emulator and one of the screen
(src/tsm/tsm-vte.c:766-772, 774-780, 1577-1603). -/
def modeFlag (v : Vte) (set : Bool) (k : Nat) (f : BitVec 32) : R Vte :=
  scr (v.setFlag set k) (if set then .setFlags f else .resetFlags f)

/-- Passing the current attributes to the screen in bce mode
(src/tsm/tsm-vte.c:761-762, 1446-1447). -/
def bce (v : Vte) : R Vte := if v.fBce then scr v (.setDefAttr v.cattr) else .ok v

/-- `restore_state` (src/tsm/tsm-vte.c:755-781). -/
def restoreState (v : Vte) : R Vte := do
  let v ← scr v (.moveTo v.saved.cursorX v.saved.cursorY)
  let a ← toRgb v.palette v.saved.cattr
  let v ← bce { v with cattr := a }
  let v := { v with gl := v.saved.gl, gr := v.saved.gr }
  let v ← modeFlag v v.saved.wrapMode 12 Screen.AUTO_WRAP
  modeFlag v v.saved.originMode 11 Screen.REL_ORIGIN

/-- The flags after a reset: TEXT_CURSOR, AUTO_REPEAT, SEND_RECEIVE, AUTO_WRAP and
BACKGROUND_COLOR_ERASE (src/tsm/tsm-vte.c:795-800). -/
def resetFlags : BitVec 32 := 0x0000b300#32

/-- The assignments in the middle of `tsm_vte_reset` (src/tsm/tsm-vte.c:804-819). -/
def resetFields (v : Vte) : Vte :=
  { v with
    mach := Utf8.reset v.mach
    state := .ground
    gl := .g0, gr := .g1, glt := none, grt := none
    g0 := .unicodeLower, g1 := .unicodeUpper, g2 := .unicodeLower, g3 := .unicodeUpper
    mouseMode := 0, mouseEvent := 0, mouseLastCol := 0, mouseLastRow := 0 }

/-- `tsm_vte_reset` (src/tsm/tsm-vte.c:790-826). -/
def reset (v : Vte) : R Vte := do
  let v ← scr { v with flags := resetFlags } .reset
  let v ← scr v (.setFlags Screen.AUTO_WRAP)
  let v := v.resetFields
  let a ← toRgb v.palette v.defAttr
  let v ← scr { v with cattr := a } (.setDefAttr v.defAttr)
  pure v.resetState

/-- `tsm_vte_hard_reset` (src/tsm/tsm-vte.c:828-837). -/
def hardReset (v : Vte) : R Vte := do
  let v ← v.reset
  let v ← scr v (.eraseScreen false)
  let v ← scr v .clearSb
  scr v (.moveTo 0 0)

/-- The string of `send_primary_da`: `"\e[?60;1;6;9;15c"` (src/tsm/tsm-vte.c:841). -/
def primaryDa : List UInt8 := [27, 91, 63, 54, 48, 59, 49, 59, 54, 59, 57, 59, 49, 53, 99]

/-! ### Control characters -/

/-- `do_execute` (src/tsm/tsm-vte.c:846-951). Characters that are ignored are not listed. -/
def execute (v : Vte) (ctrl : Nat) : R Vte :=
  match ctrl with
  | 0x05 => v.reply [6]
  | 0x08 => v.scr (.moveLeft 1)
  | 0x09 => v.scr (.tabRight 1)
  | 0x0a | 0x0b | 0x0c => if v.fNewline then v.scr .newline else v.scr (.moveDown 1 true)
  | 0x0d => v.scr .moveLineHome
  | 0x0e => .ok { v with gl := .g1 }
  | 0x0f => .ok { v with gl := .g0 }
  | 0x1a => v.writeConsole 0xbf
  | 0x84 => v.scr (.moveDown 1 true)
  | 0x85 => v.scr .newline
  | 0x88 => v.scr .setTabstop
  | 0x8d => v.scr (.moveUp 1 true)
  | 0x8e => .ok { v with glt := some .g2 }
  | 0x8f => .ok { v with glt := some .g3 }
  | 0x9a => v.reply primaryDa
  | _ => .ok v

/-- `do_clear` (src/tsm/tsm-vte.c:953-964). -/
def clear (v : Vte) : Vte :=
  { v with
    argc := 0, argv := List.replicate 16 (-1), csiFlags := 0, oscLen := 0
    oscArg := List.replicate 128 0 }

/-- The flag for an intermediate character (src/tsm/tsm-vte.c:968-1002). -/
def collectFlag (data : Nat) : BitVec 32 :=
  match data with
  | 0x21 => 0x0001 -- !
  | 0x24 => 0x0002 -- $
  | 0x3f => 0x0004 -- ?
  | 0x3e => 0x0008 -- >
  | 0x20 => 0x0010 -- space
  | 0x27 => 0x0020 -- '
  | 0x22 => 0x0040 -- "
  | 0x2a => 0x0080 -- *
  | 0x2b => 0x0100 -- +
  | 0x28 => 0x0200 -- (
  | 0x29 => 0x0400 -- )
  | _ => 0

/-- `do_collect` (src/tsm/tsm-vte.c:966-1003). -/
def collect (v : Vte) (data : Nat) : Vte := { v with csiFlags := v.csiFlags ||| collectFlag data }

/-- The new value of a parameter after a digit (src/tsm/tsm-vte.c:1022-1027). -/
def digit (old : Int) (data : Nat) : Int :=
  if old ≤ 0 then (data : Int) - 0x30 else old * 10 + (data : Int) - 0x30

/-- `do_param` (src/tsm/tsm-vte.c:1005-1030). -/
def param (v : Vte) (data : Nat) : R Vte :=
  if data = 0x3b then .ok (if v.argc < 16 then { v with argc := v.argc + 1 } else v)
  else if 16 ≤ v.argc then .ok v
  else do
    let old ← v.arg v.argc
    if 0xffff < old then pure v
    else if 0x30 ≤ data ∧ data ≤ 0x39 then pure { v with argv := v.argv.set v.argc (digit old data) }
    else pure v

/-! ### Escape sequences -/

/-- `set_charset` (src/tsm/tsm-vte.c:1032-1046); `none` for `false`. -/
def setCharset (v : Vte) (c : Cset) : Option Vte :=
  if v.cPopen then some { v with g0 := c }
  else if v.cPclose then some { v with g1 := c }
  else if v.cMult then some { v with g2 := c }
  else if v.cPlus then some { v with g3 := c }
  else none

/-- The character set designated by a final character (src/tsm/tsm-vte.c:1050-1119). The
national sets are all `unicode_upper`. -/
def escCharset (data : Nat) : Option Cset :=
  match data with
  | 0x42 => some .unicodeLower -- B
  | 0x3c => some .decSupplemental -- <
  | 0x30 => some .decSpecial -- 0
  | 0x41 | 0x34 | 0x43 | 0x35 | 0x52 | 0x51 | 0x4b | 0x59 | 0x45 | 0x36 | 0x5a | 0x48 | 0x37
  | 0x3d => some .unicodeUpper -- A 4 C 5 R Q K Y E 6 Z H 7 =
  | _ => none

/-- The second `switch` of `do_esc` (src/tsm/tsm-vte.c:1145-1220). -/
def escPlain (v : Vte) (data : Nat) : R Vte :=
  match data with
  | 0x44 => v.scr (.moveDown 1 true) -- D
  | 0x45 => v.scr .newline -- E
  | 0x48 => v.scr .setTabstop -- H
  | 0x4d => v.scr (.moveUp 1 true) -- M
  | 0x4e => .ok { v with glt := some .g2 } -- N
  | 0x4f => .ok { v with glt := some .g3 } -- O
  | 0x5a => v.reply primaryDa -- Z
  | 0x7e => .ok { v with gr := .g1 } -- ~
  | 0x6e => .ok { v with gl := .g2 } -- n
  | 0x7d => .ok { v with gr := .g2 } -- }
  | 0x6f => .ok { v with gl := .g3 } -- o
  | 0x7c => .ok { v with gr := .g3 } -- |
  | 0x3d => .ok (v.setFlag true 1) -- =
  | 0x3e => .ok (v.setFlag false 1) -- >
  | 0x63 => v.hardReset -- c
  | 0x37 => .ok v.saveState -- 7
  | 0x38 => v.restoreState -- 8
  | _ => .ok v

/-- The rest of `do_esc` if no character set was designated (src/tsm/tsm-vte.c:1120-1220). -/
def escOther (v : Vte) (data : Nat) : R Vte :=
  if data = 0x46 ∧ v.cSpace then .ok (v.setFlag false 5)
  else if data = 0x47 ∧ v.cSpace then .ok (v.setFlag true 5)
  else if v.csiFlags ≠ 0 then .ok v
  else v.escPlain data

/-- `do_esc` (src/tsm/tsm-vte.c:1048-1221). -/
def escDispatch (v : Vte) (data : Nat) : R Vte :=
  match (escCharset data).bind v.setCharset with
  | some v' => .ok v'
  | none => v.escOther data

/-! ### SGR -/

/-- The table `bval` of `csi_attribute` (src/tsm/tsm-vte.c:1225); the argument is `x % 6`. -/
def bval (x : Nat) : Nat :=
  match x with
  | 0 => 0x00
  | 1 => 0x5f
  | 2 => 0x87
  | 3 => 0xaf
  | 4 => 0xd7
  | _ => 0xff

/-- Colour `code` of the 256-colour palette: the colour code (-1 for an RGB colour) and the
RGB values (src/tsm/tsm-vte.c:1389-1407). -/
def color256 (code : Nat) : Int × Nat × Nat × Nat :=
  if code < 16 then (code, 0, 0, 0)
  else if code < 232 then
    (-1, bval ((code - 16) / 6 / 6 % 6), bval ((code - 16) / 6 % 6), bval ((code - 16) % 6))
  else
    let g := ((code - 232) * 10 + 8) % 256
    (-1, g, g, g)

/-- Setting the foreground (38) or background colour (src/tsm/tsm-vte.c:1426-1436). -/
def setColor (a : Attr) (fore : Bool) (c : Int × Nat × Nat × Nat) : Attr :=
  if fore then { a with fccode := c.1, fr := c.2.1, fg := c.2.2.1, fb := c.2.2.2 }
  else { a with bccode := c.1, br := c.2.1, bg := c.2.2.1, bb := c.2.2.2 }

/-- SGR 0 (src/tsm/tsm-vte.c:1238-1245). -/
def sgrReset (a d : Attr) : Attr :=
  { copyB (copyF a d) d with
    bold := false, italic := false, underline := false, inverse := false, blink := false }

/-- The cases of `csi_attribute` other than 38 and 48 (src/tsm/tsm-vte.c:1235-1378, 1439-1441);
`d` are the default attributes. The eight cases of a group of colours are written as one. -/
def sgrSimple (a d : Attr) (n : Nat) : Attr :=
  match n with
  | 0 => sgrReset a d
  | 1 => { a with bold := true }
  | 3 => { a with italic := true }
  | 4 => { a with underline := true }
  | 5 => { a with blink := true }
  | 7 => { a with inverse := true }
  | 22 => { a with bold := false }
  | 23 => { a with italic := false }
  | 24 => { a with underline := false }
  | 25 => { a with blink := false }
  | 27 => { a with inverse := false }
  | 39 => copyF a d
  | 49 => copyB a d
  | n =>
    if 30 ≤ n ∧ n ≤ 37 then { a with fccode := (n : Int) - 30 }
    else if 40 ≤ n ∧ n ≤ 47 then { a with bccode := (n : Int) - 40 }
    else if 90 ≤ n ∧ n ≤ 97 then { a with fccode := (n : Int) - 82 }
    else if 100 ≤ n ∧ n ≤ 107 then { a with bccode := (n : Int) - 92 }
    else a

/-- `i + 2 >= csi_argc || csi_argv[i + 2] < 0`, else the colour
(src/tsm/tsm-vte.c:1383-1408). -/
def sgr256 (v : Vte) (i : Nat) : R (Option (Int × Nat × Nat × Nat)) :=
  if v.argc ≤ i + 2 then .ok none
  else do
    let c ← v.arg (i + 2)
    if c < 0 then pure none else pure (some (color256 c.toNat))

/-- The true colour branch (src/tsm/tsm-vte.c:1409-1421); values are cut to 8 bits. -/
def sgrTrue (v : Vte) (i : Nat) : R (Option (Int × Nat × Nat × Nat)) :=
  if v.argc ≤ i + 4 then .ok none
  else do
    let r ← v.arg (i + 2)
    let g ← v.arg (i + 3)
    let b ← v.arg (i + 4)
    if r < 0 ∨ g < 0 ∨ b < 0 then pure none
    else pure (some (-1, r.toNat % 256, g.toNat % 256, b.toNat % 256))

/-- The cases 38 and 48 (src/tsm/tsm-vte.c:1379-1438): the attributes, and the number of
further parameters used. -/
def sgrExt (v : Vte) (a : Attr) (i : Nat) (fore : Bool) : R (Attr × Nat) := do
  let m ← v.arg (i + 1)
  if m = 5 then do
    let c ← v.sgr256 i
    match c with
    | none => pure (a, 0)
    | some c => pure (setColor a fore c, 2)
  else if m = 2 then do
    let c ← v.sgrTrue i
    match c with
    | none => pure (a, 0)
    | some c => pure (setColor a fore c, 4)
  else pure (a, 0)

/-- One iteration of the loop of `csi_attribute` (src/tsm/tsm-vte.c:1234-1443). -/
def sgrOne (v : Vte) (a : Attr) (i : Nat) : R (Attr × Nat) := do
  let n ← v.arg i
  if n < 0 then pure (a, 0)
  else if n = 38 then v.sgrExt a i true
  else if n = 48 then v.sgrExt a i false
  else pure (sgrSimple a v.defAttr n.toNat, 0)

/-- The loop of `csi_attribute` (src/tsm/tsm-vte.c:1234-1443). The first argument bounds the
number of iterations; 16 suffice as `csi_argc` is at most 16. -/
def sgrLoop (v : Vte) : Nat → Nat → Attr → R Attr
  | 0, _, a => .ok a
  | fuel + 1, i, a =>
    if v.argc ≤ i then .ok a
    else do
      let r ← v.sgrOne a i
      sgrLoop v fuel (i + r.2 + 1) r.1

/-- The default parameter of SGR (src/tsm/tsm-vte.c:1229-1232). -/
def sgrDefault (v : Vte) : R Vte := do
  let a ← v.arg 0
  if v.argc ≤ 1 ∧ a = -1 then pure { v with argc := 1, argv := v.argv.set 0 0 } else pure v

/-- `csi_attribute` (src/tsm/tsm-vte.c:1223-1448). -/
def sgr (v : Vte) : R Vte := do
  let v ← v.sgrDefault
  let a ← v.sgrLoop v.argc 0 v.cattr
  let a ← toRgb v.palette a
  bce { v with cattr := a }

/-! ### Modes -/

/-- `csi_compat_mode` (src/tsm/tsm-vte.c:1455-1494). -/
def compatMode (v : Vte) : R Vte := do
  let v ← v.reset
  let a ← v.arg 0
  let b ← v.arg 1
  if a = 61 then pure { v.setFlag true 4 with g0 := .unicodeLower, g1 := .decSupplemental }
  else if a = 62 ∨ a = 63 ∨ a = 64 then
    let v := if b = 1 ∨ b = 2 then v.setFlag true 5 else v
    pure { v.setFlag true 3 with g0 := .unicodeLower, g1 := .decSupplemental }
  else pure v

/-- The non-DEC modes of `csi_mode` (src/tsm/tsm-vte.c:1510-1541). -/
def ansiMode (v : Vte) (set : Bool) (n : Nat) : R Vte :=
  match n with
  | 2 => .ok (v.setFlag set 6)
  | 4 => v.modeFlag set 7 Screen.INSERT_MODE
  | 12 => .ok (v.setFlag set 8)
  | 20 => .ok (v.setFlag set 2)
  | _ => .ok v

/-- Mode 47 (src/tsm/tsm-vte.c:1641-1651). -/
def mode47 (v : Vte) (set : Bool) : R Vte :=
  if v.fInhibit then .ok v
  else if set then v.scr (.setFlags Screen.ALTERNATE) else v.scr (.resetFlags Screen.ALTERNATE)

/-- Mode 1047 (src/tsm/tsm-vte.c:1652-1664). -/
def mode1047 (v : Vte) (set : Bool) : R Vte :=
  if v.fInhibit then .ok v
  else if set then v.scr (.setFlags Screen.ALTERNATE)
  else do
    let v ← v.scr (.eraseScreen false)
    v.scr (.resetFlags Screen.ALTERNATE)

/-- Storing the cursor position (src/tsm/tsm-vte.c:1670-1673, 1684-1687). -/
def saveAlt (v : Vte) : Vte := { v with altX := v.con.cursorX, altY := v.con.cursorY }

/-- Mode 1048 (src/tsm/tsm-vte.c:1665-1678). -/
def mode1048 (v : Vte) (set : Bool) : R Vte :=
  if v.fInhibit then .ok v
  else if set then .ok v.saveAlt
  else v.scr (.moveTo v.altX v.altY)

/-- Mode 1049 (src/tsm/tsm-vte.c:1679-1697). -/
def mode1049 (v : Vte) (set : Bool) : R Vte :=
  if v.fInhibit then .ok v
  else if set then do
    let v ← v.saveAlt.scr (.setFlags Screen.ALTERNATE)
    v.scr (.eraseScreen false)
  else do
    let v ← v.scr (.resetFlags Screen.ALTERNATE)
    v.scr (.moveTo v.altX v.altY)

/-- Calling `mouse_cb` if it is set and `cond` holds (src/tsm/tsm-vte.c:1611-1613, 1706-1708,
1713-1720, 1725-1732). -/
def mouseNotify (v : Vte) (cond pixels : Bool) : Vte :=
  if v.mouseCb = true ∧ cond = true then v.emit (.mouse v.mouseEvent pixels) else v

/-- Mouse mode X10 (src/tsm/tsm-vte.c:1607-1614). -/
def modeX10 (v : Vte) (set : Bool) : Vte :=
  { v with mouseMode := if set then 9 else 0, mouseEvent := 1002 }.mouseNotify true false

/-- Mouse events, `n` is 1002 or 1003 (src/tsm/tsm-vte.c:1698-1709). -/
def modeMouseEvent (v : Vte) (set : Bool) (n : Nat) : Vte :=
  { v with mouseEvent := if v.mouseMode = 9 then 1002 else if set then n else 0 }.mouseNotify
    (decide (v.mouseMode ≠ 0)) (decide (v.mouseMode = 1016))

/-- Mouse modes SGR and pixel, `n` is 1006 or 1016 (src/tsm/tsm-vte.c:1710-1733). -/
def modeMouse (v : Vte) (set : Bool) (n : Nat) : Vte :=
  { v with mouseMode := if set then n else 0 }.mouseNotify
    (!set || decide (v.mouseEvent ≠ 0)) (set && decide (n = 1016))

/-- The DEC private modes of `csi_mode` (src/tsm/tsm-vte.c:1543-1738). -/
def decMode (v : Vte) (set : Bool) (n : Nat) : R Vte :=
  match n with
  | 1 => .ok (v.setFlag set 0)
  | 5 => v.modeFlag set 10 Screen.INVERSE
  | 6 => v.modeFlag set 11 Screen.REL_ORIGIN
  | 7 => v.modeFlag set 12 Screen.AUTO_WRAP
  | 8 => .ok (v.setFlag set 13)
  | 9 => .ok (v.modeX10 set)
  | 25 => (v.setFlag set 9).scr (if set then .resetFlags Screen.HIDE_CURSOR else .setFlags Screen.HIDE_CURSOR)
  | 42 => .ok (v.setFlag set 14)
  | 47 => v.mode47 set
  | 1047 => v.mode1047 set
  | 1048 => v.mode1048 set
  | 1049 => v.mode1049 set
  | 1002 => .ok (v.modeMouseEvent set 1002)
  | 1003 => .ok (v.modeMouseEvent set 1003)
  | 1006 => .ok (v.modeMouse set 1006)
  | 1016 => .ok (v.modeMouse set 1016)
  | _ => .ok v

/-- One iteration of the loop of `csi_mode` (src/tsm/tsm-vte.c:1509-1739). -/
def modeOne (v : Vte) (set : Bool) (i : Nat) : R Vte := do
  let a ← v.arg i
  if a < 0 then pure v
  else if v.cWhat then v.decMode set a.toNat
  else v.ansiMode set a.toNat

/-- The loop of `csi_mode` (src/tsm/tsm-vte.c:1509-1739) over the remaining indices. -/
def modeLoop (set : Bool) (v : Vte) : List Nat → R Vte
  | [] => .ok v
  | i :: is => do
    let v ← v.modeOne set i
    modeLoop set v is

/-- `csi_mode` (src/tsm/tsm-vte.c:1505-1740). -/
def mode (v : Vte) (set : Bool) : R Vte := modeLoop set v (List.range v.argc)

/-! ### Reports -/

/-- `%u` (src/tsm/tsm-vte.c:1768): decimal digits, at most as many as the first argument. -/
def decF : Nat → Nat → List UInt8
  | 0, _ => []
  | fuel + 1, n => if n < 10 then [UInt8.ofNat (48 + n)] else decF fuel (n / 10) ++ [UInt8.ofNat (48 + n % 10)]

/-- `%u` (src/tsm/tsm-vte.c:1768). A 32-bit number has at most ten digits. -/
def dec (n : Nat) : List UInt8 := decF 10 n

/-- `csi_dev_attr` (src/tsm/tsm-vte.c:1742-1756). -/
def devAttr (v : Vte) : R Vte := do
  let a ← v.arg 0
  if v.argc ≤ 1 ∧ a ≤ 0 then
    if v.csiFlags = 0 then v.reply primaryDa
    else if v.cGt then v.reply [27, 91, 62, 49, 59, 49, 59, 48, 99]
    else pure v
  else pure v

/-- The cursor position report `"\e[%u;%uR"` (src/tsm/tsm-vte.c:1768). -/
def cpr (s : Screen) : List UInt8 :=
  [27, 91] ++ dec (u32 (s.cursorY + 1)) ++ [59] ++ dec (u32 (s.cursorX + 1)) ++ [82]

/-- `csi_dsr` (src/tsm/tsm-vte.c:1758-1774). -/
def dsr (v : Vte) : R Vte := do
  let a ← v.arg 0
  if a = 5 then v.reply [27, 91, 48, 110]
  else if a = 6 then
    if 64 ≤ (cpr v.con).length then v.reply [27, 91, 48, 59, 48, 82] else v.reply (cpr v.con)
  else pure v

/-! ### CSI sequences -/

/-- The cases of the `switch` in `do_csi` (src/tsm/tsm-vte.c:1784-2019). -/
inductive Csi where
  | cuu | cud | cuf | cub | vpa | cnl | vpr | cpl | cup | cha | ed | el | ech | sgr | p | sm | rm
  | decstbm | da | il | dl | tbc | ich | dch | cbt | cht | dsr | su | sd | unknown
  deriving DecidableEq, Repr

/-- The case for a final character (src/tsm/tsm-vte.c:1784-2019). -/
def csiKind (data : Nat) : Csi :=
  match data with
  | 0x41 => .cuu -- A
  | 0x42 => .cud -- B
  | 0x43 => .cuf -- C
  | 0x44 => .cub -- D
  | 0x64 => .vpa -- d
  | 0x45 => .cnl -- E
  | 0x65 => .vpr -- e
  | 0x46 => .cpl -- F
  | 0x48 | 0x66 => .cup -- H f
  | 0x47 => .cha -- G
  | 0x4a => .ed -- J
  | 0x4b => .el -- K
  | 0x58 => .ech -- X
  | 0x6d => .sgr -- m
  | 0x70 => .p -- p
  | 0x68 => .sm -- h
  | 0x6c => .rm -- l
  | 0x72 => .decstbm -- r
  | 0x63 => .da -- c
  | 0x4c => .il -- L
  | 0x4d => .dl -- M
  | 0x67 => .tbc -- g
  | 0x40 => .ich -- @
  | 0x50 => .dch -- P
  | 0x5a => .cbt -- Z
  | 0x49 => .cht -- I
  | 0x6e => .dsr -- n
  | 0x53 => .su -- S
  | 0x54 => .sd -- T
  | _ => .unknown

/-- `num = vte->csi_argv[i]; if (num <= 0) num = 1;` (e.g. src/tsm/tsm-vte.c:1787-1789). -/
def num1 (v : Vte) (i : Nat) : R Nat := do
  let a ← v.arg i
  pure (if a ≤ 0 then 1 else a.toNat)

/-- `upper = vte->csi_argv[i]; if (upper < 0) upper = 0;` (src/tsm/tsm-vte.c:1938-1943). -/
def num0 (v : Vte) (i : Nat) : R Nat := do
  let a ← v.arg i
  pure a.toNat

/-- CSI J (src/tsm/tsm-vte.c:1865-1882). -/
def csiEd (v : Vte) : R Vte := do
  let a ← v.arg 0
  if a ≤ 0 then v.scr (.eraseCursorToScreen v.cWhat)
  else if a = 1 then v.scr (.eraseScreenToCursor v.cWhat)
  else if a = 2 then v.scr (.eraseScreen v.cWhat)
  else pure v

/-- CSI K (src/tsm/tsm-vte.c:1883-1898). -/
def csiEl (v : Vte) : R Vte := do
  let a ← v.arg 0
  if a ≤ 0 then v.scr (.eraseCursorToEnd v.cWhat)
  else if a = 1 then v.scr (.eraseHomeToCursor v.cWhat)
  else if a = 2 then v.scr (.eraseCurrentLine v.cWhat)
  else pure v

/-- CSI p (src/tsm/tsm-vte.c:1909-1929). -/
def csiP (v : Vte) : R Vte :=
  if v.cGt then v.reset
  else if v.cBang then v.reset
  else if v.cCash then .ok v
  else v.compatMode

/-- CSI g (src/tsm/tsm-vte.c:1964-1973). -/
def csiTbc (v : Vte) : R Vte := do
  let a ← v.arg 0
  if a ≤ 0 then v.scr .resetTabstop
  else if a = 3 then v.scr .resetAllTabstops
  else pure v

/-- The `switch` of `do_csi` (src/tsm/tsm-vte.c:1784-2022). -/
def csiRun (v : Vte) : Csi → R Vte
  | .cuu => do let n ← v.num1 0; v.scr (.moveUp n false)
  | .cud => do let n ← v.num1 0; v.scr (.moveDown n false)
  | .cuf => do let n ← v.num1 0; v.scr (.moveRight n)
  | .cub => do let n ← v.num1 0; v.scr (.moveLeft n)
  | .vpa => do let n ← v.num1 0; v.scr (.moveTo v.con.cursorX (n - 1))
  | .cnl => do
    let n ← v.num1 0
    let v ← v.scr (.moveDown n false)
    v.scr .moveLineHome
  | .vpr => do let n ← v.num1 0; v.scr (.moveTo v.con.cursorX (v.con.cursorY + n))
  | .cpl => do
    let n ← v.num1 0
    let v ← v.scr (.moveUp n false)
    v.scr .moveLineHome
  | .cup => do
    let x ← v.num1 0
    let y ← v.num1 1
    v.scr (.moveTo (y - 1) (x - 1))
  | .cha => do let n ← v.num1 0; v.scr (.moveTo (n - 1) v.con.cursorY)
  | .ed => v.csiEd
  | .el => v.csiEl
  | .ech => do let n ← v.num1 0; v.scr (.eraseChars n)
  | .sgr => v.sgr
  | .p => v.csiP
  | .sm => v.mode true
  | .rm => v.mode false
  | .decstbm => do
    let u ← v.num0 0
    let l ← v.num0 1
    v.scr (.setMargins u l)
  | .da => v.devAttr
  | .il => do let n ← v.num1 0; v.scr (.insertLines n)
  | .dl => do let n ← v.num1 0; v.scr (.deleteLines n)
  | .tbc => v.csiTbc
  | .ich => do let n ← v.num1 0; v.scr (.insertChars n)
  | .dch => do let n ← v.num1 0; v.scr (.deleteChars n)
  | .cbt => do let n ← v.num1 0; v.scr (.tabLeft n)
  | .cht => do let n ← v.num1 0; v.scr (.tabRight n)
  | .dsr => v.dsr
  | .su => do let n ← v.num1 0; v.scr (.scrollUp n)
  | .sd => do let n ← v.num1 0; v.scr (.scrollDown n)
  | .unknown => .ok v

/-- `do_csi` (src/tsm/tsm-vte.c:1776-2023). -/
def csiDispatch (v : Vte) (data : Nat) : R Vte :=
  (if v.argc < 16 then { v with argc := v.argc + 1 } else v).csiRun (csiKind data)

/-! ### Printing -/

/-- The variable a pointer points to (src/tsm/tsm-vte.c:186-193). -/
def slot (v : Vte) : Slot → Cset
  | .g0 => v.g0
  | .g1 => v.g1
  | .g2 => v.g2
  | .g3 => v.g3

/-- The entries of a character set (src/tsm/tsm-vte-charsets.c:77-497). -/
def table : Cset → List Nat
  | .unicodeLower => unicodeLower
  | .unicodeUpper => unicodeUpper
  | .decSupplemental => decSupplemental
  | .decSpecial => decSpecial

/-- Reading entry `i` of a character set (src/tsm/tsm-vte.c:2030-2045). -/
def entry (c : Cset) (i : Nat) : R Nat :=
  match (table c)[i]? with
  | some g => .ok g
  | none => .error .oobTable

/-- `vte_map` (src/tsm/tsm-vte.c:2026-2049). -/
def map (v : Vte) (val : Nat) : R (Vte × Nat) :=
  if 33 ≤ val ∧ val ≤ 126 then
    match v.glt with
    | some s => do
      let g ← entry (v.slot s) (val - 32)
      pure ({ v with glt := none }, g)
    | none => do
      let g ← entry (v.slot v.gl) (val - 32)
      pure (v, g)
  else if 161 ≤ val ∧ val ≤ 254 then
    match v.grt with
    | some s => do
      let g ← entry (v.slot s) (val - 160)
      pure ({ v with grt := none }, g)
    | none => do
      let g ← entry (v.slot v.gr) (val - 160)
      pure (v, g)
  else .ok (v, val)

/-- `tsm_symbol_make` (src/tsm/tsm-unicode.c:194-200). -/
def symbolMake (g : Nat) : Nat := if 0x7fffffff < g then 0 else g

/-- `ACTION_PRINT` (src/tsm/tsm-vte.c:2083-2086). -/
def print (v : Vte) (data : Nat) : R Vte := do
  let r ← v.map data
  r.1.writeConsole (symbolMake r.2)

/-! ### OSC strings -/

/-- Writing `b` at offset `n` (`memcpy`, src/tsm/tsm-vte.c:2058). -/
def blit (l b : List UInt8) (n : Nat) : R (List UInt8) :=
  if n + b.length ≤ l.length then .ok (l.take n ++ b ++ l.drop (n + b.length)) else .error .oscBuf

/-- `do_osc_collect` (src/tsm/tsm-vte.c:2051-2060). -/
def oscCollect (v : Vte) (val : Nat) : R Vte :=
  let b := Utf8.encode val
  if 127 < v.oscLen + b.length then .ok v
  else do
    let a ← blit v.oscArg b v.oscLen
    pure { v with oscArg := a, oscLen := v.oscLen + b.length }

/-- `do_osc_end` (src/tsm/tsm-vte.c:2062-2069). -/
def oscEnd (v : Vte) : R Vte :=
  if v.oscCb then do
    let a ← blit v.oscArg [0] v.oscLen
    pure ({ v with oscArg := a }.emit (.osc (a.take v.oscLen)))
  else .ok v

/-! ### Parser -/

/-- `do_action` (src/tsm/tsm-vte.c:2072-2123). -/
def action (v : Vte) (data : Nat) : Action → R Vte
  | .none => .ok v
  | .ignore => .ok v
  | .print => v.print data
  | .execute => v.execute data
  | .clear => .ok v.clear
  | .collect => .ok (v.collect data)
  | .param => v.param data
  | .escDispatch => v.escDispatch data
  | .csiDispatch => v.csiDispatch data
  | .dcsStart => .ok v
  | .dcsCollect => .ok v
  | .dcsEnd => .ok v
  | .oscStart => .ok v.clear
  | .oscCollect => v.oscCollect data
  | .oscEnd => v.oscEnd

/-- `entry_action` (src/tsm/tsm-vte.c:2126-2133). -/
def entryAction : PState → Action
  | .csiEntry => .clear
  | .dcsEntry => .clear
  | .dcsPass => .dcsStart
  | .esc => .clear
  | .oscString => .oscStart
  | _ => .none

/-- `exit_action` (src/tsm/tsm-vte.c:2136-2140). -/
def exitAction : PState → Action
  | .dcsPass => .dcsEnd
  | .oscString => .oscEnd
  | _ => .none

/-- `do_trans` (src/tsm/tsm-vte.c:2143-2158). -/
def trans (v : Vte) (data : Nat) (st : PState) (act : Action) : R Vte :=
  if st = .none then v.action data act
  else do
    let v ← v.action data (exitAction v.state)
    let v ← v.action data act
    let v ← v.action data (entryAction st)
    pure { v with state := st }

/-- The transitions that are possible in every state (src/tsm/tsm-vte.c:2168-2195). -/
def anywhere (raw : Nat) : Option (PState × Action) :=
  if raw = 0x18 ∨ raw = 0x1a ∨ (0x80 ≤ raw ∧ raw ≤ 0x8f) ∨ (0x91 ≤ raw ∧ raw ≤ 0x97) ∨ raw = 0x99 ∨
      raw = 0x9a ∨ raw = 0x9c then some (.ground, .execute)
  else if raw = 0x1b then some (.esc, .none)
  else if raw = 0x98 ∨ raw = 0x9e ∨ raw = 0x9f then some (.stIgnore, .none)
  else if raw = 0x90 then some (.dcsEntry, .none)
  else if raw = 0x9d then some (.oscString, .none)
  else if raw = 0x9b then some (.csiEntry, .none)
  else none

/-- C0 controls other than CAN, SUB and ESC, `0x00 ... 0x17`, `0x19`, `0x1c ... 0x1f`
(e.g. src/tsm/tsm-vte.c:2201-2203). -/
@[reducible] def isC0 (raw : Nat) : Prop := raw ≤ 0x17 ∨ raw = 0x19 ∨ (0x1c ≤ raw ∧ raw ≤ 0x1f)

/-- The transition of the current state (src/tsm/tsm-vte.c:2198-2502); the state `none`
stands for no transition. -/
def stateTrans (st : PState) (raw : Nat) : PState × Action :=
  match st with
  | .ground =>
    if isC0 raw ∨ (0x80 ≤ raw ∧ raw ≤ 0x8f) ∨ (0x91 ≤ raw ∧ raw ≤ 0x9a) ∨ raw = 0x9c then (.none, .execute)
    else (.none, .print)
  | .esc =>
    if isC0 raw then (.none, .execute)
    else if raw = 0x7f then (.none, .ignore)
    else if 0x20 ≤ raw ∧ raw ≤ 0x2f then (.escInt, .collect)
    else if (0x30 ≤ raw ∧ raw ≤ 0x4f) ∨ (0x51 ≤ raw ∧ raw ≤ 0x57) ∨ raw = 0x59 ∨ raw = 0x5a ∨ raw = 0x5c ∨
        (0x60 ≤ raw ∧ raw ≤ 0x7e) then (.ground, .escDispatch)
    else if raw = 0x5b then (.csiEntry, .none)
    else if raw = 0x5d then (.oscString, .none)
    else if raw = 0x50 then (.dcsEntry, .none)
    else if raw = 0x58 ∨ raw = 0x5e ∨ raw = 0x5f then (.stIgnore, .none)
    else (.escInt, .collect)
  | .escInt =>
    if isC0 raw then (.none, .execute)
    else if 0x20 ≤ raw ∧ raw ≤ 0x2f then (.none, .collect)
    else if raw = 0x7f then (.none, .ignore)
    else if 0x30 ≤ raw ∧ raw ≤ 0x7e then (.ground, .escDispatch)
    else (.none, .collect)
  | .csiEntry =>
    if isC0 raw then (.none, .execute)
    else if raw = 0x7f then (.none, .ignore)
    else if 0x20 ≤ raw ∧ raw ≤ 0x2f then (.csiInt, .collect)
    else if raw = 0x3a then (.csiIgnore, .none)
    else if (0x30 ≤ raw ∧ raw ≤ 0x39) ∨ raw = 0x3b then (.csiParam, .param)
    else if 0x3c ≤ raw ∧ raw ≤ 0x3f then (.csiParam, .collect)
    else if 0x40 ≤ raw ∧ raw ≤ 0x7e then (.ground, .csiDispatch)
    else (.csiIgnore, .none)
  | .csiParam =>
    if isC0 raw then (.none, .execute)
    else if (0x30 ≤ raw ∧ raw ≤ 0x39) ∨ raw = 0x3b then (.none, .param)
    else if raw = 0x7f then (.none, .ignore)
    else if raw = 0x3a ∨ (0x3c ≤ raw ∧ raw ≤ 0x3f) then (.csiIgnore, .none)
    else if 0x20 ≤ raw ∧ raw ≤ 0x2f then (.csiInt, .collect)
    else if 0x40 ≤ raw ∧ raw ≤ 0x7e then (.ground, .csiDispatch)
    else (.csiIgnore, .none)
  | .csiInt =>
    if isC0 raw then (.none, .execute)
    else if 0x20 ≤ raw ∧ raw ≤ 0x2f then (.none, .collect)
    else if raw = 0x7f then (.none, .ignore)
    else if 0x30 ≤ raw ∧ raw ≤ 0x3f then (.csiIgnore, .none)
    else if 0x40 ≤ raw ∧ raw ≤ 0x7e then (.ground, .csiDispatch)
    else (.csiIgnore, .none)
  | .csiIgnore =>
    if isC0 raw then (.none, .execute)
    else if (0x20 ≤ raw ∧ raw ≤ 0x3f) ∨ raw = 0x7f then (.none, .ignore)
    else if 0x40 ≤ raw ∧ raw ≤ 0x7e then (.ground, .none)
    else (.none, .ignore)
  | .dcsEntry =>
    if isC0 raw ∨ raw = 0x7f then (.none, .ignore)
    else if raw = 0x3a then (.dcsIgnore, .none)
    else if 0x20 ≤ raw ∧ raw ≤ 0x2f then (.dcsInt, .collect)
    else if (0x30 ≤ raw ∧ raw ≤ 0x39) ∨ raw = 0x3b then (.dcsParam, .param)
    else if 0x3c ≤ raw ∧ raw ≤ 0x3f then (.dcsParam, .collect)
    else (.dcsPass, .none)
  | .dcsParam =>
    if isC0 raw ∨ raw = 0x7f then (.none, .ignore)
    else if (0x30 ≤ raw ∧ raw ≤ 0x39) ∨ raw = 0x3b then (.none, .param)
    else if raw = 0x3a ∨ (0x3c ≤ raw ∧ raw ≤ 0x3f) then (.dcsIgnore, .none)
    else if 0x20 ≤ raw ∧ raw ≤ 0x2f then (.dcsInt, .collect)
    else (.dcsPass, .none)
  | .dcsInt =>
    if isC0 raw ∨ raw = 0x7f then (.none, .ignore)
    else if 0x20 ≤ raw ∧ raw ≤ 0x2f then (.none, .collect)
    else if 0x30 ≤ raw ∧ raw ≤ 0x3f then (.dcsIgnore, .none)
    else (.dcsPass, .none)
  | .dcsPass =>
    if raw = 0x7f then (.none, .ignore)
    else if raw = 0x9c then (.ground, .none)
    else (.none, .dcsCollect)
  | .dcsIgnore => if raw = 0x9c then (.ground, .none) else (.none, .ignore)
  | .oscString =>
    if raw ≤ 0x06 ∨ (0x08 ≤ raw ∧ raw ≤ 0x17) ∨ raw = 0x19 ∨ (0x1c ≤ raw ∧ raw ≤ 0x1f) then (.none, .ignore)
    else if raw = 0x07 ∨ raw = 0x9c then (.ground, .none)
    else (.none, .oscCollect)
  | .stIgnore => if raw = 0x9c then (.ground, .none) else (.none, .ignore)
  | .none => (.none, .none)

/-- The transition for a character: new state (`none` for the same one) and action
(src/tsm/tsm-vte.c:2165-2505). -/
def nextOf (st : PState) (raw : Nat) : PState × Action := (anywhere raw).getD (stateTrans st raw)

/-- `parse_data` (src/tsm/tsm-vte.c:2165-2505). -/
def parse (v : Vte) (raw : Nat) : R Vte := v.trans raw (nextOf v.state raw).1 (nextOf v.state raw).2

/-- The body of the loop of `tsm_vte_input` (src/tsm/tsm-vte.c:2518-2533). -/
def inputByte (v : Vte) (b : UInt8) : R Vte :=
  if v.f7bit then v.parse (b.toNat &&& 0x7f)
  else if v.f8bit then v.parse (Utf8.conv v.sg b)
  else
    let m := Utf8.feed v.sg v.mach b
    if m.state = .accept ∨ m.state = .reject then { v with mach := m }.parse (Utf8.get m)
    else .ok { v with mach := m }

/-- The loop of `tsm_vte_input` (src/tsm/tsm-vte.c:2517-2534). -/
def inputLoop (v : Vte) : List UInt8 → R Vte
  | [] => .ok v
  | b :: bs => do
    let v ← v.inputByte b
    inputLoop v bs

/-- `tsm_vte_input` (src/tsm/tsm-vte.c:2508-2536). -/
def input (v : Vte) (bs : List UInt8) : R Vte := do
  let v ← { v with parseCnt := v.parseCnt + 1 }.inputLoop bs
  pure { v with parseCnt := v.parseCnt - 1 }

end Vte
end Verif
