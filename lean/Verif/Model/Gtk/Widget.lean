import Verif.Model.Gtk.Renderer
import Verif.Model.Shared.Pty
import Verif.Model.VteApi

/-!
# The terminal widget of gtktsm (src/gtktsm/gtktsm-terminal.c:1082-2025)

GTK calls the functions below; which of them, in which order and with which arguments is
given from outside (`Ev`). The bridge (C90) decides when the pty is dispatched, which is an
event here. Debug messages, reference counts and the keymap are left out.
-/

namespace Verif.Gtk
open Verif

/-- How a function of the widget may not return: undefined behaviour in the library or in the
shared code, in the widget itself, or `g_error`, which ends the program
(src/gtktsm/gtktsm-terminal.c:1198, 1265, 1269, 1274, 1540, 1787-1812, 1998). -/
inductive Stop
  | ub (k : UB)
  | fault (f : Fault)
  | abort
  deriving DecidableEq, Repr

/-- A computation of the widget. -/
abbrev W (α : Type) := Except Stop α

/-- A call of the library. -/
def lib {α : Type} : R α → W α
  | .ok a => .ok a
  | .error k => .error (.ub k)

/-- A call of the renderer, or a conversion. -/
def own {α : Type} : G α → W α
  | .ok a => .ok a
  | .error f => .error (.fault f)

/-- The pty with the window size that the kernel has for it
(src/shared/shl-pty.c:61-70, 100-133, 421-439). -/
structure Tty where
  io : Pty
  cols : Nat
  rows : Nat

/-- `GtkTsmTerminalPrivate` (src/gtktsm/gtktsm-terminal.c:1091-1136). The screen is that of
the emulator. `titles` are the arguments of the title signal so far, `queued` tells whether a
redraw was requested since the last one, `mem` which writes to the pty find memory; they have
no counterpart in the structure. -/
structure Wid where
  rend : Rend
  vte : Vte
  faces : Option Faces
  sel : Nat
  selStart : Nat
  selX : Int
  selY : Int
  pty : Option Tty
  idle : Bool
  width : Nat
  height : Nat
  columns : Nat
  rows : Nat
  showDirty : Bool
  titles : List (List UInt8)
  queued : Bool
  mem : Nat → Bool

namespace Wid

/-! ### Sizes -/

/-- The number of cells in one direction (src/gtktsm/gtktsm-terminal.c:1172-1180). -/
def cells (size : Nat) (cell : Option Nat) : Nat :=
  match cell with
  | none => 1
  | some c => if c = 0 ∨ size / c = 0 then 1 else size / c

/-- `terminal_recalculate_cells` (src/gtktsm/gtktsm-terminal.c:1163-1181). -/
def recalculate (w : Wid) (width height : Nat) : Wid :=
  { w with
    width := width, height := height
    columns := cells width (w.faces.map (·.regular.width)), rows := cells height (w.faces.map (·.regular.height)) }

/-- `terminal_set_font` (src/gtktsm/gtktsm-terminal.c:1183-1247); the argument are the faces that
`gtktsm_face_new` makes, `none` if it fails for the regular one. -/
def setFont (w : Wid) : Option Faces → W Wid
  | none => .error .abort
  | some fs => .ok { ({ w with faces := some fs }.recalculate w.width w.height) with queued := true }

/-- `gtktsm_renderer_resize` (src/gtktsm/gtktsm-terminal.c:624-632, 1263-1265). -/
def resizeRend (w : Wid) (mallocOk : Bool) : W Wid :=
  own (realloc mallocOk w.width w.height) >>= fun r =>
    match r with
    | none => .error .abort
    | some r => .ok { w with rend := r }

/-- Resizing the screen (src/gtktsm/gtktsm-terminal.c:1267-1269). -/
def resizeScreen (w : Wid) : W Wid :=
  lib (w.vte.con.resize w.columns w.rows) >>= fun r =>
    if r.1 = .ok then .ok { w with vte := { w.vte with con := r.2 } } else .error .abort

/-- Resizing the pty (src/gtktsm/gtktsm-terminal.c:1271-1275, src/shared/shl-pty.c:421-439): its
sizes are `unsigned short`. The `ioctl` succeeds. -/
def resizePty (w : Wid) : Wid :=
  { w with pty := w.pty.map fun t => { t with cols := w.columns % 65536, rows := w.rows % 65536 } }

/-- `terminal_configure_fn` (src/gtktsm/gtktsm-terminal.c:1249-1296). -/
def configure (w : Wid) (width height : Nat) (mallocOk : Bool) : W Wid := do
  let w ← (w.recalculate width height).resizeRend mallocOk
  let w ← w.resizeScreen
  return { w.resizePty with queued := true }

/-! ### Drawing -/

/-- `terminal_draw_fn` (src/gtktsm/gtktsm-terminal.c:1298-1340). -/
def draw (ink : Ink) (w : Wid) : W Wid :=
  match w.faces with
  | none => .ok { w with queued := false }
  | some fs => do
    let d ← lib w.vte.con.draw
    let p ← own (rendererDraw ink w.showDirty fs w.rend d.1 d.2.1)
    return { w with vte := { w.vte with con := d.2.2 }, faces := some p.1, rend := p.2, queued := false }

/-! ### Callbacks of the emulator -/

/-- `terminal_write_fn` (src/gtktsm/gtktsm-terminal.c:1526-1545). -/
def writeFn (w : Wid) (b : List UInt8) : W Wid :=
  match w.pty with
  | none => .ok w
  | some t =>
    lib (t.io.write ⟨w.mem, fun _ => []⟩ b) >>= fun r =>
      if r.2 = .ok then .ok { w with pty := some { t with io := r.1 }, idle := true } else .error .abort

/-- `terminal_osc_fn` (src/gtktsm/gtktsm-terminal.c:1584-1596); the argument is terminated by
a zero (src/tsm/tsm-vte.c:2067-2070), so reading two bytes is fine and the title ends
at the first zero. -/
def oscFn (w : Wid) : List UInt8 → Wid
  | 0x32 :: 0x3b :: t => { w with titles := w.titles ++ [t.takeWhile (· ≠ 0)] }
  | _ => w

/-- The callbacks made during a call of the emulator, in order. They do not call the emulator, so
they may run after it. No mouse callback is set. -/
def callbacks : List Event → Wid → W Wid
  | [], w => .ok w
  | .write b :: es, w => w.writeFn b >>= callbacks es
  | .osc b :: es, w => callbacks es (w.oscFn b)
  | .mouse _ _ :: es, w => callbacks es w

/-- Continue with the emulator `v`, after the callbacks it has made. -/
def emu (w : Wid) (v : Vte) : W Wid := callbacks (v.log.drop w.vte.log.length) { w with vte := v }

/-! ### Keyboard -/

/-- The modifiers (src/gtktsm/gtktsm-terminal.c:1361-1370): bits 0 to 3 of the state, and bit 6
as bit 4. -/
def mods (state : BitVec 32) : Nat :=
  (state.getLsbD 0).toNat + 2 * (state.getLsbD 1).toNat + 4 * (state.getLsbD 2).toNat + 8 * (state.getLsbD 3).toNat +
    16 * (state.getLsbD 6).toNat

/-- The keys that move through the scrollback (src/gtktsm/gtktsm-terminal.c:1384-1406): `tr` is the
result of translating the key, with the modifiers that this has consumed. -/
def scrollKey (state : BitVec 32) : Option (Nat × BitVec 32) → Option Screen.Call
  | none => none
  | some (key, cmod) =>
    if state &&& ~~~cmod &&& 0x4f#32 = 1#32 then
      if key = 0xff52 then some (.sbUp 1)
      else if key = 0xff54 then some (.sbDown 1)
      else if key = 0xff55 then some (.sbPageUp 1)
      else if key = 0xff56 then some (.sbPageDown 1)
      else none
    else none

/-- After `tsm_vte_handle_keyboard` (src/gtktsm/gtktsm-terminal.c:1412-1416). -/
def keyed (w : Wid) (r : Vte × Bool) : W Wid :=
  w.emu r.1 >>= fun w =>
    if r.2 then lib (w.vte.scr .sbReset) >>= fun v => .ok { w with vte := v, queued := true } else .ok w

/-- `terminal_key_fn` (src/gtktsm/gtktsm-terminal.c:1345-1419) for a key press; `ucs` is the result
of `xkb_keysym_to_utf32`. -/
def key (w : Wid) (state : BitVec 32) (tr : Option (Nat × BitVec 32)) (keyval ucs : Nat) : W Wid :=
  match scrollKey state tr with
  | some c => lib (w.vte.scr c) >>= fun v => .ok { w with vte := v, queued := true }
  | none =>
    lib (w.vte.keyboard keyval 0 (mods state) (if ucs = 0 then 0xffffffff else ucs)) >>= w.keyed

/-! ### Mouse

Coordinates are `double`s. Here they are integers in units of 1/65536 pixel, which is what X11
delivers at best; for such numbers below 2^31 pixels the quotient of the `double`s has the same
integral part as the exact one. -/

/-- Conversion of `x / cell` to `unsigned int` (src/gtktsm/gtktsm-terminal.c:1448-1449, 1455-1456,
1495-1496, 1501-1502): truncated, and undefined if the result does not fit. -/
def toCell (x : Int) (cell : Nat) : G Nat :=
  if cell = 0 then .error .cast
  else
    let q := x.tdiv (65536 * cell)
    if 0 ≤ q ∧ q < 4294967296 then .ok q.toNat else .error .cast

/-- A call of the screen at a position of the mouse (src/gtktsm/gtktsm-terminal.c:1447-1450,
1454-1457, 1494-1497, 1500-1503). -/
def selectAt (w : Wid) (fs : Faces) (f : Nat → Nat → Screen.Call) (x y : Int) : W Wid := do
  let cx ← own (toCell x fs.regular.width)
  let cy ← own (toCell y fs.regular.height)
  let v ← lib (w.vte.scr (f cx cy))
  return { w with vte := v, queued := true }

/-- Kinds of button events (src/gtktsm/gtktsm-terminal.c:1439, 1444, 1451, 1458). -/
inductive Press | single | double | triple | release
  deriving DecidableEq, Repr

/-- Releasing the button (src/gtktsm/gtktsm-terminal.c:1459-1466). -/
def released (w : Wid) (time : Nat) : W Wid :=
  if w.sel = 1 ∧ time < u32 (w.selStart + 100) then
    lib (w.vte.scr .selectionReset) >>= fun v => .ok { w with vte := v, queued := true, sel := 0 }
  else .ok { w with sel := 0 }

/-- `terminal_button_fn` (src/gtktsm/gtktsm-terminal.c:1421-1470). -/
def button (w : Wid) (kind : Press) (btn time : Nat) (x y : Int) : W Wid :=
  if btn ≠ 1 then .ok w
  else
    match w.faces with
    | none => .ok w
    | some fs =>
      match kind with
      | .single => .ok { w with sel := 1, selStart := time, selX := x, selY := y }
      | .double => { w with sel := 2 }.selectAt fs .selectionStart x y
      | .triple => { w with sel := 2 }.selectAt fs .selectionStart x y
      | .release => w.released time

/-- `terminal_motion_fn` (src/gtktsm/gtktsm-terminal.c:1472-1507). -/
def motion (w : Wid) (x y : Int) : W Wid :=
  if w.sel = 0 then .ok w
  else
    match w.faces with
    | none => .ok w
    | some fs =>
      if w.sel = 1 then
        if (w.selX - x).natAbs > 3 * 65536 ∨ (w.selY - y).natAbs > 3 * 65536 then
          { w with sel := 2 }.selectAt fs .selectionStart w.selX w.selY
        else .ok w
      else w.selectAt fs .selectionTarget x y

/-! ### The child -/

/-- `gtktsm_terminal_fork` (src/gtktsm/gtktsm-terminal.c:1976-2009) in the parent; `new` are the
faces that are made if there are none. -/
def fork (w : Wid) (new : Option Faces) : W Wid :=
  if w.pty.isSome then .ok w
  else
    (if w.faces.isSome then .ok w else w.setFont new) >>= fun w =>
      .ok { w with pty := some { io := Pty.init, cols := w.columns % 65536, rows := w.rows % 65536 } }

/-- `terminal_read_fn` (src/gtktsm/gtktsm-terminal.c:1944-1954). -/
def readFn (w : Wid) (d : List UInt8) : W Wid := do
  let v ← lib (w.vte.input d)
  let w ← w.emu v
  return { w with queued := true }

/-- The loop of `pty_read` (src/shared/shl-pty.c:369-390) with the callback of the widget; see
`Pty.readLoop`, whose callback may not depend on earlier input. -/
def readLoop : List KRes → Wid → W Wid
  | [], w => .ok w
  | k :: ks, w =>
    match w.pty, k with
    | some t, .some n =>
      if t.io.inq = [] then .ok w
      else
        let len := min (n + 1) 16383
        let d := t.io.inq.take len
        { w with pty := some { t with io := { t.io with inq := t.io.inq.drop len, got := t.io.got ++ d } } }.readFn d
          >>= readLoop ks
    | _, _ => .ok w

/-- The writing part of `shl_pty_dispatch` (src/shared/shl-pty.c:400). -/
def flush (w : Wid) (w1 w2 : KRes) : W Wid :=
  match w.pty with
  | none => .ok w
  | some t => lib (t.io.writeLoop [w1, w2]) >>= fun r => .ok { w with pty := some { t with io := r.1 } }

/-- `shl_pty_dispatch` (src/shared/shl-pty.c:393-403), as called through the bridge
(src/gtktsm/gtktsm-terminal.c:1519, 1606); the pty of a widget is open. -/
def dispatch (w : Wid) (r1 r2 w1 w2 : KRes) : W Wid := w.readLoop [r1, r2] >>= fun w => w.flush w1 w2

/-- The child writes `d` to its terminal. -/
def childWrites (w : Wid) (d : List UInt8) : Wid :=
  { w with pty := w.pty.map fun t => { t with io := { t.io with inq := t.io.inq ++ d } } }

/-! ### Events -/

/-- What happens to a widget (src/gtktsm/gtktsm-terminal.c:1249-2009). `font` is a change of one of
the properties font, anti-aliasing and subpixel order; what `gtktsm_face_new` makes is given. -/
inductive Ev where
  | configure (width height : Nat) (mallocOk : Bool)
  | draw
  | font (new : Option Faces)
  | sbSize (n : Nat)
  | showDirty (on : Bool)
  | key (state : BitVec 32) (tr : Option (Nat × BitVec 32)) (keyval ucs : Nat)
  | button (kind : Press) (btn time : Nat) (x y : Int)
  | motion (x y : Int)
  | fork (new : Option Faces)
  | child (d : List UInt8)
  | dispatch (r1 r2 w1 w2 : KRes)
  | idle (r1 r2 w1 w2 : KRes)
  | exit

/-- One event: the functions above; `terminal_set_property`
(src/gtktsm/gtktsm-terminal.c:1680-1743), `terminal_idle_fn` (1509-1524), `terminal_bridge_fn`
(1598-1611) and `terminal_child_fn` (1956-1974). -/
def step (ink : Ink) (w : Wid) : Ev → W Wid
  | .configure x y m => w.configure x y m
  | .draw => w.draw ink
  | .font new => if w.faces.isSome then w.setFont new else .ok w
  | .sbSize n => lib (w.vte.scr (.setMaxSb n)) >>= fun v => .ok { w with vte := v }
  | .showDirty on => .ok { w with showDirty := on, queued := true }
  | .key s t k u => w.key s t k u
  | .button k b t x y => w.button k b t x y
  | .motion x y => w.motion x y
  | .fork new => w.fork new
  | .child d => .ok (w.childWrites d)
  | .dispatch r1 r2 w1 w2 => w.dispatch r1 r2 w1 w2
  | .idle r1 r2 w1 w2 => { w with idle := false }.dispatch r1 r2 w1 w2
  | .exit => .ok { w with pty := none }

/-- Events one after the other. -/
def runAll (ink : Ink) : List Ev → Wid → W Wid
  | [], w => .ok w
  | e :: es, w => w.step ink e >>= runAll ink es

/-- `gtktsm_terminal_init` (src/gtktsm/gtktsm-terminal.c:1780-1847), and the construction property
`sb-size` (1867-1874), on a screen that `tsm_screen_new` has made. -/
def init (s : Screen) (sg : Bool) (mem : Nat → Bool) : W Wid := do
  let r ← own (realloc true 0 0)
  match r with
  | none => .error .abort
  | some r =>
    let v ← lib (Vte.new s sg)
    let v ← lib ({ v with oscCb := true }.scr (.setMaxSb 2000))
    return { rend := r, vte := v, faces := none, sel := 0, selStart := 0, selX := 0, selY := 0, pty := none
             idle := false, width := 0, height := 0, columns := 0, rows := 0, showDirty := false, titles := []
             queued := false, mem := mem }

end Wid
end Verif.Gtk
