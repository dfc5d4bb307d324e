import Verif.Model.Vte

/-!
# Terminal emulator: creation, keyboard, mouse, palette and histories of calls
(src/tsm/tsm-vte.c:459-620, 682-712, 2539-3205)
-/

namespace Verif
namespace Vte

/-! ### Writing to the client -/

/-- Feeding the ESC first (src/tsm/tsm-vte.c:701-702). -/
def echoEsc (v : Vte) : R Vte := if v.fPrepend then v.input [27] else .ok v

/-- Local echo (src/tsm/tsm-vte.c:699-704). -/
def echo (v : Vte) (b : List UInt8) : R Vte :=
  if v.parseCnt = 0 ∧ v.fNoEcho = false then do
    let v ← v.echoEsc
    v.input b
  else .ok v

/-- `vte_write` and `vte_write_raw` (src/tsm/tsm-vte.c:682-716); debug messages are left out. -/
def write (v : Vte) (b : List UInt8) : R Vte := do
  let v ← v.echo b
  pure (v.send b)

/-! ### Keyboard -/

/-- The string for a key (src/tsm/tsm-vte.c:2722-3092). -/
def keyBytes (v : Vte) (mods : Nat) : KeyAct → List UInt8
  | .plain b => b
  | .backspace del bs => if v.bsDelete then del else bs
  | .keypad app num => if v.fKeypad then app else num
  | .cursor app num => if v.fCursorKey then app else num
  | .enter nl cr => if v.fNewline then nl else cr
  | .kpEnter app nl cr => if v.fKeypad then app else if v.fNewline then nl else cr
  | .shifted sh norm => if mods.testBit 0 then sh else norm
  | .arrow ctrl app num => if mods.testBit 2 then ctrl else if v.fCursorKey then app else num

/-- The string for a character (src/tsm/tsm-vte.c:3095-3113). -/
def charBytes (v : Vte) (unicode : Nat) : List UInt8 :=
  if v.f7bit then [if unicode.testBit 7 then 0x3f else UInt8.ofNat unicode]
  else if v.f8bit then [if 0xff < unicode then 0x3f else UInt8.ofNat unicode]
  else Utf8.encode (symbolMake unicode)

/-- The decision of `tsm_vte_handle_keyboard` (src/tsm/tsm-vte.c:2577-3119): the string to
send, or `none` if the key is not handled. -/
def keyString (v : Vte) (keysym ascii mods unicode : Nat) : Option (List UInt8) :=
  match (if mods.testBit 2 then ctrlKeys.lookup (if ascii = 0 then keysym else ascii) else none) with
  | some b => some [b]
  | none =>
    match keyTable.lookup keysym with
    | some k => some (v.keyBytes mods k)
    | none => if unicode = 0xffffffff then none else some (v.charBytes unicode)

/-- `tsm_vte_handle_keyboard` (src/tsm/tsm-vte.c:2545-3119), with the return value. -/
def keyboard (v : Vte) (keysym ascii mods unicode : Nat) : R (Vte × Bool) :=
  let v := if mods.testBit 3 then v.setFlag true 16 else v
  match v.keyString keysym ascii mods unicode with
  | some b => do
    let v ← v.write b
    pure (v, true)
  | none => .ok (v.setFlag false 16, false)

/-! ### Mouse -/

/-- `%d` applied to an `unsigned int` (src/tsm/tsm-vte.c:3188, 3198). -/
def decInt (n : Nat) : List UInt8 := if n < 2 ^ 31 then dec n else 45 :: dec (2 ^ 32 - n)

/-- `snprintf` to the buffer of 24 bytes, then `strlen` (src/tsm/tsm-vte.c:3126, 3171-3173). -/
def cString (b : List UInt8) : List UInt8 := (b.take 23).takeWhile (· ≠ 0)

/-- An `unsigned int` as `unsigned char` (src/tsm/tsm-vte.c:3146, 3170). -/
def uchar (n : Nat) : UInt8 := UInt8.ofNat n

/-- The button code in the modes SGR and pixel (src/tsm/tsm-vte.c:3140-3146). -/
def sgrButton (button modifiers : Nat) : Nat :=
  (uchar ((if button = 4 then 64 else if button = 5 then 65 else button) ||| modifiers)).toNat

/-- The report `"\e[<%d;%d;%d%c"` (src/tsm/tsm-vte.c:3188, 3198). -/
def sgrReport (flags x y : Nat) (pressed : Bool) : List UInt8 :=
  cString ([27, 91, 60] ++ decInt flags ++ [59] ++ decInt x ++ [59] ++ decInt y ++ [if pressed then 77 else 109])

/-- Clamping a coordinate in mode X10 (src/tsm/tsm-vte.c:3151-3162). -/
def x10Coord (c : Nat) : Nat := if 0xff < u32 (c + 0x21) then 0xff else u32 (c + 0x21)

/-- The report in mode X10 (src/tsm/tsm-vte.c:3150-3174). -/
def x10Report (cx cy button event modifiers : Nat) : List UInt8 :=
  cString [27, 91, 77, uchar (((if event.testBit 1 then 3 else button) ||| modifiers) + 0x20),
    uchar (x10Coord cx), uchar (x10Coord cy)]

/-- The branch for mode SGR (src/tsm/tsm-vte.c:3175-3191); `cx` and `cy` are already
incremented. -/
def mouseSgr (v : Vte) (cx cy button event modifiers : Nat) : R (Vte × Bool) :=
  if event.testBit 2 then
    if cx = v.mouseLastCol ∧ cy = v.mouseLastRow then .ok (v, false)
    else do
      let v ← { v with mouseLastCol := cx, mouseLastRow := cy }.write (sgrReport 35 cx cy true)
      pure (v, true)
  else do
    let v ← v.write (sgrReport (sgrButton button modifiers) cx cy (event.testBit 0))
    pure (v, true)

/-- The report in pixel mode (src/tsm/tsm-vte.c:3192-3198). -/
def pixelReport (px py button event modifiers : Nat) : List UInt8 :=
  if event = 4 then sgrReport 35 px py true
  else sgrReport (sgrButton button modifiers) px py (event.testBit 0)

/-- `tsm_vte_handle_mouse` (src/tsm/tsm-vte.c:3122-3205), with the return value. -/
def mouse (v : Vte) (cx cy px py button event modifiers : Nat) : R (Vte × Bool) :=
  if (v.mouseMode = 9 ∨ v.mouseEvent ≠ 1003) ∧ event.testBit 2 = true then .ok (v, false)
  else if v.mouseMode = 9 then do
    let v ← v.write (x10Report cx cy button event modifiers)
    pure (v, true)
  else if v.mouseMode = 1006 ∧ v.mouseEvent ≠ 0 then v.mouseSgr (u32 (cx + 1)) (u32 (cy + 1)) button event modifiers
  else if v.mouseMode = 1016 ∧ v.mouseEvent ≠ 0 then do
    let v ← v.write (pixelReport px py button event modifiers)
    pure (v, true)
  else .ok (v, false)

/-! ### Palette -/

/-- `vte_update_palette` (src/tsm/tsm-vte.c:554-567). -/
def updatePalette (v : Vte) : R Vte := do
  let p := getPalette v.paletteName v.customPalette
  let d ← toRgb p { v.defAttr with fccode := 16, bccode := 17 }
  let v ← scr { v with palette := p, defAttr := d, cattr := d } (.setDefAttr d)
  v.scr (.eraseScreen false)

/-- `tsm_vte_set_palette` (src/tsm/tsm-vte.c:569-587); `mem` tells whether `strdup`
succeeds. -/
def setPalette (v : Vte) (name : Option String) (mem : Bool) : R Vte :=
  if name.isSome = true ∧ mem = false then .ok v else { v with paletteName := name }.updatePalette

/-- `tsm_vte_set_custom_palette` (src/tsm/tsm-vte.c:589-609); `mem` tells whether `malloc`
succeeds. -/
def setCustomPalette (v : Vte) (p : Option Palette) (mem : Bool) : R Vte :=
  if p.isSome = true ∧ mem = false then .ok v else { v with customPalette := p }.updatePalette

/-! ### Creation -/

/-- The structure before `tsm_vte_reset` (src/tsm/tsm-vte.c:473-492). The pointers and
character sets are overwritten by `tsm_vte_reset`; `csi_argv` is all zero. -/
def blank (s : Screen) (sg : Bool) (d : Attr) : Vte :=
  { con := s, paletteName := none, bsDelete := false, mach := Utf8.new, parseCnt := 0, state := .none,
    argc := 0, argv := List.replicate 16 0, csiFlags := 0, oscCb := false, oscLen := 0,
    oscArg := List.replicate 128 0, mouseCb := false, mouseMode := 0, mouseEvent := 0, mouseLastCol := 0,
    mouseLastRow := 0, customPalette := none, palette := getPalette none none, defAttr := d, cattr := Attr.zero,
    flags := 0, gl := .g0, gr := .g0, glt := none, grt := none, g0 := .unicodeLower, g1 := .unicodeLower,
    g2 := .unicodeLower, g3 := .unicodeLower,
    saved := { cursorX := 0, cursorY := 0, cattr := Attr.zero, gl := .g0, gr := .g0, wrapMode := false,
               originMode := false },
    altX := 0, altY := 0, sg := sg, log := [] }

/-- `tsm_vte_new` (src/tsm/tsm-vte.c:459-507) with valid arguments, if memory is available. -/
def new (s : Screen) (sg : Bool) : R Vte := do
  let d ← toRgb (getPalette none none) { Attr.zero with fccode := 16, bccode := 17 }
  let v ← (blank s sg d).reset
  v.scr (.eraseScreen false)

/-! ### Histories of calls -/

/-- A call of a function of the emulator, or of the screen it uses
(src/tsm/libtsm.h:192-266, 416-519). Functions that only read are left out. -/
inductive Call where
  | input (b : List UInt8)
  | keyboard (keysym ascii mods unicode : Nat)
  | mouse (cx cy px py button event modifiers : Nat)
  | reset
  | hardReset
  | setPalette (name : Option String) (mem : Bool)
  | setCustomPalette (p : Option Palette) (mem : Bool)
  | setBsDelete (on : Bool)
  | setOscCb (on : Bool)
  | setMouseCb (on : Bool)
  | screen (c : Screen.Call)

/-- Execute a call (src/tsm/libtsm.h:416-519); return values are dropped. -/
def Call.run (v : Vte) : Call → R Vte
  | .input b => v.input b
  | .keyboard k a m u => do let r ← v.keyboard k a m u; pure r.1
  | .mouse cx cy px py b e m => do let r ← v.mouse cx cy px py b e m; pure r.1
  | .reset => v.reset
  | .hardReset => v.hardReset
  | .setPalette n mem => v.setPalette n mem
  | .setCustomPalette p mem => v.setCustomPalette p mem
  | .setBsDelete on => .ok { v with bsDelete := on }
  | .setOscCb on => .ok { v with oscCb := on }
  | .setMouseCb on => .ok { v with mouseCb := on }
  | .screen c => v.scr c

/-- Execute calls one after the other (src/tsm/libtsm.h:416-519). -/
def runAll (v : Vte) : List Call → R Vte
  | [] => .ok v
  | c :: cs => do
    let v ← c.run v
    v.runAll cs

end Vte
end Verif
