import Verif.Spec.Text

/-!
# What keys and mouse events send

The strings of a VT220 or xterm keyboard, given by the meaning of the keys, and the two encodings
of mouse events, given by decoders.
-/

namespace Verif
namespace Keys

/-! ### Keyboard -/

/-- Everything the string of a key depends on: modifiers, and modes of the terminal. -/
structure Modes where
  shift : Bool
  ctrl : Bool
  /-- keypad application mode -/
  keypad : Bool
  /-- cursor key application mode -/
  cursor : Bool
  /-- line-feed/new-line mode -/
  newline : Bool
  /-- the backspace key sends DEL -/
  bsDelete : Bool

/-- How characters are sent. -/
inductive Encoding where
  | ascii | latin1 | utf8

/-- `ESC [ … ` -/
def csi (b : List UInt8) : List UInt8 := [27, 91] ++ b

/-- `ESC O c` -/
def ss3 (c : Nat) : List UInt8 := [27, 79, UInt8.ofNat c]

/-- `ESC [ n ~`, for a number with one or two digits -/
def tilde (n : Nat) : List UInt8 :=
  csi ((if n < 10 then [UInt8.ofNat (48 + n)] else [UInt8.ofNat (48 + n / 10), UInt8.ofNat (48 + n % 10)]) ++ [126])

/-- The numbers of the function keys F5 to F20: 15, 17-21, 23-26, 28, 29, 31-34. -/
def fnumber (n : Nat) : Nat :=
  if n = 5 then 15 else if n ≤ 10 then n + 11 else if n ≤ 14 then n + 12 else if n ≤ 16 then n + 13 else n + 14

/-- The function keys F1 to F20 without Shift: F1 to F4 are those of the VT100. -/
def fkey (n : Nat) : List UInt8 := if n ≤ 4 then ss3 (0x4f + n) else tilde (fnumber n)

/-- With Shift: the function key ten further on, and beyond F10 the parameter 2. -/
def shiftFkey (n : Nat) : List UInt8 :=
  if n ≤ 10 then fkey (n + 10)
  else csi ([UInt8.ofNat (48 + fnumber n / 10), UInt8.ofNat (48 + fnumber n % 10)] ++ [59, 50, 126])

/-- A key of the keypad that is labelled with the ASCII character `c` and has the code `a` in
application mode. -/
def pad (m : Modes) (a c : Nat) : List UInt8 := if m.keypad then ss3 a else [UInt8.ofNat c]

/-- The arrow keys, `c` is the final character. -/
def arrow (m : Modes) (c : Nat) : List UInt8 :=
  if m.ctrl then csi [49, 59, 53, UInt8.ofNat c] else if m.cursor then ss3 c else csi [UInt8.ofNat c]

/-- Home and End. -/
def homeEnd (m : Modes) (c : Nat) : List UInt8 := if m.cursor then ss3 c else csi [UInt8.ofNat c]

/-- The return key. -/
def enter (m : Modes) : List UInt8 := if m.newline then [13, 10] else [13]

/-- The operators of the keypad: star, plus, comma, minus, full stop, slash. On a VT220 the code in
application mode is that of the ASCII character plus 0x40; the emulator has exchanged those of star
and slash. -/
def padCode (c : Nat) : Nat := if c = 42 then 0x6f else if c = 47 then 0x6a else c + 0x40

/-- Keys that are not characters, by their keysym (X11/keysymdef.h). -/
def special (m : Modes) (k : Nat) : Option (List UInt8) :=
  if k = 0xff08 then some [if m.bsDelete then 127 else 8] -- BackSpace
  else if k = 0xff09 ∨ k = 0xff89 then some [9] -- Tab, KP_Tab
  else if k = 0xfe20 then some (csi [90]) -- ISO_Left_Tab
  else if k = 0xff0a then some [10] -- Linefeed
  else if k = 0xff0b then some [11] -- Clear
  else if k = 0xff15 then some [21] -- Sys_Req
  else if k = 0xff1b then some [27] -- Escape
  else if k = 0xff0d then some (enter m) -- Return
  else if k = 0xff8d then some (if m.keypad then ss3 0x4d else enter m) -- KP_Enter
  else if k = 0xff80 then some [32] -- KP_Space
  else if k = 0xff68 then some (tilde 1) -- Find
  else if k = 0xff63 then some (tilde 2) -- Insert
  else if k = 0xffff then some (tilde 3) -- Delete
  else if k = 0xff60 then some (tilde 4) -- Select
  else if k = 0xff55 ∨ k = 0xff9a then some (tilde 5) -- Page_Up, KP_Page_Up
  else if k = 0xff56 ∨ k = 0xff9b then some (tilde 6) -- Page_Down, KP_Page_Down
  else if k = 0xff52 ∨ k = 0xff97 then some (arrow m 0x41) -- Up, KP_Up
  else if k = 0xff54 ∨ k = 0xff99 then some (arrow m 0x42) -- Down, KP_Down
  else if k = 0xff53 ∨ k = 0xff98 then some (arrow m 0x43) -- Right, KP_Right
  else if k = 0xff51 ∨ k = 0xff96 then some (arrow m 0x44) -- Left, KP_Left
  else if k = 0xff50 ∨ k = 0xff95 then some (homeEnd m 0x48) -- Home, KP_Home
  else if k = 0xff57 ∨ k = 0xff9c then some (homeEnd m 0x46) -- End, KP_End
  else if k = 0xff9e then some (pad m 0x70 48) -- KP_Insert
  else if k = 0xff9f then some (pad m 0x6e 46) -- KP_Delete
  else if 0xffb0 ≤ k ∧ k ≤ 0xffb9 then some (pad m (0x70 + (k - 0xffb0)) (48 + (k - 0xffb0))) -- KP_0 to KP_9
  else if 0xffaa ≤ k ∧ k ≤ 0xffaf then some (pad m (padCode (k - 0xff80)) (k - 0xff80)) -- KP_Multiply to KP_Divide
  else if k = 0xffbd then some (pad m 0x6a 47) -- KP_Equal
  else if 0xffbe ≤ k ∧ k ≤ 0xffd1 then -- F1 to F20
    some (if m.shift then shiftFkey (k - 0xffbd) else fkey (k - 0xffbd))
  else if 0xff91 ≤ k ∧ k ≤ 0xff94 then -- KP_F1 to KP_F4
    some (if m.shift then shiftFkey (k - 0xff90) else fkey (k - 0xff90))
  else none

/-- The control character for an ASCII character: letters and brackets lose two bits; space and the
digits 2 to 8 stand for the ones without a letter. -/
def control (c : Nat) : Option UInt8 :=
  if (0x41 ≤ c ∧ c ≤ 0x5a) ∨ (0x61 ≤ c ∧ c ≤ 0x7a) then some (UInt8.ofNat (c % 32))
  else if c = 0x20 ∨ c = 0x32 then some 0
  else if 0x33 ≤ c ∧ c ≤ 0x37 then some (UInt8.ofNat (c - 0x33 + 27))
  else if c = 0x38 then some 127
  else if (0x5b ≤ c ∧ c ≤ 0x5d) ∨ (0x7b ≤ c ∧ c ≤ 0x7d) then some (UInt8.ofNat (c % 32))
  else if c = 0x60 ∨ c = 0x7e then some 30
  else if c = 0x2f ∨ c = 0x3f then some 31
  else none

/-- A character as sent; characters that do not exist in the encoding are sent as a question mark,
those without a UTF-8 form as nothing. -/
def character (e : Encoding) (u : Nat) : List UInt8 :=
  match e with
  | .ascii => if u < 128 then [UInt8.ofNat u] else [0x3f]
  | .latin1 => if u < 256 then [UInt8.ofNat u] else [0x3f]
  | .utf8 => if Spec.Utf8.Encodable u then Vte.utf8 u else []

/-- What a key sends: a control character if Control is held and there is one, the string of a
special key, the character if there is one (the value -1 means that there is none). -/
def string (m : Modes) (e : Encoding) (keysym ascii unicode : Nat) : Option (List UInt8) :=
  match (if m.ctrl then control (if ascii = 0 then keysym else ascii) else none) with
  | some b => some [b]
  | none =>
    match special m keysym with
    | some b => some b
    | none => if unicode = 0xffffffff then none else some (character e unicode)

/-- The modes and modifiers of a key event: Shift is bit 0 and Control bit 2 of the modifiers. -/
def modes (v : Vte) (mods : Nat) : Modes :=
  { shift := mods.testBit 0, ctrl := mods.testBit 2, keypad := v.fKeypad, cursor := v.fCursorKey
    newline := v.fNewline, bsDelete := v.bsDelete }

/-- The active encoding. -/
def encoding (v : Vte) : Encoding := if v.f7bit then .ascii else if v.f8bit then .latin1 else .utf8

end Keys

namespace Mouse

/-! ### Mouse -/

instance (b : UInt8) : Decidable (Vte.IsDigit b) := by unfold Vte.IsDigit; infer_instance

/-- Reading a decimal number from the front. -/
def digits (bs : List UInt8) : Nat × List UInt8 :=
  (Vte.number (bs.takeWhile fun b => decide (Vte.IsDigit b)), bs.dropWhile fun b => decide (Vte.IsDigit b))

/-- Decoding `ESC [ < b ; x ; y M` or `m`: code of the button, coordinates, and whether the button is
down. -/
def decodeSgr (bs : List UInt8) : Option (Nat × Nat × Nat × Bool) :=
  match bs with
  | 27 :: 91 :: 60 :: r =>
    match (digits r).2 with
    | 59 :: r1 =>
      match (digits r1).2 with
      | 59 :: r2 =>
        match (digits r2).2 with
        | [77] => some ((digits r).1, (digits r1).1, (digits r2).1, true)
        | [109] => some ((digits r).1, (digits r1).1, (digits r2).1, false)
        | _ => none
      | _ => none
    | _ => none
  | _ => none

/-- The buttons: left, middle, right, wheel up, wheel down (src/tsm/libtsm.h:385-389). -/
def buttons : List Nat := [0, 1, 2, 4, 5]

/-- The sets of modifiers Shift (4), Meta (8), Control (16) (src/tsm/libtsm.h:392-394). -/
def modifiers : List Nat := [0, 4, 8, 12, 16, 20, 24, 28]

/-- Modifiers and button of a code in SGR mode; the wheel has the codes 64 and 65. -/
def buttonOf (b : Nat) : Nat × Nat :=
  (if b / 32 = 2 then 4 + b % 4 else b % 4, b % 32 / 4 * 4)

/-- The three bytes of an X10 report after `ESC [ M`: button with modifiers, column and row, each with
32 added, and coordinates counted from 1; larger coordinates than 222 are sent as 255. -/
def x10 (b x y : Nat) : List UInt8 :=
  [27, 91, 77, UInt8.ofNat (b + 32), UInt8.ofNat (min (x + 33) 255), UInt8.ofNat (min (y + 33) 255)]

/-- The outcome `x` of an event in state `v` is that `b` is sent as the last thing that happens. Without
local echo it is also the only thing; with local echo `b` is handled as input first. -/
def Reports (v : Vte) (b : List UInt8) (x : R (Vte × Bool)) : Prop :=
  match x with
  | .ok (v', r) =>
    r = true ∧ (∃ evs, v'.log = v.log ++ evs ++ [.write b]) ∧
      (v.fNoEcho = true → v' = { v with log := v.log ++ [.write b] })
  | .error _ => v.fNoEcho = false

/-- An event of the mouse. -/
structure Ev where
  (cx cy px py button event modifiers : Nat)

/-- Motion, button 1 to 5 being pressed or released otherwise (src/tsm/libtsm.h:395-397). -/
def Ev.motion (e : Ev) : Bool := e.event.testBit 2

/-- Handling events one after the other; the second result are the cells of the motions for which
the emulator says that it has reported them. -/
def runEvents (v : Vte) : List Ev → R (Vte × List (Nat × Nat))
  | [] => .ok (v, [])
  | e :: es => do
    let (v1, r) ← v.mouse e.cx e.cy e.px e.py e.button e.event e.modifiers
    let (v2, l) ← runEvents v1 es
    pure (v2, if e.motion && r then (e.cx, e.cy) :: l else l)

/-- No two consecutive elements are equal. -/
def NoRepeat {α : Type} : List α → Prop
  | a :: b :: l => a ≠ b ∧ NoRepeat (b :: l)
  | _ => True

end Mouse
end Verif
