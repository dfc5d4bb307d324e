import Verif.Model.Gtk.Widget
import Verif.Spec.Gtk
import Verif.Spec.Render
import Verif.Spec.Trace
import Verif.Spec.Vte

/-!
# Widgets that can exist, and what passes through them
-/

namespace Verif.Gtk
open Verif

/-- The arguments have their C types; windows and cells have non-negative sizes, and the faces are what
`gtktsm_face_new` can make. -/
def Wid.Ev.Valid : Wid.Ev → Prop
  | .configure w h _ => w < 2147483648 ∧ h < 2147483648
  | .font new => ∀ fs, new = some fs → fs.Fresh
  | .fork new => ∀ fs, new = some fs → fs.Fresh
  | .sbSize n => n < 4294967296
  | .key _ _ k u => k < 4294967296 ∧ u < 4294967296
  | .button _ _ t _ _ => t < 4294967296
  | _ => True

/-- Windows have less than 2^31 bytes of pixels, and the mouse is not left of or above the window. -/
def Wid.Ev.Fits : Wid.Ev → Prop
  | .configure w h _ => 4 * (max w 1 * max h 1) < 2147483648
  | .button _ _ _ x y => (0 ≤ x ∧ x < 281474976710656) ∧ 0 ≤ y ∧ y < 281474976710656
  | .motion x y => (0 ≤ x ∧ x < 281474976710656) ∧ 0 ≤ y ∧ y < 281474976710656
  | _ => True

/-- Events for which the emulator is given bytes or keys. -/
def Wid.Ev.Feeds : Wid.Ev → Bool
  | .key .. | .dispatch .. | .idle .. => true
  | _ => false

/-- Events for which memory or a font is needed. -/
def Wid.Ev.Allocates : Wid.Ev → Bool
  | .configure .. | .font _ | .fork _ => true
  | _ => false

/-- `w` is a widget after its creation and any events. -/
def Live (ink : Ink) (w : Wid) : Prop :=
  ∃ (allocOk : Nat → Bool) (s : Screen) (sg : Bool) (mem : Nat → Bool) (w0 : Wid) (es : List Wid.Ev),
    Screen.new allocOk = .ok (some s) ∧ Wid.init s sg mem = .ok w0 ∧ (∀ e ∈ es, e.Valid) ∧ Wid.runAll ink es w0 = .ok w

/-- The bytes that the child has written. -/
def childBytes : List Wid.Ev → List UInt8
  | [] => []
  | .child d :: es => d ++ childBytes es
  | _ :: es => childBytes es

/-- The bytes that an emulator was given. -/
def inputs : List Vte.Call → List UInt8
  | [] => []
  | .input d :: cs => d ++ inputs cs
  | _ :: cs => inputs cs

/-- The new title, if an OSC string sets one: the text after `2;` up to a zero. -/
def title (b : List UInt8) : Option (List UInt8) :=
  if b.take 2 = [0x32, 0x3b] then some ((b.drop 2).takeWhile (· ≠ 0)) else none

/-- The titles set by what the emulator reports. -/
def setTitles : List Event → List (List UInt8)
  | [] => []
  | .osc b :: es => (title b).toList ++ setTitles es
  | _ :: es => setTitles es

/-- The position (in 1/65536 pixels) is on a cell of the screen. -/
structure Inside (v : View) (fs : Faces) (x y : Int) : Prop where
  x0 : 0 ≤ x
  y0 : 0 ≤ y
  x1 : x < 65536 * (fs.regular.width * v.sizeX : Nat)
  y1 : y < 65536 * (fs.regular.height * v.sizeY : Nat)

/-- `p` is the place in the document that is displayed at a position of the mouse. -/
structure Under (v : View) (fs : Faces) (x y : Int) (p : SelPos) : Prop where
  column : (p.x : Int) = x / (65536 * fs.regular.width)
  row : (v.docRow p : Int) = v.topIndex + y / (65536 * fs.regular.height)
  anchored : v.Anchored p

/-- Of Shift (0), Lock (1), Control (2), Alt (3) and Super (6), only Shift is held and was not used up by the translation of
the key. -/
def OnlyShift (state cmod : BitVec 32) : Prop :=
  ∀ i, i = 0 ∨ i = 1 ∨ i = 2 ∨ i = 3 ∨ i = 6 → ((state.getLsbD i = true ∧ cmod.getLsbD i = false) ↔ i = 0)

/-- The first line that is displayed after moving through the scrollback with one of the keys Up, Down, Page_Up and
Page_Down. -/
def scrolled (v : View) (key : Nat) : Option Nat :=
  if key = 0xff52 then some (v.topIndex - 1)
  else if key = 0xff54 then some (min (v.topIndex + 1) v.sb.length)
  else if key = 0xff55 then some (v.topIndex - v.sizeY)
  else if key = 0xff56 then some (min (v.topIndex + v.sizeY) v.sb.length)
  else none

/-- The key with its modifiers moves through the scrollback. -/
def Scrolls (v : View) (state : BitVec 32) (tr : Option (Nat × BitVec 32)) : Prop :=
  ∃ key cmod, tr = some (key, cmod) ∧ OnlyShift state cmod ∧ (scrolled v key).isSome = true

/-- The calls of the emulator and its screen that a widget makes for an event. -/
def Makes : Wid.Ev → Vte.Call → Prop
  | .configure _ _ _, .screen (.resize _ _) => True
  | .draw, .screen .draw => True
  | .sbSize n, .screen (.setMaxSb m) => m = n
  | .key _ _ k _, .keyboard k' _ _ _ => k' = k
  | .key _ _ _ _, .screen (.sbUp n) => n = 1
  | .key _ _ _ _, .screen (.sbDown n) => n = 1
  | .key _ _ _ _, .screen (.sbPageUp n) => n = 1
  | .key _ _ _ _, .screen (.sbPageDown n) => n = 1
  | .key _ _ _ _, .screen .sbReset => True
  | .button _ _ _ _ _, .screen .selectionReset => True
  | .button _ _ _ _ _, .screen (.selectionStart _ _) => True
  | .motion _ _, .screen (.selectionStart _ _) => True
  | .motion _ _, .screen (.selectionTarget _ _) => True
  | .dispatch _ _ _ _, .input _ => True
  | .idle _ _ _ _, .input _ => True
  | _, _ => False

end Verif.Gtk
