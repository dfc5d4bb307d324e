import Verif.Model.VteApi
import Verif.Spec.Reachable

/-!
# Reachable states of the terminal emulator
-/

namespace Verif
namespace Vte

/-- The arguments have their C types; for calls of the screen see there. A custom palette has
18 entries. -/
def Call.Valid : Call → Prop
  | .setCustomPalette (some p) _ => p.length = 18
  | .screen c => c.Valid
  | _ => True

/-- `v` is the result of creating an emulator on any screen, on a platform with either
signedness of `char`, and of any number of calls of the emulator and of its screen. -/
def Reachable (v : Vte) : Prop :=
  ∃ (s : Screen) (sg : Bool) (v0 : Vte) (cs : List Call), s.Reachable ∧ new s sg = .ok v0 ∧
    (∀ c ∈ cs, c.Valid) ∧ v0.runAll cs = .ok v

/-- The character the parser gets for byte `b`, if the byte completes one: the byte without its
top bit in 7-bit mode, the byte converted from `char` in 8-bit mode, and the decoded character
otherwise. -/
def rawOf (v : Vte) (b : UInt8) : Option Nat :=
  if v.f7bit then some (b.toNat &&& 0x7f)
  else if v.f8bit then some (Utf8.conv v.sg b)
  else
    if (Utf8.feed v.sg v.mach b).state = .accept ∨ (Utf8.feed v.sg v.mach b).state = .reject then
      some (Utf8.get (Utf8.feed v.sg v.mach b))
    else none

/-- The state of the decoder after byte `b`. -/
def machOf (v : Vte) (b : UInt8) : Utf8.Mach :=
  if v.f7bit ∨ v.f8bit then v.mach else Utf8.feed v.sg v.mach b

/-- The decoder is not in the middle of a UTF-8 character (it is not used at all in the 7-bit
and 8-bit modes). -/
def Between (v : Vte) : Prop :=
  v.f7bit = true ∨ v.f8bit = true ∨ v.mach.state = .start ∨ v.mach.state = .accept ∨ v.mach.state = .reject

instance (v : Vte) : Decidable (Between v) := by unfold Between; infer_instance

/-- Only the state of decoder and parser may differ. In particular screen, modes, attributes,
character sets, saved cursor and callbacks are the same. -/
def SameButParser (v v' : Vte) : Prop :=
  v' = { v with
    mach := v'.mach, state := v'.state, argc := v'.argc, argv := v'.argv, csiFlags := v'.csiFlags
    oscLen := v'.oscLen, oscArg := v'.oscArg }

/-- What leaving the current state of the parser delivers: an OSC string that is being
collected, if the callback is set. -/
def pendingOsc (v : Vte) : List Event :=
  if v.state = .oscString ∧ v.oscCb = true then [.osc (v.oscArg.take v.oscLen)] else []

/-- The effect of a sequence that has been read completely: the screen is `s`, the events `evs`
have happened (after an OSC string that was interrupted has been delivered), and nothing else
outside of decoder and parser has changed. -/
def Effect (v v' : Vte) (s : Screen) (evs : List Event) : Prop :=
  SameButParser { v with con := s, log := v.log ++ v.pendingOsc ++ evs } v'

/-- The emulator with all modes, attributes and character sets as after power-on: local echo, 7-bit
and 8-bit mode, insert mode, application keys and mouse reports off; visible text cursor (9), key
repeat (13), no local echo (8), auto-wrap (12) and background colour erase (15) on. The palette,
the callbacks and what has happened so far are those of `v`. -/
def initialModes (v : Vte) : Vte :=
  { v with
    flags := 0x0000b300#32
    cattr := v.defAttr
    gl := .g0, gr := .g1, glt := none, grt := none
    g0 := .unicodeLower, g1 := .unicodeUpper, g2 := .unicodeLower, g3 := .unicodeUpper
    saved :=
      { cursorX := 0, cursorY := 0, cattr := v.defAttr, gl := .g0, gr := .g1, wrapMode := true
        originMode := false }
    mouseMode := 0, mouseEvent := 0, mouseLastCol := 0, mouseLastRow := 0 }

/-- A grid of blank cells with attributes `a`. -/
def blankGrid (w h : Nat) (a : Attr) : Grid := fun i j => if i < h ∧ j < w then some ⟨0, 1, a⟩ else none

/-- The bytes `bs` lead from `v` to `v'`, and after each of them the alternate screen is shown. -/
inductive OnAlt : Vte → List UInt8 → Vte → Prop
  | nil (v : Vte) : OnAlt v [] v
  | cons {v w u : Vte} {b : UInt8} {bs : List UInt8} : v.input [b] = .ok w → w.con.useAlt = true → OnAlt w bs u →
      OnAlt v (b :: bs) u

/-- `b` is an ASCII digit. -/
def IsDigit (b : UInt8) : Prop := 48 ≤ b.toNat ∧ b.toNat ≤ 57

/-- The strings `qs` separated by semicolons. -/
def joined : List (List UInt8) → List UInt8
  | [] => []
  | [q] => q
  | q :: q' :: qs => q ++ 59 :: joined (q' :: qs)

/-- The number written by a string of decimal digits. -/
def number (q : List UInt8) : Nat := q.foldl (fun a d => 10 * a + (d.toNat - 48)) 0

/-- The value of a parameter: absent (-1) for the empty string; further digits are ignored once
the value exceeds 65535. -/
def value (q : List UInt8) : Int :=
  if q = [] then -1
  else q.foldl (fun a d => if 65535 < a then a else 10 * a + ((d.toNat : Int) - 48)) 0

/-- The first 16 values, the missing ones being -1. -/
def padded (l : List Int) : List Int := (l ++ List.replicate 16 (-1)).take 16

/-- The parameters of an SGR sequence: at most 16, and 0 if there is none. -/
def sgrParams (qs : List (List UInt8)) : List Int := if qs = [[]] then [0] else (qs.map value).take 16

end Vte
end Verif
