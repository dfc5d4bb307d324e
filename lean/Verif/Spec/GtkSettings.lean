import Verif.Model.Gtk.Settings
import Verif.Spec.Widget
import Verif.Spec.Picture

/-!
# Properties of the widget and their values
-/

namespace Verif.Gtk
open Verif

/-- The property that is set. -/
def Setting.name : Setting → Property
  | .font _ => .font
  | .sbSize _ => .sbSize
  | .antiAliasing _ => .antiAliasing
  | .subpixelOrder _ => .subpixelOrder
  | .showDirty _ => .showDirty
  | .debug _ => .debug

/-- The value is one of those that exist. -/
def Setting.Known : Setting → Prop
  | .antiAliasing s => s = some "default" ∨ s = some "none" ∨ s = some "gray" ∨ s = some "subpixel"
  | .subpixelOrder s => s = some "default" ∨ s = some "rgb" ∨ s = some "bgr" ∨ s = some "vrgb" ∨ s = some "vbgr"
  | _ => True

/-- The value has its type. -/
def Setting.Typed : Setting → Prop
  | .sbSize n => n < 4294967296
  | _ => True

/-- No string is missing. -/
def Setting.Given : Setting → Prop
  | .font s | .antiAliasing s | .subpixelOrder s => s ≠ none
  | _ => True

/-- The event is not the change of a property and not the start of a child. -/
def Wid.Ev.Other : Wid.Ev → Prop
  | .font _ | .sbSize _ | .showDirty _ | .fork _ => False
  | _ => True

def Term.Ev.Valid : Term.Ev → Prop
  | .set s => s.Typed
  | .fork => True
  | .other e => e.Valid ∧ e.Other

/-- Faces are made as `gtktsm_face_new` does. -/
def Maker.Fresh (mk : Maker) : Prop := ∀ d a o fs, mk d a o = some fs → fs.Fresh

/-- `t` is a widget with its properties after its creation and any events. -/
def Term.Live (mk : Maker) (ink : Ink) (t : Term) : Prop :=
  ∃ (allocOk : Nat → Bool) (s : Screen) (sg : Bool) (mem : Nat → Bool) (t0 : Term) (es : List Term.Ev),
    Screen.new allocOk = .ok (some s) ∧ Term.init mk ink s sg mem = .ok t0 ∧ (∀ e ∈ es, e.Valid) ∧ Term.runAll mk ink es t0 = .ok t

end Verif.Gtk
