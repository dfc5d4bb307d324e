import Verif.Model.Gtk.App
import Verif.Spec.GtkSettings

/-!
# What the command line of gtktsm means
-/

namespace Verif.Gtk

/-- The arguments are among those that `--help` lists. -/
def Options.Accepted (o : Options) : Prop :=
  (∀ s, o.antiAliasing = some s → s = "none" ∨ s = "gray" ∨ s = "subpixel" ∨ s = "default") ∧
  ∀ s, o.subpixelOrder = some s → s = "rgb" ∨ s = "bgr" ∨ s = "vrgb" ∨ s = "vbgr" ∨ s = "default"

/-- The argument of `--sb-size` is a number of 32 bits (GOption checks this). -/
def Options.Fits (o : Options) : Prop := ∀ n, o.sbSize = some n → -2147483648 ≤ n ∧ n ≤ 2147483647

/-- The value of each property in the new window: what the option says, or else the default. -/
def Options.value (o : Options) : Property → Setting
  | .font => .font (some (o.font.getD "Monospace"))
  | .sbSize => .sbSize (match o.sbSize with | none => 2000 | some n => if n < 0 then 0 else n.toNat)
  | .antiAliasing => .antiAliasing (some (o.antiAliasing.getD "default"))
  | .subpixelOrder => .subpixelOrder (some (o.subpixelOrder.getD "default"))
  | .showDirty => .showDirty o.showDirty
  | .debug => .debug o.debug

/-- The program is the shell of the environment `e`, or `/bin/sh`, without arguments; it sees `e` and the type of the
terminal, and runs in the directory `dir`. -/
structure Prog.For (p : Prog) (e : Env) (dir : String) : Prop where
  path : p.path = match e "SHELL" with | some s => s | none => "/bin/sh"
  argv : p.argv = [p.path]
  term : p.env "TERM" = some "xterm-256color"
  color : p.env "COLORTERM" = some "gtktsm"
  env : ∀ k, k ≠ "TERM" → k ≠ "COLORTERM" → p.env k = e k
  dir : p.dir = dir

/-- The windows that are open. -/
def open_ (d : Option App) : List Win := match d with | none => [] | some a => a.windows

/-- The command is made of a new screen. -/
def Launch.Valid (c : Launch) : Prop := c.opts.Fits ∧ ∃ allocOk, Screen.new allocOk = .ok (some c.screen)

def DeskEv.Valid : DeskEv → Prop
  | .cmd c => c.Valid
  | .win _ e => e.Valid
  | .stopped _ => True

/-- `d` is what is running after any events, from nothing. -/
def Desk (mk : Maker) (ink : Ink) (d : Option App) : Prop :=
  ∃ es, (∀ e ∈ es, DeskEv.Valid e) ∧ deskAll mk ink es none = .ok d

end Verif.Gtk
