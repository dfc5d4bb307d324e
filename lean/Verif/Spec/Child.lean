import Verif.Spec.Widget

/-!
C104: the programs that run in a widget one after the other.
-/

namespace Verif.Gtk

/-- What each program has printed, in the order of the programs: a program is started while none runs, and ends at its
`exit`; `cur` is what the running program, if any, has printed before. -/
def programs (cur : Option (List UInt8)) : List Wid.Ev → List (List UInt8)
  | [] => cur.toList
  | .fork _ :: es => programs (some (cur.getD [])) es
  | .child d :: es => programs (cur.map (· ++ d)) es
  | .exit :: es => cur.toList ++ programs none es
  | _ :: es => programs cur es

/-- The bytes that were read from the pty of the running program. -/
def readBytes (p : Option Tty) : List UInt8 := (p.map (·.io.got)).getD []

/-- No running program has printed anything that was not read. -/
def AllRead (w : Wid) : Prop := ∀ t, w.pty = some t → t.io.inq = []

end Verif.Gtk
