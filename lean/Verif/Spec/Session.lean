import Verif.Spec.Window
import Verif.Spec.Keys

/-!
# Sessions of a program with a user
-/

namespace Verif

/-- What the terminal sends for a key, in UTF-8: of the state, bit 0 is Shift, bit 2 Control and bit 3 Alt, which adds an ESC;
the character 0 means that the key has none. -/
def Canvas.keyed (c : Canvas) (del : Bool) (state : BitVec 32) (keyval ucs : Nat) : List UInt8 :=
  match Keys.string { shift := state.getLsbD 0, ctrl := state.getLsbD 2, keypad := c.keypad, cursor := c.arrows, newline := c.newline, bsDelete := del }
      .utf8 keyval 0 (if ucs = 0 then 0xffffffff else ucs) with
  | some b => (if state.getLsbD 3 then [27] else []) ++ b
  | none => []

namespace Gtk

/-- A program prints commands, which are read and drawn in some order `es`; the user types a key, or moves through the
scrollback with a key. -/
inductive Turn where
  | prints (l : List Cmd) (es : List Wid.Ev)
  | types (state : BitVec 32) (tr : Option (Nat × BitVec 32)) (keyval ucs : Nat)
  | pages (state : BitVec 32) (tr : Option (Nat × BitVec 32)) (keyval ucs : Nat)

/-- The events of a turn. -/
def Turn.events : Turn → List Wid.Ev
  | .prints _ es => es
  | .types state tr keyval ucs => [.key state tr keyval ucs]
  | .pages state tr keyval ucs => [.key state tr keyval ucs]

/-- The reference terminal after the turns. -/
def Turn.shown : Canvas → List Turn → Canvas
  | c, [] => c
  | c, .prints l _ :: ts => shown (c.run l) ts
  | c, _ :: ts => shown c ts

/-- What the program gets to read in the turns: the answers to its questions, and each key as the terminal sends it at that
moment. -/
def Turn.answers (del : Bool) : Canvas → List Turn → List UInt8
  | _, [] => []
  | c, .prints l _ :: ts => (c.replies l).flatten ++ answers del (c.run l) ts
  | c, .types state _ keyval ucs :: ts => c.keyed del state keyval ucs ++ answers del c ts
  | c, .pages .. :: ts => answers del c ts

/-- The turns fit the reference terminal: the commands are valid, tame (see C85) and without wide characters, and keys are typed
only while the terminal does not show them by itself. -/
def Turn.Fit : Canvas → List Turn → Prop
  | _, [] => True
  | c, .prints l _ :: ts => (∀ a ∈ l, a.Valid c.h ∧ a.Thin) ∧ c.TameAll l ∧ Fit (c.run l) ts
  | c, .types _ _ _ ucs :: ts => c.echo = false ∧ ucs < 0x80000000 ∧ Fit c ts
  | c, .pages .. :: ts => Fit c ts

/-- The commands are plain (see C85), the program does not ask for local echo, and characters are in range. -/
def Turn.Plain (h : Nat) : Turn → Prop
  | .prints l _ => ∀ a ∈ l, a.Valid h ∧ a.Plain ∧ a ≠ .echo true
  | .types _ _ _ ucs => ucs < 0x80000000
  | .pages .. => True

/-- The turns take place one after another: what the program prints is read completely before the next turn. -/
inductive Turn.Played (ink : Ink) : Wid → List Turn → Wid → Prop
  | done {w : Wid} : Played ink w [] w
  | prints {w w1 w' : Wid} {l : List Cmd} {es : List Wid.Ev} {ts : List Turn} : w.Watched ink es →
      childBytes es = l.flatMap Cmd.bytes → Wid.runAll ink es w = .ok w1 → (∀ t, w1.pty = some t → t.io.inq = []) →
      Played ink w1 ts w' → Played ink w (.prints l es :: ts) w'
  | types {w w1 w' : Wid} {state : BitVec 32} {tr : Option (Nat × BitVec 32)} {keyval ucs : Nat} {ts : List Turn} :
      (Wid.Ev.key state tr keyval ucs).Valid → ¬ Scrolls w.vte.con.view state tr → w.step ink (.key state tr keyval ucs) = .ok w1 →
      Played ink w1 ts w' → Played ink w (.types state tr keyval ucs :: ts) w'
  | pages {w w1 w' : Wid} {state : BitVec 32} {tr : Option (Nat × BitVec 32)} {keyval ucs : Nat} {ts : List Turn} :
      (Wid.Ev.key state tr keyval ucs).Valid → Scrolls w.vte.con.view state tr → w.step ink (.key state tr keyval ucs) = .ok w1 →
      Played ink w1 ts w' → Played ink w (.pages state tr keyval ucs :: ts) w'

end Gtk
end Verif
