import Verif.Model.Shared.PtySetup
import Verif.Spec.Session

/-!
# Typing lines

The line discipline of Linux in canonical mode, and what a user means by typing.
-/

namespace Verif

/-- The attributes are usual ones: Return is translated, and the other characters are control characters that are not Backspace and
not Return. -/
def Termios.Usual (t : Termios) : Prop := t.icrnl = true ∧ ∀ b ∈ t.others, b.toNat < 32 ∧ b ≠ 8 ∧ b ≠ 10

/-- The line being typed, and the lines a program can read. -/
structure Ldisc where
  line : List UInt8
  lines : List (List UInt8)
deriving DecidableEq, Repr

namespace Ldisc

/-- A continuation byte of UTF-8. -/
def isCont (b : UInt8) : Bool := decide (128 ≤ b.toNat ∧ b.toNat < 192)

/-- Removing the last character of a line that is given from its end. -/
def eraseRev : List UInt8 → Option (List UInt8)
  | [] => none
  | b :: r => if isCont b then eraseRev r else some r

/-- The character for erasing removes the last byte; with IUTF8 all bytes of the last character, and nothing if there is no
whole character (`eraser` in drivers/tty/n_tty.c of Linux). -/
def erase (utf8 : Bool) (l : List UInt8) : List UInt8 :=
  if utf8 then
    match eraseRev l.reverse with
    | some r => r.reverse
    | none => l
  else l.dropLast

/-- One byte that arrives, after the translation of Return. Characters that send signals, stop the output, drop the line, end the input or quote are not described
(`none`). A line has room for 4095 bytes, further ones are dropped. -/
def put (t : Termios) (s : Ldisc) (c : UInt8) : Option Ldisc :=
  if c ∈ t.others then none
  else if c = t.verase then some { s with line := erase t.iutf8 s.line }
  else if c = 10 then some { line := [], lines := s.lines ++ [s.line ++ [10]] }
  else some { s with line := if s.line.length < 4095 then s.line ++ [c] else s.line }

/-- One byte that arrives; ICRNL translates Return to a line feed. -/
def feed (t : Termios) (s : Ldisc) (b : UInt8) : Option Ldisc := s.put t (if b = 13 ∧ t.icrnl = true then 10 else b)

/-- All bytes. -/
def feedAll (t : Termios) : Ldisc → List UInt8 → Option Ldisc
  | s, [] => some s
  | s, b :: bs => (s.feed t b).bind fun s => feedAll t s bs

end Ldisc

/-- What the user does: type a character, Backspace, or Return. -/
inductive Stroke where
  | char (c : Nat)
  | back
  | enter
deriving DecidableEq, Repr

namespace Stroke

/-- What the user sees as the line typed so far and the finished lines. -/
def edit : List Nat × List (List Nat) → Stroke → List Nat × List (List Nat)
  | (cur, ls), .char c => (cur ++ [c], ls)
  | (cur, ls), .back => (cur.dropLast, ls)
  | (cur, ls), .enter => ([], ls ++ [cur])

/-- A text in UTF-8. -/
def text (l : List Nat) : List UInt8 := l.flatMap Vte.utf8

/-- The terminal of the child for a user's lines. -/
def disc (x : List Nat × List (List Nat)) : Ldisc := { line := text x.1, lines := x.2.map fun l => text l ++ [10] }

/-- A character that is no control character and has a UTF-8 form, or another key. -/
def Graphic : Stroke → Prop
  | .char c => 32 ≤ c ∧ Spec.Utf8.Encodable c
  | _ => True

/-- Characters are graphic, and a line never gets longer than 4095 bytes. -/
def Fits : List Nat × List (List Nat) → List Stroke → Prop
  | _, [] => True
  | x, s :: ss => s.Graphic ∧ (text (edit x s).1).length ≤ 4095 ∧ Fits (edit x s) ss

/-- The key events of a stroke, as GDK reports them, without Control and Alt. -/
def Key (s : Stroke) (state : BitVec 32) (keyval ucs : Nat) : Prop :=
  state.getLsbD 2 = false ∧ state.getLsbD 3 = false ∧
    match s with
    | .char c => ucs = c ∧ ∀ m, Keys.special m keyval = none
    | .back => keyval = 0xff08
    | .enter => keyval = 0xff0d

/-- In a session (see C108) the user types the strokes, and the program does not ask the terminal for anything and does not ask it to
send a line feed for Return. -/
inductive Typed : Canvas → List Gtk.Turn → List Stroke → Prop
  | done (c : Canvas) : Typed c [] []
  | prints {c : Canvas} {l : List Cmd} {es : List Gtk.Wid.Ev} {ts : List Gtk.Turn} {ss : List Stroke} :
      (c.replies l).flatten = [] → Typed (c.run l) ts ss → Typed c (.prints l es :: ts) ss
  | types {c : Canvas} {s : Stroke} {state : BitVec 32} {tr : Option (Nat × BitVec 32)} {keyval ucs : Nat} {ts : List Gtk.Turn}
      {ss : List Stroke} : s.Key state keyval ucs → c.newline = false → Typed c ts ss → Typed c (.types state tr keyval ucs :: ts) (s :: ss)
  | pages {c : Canvas} {state : BitVec 32} {tr : Option (Nat × BitVec 32)} {keyval ucs : Nat} {ts : List Gtk.Turn}
      {ss : List Stroke} : Typed c ts ss → Typed c (.pages state tr keyval ucs :: ts) ss

end Stroke
end Verif
