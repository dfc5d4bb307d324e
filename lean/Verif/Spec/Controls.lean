import Verif.Spec.Text

/-!
# Control characters and control sequences

Which calls on the screen the control characters and the sequences that move the cursor or edit the screen stand
for. The tables follow ECMA-48 and the VT220 manual, not the code.
-/

namespace Verif
namespace Vte

/-- The states of the parser in which C0 control characters are executed: outside of strings. -/
def Executes : PState → Bool
  | .ground | .esc | .escInt | .csiEntry | .csiParam | .csiInt | .csiIgnore => true
  | _ => false

/-- The C0 control characters except SO, SI, CAN, SUB and ESC: calls on the screen and answers. `nl` is the mode
LNM. ENQ is answered with ACK; backspace, tabulator, line feed (also VT and FF) and carriage return act on the
screen; all others do nothing. -/
def c0 (nl : Bool) (g : Nat) : Option (List Screen.Call × List Event) :=
  if g = 0x05 then some ([], [.write [6]])
  else if g = 0x08 then some ([.moveLeft 1], [])
  else if g = 0x09 then some ([.tabRight 1], [])
  else if g = 0x0a ∨ g = 0x0b ∨ g = 0x0c then some ([if nl then .newline else .moveDown 1 true], [])
  else if g = 0x0d then some ([.moveLineHome], [])
  else if g = 0x0e ∨ g = 0x0f ∨ g = 0x18 ∨ g = 0x1a ∨ g = 0x1b then none
  else if g < 0x20 then some ([], [])
  else none

/-- The C1 control characters that act on the screen: index, next line, set tabulator, reverse index. -/
def c1 (g : Nat) : Option Screen.Call :=
  if g = 0x84 then some (.moveDown 1 true)
  else if g = 0x85 then some .newline
  else if g = 0x88 then some .setTabstop
  else if g = 0x8d then some (.moveUp 1 true)
  else none

/-- `x`, which started in `v`, is the effect of the calls `cs` on the screen, if these are defined, and the
events `evs`; the parser is in the ground state again. -/
def Does (v : Vte) (x : R Vte) (cs : List Screen.Call) (evs : List Event) : Prop :=
  match Screen.runAll cs v.con with
  | .ok s => ∃ v', x = .ok v' ∧ v'.state = .ground ∧ Effect v v' s evs
  | .error e => x = .error e

/-- Two outcomes are the same, except for what the parser remembers of sequences it has finished; that does not
matter in the ground state and in strings that are ignored. -/
def SameOutcome (x y : R Vte) : Prop :=
  match x, y with
  | .ok a, .ok b => SameButParser a b ∧ a.state = b.state ∧
      (a.state ≠ .ground ∧ a.state ≠ .stIgnore → a.argc = b.argc ∧ a.argv = b.argv ∧ a.csiFlags = b.csiFlags ∧ a.oscLen = b.oscLen ∧
        a.oscArg = b.oscArg)
  | .error a, .error b => a = b
  | _, _ => False

/-- The control sequences with one number `n`, 0 if it is left out, that act on the screen, by their last
character. `sel` tells whether the sequence has the mark `?`. -/
def editing (sel : Bool) (n : Nat) (b : Char) : Option (List Screen.Call) :=
  if b = 'J' then
    some (if n = 0 then [.eraseCursorToScreen sel] else if n = 1 then [.eraseScreenToCursor sel]
      else if n = 2 then [.eraseScreen sel] else [])
  else if b = 'K' then
    some (if n = 0 then [.eraseCursorToEnd sel] else if n = 1 then [.eraseHomeToCursor sel]
      else if n = 2 then [.eraseCurrentLine sel] else [])
  else if sel then none
  else if b = 'A' then some [.moveUp (max 1 n) false]
  else if b = 'B' then some [.moveDown (max 1 n) false]
  else if b = 'C' then some [.moveRight (max 1 n)]
  else if b = 'D' then some [.moveLeft (max 1 n)]
  else if b = 'E' then some [.moveDown (max 1 n) false, .moveLineHome]
  else if b = 'F' then some [.moveUp (max 1 n) false, .moveLineHome]
  else if b = 'I' then some [.tabRight (max 1 n)]
  else if b = 'Z' then some [.tabLeft (max 1 n)]
  else if b = '@' then some [.insertChars (max 1 n)]
  else if b = 'P' then some [.deleteChars (max 1 n)]
  else if b = 'L' then some [.insertLines (max 1 n)]
  else if b = 'M' then some [.deleteLines (max 1 n)]
  else if b = 'S' then some [.scrollUp (max 1 n)]
  else if b = 'T' then some [.scrollDown (max 1 n)]
  else if b = 'X' then some [.eraseChars (max 1 n)]
  else if b = 'g' then some (if n = 0 then [.resetTabstop] else if n = 3 then [.resetAllTabstops] else [])
  else none

end Vte
end Verif
