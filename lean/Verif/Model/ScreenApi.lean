import Verif.Model.Selection

/-!
# Histories of screen calls (src/tsm/libtsm.h:186-265)

`Call` lists the functions of the public screen API that take a screen and can
change it, `Call.run` dispatches to their models. Getters and
`tsm_screen_selection_copy` do not change the screen; the latter is treated
separately.
-/

namespace Verif
namespace Screen

/-- A call of the public screen API (src/tsm/libtsm.h:192-266). -/
inductive Call where
  | resize (x y : Nat)
  | setMargins (top bottom : Nat)
  | setMaxSb (max : Nat)
  | clearSb
  | sbUp (num : Nat)
  | sbDown (num : Nat)
  | sbPageUp (num : Nat)
  | sbPageDown (num : Nat)
  | sbReset
  | setDefAttr (a : Attr)
  | reset
  | setFlags (f : BitVec 32)
  | resetFlags (f : BitVec 32)
  | setTabstop
  | resetTabstop
  | resetAllTabstops
  | write (ch : Nat) (attr : Attr)
  | newline
  | scrollUp (num : Nat)
  | scrollDown (num : Nat)
  | moveTo (x y : Nat)
  | moveUp (num : Nat) (scroll : Bool)
  | moveDown (num : Nat) (scroll : Bool)
  | moveLeft (num : Nat)
  | moveRight (num : Nat)
  | moveLineEnd
  | moveLineHome
  | tabRight (num : Nat)
  | tabLeft (num : Nat)
  | insertLines (num : Nat)
  | deleteLines (num : Nat)
  | insertChars (num : Nat)
  | deleteChars (num : Nat)
  | eraseCursor
  | eraseChars (num : Nat)
  | eraseCursorToEnd (protect : Bool)
  | eraseHomeToCursor (protect : Bool)
  | eraseCurrentLine (protect : Bool)
  | eraseScreenToCursor (protect : Bool)
  | eraseCursorToScreen (protect : Bool)
  | eraseScreen (protect : Bool)
  | selectionReset
  | selectionStart (x y : Nat)
  | selectionTarget (x y : Nat)
  | draw
  deriving DecidableEq, Repr

/-- Execute a call (src/tsm/libtsm.h:192-266); results other than the screen are
dropped. -/
def Call.run (s : Screen) : Call → R Screen
  | .resize x y => do let r ← s.resize x y; return r.2
  | .setMargins t b => .ok (s.setMargins t b)
  | .setMaxSb m => s.setMaxSb m
  | .clearSb => .ok s.clearSb
  | .sbUp n => s.sbUp n
  | .sbDown n => s.sbDown n
  | .sbPageUp n => s.sbPageUp n
  | .sbPageDown n => s.sbPageDown n
  | .sbReset => .ok s.sbReset
  | .setDefAttr a => .ok (s.setDefAttr a)
  | .reset => s.reset
  | .setFlags f => s.setFlags f
  | .resetFlags f => s.resetFlags f
  | .setTabstop => s.setTabstop
  | .resetTabstop => s.resetTabstop
  | .resetAllTabstops => s.resetAllTabstops
  | .write ch a => s.write ch a
  | .newline => s.newline
  | .scrollUp n => s.scrollUp n
  | .scrollDown n => s.scrollDown n
  | .moveTo x y => s.moveTo x y
  | .moveUp n b => s.moveUp n b
  | .moveDown n b => s.moveDown n b
  | .moveLeft n => s.moveLeft n
  | .moveRight n => s.moveRight n
  | .moveLineEnd => s.moveLineEnd
  | .moveLineHome => s.moveLineHome
  | .tabRight n => s.tabRight n
  | .tabLeft n => s.tabLeft n
  | .insertLines n => s.insertLines n
  | .deleteLines n => s.deleteLines n
  | .insertChars n => s.insertChars n
  | .deleteChars n => s.deleteChars n
  | .eraseCursor => s.eraseCursor
  | .eraseChars n => s.eraseChars n
  | .eraseCursorToEnd b => s.eraseCursorToEnd b
  | .eraseHomeToCursor b => s.eraseHomeToCursor b
  | .eraseCurrentLine b => s.eraseCurrentLine b
  | .eraseScreenToCursor b => s.eraseScreenToCursor b
  | .eraseCursorToScreen b => s.eraseCursorToScreen b
  | .eraseScreen b => s.eraseScreen b
  | .selectionReset => .ok s.selectionReset
  | .selectionStart x y => .ok (s.selectionStart x y)
  | .selectionTarget x y => .ok (s.selectionTarget x y)
  | .draw => do let r ← s.draw; return r.2.2

/-- Execute calls one after the other (src/tsm/libtsm.h:192-266). -/
def runAll : List Call → Screen → R Screen
  | [], s => .ok s
  | c :: cs, s => do
    let s ← c.run s
    runAll cs s

/-- A screen fresh from `tsm_screen_new` (src/tsm/tsm-screen.c:477-524) after a
history of calls; `none` if the screen could not be created. -/
def history (allocOk : Nat → Bool) (cs : List Call) : R (Option Screen) := do
  match ← new allocOk with
  | none => return none
  | some s =>
    let s ← runAll cs s
    return some s

/-- The arguments are values of their C types (`unsigned int` is 32 bits wide)
and a screen dimension is below 2^30, so that `size_x * sizeof(struct cell)` and
the like stay in range on a 64-bit machine (src/tsm/libtsm.h:192-266). Dimensions
that large cannot be allocated in practice. -/
def Call.Valid : Call → Prop
  | .resize x y => x < 1073741824 ∧ y < 1073741824
  | .setMaxSb m => m < 4294967296
  | .moveUp n _ => n < 4294967296
  | _ => True

instance (c : Call) : Decidable c.Valid := by
  unfold Call.Valid; cases c <;> infer_instance

end Screen
end Verif
