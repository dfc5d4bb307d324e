import Verif.Model.VteApi

/-!
# What the embedder knows about the mouse

An emulator that has a callback for the mouse calls it with the kind of events it wants to get
(src/tsm/libtsm.h:360-363): none (0), presses and releases of buttons (1002), or also motions (1003), and with
whether it needs pixels.
-/

namespace Verif
namespace Mouse

/-- The last call of the callback of the mouse. -/
def told : List Event → Option (Nat × Bool)
  | [] => none
  | e :: es =>
    match told es, e with
    | some r, _ => some r
    | none, .mouse t p => some (t, p)
    | none, _ => none

/-- An embedder that has been told `t` passes an event on: those of buttons if tracking is on, motions only if
they are wanted. Without a call nothing is tracked. -/
def Passes (t : Option (Nat × Bool)) (event : Nat) : Prop :=
  match t with
  | none => False
  | some (k, _) => if event.testBit 2 then k = 1003 else k = 1002 ∨ k = 1003

instance (t : Option (Nat × Bool)) (event : Nat) : Decidable (Passes t event) := by
  unfold Passes
  split <;> infer_instance

/-- The callback is not removed. -/
def keepsCb : Vte.Call → Bool
  | .setMouseCb on => on
  | _ => true

/-- A program asks for reports in a certain encoding: X10 (9), SGR (1006), SGR with pixels (1016), or none (0); and
for events: none (0), buttons (1002), motions too (1003). -/
structure Wish where
  encoding : Nat
  events : Nat
  deriving DecidableEq, Repr

/-- The numbers of the modes. -/
def modes : List Nat := [9, 1002, 1003, 1006, 1016]

/-- What setting and resetting a mode makes of it. The encoding X10 implies reports of buttons, and forgets about
other requests. -/
def Wish.after (w : Wish) (set : Bool) (n : Nat) : Wish :=
  if n = 9 then ⟨if set then 9 else 0, 1002⟩
  else if n = 1002 ∨ n = 1003 then
    if w.encoding = 9 then ⟨9, 1002⟩ else ⟨w.encoding, if set then n else 0⟩
  else ⟨if set then n else 0, w.events⟩

/-- What the embedder is told when a mode is set or reset. -/
def Wish.notice (w : Wish) (set : Bool) (n : Nat) : List Event :=
  let w' := w.after set n
  if n = 9 ∨ (n = 1002 ∨ n = 1003) ∧ w.encoding ≠ 0 ∨ (n = 1006 ∨ n = 1016) ∧ (set = false ∨ w.events ≠ 0) then
    [.mouse w'.events (decide (w'.encoding = 1016))]
  else []

/-- Several modes one after the other: the result, and what the embedder is told. -/
def Wish.run (w : Wish) (set : Bool) : List Nat → Wish × List Event
  | [] => (w, [])
  | n :: ns => (((w.after set n).run set ns).1, w.notice set n ++ ((w.after set n).run set ns).2)

end Mouse

namespace Vte

/-- What a program has asked for, as the API tells it (src/tsm/tsm-vte.c:630-648). -/
def wish (v : Vte) : Mouse.Wish := ⟨v.mouseMode, v.mouseEvent⟩

end Vte
end Verif
