import Verif.Proofs.Screen.Frame

/-!
# Concrete reachable screens, for the examples next to the theorems
-/

namespace Verif
namespace Screen

/-- The history `cs`, without allocation failures, ends in a screen with `P`. -/
def holds (cs : List Call) (P : Screen → Bool) : Bool :=
  cs.all (fun c => decide c.Valid) &&
  match history (fun _ => true) cs with
  | .ok (some s) => P s
  | _ => false

theorem exists_of_holds {cs : List Call} {P : Screen → Bool} (h : holds cs P = true) :
    ∃ s, Reachable s ∧ P s = true := by
  unfold holds at h
  rw [Bool.and_eq_true] at h
  obtain ⟨hv, h⟩ := h
  split at h
  · rename_i s e
    refine ⟨s, ⟨fun _ => true, cs, ?_, e⟩, h⟩
    intro c hc
    exact of_decide_eq_true (List.all_eq_true.mp hv c hc)
  · exact absurd h (by simp)

/-- Write a list of characters with plain attributes. -/
def text (cs : List Nat) : List Call := cs.map fun c => .write c Attr.zero

/-- The characters of row `i` of the displayed grid. -/
def rowText (s : Screen) (i : Nat) : List Nat :=
  (List.range s.sizeX).map fun j => ((s.view.grid i j).map Glyph.ch).getD 0

end Screen
end Verif
