import Verif.Proofs.Vte.Input
import Verif.Proofs.Screen.Example

/-! Running the emulator on concrete histories, for the examples beside the theorems. -/

namespace Verif
namespace Vte

instance : DecidablePred Call.Valid := fun c => by
  unfold Call.Valid
  split <;> infer_instance

/-- The calls `cs` of a new screen, then creating an emulator and its calls `vs` end in a state
with `P`. -/
def vholds (cs : List Screen.Call) (sg : Bool) (vs : List Call) (P : Vte → Bool) : Bool :=
  decide (∀ c ∈ vs, c.Valid) &&
  Screen.holds cs fun s =>
    match new s sg with
    | .ok v0 =>
      match v0.runAll vs with
      | .ok v => P v
      | .error _ => false
    | .error _ => false

theorem exists_of_vholds {cs : List Screen.Call} {sg : Bool} {vs : List Call} {P : Vte → Bool}
    (h : vholds cs sg vs P = true) : ∃ v, Reachable v ∧ P v = true := by
  unfold vholds at h
  rw [Bool.and_eq_true] at h
  obtain ⟨hv, h⟩ := h
  obtain ⟨s, hs, h⟩ := Screen.exists_of_holds h
  split at h
  · rename_i v0 e0
    split at h
    · rename_i v e
      exact ⟨v, ⟨s, sg, v0, vs, hs, e0, of_decide_eq_true hv, e⟩, h⟩
    · cases h
  · cases h

/-- The outcome `e`. -/
def fails {α : Type} (x : R α) (e : UB) : Bool :=
  match x with
  | .ok _ => false
  | .error e' => decide (e' = e)

theorem of_fails {α : Type} {x : R α} {e : UB} (h : fails x e = true) : x = .error e := by
  unfold fails at h
  split at h
  · cases h
  · exact congrArg _ (of_decide_eq_true h)

/-- The result has `P`. -/
def gives {α : Type} (x : R α) (P : α → Bool) : Bool :=
  match x with
  | .ok a => P a
  | .error _ => false

theorem of_gives {α : Type} {x : R α} {P : α → Bool} (h : gives x P = true) : ∃ a, x = .ok a ∧ P a = true := by
  unfold gives at h
  split at h
  · exact ⟨_, rfl, h⟩
  · cases h

end Vte
end Verif
