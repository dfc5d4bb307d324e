import Verif.Model.Heap

/-!
# Specification: who owns the lines

What it means that the pointers of a screen are in order. Nothing here refers to the lists of `Screen.lean`.
-/

namespace Verif

/-- Starting at a pointer and following `next` visits exactly the addresses `as` and ends at NULL. -/
def Follow (next : Nat → Option Nat) : Option Nat → List Nat → Prop
  | none, [] => True
  | some a, b :: as => a = b ∧ Follow next (next a) as
  | _, _ => False

/-- The pointers of a screen are in order. `sb` are the addresses of the scrollback, oldest first. -/
structure PScreen.Sound (p : PScreen) (sb : List Nat) : Prop where
  /-- Following `next` from `sb_first` visits the scrollback and ends. -/
  forward : Follow (fun a => (p.heap.obj a).next) p.first sb
  /-- Following `prev` from `sb_last` visits it backwards. -/
  backward : Follow (fun a => (p.heap.obj a).prev) p.last sb.reverse
  /-- `sb_count` counts it. -/
  count : sb.length = p.sc.sbCount
  /-- An entry of `main_lines`, `alt_lines` or the scrollback is used only once. -/
  once : (p.main ++ p.alt ++ sb).Nodup
  /-- They are all allocated lines, and there are no others. -/
  owned : ∀ a, a ∈ p.heap.live ↔ a ∈ p.main ++ p.alt ++ sb
  /-- No line is allocated twice. -/
  nodup : p.heap.live.Nodup
  /-- The arrays have a line for every row. -/
  rows : p.main.length = p.alt.length ∧ p.sc.sizeY ≤ p.main.length
  /-- The lines are as long as the screen is wide. -/
  width : ∀ a ∈ p.main ++ p.alt, p.sc.sizeX ≤ (p.heap.obj a).line.cells.length
  /-- `sb_pos` and, if there is a selection, its endpoints are NULL or point into the scrollback. -/
  pos : ∀ a, p.pos = some a → a ∈ sb
  sel : p.sc.selActive = true → ∀ a, p.selS = some a ∨ p.selE = some a → a ∈ sb

/-- `p` is a screen of the model with pointers after creation and any number of calls with arguments of their C
types, with any allocator and any pattern of failing allocations. -/
def PScreen.Reachable (p : PScreen) : Prop :=
  ∃ (al : Allocator) (allocOk : Nat → Bool) (cs : List Screen.Call), (∀ c ∈ cs, c.Valid) ∧
    PScreen.history al allocOk cs = .ok (.inr p)

end Verif
