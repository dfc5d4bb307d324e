import Verif.Model.WcwidthTables

/-!
# Specification of character widths, independent of the search algorithm
-/

namespace Verif.Spec.Wcwidth

/-- Membership in a list of closed intervals. -/
def InRanges (t : List (Nat × Nat)) (c : Nat) : Prop := ∃ r ∈ t, r.1 ≤ c ∧ c ≤ r.2

instance (t : List (Nat × Nat)) (c : Nat) : Decidable (InRanges t c) := by
  unfold InRanges; infer_instance

/-- The intervals are non-empty, pairwise disjoint and increasing. -/
def SortedRanges (t : List (Nat × Nat)) : Prop :=
  (∀ r ∈ t, r.1 ≤ r.2) ∧ t.Pairwise (fun a b => a.2 < b.1)

instance (t : List (Nat × Nat)) : Decidable (SortedRanges t) := by
  unfold SortedRanges; infer_instance

/-- Formatting characters listed by hand in the C code. -/
def Format (c : Nat) : Prop :=
  c = 0 ∨ c = 0x034F ∨ (0x200B ≤ c ∧ c ≤ 0x200F) ∨ (0x2028 ≤ c ∧ c ≤ 0x202E) ∨
  (0x2060 ≤ c ∧ c ≤ 0x2063)

instance (c : Nat) : Decidable (Format c) := by unfold Format; infer_instance

/-- C0 and C1 control characters and DEL. -/
def Control (c : Nat) : Prop := c < 32 ∨ (127 ≤ c ∧ c < 160)

instance (c : Nat) : Decidable (Control c) := by unfold Control; infer_instance

/-- Intended width of a 32-bit value. -/
def width (c : Nat) : Nat :=
  if c ≥ 2 ^ 31 ∨ Format c ∨ Control c ∨ InRanges Verif.Wcwidth.zeroWidth c then 0
  else if InRanges Verif.Wcwidth.wideEastAsian c then 2
  else 1

end Verif.Spec.Wcwidth
