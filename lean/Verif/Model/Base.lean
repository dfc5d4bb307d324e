/-!
# Common vocabulary of the model

Outcomes with explicit undefined behaviour, and 32-bit unsigned arithmetic.
-/

namespace Verif

/-- Kinds of undefined behaviour the modelled C code can run into. There is one
constructor per *kind of access*, so that theorems can say precisely which
accesses never go wrong. (No C counterpart: this is the model's UB outcome.) -/
inductive UB where
  /-- `con->lines[i]` with `i` outside the line array -/
  | oobLine
  /-- `line->cells[i]` with `i` outside the cell array -/
  | oobCell
  /-- `con->tab_ruler[i]` with `i` outside the allocated ruler -/
  | oobTab
  /-- `memmove` of cells whose length computation wrapped around -/
  | insertMove
  /-- dereference of a pointer to a scrollback line that has been freed -/
  | dangling
  /-- dereference of a NULL pointer -/
  | nullDeref
  /-- read of `vte->csi_argv[16]` -/
  | csiArg
  /-- write beyond the buffer allocated by `tsm_screen_selection_copy` -/
  | copyBuf
  /-- write beyond `vte->osc_arg` -/
  | oscBuf
  /-- access outside a fixed table (character sets, palettes, state tables) -/
  | oobTable
  /-- access outside a heap buffer (shared containers) -/
  | oobHeap
  /-- shift of a 64-bit value by 64 or more bits -/
  | badShift
  /-- not undefined behaviour, but a loop that does not end -/
  | hang
  /-- `free` of a pointer that `malloc` did not return -/
  | badFree
  /-- not undefined behaviour: `tsm_vte_input` calls itself through `vte_write` -/
  | reenter
  deriving DecidableEq, Repr

/-- Result of a model function: a value, or undefined behaviour. -/
abbrev R (α : Type) := Except UB α

/-- Equality of outcomes is decidable (used for concrete examples). -/
instance {ε α : Type} [DecidableEq ε] [DecidableEq α] : DecidableEq (Except ε α)
  | .ok a, .ok b => if h : a = b then isTrue (by rw [h]) else isFalse (by intro e; cases e; exact h rfl)
  | .error a, .error b =>
    if h : a = b then isTrue (by rw [h]) else isFalse (by intro e; cases e; exact h rfl)
  | .ok _, .error _ => isFalse (by intro e; cases e)
  | .error _, .ok _ => isFalse (by intro e; cases e)

/-- 32-bit unsigned wrap-around (C `unsigned int` arithmetic). -/
@[reducible] def u32 (n : Nat) : Nat := n % 4294967296

/-- `n - 1` in `unsigned int` (wraps for 0), as in the many `size - 1`
expressions of tsm-screen.c. -/
@[reducible] def pred32 (n : Nat) : Nat := (n + 4294967295) % 4294967296

/-- `a - b` in `unsigned int`. -/
@[reducible] def sub32 (a b : Nat) : Nat := (a + (4294967296 - b % 4294967296)) % 4294967296

/-- `x.Sat P`: the computation is free of undefined behaviour and its result
satisfies `P`. -/
def R.Sat {α : Type} (x : R α) (P : α → Prop) : Prop := ∃ a, x = .ok a ∧ P a

/-- `x.SatK K P`: the result satisfies `P`, or undefined behaviour of a kind
allowed by `K` happens. -/
def R.SatK {α : Type} (x : R α) (K : UB → Prop) (P : α → Prop) : Prop :=
  match x with
  | .ok a => P a
  | .error e => K e

theorem R.sat_iff {α : Type} {x : R α} {P : α → Prop} :
    R.Sat x P ↔ R.SatK x (fun _ => False) P := by
  cases x <;> simp [R.Sat, R.SatK]

theorem R.Sat.mono {α : Type} {x : R α} {P Q : α → Prop} (h : R.Sat x P)
    (hPQ : ∀ a, P a → Q a) : R.Sat x Q := by
  obtain ⟨a, h1, h2⟩ := h; exact ⟨a, h1, hPQ a h2⟩

theorem R.SatK.mono {α : Type} {x : R α} {K K' : UB → Prop} {P Q : α → Prop}
    (h : R.SatK x K P) (hK : ∀ e, K e → K' e) (hPQ : ∀ a, P a → Q a) : R.SatK x K' Q := by
  cases x with
  | ok a => exact hPQ a h
  | error e => exact hK e h

theorem R.SatK.bind {α β : Type} {x : R α} {f : α → R β} {K : UB → Prop}
    {P : α → Prop} {Q : β → Prop}
    (h : R.SatK x K P) (hf : ∀ a, P a → R.SatK (f a) K Q) : R.SatK (x >>= f) K Q := by
  cases x with
  | ok a => exact hf a h
  | error e => exact h

theorem R.Sat.bind {α β : Type} {x : R α} {f : α → R β} {P : α → Prop} {Q : β → Prop}
    (h : R.Sat x P) (hf : ∀ a, P a → R.Sat (f a) Q) : R.Sat (x >>= f) Q := by
  obtain ⟨a, rfl, h2⟩ := h
  exact hf a h2

theorem R.Sat.pure {α : Type} {a : α} {P : α → Prop} (h : P a) :
    R.Sat (Except.ok a) P := ⟨a, rfl, h⟩

theorem R.Sat.toK {α : Type} {x : R α} {P : α → Prop} (K : UB → Prop) (h : R.Sat x P) :
    R.SatK x K P := by
  obtain ⟨a, rfl, h2⟩ := h; exact h2

theorem R.Sat.and {α : Type} {x : R α} {P Q : α → Prop} (h : R.Sat x P) (h' : R.Sat x Q) :
    R.Sat x (fun a => P a ∧ Q a) := by
  obtain ⟨a, e, h2⟩ := h; obtain ⟨b, e', h3⟩ := h'
  rw [e] at e'; cases e'; exact ⟨a, e, h2, h3⟩

end Verif
