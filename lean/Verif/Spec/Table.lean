import Verif.Model.Shared.Htable

/-!
# What a hash table promises: a bag of pointers

The bag is a list up to order. Nothing here depends on slots, masks or markers.
-/

namespace Verif.Bag

open Verif

/-- A call. `mem` tells whether memory is available, `cmp` is `compare` with the object
that is searched and `h` its hash value. -/
inductive Op where
  | insert (p : Word) (mem : Bool)
  | lookup (cmp : Word → Bool) (h : Word)
  | remove (cmp : Word → Bool) (h : Word)
  | visit
  | clear

/-- What the caller sees. -/
inductive Out where
  | done (ok : Bool)
  | found (c : Option Word)
  | all (ps : List Word)

/-- What a call may answer on the bag `M`, and the bag afterwards. -/
def Step (M : List Word) : Op → Out → List Word → Prop
  | .insert p mem, o, M' =>
    (o = .done true ∧ List.Perm M' (p :: M)) ∨ (o = .done false ∧ mem = false ∧ List.Perm M' M)
  | .lookup cmp _, o, M' => List.Perm M' M ∧
    ((o = .found none ∧ ∀ q, q ∈ M → cmp q = false) ∨ ∃ c, o = .found (some c) ∧ c ∈ M ∧ cmp c = true)
  | .remove cmp _, o, M' =>
    (o = .found none ∧ List.Perm M' M ∧ ∀ q, q ∈ M → cmp q = false) ∨
      ∃ c, o = .found (some c) ∧ cmp c = true ∧ List.Perm M (c :: M')
  | .visit, o, M' => ∃ l, o = .all l ∧ List.Perm l M ∧ List.Perm M' M
  | .clear, o, M' => ∃ l, o = .all l ∧ List.Perm l M ∧ M' = []

/-- The answers to a history of calls on the bag `M`. -/
def Runs : List Word → List Op → List Out → Prop
  | _, [], [] => True
  | M, op :: ops, o :: os => ∃ M', Step M op o M' ∧ Runs M' ops os
  | _, _, _ => False

/-- The number of inserts. -/
def inserts : List Op → Nat
  | [] => 0
  | .insert _ _ :: ops => inserts ops + 1
  | _ :: ops => inserts ops

/-- A call with pointers of `U` whose hash value fits `compare`. -/
def Fits (U : Word → Prop) (hash : Word → Word) : Op → Prop
  | .insert p _ => U p
  | .lookup cmp h => ∀ q, U q → cmp q = true → hash q = h
  | .remove cmp h => ∀ q, U q → cmp q = true → hash q = h
  | _ => True

/-- Pointers that can be stored together: each is more than 1, and `q` has the highest bit of `p`
or a bit other than bit 0 that `p` does not have. -/
structure Storable (U : Word → Prop) : Prop where
  big : ∀ p, U p → 1 < p.toNat
  apart : ∀ p q, U p → U q → q.toNat.testBit p.toNat.log2 = true ∨
    ∃ j, 1 ≤ j ∧ q.toNat.testBit j = true ∧ p.toNat.testBit j = false

end Verif.Bag
