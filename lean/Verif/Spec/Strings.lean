import Verif.Model.Base

/-!
# What a table of strings promises: a bag of elements, found by their text

Nothing here depends on hash values.
-/

namespace Verif.StrBag

/-- A call. `var` is the caller's variable for the hash value, if any; `forget` is the assignment of zero to one. -/
inductive Op where
  | insert (p : BitVec 64) (var : Option Nat) (mem : Bool)
  | lookup (str : List UInt8) (var : Option Nat)
  | remove (str : List UInt8) (var : Option Nat)
  | visit
  | clear
  | forget (var : Nat)

/-- What the caller sees. -/
inductive Out where
  | done (ok : Bool)
  | found (c : Option (BitVec 64))
  | all (ps : List (BitVec 64))
  deriving DecidableEq

/-- What a call may answer on the bag `M`, and the bag afterwards. -/
def Step (text : BitVec 64 → List UInt8) (M : List (BitVec 64)) : Op → Out → List (BitVec 64) → Prop
  | .insert p _ mem, o, M' => (o = .done true ∧ M'.Perm (p :: M)) ∨ (o = .done false ∧ mem = false ∧ M'.Perm M)
  | .lookup str _, o, M' => M'.Perm M ∧
    ((o = .found none ∧ ∀ q ∈ M, text q ≠ str) ∨ ∃ c, o = .found (some c) ∧ c ∈ M ∧ text c = str)
  | .remove str _, o, M' =>
    (o = .found none ∧ M'.Perm M ∧ ∀ q ∈ M, text q ≠ str) ∨ ∃ c, o = .found (some c) ∧ text c = str ∧ M.Perm (c :: M')
  | .visit, o, M' => ∃ l, o = .all l ∧ l.Perm M ∧ M'.Perm M
  | .clear, o, M' => ∃ l, o = .all l ∧ l.Perm M ∧ M' = []
  | .forget _, o, M' => o = .done true ∧ M' = M

/-- The answers to a history of calls on the bag `M`. -/
def Runs (text : BitVec 64 → List UInt8) : List (BitVec 64) → List Op → List Out → Prop
  | _, [], [] => True
  | M, op :: ops, o :: os => ∃ M', Step text M op o M' ∧ Runs text M' ops os
  | _, _, _ => False

/-- The number of inserts. -/
def inserts : List Op → Nat
  | [] => 0
  | .insert _ _ _ :: ops => inserts ops + 1
  | _ :: ops => inserts ops

/-- The string a variable is used for, if the call uses one. -/
def use (text : BitVec 64 → List UInt8) : Op → Option (Nat × List UInt8)
  | .insert p (some v) _ => some (v, text p)
  | .lookup str (some v) => some (v, str)
  | .remove str (some v) => some (v, str)
  | _ => none

/-- Each variable, between assignments of zero to it, is used for one string only. `cur v` is the string that `v` was
used for since. -/
def OneString (text : BitVec 64 → List UInt8) (cur : Nat → Option (List UInt8)) : List Op → Prop
  | [] => True
  | .forget v :: ops => OneString text (fun i => if i = v then none else cur i) ops
  | op :: ops =>
    match use text op with
    | none => OneString text cur ops
    | some (v, str) => (cur v = none ∨ cur v = some str) ∧ OneString text (fun i => if i = v then some str else cur i) ops

end Verif.StrBag
