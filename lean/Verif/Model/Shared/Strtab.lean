import Verif.Model.Shared.Htable

/-!
# Tables of strings (src/shared/shl-htable.h:145-221, shl-htable.c:413-428)

An element is a `char **`; `text p` is the string that `*p` points to, without the zero at its end. Strings are not
changed while they are in a table. The hash arguments are addresses of variables of the caller: `none` is NULL,
and the values of all variables are a function.
-/

namespace Verif.Strtab

/-- `(size_t)*str` (src/shared/shl-htable.c:425); `sg` tells whether `char` is signed. -/
def ext (sg : Bool) (c : UInt8) : Word :=
  if sg ∧ 128 ≤ c.toNat then BitVec.ofNat 64 (c.toNat + (2 ^ 64 - 256)) else BitVec.ofNat 64 c.toNat

/-- `shl_htable_rehash_str` (src/shared/shl-htable.c:418-428). -/
def djb (sg : Bool) (str : List UInt8) : Word := str.foldl (fun h c => (h <<< 5) + h + ext sg c) 5381

/-- `shl_htable_hash_str` (src/shared/shl-htable.h:177-191): the hash value and the variables afterwards. -/
def hashStr (sg : Bool) (vars : Nat → Word) (str : List UInt8) (var : Option Nat) : Word × (Nat → Word) :=
  match var with
  | none => (djb sg str, vars)
  | some v => if vars v ≠ 0 then (vars v, vars) else (djb sg str, fun i => if i = v then djb sg str else vars i)

/-- `htable_add` from the second `if` on (src/shared/shl-htable.c:295-303), for an object with hash value `h`. -/
def addTail (hash : Word → Word) (t : HT) (p h : Word) : R HT :=
  (if t.elems + 1 + t.deleted > t.maxWithDeleted then HT.rehashTable hash t else pure t) >>= fun t =>
  (if p &&& t.commonMask ≠ t.commonBits then t.updateCommon p else t).htAdd p h >>= fun t =>
  pure { t with elems := t.elems + 1 }

/-- `htable_add`, `shl_htable_insert` (src/shared/shl-htable.c:291-304, 369-376), for an object with hash value `h`,
which `HT.insert` takes from `rehash`. -/
def insert (hash : Word → Word) (t : HT) (p h : Word) (mem : Bool) : R (HT × Bool) :=
  if t.elems + 1 > t.max then do
    let (t, good) ← HT.doubleTable hash t mem
    if good then do
      let t ← addTail hash t p h
      pure (t, true)
    else pure (t, false)
  else do
    let t ← addTail hash t p h
    pure (t, true)

/-- A table and the variables of the caller (src/shared/shl-htable.h:48-51, 177-178). -/
structure State where
  tab : HT
  vars : Nat → Word

/-- `shl_htable_init_str` (src/shared/shl-htable.h:155-159), with the variables of the caller set to zero. -/
def init : State := { tab := HT.init, vars := fun _ => 0 }

/-- `shl_htable_insert_str` (src/shared/shl-htable.h:203-210). -/
def insertStr (sg : Bool) (text : Word → List UInt8) (s : State) (p : Word) (var : Option Nat) (mem : Bool) : R (State × Bool) := do
  let (t, b) ← insert (fun q => djb sg (text q)) s.tab p (hashStr sg s.vars (text p) var).1 mem
  pure ({ tab := t, vars := (hashStr sg s.vars (text p) var).2 }, b)

/-- `shl_htable_lookup_str` (src/shared/shl-htable.h:193-201), with `shl_htable_compare_str`
(src/shared/shl-htable.c:413-416). -/
def lookupStr (sg : Bool) (text : Word → List UInt8) (s : State) (str : List UInt8) (var : Option Nat) : R (State × Option Word) := do
  let c ← s.tab.lookup (fun q => decide (str = text q)) (hashStr sg s.vars str var).1
  pure ({ s with vars := (hashStr sg s.vars str var).2 }, c)

/-- `shl_htable_remove_str` (src/shared/shl-htable.h:212-220), with `shl_htable_compare_str`
(src/shared/shl-htable.c:413-416). -/
def removeStr (sg : Bool) (text : Word → List UInt8) (s : State) (str : List UInt8) (var : Option Nat) : R (State × Option Word) := do
  let (t, c) ← s.tab.remove (fun q => decide (str = text q)) (hashStr sg s.vars str var).1
  pure ({ tab := t, vars := (hashStr sg s.vars str var).2 }, c)

end Verif.Strtab
