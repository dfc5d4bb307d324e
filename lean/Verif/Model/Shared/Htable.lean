import Verif.Model.Base

/-!
# Hash table (src/shared/shl-htable.c)

Pointers and table entries are 64-bit words. The elements are not looked at by the
table; the user's functions are parameters: `hash` for `rehash`, and a predicate
`cmp` for `compare` with the object that is looked up. Loops get as much fuel as the
table has slots; running out of it is the outcome `hang`.
-/

namespace Verif

/-- A pointer or table entry, `uintptr_t` (src/shared/shl-htable.c:36-39). -/
abbrev Word := BitVec 64

/-- `struct htable` (src/shared/shl-htable.c:30-40). `heap` tells whether `table` is allocated;
otherwise it points to `perfect_bit`. -/
structure HT where
  bits : Nat
  elems : Nat
  deleted : Nat
  max : Nat
  maxWithDeleted : Nat
  commonMask : Word
  commonBits : Word
  perfectBit : Word
  heap : Bool
  table : List Word
  deriving DecidableEq

namespace HT

/-- `HTABLE_INITIALIZER`, `htable_init` (src/shared/shl-htable.c:42-43, 89-98). -/
def init : HT :=
  { bits := 0, elems := 0, deleted := 0, max := 0, maxWithDeleted := 0,
    commonMask := BitVec.allOnes 64, commonBits := 0, perfectBit := 0, heap := false, table := [] }

/-- What `ht->table` points to (src/shared/shl-htable.c:39, 97). -/
def cells (t : HT) : List Word := if t.heap then t.table else [t.perfectBit]

/-- Reading `ht->table[i]` (src/shared/shl-htable.c:145-147, 178). -/
def get (t : HT) (i : Nat) : R Word :=
  match t.cells[i]? with
  | some e => .ok e
  | none => .error .oobHeap

/-- `get_extra_ptr_bits` (src/shared/shl-htable.c:57-61). -/
def extra (t : HT) (e : Word) : Word := e &&& t.commonMask

/-- `get_raw_ptr` (src/shared/shl-htable.c:63-66). -/
def raw (t : HT) (e : Word) : Word := (e &&& ~~~ t.commonMask) ||| t.commonBits

/-- `make_hval` (src/shared/shl-htable.c:68-72). -/
def makeHval (t : HT) (p bits : Word) : Word := (p &&& ~~~ t.commonMask) ||| bits

/-- `entry_is_valid` (src/shared/shl-htable.c:74-77). -/
def valid (e : Word) : Bool := decide (1 < e.toNat)

/-- `get_hash_ptr_bits` (src/shared/shl-htable.c:79-87). -/
def hashBits (t : HT) (h : Word) : Word :=
  (h ^^^ (h >>> t.bits)) &&& t.commonMask &&& ~~~ t.perfectBit

/-- `hash_bucket` (src/shared/shl-htable.c:135-138). -/
def bucket (t : HT) (h : Word) : Nat := h.toNat &&& (2 ^ t.bits - 1)

/-- `(i + 1) & ((1 << ht->bits)-1)` (src/shared/shl-htable.c:150, 166, 180). -/
def next (t : HT) (i : Nat) : Nat := (i + 1) &&& (2 ^ t.bits - 1)

/-- `htable_val` (src/shared/shl-htable.c:140-154): slot and pointer of the next candidate. -/
def val (t : HT) (perfect : Word) : Nat → Nat → Word → R (Option (Nat × Word))
  | 0, _, _ => .error .hang
  | fuel + 1, off, h2 => do
    let e ← t.get off
    if e = 0 then pure none
    else if e ≠ 1 ∧ t.extra e = h2 then pure (some (off, t.raw e))
    else val t perfect fuel (t.next off) (h2 &&& ~~~ perfect)

/-- `htable_firstval` (src/shared/shl-htable.c:156-161). -/
def firstval (t : HT) (h : Word) : R (Option (Nat × Word)) :=
  t.val t.perfectBit (2 ^ t.bits) (t.bucket h) (t.hashBits h ||| t.perfectBit)

/-- `htable_nextval` (src/shared/shl-htable.c:163-168). -/
def nextval (t : HT) (off : Nat) (h : Word) : R (Option (Nat × Word)) :=
  t.val 0 (2 ^ t.bits) (t.next off) (t.hashBits h ||| 0)

/-- The loops of `shl_htable_lookup` and `shl_htable_remove`
(src/shared/shl-htable.c:356-366, 385-395), from a candidate on. -/
def searchFrom (t : HT) (cmp : Word → Bool) (h : Word) :
    Nat → Option (Nat × Word) → R (Option (Nat × Word))
  | _, none => .ok none
  | 0, some _ => .error .hang
  | fuel + 1, some (off, c) =>
    if cmp c then .ok (some (off, c))
    else t.nextval off h >>= searchFrom t cmp h fuel

/-- The search shared by `shl_htable_lookup` and `shl_htable_remove`
(src/shared/shl-htable.c:356-366, 385-395): slot and pointer found. -/
def search (t : HT) (cmp : Word → Bool) (h : Word) : R (Option (Nat × Word)) :=
  t.firstval h >>= t.searchFrom cmp h (2 ^ t.bits)

/-- `shl_htable_lookup` (src/shared/shl-htable.c:349-367). -/
def lookup (t : HT) (cmp : Word → Bool) (h : Word) : R (Option Word) := do
  let r ← t.search cmp h
  pure (r.map Prod.snd)

/-- The loop of `ht_add` (src/shared/shl-htable.c:174-181): the slot, and the perfect bit
if it is the first one. -/
def freeSlot (t : HT) : Nat → Nat → Word → R (Nat × Word)
  | 0, _, _ => .error .hang
  | fuel + 1, i, perfect => do
    let e ← t.get i
    if valid e then freeSlot t fuel (t.next i) 0 else pure (i, perfect)

/-- `ht_add` (src/shared/shl-htable.c:171-183), on an allocated table. -/
def htAdd (t : HT) (p h : Word) : R HT := do
  let (i, perfect) ← t.freeSlot (2 ^ t.bits) (t.bucket h) t.perfectBit
  pure { t with table := t.table.set i (t.makeHval p (t.hashBits h ||| perfect)) }

/-- The part of `double_table` that looks for a new perfect bit
(src/shared/shl-htable.c:201-208). -/
def findPerfect (t : HT) : Word :=
  if t.perfectBit = 0 ∧ t.commonMask ≠ 0 then
    match (List.range 64).find? (fun i => t.commonMask.getLsbD i) with
    | some i => BitVec.twoPow 64 i
    | none => t.perfectBit
  else t.perfectBit

/-- The loop of `double_table` (src/shared/shl-htable.c:210-217). -/
def addAll (hash : Word → Word) (t : HT) : List Word → R HT
  | [] => .ok t
  | e :: es =>
    if valid e then do
      let t' ← t.htAdd (t.raw e) (hash (t.raw e))
      addAll hash t' es
    else addAll hash t es

/-- `double_table` (src/shared/shl-htable.c:185-222); `mem` tells whether `calloc`
succeeds. `1 << (bits + 1)` is undefined for a result of 31 bits. -/
def doubleTable (hash : Word → Word) (t : HT) (mem : Bool) : R (HT × Bool) :=
  if 31 ≤ t.bits + 1 then .error .badShift
  else if mem then
    let n : HT :=
      { t with
        table := List.replicate (2 ^ (t.bits + 1)) 0
        heap := true
        bits := t.bits + 1
        max := 3 * 2 ^ (t.bits + 1) / 4
        maxWithDeleted := 9 * 2 ^ (t.bits + 1) / 10
        perfectBit := t.findPerfect }
    (if t.heap then addAll hash n t.table else pure n) >>= fun n =>
    pure ({ n with deleted := 0 }, true)
  else .ok (t, false)

/-- The body of the loop of `rehash_table` (src/shared/shl-htable.c:233-243) for slot `k`. -/
def rehashSlot (hash : Word → Word) (t : HT) (k : Nat) : R HT := do
  let e ← t.get k
  if e = 0 then pure t
  else if e = 1 then pure { t with table := t.table.set k 0 }
  else if e &&& t.perfectBit = 0 then
    htAdd { t with table := t.table.set k 0 } (t.raw e) (hash (t.raw e))
  else pure t

/-- The loop of `rehash_table` (src/shared/shl-htable.c:232-244). -/
def rehashLoop (hash : Word → Word) (start : Nat) (t : HT) : List Nat → R HT
  | [] => .ok t
  | i :: is => do
    let t' ← rehashSlot hash t ((i + start) &&& (2 ^ t.bits - 1))
    rehashLoop hash start t' is

/-- `rehash_table` (src/shared/shl-htable.c:224-246), on an allocated table. -/
def rehashTable (hash : Word → Word) (t : HT) : R HT :=
  match t.table.findIdx? (fun e => decide (e = 0)) with
  | none => .error .oobHeap
  | some start => do
    let t' ← rehashLoop hash start t (List.range (2 ^ t.bits))
    pure { t' with deleted := 0 }

/-- The bit found by the first loop of `update_common` (src/shared/shl-htable.c:258-261):
the highest set bit, or 0. -/
def topBit (p : Word) : Nat → Nat
  | 0 => 0
  | i + 1 => if p.getLsbD (i + 1) then i + 1 else topBit p i

/-- `update_common` (src/shared/shl-htable.c:249-289), on an allocated table. -/
def updateCommon (t : HT) (p : Word) : HT :=
  if t.elems = 0 then
    let mask := ~~~ (BitVec.twoPow 64 (topBit p 63))
    { t with commonMask := mask, commonBits := p &&& mask, perfectBit := 1 }
  else
    let maskdiff := t.commonBits ^^^ (p &&& t.commonMask)
    let bitsdiff := t.commonBits &&& maskdiff
    { t with
      table := t.table.map fun e => if valid e then (e &&& ~~~ maskdiff) ||| bitsdiff else e
      commonMask := t.commonMask &&& ~~~ maskdiff
      commonBits := t.commonBits &&& ~~~ maskdiff
      perfectBit := t.perfectBit &&& ~~~ maskdiff }

/-- `htable_add` from the second `if` on (src/shared/shl-htable.c:295-303). -/
def addTail (hash : Word → Word) (t : HT) (p : Word) : R HT :=
  (if t.elems + 1 + t.deleted > t.maxWithDeleted then rehashTable hash t else pure t) >>= fun t =>
  (if p &&& t.commonMask ≠ t.commonBits then t.updateCommon p else t).htAdd p (hash p) >>= fun t =>
  pure { t with elems := t.elems + 1 }

/-- `htable_add`, `shl_htable_insert` (src/shared/shl-htable.c:291-304, 369-376) with
`hash` as the hash value of the object, for a non-NULL pointer. `false` for -ENOMEM. -/
def insert (hash : Word → Word) (t : HT) (p : Word) (mem : Bool) : R (HT × Bool) :=
  if t.elems + 1 > t.max then do
    let (t, good) ← doubleTable hash t mem
    if good then do
      let t ← addTail hash t p
      pure (t, true)
    else pure (t, false)
  else do
    let t ← addTail hash t p
    pure (t, true)

/-- `htable_delval` (src/shared/shl-htable.c:306-314), on an allocated table. -/
def delval (t : HT) (off : Nat) : HT :=
  { t with elems := t.elems - 1, table := t.table.set off 1, deleted := t.deleted + 1 }

/-- `shl_htable_remove` (src/shared/shl-htable.c:378-397). -/
def remove (t : HT) (cmp : Word → Bool) (h : Word) : R (HT × Option Word) := do
  let r ← t.search cmp h
  match r with
  | some (off, c) => pure (t.delval off, some c)
  | none => pure (t, none)

/-- `htable_visit`, and the calls of `free_cb` in `htable_clear`
(src/shared/shl-htable.c:100-133): the pointers passed to the callback. -/
def visit (t : HT) : List Word :=
  if t.heap then (t.table.filter valid).map t.raw else []

/-- `htable_clear` (src/shared/shl-htable.c:100-119): the table afterwards. -/
def clear (_ : HT) : HT := init

end HT
end Verif
