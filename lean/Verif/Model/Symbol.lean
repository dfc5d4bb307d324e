import Verif.Model.Shared.Htable
import Verif.Model.Shared.Array
import Verif.Model.Wcwidth

/-!
# Symbol table (src/tsm/tsm-unicode.c)

The table is built on the models of the hash table and the dynamic array. Memory for
strings comes from the caller as an argument: the address returned by each `malloc`.
Reference counting and freeing the table are not modelled.
-/

namespace Verif

/-- `struct tsm_symbol_table` (src/tsm/tsm-unicode.c:102-107). `blocks` are the allocated strings: the
address of the string, the hidden id before it, and its words up to the terminator. -/
structure SymTab where
  nextId : Nat
  index : Arr Word
  ht : HT
  blocks : List (Word × Nat × List Nat)
  deriving DecidableEq

namespace SymTab

/-- `TSM_UCS4_MAX` (src/tsm/libtsm.h:113-114). -/
def ucs4Max : Nat := 0x7fffffff

/-- `TSM_UCS4_MAXLEN` (src/tsm/libtsm-int.h:40). -/
def maxLen : Nat := 10

/-- The words of a string before its terminator (loops in src/tsm/tsm-unicode.c:114, 241-242). -/
def chars (ws : List Nat) : List Nat := ws.takeWhile fun c => decide (c ≤ ucs4Max)

/-- `hash_ucs4` (src/tsm/tsm-unicode.c:109-118), on the words of a string. -/
def hashUcs4 (ws : List Nat) : Word :=
  (chars ws).foldl (fun v c => v * 33#64 + BitVec.ofNat 64 c) 5381#64

/-- `cmp_ucs4` (src/tsm/tsm-unicode.c:120-134). Reading behind the last word does not happen for
strings with a terminator; here it is `false`. -/
def cmpUcs4 : List Nat → List Nat → Bool
  | a :: as, b :: bs =>
    if ucs4Max < a ∧ ucs4Max < b then true
    else if a ≠ b then false
    else cmpUcs4 as bs
  | _, _ => false

/-- The allocated string at an address (src/tsm/tsm-unicode.c:280-294 stores them). -/
def block (t : SymTab) (p : Word) : Option (Nat × List Nat) := t.blocks.lookup p

/-- The words `hash_ucs4` and `cmp_ucs4` read at an address (src/tsm/tsm-unicode.c:112, 125-126); none
if nothing is allocated there. -/
def words (t : SymTab) (p : Word) : List Nat :=
  match t.block p with
  | some (_, ws) => ws
  | none => []

/-- The callback `rehash` of the hash table (src/tsm/tsm-unicode.c:159). -/
def hash (t : SymTab) (p : Word) : Word := hashUcs4 (t.words p)

/-- `tsm_symbol_table_new` (src/tsm/tsm-unicode.c:144-174); `none` for -ENOMEM. -/
def new (mem : Bool) : R (Option SymTab) :=
  match Arr.new 8 4 mem with
  | none => .ok none
  | some a => do
    let (a, _) ← a.push 0 true
    pure (some { nextId := (ucs4Max + 2) % 4294967296, index := a, ht := HT.init, blocks := [] })

/-- Reading the string at a non-NULL address up to its terminator
(src/tsm/tsm-unicode.c:239-245). -/
def string (t : SymTab) (p : Word) : R (List Nat) :=
  match t.block p with
  | none => .error .dangling
  | some (_, ws) => if ws.all (fun c => decide (c ≤ ucs4Max)) then .error .oobHeap else .ok (chars ws)

/-- `tsm_symbol_get` (src/tsm/tsm-unicode.c:213-246) for a table and a size pointer that are not
NULL: the characters of the symbol. -/
def get (t : SymTab) (sym : Nat) : R (List Nat) :=
  if sym ≤ ucs4Max then .ok [sym]
  else
    let idx := (sym - (ucs4Max + 1)) % 4294967296
    if idx ≥ t.index.getLength then .ok [0]
    else do
      let x ← t.index.at_ idx
      match x with
      | none => .error .oobHeap
      | some p => if p = 0 then pure [0] else t.string p

/-- What the allocator does during `tsm_symbol_append`: the address behind the hidden word of the new
string if `malloc` succeeds, and whether growing the hash table and the index succeed
(src/tsm/tsm-unicode.c:280, 296, 300). -/
structure Mem where
  block : Option Word
  table : Bool
  index : Bool
  deriving DecidableEq

/-- `tsm_symbol_append` (src/tsm/tsm-unicode.c:248-312) for a table that is not NULL. All error
paths pass the incremented pointer `nval` to `free`, which is undefined. -/
def append (t : SymTab) (sym ucs4 : Nat) (m : Mem) : R (SymTab × Nat) :=
  if ucs4 > ucs4Max then .ok (t, sym)
  else do
    let s ← t.get sym
    if s.length ≥ maxLen then pure (t, sym)
    else
      let buf := s ++ [ucs4, ucs4Max + 1]
      let r ← t.ht.lookup (fun c => cmpUcs4 buf (t.words c)) (hashUcs4 buf)
      match r with
      | some c =>
        match t.block c with
        | some (id, _) => pure (t, id)
        | none => .error .dangling
      | none =>
        match m.block with
        | none => pure (t, sym)
        | some p =>
          let nsym := (t.nextId + 1) % 4294967296
          if nsym ≤ t.nextId then .error .badFree
          else
            let t := { t with nextId := nsym, blocks := (p, nsym, buf) :: t.blocks }
            let (h, good) ← t.ht.insert t.hash p m.table
            if good then
              let (a, good) ← t.index.push p m.index
              if good then pure ({ t with ht := h, index := a }, nsym)
              else .error .badFree
            else .error .badFree

/-- `tsm_symbol_get_width` (src/tsm/tsm-unicode.c:314-328) for a table that is not NULL. -/
def getWidth (t : SymTab) (sym : Nat) : R Nat := do
  let s ← t.get sym
  match s with
  | [] => pure 0
  | c :: _ => Wcwidth.ucs4GetWidth c

end SymTab
end Verif
