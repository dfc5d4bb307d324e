/-!
# What the symbol table does: a list of strings

`strs` are the strings created so far, in order. The first one gets the id 0x80000002, but the index is
read as if its id were 0x80000001.
-/

namespace Verif.Strings

/-- A plain character is a symbol. -/
def IsChar (c : Nat) : Prop := c ≤ 0x7fffffff

/-- The id of string number `k`. -/
def idOf (k : Nat) : Nat := 0x80000002 + k

/-- What a symbol decomposes to. -/
def denotes (strs : List (List Nat)) (sym : Nat) : List Nat :=
  if sym ≤ 0x7fffffff then [sym]
  else if sym = 0x80000000 then [0]
  else (strs[sym - 0x80000001]?).getD [0]

/-- Appending `c` to `sym`: the strings and the symbol afterwards. -/
def append (strs : List (List Nat)) (sym c : Nat) (mem : Bool) : List (List Nat) × Nat :=
  if 0x7fffffff < c ∨ 10 ≤ (denotes strs sym).length then (strs, sym)
  else
    let w := denotes strs sym ++ [c]
    if w ∈ strs then (strs, idOf (strs.idxOf w))
    else if mem then (strs ++ [w], idOf strs.length)
    else (strs, sym)

/-- What holds of the strings: none twice, between two and ten characters each. -/
structure Good (strs : List (List Nat)) : Prop where
  nodup : strs.Nodup
  chars : ∀ s, s ∈ strs → ∀ c, c ∈ s → IsChar c
  long : ∀ s, s ∈ strs → 2 ≤ s.length ∧ s.length ≤ 10

end Verif.Strings
