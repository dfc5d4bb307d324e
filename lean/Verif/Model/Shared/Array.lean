import Verif.Model.Base

/-!
# Dynamic array (src/shared/shl-array.h)

Elements are opaque values of a type `α`; `none` is an element that was never
written since it was allocated. `malloc`/`realloc` never return more than
`2^63 - 1` bytes (PTRDIFF_MAX, as in glibc). Freeing is not modelled.
-/

namespace Verif

/-- `struct shl_array` (src/shared/shl-array.h:37-42). `data` has as many entries as
whole elements fit into the allocated memory. -/
structure Arr (α : Type) where
  elementSize : Nat
  length : Nat
  size : Nat
  data : List (Option α)
  deriving DecidableEq

namespace Arr

variable {α : Type}

/-- `size_t` arithmetic (src/shared/shl-array.h:38-40 declares the fields). -/
@[reducible] def u64 (n : Nat) : Nat := n % 18446744073709551616

/-- Whether `malloc`/`realloc` of `n` bytes succeeds, if memory is available as told by
`mem` (src/shared/shl-array.h:58, 66, 112, 137). -/
def alloc (mem : Bool) (n : Nat) : Bool := mem && decide (n < 9223372036854775808)

/-- `shl_array_new` (src/shared/shl-array.h:47-74) for a non-zero element size; `none` for
-ENOMEM. -/
def new (elementSize initialSize : Nat) (mem : Bool) : Option (Arr α) :=
  let initialSize := if initialSize = 0 then 4 else initialSize
  if alloc mem (u64 (elementSize * initialSize)) then
    some { elementSize := elementSize, length := 0, size := initialSize,
           data := List.replicate (u64 (elementSize * initialSize) / elementSize) none }
  else none

/-- `shl_array_pow2` (src/shared/shl-array.h:86-99); `i` runs through 1, 2, 4, …, 32. -/
def pow2 (v : Nat) : Nat :=
  if v = 0 then 4
  else u64 ([1, 2, 4, 8, 16, 32].foldl (fun v i => v ||| (v >>> i)) (v - 1) + 1)

/-- What `realloc` leaves: the old elements that still fit, then uninitialised ones
(src/shared/shl-array.h:112, 137). -/
def realloc (a : Arr α) (bytes : Nat) : List (Option α) :=
  let n := bytes / a.elementSize
  a.data.take n ++ List.replicate (n - a.data.length) none

/-- Writing elements at position `pos` (`memcpy` and `memset` in
src/shared/shl-array.h:119-120, 145-146). -/
def store (data : List (Option α)) (pos : Nat) (d : List (Option α)) : R (List (Option α)) :=
  if pos + d.length ≤ data.length then .ok (data.take pos ++ d ++ data.drop (pos + d.length))
  else .error .oobHeap

/-- `shl_array_zresize` (src/shared/shl-array.h:102-125). The second component is the
return value 0 (`true`) or -ENOMEM. -/
def zresize (zero : α) (a : Arr α) (size : Nat) (mem : Bool) : R (Arr α × Bool) :=
  if size > a.size then
    let newsize := pow2 size
    let bytes := u64 (a.elementSize * newsize)
    if alloc mem bytes then do
      let data ← store (a.realloc bytes) a.length (List.replicate (size - a.length) (some zero))
      pure ({ a with data := data, size := newsize, length := size }, true)
    else .ok (a, false)
  else .ok ({ a with length := size }, true)

/-- `shl_array_push` (src/shared/shl-array.h:127-150). -/
def push (a : Arr α) (x : α) (mem : Bool) : R (Arr α × Bool) :=
  if a.length ≥ a.size then
    let newsize := u64 (a.size * 2)
    let bytes := u64 (a.elementSize * newsize)
    if alloc mem bytes then do
      let data ← store (a.realloc bytes) a.length [some x]
      pure ({ a with data := data, size := newsize, length := a.length + 1 }, true)
    else .ok (a, false)
  else do
    let data ← store a.data a.length [some x]
    pure ({ a with data := data, length := a.length + 1 }, true)

/-- `shl_array_pop` (src/shared/shl-array.h:152-158). -/
def pop (a : Arr α) : Arr α := if a.length = 0 then a else { a with length := a.length - 1 }

/-- `SHL_ARRAY_AT` (src/shared/shl-array.h:44-45), reading. The position is not checked
against the length by the code. -/
def at_ (a : Arr α) (pos : Nat) : R (Option α) :=
  match a.data[pos]? with
  | some x => .ok x
  | none => .error .oobHeap

/-- `shl_array_get_length` (src/shared/shl-array.h:168-174). -/
def getLength (a : Arr α) : Nat := a.length

/-- `shl_array_get_bsize` (src/shared/shl-array.h:176-182). -/
def getBsize (a : Arr α) : Nat := u64 (a.length * a.elementSize)

end Arr
end Verif
