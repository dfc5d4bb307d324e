import Verif.Model.Base

/-!
# Ring buffer (src/shared/shl-ring.c)

Bytes of a buffer are `Option UInt8`; `none` is a byte that was never written
since `malloc`. `size_t` has 64 bits; sums are reduced modulo `2^64` where the
code computes them.
-/

namespace Verif

/-- `struct shl_ring` (src/shared/shl-ring.h:21-26). `buf = []` for the NULL
pointer of an empty ring. -/
structure Ring where
  /-- the allocated bytes -/
  buf : List (Option UInt8)
  size : Nat
  start : Nat
  used : Nat
  deriving DecidableEq, Repr

namespace Ring

/-- A ring in initial state, all zero (src/shared/shl-ring.h:29-32; `calloc` in
src/shared/shl-pty.c:201). -/
def empty : Ring := { buf := [], size := 0, start := 0, used := 0 }

/-- `size_t` arithmetic (src/shared/shl-ring.h:23-25 declares the fields). -/
@[reducible] def u64 (n : Nat) : Nat := n % 18446744073709551616

/-- Reading `n` bytes at offset `off`, the source side of `memcpy`
(src/shared/shl-ring.c:81-84, 107-110). -/
def load (buf : List (Option UInt8)) (off n : Nat) : R (List (Option UInt8)) :=
  if off + n ≤ buf.length then .ok ((buf.drop off).take n) else .error .oobHeap

/-- Writing bytes at offset `off`, the destination side of `memcpy`
(src/shared/shl-ring.c:107-110, 166-169). -/
def store (buf : List (Option UInt8)) (off : Nat) (d : List (Option UInt8)) :
    R (List (Option UInt8)) :=
  if off + d.length ≤ buf.length then .ok (buf.take off ++ d ++ buf.drop (off + d.length))
  else .error .oobHeap

/-- `RING_MASK` (src/shared/shl-ring.c:19); `size - 1` wraps for an empty ring. -/
def mask (size v : Nat) : Nat := u64 v &&& u64 (size + 18446744073709551615)

/-- `SHL_ALIGN_POWER2` (src/shared/shl-macro.h:142-145). `64 - clz (u - 1)` is the
number of bits of `u - 1`; `clz` of 0 and a shift by 64 are undefined. -/
def alignPower2 (u : Nat) : R Nat :=
  let v := u64 (u + 18446744073709551615)
  if v = 0 then .error .badShift
  else if 64 ≤ Nat.log2 v + 1 then .error .badShift
  else .ok (u64 (2 ^ (Nat.log2 v + 1)))

/-- `shl_ring_flush` (src/shared/shl-ring.c:21-25). -/
def flush (r : Ring) : Ring := { r with start := 0, used := 0 }

/-- `shl_ring_clear` (src/shared/shl-ring.c:27-31). -/
def clear (_ : Ring) : Ring := empty

/-- `shl_ring_peek` (src/shared/shl-ring.c:45-64): the filled vectors, as offset into
`buf` and length. -/
def peek (r : Ring) : List (Nat × Nat) :=
  if r.used = 0 then []
  else if u64 (r.start + r.used) ≤ r.size then [(r.start, r.used)]
  else [(r.start, r.size - r.start), (0, r.used - (r.size - r.start))]

/-- The bytes a reader of the vectors returned by `shl_ring_peek` gets
(src/shared/shl-ring.c:51-60 sets up the pointers; `writev` in
src/shared/shl-pty.c:338 reads through them). -/
def gather (r : Ring) : List (Nat × Nat) → R (List (Option UInt8))
  | [] => .ok []
  | v :: vs => do
    let a ← load r.buf v.1 v.2
    let b ← gather r vs
    pure (a ++ b)

/-- `shl_ring_copy` (src/shared/shl-ring.c:71-90): the bytes copied; the caller's
buffer is assumed to have room for `size` bytes. -/
def copy (r : Ring) (size : Nat) : R (List (Option UInt8)) :=
  let size := if size > r.used then r.used else size
  if size > 0 then
    let l := r.size - r.start
    if size ≤ l then load r.buf r.start size
    else do
      let a ← load r.buf r.start l
      let b ← load r.buf 0 (size - l)
      pure (a ++ b)
  else .ok []

/-- The part of `ring_resize` that copies the queued bytes to the start of the new
buffer (src/shared/shl-ring.c:104-112). -/
def moveTo (r : Ring) (new : List (Option UInt8)) : R (List (Option UInt8)) :=
  if r.used > 0 then
    let l := r.size - r.start
    if r.used ≤ l then load r.buf r.start r.used >>= fun a => store new 0 a
    else do
      let a ← load r.buf r.start l
      let new ← store new 0 a
      let b ← load r.buf 0 (r.used - l)
      store new l b
  else .ok new

/-- `ring_resize` (src/shared/shl-ring.c:95-121); `ok` tells whether `malloc`
succeeds. The second component is the return value 0 (`true`) or -ENOMEM. -/
def resize (r : Ring) (nsize : Nat) (ok : Bool) : R (Ring × Bool) :=
  if ok then do
    let new := List.replicate nsize none
    let new ← moveTo r new
    pure ({ r with buf := new, size := nsize, start := 0 }, true)
  else .ok (r, false)

/-- `ring_grow` (src/shared/shl-ring.c:127-146). -/
def grow (r : Ring) (add : Nat) (ok : Bool) : R (Ring × Bool) :=
  if r.size - r.used ≥ add then .ok (r, true)
  else
    let need := u64 (r.used + add)
    if need ≤ r.used then .ok (r, false)
    else do
      let need ← alignPower2 (if need < 4096 then 4096 else need)
      if need = 0 then pure (r, false) else resize r need ok

/-- The part of `shl_ring_push` that copies the new bytes into the buffer
(src/shared/shl-ring.c:163-170). -/
def append (r : Ring) (src : List (Option UInt8)) : R (List (Option UInt8)) :=
  let pos := mask r.size (r.start + r.used)
  let l := r.size - pos
  if l ≥ src.length then store r.buf pos src
  else do
    let buf ← store r.buf pos (src.take l)
    store buf 0 (src.drop l)

/-- `shl_ring_push` (src/shared/shl-ring.c:151-175). -/
def push (r : Ring) (d : List UInt8) (ok : Bool) : R (Ring × Bool) :=
  if d.length = 0 then .ok (r, true)
  else do
    let (r, good) ← grow r d.length ok
    if good then
      let buf ← append r (d.map some)
      pure ({ r with buf := buf, used := u64 (r.used + d.length) }, true)
    else pure (r, false)

/-- `shl_ring_pull` (src/shared/shl-ring.c:181-188). -/
def pull (r : Ring) (size : Nat) : Ring :=
  let size := if size > r.used then r.used else size
  { r with start := mask r.size (r.start + size), used := r.used - size }

/-- `shl_ring_get_size` (src/shared/shl-ring.h:47-50). -/
def getSize (r : Ring) : Nat := r.used

end Ring
end Verif
