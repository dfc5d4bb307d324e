import Verif.Model.Shared.Ring

/-!
# Data flow of the pty (src/shared/shl-pty.c)

The kernel is an environment: how much each `read`/`writev` transfers, and
which of them fail, is given from outside. Bytes the other side wrote and that
were not read yet are in `inq`. Creating the child, signals, window sizes and
the epoll bridge are not modelled.
-/

namespace Verif

/-- Outcome of a `read` or `writev` (src/shared/shl-pty.c:338-350, 370-387): up to
`n + 1` bytes are transferred, or the call returns 0, or fails with EAGAIN, EINTR
or another error. -/
inductive KRes where
  | some (n : Nat)
  | zero
  | again
  | intr
  | fail
  deriving DecidableEq, Repr

/-- Return values of the pty functions (src/shared/shl-pty.c:319-411). -/
inductive PtyRet where
  | ok
  | eagain
  | epipe
  | errno
  | enodev
  | enomem
  deriving DecidableEq, Repr

/-- `struct shl_pty` (src/shared/shl-pty.c:61-70), with the history of the transferred
bytes, which has no counterpart in the code. -/
structure Pty where
  /-- `fd >= 0` -/
  isOpen : Bool
  out : Ring
  /-- written by the other side, not yet read -/
  inq : List UInt8
  /-- passed to `fn_input` so far -/
  got : List UInt8
  /-- accepted by the kernel so far -/
  sent : List UInt8
  /-- arguments of all `shl_pty_write` calls that returned 0 -/
  accepted : List UInt8
  /-- number of `shl_ring_push` calls so far -/
  pushes : Nat

/-- The surroundings: which pushes find memory, and what the input callback writes
back when it gets some bytes (src/shared/shl-pty.c:68, 383-386). The callback does not
close the pty. -/
structure PtyEnv where
  mem : Nat → Bool
  reply : List UInt8 → List (List UInt8)

namespace Pty

/-- A new pty (src/shared/shl-pty.c:201-208, 254-268). -/
def init : Pty :=
  { isOpen := true, out := Ring.empty, inq := [], got := [], sent := [], accepted := [], pushes := 0 }

/-- `shl_pty_write` (src/shared/shl-pty.c:405-411). -/
def write (e : PtyEnv) (p : Pty) (d : List UInt8) : R (Pty × PtyRet) :=
  if p.isOpen then do
    let (out, good) ← p.out.push d (e.mem p.pushes)
    if good then
      pure ({ p with out := out, accepted := p.accepted ++ d, pushes := p.pushes + 1 }, .ok)
    else pure ({ p with out := out, pushes := p.pushes + 1 }, .enomem)
  else .ok (p, .enodev)

/-- All writes made by the callback (src/shared/shl-pty.c:383-386). -/
def writeAll (e : PtyEnv) (p : Pty) : List (List UInt8) → R Pty
  | [] => .ok p
  | d :: ds => do
    let (p, _) ← write e p d
    writeAll e p ds

/-- The loop of `pty_read` (src/shared/shl-pty.c:369-390); the list gives the outcomes
of the remaining `read` calls. `in_buf` has room for 16383 bytes and a zero. -/
def readLoop (e : PtyEnv) (p : Pty) : List KRes → R (Pty × PtyRet)
  | [] => .ok (p, .eagain)
  | k :: ks =>
    match k with
    | .again => .ok (p, .ok)
    | .intr => .ok (p, .eagain)
    | .fail => .ok (p, .errno)
    | .zero => .ok (p, .epipe)
    | .some n =>
      let len := min (n + 1) 16383
      if p.inq = [] then .ok (p, .ok)
      else do
        let d := p.inq.take len
        let p ← writeAll e { p with inq := p.inq.drop len, got := p.got ++ d } (e.reply d)
        readLoop e p ks

/-- The loop of `pty_write` (src/shared/shl-pty.c:333-353). The bytes are read through
the vectors filled by `shl_ring_peek`; a byte that was never written would be sent as
an arbitrary value, here 0. -/
def writeLoop (p : Pty) : List KRes → R (Pty × PtyRet)
  | [] => .ok (p, if p.out.getSize > 0 then .eagain else .ok)
  | k :: ks =>
    if p.out.peek = [] then .ok (p, .ok)
    else
      match k with
      | .again => .ok (p, .ok)
      | .intr => .ok (p, .eagain)
      | .fail => .ok (p, .errno)
      | .zero => .ok (p, .epipe)
      | .some n => do
        let all ← p.out.gather p.out.peek
        let d := all.take (n + 1)
        writeLoop { p with out := p.out.pull d.length, sent := p.sent ++ d.map (·.getD 0) } ks

/-- `shl_pty_dispatch` (src/shared/shl-pty.c:393-403); `r1 r2` are the outcomes of the
reads, `w1 w2` those of the writes. -/
def dispatch (e : PtyEnv) (p : Pty) (r1 r2 w1 w2 : KRes) : R (Pty × PtyRet) :=
  if p.isOpen then do
    let (p, ret) ← readLoop e p [r1, r2]
    let (p, _) ← writeLoop p [w1, w2]
    pure (p, ret)
  else .ok (p, .enodev)

/-- `shl_pty_close` (src/shared/shl-pty.c:289-296). -/
def close (p : Pty) : Pty := { p with isOpen := false }

/-- The calls of the application, and writing by the other side of the pty
(src/shared/shl-pty.h:39, 52-53). -/
inductive Op where
  | write (d : List UInt8)
  | dispatch (r1 r2 w1 w2 : KRes)
  | close
  | child (d : List UInt8)

/-- One step (src/shared/shl-pty.c:289-296, 393-411). -/
def step (e : PtyEnv) (p : Pty) : Op → R (Pty × PtyRet)
  | .write d => write e p d
  | .dispatch r1 r2 w1 w2 => dispatch e p r1 r2 w1 w2
  | .close => .ok (close p, .ok)
  | .child d => .ok ({ p with inq := p.inq ++ d }, .ok)

/-- A history (src/shared/shl-pty.c:289-296, 393-411). -/
def run (e : PtyEnv) (p : Pty) : List Op → R Pty
  | [] => .ok p
  | o :: os => do
    let (p, _) ← step e p o
    run e p os

end Pty
end Verif
