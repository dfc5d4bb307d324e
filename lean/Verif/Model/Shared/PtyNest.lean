import Verif.Model.Shared.Pty

/-!
# Calls of the pty from its own input callback (src/shared/shl-pty.c)

`Model/Shared/Pty.lean` has callbacks that only write. Here a callback does what it likes with the pty that called it:
it writes, closes it, takes and drops references, dispatches it again, and looks at the bytes it was given.
-/

namespace Verif.PtyNest

open Verif

/-- A program using one pty; `k` is the rest of it. The callbacks of a `shl_pty_dispatch` are such programs too: `a1` is
run if the first `read` gives bytes, `a2` if the second does (src/shared/shl-pty.c:369-388; the functions are those of
src/shared/shl-pty.h:39-53). -/
inductive Prog where
  | done
  /-- `shl_pty_write` -/
  | write (d : List UInt8) (k : Prog)
  /-- `shl_pty_close` -/
  | close (k : Prog)
  /-- `shl_pty_ref` -/
  | ref (k : Prog)
  /-- `shl_pty_unref` -/
  | unref (k : Prog)
  /-- the other side writes -/
  | child (d : List UInt8) (k : Prog)
  /-- the callback reads the bytes it was called with -/
  | look (k : Prog)
  /-- `shl_pty_dispatch`, with the outcomes of its system calls -/
  | dispatch (r1 : KRes) (a1 : Prog) (r2 : KRes) (a2 : Prog) (w1 w2 : KRes) (k : Prog)

/-- `struct shl_pty` (src/shared/shl-pty.c:61-70) with its counter and buffer; the last three fields have no counterpart
in the code. -/
structure St where
  p : Pty
  ref : Nat
  /-- false after `free` -/
  live : Bool
  /-- `in_buf` -/
  buf : List UInt8
  /-- what the other side has written -/
  wrote : List UInt8
  /-- what had been received, sent and accepted when the pty was closed -/
  last : Option (List UInt8 × List UInt8 × List UInt8)
  /-- for each `look`: the bytes the callback was called with, and those it finds at this address -/
  seen : List (List UInt8 × List UInt8)

namespace St

/-- A new pty (src/shared/shl-pty.c:201-208, 254-268). -/
def init : St := { p := Pty.init, ref := 1, live := true, buf := [], wrote := [], last := none, seen := [] }

/-- Each access to the object needs that it was not freed (src/shared/shl-pty.c:286). -/
def alive (s : St) : R Unit := if s.live then .ok () else .error .dangling

/-- `shl_pty_close` (src/shared/shl-pty.c:289-296). -/
def close (s : St) : St :=
  if s.p.isOpen then { s with p := s.p.close, last := some (s.p.got, s.p.sent, s.p.accepted) } else s

/-- `shl_pty_unref` (src/shared/shl-pty.c:279-287). -/
def unref (s : St) : St :=
  if s.ref = 0 then s
  else if s.ref - 1 = 0 then { close { s with ref := 0 } with live := false }
  else { s with ref := s.ref - 1 }

/-- One round of the loop of `pty_read` with the callback `cb` (src/shared/shl-pty.c:369-388): what it returns, or `none`
if the loop goes on. After `shl_pty_close` the descriptor is -1, so `read` fails with EBADF. -/
def readOnce (s : St) (k : KRes) (cb : List UInt8 → St → R St) : R (St × Option PtyRet) := do
  s.alive
  if s.p.isOpen then
    match k with
    | .again => .ok (s, some .ok)
    | .intr => .ok (s, some .eagain)
    | .fail => .ok (s, some .errno)
    | .zero => .ok (s, some .epipe)
    | .some n =>
      let d := s.p.inq.take (min (n + 1) 16383)
      if d = [] then .ok (s, some .ok)
      else do
        let s ← cb d { s with
          p := { s.p with inq := s.p.inq.drop (min (n + 1) 16383), got := s.p.got ++ d }
          buf := d ++ 0 :: s.buf.drop (d.length + 1) }
        pure (s, none)
  else .ok (s, some .errno)

/-- `pty_read` (src/shared/shl-pty.c:356-391). -/
def readTwice (s : St) (r1 : KRes) (cb1 : List UInt8 → St → R St) (r2 : KRes) (cb2 : List UInt8 → St → R St) :
    R (St × PtyRet) := do
  let (s, r) ← s.readOnce r1 cb1
  match r with
  | some r => pure (s, r)
  | none => do
    let (s, r) ← s.readOnce r2 cb2
    pure (s, r.getD .eagain)

/-- `pty_write` (src/shared/shl-pty.c:319-354). With descriptor -1 `writev` fails. -/
def writeBack (s : St) (w1 w2 : KRes) : R St := do
  s.alive
  if s.p.isOpen then do
    let (p, _) ← s.p.writeLoop [w1, w2]
    pure { s with p := p }
  else .ok s

/-- `shl_pty_dispatch` (src/shared/shl-pty.c:393-403). -/
def dispatch (s : St) (r1 : KRes) (cb1 : List UInt8 → St → R St) (r2 : KRes) (cb2 : List UInt8 → St → R St)
    (w1 w2 : KRes) : R (St × PtyRet) := do
  s.alive
  if s.p.isOpen then do
    let (s, r) ← s.readTwice r1 cb1 r2 cb2
    let s ← s.writeBack w1 w2
    pure (s, r)
  else .ok (s, .enodev)

end St

/-- Running a program; `cur` are the bytes it was called with, if it is a callback. `e` says which pushes find memory
(src/shared/shl-pty.c:271-296, 393-411). -/
def run (e : PtyEnv) : Prog → List UInt8 → St → R St
  | .done, _, s => .ok s
  | .write d k, cur, s => do
    s.alive
    let (p, _) ← s.p.write e d
    run e k cur { s with p := p }
  | .close k, cur, s => do
    s.alive
    run e k cur s.close
  | .ref k, cur, s => do
    s.alive
    run e k cur (if s.ref = 0 then s else { s with ref := (s.ref + 1) % 2 ^ 64 })
  | .unref k, cur, s => do
    s.alive
    run e k cur s.unref
  | .child d k, cur, s => run e k cur { s with p := { s.p with inq := s.p.inq ++ d }, wrote := s.wrote ++ d }
  | .look k, cur, s => do
    s.alive
    run e k cur { s with seen := s.seen ++ [(cur, s.buf.take cur.length)] }
  | .dispatch r1 a1 r2 a2 w1 w2 k, cur, s => do
    let (s, _) ← s.dispatch r1 (run e a1) r2 (run e a2) w1 w2
    run e k cur s

end Verif.PtyNest
