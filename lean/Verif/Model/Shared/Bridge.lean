import Verif.Model.Shared.Pty

/-!
# The pty bridge (src/shared/shl-pty.c:441-552)

An epoll set with edge-triggered entries: an entry reports an event once when it is added while its pty is ready, and
once whenever new input arrives or new room for output appears. All entries ask for input, output, hang-up and errors.

Simplifications: the ptys are numbered and all exist from the start, so that their life time is left to `PtyLife.lean`;
input that arrives during a dispatch counts as arriving after it; an event is pending or not, whatever its kind. The
callback of a pty does not call the bridge.
-/

namespace Verif

/-- A pty and its entry in the epoll set (src/shared/shl-pty.c:61-70, 519-552). `last` is the result of its last
dispatch, which the code throws away (src/shared/shl-pty.c:478-493). -/
structure BrItem where
  pty : Pty
  watched : Bool
  event : Bool
  last : PtyRet

/-- The bridge (src/shared/shl-pty.c:451-460). -/
structure Bridge where
  item : Nat → BrItem

namespace Bridge

/-- A new bridge (src/shared/shl-pty.c:451-460) and new ptys (src/shared/shl-pty.c:201-208). -/
def init : Bridge := ⟨fun _ => ⟨Pty.init, false, false, .ok⟩⟩

/-- Changing one pty (e.g. src/shared/shl-pty.c:533-536). -/
def set (b : Bridge) (i : Nat) (x : BrItem) : Bridge := ⟨fun j => if j = i then x else b.item j⟩

/-- `EPOLL_CTL_ADD` (src/shared/shl-pty.c:486-489, 533-536): fails with EEXIST if there is an entry already; the new
entry has an event if the pty is ready. `w` is whether there is room for output. -/
def ctlAdd (x : BrItem) (w : Bool) : BrItem × PtyRet :=
  if x.watched then (x, .errno) else ({ x with watched := true, event := decide (x.pty.inq ≠ []) || w }, .ok)

/-- `shl_pty_bridge_add` (src/shared/shl-pty.c:519-541). -/
def add (b : Bridge) (i : Nat) (w : Bool) : Bridge × PtyRet :=
  if (b.item i).pty.isOpen then
    let (x, r) := ctlAdd (b.item i) w
    (b.set i x, r)
  else (b, .enodev)

/-- `shl_pty_bridge_remove` (src/shared/shl-pty.c:543-552). -/
def remove (b : Bridge) (i : Nat) : Bridge :=
  if (b.item i).pty.isOpen then b.set i { b.item i with watched := false, event := false } else b

/-- `shl_pty_bridge_dispatch_pty` (src/shared/shl-pty.c:470-493). It returns 0 whatever `shl_pty_dispatch` returned. -/
def dispatchPty (e : PtyEnv) (b : Bridge) (i : Nat) (r1 r2 w1 w2 : KRes) (w : Bool) : R (Bridge × PtyRet) := do
  let x := b.item i
  let (p, r) ← x.pty.dispatch e r1 r2 w1 w2
  let x := { x with pty := p, last := r }
  if r = .eagain then pure (b.set i (ctlAdd x w).1, .ok) else pure (b.set i x, .ok)

/-- `shl_pty_bridge_dispatch` (src/shared/shl-pty.c:495-517) when `epoll_wait` reports pty `i`, which it does only if
there is an event; that uses up the event. Without one it returns 0. -/
def dispatch (e : PtyEnv) (b : Bridge) (i : Nat) (r1 r2 w1 w2 : KRes) (w : Bool) : R (Bridge × PtyRet) :=
  if (b.item i).event then dispatchPty e (b.set i { b.item i with event := false }) i r1 r2 w1 w2 w
  else .ok (b, .ok)

/-- What happens: the calls (src/shared/shl-pty.h:52-53, 39, 64-67), output of the child and new room for output. -/
inductive Op where
  | add (i : Nat) (w : Bool)
  | remove (i : Nat)
  | dispatch (i : Nat) (r1 r2 w1 w2 : KRes) (w : Bool)
  | dispatchPty (i : Nat) (r1 r2 w1 w2 : KRes) (w : Bool)
  | write (i : Nat) (d : List UInt8)
  | close (i : Nat)
  | child (i : Nat) (d : List UInt8)
  | room (i : Nat)

/-- One step (src/shared/shl-pty.c:289-296, 405-411, 470-552). Closing the descriptor takes it out of the epoll set. -/
def step (e : PtyEnv) (b : Bridge) : Op → R (Bridge × PtyRet)
  | .add i w => .ok (b.add i w)
  | .remove i => .ok (b.remove i, .ok)
  | .dispatch i r1 r2 w1 w2 w => b.dispatch e i r1 r2 w1 w2 w
  | .dispatchPty i r1 r2 w1 w2 w => b.dispatchPty e i r1 r2 w1 w2 w
  | .write i d => do
    let (p, r) ← (b.item i).pty.write e d
    pure (b.set i { b.item i with pty := p }, r)
  | .close i => .ok (b.set i { b.item i with pty := (b.item i).pty.close, watched := false, event := false }, .ok)
  | .child i d =>
    let x := b.item i
    .ok (b.set i { x with pty := { x.pty with inq := x.pty.inq ++ d },
                          event := x.event || (x.watched && decide (d ≠ [])) }, .ok)
  | .room i => .ok (b.set i { b.item i with event := (b.item i).event || (b.item i).watched }, .ok)

/-- A history (src/shared/shl-pty.c:441-552). -/
def run (e : PtyEnv) (b : Bridge) : List Op → R Bridge
  | [] => .ok b
  | o :: os => do
    let (b, _) ← step e b o
    run e b os

end Bridge
end Verif
