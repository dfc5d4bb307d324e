/-!
# Lifetime of a pty and its file descriptors (src/shared/shl-pty.c)

`shl_pty_open` with all its error paths and both sides of the `fork`, reference counting and closing, over a table of
file descriptors as the kernel keeps it: opening takes the lowest free number, closing a number that is not open, or
using one that does not belong to the pty any more, is a distinct outcome.

Simplifications:
* `struct shl_pty` is the reference counter and the descriptor; the data flow is in `Pty.lean`. The ring buffer is
  released together with the object (src/shared/shl-pty.c:285).
* System calls other than those on descriptors (`fork`, `grantpt`, `tcsetattr`, …) succeed or fail as given from
  outside. The two processes do not share anything but the pipe; a child that fails before it has sent its message
  closes the pipe by exiting (src/shared/shl-pty.c:228-229, 238-239).
* Counters have 64 bits.
-/

namespace Verif
namespace PtyLife

/-- What goes wrong: using or closing a descriptor that is not open or belongs to something else, using an object that
has been freed. (No C counterpart: these are the model's outcomes.) -/
inductive Fault where
  | badFd
  | dangling
deriving DecidableEq, Repr

/-- What a descriptor refers to: files of the program, the two sides of the pty with number `k`, and the pipe used while
creating it (src/shared/shl-pty.c:165, 210, 214). -/
inductive File where
  | other (n : Nat)
  | master (k : Nat)
  | slave (k : Nat)
  | pipeR (k : Nat)
  | pipeW (k : Nat)
deriving DecidableEq, Repr

/-- An open descriptor; `cloexec` is `O_CLOEXEC` (src/shared/shl-pty.c:165, 210, 214). -/
structure Fd where
  file : File
  cloexec : Bool
deriving DecidableEq, Repr

/-- The descriptors of a process; no descriptor from `top` on is open (the kernel's table, e.g.
src/shared/shl-pty.c:210). -/
structure Fds where
  get : Nat → Option Fd
  top : Nat
  free : ∀ n, top ≤ n → get n = none

namespace Fds

/-- The first number from `n` on that is not open (the kernel's choice in `open`, src/shared/shl-pty.c:210). -/
def lowestFrom (get : Nat → Option Fd) : Nat → Nat → Nat
  | 0, n => n
  | f + 1, n => if get n = none then n else lowestFrom get f (n + 1)

/-- The lowest number that is not open (the kernel's choice in `open`, src/shared/shl-pty.c:210). -/
def lowest (t : Fds) : Nat := lowestFrom t.get t.top 0

/-- Entering a descriptor (e.g. src/shared/shl-pty.c:210). -/
def set (t : Fds) (n : Nat) (x : Fd) : Fds :=
  { get := fun m => if m = n then some x else t.get m
    top := max t.top (n + 1)
    free := fun m hm => by
      have h1 : t.top ≤ m := Nat.le_trans (Nat.le_max_left ..) hm
      have h2 : n + 1 ≤ m := Nat.le_trans (Nat.le_max_right ..) hm
      rw [if_neg (by omega)]
      exact t.free m h1 }

/-- `posix_openpt`, `open` and, twice, `pipe2` (src/shared/shl-pty.c:165, 210, 214). -/
def opened (t : Fds) (x : Fd) : Nat × Fds := (t.lowest, t.set t.lowest x)

/-- `close(n)` (e.g. src/shared/shl-pty.c:294). -/
def close (t : Fds) (n : Nat) : Except Fault Fds :=
  if t.get n = none then .error .badFd
  else .ok
    { get := fun m => if m = n then none else t.get m
      top := t.top
      free := fun m hm => by
        show (if m = n then none else t.get m) = none
        split
        · rfl
        · exact t.free m hm }

/-- `dup2(a, b)` (src/shared/shl-pty.c:127-129). -/
def dup2 (t : Fds) (a b : Nat) : Except Fault Fds :=
  match t.get a with
  | none => .error .badFd
  | some x => if a = b then .ok t else .ok (t.set b { x with cloexec := false })

/-- The descriptors after `exec`, which the child calls after `shl_pty_open` has returned 0
(src/shared/shl-pty.c:249-250). -/
def exec (t : Fds) : Fds :=
  { get := fun m => match t.get m with
      | some x => if x.cloexec then none else some x
      | none => none
    top := t.top
    free := fun m hm => by show (match t.get m with | some x => _ | none => none) = none; rw [t.free m hm] }

end Fds

/-- `struct shl_pty` (src/shared/shl-pty.c:61-70): the counter and the descriptor (`none` for -1). -/
structure Obj where
  ref : Nat
  fd : Option Nat
deriving DecidableEq, Repr

/-- The outcome of the system calls of `shl_pty_open` (src/shared/shl-pty.c:201-264): the first one that fails, if any. -/
inductive Sys where
  | noMem
  | noPt
  | noPipe
  | noFork
  | childFails
  | good
deriving DecidableEq, Repr

/-- The child's side of `shl_pty_open` after `fork`, if its system calls succeed (src/shared/shl-pty.c:227-250): its
descriptors, and whether its message has gone into the pipe. -/
def child (t : Fds) (k fd c0 c1 : Nat) : Except Fault (Fds × Bool) := do
  let (slave, t) := t.opened ⟨.slave k, true⟩
  let t ← t.close c0
  let t ← t.close fd
  let t ← t.dup2 slave 0
  let t ← t.dup2 slave 1
  let t ← t.dup2 slave 2
  let t ← if 2 < slave then t.close slave else pure t
  match t.get c1 with
  | none => .error .badFd
  | some x => do
    let t ← t.close c1
    pure (t, decide (x.file = .pipeW k))

/-- The program: its descriptors, the objects by handle (`none` when freed), and the child processes that were started,
with their descriptors when `shl_pty_open` returns in them (src/shared/shl-pty.c:61-70, 220-250). -/
structure World where
  fds : Fds
  objs : List (Option Obj)
  children : List Fds

/-- `shl_pty_close` (src/shared/shl-pty.c:289-296) on the descriptors. -/
def closeObj (t : Fds) (o : Obj) : Except Fault (Fds × Obj) :=
  match o.fd with
  | none => .ok (t, o)
  | some f => do
    let t ← t.close f
    pure (t, { o with fd := none })

/-- `shl_pty_unref` (src/shared/shl-pty.c:279-287): the object, or `none` when it is freed. -/
def unrefObj (t : Fds) (o : Obj) : Except Fault (Fds × Option Obj) :=
  if o.ref = 0 then .ok (t, some o)
  else if o.ref - 1 = 0 then do
    let (t, _) ← closeObj t { o with ref := 0 }
    pure (t, none)
  else .ok (t, some { o with ref := o.ref - 1 })

/-- `shl_closep` (src/shared/shl-macro.h:59-63), the cleanup of the local variable `fd` (src/shared/shl-pty.c:193). -/
def closep (t : Fds) : Option Nat → Except Fault Fds
  | none => .ok t
  | some f => t.close f

/-- Leaving `shl_pty_open` in the parent on an error: the cleanups of `fd` and `pty`
(src/shared/shl-pty.c:192-193). The object is freed. -/
def bail (t : Fds) (fd : Option Nat) (o : Obj) : Except Fault Fds := do
  let t ← closep t fd
  let (t, _) ← unrefObj t o
  pure t

/-- `shl_pty_open` in the parent (src/shared/shl-pty.c:186-269). The new handle is `NULL` (`none` in the list) if it
fails. `k` is the number of the pty. -/
def openPty (w : World) (s : Sys) : Except Fault World :=
  let k := w.objs.length
  let fail (t : Fds) : World := { w with fds := t, objs := w.objs ++ [none] }
  if s = .noMem then .ok (fail w.fds)
  else if s = .noPt then do
    let t ← bail w.fds none ⟨1, none⟩
    pure (fail t)
  else
    let (fd, t) := w.fds.opened ⟨.master k, true⟩
    if s = .noPipe then do
      let t ← bail t (some fd) ⟨1, none⟩
      pure (fail t)
    else
      let (c0, t) := t.opened ⟨.pipeR k, true⟩
      let (c1, t) := t.opened ⟨.pipeW k, true⟩
      if s = .noFork then do
        let t ← t.close c0
        let t ← t.close c1
        let t ← bail t (some fd) ⟨1, none⟩
        pure (fail t)
      else do
        let (children, sent) ← if s = .childFails then pure (w.children, false) else do
          let (ct, sent) ← child t k fd c0 c1
          pure (w.children ++ [ct], sent)
        let t ← t.close c1
        match t.get c0 with
        | none => .error .badFd
        | some x => do
          let t ← t.close c0
          if x.file = .pipeR k ∧ sent then
            pure { fds := t, objs := w.objs ++ [some ⟨1, some fd⟩], children := children }
          else do
            let t ← bail t none ⟨1, some fd⟩
            pure { fds := t, objs := w.objs ++ [none], children := children }

/-- The object behind a handle (e.g. src/shared/shl-pty.c:273). -/
def World.obj (w : World) (h : Nat) : Except Fault Obj :=
  match w.objs[h]? with
  | some (some o) => .ok o
  | _ => .error .dangling

/-- `shl_pty_get_fd` (src/shared/shl-pty.c:303-309), `none` for `-EPIPE`; `shl_pty_is_open` is whether there is one
(src/shared/shl-pty.c:298-301). -/
def World.getFd (w : World) (h : Nat) : Except Fault (Option Nat) := do
  let o ← w.obj h
  pure o.fd

/-- The calls of a program: those of the pty (src/shared/shl-pty.h:32-57), with `use` for all functions that work on
the descriptor, and opening and closing other files. -/
inductive Call where
  | openPty (s : Sys)
  | ref (h : Nat)
  | unref (h : Nat)
  | close (h : Nat)
  | use (h : Nat)
  | openOther (n : Nat) (cloexec : Bool)
  | closeOther (fd : Nat)
deriving DecidableEq, Repr

/-- One call (src/shared/shl-pty.c:186-317, 393-439). `use` stands for `shl_pty_dispatch`, `shl_pty_signal` and
`shl_pty_resize`, which do nothing if the pty is closed and otherwise work on its descriptor. -/
def step (w : World) : Call → Except Fault World
  | .openPty s => openPty w s
  | .ref h => do
    let o ← w.obj h
    pure { w with objs := w.objs.set h (some (if o.ref = 0 then o else { o with ref := (o.ref + 1) % 2 ^ 64 })) }
  | .unref h => do
    let o ← w.obj h
    let (t, o) ← unrefObj w.fds o
    pure { w with fds := t, objs := w.objs.set h o }
  | .close h => do
    let o ← w.obj h
    let (t, o) ← closeObj w.fds o
    pure { w with fds := t, objs := w.objs.set h (some o) }
  | .use h => do
    let o ← w.obj h
    match o.fd with
    | none => pure w
    | some f => if (w.fds.get f).map Fd.file = some (.master h) then pure w else .error .badFd
  | .openOther n c => .ok { w with fds := (w.fds.opened ⟨.other n, c⟩).2 }
  | .closeOther f => do
    let t ← w.fds.close f
    pure { w with fds := t }

/-- Calls one after the other (src/shared/shl-pty.c:186-317, 393-439). -/
def run (w : World) : List Call → Except Fault World
  | [] => .ok w
  | c :: cs => do
    let w ← step w c
    run w cs

end PtyLife
end Verif
