import Verif.Model.Base

/-!
# What a widget of gtktsm owns (src/gtktsm/gtktsm-terminal.c)

The objects that a widget allocates, the sources that it registers with the main loop of GLib, the set of ptys of its
bridge and the children that were started, without what is in them. `has` tells which objects exist, `src` which sources are
registered with which callback. Numbers of objects, sources (GLib gives each a new one, not 0) and processes are taken from
one counter.
-/

namespace Verif.Gtk.Life

/-- The callbacks, all of which get the widget as their data (src/gtktsm/gtktsm-terminal.c:1544, 1815-1818, 2006). -/
inductive Fn where
  | bridge
  | idle
  | child (pid : Nat)
  deriving DecidableEq

/-- Allocated objects (src/gtktsm/gtktsm-terminal.c:1091-1123). -/
inductive Obj where
  | rend
  | font
  | screen
  | vte
  | bridge
  | chan
  | pty (n : Nat)
  | face (n : Nat)
  deriving DecidableEq

/-- What can go wrong; `abort` is `g_error`, which ends the program (src/gtktsm/gtktsm-terminal.c:1197-1199, 1539-1540,
1997-1998, 2003-2004). -/
inductive Fault where
  | abort
  /-- `g_source_remove` of a source that is not registered -/
  | noSource
  /-- use of an object, or of the widget, that does not exist -/
  | afterFree
  deriving DecidableEq

/-- The objects and the fields of the widget that refer to them (src/gtktsm/gtktsm-terminal.c:1091-1124). `faces` are
the faces that are not NULL, the regular one first. -/
structure S where
  next : Nat
  src : Nat → Option Fn
  has : Obj → Bool
  epoll : Nat → Bool
  fontRef : Nat
  kids : Nat → Bool
  gone : Bool
  bridgeSrc : Nat
  idleSrc : Nat
  childSrc : Nat
  pty : Option Nat
  faces : List Nat

/-- `src` with another value at `i` (as `g_source_attach`, `g_source_destroy`; src/gtktsm/gtktsm-terminal.c:1544, 1752). -/
def upd {α β : Type} [DecidableEq α] (f : α → β) (i : α) (v : β) : α → β := fun j => if j = i then v else f j

/-- `g_idle_add`, `g_io_add_watch`, `g_child_watch_add` (src/gtktsm/gtktsm-terminal.c:1544, 1815, 2006): the number
of the source is `s.next`. -/
def attach (s : S) (f : Fn) : S := { s with src := upd s.src s.next (some f), next := s.next + 1 }

/-- `g_source_remove` (src/gtktsm/gtktsm-terminal.c:1752, 1759, 1768). -/
def sourceRemove (s : S) (i : Nat) : Except Fault S :=
  if (s.src i).isSome then .ok { s with src := upd s.src i none } else .error .noSource

/-- An access to an object (src/gtktsm/gtktsm-terminal.c:1519, 1538). -/
def use (s : S) (o : Obj) : Except Fault S := if s.has o then .ok s else .error .afterFree

/-- The end of an object, `free` or `close` (src/gtktsm/gtktsm-terminal.c:147, 337, src/shared/shl-pty.c:286, 467). -/
def free (s : S) (o : Obj) : Except Fault S :=
  if s.has o then .ok { s with has := upd s.has o false } else .error .afterFree

/-- `gtktsm_font_unref` (src/gtktsm/gtktsm-terminal.c:141-148). -/
def fontUnref (s : S) : Except Fault S :=
  use s .font >>= fun s =>
    if s.fontRef = 0 then .ok s
    else if s.fontRef - 1 = 0 then free { s with fontRef := 0 } .font
    else .ok { s with fontRef := s.fontRef - 1 }

/-- `gtktsm_face_free` (src/gtktsm/gtktsm-terminal.c:328-338). -/
def faceFree (s : S) (n : Nat) : Except Fault S := free s (.face n) >>= fontUnref

/-- `gtktsm_face_new` (src/gtktsm/gtktsm-terminal.c:279-321); `good` tells whether the font can be used. -/
def faceNew (s : S) (good : Bool) : Except Fault (S × Option Nat) :=
  use s .font >>= fun s =>
    let n := s.next
    let s : S := { s with fontRef := s.fontRef + 1, has := upd s.has (.face n) true, next := n + 1 }
    if good then .ok (s, some n) else faceFree s n >>= fun s => .ok (s, none)

/-- The four calls of `gtktsm_face_free` (src/gtktsm/gtktsm-terminal.c:1201-1204, 1761-1764). -/
def facesFree : List Nat → S → Except Fault S
  | [], s => .ok s
  | n :: ns, s => faceFree s n >>= facesFree ns

/-- The calls of `gtktsm_face_new` for the optional faces (src/gtktsm/gtktsm-terminal.c:1209-1243). -/
def facesNew : List Bool → S → Except Fault S
  | [], s => .ok s
  | g :: gs, s => faceNew s g >>= fun r => facesNew gs { r.1 with faces := r.1.faces ++ r.2.toList }

/-- `terminal_set_font` (src/gtktsm/gtktsm-terminal.c:1183-1247). -/
def setFont (s : S) (g0 g1 g2 g3 : Bool) : Except Fault S :=
  faceNew s g0 >>= fun r =>
    match r.2 with
    | none => .error .abort
    | some n => facesFree r.1.faces r.1 >>= fun s => facesNew [g1, g2, g3] { s with faces := [n] }

/-- `terminal_write_fn` (src/gtktsm/gtktsm-terminal.c:1526-1545); `mem` tells whether there is memory. -/
def writeFn (s : S) (mem : Bool) : Except Fault S :=
  match s.pty with
  | none => .ok s
  | some n =>
    use s (.pty n) >>= fun s =>
      if mem then
        if s.idleSrc = 0 then .ok { attach s .idle with idleSrc := s.next } else .ok s
      else .error .abort

/-- Input for the emulator or a key, which lets it answer once for each element of `ws`
(src/gtktsm/gtktsm-terminal.c:1412-1416, 1944-1954). -/
def emulate (ws : List Bool) (s : S) : Except Fault S :=
  use s .vte >>= fun s => use s .screen >>= fun s =>
    match ws with
    | [] => .ok s
    | w :: ws => writeFn s w >>= emulate ws

/-- `terminal_idle_fn` (src/gtktsm/gtktsm-terminal.c:1509-1524). -/
def idleFn (s : S) (ws : List Bool) : Except Fault S :=
  let s := { s with idleSrc := 0 }
  match s.pty with
  | none => .ok s
  | some n => use s .bridge >>= fun s => use s (.pty n) >>= emulate ws

/-- `terminal_bridge_fn` (src/gtktsm/gtktsm-terminal.c:1598-1611, src/shared/shl-pty.c:495-517); `ev` is the pty of which
the kernel reports an event, if it is in the set. -/
def bridgeFn (s : S) (ev : Nat) (ws : List Bool) : Except Fault S :=
  use s .bridge >>= fun s => if s.epoll ev then use s (.pty ev) >>= emulate ws else .ok s

/-- Removing the pty from the bridge, closing and releasing it (src/gtktsm/gtktsm-terminal.c:1753-1755, 1966-1968,
src/shared/shl-pty.c:279-296, 543-552). -/
def ptyEnd (s : S) (n : Nat) : Except Fault S :=
  use s .bridge >>= fun s => free { s with epoll := upd s.epoll n false } (.pty n)

/-- The pty in `terminal_finalize` (src/gtktsm/gtktsm-terminal.c:1750-1756). -/
def finalizePty (s : S) : Except Fault S :=
  match s.pty with
  | none => .ok s
  | some n => (if s.childSrc ≠ 0 then sourceRemove s s.childSrc else .ok s) >>= fun s => ptyEnd s n

/-- The idle source in `terminal_finalize` (src/gtktsm/gtktsm-terminal.c:1758-1759). -/
def finalizeIdle (s : S) : Except Fault S := if s.idleSrc ≠ 0 then sourceRemove s s.idleSrc else .ok s

/-- `terminal_finalize` (src/gtktsm/gtktsm-terminal.c:1745-1778). -/
def finalize (s : S) : Except Fault S :=
  finalizePty s >>= fun s => finalizeIdle s >>= fun s => facesFree s.faces s >>= fun s => sourceRemove s s.bridgeSrc >>= fun s =>
  free s .chan >>= fun s => free s .bridge >>= fun s => free s .vte >>= fun s => free s .screen >>= fun s =>
  fontUnref s >>= fun s => free s .rend >>= fun s => .ok { s with gone := true }

/-- `terminal_child_fn` (src/gtktsm/gtktsm-terminal.c:1956-1974); `destroy` tells whether the signal makes the application
drop the widget. -/
def childFn (s : S) (destroy : Bool) : Except Fault S :=
  (match s.pty with
    | none => .ok { s with childSrc := 0 }
    | some n => ptyEnd { s with childSrc := 0 } n) >>= fun s =>
  let s := { s with pty := none }
  if destroy then finalize s else .ok s

/-- `gtktsm_terminal_fork` in the parent (src/gtktsm/gtktsm-terminal.c:1976-2009); `good` tells whether
the pty can be opened and added to the bridge. -/
def fork (s : S) (g0 g1 g2 g3 good : Bool) : Except Fault S :=
  if s.pty.isSome then .ok s
  else
    (if s.faces = [] then setFont s g0 g1 g2 g3 else .ok s) >>= fun s =>
      if good then
        use s .bridge >>= fun s =>
          let n := s.next
          let s : S := { s with has := upd s.has (.pty n) true, epoll := upd s.epoll n true, pty := some n
                                kids := upd s.kids (n + 1) true, next := n + 2 }
          .ok { attach s (.child (n + 1)) with childSrc := s.next }
      else .error .abort

/-- What happens: calls of the application and of GTK while the widget exists, and callbacks of registered sources
(src/gtktsm/gtktsm-terminal.c:1249-2009). -/
inductive Ev where
  | font (g0 g1 g2 g3 : Bool)
  | fork (g0 g1 g2 g3 good : Bool)
  | key (ws : List Bool)
  | fire (i ev : Nat) (ws : List Bool) (destroy : Bool)
  | finalize

/-- One event (src/gtktsm/gtktsm-terminal.c:1249-2009). Calls on a widget that does not exist any more and callbacks of sources
that are not registered do not happen. GLib removes the source of a callback that returns FALSE, and that of a
child watch, after the call; it has then waited for the child. A callback with the widget as data is a
use of it. -/
def step (s : S) : Ev → Except Fault S
  | .font g0 g1 g2 g3 => if s.gone then .ok s else if s.faces = [] then .ok s else setFont s g0 g1 g2 g3
  | .fork g0 g1 g2 g3 good => if s.gone then .ok s else fork s g0 g1 g2 g3 good
  | .key ws => if s.gone then .ok s else emulate ws s
  | .finalize => if s.gone then .ok s else finalize s
  | .fire i ev ws destroy =>
    match s.src i with
    | none => .ok s
    | some f =>
      if s.gone then .error .afterFree
      else
        match f with
        | .bridge => bridgeFn s ev ws
        | .idle => idleFn s ws >>= fun s => .ok { s with src := upd s.src i none }
        | .child pid => childFn { s with kids := upd s.kids pid false } destroy >>= fun s => .ok { s with src := upd s.src i none }

/-- Events one after the other (src/gtktsm/gtktsm-terminal.c:1249-2009). -/
def run : List Ev → S → Except Fault S
  | [], s => .ok s
  | e :: es, s => step s e >>= run es

/-- `gtktsm_terminal_init` (src/gtktsm/gtktsm-terminal.c:1780-1818), if nothing fails. -/
def init : S :=
  { next := 2, src := upd (fun _ => none) 1 (some .bridge), epoll := fun _ => false, fontRef := 1, kids := fun _ => false
    has := fun o => match o with | .pty _ => false | .face _ => false | _ => true
    gone := false, bridgeSrc := 1, idleSrc := 0, childSrc := 0, pty := none, faces := [] }

end Verif.Gtk.Life
