import Verif.Model.Gtk.Settings

/-!
# The program gtktsm: its command line, its windows and what runs in them (src/gtktsm/gtktsm-app.c,
src/gtktsm/gtktsm-win.c)

GApplication is trusted: the first `gtktsm` becomes the running application, each later one hands its command line over to
it and ends with the result (src/gtktsm/gtktsm-app.c:193-200), and the application ends when it has no window any more.
How a window looks, apart from the widget in it, is not modelled.
-/

namespace Verif.Gtk

/-- The environment of a process (src/gtktsm/gtktsm-win.c:122, 146-149). -/
abbrev Env := String → Option String

/-- `setenv` that overwrites (src/gtktsm/gtktsm-win.c:146-147). -/
def Env.set (e : Env) (k v : String) : Env := fun x => if x = k then some v else e x

/-- The options of a command line, in the types of the dictionary (src/gtktsm/gtktsm-app.c:45-54); those without
an argument are either absent or true. -/
structure Options where
  version : Bool := false
  font : Option String := none
  sbSize : Option Int := none
  antiAliasing : Option String := none
  subpixelOrder : Option String := none
  showDirty : Bool := false
  debug : Bool := false
  deriving DecidableEq, Repr

/-- What `execve` gets, and the directory it runs in (src/gtktsm/gtktsm-win.c:121-124, 146-149). -/
structure Prog where
  path : String
  argv : List String
  env : Env
  dir : String

/-- `GtkTsmWinPrivate` with its widget and the program that was started in it (src/gtktsm/gtktsm-win.c:46-48). -/
structure Win where
  term : Term
  prog : Prog

/-- The running application: environment and directory of its process, and its windows
(src/gtktsm/gtktsm-app.c:33-35). -/
structure App where
  env : Env
  dir : String
  windows : List Win

/-- Set a property if there is a value (src/gtktsm/gtktsm-app.c:85-88). -/
def Term.opt (mk : Maker) (ink : Ink) (t : Term) : Option Setting → Except Halt Term
  | none => .ok t
  | some s => t.set mk ink s

/-- `strcmp` with the names of all modes (src/gtktsm/gtktsm-app.c:103-106). -/
def badAa (s : String) : Bool := s ≠ "none" && s ≠ "gray" && s ≠ "subpixel" && s ≠ "default"

/-- `strcmp` with the names of all orders (src/gtktsm/gtktsm-app.c:124-128). -/
def badOrder (s : String) : Bool := s ≠ "rgb" && s ≠ "bgr" && s ≠ "vrgb" && s ≠ "vbgr" && s ≠ "default"

namespace App

/-- The program for a window (src/gtktsm/gtktsm-win.c:121-124, 144-149): `_PATH_BSHELL` is `/bin/sh`. Everything is
taken from the process that forks. -/
def prog (a : App) : Prog :=
  let sh := (a.env "SHELL").getD "/bin/sh"
  { path := sh, argv := [sh], env := (a.env.set "TERM" "xterm-256color").set "COLORTERM" "gtktsm", dir := a.dir }

/-- `gtktsm_win_run` in the parent (src/gtktsm/gtktsm-win.c:119-142); `forkOk` tells whether `shl_pty_open` works,
otherwise `g_error` ends the program (src/gtktsm/gtktsm-terminal.c:1992-1998). Faces are made before. -/
def run (mk : Maker) (ink : Ink) (forkOk : Bool) (t : Term) (a : App) : Except Halt App :=
  t.step mk ink .fork >>= fun t =>
    if forkOk then .ok { a with windows := a.windows ++ [{ term := t, prog := a.prog }] } else .error (.stop .abort)

/-- The second half of `app_command_line`, from the order of subpixels on (src/gtktsm/gtktsm-app.c:119-165). -/
def ordered (mk : Maker) (ink : Ink) (forkOk : Bool) (o : Options) (a : App) (t : Term) : Except Halt (Nat × String × App) :=
  match o.subpixelOrder.filter badOrder with
  | some s => .ok (1, "invalid subpixel-order argument: " ++ s ++ "\n", a)
  | none =>
    t.opt mk ink (o.subpixelOrder.map fun s => .subpixelOrder (some s)) >>= fun t =>
    t.opt mk ink (if o.showDirty then some (.showDirty true) else none) >>= fun t =>
    t.opt mk ink (if o.debug then some (.debug true) else none) >>= fun t =>
    a.run mk ink forkOk t >>= fun a => .ok (0, "", a)

/-- `app_command_line` (src/gtktsm/gtktsm-app.c:67-165) with the widget of the new window; the result, what it prints
to the standard error, and the application. On an invalid argument the window is destroyed again (162-164). -/
def commandLine (mk : Maker) (ink : Ink) (forkOk : Bool) (o : Options) (a : App) (t : Term) : Except Halt (Nat × String × App) :=
  t.opt mk ink (o.font.map fun d => .font (some d)) >>= fun t =>
  t.opt mk ink (o.sbSize.map fun n => .sbSize (max n 0).toNat) >>= fun t =>
  match o.antiAliasing.filter badAa with
  | some s => .ok (1, "invalid anti-aliasing argument: " ++ s ++ "\n", a)
  | none =>
    t.opt mk ink (o.antiAliasing.map fun s => .antiAliasing (some s)) >>= fun t => a.ordered mk ink forkOk o t

/-- The application with at least one window; otherwise it ends (GtkApplication, src/gtktsm/gtktsm.c:40-43). -/
def settle (a : App) : Option App := if a.windows.isEmpty then none else some a

end App

/-- A user runs `gtktsm`, in this environment and directory. The screen, the sign of `char`, allocations and whether a
pty can be opened are chosen by the system (src/gtktsm/gtktsm.c:31-44). -/
structure Launch where
  env : Env
  dir : String
  opts : Options
  screen : Screen
  sg : Bool
  mem : Nat → Bool
  forkOk : Bool

/-- What is printed, and the result of the command (src/gtktsm/gtktsm-app.c:60, 107-111). -/
structure Result where
  code : Nat
  out : String
  err : String
  deriving DecidableEq, Repr

/-- `main` (src/gtktsm/gtktsm.c:31-44) with `app_handle_local_options` (src/gtktsm/gtktsm-app.c:56-65), which runs in
the process of the command, and `app_command_line`, which runs in the application; that is the command itself if none
is running. -/
def Launch.invoke (mk : Maker) (ink : Ink) (c : Launch) (d : Option App) : Except Halt (Result × Option App) :=
  if c.opts.version then .ok ({ code := 0, out := "GtkTsm\n", err := "" }, d)
  else
    Term.init mk ink c.screen c.sg c.mem >>= fun t =>
      (d.getD { env := c.env, dir := c.dir, windows := [] }).commandLine mk ink c.forkOk c.opts t >>= fun x =>
        .ok ({ code := x.1, out := "", err := x.2.1 }, x.2.2.settle)

/-- What happens: a command, an event in a window, or the end of the program in a window, which closes the window
(`terminal_child_fn`, src/gtktsm/gtktsm-terminal.c:1956-1974; `win_stopped_fn`, src/gtktsm/gtktsm-win.c:77-84). -/
inductive DeskEv where
  | cmd (c : Launch)
  | win (i : Nat) (e : Term.Ev)
  | stopped (i : Nat)

/-- One event (src/gtktsm/gtktsm-app.c:67-165, src/gtktsm/gtktsm-win.c:68-84). -/
def deskStep (mk : Maker) (ink : Ink) (d : Option App) : DeskEv → Except Halt (Option App)
  | .cmd c => c.invoke mk ink d >>= fun x => .ok x.2
  | .win i e =>
    match d with
    | none => .ok none
    | some a =>
      match a.windows[i]? with
      | none => .ok d
      | some w => w.term.step mk ink e >>= fun t => .ok (some { a with windows := a.windows.set i { w with term := t } })
  | .stopped i =>
    match d with
    | none => .ok none
    | some a => .ok (App.settle { a with windows := a.windows.eraseIdx i })

/-- Events one after the other (src/gtktsm/gtktsm.c:40). -/
def deskAll (mk : Maker) (ink : Ink) : List DeskEv → Option App → Except Halt (Option App)
  | [], d => .ok d
  | e :: es, d => deskStep mk ink d e >>= deskAll mk ink es

end Verif.Gtk
