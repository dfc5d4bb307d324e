import Verif.Model.Heap

/-!
# Lifetimes: reference counts of screens and terminals (src/tsm/tsm-screen.c, tsm-vte.c, tsm-unicode.c)

The objects behind the handles of the API, with `malloc`, `free` and reference counters: a screen owns a symbol
table, the table owns an array; a terminal owns its UTF-8 decoder, the copy of the palette's name and the copy of a
custom palette, and shares its screen. Using an object that is not allocated (or has another type) is undefined
behaviour (`dangling`), freeing one is `badFree`.

Simplifications:
* The lines of a screen are those of `Heap.lean`; here the initial `tsm_screen_resize` is one allocation that can
  fail, and its memory is not an object. The same holds for the entries of the symbol table.
* A use of an object (`screenUse`, `vteUse`) is an access to every object that the API functions reach from it.
* Counters have 64 bits.
-/

namespace Verif
namespace Life

/-- `struct tsm_vte` (src/tsm/tsm-vte.c:150-198): the reference counter and the pointers. `palette` is NULL if it
points to one of the static palettes. -/
structure VteObj where
  ref : Nat
  con : Nat
  mach : Option Nat
  name : Option Nat
  custom : Option Nat
  palette : Option Nat
deriving DecidableEq

/-- An allocated object: `struct tsm_screen` (src/tsm/libtsm-int.h:106-158), `struct tsm_symbol_table`
(src/tsm/tsm-unicode.c:102-107), `struct shl_array` (src/shared/shl-array.h:37-42), `struct tsm_vte`, the name of a
palette (is it "custom"?), or memory without pointers. -/
inductive Obj where
  | scr (ref : Nat) (sym : Option Nat)
  | sym (ref : Nat) (index : Option Nat)
  | arr (data : Option Nat)
  | vte (o : VteObj)
  | name (custom : Bool)
  | blob
deriving DecidableEq

/-- The heap: allocated addresses, objects, the allocator and the outcome of the allocations (the model of `malloc`
and `free`, used at src/tsm/tsm-screen.c:486, 522). -/
structure World where
  live : List Nat
  obj : Nat → Obj
  al : Allocator
  allocOk : Nat → Bool
  n : Nat

namespace World

/-- `malloc` and the initialisation of the object (e.g. src/tsm/tsm-screen.c:486-498). -/
def malloc (w : World) (o : Obj) : Option Nat × World :=
  if w.allocOk w.n then
    let a := w.al.choose w.live w.n
    (some a, { w with n := w.n + 1, live := a :: w.live, obj := fun b => if b = a then o else w.obj b })
  else (none, { w with n := w.n + 1 })

/-- `free(a)` (e.g. src/tsm/tsm-screen.c:522). -/
def free (w : World) (a : Nat) : R World :=
  if a ∈ w.live then .ok { w with live := w.live.erase a } else .error .badFree

/-- `free` of a pointer that may be NULL (e.g. src/tsm/tsm-vte.c:527). -/
def freeOpt (w : World) : Option Nat → R World
  | none => .ok w
  | some a => w.free a

/-- `*a` (e.g. src/tsm/tsm-screen.c:540). -/
def read (w : World) (a : Nat) : R Obj := if a ∈ w.live then .ok (w.obj a) else .error .dangling

/-- An assignment to `*a` (e.g. src/tsm/tsm-screen.c:532). -/
def write (w : World) (a : Nat) (o : Obj) : R World :=
  if a ∈ w.live then .ok { w with obj := fun b => if b = a then o else w.obj b } else .error .dangling

/-- A screen (src/tsm/libtsm-int.h:106-158). -/
def readScr (w : World) (a : Nat) : R (Nat × Option Nat) := do
  match ← w.read a with
  | .scr ref sym => return (ref, sym)
  | _ => .error .dangling

/-- A symbol table (src/tsm/tsm-unicode.c:102-107). -/
def readSym (w : World) (a : Nat) : R (Nat × Option Nat) := do
  match ← w.read a with
  | .sym ref index => return (ref, index)
  | _ => .error .dangling

/-- An array (src/shared/shl-array.h:37-42). -/
def readArr (w : World) (a : Nat) : R (Option Nat) := do
  match ← w.read a with
  | .arr data => return data
  | _ => .error .dangling

/-- A terminal (src/tsm/tsm-vte.c:150-198). -/
def readVte (w : World) (a : Nat) : R VteObj := do
  match ← w.read a with
  | .vte o => return o
  | _ => .error .dangling

/-- A string; is it "custom"? (src/tsm/tsm-vte.c:382) -/
def readName (w : World) (a : Nat) : R Bool := do
  match ← w.read a with
  | .name b => return b
  | _ => .error .dangling

/-- Memory that a pointer refers to, if it is not NULL (e.g. src/tsm/tsm-vte.c:424). -/
def readBlob (w : World) : Option Nat → R Unit
  | none => .ok ()
  | some a => do
    match ← w.read a with
    | .blob => return ()
    | _ => .error .dangling

end World

/-- `++ref` for a counter of 64 bits (src/tsm/tsm-screen.c:532, src/tsm/tsm-vte.c:514). -/
def inc (n : Nat) : Nat := (n + 1) % 2 ^ 64

/-- `shl_array_new` (src/shared/shl-array.h:47-74). -/
def arrayNew (w : World) : R (Option Nat × World) :=
  match w.malloc (.arr none) with
  | (none, w) => .ok (none, w)
  | (some a, w) =>
    match w.malloc .blob with
    | (none, w) => do
      let w ← w.free a
      return (none, w)
    | (some d, w) => do
      let w ← w.write a (.arr (some d))
      return (some a, w)

/-- `shl_array_free` (src/shared/shl-array.h:76-83). -/
def arrayFree (w : World) : Option Nat → R World
  | none => .ok w
  | some a => do
    let d ← w.readArr a
    let w ← w.freeOpt d
    w.free a

/-- `tsm_symbol_table_new` (src/tsm/tsm-unicode.c:144-173). -/
def symNew (w : World) : R (Option Nat × World) :=
  match w.malloc (.sym 1 none) with
  | (none, w) => .ok (none, w)
  | (some t, w) => do
    match ← arrayNew w with
    | (none, w) => do
      let w ← w.free t
      return (none, w)
    | (some i, w) => do
      let w ← w.write t (.sym 1 (some i))
      return (some t, w)

/-- `tsm_symbol_table_unref` (src/tsm/tsm-unicode.c:184-192). -/
def symUnref (w : World) : Option Nat → R World
  | none => .ok w
  | some t => do
    let (ref, index) ← w.readSym t
    if ref = 0 then return w
    else do
      let w ← w.write t (.sym (ref - 1) index)
      if ref - 1 ≠ 0 then return w
      else do
        let w ← arrayFree w index
        w.free t

/-- `tsm_screen_new` (src/tsm/tsm-screen.c:477-524); NULL if it fails. The first `malloc` after the symbol table
stands for the memory of `tsm_screen_resize`. -/
def screenNew (w : World) : R (Option Nat × World) :=
  match w.malloc (.scr 1 none) with
  | (none, w) => .ok (none, w)
  | (some c, w) => do
    match ← symNew w with
    | (none, w) => do
      let w ← symUnref w none
      let w ← w.free c
      return (none, w)
    | (some t, w) => do
      let w ← w.write c (.scr 1 (some t))
      if w.allocOk w.n then return (some c, { w with n := w.n + 1 })
      else do
        let w := { w with n := w.n + 1 }
        let w ← symUnref w (some t)
        let w ← w.free c
        return (none, w)

/-- `tsm_screen_ref` (src/tsm/tsm-screen.c:526-533). -/
def screenRef (w : World) : Option Nat → R World
  | none => .ok w
  | some c => do
    let (ref, sym) ← w.readScr c
    w.write c (.scr (inc ref) sym)

/-- `tsm_screen_unref` (src/tsm/tsm-screen.c:535-556). -/
def screenUnref (w : World) : Option Nat → R World
  | none => .ok w
  | some c => do
    let (ref, sym) ← w.readScr c
    if ref = 0 then return w
    else do
      let w ← w.write c (.scr (ref - 1) sym)
      if ref - 1 ≠ 0 then return w
      else do
        let w ← symUnref w sym
        w.free c

/-- A function of the screen that accesses the screen and its symbol table, such as `tsm_screen_draw`
(src/tsm/tsm-render.c:45-200). -/
def screenUse (w : World) : Option Nat → R World
  | none => .ok w
  | some c => do
    let (_, sym) ← w.readScr c
    match sym with
    | none => .error .nullDeref
    | some t => do
      let (_, index) ← w.readSym t
      match index with
      | none => .error .nullDeref
      | some i => do
        let d ← w.readArr i
        w.readBlob d
        return w

/-- `get_palette` (src/tsm/tsm-vte.c:377-402): NULL for the static palettes. -/
def getPalette (w : World) (o : VteObj) : R (Option Nat) :=
  match o.name with
  | none => .ok none
  | some s => do
    let b ← w.readName s
    return if b then o.custom else none

/-- `tsm_vte_new` (src/tsm/tsm-vte.c:458-506); NULL if it fails. -/
def vteNew (w : World) : Option Nat → R (Option Nat × World)
  | none => .ok (none, w)
  | some con =>
    match w.malloc (.vte ⟨1, con, none, none, none, none⟩) with
    | (none, w) => .ok (none, w)
    | (some v, w) => do
      match w.malloc .blob with
      | (none, w) => do
        let w ← w.free v
        return (none, w)
      | (some m, w) => do
        let w ← w.write v (.vte ⟨1, con, some m, none, none, none⟩)
        let w ← screenUse w (some con)
        let w ← screenRef w (some con)
        return (some v, w)

/-- `tsm_vte_ref` (src/tsm/tsm-vte.c:508-515). -/
def vteRef (w : World) : Option Nat → R World
  | none => .ok w
  | some v => do
    let o ← w.readVte v
    w.write v (.vte { o with ref := inc o.ref })

/-- `tsm_vte_unref` (src/tsm/tsm-vte.c:517-532). -/
def vteUnref (w : World) : Option Nat → R World
  | none => .ok w
  | some v => do
    let o ← w.readVte v
    if o.ref = 0 then return w
    else do
      let w ← w.write v (.vte { o with ref := o.ref - 1 })
      if o.ref - 1 ≠ 0 then return w
      else do
        let w ← w.freeOpt o.name
        let w ← screenUnref w (some o.con)
        let w ← w.freeOpt o.mach
        let w ← w.freeOpt o.custom
        w.free v

/-- A function of the terminal that accesses its screen, its decoder and its palette, such as `tsm_vte_input`
(src/tsm/tsm-vte.c:2507-2536). -/
def vteUse (w : World) : Option Nat → R World
  | none => .ok w
  | some v => do
    let o ← w.readVte v
    match o.mach with
    | none => .error .nullDeref
    | some m => do
      w.readBlob (some m)
      w.readBlob o.palette
      screenUse w (some o.con)

/-- `vte_update_palette` (src/tsm/tsm-vte.c:554-567). -/
def updatePalette (w : World) (v : Nat) : R World := do
  let o ← w.readVte v
  let p ← getPalette w o
  let w ← w.write v (.vte { o with palette := p })
  w.readBlob p
  screenUse w (some o.con)

/-- `tsm_vte_set_palette` (src/tsm/tsm-vte.c:569-587); the name is NULL, "custom" or another one. -/
def setPalette (w : World) (name : Option Bool) : Option Nat → R World
  | none => .ok w
  | some v => do
    match name with
    | none => do
      let o ← w.readVte v
      let w ← w.freeOpt o.name
      let w ← w.write v (.vte { o with name := none })
      updatePalette w v
    | some b =>
      match w.malloc (.name b) with
      | (none, w) => .ok w
      | (some s, w) => do
        let o ← w.readVte v
        let w ← w.freeOpt o.name
        let w ← w.write v (.vte { o with name := some s })
        updatePalette w v

/-- `tsm_vte_set_custom_palette` (src/tsm/tsm-vte.c:589-609); the argument is NULL or a palette. -/
def setCustomPalette (w : World) (given : Bool) : Option Nat → R World
  | none => .ok w
  | some v => do
    if given = false then do
      let o ← w.readVte v
      let w ← w.freeOpt o.custom
      let w ← w.write v (.vte { o with custom := none })
      updatePalette w v
    else
      match w.malloc .blob with
      | (none, w) => .ok w
      | (some s, w) => do
        let o ← w.readVte v
        let w ← w.freeOpt o.custom
        let w ← w.write v (.vte { o with custom := some s })
        updatePalette w v

/-- A call of the API (src/tsm/libtsm.h:186-188, 416-420). Screens and terminals are named by the number of the
call that created them: `screenRef 2` is a call with the result of the third `tsm_screen_new`. -/
inductive Call where
  | screenNew
  | screenRef (i : Nat)
  | screenUnref (i : Nat)
  | screenUse (i : Nat)
  | vteNew (i : Nat)
  | vteRef (j : Nat)
  | vteUnref (j : Nat)
  | vteUse (j : Nat)
  | setPalette (j : Nat) (name : Option Bool)
  | setCustomPalette (j : Nat) (given : Bool)
deriving DecidableEq

/-- The variables of the calling program: the results of the calls that create screens and terminals, NULL for a
call that failed (src/tsm/libtsm.h:186, 416-418). -/
structure State where
  w : World
  scrs : List (Option Nat)
  vtes : List (Option Nat)

/-- The pointer for handle `i` (a variable of the calling program, the `out` of src/tsm/libtsm.h:186, 416); a handle
that was never assigned is not a pointer. -/
def handle (hs : List (Option Nat)) (i : Nat) : R (Option Nat) :=
  match hs[i]? with
  | none => .error .dangling
  | some h => .ok h

/-- Execute a call (src/tsm/libtsm.h:186-188, 416-420). -/
def run (s : State) : Call → R State
  | .screenNew => do
    let (c, w) ← Life.screenNew s.w
    return { s with w := w, scrs := s.scrs ++ [c] }
  | .screenRef i => do
    let c ← handle s.scrs i
    let w ← Life.screenRef s.w c
    return { s with w := w }
  | .screenUnref i => do
    let c ← handle s.scrs i
    let w ← Life.screenUnref s.w c
    return { s with w := w }
  | .screenUse i => do
    let c ← handle s.scrs i
    let w ← Life.screenUse s.w c
    return { s with w := w }
  | .vteNew i => do
    let c ← handle s.scrs i
    let (v, w) ← Life.vteNew s.w c
    return { s with w := w, vtes := s.vtes ++ [v] }
  | .vteRef j => do
    let v ← handle s.vtes j
    let w ← Life.vteRef s.w v
    return { s with w := w }
  | .vteUnref j => do
    let v ← handle s.vtes j
    let w ← Life.vteUnref s.w v
    return { s with w := w }
  | .vteUse j => do
    let v ← handle s.vtes j
    let w ← Life.vteUse s.w v
    return { s with w := w }
  | .setPalette j name => do
    let v ← handle s.vtes j
    let w ← Life.setPalette s.w name v
    return { s with w := w }
  | .setCustomPalette j given => do
    let v ← handle s.vtes j
    let w ← Life.setCustomPalette s.w given v
    return { s with w := w }

/-- Execute calls one after the other (src/tsm/libtsm.h:186-188, 416-420). -/
def runAll : List Call → State → R State
  | [], s => .ok s
  | c :: cs, s => do
    let s ← run s c
    runAll cs s

/-- A program before its first call (no object allocated; src/tsm/libtsm.h:186). -/
def State.start (al : Allocator) (allocOk : Nat → Bool) : State :=
  ⟨⟨[], fun _ => .blob, al, allocOk, 0⟩, [], []⟩

/-- The state after a sequence of calls (src/tsm/libtsm.h:186-188, 416-420). -/
def history (al : Allocator) (allocOk : Nat → Bool) (cs : List Call) : R State :=
  runAll cs (State.start al allocOk)

end Life
end Verif
