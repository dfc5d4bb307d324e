import Verif.Model.Lifetime

/-!
# Specification: the rules for references

Which calls a program may make, in terms of the references it holds: every successful creation gives it one
reference, `ref` one more, `unref` takes one away, and an object may be used, referenced or released only while the
program holds a reference to it. Nothing here refers to counters or memory.
-/

namespace Verif
namespace Life

/-- The references that a program holds: for every screen it created their number, and for every terminal its screen
and their number. -/
structure Book where
  scr : List Nat
  vte : List (Nat × Nat)
deriving DecidableEq

/-- The references after a call, `none` if the rules do not allow the call. -/
def Book.step (b : Book) : Call → Option Book
  | .screenNew => some { b with scr := b.scr ++ [1] }
  | .screenRef i =>
    match b.scr[i]? with
    | some (h + 1) => some { b with scr := b.scr.set i (h + 2) }
    | _ => none
  | .screenUnref i =>
    match b.scr[i]? with
    | some (h + 1) => some { b with scr := b.scr.set i h }
    | _ => none
  | .screenUse i =>
    match b.scr[i]? with
    | some (_ + 1) => some b
    | _ => none
  | .vteNew i =>
    match b.scr[i]? with
    | some (_ + 1) => some { b with vte := b.vte ++ [(i, 1)] }
    | _ => none
  | .vteRef j =>
    match b.vte[j]? with
    | some (i, h + 1) => some { b with vte := b.vte.set j (i, h + 2) }
    | _ => none
  | .vteUnref j =>
    match b.vte[j]? with
    | some (i, h + 1) => some { b with vte := b.vte.set j (i, h) }
    | _ => none
  | .vteUse j | .setPalette j _ | .setCustomPalette j _ =>
    match b.vte[j]? with
    | some (_, _ + 1) => some b
    | _ => none

/-- The references after a sequence of calls, `none` if the rules do not allow one of them. -/
def Book.steps : List Call → Book → Option Book
  | [], b => some b
  | c :: cs, b =>
    match b.step c with
    | none => none
    | some b => Book.steps cs b

/-- The references of a program that made the calls `cs`. -/
def book (cs : List Call) : Option Book := Book.steps cs ⟨[], []⟩

/-- Handle `i` is a screen that must exist: the program holds a reference, or a terminal that exists uses it. -/
def NeedScr (s : State) (b : Book) (i : Nat) : Prop :=
  (∃ h, b.scr[i]? = some h ∧ 0 < h) ∨
    ∃ (j v h : Nat), s.vtes[j]? = some (some v) ∧ b.vte[j]? = some (i, h) ∧ 0 < h

/-- The number of terminals that exist and use screen `i`. -/
def terminals (s : State) (b : Book) (i : Nat) : Nat :=
  ((s.vtes.zip b.vte).filter fun x => x.1.isSome && (x.2.1 == i && decide (0 < x.2.2))).length

/-- Handle `j` is a terminal that must exist. -/
def NeedVte (b : Book) (j : Nat) : Prop := ∃ (i h : Nat), b.vte[j]? = some (i, h) ∧ 0 < h

/-- The memory that belongs to the screens and terminals that must exist: these objects and what they point to. -/
inductive Owned (s : State) (b : Book) : Nat → Prop
  | scr {i a : Nat} : NeedScr s b i → s.scrs[i]? = some (some a) → Owned s b a
  | vte {j a : Nat} : NeedVte b j → s.vtes[j]? = some (some a) → Owned s b a
  | sym {a r t : Nat} : Owned s b a → s.w.obj a = .scr r (some t) → Owned s b t
  | index {a r i : Nat} : Owned s b a → s.w.obj a = .sym r (some i) → Owned s b i
  | data {a d : Nat} : Owned s b a → s.w.obj a = .arr (some d) → Owned s b d
  | mach {a m : Nat} {o : VteObj} : Owned s b a → s.w.obj a = .vte o → o.mach = some m → Owned s b m
  | name {a m : Nat} {o : VteObj} : Owned s b a → s.w.obj a = .vte o → o.name = some m → Owned s b m
  | custom {a m : Nat} {o : VteObj} : Owned s b a → s.w.obj a = .vte o → o.custom = some m → Owned s b m

end Life
end Verif
