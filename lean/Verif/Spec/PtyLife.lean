import Verif.Model.Shared.PtyLife

/-!
# What a program that uses ptys keeps track of

A program knows which handles it got, how many references it holds to each, and which ones it has closed.
-/

namespace Verif
namespace PtyLife

/-- A program's book-keeping: how many handles it asked for, the references it holds, and the ptys it has not closed. -/
structure Book where
  next : Nat
  refs : Nat → Nat
  isOpen : Nat → Bool

namespace Book

/-- Nothing asked for yet. -/
def empty : Book := ⟨0, fun _ => 0, fun _ => false⟩

/-- The book-keeping after a call; `got` is whether `shl_pty_open` returned a handle. -/
def after (b : Book) (c : Call) (got : Bool) : Book :=
  match c with
  | .openPty _ =>
    { next := b.next + 1
      refs := fun h => if h = b.next then (if got then 1 else 0) else b.refs h
      isOpen := fun h => if h = b.next then got else b.isOpen h }
  | .ref k => { b with refs := fun h => if h = k then b.refs h + 1 else b.refs h }
  | .unref k => { b with refs := fun h => if h = k then b.refs h - 1 else b.refs h }
  | .close k => { b with isOpen := fun h => if h = k then false else b.isOpen h }
  | _ => b

end Book

/-- Whether the last handle asked for is not `NULL`. -/
def World.got (w : World) : Bool :=
  match w.objs.getLast? with
  | some (some _) => true
  | _ => false

/-- The rules: a pty is used only while a reference to it is held, and other files are closed only if they are open and
belong to the program itself. -/
def allowed (w : World) (b : Book) : Call → Bool
  | .openPty _ | .openOther .. => true
  | .ref h | .unref h | .close h | .use h => decide (1 ≤ b.refs h)
  | .closeOther f =>
    match w.fds.get f with
    | some ⟨.other _, _⟩ => true
    | _ => false

/-- A program that starts with files of its own and follows the rules, after `n` calls. -/
inductive Session : World → Book → Nat → Prop
  | start (t : Fds) (h : ∀ f x, t.get f = some x → ∃ n, x.file = .other n) : Session ⟨t, [], []⟩ Book.empty 0
  | step {w w' : World} {b : Book} {n : Nat} {c : Call} (s : Session w b n) (h : allowed w b c = true)
      (e : step w c = .ok w') : Session w' (b.after c w'.got) (n + 1)

/-- Running calls and keeping the book, for examples; `none` if a rule is broken or something goes wrong. -/
def keep : List Call → World × Book × Nat → Option (World × Book × Nat)
  | [], x => some x
  | c :: cs, (w, b, n) =>
    if allowed w b c = true then
      match step w c with
      | .ok w' => keep cs (w', b.after c w'.got, n + 1)
      | .error _ => none
    else none

theorem Session.keep {cs : List Call} {x y : World × Book × Nat} (s : Session x.1 x.2.1 x.2.2)
    (e : PtyLife.keep cs x = some y) : Session y.1 y.2.1 y.2.2 := by
  induction cs generalizing x with
  | nil => cases e; exact s
  | cons c cs ih =>
    obtain ⟨w, b, n⟩ := x
    unfold PtyLife.keep at e
    split at e
    · rename_i h
      split at e
      · rename_i w' hw
        exact ih (x := (w', b.after c w'.got, n + 1)) (.step s h hw) e
      · cases e
    · cases e

/-- A table with the descriptors 0, 1 and 2 open, for examples. -/
def stdFds : Fds :=
  { get := fun n => if n ≤ 2 then some ⟨.other n, false⟩ else none
    top := 3
    free := fun n h => if_neg (by omega) }

theorem stdFds_other (f : Nat) (x : Fd) (h : stdFds.get f = some x) : ∃ n, x.file = .other n := by
  unfold stdFds at h
  simp only [] at h
  split at h
  · cases h; exact ⟨_, rfl⟩
  · cases h

/-- A table without any open descriptor, for examples. -/
def noFds : Fds := ⟨fun _ => none, 0, fun _ _ => rfl⟩

end PtyLife
end Verif
