import Verif.Model.Shared.PtyNest

/-!
# Rules for programs that use a pty from its own callback
-/

namespace Verif.PtyNest

/-- A program gives back no reference it does not have and uses the pty only while it is kept: `own` are the references of
this program or callback, `below` says whether the caller of the callback keeps one. A callback starts with none of its own. -/
def Fair : Bool → Nat → Prog → Prop
  | _, _, .done => True
  | below, own, .write _ k => (below ∨ 0 < own) ∧ Fair below own k
  | below, own, .close k => (below ∨ 0 < own) ∧ Fair below own k
  | below, own, .ref k => (below ∨ 0 < own) ∧ Fair below (own + 1) k
  | below, own, .unref k => 0 < own ∧ Fair below (own - 1) k
  | below, own, .child _ k => Fair below own k
  | below, own, .look k => (below ∨ 0 < own) ∧ Fair below own k
  | below, own, .dispatch _ a1 _ a2 _ _ k => (below ∨ 0 < own) ∧ Fair true 0 a1 ∧ Fair true 0 a2 ∧ Fair below own k

/-- How often a program takes a reference, in its callbacks too. -/
def refs : Prog → Nat
  | .done => 0
  | .write _ k | .close k | .unref k | .child _ k | .look k => refs k
  | .ref k => refs k + 1
  | .dispatch _ a1 _ a2 _ _ k => refs a1 + refs a2 + refs k

/-- Sizes fit `size_t`. -/
def Sized : Prog → Prop
  | .done => True
  | .write d k => d.length < 2 ^ 64 ∧ Sized k
  | .close k | .ref k | .unref k | .child _ k | .look k => Sized k
  | .dispatch _ a1 _ a2 _ _ k => Sized a1 ∧ Sized a2 ∧ Sized k

/-- Callbacks look at their bytes only as long as they have not dispatched the pty again (`fresh`). -/
def Early : Bool → Prog → Prop
  | _, .done => True
  | fresh, .write _ k | fresh, .close k | fresh, .ref k | fresh, .unref k | fresh, .child _ k => Early fresh k
  | fresh, .look k => fresh = true ∧ Early fresh k
  | _, .dispatch _ a1 _ a2 _ _ k => Early true a1 ∧ Early true a2 ∧ Early false k

/-- What the caller of a dispatch is told if a `read` of it does not deliver data. -/
def told : KRes → Option PtyRet
  | .again => some .ok
  | .intr => some .eagain
  | .fail => some .errno
  | .zero => some .epipe
  | .some _ => none

end Verif.PtyNest
