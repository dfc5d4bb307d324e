import Verif.Model.Shared.Bridge
import Verif.Proofs.Shared.Pty

/-!
# An honest kernel

`read` says that it would block only if nothing is there to be read.
-/

namespace Verif

/-- The outcomes of the next reads are possible while `q` waits to be read. A read returns at most 16383 bytes, and
possibly fewer than there are. -/
def HonestReads : List KRes → List UInt8 → Prop
  | [], _ => True
  | k :: ks, q =>
    match k with
    | .again => q = []
    | .some n => q = [] ∨ HonestReads ks (q.drop (min (n + 1) 16383))
    | _ => True

namespace Bridge

/-- What happens is possible in this state. Sizes fit `size_t`. -/
def Op.Possible (b : Bridge) : Op → Prop
  | .dispatch i r1 r2 .. | .dispatchPty i r1 r2 .. => HonestReads [r1, r2] (b.item i).pty.inq
  | .write _ d => d.length < 2 ^ 64
  | _ => True

/-- Bridges that occur. -/
inductive Reachable (e : PtyEnv) : Bridge → Prop
  | init : Reachable e Bridge.init
  | step {b b' : Bridge} {o : Op} {r : PtyRet} (h : Reachable e b) (p : o.Possible b)
      (hs : Bridge.step e b o = .ok (b', r)) : Reachable e b'

/-- What the child of pty `i` wrote. -/
def childBytes (i : Nat) : List Op → List UInt8
  | [] => []
  | .child j d :: os => (if j = i then d else []) ++ childBytes i os
  | _ :: os => childBytes i os

end Bridge
end Verif
