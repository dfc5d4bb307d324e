import Verif.Proofs.Shared.PtyBook

/-!
# Ptys and their descriptors

C88: a program that uses a pty only while it holds a reference never closes or uses a descriptor that is not the pty's,
and no descriptor is leaked, also if opening fails. C89: a program started on a new pty gets it as its terminal.
-/

namespace Verif
namespace PtyLife

/-! ## C88 -/

/-- **C88.** A program that follows the rules never makes the library close or use a wrong descriptor, or use an object
that has been freed. -/
theorem C88_safe {w : World} {b : Book} {n : Nat} {c : Call} (s : Session w b n) (hn : n + 1 < 2 ^ 64)
    (ha : allowed w b c = true) : ∃ w', step w c = .ok w' := by
  obtain ⟨w', e, -⟩ := (s.inv (by omega)).step hn ha
  exact ⟨w', e⟩

/-- **C88.** Every pty that is held and not closed has exactly one descriptor, which is the one `shl_pty_get_fd` returns;
closed ones have none. All other open descriptors are the program's own. -/
theorem C88_descriptors {w : World} {b : Book} {n : Nat} (s : Session w b n) (hn : n < 2 ^ 64) :
    (∀ h, 1 ≤ b.refs h → if b.isOpen h then
        ∃ f, w.getFd h = .ok (some f) ∧ ∀ g, w.fds.get g = some ⟨.master h, true⟩ ↔ g = f
      else w.getFd h = .ok none) ∧
    ∀ f x, w.fds.get f = some x → (∃ m, x.file = .other m) ∨
      ∃ h, x = ⟨.master h, true⟩ ∧ 1 ≤ b.refs h ∧ b.isOpen h = true := by
  have i := s.inv hn
  refine ⟨fun h hr => ?_, fun f x hx => ?_⟩
  · obtain ⟨o, ho, -, hop, hfd⟩ := i.held hr
    have hg : w.getFd h = .ok o.fd := by
      simp [World.getFd, obj_ok ho, bind, Except.bind, pure, Except.pure]
    cases hf : o.fd with
    | none => rw [hop, hg, hf]; rfl
    | some f =>
      rw [hop, hg, hf]
      refine ⟨f, rfl, fun g => ⟨fun e => ?_, fun e => e ▸ hfd f hf⟩⟩
      rcases i.fds g _ e with ⟨m, c⟩ | ⟨k, p, e1, e2, e3⟩
      · cases c
      · cases e1
        rw [ho] at e2
        cases e2
        rw [hf] at e3
        cases e3
        rfl
  · rcases i.fds f x hx with h | ⟨k, o, e1, e2, e3⟩
    · exact .inl h
    · have := i.at e2
      refine .inr ⟨k, e1, ?_, ?_⟩
      · rw [← this.1]; exact this.2.1
      · rw [this.2.2.1, e3]; rfl

/-- **C88.** Once all references are given back, no object and no descriptor of a pty is left. -/
theorem C88_nothing_left {w : World} {b : Book} {n : Nat} (s : Session w b n) (hn : n < 2 ^ 64)
    (h0 : ∀ h, b.refs h = 0) :
    (∀ o ∈ w.objs, o = none) ∧ ∀ f x, w.fds.get f = some x → ∃ m, x.file = .other m := by
  have i := s.inv hn
  refine ⟨fun o ho => ?_, fun f x hx => ?_⟩
  · obtain ⟨h, hl, e⟩ := List.getElem_of_mem ho
    cases o with
    | none => rfl
    | some o =>
      have := i.at (List.getElem?_eq_some_iff.2 ⟨hl, e⟩)
      have h1 := this.1
      have h2 := this.2.1
      have := h0 h
      omega
  · rcases (C88_descriptors s hn).2 f x hx with h | ⟨k, -, hr, -⟩
    · exact h
    · have := h0 k
      omega

/-- **C88.** The pty's functions leave the program's own descriptors alone. -/
theorem C88_others {w w' : World} {b : Book} {n : Nat} {c : Call} (s : Session w b n) (hn : n + 1 < 2 ^ 64)
    (ha : allowed w b c = true) (hc : (∀ m cl, c ≠ .openOther m cl) ∧ ∀ f, c ≠ .closeOther f)
    (e : step w c = .ok w') (f m : Nat) (cl : Bool) :
    w'.fds.get f = some ⟨.other m, cl⟩ ↔ w.fds.get f = some ⟨.other m, cl⟩ := by
  have i := s.inv (by omega)
  -- closing the descriptor of an object
  have key : ∀ {t t' : Fds} {o o' : Obj} {k : Nat}, closeObj t o = .ok (t', o') →
      (∀ g, o.fd = some g → t.get g = some ⟨.master k, true⟩) →
      (t'.get f = some ⟨.other m, cl⟩ ↔ t.get f = some ⟨.other m, cl⟩) := by
    intro t t' o o' k e h
    unfold closeObj at e
    cases hf : o.fd with
    | none => rw [hf] at e; cases e; exact Iff.rfl
    | some g =>
      obtain ⟨t2, e2, h2⟩ := t.close_ok g (by rw [h g hf]; simp)
      rw [hf] at e
      simp only [e2, bind, Except.bind, pure, Except.pure] at e
      cases e
      rw [h2]
      simp only
      split
      · rename_i ef
        rw [ef, h g hf]
        simp
      · exact Iff.rfl
  cases c with
  | openPty s =>
    obtain ⟨w2, e2, h1, -⟩ := openPty_ok w s
    replace e : openPty w s = .ok w' := e
    rw [e] at e2
    cases e2
    split at h1
    · obtain ⟨fd, hf, -, -, hg⟩ := h1
      rw [hg]
      split
      · rename_i ef
        rw [ef, hf]
        simp
      · exact Iff.rfl
    · rw [h1.2]
  | ref k =>
    obtain ⟨o, ho, -, -, -⟩ := i.held (h := k) (by simpa [allowed] using ha)
    simp only [step, obj_ok ho, bind, Except.bind, pure, Except.pure] at e
    cases e
    exact Iff.rfl
  | unref k =>
    obtain ⟨o, ho, -, -, hfd⟩ := i.held (h := k) (by simpa [allowed] using ha)
    simp only [step, obj_ok ho, bind, Except.bind, pure, Except.pure] at e
    cases hu : unrefObj w.fds o with
    | error _ => rw [hu] at e; cases e
    | ok r =>
      rw [hu] at e
      cases e
      unfold unrefObj at hu
      split at hu
      · cases hu; exact Iff.rfl
      · split at hu
        · cases hq : closeObj w.fds { o with ref := 0 } with
          | error _ => simp [hq, bind, Except.bind] at hu
          | ok q =>
            obtain ⟨t', o'⟩ := q
            simp only [hq, bind, Except.bind, pure, Except.pure] at hu
            cases hu
            exact key hq hfd
        · cases hu; exact Iff.rfl
  | close k =>
    obtain ⟨o, ho, -, -, hfd⟩ := i.held (h := k) (by simpa [allowed] using ha)
    simp only [step, obj_ok ho, bind, Except.bind, pure, Except.pure] at e
    cases hq : closeObj w.fds o with
    | error _ => rw [hq] at e; cases e
    | ok q =>
      obtain ⟨t', o'⟩ := q
      rw [hq] at e
      cases e
      exact key hq hfd
  | use k =>
    obtain ⟨o, ho, -, -, hfd⟩ := i.held (h := k) (by simpa [allowed] using ha)
    simp only [step, obj_ok ho, bind, Except.bind, pure, Except.pure] at e
    split at e
    · cases e; exact Iff.rfl
    · split at e
      · cases e; exact Iff.rfl
      · cases e
  | openOther m cl => exact absurd rfl (hc.1 m cl)
  | closeOther f => exact absurd rfl (hc.2 f)

/-- **C88.** If `shl_pty_open` fails, whatever system call it was that failed, the descriptors are as before. -/
theorem C88_open_failed (w : World) (s : Sys) :
    ∃ w', step w (.openPty s) = .ok w' ∧ (s ≠ .good → w'.got = false) ∧
      (w'.got = false → ∀ f, w'.fds.get f = w.fds.get f) := by
  obtain ⟨w', e, h1, -⟩ := openPty_ok w s
  refine ⟨w', e, ?_⟩
  split at h1
  · rename_i hs
    obtain ⟨fd, -, -, ho, -⟩ := h1
    have got : w'.got = true := by unfold World.got; rw [ho]; simp
    exact ⟨fun c => absurd hs.1 c, fun c => by rw [got] at c; cases c⟩
  · have got : w'.got = false := by unfold World.got; rw [h1.1]; simp
    exact ⟨fun _ => got, fun _ => h1.2⟩

/-- Calls of a program for the examples: two ptys, a failed attempt, and files of its own in between. -/
def calls : List Call :=
  [.openPty .good, .openOther 9 true, .openPty .noFork, .openPty .good, .ref 0, .unref 0, .close 2, .use 2, .use 0]

/-- The program above holds two ptys, one of them closed, and follows the rules throughout. -/
theorem calls_session : ∃ w b n, Session w b n ∧ n = 9 ∧ b.refs 0 = 1 ∧ b.isOpen 0 = true ∧ b.refs 2 = 1 ∧
    b.isOpen 2 = false ∧ w.fds.get 3 = some ⟨.master 0, true⟩ ∧ w.fds.get 4 = some ⟨.other 9, true⟩ ∧
    w.fds.get 5 = none ∧ allowed w b (.unref 0) = true ∧ allowed w b (.use 1) = false := by
  have h : (match keep calls (⟨stdFds, [], []⟩, Book.empty, 0) with
    | some (w, b, n) => decide (n = 9 ∧ b.refs 0 = 1 ∧ b.isOpen 0 = true ∧ b.refs 2 = 1 ∧
        b.isOpen 2 = false ∧ w.fds.get 3 = some ⟨.master 0, true⟩ ∧ w.fds.get 4 = some ⟨.other 9, true⟩ ∧
        w.fds.get 5 = none ∧ allowed w b (.unref 0) = true ∧ allowed w b (.use 1) = false)
    | none => false) = true := by decide +kernel
  split at h
  · rename_i w b n hk
    exact ⟨w, b, n, Session.keep (.start stdFds stdFds_other) hk, of_decide_eq_true h⟩
  · cases h

/-- The program gives everything back. -/
example : ∃ w b n, Session w b n ∧ n < 2 ^ 64 ∧ b.refs 0 = 0 ∧ b.refs 2 = 0 ∧ w.fds.get 3 = none ∧
    w.fds.get 4 = some ⟨.other 9, true⟩ ∧ w.objs = [none, none, none] := by
  have h : (match keep (calls ++ [.unref 2, .unref 0]) (⟨stdFds, [], []⟩, Book.empty, 0) with
    | some (w, b, n) => decide (n < 2 ^ 64 ∧ b.refs 0 = 0 ∧ b.refs 2 = 0 ∧ w.fds.get 3 = none ∧
        w.fds.get 4 = some ⟨.other 9, true⟩ ∧ w.objs = [none, none, none])
    | none => false) = true := by decide +kernel
  split at h
  · rename_i w b n hk
    exact ⟨w, b, n, Session.keep (.start stdFds stdFds_other) hk, of_decide_eq_true h⟩
  · cases h

/-- Without the rules things do go wrong: a pty used after its last reference is gone. -/
example : run ⟨stdFds, [], []⟩ [.openPty .good, .unref 0, .use 0] matches .error .dangling := by decide +kernel

/-- A program that closes the pty's descriptor behind its back and opens a file sees that file used in its place. -/
example : run ⟨stdFds, [], []⟩ [.openPty .good, .closeOther 3, .openOther 9 true, .use 0] matches .error .badFd := by
  decide +kernel

/-! ## C89 -/

/-- **C89** in full: if all system calls of `shl_pty_open` succeed, the parent gets a handle, and a program executed by
the child has the slave side as its standard input, output and error, and otherwise the descriptors that the parent
would leave to any program it executes. -/
def C89 (w : World) : Prop :=
  ∃ w' ct, step w (.openPty .good) = .ok w' ∧ w'.got = true ∧ w'.children = w.children ++ [ct] ∧
    (∀ n, n ≤ 2 → ct.exec.get n = some ⟨.slave w.objs.length, false⟩) ∧
    ∀ n, 2 < n → ct.exec.get n = w.fds.exec.get n

theorem exec_get (t : Fds) (n : Nat) : t.exec.get n = match t.get n with
    | some x => if x.cloexec then none else some x
    | none => none := rfl

/-- **C89**, if one of the caller's standard descriptors is open. Missing: a caller that has closed all three, for which
it is false. -/
theorem C89_child_partial (w : World) (hs : ∃ n, n ≤ 2 ∧ w.fds.get n ≠ none) : C89 w := by
  obtain ⟨w', e, h1, h2⟩ := openPty_ok w .good
  rw [if_pos ⟨rfl, hs⟩] at h1
  rw [if_pos rfl] at h2
  obtain ⟨fd, -, -, ho, -⟩ := h1
  obtain ⟨ct, hc, hg, -⟩ := h2
  have got : w'.got = true := by unfold World.got; rw [ho]; simp
  refine ⟨w', ct, e, got, hc, fun n hn => ?_, fun n hn => ?_⟩
  · rw [exec_get, hg hs, if_pos hn]; rfl
  · rw [exec_get, hg hs, if_neg (by omega), exec_get]

/-- A caller with its standard descriptors open. -/
example : ∃ w : World, (∃ n, n ≤ 2 ∧ w.fds.get n ≠ none) ∧ w.fds.get 0 ≠ none :=
  ⟨⟨stdFds, [], []⟩, ⟨0, by omega, by decide⟩, by decide⟩

/-- **C89** is false for every caller that has closed its three standard descriptors: the end of the pipe that the child
should report on is overwritten by its standard error. The parent gets no handle although the child is there, its
`shl_pty_open` has succeeded, and its standard error is closed. -/
theorem C89_closed_false (w : World) (hn : ∀ n, n ≤ 2 → w.fds.get n = none) :
    ¬ C89 w ∧ ∃ w' ct, step w (.openPty .good) = .ok w' ∧ w'.got = false ∧ w'.children = w.children ++ [ct] ∧
      ct.exec.get 0 = some ⟨.slave w.objs.length, false⟩ ∧ ct.exec.get 1 = some ⟨.slave w.objs.length, false⟩ ∧
      ct.exec.get 2 = none := by
  obtain ⟨w', e, h1, h2⟩ := openPty_ok w .good
  rw [if_neg (fun c => by obtain ⟨-, n, hl, hx⟩ := c; exact hx (hn n hl))] at h1
  rw [if_pos rfl] at h2
  obtain ⟨ct, hc, -, hg⟩ := h2
  have got : w'.got = false := by unfold World.got; rw [h1.1]; simp
  refine ⟨fun ⟨w2, ct2, e2, g2, _⟩ => ?_, w', ct, e, got, hc, ?_, ?_, ?_⟩
  · replace e2 : openPty w .good = .ok w2 := e2
    rw [e] at e2
    cases e2
    rw [got] at g2
    cases g2
  · rw [exec_get, hg hn, if_pos (by omega)]; rfl
  · rw [exec_get, hg hn, if_pos (by omega)]; rfl
  · rw [exec_get, hg hn, if_neg (by omega), hn 2 (by omega)]

/-- So **C89** is not true of every caller. -/
theorem C89_false : ¬ ∀ w, C89 w := fun h => (C89_closed_false ⟨noFds, [], []⟩ (fun _ _ => rfl)).1 (h _)

/-- **C89.** A program started on a pty gets no descriptor of the master side of any pty, neither its own nor that of
one opened before, so that closing a pty in the parent hangs it up. -/
theorem C89_no_master {w w' : World} {b : Book} {n : Nat} (s : Session w b n) (hn : n < 2 ^ 64)
    (e : step w (.openPty .good) = .ok w') : ∃ ct, w'.children = w.children ++ [ct] ∧
      ∀ f x, ct.exec.get f = some x → x.cloexec = false ∧ (x.file = .slave w.objs.length ∨ ∃ m, x.file = .other m) := by
  obtain ⟨w2, e2, -, h2⟩ := openPty_ok w .good
  replace e : openPty w .good = .ok w' := e
  rw [e] at e2
  cases e2
  rw [if_pos rfl] at h2
  obtain ⟨ct, hc, hg, hg'⟩ := h2
  refine ⟨ct, hc, fun f x hx => ?_⟩
  rw [exec_get] at hx
  cases hq : ct.get f with
  | none => rw [hq] at hx; cases hx
  | some y =>
    rw [hq] at hx
    simp only at hx
    split at hx
    · cases hx
    · rename_i hcl
      cases hx
      refine ⟨by simpa using hcl, ?_⟩
      have own : w.fds.get f = some x → ∃ m, x.file = .other m := fun h => by
        rcases (C88_descriptors s hn).2 f x h with h | ⟨k, e, -⟩
        · exact h
        · rw [e] at hcl; exact absurd rfl hcl
      by_cases hs : ∃ n, n ≤ 2 ∧ w.fds.get n ≠ none
      · have := hg hs f
        rw [hq] at this
        split at this
        · cases this; exact .inl rfl
        · exact .inr (own this.symm)
      · have := hg' (fun n hl => Classical.byContradiction fun c => hs ⟨n, hl, c⟩) f
        rw [hq] at this
        split at this
        · cases this; exact .inl rfl
        · exact .inr (own this.symm)

/-- A second pty is opened while the first one is held. -/
example : ∃ w b n, Session w b n ∧ n < 2 ^ 64 ∧ w.fds.get 3 = some ⟨.master 0, true⟩ := by
  obtain ⟨w, b, n, s, hn, -, -, -, -, h, -⟩ := calls_session
  exact ⟨w, b, n, s, by omega, h⟩

end PtyLife
end Verif
