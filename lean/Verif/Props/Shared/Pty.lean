import Verif.Proofs.Shared.Pty

/-!
# The pty

C62: output reaches the other side once and in order. C68: so does input.
-/

namespace Verif.Props.Pty

open Verif Verif.Pty

/-- **C62.** After any history, with any amount transferred by each system call and any
of them failing: what the kernel accepted is a prefix of what was successfully
queued by `shl_pty_write`, the rest is still queued, in order; and what was
sent before stays sent. The only undefined behaviour left (`badShift`) needs more than
`2^63` queued bytes, see `C61_queue`. -/
theorem C62_prefix {e : PtyEnv} (he : e.Sized) {os : List Op} (hs : ∀ o ∈ os, o.Sized) :
    R.SatK (run e init os) (fun k => k = .badShift) fun p =>
      ∃ q, p.sent ++ q = p.accepted ∧ p.out.gather p.out.peek = .ok (q.map some) := by
  refine (run_flow he os flow_init hs).mono (fun _ h => h) ?_
  intro p ⟨_, _, _, _, q, hq⟩
  exact ⟨q, hq.all, Ring.gather_rep hq.rep⟩

/-- **C62.** What `shl_pty_write` promises: if it returns 0, exactly its argument is
added to the accepted bytes; otherwise (closed, no memory) nothing is queued. -/
theorem C62_write {e : PtyEnv} (he : e.Sized) {os : List Op} (hs : ∀ o ∈ os, o.Sized) {p : Pty}
    (hr : run e init os = .ok p) {d : List UInt8} (hd : d.length < 2 ^ 64) :
    R.SatK (p.write e d) (fun k => k = .badShift) fun x => x.1.sent = p.sent ∧
      x.1.accepted = (if x.2 = .ok then p.accepted ++ d else p.accepted) ∧
      (x.2 = .ok → p.isOpen = true) ∧ (x.2 ≠ .ok → x.1.out = p.out) := by
  have h := run_flow he os flow_init hs
  rw [hr] at h
  obtain ⟨_, _, _, _, q, hq⟩ := h
  have h2 := write_flow (e := e) hq d (by simpa using hd)
  unfold write at h2 ⊢
  rcases Bool.eq_false_or_eq_true p.isOpen with ho | ho
  · rw [if_pos ho] at h2 ⊢
    rcases Ring.push_total hq.rep d (e.mem p.pushes) (by simpa using hd) with ⟨r', h1, _⟩ | h1 | ⟨h1, _⟩
    · rw [h1]
      exact ⟨rfl, rfl, fun _ => ho, fun h => absurd rfl h⟩
    · rw [h1]
      exact ⟨rfl, rfl, (fun h => by cases h), fun _ => rfl⟩
    · rw [h1]; rfl
  · rw [if_neg (by rw [ho]; simp)]
    exact ⟨rfl, rfl, (fun h => by cases h), fun _ => rfl⟩

/-- **C62.** Everything queued is sent eventually: if the input callback writes nothing
and the kernel accepts at least one byte in each `writev`, each dispatch of an open pty
sends at least two bytes of the `n` queued ones, so all have been sent after
`n / 2 + 1` dispatches (whatever the reads do). -/
theorem C62_drained {e : PtyEnv} (he : ∀ d, e.reply d = []) {os : List Op} (hs : ∀ o ∈ os, o.Sized)
    {p : Pty} (hr : run e init os = .ok p) (ho : p.isOpen = true)
    (ds : List (KRes × KRes × Nat × Nat)) (hn : p.out.getSize < 2 * ds.length + 1) :
    R.SatK (run e p (ds.map fun d => .dispatch d.1 d.2.1 (.some d.2.2.1) (.some d.2.2.2)))
      (fun k => k = .badShift) fun p' => p'.sent = p.accepted ∧ p'.accepted = p.accepted := by
  have hse : e.Sized := by intro d x hx; rw [he] at hx; cases hx
  have h := run_flow hse os flow_init hs
  rw [hr] at h
  obtain ⟨q, hq⟩ := h.2.2.2.2
  clear hr h
  induction ds generalizing p q with
  | nil =>
    have hq0 : q = [] := by
      have := hq.rep.used
      unfold Ring.getSize at hn
      exact List.eq_nil_of_length_eq_zero (by simp at hn; omega)
    have := hq.all
    rw [hq0, List.append_nil] at this
    exact ⟨this, rfl⟩
  | cons d ds ih =>
    unfold Ring.getSize at hn
    rw [List.map_cons]
    unfold run
    refine R.SatK.bind (dispatch_flow hse hq d.1 d.2.1 (.some d.2.2.1) (.some d.2.2.2)) ?_
    intro x ⟨a1, _, _, t, n, a5, a6, a7, a8, a9⟩
    have ht := a7 he
    subst ht
    rw [List.append_nil] at a5 a8 a9 a6
    have hge := a9 ho ⟨_, rfl⟩ ⟨_, rfl⟩
    have hu := hq.rep.used
    have hu' := a5.rep.used
    rw [List.length_drop] at hu'
    rw [List.length_cons] at hn
    refine (ih (by rw [a1, ho]) (by unfold Ring.getSize; omega) _ a5).mono (fun _ h => h) ?_
    intro p' ⟨b1, b2⟩
    exact ⟨b1.trans a6, b2.trans a6⟩

/-- **C62**, closing: after `shl_pty_close`, whatever is called, nothing more is transferred in either direction, and writing
and dispatching return -ENODEV. -/
theorem C62_closed {e : PtyEnv} {p p' : Pty} {os : List Op} (h : run e p (.close :: os) = .ok p') :
    p'.sent = p.sent ∧ p'.got = p.got ∧ p'.accepted = p.accepted ∧ p'.out = p.out ∧
      (∀ d, p'.write e d = .ok (p', .enodev)) ∧ ∀ r1 r2 w1 w2, p'.dispatch e r1 r2 w1 w2 = .ok (p', .enodev) := by
  suffices H : ∀ (os : List Op) (q : Pty), q.isOpen = false → run e q os = .ok p' → p'.isOpen = false ∧ p'.sent = q.sent ∧
      p'.got = q.got ∧ p'.accepted = q.accepted ∧ p'.out = q.out by
    obtain ⟨h0, h1, h2, h3, h4⟩ := H os p.close rfl h
    refine ⟨h1, h2, h3, h4, fun d => ?_, fun r1 r2 w1 w2 => ?_⟩
    · unfold write
      rw [if_neg (by rw [h0]; exact Bool.false_ne_true)]
    · unfold dispatch
      rw [if_neg (by rw [h0]; exact Bool.false_ne_true)]
  intro os
  induction os with
  | nil =>
    intro q hq hr
    cases hr
    exact ⟨hq, rfl, rfl, rfl, rfl⟩
  | cons o os ih =>
    intro q hq hr
    have hn : ¬ q.isOpen = true := by rw [hq]; exact Bool.false_ne_true
    cases o with
    | write d =>
      have hw : q.write e d = .ok (q, .enodev) := by unfold write; rw [if_neg hn]
      change (q.write e d >>= fun x => run e x.1 os) = _ at hr
      rw [hw] at hr
      exact ih q hq hr
    | dispatch r1 r2 w1 w2 =>
      have hw : q.dispatch e r1 r2 w1 w2 = .ok (q, .enodev) := by unfold dispatch; rw [if_neg hn]
      change (q.dispatch e r1 r2 w1 w2 >>= fun x => run e x.1 os) = _ at hr
      rw [hw] at hr
      exact ih q hq hr
    | close => exact ih q.close rfl hr
    | child d => exact ih { q with inq := q.inq ++ d } hq hr

/-- Closing with a byte in the queue and one to be read. -/
example : (match run ⟨fun _ => true, fun _ => []⟩ init [.write [1], .child [2], .close, .write [3],
      .dispatch (.some 0) .again (.some 0) .again] with
    | .ok p => decide (p.sent = [] ∧ p.got = [] ∧ p.accepted = [1])
    | .error _ => false) = true := by decide +kernel

/-- The stronger claim a user of the return value would rely on: when `dispatch` returns
0 although the kernel accepted everything it was asked for, no output is left.
(`shl_pty_bridge_dispatch_pty` schedules another dispatch for -EAGAIN only.) -/
def C62_return_claim : Prop :=
  ∀ (e : PtyEnv) (os : List Op) (p : Pty) (n1 n2 : Nat) (p' : Pty), run e init os = .ok p →
    p.dispatch e .again .again (.some n1) (.some n2) = .ok (p', .ok) → p'.out.getSize = 0

/-- **C62**: this claim is false, because the return value of `pty_write` is ignored:
after two partial writes `dispatch` returns 0 with output left. -/
theorem C62_false_return : ¬ C62_return_claim := by
  intro h
  have key : (match run ⟨fun _ => true, fun _ => []⟩ init [.write [1, 2, 3]] with
      | .ok p => (match p.dispatch ⟨fun _ => true, fun _ => []⟩ .again .again (.some 0) (.some 0) with
        | .ok (p', .ok) => decide (p'.out.getSize ≠ 0)
        | _ => false)
      | _ => false) = true := by decide +kernel
  split at key
  · rename_i p hp
    split at key
    · rename_i p' hp'
      exact of_decide_eq_true key (h _ _ _ 0 0 _ hp hp')
    · cases key
  · cases key

/-! Two writes, a dispatch with a read and partial writes, during which the callback
replies, another write and the next dispatch. -/

example : (match run ⟨fun _ => true, fun d => [d.map (· + 100)]⟩ init
      [.write [1, 2], .write [3], .child [7], .dispatch (.some 0) .again (.some 1) .intr,
       .write [4], .dispatch .again .again (.some 0) (.some 1)] with
    | .ok p => decide (p.accepted = [1, 2, 3, 107, 4] ∧ p.sent = [1, 2, 3, 107, 4] ∧ p.got = [7])
    | .error _ => false) = true := by decide +kernel

/-- **C68.** After any history, what the input callback has got, followed by what has not
been read yet, is exactly what the other side wrote: no byte is lost, duplicated or
reordered, and each dispatch only appends to what the callback has got. -/
theorem C68_input {e : PtyEnv} (he : e.Sized) {os : List Op} (hs : ∀ o ∈ os, o.Sized) :
    R.SatK (run e init os) (fun k => k = .badShift) fun p =>
      p.got ++ p.inq = childBytes os ∧
      ∀ o, o.Sized → R.SatK (step e p o) (fun k => k = .badShift) fun x => p.got <+: x.1.got := by
  refine (run_flow he os flow_init hs).mono (fun _ h => h) ?_
  intro p ⟨h1, _, _, _, q, hq⟩
  refine ⟨h1, ?_⟩
  intro o ho
  have := run_flow he [o] hq (by intro o' ho'; rw [List.mem_singleton] at ho'; subst ho'; exact ho)
  unfold run at this
  cases hst : step e p o with
  | error k => rw [hst] at this; exact this
  | ok x => rw [hst] at this; exact this.2.1

/-! Reads of one byte and of more than the buffer. -/

example : (match run ⟨fun _ => false, fun _ => []⟩ init
      [.child [1, 2], .dispatch (.some 0) .intr .again .again, .child [3],
       .dispatch (.some 100000) (.some 5) .fail .fail] with
    | .ok p => decide (p.got = [1, 2, 3] ∧ p.inq = [])
    | .error _ => false) = true := by decide +kernel

end Verif.Props.Pty
