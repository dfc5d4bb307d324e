import Verif.Model.Shared.Pty
import Verif.Proofs.Shared.Ring

/-!
# The pty transfers bytes in order
-/

namespace Verif.Pty

open Verif

/-- What was sent, followed by what is queued, is what was accepted. -/
structure Flow (p : Pty) (q : List UInt8) : Prop where
  rep : p.out.Rep q
  all : p.sent ++ q = p.accepted

/-- The part of the state that writing does not touch. -/
structure SameIn (p p' : Pty) : Prop where
  inq : p'.inq = p.inq
  got : p'.got = p.got
  opn : p'.isOpen = p.isOpen

theorem SameIn.trans {a b c : Pty} (h : SameIn a b) (h' : SameIn b c) : SameIn a c :=
  ⟨h'.inq.trans h.inq, h'.got.trans h.got, h'.opn.trans h.opn⟩

/-- The only undefined behaviour left: more than `2^63` queued bytes. -/
abbrev Shift (k : UB) : Prop := k = .badShift

theorem flow_init : Flow init [] := ⟨Ring.rep_empty, rfl⟩

theorem write_flow {e : PtyEnv} {p : Pty} {q : List UInt8} (h : Flow p q) (d : List UInt8)
    (hd : d.length < 18446744073709551616) :
    R.SatK (write e p d) Shift fun x => SameIn p x.1 ∧ x.1.sent = p.sent ∧
      ((x.2 = .ok ∧ x.1.accepted = p.accepted ++ d ∧ Flow x.1 (q ++ d)) ∨
       (x.2 ≠ .ok ∧ x.1.accepted = p.accepted ∧ Flow x.1 q)) := by
  unfold write
  rcases Bool.eq_false_or_eq_true p.isOpen with ho | ho
  · rw [if_pos ho]
    rcases Ring.push_total h.rep d (e.mem p.pushes) hd with ⟨r', h1, h2⟩ | h1 | ⟨h1, _⟩
    · rw [h1]
      refine ⟨⟨rfl, rfl, rfl⟩, rfl, Or.inl ⟨rfl, rfl, h2, ?_⟩⟩
      show p.sent ++ (q ++ d) = p.accepted ++ d
      rw [← List.append_assoc, h.all]
    · rw [h1]
      exact ⟨⟨rfl, rfl, rfl⟩, rfl, Or.inr ⟨(by intro hx; cases hx), rfl, h.rep, h.all⟩⟩
    · rw [h1]
      exact rfl
  · rw [if_neg (by rw [ho]; simp)]
    exact ⟨⟨rfl, rfl, rfl⟩, rfl, Or.inr ⟨(by intro hx; cases hx), rfl, h⟩⟩

theorem writeAll_flow {e : PtyEnv} (ds : List (List UInt8)) :
    ∀ {p : Pty} {q : List UInt8}, Flow p q → (∀ d ∈ ds, d.length < 18446744073709551616) →
    R.SatK (writeAll e p ds) Shift fun p' => SameIn p p' ∧ p'.sent = p.sent ∧
      ∃ t, Flow p' (q ++ t) ∧ p'.accepted = p.accepted ++ t ∧ (ds = [] → t = []) := by
  induction ds with
  | nil => intro p q h _; exact ⟨⟨rfl, rfl, rfl⟩, rfl, [], by rw [List.append_nil]; exact h,
      by rw [List.append_nil], fun _ => rfl⟩
  | cons d ds ih =>
    intro p q h hs
    unfold writeAll
    refine R.SatK.bind (write_flow h d (hs d (List.mem_cons_self ..))) ?_
    intro x ⟨x1, x2, x3⟩
    have hs' : ∀ d ∈ ds, d.length < 18446744073709551616 :=
      fun d hd => hs d (List.mem_cons_of_mem _ hd)
    rcases x3 with ⟨_, x4, x5⟩ | ⟨_, x4, x5⟩
    · refine (ih x5 hs').mono (fun _ h => h) ?_
      intro p' ⟨y1, y2, t, y3, y4, _⟩
      exact ⟨x1.trans y1, y2.trans x2, d ++ t, by rw [← List.append_assoc]; exact y3,
        by rw [y4, x4, List.append_assoc], by simp⟩
    · refine (ih x5 hs').mono (fun _ h => h) ?_
      intro p' ⟨y1, y2, t, y3, y4, _⟩
      exact ⟨x1.trans y1, y2.trans x2, t, y3, by rw [y4, x4], by simp⟩

/-- Sizes fit `size_t`. -/
def _root_.Verif.PtyEnv.Sized (e : PtyEnv) : Prop :=
  ∀ d, ∀ x ∈ e.reply d, x.length < 18446744073709551616

theorem readLoop_flow {e : PtyEnv} (he : e.Sized) (ks : List KRes) :
    ∀ {p : Pty} {q : List UInt8}, Flow p q →
    R.SatK (readLoop e p ks) Shift fun x =>
      x.1.isOpen = p.isOpen ∧ x.1.got ++ x.1.inq = p.got ++ p.inq ∧ p.got <+: x.1.got ∧
      x.1.sent = p.sent ∧
      ∃ t, Flow x.1 (q ++ t) ∧ x.1.accepted = p.accepted ++ t ∧ ((∀ d, e.reply d = []) → t = []) := by
  induction ks with
  | nil =>
    intro p q h
    exact ⟨rfl, rfl, List.prefix_rfl, rfl, [], by rw [List.append_nil]; exact h,
      by rw [List.append_nil], fun _ => rfl⟩
  | cons k ks ih =>
    intro p q h
    have triv : ∀ r : PtyRet, R.SatK (Except.ok (p, r) : R (Pty × PtyRet)) Shift fun x =>
      x.1.isOpen = p.isOpen ∧ x.1.got ++ x.1.inq = p.got ++ p.inq ∧ p.got <+: x.1.got ∧
      x.1.sent = p.sent ∧
      ∃ t, Flow x.1 (q ++ t) ∧ x.1.accepted = p.accepted ++ t ∧ ((∀ d, e.reply d = []) → t = []) :=
      fun r => ⟨rfl, rfl, List.prefix_rfl, rfl, [], by rw [List.append_nil]; exact h,
        by rw [List.append_nil], fun _ => rfl⟩
    unfold readLoop
    cases k with
    | again => exact triv _
    | intr => exact triv _
    | fail => exact triv _
    | zero => exact triv _
    | some n =>
      dsimp only
      split
      · exact triv _
      · generalize min (n + 1) 16383 = len
        have h' : Flow { p with inq := p.inq.drop len, got := p.got ++ p.inq.take len } q :=
          ⟨h.rep, h.all⟩
        refine R.SatK.bind (writeAll_flow (e := e) (e.reply (p.inq.take len)) h' (he _)) ?_
        intro p1 ⟨a1, a2, t, a3, a4, a5⟩
        refine (ih a3).mono (fun _ h => h) ?_
        intro x ⟨b1, b2, b3, b4, t', b5, b6, b7⟩
        have g1 : p1.got = p.got ++ p.inq.take len := a1.got
        have g2 : p1.inq = p.inq.drop len := a1.inq
        refine ⟨b1.trans a1.opn, ?_, ?_, b4.trans a2, t ++ t', by rw [← List.append_assoc]; exact b5, ?_, ?_⟩
        · rw [b2, g1, g2, List.append_assoc, List.take_append_drop]
        · rw [g1] at b3
          exact List.IsPrefix.trans (List.prefix_append _ _) b3
        · rw [b6, a4, List.append_assoc]
        · intro hr
          rw [a5 (hr _), b7 hr]; rfl

theorem writeLoop_flow (ks : List KRes) : ∀ {p : Pty} {q : List UInt8}, Flow p q →
    R.Sat (writeLoop p ks) fun x =>
      x.1.isOpen = p.isOpen ∧ x.1.got = p.got ∧ x.1.inq = p.inq ∧ x.1.accepted = p.accepted ∧
      ∃ n, x.1.sent = p.sent ++ q.take n ∧ Flow x.1 (q.drop n) ∧
        ((∀ k ∈ ks, ∃ m, k = .some m) → ks.length ≤ n ∨ q.length ≤ n) := by
  induction ks with
  | nil =>
    intro p q h
    exact ⟨_, rfl, rfl, rfl, rfl, rfl, 0, by simp, h, fun _ => Or.inl (Nat.le_refl _)⟩
  | cons k ks ih =>
    intro p q h
    have triv : ∀ r : PtyRet, (¬ (∃ m, k = .some m) ∨ q.length = 0) →
      R.Sat (Except.ok (p, r) : R (Pty × PtyRet)) fun x =>
      x.1.isOpen = p.isOpen ∧ x.1.got = p.got ∧ x.1.inq = p.inq ∧ x.1.accepted = p.accepted ∧
      ∃ n, x.1.sent = p.sent ++ q.take n ∧ Flow x.1 (q.drop n) ∧
        ((∀ k' ∈ k :: ks, ∃ m, k' = .some m) → (k :: ks).length ≤ n ∨ q.length ≤ n) := by
      intro r hk
      refine ⟨_, rfl, rfl, rfl, rfl, rfl, 0, by simp, h, ?_⟩
      intro hks
      rcases hk with hk | hk
      · exact absurd (hks k (List.mem_cons_self ..)) hk
      · exact Or.inr (by omega)
    unfold writeLoop
    by_cases hp : p.out.peek = []
    · rw [if_pos hp]
      refine triv _ (Or.inr ?_)
      have hg := Ring.gather_rep h.rep
      rw [hp] at hg
      have hg : ([] : List (Option UInt8)) = q.map some := by injection hg
      have := congrArg List.length hg
      rw [List.length_map] at this
      exact this.symm
    · rw [if_neg hp]
      cases k with
      | again => exact triv _ (Or.inl (by rintro ⟨_, h⟩; cases h))
      | intr => exact triv _ (Or.inl (by rintro ⟨_, h⟩; cases h))
      | fail => exact triv _ (Or.inl (by rintro ⟨_, h⟩; cases h))
      | zero => exact triv _ (Or.inl (by rintro ⟨_, h⟩; cases h))
      | some n =>
        dsimp only
        rw [Ring.gather_rep h.rep]
        have e1 : ((q.map some).take (n + 1)).map (·.getD 0) = q.take (n + 1) := by
          rw [← List.map_take, List.map_map]
          exact List.map_id _
        have e2 : ((q.map some).take (n + 1)).length = min (n + 1) q.length := by
          rw [List.length_take, List.length_map]
        show R.Sat (writeLoop { p with
          out := p.out.pull ((q.map some).take (n + 1)).length,
          sent := p.sent ++ ((q.map some).take (n + 1)).map (·.getD 0) } ks) _
        rw [e1, e2]
        have hdrop : q.drop (min (n + 1) q.length) = q.drop (n + 1) := by
          rcases Nat.le_total (n + 1) q.length with hl | hl
          · rw [Nat.min_eq_left hl]
          · rw [Nat.min_eq_right hl, List.drop_of_length_le (Nat.le_refl _), List.drop_of_length_le hl]
        have h' : Flow { p with
            out := p.out.pull (min (n + 1) q.length)
            sent := p.sent ++ q.take (n + 1) } (q.drop (n + 1)) := by
          refine ⟨?_, ?_⟩
          · rw [← hdrop]; exact Ring.pull_rep h.rep _
          · show p.sent ++ q.take (n + 1) ++ q.drop (n + 1) = p.accepted
            rw [List.append_assoc, List.take_append_drop, h.all]
        refine (ih h').mono ?_
        intro x ⟨a1, a2, a3, a4, m, a5, a6, a7⟩
        refine ⟨a1, a2, a3, a4, n + 1 + m, ?_, ?_, ?_⟩
        · rw [a5]
          show p.sent ++ q.take (n + 1) ++ _ = _
          rw [List.append_assoc, List.take_add (i := n + 1) (j := m)]
        · rw [← List.drop_drop]; exact a6
        · intro hks
          have := a7 (fun k hk => hks k (List.mem_cons_of_mem _ hk))
          rw [List.length_drop] at this
          rw [List.length_cons]
          omega

theorem dispatch_flow {e : PtyEnv} (he : e.Sized) {p : Pty} {q : List UInt8} (h : Flow p q)
    (r1 r2 w1 w2 : KRes) :
    R.SatK (dispatch e p r1 r2 w1 w2) Shift fun x =>
      x.1.isOpen = p.isOpen ∧ x.1.got ++ x.1.inq = p.got ++ p.inq ∧ p.got <+: x.1.got ∧
      ∃ t n, Flow x.1 ((q ++ t).drop n) ∧ x.1.accepted = p.accepted ++ t ∧
        ((∀ d, e.reply d = []) → t = []) ∧ x.1.sent = p.sent ++ (q ++ t).take n ∧
        (p.isOpen = true → (∃ m, w1 = .some m) → (∃ m, w2 = .some m) → 2 ≤ n ∨ (q ++ t).length ≤ n) := by
  unfold dispatch
  rcases Bool.eq_false_or_eq_true p.isOpen with ho | ho
  · rw [if_pos ho]
    refine R.SatK.bind (readLoop_flow he [r1, r2] h) ?_
    intro x ⟨a1, a2, a3, a4, t, a5, a6, a7⟩
    refine R.SatK.bind ((writeLoop_flow [w1, w2] a5).toK Shift) ?_
    intro y ⟨b1, b2, b3, b4, n, b5, b6, b7⟩
    refine ⟨b1.trans a1, ?_, ?_, t, n, b6, b4.trans a6, a7, by rw [b5, a4], ?_⟩
    · show y.1.got ++ y.1.inq = _
      rw [b2, b3, a2]
    · show _ <+: y.1.got
      rw [b2]; exact a3
    · intro _ h1 h2
      apply b7
      intro k hk
      rcases List.mem_cons.mp hk with rfl | hk
      · exact h1
      · rw [List.mem_singleton] at hk; subst hk; exact h2
  · rw [if_neg (by rw [ho]; simp)]
    refine ⟨rfl, rfl, List.prefix_rfl, [], 0, by rw [List.append_nil]; exact h, by rw [List.append_nil],
      fun _ => rfl, by simp, ?_⟩
    intro h1; rw [ho] at h1; cases h1

/-- Bytes written by the other side during a history. -/
def childBytes : List Op → List UInt8
  | [] => []
  | .child d :: os => d ++ childBytes os
  | _ :: os => childBytes os

/-- Sizes fit `size_t`. -/
def Op.Sized : Op → Prop
  | .write d => d.length < 18446744073709551616
  | _ => True

theorem run_flow {e : PtyEnv} (he : e.Sized) (os : List Op) :
    ∀ {p : Pty} {q : List UInt8}, Flow p q → (∀ o ∈ os, o.Sized) →
    R.SatK (run e p os) Shift fun p' => p'.got ++ p'.inq = p.got ++ p.inq ++ childBytes os ∧
      p.got <+: p'.got ∧ p.sent <+: p'.sent ∧ p.accepted <+: p'.accepted ∧ ∃ q', Flow p' q' := by
  induction os with
  | nil => intro p q h _; exact ⟨by simp [childBytes], List.prefix_rfl, List.prefix_rfl, List.prefix_rfl, q, h⟩
  | cons o os ih =>
    intro p q h hs
    have hs' : ∀ o ∈ os, o.Sized := fun o ho => hs o (List.mem_cons_of_mem _ ho)
    have ho := hs o (List.mem_cons_self ..)
    unfold run
    cases o with
    | write d =>
      refine R.SatK.bind (write_flow (e := e) h d ho) ?_
      intro x ⟨x1, x2, x3⟩
      obtain ⟨q1, h1, h2⟩ : ∃ q1, Flow x.1 q1 ∧ p.accepted <+: x.1.accepted := by
        rcases x3 with ⟨_, x4, x5⟩ | ⟨_, x4, x5⟩
        · exact ⟨_, x5, by rw [x4]; exact List.prefix_append _ _⟩
        · exact ⟨_, x5, by rw [x4]; exact List.prefix_rfl⟩
      refine (ih h1 hs').mono (fun _ h => h) ?_
      intro p' ⟨y1, y2, y3, y4, y5⟩
      rw [x1.got, x1.inq] at y1
      rw [x1.got] at y2
      rw [x2] at y3
      exact ⟨y1, y2, y3, h2.trans y4, y5⟩
    | dispatch r1 r2 w1 w2 =>
      refine R.SatK.bind (dispatch_flow he h r1 r2 w1 w2) ?_
      intro x ⟨_, a2, a3, t, n, a5, a6, _, a8, _⟩
      refine (ih a5 hs').mono (fun _ h => h) ?_
      intro p' ⟨y1, y2, y3, y4, y5⟩
      refine ⟨by rw [y1, a2]; rfl, a3.trans y2, ?_, ?_, y5⟩
      · rw [a8] at y3; exact (List.prefix_append _ _).trans y3
      · rw [a6] at y4; exact (List.prefix_append _ _).trans y4
    | close =>
      exact ih (p := close p) (q := q) ⟨h.rep, h.all⟩ hs'
    | child d =>
      have := ih (p := { p with inq := p.inq ++ d }) (q := q) ⟨h.rep, h.all⟩ hs'
      refine R.SatK.mono this (fun _ h => h) ?_
      intro p' ⟨y1, y2, y3, y4, y5⟩
      refine ⟨?_, y2, y3, y4, y5⟩
      rw [y1]
      show p.got ++ (p.inq ++ d) ++ childBytes os = p.got ++ p.inq ++ (d ++ childBytes os)
      simp only [List.append_assoc]

end Verif.Pty
