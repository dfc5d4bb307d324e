import Verif.Model.Shared.PtyLife

/-! # Helper lemmas about the descriptors of a pty -/

namespace Verif
namespace PtyLife

namespace Fds

theorem lowestFrom_free (g : Nat → Option Fd) (f n : Nat) (h : g (n + f) = none) :
    g (lowestFrom g f n) = none := by
  induction f generalizing n with
  | zero => simpa [lowestFrom] using h
  | succ f ih =>
    unfold lowestFrom
    split
    · assumption
    · exact ih (n + 1) (by rw [show n + 1 + f = n + (f + 1) by omega]; exact h)

theorem lowestFrom_min (g : Nat → Option Fd) (f n m : Nat) (h1 : n ≤ m) (h2 : m < lowestFrom g f n) :
    g m ≠ none := by
  induction f generalizing n with
  | zero => simp only [lowestFrom] at h2; omega
  | succ f ih =>
    unfold lowestFrom at h2
    split at h2
    · omega
    · rename_i hn
      by_cases e : m = n
      · exact e ▸ hn
      · exact ih (n + 1) (by omega) h2

theorem lowest_free (t : Fds) : t.get t.lowest = none :=
  lowestFrom_free _ _ _ (by rw [Nat.zero_add]; exact t.free _ (Nat.le_refl _))

theorem lowest_min (t : Fds) (m : Nat) (h : m < t.lowest) : t.get m ≠ none :=
  lowestFrom_min _ _ _ _ (Nat.zero_le _) h

theorem close_ok (t : Fds) (n : Nat) (h : t.get n ≠ none) :
    ∃ t' : Fds, t.close n = .ok t' ∧ t'.get = fun m => if m = n then none else t.get m :=
  ⟨_, if_neg h, rfl⟩

theorem set_get (t : Fds) (n m : Nat) (x : Fd) : (t.set n x).get m = if m = n then some x else t.get m := rfl

theorem dup2_ok (t : Fds) (a b : Nat) (x : Fd) (h : t.get a = some x) (hab : a ≠ b) :
    ∃ t' : Fds, t.dup2 a b = .ok t' ∧
      t'.get = fun m => if m = b then some { x with cloexec := false } else t.get m := by
  unfold dup2
  rw [h]
  simp only [if_neg hab]
  exact ⟨_, rfl, rfl⟩

end Fds

open Fds

/-- The descriptors of the parent after opening the master and the pipe. -/
structure Opened (t t3 : Fds) (k fd c0 c1 : Nat) : Prop where
  get : ∀ m, t3.get m = if m = c1 then some ⟨.pipeW k, true⟩ else if m = c0 then some ⟨.pipeR k, true⟩ else
    if m = fd then some ⟨.master k, true⟩ else t.get m
  freeF : t.get fd = none
  freeR : t.get c0 = none
  freeW : t.get c1 = none
  l1 : fd < c0
  l2 : c0 < c1
  used : ∀ m, m < c1 → m ≠ fd → m ≠ c0 → t.get m ≠ none

theorem opened_ok (t : Fds) (k : Nat) :
    Opened t (((t.set t.lowest ⟨.master k, true⟩).set (t.set t.lowest ⟨.master k, true⟩).lowest ⟨.pipeR k, true⟩).set
      ((t.set t.lowest ⟨.master k, true⟩).set (t.set t.lowest ⟨.master k, true⟩).lowest ⟨.pipeR k, true⟩).lowest
        ⟨.pipeW k, true⟩) k t.lowest (t.set t.lowest ⟨.master k, true⟩).lowest
      ((t.set t.lowest ⟨.master k, true⟩).set (t.set t.lowest ⟨.master k, true⟩).lowest ⟨.pipeR k, true⟩).lowest := by
  have f0 := t.lowest_free
  have m0 := t.lowest_min
  generalize hfd : t.lowest = fd at *
  have g1 : ∀ m, (t.set fd ⟨.master k, true⟩).get m = if m = fd then some ⟨.master k, true⟩ else t.get m := fun _ => rfl
  generalize t.set fd ⟨.master k, true⟩ = t1 at *
  have f1 := t1.lowest_free
  have m1 := t1.lowest_min
  generalize hc0 : t1.lowest = c0 at *
  have g2 : ∀ m, (t1.set c0 ⟨.pipeR k, true⟩).get m = if m = c0 then some ⟨.pipeR k, true⟩ else t1.get m := fun _ => rfl
  generalize t1.set c0 ⟨.pipeR k, true⟩ = t2 at *
  have f2 := t2.lowest_free
  have m2 := t2.lowest_min
  generalize hc1 : t2.lowest = c1 at *
  have n0 : c0 ≠ fd := by intro e; rw [g1, if_pos e] at f1; cases f1
  have q0 : t.get c0 = none := by rw [g1, if_neg n0] at f1; exact f1
  have n1 : c1 ≠ c0 := by intro e; rw [g2, if_pos e] at f2; cases f2
  have f2' : t1.get c1 = none := by rw [g2, if_neg n1] at f2; exact f2
  have n2 : c1 ≠ fd := by intro e; rw [g1, if_pos e] at f2'; cases f2'
  have q1 : t.get c1 = none := by rw [g1, if_neg n2] at f2'; exact f2'
  have l1 : fd < c0 := by
    rcases Nat.lt_or_ge c0 fd with h | h
    · exact absurd q0 (m0 c0 h)
    · omega
  have l2 : c0 < c1 := by
    rcases Nat.lt_or_ge c1 c0 with h | h
    · exact absurd f2' (m1 c1 h)
    · omega
  refine ⟨fun m => ?_, f0, q0, q1, l1, l2, fun m hm h1 h2 => ?_⟩
  · rw [Fds.set_get, g2, g1]
  · have := m2 m hm
    rw [g2, if_neg h2, g1, if_neg h1] at this
    exact this

/-- What the child's side does. -/
theorem child_ok {t t3 : Fds} {k fd c0 c1 : Nat} (o : Opened t t3 k fd c0 c1) :
    ∃ ct : Fds, child t3 k fd c0 c1 = .ok (ct, decide (2 < c1)) ∧
      ∀ m, ct.get m = if m = c1 then none else if m ≤ 2 then some ⟨.slave k, false⟩ else
        if m = fd ∨ m = c0 then none else t.get m := by
  obtain ⟨g, f, q0, q1, l1, l2, used⟩ := o
  have fs := t3.lowest_free
  have ms := t3.lowest_min
  unfold child Fds.opened
  dsimp only
  generalize t3.lowest = s at *
  have s1 : s ≠ c1 := by intro e; rw [g, if_pos e] at fs; cases fs
  have s2 : s ≠ c0 := by intro e; rw [g, if_neg s1, if_pos e] at fs; cases fs
  have s3 : s ≠ fd := by intro e; rw [g, if_neg s1, if_neg s2, if_pos e] at fs; cases fs
  have st : t.get s = none := by rw [g, if_neg s1, if_neg s2, if_neg s3] at fs; exact fs
  have ls : c1 < s := by
    rcases Nat.lt_or_ge s c1 with h | h
    · exact absurd st (used s h s3 s2)
    · omega
  have h4 : ∀ m, (t3.set s ⟨.slave k, true⟩).get m = if m = s then some ⟨.slave k, true⟩ else t3.get m := fun _ => rfl
  generalize t3.set s ⟨.slave k, true⟩ = t4 at *
  obtain ⟨t5, e5, h5⟩ := t4.close_ok c0 (by rw [h4, if_neg (by omega), g, if_neg (by omega), if_pos rfl]; simp)
  obtain ⟨t6, e6, h6⟩ := t5.close_ok fd
    (by rw [h5]; simp only []; rw [if_neg (by omega), h4, if_neg (by omega), g, if_neg (by omega), if_neg (by omega), if_pos rfl]; simp)
  obtain ⟨t7, e7, h7⟩ := t6.dup2_ok s 0 ⟨.slave k, true⟩
    (by rw [h6]; simp only []; rw [if_neg (by omega), h5]; simp only []; rw [if_neg (by omega), h4, if_pos rfl]) (by omega)
  obtain ⟨t8, e8, h8⟩ := t7.dup2_ok s 1 ⟨.slave k, true⟩
    (by rw [h7]; simp only []; rw [if_neg (by omega), h6]; simp only []; rw [if_neg (by omega), h5]; simp only []
        rw [if_neg (by omega), h4, if_pos rfl]) (by omega)
  obtain ⟨t9, e9, h9⟩ := t8.dup2_ok s 2 ⟨.slave k, true⟩
    (by rw [h8]; simp only []; rw [if_neg (by omega), h7]; simp only []
        rw [if_neg (by omega), h6]; simp only []; rw [if_neg (by omega), h5]; simp only []
        rw [if_neg (by omega), h4, if_pos rfl]) (by omega)
  obtain ⟨t10, e10, h10⟩ := t9.close_ok s
    (by rw [h9]; simp only []; rw [if_neg (by omega), h8]; simp only []; rw [if_neg (by omega), h7]; simp only []
        rw [if_neg (by omega), h6]; simp only []; rw [if_neg (by omega), h5]; simp only []
        rw [if_neg (by omega), h4, if_pos rfl]; simp)
  have all : ∀ m, t10.get m = if m = s then none else if m ≤ 2 then some ⟨.slave k, false⟩ else
      if m = fd ∨ m = c0 then none else if m = c1 then some ⟨.pipeW k, true⟩ else t.get m := by
    intro m
    rw [h10]
    simp only []
    by_cases a : m = s
    · rw [if_pos a, if_pos a]
    rw [if_neg a, if_neg a, h9]
    simp only []
    by_cases b2 : m = 2
    · rw [if_pos b2, if_pos (by omega)]
    rw [if_neg b2, h8]
    simp only []
    by_cases b1 : m = 1
    · rw [if_pos b1, if_pos (by omega)]
    rw [if_neg b1, h7]
    simp only []
    by_cases b0 : m = 0
    · rw [if_pos b0, if_pos (by omega)]
    rw [if_neg b0, if_neg (by omega), h6]
    simp only []
    by_cases bf : m = fd
    · rw [if_pos bf, if_pos (.inl bf)]
    rw [if_neg bf, h5]
    simp only []
    by_cases bc : m = c0
    · rw [if_pos bc, if_pos (.inr bc)]
    rw [if_neg bc, if_neg (by omega), h4, if_neg a, g]
    by_cases b : m = c1
    · rw [if_pos b, if_pos b]
    · rw [if_neg b, if_neg b, if_neg bc, if_neg bf]
  have hc : t10.get c1 = some (if 2 < c1 then ⟨.pipeW k, true⟩ else ⟨.slave k, false⟩) := by
    rw [all, if_neg (by omega)]
    by_cases h : 2 < c1
    · rw [if_neg (by omega), if_neg (by omega), if_pos rfl, if_pos h]
    · rw [if_pos (by omega), if_neg h]
  obtain ⟨t11, e11, h11⟩ := t10.close_ok c1 (by rw [hc]; simp)
  refine ⟨t11, ?_, ?_⟩
  · simp only [e5, e6, e7, e8, e9, bind, Except.bind]
    rw [if_pos (by omega)]
    simp only [e10, hc, e11, pure, Except.pure]
    congr 2
    by_cases h : 2 < c1 <;> simp [h]
  · intro m
    rw [h11]
    simp only []
    by_cases b : m = c1
    · rw [if_pos b, if_pos b]
    rw [if_neg b, if_neg b, all]
    by_cases a : m = s
    · rw [if_pos a, if_neg (by omega), if_neg (by omega), a, st]
    · rw [if_neg a, if_neg b]

open Classical in
/-- What `shl_pty_open` does in the parent. -/
theorem openPty_ok (w : World) (s : Sys) :
    ∃ w' : World, openPty w s = .ok w' ∧
      (if s = .good ∧ ∃ n, n ≤ 2 ∧ w.fds.get n ≠ none then
        (∃ fd, w.fds.get fd = none ∧ (∀ n, n < fd → w.fds.get n ≠ none) ∧ w'.objs = w.objs ++ [some ⟨1, some fd⟩] ∧
          ∀ m, w'.fds.get m = if m = fd then some ⟨.master w.objs.length, true⟩ else w.fds.get m)
       else w'.objs = w.objs ++ [none] ∧ ∀ m, w'.fds.get m = w.fds.get m) ∧
      (if s = .good then ∃ ct : Fds, w'.children = w.children ++ [ct] ∧
          ((∃ n, n ≤ 2 ∧ w.fds.get n ≠ none) → ∀ m, ct.get m =
            if m ≤ 2 then some ⟨.slave w.objs.length, false⟩ else w.fds.get m) ∧
          ((∀ n, n ≤ 2 → w.fds.get n = none) → ∀ m, ct.get m =
            if m ≤ 1 then some ⟨.slave w.objs.length, false⟩ else w.fds.get m)
       else w'.children = w.children) := by
  have o := opened_ok w.fds w.objs.length
  have f0 := w.fds.lowest_free
  have m0 := w.fds.lowest_min
  unfold openPty Fds.opened
  dsimp only
  generalize hfd : w.fds.lowest = fd at *
  generalize ht1 : w.fds.set fd ⟨.master w.objs.length, true⟩ = t1 at *
  have g1 : ∀ m, t1.get m = if m = fd then some ⟨.master w.objs.length, true⟩ else w.fds.get m := by
    subst ht1; exact fun _ => rfl
  generalize t1.lowest = c0 at *
  generalize t1.set c0 ⟨.pipeR w.objs.length, true⟩ = t2 at *
  generalize t2.lowest = c1 at *
  generalize t2.set c1 ⟨.pipeW w.objs.length, true⟩ = t3 at *
  obtain ⟨ct, ec, hct⟩ := child_ok o
  obtain ⟨g, -, q0, q1, l1, l2, used⟩ := o
  have bailNone : ∀ t : Fds, bail t none ⟨1, none⟩ = .ok t := fun _ => rfl
  have bailSome : ∀ t : Fds, t.get fd ≠ none → ∃ t' : Fds, bail t (some fd) ⟨1, none⟩ = .ok t' ∧
      t'.get = fun m => if m = fd then none else t.get m := fun t h => by
    obtain ⟨t', e, h'⟩ := t.close_ok fd h
    exact ⟨t', by simp [bail, closep, e, unrefObj, closeObj, bind, Except.bind, pure, Except.pure], h'⟩
  have bailPty : ∀ t : Fds, t.get fd ≠ none → ∃ t' : Fds, bail t none ⟨1, some fd⟩ = .ok t' ∧
      t'.get = fun m => if m = fd then none else t.get m := fun t h => by
    obtain ⟨t', e, h'⟩ := t.close_ok fd h
    exact ⟨t', by simp [bail, closep, e, unrefObj, closeObj, bind, Except.bind, pure, Except.pure], h'⟩
  have back : ∀ m, (if m = fd then none else w.fds.get m) = w.fds.get m := fun m => by
    split
    · rename_i e; rw [e, f0]
    · rfl
  -- closing both ends of the pipe, in either order
  obtain ⟨ta, ea, ha⟩ := t3.close_ok c1 (by rw [g, if_pos rfl]; simp)
  have ga : ∀ m, ta.get m = if m = c0 then some ⟨.pipeR w.objs.length, true⟩ else t1.get m := fun m => by
    rw [ha]
    simp only []
    by_cases b : m = c1
    · rw [if_pos b, if_neg (by omega), g1, if_neg (by omega), b, q1]
    · rw [if_neg b, g, if_neg b, g1]
  obtain ⟨tb, eb, hb⟩ := ta.close_ok c0 (by rw [ga, if_pos rfl]; simp)
  have gb : ∀ m, tb.get m = t1.get m := fun m => by
    rw [hb]
    simp only []
    by_cases b : m = c0
    · rw [if_pos b, g1, if_neg (by omega), b, q0]
    · rw [if_neg b, ga, if_neg b]
  obtain ⟨tc, ecc, hc⟩ := t3.close_ok c0 (by rw [g, if_neg (by omega), if_pos rfl]; simp)
  obtain ⟨td, ed, hd⟩ := tc.close_ok c1 (by rw [hc]; simp only []; rw [if_neg (by omega), g, if_pos rfl]; simp)
  have gd : ∀ m, td.get m = t1.get m := fun m => by
    rw [hd]
    simp only []
    by_cases b : m = c1
    · rw [if_pos b, g1, if_neg (by omega), b, q1]
    rw [if_neg b, hc]
    simp only []
    by_cases b' : m = c0
    · rw [if_pos b', g1, if_neg (by omega), b', q0]
    · rw [if_neg b', g, if_neg b, if_neg b', g1]
  obtain ⟨te, ee, he⟩ := bailSome t1 (by rw [g1, if_pos rfl]; simp)
  obtain ⟨tf, ef, hf⟩ := bailSome td (by rw [gd, g1, if_pos rfl]; simp)
  obtain ⟨tg, eg, hg⟩ := bailPty tb (by rw [gb, g1, if_pos rfl]; simp)
  have undo : ∀ m, (if m = fd then none else t1.get m) = w.fds.get m := fun m => by
    rw [← back m]
    split
    · rfl
    · rename_i e; rw [g1, if_neg e]
  cases s
  case noMem => exact ⟨_, rfl, by rw [if_neg (by simp)]; exact ⟨rfl, fun _ => rfl⟩, by rw [if_neg (by simp)]⟩
  case noPt =>
    exact ⟨_, rfl, by rw [if_neg (by simp)]; exact ⟨rfl, fun _ => rfl⟩, by rw [if_neg (by simp)]⟩
  case noPipe =>
    refine ⟨⟨te, w.objs ++ [none], w.children⟩, ?_, ?_, by rw [if_neg (by simp)]⟩
    · simp [ee, bind, Except.bind, pure, Except.pure]
    · rw [if_neg (by simp)]
      exact ⟨rfl, fun m => by show te.get m = _; rw [he]; exact undo m⟩
  case noFork =>
    refine ⟨⟨tf, w.objs ++ [none], w.children⟩, ?_, ?_, by rw [if_neg (by simp)]⟩
    · simp [ecc, ed, ef, bind, Except.bind, pure, Except.pure]
    · rw [if_neg (by simp)]
      exact ⟨rfl, fun m => by show tf.get m = _; rw [hf]; simp only [gd]; exact undo m⟩
  case childFails =>
    refine ⟨⟨tg, w.objs ++ [none], w.children⟩, ?_, ?_, by rw [if_neg (by simp)]⟩
    · simp [ea, eb, eg, ga, bind, Except.bind, pure, Except.pure]
    · rw [if_neg (by simp)]
      exact ⟨rfl, fun m => by show tg.get m = _; rw [hg]; simp only [gb]; exact undo m⟩
  case good =>
    by_cases h : 2 < c1
    · have hsome : ∃ n, n ≤ 2 ∧ w.fds.get n ≠ none := by
        apply Classical.byContradiction
        intro hn
        have hn : ∀ n, n ≤ 2 → w.fds.get n = none := fun n hl =>
          Classical.byContradiction fun c => hn ⟨n, hl, c⟩
        have u := fun n (hl : n ≤ 2) => Classical.byContradiction (p := n = fd ∨ n = c0) fun c =>
          used n (by omega) (fun e => c (.inl e)) (fun e => c (.inr e)) (hn n hl)
        have u0 := u 0 (by omega)
        have u1 := u 1 (by omega)
        have u2 := u 2 (by omega)
        omega
      refine ⟨⟨tb, w.objs ++ [some ⟨1, some fd⟩], w.children ++ [ct]⟩, ?_, ?_, ?_⟩
      · simp [ec, h, ea, eb, ga, bind, Except.bind, pure, Except.pure]
      · rw [if_pos ⟨rfl, hsome⟩]
        exact ⟨fd, f0, m0, rfl, fun m => by show tb.get m = _; rw [gb, g1]⟩
      · rw [if_pos rfl]
        refine ⟨ct, rfl, fun _ m => ?_, fun hn => ?_⟩
        · rw [hct]
          by_cases a : m ≤ 2
          · rw [if_neg (by omega), if_pos a, if_pos a]
          · rw [if_neg a, if_neg a]
            by_cases b : m = c1
            · rw [if_pos b, b, q1]
            · rw [if_neg b]
              split
              · rename_i e
                rcases e with e | e
                · rw [e, f0]
                · rw [e, q0]
              · rfl
        · obtain ⟨n, hl, hx⟩ := hsome
          exact absurd (hn n hl) hx
    · have e1 : fd = 0 := by omega
      have e2 : c0 = 1 := by omega
      have e3 : c1 = 2 := by omega
      have hn : ∀ n, n ≤ 2 → w.fds.get n = none := fun n hl => by
        have : n = fd ∨ n = c0 ∨ n = c1 := by omega
        rcases this with e | e | e <;> rw [e] <;> assumption
      refine ⟨⟨tg, w.objs ++ [none], w.children ++ [ct]⟩, ?_, ?_, ?_⟩
      · simp [ec, h, ea, eb, eg, ga, bind, Except.bind, pure, Except.pure]
      · rw [if_neg (fun c => by obtain ⟨-, n, hl, hx⟩ := c; exact hx (hn n hl))]
        exact ⟨rfl, fun m => by show tg.get m = _; rw [hg]; simp only [gb]; exact undo m⟩
      · rw [if_pos rfl]
        refine ⟨ct, rfl, fun ⟨n, hl, hx⟩ => absurd (hn n hl) hx, fun _ m => ?_⟩
        rw [hct]
        by_cases a : m ≤ 1
        · rw [if_neg (by omega), if_pos (by omega), if_pos a]
        · rw [if_neg a]
          by_cases b : m = 2
          · rw [if_pos (by omega), b, hn 2 (by omega)]
          · rw [if_neg (by omega), if_neg (by omega), if_neg (by omega)]

end PtyLife
end Verif
