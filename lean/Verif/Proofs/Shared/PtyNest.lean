import Verif.Spec.PtyNest
import Verif.Proofs.Shared.Pty

/-!
# Calls of the pty from its own callback: invariants
-/

namespace Verif.PtyNest

open Verif Verif.Pty

/-- What a dispatch keeps: `I0` before, `I1` after the first callback, `I2` after the second. -/
theorem dispatch_keep {K : UB → Prop} {I0 I1 I2 : St → Prop} {C1 C2 : List UInt8 → St → Prop}
    (l0 : ∀ s, I0 s → s.live = true ∨ K .dangling) (l1 : ∀ s, I1 s → s.live = true ∨ K .dangling)
    (l2 : ∀ s, I2 s → s.live = true ∨ K .dangling)
    (h01 : ∀ s, I0 s → I1 s) (h12 : ∀ s, I1 s → I2 s)
    (g0 : ∀ s n, I0 s → s.p.isOpen = true → C1 (s.p.inq.take n) { s with
      p := { s.p with inq := s.p.inq.drop n, got := s.p.got ++ s.p.inq.take n }
      buf := s.p.inq.take n ++ 0 :: s.buf.drop ((s.p.inq.take n).length + 1) })
    (g1 : ∀ s n, I1 s → s.p.isOpen = true → C2 (s.p.inq.take n) { s with
      p := { s.p with inq := s.p.inq.drop n, got := s.p.got ++ s.p.inq.take n }
      buf := s.p.inq.take n ++ 0 :: s.buf.drop ((s.p.inq.take n).length + 1) })
    (wr : ∀ s w1 w2, I2 s → s.p.isOpen = true → R.SatK (s.p.writeLoop [w1, w2]) K fun x => I2 { s with p := x.1 })
    {cb1 cb2 : List UInt8 → St → R St} (c1 : ∀ d s, C1 d s → R.SatK (cb1 d s) K I1)
    (c2 : ∀ d s, C2 d s → R.SatK (cb2 d s) K I2) {s : St} (h : I0 s) (r1 r2 w1 w2 : KRes) :
    R.SatK (s.dispatch r1 cb1 r2 cb2 w1 w2) K fun x => I2 x.1 := by
  have one : ∀ {I J : St → Prop} {C : List UInt8 → St → Prop} {cb : List UInt8 → St → R St},
      (∀ s, I s → s.live = true ∨ K .dangling) → (∀ s, I s → J s) →
      (∀ s n, I s → s.p.isOpen = true → C (s.p.inq.take n) { s with
        p := { s.p with inq := s.p.inq.drop n, got := s.p.got ++ s.p.inq.take n }
        buf := s.p.inq.take n ++ 0 :: s.buf.drop ((s.p.inq.take n).length + 1) }) →
      (∀ d s, C d s → R.SatK (cb d s) K J) → ∀ {s : St}, I s → ∀ k, R.SatK (s.readOnce k cb) K fun x => J x.1 := by
    intro I J C cb l ij g c s h k
    unfold St.readOnce St.alive
    rcases Bool.eq_false_or_eq_true s.live with hl | hl
    · rw [if_pos hl]
      show R.SatK (if s.p.isOpen = true then _ else _) K _
      rcases Bool.eq_false_or_eq_true s.p.isOpen with ho | ho
      · rw [if_pos ho]
        cases k with
        | again => exact ij s h
        | intr => exact ij s h
        | fail => exact ij s h
        | zero => exact ij s h
        | some n =>
          dsimp only
          split
          · exact ij s h
          · exact R.SatK.bind (c _ _ (g s _ h ho)) (fun _ hx => hx)
      · rw [if_neg (by rw [ho]; simp)]
        exact ij s h
    · rw [if_neg (by rw [hl]; simp)]
      rcases l s h with h | h
      · rw [hl] at h; cases h
      · exact h
  unfold St.dispatch
  rcases Bool.eq_false_or_eq_true s.live with hl | hl
  · unfold St.alive
    rw [if_pos hl]
    show R.SatK (if s.p.isOpen = true then _ else _) K _
    rcases Bool.eq_false_or_eq_true s.p.isOpen with ho | ho
    · rw [if_pos ho]
      have hr : R.SatK (s.readTwice r1 cb1 r2 cb2) K fun x => I2 x.1 := by
        unfold St.readTwice
        refine R.SatK.bind (one l0 h01 g0 c1 h r1) ?_
        intro ⟨s, r⟩ hs
        cases r with
        | some r => exact h12 _ hs
        | none => exact R.SatK.bind (one l1 h12 g1 c2 hs r2) (fun _ hx => hx)
      refine R.SatK.bind hr ?_
      intro ⟨s, r⟩ hs
      have hw : R.SatK (s.writeBack w1 w2) K I2 := by
        unfold St.writeBack St.alive
        rcases Bool.eq_false_or_eq_true s.live with hl | hl
        · rw [if_pos hl]
          show R.SatK (if s.p.isOpen = true then _ else _) K _
          rcases Bool.eq_false_or_eq_true s.p.isOpen with ho | ho
          · rw [if_pos ho]
            exact R.SatK.bind (wr s w1 w2 hs ho) (fun _ hx => hx)
          · rw [if_neg (by rw [ho]; simp)]
            exact hs
        · rw [if_neg (by rw [hl]; simp)]
          rcases l2 s hs with h | h
          · rw [hl] at h; cases h
          · exact h
      exact R.SatK.bind hw (fun _ hx => hx)
    · rw [if_neg (by rw [ho]; simp)]
      exact h12 _ (h01 _ h)
  · unfold St.alive
    rw [if_neg (by rw [hl]; simp)]
    rcases l0 s h with h | h
    · rw [hl] at h; cases h
    · exact h

/-- A step that first looks whether the object is there. -/
theorem alive_then {K : UB → Prop} {s : St} (h : s.live = true ∨ K .dangling) {f : R St} {P : St → Prop}
    (hf : R.SatK f K P) : R.SatK (s.alive >>= fun _ => f) K P := by
  unfold St.alive
  rcases Bool.eq_false_or_eq_true s.live with hl | hl
  · rw [if_pos hl]; exact hf
  · rw [if_neg (by rw [hl]; simp)]
    rcases h with h | h
    · rw [hl] at h; cases h
    · exact h

/-- Nothing is lost, doubled or out of order, and nothing is transferred after closing. -/
structure Sound (s : St) : Prop where
  flow : ∃ q, Flow s.p q
  ins : s.p.got ++ s.p.inq = s.wrote
  last : s.last = if s.p.isOpen then none else some (s.p.got, s.p.sent, s.p.accepted)

theorem sound_init : Sound St.init := ⟨⟨[], flow_init⟩, rfl, rfl⟩

theorem Sound.close {s : St} (h : Sound s) : Sound s.close := by
  unfold St.close
  split
  · obtain ⟨q, hq⟩ := h.flow
    exact ⟨⟨q, hq.rep, hq.all⟩, h.ins, rfl⟩
  · exact h

theorem Sound.unref {s : St} (h : Sound s) : Sound s.unref := by
  unfold St.unref
  split
  · exact h
  · split
    · have := Sound.close (s := { s with ref := 0 }) ⟨h.flow, h.ins, h.last⟩
      exact ⟨this.flow, this.ins, this.last⟩
    · exact ⟨h.flow, h.ins, h.last⟩

theorem Sound.write {e : PtyEnv} {s : St} (h : Sound s) {d : List UInt8} (hd : d.length < 2 ^ 64) :
    R.SatK (s.p.write e d) Shift fun x => Sound { s with p := x.1 } := by
  obtain ⟨q, hq⟩ := h.flow
  rcases Bool.eq_false_or_eq_true s.p.isOpen with ho | ho
  · refine (write_flow (e := e) hq d (by simpa using hd)).mono (fun _ h => h) ?_
    intro x ⟨x1, x2, x3⟩
    refine ⟨?_, ?_, ?_⟩
    · rcases x3 with ⟨_, _, x5⟩ | ⟨_, _, x5⟩
      · exact ⟨_, x5⟩
      · exact ⟨_, x5⟩
    · show x.1.got ++ x.1.inq = s.wrote
      rw [x1.got, x1.inq]; exact h.ins
    · show s.last = if x.1.isOpen = true then none else _
      rw [x1.opn, h.last, if_pos ho, if_pos ho]
  · unfold Pty.write
    rw [if_neg (by rw [ho]; simp)]
    exact h

/-- The floor `m` of the counter, and room for `b` more references. -/
structure Kept (strict : Prop) (m b : Nat) (s : St) : Prop where
  sound : Sound s
  live : strict → 0 < m → s.live = true
  floor : strict → m ≤ s.ref
  room : strict → s.ref + b < 2 ^ 64

theorem Kept.weaken {strict : Prop} {m m' b b' : Nat} {s : St} (h : Kept strict m b s) (hm : m' ≤ m) (hb : b' ≤ b) :
    Kept strict m' b' s :=
  ⟨h.sound, fun t hx => h.live t (by omega), fun t => Nat.le_trans hm (h.floor t), fun t => by have := h.room t; omega⟩

/-- The outcomes left. -/
abbrev Left (strict : Prop) (k : UB) : Prop := k = .badShift ∨ (¬ strict ∧ k = .dangling)

theorem Kept.alive {strict : Prop} {m b : Nat} {s : St} (h : Kept strict m b s) (hm : strict → 0 < m) :
    s.live = true ∨ Left strict .dangling := by
  rcases Classical.em strict with t | t
  · exact Or.inl (h.live t (hm t))
  · exact Or.inr (Or.inr ⟨t, rfl⟩)

theorem Kept.dispatch {strict : Prop} {m b1 b2 b : Nat} (hm : strict → 0 < m) {cb1 cb2 : List UInt8 → St → R St}
    (c1 : ∀ d s, Kept strict m (b1 + b2 + b) s → R.SatK (cb1 d s) (Left strict) (Kept strict m (b2 + b)))
    (c2 : ∀ d s, Kept strict m (b2 + b) s → R.SatK (cb2 d s) (Left strict) (Kept strict m b))
    {s : St} (h : Kept strict m (b1 + b2 + b) s) (r1 r2 w1 w2 : KRes) :
    R.SatK (s.dispatch r1 cb1 r2 cb2 w1 w2) (Left strict) fun x => Kept strict m b x.1 := by
  have got : ∀ (b : Nat) (s : St) (n : Nat), Kept strict m b s → s.p.isOpen = true → Kept strict m b { s with
      p := { s.p with inq := s.p.inq.drop n, got := s.p.got ++ s.p.inq.take n }
      buf := s.p.inq.take n ++ 0 :: s.buf.drop ((s.p.inq.take n).length + 1) } := by
    intro b s n h ho
    obtain ⟨q, hq⟩ := h.sound.flow
    refine ⟨⟨⟨q, hq.rep, hq.all⟩, ?_, ?_⟩, h.live, h.floor, h.room⟩
    · show s.p.got ++ s.p.inq.take n ++ s.p.inq.drop n = s.wrote
      rw [List.append_assoc, List.take_append_drop]; exact h.sound.ins
    · show s.last = if s.p.isOpen = true then none else _
      rw [h.sound.last, if_pos ho, if_pos ho]
  refine dispatch_keep (I1 := Kept strict m (b2 + b)) (C1 := fun _ => Kept strict m (b1 + b2 + b))
    (C2 := fun _ => Kept strict m (b2 + b)) (fun s h => h.alive hm) (fun s h => h.alive hm) (fun s h => h.alive hm)
    (fun s h => h.weaken (Nat.le_refl _) (by omega)) (fun s h => h.weaken (Nat.le_refl _) (by omega))
    (fun s n h ho => got _ s n h ho) (fun s n h ho => got _ s n h ho) ?_ c1 c2 h r1 r2 w1 w2
  intro s w1 w2 h ho
  obtain ⟨q, hq⟩ := h.sound.flow
  refine R.SatK.mono ((writeLoop_flow [w1, w2] hq).toK _) (fun _ h => h) ?_
  intro x ⟨x1, x2, x3, x4, n, x5, x6, _⟩
  refine ⟨⟨⟨_, x6⟩, ?_, ?_⟩, h.live, h.floor, h.room⟩
  · show x.1.got ++ x.1.inq = s.wrote
    rw [x2, x3]; exact h.sound.ins
  · show s.last = if x.1.isOpen = true then none else _
    rw [x1, h.sound.last, if_pos ho, if_pos ho]

/-- All programs: `f` references are kept by the callers, `own` belong to this program. -/
theorem run_kept {strict : Prop} {e : PtyEnv} (a : Prog) : ∀ {below : Bool} {own f b : Nat}, Sized a →
    (strict → Fair below own a) → (below = true → 0 < f) → ∀ {cur : List UInt8} {s : St}, Kept strict (f + own) (refs a + b) s →
    R.SatK (run e a cur s) (Left strict) (Kept strict f b) := by
  induction a with
  | done =>
    intro below own f b _ _ _ cur s h
    exact h.weaken (by omega) (by unfold refs; omega)
  | write d k ih =>
    intro below own f b hs hf hb cur s h
    have hm : strict → 0 < f + own := fun t => by
      rcases (hf t).1 with x | x
      · have := hb x; omega
      · omega
    unfold run
    refine alive_then (h.alive hm) ?_
    refine R.SatK.bind ((h.sound.write (e := e) hs.1).mono (fun _ h => Or.inl h) (fun _ h => h)) ?_
    intro x hx
    exact ih hs.2 (fun t => (hf t).2) hb ⟨hx, h.live, h.floor, h.room⟩
  | close k ih =>
    intro below own f b hs hf hb cur s h
    have hm : strict → 0 < f + own := fun t => by
      rcases (hf t).1 with x | x
      · have := hb x; omega
      · omega
    unfold run
    refine alive_then (h.alive hm) ?_
    refine ih (s := s.close) hs (fun t => (hf t).2) hb ⟨h.sound.close, ?_, ?_, ?_⟩
    all_goals
      unfold St.close
      split
    · exact h.live
    · exact h.live
    · exact h.floor
    · exact h.floor
    · exact h.room
    · exact h.room
  | ref k ih =>
    intro below own f b hs hf hb cur s h
    have hm : strict → 0 < f + own := fun t => by
      rcases (hf t).1 with x | x
      · have := hb x; omega
      · omega
    unfold run
    refine alive_then (h.alive hm) ?_
    refine ih (own := own + 1) hs (fun t => (hf t).2) hb ⟨?_, ?_, ?_, ?_⟩
    · split
      · exact h.sound
      · exact ⟨h.sound.flow, h.sound.ins, h.sound.last⟩
    · intro t _
      split
      · exact h.live t (hm t)
      · exact h.live t (hm t)
    · intro t
      have h1 := h.floor t
      have h2 := h.room t
      have h3 := hm t
      unfold refs at h2
      rw [if_neg (by omega)]
      show f + (own + 1) ≤ (s.ref + 1) % 2 ^ 64
      rw [Nat.mod_eq_of_lt (by omega)]
      omega
    · intro t
      have h1 := h.floor t
      have h2 := h.room t
      have h3 := hm t
      unfold refs at h2
      rw [if_neg (by omega)]
      show (s.ref + 1) % 2 ^ 64 + (refs k + b) < 2 ^ 64
      rw [Nat.mod_eq_of_lt (by omega)]
      omega
  | unref k ih =>
    intro below own f b hs hf hb cur s h
    have hm : strict → 0 < f + own := fun t => by
      have := (hf t).1; omega
    unfold run
    refine alive_then (h.alive hm) ?_
    refine ih (own := own - 1) hs (fun t => (hf t).2) hb ⟨h.sound.unref, ?_, ?_, ?_⟩
    · intro t ht
      have h1 := h.floor t
      have h4 := (hf t).1
      unfold St.unref
      rw [if_neg (by omega), if_neg (by omega)]
      exact h.live t (hm t)
    · intro t
      have h1 := h.floor t
      have h4 := (hf t).1
      unfold St.unref St.close
      split
      · omega
      · split
        · dsimp only
          split
          · show f + (own - 1) ≤ 0
            omega
          · show f + (own - 1) ≤ 0
            omega
        · show f + (own - 1) ≤ s.ref - 1
          omega
    · intro t
      have h2 : s.ref + (refs k + b) < 2 ^ 64 := h.room t
      have h1 := h.floor t
      have h4 := (hf t).1
      unfold St.unref
      split
      · omega
      · split
        · unfold St.close
          split
          · show 0 + (refs k + b) < 2 ^ 64
            omega
          · show 0 + (refs k + b) < 2 ^ 64
            omega
        · show s.ref - 1 + (refs k + b) < 2 ^ 64
          omega
  | child d k ih =>
    intro below own f b hs hf hb cur s h
    unfold run
    refine ih hs hf hb ⟨?_, h.live, h.floor, h.room⟩
    obtain ⟨q, hq⟩ := h.sound.flow
    refine ⟨⟨q, hq.rep, hq.all⟩, ?_, h.sound.last⟩
    show s.p.got ++ (s.p.inq ++ d) = s.wrote ++ d
    rw [← List.append_assoc, h.sound.ins]
  | look k ih =>
    intro below own f b hs hf hb cur s h
    have hm : strict → 0 < f + own := fun t => by
      rcases (hf t).1 with x | x
      · have := hb x; omega
      · omega
    unfold run
    refine alive_then (h.alive hm) ?_
    exact ih hs (fun t => (hf t).2) hb ⟨⟨h.sound.flow, h.sound.ins, h.sound.last⟩, h.live, h.floor, h.room⟩
  | dispatch r1 a1 r2 a2 w1 w2 k ih1 ih2 ih =>
    intro below own f b hs hf hb cur s h
    have hm : strict → 0 < f + own := fun t => by
      rcases (hf t).1 with x | x
      · have := hb x; omega
      · omega
    unfold run
    rcases Classical.em strict with t | t
    · refine R.SatK.bind (Kept.dispatch hm (b1 := refs a1) (b2 := refs a2) (b := refs k + b) ?_ ?_ (h.weaken (Nat.le_refl _) (by
        show refs a1 + refs a2 + (refs k + b) ≤ refs a1 + refs a2 + refs k + b; omega)) r1 r2 w1 w2) ?_
      · intro d s hx
        exact ih1 hs.1 (fun t => (hf t).2.1) (fun _ => hm t) (own := 0) (hx.weaken (by omega) (by omega))
      · intro d s hx
        exact ih2 hs.2.1 (fun t => (hf t).2.2.1) (fun _ => hm t) (own := 0) (hx.weaken (by omega) (by omega))
      · intro x hx
        exact ih hs.2.2 (fun t => (hf t).2.2.2) hb hx
    · have any : ∀ {m b m' b' : Nat} {s : St}, Kept strict m b s → Kept strict m' b' s :=
        fun h => ⟨h.sound, fun x => absurd x t, fun x => absurd x t, fun x => absurd x t⟩
      refine R.SatK.bind (Kept.dispatch (strict := strict) (m := f + own) hm (b1 := 0) (b2 := 0) (b := 0) ?_ ?_ (any h) r1 r2 w1 w2) ?_
      · intro d s hx
        exact (ih1 (below := false) (own := 0) (f := 0) (b := 0) hs.1 (fun x => absurd x t) (fun x => by cases x) (any hx)).mono
          (fun _ h => h) (fun _ h => any h)
      · intro d s hx
        exact (ih2 (below := false) (own := 0) (f := 0) (b := 0) hs.2.1 (fun x => absurd x t) (fun x => by cases x) (any hx)).mono
          (fun _ h => h) (fun _ h => any h)
      · intro x hx
        exact ih (own := own) hs.2.2 (fun x => absurd x t) hb (any hx)

/-- What the callbacks found so far is what they were given. -/
abbrev Saw (s : St) : Prop := ∀ x ∈ s.seen, x.2 = x.1

theorem close_buf (s : St) : s.close.seen = s.seen ∧ s.close.buf = s.buf := by
  unfold St.close
  split <;> exact ⟨rfl, rfl⟩

theorem unref_buf (s : St) : s.unref.seen = s.seen ∧ s.unref.buf = s.buf := by
  unfold St.unref
  split
  · exact ⟨rfl, rfl⟩
  · split
    · exact close_buf { s with ref := 0 }
    · exact ⟨rfl, rfl⟩

theorem run_saw {e : PtyEnv} (a : Prog) : ∀ {fresh : Bool}, Early fresh a → ∀ {cur : List UInt8} {s : St}, Saw s →
    (fresh = true → s.buf.take cur.length = cur) → R.SatK (run e a cur s) (fun _ => True) Saw := by
  induction a with
  | done => intro fresh _ cur s h _; exact h
  | write d k ih =>
    intro fresh he cur s h hc
    unfold run
    refine alive_then (Or.inr trivial) ?_
    cases hw : s.p.write e d with
    | error k => trivial
    | ok x => exact ih (s := { s with p := x.1 }) he h hc
  | close k ih =>
    intro fresh he cur s h hc
    unfold run
    refine alive_then (Or.inr trivial) ?_
    obtain ⟨h1, h2⟩ := close_buf s
    exact ih he (by unfold Saw; rw [h1]; exact h) (by rw [h2]; exact hc)
  | ref k ih =>
    intro fresh he cur s h hc
    unfold run
    refine alive_then (Or.inr trivial) ?_
    split
    · exact ih he h hc
    · exact ih (s := { s with ref := (s.ref + 1) % 2 ^ 64 }) he h hc
  | unref k ih =>
    intro fresh he cur s h hc
    unfold run
    refine alive_then (Or.inr trivial) ?_
    obtain ⟨h1, h2⟩ := unref_buf s
    exact ih he (by unfold Saw; rw [h1]; exact h) (by rw [h2]; exact hc)
  | child d k ih =>
    intro fresh he cur s h hc
    unfold run
    exact ih (s := { s with p := { s.p with inq := s.p.inq ++ d }, wrote := s.wrote ++ d }) he h hc
  | look k ih =>
    intro fresh he cur s h hc
    unfold run
    refine alive_then (Or.inr trivial) ?_
    refine ih he.2 ?_ hc
    intro x hx
    rcases List.mem_append.mp hx with hx | hx
    · exact h x hx
    · rw [List.mem_singleton] at hx
      subst hx
      exact hc he.1
  | dispatch r1 a1 r2 a2 w1 w2 k ih1 ih2 ih =>
    intro fresh he cur s h hc
    unfold run
    have got : ∀ (s : St) (n : Nat), Saw s → s.p.isOpen = true → Saw s ∧
        (s.p.inq.take n ++ 0 :: s.buf.drop ((s.p.inq.take n).length + 1)).take (s.p.inq.take n).length = s.p.inq.take n := by
      intro s n h _
      exact ⟨h, List.take_left⟩
    refine R.SatK.bind (dispatch_keep (I0 := Saw) (I1 := Saw) (I2 := Saw)
      (C1 := fun d s => Saw s ∧ s.buf.take d.length = d) (C2 := fun d s => Saw s ∧ s.buf.take d.length = d) (fun _ _ => Or.inr trivial) (fun _ _ => Or.inr trivial)
      (fun _ _ => Or.inr trivial) (fun _ h => h) (fun _ h => h) got got ?_
      (fun d s hx => ih1 he.1 hx.1 (fun _ => hx.2)) (fun d s hx => ih2 he.2.1 hx.1 (fun _ => hx.2)) h r1 r2 w1 w2) ?_
    · intro s w1 w2 h _
      cases s.p.writeLoop [w1, w2] with
      | error k => trivial
      | ok x => exact h
    · intro x hx
      exact ih he.2.2 hx (fun hf => by cases hf)

end Verif.PtyNest
