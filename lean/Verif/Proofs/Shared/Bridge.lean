import Verif.Spec.Bridge

/-! # Helper lemmas about the pty bridge -/

namespace Verif

namespace Pty

/-- What the reads leave, and what they return. -/
def rest : List KRes → List UInt8 → List UInt8 × PtyRet
  | [], q => (q, .eagain)
  | k :: ks, q =>
    match k with
    | .again => (q, .ok)
    | .intr => (q, .eagain)
    | .fail => (q, .errno)
    | .zero => (q, .epipe)
    | .some n => if q = [] then (q, .ok) else rest ks (q.drop (min (n + 1) 16383))

theorem rest_honest : ∀ (ks : List KRes) (q : List UInt8), HonestReads ks q → (rest ks q).2 = .ok → (rest ks q).1 = []
  | [], q, _, h => by cases h
  | k :: ks, q, hh, h => by
    unfold rest at h ⊢
    unfold HonestReads at hh
    cases k <;> simp only at h hh ⊢ <;> first | exact hh | cases h | skip
    by_cases hq : q = []
    · rw [if_pos hq]; exact hq
    · rw [if_neg hq] at h ⊢
      rcases hh with hh | hh
      · exact absurd hh hq
      · exact rest_honest ks _ hh h

theorem rest_length : ∀ (ks : List KRes) (q : List UInt8), q.length ≤ (rest ks q).1.length + 16383 * ks.length
  | [], q => by simp [rest]
  | k :: ks, q => by
    unfold rest
    cases k <;> simp only [] <;> try omega
    split
    · simp only []; omega
    · rename_i n _
      have := rest_length ks (q.drop (min (n + 1) 16383))
      rw [List.length_drop] at this
      rw [List.length_cons]
      omega

theorem write_in {e : PtyEnv} {p : Pty} {d : List UInt8} :
    R.SatK (write e p d) (fun _ => True) fun x => SameIn p x.1 := by
  unfold write
  split
  · refine R.SatK.bind (P := fun _ => True) ?_ ?_
    · cases p.out.push d (e.mem p.pushes) <;> trivial
    · intro x _
      dsimp only
      by_cases hg : x.2 = true
      · rw [if_pos hg]; exact ⟨rfl, rfl, rfl⟩
      · rw [if_neg hg]; exact ⟨rfl, rfl, rfl⟩
  · exact ⟨rfl, rfl, rfl⟩

theorem writeAll_in {e : PtyEnv} (ds : List (List UInt8)) : ∀ {p : Pty},
    R.SatK (writeAll e p ds) (fun _ => True) fun p' => SameIn p p' := by
  induction ds with
  | nil => intro p; exact ⟨rfl, rfl, rfl⟩
  | cons d ds ih =>
    intro p
    refine R.SatK.bind write_in fun x hx => ?_
    exact ih.mono (fun _ h => h) fun p' h => hx.trans h

theorem readLoop_in {e : PtyEnv} (ks : List KRes) : ∀ {p : Pty},
    R.SatK (readLoop e p ks) (fun _ => True) fun x => x.1.isOpen = p.isOpen ∧ (x.1.inq, x.2) = rest ks p.inq := by
  induction ks with
  | nil => intro p; exact ⟨rfl, rfl⟩
  | cons k ks ih =>
    intro p
    unfold readLoop rest
    cases k <;> try exact ⟨rfl, rfl⟩
    simp only
    split
    · exact ⟨rfl, rfl⟩
    · refine R.SatK.bind (writeAll_in _) fun p' hp => ?_
      refine ih.mono (fun _ h => h) fun x hx => ⟨hx.1.trans hp.opn, ?_⟩
      rw [hx.2, hp.inq]

theorem writeLoop_in (ks : List KRes) : ∀ {p : Pty},
    R.SatK (writeLoop p ks) (fun _ => True) fun x => x.1.isOpen = p.isOpen ∧ x.1.inq = p.inq := by
  induction ks with
  | nil => intro p; exact ⟨rfl, rfl⟩
  | cons k ks ih =>
    intro p
    unfold writeLoop
    split
    · exact ⟨rfl, rfl⟩
    · cases k <;> try exact ⟨rfl, rfl⟩
      refine R.SatK.bind (P := fun _ => True) ?_ fun all _ => ?_
      · cases p.out.gather p.out.peek <;> trivial
      · exact ih

theorem dispatch_in {e : PtyEnv} {p : Pty} (ho : p.isOpen = true) (r1 r2 w1 w2 : KRes) :
    R.SatK (dispatch e p r1 r2 w1 w2) (fun _ => True) fun x =>
      x.1.isOpen = true ∧ (x.1.inq, x.2) = rest [r1, r2] p.inq := by
  unfold dispatch
  rw [if_pos ho]
  refine R.SatK.bind (readLoop_in [r1, r2]) fun x hx => ?_
  refine R.SatK.bind (writeLoop_in [w1, w2]) fun y hy => ?_
  exact ⟨by rw [hy.1, hx.1, ho], by rw [hy.2]; exact hx.2⟩

theorem dispatch_closed {e : PtyEnv} {p : Pty} (ho : p.isOpen = false) (r1 r2 w1 w2 : KRes) :
    dispatch e p r1 r2 w1 w2 = .ok (p, .enodev) := by
  unfold dispatch
  rw [if_neg (by rw [ho]; simp)]

end Pty

namespace Bridge

theorem set_item (b : Bridge) (i j : Nat) (x : BrItem) : (b.set i x).item j = if j = i then x else b.item j := rfl

/-- What can be said about every pty. -/
structure ItemOk (x : BrItem) : Prop where
  flow : ∃ q, Pty.Flow x.pty q
  shut : x.pty.isOpen = false → x.watched = false
  ev : x.event = true → x.watched = true
  wake : x.watched = true → x.pty.isOpen = true → x.pty.inq ≠ [] → x.event = true ∨
    x.last = .eagain ∨ x.last = .epipe ∨ x.last = .errno

theorem rest_ret (ks : List KRes) (q : List UInt8) : (Pty.rest ks q).2 = .ok ∨ (Pty.rest ks q).2 = .eagain ∨
    (Pty.rest ks q).2 = .epipe ∨ (Pty.rest ks q).2 = .errno := by
  induction ks generalizing q with
  | nil => exact .inr (.inl rfl)
  | cons k ks ih =>
    unfold Pty.rest
    cases k <;> simp
    split
    · simp
    · have := ih (q.drop (min (‹Nat› + 1) 16383))
      simpa using this

theorem dispatchPty_ok {e : PtyEnv} (he : e.Sized) {b : Bridge} {i : Nat} {r1 r2 w1 w2 : KRes} {w : Bool}
    (h : ∃ q, Pty.Flow (b.item i).pty q) (hshut : (b.item i).pty.isOpen = false → (b.item i).watched = false)
    (hev : (b.item i).event = true → (b.item i).watched = true)
    (hh : HonestReads [r1, r2] (b.item i).pty.inq)  :
    R.SatK (dispatchPty e b i r1 r2 w1 w2 w) Pty.Shift fun x => x.2 = .ok ∧ ItemOk (x.1.item i) ∧
      ∀ j, j ≠ i → x.1.item j = b.item j := by
  unfold dispatchPty
  obtain ⟨q, hq⟩ := h
  have f := Pty.dispatch_flow he hq r1 r2 w1 w2
  cases ho : (b.item i).pty.isOpen with
  | false =>
    have e1 := Pty.dispatch_closed (e := e) ho r1 r2 w1 w2
    simp only [e1, bind, Except.bind, pure, Except.pure]
    rw [if_neg (by simp)]
    refine ⟨rfl, ?_, fun j hj => by rw [set_item, if_neg hj]⟩
    rw [set_item, if_pos rfl]
    exact ⟨⟨q, hq⟩, hshut, hev, fun _ h => by simp only [ho] at h; cases h⟩
  | true =>
    have g := Pty.dispatch_in (e := e) ho r1 r2 w1 w2
    simp only
    cases hd : Pty.dispatch e (b.item i).pty r1 r2 w1 w2 with
    | error k => rw [hd] at f; exact f
    | ok x =>
      rw [hd] at f g
      obtain ⟨p, r⟩ := x
      obtain ⟨-, -, -, t, n, fq, -⟩ := f
      obtain ⟨g1, g2⟩ := g
      simp only [bind, Except.bind, pure, Except.pure]
      have hret : r = .ok → p.inq = [] := fun hr => by
        have e1 : r = (Pty.rest [r1, r2] (b.item i).pty.inq).2 := congrArg Prod.snd g2
        have e2 : p.inq = (Pty.rest [r1, r2] (b.item i).pty.inq).1 := congrArg Prod.fst g2
        rw [e2]
        exact Pty.rest_honest _ _ hh (by rw [← e1, hr])
      have hrs : r = .ok ∨ r = .eagain ∨ r = .epipe ∨ r = .errno := by
        have e1 : r = (Pty.rest [r1, r2] (b.item i).pty.inq).2 := congrArg Prod.snd g2
        rw [e1]; exact rest_ret _ _
      by_cases hr : r = .eagain
      · rw [if_pos hr]
        refine ⟨rfl, ?_, fun j hj => by rw [set_item, if_neg hj]⟩
        rw [set_item, if_pos rfl]
        unfold ctlAdd
        split
        · exact ⟨⟨_, fq⟩, fun h => absurd (g1.symm.trans h) (by decide), hev, fun _ _ _ => .inr (.inl hr)⟩
        · exact ⟨⟨_, fq⟩, fun h => absurd (g1.symm.trans h) (by decide), fun _ => rfl,
            fun _ _ _ => .inr (.inl hr)⟩
      · rw [if_neg hr]
        refine ⟨rfl, ?_, fun j hj => by rw [set_item, if_neg hj]⟩
        rw [set_item, if_pos rfl]
        refine ⟨⟨_, fq⟩, fun h => absurd (g1.symm.trans h) (by decide), hev, fun _ _ hi => .inr ?_⟩
        rcases hrs with h | h | h | h
        · exact absurd (hret h) hi
        · exact .inl h
        · exact .inr (.inl h)
        · exact .inr (.inr h)

theorem step_ok {e : PtyEnv} (he : e.Sized) {b : Bridge} {o : Op} (h : ∀ i, ItemOk (b.item i)) (hp : o.Possible b) :
    R.SatK (step e b o) Pty.Shift fun x => ∀ i, ItemOk (x.1.item i) := by
  have lift : ∀ {i : Nat} {x : BrItem}, ItemOk x → ∀ j, ItemOk ((b.set i x).item j) := fun hx j => by
    rw [set_item]; split
    · exact hx
    · exact h j
  cases o with
  | add i w =>
    show ∀ j, ItemOk ((b.add i w).1.item j)
    unfold add
    split
    · rename_i ho
      simp only
      apply lift
      unfold ctlAdd
      split
      · exact h i
      · refine ⟨(h i).flow, fun c => absurd (ho.symm.trans c) (by decide), fun _ => rfl, fun _ _ hi => .inl ?_⟩
        simp [show (b.item i).pty.inq ≠ [] from hi]
    · exact h
  | remove i =>
    show ∀ j, ItemOk ((b.remove i).item j)
    unfold remove
    split
    · exact lift ⟨(h i).flow, fun _ => rfl, fun c => (by cases c), fun c => (by cases c)⟩
    · exact h
  | dispatch i r1 r2 w1 w2 w =>
    show R.SatK (b.dispatch e i r1 r2 w1 w2 w) _ _
    unfold dispatch
    split
    · have hi : (b.set i { b.item i with event := false }).item i = { b.item i with event := false } := by
        rw [set_item, if_pos rfl]
      refine (dispatchPty_ok he (by rw [hi]; exact (h i).flow) (by rw [hi]; exact (h i).shut)
        (by rw [hi]; intro c; cases c) (by rw [hi]; exact hp)).mono (fun _ h => h) ?_
      intro x ⟨_, hx, ho⟩ j
      by_cases c : j = i
      · rw [c]; exact hx
      · rw [ho j c, set_item, if_neg c]; exact h j
    · exact h
  | dispatchPty i r1 r2 w1 w2 w =>
    refine (dispatchPty_ok he (h i).flow (h i).shut (h i).ev hp).mono (fun _ h => h) ?_
    intro x ⟨_, hx, ho⟩ j
    by_cases c : j = i
    · rw [c]; exact hx
    · rw [ho j c]; exact h j
  | write i d =>
    obtain ⟨q, hq⟩ := (h i).flow
    refine R.SatK.bind (Pty.write_flow hq d (by simpa [Op.Possible] using hp)) fun x hx => ?_
    refine lift ⟨?_, ?_, (h i).ev, ?_⟩
    · rcases hx.2.2 with ⟨-, -, f⟩ | ⟨-, -, f⟩ <;> exact ⟨_, f⟩
    · intro c; exact (h i).shut (by rw [← hx.1.opn]; exact c)
    · intro a c d; exact (h i).wake a (by rw [← hx.1.opn]; exact c) (by rw [← hx.1.inq]; exact d)
  | close i =>
    refine lift ⟨?_, fun _ => rfl, fun c => (by cases c), fun c => (by cases c)⟩
    obtain ⟨q, hq⟩ := (h i).flow
    exact ⟨q, ⟨hq.rep, hq.all⟩⟩
  | child i d =>
    refine lift ⟨?_, (h i).shut, ?_, ?_⟩
    · obtain ⟨q, hq⟩ := (h i).flow
      exact ⟨q, ⟨hq.rep, hq.all⟩⟩
    · intro c
      show (b.item i).watched = true
      have c : ((b.item i).event || ((b.item i).watched && decide (d ≠ []))) = true := c
      rw [Bool.or_eq_true, Bool.and_eq_true] at c
      exact c.elim (h i).ev (·.1)
    · intro a c n
      have a : (b.item i).watched = true := a
      show ((b.item i).event || ((b.item i).watched && decide (d ≠ []))) = true ∨ _
      by_cases hd : d = []
      · subst hd
        have n : (b.item i).pty.inq ++ [] ≠ [] := n
        rw [List.append_nil] at n
        rcases (h i).wake a c n with x | x
        · exact .inl (by simp [x])
        · exact .inr x
      · exact .inl (by simp [a, hd])
  | room i =>
    refine lift ⟨(h i).flow, (h i).shut, ?_, ?_⟩
    · intro c
      have c : ((b.item i).event || (b.item i).watched) = true := c
      rw [Bool.or_eq_true] at c
      exact c.elim (h i).ev id
    · intro a _ _
      have a : (b.item i).watched = true := a
      exact .inl (by show ((b.item i).event || (b.item i).watched) = true; simp [a])

theorem init_ok (i : Nat) : ItemOk (Bridge.init.item i) :=
  ⟨⟨[], Pty.flow_init⟩, fun c => (by cases c), fun c => (by cases c), fun c => (by cases c)⟩

theorem Reachable.ok {e : PtyEnv} (he : e.Sized) {b : Bridge} (h : Reachable e b) (i : Nat) : ItemOk (b.item i) := by
  have : ∀ i, ItemOk (b.item i) := by
    induction h with
    | init => exact init_ok
    | step h p hs ih =>
      have := step_ok he ih p
      rw [hs] at this
      exact this
  exact this i

end Bridge
end Verif
