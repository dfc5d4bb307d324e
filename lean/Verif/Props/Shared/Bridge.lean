import Verif.Proofs.Shared.Bridge

/-!
# The pty bridge

C90: a caller that dispatches the bridge whenever it has an event reads everything the children write. This is false:
the bridge loses the event if more waits than it reads at once.
-/

namespace Verif.Props.Bridge

open Verif Verif.Bridge

/-- **C90** in full: whenever something waits to be read from a pty in the bridge, the bridge has an event for it. -/
def C90 : Prop :=
  ∀ (e : PtyEnv), e.Sized → ∀ b, Reachable e b → ∀ i, (b.item i).watched = true → (b.item i).pty.isOpen = true →
    (b.item i).pty.inq ≠ [] → (b.item i).event = true

/-- The bridge never runs into undefined behaviour, unless more than `2^63` bytes are queued. -/
theorem C90_safe {e : PtyEnv} (he : e.Sized) {b : Bridge} (h : Reachable e b) {o : Op} (hp : o.Possible b) :
    R.SatK (step e b o) (fun k => k = .badShift) fun _ => True :=
  (step_ok he (h.ok he) hp).mono (fun _ h => h) fun _ _ => trivial

/-- **C90**, as far as it is true: there is an event, or the last dispatch of the pty stopped reading for another reason
than that nothing was left: it had already read twice, was interrupted, or got an error. The code forgets that result.
Missing: these cases. -/
theorem C90_event_partial {e : PtyEnv} (he : e.Sized) {b : Bridge} (h : Reachable e b) {i : Nat}
    (hw : (b.item i).watched = true) (ho : (b.item i).pty.isOpen = true) (hq : (b.item i).pty.inq ≠ []) :
    (b.item i).event = true ∨ (b.item i).last = .eagain ∨ (b.item i).last = .epipe ∨ (b.item i).last = .errno :=
  (h.ok he i).wake hw ho hq

/-- **C90**: the events are lost always when more than two buffers wait to be read from a pty in the bridge, whatever
the reads return: after the dispatch the bridge has no event for it, although it is open, something is left to be read,
and the dispatch returned 0. -/
theorem C90_lost_false {e : PtyEnv} (he : e.Sized) {b : Bridge} (h : Reachable e b) {i : Nat}
    (hw : (b.item i).watched = true) (ho : (b.item i).pty.isOpen = true)
    (hq : 32766 < (b.item i).pty.inq.length) (r1 r2 w1 w2 : KRes) (w : Bool) (hev : (b.item i).event = true) :
    R.SatK (b.dispatch e i r1 r2 w1 w2 w) (fun k => k = .badShift) fun x => x.2 = .ok ∧
      (x.1.item i).watched = true ∧ (x.1.item i).pty.isOpen = true ∧ (x.1.item i).pty.inq ≠ [] ∧
      (x.1.item i).event = false := by
  obtain ⟨q, hf⟩ := (h.ok he i).flow
  have f := Pty.dispatch_flow he hf r1 r2 w1 w2
  have g := Pty.dispatch_in (e := e) ho r1 r2 w1 w2
  unfold dispatch
  rw [if_pos hev]
  unfold dispatchPty
  rw [set_item, if_pos rfl]
  simp only
  cases hd : Pty.dispatch e (b.item i).pty r1 r2 w1 w2 with
  | error k => rw [hd] at f; exact f
  | ok x =>
    obtain ⟨p, r⟩ := x
    rw [hd] at g
    obtain ⟨g1, g2⟩ := g
    have hin : p.inq ≠ [] := fun c => by
      have e1 : p.inq = (Pty.rest [r1, r2] (b.item i).pty.inq).1 := congrArg Prod.fst g2
      have := Pty.rest_length [r1, r2] (b.item i).pty.inq
      rw [← e1, c] at this
      simp at this
      omega
    simp only [bind, Except.bind, pure, Except.pure]
    have hc : ∀ y : BrItem, y.watched = true → (ctlAdd y w).1 = y := fun y hy => by
      unfold ctlAdd; rw [if_pos hy]
    split
    · refine ⟨rfl, ?_⟩
      rw [set_item, if_pos rfl, hc ⟨p, (b.item i).watched, false, r⟩ hw]
      exact ⟨hw, g1, hin, rfl⟩
    · refine ⟨rfl, ?_⟩
      rw [set_item, if_pos rfl]
      exact ⟨hw, g1, hin, rfl⟩

/-- A pty in the bridge whose child has written `n` zero bytes. -/
theorem waiting (e : PtyEnv) (n : Nat) (hn : 0 < n) : ∃ b, Reachable e b ∧ (b.item 0).watched = true ∧
    (b.item 0).pty.isOpen = true ∧ (b.item 0).pty.inq = List.replicate n 0 ∧ (b.item 0).event = true := by
  have h1 : Reachable e (Bridge.init.add 0 false).1 := .step (o := .add 0 false) .init trivial rfl
  refine ⟨_, .step (o := .child 0 (List.replicate n 0)) h1 trivial rfl, rfl, rfl, rfl, ?_⟩
  have : List.replicate n (0 : UInt8) ≠ [] := fun c => by
    have := congrArg List.length c
    simp at this
    omega
  simp [set_item, add, Bridge.init, Pty.init, ctlAdd, this]

/-- Such a pty has the event, and satisfies the hypotheses of `C90_lost_false` for large `n`. -/
example : ∃ b, Reachable ⟨fun _ => true, fun _ => []⟩ b ∧ (b.item 0).watched = true ∧
    (b.item 0).pty.isOpen = true ∧ 32766 < (b.item 0).pty.inq.length ∧ (b.item 0).event = true := by
  obtain ⟨b, h, h1, h2, h3, h4⟩ := waiting ⟨fun _ => true, fun _ => []⟩ 40000 (by omega)
  exact ⟨b, h, h1, h2, by rw [h3, List.length_replicate]; omega, h4⟩

/-- So **C90** is false. -/
theorem C90_false : ¬ C90 := by
  intro h
  have he : PtyEnv.Sized ⟨fun _ => true, fun _ => []⟩ := fun _ _ hx => by cases hx
  obtain ⟨b, hr, h1, h2, h3, h4⟩ := waiting ⟨fun _ => true, fun _ => []⟩ 40000 (by omega)
  have hl : 32766 < (b.item 0).pty.inq.length := by rw [h3, List.length_replicate]; omega
  have k := C90_lost_false he hr h1 h2 hl (.some 16382) (.some 16382) .again .again false h4
  have hp : Op.Possible b (.dispatch 0 (.some 16382) (.some 16382) .again .again false) := .inr (.inr trivial)
  cases hd : b.dispatch ⟨fun _ => true, fun _ => []⟩ 0 (.some 16382) (.some 16382) .again .again false with
  | error u =>
    -- the callback does not write, so that nothing can go wrong
    exfalso
    have hdi : Pty.dispatch ⟨fun _ => true, fun _ => []⟩ (b.item 0).pty (.some 16382) (.some 16382) .again .again
        = .error u := by
      unfold dispatch at hd
      rw [if_pos h4] at hd
      unfold dispatchPty at hd
      rw [set_item, if_pos rfl] at hd
      simp only at hd
      cases hx : Pty.dispatch ⟨fun _ => true, fun _ => []⟩ (b.item 0).pty (.some 16382) (.some 16382) .again .again with
      | error v => rw [hx] at hd; cases hd; rfl
      | ok x =>
        rw [hx] at hd
        simp only [bind, Except.bind, pure, Except.pure] at hd
        split at hd <;> cases hd
    unfold Pty.dispatch at hdi
    rw [if_pos h2] at hdi
    have rl : ∀ (ks : List KRes) (p : Pty), ∃ x, Pty.readLoop ⟨fun _ => true, fun _ => []⟩ p ks = .ok x := by
      intro ks
      induction ks with
      | nil => intro p; exact ⟨_, rfl⟩
      | cons k ks ih =>
        intro p
        unfold Pty.readLoop
        cases k <;> try exact ⟨_, rfl⟩
        simp only
        split
        · exact ⟨_, rfl⟩
        · exact ih _
    obtain ⟨x, hx⟩ := rl [.some 16382, .some 16382] (b.item 0).pty
    rw [hx] at hdi
    have wl : ∃ y, Pty.writeLoop x.1 [.again, .again] = .ok y := by
      unfold Pty.writeLoop
      split <;> exact ⟨_, rfl⟩
    obtain ⟨y, hy⟩ := wl
    simp only [hy, bind, Except.bind, pure, Except.pure] at hdi
    cases hdi
  | ok x =>
    rw [hd] at k
    obtain ⟨-, k1, k2, k3, k4⟩ := k
    obtain ⟨b', r⟩ := x
    rw [h _ he b' (.step hr hp hd) 0 k1 k2 k3] at k4
    cases k4

/-- **C90**, the usual case: if all that waits fits the buffer and is read at once, a dispatch of the bridge delivers all
of it to the callback, in order. -/
theorem C90_delivered_partial {e : PtyEnv} (he : e.Sized) {b : Bridge} (h : Reachable e b) {i n : Nat}
    (ho : (b.item i).pty.isOpen = true) (hev : (b.item i).event = true)
    (hq : (b.item i).pty.inq.length ≤ min (n + 1) 16383) (w1 w2 : KRes) (w : Bool) :
    R.SatK (b.dispatch e i (.some n) .again w1 w2 w) (fun k => k = .badShift) fun x =>
      (x.1.item i).pty.inq = [] ∧ (x.1.item i).pty.got = (b.item i).pty.got ++ (b.item i).pty.inq := by
  obtain ⟨q, hf⟩ := (h.ok he i).flow
  have f := Pty.dispatch_flow he hf (.some n) .again w1 w2
  have g := Pty.dispatch_in (e := e) ho (.some n) .again w1 w2
  unfold dispatch
  rw [if_pos hev]
  unfold dispatchPty
  rw [set_item, if_pos rfl]
  simp only
  cases hd : Pty.dispatch e (b.item i).pty (.some n) .again w1 w2 with
  | error k => rw [hd] at f; exact f
  | ok x =>
    obtain ⟨p, r⟩ := x
    rw [hd] at g f
    have e1 : p.inq = [] := by
      have e1 : p.inq = (Pty.rest [.some n, .again] (b.item i).pty.inq).1 := congrArg Prod.fst g.2
      rw [e1]
      simp only [Pty.rest]
      split
      · assumption
      · exact List.drop_eq_nil_of_le hq
    have e2 : p.got = (b.item i).pty.got ++ (b.item i).pty.inq := by
      have : p.got ++ p.inq = _ := f.2.1
      rwa [e1, List.append_nil] at this
    have hc : ∀ y : BrItem, (ctlAdd y w).1.pty = y.pty := fun y => by
      unfold ctlAdd; split <;> rfl
    simp only [bind, Except.bind, pure, Except.pure]
    split
    · show ((set _ _ _).item i).pty.inq = [] ∧ ((set _ _ _).item i).pty.got = _
      rw [set_item, if_pos rfl, hc]
      exact ⟨e1, e2⟩
    · show ((set _ _ _).item i).pty.inq = [] ∧ ((set _ _ _).item i).pty.got = _
      rw [set_item, if_pos rfl]
      exact ⟨e1, e2⟩

/-- A pty with a short output of its child. -/
example : ∃ b, Reachable ⟨fun _ => true, fun _ => []⟩ b ∧ (b.item 0).pty.isOpen = true ∧
    (b.item 0).event = true ∧ (b.item 0).pty.inq.length ≤ min (16382 + 1) 16383 ∧ (b.item 0).pty.inq ≠ [] := by
  obtain ⟨b, h, h1, h2, h3, h4⟩ := waiting ⟨fun _ => true, fun _ => []⟩ 100 (by omega)
  exact ⟨b, h, h2, h4, by rw [h3, List.length_replicate]; omega, by rw [h3]; simp⟩

/-- **C90.** Dispatching the pty directly over and over, instead of waiting for events, reads everything: `k` calls of
`shl_pty_bridge_dispatch_pty` with full reads deliver up to `32766 * k` bytes. -/
theorem C90_polling {e : PtyEnv} (he : e.Sized) (k : Nat) : ∀ {b : Bridge}, Reachable e b → ∀ {i : Nat},
    (b.item i).pty.isOpen = true → (b.item i).pty.inq.length ≤ 32766 * k → ∀ (w1 w2 : KRes) (w : Bool),
    R.SatK (run e b (List.replicate k (.dispatchPty i (.some 16382) (.some 16382) w1 w2 w)))
      (fun u => u = .badShift) fun b' =>
        (b'.item i).pty.inq = [] ∧ (b'.item i).pty.got = (b.item i).pty.got ++ (b.item i).pty.inq := by
  induction k with
  | zero =>
    intro b h i ho hq w1 w2 w
    have : (b.item i).pty.inq = [] := List.eq_nil_of_length_eq_zero (by omega)
    exact ⟨this, by rw [this, List.append_nil]⟩
  | succ k ih =>
    intro b h i ho hq w1 w2 w
    rw [List.replicate_succ]
    have hp : Op.Possible b (.dispatchPty i (.some 16382) (.some 16382) w1 w2 w) := .inr (.inr trivial)
    have safe := step_ok he (h.ok he) hp
    show R.SatK (step e b _ >>= _) _ _
    cases hs : step e b (.dispatchPty i (.some 16382) (.some 16382) w1 w2 w) with
    | error u => rw [hs] at safe; exact safe
    | ok x =>
      obtain ⟨b', r⟩ := x
      obtain ⟨q, hf⟩ := (h.ok he i).flow
      have f := Pty.dispatch_flow he hf (.some 16382) (.some 16382) w1 w2
      have g := Pty.dispatch_in (e := e) ho (.some 16382) (.some 16382) w1 w2
      have key : (b'.item i).pty.isOpen = true ∧ (b'.item i).pty.inq = (b.item i).pty.inq.drop 32766 ∧
          (b'.item i).pty.got ++ (b'.item i).pty.inq = (b.item i).pty.got ++ (b.item i).pty.inq := by
        replace hs : dispatchPty e b i (.some 16382) (.some 16382) w1 w2 w = .ok (b', r) := hs
        unfold dispatchPty at hs
        cases hd : Pty.dispatch e (b.item i).pty (.some 16382) (.some 16382) w1 w2 with
        | error u => simp only [hd, bind, Except.bind] at hs; cases hs
        | ok y =>
          obtain ⟨p, r'⟩ := y
          rw [hd] at f g
          have e1 : p.inq = (b.item i).pty.inq.drop 32766 := by
            have e1 : p.inq = (Pty.rest [.some 16382, .some 16382] (b.item i).pty.inq).1 := congrArg Prod.fst g.2
            rw [e1]
            simp only [Pty.rest]
            split
            · rename_i c; rw [c]; rfl
            · split
              · rename_i c
                simp only at c ⊢
                rw [c]
                have := congrArg List.length c
                rw [List.length_drop] at this
                exact (List.drop_eq_nil_of_le (by simp at this; omega)).symm
              · show List.drop _ (List.drop _ _) = _
                rw [List.drop_drop]
                rfl
          have hc : ∀ y : BrItem, (ctlAdd y w).1.pty = y.pty := fun y => by
            unfold ctlAdd; split <;> rfl
          simp only [hd, bind, Except.bind, pure, Except.pure] at hs
          split at hs
          · cases hs
            rw [set_item, if_pos rfl, hc]
            exact ⟨g.1, e1, f.2.1⟩
          · cases hs
            rw [set_item, if_pos rfl]
            exact ⟨g.1, e1, f.2.1⟩
      refine (ih (.step h hp hs) key.1 (by rw [key.2.1, List.length_drop]; omega) w1 w2 w).mono (fun _ h => h) ?_
      intro b'' hb
      exact ⟨hb.1, by rw [hb.2, key.2.2]⟩

/-- Output of the child that needs four dispatches. -/
example : ∃ b, Reachable ⟨fun _ => true, fun _ => []⟩ b ∧ (b.item 0).pty.isOpen = true ∧
    (b.item 0).pty.inq.length ≤ 32766 * 4 ∧ 32766 * 3 < (b.item 0).pty.inq.length := by
  obtain ⟨b, h, h1, h2, h3, h4⟩ := waiting ⟨fun _ => true, fun _ => []⟩ 100000 (by omega)
  exact ⟨b, h, h2, by rw [h3, List.length_replicate]; omega, by rw [h3, List.length_replicate]; omega⟩

/-- **C90.** What a caller would expect of removing: a pty that was taken out of the bridge stays out of it until it is
added again. -/
def C90_removed : Prop :=
  ∀ (e : PtyEnv) (b : Bridge) (i : Nat) (o : Op) (b' : Bridge) (r : PtyRet), Reachable e b →
    (b.item i).watched = false → (∀ w, o ≠ .add i w) → o.Possible b → step e b o = .ok (b', r) →
    (b'.item i).watched = false

/-- This is false: `shl_pty_bridge_dispatch_pty` adds it. -/
theorem C90_removed_false : ¬ C90_removed := by
  intro h
  have key : (match run ⟨fun _ => true, fun _ => []⟩ Bridge.init [.add 0 true, .remove 0, .child 0 [1, 2, 3]] with
      | .ok b => (match step ⟨fun _ => true, fun _ => []⟩ b (.dispatchPty 0 (.some 0) (.some 0) .again .again true) with
        | .ok (b', _) => decide ((b.item 0).watched = false ∧ (b'.item 0).watched = true)
        | _ => false)
      | _ => false) = true := by decide +kernel
  have h1 : Reachable ⟨fun _ => true, fun _ => []⟩ (Bridge.init.add 0 true).1 := .step (o := .add 0 true) .init trivial rfl
  have h2 : Reachable ⟨fun _ => true, fun _ => []⟩ ((Bridge.init.add 0 true).1.remove 0) :=
    .step (o := .remove 0) h1 trivial rfl
  split at key
  · rename_i b hb
    have h3 : Reachable ⟨fun _ => true, fun _ => []⟩ b := by
      refine .step (o := .child 0 [1, 2, 3]) (r := .ok) h2 trivial ?_
      cases hb
      rfl
    split at key
    · rename_i b' r hs
      obtain ⟨k1, k2⟩ := of_decide_eq_true key
      have hp : Op.Possible b (.dispatchPty 0 (.some 0) (.some 0) .again .again true) := .inr (.inr trivial)
      rw [h _ b 0 _ b' r h3 k1 (fun w c => by cases c) hp hs] at k2
      cases k2
    · cases key
  · cases key

/-- **C90.** Everything else keeps a removed pty out of the bridge, also dispatching the bridge itself, and no call for
one pty puts another one in or takes it out. -/
theorem C90_removed_partial {e : PtyEnv} (he : e.Sized) {b b' : Bridge} (h : Reachable e b) {i : Nat} {o : Op}
    {r : PtyRet} (hp : o.Possible b) (hs : step e b o = .ok (b', r)) :
    ((b.item i).watched = false → (∀ w, o ≠ .add i w) → (∀ r1 r2 w1 w2 w, o ≠ .dispatchPty i r1 r2 w1 w2 w) →
      (b'.item i).watched = false) ∧
    ((b.item i).watched = true → o ≠ .remove i → o ≠ .close i → (b'.item i).watched = true) := by
  have hc : ∀ (y : BrItem) (w : Bool), y.watched = true → (ctlAdd y w).1.watched = true := fun y w hy => by
    unfold ctlAdd; rw [if_pos hy]; exact hy
  have dp : ∀ {b b' : Bridge} {j : Nat} {r1 r2 w1 w2 : KRes} {w : Bool} {r : PtyRet},
      dispatchPty e b j r1 r2 w1 w2 w = .ok (b', r) →
      (i ≠ j → b'.item i = b.item i) ∧ ((b.item i).watched = true → (b'.item i).watched = true) := by
    intro b b' j r1 r2 w1 w2 w r hs
    unfold dispatchPty at hs
    cases hd : Pty.dispatch e (b.item j).pty r1 r2 w1 w2 with
    | error u => simp only [hd, bind, Except.bind] at hs; cases hs
    | ok y =>
      simp only [hd, bind, Except.bind, pure, Except.pure] at hs
      split at hs <;> cases hs <;> refine ⟨fun c => by rw [set_item, if_neg c], fun hw => ?_⟩ <;> rw [set_item] <;> split
      · rename_i c; subst c; exact hc _ _ hw
      · exact hw
      · rename_i c; subst c; exact hw
      · exact hw
  cases o with
  | add j w =>
    replace hs : (.ok (b.add j w) : Verif.R _) = .ok (b', r) := hs
    unfold add at hs
    split at hs
    · cases hs
      simp only [set_item]
      refine ⟨fun hw hn _ => ?_, fun hw _ _ => ?_⟩
      · split
        · rename_i c; subst c; exact absurd rfl (hn w)
        · exact hw
      · split
        · rename_i c; subst c; exact hc _ _ hw
        · exact hw
    · cases hs; exact ⟨fun hw _ _ => hw, fun hw _ _ => hw⟩
  | remove j =>
    replace hs : (.ok (b.remove j, .ok) : Verif.R _) = .ok (b', r) := hs
    cases hs
    unfold remove
    split
    · simp only [set_item]
      refine ⟨fun hw _ _ => ?_, fun hw hn _ => ?_⟩
      · split
        · rfl
        · exact hw
      · split
        · rename_i c; subst c; exact absurd rfl hn
        · exact hw
    · exact ⟨fun hw _ _ => hw, fun hw _ _ => hw⟩
  | dispatch j r1 r2 w1 w2 w =>
    replace hs : b.dispatch e j r1 r2 w1 w2 w = .ok (b', r) := hs
    unfold dispatch at hs
    split at hs
    · rename_i hev
      have d := dp hs
      have hwj := (h.ok he j).ev hev
      refine ⟨fun hw _ _ => ?_, fun hw _ _ => d.2 ?_⟩
      · by_cases c : i = j
        · subst c; rw [hwj] at hw; cases hw
        · rw [d.1 c, set_item, if_neg c]; exact hw
      · rw [set_item]; split
        · rename_i c; subst c; exact hw
        · exact hw
    · cases hs; exact ⟨fun hw _ _ => hw, fun hw _ _ => hw⟩
  | dispatchPty j r1 r2 w1 w2 w =>
    have d := dp hs
    refine ⟨fun hw _ hn => ?_, fun hw _ _ => d.2 hw⟩
    by_cases c : i = j
    · subst c; exact absurd rfl (hn r1 r2 w1 w2 w)
    · rw [d.1 c]; exact hw
  | write j d =>
    simp only [step] at hs
    cases hd : Pty.write e (b.item j).pty d with
    | error u => simp only [hd, bind, Except.bind] at hs; cases hs
    | ok y =>
      simp only [hd, bind, Except.bind, pure, Except.pure] at hs
      cases hs
      simp only [set_item]
      refine ⟨fun hw _ _ => ?_, fun hw _ _ => ?_⟩ <;> split <;> first | exact hw | (rename_i c; subst c; exact hw)
  | close j =>
    cases hs
    simp only [set_item]
    refine ⟨fun hw _ _ => ?_, fun hw _ hn => ?_⟩
    · split
      · rfl
      · exact hw
    · split
      · rename_i c; subst c; exact absurd rfl hn
      · exact hw
  | child j d =>
    cases hs
    simp only [set_item]
    refine ⟨fun hw _ _ => ?_, fun hw _ _ => ?_⟩ <;> split <;> first | exact hw | (rename_i c; subst c; exact hw)
  | room j =>
    cases hs
    simp only [set_item]
    refine ⟨fun hw _ _ => ?_, fun hw _ _ => ?_⟩ <;> split <;> first | exact hw | (rename_i c; subst c; exact hw)

/-- Two ptys, one of which is in the bridge. -/
example : ∃ b, Reachable ⟨fun _ => true, fun _ => []⟩ b ∧ (b.item 0).watched = true ∧ (b.item 1).watched = false := by
  obtain ⟨b, h, h1, -⟩ := waiting ⟨fun _ => true, fun _ => []⟩ 1 (by omega)
  by_cases c : (b.item 1).watched = true
  · exact ⟨b.remove 1, .step (o := .remove 1) h trivial rfl, by
      unfold remove; split
      · rw [set_item, if_neg (by decide)]; exact h1
      · exact h1, by
      have ho : (b.item 1).pty.isOpen = true := by
        cases ho : (b.item 1).pty.isOpen with
        | true => rfl
        | false =>
          have := (h.ok (fun _ _ hx => by cases hx) 1).shut ho
          rw [c] at this; cases this
      unfold remove; rw [if_pos ho, set_item, if_pos rfl]⟩
  · exact ⟨b, h, h1, by simpa using c⟩

end Verif.Props.Bridge
