import Verif.Proofs.Gtk.LiveExample
import Verif.Proofs.Gtk.Idle
import Verif.Props.Vte.Input

/-!
C96: the bytes between the child and the emulator.
-/

namespace Verif.Props.Gtk
open Verif Verif.Gtk Verif.Gtk.Wid

theorem childBytes_cons (e : Wid.Ev) (es : List Wid.Ev) : childBytes (e :: es) = childBytes [e] ++ childBytes es := by
  cases e <;> simp [childBytes]

/-- Events without the end of the child. -/
theorem run_did {ink : Ink} : ∀ {es : List Wid.Ev} {w w' : Wid}, Alive w → w.pty.isSome = true → (∀ e ∈ es, e.Valid) →
    Wid.Ev.exit ∉ es → runAll ink es w = .ok w' →
    ∃ cs evs, (∀ c ∈ cs, ∃ e ∈ es, Makes e c) ∧ (∀ c ∈ cs, c.Valid) ∧ w.vte.runAll cs = .ok w'.vte ∧
      w'.vte.log = w.vte.log ++ evs ∧ Passes (childBytes es) (inputs cs) evs w.pty w'.pty := by
  intro es
  induction es with
  | nil =>
    intro w w' _ _ _ _ h
    injection h with h
    subst h
    exact ⟨[], [], fun _ h => (nomatch h), fun _ h => (nomatch h), rfl, by simp, Passes.refl _⟩
  | cons e es ih =>
    intro w w' ha hp hv hx h
    obtain ⟨w1, h1, h⟩ := bind_ok h
    have he := hv e List.mem_cons_self
    obtain ⟨cs, evs, d⟩ := step_did ha.sane.vte he (by rintro rfl; exact hx List.mem_cons_self) (fun _ _ => hp) h1
    have hp1 : w1.pty.isSome = true := by
      have := d.pty
      cases hw : w.pty with
      | none => rw [hw] at hp; cases hp
      | some t =>
        rw [hw] at this
        obtain ⟨t1, e1, _⟩ := this
        rw [e1]; rfl
    obtain ⟨cs2, evs2, k1, k2, k3, k4, k5⟩ := ih (ha.step he h1) hp1 (fun d hd => hv d (List.mem_cons_of_mem _ hd))
      (fun hd => hx (List.mem_cons_of_mem _ hd)) h
    refine ⟨cs ++ cs2, evs ++ evs2, ?_, ?_, ?_, by rw [k4, d.log, List.append_assoc], ?_⟩
    · intro c hc
      rcases List.mem_append.mp hc with hc | hc
      · exact ⟨e, List.mem_cons_self, (d.made c hc).1⟩
      · obtain ⟨e', he', hm⟩ := k1 c hc
        exact ⟨e', List.mem_cons_of_mem _ he', hm⟩
    · intro c hc
      rcases List.mem_append.mp hc with hc | hc
      · exact (d.made c hc).2
      · exact k2 c hc
    · rw [Vte.vrunAll_append, d.run]
      exact k3
    · rw [childBytes_cons, inputs_append]
      exact d.pty.trans k5

/-- **C96.** A child is started, and then anything happens but its end. Then

* the emulator has been changed only by calls that belong to the events, and the bytes it was given, in order, are
  exactly those read from the pty;
* these, followed by those the pty has yet to deliver, are exactly what the child has written;
* what the child can read from its terminal (`sent`), followed by what is in the queue of the pty, is exactly what the
  emulator has sent since, in order: keys and answers, nothing else. -/
theorem C96_flow {ink : Ink} {w w1 w2 : Wid} (h : Live ink w) (hp : w.pty = none) {new : Option Faces}
    (hv : (Wid.Ev.fork new).Valid) (e1 : w.step ink (.fork new) = .ok w1) {es : List Wid.Ev} (hes : ∀ e ∈ es, e.Valid)
    (hx : Wid.Ev.exit ∉ es) (e2 : Wid.runAll ink es w1 = .ok w2) :
    ∃ t cs evs q, w2.pty = some t ∧ (∀ c ∈ cs, ∃ e ∈ es, Makes e c) ∧ w.vte.runAll cs = .ok w2.vte ∧
      w2.vte.log = w.vte.log ++ evs ∧ inputs cs = t.io.got ∧ t.io.got ++ t.io.inq = childBytes es ∧
      t.io.sent ++ q = (Vte.sent evs).flatten ∧ t.io.out.gather t.io.out.peek = .ok (q.map some) := by
  have ha1 := h.alive.step hv e1
  obtain ⟨f1, f2, t0, f3, f4, _⟩ := fork_ok e1 hp
  obtain ⟨cs, evs, k1, k2, k3, k4, k5⟩ := run_did ha1 (by rw [f3]; rfl) hes hx e2
  rw [f3] at k5
  obtain ⟨t, ht, f⟩ := k5
  have hb := (ha1.runAll hes e2).brief
  rw [k4] at hb
  have hs : Short evs := (brief_short hb).right
  obtain ⟨⟨q, hq⟩, hacc, _⟩ := f.flow ⟨[], by rw [f4]; exact Pty.flow_init⟩ hs
  rw [f1] at k3 k4
  refine ⟨t, cs, evs, q, ht, k1, k3, k4, ?_, ?_, ?_, Ring.gather_rep hq.rep⟩
  · have := f.got
    rw [f4] at this
    exact this.symm
  · have := f.all
    rw [f4] at this
    exact this
  · rw [hq.all, hacc, f4]
    rfl

/-- A child prints `A`, asks for the cursor position and prints `B`, which is read in two parts; the user types `x`
and the queue is written. -/
example : wholds [.fork (some faces10), .configure 50 40 true, .child [65, 27, 91, 54, 110, 66],
    .dispatch (.some 0) (.some 3) .again .again, .key 0#32 none 120 120, .idle .again .again (.some 50) .again]
      (fun w => match w.pty with
        | some t => decide (t.io.got = [65, 27, 91, 54, 110]) && decide (t.io.inq = [66]) &&
            decide (t.io.sent = [27, 91, 49, 59, 50, 82, 120]) && decide (t.io.out.getSize = 0)
        | none => false) = true := by decide +kernel

/-- **C96**, progress: nothing the emulator sends is forgotten in the queue. At any time after the start of a child, a
dispatch of the pty is scheduled, or the emulator has sent nothing since the start, or a scheduled dispatch has run since it
has last sent something. (What a dispatch leaves in the queue because the kernel takes no more waits for the next event of
the bridge, see C62 and C90.) -/
theorem C96_scheduled {ink : Ink} {w w1 w2 : Wid} (h : Live ink w) (hp : w.pty = none) {new : Option Faces}
    (hv : (Wid.Ev.fork new).Valid) (e1 : w.step ink (.fork new) = .ok w1) {es : List Wid.Ev} (hes : ∀ e ∈ es, e.Valid)
    (hx : Wid.Ev.exit ∉ es) (e2 : Wid.runAll ink es w1 = .ok w2) :
    w2.idle = true ∨ Vte.sent w2.vte.log = Vte.sent w.vte.log ∨
      ∃ pre a b c d post wm, es = pre ++ .idle a b c d :: post ∧ Wid.runAll ink pre w1 = .ok wm ∧
        Vte.sent w2.vte.log = Vte.sent wm.vte.log := by
  have ha1 := h.alive.step hv e1
  obtain ⟨f1, f2, t0, f3, f4, _⟩ := fork_ok e1 hp
  rcases (run_sched ha1 (by rw [f3]; rfl) hes hx e2).2 with k | ⟨k, _⟩ | k
  · exact .inl k
  · exact .inr (.inl (by rw [k, f1]))
  · exact .inr (.inr k)

/-- A typed key schedules a dispatch, which then runs. -/
example : wholds [.fork (some faces10), .configure 50 40 true, .key 0#32 none 120 120] (fun w => w.idle) = true ∧
    wholds [.fork (some faces10), .configure 50 40 true, .key 0#32 none 120 120, .draw,
      .idle .again .again (.some 0) .again] (fun w => !w.idle) = true := by decide +kernel

theorem input_chunks : ∀ (cs : List Vte.Call) (v : Vte), (∀ c ∈ cs, ∃ d, c = .input d) →
    ∃ chunks : List (List UInt8), chunks.flatten = inputs cs ∧ v.runAll cs = chunks.foldlM (fun v c => v.input c) v := by
  intro cs
  induction cs with
  | nil => exact fun v _ => ⟨[], rfl, rfl⟩
  | cons c cs ih =>
    intro v hc
    obtain ⟨d, rfl⟩ := hc c List.mem_cons_self
    cases hd : v.input d with
    | error x =>
      obtain ⟨ch, k1, k2⟩ := ih v (fun c hd => hc c (List.mem_cons_of_mem _ hd))
      refine ⟨d :: ch, by simp [inputs, k1], ?_⟩
      show (v.input d >>= fun v => v.runAll cs) = (v.input d >>= fun v => ch.foldlM _ v)
      rw [hd]
      rfl
    | ok v1 =>
      obtain ⟨ch, k1, k2⟩ := ih v1 (fun c hd => hc c (List.mem_cons_of_mem _ hd))
      refine ⟨d :: ch, by simp [inputs, k1], ?_⟩
      show (v.input d >>= fun v => v.runAll cs) = (v.input d >>= fun v => ch.foldlM _ v)
      rw [hd]
      exact k2

/-- Dispatches only give input to the emulator. -/
theorem only_inputs {es : List Wid.Ev} {cs : List Vte.Call}
    (hes : ∀ e ∈ es, (∃ d, e = .child d) ∨ (∃ a b c d, e = .dispatch a b c d) ∨ (∃ a b c d, e = .idle a b c d))
    (h2 : ∀ c ∈ cs, ∃ e ∈ es, Makes e c) : ∀ c ∈ cs, ∃ d, c = .input d := by
  intro c hc
  obtain ⟨e, he, hm⟩ := h2 c hc
  rcases hes e he with ⟨d, rfl⟩ | ⟨_, _, _, _, rfl⟩ | ⟨_, _, _, _, rfl⟩
  · exact False.elim hm
  · cases c <;> first | exact ⟨_, rfl⟩ | exact False.elim hm
  · cases c <;> first | exact ⟨_, rfl⟩ | exact False.elim hm

/-- **C96**, output: if after the start of the child only output and dispatches happen, the emulator is in the state that it
has after being given, in one piece, what was read: neither the sizes of the reads nor the times of the dispatches matter. -/
theorem C96_output {ink : Ink} {w w1 w2 : Wid} (h : Live ink w) (hp : w.pty = none) {new : Option Faces}
    (hv : (Wid.Ev.fork new).Valid) (e1 : w.step ink (.fork new) = .ok w1) {es : List Wid.Ev}
    (hes : ∀ e ∈ es, (∃ d, e = .child d) ∨ (∃ a b c d, e = .dispatch a b c d) ∨ (∃ a b c d, e = .idle a b c d))
    (e2 : Wid.runAll ink es w1 = .ok w2) :
    ∃ t, w2.pty = some t ∧ t.io.got ++ t.io.inq = childBytes es ∧ w.vte.input t.io.got = .ok w2.vte := by
  have hval : ∀ e ∈ es, e.Valid := by
    intro e he
    rcases hes e he with ⟨d, rfl⟩ | ⟨_, _, _, _, rfl⟩ | ⟨_, _, _, _, rfl⟩ <;> trivial
  obtain ⟨t, cs, evs, q, h1, h2, h3, _, h5, h6, _⟩ := C96_flow h hp hv e1 hval (by
    intro hx
    rcases hes _ hx with ⟨d, e⟩ | ⟨_, _, _, _, e⟩ | ⟨_, _, _, _, e⟩ <;> cases e) e2
  refine ⟨t, h1, h6, ?_⟩
  have hin := only_inputs hes h2
  obtain ⟨ch, k1, k2⟩ := input_chunks cs w.vte hin
  rw [k2, Vte.C39_chunking h.alive.sane.vte, k1, h5] at h3
  exact h3

/-- The output in one piece. -/
example : wholds [.configure 50 40 true, .fork (some faces10), .child [65], .child [27, 91, 54, 110, 66],
    .dispatch (.some 0) .again .again .again, .idle (.some 3) (.some 9) .again .again]
      (fun w => match w.pty with
        | some t => decide (t.io.got = [65, 27, 91, 54, 110, 66]) && decide (t.io.inq = [])
        | none => false) = true := by decide +kernel

end Verif.Props.Gtk
