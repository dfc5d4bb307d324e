import Verif.Props.Gtk.Flow
import Verif.Spec.Child

/-!
C104: programs that run one after the other, and what becomes of the output of a program that ends.
-/

namespace Verif.Props.Gtk
open Verif Verif.Gtk Verif.Gtk.Wid

/-- An event that neither starts nor ends a program. -/
theorem programs_cons {e : Wid.Ev} (he : e ≠ .exit) (hf : ∀ n, e ≠ .fork n) (cur : Option (List UInt8)) (es : List Wid.Ev) :
    programs cur (e :: es) = programs (cur.map (· ++ childBytes [e])) es := by
  have hid : cur.map (· ++ ([] : List UInt8)) = cur := by cases cur <;> simp
  cases e <;> first
    | exact absurd rfl he
    | exact absurd rfl (hf _)
    | (simp only [programs, childBytes, hid]; done)
    | (simp only [programs, childBytes, List.append_nil]; done)

theorem alive_exit {ink : Ink} {w : Wid} (h : Alive w) : Alive { w with pty := none } :=
  h.step (ink := ink) (e := .exit) trivial rfl

/-- The invariant behind C104. -/
theorem run_programs {ink : Ink} : ∀ {es : List Wid.Ev} {w w' : Wid}, Alive w → (∀ e ∈ es, e.Valid) → runAll ink es w = .ok w' →
    ∃ cs parts, (∀ c ∈ cs, ∃ e ∈ es, Makes e c) ∧ (∀ c ∈ cs, c.Valid) ∧ w.vte.runAll cs = .ok w'.vte ∧
      readBytes w.pty ++ inputs cs = List.flatten parts ∧
      parts.length = (programs (w.pty.map fun t => t.io.got ++ t.io.inq) es).length ∧
      (∀ (i : Nat) (p q : List UInt8), parts[i]? = some p →
        (programs (w.pty.map fun t => t.io.got ++ t.io.inq) es)[i]? = some q → p <+: q) ∧
      ((∀ pre post wm, es = pre ++ .exit :: post → runAll ink pre w = .ok wm → AllRead wm) → AllRead w' →
        parts = programs (w.pty.map fun t => t.io.got ++ t.io.inq) es) := by
  intro es
  induction es with
  | nil =>
    intro w w' _ _ h
    injection h with h
    subst h
    refine ⟨[], (w.pty.map (·.io.got)).toList, fun _ h => (nomatch h), fun _ h => (nomatch h), rfl, ?_, ?_, ?_, ?_⟩
    · cases hp : w.pty <;> simp [readBytes, inputs]
    · cases hp : w.pty <;> simp [programs]
    · intro i p q h1 h2
      cases hp : w.pty with
      | none => rw [hp] at h1; simp at h1
      | some t =>
        rw [hp] at h1 h2
        cases i with
        | zero =>
          simp [programs] at h1 h2
          subst h1 h2
          exact List.prefix_append _ _
        | succ i => simp at h1
    · intro _ hr
      cases hp : w.pty with
      | none => rfl
      | some t => simp [programs, hr t hp]
  | cons e es ih =>
    intro w w' ha hv h
    obtain ⟨w1, h1, h⟩ := bind_ok h
    have he := hv e List.mem_cons_self
    obtain ⟨cs2, parts, k1, k2, k3, k4, k5, k6, k7⟩ := ih (ha.step he h1) (fun d hd => hv d (List.mem_cons_of_mem _ hd)) h
    have hmem : ∀ (cs : List Vte.Call), (∀ c ∈ cs, Makes e c ∧ c.Valid) → ∀ c ∈ cs ++ cs2, ∃ e' ∈ e :: es, Makes e' c := by
      intro cs hm c hc
      rcases List.mem_append.mp hc with hc | hc
      · exact ⟨e, List.mem_cons_self, (hm c hc).1⟩
      · obtain ⟨e', he', hm⟩ := k1 c hc
        exact ⟨e', List.mem_cons_of_mem _ he', hm⟩
    have hval : ∀ (cs : List Vte.Call), (∀ c ∈ cs, Makes e c ∧ c.Valid) → ∀ c ∈ cs ++ cs2, c.Valid := by
      intro cs hm c hc
      rcases List.mem_append.mp hc with hc | hc
      · exact (hm c hc).2
      · exact k2 c hc
    have hdr : (∀ pre post wm, e :: es = pre ++ .exit :: post → runAll ink pre w = .ok wm → AllRead wm) →
        ∀ pre post wm, es = pre ++ .exit :: post → runAll ink pre w1 = .ok wm → AllRead wm := by
      intro hd pre post wm he hr
      refine hd (e :: pre) post wm (by rw [he]; rfl) ?_
      show (w.step ink e >>= runAll ink pre) = _
      rw [h1]
      exact hr
    by_cases hx : e = .exit
    · subst hx
      injection h1 with h1
      subst h1
      cases hp : w.pty with
      | none =>
        refine ⟨cs2, parts, hmem [] (fun _ h => (nomatch h)), k2, k3, k4, k5, k6, fun hd hr => k7 (hdr hd) hr⟩
      | some t =>
        refine ⟨cs2, t.io.got :: parts, hmem [] (fun _ h => (nomatch h)), k2, k3, ?_, ?_, ?_, ?_⟩
        · show t.io.got ++ inputs cs2 = _
          rw [List.flatten_cons, ← k4]
          rfl
        · show _ = ([t.io.got ++ t.io.inq] ++ programs none es).length
          rw [List.length_cons, k5, List.length_append, List.length_singleton, Nat.add_comm]
          rfl
        · intro i p q i1 i2
          cases i with
          | zero =>
            injection i1 with i1
            injection i2 with i2
            subst i1 i2
            exact List.prefix_append _ _
          | succ i => exact k6 i p q i1 i2
        · intro hd hr
          have := hd [] es w rfl rfl t hp
          show _ = [t.io.got ++ t.io.inq] ++ programs none es
          rw [k7 (hdr hd) hr, this, List.append_nil]
          rfl
    · by_cases hf : ∃ n, e = .fork n ∧ w.pty = none
      · obtain ⟨n, rfl, hp⟩ := hf
        obtain ⟨f1, _, t0, f3, f4, _⟩ := fork_ok h1 hp
        rw [f1] at k3
        have e1 : readBytes w1.pty = [] := by 
          rw [f3]
          show t0.io.got = _
          rw [f4]
          rfl
        have e2 : (w1.pty.map fun t => t.io.got ++ t.io.inq) = some [] := by 
          rw [f3]
          show some (t0.io.got ++ t0.io.inq) = _
          rw [f4]
          rfl
        rw [e1] at k4
        rw [e2] at k5 k6 k7
        rw [hp]
        exact ⟨cs2, parts, hmem [] (fun _ h => (nomatch h)), k2, k3, k4, k5, k6, fun hd hr => k7 (hdr hd) hr⟩
      · obtain ⟨cs, evs, d⟩ := step_did ha.sane.vte he hx (by
          intro n hn
          cases hp : w.pty with
          | none => exact absurd ⟨n, hn, hp⟩ hf
          | some t => rfl) h1
        have hrun : w.vte.runAll (cs ++ cs2) = .ok w'.vte := by
          rw [Vte.vrunAll_append, d.run]
          exact k3
        have hpr : programs (w.pty.map fun t => t.io.got ++ t.io.inq) (e :: es) =
            programs (w1.pty.map fun t => t.io.got ++ t.io.inq) es := by
          have dp := d.pty
          cases hp : w.pty with
          | none =>
            rw [hp] at dp
            rw [dp.1]
            rw [programs_cons hx (fun n hn => hf ⟨n, hn, hp⟩)]
            rfl
          | some t =>
            rw [hp] at dp
            obtain ⟨t1, q1, q2⟩ := dp
            rw [q1]
            show programs (some (t.io.got ++ t.io.inq)) (e :: es) = programs (some (t1.io.got ++ t1.io.inq)) es
            rw [q2.all]
            by_cases hn : ∃ n, e = .fork n
            · obtain ⟨n, rfl⟩ := hn
              simp [programs, childBytes]
            · rw [programs_cons hx (fun n h => hn ⟨n, h⟩)]
              rfl
        have hgot : readBytes w.pty ++ inputs cs = readBytes w1.pty := by
          have dp := d.pty
          cases hp : w.pty with
          | none =>
            rw [hp] at dp
            rw [dp.1, dp.2]
            rfl
          | some t =>
            rw [hp] at dp
            obtain ⟨t1, q1, q2⟩ := dp
            rw [q1]
            exact q2.got.symm
        rw [hpr]
        refine ⟨cs ++ cs2, parts, hmem cs d.made, hval cs d.made, hrun, ?_, k5, k6, fun hd hr => k7 (hdr hd) hr⟩
        rw [inputs_append, ← List.append_assoc, hgot]
        exact k4

/-- **C104**, what holds: programs run in a widget one after the other. The emulator is given, in order, a first part of what
each of them has printed and nothing else: output of one program is never mixed with that of another, repeated or given out of
order. If whenever a program ends everything it has printed has been read, and at the end as well, then the emulator is given
exactly what the programs have printed. -/
theorem C104_programs_partial {ink : Ink} {w w' : Wid} (h : Live ink w) (hp : w.pty = none) {es : List Wid.Ev} (hes : ∀ e ∈ es, e.Valid)
    (e : Wid.runAll ink es w = .ok w') :
    ∃ cs parts, (∀ c ∈ cs, ∃ e ∈ es, Makes e c) ∧ w.vte.runAll cs = .ok w'.vte ∧ inputs cs = List.flatten parts ∧
      parts.length = (programs none es).length ∧
      (∀ (i : Nat) (p q : List UInt8), parts[i]? = some p → (programs none es)[i]? = some q → p <+: q) ∧
      ((∀ pre post wm, es = pre ++ .exit :: post → Wid.runAll ink pre w = .ok wm → AllRead wm) → AllRead w' →
        inputs cs = (programs none es).flatten) := by
  obtain ⟨cs, parts, k1, _, k3, k4, k5, k6, k7⟩ := run_programs h.alive hes e
  rw [hp] at k4 k5 k6 k7
  refine ⟨cs, parts, k1, k3, k4, k5, k6, fun hd hr => ?_⟩
  rw [← show parts = programs none es from k7 hd hr]
  exact k4

/-- The end of a program changes nothing on the screen and nothing else of the emulator; another one can be started. -/
theorem C104_exit {ink : Ink} {w : Wid} (h : Live ink w) : ∃ w', w.step ink .exit = .ok w' ∧ Live ink w' ∧ w'.vte = w.vte ∧
    w'.rend = w.rend ∧ w'.titles = w.titles ∧ w'.pty = none ∧
    (∀ fs : Faces, ∃ w2 t, w'.step ink (.fork (some fs)) = .ok w2 ∧ w2.vte = w.vte ∧ w2.pty = some t ∧ t.io.inq = [] ∧
      t.io.out.getSize = 0) := by
  refine ⟨_, rfl, h.runAll (es := [.exit]) (by simp [Wid.Ev.Valid]) rfl, rfl, rfl, rfl, rfl, ?_⟩
  intro fs
  have : ∃ w2, { w with pty := none }.fork (some fs) = .ok w2 := by
    unfold Wid.fork
    rw [if_neg (by simp)]
    cases hf : w.faces with
    | none => exact ⟨_, rfl⟩
    | some f => exact ⟨_, rfl⟩
  obtain ⟨w2, h2⟩ := this
  obtain ⟨f1, _, t, f3, f4, _⟩ := fork_ok h2 rfl
  exact ⟨w2, t, h2, f1, f3, by rw [f4]; rfl, by rw [f4]; rfl⟩

/-- Two programs: the first prints `A` and ends, the second prints `B`; both are read. The first is started while another
one is asked for in vain. -/
example : wholds [.fork (some faces10), .configure 50 40 true, .child [65], .fork none, .dispatch (.some 0) .again .again .again, .exit,
    .child [90], .fork none, .child [66], .dispatch (.some 0) .again .again .again]
      (fun w => decide (w.vte.con.cursorX = 2) && (match w.pty with | some t => decide (t.io.got = [66]) | none => false)) = true ∧
    programs none [.fork (some faces10), .configure 50 40 true, .child [65], .fork none, .dispatch (.some 0) .again .again .again, .exit,
    .child [90], .fork none, .child [66], .dispatch (.some 0) .again .again .again] = [[65], [66]] := by decide +kernel

/-- **C104**, what is missing: output that has not been read when the end of the program is noticed is lost. Whatever the first program
has printed and whatever follows, as long as nothing is read before its end, the emulator is given only the output of later
programs. -/
theorem C104_lost_partial {ink : Ink} {w w1 w' : Wid} (h : Live ink w) (hp : w.pty = none) {new : Option Faces} (hv : (Wid.Ev.fork new).Valid)
    (d : List UInt8) {es : List Wid.Ev} (hes : ∀ e ∈ es, e.Valid) (e1 : Wid.runAll ink [.fork new, .child d, .exit] w = .ok w1)
    (e : Wid.runAll ink es w1 = .ok w') :
    w1.vte = w.vte ∧ programs none ([.fork new, .child d, .exit] ++ es) = d :: programs none es ∧
      ∃ cs parts, (∀ c ∈ cs, ∃ e ∈ es, Makes e c) ∧ w.vte.runAll cs = .ok w'.vte ∧ inputs cs = List.flatten parts ∧
        parts.length = (programs none es).length ∧
        (∀ (i : Nat) (p q : List UInt8), parts[i]? = some p → (programs none es)[i]? = some q → p <+: q) := by
  have hl : Live ink w1 := h.runAll (by
    intro e he
    simp at he
    rcases he with rfl | rfl | rfl
    · exact hv
    · trivial
    · trivial) e1
  obtain ⟨w2, s1, e1⟩ := bind_ok e1
  obtain ⟨f1, _⟩ := fork_ok s1 hp
  injection e1 with e1
  subst e1
  refine ⟨f1, by simp [programs], ?_⟩
  obtain ⟨cs, parts, k1, k2, k3, k4, k5, _⟩ := C104_programs_partial hl rfl hes e
  refine ⟨cs, parts, k1, ?_, k3, k4, k5⟩
  rw [← f1]
  exact k2

/-- **C104** is false: it is not true that the emulator is given what the programs have printed, even if all of them have ended
and everything has been done that the widget does. -/
theorem C104_lost_false : ¬ ∀ (ink : Ink) (w w' : Wid) (es : List Wid.Ev), Live ink w → w.pty = none → (∀ e ∈ es, e.Valid) →
    Wid.runAll ink es w = .ok w' → w'.pty = none →
    ∃ cs, (∀ c ∈ cs, ∃ e ∈ es, Makes e c) ∧ w.vte.runAll cs = .ok w'.vte ∧ inputs cs = (programs none es).flatten := by
  intro hall
  obtain ⟨w, hw, hb⟩ := exists_of_wholds (es := [.configure 50 40 true, .fork (some faces10), .exit])
    (P := fun w => w.pty.isNone && w.faces.isSome) (by
      intro e he
      simp at he
      rcases he with rfl | rfl | rfl
      · trivial
      · exact fun fs e => by injection e with e; subst e; exact faces10_fresh
      · trivial) (by decide +kernel)
  rw [Bool.and_eq_true] at hb
  have hp : w.pty = none := Option.isNone_iff_eq_none.mp hb.1
  have hf : w.fork none = .ok { w with pty := some { io := Pty.init, cols := w.columns % 65536, rows := w.rows % 65536 } } := by
    unfold Wid.fork
    rw [hp, if_neg (by decide), if_pos hb.2]
    rfl
  have hr : Wid.runAll noInk [.fork none, .child [65], .exit] w = .ok { w with pty := none } := by
    show (w.fork none >>= _) = _
    rw [hf]
    rfl
  obtain ⟨cs, h1, _, h3⟩ := hall noInk w _ [.fork none, .child [65], .exit] hw hp (by
      intro e he
      simp at he
      rcases he with rfl | rfl | rfl <;> first | trivial | exact fun _ h => nomatch h) hr rfl
  cases cs with
  | nil => exact absurd h3 (by decide)
  | cons c cs =>
    obtain ⟨e, he, hm⟩ := h1 c List.mem_cons_self
    simp at he
    rcases he with rfl | rfl | rfl <;> exact False.elim hm

/-- A program prints `A` and ends; nothing appears, though the widget goes on and reads. -/
example : wholds [.configure 50 40 true, .fork (some faces10), .child [65], .exit, .dispatch (.some 0) (.some 0) .again .again,
    .idle (.some 0) (.some 0) .again .again, .draw] (fun w => decide (w.vte.con.cursorX = 0)) = true ∧
    wholds [.configure 50 40 true, .fork (some faces10), .child [65], .dispatch (.some 0) (.some 0) .again .again, .exit,
    .idle (.some 0) (.some 0) .again .again, .draw] (fun w => decide (w.vte.con.cursorX = 1)) = true := by decide +kernel

end Verif.Props.Gtk
