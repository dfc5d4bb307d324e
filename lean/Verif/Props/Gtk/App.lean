import Verif.Proofs.Gtk.App

/-!
# C115: the command line of gtktsm
-/

namespace Verif.Props.Gtk

open Verif Verif.Gtk

/-- The claim: each command with accepted arguments opens one window with the properties it asks for, in which the shell of the
user runs in the environment and directory of the command; no other window is affected. -/
def C115_claim : Prop :=
  ∀ mk ink (c : Launch) d t0, Maker.Fresh mk → (∀ f a o, (mk f a o).isSome = true) → Desk mk ink d → c.Valid → c.opts.version = false →
    c.opts.Accepted → Term.init mk ink c.screen c.sg c.mem = .ok t0 →
    ∃ r d' w, c.invoke mk ink d = .ok (r, d') ∧ open_ d' = open_ d ++ [w] ∧ (∀ p, w.term.get p = c.opts.value p) ∧
      w.prog.For c.env c.dir

section
variable {mk : Maker} {ink : Ink}

/-- **C115**: if the command works and its arguments are accepted, the result is 0, nothing is printed, and there is exactly one window
more, the last one. In it each property has the value that the option gives, or else its default, the scrollback has the
size asked for, and a program was started, with environment and directory of the application, which are those of the command if
none was running before. No other window is affected. -/
theorem C115_opened (hk : mk.Fresh) {c : Launch} (hc : c.Valid) {d d' : Option App} {r : Result} (hv : c.opts.version = false)
    (ha : c.opts.Accepted) (h : c.invoke mk ink d = .ok (r, d')) :
    r = { code := 0, out := "", err := "" } ∧ ∃ w, open_ d' = open_ d ++ [w] ∧ w.term.Live mk ink ∧ w.term.w.pty.isSome = true ∧
      (∀ p, w.term.get p = c.opts.value p) ∧ Setting.sbSize w.term.w.vte.con.view.sbMax = c.opts.value .sbSize ∧
      (d = none → w.prog.For c.env c.dir) ∧ (∀ a, d = some a → w.prog.For a.env a.dir) ∧
      ∃ a', d' = some a' ∧ (d = none → a'.env = c.env ∧ a'.dir = c.dir) ∧ ∀ a, d = some a → a'.env = a.env ∧ a'.dir = a.dir := by
  unfold Launch.invoke at h
  rw [hv] at h
  obtain ⟨t, ht, h⟩ := bind_ok (x := Term.init mk ink c.screen c.sg c.mem) h
  obtain ⟨⟨n, m, a'⟩, hx, h⟩ := bind_ok h
  injection h with h
  injection h with h1 h2
  have hl := init_live hc ht
  rcases commandLine_ok hc.1 hl hx with ⟨_, rfl, rfl, _, u, hu, hp, hg, rfl⟩ | ⟨hn, _⟩
  · have hg' : ∀ p, u.get p = c.opts.value p := by
      intro p
      obtain ⟨i1, i2, i3, i4, i5, i6⟩ := C111_initial ht
      rw [hg p]
      cases p <;> dsimp only [Options.value]
      · rw [i1]
        cases c.opts.font <;> rfl
      · rw [i2]
        cases c.opts.sbSize with
        | none => rfl
        | some n =>
          show Setting.sbSize (max n 0).toNat = Setting.sbSize (if n < 0 then 0 else n.toNat)
          congr 1
          split <;> omega
      · rw [i3]
        cases c.opts.antiAliasing <;> rfl
      · rw [i4]
        cases c.opts.subpixelOrder <;> rfl
      · rw [i5]
        cases c.opts.showDirty <;> rfl
      · rw [i6]
        cases c.opts.debug <;> rfl
    refine ⟨h1.symm, { term := u, prog := (d.getD { env := c.env, dir := c.dir, windows := [] }).prog }, ?_, hu, hp, hg', ?_, ?_, ?_,
      { (d.getD { env := c.env, dir := c.dir, windows := [] }) with windows :=
        (d.getD { env := c.env, dir := c.dir, windows := [] }).windows ++
          [{ term := u, prog := (d.getD { env := c.env, dir := c.dir, windows := [] }).prog }] }, ?_, ?_, ?_⟩
    · rw [← h2, open_settle]
      cases d <;> rfl
    · rw [← C111_scrollback hk hu]
      exact hg' .sbSize
    · rintro rfl
      exact prog_for _
    · rintro a rfl
      exact prog_for _
    · rw [← h2]
      unfold App.settle
      rw [if_neg]
      dsimp only
      rw [List.isEmpty_iff]
      exact List.append_ne_nil_of_right_ne_nil _ (List.cons_ne_nil _ _)
    · rintro rfl
      exact ⟨rfl, rfl⟩
    · rintro a rfl
      exact ⟨rfl, rfl⟩
  · exact absurd ha hn

/-- **C115**: if an argument is not accepted, the result is 1, the message names the argument, all windows are as before and no program is
started. Of two such arguments the anti-aliasing is reported. -/
theorem C115_refused {c : Launch} (hc : c.Valid) {d d' : Option App} {r : Result} (hv : c.opts.version = false)
    (ha : ¬ c.opts.Accepted) (h : c.invoke mk ink d = .ok (r, d')) :
    r.code = 1 ∧ r.out = "" ∧ open_ d' = open_ d ∧
    ((∃ s, c.opts.antiAliasing = some s ∧ s ∉ ["none", "gray", "subpixel", "default"] ∧
        r.err = "invalid anti-aliasing argument: " ++ s ++ "\n") ∨
      (∀ s, c.opts.antiAliasing = some s → s ∈ ["none", "gray", "subpixel", "default"]) ∧
        ∃ s, c.opts.subpixelOrder = some s ∧ s ∉ ["rgb", "bgr", "vrgb", "vbgr", "default"] ∧
          r.err = "invalid subpixel-order argument: " ++ s ++ "\n") := by
  unfold Launch.invoke at h
  rw [hv] at h
  obtain ⟨t, ht, h⟩ := bind_ok (x := Term.init mk ink c.screen c.sg c.mem) h
  obtain ⟨⟨n, m, a'⟩, hx, h⟩ := bind_ok h
  injection h with h
  injection h with h1 h2
  have hl := init_live hc ht
  have nin : ∀ {s : String} {P : String → Bool} {l : List String}, (P s = false ↔ s ∈ l) → P s = true → s ∉ l := by
    intro s P l hi hp hs
    rw [hi.mpr hs] at hp
    cases hp
  have aa : ∀ s, badAa s = false ↔ s ∈ ["none", "gray", "subpixel", "default"] := by
    intro s
    rw [badAa_iff]
    simp only [List.mem_cons, List.not_mem_nil, or_false]
  have od : ∀ s, badOrder s = false ↔ s ∈ ["rgb", "bgr", "vrgb", "vbgr", "default"] := by
    intro s
    rw [badOrder_iff]
    simp only [List.mem_cons, List.not_mem_nil, or_false]
  rcases commandLine_ok hc.1 hl hx with ⟨hy, _⟩ | ⟨_, rfl, rfl, hm⟩
  · exact absurd hy ha
  · subst h1
    refine ⟨rfl, rfl, ?_, ?_⟩
    · rw [← h2, open_settle]
      cases d <;> rfl
    · rcases hm with ⟨s, e1, e2, e3⟩ | ⟨hall, s, e1, e2, e3⟩
      · exact Or.inl ⟨s, e1, nin (aa s) e2, e3⟩
      · exact Or.inr ⟨fun s hs => (aa s).mp (hall s hs), s, e1, nin (od s) e2, e3⟩

/-- **C115**: `--version` prints the name and does nothing else, whatever else is given. -/
theorem C115_version {c : Launch} (hv : c.opts.version = true) (d : Option App) :
    c.invoke mk ink d = .ok ({ code := 0, out := "GtkTsm\n", err := "" }, d) := by
  unfold Launch.invoke
  rw [hv]
  rfl

/-- **C115**: a command never stops the application, if its window can be made, a pty can be opened and there is a face for each
description. Without a pty this is false (`C115_false_fork`). -/
theorem C115_works_partial (hk : mk.Fresh) (hm : ∀ d a o, (mk d a o).isSome = true) {c : Launch} (hc : c.Valid) (hf : c.forkOk = true)
    {t : Term} (ht : Term.init mk ink c.screen c.sg c.mem = .ok t) (d : Option App) : ∃ r d', c.invoke mk ink d = .ok (r, d') := by
  cases hv : c.opts.version with
  | true => exact ⟨_, _, C115_version hv d⟩
  | false =>
    have hl := init_live hc ht
    unfold Launch.invoke
    rw [hv, ht]
    suffices hs : ∃ x, App.commandLine mk ink c.forkOk c.opts (d.getD { env := c.env, dir := c.dir, windows := [] }) t = .ok x by
      obtain ⟨x, hx⟩ := hs
      refine ⟨{ code := x.1, out := "", err := x.2.1 }, x.2.2.settle, ?_⟩
      show (App.commandLine mk ink c.forkOk c.opts (d.getD { env := c.env, dir := c.dir, windows := [] }) t >>= _) = _
      rw [hx]
      rfl
    generalize d.getD { env := c.env, dir := c.dir, windows := [] } = a
    unfold App.commandLine
    have q1 : ∀ s, (c.opts.font.map fun d => Setting.font (some d)) = some s → s.Typed ∧ s.Given :=
      of_map (P := fun s => s.Typed ∧ s.Given) (fun _ _ => ⟨trivial, (nomatch ·)⟩)
    obtain ⟨t1, h1⟩ := opt_works hk hm q1 hl
    have l1 := opt_live (fun s hs => (q1 s hs).1) hl h1
    have q2 : ∀ s, (c.opts.sbSize.map fun n => Setting.sbSize (max n 0).toNat) = some s → s.Typed ∧ s.Given := by
      intro s hs
      refine ⟨fits_typed hc.1 s hs, ?_⟩
      exact of_map (P := Setting.Given) (f := fun n : Int => Setting.sbSize (max n 0).toNat) (fun _ _ => trivial) s hs
    obtain ⟨t2, h2⟩ := opt_works hk hm q2 l1
    have l2 := opt_live (fun s hs => (q2 s hs).1) l1 h2
    rw [h1]
    show ∃ x, (t1.opt mk ink _ >>= _) = .ok x
    rw [h2]
    dsimp only [bind, Except.bind]
    cases c.opts.antiAliasing.filter badAa with
    | some s => exact ⟨_, rfl⟩
    | none =>
      have q3 : ∀ s, (c.opts.antiAliasing.map fun d => Setting.antiAliasing (some d)) = some s → s.Typed ∧ s.Given :=
        of_map (P := fun s => s.Typed ∧ s.Given) (fun _ _ => ⟨trivial, (nomatch ·)⟩)
      obtain ⟨t3, h3⟩ := opt_works hk hm q3 l2
      have l3 := opt_live (fun s hs => (q3 s hs).1) l2 h3
      show ∃ x, (t2.opt mk ink _ >>= _) = .ok x
      rw [h3]
      show ∃ x, a.ordered mk ink c.forkOk c.opts t3 = .ok x
      unfold App.ordered
      cases c.opts.subpixelOrder.filter badOrder with
      | some s => exact ⟨_, rfl⟩
      | none =>
        have q4 : ∀ s, (c.opts.subpixelOrder.map fun d => Setting.subpixelOrder (some d)) = some s → s.Typed ∧ s.Given :=
          of_map (P := fun s => s.Typed ∧ s.Given) (fun _ _ => ⟨trivial, (nomatch ·)⟩)
        obtain ⟨t4, h4⟩ := opt_works hk hm q4 l3
        have l4 := opt_live (fun s hs => (q4 s hs).1) l3 h4
        have q5 := of_if (b := c.opts.showDirty) (P := fun s => s.Typed ∧ s.Given) (x := .showDirty true) ⟨trivial, trivial⟩
        obtain ⟨t5, h5⟩ := opt_works hk hm q5 l4
        have l5 := opt_live (fun s hs => (q5 s hs).1) l4 h5
        have q6 := of_if (b := c.opts.debug) (P := fun s => s.Typed ∧ s.Given) (x := .debug true) ⟨trivial, trivial⟩
        obtain ⟨t6, h6⟩ := opt_works hk hm q6 l5
        have l6 := opt_live (fun s hs => (q6 s hs).1) l5 h6
        show ∃ x, (t3.opt mk ink _ >>= _) = .ok x
        rw [h4]
        show ∃ x, (t4.opt mk ink _ >>= _) = .ok x
        rw [h5]
        show ∃ x, (t5.opt mk ink _ >>= _) = .ok x
        rw [h6]
        show ∃ x, (a.run mk ink c.forkOk t6 >>= _) = .ok x
        have : ∃ a', a.run mk ink c.forkOk t6 = .ok a' := by
          unfold App.run
          rw [hf]
          have : ∃ u, t6.step mk ink .fork = .ok u := by
            have fn : t6.font ≠ none := by
              refine opt_font (fun s hs => (q6 s hs).2) (opt_font (fun s hs => (q5 s hs).2) (opt_font (fun s hs => (q4 s hs).2)
                (opt_font (fun s hs => (q3 s hs).2) (opt_font (fun s hs => (q2 s hs).2) (opt_font (fun s hs => (q1 s hs).2)
                ?_ h1) h2) h3) h4) h5) h6
              have := (C111_initial ht).1
              injection this with this
              rw [this]
              exact (nomatch ·)
            cases e : t6.font with
            | none => exact absurd e fn
            | some f =>
              have hmd : ∃ fs, t6.made mk = some fs := by
                unfold Term.made
                rw [e]
                exact Option.isSome_iff_exists.mp (hm f t6.aa t6.order)
              obtain ⟨fs, hfs⟩ := hmd
              show ∃ u, Term.via t6 (t6.w.fork (t6.made mk)) = .ok u
              rw [hfs]
              unfold Wid.fork
              split
              · exact ⟨_, rfl⟩
              · split
                · exact ⟨_, rfl⟩
                · exact ⟨_, rfl⟩
          obtain ⟨u, hu⟩ := this
          rw [hu]
          exact ⟨_, rfl⟩
        obtain ⟨a', e⟩ := this
        rw [e]
        exact ⟨_, rfl⟩

/-- **C115**: in every window that is open at any time, the widget works as described by the other properties, and the program was
started in environment and directory of the application. -/
theorem C115_windows_partial {d : Option App} (h : Desk mk ink d) {a : App} (ha : d = some a) :
    a.windows ≠ [] ∧ ∀ w ∈ a.windows, w.term.Live mk ink ∧ w.prog.For a.env a.dir := by
  obtain ⟨es, hv, h⟩ := h
  have key : ∀ (es : List DeskEv) (d0 d : Option App), (∀ e ∈ es, DeskEv.Valid e) → deskAll mk ink es d0 = .ok d →
      (∀ a, d0 = some a → a.windows ≠ [] ∧ ∀ w ∈ a.windows, w.term.Live mk ink ∧ w.prog.For a.env a.dir) →
      ∀ a, d = some a → a.windows ≠ [] ∧ ∀ w ∈ a.windows, w.term.Live mk ink ∧ w.prog.For a.env a.dir := by
    have settled : ∀ {b : App}, (∀ w ∈ b.windows, w.term.Live mk ink ∧ w.prog.For b.env b.dir) → ∀ a, b.settle = some a →
        a.windows ≠ [] ∧ ∀ w ∈ a.windows, w.term.Live mk ink ∧ w.prog.For a.env a.dir := by
      intro b hb a ha
      unfold App.settle at ha
      split at ha
      · cases ha
      · rename_i hn
        injection ha with ha
        subst ha
        exact ⟨fun e => hn (List.isEmpty_iff.mpr e), hb⟩
    intro es
    induction es with
    | nil =>
      intro d0 d _ h h0 a ha
      injection h with h
      exact h0 a (h ▸ ha)
    | cons e es ih =>
      intro d0 d hv h h0
      obtain ⟨d1, h1, h⟩ := bind_ok h
      refine ih d1 d (fun e he => hv e (List.mem_cons_of_mem _ he)) h ?_
      have hve := hv e List.mem_cons_self
      cases e with
      | cmd c =>
        obtain ⟨⟨r, d2⟩, h2, h1⟩ := bind_ok h1
        injection h1 with h1
        subst h1
        unfold Launch.invoke at h2
        split at h2
        · injection h2 with h2
          injection h2 with _ h2
          subst h2
          exact h0
        · obtain ⟨t, ht, h2⟩ := bind_ok h2
          obtain ⟨⟨n, m, b⟩, hx, h2⟩ := bind_ok h2
          injection h2 with h2
          injection h2 with _ h2
          subst h2
          have hb : ∀ w ∈ (d0.getD { env := c.env, dir := c.dir, windows := [] }).windows, w.term.Live mk ink ∧
              w.prog.For (d0.getD { env := c.env, dir := c.dir, windows := [] }).env
                (d0.getD { env := c.env, dir := c.dir, windows := [] }).dir := by
            cases d0 with
            | none => intro w hw; cases hw
            | some a => exact (h0 a rfl).2
          rcases commandLine_ok hve.1 (init_live hve ht) hx with ⟨_, _, _, _, u, hu, _, _, rfl⟩ | ⟨_, _, rfl, _⟩
          · refine settled ?_
            intro w hw
            rcases List.mem_append.mp hw with hw | hw
            · exact hb w hw
            · cases List.mem_singleton.mp hw
              exact ⟨hu, prog_for _⟩
          · exact settled hb
      | win i e =>
        cases d0 with
        | none => injection h1 with h1; subst h1; intro a ha; cases ha
        | some b =>
          dsimp only [deskStep] at h1
          split at h1
          · injection h1 with h1
            subst h1
            exact h0
          · rename_i w hw
            obtain ⟨t, ht, h1⟩ := bind_ok h1
            injection h1 with h1
            subst h1
            rintro a ha
            injection ha with ha
            subst ha
            obtain ⟨hn, hb⟩ := h0 b rfl
            have hwm := hb w (List.mem_of_getElem? hw)
            refine ⟨?_, ?_⟩
            · intro e
              have := congrArg List.length e
              dsimp only at this
              rw [List.length_set] at this
              exact hn (List.eq_nil_of_length_eq_zero this)
            · intro x hx
              rcases List.mem_or_eq_of_mem_set hx with hx | rfl
              · exact hb x hx
              · exact ⟨Term.Live.step hwm.1 hve ht, hwm.2⟩
      | stopped i =>
        cases d0 with
        | none => injection h1 with h1; subst h1; intro a ha; cases ha
        | some b =>
          injection h1 with h1
          subst h1
          exact settled (fun w hw => (h0 b rfl).2 w (List.mem_of_mem_eraseIdx hw))
  exact key es none d hv h (fun a ha => (nomatch ha)) a ha

/-- **C115**: what happens in one window leaves all the others, and every program, as they are. -/
theorem C115_own {a : App} {d' : Option App} {i : Nat} {e : Term.Ev} {w : Win} (hw : a.windows[i]? = some w)
    (h : deskStep mk ink (some a) (.win i e) = .ok d') : ∃ t, w.term.step mk ink e = .ok t ∧
      (open_ d')[i]? = some { w with term := t } ∧ (open_ d').length = a.windows.length ∧
      ∀ j, j ≠ i → (open_ d')[j]? = a.windows[j]? := by
  dsimp only [deskStep] at h
  rw [hw] at h
  obtain ⟨t, ht, h⟩ := bind_ok h
  injection h with h
  subst h
  refine ⟨t, ht, ?_, List.length_set .., ?_⟩
  · show (a.windows.set i { w with term := t })[i]? = _
    rw [List.getElem?_set_self (List.getElem?_eq_some_iff.mp hw).1]
  · intro j hj
    exact List.getElem?_set_ne (Ne.symm hj)

/-- **C115**: when a program ends its window closes, and only this one; the application ends with the last window. -/
theorem C115_stopped {a : App} {d' : Option App} {i : Nat} (h : deskStep mk ink (some a) (.stopped i) = .ok d') :
    open_ d' = a.windows.take i ++ a.windows.drop (i + 1) ∧ (d' = none ↔ open_ d' = []) := by
  injection h with h
  subst h
  rw [open_settle]
  refine ⟨List.eraseIdx_eq_take_drop_succ .., ?_⟩
  unfold App.settle
  cases a.windows.eraseIdx i with
  | nil => exact ⟨fun _ => rfl, fun _ => rfl⟩
  | cons x xs => exact ⟨fun h => (nomatch h), fun h => (nomatch h)⟩

/-- **C115**: if no pty can be opened for the new window, the whole application ends, with all its windows. -/
theorem C115_false_fork {c : Launch} (hc : c.Valid) (hv : c.opts.version = false) (ha : c.opts.Accepted) (hf : c.forkOk = false)
    (d : Option App) : ∃ e, c.invoke mk ink d = .error e := by
  cases e : c.invoke mk ink d with
  | error x => exact ⟨x, rfl⟩
  | ok x =>
    unfold Launch.invoke at e
    rw [hv] at e
    obtain ⟨t, ht, e⟩ := bind_ok (x := Term.init mk ink c.screen c.sg c.mem) e
    obtain ⟨⟨n, m, a'⟩, hx, e⟩ := bind_ok e
    rcases commandLine_ok hc.1 (init_live hc ht) hx with ⟨_, _, _, hy, _⟩ | ⟨hn, _⟩
    · rw [hf] at hy
      cases hy
    · exact absurd ha hn

end

theorem first : ∃ s t0, Screen.new (fun _ => true) = .ok (some s) ∧ Term.init fonts noInk s true (fun _ => true) = .ok t0 := by
  have h : tholds [] (fun _ => true) = true := by decide +kernel
  unfold tholds at h
  split at h
  · rename_i t ht
    obtain ⟨t0, h0, h1⟩ := bind_ok ht
    unfold tstart at h0
    split at h0
    · rename_i s hs
      exact ⟨s, t0, hs, h0⟩
    · cases h0
  · cases h

/-- An environment with a shell. -/
def shell (s : String) : Env := fun k => if k = "SHELL" then some s else if k = "LANG" then some "C.UTF-8" else none

/-- A command in this environment. -/
def launch (s : Screen) (sh : String) (o : Options) (forkOk : Bool := true) : Launch :=
  { env := shell sh, dir := "/home/" ++ sh, opts := o, screen := s, sg := true, mem := fun _ => true, forkOk := forkOk }

def opts1 : Options := { font := some "Small", sbSize := some (-5), antiAliasing := some "gray", showDirty := true }

theorem opts1_accepted : opts1.Accepted := by
  refine ⟨fun s hs => ?_, fun s hs => (nomatch hs)⟩
  injection hs with hs
  exact Or.inr (Or.inl hs.symm)

theorem launch_valid {s : Screen} (hs : Screen.new (fun _ => true) = .ok (some s)) {sh : String} {o : Options} {b : Bool} (ho : o.Fits) :
    (launch s sh o b).Valid := ⟨ho, _, hs⟩

theorem opts1_fits : opts1.Fits := by
  intro n hn
  injection hn with hn
  omega

/-- A first command: a window with the scrollback off, the small font and the shell of the user. -/
theorem opened1 : ∃ s t0 d w, Screen.new (fun _ => true) = .ok (some s) ∧ Term.init fonts noInk s true (fun _ => true) = .ok t0 ∧
    Desk fonts noInk d ∧ (∃ a, d = some a ∧ a.env = shell "/bin/bash") ∧ open_ d = [w] ∧ w.term.get .sbSize = .sbSize 0 ∧
    w.term.get .font = .font (some "Small") ∧ w.term.get .subpixelOrder = .subpixelOrder (some "default") ∧ w.prog.path = "/bin/bash" := by
  obtain ⟨s, t0, hs, h0⟩ := first
  have hc := launch_valid (sh := "/bin/bash") (b := true) hs opts1_fits
  obtain ⟨r, d, e⟩ := C115_works_partial (mk := fonts) (ink := noInk) fonts_fresh fonts_some hc rfl h0 none
  obtain ⟨_, w, h1, _, _, h2, _, h3, _, a, h4, h5, _⟩ := C115_opened fonts_fresh hc rfl opts1_accepted e
  refine ⟨s, t0, d, w, hs, h0, ⟨[.cmd (launch s "/bin/bash" opts1)], ?_, ?_⟩, ⟨a, h4, (h5 rfl).1⟩, h1, h2 .sbSize, h2 .font,
    h2 .subpixelOrder, (h3 rfl).path⟩
  · intro x hx
    cases List.mem_singleton.mp hx
    exact hc
  · show ((launch s "/bin/bash" opts1).invoke fonts noInk none >>= _) >>= _ = _
    rw [e]
    rfl

/-- A refused command leaves the window that is open alone. -/
example : ∃ s d r d', Desk fonts noInk d ∧ (open_ d).length = 1 ∧
    (launch s "/bin/zsh" { antiAliasing := some "Gray", subpixelOrder := some "x" }).invoke fonts noInk d = .ok (r, d') ∧
    r.code = 1 ∧ open_ d' = open_ d := by
  obtain ⟨s, t0, d, w, hs, h0, h1, _, h2, _⟩ := opened1
  have hc := launch_valid (sh := "/bin/zsh") (o := { antiAliasing := some "Gray", subpixelOrder := some "x" }) (b := true) hs
    (fun n hn => (nomatch hn))
  obtain ⟨r, d', e⟩ := C115_works_partial (mk := fonts) (ink := noInk) fonts_fresh fonts_some hc rfl h0 d
  obtain ⟨k1, _, k2, _⟩ := C115_refused hc rfl (by
    intro ha
    exact absurd (ha.1 "Gray" rfl) (by decide)) e
  exact ⟨s, d, r, d', h1, by rw [h2]; rfl, e, k1, k2⟩

/-- The last window closes, and the application ends. -/
example : ∃ a, Desk fonts noInk (some a) ∧ a.windows.length = 1 ∧ deskStep fonts noInk (some a) (.stopped 0) = .ok none := by
  obtain ⟨s, t0, d, w, hs, h0, h1, ⟨a, rfl, _⟩, h2, _⟩ := opened1
  have h2 : a.windows = [w] := h2
  refine ⟨a, h1, by rw [h2]; rfl, ?_⟩
  show Except.ok (App.settle { a with windows := a.windows.eraseIdx 0 }) = _
  rw [h2]
  rfl

/-- An event in a window. -/
example : ∃ a d', Desk fonts noInk (some a) ∧ deskStep fonts noInk (some a) (.win 0 (.set (.debug true))) = .ok d' ∧
    ∃ w, (open_ d')[0]? = some w ∧ w.term.get .debug = .debug true := by
  obtain ⟨s, t0, d, w, hs, h0, h1, ⟨a, rfl, _⟩, h2, _⟩ := opened1
  have h2 : a.windows[0]? = some w := by
    rw [show a.windows = [w] from h2]
    rfl
  have e : ∃ d', deskStep fonts noInk (some a) (.win 0 (.set (.debug true))) = .ok d' := by
    dsimp only [deskStep]
    rw [h2]
    exact ⟨_, rfl⟩
  obtain ⟨d', e⟩ := e
  obtain ⟨t, ht, k, _⟩ := C115_own h2 e
  exact ⟨a, d', h1, e, _, k, C111_set_partial (mk := fonts) (ink := noInk) (s := .debug true) trivial ht⟩

/-- **C115**: the claim is false. The shell of a second command gets the environment of the first. -/
theorem C115_false : ¬ C115_claim := by
  intro h
  obtain ⟨s, t0, d, w1, hs, h0, h1, ⟨a, rfl, h2⟩, _⟩ := opened1
  have hc := launch_valid (sh := "/bin/zsh") (b := true) hs opts1_fits
  obtain ⟨r, d', w, e, k1, _, k2⟩ := h fonts noInk (launch s "/bin/zsh" opts1) (some a) t0 fonts_fresh fonts_some h1 hc rfl
    opts1_accepted h0
  obtain ⟨_, w', k3, _, _, _, _, _, k4, _⟩ := C115_opened fonts_fresh hc rfl opts1_accepted e
  have : w = w' := by
    rw [k1] at k3
    have := List.append_cancel_left k3
    injection this
  subst this
  have p1 := k2.path
  have p2 := (k4 a rfl).path
  rw [h2] at p2
  rw [p1] at p2
  have p2 : "/bin/zsh" = "/bin/bash" := p2
  exact absurd p2 (by decide)

/-- A failure while one window is open. -/
example : ∃ s d e, Desk fonts noInk d ∧ (open_ d).length = 1 ∧ (launch s "/bin/zsh" {} false).invoke fonts noInk d = .error e := by
  obtain ⟨s, t0, d, w1, hs, _, h1, _, h2, _⟩ := opened1
  obtain ⟨e, he⟩ := C115_false_fork (mk := fonts) (ink := noInk) (launch_valid (sh := "/bin/zsh") (o := {}) (b := false) hs
    (fun n hn => (nomatch hn))) rfl ⟨fun s hs => (nomatch hs), fun s hs => (nomatch hs)⟩ rfl d
  exact ⟨s, d, e, h1, by rw [h2]; rfl, he⟩

end Verif.Props.Gtk
