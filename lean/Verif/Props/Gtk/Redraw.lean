import Verif.Props.Gtk.Keys

/-!
C99: the window is redrawn when there is something new to show.
-/

namespace Verif.Props.Gtk
open Verif Verif.Gtk Verif.Gtk.Wid

/-- A redraw is requested, or all that a redraw depends on is the same. -/
def Due (w w' : Wid) : Prop :=
  w'.queued = true ∨ (w'.vte.con = w.vte.con ∧ w'.faces = w.faces ∧ w'.rend = w.rend ∧ w'.showDirty = w.showDirty ∧ w'.queued = w.queued)

theorem Due.refl (w : Wid) : Due w w := Or.inr ⟨rfl, rfl, rfl, rfl, rfl⟩

theorem Due.trans {a b c : Wid} (h : Due a b) (h' : Due b c) : Due a c := by
  rcases h' with h' | ⟨c1, c2, c3, c4, c5⟩
  · exact Or.inl h'
  · rcases h with h | ⟨b1, b2, b3, b4, b5⟩
    · exact Or.inl (c5.trans h)
    · exact Or.inr ⟨c1.trans b1, c2.trans b2, c3.trans b3, c4.trans b4, c5.trans b5⟩

theorem selectAt_due {w w' : Wid} {fs : Faces} {f : Nat → Nat → Screen.Call} {x y : Int} (h : w.selectAt fs f x y = .ok w') :
    w'.queued = true := by
  unfold selectAt at h
  obtain ⟨cx, _, h⟩ := bind_ok h
  obtain ⟨cy, _, h⟩ := bind_ok h
  obtain ⟨v, hv', h⟩ := bind_ok h
  injection h with h
  subst h
  rfl

theorem readLoop_due : ∀ {ks : List KRes} {w w' : Wid}, w.readLoop ks = .ok w' → Due w w' := by
  intro ks
  induction ks with
  | nil =>
    intro w w' h
    injection h with h
    subst h
    exact Due.refl _
  | cons k ks ih =>
    intro w w' h
    unfold readLoop at h
    split at h
    · split at h
      · injection h with h
        subst h
        exact Due.refl _
      · obtain ⟨w1, h1, h⟩ := bind_ok h
        refine Due.trans (Or.inl ?_) (ih h)
        unfold readFn at h1
        obtain ⟨v, _, h1⟩ := bind_ok h1
        obtain ⟨w1, _, h1⟩ := bind_ok h1
        injection h1 with h1
        subst h1
        rfl
    · injection h with h
      subst h
      exact Due.refl _

theorem dispatch_due {w w' : Wid} {r1 r2 w1 w2 : KRes} (h : w.dispatch r1 r2 w1 w2 = .ok w') : Due w w' := by
  obtain ⟨wm, h1, h⟩ := bind_ok h
  refine (readLoop_due h1).trans ?_
  unfold flush at h
  split at h
  · injection h with h
    subst h
    exact Due.refl _
  · obtain ⟨r, er, h⟩ := bind_ok h
    injection h with h
    subst h
    exact Or.inr ⟨rfl, rfl, rfl, rfl, rfl⟩

theorem setFont_due {w w' : Wid} {new : Option Faces} (h : w.setFont new = .ok w') : w'.queued = true := by
  obtain ⟨fs, _, rfl⟩ := setFont_ok h
  rfl

theorem step_due {ink : Ink} {w w' : Wid} (hr : Vte.Reachable w.vte) {e : Wid.Ev} (hd : e ≠ .draw) (hs : ∀ n, e ≠ .sbSize n)
    (h : w.step ink e = .ok w') : Due w w' := by
  have same : ∀ {w' : Wid}, (Except.ok w : W Wid) = .ok w' → Due w w' := by
    intro w' h
    injection h with h
    subst h
    exact Due.refl _
  cases e with
  | draw => exact absurd rfl hd
  | sbSize n => exact absurd rfl (hs n)
  | configure x y m =>
    obtain ⟨a, _, h⟩ := bind_ok h
    obtain ⟨b, _, h⟩ := bind_ok h
    injection h with h
    subst h
    exact Or.inl rfl
  | font new =>
    change (if w.faces.isSome then w.setFont new else .ok w) = _ at h
    split at h
    · exact Or.inl (setFont_due h)
    · exact same h
  | showDirty on =>
    injection h with h
    subst h
    exact Or.inl rfl
  | key s t k u =>
    change w.key s t k u = _ at h
    unfold key at h
    split at h
    · obtain ⟨v, hv, h⟩ := bind_ok h
      injection h with h
      subst h
      exact Or.inl rfl
    · obtain ⟨r, er, h⟩ := bind_ok h
      unfold keyed at h
      obtain ⟨w1, e1, h⟩ := bind_ok h
      split at h
      · obtain ⟨v, hv, h⟩ := bind_ok h
        injection h with h
        subst h
        exact Or.inl rfl
      · rename_i hf
        injection h with h
        subst h
        obtain ⟨v, b⟩ := r
        rcases Vte.C55_one hr (lib_ok er) with ⟨hb, _⟩ | ⟨_, hb⟩
        · exact absurd hb hf
        · subst hb
          have e1 : w.emu w.vte = .ok w1 := e1
          unfold emu at e1
          rw [List.drop_length] at e1
          exact same e1
  | button k b t x y =>
    change w.button k b t x y = _ at h
    unfold button at h
    split at h
    · exact same h
    · split at h
      · exact same h
      · split at h
        · injection h with h
          subst h
          exact Or.inr ⟨rfl, rfl, rfl, rfl, rfl⟩
        · exact Or.inl (selectAt_due h)
        · exact Or.inl (selectAt_due h)
        · unfold released at h
          split at h
          · obtain ⟨v, hv, h⟩ := bind_ok h
            injection h with h
            subst h
            exact Or.inl rfl
          · injection h with h
            subst h
            exact Or.inr ⟨rfl, rfl, rfl, rfl, rfl⟩
  | motion x y =>
    change w.motion x y = _ at h
    unfold motion at h
    split at h
    · exact same h
    · split at h
      · exact same h
      · split at h
        · split at h
          · exact Or.inl (selectAt_due h)
          · exact same h
        · exact Or.inl (selectAt_due h)
  | fork new =>
    change w.fork new = _ at h
    unfold fork at h
    split at h
    · exact same h
    · obtain ⟨w1, h1, h⟩ := bind_ok h
      injection h with h
      subst h
      split at h1
      · injection h1 with h1
        subst h1
        exact Or.inr ⟨rfl, rfl, rfl, rfl, rfl⟩
      · have := setFont_due h1
        exact Or.inl this
  | child d =>
    injection h with h
    subst h
    exact Or.inr ⟨rfl, rfl, rfl, rfl, rfl⟩
  | exit =>
    injection h with h
    subst h
    exact Or.inr ⟨rfl, rfl, rfl, rfl, rfl⟩
  | dispatch r1 r2 w1 w2 => exact dispatch_due h
  | idle r1 r2 w1 w2 => exact Due.trans (b := { w with idle := false }) (Or.inr ⟨rfl, rfl, rfl, rfl, rfl⟩) (dispatch_due h)

/-- **C99** (partial): after any events since the last redraw, other than a change of the size of the scrollback, either a redraw is
requested, or the screen, the fonts, the shadow buffer and the debugging mode, i.e. all that a redraw depends on, are the same. What
is missing: a change of the size of the scrollback does not request a redraw (`C99_false`). -/
theorem C99_partial {ink : Ink} {w : Wid} (h : Live ink w) {es : List Wid.Ev} (hv : ∀ e ∈ es, e.Valid) (hd : Wid.Ev.draw ∉ es)
    (hs : ∀ n, Wid.Ev.sbSize n ∉ es) {w' : Wid} (e : Wid.runAll ink es w = .ok w') :
    w'.queued = true ∨ (w'.vte.con = w.vte.con ∧ w'.faces = w.faces ∧ w'.rend = w.rend ∧ w'.showDirty = w.showDirty) := by
  have key : ∀ {es : List Wid.Ev} {w w' : Wid}, Alive w → (∀ e ∈ es, e.Valid) → Wid.Ev.draw ∉ es → (∀ n, Wid.Ev.sbSize n ∉ es) →
      Wid.runAll ink es w = .ok w' → Due w w' := by
    intro es
    induction es with
    | nil =>
      intro w w' _ _ _ _ e
      injection e with e
      subst e
      exact Due.refl _
    | cons a es ih =>
      intro w w' ha hv hd hs e
      obtain ⟨w1, e1, e⟩ := bind_ok e
      exact (step_due ha.sane.vte (fun h => hd (h ▸ List.mem_cons_self)) (fun n h => hs n (h ▸ List.mem_cons_self)) e1).trans
        (ih (ha.step (hv a List.mem_cons_self) e1) (fun b h => hv b (List.mem_cons_of_mem _ h)) (fun h => hd (List.mem_cons_of_mem _ h))
          (fun n h => hs n (List.mem_cons_of_mem _ h)) e)
  rcases key h.alive hv hd hs e with h | ⟨a, b, c, d, _⟩
  · exact Or.inl h
  · exact Or.inr ⟨a, b, c, d⟩

/-- Both cases: output is not yet read, so nothing is new; after it is read, a redraw is requested. -/
example : wholds (paged ++ [.draw, .child [101]]) (fun w => !w.queued) = true ∧
    wholds (paged ++ [.draw, .child [101], .dispatch (.some 0) .again .again .again]) (fun w => w.queued) = true := by
  constructor <;> decide +kernel

/-- The claim: if no redraw is requested, the window still shows the contents of the screen. -/
def C99_claim : Prop := ∀ (ink : Ink) (w w' : Wid) (e : Wid.Ev), Live ink w → e.Valid → e ≠ .draw → w.step ink e = .ok w' → w'.queued = false →
  ∀ i j, w'.vte.con.view.shown i j = w.vte.con.view.shown i j

/-- **C99** is false: the view is moved up by a line and drawn, and then the property `sb-size` is set to 0. The lines that were
shown do not exist any more, but no redraw is requested. -/
theorem C99_false : ¬ C99_claim := by
  intro hc
  have hv : ∀ e ∈ paged ++ [.key 1#32 (some (0xff52, 0#32)) 0xff52 0, .draw], e.Valid := by
    intro e he
    rcases List.mem_append.mp he with h | h
    · exact paged_valid e h
    · simp only [List.mem_cons, List.not_mem_nil, or_false] at h
      rcases h with rfl | rfl
      · exact ⟨by decide, by decide⟩
      · trivial
  obtain ⟨w, h1, h2⟩ := exists_of_wholds hv (P := fun w => decide ((w.vte.con.view.shown 1 0).ch = 99) &&
    (match w.step noInk (.sbSize 0) with
     | .ok w' => !w'.queued && decide ((w'.vte.con.view.shown 1 0).ch = 100)
     | .error _ => false)) (by decide +kernel)
  rw [Bool.and_eq_true, decide_eq_true_eq] at h2
  obtain ⟨h2, h3⟩ := h2
  split at h3
  · rename_i w' hw
    rw [Bool.and_eq_true, decide_eq_true_eq, Bool.not_eq_true'] at h3
    have := hc noInk w w' (.sbSize 0) h1 (by show 0 < 4294967296; decide) nofun hw h3.1 1 0
    rw [this, h2] at h3
    exact absurd h3.2 (by decide)
  · cases h3

end Verif.Props.Gtk
