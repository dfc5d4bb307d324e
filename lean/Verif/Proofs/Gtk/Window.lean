import Verif.Proofs.Gtk.Live
import Verif.Props.Gtk.Picture
import Verif.Proofs.Vte.Driven
import Verif.Spec.Window

/-!
# What the buffer of the window shows at any time
-/

namespace Verif.Gtk
open Verif Verif.Vte Verif.Props.Gtk

namespace Wid

/-! ### Faces and renderer -/

/-- Faces and renderer are the same. -/
structure Held (w w' : Wid) : Prop where
  faces : w'.faces = w.faces
  rend : w'.rend = w.rend

theorem Held.refl (w : Wid) : Held w w := ⟨rfl, rfl⟩

theorem Held.trans {a b c : Wid} (h : Held a b) (h' : Held b c) : Held a c :=
  ⟨h'.faces.trans h.faces, h'.rend.trans h.rend⟩

theorem emu_held {w w' : Wid} {v : Vte} (e : w.emu v = .ok w') : Held w w' := by
  unfold emu at e
  obtain ⟨h1, _⟩ := callbacks_ok e
  constructor <;> rw [h1]

theorem readFn_held {w w' : Wid} {d : List UInt8} (h : w.readFn d = .ok w') : Held w w' := by
  unfold readFn at h
  obtain ⟨v, _, h⟩ := bind_ok h
  obtain ⟨w1, h1, h⟩ := bind_ok h
  injection h with h
  subst h
  exact (emu_held h1).trans ⟨rfl, rfl⟩

theorem readLoop_held : ∀ {ks : List KRes} {w w' : Wid}, w.readLoop ks = .ok w' → Held w w' := by
  intro ks
  induction ks with
  | nil =>
    intro w w' h
    injection h with h
    subst h
    exact Held.refl _
  | cons k ks ih =>
    intro w w' h
    unfold readLoop at h
    split at h
    · rename_i t n ht
      split at h
      · injection h with h
        subst h
        exact Held.refl _
      · obtain ⟨w1, h1, h⟩ := bind_ok h
        have k0 : Held w { w with pty := some { t with io := { t.io with
            inq := t.io.inq.drop (min (n + 1) 16383), got := t.io.got ++ t.io.inq.take (min (n + 1) 16383) } } } := ⟨rfl, rfl⟩
        exact (k0.trans (readFn_held h1)).trans (ih h)
    · injection h with h
      subst h
      exact Held.refl _

theorem dispatch_held {w w' : Wid} {r1 r2 w1 w2 : KRes} (h : w.dispatch r1 r2 w1 w2 = .ok w') : Held w w' := by
  obtain ⟨wm, h1, h⟩ := bind_ok h
  refine (readLoop_held h1).trans ?_
  unfold flush at h
  split at h
  · injection h with h
    subst h
    exact Held.refl _
  · rename_i t ht
    obtain ⟨r, er, h⟩ := bind_ok h
    injection h with h
    subst h
    exact ⟨rfl, rfl⟩

theorem selectAt_held {w w' : Wid} {fs : Faces} {f : Nat → Nat → Screen.Call} {x y : Int} (h : w.selectAt fs f x y = .ok w') :
    Held w w' := by
  unfold selectAt at h
  obtain ⟨cx, _, h⟩ := bind_ok h
  obtain ⟨cy, _, h⟩ := bind_ok h
  obtain ⟨v, hv', h⟩ := bind_ok h
  injection h with h
  subst h
  exact ⟨rfl, rfl⟩

theorem step_held {ink : Ink} {e : Ev} {w w' : Wid} (hf : w.faces.isSome = true) (h1 : ∀ x y m, e ≠ .configure x y m)
    (h2 : ∀ n, e ≠ .font n) (h3 : e ≠ .draw) (h : w.step ink e = .ok w') : Held w w' := by
  cases e with
  | configure x y m => exact absurd rfl (h1 x y m)
  | font new => exact absurd rfl (h2 new)
  | draw => exact absurd rfl h3
  | fork new =>
    change w.fork new = _ at h
    unfold Wid.fork at h
    split at h
    · injection h with h
      subst h
      exact Held.refl _
    · obtain ⟨w1, h1, h⟩ := bind_ok h
      injection h with h
      subst h
      injection h1 with h1
      subst h1
      exact ⟨rfl, rfl⟩
  | exit =>
    injection h with h
    subst h
    exact ⟨rfl, rfl⟩
  | sbSize n =>
    obtain ⟨v, hv', h⟩ := bind_ok h
    injection h with h
    subst h
    exact ⟨rfl, rfl⟩
  | showDirty on =>
    injection h with h
    subst h
    exact ⟨rfl, rfl⟩
  | key s t k u =>
    change w.key s t k u = _ at h
    unfold key at h
    split at h
    · obtain ⟨v, hv, h⟩ := bind_ok h
      injection h with h
      subst h
      exact ⟨rfl, rfl⟩
    · obtain ⟨r, er, h⟩ := bind_ok h
      unfold keyed at h
      obtain ⟨w1, e1, h⟩ := bind_ok h
      refine (emu_held e1).trans ?_
      split at h
      · obtain ⟨v, hv, h⟩ := bind_ok h
        injection h with h
        subst h
        exact ⟨rfl, rfl⟩
      · injection h with h
        subst h
        exact Held.refl _
  | button k b t x y =>
    change w.button k b t x y = _ at h
    unfold button at h
    split at h
    · injection h with h
      subst h
      exact Held.refl _
    · split at h
      · injection h with h
        subst h
        exact Held.refl _
      · split at h
        · injection h with h
          subst h
          exact ⟨rfl, rfl⟩
        · exact Held.trans (b := { w with sel := 2 }) ⟨rfl, rfl⟩ (selectAt_held h)
        · exact Held.trans (b := { w with sel := 2 }) ⟨rfl, rfl⟩ (selectAt_held h)
        · unfold released at h
          split at h
          · obtain ⟨v, hv, h⟩ := bind_ok h
            injection h with h
            subst h
            exact ⟨rfl, rfl⟩
          · injection h with h
            subst h
            exact ⟨rfl, rfl⟩
  | motion x y =>
    change w.motion x y = _ at h
    unfold motion at h
    split at h
    · injection h with h
      subst h
      exact Held.refl _
    · split at h
      · injection h with h
        subst h
        exact Held.refl _
      · split at h
        · split at h
          · exact Held.trans (b := { w with sel := 2 }) ⟨rfl, rfl⟩ (selectAt_held h)
          · injection h with h
            subst h
            exact Held.refl _
        · exact selectAt_held h
  | child d =>
    injection h with h
    subst h
    exact ⟨rfl, rfl⟩
  | dispatch r1 r2 w1 w2 => exact dispatch_held h
  | idle r1 r2 w1 w2 =>
    exact Held.trans (b := { w with idle := false }) ⟨rfl, rfl⟩ (dispatch_held h)

/-! ### The faces of every widget -/

/-- The faces have the glyphs that the fonts have. -/
def Faced (ink : Ink) (w : Wid) : Prop := ∀ fs, w.faces = some fs → fs.Ok ink

theorem drawn_ok {w w' : Wid} {ink : Ink} (h : w.draw ink = .ok w') {fs : Faces} (hf : w.faces = some fs) :
    ∃ d p, w.vte.con.draw = .ok d ∧ rendererDraw ink w.showDirty fs w.rend d.1 d.2.1 = .ok p ∧
      w' = { w with vte := { w.vte with con := d.2.2 }, faces := some p.1, rend := p.2, queued := false } := by
  unfold draw at h
  rw [hf] at h
  dsimp only at h
  obtain ⟨d, ed, h⟩ := bind_ok h
  obtain ⟨p, ep, h⟩ := bind_ok h
  injection h with h
  exact ⟨d, p, lib_ok ed, own_ok ep, h.symm⟩

theorem step_faced {ink : Ink} {e : Ev} {w w' : Wid} (ha : Alive w) (hf : Faced ink w) (hv : e.Valid)
    (h : w.step ink e = .ok w') : Faced ink w' := by
  by_cases h1 : ∃ x y m, e = .configure x y m
  · obtain ⟨x, y, m, rfl⟩ := h1
    obtain ⟨r, s, _, _, rfl⟩ := configure_ok h
    intro fs e
    refine hf fs ?_
    rw [← e]
    rfl
  by_cases h2 : ∃ n, e = .font n
  · obtain ⟨n, rfl⟩ := h2
    change (if w.faces.isSome then w.setFont n else .ok w) = _ at h
    split at h
    · obtain ⟨fs, rfl, rfl⟩ := setFont_ok h
      intro fs' e
      injection e with e
      subst e
      exact freshFaces_ok (hv _ rfl)
    · injection h with h
      subst h
      exact hf
  by_cases h3 : e = .draw
  · subst h3
    cases hfs : w.faces with
    | none =>
      change w.draw ink = _ at h
      unfold draw at h
      rw [hfs] at h
      injection h with h
      subst h
      exact fun _ e => (nomatch e)
    | some fs =>
      obtain ⟨d, p, ed, ep, rfl⟩ := drawn_ok h hfs
      intro fs' e
      injection e with e
      subst e
      unfold rendererDraw at ep
      obtain ⟨q, e1, ep⟩ := bind_ok ep
      injection ep with ep
      subst ep
      exact drawCells_faces (fs' := q.1) (r' := q.2) d.1 (hf fs hfs)
        (draw_drawn (s' := d.2.2) (age := d.2.1) (Vte.Reachable.con ha.sane.vte) ed) e1
  cases hfs : w.faces with
  | some fs =>
    have := step_held (by rw [hfs]; rfl) (fun x y m hc => h1 ⟨x, y, m, hc⟩) (fun n hc => h2 ⟨n, hc⟩) h3 h
    intro fs' e
    rw [this.faces] at e
    exact hf fs' e
  | none =>
    by_cases h4 : ∃ n, e = .fork n ∧ w.pty = none
    · obtain ⟨n, rfl, hp⟩ := h4
      change w.fork n = _ at h
      unfold Wid.fork at h
      rw [hp, if_neg (by decide)] at h
      obtain ⟨w1, h1, h⟩ := bind_ok h
      injection h with h
      subst h
      rw [hfs, if_neg (by decide)] at h1
      obtain ⟨fs, rfl, rfl⟩ := setFont_ok h1
      intro fs' e
      injection e with e
      subst e
      exact freshFaces_ok (hv _ rfl)
    · have hk : w'.cell = w.cell := by
        by_cases h5 : ∃ n, e = .fork n
        · obtain ⟨n, rfl⟩ := h5
          change w.fork n = _ at h
          unfold Wid.fork at h
          rw [if_pos (by
            cases hp : w.pty with
            | none => exact absurd ⟨n, rfl, hp⟩ h4
            | some _ => rfl)] at h
          injection h with h
          rw [h]
        by_cases h6 : e = .exit
        · subst h6
          injection h with h
          subst h
          rfl
        · refine (step_kept ha.sound ?_ h).cell
          cases e <;> first
            | rfl
            | exact absurd ⟨_, _, _, rfl⟩ h1
            | exact absurd ⟨_, rfl⟩ h2
            | exact absurd ⟨_, rfl⟩ h5
            | exact absurd rfl h6
      intro fs e
      unfold Wid.cell at hk
      rw [hfs, e] at hk
      cases hk

theorem runAll_faced {ink : Ink} : ∀ {es : List Ev} {w w' : Wid}, Alive w → Faced ink w → (∀ e ∈ es, e.Valid) →
    runAll ink es w = .ok w' → Faced ink w' := by
  intro es
  induction es with
  | nil =>
    intro w w' _ hf _ h
    injection h with h
    subst h
    exact hf
  | cons e es ih =>
    intro w w' ha hf hv h
    unfold runAll at h
    obtain ⟨w1, h1, h⟩ := bind_ok h
    exact ih (ha.step (hv e List.mem_cons_self) h1) (step_faced ha hf (hv e List.mem_cons_self) h1)
      (fun d hd => hv d (List.mem_cons_of_mem _ hd)) h

end Wid

theorem Live.faced {ink : Ink} {w : Wid} (h : Live ink w) : Wid.Faced ink w := by
  obtain ⟨al, s, sg, mem, w0, es, hs, h0, hv, hr⟩ := h
  refine Wid.runAll_faced (Wid.init_alive hs h0) ?_ hv hr
  obtain ⟨_, _, _, _, _, _, _, h4, _⟩ := Wid.init_ok h0
  intro fs e
  rw [h4] at e
  cases e

/-! ### The calls of an event -/

/-- An event that neither resizes nor draws changes the screen by calls that do neither. -/
theorem Makes.calls {e : Wid.Ev} {c : Vte.Call} {v v' : Vte} (hr : Vte.Reachable v) (hm : Makes e c) (hc : c.Valid)
    (h1 : ∀ x y m, e ≠ .configure x y m) (h2 : e ≠ .draw) (h : c.run v = .ok v') :
    ∃ cs, (∀ c ∈ cs, c.Valid ∧ c ≠ .draw ∧ ∀ x y, c ≠ .resize x y) ∧ Screen.runAll cs v.con = .ok v'.con := by
  have ofExt : ∀ {v' : Vte}, Ext Term v v' →
      ∃ cs, (∀ c ∈ cs, c.Valid ∧ c ≠ .draw ∧ ∀ x y, c ≠ .resize x y) ∧ Screen.runAll cs v.con = .ok v'.con := by
    intro v' hx
    obtain ⟨cs, hcs, er⟩ := hx.run
    refine ⟨cs, fun c hc => ⟨(hcs c hc).1, ?_, ?_⟩, er⟩
    · rintro rfl
      exact (hcs _ hc).2
    · rintro x y rfl
      exact (hcs _ hc).2
  cases c with
  | input d =>
    have := hr.all.1.input d
    rw [show v.input d = .ok v' from h] at this
    exact ofExt this.2
  | keyboard k a m u =>
    have := hr.all.1.keyboard k a m u
    obtain ⟨r, er, e2⟩ := bind_ok h
    injection e2 with e2
    subst e2
    rw [er] at this
    exact ofExt this.1.2
  | screen c =>
    obtain ⟨s, es, e2⟩ := bind_ok h
    injection e2 with e2
    subst e2
    refine ⟨[c], ?_, ?_⟩
    · intro d hd
      rw [List.mem_singleton.mp hd]
      refine ⟨hc, ?_, ?_⟩
      · rintro rfl
        cases e <;> first | exact False.elim hm | exact absurd rfl h2
      · rintro x y rfl
        cases e <;> first | exact False.elim hm | exact absurd rfl (h1 _ _ _)
    · show (do let s ← c.run v.con; Screen.runAll [] s) = _
      rw [es]
      rfl
  | mouse => cases e <;> exact False.elim hm
  | reset => cases e <;> exact False.elim hm
  | hardReset => cases e <;> exact False.elim hm
  | setPalette => cases e <;> exact False.elim hm
  | setCustomPalette => cases e <;> exact False.elim hm
  | setBsDelete => cases e <;> exact False.elim hm
  | setOscCb => cases e <;> exact False.elim hm
  | setMouseCb => cases e <;> exact False.elim hm

theorem calls_held {ink : Ink} {fs : Faces} {r : Rend} : ∀ {cs : List Screen.Call} {s s' : Screen} {b : Bool},
    SInv ink ⟨s, fs, r, b, false⟩ → (∀ c ∈ cs, c.Valid ∧ c ≠ .draw ∧ ∀ x y, c ≠ .resize x y) → Screen.runAll cs s = .ok s' →
    ∃ b', SInv ink ⟨s', fs, r, b', false⟩ := by
  intro cs
  induction cs with
  | nil =>
    intro s s' b hi _ e
    injection e with e
    subst e
    exact ⟨b, hi⟩
  | cons c cs ih =>
    intro s s' b hi hc e
    unfold Screen.runAll at e
    obtain ⟨s1, e1, e⟩ := bind_ok e
    obtain ⟨h1, h2, h3⟩ := hc c List.mem_cons_self
    exact ih (hi.call h1 h2 h3 e1) (fun d hd => hc d (List.mem_cons_of_mem _ hd)) e

theorem made_held {ink : Ink} {e : Wid.Ev} (h1 : ∀ x y m, e ≠ .configure x y m) (h2 : e ≠ .draw) {fs : Faces} {r : Rend} :
    ∀ {cs : List Vte.Call} {v v' : Vte} {b : Bool}, Vte.Reachable v → (∀ c ∈ cs, Makes e c ∧ c.Valid) →
    v.runAll cs = .ok v' → SInv ink ⟨v.con, fs, r, b, false⟩ → ∃ b', SInv ink ⟨v'.con, fs, r, b', false⟩ := by
  intro cs
  induction cs with
  | nil =>
    intro v v' b _ _ h hi
    injection h with h
    subst h
    exact ⟨b, hi⟩
  | cons c cs ih =>
    intro v v' b hr hm h hi
    unfold Vte.runAll at h
    obtain ⟨v1, e1, h⟩ := bind_ok h
    have hc := hm c List.mem_cons_self
    obtain ⟨ss, k1, k2⟩ := Makes.calls hr hc.1 hc.2 h1 h2 e1
    obtain ⟨b', hi'⟩ := calls_held hi k1 k2
    exact ih (hr.step hc.2 e1) (fun d hd => hm d (List.mem_cons_of_mem _ hd)) h hi'

/-! ### The colours of every widget -/

/-- The colours of the emulator are the built-in ones. -/
structure Hued (v : Vte) : Prop where
  palette : v.palette = paletteLegacy
  base : v.defAttr.Coloured
  black : v.defAttr.br = 0 ∧ v.defAttr.bg = 0 ∧ v.defAttr.bb = 0

theorem reset_hued {v : Vte} (h : Hued v) : R.Post v.reset Hued := by
  unfold Vte.reset
  refine R.Post.bind (P := Hued) (scr_post fun _ => ⟨h.palette, h.base, h.black⟩) (fun w hw => ?_)
  refine R.Post.bind (P := Hued) (scr_post fun _ => ⟨hw.palette, hw.base, hw.black⟩) (fun w hw => ?_)
  refine R.Post.bind R.Post.any (fun a _ => ?_)
  refine R.Post.bind (P := Hued) (scr_post fun _ => ⟨hw.palette, hw.base, hw.black⟩) (fun w hw => R.Post.ok ⟨hw.palette, hw.base, hw.black⟩)

theorem new_hued {s : Screen} {sg : Bool} {v : Vte} (e : Vte.new s sg = .ok v) : Hued v := by
  have : R.Post (Vte.new s sg) Hued := by
    unfold Vte.new
    refine R.Post.bind (P := fun d => d.Coloured ∧ d.br = 0 ∧ d.bg = 0 ∧ d.bb = 0) ?_ (fun d hd => R.Post.bind (reset_hued ⟨rfl, hd.1, hd.2⟩)
      (fun w hw => scr_post fun _ => ⟨hw.palette, hw.base, hw.black⟩))
    exact R.Post.ok ⟨⟨by decide, by decide, by decide, by decide, by decide, by decide⟩, by decide, by decide, by decide⟩
  rw [e] at this
  exact this

theorem Makes.hued {e : Wid.Ev} {c : Vte.Call} {v v' : Vte} (hr : Vte.Reachable v) (hm : Makes e c) (h : c.run v = .ok v')
    (hh : Hued v) : Hued v' := by
  have ofExt : ∀ {v' : Vte}, Ext Term v v' → Hued v' := fun hx => ⟨hx.pal.trans hh.palette, by rw [hx.dattr]; exact hh.base, by rw [hx.dattr]; exact hh.black⟩
  cases c with
  | input d =>
    have := hr.all.1.input d
    rw [show v.input d = .ok v' from h] at this
    exact ofExt this.2
  | keyboard k a m u =>
    have := hr.all.1.keyboard k a m u
    obtain ⟨r, er, e2⟩ := bind_ok h
    injection e2 with e2
    subst e2
    rw [er] at this
    exact ofExt this.1.2
  | screen c =>
    obtain ⟨s, es, e2⟩ := bind_ok h
    injection e2 with e2
    subst e2
    exact ⟨hh.palette, hh.base, hh.black⟩
  | mouse => cases e <;> exact False.elim hm
  | reset => cases e <;> exact False.elim hm
  | hardReset => cases e <;> exact False.elim hm
  | setPalette => cases e <;> exact False.elim hm
  | setCustomPalette => cases e <;> exact False.elim hm
  | setBsDelete => cases e <;> exact False.elim hm
  | setOscCb => cases e <;> exact False.elim hm
  | setMouseCb => cases e <;> exact False.elim hm

theorem made_hued {e : Wid.Ev} : ∀ {cs : List Vte.Call} {v v' : Vte}, Vte.Reachable v → (∀ c ∈ cs, Makes e c ∧ c.Valid) →
    v.runAll cs = .ok v' → Hued v → Hued v' := by
  intro cs
  induction cs with
  | nil =>
    intro v v' _ _ h hh
    injection h with h
    subst h
    exact hh
  | cons c cs ih =>
    intro v v' hr hm h hh
    unfold Vte.runAll at h
    obtain ⟨v1, h1, h⟩ := bind_ok h
    have hc := hm c List.mem_cons_self
    exact ih (hr.step hc.2 h1) (fun d hd => hm d (List.mem_cons_of_mem _ hd)) h (Makes.hued hr hc.1 h1 hh)

/-- The emulator is the same, or the event has made calls. -/
theorem step_calls {ink : Ink} {e : Wid.Ev} {w w' : Wid} (ha : Wid.Alive w) (hv : e.Valid) (h : w.step ink e = .ok w') :
    w'.vte = w.vte ∨ ∃ cs, (∀ c ∈ cs, Makes e c ∧ c.Valid) ∧ w.vte.runAll cs = .ok w'.vte := by
  by_cases hx : e = .exit
  · subst hx
    injection h with h
    subst h
    exact Or.inl rfl
  by_cases hf : ∃ n, e = .fork n ∧ w.pty = none
  · obtain ⟨n, rfl, hp⟩ := hf
    exact Or.inl (Wid.fork_ok h hp).1
  · obtain ⟨cs, evs, d⟩ := Wid.step_did ha.sane.vte hv hx (fun n hn => by
      cases hp : w.pty with
      | none => exact absurd ⟨n, hn, hp⟩ hf
      | some t => rfl) h
    exact Or.inr ⟨cs, d.made, d.run⟩

theorem step_hued {ink : Ink} {e : Wid.Ev} {w w' : Wid} (ha : Wid.Alive w) (hv : e.Valid) (h : w.step ink e = .ok w')
    (hh : Hued w.vte) : Hued w'.vte := by
  rcases step_calls ha hv h with k | ⟨cs, k1, k2⟩
  · rw [k]; exact hh
  · exact made_hued ha.sane.vte k1 k2 hh

theorem Live.hued {ink : Ink} {w : Wid} (h : Live ink w) : Hued w.vte := by
  obtain ⟨al, s, sg, mem, w0, es, hs, h0, hv, hr⟩ := h
  have h1 : Hued w0.vte := by
    obtain ⟨v0, v, e0, e1, h1, _⟩ := Wid.init_ok h0
    rw [h1]
    obtain ⟨s', _, e2⟩ := bind_ok e1
    injection e2 with e2
    subst e2
    have := new_hued e0
    exact ⟨this.palette, this.base, this.black⟩
  have ha := Wid.init_alive hs h0
  clear h0 hs
  induction es generalizing w0 with
  | nil =>
    injection hr with hr
    subst hr
    exact h1
  | cons e es ih =>
    unfold Wid.runAll at hr
    obtain ⟨w1, e1, hr⟩ := bind_ok hr
    exact ih w1 (fun d hd => hv d (List.mem_cons_of_mem _ hd)) hr (step_hued ha (hv e List.mem_cons_self) e1 h1)
      (ha.step (hv e List.mem_cons_self) e1)

end Verif.Gtk
