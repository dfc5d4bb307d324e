import Verif.Spec.GtkSettings
import Verif.Proofs.Gtk.Window
import Verif.Props.Vte.Trace

/-!
# What events do to the properties of the widget
-/

namespace Verif.Gtk
open Verif Verif.Vte

namespace Wid

theorem emu_dirty {w w' : Wid} {v : Vte} (e : w.emu v = .ok w') : w'.showDirty = w.showDirty := by
  unfold emu at e
  obtain ⟨h1, _⟩ := callbacks_ok e
  rw [h1]

theorem readLoop_dirty : ∀ {ks : List KRes} {w w' : Wid}, w.readLoop ks = .ok w' → w'.showDirty = w.showDirty := by
  intro ks
  induction ks with
  | nil =>
    intro w w' h
    injection h with h
    subst h
    rfl
  | cons k ks ih =>
    intro w w' h
    unfold readLoop at h
    split at h
    · rename_i t n ht
      split at h
      · injection h with h
        subst h
        rfl
      · obtain ⟨w1, h1, h⟩ := bind_ok h
        rw [ih h]
        unfold readFn at h1
        obtain ⟨v, _, h1⟩ := bind_ok h1
        obtain ⟨w2, h2, h1⟩ := bind_ok h1
        injection h1 with h1
        subst h1
        exact (emu_dirty h2 :)
    · injection h with h
      subst h
      rfl

theorem dispatch_dirty {w w' : Wid} {r1 r2 w1 w2 : KRes} (h : w.dispatch r1 r2 w1 w2 = .ok w') :
    w'.showDirty = w.showDirty := by
  obtain ⟨wm, h1, h⟩ := bind_ok h
  rw [← readLoop_dirty h1]
  unfold flush at h
  split at h
  · injection h with h
    subst h
    rfl
  · obtain ⟨r, er, h⟩ := bind_ok h
    injection h with h
    subst h
    rfl

theorem selectAt_dirty {w w' : Wid} {fs : Faces} {f : Nat → Nat → Screen.Call} {x y : Int} (h : w.selectAt fs f x y = .ok w') :
    w'.showDirty = w.showDirty := by
  unfold selectAt at h
  obtain ⟨cx, _, h⟩ := bind_ok h
  obtain ⟨cy, _, h⟩ := bind_ok h
  obtain ⟨v, hv', h⟩ := bind_ok h
  injection h with h
  subst h
  rfl

theorem setFont_dirty {w w' : Wid} {new : Option Faces} (h : w.setFont new = .ok w') : w'.showDirty = w.showDirty := by
  obtain ⟨fs, _, rfl⟩ := setFont_ok h
  rfl

theorem step_dirty {ink : Ink} {e : Ev} {w w' : Wid} (he : ∀ on, e ≠ .showDirty on) (h : w.step ink e = .ok w') :
    w'.showDirty = w.showDirty := by
  cases e with
  | configure x y m =>
    change w.configure x y m = _ at h
    unfold configure at h
    obtain ⟨w1, h1, h⟩ := bind_ok h
    obtain ⟨w2, h2, h⟩ := bind_ok h
    injection h with h
    subst h
    unfold resizeRend at h1
    obtain ⟨r, _, h1⟩ := bind_ok h1
    split at h1
    · cases h1
    · injection h1 with h1
      subst h1
      unfold resizeScreen at h2
      obtain ⟨r, _, h2⟩ := bind_ok h2
      split at h2
      · injection h2 with h2
        subst h2
        rfl
      · cases h2
  | font new =>
    change (if w.faces.isSome then w.setFont new else .ok w) = _ at h
    split at h
    · exact setFont_dirty h
    · injection h with h
      subst h
      rfl
  | draw =>
    change w.draw ink = _ at h
    unfold draw at h
    split at h
    · injection h with h
      subst h
      rfl
    · obtain ⟨d, ed, h⟩ := bind_ok h
      obtain ⟨p, ep, h⟩ := bind_ok h
      injection h with h
      subst h
      rfl
  | fork new =>
    change w.fork new = _ at h
    unfold Wid.fork at h
    split at h
    · injection h with h
      subst h
      rfl
    · obtain ⟨w1, h1, h⟩ := bind_ok h
      injection h with h
      subst h
      split at h1
      · injection h1 with h1
        subst h1
        rfl
      · exact (setFont_dirty h1 :)
  | exit =>
    injection h with h
    subst h
    rfl
  | sbSize n =>
    obtain ⟨v, hv', h⟩ := bind_ok h
    injection h with h
    subst h
    rfl
  | showDirty on => exact absurd rfl (he on)
  | key s t k u =>
    change w.key s t k u = _ at h
    unfold key at h
    split at h
    · obtain ⟨v, hv, h⟩ := bind_ok h
      injection h with h
      subst h
      rfl
    · obtain ⟨r, er, h⟩ := bind_ok h
      unfold keyed at h
      obtain ⟨w1, e1, h⟩ := bind_ok h
      rw [← emu_dirty e1]
      split at h
      · obtain ⟨v, hv, h⟩ := bind_ok h
        injection h with h
        subst h
        rfl
      · injection h with h
        subst h
        rfl
  | button k b t x y =>
    change w.button k b t x y = _ at h
    unfold button at h
    split at h
    · injection h with h
      subst h
      rfl
    · split at h
      · injection h with h
        subst h
        rfl
      · split at h
        · injection h with h
          subst h
          rfl
        · exact (selectAt_dirty h :)
        · exact (selectAt_dirty h :)
        · unfold released at h
          split at h
          · obtain ⟨v, hv, h⟩ := bind_ok h
            injection h with h
            subst h
            rfl
          · injection h with h
            subst h
            rfl
  | motion x y =>
    change w.motion x y = _ at h
    unfold motion at h
    split at h
    · injection h with h
      subst h
      rfl
    · split at h
      · injection h with h
        subst h
        rfl
      · split at h
        · split at h
          · exact (selectAt_dirty h :)
          · injection h with h
            subst h
            rfl
        · exact selectAt_dirty h
  | child d =>
    injection h with h
    subst h
    rfl
  | dispatch r1 r2 w1 w2 => exact dispatch_dirty h
  | idle r1 r2 w1 w2 => exact (dispatch_dirty h :)

end Wid

/-! ### The scrollback -/

theorem call_maxSb {c : Screen.Call} {s s' : Screen} (hc : c.setsMaxSb = false) (e : c.run s = .ok s') :
    s'.view.sbMax = s.view.sbMax := by
  have h := Screen.step_settled (s := s) c
  rw [e] at h
  exact h.maxSb hc

theorem makes_maxSb {e : Wid.Ev} (he : ∀ n, e ≠ .sbSize n) {c : Vte.Call} {v v' : Vte} (hr : Vte.Reachable v)
    (hm : Makes e c) (h : c.run v = .ok v') : v'.con.view.sbMax = v.con.view.sbMax := by
  have ofExt : ∀ {v' : Vte}, Ext Vte.Term v v' → v'.con.view.sbMax = v.con.view.sbMax := by
    intro v' hx
    obtain ⟨cs, hcs, er⟩ := hx.run
    exact (Props.Vte.settings_runAll cs (fun c hc => (hcs c hc).2) er).2.2
  cases c with
  | input d => exact (Props.Vte.C75_kept hr h).2.2.1
  | keyboard k a m u =>
    have := hr.all.1.keyboard k a m u
    obtain ⟨r, er, e2⟩ := bind_ok h
    injection e2 with e2
    subst e2
    rw [er] at this
    exact ofExt this.1.2
  | screen c =>
    obtain ⟨s, es, e2⟩ := bind_ok h
    injection e2 with e2
    subst e2
    refine call_maxSb ?_ es
    cases c <;> first | rfl | (cases e <;> first | exact False.elim hm | exact absurd rfl (he _))
  | mouse => cases e <;> exact False.elim hm
  | reset => cases e <;> exact False.elim hm
  | hardReset => cases e <;> exact False.elim hm
  | setPalette => cases e <;> exact False.elim hm
  | setCustomPalette => cases e <;> exact False.elim hm
  | setBsDelete => cases e <;> exact False.elim hm
  | setOscCb => cases e <;> exact False.elim hm
  | setMouseCb => cases e <;> exact False.elim hm

theorem made_maxSb {e : Wid.Ev} (he : ∀ n, e ≠ .sbSize n) : ∀ {cs : List Vte.Call} {v v' : Vte}, Vte.Reachable v →
    (∀ c ∈ cs, Makes e c ∧ c.Valid) → v.runAll cs = .ok v' → v'.con.view.sbMax = v.con.view.sbMax := by
  intro cs
  induction cs with
  | nil =>
    intro v v' _ _ h
    injection h with h
    subst h
    rfl
  | cons c cs ih =>
    intro v v' hr hm h
    unfold Vte.runAll at h
    obtain ⟨v1, h1, h⟩ := bind_ok h
    have hc := hm c List.mem_cons_self
    rw [ih (hr.step hc.2 h1) (fun d hd => hm d (List.mem_cons_of_mem _ hd)) h]
    exact makes_maxSb he hr hc.1 h1

theorem step_maxSb {ink : Ink} {e : Wid.Ev} {w w' : Wid} (ha : Wid.Alive w) (hv : e.Valid) (he : ∀ n, e ≠ .sbSize n)
    (h : w.step ink e = .ok w') : w'.vte.con.view.sbMax = w.vte.con.view.sbMax := by
  rcases step_calls ha hv h with k | ⟨cs, k1, k2⟩
  · rw [k]
  · exact made_maxSb he ha.sane.vte k1 k2

theorem sbSize_maxSb {ink : Ink} {n : Nat} {w w' : Wid} (h : w.step ink (.sbSize n) = .ok w') :
    w'.vte.con.view.sbMax = n := by
  obtain ⟨v, hv', h⟩ := bind_ok h
  injection h with h
  subst h
  obtain ⟨s, es, e2⟩ := bind_ok (lib_ok hv')
  injection e2 with e2
  subst e2
  change w.vte.con.setMaxSb n = _ at es
  unfold Screen.setMaxSb at es
  obtain ⟨s1, _, es⟩ := bind_ok es
  injection es with es
  subst es
  rfl

/-! ### Faces -/

theorem clean_of_same {f g : Face} (h : Face.SameMetrics f g) : g.clean = f.clean := by
  obtain ⟨h1, h2, h3, h4, h5, h6⟩ := h
  unfold Face.clean
  rw [h1, h2, h3, h4, h5, h6]

theorem faces_clean_of_same {f g : Faces} (h : Faces.SameMetrics f g) : g.clean = f.clean := by
  have key : ∀ {a b : Option Face}, ((a = none ∧ b = none) ∨ ∃ f f', a = some f ∧ b = some f' ∧ Face.SameMetrics f f') →
      b.map Face.clean = a.map Face.clean := by
    intro a b h
    rcases h with ⟨rfl, rfl⟩ | ⟨f, f', rfl, rfl, h⟩
    · rfl
    · show some f'.clean = some f.clean
      rw [clean_of_same h]
  unfold Faces.clean
  rw [clean_of_same h.regular, key h.bold, key h.italic]

theorem face_fresh_clean {f : Face} (h : f.Fresh) : f.clean = f := by
  obtain ⟨k, fm, a, b, c, _, _, _, e⟩ := h
  unfold measureFace at e
  dsimp only at e
  split at e
  · cases e
  · injection e with e
    subst e
    rfl

theorem faces_fresh_clean {fs : Faces} (h : fs.Fresh) : fs.clean = fs := by
  have key : ∀ {a : Option Face}, (∀ f, a = some f → f.Fresh) → a.map Face.clean = a := by
    intro a h
    cases a with
    | none => rfl
    | some f => show some f.clean = _; rw [face_fresh_clean (h f rfl)]
  unfold Faces.clean
  rw [face_fresh_clean h.regular, key h.bold, key h.italic]

/-- Apart from the cached glyphs, only new fonts and the start of a child change the faces. -/
theorem step_clean {ink : Ink} {e : Wid.Ev} {w w' : Wid} (ha : Wid.Alive w) (h2 : ∀ n, e ≠ .font n) (h5 : ∀ n, e ≠ .fork n)
    (h : w.step ink e = .ok w') : w'.faces.map Faces.clean = w.faces.map Faces.clean := by
  by_cases h1 : ∃ x y m, e = .configure x y m
  · obtain ⟨x, y, m, rfl⟩ := h1
    obtain ⟨r, s, _, _, rfl⟩ := Wid.configure_ok h
    rfl
  by_cases h3 : e = .draw
  · subst h3
    cases hfs : w.faces with
    | none =>
      change w.draw ink = _ at h
      unfold Wid.draw at h
      rw [hfs] at h
      injection h with h
      subst h
      rfl
    | some fs =>
      obtain ⟨d, p, ed, ep, rfl⟩ := Wid.drawn_ok h hfs
      show some p.1.clean = some fs.clean
      rw [faces_clean_of_same (Wid.rendererDraw_metrics (ha.sound fs hfs) ep).2]
  cases hfs : w.faces with
  | some fs =>
    have := Wid.step_held (by rw [hfs]; rfl) (fun x y m hc => h1 ⟨x, y, m, hc⟩) h2 h3 h
    rw [this.faces, hfs]
  | none =>
    have hk : w'.cell = w.cell := by
      by_cases h6 : e = .exit
      · subst h6
        injection h with h
        subst h
        rfl
      · refine (Wid.step_kept ha.sound ?_ h).cell
        cases e <;> first
          | rfl
          | exact absurd ⟨_, _, _, rfl⟩ h1
          | exact absurd rfl (h2 _)
          | exact absurd rfl (h5 _)
          | exact absurd rfl h6
    cases hf' : w'.faces with
    | none => rfl
    | some fs =>
      unfold Wid.cell at hk
      rw [hfs, hf'] at hk
      cases hk

/-! ### Widgets with properties -/

namespace Term

theorem via_ok {t t' : Term} {x : W Wid} (h : t.via x = .ok t') : ∃ w, x = .ok w ∧ t' = { t with w := w } := by
  cases x with
  | error e => cases h
  | ok w => injection h with h; exact ⟨w, rfl, h.symm⟩

/-- What holds of all widgets and their properties. -/
structure Inv (mk : Maker) (ink : Ink) (t : Term) : Prop where
  live : Gtk.Live ink t.w
  sb : t.w.vte.con.view.sbMax = t.sbSize
  faces : ∀ fs, t.w.faces = some fs → t.made mk = some fs.clean

theorem Inv.refont {mk : Maker} {ink : Ink} (hk : mk.Fresh) {t t' : Term} (h1 : Gtk.Live ink t.w)
    (h2 : t.w.vte.con.view.sbMax = t.sbSize) (h : t.refont mk ink = .ok t') : Inv mk ink t' := by
  obtain ⟨w, hw, rfl⟩ := via_ok h
  have hv : Wid.Ev.Valid (.font (t.made mk)) := by
    intro fs e
    unfold made at e
    split at e
    · cases e
    · exact hk _ _ _ _ e
  refine ⟨h1.step hv hw, (step_maxSb h1.alive hv (fun n hn => (nomatch hn)) hw).trans h2, ?_⟩
  intro fs e
  change (if t.w.faces.isSome then t.w.setFont (t.made mk) else .ok t.w) = _ at hw
  split at hw
  · obtain ⟨fs', e', rfl⟩ := Wid.setFont_ok hw
    injection e with e
    subst e
    show t.made mk = some fs'.clean
    rw [faces_fresh_clean (hv fs' e'), e']
  · rename_i hn
    injection hw with hw
    subst hw
    dsimp only at e
    rw [e] at hn
    exact absurd rfl hn

theorem Inv.step {mk : Maker} {ink : Ink} (hk : mk.Fresh) {t t' : Term} (hi : Inv mk ink t) {e : Ev} (hv : e.Valid)
    (h : t.step mk ink e = .ok t') : Inv mk ink t' := by
  have ha := hi.live.alive
  have other : ∀ {e : Wid.Ev} {w : Wid}, e.Valid → (∀ n, e ≠ .font n) → (∀ n, e ≠ .fork n) → (∀ n, e ≠ .sbSize n) →
      t.w.step ink e = .ok w → Inv mk ink { t with w := w } := by
    intro e w hv h1 h2 h3 hw
    refine ⟨hi.live.step hv hw, (step_maxSb ha hv h3 hw).trans hi.sb, ?_⟩
    intro fs ef
    dsimp only at ef
    have := step_clean ha h1 h2 hw
    rw [ef] at this
    cases hf : t.w.faces with
    | none => rw [hf] at this; cases this
    | some g =>
      rw [hf] at this
      injection this with this
      show t.made mk = some fs.clean
      rw [hi.faces g hf, this]
  cases e with
  | set s =>
    cases s with
    | font s => exact Inv.refont hk (t := { t with font := s }) hi.live hi.sb h
    | sbSize n =>
      obtain ⟨w, hw, rfl⟩ := via_ok (t := { t with sbSize := n }) h
      refine ⟨hi.live.step (e := .sbSize n) hv hw, sbSize_maxSb hw, ?_⟩
      obtain ⟨v, hv', hw⟩ := bind_ok hw
      injection hw with hw
      subst hw
      exact hi.faces
    | antiAliasing s =>
      cases s with
      | none => cases h
      | some s => exact Inv.refont hk (t := { t with aa := Aa.parse s }) hi.live hi.sb h
    | subpixelOrder s =>
      cases s with
      | none => cases h
      | some s => exact Inv.refont hk (t := { t with order := Order.parse s }) hi.live hi.sb h
    | showDirty on =>
      obtain ⟨w, hw, rfl⟩ := via_ok (t := t) (x := t.w.step ink (.showDirty on)) h
      exact other (e := .showDirty on) trivial (fun n hn => (nomatch hn)) (fun n hn => (nomatch hn)) (fun n hn => (nomatch hn)) hw
    | debug on =>
      injection h with h
      subst h
      have := other (e := .showDirty t.w.showDirty) trivial (fun n hn => (nomatch hn)) (fun n hn => (nomatch hn))
        (fun n hn => (nomatch hn)) rfl
      exact ⟨this.live, this.sb, this.faces⟩
  | fork =>
    obtain ⟨w, hw, rfl⟩ := via_ok h
    have hf : Wid.Ev.Valid (.fork (t.made mk)) := by
      intro fs e
      unfold made at e
      split at e
      · cases e
      · exact hk _ _ _ _ e
    refine ⟨hi.live.step hf hw, (step_maxSb ha hf (fun n hn => (nomatch hn)) hw).trans hi.sb, ?_⟩
    intro fs ef
    change t.w.fork (t.made mk) = _ at hw
    unfold Wid.fork at hw
    split at hw
    · injection hw with hw
      subst hw
      exact hi.faces fs ef
    · obtain ⟨w1, h1, hw⟩ := bind_ok hw
      injection hw with hw
      subst hw
      split at h1
      · injection h1 with h1
        subst h1
        exact hi.faces fs ef
      · obtain ⟨fs', e', rfl⟩ := Wid.setFont_ok h1
        injection ef with ef
        subst ef
        show t.made mk = some fs'.clean
        rw [faces_fresh_clean (hf fs' e'), e']
  | other e =>
    obtain ⟨w, hw, rfl⟩ := via_ok h
    refine other hv.1 ?_ ?_ ?_ hw
    · rintro n rfl; exact hv.2
    · rintro n rfl; exact hv.2
    · rintro n rfl; exact hv.2

theorem Inv.runAll {mk : Maker} {ink : Ink} (hk : mk.Fresh) : ∀ {es : List Ev} {t t' : Term}, Inv mk ink t →
    (∀ e ∈ es, e.Valid) → Term.runAll mk ink es t = .ok t' → Inv mk ink t' := by
  intro es
  induction es with
  | nil =>
    intro t t' hi _ h
    injection h with h
    subst h
    exact hi
  | cons e es ih =>
    intro t t' hi hv h
    unfold Term.runAll at h
    obtain ⟨t1, h1, h⟩ := bind_ok h
    exact ih (hi.step hk (hv e List.mem_cons_self) h1) (fun d hd => hv d (List.mem_cons_of_mem _ hd)) h

theorem runAll_append {mk : Maker} {ink : Ink} : ∀ (a b : List Ev) (t : Term),
    Term.runAll mk ink (a ++ b) t = Term.runAll mk ink a t >>= Term.runAll mk ink b := by
  intro a
  induction a with
  | nil => exact fun _ _ => rfl
  | cons e a ih =>
    intro b t
    show (t.step mk ink e >>= Term.runAll mk ink (a ++ b)) = (t.step mk ink e >>= Term.runAll mk ink a) >>= Term.runAll mk ink b
    cases t.step mk ink e with
    | error _ => rfl
    | ok t1 => exact ih b t1

theorem Live.inv {mk : Maker} {ink : Ink} (hk : mk.Fresh) {t : Term} (h : Term.Live mk ink t) : Inv mk ink t := by
  obtain ⟨al, s, sg, mem, t0, es, hs, h0, hv, hr⟩ := h
  unfold Term.init at h0
  split at h0
  · cases h0
  · rename_i w hw
    refine Inv.runAll hk (Inv.runAll hk ?_ ?_ h0) hv hr
    · refine ⟨⟨al, s, sg, mem, w, [], hs, hw, fun _ h => (nomatch h), rfl⟩, ?_, ?_⟩
      · obtain ⟨v0, v, e0, e1, h1, _⟩ := Wid.init_ok hw
        show w.vte.con.view.sbMax = 2000
        rw [h1]
        obtain ⟨s1, es, e2⟩ := bind_ok e1
        injection e2 with e2
        subst e2
        change v0.con.setMaxSb 2000 = _ at es
        unfold Screen.setMaxSb at es
        obtain ⟨s2, _, es⟩ := bind_ok es
        injection es with es
        subst es
        rfl
      · intro fs e
        obtain ⟨v0, v, _, _, _, _, _, hf, _⟩ := Wid.init_ok hw
        change w.faces = some fs at e
        rw [hf] at e
        cases e
    · intro e he
      simp only [List.mem_cons, List.not_mem_nil, or_false] at he
      rcases he with rfl | rfl | rfl <;> trivial

theorem Live.step {mk : Maker} {ink : Ink} {t t' : Term} (h : Term.Live mk ink t) {e : Ev} (hv : e.Valid)
    (he : t.step mk ink e = .ok t') : Term.Live mk ink t' := by
  obtain ⟨al, s, sg, mem, t0, es, hs, h0, hv0, hr⟩ := h
  refine ⟨al, s, sg, mem, t0, es ++ [e], hs, h0, ?_, ?_⟩
  · intro d hd
    rcases List.mem_append.mp hd with hd | hd
    · exact hv0 d hd
    · rw [List.mem_singleton.mp hd]; exact hv
  · rw [runAll_append, hr]
    show (t.step mk ink e >>= Term.runAll mk ink []) = _
    rw [he]
    rfl

end Term
end Verif.Gtk
