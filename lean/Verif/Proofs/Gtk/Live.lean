import Verif.Proofs.Gtk.Widget
import Verif.Props.Gtk.Renderer
import Verif.Proofs.Vte.Short

/-!
# What holds of every widget
-/

namespace Verif.Gtk
open Verif Verif.Vte

/-! ### The emulator -/

theorem scr_post {P : Vte → Prop} {v : Vte} {c : Screen.Call} (h : ∀ s, P { v with con := s }) : R.Post (v.scr c) P := by
  unfold Vte.scr
  exact R.Post.bind R.Post.any (fun s _ => R.Post.ok (h s))

theorem reset_log {l : List Event} {v : Vte} (h : v.log = l) : R.Post v.reset (fun v => v.log = l) := by
  unfold Vte.reset
  refine R.Post.bind (P := fun v => v.log = l) (scr_post fun _ => h) (fun w hw => ?_)
  refine R.Post.bind (P := fun v => v.log = l) (scr_post fun _ => hw) (fun w hw => ?_)
  refine R.Post.bind R.Post.any (fun a _ => ?_)
  refine R.Post.bind (P := fun v => v.log = l) (scr_post fun _ => ?_) (fun w hw => R.Post.ok hw)
  exact hw

theorem new_log {s : Screen} {sg : Bool} {v : Vte} (e : Vte.new s sg = .ok v) : v.log = [] := by
  have : R.Post (Vte.new s sg) (fun v => v.log = []) := by
    unfold Vte.new
    exact R.Post.bind R.Post.any (fun d _ => R.Post.bind (reset_log rfl) (fun w hw => scr_post fun _ => hw))
  rw [e] at this
  exact this

/-- What the calls that a widget makes keep. -/
structure Keeps (e : Wid.Ev) (v v' : Vte) : Prop where
  osc : v'.oscCb = v.oscCb
  mouse : v'.mouseCb = v.mouseCb
  size : (∀ x y m, e ≠ .configure x y m) → v'.con.view.sizeX = v.con.view.sizeX ∧ v'.con.view.sizeY = v.con.view.sizeY
  sbMax : (∀ n, e ≠ .sbSize n) → v'.con.view.sbMax = v.con.view.sbMax
  sends : Sends v v'

theorem Keeps.refl (e : Wid.Ev) (v : Vte) : Keeps e v v := ⟨rfl, rfl, fun _ => ⟨rfl, rfl⟩, fun _ => rfl, Sends.same rfl⟩

theorem Keeps.trans {e : Wid.Ev} {a b c : Vte} (h : Keeps e a b) (h' : Keeps e b c) : Keeps e a c :=
  ⟨h'.osc.trans h.osc, h'.mouse.trans h.mouse, fun he => ⟨(h'.size he).1.trans (h.size he).1, (h'.size he).2.trans (h.size he).2⟩,
    fun he => (h'.sbMax he).trans (h.sbMax he), h.sends.trans h'.sends⟩

theorem ext_keeps {e : Wid.Ev} {v v' : Vte} (h : Ext Term v v') (hs : Sends v v') : Keeps e v v' := by
  obtain ⟨cs, hc, er⟩ := h.run
  have h1 := Props.Vte.settings_runAll cs (fun c hcs => (hc c hcs).2) er
  exact ⟨h.ocb, h.mcb, fun _ => ⟨h1.1, h1.2.1⟩, fun _ => h1.2.2, hs⟩

theorem scr_keeps {e : Wid.Ev} {v v' : Vte} {c : Screen.Call} (h1 : (∀ x y m, e ≠ .configure x y m) → c.setsSize = false)
    (h2 : (∀ n, e ≠ .sbSize n) → c.setsMaxSb = false) (h : v.scr c = .ok v') : Keeps e v v' := by
  obtain ⟨s, es, e2⟩ := bind_ok h
  injection e2 with e2
  subst e2
  have hs := Screen.step_settled (s := v.con) c
  rw [es] at hs
  exact ⟨rfl, rfl, fun he => hs.size (h1 he), fun he => hs.maxSb (h2 he), Sends.same rfl⟩

theorem Makes.keeps {e : Wid.Ev} {c : Vte.Call} {v v' : Vte} (hr : Vte.Reachable v) (hm : Makes e c) (h : c.run v = .ok v') :
    Keeps e v v' := by
  cases c with
  | input d =>
    have := hr.all.1.input d
    rw [show v.input d = .ok v' from h] at this
    have hs := input_sends v d
    rw [show v.input d = .ok v' from h] at hs
    exact ext_keeps this.2 hs
  | keyboard k a m u =>
    have := hr.all.1.keyboard k a m u
    obtain ⟨r, er, e2⟩ := bind_ok h
    injection e2 with e2
    subst e2
    have hs := keyboard_sends v k a m u
    rw [er] at this hs
    exact ext_keeps this.1.2 hs
  | screen c =>
    refine scr_keeps ?_ ?_ h
    · intro he
      cases c <;> first
        | rfl
        | (cases e <;> first | exact False.elim hm | exact absurd rfl (he _ _ _))
    · intro he
      cases c <;> first
        | rfl
        | (cases e <;> first | exact False.elim hm | exact absurd rfl (he _))
  | mouse => cases e <;> exact False.elim hm
  | reset => cases e <;> exact False.elim hm
  | hardReset => cases e <;> exact False.elim hm
  | setPalette => cases e <;> exact False.elim hm
  | setCustomPalette => cases e <;> exact False.elim hm
  | setBsDelete => cases e <;> exact False.elim hm
  | setOscCb => cases e <;> exact False.elim hm
  | setMouseCb => cases e <;> exact False.elim hm

theorem made_keeps {e : Wid.Ev} : ∀ {cs : List Vte.Call} {v v' : Vte}, Vte.Reachable v → (∀ c ∈ cs, Makes e c ∧ c.Valid) →
    v.runAll cs = .ok v' → Keeps e v v' := by
  intro cs
  induction cs with
  | nil =>
    intro v v' _ _ h
    injection h with h
    subst h
    exact Keeps.refl _ _
  | cons c cs ih =>
    intro v v' hr hm h
    unfold Vte.runAll at h
    obtain ⟨v1, h1, h⟩ := bind_ok h
    have hc := hm c List.mem_cons_self
    exact (Makes.keeps hr hc.1 h1).trans (ih (hr.step hc.2 h1) (fun d hd => hm d (List.mem_cons_of_mem _ hd)) h)

namespace Wid

/-! ### The faces -/

theorem drawCell_metrics {ink : Ink} {debug : Bool} {fs fs' : Faces} {r r' : Rend} {c : Screen.DrawCall} (hf : fs.Sound)
    (e : drawCell ink debug fs r c = .ok (fs', r')) : fs'.Sound ∧ Faces.SameMetrics fs fs' := by
  unfold drawCell at e
  split at e
  · injection e with e
    injection e with e1 e2
    rw [← e1]
    exact ⟨hf, .refl _⟩
  · obtain ⟨p, e1, e⟩ := bind_ok e
    obtain ⟨r1, _, e⟩ := bind_ok e
    obtain ⟨r2, _, e⟩ := bind_ok e
    injection e with e
    injection e with e3 e4
    rw [← e3]
    unfold drawBody at e1
    dsimp only at e1
    have hp := faceRender_sound (ink := ink) (pick_sound hf c.attr) c.id c.ch c.len c.width
    have := put_sound hf c.attr hp.1 hp.2.1
    split at e1
    · obtain ⟨_, _, rfl⟩ := map_ok e1
      exact ⟨hf, .refl _⟩
    · split at e1
      · obtain ⟨_, _, rfl⟩ := map_ok e1
        exact this
      · obtain ⟨_, _, rfl⟩ := map_ok e1
        exact this

theorem drawCells_metrics {ink : Ink} {debug : Bool} : ∀ (cs : List Screen.DrawCall) {fs fs' : Faces} {r r' : Rend}, fs.Sound →
    drawCells ink debug fs r cs = .ok (fs', r') → fs'.Sound ∧ Faces.SameMetrics fs fs'
  | [], fs, fs', r, r', hf, e => by cases e; exact ⟨hf, .refl _⟩
  | c :: cs, fs, fs', r, r', hf, e => by
    rw [drawCells] at e
    obtain ⟨⟨fs1, r1⟩, e1, e⟩ := bind_ok e
    obtain ⟨h1, m1⟩ := drawCell_metrics hf e1
    obtain ⟨h2, m2⟩ := drawCells_metrics cs h1 e
    exact ⟨h2, m1.trans m2⟩

theorem rendererDraw_metrics {ink : Ink} {debug : Bool} {fs : Faces} {r : Rend} {cs : List Screen.DrawCall} {age : Nat}
    {p : Faces × Rend} (hf : fs.Sound) (e : rendererDraw ink debug fs r cs age = .ok p) :
    p.1.Sound ∧ Faces.SameMetrics fs p.1 := by
  unfold rendererDraw at e
  obtain ⟨⟨fs1, r1⟩, e1, e⟩ := bind_ok e
  injection e with e
  subst e
  exact drawCells_metrics cs hf e1

/-! ### The layout -/

/-- The cell size. -/
def cell (w : Wid) : Option (Nat × Nat) := w.faces.map fun fs => (fs.regular.width, fs.regular.height)

/-- Fonts, window and pty keep their sizes. -/
structure Kept (w w' : Wid) : Prop where
  columns : w'.columns = w.columns
  rows : w'.rows = w.rows
  width : w'.width = w.width
  height : w'.height = w.height
  cell : w'.cell = w.cell
  sound : (∀ fs, w.faces = some fs → fs.Sound) → ∀ fs, w'.faces = some fs → fs.Sound
  pty : w'.pty.map (fun t => (t.cols, t.rows)) = w.pty.map (fun t => (t.cols, t.rows))

theorem Kept.refl (w : Wid) : Kept w w := ⟨rfl, rfl, rfl, rfl, rfl, fun h => h, rfl⟩

theorem Kept.trans {a b c : Wid} (h : Kept a b) (h' : Kept b c) : Kept a c :=
  ⟨h'.columns.trans h.columns, h'.rows.trans h.rows, h'.width.trans h.width, h'.height.trans h.height,
    h'.cell.trans h.cell, fun x => h'.sound (h.sound x), h'.pty.trans h.pty⟩

/-- Only other fields have changed. -/
theorem Kept.frame {w w' : Wid} (h1 : w'.columns = w.columns) (h2 : w'.rows = w.rows) (h3 : w'.width = w.width)
    (h4 : w'.height = w.height) (h5 : w'.faces = w.faces)
    (h6 : w'.pty.map (fun t => (t.cols, t.rows)) = w.pty.map (fun t => (t.cols, t.rows))) : Kept w w' :=
  ⟨h1, h2, h3, h4, by unfold Wid.cell; rw [h5], by rw [h5]; exact id, h6⟩

theorem PtyCb.sizes {evs : List Event} {p p' : Option Tty} (h : PtyCb evs p p') :
    p'.map (fun t => (t.cols, t.rows)) = p.map (fun t => (t.cols, t.rows)) := by
  cases p with
  | none => rw [show p' = none from h]
  | some t =>
    obtain ⟨io, rfl, _⟩ := h
    rfl

theorem emu_kept {w w' : Wid} {v : Vte} (e : w.emu v = .ok w') : Kept w w' := by
  unfold emu at e
  obtain ⟨h1, h2⟩ := callbacks_ok e
  refine Kept.frame ?_ ?_ ?_ ?_ ?_ h2.sizes <;> rw [h1]

theorem readFn_kept {w w' : Wid} {d : List UInt8} (h : w.readFn d = .ok w') : Kept w w' := by
  unfold readFn at h
  obtain ⟨v, _, h⟩ := bind_ok h
  obtain ⟨w1, h1, h⟩ := bind_ok h
  injection h with h
  subst h
  exact (emu_kept h1).trans (Kept.frame rfl rfl rfl rfl rfl rfl)

theorem readLoop_kept : ∀ {ks : List KRes} {w w' : Wid}, w.readLoop ks = .ok w' → Kept w w' := by
  intro ks
  induction ks with
  | nil =>
    intro w w' h
    injection h with h
    subst h
    exact Kept.refl _
  | cons k ks ih =>
    intro w w' h
    unfold readLoop at h
    split at h
    · rename_i t n ht
      split at h
      · injection h with h
        subst h
        exact Kept.refl _
      · obtain ⟨w1, h1, h⟩ := bind_ok h
        have k0 : Kept w { w with pty := some { t with io := { t.io with
            inq := t.io.inq.drop (min (n + 1) 16383), got := t.io.got ++ t.io.inq.take (min (n + 1) 16383) } } } :=
          Kept.frame rfl rfl rfl rfl rfl (by rw [ht]; rfl)
        exact (k0.trans (readFn_kept h1)).trans (ih h)
    · injection h with h
      subst h
      exact Kept.refl _

theorem dispatch_kept {w w' : Wid} {r1 r2 w1 w2 : KRes} (h : w.dispatch r1 r2 w1 w2 = .ok w') : Kept w w' := by
  obtain ⟨wm, h1, h⟩ := bind_ok h
  refine (readLoop_kept h1).trans ?_
  unfold flush at h
  split at h
  · injection h with h
    subst h
    exact Kept.refl _
  · rename_i t ht
    obtain ⟨r, er, h⟩ := bind_ok h
    injection h with h
    subst h
    exact Kept.frame rfl rfl rfl rfl rfl (by rw [ht]; rfl)

theorem selectAt_kept {w w' : Wid} {fs : Faces} {f : Nat → Nat → Screen.Call} {x y : Int} (h : w.selectAt fs f x y = .ok w') :
    Kept w w' := by
  unfold selectAt at h
  obtain ⟨cx, _, h⟩ := bind_ok h
  obtain ⟨cy, _, h⟩ := bind_ok h
  obtain ⟨v, hv', h⟩ := bind_ok h
  injection h with h
  subst h
  exact Kept.frame rfl rfl rfl rfl rfl rfl

/-- The events that change sizes, or start or end the child. -/
def Ev.layout : Ev → Bool
  | .configure .. | .font _ | .fork _ | .exit => true
  | _ => false

theorem step_kept {ink : Ink} {e : Ev} {w w' : Wid} (hf : ∀ fs, w.faces = some fs → fs.Sound) (he : e.layout = false)
    (h : w.step ink e = .ok w') : Kept w w' := by
  cases e with
  | configure x y m => cases he
  | font new => cases he
  | fork new => cases he
  | exit => cases he
  | draw =>
    change w.draw ink = _ at h
    unfold draw at h
    split at h
    · injection h with h
      subst h
      exact Kept.frame rfl rfl rfl rfl rfl rfl
    · rename_i fs hfs
      obtain ⟨d, ed, h⟩ := bind_ok h
      obtain ⟨p, ep, h⟩ := bind_ok h
      injection h with h
      subst h
      have := rendererDraw_metrics (hf fs hfs) (own_ok ep)
      refine ⟨rfl, rfl, rfl, rfl, ?_, ?_, rfl⟩
      · unfold Wid.cell
        rw [hfs]
        show some (p.1.regular.width, p.1.regular.height) = some (fs.regular.width, fs.regular.height)
        rw [this.2.regular.width, this.2.regular.height]
      · intro _ fs' e
        injection e with e
        subst e
        exact this.1
  | sbSize n =>
    obtain ⟨v, hv', h⟩ := bind_ok h
    injection h with h
    subst h
    exact Kept.frame rfl rfl rfl rfl rfl rfl
  | showDirty on =>
    injection h with h
    subst h
    exact Kept.frame rfl rfl rfl rfl rfl rfl
  | key s t k u =>
    change w.key s t k u = _ at h
    unfold key at h
    split at h
    · obtain ⟨v, hv, h⟩ := bind_ok h
      injection h with h
      subst h
      exact Kept.frame rfl rfl rfl rfl rfl rfl
    · obtain ⟨r, er, h⟩ := bind_ok h
      unfold keyed at h
      obtain ⟨w1, e1, h⟩ := bind_ok h
      refine (emu_kept e1).trans ?_
      split at h
      · obtain ⟨v, hv, h⟩ := bind_ok h
        injection h with h
        subst h
        exact Kept.frame rfl rfl rfl rfl rfl rfl
      · injection h with h
        subst h
        exact Kept.refl _
  | button k b t x y =>
    change w.button k b t x y = _ at h
    unfold button at h
    split at h
    · injection h with h
      subst h
      exact Kept.refl _
    · split at h
      · injection h with h
        subst h
        exact Kept.refl _
      · split at h
        · injection h with h
          subst h
          exact Kept.frame rfl rfl rfl rfl rfl rfl
        · exact Kept.trans (b := { w with sel := 2 }) (Kept.frame rfl rfl rfl rfl rfl rfl) (selectAt_kept h)
        · exact Kept.trans (b := { w with sel := 2 }) (Kept.frame rfl rfl rfl rfl rfl rfl) (selectAt_kept h)
        · unfold released at h
          split at h
          · obtain ⟨v, hv, h⟩ := bind_ok h
            injection h with h
            subst h
            exact Kept.frame rfl rfl rfl rfl rfl rfl
          · injection h with h
            subst h
            exact Kept.frame rfl rfl rfl rfl rfl rfl
  | motion x y =>
    change w.motion x y = _ at h
    unfold motion at h
    split at h
    · injection h with h
      subst h
      exact Kept.refl _
    · split at h
      · injection h with h
        subst h
        exact Kept.refl _
      · split at h
        · split at h
          · exact Kept.trans (b := { w with sel := 2 }) (Kept.frame rfl rfl rfl rfl rfl rfl) (selectAt_kept h)
          · injection h with h
            subst h
            exact Kept.refl _
        · exact selectAt_kept h
  | child d =>
    injection h with h
    subst h
    refine Kept.frame rfl rfl rfl rfl rfl ?_
    show (w.pty.map _).map _ = _
    cases w.pty <;> rfl
  | dispatch r1 r2 w1 w2 => exact dispatch_kept h
  | idle r1 r2 w1 w2 =>
    exact Kept.trans (b := { w with idle := false }) (Kept.frame rfl rfl rfl rfl rfl rfl) (dispatch_kept h)

/-! ### Every widget -/

theorem fresh_pos {f : Face} (h : f.Fresh) : 0 < f.width ∧ 0 < f.height := by
  obtain ⟨key, fmt, w, hh, b, hw, hhh, hb, e⟩ := h
  unfold measureFace at e
  dsimp only at e
  split at e
  · cases e
  · rename_i hc
    injection e with e
    subst e
    simp only [not_or] at hc
    dsimp only
    omega

/-- No string is too long for the queue of the pty. -/
theorem brief_short {l : List Event} (h : Brief l) : Short l := fun b hb => Nat.lt_of_le_of_lt (h b hb) (by decide)

/-- The invariant. -/
structure Alive (w : Wid) : Prop where
  sane : Sane w
  osc : w.vte.oscCb = true
  mouse : w.vte.mouseCb = false
  brief : Brief w.vte.log
  sound : ∀ fs, w.faces = some fs → fs.Sound
  pos : ∀ c, w.cell = some c → 0 < c.1 ∧ 0 < c.2

theorem font_alive {w w' : Wid} (h : Alive w) {new : Option Faces} (hv : ∀ fs, new = some fs → fs.Fresh)
    (e : w.setFont new = .ok w') : Alive w' := by
  obtain ⟨fs, rfl, rfl⟩ := setFont_ok e
  refine ⟨⟨h.sane.vte, h.sane.titles, h.sane.io⟩, h.osc, h.mouse, h.brief, ?_, ?_⟩
  · intro fs' e
    injection e with e
    subst e
    exact Props.Gtk.freshFaces_sound (hv _ rfl)
  · intro c e
    injection e with e
    subst e
    exact fresh_pos (hv fs rfl).regular

theorem Alive.step {ink : Ink} {e : Ev} {w w' : Wid} (ha : Alive w) (hv : e.Valid) (h : w.step ink e = .ok w') : Alive w' := by
  have hs := ha.sane.step hv h
  by_cases hl : e.layout = false
  · have k := step_kept ha.sound hl h
    obtain ⟨cs, evs, d⟩ := step_did ha.sane.vte hv (by rintro rfl; cases hl) (by rintro n rfl; cases hl) h
    have kk := made_keeps ha.sane.vte d.made d.run
    have hb : Brief w'.vte.log := by
      obtain ⟨es, h1, h2⟩ := kk.sends
      rw [h1]
      exact ha.brief.append h2
    exact ⟨hs, kk.osc.trans ha.osc, kk.mouse.trans ha.mouse, hb, k.sound ha.sound, by rw [k.cell]; exact ha.pos⟩
  · cases e with
    | configure x y m =>
      obtain ⟨r, s, er, es, rfl⟩ := configure_ok h
      exact ⟨hs, ha.osc, ha.mouse, ha.brief, ha.sound, ha.pos⟩
    | font new =>
      change (if w.faces.isSome then w.setFont new else .ok w) = _ at h
      split at h
      · exact font_alive ha hv h
      · injection h with h
        subst h
        exact ha
    | fork new =>
      change w.fork new = _ at h
      unfold Wid.fork at h
      split at h
      · injection h with h
        subst h
        exact ha
      · obtain ⟨w1, h1, h⟩ := bind_ok h
        have h2 : Alive w1 := by
          split at h1
          · injection h1 with h1
            subst h1
            exact ha
          · exact font_alive ha hv h1
        injection h with h
        subst h
        exact ⟨hs, h2.osc, h2.mouse, h2.brief, h2.sound, h2.pos⟩
    | exit =>
      injection h with h
      subst h
      exact ⟨hs, ha.osc, ha.mouse, ha.brief, ha.sound, ha.pos⟩
    | _ => exact absurd rfl hl

theorem Alive.runAll {ink : Ink} : ∀ {es : List Ev} {w w' : Wid}, Alive w → (∀ e ∈ es, e.Valid) → runAll ink es w = .ok w' →
    Alive w' := by
  intro es
  induction es with
  | nil =>
    intro w w' ha _ h
    injection h with h
    subst h
    exact ha
  | cons e es ih =>
    intro w w' ha hv h
    obtain ⟨w1, h1, h⟩ := bind_ok h
    exact ih (ha.step (hv e List.mem_cons_self) h1) (fun d hd => hv d (List.mem_cons_of_mem _ hd)) h

theorem new_callbacks {s : Screen} {sg : Bool} {v : Vte} (e : Vte.new s sg = .ok v) : v.mouseCb = false := by
  have hr : ∀ {v : Vte}, v.mouseCb = false → R.Post v.reset (fun v => v.mouseCb = false) := by
    intro v h
    unfold Vte.reset
    refine R.Post.bind (P := fun v => v.mouseCb = false) (scr_post fun _ => h) (fun w hw => ?_)
    refine R.Post.bind (P := fun v => v.mouseCb = false) (scr_post fun _ => hw) (fun w hw => ?_)
    refine R.Post.bind R.Post.any (fun a _ => ?_)
    refine R.Post.bind (P := fun v => v.mouseCb = false) (scr_post fun _ => ?_) (fun w hw => R.Post.ok hw)
    exact hw
  have : R.Post (Vte.new s sg) (fun v => v.mouseCb = false) := by
    unfold Vte.new
    exact R.Post.bind R.Post.any (fun d _ => R.Post.bind (hr rfl) (fun w hw => scr_post fun _ => hw))
  rw [e] at this
  exact this

theorem init_alive {allocOk : Nat → Bool} {s : Screen} {sg : Bool} {mem : Nat → Bool} {w : Wid}
    (hs : Screen.new allocOk = .ok (some s)) (h : init s sg mem = .ok w) : Alive w := by
  obtain ⟨v0, v, e0, e1, h1, h2, h3, h4, _⟩ := init_ok h
  have hsr : s.Reachable := ⟨allocOk, [], fun _ h => (nomatch h), by
    show (Screen.new allocOk >>= _) = _
    rw [hs]
    rfl⟩
  have hr : Vte.Reachable v := by
    refine ⟨s, sg, v0, [.setOscCb true, .screen (.setMaxSb 2000)], hsr, e0, ?_, ?_⟩
    · intro c hc
      simp only [List.mem_cons, List.not_mem_nil, or_false] at hc
      rcases hc with rfl | rfl
      · trivial
      · exact (by decide : 2000 < 4294967296)
    · show ({ v0 with oscCb := true }.scr _ >>= fun v => v.runAll []) = _
      rw [e1]
      rfl
  obtain ⟨s', _, e2⟩ := bind_ok e1
  injection e2 with e2
  refine ⟨⟨by rw [h1]; exact hr, ?_, ?_⟩, ?_, ?_, ?_, ?_, ?_⟩
  · rw [h3, h1, ← e2]
    show [] = setTitles v0.log
    rw [new_log e0]
    rfl
  · rw [h2]; exact fun _ h => (nomatch h)
  · rw [h1, ← e2]
  · rw [h1, ← e2]; exact (new_callbacks e0 : v0.mouseCb = false)
  · rw [h1, ← e2]
    show Brief v0.log
    rw [new_log e0]
    exact fun _ h => (nomatch h)
  · rw [h4]; exact fun _ h => (nomatch h)
  · unfold Wid.cell; rw [h4]; exact fun _ h => (nomatch h)

end Wid

theorem Live.alive {ink : Ink} {w : Wid} (h : Live ink w) : Wid.Alive w := by
  obtain ⟨al, s, sg, mem, w0, es, hs, h0, hv, hr⟩ := h
  exact (Wid.init_alive hs h0).runAll hv hr

theorem Live.step {ink : Ink} {w w' : Wid} (h : Live ink w) {e : Wid.Ev} (hv : e.Valid) (he : w.step ink e = .ok w') :
    Live ink w' := by
  obtain ⟨al, s, sg, mem, w0, es, hs, h0, hv0, hr⟩ := h
  refine ⟨al, s, sg, mem, w0, es ++ [e], hs, h0, ?_, ?_⟩
  · intro d hd
    rcases List.mem_append.mp hd with hd | hd
    · exact hv0 d hd
    · rw [List.mem_singleton.mp hd]; exact hv
  · rw [Wid.runAll_append, hr]
    show (w.step ink e >>= Wid.runAll ink []) = _
    rw [he]
    rfl

theorem Live.runAll {ink : Ink} {w w' : Wid} (h : Live ink w) {es : List Wid.Ev} (hv : ∀ e ∈ es, e.Valid)
    (he : Wid.runAll ink es w = .ok w') : Live ink w' := by
  obtain ⟨al, s, sg, mem, w0, es0, hs, h0, hv0, hr⟩ := h
  refine ⟨al, s, sg, mem, w0, es0 ++ es, hs, h0, ?_, ?_⟩
  · intro d hd
    rcases List.mem_append.mp hd with hd | hd
    · exact hv0 d hd
    · exact hv d hd
  · rw [Wid.runAll_append, hr]
    exact he

end Verif.Gtk
