import Verif.Proofs.Gtk.Settings
import Verif.Proofs.Gtk.LiveExample

/-!
# C111: the properties of the widget
-/

namespace Verif.Props.Gtk

open Verif Verif.Gtk

/-- The claim: each property can be set to each value of its type at any time, and reads back as that value. -/
def C111_claim : Prop :=
  ∀ mk ink t s, Maker.Fresh mk → (∀ d a o, (mk d a o).isSome = true) → Term.Live mk ink t → s.Typed →
    ∃ t', t.set mk ink s = .ok t' ∧ t'.get s.name = s

/-- **C111**, creation: the initial values. -/
theorem C111_initial {mk : Maker} {ink : Ink} {s : Screen} {sg : Bool} {mem : Nat → Bool} {t : Term}
    (h : Term.init mk ink s sg mem = .ok t) :
    t.get .font = .font (some "Monospace") ∧ t.get .sbSize = .sbSize 2000 ∧ t.get .antiAliasing = .antiAliasing (some "default") ∧
    t.get .subpixelOrder = .subpixelOrder (some "default") ∧ t.get .showDirty = .showDirty false ∧ t.get .debug = .debug false := by
  unfold Term.init at h
  split at h
  · cases h
  · rename_i w hw
    have hf : w.faces = none := by
      obtain ⟨v0, v, _, _, _, _, _, hf, _⟩ := Wid.init_ok hw
      exact hf
    have hd : w.showDirty = false := by
      unfold Wid.init at hw
      obtain ⟨r, _, hw⟩ := bind_ok hw
      cases r with
      | none => cases hw
      | some r =>
        obtain ⟨v0, _, hw⟩ := bind_ok hw
        obtain ⟨v, _, hw⟩ := bind_ok hw
        injection hw with hw
        subst hw
        rfl
    have hs : ∀ new, w.step ink (.font new) = .ok w := by
      intro new
      show (if w.faces.isSome then w.setFont new else .ok w) = _
      rw [hf]
      rfl
    unfold Term.runAll at h
    obtain ⟨t1, h1, h⟩ := bind_ok h
    obtain ⟨w1, hw1, rfl⟩ := Term.via_ok (t := { w := w, font := some "Monospace", aa := .default, order := .default, sbSize := 2000, debug := false }) h1
    rw [hs] at hw1
    injection hw1 with hw1
    subst hw1
    unfold Term.runAll at h
    obtain ⟨t2, h2, h⟩ := bind_ok h
    obtain ⟨w2, hw2, rfl⟩ := Term.via_ok (t := { w := w, font := some "Monospace", aa := .default, order := .default, sbSize := 2000, debug := false }) h2
    rw [hs] at hw2
    injection hw2 with hw2
    subst hw2
    unfold Term.runAll at h
    obtain ⟨t3, h3, h⟩ := bind_ok h
    obtain ⟨w3, hw3, rfl⟩ := Term.via_ok (t := { w := w, font := some "Monospace", aa := .default, order := .default, sbSize := 2000, debug := false }) h3
    rw [hs] at hw3
    injection hw3 with hw3
    subst hw3
    injection h with h
    subst h
    refine ⟨rfl, rfl, rfl, rfl, ?_, rfl⟩
    show Setting.showDirty w.showDirty = _
    rw [hd]

theorem aa_text {s : String} (h : s = "default" ∨ s = "none" ∨ s = "gray" ∨ s = "subpixel") : (Aa.parse s).text = s := by
  rcases h with rfl | rfl | rfl | rfl <;> rfl

theorem order_text {s : String} (h : s = "default" ∨ s = "rgb" ∨ s = "bgr" ∨ s = "vrgb" ∨ s = "vbgr") :
    (Order.parse s).text = s := by
  rcases h with rfl | rfl | rfl | rfl | rfl <;> rfl

/-- The widget after a new font shows frames as before. -/
theorem refont_dirty {mk : Maker} {ink : Ink} {t t' : Term} (h : t.refont mk ink = .ok t') : ∃ w, t' = { t with w := w } ∧
    w.showDirty = t.w.showDirty := by
  obtain ⟨w, hw, rfl⟩ := Term.via_ok h
  exact ⟨w, rfl, Wid.step_dirty (by intro _ hn; cases hn) hw⟩

/-- **C111**: a property that was set to one of its values reads back as that value. For other values this is false
(`C111_false_unknown`). -/
theorem C111_set_partial {mk : Maker} {ink : Ink} {t t' : Term} {s : Setting} (hs : s.Known) (h : t.set mk ink s = .ok t') :
    t'.get s.name = s := by
  cases s with
  | font s =>
    obtain ⟨w, rfl, _⟩ := refont_dirty (t := { t with font := s }) h
    rfl
  | sbSize n =>
    obtain ⟨w, hw, rfl⟩ := Term.via_ok (t := { t with sbSize := n }) h
    rfl
  | antiAliasing s =>
    cases s with
    | none => cases h
    | some s =>
      obtain ⟨w, rfl, _⟩ := refont_dirty (t := { t with aa := Aa.parse s }) h
      show Setting.antiAliasing (some (Aa.parse s).text) = _
      rw [aa_text]
      · rcases hs with hs | hs | hs | hs <;> injection hs with hs
        · exact Or.inl hs
        · exact Or.inr (Or.inl hs)
        · exact Or.inr (Or.inr (Or.inl hs))
        · exact Or.inr (Or.inr (Or.inr hs))
  | subpixelOrder s =>
    cases s with
    | none => cases h
    | some s =>
      obtain ⟨w, rfl, _⟩ := refont_dirty (t := { t with order := Order.parse s }) h
      show Setting.subpixelOrder (some (Order.parse s).text) = _
      rw [order_text]
      · rcases hs with hs | hs | hs | hs | hs <;> injection hs with hs
        · exact Or.inl hs
        · exact Or.inr (Or.inl hs)
        · exact Or.inr (Or.inr (Or.inl hs))
        · exact Or.inr (Or.inr (Or.inr (Or.inl hs)))
        · exact Or.inr (Or.inr (Or.inr (Or.inr hs)))
  | showDirty on =>
    obtain ⟨w, hw, rfl⟩ := Term.via_ok (t := t) (x := t.w.step ink (.showDirty on)) h
    injection hw with hw
    subst hw
    rfl
  | debug on =>
    injection h with h
    subst h
    rfl

/-- **C111**: a string that is none of the values reads back as `default`. -/
theorem C111_unknown {mk : Maker} {ink : Ink} {t t' : Term} {s : String} :
    (¬ Setting.Known (.antiAliasing (some s)) → t.set mk ink (.antiAliasing (some s)) = .ok t' →
      t'.get .antiAliasing = .antiAliasing (some "default")) ∧
    (¬ Setting.Known (.subpixelOrder (some s)) → t.set mk ink (.subpixelOrder (some s)) = .ok t' →
      t'.get .subpixelOrder = .subpixelOrder (some "default")) := by
  constructor
  · intro hn h
    obtain ⟨w, rfl, _⟩ := refont_dirty (t := { t with aa := Aa.parse s }) h
    show Setting.antiAliasing (some (Aa.parse s).text) = _
    unfold Aa.parse
    rw [if_neg (fun e => hn (Or.inr (Or.inl (by rw [e])))), if_neg (fun e => hn (Or.inr (Or.inr (Or.inl (by rw [e]))))),
      if_neg (fun e => hn (Or.inr (Or.inr (Or.inr (by rw [e])))))]
    rfl
  · intro hn h
    obtain ⟨w, rfl, _⟩ := refont_dirty (t := { t with order := Order.parse s }) h
    show Setting.subpixelOrder (some (Order.parse s).text) = _
    unfold Order.parse
    rw [if_neg (fun e => hn (Or.inr (Or.inl (by rw [e])))), if_neg (fun e => hn (Or.inr (Or.inr (Or.inl (by rw [e]))))),
      if_neg (fun e => hn (Or.inr (Or.inr (Or.inr (Or.inl (by rw [e])))))),
      if_neg (fun e => hn (Or.inr (Or.inr (Or.inr (Or.inr (by rw [e]))))))]
    rfl

/-- **C111**: setting a property changes no other one. -/
theorem C111_others {mk : Maker} {ink : Ink} {t t' : Term} {s : Setting} (h : t.set mk ink s = .ok t') {p : Property}
    (hp : p ≠ s.name) : t'.get p = t.get p := by
  cases s with
  | font s =>
    obtain ⟨w, rfl, hd⟩ := refont_dirty (t := { t with font := s }) h
    cases p <;> first | exact absurd rfl hp | rfl | exact congrArg Setting.showDirty hd
  | sbSize n =>
    obtain ⟨w, hw, rfl⟩ := Term.via_ok (t := { t with sbSize := n }) h
    have hd := Wid.step_dirty (by intro _ hn; cases hn) hw
    cases p <;> first | exact absurd rfl hp | rfl | exact congrArg Setting.showDirty hd
  | antiAliasing s =>
    cases s with
    | none => cases h
    | some s =>
      obtain ⟨w, rfl, hd⟩ := refont_dirty (t := { t with aa := Aa.parse s }) h
      cases p <;> first | exact absurd rfl hp | rfl | exact congrArg Setting.showDirty hd
  | subpixelOrder s =>
    cases s with
    | none => cases h
    | some s =>
      obtain ⟨w, rfl, hd⟩ := refont_dirty (t := { t with order := Order.parse s }) h
      cases p <;> first | exact absurd rfl hp | rfl | exact congrArg Setting.showDirty hd
  | showDirty on =>
    obtain ⟨w, hw, rfl⟩ := Term.via_ok (t := t) (x := t.w.step ink (.showDirty on)) h
    cases p <;> first | exact absurd rfl hp | rfl
  | debug on =>
    injection h with h
    subst h
    cases p <;> first | exact absurd rfl hp | rfl

/-- **C111**: nothing else changes a property: no input, key, mouse, drawing, resize, and not the start or end of a
child. -/
theorem C111_kept {mk : Maker} {ink : Ink} {t t' : Term} {e : Term.Ev} (hv : e.Valid) (hs : ∀ s, e ≠ .set s)
    (h : t.step mk ink e = .ok t') (p : Property) : t'.get p = t.get p := by
  cases e with
  | set s => exact absurd rfl (hs s)
  | fork =>
    obtain ⟨w, hw, rfl⟩ := Term.via_ok h
    have hd := Wid.step_dirty (by intro _ hn; cases hn) hw
    cases p <;> first | rfl | exact congrArg Setting.showDirty hd
  | other e =>
    obtain ⟨w, hw, rfl⟩ := Term.via_ok h
    have hd := Wid.step_dirty (by rintro on rfl; exact hv.2) hw
    cases p <;> first | rfl | exact congrArg Setting.showDirty hd

/-- **C111**: at any time the scrollback of the screen keeps as many rows as the property tells. -/
theorem C111_scrollback {mk : Maker} {ink : Ink} (hk : mk.Fresh) {t : Term} (h : t.Live mk ink) :
    t.get .sbSize = .sbSize t.w.vte.con.view.sbMax := by
  show Setting.sbSize t.sbSize = _
  rw [(Term.Live.inv hk h).sb]

/-- **C111**: at any time the faces in use, if there are any, are those for font, anti-aliasing and order of subpixels
as the properties tell. -/
theorem C111_faces {mk : Maker} {ink : Ink} (hk : mk.Fresh) {t : Term} (h : t.Live mk ink) {fs : Faces} (hf : t.w.faces = some fs) :
    ∃ d a o, mk d a o = some fs.clean ∧ t.get .font = .font (some d) ∧ t.get .antiAliasing = .antiAliasing (some a.text) ∧
      t.get .subpixelOrder = .subpixelOrder (some o.text) := by
  have := (Term.Live.inv hk h).faces fs hf
  unfold Term.made at this
  split at this
  · cases this
  · rename_i d hd
    exact ⟨d, t.aa, t.order, this, congrArg Setting.font hd, rfl, rfl⟩

/-- Different modes and orders have different names. -/
theorem C111_names : (∀ a b : Aa, a.text = b.text → a = b) ∧ ∀ a b : Order, a.text = b.text → a = b := by
  constructor
  · intro a b h
    cases a <;> cases b <;> first | rfl | exact absurd h (by decide)
  · intro a b h
    cases a <;> cases b <;> first | rfl | exact absurd h (by decide)

/-- **C111**: a drawing shows frames around what it draws anew exactly if the property `show-dirty` is on. -/
theorem C111_frames {mk : Maker} {ink : Ink} {t t' : Term} {fs : Faces} {on : Bool} (hf : t.w.faces = some fs)
    (hd : t.get .showDirty = .showDirty on) (h : t.step mk ink (.other .draw) = .ok t') :
    ∃ calls age s fs' r, t.w.vte.con.draw = .ok (calls, age, s) ∧ rendererDraw ink on fs t.w.rend calls age = .ok (fs', r) ∧
      t'.w.rend = r ∧ t'.w.faces = some fs' ∧ t'.w.vte.con = s := by
  obtain ⟨w, hw, rfl⟩ := Term.via_ok h
  injection hd with hd
  obtain ⟨d, p, ed, ep, rfl⟩ := Wid.drawn_ok hw hf
  rw [hd] at ep
  exact ⟨d.1, d.2.1, d.2.2, p.1, p.2, ed, ep, rfl, rfl, rfl⟩

/-- **C111**: setting never fails, if no string is missing and there is a face for each description. -/
theorem C111_works_partial {mk : Maker} {ink : Ink} (hk : mk.Fresh) (hm : ∀ d a o, (mk d a o).isSome = true) {t : Term}
    (h : t.Live mk ink) {s : Setting} (ht : s.Typed) (hg : s.Given) : ∃ t', t.set mk ink s = .ok t' := by
  have hi := Term.Live.inv hk h
  have refont : ∀ {u : Term}, (u.w.faces.isSome = true → u.font ≠ none) → ∃ t', u.refont mk ink = .ok t' := by
    intro u hu
    unfold Term.refont
    have : ∃ w, u.w.step ink (.font (u.made mk)) = .ok w := by
      show ∃ w, (if u.w.faces.isSome then u.w.setFont (u.made mk) else .ok u.w) = .ok w
      split
      · rename_i hf
        cases hd : u.font with
        | none => exact absurd hd (hu hf)
        | some d =>
          unfold Term.made
          rw [hd]
          dsimp only
          have := hm d u.aa u.order
          cases e : mk d u.aa u.order with
          | none => rw [e] at this; cases this
          | some fs => exact ⟨_, rfl⟩
      · exact ⟨_, rfl⟩
    obtain ⟨w, e⟩ := this
    rw [e]
    exact ⟨_, rfl⟩
  have hfont : t.w.faces.isSome = true → t.font ≠ none := by
    intro hf hn
    cases e : t.w.faces with
    | none => rw [e] at hf; cases hf
    | some fs =>
      have := hi.faces fs e
      unfold Term.made at this
      rw [hn] at this
      cases this
  cases s with
  | font s => exact refont (u := { t with font := s }) (fun _ => hg)
  | sbSize n =>
    have hr := Vte.Reachable.con hi.live.alive.sane.vte
    have e : t.w.step ink (.sbSize n) = .ok { t.w with vte := { t.w.vte with
        con := { t.w.vte.con.incAge.touch.trimmed n with sbMax := n } } } := by
      show lib (t.w.vte.con.setMaxSb n >>= fun s => .ok { t.w.vte with con := s }) >>= _ = _
      rw [Screen.setMaxSb_eq hr.inv n]
      rfl
    show ∃ t', Term.via { t with sbSize := n } (t.w.step ink (.sbSize n)) = .ok t'
    rw [e]
    exact ⟨_, rfl⟩
  | antiAliasing s =>
    cases s with
    | none => exact absurd rfl hg
    | some s => exact refont (u := { t with aa := Aa.parse s }) hfont
  | subpixelOrder s =>
    cases s with
    | none => exact absurd rfl hg
    | some s => exact refont (u := { t with order := Order.parse s }) hfont
  | showDirty on => exact ⟨_, rfl⟩
  | debug on => exact ⟨_, rfl⟩

/-- Two fonts. -/
def fonts : Maker := fun d _ _ => if d = "Small" then some faces5 else some faces10

theorem fonts_fresh : fonts.Fresh := by
  intro d a o fs h
  unfold fonts at h
  split at h <;> injection h with h <;> subst h
  · exact faces5_fresh
  · exact faces10_fresh

theorem fonts_some (d : String) (a : Aa) (o : Order) : (fonts d a o).isSome = true := by
  unfold fonts
  split <;> rfl

/-- A new widget with its properties. -/
def tstart : Except Halt Term :=
  match Screen.new (fun _ => true) with
  | .ok (some s) => Term.init fonts noInk s true (fun _ => true)
  | _ => .error .null

def tholds (es : List Term.Ev) (P : Term → Bool) : Bool :=
  match tstart >>= Term.runAll fonts noInk es with
  | .ok t => P t
  | .error _ => false

theorem exists_of_tholds {es : List Term.Ev} {P : Term → Bool} (hv : ∀ e ∈ es, e.Valid) (h : tholds es P = true) :
    ∃ t, Term.Live fonts noInk t ∧ P t = true := by
  unfold tholds at h
  split at h
  · rename_i t ht
    obtain ⟨t0, h0, h1⟩ := bind_ok ht
    unfold tstart at h0
    split at h0
    · rename_i s hs
      exact ⟨t, ⟨_, s, true, _, t0, es, hs, h0, hv, h1⟩, h⟩
    · cases h0
  · cases h

/-- A widget with a child, another font, another mode and a short scrollback. -/
def setEvents : List Term.Ev := [.set (.sbSize 3), .fork, .other (.configure 50 40 true), .set (.antiAliasing (some "gray")),
  .set (.font (some "Small")), .other (.child [65, 10, 10, 10, 10, 66]), .other (.dispatch (.some 0) .again .again .again),
  .set (.showDirty true), .other .draw]

theorem setEvents_valid : ∀ e ∈ setEvents, e.Valid := by
  intro e he
  simp only [setEvents, List.mem_cons, List.not_mem_nil, or_false] at he
  rcases he with rfl | rfl | rfl | rfl | rfl | rfl | rfl | rfl | rfl <;>
    first | trivial | exact ⟨by decide, trivial⟩ | (show (_ : Nat) < _; decide)

theorem setEvents_live : ∃ t, Term.Live fonts noInk t ∧ t.w.faces.isSome = true ∧ t.w.cell = some (5, 10) ∧
    t.w.vte.con.view.sbMax = 3 ∧ t.get .antiAliasing = .antiAliasing (some "gray") ∧ t.get .font = .font (some "Small") ∧
    t.get .showDirty = .showDirty true := by
  obtain ⟨t, h1, h2⟩ := exists_of_tholds (es := setEvents) (P := fun t => t.w.faces.isSome && decide (t.w.cell = some (5, 10) ∧
    t.w.vte.con.view.sbMax = 3 ∧ t.get .antiAliasing = .antiAliasing (some "gray") ∧ t.get .font = .font (some "Small") ∧
    t.get .showDirty = .showDirty true)) setEvents_valid (by decide +kernel)
  rw [Bool.and_eq_true] at h2
  exact ⟨t, h1, h2.1, of_decide_eq_true h2.2⟩

example : tholds [] (fun t => decide (t.get .font = .font (some "Monospace") ∧ t.get .sbSize = .sbSize 2000)) = true := by
  decide +kernel

/-- A drawing with frames, which changes no property. -/
example : tholds setEvents (fun t => t.w.faces.isSome && decide (t.get .showDirty = .showDirty true) &&
    (match t.step fonts noInk (.other .draw) with | .ok t' => decide (t'.get .antiAliasing = t.get .antiAliasing) | .error _ => false)) =
    true := by
  decide +kernel

example : ∃ t, Term.Live fonts noInk t ∧ t.w.faces.isSome = true ∧ t.get .sbSize = .sbSize 3 := by
  obtain ⟨t, h1, h2, _, h3, _⟩ := setEvents_live
  exact ⟨t, h1, h2, by rw [C111_scrollback fonts_fresh h1, h3]⟩

example : ∃ t t', Term.Live fonts noInk t ∧ t.set fonts noInk (.subpixelOrder (some "vbgr")) = .ok t' ∧
    t'.get .subpixelOrder = .subpixelOrder (some "vbgr") ∧ t'.get .font = t.get .font := by
  obtain ⟨t, h1, h2⟩ := setEvents_live
  obtain ⟨t', e⟩ := C111_works_partial fonts_fresh fonts_some h1 (s := .subpixelOrder (some "vbgr")) trivial (by intro h; cases h)
  exact ⟨t, t', h1, e, C111_set_partial (s := .subpixelOrder (some "vbgr")) (Or.inr (Or.inr (Or.inr (Or.inr rfl)))) e,
    C111_others e (by decide)⟩

/-- **C111**: the claim is false. A missing string for `anti-aliasing` or `subpixel-order` is compared with `strcmp`,
and a missing font stops the program once there are faces. -/
theorem C111_false : ¬ C111_claim := by
  intro h
  obtain ⟨t, h1, _⟩ := setEvents_live
  obtain ⟨t', e, _⟩ := h fonts noInk t (.antiAliasing none) fonts_fresh fonts_some h1 trivial
  cases e

theorem C111_false_null (mk : Maker) (ink : Ink) (t : Term) :
    t.set mk ink (.antiAliasing none) = .error .null ∧ t.set mk ink (.subpixelOrder none) = .error .null := ⟨rfl, rfl⟩

theorem C111_false_font (mk : Maker) (ink : Ink) {t : Term} (h : t.w.faces.isSome = true) :
    t.set mk ink (.font none) = .error (.stop .abort) := by
  show Term.via { t with font := none } (if t.w.faces.isSome then t.w.setFont none else .ok t.w) = _
  rw [if_pos h]
  rfl

example : ∃ t, Term.Live fonts noInk t ∧ t.set fonts noInk (.font none) = .error (.stop .abort) := by
  obtain ⟨t, h1, h2, _⟩ := setEvents_live
  exact ⟨t, h1, C111_false_font _ _ h2⟩

/-- **C111**: also with a string given the value may read back differently. -/
theorem C111_false_unknown : ∃ t t', Term.Live fonts noInk t ∧ t.set fonts noInk (.antiAliasing (some "Gray")) = .ok t' ∧
    t'.get .antiAliasing ≠ .antiAliasing (some "Gray") := by
  obtain ⟨t, h1, _⟩ := setEvents_live
  obtain ⟨t', e⟩ := C111_works_partial fonts_fresh fonts_some h1 (s := .antiAliasing (some "Gray")) trivial (by intro h; cases h)
  refine ⟨t, t', h1, e, ?_⟩
  rw [C111_unknown.1 (by unfold Setting.Known; decide) e]
  decide

end Verif.Props.Gtk
