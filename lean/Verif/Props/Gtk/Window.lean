import Verif.Proofs.Gtk.LiveExample
import Verif.Proofs.Gtk.Window
import Verif.Proofs.Vte.Narrow
import Verif.Props.Gtk.Flow
import Verif.Props.Gtk.Sizes
import Verif.Props.Vte.Canvas

/-!
C102: the window shows what the program has printed.
-/

namespace Verif.Props.Gtk
open Verif Verif.Gtk Verif.Vte

/-! ### Widgets whose buffer is up to date -/

theorem tended_live {ink : Ink} {w : Wid} (h : Wid.Tended ink w) : Live ink w := by
  induction h with
  | sized hl _ hv _ e => exact hl.step hv e
  | event _ hv _ _ _ e ih => exact ih.step hv e
  | draw _ _ e ih => exact ih.step (e := .draw) trivial e

/-- What is known of the buffer. -/
structure Window (ink : Ink) (w : Wid) (fs : Faces) : Prop where
  faces : w.faces = some fs
  shown : ∃ b, SInv ink ⟨w.vte.con, fs, w.rend, b, false⟩
  w32 : (w.vte.con.sizeX + 1) * fs.regular.width < 4294967296
  h32 : w.vte.con.sizeY * fs.regular.height < 4294967296

theorem realloc_true {m : Bool} {w h : Nat} {r : Rend} (e : realloc m w h = .ok (some r)) : realloc true w h = .ok (some r) := by
  cases m with
  | true => exact e
  | false =>
    unfold realloc at e
    dsimp only at e
    split at e
    · obtain ⟨_, _, e⟩ := bind_ok e
      cases e
    · obtain ⟨_, _, e⟩ := bind_ok e
      rw [Bool.false_and, if_neg (by decide)] at e
      cases e

theorem sized_window {ink : Ink} {w w' : Wid} {x y : Nat} {m : Bool} (h : Live ink w) {fs : Faces} (hf : w.faces = some fs)
    (hv : (Wid.Ev.configure x y m).Valid) (hfit : (Wid.Ev.configure x y m).Fits) (e : w.step ink (.configure x y m) = .ok w') :
    Window ink w' fs := by
  obtain ⟨s1, s2, _⟩ := C94_partial h hf hv e (es := []) (fun _ h => (nomatch h)) (fun _ h => (nomatch h)) rfl
  have hok := h.faced fs hf
  have hs := hok.regular.small
  have hpos := h.alive.pos (fs.regular.width, fs.regular.height) (by unfold Wid.cell; rw [hf]; rfl)
  have hl := Vte.Reachable.con (h.step hv e).alive.sane.vte
  have q1 : (w'.vte.con.sizeX + 1) * fs.regular.width < 4294967296 := by
    rw [show w'.vte.con.sizeX = _ from s1, Nat.add_mul]
    have := Nat.div_mul_le_self x fs.regular.width
    have hv1 := hv.1
    rcases Nat.le_total 1 (x / fs.regular.width) with h1 | h1
    · rw [Nat.max_eq_right h1]
      omega
    · rw [Nat.max_eq_left h1]
      omega
  have q2 : w'.vte.con.sizeY * fs.regular.height < 4294967296 := by
    rw [show w'.vte.con.sizeY = _ from s2]
    have := Nat.div_mul_le_self y fs.regular.height
    have hv2 := hv.2
    have hh := hok.regular.sound.h32
    rcases Nat.le_total 1 (y / fs.regular.height) with h1 | h1
    · rw [Nat.max_eq_right h1]
      omega
    · rw [Nat.max_eq_left h1]
      omega
  obtain ⟨r, s, er, es, rfl⟩ := Wid.configure_ok e
  exact ⟨hf, ⟨false, .start hl hok hfit (realloc_true er)⟩, q1, q2⟩

theorem Window.event {ink : Ink} {w w' : Wid} {fs : Faces} (h : Window ink w fs) (ha : Wid.Alive w) {e : Wid.Ev} (hv : e.Valid)
    (h1 : ∀ x y m, e ≠ .configure x y m) (h2 : ∀ n, e ≠ .font n) (h3 : e ≠ .draw) (he : w.step ink e = .ok w') :
    Window ink w' fs := by
  have hh := Wid.step_held (by rw [h.faces]; rfl) h1 h2 h3 he
  obtain ⟨b, hs⟩ := h.shown
  rcases step_calls ha hv he with k | ⟨cs, k1, k2⟩
  · exact ⟨hh.faces.trans h.faces, ⟨b, by rw [k, hh.rend]; exact hs⟩, by rw [k]; exact h.w32, by rw [k]; exact h.h32⟩
  · have kk := (made_keeps ha.sane.vte k1 k2).size h1
    refine ⟨hh.faces.trans h.faces, by rw [hh.rend]; exact made_held h1 h3 ha.sane.vte k1 k2 hs, ?_, ?_⟩
    · rw [show w'.vte.con.sizeX = w.vte.con.sizeX from kk.1]; exact h.w32
    · rw [show w'.vte.con.sizeY = w.vte.con.sizeY from kk.2]; exact h.h32

/-- Nothing gets in the way of a neat drawing. -/
theorem neat_tidy {ink : Ink} {w : Wid} {fs : Faces} (h : Window ink w fs) (hr : Screen.Reachable w.vte.con) (hn : w.Neat)
    {b : Bool} {calls : List Screen.DrawCall} {age : Nat} {s : Screen} (e : w.vte.con.draw = .ok (calls, age, s)) :
    Tidy ⟨w.vte.con, fs, w.rend, b, false⟩ calls age := by
  have hg := draw_positions hr e
  have hc := Screen.C26_content hr e
  have h1 := hn.faces fs h.faces
  refine ⟨h1.bold, h1.italic, h.w32, h.h32, ?_, ?_, fun _ => Or.inr hn.live⟩
  · intro c hcm hw d hdm hy hx
    rw [(hc d hdm).2.1, hy, hx]
    rw [(hc c hcm).2.1] at hw
    refine hn.wide _ _ (hg.inside c hcm).2 ?_ hw
    rw [← hx]
    exact (hg.inside d hdm).1
  · intro c hcm hw
    rw [(hc c hcm).2.1] at hw
    obtain ⟨k1, k2, k3⟩ := hn.half _ _ (hg.inside c hcm).2 (hg.inside c hcm).1 hw
    refine ⟨?_, ?_⟩
    · rw [(hc c hcm).2.2.2, if_pos (Or.inl k1)]
    · have hx := (hg.inside c hcm).1
      obtain ⟨d, hd, dx, dy⟩ := hg.all c.y (c.x - 1) (hg.inside c hcm).2 (by show c.x - 1 < w.vte.con.sizeX; omega)
      refine ⟨d, hd, dy, by omega, ?_⟩
      rw [(hc d hd).2.1, dx, dy]
      exact k3

theorem same_small {fs fs' : Faces} (h : Faces.SameMetrics fs fs') : fs'.regular.width = fs.regular.width ∧
    fs'.regular.height = fs.regular.height := ⟨h.regular.width, h.regular.height⟩

theorem Window.drawn {ink : Ink} {w w' : Wid} {fs : Faces} (h : Window ink w fs) (ha : Wid.Alive w) (hn : w.Neat)
    (e : w.step ink .draw = .ok w') : ∃ fs', Window ink w' fs' := by
  obtain ⟨d, p, ed, ep, rfl⟩ := Wid.drawn_ok e h.faces
  obtain ⟨b, hs⟩ := h.shown
  rw [hn.marks] at ep
  have hm := same_small (Wid.rendererDraw_metrics hs.faces.sound ep).2
  have hsz : d.2.2.sizeX = w.vte.con.sizeX ∧ d.2.2.sizeY = w.vte.con.sizeY := by
    rw [Screen.draw_eq (Vte.Reachable.con ha.sane.vte).inv.geo] at ed
    injection ed with ed
    subst ed
    exact ⟨rfl, rfl⟩
  refine ⟨p.1, rfl, ⟨false, hs.draw (calls := d.1) (age := d.2.1) ed ep fun _ => ⟨rfl, neat_tidy h (Vte.Reachable.con ha.sane.vte) hn ed⟩⟩, ?_, ?_⟩
  · show (d.2.2.sizeX + 1) * p.1.regular.width < _
    rw [hsz.1, hm.1]
    exact h.w32
  · show d.2.2.sizeY * p.1.regular.height < _
    rw [hsz.2, hm.2]
    exact h.h32

theorem tended_window {ink : Ink} {w : Wid} (h : Wid.Tended ink w) : ∃ fs, Window ink w fs := by
  induction h with
  | @sized w w' x y m hl hf hv hfit e =>
    cases hfs : w.faces with
    | none => rw [hfs] at hf; cases hf
    | some fs => exact ⟨fs, sized_window hl hfs hv hfit e⟩
  | event ht hv h1 h2 h3 e ih =>
    obtain ⟨fs, h⟩ := ih
    exact ⟨fs, h.event (tended_live ht).alive hv h1 h2 h3 e⟩
  | draw ht hn e ih =>
    obtain ⟨fs, h⟩ := ih
    exact h.drawn (tended_live ht).alive hn e

/-! ### What is shown -/

theorem shows_congr {ink : Ink} {fs fs' : Faces} (h : Faces.SameMetrics fs fs') {c d : Screen.DrawCall} (h1 : d.attr = c.attr)
    (h2 : d.len = c.len) (h3 : d.width = c.width) (h4 : d.ch = c.ch) {dx dy : Nat} {m : Rgb} (hs : Gtk.Shows ink fs c dx dy m) :
    Gtk.Shows ink fs' d dx dy m := by
  have hst := style_same h c.attr
  unfold Gtk.Shows at hs ⊢
  dsimp only at hs ⊢
  rw [h1, h2, h3, h4, hst.underlinePos, hst.lineThickness, hst.key, hst.width, hst.height, hst.format]
  exact hs

theorem coloured_bytes {a : Attr} (h : a.Coloured) : (foreground a).Byte ∧ (background a).Byte := by
  unfold foreground background
  split <;> exact ⟨⟨by first | exact h.fr | exact h.br, by first | exact h.fg | exact h.bg, by first | exact h.fb | exact h.bb⟩,
    ⟨by first | exact h.br | exact h.fr, by first | exact h.bg | exact h.fg, by first | exact h.bb | exact h.fb⟩⟩

/-- **C102**, any contents: after a neat drawing of a widget whose drawings have been neat since its window got its size,
every pixel of the cells is opaque and has the colour that belongs to the cell of the emulator at this place (`shown`), or to the
wide character left of it. In reverse are shown the cell of the cursor, all cells if the screen is in reverse mode (flag 3),
and the selected ones; two of these cancel each other. -/
theorem C102_cells {ink : Ink} (hink : ∀ k ch n b, ink k ch n = some b → ∀ o, b o < 256) {w w' : Wid} (h : w.Tended ink)
    (hn : w.Neat) (e : w.step ink .draw = .ok w') {v : View} (hview : w.vte.con.view = v)
    (hcol : ∀ i j, i < v.sizeY → j < v.sizeX → (v.shown i j).attr.Coloured)
    (hsel : v.selActive = true → v.Anchored v.selStart ∧ v.Anchored v.selEnd) {fs : Faces} (hf : w'.faces = some fs) {X Y : Nat}
    (hX : X < w'.rend.width) (hY : Y < w'.rend.height) (hX' : X < v.sizeX * fs.regular.width)
    (hY' : Y < v.sizeY * fs.regular.height) :
    ∃ j m, (j = X / fs.regular.width ∨
          j + 1 = X / fs.regular.width ∧ (v.shown (Y / fs.regular.height) j).width = 2) ∧
      w'.rend.at X Y = some (opaque32 m) ∧
      Gtk.Shows ink fs (lookOf (v.shown (Y / fs.regular.height) j)
          (xor (xor (v.cursorAt (Y / fs.regular.height) j) (v.flags.getLsbD 3)) (decide (v.Selected (Y / fs.regular.height) j))))
        (X - j * fs.regular.width) (Y % fs.regular.height) m := by
  subst hview
  have ha := (tended_live h).alive
  have hr := Vte.Reachable.con ha.sane.vte
  obtain ⟨fs0, hw⟩ := tended_window h
  obtain ⟨b, hs⟩ := hw.shown
  obtain ⟨d, p, ed, ep, rfl⟩ := Wid.drawn_ok e hw.faces
  injection hf with hf
  subst hf
  rw [hn.marks] at ep
  have hm := (Wid.rendererDraw_metrics hs.faces.sound ep).2
  have ht := neat_tidy (b := b) hw hr hn (calls := d.1) (age := d.2.1) (s := d.2.2) ed
  have hg := draw_positions (cs := d.1) (age := d.2.1) (s' := d.2.2) hr ed
  obtain ⟨c, hc, ho⟩ := owner_exists ht hg (fs := fs0) (X := X) (Y := Y)
    (by rw [hm.regular.width] at hX'; exact hX') (by rw [hm.regular.height] at hY'; exact hY')
  obtain ⟨c1, c2, c3, c4⟩ := Screen.C26_content (cs := d.1) (age := d.2.1) (s' := d.2.2) hr ed c hc
  have hinv : c.attr = { (w.vte.con.view.shown c.y c.x).attr with
      inverse := xor (w.vte.con.view.shown c.y c.x).attr.inverse (xor (xor (w.vte.con.view.cursorAt c.y c.x)
        (w.vte.con.flags.getLsbD 3)) (decide (w.vte.con.view.Selected c.y c.x))) } := by
    obtain ⟨b', hb⟩ := c3
    have : c.attr.inverse = xor (xor (xor (w.vte.con.view.shown c.y c.x).attr.inverse (w.vte.con.view.cursorAt c.y c.x))
        (w.vte.con.flags.getLsbD 3)) (decide (w.vte.con.view.Selected c.y c.x)) := by
      cases hsa : w.vte.con.selActive with
      | true => exact Screen.C31_highlight (cs := d.1) (age := d.2.1) (s' := d.2.2) hr ed hsa (hsel hsa).1 (hsel hsa).2 c hc
      | false =>
        rw [Screen.C27_cursor (cs := d.1) (age := d.2.1) (s' := d.2.2) hr ed hsa c hc,
          decide_eq_false (by rintro ⟨k, _⟩; rw [show w.vte.con.view.selActive = w.vte.con.selActive from rfl, hsa] at k; cases k),
          Bool.xor_false]
    rw [hb] at this ⊢
    rw [show b' = _ from this, Bool.xor_assoc, Bool.xor_assoc, Bool.xor_assoc]
  have hch : c.ch = (w.vte.con.view.shown c.y c.x).ch := by
    rw [c1]
    obtain ⟨al, hist, hv, eh⟩ := hr
    rcases Screen.shown_origin eh c.y c.x with ⟨_, g2, _, g4⟩ | ⟨g1, g2, _⟩
    · rw [if_pos g2]
    · rw [g1]; rfl
  have hcb := coloured_bytes (a := c.attr) (by
    have := hcol c.y c.x (hg.inside c hc).2 (hg.inside c hc).1
    rw [hinv]
    exact ⟨this.fr, this.fg, this.fb, this.br, this.bg, this.bb⟩)
  obtain ⟨m, m1, _, m3⟩ := hs.picture hink rfl (calls := d.1) (age := d.2.1) (s := d.2.2) ed ht (fs := p.1) (r := p.2) ep hc hcb.1 hcb.2
    hX hY ho
  have hcw : 0 < p.1.regular.width := by
    rcases Nat.eq_zero_or_pos p.1.regular.width with h0 | h0
    · rw [h0] at hX'; omega
    · exact h0
  have hhh : 0 < p.1.regular.height := by
    rcases Nat.eq_zero_or_pos p.1.regular.height with h0 | h0
    · rw [h0] at hY'; omega
    · exact h0
  have hy : Y / p.1.regular.height = c.y := by
    rw [hm.regular.height] at hhh ⊢
    exact Nat.le_antisymm (Nat.le_of_lt_succ (Nat.div_lt_of_lt_mul (by rw [Nat.mul_comm]; exact ho.bottom)))
      ((Nat.le_div_iff_mul_le hhh).mpr ho.top)
  have hsm := (draw_drawn (cs := d.1) (age := d.2.1) (s' := d.2.2) hr ed c hc).small
  refine ⟨c.x, m, ?_, m1, ?_⟩
  · have hl := ho.left
    have hrr := ho.right
    rw [← hm.regular.width] at hl hrr
    have hk : c.x = X / p.1.regular.width ∨ c.x + 1 = X / p.1.regular.width := by
      have q1 : c.x ≤ X / p.1.regular.width := (Nat.le_div_iff_mul_le hcw).mpr hl
      have q2 : X / p.1.regular.width < c.x + c.width := Nat.div_lt_of_lt_mul (by rw [Nat.mul_comm]; exact hrr)
      omega
    rcases hk with hk | hk
    · exact Or.inl hk
    · refine Or.inr ⟨hk, ?_⟩
      rw [hy, ← c2]
      have q2 : X / p.1.regular.width < c.x + c.width := Nat.div_lt_of_lt_mul (by rw [Nat.mul_comm]; exact hrr)
      omega
  · have hym : Y % p.1.regular.height = Y - c.y * fs0.regular.height := by
      rw [Nat.mod_eq_sub_div_mul, hy, hm.regular.height]
    rw [hym, hy, hm.regular.width]
    refine shows_congr hm ?_ ?_ ?_ ?_ m3
    · rw [hinv]; rfl
    · rw [c4]; rfl
    · rw [c2]; rfl
    · rw [hch]; rfl

/-! ### What a program has printed -/

theorem live_cell {s : Screen} (hr : Screen.Reachable s) {i j : Nat} (hi : i < s.sizeY) (hj : j < s.sizeX) :
    ∃ g, s.view.grid i j = some g := by
  have h := hr.inv.geo
  have hlen : i < s.lines.length := by rw [h.linesOk.len]; exact Nat.lt_of_lt_of_le hi h.rows
  have hw := h.linesOk.w _ (List.getElem_mem hlen)
  have hg : s.view.grid = gridOf s.sizeX s.sizeY s.lines := by
    unfold View.grid Screen.lines
    show (if s.useAlt = true then gridOf s.sizeX s.sizeY s.alt else gridOf s.sizeX s.sizeY s.main) = _
    split <;> rfl
  rw [hg]
  unfold gridOf
  rw [if_pos ⟨hi, hj⟩, List.getElem?_eq_getElem hlen, Option.bind_some, List.getElem?_eq_getElem (by omega)]
  exact ⟨_, rfl⟩

/-- The live screen in view. -/
theorem live_shown {v : Vte} (hr : Screen.Reachable v.con) (hl : v.con.view.sbPos = none) {i j : Nat} (hi : i < v.con.sizeY)
    (hj : j < v.con.sizeX) : v.canvas.cell i j = some (v.con.view.shown i j) := by
  have ht : v.con.view.topIndex = v.con.view.sb.length := by
    unfold View.topIndex
    rw [hl]
  show v.con.view.grid i j = _
  unfold View.shown
  rw [if_neg (by omega), show v.con.view.topIndex + i - v.con.view.sb.length = i by omega]
  obtain ⟨g, hg⟩ := live_cell hr hi hj
  rw [hg]
  rfl

/-- Without wide characters a plain view is drawn neatly. -/
theorem ready_neat {ink : Ink} {w : Wid} (h : w.Ready ink) (hp : w.Plainly) : w.Neat := by
  have hr := Vte.Reachable.con (tended_live h.tended).alive.sane.vte
  have hw : ∀ i j, i < w.vte.con.sizeY → j < w.vte.con.sizeX → (w.vte.con.view.shown i j).width = 1 :=
    fun i j hi hj => (h.fine.cell i j _ (live_shown hr hp.live hi hj)).width
  refine ⟨hp.marks, hp.faces, hp.live, ?_, ?_⟩
  · intro i j hi hj h2
    rw [hw i j hi (by omega)] at h2
    cases h2
  · intro i j hi hj h2
    rw [hw i j hi hj] at h2
    cases h2

theorem output_or {e : Wid.Ev} (h : e.Output) :
    (∃ d, e = .child d) ∨ (∃ a b c d, e = .dispatch a b c d) ∨ (∃ a b c d, e = .idle a b c d) := by
  cases e with
  | child d => exact Or.inl ⟨_, rfl⟩
  | dispatch => exact Or.inr (Or.inl ⟨_, _, _, _, rfl⟩)
  | idle => exact Or.inr (Or.inr ⟨_, _, _, _, rfl⟩)
  | _ => exact False.elim h

theorem watched_tended {ink : Ink} : ∀ {es : List Wid.Ev} {w w' : Wid}, w.Tended ink → w.Watched ink es →
    Wid.runAll ink es w = .ok w' → w'.Tended ink := by
  intro es
  induction es with
  | nil =>
    intro w w' h _ e
    injection e with e
    subst e
    exact h
  | cons a es ih =>
    intro w w' h ho e
    unfold Wid.runAll at e
    obtain ⟨w1, e1, e⟩ := bind_ok e
    refine ih ?_ (ho.2 _ e1) e
    rcases ho.1 with ha | ⟨rfl, hn, _⟩
    · refine .event h ?_ ?_ ?_ ?_ e1
      · cases a <;> first | trivial | exact False.elim ha
      · rintro x y m rfl; exact ha
      · rintro n rfl; exact ha
      · rintro rfl; exact ha
    · exact .draw h hn e1

/-- A drawing leaves the emulator alone as long as the counter of changes has not overflowed. -/
theorem drawn_same {ink : Ink} {w w' : Wid} (hr : Screen.Reachable w.vte.con) (e : w.step ink .draw = .ok w')
    (ha : w.vte.con.ageReset = false) : w'.vte = w.vte ∧ w'.pty = w.pty := by
  have e : Wid.draw ink w = .ok w' := e
  unfold Wid.draw at e
  split at e
  · injection e with e
    subst e
    exact ⟨rfl, rfl⟩
  · obtain ⟨d, ed, e⟩ := bind_ok e
    obtain ⟨p, _, e⟩ := bind_ok e
    injection e with e
    subst e
    refine ⟨?_, rfl⟩
    have hd : d.2.2 = w.vte.con := by
      rw [Screen.draw_eq hr.inv.geo] at ed
      injection ed with ed
      rw [← ed]
      show { w.vte.con with ageReset := false } = _
      rw [← ha]
    show { w.vte with con := d.2.2 } = w.vte
    rw [hd]

/-- The emulator has been given what was read from the child, wherever drawings came between. -/
theorem watched_read {ink : Ink} : ∀ {es : List Wid.Ev} {w w' : Wid}, w.Tended ink → w.Watched ink es →
    Wid.runAll ink es w = .ok w' → ∀ {t : Tty}, w.pty = some t → ∃ t' i, w'.pty = some t' ∧
      w.vte.input i = .ok w'.vte ∧ t'.io.got = t.io.got ++ i ∧ t'.io.got ++ t'.io.inq = t.io.got ++ t.io.inq ++ childBytes es := by
  intro es
  induction es with
  | nil =>
    intro w w' h _ e t ht
    injection e with e
    subst e
    exact ⟨t, [], ht, rfl, by rw [List.append_nil], by simp [childBytes]⟩
  | cons a es ih =>
    intro w w' h ho e t ht
    have ht1 : ∀ {w1}, Wid.runAll ink [a] w = .ok w1 → w1.Tended ink := fun e1 => watched_tended h (es := [a]) ⟨ho.1, fun _ _ => trivial⟩ e1
    have ha := (tended_live h).alive
    unfold Wid.runAll at e
    obtain ⟨w1, e1, e2⟩ := bind_ok e
    have er : Wid.runAll ink [a] w = .ok w1 := by
      unfold Wid.runAll
      rw [e1]
      rfl
    have hw1 := ho.2 _ e1
    rcases ho.1 with ho | ⟨rfl, _, hg⟩
    · have hes := output_or ho
      have hes' : ∀ e ∈ [a], (∃ d, e = .child d) ∨ (∃ a b c d, e = .dispatch a b c d) ∨ (∃ a b c d, e = .idle a b c d) := by
        intro e he
        rw [List.mem_singleton.mp he]
        exact hes
      obtain ⟨cs, evs, k1, _, k3, _, k5⟩ := run_did ha (by rw [ht]; rfl) (es := [a]) (by
          intro e he
          rw [List.mem_singleton.mp he]
          rcases hes with ⟨d, rfl⟩ | ⟨_, _, _, _, rfl⟩ | ⟨_, _, _, _, rfl⟩ <;> trivial) (by
        intro hx
        rcases hes' _ hx with ⟨d, e⟩ | ⟨_, _, _, _, e⟩ | ⟨_, _, _, _, e⟩ <;> cases e) er
      rw [ht] at k5
      obtain ⟨t1, f1, f⟩ := k5
      obtain ⟨ch, c1, c2⟩ := input_chunks cs w.vte (only_inputs hes' k1)
      rw [c2, Vte.C39_chunking ha.sane.vte, c1] at k3
      obtain ⟨t', i, m1, m2, m3, m4⟩ := ih (ht1 er) hw1 e2 f1
      refine ⟨t', inputs cs ++ i, m1, ?_, ?_, ?_⟩
      · rw [input_append ha.sane.vte.ok.1, k3]
        exact m2
      · rw [m3, f.got, List.append_assoc]
      · rw [m4, f.all, childBytes_cons a es, List.append_assoc]
    · obtain ⟨v1, v2⟩ := drawn_same (Vte.Reachable.con ha.sane.vte) e1 hg
      obtain ⟨t', i, m1, m2, m3, m4⟩ := ih (ht1 er) hw1 e2 (v2.trans ht)
      rw [v1] at m2
      exact ⟨t', i, m1, m2, m3, m4⟩

/-- The emulator has been given what the child has written. -/
theorem output_heard {ink : Ink} {w w' : Wid} (h : w.Tended ink) {t t' : Tty} (ht : w.pty = some t) (h0 : t.io.inq = [])
    {es : List Wid.Ev} (ho : w.Watched ink es) (e : Wid.runAll ink es w = .ok w') (ht' : w'.pty = some t') (h0' : t'.io.inq = []) :
    w.vte.input (childBytes es) = .ok w'.vte := by
  obtain ⟨t1, i, m1, m2, m3, m4⟩ := watched_read h ho e ht
  rw [ht'] at m1
  injection m1 with m1
  subst m1
  rw [h0, h0', m3, List.append_nil, List.append_nil] at m4
  rw [← List.append_cancel_left m4]
  exact m2

/-- **C102**, first round: the child resets the terminal and then prints any commands of the reference terminal that are
tame (see C85), without wide characters. When all of it has been read, the emulator shows the reference terminal. -/
theorem C102_start {ink : Ink} {w w' : Wid} (h : w.Tended ink) {t t' : Tty} (ht : w.pty = some t) (h0 : t.io.inq = [])
    (hb : w.vte.Between) {l : List Cmd} (hv : ∀ a ∈ l, a.Valid w.vte.con.sizeY ∧ a.Thin)
    (htame : (Canvas.initial w.vte.con.sizeX w.vte.con.sizeY w.vte.defAttr w.vte.palette).TameAll l)
    {es : List Wid.Ev} (ho : w.Watched ink es) (hc : childBytes es = 27 :: 99 :: l.flatMap Cmd.bytes)
    (e : Wid.runAll ink es w = .ok w') (ht' : w'.pty = some t') (h0' : t'.io.inq = []) :
    w'.Ready ink ∧
      w'.vte.canvas = (Canvas.initial w.vte.con.sizeX w.vte.con.sizeY w.vte.defAttr w.vte.palette).run l := by
  have hl := tended_live h
  have hi := output_heard h ht h0 ho e ht' h0'
  obtain ⟨v1, e1, r1, n1, _, c1⟩ := Vte.C85_after_reset hl.alive.sane.vte hb
  have hsz : v1.con.sizeY = w.vte.con.sizeY := congrArg Canvas.h c1
  obtain ⟨v2, e2, n2, _, c2⟩ := Vte.C85_canvas_partial r1 n1 (l := l) (by rw [hsz]; exact fun a ha => (hv a ha).1) (by rw [c1]; exact htame)
  have hv2 : w'.vte = v2 := by
    rw [hc, show 27 :: 99 :: l.flatMap Cmd.bytes = [27, 99] ++ l.flatMap Cmd.bytes from rfl,
      input_append hl.alive.sane.vte.ok.1, e1] at hi
    change v1.input _ = _ at hi
    rw [e2] at hi
    injection hi with hi
    exact hi.symm
  refine ⟨⟨watched_tended h ho e, ⟨t', ht', h0'⟩, by rw [hv2]; exact n2, ?_⟩, by rw [hv2, c2, c1]⟩
  rw [hv2, c2, c1]
  refine Canvas.Fine.run l (Canvas.initial_fine hl.hued.base ?_) hv
  rw [hl.hued.palette]
  decide

/-- **C102**, further rounds. -/
theorem C102_next {ink : Ink} {w w' : Wid} (h : w.Ready ink) {l : List Cmd} (hv : ∀ a ∈ l, a.Valid w.vte.con.sizeY ∧ a.Thin)
    (htame : w.vte.canvas.TameAll l) {es : List Wid.Ev} (ho : w.Watched ink es) (hc : childBytes es = l.flatMap Cmd.bytes)
    (e : Wid.runAll ink es w = .ok w') {t' : Tty} (ht' : w'.pty = some t') (h0' : t'.io.inq = []) :
    w'.Ready ink ∧ w'.vte.canvas = w.vte.canvas.run l := by
  have hl := tended_live h.tended
  obtain ⟨t, ht, h0⟩ := h.child
  have hi := output_heard h.tended ht h0 ho e ht' h0'
  obtain ⟨v2, e2, n2, _, c2⟩ := Vte.C85_canvas_partial hl.alive.sane.vte h.normal (l := l) (fun a ha => (hv a ha).1) htame
  have hv2 : w'.vte = v2 := by
    rw [hc, e2] at hi
    injection hi with hi
    exact hi.symm
  refine ⟨⟨watched_tended h.tended ho e, ⟨t', ht', h0'⟩, by rw [hv2]; exact n2, ?_⟩, by rw [hv2, c2]⟩
  rw [hv2, c2]
  exact Canvas.Fine.run l h.fine hv

/-- **C102**, drawing: when the live screen is in view without a selection, the window shows what the emulator does, pixel
by pixel. -/
theorem C102_draw {ink : Ink} (hink : ∀ k ch n b, ink k ch n = some b → ∀ o, b o < 256) {w w' : Wid} (h : w.Ready ink)
    (hp : w.Plainly) (e : w.step ink .draw = .ok w') :
    w'.Ready ink ∧ w'.vte.canvas = w.vte.canvas ∧
      w'.Displays ink w.vte.canvas := by
  have hn := ready_neat h hp
  have hl := tended_live h.tended
  have hr := Vte.Reachable.con hl.alive.sane.vte
  have ht' : w'.Tended ink := .draw h.tended hn e
  obtain ⟨fs0, hw⟩ := tended_window h.tended
  obtain ⟨d, p, ed, ep, rfl⟩ := Wid.drawn_ok e hw.faces
  have hd : d.2.2 = { w.vte.con with ageReset := false } := by
    rw [Screen.draw_eq hr.inv.geo] at ed
    injection ed with ed
    rw [← ed]
  have hcan : Vte.canvas { w.vte with con := d.2.2 } = w.vte.canvas := by rw [hd]; rfl
  refine ⟨⟨ht', h.child, ?_, by rw [hcan]; exact h.fine⟩, hcan, ?_⟩
  · rw [hd]
    have := h.normal
    exact ⟨this.state, this.mach, this.f7, this.f8, this.bce, this.gl, this.gr, this.glt, this.g0, this.g1, this.wrap, this.origin,
      this.back, this.pen, this.savedGl, this.savedGr, this.savedPen⟩
  · intro fs hf X Y hX hY hX' hY'
    have hX2 : X / fs.regular.width < w.vte.con.sizeX := Nat.div_lt_of_lt_mul (by rw [Nat.mul_comm]; exact hX')
    have hY2 : Y / fs.regular.height < w.vte.con.sizeY := Nat.div_lt_of_lt_mul (by rw [Nat.mul_comm]; exact hY')
    obtain ⟨j, m, h1, h2, h3⟩ := C102_cells hink h.tended hn e rfl
      (fun i j hi hj => (h.fine.cell i j _ (live_shown hr hp.live hi hj)).attr)
      (fun ha => by rw [hp.nothing] at ha; cases ha) hf hX hY hX' hY'
    have hj : j = X / fs.regular.width := by
      rcases h1 with h1 | ⟨h1, h4⟩
      · exact h1
      · rw [(h.fine.cell _ j _ (live_shown hr hp.live hY2 (by omega))).width] at h4
        cases h4
    subst hj
    refine ⟨_, m, live_shown hr hp.live hY2 hX2, h2, ?_⟩
    rw [Nat.mod_eq_sub_div_mul (x := X)]
    have hcur : w.vte.con.view.cursorAt (Y / fs.regular.height) (X / fs.regular.width) =
        (!w.vte.con.view.flags.getLsbD 4 &&
          decide (Y / fs.regular.height = w.vte.canvas.y ∧ X / fs.regular.width = w.vte.canvas.col)) := by
      unfold View.cursorAt
      have ht : w.vte.con.view.topIndex = w.vte.con.view.sb.length := by
        unfold View.topIndex
        rw [hp.live]
      rw [ht]
      congr 1
      apply decide_eq_decide.mpr
      exact ⟨fun ⟨a, b⟩ => ⟨Nat.add_left_cancel a, b⟩, fun ⟨a, b⟩ => ⟨by rw [a]; rfl, b⟩⟩
    have hns : decide (w.vte.con.view.Selected (Y / fs.regular.height) (X / fs.regular.width)) = false :=
      decide_eq_false (by rintro ⟨k, _⟩; rw [hp.nothing] at k; cases k)
    rw [hcur, hns, Bool.xor_false] at h3
    exact h3

/-- **C102**: a program that resets the terminal and then prints whatever it likes without scroll regions, wide characters,
origin mode, the alternate screen, other tab stops and saved positions (see C85) sees all of it appear: when its output has
been read, in any portions and with any neat drawings in between, even in the middle of a sequence, and the window is drawn
with the live screen in view and nothing selected, every pixel of every cell is the one that belongs to the reference terminal after these commands, even though only cells that have changed since
the last drawing are drawn. -/
theorem C102_program {ink : Ink} (hink : ∀ k ch n b, ink k ch n = some b → ∀ o, b o < 256) {w w1 w2 : Wid} (h : w.Tended ink)
    {t t1 : Tty} (ht : w.pty = some t) (h0 : t.io.inq = []) (hb : w.vte.Between) {l : List Cmd}
    (hv : ∀ a ∈ l, a.Valid w.vte.con.sizeY ∧ a.Plain) {es : List Wid.Ev} (ho : w.Watched ink es)
    (hc : childBytes es = 27 :: 99 :: l.flatMap Cmd.bytes) (e1 : Wid.runAll ink es w = .ok w1) (ht1 : w1.pty = some t1)
    (h1 : t1.io.inq = []) (hp : w1.Plainly) (e2 : w1.step ink .draw = .ok w2) :
    w2.Displays ink ((Canvas.initial w.vte.con.sizeX w.vte.con.sizeY w.vte.defAttr w.vte.palette).run l) := by
  have hth : ∀ a ∈ l, a.Thin := by
    intro a ha
    have := (hv a ha).2
    cases a <;> first | exact this | trivial
  obtain ⟨k1, k2⟩ := C102_start h ht h0 hb (fun a ha => ⟨(hv a ha).1, hth a ha⟩)
    (Usual.tameAll l ⟨rfl, rfl, Nat.zero_le _, (tended_live h).alive.sane.vte.ok.1.con.geo.x0, rfl, rfl⟩ (fun a ha => (hv a ha).2))
    ho hc e1 ht1 h1
  rw [← k2]
  exact (C102_draw hink k1 hp e2).2.2

/-- A font with some ink. -/
def dotInk : Ink := fun _ _ _ => some fun o => o * 37 % 256

/-- `P` holds after the events. -/
def after (es : List Wid.Ev) (P : Wid → Bool) (w : Wid) : Bool :=
  match Wid.runAll dotInk es w with
  | .ok w => P w
  | .error _ => false

theorem exists_of_after {es : List Wid.Ev} {P : Wid → Bool} {w : Wid} (h : after es P w = true) :
    ∃ w', Wid.runAll dotInk es w = .ok w' ∧ P w' = true := by
  unfold after at h
  split at h
  · exact ⟨_, by assumption, h⟩
  · cases h

theorem outputs_watched {ink : Ink} : ∀ {es : List Wid.Ev} {w : Wid}, (∀ e ∈ es, e.Output) → w.Watched ink es
  | [], _, _ => trivial
  | _ :: _, _, h => ⟨Or.inl (h _ List.mem_cons_self), fun _ _ => outputs_watched fun e he => h e (List.mem_cons_of_mem _ he)⟩

theorem watched_between {ink : Ink} {es2 : List Wid.Ev} (h2 : ∀ e ∈ es2, e.Output) : ∀ {es1 : List Wid.Ev} {w wm : Wid},
    (∀ e ∈ es1, e.Output) → Wid.runAll ink es1 w = .ok wm → wm.Neat → wm.vte.con.ageReset = false →
    w.Watched ink (es1 ++ .draw :: es2)
  | [], w, wm, _, e, hn, ha => by
    injection e with e
    subst e
    exact ⟨Or.inr ⟨rfl, hn, ha⟩, fun _ _ => outputs_watched h2⟩
  | a :: es1, w, wm, h1, e, hn, ha => by
    refine ⟨Or.inl (h1 _ List.mem_cons_self), fun w' e' => ?_⟩
    unfold Wid.runAll at e
    rw [e'] at e
    exact watched_between h2 (fun e he => h1 e (List.mem_cons_of_mem _ he)) e hn ha

/-- `Wid.Neat` for a window without wide characters. -/
def allNarrow (w : Wid) : Bool :=
  !w.showDirty && (match w.faces with | some fs => fs.bold.isNone && fs.italic.isNone | none => false) &&
    decide (w.vte.con.view.sbPos = none) && !w.vte.con.ageReset &&
    (List.range w.vte.con.sizeY).all fun i => (List.range w.vte.con.sizeX).all fun j =>
      decide ((w.vte.con.view.shown i j).width = 1)

theorem neat_of_plain {w : Wid} (h : allNarrow w = true) : w.Neat ∧ w.vte.con.ageReset = false := by
  unfold allNarrow at h
  simp only [Bool.and_eq_true, Bool.not_eq_true', decide_eq_true_eq, List.all_eq_true, List.mem_range] at h
  obtain ⟨⟨⟨⟨h1, h2⟩, h3⟩, h4⟩, h5⟩ := h
  refine ⟨⟨h1, ?_, h3, ?_, ?_⟩, h4⟩
  · intro fs hfs
    rw [hfs] at h2
    dsimp only at h2
    rw [Bool.and_eq_true, Option.isNone_iff_eq_none, Option.isNone_iff_eq_none] at h2
    exact ⟨by rw [h2.1]; exact fun _ e => (nomatch e), by rw [h2.2]; exact fun _ e => (nomatch e)⟩
  · intro i j hi hj k
    rw [h5 i hi j (by omega)] at k
    cases k
  · intro i j hi hj k
    rw [h5 i hi j hj] at k
    cases k

/-- A bold red A, and a B in the next row. -/
def bold : List Cmd := [.style [[49], [51, 49]], .text 65 1, .lineFeed, .text 66 1]

def boldOut1 : List Wid.Ev :=
  [.child [27, 99, 27, 91, 49, 59], .dispatch (.some 3) (.some 0) .again .again]

def boldOut2 : List Wid.Ev := [.child [51, 49, 109, 65, 10, 66], .idle (.some 0) (.some 99) .again .again]

/-- The window is drawn in the middle of the sequence that selects bold and red. -/
def boldOut : List Wid.Ev := boldOut1 ++ .draw :: boldOut2

/-- All hypotheses hold of a window of 50 by 40 pixels, and the drawing succeeds. -/
example : ∃ w w1 w2 : Wid, w.Tended dotInk ∧ (∃ t, w.pty = some t ∧ t.io.inq = []) ∧ w.vte.Between ∧
    (∀ a ∈ bold, a.Valid w.vte.con.sizeY ∧ a.Plain) ∧ w.Watched dotInk boldOut ∧
    childBytes boldOut = 27 :: 99 :: bold.flatMap Cmd.bytes ∧ Wid.runAll dotInk boldOut w = .ok w1 ∧
    (∃ t, w1.pty = some t ∧ t.io.inq = []) ∧ w1.Plainly ∧ w1.step dotInk .draw = .ok w2 := by
  have key : (match wstart with
      | .ok w => after [.fork (some faces10)] (fun w => w.faces.isSome && after [.configure 50 40 true] (fun w =>
          decide w.vte.Between && (match w.pty with | some t => decide (t.io.inq = []) | none => false) &&
          after boldOut1 allNarrow w && after boldOut (fun w =>
            (match w.pty with | some t => decide (t.io.inq = []) | none => false) &&
            (!w.showDirty && (match w.faces with | some fs => fs.bold.isNone && fs.italic.isNone | none => false) &&
              decide (w.vte.con.view.sbPos = none) && !w.vte.con.view.selActive) &&
            after [.draw] (fun _ => true) w) w) w) w
      | .error _ => false) = true := by decide +kernel
  split at key
  · rename_i w0 hw0
    have hl0 := wstart_live hw0 dotInk
    obtain ⟨wa, ea, key⟩ := exists_of_after key
    rw [Bool.and_eq_true] at key
    obtain ⟨ka, key⟩ := key
    obtain ⟨w, ew, key⟩ := exists_of_after key
    rw [Bool.and_eq_true, Bool.and_eq_true, Bool.and_eq_true, decide_eq_true_eq] at key
    obtain ⟨⟨⟨k1, k2⟩, km⟩, key⟩ := key
    obtain ⟨wm, em, km⟩ := exists_of_after km
    obtain ⟨km, kr⟩ := neat_of_plain km
    obtain ⟨w1, e1, key⟩ := exists_of_after key
    simp only [Bool.and_eq_true, Bool.not_eq_true', decide_eq_true_eq] at key
    obtain ⟨⟨k3, ⟨⟨k4, k5⟩, k6⟩, k7⟩, key⟩ := key
    obtain ⟨w2, e2, _⟩ := exists_of_after key
    have hla : Live dotInk wa := hl0.runAll (by intro e he; rw [List.mem_singleton.mp he]; exact forks_valid faces10_fresh) ea
    refine ⟨w, w1, w2, ?_, ?_, k1, ?_, ?_, by decide +kernel, e1, ?_, ?_, ?_⟩
    · obtain ⟨wb, eb, ew⟩ := bind_ok ew
      injection ew with ew
      subst ew
      exact .sized hla ka ⟨by decide, by decide⟩ (by show 4 * (max 50 1 * max 40 1) < _; decide) eb
    · split at k2
      · rename_i t ht
        exact ⟨t, ht, of_decide_eq_true k2⟩
      · cases k2
    · intro a ha
      simp only [bold, List.mem_cons, List.not_mem_nil, or_false] at ha
      rcases ha with rfl | rfl | rfl | rfl
      · exact ⟨⟨by simp, by unfold IsDigit; decide, by intro q e; cases e⟩, trivial⟩
      · exact ⟨⟨by decide, by unfold Graphic; decide, by decide +kernel⟩, by show 1 ≤ 1; decide⟩
      · exact ⟨trivial, trivial⟩
      · exact ⟨⟨by decide, by unfold Graphic; decide, by decide +kernel⟩, by show 1 ≤ 1; decide⟩
    · refine watched_between ?_ ?_ em km kr
      · intro e he
        simp only [boldOut2, List.mem_cons, List.not_mem_nil, or_false] at he
        rcases he with rfl | rfl <;> trivial
      · intro e he
        simp only [boldOut1, List.mem_cons, List.not_mem_nil, or_false] at he
        rcases he with rfl | rfl <;> trivial
    · split at k3
      · rename_i t ht
        exact ⟨t, ht, of_decide_eq_true k3⟩
      · cases k3
    · refine ⟨k4, ?_, k6, k7⟩
      intro fs hfs
      rw [hfs] at k5
      dsimp only at k5
      rw [Bool.and_eq_true, Option.isNone_iff_eq_none, Option.isNone_iff_eq_none] at k5
      exact ⟨by rw [k5.1]; exact fun _ e => (nomatch e), by rw [k5.2]; exact fun _ e => (nomatch e)⟩
    · obtain ⟨wb, eb, e2⟩ := bind_ok e2
      injection e2 with e2
      subst e2
      exact eb
  · cases key

end Verif.Props.Gtk
