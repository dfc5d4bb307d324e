import Verif.Proofs.Gtk.LiveExample
import Verif.Proofs.Vte.Driven
import Verif.Props.Screen.Admin

/-!
C94: the window, the screen and the pty have the same number of cells.
-/

namespace Verif.Props.Gtk
open Verif Verif.Gtk Verif.Gtk.Wid

/-- The screen has the size that a window of `x` by `y` pixels has room for, and the pty has that size. -/
structure Fit (cw ch x y : Nat) (w : Wid) : Prop where
  cell : w.cell = some (cw, ch)
  columns : w.columns = cells x (some cw)
  rows : w.rows = cells y (some ch)
  sizeX : w.vte.con.view.sizeX = w.columns
  sizeY : w.vte.con.view.sizeY = w.rows
  pty : ∀ t, w.pty = some t → t.cols = w.columns ∧ t.rows = w.rows
  small : w.columns < 65536 ∧ w.rows < 65536

theorem fit_step {ink : Ink} {cw ch x y : Nat} {e : Wid.Ev} {w w' : Wid} (ha : Alive w) (hf : Fit cw ch x y w) (hv : e.Valid)
    (h1 : ∀ x y m, e ≠ .configure x y m) (h2 : ∀ n, e ≠ .font n) (h : w.step ink e = .ok w') : Fit cw ch x y w' := by
  by_cases hl : e.layout = false
  · have k := step_kept ha.sound hl h
    obtain ⟨cs, evs, d⟩ := step_did ha.sane.vte hv (by rintro rfl; cases hl) (by rintro n rfl; cases hl) h
    have kk := (made_keeps ha.sane.vte d.made d.run).size h1
    refine ⟨k.cell.trans hf.cell, k.columns.trans hf.columns, k.rows.trans hf.rows, by rw [kk.1, k.columns]; exact hf.sizeX,
      by rw [kk.2, k.rows]; exact hf.sizeY, ?_, by rw [k.columns, k.rows]; exact hf.small⟩
    intro t ht
    have kp := k.pty
    rw [ht] at kp
    cases hp : w.pty with
    | none => rw [hp] at kp; cases kp
    | some t0 =>
      rw [hp] at kp
      have := hf.pty t0 hp
      injection kp with kp
      injection kp with k1 k2
      rw [k.columns, k.rows, k1, k2]
      exact this
  · cases e with
    | configure a b m => exact absurd rfl (h1 a b m)
    | font n => exact absurd rfl (h2 n)
    | exit =>
      injection h with h
      subst h
      exact ⟨hf.cell, hf.columns, hf.rows, hf.sizeX, hf.sizeY, fun _ h => (nomatch h), hf.small⟩
    | fork new =>
      change w.fork new = _ at h
      unfold Wid.fork at h
      split at h
      · injection h with h
        subst h
        exact hf
      · have hfs : w.faces.isSome = true := by
          have := hf.cell
          unfold Wid.cell at this
          cases hw : w.faces with
          | none => rw [hw] at this; cases this
          | some fs => rfl
        rw [if_pos hfs] at h
        injection h with h
        subst h
        refine ⟨hf.cell, hf.columns, hf.rows, hf.sizeX, hf.sizeY, ?_, hf.small⟩
        intro t ht
        injection ht with ht
        subst ht
        exact ⟨Nat.mod_eq_of_lt hf.small.1, Nat.mod_eq_of_lt hf.small.2⟩
    | _ => exact absurd rfl hl

theorem fit_run {ink : Ink} {cw ch x y : Nat} : ∀ {es : List Wid.Ev} {w w' : Wid}, Alive w → Fit cw ch x y w →
    (∀ e ∈ es, e.Valid) → (∀ e ∈ es, (∀ x y m, e ≠ .configure x y m) ∧ ∀ n, e ≠ .font n) → runAll ink es w = .ok w' →
    Fit cw ch x y w' := by
  intro es
  induction es with
  | nil =>
    intro w w' _ hf _ _ h
    injection h with h
    subst h
    exact hf
  | cons e es ih =>
    intro w w' ha hf hv hn h
    obtain ⟨w1, h1, h⟩ := bind_ok h
    have he := hv e List.mem_cons_self
    have hne := hn e List.mem_cons_self
    exact ih (ha.step he h1) (fit_step ha hf he hne.1 hne.2 h1) (fun d hd => hv d (List.mem_cons_of_mem _ hd))
      (fun d hd => hn d (List.mem_cons_of_mem _ hd)) h

theorem cells_max {c : Nat} (h : 0 < c) (n : Nat) : cells n (some c) = max 1 (n / c) := by
  unfold cells
  dsimp only
  generalize n / c = q
  split <;> omega

theorem resized {s s' : Screen} (hr : s.Reachable) {x y : Nat} (hx : x < 2 ^ 30) (hy : y < 2 ^ 30)
    (e : s.resize x y = .ok (.ok, s')) : s'.view.sizeX = x ∧ s'.view.sizeY = y := by
  by_cases hn : s.sizeX = x ∧ s.sizeY = y
  · obtain ⟨rfl, rfl⟩ := hn
    rw [Screen.C17_same hr] at e
    injection e with e
    injection e with _ e
    subst e
    exact ⟨rfl, rfl⟩
  · have := Screen.C17_resize hr hx hy hn e
    exact ⟨by rw [this.eq], by rw [this.eq]⟩

/-- **C94** (partial): once the window has got a size while a font is there, whatever happens apart from further changes
of the size or of the font, the screen and the pty of the child have as many columns and rows as the window has room for,
and at least one. The pty may be opened before or later. What is missing: a child started before the window has a size
gets a pty of 1 by 1 (`C94_false_early`), and a change of the font leaves the screen at its size while the next pty
gets another one (`C94_false_font`). -/
theorem C94_partial {ink : Ink} {w w1 w2 : Wid} (h : Live ink w) {fs : Faces} (hf : w.faces = some fs) {x y : Nat} {m : Bool}
    (hv : (Wid.Ev.configure x y m).Valid) (e1 : w.step ink (.configure x y m) = .ok w1) {es : List Wid.Ev}
    (hes : ∀ e ∈ es, e.Valid) (hn : ∀ e ∈ es, (∀ x y m, e ≠ .configure x y m) ∧ ∀ n, e ≠ .font n)
    (e2 : Wid.runAll ink es w1 = .ok w2) :
    w2.vte.con.view.sizeX = max 1 (x / fs.regular.width) ∧ w2.vte.con.view.sizeY = max 1 (y / fs.regular.height) ∧
      ∀ t, w2.pty = some t → t.cols = w2.vte.con.view.sizeX ∧ t.rows = w2.vte.con.view.sizeY := by
  have ha := h.alive
  have hpos := ha.pos (fs.regular.width, fs.regular.height) (by unfold Wid.cell; rw [hf]; rfl)
  have h1 : Fit fs.regular.width fs.regular.height x y w1 := by
    obtain ⟨r, s, er, es, rfl⟩ := configure_ok e1
    have hsm := realloc_small er
    have hcl := cells_le x (w.faces.map (·.regular.width))
    have hrl := cells_le y (w.faces.map (·.regular.height))
    have hc : (w.recalculate x y).columns < 65536 := by show cells x _ < _; omega
    have hr : (w.recalculate x y).rows < 65536 := by show cells y _ < _; omega
    have hs := resized ha.sane.vte.con (by omega) (by omega) es
    refine ⟨?_, ?_, ?_, hs.1, hs.2, ?_, hc, hr⟩
    · show w.faces.map _ = _
      rw [hf]; rfl
    · show cells x (w.faces.map _) = _
      rw [hf]; rfl
    · show cells y (w.faces.map _) = _
      rw [hf]; rfl
    · intro t ht
      change w.pty.map _ = _ at ht
      cases hp : w.pty with
      | none => rw [hp] at ht; cases ht
      | some t0 =>
        rw [hp] at ht
        injection ht with ht
        subst ht
        exact ⟨Nat.mod_eq_of_lt hc, Nat.mod_eq_of_lt hr⟩
  have h2 := fit_run (ha.step hv e1) h1 hes hn e2
  rw [h2.sizeX, h2.sizeY, ← cells_max hpos.1, ← cells_max hpos.2]
  exact ⟨h2.columns, h2.rows, h2.pty⟩

/-- A window of 57 by 45 pixels with cells of 10 by 20; the child exists, prints two characters and is replaced by
another one. -/
example : ∃ w1 : Wid, Live noInk w1 ∧ w1.faces.isSome = true ∧ wholds [.fork (some faces10), .configure 57 45 true, .child [65, 66],
    .dispatch (.some 10) .again .again .again, .draw, .exit, .fork none, .sbSize 5] (fun w =>
      decide (w.vte.con.sizeX = 5) && decide (w.vte.con.sizeY = 2) &&
      decide (w.pty.map (fun t => (t.cols, t.rows)) = some (5, 2))) = true := by
  obtain ⟨w, h1, h2⟩ := exists_of_wholds (es := [.fork (some faces10)]) (P := fun w => w.faces.isSome)
    (by intro e he; rw [List.mem_singleton.mp he]; intro fs e; injection e with e; subst e; exact faces10_fresh)
    (by decide +kernel)
  exact ⟨w, h1, h2, by decide +kernel⟩

/-- The claim: the pty has the size of the screen. -/
def C94_claim : Prop := ∀ (ink : Ink) (w : Wid) (t : Tty), Live ink w → w.pty = some t →
  t.cols = w.vte.con.view.sizeX ∧ t.rows = w.vte.con.view.sizeY

theorem forks_valid {fs : Faces} (h : fs.Fresh) : (Wid.Ev.fork (some fs)).Valid := fun _ e => by
  injection e with e; subst e; exact h

/-- **C94** is false: a child that is started before the window has a size gets a pty of 1 by 1, while the screen has
80 by 24 cells. -/
theorem C94_false_early : ¬ C94_claim := by
  intro hc
  obtain ⟨w, h1, h2⟩ := exists_of_wholds (es := [.fork (some faces10)])
    (P := fun w => decide (w.vte.con.view.sizeX = 80) && decide (w.pty.map (fun t => (t.cols, t.rows)) = some (1, 1)))
    (by intro e he; rw [List.mem_singleton.mp he]; exact forks_valid faces10_fresh) (by decide +kernel)
  rw [Bool.and_eq_true, decide_eq_true_eq, decide_eq_true_eq] at h2
  cases hp : w.pty with
  | none => rw [hp] at h2; cases h2.2
  | some t =>
    rw [hp] at h2
    have e := h2.2
    injection e with e
    injection e with e _
    have := (hc noInk w t h1 hp).1
    rw [h2.1, e] at this
    exact absurd this (by decide)

/-- **C94** is false: after a change of the font the screen keeps its size; a child that is started then gets a pty for the
new one. -/
theorem C94_false_font : ¬ C94_claim := by
  intro hc
  obtain ⟨w, h1, h2⟩ := exists_of_wholds
    (es := [.fork (some faces10), .configure 50 40 true, .exit, .font (some faces5), .fork none])
    (P := fun w => decide (w.vte.con.view.sizeX = 5) && decide (w.pty.map (fun t => (t.cols, t.rows)) = some (10, 4)))
    (by
      intro e he
      simp only [List.mem_cons, List.not_mem_nil, or_false] at he
      rcases he with rfl | rfl | rfl | rfl | rfl
      · exact forks_valid faces10_fresh
      · exact ⟨by decide, by decide⟩
      · trivial
      · exact fun _ e => by injection e with e; subst e; exact faces5_fresh
      · exact fun _ e => (nomatch e)) (by decide +kernel)
  rw [Bool.and_eq_true, decide_eq_true_eq, decide_eq_true_eq] at h2
  cases hp : w.pty with
  | none => rw [hp] at h2; cases h2.2
  | some t =>
    rw [hp] at h2
    have e := h2.2
    injection e with e
    injection e with e _
    have := (hc noInk w t h1 hp).1
    rw [h2.1, e] at this
    exact absurd this (by decide)

end Verif.Props.Gtk
