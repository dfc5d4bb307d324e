import Verif.Spec.Drag
import Verif.Props.Gtk.Select
import Verif.Props.Screen.Render

/-!
C95: what a drag marks in the window.
-/

namespace Verif.Props.Gtk
open Verif Verif.Gtk Verif.Gtk.Wid

theorem selected_marked {v : View} {fs : Faces} {x0 y0 x y : Int} {p q : SelPos} (h0 : Under v fs x0 y0 p) (h1 : Under v fs x y q)
    (i j : Nat) : ({ v with selActive := true, selStart := p, selEnd := q } : View).Selected i j ↔ Marked fs x0 y0 x y i j := by
  obtain ⟨a1, a2, _⟩ := h0
  obtain ⟨b1, b2, _⟩ := h1
  unfold Marked Reads rowAt columnAt
  rw [← a1, ← b1]
  have e0 : y0 / (65536 * (fs.regular.height : Int)) = v.docRow p - v.topIndex := by omega
  have e1 : y / (65536 * (fs.regular.height : Int)) = v.docRow q - v.topIndex := by omega
  rw [e0, e1]
  show true = true ∧ ((View.NotAfter (v.docRow p) p.x (v.topIndex + i) j ∧ View.NotAfter (v.topIndex + i) j (v.docRow q) q.x) ∨
    (View.NotAfter (v.docRow q) q.x (v.topIndex + i) j ∧ View.NotAfter (v.topIndex + i) j (v.docRow p) p.x)) ↔ _
  clear e0 e1 a1 a2 b1 b2
  generalize v.docRow p = P, v.docRow q = Q, v.topIndex = t, p.x = c, q.x = d
  unfold View.NotAfter
  constructor
  · rintro ⟨_, ⟨h1, h2⟩ | ⟨h1, h2⟩⟩
    · exact Or.inl ⟨by omega, by omega⟩
    · exact Or.inr ⟨by omega, by omega⟩
  · rintro (⟨h1, h2⟩ | ⟨h1, h2⟩)
    · exact ⟨rfl, Or.inl ⟨by omega, by omega⟩⟩
    · exact ⟨rfl, Or.inr ⟨by omega, by omega⟩⟩

/-- **C95** (partial): after a drag as in `C95_drag_partial`, the screen is drawn with exactly those cells inverted, compared to
how they are drawn without a selection, that lie between the cell where the button was pressed and the one where
the mouse is, both included, in reading order of the window: also upwards, and while looking at the scrollback. -/
theorem C95_marked_partial {ink : Ink} {w : Wid} (h : Live ink w) {fs : Faces} (hf : w.faces = some fs)
    (hb : fs.regular.width * w.vte.con.view.sizeX < 4294967296 ∧ fs.regular.height * w.vte.con.view.sizeY < 4294967296)
    {time : Nat} (ht : time < 4294967296) {x0 y0 x1 y1 x y : Int} (h0 : Inside w.vte.con.view fs x0 y0)
    (h1 : (x0 - x1).natAbs > 3 * 65536 ∨ (y0 - y1).natAbs > 3 * 65536) (ms : List (Int × Int))
    (hm : ∀ m ∈ ms, 0 ≤ m.1 ∧ 0 ≤ m.2 ∧ m.1 < 281474976710656 ∧ m.2 < 281474976710656) (h2 : Inside w.vte.con.view fs x y) :
    ∃ w', Wid.runAll ink ([.button .single 1 time x0 y0, .motion x1 y1] ++ ms.map (fun m => .motion m.1 m.2) ++ [.motion x y]) w = .ok w' ∧
      ∀ cs age s, w'.vte.con.draw = .ok (cs, age, s) → ∀ c ∈ cs,
        c.attr.inverse = xor (xor (xor (w.vte.con.view.shown c.y c.x).attr.inverse (w.vte.con.view.cursorAt c.y c.x))
          (w.vte.con.flags.getLsbD 3)) (decide (Marked fs x0 y0 x y c.y c.x)) := by
  obtain ⟨w', p, q, r, hv, hp, hq, ⟨s', hs'⟩, _⟩ := C95_drag_partial h hf hb time h0 h1 ms hm h2
  refine ⟨w', r, ?_⟩
  intro cs age s e c hc
  have hr : Screen.Reachable w'.vte.con := by
    refine Vte.Reachable.con (h.alive.runAll ?_ r).sane.vte
    intro e he
    simp only [List.cons_append, List.nil_append, List.mem_cons, List.mem_append, List.mem_map, List.not_mem_nil, or_false] at he
    rcases he with rfl | rfl | ⟨m, _, rfl⟩ | rfl
    · exact ht
    · trivial
    · trivial
    · trivial
  have k := Screen.C31_highlight hr e (congrArg View.selActive hv :)
    (by rw [show w'.vte.con.selStart = p from (congrArg View.selStart hv :), hv]; exact hp.anchored)
    (by rw [show w'.vte.con.selEnd = q from (congrArg View.selEnd hv :), hv]; exact hq.anchored) c hc
  rw [k, show w'.vte.con.flags = w.vte.con.flags from (congrArg View.flags hv :), hv]
  congr 1
  exact decide_eq_decide.mpr (selected_marked hp hq c.y c.x)

/-- For example, from below `b` up to `a`: the rest of the first row and the first two cells of the second one are marked, the other
cells are not. -/
example : ∃ (w w' : Wid) (fs : Faces), Live noInk w ∧ w.faces = some fs ∧
    Wid.runAll noInk [.button .single 1 7 (px 12) (px 25), .motion (px 30) (px 35), .motion (px 4) (px 5)] w = .ok w' ∧
    ∀ i j : Nat, i < 2 → (Marked fs (px 12) (px 25) (px 4) (px 5) i j ↔ i = 0 ∨ j ≤ 1) := by
  obtain ⟨w, h1, h2⟩ := exists_of_wholds typed_valid (P := fits) (by decide +kernel)
  obtain ⟨fs, hf, a, b, c, d⟩ := fits_faces h2
  obtain ⟨w', r, _⟩ := C95_marked_partial h1 hf (by rw [a, b, c, d]; decide) (time := 7) (by decide) (x1 := px 30) (y1 := px 35)
    (fits_inside a b c d (x := px 12) (y := px 25) (by decide) (by decide)) (by decide) [] (by intro m hm; cases hm)
    (fits_inside a b c d (x := px 4) (y := px 5) (by decide) (by decide))
  refine ⟨w, w', fs, h1, hf, r, ?_⟩
  intro i j hi
  unfold Marked Reads rowAt columnAt
  rw [a, b, show px 25 / (65536 * ((20 : Nat) : Int)) = 1 by decide, show px 5 / (65536 * ((20 : Nat) : Int)) = 0 by decide,
    show px 12 / (65536 * ((10 : Nat) : Int)) = 1 by decide, show px 4 / (65536 * ((10 : Nat) : Int)) = 0 by decide]
  constructor
  · rintro (⟨h1, h2⟩ | ⟨h1, h2⟩) <;> omega
  · rintro (h | h)
    · exact Or.inr ⟨by omega, by omega⟩
    · exact Or.inr ⟨by omega, by omega⟩

/-- **C95** (partial): the second press of a double click, or the third of a triple click, selects the cell at the mouse, and
from then on each motion, also the first one and however short, selects from there to the cell where the mouse is. Nothing else
changes, and nothing is sent. As in `C95_drag_partial`, positions left of or above the window are missing. (The comments in
the code announce that a double click will select a word and a triple click a line.) -/
theorem C95_double_partial {ink : Ink} {w : Wid} (h : Live ink w) {fs : Faces} (hf : w.faces = some fs)
    (hb : fs.regular.width * w.vte.con.view.sizeX < 4294967296 ∧ fs.regular.height * w.vte.con.view.sizeY < 4294967296)
    {k : Press} (hk : k = .double ∨ k = .triple) (time : Nat) {x0 y0 : Int} (h0 : Inside w.vte.con.view fs x0 y0) :
    ∃ w1 p, Wid.runAll ink [.button k 1 time x0 y0] w = .ok w1 ∧ Under w.vte.con.view fs x0 y0 p ∧
      w1.vte.con.view = { w.vte.con.view with selActive := true, selStart := p, selEnd := p } ∧
      (∃ s, w1.vte = { w.vte with con := s }) ∧ w1.pty = w.pty ∧ w1.queued = true ∧
      ∀ (ms : List (Int × Int)) (x y : Int),
        (∀ m ∈ ms, 0 ≤ m.1 ∧ 0 ≤ m.2 ∧ m.1 < 281474976710656 ∧ m.2 < 281474976710656) → Inside w.vte.con.view fs x y →
        ∃ w' q, Wid.runAll ink (ms.map (fun m => .motion m.1 m.2) ++ [.motion x y]) w1 = .ok w' ∧ Under w.vte.con.view fs x y q ∧
          w'.vte.con.view = { w.vte.con.view with selActive := true, selStart := p, selEnd := q } ∧
          (∃ s, w'.vte = { w.vte with con := s }) ∧ w'.pty = w.pty := by
  have ha := h.alive
  have hpos := ha.pos (fs.regular.width, fs.regular.height) (by unfold Wid.cell; rw [hf]; rfl)
  have hcon := Vte.Reachable.con ha.sane.vte
  obtain ⟨hx0, hy0⟩ := far_inside h0 hb
  have c0 := inside_cell h0 hpos.1 hpos.2
  have s1 : w.step ink (.button k 1 time x0 y0) = .ok { w with
      sel := 2
      vte := { w.vte with con := w.vte.con.selectionStart (x0 / (65536 * fs.regular.width)).toNat (y0 / (65536 * fs.regular.height)).toNat }
      queued := true } := by
    have e := selectAt_eq (w := { w with sel := 2 }) (f := .selectionStart) (g := fun a b => w.vte.con.selectionStart a b)
      h0.x0 h0.y0 hx0 hy0 hpos.1 hpos.2 (fun _ _ => rfl)
    show w.button k 1 time x0 y0 = _
    unfold button
    rw [if_neg (by decide)]
    rcases hk with rfl | rfl <;> (rw [hf]; dsimp only; rw [← hf]; exact e)
  obtain ⟨p, p1, p2, p3, p4⟩ := Screen.C30_start hcon (x := (x0 / (65536 * fs.regular.width)).toNat) c0.2
  have n0 : 0 ≤ x0 / (65536 * (fs.regular.width : Int)) := Int.ediv_nonneg h0.x0 (by omega)
  have n1 : 0 ≤ y0 / (65536 * (fs.regular.height : Int)) := Int.ediv_nonneg h0.y0 (by omega)
  have d0 : Dragging w p { w with
        sel := 2
        vte := { w.vte with con := w.vte.con.selectionStart (x0 / (65536 * fs.regular.width)).toNat (y0 / (65536 * fs.regular.height)).toNat }
        queued := true } :=
    ⟨hcon.step (c := .selectionStart _ _) trivial rfl, ⟨p, p1⟩, ⟨_, rfl⟩, rfl, rfl, rfl⟩
  refine ⟨{ w with
      sel := 2
      vte := { w.vte with con := w.vte.con.selectionStart (x0 / (65536 * fs.regular.width)).toNat (y0 / (65536 * fs.regular.height)).toNat }
      queued := true }, p, ?_, ⟨?_, ?_, p4 c0.1⟩, p1, ⟨_, rfl⟩, rfl, rfl, ?_⟩
  · show (w.step ink _ >>= fun w => .ok w) = _
    rw [s1]
    rfl
  · rw [p2, Int.toNat_of_nonneg n0]
  · rw [p3, Int.natCast_add, Int.toNat_of_nonneg n1]
  · intro ms x y hm h2
    obtain ⟨hx, hy⟩ := far_inside h2 hb
    have c2 := inside_cell h2 hpos.1 hpos.2
    obtain ⟨w2, r2, d2⟩ := Dragging.motions (ink := ink) hf hpos.1 hpos.2 ms d0 hm
    obtain ⟨w3, r3, d3, hw3⟩ := d2.motion (ink := ink) hf h2.x0 h2.y0 hx hy hpos.1 hpos.2
    obtain ⟨q2, hq2⟩ := d2.view
    have hact : w2.vte.con.selActive = true := (congrArg View.selActive hq2 :)
    have hsy : w2.vte.con.sizeY = w.vte.con.view.sizeY := (congrArg View.sizeY hq2 :)
    obtain ⟨q, q1, q3, q4, q5⟩ := (Screen.C30_target d2.con (x := (x / (65536 * fs.regular.width)).toNat) (by
      rw [hsy]; exact c2.2)).1 hact
    have n2 : 0 ≤ x / (65536 * (fs.regular.width : Int)) := Int.ediv_nonneg h2.x0 (by omega)
    have n3 : 0 ≤ y / (65536 * (fs.regular.height : Int)) := Int.ediv_nonneg h2.y0 (by omega)
    refine ⟨w3, q, ?_, ⟨?_, ?_, ?_⟩, ?_, d3.vte, d3.pty⟩
    · rw [Wid.runAll_append, r2, wok_bind]
      show (w2.step ink _ >>= fun w => .ok w) = _
      rw [r3]
      rfl
    · rw [q3, Int.toNat_of_nonneg n2]
    · have : w2.vte.con.view.docRow q = w.vte.con.view.docRow q := by rw [hq2]; rfl
      rw [this] at q4
      have ht : w2.vte.con.view.topIndex = w.vte.con.view.topIndex := by rw [hq2]
      rw [q4, ht, Int.natCast_add, Int.toNat_of_nonneg n3]
    · have hsx : w2.vte.con.sizeX = w.vte.con.view.sizeX := (congrArg View.sizeX hq2 :)
      have := q5 (by rw [hsx]; exact c2.1)
      rw [hq2] at this
      exact this
    · rw [hw3, q1, hq2]

/-- For example a double click on `a`, and one motion of a single pixel into the next cell. -/
example : ∃ (w w1 w' : Wid) (fs : Faces) (p q : SelPos), Live noInk w ∧ w.faces = some fs ∧
    Wid.runAll noInk [.button .double 1 7 (px 9) (px 5)] w = .ok w1 ∧ w1.vte.con.view.selEnd = p ∧
    Wid.runAll noInk [.motion (px 10) (px 5)] w1 = .ok w' ∧ w'.vte.con.view.selEnd = q ∧ p.x = 0 ∧ q.x = 1 := by
  obtain ⟨w, h1, h2⟩ := exists_of_wholds typed_valid (P := fits) (by decide +kernel)
  obtain ⟨fs, hf, a, b, c, d⟩ := fits_faces h2
  obtain ⟨w1, p, r1, u1, v1, _, _, _, r⟩ := C95_double_partial h1 hf (by rw [a, b, c, d]; decide) (k := .double) (Or.inl rfl) 7
    (fits_inside a b c d (x := px 9) (y := px 5) (by decide) (by decide))
  obtain ⟨w', q, r2, u2, v2, _⟩ := r [] (px 10) (px 5) (by intro m hm; cases hm)
    (fits_inside a b c d (x := px 10) (y := px 5) (by decide) (by decide))
  refine ⟨w, w1, w', fs, p, q, h1, hf, r1, by rw [v1], r2, by rw [v2], ?_, ?_⟩
  · have := u1.1
    rw [a] at this
    rw [show px 9 / (65536 * ((10 : Nat) : Int)) = 0 by decide] at this
    omega
  · have := u2.1
    rw [a] at this
    rw [show px 10 / (65536 * ((10 : Nat) : Int)) = 1 by decide] at this
    omega

end Verif.Props.Gtk
