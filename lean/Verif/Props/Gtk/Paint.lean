import Verif.Model.Gtk.Paint
import Verif.Props.Gtk.Window

/-!
# C112: all of the window is painted
-/

namespace Verif.Props.Gtk

open Verif Verif.Gtk Verif.Vte

/-- The claim: after a drawing every pixel of the window has a colour. -/
def C112_claim : Prop :=
  ∀ ink w w', Live ink w → w.step ink .draw = .ok w' → ∀ X Y, X < w'.rend.width → Y < w'.rend.height →
    w'.painted X Y ≠ none

/-- A vertical line. -/
theorem crossing_vertical (x y a b c : Nat) : crossing x y ((a, b), (a, c)) =
    if a ≤ x then 0 else if b ≤ y ∧ y < c then 1 else if c ≤ y ∧ y < b then -1 else 0 := by
  have hz : ((a : Int) - a) = 0 := by omega
  unfold crossing
  simp only [hz, Int.zero_mul, Int.add_zero]
  have pos : ∀ {u v : Int}, 0 < u → (0 < u * v ↔ 0 < v) := by
    intro u v hu
    constructor
    · intro h
      rcases Int.lt_or_le 0 v with hv | hv
      · exact hv
      · have := Int.mul_nonpos_of_nonneg_of_nonpos (Int.le_of_lt hu) hv; omega
    · exact Int.mul_pos hu
  have neg : ∀ {u v : Int}, u < 0 → (u * v < 0 ↔ 0 < v) := by
    intro u v hu
    have := pos (u := -u) (v := v) (by omega)
    rw [Int.neg_mul] at this
    omega
  by_cases h1 : b ≤ y ∧ y < c
  · have hs := pos (u := (c : Int) - b) (v := 2 * a - (2 * x + 1)) (by omega)
    by_cases h2 : a ≤ x
    · rw [if_neg (by rw [hs]; omega), if_neg (by omega), if_pos h2]
    · rw [if_pos (by rw [hs]; omega), if_neg h2, if_pos h1]
  · rw [if_neg (by omega)]
    by_cases h3 : c ≤ y ∧ y < b
    · have hs := neg (u := (c : Int) - b) (v := 2 * a - (2 * x + 1)) (by omega)
      by_cases h2 : a ≤ x
      · rw [if_neg (by rw [hs]; omega), if_pos h2]
      · rw [if_pos (by rw [hs]; omega), if_neg h2, if_neg h1, if_pos h3]
    · rw [if_neg (by omega), if_neg h1, if_neg h3]
      split <;> rfl

/-- A horizontal line. -/
theorem crossing_horizontal (x y a b c : Nat) : crossing x y ((a, b), (c, b)) = 0 := by
  unfold crossing
  dsimp only
  rw [if_neg (by omega), if_neg (by omega)]

/-- **C112**: the path around the part without cells encloses exactly the pixels of the window that belong to no cell,
also if the cells do not fit into the window. -/
theorem C112_area {W H rw rh X Y : Nat} (hX : X < rw) (hY : Y < rh) :
    winding (padding W H rw rh) X Y ≠ 0 ↔ W ≤ X ∨ H ≤ Y := by
  simp only [winding, padding, edges, List.drop, List.take, List.cons_append, List.nil_append, List.zip_cons_cons, List.zip_nil_left,
    List.map, List.foldr, crossing_vertical, crossing_horizontal]
  repeat' split
  all_goals omega

/-- Cells of 20 by 30 pixels together in a window of 25 by 25. -/
example : winding (padding 20 30 25 25) 22 10 ≠ 0 ∧ winding (padding 20 30 25 25) 19 24 = 0 := by decide

/-- **C112**: the part of the window without cells is black, always. -/
theorem C112_margin {ink : Ink} {w : Wid} (h : Live ink w) {fs : Faces} (hf : w.faces = some fs)
    (h1 : w.vte.con.sizeX * fs.regular.width < 4294967296) (h2 : w.vte.con.sizeY * fs.regular.height < 4294967296) {X Y : Nat}
    (hX : X < w.rend.width) (hY : Y < w.rend.height)
    (ho : w.vte.con.sizeX * fs.regular.width ≤ X ∨ w.vte.con.sizeY * fs.regular.height ≤ Y) :
    w.painted X Y = some (opaque32 ⟨0, 0, 0⟩) := by
  unfold Wid.painted
  rw [hf]
  dsimp only
  rw [show u32 (w.vte.con.sizeX * fs.regular.width) = w.vte.con.sizeX * fs.regular.width from Nat.mod_eq_of_lt h1,
    show u32 (w.vte.con.sizeY * fs.regular.height) = w.vte.con.sizeY * fs.regular.height from Nat.mod_eq_of_lt h2,
    if_pos ((C112_area hX hY).mpr ho)]
  unfold Wid.backdrop
  rw [h.hued.black.1, h.hued.black.2.1, h.hued.black.2.2]
  rfl

/-- **C112**: so is all of the window before there are faces. -/
theorem C112_blank {ink : Ink} {w : Wid} (h : Live ink w) (hf : w.faces = none) (X Y : Nat) :
    w.painted X Y = some (opaque32 ⟨0, 0, 0⟩) := by
  unfold Wid.painted
  rw [hf]
  dsimp only
  unfold Wid.backdrop
  rw [h.hued.black.1, h.hued.black.2.1, h.hued.black.2.2]
  rfl

/-- **C112**: a pixel of a cell is taken from the shadow buffer. -/
theorem C112_copied {w : Wid} {fs : Faces} (hf : w.faces = some fs)
    (h1 : w.vte.con.sizeX * fs.regular.width < 4294967296) (h2 : w.vte.con.sizeY * fs.regular.height < 4294967296) {X Y : Nat}
    (hX : X < w.rend.width) (hY : Y < w.rend.height)
    (hi : X < w.vte.con.sizeX * fs.regular.width ∧ Y < w.vte.con.sizeY * fs.regular.height) :
    w.painted X Y = w.rend.at X Y := by
  unfold Wid.painted
  rw [hf]
  dsimp only
  rw [show u32 (w.vte.con.sizeX * fs.regular.width) = w.vte.con.sizeX * fs.regular.width from Nat.mod_eq_of_lt h1,
    show u32 (w.vte.con.sizeY * fs.regular.height) = w.vte.con.sizeY * fs.regular.height from Nat.mod_eq_of_lt h2,
    if_neg]
  · rfl
  · rw [C112_area hX hY]
    omega

/-- **C112**: if all drawings since the window got its size were neat, every pixel of the window has a colour after
another one, whatever the child has written, and whatever the buffer contained when it was allocated. Without this
condition it is false (`C112_false_font`, `C112_false_half`). -/
theorem C112_defined_partial {ink : Ink} {w w' : Wid} (h : w.Tended ink) (hn : w.Neat) (e : w.step ink .draw = .ok w') {X Y : Nat}
    (hX : X < w'.rend.width) (hY : Y < w'.rend.height) : w'.painted X Y ≠ none := by
  have ha := (tended_live h).alive
  have hr := Vte.Reachable.con ha.sane.vte
  have hl' : Live ink w' := (tended_live h).step (e := .draw) trivial e
  obtain ⟨fs', hw'⟩ := tended_window (.draw h hn e)
  have h32 : w'.vte.con.sizeX * fs'.regular.width < 4294967296 :=
    Nat.lt_of_le_of_lt (Nat.mul_le_mul_right _ (Nat.le_succ _)) hw'.w32
  by_cases hi : X < w'.vte.con.sizeX * fs'.regular.width ∧ Y < w'.vte.con.sizeY * fs'.regular.height
  · rw [C112_copied hw'.faces h32 hw'.h32 hX hY hi]
    obtain ⟨fs0, hw⟩ := tended_window h
    obtain ⟨b, hs⟩ := hw.shown
    obtain ⟨d, p, ed, ep, rfl⟩ := Wid.drawn_ok e hw.faces
    have hf := hw'.faces
    injection hf with hf
    subst hf
    rw [hn.marks] at ep
    have hm := (Wid.rendererDraw_metrics hs.faces.sound ep).2
    have ht := neat_tidy (b := b) hw hr hn (calls := d.1) (age := d.2.1) (s := d.2.2) ed
    have hg := draw_positions (cs := d.1) (age := d.2.1) (s' := d.2.2) hr ed
    have hsz : d.2.2.sizeX = w.vte.con.sizeX ∧ d.2.2.sizeY = w.vte.con.sizeY := by
      rw [Screen.draw_eq hr.inv.geo] at ed
      injection ed with ed
      rw [← ed]
      exact ⟨rfl, rfl⟩
    have hi1 : X < d.2.2.sizeX * p.1.regular.width := hi.1
    have hi2 : Y < d.2.2.sizeY * p.1.regular.height := hi.2
    rw [hsz.1, hm.regular.width] at hi1
    rw [hsz.2, hm.regular.height] at hi2
    obtain ⟨c, hc, ho⟩ := owner_exists ht hg (fs := fs0) (X := X) (Y := Y) hi1 hi2
    rw [hs.painted rfl (calls := d.1) (age := d.2.1) (s := d.2.2) ed ht (fs := p.1) (r := p.2) ep c hc X Y hX hY ho]
    exact fun h => nomatch h
  · rw [C112_margin hl' hw'.faces h32 hw'.h32 hX hY (by omega)]
    exact fun h => nomatch h

/-- **C112**, joined with C102: when the output of a program that resets the terminal has been read and the window is
drawn, each pixel of the window is either one of the cell of the reference terminal at this place, or black if there is
no cell. A window that meets all hypotheses is the example of C102 (`bold`). -/
theorem C112_program {ink : Ink} (hink : ∀ k ch n b, ink k ch n = some b → ∀ o, b o < 256) {w w1 w2 : Wid} (h : w.Tended ink)
    {t t1 : Tty} (ht : w.pty = some t) (h0 : t.io.inq = []) (hb : w.vte.Between) {l : List Cmd}
    (hv : ∀ a ∈ l, a.Valid w.vte.con.sizeY ∧ a.Plain) {es : List Wid.Ev} (ho : w.Watched ink es)
    (hc : childBytes es = 27 :: 99 :: l.flatMap Cmd.bytes) (e1 : Wid.runAll ink es w = .ok w1) (ht1 : w1.pty = some t1)
    (h1 : t1.io.inq = []) (hp : w1.Plainly) (e2 : w1.step ink .draw = .ok w2) {c : Canvas}
    (hcan : (Canvas.initial w.vte.con.sizeX w.vte.con.sizeY w.vte.defAttr w.vte.palette).run l = c) :
    ∃ fs, w2.faces = some fs ∧ ∀ X Y, X < w2.rend.width → Y < w2.rend.height →
      (c.h * fs.regular.height ≤ Y ∨ c.w * fs.regular.width ≤ X) ∧ w2.painted X Y = some (opaque32 ⟨0, 0, 0⟩) ∨
      ∃ g m, c.cell (Y / fs.regular.height) (X / fs.regular.width) = some g ∧ w2.painted X Y = some (opaque32 m) ∧
        Gtk.Shows ink fs (lookOf g (xor (!c.hidden && decide (Y / fs.regular.height = c.y ∧ X / fs.regular.width = c.col)) c.reversed))
          (X % fs.regular.width) (Y % fs.regular.height) m := by
  have hth : ∀ a ∈ l, a.Thin := by
    intro a ha
    have := (hv a ha).2
    cases a <;> first | exact this | trivial
  obtain ⟨k1, k2⟩ := C102_start h ht h0 hb (fun a ha => ⟨(hv a ha).1, hth a ha⟩)
    (Usual.tameAll l ⟨rfl, rfl, Nat.zero_le _, (tended_live h).alive.sane.vte.ok.1.con.geo.x0, rfl, rfl⟩ (fun a ha => (hv a ha).2))
    ho hc e1 ht1 h1
  obtain ⟨r1, r2, r3⟩ := C102_draw hink k1 hp e2
  rw [hcan] at k2
  rw [k2] at r2 r3
  subst r2
  obtain ⟨fs, hw⟩ := tended_window r1.tended
  have h32 : w2.vte.con.sizeX * fs.regular.width < 4294967296 :=
    Nat.lt_of_le_of_lt (Nat.mul_le_mul_right _ (Nat.le_succ _)) hw.w32
  refine ⟨fs, hw.faces, fun X Y hX hY => ?_⟩
  by_cases hi : X < w2.vte.con.sizeX * fs.regular.width ∧ Y < w2.vte.con.sizeY * fs.regular.height
  · obtain ⟨g, m, m1, m2, m3⟩ := r3 fs hw.faces X Y hX hY hi.1 hi.2
    exact Or.inr ⟨g, m, m1, by rw [C112_copied hw.faces h32 hw.h32 hX hY hi]; exact m2, m3⟩
  · have hi' : w2.vte.con.sizeX * fs.regular.width ≤ X ∨ w2.vte.con.sizeY * fs.regular.height ≤ Y := by omega
    exact Or.inl ⟨hi'.symm, C112_margin (tended_live r1.tended) hw.faces h32 hw.h32 hX hY hi'⟩

/-- The hypotheses of `C112_margin` and `C112_defined_partial`: a window of 57 by 45 pixels with cells of 10 by 20. -/
example : ∃ w w' : Wid, w.Tended noInk ∧ w.Neat ∧ w.step noInk .draw = .ok w' ∧ w'.painted 52 3 = some (opaque32 ⟨0, 0, 0⟩) ∧
    w'.painted 3 41 = some (opaque32 ⟨0, 0, 0⟩) ∧ w'.rend.at 52 3 = none := by
  have key : (match wstart with
      | .ok w => (match Wid.runAll noInk [.fork (some faces10)] w with
        | .ok w => w.faces.isSome && (match w.step noInk (.configure 57 45 true) with
          | .ok w => allNarrow w && (match w.step noInk .draw with
            | .ok w => decide (w.painted 52 3 = some (opaque32 ⟨0, 0, 0⟩) ∧ w.painted 3 41 = some (opaque32 ⟨0, 0, 0⟩) ∧
                w.rend.at 52 3 = none)
            | .error _ => false)
          | .error _ => false)
        | .error _ => false)
      | .error _ => false) = true := by decide +kernel
  split at key
  · rename_i w0 hw0
    split at key
    · rename_i wa ea
      rw [Bool.and_eq_true] at key
      obtain ⟨ka, key⟩ := key
      split at key
      · rename_i w ew
        rw [Bool.and_eq_true] at key
        split at key
        · rename_i w' ew'
          exact ⟨w, w', .sized ((wstart_live hw0 noInk).runAll (by intro e he; rw [List.mem_singleton.mp he]; exact forks_valid faces10_fresh) ea)
            ka ⟨by decide, by decide⟩ (by show 4 * (max 57 1 * max 45 1) < _; decide) ew, (neat_of_plain key.1).1, ew', of_decide_eq_true key.2⟩
        · cases key.2
      · cases key
    · cases key
  · cases key

/-- **C112**: false after a change of the font. Cells that have not changed are not drawn again, so where the margin was
before, the window shows what was in the memory of the buffer when it was allocated. -/
theorem C112_false_font : ∃ w w', Live noInk w ∧ w.step noInk .draw = .ok w' ∧ 21 < w'.rend.width ∧ 3 < w'.rend.height ∧
    w'.painted 21 3 = none := by
  obtain ⟨w, h1, h2⟩ := exists_of_wholds (es := [.fork (some faces5), .configure 23 40 true, .draw, .font (some faces10)])
    (P := fun w => match w.step noInk .draw with
      | .ok w' => decide (21 < w'.rend.width ∧ 3 < w'.rend.height ∧ w'.painted 21 3 = none)
      | .error _ => false) (by
      intro e he
      simp only [List.mem_cons, List.not_mem_nil, or_false] at he
      rcases he with rfl | rfl | rfl | rfl
      · exact forks_valid faces5_fresh
      · exact ⟨by decide, by decide⟩
      · trivial
      · intro fs e; injection e with e; subst e; exact faces10_fresh) (by decide +kernel)
  split at h2
  · rename_i w' e
    exact ⟨w, w', h1, e, of_decide_eq_true h2⟩
  · cases h2

/-- **C112**: false without a change of the font, too: of a wide character whose left half was overwritten, the right
half has no width and is not drawn. After a resize of the window, which allocates a new buffer, the window shows memory
there. -/
theorem C112_false_half : ∃ w w', Live noInk w ∧ w.step noInk .draw = .ok w' ∧ 15 < w'.rend.width ∧ 3 < w'.rend.height ∧
    w'.painted 15 3 = none := by
  obtain ⟨w, h1, h2⟩ := exists_of_wholds (es := [.fork (some faces10), .configure 50 40 true,
      .child [0xe4, 0xb8, 0xad, 13, 65], .dispatch (.some 9) .again .again .again, .draw, .configure 60 40 true])
    (P := fun w => match w.step noInk .draw with
      | .ok w' => decide (15 < w'.rend.width ∧ 3 < w'.rend.height ∧ w'.painted 15 3 = none)
      | .error _ => false) (by
      intro e he
      simp only [List.mem_cons, List.not_mem_nil, or_false] at he
      rcases he with rfl | rfl | rfl | rfl | rfl | rfl
      · exact forks_valid faces10_fresh
      · exact ⟨by decide, by decide⟩
      · trivial
      · trivial
      · trivial
      · exact ⟨by decide, by decide⟩) (by decide +kernel)
  split at h2
  · rename_i w' e
    exact ⟨w, w', h1, e, of_decide_eq_true h2⟩
  · cases h2

theorem C112_false : ¬ C112_claim := by
  intro h
  obtain ⟨w, w', h1, h2, h3, h4, h5⟩ := C112_false_half
  exact h noInk w w' h1 h2 15 3 h3 h4 h5

end Verif.Props.Gtk
