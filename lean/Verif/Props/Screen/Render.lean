import Verif.Proofs.Screen.Shown
import Verif.Proofs.Screen.Example

/-!
# Properties of drawing

C25 every cell once in reading order, C26 content, C27 cursor, C29 drawing changes
nothing, C31 highlighting of the selection.
-/

namespace Verif.Props.Screen

open Verif Verif.Screen

/-- The calls of a drawing, position by position. -/
theorem draw_cells {s : Screen} (hr : Reachable s) :
    ∃ (f : Nat → Nat → DrawCall) (age : Nat), s.draw =
        .ok ((List.range s.sizeY).flatMap (fun i => (List.range s.sizeX).map (f i)), age,
          { s with ageReset := false }) ∧
      (∀ i j, (f i j).x = j ∧ (f i j).y = i) ∧
      (∀ i j, i < s.sizeY → j < s.sizeX →
        (f i j).ch = (if (s.view.shown i j).ch ≤ 0x7fffffff then (s.view.shown i j).ch else 0) ∧
        (f i j).width = (s.view.shown i j).width ∧
        (f i j).attr = { (s.view.shown i j).attr with
          inverse := xor (xor (xor (s.view.shown i j).attr.inverse (s.view.cursorAt i j))
            (s.flags.getLsbD 3)) (s.highlight i j) } ∧
        (f i j).len = (if (s.view.shown i j).ch = 0 ∨
          ((s.view.shown i j).ch = 32 ∧ (s.view.shown i j).attr.underline = false) then 0 else 1) ∧
        (f i j).id = drawId (s.view.shown i j).ch (f i j).attr) := by
  refine ⟨s.cellCall, _, draw_eq hr.inv.geo, fun i j => ⟨rfl, rfl⟩, ?_⟩
  intro i j hi hj
  have hsh := shown_eq hr.inv hi hj
  have hcur := cursor_eq hr.inv (i := i) (j := j)
  generalize s.view.shown i j = g at hsh ⊢
  unfold cellCall mkCall
  generalize ((((s.shownRow i).getD default).cells[j]?).getD s.blank) = cell at hsh ⊢
  subst hsh
  refine ⟨rfl, rfl, ?_, ?_, rfl⟩
  · dsimp only
    have hinv : s.fInverse = s.flags.getLsbD 3 := rfl
    rw [hinv]
    by_cases hc : s.view.cursorAt i j = true
    · rw [if_pos (hcur.mpr hc), hc]
      cases s.flags.getLsbD 3 <;> cases s.highlight i j <;> simp
    · rw [if_neg (fun hh => hc (hcur.mp hh)), Bool.eq_false_iff.mpr hc]
      cases s.flags.getLsbD 3 <;> cases s.highlight i j <;> simp
  · dsimp only
    congr 2
    apply propext
    by_cases hc : s.view.cursorAt i j = true
    · simp only [if_pos (hcur.mpr hc)]
      cases s.fInverse <;> cases s.highlight i j <;> simp
    · simp only [if_neg (fun hh => hc (hcur.mp hh))]
      cases s.fInverse <;> cases s.highlight i j <;> simp

/-! ### C25 -/

/-- **C25.** A drawing never fails, and its calls have exactly the positions of the
screen, each once, row by row from left to right. -/
theorem C25_coverage {s : Screen} (hr : Reachable s) :
    ∃ cs age s', s.draw = .ok (cs, age, s') ∧
      cs.map (fun c => (c.y, c.x)) =
        (List.range s.sizeY).flatMap (fun i => (List.range s.sizeX).map (fun j => (i, j))) ∧
      cs.length = s.sizeY * s.sizeX := by
  obtain ⟨f, age, e, hp, _⟩ := draw_cells hr
  refine ⟨_, _, _, e, ?_, ?_⟩
  · rw [List.map_flatMap]
    congr 1
    funext i
    rw [List.map_map]
    apply List.map_congr_left
    intro j _
    show ((f i j).y, (f i j).x) = _
    rw [(hp i j).1, (hp i j).2]
  · rw [List.length_flatMap]
    simp only [List.length_map, List.length_range]
    rw [List.map_const', List.sum_replicate_nat, List.length_range]

/-! ### C26 -/

/-- **C26.** Each call shows the character, width and attributes of the document
cell at its position (`View.shown`; a value that is no code point shows as none);
only the inverse attribute may differ. Empty cells and plain spaces have no
characters to draw. -/
theorem C26_content {s s' : Screen} (hr : Reachable s) {cs : List DrawCall} {age : Nat}
    (e : s.draw = .ok (cs, age, s')) : ∀ c ∈ cs,
    c.ch = (if (s.view.shown c.y c.x).ch ≤ 0x7fffffff then (s.view.shown c.y c.x).ch else 0) ∧
    c.width = (s.view.shown c.y c.x).width ∧
    (∃ b, c.attr = { (s.view.shown c.y c.x).attr with inverse := b }) ∧
    c.len = (if (s.view.shown c.y c.x).ch = 0 ∨
      ((s.view.shown c.y c.x).ch = 32 ∧ (s.view.shown c.y c.x).attr.underline = false) then 0 else 1) := by
  obtain ⟨f, age', e', hp, hc⟩ := draw_cells hr
  rw [e] at e'
  injection e' with e'
  injection e' with e1 e2
  subst e1
  intro c hm
  obtain ⟨i, hi, hm⟩ := List.mem_flatMap.mp hm
  obtain ⟨j, hj, rfl⟩ := List.mem_map.mp hm
  rw [(hp i j).1, (hp i j).2]
  obtain ⟨h1, h2, h3, h4, _⟩ := hc i j (List.mem_range.mp hi) (List.mem_range.mp hj)
  exact ⟨h1, h2, ⟨_, h3⟩, h4⟩

/-! ### C27 and C31 -/

/-- **C27.** Without a selection a cell is inverted (relative to its own
attribute) iff exactly one of these holds: the screen is in inverse mode (flag bit
3), the visible cursor is there (`View.cursorAt`). -/
theorem C27_cursor {s s' : Screen} (hr : Reachable s) {cs : List DrawCall} {age : Nat}
    (e : s.draw = .ok (cs, age, s')) (ha : s.selActive = false) : ∀ c ∈ cs,
    c.attr.inverse = xor (xor (s.view.shown c.y c.x).attr.inverse (s.view.cursorAt c.y c.x))
      (s.flags.getLsbD 3) := by
  obtain ⟨f, age', e', hp, hc⟩ := draw_cells hr
  rw [e] at e'
  injection e' with e'
  injection e' with e1 e2
  subst e1
  intro c hm
  obtain ⟨i, hi, hm⟩ := List.mem_flatMap.mp hm
  obtain ⟨j, hj, rfl⟩ := List.mem_map.mp hm
  rw [(hp i j).1, (hp i j).2]
  obtain ⟨h1, h2, h3, h4⟩ := hc i j (List.mem_range.mp hi) (List.mem_range.mp hj)
  rw [h3, highlight_inactive ha]
  simp

/-- **C27.** There is exactly one position with a cursor if it is not hidden (flag
bit 4) and its row is in view, otherwise none. -/
theorem C27_one_cursor {s : Screen} (hr : Reachable s) :
    (∀ i j i' j', s.view.cursorAt i j = true → s.view.cursorAt i' j' = true → i = i' ∧ j = j') ∧
    ((∃ i j, i < s.sizeY ∧ j < s.sizeX ∧ s.view.cursorAt i j = true) ↔
      s.flags.getLsbD 4 = false ∧ s.sb.length - s.view.topIndex + s.cursorY < s.sizeY) := by
  have hle := topIndex_le hr.inv.sb
  have hx0 := hr.inv.geo.x0
  have hcy := hr.inv.cur.cy
  have key : ∀ i j, s.view.cursorAt i j = true ↔ s.flags.getLsbD 4 = false ∧
      s.view.topIndex + i = s.sb.length + s.cursorY ∧ j = min s.cursorX (s.sizeX - 1) := by
    intro i j
    unfold View.cursorAt
    rw [Bool.and_eq_true, Bool.not_eq_true', decide_eq_true_iff, view_sb_length]
    exact Iff.rfl
  constructor
  · intro i j i' j' h h'
    obtain ⟨_, h1, h2⟩ := (key i j).mp h
    obtain ⟨_, h3, h4⟩ := (key i' j').mp h'
    omega
  · constructor
    · rintro ⟨i, j, hi, hj, h⟩
      obtain ⟨h0, h1, h2⟩ := (key i j).mp h
      exact ⟨h0, by omega⟩
    · rintro ⟨h0, h1⟩
      exact ⟨s.sb.length - s.view.topIndex + s.cursorY, min s.cursorX (s.sizeX - 1), h1, by omega,
        (key _ _).mpr ⟨h0, by omega, rfl⟩⟩

/-- **C31.** With both endpoints of the selection at cells of existing lines, on
the screen or in the scrollback, a cell is inverted for the selection iff it lies
between the endpoints in reading order, both included, whichever comes first
(`View.Selected`). -/
theorem C31_highlight {s s' : Screen} (hr : Reachable s) {cs : List DrawCall} {age : Nat}
    (e : s.draw = .ok (cs, age, s')) (ha : s.selActive = true)
    (h1 : s.view.Anchored s.selStart) (h2 : s.view.Anchored s.selEnd) : ∀ c ∈ cs,
    c.attr.inverse = xor (xor (xor (s.view.shown c.y c.x).attr.inverse (s.view.cursorAt c.y c.x))
      (s.flags.getLsbD 3)) (decide (s.view.Selected c.y c.x)) := by
  obtain ⟨f, age', e', hp, hc⟩ := draw_cells hr
  rw [e] at e'
  injection e' with e'
  injection e' with e1 e2
  subst e1
  intro c hm
  obtain ⟨i, hi, hm⟩ := List.mem_flatMap.mp hm
  obtain ⟨j, hj, rfl⟩ := List.mem_map.mp hm
  rw [(hp i j).1, (hp i j).2]
  obtain ⟨_, _, h3, _⟩ := hc i j (List.mem_range.mp hi) (List.mem_range.mp hj)
  rw [h3, highlight_eq hr.inv ha h1 h2 (List.mem_range.mp hi)]

/-! ### C29 -/

/-- **C29.** Drawing changes nothing observable (only the pending age overflow is
consumed), and a second drawing shows the same cells; only the ages can differ.
(The getters and `selection_copy` are functions of the screen in the model; the C
functions write no field of it.) -/
theorem C29_read_only {s s' : Screen} (hr : Reachable s) {cs : List DrawCall} {age : Nat}
    (e : s.draw = .ok (cs, age, s')) :
    s' = { s with ageReset := false } ∧ s'.view = s.view ∧
    ∃ cs' age', s'.draw = .ok (cs', age', s') ∧
      cs'.map (fun c => { c with age := 0 }) = cs.map (fun c => { c with age := 0 }) := by
  rw [draw_eq hr.inv.geo] at e
  injection e with e
  injection e with e1 e2
  injection e2 with e2 e3
  subst e1 e3
  refine ⟨rfl, rfl, _, _, draw_eq ?_, ?_⟩
  · exact ⟨hr.inv.geo.x0, hr.inv.geo.y0, hr.inv.geo.xb, hr.inv.geo.yb, hr.inv.geo.len,
      hr.inv.geo.rows, hr.inv.geo.wm, hr.inv.geo.wa, hr.inv.geo.tab, hr.inv.geo.mtb, hr.inv.geo.mby,
      hr.inv.geo.alias⟩
  · unfold drawing
    rw [List.map_flatMap, List.map_flatMap]
    congr 1
    funext i
    rw [List.map_map, List.map_map]
    apply List.map_congr_left
    intro j _
    have hh : ∀ p i, ({ s with ageReset := false } : Screen).passed p i = s.passed p i := by
      intro p i
      induction i with
      | zero => rfl
      | succ i ih => rw [passed, passed, ih]
    have : ({ s with ageReset := false } : Screen).highlight i j = s.highlight i j := by
      unfold highlight
      rw [hh, hh]
    show ({ ({ s with ageReset := false } : Screen).cellCall i j with age := 0 } : DrawCall) =
      { s.cellCall i j with age := 0 }
    unfold cellCall
    rw [this]
    rfl

/-! ### Example

A 2×2 screen scrolled back by one line: "AB" is in the scrollback, "CD" and "EF" on
the screen; the selection runs from "F" back to "B". -/

example : ∃ s, Reachable s ∧ (s.selActive && decide (s.view.Anchored s.selStart) &&
    decide (s.view.Anchored s.selEnd) && decide (s.sb.length = 1) && decide (s.view.topIndex = 0) &&
    decide ((s.draw.map fun r => r.1.map fun c => (c.ch, c.attr.inverse)) =
      .ok [(65, false), (66, true), (67, true), (68, true)]) &&
    decide ((s.view.cursorAt 2 1) = true)) = true :=
  exists_of_holds (cs := [.resize 2 2, .setFlags 2#32, .setMaxSb 5] ++
    text [65, 66, 67, 68, 69, 70] ++ [.selectionStart 1 1, .sbUp 1, .selectionTarget 1 0])
    (by decide +kernel)

end Verif.Props.Screen
