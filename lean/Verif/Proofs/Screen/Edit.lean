import Verif.Proofs.Screen.ScrollDown
import Verif.Spec.Screen

/-!
# Erasing, inserting and deleting
-/

namespace Verif
namespace Screen

theorem pred32_pos {n : Nat} (h : 0 < n) (h' : n < 4294967296) : pred32 n = n - 1 := by
  unfold pred32; omega

theorem Geo.predX {s : Screen} (h : Geo s) : pred32 s.sizeX = s.sizeX - 1 :=
  pred32_pos h.x0 (by have := h.xb; omega)

theorem Geo.predY {s : Screen} (h : Geo s) : pred32 s.sizeY = s.sizeY - 1 :=
  pred32_pos h.y0 (by have := h.yb; omega)

/-- Cell of an array of lines. -/
@[reducible] def cellAt (ls : List Line) (i j : Nat) : Option Cell := ls[i]?.bind (·.cells[j]?)

theorem gridOf_apply (w h : Nat) (ls : List Line) (i j : Nat) :
    gridOf w h ls i j = if i < h ∧ j < w then (cellAt ls i j).map Cell.glyph else none := rfl

theorem cellAt_set {ls : List Line} {y : Nat} {l : Line} (hy : y < ls.length) (i j : Nat) :
    cellAt (ls.set y l) i j = if y = i then l.cells[j]? else cellAt ls i j := by
  unfold cellAt
  rw [List.getElem?_set]
  by_cases h : y = i
  · rw [if_pos h, if_pos hy, if_pos h]; rfl
  · rw [if_neg h, if_neg h]

/-! ### Screens that only differ in the displayed lines -/

theorem Inv.withLines {s : Screen} (h : Inv s) {ls : List Line} (hl : LinesOk s ls) :
    Inv (s.withLines ls) :=
  ⟨h.geo.withLines hl, h.sb.withLines ls, ⟨by simpa using h.cur.cx, by simpa using h.cur.cy⟩,
    by simpa using h.ageb⟩

/-! ### Erasing -/

/-- What erasing does to a cell. -/
def wipeCell (s : Screen) (protect : Bool) (c : Cell) : Cell :=
  if protect && c.attr.protect then c else s.blank

theorem wipeCell_glyph (s : Screen) (protect : Bool) (c : Cell) :
    (s.wipeCell protect c).glyph = s.view.wipe protect c.glyph := by
  unfold wipeCell View.wipe
  by_cases h : protect = true ∧ c.attr.protect = true
  · simp [h.1, h.2]
  · rw [if_neg (by simpa using h), if_neg (by simpa using h)]
    rfl

theorem eraseRows_spec {s : Screen} {protect : Bool} {xTo yTo : Nat} (hg : Geo s)
    (hx : xTo < s.sizeX) (hy : yTo < s.sizeY) (n : Nat) : ∀ (yFrom xFrom : Nat) (ls : List Line),
    LinesOk s ls → n = yTo + 1 - yFrom →
    ∃ ls', eraseRows s protect xTo yTo n yFrom xFrom ls = .ok ls' ∧ LinesOk s ls' ∧
      ∀ i j, cellAt ls' i j = (cellAt ls i j).map (fun c =>
        if yFrom ≤ i ∧ i ≤ yTo ∧ (i = yFrom → xFrom ≤ j) ∧ (i = yTo → j ≤ xTo) ∧ j < s.sizeX then
          s.wipeCell protect c else c) := by
  induction n with
  | zero =>
    intro yFrom xFrom ls hl hn
    refine ⟨ls, rfl, hl, ?_⟩
    intro i j
    cases cellAt ls i j with
    | none => rfl
    | some c => simp only [Option.map_some]; rw [if_neg (by omega)]
  | succ n ih =>
    intro yFrom xFrom ls hl hn
    obtain ⟨l, el, wl⟩ := hl.row hg (show yFrom < s.sizeY by omega)
    have hpx := hg.predX
    have hx0 := hg.x0
    have hlt : yFrom < ls.length := by
      rcases Nat.lt_or_ge yFrom ls.length with h | h
      · exact h
      · rw [List.getElem?_eq_none h] at el; cases el
    obtain ⟨cells, ec, hcl, hcc⟩ := updCells_ok (cells := l.cells) (lo := xFrom)
      (hi := (if yFrom = yTo then xTo else pred32 s.sizeX) + 1)
      (f := fun c => if protect && c.attr.protect then c else s.blank)
      (Or.inr (by split <;> omega))
    obtain ⟨ls', e, h1, h2⟩ := ih (yFrom + 1) 0 (ls.set yFrom { l with cells := cells })
      (hl.set (by simp only; omega)) (by omega)
    refine ⟨ls', ?_, h1, ?_⟩
    · unfold eraseRows
      rw [el]
      dsimp only
      unfold eraseCells
      rw [ec]
      exact e
    · intro i j
      rw [h2, cellAt_set hlt]
      by_cases hi : yFrom = i
      · subst hi
        rw [if_pos rfl]
        simp only
        rw [hcc]
        have : cellAt ls yFrom j = l.cells[j]? := by unfold cellAt; rw [el]; rfl
        rw [this]
        cases l.cells[j]? with
        | none => rfl
        | some c =>
          simp only [Option.map_some]
          rw [if_neg (show ¬ (yFrom + 1 ≤ yFrom ∧ yFrom ≤ yTo ∧ (yFrom = yFrom + 1 → 0 ≤ j) ∧
            (yFrom = yTo → j ≤ xTo) ∧ j < s.sizeX) by omega)]
          by_cases ht : yFrom = yTo
          · rw [if_pos ht]
            by_cases hc : xFrom ≤ j ∧ j < xTo + 1
            · rw [if_pos hc]
              exact congrArg some (if_pos ⟨Nat.le_refl _, by omega, fun _ => hc.1, by omega, by omega⟩).symm
            · rw [if_neg hc]
              exact congrArg some
                (if_neg (by rintro ⟨_, _, h3, h4, _⟩; exact hc ⟨h3 trivial, by omega⟩)).symm
          · rw [if_neg ht]
            by_cases hc : xFrom ≤ j ∧ j < pred32 s.sizeX + 1
            · rw [if_pos hc]
              exact congrArg some (if_pos ⟨Nat.le_refl _, by omega, fun _ => hc.1, by omega, by omega⟩).symm
            · rw [if_neg hc]
              exact congrArg some
                (if_neg (by rintro ⟨_, _, h3, h4, _⟩; exact hc ⟨h3 trivial, by omega⟩)).symm
      · rw [if_neg hi]
        cases cellAt ls i j with
        | none => rfl
        | some c =>
          simp only [Option.map_some]
          by_cases hc : yFrom + 1 ≤ i ∧ i ≤ yTo ∧ (i = yFrom + 1 → 0 ≤ j) ∧ (i = yTo → j ≤ xTo) ∧
              j < s.sizeX
          · rw [if_pos hc, if_pos (by omega)]
          · rw [if_neg hc, if_neg (by omega)]

/-- Replacing the displayed lines, as an equation between views. -/
theorem view_withLines' {s : Screen} {ls : List Line} {g : Grid}
    (h : ∀ i j, i < s.sizeY → j < s.sizeX → (cellAt ls i j).map Cell.glyph = g i j)
    (h' : ∀ i j, ¬ (i < s.sizeY ∧ j < s.sizeX) → g i j = none) :
    (s.withLines ls).view = s.view.setGrid g := by
  rw [view_withLines]
  congr 1
  funext i j
  rw [gridOf_apply]
  split
  · rename_i hh; exact h i j hh.1 hh.2
  · rename_i hh; exact (h' i j hh).symm

theorem grid_apply (s : Screen) (i j : Nat) :
    s.view.grid i j = if i < s.sizeY ∧ j < s.sizeX then (cellAt s.lines i j).map Cell.glyph else none := by
  rw [view_grid, gridOf_apply]

theorem grid_out {s : Screen} {i j : Nat} (h : ¬ (i < s.sizeY ∧ j < s.sizeX)) :
    s.view.grid i j = none := by rw [grid_apply, if_neg h]

theorem eraseRegion_spec {s : Screen} (hg : Geo s) (xF yF xT yT : Nat) (protect : Bool) :
    ∃ ls, eraseRegion s xF yF xT yT protect = .ok (s.touch.withLines ls) ∧ LinesOk s ls ∧
      (s.touch.withLines ls).view = s.view.erase protect (fun i j =>
        yF ≤ i ∧ i ≤ yT ∧ (i = yF → xF ≤ j) ∧ (i = min yT (s.sizeY - 1) → j ≤ xT)) := by
  have hx := hg.predX
  have hy := hg.predY
  have hx0 := hg.x0
  have hy0 := hg.y0
  obtain ⟨X, eX, hX, hX'⟩ : ∃ X, (if xT ≥ s.sizeX then pred32 s.sizeX else xT) = X ∧ X < s.sizeX ∧
      ∀ j, j < s.sizeX → (j ≤ X ↔ j ≤ xT) := by
    refine ⟨_, rfl, ?_, ?_⟩
    · split <;> omega
    · intro j hj; split <;> omega
  obtain ⟨Y, eY, hY⟩ : ∃ Y, (if yT ≥ s.sizeY then pred32 s.sizeY else yT) = Y ∧
      Y = min yT (s.sizeY - 1) := by
    refine ⟨_, rfl, ?_⟩
    split
    · rw [Nat.min_eq_right (by omega)]; omega
    · rw [Nat.min_eq_left (by omega)]
  obtain ⟨ls, e, h1, h2⟩ := eraseRows_spec (s := s.touch) (protect := protect)
    (xTo := X) (yTo := Y) hg.touch hX (show Y < s.sizeY by omega) _ yF xF s.lines
    hg.touch.linesOk rfl
  refine ⟨ls, ?_, ⟨h1.len, h1.w⟩, ?_⟩
  · unfold eraseRegion
    dsimp only
    rw [show s.touch.sizeY = s.sizeY from rfl, show s.touch.sizeX = s.sizeX from rfl,
      show s.touch.lines = s.lines from rfl, eX, eY, e]
    rfl
  · apply view_withLines'
    · intro i j hi hj
      change i < s.sizeY at hi
      change j < s.sizeX at hj
      rw [h2]
      rw [show s.touch.sizeX = s.sizeX from rfl]
      rw [grid_apply, if_pos (show i < s.sizeY ∧ j < s.sizeX from ⟨hi, hj⟩)]
      have hXj := hX' j hj
      cases cellAt s.lines i j with
      | none => simp
      | some c =>
        simp only [Option.map_some]
        rw [← hY]
        by_cases hc : yF ≤ i ∧ i ≤ yT ∧ (i = yF → xF ≤ j) ∧ (i = Y → j ≤ xT)
        · rw [if_pos hc, if_pos ⟨hc.1, by omega, hc.2.2.1, fun h => hXj.mpr (hc.2.2.2 h), hj⟩]
          rw [wipeCell_glyph]; rfl
        · rw [if_neg hc, if_neg]
          rintro ⟨d1, d2, d3, d4, _⟩
          exact hc ⟨d1, by omega, d3, fun h => hXj.mp (d4 h)⟩
    · intro i j hij
      have hij' : ¬ (i < s.sizeY ∧ j < s.sizeX) := hij
      rw [grid_out hij']
      split <;> rfl

theorem erase_congr {v : View} {p : Bool} {P Q : Nat → Nat → Prop} [∀ i j, Decidable (P i j)]
    [∀ i j, Decidable (Q i j)] (hv : ∀ i j, ¬ (i < v.sizeY ∧ j < v.sizeX) → v.grid i j = none)
    (h : ∀ i j, i < v.sizeY → j < v.sizeX → (P i j ↔ Q i j)) : v.erase p P = v.erase p Q := by
  unfold View.erase
  congr 1
  funext i j
  by_cases hij : i < v.sizeY ∧ j < v.sizeX
  · have := h i j hij.1 hij.2
    by_cases hp : P i j
    · rw [if_pos hp, if_pos (this.mp hp)]
    · rw [if_neg hp, if_neg (fun x => hp (this.mpr x))]
  · rw [hv i j hij]; split <;> split <;> rfl

theorem view_out (s : Screen) : ∀ i j, ¬ (i < s.view.sizeY ∧ j < s.view.sizeX) →
    s.view.grid i j = none := fun _ _ h => grid_out h

/-- General form of all erase calls. -/
theorem erase_call {s : Screen} (h : Inv s) (xF yF xT yT : Nat) (protect : Bool)
    (P : Nat → Nat → Prop) [∀ i j, Decidable (P i j)]
    (hP : ∀ i j, i < s.sizeY → j < s.sizeX →
      ((yF ≤ i ∧ i ≤ yT ∧ (i = yF → xF ≤ j) ∧ (i = min yT (s.sizeY - 1) → j ≤ xT)) ↔ P i j)) :
    ∃ s', eraseRegion s.incAge xF yF xT yT protect = .ok s' ∧ Inv s' ∧
      s'.view = s.view.erase protect P ∧ s'.age = s'.ageCnt ∧ s'.ageCnt = s.incAge.ageCnt ∧
      s'.ageReset = s.incAge.ageReset := by
  obtain ⟨ls, e, h1, h2⟩ := eraseRegion_spec h.incAge.geo xF yF xT yT protect
  refine ⟨_, e, h.incAge.touch.withLines (ls := ls) ⟨h1.len, h1.w⟩, ?_, ?_, ?_, ?_⟩
  · rw [h2, incAge_view]
    apply erase_congr (view_out s)
    intro i j hi hj
    rw [ia_sizeY]
    exact hP i j hi hj
  · simp [touch]
  · simp [touch]
  · simp [touch]

theorem Inv.eraseX {s : Screen} (h : Inv s) : s.eraseX = min s.cursorX (s.sizeX - 1) := by
  unfold Screen.eraseX
  have := h.geo.predX
  have := h.geo.x0
  split
  · rw [Nat.min_eq_right (by omega)]; omega
  · rw [Nat.min_eq_left (by omega)]

/-! ### Inserting and deleting lines -/

theorem blankLine_glyph {s : Screen} {l : Line} (h : BlankLine s l) {j : Nat} (hj : j < s.sizeX) :
    (l.cells[j]?).map Cell.glyph = some s.view.blank := by
  rw [h.2 j hj]; rfl

theorem ShiftDown.view {s t : Screen} {ls' : List Line} {lo hi n : Nat}
    (h : ShiftDown s s.lines ls' lo hi n) (hhi : hi < s.sizeY) (ht : t.view = s.view) :
    (t.withLines ls').view = s.view.setGrid (s.view.rowsDown lo hi n) := by
  have hX : t.sizeX = s.sizeX := congrArg View.sizeX ht
  have hY : t.sizeY = s.sizeY := congrArg View.sizeY ht
  rw [← ht]
  apply view_withLines'
  · intro i j hi' hj'
    rw [hY] at hi'
    rw [hX] at hj'
    rw [ht]
    unfold View.rowsDown
    by_cases hr : lo ≤ i ∧ i ≤ hi
    · rw [if_pos hr]
      by_cases hs : lo + n ≤ i
      · rw [if_pos hs, grid_apply, if_pos ⟨by omega, hj'⟩]
        unfold cellAt
        rw [h.shift i hs hr.2]
      · rw [if_neg hs]
        obtain ⟨l, e, hb⟩ := h.blank i hr.1 hr.2 (by omega)
        unfold cellAt
        rw [e]
        have h1 : i < s.view.sizeY ∧ j < s.view.sizeX := ⟨hi', hj'⟩
        rw [View.blankAt, if_pos h1]
        exact blankLine_glyph hb hj'
    · rw [if_neg hr, grid_apply, if_pos ⟨hi', hj'⟩]
      unfold cellAt
      rw [h.outside i (by omega)]
  · intro i j hij
    rw [hY, hX] at hij
    rw [ht]
    unfold View.rowsDown
    have hb : s.view.blankAt i j = none := if_neg hij
    rw [hb, grid_out hij]
    split
    · split
      · apply grid_out; omega
      · rfl
    · rfl

theorem ShiftUp.view {s t : Screen} {ls' : List Line} {lo hi n : Nat}
    (h : ShiftUp s s.lines ls' lo hi n) (hhi : hi < s.sizeY) (ht : t.view = s.view) :
    (t.withLines ls').view = s.view.setGrid (s.view.rowsUp lo hi n) := by
  have hX : t.sizeX = s.sizeX := congrArg View.sizeX ht
  have hY : t.sizeY = s.sizeY := congrArg View.sizeY ht
  rw [← ht]
  apply view_withLines'
  · intro i j hi' hj'
    rw [hY] at hi'
    rw [hX] at hj'
    rw [ht]
    unfold View.rowsUp
    by_cases hr : lo ≤ i ∧ i ≤ hi
    · rw [if_pos hr]
      by_cases hs : i + n ≤ hi
      · rw [if_pos hs, grid_apply, if_pos ⟨by omega, hj'⟩]
        unfold cellAt
        rw [h.shift i hr.1 hs]
      · rw [if_neg hs]
        obtain ⟨l, e, hb⟩ := h.blank i hr.1 hr.2 (by omega)
        unfold cellAt
        rw [e]
        have h1 : i < s.view.sizeY ∧ j < s.view.sizeX := ⟨hi', hj'⟩
        rw [View.blankAt, if_pos h1]
        exact blankLine_glyph hb hj'
    · rw [if_neg hr, grid_apply, if_pos ⟨hi', hj'⟩]
      unfold cellAt
      rw [h.outside i (by omega)]
  · intro i j hij
    rw [hY, hX] at hij
    rw [ht]
    unfold View.rowsUp
    have hb : s.view.blankAt i j = none := if_neg hij
    rw [hb, grid_out hij]
    split
    · split
      · apply grid_out; omega
      · rfl
    · rfl

theorem Inv.setX0 {s : Screen} (h : Inv s) : Inv { s with cursorX := 0 } :=
  ⟨{ h.geo with }, { h.sb with }, ⟨Nat.zero_le _, h.cur.cy⟩, h.ageb⟩

theorem insertLines_in {s : Screen} (h : Inv s) {num : Nat} (hn : 0 < num)
    (hr : s.marginTop ≤ s.cursorY ∧ s.cursorY ≤ s.marginBottom) :
    ∃ s', s.insertLines num = .ok s' ∧ Inv s' ∧
      s'.view = { s.view.setGrid (s.view.rowsDown s.cursorY s.marginBottom
        (min num (s.marginBottom + 1 - s.cursorY))) with cursorX := 0 } ∧
      s'.age = s'.ageCnt ∧ s'.ageCnt = s.incAge.ageCnt ∧ s'.ageReset = s.incAge.ageReset := by
  have hmby := h.geo.mby
  have hyb := h.geo.yb
  let t := s.incAge.touch
  have ht : Inv t := h.incAge.touch
  have tv : t.view = s.view := by rw [show t = s.incAge.touch from rfl, touch_view, incAge_view]
  have tY : t.cursorY = s.cursorY := congrArg View.cursorY tv
  have tB : t.marginBottom = s.marginBottom := congrArg View.marginBottom tv
  have hmax : u32 (sub32 t.marginBottom t.cursorY + 1) = t.marginBottom + 1 - t.cursorY := by
    rw [tY, tB]; unfold u32 sub32; omega
  obtain ⟨ls1, cache, e1, ls2, e2, ls3, e3, h3, h2⟩ := shiftDown_spec ht.geo
    (lo := t.cursorY) (n := min num (t.marginBottom + 1 - t.cursorY)) (by omega) (Nat.min_le_right _ _)
  obtain ⟨ls, e4, h4⟩ : ∃ ls, (if min num (t.marginBottom + 1 - t.cursorY) < t.marginBottom + 1 - t.cursorY then do
        let ls ← memmove .oobLine ls1 (t.cursorY + min num (t.marginBottom + 1 - t.cursorY)) t.cursorY
          (t.marginBottom + 1 - t.cursorY - min num (t.marginBottom + 1 - t.cursorY))
        memcpy .oobLine ls t.cursorY cache
      else .ok ls1 : R (List Line)) = .ok ls ∧
      ShiftDown t t.lines ls t.cursorY t.marginBottom (min num (t.marginBottom + 1 - t.cursorY)) := by
    by_cases hc : min num (t.marginBottom + 1 - t.cursorY) < t.marginBottom + 1 - t.cursorY
    · rw [if_pos hc] at e2 ⊢
      rw [e2]
      exact ⟨ls3, e3, h3⟩
    · rw [if_neg hc] at e2 ⊢
      cases e2
      exact ⟨ls1, rfl, h2 (Nat.le_antisymm (Nat.min_le_right _ _) (by omega))⟩
  refine ⟨{ t.withLines ls with cursorX := 0 }, ?_, (ht.withLines h4.ok).setX0, ?_, ?_, ?_, ?_⟩
  · unfold insertLines
    rw [if_neg (by omega), if_neg (by omega)]
    dsimp only
    rw [show s.incAge.touch = t from rfl, hmax]
    have em : (if num > t.marginBottom + 1 - t.cursorY then t.marginBottom + 1 - t.cursorY else num) =
        min num (t.marginBottom + 1 - t.cursorY) := by
      split
      · exact (Nat.min_eq_right (by omega)).symm
      · exact (Nat.min_eq_left (by omega)).symm
    rw [em, e1]
    show (do
      let ls ← (if min num (t.marginBottom + 1 - t.cursorY) < t.marginBottom + 1 - t.cursorY then do
          let ls ← memmove .oobLine ls1 (t.cursorY + min num (t.marginBottom + 1 - t.cursorY)) t.cursorY
            (t.marginBottom + 1 - t.cursorY - min num (t.marginBottom + 1 - t.cursorY))
          memcpy .oobLine ls t.cursorY cache
        else .ok ls1 : R (List Line))
      return { t.withLines ls with cursorX := 0 } : R Screen) = _
    rw [e4]
    rfl
  · have hv := h4.view (t := t) ht.geo.mby rfl
    show { (t.withLines ls).view with cursorX := 0 } = _
    rw [hv, tv, tY, tB]
  · simp [t, touch]
  · simp [t, touch]
  · simp [t, touch]

theorem deleteLines_in {s : Screen} (h : Inv s) {num : Nat} (hn : 0 < num)
    (hr : s.marginTop ≤ s.cursorY ∧ s.cursorY ≤ s.marginBottom) :
    ∃ s', s.deleteLines num = .ok s' ∧ Inv s' ∧
      s'.view = { s.view.setGrid (s.view.rowsUp s.cursorY s.marginBottom
        (min num (s.marginBottom + 1 - s.cursorY))) with cursorX := 0 } ∧
      s'.age = s'.ageCnt ∧ s'.ageCnt = s.incAge.ageCnt ∧ s'.ageReset = s.incAge.ageReset := by
  have hmby := h.geo.mby
  have hyb := h.geo.yb
  let t := s.incAge.touch
  have ht : Inv t := h.incAge.touch
  have tv : t.view = s.view := by rw [show t = s.incAge.touch from rfl, touch_view, incAge_view]
  have tY : t.cursorY = s.cursorY := congrArg View.cursorY tv
  have tB : t.marginBottom = s.marginBottom := congrArg View.marginBottom tv
  have hmax : u32 (sub32 t.marginBottom t.cursorY + 1) = t.marginBottom + 1 - t.cursorY := by
    rw [tY, tB]; unfold u32 sub32; omega
  obtain ⟨ls1, cache, e1, ls, e4, h4⟩ := shiftUp_spec ht.geo
    (lo := t.cursorY) (n := min num (t.marginBottom + 1 - t.cursorY)) (by omega) (Nat.min_le_right _ _)
  refine ⟨{ t.withLines ls with cursorX := 0 }, ?_, (ht.withLines h4.ok).setX0, ?_, ?_, ?_, ?_⟩
  · unfold deleteLines
    rw [if_neg (by omega), if_neg (by omega)]
    dsimp only
    rw [show s.incAge.touch = t from rfl, hmax]
    have em : (if num > t.marginBottom + 1 - t.cursorY then t.marginBottom + 1 - t.cursorY else num) =
        min num (t.marginBottom + 1 - t.cursorY) := by
      split
      · exact (Nat.min_eq_right (by omega)).symm
      · exact (Nat.min_eq_left (by omega)).symm
    rw [em, e1]
    show (do
      let ls ← (if min num (t.marginBottom + 1 - t.cursorY) < t.marginBottom + 1 - t.cursorY then do
          let ls ← memmove .oobLine ls1 t.cursorY (t.cursorY + min num (t.marginBottom + 1 - t.cursorY))
            (t.marginBottom + 1 - t.cursorY - min num (t.marginBottom + 1 - t.cursorY))
          memcpy .oobLine ls (t.cursorY + (t.marginBottom + 1 - t.cursorY - min num (t.marginBottom + 1 - t.cursorY))) cache
        else .ok ls1 : R (List Line))
      return { t.withLines ls with cursorX := 0 } : R Screen) = _
    rw [e4]
    rfl
  · have hv := h4.view (t := t) ht.geo.mby rfl
    show { (t.withLines ls).view with cursorX := 0 } = _
    rw [hv, tv, tY, tB]
  · simp [t, touch]
  · simp [t, touch]
  · simp [t, touch]

/-! ### Inserting and deleting cells -/

theorem clampCursor_view {s : Screen} (h : Inv s) :
    s.clampCursor.view = { s.view with cursorX := s.view.col } := by
  have hx := h.geo.predX
  have := h.geo.x0
  have hy := h.cur.cy
  have e1 : (if s.cursorX ≥ s.sizeX then pred32 s.sizeX else s.cursorX) = min s.cursorX (s.sizeX - 1) := by
    split
    · rw [Nat.min_eq_right (by omega)]; omega
    · rw [Nat.min_eq_left (by omega)]
  have e2 : (if s.cursorY ≥ s.sizeY then pred32 s.sizeY else s.cursorY) = s.cursorY := if_neg (by omega)
  unfold clampCursor view
  simp only [e1, e2]

theorem Inv.clampCursor {s : Screen} (h : Inv s) : Inv s.clampCursor := by
  have hv := clampCursor_view h
  have h1 : s.clampCursor.cursorX = s.view.col := congrArg View.cursorX hv
  have h2 : s.clampCursor.cursorY = s.cursorY := congrArg View.cursorY hv
  refine ⟨{ h.geo with }, { h.sb with }, ⟨?_, ?_⟩, h.ageb⟩
  · rw [h1]; show min s.cursorX (s.sizeX - 1) ≤ s.sizeX + 1; omega
  · rw [h2]; exact h.cur.cy

/-- The state on which inserting and deleting cells works. -/
theorem chars_pre {s : Screen} (h : Inv s) :
    Inv s.incAge.touch.clampCursor ∧
    s.incAge.touch.clampCursor.view = { s.view with cursorX := s.view.col } ∧
    s.incAge.touch.clampCursor.age = s.incAge.ageCnt ∧
    s.incAge.touch.clampCursor.ageCnt = s.incAge.ageCnt ∧
    s.incAge.touch.clampCursor.ageReset = s.incAge.ageReset := by
  refine ⟨h.incAge.touch.clampCursor, ?_, rfl, rfl, rfl⟩
  rw [clampCursor_view h.incAge.touch, touch_view, incAge_view]

theorem insertChars_spec {s : Screen} (h : Inv s) {num : Nat} (hn : 0 < num) :
    ∃ s', s.insertChars num = .ok s' ∧ Inv s' ∧
      s'.view = { s.view.setGrid (s.view.cellsRight s.cursorY s.view.col num) with
        cursorX := s.view.col } ∧
      s'.age = s'.ageCnt ∧ s'.ageCnt = s.incAge.ageCnt ∧ s'.ageReset = s.incAge.ageReset := by
  obtain ⟨ht, tv, a1, a2, a3⟩ := chars_pre h
  have hx0 := h.geo.x0
  have hy0 := h.geo.y0
  generalize hteq : s.incAge.touch.clampCursor = t at *
  have tX : t.sizeX = s.sizeX := congrArg View.sizeX tv
  have tYs : t.sizeY = s.sizeY := congrArg View.sizeY tv
  have tY : t.cursorY = s.cursorY := congrArg View.cursorY tv
  have tC : t.cursorX = s.view.col := congrArg View.cursorX tv
  have hcol : s.view.col < s.sizeX := by show min s.cursorX (s.sizeX - 1) < _; omega
  obtain ⟨l, el, wl⟩ := ht.geo.linesOk.row ht.geo ht.cur.cy
  have hlt : t.cursorY < t.lines.length := by
    rw [ht.geo.linesOk.len]; have := ht.geo.rows; have := ht.cur.cy; omega
  generalize hc : s.view.col = c at *
  obtain ⟨M, eM, hM1, hM2, hM3⟩ : ∃ M, (if num > t.sizeX - t.cursorX then t.sizeX - t.cursorX
      else num) = M ∧ M ≤ num ∧ M ≤ s.sizeX - c ∧ (M = num ∨ M = s.sizeX - c) := by
    refine ⟨_, rfl, ?_⟩
    rw [tC, tX]
    split <;> omega
  -- the shift
  have hmove : ∃ cells, (if t.sizeX - t.cursorX - M ≠ 0 then
        memmove .oobCell l.cells (t.cursorX + M) t.cursorX
          (t.sizeX - t.cursorX - M)
        else .ok l.cells : R (List Cell)) = .ok cells ∧ cells.length = l.cells.length ∧
      ∀ j, cells[j]? = if c + num ≤ j ∧ j < s.sizeX then l.cells[j - num]? else l.cells[j]? := by
    rw [tC, tX]
    by_cases hz : s.sizeX - c - M ≠ 0
    · rw [if_pos hz]
      obtain ⟨l', e', h1, h2⟩ := memmove_ok (k := .oobCell) (l := l.cells) (dst := c + M)
        (src := c) (n := s.sizeX - c - M) (by omega) (by omega)
      refine ⟨l', e', h1, ?_⟩
      intro j
      rw [h2]
      by_cases hj : c + num ≤ j ∧ j < s.sizeX
      · rw [if_pos hj, if_pos (by omega)]; congr 1; omega
      · rw [if_neg hj, if_neg (by omega)]
    · rw [if_neg hz]
      exact ⟨_, rfl, rfl, fun j => by rw [if_neg (by omega)]⟩
  obtain ⟨cells, ec, hcl, hcc⟩ := hmove
  obtain ⟨cells2, ec2, hcl2, hcc2⟩ := updCells_ok (cells := cells) (lo := t.cursorX)
    (hi := t.cursorX + M)
    (f := fun _ => t.blank) (Or.inr (by omega))
  have hlok : LinesOk t (t.lines.set t.cursorY { l with cells := cells2 }) :=
    ht.geo.linesOk.set (by simp only; omega)
  refine ⟨t.withLines (t.lines.set t.cursorY { l with cells := cells2 }), ?_, ht.withLines hlok, ?_,
    ?_, ?_, ?_⟩
  · unfold insertChars
    rw [if_neg (by omega), hteq]
    dsimp only
    rw [eM, el]
    dsimp only
    rw [ec]
    show (do
      let cells ← updCells cells t.cursorX _ (fun _ => t.blank)
      return t.withLines (t.lines.set t.cursorY { l with cells := cells }) : R Screen) = _
    rw [ec2]
    rfl
  · have hgr : ({ s.view with cursorX := c } : View).grid = s.view.grid := rfl
    have hv : (t.withLines (t.lines.set t.cursorY { l with cells := cells2 })).view =
        t.view.setGrid (s.view.cellsRight s.cursorY c num) := by
      apply view_withLines'
      · intro i j hi hj
        rw [tYs] at hi
        rw [tX] at hj
        rw [cellAt_set hlt, tY]
        unfold View.cellsRight
        have hgrid : ∀ i j, s.view.grid i j = t.view.grid i j := by intro i j; rw [tv]
        by_cases hy : s.cursorY = i
        · rw [if_pos hy]
          have hrow : ∀ j, cellAt t.lines i j = l.cells[j]? := by
            intro j; unfold cellAt; rw [← hy, ← tY, el]; rfl
          simp only
          rw [hcc2, hcc]
          have hsx : s.view.sizeX = s.sizeX := rfl
          rw [hsx, tC]
          by_cases hcj : c ≤ j
          · rw [if_pos (show i = s.cursorY ∧ c ≤ j ∧ j < s.sizeX from ⟨hy.symm, hcj, hj⟩)]
            by_cases hcn : c + num ≤ j
            · rw [if_pos hcn, if_pos (show c + num ≤ j ∧ j < s.sizeX from ⟨hcn, hj⟩), hgrid, grid_apply, tYs, tX,
                if_pos (show i < s.sizeY ∧ j - num < s.sizeX by omega), hrow]
              cases l.cells[j - num]? with
              | none => rfl
              | some cc => simp only [Option.map_some]; rw [if_neg (by omega)]
            · rw [if_neg hcn, if_neg (by omega), View.blankAt,
                if_pos (show i < s.view.sizeY ∧ j < s.view.sizeX from ⟨hi, hj⟩)]
              rw [List.getElem?_eq_getElem (show j < l.cells.length by omega)]
              simp only [Option.map_some]
              rw [if_pos (by omega)]
              have : t.view.blank = s.view.blank := by rw [tv]
              exact congrArg some this
          · rw [if_neg (show ¬ (i = s.cursorY ∧ c ≤ j ∧ j < s.sizeX) by omega), if_neg (by omega),
              hgrid, grid_apply, tYs, tX, if_pos (show i < s.sizeY ∧ j < s.sizeX from ⟨hi, hj⟩), hrow]
            cases l.cells[j]? with
            | none => rfl
            | some cc => simp only [Option.map_some]; rw [if_neg (by omega)]
        · rw [if_neg hy, if_neg (show ¬ (i = s.cursorY ∧ c ≤ j ∧ j < s.view.sizeX) by
              intro hh; exact hy hh.1.symm), hgrid, grid_apply, tYs, tX, if_pos (show i < s.sizeY ∧ j < s.sizeX from ⟨hi, hj⟩)]
      · intro i j hij
        rw [tYs, tX] at hij
        unfold View.cellsRight
        rw [show s.view.sizeX = s.sizeX from rfl]
        have hb : s.view.blankAt i j = none := if_neg hij
        rw [hb, grid_out hij]
        split
        · split
          · apply grid_out; have := h.cur.cy; omega
          · rfl
        · rfl
    rw [hv, tv]
    unfold View.setGrid
    split <;> rfl
  · simp [a1, a2]
  · simp [a2]
  · simp [a3]

theorem deleteChars_spec {s : Screen} (h : Inv s) {num : Nat} (hn : 0 < num) :
    ∃ s', s.deleteChars num = .ok s' ∧ Inv s' ∧
      s'.view = { s.view.setGrid (s.view.cellsLeft s.cursorY s.view.col num) with
        cursorX := s.view.col } ∧
      s'.age = s'.ageCnt ∧ s'.ageCnt = s.incAge.ageCnt ∧ s'.ageReset = s.incAge.ageReset := by
  obtain ⟨ht, tv, a1, a2, a3⟩ := chars_pre h
  have hx0 := h.geo.x0
  have hy0 := h.geo.y0
  generalize hteq : s.incAge.touch.clampCursor = t at *
  have tX : t.sizeX = s.sizeX := congrArg View.sizeX tv
  have tYs : t.sizeY = s.sizeY := congrArg View.sizeY tv
  have tY : t.cursorY = s.cursorY := congrArg View.cursorY tv
  have tC : t.cursorX = s.view.col := congrArg View.cursorX tv
  have hcol : s.view.col < s.sizeX := by show min s.cursorX (s.sizeX - 1) < _; omega
  obtain ⟨l, el, wl⟩ := ht.geo.linesOk.row ht.geo ht.cur.cy
  have hlt : t.cursorY < t.lines.length := by
    rw [ht.geo.linesOk.len]; have := ht.geo.rows; have := ht.cur.cy; omega
  generalize hc : s.view.col = c at *
  obtain ⟨M, eM, hM1, hM2, hM3⟩ : ∃ M, (if num > t.sizeX - t.cursorX then t.sizeX - t.cursorX
      else num) = M ∧ M ≤ num ∧ M ≤ s.sizeX - c ∧ (M = num ∨ M = s.sizeX - c) := by
    refine ⟨_, rfl, ?_⟩
    rw [tC, tX]
    split <;> omega
  -- the shift
  have hmove : ∃ cells, (if t.sizeX - t.cursorX - M ≠ 0 then
        memmove .oobCell l.cells t.cursorX (t.cursorX + M)
          (t.sizeX - t.cursorX - M)
        else .ok l.cells : R (List Cell)) = .ok cells ∧ cells.length = l.cells.length ∧
      ∀ j, cells[j]? = if c ≤ j ∧ j + num < s.sizeX then l.cells[j + num]? else l.cells[j]? := by
    rw [tC, tX]
    by_cases hz : s.sizeX - c - M ≠ 0
    · rw [if_pos hz]
      obtain ⟨l', e', h1, h2⟩ := memmove_ok (k := .oobCell) (l := l.cells) (dst := c)
        (src := c + M) (n := s.sizeX - c - M) (by omega) (by omega)
      refine ⟨l', e', h1, ?_⟩
      intro j
      rw [h2]
      by_cases hj : c ≤ j ∧ j + num < s.sizeX
      · rw [if_pos hj, if_pos (by omega)]; congr 1; omega
      · rw [if_neg hj, if_neg (by omega)]
    · rw [if_neg hz]
      exact ⟨_, rfl, rfl, fun j => by rw [if_neg (by omega)]⟩
  obtain ⟨cells, ec, hcl, hcc⟩ := hmove
  obtain ⟨cells2, ec2, hcl2, hcc2⟩ := updCells_ok (cells := cells)
    (lo := t.cursorX + (t.sizeX - t.cursorX - M))
    (hi := t.cursorX + (t.sizeX - t.cursorX - M) +
      M)
    (f := fun _ => t.blank) (Or.inr (by omega))
  have hlok : LinesOk t (t.lines.set t.cursorY { l with cells := cells2 }) :=
    ht.geo.linesOk.set (by simp only; omega)
  refine ⟨t.withLines (t.lines.set t.cursorY { l with cells := cells2 }), ?_, ht.withLines hlok, ?_,
    ?_, ?_, ?_⟩
  · unfold deleteChars
    rw [if_neg (by omega), hteq]
    dsimp only
    rw [eM, el]
    dsimp only
    rw [ec]
    show (do
      let cells ← updCells cells _ _ (fun _ => t.blank)
      return t.withLines (t.lines.set t.cursorY { l with cells := cells }) : R Screen) = _
    rw [ec2]
    rfl
  · have hv : (t.withLines (t.lines.set t.cursorY { l with cells := cells2 })).view =
        t.view.setGrid (s.view.cellsLeft s.cursorY c num) := by
      apply view_withLines'
      · intro i j hi hj
        rw [tYs] at hi
        rw [tX] at hj
        rw [cellAt_set hlt, tY]
        unfold View.cellsLeft
        have hgrid : ∀ i j, s.view.grid i j = t.view.grid i j := by intro i j; rw [tv]
        by_cases hy : s.cursorY = i
        · rw [if_pos hy]
          have hrow : ∀ j, cellAt t.lines i j = l.cells[j]? := by
            intro j; unfold cellAt; rw [← hy, ← tY, el]; rfl
          simp only
          rw [hcc2, hcc]
          have hsx : s.view.sizeX = s.sizeX := rfl
          rw [hsx, tC]
          by_cases hcj : c ≤ j
          · rw [if_pos (show i = s.cursorY ∧ c ≤ j ∧ j < s.sizeX from ⟨hy.symm, hcj, hj⟩)]
            by_cases hcn : j + num < s.sizeX
            · rw [if_pos hcn, if_pos (show c ≤ j ∧ j + num < s.sizeX from ⟨hcj, hcn⟩), hgrid, grid_apply, tYs, tX,
                if_pos (show i < s.sizeY ∧ j + num < s.sizeX by omega), hrow]
              cases l.cells[j + num]? with
              | none => rfl
              | some cc => simp only [Option.map_some]; rw [if_neg (by omega)]
            · rw [if_neg hcn, if_neg (by omega), View.blankAt,
                if_pos (show i < s.view.sizeY ∧ j < s.view.sizeX from ⟨hi, hj⟩)]
              rw [List.getElem?_eq_getElem (show j < l.cells.length by omega)]
              simp only [Option.map_some]
              rw [if_pos (by omega)]
              have : t.view.blank = s.view.blank := by rw [tv]
              exact congrArg some this
          · rw [if_neg (show ¬ (i = s.cursorY ∧ c ≤ j ∧ j < s.sizeX) by omega), if_neg (by omega),
              hgrid, grid_apply, tYs, tX, if_pos (show i < s.sizeY ∧ j < s.sizeX from ⟨hi, hj⟩), hrow]
            cases l.cells[j]? with
            | none => rfl
            | some cc => simp only [Option.map_some]; rw [if_neg (by omega)]
        · rw [if_neg hy, if_neg (show ¬ (i = s.cursorY ∧ c ≤ j ∧ j < s.view.sizeX) by
              intro hh; exact hy hh.1.symm), hgrid, grid_apply, tYs, tX, if_pos (show i < s.sizeY ∧ j < s.sizeX from ⟨hi, hj⟩)]
      · intro i j hij
        rw [tYs, tX] at hij
        unfold View.cellsLeft
        rw [show s.view.sizeX = s.sizeX from rfl]
        have hb : s.view.blankAt i j = none := if_neg hij
        rw [hb, grid_out hij]
        split
        · split
          · apply grid_out; have := h.cur.cy; omega
          · rfl
        · rfl
    rw [hv, tv]
    unfold View.setGrid
    split <;> rfl
  · simp [a1, a2]
  · simp [a2]
  · simp [a3]

end Screen
end Verif
