import Verif.Proofs.Screen.Example

/-!
# Properties of cursor movement

C21 tabs, C22 relative movement, C23 absolute movement.
-/

namespace Verif.Props.Screen

open Verif Verif.Screen

/-! ### C21 -/

/-- The tab stops right of column `x`, from left to right. -/
def tabsRightOf (v : View) (x : Nat) : List Nat :=
  (List.range v.sizeX).filter fun i => decide (x < i) && (v.tabs i == some true)

/-- The tab stops left of column `x`, from right to left. -/
def tabsLeftOf (v : View) (x : Nat) : List Nat :=
  ((List.range v.sizeX).filter fun i => decide (i < x) && (v.tabs i == some true)).reverse

/-- **C21.** `tab_right(n)` goes to the n-th tab stop right of the cursor, or to
the last column if there are fewer; nothing else changes. -/
theorem C21_tab_right {s : Screen} (hr : Reachable s) {n : Nat} (h0 : 0 < n) :
    ∃ s', s.tabRight n = .ok s' ∧ s'.view = { s.view with
      cursorX := ((tabsRightOf s.view s.cursorX)[n - 1]?).getD (s.sizeX - 1) } := by
  refine ⟨_, tabRight_eq hr.inv h0, ?_⟩
  rw [moved_view, incAge_view]
  rfl

/-- **C21** (partial, as far as the call is safe at all, see C08): `tab_left(n)`
goes to the n-th tab stop left of the cursor, or to column 0 if there are
fewer. Missing: the cursor column two beyond the last one, where the call reads
beyond the tab ruler. -/
theorem C21_tab_left_partial {s : Screen} (hr : Reachable s) {n : Nat} (h0 : 0 < n)
    (hx : s.cursorX ≤ s.sizeX) :
    ∃ s', s.tabLeft n = .ok s' ∧ s'.view = { s.view with
      cursorX := ((tabsLeftOf s.view s.cursorX)[n - 1]?).getD 0 } := by
  refine ⟨_, tabLeft_eq hr.inv h0 hx, ?_⟩
  rw [moved_view, incAge_view]
  rfl

/-- **C21 is false** for `tab_left` in the remaining case: memory beyond the tab
ruler is read (or the call fails). -/
theorem C21_tab_left_false : ¬ ∀ (s : Screen) (n : Nat), Reachable s → 0 < n →
    ∃ s', s.tabLeft n = .ok s' := by
  intro h
  obtain ⟨s, hr, hp⟩ := exists_of_holds (cs := [.moveTo 79 0, .write 0x4e2d Attr.zero])
    (P := fun s => decide ((s.tabLeft 1).map (fun _ => ()) = .error .oobTab)) (by decide +kernel)
  obtain ⟨s', e⟩ := h s 1 hr (by omega)
  have hp := of_decide_eq_true hp
  rw [e] at hp
  cases hp

/-- Tab stops at 0, 3, 8 and 16; from column 5 the second stop to the right is 16,
the second to the left is 0. -/
example : ∃ s, Reachable s ∧ (decide (s.cursorX = 5) &&
    decide (tabsRightOf s.view 5 = [8, 16]) && decide (tabsLeftOf s.view 5 = [3, 0]) &&
    decide (((s.tabRight 2).map fun t => t.cursorX) = .ok 16) &&
    decide (((s.tabRight 3).map fun t => t.cursorX) = .ok 19) &&
    decide (((s.tabLeft 1).map fun t => t.cursorX) = .ok 3)) = true :=
  exists_of_holds (cs := [.resize 20 2, .moveTo 3 0, .setTabstop, .moveTo 5 1]) (by decide +kernel)

/-! ### C22 -/

/-- **C22.** `move_up(n)` without scrolling, or as long as the way to the top
margin (to the first row if the cursor is above the margin) is long enough. -/
theorem C22_move_up {s : Screen} (hr : Reachable s) {n : Nat} (h0 : 0 < n) (hb : n < 2 ^ 32)
    {scroll : Bool} (hc : scroll = false ∨ n ≤ s.cursorY - s.view.firstRow) :
    ∃ s', s.moveUp n scroll = .ok s' ∧
      s'.view = { s.view with cursorY := max (s.cursorY - n) s.view.firstRow } := by
  refine ⟨_, (moveUp_plain hr.inv h0 hb hc).1, ?_⟩
  rw [moved_view, incAge_view]
  rfl

/-- **C22.** `move_up(n)` with scrolling: the rows in excess of the way to the
margin scroll the region down. -/
theorem C22_move_up_scroll {s : Screen} (hr : Reachable s) {n : Nat} (h0 : 0 < n) (hb : n < 2 ^ 32)
    (hc : s.cursorY - s.view.firstRow < n) :
    ∃ s' p q, s.moveUp n true = .ok s' ∧
      s'.view = { s.view.setGrid (s.view.rowsDown s.marginTop s.marginBottom
          (min (n - (s.cursorY - s.view.firstRow)) s.view.regionSize)) with
        cursorY := s.view.firstRow, selStart := p, selEnd := q } := by
  obtain ⟨s', e, _, _, p, q, hv⟩ := moveUp_scroll hr.inv h0 hb hc
  exact ⟨s', p, q, e, hv⟩

/-- **C22.** `move_down(n)` without scrolling, or as long as the way to the bottom
margin (to the last row if the cursor is below the margin) is long enough. -/
theorem C22_move_down {s : Screen} (hr : Reachable s) {n : Nat} (h0 : 0 < n)
    {scroll : Bool} (hc : scroll = false ∨ n ≤ s.view.lastRow - s.cursorY) :
    ∃ s', s.moveDown n scroll = .ok s' ∧
      s'.view = { s.view with cursorY := min (s.cursorY + n) s.view.lastRow } := by
  refine ⟨_, (moveDown_plain hr.inv h0 hc).1, ?_⟩
  rw [moved_view, incAge_view]
  rfl

/-- **C22.** `move_down(n)` with scrolling: the rows in excess of the way to the
margin scroll the region up, as `scroll_up` does. -/
theorem C22_move_down_scroll {s : Screen} (hr : Reachable s) {n : Nat} (h0 : 0 < n)
    (hc : s.view.lastRow - s.cursorY < n) :
    ∃ s' u rows kept, s.moveDown n true = .ok s' ∧
      View.ScrollUp s.view u (min (n - (s.view.lastRow - s.cursorY)) s.view.regionSize) s.MemOk
        rows kept ∧
      s'.view = { u with cursorY := s.view.lastRow } := by
  obtain ⟨s', u, rows, kept, e, _, _, hu, hv⟩ := moveDown_scroll hr.inv h0 hc
  exact ⟨s', u, rows, kept, e, hu, hv⟩

/-- **C22.** `move_left(n)` and `move_right(n)`, counted from the cursor column as
far as it lies on the screen. -/
theorem C22_move_left_right {s : Screen} (hr : Reachable s) {n : Nat} (h0 : 0 < n) :
    (∃ s', s.moveLeft n = .ok s' ∧ s'.view = { s.view with cursorX := s.view.col - n }) ∧
    (∃ s', s.moveRight n = .ok s' ∧
      s'.view = { s.view with cursorX := min (s.view.col + n) (s.sizeX - 1) }) := by
  constructor
  · refine ⟨_, moveLeft_eq hr.inv h0, ?_⟩
    rw [moved_view, incAge_view]
    rfl
  · refine ⟨_, moveRight_eq hr.inv h0, ?_⟩
    rw [moved_view, incAge_view]
    have : min (s.cursorX + n) (s.sizeX - 1) = min (s.view.col + n) (s.sizeX - 1) := by
      show _ = min (min s.cursorX (s.sizeX - 1) + n) (s.sizeX - 1)
      omega
    rw [this]
    rfl

/-- **C22.** `move_line_home` and `move_line_end`. -/
theorem C22_line_home_end {s : Screen} (hr : Reachable s) :
    (∃ s', s.moveLineHome = .ok s' ∧ s'.view = { s.view with cursorX := 0 }) ∧
    (∃ s', s.moveLineEnd = .ok s' ∧ s'.view = { s.view with cursorX := s.sizeX - 1 }) := by
  constructor
  · refine ⟨_, moveLineHome_eq hr.inv, ?_⟩
    rw [moved_view, incAge_view]
    rfl
  · refine ⟨_, moveLineEnd_eq hr.inv, ?_⟩
    rw [moved_view, incAge_view]
    rfl

/-- **C22.** `newline` is `move_down(1)` with scrolling followed by
`move_line_home`. -/
theorem C22_newline {s : Screen} (hr : Reachable s) :
    ∃ s', s.newline = .ok s' ∧
      if s.cursorY < s.view.lastRow then
        s'.view = { s.view with cursorX := 0, cursorY := s.cursorY + 1 }
      else ∃ u rows kept, View.ScrollUp s.view u 1 s.MemOk rows kept ∧
        s'.view = { u with cursorX := 0, cursorY := s.view.lastRow } := by
  have hi := hr.inv
  have hlr := lastRow_bounds hi
  have hv : s.incAge.view = s.view := incAge_view s
  have hcy : s.incAge.cursorY = s.cursorY := ia_cursorY s
  by_cases hlt : s.cursorY < s.view.lastRow
  · simp only [if_pos hlt]
    obtain ⟨e, hi'⟩ := moveDown_plain hi.incAge (num := 1) (scroll := true) (by omega)
      (Or.inr (by rw [hv, hcy]; omega))
    refine ⟨(s.incAge.incAge.moved s.incAge.cursorX
        (min (s.incAge.cursorY + 1) s.incAge.view.lastRow)).incAge.moved 0
        (s.incAge.incAge.moved s.incAge.cursorX
        (min (s.incAge.cursorY + 1) s.incAge.view.lastRow)).cursorY, ?_, ?_⟩
    · unfold newline
      rw [e]
      exact moveLineHome_eq hi'
    · rw [moved_view, incAge_view, moved_view, incAge_view, hv, mv_cursorY, hcy]
      have : min (s.cursorY + 1) s.view.lastRow = s.cursorY + 1 := by omega
      rw [this]
  · simp only [if_neg hlt]
    obtain ⟨t, u, rows, kept, e, hi', _, hu, hv'⟩ := moveDown_scroll hi.incAge (num := 1) (by omega)
      (by rw [hv, hcy]; omega)
    refine ⟨t.incAge.moved 0 t.cursorY, ?_, u, rows, kept, ?_, ?_⟩
    · unfold newline
      rw [e]
      exact moveLineHome_eq hi'
    · rw [hv, hcy, ia_allocOk] at hu
      have hreg : min (1 - (s.view.lastRow - s.cursorY)) s.view.regionSize = 1 := by
        have h1 : s.marginTop ≤ s.marginBottom := hi.geo.mtb
        show min _ (s.marginBottom + 1 - s.marginTop) = 1
        omega
      rw [hreg] at hu
      exact hu
    · rw [moved_view, incAge_view, hv']
      have : t.cursorY = s.view.lastRow := by
        have := congrArg View.cursorY hv'
        rw [hv] at this
        exact this
      rw [this]

/-- The cursor in the middle of narrowed margins, five rows up with scrolling. -/
example : ∃ s, Reachable s ∧ (decide (s.view.firstRow = 1) && decide (s.cursorY = 2) &&
    decide (s.cursorY - s.view.firstRow < 2) &&
    decide (((s.moveUp 2 true).map fun t => (t.cursorY, (List.range 4).map t.rowText)) =
      .ok (1, [[65], [0], [66], [68]])) &&
    decide (((s.moveUp 2 false).map fun t => (t.cursorY, (List.range 4).map t.rowText)) =
      .ok (1, [[65], [66], [67], [68]]))) = true :=
  exists_of_holds (cs := [.resize 1 4, .setFlags 2#32] ++ text [65, 66, 67, 68] ++
    [.setMargins 2 3, .moveTo 0 2]) (by decide +kernel)

/-! ### C23 -/

/-- The claim: `move_to(x, y)` clamps to the screen, or relative to the top
margin and clamped to the bottom margin with relative origin (flag bit 2). -/
def C23_claim : Prop :=
  ∀ (s : Screen) (x y : Nat), Reachable s → x < 2 ^ 32 → y < 2 ^ 32 →
    ∃ s', s.moveTo x y = .ok s' ∧ s'.view = { s.view with
      cursorX := min x (s.sizeX - 1)
      cursorY := if s.flags.getLsbD 2 then min (s.marginTop + y) s.marginBottom
        else min y (s.sizeY - 1) }

/-- **C23 is false** in relative origin mode for a row so large that adding the
top margin wraps around: the cursor ends up above the margins. -/
theorem C23_false : ¬ C23_claim := by
  intro h
  obtain ⟨s, hr, hp⟩ := exists_of_holds (cs := [.setMargins 2 5, .setFlags 4#32])
    (P := fun s => s.flags.getLsbD 2 && decide (s.marginTop = 1) && decide (s.marginBottom = 4) &&
      decide (((s.moveTo 0 4294967295).map fun t => t.cursorY) = .ok 0)) (by decide +kernel)
  rw [Bool.and_eq_true, Bool.and_eq_true, Bool.and_eq_true] at hp
  obtain ⟨⟨⟨h1, h2⟩, h3⟩, h4⟩ := hp
  have h2 := of_decide_eq_true h2
  have h3 := of_decide_eq_true h3
  have h4 := of_decide_eq_true h4
  obtain ⟨s', e, hv⟩ := h s 0 4294967295 hr (by omega) (by omega)
  rw [e] at h4
  injection h4 with h4
  change s'.cursorY = 0 at h4
  have := congrArg View.cursorY hv
  change s'.cursorY = (if s.flags.getLsbD 2 = true then _ else _) at this
  rw [if_pos h1, h2, h3, h4] at this
  omega

/-- **C23** (partial: the row plus the top margin must be in range in relative
origin mode). -/
theorem C23_move_to_partial {s : Screen} (hr : Reachable s) (x y : Nat)
    (hy : s.flags.getLsbD 2 = true → s.marginTop + y < 2 ^ 32) :
    ∃ s', s.moveTo x y = .ok s' ∧ s'.view = { s.view with
      cursorX := min x (s.sizeX - 1)
      cursorY := if s.flags.getLsbD 2 then min (s.marginTop + y) s.marginBottom
        else min y (s.sizeY - 1) } := by
  refine ⟨_, moveTo_eq hr.inv x y, ?_⟩
  rw [moved_view, incAge_view]
  have : (if s.fOrigin = true then min (u32 (s.marginTop + y)) s.marginBottom
      else min y (s.sizeY - 1)) =
      (if s.flags.getLsbD 2 = true then min (s.marginTop + y) s.marginBottom
        else min y (s.sizeY - 1)) := by
    by_cases ho : s.flags.getLsbD 2 = true
    · rw [if_pos (show s.fOrigin = true from ho), if_pos ho]
      have := hy ho
      unfold u32
      rw [Nat.mod_eq_of_lt this]
    · rw [if_neg (show ¬ s.fOrigin = true from ho), if_neg ho]
  rw [this]

/-- **C23**: without relative origin there is no restriction. -/
theorem C23_move_to_absolute {s : Screen} (hr : Reachable s) (x y : Nat)
    (ho : s.flags.getLsbD 2 = false) :
    ∃ s', s.moveTo x y = .ok s' ∧ s'.view = { s.view with
      cursorX := min x (s.sizeX - 1), cursorY := min y (s.sizeY - 1) } := by
  obtain ⟨s', e, hv⟩ := C23_move_to_partial hr x y (by rw [ho]; intro h; cases h)
  rw [ho] at hv
  exact ⟨s', e, hv⟩

example : ∃ s, Reachable s ∧ (s.flags.getLsbD 2 && decide (s.marginTop + 7 < 2 ^ 32) &&
    decide (((s.moveTo 99 7).map fun t => (t.cursorX, t.cursorY)) = .ok (79, 4))) = true :=
  exists_of_holds (cs := [.setMargins 2 5, .setFlags 4#32]) (by decide +kernel)

end Verif.Props.Screen
