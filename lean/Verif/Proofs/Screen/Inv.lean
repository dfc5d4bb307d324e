import Verif.Model.ScreenOps
import Verif.Spec.View

/-!
# Invariants of a screen
-/

namespace Verif
namespace Screen

/-- Geometry: buffers are large enough for the visible area, margins are
sensible. -/
structure Geo (s : Screen) : Prop where
  x0 : 0 < s.sizeX
  y0 : 0 < s.sizeY
  xb : s.sizeX < 1073741824
  yb : s.sizeY < 1073741824
  len : s.alt.length = s.main.length
  rows : s.sizeY ≤ s.main.length
  wm : ∀ l ∈ s.main, s.sizeX ≤ l.cells.length
  wa : ∀ l ∈ s.alt, s.sizeX ≤ l.cells.length
  tab : s.sizeX ≤ s.tabRuler.length
  mtb : s.marginTop ≤ s.marginBottom
  mby : s.marginBottom < s.sizeY
  alias : s.useAlt = s.fAlt

/-- The scrollback: bounded, ids strictly increasing, no dangling references to
its lines. -/
structure SbOk (s : Screen) : Prop where
  cnt : s.sbCount = s.sb.length
  max : s.sb.length ≤ s.sbMax
  maxb : s.sbMax < 4294967296
  ids : (s.sb.map Line.sbId).Pairwise (· < ·)
  last : ∀ l ∈ s.sb, l.sbId ≤ s.sbLastId
  pos : ∀ p, s.sbPos = some p → ∃ l ∈ s.sb, l.sbId = p
  selS : s.selActive = true → ∀ p, s.selStart.line = some p → ∃ l ∈ s.sb, l.sbId = p
  selE : s.selActive = true → ∀ p, s.selEnd.line = some p → ∃ l ∈ s.sb, l.sbId = p

/-- The cursor: inside the screen, except that the column may exceed the last
one while a line wrap is pending. -/
structure Cur (s : Screen) : Prop where
  cx : s.cursorX ≤ s.sizeX + 1
  cy : s.cursorY < s.sizeY

/-- The invariant of a screen between two API calls. -/
structure Inv (s : Screen) : Prop where
  geo : Geo s
  sb : SbOk s
  cur : Cur s
  ageb : s.ageCnt < 18446744073709551616

/-! ### Basic lemmas -/

theorem gridOf_congr {w h : Nat} {ls ls' : List Line}
    (hc : ∀ i j, i < h → j < w →
      (ls[i]?.bind (·.cells[j]?)).map Cell.glyph = (ls'[i]?.bind (·.cells[j]?)).map Cell.glyph) :
    gridOf w h ls = gridOf w h ls' := by
  funext i j
  unfold gridOf
  split
  · rename_i hh; exact hc i j hh.1 hh.2
  · rfl

theorem view_grid (s : Screen) : s.view.grid = gridOf s.sizeX s.sizeY s.lines := by
  unfold View.grid view lines
  cases s.useAlt <;> rfl

theorem view_withLines (s : Screen) (ls : List Line) :
    (s.withLines ls).view = s.view.setGrid (gridOf s.sizeX s.sizeY ls) := by
  unfold withLines View.setGrid view
  cases h : s.useAlt <;> simp

theorem lines_withLines (s : Screen) (ls : List Line) : (s.withLines ls).lines = ls := by
  unfold withLines lines
  cases h : s.useAlt <;> simp

theorem setGrid_grid (v : View) : v.setGrid v.grid = v := by
  unfold View.setGrid View.grid
  split <;> rfl

theorem setGrid_setGrid (v : View) (g g' : Grid) : (v.setGrid g).setGrid g' = v.setGrid g' := by
  unfold View.setGrid
  cases h : v.useAlt <;> simp

/-- `withLines` only changes the buffers. -/
theorem withLines_eq (s : Screen) (ls : List Line) :
    s.withLines ls = { s with main := (s.withLines ls).main, alt := (s.withLines ls).alt } := by
  unfold withLines
  cases h : s.useAlt <;> simp

section
variable (s : Screen) (ls : List Line)
@[simp] theorem wl_flags : (s.withLines ls).flags = s.flags := by unfold withLines; split <;> rfl
@[simp] theorem wl_defAttr : (s.withLines ls).defAttr = s.defAttr := by unfold withLines; split <;> rfl
@[simp] theorem wl_defAttrMain : (s.withLines ls).defAttrMain = s.defAttrMain := by unfold withLines; split <;> rfl
@[simp] theorem wl_ageCnt : (s.withLines ls).ageCnt = s.ageCnt := by unfold withLines; split <;> rfl
@[simp] theorem wl_ageReset : (s.withLines ls).ageReset = s.ageReset := by unfold withLines; split <;> rfl
@[simp] theorem wl_sizeX : (s.withLines ls).sizeX = s.sizeX := by unfold withLines; split <;> rfl
@[simp] theorem wl_sizeY : (s.withLines ls).sizeY = s.sizeY := by unfold withLines; split <;> rfl
@[simp] theorem wl_marginTop : (s.withLines ls).marginTop = s.marginTop := by unfold withLines; split <;> rfl
@[simp] theorem wl_marginBottom : (s.withLines ls).marginBottom = s.marginBottom := by unfold withLines; split <;> rfl
@[simp] theorem wl_useAlt : (s.withLines ls).useAlt = s.useAlt := by unfold withLines; split <;> rfl
@[simp] theorem wl_age : (s.withLines ls).age = s.age := by unfold withLines; split <;> rfl
@[simp] theorem wl_sbCount : (s.withLines ls).sbCount = s.sbCount := by unfold withLines; split <;> rfl
@[simp] theorem wl_sb : (s.withLines ls).sb = s.sb := by unfold withLines; split <;> rfl
@[simp] theorem wl_sbMax : (s.withLines ls).sbMax = s.sbMax := by unfold withLines; split <;> rfl
@[simp] theorem wl_sbPos : (s.withLines ls).sbPos = s.sbPos := by unfold withLines; split <;> rfl
@[simp] theorem wl_sbPosNum : (s.withLines ls).sbPosNum = s.sbPosNum := by unfold withLines; split <;> rfl
@[simp] theorem wl_sbLastId : (s.withLines ls).sbLastId = s.sbLastId := by unfold withLines; split <;> rfl
@[simp] theorem wl_cursorX : (s.withLines ls).cursorX = s.cursorX := by unfold withLines; split <;> rfl
@[simp] theorem wl_cursorY : (s.withLines ls).cursorY = s.cursorY := by unfold withLines; split <;> rfl
@[simp] theorem wl_tabRuler : (s.withLines ls).tabRuler = s.tabRuler := by unfold withLines; split <;> rfl
@[simp] theorem wl_selActive : (s.withLines ls).selActive = s.selActive := by unfold withLines; split <;> rfl
@[simp] theorem wl_selStart : (s.withLines ls).selStart = s.selStart := by unfold withLines; split <;> rfl
@[simp] theorem wl_selEnd : (s.withLines ls).selEnd = s.selEnd := by unfold withLines; split <;> rfl
@[simp] theorem wl_allocOk : (s.withLines ls).allocOk = s.allocOk := by unfold withLines; split <;> rfl
@[simp] theorem wl_allocN : (s.withLines ls).allocN = s.allocN := by unfold withLines; split <;> rfl
@[simp] theorem wl_lines : (s.withLines ls).lines = ls := lines_withLines s ls
end

/-- Line arrays that may replace the displayed buffer. -/
structure LinesOk (s : Screen) (ls : List Line) : Prop where
  len : ls.length = s.main.length
  w : ∀ l ∈ ls, s.sizeX ≤ l.cells.length

theorem Geo.linesOk {s : Screen} (h : Geo s) : LinesOk s s.lines := by
  unfold lines
  split
  · exact ⟨h.len, h.wa⟩
  · exact ⟨rfl, h.wm⟩

theorem Geo.withLines {s : Screen} (h : Geo s) {ls : List Line} (hl : LinesOk s ls) :
    Geo (s.withLines ls) := by
  obtain ⟨h1, h2⟩ := hl
  unfold Screen.withLines
  split
  · exact { h with len := h1, wa := h2 }
  · exact { h with len := h.len.trans h1.symm, rows := by simp only; have := h.rows; omega, wm := h2 }

theorem SbOk.withLines {s : Screen} (h : SbOk s) (ls : List Line) : SbOk (s.withLines ls) := by
  unfold Screen.withLines
  split
  · exact { h with }
  · exact { h with }

theorem LinesOk.row {s : Screen} {ls : List Line} (h : LinesOk s ls) (hg : Geo s) {i : Nat}
    (hi : i < s.sizeY) : ∃ l, ls[i]? = some l ∧ s.sizeX ≤ l.cells.length := by
  have : i < ls.length := by have := h.len; have := hg.rows; omega
  exact ⟨ls[i], List.getElem?_eq_getElem this, h.w _ (List.getElem_mem _)⟩

theorem LinesOk.set {s : Screen} {ls : List Line} (h : LinesOk s ls) {i : Nat} {l : Line}
    (hl : s.sizeX ≤ l.cells.length) : LinesOk s (ls.set i l) := by
  refine ⟨by simp [h.len], ?_⟩
  intro l' hl'
  rcases List.mem_or_eq_of_mem_set hl' with h' | h'
  · exact h.w _ h'
  · rw [h']; exact hl

end Screen
end Verif
