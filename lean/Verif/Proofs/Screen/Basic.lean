import Verif.Proofs.Screen.Inv

/-!
# Ageing and cursor movement: results and effects
-/

namespace Verif
namespace Screen

/-! ### Lists -/

theorem getElem?_memmove {α : Type} {l : List α} {dst src n : Nat}
    (h : dst + n ≤ l.length) (h' : src + n ≤ l.length) (i : Nat) :
    (l.take dst ++ (l.drop src).take n ++ l.drop (dst + n))[i]? =
      if dst ≤ i ∧ i < dst + n then l[src + (i - dst)]? else l[i]? := by
  have e1 : (l.take dst).length = dst := by simp; omega
  have e2 : ((l.drop src).take n).length = n := by simp; omega
  have e3 : (l.take dst ++ (l.drop src).take n).length = dst + n := by simp; omega
  by_cases c1 : i < dst
  · rw [if_neg (by omega), List.getElem?_append_left (by omega), List.getElem?_append_left (by omega),
      List.getElem?_take_of_lt c1]
  · by_cases c2 : i < dst + n
    · rw [if_pos (by omega), List.getElem?_append_left (by omega),
        List.getElem?_append_right (by omega), e1, List.getElem?_take_of_lt (by omega),
        List.getElem?_drop]
    · rw [if_neg (by omega), List.getElem?_append_right (by omega), e3, List.getElem?_drop]
      congr 1; omega

theorem getElem?_memcpy {α : Type} {l ys : List α} {dst : Nat}
    (h : dst + ys.length ≤ l.length) (i : Nat) :
    (l.take dst ++ ys ++ l.drop (dst + ys.length))[i]? =
      if dst ≤ i ∧ i < dst + ys.length then ys[i - dst]? else l[i]? := by
  have e1 : (l.take dst).length = dst := by simp; omega
  have e3 : (l.take dst ++ ys).length = dst + ys.length := by simp; omega
  by_cases c1 : i < dst
  · rw [if_neg (by omega), List.getElem?_append_left (by omega), List.getElem?_append_left (by omega),
      List.getElem?_take_of_lt c1]
  · by_cases c2 : i < dst + ys.length
    · rw [if_pos (by omega), List.getElem?_append_left (by omega),
        List.getElem?_append_right (by omega), e1]
    · rw [if_neg (by omega), List.getElem?_append_right (by omega), e3, List.getElem?_drop]
      congr 1; omega

theorem memmove_ok {α : Type} {k : UB} {l : List α} {dst src n : Nat}
    (h : dst + n ≤ l.length) (h' : src + n ≤ l.length) :
    ∃ l', memmove k l dst src n = .ok l' ∧ l'.length = l.length ∧
      ∀ i, l'[i]? = if dst ≤ i ∧ i < dst + n then l[src + (i - dst)]? else l[i]? := by
  refine ⟨_, by unfold memmove; rw [if_pos ⟨h, h'⟩], ?_, getElem?_memmove h h'⟩
  simp; omega

theorem memcpy_ok {α : Type} {k : UB} {l ys : List α} {dst : Nat}
    (h : dst + ys.length ≤ l.length) :
    ∃ l', memcpy k l dst ys = .ok l' ∧ l'.length = l.length ∧
      ∀ i, l'[i]? = if dst ≤ i ∧ i < dst + ys.length then ys[i - dst]? else l[i]? := by
  refine ⟨_, by unfold memcpy; rw [if_pos h], ?_, getElem?_memcpy h⟩
  simp; omega

theorem updCells_ok {cells : List Cell} {lo hi : Nat} {f : Cell → Cell}
    (h : hi ≤ lo ∨ hi ≤ cells.length) :
    ∃ cells', updCells cells lo hi f = .ok cells' ∧ cells'.length = cells.length ∧
      ∀ i, cells'[i]? = (cells[i]?).map (fun c => if lo ≤ i ∧ i < hi then f c else c) := by
  refine ⟨_, by unfold updCells; rw [if_neg (by omega)], by simp, ?_⟩
  intro i; simp

/-- Elements of a list described by its `getElem?`. -/
theorem mem_of_getElem?_fun {α : Type} {l' : List α} {P : α → Prop}
    (h : ∀ (i : Nat) (a : α), l'[i]? = some a → P a) : ∀ a ∈ l', P a := by
  intro a ha
  obtain ⟨i, hi, rfl⟩ := List.mem_iff_getElem.mp ha
  exact h i _ (List.getElem?_eq_getElem hi)

theorem getElem?_mem {α : Type} {l : List α} {i : Nat} {a : α} (h : l[i]? = some a) : a ∈ l :=
  List.mem_of_getElem? h

/-! ### Ageing -/

theorem incAge_eq (s : Screen) :
    s.incAge = { s with ageCnt := s.incAge.ageCnt, ageReset := s.incAge.ageReset } := by
  unfold incAge
  simp only
  split <;> rfl

theorem incAge_view (s : Screen) : s.incAge.view = s.view := by
  rw [incAge_eq]; rfl

theorem touch_view (s : Screen) : s.touch.view = s.view := rfl

section
variable (s : Screen)
@[simp] theorem ia_flags : s.incAge.flags = s.flags := by rw [incAge_eq]
@[simp] theorem ia_defAttr : s.incAge.defAttr = s.defAttr := by rw [incAge_eq]
@[simp] theorem ia_defAttrMain : s.incAge.defAttrMain = s.defAttrMain := by rw [incAge_eq]
@[simp] theorem ia_sizeX : s.incAge.sizeX = s.sizeX := by rw [incAge_eq]
@[simp] theorem ia_sizeY : s.incAge.sizeY = s.sizeY := by rw [incAge_eq]
@[simp] theorem ia_marginTop : s.incAge.marginTop = s.marginTop := by rw [incAge_eq]
@[simp] theorem ia_marginBottom : s.incAge.marginBottom = s.marginBottom := by rw [incAge_eq]
@[simp] theorem ia_useAlt : s.incAge.useAlt = s.useAlt := by rw [incAge_eq]
@[simp] theorem ia_main : s.incAge.main = s.main := by rw [incAge_eq]
@[simp] theorem ia_alt : s.incAge.alt = s.alt := by rw [incAge_eq]
@[simp] theorem ia_age : s.incAge.age = s.age := by rw [incAge_eq]
@[simp] theorem ia_sbCount : s.incAge.sbCount = s.sbCount := by rw [incAge_eq]
@[simp] theorem ia_sb : s.incAge.sb = s.sb := by rw [incAge_eq]
@[simp] theorem ia_sbMax : s.incAge.sbMax = s.sbMax := by rw [incAge_eq]
@[simp] theorem ia_sbPos : s.incAge.sbPos = s.sbPos := by rw [incAge_eq]
@[simp] theorem ia_sbPosNum : s.incAge.sbPosNum = s.sbPosNum := by rw [incAge_eq]
@[simp] theorem ia_sbLastId : s.incAge.sbLastId = s.sbLastId := by rw [incAge_eq]
@[simp] theorem ia_cursorX : s.incAge.cursorX = s.cursorX := by rw [incAge_eq]
@[simp] theorem ia_cursorY : s.incAge.cursorY = s.cursorY := by rw [incAge_eq]
@[simp] theorem ia_tabRuler : s.incAge.tabRuler = s.tabRuler := by rw [incAge_eq]
@[simp] theorem ia_selActive : s.incAge.selActive = s.selActive := by rw [incAge_eq]
@[simp] theorem ia_selStart : s.incAge.selStart = s.selStart := by rw [incAge_eq]
@[simp] theorem ia_selEnd : s.incAge.selEnd = s.selEnd := by rw [incAge_eq]
@[simp] theorem ia_allocOk : s.incAge.allocOk = s.allocOk := by rw [incAge_eq]
@[simp] theorem ia_allocN : s.incAge.allocN = s.allocN := by rw [incAge_eq]
@[simp] theorem ia_lines : s.incAge.lines = s.lines := by rw [incAge_eq]; rfl
end

theorem incAge_ageCnt (s : Screen) : s.incAge.ageCnt < 18446744073709551616 := by
  unfold incAge
  simp only
  split
  · simp only; omega
  · simp only; omega

theorem Geo.incAge {s : Screen} (h : Geo s) : Geo s.incAge := by
  rw [incAge_eq]; exact { h with }

theorem SbOk.incAge {s : Screen} (h : SbOk s) : SbOk s.incAge := by
  rw [incAge_eq]; exact { h with }

theorem Cur.incAge {s : Screen} (h : Cur s) : Cur s.incAge := by
  rw [incAge_eq]; exact { h with }

theorem Inv.incAge {s : Screen} (h : Inv s) : Inv s.incAge :=
  ⟨h.geo.incAge, h.sb.incAge, h.cur.incAge, incAge_ageCnt s⟩

theorem Geo.touch {s : Screen} (h : Geo s) : Geo s.touch := { h with }
theorem SbOk.touch {s : Screen} (h : SbOk s) : SbOk s.touch := { h with }
theorem Cur.touch {s : Screen} (h : Cur s) : Cur s.touch := { h with }
theorem Inv.touch {s : Screen} (h : Inv s) : Inv s.touch :=
  ⟨h.geo.touch, h.sb.touch, h.cur.touch, h.ageb⟩

/-! ### Marking cells -/

/-- Set the age of the cell at row `y`, column `x`. -/
def bumpAt (ls : List Line) (y x age : Nat) : List Line :=
  ls.modify y (fun l => { l with cells := l.cells.modify x (fun c => { c with age := age }) })

theorem bumpAt_getElem? (ls : List Line) (y x age i : Nat) :
    (bumpAt ls y x age)[i]? = (ls[i]?).map (fun l =>
      if y = i then { l with cells := l.cells.modify x (fun c => { c with age := age }) } else l) := by
  unfold bumpAt
  rw [List.getElem?_modify]
  by_cases h : y = i <;> simp [h]

theorem bumpAt_length (ls : List Line) (y x age : Nat) : (bumpAt ls y x age).length = ls.length := by
  simp [bumpAt]

theorem bumpAt_cell (ls : List Line) (y x age i j : Nat) :
    ((bumpAt ls y x age)[i]?.bind (·.cells[j]?)) =
      (ls[i]?.bind (·.cells[j]?)).map
        (fun c => if y = i ∧ x = j then { c with age := age } else c) := by
  rw [bumpAt_getElem?]
  cases h : ls[i]? with
  | none => simp
  | some l =>
    by_cases hy : y = i
    · by_cases hx : x = j
      · simp [hy, hx]
      · simp [hy, hx]
    · simp [hy]

theorem gridOf_bumpAt (w h : Nat) (ls : List Line) (y x age : Nat) :
    gridOf w h (bumpAt ls y x age) = gridOf w h ls := by
  apply gridOf_congr
  intro i j _ _
  rw [bumpAt_cell]
  cases (ls[i]?.bind (·.cells[j]?)) with
  | none => rfl
  | some c => by_cases hc : y = i ∧ x = j <;> simp [hc]

theorem LinesOk.bumpAt {s : Screen} {ls : List Line} (h : LinesOk s ls) (y x age : Nat) :
    LinesOk s (bumpAt ls y x age) := by
  refine ⟨by rw [bumpAt_length, h.len], ?_⟩
  apply mem_of_getElem?_fun
  intro i a ha
  rw [bumpAt_getElem?] at ha
  cases e : ls[i]? with
  | none => rw [e] at ha; cases ha
  | some l =>
    rw [e] at ha
    have := h.w l (getElem?_mem e)
    simp only [Option.map_some, Option.some.injEq] at ha
    rw [← ha]
    split <;> simpa using this

/-- The screen after marking the cursor cell. -/
def marked (s : Screen) : Screen :=
  s.withLines (bumpAt s.lines s.cursorCell.1 s.cursorCell.2 s.ageCnt)

theorem Geo.cursorCell {s : Screen} (h : Geo s) :
    s.cursorCell.1 < s.sizeY ∧ s.cursorCell.2 < s.sizeX := by
  have := h.x0; have := h.y0; have := h.xb; have := h.yb
  unfold Screen.cursorCell pred32
  constructor
  · simp only; split <;> omega
  · simp only; split <;> omega

theorem markCursor_ok {s : Screen} (h : Geo s) : s.markCursor = .ok s.marked := by
  obtain ⟨h1, h2⟩ := h.cursorCell
  obtain ⟨l, e, w⟩ := h.linesOk.row h h1
  unfold markCursor marked
  rw [e]
  simp only
  rw [if_pos (by omega)]
  congr 2
  apply List.ext_getElem?
  intro i
  rw [bumpAt_getElem?, List.getElem?_set]
  by_cases c : s.cursorCell.1 = i
  · have hlt : s.cursorCell.1 < s.lines.length := by
      rw [h.linesOk.len]; have := h.rows; omega
    rw [if_pos c, if_pos hlt]
    rw [← c, e]
    simp
  · rw [if_neg c]
    cases s.lines[i]? <;> simp [c]

theorem Geo.marked {s : Screen} (h : Geo s) : Geo s.marked :=
  h.withLines (h.linesOk.bumpAt _ _ _)

theorem marked_view (s : Screen) : s.marked.view = s.view := by
  unfold marked
  rw [view_withLines, gridOf_bumpAt, ← view_grid, setGrid_grid]

theorem SbOk.marked {s : Screen} (h : SbOk s) : SbOk s.marked := h.withLines _

/-- The screen after `move_cursor`. -/
def moved (s : Screen) (x y : Nat) : Screen :=
  if s.fHide then { s with cursorX := x, cursorY := y }
  else if s.cursorX = x ∧ s.cursorY = y then s
  else marked { s.marked with cursorX := x, cursorY := y }

theorem Geo.cursor {s : Screen} (h : Geo s) (x y : Nat) :
    Geo { s with cursorX := x, cursorY := y } := { h with }

theorem SbOk.cursor {s : Screen} (h : SbOk s) (x y : Nat) :
    SbOk { s with cursorX := x, cursorY := y } := { h with }

theorem moveCursor_ok {s : Screen} (h : Geo s) (x y : Nat) :
    s.moveCursor x y = .ok (s.moved x y) := by
  unfold moveCursor moved
  split
  · rfl
  · split
    · rfl
    · rw [markCursor_ok h]
      exact markCursor_ok (h.marked.cursor x y)

theorem Geo.moved {s : Screen} (h : Geo s) (x y : Nat) : Geo (s.moved x y) := by
  unfold Screen.moved
  split
  · exact h.cursor x y
  · split
    · exact h
    · exact (h.marked.cursor x y).marked

theorem SbOk.moved {s : Screen} (h : SbOk s) (x y : Nat) : SbOk (s.moved x y) := by
  unfold Screen.moved
  split
  · exact h.cursor x y
  · split
    · exact h
    · exact (h.marked.cursor x y).marked

theorem moved_view (s : Screen) (x y : Nat) :
    (s.moved x y).view = { s.view with cursorX := x, cursorY := y } := by
  unfold moved
  split
  · rfl
  · split
    · rename_i h; obtain ⟨h1, h2⟩ := h; subst h1; subst h2; rfl
    · rw [marked_view]
      have := marked_view s
      have e : ∀ t : Screen, ({ t with cursorX := x, cursorY := y } : Screen).view =
          { t.view with cursorX := x, cursorY := y } := fun _ => rfl
      rw [e, this]

/-- Fields not in the view that `move_cursor` leaves alone. -/
theorem moved_rest (s : Screen) (x y : Nat) :
    (s.moved x y).ageCnt = s.ageCnt ∧ (s.moved x y).ageReset = s.ageReset ∧
    (s.moved x y).age = s.age ∧ (s.moved x y).allocOk = s.allocOk ∧
    (s.moved x y).allocN = s.allocN ∧ (s.moved x y).sbCount = s.sbCount := by
  unfold moved
  split
  · simp
  · split
    · simp
    · simp [marked]

section
variable (s : Screen) (x y : Nat)
@[simp] theorem mv_flags : (s.moved x y).flags = s.flags := congrArg View.flags (moved_view s x y)
@[simp] theorem mv_defAttr : (s.moved x y).defAttr = s.defAttr := congrArg View.defAttr (moved_view s x y)
@[simp] theorem mv_sizeX : (s.moved x y).sizeX = s.sizeX := congrArg View.sizeX (moved_view s x y)
@[simp] theorem mv_sizeY : (s.moved x y).sizeY = s.sizeY := congrArg View.sizeY (moved_view s x y)
@[simp] theorem mv_marginTop : (s.moved x y).marginTop = s.marginTop := congrArg View.marginTop (moved_view s x y)
@[simp] theorem mv_marginBottom : (s.moved x y).marginBottom = s.marginBottom := congrArg View.marginBottom (moved_view s x y)
@[simp] theorem mv_useAlt : (s.moved x y).useAlt = s.useAlt := congrArg View.useAlt (moved_view s x y)
@[simp] theorem mv_cursorX : (s.moved x y).cursorX = x := congrArg View.cursorX (moved_view s x y)
@[simp] theorem mv_cursorY : (s.moved x y).cursorY = y := congrArg View.cursorY (moved_view s x y)
@[simp] theorem mv_ageCnt : (s.moved x y).ageCnt = s.ageCnt := (moved_rest s x y).1
@[simp] theorem mv_ageReset : (s.moved x y).ageReset = s.ageReset := (moved_rest s x y).2.1
@[simp] theorem mv_age : (s.moved x y).age = s.age := (moved_rest s x y).2.2.1
@[simp] theorem mv_allocOk : (s.moved x y).allocOk = s.allocOk := (moved_rest s x y).2.2.2.1
@[simp] theorem mv_allocN : (s.moved x y).allocN = s.allocN := (moved_rest s x y).2.2.2.2.1
end

section
variable (s : Screen) (x y : Nat)
@[simp] theorem mv_defAttrMain : (s.moved x y).defAttrMain = s.defAttrMain := by
  unfold moved; split
  · rfl
  · split
    · rfl
    · simp [marked]
@[simp] theorem mv_sb : (s.moved x y).sb = s.sb := by
  unfold moved; split
  · rfl
  · split
    · rfl
    · simp [marked]
@[simp] theorem mv_sbMax : (s.moved x y).sbMax = s.sbMax := by
  unfold moved; split
  · rfl
  · split
    · rfl
    · simp [marked]
@[simp] theorem mv_sbPos : (s.moved x y).sbPos = s.sbPos := by
  unfold moved; split
  · rfl
  · split
    · rfl
    · simp [marked]
@[simp] theorem mv_sbPosNum : (s.moved x y).sbPosNum = s.sbPosNum := by
  unfold moved; split
  · rfl
  · split
    · rfl
    · simp [marked]
@[simp] theorem mv_sbLastId : (s.moved x y).sbLastId = s.sbLastId := by
  unfold moved; split
  · rfl
  · split
    · rfl
    · simp [marked]
@[simp] theorem mv_tabRuler : (s.moved x y).tabRuler = s.tabRuler := by
  unfold moved; split
  · rfl
  · split
    · rfl
    · simp [marked]
@[simp] theorem mv_selActive : (s.moved x y).selActive = s.selActive := by
  unfold moved; split
  · rfl
  · split
    · rfl
    · simp [marked]
@[simp] theorem mv_selStart : (s.moved x y).selStart = s.selStart := by
  unfold moved; split
  · rfl
  · split
    · rfl
    · simp [marked]
@[simp] theorem mv_selEnd : (s.moved x y).selEnd = s.selEnd := by
  unfold moved; split
  · rfl
  · split
    · rfl
    · simp [marked]
end

theorem Inv.moved {s : Screen} (h : Inv s) {x y : Nat} (hx : x ≤ s.sizeX + 1) (hy : y < s.sizeY) :
    Inv (s.moved x y) :=
  ⟨h.geo.moved x y, h.sb.moved x y, ⟨by simpa using hx, by simpa using hy⟩, by simpa using h.ageb⟩

end Screen
end Verif
