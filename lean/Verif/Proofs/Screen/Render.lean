import Verif.Model.Selection
import Verif.Proofs.Screen.Resize

/-!
# Closed form of a drawing
-/

namespace Verif
namespace Screen

/-- Number of scrollback rows in view. -/
@[reducible] def sbRows (s : Screen) : Nat := (sbFrom s.sb s.sbPos).length

/-- The line drawn in row `i`. -/
@[reducible] def shownRow (s : Screen) (i : Nat) : Option Line :=
  (sbFrom s.sb s.sbPos ++ s.lines)[i]?

/-- `k` of `tsm_screen_draw` while row `i` is drawn. -/
@[reducible] def rowK (s : Screen) (i : Nat) : Nat := if i < s.sbRows then 0 else i - s.sbRows + 1

/-- The scrollback line drawn in row `i`, if it is one. -/
@[reducible] def rowId (s : Screen) (i : Nat) : Option Nat :=
  ((sbFrom s.sb s.sbPos)[i]?).map Line.sbId

/-- Row `i` is the row of endpoint `p`. -/
@[reducible] def hitRow (s : Screen) (p : SelPos) (i : Nat) : Bool :=
  s.selActive && selRow (s.rowId i) (s.rowK i) p

/-- Endpoint `p` has been passed when row `i` starts. -/
def passed (s : Screen) (p : SelPos) : Nat → Bool
  | 0 => s.selActive && selAbove s.sbPos p
  | i + 1 => xor (passed s p i) (s.hitRow p i && decide (p.x < s.sizeX))

/-- The cell in row `i`, column `j` is highlighted. -/
def highlight (s : Screen) (i j : Nat) : Bool :=
  (s.hitRow s.selStart i && decide (j = s.selStart.x)) ||
  (s.hitRow s.selEnd i && decide (j = s.selEnd.x)) ||
  xor (xor (s.passed s.selStart i) (s.hitRow s.selStart i && decide (s.selStart.x < j)))
    (xor (s.passed s.selEnd i) (s.hitRow s.selEnd i && decide (s.selEnd.x < j)))

/-- The callback arguments for a cell, given whether it is highlighted. -/
def mkCall (s : Screen) (l : Line) (k i j : Nat) (sel : Bool) : DrawCall :=
  let cell := (l.cells[j]?).getD s.blank
  let attr := cell.attr
  let attr := if k = s.drawCurY + 1 ∧ j = s.drawCurX ∧ s.fHide = false
    then { attr with inverse := !attr.inverse } else attr
  let attr := if s.fInverse then { attr with inverse := !attr.inverse } else attr
  let attr := if sel then { attr with inverse := !attr.inverse } else attr
  { id := drawId cell.ch attr, ch := if cell.ch ≤ UCS4_MAX then cell.ch else 0
    len := if cell.ch = 0 ∨ (cell.ch = 32 ∧ attr.underline = false) then 0 else 1
    width := cell.width, x := j, y := i, attr := attr, age := s.drawAge cell l }

/-- The callback arguments at a position. -/
@[reducible] def cellCall (s : Screen) (i j : Nat) : DrawCall :=
  s.mkCall ((s.shownRow i).getD default) (s.rowK i) i j (s.highlight i j)

/-- `in_sel` before column `j`, if it was `b` at the start of the row. -/
@[reducible] def colIn (s : Screen) (b rs re : Bool) (j : Nat) : Bool :=
  xor b (xor (rs && decide (s.selStart.x < j)) (re && decide (s.selEnd.x < j)))

/-- Highlighting in terms of the state at the start of the row. -/
@[reducible] def colSel (s : Screen) (b rs re : Bool) (j : Nat) : Bool :=
  (rs && decide (j = s.selStart.x)) || (re && decide (j = s.selEnd.x)) || s.colIn b rs re j

theorem lt_succ_xor (x j : Nat) : decide (x < j + 1) = xor (decide (x < j)) (decide (j = x)) := by
  rcases Nat.lt_trichotomy x j with h | h | h
  · have h1 : x < j + 1 := by omega
    have h2 : j ≠ x := by omega
    simp [h, h1, h2]
  · subst h; simp
  · have h1 : ¬ x < j + 1 := by omega
    have h2 : j ≠ x := by omega
    have h3 : ¬ x < j := by omega
    simp [h1, h2, h3]

theorem colIn_succ (s : Screen) (b rs re : Bool) (j : Nat) :
    s.colIn b rs re (j + 1) = xor (s.colIn b rs re j)
      (xor (rs && decide (j = s.selStart.x)) (re && decide (j = s.selEnd.x))) := by
  unfold colIn
  rw [lt_succ_xor, lt_succ_xor]
  cases b <;> cases rs <;> cases re <;> simp <;>
    cases decide (s.selStart.x < j) <;> cases decide (s.selEnd.x < j) <;>
    cases decide (j = s.selStart.x) <;> cases decide (j = s.selEnd.x) <;> rfl

theorem drawCell_eq (s : Screen) (l : Line) (k i j : Nat) (b rs re : Bool)
    (ha : s.selActive = false → rs = false ∧ re = false) :
    s.drawCell l k i j rs re ⟨s.colIn b rs re j, false⟩ =
      (s.mkCall l k i j (s.colSel b rs re j), ⟨s.colIn b rs re (j + 1), false⟩) := by
  have hq : ∃ q : SelSt, s.selCell rs re j ⟨s.colIn b rs re j, false⟩ = q ∧
      (q.inSel || q.wasSel) = s.colSel b rs re j ∧
      q.inSel = s.colIn b rs re (j + 1) ∧ (q.wasSel = true → s.colSel b rs re j = true) := by
    refine ⟨_, rfl, ?_, ?_, ?_⟩
    all_goals
      try rw [show s.colSel b rs re j = ((rs && decide (j = s.selStart.x)) ||
        (re && decide (j = s.selEnd.x)) || s.colIn b rs re j) from rfl]
    all_goals
      try rw [colIn_succ]
    all_goals
      unfold selCell
      cases hs : s.selActive with
      | false =>
        obtain ⟨h1, h2⟩ := ha hs
        subst h1; subst h2
        simp
      | true =>
        simp only [if_true]
        unfold selToggle
        generalize s.colIn b rs re j = c
        generalize (rs && decide (j = s.selStart.x)) = h1
        generalize (re && decide (j = s.selEnd.x)) = h2
        cases c <;> cases h1 <;> cases h2 <;> simp
  obtain ⟨q, e, h1, h2, h3⟩ := hq
  unfold drawCell mkCall
  simp only [e, h1]
  congr 1
  · by_cases hc : s.colSel b rs re j = true
    · rw [if_pos hc]
      rw [← h2]
    · rw [if_neg hc]
      have hw : q.wasSel = false := by
        cases hw : q.wasSel with
        | false => rfl
        | true => exact absurd (h3 hw) hc
      rw [← h2]
      cases q
      simp only at hw ⊢
      rw [hw]

theorem drawCols_eq (s : Screen) (l : Line) (k i : Nat) (b rs re : Bool)
    (ha : s.selActive = false → rs = false ∧ re = false) (n : Nat) : ∀ j,
    s.drawCols l k i rs re n j ⟨s.colIn b rs re j, false⟩ =
      ((List.range' j n).map (fun c => s.mkCall l k i c (s.colSel b rs re c)),
        ⟨s.colIn b rs re (j + n), false⟩) := by
  induction n with
  | zero => intro j; simp [drawCols]
  | succ n ih =>
    intro j
    unfold drawCols
    rw [drawCell_eq s l k i j b rs re ha]
    simp only
    rw [ih (j + 1)]
    simp only [List.range'_succ, List.map_cons]
    rw [show j + 1 + n = j + (n + 1) by omega]

/-- `in_sel` at the start of row `i`. -/
@[reducible] def rowIn (s : Screen) (i : Nat) : Bool :=
  xor (s.passed s.selStart i) (s.passed s.selEnd i)

theorem rowIn_succ (s : Screen) (i : Nat) :
    s.rowIn (i + 1) = s.colIn (s.rowIn i) (s.hitRow s.selStart i) (s.hitRow s.selEnd i) s.sizeX := by
  unfold rowIn colIn
  rw [passed, passed]
  generalize s.passed s.selStart i = a
  generalize s.passed s.selEnd i = b
  generalize (s.hitRow s.selStart i && decide (s.selStart.x < s.sizeX)) = c
  generalize (s.hitRow s.selEnd i && decide (s.selEnd.x < s.sizeX)) = d
  cases a <;> cases b <;> cases c <;> cases d <;> rfl

theorem colSel_row (s : Screen) (i j : Nat) :
    s.colSel (s.rowIn i) (s.hitRow s.selStart i) (s.hitRow s.selEnd i) j = s.highlight i j := by
  unfold colSel colIn rowIn highlight
  generalize s.passed s.selStart i = a
  generalize s.passed s.selEnd i = b
  generalize (s.hitRow s.selStart i && decide (s.selStart.x < j)) = c
  generalize (s.hitRow s.selEnd i && decide (s.selEnd.x < j)) = d
  cases a <;> cases b <;> cases c <;> cases d <;> rfl

theorem hitRow_inactive {s : Screen} (h : s.selActive = false) (p : SelPos) (i : Nat) :
    s.hitRow p i = false := by unfold hitRow; rw [h]; rfl

theorem drawRows_eq {s : Screen} (hr : s.sizeY ≤ s.lines.length) (n : Nat) : ∀ i, i + n ≤ s.sizeY →
    s.drawRows n i ((sbFrom s.sb s.sbPos).drop i) (i - s.sbRows) ⟨s.rowIn i, false⟩ =
      .ok ((List.range' i n).flatMap (fun r => (List.range s.sizeX).map (s.cellCall r))) := by
  induction n with
  | zero => intro i _; simp [drawRows]
  | succ n ih =>
    intro i hi
    have hcol0 : ∀ b rs re, s.colIn b rs re 0 = b := by
      intro b rs re; unfold colIn; simp
    have hin : ∀ q : SelSt, q.wasSel = false →
        (if s.selActive then { q with wasSel := false } else q) = q := by
      intro q hq
      split
      · cases q; simp only at hq; rw [hq]
      · rfl
    have hcols : ∀ (l : Line) (k : Nat), s.shownRow i = some l → s.rowK i = k →
        s.drawCols l k i (s.hitRow s.selStart i) (s.hitRow s.selEnd i) s.sizeX 0 ⟨s.rowIn i, false⟩ =
        ((List.range s.sizeX).map (s.cellCall i), ⟨s.rowIn (i + 1), false⟩) := by
      intro l k hl hk
      have := drawCols_eq s l k i (s.rowIn i) (s.hitRow s.selStart i) (s.hitRow s.selEnd i)
        (fun h => ⟨hitRow_inactive h _ _, hitRow_inactive h _ _⟩) s.sizeX 0
      rw [hcol0] at this
      rw [this, Nat.zero_add, ← rowIn_succ]
      congr 1
      rw [List.range_eq_range']
      apply List.map_congr_left
      intro c _
      unfold cellCall
      rw [hl, hk, colSel_row]
      rfl
    rw [List.range'_succ, List.flatMap_cons]
    rcases Nat.lt_or_ge i s.sbRows with hlt | hge
    · have hd : (sbFrom s.sb s.sbPos).drop i =
          (sbFrom s.sb s.sbPos)[i] :: (sbFrom s.sb s.sbPos).drop (i + 1) :=
        List.drop_eq_getElem_cons hlt
      have hk : s.rowK i = 0 := by unfold rowK; rw [if_pos hlt]
      have hk' : i - s.sbRows = 0 := by omega
      have hk'' : i + 1 - s.sbRows = 0 := by omega
      have hid : s.rowId i = some (sbFrom s.sb s.sbPos)[i].sbId := by
        unfold rowId; rw [List.getElem?_eq_getElem hlt]; rfl
      have hsh : s.shownRow i = some (sbFrom s.sb s.sbPos)[i] := by
        unfold shownRow
        rw [List.getElem?_append_left hlt, List.getElem?_eq_getElem hlt]
      rw [hd, hk']
      unfold drawRows
      simp only [hin ⟨s.rowIn i, false⟩ rfl]
      have e1 : (s.selActive && selRow (some (sbFrom s.sb s.sbPos)[i].sbId) 0 s.selStart) =
          s.hitRow s.selStart i := by unfold hitRow; rw [hid, hk]
      have e2 : (s.selActive && selRow (some (sbFrom s.sb s.sbPos)[i].sbId) 0 s.selEnd) =
          s.hitRow s.selEnd i := by unfold hitRow; rw [hid, hk]
      rw [e1, e2, hcols _ 0 hsh hk]
      have := ih (i + 1) (by omega)
      rw [hk''] at this
      simp only [this]
      rfl
    · have hd : (sbFrom s.sb s.sbPos).drop i = [] := List.drop_eq_nil_of_le hge
      have hd' : (sbFrom s.sb s.sbPos).drop (i + 1) = [] := List.drop_eq_nil_of_le (by
        show s.sbRows ≤ i + 1; omega)
      have hk : s.rowK i = i - s.sbRows + 1 := by unfold rowK; rw [if_neg (by omega)]
      have hlt : i - s.sbRows < s.lines.length := by omega
      have hid : s.rowId i = none := by
        unfold rowId; rw [List.getElem?_eq_none hge]; rfl
      have hsh : s.shownRow i = some s.lines[i - s.sbRows] := by
        unfold shownRow
        rw [List.getElem?_append_right hge, List.getElem?_eq_getElem hlt]
      rw [hd]
      unfold drawRows
      rw [List.getElem?_eq_getElem hlt]
      simp only [hin ⟨s.rowIn i, false⟩ rfl]
      have e1 : (s.selActive && selRow none (i - s.sbRows + 1) s.selStart) =
          s.hitRow s.selStart i := by unfold hitRow; rw [hid, hk]
      have e2 : (s.selActive && selRow none (i - s.sbRows + 1) s.selEnd) =
          s.hitRow s.selEnd i := by unfold hitRow; rw [hid, hk]
      rw [e1, e2, hcols _ _ hsh hk]
      have := ih (i + 1) (by omega)
      rw [hd', show i + 1 - s.sbRows = i - s.sbRows + 1 by omega] at this
      simp only [this]
      rfl

/-- All callback arguments of a drawing, in order. -/
@[reducible] def drawing (s : Screen) : List DrawCall :=
  (List.range s.sizeY).flatMap (fun i => (List.range s.sizeX).map (s.cellCall i))

theorem draw_eq {s : Screen} (h : Geo s) :
    s.draw = .ok (s.drawing, if s.ageReset then 0 else s.ageCnt, { s with ageReset := false }) := by
  have hr : s.sizeY ≤ s.lines.length := by rw [h.linesOk.len]; exact h.rows
  have h0 := drawRows_eq hr s.sizeY 0 (by omega)
  have hin : s.rowIn 0 = s.drawInSel := by
    unfold rowIn drawInSel passed
    cases s.selActive <;> simp
  rw [List.drop_zero, Nat.zero_sub, hin] at h0
  unfold draw
  rw [h0]
  show Except.ok _ = _
  rw [← List.range_eq_range']
  cases ha : s.ageReset with
  | true => rfl
  | false =>
    have : ({ s with ageReset := false } : Screen) = s := by rw [← ha]
    rw [this]; rfl

end Screen
end Verif
