import Verif.Model.ScreenApi
import Verif.Proofs.Screen.Render
import Verif.Props.Wcwidth

/-!
# Remaining single-call lemmas

Scrolling calls, vertical movement with scrolling, line feed, selections.
-/

namespace Verif
namespace Screen

/-- The whole drawing is marked as changed. -/
@[reducible] def Fresh (s s' : Screen) : Prop :=
  s'.age = s'.ageCnt ∧ s'.ageCnt = s.incAge.ageCnt ∧ s'.ageReset = s.incAge.ageReset

theorem up_spec {s s' : Screen} (h : Inv s) {n : Nat} {kept : List Line}
    (hu : ScrolledUp s.incAge.touch s' (s.incAge.clampRegion n) kept) :
    ∃ rows kept', View.ScrollUp s.view s'.view (min n s.view.regionSize)
      (∀ k, s.allocOk k = true) rows kept' := by
  have := hu.spec h.incAge.geo.touch (Nat.min_le_right _ _)
  rw [touch_view, incAge_view] at this
  unfold clampRegion at this
  rw [ia_marginTop, ia_marginBottom] at this
  have ha : s.incAge.touch.allocOk = s.allocOk := ia_allocOk s
  rw [ha] at this
  exact ⟨_, _, this⟩

theorem scrollUp_spec {s : Screen} (h : Inv s) {num : Nat} (hn : 0 < num) :
    ∃ s' rows kept, s.scrollUp num = .ok s' ∧ Inv s' ∧ Fresh s s' ∧
      View.ScrollUp s.view s'.view (min num s.view.regionSize) (∀ k, s.allocOk k = true) rows kept := by
  obtain ⟨s', kept, e, hu⟩ := scrollUpI_spec h.incAge.geo h.incAge.sb hn
  obtain ⟨rows, k', hsp⟩ := up_spec h hu
  refine ⟨s', rows, k', ?_, hu.inv h.incAge.touch, ⟨?_, ?_, ?_⟩, hsp⟩
  · unfold scrollUp
    rw [if_neg (by omega)]
    exact e
  · rw [hu.age, hu.frame.ageCnt]
  · exact hu.frame.ageCnt
  · exact hu.frame.ageReset

theorem scrollDown_spec {s : Screen} (h : Inv s) {num : Nat} (hn : 0 < num) :
    ∃ s', s.scrollDown num = .ok s' ∧ Inv s' ∧ Fresh s s' ∧
      s'.view = { s.view.setGrid (s.view.rowsDown s.marginTop s.marginBottom
          (min num s.view.regionSize)) with
        selStart := if s.selActive then downSel (min num s.view.regionSize) s.selStart else s.selStart
        selEnd := if s.selActive then downSel (min num s.view.regionSize) s.selEnd else s.selEnd } := by
  obtain ⟨s', e, hd⟩ := scrollDownI_spec h.incAge.geo hn
  have hf : DownFrame s.incAge.touch s' := hd.frame
  have hv := hd.view h.incAge.geo.touch
  have hS := hd.selS
  have hE := hd.selE
  have e1 : s.incAge.touch.selActive = s.selActive := ia_selActive s
  have e2 : s.incAge.touch.selStart = s.selStart := ia_selStart s
  have e3 : s.incAge.touch.selEnd = s.selEnd := ia_selEnd s
  have e4 : s.incAge.touch.marginTop = s.marginTop := ia_marginTop s
  have e5 : s.incAge.touch.marginBottom = s.marginBottom := ia_marginBottom s
  rw [touch_view, incAge_view, e4, e5] at hv
  rw [e1, e2] at hS
  rw [e1, e3] at hE
  unfold clampRegion at hv hS hE
  rw [ia_marginTop, ia_marginBottom] at hv hS hE
  refine ⟨s', ?_, hd.inv h.incAge.touch, ⟨?_, ?_, ?_⟩, ?_⟩
  · unfold scrollDown
    rw [if_neg (by omega)]
    exact e
  · rw [hd.age]; unfold DownFrame at hf; rw [hf]
  · unfold DownFrame at hf; rw [hf]; rfl
  · unfold DownFrame at hf; rw [hf]; rfl
  · rw [hv, hS, hE]
    rfl

/-- Moving down with scrolling beyond the lowest reachable row. -/
theorem moveDown_scroll {s : Screen} (h : Inv s) {num : Nat} (hn : 0 < num)
    (hlt : s.view.lastRow - s.cursorY < num) :
    ∃ s' u rows kept, s.moveDown num true = .ok s' ∧ Inv s' ∧ Fresh s s' ∧
      View.ScrollUp s.view u (min (num - (s.view.lastRow - s.cursorY)) s.view.regionSize)
        (∀ k, s.allocOk k = true) rows kept ∧
      s'.view = { u with cursorY := s.view.lastRow } := by
  have hb := h.botStop
  have hbot : s.botStop = s.view.lastRow := rfl
  rw [← hbot] at hlt
  obtain ⟨t, kept, e, hu⟩ := scrollUpI_spec h.incAge.geo h.incAge.sb
    (num := num - (s.botStop - s.cursorY)) (by omega)
  have hi := hu.inv h.incAge.touch
  have hcx : t.cursorX = s.cursorX := by
    have := hu.frame; unfold UpFrame at this; rw [this]; exact ia_cursorX s
  have hsy : t.sizeY = s.sizeY := by rw [hu.frame.sizeY]; exact ia_sizeY s
  have hsx : t.sizeX = s.sizeX := by rw [hu.frame.sizeX]; exact ia_sizeX s
  obtain ⟨rows, k', hsp⟩ := up_spec h hu
  refine ⟨t.moved s.cursorX s.botStop, t.view, rows, k', ?_, ?_, ⟨?_, ?_, ?_⟩, hsp, ?_⟩
  · rw [moveDown_eq h hn true, if_pos ⟨rfl, hlt⟩, e]
    show t.moveCursor t.cursorX s.botStop = _
    rw [moveCursor_ok hi.geo, hcx]
  · exact hi.moved (by rw [hsx]; exact h.cur.cx) (by rw [hsy]; exact hb.2)
  · rw [mv_age, mv_ageCnt, hu.age, hu.frame.ageCnt]
  · rw [mv_ageCnt]; exact hu.frame.ageCnt
  · rw [mv_ageReset]; exact hu.frame.ageReset
  · rw [moved_view, ← hcx]
    rfl

theorem moveDown_plain {s : Screen} (h : Inv s) {num : Nat} (hn : 0 < num) {scroll : Bool}
    (hc : scroll = false ∨ num ≤ s.view.lastRow - s.cursorY) :
    s.moveDown num scroll =
      .ok (s.incAge.moved s.cursorX (min (s.cursorY + num) s.view.lastRow)) ∧
    Inv (s.incAge.moved s.cursorX (min (s.cursorY + num) s.view.lastRow)) := by
  have hb := h.botStop
  have hbot : s.botStop = s.view.lastRow := rfl
  rw [← hbot] at hc ⊢
  refine ⟨?_, h.incAge.moved ?_ ?_⟩
  · rw [moveDown_eq h hn scroll, if_neg]
    rintro ⟨h1, h2⟩
    rcases hc with h3 | h3
    · rw [h3] at h1; exact absurd h1 (by simp)
    · omega
  · rw [ia_sizeX]; exact h.cur.cx
  · rw [ia_sizeY]; omega

/-- Moving up with scrolling beyond the highest reachable row. -/
theorem moveUp_scroll {s : Screen} (h : Inv s) {num : Nat} (hn : 0 < num) (hb : num < 4294967296)
    (hlt : s.cursorY - s.view.firstRow < num) :
    ∃ s', s.moveUp num true = .ok s' ∧ Inv s' ∧ Fresh s s' ∧
      ∃ p q, s'.view = { s.view.setGrid (s.view.rowsDown s.marginTop s.marginBottom
          (min (num - (s.cursorY - s.view.firstRow)) s.view.regionSize)) with
        cursorY := s.view.firstRow, selStart := p, selEnd := q } := by
  have htop : s.topStop = s.view.firstRow := rfl
  have htl := topStop_le s
  rw [← htop] at hlt ⊢
  obtain ⟨t, e, hd⟩ := scrollDownI_spec h.incAge.geo (num := num - (s.cursorY - s.topStop)) (by omega)
  have hi := hd.inv h.incAge.touch
  have hf := hd.frame
  unfold DownFrame at hf
  have hcx : t.cursorX = s.cursorX := by rw [hf]; exact ia_cursorX s
  have hsy : t.sizeY = s.sizeY := by rw [hf]; exact ia_sizeY s
  have hsx : t.sizeX = s.sizeX := by rw [hf]; exact ia_sizeX s
  have hcnt : t.ageCnt = s.incAge.ageCnt := by rw [hf]; rfl
  have hv := hd.view h.incAge.geo.touch
  have e4 : s.incAge.touch.marginTop = s.marginTop := ia_marginTop s
  have e5 : s.incAge.touch.marginBottom = s.marginBottom := ia_marginBottom s
  rw [touch_view, incAge_view, e4, e5] at hv
  unfold clampRegion at hv
  rw [ia_marginTop, ia_marginBottom] at hv
  refine ⟨t.moved s.cursorX s.topStop, ?_, ?_, ⟨?_, ?_, ?_⟩, t.selStart, t.selEnd, ?_⟩
  · rw [moveUp_eq h hn hb true, if_pos ⟨rfl, hlt⟩, e]
    show t.moveCursor t.cursorX s.topStop = _
    rw [moveCursor_ok hi.geo, hcx]
  · exact hi.moved (by rw [hsx]; exact h.cur.cx) (by rw [hsy]; have := h.cur.cy; omega)
  · rw [mv_age, mv_ageCnt, hd.age, hcnt]; rfl
  · rw [mv_ageCnt]; exact hcnt
  · rw [mv_ageReset]; rw [hf]; rfl
  · rw [moved_view, hv]
    unfold View.setGrid
    split <;> rfl

theorem moveUp_plain {s : Screen} (h : Inv s) {num : Nat} (hn : 0 < num) (hb : num < 4294967296)
    {scroll : Bool} (hc : scroll = false ∨ num ≤ s.cursorY - s.view.firstRow) :
    s.moveUp num scroll =
      .ok (s.incAge.moved s.cursorX (max (s.cursorY - num) s.view.firstRow)) ∧
    Inv (s.incAge.moved s.cursorX (max (s.cursorY - num) s.view.firstRow)) := by
  have htop : s.topStop = s.view.firstRow := rfl
  have htl := topStop_le s
  rw [← htop] at hc ⊢
  refine ⟨?_, h.incAge.moved ?_ ?_⟩
  · rw [moveUp_eq h hn hb scroll, if_neg]
    rintro ⟨h1, h2⟩
    rcases hc with h3 | h3
    · rw [h3] at h1; exact absurd h1 (by simp)
    · omega
  · rw [ia_sizeX]; exact h.cur.cx
  · rw [ia_sizeY]; have := h.cur.cy; omega

/-! ### Selections -/

theorem selWalk_eq (y : Nat) : ∀ pos : List Line,
    selWalk y pos = (y - pos.length, pos.drop y) := by
  induction y with
  | zero => intro pos; simp [selWalk]
  | succ y ih =>
    intro pos
    cases pos with
    | nil => simp [selWalk]
    | cons l pos => simp only [selWalk, ih, List.length_cons, List.drop_succ_cons]; congr 1; omega

theorem sbFrom_sub (sb : List Line) (p : Option Nat) : ∀ l ∈ sbFrom sb p, l ∈ sb := by
  intro l hl
  unfold sbFrom at hl
  cases p with
  | none => exact absurd hl (by simp)
  | some id => exact (List.dropWhile_suffix _).mem hl

theorem selSet_mem (s : Screen) (x y : Nat) : ∀ p, (s.selSet x y).line = some p →
    ∃ l ∈ s.sb, l.sbId = p := by
  intro p hp
  unfold selSet at hp
  rw [selWalk_eq] at hp
  simp only [List.head?_drop] at hp
  cases hl : (sbFrom s.sb s.sbPos)[y]? with
  | none => rw [hl] at hp; exact absurd hp (by simp)
  | some l =>
    rw [hl] at hp
    exact ⟨l, sbFrom_sub _ _ l (getElem?_mem hl), by simpa using hp⟩

theorem Inv.selectionReset {s : Screen} (h : Inv s) : Inv s.selectionReset := by
  have h1 := h.incAge.touch
  refine ⟨{ h1.geo with }, { h1.sb with selS := ?_, selE := ?_ }, { h1.cur with }, h1.ageb⟩
  · intro hc; exact absurd hc (by simp [Screen.selectionReset])
  · intro hc; exact absurd hc (by simp [Screen.selectionReset])

theorem Inv.selectionStart {s : Screen} (h : Inv s) (x y : Nat) : Inv (s.selectionStart x y) := by
  have h1 := h.incAge.touch
  have e : ∀ p, (s.selSet x y).line = some p → ∃ l ∈ s.incAge.touch.sb, l.sbId = p := by
    have : s.incAge.touch.sb = s.sb := ia_sb s
    rw [this]
    exact selSet_mem s x y
  refine ⟨{ h1.geo with }, { h1.sb with selS := ?_, selE := ?_ }, { h1.cur with }, h1.ageb⟩
  · intro _; exact e
  · intro _; exact e

theorem Inv.selectionTarget {s : Screen} (h : Inv s) (x y : Nat) : Inv (s.selectionTarget x y) := by
  unfold Screen.selectionTarget
  split
  · have h1 := h.incAge.touch
    have e : ∀ p, (s.selSet x y).line = some p → ∃ l ∈ s.incAge.touch.sb, l.sbId = p := by
      have : s.incAge.touch.sb = s.sb := ia_sb s
      rw [this]
      exact selSet_mem s x y
    refine ⟨{ h1.geo with }, { h1.sb with selE := ?_ }, { h1.cur with }, h1.ageb⟩
    intro _; exact e
  · exact h

end Screen
end Verif
