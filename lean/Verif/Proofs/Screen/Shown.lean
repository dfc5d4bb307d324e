import Verif.Proofs.Screen.Render
import Verif.Proofs.Screen.Frame
import Verif.Spec.Render

/-!
# Drawings in terms of the view
-/

namespace Verif
namespace Screen

theorem dropWhile_id : ∀ (l : List Line) (k : Nat) (hk : k < l.length),
    (l.map Line.sbId).Nodup → l.dropWhile (fun a => decide (a.sbId ≠ l[k].sbId)) = l.drop k := by
  intro l
  induction l with
  | nil => intro k hk; exact absurd hk (by simp)
  | cons a l ih =>
    intro k hk hn
    rw [List.map_cons, List.nodup_cons] at hn
    cases k with
    | zero => simp
    | succ k =>
      have hk' : k < l.length := by simpa using hk
      have hne : a.sbId ≠ l[k].sbId := by
        intro he
        exact hn.1 (by rw [he]; exact List.mem_map_of_mem (List.getElem_mem hk'))
      simp only [List.getElem_cons_succ, List.drop_succ_cons]
      rw [List.dropWhile_cons_of_pos (by simpa using hne)]
      exact ih k hk' hn.2

theorem topIndex_le {s : Screen} (h : SbOk s) : s.view.topIndex ≤ s.sb.length := by
  obtain ⟨k, hk⟩ := h.atPos
  rw [hk.topIndex h]
  exact hk.1

theorem sbFrom_eq {s : Screen} (h : SbOk s) : sbFrom s.sb s.sbPos = s.sb.drop s.view.topIndex := by
  obtain ⟨k, hk⟩ := h.atPos
  rw [hk.topIndex h]
  rcases Nat.lt_or_ge k s.sb.length with hlt | hge
  · rw [hk.2, List.getElem?_eq_getElem hlt]
    exact dropWhile_id s.sb k hlt (ids_nodup h.ids)
  · rw [hk.2, List.getElem?_eq_none hge, List.drop_eq_nil_of_le hge]
    rfl

theorem sbRows_eq {s : Screen} (h : SbOk s) : s.sbRows = s.sb.length - s.view.topIndex := by
  unfold sbRows
  rw [sbFrom_eq h, List.length_drop]

theorem view_sb_length (s : Screen) : s.view.sb.length = s.sb.length := by
  show (s.sb.map Line.row).length = _
  rw [List.length_map]

theorem shown_eq {s : Screen} (h : Inv s) {i j : Nat} (hi : i < s.sizeY) (hj : j < s.sizeX) :
    (((((s.shownRow i).getD default).cells[j]?).getD s.blank)).glyph = s.view.shown i j := by
  have hle := topIndex_le h.sb
  have hrows := sbRows_eq h.sb
  unfold View.shown
  rw [view_sb_length]
  by_cases hlt : s.view.topIndex + i < s.sb.length
  · rw [if_pos hlt]
    have hsr : s.shownRow i = s.sb[s.view.topIndex + i]? := by
      unfold shownRow
      rw [List.getElem?_append_left (by show i < s.sbRows; omega), sbFrom_eq h.sb, List.getElem?_drop]
    rw [hsr, List.getElem?_eq_getElem hlt]
    show _ = (((s.sb.map Line.row)[s.view.topIndex + i]?).bind (·.2[j]?)).getD s.view.blank
    rw [List.getElem?_map, List.getElem?_eq_getElem hlt]
    simp only [Option.getD_some, Option.map_some, Option.bind_some, List.getElem?_map]
    cases (s.sb[s.view.topIndex + i].cells[j]?) <;> rfl
  · rw [if_neg hlt]
    have hi' : s.view.topIndex + i - s.sb.length < s.sizeY := by omega
    have hr : s.sizeY ≤ s.lines.length := by rw [h.geo.linesOk.len]; exact h.geo.rows
    have hsr : s.shownRow i = s.lines[s.view.topIndex + i - s.sb.length]? := by
      unfold shownRow
      rw [List.getElem?_append_right (by show s.sbRows ≤ i; omega)]
      congr 1
      show i - s.sbRows = _
      omega
    rw [hsr, grid_apply, if_pos ⟨hi', hj⟩]
    simp only [cellAt, Option.getD_some, List.getElem?_eq_getElem (show s.view.topIndex + i - s.sb.length < s.lines.length by omega), Option.bind_some]
    cases (s.lines[s.view.topIndex + i - s.sb.length].cells[j]?) <;> rfl

theorem cursor_eq {s : Screen} (h : Inv s) {i j : Nat} :
    (s.rowK i = s.drawCurY + 1 ∧ j = s.drawCurX ∧ s.fHide = false) ↔ s.view.cursorAt i j = true := by
  have hle := topIndex_le h.sb
  have hrows := sbRows_eq h.sb
  have hcy := h.cur.cy
  have hpx := h.geo.predX
  have hx0 := h.geo.x0
  have e1 : s.drawCurY = s.cursorY := by unfold drawCurY; rw [if_neg (by omega)]
  have e2 : s.drawCurX = min s.cursorX (s.sizeX - 1) := by
    unfold drawCurX
    rw [hpx]
    split <;> omega
  have e3 : s.rowK i = s.cursorY + 1 ↔ s.view.topIndex + i = s.sb.length + s.cursorY := by
    unfold rowK
    split <;> omega
  have e4 : s.fHide = s.view.flags.getLsbD 4 := rfl
  unfold View.cursorAt
  rw [e1, e3, e2, e4, view_sb_length]
  cases s.view.flags.getLsbD 4
  · simp only [and_true, Bool.not_false, Bool.true_and, decide_eq_true_iff]
    exact Iff.rfl
  · simp

theorem idx_lt_iff {s : Screen} (h : SbOk s) {a b : Nat} (ha : a ∈ s.sb.map Line.sbId)
    (hb : b ∈ s.sb.map Line.sbId) :
    (s.sb.map Line.sbId).idxOf a < (s.sb.map Line.sbId).idxOf b ↔ a < b := by
  have hl1 := List.idxOf_lt_length_of_mem ha
  have hl2 := List.idxOf_lt_length_of_mem hb
  have g1 : (s.sb.map Line.sbId)[(s.sb.map Line.sbId).idxOf a] = a := List.getElem_idxOf hl1
  have g2 : (s.sb.map Line.sbId)[(s.sb.map Line.sbId).idxOf b] = b := List.getElem_idxOf hl2
  have hp := List.pairwise_iff_getElem.mp h.ids
  constructor
  · intro hlt
    have := hp _ _ hl1 hl2 hlt
    rw [g1, g2] at this
    exact this
  · intro hlt
    rcases Nat.lt_trichotomy ((s.sb.map Line.sbId).idxOf a) ((s.sb.map Line.sbId).idxOf b) with h1 | h1 | h1
    · exact h1
    · have : a = b := by rw [← g1, ← g2]; congr 1
      omega
    · have := hp _ _ hl2 hl1 h1
      rw [g1, g2] at this
      omega

theorem ids_view (s : Screen) : s.view.sb.map Prod.fst = s.sb.map Line.sbId := by
  show (s.sb.map Line.row).map Prod.fst = _
  rw [ids_row]

theorem hitRow_eq {s : Screen} (h : Inv s) (ha : s.selActive = true) {p : SelPos}
    (hp : s.view.Anchored p) (i : Nat) (hi : i < s.sizeY) :
    s.hitRow p i = decide (s.view.docRow p = s.view.topIndex + i) := by
  have hle := topIndex_le h.sb
  have hrows := sbRows_eq h.sb
  have hyb := h.geo.yb
  obtain ⟨hx, hp⟩ := hp
  unfold hitRow
  rw [ha, Bool.true_and]
  unfold selRow View.docRow
  cases hl : p.line with
  | some q =>
    rw [hl] at hp
    dsimp only at hp ⊢
    rw [ids_view] at hp ⊢
    have hlt := List.idxOf_lt_length_of_mem hp
    have hg : (s.sb.map Line.sbId)[(s.sb.map Line.sbId).idxOf q] = q := List.getElem_idxOf hlt
    have hr : s.rowId i = (s.sb.map Line.sbId)[s.view.topIndex + i]? := by
      unfold rowId
      rw [sbFrom_eq h.sb, List.getElem?_drop, List.getElem?_map]
    rw [hr]
    by_cases he : (s.sb.map Line.sbId).idxOf q = s.view.topIndex + i
    · rw [decide_eq_true he, ← he, List.getElem?_eq_getElem hlt, hg]
      exact decide_eq_true rfl
    · rw [decide_eq_false he]
      apply decide_eq_false
      intro hq
      rcases Nat.lt_or_ge (s.view.topIndex + i) (s.sb.map Line.sbId).length with h1 | h1
      · rw [List.getElem?_eq_getElem h1] at hq
        injection hq with hq
        have := (ids_nodup h.sb.ids).idxOf_getElem _ h1
        rw [hq] at this
        exact he this
      · rw [List.getElem?_eq_none h1] at hq
        cases hq
  | none =>
    rw [hl] at hp
    dsimp only at hp ⊢
    obtain ⟨h0, h1⟩ := hp
    change p.y < (s.sizeY : Int) at h1
    have hu : toU32 p.y = p.y.toNat := by unfold toU32; omega
    rw [hu, view_sb_length]
    congr 1
    apply propext
    unfold rowK pred32
    split <;> omega

theorem passed_eq {s : Screen} (h : Inv s) (ha : s.selActive = true) {p : SelPos}
    (hp : s.view.Anchored p) : ∀ i, i ≤ s.sizeY →
    s.passed p i = decide (s.view.docRow p < s.view.topIndex + i) := by
  have hle := topIndex_le h.sb
  intro i
  induction i with
  | zero =>
    intro _
    unfold passed
    rw [ha, Bool.true_and, Nat.add_zero]
    obtain ⟨hx, hp⟩ := hp
    unfold selAbove View.docRow
    cases hl : p.line with
    | none =>
      rw [hl] at hp
      dsimp only at hp ⊢
      rw [view_sb_length, decide_eq_false (by omega), decide_eq_false (by omega)]
    | some q =>
      rw [hl] at hp
      dsimp only at hp ⊢
      rw [ids_view] at hp ⊢
      have hlt := List.idxOf_lt_length_of_mem hp
      rw [List.length_map] at hlt
      cases hs : s.sbPos with
      | none =>
        have : s.view.topIndex = s.sb.length := by
          unfold View.topIndex
          rw [show s.view.sbPos = none from hs]
          exact view_sb_length s
        dsimp only
        rw [this, decide_eq_true hlt]
      | some t =>
        obtain ⟨l, hl', e⟩ := h.sb.pos t hs
        have ht : s.view.topIndex = (s.sb.map Line.sbId).idxOf t := by
          unfold View.topIndex
          rw [show s.view.sbPos = some t from hs]
          dsimp only
          rw [ids_view]
        dsimp only
        rw [ht]
        congr 1
        apply propext
        exact (idx_lt_iff h.sb hp (by rw [← e]; exact List.mem_map_of_mem hl')).symm
  | succ i ih =>
    intro hi
    rw [passed, ih (by omega), hitRow_eq h ha hp i (by omega),
      decide_eq_true (show p.x < s.sizeX from hp.1), Bool.and_true]
    rcases Nat.lt_trichotomy (s.view.docRow p) (s.view.topIndex + i) with h1 | h1 | h1
    · rw [decide_eq_true h1, decide_eq_false (by omega), decide_eq_true (by omega)]; rfl
    · rw [decide_eq_false (by omega), decide_eq_true h1, decide_eq_true (by omega)]; rfl
    · rw [decide_eq_false (by omega), decide_eq_false (by omega), decide_eq_false (by omega)]; rfl

theorem passed_inactive {s : Screen} (ha : s.selActive = false) (p : SelPos) :
    ∀ i, s.passed p i = false
  | 0 => by unfold passed; rw [ha]; rfl
  | i + 1 => by rw [passed, passed_inactive ha p i, hitRow_inactive ha]; rfl

theorem highlight_inactive {s : Screen} (ha : s.selActive = false) (i j : Nat) :
    s.highlight i j = false := by
  unfold highlight
  rw [hitRow_inactive ha, hitRow_inactive ha, passed_inactive ha, passed_inactive ha]
  rfl

theorem highlight_eq {s : Screen} (h : Inv s) (ha : s.selActive = true)
    (hs : s.view.Anchored s.selStart) (he : s.view.Anchored s.selEnd) {i j : Nat} (hi : i < s.sizeY) :
    s.highlight i j = decide (s.view.Selected i j) := by
  unfold highlight
  rw [hitRow_eq h ha hs i hi, hitRow_eq h ha he i hi, passed_eq h ha hs i (by omega),
    passed_eq h ha he i (by omega)]
  apply Bool.eq_iff_iff.mpr
  rw [decide_eq_true_iff]
  have hv : s.view.selActive = true := ha
  have hvs : s.view.selStart = s.selStart := rfl
  have hve : s.view.selEnd = s.selEnd := rfl
  unfold View.Selected View.NotAfter
  rw [hv, hvs, hve]
  generalize s.view.docRow s.selStart = a
  generalize s.view.docRow s.selEnd = b
  generalize s.view.topIndex + i = r
  generalize s.selStart.x = x
  generalize s.selEnd.x = y
  simp only [Bool.or_eq_true, Bool.and_eq_true, decide_eq_true_iff, true_and]
  rw [show ∀ b c : Bool, ((b ^^ c) = true) ↔ ¬ (b = true ↔ c = true) by decide]
  rw [show ∀ b c : Bool, ((b ^^ c) = true) ↔ ¬ (b = true ↔ c = true) by decide]
  rw [show ∀ b c : Bool, ((b ^^ c) = true) ↔ ¬ (b = true ↔ c = true) by decide]
  simp only [Bool.and_eq_true, decide_eq_true_iff]
  omega

end Screen
end Verif
