import Verif.Proofs.Screen.Edit

/-!
# Cursor movement and tab stops
-/

namespace Verif
namespace Screen

theorem clampX {s : Screen} (h : Geo s) (x : Nat) :
    (if x ≥ s.sizeX then pred32 s.sizeX else x) = min x (s.sizeX - 1) := by
  have := h.predX
  have := h.x0
  split
  · rw [Nat.min_eq_right (by omega)]; omega
  · rw [Nat.min_eq_left (by omega)]

theorem clampTo (y last : Nat) : (if y > last then last else y) = min y last := by
  split
  · rw [Nat.min_eq_right (by omega)]
  · rw [Nat.min_eq_left (by omega)]

/-! ### Absolute movement -/

theorem moveTo_eq {s : Screen} (h : Inv s) (x y : Nat) :
    s.moveTo x y = .ok (s.incAge.moved (min x (s.sizeX - 1))
      (if s.fOrigin then min (u32 (s.marginTop + y)) s.marginBottom else min y (s.sizeY - 1))) := by
  have hg := h.incAge.geo
  have hpy := hg.predY
  unfold moveTo
  dsimp only
  rw [moveCursor_ok hg, clampX hg, clampTo]
  unfold toAbsY
  have e : s.incAge.fOrigin = s.fOrigin := by unfold fOrigin; rw [ia_flags]
  rw [e, hpy]
  simp only [ia_sizeX, ia_sizeY, ia_marginTop, ia_marginBottom]
  by_cases ho : s.fOrigin
  · simp only [ho, if_true]
  · simp only [ho]; rfl

theorem moveTo_inv {s : Screen} (h : Inv s) (x y : Nat) :
    Inv (s.incAge.moved (min x (s.sizeX - 1))
      (if s.fOrigin then min (u32 (s.marginTop + y)) s.marginBottom else min y (s.sizeY - 1))) := by
  have := h.geo.x0; have := h.geo.y0; have := h.geo.mby
  apply h.incAge.moved
  · rw [ia_sizeX]; omega
  · rw [ia_sizeY]; split <;> omega

/-! ### Horizontal movement -/

theorem moveLeft_eq {s : Screen} (h : Inv s) {num : Nat} (hn : 0 < num) :
    s.moveLeft num = .ok (s.incAge.moved (min s.cursorX (s.sizeX - 1) - num) s.cursorY) := by
  have hg := h.incAge.geo
  have := h.geo.x0
  unfold moveLeft
  rw [if_neg (by omega)]
  dsimp only
  rw [clampX hg]
  simp only [ia_sizeX, ia_cursorX, ia_cursorY]
  rw [moveCursor_ok hg, moveCursor_ok hg]
  rw [clampTo]
  by_cases hc : min num s.sizeX > min s.cursorX (s.sizeX - 1)
  · rw [if_pos hc, show min s.cursorX (s.sizeX - 1) - num = 0 by omega]
  · rw [if_neg hc, show min s.cursorX (s.sizeX - 1) - min num s.sizeX =
      min s.cursorX (s.sizeX - 1) - num by omega]

theorem moveRight_eq {s : Screen} (h : Inv s) {num : Nat} (hn : 0 < num) :
    s.moveRight num = .ok (s.incAge.moved (min (s.cursorX + num) (s.sizeX - 1)) s.cursorY) := by
  have hg := h.incAge.geo
  have hpx := hg.predX
  have := h.geo.x0
  have := h.geo.xb
  have := h.cur.cx
  unfold moveRight
  rw [if_neg (by omega)]
  dsimp only
  simp only [ia_sizeX, ia_cursorX, ia_cursorY] at *
  rw [moveCursor_ok hg, moveCursor_ok hg, clampTo]
  have e1 : u32 (min num s.sizeX + s.cursorX) = min num s.sizeX + s.cursorX := by unfold u32; omega
  have e2 : u32 (s.cursorX + min num s.sizeX) = min num s.sizeX + s.cursorX := by unfold u32; omega
  rw [e1, e2, hpx]
  by_cases hc : min num s.sizeX + s.cursorX ≥ s.sizeX
  · rw [if_pos hc, show min (s.cursorX + num) (s.sizeX - 1) = s.sizeX - 1 by omega]
  · rw [if_neg hc, show min (s.cursorX + num) (s.sizeX - 1) = min num s.sizeX + s.cursorX by omega]

theorem moveLineEnd_eq {s : Screen} (h : Inv s) :
    s.moveLineEnd = .ok (s.incAge.moved (s.sizeX - 1) s.cursorY) := by
  unfold moveLineEnd
  dsimp only
  rw [moveCursor_ok h.incAge.geo, h.incAge.geo.predX]
  simp

theorem moveLineHome_eq {s : Screen} (h : Inv s) :
    s.moveLineHome = .ok (s.incAge.moved 0 s.cursorY) := by
  unfold moveLineHome
  dsimp only
  rw [moveCursor_ok h.incAge.geo]
  simp

/-! ### Vertical movement -/

/-- The row where `move_up` stops. -/
@[reducible] def topStop (s : Screen) : Nat := if s.marginTop ≤ s.cursorY then s.marginTop else 0

/-- The row where `move_down` stops. -/
@[reducible] def botStop (s : Screen) : Nat :=
  if s.cursorY ≤ s.marginBottom then s.marginBottom else s.sizeY - 1

theorem topStop_le (s : Screen) : s.topStop ≤ s.cursorY := by unfold topStop; split <;> omega

theorem Inv.botStop {s : Screen} (h : Inv s) : s.cursorY ≤ s.botStop ∧ s.botStop < s.sizeY := by
  have := h.geo.mby; have := h.geo.y0; have := h.cur.cy
  unfold Screen.botStop; split <;> omega

theorem moveUp_eq {s : Screen} (h : Inv s) {num : Nat} (hn : 0 < num) (hb : num < 4294967296)
    (scroll : Bool) :
    s.moveUp num scroll =
      if scroll = true ∧ s.cursorY - s.topStop < num then do
        let t ← s.incAge.scrollDownI (num - (s.cursorY - s.topStop))
        t.moveCursor t.cursorX s.topStop
      else .ok (s.incAge.moved s.cursorX (max (s.cursorY - num) s.topStop)) := by
  have hg := h.incAge.geo
  have ht := topStop_le s
  have := h.cur.cy
  have := h.geo.yb
  unfold moveUp
  rw [if_neg (by omega)]
  dsimp only
  simp only [ia_cursorX, ia_cursorY, ia_marginTop]
  have e0 : (if s.cursorY ≥ s.marginTop then s.marginTop else 0) = s.topStop := rfl
  rw [e0]
  have e1 : sub32 s.cursorY s.topStop = s.cursorY - s.topStop := by unfold sub32; omega
  rw [e1]
  by_cases hc : num > s.cursorY - s.topStop
  · rw [if_pos hc]
    cases scroll with
    | true =>
      rw [if_pos rfl, if_pos ⟨rfl, by omega⟩]
    | false =>
      rw [if_neg (show ¬ ((false : Bool) = true) by simp), if_neg (by simp)]
      show s.incAge.moveCursor s.incAge.cursorX s.topStop = _
      rw [moveCursor_ok hg, ia_cursorX, show max (s.cursorY - num) s.topStop = s.topStop by omega]
  · rw [if_neg hc, if_neg (by omega), moveCursor_ok hg]
    rw [show max (s.cursorY - num) s.topStop = s.cursorY - num by omega,
      show sub32 s.cursorY num = s.cursorY - num by unfold sub32; omega]

theorem moveDown_eq {s : Screen} (h : Inv s) {num : Nat} (hn : 0 < num) (scroll : Bool) :
    s.moveDown num scroll =
      if scroll = true ∧ s.botStop - s.cursorY < num then do
        let t ← s.incAge.scrollUpI (num - (s.botStop - s.cursorY))
        t.moveCursor t.cursorX s.botStop
      else .ok (s.incAge.moved s.cursorX (min (s.cursorY + num) s.botStop)) := by
  have hg := h.incAge.geo
  have hb := h.botStop
  have := h.cur.cy
  have := h.geo.yb
  have := h.geo.mby
  have := h.geo.y0
  unfold moveDown
  rw [if_neg (by omega)]
  dsimp only
  simp only [ia_cursorX, ia_cursorY, ia_marginBottom, ia_sizeY]
  have e0 : (if s.cursorY ≤ s.marginBottom then u32 (s.marginBottom + 1) else s.sizeY) =
      s.botStop + 1 := by unfold Screen.botStop u32; split <;> omega
  rw [e0]
  have e1 : pred32 (sub32 (s.botStop + 1) s.cursorY) = s.botStop - s.cursorY := by
    unfold sub32 pred32; omega
  have e2 : pred32 (s.botStop + 1) = s.botStop := by unfold pred32; omega
  rw [e1, e2]
  by_cases hc : num > s.botStop - s.cursorY
  · rw [if_pos hc]
    cases scroll with
    | true =>
      rw [if_pos rfl, if_pos ⟨rfl, by omega⟩]
    | false =>
      rw [if_neg (show ¬ ((false : Bool) = true) by simp), if_neg (by simp)]
      show s.incAge.moveCursor s.incAge.cursorX s.botStop = _
      rw [moveCursor_ok hg, ia_cursorX, show min (s.cursorY + num) s.botStop = s.botStop by omega]
  · rw [if_neg hc, if_neg (by omega), moveCursor_ok hg]
    rw [show min (s.cursorY + num) s.botStop = s.cursorY + num by omega,
      show u32 (s.cursorY + num) = s.cursorY + num by unfold u32; omega]

/-! ### Views after scrolling -/

theorem ScrolledUp.view {s s' : Screen} {num : Nat} {kept : List Line} (h : ScrolledUp s s' num kept)
    (hg : Geo s) :
    s'.view = { s.view.setGrid (s.view.rowsUp s.marginTop s.marginBottom num) with
      sb := s'.view.sb, sbPos := s'.sbPos, sbPosNum := s'.sbPosNum, sbLastId := s'.sbLastId
      selStart := s'.selStart, selEnd := s'.selEnd } := by
  have hf := h.frame
  have hsu : ShiftUp s s.lines s'.lines s.marginTop s.marginBottom num :=
    ⟨h.linesOk, h.outside, h.shift, h.blank⟩
  have hv := hsu.view (t := s) hg.mby rfl
  rw [← hv]
  unfold UpFrame at hf
  unfold Screen.withLines Screen.view Screen.lines
  cases hu : s.useAlt with
  | true =>
    have hm := h.otherM hu
    rw [hf, hm, hu]
    rfl
  | false =>
    have hm := h.otherA hu
    rw [hf, hm, hu]
    rfl

theorem ScrolledDown.view {s s' : Screen} {num : Nat} (h : ScrolledDown s s' num) (hg : Geo s) :
    s'.view = { s.view.setGrid (s.view.rowsDown s.marginTop s.marginBottom num) with
      selStart := s'.selStart, selEnd := s'.selEnd } := by
  have hf := h.frame
  have hv := h.lines.view (t := s) hg.mby rfl
  rw [← hv]
  unfold DownFrame at hf
  unfold Screen.withLines Screen.view Screen.lines
  cases hu : s.useAlt with
  | true =>
    have hm := h.otherM hu
    rw [hf, hm, hu]
    rfl
  | false =>
    have hm := h.otherA hu
    rw [hf, hm, hu]
    rfl

theorem ScrolledUp.inv {s s' : Screen} {num : Nat} {kept : List Line} (h : ScrolledUp s s' num kept)
    (hi : Inv s) : Inv s' := by
  refine ⟨h.geo hi.geo, h.push.ok, ⟨?_, ?_⟩, ?_⟩
  · rw [h.frame.cursorX, h.frame.sizeX]; exact hi.cur.cx
  · rw [h.frame.cursorY, h.frame.sizeY]; exact hi.cur.cy
  · rw [h.frame.ageCnt]; exact hi.ageb

theorem ScrolledDown.inv {s s' : Screen} {num : Nat} (h : ScrolledDown s s' num)
    (hi : Inv s) : Inv s' := by
  refine ⟨h.geo hi.geo, h.sbOk hi.sb, ⟨?_, ?_⟩, ?_⟩
  · rw [h.frame.cursorX, h.frame.sizeX]; exact hi.cur.cx
  · rw [h.frame.cursorY, h.frame.sizeY]; exact hi.cur.cy
  · rw [h.frame.ageCnt]; exact hi.ageb

/-! ### Tab stops -/

theorem scanRight_spec {tab : List Bool} {w : Nat} (hw : w ≤ tab.length) (n : Nat) :
    ∀ j, w ≤ j + n → ∃ r, scanRight tab w n j = .ok r ∧
      ((r < w ∧ j ≤ r ∧ tab[r]? = some true ∧ ∀ k, j ≤ k → k < r → tab[k]? = some false) ∨
       (w ≤ r ∧ r = max j w ∧ ∀ k, j ≤ k → k < w → tab[k]? = some false)) := by
  induction n with
  | zero =>
    intro j hj
    exact ⟨j, rfl, Or.inr ⟨by omega, by omega, by intro k h1 h2; omega⟩⟩
  | succ n ih =>
    intro j hj
    unfold scanRight
    by_cases hlt : j < w
    · rw [if_pos hlt, List.getElem?_eq_getElem (show j < tab.length by omega)]
      cases hb : tab[j] with
      | true =>
        refine ⟨j, rfl, Or.inl ⟨hlt, Nat.le_refl _, ?_, by intro k h1 h2; omega⟩⟩
        rw [List.getElem?_eq_getElem (show j < tab.length by omega), hb]
      | false =>
        have hj0 : tab[j]? = some false := by
          rw [List.getElem?_eq_getElem (show j < tab.length by omega), hb]
        obtain ⟨r, e, hr⟩ := ih (j + 1) (by omega)
        refine ⟨r, e, ?_⟩
        rcases hr with ⟨h1, h2, h3, h4⟩ | ⟨h1, h2, h3⟩
        · refine Or.inl ⟨h1, by omega, h3, ?_⟩
          intro k a b
          by_cases hk : k = j
          · rw [hk]; exact hj0
          · exact h4 k (by omega) b
        · refine Or.inr ⟨h1, by omega, ?_⟩
          intro k a b
          by_cases hk : k = j
          · rw [hk]; exact hj0
          · exact h3 k (by omega) b
    · rw [if_neg hlt]
      exact ⟨j, rfl, Or.inr ⟨by omega, by omega, by intro k h1 h2; omega⟩⟩

/-- Tab stops right of column `x`, from left to right. -/
def stopsR (tab : Nat → Option Bool) (w x : Nat) : List Nat :=
  (List.range w).filter (fun i => decide (x < i) && (tab i == some true))

theorem filter_range_cons {P : Nat → Bool} {w r : Nat} (hr : r < w) (hP : P r = true)
    (hlt : ∀ k, k < r → P k = false) :
    (List.range w).filter P = r :: (List.range w).filter (fun i => decide (r < i) && P i) := by
  have hsplit : List.range w = List.range r ++ r :: (List.range' (r + 1) (w - r - 1)) := by
    have h1 : List.range w = List.range' 0 w := List.range_eq_range'
    have h2 : List.range r = List.range' 0 r := List.range_eq_range'
    rw [h1, h2, show w = r + (1 + (w - r - 1)) by omega, ← List.range'_append]
    congr 1
    rw [Nat.one_mul, Nat.zero_add, Nat.add_comm 1, List.range'_succ]
    congr 2
    omega
  rw [hsplit, List.filter_append, List.filter_append]
  have e1 : (List.range r).filter P = [] := by
    rw [List.filter_eq_nil_iff]
    intro a ha
    rw [hlt a (List.mem_range.mp ha)]; simp
  have e2 : (List.range r).filter (fun i => decide (r < i) && P i) = [] := by
    rw [List.filter_eq_nil_iff]
    intro a ha
    have := List.mem_range.mp ha
    simp; intro h; omega
  rw [e1, e2, List.filter_cons_of_pos hP, List.filter_cons_of_neg (by simp)]
  simp only [List.nil_append]
  congr 1
  apply List.filter_congr
  intro i hi
  have := List.mem_range'_1.mp hi
  simp; intro _; omega

theorem stopsR_cons {tab : Nat → Option Bool} {w x r : Nat} (hx : x < r) (hr : r < w)
    (ht : tab r = some true) (hlt : ∀ k, x < k → k < r → tab k = some false) :
    stopsR tab w x = r :: stopsR tab w r := by
  unfold stopsR
  rw [filter_range_cons hr (by simp [hx, ht])]
  · congr 1
    apply List.filter_congr
    intro i _
    by_cases h1 : r < i
    · simp [h1, show x < i by omega]
    · simp [h1]
  · intro k hk
    by_cases h1 : x < k
    · rw [hlt k h1 hk]; simp
    · simp [h1]

theorem stopsR_nil {tab : Nat → Option Bool} {w x : Nat}
    (hlt : ∀ k, x < k → k < w → tab k = some false) : stopsR tab w x = [] := by
  unfold stopsR
  rw [List.filter_eq_nil_iff]
  intro k hk
  have := List.mem_range.mp hk
  by_cases h1 : x < k
  · rw [hlt k h1 this]; simp
  · simp [h1]

/-- The loop of `tsm_screen_tab_right`. -/
theorem tabRightLoop_spec {tab : List Bool} {w : Nat} (hw : w ≤ tab.length) (h0 : 0 < w)
    (hwb : w < 1073741824) (n : Nat) : ∀ x, x ≤ w + 1 →
    ∃ r, tabRightLoop tab w (n + 1) x = .ok r ∧ 
      (if r ≥ w then w - 1 else r) =
        ((stopsR (fun i => tab[i]?) w x)[n]?).getD (w - 1) := by
  induction n with
  | zero =>
    intro x hx
    have hu : u32 (x + 1) = x + 1 := by unfold u32; omega
    obtain ⟨r, e, hr⟩ := scanRight_spec hw w (x + 1) (by omega)
    refine ⟨r, ?_, ?_⟩
    · unfold tabRightLoop
      rw [hu, e]
      show (if u32 (r + 1) ≥ w then pure r else tabRightLoop tab w 0 r : R Nat) = _
      split <;> rfl
    · rcases hr with ⟨h1, h2, h3, h4⟩ | ⟨h1, h2, h3⟩
      · rw [stopsR_cons (by omega) h1 h3 (fun k a b => h4 k (by omega) b)]
        simp; intro h; omega
      · rw [stopsR_nil (fun k a b => h3 k (by omega) b)]
        simp; intro h; omega
  | succ n ih =>
    intro x hx
    have hu : u32 (x + 1) = x + 1 := by unfold u32; omega
    obtain ⟨r, e, hr⟩ := scanRight_spec hw w (x + 1) (by omega)
    rcases hr with ⟨h1, h2, h3, h4⟩ | ⟨h1, h2, h3⟩
    · rw [stopsR_cons (by omega) h1 h3 (fun k a b => h4 k (by omega) b)]
      obtain ⟨r2, e2, hr2⟩ := ih r (by omega)
      have hur : u32 (r + 1) = r + 1 := by unfold u32; omega
      unfold tabRightLoop
      rw [hu, e]
      show ∃ r', (if u32 (r + 1) ≥ w then pure r else tabRightLoop tab w (n + 1) r : R Nat) = .ok r' ∧ _
      by_cases hl : u32 (r + 1) ≥ w
      · rw [if_pos hl]
        refine ⟨r, rfl, ?_⟩
        rw [stopsR_nil (x := r) (by intro k a b; omega)]
        simp; omega
      · rw [if_neg hl]
        exact ⟨r2, e2, by rw [hr2]; simp⟩
    · have hur : u32 (r + 1) ≥ w := by unfold u32; omega
      unfold tabRightLoop
      rw [hu, e]
      show ∃ r', (if u32 (r + 1) ≥ w then pure r else tabRightLoop tab w (n + 1) r : R Nat) = .ok r' ∧ _
      rw [if_pos hur]
      refine ⟨r, rfl, ?_⟩
      rw [stopsR_nil (fun k a b => h3 k (by omega) b)]
      simp; intro h; omega

theorem stopsR_lt {tab : Nat → Option Bool} {w x k p : Nat} (h : (stopsR tab w x)[k]? = some p) :
    p < w := by
  have := List.mem_of_getElem? h
  exact List.mem_range.mp (List.mem_filter.mp this).1

theorem tabs_eq {s : Screen} : stopsR s.view.tabs s.sizeX = stopsR (fun i => s.tabRuler[i]?) s.sizeX := by
  funext x
  unfold stopsR
  apply List.filter_congr
  intro i hi
  have := List.mem_range.mp hi
  have e : s.view.tabs i = s.tabRuler[i]? := if_pos this
  rw [e]

theorem tabRight_eq {s : Screen} (h : Inv s) {num : Nat} (hn : 0 < num) :
    s.tabRight num = .ok (s.incAge.moved
      (((stopsR s.view.tabs s.sizeX s.cursorX)[num - 1]?).getD (s.sizeX - 1)) s.cursorY) := by
  have hg := h.incAge.geo
  obtain ⟨n, rfl⟩ : ∃ n, num = n + 1 := ⟨num - 1, by omega⟩
  obtain ⟨r, e, hr⟩ := tabRightLoop_spec h.geo.tab h.geo.x0 h.geo.xb n s.cursorX h.cur.cx
  unfold tabRight
  rw [if_neg (by omega)]
  simp only [ia_sizeX, ia_tabRuler, ia_cursorX, ia_cursorY]
  rw [e]
  show s.incAge.moveCursor (if r ≥ s.sizeX then pred32 s.sizeX else r) s.cursorY = _
  rw [moveCursor_ok hg, h.geo.predX, hr, tabs_eq]
  rfl

/-! ### Backward tabs -/

theorem scanLeft_spec {tab : List Bool} (j : Nat) : j < tab.length ∨ j = 0 →
    ∃ r, scanLeft tab j = .ok r ∧ r ≤ j ∧
      ((0 < r ∧ tab[r]? = some true ∧ ∀ k, r < k → k ≤ j → tab[k]? = some false) ∨
       (r = 0 ∧ ∀ k, 0 < k → k ≤ j → tab[k]? = some false)) := by
  induction j with
  | zero => intro _; exact ⟨0, rfl, Nat.le_refl _, Or.inr ⟨rfl, by intro k h1 h2; omega⟩⟩
  | succ j ih =>
    intro hj
    have hlt : j + 1 < tab.length := by omega
    unfold scanLeft
    rw [List.getElem?_eq_getElem hlt]
    cases hb : tab[j + 1] with
    | true =>
      refine ⟨j + 1, rfl, Nat.le_refl _, Or.inl ⟨by omega, ?_, by intro k h1 h2; omega⟩⟩
      rw [List.getElem?_eq_getElem hlt, hb]
    | false =>
      have hj0 : tab[j + 1]? = some false := by rw [List.getElem?_eq_getElem hlt, hb]
      obtain ⟨r, e, hle, hr⟩ := ih (by omega)
      refine ⟨r, e, by omega, ?_⟩
      rcases hr with ⟨h1, h2, h3⟩ | ⟨h1, h3⟩
      · refine Or.inl ⟨h1, h2, ?_⟩
        intro k a b
        by_cases hk : k = j + 1
        · rw [hk]; exact hj0
        · exact h3 k a (by omega)
      · refine Or.inr ⟨h1, ?_⟩
        intro k a b
        by_cases hk : k = j + 1
        · rw [hk]; exact hj0
        · exact h3 k a (by omega)

/-- Tab stops left of column `x`, from right to left. -/
def stopsL (tab : Nat → Option Bool) (w x : Nat) : List Nat :=
  ((List.range w).filter (fun i => decide (i < x) && (tab i == some true))).reverse

theorem filter_range_snoc {P : Nat → Bool} {w r : Nat} (hr : r < w) (hP : P r = true)
    (hlt : ∀ k, r < k → P k = false) :
    (List.range w).filter P = (List.range w).filter (fun i => decide (i < r) && P i) ++ [r] := by
  have hsplit : List.range w = List.range r ++ r :: (List.range' (r + 1) (w - r - 1)) := by
    have h1 : List.range w = List.range' 0 w := List.range_eq_range'
    have h2 : List.range r = List.range' 0 r := List.range_eq_range'
    rw [h1, h2, show w = r + (1 + (w - r - 1)) by omega, ← List.range'_append]
    congr 1
    rw [Nat.one_mul, Nat.zero_add, Nat.add_comm 1, List.range'_succ]
    congr 2
    omega
  rw [hsplit, List.filter_append, List.filter_append]
  have e1 : (List.range' (r + 1) (w - r - 1)).filter P = [] := by
    rw [List.filter_eq_nil_iff]
    intro a ha
    have := List.mem_range'_1.mp ha
    rw [hlt a (by omega)]; simp
  have e2 : (List.range' (r + 1) (w - r - 1)).filter (fun i => decide (i < r) && P i) = [] := by
    rw [List.filter_eq_nil_iff]
    intro a ha
    have := List.mem_range'_1.mp ha
    simp; intro h; omega
  rw [List.filter_cons_of_pos hP, List.filter_cons_of_neg (by simp), e1, e2, List.append_nil]
  congr 1
  apply List.filter_congr
  intro i hi
  have := List.mem_range.mp hi
  simp; intro _; omega

theorem stopsL_cons {tab : Nat → Option Bool} {w x r : Nat} (hx : r < x) (hr : r < w)
    (ht : tab r = some true) (hlt : ∀ k, r < k → k < x → k < w → tab k = some false) :
    stopsL tab w x = r :: stopsL tab w r := by
  unfold stopsL
  have : (List.range w).filter (fun i => decide (i < x) && (tab i == some true)) =
      (List.range w).filter (fun i => decide (i < r) && (tab i == some true)) ++ [r] := by
    have h0 : (List.range w).filter (fun i => decide (i < x) && (tab i == some true)) =
        (List.range w).filter (fun i => decide (i < w) && (decide (i < x) && (tab i == some true))) := by
      apply List.filter_congr
      intro i hi
      have := List.mem_range.mp hi
      simp [this]
    rw [h0, filter_range_snoc hr (by simp [hx, ht, hr])]
    · congr 1
      apply List.filter_congr
      intro i hi
      have := List.mem_range.mp hi
      by_cases h1 : i < r
      · simp [h1, show i < x by omega, this]
      · simp [h1]
    · intro k hk
      by_cases hw : k < w
      · by_cases h1 : k < x
        · rw [hlt k hk h1 hw]; simp
        · simp [h1]
      · simp [hw]
  rw [this]
  simp

/-- `getD 0` does not notice a stop in column 0. -/
theorem stopsL_zero {tab : Nat → Option Bool} {w x : Nat}
    (hlt : ∀ k, 0 < k → k < x → k < w → tab k = some false) (n : Nat) :
    ((stopsL tab w x)[n]?).getD 0 = 0 := by
  cases h : (stopsL tab w x)[n]? with
  | none => rfl
  | some p =>
    have := List.mem_of_getElem? h
    unfold stopsL at this
    have := List.mem_filter.mp (List.mem_reverse.mp this)
    have hp := List.mem_range.mp this.1
    have h2 := this.2
    simp only [Bool.and_eq_true, decide_eq_true_eq, beq_iff_eq] at h2
    by_cases hp0 : p = 0
    · simp [hp0]
    · rw [hlt p (by omega) h2.1 hp] at h2
      simp at h2

theorem tabLeftLoop_spec {tab : List Bool} {w : Nat} (hw : w ≤ tab.length) (n : Nat) :
    ∀ x, x ≤ w →
    tabLeftLoop tab (n + 1) x = .ok (((stopsL (fun i => tab[i]?) w x)[n]?).getD 0) := by
  induction n with
  | zero =>
    intro x hx
    obtain ⟨r, e, hle, hr⟩ := scanLeft_spec (tab := tab) (x - 1) (by omega)
    unfold tabLeftLoop
    rw [e]
    show (if r = 0 then pure 0 else tabLeftLoop tab 0 r : R Nat) = _
    rcases hr with ⟨h1, h2, h3⟩ | ⟨h1, h3⟩
    · rw [stopsL_cons (show r < x by omega) (by omega) h2 (fun k a b _ => h3 k a (by omega)),
        if_neg (by omega)]
      rfl
    · rw [stopsL_zero (fun k a b _ => h3 k a (by omega)), if_pos h1]; rfl
  | succ n ih =>
    intro x hx
    obtain ⟨r, e, hle, hr⟩ := scanLeft_spec (tab := tab) (x - 1) (by omega)
    unfold tabLeftLoop
    rw [e]
    show (if r = 0 then pure 0 else tabLeftLoop tab (n + 1) r : R Nat) = _
    rcases hr with ⟨h1, h2, h3⟩ | ⟨h1, h3⟩
    · rw [stopsL_cons (show r < x by omega) (by omega) h2 (fun k a b _ => h3 k a (by omega)),
        if_neg (by omega), ih r (by omega)]
      simp
    · rw [stopsL_zero (fun k a b _ => h3 k a (by omega)), if_pos h1]; rfl

theorem tabsL_eq {s : Screen} : stopsL s.view.tabs s.sizeX = stopsL (fun i => s.tabRuler[i]?) s.sizeX := by
  funext x
  unfold stopsL
  congr 1
  apply List.filter_congr
  intro i hi
  have := List.mem_range.mp hi
  have e : s.view.tabs i = s.tabRuler[i]? := if_pos this
  rw [e]

theorem tabLeft_eq {s : Screen} (h : Inv s) {num : Nat} (hn : 0 < num) (hx : s.cursorX ≤ s.sizeX) :
    s.tabLeft num = .ok (s.incAge.moved
      (((stopsL s.view.tabs s.sizeX s.cursorX)[num - 1]?).getD 0) s.cursorY) := by
  have hg := h.incAge.geo
  obtain ⟨n, rfl⟩ : ∃ n, num = n + 1 := ⟨num - 1, by omega⟩
  unfold tabLeft
  rw [if_neg (by omega)]
  simp only [ia_tabRuler, ia_cursorX, ia_cursorY]
  rw [tabLeftLoop_spec h.geo.tab n s.cursorX hx]
  show s.incAge.moveCursor _ s.cursorY = _
  rw [moveCursor_ok hg, tabsL_eq]
  rfl

/-- Whatever the cursor: `tab_left` either works and does not move right, or
reads beyond the tab ruler; the latter only with a pending wrap after a wide
character in the last column. -/
theorem tabLeftLoop_le {tab : List Bool} (n : Nat) : ∀ x, x ≤ tab.length ∨ x ≤ 1 →
    ∃ r, tabLeftLoop tab n x = .ok r ∧ r ≤ x := by
  induction n with
  | zero => intro x _; exact ⟨x, rfl, Nat.le_refl _⟩
  | succ n ih =>
    intro x hx
    obtain ⟨r, e, hle, hr⟩ := scanLeft_spec (tab := tab) (x - 1) (by omega)
    unfold tabLeftLoop
    rw [e]
    show ∃ r', (if r = 0 then pure 0 else tabLeftLoop tab n r : R Nat) = .ok r' ∧ _
    by_cases h0 : r = 0
    · rw [if_pos h0]; exact ⟨0, rfl, by omega⟩
    · rw [if_neg h0]
      obtain ⟨r', e', h'⟩ := ih r (by omega)
      exact ⟨r', e', by omega⟩

end Screen
end Verif
