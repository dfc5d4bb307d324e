import Verif.Proofs.Screen.Admin

/-!
# Resizing
-/

namespace Verif
namespace Screen

/-- What `tsm_screen_resize` relies on; also true for the empty screen that
`tsm_screen_new` starts with. -/
structure Dim (s : Screen) : Prop where
  xb : s.sizeX < 1073741824
  yb : s.sizeY < 1073741824
  len : s.alt.length = s.main.length
  rows : s.sizeY ≤ s.main.length
  wm : ∀ l ∈ s.main, s.sizeX ≤ l.cells.length
  wa : ∀ l ∈ s.alt, s.sizeX ≤ l.cells.length
  tab : s.sizeX ≤ s.tabRuler.length
  alias : s.useAlt = s.fAlt
  pos : 0 < s.sizeX ↔ 0 < s.sizeY
  cx : s.cursorX ≤ s.sizeX + 1
  cx0 : s.sizeX = 0 → s.cursorX = 0
  cy : s.cursorY < s.sizeY ∨ s.cursorY = 0

theorem Inv.dim {s : Screen} (h : Inv s) : Dim s where
  xb := h.geo.xb
  yb := h.geo.yb
  len := h.geo.len
  rows := h.geo.rows
  wm := h.geo.wm
  wa := h.geo.wa
  tab := h.geo.tab
  alias := h.geo.alias
  pos := by have := h.geo.x0; have := h.geo.y0; omega
  cx := h.cur.cx
  cx0 := by intro e; have := h.geo.x0; omega
  cy := Or.inl h.cur.cy

theorem zero_dim (f : Nat → Bool) : Dim (zero f) := by
  constructor <;> simp [zero]

theorem zero_sbOk (f : Nat → Bool) : SbOk (zero f) := by
  constructor <;> simp [zero]

/-! ### Lines that only grow at the right end -/

/-- `ls'` has the same lines as `ls`, some of them longer. -/
def Ext (ls ls' : List Line) : Prop :=
  ls'.length = ls.length ∧ ∀ (i : Nat) (l : Line), ls[i]? = some l →
    ∃ l' e, ls'[i]? = some l' ∧ l'.cells = l.cells ++ e ∧ l'.age = l.age

theorem Ext.refl (ls : List Line) : Ext ls ls :=
  ⟨rfl, fun _ l h => ⟨l, [], h, by simp, rfl⟩⟩

theorem Ext.trans {a b c : List Line} (h : Ext a b) (h' : Ext b c) : Ext a c := by
  refine ⟨h'.1.trans h.1, ?_⟩
  intro i l e
  obtain ⟨l1, x1, e1, c1, a1⟩ := h.2 i l e
  obtain ⟨l2, x2, e2, c2, a2⟩ := h'.2 i l1 e1
  exact ⟨l2, x1 ++ x2, e2, by rw [c2, c1, List.append_assoc], by rw [a2, a1]⟩

theorem Ext.set {ls : List Line} {i : Nat} {l l' : Line} {e : List Cell} (hl : ls[i]? = some l)
    (hc : l'.cells = l.cells ++ e) (ha : l'.age = l.age) : Ext ls (ls.set i l') := by
  refine ⟨by simp, ?_⟩
  intro k m hm
  rw [List.getElem?_set]
  by_cases hk : i = k
  · have hlt : i < ls.length := by
      rcases Nat.lt_or_ge i ls.length with h | h
      · exact h
      · rw [List.getElem?_eq_none h] at hl; cases hl
    rw [if_pos hk, if_pos hlt]
    rw [← hk, hl] at hm
    cases hm
    exact ⟨l', e, rfl, hc, ha⟩
  · rw [if_neg hk]
    exact ⟨m, [], hm, by simp, rfl⟩

theorem Ext.width {ls ls' : List Line} (h : Ext ls ls') {w : Nat} (hw : ∀ l ∈ ls, w ≤ l.cells.length) :
    ∀ l ∈ ls', w ≤ l.cells.length := by
  apply mem_of_getElem?_fun
  intro i l e
  have hlt : i < ls.length := by
    rw [← h.1]
    rcases Nat.lt_or_ge i ls'.length with h' | h'
    · exact h'
    · rw [List.getElem?_eq_none h'] at e; cases e
  obtain ⟨l', x, e', c, _⟩ := h.2 i ls[i] (List.getElem?_eq_getElem hlt)
  rw [e] at e'
  cases e'
  have := hw _ (List.getElem_mem hlt)
  rw [c, List.length_append]
  omega

theorem Ext.cell {ls ls' : List Line} (h : Ext ls ls') {w : Nat} (hw : ∀ l ∈ ls, w ≤ l.cells.length)
    (i j : Nat) (hj : j < w) : cellAt ls' i j = cellAt ls i j := by
  unfold cellAt
  rcases Nat.lt_or_ge i ls.length with hlt | hge
  · obtain ⟨l', x, e', c, _⟩ := h.2 i ls[i] (List.getElem?_eq_getElem hlt)
    rw [e', List.getElem?_eq_getElem hlt]
    simp only [Option.bind_some]
    have := hw _ (List.getElem_mem hlt)
    rw [c, List.getElem?_append_left (by omega)]
  · rw [List.getElem?_eq_none hge, List.getElem?_eq_none (by rw [h.1]; exact hge)]

/-! ### Allocating lines -/

theorem growLines_spec (width : Nat) (hw : 0 < width) (n : Nat) : ∀ s : Screen,
    ∃ b s' ms as, growLines width n s = (b, s') ∧
      s' = { s with main := s.main ++ ms, alt := s.alt ++ as, allocN := s'.allocN } ∧
      as.length = ms.length ∧ (b = true → ms.length = n) ∧
      (∀ l ∈ ms, l.cells.length = width) ∧ (∀ l ∈ as, l.cells.length = width) ∧
      ((∀ k, s.allocOk k = true) → b = true) := by
  induction n with
  | zero =>
    intro s
    exact ⟨true, s, [], [], rfl, by simp, rfl, fun _ => rfl, by simp, by simp, fun _ => rfl⟩
  | succ n ih =>
    intro s
    unfold growLines lineNew alloc
    rw [if_neg (by omega)]
    dsimp only
    by_cases h1 : s.allocOk s.allocN = true
    · rw [if_pos h1]
      dsimp only
      rw [if_neg (by omega)]
      by_cases h2 : s.allocOk (s.allocN + 1) = true
      · rw [if_pos h2]
        dsimp only
        obtain ⟨b, s', ms, as, e, hs, h3, h4, h5, h6, h7⟩ := ih
          { s with
            allocN := s.allocN + 1 + 1
            main := s.main ++ [{ cells := List.replicate width s.blank, age := s.ageCnt, sbId := 0 }]
            alt := s.alt ++ [{ cells := List.replicate width s.blank, age := s.ageCnt, sbId := 0 }] }
        refine ⟨b, s', { cells := List.replicate width s.blank, age := s.ageCnt, sbId := 0 } :: ms,
          { cells := List.replicate width s.blank, age := s.ageCnt, sbId := 0 } :: as,
          e, ?_, ?_, ?_, ?_, ?_, h7⟩
        · rw [hs]
          simp
        · simp [h3]
        · intro hb; simp [h4 hb]
        · intro l hl
          rcases List.mem_cons.mp hl with h | h
          · rw [h]; simp
          · exact h5 l h
        · intro l hl
          rcases List.mem_cons.mp hl with h | h
          · rw [h]; simp
          · exact h6 l h
      · rw [if_neg h2]
        exact ⟨false, _, [], [], rfl, by simp, rfl, by simp, by simp, by simp,
          fun h => absurd (h _) h2⟩
    · rw [if_neg h1]
      exact ⟨false, _, [], [], rfl, by simp, rfl, by simp, by simp, by simp,
        fun h => absurd (h _) h1⟩

/-- Views do not see lines beyond the visible rows. -/
theorem gridOf_append {w h : Nat} {ls ms : List Line} (hh : h ≤ ls.length) :
    gridOf w h (ls ++ ms) = gridOf w h ls := by
  apply gridOf_congr
  intro i j hi _
  rw [List.getElem?_append_left (by omega)]

/-- Result of the first two phases of a resize: memory was added that is not
visible yet. -/
structure Prepared (s s' : Screen) : Prop where
  frame : s' = { s with
    main := s'.main, alt := s'.alt, tabRuler := s'.tabRuler, allocN := s'.allocN }
  dim : Dim s'
  view : s'.view = s.view
  cellM : ∀ i j, i < s.sizeY → j < s.sizeX → cellAt s'.main i j = cellAt s.main i j
  cellA : ∀ i j, i < s.sizeY → j < s.sizeX → cellAt s'.alt i j = cellAt s.alt i j
  ageM : ∀ i : Nat, i < s.sizeY → (s'.main[i]?).map Line.age = (s.main[i]?).map Line.age
  ageA : ∀ i : Nat, i < s.sizeY → (s'.alt[i]?).map Line.age = (s.alt[i]?).map Line.age

theorem Prepared.refl {s : Screen} (h : Dim s) : Prepared s s :=
  ⟨rfl, h, rfl, fun _ _ _ _ => rfl, fun _ _ _ _ => rfl, fun _ _ => rfl, fun _ _ => rfl⟩

theorem Prepared.trans {s t u : Screen} (h : Prepared s t) (h' : Prepared t u) : Prepared s u := by
  have hX : t.sizeX = s.sizeX := by rw [h.frame]
  have hY : t.sizeY = s.sizeY := by rw [h.frame]
  refine ⟨?_, h'.dim, h'.view.trans h.view, ?_, ?_, ?_, ?_⟩
  · have := h'.frame; rw [h.frame] at this; exact this
  · intro i j hi hj; rw [h'.cellM i j (by omega) (by omega), h.cellM i j hi hj]
  · intro i j hi hj; rw [h'.cellA i j (by omega) (by omega), h.cellA i j hi hj]
  · intro i hi; rw [h'.ageM i (by omega), h.ageM i hi]
  · intro i hi; rw [h'.ageA i (by omega), h.ageA i hi]

theorem Dim.alloc {s : Screen} (h : Dim s) (n : Nat) : Dim { s with allocN := n } := { h with }

theorem Prepared.alloc {s : Screen} (h : Dim s) (n : Nat) : Prepared s { s with allocN := n } :=
  ⟨rfl, h.alloc n, rfl, fun _ _ _ _ => rfl, fun _ _ _ _ => rfl, fun _ _ => rfl, fun _ _ => rfl⟩

theorem resizeLines_spec {s : Screen} (h : Dim s) {x y : Nat} (hx : 0 < x) :
    ∃ b s', s.resizeLines x y = (b, s') ∧ Prepared s s' ∧ (b = true → y ≤ s'.main.length) ∧
      ((∀ k, s.allocOk k = true) → b = true) := by
  unfold resizeLines
  by_cases hy : y > s.main.length
  · rw [if_pos hy]
    unfold Screen.alloc
    dsimp only
    by_cases h1 : s.allocOk s.allocN = true
    · rw [if_pos h1]
      by_cases h2 : s.allocOk (s.allocN + 1) = true
      · rw [if_pos h2]
        obtain ⟨W, eW, hW0, hW1⟩ : ∃ W, (if x > s.sizeX then x else s.sizeX) = W ∧ 0 < W ∧
            s.sizeX ≤ W := by
          refine ⟨_, rfl, ?_⟩
          split <;> omega
        obtain ⟨b, s', ms, as, e, hs, h3, h4, h5, h6, h7⟩ := growLines_spec W hW0
          (y - s.main.length) { s with allocN := s.allocN + 1 + 1 }
        refine ⟨b, s', ?_, ?_, ?_, h7⟩
        · rw [← eW] at e; exact e
        · have hm : s'.main = s.main ++ ms := by rw [hs]
          have ha : s'.alt = s.alt ++ as := by rw [hs]
          have hrows := h.rows
          have hlen := h.len
          refine ⟨?_, ?_, ?_, ?_, ?_, ?_, ?_⟩
          · rw [hs]
          · rw [hs]
            refine { h with len := ?_, rows := ?_, wm := ?_, wa := ?_ }
            · simp only [List.length_append]; omega
            · simp only [List.length_append]; omega
            · intro l hl
              rcases List.mem_append.mp hl with h' | h'
              · exact h.wm l h'
              · simp only; rw [h5 l h']; exact hW1
            · intro l hl
              rcases List.mem_append.mp hl with h' | h'
              · exact h.wa l h'
              · simp only; rw [h6 l h']; exact hW1
          · have e1 : gridOf s.sizeX s.sizeY (s.main ++ ms) = gridOf s.sizeX s.sizeY s.main :=
              gridOf_append hrows
            have e2 : gridOf s.sizeX s.sizeY (s.alt ++ as) = gridOf s.sizeX s.sizeY s.alt :=
              gridOf_append (by omega)
            rw [hs]
            unfold Screen.view
            simp only
            rw [e1, e2]
          · intro i j hi hj; unfold cellAt; rw [hm, List.getElem?_append_left (by omega)]
          · intro i j hi hj; unfold cellAt; rw [ha, List.getElem?_append_left (by omega)]
          · intro i hi; rw [hm, List.getElem?_append_left (by omega)]
          · intro i hi; rw [ha, List.getElem?_append_left (by omega)]
        · intro hb
          have hm : s'.main = s.main ++ ms := by rw [hs]
          rw [hm, List.length_append, h4 hb]; omega
      · rw [if_neg h2]
        exact ⟨_, _, rfl, Prepared.alloc h _, by simp, fun hh => absurd (hh _) h2⟩
    · rw [if_neg h1]
      exact ⟨_, _, rfl, Prepared.alloc h _, by simp, fun hh => absurd (hh _) h1⟩
  · rw [if_neg hy]
    exact ⟨true, s, rfl, .refl h, fun _ => by omega, fun _ => rfl⟩

/-! ### Widening lines -/

theorem lineResize_cases (s : Screen) (l : Line) (x : Nat) :
    ∃ r n, s.lineResize l x = (r, { s with allocN := n }) ∧
      (∀ l', r = some l' → x ≤ l'.cells.length ∧ l'.age = l.age ∧ ∃ e, l'.cells = l.cells ++ e) ∧
      ((∀ k, s.allocOk k = true) → r ≠ none) := by
  unfold lineResize Screen.alloc
  by_cases h : l.cells.length < x
  · rw [if_pos h]
    dsimp only
    by_cases h1 : s.allocOk s.allocN = true
    · rw [if_pos h1]
      refine ⟨_, _, rfl, ?_, by simp⟩
      intro l' e
      cases e
      refine ⟨?_, rfl, _, rfl⟩
      simp only [List.length_append, List.length_replicate]; omega
    · rw [if_neg h1]
      exact ⟨_, _, rfl, by simp, fun hh => absurd (hh _) h1⟩
  · rw [if_neg h]
    refine ⟨some l, s.allocN, rfl, ?_, by simp⟩
    intro l' e
    cases e
    exact ⟨by omega, rfl, [], by simp⟩

theorem widenLines_spec (x n : Nat) : ∀ (i : Nat) (s : Screen), s.alt.length = s.main.length →
    i + n ≤ s.main.length →
    ∃ b s', widenLines x n i s = .ok (b, s') ∧
      s' = { s with main := s'.main, alt := s'.alt, allocN := s'.allocN } ∧
      Ext s.main s'.main ∧ Ext s.alt s'.alt ∧
      (b = true → ∀ (k : Nat), i ≤ k → k < i + n →
        (∀ l, s'.main[k]? = some l → x ≤ l.cells.length) ∧
        (∀ l, s'.alt[k]? = some l → x ≤ l.cells.length)) ∧
      ((∀ k, s.allocOk k = true) → b = true) := by
  induction n with
  | zero =>
    intro i s _ _
    exact ⟨true, s, rfl, rfl, .refl _, .refl _, fun _ k h1 h2 => by omega, fun _ => rfl⟩
  | succ n ih =>
    intro i s hlen hi
    have hm : s.main[i]? = some s.main[i] := List.getElem?_eq_getElem (by omega)
    have ha : s.alt[i]? = some s.alt[i] := List.getElem?_eq_getElem (by omega)
    unfold widenLines
    rw [hm, ha]
    simp only
    obtain ⟨r, n1, e1, p1, q1⟩ := lineResize_cases s s.main[i] x
    rw [e1]
    cases r with
    | none =>
      refine ⟨false, _, rfl, rfl, .refl _, .refl _, by simp, fun hh => absurd rfl (q1 hh)⟩
    | some m =>
      obtain ⟨w1, a1, x1, c1⟩ := p1 m rfl
      simp only
      obtain ⟨r2, n2, e2, p2, q2⟩ := lineResize_cases
        { s with allocN := n1, main := s.main.set i m } s.alt[i] x
      rw [e2]
      have hE : Ext s.main (s.main.set i m) := Ext.set hm c1 a1
      cases r2 with
      | none =>
        refine ⟨false, _, rfl, rfl, hE, .refl _, by simp, fun hh => absurd rfl (q2 hh)⟩
      | some a =>
        obtain ⟨w2, a2, x2, c2⟩ := p2 a rfl
        simp only
        have hE2 : Ext s.alt (s.alt.set i a) := Ext.set ha c2 a2
        obtain ⟨b, s', e, hs, h3, h4, h5, h6⟩ := ih (i + 1)
          { s with allocN := n2, main := s.main.set i m, alt := s.alt.set i a }
          (by simpa using hlen) (by simp only [List.length_set]; omega)
        refine ⟨b, s', e, ?_, hE.trans h3, hE2.trans h4, ?_, h6⟩
        · rw [hs]
        · intro hb k hk1 hk2
          by_cases hki : k = i
          · subst hki
            constructor
            · intro l hl
              obtain ⟨l', xx, e', c', _⟩ := h3.2 k m (by simp only; rw [List.getElem?_set, if_pos rfl, if_pos (by omega)])
              rw [hl] at e'; cases e'
              rw [c', List.length_append]; omega
            · intro l hl
              obtain ⟨l', xx, e', c', _⟩ := h4.2 k a (by simp only; rw [List.getElem?_set, if_pos rfl, if_pos (by omega)])
              rw [hl] at e'; cases e'
              rw [c', List.length_append]; omega
          · exact h5 hb k (by omega) (by omega)

theorem resizeWidth_spec {s : Screen} (h : Dim s) (x : Nat) :
    ∃ b s', s.resizeWidth x = .ok (b, s') ∧ Prepared s s' ∧ s'.main.length = s.main.length ∧
      (b = true → (∀ l ∈ s'.main, x ≤ l.cells.length) ∧ (∀ l ∈ s'.alt, x ≤ l.cells.length) ∧
        x ≤ s'.tabRuler.length) ∧
      ((∀ k, s.allocOk k = true) → b = true) := by
  unfold resizeWidth
  by_cases hx : x > s.sizeX
  · rw [if_pos hx]
    unfold Screen.alloc
    dsimp only
    by_cases h1 : s.allocOk s.allocN = true
    · rw [if_pos h1]
      have htab := h.tab
      have hnew : ∃ tab', s.tabRuler.take x ++ List.replicate (x - s.tabRuler.length) false = tab' ∧
          x ≤ tab'.length ∧ ∀ i, i < s.sizeX → tab'[i]? = s.tabRuler[i]? := by
        refine ⟨_, rfl, ?_, ?_⟩
        · simp only [List.length_append, List.length_take, List.length_replicate]; omega
        · intro i hi
          rw [List.getElem?_append_left (by rw [List.length_take]; omega), List.getElem?_take,
            if_pos (by omega)]
      obtain ⟨tab', et, ht1, ht2⟩ := hnew
      rw [et]
      obtain ⟨b, s', e, hs, h3, h4, h5, h6⟩ := widenLines_spec x s.main.length 0
        { s with allocN := s.allocN + 1, tabRuler := tab' } h.len (by simp)
      have hl1 := h3.1
      have hl2 := h4.1
      simp only at hl1 hl2 h3 h4
      refine ⟨b, s', e, ?_, hl1, ?_, h6⟩
      · refine ⟨?_, ?_, ?_, ?_, ?_, ?_, ?_⟩
        · rw [hs]
        · rw [hs]
          exact { h with
            len := by simp only; rw [hl1, hl2]; exact h.len
            rows := by simp only; rw [hl1]; exact h.rows
            wm := h3.width h.wm
            wa := h4.width h.wa
            tab := by show s.sizeX ≤ tab'.length; omega }
        · have e1 : gridOf s.sizeX s.sizeY s'.main = gridOf s.sizeX s.sizeY s.main := by
            apply gridOf_congr; intro i j _ hj
            exact congrArg _ (h3.cell h.wm i j hj)
          have e2 : gridOf s.sizeX s.sizeY s'.alt = gridOf s.sizeX s.sizeY s.alt := by
            apply gridOf_congr; intro i j _ hj
            exact congrArg _ (h4.cell h.wa i j hj)
          have e3 : (fun i => if i < s.sizeX then tab'[i]? else none) =
              fun i => if i < s.sizeX then s.tabRuler[i]? else none := by
            funext i
            by_cases hi : i < s.sizeX
            · rw [if_pos hi, if_pos hi, ht2 i hi]
            · rw [if_neg hi, if_neg hi]
          rw [hs]
          unfold Screen.view
          simp only
          rw [e1, e2, e3]
        · intro i j _ hj; exact h3.cell h.wm i j hj
        · intro i j _ hj; exact h4.cell h.wa i j hj
        · intro i hi
          have hlt : i < s.main.length := by have := h.rows; omega
          obtain ⟨l', xx, e', _, a'⟩ := h3.2 i _ (List.getElem?_eq_getElem hlt)
          rw [e', List.getElem?_eq_getElem hlt]; simp [a']
        · intro i hi
          have hlt : i < s.alt.length := by have := h.rows; have := h.len; omega
          obtain ⟨l', xx, e', _, a'⟩ := h4.2 i _ (List.getElem?_eq_getElem hlt)
          rw [e', List.getElem?_eq_getElem hlt]; simp [a']
      · intro hb
        refine ⟨?_, ?_, ?_⟩
        · apply mem_of_getElem?_fun
          intro i l hl
          have hlt : i < s.main.length := by
            rw [← hl1]
            rcases Nat.lt_or_ge i s'.main.length with h' | h'
            · exact h'
            · rw [List.getElem?_eq_none h'] at hl; cases hl
          exact (h5 hb i (Nat.zero_le _) (by omega)).1 l hl
        · apply mem_of_getElem?_fun
          intro i l hl
          have hlt : i < s.main.length := by
            rw [← h.len, ← hl2]
            rcases Nat.lt_or_ge i s'.alt.length with h' | h'
            · exact h'
            · rw [List.getElem?_eq_none h'] at hl; cases hl
          exact (h5 hb i (Nat.zero_le _) (by omega)).2 l hl
        · rw [hs]; exact ht1
    · rw [if_neg h1]
      exact ⟨_, _, rfl, Prepared.alloc h _, rfl, by simp, fun hh => absurd (hh _) h1⟩
  · rw [if_neg hx]
    refine ⟨true, s, rfl, .refl h, rfl, fun _ => ⟨?_, ?_, ?_⟩, fun _ => rfl⟩
    · intro l hl; have := h.wm l hl; omega
    · intro l hl; have := h.wa l hl; omega
    · have := h.tab; omega

/-! ### Clearing the padding -/

theorem clearAlts_spec (s : Screen) (x : Nat) : ∀ (ls : List Line) (j : Nat),
    (∀ l ∈ ls, x ≤ l.cells.length) →
    ∃ ls', s.clearAlts x j ls = .ok ls' ∧ ls'.length = ls.length ∧
      ∀ (k : Nat) (l : Line), ls[k]? = some l → ∃ l', ls'[k]? = some l' ∧ l'.age = l.age ∧
        l'.cells.length = l.cells.length ∧
        ∀ m : Nat, l'.cells[m]? = (l.cells[m]?).map (fun c =>
          if (if j + k < s.sizeY then s.sizeX else 0) ≤ m ∧ m < x then s.blank else c) := by
  intro ls
  induction ls with
  | nil => intro j _; exact ⟨[], rfl, rfl, by simp⟩
  | cons a t ih =>
    intro j hw
    obtain ⟨c', e', h1, h2⟩ := updCells_ok (cells := a.cells)
      (lo := if j < s.sizeY then s.sizeX else 0) (hi := x) (f := fun _ => s.blank)
      (Or.inr (hw a (List.mem_cons_self ..)))
    obtain ⟨t', et, h3, h4⟩ := ih (j + 1) (fun l hl => hw l (List.mem_cons_of_mem _ hl))
    refine ⟨{ a with cells := c' } :: t', ?_, by simp [h3], ?_⟩
    · unfold clearAlts clearAlt
      rw [e']
      show (do
        let ls ← clearAlts s x (j + 1) t
        return ({ a with cells := c' } : Line) :: ls : R (List Line)) = _
      rw [et]
      rfl
    · intro k l hk
      cases k with
      | zero =>
        simp only [List.getElem?_cons_zero, Option.some.injEq] at hk
        subst hk
        refine ⟨_, rfl, rfl, h1, ?_⟩
        intro m; simp only [Nat.add_zero]; exact h2 m
      | succ k =>
        simp only [List.getElem?_cons_succ] at hk
        obtain ⟨l', e, a1, a2, a3⟩ := h4 k l hk
        refine ⟨l', by simpa using e, a1, a2, ?_⟩
        intro m; rw [a3 m, show j + 1 + k = j + (k + 1) by omega]

/-- The screen after the third phase of a resize, before the cursor is moved. -/
structure Cleared (s t : Screen) (x : Nat) : Prop where
  frame : t = { s.incAge with
    main := t.main, alt := t.alt, marginTop := 0, marginBottom := pred32 s.sizeY
    tabRuler := t.tabRuler, sizeX := x }
  lenM : t.main.length = s.main.length
  lenA : t.alt.length = s.alt.length
  wm : ∀ l ∈ t.main, x ≤ l.cells.length
  wa : ∀ l ∈ t.alt, x ≤ l.cells.length
  tabLen : x ≤ t.tabRuler.length
  tabs : ∀ i : Nat, i < x → t.tabRuler[i]? = some (decide (i % 8 = 0))
  cellM : ∀ i j, i < s.main.length → j < x → cellAt t.main i j =
    if i < s.sizeY ∧ j < s.sizeX then cellAt s.main i j else some (s.incAge.blankWith s.defAttrMain)
  cellA : ∀ i j, i < s.alt.length → j < x → cellAt t.alt i j =
    if i < s.sizeY ∧ j < s.sizeX then cellAt s.alt i j else some (s.incAge.blankWith s.defAttr)
  ageM : ∀ i : Nat, (t.main[i]?).map Line.age = (s.main[i]?).map Line.age
  ageA : ∀ i : Nat, (t.alt[i]?).map Line.age = (s.alt[i]?).map Line.age

theorem resizeClear_spec {s : Screen} (x : Nat) (hm : ∀ l ∈ s.main, x ≤ l.cells.length)
    (ha : ∀ l ∈ s.alt, x ≤ l.cells.length) (ht : x ≤ s.tabRuler.length) :
    ∃ t, Cleared s t x ∧ s.resizeClear x =
      if t.cursorX ≥ x then t.moveCursor (pred32 x) t.cursorY else .ok t := by
  obtain ⟨A, eA, hA1, hA2⟩ := clearAlts_spec s.incAge x s.alt 0 ha
  obtain ⟨tab, eT, hT1, hT2⟩ := initTabs_ok ht
  let start := if x > s.sizeX then s.sizeX else x
  let M := s.main.mapIdx (fun j l => s.incAge.clearMain start j l)
  have hM : ∀ (k : Nat) (l : Line), s.main[k]? = some l → ∃ l', M[k]? = some l' ∧ l'.age = l.age ∧
      l'.cells.length = l.cells.length ∧
      ∀ m : Nat, l'.cells[m]? = (l.cells[m]?).map (fun c =>
        if (if k < s.sizeY then start else 0) ≤ m then s.incAge.blankWith s.defAttrMain else c) := by
    intro k l hk
    refine ⟨s.incAge.clearMain start k l, by simp [M, List.getElem?_mapIdx, hk], rfl, by
      simp [clearMain], ?_⟩
    intro m
    simp [clearMain, List.getElem?_mapIdx]
  refine ⟨{ s.incAge with
      main := M, alt := A, marginTop := 0, marginBottom := pred32 s.sizeY, tabRuler := tab
      sizeX := x }, ⟨?_, by simp [M], hA1, ?_, ?_, by show x ≤ tab.length; omega, hT2, ?_, ?_, ?_, ?_⟩, ?_⟩
  · rfl
  · simp only
    apply mem_of_getElem?_fun
    intro i l hl
    have hlt : i < s.main.length := by
      have : M.length = s.main.length := by simp [M]
      rw [← this]
      rcases Nat.lt_or_ge i M.length with h' | h'
      · exact h'
      · rw [List.getElem?_eq_none h'] at hl; cases hl
    obtain ⟨l', e', _, w', _⟩ := hM i _ (List.getElem?_eq_getElem hlt)
    rw [hl] at e'; cases e'
    rw [w']; exact hm _ (List.getElem_mem hlt)
  · simp only
    apply mem_of_getElem?_fun
    intro i l hl
    have hlt : i < s.alt.length := by
      rw [← hA1]
      rcases Nat.lt_or_ge i A.length with h' | h'
      · exact h'
      · rw [List.getElem?_eq_none h'] at hl; cases hl
    obtain ⟨l', e', _, w', _⟩ := hA2 i _ (List.getElem?_eq_getElem hlt)
    rw [hl] at e'; cases e'
    rw [w']; exact ha _ (List.getElem_mem hlt)
  · intro i j hi hj
    simp only
    obtain ⟨l', e', _, w', c'⟩ := hM i _ (List.getElem?_eq_getElem hi)
    have hw := hm _ (List.getElem_mem hi)
    have hlj : s.main[i].cells[j]? = some s.main[i].cells[j] := List.getElem?_eq_getElem (by omega)
    have hL : cellAt M i j = l'.cells[j]? := by unfold cellAt; rw [e']; rfl
    have hR : cellAt s.main i j = s.main[i].cells[j]? := by
      unfold cellAt; rw [List.getElem?_eq_getElem hi]; rfl
    rw [hL, c', hR, hlj]
    simp only [Option.map_some]
    by_cases hc : i < s.sizeY ∧ j < s.sizeX
    · rw [if_pos hc, if_pos hc.1, if_neg]
      have h2 := hc.2
      show ¬ (if x > s.sizeX then s.sizeX else x) ≤ j
      split <;> omega
    · rw [if_neg hc]
      congr 1
      apply if_pos
      by_cases hiy : i < s.sizeY
      · rw [if_pos hiy]
        have : ¬ j < s.sizeX := fun h => hc ⟨hiy, h⟩
        show (if x > s.sizeX then s.sizeX else x) ≤ j
        split <;> omega
      · rw [if_neg hiy]; omega
  · intro i j hi hj
    simp only
    obtain ⟨l', e', _, w', c'⟩ := hA2 i _ (List.getElem?_eq_getElem hi)
    have hw := ha _ (List.getElem_mem hi)
    have hlj : s.alt[i].cells[j]? = some s.alt[i].cells[j] := List.getElem?_eq_getElem (by omega)
    have hL : cellAt A i j = l'.cells[j]? := by unfold cellAt; rw [e']; rfl
    have hR : cellAt s.alt i j = s.alt[i].cells[j]? := by
      unfold cellAt; rw [List.getElem?_eq_getElem hi]; rfl
    have hbl : s.incAge.blank = s.incAge.blankWith s.defAttr := by unfold blank; rw [ia_defAttr]
    rw [hL, c', hR, hlj, hbl]
    simp only [Option.map_some, ia_sizeX, ia_sizeY, Nat.zero_add]
    by_cases hc : i < s.sizeY ∧ j < s.sizeX
    · rw [if_pos hc, if_pos hc.1, if_neg (by omega)]
    · rw [if_neg hc]
      congr 1
      apply if_pos
      refine ⟨?_, hj⟩
      by_cases hiy : i < s.sizeY
      · rw [if_pos hiy]
        have : ¬ j < s.sizeX := fun h => hc ⟨hiy, h⟩
        omega
      · rw [if_neg hiy]; omega
  · intro i
    simp only
    rcases Nat.lt_or_ge i s.main.length with hlt | hge
    · obtain ⟨l', e', a', _, _⟩ := hM i _ (List.getElem?_eq_getElem hlt)
      rw [e', List.getElem?_eq_getElem hlt]; simp [a']
    · rw [List.getElem?_eq_none hge, List.getElem?_eq_none (by simp [M]; exact hge)]
  · intro i
    simp only
    rcases Nat.lt_or_ge i s.alt.length with hlt | hge
    · obtain ⟨l', e', a', _, _⟩ := hA2 i _ (List.getElem?_eq_getElem hlt)
      rw [e', List.getElem?_eq_getElem hlt]; simp [a']
    · rw [List.getElem?_eq_none hge, List.getElem?_eq_none (by omega)]
  · unfold resizeClear
    simp only [ia_alt, ia_main, ia_tabRuler, ia_sizeX, ia_sizeY]
    rw [eA]
    show (do
      let tab ← initTabs s.tabRuler x
      _ : R Screen) = _
    rw [eT]
    rfl


/-! ### The whole call -/

/-- The screen after the width has been changed. -/
@[reducible] def recol (t : Screen) (x : Nat) : Screen :=
  if t.cursorX ≥ x then t.moved (x - 1) t.cursorY else t

theorem Cleared.geo {s t : Screen} {x : Nat} (h : Cleared s t x) (hd : Dim s) (hy : 0 < s.sizeY)
    (hx : 0 < x) (hxb : x < 1073741824) : Geo t := by
  have hf := h.frame
  have e1 : t.sizeX = x := by rw [hf]
  have e2 : t.sizeY = s.sizeY := by rw [hf]; simp
  have e3 : t.marginTop = 0 := by rw [hf]
  have e4 : t.marginBottom = s.sizeY - 1 := by
    rw [hf]; exact pred32_pos hy (by have := hd.yb; omega)
  have e5 : t.useAlt = t.fAlt := by
    unfold fAlt; rw [hf]; simp only [ia_useAlt, ia_flags]; exact hd.alias
  have := h.lenM; have := h.lenA; have := hd.len; have := hd.rows; have := hd.yb
  exact ⟨by omega, by omega, by omega, by omega, by omega, by omega, by rw [e1]; exact h.wm,
    by rw [e1]; exact h.wa, by rw [e1]; exact h.tabLen, by omega, by omega, e5⟩

theorem SbOk.prepared {s t : Screen} (h : SbOk s) (hp : Prepared s t) : SbOk t := by
  rw [hp.frame]; exact { h with }

theorem SbOk.cleared {s t : Screen} {x : Nat} (h : SbOk s) (hp : Cleared s t x) : SbOk t := by
  rw [hp.frame]; exact { h.incAge with }

theorem SbOk.sized {s : Screen} (h : SbOk s) (y m : Nat) :
    SbOk { s with sizeY := y, marginBottom := m } := { h with }

/-- The screen when the height does not shrink. -/
@[reducible] def tall (t : Screen) (y : Nat) : Screen := { t with sizeY := y, marginBottom := y - 1 }

/-- The screen when the height shrinks by `d`. -/
@[reducible] def low (u : Screen) (d y : Nat) : Screen :=
  { u.moved u.cursorX (u.cursorY - d) with sizeY := y, marginBottom := y - 1 }

theorem resizeHeight_tall {t : Screen} {y : Nat} (hy : 0 < y) (hyb : y < 1073741824)
    (hty : t.sizeY ≤ y) (hc : t.cursorY < y) : t.resizeHeight y = .ok (tall t y) := by
  unfold resizeHeight
  rw [if_neg (by omega)]
  show (if _ then _ else _ : R Screen) = _
  rw [if_neg (by show ¬ t.cursorY ≥ y; omega), pred32_pos hy (by omega)]
  rfl

theorem resizeHeight_low {t : Screen} {y : Nat} (hg : Geo t) (hs : SbOk t) (hy : 0 < y)
    (hty : y < t.sizeY) (hc : t.cursorY < t.sizeY) (hm : t.marginTop = 0)
    (hm' : t.marginBottom = t.sizeY - 1) :
    ∃ u kept, ScrolledUp t.touch u (t.sizeY - y) kept ∧
      t.resizeHeight y = .ok (low u (t.sizeY - y) y) := by
  obtain ⟨u, kept, e, hu⟩ := scrollUpI_spec hg hs (num := t.sizeY - y) (by omega)
  have hcl : t.clampRegion (t.sizeY - y) = t.sizeY - y := by
    unfold clampRegion; rw [hm, hm']; omega
  rw [hcl] at hu
  refine ⟨u, kept, hu, ?_⟩
  have hgu : Geo u := hu.geo hg.touch
  have huc : u.cursorY = t.cursorY := by rw [hu.frame.cursorY]; rfl
  have hyb := hg.yb
  unfold resizeHeight
  rw [if_pos hty]
  dsimp only
  rw [e]
  have e2 : (if u.cursorY > t.sizeY - y then u.moveCursor u.cursorX (u.cursorY - (t.sizeY - y))
      else u.moveCursor u.cursorX 0) = .ok (u.moved u.cursorX (u.cursorY - (t.sizeY - y))) := by
    split
    · exact moveCursor_ok hgu _ _
    · rw [moveCursor_ok hgu]
      congr 2; omega
  show (do
    let s ← (if u.cursorY > t.sizeY - y then u.moveCursor u.cursorX (u.cursorY - (t.sizeY - y))
      else u.moveCursor u.cursorX 0)
    let s := { s with sizeY := y, marginBottom := pred32 y }
    if s.cursorY ≥ s.sizeY then s.moveCursor s.cursorX (pred32 s.sizeY) else return s : R Screen) = _
  rw [e2]
  show (if _ then _ else _ : R Screen) = _
  rw [if_neg, pred32_pos hy (by omega)]
  · rfl
  · simp only [mv_cursorY]; omega

/-- The steps of a resize. -/
theorem resize_steps {s : Screen} (h : Dim s) (hs : SbOk s) {x y : Nat} (hx : 0 < x) (hy : 0 < y)
    (hxb : x < 1073741824) (hyb : y < 1073741824) (hne : ¬ (s.sizeX = x ∧ s.sizeY = y)) :
    (∃ s', s.resize x y = .ok (.enomem, s') ∧ Prepared s s' ∧ ¬ ∀ k, s.allocOk k = true) ∨
    (∃ p t, Prepared s p ∧ y ≤ p.main.length ∧ Cleared p t x ∧
      ((s.sizeY ≤ y ∧ s.resize x y = .ok (.ok, tall (recol t x) y)) ∨
       (y < s.sizeY ∧ ∃ u kept, ScrolledUp (recol t x).touch u (s.sizeY - y) kept ∧
          s.resize x y = .ok (.ok, low u (s.sizeY - y) y)))) := by
  obtain ⟨b1, s1, e1, p1, q1, r1⟩ := resizeLines_spec h (y := y) hx
  have hres : s.resize x y = (if b1 then do
      let (ok, s) ← s1.resizeWidth x
      if ok then do
        let s ← s.resizeClear x
        let s ← s.resizeHeight y
        return (.ok, s)
      else return (.enomem, s)
    else .ok (.enomem, s1) : R (Ret × Screen)) := by
    unfold resize
    rw [if_neg (by omega), if_neg hne, e1]
  cases b1 with
  | false =>
    left
    refine ⟨s1, hres, p1, ?_⟩
    intro hh; exact absurd (r1 hh) (by simp)
  | true =>
    obtain ⟨b2, s2, e2, p2, q2, q3, r2⟩ := resizeWidth_spec p1.dim x
    rw [e2] at hres
    have hao : s1.allocOk = s.allocOk := by rw [p1.frame]
    cases b2 with
    | false =>
      left
      refine ⟨s2, hres, p1.trans p2, ?_⟩
      intro hh; exact absurd (r2 (by rw [hao]; exact hh)) (by simp)
    | true =>
      right
      have p := p1.trans p2
      obtain ⟨w1, w2, w3⟩ := q3 rfl
      obtain ⟨t, ct, et⟩ := resizeClear_spec x w1 w2 w3
      have hf := ct.frame
      have f1 : s2.sizeX = s.sizeX := by rw [p.frame]
      have f2 : s2.sizeY = s.sizeY := by rw [p.frame]
      have f3 : s2.cursorX = s.cursorX := by rw [p.frame]
      have f4 : s2.cursorY = s.cursorY := by rw [p.frame]
      have g1 : t.sizeX = x := by rw [hf]
      have g2 : t.sizeY = s.sizeY := by rw [hf]; simp [f2]
      have g3 : t.cursorX = s.cursorX := by rw [hf]; simp [f3]
      have g4 : t.cursorY = s.cursorY := by rw [hf]; simp [f4]
      have hcx0 := h.cx0
      have hpos := h.pos
      have hcy := h.cy
      have hsy := h.yb
      have et' : s2.resizeClear x = .ok (recol t x) := by
        rw [et]
        unfold recol
        by_cases hc : t.cursorX ≥ x
        · rw [if_pos hc, if_pos hc, pred32_pos hx (by omega)]
          apply moveCursor_ok
          apply ct.geo p.dim _ hx hxb
          rw [f2]
          apply hpos.mp
          apply Nat.pos_of_ne_zero
          intro h0; have := hcx0 h0; omega
        · rw [if_neg hc, if_neg hc]
      have hres' : s.resize x y = (do
          let s ← (recol t x).resizeHeight y
          return (.ok, s) : R (Ret × Screen)) := by
        rw [hres]
        show (do
          let s ← s2.resizeClear x
          let s ← s.resizeHeight y
          return (.ok, s) : R (Ret × Screen)) = _
        rw [et']
        rfl
      have k1 : (recol t x).sizeY = s.sizeY := by
        unfold recol; split <;> simp [g2]
      have k2 : (recol t x).cursorY = s.cursorY := by
        unfold recol; split <;> simp [g4]
      refine ⟨s2, t, p, ?_, ct, ?_⟩
      · rw [q2]; exact q1 rfl
      · rcases Nat.lt_or_ge y s.sizeY with hlt | hge
        · right
          refine ⟨hlt, ?_⟩
          have hgt : Geo t := ct.geo p.dim (by omega) hx hxb
          have hg' : Geo (recol t x) := by
            unfold recol; split
            · exact hgt.moved _ _
            · exact hgt
          have hs' : SbOk (recol t x) := by
            have := (hs.prepared p).cleared ct
            unfold recol; split
            · exact this.moved _ _
            · exact this
          have m1 : (recol t x).marginTop = 0 := by
            have : t.marginTop = 0 := by rw [hf]
            unfold recol; split <;> simp [this]
          have m2 : (recol t x).marginBottom = s.sizeY - 1 := by
            have : t.marginBottom = s.sizeY - 1 := by
              rw [hf]; simp only; rw [f2]; exact pred32_pos (by omega) (by omega)
            unfold recol; split <;> simp [this]
          obtain ⟨u, kept, hu, e⟩ := resizeHeight_low hg' hs' hy (by omega) (by omega) m1
            (by omega)
          rw [k1] at hu e
          refine ⟨u, kept, hu, ?_⟩
          rw [hres', e]; rfl
        · left
          refine ⟨hge, ?_⟩
          rw [hres', resizeHeight_tall hy hyb (by omega) (by omega)]; rfl


/-! ### Its observable effect -/

/-- Buffers that differ in ages only. -/
structure SameBuf (ls ls' : List Line) : Prop where
  len : ls'.length = ls.length
  width : ∀ n, (∀ l ∈ ls, n ≤ l.cells.length) → ∀ l ∈ ls', n ≤ l.cells.length
  grid : ∀ w h, gridOf w h ls' = gridOf w h ls

theorem SameBuf.refl (ls : List Line) : SameBuf ls ls := ⟨rfl, fun _ h => h, fun _ _ => rfl⟩

theorem SameBuf.trans {a b c : List Line} (h : SameBuf a b) (h' : SameBuf b c) : SameBuf a c :=
  ⟨h'.len.trans h.len, fun n hn => h'.width n (h.width n hn),
    fun w k => (h'.grid w k).trans (h.grid w k)⟩

theorem SameBuf.bumpAt (ls : List Line) (y x age : Nat) : SameBuf ls (bumpAt ls y x age) where
  len := bumpAt_length ..
  width := by
    intro n hn
    apply mem_of_getElem?_fun
    intro i l hl
    rw [bumpAt_getElem?] at hl
    cases e : ls[i]? with
    | none => rw [e] at hl; cases hl
    | some m =>
      rw [e] at hl
      have := hn m (getElem?_mem e)
      simp only [Option.map_some, Option.some.injEq] at hl
      rw [← hl]
      split <;> simpa using this
  grid := by intro w h; exact gridOf_bumpAt ..

theorem marked_buf (s : Screen) : SameBuf s.main s.marked.main ∧ SameBuf s.alt s.marked.alt := by
  unfold marked withLines lines
  cases s.useAlt
  · exact ⟨SameBuf.bumpAt .., .refl _⟩
  · exact ⟨.refl _, SameBuf.bumpAt ..⟩

theorem moved_buf (s : Screen) (x y : Nat) :
    SameBuf s.main (s.moved x y).main ∧ SameBuf s.alt (s.moved x y).alt := by
  unfold moved
  split
  · exact ⟨.refl _, .refl _⟩
  · split
    · exact ⟨.refl _, .refl _⟩
    · have h1 := marked_buf s
      have h2 := marked_buf { s.marked with cursorX := x, cursorY := y }
      exact ⟨h1.1.trans h2.1, h1.2.trans h2.2⟩

theorem recol_buf (t : Screen) (x : Nat) :
    SameBuf t.main (recol t x).main ∧ SameBuf t.alt (recol t x).alt := by
  unfold recol
  split
  · exact moved_buf ..
  · exact ⟨.refl _, .refl _⟩

theorem recol_view (t : Screen) {x : Nat} (hx : 0 < x) :
    (recol t x).view = { t.view with cursorX := min t.cursorX (x - 1) } := by
  unfold recol
  split
  · rw [moved_view, show min t.cursorX (x - 1) = x - 1 by omega]
    rfl
  · rw [show min t.cursorX (x - 1) = t.cursorX by omega]
    rfl

theorem tall_view (t : Screen) (y : Nat) : (tall t y).view = { t.view with
    sizeY := y, marginBottom := y - 1, main := gridOf t.sizeX y t.main
    alt := gridOf t.sizeX y t.alt } := rfl

theorem refit_eq {x y : Nat} {ls ls' ls0 : List Line} {b : Glyph} {w h : Nat}
    (hy : y ≤ ls.length)
    (hc : ∀ i j, i < ls.length → j < x → (cellAt ls' i j).map Cell.glyph =
      if i < h ∧ j < w then (cellAt ls i j).map Cell.glyph else some b)
    (hg : gridOf w h ls = gridOf w h ls0) :
    gridOf x y ls' = View.refit (gridOf w h ls0) w h 0 x y b := by
  funext i j
  unfold View.refit
  rw [gridOf_apply]
  by_cases hij : i < y ∧ j < x
  · rw [if_pos hij, if_pos hij, hc i j (by omega) hij.2, ← hg, gridOf_apply, Nat.add_zero]
    by_cases hh : i < h ∧ j < w
    · rw [if_pos hh, if_pos hh, if_pos hh]
    · rw [if_neg hh, if_neg hh]
  · rw [if_neg hij, if_neg hij]

theorem Cleared.main {s p t : Screen} {x y : Nat} (hp : Prepared s p) (h : Cleared p t x)
    (hy : y ≤ p.main.length) :
    gridOf x y t.main = View.refit s.view.main s.sizeX s.sizeY 0 x y ⟨0, 1, s.defAttrMain⟩ := by
  have f1 : p.sizeX = s.sizeX := by rw [hp.frame]
  have f2 : p.sizeY = s.sizeY := by rw [hp.frame]
  have f3 : p.defAttrMain = s.defAttrMain := by rw [hp.frame]
  have hv : p.view.main = s.view.main := by rw [hp.view]
  have e : p.view.main = gridOf p.sizeX p.sizeY p.main := rfl
  rw [← hv, e, ← f1, ← f2]
  refine refit_eq hy ?_ rfl
  intro i j hi hj
  rw [h.cellM i j hi hj]
  split
  · rfl
  · simp [blankWith, f3]

theorem Cleared.alt {s p t : Screen} {x y : Nat} (hp : Prepared s p) (h : Cleared p t x)
    (hy : y ≤ p.main.length) :
    gridOf x y t.alt = View.refit s.view.alt s.sizeX s.sizeY 0 x y s.view.blank := by
  have f1 : p.sizeX = s.sizeX := by rw [hp.frame]
  have f2 : p.sizeY = s.sizeY := by rw [hp.frame]
  have f3 : p.defAttr = s.defAttr := by rw [hp.frame]
  have hv : p.view.alt = s.view.alt := by rw [hp.view]
  have e : p.view.alt = gridOf p.sizeX p.sizeY p.alt := rfl
  rw [← hv, e, ← f1, ← f2]
  refine refit_eq (by rw [hp.dim.len]; exact hy) ?_ rfl
  intro i j hi hj
  rw [h.cellA i j hi hj]
  split
  · rfl
  · simp [blankWith, f3, View.blank, Screen.view]

theorem Cleared.view {s p t : Screen} {x : Nat} (hp : Prepared s p) (h : Cleared p t x) :
    t.view = { s.view with
      sizeX := x, marginTop := 0, marginBottom := pred32 s.sizeY, tabs := View.everyEighth x
      main := View.refit s.view.main s.sizeX s.sizeY 0 x s.sizeY ⟨0, 1, s.defAttrMain⟩
      alt := View.refit s.view.alt s.sizeX s.sizeY 0 x s.sizeY s.view.blank } := by
  have f2 : p.sizeY = s.sizeY := by rw [hp.frame]
  have hle : s.sizeY ≤ p.main.length := by have := hp.dim.rows; omega
  have e1 := h.main hp hle
  have e2 := h.alt hp hle
  have e3 : (fun i => if i < x then t.tabRuler[i]? else none) = View.everyEighth x := by
    funext i
    unfold View.everyEighth
    by_cases hi : i < x
    · rw [if_pos hi, if_pos hi, h.tabs i hi]
    · rw [if_neg hi, if_neg hi]
  have hf := h.frame
  have g1 : t.sizeX = x := by rw [hf]
  have g2 : t.sizeY = s.sizeY := by rw [hf]; simp [f2]
  have hv : t.view = { p.view with
      sizeX := x, marginTop := 0, marginBottom := pred32 s.sizeY
      tabs := fun i => if i < x then t.tabRuler[i]? else none
      main := gridOf x s.sizeY t.main, alt := gridOf x s.sizeY t.alt } := by
    rw [← f2]
    generalize hM : t.main = M at *
    generalize hA : t.alt = A at *
    generalize hT : t.tabRuler = T at *
    rw [hf]
    simp [Screen.view]
  rw [hv, e1, e2, e3, hp.view]

theorem Dim.widened {s t p : Screen} {x : Nat} (hp : Prepared s p) (h : Cleared p t x) (hx : 0 < x)
    (hy : 0 < s.sizeY) (hyb : s.sizeY < 4294967296) :
    (recol t x).view = s.view.widened x := by
  rw [recol_view t hx, h.view hp, pred32_pos hy hyb]
  have : t.cursorX = s.cursorX := by rw [h.frame]; simp only [ia_cursorX]; rw [hp.frame]
  rw [this]
  rfl

theorem incAge_bound {s : Screen} : s.incAge.ageCnt < 18446744073709551616 := by
  exact incAge_ageCnt _

theorem recol_inv {s p t : Screen} {x : Nat} (hd : Dim s) (hs : SbOk s) (hp : Prepared s p) (h : Cleared p t x)
    (hx : 0 < x) (hxb : x < 1073741824) (hy : 0 < s.sizeY) : Inv (recol t x) := by
  have f2 : p.sizeY = s.sizeY := by rw [hp.frame]
  have hg := h.geo hp.dim (by omega) hx hxb
  have hs' := (hs.prepared hp).cleared h
  have g1 : t.sizeX = x := by rw [h.frame]
  have g2 : t.sizeY = s.sizeY := by rw [h.frame]; simp [f2]
  have g4 : t.cursorY = s.cursorY := by rw [h.frame]; simp only [ia_cursorY]; rw [hp.frame]
  have g5 : t.ageCnt < 18446744073709551616 := by rw [h.frame]; exact incAge_bound
  have := hd.cy
  unfold recol
  split
  · exact ⟨hg.moved _ _, hs'.moved _ _, ⟨by simp; omega, by simp; omega⟩, by simpa using g5⟩
  · exact ⟨hg, hs', ⟨by omega, by omega⟩, g5⟩

theorem tall_inv {s p t : Screen} {x y : Nat} (hd : Dim s) (hs : SbOk s) (hp : Prepared s p)
    (hpy : y ≤ p.main.length) (h : Cleared p t x) (hx : 0 < x) (hxb : x < 1073741824) (hy : 0 < y)
    (hyb : y < 1073741824) (hsy : s.sizeY ≤ y) : Inv (tall (recol t x) y) := by
  have f2 : p.sizeY = s.sizeY := by rw [hp.frame]
  have g1 : t.sizeX = x := by rw [h.frame]
  have g4 : t.cursorY = s.cursorY := by rw [h.frame]; simp only [ia_cursorY]; rw [hp.frame]
  have g5 : t.ageCnt < 18446744073709551616 := by rw [h.frame]; exact incAge_bound
  have g6 : t.useAlt = t.fAlt := by
    unfold fAlt; rw [h.frame]; simp only [ia_useAlt, ia_flags]; exact hp.dim.alias
  have g7 : t.marginTop = 0 := by rw [h.frame]
  obtain ⟨bm, ba⟩ := recol_buf t x
  have hs' : SbOk (recol t x) := by
    have := (hs.prepared hp).cleared h
    unfold recol; split
    · exact this.moved _ _
    · exact this
  have k1 : (recol t x).sizeX = x := by unfold recol; split <;> simp [g1]
  have k2 : (recol t x).cursorY = s.cursorY := by unfold recol; split <;> simp [g4]
  have k3 : (recol t x).ageCnt < 18446744073709551616 := by unfold recol; split <;> simp [g5]
  have k4 : (recol t x).useAlt = (recol t x).fAlt := by
    unfold recol; split
    · unfold fAlt; simpa [fAlt] using g6
    · exact g6
  have k5 : (recol t x).tabRuler = t.tabRuler := by unfold recol; split <;> simp
  have k6 : (recol t x).marginTop = 0 := by unfold recol; split <;> simp [g7]
  have k7 : (recol t x).cursorX ≤ x + 1 := by
    unfold recol; split
    · simp; omega
    · omega
  have := bm.len; have := ba.len; have := h.lenM; have := h.lenA; have := hp.dim.len
  have hcy := hd.cy
  refine ⟨⟨?_, ?_, ?_, ?_, ?_, ?_, ?_, ?_, ?_, ?_, ?_, k4⟩, hs'.sized _ _, ⟨?_, ?_⟩, k3⟩
  · show 0 < (recol t x).sizeX; omega
  · exact hy
  · show (recol t x).sizeX < _; omega
  · exact hyb
  · show (recol t x).alt.length = (recol t x).main.length; omega
  · show y ≤ (recol t x).main.length; omega
  · show ∀ l ∈ (recol t x).main, (recol t x).sizeX ≤ _
    rw [k1]; exact bm.width x h.wm
  · show ∀ l ∈ (recol t x).alt, (recol t x).sizeX ≤ _
    rw [k1]; exact ba.width x h.wa
  · show (recol t x).sizeX ≤ (recol t x).tabRuler.length
    rw [k1, k5]; exact h.tabLen
  · show (recol t x).marginTop ≤ y - 1; omega
  · show y - 1 < y; omega
  · show (recol t x).cursorX ≤ (recol t x).sizeX + 1; omega
  · show (recol t x).cursorY < y; omega

theorem Inv.low {u : Screen} (h : Inv u) {d y : Nat} (hy : 0 < y) (hd : y + d = u.sizeY)
    (hm : u.marginTop = 0) : Inv (low u d y) := by
  have hyb := h.geo.yb
  have hc := h.cur.cy
  have hcx := h.cur.cx
  have hi := h.moved (x := u.cursorX) (y := u.cursorY - d) hcx (by omega)
  have hg := hi.geo
  have hrows := hg.rows
  simp only [mv_sizeY] at hrows
  refine ⟨{ hg with
    y0 := hy, yb := by show y < _; omega, rows := by show y ≤ (u.moved _ _).main.length; omega
    mtb := by show (u.moved _ _).marginTop ≤ y - 1; simp [hm]
    mby := by show y - 1 < y; omega }, hi.sb.sized _ _, ⟨hi.cur.cx, ?_⟩, hi.ageb⟩
  show (u.moved _ _).cursorY < y
  simp; omega

theorem gridOf_crop (w : Nat) {h y : Nat} (hy : y ≤ h) (ls : List Line) :
    gridOf w y ls = fun i j => if i < y ∧ j < w then gridOf w h ls i j else none := by
  funext i j
  rw [gridOf_apply]
  by_cases hij : i < y ∧ j < w
  · rw [if_pos hij, if_pos hij, gridOf_apply, if_pos ⟨by omega, hij.2⟩]
  · rw [if_neg hij, if_neg hij]

theorem low_view {u : Screen} {d y : Nat} (hy : y ≤ u.sizeY) : (low u d y).view = { u.view with
    sizeY := y, marginBottom := y - 1, cursorY := u.cursorY - d
    main := fun i j => if i < y ∧ j < u.sizeX then u.view.main i j else none
    alt := fun i j => if i < y ∧ j < u.sizeX then u.view.alt i j else none } := by
  obtain ⟨bm, ba⟩ := moved_buf u u.cursorX (u.cursorY - d)
  have e1 : gridOf u.sizeX y (u.moved u.cursorX (u.cursorY - d)).main =
      fun i j => if i < y ∧ j < u.sizeX then u.view.main i j else none := by
    rw [bm.grid, gridOf_crop _ hy]; rfl
  have e2 : gridOf u.sizeX y (u.moved u.cursorX (u.cursorY - d)).alt =
      fun i j => if i < y ∧ j < u.sizeX then u.view.alt i j else none := by
    rw [ba.grid, gridOf_crop _ hy]; rfl
  unfold low
  rw [← e1, ← e2]
  simp [Screen.view]

/-- `tsm_screen_resize`: success, or lack of memory. -/
theorem resize_spec {s : Screen} (h : Dim s) (hs : SbOk s) {x y : Nat} (hx : 0 < x) (hy : 0 < y)
    (hxb : x < 1073741824) (hyb : y < 1073741824) (hne : ¬ (s.sizeX = x ∧ s.sizeY = y)) :
    (∃ s', s.resize x y = .ok (.enomem, s') ∧ Prepared s s' ∧ ¬ ∀ k, s.allocOk k = true) ∨
    (∃ s', s.resize x y = .ok (.ok, s') ∧ Inv s' ∧
      View.Resized s.view s'.view x y (∀ k, s.allocOk k = true)) := by
  rcases resize_steps h hs hx hy hxb hyb hne with ⟨s', e, hp, ho⟩ | ⟨p, t, hp, hpy, ht, hr⟩
  · exact Or.inl ⟨s', e, hp, ho⟩
  · right
    have hsyb := h.yb
    have hcy := h.cy
    rcases hr with ⟨hge, e⟩ | ⟨hlt, u, kept, hu, e⟩
    · refine ⟨_, e, tall_inv h hs hp hpy ht hx hxb hy hyb hge, ?_, ?_, ?_⟩
      · obtain ⟨bm, ba⟩ := recol_buf t x
        have k1 : (recol t x).sizeX = x := by
          have : t.sizeX = x := by rw [ht.frame]
          unfold recol; split <;> simp [this]
        have k2 : t.cursorX = s.cursorX := by rw [ht.frame]; simp only [ia_cursorX]; rw [hp.frame]
        rw [tall_view, recol_view t hx, ht.view hp, k1, bm.grid, ba.grid, ht.main hp hpy,
          ht.alt hp hpy, k2]
        have hd0 : s.view.sizeY - y = 0 := by show s.sizeY - y = 0; omega
        simp only [hd0, ite_self]
        rfl
      · intro _
        rw [tall_view, recol_view t hx, ht.view hp]
        exact ⟨rfl, rfl, rfl, rfl, rfl, rfl⟩
      · intro hh
        exact absurd (show y < s.sizeY from hh) (by omega)
    · have hw := Dim.widened hp ht hx (by omega) (by omega)
      have hi := recol_inv h hs hp ht hx hxb (by omega)
      have hit := hi.touch
      have hiu := hu.inv hit
      have hvt : (recol t x).touch.view = s.view.widened x := by rw [touch_view, hw]
      have hmt : (recol t x).touch.marginTop = 0 := by
        show (recol t x).touch.view.marginTop = 0; rw [hvt]
      have hmb : (recol t x).touch.marginBottom = s.sizeY - 1 := by
        show (recol t x).touch.view.marginBottom = s.sizeY - 1; rw [hvt]; rfl
      have hsz : (recol t x).touch.sizeY = s.sizeY := by
        show (recol t x).touch.view.sizeY = s.sizeY; rw [hvt]; rfl
      have hsp := hu.spec hit.geo (by omega)
      rw [hvt] at hsp
      have hao : (recol t x).touch.allocOk = s.allocOk := by
        have : t.allocOk = s.allocOk := by rw [ht.frame]; simp only [ia_allocOk]; rw [hp.frame]
        show (recol t x).allocOk = _
        unfold recol
        split
        · rw [(moved_rest _ _ _).2.2.2.1, this]
        · exact this
      rw [hao] at hsp
      have husz : u.sizeY = s.sizeY := by rw [hu.frame.sizeY, hsz]
      refine ⟨_, e, hiu.low hy (by omega) (by rw [hu.frame.marginTop, hmt]), ?_, ?_, ?_⟩
      · have hx' : u.sizeX = x := by
          rw [hu.frame.sizeX]; show (recol t x).touch.view.sizeX = x; rw [hvt]
        have hcy' : u.cursorY = s.cursorY := by
          rw [hu.frame.cursorY]; show (recol t x).touch.view.cursorY = _; rw [hvt]; rfl
        rw [low_view (by omega), hx', hcy']
        generalize hv : s.view = v at *
        have hvY : v.sizeY = s.sizeY := by rw [← hv]; rfl
        have hvC : v.cursorY = s.cursorY := by rw [← hv]; rfl
        have huv := hsp.eq
        generalize u.view = w at *
        have hrow : ∀ (g : Grid) (b : Glyph) (i j : Nat), i < y → j < x →
            View.refit g v.sizeX v.sizeY 0 x v.sizeY b (i + (s.sizeY - y)) j =
            View.refit g v.sizeX v.sizeY (s.sizeY - y) x y b i j := by
          intro g b i j hi hj
          unfold View.refit
          rw [if_pos (show i + (s.sizeY - y) < v.sizeY ∧ j < x from ⟨by omega, hj⟩),
            if_pos (show i < y ∧ j < x from ⟨hi, hj⟩), Nat.add_zero]
        have hnone : ∀ (g : Grid) (d : Nat) (b : Glyph) (i j : Nat), ¬ (i < y ∧ j < x) →
            View.refit g v.sizeX v.sizeY d x y b i j = none := by
          intro g d b i j hij
          unfold View.refit; rw [if_neg hij]
        have hzero : ∀ (g : Grid) (b : Glyph) (i j : Nat), i < y → j < x →
            View.refit g v.sizeX v.sizeY 0 x v.sizeY b i j =
            View.refit g v.sizeX v.sizeY 0 x y b i j := by
          intro g b i j hi hj
          unfold View.refit
          rw [if_pos (show i < v.sizeY ∧ j < x from ⟨by omega, hj⟩),
            if_pos (show i < y ∧ j < x from ⟨hi, hj⟩)]
        have hup : ∀ (i j : Nat), i < y → j < x →
            (v.widened x).rowsUp (v.widened x).marginTop (v.widened x).marginBottom
              (s.sizeY - y) i j = (v.widened x).grid (i + (s.sizeY - y)) j := by
          intro i j hi hj
          unfold View.rowsUp
          simp only
          rw [if_pos (by omega), if_pos (by omega)]
        generalize hU : (v.widened x).rowsUp (v.widened x).marginTop (v.widened x).marginBottom
              (s.sizeY - y) = U at *
        rw [huv]
        cases hua : v.useAlt with
        | true =>
          have hge : (v.widened x).grid = View.refit v.alt v.sizeX v.sizeY 0 x v.sizeY v.blank := by
            unfold View.grid; simp only [hua]; rfl
          have m1 : (fun i j => if i < y ∧ j < x then
              View.refit v.main v.sizeX v.sizeY 0 x v.sizeY ⟨0, 1, v.defAttrMain⟩ i j else none) =
              View.refit v.main v.sizeX v.sizeY 0 x y ⟨0, 1, v.defAttrMain⟩ := by
            funext i j
            by_cases hij : i < y ∧ j < x
            · rw [if_pos hij, hzero _ _ _ _ hij.1 hij.2]
            · rw [if_neg hij, hnone _ _ _ _ _ hij]
          have m2 : (fun i j => if i < y ∧ j < x then U i j else none) =
              View.refit v.alt v.sizeX v.sizeY (s.sizeY - y) x y v.blank := by
            funext i j
            by_cases hij : i < y ∧ j < x
            · rw [if_pos hij, hup _ _ hij.1 hij.2, hge, hrow _ _ _ _ hij.1 hij.2]
            · rw [if_neg hij, hnone _ _ _ _ _ hij]
          simp only [View.setGrid, hua, if_true]
          rw [m1, m2, hvY, hvC]
        | false =>
          have hge : (v.widened x).grid =
              View.refit v.main v.sizeX v.sizeY 0 x v.sizeY ⟨0, 1, v.defAttrMain⟩ := by
            unfold View.grid; simp only [hua]; rfl
          have m1 : (fun i j => if i < y ∧ j < x then
              View.refit v.alt v.sizeX v.sizeY 0 x v.sizeY v.blank i j else none) =
              View.refit v.alt v.sizeX v.sizeY 0 x y v.blank := by
            funext i j
            by_cases hij : i < y ∧ j < x
            · rw [if_pos hij, hzero _ _ _ _ hij.1 hij.2]
            · rw [if_neg hij, hnone _ _ _ _ _ hij]
          have m2 : (fun i j => if i < y ∧ j < x then U i j else none) =
              View.refit v.main v.sizeX v.sizeY (s.sizeY - y) x y ⟨0, 1, v.defAttrMain⟩ := by
            funext i j
            by_cases hij : i < y ∧ j < x
            · rw [if_pos hij, hup _ _ hij.1 hij.2, hge, hrow _ _ _ _ hij.1 hij.2]
            · rw [if_neg hij, hnone _ _ _ _ _ hij]
          simp only [View.setGrid, hua, Bool.false_eq_true, if_false]
          rw [m1, m2, hvY, hvC]
      · intro hh
        exact absurd (show s.sizeY ≤ y from hh) (by omega)
      · intro _
        refine ⟨u.view, _, _, hsp, ?_⟩
        rw [low_view (by omega)]
        exact ⟨rfl, rfl, rfl, rfl, rfl⟩

theorem Inv.resize {s : Screen} (h : Inv s) (x y : Nat) (hxb : x < 1073741824)
    (hyb : y < 1073741824) : ∃ r s', s.resize x y = .ok (r, s') ∧ Inv s' ∧
      (r ≠ .ok → s'.view = s.view) := by
  by_cases h0 : x = 0 ∨ y = 0
  · exact ⟨.einval, s, by unfold Screen.resize; rw [if_pos h0], h, fun _ => rfl⟩
  by_cases h1 : s.sizeX = x ∧ s.sizeY = y
  · exact ⟨.ok, s, by unfold Screen.resize; rw [if_neg h0, if_pos h1], h, fun _ => rfl⟩
  rcases resize_spec h.dim h.sb (by omega) (by omega) hxb hyb h1 with
    ⟨s', e, hp, _⟩ | ⟨s', e, hi, _⟩
  · refine ⟨_, s', e, ?_, fun _ => hp.view⟩
    have hd := hp.dim
    have hv := hp.frame
    refine ⟨⟨?_, ?_, hd.xb, hd.yb, hd.len, hd.rows, hd.wm, hd.wa, hd.tab, ?_, ?_, hd.alias⟩,
      h.sb.prepared hp, ⟨hd.cx, ?_⟩, ?_⟩ <;> rw [hv]
    · exact h.geo.x0
    · exact h.geo.y0
    · exact h.geo.mtb
    · exact h.geo.mby
    · exact h.cur.cy
    · exact h.ageb
  · exact ⟨_, s', e, hi, by simp⟩

/-- `tsm_screen_new`. -/
theorem new_spec (f : Nat → Bool) :
    (new f = .ok none ∧ ¬ ∀ k, f k = true) ∨
    ∃ s, new f = .ok (some s) ∧ Inv s ∧
      View.Resized (zero f).view s.view 80 24 (∀ k, f k = true) := by
  rcases resize_spec (zero_dim f) (zero_sbOk f) (x := 80) (y := 24) (by omega) (by omega) (by omega)
    (by omega) (by simp [zero]) with ⟨s', e, _, ho⟩ | ⟨s', e, hi, hv⟩
  · left
    refine ⟨?_, ho⟩
    unfold new; rw [e]; rfl
  · right
    refine ⟨s', ?_, hi, hv⟩
    unfold new; rw [e]; rfl

end Screen
end Verif
