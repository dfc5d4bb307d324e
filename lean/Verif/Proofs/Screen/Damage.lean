import Verif.Proofs.Screen.Shown
import Verif.Proofs.Screen.Frame

/-!
# Damage tracking

`Since d n s s'`: wherever `s'` is drawn differently from `s`, it is drawn with an age
above `n`. If `d` is set, positions beyond the end of a short scrollback line are exempt.
-/

namespace Verif
namespace Screen

variable {d : Bool}

/-- The line drawn in row `i`, for rows on the screen. -/
@[reducible] def rowL (s : Screen) (i : Nat) : Line := (s.shownRow i).getD default

/-- The cell drawn at a position. -/
@[reducible] def cellD (s : Screen) (i j : Nat) : Cell := ((s.rowL i).cells[j]?).getD s.blank

/-- The age of a position, if there was no overflow. -/
@[reducible] def rawAge (s : Screen) (i j : Nat) : Nat :=
  max (max (s.cellD i j).age (s.rowL i).age) s.age

/-- The call for a position, regardless of the age. -/
@[reducible] def look (s : Screen) (i j : Nat) : DrawCall := { s.cellCall i j with age := 0 }

/-- The position is beyond the end of its row. -/
@[reducible] def Beyond (s : Screen) (i j : Nat) : Prop := (s.rowL i).cells[j]? = none

/-- Changes are marked. -/
def Since (d : Bool) (n : Nat) (s s' : Screen) : Prop :=
  ∀ i j, i < s'.sizeY → j < s'.sizeX →
    n < s'.rawAge i j ∨ (i < s.sizeY ∧ j < s.sizeX ∧ (s'.Beyond i j ↔ s.Beyond i j) ∧
      ((d = true ∧ s'.Beyond i j) ∨ s'.look i j = s.look i j) ∧ s.rawAge i j ≤ s'.rawAge i j)

theorem Since.trans {n : Nat} {s t u : Screen} (h : Since d n s t) (h' : Since d n t u) : Since d n s u := by
  intro i j hi hj
  rcases h' i j hi hj with h2 | ⟨h0, h1, hb, h2, h3⟩
  · exact Or.inl h2
  · rcases h i j h0 h1 with h4 | ⟨h6, h7, hb', h4, h5⟩
    · exact Or.inl (by omega)
    · refine Or.inr ⟨h6, h7, hb.trans hb', ?_, by omega⟩
      rcases h2 with ⟨a, b⟩ | h2
      · exact Or.inl ⟨a, b⟩
      · rcases h4 with ⟨a, b⟩ | h4
        · exact Or.inl ⟨a, hb.mpr b⟩
        · exact Or.inr (h2.trans h4)

theorem Since.mono {n m : Nat} {s t : Screen} (h : Since d n s t) (hm : m ≤ n) : Since d m s t := by
  intro i j hi hj
  rcases h i j hi hj with h1 | h1
  · exact Or.inl (by omega)
  · exact Or.inr h1

theorem Since.refl (n : Nat) (s : Screen) : Since d n s s :=
  fun _ _ h h' => Or.inr ⟨h, h', Iff.rfl, Or.inr rfl, Nat.le_refl _⟩

theorem Since.fresh {n : Nat} {s s' : Screen} (h : n < s'.age) : Since d n s s' :=
  fun _ _ _ _ => Or.inl (by show n < max _ _; omega)

/-- What a row of the live screen does not determine. -/
structure Static (s s' : Screen) : Prop where
  sizeX : s'.sizeX = s.sizeX
  sizeY : s'.sizeY = s.sizeY
  sb : s'.sb = s.sb
  sbPos : s'.sbPos = s.sbPos
  selActive : s'.selActive = s.selActive
  selStart : s'.selStart = s.selStart
  selEnd : s'.selEnd = s.selEnd
  age : s'.age = s.age
  inv : s'.fInverse = s.fInverse

theorem Static.passed {s s' : Screen} (h : Static s s') (p : SelPos) : ∀ i,
    s'.passed p i = s.passed p i := by
  have hk : ∀ i, s'.hitRow p i = s.hitRow p i := by
    intro i
    unfold hitRow rowId rowK sbRows
    rw [h.sb, h.sbPos, h.selActive]
  intro i
  induction i with
  | zero => unfold Screen.passed; rw [h.selActive, h.sbPos]
  | succ i ih => rw [Screen.passed, Screen.passed, ih, hk, h.sizeX]

theorem Static.highlight {s s' : Screen} (h : Static s s') (i j : Nat) :
    s'.highlight i j = s.highlight i j := by
  have hk : ∀ p i, s'.hitRow p i = s.hitRow p i := by
    intro p i
    unfold hitRow rowId rowK sbRows
    rw [h.sb, h.sbPos, h.selActive]
  unfold Screen.highlight
  rw [h.selStart, h.selEnd, h.passed, h.passed, hk, hk]

/-- The cursor is drawn in row `k`, column `j` of the live screen. -/
@[reducible] def curHere (s : Screen) (k j : Nat) : Prop :=
  k = s.drawCurY ∧ j = s.drawCurX ∧ s.fHide = false

/-- The live screen changed only where it is marked. -/
def LiveOk (n : Nat) (s s' : Screen) : Prop :=
  ∀ k j, k < s.sizeY → j < s.sizeX → ∀ l c, s.lines[k]? = some l → l.cells[j]? = some c →
    ∃ l' c', s'.lines[k]? = some l' ∧ l'.cells[j]? = some c' ∧
      (n < max c'.age l'.age ∨ (c'.glyph = c.glyph ∧ c.age ≤ c'.age ∧ l.age ≤ l'.age ∧
        (s'.curHere k j ↔ s.curHere k j)))

theorem mkCall_congr {s s' : Screen} {l l' : Line} {k i j : Nat} {b : Bool}
    (hg : ((l'.cells[j]?).getD s'.blank).glyph = ((l.cells[j]?).getD s.blank).glyph)
    (hc : (k = s'.drawCurY + 1 ∧ j = s'.drawCurX ∧ s'.fHide = false) ↔
      (k = s.drawCurY + 1 ∧ j = s.drawCurX ∧ s.fHide = false)) (hi : s'.fInverse = s.fInverse) :
    { s'.mkCall l' k i j b with age := 0 } = { s.mkCall l k i j b with age := 0 } := by
  unfold mkCall
  generalize (l'.cells[j]?).getD s'.blank = c' at *
  generalize (l.cells[j]?).getD s.blank = c at *
  injection hg with h1 h2 h3
  simp only [h1, h2, h3, hi, hc]

theorem since_static {n : Nat} {s s' : Screen} (hi : Inv s) (h : Static s s')
    (hl : LiveOk n s s') (hn : n < s'.ageCnt) : Since d n s s' := by
  intro i j hiy hj
  rw [h.sizeX] at hj
  rw [h.sizeY] at hiy
  have hsb : s'.sbRows = s.sbRows := by unfold sbRows; rw [h.sb, h.sbPos]
  have hk : s'.rowK i = s.rowK i := by unfold rowK; rw [hsb]
  rcases Nat.lt_or_ge i s.sbRows with hlt | hge
  · -- a scrollback row
    have hs : s.shownRow i = some (sbFrom s.sb s.sbPos)[i] := by
      unfold shownRow
      rw [List.getElem?_append_left hlt, List.getElem?_eq_getElem hlt]
    have hs' : s'.shownRow i = some (sbFrom s.sb s.sbPos)[i] := by
      unfold shownRow
      rw [h.sb, h.sbPos, List.getElem?_append_left hlt, List.getElem?_eq_getElem hlt]
    have hr : s'.rowL i = s.rowL i := by unfold rowL; rw [hs, hs']
    have hk0 : s.rowK i = 0 := if_pos hlt
    cases hc : (s.rowL i).cells[j]? with
    | none =>
      refine Or.inl ?_
      have : (s'.cellD i j).age = s'.ageCnt := by
        unfold cellD; rw [hr, hc]; rfl
      unfold rawAge
      omega
    | some c =>
      refine Or.inr ⟨hiy, hj, by unfold Beyond; rw [hr], Or.inr ?_, ?_⟩
      · unfold look cellCall
        rw [hk, h.highlight]
        apply mkCall_congr
        · rw [show (s'.shownRow i).getD default = s.rowL i from hr,
            show (s.shownRow i).getD default = s.rowL i from rfl, hc]
          rfl
        · rw [hk0]; constructor <;> (rintro ⟨h1, _⟩; omega)
        · exact h.inv
      · unfold rawAge cellD
        rw [hr, hc, h.age]
        exact Nat.le_refl _
  · -- a live row
    have hrows : s.sizeY ≤ s.lines.length := by rw [hi.geo.linesOk.len]; exact hi.geo.rows
    have hlt : i - s.sbRows < s.sizeY := by omega
    obtain ⟨l, el, wl⟩ := hi.geo.linesOk.row hi.geo hlt
    have hjl : j < l.cells.length := by omega
    obtain ⟨l', c', el', ec', hor⟩ := hl (i - s.sbRows) j hlt hj l l.cells[j] el
      (List.getElem?_eq_getElem hjl)
    have hs : s.rowL i = l := by
      unfold rowL shownRow
      rw [List.getElem?_append_right hge]
      show (s.lines[i - s.sbRows]?).getD default = l
      rw [el]; rfl
    have hs' : s'.rowL i = l' := by
      unfold rowL shownRow
      rw [List.getElem?_append_right (by show s'.sbRows ≤ i; omega)]
      show (s'.lines[i - s'.sbRows]?).getD default = l'
      rw [hsb, el']; rfl
    have hcell : s'.cellD i j = c' := by unfold cellD; rw [hs', ec']; rfl
    have hcell0 : s.cellD i j = l.cells[j] := by
      unfold cellD; rw [hs, List.getElem?_eq_getElem hjl]; rfl
    have hk1 : s.rowK i = i - s.sbRows + 1 := if_neg (by omega)
    rcases hor with h1 | ⟨h1, h2, h3, h4⟩
    · refine Or.inl ?_
      unfold rawAge
      rw [hcell, hs']
      omega
    · refine Or.inr ⟨hiy, hj, ?_, Or.inr ?_, ?_⟩
      · unfold Beyond
        rw [hs, hs', ec', List.getElem?_eq_getElem hjl]
        exact ⟨fun e => (nomatch e), fun e => (nomatch e)⟩
      · unfold look cellCall
        rw [hk, h.highlight]
        apply mkCall_congr
        · show (s'.cellD i j).glyph = (s.cellD i j).glyph
          rw [hcell, hcell0]; exact h1
        · rw [hk1]
          unfold curHere at h4
          rw [Nat.add_right_cancel_iff, Nat.add_right_cancel_iff]
          exact h4
        · exact h.inv
      · unfold rawAge
        rw [hcell, hcell0, hs, hs', h.age]
        omega

theorem Static.refl (s : Screen) : Static s s := ⟨rfl, rfl, rfl, rfl, rfl, rfl, rfl, rfl, rfl⟩

theorem Static.trans {s t u : Screen} (h : Static s t) (h' : Static t u) : Static s u :=
  ⟨h'.sizeX.trans h.sizeX, h'.sizeY.trans h.sizeY, h'.sb.trans h.sb, h'.sbPos.trans h.sbPos,
    h'.selActive.trans h.selActive, h'.selStart.trans h.selStart, h'.selEnd.trans h.selEnd,
    h'.age.trans h.age, h'.inv.trans h.inv⟩

theorem Static.withLines (s : Screen) (ls : List Line) : Static s (s.withLines ls) := by
  refine ⟨?_, ?_, ?_, ?_, ?_, ?_, ?_, ?_, ?_⟩ <;> simp [fInverse]

theorem LiveOk.same {n : Nat} {s s' : Screen} (hl : s'.lines = s.lines)
    (hc : ∀ k j, s'.curHere k j ↔ s.curHere k j) : LiveOk n s s' := by
  intro k j _ _ l c el ec
  exact ⟨l, c, by rw [hl]; exact el, ec, Or.inr ⟨rfl, Nat.le_refl _, Nat.le_refl _, hc k j⟩⟩

theorem cursorCell_draw (s : Screen) : s.cursorCell = (s.drawCurY, s.drawCurX) := rfl

theorem marked_cell {s : Screen} {k j : Nat} {l : Line} {c : Cell} (el : s.lines[k]? = some l)
    (ec : l.cells[j]? = some c) :
    ∃ l' c', s.marked.lines[k]? = some l' ∧ l'.cells[j]? = some c' ∧ l'.age = l.age ∧
      c'.glyph = c.glyph ∧ c'.age = if k = s.drawCurY ∧ j = s.drawCurX then s.ageCnt else c.age := by
  have hl' : s.marked.lines[k]? = some (if s.drawCurY = k then
      { l with cells := l.cells.modify s.drawCurX (fun c => { c with age := s.ageCnt }) } else l) := by
    unfold Screen.marked
    rw [wl_lines, bumpAt_getElem?, el]
    rfl
  by_cases hy : s.drawCurY = k
  · rw [if_pos hy] at hl'
    have hm : (l.cells.modify s.drawCurX (fun c => { c with age := s.ageCnt }))[j]? =
        some (if s.drawCurX = j then { c with age := s.ageCnt } else c) := by
      rw [List.getElem?_modify, ec]; rfl
    refine ⟨_, _, hl', hm, rfl, ?_, ?_⟩
    · split <;> rfl
    · by_cases hx : s.drawCurX = j
      · rw [if_pos hx, if_pos ⟨hy.symm, hx.symm⟩]
      · rw [if_neg hx, if_neg (fun hh => hx hh.2.symm)]
  · rw [if_neg hy] at hl'
    exact ⟨l, c, hl', ec, rfl, rfl, by rw [if_neg (fun hh => hy hh.1.symm)]⟩

theorem marked_curHere (s : Screen) (k j : Nat) : s.marked.curHere k j ↔ s.curHere k j := by
  unfold curHere drawCurX drawCurY Screen.marked fHide
  simp

/-- A screen whose cursor cell is marked, compared to one that differs only in what
the cursor looks like there. -/
theorem LiveOk.marked {n : Nat} {s s' : Screen} (hn : n < s'.ageCnt) (hl : s'.lines = s.lines)
    (hc : ∀ k j, ¬ (k = s'.drawCurY ∧ j = s'.drawCurX) → (s'.curHere k j ↔ s.curHere k j)) :
    LiveOk n s s'.marked := by
  intro k j hk hj l c el ec
  obtain ⟨l', c', a1, a2, a3, a4, a5⟩ := marked_cell (s := s') (by rw [hl]; exact el) ec
  refine ⟨l', c', a1, a2, ?_⟩
  by_cases hh : k = s'.drawCurY ∧ j = s'.drawCurX
  · rw [if_pos hh] at a5
    exact Or.inl (by omega)
  · rw [if_neg hh] at a5
    exact Or.inr ⟨a4, by omega, by omega, (marked_curHere s' k j).trans (hc k j hh)⟩

theorem LiveOk.trans {n : Nat} {s t u : Screen} (h : LiveOk n s t) (h' : LiveOk n t u)
    (hx : t.sizeX = s.sizeX) (hy : t.sizeY = s.sizeY) : LiveOk n s u := by
  intro k j hk hj l c el ec
  obtain ⟨l1, c1, el1, ec1, h1⟩ := h k j hk hj l c el ec
  obtain ⟨l2, c2, el2, ec2, h2⟩ := h' k j (by omega) (by omega) l1 c1 el1 ec1
  refine ⟨l2, c2, el2, ec2, ?_⟩
  rcases h2 with h2 | ⟨a1, a2, a3, a4⟩
  · exact Or.inl h2
  · rcases h1 with h1 | ⟨b1, b2, b3, b4⟩
    · exact Or.inl (by omega)
    · exact Or.inr ⟨a1.trans b1, by omega, by omega, a4.trans b4⟩

/-- Moving the cursor. The cell it leaves is marked first. -/
theorem moved_ok {n : Nat} {s : Screen} (hn : n < s.ageCnt) (x y : Nat) :
    Static s (s.moved x y) ∧ LiveOk n s (s.moved x y) := by
  unfold moved
  rcases Bool.eq_false_or_eq_true s.fHide with hh | hh
  · rw [if_pos hh]
    refine ⟨⟨rfl, rfl, rfl, rfl, rfl, rfl, rfl, rfl, rfl⟩, LiveOk.same rfl ?_⟩
    intro k j
    unfold curHere
    show (_ ∧ _ ∧ s.fHide = false) ↔ _
    rw [hh]
    simp
  · rw [if_neg (by rw [hh]; simp)]
    split
    · exact ⟨Static.refl s, LiveOk.same rfl (fun _ _ => Iff.rfl)⟩
    · constructor
      · have h1 : Static s s.marked := Static.withLines s _
        have h2 : Static s.marked { s.marked with cursorX := x, cursorY := y } :=
          ⟨rfl, rfl, rfl, rfl, rfl, rfl, rfl, rfl, rfl⟩
        exact (h1.trans h2).trans (Static.withLines _ _)
      · -- positions: old cursor, new cursor, others
        intro k j hk hj l c el ec
        have hac : s.marked.ageCnt = s.ageCnt := by unfold Screen.marked; simp
        obtain ⟨l1, c1, a1, a2, a3, a4, a5⟩ := marked_cell el ec
        obtain ⟨l2, c2, b1, b2, b3, b4, b5⟩ := marked_cell
          (s := { s.marked with cursorX := x, cursorY := y }) (k := k) a1 a2
        refine ⟨l2, c2, b1, b2, ?_⟩
        change c2.age = (if _ then s.marked.ageCnt else c1.age) at b5
        rw [hac] at b5
        split at b5
        · exact Or.inl (by omega)
        · rename_i hnew
          split at a5
          · exact Or.inl (by omega)
          · rename_i hold
            refine Or.inr ⟨b4.trans a4, by omega, by omega, (marked_curHere _ k j).trans ?_⟩
            exact ⟨fun hh => absurd ⟨hh.1, hh.2.1⟩ hnew, fun hh => absurd ⟨hh.1, hh.2.1⟩ hold⟩

/-! ### Single calls -/

/-- The age counter and the changes of one call, unless the counter overflowed. -/
structure Mono (d : Bool) (s s' : Screen) : Prop where
  sticky : s.ageReset = true → s'.ageReset = true
  grow : s'.ageReset = false → s.ageCnt ≤ s'.ageCnt ∧ Since d s.ageCnt s s'

theorem Mono.trans {s t u : Screen} (h : Mono d s t) (h' : Mono d t u) : Mono d s u := by
  refine ⟨fun e => h'.sticky (h.sticky e), ?_⟩
  intro e
  have ht : t.ageReset = false := by
    cases hr : t.ageReset with
    | false => rfl
    | true => rw [h'.sticky hr] at e; cases e
  obtain ⟨a1, a2⟩ := h.grow ht
  obtain ⟨b1, b2⟩ := h'.grow e
  exact ⟨by omega, a2.trans (b2.mono a1)⟩

theorem Mono.refl (s : Screen) : Mono d s s := ⟨id, fun _ => ⟨Nat.le_refl _, Since.refl _ s⟩⟩

theorem incAge_cases (s : Screen) :
    (s.incAge.ageReset = true) ∨
    (s.incAge.ageReset = s.ageReset ∧ s.incAge.ageCnt = s.ageCnt + 1) ∨ 18446744073709551616 ≤ s.ageCnt := by
  unfold incAge
  dsimp only
  split
  · exact Or.inl rfl
  · rename_i hc
    rcases Nat.lt_or_ge s.ageCnt 18446744073709551616 with h1 | h1
    · refine Or.inr (Or.inl ⟨rfl, ?_⟩)
      show (s.ageCnt + 1) % 18446744073709551616 = _
      omega
    · exact Or.inr (Or.inr h1)

/-- A call that increments the age counter once. -/
theorem Mono.of {s s' : Screen} (hi : Inv s) (hr : s'.ageReset = s.incAge.ageReset)
    (hc : s'.ageCnt = s.incAge.ageCnt)
    (h : ∀ n, n < s'.ageCnt → n = s.ageCnt → Since d n s s') : Mono d s s' := by
  have hsticky : s.ageReset = true → s.incAge.ageReset = true := by
    intro e
    unfold incAge
    dsimp only
    split
    · rfl
    · exact e
  refine ⟨fun e => by rw [hr]; exact hsticky e, ?_⟩
  intro e
  rw [hr] at e
  rcases incAge_cases s with h1 | ⟨_, h1⟩ | h1
  · rw [h1] at e; cases e
  · exact ⟨by omega, h _ (by omega) rfl⟩
  · have := hi.ageb; omega

theorem Static.incAge (s : Screen) : Static s s.incAge := by
  rw [incAge_eq]; exact ⟨rfl, rfl, rfl, rfl, rfl, rfl, rfl, rfl, rfl⟩

theorem lines_incAge (s : Screen) : s.incAge.lines = s.lines := by rw [incAge_eq]; rfl

theorem curHere_incAge (s : Screen) (k j : Nat) : s.incAge.curHere k j ↔ s.curHere k j := by
  rw [incAge_eq]; exact Iff.rfl

theorem LiveOk.incAge (n : Nat) (s : Screen) : LiveOk n s s.incAge :=
  LiveOk.same (lines_incAge s) (curHere_incAge s)

theorem Effect.mono {s s' : Screen} (he : Effect s s') (hi : Inv s) : Mono d s s' := by
  induction he with
  | fresh hf =>
    refine Mono.of hi hf.2.2 hf.2.1 ?_
    intro n hn _
    exact Since.fresh (by rw [hf.1]; exact hn)
  | moved s x y =>
    refine Mono.of hi (by simp) (by simp) ?_
    intro n hn _
    have hn' : n < s.incAge.ageCnt := by simpa using hn
    obtain ⟨h1, h2⟩ := moved_ok hn' x y
    exact since_static hi ((Static.incAge s).trans h1)
      ((LiveOk.incAge n s).trans h2 (by simp) (by simp)) hn
  | quiet s t b r =>
    refine ⟨id, fun _ => ⟨Nat.le_refl _, ?_⟩⟩
    intro i j h h'
    refine Or.inr ⟨h, h', Iff.rfl, Or.inr ?_, Nat.le_refl _⟩
    have hst : Static s { s with marginTop := t, marginBottom := b, tabRuler := r } :=
      ⟨rfl, rfl, rfl, rfl, rfl, rfl, rfl, rfl, rfl⟩
    unfold look cellCall
    rw [hst.highlight]
    rfl
  | tick s =>
    refine Mono.of hi rfl rfl ?_
    intro n hn _
    exact since_static hi (Static.incAge s) (LiveOk.incAge n s) hn
  | seq h1 hi2 h2 ih1 ih2 => exact (ih1 hi).trans (ih2 hi2)

theorem switched_mono {s : Screen} (h : Inv s) {f g : BitVec 32} {b mark flip : Bool}
    (hm : mark = false → f.getLsbD 4 = s.fHide) (hf : flip = false → f.getLsbD 3 = s.fInverse)
    (hg : g = f) :
    Mono d s (let t := s.switched g b
        let u := if mark = true then t.marked else t
        if flip = true then u.touch else u) := by
  subst hg
  dsimp only
  have hcnt : ∀ u : Screen, (u = (s.switched g b).marked ∨ u = s.switched g b) →
      u.ageCnt = s.incAge.ageCnt ∧ u.ageReset = s.incAge.ageReset ∧
      u.age = (s.switched g b).age := by
    rintro u (rfl | rfl)
    · unfold Screen.marked
      simp only [wl_ageCnt, wl_ageReset, wl_age]
      exact ⟨rfl, rfl, trivial⟩
    · exact ⟨rfl, rfl, rfl⟩
  generalize hu : (if mark = true then (s.switched g b).marked else s.switched g b) = u
  have huu : u = (s.switched g b).marked ∨ u = s.switched g b := by
    rw [← hu]; split
    · exact Or.inl rfl
    · exact Or.inr rfl
  obtain ⟨c1, c2, c3⟩ := hcnt u huu
  by_cases hfl : flip = true
  · rw [if_pos hfl]
    refine Mono.of h c2 c1 ?_
    intro n hn _
    exact Since.fresh hn
  · rw [if_neg hfl]
    refine Mono.of h c2 c1 ?_
    intro n hn _
    by_cases hb : s.useAlt = b
    · have hst : Static s (s.switched g b) := by
        have h0 := Static.incAge s
        refine ⟨h0.sizeX, h0.sizeY, h0.sb, h0.sbPos, h0.selActive, h0.selStart, h0.selEnd, ?_, ?_⟩
        · show (if s.useAlt = b then s.age else _) = _
          rw [if_pos hb]
        · exact hf (by simpa using hfl)
      have hlines : (s.switched g b).lines = s.lines := by
        rw [← lines_incAge s]
        unfold Screen.lines
        show (if b = true then _ else _) = (if s.incAge.useAlt = true then _ else _)
        rw [← hb, ia_useAlt]
        rfl
      have hcy : (s.switched g b).drawCurY = s.drawCurY := by
        show s.incAge.drawCurY = _
        rw [incAge_eq]; rfl
      have hcx : (s.switched g b).drawCurX = s.drawCurX := by
        show s.incAge.drawCurX = _
        rw [incAge_eq]; rfl
      by_cases hma : mark = true
      · rw [if_pos hma] at hu
        rw [← hu] at hn ⊢
        have hn' : n < (s.switched g b).ageCnt := by
          unfold Screen.marked at hn
          simpa using hn
        refine since_static h (hst.trans (Static.withLines _ _)) ?_ hn
        apply LiveOk.marked hn' hlines
        intro k j hne
        constructor
        · intro hh; exact absurd ⟨hh.1, hh.2.1⟩ hne
        · intro hh
          refine absurd ⟨?_, ?_⟩ hne
          · rw [hcy]; exact hh.1
          · rw [hcx]; exact hh.2.1
      · rw [if_neg hma] at hu
        rw [← hu] at hn ⊢
        refine since_static h hst (LiveOk.same hlines ?_) hn
        intro k j
        unfold curHere
        rw [hcy, hcx, show (s.switched g b).fHide = s.fHide from hm (by simpa using hma)]
    · have : u.age = s.incAge.ageCnt := by
        rw [c3]
        show (if s.useAlt = b then s.age else _) = _
        rw [if_neg hb]
      exact Since.fresh (by rw [this, ← c1]; exact hn)

theorem setFlags_mono {s s' : Screen} (h : Inv s) {f : BitVec 32} (e : s.setFlags f = .ok s') :
    Mono d s s' := by
  by_cases h0 : f = 0#32
  · unfold setFlags at e
    rw [if_pos h0] at e
    injection e with e
    subst e
    exact Mono.refl s
  · obtain ⟨t, e', _, _, ht⟩ := setFlags_spec h h0
    rw [e] at e'
    injection e' with e'
    subst e'
    rw [ht]
    refine switched_mono h ?_ ?_ rfl
    · intro hm
      rw [BitVec.getLsbD_or]
      show (s.fHide || f.getLsbD 4) = s.fHide
      revert hm
      cases s.fHide <;> cases f.getLsbD 4 <;> simp
    · intro hm
      rw [BitVec.getLsbD_or]
      show (s.fInverse || f.getLsbD 3) = s.fInverse
      revert hm
      cases s.fInverse <;> cases f.getLsbD 3 <;> simp

theorem resetFlags_mono {s s' : Screen} (h : Inv s) {f : BitVec 32} (e : s.resetFlags f = .ok s') :
    Mono d s s' := by
  by_cases h0 : f = 0#32
  · unfold resetFlags at e
    rw [if_pos h0] at e
    injection e with e
    subst e
    exact Mono.refl s
  · obtain ⟨t, e', _, _, ht⟩ := resetFlags_spec h h0
    rw [e] at e'
    injection e' with e'
    subst e'
    rw [ht]
    refine switched_mono h ?_ ?_ rfl
    · intro hm
      rw [BitVec.getLsbD_and, BitVec.getLsbD_not]
      show (s.fHide && _) = s.fHide
      revert hm
      cases s.fHide <;> cases f.getLsbD 4 <;> simp
    · intro hm
      rw [BitVec.getLsbD_and, BitVec.getLsbD_not]
      show (s.fInverse && _) = s.fInverse
      revert hm
      cases s.fInverse <;> cases f.getLsbD 3 <;> simp

/-- Writing to one row of a screen with the cursor in place, then moving the cursor. -/
theorem put_mono {s s' t : Screen} (h : Inv s) (hp : Positioned s t) {l' : Line} {x y : Nat}
    (e' : s' = (t.withLines (t.lines.set s.view.writeRow l')).moved x y)
    (hput : ∀ n, n < t.ageCnt → LiveOk n t (t.withLines (t.lines.set s.view.writeRow l'))) :
    Mono d s s' := by
  have hcnt : s'.ageCnt = s.incAge.ageCnt := by rw [e']; simp; exact hp.ageCnt
  have hres : s'.ageReset = s.incAge.ageReset := by rw [e']; simp; exact hp.ageReset
  refine Mono.of h hres hcnt ?_
  intro n hn _
  have hnt : n < t.ageCnt := by rw [hp.ageCnt, ← hcnt]; exact hn
  by_cases hs : s.view.writeScrolls
  · obtain ⟨hage, _⟩ := hp.scroll hs
    refine Since.fresh ?_
    rw [e']
    simp only [mv_age, wl_age]
    omega
  · have hst1 : Static s t ∧ LiveOk n s t := by
      obtain ⟨x, y, ht | ht⟩ := hp.still hs
      · rw [ht]
        have hn' : n < s.incAge.ageCnt := by rw [← hcnt]; exact hn
        obtain ⟨h1, h2⟩ := moved_ok hn' x y
        exact ⟨(Static.incAge s).trans h1, (LiveOk.incAge n s).trans h2 (by simp) (by simp)⟩
      · rw [ht]; exact ⟨Static.incAge s, LiveOk.incAge n s⟩
    have hnp : n < (t.withLines (t.lines.set s.view.writeRow l')).ageCnt := by simpa using hnt
    obtain ⟨h3, h4⟩ := moved_ok hnp x y
    rw [e'] at hn ⊢
    refine since_static h ((hst1.1.trans (Static.withLines _ _)).trans h3) ?_ hn
    exact (hst1.2.trans (hput n hnt) hst1.1.sizeX hst1.1.sizeY).trans h4 (by simpa using hst1.1.sizeX)
      (by simpa using hst1.1.sizeY)

theorem write_mono {s s' : Screen} (h : Inv s) {ch : Nat} {a : Attr}
    (e : s.write ch a = .ok s') : Mono d s s' := by
  obtain ⟨len, el, hl⟩ := symWidth_ok ch
  unfold write at e
  rw [el] at e
  change (if len = 0 then .ok s else s.writeW ch len a) = _ at e
  by_cases h0 : len = 0
  · rw [if_pos h0] at e
    injection e with e
    subst e
    exact Mono.refl s
  rw [if_neg h0] at e
  by_cases hh : s.fInsert = true ∧ s.sizeX < len
  · rcases writeW_unsafe h (ch := ch) (attr := a) (by omega) hl hh.1 hh.2 with
      h1 | ⟨u, h1, _, t, l, l', x, hp, hrow, hlen, hage, h2⟩
    · rw [h1] at e; cases e
    · rw [h1] at e
      injection e with e
      subst e
      refine put_mono h hp h2 ?_
      intro n hnt k j hk hj m c em ec
      have hjl : j < m.cells.length := by
        rcases Nat.lt_or_ge j m.cells.length with h4 | h4
        · exact h4
        · rw [List.getElem?_eq_none h4] at ec; cases ec
      by_cases hky : k = s.view.writeRow
      · subst hky
        rw [hrow] at em
        injection em with em
        subst em
        have hlt : s.view.writeRow < t.lines.length := by
          rcases Nat.lt_or_ge s.view.writeRow t.lines.length with h1 | h1
          · exact h1
          · rw [List.getElem?_eq_none h1] at hrow; cases hrow
        refine ⟨l', _, ?_, List.getElem?_eq_getElem (by omega), Or.inl (by rw [hage]; omega)⟩
        rw [wl_lines, List.getElem?_set_self hlt]
      · refine ⟨m, c, ?_, ec, Or.inr ⟨rfl, Nat.le_refl _, Nat.le_refl _, ?_⟩⟩
        · rw [wl_lines, List.getElem?_set_ne (fun hh => hky hh.symm)]; exact em
        · unfold curHere drawCurX drawCurY fHide
          simp
  have hins : s.fInsert = true → len ≤ s.sizeX := fun hi => Nat.le_of_not_lt (fun hlt => hh ⟨hi, hlt⟩)
  obtain ⟨t, l, l', hp, hrow, hw, hgeo, e'⟩ := writeW_steps (ch := ch) (attr := a) h (by omega) hl hins
  rw [e] at e'
  injection e' with e'
  have hlt : s.view.writeRow < t.lines.length := by
    rcases Nat.lt_or_ge s.view.writeRow t.lines.length with h1 | h1
    · exact h1
    · rw [List.getElem?_eq_none h1] at hrow; cases hrow
  refine put_mono h hp e' ?_
  intro n hnt k j hk hj m c em ec
  have hX : t.sizeX = s.sizeX := hp.size.1
  by_cases hky : k = s.view.writeRow
  · subst hky
    rw [hrow] at em
    injection em with em
    subst em
    have hl1 : (t.withLines (t.lines.set s.view.writeRow l')).lines[s.view.writeRow]? = some l' := by
      rw [wl_lines, List.getElem?_set_self hlt]
    have hcell := hw.cell j
    by_cases h1 : j = s.view.writeCol
    · rw [if_pos h1] at hcell
      exact ⟨l', _, hl1, hcell, Or.inl (by show n < max t.ageCnt _; omega)⟩
    · rw [if_neg h1] at hcell
      by_cases h2 : s.view.writeCol < j ∧ j < s.view.writeCol + len ∧ j < t.sizeX
      · rw [if_pos h2, ec] at hcell
        exact ⟨l', _, hl1, hcell, Or.inl (by show n < max t.ageCnt _; omega)⟩
      · rw [if_neg h2] at hcell
        by_cases h3 : t.fInsert = true ∧ s.view.writeCol + len ≤ j ∧ j < t.sizeX
        · have hage : l'.age = t.ageCnt := by
            rw [hw.age, if_pos ⟨h3.1, by omega⟩]
          rw [if_pos h3] at hcell
          have hjl : j < l.cells.length := by
            rcases Nat.lt_or_ge j l.cells.length with h4 | h4
            · exact h4
            · rw [List.getElem?_eq_none h4] at ec; cases ec
          rw [List.getElem?_eq_getElem (show j - len < l.cells.length by omega)] at hcell
          exact ⟨l', _, hl1, hcell, Or.inl (by rw [hage]; omega)⟩
        · rw [if_neg h3, ec] at hcell
          refine ⟨l', c, hl1, hcell, ?_⟩
          by_cases h5 : t.fInsert = true ∧ s.view.writeCol + len < t.sizeX
          · exact Or.inl (by rw [hw.age, if_pos h5]; omega)
          · refine Or.inr ⟨rfl, Nat.le_refl _, by rw [hw.age, if_neg h5]; exact Nat.le_refl _, ?_⟩
            unfold curHere drawCurX drawCurY fHide
            simp
  · refine ⟨m, c, ?_, ec, Or.inr ⟨rfl, Nat.le_refl _, Nat.le_refl _, ?_⟩⟩
    · rw [wl_lines, List.getElem?_set_ne (fun hh => hky hh.symm)]; exact em
    · unfold curHere drawCurX drawCurY fHide
      simp

/-- Changing the default attributes changes only what is beyond the end of rows. -/
theorem setDefAttr_mono (s : Screen) (a : Attr) : Mono true s (s.setDefAttr a) := by
  refine ⟨id, fun _ => ⟨Nat.le_refl _, ?_⟩⟩
  intro i j hi hj
  have hr : (s.setDefAttr a).rowL i = s.rowL i := rfl
  by_cases hb : s.Beyond i j
  · refine Or.inr ⟨hi, hj, Iff.rfl, Or.inl ⟨rfl, hb⟩, ?_⟩
    have e1 : (s.cellD i j).age = s.ageCnt := by
      unfold cellD
      rw [show (s.rowL i).cells[j]? = none from hb]
      rfl
    have e2 : ((s.setDefAttr a).cellD i j).age = s.ageCnt := by
      unfold cellD
      rw [hr, show (s.rowL i).cells[j]? = none from hb]
      rfl
    unfold rawAge
    rw [e1, e2]
    exact Nat.le_refl _
  · have hc : (s.setDefAttr a).cellD i j = s.cellD i j := by
      unfold cellD
      rw [hr]
      cases h : (s.rowL i).cells[j]? with
      | none => exact absurd h hb
      | some c => rfl
    have hs : Static s (s.setDefAttr a) := ⟨rfl, rfl, rfl, rfl, rfl, rfl, rfl, rfl, rfl⟩
    refine Or.inr ⟨hi, hj, Iff.rfl, Or.inr ?_, ?_⟩
    · unfold look cellCall
      rw [hs.highlight]
      apply mkCall_congr
      · exact congrArg Cell.glyph hc
      · exact Iff.rfl
      · rfl
    · unfold rawAge
      rw [hc]
      exact Nat.le_refl _

/-- Calls with damage tracking; that of `set_def_attr` is incomplete. -/
def Call.tracked (d : Bool) : Call → Bool
  | .resize .. | .draw => false
  | .setDefAttr .. => d
  | _ => true

theorem step_mono {s s' : Screen} (h : Inv s) {c : Call} (hv : c.Valid) (ht : c.tracked d = true)
    (e : c.run s = .ok s') : Mono d s s' := by
  rcases Bool.eq_false_or_eq_true c.special with hs | hs
  · cases c with
    | setFlags f => exact setFlags_mono h e
    | resetFlags f => exact resetFlags_mono h e
    | write ch a => exact write_mono h e
    | resize x y => exact Bool.noConfusion ht
    | setDefAttr a =>
      change d = true at ht
      subst ht
      change Except.ok (s.setDefAttr a) = _ at e
      injection e with e
      subst e
      exact setDefAttr_mono s a
    | draw => exact Bool.noConfusion ht
    | _ => exact Bool.noConfusion hs
  · by_cases hz : c.Hazard s
    · cases c with
      | tabLeft n =>
        change s.tabLeft n = _ at e
        unfold tabLeft at e
        by_cases hn : n = 0
        · rw [if_pos hn] at e
          injection e with e
          subst e
          exact Mono.refl s
        · rw [if_neg hn] at e
          change (do
            let x ← tabLeftLoop s.incAge.tabRuler n s.incAge.cursorX
            s.incAge.moveCursor x s.incAge.cursorY : R Screen) = _ at e
          cases ht : tabLeftLoop s.incAge.tabRuler n s.incAge.cursorX with
          | error k => rw [ht] at e; cases e
          | ok x =>
            rw [ht] at e
            change s.incAge.moveCursor x s.incAge.cursorY = _ at e
            rw [moveCursor_ok h.incAge.geo] at e
            injection e with e
            subst e
            exact (Effect.moved _ _ _).mono h
      | write ch a => exact Bool.noConfusion hs
      | _ => exact False.elim hz
    obtain ⟨t, e', _, he⟩ := step_plain h hv hz hs
    rw [e] at e'
    injection e' with e'
    subst e'
    exact he.mono h

theorem runAll_mono {cs : List Call} : ∀ {s s' : Screen}, Reachable s → (∀ c ∈ cs, c.Valid) →
    (∀ c ∈ cs, c.tracked d = true) → Screen.runAll cs s = .ok s' → Mono d s s' := by
  induction cs with
  | nil => intro s s' _ _ _ e; injection e with e; rw [← e]; exact Mono.refl s
  | cons c cs ih =>
    intro s s' h hv ht e
    change (do let s ← c.run s; Screen.runAll cs s : R Screen) = _ at e
    cases hd : c.run s with
    | error k => rw [hd] at e; cases e
    | ok t =>
      rw [hd] at e
      exact (step_mono h.inv (hv c (List.mem_cons_self ..)) (ht c (List.mem_cons_self ..)) hd).trans
        (ih (h.step (hv c (List.mem_cons_self ..)) hd)
          (fun c hc => hv c (List.mem_cons_of_mem _ hc))
          (fun c hc => ht c (List.mem_cons_of_mem _ hc)) e)

end Screen
end Verif
