import Verif.Proofs.Screen.Move

/-!
# Writing characters
-/

namespace Verif
namespace Screen

/-! ### `ScrolledUp` implies the specification -/

theorem stamp_row (base : Nat) (ls : List Line) :
    (stamp base ls).map Line.row = View.number base (ls.map (fun l => l.cells.map Cell.glyph)) := by
  apply List.ext_getElem?
  intro i
  unfold stamp View.number
  simp only [List.getElem?_map, List.getElem?_mapIdx]
  cases ls[i]? <;> rfl

theorem lastN_map {α β : Type} (f : α → β) (n : Nat) (l : List α) :
    (lastN n l).map f = lastN n (l.map f) := by
  unfold lastN; simp [List.map_drop]

theorem ids_row (sb : List Line) : (sb.map Line.row).map Prod.fst = sb.map Line.sbId := by
  simp [List.map_map, Function.comp_def]

theorem follow_eq (sb : List Line) (n : Nat) (p : SelPos) :
    scrollSel sb n (dropStale sb p) = View.follow (ids sb) n p := by
  unfold View.follow dropStale
  cases hl : p.line with
  | some q =>
    dsimp only
    split
    · rw [scrollSel_id (by rw [hl]; simp)]
    · rw [scrollSel_id (by dsimp only; omega)]
  | none =>
    dsimp only
    by_cases h0 : p.y < 0
    · rw [if_pos h0, scrollSel_id (by omega)]
    · rw [if_neg h0]
      unfold scrollSel
      rw [if_pos ⟨hl, by omega⟩]
      dsimp only
      by_cases h1 : (n : Int) ≤ p.y
      · rw [if_pos h1, if_neg (by omega), hl]
      · rw [if_neg h1, if_pos (by omega)]
        unfold ids
        rw [← List.map_reverse, List.getElem?_map]
        congr 4
        omega

theorem ScrolledUp.spec {s s' : Screen} {num : Nat} {kept : List Line} (h : ScrolledUp s s' num kept)
    (hg : Geo s) (hn : num ≤ s.marginBottom + 1 - s.marginTop) :
    View.ScrollUp s.view s'.view num (∀ k, s.allocOk k = true)
      ((Screen.topRows s 0 num).map (fun l => l.cells.map Cell.glyph))
      (kept.map (fun l => l.cells.map Cell.glyph)) where
  eq := h.view hg
  len := by
    have := hg.linesOk.len; have := hg.rows; have := hg.mby
    simp only [Screen.topRows, List.length_map, List.length_take, List.length_drop]
    omega
  row := by
    intro k j hk hj
    have := hg.mby
    show _ = s.view.grid (s.marginTop + k) j
    rw [grid_apply, if_pos ⟨by omega, hj⟩]
    unfold Screen.topRows cellAt
    rw [List.getElem?_map, List.getElem?_take, if_pos hk, List.getElem?_drop, Nat.add_zero]
    cases s.lines[s.marginTop + k]? with
    | none => rfl
    | some l => simp
  sub := h.sub.map _
  alt := by
    intro ha
    rw [h.alt (hg.alias ▸ ha)]; rfl
  full := by
    intro ha hm
    rw [h.full (by rw [← hg.alias]; exact ha) hm]
  sb := by
    show s'.sb.map Line.row = _
    rw [h.push.sb, lastN_map, List.map_append, stamp_row]
    rfl
  last := by
    show s'.sbLastId = _
    rw [h.push.last]; simp; rfl
  live := h.push.posN
  scrolled := by
    intro k p hp hk hf
    have := h.push.posNF k p hp (by
      have : ((s.sb.map Line.row)[k]?).map Prod.fst = some p := hk
      rw [← List.getElem?_map, ids_row, List.getElem?_map] at this
      exact this) hf
    show s'.sbPos = ((s'.sb.map Line.row)[k]?).map Prod.fst
    rw [this, ← List.getElem?_map, ← List.getElem?_map, ids_row]
  fixed := by
    intro p hp hf
    have := h.push.posFX p hp hf
    show s'.sbPos = if p ∈ (s'.sb.map Line.row).map Prod.fst then some p
      else (s'.sb.map Line.row).head?.map Prod.fst
    rw [this, ids_row]
    unfold ids
    rw [List.head?_map, Option.map_map]
    rfl
  sel := by
    intro ha hm
    have ha' : s.fAlt = false := by rw [← hg.alias]; exact ha
    have hids : s'.view.sb.map Prod.fst = ids s'.sb := ids_row s'.sb
    rw [hids]
    refine ⟨?_, ?_⟩
    · show s'.selStart = _
      rw [h.selS ha' hm, follow_eq]; rfl
    · show s'.selEnd = _
      rw [h.selE ha' hm, follow_eq]; rfl

/-- Scrolling does not look at the cursor. -/
theorem _root_.Verif.View.ScrollUp.cursor {v v' : View} {n x y : Nat} {mem : Prop}
    {rows kept : List (List Glyph)}
    (h : View.ScrollUp { v with cursorX := x, cursorY := y } v' n mem rows kept) :
    View.ScrollUp v { v' with cursorX := v.cursorX, cursorY := v.cursorY } n mem rows kept where
  eq := by
    have := h.eq
    rw [this]
    unfold View.setGrid View.rowsUp View.grid
    cases v.useAlt
    · rfl
    · rfl
  len := h.len
  row := h.row
  sub := h.sub
  alt := h.alt
  full := h.full
  sb := h.sb
  last := h.last
  live := h.live
  scrolled := h.scrolled
  fixed := h.fixed
  sel := h.sel

/-! ### `screen_write` -/

theorem insertShift_spec {s : Screen} {l : Line} (hw : s.sizeX ≤ l.cells.length)
    (hxb : s.sizeX < 1073741824) {x len : Nat} (hl : len ≤ 2) (hx : x < s.sizeX)
    (hi : s.fInsert = true → len ≤ s.sizeX) :
    ∃ l', s.insertShift l x len = .ok l' ∧ l'.cells.length = l.cells.length ∧ l'.sbId = l.sbId ∧
      l'.age = (if s.fInsert = true ∧ x + len < s.sizeX then s.ageCnt else l.age) ∧
      ∀ j, l'.cells[j]? = if s.fInsert = true ∧ x + len ≤ j ∧ j < s.sizeX then l.cells[j - len]?
        else l.cells[j]? := by
  unfold insertShift
  by_cases hf : s.fInsert = true
  · have e1 : sub32 s.sizeX len = s.sizeX - len := by have := hi hf; unfold sub32; omega
    by_cases hlt : x < s.sizeX - len
    · rw [if_pos ⟨hf, by omega⟩, e1]
      have e2 : sub32 (s.sizeX - len) x = s.sizeX - len - x := by unfold sub32; omega
      rw [e2]
      obtain ⟨c', e', h1, h2⟩ := memmove_ok (k := .insertMove) (l := l.cells) (dst := x + len)
        (src := x) (n := s.sizeX - len - x) (by omega) (by omega)
      rw [e']
      refine ⟨_, rfl, h1, rfl, ?_, ?_⟩
      · rw [if_pos ⟨hf, by omega⟩]
      · intro j
        simp only
        rw [h2]
        by_cases hj : x + len ≤ j ∧ j < s.sizeX
        · rw [if_pos (by omega), if_pos ⟨hf, hj⟩]; congr 1; omega
        · rw [if_neg (by omega), if_neg (fun h => hj h.2)]
    · rw [if_neg (fun h => hlt (by rw [← e1]; exact h.2))]
      refine ⟨l, rfl, rfl, rfl, ?_, ?_⟩
      · rw [if_neg (by omega)]
      · intro j; rw [if_neg (by omega)]
  · rw [if_neg (fun h => hf h.1)]
    refine ⟨l, rfl, rfl, rfl, ?_, ?_⟩
    · rw [if_neg (fun h => hf h.1)]
    · intro j; rw [if_neg (fun h => hf h.1)]

/-- `screen_write` at a visible position. -/
structure Wrote (s : Screen) (l l' : Line) (x len : Nat) (new : Cell) : Prop where
  size : l'.cells.length = l.cells.length
  id : l'.sbId = l.sbId
  age : l'.age = if s.fInsert = true ∧ x + len < s.sizeX then s.ageCnt else l.age
  cell : ∀ j, l'.cells[j]? =
    if j = x then some new
    else if x < j ∧ j < x + len ∧ j < s.sizeX then
      (l.cells[j]?).map (fun c => { c with age := s.ageCnt, width := 0 })
    else if s.fInsert = true ∧ x + len ≤ j ∧ j < s.sizeX then l.cells[j - len]?
    else l.cells[j]?

theorem writeAt_spec {s : Screen} (hg : Geo s) {x y ch len : Nat} {attr : Attr}
    (h0 : 0 < len) (hl : len ≤ 2) (hx : x < s.sizeX) (hy : y < s.sizeY)
    (hi : s.fInsert = true → len ≤ s.sizeX) :
    ∃ l l', s.lines[y]? = some l ∧ Wrote s l l' x len ⟨ch, len, attr, s.ageCnt⟩ ∧
      s.writeAt x y ch len attr = .ok (s.withLines (s.lines.set y l')) := by
  obtain ⟨l, el, wl⟩ := hg.linesOk.row hg hy
  obtain ⟨l1, e1, a1, a2, a3, a4⟩ := insertShift_spec wl hg.xb hl hx hi
  obtain ⟨c2, e2, b1, b2⟩ := updCells_ok (cells := l1.cells) (lo := x) (hi := x + 1)
    (f := fun _ => { ch := ch, width := len, attr := attr, age := s.ageCnt }) (Or.inr (by omega))
  obtain ⟨c3, e3, d1, d2⟩ := updCells_ok (cells := c2) (lo := x + 1) (hi := min (x + len) s.sizeX)
    (f := fun c => { c with age := s.ageCnt, width := 0 }) (Or.inr (by omega))
  refine ⟨l, { l1 with cells := c3 }, el, ⟨by simp only; omega, a2, a3, ?_⟩, ?_⟩
  · intro j
    simp only
    rw [d2, b2, a4]
    by_cases h1 : j = x
    · rw [if_pos h1, if_neg (by omega)]
      subst h1
      rw [List.getElem?_eq_getElem (show j < l.cells.length by omega)]
      have n1 : j ≤ j ∧ j < j + 1 := by omega
      have n2 : ¬ (j + 1 ≤ j ∧ j < min (j + len) s.sizeX) := by omega
      simp only [Option.map_some, if_pos n1, if_neg n2]
    · rw [if_neg h1]
      by_cases h2 : x < j ∧ j < x + len ∧ j < s.sizeX
      · rw [if_pos h2, if_neg (by omega), List.getElem?_eq_getElem (show j < l.cells.length by omega)]
        have n1 : ¬ (x ≤ j ∧ j < x + 1) := by omega
        have n2 : x + 1 ≤ j ∧ j < min (x + len) s.sizeX := by omega
        simp only [Option.map_some, if_neg n1, if_pos n2]
      · rw [if_neg h2]
        have n1 : ¬ (x ≤ j ∧ j < x + 1) := by omega
        have n2 : ¬ (x + 1 ≤ j ∧ j < min (x + len) s.sizeX) := by omega
        have idm : ∀ o : Option Cell, Option.map (fun c : Cell => c) o = o := fun o => by cases o <;> rfl
        simp only [if_neg n1, if_neg n2, idm]
  · unfold writeAt
    rw [if_neg (by omega), if_neg (by omega), el]
    dsimp only
    rw [e1]
    show (do
      let cells ← updCells l1.cells x (x + 1)
        (fun _ => { ch := ch, width := len, attr := attr, age := s.ageCnt })
      let cells ← updCells cells (x + 1) (min (x + len) s.sizeX)
        (fun c => { c with age := s.ageCnt, width := 0 })
      return s.withLines (s.lines.set y { l1 with cells := cells }) : R Screen) = _
    rw [e2]
    show (do
      let cells ← updCells c2 (x + 1) (min (x + len) s.sizeX)
        (fun c => { c with age := s.ageCnt, width := 0 })
      return s.withLines (s.lines.set y { l1 with cells := cells }) : R Screen) = _
    rw [e3]
    rfl

theorem Wrote.view {s : Screen} (hg : Geo s) {l l' : Line} {x y ch len : Nat} {attr : Attr}
    (el : s.lines[y]? = some l) (h : Wrote s l l' x len ⟨ch, len, attr, s.ageCnt⟩)
    (hx : x < s.sizeX) (hy : y < s.sizeY) :
    (s.withLines (s.lines.set y l')).view =
      s.view.setGrid (s.view.put y x len s.fInsert ⟨ch, len, attr⟩) := by
  have hlt : y < s.lines.length := by rw [hg.linesOk.len]; have := hg.rows; omega
  have hrow : ∀ j, cellAt s.lines y j = l.cells[j]? := by intro j; unfold cellAt; rw [el]; rfl
  apply view_withLines'
  · intro i j hi hj
    rw [cellAt_set hlt]
    unfold View.put
    by_cases hiy : i = y
    · subst hiy
      rw [if_pos rfl, if_pos (⟨rfl, hj⟩ : i = i ∧ j < s.view.sizeX), h.cell]
      by_cases h1 : j = x
      · rw [if_pos h1, if_neg (by omega), if_pos h1]; rfl
      · rw [if_neg h1]
        by_cases h2 : x < j ∧ j < x + len ∧ j < s.sizeX
        · rw [if_pos h2, if_neg (show ¬ j < x by omega), if_neg h1,
            if_pos (show j < x + len by omega), grid_apply, if_pos ⟨hi, hj⟩, hrow]
          cases l.cells[j]? <;> rfl
        · rw [if_neg h2]
          by_cases h3 : j < x
          · rw [if_pos h3, if_neg (by omega), grid_apply, if_pos ⟨hi, hj⟩, hrow]
          · rw [if_neg h3, if_neg h1, if_neg (show ¬ j < x + len by omega)]
            by_cases hf : s.fInsert = true
            · rw [if_pos ⟨hf, by omega, hj⟩]
              simp only [hf, if_true]
              rw [grid_apply, if_pos ⟨hi, by omega⟩, hrow]
            · rw [if_neg (fun hh => hf hh.1)]
              simp only [hf]
              rw [if_neg (by simp), grid_apply, if_pos ⟨hi, hj⟩, hrow]
    · rw [if_neg (fun e => hiy e.symm), if_neg (fun hh => hiy hh.1), grid_apply, if_pos ⟨hi, hj⟩]
  · intro i j hij
    unfold View.put
    by_cases hc : i = y ∧ j < s.view.sizeX
    · exact absurd ⟨hc.1 ▸ hy, hc.2⟩ hij
    · rw [if_neg hc]; exact grid_out hij

/-! ### `tsm_screen_write` -/

/-- The screen when the character is put on it: position adjusted, possibly
scrolled. -/
structure Positioned (s t : Screen) : Prop where
  geo : Geo t
  sb : SbOk t
  cx : t.cursorX = s.view.writeCol
  cy : t.cursorY = s.view.writeRow
  ageCnt : t.ageCnt = s.incAge.ageCnt
  ageReset : t.ageReset = s.incAge.ageReset
  still : ¬ s.view.writeScrolls → ∃ x y, t = s.incAge.moved x y ∨ t = s.incAge
  stillView : ¬ s.view.writeScrolls →
    t.view = { s.view with cursorX := s.view.writeCol, cursorY := s.view.writeRow }
  scroll : s.view.writeScrolls → t.age = t.ageCnt ∧
    ∃ u kept, u.view = { s.view with cursorX := s.view.writeCol, cursorY := s.view.writeRow } ∧
      Geo u ∧ u.allocOk = s.allocOk ∧ ScrolledUp u t 1 kept

/-- First two steps of `tsm_screen_write`. -/
def writePos (s : Screen) : R Screen := do
  let s := s.incAge
  let last := if s.cursorY ≤ s.marginBottom ∨ s.cursorY ≥ s.sizeY then s.marginBottom
    else pred32 s.sizeY
  let s ← (if s.cursorX ≥ s.sizeX then
      if s.fWrap then s.moveCursor 0 (u32 (s.cursorY + 1))
      else s.moveCursor (pred32 s.sizeX) s.cursorY
    else .ok s : R Screen)
  (if s.cursorY > last then do
      let s ← s.moveCursor s.cursorX last
      s.scrollUpI 1
    else .ok s : R Screen)

theorem writeW_eq (s : Screen) (ch len : Nat) (attr : Attr) :
    s.writeW ch len attr = (do
      let s ← s.writePos
      let s ← s.writeAt s.cursorX s.cursorY ch len attr
      s.moveCursor (u32 (s.cursorX + len)) s.cursorY) := by
  unfold writeW writePos
  simp only [bind_assoc]

theorem lastRow_eq {s : Screen} (h : Inv s) :
    (if s.incAge.cursorY ≤ s.incAge.marginBottom ∨ s.incAge.cursorY ≥ s.incAge.sizeY then
      s.incAge.marginBottom else pred32 s.incAge.sizeY) = s.view.lastRow := by
  have hpy := h.geo.predY
  have := h.cur.cy
  simp only [ia_cursorY, ia_marginBottom, ia_sizeY]
  show _ = if s.cursorY ≤ s.marginBottom then s.marginBottom else s.sizeY - 1
  by_cases hc : s.cursorY ≤ s.marginBottom
  · rw [if_pos (Or.inl hc), if_pos hc]
  · rw [if_neg (by omega), if_neg hc, hpy]

theorem lastRow_bounds {s : Screen} (h : Inv s) :
    s.cursorY ≤ s.view.lastRow ∧ s.view.lastRow < s.sizeY := h.botStop

theorem writePos_spec {s : Screen} (h : Inv s) : ∃ t, s.writePos = .ok t ∧ Positioned s t := by
  have hg := h.incAge.geo
  have hs := h.incAge.sb
  have hpx := h.geo.predX
  have hx0 := h.geo.x0
  have hyb := h.geo.yb
  have hcy := h.cur.cy
  have hlr := lastRow_eq h
  obtain ⟨hl1, hl2⟩ := lastRow_bounds h
  have hfw : s.incAge.fWrap = s.view.flags.getLsbD 1 := by
    unfold fWrap; rw [ia_flags]; rfl
  unfold writePos
  dsimp only
  rw [hlr]
  by_cases hc : s.cursorX ≥ s.sizeX
  · rw [if_pos (show s.incAge.cursorX ≥ s.incAge.sizeX by simpa using hc)]
    by_cases hw : s.view.flags.getLsbD 1 = true
    · have hwr : s.view.wraps := ⟨hc, hw⟩
      have ecol : s.view.writeCol = 0 := if_pos hwr
      have erow : s.view.writeRow = min (s.cursorY + 1) s.view.lastRow := if_pos hwr
      rw [if_pos (show s.incAge.fWrap = true by rw [hfw]; exact hw), moveCursor_ok hg,
        show u32 (s.incAge.cursorY + 1) = s.cursorY + 1 by rw [ia_cursorY]; unfold u32; omega]
      show ∃ t, (if (s.incAge.moved 0 (s.cursorY + 1)).cursorY > s.view.lastRow then _ else _ : R Screen) = _ ∧ _
      rw [mv_cursorY, mv_cursorX]
      by_cases hs2 : s.cursorY + 1 > s.view.lastRow
      · rw [if_pos hs2, moveCursor_ok (hg.moved _ _)]
        show ∃ t, scrollUpI ((s.incAge.moved 0 (s.cursorY + 1)).moved 0 s.view.lastRow) 1 = _ ∧ _
        have hge := (hg.moved 0 (s.cursorY + 1)).moved 0 s.view.lastRow
        obtain ⟨t, kept, e, hsc⟩ := scrollUpI_spec hge ((hs.moved _ _).moved _ _)
          (show 0 < 1 by omega)
        generalize hu : ((s.incAge.moved 0 (s.cursorY + 1)).moved 0 s.view.lastRow) = u at *
        have hreg : u.clampRegion 1 = 1 := by
          have := hge.mtb; unfold clampRegion; omega
        rw [hreg] at hsc
        have huv : u.touch.view = { s.view with cursorX := 0, cursorY := s.view.lastRow } := by
          rw [touch_view, ← hu, moved_view, moved_view, incAge_view]
        have hrow' : s.view.writeRow = s.view.lastRow := by rw [erow]; omega
        have hscr : s.view.writeScrolls := ⟨hwr, by show s.cursorY = _; omega⟩
        refine ⟨t, e, ⟨hsc.geo hge.touch, hsc.push.ok, ?_, ?_, ?_, ?_, fun hn => absurd hscr hn,
          fun hn => absurd hscr hn, fun _ => ⟨?_, ?_⟩⟩⟩
        · rw [hsc.frame.cursorX, ecol]; exact congrArg View.cursorX huv
        · rw [hsc.frame.cursorY, hrow']; exact congrArg View.cursorY huv
        · rw [hsc.frame.ageCnt]; show u.ageCnt = _; rw [← hu]; simp
        · rw [hsc.frame.ageReset]; show u.ageReset = _; rw [← hu]; simp
        · rw [hsc.age, hsc.frame.ageCnt]
        · refine ⟨u.touch, kept, ?_, hge.touch, ?_, hsc⟩
          · rw [huv, ecol, hrow']
          · show u.allocOk = _; rw [← hu]; simp
      · rw [if_neg hs2]
        have hnscr : ¬ s.view.writeScrolls := fun hh => by
          have := hh.2; have : s.cursorY = s.view.lastRow := this; omega
        have hrow' : s.view.writeRow = s.cursorY + 1 := by rw [erow]; omega
        refine ⟨_, rfl, ⟨hg.moved _ _, hs.moved _ _, ?_, ?_, ?_, ?_, fun _ => ⟨_, _, Or.inl rfl⟩,
          fun _ => ?_, fun hh => absurd hh hnscr⟩⟩
        · simp [ecol]
        · simp [hrow']
        · simp
        · simp
        · rw [moved_view, incAge_view, ecol, hrow']
    · have hwr : ¬ s.view.wraps := fun hh => hw hh.2
      have ecol : s.view.writeCol = s.sizeX - 1 := by
        rw [show s.view.writeCol = s.view.col from if_neg hwr]
        show min s.cursorX (s.sizeX - 1) = _; omega
      have erow : s.view.writeRow = s.cursorY := if_neg hwr
      have hnscr : ¬ s.view.writeScrolls := fun hh => hwr hh.1
      rw [if_neg (show ¬ s.incAge.fWrap = true by rw [hfw]; exact hw), moveCursor_ok hg, ia_sizeX,
        hpx, ia_cursorY]
      show ∃ t, (if (s.incAge.moved (s.sizeX - 1) s.cursorY).cursorY > s.view.lastRow then _ else _ : R Screen) = _ ∧ _
      rw [mv_cursorY, if_neg (by omega)]
      refine ⟨_, rfl, ⟨hg.moved _ _, hs.moved _ _, ?_, ?_, ?_, ?_, fun _ => ⟨_, _, Or.inl rfl⟩,
          fun _ => ?_, fun hh => absurd hh hnscr⟩⟩
      · simp [ecol]
      · simp [erow]
      · simp
      · simp
      · rw [moved_view, incAge_view, ecol, erow]
  · have hwr : ¬ s.view.wraps := fun hh => hc hh.1
    have ecol : s.view.writeCol = s.cursorX := by
      rw [show s.view.writeCol = s.view.col from if_neg hwr]
      show min s.cursorX (s.sizeX - 1) = _; omega
    have erow : s.view.writeRow = s.cursorY := if_neg hwr
    have hnscr : ¬ s.view.writeScrolls := fun hh => hwr hh.1
    rw [if_neg (show ¬ s.incAge.cursorX ≥ s.incAge.sizeX by simpa using hc)]
    show ∃ t, (if s.incAge.cursorY > s.view.lastRow then _ else _ : R Screen) = _ ∧ _
    rw [ia_cursorY, if_neg (by omega)]
    refine ⟨_, rfl, ⟨hg, hs, ?_, ?_, rfl, rfl, fun _ => ⟨0, 0, Or.inr rfl⟩,
          fun _ => ?_, fun hh => absurd hh hnscr⟩⟩
    · simp [ecol]
    · simp [erow]
    · rw [incAge_view, ecol, erow]; rfl

theorem writePos_bounds {s : Screen} (h : Inv s) :
    s.view.writeCol < s.sizeX ∧ s.view.writeRow < s.sizeY := by
  have hx0 := h.geo.x0
  have hcy := h.cur.cy
  obtain ⟨hl1, hl2⟩ := lastRow_bounds h
  by_cases hw : s.view.wraps
  · rw [show s.view.writeCol = 0 from if_pos hw,
      show s.view.writeRow = min (s.cursorY + 1) s.view.lastRow from if_pos hw]
    omega
  · rw [show s.view.writeCol = s.view.col from if_neg hw,
      show s.view.writeRow = s.cursorY from if_neg hw]
    show min s.cursorX (s.sizeX - 1) < _ ∧ _
    omega

theorem Positioned.size {s t : Screen} (hp : Positioned s t) :
    t.sizeX = s.sizeX ∧ t.sizeY = s.sizeY ∧ t.flags = s.flags := by
  by_cases hs : s.view.writeScrolls
  · obtain ⟨_, u, kept, hv, _, _, hsc⟩ := hp.scroll hs
    rw [hsc.frame.sizeX, hsc.frame.sizeY, hsc.frame.flags]
    exact ⟨congrArg View.sizeX hv, congrArg View.sizeY hv, congrArg View.flags hv⟩
  · have := hp.stillView hs
    exact ⟨congrArg View.sizeX this, congrArg View.sizeY this, congrArg View.flags this⟩

/-- What happens between positioning and the end of `tsm_screen_write`. -/
theorem writeW_steps {s : Screen} (h : Inv s) {ch len : Nat} {attr : Attr} (h0 : 0 < len)
    (hl : len ≤ 2) (hi : s.fInsert = true → len ≤ s.sizeX) :
    ∃ t l l', Positioned s t ∧ t.lines[s.view.writeRow]? = some l ∧
      Wrote t l l' s.view.writeCol len ⟨ch, len, attr, t.ageCnt⟩ ∧
      Geo (t.withLines (t.lines.set s.view.writeRow l')) ∧
      s.writeW ch len attr = .ok ((t.withLines (t.lines.set s.view.writeRow l')).moved
        (s.view.writeCol + len) s.view.writeRow) := by
  obtain ⟨t, e, hp⟩ := writePos_spec h
  obtain ⟨hX, hY, hF⟩ := hp.size
  obtain ⟨b1, b2⟩ := writePos_bounds h
  have hxb := h.geo.xb
  obtain ⟨l, l', el, hw, ew⟩ := writeAt_spec (ch := ch) (attr := attr) hp.geo h0 hl (hX ▸ b1) (hY ▸ b2)
    (by unfold fInsert; rw [hF, hX]; exact hi)
  refine ⟨t, l, l', hp, el, hw, ?_, ?_⟩
  · apply hp.geo.withLines
    apply hp.geo.linesOk.set
    rw [hw.size]
    exact hp.geo.linesOk.w l (getElem?_mem el)
  · rw [writeW_eq, e]
    show (do
      let s ← t.writeAt t.cursorX t.cursorY ch len attr
      s.moveCursor (u32 (s.cursorX + len)) s.cursorY) = _
    rw [hp.cx, hp.cy, ew]
    show moveCursor _ _ _ = _
    rw [moveCursor_ok]
    · simp only [wl_cursorX, wl_cursorY, hp.cx, hp.cy]
      rw [show u32 (s.view.writeCol + len) = s.view.writeCol + len by unfold u32; omega]
    · apply hp.geo.withLines
      apply hp.geo.linesOk.set
      rw [hw.size]
      exact hp.geo.linesOk.w l (getElem?_mem el)

/-- Effect of writing a character of width `len`. -/
theorem writeW_spec {s : Screen} (h : Inv s) {ch len : Nat} {attr : Attr} (h0 : 0 < len)
    (hl : len ≤ 2) (hi : s.fInsert = true → len ≤ s.sizeX) :
    ∃ s', s.writeW ch len attr = .ok s' ∧ Inv s' ∧
      ∃ u : View, (if s.view.writeScrolls then
          ∃ rows kept, View.ScrollUp s.view u 1 (∀ k, s.allocOk k = true) rows kept
        else u = s.view) ∧
      s'.view = { u.setGrid (u.put s.view.writeRow s.view.writeCol len s.fInsert ⟨ch, len, attr⟩) with
        cursorX := s.view.writeCol + len, cursorY := s.view.writeRow } := by
  obtain ⟨t, l, l', hp, el, hw, hgeo, e⟩ := writeW_steps (ch := ch) (attr := attr) h h0 hl hi
  obtain ⟨hX, hY, hF⟩ := hp.size
  obtain ⟨b1, b2⟩ := writePos_bounds h
  have hins : t.fInsert = s.fInsert := by unfold fInsert; rw [hF]
  refine ⟨_, e, ⟨hgeo.moved _ _, (hp.sb.withLines _).moved _ _, ⟨?_, ?_⟩, ?_⟩, ?_⟩
  · simp only [mv_cursorX, mv_sizeX, wl_sizeX, hX]; omega
  · simp only [mv_cursorY, mv_sizeY, wl_sizeY, hY]; omega
  · simp only [mv_ageCnt, wl_ageCnt, hp.ageCnt]; exact incAge_ageCnt s
  · have hv : (t.withLines (t.lines.set s.view.writeRow l')).view =
        t.view.setGrid (t.view.put s.view.writeRow s.view.writeCol len t.fInsert ⟨ch, len, attr⟩) :=
      hw.view hp.geo el (hX ▸ b1) (hY ▸ b2)
    rw [moved_view, hv, hins]
    -- the cursor of the intermediate screen is irrelevant
    have key : ∀ (v : View) (x y x' y' : Nat) (g : Glyph) (cx cy : Nat),
        ({ v.setGrid (v.put y x len s.fInsert g) with cursorX := x', cursorY := y' } : View) =
        { ({ v with cursorX := cx, cursorY := cy } : View).setGrid
            (({ v with cursorX := cx, cursorY := cy } : View).put y x len s.fInsert g) with
          cursorX := x', cursorY := y' } := by
      intro v x y x' y' g cx cy
      unfold View.setGrid View.put View.grid
      cases v.useAlt <;> rfl
    by_cases hs : s.view.writeScrolls
    · obtain ⟨_, u, kept, huv, hug, hua, hsc⟩ := hp.scroll hs
      have hspec := hsc.spec hug (by have := hug.mtb; omega)
      rw [huv, hua] at hspec
      refine ⟨{ t.view with cursorX := s.cursorX, cursorY := s.cursorY }, ?_, ?_⟩
      · rw [if_pos hs]
        exact ⟨_, _, hspec.cursor⟩
      · exact key t.view _ _ _ _ _ s.cursorX s.cursorY
    · refine ⟨s.view, by rw [if_neg hs], ?_⟩
      rw [hp.stillView hs]
      exact (key s.view _ _ _ _ _ _ _).symm

/-- In insert mode a character wider than the screen runs off the row. -/
theorem writeW_unsafe {s : Screen} (h : Inv s) {ch len : Nat} {attr : Attr} (h0 : 0 < len)
    (hl : len ≤ 2) (hi : s.fInsert = true) (hlt : s.sizeX < len) :
    s.writeW ch len attr = .error .insertMove ∨
      ∃ s', s.writeW ch len attr = .ok s' ∧ Inv s' ∧
        ∃ t l l' x, Positioned s t ∧ t.lines[s.view.writeRow]? = some l ∧
          l'.cells.length = l.cells.length ∧ l'.age = t.ageCnt ∧
          s' = (t.withLines (t.lines.set s.view.writeRow l')).moved x s.view.writeRow := by
  obtain ⟨t, e, hp⟩ := writePos_spec h
  obtain ⟨hX, hY, hF⟩ := hp.size
  obtain ⟨b1, b2⟩ := writePos_bounds h
  have hx0 := h.geo.x0
  obtain ⟨l, el, wl⟩ := hp.geo.linesOk.row hp.geo (hY ▸ b2)
  have hti : t.fInsert = true := by unfold fInsert; rw [hF]; exact hi
  have hxe : s.sizeX = 1 := by omega
  have hle : len = 2 := by omega
  have hcol : s.view.writeCol = 0 := by omega
  rw [writeW_eq, e]
  show (do
      let s ← t.writeAt t.cursorX t.cursorY ch len attr
      s.moveCursor (u32 (s.cursorX + len)) s.cursorY) = _ ∨ ∃ s', (do
      let s ← t.writeAt t.cursorX t.cursorY ch len attr
      s.moveCursor (u32 (s.cursorX + len)) s.cursorY) = _ ∧ _
  rw [hp.cx, hp.cy]
  unfold writeAt
  rw [if_neg (by omega), if_neg (by omega), el]
  dsimp only
  unfold insertShift
  rw [hcol, hX, hxe, hle]
  rw [if_pos (⟨hti, by decide⟩ : t.fInsert = true ∧ 0 < sub32 1 2)]
  unfold memmove
  by_cases hm : 0 + 2 + sub32 (sub32 1 2) 0 ≤ l.cells.length ∧ 0 + sub32 (sub32 1 2) 0 ≤ l.cells.length
  · rw [if_pos hm]
    right
    have hlen : (List.take (0 + 2) l.cells ++ (l.cells.drop 0).take (sub32 (sub32 1 2) 0) ++
        l.cells.drop (0 + 2 + sub32 (sub32 1 2) 0)).length = l.cells.length := by
      simp only [List.length_append, List.length_take, List.length_drop]; omega
    generalize (List.take (0 + 2) l.cells ++ (l.cells.drop 0).take (sub32 (sub32 1 2) 0) ++
        l.cells.drop (0 + 2 + sub32 (sub32 1 2) 0)) = cs at *
    have hge : 2 ≤ l.cells.length := by have := hm.1; unfold sub32 at this; omega
    obtain ⟨c2, e2, b1', b2'⟩ := updCells_ok (cells := cs) (lo := 0) (hi := 0 + 1)
      (f := fun _ => { ch := ch, width := 2, attr := attr, age := t.ageCnt }) (Or.inr (by omega))
    obtain ⟨c3, e3, d1, d2⟩ := updCells_ok (cells := c2) (lo := 0 + 1) (hi := min (0 + 2) 1)
      (f := fun c => { c with age := t.ageCnt, width := 0 }) (Or.inr (by omega))
    show ∃ s', (do
      let s ← (do
        let cells ← updCells cs 0 (0 + 1) (fun _ => { ch := ch, width := 2, attr := attr, age := t.ageCnt })
        let cells ← updCells cells (0 + 1) (min (0 + 2) 1) (fun c => { c with age := t.ageCnt, width := 0 })
        return t.withLines (t.lines.set s.view.writeRow { l with cells := cells, age := t.ageCnt }) : R Screen)
      s.moveCursor (u32 (s.cursorX + 2)) s.cursorY) = _ ∧ _
    rw [e2]
    show ∃ s', (do
      let s ← (do
        let cells ← updCells c2 (0 + 1) (min (0 + 2) 1) (fun c => { c with age := t.ageCnt, width := 0 })
        return t.withLines (t.lines.set s.view.writeRow { l with cells := cells, age := t.ageCnt }) : R Screen)
      s.moveCursor (u32 (s.cursorX + 2)) s.cursorY) = _ ∧ _
    rw [e3]
    have hgeo : Geo (t.withLines (t.lines.set s.view.writeRow { l with cells := c3, age := t.ageCnt })) := by
      apply hp.geo.withLines
      apply hp.geo.linesOk.set
      show t.sizeX ≤ c3.length
      omega
    show ∃ s', moveCursor (t.withLines (t.lines.set s.view.writeRow { l with cells := c3, age := t.ageCnt }))
      _ _ = _ ∧ _
    rw [moveCursor_ok hgeo]
    refine ⟨_, rfl, ⟨hgeo.moved _ _, (hp.sb.withLines _).moved _ _, ⟨?_, ?_⟩, ?_⟩,
      t, l, { l with cells := c3, age := t.ageCnt }, _, hp, el, ?_, rfl, by rw [wl_cursorY, hp.cy]⟩
    rotate_right
    · show c3.length = _; omega
    · simp only [mv_cursorX, mv_sizeX, wl_sizeX, wl_cursorX, hX, hp.cx, hcol]; unfold u32; omega
    · simp only [mv_cursorY, mv_sizeY, wl_sizeY, wl_cursorY, hY, hp.cy]; exact b2
    · simp only [mv_ageCnt, wl_ageCnt, hp.ageCnt]; exact incAge_ageCnt s
  · rw [if_neg hm]
    left
    rfl

end Screen
end Verif
