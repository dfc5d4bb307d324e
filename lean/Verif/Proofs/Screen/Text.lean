import Verif.Props.Screen.Edit

/-!
# Lemmas about writing a run of text
-/

namespace Verif
namespace Screen

theorem write_allocOk {s s' : Screen} (h : Inv s) {ch w : Nat} {a : Attr} (h0 : 0 < w) (hl : w ≤ 2)
    (hi : s.fInsert = false) (e : s.writeW ch w a = .ok s') : s'.allocOk = s.allocOk := by
  obtain ⟨t, l, l', hp, el, hw, hgeo, e'⟩ := writeW_steps (ch := ch) (attr := a) h h0 hl
    (by rw [hi]; intro h; cases h)
  rw [e] at e'
  injection e' with e'
  subst e'
  rw [mv_allocOk, wl_allocOk]
  by_cases hs : s.view.writeScrolls
  · obtain ⟨_, u, kept, _, _, hu, hsc⟩ := hp.scroll hs
    rw [hsc.frame.allocOk, hu]
  · obtain ⟨x, y, ht | ht⟩ := hp.still hs
    · rw [ht]; simp
    · rw [ht]; simp

theorem rowcol {W a j q c : Nat} (hj : j < W) (hc : c ≤ W) :
    a * W + j < q * W + c ↔ a < q ∨ (a = q ∧ j < c) := by
  rcases Nat.lt_trichotomy a q with h | h | h
  · have := Nat.mul_le_mul_right W (show a + 1 ≤ q from h)
    rw [Nat.succ_mul] at this
    omega
  · subst h; omega
  · have := Nat.mul_le_mul_right W (show q + 1 ≤ a from h)
    rw [Nat.succ_mul] at this
    omega

end Screen

namespace View

/-- `v` is `v0` after the glyphs `txt` were written from home on, filling `q` rows
and `c` columns of the last row. -/
structure Laid (v0 v : View) (mem : Prop) (txt : List Glyph) (q c : Nat) : Prop where
  len : txt.length = q * v0.sizeX + c
  c0 : c ≤ v0.sizeX
  q0 : c = 0 → q = 0
  sizeX : v.sizeX = v0.sizeX
  sizeY : v.sizeY = v0.sizeY
  flags : v.flags = v0.flags
  defAttr : v.defAttr = v0.defAttr
  useAlt : v.useAlt = v0.useAlt
  marginTop : v.marginTop = v0.marginTop
  marginBottom : v.marginBottom = v0.marginBottom
  sbMax : v.sbMax = v0.sbMax
  cx : v.cursorX = c
  cy : v.cursorY = min q (v0.sizeY - 1)
  grid : ∀ i j, i < v0.sizeY → j < v0.sizeX → v.grid i j =
    if i + (q - (v0.sizeY - 1)) < q ∨ i + (q - (v0.sizeY - 1)) = q ∧ j < c then
      txt[(i + (q - (v0.sizeY - 1))) * v0.sizeX + j]?
    else if q - (v0.sizeY - 1) = 0 then v0.grid i j else some v0.blank
  fed : mem → v0.useAlt = false → ∃ pushed, Fed v0 v pushed ∧ pushed.length = q - (v0.sizeY - 1) ∧
    ∀ k j, k < q - (v0.sizeY - 1) → j < v0.sizeX →
      (pushed[k]?.bind (·[j]?)) = txt[k * v0.sizeX + j]?

end View

namespace Screen

/-- The parts of a view that writing text does not change. -/
structure SameFrame (v v' : View) : Prop where
  sizeX : v'.sizeX = v.sizeX
  sizeY : v'.sizeY = v.sizeY
  flags : v'.flags = v.flags
  defAttr : v'.defAttr = v.defAttr
  useAlt : v'.useAlt = v.useAlt
  marginTop : v'.marginTop = v.marginTop
  marginBottom : v'.marginBottom = v.marginBottom
  sbMax : v'.sbMax = v.sbMax

theorem SameFrame.setGrid (v : View) (g : Grid) (x y : Nat) :
    SameFrame v { v.setGrid g with cursorX := x, cursorY := y } := by
  unfold View.setGrid
  split <;> exact ⟨rfl, rfl, rfl, rfl, rfl, rfl, rfl, rfl⟩

theorem SameFrame.scroll {v u : View} {n : Nat} {mem : Prop} {rows kept : List (List Glyph)}
    (h : View.ScrollUp v u n mem rows kept) : SameFrame v u := by
  rw [h.eq]
  unfold View.setGrid
  split <;> exact ⟨rfl, rfl, rfl, rfl, rfl, rfl, rfl, rfl⟩

theorem SameFrame.trans {a b c : View} (h : SameFrame a b) (h' : SameFrame b c) : SameFrame a c :=
  ⟨h'.sizeX.trans h.sizeX, h'.sizeY.trans h.sizeY, h'.flags.trans h.flags,
    h'.defAttr.trans h.defAttr, h'.useAlt.trans h.useAlt, h'.marginTop.trans h.marginTop,
    h'.marginBottom.trans h.marginBottom, h'.sbMax.trans h.sbMax⟩

theorem put_grid (v : View) (g : Grid) (x y : Nat) :
    ({ v.setGrid g with cursorX := x, cursorY := y } : View).grid = g ∧
    ({ v.setGrid g with cursorX := x, cursorY := y } : View).sb = v.sb ∧
    ({ v.setGrid g with cursorX := x, cursorY := y } : View).sbLastId = v.sbLastId := by
  unfold View.grid View.setGrid
  by_cases h : v.useAlt = true
  · simp only [h, if_true]; exact ⟨trivial, trivial, trivial⟩
  · simp [h]

open Props.Screen in
theorem Laid.step {v0 : View} {s : Screen} (hr : Reachable s) {mem : Prop} {txt : List Glyph}
    {q c : Nat} (h : View.Laid v0 s.view mem txt q c) (hm : mem → s.MemOk)
    (hwrap : v0.flags.getLsbD 1 = true) (hins : v0.flags.getLsbD 0 = false)
    (ht : v0.marginTop = 0) (hb : v0.marginBottom = v0.sizeY - 1) {ch : Nat} {a : Attr}
    (hw : Wcwidth.ucs4GetWidth (if ch ≤ 0x7fffffff then ch else 0) = .ok 1) :
    ∃ s' q' c', s.write ch a = .ok s' ∧
      View.Laid v0 s'.view mem (txt ++ [⟨ch, 1, a⟩]) q' c' := by
  have hx0 : 0 < v0.sizeX := by rw [← h.sizeX]; exact hr.inv.geo.x0
  have hy0 : 0 < v0.sizeY := by rw [← h.sizeY]; exact hr.inv.geo.y0
  obtain ⟨s', e, u, hu, hv⟩ := C11_write hr hw (a := a) (by omega)
    (show s.view.flags.getLsbD 0 = false by rw [h.flags]; exact hins)
  have hsx : s.sizeX = v0.sizeX := h.sizeX
  have hlast : s.view.lastRow = v0.sizeY - 1 := by
    have h1 := h.cy
    show (if s.view.cursorY ≤ s.view.marginBottom then s.view.marginBottom else s.view.sizeY - 1) = _
    rw [h.marginBottom, h.sizeY, hb]
    split <;> rfl
  obtain ⟨hgv, f9, f10⟩ := put_grid u (fun i j =>
          if i = s.view.writeRow ∧ j < s.sizeX then
            if j = s.view.writeCol then some ⟨ch, 1, a⟩
            else if s.view.writeCol < j ∧ j < s.view.writeCol + 1 then
              (u.grid i j).map (fun c => { c with width := 0 })
            else u.grid i j
          else u.grid i j) (s.view.writeCol + 1) s.view.writeRow
  rw [← hv] at hgv f9 f10
  have hus : SameFrame s.view u := by
    split at hu
    · obtain ⟨rows, kept, hu⟩ := hu
      exact SameFrame.scroll hu
    · rw [hu]; exact ⟨rfl, rfl, rfl, rfl, rfl, rfl, rfl, rfl⟩
  have hsf : SameFrame v0 s'.view := by
    rw [hv]
    exact (SameFrame.trans ⟨h.sizeX, h.sizeY, h.flags, h.defAttr, h.useAlt, h.marginTop,
      h.marginBottom, h.sbMax⟩ hus).trans (SameFrame.setGrid u _ _ _)
  have hcx : s'.view.cursorX = s.view.writeCol + 1 := by rw [hv]
  have hcy : s'.view.cursorY = s.view.writeRow := by rw [hv]
  by_cases hwr : s.view.wraps
  · -- a new row begins
    have hcW : c = v0.sizeX := by
      have h1 := hwr.1
      rw [h.cx, h.sizeX] at h1
      have := h.c0
      omega
    have ecol : s.view.writeCol = 0 := if_pos hwr
    have erow : s.view.writeRow = min (q + 1) (v0.sizeY - 1) := by
      rw [show s.view.writeRow = min (s.view.cursorY + 1) s.view.lastRow from if_pos hwr, hlast, h.cy]
      omega
    have hlen : txt.length = (q + 1) * v0.sizeX := by
      rw [h.len, Nat.succ_mul, hcW]
    refine ⟨s', q + 1, 1, e, ?_⟩
    by_cases hsc : s.view.writeScrolls
    · rw [if_pos hsc] at hu
      obtain ⟨rows, kept, hu⟩ := hu
      have hq : v0.sizeY - 1 ≤ q := by
        have h1 := hsc.2
        rw [hlast, h.cy] at h1
        omega
      have hug : u.grid = s.view.rowsUp s.view.marginTop s.view.marginBottom 1 := by
        rw [hu.eq]
        unfold View.grid View.setGrid
        by_cases h : s.view.useAlt = true
        · simp only [h, if_true]
        · simp [h]
      have hd : q + 1 - (v0.sizeY - 1) = q - (v0.sizeY - 1) + 1 := by omega
      refine ⟨by rw [List.length_append, hlen]; rfl, by omega, by omega, hsf.sizeX, hsf.sizeY,
        hsf.flags, hsf.defAttr, hsf.useAlt, hsf.marginTop, hsf.marginBottom, hsf.sbMax,
        by rw [hcx, ecol], by rw [hcy, erow], ?_, ?_⟩
      · intro i j hi hj
        rw [hgv]
        dsimp only
        rw [erow, ecol, hsx, hug, h.marginTop, h.marginBottom, ht, hb, hd]
        by_cases hlr : i = v0.sizeY - 1
        · have hidx : i + (q - (v0.sizeY - 1) + 1) = q + 1 := by omega
          rw [if_pos ⟨by omega, hj⟩, hidx]
          by_cases hj0 : j = 0
          · rw [if_pos hj0, if_pos (Or.inr ⟨rfl, by omega⟩), hj0, Nat.add_zero, ← hlen,
              List.getElem?_concat_length]
          · rw [if_neg hj0, if_neg (by omega), if_neg (by omega), if_neg (by omega)]
            unfold View.rowsUp
            rw [if_pos ⟨by omega, by omega⟩, if_neg (by omega)]
            show (if i < s.view.sizeY ∧ j < s.view.sizeX then some s.view.blank else none) = _
            rw [h.sizeX, h.sizeY, if_pos ⟨hi, hj⟩]
            show some (⟨0, 1, s.view.defAttr⟩ : Glyph) = _
            rw [h.defAttr]
        · rw [if_neg (by omega), if_pos (Or.inl (by omega))]
          unfold View.rowsUp
          rw [if_pos ⟨by omega, by omega⟩, if_pos (by omega), h.grid (i + 1) j (by omega) hj,
            if_pos (by omega)]
          have hlt : (i + 1 + (q - (v0.sizeY - 1))) * v0.sizeX + j < txt.length := by
            rw [hlen]
            have := (rowcol (a := i + 1 + (q - (v0.sizeY - 1))) (q := q + 1) (c := 0) hj (by omega)).mpr
              (Or.inl (by omega))
            omega
          rw [List.getElem?_append_left (by
            rw [show i + (q - (v0.sizeY - 1) + 1) = i + 1 + (q - (v0.sizeY - 1)) by omega]; exact hlt),
            show i + (q - (v0.sizeY - 1) + 1) = i + 1 + (q - (v0.sizeY - 1)) by omega]
      · intro hmem hua
        obtain ⟨pushed, hp, hpl, hpg⟩ := h.fed hmem hua
        have hk : kept = rows := hu.full (by rw [h.useAlt]; exact hua) (hm hmem)
        refine ⟨pushed ++ rows, ?_, ?_, ?_⟩
        · refine Fed.trans hp ⟨?_, ?_⟩ h.sbMax
          · rw [f9, hu.sb, hk]
          · rw [f10, hu.last, hk]
        · rw [List.length_append, hpl, hu.len]; omega
        · intro k j hk' hj
          have hlt : k * v0.sizeX + j < txt.length := by
            rw [hlen]
            have := (rowcol (a := k) (q := q + 1) (c := 0) hj (by omega)).mpr (Or.inl (by omega))
            omega
          rw [List.getElem?_append_left hlt]
          by_cases hkd : k < q - (v0.sizeY - 1)
          · rw [List.getElem?_append_left (by omega)]
            exact hpg k j hkd hj
          · rw [List.getElem?_append_right (by omega), show k - pushed.length = 0 by omega,
              hu.row 0 j (by omega) (by rw [h.sizeX]; exact hj), h.marginTop, ht,
              h.grid 0 j hy0 hj, if_pos (by omega)]
            congr 2
            show (0 + 0 + (q - (v0.sizeY - 1))) * _ = _
            rw [show 0 + 0 + (q - (v0.sizeY - 1)) = k by omega]
    · rw [if_neg hsc] at hu
      subst hu
      have hq : q < v0.sizeY - 1 := by
        rcases Nat.lt_or_ge q (v0.sizeY - 1) with h1 | h1
        · exact h1
        · exact absurd ⟨hwr, by rw [hlast, h.cy]; omega⟩ hsc
      have hd : q + 1 - (v0.sizeY - 1) = 0 := by omega
      have hd0 : q - (v0.sizeY - 1) = 0 := by omega
      refine ⟨by rw [List.length_append, hlen]; rfl, by omega, by omega, hsf.sizeX, hsf.sizeY,
        hsf.flags, hsf.defAttr, hsf.useAlt, hsf.marginTop, hsf.marginBottom, hsf.sbMax,
        by rw [hcx, ecol], by rw [hcy, erow], ?_, ?_⟩
      · intro i j hi hj
        rw [hgv]
        dsimp only
        rw [erow, ecol, hsx, hd, if_pos rfl, h.grid i j hi hj, hd0, if_pos rfl,
          show min (q + 1) (v0.sizeY - 1) = q + 1 by omega, Nat.add_zero]
        by_cases hlr : i = q + 1
        · rw [if_pos ⟨hlr, hj⟩]
          by_cases hj0 : j = 0
          · rw [if_pos hj0, if_pos (Or.inr ⟨hlr, by omega⟩), hlr, hj0, Nat.add_zero, ← hlen,
              List.getElem?_concat_length]
          · rw [if_neg hj0, if_neg (by omega), if_neg (by omega), if_neg (by omega)]
        · rw [if_neg (by omega)]
          by_cases hiq : i < q + 1
          · rw [if_pos (by omega), if_pos (Or.inl (show i + 0 < q + 1 from hiq)), List.getElem?_append_left]
            rw [hlen]
            have := (rowcol (a := i + 0) (q := q + 1) (c := 0) hj (by omega)).mpr (Or.inl (by omega))
            omega
          · rw [if_neg (by omega), if_neg (by omega)]
      · intro hmem hua
        obtain ⟨pushed, hp, hpl, hpg⟩ := h.fed hmem hua
        exact ⟨pushed, ⟨by rw [f9, hp.sb], by rw [f10, hp.last]⟩, by omega,
          (fun k j hk => absurd hk (by omega))⟩
  · -- the row continues
    have hcl : c < v0.sizeX := by
      rcases Nat.lt_or_ge c v0.sizeX with h1 | h1
      · exact h1
      · exact absurd ⟨by rw [h.cx, h.sizeX]; exact h1, by rw [h.flags]; exact hwrap⟩ hwr
    have ecol : s.view.writeCol = c := by
      rw [show s.view.writeCol = min s.view.cursorX (s.view.sizeX - 1) from if_neg hwr, h.cx, h.sizeX]
      omega
    have erow : s.view.writeRow = min q (v0.sizeY - 1) := by
      rw [show s.view.writeRow = s.view.cursorY from if_neg hwr, h.cy]
    rw [if_neg (fun hh => hwr hh.1)] at hu
    subst hu
    refine ⟨s', q, c + 1, e, ?_⟩
    refine ⟨by rw [List.length_append, h.len]; rfl, by omega, by omega, hsf.sizeX, hsf.sizeY,
      hsf.flags, hsf.defAttr, hsf.useAlt, hsf.marginTop, hsf.marginBottom, hsf.sbMax,
      by rw [hcx, ecol], by rw [hcy, erow], ?_, ?_⟩
    · intro i j hi hj
      rw [hgv]
      dsimp only
      rw [erow, ecol, hsx, h.grid i j hi hj]
      generalize hD : q - (v0.sizeY - 1) = d
      by_cases hlr : i = min q (v0.sizeY - 1)
      · have hid : i + d = q := by omega
        rw [if_pos ⟨hlr, hj⟩, hid]
        by_cases hjc : j = c
        · rw [if_pos hjc, if_pos (Or.inr ⟨rfl, by omega⟩), hjc, ← h.len,
            List.getElem?_concat_length]
        · rw [if_neg hjc, if_neg (by omega)]
          by_cases hlt : j < c
          · rw [if_pos (by omega), if_pos (by omega), List.getElem?_append_left]
            rw [h.len]; omega
          · rw [if_neg (show ¬ (q < q ∨ q = q ∧ j < c) by omega),
              if_neg (show ¬ (q < q ∨ q = q ∧ j < c + 1) by omega)]
      · rw [if_neg (by omega)]
        by_cases hlt : i + d < q
        · rw [if_pos (Or.inl hlt), if_pos (Or.inl hlt), List.getElem?_append_left]
          rw [h.len]
          exact (rowcol hj h.c0).mpr (Or.inl hlt)
        · rw [if_neg (show ¬ (i + d < q ∨ i + d = q ∧ j < c) by omega),
            if_neg (show ¬ (i + d < q ∨ i + d = q ∧ j < c + 1) by omega)]
    · intro hmem hua
      obtain ⟨pushed, hp, hpl, hpg⟩ := h.fed hmem hua
      refine ⟨pushed, ⟨by rw [f9, hp.sb], by rw [f10, hp.last]⟩, hpl, ?_⟩
      intro k j hk hj
      rw [hpg k j hk hj, List.getElem?_append_left]
      rw [h.len]
      exact (rowcol hj h.c0).mpr (Or.inl (by omega))

end Screen
end Verif
