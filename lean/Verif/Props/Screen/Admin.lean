import Verif.Proofs.Screen.Example

/-!
# Properties of resizing, flags, tab stops and margins

C17 resize, C67 setters.
-/

namespace Verif.Props.Screen

open Verif Verif.Screen

/-! ### C17 -/

/-- **C17.** What a successful resize to a different size does (`View.Resized`):
both grids keep the cells that lie in the old and in the new screen, the
displayed one after moving up by the number of removed rows; all other cells of
the new size are blank; the removed rows of a displayed main screen go to the
scrollback as by scrolling; the cursor stays on its text row as far as possible;
margins and tab stops are reset; nothing else changes. -/
theorem C17_resize {s s' : Screen} (hr : Reachable s) {x y : Nat} (hx : x < 2 ^ 30) (hy : y < 2 ^ 30)
    (hne : ¬ (s.sizeX = x ∧ s.sizeY = y)) (e : s.resize x y = .ok (.ok, s')) :
    View.Resized s.view s'.view x y s.MemOk := by
  by_cases h0 : x = 0 ∨ y = 0
  · unfold Screen.resize at e
    rw [if_pos h0] at e
    injection e with e
    injection e with e1 e2
    cases e1
  rcases resize_spec hr.inv.dim hr.inv.sb (x := x) (y := y) (by omega) (by omega) hx hy hne with
    ⟨w, e', _⟩ | ⟨w, e', _, hv⟩
  · rw [e] at e'
    injection e' with e'
    injection e' with e1 e2
    cases e1
  · rw [e] at e'
    injection e' with e'
    injection e' with e1 e2
    subst e2
    exact hv

/-- **C17.** A resize to the present size does nothing. -/
theorem C17_same {s : Screen} (hr : Reachable s) :
    s.resize s.sizeX s.sizeY = .ok (.ok, s) := by
  have h1 := hr.inv.geo.x0
  have h2 := hr.inv.geo.y0
  unfold Screen.resize
  rw [if_neg (by omega), if_pos ⟨rfl, rfl⟩]

/-- **C17**, cell by cell for the displayed main screen: a cell in the old and the
new screen keeps its glyph, every other cell is blank, and the cursor row shows
the same text as before if it was below the removed rows. -/
theorem C17_cells {s s' : Screen} (hr : Reachable s) {x y : Nat} (hx : x < 2 ^ 30) (hy : y < 2 ^ 30)
    (hne : ¬ (s.sizeX = x ∧ s.sizeY = y)) (ha : s.flags.getLsbD 6 = false)
    (e : s.resize x y = .ok (.ok, s')) :
    (∀ i j, i < y → j < x → s'.view.grid i j =
      if i + (s.sizeY - y) < s.sizeY ∧ j < s.sizeX then s.view.grid (i + (s.sizeY - y)) j
      else some ⟨0, 1, s.defAttrMain⟩) ∧
    s'.cursorX = min s.cursorX (x - 1) ∧
    (s.sizeY - y ≤ s.cursorY → s'.cursorY + (s.sizeY - y) = s.cursorY) := by
  have h := C17_resize hr hx hy hne e
  have hu : s.useAlt = false := hr.inv.geo.alias.trans ha
  have hua : s'.useAlt = s.useAlt := (congrArg View.useAlt h.eq).trans rfl
  have hm := congrArg View.main h.eq
  refine ⟨?_, (congrArg View.cursorX h.eq).trans rfl, ?_⟩
  · intro i j hi hj
    have h1 : s'.view.grid = s'.view.main := by
      unfold View.grid
      rw [if_neg (by show ¬ s'.useAlt = true; rw [hua, hu]; simp)]
    have h2 : s.view.grid = s.view.main := by
      unfold View.grid
      rw [if_neg (by show ¬ s.useAlt = true; rw [hu]; simp)]
    rw [h1, h2, hm]
    show View.refit s.view.main s.sizeX s.sizeY (if s.useAlt = true then 0 else s.sizeY - y) x y
      ⟨0, 1, s.defAttrMain⟩ i j = _
    rw [if_neg (by rw [hu]; simp)]
    unfold View.refit
    rw [if_pos ⟨hi, hj⟩]
  · intro hc
    have : s'.cursorY = s.cursorY - (s.sizeY - y) := (congrArg View.cursorY h.eq).trans rfl
    omega

/-- Shrinking a 3×3 screen with the text "ABCDEFGHI" to 2×2 (the row that leaves is
cut to the new width first) and growing it again: no old
cell reappears. -/
example : ∃ s, Reachable s ∧ (decide (s.sizeX = 3 ∧ s.sizeY = 3) &&
    decide (((s.resize 2 2).map fun r => (r.1, (List.range 2).map r.2.rowText,
      r.2.sb.map fun l => (l.cells.map Cell.ch).take 3)) =
      .ok (.ok, [[68, 69], [71, 72]], [[65, 66, 0]])) &&
    decide (((s.resize 2 2).bind fun r => (r.2.resize 4 3).map fun r =>
      (List.range 3).map r.2.rowText) =
      .ok [[68, 69, 0, 0], [71, 72, 0, 0], [0, 0, 0, 0]])) = true :=
  exists_of_holds (cs := [.resize 3 3, .setFlags 2#32, .setMaxSb 5] ++
    text [65, 66, 67, 68, 69, 70, 71, 72, 73]) (by decide +kernel)

/-! ### C67 -/

/-- **C67.** `set_flags` sets exactly the given bits; the alternate screen is
shown iff bit 6 is set (entering it records the default attributes of the main
screen), and nothing else changes, in particular no cell. -/
theorem C67_set_flags {s : Screen} (hr : Reachable s) (f : BitVec 32) :
    ∃ s', s.setFlags f = .ok s' ∧ s'.view = { s.view with
      flags := s.flags ||| f, useAlt := (s.flags ||| f).getLsbD 6
      defAttrMain := if !s.flags.getLsbD 6 && f.getLsbD 6 then s.defAttr else s.defAttrMain } := by
  have ha : s.useAlt = s.flags.getLsbD 6 := hr.inv.geo.alias
  have e1 : (s.flags ||| f).getLsbD 6 = (s.useAlt || f.getLsbD 6) := by
    rw [BitVec.getLsbD_or, ha]
  have e2 : (!s.useAlt && (s.useAlt || f.getLsbD 6)) = (!s.flags.getLsbD 6 && f.getLsbD 6) := by
    rw [ha]; cases s.flags.getLsbD 6 <;> cases f.getLsbD 6 <;> rfl
  by_cases h0 : f = 0#32
  · refine ⟨s, by unfold setFlags; rw [if_pos h0], ?_⟩
    subst h0
    rw [e1]
    have : s.flags ||| 0#32 = s.flags := by simp
    rw [this]
    simp only [BitVec.getLsbD_zero, Bool.or_false, Bool.and_false]
    rfl
  · obtain ⟨s', e, _, hv, _⟩ := setFlags_spec hr.inv h0
    refine ⟨s', e, ?_⟩
    rw [hv, switched_view, e1, e2]

/-- **C67.** `reset_flags` clears exactly the given bits. -/
theorem C67_reset_flags {s : Screen} (hr : Reachable s) (f : BitVec 32) :
    ∃ s', s.resetFlags f = .ok s' ∧ s'.view = { s.view with
      flags := s.flags &&& ~~~f, useAlt := (s.flags &&& ~~~f).getLsbD 6 } := by
  have ha : s.useAlt = s.flags.getLsbD 6 := hr.inv.geo.alias
  have e1 : (s.flags &&& ~~~f).getLsbD 6 = (s.useAlt && !f.getLsbD 6) := by
    rw [BitVec.getLsbD_and, BitVec.getLsbD_not, ha]; simp
  by_cases h0 : f = 0#32
  · refine ⟨s, by unfold resetFlags; rw [if_pos h0], ?_⟩
    subst h0
    rw [e1]
    have : s.flags &&& ~~~0#32 = s.flags := by
      rw [show ~~~0#32 = BitVec.allOnes 32 from by decide, BitVec.and_allOnes]
    rw [this]
    simp only [BitVec.getLsbD_zero, Bool.not_false, Bool.and_true]
    rfl
  · obtain ⟨s', e, _, hv, _⟩ := resetFlags_spec hr.inv h0
    refine ⟨s', e, ?_⟩
    rw [hv, switched_view, e1]
    have : (!s.useAlt && (s.useAlt && !f.getLsbD 6)) = false := by
      cases s.useAlt <;> rfl
    rw [this]
    rfl

/-- **C67.** Setting and clearing a tab stop affects only the cursor column (none
if a wrap is pending). -/
theorem C67_tabstop {s : Screen} (hr : Reachable s) :
    (∃ s', s.setTabstop = .ok s' ∧ s'.view = { s.view with
      tabs := fun i => if i = s.cursorX ∧ i < s.sizeX then some true else s.view.tabs i }) ∧
    (∃ s', s.resetTabstop = .ok s' ∧ s'.view = { s.view with
      tabs := fun i => if i = s.cursorX ∧ i < s.sizeX then some false else s.view.tabs i }) ∧
    (∃ s', s.resetAllTabstops = .ok s' ∧ s'.view = { s.view with
      tabs := fun i => if i < s.sizeX then some false else none }) := by
  refine ⟨?_, ?_, ?_⟩
  · obtain ⟨s', e, _, hv, _⟩ := putTab_spec hr.inv true
    exact ⟨s', e, hv⟩
  · obtain ⟨s', e, _, hv, _⟩ := putTab_spec hr.inv false
    exact ⟨s', e, hv⟩
  · obtain ⟨s', e, _, hv, _⟩ := resetAllTabstops_spec hr.inv
    exact ⟨s', e, hv⟩

/-- **C67.** `set_margins(top, bottom)` (counted from 1, 0 meaning 1) changes only
the margins: to the given ones if they form a region of at least two rows on the
screen, otherwise to the whole screen. -/
theorem C67_set_margins {s : Screen} (hr : Reachable s) (top bottom : Nat) :
    (s.setMargins top bottom).view =
      if max top 1 < bottom ∧ bottom ≤ s.sizeY then
        { s.view with marginTop := max top 1 - 1, marginBottom := bottom - 1 }
      else { s.view with marginTop := 0, marginBottom := s.sizeY - 1 } := by
  rw [setMargins_eq hr.inv]
  split <;> rfl

/-- **C67.** `reset` clears all flags (and leaves the alternate screen), the
margins and the tab stops, and changes no cell of either screen. -/
theorem C67_reset {s : Screen} (hr : Reachable s) :
    ∃ s', s.reset = .ok s' ∧ s'.view = { s.view with
      flags := 0#32, marginTop := 0, marginBottom := s.sizeY - 1, useAlt := false
      tabs := View.everyEighth s.sizeX } := by
  obtain ⟨s', e, _, hv, _⟩ := reset_spec hr.inv
  exact ⟨s', e, hv⟩

/-- A screen with narrowed margins, a moved cursor and flags. -/
example : ∃ s, Reachable s ∧ (decide (s.flags = 0x42#32) && decide (s.cursorX = 5) &&
    decide (max 0 1 < 3 ∧ 3 ≤ s.sizeY) &&
    decide (((s.resetFlags 0x40#32).map fun t => (t.flags, t.rowText 0)) =
      .ok (2#32, [65, 0, 0, 0, 0, 0]))) = true :=
  exists_of_holds (cs := [.resize 6 4] ++ text [65] ++ [.setFlags 0x42#32, .moveTo 5 1])
    (by decide +kernel)

end Verif.Props.Screen
