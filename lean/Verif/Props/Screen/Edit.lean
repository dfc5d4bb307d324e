import Verif.Proofs.Screen.Example

/-!
# Properties of writing, erasing, inserting and deleting

C11 writing, C24 insert mode, C18 erasing, C19 insert and delete lines, C20
insert and delete characters. All are equations between the complete observable
states before and after the call (`Verif.View`), so they also state what does
not change.
-/

namespace Verif.Props.Screen

open Verif Verif.Screen

/-! ### C11 and C24 -/

/-- The common form: what `tsm_screen_write` does to the observable state. -/
theorem write_spec {s : Screen} (hi : Inv s) {ch w : Nat} {a : Attr}
    (hw : Wcwidth.ucs4GetWidth (if ch ≤ 0x7fffffff then ch else 0) = .ok w) (h0 : 0 < w)
    (hins : s.fInsert = true → w ≤ s.sizeX) :
    ∃ s', s.write ch a = .ok s' ∧
      ∃ u : View, (if s.view.writeScrolls then
          ∃ rows kept, View.ScrollUp s.view u 1 s.MemOk rows kept
        else u = s.view) ∧
      s'.view = { u.setGrid (u.put s.view.writeRow s.view.writeCol w s.fInsert ⟨ch, w, a⟩) with
        cursorX := s.view.writeCol + w, cursorY := s.view.writeRow } := by
  have hs : symWidth ch = .ok w := by
    unfold symWidth UCS4_MAX
    split
    · rename_i hc; rw [if_pos hc] at hw; exact hw
    · rename_i hc; rw [if_neg hc] at hw; exact hw
  obtain ⟨w', e', hle⟩ := symWidth_ok ch
  rw [hs] at e'
  injection e' with e'
  subst e'
  obtain ⟨s', e, _, hv⟩ := writeW_spec hi (ch := ch) (attr := a) h0 hle hins
  refine ⟨s', ?_, hv⟩
  unfold write
  rw [hs]
  show (if w = 0 then .ok s else s.writeW ch w a) = _
  rw [if_neg (by omega)]
  exact e

/-- **C11.** Writing a character of width `w > 0` without insert mode. If a wrap
is pending the position is the start of the next row, after scrolling the region
by one row if the cursor was on the last row it can reach; otherwise it is the
cursor position. There the character is stored with its attributes and width,
the cells it covers beyond the first become zero-width, the cursor advances by
`w`, and nothing else changes. -/
theorem C11_write {s : Screen} (hr : Reachable s) {ch w : Nat} {a : Attr}
    (hw : Wcwidth.ucs4GetWidth (if ch ≤ 0x7fffffff then ch else 0) = .ok w) (h0 : 0 < w)
    (hins : s.flags.getLsbD 0 = false) :
    ∃ s', s.write ch a = .ok s' ∧
      ∃ u : View, (if s.view.writeScrolls then
          ∃ rows kept, View.ScrollUp s.view u 1 s.MemOk rows kept
        else u = s.view) ∧
      s'.view = { u.setGrid (fun i j =>
          if i = s.view.writeRow ∧ j < s.sizeX then
            if j = s.view.writeCol then some ⟨ch, w, a⟩
            else if s.view.writeCol < j ∧ j < s.view.writeCol + w then
              (u.grid i j).map (fun c => { c with width := 0 })
            else u.grid i j
          else u.grid i j) with
        cursorX := s.view.writeCol + w, cursorY := s.view.writeRow } := by
  have hf : s.fInsert = false := hins
  obtain ⟨s', e, u, hu, hv⟩ := write_spec hr.inv hw h0 (a := a) (by rw [hf]; intro h; cases h)
  refine ⟨s', e, u, hu, ?_⟩
  have hsx : u.sizeX = s.sizeX := by
    split at hu
    · obtain ⟨rows, kept, hu⟩ := hu
      have h1 := congrArg View.sizeX hu.eq
      dsimp only at h1
      unfold View.setGrid at h1
      split at h1 <;> exact h1
    · rw [hu]; rfl
  rw [hv]
  suffices hput : u.put s.view.writeRow s.view.writeCol w s.fInsert ⟨ch, w, a⟩ = fun i j =>
      if i = s.view.writeRow ∧ j < s.sizeX then
        if j = s.view.writeCol then some ⟨ch, w, a⟩
        else if s.view.writeCol < j ∧ j < s.view.writeCol + w then
          (u.grid i j).map (fun c => { c with width := 0 })
        else u.grid i j
      else u.grid i j by rw [hput]
  funext i j
  unfold View.put
  rw [hf, hsx]
  by_cases h1 : i = s.view.writeRow ∧ j < s.sizeX
  · rw [if_pos h1, if_pos h1]
    by_cases h2 : j < s.view.writeCol
    · rw [if_pos h2, if_neg (show ¬ j = s.view.writeCol by omega), if_neg (by omega)]
    · rw [if_neg h2]
      by_cases h3 : j = s.view.writeCol
      · rw [if_pos h3, if_pos h3]
      · rw [if_neg h3, if_neg h3]
        by_cases h4 : j < s.view.writeCol + w
        · rw [if_pos h4, if_pos (by omega)]
        · rw [if_neg h4, if_neg (show ¬ false = true by simp), if_neg (by omega)]
  · rw [if_neg h1, if_neg h1]

/-- A character of width 0 is ignored. -/
theorem C11_zero_width {s : Screen} {ch : Nat} {a : Attr}
    (hw : Wcwidth.ucs4GetWidth (if ch ≤ 0x7fffffff then ch else 0) = .ok 0) :
    s.write ch a = .ok s := by
  have hs : symWidth ch = .ok 0 := by
    unfold symWidth UCS4_MAX
    split
    · rename_i hc; rw [if_pos hc] at hw; exact hw
    · rename_i hc; rw [if_neg hc] at hw; exact hw
  unfold write
  rw [hs]
  rfl

/-- A wide character after the last column of the last row, with wrap mode on:
scrolls. -/
example : ∃ s, Reachable s ∧ (decide (s.view.writeScrolls) && !s.flags.getLsbD 0 &&
    decide (Wcwidth.ucs4GetWidth 0x4e2d = .ok 2) && decide (s.view.writeRow = 1) &&
    decide ((s.write 0x4e2d Attr.zero).map (fun t => (t.rowText 0, t.rowText 1)) =
      .ok ([0, 0, 0, 65], [0x4e2d, 0, 0, 0]))) = true :=
  exists_of_holds (cs := [.resize 4 2, .setFlags 2#32, .moveTo 3 1] ++ text [65])
    (by decide +kernel)

/-- **C24**, the full claim: in insert mode (flag bit 0), writing a character of width `w` puts it
at the write position, moves the cells from there on right by `w` and changes no other row
(apart from the scrolling of C13). -/
def C24_claim : Prop := ∀ (s : Screen), Reachable s → ∀ (ch w : Nat) (a : Attr),
  Wcwidth.ucs4GetWidth (if ch ≤ 0x7fffffff then ch else 0) = .ok w → 0 < w → s.flags.getLsbD 0 = true →
  ∃ s', s.write ch a = .ok s' ∧
    ∃ u : View, (if s.view.writeScrolls then
        ∃ rows kept, View.ScrollUp s.view u 1 s.MemOk rows kept
      else u = s.view) ∧
    (∀ j, j < s.view.writeCol → s'.view.grid s.view.writeRow j = u.grid s.view.writeRow j) ∧
    s'.view.grid s.view.writeRow s.view.writeCol = some ⟨ch, w, a⟩ ∧
    (∀ j, s.view.writeCol ≤ j → j + w < s.sizeX →
      s'.view.grid s.view.writeRow (j + w) = u.grid s.view.writeRow j) ∧
    (∀ i j, i ≠ s.view.writeRow → s'.view.grid i j = u.grid i j)

/-- **C24 is false** for a wide character on a screen with one column: the length of the move
wraps (see C08). -/
theorem C24_false : ¬ C24_claim := by
  intro h
  obtain ⟨s, hr, hs⟩ : ∃ s, Reachable s ∧ (s.flags.getLsbD 0 &&
      decide (Wcwidth.ucs4GetWidth 0x4e2d = .ok 2) &&
      decide ((s.write 0x4e2d Attr.zero).map (fun _ => ()) = .error .insertMove)) = true :=
    exists_of_holds (cs := [.resize 1 5, .setFlags INSERT_MODE]) (by decide +kernel)
  simp only [Bool.and_eq_true, decide_eq_true_eq] at hs
  obtain ⟨s', e, _⟩ := h s hr 0x4e2d 2 Attr.zero hs.1.2 (by decide) hs.1.1
  rw [e] at hs
  cases hs.2

/-- **C24** for characters not wider than the screen: as C11, but in the written row the cells
from the write position on move right by `w`; only those pushed beyond the right edge are lost.
Missing: a character wider than the screen, see `C24_false`. -/
theorem C24_insert_mode_partial {s : Screen} (hr : Reachable s) {ch w : Nat} {a : Attr}
    (hw : Wcwidth.ucs4GetWidth (if ch ≤ 0x7fffffff then ch else 0) = .ok w) (h0 : 0 < w)
    (hins : s.flags.getLsbD 0 = true) (hle : w ≤ s.sizeX) :
    ∃ s', s.write ch a = .ok s' ∧
      ∃ u : View, (if s.view.writeScrolls then
          ∃ rows kept, View.ScrollUp s.view u 1 s.MemOk rows kept
        else u = s.view) ∧
      s'.view = { u.setGrid (u.put s.view.writeRow s.view.writeCol w true ⟨ch, w, a⟩) with
        cursorX := s.view.writeCol + w, cursorY := s.view.writeRow } ∧
      (∀ j, j < s.view.writeCol →
        s'.view.grid s.view.writeRow j = u.grid s.view.writeRow j) ∧
      s'.view.grid s.view.writeRow s.view.writeCol = some ⟨ch, w, a⟩ ∧
      (∀ j, s.view.writeCol ≤ j → j + w < s.sizeX →
        s'.view.grid s.view.writeRow (j + w) = u.grid s.view.writeRow j) ∧
      (∀ i j, i ≠ s.view.writeRow → s'.view.grid i j = u.grid i j) := by
  have hf : s.fInsert = true := hins
  obtain ⟨s', e, u, hu, hv⟩ := write_spec hr.inv hw h0 (a := a) (fun _ => hle)
  rw [hf] at hv
  refine ⟨s', e, u, hu, hv, ?_⟩
  have hsx : u.sizeX = s.sizeX := by
    split at hu
    · obtain ⟨rows, kept, hu⟩ := hu
      have h1 := congrArg View.sizeX hu.eq
      dsimp only at h1
      unfold View.setGrid at h1
      split at h1 <;> exact h1
    · rw [hu]; rfl
  obtain ⟨hb1, hb2⟩ := writePos_bounds hr.inv
  have hg : s'.view.grid = u.put s.view.writeRow s.view.writeCol w true ⟨ch, w, a⟩ := by
    rw [hv]
    unfold View.setGrid View.grid
    by_cases hu2 : u.useAlt = true
    · rw [if_pos hu2]; dsimp only; rw [if_pos hu2]
    · rw [if_neg hu2]; dsimp only; rw [if_neg hu2]
  rw [hg]
  unfold View.put
  refine ⟨?_, ?_, ?_, ?_⟩
  · intro j hj
    rw [if_pos ⟨rfl, by omega⟩, if_pos hj]
  · rw [if_pos ⟨rfl, by omega⟩, if_neg (Nat.lt_irrefl _), if_pos rfl]
  · intro j hj hjw
    rw [if_pos ⟨rfl, by omega⟩, if_neg (by omega), if_neg (by omega), if_neg (by omega), if_pos rfl,
      Nat.add_sub_cancel]
  · intro i j hij
    rw [if_neg (fun h => hij h.1)]

/-- A wide character inserted into "ABCDE": "D" and "E" are lost. -/
example : ∃ s, Reachable s ∧ (s.flags.getLsbD 0 &&
    decide ((s.write 0x4e2d Attr.zero).map (fun t => t.rowText 0) =
      .ok [65, 0x4e2d, 67, 66, 67])) = true :=
  exists_of_holds (cs := [.resize 5 2] ++ text [65, 66, 67, 68, 69] ++
    [.setFlags 1#32, .moveTo 1 0]) (by decide +kernel)

/-! ### C18 -/

/-- The claim for `tsm_screen_erase_chars`: exactly the `num` cells from the
cursor on are erased. -/
def C18_chars_claim : Prop :=
  ∀ (s : Screen) (num : Nat), Reachable s → 0 < num → num < 2 ^ 32 →
    ∃ s', s.eraseChars num = .ok s' ∧ s'.view = s.view.erase false
      (fun i j => i = s.cursorY ∧ s.view.col ≤ j ∧ j < s.view.col + num)

/-- **C18 is false** for `erase_chars` with a count so large that the sum with
the cursor column exceeds the range of `unsigned int`: nothing is erased. -/
theorem C18_chars_false : ¬ C18_chars_claim := by
  intro h
  have hx : ∃ s, Reachable s ∧ (decide (s.cursorY = 0) && decide (s.view.col = 2) &&
      decide (s.view.grid 0 2 = some ⟨67, 1, Attr.zero⟩) &&
      decide (((s.eraseChars 4294967295).map fun t => t.view.grid 0 2) =
        .ok (some ⟨67, 1, Attr.zero⟩))) = true :=
    exists_of_holds (cs := [.resize 4 2] ++ text [65, 66, 67, 68] ++ [.moveTo 2 0])
      (by decide +kernel)
  obtain ⟨s, hr, hp⟩ := hx
  rw [Bool.and_eq_true, Bool.and_eq_true, Bool.and_eq_true] at hp
  obtain ⟨⟨⟨h1, h2⟩, h3⟩, h4⟩ := hp
  have h1 := of_decide_eq_true h1
  have h2 := of_decide_eq_true h2
  have h3 := of_decide_eq_true h3
  have h4 := of_decide_eq_true h4
  obtain ⟨s', e, hv⟩ := h s 4294967295 hr (by omega) (by omega)
  rw [e] at h4
  injection h4 with h4
  change s'.view.grid 0 2 = _ at h4
  have hg : s'.view.grid 0 2 = some s.view.blank := by
    rw [hv]
    unfold View.erase
    have : ∀ (v : View) (g : Grid), (v.setGrid g).grid = g := by
      intro v g
      unfold View.setGrid View.grid
      cases v.useAlt <;> rfl
    rw [this]
    rw [if_pos ⟨h1.symm, by omega, by omega⟩, h3]
    rfl
  rw [h4] at hg
  injection hg with hg
  cases hg

/-- **C18** for `erase_chars` (partial: without the wrap-around of
`C18_chars_false`). -/
theorem C18_erase_chars_partial {s : Screen} (hr : Reachable s) {num : Nat} (h0 : 0 < num)
    (hb : s.view.col + num ≤ 2 ^ 32) :
    ∃ s', s.eraseChars num = .ok s' ∧ s'.view = s.view.erase false
      (fun i j => i = s.cursorY ∧ s.view.col ≤ j ∧ j < s.view.col + num) := by
  have hi := hr.inv
  have hcy := hi.cur.cy
  have hx := hi.geo.xb
  have hc : s.eraseX = s.view.col := hi.eraseX
  have hp : pred32 (u32 (s.view.col + num)) = s.view.col + num - 1 := by
    unfold pred32 u32; omega
  obtain ⟨s', e, _, hv, _⟩ := erase_call hi s.view.col s.cursorY (s.view.col + num - 1) s.cursorY
    false (fun i j => i = s.cursorY ∧ s.view.col ≤ j ∧ j < s.view.col + num) (by
      intro i j h1 h2
      rw [Nat.min_eq_left (by omega)]
      constructor
      · intro ⟨a, b, c, d⟩
        have : i = s.cursorY := by omega
        have := c this; have := d ‹_›
        omega
      · intro ⟨a, b, c⟩
        omega)
  refine ⟨s', ?_, hv⟩
  unfold eraseChars
  rw [if_neg (by omega), hc, hp]
  exact e

/-- The region an erase call names, in terms of the cursor position; columns
count from the cursor column as far as it lies on the screen. -/
def Region (s : Screen) : Call → Nat → Nat → Prop
  | .eraseCursor => fun i j => i = s.cursorY ∧ j = s.view.col
  | .eraseCursorToEnd _ => fun i j => i = s.cursorY ∧ s.view.col ≤ j
  | .eraseHomeToCursor _ => fun i j => i = s.cursorY ∧ j ≤ s.cursorX
  | .eraseCurrentLine _ => fun i _ => i = s.cursorY
  | .eraseScreenToCursor _ => fun i j => i < s.cursorY ∨ i = s.cursorY ∧ j ≤ s.cursorX
  | .eraseCursorToScreen _ => fun i j => s.cursorY < i ∨ i = s.cursorY ∧ s.view.col ≤ j
  | .eraseScreen _ => fun _ _ => True
  | _ => fun _ _ => False

/-- The call protects protected cells. -/
def selective : Call → Bool
  | .eraseCursorToEnd p | .eraseHomeToCursor p | .eraseCurrentLine p
  | .eraseScreenToCursor p | .eraseCursorToScreen p | .eraseScreen p => p
  | _ => false

/-- The erase calls without a count. -/
def isErase : Call → Bool
  | .eraseCursor | .eraseCursorToEnd _ | .eraseHomeToCursor _ | .eraseCurrentLine _
  | .eraseScreenToCursor _ | .eraseCursorToScreen _ | .eraseScreen _ => true
  | _ => false

open Classical in
/-- **C18** for all erase calls without a count: exactly the cells of the named
region become blank, in a selective erase exactly the unprotected ones of them;
nothing else changes. -/
theorem C18_erase {s : Screen} (hr : Reachable s) {c : Call} (hc : isErase c = true) :
    ∃ s', c.run s = .ok s' ∧ s'.view = s.view.erase (selective c) (Region s c) := by
  have hi := hr.inv
  have hcy := hi.cur.cy
  have hx0 := hi.geo.x0
  have hy0 := hi.geo.y0
  have hX : s.eraseX = s.view.col := hi.eraseX
  have hpx : pred32 s.sizeX = s.sizeX - 1 := hi.geo.predX
  have hpy : pred32 s.sizeY = s.sizeY - 1 := hi.geo.predY
  have key : ∀ (xF yF xT yT : Nat) (p : Bool) (P : Nat → Nat → Prop),
      (∀ i j, i < s.sizeY → j < s.sizeX →
        ((yF ≤ i ∧ i ≤ yT ∧ (i = yF → xF ≤ j) ∧ (i = min yT (s.sizeY - 1) → j ≤ xT)) ↔ P i j)) →
      ∃ s', eraseRegion s.incAge xF yF xT yT p = .ok s' ∧ s'.view = s.view.erase p P := by
    intro xF yF xT yT p P hP
    obtain ⟨s', e, _, hv, _⟩ := erase_call hi xF yF xT yT p P hP
    exact ⟨s', e, hv⟩
  have hm : min s.cursorY (s.sizeY - 1) = s.cursorY := by omega
  cases c with
  | eraseCursor =>
    have := key s.view.col s.cursorY s.view.col s.cursorY false (Region s .eraseCursor) (by
      intro i j _ _
      rw [hm]
      show _ ↔ i = s.cursorY ∧ j = s.view.col
      constructor
      · intro ⟨a, b, c, d⟩
        have h1 : i = s.cursorY := by omega
        have := c h1; have := d h1; omega
      · intro ⟨a, b⟩; omega)
    rw [← hX] at this
    exact this
  | eraseCursorToEnd p =>
    have := key s.view.col s.cursorY (s.sizeX - 1) s.cursorY p (Region s (.eraseCursorToEnd p)) (by
      intro i j _ _
      rw [hm]
      show _ ↔ i = s.cursorY ∧ s.view.col ≤ j
      constructor
      · intro ⟨a, b, c, d⟩
        have h1 : i = s.cursorY := by omega
        have := c h1; omega
      · intro ⟨a, b⟩; omega)
    rw [← hX, ← hpx] at this
    exact this
  | eraseHomeToCursor p =>
    exact key 0 s.cursorY s.cursorX s.cursorY p (Region s (.eraseHomeToCursor p)) (by
      intro i j _ _
      rw [hm]
      show _ ↔ i = s.cursorY ∧ j ≤ s.cursorX
      constructor
      · intro ⟨a, b, c, d⟩
        have h1 : i = s.cursorY := by omega
        have := d h1; omega
      · intro ⟨a, b⟩; omega)
  | eraseCurrentLine p =>
    have := key 0 s.cursorY (s.sizeX - 1) s.cursorY p (Region s (.eraseCurrentLine p)) (by
      intro i j _ _
      rw [hm]
      show _ ↔ i = s.cursorY
      constructor
      · intro ⟨a, b, c, d⟩; omega
      · intro a; omega)
    rw [← hpx] at this
    exact this
  | eraseScreenToCursor p =>
    exact key 0 0 s.cursorX s.cursorY p (Region s (.eraseScreenToCursor p)) (by
      intro i j _ _
      rw [hm]
      show _ ↔ i < s.cursorY ∨ i = s.cursorY ∧ j ≤ s.cursorX
      constructor
      · intro ⟨a, b, c, d⟩
        rcases Nat.lt_or_ge i s.cursorY with h | h
        · exact Or.inl h
        · have h1 : i = s.cursorY := by omega
          exact Or.inr ⟨h1, d h1⟩
      · intro h; omega)
  | eraseCursorToScreen p =>
    have := key s.view.col s.cursorY (s.sizeX - 1) (s.sizeY - 1) p
      (Region s (.eraseCursorToScreen p)) (by
      intro i j _ _
      show _ ↔ s.cursorY < i ∨ i = s.cursorY ∧ s.view.col ≤ j
      constructor
      · intro ⟨a, b, c, d⟩
        rcases Nat.lt_or_ge s.cursorY i with h | h
        · exact Or.inl h
        · have h1 : i = s.cursorY := by omega
          exact Or.inr ⟨h1, c h1⟩
      · intro h; omega)
    rw [← hX, ← hpx, ← hpy] at this
    exact this
  | eraseScreen p =>
    have := key 0 0 (s.sizeX - 1) (s.sizeY - 1) p (Region s (.eraseScreen p)) (by
      intro i j _ _
      show _ ↔ True
      constructor
      · intro _; trivial
      · intro _; omega)
    rw [← hpx, ← hpy] at this
    exact this
  | _ => exact Bool.noConfusion hc

/-- A selective erase of "A", a protected "B", "C" and "D" from the start of the
line to the "C". -/
example : ∃ s, Reachable s ∧ (isErase (.eraseHomeToCursor true) &&
    decide (((Call.eraseHomeToCursor true).run s).map (fun t => t.rowText 0) =
      .ok [0, 66, 0, 68])) = true :=
  exists_of_holds (cs := [.resize 4 2] ++ text [65] ++
    [.write 66 { Attr.zero with protect := true }] ++ text [67, 68] ++ [.moveTo 2 0])
    (by decide +kernel)

/-! ### C19 -/

/-- **C19**, inserting lines. -/
theorem C19_insert_lines {s : Screen} (hr : Reachable s) (num : Nat) :
    ∃ s', s.insertLines num = .ok s' ∧
      s'.view = if 0 < num ∧ s.marginTop ≤ s.cursorY ∧ s.cursorY ≤ s.marginBottom then
          { s.view.setGrid (s.view.rowsDown s.cursorY s.marginBottom
              (min num (s.marginBottom + 1 - s.cursorY))) with cursorX := 0 }
        else s.view := by
  by_cases h : 0 < num ∧ s.marginTop ≤ s.cursorY ∧ s.cursorY ≤ s.marginBottom
  · rw [if_pos h]
    obtain ⟨s', e, _, hv, _⟩ := insertLines_in hr.inv h.1 h.2
    exact ⟨s', e, hv⟩
  · rw [if_neg h]
    refine ⟨s, ?_, rfl⟩
    unfold insertLines
    by_cases h0 : num = 0
    · rw [if_pos h0]
    · rw [if_neg h0, if_pos (by omega)]

/-- **C19**, deleting lines. -/
theorem C19_delete_lines {s : Screen} (hr : Reachable s) (num : Nat) :
    ∃ s', s.deleteLines num = .ok s' ∧
      s'.view = if 0 < num ∧ s.marginTop ≤ s.cursorY ∧ s.cursorY ≤ s.marginBottom then
          { s.view.setGrid (s.view.rowsUp s.cursorY s.marginBottom
              (min num (s.marginBottom + 1 - s.cursorY))) with cursorX := 0 }
        else s.view := by
  by_cases h : 0 < num ∧ s.marginTop ≤ s.cursorY ∧ s.cursorY ≤ s.marginBottom
  · rw [if_pos h]
    obtain ⟨s', e, _, hv, _⟩ := deleteLines_in hr.inv h.1 h.2
    exact ⟨s', e, hv⟩
  · rw [if_neg h]
    refine ⟨s, ?_, rfl⟩
    unfold deleteLines
    by_cases h0 : num = 0
    · rw [if_pos h0]
    · rw [if_neg h0, if_pos (by omega)]

/-- The cursor inside narrowed margins: rows 2 and 3 of 1 … 5 shift. -/
example : ∃ s, Reachable s ∧ (decide (0 < 1 ∧ s.marginTop ≤ s.cursorY ∧ s.cursorY ≤ s.marginBottom) &&
    decide ((s.insertLines 1).map (fun t => (List.range 5).map t.rowText) =
      .ok [[65], [66], [0], [67], [69]]) &&
    decide ((s.deleteLines 1).map (fun t => (List.range 5).map t.rowText) =
      .ok [[65], [66], [68], [0], [69]])) = true :=
  exists_of_holds (cs := [.resize 1 5, .setFlags 2#32] ++ text [65, 66, 67, 68, 69] ++
    [.setMargins 2 4, .moveTo 0 2]) (by decide +kernel)

/-! ### C20 -/

/-- **C20**, inserting characters. -/
theorem C20_insert_chars {s : Screen} (hr : Reachable s) {num : Nat} (h0 : 0 < num) :
    ∃ s', s.insertChars num = .ok s' ∧
      s'.view = { s.view.setGrid (s.view.cellsRight s.cursorY s.view.col num) with
        cursorX := s.view.col } := by
  obtain ⟨s', e, _, hv, _⟩ := insertChars_spec hr.inv h0
  exact ⟨s', e, hv⟩

/-- **C20**, deleting characters. -/
theorem C20_delete_chars {s : Screen} (hr : Reachable s) {num : Nat} (h0 : 0 < num) :
    ∃ s', s.deleteChars num = .ok s' ∧
      s'.view = { s.view.setGrid (s.view.cellsLeft s.cursorY s.view.col num) with
        cursorX := s.view.col } := by
  obtain ⟨s', e, _, hv, _⟩ := deleteChars_spec hr.inv h0
  exact ⟨s', e, hv⟩

/-- **C20** for count 0: nothing happens. -/
theorem C20_zero (s : Screen) : s.insertChars 0 = .ok s ∧ s.deleteChars 0 = .ok s := by
  unfold insertChars deleteChars
  rw [if_pos (Or.inl rfl), if_pos (Or.inl rfl)]
  exact ⟨rfl, rfl⟩

example : ∃ s, Reachable s ∧ (
    decide ((s.insertChars 2).map (fun t => t.rowText 0) = .ok [65, 0, 0, 66, 67]) &&
    decide ((s.deleteChars 2).map (fun t => t.rowText 0) = .ok [65, 68, 69, 0, 0])) = true :=
  exists_of_holds (cs := [.resize 5 2] ++ text [65, 66, 67, 68, 69] ++ [.moveTo 1 0])
    (by decide +kernel)

end Verif.Props.Screen
