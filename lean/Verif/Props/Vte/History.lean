import Verif.Proofs.Vte.Roll
import Verif.Proofs.Vte.MemExample
import Verif.Props.Vte.Canvas
import Verif.Props.Screen.Render

/-!
# The scrollback and the screen are the end of what a program has printed (C101)
-/

namespace Verif.Props.Vte
open Verif Verif.Vte

theorem newest_append_all {α : Type} (n : Nat) (a b : List α) : View.newest (n + b.length) (a ++ b) = View.newest n a ++ b := by
  unfold View.newest
  rw [List.length_append, show a.length + b.length - (n + b.length) = a.length - n by omega, List.drop_append,
    show a.length - n - a.length = 0 by omega, List.drop_zero]

/-- **C101** (`_partial`) for every program: the scrollback receives exactly the rows that leave the scroll region of
the main screen at its top, each as it was when it left, and keeps the newest ones up to its maximum. Missing are the cases
excluded by `Canvas.Tame` (see C85) and, of course, memory running out. -/
theorem C101_scrollback_partial {v : Vte} (h : Reachable v) (hN : Normal v) (hm : v.con.MemOk) {l : List Cmd}
    (hv : ∀ a ∈ l, a.Valid v.con.sizeY) (ht : v.canvas.TameAll l) :
    ∃ v', v.input (l.flatMap Cmd.bytes) = .ok v' ∧ v'.con.view.sbMax = v.con.view.sbMax ∧
      v'.con.view.kept = View.newest v.con.view.sbMax (v.con.view.kept ++ v.canvas.goneAll l) := by
  obtain ⟨v', e, _, _, _, _, ha⟩ := run_shown l h hN hv ht
  exact ⟨v', e, ha.max, ha.rows hm⟩

/-- **C101** (`_partial`) for programs that write line by line: the scrollback and the screen are together the last rows of what the
program would have printed on an endless roll of paper, beginning at what was there before; and the cursor is at the same
place. Missing are wide characters in the last column and tab stops that are set right after it, see C85. -/
theorem C101_roll_partial {v : Vte} (h : Reachable v) (hN : Normal v) (hm : v.con.MemOk) (hF : Full v.canvas)
    (ha : v.con.useAlt = false) {l : List Cmd} (hv : ∀ a ∈ l, a.Valid v.con.sizeY ∧ a.Line) (ht : v.canvas.TameAll l) :
    ∃ v', v.input (l.flatMap Cmd.bytes) = .ok v' ∧
      v'.con.view.doc = View.newest (v.con.view.sbMax + v.con.sizeY) (v.con.view.kept ++
        (v.canvas.printAll l).rows (v.canvas.printAll l).h) ∧
      v'.con.cursorX = (v.canvas.printAll l).x ∧
      v'.con.cursorY + (v.canvas.printAll l).h = (v.canvas.printAll l).y + v.con.sizeY := by
  obtain ⟨v', e, u1, u2, hc, u3, hA⟩ := run_shown l h hN (fun a ha => (hv a ha).1) ht
  clear u1 u2 u3
  have hmain : v.canvas.main = none := by
    show (if v.con.useAlt then _ else _) = _
    rw [ha]; rfl
  have g0 := h.ok.1.con.geo.y0
  have hW := Canvas.Window.start hF hmain g0 (by
    intro i j hi
    have hi : v.con.sizeY ≤ i := hi
    cases hg : v.con.view.grid i j with
    | none => exact hg
    | some d =>
      have := (grid_some (s := v.con) (i := i) (j := j) (by rw [hg]; exact Option.some_ne_none _)).1
      omega)
  have hn := hW.run l (fun a ha => (hv a ha).2)
  rw [← hc] at hn
  generalize v.canvas.printAll l = r at hn ⊢
  have hw := hn.window
  have hrows := hn.rows
  rw [Nat.zero_add] at hw hrows
  rw [show v.canvas.rows 0 = [] from rfl, List.nil_append] at hrows
  have hsy : v'.con.sizeY = v.con.sizeY := (congrArg Canvas.h hc).trans (by
    clear hn hw hrows hA hc hW hv ht e
    suffices H : ∀ c : Canvas, (c.run l).h = c.h from H v.canvas
    induction l with
    | nil => intro c; rfl
    | cons a l ih => intro c; exact (ih (c.step a)).trans (Canvas.step_size c a).2)
  have hh : r.h = v.con.sizeY + (v.canvas.goneAll l).length := hw.h.trans (by rw [← hsy]; rfl)
  refine ⟨v', e, ?_, hw.x.symm, ?_⟩
  · have hr : r.rows r.h = v.canvas.goneAll l ++ (List.range v.con.sizeY).map v'.con.view.grid := by
      rw [← hrows, hh, Nat.add_comm]
      unfold Canvas.rows
      rw [List.range_add, List.map_append, List.map_map]
      congr 1
      refine List.map_congr_left fun i _ => ?_
      funext j
      exact hw.cell i j
    have hlen : v.con.sizeY = ((List.range v.con.sizeY).map v'.con.view.grid).length := by rw [List.length_map, List.length_range]
    rw [hr, ← List.append_assoc]
    have := newest_append_all v.con.view.sbMax (v.con.view.kept ++ v.canvas.goneAll l) ((List.range v.con.sizeY).map v'.con.view.grid)
    rw [← hlen] at this
    rw [this, ← hA.rows hm]
    show v'.con.view.kept ++ (List.range v'.con.sizeY).map v'.con.view.grid = _
    rw [hsy]
  · have hy : r.y = (v.canvas.goneAll l).length + v'.con.cursorY := hw.y
    omega

/-- **C101** without exceptions: after a reset, whatever a program that writes characters of one column line by line sends, the
scrollback and the screen are together the last rows of what it would have printed on an endless roll of paper. -/
theorem C101_roll {v : Vte} (h : Reachable v) (hb : Between v) (hm : v.con.MemOk) {l : List Cmd}
    (hv : ∀ a ∈ l, a.Valid v.con.sizeY ∧ a.Line ∧ a.Plain) :
    ∃ v', v.input (27 :: 99 :: l.flatMap Cmd.bytes) = .ok v' ∧
      let r := (Canvas.initial v.con.sizeX v.con.sizeY v.defAttr v.palette).printAll l
      v'.con.view.doc = View.newest (v.con.view.sbMax + v.con.sizeY) (r.rows r.h) ∧ v'.con.cursorX = r.x ∧
        v'.con.cursorY + r.h = r.y + v.con.sizeY := by
  obtain ⟨v1, e1, hp, _⟩ := C48_ris_partial h hb
  obtain ⟨n1, c1⟩ := reset_normal h e1 hp
  have r1 : Reachable v1 := h.step (c := .input _) trivial e1
  have hsz : v1.con.sizeY = v.con.sizeY := congrArg Canvas.h c1
  have hF : Usual v1.canvas := by
    rw [c1]
    exact ⟨rfl, rfl, Nat.zero_le _, h.ok.1.con.geo.x0, rfl, rfl⟩
  obtain ⟨v2, e2, hd, hx, hy⟩ := C101_roll_partial r1 n1 (memOk_input h e1 hm) hF.full (congrArg View.useAlt hp.view :)
    (by rw [hsz]; exact fun a ha => ⟨(hv a ha).1, (hv a ha).2.1⟩) (Usual.tameAll l hF fun a ha => (hv a ha).2.2)
  refine ⟨v2, ?_, ?_⟩
  · rw [show 27 :: 99 :: l.flatMap Cmd.bytes = [27, 99] ++ l.flatMap Cmd.bytes from rfl, input_append h.ok.1, e1]
    exact e2
  · have hk : v1.con.view.kept = [] := by
      unfold View.kept
      rw [show v1.con.view.sb = [] from congrArg View.sb hp.view]
      rfl
    have hmx : v1.con.view.sbMax = v.con.view.sbMax := (congrArg View.sbMax hp.view :)
    rw [hk, List.nil_append, c1, hsz, hmx] at hd
    rw [c1] at hx hy
    rw [hsz] at hy
    exact ⟨hd, hx, hy⟩

theorem shown_doc {s : Screen} (i j : Nat) (hi : i < s.sizeY) (hj : j < s.sizeX)
    (ht : s.view.topIndex ≤ s.view.sb.length) :
    s.view.shown i j = ((s.view.doc[s.view.topIndex + i]?).bind (· j)).getD s.view.blank := by
  unfold View.shown View.doc
  have hl : s.view.kept.length = s.view.sb.length := by unfold View.kept; rw [List.length_map]
  by_cases h : s.view.topIndex + i < s.view.sb.length
  · rw [if_pos h, List.getElem?_append_left (by rw [hl]; exact h)]
    unfold View.kept
    rw [List.getElem?_map]
    cases s.view.sb[s.view.topIndex + i]? with
    | none => rfl
    | some r =>
      show _ = (if j < s.sizeX then r.2[j]? else none).getD _
      rw [if_pos hj]; rfl
  · rw [if_neg h, List.getElem?_append_right (by rw [hl]; omega), hl, List.getElem?_map,
      List.getElem?_range (show _ < s.view.sizeY by show _ < s.sizeY; omega)]
    rfl

/-- **C101** as the user sees it: if the document is the end of a roll, then after `sb_reset` and `sb_up(n)` drawing shows
the rows of the roll that are `n` rows further up; `n` at most the number of lines in the scrollback. -/
theorem C101_look_back {s : Screen} (hr : s.Reachable) {roll : List (Nat → Option Glyph)} {m : Nat}
    (hd : s.view.doc = View.newest m roll) {n : Nat} (hn : n ≤ s.view.sb.length) :
    ∃ s' cs age s'', s.sbReset.sbUp n = .ok s' ∧ s'.draw = .ok (cs, age, s'') ∧ cs.length = s.sizeY * s.sizeX ∧
      ∀ c ∈ cs, c.y < s.sizeY ∧ c.x < s.sizeX ∧
        let g := ((roll[roll.length - s.sizeY - n + c.y]?).bind (· c.x)).getD s.view.blank
        c.ch = (if g.ch ≤ 0x7fffffff then g.ch else 0) ∧ c.width = g.width ∧ ∃ b, c.attr = { g.attr with inverse := b } := by
  obtain ⟨k, hv0, ht0⟩ := Screen.C37_sb_reset hr
  have r0 : s.sbReset.Reachable := hr.step (c := .sbReset) trivial rfl
  obtain ⟨s', q, k', e, hv, ht⟩ := Screen.C37_sb_up r0 n
  have r1 : s'.Reachable := r0.step (c := .sbUp n) trivial e
  obtain ⟨cs, age, s'', ed, hc, hlen⟩ := Screen.C25_coverage r1
  rw [hv0] at hv
  have hsy : s'.sizeY = s.sizeY := congrArg View.sizeY hv
  have hsx : s'.sizeX = s.sizeX := congrArg View.sizeX hv
  have hsb : s'.view.sb = s.view.sb := by rw [hv]
  have hdoc : s'.view.doc = s.view.doc := by rw [hv]; rfl
  have hbl : s'.view.blank = s.view.blank := by rw [hv]
  rw [ht0] at ht
  refine ⟨s', cs, age, s'', e, ed, by rw [hlen, hsy, hsx], fun c hcm => ?_⟩
  have hpos : (c.y, c.x) ∈ cs.map (fun c => (c.y, c.x)) := List.mem_map.2 ⟨c, hcm, rfl⟩
  rw [hc] at hpos
  obtain ⟨i, hi, hp⟩ := List.mem_flatMap.1 hpos
  obtain ⟨j, hj, hp⟩ := List.mem_map.1 hp
  injection hp with hp1 hp2
  subst hp1 hp2
  have hi := List.mem_range.1 hi
  have hj := List.mem_range.1 hj
  obtain ⟨h1, h2, h3, _⟩ := Screen.C26_content r1 ed c hcm
  have hshow := shown_doc (s := s') c.y c.x hi hj (by rw [ht, hsb]; omega)
  have hlen1 : s.view.doc.length = s.view.sb.length + s.sizeY := by
    unfold View.doc View.kept
    rw [List.length_append, List.length_map, List.length_map, List.length_range]
    rfl
  have hlen2 : roll.length - (roll.length - m) = s.view.sb.length + s.sizeY := by
    rw [← hlen1, hd]
    unfold View.newest
    rw [List.length_drop]
  have hidx : s'.view.doc[s'.view.topIndex + c.y]? = roll[roll.length - s.sizeY - n + c.y]? := by
    rw [hdoc, hd, ht]
    unfold View.newest
    rw [List.getElem?_drop]
    congr 1
    rw [hsy] at hi
    omega
  rw [hidx, hbl] at hshow
  rw [← hshow]
  exact ⟨by omega, by omega, h1, h2, h3⟩

/-! ### Examples -/

/-- The characters of a row. -/
def rowChars (w : Nat) (r : Nat → Option Glyph) : List Nat := (List.range w).map fun j => ((r j).map Glyph.ch).getD 0

/-- A program that writes five rows of four columns: the third one wraps, and the last one is red. -/
def lines : List Cmd :=
  [.text 65 1, .carriageReturn, .lineFeed, .text 66 1, .nextLine, .text 67 1, .text 68 1, .text 69 1, .text 70 1, .text 71 1,
    .csi [50] 'D', .style [[51, 49]], .nextLine, .text 72 1]

example : ∀ a ∈ lines, a.Valid 2 ∧ a.Line ∧ a.Plain := by
  intro a ha
  simp only [lines, List.mem_cons, List.not_mem_nil, or_false] at ha
  rcases ha with rfl | rfl | rfl | rfl | rfl | rfl | rfl | rfl | rfl | rfl | rfl | rfl | rfl | rfl
  all_goals
    first
      | exact ⟨trivial, trivial, trivial⟩
      | exact ⟨⟨by decide, by unfold Graphic; decide, by decide +kernel⟩, trivial, by show 1 ≤ 1; decide⟩
      | exact ⟨⟨⟨by unfold IsDigit; decide, by decide⟩, by decide⟩, by unfold Cmd.Line; decide, by unfold Cmd.Plain; decide⟩
      | exact ⟨⟨by decide, by unfold IsDigit; decide, by intro q hq; cases hq⟩, trivial, trivial⟩

/-- On a screen with two rows and a scrollback of two lines, the last four of the five rows are there, the first two of
them in the scrollback. -/
example : ∃ v, Reachable v ∧ v.con.MemOk ∧ (decide (Between v) && decide (v.con.sizeX = 4) && decide (v.con.sizeY = 2) &&
    decide (v.con.view.sbMax = 2) && decide ((((Canvas.initial 4 2 v.defAttr v.palette).printAll lines).rows 5).map (rowChars 4) =
      [[65, 0, 0, 0], [66, 0, 0, 0], [67, 68, 69, 70], [71, 0, 0, 0], [72, 0, 0, 0]]) &&
    gives (v.input (27 :: 99 :: lines.flatMap Cmd.bytes)) (fun v' => decide (v'.con.view.sb.length = 2) &&
      decide (v'.con.view.doc.map (rowChars 4) = [[66, 0, 0, 0], [67, 68, 69, 70], [71, 0, 0, 0], [72, 0, 0, 0]]))) = true :=
  exists_of_vholds_mem (cs := [.resize 4 2, .setMaxSb 2]) (sg := true) (vs := []) (by decide +kernel)

/-- Looking back by one line shows the rows one further up. -/
example : ∃ v, Reachable v ∧ v.con.MemOk ∧ (decide (v.con.view.sb.length = 2) &&
    gives (v.con.sbReset.sbUp 1) (fun s => gives s.draw fun r => decide (r.1.map (·.ch) = [67, 68, 69, 70, 71, 0, 0, 0]))) = true :=
  exists_of_vholds_mem (cs := [.resize 4 2, .setMaxSb 2]) (sg := true) (vs := [.input (27 :: 99 :: lines.flatMap Cmd.bytes)])
    (by decide +kernel)

/-- A program with a scroll region of the last two of three rows: also the rows that leave this region go to the scrollback. -/
example : ∃ v, Reachable v ∧ v.con.MemOk ∧ (
    gives (v.input [27, 99]) (fun v1 =>
      decide (v1.canvas.TameAll [.region [50] [51], .goto [51] [49], .text 65 1, .nextLine, .text 66 1, .csi [50] 'S']) &&
      decide ((v1.canvas.goneAll [.region [50] [51], .goto [51] [49], .text 65 1, .nextLine, .text 66 1, .csi [50] 'S']).map (rowChars 2) =
        [[0, 0], [65, 0], [66, 0]]))) = true :=
  exists_of_vholds_mem (cs := [.resize 2 3, .setMaxSb 5]) (sg := true) (vs := []) (by decide +kernel)

/-! ### Wide characters -/

/-- The claim for the commands with `P`. -/
def C101_claim (P : Cmd → Prop) : Prop :=
  ∀ (v : Vte) (l : List Cmd), Reachable v → Between v → v.con.MemOk → (∀ a ∈ l, a.Valid v.con.sizeY ∧ a.Line ∧ P a) →
    ∃ v', v.input (27 :: 99 :: l.flatMap Cmd.bytes) = .ok v' ∧
      let r := (Canvas.initial v.con.sizeX v.con.sizeY v.defAttr v.palette).printAll l
      v'.con.view.doc = View.newest (v.con.view.sbMax + v.con.sizeY) (r.rows r.h)

/-- **C101 is false** with wide characters: one that does not fit into the rest of the row is cut off, not wrapped. -/
theorem C101_wide_false : ¬ C101_claim (fun a => a.Plain ∨ ∃ g wd, a = .text g wd) := by
  intro hcl
  obtain ⟨v, hr, hm, hp⟩ := exists_of_vholds_mem (cs := [.resize 3 2]) (sg := true) (vs := [])
    (P := fun v => decide (Between v) && decide (v.con.sizeY = 2) &&
      gives (v.input (27 :: 99 :: ([.csi [51] 'G', .text 0x4e2d 2] : List Cmd).flatMap Cmd.bytes)) (fun v2 =>
        decide (v2.con.view.doc.map (rowChars 3) ≠ (View.newest (v.con.view.sbMax + v.con.sizeY)
          (((Canvas.initial v.con.sizeX v.con.sizeY v.defAttr v.palette).printAll [.csi [51] 'G', .text 0x4e2d 2]).rows
            ((Canvas.initial v.con.sizeX v.con.sizeY v.defAttr v.palette).printAll [.csi [51] 'G', .text 0x4e2d 2]).h)).map (rowChars 3))))
    (by decide +kernel)
  simp only [Bool.and_eq_true, decide_eq_true_eq] at hp
  obtain ⟨⟨hb, hy⟩, hg⟩ := hp
  obtain ⟨v2, e2, hg2⟩ := of_gives hg
  obtain ⟨v2', e2', hd⟩ := hcl v [.csi [51] 'G', .text 0x4e2d 2] hr hb hm (by
    rw [hy]
    intro a ha
    simp only [List.mem_cons, List.not_mem_nil, or_false] at ha
    rcases ha with rfl | rfl
    · exact ⟨⟨num_digit (by decide), by decide⟩, by unfold Cmd.Line; decide, Or.inl (by unfold Cmd.Plain; decide)⟩
    · exact ⟨⟨by decide, by unfold Graphic; decide, by decide +kernel⟩, trivial, Or.inr ⟨_, _, rfl⟩⟩)
  rw [e2] at e2'
  injection e2' with e2'
  subst e2'
  exact of_decide_eq_true hg2 (by rw [hd])

end Verif.Props.Vte
