import Verif.Proofs.Vte.Canvas

/-!
# The screen is a window onto an endless roll
-/

namespace Verif
namespace Canvas

/-- `c` is the end of the roll `d`; `k` rows are above it. -/
structure Window (c d : Canvas) (k : Nat) : Prop where
  h0 : 0 < c.h
  w : d.w = c.w
  h : d.h = c.h + k
  cell : ∀ i j, d.cell (k + i) j = c.cell i j
  x : d.x = c.x
  y : d.y = k + c.y
  yle : c.y ≤ c.h - 1
  top : c.top = 0
  bot : c.bot = c.h - 1
  dbot : d.bot = d.h - 1
  pen : d.pen = c.pen
  base : d.base = c.base
  palette : d.palette = c.palette
  tabs : d.tabs = c.tabs
  insert : d.insert = c.insert
  autowrap : d.autowrap = c.autowrap
  newline : d.newline = c.newline
  main : c.main = none
  sets : d.sets = c.sets
  off : ∀ i j, c.h ≤ i → c.cell i j = none

/-- What a step has to do. -/
structure Next (c d c' d' : Canvas) (k : Nat) (g : List (Nat → Option Glyph)) : Prop where
  window : Window c' d' (k + g.length)
  rows : d'.rows (k + g.length) = d.rows k ++ g

/-- A change that keeps the number of rows. -/
theorem Window.keep {c d c' d' : Canvas} {k : Nat} (_ : Window c d k) (h' : Window c' d' k)
    (hr : ∀ i j, i < k → d'.cell i j = d.cell i j) : Next c d c' d' k [] := by
  refine ⟨h', ?_⟩
  show d'.rows k = d.rows k ++ []
  rw [List.append_nil]
  unfold Canvas.rows
  refine List.map_congr_left fun i hi => ?_
  funext j
  exact hr i j (List.mem_range.1 hi)

theorem Window.col {c d : Canvas} {k : Nat} (h : Window c d k) : d.col = c.col := by
  unfold Canvas.col
  rw [h.x, h.w]

theorem Window.shown {c d : Canvas} {k : Nat} (h : Window c d k) (g : Nat) : d.shown g = c.shown g := by
  unfold Canvas.shown
  rw [h.sets]

theorem Window.blank {c d : Canvas} {k : Nat} (h : Window c d k) : d.blank = c.blank := by
  unfold Canvas.blank
  rw [h.pen]

theorem Window.blankAt {c d : Canvas} {k : Nat} (h : Window c d k) (i j : Nat) : d.blankAt (k + i) j = c.blankAt i j := by
  unfold Canvas.blankAt
  rw [h.blank, h.w, h.h]
  by_cases hh : i < c.h ∧ j < c.w
  · rw [if_pos hh, if_pos (by omega)]
  · rw [if_neg hh, if_neg (by omega)]

theorem Window.tabRight {c d : Canvas} {k : Nat} (h : Window c d k) (n : Nat) : d.tabRight n = c.tabRight n := by
  unfold Canvas.tabRight
  rw [h.w, h.col, h.tabs]

theorem Window.tabLeft {c d : Canvas} {k : Nat} (h : Window c d k) (n : Nat) : d.tabLeft n = c.tabLeft n := by
  unfold Canvas.tabLeft
  rw [h.w, h.col, h.tabs]

/-- A change of the current row, of the column and of the tab stops. -/
theorem Window.edit {c d : Canvas} {k : Nat} (hw : Window c d k) {f g : Nat → Nat → Option Glyph} {x x' : Nat} {t t' : Nat → Bool}
    (hx : x' = x) (ht : t' = t) (hf : ∀ i j, g (k + i) j = f i j) (hg : ∀ i j, i ≠ d.y → g i j = d.cell i j)
    (ho : ∀ i j, c.h ≤ i → f i j = none) :
    Next c d { c with cell := f, x := x, tabs := t } { d with cell := g, x := x', tabs := t' } k [] := by
  refine hw.keep { hw with cell := hf, x := hx, tabs := ht, off := ho } fun i j hi => ?_
  exact hg i j (by have := hw.y; omega)

theorem Window.move {c d : Canvas} {k : Nat} (hw : Window c d k) {x x' : Nat} (hx : x' = x) :
    Next c d { c with x := x } { d with x := x' } k [] := hw.edit hx hw.tabs hw.cell (fun _ _ _ => rfl) hw.off

theorem Window.stay {c d : Canvas} {k : Nat} (hw : Window c d k) : Next c d c d k [] :=
  hw.keep hw (fun _ _ _ => rfl)

/-- A local change of the current row. -/
theorem Window.row {c d : Canvas} {k : Nat} (hw : Window c d k) {x x' : Nat} {P : Nat → Prop} [∀ j, Decidable (P j)]
    {F G : Nat → Nat → Option Glyph} (hx : x' = x) (hF : ∀ j, P j → G (k + c.y) j = F c.y j) :
    Next c d { c with x := x, cell := fun i j => if i = c.y ∧ P j then F i j else c.cell i j }
      { d with x := x', cell := fun i j => if i = d.y ∧ P j then G i j else d.cell i j } k [] := by
  refine hw.edit hx hw.tabs (fun i j => ?_) (fun i j hi => if_neg fun hh => hi hh.1) (fun i j hi => ?_)
  · by_cases hh : i = c.y ∧ P j
    · rw [if_pos hh, if_pos ⟨by rw [hw.y, hh.1], hh.2⟩, hh.1]
      exact hF j hh.2
    · rw [if_neg hh, if_neg (fun h2 => hh ⟨by have := hw.y; omega, h2.2⟩)]
      exact hw.cell i j
  · have h1 := hw.yle
    have h2 := hw.h0
    rw [if_neg (fun hh => by omega)]
    exact hw.off i j hi

theorem Window.fill {c d : Canvas} {k : Nat} (hw : Window c d k) (P : Nat → Bool) :
    Next c d (c.fill fun i j => decide (i = c.y) && P j) (d.fill fun i j => decide (i = d.y) && P j) k [] := by
  have := hw.row (x := c.x) (x' := d.x) (P := fun j => P j = true)
    (F := fun i j => (c.cell i j).map fun _ => c.blank) (G := fun i j => (d.cell i j).map fun _ => d.blank) hw.x
    (fun j _ => by rw [hw.cell, hw.blank])
  unfold Canvas.fill
  simp only [Bool.and_eq_true, decide_eq_true_eq]
  exact this

/-- The line feed. -/
theorem Window.feed {c d : Canvas} {k : Nat} (hw : Window c d k) :
    Next c d c.lineFeed (if d.y = d.bot then d.grow else d).lineFeed k c.fedRow := by
  have hh := hw.h
  have h0 := hw.h0
  have hy := hw.y
  have hyl := hw.yle
  have hb := hw.bot
  have hdb := hw.dbot
  unfold Canvas.fedRow
  by_cases hc : c.y = c.bot
  · have hd : d.y = d.bot := by omega
    rw [if_pos hd, if_pos ⟨by rw [hw.main]; rfl, hc⟩]
    have e1 : c.lineFeed = c.rowsUp c.top c.bot 1 := if_pos hc
    have e2 : d.grow.lineFeed = { d.grow with y := d.y + 1 } := by
      have : d.grow.lineFeed = { d.grow with y := min (d.y + 1) (d.h + 1 - 1) } :=
        if_neg (show ¬ d.y = d.bot + 1 by omega)
      rw [this, show min (d.y + 1) (d.h + 1 - 1) = d.y + 1 by omega]
    rw [e1, e2]
    refine ⟨?_, ?_⟩
    · refine { hw with h := ?_, cell := ?_, y := ?_, dbot := ?_, off := ?_ }
      · show d.h + 1 = c.h + (k + 1); omega
      · intro i j
        show (if k + 1 + i = d.h then if j < d.w then some d.blank else none else d.cell (k + 1 + i) j) =
          if c.top ≤ i ∧ i ≤ c.bot then if i + 1 ≤ c.bot then c.cell (i + 1) j else c.blankAt i j else c.cell i j
        rw [hw.top, hw.blank, hw.w, show k + 1 + i = k + (i + 1) by omega, hw.cell]
        unfold Canvas.blankAt
        by_cases h1 : i ≤ c.bot
        · by_cases h2 : i + 1 ≤ c.bot
          · rw [if_neg (show ¬ k + (i + 1) = d.h by omega), if_pos (show 0 ≤ i ∧ i ≤ c.bot by omega), if_pos h2]
          · rw [if_pos (show k + (i + 1) = d.h by omega), if_pos (show 0 ≤ i ∧ i ≤ c.bot by omega), if_neg h2]
            by_cases h3 : j < c.w
            · rw [if_pos h3, if_pos (by omega)]
            · rw [if_neg h3, if_neg (by omega)]
        · rw [if_neg (show ¬ k + (i + 1) = d.h by omega), if_neg (show ¬ (0 ≤ i ∧ i ≤ c.bot) by omega), hw.off _ _ (by omega),
            hw.off _ _ (by omega)]
      · show d.y + 1 = k + 1 + c.y; omega
      · show d.bot + 1 = d.h + 1 - 1; omega
      · intro i j hi
        have hi : c.h ≤ i := hi
        show (if c.top ≤ i ∧ i ≤ c.bot then _ else c.cell i j) = none
        rw [if_neg (by omega)]
        exact hw.off i j hi
    · show Canvas.rows { d.grow with y := d.y + 1 } (k + 1) = d.rows k ++ [c.cell c.top]
      unfold Canvas.rows
      rw [List.range_succ, List.map_append]
      have h1 : (List.range k).map d.grow.cell = (List.range k).map d.cell := by
        refine List.map_congr_left fun i hi => ?_
        have := List.mem_range.1 hi
        funext j
        show (if i = d.h then _ else d.cell i j) = _
        rw [if_neg (by omega)]
      have h2 : d.grow.cell k = c.cell c.top := by
        funext j
        show (if k = d.h then _ else d.cell k j) = _
        rw [if_neg (by omega), hw.top]
        exact hw.cell 0 j
      show (List.range k).map d.grow.cell ++ [d.grow.cell k] = _
      rw [h1, h2]
  · have hd : ¬ d.y = d.bot := by omega
    rw [if_neg hd, if_neg (fun hh => hc hh.2)]
    have e1 : c.lineFeed = { c with y := c.y + 1 } := by
      have : c.lineFeed = { c with y := min (c.y + 1) (c.h - 1) } := if_neg hc
      rw [this, show min (c.y + 1) (c.h - 1) = c.y + 1 by omega]
    have e2 : d.lineFeed = { d with y := d.y + 1 } := by
      have : d.lineFeed = { d with y := min (d.y + 1) (d.h - 1) } := if_neg hd
      rw [this, show min (d.y + 1) (d.h - 1) = d.y + 1 by omega]
    rw [e1, e2]
    exact hw.keep { hw with y := (by show d.y + 1 = k + (c.y + 1); omega), yle := (by show c.y + 1 ≤ c.h - 1; omega) }
      (fun _ _ _ => rfl)

/-- One step after another. -/
theorem Next.trans {c d c' d' c'' d'' : Canvas} {k : Nat} {g g' : List (Nat → Option Glyph)} (h : Next c d c' d' k g)
    (h' : Next c' d' c'' d'' (k + g.length) g') : Next c d c'' d'' k (g ++ g') := by
  refine ⟨?_, ?_⟩
  · rw [List.length_append, ← Nat.add_assoc]; exact h'.window
  · rw [List.length_append, ← Nat.add_assoc, h'.rows, h.rows, List.append_assoc]

theorem Next.then {c d c' d' c'' d'' : Canvas} {k : Nat} {g : List (Nat → Option Glyph)} (h : Next c d c' d' k g)
    (h' : Window c' d' (k + g.length) → Next c' d' c'' d'' (k + g.length) []) : Next c d c'' d'' k g := by
  have := h.trans (h' h.window)
  rwa [List.append_nil] at this

theorem Window.feed0 {c d : Canvas} {k : Nat} (hw : Window c d k) :
    Next c d { c.lineFeed with x := 0 } { (if d.y = d.bot then d.grow else d).lineFeed with x := 0 } k c.fedRow :=
  hw.feed.then fun h => h.move rfl

/-- Writing a character. -/
theorem Window.put {c d : Canvas} {k : Nat} (hw : Window c d k) (g wd : Nat) : Next c d (c.put g wd) (d.put g wd) k [] := by
  have := hw.row (x := c.x + wd) (x' := d.x + wd) (P := fun j => c.x ≤ j ∧ j < c.w)
    (F := fun i j => if j = c.x then some ⟨g, wd, c.pen⟩
        else if j < c.x + wd then (c.cell i j).map (fun d => { d with width := 0 })
        else if c.insert then c.cell i (j - wd) else c.cell i j)
    (G := fun i j => if j = c.x then some ⟨g, wd, c.pen⟩
        else if j < c.x + wd then (d.cell i j).map (fun d => { d with width := 0 })
        else if c.insert then d.cell i (j - wd) else d.cell i j) (by rw [hw.x])
    (fun j _ => by rw [hw.cell, hw.cell])
  unfold Canvas.put
  rw [hw.pen, hw.insert, hw.w, hw.x] at *
  exact this

theorem Window.feeds {c d : Canvas} {k : Nat} (hw : Window c d k) (a : Cmd) : d.feeds a = c.feeds a := by
  cases a with
  | text g wd =>
    show (decide (wd ≠ 0) && d.autowrap && decide (d.w ≤ d.x ∨ (d.w < d.x + wd ∧ wd ≤ d.w))) = _
    rw [hw.autowrap, hw.w, hw.x]; rfl
  | _ => rfl

theorem gone_fed {c : Canvas} {a : Cmd} (h : c.feeds a = true) : c.gone a = c.fedRow := by
  cases a with
  | text g wd =>
    have h : (decide (wd ≠ 0) && c.autowrap && decide (c.w ≤ c.x ∨ (c.w < c.x + wd ∧ wd ≤ c.w))) = true := h
    simp only [Bool.and_eq_true, decide_eq_true_eq] at h
    unfold Canvas.gone
    exact if_pos ⟨h.1.1, h.1.2, h.2⟩
  | lineFeed => rfl
  | index => rfl
  | nextLine => rfl
  | _ => cases h

theorem gone_not {c : Canvas} {a : Cmd} (ha : a.Line) (h : c.feeds a = false) : c.gone a = [] := by
  cases a with
  | text g wd =>
    have h : (decide (wd ≠ 0) && c.autowrap && decide (c.w ≤ c.x ∨ (c.w < c.x + wd ∧ wd ≤ c.w))) = false := h
    unfold Canvas.gone
    refine if_neg fun hh => ?_
    rw [decide_eq_true hh.1, hh.2.1, decide_eq_true hh.2.2] at h
    cases h
  | csi n k =>
    refine if_neg fun hh => ?_
    have ha : k ∈ ['C', 'D', 'G', 'K', 'X', '@', 'P', 'I', 'Z', 'g'] := ha
    rw [hh.1] at ha
    exact absurd ha (by decide)
  | lineFeed => cases h
  | index => cases h
  | nextLine => cases h
  | _ => rfl

theorem Window.setTabs {c d : Canvas} {k : Nat} (hw : Window c d k) {t t' : Nat → Bool} (ht : t' = t) :
    Next c d { c with tabs := t } { d with tabs := t' } k [] :=
  hw.edit hw.x ht hw.cell (fun _ _ _ => rfl) hw.off

theorem Window.putTab {c d : Canvas} {k : Nat} (hw : Window c d k) (on : Bool) : Next c d (c.putTab on) (d.putTab on) k [] := by
  unfold Canvas.putTab
  exact hw.setTabs (by rw [hw.col, hw.tabs])

theorem Window.csi {c d : Canvas} {k : Nat} (hw : Window c d k) (n : Nat) {l : Char}
    (hl : l ∈ ['C', 'D', 'G', 'K', 'X', '@', 'P', 'I', 'Z', 'g']) : Next c d (c.csi n l) (d.csi n l) k [] := by
  simp only [List.mem_cons, List.not_mem_nil, or_false] at hl
  rcases hl with rfl | rfl | rfl | rfl | rfl | rfl | rfl | rfl | rfl | rfl
  · exact hw.move (by rw [hw.col, hw.w])
  · exact hw.move (by rw [hw.col])
  · exact hw.move (by rw [hw.w])
  · show Next c d (if n = 0 then c.fill (fun i j => decide (i = c.y ∧ c.col ≤ j))
      else if n = 1 then c.fill (fun i j => decide (i = c.y ∧ j ≤ c.col))
      else if n = 2 then c.fill (fun i _ => decide (i = c.y)) else c)
      (if n = 0 then d.fill (fun i j => decide (i = d.y ∧ d.col ≤ j))
      else if n = 1 then d.fill (fun i j => decide (i = d.y ∧ j ≤ d.col))
      else if n = 2 then d.fill (fun i _ => decide (i = d.y)) else d) k []
    rw [hw.col]
    by_cases h0 : n = 0
    · rw [if_pos h0, if_pos h0]
      simpa only [Bool.decide_and] using hw.fill (fun j => decide (c.col ≤ j))
    rw [if_neg h0, if_neg h0]
    by_cases h1 : n = 1
    · rw [if_pos h1, if_pos h1]
      simpa only [Bool.decide_and] using hw.fill (fun j => decide (j ≤ c.col))
    rw [if_neg h1, if_neg h1]
    by_cases h2 : n = 2
    · rw [if_pos h2, if_pos h2]
      simpa only [Bool.and_true] using hw.fill (fun _ => true)
    rw [if_neg h2, if_neg h2]
    exact hw.stay
  · show Next c d (c.fill (fun i j => decide (i = c.y ∧ c.col ≤ j ∧ j < c.col + max 1 n)))
      (d.fill (fun i j => decide (i = d.y ∧ d.col ≤ j ∧ j < d.col + max 1 n))) k []
    rw [hw.col]
    simpa only [Bool.decide_and] using hw.fill (fun j => decide (c.col ≤ j ∧ j < c.col + max 1 n))
  · have := hw.row (x := c.col) (x' := d.col) (P := fun j => c.col ≤ j ∧ j < c.w)
      (F := fun i j => if c.col + max 1 n ≤ j then c.cell i (j - max 1 n) else c.blankAt i j)
      (G := fun i j => if c.col + max 1 n ≤ j then d.cell i (j - max 1 n) else d.blankAt i j) hw.col
      (fun j _ => by rw [hw.cell, hw.blankAt])
    have e : d.csi n '@' = { d with x := d.col, cell := fun i j =>
        if i = d.y ∧ c.col ≤ j ∧ j < c.w then if c.col + max 1 n ≤ j then d.cell i (j - max 1 n) else d.blankAt i j else d.cell i j } := by
      rw [← hw.col, ← hw.w]; rfl
    rw [e]
    exact this
  · have := hw.row (x := c.col) (x' := d.col) (P := fun j => c.col ≤ j ∧ j < c.w)
      (F := fun i j => if j + max 1 n < c.w then c.cell i (j + max 1 n) else c.blankAt i j)
      (G := fun i j => if j + max 1 n < c.w then d.cell i (j + max 1 n) else d.blankAt i j) hw.col
      (fun j _ => by rw [hw.cell, hw.blankAt])
    have e : d.csi n 'P' = { d with x := d.col, cell := fun i j =>
        if i = d.y ∧ c.col ≤ j ∧ j < c.w then if j + max 1 n < c.w then d.cell i (j + max 1 n) else d.blankAt i j else d.cell i j } := by
      rw [← hw.col, ← hw.w]; rfl
    rw [e]
    exact this
  · exact hw.move (hw.tabRight _)
  · exact hw.move (hw.tabLeft _)
  · show Next c d (if n = 0 then c.putTab false else if n = 3 then { c with tabs := fun _ => false } else c)
      (if n = 0 then d.putTab false else if n = 3 then { d with tabs := fun _ => false } else d) k []
    by_cases h0 : n = 0
    · rw [if_pos h0, if_pos h0]; exact hw.putTab false
    rw [if_neg h0, if_neg h0]
    by_cases h3 : n = 3
    · rw [if_pos h3, if_pos h3]; exact hw.setTabs rfl
    rw [if_neg h3, if_neg h3]
    exact hw.stay

/-- Every command of a program that writes line by line. -/
theorem Window.step {c d : Canvas} {k : Nat} (hw : Window c d k) {a : Cmd} (ha : a.Line) :
    Next c d (c.step a) (d.print a) k (c.gone a) := by
  unfold Canvas.print
  rw [hw.feeds]
  cases hf : c.feeds a with
  | true =>
    rw [gone_fed hf]
    have he : (if true = true ∧ d.y = d.bot then d.grow else d) = if d.y = d.bot then d.grow else d := by
      by_cases h : d.y = d.bot
      · rw [if_pos h, if_pos ⟨rfl, h⟩]
      · rw [if_neg h, if_neg (fun hh => h hh.2)]
    rw [he]
    cases a with
    | text g wd =>
      have h : (decide (wd ≠ 0) && c.autowrap && decide (c.w ≤ c.x ∨ (c.w < c.x + wd ∧ wd ≤ c.w))) = true := hf
      simp only [Bool.and_eq_true, decide_eq_true_eq] at h
      obtain ⟨⟨h0, h1⟩, h2⟩ := h
      have e1 : c.step (.text g wd) = ({ c.lineFeed with x := 0 } : Canvas).put (c.shown g) wd := by
        unfold Canvas.step Canvas.wrap
        dsimp only
        rw [if_neg h0, if_pos h1, if_pos h2]
      have e2 : ∀ e : Canvas, e.autowrap = d.autowrap → e.w = d.w → e.x = d.x → e.sets = d.sets →
          e.step (.text g wd) = ({ e.lineFeed with x := 0 } : Canvas).put (c.shown g) wd := by
        intro e ea ew ex es
        rw [← hw.shown g, ← show e.shown g = d.shown g by unfold Canvas.shown; rw [es]]
        unfold Canvas.step Canvas.wrap
        dsimp only
        rw [if_neg h0, if_pos (by rw [ea, hw.autowrap]; exact h1), if_pos (by rw [ew, ex, hw.w, hw.x]; exact h2)]
      rw [e1, e2 _ (by split <;> rfl) (by split <;> rfl) (by split <;> rfl) (by split <;> rfl)]
      exact hw.feed0.then fun h => h.put (c.shown g) wd
    | lineFeed =>
      show Next c d (if c.newline = true then { c.lineFeed with x := 0 } else c.lineFeed)
        (if (if d.y = d.bot then d.grow else d).newline = true then { (if d.y = d.bot then d.grow else d).lineFeed with x := 0 }
          else (if d.y = d.bot then d.grow else d).lineFeed) k c.fedRow
      rw [show (if d.y = d.bot then d.grow else d).newline = c.newline by rw [← hw.newline]; split <;> rfl]
      by_cases hn : c.newline = true
      · rw [if_pos hn, if_pos hn]; exact hw.feed0
      · rw [if_neg hn, if_neg hn]; exact hw.feed
    | index => exact hw.feed
    | nextLine => exact hw.feed0
    | _ => cases hf
  | false =>
    rw [gone_not ha hf, if_neg (fun hh => by cases hh.1)]
    cases a with
    | text g wd =>
      have h : (decide (wd ≠ 0) && c.autowrap && decide (c.w ≤ c.x ∨ (c.w < c.x + wd ∧ wd ≤ c.w))) = false := hf
      show Next c d (if wd = 0 then c else (c.wrap wd).put (c.shown g) wd) (if wd = 0 then d else (d.wrap wd).put (d.shown g) wd) k []
      rw [hw.shown g]
      by_cases h0 : wd = 0
      · rw [if_pos h0, if_pos h0]; exact hw.stay
      rw [if_neg h0, if_neg h0]
      have key : Next c d (c.wrap wd) (d.wrap wd) k [] := by
        unfold Canvas.wrap
        by_cases h1 : c.autowrap = true
        · rw [decide_eq_true (show wd ≠ 0 from h0), h1] at h
          have h : decide (c.w ≤ c.x ∨ (c.w < c.x + wd ∧ wd ≤ c.w)) = false := h
          have h := of_decide_eq_false h
          rw [if_pos h1, if_pos (hw.autowrap.trans h1), if_neg h, if_neg (by rw [hw.w, hw.x]; exact h)]
          exact hw.stay
        · rw [if_neg h1, if_neg (by rw [hw.autowrap]; exact h1)]
          exact hw.move hw.col
      exact key.then fun h => h.put (c.shown g) wd
    | carriageReturn => exact hw.move rfl
    | backspace => exact hw.move (by rw [hw.col])
    | tab => exact hw.move (hw.tabRight 1)
    | csi n l => exact hw.csi _ ha
    | style ps =>
      exact hw.keep { hw with pen := (by
        show Sgr.resolve d.palette (Sgr.attributes d.base d.pen _) = Sgr.resolve c.palette (Sgr.attributes c.base c.pen _)
        rw [hw.palette, hw.base, hw.pen]) } (fun _ _ _ => rfl)
    | setTab => exact hw.putTab true
    | insert on => exact hw.keep { hw with insert := rfl } (fun _ _ _ => rfl)
    | autowrap on => exact hw.keep { hw with autowrap := rfl } (fun _ _ _ => rfl)
    | newline on => exact hw.keep { hw with newline := rfl } (fun _ _ _ => rfl)
    | save => exact hw.keep { hw with } (fun _ _ _ => rfl)
    | charset one lines =>
      refine hw.keep { hw with sets := ?_ } (fun _ _ _ => rfl)
      show (if one then { d.sets with g1 := _ } else { d.sets with g0 := _ } : Canvas.Sets) = _
      rw [hw.sets]
      rfl
    | shift out =>
      refine hw.keep { hw with sets := ?_ } (fun _ _ _ => rfl)
      show { d.sets with out := out } = _
      rw [hw.sets]
      rfl
    | cursor on => exact hw.keep { hw with } (fun _ _ _ => rfl)
    | reverse on => exact hw.keep { hw with } (fun _ _ _ => rfl)
    | arrows on => exact hw.keep { hw with } (fun _ _ _ => rfl)
    | keypad on => exact hw.keep { hw with } (fun _ _ _ => rfl)
    | echo on => exact hw.keep { hw with } (fun _ _ _ => rfl)
    | other q on => exact hw.stay
    | ask q => exact hw.stay
    | lineFeed => cases hf
    | index => cases hf
    | nextLine => cases hf
    | _ => exact ha.elim

theorem Window.run : ∀ (l : List Cmd) {c d : Canvas} {k : Nat}, Window c d k → (∀ a ∈ l, a.Line) →
    Next c d (c.run l) (d.printAll l) k (c.goneAll l) := by
  intro l
  induction l with
  | nil => intro c d k hw _; exact hw.stay
  | cons a l ih =>
    intro c d k hw ha
    have h1 := hw.step (ha a (List.mem_cons_self ..))
    exact h1.trans (ih h1.window fun b hb => ha b (List.mem_cons_of_mem _ hb))

/-- A terminal is its own roll. -/
theorem Window.start {c : Canvas} (hc : Vte.Full c) (hm : c.main = none) (h0 : 0 < c.h) (ho : ∀ i j, c.h ≤ i → c.cell i j = none) :
    Window c c 0 where
  h0 := h0
  w := rfl
  h := rfl
  cell := fun i j => by rw [Nat.zero_add]
  x := rfl
  y := by rw [Nat.zero_add]
  yle := hc.y
  top := hc.top
  bot := hc.bot
  dbot := hc.bot
  pen := rfl
  base := rfl
  palette := rfl
  tabs := rfl
  insert := rfl
  autowrap := rfl
  newline := rfl
  main := hm
  sets := rfl
  off := ho

end Canvas
end Verif
