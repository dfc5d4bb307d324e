import Verif.Proofs.Screen.SbPos
import Verif.Proofs.Screen.Example
import Verif.Proofs.Screen.SbNum

/-!
# Properties of scrolling and of the scrollback

C13 scroll up, C14 scroll down, C15 the scrollback is bounded and ordered, C35 a
selection follows its text, C37 moving the view, C38 the reported position.
-/

namespace Verif.Props.Screen

open Verif Verif.Screen

/-! ### C13 -/

/-- **C13.** `scroll_up(n)` on any reachable screen: `View.ScrollUp` says that the
region moves up by `m = min n (region height)` with blank rows coming in, that
nothing outside the region changes, and that on the main screen exactly the `m`
rows that left the region (`rows`, oldest first, each as wide as the screen or
wider) are appended to the scrollback (`kept`), none on the alternate screen;
rows can only be missing if an allocation failed. -/
theorem C13_scroll_up {s : Screen} (hr : Reachable s) {n : Nat} (h0 : 0 < n) :
    ∃ s' rows kept, s.scrollUp n = .ok s' ∧
      View.ScrollUp s.view s'.view (min n s.view.regionSize) s.MemOk rows kept := by
  obtain ⟨s', rows, kept, e, _, _, h⟩ := scrollUp_spec hr.inv h0
  exact ⟨s', rows, kept, e, h⟩

/-- **C13**, spelled out for a whole-screen scroll on the main screen with enough
memory and room: the new scrollback row `k` from the end of the old scrollback
shows old screen row `k`. -/
theorem C13_rows_in_scrollback {s : Screen} (hr : Reachable s) {n : Nat} (h0 : 0 < n)
    (hm : s.MemOk) (ha : s.flags.getLsbD 6 = false) (hn : n ≤ s.view.regionSize)
    (hroom : s.sb.length + n ≤ s.sbMax) :
    ∃ s', s.scrollUp n = .ok s' ∧ s'.sb.length = s.sb.length + n ∧
      (∀ k, k < s.sb.length → s'.view.sb[k]? = s.view.sb[k]?) ∧
      (∀ k j, k < n → j < s.sizeX →
        (s'.view.sb[s.sb.length + k]?.bind (fun r => r.2[j]?)) =
          s.view.grid (s.marginTop + k) j) := by
  obtain ⟨s', rows, kept, e, h⟩ := C13_scroll_up hr h0
  have hu : s.view.useAlt = false := hr.inv.geo.alias.trans ha
  rw [Nat.min_eq_left hn] at h
  have hk := h.full hu hm
  subst hk
  have hl : s.view.sb.length = s.sb.length := List.length_map ..
  have hlen := h.len
  have hsb : s'.view.sb = s.view.sb ++ View.number s.view.sbLastId kept := by
    rw [h.sb]
    unfold View.newest View.number
    rw [List.length_append, List.length_mapIdx, hlen, hl,
      show s.sb.length + n - s.view.sbMax = 0 from by show _ - s.sbMax = 0; omega, List.drop_zero]
  refine ⟨s', e, ?_, ?_, ?_⟩
  · have := congrArg List.length hsb
    rw [List.length_append, hl] at this
    unfold View.number at this
    rw [List.length_mapIdx, hlen] at this
    rw [← this]
    exact (List.length_map ..).symm
  · intro k hk
    rw [hsb, List.getElem?_append_left (by omega)]
  · intro k j hk hj
    rw [hsb, List.getElem?_append_right (by omega), hl, Nat.add_sub_cancel_left]
    unfold View.number
    rw [List.getElem?_mapIdx]
    have := h.row k j hk hj
    cases hr : kept[k]? with
    | none => rw [hr] at this; exact this
    | some r => rw [hr] at this; exact this

example : ∃ s, Reachable s ∧ (decide (0 < 2 ∧ 2 ≤ s.view.regionSize ∧ s.sb.length + 2 ≤ s.sbMax) &&
    !s.flags.getLsbD 6 && decide (((s.scrollUp 2).map fun t =>
      (t.sb.map fun l => (l.cells.map Cell.ch).take 1, (List.range 3).map t.rowText)) =
      .ok ([[65], [66]], [[67], [0], [0]]))) = true :=
  exists_of_holds (cs := [.resize 1 3, .setFlags 2#32, .setMaxSb 5] ++ text [65, 66, 67])
    (by decide +kernel)

/-! ### C14 -/

/-- A selection endpoint on a row moves down with the text. -/
def movedDown (n : Nat) (p : SelPos) : SelPos :=
  if p.line = none ∧ 0 ≤ p.y then { p with y := p.y + n } else p

/-- **C14.** `scroll_down(n)`: the region moves down by `min n (region height)`
rows, blank rows come in at the top, and nothing else changes except the rows of
the endpoints of an active selection; in particular not the scrollback. -/
theorem C14_scroll_down {s : Screen} (hr : Reachable s) {n : Nat} (h0 : 0 < n) :
    ∃ s', s.scrollDown n = .ok s' ∧
      s'.view = { s.view.setGrid (s.view.rowsDown s.marginTop s.marginBottom
          (min n s.view.regionSize)) with
        selStart := if s.selActive then movedDown (min n s.view.regionSize) s.selStart
          else s.selStart
        selEnd := if s.selActive then movedDown (min n s.view.regionSize) s.selEnd
          else s.selEnd } := by
  obtain ⟨s', e, _, _, h⟩ := scrollDown_spec hr.inv h0
  exact ⟨s', e, h⟩

/-- **C13**, **C14** for count 0: nothing happens. -/
theorem C14_zero (s : Screen) : s.scrollUp 0 = .ok s ∧ s.scrollDown 0 = .ok s := ⟨rfl, rfl⟩

example : ∃ s, Reachable s ∧ decide (((s.scrollDown 1).map fun t =>
      (t.sb.length, (List.range 4).map t.rowText)) =
      .ok (0, [[65], [0], [66], [68]])) = true :=
  exists_of_holds (cs := [.resize 1 4, .setFlags 2#32, .setMaxSb 5] ++ text [65, 66, 67, 68] ++
    [.setMargins 2 3]) (by decide +kernel)

/-! ### C15 -/

/-- **C15**, one call: any call other than `set_max_sb` and `clear_sb` either
leaves the scrollback alone or is one that scrolls, on the main screen, and
appends rows, the oldest being dropped beyond the maximum. -/
theorem C15_step {s s' : Screen} (hr : Reachable s) {c : Call} (hv : c.Valid)
    (ha : View.sbAdmin c = false) (e : c.run s = .ok s') :
    s'.sbMax = s.sbMax ∧
    ((s'.view.sb = s.view.sb ∧ s'.sbLastId = s.sbLastId) ∨
      (View.scrolls c = true ∧ s.useAlt = false ∧ ∃ pushed, View.Fed s.view s'.view pushed)) := by
  have hi := hr.inv
  by_cases hre : ∃ x y, c = .resize x y
  · obtain ⟨x, y, rfl⟩ := hre
    change (do let r ← s.resize x y; return r.2 : R Screen) = _ at e
    cases hres : s.resize x y with
    | error k => rw [hres] at e; cases e
    | ok r =>
      rw [hres] at e
      injection e with e
      subst e
      obtain ⟨ret, u⟩ := r
      obtain ⟨ret', u', e', _, hview⟩ := hi.resize x y hv.1 hv.2
      rw [hres] at e'
      injection e' with e'
      injection e' with e1 e2
      subst e1 e2
      have same : u.view = s.view → u.sbMax = s.sbMax ∧
          (u.view.sb = s.view.sb ∧ u.sbLastId = s.sbLastId ∨
            View.scrolls (.resize x y) = true ∧ s.useAlt = false ∧
              ∃ pushed, View.Fed s.view u.view pushed) := by
        intro h
        exact ⟨congrArg View.sbMax h, Or.inl ⟨by rw [h], congrArg View.sbLastId h⟩⟩
      by_cases hret : ret = .ok
      · subst hret
        by_cases h0 : x = 0 ∨ y = 0
        · unfold Screen.resize at hres
          rw [if_pos h0] at hres
          injection hres with hres
          injection hres with h1 h2
          cases h1
        by_cases h1 : s.sizeX = x ∧ s.sizeY = y
        · unfold Screen.resize at hres
          rw [if_neg h0, if_pos h1] at hres
          injection hres with hres
          injection hres with h2 h3
          exact same (by rw [h3])
        rcases resize_spec hi.dim hi.sb (x := x) (y := y) (by omega) (by omega) hv.1 hv.2 h1 with
          ⟨w, e', _⟩ | ⟨w, e', _, hz⟩
        · rw [hres] at e'; injection e' with e'; injection e' with h2 h3; cases h2
        · rw [hres] at e'
          injection e' with e'
          injection e' with h2 h3
          subst h3
          refine ⟨(congrArg View.sbMax hz.eq).trans rfl, ?_⟩
          by_cases hle : s.view.sizeY ≤ y
          · obtain ⟨k1, _, _, k4, _⟩ := hz.same hle
            exact Or.inl ⟨k1, k4⟩
          · obtain ⟨v, rows, kept, hs, k1, k2, k3, _⟩ := hz.scroll (Nat.lt_of_not_le hle)
            rcases Bool.eq_false_or_eq_true s.useAlt with hua | hua
            · left
              have hk := hs.alt hua
              subst hk
              have hlen : s.view.sb.length ≤ s.view.sbMax := hi.sbLe
              constructor
              · rw [k1, hs.sb]
                unfold View.newest View.number
                rw [List.mapIdx_nil, List.append_nil]
                show List.drop (s.view.sb.length - s.view.sbMax) s.view.sb = s.view.sb
                rw [Nat.sub_eq_zero_of_le hlen, List.drop_zero]
              · have : u.view.sbLastId = _ := k3.trans hs.last
                rw [show u.sbLastId = u.view.sbLastId from rfl, this]
                split <;> rfl
            · exact Or.inr ⟨rfl, hua, kept, k1.trans hs.sb, k3.trans hs.last⟩
      · exact same (hview hret)
  · have hk := step_keeps hi hv (fun x y h => hre ⟨x, y, h⟩) e
    have hmax : s'.sbMax = s.sbMax := hk.max (by
      intro m h; subst h; exact Bool.noConfusion ha)
    refine ⟨hmax, ?_⟩
    rcases Bool.eq_false_or_eq_true s.useAlt with hua | hua
    · exact Or.inl (hk.sb hua ha)
    · rcases hk.push ha with h | ⟨h1, h2⟩
      · exact Or.inl h
      · exact Or.inr ⟨h1, hua, h2⟩

theorem fed_nil {s s' : Screen} (hi : Inv s) (h1 : s'.view.sb = s.view.sb)
    (h2 : s'.sbLastId = s.sbLastId) : View.Fed s.view s'.view [] := by
  have hlen : s.view.sb.length ≤ s.view.sbMax := hi.sbLe
  constructor
  · rw [h1]
    unfold View.newest View.number
    rw [List.mapIdx_nil, List.append_nil, Nat.sub_eq_zero_of_le hlen, List.drop_zero]
  · show s'.sbLastId = _
    rw [h2]
    split <;> rfl

/-- **C15**, histories: along any sequence of calls other than `set_max_sb` and
`clear_sb`, the scrollback at the end is the scrollback at the start followed by
all rows pushed on the way, in order, cut to the newest `sbMax` ones. -/
theorem C15_history (cs : List Call) : ∀ {s t : Screen}, Reachable s → (∀ c ∈ cs, c.Valid) →
    (∀ c ∈ cs, View.sbAdmin c = false) → runAll cs s = .ok t →
    t.sbMax = s.sbMax ∧ ∃ pushed, View.Fed s.view t.view pushed := by
  induction cs with
  | nil =>
    intro s t hr _ _ e
    injection e with e
    subst e
    exact ⟨rfl, [], fed_nil hr.inv rfl rfl⟩
  | cons c cs ih =>
    intro s t hr hv ha e
    change (do let s ← c.run s; runAll cs s : R Screen) = _ at e
    cases hd : c.run s with
    | error k => rw [hd] at e; cases e
    | ok u =>
      rw [hd] at e
      have hvc := hv c (List.mem_cons_self ..)
      obtain ⟨hm, hs⟩ := C15_step hr hvc (ha c (List.mem_cons_self ..)) hd
      obtain ⟨hm', q, hq⟩ := ih (hr.step hvc hd) (fun c hc => hv c (List.mem_cons_of_mem _ hc))
        (fun c hc => ha c (List.mem_cons_of_mem _ hc)) e
      refine ⟨hm'.trans hm, ?_⟩
      rcases hs with ⟨h1, h2⟩ | ⟨_, _, p, hp⟩
      · exact ⟨[] ++ q, Fed.trans (fed_nil hr.inv h1 h2) hq hm⟩
      · exact ⟨p ++ q, Fed.trans hp hq hm⟩

/-- **C15**, setting the maximum: the newest `max` lines remain. -/
theorem C15_set_max {s : Screen} (hr : Reachable s) (max : Nat) :
    ∃ s', s.setMaxSb max = .ok s' ∧ s'.sbMax = max ∧
      s'.view.sb = s.view.sb.drop (s.view.sb.length - max) := by
  refine ⟨_, setMaxSb_eq hr.inv max, rfl, ?_⟩
  rw [setMaxSb_view]

/-- **C15**, clearing. -/
theorem C15_clear (s : Screen) : s.clearSb.view.sb = [] ∧ s.clearSb.view.grid = s.view.grid := by
  rw [clearSb_view]
  exact ⟨rfl, rfl⟩

/-- A sequence of five scrolls with room for two lines. -/
example : ∃ s, Reachable s ∧ decide (((runAll [.scrollUp 2, .newline, .write 70 Attr.zero] s).map
    fun t => t.sb.map fun l => (l.cells.map Cell.ch).take 1) = .ok [[67], [68]]) = true :=
  exists_of_holds (cs := [.resize 1 4, .setFlags 2#32, .setMaxSb 2] ++ text [65, 66, 67, 68] ++
    [.moveTo 0 3, .scrollUp 1]) (by decide +kernel)

/-! ### C35 -/

/-- **C35.** When the whole main screen scrolls up by `n` rows (no allocation
fails), both endpoints of an active selection follow their text (`View.follow`),
and the scrollback line an endpoint on row `y < n` gets attached to, the
`(n - y)`-th newest, shows what row `y` showed. -/
theorem C35_selection_follows {s : Screen} (hr : Reachable s) (hm : s.MemOk)
    (ha : s.flags.getLsbD 6 = false) (htop : s.marginTop = 0)
    (hbot : s.marginBottom = s.sizeY - 1) (hact : s.selActive = true) {n : Nat} (h0 : 0 < n)
    (hn : n ≤ s.sizeY) :
    ∃ s', s.scrollUp n = .ok s' ∧ s'.selActive = true ∧
      s'.selStart = View.follow (s'.view.sb.map Prod.fst) n s.selStart ∧
      s'.selEnd = View.follow (s'.view.sb.map Prod.fst) n s.selEnd ∧
      ∀ y j, y < n → j < s.sizeX → ∀ r, s'.view.sb.reverse[n - y - 1]? = some r →
        r.2[j]? = s.view.grid y j := by
  obtain ⟨s', rows, kept, e, h⟩ := C13_scroll_up hr h0
  have hu : s.view.useAlt = false := hr.inv.geo.alias.trans ha
  have hy := hr.inv.geo.y0
  have hreg : s.view.regionSize = s.sizeY := by
    show s.marginBottom + 1 - s.marginTop = s.sizeY
    omega
  rw [hreg, Nat.min_eq_left hn] at h
  have hk := h.full hu hm
  subst hk
  obtain ⟨k1, k2⟩ := h.sel hu hm
  have hact' : s.view.selActive = true := hact
  rw [if_pos hact'] at k1 k2
  refine ⟨s', e, ?_, k1, k2, ?_⟩
  · have := congrArg View.selActive h.eq
    have hg : (s.view.setGrid (s.view.rowsUp s.view.marginTop s.view.marginBottom n)).selActive =
        s.view.selActive := by unfold View.setGrid; split <;> rfl
    exact (this.trans hg).trans hact
  · intro y j hyn hj r hrr
    have hlen := h.len
    rw [h.sb] at hrr
    have hrev : ∀ {α : Type} (m : Nat) (l : List α), (View.newest m l).reverse = l.reverse.take m :=
      fun m l => lastN_reverse m l
    rw [hrev, List.getElem?_take] at hrr
    split at hrr
    · rw [List.reverse_append, List.getElem?_append_left (by
        unfold View.number; rw [List.length_reverse, List.length_mapIdx]; omega)] at hrr
      unfold View.number at hrr
      rw [List.getElem?_reverse (by rw [List.length_mapIdx]; omega), List.length_mapIdx, hlen,
        List.getElem?_mapIdx, show n - 1 - (n - y - 1) = y by omega] at hrr
      have hrow := h.row y j hyn hj
      cases hz : kept[y]? with
      | none => rw [hz] at hrr; cases hrr
      | some z =>
        rw [hz] at hrr hrow
        injection hrr with hrr
        rw [← hrr]
        have ht : s.view.marginTop = 0 := htop
        rw [ht, Nat.zero_add] at hrow
        exact hrow
    · cases hrr

/-- A selection from row 0 to row 2 of "A", "B", "C"; after scrolling by two, it
starts in the scrollback line "A" and ends in row 0. -/
example : ∃ s, Reachable s ∧ (s.selActive && decide (s.marginTop = 0 ∧ s.marginBottom = s.sizeY - 1) &&
    decide (((s.scrollUp 2).map fun t => (t.selStart, t.selEnd, t.sb.map fun l =>
      (l.sbId, (l.cells.map Cell.ch).take 1))) =
      .ok (⟨some 1, 0, -1⟩, ⟨none, 0, 0⟩, [(1, [65]), (2, [66])]))) = true :=
  exists_of_holds (cs := [.resize 1 3, .setFlags 2#32, .setMaxSb 5] ++ text [65, 66, 67] ++
    [.selectionStart 0 0, .selectionTarget 0 2]) (by decide +kernel)

/-! ### C37 -/

/-- **C37.** `sb_up(n)` moves the view up by exactly `n` lines, stopping at the
oldest line; only the view position changes. -/
theorem C37_sb_up {s : Screen} (hr : Reachable s) (n : Nat) :
    ∃ s' q m, s.sbUp n = .ok s' ∧ s'.view = { s.view with sbPos := q, sbPosNum := m } ∧
      s'.view.topIndex = s.view.topIndex - n := by
  obtain ⟨s', q, m, e, _, hv, ht, _⟩ := sbUp_spec hr.inv n
  exact ⟨s', q, m, e, hv, ht⟩

/-- **C37.** `sb_down(n)` moves the view down by exactly `n` lines, stopping at
the live screen. -/
theorem C37_sb_down {s : Screen} (hr : Reachable s) (n : Nat) :
    ∃ s' q m, s.sbDown n = .ok s' ∧ s'.view = { s.view with sbPos := q, sbPosNum := m } ∧
      s'.view.topIndex = min (s.view.topIndex + n) s.sb.length := by
  obtain ⟨s', q, m, e, _, hv, ht, _⟩ := sbDown_spec hr.inv n
  exact ⟨s', q, m, e, hv, ht⟩

/-- **C37.** `sb_reset` returns to the live screen. -/
theorem C37_sb_reset {s : Screen} (hr : Reachable s) :
    ∃ m, s.sbReset.view = { s.view with sbPos := none, sbPosNum := m } ∧
      s.sbReset.view.topIndex = s.view.sb.length := by
  refine ⟨_, (sbReset_spec hr.inv).2, ?_⟩
  rw [(sbReset_spec hr.inv).2]

/-- The claim for the page variants. -/
def C37_page_claim : Prop :=
  ∀ (s : Screen) (n : Nat), Reachable s → n < 2 ^ 32 →
    ∃ s', s.sbPageUp n = .ok s' ∧ s'.view.topIndex = s.view.topIndex - n * s.sizeY

/-- **C37 is false** for the page variants with a huge number of pages: the
product of pages and height wraps around (here to 0), the view does not move. -/
theorem C37_page_false : ¬ C37_page_claim := by
  intro h
  have hx : ∃ s, Reachable s ∧ (decide (s.sizeY = 24) && decide (s.view.topIndex = 2) &&
      decide (((s.sbPageUp 536870912).map fun t => t.view.topIndex) = .ok 2)) = true :=
    exists_of_holds (cs := [.setMaxSb 5, .scrollUp 2]) (by decide +kernel)
  obtain ⟨s, hr, hp⟩ := hx
  rw [Bool.and_eq_true, Bool.and_eq_true] at hp
  obtain ⟨⟨h1, h2⟩, h3⟩ := hp
  have h1 := of_decide_eq_true h1
  have h2 := of_decide_eq_true h2
  have h3 := of_decide_eq_true h3
  obtain ⟨s', e, ht⟩ := h s 536870912 hr (by omega)
  rw [e] at h3
  injection h3 with h3
  change s'.view.topIndex = 2 at h3
  rw [h1, h2, h3] at ht
  omega

/-- **C37** for the page variants (partial: the product must be in range). -/
theorem C37_page_partial {s : Screen} (hr : Reachable s) {n : Nat} (hn : n * s.sizeY < 2 ^ 32) :
    (∃ s' q m, s.sbPageUp n = .ok s' ∧ s'.view = { s.view with sbPos := q, sbPosNum := m } ∧
      s'.view.topIndex = s.view.topIndex - n * s.sizeY) ∧
    (∃ s' q m, s.sbPageDown n = .ok s' ∧ s'.view = { s.view with sbPos := q, sbPosNum := m } ∧
      s'.view.topIndex = min (s.view.topIndex + n * s.sizeY) s.sb.length) := by
  have hu : u32 (n * s.sizeY) = n * s.sizeY := by unfold u32; exact Nat.mod_eq_of_lt hn
  obtain ⟨k, hk⟩ := hr.inv.sb.atPos
  have hti := hk.topIndex hr.inv.sb
  have hkl := hk.1
  constructor
  · unfold sbPageUp
    by_cases h0 : n = 0
    · subst h0
      rw [if_pos rfl, Nat.zero_mul]
      exact ⟨s, s.sbPos, s.sbPosNum, rfl, rfl, rfl⟩
    · rw [if_neg h0, hu]
      obtain ⟨s', q, m, e, _, hv, ht, _⟩ := sbUp_spec hr.inv.incAge (n * s.sizeY)
      rw [incAge_view] at hv ht
      exact ⟨s', q, m, e, hv, ht⟩
  · unfold sbPageDown
    by_cases h0 : n = 0
    · subst h0
      rw [if_pos rfl, Nat.zero_mul]
      exact ⟨s, s.sbPos, s.sbPosNum, rfl, rfl, by omega⟩
    · rw [if_neg h0, hu]
      obtain ⟨s', q, m, e, _, hv, ht, _⟩ := sbDown_spec hr.inv.incAge (n * s.sizeY)
      rw [incAge_view] at hv ht
      refine ⟨s', q, m, e, hv, ?_⟩
      rw [ht]
      show min _ s.incAge.sb.length = _
      rw [ia_sb]

/-- Four lines in the scrollback, the view two lines up; one page more. -/
example : ∃ s, Reachable s ∧ (decide (s.view.topIndex = 2) && decide (s.sizeY = 1) &&
    decide (((s.sbPageUp 1).map fun t => t.view.topIndex) = .ok 1) &&
    decide (((s.sbDown 5).map fun t => (t.view.topIndex, t.sbPos)) = .ok (4, none))) = true :=
  exists_of_holds (cs := [.resize 3 1, .setMaxSb 9, .scrollUp 1, .scrollUp 1, .scrollUp 1,
    .scrollUp 1, .sbUp 2]) (by decide +kernel)

/-! ### C38 -/

/-- The claim: the reported position (`tsm_screen_sb_get_line_pos` returns
`sb_pos_num`, src/tsm/tsm-screen.c:946-953) is the index of the first visible
line. -/
def C38_claim : Prop := ∀ s : Screen, Reachable s → s.sbPosNum = s.view.topIndex

/-- **C38 is false**: with two lines in the scrollback and after returning to the
live screen by `sb_reset`, the position is reported as 0. -/
theorem C38_false : ¬ C38_claim := by
  intro h
  obtain ⟨s, hr, hp⟩ := exists_of_holds (cs := [.setMaxSb 5, .scrollUp 2, .sbUp 1, .sbReset])
    (P := fun s => decide (s.sbPosNum = 0) && decide (s.view.topIndex = 2)) (by decide +kernel)
  rw [Bool.and_eq_true] at hp
  have h1 := of_decide_eq_true hp.1
  have h2 := of_decide_eq_true hp.2
  have := h s hr
  omega

/-- **C38 is false** even for a scrolled-back view: when the scrollback is full,
each new line drops the oldest one but the position drifts upwards. -/
theorem C38_false_scrolled : ¬ ∀ s : Screen, Reachable s → s.sbPos ≠ none →
    s.sbPosNum = s.view.topIndex := by
  intro h
  obtain ⟨s, hr, hp⟩ := exists_of_holds (cs := [.setMaxSb 2, .scrollUp 2, .sbUp 1, .scrollUp 1])
    (P := fun s => decide (s.sbPos ≠ none) && decide (s.sbPosNum ≠ s.view.topIndex))
    (by decide +kernel)
  rw [Bool.and_eq_true] at hp
  exact of_decide_eq_true hp.2 (h s hr (of_decide_eq_true hp.1))

/-- **C38** (partial): leaving the live screen upwards makes the report correct,
and from then on moving the view keeps it correct, also back to the live
screen. Missing: calls that change the scrollback meanwhile (`C38_step_partial`). -/
theorem C38_moves_partial {s s' : Screen} (hr : Reachable s) (n : Nat) :
    (s.sbUp n = .ok s' → (s.sbPosNum = s.view.topIndex ∨ 0 < n ∧ s.sbPos = none ∧ s.sb ≠ []) →
      s'.sbPosNum = s'.view.topIndex) ∧
    (s.sbDown n = .ok s' → s.sbPosNum = s.view.topIndex → s'.sbPosNum = s'.view.topIndex) := by
  constructor
  · intro e hn
    obtain ⟨t, _, _, e', _, ht⟩ := C37_sb_up hr n
    rw [e] at e'
    injection e' with e'
    subst e'
    rw [ht]
    exact sbUp_num hr.inv e hn
  · intro e hn
    obtain ⟨t, _, _, e', _, ht⟩ := C37_sb_down hr n
    rw [e] at e'
    injection e' with e'
    subst e'
    rw [ht]
    exact sbDown_num hr.inv e hn

example : ∃ s, Reachable s ∧ (decide (s.sbPos = none) && decide (s.sb.length = 3) &&
    decide (((s.sbUp 2).map fun t => t.sbPosNum) = .ok 1)) = true :=
  exists_of_holds (cs := [.setMaxSb 9, .scrollUp 3]) (by decide +kernel)

/-- The calls that break the report: returning to the live screen and lowering
the maximum. -/
def misreports : Call → Bool
  | .sbReset | .setMaxSb _ => true
  | _ => false

/-- **C38** (partial): a right report stays right over every call but `sb_reset`
and `set_max_sb`, as long as the live screen is shown or the oldest line of the
scrollback stays where it is. Missing: what happens when lines are dropped under
a view that is scrolled back (false, see above). -/
theorem C38_step_partial {s s' : Screen} (hr : Reachable s) {c : Call} (hc : misreports c = false)
    (e : c.run s = .ok s') (hn : s.sbPosNum = s.view.topIndex)
    (hold : s.sbPos = none ∨ s'.view.sb.head?.map Prod.fst = s.view.sb.head?.map Prod.fst) :
    s'.sbPosNum = s'.view.topIndex := by
  have hup : ∀ {s : Screen}, Inv s → ∀ n t, s.sbUp n = .ok t → s.sbPosNum = s.view.topIndex →
      t.sbPosNum = t.view.topIndex := by
    intro s hi n t e hn
    obtain ⟨t', _, _, e', _, _, ht, _⟩ := sbUp_spec hi n
    rw [e] at e'
    injection e' with e'
    subst e'
    rw [ht]
    exact sbUp_num hi e (Or.inl hn)
  have hdown : ∀ {s : Screen}, Inv s → ∀ n t, s.sbDown n = .ok t → s.sbPosNum = s.view.topIndex →
      t.sbPosNum = t.view.topIndex := by
    intro s hi n t e hn
    obtain ⟨t', _, _, e', _, _, ht, _⟩ := sbDown_spec hi n
    rw [e] at e'
    injection e' with e'
    subst e'
    rw [ht]
    exact sbDown_num hi e hn
  have hage : s.incAge.sbPosNum = s.incAge.view.topIndex := by
    rw [incAge_view]
    exact (congrArg View.sbPosNum (incAge_view s)).trans hn
  by_cases hb : c.bars = true
  · cases c with
    | setMaxSb m => cases hc
    | sbReset => cases hc
    | clearSb =>
      injection e with e
      subst e
      rfl
    | sbUp n => exact hup hr.inv n s' e hn
    | sbDown n => exact hdown hr.inv n s' e hn
    | sbPageUp n =>
      change s.sbPageUp n = _ at e
      unfold sbPageUp at e
      split at e
      · injection e with e
        subst e
        exact hn
      · exact hup hr.inv.incAge _ s' e hage
    | sbPageDown n =>
      change s.sbPageDown n = _ at e
      unfold sbPageDown at e
      split at e
      · injection e with e
        subst e
        exact hn
      · exact hdown hr.inv.incAge _ s' e hage
    | _ => cases hb
  · have hb : c.bars = false := by cases h : c.bars with
      | false => rfl
      | true => exact absurd h hb
    have hcnt := hr.inv.counted
    have hpos : ∀ p, s.sbPos = some p → p ∈ ids s.sb := fun p hp => hr.inv.sb.pos' hp
    have hfst : ∀ t : Screen, t.view.sb.head?.map Prod.fst = t.sb.head?.map Line.sbId := by
      intro t
      show (t.sb.map _).head?.map Prod.fst = _
      cases t.sb with
      | nil => rfl
      | cons l ls => rfl
    have hstart : Right ((s.sb.head?.map Line.sbId).getD 0) s.bar := by
      refine ⟨hcnt, ?_, ?_, ?_, fun _ => ⟨hpos, hn.trans (bar_top s).symm⟩⟩
      · intro q hq
        have hq : q ∈ ids s.sb := hq
        have hs : (ids s.sb).Pairwise (· < ·) := hcnt.sorted
        cases hsb : s.sb with
        | nil => exact Nat.zero_le _
        | cons l ls =>
          rw [hsb] at hq hs
          show l.sbId ≤ q
          rcases List.mem_cons.mp hq with h | h
          · exact Nat.le_of_eq h.symm
          · exact Nat.le_of_lt ((List.pairwise_cons.mp hs).1 q h)
      · cases hsb : s.sb with
        | nil => exact Nat.zero_le _
        | cons l ls =>
          have := hcnt.last l.sbId (by show _ ∈ ids s.sb; rw [hsb]; exact List.mem_cons_self ..)
          show l.sbId ≤ s.bar.last + 1
          omega
      · intro hp hs
        have hs : s.sb = [] := hs
        cases hq : s.sbPos with
        | none => exact hp hq
        | some p =>
          have := hpos p hq
          rw [hs] at this
          cases this
    have hend := step_bar (Right.links _) hstart hb
    rw [e] at hend
    have hend : Right ((s.sb.head?.map Line.sbId).getD 0) s'.bar := hend
    have hlive : s.sbPos = none → s'.sbPos = none := by
      intro hp
      have := step_bar (Healed.links s.sbLastId) (s := s) ⟨hcnt, hp, Or.inl rfl⟩ hb
      rw [e] at this
      exact Healed.live this
    have hcond : s'.bar.pos = none ∨ s'.bar.sb.head?.map Line.sbId = some ((s.sb.head?.map Line.sbId).getD 0) := by
      rcases hold with h | h
      · exact Or.inl (hlive h)
      · rw [hfst, hfst] at h
        cases hsb : s.sb with
        | nil =>
          left
          apply hlive
          cases hq : s.sbPos with
          | none => rfl
          | some p =>
            have := hpos p hq
            rw [hsb] at this
            cases this
        | cons l ls =>
          right
          rw [hsb] at h
          exact h
    exact (hend.right hcond).2.trans (bar_top s')

/-- The view two lines up, room for more: three lines are printed. -/
example : ∃ s, Reachable s ∧ (decide (s.sbPos ≠ none) && decide (s.sbPosNum = s.view.topIndex) &&
    decide ((((Call.scrollUp 3).run s).map fun t => (t.view.topIndex, t.sbPosNum, t.sb.length,
      decide (t.view.sb.head?.map Prod.fst = s.view.sb.head?.map Prod.fst))) = .ok (2, 2, 7, true))) = true :=
  exists_of_holds (cs := [.setMaxSb 9, .scrollUp 4, .sbUp 2]) (by decide +kernel)

/-- **C38** (partial): a new maximum that keeps all lines keeps a right report
right. Missing: a maximum that drops lines (false, `C38_false_max`). -/
theorem C38_max_partial {s s' : Screen} (hr : Reachable s) {max : Nat} (hm : s.sb.length ≤ max)
    (e : s.setMaxSb max = .ok s') (hn : s.sbPosNum = s.view.topIndex) : s'.sbPosNum = s'.view.topIndex := by
  rw [setMaxSb_eq hr.inv max] at e
  injection e with e
  have hv := setMaxSb_view s max
  rw [e] at hv
  have hnew : View.newest max s.view.sb = s.view.sb := by
    unfold View.newest
    rw [show s.view.sb.length = s.sb.length from List.length_map .., Nat.sub_eq_zero_of_le hm, List.drop_zero]
  have hkeep : View.keepPos (s.view.sb.map Prod.fst) s.sbPos = s.sbPos := by
    cases hp : s.sbPos with
    | none => rfl
    | some p =>
      exact if_pos (show p ∈ (s.sb.map Line.row).map Prod.fst by
        rw [ids_row]; exact hr.inv.sb.pos' hp)
  rw [hnew, hkeep] at hv
  have h1 : s'.view.sbPosNum = s.view.sbPosNum := by rw [hv]
  have h2 : s'.view.topIndex = s.view.topIndex := by rw [hv]; rfl
  exact h1.trans (hn.trans h2.symm)

/-- **C38 is false** when the maximum drops lines, even on the live screen. -/
theorem C38_false_max : ¬ ∀ (s s' : Screen) (max : Nat), Reachable s → s.setMaxSb max = .ok s' →
    s.sbPosNum = s.view.topIndex → s'.sbPosNum = s'.view.topIndex := by
  intro h
  obtain ⟨s, hr, hp⟩ := exists_of_holds (cs := [.setMaxSb 5, .scrollUp 3])
    (P := fun s => decide (s.sbPosNum = s.view.topIndex) &&
      decide ((s.setMaxSb 2).map (fun t => (t.sbPosNum, t.view.topIndex)) = .ok (3, 2))) (by decide +kernel)
  rw [Bool.and_eq_true] at hp
  have h1 := of_decide_eq_true hp.1
  have h2 := of_decide_eq_true hp.2
  cases e : s.setMaxSb 2 with
  | error u => rw [e] at h2; cases h2
  | ok t =>
    have h3 := h s t 2 hr e h1
    rw [e] at h2
    injection h2 with h2
    injection h2 with h4 h5
    omega

example : ∃ s, Reachable s ∧ (decide (s.sbPos ≠ none) && decide (s.sb.length ≤ 4) &&
    decide (s.sbPosNum = s.view.topIndex) &&
    decide ((s.setMaxSb 4).map (fun t => (t.sbPosNum, t.view.topIndex)) = .ok (1, 1))) = true :=
  exists_of_holds (cs := [.setMaxSb 9, .scrollUp 3, .sbUp 2]) (by decide +kernel)

/-- **C38**, repair: a call that pushes a line while the live screen is shown
makes the report right, whatever it was before. -/
theorem C38_heals {s s' : Screen} (hr : Reachable s) {c : Call} (hc : View.scrolls c = true)
    (e : c.run s = .ok s') (hlive : s.sbPos = none) (hpush : s'.sbLastId ≠ s.sbLastId) :
    s'.sbPosNum = s'.view.topIndex ∧ s'.sbPosNum = s'.sb.length := by
  have hb : c.bars = false := by
    cases c with
    | moveDown n b => rfl
    | _ => first | rfl | cases hc
  have hend := step_bar (Healed.links s.sbLastId) (s := s) ⟨hr.inv.counted, hlive, Or.inl rfl⟩ hb
  rw [e] at hend
  have hend : Healed s.sbLastId s'.bar := hend
  have h2 : s'.sbPosNum = s'.sb.length := hend.right.resolve_left hpush
  refine ⟨?_, h2⟩
  rw [← bar_top, h2]
  unfold Bar.top
  rw [show s'.bar.pos = none from hend.live]

/-- After `sb_reset` the report is wrong (0 of 2); one more line repairs it. -/
example : ∃ s, Reachable s ∧ (decide (s.sbPos = none) && decide (s.sbPosNum = 0) && decide (s.sb.length = 2) &&
    decide ((((Call.scrollUp 1).run s).map fun t => (t.sbPosNum, t.sb.length, decide (t.sbLastId ≠ s.sbLastId))) =
      .ok (3, 3, true))) = true :=
  exists_of_holds (cs := [.setMaxSb 5, .scrollUp 2, .sbUp 1, .sbReset]) (by decide +kernel)

end Verif.Props.Screen
