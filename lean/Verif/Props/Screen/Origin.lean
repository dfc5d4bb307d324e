import Verif.Spec.Origin
import Verif.Proofs.Screen.Cells
import Verif.Props.Screen.Render
import Verif.Proofs.Screen.Example

/-!
# Where the contents of a screen come from

C69: ids of glyphs. C70: nothing is shown that was not written.
-/

namespace Verif.Props.Screen

open Verif Verif.Screen

/-- Both kinds of cells. -/
@[reducible] def Origin (cs : List Call) (g : Glyph) : Prop := g.Written cs ∨ g.Empty cs

theorem Origin.mono {cs ds : List Call} (h : ∀ c, c ∈ cs → c ∈ ds) {g : Glyph} (hg : Origin cs g) : Origin ds g := by
  rcases hg with ⟨h1, h2⟩ | ⟨h1, h2, h3⟩
  · exact Or.inl ⟨h _ h1, h2⟩
  · refine Or.inr ⟨h1, h2, ?_⟩
    rcases h3 with h3 | h3 | h3
    · exact Or.inl h3
    · exact Or.inr (Or.inl h3)
    · exact Or.inr (Or.inr (h _ h3))

theorem Origin.narrow {cs : List Call} (g : Glyph) (hg : Origin cs g) : Origin cs { g with width := 0 } := by
  rcases hg with ⟨h1, h2, h3, _⟩ | ⟨h1, _, h3⟩
  · exact Or.inl ⟨h1, h2, h3, Or.inr rfl⟩
  · exact Or.inr ⟨h1, Nat.zero_le _, h3⟩

theorem symWidth_origin {ch len : Nat} (h : symWidth ch = .ok len) (hl : len ≠ 0) :
    ch ≤ 0x7fffffff ∧ Spec.Wcwidth.width ch = len := by
  unfold symWidth UCS4_MAX at h
  split at h
  · rename_i hc
    rw [Props.Wcwidth.C05_width_spec ch (by omega)] at h
    injection h with h
    exact ⟨hc, h⟩
  · rw [Props.Wcwidth.C05_width_spec 0 (by omega)] at h
    injection h with h
    exact absurd (h.symm.trans (by decide +kernel)) hl

theorem origin_adds {cs : List Call} {c : Call} (hc : c ∈ cs) : c.Adds (Origin cs) := by
  cases c with
  | write ch a =>
    intro len e hl
    obtain ⟨h1, h2⟩ := symWidth_origin e hl
    exact Or.inl ⟨hc, h1, fun hx => hl (h2.symm.trans hx), Or.inl h2.symm⟩
  | setDefAttr a => exact Or.inr ⟨rfl, Nat.le_refl _, Or.inr (Or.inr hc)⟩
  | _ => trivial

theorem runAll_origin {ds : List Call} : ∀ (cs : List Call) {s s' : Screen}, AllG (Origin ds) s →
    (∀ c, c ∈ cs → c ∈ ds) → runAll cs s = .ok s' → AllG (Origin ds) s' := by
  intro cs
  induction cs with
  | nil => intro s s' h _ e; injection e with e; subst e; exact h
  | cons c cs ih =>
    intro s s' h hs e
    have h1 := step_all h Origin.narrow (origin_adds (hs c List.mem_cons_self))
    change (c.run s >>= fun s => runAll cs s) = _ at e
    cases hr : c.run s with
    | error u => rw [hr] at e; cases e
    | ok t =>
      rw [hr] at e h1
      exact ih h1 (fun x hx => hs x (List.mem_cons_of_mem _ hx)) e

theorem history_origin {allocOk : Nat → Bool} {cs : List Call} {s : Screen}
    (e : history allocOk cs = .ok (some s)) : AllG (Origin cs) s := by
  have hz : AllG (Origin cs) (zero allocOk) := by
    refine ⟨?_, ?_, ?_, Or.inr ⟨rfl, Nat.le_refl _, Or.inl rfl⟩, Or.inr ⟨rfl, Nat.le_refl _, Or.inr (Or.inl rfl)⟩⟩ <;>
      intro l hl <;> cases hl
  have hr := resize_all hz 80 24
  unfold history new at e
  generalize (zero allocOk).resize 80 24 = q at hr e
  cases q with
  | error u => cases e
  | ok q =>
    obtain ⟨ret, t⟩ := q
    change AllG (Origin cs) t at hr
    cases ret with
    | ok =>
      change (runAll cs t >>= fun s => pure (some s)) = _ at e
      cases h : runAll cs t with
      | error u => rw [h] at e; cases e
      | ok u =>
        rw [h] at e
        injection e with e
        injection e with e
        subst e
        exact runAll_origin cs hr (fun _ hc => hc) h
    | einval => cases e
    | enomem => cases e

theorem grid_mem {P : Glyph → Prop} {w h : Nat} {ls : List Line} (hl : LinesG P ls) {i j : Nat} {g : Glyph}
    (e : gridOf w h ls i j = some g) : P g := by
  unfold gridOf at e
  split at e
  · cases hi : ls[i]? with
    | none => rw [hi] at e; cases e
    | some l =>
      rw [hi, Option.bind_some] at e
      cases hj : l.cells[j]? with
      | none => rw [hj] at e; cases e
      | some c =>
        rw [hj] at e
        injection e with e
        rw [← e]
        exact hl.get hi c (List.mem_of_getElem? hj)
  · cases e

/-- **C70.** After any history, with any failing allocations, every cell of both screens and of the
scrollback is empty with a default attribute, or holds a printable character that was written with exactly
this attribute. -/
theorem C70_origin {allocOk : Nat → Bool} {cs : List Call} {s : Screen} (e : history allocOk cs = .ok (some s))
    {g : Glyph} (hg : s.view.Holds g) : g.Written cs ∨ g.Empty cs := by
  have h := history_origin e
  rcases hg with ⟨i, j, hg⟩ | ⟨i, j, hg⟩ | ⟨row, hr, hg⟩
  · exact grid_mem h.main hg
  · exact grid_mem h.alt hg
  · obtain ⟨l, hl, rfl⟩ := List.mem_map.mp hr
    obtain ⟨c, hc, rfl⟩ := List.mem_map.mp hg
    exact h.sb l hl c hc

theorem shown_origin {allocOk : Nat → Bool} {cs : List Call} {s : Screen} (e : history allocOk cs = .ok (some s))
    (i j : Nat) : Origin cs (s.view.shown i j) := by
  have hb : Origin cs s.view.blank := (history_origin e).da
  unfold View.shown
  split
  · cases h1 : s.view.sb[s.view.topIndex + i]? with
    | none => exact hb
    | some row =>
      rw [Option.bind_some]
      cases h2 : row.2[j]? with
      | none => exact hb
      | some g => exact C70_origin e (Or.inr (Or.inr ⟨row, List.mem_of_getElem? h1, List.mem_of_getElem? h2⟩))
  · cases h1 : s.view.grid (s.view.topIndex + i - s.view.sb.length) j with
    | none => exact hb
    | some g =>
      refine C70_origin e ?_
      unfold View.grid at h1
      split at h1
      · exact Or.inr (Or.inl ⟨_, _, h1⟩)
      · exact Or.inl ⟨_, _, h1⟩

/-- **C70.** A drawing shows in every cell nothing, or a character that was written, with the attribute it was
written with except for the inverse attribute. -/
theorem C70_drawn {allocOk : Nat → Bool} {cs : List Call} (hv : ∀ c ∈ cs, c.Valid) {s s' : Screen}
    (e : history allocOk cs = .ok (some s)) {ds : List DrawCall} {age : Nat} (ed : s.draw = .ok (ds, age, s')) :
    ∀ d ∈ ds, d.ch = 0 ∨ ∃ a, Call.write d.ch a ∈ cs ∧ d.attr = { a with inverse := d.attr.inverse } ∧
      (d.width = Spec.Wcwidth.width d.ch ∨ d.width = 0) := by
  intro d hd
  obtain ⟨h1, h2, ⟨b, h3⟩, _⟩ := C26_content ⟨allocOk, cs, hv, e⟩ ed d hd
  rcases shown_origin e d.y d.x with ⟨g1, g2, _, g4⟩ | ⟨g1, _, _⟩
  · right
    rw [if_pos g2] at h1
    refine ⟨_, h1 ▸ g1, ?_, ?_⟩
    · rw [h3]
    · rw [h1, h2]; exact g4
  · left
    rw [h1, g1]
    rfl

/-- A history with a wide character, an erased area and changed default attributes; the second
half of the wide character still holds the character covered by it. -/
example : ∃ s, Reachable s ∧ (decide (s.view.main 0 0 = some ⟨0x4e00, 2, Attr.zero⟩) &&
    decide (s.view.main 0 1 = some ⟨0x62, 0, Attr.zero⟩) &&
    decide (s.view.main 0 2 = some ⟨0, 1, { Attr.zero with bold := true }⟩)) = true :=
  exists_of_holds (cs := [.resize 3 1] ++ text [0x61, 0x62, 0x63] ++
    [.setDefAttr { Attr.zero with bold := true }, .moveTo 2 0, .eraseCursor, .moveTo 0 0, .write 0x4e00 Attr.zero])
    (by decide +kernel)

/-! ### C69 -/

theorem testBit_flag (b : Bool) (n i : Nat) : (if b then 1 <<< n else 0).testBit i = (b && decide (n = i)) := by
  cases b with
  | false => simp
  | true =>
    show (1 <<< n).testBit i = _
    rw [Nat.one_shiftLeft, Nat.testBit_two_pow]
    rfl

/-- The bits of an id. -/
theorem testBit_drawId (ch : Nat) (a : Attr) (i : Nat) : (drawId ch a).testBit i =
    (ch.testBit i || (a.bold && decide (31 = i)) || (a.italic && decide (32 = i)) ||
      (a.underline && decide (33 = i)) || (a.inverse && decide (34 = i)) || (a.blink && decide (35 = i))) := by
  unfold drawId
  simp only [Nat.testBit_or, testBit_flag]

theorem high_bit {ch : Nat} (h : ch ≤ 0x7fffffff) {i : Nat} (hi : 31 ≤ i) : ch.testBit i = false :=
  Nat.testBit_lt_two_pow (Nat.lt_of_lt_of_le (show ch < 2 ^ 31 by omega) (Nat.pow_le_pow_right (by decide) hi))

theorem id_of_call {s s' : Screen} (hr : Reachable s) {cs : List DrawCall} {age : Nat}
    (e : s.draw = .ok (cs, age, s')) {c : DrawCall} (hm : c ∈ cs) : c.ch ≤ 0x7fffffff ∧ c.id = drawId c.ch c.attr := by
  have hch := hr
  obtain ⟨allocOk, hist, hv, eh⟩ := hch
  obtain ⟨f, age', e', hp, hc⟩ := draw_cells hr
  rw [e] at e'
  injection e' with e'
  injection e' with e1 e2
  subst e1
  obtain ⟨i, hi, hm⟩ := List.mem_flatMap.mp hm
  obtain ⟨j, hj, rfl⟩ := List.mem_map.mp hm
  obtain ⟨h1, _, _, _, h5⟩ := hc i j (List.mem_range.mp hi) (List.mem_range.mp hj)
  have hl : (s.view.shown i j).ch ≤ 0x7fffffff := by
    rcases shown_origin eh i j with ⟨_, g2, _⟩ | ⟨g1, _⟩
    · exact g2
    · rw [g1]; decide
  rw [if_pos hl] at h1
  rw [h1]
  exact ⟨hl, h5⟩

/-- **C69.** In all drawings of all screens, two cells get the same id exactly if they show the same
character with the same bold, italic, underline, inverse and blink attributes. -/
theorem C69_ids {s s' t t' : Screen} (hs : Reachable s) (ht : Reachable t) {cs ds : List DrawCall} {age age' : Nat}
    (es : s.draw = .ok (cs, age, s')) (et : t.draw = .ok (ds, age', t')) {c d : DrawCall} (hc : c ∈ cs)
    (hd : d ∈ ds) :
    c.id = d.id ↔ c.ch = d.ch ∧ c.attr.bold = d.attr.bold ∧ c.attr.italic = d.attr.italic ∧
      c.attr.underline = d.attr.underline ∧ c.attr.inverse = d.attr.inverse ∧ c.attr.blink = d.attr.blink := by
  obtain ⟨c1, c2⟩ := id_of_call hs es hc
  obtain ⟨d1, d2⟩ := id_of_call ht et hd
  rw [c2, d2]
  constructor
  · intro h
    have hb : ∀ i, (drawId c.ch c.attr).testBit i = (drawId d.ch d.attr).testBit i := fun i => by rw [h]
    simp only [testBit_drawId] at hb
    refine ⟨?_, ?_, ?_, ?_, ?_, ?_⟩
    · apply Nat.eq_of_testBit_eq
      intro i
      rcases Nat.lt_or_ge i 31 with hi | hi
      · have := hb i
        simpa [show ¬ 31 = i by omega, show ¬ 32 = i by omega, show ¬ 33 = i by omega, show ¬ 34 = i by omega,
          show ¬ 35 = i by omega] using this
      · rw [high_bit c1 hi, high_bit d1 hi]
    · simpa [high_bit c1, high_bit d1] using hb 31
    · simpa [high_bit c1, high_bit d1] using hb 32
    · simpa [high_bit c1, high_bit d1] using hb 33
    · simpa [high_bit c1, high_bit d1] using hb 34
    · simpa [high_bit c1, high_bit d1] using hb 35
  · rintro ⟨h0, h1, h2, h3, h4, h5⟩
    unfold drawId
    rw [h0, h1, h2, h3, h4, h5]

/-- Two cells that differ in one attribute only. -/
example : ∃ s, Reachable s ∧ decide ((s.draw.map fun r => r.1.map fun c => (c.id, c.ch, c.attr.bold)) =
    .ok [(0x61, 0x61, false), (0x80000061, 0x61, true)]) = true :=
  exists_of_holds (cs := [.resize 2 1, .setFlags 16#32, .write 0x61 Attr.zero,
    .write 0x61 { Attr.zero with bold := true }])
    (by decide +kernel)

end Verif.Props.Screen
