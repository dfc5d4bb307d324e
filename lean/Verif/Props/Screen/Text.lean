import Verif.Proofs.Screen.Text
import Verif.Props.Screen.Scroll

/-!
# C12: a run of text is laid out row-major with wrap and scroll
-/

namespace Verif.Props.Screen

open Verif Verif.Screen

/-- The glyph of a single-width character. -/
def narrow (p : Nat × Attr) : Glyph := ⟨p.1, 1, p.2⟩

theorem laid_run {v0 : View} {mem : Prop} (hwrap : v0.flags.getLsbD 1 = true)
    (hins : v0.flags.getLsbD 0 = false) (ht : v0.marginTop = 0)
    (hb : v0.marginBottom = v0.sizeY - 1) : ∀ (txt : List (Nat × Attr)) (pre : List Glyph)
    (s : Screen) (q c : Nat), Reachable s → (mem → s.MemOk) →
    (∀ p ∈ txt, (Call.write p.1 p.2).Valid ∧
      Wcwidth.ucs4GetWidth (if p.1 ≤ 0x7fffffff then p.1 else 0) = .ok 1) →
    View.Laid v0 s.view mem pre q c →
    ∃ s' q' c', runAll (txt.map fun p => .write p.1 p.2) s = .ok s' ∧
      View.Laid v0 s'.view mem (pre ++ txt.map narrow) q' c' := by
  intro txt
  induction txt with
  | nil => intro pre s q c _ _ _ h; exact ⟨s, q, c, rfl, by simpa using h⟩
  | cons p txt ih =>
    intro pre s q c hr hm hw h
    obtain ⟨hval, hp⟩ := hw p (List.mem_cons_self ..)
    obtain ⟨t, q', c', e, h'⟩ := Laid.step hr h hm hwrap hins ht hb (a := p.2) hp
    have hal : t.allocOk = s.allocOk := by
      have hs : symWidth p.1 = .ok 1 := by
        unfold symWidth UCS4_MAX
        split
        · rename_i hc; rw [if_pos hc] at hp; exact hp
        · rename_i hc; rw [if_neg hc] at hp; exact hp
      have e2 := e
      unfold write at e2
      rw [hs] at e2
      change (if (1 : Nat) = 0 then .ok s else s.writeW p.1 1 p.2) = _ at e2
      rw [if_neg (by omega)] at e2
      exact write_allocOk hr.inv (by omega) (by omega)
        (show s.view.flags.getLsbD 0 = false by rw [h.flags]; exact hins) e2
    obtain ⟨s', q'', c'', e', h''⟩ := ih (pre ++ [⟨p.1, 1, p.2⟩]) t q' c' (hr.step hval e)
      (fun m k => by rw [hal]; exact hm m k) (fun p hp => hw p (List.mem_cons_of_mem _ hp)) h'
    refine ⟨s', q'', c'', ?_, ?_⟩
    · show (do let s ← s.write p.1 p.2; runAll (txt.map fun p => .write p.1 p.2) s : R Screen) = _
      rw [e]
      exact e'
    · rw [List.append_assoc] at h''
      exact h''

/-- **C12.** With wrap mode on, insert mode off, margins at the screen edges and
the cursor at home, writing a text of `n` single-width characters on a screen of
`W` columns and `H` rows: the text is cut into rows of `W` characters; of these the
last `H` are on the screen, the `d` rows before them were scrolled off. Nothing
else is changed on the screen, except that a row scrolled in is blank beyond the
end of the text. On the main screen and with sufficient memory the `d` rows are
appended to the scrollback in order (`View.Fed`). -/
theorem C12_text {s : Screen} (hr : Reachable s) (hwrap : s.flags.getLsbD 1 = true)
    (hins : s.flags.getLsbD 0 = false) (ht : s.marginTop = 0) (hb : s.marginBottom = s.sizeY - 1)
    (hx : s.cursorX = 0) (hy : s.cursorY = 0) (txt : List (Nat × Attr))
    (hw : ∀ p ∈ txt, (Call.write p.1 p.2).Valid ∧
      Wcwidth.ucs4GetWidth (if p.1 ≤ 0x7fffffff then p.1 else 0) = .ok 1) (d : Nat)
    (hd : d = (txt.length - 1) / s.sizeX - (s.sizeY - 1)) :
    ∃ s', runAll (txt.map fun p => .write p.1 p.2) s = .ok s' ∧
      (∀ i j, i < s.sizeY → j < s.sizeX → s'.view.grid i j =
        if (i + d) * s.sizeX + j < txt.length then (txt[(i + d) * s.sizeX + j]?).map narrow
        else if d = 0 then s.view.grid i j else some s.view.blank) ∧
      (txt ≠ [] → s'.cursorX = (txt.length - 1) % s.sizeX + 1) ∧
      s'.cursorY = min ((txt.length - 1) / s.sizeX) (s.sizeY - 1) ∧
      (s.MemOk → s.useAlt = false → ∃ pushed, View.Fed s.view s'.view pushed ∧
        pushed.length = d ∧ ∀ k j, k < d → j < s.sizeX →
          (pushed[k]?.bind (·[j]?)) = (txt[k * s.sizeX + j]?).map narrow) := by
  have hx0 := hr.inv.geo.x0
  have h0 : View.Laid s.view s.view s.MemOk [] 0 0 := by
    refine ⟨by simp, by omega, fun _ => rfl, rfl, rfl, rfl, rfl, rfl, rfl, rfl, rfl, hx, ?_, ?_, ?_⟩
    · show s.cursorY = _; omega
    · intro i j _ _
      rw [if_neg (by omega), if_pos (by omega)]
    · intro _ _
      refine ⟨[], ⟨?_, ?_⟩, by simp, (fun k j hk => absurd hk (by omega))⟩
      · have := (fed_nil hr.inv rfl rfl : View.Fed s.view s.view [])
        exact this.sb
      · have := (fed_nil hr.inv rfl rfl : View.Fed s.view s.view [])
        exact this.last
  obtain ⟨s', q, c, e, h⟩ := laid_run (v0 := s.view) hwrap hins ht hb txt [] s 0 0 hr id hw h0
  rw [List.nil_append] at h
  have hlen := h.len
  rw [List.length_map] at hlen
  change txt.length = q * s.sizeX + c at hlen
  have hc := h.c0
  change c ≤ s.sizeX at hc
  have hdm : (txt.length - 1) / s.sizeX = q ∧ (c ≠ 0 → (txt.length - 1) % s.sizeX = c - 1) := by
    rcases Nat.eq_zero_or_pos c with hc0 | hc0
    · have hq := h.q0 hc0
      subst hc0 hq
      rw [hlen]
      refine ⟨?_, fun h => absurd rfl h⟩
      rw [Nat.zero_mul]
      exact Nat.zero_div _
    · have hn : txt.length - 1 = q * s.sizeX + (c - 1) := by omega
      rw [hn, Nat.add_comm, Nat.add_mul_div_right _ _ hx0, Nat.div_eq_of_lt (by omega),
        Nat.add_mul_mod_self_right, Nat.mod_eq_of_lt (by omega)]
      exact ⟨by omega, fun _ => rfl⟩
  obtain ⟨hq, hcm⟩ := hdm
  rw [hq] at hd
  subst hd
  refine ⟨s', e, ?_, ?_, ?_, ?_⟩
  · intro i j hi hj
    rw [h.grid i j hi hj]
    show (if i + (q - (s.sizeY - 1)) < q ∨ i + (q - (s.sizeY - 1)) = q ∧ j < c then
      (txt.map narrow)[(i + (q - (s.sizeY - 1))) * s.sizeX + j]?
      else if q - (s.sizeY - 1) = 0 then s.view.grid i j else some s.view.blank) = _
    have hrc := rowcol (W := s.sizeX) (a := i + (q - (s.sizeY - 1))) (q := q) hj hc
    rw [← hlen] at hrc
    by_cases hl : (i + (q - (s.sizeY - 1))) * s.sizeX + j < txt.length
    · rw [if_pos (hrc.mp hl), if_pos hl, List.getElem?_map]
    · rw [if_neg (fun hh => hl (hrc.mpr hh)), if_neg hl]
  · intro hne
    have : c ≠ 0 := by
      intro h0
      have h1 := h.q0 h0
      subst h0 h1
      rw [Nat.zero_mul] at hlen
      exact hne (List.eq_nil_of_length_eq_zero hlen)
    rw [hcm this]
    have := h.cx
    change s'.cursorX = c at this
    omega
  · rw [hq]; exact h.cy
  · intro hm hu
    obtain ⟨pushed, hp, hl, hg⟩ := h.fed hm hu
    refine ⟨pushed, hp, hl, ?_⟩
    intro k j hk hj
    rw [hg k j hk hj, List.getElem?_map]
    rfl

/-- Eight characters on a 3×2 screen: rows "ABC", "DEF", "GH"; the first one is
scrolled off. -/
example : ∃ s, Reachable s ∧ (s.flags.getLsbD 1 && !s.flags.getLsbD 0 &&
    decide (s.marginTop = 0 ∧ s.marginBottom = s.sizeY - 1 ∧ s.cursorX = 0 ∧ s.cursorY = 0) &&
    decide ((8 - 1) / s.sizeX - (s.sizeY - 1) = 1) &&
    decide (((runAll (text [65, 66, 67, 68, 69, 70, 71, 72]) s).map fun t =>
      (t.rowText 0, t.rowText 1, t.sb.map fun l => (l.cells.map Cell.ch).take 3)) =
      .ok ([68, 69, 70], [71, 72, 0], [[65, 66, 67]]))) = true :=
  exists_of_holds (cs := [.resize 3 2, .setFlags 2#32, .setMaxSb 5]) (by decide +kernel)

end Verif.Props.Screen
