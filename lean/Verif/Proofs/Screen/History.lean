import Verif.Proofs.Screen.Steps

/-!
# Every call keeps the invariant
-/

namespace Verif
namespace Screen

/-- How most calls change what is drawn: everything is marked as changed, the
cursor moves, nothing changes, or several of these. -/
inductive Effect : Screen → Screen → Prop where
  | fresh {s s' : Screen} : Fresh s s' → Effect s s'
  | moved (s : Screen) (x y : Nat) : Effect s (s.incAge.moved x y)
  | quiet (s : Screen) (t b : Nat) (r : List Bool) :
      Effect s { s with marginTop := t, marginBottom := b, tabRuler := r }
  | tick (s : Screen) : Effect s s.incAge
  | seq {s t u : Screen} : Effect s t → Inv t → Effect t u → Effect s u

theorem Effect.refl (s : Screen) : Effect s s := Effect.quiet s s.marginTop s.marginBottom s.tabRuler

/-- Calls treated separately. -/
def Call.special : Call → Bool
  | .resize .. | .setDefAttr .. | .setFlags .. | .resetFlags .. | .write .. | .draw => true
  | _ => false

theorem moved_step {s : Screen} (h : Inv s) {x y : Nat} (hx : x ≤ s.sizeX + 1) (hy : y < s.sizeY) :
    Inv (s.incAge.moved x y) :=
  h.incAge.moved (by rw [ia_sizeX]; exact hx) (by rw [ia_sizeY]; exact hy)

theorem moveDown_step {s : Screen} (h : Inv s) (num : Nat) (scroll : Bool) :
    ∃ s', s.moveDown num scroll = .ok s' ∧ Inv s' ∧ Effect s s' := by
  rcases Nat.eq_zero_or_pos num with h0 | hn
  · refine ⟨s, ?_, h, Effect.refl s⟩
    unfold moveDown; rw [if_pos h0]
  by_cases hc : scroll = false ∨ num ≤ s.view.lastRow - s.cursorY
  · obtain ⟨e, hi⟩ := moveDown_plain h hn hc
    exact ⟨_, e, hi, Effect.moved _ _ _⟩
  · have h1 : scroll = true := by
      cases scroll
      · exact absurd (Or.inl rfl) hc
      · rfl
    subst h1
    obtain ⟨s', _, _, _, e, hi, hf, _⟩ := moveDown_scroll h hn (by
      apply Nat.lt_of_not_le; intro hle; exact hc (Or.inr hle))
    exact ⟨s', e, hi, Effect.fresh hf⟩

theorem moveUp_step {s : Screen} (h : Inv s) {num : Nat} (hb : num < 4294967296) (scroll : Bool) :
    ∃ s', s.moveUp num scroll = .ok s' ∧ Inv s' ∧ Effect s s' := by
  rcases Nat.eq_zero_or_pos num with h0 | hn
  · refine ⟨s, ?_, h, Effect.refl s⟩
    unfold moveUp; rw [if_pos h0]
  by_cases hc : scroll = false ∨ num ≤ s.cursorY - s.view.firstRow
  · obtain ⟨e, hi⟩ := moveUp_plain h hn hb hc
    exact ⟨_, e, hi, Effect.moved _ _ _⟩
  · have h1 : scroll = true := by
      cases scroll
      · exact absurd (Or.inl rfl) hc
      · rfl
    subst h1
    obtain ⟨s', e, hi, hf, _⟩ := moveUp_scroll h hn hb (by
      apply Nat.lt_of_not_le; intro hle; exact hc (Or.inr hle))
    exact ⟨s', e, hi, Effect.fresh hf⟩

theorem moveLineHome_step {s : Screen} (h : Inv s) :
    ∃ s', s.moveLineHome = .ok s' ∧ Inv s' ∧ Effect s s' :=
  ⟨_, moveLineHome_eq h, moved_step h (by omega) h.cur.cy, Effect.moved _ _ _⟩

theorem newline_step {s : Screen} (h : Inv s) :
    ∃ s', s.newline = .ok s' ∧ Inv s' ∧ Effect s s' := by
  obtain ⟨t, e, hi, he⟩ := moveDown_step h.incAge 1 true
  obtain ⟨u, e', hi', he'⟩ := moveLineHome_step hi
  refine ⟨u, ?_, hi', (Effect.tick s).seq h.incAge (he.seq hi he')⟩
  unfold newline
  rw [e]
  exact e'

theorem sbUp_step {s : Screen} (h : Inv s) (num : Nat) :
    ∃ s', s.sbUp num = .ok s' ∧ Inv s' ∧ Effect s s' := by
  obtain ⟨s', _, _, e, hi, _, _, hf⟩ := sbUp_spec h num
  rcases Nat.eq_zero_or_pos num with h0 | hn
  · refine ⟨s, ?_, h, Effect.refl s⟩
    unfold sbUp; rw [if_pos h0]
  · exact ⟨s', e, hi, Effect.fresh (hf hn)⟩

theorem sbDown_step {s : Screen} (h : Inv s) (num : Nat) :
    ∃ s', s.sbDown num = .ok s' ∧ Inv s' ∧ Effect s s' := by
  obtain ⟨s', _, _, e, hi, _, _, hf⟩ := sbDown_spec h num
  rcases Nat.eq_zero_or_pos num with h0 | hn
  · refine ⟨s, ?_, h, Effect.refl s⟩
    unfold sbDown; rw [if_pos h0]
  · exact ⟨s', e, hi, Effect.fresh (hf hn)⟩

theorem erase_step {s : Screen} (h : Inv s) (xF yF xT yT : Nat) (p : Bool) :
    ∃ s', s.incAge.eraseRegion xF yF xT yT p = .ok s' ∧ Inv s' ∧ Effect s s' := by
  obtain ⟨s', e, hi, _, hf⟩ := erase_call h xF yF xT yT p _ (fun i j _ _ => Iff.rfl)
  exact ⟨s', e, hi, Effect.fresh hf⟩

theorem setMargins_step {s : Screen} (h : Inv s) (t b : Nat) :
    Inv (s.setMargins t b) ∧ Effect s (s.setMargins t b) := by
  refine ⟨setMargins_inv h t b, ?_⟩
  rw [setMargins_eq h]
  split
  · exact Effect.quiet s _ _ s.tabRuler
  · exact Effect.quiet s _ _ s.tabRuler

theorem putTab_step {s : Screen} (h : Inv s) (b : Bool) :
    ∃ s', s.putTab b = .ok s' ∧ Inv s' ∧ Effect s s' := by
  obtain ⟨s', e, hi, _⟩ := putTab_spec h b
  refine ⟨s', e, hi, ?_⟩
  unfold putTab at e
  split at e
  · injection e with e; subst e; exact Effect.refl s
  · split at e
    · injection e with e; subst e; exact Effect.quiet s s.marginTop s.marginBottom _
    · exact absurd e (by simp)

theorem resetAllTabstops_step {s : Screen} (h : Inv s) :
    ∃ s', s.resetAllTabstops = .ok s' ∧ Inv s' ∧ Effect s s' := by
  obtain ⟨s', e, hi, _⟩ := resetAllTabstops_spec h
  refine ⟨s', e, hi, ?_⟩
  unfold resetAllTabstops at e
  split at e
  · exact absurd e (by simp)
  · injection e with e; subst e; exact Effect.quiet s s.marginTop s.marginBottom _

/-- A call that can go wrong: a wide character in insert mode on a screen that is
narrower, or a back tab with the cursor two columns right of the last one. -/
def Call.Hazard (s : Screen) : Call → Prop
  | .write ch _ => s.fInsert = true ∧ ∃ len, symWidth ch = .ok len ∧ s.sizeX < len
  | .tabLeft n => 0 < n ∧ s.sizeX < s.cursorX
  | _ => False

theorem step_plain {s : Screen} (h : Inv s) {c : Call} (hv : c.Valid) (hz : ¬ c.Hazard s)
    (hs : c.special = false) : ∃ s', c.run s = .ok s' ∧ Inv s' ∧ Effect s s' := by
  have hx0 := h.geo.x0
  have hcy := h.cur.cy
  have hcx := h.cur.cx
  cases c with
  | resize x y => exact Bool.noConfusion hs
  | setDefAttr a => exact Bool.noConfusion hs
  | setFlags f => exact Bool.noConfusion hs
  | resetFlags f => exact Bool.noConfusion hs
  | write ch a => exact Bool.noConfusion hs
  | draw => exact Bool.noConfusion hs
  | setMargins t b => exact ⟨_, rfl, setMargins_step h t b⟩
  | setMaxSb m =>
    refine ⟨_, setMaxSb_eq h m, setMaxSb_inv h hv, Effect.fresh ⟨rfl, rfl, rfl⟩⟩
  | clearSb => exact ⟨_, rfl, clearSb_inv h, Effect.fresh ⟨rfl, rfl, rfl⟩⟩
  | sbUp n => exact sbUp_step h n
  | sbDown n => exact sbDown_step h n
  | sbPageUp n =>
    show ∃ s', s.sbPageUp n = .ok s' ∧ _
    unfold sbPageUp
    split
    · exact ⟨s, rfl, h, Effect.refl s⟩
    · obtain ⟨s', e, hi, he⟩ := sbUp_step h.incAge (u32 (n * s.sizeY))
      exact ⟨s', e, hi, (Effect.tick s).seq h.incAge he⟩
  | sbPageDown n =>
    show ∃ s', s.sbPageDown n = .ok s' ∧ _
    unfold sbPageDown
    split
    · exact ⟨s, rfl, h, Effect.refl s⟩
    · obtain ⟨s', e, hi, he⟩ := sbDown_step h.incAge (u32 (n * s.sizeY))
      exact ⟨s', e, hi, (Effect.tick s).seq h.incAge he⟩
  | sbReset =>
    refine ⟨_, rfl, (sbReset_spec h).1, ?_⟩
    unfold sbReset
    split
    · exact Effect.refl s
    · exact Effect.fresh ⟨rfl, rfl, rfl⟩
  | reset =>
    obtain ⟨s', e, hi, _, hf⟩ := reset_spec h
    exact ⟨s', e, hi, Effect.fresh hf⟩
  | setTabstop => exact putTab_step h true
  | resetTabstop => exact putTab_step h false
  | resetAllTabstops => exact resetAllTabstops_step h
  | newline => exact newline_step h
  | scrollUp n =>
    rcases Nat.eq_zero_or_pos n with h0 | hn
    · refine ⟨s, ?_, h, Effect.refl s⟩
      subst h0; rfl
    · obtain ⟨s', _, _, e, hi, hf, _⟩ := scrollUp_spec h hn
      exact ⟨s', e, hi, Effect.fresh hf⟩
  | scrollDown n =>
    rcases Nat.eq_zero_or_pos n with h0 | hn
    · refine ⟨s, ?_, h, Effect.refl s⟩
      subst h0; rfl
    · obtain ⟨s', e, hi, hf, _⟩ := scrollDown_spec h hn
      exact ⟨s', e, hi, Effect.fresh hf⟩
  | moveTo x y => exact ⟨_, moveTo_eq h x y, moveTo_inv h x y, Effect.moved _ _ _⟩
  | moveUp n b => exact moveUp_step h hv b
  | moveDown n b => exact moveDown_step h n b
  | moveLeft n =>
    rcases Nat.eq_zero_or_pos n with h0 | hn
    · refine ⟨s, ?_, h, Effect.refl s⟩
      subst h0; rfl
    · exact ⟨_, moveLeft_eq h hn, moved_step h (by omega) hcy, Effect.moved _ _ _⟩
  | moveRight n =>
    rcases Nat.eq_zero_or_pos n with h0 | hn
    · refine ⟨s, ?_, h, Effect.refl s⟩
      subst h0; rfl
    · exact ⟨_, moveRight_eq h hn, moved_step h (by omega) hcy, Effect.moved _ _ _⟩
  | moveLineEnd => exact ⟨_, moveLineEnd_eq h, moved_step h (by omega) hcy, Effect.moved _ _ _⟩
  | moveLineHome => exact moveLineHome_step h
  | tabRight n =>
    rcases Nat.eq_zero_or_pos n with h0 | hn
    · refine ⟨s, ?_, h, Effect.refl s⟩
      subst h0; rfl
    · refine ⟨_, tabRight_eq h hn, moved_step h ?_ hcy, Effect.moved _ _ _⟩
      cases he : (stopsR s.view.tabs s.sizeX s.cursorX)[n - 1]? with
      | none => simp only [Option.getD_none]; omega
      | some p => have := stopsR_lt he; simp only [Option.getD_some]; omega
  | tabLeft n =>
    rcases Nat.eq_zero_or_pos n with h0 | hn
    · refine ⟨s, ?_, h, Effect.refl s⟩
      subst h0; rfl
    · have hle : s.cursorX ≤ s.sizeX := by
        apply Nat.le_of_not_lt
        intro hlt
        exact hz ⟨hn, hlt⟩
      refine ⟨_, tabLeft_eq h hn hle, moved_step h ?_ hcy, Effect.moved _ _ _⟩
      cases he : (stopsL s.view.tabs s.sizeX s.cursorX)[n - 1]? with
      | none => simp only [Option.getD_none]; omega
      | some p =>
        have hm := getElem?_mem he
        unfold stopsL at hm
        simp only [List.mem_reverse, List.mem_filter, List.mem_range] at hm
        simp only [Option.getD_some]
        omega
  | insertLines n =>
    show ∃ s', s.insertLines n = .ok s' ∧ _
    by_cases hc : n = 0 ∨ s.cursorY < s.marginTop ∨ s.cursorY > s.marginBottom
    · refine ⟨s, ?_, h, Effect.refl s⟩
      unfold insertLines
      by_cases h0 : n = 0
      · rw [if_pos h0]
      · rw [if_neg h0, if_pos (by rcases hc with hc | hc; exact absurd hc h0; exact hc)]
    · obtain ⟨s', e, hi, _, hf⟩ := insertLines_in h (num := n) (by omega) (by omega)
      exact ⟨s', e, hi, Effect.fresh hf⟩
  | deleteLines n =>
    show ∃ s', s.deleteLines n = .ok s' ∧ _
    by_cases hc : n = 0 ∨ s.cursorY < s.marginTop ∨ s.cursorY > s.marginBottom
    · refine ⟨s, ?_, h, Effect.refl s⟩
      unfold deleteLines
      by_cases h0 : n = 0
      · rw [if_pos h0]
      · rw [if_neg h0, if_pos (by rcases hc with hc | hc; exact absurd hc h0; exact hc)]
    · obtain ⟨s', e, hi, _, hf⟩ := deleteLines_in h (num := n) (by omega) (by omega)
      exact ⟨s', e, hi, Effect.fresh hf⟩
  | insertChars n =>
    rcases Nat.eq_zero_or_pos n with h0 | hn
    · refine ⟨s, ?_, h, Effect.refl s⟩
      show s.insertChars n = _
      unfold insertChars; rw [if_pos (Or.inl h0)]
    · obtain ⟨s', e, hi, _, hf⟩ := insertChars_spec h hn
      exact ⟨s', e, hi, Effect.fresh hf⟩
  | deleteChars n =>
    rcases Nat.eq_zero_or_pos n with h0 | hn
    · refine ⟨s, ?_, h, Effect.refl s⟩
      show s.deleteChars n = _
      unfold deleteChars; rw [if_pos (Or.inl h0)]
    · obtain ⟨s', e, hi, _, hf⟩ := deleteChars_spec h hn
      exact ⟨s', e, hi, Effect.fresh hf⟩
  | eraseCursor => exact erase_step h _ _ _ _ _
  | eraseChars n =>
    rcases Nat.eq_zero_or_pos n with h0 | hn
    · refine ⟨s, ?_, h, Effect.refl s⟩
      show s.eraseChars n = _
      unfold eraseChars; rw [if_pos h0]
    · show ∃ s', s.eraseChars n = _ ∧ _
      unfold eraseChars
      rw [if_neg (by omega)]
      exact erase_step h _ _ _ _ _
  | eraseCursorToEnd p => exact erase_step h _ _ _ _ _
  | eraseHomeToCursor p => exact erase_step h _ _ _ _ _
  | eraseCurrentLine p => exact erase_step h _ _ _ _ _
  | eraseScreenToCursor p => exact erase_step h _ _ _ _ _
  | eraseCursorToScreen p => exact erase_step h _ _ _ _ _
  | eraseScreen p => exact erase_step h _ _ _ _ _
  | selectionReset => exact ⟨_, rfl, h.selectionReset, Effect.fresh ⟨rfl, rfl, rfl⟩⟩
  | selectionStart x y => exact ⟨_, rfl, h.selectionStart x y, Effect.fresh ⟨rfl, rfl, rfl⟩⟩
  | selectionTarget x y =>
    refine ⟨_, rfl, h.selectionTarget x y, ?_⟩
    unfold selectionTarget
    split
    · exact Effect.fresh ⟨rfl, rfl, rfl⟩
    · exact Effect.refl s

theorem symWidth_ok (ch : Nat) : ∃ len, symWidth ch = .ok len ∧ len ≤ 2 := by
  have hm : ∀ m, m < 2 ^ 32 → ∃ len, Wcwidth.ucs4GetWidth m = .ok len ∧ len ≤ 2 := by
    intro m hm
    obtain ⟨len, e, h1⟩ := Props.Wcwidth.C05_width_range m hm
    exact ⟨len, e, by omega⟩
  unfold symWidth UCS4_MAX
  split
  · exact hm ch (by omega)
  · exact hm 0 (by omega)

theorem write_step {s : Screen} (h : Inv s) (ch : Nat) (a : Attr)
    (hz : ¬ (Call.write ch a).Hazard s) : ∃ s', s.write ch a = .ok s' ∧ Inv s' := by
  obtain ⟨len, e, hl⟩ := symWidth_ok ch
  unfold write
  rw [e]
  show ∃ s', (if len = 0 then .ok s else s.writeW ch len a) = .ok s' ∧ Inv s'
  rcases Nat.eq_zero_or_pos len with h0 | hn
  · exact ⟨s, by rw [if_pos h0], h⟩
  · rw [if_neg (by omega)]
    obtain ⟨s', e', hi, _⟩ := writeW_spec h (ch := ch) (attr := a) hn hl (by
      intro hins
      apply Nat.le_of_not_lt
      intro hlt
      exact hz ⟨hins, len, e, hlt⟩)
    exact ⟨s', e', hi⟩

theorem Inv.draw {s : Screen} (h : Inv s) : Inv { s with ageReset := false } :=
  ⟨{ h.geo with }, { h.sb with }, { h.cur with }, h.ageb⟩

/-- Every call keeps the invariant and is memory safe, unless it is one of the
two hazards. -/
theorem step_safe {s : Screen} (h : Inv s) {c : Call} (hv : c.Valid) (hz : ¬ c.Hazard s) :
    ∃ s', c.run s = .ok s' ∧ Inv s' := by
  rcases Bool.eq_false_or_eq_true c.special with hs | hs
  · cases c with
    | resize x y =>
      obtain ⟨r, s', e, hi, _⟩ := h.resize x y hv.1 hv.2
      exact ⟨s', by show (do let r ← s.resize x y; return r.2 : R Screen) = _; rw [e]; rfl, hi⟩
    | setDefAttr a => exact ⟨_, rfl, setDefAttr_inv h a⟩
    | setFlags f =>
      by_cases hf : f = 0#32
      · exact ⟨s, by show s.setFlags f = _; unfold setFlags; rw [if_pos hf], h⟩
      · obtain ⟨s', e, hi, _⟩ := setFlags_spec h hf
        exact ⟨s', e, hi⟩
    | resetFlags f =>
      by_cases hf : f = 0#32
      · exact ⟨s, by show s.resetFlags f = _; unfold resetFlags; rw [if_pos hf], h⟩
      · obtain ⟨s', e, hi, _⟩ := resetFlags_spec h hf
        exact ⟨s', e, hi⟩
    | write ch a => exact write_step h ch a hz
    | draw =>
      refine ⟨_, ?_, h.draw⟩
      show (do let r ← s.draw; return r.2.2 : R Screen) = _
      rw [draw_eq h.geo]
      rfl
    | _ => exact Bool.noConfusion hs
  · obtain ⟨s', e, hi, _⟩ := step_plain h hv hz hs
    exact ⟨s', e, hi⟩

/-- As `step_any`, telling which call leads to which outcome. -/
theorem step_which {s : Screen} (h : Inv s) {c : Call} (hv : c.Valid) :
    (∃ s', c.run s = .ok s' ∧ Inv s') ∨
      c.Hazard s ∧ ((∃ ch a, c = .write ch a ∧ c.run s = .error .insertMove) ∨
        (∃ n, c = .tabLeft n ∧ c.run s = .error .oobTab)) := by
  by_cases hz : c.Hazard s
  · cases c with
    | write ch a =>
      obtain ⟨hins, len, e, hlt⟩ := hz
      obtain ⟨len', e', hl⟩ := symWidth_ok ch
      rw [e] at e'
      injection e' with e'
      subst e'
      have hx0 := h.geo.x0
      have he : Call.run s (.write ch a) = s.writeW ch len a := by
        show s.write ch a = _
        unfold write
        rw [e]
        show (if len = 0 then .ok s else s.writeW ch len a) = _
        rw [if_neg (by omega)]
      rcases writeW_unsafe h (ch := ch) (attr := a) (by omega) hl hins hlt with h1 | ⟨s', h1, h2, _⟩
      · exact Or.inr ⟨⟨hins, len, e, hlt⟩, Or.inl ⟨ch, a, rfl, he.trans h1⟩⟩
      · exact Or.inl ⟨s', he.trans h1, h2⟩
    | tabLeft n =>
      obtain ⟨hn, hlt⟩ := hz
      have he : Call.run s (.tabLeft n) = (do
          let x ← tabLeftLoop s.tabRuler n s.cursorX
          s.incAge.moveCursor x s.cursorY : R Screen) := by
        show s.tabLeft n = _
        unfold tabLeft
        rw [if_neg (by omega)]
        simp only [ia_tabRuler, ia_cursorX, ia_cursorY]
      have hcx := h.cur.cx
      have hc : s.cursorX = s.sizeX + 1 := by omega
      by_cases hlen : s.cursorX ≤ s.tabRuler.length
      · obtain ⟨r, e, hr⟩ := tabLeftLoop_le (tab := s.tabRuler) n s.cursorX (Or.inl hlen)
        left
        refine ⟨_, ?_, moved_step h (x := r) (y := s.cursorY) (by omega) h.cur.cy⟩
        rw [he, e]
        exact moveCursor_ok h.incAge.geo _ _
      · right
        refine ⟨⟨hn, hlt⟩, Or.inr ⟨n, rfl, ?_⟩⟩
        rw [he]
        have htab := h.geo.tab
        have hx0 := h.geo.x0
        have h1 : s.tabRuler[s.sizeX]? = none := List.getElem?_eq_none (by omega)
        obtain ⟨m, hm⟩ : ∃ m, n = m + 1 := ⟨n - 1, by omega⟩
        obtain ⟨w, hw⟩ : ∃ w, s.sizeX = w + 1 := ⟨s.sizeX - 1, by omega⟩
        rw [hm]
        unfold tabLeftLoop
        rw [hc, Nat.add_sub_cancel]
        rw [hw] at h1 ⊢
        unfold scanLeft
        rw [h1]
        rfl
    | _ => exact False.elim hz
  · exact Or.inl (step_safe h hv hz)

/-- Without any restriction a call is memory safe or fails in one of two known
places. -/
theorem step_any {s : Screen} (h : Inv s) {c : Call} (hv : c.Valid) :
    (∃ s', c.run s = .ok s' ∧ Inv s') ∨
      c.Hazard s ∧ (c.run s = .error .insertMove ∨ c.run s = .error .oobTab) := by
  rcases step_which h hv with h1 | ⟨hz, ⟨_, _, _, e⟩ | ⟨_, _, e⟩⟩
  · exact Or.inl h1
  · exact Or.inr ⟨hz, Or.inl e⟩
  · exact Or.inr ⟨hz, Or.inr e⟩

end Screen
end Verif
