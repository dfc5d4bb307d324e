import Verif.Proofs.Screen.Admin

/-!
# The reported scrollback position
-/

namespace Verif
namespace Screen

theorem sbUpLoop_num (n : Nat) : ∀ (s s' : Screen) (k : Nat), SbOk s → AtPos s k →
    sbUpLoop n s = .ok s' →
    (s.sbPosNum = k ∨ 0 < n ∧ k = s.sb.length ∧ 0 < s.sb.length) → s'.sbPosNum = k - n := by
  induction n with
  | zero =>
    intro s s' k _ ha e h
    injection e with e
    subst e
    rcases h with h | h
    · exact h
    · exact absurd h.1 (Nat.lt_irrefl 0)
  | succ n ih =>
    intro s s' k hs ha e h
    have hnd := ids_nodup hs.ids
    have hmx := hs.max
    have hmb := hs.maxb
    rcases Nat.lt_or_ge k s.sb.length with hlt | hge
    · have hnum : s.sbPosNum = k := by
        rcases h with h | h
        · exact h
        · omega
      have hk : s.sb[k]? = some s.sb[k] := List.getElem?_eq_getElem hlt
      have hpos : s.sbPos = some s.sb[k].sbId := by rw [ha.2, hk]; rfl
      unfold sbUpLoop at e
      rw [hpos] at e
      simp only at e
      rw [prevId_spec hnd none hk] at e
      by_cases h0 : k = 0
      · subst h0
        simp only [if_true] at e
        injection e with e
        rw [← e, hnum]
        omega
      · rw [if_neg h0, List.getElem?_eq_getElem (show k - 1 < s.sb.length by omega)] at e
        simp only [Option.map_some] at e
        have hat : AtPos { s with
            sbPos := some s.sb[k - 1].sbId, sbPosNum := pred32 s.sbPosNum } (k - 1) :=
          ⟨by show k - 1 ≤ s.sb.length; omega, by
            show some _ = (s.sb[k - 1]?).map Line.sbId
            rw [List.getElem?_eq_getElem (show k - 1 < s.sb.length by omega)]; rfl⟩
        have hok : SbOk { s with
            sbPos := some s.sb[k - 1].sbId, sbPosNum := pred32 s.sbPosNum } := by
          have := AtPos.ok hs (k := k - 1) (n := pred32 s.sbPosNum)
          rw [List.getElem?_eq_getElem (show k - 1 < s.sb.length by omega)] at this
          exact this
        have := ih _ s' (k - 1) hok hat e (Or.inl (by
          show pred32 s.sbPosNum = k - 1
          rw [hnum]; exact pred32_pos (by omega) (by omega)))
        omega
    · have hke : k = s.sb.length := by have := ha.1; omega
      have hpos : s.sbPos = none := by rw [ha.2, List.getElem?_eq_none hge]; rfl
      unfold sbUpLoop at e
      rw [hpos] at e
      simp only at e
      rw [List.getLast?_eq_getElem?] at e
      cases hl : s.sb[s.sb.length - 1]? with
      | none =>
        have h0 : s.sb.length = 0 := by
          have := List.getElem?_eq_none_iff.mp hl; omega
        rw [hl] at e
        injection e with e
        subst e
        rcases h with h | h
        · omega
        · omega
      | some l =>
        rw [hl] at e
        simp only at e
        have hlt : s.sb.length - 1 < s.sb.length := by
          rcases Nat.lt_or_ge (s.sb.length - 1) s.sb.length with h | h
          · exact h
          · rw [List.getElem?_eq_none h] at hl; cases hl
        have hat : AtPos { s with sbPos := some l.sbId, sbPosNum := pred32 s.sbCount }
            (s.sb.length - 1) :=
          ⟨by show s.sb.length - 1 ≤ s.sb.length; omega, by
            show some _ = (s.sb[s.sb.length - 1]?).map Line.sbId
            rw [hl]; rfl⟩
        have hok : SbOk { s with sbPos := some l.sbId, sbPosNum := pred32 s.sbCount } := by
          have := AtPos.ok hs (k := s.sb.length - 1) (n := pred32 s.sbCount)
          rw [hl] at this
          exact this
        have := ih _ s' _ hok hat e (Or.inl (by
          show pred32 s.sbCount = s.sb.length - 1
          rw [hs.cnt]; exact pred32_pos (by omega) (by omega)))
        omega

theorem sbDownLoop_num (n : Nat) : ∀ (s s' : Screen) (k : Nat), SbOk s → AtPos s k →
    sbDownLoop n s = .ok s' → s.sbPosNum = k → s'.sbPosNum = min (k + n) s.sb.length := by
  induction n with
  | zero =>
    intro s s' k _ ha e h
    injection e with e
    subst e
    have := ha.1
    omega
  | succ n ih =>
    intro s s' k hs ha e h
    have hnd := ids_nodup hs.ids
    have hmx := hs.max
    have hmb := hs.maxb
    rcases Nat.lt_or_ge k s.sb.length with hlt | hge
    · have hk : s.sb[k]? = some s.sb[k] := List.getElem?_eq_getElem hlt
      have hpos : s.sbPos = some s.sb[k].sbId := by rw [ha.2, hk]; rfl
      unfold sbDownLoop at e
      rw [hpos] at e
      simp only at e
      rw [nextId_spec hnd hk] at e
      simp only at e
      have hat : AtPos { s with
          sbPos := (s.sb[k + 1]?).map Line.sbId, sbPosNum := u32 (s.sbPosNum + 1) } (k + 1) :=
        ⟨by show k + 1 ≤ s.sb.length; omega, rfl⟩
      have := ih _ s' (k + 1) (AtPos.ok hs) hat e (by
        show u32 (s.sbPosNum + 1) = k + 1
        unfold u32; omega)
      change s'.sbPosNum = min (k + 1 + n) s.sb.length at this
      omega
    · have hpos : s.sbPos = none := by rw [ha.2, List.getElem?_eq_none hge]; rfl
      unfold sbDownLoop at e
      rw [hpos] at e
      injection e with e
      subst e
      have := ha.1
      omega

theorem sbUp_num {s s' : Screen} (h : Inv s) {num : Nat} (e : s.sbUp num = .ok s')
    (hn : s.sbPosNum = s.view.topIndex ∨ 0 < num ∧ s.sbPos = none ∧ s.sb ≠ []) :
    s'.sbPosNum = s.view.topIndex - num := by
  obtain ⟨k, hk⟩ := h.sb.atPos
  have hti := hk.topIndex h.sb
  unfold sbUp at e
  by_cases h0 : num = 0
  · rw [if_pos h0] at e
    injection e with e
    subst e
    rcases hn with hn | hn
    · omega
    · omega
  · rw [if_neg h0] at e
    rw [hti]
    refine sbUpLoop_num num s.incAge.touch s' k h.incAge.touch.sb
      ⟨by show k ≤ s.incAge.sb.length; rw [ia_sb]; exact hk.1, by
        show s.incAge.sbPos = (s.incAge.sb[k]?).map Line.sbId; rw [ia_sb, ia_sbPos]; exact hk.2⟩ e ?_
    rcases hn with hn | ⟨h1, h2, h3⟩
    · left
      show s.incAge.sbPosNum = k
      rw [ia_sbPosNum, hn, hti]
    · right
      have hl : 0 < s.sb.length := List.length_pos_iff.mpr h3
      refine ⟨h1, ?_, ?_⟩
      · show k = s.incAge.sb.length
        rw [ia_sb]
        rcases Nat.lt_or_ge k s.sb.length with hlt | hge
        · have := hk.2
          rw [h2, List.getElem?_eq_getElem hlt] at this
          cases this
        · have := hk.1; omega
      · show 0 < s.incAge.sb.length
        rw [ia_sb]; exact hl

theorem sbDown_num {s s' : Screen} (h : Inv s) {num : Nat} (e : s.sbDown num = .ok s')
    (hn : s.sbPosNum = s.view.topIndex) :
    s'.sbPosNum = min (s.view.topIndex + num) s.sb.length := by
  obtain ⟨k, hk⟩ := h.sb.atPos
  have hti := hk.topIndex h.sb
  have hle := hk.1
  unfold sbDown at e
  by_cases h0 : num = 0
  · rw [if_pos h0] at e
    injection e with e
    subst e
    omega
  · rw [if_neg h0] at e
    rw [hti]
    have := sbDownLoop_num num s.incAge.touch s' k h.incAge.touch.sb
      ⟨by show k ≤ s.incAge.sb.length; rw [ia_sb]; exact hk.1, by
        show s.incAge.sbPos = (s.incAge.sb[k]?).map Line.sbId; rw [ia_sb, ia_sbPos]; exact hk.2⟩ e
      (by show s.incAge.sbPosNum = k; rw [ia_sbPosNum, hn, hti])
    rw [this]
    show min (k + num) s.incAge.sb.length = _
    rw [ia_sb]

end Screen
end Verif
