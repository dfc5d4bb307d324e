import Verif.Model.Wcwidth
import Verif.Spec.Wcwidth

/-!
# C05: character widths
-/

namespace Verif.Props.Wcwidth
open Verif.Wcwidth Verif.Spec.Wcwidth

/-- Loop invariant of the bisection, for every sorted table. -/
theorem bisect_spec (t : List (Nat × Nat)) (ht : SortedRanges t) (c : Int) (n : Nat) (bot top : Int)
    (hb : 0 ≤ bot) (htop : top < t.length) (hn : top - bot + 1 ≤ n) :
    ∃ r : Bool, bisect t c n bot top = .ok r ∧
      (r = true ↔ ∃ (i : Nat) (h : i < t.length), bot ≤ i ∧ (i : Int) ≤ top ∧
        ((t[i]).1 : Int) ≤ c ∧ c ≤ ((t[i]).2 : Int)) := by
  induction n generalizing bot top with
  | zero =>
    refine ⟨false, rfl, ?_⟩
    simp only [Bool.false_eq_true, false_iff, not_exists, not_and]
    intro i h h1 h2; omega
  | succ n ih =>
    unfold bisect
    by_cases h : top ≥ bot
    · rw [if_pos h]
      have hm0 : ¬ ((bot + top) / 2 < 0) := by omega
      have hml : ((bot + top) / 2).toNat < t.length := by omega
      simp only [if_neg hm0, List.getElem?_eq_getElem hml]
      obtain ⟨hne, hp⟩ := ht
      rw [List.pairwise_iff_getElem] at hp
      have hself := hne _ (List.getElem_mem hml)
      by_cases c1 : ((t[((bot + top) / 2).toNat]).2 : Int) < c
      · rw [if_pos c1]
        obtain ⟨r, hr, hiff⟩ := ih ((bot + top) / 2 + 1) top (by omega) htop (by omega)
        refine ⟨r, hr, hiff.trans ?_⟩
        constructor
        · rintro ⟨i, hi, h1, h2, h3⟩; exact ⟨i, hi, by omega, h2, h3⟩
        · rintro ⟨i, hi, h1, h2, h3, h4⟩
          refine ⟨i, hi, ?_, h2, h3, h4⟩
          rcases Nat.lt_trichotomy i ((bot + top) / 2).toNat with hlt | heq | hgt
          · have := hp i _ hi hml hlt
            have := hne _ (List.getElem_mem hi)
            omega
          · subst heq; omega
          · omega
      · rw [if_neg c1]
        by_cases c2 : ((t[((bot + top) / 2).toNat]).1 : Int) > c
        · rw [if_pos c2]
          obtain ⟨r, hr, hiff⟩ := ih bot ((bot + top) / 2 - 1) hb (by omega) (by omega)
          refine ⟨r, hr, hiff.trans ?_⟩
          constructor
          · rintro ⟨i, hi, h1, h2, h3⟩; exact ⟨i, hi, h1, by omega, h3⟩
          · rintro ⟨i, hi, h1, h2, h3, h4⟩
            refine ⟨i, hi, h1, ?_, h3, h4⟩
            rcases Nat.lt_trichotomy i ((bot + top) / 2).toNat with hlt | heq | hgt
            · omega
            · subst heq; omega
            · have := hp _ i hml hi hgt
              omega
        · rw [if_neg c2]
          refine ⟨true, rfl, ?_⟩
          simp only [true_iff]
          exact ⟨_, hml, by omega, by omega, by omega, by omega⟩
    · rw [if_neg h]
      refine ⟨false, rfl, ?_⟩
      simp only [Bool.false_eq_true, false_iff, not_exists, not_and]
      intro i hi h1 h2; omega

/-- **C05, search.** For every non-empty sorted range table and every
non-negative value, the table search terminates without leaving the table and
agrees with a linear scan. -/
theorem C05_intable_correct (t : List (Nat × Nat)) (ht : SortedRanges t) (hne : t ≠ []) (c : Nat) :
    intable t (c : Int) = .ok (decide (InRanges t c)) := by
  unfold intable
  have hl : 0 < t.length := List.length_pos_iff.2 hne
  rw [List.getElem?_eq_getElem hl]
  simp only
  by_cases h0 : (c : Int) < ((t[0]).1 : Int)
  · rw [if_pos h0]
    congr 1
    symm
    rw [decide_eq_false_iff_not]
    rintro ⟨r, hr, h1, h2⟩
    obtain ⟨i, hi, rfl⟩ := List.getElem_of_mem hr
    rcases Nat.eq_zero_or_pos i with rfl | hpos
    · omega
    · have := (List.pairwise_iff_getElem.1 ht.2) 0 i hl hi hpos
      have := ht.1 _ (List.getElem_mem hl)
      omega
  · rw [if_neg h0]
    obtain ⟨r, hr, hiff⟩ := bisect_spec t ht c t.length 0 ((t.length : Int) - 1) (by omega)
      (by omega) (by omega)
    rw [hr]
    congr 1
    rw [Bool.eq_iff_iff, hiff, decide_eq_true_iff]
    constructor
    · rintro ⟨i, hi, -, -, h1, h2⟩
      exact ⟨_, List.getElem_mem hi, by omega, by omega⟩
    · rintro ⟨x, hx, h1, h2⟩
      obtain ⟨i, hi, rfl⟩ := List.getElem_of_mem hx
      exact ⟨i, hi, by omega, by omega, by omega, by omega⟩

/-- The two tables are sorted (whole tables, checked by the kernel). -/
theorem zeroWidth_sorted : SortedRanges zeroWidth := by decide +kernel
theorem wide_sorted : SortedRanges wideEastAsian := by decide +kernel

/-- **C05.** `tsm_ucs4_get_width` is free of undefined behaviour and returns
the specified width, for every 32-bit argument. -/
theorem C05_width_spec (c : Nat) (hc : c < 2 ^ 32) : ucs4GetWidth c = .ok (width c) := by
  unfold ucs4GetWidth toWchar width
  by_cases hbig : c < 2147483648
  · rw [if_pos hbig]
    have hz := C05_intable_correct _ zeroWidth_sorted (List.cons_ne_nil _ _) c
    have hw := C05_intable_correct _ wide_sorted (List.cons_ne_nil _ _) c
    unfold Verif.Wcwidth.wcwidth
    by_cases hf : Format c
    · have : ((c : Int) = 0 ∨ (c : Int) = 0x034F ∨ (0x200B ≤ (c : Int) ∧ (c : Int) ≤ 0x200F) ∨
        (c : Int) = 0x2028 ∨ (c : Int) = 0x2029 ∨
        (0x202A ≤ (c : Int) ∧ (c : Int) ≤ 0x202E) ∨ (0x2060 ≤ (c : Int) ∧ (c : Int) ≤ 0x2063)) := by
        unfold Format at hf; omega
      rw [if_pos this, if_pos (Or.inr (Or.inl hf))]; rfl
    · have : ¬ ((c : Int) = 0 ∨ (c : Int) = 0x034F ∨ (0x200B ≤ (c : Int) ∧ (c : Int) ≤ 0x200F) ∨
        (c : Int) = 0x2028 ∨ (c : Int) = 0x2029 ∨
        (0x202A ≤ (c : Int) ∧ (c : Int) ≤ 0x202E) ∨ (0x2060 ≤ (c : Int) ∧ (c : Int) ≤ 0x2063)) := by
        unfold Format at hf; omega
      rw [if_neg this]
      by_cases hctl : Control c
      · have : ((c : Int) < 32 ∨ (0x07F ≤ (c : Int) ∧ (c : Int) < 0x0A0)) := by
          unfold Control at hctl; omega
        rw [if_pos this, if_pos (Or.inr (Or.inr (Or.inl hctl)))]; rfl
      · have : ¬ ((c : Int) < 32 ∨ (0x07F ≤ (c : Int) ∧ (c : Int) < 0x0A0)) := by
          unfold Control at hctl; omega
        rw [if_neg this, hz, hw]
        by_cases h1 : InRanges zeroWidth c
        · rw [if_pos (Or.inr (Or.inr (Or.inr h1))), decide_eq_true h1]; rfl
        · have hn : ¬ (c ≥ 2 ^ 31 ∨ Format c ∨ Control c ∨ InRanges zeroWidth c) := by
            rintro (h | h | h | h)
            · omega
            · exact hf h
            · exact hctl h
            · exact h1 h
          rw [if_neg hn, decide_eq_false h1]
          by_cases h2 : InRanges wideEastAsian c
          · rw [if_pos h2, decide_eq_true h2]; rfl
          · rw [if_neg h2, decide_eq_false h2]; rfl
  · rw [if_neg hbig, if_pos (Or.inl (by omega))]
    unfold Verif.Wcwidth.wcwidth
    rw [if_neg (by omega), if_pos (by omega)]; rfl

/-- **C05, range.** The width is 0, 1 or 2. -/
theorem C05_width_range (c : Nat) (hc : c < 2 ^ 32) :
    ∃ w, ucs4GetWidth c = .ok w ∧ w ≤ 2 := by
  refine ⟨_, C05_width_spec c hc, ?_⟩
  unfold width; (repeat' split) <;> omega

/-- All three widths occur. -/
example : ucs4GetWidth 0x41 = .ok 1 ∧ ucs4GetWidth 0x4E2D = .ok 2 ∧ ucs4GetWidth 0x301 = .ok 0 ∧
    ucs4GetWidth 0xFFFFFFFF = .ok 0 := by decide +kernel

end Verif.Props.Wcwidth
