import Verif.Props.Wcwidth
import Verif.Props.Screen.Edit
import Verif.Spec.Unicode

/-!
# C103: widths according to Unicode
-/

namespace Verif.Props.Unicode

open Verif.Spec.Wcwidth Verif.Spec.Unicode Verif.Wcwidth

/-- Columns that a character takes according to Unicode 15.0: none for control characters, nonspacing and enclosing marks and
the characters that only format text, two for wide ones, one for all others. -/
def columns (c : Nat) : Nat :=
  if Control c ∨ Format c ∨ InRanges marks c then 0 else if InRanges wide c then 2 else 1

/-- Added or changed since Unicode 9.0. -/
def Later (c : Nat) : Prop := InRanges newMarks c ∨ InRanges newWide c ∨ InRanges changed c

instance (c : Nat) : Decidable (Later c) := by unfold Later; infer_instance

/-! ### Comparing tables -/

/-- The end of an interval that contains `a`. -/
def reach (t : List (Nat × Nat)) (a : Nat) : Option Nat :=
  match t with
  | [] => none
  | r :: t => if Nat.ble r.1 a && Nat.ble a r.2 then some r.2 else reach t a

/-- All of `a … b` is in some interval; `n` bounds the number of intervals. -/
def covers (t : List (Nat × Nat)) : Nat → Nat → Nat → Bool
  | 0, _, _ => false
  | n + 1, a, b =>
    match reach t a with
    | none => false
    | some y => if Nat.ble b y then true else covers t n (y + 1) b

/-- No interval has a point in `a … b`. -/
def avoids (t : List (Nat × Nat)) (a b : Nat) : Bool := t.all fun r => Nat.blt r.2 a || Nat.blt b r.1

theorem reach_sound {t : List (Nat × Nat)} {a y : Nat} (h : reach t a = some y) {c : Nat} (h1 : a ≤ c) (h2 : c ≤ y) :
    InRanges t c := by
  induction t with
  | nil => cases h
  | cons r t ih =>
    unfold reach at h
    split at h
    · rename_i hr
      rw [Bool.and_eq_true] at hr
      injection h with h
      subst h
      exact ⟨r, List.mem_cons_self, Nat.le_trans (Nat.le_of_ble_eq_true hr.1) h1, h2⟩
    · obtain ⟨q, hq, hc⟩ := ih h
      exact ⟨q, List.mem_cons_of_mem _ hq, hc⟩

theorem covers_sound {t : List (Nat × Nat)} : ∀ {n a b : Nat}, covers t n a b = true → ∀ {c : Nat}, a ≤ c → c ≤ b →
    InRanges t c
  | 0, _, _, h, _, _, _ => nomatch h
  | n + 1, a, b, h, c, h1, h2 => by
    unfold covers at h
    split at h
    · cases h
    · rename_i y hy
      split at h
      · rename_i hb
        exact reach_sound hy h1 (Nat.le_trans h2 (Nat.le_of_ble_eq_true hb))
      · by_cases hc : c ≤ y
        · exact reach_sound hy h1 hc
        · exact covers_sound h (by omega) h2

theorem avoids_sound {t : List (Nat × Nat)} {a b : Nat} (h : avoids t a b = true) {c : Nat} (h1 : a ≤ c) (h2 : c ≤ b) :
    ¬ InRanges t c := by
  rintro ⟨r, hr, h3, h4⟩
  have := List.all_eq_true.mp h r hr
  rw [Bool.or_eq_true] at this
  rcases this with k | k
  · have := Nat.le_of_ble_eq_true k; omega
  · have := Nat.le_of_ble_eq_true k; omega

/-- Every point of `s` is in `t`. -/
theorem within {s t : List (Nat × Nat)} (h : s.all (fun r => covers t 9 r.1 r.2) = true) {c : Nat} (hc : InRanges s c) :
    InRanges t c := by
  obtain ⟨r, hr, h1, h2⟩ := hc
  exact covers_sound (List.all_eq_true.mp h r hr) h1 h2

/-- No point of `s` is in `t`. -/
theorem apart {s t : List (Nat × Nat)} (h : s.all (fun r => avoids t r.1 r.2) = true) {c : Nat} (hc : InRanges s c) :
    ¬ InRanges t c := by
  obtain ⟨r, hr, h1, h2⟩ := hc
  exact avoids_sound (List.all_eq_true.mp h r hr) h1 h2

theorem ranges_append {s t : List (Nat × Nat)} {c : Nat} : InRanges (s ++ t) c ↔ InRanges s c ∨ InRanges t c := by
  constructor
  · rintro ⟨r, hr, h⟩
    rcases List.mem_append.mp hr with k | k
    · exact Or.inl ⟨r, k, h⟩
    · exact Or.inr ⟨r, k, h⟩
  · rintro (⟨r, hr, h⟩ | ⟨r, hr, h⟩)
    · exact ⟨r, List.mem_append_left _ hr, h⟩
    · exact ⟨r, List.mem_append_right _ hr, h⟩

/-- Control characters and those that format text, as intervals. -/
def hand : List (Nat × Nat) :=
  [(0, 31), (127, 159), (0x034f, 0x034f), (0x200b, 0x200f), (0x2028, 0x202e), (0x2060, 0x2063)]

theorem hand_iff (c : Nat) : InRanges hand c ↔ Control c ∨ Format c := by
  unfold InRanges hand Control Format
  simp only [List.mem_cons, List.not_mem_nil, or_false, exists_eq_or_imp, exists_eq_left]
  omega

theorem zero_marks : zeroWidth.all (fun r => covers (marks ++ changed) 9 r.1 r.2) = true := by decide +kernel
theorem marks_zero : marks.all (fun r => covers (zeroWidth ++ (newMarks ++ changed)) 9 r.1 r.2) = true := by decide +kernel
theorem wide_wide : wideEastAsian.all (fun r => covers (wide ++ changed) 9 r.1 r.2) = true := by decide +kernel
theorem wide_old : wide.all (fun r => covers (wideEastAsian ++ (newWide ++ (changed ++ marks))) 9 r.1 r.2) = true := by
  decide +kernel

/-- **C103**, partial: every code point takes the columns that Unicode 15.0 gives it, except for those added or changed since
Unicode 9.0. This includes unassigned code points. -/
theorem C103_columns_partial {c : Nat} (hc : c < 2 ^ 31) (hl : ¬ Later c) : ucs4GetWidth c = .ok (columns c) := by
  rw [Wcwidth.C05_width_spec c (by omega)]
  have h1 : ¬ InRanges newMarks c := fun h => hl (Or.inl h)
  have h2 : ¬ InRanges newWide c := fun h => hl (Or.inr (Or.inl h))
  have h3 : ¬ InRanges changed c := fun h => hl (Or.inr (Or.inr h))
  have hm : InRanges zeroWidth c ↔ InRanges marks c := by
    constructor
    · intro h
      rcases ranges_append.mp (within zero_marks h) with k | k
      · exact k
      · exact absurd k h3
    · intro h
      rcases ranges_append.mp (within marks_zero h) with k | k
      · exact k
      · rcases ranges_append.mp k with k | k
        · exact absurd k h1
        · exact absurd k h3
  have hw : ¬ InRanges marks c → (InRanges wideEastAsian c ↔ InRanges wide c) := by
    intro hn
    constructor
    · intro h
      rcases ranges_append.mp (within wide_wide h) with k | k
      · exact k
      · exact absurd k h3
    · intro h
      rcases ranges_append.mp (within wide_old h) with k | k
      · exact k
      · rcases ranges_append.mp k with k | k
        · exact absurd k h2
        · rcases ranges_append.mp k with k | k
          · exact absurd k h3
          · exact absurd k hn
  congr 1
  unfold width columns
  by_cases hz : Control c ∨ Format c ∨ InRanges marks c
  · rw [if_pos hz, if_pos]
    rcases hz with k | k | k
    · exact Or.inr (Or.inr (Or.inl k))
    · exact Or.inr (Or.inl k)
    · exact Or.inr (Or.inr (Or.inr (hm.mpr k)))
  · rw [if_neg hz, if_neg]
    · by_cases k : InRanges wide c
      · rw [if_pos k, if_pos ((hw fun k => hz (Or.inr (Or.inr k))).mpr k)]
      · rw [if_neg k, if_neg fun q => k ((hw fun k => hz (Or.inr (Or.inr k))).mp q)]
    · rintro (k | k | k | k)
      · omega
      · exact hz (Or.inr (Or.inl k))
      · exact hz (Or.inl k)
      · exact hz (Or.inr (Or.inr (hm.mp k)))

theorem newMarks_marks : newMarks.all (fun r => covers marks 9 r.1 r.2) = true := by decide +kernel
theorem newMarks_narrow : newMarks.all (fun r => avoids (hand ++ (zeroWidth ++ wideEastAsian)) r.1 r.2) = true := by decide +kernel
theorem newWide_wide : newWide.all (fun r => covers wide 9 r.1 r.2) = true := by decide +kernel
theorem newWide_apart : newWide.all (fun r => avoids (hand ++ marks) r.1 r.2) = true := by decide +kernel
theorem newWide_narrow : newWide.all (fun r => avoids (hand ++ (zeroWidth ++ wideEastAsian)) r.1 r.2) = true := by decide +kernel
theorem below : (newMarks ++ newWide).all (fun r => Nat.ble r.2 0x10ffff) = true := by decide +kernel

/-- Outside of the tables of the code. -/
theorem narrow_of {c : Nat} (hc : c ≤ 0x10ffff) (h : ¬ InRanges (hand ++ (zeroWidth ++ wideEastAsian)) c) :
    ucs4GetWidth c = .ok 1 := by
  rw [Wcwidth.C05_width_spec c (by omega)]
  have h1 : ¬ InRanges hand c := fun k => h (ranges_append.mpr (Or.inl k))
  have h2 : ¬ InRanges zeroWidth c := fun k => h (ranges_append.mpr (Or.inr (ranges_append.mpr (Or.inl k))))
  have h3 : ¬ InRanges wideEastAsian c := fun k => h (ranges_append.mpr (Or.inr (ranges_append.mpr (Or.inr k))))
  rw [hand_iff] at h1
  unfold width
  rw [if_neg, if_neg h3]
  rintro (k | k | k | k)
  · omega
  · exact h1 (Or.inr k)
  · exact h1 (Or.inl k)
  · exact h2 k

theorem bounded {c : Nat} (h : InRanges (newMarks ++ newWide) c) : c ≤ 0x10ffff := by
  obtain ⟨r, hr, _, h2⟩ := h
  exact Nat.le_trans h2 (Nat.le_of_ble_eq_true (List.all_eq_true.mp below r hr))

/-- **C103**, false for new characters: each of the marks added after Unicode 9.0 takes a column of its own instead of none,
and each of the wide characters added since, nearly all of them emoji, takes one column instead of two. -/
theorem C103_new_false {c : Nat} : (InRanges newMarks c → columns c = 0 ∧ ucs4GetWidth c = .ok 1) ∧
    (InRanges newWide c → columns c = 2 ∧ ucs4GetWidth c = .ok 1) := by
  constructor
  · intro h
    refine ⟨?_, narrow_of (bounded (ranges_append.mpr (Or.inl h))) (apart newMarks_narrow h)⟩
    unfold columns
    rw [if_pos (Or.inr (Or.inr (within newMarks_marks h)))]
  · intro h
    refine ⟨?_, narrow_of (bounded (ranges_append.mpr (Or.inr h))) (apart newWide_narrow h)⟩
    have h1 := apart newWide_apart h
    rw [ranges_append, hand_iff] at h1
    unfold columns
    rw [if_neg, if_pos (within newWide_wide h)]
    rintro (k | k | k)
    · exact h1 (Or.inl (Or.inl k))
    · exact h1 (Or.inl (Or.inr k))
    · exact h1 (Or.inr k)

/-- **C103**, exactly: the code agrees with Unicode 15.0 on a code point if and only if it was not added as a mark or wide
character, and not changed, after Unicode 9.0. -/
theorem C103_exactly_partial {c : Nat} (hc : c < 2 ^ 31) : ucs4GetWidth c = .ok (columns c) ↔ ¬ Later c := by
  refine ⟨?_, C103_columns_partial hc⟩
  rintro e (h | h | h)
  · obtain ⟨k1, k2⟩ := C103_new_false.1 h
    rw [k1, k2] at e
    cases e
  · obtain ⟨k1, k2⟩ := C103_new_false.2 h
    rw [k1, k2] at e
    cases e
  · obtain ⟨r, hr, h1, h2⟩ := h
    simp only [changed, List.mem_cons, List.not_mem_nil, or_false] at hr
    rcases hr with rfl | rfl | rfl | rfl | rfl <;> dsimp only at h1 h2 <;> obtain rfl := Nat.le_antisymm h2 h1 <;>
      revert e <;> decide +kernel

/-- **C103**, on the screen: writing a character that is not later than Unicode 9.0 moves the cursor from the column that it is
written to by the number of its columns. A character without columns changes nothing. -/
theorem C103_cursor_partial {s : Screen} (hr : Screen.Reachable s) {c : Nat} (hc : c < 2 ^ 31) (hl : ¬ Later c) {a : Attr}
    (hins : s.flags.getLsbD 0 = false) : ∃ s', s.write c a = .ok s' ∧
      if columns c = 0 then s' = s
      else s'.cursorX = s.view.writeCol + columns c ∧ s'.cursorY = s.view.writeRow := by
  have hw : ucs4GetWidth (if c ≤ 0x7fffffff then c else 0) = .ok (columns c) := by
    rw [if_pos (by omega)]
    exact C103_columns_partial hc hl
  by_cases h0 : columns c = 0
  · rw [h0] at hw
    exact ⟨s, Screen.C11_zero_width hw, by rw [if_pos h0]⟩
  · obtain ⟨s', e, u, _, hv⟩ := Screen.C11_write hr hw (by omega) hins (a := a)
    refine ⟨s', e, ?_⟩
    rw [if_neg h0]
    exact ⟨congrArg View.cursorX hv, congrArg View.cursorY hv⟩

/-- An ideograph, an accent, a letter and an old emoji agree; a face from 2018 does not. -/
example : columns 0x4e2d = 2 ∧ ¬ Later 0x4e2d ∧ columns 0x301 = 0 ∧ ¬ Later 0x301 ∧ columns 0xe9 = 1 ∧ ¬ Later 0xe9 ∧
    columns 0x1f600 = 2 ∧ ¬ Later 0x1f600 ∧ InRanges newWide 0x1f970 ∧ InRanges newMarks 0x8d3 := by decide +kernel

/-- Screens without insert mode exist. -/
example : ∃ s, Screen.Reachable s ∧ (!s.flags.getLsbD 0 && decide (s.view.writeCol = 1)) = true :=
  Screen.exists_of_holds (cs := [.resize 5 2, .write 65 Attr.zero]) (by decide +kernel)

end Verif.Props.Unicode
