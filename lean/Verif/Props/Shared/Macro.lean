import Verif.Model.Shared.Macro

/-!
# Arithmetic helpers

C106: multiplications are exact or refused; `SHL_ALIGN_POWER2` rounds up to a power of two.
-/

namespace Verif.Props.Macro

open Verif Verif.Macro

/-- The product if it fits, otherwise nothing is changed and an error returned. -/
def Checked (w val factor : Nat) (r : Nat × Bool) : Prop :=
  (r.2 = true ∧ r.1 = val * factor ∧ val * factor < 2 ^ w) ∨ (r.2 = false ∧ r.1 = val ∧ 2 ^ w ≤ val * factor)

theorem real_checked (w val factor : Nat) : Checked w val factor (realMult w val factor) := by
  have hw : 0 < 2 ^ w := Nat.two_pow_pos w
  unfold realMult
  by_cases hf : factor = 0
  · subst hf
    rw [if_pos (.inl rfl)]
    exact .inl ⟨rfl, by simp, by simpa using hw⟩
  · by_cases h : val ≤ (2 ^ w - 1) / factor
    · rw [if_pos (.inr h)]
      have := (Nat.le_div_iff_mul_le (Nat.pos_of_ne_zero hf)).mp h
      have hlt : val * factor < 2 ^ w := by omega
      exact .inl ⟨rfl, Nat.mod_eq_of_lt hlt, hlt⟩
    · rw [if_neg (by intro k; rcases k with k | k <;> contradiction)]
      refine .inr ⟨rfl, rfl, Nat.le_of_not_lt fun hlt => h ?_⟩
      exact (Nat.le_div_iff_mul_le (Nat.pos_of_ne_zero hf)).mpr (by omega)

theorem upcast_checked {wide w val factor : Nat} (hw : w + w ≤ wide) (h1 : val < 2 ^ w) (h2 : factor < 2 ^ w) :
    Checked w val factor (upcastMult wide w val factor) := by
  have h0 : 0 < 2 ^ w := Nat.two_pow_pos w
  have hlt : val * factor < 2 ^ wide := by
    have h3 : val * factor < 2 ^ w * 2 ^ w := Nat.mul_lt_mul'' h1 h2
    rw [← Nat.pow_add] at h3
    exact Nat.lt_of_lt_of_le h3 (Nat.pow_le_pow_right (by decide) hw)
  unfold upcastMult
  rw [Nat.mod_eq_of_lt hlt]
  by_cases h : val * factor ≤ 2 ^ w - 1
  · rw [if_pos h]
    have hs : val * factor < 2 ^ w := by omega
    exact .inl ⟨rfl, Nat.mod_eq_of_lt hs, hs⟩
  · rw [if_neg h]
    exact .inr ⟨rfl, rfl, by omega⟩

/-- **C106.** For all values, each of the functions stores the product and returns 0 if the product fits into the type, and
otherwise changes nothing and returns an error. -/
theorem C106_mult (val factor : Nat) :
    (val < 2 ^ 64 → factor < 2 ^ 64 → Checked 64 val factor (multU64 val factor)) ∧
    (val < 2 ^ 32 → factor < 2 ^ 32 → Checked 32 val factor (multU32 val factor)) ∧
    (val < 2 ^ 16 → factor < 2 ^ 16 → ∀ fast, 32 ≤ fast → Checked 16 val factor (multU16 fast val factor)) ∧
    (val < 2 ^ 8 → factor < 2 ^ 8 → ∀ fast, 16 ≤ fast → Checked 8 val factor (multU8 fast val factor)) :=
  ⟨fun _ _ => real_checked 64 val factor, fun h1 h2 => upcast_checked (by decide) h1 h2,
    fun h1 h2 _ hf => upcast_checked hf h1 h2, fun h1 h2 _ hf => upcast_checked hf h1 h2⟩

/-- Products at the limit, with 0, and beyond. -/
example : multU64 0x100000000 0xffffffff = (0xffffffff00000000, true) ∧ multU64 0x100000000 0x100000000 = (0x100000000, false) ∧
    multU32 65536 65535 = (0xffff0000, true) ∧ multU32 65536 65536 = (65536, false) ∧ multU8 16 16 16 = (16, false) ∧
    multU8 16 255 0 = (0, true) ∧ multU16 64 257 255 = (65535, true) := by decide +kernel

/-- **C106**, rounding, what holds: between 2 and 2^63 the result of `SHL_ALIGN_POWER2` is the least power of two that is not
smaller. -/
theorem C106_align_partial {u : Nat} (h1 : 2 ≤ u) (h2 : u ≤ 2 ^ 63) :
    ∃ k, Ring.alignPower2 u = .ok (2 ^ k) ∧ u ≤ 2 ^ k ∧ ∀ j, u ≤ 2 ^ j → 2 ^ k ≤ 2 ^ j := by
  have hv : Ring.u64 (u + 18446744073709551615) = u - 1 := by
    show (u + 18446744073709551615) % 18446744073709551616 = _
    omega
  have hne : u - 1 ≠ 0 := by omega
  have hl : Nat.log2 (u - 1) < 63 := (Nat.log2_lt hne).mpr (by omega)
  have hb := (Nat.log2_lt (n := u - 1) hne (k := Nat.log2 (u - 1) + 1)).mp (by omega)
  have ha := (Nat.le_log2 (n := u - 1) hne (k := Nat.log2 (u - 1))).mp (by omega)
  refine ⟨Nat.log2 (u - 1) + 1, ?_, by omega, ?_⟩
  · unfold Ring.alignPower2
    simp only [hv]
    rw [if_neg hne, if_neg (by omega)]
    have : 2 ^ (Nat.log2 (u - 1) + 1) ≤ 2 ^ 63 := Nat.pow_le_pow_right (by decide) (by omega)
    show Except.ok (2 ^ (Nat.log2 (u - 1) + 1) % 18446744073709551616) = _
    rw [Nat.mod_eq_of_lt (by omega)]
  · intro j hj
    refine Nat.pow_le_pow_right (by decide) ?_
    refine Nat.lt_of_not_le fun hle => ?_
    have : 2 ^ j ≤ 2 ^ Nat.log2 (u - 1) := Nat.pow_le_pow_right (by decide) hle
    omega

example : Ring.alignPower2 4097 = .ok 8192 ∧ Ring.alignPower2 4096 = .ok 4096 ∧ Ring.alignPower2 (2 ^ 63) = .ok (2 ^ 63) := by
  decide +kernel

/-- **C106**, rounding, is false: the comment promises 0 for 0 and for sizes that cannot be rounded up (and 1 for 1), but there the
shift or `__builtin_clzll` is undefined, for each of them. -/
theorem C106_align_false {u : Nat} (h : u < 2 ∨ 2 ^ 63 < u) (hu : u < 2 ^ 64) : Ring.alignPower2 u = .error .badShift := by
  unfold Ring.alignPower2
  rcases h with h | h
  · have : u = 0 ∨ u = 1 := by omega
    rcases this with rfl | rfl <;> decide +kernel
  · have hv : Ring.u64 (u + 18446744073709551615) = u - 1 := by
      show (u + 18446744073709551615) % 18446744073709551616 = _
      omega
    simp only [hv]
    rw [if_neg (by omega)]
    have := (Nat.le_log2 (n := u - 1) (by omega) (k := 63)).mpr (by omega)
    rw [if_pos (by omega)]

example : Ring.alignPower2 0 = .error .badShift ∧ Ring.alignPower2 (2 ^ 63 + 1) = .error .badShift := by decide +kernel

end Verif.Props.Macro
