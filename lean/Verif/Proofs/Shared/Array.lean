import Verif.Model.Shared.Array

/-!
# The dynamic array holds a list
-/

namespace Verif.Arr

open Verif

variable {α : Type}

/-- Bit `j` of `v` tells whether one of the `n` bits from `j` up is set in `v0`. -/
def Smear (v0 n v : Nat) : Prop := ∀ j, v.testBit j = true ↔ ∃ d, d < n ∧ v0.testBit (j + d) = true

theorem smear_step {v0 n v : Nat} (h : Smear v0 n v) : Smear v0 (n + n) (v ||| (v >>> n)) := by
  intro j
  rw [Nat.testBit_or, Nat.testBit_shiftRight, Bool.or_eq_true, h, h]
  constructor
  · rintro (⟨d, h1, h2⟩ | ⟨d, h1, h2⟩)
    · exact ⟨d, by omega, h2⟩
    · exact ⟨n + d, by omega, by rw [show j + (n + d) = n + j + d by omega]; exact h2⟩
  · rintro ⟨d, h1, h2⟩
    by_cases hd : d < n
    · exact Or.inl ⟨d, hd, h2⟩
    · exact Or.inr ⟨d - n, by omega, by rw [show n + j + (d - n) = j + d by omega]; exact h2⟩

theorem smear64 {v0 v : Nat} (h : Smear v0 64 v) (hb : v0 < 2 ^ 64) (h0 : v0 ≠ 0) :
    v = 2 ^ (v0.log2 + 1) - 1 := by
  apply Nat.eq_of_testBit_eq
  intro j
  rw [Nat.testBit_two_pow_sub_one, Bool.eq_iff_iff, h, decide_eq_true_iff]
  have hl : v0.log2 < 64 := (Nat.log2_lt h0).mpr hb
  constructor
  · rintro ⟨d, _, h2⟩
    have := Nat.ge_two_pow_of_testBit h2
    have := (Nat.le_log2 h0).mpr this
    omega
  · intro hj
    refine ⟨v0.log2 - j, by omega, ?_⟩
    rw [show j + (v0.log2 - j) = v0.log2 by omega]
    have h1 := Nat.log2_self_le h0
    have h2 := Nat.lt_log2_self (n := v0)
    rw [Nat.testBit_eq_decide_div_mod_eq, decide_eq_true_iff]
    have : v0 / 2 ^ v0.log2 = 1 := by
      apply Nat.div_eq_of_lt_le
      · omega
      · rw [Nat.pow_succ] at h2; omega
    rw [this]

/-- `shl_array_pow2` computes the next power of two. -/
theorem pow2_eq {v : Nat} (h2 : 2 ≤ v) (hb : v ≤ 2 ^ 63) :
    v ≤ pow2 v ∧ pow2 v < 2 * v ∧ ∃ k, pow2 v = 2 ^ k := by
  have hs : Smear (v - 1) 1 (v - 1) := by
    intro j
    constructor
    · intro h; exact ⟨0, by omega, h⟩
    · rintro ⟨d, h1, h2⟩; rw [show d = 0 by omega] at h2; exact h2
  have h64 := smear64 (smear_step (smear_step (smear_step (smear_step (smear_step (smear_step hs))))))
    (by omega) (by omega)
  have e : pow2 v = u64 (2 ^ ((v - 1).log2 + 1) - 1 + 1) := by
    rw [← h64]
    unfold pow2
    rw [if_neg (by omega)]
    rfl
  have hl : (v - 1).log2 < 63 := (Nat.log2_lt (by omega)).mpr (by omega)
  have hle : 2 ^ ((v - 1).log2 + 1) ≤ 2 ^ 63 := Nat.pow_le_pow_right (by decide) (by omega)
  have hpos := Nat.two_pow_pos ((v - 1).log2 + 1)
  rw [Nat.sub_add_cancel hpos] at e
  have e' : pow2 v = 2 ^ ((v - 1).log2 + 1) := by
    rw [e]; unfold u64; exact Nat.mod_eq_of_lt (by omega)
  have h1 := Nat.log2_self_le (n := v - 1) (by omega)
  have h3 := Nat.lt_log2_self (n := v - 1)
  refine ⟨by omega, ?_, _, e'⟩
  rw [e', Nat.pow_succ]
  omega

/-- The elements of the array. -/
def contents (a : Arr α) : List (Option α) := a.data.take a.length

/-- Invariant of the array. -/
structure Ok (a : Arr α) : Prop where
  esz : 0 < a.elementSize
  size : 0 < a.size
  cap : a.data.length = a.size
  bytes : a.elementSize * a.size < 9223372036854775808
  le : a.length ≤ a.size

theorem contents_length {a : Arr α} (h : Ok a) : a.contents.length = a.length := by
  unfold contents
  rw [List.length_take, h.cap]
  have := h.le
  omega

theorem new_ok {esz n : Nat} {mem : Bool} {a : Arr α} (he : 0 < esz)
    (hb : esz * (n + 4) < 18446744073709551616) (h : new esz n mem = some a) :
    Ok a ∧ a.contents = [] ∧ a.elementSize = esz := by
  unfold new at h
  dsimp only at h
  generalize hm : (if n = 0 then 4 else n) = m at h
  have hm0 : 0 < m := by rw [← hm]; split <;> omega
  have hml : esz * m ≤ esz * (n + 4) := Nat.mul_le_mul_left _ (by rw [← hm]; split <;> omega)
  have hu : u64 (esz * m) = esz * m := by unfold u64; exact Nat.mod_eq_of_lt (by omega)
  rw [hu] at h
  by_cases hal : alloc mem (esz * m) = true
  · rw [if_pos hal] at h
    injection h with h
    subst h
    unfold alloc at hal
    simp only [Bool.and_eq_true, decide_eq_true_iff] at hal
    refine ⟨⟨he, hm0, ?_, hal.2, Nat.zero_le _⟩, rfl, rfl⟩
    show (List.replicate _ _).length = m
    rw [List.length_replicate, Nat.mul_div_cancel_left _ he]
  · rw [if_neg hal] at h; cases h

theorem store_ok {data d : List (Option α)} {pos : Nat} (h : pos + d.length ≤ data.length) :
    ∃ L, store data pos d = .ok L ∧ L.length = data.length ∧
      L.take (pos + d.length) = data.take pos ++ d := by
  refine ⟨data.take pos ++ d ++ data.drop (pos + d.length), ?_, ?_, ?_⟩
  · unfold store; rw [if_pos h]
  · simp only [List.length_append, List.length_take, List.length_drop]; omega
  · have hl : (data.take pos ++ d).length = pos + d.length := by
      rw [List.length_append, List.length_take]; omega
    rw [← hl, List.take_left]

theorem realloc_eq {a : Arr α} (h : Ok a) {n : Nat} (hn : a.size ≤ n) :
    (a.realloc (a.elementSize * n)).length = n ∧ (a.realloc (a.elementSize * n)).take a.length = a.contents := by
  unfold realloc contents
  dsimp only
  rw [Nat.mul_div_cancel_left _ h.esz]
  have hc := h.cap
  have hle := h.le
  constructor
  · rw [List.length_append, List.length_take, List.length_replicate]; omega
  · rw [List.take_of_length_le (l := a.data) (by omega), List.take_append_of_le_length (by omega)]

theorem push_ok {a : Arr α} (h : Ok a) (x : α) (mem : Bool) :
    (∃ a', push a x mem = .ok (a', true) ∧ Ok a' ∧ a'.contents = a.contents ++ [some x] ∧
      a'.elementSize = a.elementSize) ∨
    ((mem = false ∨ 9223372036854775808 ≤ 2 * (a.elementSize * a.length)) ∧ push a x mem = .ok (a, false)) := by
  have hle := h.le
  have hcl := contents_length h
  unfold push
  by_cases hg : a.length ≥ a.size
  · rw [if_pos hg]
    dsimp only
    have hb := h.bytes
    have hsz : a.elementSize * (2 * a.size) = 2 * (a.elementSize * a.size) := by
      rw [Nat.mul_left_comm]
    have h1 : a.size * 1 ≤ a.elementSize * a.size := by
      rw [Nat.mul_comm a.elementSize]; exact Nat.mul_le_mul_left _ h.esz
    have e1 : u64 (a.size * 2) = 2 * a.size := by unfold u64; omega
    have e2 : u64 (a.elementSize * (2 * a.size)) = a.elementSize * (2 * a.size) := by unfold u64; omega
    rw [e1, e2]
    by_cases hal : alloc mem (a.elementSize * (2 * a.size)) = true
    · rw [if_pos hal]
      unfold alloc at hal
      simp only [Bool.and_eq_true, decide_eq_true_iff] at hal
      obtain ⟨r1, r2⟩ := realloc_eq h (n := 2 * a.size) (by omega)
      have hs := h.size
      obtain ⟨L, l1, l2, l3⟩ := store_ok (data := a.realloc (a.elementSize * (2 * a.size)))
        (pos := a.length) (d := [some x]) (by rw [r1]; simp; omega)
      rw [l1]
      refine Or.inl ⟨_, rfl, ⟨h.esz, by show 0 < 2 * a.size; omega, by show L.length = 2 * a.size; omega,
        hal.2, by show a.length + 1 ≤ 2 * a.size; omega⟩, ?_, rfl⟩
      show L.take (a.length + 1) = _
      rw [← r2]; exact l3
    · rw [if_neg hal]
      refine Or.inr ⟨?_, rfl⟩
      unfold alloc at hal
      simp only [Bool.and_eq_true, decide_eq_true_iff, not_and] at hal
      cases mem with
      | false => exact Or.inl rfl
      | true =>
        have := hal rfl
        have heq : a.length = a.size := by omega
        rw [heq]
        exact Or.inr (by omega)
  · rw [if_neg hg]
    have hc := h.cap
    obtain ⟨L, l1, l2, l3⟩ := store_ok (data := a.data)
      (pos := a.length) (d := [some x]) (by simp; omega)
    rw [l1]
    refine Or.inl ⟨_, rfl, ⟨h.esz, h.size, by show L.length = a.size; omega, h.bytes,
      by show a.length + 1 ≤ a.size; omega⟩, l3, rfl⟩

theorem pop_ok {a : Arr α} (h : Ok a) : Ok a.pop ∧ a.pop.contents = a.contents.dropLast ∧
    a.pop.elementSize = a.elementSize := by
  have hle := h.le
  have hc := h.cap
  unfold pop
  by_cases h0 : a.length = 0
  · rw [if_pos h0]
    refine ⟨h, ?_, rfl⟩
    unfold contents; rw [h0]; rfl
  · rw [if_neg h0]
    refine ⟨⟨h.esz, h.size, h.cap, h.bytes, by show a.length - 1 ≤ a.size; omega⟩, ?_, rfl⟩
    unfold contents
    rw [List.dropLast_eq_take, List.length_take, List.take_take]
    congr 1
    show a.length - 1 = _
    omega

theorem zresize_ok {zero : α} {a : Arr α} (h : Ok a) {n : Nat} (mem : Bool)
    (hb : 2 * (a.elementSize * n) < 18446744073709551616) :
    (∃ a', zresize zero a n mem = .ok (a', true) ∧ Ok a' ∧ a'.length = n ∧
      a'.elementSize = a.elementSize ∧
      (n ≤ a.length → a'.contents = a.contents.take n) ∧
      (a.size < n → a'.contents = a.contents ++ List.replicate (n - a.length) (some zero)) ∧
      (a.length ≤ n → a'.contents.take a.length = a.contents)) ∨
    ((mem = false ∨ 9223372036854775808 ≤ 2 * (a.elementSize * n)) ∧ zresize zero a n mem = .ok (a, false)) := by
  have hle := h.le
  have hc := h.cap
  have hcl := contents_length h
  unfold zresize
  by_cases hg : n > a.size
  · rw [if_pos hg]
    dsimp only
    have hs := h.size
    have hn : 1 * n ≤ a.elementSize * n := Nat.mul_le_mul_right _ h.esz
    obtain ⟨p1, p2, _⟩ := pow2_eq (v := n) (by omega) (by omega)
    have hm : a.elementSize * pow2 n ≤ a.elementSize * (2 * n) := Nat.mul_le_mul_left _ (by omega)
    have e : a.elementSize * (2 * n) = 2 * (a.elementSize * n) := by rw [Nat.mul_left_comm]
    have e2 : u64 (a.elementSize * pow2 n) = a.elementSize * pow2 n := by unfold u64; omega
    rw [e2]
    by_cases hal : alloc mem (a.elementSize * pow2 n) = true
    · rw [if_pos hal]
      unfold alloc at hal
      simp only [Bool.and_eq_true, decide_eq_true_iff] at hal
      obtain ⟨r1, r2⟩ := realloc_eq h (n := pow2 n) (by omega)
      obtain ⟨L, l1, l2, l3⟩ := store_ok (data := a.realloc (a.elementSize * pow2 n))
        (pos := a.length) (d := List.replicate (n - a.length) (some zero))
        (by rw [r1, List.length_replicate]; omega)
      rw [List.length_replicate, show a.length + (n - a.length) = n by omega, r2] at l3
      rw [l1]
      refine Or.inl ⟨_, rfl, ⟨h.esz, by show 0 < pow2 n; omega, by show L.length = pow2 n; omega,
        hal.2, p1⟩, rfl, rfl, ?_, fun _ => l3, ?_⟩
      · intro hx; omega
      · intro _
        show (L.take n).take a.length = _
        rw [l3, List.take_append_of_le_length (by omega), ← hcl, List.take_length]
    · rw [if_neg hal]
      refine Or.inr ⟨?_, rfl⟩
      unfold alloc at hal
      simp only [Bool.and_eq_true, decide_eq_true_iff, not_and] at hal
      cases mem with
      | false => exact Or.inl rfl
      | true => exact Or.inr (by have := hal rfl; omega)
  · rw [if_neg hg]
    refine Or.inl ⟨_, rfl, ⟨h.esz, h.size, h.cap, h.bytes, by show n ≤ a.size; omega⟩, rfl, rfl, ?_, ?_, ?_⟩
    · intro hx
      unfold contents
      rw [List.take_take, Nat.min_eq_left hx]
    · intro hx; omega
    · intro hx
      unfold contents
      show (a.data.take n).take a.length = _
      rw [List.take_take, Nat.min_eq_left hx]

end Verif.Arr
