import Verif.Model.Utf8
import Verif.Spec.Utf8

/-! Helper lemmas about the UTF-8 model. -/

set_option linter.unusedSimpArgs false

namespace Verif.Utf8
open Verif.Spec.Utf8

theorem forall_uint8 {P : UInt8 → Prop} (h : ∀ n, n < 256 → P (UInt8.ofNat n)) : ∀ b, P b := by
  intro b
  have := h b.toNat b.toNat_lt
  rwa [UInt8.ofNat_toNat] at this

theorem toNat_ofNat {n : Nat} (h : n < 256) : (UInt8.ofNat n).toNat = n := by
  rw [UInt8.toNat_ofNat']; omega

theorem and_mask (n k : Nat) : n &&& (2 ^ k - 1) = n % 2 ^ k := Nat.and_two_pow_sub_one_eq_mod n k

theorem and_3f (n : Nat) : n &&& 0x3f = n % 64 := and_mask n 6
theorem and_1f (n : Nat) : n &&& 0x1f = n % 32 := and_mask n 5
theorem and_0f (n : Nat) : n &&& 0x0f = n % 16 := and_mask n 4
theorem and_07 (n : Nat) : n &&& 0x07 = n % 8 := and_mask n 3
theorem and_7f (n : Nat) : n &&& 0x7f = n % 128 := and_mask n 7
theorem and_ffff (n : Nat) : n &&& 0xffff = n % 65536 := and_mask n 16

theorem or_lt_add {a i b : Nat} (hb : b < 2 ^ i) : (a <<< i) ||| b = a * 2 ^ i + b := by
  rw [← Nat.shiftLeft_add_eq_or_of_lt hb, Nat.shiftLeft_eq]

theorem or_mul_add {a b : Nat} (i : Nat) (hb : b < 2 ^ i) (ha : a % 2 ^ i = 0) : a ||| b = a + b := by
  have h : a = (a / 2 ^ i) <<< i := by
    rw [Nat.shiftLeft_eq]
    have := Nat.div_add_mod a (2 ^ i)
    rw [Nat.mul_comm]; omega
  rw [h, ← Nat.shiftLeft_add_eq_or_of_lt hb]

/-- Decidable statement of how one byte acts on a machine at a character
boundary; checked for the complete set of 256 bytes. -/
theorem class_all : ∀ sg : Bool, ∀ n < 256,
    (conv sg (UInt8.ofNat n) &&& 0x80 = n / 128 * 128) ∧
    (conv sg (UInt8.ofNat n) &&& 0xC0 = n / 64 * 64) ∧
    (conv sg (UInt8.ofNat n) &&& 0xE0 = n / 32 * 32) ∧
    (conv sg (UInt8.ofNat n) &&& 0xF0 = n / 16 * 16) ∧
    (conv sg (UInt8.ofNat n) &&& 0xF8 = n / 8 * 8) ∧
    (conv sg (UInt8.ofNat n) &&& 0x3F = n % 64) ∧
    (conv sg (UInt8.ofNat n) &&& 0x1F = n % 32) ∧
    (conv sg (UInt8.ofNat n) &&& 0x0F = n % 16) ∧
    (conv sg (UInt8.ofNat n) &&& 0x07 = n % 8) ∧
    (n < 128 → conv sg (UInt8.ofNat n) = n) ∧
    (conv false (UInt8.ofNat n) = n) ∧
    (128 ≤ n → conv true (UInt8.ofNat n) = n + 0xffffff00) := by
  decide +kernel

theorem conv_class (sg : Bool) (b : UInt8) :
    (conv sg b &&& 0x80 = b.toNat / 128 * 128) ∧
    (conv sg b &&& 0xC0 = b.toNat / 64 * 64) ∧
    (conv sg b &&& 0xE0 = b.toNat / 32 * 32) ∧
    (conv sg b &&& 0xF0 = b.toNat / 16 * 16) ∧
    (conv sg b &&& 0xF8 = b.toNat / 8 * 8) ∧
    (conv sg b &&& 0x3F = b.toNat % 64) ∧
    (conv sg b &&& 0x1F = b.toNat % 32) ∧
    (conv sg b &&& 0x0F = b.toNat % 16) ∧
    (conv sg b &&& 0x07 = b.toNat % 8) ∧
    (b.toNat < 128 → conv sg b = b.toNat) ∧
    (conv false b = b.toNat) ∧
    (128 ≤ b.toNat → conv true b = b.toNat + 0xffffff00) := by
  have := class_all sg b.toNat b.toNat_lt
  rwa [UInt8.ofNat_toNat] at this

theorem mk_ch {st : St} {a b : Nat} (h : a = b) : (⟨st, a⟩ : Mach) = ⟨st, b⟩ := by rw [h]

/-- The machine is at a character boundary. -/
def Boundary (m : Mach) : Prop := m.state = .start ∨ m.state = .accept ∨ m.state = .reject

instance (m : Mach) : Decidable (Boundary m) := by unfold Boundary; infer_instance

/-- Arithmetic description of `feed` at a boundary. -/
theorem feed_boundary (sg : Bool) (m : Mach) (hm : Boundary m) (b : UInt8) :
    feed sg m b =
      if sg = false ∧ (b.toNat = 0xC0 ∨ b.toNat = 0xC1) then { m with state := .reject }
      else if b.toNat < 128 then { state := .accept, ch := b.toNat }
      else if b.toNat < 192 then { m with state := .start }
      else if b.toNat < 224 then { state := .expect1, ch := b.toNat % 32 * 64 }
      else if b.toNat < 240 then { state := .expect2, ch := b.toNat % 16 * 4096 }
      else if b.toNat < 248 then { state := .expect3, ch := b.toNat % 8 * 262144 }
      else { m with state := .reject } := by
  obtain ⟨h1, h2, h3, h4, h5, -, h7, h8, h9, h10, h11, h12⟩ := conv_class sg b
  have hb := b.toNat_lt
  have hs : feed sg m b = 
    (if conv sg b = 0xC0 ∨ conv sg b = 0xC1 then { m with state := .reject }
    else if conv sg b &&& 0x80 = 0 then { state := .accept, ch := conv sg b }
    else if conv sg b &&& 0xC0 = 0x80 then { m with state := .start }
    else if conv sg b &&& 0xE0 = 0xC0 then { state := .expect1, ch := (conv sg b &&& 0x1F) <<< 6 }
    else if conv sg b &&& 0xF0 = 0xE0 then { state := .expect2, ch := (conv sg b &&& 0x0F) <<< 12 }
    else if conv sg b &&& 0xF8 = 0xF0 then { state := .expect3, ch := (conv sg b &&& 0x07) <<< 18 }
    else { m with state := .reject }) := by
    rcases hm with h | h | h <;> simp only [feed, h]
  rw [hs, h1, h2, h3, h4, h5, h7, h8, h9]
  simp only [Nat.shiftLeft_eq]
  by_cases hlt : b.toNat < 128
  · rw [h10 hlt]
    have e1 : ¬ (b.toNat = 192 ∨ b.toNat = 193) := by omega
    have e2 : b.toNat / 128 * 128 = 0 := by omega
    have e3 : ¬ (sg = false ∧ (b.toNat = 192 ∨ b.toNat = 193)) := fun h => e1 h.2
    simp [e1, e2, hlt]
  · have ec : (conv sg b = 192 ∨ conv sg b = 193) ↔ (sg = false ∧ (b.toNat = 192 ∨ b.toNat = 193)) := by
      cases sg
      · rw [h11]; simp
      · rw [h12 (by omega)]; simp
    have e2 : ¬ (b.toNat / 128 * 128 = 0) := by omega
    have e3 : (b.toNat / 64 * 64 = 128) ↔ b.toNat < 192 := by omega
    by_cases c0 : (sg = false ∧ (b.toNat = 192 ∨ b.toNat = 193))
    · rw [if_pos (ec.2 c0), if_pos c0]
    · rw [if_neg (fun h => c0 (ec.1 h)), if_neg c0, if_neg e2, if_neg hlt]
      by_cases c1 : b.toNat < 192
      · rw [if_pos (e3.2 c1), if_pos c1]
      · rw [if_neg (fun h => c1 (e3.1 h)), if_neg c1]
        by_cases c2 : b.toNat < 224
        · rw [if_pos (by omega), if_pos c2]
        · rw [if_neg (by omega), if_neg c2]
          by_cases c3 : b.toNat < 240
          · rw [if_pos (by omega), if_pos c3]
          · rw [if_neg (by omega), if_neg c3]
            by_cases c4 : b.toNat < 248
            · rw [if_pos (by omega), if_pos c4]
            · rw [if_neg (by omega), if_neg c4]

theorem feed_expect3 (sg : Bool) (ch : Nat) (b : UInt8) :
    feed sg ⟨.expect3, ch⟩ b =
      { ch := ch ||| (b.toNat % 64 * 4096),
        state := if b.toNat / 64 = 2 then .expect2 else .reject } := by
  obtain ⟨-, h2, -, -, -, h6, -⟩ := conv_class sg b
  have e : (b.toNat / 64 * 64 = 128) ↔ b.toNat / 64 = 2 := by omega
  simp only [feed, h2, h6, Nat.shiftLeft_eq, e]

theorem feed_expect2 (sg : Bool) (ch : Nat) (b : UInt8) :
    feed sg ⟨.expect2, ch⟩ b =
      { ch := ch ||| (b.toNat % 64 * 64),
        state := if b.toNat / 64 = 2 then .expect1 else .reject } := by
  obtain ⟨-, h2, -, -, -, h6, -⟩ := conv_class sg b
  have e : (b.toNat / 64 * 64 = 128) ↔ b.toNat / 64 = 2 := by omega
  simp only [feed, h2, h6, Nat.shiftLeft_eq, e]

theorem feed_expect1 (sg : Bool) (ch : Nat) (b : UInt8) :
    feed sg ⟨.expect1, ch⟩ b =
      { ch := ch ||| (b.toNat % 64),
        state := if b.toNat / 64 = 2 then .accept else .reject } := by
  obtain ⟨-, h2, -, -, -, h6, -⟩ := conv_class sg b
  have e : (b.toNat / 64 * 64 = 128) ↔ b.toNat / 64 = 2 := by omega
  simp only [feed, h2, h6, e]

/-- The encoder equals the arithmetic specification. -/
theorem encode_eq_bytes (g : Nat) :
    encode g = if Encodable g then (bytes g).map UInt8.ofNat else [] := by
  have hE : Encodable g ↔ ¬ (0xd800 ≤ g ∧ g ≤ 0xdfff) ∧
      ¬ (g > 0x10ffff ∨ g % 65536 = 0xffff ∨ g % 65536 = 0xfffe) ∧
      ¬ (0xfdd0 ≤ g ∧ g ≤ 0xfdef) := by unfold Encodable; omega
  unfold encode bytes
  simp only [and_3f, and_1f, and_0f, and_07, and_7f, and_ffff, Nat.shiftRight_eq_div_pow,
    Nat.shiftLeft_eq]
  by_cases h1 : 0xd800 ≤ g ∧ g ≤ 0xdfff
  · rw [if_pos h1, if_neg (fun h => (hE.1 h).1 h1)]
  rw [if_neg h1]
  by_cases h2 : g > 0x10ffff ∨ g % 65536 = 0xffff ∨ g % 65536 = 0xfffe
  · rw [if_pos h2, if_neg (fun h => (hE.1 h).2.1 h2)]
  rw [if_neg h2]
  by_cases h3 : 0xfdd0 ≤ g ∧ g ≤ 0xfdef
  · rw [if_pos h3, if_neg (fun h => (hE.1 h).2.2 h3)]
  rw [if_neg h3, if_pos (hE.2 ⟨h1, h2, h3⟩)]
  have o1 : ∀ n, n < 32 → 192 ||| n = 192 + n := fun n hn => or_mul_add 5 hn (by decide)
  have o2 : ∀ n, n < 64 → 128 ||| n = 128 + n := fun n hn => or_mul_add 6 hn (by decide)
  have o3 : ∀ n, n < 16 → 224 ||| n = 224 + n := fun n hn => or_mul_add 4 hn (by decide)
  have o4 : ∀ n, n < 8 → 240 ||| n = 240 + n := fun n hn => or_mul_add 3 hn (by decide)
  rw [o1 _ (by omega), o3 _ (by omega), o4 _ (by omega), o2 _ (by omega), o2 _ (by omega),
    o2 _ (by omega)]
  have p1 : (1 * 2 ^ 7 : Nat) = 128 := by decide
  have p2 : (1 * 2 ^ (5 + 6) : Nat) = 2048 := by decide
  have p3 : (1 * 2 ^ (4 + 6 + 6) : Nat) = 65536 := by decide
  have p4 : (1 * 2 ^ (3 + 6 + 6 + 6) : Nat) = 2097152 := by decide
  rw [p1, p2, p3, p4]
  by_cases c1 : g < 128
  · rw [if_pos c1, if_pos c1]
    have : g % 128 = g := by omega
    simp [this]
  rw [if_neg c1, if_neg c1]
  by_cases c2 : g < 2048
  · rw [if_pos c2, if_pos c2]
    have : g / 2 ^ 6 % 32 = g / 64 := by omega
    rw [this]; rfl
  rw [if_neg c2, if_neg c2]
  by_cases c3 : g < 65536
  · rw [if_pos c3, if_pos c3]
    have : g / 2 ^ 12 % 16 = g / 4096 := by omega
    rw [this]; rfl
  rw [if_neg c3, if_neg c3, if_pos (by omega)]
  have : g / 2 ^ 18 % 8 = g / 262144 := by omega
  rw [this]; rfl

theorem run_append (sg : Bool) (m : Mach) (a b : List UInt8) :
    run sg m (a ++ b) =
      ((run sg (run sg m a).1 b).1, (run sg m a).2 ++ (run sg (run sg m a).1 b).2) := by
  induction a generalizing m with
  | nil => simp [run]
  | cons x xs ih =>
    simp only [List.cons_append, run, ih]
    split <;> simp

/-- Feeding the encoding of an encodable code point at a boundary: the machine
ends in ACCEPT holding the code point, delivered once, and nothing is delivered
by any strict prefix. -/
theorem run_encode (sg : Bool) (m : Mach) (hm : Boundary m) (g : Nat) (hg : Encodable g) :
    run sg m (encode g) = (⟨.accept, g⟩, [g]) ∧
    ∀ p, p <+: encode g → p ≠ encode g → (run sg m p).2 = [] := by
  have hb : encode g = (bytes g).map UInt8.ofNat := by rw [encode_eq_bytes, if_pos hg]
  have hg1 : g ≤ 0x10FFFF := hg.1
  have key : ∀ (sg : Bool) (n : Nat), 194 ≤ n → n < 256 →
      ¬ (sg = false ∧ (n = 0xC0 ∨ n = 0xC1)) := by intro sg n _ _ h; omega
  have prefixes : ∀ (l p : List UInt8), p <+: l → p ≠ l → ∃ k, k < l.length ∧ p = l.take k := by
    intro l p hp hne
    refine ⟨p.length, ?_, (List.prefix_iff_eq_take.1 hp)⟩
    have := hp.length_le
    rcases Nat.lt_or_ge p.length l.length with h | h
    · exact h
    · exact absurd (hp.eq_of_length (by omega)) hne
  rw [hb]
  unfold bytes
  by_cases c1 : g < 128
  · simp only [if_pos c1, List.map_cons, List.map_nil]
    have e : (UInt8.ofNat g).toNat = g := toNat_ofNat (by omega)
    have f : feed sg m (UInt8.ofNat g) = ⟨.accept, g⟩ := by
      rw [feed_boundary sg m hm, e, if_neg (by omega), if_pos c1]
    refine ⟨by simp only [run, f, get, reduceCtorEq, or_self, or_false, false_or, true_or, if_true, if_false, List.take], ?_⟩
    intro p hp hne
    obtain ⟨k, hk, rfl⟩ := prefixes _ _ hp hne
    simp at hk; subst hk; simp [run]
  by_cases c2 : g < 2048
  · simp only [if_neg c1, if_pos c2, List.map_cons, List.map_nil]
    have e1 : (UInt8.ofNat (192 + g / 64)).toNat = 192 + g / 64 := toNat_ofNat (by omega)
    have e2 : (UInt8.ofNat (128 + g % 64)).toNat = 128 + g % 64 := toNat_ofNat (by omega)
    have f1 : feed sg m (UInt8.ofNat (192 + g / 64)) = ⟨.expect1, g / 64 * 64⟩ := by
      rw [feed_boundary sg m hm, e1, if_neg (key sg _ (by omega) (by omega)), if_neg (by omega),
        if_neg (by omega), if_pos (by omega)]
      exact mk_ch (by omega)
    have f2 : feed sg ⟨.expect1, g / 64 * 64⟩ (UInt8.ofNat (128 + g % 64)) = ⟨.accept, g⟩ := by
      rw [feed_expect1, e2, if_pos (by omega), or_mul_add 6 (by omega) (by omega)]
      exact mk_ch (by omega)
    refine ⟨by simp only [run, f1, f2, get, reduceCtorEq, or_self, or_false, false_or, true_or, if_true, if_false, List.take], ?_⟩
    intro p hp hne
    obtain ⟨k, hk, rfl⟩ := prefixes _ _ hp hne
    simp at hk
    rcases (by omega : k = 0 ∨ k = 1) with rfl | rfl <;> simp only [run, f1, reduceCtorEq, or_self, or_false, false_or, true_or, if_true, if_false, List.take]
  by_cases c3 : g < 65536
  · simp only [if_neg c1, if_neg c2, if_pos c3, List.map_cons, List.map_nil]
    have e1 : (UInt8.ofNat (224 + g / 4096)).toNat = 224 + g / 4096 := toNat_ofNat (by omega)
    have e2 : (UInt8.ofNat (128 + g / 64 % 64)).toNat = 128 + g / 64 % 64 := toNat_ofNat (by omega)
    have e3 : (UInt8.ofNat (128 + g % 64)).toNat = 128 + g % 64 := toNat_ofNat (by omega)
    have f1 : feed sg m (UInt8.ofNat (224 + g / 4096)) = ⟨.expect2, g / 4096 * 4096⟩ := by
      rw [feed_boundary sg m hm, e1, if_neg (key sg _ (by omega) (by omega)), if_neg (by omega),
        if_neg (by omega), if_neg (by omega), if_pos (by omega)]
      exact mk_ch (by omega)
    have f2 : feed sg ⟨.expect2, g / 4096 * 4096⟩ (UInt8.ofNat (128 + g / 64 % 64))
        = ⟨.expect1, g / 64 * 64⟩ := by
      rw [feed_expect2, e2, if_pos (by omega), or_mul_add 12 (by omega) (by omega)]
      exact mk_ch (by omega)
    have f3 : feed sg ⟨.expect1, g / 64 * 64⟩ (UInt8.ofNat (128 + g % 64)) = ⟨.accept, g⟩ := by
      rw [feed_expect1, e3, if_pos (by omega), or_mul_add 6 (by omega) (by omega)]
      exact mk_ch (by omega)
    refine ⟨by simp only [run, f1, f2, f3, get, reduceCtorEq, or_self, or_false, false_or, true_or, if_true, if_false, List.take], ?_⟩
    intro p hp hne
    obtain ⟨k, hk, rfl⟩ := prefixes _ _ hp hne
    simp at hk
    rcases (by omega : k = 0 ∨ k = 1 ∨ k = 2) with rfl | rfl | rfl <;> simp only [run, f1, f2, reduceCtorEq, or_self, or_false, false_or, true_or, if_true, if_false, List.take]
  · simp only [if_neg c1, if_neg c2, if_neg c3, List.map_cons, List.map_nil]
    have e1 : (UInt8.ofNat (240 + g / 262144)).toNat = 240 + g / 262144 := toNat_ofNat (by omega)
    have e2 : (UInt8.ofNat (128 + g / 4096 % 64)).toNat = 128 + g / 4096 % 64 :=
      toNat_ofNat (by omega)
    have e3 : (UInt8.ofNat (128 + g / 64 % 64)).toNat = 128 + g / 64 % 64 := toNat_ofNat (by omega)
    have e4 : (UInt8.ofNat (128 + g % 64)).toNat = 128 + g % 64 := toNat_ofNat (by omega)
    have f1 : feed sg m (UInt8.ofNat (240 + g / 262144)) = ⟨.expect3, g / 262144 * 262144⟩ := by
      rw [feed_boundary sg m hm, e1, if_neg (key sg _ (by omega) (by omega)), if_neg (by omega),
        if_neg (by omega), if_neg (by omega), if_neg (by omega), if_pos (by omega)]
      exact mk_ch (by omega)
    have f2 : feed sg ⟨.expect3, g / 262144 * 262144⟩ (UInt8.ofNat (128 + g / 4096 % 64))
        = ⟨.expect2, g / 4096 * 4096⟩ := by
      rw [feed_expect3, e2, if_pos (by omega), or_mul_add 18 (by omega) (by omega)]
      exact mk_ch (by omega)
    have f3 : feed sg ⟨.expect2, g / 4096 * 4096⟩ (UInt8.ofNat (128 + g / 64 % 64))
        = ⟨.expect1, g / 64 * 64⟩ := by
      rw [feed_expect2, e3, if_pos (by omega), or_mul_add 12 (by omega) (by omega)]
      exact mk_ch (by omega)
    have f4 : feed sg ⟨.expect1, g / 64 * 64⟩ (UInt8.ofNat (128 + g % 64)) = ⟨.accept, g⟩ := by
      rw [feed_expect1, e4, if_pos (by omega), or_mul_add 6 (by omega) (by omega)]
      exact mk_ch (by omega)
    refine ⟨by simp only [run, f1, f2, f3, f4, get, reduceCtorEq, or_self, or_false, false_or, true_or, if_true, if_false, List.take], ?_⟩
    intro p hp hne
    obtain ⟨k, hk, rfl⟩ := prefixes _ _ hp hne
    simp at hk
    rcases (by omega : k = 0 ∨ k = 1 ∨ k = 2 ∨ k = 3) with rfl | rfl | rfl | rfl <;>
      simp only [run, f1, f2, f3, reduceCtorEq, or_self, or_false, false_or, true_or, if_true, if_false, List.take]

/-- After an ASCII byte the machine is at a boundary, whatever happened before. -/
theorem boundary_after_ascii (sg : Bool) (m : Mach) (b : UInt8) (hb : b.toNat < 128) :
    Boundary (feed sg m b) := by
  obtain ⟨st, ch⟩ := m
  cases st
  case expect1 => rw [feed_expect1, if_neg (by omega)]; simp [Boundary]
  case expect2 => rw [feed_expect2, if_neg (by omega)]; simp [Boundary]
  case expect3 => rw [feed_expect3, if_neg (by omega)]; simp [Boundary]
  all_goals
    rw [feed_boundary _ _ (by simp [Boundary]), if_neg (by omega), if_pos hb]; simp [Boundary]

theorem boundary_run_encode (sg : Bool) (m : Mach) (hm : Boundary m) (l : List Nat) :
    Boundary (run sg m (l.flatMap encode)).1 ∧
    (run sg m (l.flatMap encode)).2 = l.filter (fun g => decide (Encodable g)) := by
  induction l generalizing m with
  | nil => simp [run, hm]
  | cons g gs ih =>
    rw [List.flatMap_cons, run_append]
    by_cases hg : Encodable g
    · have hr := (run_encode sg m hm g hg).1
      have hb : Boundary (run sg m (encode g)).1 := by rw [hr]; simp [Boundary]
      refine ⟨(ih _ hb).1, ?_⟩
      simp only
      rw [(ih _ hb).2, hr, List.filter_cons_of_pos (by simpa using hg)]
      rfl
    · have he : encode g = [] := by rw [encode_eq_bytes, if_neg hg]
      rw [he]
      simp only [run, List.nil_append]
      rw [List.filter_cons_of_neg (by simpa using hg)]
      exact ih m hm

/-- Invariant for inputs without overlong forms. `last` is the previous byte. -/
def Long (last : Option Nat) (m : Mach) : Prop :=
  match m.state with
  | .expect1 => 128 ≤ m.ch
  | .expect2 => 128 ≤ m.ch ∨ last = some 0xE0
  | .expect3 => 128 ≤ m.ch ∨ last = some 0xF0
  | _ => True

theorem long_step (sg : Bool) (m : Mach) (last : Option Nat) (b : UInt8) (h : Long last m)
    (h1 : b.toNat ≠ 0xC0 ∧ b.toNat ≠ 0xC1)
    (h2 : last = some 0xE0 → 0xA0 ≤ b.toNat) (h3 : last = some 0xF0 → 0x90 ≤ b.toNat) :
    Long (some b.toNat) (feed sg m b) ∧
    ((feed sg m b).state = .accept → (feed sg m b).ch < 128 → (feed sg m b).ch = b.toNat) := by
  have hb := b.toNat_lt
  obtain ⟨st, ch⟩ := m
  have ge_or : ∀ x y : Nat, x ≤ x ||| y := fun x y => Nat.left_le_or
  have ge_or' : ∀ x y : Nat, y ≤ x ||| y := fun x y => Nat.right_le_or
  cases st
  case expect1 =>
    rw [feed_expect1]
    have h : 128 ≤ ch := h
    have := ge_or ch (b.toNat % 64)
    constructor
    · by_cases c : b.toNat / 64 = 2 <;> simp [Long, c]
    · intro _ hlt; simp only at hlt; omega
  case expect2 =>
    rw [feed_expect2]
    have h : 128 ≤ ch ∨ last = some 0xE0 := h
    by_cases c : b.toNat / 64 = 2
    · simp only [if_pos c, Long]
      refine ⟨?_, by simp⟩
      rcases h with h | h
      · have := ge_or ch (b.toNat % 64 * 64); omega
      · have := h2 h
        have := ge_or' ch (b.toNat % 64 * 64); omega
    · simp [if_neg c, Long]
  case expect3 =>
    rw [feed_expect3]
    have h : 128 ≤ ch ∨ last = some 0xF0 := h
    by_cases c : b.toNat / 64 = 2
    · simp only [if_pos c, Long]
      refine ⟨Or.inl ?_, by simp⟩
      rcases h with h | h
      · have := ge_or ch (b.toNat % 64 * 4096); omega
      · have := h3 h
        have := ge_or' ch (b.toNat % 64 * 4096); omega
    · simp [if_neg c, Long]
  all_goals
    rw [feed_boundary _ _ (by simp [Boundary]), if_neg (by omega)]
    by_cases c1 : b.toNat < 128
    · simp [if_pos c1, Long]
    rw [if_neg c1]
    by_cases c2 : b.toNat < 192
    · simp [if_pos c2, Long]
    rw [if_neg c2]
    by_cases c3 : b.toNat < 224
    · simp only [if_pos c3, Long]
      exact ⟨by omega, by simp⟩
    rw [if_neg c3]
    by_cases c4 : b.toNat < 240
    · simp only [if_pos c4, Long]
      refine ⟨?_, by simp⟩
      by_cases e : b.toNat = 0xE0
      · exact Or.inr (by rw [e])
      · exact Or.inl (by omega)
    rw [if_neg c4]
    by_cases c5 : b.toNat < 248
    · simp only [if_pos c5, Long]
      refine ⟨?_, by simp⟩
      by_cases e : b.toNat = 0xF0
      · exact Or.inr (by rw [e])
      · exact Or.inl (by omega)
    · simp [if_neg c5, Long]

theorem not_overlong_head {a : Nat} {l : List Nat} (h : ¬ OverlongStart (a :: l)) :
    (a ≠ 0xC0 ∧ a ≠ 0xC1) ∧ ¬ OverlongStart l ∧
    (∀ b, l.head? = some b → (a = 0xE0 → 0xA0 ≤ b) ∧ (a = 0xF0 → 0x90 ≤ b)) := by
  cases l with
  | nil => simp [OverlongStart] at h ⊢; exact h
  | cons b r =>
    simp only [OverlongStart] at h
    refine ⟨by omega, fun h' => h (Or.inr (Or.inr (Or.inr h'))), ?_⟩
    intro c hc
    simp at hc; subst hc
    constructor <;> intro e <;> (rcases Nat.lt_or_ge b 0 with h0 | h0 <;> omega)

theorem long_run (sg : Bool) (bs : List UInt8) (b : UInt8) (m : Mach) (last : Option Nat)
    (h : Long last m)
    (hno : ¬ OverlongStart ((bs ++ [b]).map UInt8.toNat))
    (hl : ∀ x, ((bs ++ [b]).map UInt8.toNat).head? = some x →
      (last = some 0xE0 → 0xA0 ≤ x) ∧ (last = some 0xF0 → 0x90 ≤ x)) :
    ((feed sg (run sg m bs).1 b).state = .accept → (feed sg (run sg m bs).1 b).ch < 128 →
      (feed sg (run sg m bs).1 b).ch = b.toNat) := by
  induction bs generalizing m last with
  | nil =>
    have hh := not_overlong_head (a := b.toNat) (l := []) (by simpa using hno)
    have h2 := hl b.toNat (by simp)
    simpa [run] using (long_step sg m last b h hh.1 h2.1 h2.2).2
  | cons a as ih =>
    have hh := not_overlong_head (a := a.toNat) (l := (as ++ [b]).map UInt8.toNat) (by simpa using hno)
    have h2 := hl a.toNat (by simp)
    have hs := (long_step sg m last a h hh.1 h2.1 h2.2).1
    have := ih (feed sg m a) (some a.toNat) hs hh.2.1 (by
      intro x hx
      have := hh.2.2 x hx
      simpa using this)
    have e : (run sg m (a :: as)).1 = (run sg (feed sg m a) as).1 := by
      simp only [run]; split <;> rfl
    rw [e]; exact this

/-- Invariant bounding the accumulator. -/
def Bounded (m : Mach) : Prop :=
  match m.state with
  | .accept => m.ch < 2 ^ 21
  | .expect1 => m.ch < 2 ^ 21 ∧ m.ch % 64 = 0
  | .expect2 => m.ch < 2 ^ 21 ∧ m.ch % 4096 = 0
  | .expect3 => m.ch < 2 ^ 21 ∧ m.ch % 262144 = 0
  | _ => True

theorem bounded_step (sg : Bool) (m : Mach) (b : UInt8) (h : Bounded m) : Bounded (feed sg m b) := by
  have hb := b.toNat_lt
  obtain ⟨st, ch⟩ := m
  cases st
  case expect1 =>
    obtain ⟨h, h'⟩ : ch < 2 ^ 21 ∧ ch % 64 = 0 := h
    rw [feed_expect1, or_mul_add 6 (by omega) (by omega)]
    by_cases c : b.toNat / 64 = 2 <;> simp [Bounded, c]; omega
  case expect2 =>
    obtain ⟨h, h'⟩ : ch < 2 ^ 21 ∧ ch % 4096 = 0 := h
    rw [feed_expect2, or_mul_add 12 (by omega) (by omega)]
    by_cases c : b.toNat / 64 = 2 <;> simp [Bounded, c]; omega
  case expect3 =>
    obtain ⟨h, h'⟩ : ch < 2 ^ 21 ∧ ch % 262144 = 0 := h
    rw [feed_expect3, or_mul_add 18 (by omega) (by omega)]
    by_cases c : b.toNat / 64 = 2 <;> simp [Bounded, c]; omega
  all_goals
    rw [feed_boundary _ _ (by simp [Boundary])]
    (repeat' split) <;> simp [Bounded] <;> omega

theorem bounded_run (sg : Bool) (bs : List UInt8) (m : Mach) (h : Bounded m) :
    Bounded (run sg m bs).1 ∧ ∀ c ∈ (run sg m bs).2, c < 2 ^ 21 := by
  induction bs generalizing m with
  | nil => simp [run, h]
  | cons b bs ih =>
    have hb := bounded_step sg m b h
    have := ih _ hb
    simp only [run]
    split
    · refine ⟨this.1, ?_⟩
      intro c hc
      rcases List.mem_cons.1 hc with rfl | hc
      · unfold get
        split
        · rename_i e
          unfold Bounded at hb; rw [e] at hb; exact hb
        · decide
      · exact this.2 c hc
    · exact this

end Verif.Utf8
