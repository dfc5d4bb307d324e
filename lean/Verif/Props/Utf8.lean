import Verif.Proofs.Utf8

/-!
# C01-C04: UTF-8 encoder and decoder
-/

namespace Verif.Props.Utf8
open Verif.Utf8 Verif.Spec.Utf8

/-! ## C01 round trip -/

/-- **C01.** Feeding the concatenated encodings of any list of code points to a
decoder that is at a character boundary delivers exactly the encodable ones, in
order, and leaves the decoder at a boundary; for signed and unsigned `char`. -/
theorem C01_utf8_stream_roundtrip (sg : Bool) (m : Mach)
    (hm : m.state = .start ∨ m.state = .accept ∨ m.state = .reject) (l : List Nat) :
    (run sg m (l.flatMap encode)).2 = l.filter (fun g => decide (Encodable g)) ∧
    ((run sg m (l.flatMap encode)).1.state = .start ∨
     (run sg m (l.flatMap encode)).1.state = .accept ∨
     (run sg m (l.flatMap encode)).1.state = .reject) :=
  ⟨(boundary_run_encode sg m hm l).2, (boundary_run_encode sg m hm l).1⟩

/-- **C01, timing.** A single code point is delivered exactly by its last byte:
every strict prefix of its encoding delivers nothing. -/
theorem C01_utf8_delivered_at_last_byte (sg : Bool) (m : Mach)
    (hm : m.state = .start ∨ m.state = .accept ∨ m.state = .reject) (g : Nat) (hg : Encodable g) :
    (run sg m (encode g)).2 = [g] ∧ (run sg m (encode g)).1.state = .accept ∧
    ∀ p, p <+: encode g → p ≠ encode g → (run sg m p).2 = [] := by
  have h := run_encode sg m hm g hg
  refine ⟨by rw [h.1], by rw [h.1], h.2⟩

/-- Non-vacuity: a stream mixing all four lengths and an unencodable surrogate. -/
example : (run true new ([0x41, 0xD800, 0xE9, 0x20AC, 0x1F600].flatMap encode)).2
    = [0x41, 0xE9, 0x20AC, 0x1F600] := by decide +kernel

/-! ## C02 encoder output -/

/-- **C02.** The encoder's output is the shortest UTF-8 form given by the
arithmetic specification, and empty exactly for the code points documented as
errors. -/
theorem C02_encode_spec (g : Nat) :
    (encode g).map UInt8.toNat = if Encodable g then bytes g else [] := by
  rw [encode_eq_bytes]
  by_cases hg : Encodable g
  · rw [if_pos hg, if_pos hg, List.map_map]
    have hall : ∀ x ∈ bytes g, x < 256 := by
      have := hg.1
      unfold bytes
      intro x hx
      split at hx
      · simp at hx; omega
      split at hx
      · simp at hx; omega
      split at hx <;> (simp at hx; omega)
    conv => rhs; rw [← List.map_id (bytes g)]
    apply List.map_congr_left
    intro x hx
    simp only [Function.comp, id]
    exact toNat_ofNat (hall x hx)
  · simp [if_neg hg]

/-- **C02, length.** At most 4 bytes, and none exactly for unencodable values. -/
theorem C02_encode_length (g : Nat) :
    (encode g).length ≤ 4 ∧ (encode g = [] ↔ ¬ Encodable g) := by
  have h := C02_encode_spec g
  have hl : (encode g).length = (if Encodable g then bytes g else []).length := by
    rw [← h, List.length_map]
  have h4 : (bytes g).length ≤ 4 ∧ (bytes g).length ≠ 0 := by
    unfold bytes; (repeat' split) <;> simp
  constructor
  · rw [hl]; split
    · exact h4.1
    · simp
  · rw [← List.length_eq_zero_iff, hl]
    by_cases hg : Encodable g
    · simp [hg, h4.2]
    · simp [hg]

/-- **C02, prefix freeness** (hence injectivity): if the encoding of one
encodable code point is a prefix of the encoding of another, they are equal. -/
theorem C02_encode_prefix_free (g h : Nat) (hg : Encodable g) (hh : Encodable h)
    (hp : encode g <+: encode h) : g = h := by
  have h1 := (run_encode true new (by simp [Boundary, new]) g hg).1
  have h2 := (run_encode true new (by simp [Boundary, new]) h hh)
  by_cases e : encode g = encode h
  · rw [e, h2.1] at h1; simp at h1; exact h1.symm
  · have := h2.2 _ hp e
    rw [h1] at this; simp at this

/-- **C02, buffer version.** `tsm_ucs4_to_utf8_alloc` never needs more than the
`4 * len` bytes it allocates and returns the concatenation. -/
theorem C02_encode_alloc (l : List Nat) :
    (l.flatMap encode).length ≤ 4 * l.length ∧
    (encodeAlloc l = none ↔ ∀ g ∈ l, ¬ Encodable g) ∧
    (∀ out, encodeAlloc l = some out → out = l.flatMap encode) := by
  refine ⟨?_, ?_, ?_⟩
  · induction l with
    | nil => simp
    | cons a as ih =>
      have := (C02_encode_length a).1
      simp only [List.flatMap_cons, List.length_append, List.length_cons]
      omega
  · unfold encodeAlloc
    simp only [ite_eq_left_iff, List.length_eq_zero_iff, reduceCtorEq, imp_false,
      Decidable.not_not, List.flatMap_eq_nil_iff]
    constructor
    · intro h g hg; exact (C02_encode_length g).2.1 (h g hg)
    · intro h g hg; exact (C02_encode_length g).2.2 (h g hg)
  · intro out h
    unfold encodeAlloc at h
    simp only at h
    split at h
    · cases h
    · exact (Option.some.inj h).symm

example : Encodable 0x20AC ∧ encode 0x20AC = [0xE2, 0x82, 0xAC] := by decide +kernel
example : ¬ Encodable 0xFFFE ∧ encode 0xFFFE = [] := by decide +kernel

/-! ## C03 resynchronisation -/

/-- **C03.** After arbitrary bytes followed by one ASCII byte, every later
encodable character is decoded correctly; what the garbage produced is not
affected by what follows. -/
theorem C03_utf8_resync (sg : Bool) (garbage : List UInt8) (a : UInt8) (ha : a.toNat < 128)
    (l : List Nat) :
    (run sg new (garbage ++ [a] ++ l.flatMap encode)).2 =
      (run sg new (garbage ++ [a])).2 ++ l.filter (fun g => decide (Encodable g)) := by
  rw [run_append]
  have hb : Boundary (run sg new (garbage ++ [a])).1 := by
    rw [run_append]
    have : (run sg (run sg new garbage).1 [a]).1 = feed sg (run sg new garbage).1 a := by
      simp only [run]; split <;> rfl
    simp only [this]
    exact boundary_after_ascii sg _ a ha
  simp only [(boundary_run_encode sg _ hb l).2]

/-- **C03, boundary form.** If the garbage happens to end at a boundary, not
even one character is lost. -/
theorem C03_utf8_resync_boundary (sg : Bool) (garbage : List UInt8)
    (hb : (run sg new garbage).1.state ≠ .expect1 ∧ (run sg new garbage).1.state ≠ .expect2 ∧
      (run sg new garbage).1.state ≠ .expect3) (l : List Nat) :
    (run sg new (garbage ++ l.flatMap encode)).2 =
      (run sg new garbage).2 ++ l.filter (fun g => decide (Encodable g)) := by
  rw [run_append]
  have : Boundary (run sg new garbage).1 := by
    unfold Boundary
    cases h : (run sg new garbage).1.state <;> simp_all
  simp only [(boundary_run_encode sg _ this l).2]

/-- Garbage with a truncated 4-byte sequence; the 'x' is swallowed, the euro
sign after it is not. -/
example : (run true new ([0xF0, 0x9F] ++ [0x78] ++ [0x20AC].flatMap encode)).2
    = [replacement, 0x20AC] := by decide +kernel

/-- **C03, delivered values.** Whatever the input, every delivered character is
below 2^21 (so it is a valid symbol for the rest of the library). -/
theorem C03_utf8_value_bound (sg : Bool) (bs : List UInt8) :
    ∀ c ∈ (run sg new bs).2, c < 2 ^ 21 :=
  (bounded_run sg bs new (by simp [Bounded, new])).2

example : (run false new [0xF7, 0xBF, 0xBF, 0xBF]).2 = [0x1FFFFF] := by decide +kernel

/-! ## C04 ASCII only from its own byte -/

/-- The claim of C04 for one platform: whenever the machine accepts a character
below 0x80, that character is the byte just fed. -/
def AsciiOnlyFromItself (sg : Bool) : Prop :=
  ∀ (bs : List UInt8) (b : UInt8),
    (feed sg (run sg new bs).1 b).state = .accept →
    get (feed sg (run sg new bs).1 b) < 128 →
    get (feed sg (run sg new bs).1 b) = b.toNat

/-- **C04 is false**: E0 80 9B is decoded to ESC, for both signednesses. -/
theorem C04_overlong_ascii_accepted (sg : Bool) : ¬ AsciiOnlyFromItself sg := by
  intro h
  have := h [0xE0, 0x80] 0x9B
  revert this
  cases sg <;> decide +kernel

/-- **C04 is false, two-byte form on signed-char platforms**: the explicit
check for C0/C1 is ineffective, C0 9B is decoded to ESC; with unsigned `char`
the same bytes give the replacement character. -/
theorem C04_two_byte_overlong :
    (run true new [0xC0, 0x9B]).2 = [0x1B] ∧ (run false new [0xC0, 0x9B]).2 = [replacement] := by
  decide +kernel

/-- **C04, partial.** The claim holds for all inputs that contain no overlong
start (C0, C1, E0 followed by a byte below A0, F0 followed by a byte below 90).
Missing for the full claim: the decoder does not reject those. -/
theorem C04_ascii_only_from_itself_partial (sg : Bool) (bs : List UInt8) (b : UInt8)
    (hno : ¬ OverlongStart ((bs ++ [b]).map UInt8.toNat)) :
    (feed sg (run sg new bs).1 b).state = .accept →
    get (feed sg (run sg new bs).1 b) < 128 →
    get (feed sg (run sg new bs).1 b) = b.toNat := by
  intro hs
  have := long_run sg bs b new none (by simp [Long, new]) hno (by simp)
  unfold Verif.Utf8.get
  rw [if_pos hs]
  exact this hs

example : ¬ OverlongStart (([0xE2, 0x82] ++ [0xAC] : List UInt8).map UInt8.toNat) := by
  simp [OverlongStart]

end Verif.Props.Utf8
