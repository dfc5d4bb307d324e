import Verif.Spec.Gtk

/-!
C91: the renderer stays in its buffers. C92: blending.
-/

namespace Verif.Props.Gtk
open Verif Verif.Gtk

/-! ### C91 -/

theorem fresh_sound {f : Face} (h : f.Fresh) : f.Sound := by
  obtain ⟨key, fmt, w, hh, b, hw, hhh, hb, e⟩ := h
  unfold measureFace at e
  dsimp only at e
  split at e
  · cases e
  · injection e with e
    subst e
    refine ⟨fun _ _ e => (nomatch e), ?_, ?_, ?_, ?_⟩
    · show (w + 87) / 88 < _
      omega
    · show hh < _
      omega
    · show min _ ((hh + _) % 4294967296) < 4294967296
      have := Nat.mod_lt (hh + (4294967296 - max (min (sub32 hh b / 2) (hh / 14)) 1 % 4294967296))
        (show 4294967296 > 0 by decide)
      exact Nat.lt_of_le_of_lt (Nat.min_le_right _ _) this
    · show max (min (sub32 hh b / 2) (hh / 14)) 1 < 4294967296
      generalize sub32 hh b / 2 = q
      omega

theorem freshFaces_sound {fs : Faces} (h : fs.Fresh) : fs.Sound :=
  ⟨fresh_sound h.regular, fun f e => fresh_sound (h.bold f e), fun f e => fresh_sound (h.italic f e)⟩

theorem stride32 {w s : Nat} (h : strideFor 32 w = some s) : s = 4 * w ∧ w < 67108863 := by
  unfold strideFor at h
  split at h
  · cases h
  · injection h with h
    exact ⟨by omega, by omega⟩

theorem realloc_sound {ok : Bool} {w h : Nat} (hf : 4 * (max w 1 * max h 1) < 2147483648) :
    ∃ o, realloc ok w h = .ok o ∧ ∀ r, o = some r → r.Sound := by
  unfold realloc
  dsimp only
  have e1 : (if w = 0 then 1 else w) = max w 1 := by split <;> omega
  have e2 : (if h = 0 then 1 else h) = max h 1 := by split <;> omega
  rw [e1, e2]
  have hw1 : 0 < max w 1 := by omega
  have hh1 : 0 < max h 1 := by omega
  generalize max w 1 = w at *
  generalize max h 1 = h at *
  have hw : w ≤ w * h := Nat.le_mul_of_pos_right w hh1
  have hh : h ≤ w * h := Nat.le_mul_of_pos_left h hw1
  cases hs : strideFor 32 w with
  | none =>
    dsimp only
    have : absInt (sub32 0 h) = .ok (4294967296 - sub32 0 h) := by
      have hv : sub32 0 h = 4294967296 - h := by
        show (0 + (4294967296 - h % 4294967296)) % 4294967296 = _
        omega
      unfold absInt
      rw [hv, if_neg (by omega), if_neg (by omega)]
    rw [this]
    exact ⟨none, rfl, fun r e => by cases e⟩
  | some s =>
    dsimp only
    obtain ⟨rfl, hlt⟩ := stride32 hs
    have hp : 4 * w * h = 4 * (w * h) := Nat.mul_assoc ..
    have hu : u32 (4 * w * h) = 4 * w * h := by
      show (4 * w * h) % 4294967296 = _
      omega
    have ha : absInt (u32 (4 * w * h)) = .ok (4 * w * h) := by
      unfold absInt
      rw [hu, if_pos (by omega)]
    rw [ha, ok_bind]
    split
    · refine ⟨_, rfl, ?_⟩
      intro r e
      injection e with e
      subst e
      exact ⟨rfl, rfl, by show 4 * w * h < _; omega, by show w < _; omega, by show h < _; omega⟩
    · exact ⟨none, rfl, fun r e => by cases e⟩

/-- **C91** as stated: nothing the window system and the fonts can do makes the renderer
leave its buffers. -/
def C91_claim : Prop :=
  ∀ ink fs r, fs.Fresh → realloc true 0 0 = .ok (some r) → ∀ ops : List Op, (∀ o ∈ ops, o.Valid) →
    ∃ st, runOps ink ops (fs, r) = .ok st

theorem runOps_sound {ink : Ink} : ∀ (ops : List Op) {fs : Faces} {r : Rend}, fs.Sound → r.Sound →
    (∀ o ∈ ops, o.Valid) → (∀ o ∈ ops, o.Fits) →
    ∃ fs' r', runOps ink ops (fs, r) = .ok (fs', r') ∧ fs'.Sound ∧ r'.Sound
  | [], fs, r, hf, hr, _, _ => ⟨fs, r, rfl, hf, hr⟩
  | o :: os, fs, r, hf, hr, hv, hl => by
    have step : ∃ fs' r', o.run ink (fs, r) = .ok (fs', r') ∧ fs'.Sound ∧ r'.Sound := by
      cases o with
      | resize ok w h =>
        obtain ⟨q, e, hq⟩ := realloc_sound (ok := ok) (hl _ (List.mem_cons_self ..))
        show ∃ fs' r', (match realloc ok w h with
          | .error e => .error e
          | .ok none => .ok (fs, r)
          | .ok (some r) => .ok (fs, r)) = Except.ok (fs', r') ∧ _
        rw [e]
        cases q with
        | none => exact ⟨fs, r, rfl, hf, hr⟩
        | some r' => exact ⟨fs, r', rfl, hf, hq r' rfl⟩
      | font fs' => exact ⟨fs', r, rfl, freshFaces_sound (hv _ (List.mem_cons_self ..)), hr⟩
      | draw debug calls age =>
        obtain ⟨fs', r', e, h1, _, h3⟩ := drawCells_ok (ink := ink) (debug := debug) calls hf hr
        refine ⟨fs', { r' with age := age }, ?_, h1, ?_⟩
        · show rendererDraw ink debug fs r calls age = _
          unfold rendererDraw
          rw [e]
          rfl
        · have := h3.sound hr
          exact ⟨this.stride, this.cap, this.small, this.w32, this.h32⟩
    obtain ⟨fs1, r1, e1, h1, h2⟩ := step
    obtain ⟨fs2, r2, e2, h3, h4⟩ := runOps_sound os h1 h2 (fun o ho => hv o (List.mem_cons_of_mem _ ho))
      (fun o ho => hl o (List.mem_cons_of_mem _ ho))
    refine ⟨fs2, r2, ?_, h3, h4⟩
    rw [runOps, e1]
    exact e2

/-- **C91** (partial: the full statement is `C91_claim`, which is false; missing are windows
with 2^31 bytes of pixels or more). Whatever the cells passed to the renderer, the font
metrics, the glyphs pango draws, the results of allocations and the order of resizing, changes
of fonts and drawings, no store leaves the shadow buffer and no load leaves the buffer of a
glyph. -/
theorem C91_safe_partial (ink : Ink) {fs : Faces} (hf : fs.Fresh) {r : Rend} (hr : realloc true 0 0 = .ok (some r))
    {ops : List Op} (hv : ∀ o ∈ ops, o.Valid) (hl : ∀ o ∈ ops, o.Fits) :
    ∃ st, runOps ink ops (fs, r) = .ok st := by
  obtain ⟨o, e, ho⟩ := realloc_sound (ok := true) (w := 0) (h := 0) (by decide)
  rw [hr] at e
  injection e with e
  obtain ⟨fs', r', e', _⟩ := runOps_sound (ink := ink) ops (freshFaces_sound hf) (ho r e.symm) hv hl
  exact ⟨_, e'⟩

/-- A face with cells of one pixel. -/
def dot : Face :=
  { key := 0, format := .a8, width := 1, height := 1, underlinePos := 0, lineThickness := 1, glyphs := fun _ => none }

theorem dot_fresh : dot.Fresh := ⟨0, .a8, 1, 1, 0, by decide, by decide, by decide, rfl⟩

theorem dots_fresh : Faces.Fresh ⟨dot, none, none⟩ :=
  ⟨dot_fresh, fun _ e => (nomatch e), fun _ e => (nomatch e)⟩

/-- The initial renderer. -/
def pixel : Rend := { width := 1, height := 1, stride := 4, cap := 4, data := fun _ => none, age := 0 }

/-- The call for an empty cell. -/
def emptyCall (x y age : Nat) : Screen.DrawCall :=
  { id := 0, ch := 0, len := 0, width := 1, x := x, y := y, attr := Attr.zero, age := age }

def faults (e : Fault) : G (Faces × Rend) → Bool
  | .error e' => decide (e' = e)
  | .ok _ => false

theorem refuted91 {e : Fault} {ops : List Op} (hv : ∀ o ∈ ops, o.Valid)
    (h : faults e (runOps (fun _ _ _ => none) ops (⟨dot, none, none⟩, pixel)) = true) :
    ¬ C91_claim := by
  intro hc
  have hr : realloc true 0 0 = .ok (some pixel) := rfl
  obtain ⟨st, est⟩ := hc (fun _ _ _ => none) ⟨dot, none, none⟩ _ dots_fresh hr ops hv
  rw [est] at h
  cases h

/-- **C91 is false**: for a window of 32767 by 32767 pixels the size of the buffer is
computed as 4294705156, taken as the `int` -262140, and 262140 bytes are allocated. Drawing
the last row stores behind them. -/
theorem C91_false : ¬ C91_claim :=
  refuted91 (e := .write) (ops := [.resize true 32767 32767, .draw false [emptyCall 0 32766 0] 1])
    (by
      intro o ho
      rcases List.mem_cons.mp ho with rfl | ho
      · exact ⟨by decide, by decide⟩
      · rcases List.mem_cons.mp ho with rfl | ho
        · exact trivial
        · cases ho)
    (by decide +kernel)

/-- **C91 is false**: the size is computed before cairo refuses it; for 65536 by 8192
pixels it is `INT_MIN`, whose `abs` is undefined. -/
theorem C91_false_abs : ¬ C91_claim :=
  refuted91 (e := .abs) (ops := [.resize true 65536 8192])
    (by
      intro o ho
      rcases List.mem_cons.mp ho with rfl | ho
      · exact ⟨by decide, by decide⟩
      · cases ho)
    (by decide +kernel)

/-! ### C92 -/

/-- **C92.** The replacement for the division by 255 rounds to the nearest number, for all
channels and coverages. -/
theorem C92_nearest {f b a : Nat} (hf : f < 256) (hb : b < 256) (ha : a < 256) : Nearest f b a (mix f b a) := by
  unfold Nearest mix
  split
  · rename_i h
    subst h
    omega
  · split
    · rename_i h
      subst h
      omega
    · have h1 : f * a ≤ 255 * a := Nat.mul_le_mul_right _ (by omega)
      have h2 : b * (255 - a) ≤ 255 * (255 - a) := Nat.mul_le_mul_right _ (by omega)
      generalize f * a = p at *
      generalize b * (255 - a) = q at *
      rw [Nat.shiftRight_eq_div_pow, Nat.shiftRight_eq_div_pow]
      show 2 * (p + q) ≤ 510 * ((p + q + 128 + (p + q + 128) / 256) / 256) + 255 ∧
        510 * ((p + q + 128 + (p + q + 128) / 256) / 256) ≤ 2 * (p + q) + 255
      generalize ht : p + q + 128 = t at *
      have : p + q ≤ 65025 := by omega
      generalize hs : t / 256 = s
      have : s ≤ 254 := by omega
      generalize hm : (t + s) / 256 = m
      omega

/-- **C92.** A mixture lies between the two colours it is made of. -/
theorem C92_between {f b a : Nat} (hf : f < 256) (hb : b < 256) (ha : a < 256) :
    min f b ≤ mix f b a ∧ mix f b a ≤ max f b := by
  obtain ⟨h1, h2⟩ := C92_nearest hf hb ha
  generalize mix f b a = m at *
  have e : ∀ c : Nat, c * a + c * (255 - a) = c * 255 := by
    intro c
    rw [← Nat.mul_add]
    congr 1
    omega
  have lo1 : min f b * a ≤ f * a := Nat.mul_le_mul_right _ (Nat.min_le_left _ _)
  have lo2 : min f b * (255 - a) ≤ b * (255 - a) := Nat.mul_le_mul_right _ (Nat.min_le_right _ _)
  have hi1 : f * a ≤ max f b * a := Nat.mul_le_mul_right _ (Nat.le_max_left _ _)
  have hi2 : b * (255 - a) ≤ max f b * (255 - a) := Nat.mul_le_mul_right _ (Nat.le_max_right _ _)
  have e1 := e (min f b)
  have e2 := e (max f b)
  omega

theorem pack_eq {c : Rgb} (h : c.Byte) : pack c.r c.g c.b = opaque32 c := by
  obtain ⟨h1, h2, h3⟩ := h
  unfold pack opaque32
  have e1 : c.g <<< 8 ||| c.b = c.g * 256 + c.b := by
    rw [← Nat.shiftLeft_add_eq_or_of_lt (by omega), Nat.shiftLeft_eq]
  have e2 : c.r <<< 16 ||| (c.g * 256 + c.b) = c.r * 65536 + (c.g * 256 + c.b) := by
    rw [← Nat.shiftLeft_add_eq_or_of_lt (by omega), Nat.shiftLeft_eq]
  have e3 : 0xff000000 ||| (c.r * 65536 + (c.g * 256 + c.b)) = 0xff000000 + (c.r * 65536 + (c.g * 256 + c.b)) := by
    rw [show (0xff000000 : Nat) = 255 <<< 24 from rfl, ← Nat.shiftLeft_add_eq_or_of_lt (by omega)]
  rw [Nat.or_assoc, Nat.or_assoc, e1, e2, e3]
  omega

theorem pack_eq3 {r g b : Nat} (h1 : r < 256) (h2 : g < 256) (h3 : b < 256) : pack r g b = opaque32 ⟨r, g, b⟩ :=
  pack_eq (c := ⟨r, g, b⟩) ⟨h1, h2, h3⟩

theorem mix_byte {f b a : Nat} (hf : f < 256) (hb : b < 256) (ha : a < 256) : mix f b a < 256 := by
  have := (C92_between hf hb ha).2
  omega

theorem pxVal_spec {g : GlyphBuf} {f b : Rgb} (hf : f.Byte) (hb : b.Byte) (hg : ∀ o, g.buffer o < 256) (k i : Nat) :
    ∃ m, pxVal g f b k i = opaque32 m ∧ m.Byte ∧ Nearest f.r b.r (g.cover k i).r m.r ∧
      Nearest f.g b.g (g.cover k i).g m.g ∧ Nearest f.b b.b (g.cover k i).b m.b := by
  unfold pxVal GlyphBuf.cover
  cases g.format with
  | a1 =>
    dsimp only
    have hbit : ∀ n j : Nat, (n &&& 1 <<< j ≠ 0) ↔ n.testBit j = true := by
      intro n j
      rw [Nat.one_shiftLeft]
      constructor
      · intro h
        cases hb : n.testBit j with
        | true => rfl
        | false =>
          exfalso
          apply h
          apply Nat.eq_of_testBit_eq
          intro i
          rw [Nat.testBit_and, Nat.testBit_two_pow, Nat.zero_testBit]
          by_cases hj : j = i
          · subst hj; rw [hb]; rfl
          · rw [decide_eq_false hj, Bool.and_false]
      · intro h h0
        have : (n &&& 2 ^ j).testBit j = true := by
          rw [Nat.testBit_and, Nat.testBit_two_pow, h, decide_eq_true rfl]; rfl
        rw [h0, Nat.zero_testBit] at this
        cases this
    by_cases h : (g.buffer (k * g.stride + i / 8)).testBit (i % 8) = true
    · rw [if_pos ((hbit _ _).mpr h), if_pos h]
      refine ⟨f, pack_eq hf, hf, ?_, ?_, ?_⟩ <;> (unfold Nearest; dsimp only; omega)
    · rw [if_neg (fun hh => h ((hbit _ _).mp hh)), if_neg h]
      refine ⟨b, pack_eq hb, hb, ?_, ?_, ?_⟩ <;> (unfold Nearest; dsimp only; omega)
  | a8 =>
    dsimp only
    have h0 := hg (k * g.stride + i)
    generalize g.buffer (k * g.stride + i) = a at *
    have hm : Rgb.Byte ⟨mix f.r b.r a, mix f.g b.g a, mix f.b b.b a⟩ :=
      ⟨mix_byte hf.r hb.r h0, mix_byte hf.g hb.g h0, mix_byte hf.b hb.b h0⟩
    exact ⟨⟨mix f.r b.r a, mix f.g b.g a, mix f.b b.b a⟩, pack_eq3 hm.r hm.g hm.b, hm,
      C92_nearest hf.r hb.r h0, C92_nearest hf.g hb.g h0, C92_nearest hf.b hb.b h0⟩
  | xrgb32 =>
    dsimp only
    rw [Nat.mul_comm 4 i]
    have h0 := hg (k * g.stride + i * 4)
    have h1 := hg (k * g.stride + i * 4 + 1)
    have h2 := hg (k * g.stride + i * 4 + 2)
    generalize g.buffer (k * g.stride + i * 4) = a0 at *
    generalize g.buffer (k * g.stride + i * 4 + 1) = a1 at *
    generalize g.buffer (k * g.stride + i * 4 + 2) = a2 at *
    have hm : Rgb.Byte ⟨mix f.r b.r a2, mix f.g b.g a1, mix f.b b.b a0⟩ :=
      ⟨mix_byte hf.r hb.r h2, mix_byte hf.g hb.g h1, mix_byte hf.b hb.b h0⟩
    exact ⟨⟨mix f.r b.r a2, mix f.g b.g a1, mix f.b b.b a0⟩, pack_eq3 hm.r hm.g hm.b, hm,
      C92_nearest hf.r hb.r h2, C92_nearest hf.g hb.g h1, C92_nearest hf.b hb.b h0⟩

/-- **C92.** Blending a glyph at (`x`, `y`) gives every pixel of the buffer that is in the
rectangle of the glyph the opaque mixture of the two colours for the coverage of the glyph's
pixel, each channel rounded to the nearest number, and changes no other pixel. -/
theorem C92_blend {r : Rend} (hr : r.Sound) {g : GlyphBuf} (hg : g.Sound) (hb : ∀ o, g.buffer o < 256) {f b : Rgb}
    (hf : f.Byte) (hbg : b.Byte) {x y : Nat} (hx : x + g.width < 4294967296) (hy : y + g.height < 4294967296) :
    ∃ r', r.blend g x y f b = .ok r' ∧ ∀ X Y, X < r.width → Y < r.height →
      if x ≤ X ∧ X < x + g.width ∧ y ≤ Y ∧ Y < y + g.height then
        ∃ m, r'.at X Y = some (opaque32 m) ∧ m.Byte ∧ Nearest f.r b.r (g.cover (Y - y) (X - x)).r m.r ∧
          Nearest f.g b.g (g.cover (Y - y) (X - x)).g m.g ∧ Nearest f.b b.b (g.cover (Y - y) (X - x)).b m.b
      else r'.at X Y = r.at X Y := by
  obtain ⟨r', e, _, h⟩ := paint_spec (px := px g f b) (v := pxVal g f b) hr (x := x) (y := y) (by omega) (by omega)
    hg.w32 hg.h32 (fun _ hk _ hi => px_ok hg f b hk hi)
  refine ⟨r', e, fun X Y hX hY => ?_⟩
  have := h hx hy X Y hX hY
  split
  · rename_i hin
    rw [if_pos hin] at this
    obtain ⟨m, e, hm⟩ := pxVal_spec hf hbg hb (Y - y) (X - x)
    exact ⟨m, by rw [this, e], hm⟩
  · rename_i hin
    rw [if_neg hin] at this
    exact this

/-! ### Examples -/

example : Op.Valid (.resize true 800 600) ∧ Op.Fits (.resize true 800 600) ∧ Op.Valid (.font ⟨dot, some dot, none⟩) :=
  ⟨⟨by decide, by decide⟩, by show 4 * (max 800 1 * max 600 1) < 2147483648; decide,
    ⟨dot_fresh, fun _ e => (Option.some.inj e) ▸ dot_fresh, fun _ e => (nomatch e)⟩⟩

/-- A glyph of 3 by 2 pixels. -/
def blob : GlyphBuf := { format := .a8, width := 3, stride := 4, height := 2, cap := 8, buffer := fun o => 30 * o % 256 }

example : blob.Sound ∧ ∀ o, blob.buffer o < 256 :=
  ⟨⟨rfl, by decide, by decide, by decide⟩, fun o => Nat.mod_lt _ (by decide)⟩

/-- It is clipped at the right border of a window of 4 by 3 pixels; half covered white on
black is grey. -/
example : ∃ r : Rend, r.Sound ∧ ∃ r', r.blend blob 2 1 ⟨255, 255, 255⟩ ⟨0, 0, 0⟩ = .ok r' ∧
    (r'.at 1 1, r'.at 2 1, r'.at 3 1, r'.at 2 2, r'.at 3 2) =
      (none, some 0xff000000, some 0xff1e1e1e, some 0xff787878, some 0xff969696) :=
  ⟨{ width := 4, height := 3, stride := 16, cap := 48, data := fun _ => none, age := 0 },
    ⟨rfl, rfl, by decide, by decide, by decide⟩, _, rfl, by decide +kernel⟩

end Verif.Props.Gtk
