import Verif.Model.Gtk.Renderer

/-!
# Stores of the renderer
-/

namespace Verif.Gtk
open Verif

theorem ok_bind {α β : Type} (a : α) (f : α → G β) : ((Except.ok a : G α) >>= f) = f a := rfl

/-- The pixel at column `X` of row `Y`. -/
def Rend.at (r : Rend) (X Y : Nat) : Option Nat := r.data (Y * r.stride + 4 * X)

/-- The buffer has the size its dimensions need, and that is a 32-bit number. -/
structure Rend.Sound (r : Rend) : Prop where
  stride : r.stride = 4 * r.width
  cap : r.cap = r.stride * r.height
  small : r.stride * r.height < 4294967296
  w32 : r.width < 4294967296
  h32 : r.height < 4294967296

/-- The same buffer, possibly with other contents. -/
structure Rend.Same (r r' : Rend) : Prop where
  width : r'.width = r.width
  height : r'.height = r.height
  stride : r'.stride = r.stride
  cap : r'.cap = r.cap
  age : r'.age = r.age

theorem Rend.Same.refl (r : Rend) : Rend.Same r r := ⟨rfl, rfl, rfl, rfl, rfl⟩

theorem Rend.Same.trans {r s t : Rend} (h : Rend.Same r s) (h' : Rend.Same s t) : Rend.Same r t :=
  ⟨h'.width.trans h.width, h'.height.trans h.height, h'.stride.trans h.stride, h'.cap.trans h.cap,
    h'.age.trans h.age⟩

theorem Rend.Same.sound {r r' : Rend} (h : Rend.Same r r') (hs : r.Sound) : r'.Sound := by
  refine ⟨?_, ?_, ?_, ?_, ?_⟩
  · rw [h.stride, h.width]; exact hs.stride
  · rw [h.cap, h.stride, h.height]; exact hs.cap
  · rw [h.stride, h.height]; exact hs.small
  · rw [h.width]; exact hs.w32
  · rw [h.height]; exact hs.h32

theorem rowLoop_spec {px : Nat → G Nat} {v : Nat → Nat} {dst : Nat} : ∀ (n i : Nat) (r : Rend),
    (∀ j, i ≤ j → j < i + n → px j = .ok (v j)) → (n ≠ 0 → dst + 4 * (i + n) ≤ r.cap) →
    ∃ r', rowLoop px dst n i r = .ok r' ∧ Rend.Same r r' ∧
      (∀ j, i ≤ j → j < i + n → r'.data (dst + 4 * j) = some (v j)) ∧
      ∀ p, (∀ j, i ≤ j → j < i + n → p ≠ dst + 4 * j) → r'.data p = r.data p
  | 0, i, r, _, _ => ⟨r, rfl, .refl r, fun j h1 h2 => by omega, fun _ _ => rfl⟩
  | n + 1, i, r, hp, hc => by
    have hst : r.store (dst + 4 * i) (v i) =
        .ok { r with data := fun p => if p = dst + 4 * i then some (v i) else r.data p } := by
      unfold Rend.store
      rw [if_pos (by have := hc (by omega); omega)]
    obtain ⟨r', e, hs, h1, h2⟩ := rowLoop_spec n (i + 1)
      { r with data := fun p => if p = dst + 4 * i then some (v i) else r.data p }
      (fun j a b => hp j (by omega) (by omega))
      (fun _ => by have := hc (by omega); show dst + 4 * (i + 1 + n) ≤ r.cap; omega)
    have h0 : Rend.Same r { r with data := fun p => if p = dst + 4 * i then some (v i) else r.data p } :=
      ⟨rfl, rfl, rfl, rfl, rfl⟩
    refine ⟨r', ?_, h0.trans hs, ?_, ?_⟩
    · rw [rowLoop, hp i (Nat.le_refl _) (by omega)]
      show (do let r ← r.store (dst + 4 * i) (v i); rowLoop px dst n (i + 1) r) = _
      rw [hst]
      exact e
    · intro j a b
      rcases Nat.eq_or_lt_of_le a with rfl | a
      · rw [h2 _ (fun j' _ _ => by omega)]
        exact if_pos rfl
      · exact h1 j a (by omega)
    · intro p hp'
      rw [h2 p (fun j a b => hp' j (by omega) (by omega))]
      exact if_neg (hp' i (Nat.le_refl _) (by omega))

theorem rowsLoop_spec {px : Nat → Nat → G Nat} {v : Nat → Nat → Nat} {w : Nat} : ∀ (n k dst : Nat) (r : Rend),
    (∀ m, k ≤ m → m < k + n → ∀ i, i < w → px m i = .ok (v m i)) → 4 * w ≤ r.stride →
    (∀ m, m < n → dst + m * r.stride + 4 * w ≤ r.cap) →
    ∃ r', rowsLoop px w n k dst r = .ok r' ∧ Rend.Same r r' ∧
      (∀ m, m < n → ∀ i, i < w → r'.data (dst + m * r.stride + 4 * i) = some (v (k + m) i)) ∧
      ∀ p, (∀ m, m < n → ∀ i, i < w → p ≠ dst + m * r.stride + 4 * i) → r'.data p = r.data p
  | 0, k, dst, r, _, _, _ => ⟨r, rfl, .refl r, fun m h => by omega, fun _ _ => rfl⟩
  | n + 1, k, dst, r, hp, hw, hc => by
    obtain ⟨r1, e1, s1, a1, b1⟩ := rowLoop_spec (dst := dst) (v := v k) w 0 r
      (fun j _ h => hp k (Nat.le_refl _) (by omega) j (by omega))
      (fun _ => by have := hc 0 (by omega); omega)
    obtain ⟨r2, e2, s2, a2, b2⟩ := rowsLoop_spec (v := v) n (k + 1) (dst + r1.stride) r1
      (fun m h h' => hp m (by omega) (by omega)) (by rw [s1.stride]; exact hw)
      (fun m h => by
        have := hc (m + 1) (by omega)
        rw [Nat.add_mul, Nat.one_mul] at this
        rw [s1.stride, s1.cap]
        omega)
    refine ⟨r2, ?_, s1.trans s2, ?_, ?_⟩
    · rw [rowsLoop, e1]
      exact e2
    · intro m hm i hi
      rw [s1.stride] at a2 b2
      cases m with
      | zero =>
        rw [b2 _ (fun m' _ i' hi' => by
          have : 4 * w ≤ r.stride := hw
          generalize m' * r.stride = q
          omega)]
        rw [Nat.zero_mul]
        exact a1 i (Nat.zero_le _) (by omega)
      | succ m =>
        have := a2 m (by omega) i hi
        rw [show dst + (m + 1) * r.stride + 4 * i = dst + r.stride + m * r.stride + 4 * i by
          rw [Nat.add_mul, Nat.one_mul]; omega, this]
        congr 2
        omega
    · intro p hp'
      rw [s1.stride] at b2
      rw [b2 p, b1 p]
      · intro j _ hj
        have := hp' 0 (by omega) j (by omega)
        rw [Nat.zero_mul] at this
        exact this
      · intro m hm i hi
        have := hp' (m + 1) (by omega) i hi
        rw [Nat.add_mul, Nat.one_mul] at this
        omega

/-- The offset of a pixel determines its position. -/
theorem offset_inj {W X Y X' Y' : Nat} (h : Y * (4 * W) + 4 * X = Y' * (4 * W) + 4 * X') (hx : X < W)
    (hx' : X' < W) : X = X' ∧ Y = Y' := by
  have e1 : (Y * (4 * W) + 4 * X) / (4 * W) = Y := by
    rw [Nat.mul_comm, Nat.mul_add_div (by omega), Nat.div_eq_of_lt (by omega)]; rfl
  have e2 : (Y' * (4 * W) + 4 * X') / (4 * W) = Y' := by
    rw [Nat.mul_comm, Nat.mul_add_div (by omega), Nat.div_eq_of_lt (by omega)]; rfl
  have hy : Y = Y' := by rw [← e1, h, e2]
  subst hy
  exact ⟨by omega, rfl⟩

/-- Clipped painting of a rectangle, the common shape of filling and blending. -/
def paint (px : Nat → Nat → G Nat) (r : Rend) (x y w h : Nat) : G Rend :=
  match clip r.width x w with
  | none => .ok r
  | some w =>
    match clip r.height y h with
    | none => .ok r
    | some h => rowsLoop px w h 0 (r.offset x y) r

theorem fill_eq (r : Rend) (x y w h : Nat) (c : Rgb) :
    r.fill x y w h c = paint (fun _ _ => .ok (pack c.r c.g c.b)) r x y w h := rfl

theorem blend_eq (r : Rend) (g : GlyphBuf) (x y : Nat) (f b : Rgb) :
    r.blend g x y f b = paint (px g f b) r x y g.width g.height := rfl

/-- What clipping leaves. -/
theorem clip_spec {lim x w : Nat} (hx : x < 4294967296) (hw : w < 4294967296) :
    (clip lim x w = none ∧ (lim ≤ x ∨ w = 0 ∨ 4294967296 ≤ x + w)) ∨
    (∃ w', clip lim x w = some w' ∧ w' = min w (lim - x) ∧ 0 < w' ∧ x < lim ∧ x + w < 4294967296) := by
  unfold clip
  dsimp only
  by_cases h : u32 (x + w) ≤ x ∨ x ≥ lim
  · rw [if_pos h]
    refine Or.inl ⟨rfl, ?_⟩
    rcases h with h | h
    · change (x + w) % 4294967296 ≤ x at h
      omega
    · exact Or.inl h
  · rw [if_neg h]
    rw [not_or] at h
    obtain ⟨h1, h2⟩ := h
    change ¬ (x + w) % 4294967296 ≤ x at h1
    have hu : u32 (x + w) = x + w := by
      show (x + w) % 4294967296 = _
      omega
    have hlt : x + w < 4294967296 := by
      have : (x + w) % 4294967296 = x + w := hu
      omega
    rw [hu]
    split
    · exact Or.inr ⟨_, rfl, by omega, by omega, by omega, hlt⟩
    · exact Or.inr ⟨_, rfl, by omega, by omega, by omega, hlt⟩

theorem offset_eq {r : Rend} (hs : r.Sound) {x y : Nat} (hx : x < r.width) (hy : y < r.height) :
    r.offset x y = y * r.stride + 4 * x := by
  unfold Rend.offset
  have h1 : (y + 1) * r.stride ≤ r.height * r.stride := Nat.mul_le_mul_right _ hy
  have h2 := hs.small
  rw [Nat.mul_comm] at h2
  rw [Nat.add_mul, Nat.one_mul] at h1
  have h3 := hs.stride
  show (y * r.stride + x * 4) % 4294967296 = _
  omega

/-- Painting changes exactly the pixels of the rectangle that are in the buffer. -/
theorem paint_spec {px : Nat → Nat → G Nat} {v : Nat → Nat → Nat} {r : Rend} (hs : r.Sound) {x y w h : Nat}
    (hx : x < 4294967296) (hy : y < 4294967296) (hw : w < 4294967296) (hh : h < 4294967296)
    (hp : ∀ k, k < h → ∀ i, i < w → px k i = .ok (v k i)) :
    ∃ r', paint px r x y w h = .ok r' ∧ Rend.Same r r' ∧
      (x + w < 4294967296 → y + h < 4294967296 → ∀ X Y, X < r.width → Y < r.height →
        r'.at X Y = if x ≤ X ∧ X < x + w ∧ y ≤ Y ∧ Y < y + h then some (v (Y - y) (X - x)) else r.at X Y) := by
  have stay : paint px r x y w h = .ok r → (r.width ≤ x ∨ w = 0 ∨ r.height ≤ y ∨ h = 0 ∨
      4294967296 ≤ x + w ∨ 4294967296 ≤ y + h) → ∃ r', paint px r x y w h = .ok r' ∧ Rend.Same r r' ∧
      (x + w < 4294967296 → y + h < 4294967296 → ∀ X Y, X < r.width → Y < r.height →
        r'.at X Y = if x ≤ X ∧ X < x + w ∧ y ≤ Y ∧ Y < y + h then some (v (Y - y) (X - x)) else r.at X Y) := by
    intro e ho
    refine ⟨r, e, .refl r, fun _ _ X Y _ _ => ?_⟩
    rw [if_neg (by omega)]
  rcases clip_spec (lim := r.width) hx hw with ⟨e1, o1⟩ | ⟨w', e1, hw', hw0, hxl, hxw⟩
  · exact stay (by unfold paint; rw [e1]) (by omega)
  rcases clip_spec (lim := r.height) hy hh with ⟨e2, o2⟩ | ⟨h', e2, hh', hh0, hyl, hyh⟩
  · exact stay (by unfold paint; rw [e1]; dsimp only; rw [e2]) (by omega)
  have hoff := offset_eq hs hxl hyl
  obtain ⟨r', e, s, a, b⟩ := rowsLoop_spec (px := px) (v := v) (w := w') h' 0 (r.offset x y) r
    (fun m _ hm i hi => hp m (by omega) i (by omega))
    (by rw [hs.stride]; omega)
    (by
      intro m hm
      have h1 : (y + m + 1) * r.stride ≤ r.height * r.stride := Nat.mul_le_mul_right _ (by omega)
      rw [Nat.add_mul, Nat.add_mul, Nat.one_mul, Nat.mul_comm r.height] at h1
      rw [hoff, hs.cap]
      have := hs.stride
      omega)
  have e0 : paint px r x y w h = .ok r' := by
    unfold paint; rw [e1]; dsimp only; rw [e2]; exact e
  refine ⟨r', e0, s, fun _ _ X Y hX hY => ?_⟩
  unfold Rend.at
  rw [s.stride]
  by_cases hin : x ≤ X ∧ X < x + w ∧ y ≤ Y ∧ Y < y + h
  · rw [if_pos hin]
    have := a (Y - y) (by omega) (X - x) (by omega)
    rw [Nat.zero_add] at this
    rw [← this, hoff]
    congr 1
    have hY' : Y = y + (Y - y) := by omega
    generalize Y - y = k at *
    subst hY'
    rw [Nat.add_mul]
    omega
  · rw [if_neg hin]
    refine b _ (fun m hm i hi hc => hin ?_)
    rw [hoff, show y * r.stride + 4 * x + m * r.stride + 4 * i = (y + m) * r.stride + 4 * (x + i) by
      rw [Nat.add_mul]; omega, hs.stride] at hc
    obtain ⟨h1, h2⟩ := offset_inj hc hX (by omega)
    omega

/-! ### Glyphs -/

/-- The buffer of the glyph has the size its dimensions need. -/
structure GlyphBuf.Sound (g : GlyphBuf) : Prop where
  cap : g.cap = g.stride * g.height
  stride : g.format.bpp * g.width ≤ 8 * g.stride
  w32 : g.width < 4294967296
  h32 : g.height < 4294967296

/-- Pixels without checks. -/
def pxVal (g : GlyphBuf) (f b : Rgb) (k i : Nat) : Nat :=
  match g.format with
  | .a1 => if g.buffer (k * g.stride + i / 8) &&& 1 <<< (i % 8) ≠ 0 then pack f.r f.g f.b else pack b.r b.g b.b
  | .a8 => pack (mix f.r b.r (g.buffer (k * g.stride + i))) (mix f.g b.g (g.buffer (k * g.stride + i)))
      (mix f.b b.b (g.buffer (k * g.stride + i)))
  | .xrgb32 => pack (mix f.r b.r (g.buffer (k * g.stride + i * 4 + 2)))
      (mix f.g b.g (g.buffer (k * g.stride + i * 4 + 1))) (mix f.b b.b (g.buffer (k * g.stride + i * 4)))

theorem px_ok {g : GlyphBuf} (hg : g.Sound) (f b : Rgb) {k i : Nat} (hk : k < g.height) (hi : i < g.width) :
    px g f b k i = .ok (pxVal g f b k i) := by
  have h1 : (k + 1) * g.stride ≤ g.height * g.stride := Nat.mul_le_mul_right _ hk
  rw [Nat.add_mul, Nat.one_mul, Nat.mul_comm g.height, ← hg.cap] at h1
  have h2 := hg.stride
  have ld : ∀ o, o < g.stride → g.load (k * g.stride + o) = .ok (g.buffer (k * g.stride + o)) := by
    intro o ho
    unfold GlyphBuf.load
    rw [if_pos (by omega)]
  unfold px pxVal
  cases hf : g.format with
  | a1 =>
    rw [hf] at h2
    change 1 * g.width ≤ _ at h2
    show pxA1 g f b k i = _
    unfold pxA1
    rw [ld (i / 8) (by omega)]
    rfl
  | a8 =>
    rw [hf] at h2
    change 8 * g.width ≤ _ at h2
    show pxA8 g f b k i = _
    unfold pxA8
    rw [ld i (by omega)]
    rfl
  | xrgb32 =>
    rw [hf] at h2
    change 32 * g.width ≤ _ at h2
    show pxXrgb32 g f b k i = _
    unfold pxXrgb32
    rw [ld (i * 4) (by omega), Nat.add_assoc, Nat.add_assoc, Nat.add_assoc, ld (i * 4 + 1) (by omega),
      ld (i * 4 + 2) (by omega), ld (i * 4 + 3) (by omega)]
    rfl

theorem createGlyph_sound {ink : Ink} {f : Face} {ch cw : Nat} {g : GlyphBuf} (e : createGlyph ink f ch cw = some g) :
    g.Sound ∧ g.format = f.format ∧ g.width = u32 (f.width * cw) ∧ g.height = f.height ∧
      strideFor f.format.bpp g.width = some g.stride ∧ ink f.key ch cw = some g.buffer := by
  unfold createGlyph at e
  dsimp only at e
  generalize hw : u32 (f.width * cw) = w at e
  cases hst : strideFor f.format.bpp w with
  | none => rw [hst] at e; cases e
  | some stride =>
    rw [hst] at e
    dsimp only at e
    split at e
    · rename_i hsz
      split at e
      · cases e
      · rename_i bs hink
        injection e with e
        subst e
        unfold sizeOk at hsz
        rw [Bool.and_eq_true, decide_eq_true_iff, decide_eq_true_iff] at hsz
        have hstr : stride = ((f.format.bpp * w + 7) / 8 + 3) / 4 * 4 := by
          unfold strideFor at hst
          split at hst
          · cases hst
          · injection hst with hst; exact hst.symm
        have hb : f.format.bpp * w ≤ 32 * 32767 := by
          cases f.format <;> simp only [Format.bpp] <;> omega
        have hle : stride ≤ 131068 := by rw [hstr]; omega
        have hprod : stride * f.height ≤ 131068 * 32767 := Nat.mul_le_mul hle hsz.2
        refine ⟨⟨?_, ?_, ?_, ?_⟩, rfl, rfl, rfl, hst, hink⟩
        · show (stride * f.height) % 4294967296 = stride * f.height
          exact Nat.mod_eq_of_lt (by omega)
        · show f.format.bpp * w ≤ 8 * stride
          rw [hstr]
          generalize f.format.bpp * w = q
          omega
        · show w < _
          omega
        · show f.height < _
          omega
    · cases e

/-! ### Faces -/

/-- All cached glyphs have sound buffers, and the metrics are 32-bit numbers. -/
structure Face.Sound (f : Face) : Prop where
  glyphs : ∀ id g, f.glyphs id = some g → g.Sound
  w32 : f.width < 4294967296
  h32 : f.height < 4294967296
  u32 : f.underlinePos < 4294967296
  t32 : f.lineThickness < 4294967296

structure Faces.Sound (fs : Faces) : Prop where
  regular : fs.regular.Sound
  bold : ∀ f, fs.bold = some f → f.Sound
  italic : ∀ f, fs.italic = some f → f.Sound

/-- The metrics of a face. -/
structure Face.SameMetrics (f f' : Face) : Prop where
  key : f'.key = f.key
  format : f'.format = f.format
  width : f'.width = f.width
  height : f'.height = f.height
  underlinePos : f'.underlinePos = f.underlinePos
  lineThickness : f'.lineThickness = f.lineThickness

theorem Face.SameMetrics.refl (f : Face) : Face.SameMetrics f f := ⟨rfl, rfl, rfl, rfl, rfl, rfl⟩

theorem Face.SameMetrics.trans {f g h : Face} (a : Face.SameMetrics f g) (b : Face.SameMetrics g h) :
    Face.SameMetrics f h :=
  ⟨b.key.trans a.key, b.format.trans a.format, b.width.trans a.width, b.height.trans a.height,
    b.underlinePos.trans a.underlinePos, b.lineThickness.trans a.lineThickness⟩

theorem faceRender_sound {ink : Ink} {f : Face} (hf : f.Sound) (id ch len cw : Nat) :
    (faceRender ink f id ch len cw).1.Sound ∧ Face.SameMetrics f (faceRender ink f id ch len cw).1 ∧
      ∀ g, (faceRender ink f id ch len cw).2 = some g → g.Sound := by
  unfold faceRender
  cases hg : f.glyphs id with
  | some g =>
    dsimp only
    exact ⟨hf, .refl f, fun g' e => by cases e; exact hf.glyphs id _ hg⟩
  | none =>
    dsimp only
    split
    · exact ⟨hf, .refl f, fun g e => by cases e⟩
    · cases hc : createGlyph ink f ch cw with
      | none => exact ⟨hf, .refl f, fun g e => by cases e⟩
      | some g =>
        refine ⟨⟨?_, hf.w32, hf.h32, hf.u32, hf.t32⟩, ⟨rfl, rfl, rfl, rfl, rfl, rfl⟩, ?_⟩
        · intro i g' e
          dsimp only at e
          split at e
          · injection e with e; subst e; exact (createGlyph_sound hc).1
          · exact hf.glyphs i g' e
        · intro g' e
          injection e with e
          subst e
          exact (createGlyph_sound hc).1

/-- The face of a cell is one of the faces, and replacing it replaces that one. -/
theorem pick_cases (fs : Faces) (a : Attr) :
    (fs.pick a = (fs.regular, fun f => { fs with regular := f })) ∨
    (∃ f, fs.bold = some f ∧ fs.pick a = (f, fun f => { fs with bold := some f })) ∨
    (∃ f, fs.italic = some f ∧ fs.pick a = (f, fun f => { fs with italic := some f })) := by
  unfold Faces.pick
  split
  · rename_i f _ hb
    exact Or.inr (Or.inl ⟨f, hb, rfl⟩)
  · split
    · rename_i f _ hi
      exact Or.inr (Or.inr ⟨f, hi, rfl⟩)
    · exact Or.inl rfl

theorem pick_sound {fs : Faces} (h : fs.Sound) (a : Attr) : (fs.pick a).1.Sound := by
  rcases pick_cases fs a with e | ⟨f, hf, e⟩ | ⟨f, hf, e⟩ <;> rw [e]
  · exact h.regular
  · exact h.bold f hf
  · exact h.italic f hf

/-- Every face keeps its metrics. -/
structure Faces.SameMetrics (fs fs' : Faces) : Prop where
  regular : Face.SameMetrics fs.regular fs'.regular
  bold : (fs.bold = none ∧ fs'.bold = none) ∨
    ∃ f f', fs.bold = some f ∧ fs'.bold = some f' ∧ Face.SameMetrics f f'
  italic : (fs.italic = none ∧ fs'.italic = none) ∨
    ∃ f f', fs.italic = some f ∧ fs'.italic = some f' ∧ Face.SameMetrics f f'

theorem optSame_refl (o : Option Face) : (o = none ∧ o = none) ∨
    ∃ f f', o = some f ∧ o = some f' ∧ Face.SameMetrics f f' := by
  cases o with
  | none => exact Or.inl ⟨rfl, rfl⟩
  | some f => exact Or.inr ⟨f, f, rfl, rfl, .refl f⟩

theorem Faces.SameMetrics.refl (fs : Faces) : Faces.SameMetrics fs fs :=
  ⟨.refl _, optSame_refl _, optSame_refl _⟩

theorem optSame_trans {o p q : Option Face} (h : (o = none ∧ p = none) ∨
    ∃ f f', o = some f ∧ p = some f' ∧ Face.SameMetrics f f') (h' : (p = none ∧ q = none) ∨
    ∃ f f', p = some f ∧ q = some f' ∧ Face.SameMetrics f f') : (o = none ∧ q = none) ∨
    ∃ f f', o = some f ∧ q = some f' ∧ Face.SameMetrics f f' := by
  rcases h with ⟨a, b⟩ | ⟨f, f', a, b, c⟩ <;> rcases h' with ⟨a', b'⟩ | ⟨g, g', a', b', c'⟩
  · exact Or.inl ⟨a, b'⟩
  · rw [b] at a'; cases a'
  · rw [b] at a'; cases a'
  · rw [b] at a'
    cases a'
    exact Or.inr ⟨f, g', a, b', c.trans c'⟩

theorem Faces.SameMetrics.trans {a b c : Faces} (h : Faces.SameMetrics a b) (h' : Faces.SameMetrics b c) :
    Faces.SameMetrics a c :=
  ⟨h.regular.trans h'.regular, optSame_trans h.bold h'.bold, optSame_trans h.italic h'.italic⟩

theorem put_sound {fs : Faces} (h : fs.Sound) (a : Attr) {f : Face} (hf : f.Sound)
    (hm : Face.SameMetrics (fs.pick a).1 f) :
    ((fs.pick a).2 f).Sound ∧ Faces.SameMetrics fs ((fs.pick a).2 f) := by
  rcases pick_cases fs a with e | ⟨g, hg, e⟩ | ⟨g, hg, e⟩ <;> rw [e] at hm ⊢
  · exact ⟨⟨hf, h.bold, h.italic⟩, ⟨hm, optSame_refl _, optSame_refl _⟩⟩
  · exact ⟨⟨h.regular, fun f' e => by cases e; exact hf, h.italic⟩,
      ⟨.refl _, Or.inr ⟨g, f, hg, rfl, hm⟩, optSame_refl _⟩⟩
  · exact ⟨⟨h.regular, h.bold, fun f' e => by cases e; exact hf⟩,
      ⟨.refl _, optSame_refl _, Or.inr ⟨g, f, hg, rfl, hm⟩⟩⟩

/-! ### The border for debugging -/

theorem store_ok {r : Rend} {o v : Nat} (h : o + 4 ≤ r.cap) : ∃ r', r.store o v = .ok r' ∧ Rend.Same r r' := by
  unfold Rend.store
  rw [if_pos h]
  exact ⟨_, rfl, ⟨rfl, rfl, rfl, rfl, rfl⟩⟩

theorem highlightRows_ok {w h : Nat} (hw0 : 0 < w) (hw : w < 4294967296) : ∀ (n i dst : Nat) (r : Rend), 4 * w ≤ r.stride →
    (∀ m, m < n → dst + m * r.stride + 4 * w ≤ r.cap) →
    ∃ r', highlightRows w h n i dst r = .ok r' ∧ Rend.Same r r'
  | 0, _, _, r, _, _ => ⟨r, rfl, .refl r⟩
  | n + 1, i, dst, r, hs, hc => by
    have h0 := hc 0 (by omega)
    rw [Nat.zero_mul] at h0
    have hp : pred32 w = w - 1 := by show (w + 4294967295) % 4294967296 = _; omega
    obtain ⟨r1, e1, s1⟩ := store_ok (r := r) (o := dst) (v := pack 0xd0 0x10 0x10) (by omega)
    obtain ⟨r2, e2, s2⟩ := store_ok (r := r1) (o := dst + 4 * pred32 w) (v := pack 0xd0 0x10 0x10)
      (by rw [s1.cap, hp]; omega)
    have s12 := s1.trans s2
    obtain ⟨r3, e3, s3⟩ : ∃ r3, highlightRow w h i dst r2 = .ok r3 ∧ Rend.Same r2 r3 := by
      unfold highlightRow
      split
      · obtain ⟨r3, e, s, _⟩ := rowLoop_spec (px := fun _ => .ok (pack 0xd0 0x10 0x10))
          (v := fun _ => pack 0xd0 0x10 0x10) (dst := dst) w 0 r2 (fun _ _ _ => rfl)
          (fun _ => by rw [s12.cap]; omega)
        exact ⟨r3, e, s⟩
      · exact ⟨r2, rfl, .refl r2⟩
    have s123 := s12.trans s3
    obtain ⟨r4, e4, s4⟩ := highlightRows_ok (h := h) hw0 hw n (i + 1) (dst + r3.stride) r3 (by rw [s123.stride]; exact hs)
      (fun m hm => by
        have := hc (m + 1) (by omega)
        rw [Nat.add_mul, Nat.one_mul] at this
        rw [s123.stride, s123.cap]
        omega)
    refine ⟨r4, ?_, s123.trans s4⟩
    rw [highlightRows, e1, ok_bind, e2, ok_bind, e3, ok_bind]
    exact e4

theorem highlight_ok {r : Rend} (hs : r.Sound) {x y w h : Nat} (hx : x < 4294967296) (hy : y < 4294967296)
    (hw : w < 4294967296) (hh : h < 4294967296) : ∃ r', r.highlight x y w h = .ok r' ∧ Rend.Same r r' := by
  unfold Rend.highlight
  rcases clip_spec (lim := r.width) hx hw with ⟨e1, o1⟩ | ⟨w', e1, hw', hw0, hxl, hxw⟩
  · rw [e1]; exact ⟨r, rfl, .refl r⟩
  rcases clip_spec (lim := r.height) hy hh with ⟨e2, o2⟩ | ⟨h', e2, hh', hh0, hyl, hyh⟩
  · rw [e1]; dsimp only; rw [e2]; exact ⟨r, rfl, .refl r⟩
  rw [e1]; dsimp only; rw [e2]
  refine highlightRows_ok hw0 (by omega) h' 0 _ r (by rw [hs.stride]; omega) ?_
  intro m hm
  have h1 : (y + m + 1) * r.stride ≤ r.height * r.stride := Nat.mul_le_mul_right _ (by omega)
  rw [Nat.add_mul, Nat.add_mul, Nat.one_mul, Nat.mul_comm r.height] at h1
  rw [offset_eq hs hxl hyl, hs.cap]
  have := hs.stride
  omega

/-! ### Whole drawings -/

theorem u32_lt (n : Nat) : u32 n < 4294967296 := Nat.mod_lt _ (by decide)

theorem fill_ok {r : Rend} (hs : r.Sound) {x y w h : Nat} (c : Rgb) (hx : x < 4294967296) (hy : y < 4294967296)
    (hw : w < 4294967296) (hh : h < 4294967296) : ∃ r', r.fill x y w h c = .ok r' ∧ Rend.Same r r' := by
  obtain ⟨r', e, s, _⟩ := paint_spec (px := fun _ _ => .ok (pack c.r c.g c.b)) (v := fun _ _ => pack c.r c.g c.b)
    hs hx hy hw hh (fun _ _ _ _ => rfl)
  exact ⟨r', e, s⟩

theorem blend_ok {r : Rend} (hs : r.Sound) {g : GlyphBuf} (hg : g.Sound) {x y : Nat} (f b : Rgb) (hx : x < 4294967296)
    (hy : y < 4294967296) : ∃ r', r.blend g x y f b = .ok r' ∧ Rend.Same r r' := by
  obtain ⟨r', e, s, _⟩ := paint_spec (px := px g f b) (v := pxVal g f b)
    hs hx hy hg.w32 hg.h32 (fun _ hk _ hi => px_ok hg f b hk hi)
  exact ⟨r', e, s⟩

theorem drawBody_ok {ink : Ink} {fs : Faces} {r : Rend} (hf : fs.Sound) (hr : r.Sound) (c : Screen.DrawCall)
    {x y w h : Nat} (hx : x < 4294967296) (hy : y < 4294967296) (hw : w < 4294967296) (hh : h < 4294967296) :
    ∃ fs' r', drawBody ink fs (fs.pick c.attr).1 (fs.pick c.attr).2 r c x y w h = .ok (fs', r') ∧ fs'.Sound ∧
      Faces.SameMetrics fs fs' ∧ Rend.Same r r' := by
  unfold drawBody
  dsimp only
  split
  · obtain ⟨r1, e1, s1⟩ := fill_ok hr (colours c.attr).2 hx hy hw hh
    rw [e1]
    exact ⟨fs, r1, rfl, hf, .refl fs, s1⟩
  · obtain ⟨k1, k2, k3⟩ := faceRender_sound (ink := ink) (pick_sound hf c.attr) c.id c.ch c.len c.width
    obtain ⟨p1, p2⟩ := put_sound hf c.attr k1 k2
    cases hg : (faceRender ink (fs.pick c.attr).1 c.id c.ch c.len c.width).2 with
    | none =>
      obtain ⟨r1, e1, s1⟩ := fill_ok hr (colours c.attr).2 hx hy hw hh
      dsimp only
      rw [e1]
      exact ⟨_, r1, rfl, p1, p2, s1⟩
    | some g =>
      obtain ⟨r1, e1, s1⟩ := blend_ok hr (k3 g hg) (colours c.attr).1 (colours c.attr).2 hx hy
      dsimp only
      rw [e1]
      exact ⟨_, r1, rfl, p1, p2, s1⟩

theorem drawCell_ok {ink : Ink} {debug : Bool} {fs : Faces} {r : Rend} (hf : fs.Sound) (hr : r.Sound)
    (c : Screen.DrawCall) : ∃ fs' r', drawCell ink debug fs r c = .ok (fs', r') ∧ fs'.Sound ∧
      Faces.SameMetrics fs fs' ∧ Rend.Same r r' := by
  unfold drawCell
  dsimp only
  split
  · exact ⟨fs, r, rfl, hf, .refl fs, .refl r⟩
  have hx := u32_lt (c.x * fs.regular.width)
  have hy := u32_lt (c.y * fs.regular.height)
  have hw := u32_lt (fs.regular.width * c.width)
  have hh := hf.regular.h32
  generalize u32 (c.x * fs.regular.width) = x at *
  generalize u32 (c.y * fs.regular.height) = y at *
  generalize u32 (fs.regular.width * c.width) = w at *
  generalize fs.regular.height = h at *
  have hp := pick_sound hf c.attr
  obtain ⟨fs1, r1, e1, hfs1, hm1, s1⟩ := drawBody_ok (ink := ink) hf hr c hx hy hw hh
  have hr1 := s1.sound hr
  obtain ⟨r2, e2, s2⟩ : ∃ r2, drawUnderline (fs.pick c.attr).1 r1 c x y w = .ok r2 ∧ Rend.Same r1 r2 := by
    unfold drawUnderline
    split
    · exact fill_ok hr1 _ hx (u32_lt _) hw hp.t32
    · exact ⟨r1, rfl, .refl r1⟩
  have hr2 := s2.sound hr1
  obtain ⟨r3, e3, s3⟩ : ∃ r3, drawBorder (!skips r c && debug) r2 x y w h = .ok r3 ∧
      Rend.Same r2 r3 := by
    unfold drawBorder
    split
    · exact highlight_ok hr2 hx hy hw hh
    · exact ⟨r2, rfl, .refl r2⟩
  refine ⟨fs1, r3, ?_, hfs1, hm1, (s1.trans s2).trans s3⟩
  rw [e1, ok_bind, e2, ok_bind, e3, ok_bind]
  rfl

theorem drawCells_ok {ink : Ink} {debug : Bool} : ∀ (cs : List Screen.DrawCall) {fs : Faces} {r : Rend}, fs.Sound →
    r.Sound → ∃ fs' r', drawCells ink debug fs r cs = .ok (fs', r') ∧ fs'.Sound ∧ Faces.SameMetrics fs fs' ∧ Rend.Same r r'
  | [], fs, r, hf, hr => ⟨fs, r, rfl, hf, .refl fs, .refl r⟩
  | c :: cs, fs, r, hf, hr => by
    obtain ⟨fs1, r1, e1, h1, m1, s1⟩ := drawCell_ok (ink := ink) (debug := debug) hf hr c
    obtain ⟨fs2, r2, e2, h2, m2, s2⟩ := drawCells_ok (ink := ink) (debug := debug) cs h1 (s1.sound hr)
    refine ⟨fs2, r2, ?_, h2, m1.trans m2, s1.trans s2⟩
    rw [drawCells, e1]
    exact e2

end Verif.Gtk
