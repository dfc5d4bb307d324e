import Verif.Proofs.Gtk.Picture

/-!
# The frames around cells that were drawn anew
-/

namespace Verif.Gtk
open Verif Verif.Screen

/-- The colour of the frames. -/
def red : Nat := pack 0xd0 0x10 0x10

/-- The pixel is on the edge of a rectangle of `w` by `h`. -/
def Edge (w h k j : Nat) : Prop := j = 0 ∨ j + 1 = w ∨ k = 0 ∨ k + 1 = h

theorem store_at {r : Rend} {o v : Nat} (h : o + 4 ≤ r.cap) : ∃ r', r.store o v = .ok r' ∧ Rend.Same r r' ∧
    ∀ p, r'.data p = if p = o then some v else r.data p := by
  unfold Rend.store
  rw [if_pos h]
  exact ⟨_, rfl, ⟨rfl, rfl, rfl, rfl, rfl⟩, fun _ => rfl⟩

theorem highlightRow_at {w h i dst : Nat} (hi : i + 1 < 4294967296) (r : Rend) (hc : dst + 4 * w ≤ r.cap) :
    ∃ r', highlightRow w h i dst r = .ok r' ∧ Rend.Same r r' ∧
      (i = 0 ∨ i + 1 = h → ∀ j, j < w → r'.data (dst + 4 * j) = some red) ∧
      ∀ p, (i = 0 ∨ i + 1 = h → ∀ j, j < w → p ≠ dst + 4 * j) → r'.data p = r.data p := by
  unfold highlightRow
  rw [show u32 (i + 1) = i + 1 from u32_eq hi]
  by_cases hf : i = 0 ∨ i + 1 = h
  · rw [if_pos hf]
    obtain ⟨r', e, s, a, b⟩ := rowLoop_spec (px := fun _ => .ok (pack 0xd0 0x10 0x10)) (v := fun _ => red) (dst := dst) w 0 r
      (fun _ _ _ => rfl) (fun _ => by omega)
    exact ⟨r', e, s, fun _ j hj => a j (Nat.zero_le _) (by omega), fun p hp => b p (fun j _ hj => hp hf j (by omega))⟩
  · rw [if_neg hf]
    exact ⟨r, rfl, .refl r, fun h => absurd h hf, fun _ _ => rfl⟩

theorem highlightRows_at {w h : Nat} (hw0 : 0 < w) (hw : w < 4294967296) (hh : h < 4294967296) : ∀ (n i dst : Nat) (r : Rend),
    i + n = h → 4 * w ≤ r.stride → (∀ m, m < n → dst + m * r.stride + 4 * w ≤ r.cap) →
    ∃ r', highlightRows w h n i dst r = .ok r' ∧ Rend.Same r r' ∧
      (∀ m, m < n → ∀ j, j < w → Edge w h (i + m) j → r'.data (dst + m * r.stride + 4 * j) = some red) ∧
      ∀ p, (∀ m, m < n → ∀ j, j < w → Edge w h (i + m) j → p ≠ dst + m * r.stride + 4 * j) → r'.data p = r.data p
  | 0, _, _, r, _, _, _ => ⟨r, rfl, .refl r, fun _ h => by omega, fun _ _ => rfl⟩
  | n + 1, i, dst, r, hn, hs, hc => by
    have h0 := hc 0 (by omega)
    rw [Nat.zero_mul] at h0
    have hp : pred32 w = w - 1 := by show (w + 4294967295) % 4294967296 = _; omega
    obtain ⟨r1, e1, s1, a1⟩ := store_at (r := r) (o := dst) (v := pack 0xd0 0x10 0x10) (by omega)
    obtain ⟨r2, e2, s2, a2⟩ := store_at (r := r1) (o := dst + 4 * pred32 w) (v := pack 0xd0 0x10 0x10)
      (by rw [s1.cap, hp]; omega)
    rw [hp] at a2
    have s12 := s1.trans s2
    obtain ⟨r3, e3, s3, a3, b3⟩ := highlightRow_at (w := w) (h := h) (i := i) (dst := dst) (by omega) r2 (by rw [s12.cap]; omega)
    have s123 := s12.trans s3
    obtain ⟨r4, e4, s4, a4, b4⟩ := highlightRows_at hw0 hw hh n (i + 1) (dst + r3.stride) r3 (by omega)
      (by rw [s123.stride]; exact hs)
      (fun m hm => by
        have := hc (m + 1) (by omega)
        rw [Nat.add_mul, Nat.one_mul] at this
        rw [s123.stride, s123.cap]
        omega)
    rw [s123.stride] at a4 b4
    refine ⟨r4, ?_, s123.trans s4, ?_, ?_⟩
    · rw [highlightRows, e1, ok_bind, e2, ok_bind, e3, ok_bind]
      exact e4
    · intro m hm j hj he
      cases m with
      | zero =>
        rw [b4 _ (fun m' _ j' hj' _ => by
          generalize m' * r.stride = q
          omega), Nat.zero_mul]
        by_cases hf : i = 0 ∨ i + 1 = h
        · exact a3 hf j hj
        · rw [b3 _ (fun h => absurd h hf)]
          have : j = 0 ∨ j = w - 1 := by unfold Edge at he; omega
          show r2.data (dst + 4 * j) = some (pack 0xd0 0x10 0x10)
          rw [a2, a1]
          rcases this with rfl | rfl
          · by_cases h1 : dst + 4 * 0 = dst + 4 * (w - 1)
            · rw [if_pos h1]
            · rw [if_neg h1, if_pos (show dst + 4 * 0 = dst by omega)]
          · rw [if_pos rfl]
      | succ m =>
        rw [show dst + (m + 1) * r.stride + 4 * j = dst + r.stride + m * r.stride + 4 * j by
          rw [Nat.add_mul, Nat.one_mul]; omega]
        refine a4 m (by omega) j hj ?_
        unfold Edge at he ⊢
        omega
    · intro p hp'
      have q0 : ∀ j, j < w → Edge w h i j → p ≠ dst + 4 * j := by
        intro j hj he
        have := hp' 0 (by omega) j hj he
        rw [Nat.zero_mul] at this
        exact this
      rw [b4 p (fun m hm j hj he => by
          have := hp' (m + 1) (by omega) j hj (by unfold Edge at he ⊢; omega)
          rw [Nat.add_mul, Nat.one_mul] at this
          omega),
        b3 p (fun hf j hj => q0 j hj (by unfold Edge; omega)), a2, a1,
        if_neg (by have := q0 (w - 1) (by omega) (Or.inr (Or.inl (by omega))); omega),
        if_neg (by have := q0 0 hw0 (Or.inl rfl); omega)]

/-- The pixel is on the frame of a rectangle that is cut off at the size of the buffer. -/
def OnFrame (W H x y w h X Y : Nat) : Prop :=
  x ≤ X ∧ X < x + w ∧ y ≤ Y ∧ Y < y + h ∧ (X = x ∨ X + 1 = min (x + w) W ∨ Y = y ∨ Y + 1 = min (y + h) H)

instance (W H x y w h X Y : Nat) : Decidable (OnFrame W H x y w h X Y) := by unfold OnFrame; infer_instance

theorem highlight_at {r : Rend} (hs : r.Sound) {x y w h : Nat} (hxw : x + w < 4294967296) (hyh : y + h < 4294967296) :
    ∃ r', r.highlight x y w h = .ok r' ∧ Rend.Same r r' ∧ ∀ X Y, X < r.width → Y < r.height →
      r'.at X Y = if OnFrame r.width r.height x y w h X Y then some red else r.at X Y := by
  unfold Rend.highlight
  rcases clip_spec (lim := r.width) (x := x) (w := w) (by omega) (by omega) with ⟨e1, o1⟩ | ⟨w', e1, hw', hw0, hxl, _⟩
  · rw [e1]
    refine ⟨r, rfl, .refl r, fun X Y hX hY => ?_⟩
    rw [if_neg (by unfold OnFrame; omega)]
  rcases clip_spec (lim := r.height) (x := y) (w := h) (by omega) (by omega) with ⟨e2, o2⟩ | ⟨h', e2, hh', hh0, hyl, _⟩
  · rw [e1]; dsimp only; rw [e2]
    refine ⟨r, rfl, .refl r, fun X Y hX hY => ?_⟩
    rw [if_neg (by unfold OnFrame; omega)]
  rw [e1]; dsimp only; rw [e2]; dsimp only
  obtain ⟨r', e, s, a, b⟩ := highlightRows_at (w := w') (h := h') hw0 (by omega) (by omega) h' 0 (r.offset x y) r (Nat.zero_add _)
    (by rw [hs.stride]; omega) (by
      intro m hm
      have h1 : (y + m + 1) * r.stride ≤ r.height * r.stride := Nat.mul_le_mul_right _ (by omega)
      rw [Nat.add_mul, Nat.add_mul, Nat.one_mul, Nat.mul_comm r.height] at h1
      rw [offset_eq hs hxl hyl, hs.cap]
      have := hs.stride
      omega)
  refine ⟨r', e, s, fun X Y hX hY => ?_⟩
  have hoff := offset_eq hs hxl hyl
  unfold Rend.at
  rw [s.stride]
  by_cases hin : OnFrame r.width r.height x y w h X Y
  · rw [if_pos hin]
    unfold OnFrame at hin
    have := a (Y - y) (by omega) (X - x) (by omega) (by unfold Edge; omega)
    rw [← this, hoff]
    congr 1
    have hY' : Y = y + (Y - y) := by omega
    generalize Y - y = k at *
    subst hY'
    rw [Nat.add_mul]
    omega
  · rw [if_neg hin]
    refine b _ fun m hm j hj he hpq => hin ?_
    rw [hoff, hs.stride] at hpq
    have := offset_inj (W := r.width) (X := X) (Y := Y) (X' := x + j) (Y' := y + m)
      (by rw [hpq, Nat.add_mul]; omega) hX (by omega)
    unfold Edge at he
    unfold OnFrame
    omega

/-- The pixel of a cell that is drawn with frames. -/
def markedPixel (ink : Ink) (fs : Faces) (r : Rend) (c : DrawCall) (X Y : Nat) : Nat :=
  if skips r c = false ∧ OnFrame r.width r.height (c.x * fs.regular.width) (c.y * fs.regular.height)
      (fs.regular.width * c.width) fs.regular.height X Y then red
  else cellPixel ink fs c (X - c.x * fs.regular.width) (Y - c.y * fs.regular.height)

theorem drawCell_marked {ink : Ink} {fs : Faces} {r : Rend} (hf : fs.Ok ink) (hr : r.Sound) (hu : Uniform fs)
    {c : DrawCall} (hc : Drawn c) (hroom : Room fs c) :
    ∃ fs' r', drawCell ink true fs r c = .ok (fs', r') ∧ fs'.Ok ink ∧ Faces.SameMetrics fs fs' ∧ Rend.Same r r' ∧
      ∀ X Y, X < r.width → Y < r.height → r'.at X Y =
        if Owns fs c X Y then some (markedPixel ink fs r c X Y) else r.at X Y := by
  obtain ⟨fs1, r1, r2, e1, e2, o1, m1, s2, a2⟩ := drawLook_at hf hr hu hc hroom
  obtain ⟨hw32, hh32, _⟩ := hroom
  have hwid : (c.x + c.width) * fs.regular.width = c.x * fs.regular.width + fs.regular.width * c.width := by
    rw [Nat.add_mul, Nat.mul_comm c.width]
  have hhei : (c.y + 1) * fs.regular.height = c.y * fs.regular.height + fs.regular.height := by
    rw [Nat.add_mul, Nat.one_mul]
  have ex : u32 (c.x * fs.regular.width) = c.x * fs.regular.width := u32_eq (by omega)
  have ey : u32 (c.y * fs.regular.height) = c.y * fs.regular.height := u32_eq (by omega)
  have ew : u32 (fs.regular.width * c.width) = fs.regular.width * c.width := u32_eq (by omega)
  cases hk : skips r c with
  | true =>
    refine ⟨fs1, r2, ?_, o1, m1, s2, fun X Y hX hY => ?_⟩
    · unfold drawCell
      rw [hk]
      dsimp only [Bool.not_true, Bool.and_false, Bool.false_and]
      rw [if_neg (by decide), e1, ok_bind, e2, ok_bind]
      rfl
    · rw [a2 X Y hX hY]
      unfold markedPixel
      rw [hk, if_neg (c := (true = false ∧ _)) (fun h => by cases h.1)]
  | false =>
    obtain ⟨r3, e3, s3, a3⟩ := highlight_at (s2.sound hr) (x := c.x * fs.regular.width) (y := c.y * fs.regular.height)
      (w := fs.regular.width * c.width) (h := fs.regular.height) (by omega) (by omega)
    refine ⟨fs1, r3, ?_, o1, m1, s2.trans s3, fun X Y hX hY => ?_⟩
    · unfold drawCell
      rw [hk]
      dsimp only [Bool.not_true, Bool.not_false, Bool.and_false, Bool.false_and, Bool.true_and]
      rw [if_neg (by decide), e1, ok_bind, e2, ok_bind, ex, ey, ew]
      unfold drawBorder
      rw [if_pos (show (!false && true) = true from rfl), e3]
      rfl
    · rw [a3 X Y (by rw [s2.width]; exact hX) (by rw [s2.height]; exact hY), a2 X Y hX hY, s2.width, s2.height]
      unfold markedPixel
      rw [hk]
      by_cases ho : Owns fs c X Y
      · rw [if_pos ho, if_pos ho]
        by_cases hon : OnFrame r.width r.height (c.x * fs.regular.width) (c.y * fs.regular.height)
            (fs.regular.width * c.width) fs.regular.height X Y
        · rw [if_pos hon, if_pos ⟨rfl, hon⟩]
        · rw [if_neg hon, if_neg (fun h => hon h.2)]
      · rw [if_neg ho, if_neg ho, if_neg]
        intro hon
        refine ho ⟨hon.1, by rw [hwid]; exact hon.2.1, hon.2.2.1, by rw [hhei]; exact hon.2.2.2.1⟩

theorem markedPixel_congr {ink : Ink} {fs fs' : Faces} (h : Faces.SameMetrics fs fs') {r r' : Rend} (hs : Rend.Same r r')
    (c : DrawCall) (X Y : Nat) : markedPixel ink fs' r' c X Y = markedPixel ink fs r c X Y := by
  unfold markedPixel
  rw [skips_congr hs, hs.width, hs.height, h.regular.width, h.regular.height, cellPixel_congr h]

/-- With frames all cells are drawn, whatever there was before. -/
theorem drawCells_marked {ink : Ink} {X Y v : Nat} : ∀ (cs : List DrawCall) {fs : Faces} {r : Rend}, fs.Ok ink → r.Sound →
    Uniform fs → (∀ c ∈ cs, Drawn c) → (∀ c ∈ cs, Room fs c) → X < r.width → Y < r.height →
    (∀ c ∈ cs, Owns fs c X Y → markedPixel ink fs r c X Y = v) → ((∃ c ∈ cs, Owns fs c X Y) ∨ r.at X Y = some v) →
    ∃ fs' r', drawCells ink true fs r cs = .ok (fs', r') ∧ fs'.Ok ink ∧ Faces.SameMetrics fs fs' ∧ Rend.Same r r' ∧
      r'.at X Y = some v
  | [], fs, r, hf, _, _, _, _, _, _, _, h => by
    refine ⟨fs, r, rfl, hf, .refl fs, .refl r, ?_⟩
    rcases h with ⟨c, hc, _⟩ | h
    · cases hc
    · exact h
  | c :: cs, fs, r, hf, hr, hu, hd, hro, hX, hY, hv, h => by
    obtain ⟨fs1, r1, e1, o1, m1, s1, a1⟩ := drawCell_marked hf hr hu (hd c (List.mem_cons_self ..))
      (hro c (List.mem_cons_self ..))
    have ha := a1 X Y hX hY
    obtain ⟨fs', r', e, o2, m2, s2, a2⟩ := drawCells_marked (v := v) cs o1 (s1.sound hr) (hu.same m1)
      (fun d h => hd d (List.mem_cons_of_mem _ h)) (fun d h => (hro d (List.mem_cons_of_mem _ h)).same m1)
      (by rw [s1.width]; exact hX) (by rw [s1.height]; exact hY)
      (fun d h ho => by
        rw [markedPixel_congr m1 s1]
        refine hv d (List.mem_cons_of_mem _ h) ?_
        exact ⟨by rw [← m1.regular.width]; exact ho.left, by rw [← m1.regular.width]; exact ho.right,
          by rw [← m1.regular.height]; exact ho.top, by rw [← m1.regular.height]; exact ho.bottom⟩)
      (by
        by_cases ho : Owns fs c X Y
        · right
          rw [ha, if_pos ho, hv c (List.mem_cons_self ..) ho]
        · rw [if_neg ho] at ha
          rcases h with ⟨d, h1, h3⟩ | h
          · rcases List.mem_cons.mp h1 with rfl | h1
            · exact absurd h3 ho
            · exact Or.inl ⟨d, h1, h3.same m1⟩
          · right
            rw [ha]
            exact h)
    refine ⟨fs', r', ?_, o2, m1.trans m2, s1.trans s2, a2⟩
    rw [drawCells, e1]
    exact e

end Verif.Gtk
