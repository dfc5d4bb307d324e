import Verif.Spec.Picture
import Verif.Props.Screen.Damage
import Verif.Props.Screen.Origin

/-!
# Drawings of the renderer, pixel by pixel
-/

namespace Verif.Gtk
open Verif Verif.Screen

/-! ### Ids and calls -/

theorem drawId_inj {ch ch' : Nat} {a a' : Attr} (h : ch ≤ 0x7fffffff) (h' : ch' ≤ 0x7fffffff)
    (e : drawId ch a = drawId ch' a') : ch = ch' := by
  apply Nat.eq_of_testBit_eq
  intro i
  by_cases hi : 31 ≤ i
  · rw [Props.Screen.high_bit h hi, Props.Screen.high_bit h' hi]
  · have hb := congrArg (fun n => n.testBit i) e
    simp only [Props.Screen.testBit_drawId] at hb
    rw [decide_eq_false (show ¬ 31 = i by omega), decide_eq_false (show ¬ 32 = i by omega),
      decide_eq_false (show ¬ 33 = i by omega), decide_eq_false (show ¬ 34 = i by omega),
      decide_eq_false (show ¬ 35 = i by omega)] at hb
    simpa using hb

/-- What all calls of a drawing have in common. -/
structure Drawn (c : DrawCall) : Prop where
  ch : c.ch ≤ 0x7fffffff
  id : c.id = drawId c.ch c.attr
  small : c.width ≤ 2
  width : c.len ≠ 0 → c.width = Spec.Wcwidth.width c.ch ∨ c.width = 0

theorem width_le (c : Nat) : Spec.Wcwidth.width c ≤ 2 := by
  unfold Spec.Wcwidth.width
  split
  · omega
  · split <;> omega

theorem draw_drawn {s s' : Screen} (hr : Reachable s) {cs : List DrawCall} {age : Nat}
    (e : s.draw = .ok (cs, age, s')) : ∀ c ∈ cs, Drawn c := by
  intro c hc
  obtain ⟨h1, h2⟩ := Props.Screen.id_of_call hr e hc
  obtain ⟨k1, k2, _, k4⟩ := Props.Screen.C26_content hr e c hc
  obtain ⟨al, hist, hv, eh⟩ := hr
  rcases Props.Screen.shown_origin eh c.y c.x with ⟨_, g2, _, g4⟩ | ⟨g1, g2, _⟩
  · rw [if_pos g2] at k1
    rw [← k2, ← k1] at g4
    have := width_le c.ch
    exact ⟨h1, h2, by rcases g4 with g4 | g4 <;> omega, fun _ => g4⟩
  · refine ⟨h1, h2, by omega, ?_⟩
    intro hl
    rw [k4, if_pos (Or.inl g1)] at hl
    exact absurd rfl hl

/-- The calls of a drawing have the positions of the screen, each once. -/
structure Positions (sx sy : Nat) (calls : List DrawCall) : Prop where
  inside : ∀ c ∈ calls, c.x < sx ∧ c.y < sy
  all : ∀ i j, i < sy → j < sx → ∃ c ∈ calls, c.x = j ∧ c.y = i
  once : ∀ c ∈ calls, ∀ d ∈ calls, c.x = d.x → c.y = d.y → c = d

theorem draw_positions {s s' : Screen} (hr : Reachable s) {cs : List DrawCall} {age : Nat}
    (e : s.draw = .ok (cs, age, s')) : Positions s.sizeX s.sizeY cs := by
  obtain ⟨f, age', e', hp, _⟩ := Props.Screen.draw_cells hr
  rw [e] at e'
  injection e' with e'
  injection e' with e1 e2
  subst e1
  refine ⟨?_, ?_, ?_⟩
  · intro c hc
    obtain ⟨i, hi, hc⟩ := List.mem_flatMap.mp hc
    obtain ⟨j, hj, rfl⟩ := List.mem_map.mp hc
    obtain ⟨p2, p1⟩ := hp i j
    exact ⟨by rw [p2]; exact List.mem_range.mp hj, by rw [p1]; exact List.mem_range.mp hi⟩
  · intro i j hi hj
    obtain ⟨p2, p1⟩ := hp i j
    exact ⟨f i j, List.mem_flatMap.mpr ⟨i, List.mem_range.mpr hi, List.mem_map.mpr ⟨j, List.mem_range.mpr hj, rfl⟩⟩, p2, p1⟩
  · intro c hc d hd hx hy
    obtain ⟨i, hi, hc⟩ := List.mem_flatMap.mp hc
    obtain ⟨j, hj, rfl⟩ := List.mem_map.mp hc
    obtain ⟨i', hi', hd⟩ := List.mem_flatMap.mp hd
    obtain ⟨j', hj', rfl⟩ := List.mem_map.mp hd
    obtain ⟨p2, p1⟩ := hp i j
    obtain ⟨q2, q1⟩ := hp i' j'
    rw [p2, q2] at hx
    rw [p1, q1] at hy
    rw [hx, hy]

/-! ### Faces -/

/-- The cache holds what pango draws, and the metrics are as `measure_pango` leaves them. -/
structure Face.Ok (ink : Ink) (f : Face) : Prop where
  sound : f.Sound
  cached : ∀ ch a g, ch ≤ 0x7fffffff → f.glyphs (drawId ch a) = some g →
    createGlyph ink f ch (Spec.Wcwidth.width ch) = some g
  under : f.underlinePos + f.lineThickness ≤ f.height
  small : f.width < 67108864

structure Faces.Ok (ink : Ink) (fs : Faces) : Prop where
  regular : fs.regular.Ok ink
  bold : ∀ f, fs.bold = some f → f.Ok ink
  italic : ∀ f, fs.italic = some f → f.Ok ink

theorem Faces.Ok.sound {ink : Ink} {fs : Faces} (h : fs.Ok ink) : fs.Sound :=
  ⟨h.regular.sound, fun f e => (h.bold f e).sound, fun f e => (h.italic f e).sound⟩

theorem style_eq (fs : Faces) (a : Attr) : fs.style a = (fs.pick a).1 := by
  unfold Faces.style Faces.pick
  cases a.bold <;> cases a.italic <;> cases fs.bold <;> cases fs.italic <;> rfl

theorem style_ok {ink : Ink} {fs : Faces} (h : fs.Ok ink) (a : Attr) : (fs.style a).Ok ink := by
  rw [style_eq]
  rcases pick_cases fs a with e | ⟨f, hf, e⟩ | ⟨f, hf, e⟩ <;> rw [e]
  · exact h.regular
  · exact h.bold f hf
  · exact h.italic f hf

theorem createGlyph_congr {ink : Ink} {f f' : Face} (h : Face.SameMetrics f f') (ch cw : Nat) :
    createGlyph ink f' ch cw = createGlyph ink f ch cw := by
  unfold createGlyph
  rw [h.key, h.format, h.width, h.height]

/-- What is drawn for a cell that has a character. -/
theorem faceRender_ok {ink : Ink} {f : Face} (hf : f.Ok ink) {c : DrawCall} (hc : Drawn c) :
    (faceRender ink f c.id c.ch c.len c.width).1.Ok ink ∧
      (c.len ≠ 0 → c.width ≠ 0 →
        (faceRender ink f c.id c.ch c.len c.width).2 = createGlyph ink f c.ch c.width) := by
  unfold faceRender
  cases hg : f.glyphs c.id with
  | some g =>
    refine ⟨hf, fun hl hw => ?_⟩
    rw [hc.id] at hg
    have := hf.cached _ _ _ hc.ch hg
    rcases hc.width hl with h | h
    · rw [h]; exact this.symm
    · exact absurd h hw
  | none =>
    dsimp only
    split
    · rename_i h
      exact ⟨hf, fun hl hw => by rcases h with h | h <;> contradiction⟩
    · rename_i h
      rw [not_or] at h
      cases hcg : createGlyph ink f c.ch c.width with
      | none => exact ⟨hf, fun _ _ => rfl⟩
      | some g =>
        dsimp only
        refine ⟨⟨⟨?_, hf.sound.w32, hf.sound.h32, hf.sound.u32, hf.sound.t32⟩, ?_, hf.under, hf.small⟩, fun _ _ => rfl⟩
        · intro i g' e
          dsimp only at e
          split at e
          · injection e with e; subst e; exact (createGlyph_sound hcg).1
          · exact hf.sound.glyphs i g' e
        · intro ch a g' hch e
          dsimp only at e
          have hcc := createGlyph_congr (ink := ink) (f := f)
            (f' := { f with glyphs := fun i => if i = c.id then some g else f.glyphs i })
            ⟨rfl, rfl, rfl, rfl, rfl, rfl⟩ ch (Spec.Wcwidth.width ch)
          rw [hcc]
          split at e
          · rename_i hid
            injection e with e
            subst e
            rw [hc.id] at hid
            have := drawId_inj hch hc.ch hid
            subst this
            rcases hc.width h.1 with hw | hw
            · rw [← hw]; exact hcg
            · exact absurd hw h.2
          · exact hf.cached ch a g' hch e

theorem put_ok {ink : Ink} {fs : Faces} (h : fs.Ok ink) (a : Attr) {f : Face} (hf : f.Ok ink) :
    ((fs.pick a).2 f).Ok ink := by
  rcases pick_cases fs a with e | ⟨g, hg, e⟩ | ⟨g, hg, e⟩ <;> rw [e]
  · exact ⟨hf, h.bold, h.italic⟩
  · exact ⟨h.regular, fun f' e => by cases e; exact hf, h.italic⟩
  · exact ⟨h.regular, h.bold, fun f' e => by cases e; exact hf⟩

theorem map_ok {ε α β : Type} {x : Except ε α} {f : α → β} {b : β} (e : x.map f = .ok b) : ∃ a, x = .ok a ∧ b = f a := by
  cases x with
  | error _ => cases e
  | ok a => exact ⟨a, rfl, by cases e; rfl⟩

theorem drawBody_faces {ink : Ink} {fs : Faces} {r : Rend} {c : DrawCall} {x y w h : Nat} {p : Faces × Rend}
    (hf : fs.Ok ink) (hc : Drawn c)
    (e : drawBody ink fs (fs.pick c.attr).1 (fs.pick c.attr).2 r c x y w h = .ok p) : p.1.Ok ink := by
  unfold drawBody at e
  dsimp only at e
  have hput : ((fs.pick c.attr).2 (faceRender ink (fs.pick c.attr).1 c.id c.ch c.len c.width).1).Ok ink := by
    refine put_ok hf c.attr ?_
    have := style_ok hf c.attr
    rw [style_eq] at this
    exact (faceRender_ok this hc).1
  split at e
  · obtain ⟨_, _, rfl⟩ := map_ok e
    exact hf
  · split at e
    · obtain ⟨_, _, rfl⟩ := map_ok e
      exact hput
    · obtain ⟨_, _, rfl⟩ := map_ok e
      exact hput

theorem bind_ok {ε α β : Type} {x : Except ε α} {f : α → Except ε β} {b : β} (e : (x >>= f) = .ok b) :
    ∃ a, x = .ok a ∧ f a = .ok b := by
  cases x with
  | error _ => cases e
  | ok a => exact ⟨a, rfl, e⟩

theorem drawCell_faces {ink : Ink} {debug : Bool} {fs fs' : Faces} {r r' : Rend} {c : DrawCall} (hf : fs.Ok ink)
    (hc : Drawn c) (e : drawCell ink debug fs r c = .ok (fs', r')) : fs'.Ok ink := by
  unfold drawCell at e
  split at e
  · injection e with e
    injection e with e1 e2
    rw [← e1]
    exact hf
  · obtain ⟨p, e1, e⟩ := bind_ok e
    obtain ⟨r1, _, e⟩ := bind_ok e
    obtain ⟨r2, _, e⟩ := bind_ok e
    injection e with e
    injection e with e3 e4
    rw [← e3]
    exact drawBody_faces hf hc e1

theorem drawCells_faces {ink : Ink} {debug : Bool} : ∀ (cs : List DrawCall) {fs fs' : Faces} {r r' : Rend}, fs.Ok ink →
    (∀ c ∈ cs, Drawn c) → drawCells ink debug fs r cs = .ok (fs', r') → fs'.Ok ink
  | [], fs, fs', r, r', hf, _, e => by cases e; exact hf
  | c :: cs, fs, fs', r, r', hf, hc, e => by
    rw [drawCells] at e
    obtain ⟨⟨fs1, r1⟩, e1, e⟩ := bind_ok e
    exact drawCells_faces cs (drawCell_faces hf (hc c (List.mem_cons_self ..)) e1)
      (fun d hd => hc d (List.mem_cons_of_mem _ hd)) e

/-! ### One cell -/

/-- The pixel in column `dx` and row `dy` of a cell. -/
def cellPixel (ink : Ink) (fs : Faces) (c : DrawCall) (dx dy : Nat) : Nat :=
  if c.attr.underline = true ∧ (fs.style c.attr).underlinePos ≤ dy ∧
      dy < (fs.style c.attr).underlinePos + (fs.style c.attr).lineThickness then
    pack (colours c.attr).1.r (colours c.attr).1.g (colours c.attr).1.b
  else if c.len = 0 then pack (colours c.attr).2.r (colours c.attr).2.g (colours c.attr).2.b
  else
    match createGlyph ink (fs.style c.attr) c.ch c.width with
    | none => pack (colours c.attr).2.r (colours c.attr).2.g (colours c.attr).2.b
    | some g => pxVal g (colours c.attr).1 (colours c.attr).2 dy dx

theorem style_same {fs fs' : Faces} (h : Faces.SameMetrics fs fs') (a : Attr) :
    Face.SameMetrics (fs.style a) (fs'.style a) := by
  unfold Faces.style
  rcases h.bold with ⟨b1, b2⟩ | ⟨f, f', b1, b2, b3⟩ <;> rcases h.italic with ⟨i1, i2⟩ | ⟨g, g', i1, i2, i3⟩ <;>
    rw [b1, b2, i1, i2] <;> cases a.bold <;> cases a.italic <;>
    first | exact h.regular | exact b3 | exact i3

theorem cellPixel_congr {ink : Ink} {fs fs' : Faces} (h : Faces.SameMetrics fs fs') (c : DrawCall) (dx dy : Nat) :
    cellPixel ink fs' c dx dy = cellPixel ink fs c dx dy := by
  have hs := style_same h c.attr
  unfold cellPixel
  rw [createGlyph_congr hs, hs.underlinePos, hs.lineThickness]

/-- All faces have cells of the same size. -/
structure Uniform (fs : Faces) : Prop where
  bold : ∀ f, fs.bold = some f → f.width = fs.regular.width ∧ f.height = fs.regular.height
  italic : ∀ f, fs.italic = some f → f.width = fs.regular.width ∧ f.height = fs.regular.height

theorem Uniform.style {fs : Faces} (h : Uniform fs) (a : Attr) :
    (fs.style a).width = fs.regular.width ∧ (fs.style a).height = fs.regular.height := by
  rw [style_eq]
  rcases pick_cases fs a with e | ⟨f, hf, e⟩ | ⟨f, hf, e⟩ <;> rw [e]
  · exact ⟨rfl, rfl⟩
  · exact h.bold f hf
  · exact h.italic f hf

theorem Uniform.same {fs fs' : Faces} (h : Uniform fs) (hm : Faces.SameMetrics fs fs') : Uniform fs' := by
  refine ⟨?_, ?_⟩
  · intro f' e'
    rcases hm.bold with ⟨_, b2⟩ | ⟨f, f'', b1, b2, b3⟩
    · rw [e'] at b2; cases b2
    · rw [e'] at b2
      cases b2
      rw [b3.width, b3.height, hm.regular.width, hm.regular.height]
      exact h.bold f b1
  · intro f' e'
    rcases hm.italic with ⟨_, b2⟩ | ⟨f, f'', b1, b2, b3⟩
    · rw [e'] at b2; cases b2
    · rw [e'] at b2
      cases b2
      rw [b3.width, b3.height, hm.regular.width, hm.regular.height]
      exact h.italic f b1

/-- What a cell may rely on. -/
structure Room (fs : Faces) (c : DrawCall) : Prop where
  w32 : (c.x + c.width) * fs.regular.width < 4294967296
  h32 : (c.y + 1) * fs.regular.height < 4294967296
  covered : c.width = 0 → c.len = 0

theorem Room.same {fs fs' : Faces} {c : DrawCall} (h : Room fs c) (hm : Faces.SameMetrics fs fs') : Room fs' c :=
  ⟨by rw [hm.regular.width]; exact h.w32, by rw [hm.regular.height]; exact h.h32, h.covered⟩

theorem Owns.same {fs fs' : Faces} {c : DrawCall} {X Y : Nat} (h : Owns fs c X Y) (hm : Faces.SameMetrics fs fs') :
    Owns fs' c X Y :=
  ⟨by rw [hm.regular.width]; exact h.left, by rw [hm.regular.width]; exact h.right,
    by rw [hm.regular.height]; exact h.top, by rw [hm.regular.height]; exact h.bottom⟩

instance (fs : Faces) (c : DrawCall) (X Y : Nat) : Decidable (Owns fs c X Y) :=
  decidable_of_iff (c.x * fs.regular.width ≤ X ∧ X < (c.x + c.width) * fs.regular.width ∧
    c.y * fs.regular.height ≤ Y ∧ Y < (c.y + 1) * fs.regular.height)
    ⟨fun ⟨a, b, c, d⟩ => ⟨a, b, c, d⟩, fun h => ⟨h.left, h.right, h.top, h.bottom⟩⟩

theorem u32_eq {n : Nat} (h : n < 4294967296) : u32 n = n := Nat.mod_eq_of_lt h

/-- The pixel of a cell without its underline. -/
def bodyPixel (ink : Ink) (fs : Faces) (c : DrawCall) (dx dy : Nat) : Nat :=
  if c.len = 0 then pack (colours c.attr).2.r (colours c.attr).2.g (colours c.attr).2.b
  else
    match createGlyph ink (fs.style c.attr) c.ch c.width with
    | none => pack (colours c.attr).2.r (colours c.attr).2.g (colours c.attr).2.b
    | some g => pxVal g (colours c.attr).1 (colours c.attr).2 dy dx

theorem drawBody_at {ink : Ink} {fs : Faces} {r : Rend} (hf : fs.Ok ink) (hr : r.Sound) (hu : Uniform fs)
    {c : DrawCall} (hc : Drawn c) (hcov : c.width = 0 → c.len = 0) {x y w h : Nat} (hw : w = fs.regular.width * c.width)
    (hh : h = fs.regular.height) (hx : x + w < 4294967296) (hy : y + h < 4294967296) :
    ∃ fs' r', drawBody ink fs (fs.pick c.attr).1 (fs.pick c.attr).2 r c x y w h = .ok (fs', r') ∧ fs'.Ok ink ∧
      Faces.SameMetrics fs fs' ∧ Rend.Same r r' ∧ ∀ X Y, X < r.width → Y < r.height →
        r'.at X Y = if x ≤ X ∧ X < x + w ∧ y ≤ Y ∧ Y < y + h then some (bodyPixel ink fs c (X - x) (Y - y))
          else r.at X Y := by
  have fill : ∃ r', r.fill x y w h (colours c.attr).2 = .ok r' ∧ Rend.Same r r' ∧
      ∀ X Y, X < r.width → Y < r.height → r'.at X Y = if x ≤ X ∧ X < x + w ∧ y ≤ Y ∧ Y < y + h then
        some (pack (colours c.attr).2.r (colours c.attr).2.g (colours c.attr).2.b) else r.at X Y := by
    obtain ⟨r', e, s, ha⟩ := paint_spec
      (px := fun _ _ => .ok (pack (colours c.attr).2.r (colours c.attr).2.g (colours c.attr).2.b))
      (v := fun _ _ => pack (colours c.attr).2.r (colours c.attr).2.g (colours c.attr).2.b)
      hr (x := x) (y := y) (w := w) (h := h) (by omega) (by omega) (by omega) (by omega) (fun _ _ _ _ => rfl)
    exact ⟨r', e, s, ha hx hy⟩
  have hst := style_ok hf c.attr
  have hsty : fs.style c.attr = (fs.pick c.attr).1 := style_eq fs c.attr
  by_cases hl : c.len = 0
  · obtain ⟨r', e, s, ha⟩ := fill
    refine ⟨fs, r', ?_, hf, .refl fs, s, fun X Y hX hY => ?_⟩
    · unfold drawBody
      dsimp only
      rw [if_pos hl, e]
      rfl
    · rw [ha X Y hX hY]
      unfold bodyPixel
      rw [if_pos hl]
  · have hw0 : c.width ≠ 0 := fun h => hl (hcov h)
    obtain ⟨f1, f2⟩ := faceRender_ok hst hc
    have f3 := f2 hl hw0
    obtain ⟨_, m1, _⟩ := faceRender_sound (ink := ink) hst.sound c.id c.ch c.len c.width
    rw [hsty] at f1 f3 m1
    have p1 := put_ok hf c.attr f1
    have p2 := (put_sound hf.sound c.attr f1.sound m1).2
    cases hg : createGlyph ink (fs.style c.attr) c.ch c.width with
    | none =>
      obtain ⟨r', e, s, ha⟩ := fill
      refine ⟨_, r', ?_, p1, p2, s, fun X Y hX hY => ?_⟩
      · unfold drawBody
        dsimp only
        rw [← hsty, hg] at f3
        rw [if_neg hl, ← hsty, f3, e]
        rfl
      · rw [ha X Y hX hY]
        unfold bodyPixel
        rw [if_neg hl, hg]
    | some g =>
      obtain ⟨g1, g2, g3, g4, _⟩ := createGlyph_sound hg
      have hgw : g.width = w := by
        rw [g3, (hu.style c.attr).1, hw]
        exact u32_eq (by omega)
      have hgh : g.height = h := by rw [g4, (hu.style c.attr).2, hh]
      obtain ⟨r', e, s, ha⟩ := paint_spec (px := px g (colours c.attr).1 (colours c.attr).2)
        (v := pxVal g (colours c.attr).1 (colours c.attr).2) hr (x := x) (y := y) (by omega) (by omega) g1.w32 g1.h32
        (fun _ hk _ hi => px_ok g1 _ _ hk hi)
      rw [hgw, hgh] at ha
      refine ⟨_, r', ?_, p1, p2, s, fun X Y hX hY => ?_⟩
      · unfold drawBody
        dsimp only
        rw [← hsty, hg] at f3
        rw [if_neg hl, ← hsty, f3]
        dsimp only
        rw [blend_eq, e]
        rfl
      · rw [ha hx hy X Y hX hY]
        unfold bodyPixel
        rw [if_neg hl, hg]

/-- The body and the underline of a cell. -/
theorem drawLook_at {ink : Ink} {fs : Faces} {r : Rend} (hf : fs.Ok ink) (hr : r.Sound) (hu : Uniform fs)
    {c : DrawCall} (hc : Drawn c) (hroom : Room fs c) :
    ∃ fs' r1 r', drawBody ink fs (fs.pick c.attr).1 (fs.pick c.attr).2 r c (u32 (c.x * fs.regular.width))
        (u32 (c.y * fs.regular.height)) (u32 (fs.regular.width * c.width)) fs.regular.height = .ok (fs', r1) ∧
      drawUnderline (fs.pick c.attr).1 r1 c (u32 (c.x * fs.regular.width)) (u32 (c.y * fs.regular.height))
        (u32 (fs.regular.width * c.width)) = .ok r' ∧ fs'.Ok ink ∧ Faces.SameMetrics fs fs' ∧ Rend.Same r r' ∧
      ∀ X Y, X < r.width → Y < r.height → r'.at X Y =
        if Owns fs c X Y then
          some (cellPixel ink fs c (X - c.x * fs.regular.width) (Y - c.y * fs.regular.height))
        else r.at X Y := by
  obtain ⟨hw32, hh32, hcov⟩ := hroom
  have hwid : (c.x + c.width) * fs.regular.width = c.x * fs.regular.width + fs.regular.width * c.width := by
    rw [Nat.add_mul, Nat.mul_comm c.width]
  have hhei : (c.y + 1) * fs.regular.height = c.y * fs.regular.height + fs.regular.height := by
    rw [Nat.add_mul, Nat.one_mul]
  have ex : u32 (c.x * fs.regular.width) = c.x * fs.regular.width := u32_eq (by omega)
  have ey : u32 (c.y * fs.regular.height) = c.y * fs.regular.height := u32_eq (by omega)
  have ew : u32 (fs.regular.width * c.width) = fs.regular.width * c.width := u32_eq (by omega)
  have hown : ∀ X Y, Owns fs c X Y ↔ c.x * fs.regular.width ≤ X ∧ X < c.x * fs.regular.width + fs.regular.width * c.width ∧
      c.y * fs.regular.height ≤ Y ∧ Y < c.y * fs.regular.height + fs.regular.height := by
    intro X Y
    rw [← hwid, ← hhei]
    exact ⟨fun h => ⟨h.left, h.right, h.top, h.bottom⟩, fun ⟨a, b, c, d⟩ => ⟨a, b, c, d⟩⟩
  obtain ⟨fs1, r1, e1, o1, m1, s1, a1⟩ := drawBody_at hf hr hu hc hcov (x := c.x * fs.regular.width)
    (y := c.y * fs.regular.height) rfl rfl (by omega) (by omega)
  have hst := style_ok hf c.attr
  have hsty : fs.style c.attr = (fs.pick c.attr).1 := style_eq fs c.attr
  have hin : (fs.style c.attr).underlinePos + (fs.style c.attr).lineThickness ≤ fs.regular.height := by
    rw [← (hu.style c.attr).2]
    exact hst.under
  obtain ⟨r2, e2, s2, a2⟩ : ∃ r2, drawUnderline (fs.pick c.attr).1 r1 c (c.x * fs.regular.width)
      (c.y * fs.regular.height) (fs.regular.width * c.width) = .ok r2 ∧ Rend.Same r1 r2 ∧
      ∀ X Y, X < r.width → Y < r.height → r2.at X Y =
        if Owns fs c X Y then
          some (cellPixel ink fs c (X - c.x * fs.regular.width) (Y - c.y * fs.regular.height))
        else r.at X Y := by
    unfold drawUnderline
    rw [← hsty]
    generalize hup : (fs.style c.attr).underlinePos = up at *
    generalize hth : (fs.style c.attr).lineThickness = th at *
    generalize hX0 : c.x * fs.regular.width = x at *
    generalize hY0 : c.y * fs.regular.height = y at *
    generalize hW0 : fs.regular.width * c.width = w at *
    generalize hH0 : fs.regular.height = h at *
    have hbody : ∀ dx dy, ¬ (c.attr.underline = true ∧ up ≤ dy ∧ dy < up + th) →
        cellPixel ink fs c dx dy = bodyPixel ink fs c dx dy := by
      intro dx dy hn
      unfold cellPixel
      rw [hup, hth, if_neg hn]
      rfl
    cases hun : c.attr.underline with
    | false =>
      refine ⟨r1, rfl, .refl r1, fun X Y hX hY => ?_⟩
      rw [a1 X Y hX hY]
      by_cases ho : Owns fs c X Y
      · rw [if_pos ho, if_pos ((hown X Y).mp ho), hbody _ _ (by rw [hun]; simp)]
      · rw [if_neg ho, if_neg (fun hh => ho ((hown X Y).mpr hh))]
    | true =>
      have eu : u32 (y + up) = y + up := u32_eq (by omega)
      rw [if_pos rfl, eu]
      obtain ⟨r2, e, s, ha⟩ := paint_spec
        (px := fun _ _ => .ok (pack (colours c.attr).1.r (colours c.attr).1.g (colours c.attr).1.b))
        (v := fun _ _ => pack (colours c.attr).1.r (colours c.attr).1.g (colours c.attr).1.b)
        (s1.sound hr) (x := x) (y := y + up) (w := w) (h := th) (by omega) (by omega) (by omega) (by omega)
        (fun _ _ _ _ => rfl)
      refine ⟨r2, e, s, fun X Y hX hY => ?_⟩
      rw [ha (by omega) (by omega) X Y (by rw [s1.width]; exact hX) (by rw [s1.height]; exact hY), a1 X Y hX hY]
      by_cases ho : Owns fs c X Y
      · have ho' := (hown X Y).mp ho
        rw [if_pos ho, if_pos ho']
        by_cases hb : up ≤ Y - y ∧ Y - y < up + th
        · rw [if_pos (by omega)]
          unfold cellPixel
          rw [hup, hth, if_pos ⟨hun, hb⟩]
        · rw [if_neg (by omega), hbody _ _ (fun hh => hb hh.2)]
      · have ho' : ¬ _ := fun hh => ho ((hown X Y).mpr hh)
        rw [if_neg ho, if_neg ho', if_neg (by omega)]
  refine ⟨fs1, r1, r2, ?_, ?_, o1, m1, s1.trans s2, a2⟩
  · rw [ex, ey, ew]; exact e1
  · rw [ex, ey, ew]; exact e2

theorem drawCell_at {ink : Ink} {fs : Faces} {r : Rend} (hf : fs.Ok ink) (hr : r.Sound) (hu : Uniform fs)
    {c : DrawCall} (hc : Drawn c) (hroom : Room fs c) (hk : skips r c = false) :
    ∃ fs' r', drawCell ink false fs r c = .ok (fs', r') ∧ fs'.Ok ink ∧ Faces.SameMetrics fs fs' ∧ Rend.Same r r' ∧
      ∀ X Y, X < r.width → Y < r.height → r'.at X Y =
        if Owns fs c X Y then
          some (cellPixel ink fs c (X - c.x * fs.regular.width) (Y - c.y * fs.regular.height))
        else r.at X Y := by
  obtain ⟨fs1, r1, r2, e1, e2, o1, m1, s2, a2⟩ := drawLook_at hf hr hu hc hroom
  refine ⟨fs1, r2, ?_, o1, m1, s2, a2⟩
  unfold drawCell
  rw [hk]
  dsimp only [Bool.false_and, Bool.not_false, Bool.and_false]
  rw [if_neg (by decide), e1, ok_bind, e2, ok_bind]
  rfl

/-! ### Whole drawings -/

theorem skips_congr {r r' : Rend} (h : Rend.Same r r') (c : DrawCall) : skips r' c = skips r c := by
  unfold skips
  rw [h.age]

/-- A pixel gets its value if a cell that is drawn has it, or if it had it before. -/
theorem drawCells_at {ink : Ink} {X Y v : Nat} : ∀ (cs : List DrawCall) {fs : Faces} {r : Rend}, fs.Ok ink → r.Sound →
    Uniform fs → (∀ c ∈ cs, Drawn c) → (∀ c ∈ cs, Room fs c) → X < r.width → Y < r.height →
    (∀ c ∈ cs, skips r c = false → Owns fs c X Y →
      cellPixel ink fs c (X - c.x * fs.regular.width) (Y - c.y * fs.regular.height) = v) →
    ((∃ c ∈ cs, skips r c = false ∧ Owns fs c X Y) ∨ r.at X Y = some v) →
    ∃ fs' r', drawCells ink false fs r cs = .ok (fs', r') ∧ fs'.Ok ink ∧ Faces.SameMetrics fs fs' ∧ Rend.Same r r' ∧
      r'.at X Y = some v
  | [], fs, r, hf, _, _, _, _, _, _, _, h => by
    refine ⟨fs, r, rfl, hf, .refl fs, .refl r, ?_⟩
    rcases h with ⟨c, hc, _⟩ | h
    · cases hc
    · exact h
  | c :: cs, fs, r, hf, hr, hu, hd, hro, hX, hY, hv, h => by
    cases hk : skips r c with
    | true =>
      have e1 : drawCell ink false fs r c = .ok (fs, r) := by
        unfold drawCell
        rw [hk]
        rfl
      obtain ⟨fs', r', e, o⟩ := drawCells_at cs hf hr hu (fun d h => hd d (List.mem_cons_of_mem _ h))
        (fun d h => hro d (List.mem_cons_of_mem _ h)) hX hY (fun d h => hv d (List.mem_cons_of_mem _ h)) (by
          rcases h with ⟨d, h1, h2, h3⟩ | h
          · rcases List.mem_cons.mp h1 with rfl | h1
            · rw [hk] at h2; cases h2
            · exact Or.inl ⟨d, h1, h2, h3⟩
          · exact Or.inr h)
      refine ⟨fs', r', ?_, o⟩
      rw [drawCells, e1]
      exact e
    | false =>
      obtain ⟨fs1, r1, e1, o1, m1, s1, a1⟩ := drawCell_at hf hr hu (hd c (List.mem_cons_self ..))
        (hro c (List.mem_cons_self ..)) hk
      have ha := a1 X Y hX hY
      obtain ⟨fs', r', e, o2, m2, s2, a2⟩ := drawCells_at (v := v) cs o1 (s1.sound hr) (hu.same m1)
        (fun d h => hd d (List.mem_cons_of_mem _ h)) (fun d h => (hro d (List.mem_cons_of_mem _ h)).same m1)
        (by rw [s1.width]; exact hX) (by rw [s1.height]; exact hY)
        (fun d h hs ho => by
          rw [skips_congr s1] at hs
          rw [cellPixel_congr m1, m1.regular.width, m1.regular.height]
          refine hv d (List.mem_cons_of_mem _ h) hs ?_
          exact ⟨by rw [← m1.regular.width]; exact ho.left, by rw [← m1.regular.width]; exact ho.right,
            by rw [← m1.regular.height]; exact ho.top, by rw [← m1.regular.height]; exact ho.bottom⟩)
        (by
          by_cases ho : Owns fs c X Y
          · right
            rw [ha, if_pos ho, hv c (List.mem_cons_self ..) hk ho]
          · rw [if_neg ho] at ha
            rcases h with ⟨d, h1, h2, h3⟩ | h
            · rcases List.mem_cons.mp h1 with rfl | h1
              · exact absurd h3 ho
              · exact Or.inl ⟨d, h1, by rw [skips_congr s1]; exact h2, h3.same m1⟩
            · right
              rw [ha]
              exact h)
      refine ⟨fs', r', ?_, o2, m1.trans m2, s1.trans s2, a2⟩
      rw [drawCells, e1]
      exact e

end Verif.Gtk
