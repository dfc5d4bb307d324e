import Verif.Props.Gtk.Picture
import Verif.Proofs.Gtk.Frame

/-!
C109: the frames of the property `show-dirty`.
-/

namespace Verif.Props.Gtk
open Verif Verif.Gtk Verif.Screen

/-- The pixel of a drawing with frames. -/
theorem marked_pixel {ink : Ink} {st : St} (h : Session ink st) {calls : List DrawCall} {age : Nat} {s : Screen}
    (e : st.scr.draw = .ok (calls, age, s)) (ht : Tidy { st with restyled := false } calls age) {fs : Faces} {r : Rend}
    (er : rendererDraw ink true st.faces st.rend calls age = .ok (fs, r)) {c : DrawCall} (hc : c ∈ calls) {X Y : Nat}
    (hX : X < r.width) (hY : Y < r.height) (ho : Owns st.faces c X Y) :
    r.width = st.rend.width ∧ r.height = st.rend.height ∧ r.at X Y = some (markedPixel ink st.faces st.rend c X Y) := by
  have hi := session_inv h
  have hg : Positions st.scr.sizeX st.scr.sizeY calls := draw_positions hi.reach e
  have hd := draw_drawn hi.reach e
  unfold rendererDraw at er
  obtain ⟨⟨fs1, r1⟩, e1, er⟩ := bind_ok er
  injection er with er
  injection er with h1 h2
  subst h1 h2
  obtain ⟨_, _, e2, _, _, s2⟩ := drawCells_ok (ink := ink) (debug := true) calls hi.faces.sound hi.rend
  rw [e1] at e2
  cases e2
  refine ⟨s2.width, s2.height, ?_⟩
  obtain ⟨_, _, e3, _, _, _, a⟩ := drawCells_marked (ink := ink) (X := X) (Y := Y) (v := markedPixel ink st.faces st.rend c X Y)
    calls hi.faces hi.rend (tidy_uniform (st := { st with restyled := false }) ht) hd
    (tidy_room (st := { st with restyled := false }) ht hg hd) (by rw [← s2.width]; exact hX) (by rw [← s2.height]; exact hY)
    (fun d hdm od => by rw [owner_unique (st := { st with restyled := false }) ht hg hd hdm hc od ho]) (Or.inl ⟨c, hc, ho⟩)
  rw [e1] at e3
  cases e3
  exact a

theorem onEdge_iff {fs : Faces} {W H : Nat} {c : DrawCall} {X Y : Nat} (ho : Owns fs c X Y) :
    OnFrame W H (c.x * fs.regular.width) (c.y * fs.regular.height) (fs.regular.width * c.width) fs.regular.height X Y ↔
      OnEdge fs W H c X Y := by
  have hwid : (c.x + c.width) * fs.regular.width = c.x * fs.regular.width + fs.regular.width * c.width := by
    rw [Nat.add_mul, Nat.mul_comm c.width]
  have hhei : (c.y + 1) * fs.regular.height = c.y * fs.regular.height + fs.regular.height := by
    rw [Nat.add_mul, Nat.one_mul]
  obtain ⟨o1, o2, o3, o4⟩ := ho
  unfold OnFrame OnEdge
  rw [hwid] at o2
  rw [hhei] at o4
  rw [hwid, hhei]
  exact ⟨fun h => h.2.2.2.2, fun h => ⟨o1, o2, o3, o4, h⟩⟩

/-- **C109**, where there is no frame: whatever was drawn before, and however the window was treated, a drawing with `show-dirty` shows
in the inner pixels of all cells, and in all pixels of the cells that are not newer than the last drawing, what the screen has
there. -/
theorem C109_inner_partial {ink : Ink} (hink : ∀ k ch n b, ink k ch n = some b → ∀ o, b o < 256) {st : St} (h : Session ink st)
    {calls : List DrawCall} {age : Nat} {s : Screen} (e : st.scr.draw = .ok (calls, age, s))
    (ht : Tidy { st with restyled := false } calls age) {fs : Faces} {r : Rend}
    (er : rendererDraw ink true st.faces st.rend calls age = .ok (fs, r)) {c : DrawCall} (hc : c ∈ calls)
    (hfg : (foreground c.attr).Byte) (hbg : (background c.attr).Byte) {X Y : Nat} (hX : X < r.width) (hY : Y < r.height)
    (ho : Owns st.faces c X Y)
    (hn : ¬ OnEdge st.faces r.width r.height c X Y ∨ (c.age ≠ 0 ∧ st.rend.age ≠ 0 ∧ c.age ≤ st.rend.age)) :
    ∃ m, r.at X Y = some (opaque32 m) ∧ m.Byte ∧
      Shows ink st.faces c (X - c.x * st.faces.regular.width) (Y - c.y * st.faces.regular.height) m := by
  have hi := session_inv h
  obtain ⟨w1, w2, hp⟩ := marked_pixel h e ht er hc hX hY ho
  obtain ⟨m, h1, h2, h3⟩ := cellPixel_shows hi.faces (draw_drawn hi.reach e c hc) hfg hbg hink
    (X - c.x * st.faces.regular.width) (Y - c.y * st.faces.regular.height)
  refine ⟨m, ?_, h2, h3⟩
  rw [hp, ← h1]
  unfold markedPixel
  rw [if_neg]
  rintro ⟨k1, k2⟩
  rcases hn with hn | hn
  · rw [w1, w2] at hn
    exact hn ((onEdge_iff ho).mp k2)
  · have : skips st.rend c = true := by
      unfold skips
      rw [decide_eq_true hn.1, decide_eq_true hn.2.1, decide_eq_true hn.2.2]
      rfl
    rw [this] at k1
    cases k1

/-- **C109**, the frames: each cell that is newer than the last drawing has a frame of one pixel. -/
theorem C109_frame_partial {ink : Ink} {st : St} (h : Session ink st) {calls : List DrawCall} {age : Nat} {s : Screen}
    (e : st.scr.draw = .ok (calls, age, s)) (ht : Tidy { st with restyled := false } calls age) {fs : Faces} {r : Rend}
    (er : rendererDraw ink true st.faces st.rend calls age = .ok (fs, r)) {c : DrawCall} (hc : c ∈ calls) {X Y : Nat}
    (hX : X < r.width) (hY : Y < r.height) (ho : Owns st.faces c X Y) (hn : c.age = 0 ∨ st.rend.age = 0 ∨ st.rend.age < c.age)
    (hon : OnEdge st.faces r.width r.height c X Y) : r.at X Y = some (opaque32 ⟨0xd0, 0x10, 0x10⟩) := by
  obtain ⟨w1, w2, hp⟩ := marked_pixel h e ht er hc hX hY ho
  rw [hp]
  unfold markedPixel
  rw [w1, w2] at hon
  have hk : skips st.rend c = false := by
    unfold skips
    rcases hn with hn | hn | hn
    · rw [decide_eq_false (by omega : ¬ c.age ≠ 0)]; rfl
    · rw [decide_eq_false (by omega : ¬ st.rend.age ≠ 0), Bool.and_false]; rfl
    · rw [decide_eq_false (by omega : ¬ c.age ≤ st.rend.age), Bool.and_false]
  rw [if_pos ⟨hk, (onEdge_iff ho).mpr hon⟩]
  exact congrArg some (pack_eq3 (by decide) (by decide) (by decide))

/-- **C109**, changes: a cell that does not look as in the last drawing has a frame. Missing are changes of the default
attributes while the scrollback is in view (C28). -/
theorem C109_changed_partial {ink : Ink} {st0 st : St} (h0 : Session ink st0) {calls0 : List DrawCall} {age0 : Nat} {s1 : Screen}
    (e0 : st0.scr.draw = .ok (calls0, age0, s1)) (h : Session ink st) (ha : st.rend.age = age0) {cs : List Call}
    (hv : ∀ c ∈ cs, c.Valid) (hd : ∀ c ∈ cs, c ≠ .draw) (hu : ∀ c ∈ cs, Props.Screen.untracked c = false) (erun : runAll cs s1 = .ok st.scr)
    {calls : List DrawCall} {age : Nat} {s : Screen} (e : st.scr.draw = .ok (calls, age, s))
    (ht : Tidy { st with restyled := false } calls age) {fs : Faces} {r : Rend}
    (er : rendererDraw ink true st.faces st.rend calls age = .ok (fs, r)) {c0 c : DrawCall} (hc0 : c0 ∈ calls0) (hc : c ∈ calls)
    (hx : c.x = c0.x) (hy : c.y = c0.y) (hl : ¬ Props.Screen.sameLook c0 c) {X Y : Nat} (hX : X < r.width) (hY : Y < r.height)
    (ho : Owns st.faces c X Y) (hon : OnEdge st.faces r.width r.height c X Y) : r.at X Y = some (opaque32 ⟨0xd0, 0x10, 0x10⟩) := by
  refine C109_frame_partial h e ht er hc hX hY ho ?_ hon
  rcases Props.Screen.C28_tracks_partial (session_inv h0).reach hv hd hu calls0 age0 s1 st.scr calls age s e0 erun e c0 hc0 c hc hx hy hl with hz | hz
  · exact Or.inl hz
  · exact Or.inr (Or.inr (by rw [ha]; exact hz))

/-! ### Switching it off -/

/-- **C109**, the end: without `show-dirty` each pixel of each cell shows what the screen has there, also if it was on before. -/
def C109_off_claim : Prop :=
  ∀ ink st, Session ink st → ∀ calls age s, st.scr.draw = .ok (calls, age, s) → Tidy st calls age →
    ∀ fs r, rendererDraw ink false st.faces st.rend calls age = .ok (fs, r) → ∀ c ∈ calls, (foreground c.attr).Byte →
    (background c.attr).Byte → ∀ X Y, X < r.width → Y < r.height → Owns st.faces c X Y →
    ∃ m, r.at X Y = some (opaque32 m) ∧
      Shows ink st.faces c (X - c.x * st.faces.regular.width) (Y - c.y * st.faces.regular.height) m

/-- A blank cell in column `x` of the first row that has a red pixel after an ordinary drawing. -/
def redBlank (ink : Ink) (st : St) (x X : Nat) : Bool :=
  match st.scr.draw with
  | .error _ => false
  | .ok (calls, age, _) =>
    tidyB st calls age &&
    match rendererDraw ink false st.faces st.rend calls age with
    | .error _ => false
    | .ok (_, r) =>
      calls.any (fun c => decide (c.x = x ∧ c.len = 0 ∧ c.attr.underline = false ∧ foreground c.attr = ⟨0, 0, 0⟩ ∧
        background c.attr = ⟨0, 0, 0⟩ ∧ Owns st.faces c X 0)) &&
      decide (X < r.width ∧ 0 < r.height ∧ r.at X 0 = some (opaque32 ⟨0xd0, 0x10, 0x10⟩))

theorem refuted109 {ink : Ink} {cs : List Call} {fs : Faces} (hf : fs.Fresh) {w h : Nat} {vs : List Ev} {x X : Nat}
    (hp : (match (begins cs fs w h).bind (Ev.runAll ink vs) with | some st => redBlank ink st x X | none => false) = true) :
    ¬ C109_off_claim := by
  intro hcl
  cases hb : begins cs fs w h with
  | none => rw [hb] at hp; cases hp
  | some st0 =>
    rw [hb, Option.bind_some] at hp
    cases hr : Ev.runAll ink vs st0 with
    | none => rw [hr] at hp; cases hp
    | some st =>
      rw [hr] at hp
      have hs := Ev.sessions vs (begins_session (ink := ink) hf hb) hr
      change redBlank ink st x X = true at hp
      unfold redBlank at hp
      cases hd : st.scr.draw with
      | error _ => rw [hd] at hp; cases hp
      | ok p =>
        obtain ⟨calls, age, s⟩ := p
        rw [hd] at hp
        dsimp only at hp
        cases h1 : rendererDraw ink false st.faces st.rend calls age with
        | error _ => rw [h1, Bool.and_false] at hp; cases hp
        | ok q =>
          obtain ⟨fs', r⟩ := q
          rw [h1] at hp
          dsimp only at hp
          rw [Bool.and_eq_true, Bool.and_eq_true, decide_eq_true_iff, List.any_eq_true] at hp
          obtain ⟨ht, ⟨c, hc, hcd⟩, hX, hY, hat⟩ := hp
          obtain ⟨c1, c2, c3, c4, c5, c6⟩ := of_decide_eq_true hcd
          obtain ⟨m, m1, m2⟩ := hcl ink st hs calls age s hd (tidy_of ht) fs' r h1 c hc (by rw [c4]; exact ⟨by decide, by decide, by decide⟩)
            (by rw [c5]; exact ⟨by decide, by decide, by decide⟩) X 0 hX hY c6
          unfold Shows at m2
          dsimp only at m2
          rw [if_neg (by rw [c3]; simp), if_pos (Or.inl c2), c5] at m2
          rw [m2, hat] at m1
          injection m1 with m1
          revert m1
          decide

/-- **C109**, the end, is false: the frames stay until the cells change. -/
theorem C109_off_false : ¬ C109_off_claim :=
  refuted109 (ink := blot) (cs := [.resize 3 1]) dots_fresh (w := 3) (h := 1) (vs := [.mark]) (x := 1) (X := 1)
    (by decide +kernel)

/-! ### Example -/

/-- A face with cells of 4 by 3 pixels. -/
def brick : Face := { dot with width := 4, height := 3, underlinePos := 2 }

theorem bricks_fresh : Faces.Fresh ⟨brick, none, none⟩ :=
  ⟨⟨0, .a8, 352, 3, 2, by decide, by decide, by decide, rfl⟩, fun _ e => (nomatch e), fun _ e => (nomatch e)⟩

/-- In a window of three cells of 4 by 3 pixels, cut off in the third, `a` is printed, drawn with frames, and then `b`. In the
second drawing the first cell has no frame any more, the second cell has one, and so has the third, into which the cursor has
moved; its last column is that of the window. -/
example : ((begins [.resize 3 1] ⟨brick, none, none⟩ 10 3).bind (Ev.runAll blot (say plain [0x61] ++ [.mark] ++ say plain [0x62]))).any
    (fun st => match st.scr.draw with
      | .error _ => false
      | .ok (calls, age, _) =>
        tidyB { st with restyled := false } calls age &&
        match rendererDraw blot true st.faces st.rend calls age with
        | .error _ => false
        | .ok (_, r) =>
          decide ((List.range 3).map (fun Y => (List.range 10).map fun X => decide (r.at X Y = some (opaque32 ⟨0xd0, 0x10, 0x10⟩))) =
            [[false, false, false, false, true, true, true, true, true, true],
             [false, false, false, false, true, false, false, true, true, true],
             [false, false, false, false, true, true, true, true, true, true]])) = true := by
  decide +kernel

end Verif.Props.Gtk
