import Verif.Proofs.Gtk.Picture
import Verif.Props.Gtk.Renderer
import Verif.Props.Screen.Settings

/-!
C93: drawing only what has changed shows the same as drawing everything.
-/

namespace Verif.Props.Gtk
open Verif Verif.Gtk Verif.Screen

theorem fresh_ok {ink : Ink} {f : Face} (h : f.Fresh) : f.Ok ink := by
  have hs := fresh_sound h
  obtain ⟨key, fmt, w, hh, b, hw, hhh, hb, e⟩ := h
  unfold measureFace at e
  dsimp only at e
  split at e
  · cases e
  · rename_i hz
    injection e with e
    subst e
    refine ⟨hs, fun _ _ _ _ e => (nomatch e), ?_, ?_⟩
    · show min _ (sub32 hh (max (min (sub32 hh b / 2) (hh / 14)) 1)) + max (min (sub32 hh b / 2) (hh / 14)) 1 ≤ hh
      generalize ht : max (min (sub32 hh b / 2) (hh / 14)) 1 = t
      have htl : t ≤ hh := by
        rw [← ht]
        generalize sub32 hh b / 2 = q
        omega
      have e : sub32 hh t = hh - t := by
        show (hh + (4294967296 - t % 4294967296)) % 4294967296 = _
        omega
      rw [e]
      generalize u32 (b + t) = q
      omega
    · show (w + 87) / 88 < _
      omega

theorem freshFaces_ok {ink : Ink} {fs : Faces} (h : fs.Fresh) : fs.Ok ink :=
  ⟨fresh_ok h.regular, fun f e => fresh_ok (h.bold f e), fun f e => fresh_ok (h.italic f e)⟩

/-- A pixel belongs to one cell only. -/
theorem owner_unique {st : St} {calls : List DrawCall} {age : Nat} (ht : Tidy st calls age)
    (hg : Positions st.scr.sizeX st.scr.sizeY calls) (hd : ∀ c ∈ calls, Drawn c) {fs : Faces} {c d : DrawCall} {X Y : Nat}
    (hc : c ∈ calls) (hdc : d ∈ calls) (oc : Owns fs c X Y) (od : Owns fs d X Y) : c = d := by
  have row : ∀ a b : DrawCall, Owns fs a X Y → Owns fs b X Y → a.y ≤ b.y := by
    intro a b oa ob
    rcases Nat.lt_or_ge b.y a.y with h | h
    · have := Nat.mul_le_mul_right fs.regular.height (show b.y + 1 ≤ a.y by omega)
      have := oa.top
      have := ob.bottom
      omega
    · exact h
  have hy : c.y = d.y := Nat.le_antisymm (row c d oc od) (row d c od oc)
  have col : ∀ a b : DrawCall, a ∈ calls → b ∈ calls → a.y = b.y → Owns fs a X Y → Owns fs b X Y → a.x ≤ b.x := by
    intro a b ha hb hy oa ob
    rcases Nat.lt_or_ge b.x a.x with h | h
    · exfalso
      have h1 := oa.left
      have h2 := ob.right
      have h3 : a.x < b.x + b.width := by
        rcases Nat.lt_or_ge a.x (b.x + b.width) with h' | h'
        · exact h'
        · have := Nat.mul_le_mul_right fs.regular.width h'
          omega
      have h4 := (hd b hb).small
      have h5 := ht.wide b hb (by omega) a ha hy (by omega)
      have h6 := oa.right
      rw [h5, Nat.add_zero] at h6
      omega
    · exact h
  exact hg.once c hc d hdc (Nat.le_antisymm (col c d hc hdc hy oc od) (col d c hdc hc hy.symm od oc)) hy

/-- Every pixel of the cells belongs to a cell. -/
theorem owner_exists {st : St} {calls : List DrawCall} {age : Nat} (ht : Tidy st calls age)
    (hg : Positions st.scr.sizeX st.scr.sizeY calls) {fs : Faces} {X Y : Nat}
    (hX : X < st.scr.sizeX * fs.regular.width) (hY : Y < st.scr.sizeY * fs.regular.height) :
    ∃ c ∈ calls, Owns fs c X Y := by
  have hw : 0 < fs.regular.width := by
    rcases Nat.eq_zero_or_pos fs.regular.width with h | h
    · rw [h] at hX; omega
    · exact h
  have hh : 0 < fs.regular.height := by
    rcases Nat.eq_zero_or_pos fs.regular.height with h | h
    · rw [h] at hY; omega
    · exact h
  obtain ⟨c, hc, cx, cy⟩ := hg.all (Y / fs.regular.height) (X / fs.regular.width)
    (Nat.div_lt_of_lt_mul (by rw [Nat.mul_comm]; exact hY)) (Nat.div_lt_of_lt_mul (by rw [Nat.mul_comm]; exact hX))
  have hx1 : X / fs.regular.width * fs.regular.width ≤ X := Nat.div_mul_le_self X _
  have hx2 : X < (X / fs.regular.width + 1) * fs.regular.width := Nat.lt_mul_of_div_lt (by omega) hw
  have hy1 : Y / fs.regular.height * fs.regular.height ≤ Y := Nat.div_mul_le_self Y _
  have hy2 : Y < (Y / fs.regular.height + 1) * fs.regular.height := Nat.lt_mul_of_div_lt (by omega) hh
  rw [← cx] at hx1 hx2
  rw [← cy] at hy1 hy2
  by_cases h0 : c.width = 0
  · obtain ⟨_, d, hdm, dy, dx, dw⟩ := ht.covered c hc h0
    refine ⟨d, hdm, ?_, ?_, by rw [dy]; exact hy1, by rw [dy]; exact hy2⟩
    · have := Nat.mul_le_mul_right fs.regular.width (show d.x ≤ c.x by omega)
      omega
    · rw [dw, show d.x + 2 = c.x + 1 by omega]
      exact hx2
  · refine ⟨c, hc, hx1, ?_, hy1, hy2⟩
    have := Nat.mul_le_mul_right fs.regular.width (show c.x + 1 ≤ c.x + c.width by omega)
    omega

/-- All cells are as they should be. -/
def Painted (ink : Ink) (fs : Faces) (r : Rend) (calls : List DrawCall) : Prop :=
  ∀ c ∈ calls, ∀ X Y, X < r.width → Y < r.height → Owns fs c X Y →
    r.at X Y = some (cellPixel ink fs c (X - c.x * fs.regular.width) (Y - c.y * fs.regular.height))

theorem tidy_uniform {st : St} {calls : List DrawCall} {age : Nat} (ht : Tidy st calls age) : Uniform st.faces :=
  ⟨ht.bold, ht.italic⟩

theorem tidy_room {st : St} {calls : List DrawCall} {age : Nat} (ht : Tidy st calls age)
    (hg : Positions st.scr.sizeX st.scr.sizeY calls) (hd : ∀ c ∈ calls, Drawn c) : ∀ c ∈ calls, Room st.faces c := by
  intro c hc
  obtain ⟨h1, h2⟩ := hg.inside c hc
  have h3 := (hd c hc).small
  refine ⟨?_, ?_, fun h => (ht.covered c hc h).1⟩
  · exact Nat.lt_of_le_of_lt (Nat.mul_le_mul_right _ (by omega)) ht.w32
  · exact Nat.lt_of_le_of_lt (Nat.mul_le_mul_right _ (by omega)) ht.h32

/-- A tidy drawing paints all cells, if those it skips are as they should be. -/
theorem tidy_painted {ink : Ink} {st : St} {calls : List DrawCall} {age : Nat} (ht : Tidy st calls age)
    (hg : Positions st.scr.sizeX st.scr.sizeY calls) (hd : ∀ c ∈ calls, Drawn c) {fs fs' : Faces} {r r' : Rend}
    (hm : Faces.SameMetrics st.faces fs) (hf : fs.Ok ink) (hr : r.Sound)
    (hskip : ∀ c ∈ calls, skips r c = true → ∀ X Y, X < r.width → Y < r.height → Owns fs c X Y →
      r.at X Y = some (cellPixel ink fs c (X - c.x * fs.regular.width) (Y - c.y * fs.regular.height)))
    (e : drawCells ink false fs r calls = .ok (fs', r')) :
    Painted ink fs' r' calls ∧ fs'.Ok ink ∧ Faces.SameMetrics fs fs' ∧ Rend.Same r r' := by
  have hm2 : Faces.SameMetrics fs fs' ∧ Rend.Same r r' := by
    obtain ⟨fs1, r1, e1, _, m, s⟩ := drawCells_ok (ink := ink) (debug := false) calls hf.sound hr
    rw [e] at e1
    cases e1
    exact ⟨m, s⟩
  obtain ⟨m, s⟩ := hm2
  refine ⟨?_, drawCells_faces calls hf hd e, m, s⟩
  intro c hc X Y hX hY ho
  rw [s.width] at hX
  rw [s.height] at hY
  have ho' : Owns fs c X Y := ⟨by rw [← m.regular.width]; exact ho.left, by rw [← m.regular.width]; exact ho.right,
    by rw [← m.regular.height]; exact ho.top, by rw [← m.regular.height]; exact ho.bottom⟩
  obtain ⟨fs1, r1, e1, _, _, _, a⟩ := drawCells_at (ink := ink) (X := X) (Y := Y)
    (v := cellPixel ink fs c (X - c.x * fs.regular.width) (Y - c.y * fs.regular.height)) calls hf hr
    ((tidy_uniform ht).same hm) hd (fun d h => (tidy_room ht hg hd d h).same hm) hX hY
    (fun d h _ od => by rw [owner_unique ht hg hd h hc od ho'])
    (by
      cases hk : skips r c with
      | false => exact Or.inl ⟨c, hc, hk, ho'⟩
      | true => exact Or.inr (hskip c hc hk X Y hX hY ho'))
  rw [e] at e1
  cases e1
  rw [cellPixel_congr m, m.regular.width, m.regular.height]
  exact a

/-- What is known at any time. -/
structure SInv (ink : Ink) (st : St) : Prop where
  reach : Reachable st.scr
  faces : st.faces.Ok ink
  rend : st.rend.Sound
  shown : st.stale = false → st.rend.age = 0 ∨ ∃ s0 calls s1 cs, Reachable s0 ∧
    s0.draw = .ok (calls, st.rend.age, s1) ∧ (∀ c ∈ cs, c.Valid) ∧ (∀ c ∈ cs, c.tracked st.restyled = true) ∧
    runAll cs s1 = .ok st.scr ∧ Painted ink st.faces st.rend calls

theorem tracked_mono {d d' : Bool} {c : Call} (h : c.tracked d = true) : c.tracked (d || d') = true := by
  cases d with
  | true => exact h
  | false =>
    cases c <;> first | exact h | cases h

theorem runAll_append_one {cs : List Call} {s0 s s' : Screen} {c : Call} (e : runAll cs s0 = .ok s)
    (e' : c.run s = .ok s') : runAll (cs ++ [c]) s0 = .ok s' := by
  induction cs generalizing s0 with
  | nil =>
    injection e with e
    subst e
    show (do let s ← c.run s0; runAll [] s) = _
    rw [e']
    rfl
  | cons d ds ih =>
    rw [runAll] at e
    obtain ⟨s1, e1, e2⟩ := bind_ok e
    show (do let s ← d.run s0; runAll (ds ++ [c]) s) = _
    rw [e1]
    exact ih e2

theorem realloc_age {w h : Nat} {r : Rend} (e : realloc true w h = .ok (some r)) : r.age = 0 := by
  unfold realloc at e
  dsimp only at e
  generalize (if w = 0 then 1 else w) = w at e
  generalize (if h = 0 then 1 else h) = h at e
  split at e
  · obtain ⟨_, _, e⟩ := bind_ok e
    cases e
  · obtain ⟨_, _, e⟩ := bind_ok e
    split at e
    · injection e with e
      injection e with e
      rw [← e]
    · injection e with e
      cases e

theorem realloc_sound' {w h : Nat} {r : Rend} (hf : 4 * (max w 1 * max h 1) < 2147483648)
    (e : realloc true w h = .ok (some r)) : r.Sound := by
  obtain ⟨o, e1, ho⟩ := realloc_sound (ok := true) hf
  rw [e] at e1
  cases e1
  exact ho r rfl

/-- The cells a drawing skips show what they should. -/
theorem skipped_shown {ink : Ink} {st : St} (hi : SInv ink st) (hs : st.stale = false) {calls : List DrawCall} {age : Nat}
    {s : Screen} (e : st.scr.draw = .ok (calls, age, s)) (hres : st.restyled = true → age ≠ st.rend.age ∨ st.scr.sbPos = none) :
    ∀ c ∈ calls, skips st.rend c = true → ∀ X Y, X < st.rend.width → Y < st.rend.height → Owns st.faces c X Y →
      st.rend.at X Y = some (cellPixel ink st.faces c (X - c.x * st.faces.regular.width)
        (Y - c.y * st.faces.regular.height)) := by
  intro c hc hk X Y hX hY ho
  unfold skips at hk
  rw [Bool.and_eq_true, Bool.and_eq_true, decide_eq_true_iff, decide_eq_true_iff, decide_eq_true_iff] at hk
  rcases hi.shown hs with h0 | ⟨s0, calls0, s1, cs, r0, e0, hv, htr, erun, hp⟩
  · exact absurd h0 hk.1.2
  · have hx := Props.Screen.tracks_core r0 hv htr e0 erun e hres
    have hsz : ∃ c0 ∈ calls0, c0.x = c.x ∧ c0.y = c.y := by
      have g0 := draw_positions r0 e0
      have g1 := draw_positions hi.reach e
      obtain ⟨p1, p2⟩ := g1.inside c hc
      have hr1 : Reachable s1 := by
        refine r0.step (c := .draw) trivial ?_
        show (do let r ← s0.draw; return r.2.2 : R Screen) = _
        rw [e0]
        rfl
      have hdim : st.scr.sizeX = s1.sizeX ∧ st.scr.sizeY = s1.sizeY := by
        refine (Props.Screen.C71_history erun).2.1 fun d hd => ?_
        have := htr d hd
        cases d with
        | resize x y => cases this
        | _ => rfl
      have hd0 : s1.sizeX = s0.sizeX ∧ s1.sizeY = s0.sizeY := by
        rw [draw_eq r0.inv.geo] at e0
        injection e0 with e0
        injection e0 with _ e0
        injection e0 with _ e0
        rw [← e0]
        exact ⟨rfl, rfl⟩
      exact g0.all c.y c.x (by rw [← hd0.2, ← hdim.2]; exact p2) (by rw [← hd0.1, ← hdim.1]; exact p1)
    obtain ⟨c0, hc0, x0, y0⟩ := hsz
    have hl : Props.Screen.sameLook c0 c := by
      refine Classical.byContradiction fun hn => ?_
      have := hx c0 hc0 c hc x0.symm y0.symm hn
      omega
    obtain ⟨l1, l2, l3, l4, l5⟩ := hl
    have ho0 : Owns st.faces c0 X Y := by
      refine ⟨?_, ?_, ?_, ?_⟩
      · rw [x0]; exact ho.left
      · rw [x0, l3]; exact ho.right
      · rw [y0]; exact ho.top
      · rw [y0]; exact ho.bottom
    rw [hp c0 hc0 X Y hX hY ho0, x0, y0]
    congr 1
    unfold cellPixel
    rw [l1, l2, l3, l4]

/-- A call of the screen. -/
theorem SInv.call {ink : Ink} {st : St} (ih : SInv ink st) {c : Call} {s : Screen} (hv : c.Valid) (hd : c ≠ .draw)
    (hrs : ∀ x y, c ≠ .resize x y) (e : c.run st.scr = .ok s) :
    SInv ink { st with scr := s, restyled := st.restyled || isSetDefAttr c } := by
  refine ⟨ih.reach.step hv e, ih.faces, ih.rend, fun hst => ?_⟩
  rcases ih.shown hst with h0 | ⟨s0, calls, s1, cs, r0, e0, hvs, htr, erun, hp⟩
  · exact Or.inl h0
  · refine Or.inr ⟨s0, calls, s1, cs ++ [c], r0, e0, ?_, ?_, runAll_append_one erun e, hp⟩
    · intro d hdm
      rcases List.mem_append.mp hdm with h | h
      · exact hvs d h
      · rw [List.mem_singleton.mp h]; exact hv
    · intro d hdm
      show d.tracked (st.restyled || isSetDefAttr c) = true
      rcases List.mem_append.mp hdm with h | h
      · exact tracked_mono (htr d h)
      · rw [List.mem_singleton.mp h]
        cases c with
        | draw => exact absurd rfl hd
        | resize x y => exact absurd rfl (hrs x y)
        | setDefAttr a => exact Bool.or_true _
        | _ => rfl

/-- A new window. -/
theorem SInv.start {ink : Ink} {s : Screen} {fs : Faces} {w h : Nat} {r : Rend} (hr : Reachable s) (hf : fs.Ok ink)
    (hfit : 4 * (max w 1 * max h 1) < 2147483648) (e : realloc true w h = .ok (some r)) :
    SInv ink ⟨s, fs, r, false, false⟩ :=
  ⟨hr, hf, realloc_sound' hfit e, fun _ => Or.inl (realloc_age e)⟩

/-- A drawing. -/
theorem SInv.draw {ink : Ink} {st : St} (ih : SInv ink st) {calls : List DrawCall} {age : Nat} {s : Screen} {fs : Faces}
    {r : Rend} {stale : Bool} (e : st.scr.draw = .ok (calls, age, s))
    (er : rendererDraw ink false st.faces st.rend calls age = .ok (fs, r))
    (ht : stale = false → st.stale = false ∧ Tidy st calls age) : SInv ink ⟨s, fs, r, false, stale⟩ := by
  have hreach : Reachable s := by
    refine ih.reach.step (c := .draw) trivial ?_
    show (do let r ← st.scr.draw; return r.2.2 : R Screen) = _
    rw [e]
    rfl
  unfold rendererDraw at er
  obtain ⟨⟨fs1, r1⟩, e1, er⟩ := bind_ok er
  injection er with er
  injection er with h1 h2
  subst h1 h2
  have hdr := draw_drawn ih.reach e
  obtain ⟨_, _, e2, _, _, s2⟩ := drawCells_ok (ink := ink) (debug := false) calls ih.faces.sound ih.rend
  rw [e1] at e2
  cases e2
  have hs1 := s2.sound ih.rend
  refine ⟨hreach, drawCells_faces calls ih.faces hdr e1, ⟨hs1.stride, hs1.cap, hs1.small, hs1.w32, hs1.h32⟩, fun hst => ?_⟩
  obtain ⟨hst0, htidy⟩ := ht hst
  refine Or.inr ⟨st.scr, calls, s, [], ih.reach, e, by simp, by simp, rfl, ?_⟩
  exact (tidy_painted htidy (draw_positions ih.reach e) hdr (.refl _) ih.faces ih.rend
    (skipped_shown ih hst0 e htidy.restyled) e1).1

/-- A drawing with marks. -/
theorem SInv.mark {ink : Ink} {st : St} (ih : SInv ink st) {calls : List DrawCall} {age : Nat} {s : Screen} {fs : Faces}
    {r : Rend} (e : st.scr.draw = .ok (calls, age, s)) (er : rendererDraw ink true st.faces st.rend calls age = .ok (fs, r)) :
    SInv ink ⟨s, fs, r, false, true⟩ := by
  have hreach : Reachable s := by
    refine ih.reach.step (c := .draw) trivial ?_
    show (do let r ← st.scr.draw; return r.2.2 : R Screen) = _
    rw [e]
    rfl
  unfold rendererDraw at er
  obtain ⟨⟨fs1, r1⟩, e1, er⟩ := bind_ok er
  injection er with er
  injection er with h1 h2
  subst h1 h2
  obtain ⟨_, _, e2, _, _, s2⟩ := drawCells_ok (ink := ink) (debug := true) calls ih.faces.sound ih.rend
  rw [e1] at e2
  cases e2
  have hs1 := s2.sound ih.rend
  exact ⟨hreach, drawCells_faces calls ih.faces (draw_drawn ih.reach e) e1, ⟨hs1.stride, hs1.cap, hs1.small, hs1.w32, hs1.h32⟩,
    fun h => by cases h⟩

theorem session_inv {ink : Ink} {st : St} (h : Session ink st) : SInv ink st := by
  induction h with
  | start hr hf _ _ hfit e => exact .start hr (freshFaces_ok hf) hfit e
  | call _ hv hd hrs e ih => exact ih.call hv hd hrs e
  | font _ hf ih => exact ⟨ih.reach, freshFaces_ok hf, ih.rend, fun h => by cases h⟩
  | resize _ _ _ hfit er hv e ih => exact .start (ih.reach.step hv e) ih.faces hfit er
  | draw _ e er ht ih => exact ih.draw e er ht
  | mark _ e er ih => exact ih.mark e er

/-! ### C93 -/

/-- **C93** as stated: whatever was done before, each pixel of the cells is after a drawing as if
the whole screen were drawn into a new buffer with new faces. -/
def C93_claim : Prop :=
  ∀ ink st, Session ink st → ∀ calls age s, st.scr.draw = .ok (calls, age, s) →
    ∀ fs r, rendererDraw ink false st.faces st.rend calls age = .ok (fs, r) →
    ∀ w h r0, 4 * (max w 1 * max h 1) < 2147483648 → realloc true w h = .ok (some r0) → r0.width = r.width →
    r0.height = r.height → ∀ fs1 r1, rendererDraw ink false st.faces.clean r0 calls age = .ok (fs1, r1) →
    ∀ X Y, X < r.width → Y < r.height → X < st.scr.sizeX * st.faces.regular.width →
    Y < st.scr.sizeY * st.faces.regular.height → r.at X Y = r1.at X Y

theorem clean_ok {ink : Ink} {f : Face} (h : f.Ok ink) : f.clean.Ok ink :=
  ⟨⟨fun _ _ e => (nomatch e), h.sound.w32, h.sound.h32, h.sound.u32, h.sound.t32⟩, fun _ _ _ _ e => (nomatch e),
    h.under, h.small⟩

theorem cleanFaces_ok {ink : Ink} {fs : Faces} (h : fs.Ok ink) : fs.clean.Ok ink := by
  refine ⟨clean_ok h.regular, ?_, ?_⟩
  · intro f e
    obtain ⟨g, e1, rfl⟩ := Option.map_eq_some_iff.mp e
    exact clean_ok (h.bold g e1)
  · intro f e
    obtain ⟨g, e1, rfl⟩ := Option.map_eq_some_iff.mp e
    exact clean_ok (h.italic g e1)

theorem clean_same (fs : Faces) : Faces.SameMetrics fs fs.clean := by
  refine ⟨⟨rfl, rfl, rfl, rfl, rfl, rfl⟩, ?_, ?_⟩
  · cases h : fs.bold with
    | none => exact Or.inl ⟨rfl, by unfold Faces.clean; rw [h]; rfl⟩
    | some f => exact Or.inr ⟨f, f.clean, rfl, by unfold Faces.clean; rw [h]; rfl, ⟨rfl, rfl, rfl, rfl, rfl, rfl⟩⟩
  · cases h : fs.italic with
    | none => exact Or.inl ⟨rfl, by unfold Faces.clean; rw [h]; rfl⟩
    | some f => exact Or.inr ⟨f, f.clean, rfl, by unfold Faces.clean; rw [h]; rfl, ⟨rfl, rfl, rfl, rfl, rfl, rfl⟩⟩

/-- What a drawing leaves, with the metrics of the faces before it. -/
theorem SInv.painted {ink : Ink} {st : St} (hi : SInv ink st) (hs : st.stale = false) {calls : List DrawCall}
    {age : Nat} {s : Screen} (e : st.scr.draw = .ok (calls, age, s)) (ht : Tidy st calls age) {fs : Faces} {r : Rend}
    (er : rendererDraw ink false st.faces st.rend calls age = .ok (fs, r)) : Painted ink st.faces r calls := by
  unfold rendererDraw at er
  obtain ⟨⟨fs1, r1⟩, e1, er⟩ := bind_ok er
  injection er with er
  injection er with h1 h2
  subst h1 h2
  obtain ⟨hp, _, m, _⟩ := tidy_painted ht (draw_positions hi.reach e) (draw_drawn hi.reach e) (.refl _) hi.faces hi.rend
    (skipped_shown hi hs e ht.restyled) e1
  intro c hc X Y hX hY ho
  have := hp c hc X Y hX hY (ho.same m)
  rw [cellPixel_congr m, m.regular.width, m.regular.height] at this
  exact this

/-- **C93** (partial: the full statement is `C93_claim`, which is false; missing are drawings that are
not tidy, and those after a change of fonts, after a drawing that is not tidy or after one with marks, until the window is
resized). Whatever was done to the screen, each pixel of the cells is after a drawing as if the whole
screen were drawn into a new buffer with new faces: skipping the cells that are not newer than the last
drawing, and keeping glyphs, makes no difference. -/
theorem C93_incremental_partial {ink : Ink} {st : St} (hse : Session ink st) (hs : st.stale = false)
    {calls : List DrawCall} {age : Nat} {s : Screen} (e : st.scr.draw = .ok (calls, age, s)) (ht : Tidy st calls age)
    {fs : Faces} {r : Rend} (er : rendererDraw ink false st.faces st.rend calls age = .ok (fs, r)) {w h : Nat}
    {r0 : Rend} (hfit : 4 * (max w 1 * max h 1) < 2147483648) (e0 : realloc true w h = .ok (some r0))
    (hw : r0.width = r.width) (hh : r0.height = r.height) {fs1 : Faces} {r1 : Rend}
    (er1 : rendererDraw ink false st.faces.clean r0 calls age = .ok (fs1, r1)) {X Y : Nat} (hX : X < r.width)
    (hY : Y < r.height) (hX' : X < st.scr.sizeX * st.faces.regular.width)
    (hY' : Y < st.scr.sizeY * st.faces.regular.height) : ∃ v, r.at X Y = some v ∧ r1.at X Y = some v := by
  have hi := session_inv hse
  have hg := draw_positions hi.reach e
  obtain ⟨c, hc, ho⟩ := owner_exists ht hg (fs := st.faces) hX' hY'
  have hp := hi.painted hs e ht er c hc X Y hX hY ho
  refine ⟨_, hp, ?_⟩
  unfold rendererDraw at er1
  obtain ⟨⟨fs2, r2⟩, e1, er1⟩ := bind_ok er1
  injection er1 with er1
  injection er1 with h1 h2
  subst h1 h2
  obtain ⟨hp2, _, m, sm⟩ := tidy_painted ht hg (draw_drawn hi.reach e) (clean_same st.faces)
    (cleanFaces_ok hi.faces) (realloc_sound' hfit e0)
    (fun c _ hk => by
      unfold skips at hk
      rw [realloc_age e0] at hk
      rw [decide_eq_false (by simp : ¬ ((0 : Nat) ≠ 0)), Bool.and_false, Bool.false_and] at hk
      cases hk) e1
  have m2 := (clean_same st.faces).trans m
  have := hp2 c hc X Y (by rw [sm.width, hw]; exact hX) (by rw [sm.height, hh]; exact hY) (ho.same m2)
  rw [cellPixel_congr m2, m2.regular.width, m2.regular.height] at this
  exact this

/-- **C93.** Every pixel of the cells belongs to exactly one of the cells that have a width. -/
theorem C93_cells_partial {ink : Ink} {st : St} (h : Session ink st) {calls : List DrawCall} {age : Nat} {s : Screen}
    (e : st.scr.draw = .ok (calls, age, s)) (ht : Tidy st calls age) {X Y : Nat}
    (hX : X < st.scr.sizeX * st.faces.regular.width) (hY : Y < st.scr.sizeY * st.faces.regular.height) :
    ∃ c ∈ calls, Owns st.faces c X Y ∧ ∀ d ∈ calls, Owns st.faces d X Y → d = c := by
  have hi := session_inv h
  have hg := draw_positions hi.reach e
  obtain ⟨c, hc, ho⟩ := owner_exists ht hg (fs := st.faces) hX hY
  exact ⟨c, hc, ho, fun d hd od => owner_unique ht hg (draw_drawn hi.reach e) hd hc od ho⟩

theorem colours_eq (a : Attr) : colours a = (foreground a, background a) := by
  unfold colours foreground background
  split <;> rfl

theorem cellPixel_shows {ink : Ink} {fs : Faces} (hf : fs.Ok ink) {c : DrawCall} (hc : Drawn c)
    (hfg : (foreground c.attr).Byte) (hbg : (background c.attr).Byte)
    (hink : ∀ k ch n b, ink k ch n = some b → ∀ o, b o < 256) (dx dy : Nat) :
    ∃ m, cellPixel ink fs c dx dy = opaque32 m ∧ m.Byte ∧ Shows ink fs c dx dy m := by
  unfold cellPixel Shows
  rw [colours_eq]
  dsimp only
  have hsm := (style_ok hf c.attr).small
  generalize fs.style c.attr = f at *
  generalize foreground c.attr = fg at *
  generalize background c.attr = bg at *
  split
  · exact ⟨fg, pack_eq hfg, hfg, rfl⟩
  · by_cases hl : c.len = 0
    · rw [if_pos hl]
      refine ⟨bg, pack_eq hbg, hbg, ?_⟩
      rw [if_pos (Or.inl hl)]
    · rw [if_neg hl]
      have hwid : f.width * c.width < 4294967296 := by
        have := Nat.mul_le_mul_left f.width hc.small
        omega
      have hu : u32 (f.width * c.width) = f.width * c.width := u32_eq hwid
      cases hg : createGlyph ink f c.ch c.width with
      | none =>
        refine ⟨bg, pack_eq hbg, hbg, ?_⟩
        split
        · rfl
        · rename_i hn
          rw [not_or, not_or] at hn
          obtain ⟨_, n1, n2⟩ := hn
          cases hk : ink f.key c.ch c.width with
          | none => rfl
          | some b =>
            exfalso
            unfold createGlyph at hg
            dsimp only at hg
            rw [hu] at hg
            have hst : ∃ st, strideFor f.format.bpp (f.width * c.width) = some st := by
              unfold strideFor
              rw [if_neg (by cases f.format <;> simp only [Format.bpp] <;> omega)]
              exact ⟨_, rfl⟩
            obtain ⟨st, hst⟩ := hst
            rw [hst] at hg
            dsimp only at hg
            rw [if_pos (by
              unfold sizeOk
              rw [decide_eq_true (by omega), decide_eq_true (by omega)]
              rfl), hk] at hg
            cases hg
      | some g =>
        obtain ⟨gs, g2, g3, g4, g5, g6⟩ := createGlyph_sound hg
        rw [hu] at g3
        have hsz : f.width * c.width ≤ 32767 ∧ f.height ≤ 32767 := by
          unfold createGlyph at hg
          dsimp only at hg
          rw [hu] at hg
          split at hg
          · cases hg
          · split at hg
            · rename_i hz
              unfold sizeOk at hz
              rw [Bool.and_eq_true, decide_eq_true_iff, decide_eq_true_iff] at hz
              exact hz
            · cases hg
        have g7 : g.stride = ((f.format.bpp * (f.width * c.width) + 7) / 8 + 3) / 4 * 4 := by
          rw [g3] at g5
          unfold strideFor at g5
          split at g5
          · cases g5
          · injection g5 with g5; exact g5.symm
        obtain ⟨m, p1, p2, p3⟩ := pxVal_spec (g := g) hfg hbg (hink _ _ _ _ g6) dy dx
        refine ⟨m, p1, p2, ?_⟩
        rw [if_neg (by omega), g6]
        dsimp only
        rw [← g7]
        have hcov : GlyphBuf.cover { format := f.format, width := f.width * c.width, stride := g.stride, height := f.height
                                     cap := 0, buffer := g.buffer } dy dx = g.cover dy dx := by
          unfold GlyphBuf.cover
          rw [g2]
        rw [hcov]
        exact p3

/-- The pixels of a cell after a drawing. -/
theorem SInv.picture {ink : Ink} (hink : ∀ k ch n b, ink k ch n = some b → ∀ o, b o < 256) {st : St}
    (hi : SInv ink st) (hs : st.stale = false) {calls : List DrawCall} {age : Nat} {s : Screen}
    (e : st.scr.draw = .ok (calls, age, s)) (ht : Tidy st calls age) {fs : Faces} {r : Rend}
    (er : rendererDraw ink false st.faces st.rend calls age = .ok (fs, r)) {c : DrawCall} (hc : c ∈ calls)
    (hfg : (foreground c.attr).Byte) (hbg : (background c.attr).Byte) {X Y : Nat} (hX : X < r.width)
    (hY : Y < r.height) (ho : Owns st.faces c X Y) :
    ∃ m, r.at X Y = some (opaque32 m) ∧ m.Byte ∧
      Shows ink st.faces c (X - c.x * st.faces.regular.width) (Y - c.y * st.faces.regular.height) m := by
  obtain ⟨m, h1, h2, h3⟩ := cellPixel_shows hi.faces (draw_drawn hi.reach e c hc) hfg hbg hink
    (X - c.x * st.faces.regular.width) (Y - c.y * st.faces.regular.height)
  refine ⟨m, ?_, h2, h3⟩
  rw [← h1]
  exact hi.painted hs e ht er c hc X Y hX hY ho

/-- **C93** (partial like `C93_incremental_partial`). After a drawing, each pixel of each cell is
opaque and has the colour of the underline, of the background, or the mixture of the two colours
according to the glyph of the character that the screen has there. -/
theorem C93_picture_partial {ink : Ink} (hink : ∀ k ch n b, ink k ch n = some b → ∀ o, b o < 256) {st : St}
    (h : Session ink st) (hs : st.stale = false) {calls : List DrawCall} {age : Nat} {s : Screen}
    (e : st.scr.draw = .ok (calls, age, s)) (ht : Tidy st calls age) {fs : Faces} {r : Rend}
    (er : rendererDraw ink false st.faces st.rend calls age = .ok (fs, r)) {c : DrawCall} (hc : c ∈ calls)
    (hfg : (foreground c.attr).Byte) (hbg : (background c.attr).Byte) {X Y : Nat} (hX : X < r.width)
    (hY : Y < r.height) (ho : Owns st.faces c X Y) :
    ∃ m, r.at X Y = some (opaque32 m) ∧ m.Byte ∧
      Shows ink st.faces c (X - c.x * st.faces.regular.width) (Y - c.y * st.faces.regular.height) m :=
  (session_inv h).picture hink hs e ht er hc hfg hbg hX hY ho

/-! ### Computed sessions -/

/-- What happens in an example. -/
inductive Ev
  | call (c : Call)
  | font (key : Nat)
  | resize (w h x y : Nat)
  | draw
  | mark

def tidyB (st : St) (calls : List DrawCall) (age : Nat) : Bool :=
  (st.faces.bold.all fun f => decide (f.width = st.faces.regular.width ∧ f.height = st.faces.regular.height)) &&
  (st.faces.italic.all fun f => decide (f.width = st.faces.regular.width ∧ f.height = st.faces.regular.height)) &&
  decide ((st.scr.sizeX + 1) * st.faces.regular.width < 4294967296) &&
  decide (st.scr.sizeY * st.faces.regular.height < 4294967296) &&
  decide (∀ c ∈ calls, c.width = 2 → ∀ d ∈ calls, d.y = c.y → d.x = c.x + 1 → d.width = 0) &&
  decide (∀ c ∈ calls, c.width = 0 → c.len = 0 ∧ ∃ d ∈ calls, d.y = c.y ∧ d.x + 1 = c.x ∧ d.width = 2) &&
  decide (st.restyled = true → age ≠ st.rend.age ∨ st.scr.sbPos = none)

theorem tidy_of {st : St} {calls : List DrawCall} {age : Nat} (h : tidyB st calls age = true) : Tidy st calls age := by
  unfold tidyB at h
  simp only [Bool.and_eq_true, decide_eq_true_iff] at h
  obtain ⟨⟨⟨⟨⟨⟨h1, h2⟩, h3⟩, h4⟩, h5⟩, h6⟩, h7⟩ := h
  refine ⟨?_, ?_, h3, h4, h5, h6, h7⟩
  · intro f e
    rw [e] at h1
    exact of_decide_eq_true h1
  · intro f e
    rw [e] at h2
    exact of_decide_eq_true h2

def Ev.run (ink : Ink) (st : St) : Ev → Option St
  | .call c =>
    if c.Valid ∧ c ≠ .draw ∧ Call.setsSize c = false then
      match c.run st.scr with
      | .ok s => some { st with scr := s, restyled := st.restyled || isSetDefAttr c }
      | .error _ => none
    else none
  | .font key => some { st with faces := ⟨{ dot with key := key }, none, none⟩, stale := true }
  | .resize w h x y =>
    if w < 4294967296 ∧ h < 4294967296 ∧ 4 * (max w 1 * max h 1) < 2147483648 ∧ (Call.resize x y).Valid then
      match realloc true w h, (Call.resize x y).run st.scr with
      | .ok (some r), .ok s => some ⟨s, st.faces, r, false, false⟩
      | _, _ => none
    else none
  | .draw =>
    match st.scr.draw with
    | .error _ => none
    | .ok (calls, age, s) =>
      match rendererDraw ink false st.faces st.rend calls age with
      | .error _ => none
      | .ok (fs, r) => some ⟨s, fs, r, false, st.stale || !tidyB st calls age⟩
  | .mark =>
    match st.scr.draw with
    | .error _ => none
    | .ok (calls, age, s) =>
      match rendererDraw ink true st.faces st.rend calls age with
      | .error _ => none
      | .ok (fs, r) => some ⟨s, fs, r, false, true⟩

theorem dotKey_fresh (key : Nat) : Faces.Fresh ⟨{ dot with key := key }, none, none⟩ :=
  ⟨⟨key, .a8, 1, 1, 0, by decide, by decide, by decide, rfl⟩, fun _ e => (nomatch e), fun _ e => (nomatch e)⟩

theorem Ev.session {ink : Ink} {st st' : St} (h : Session ink st) {v : Ev} (e : v.run ink st = some st') :
    Session ink st' := by
  cases v with
  | call c =>
    unfold Ev.run at e
    dsimp only at e
    split at e
    · rename_i hc
      cases hr : c.run st.scr with
      | error _ => rw [hr] at e; cases e
      | ok s =>
        rw [hr] at e
        injection e with e
        rw [← e]
        refine .call h hc.1 hc.2.1 ?_ hr
        intro x y hxy
        rw [hxy] at hc
        cases hc.2.2
    · cases e
  | font key =>
    injection e with e
    rw [← e]
    exact .font h (dotKey_fresh key)
  | resize w hh x y =>
    unfold Ev.run at e
    dsimp only at e
    split at e
    · rename_i hc
      cases hr : realloc true w hh with
      | error _ => rw [hr] at e; cases e
      | ok o =>
        cases o with
        | none => rw [hr] at e; cases e
        | some r =>
          cases hs : (Call.resize x y).run st.scr with
          | error _ => rw [hr, hs] at e; cases e
          | ok s =>
            rw [hr, hs] at e
            injection e with e
            rw [← e]
            exact .resize h hc.1 hc.2.1 hc.2.2.1 hr hc.2.2.2 hs
    · cases e
  | draw =>
    unfold Ev.run at e
    dsimp only at e
    cases hd : st.scr.draw with
    | error _ => rw [hd] at e; cases e
    | ok p =>
      obtain ⟨calls, age, s⟩ := p
      rw [hd] at e
      dsimp only at e
      cases hr : rendererDraw ink false st.faces st.rend calls age with
      | error _ => rw [hr] at e; cases e
      | ok q =>
        obtain ⟨fs, r⟩ := q
        rw [hr] at e
        injection e with e
        rw [← e]
        refine .draw h hd hr ?_
        intro ht
        rw [Bool.or_eq_false_iff, Bool.not_eq_false'] at ht
        exact ⟨ht.1, tidy_of ht.2⟩
  | mark =>
    unfold Ev.run at e
    dsimp only at e
    cases hd : st.scr.draw with
    | error _ => rw [hd] at e; cases e
    | ok p =>
      obtain ⟨calls, age, s⟩ := p
      rw [hd] at e
      dsimp only at e
      cases hr : rendererDraw ink true st.faces st.rend calls age with
      | error _ => rw [hr] at e; cases e
      | ok q =>
        obtain ⟨fs, r⟩ := q
        rw [hr] at e
        injection e with e
        rw [← e]
        exact .mark h hd hr

def Ev.runAll (ink : Ink) : List Ev → St → Option St
  | [], st => some st
  | v :: vs, st => (v.run ink st).bind (Ev.runAll ink vs)

theorem Ev.sessions {ink : Ink} : ∀ (vs : List Ev) {st st' : St}, Session ink st → Ev.runAll ink vs st = some st' →
    Session ink st'
  | [], st, st', h, e => by cases e; exact h
  | v :: vs, st, st', h, e => by
    rw [Ev.runAll] at e
    cases hv : v.run ink st with
    | none => rw [hv] at e; cases e
    | some st1 => rw [hv] at e; exact Ev.sessions vs (Ev.session h hv) e

/-- The last drawing of a session, and the full one. -/
def lastDraw (ink : Ink) (st : St) : Option (List DrawCall × Nat × Rend × Rend) :=
  match st.scr.draw with
  | .error _ => none
  | .ok (calls, age, _) =>
    match rendererDraw ink false st.faces st.rend calls age, realloc true st.rend.width st.rend.height with
    | .ok (_, r), .ok (some r0) =>
      match rendererDraw ink false st.faces.clean r0 calls age with
      | .ok (_, r1) =>
        if r0.width = r.width ∧ r0.height = r.height ∧ 4 * (max st.rend.width 1 * max st.rend.height 1) < 2147483648 then
          some (calls, age, r, r1)
        else none
      | .error _ => none
    | _, _ => none

/-- A new screen, changed by `cs`, in a window of `w` by `h` pixels. -/
def begins (cs : List Call) (fs : Faces) (w h : Nat) : Option St :=
  match history (fun _ => true) cs, realloc true w h with
  | .ok (some s), .ok (some r) =>
    if (∀ c ∈ cs, c.Valid) ∧ w < 4294967296 ∧ h < 4294967296 ∧ 4 * (max w 1 * max h 1) < 2147483648 then
      some ⟨s, fs, r, false, false⟩
    else none
  | _, _ => none

theorem begins_session {ink : Ink} {cs : List Call} {fs : Faces} (hf : fs.Fresh) {w h : Nat} {st : St}
    (e : begins cs fs w h = some st) : Session ink st := by
  unfold begins at e
  cases hh : history (fun _ => true) cs with
  | error _ => rw [hh] at e; cases e
  | ok o =>
    cases o with
    | none => rw [hh] at e; cases e
    | some s =>
      cases hr : realloc true w h with
      | error _ => rw [hh, hr] at e; cases e
      | ok o =>
        cases o with
        | none => rw [hh, hr] at e; cases e
        | some r =>
          rw [hh, hr] at e
          dsimp only at e
          split at e
          · rename_i hc
            injection e with e
            rw [← e]
            exact .start ⟨_, cs, hc.1, hh⟩ hf hc.2.1 hc.2.2.1 hc.2.2.2 hr
          · cases e

/-- The pixel of an example after its last drawing, and after a full one. -/
def pixels (ink : Ink) (cs : List Call) (fs : Faces) (w h : Nat) (vs : List Ev) (X Y : Nat) :
    Option (Option Nat × Option Nat) :=
  ((begins cs fs w h).bind (Ev.runAll ink vs)).bind fun st => (lastDraw ink st).bind fun q =>
    if X < q.2.2.1.width ∧ Y < q.2.2.1.height ∧ X < st.scr.sizeX * st.faces.regular.width ∧
      Y < st.scr.sizeY * st.faces.regular.height then some (q.2.2.1.at X Y, q.2.2.2.at X Y) else none

theorem refuted93 {ink : Ink} {cs : List Call} {fs : Faces} (hf : fs.Fresh) {w h : Nat} {vs : List Ev} {X Y : Nat}
    (hp : (match pixels ink cs fs w h vs X Y with | some (a, b) => decide (a ≠ b) | none => false) = true) :
    ¬ C93_claim := by
  intro hc
  unfold pixels at hp
  cases hb : begins cs fs w h with
  | none => rw [hb] at hp; cases hp
  | some st0 =>
    rw [hb, Option.bind_some] at hp
    cases hr : Ev.runAll ink vs st0 with
    | none => rw [hr] at hp; cases hp
    | some st =>
      rw [hr, Option.bind_some] at hp
      have hs := Ev.sessions vs (begins_session (ink := ink) hf hb) hr
      unfold lastDraw at hp
      cases hd : st.scr.draw with
      | error _ => rw [hd] at hp; cases hp
      | ok p =>
        obtain ⟨calls, age, s⟩ := p
        rw [hd] at hp
        dsimp only at hp
        cases h1 : rendererDraw ink false st.faces st.rend calls age with
        | error _ => rw [h1] at hp; cases hp
        | ok q =>
          obtain ⟨fs', r⟩ := q
          rw [h1] at hp
          cases h2 : realloc true st.rend.width st.rend.height with
          | error _ => rw [h2] at hp; cases hp
          | ok o =>
            cases o with
            | none => rw [h2] at hp; cases hp
            | some r0 =>
              rw [h2] at hp
              dsimp only at hp
              cases h3 : rendererDraw ink false st.faces.clean r0 calls age with
              | error _ => rw [h3] at hp; cases hp
              | ok q1 =>
                obtain ⟨fs1, r1⟩ := q1
                rw [h3] at hp
                dsimp only at hp
                by_cases h4 : r0.width = r.width ∧ r0.height = r.height ∧
                    4 * (max st.rend.width 1 * max st.rend.height 1) < 2147483648
                · rw [if_pos h4, Option.bind_some] at hp
                  dsimp only at hp
                  by_cases h5 : X < r.width ∧ Y < r.height ∧ X < st.scr.sizeX * st.faces.regular.width ∧
                      Y < st.scr.sizeY * st.faces.regular.height
                  · rw [if_pos h5] at hp
                    exact of_decide_eq_true hp (hc ink st hs calls age s hd fs' r h1 _ _ r0 h4.2.2 h2 h4.1 h4.2.1 fs1 r1 h3
                      X Y h5.1 h5.2.1 h5.2.2.1 h5.2.2.2)
                  · rw [if_neg h5] at hp; cases hp
                · rw [if_neg h4] at hp; cases hp

/-- Glyphs whose coverage depends on font, character and column. -/
def blot : Ink := fun key ch n => some fun o => (50 * key + ch + 7 * n + 13 * o) % 256

/-- White on black. -/
def plain : Attr := { Attr.zero with fr := 255, fg := 255, fb := 255 }

def say (a : Attr) (cs : List Nat) : List Ev := cs.map fun c => .call (.write c a)

/-- **C93 is false**: after a change of the font nothing is redrawn. -/
theorem C93_false_font : ¬ C93_claim :=
  refuted93 (ink := blot) (cs := [.resize 3 1]) dots_fresh (w := 3) (h := 1) (X := 0) (Y := 0)
    (vs := say plain [0x61] ++ [.draw, .font 1]) (by decide +kernel)

/-- **C93 is false**: the frames of `show-dirty` stay when it is switched off, since the cells have not changed. -/
theorem C93_false_frames : ¬ C93_claim :=
  refuted93 (ink := blot) (cs := [.resize 3 1]) dots_fresh (w := 3) (h := 1) (X := 0) (Y := 0)
    (vs := say plain [0x61] ++ [.mark]) (by decide +kernel)

/-- **C93 is false**: the character that was in the cell right of a wide character is drawn over it,
if its glyph is known already. -/
theorem C93_false_covered : ¬ C93_claim :=
  refuted93 (ink := blot) (cs := [.resize 3 1]) dots_fresh (w := 3) (h := 1) (X := 1) (Y := 0)
    (vs := say plain [0x61, 0x62] ++ [.draw, .call (.moveTo 0 0)] ++ say plain [0x4e00]) (by decide +kernel)

/-- **C93 is false**: the right half of a wide character stays when its left half is overwritten. -/
theorem C93_false_orphan : ¬ C93_claim :=
  refuted93 (ink := blot) (cs := [.resize 3 1]) dots_fresh (w := 3) (h := 1) (X := 1) (Y := 0)
    (vs := say plain [0x4e00] ++ [.draw, .call (.moveTo 0 0)] ++ say plain [0x61] ++ [.call (.moveTo 2 0)]) (by decide +kernel)

/-- **C93 is false**: a wide character whose right half was overwritten is drawn over the character
there when the cursor moves to it. -/
theorem C93_false_overlap : ¬ C93_claim :=
  refuted93 (ink := blot) (cs := [.resize 4 1]) dots_fresh (w := 4) (h := 1) (X := 1) (Y := 0)
    (vs := say plain [0x4e00] ++ [.call (.moveTo 1 0)] ++ say plain [0x62] ++ [.draw, .call (.moveTo 0 0)])
    (by decide +kernel)

theorem dots2_fresh : Faces.Fresh ⟨dot, some { dot with key := 1, width := 2 }, none⟩ :=
  ⟨dot_fresh, fun f e => by
    injection e with e
    rw [← e]
    exact ⟨1, .a8, 89, 1, 0, by decide, by decide, by decide, rfl⟩, fun _ e => (nomatch e)⟩

/-- **C93 is false**: a bold face with wider cells draws over the cell on the right. -/
theorem C93_false_bold : ¬ C93_claim :=
  refuted93 (ink := blot) (cs := [.resize 4 1]) dots2_fresh (w := 4) (h := 1) (X := 1) (Y := 0)
    (vs := say { plain with bold := true } [0x61] ++ say plain [0x62] ++ [.draw, .call (.moveTo 0 0)])
    (by decide +kernel)

/-- A tidy session with a wide character, in which the second drawing skips cells; the full drawing
shows the same. -/
example : ∃ st calls age s, Session blot st ∧ st.stale = false ∧ st.scr.draw = .ok (calls, age, s) ∧
    Tidy st calls age ∧ (calls.any fun c => skips st.rend c && decide (c.width = 2)) = true := by
  have h : (match (begins [.resize 5 2] ⟨dot, none, none⟩ 5 2).bind (Ev.runAll blot
      (say plain [0x61, 0x4e00] ++ [.draw] ++ say plain [0x62])) with
    | none => false
    | some st => match st.scr.draw with
      | .error _ => false
      | .ok (calls, age, _) => !st.stale && tidyB st calls age &&
        calls.any fun c => skips st.rend c && decide (c.width = 2)) = true := by decide +kernel
  cases hb : (begins [.resize 5 2] ⟨dot, none, none⟩ 5 2).bind (Ev.runAll blot
      (say plain [0x61, 0x4e00] ++ [.draw] ++ say plain [0x62])) with
  | none => rw [hb] at h; cases h
  | some st =>
    rw [hb] at h
    dsimp only at h
    cases hd : st.scr.draw with
    | error _ => rw [hd] at h; cases h
    | ok p =>
      obtain ⟨calls, age, s⟩ := p
      rw [hd] at h
      dsimp only at h
      rw [Bool.and_eq_true, Bool.and_eq_true, Bool.not_eq_true'] at h
      cases hg : begins [.resize 5 2] ⟨dot, none, none⟩ 5 2 with
      | none => rw [hg] at hb; cases hb
      | some st0 =>
        rw [hg, Option.bind_some] at hb
        exact ⟨st, calls, age, s, Ev.sessions _ (begins_session dots_fresh hg) hb, h.1.1, hd, tidy_of h.1.2, h.2⟩

end Verif.Props.Gtk
