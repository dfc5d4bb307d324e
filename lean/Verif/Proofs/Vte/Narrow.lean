import Verif.Spec.Window

/-!
Programs that use no wide characters leave only narrow cells, in colours that exist.
-/

namespace Verif
namespace Canvas

theorem zero_coloured {a : Attr} (h : a.Coloured) (b : Bool) : ({ a with inverse := b } : Attr).Coloured :=
  ⟨h.fr, h.fg, h.fb, h.br, h.bg, h.bb⟩

theorem plain_coloured {d a : Attr} (hd : d.Coloured) (ha : a.Coloured) (p : Int) : (Sgr.plain d a p).Coloured := by
  have pick : ∀ {c : Prop} [Decidable c] {x y : Nat}, x < 256 → y < 256 → (if c then x else y) < 256 := by
    intro c _ x y hx hy
    split
    · exact hx
    · exact hy
  exact ⟨pick hd.fr ha.fr, pick hd.fg ha.fg, pick hd.fb ha.fb, pick hd.br ha.br, pick hd.bg ha.bg, pick hd.bb ha.bb⟩

theorem level_byte {k : Nat} (h : k < 6) : Sgr.level k < 256 := by
  unfold Sgr.level
  split <;> omega

/-- RGB colours have bytes. -/
def Byte : Sgr.Colour → Prop
  | .entry _ => True
  | .rgb r g b => r < 256 ∧ g < 256 ∧ b < 256

theorem indexed_byte (n : Nat) : Byte (Sgr.indexed n) := by
  unfold Sgr.indexed
  split
  · trivial
  · split
    · exact ⟨level_byte (by omega), level_byte (by omega), level_byte (by omega)⟩
    · exact ⟨Nat.mod_lt _ (by decide), Nat.mod_lt _ (by decide), Nat.mod_lt _ (by decide)⟩

theorem extended_byte {ps : List Int} {c : Sgr.Colour} {n : Nat} (h : Sgr.extended ps = some (c, n)) : Byte c := by
  unfold Sgr.extended at h
  split at h
  · split at h
    · split at h
      · injection h with h
        injection h with h _
        subst h
        exact indexed_byte _
      · cases h
    · split at h
      · split at h
        · split at h
          · injection h with h
            injection h with h _
            subst h
            exact ⟨Nat.mod_lt _ (by decide), Nat.mod_lt _ (by decide), Nat.mod_lt _ (by decide)⟩
          · cases h
        · cases h
      · cases h
  · cases h

theorem withFore_coloured {a : Attr} (ha : a.Coloured) {c : Sgr.Colour} (hc : Byte c) : (Sgr.withFore a c).Coloured := by
  cases c with
  | entry k => exact ⟨(by decide : 0 < 256), (by decide : 0 < 256), (by decide : 0 < 256), ha.br, ha.bg, ha.bb⟩
  | rgb r g b => exact ⟨hc.1, hc.2.1, hc.2.2, ha.br, ha.bg, ha.bb⟩

theorem withBack_coloured {a : Attr} (ha : a.Coloured) {c : Sgr.Colour} (hc : Byte c) : (Sgr.withBack a c).Coloured := by
  cases c with
  | entry k => exact ⟨ha.fr, ha.fg, ha.fb, (by decide : 0 < 256), (by decide : 0 < 256), (by decide : 0 < 256)⟩
  | rgb r g b => exact ⟨ha.fr, ha.fg, ha.fb, hc.1, hc.2.1, hc.2.2⟩

theorem groups_coloured {d : Attr} (hd : d.Coloured) : ∀ (k : Nat) (ps : List Int) {a : Attr}, a.Coloured →
    (Sgr.groups d k a ps).Coloured := by
  intro k
  induction k with
  | zero => exact fun ps a ha => by unfold Sgr.groups; exact ha
  | succ k ih =>
    intro ps a ha
    cases ps with
    | nil => unfold Sgr.groups; exact ha
    | cons p ps =>
      unfold Sgr.groups
      split
      · split
        · rename_i c n he
          refine ih _ ?_
          split
          · exact withFore_coloured ha (extended_byte he)
          · exact withBack_coloured ha (extended_byte he)
        · exact ih _ ha
      · exact ih _ (plain_coloured hd ha p)

theorem entry_byte {p : List (Nat × Nat × Nat)} (hp : ∀ c ∈ p, c.1 < 256 ∧ c.2.1 < 256 ∧ c.2.2 < 256) (n : Nat) :
    ((p[n]?).getD (0, 0, 0)).1 < 256 ∧ ((p[n]?).getD (0, 0, 0)).2.1 < 256 ∧ ((p[n]?).getD (0, 0, 0)).2.2 < 256 := by
  cases h : p[n]? with
  | none => exact ⟨(by decide : 0 < 256), (by decide : 0 < 256), (by decide : 0 < 256)⟩
  | some c => exact hp c (List.mem_of_getElem? h)

theorem resolve_coloured {p : List (Nat × Nat × Nat)} (hp : ∀ c ∈ p, c.1 < 256 ∧ c.2.1 < 256 ∧ c.2.2 < 256) {a : Attr}
    (ha : a.Coloured) : (Sgr.resolve p a).Coloured := by
  unfold Sgr.resolve
  have h1 : ∀ n : Nat, ∀ (q : Prop) [Decidable q] (z : Nat × Nat × Nat), z.1 < 256 ∧ z.2.1 < 256 ∧ z.2.2 < 256 →
      (if q then (p[n]?).getD (0, 0, 0) else z).1 < 256 ∧ (if q then (p[n]?).getD (0, 0, 0) else z).2.1 < 256 ∧
        (if q then (p[n]?).getD (0, 0, 0) else z).2.2 < 256 := by
    intro n q _ z hz
    split
    · exact entry_byte hp n
    · exact hz
  have f := h1 (Sgr.foreEntry a).toNat (0 ≤ a.fccode) (a.fr, a.fg, a.fb) ⟨ha.fr, ha.fg, ha.fb⟩
  have b := h1 a.bccode.toNat (0 ≤ a.bccode) (a.br, a.bg, a.bb) ⟨ha.br, ha.bg, ha.bb⟩
  exact ⟨f.1, f.2.1, f.2.2, b.1, b.2.1, b.2.2⟩

theorem blank_narrow {c : Canvas} (h : c.pen.Coloured) : c.blank.Narrow := ⟨rfl, (by decide : 0 ≤ 0x10ffff), h⟩

theorem blankAt_narrow {c : Canvas} (h : c.pen.Coloured) {i j : Nat} {g : Glyph} (e : c.blankAt i j = some g) : g.Narrow := by
  unfold blankAt at e
  split at e
  · injection e with e
    subst e
    exact blank_narrow h
  · cases e

/-- Only the cells change. -/
theorem Fine.cells {c : Canvas} (h : Fine c) {f : Nat → Nat → Option Glyph} (hf : ∀ i j g, f i j = some g → g.Narrow) :
    Fine { c with cell := f } := ⟨hf, h.pen, h.base, h.saved, h.palette, h.main⟩

theorem Fine.fill {c : Canvas} (h : Fine c) (P : Nat → Nat → Bool) : Fine (c.fill P) := by
  refine h.cells ?_
  intro i j g e
  split at e
  · cases hc : c.cell i j with
    | none => rw [hc] at e; cases e
    | some d =>
      rw [hc] at e
      injection e with e
      subst e
      exact blank_narrow h.pen
  · exact h.cell i j g e

theorem Fine.rowsUp {c : Canvas} (h : Fine c) (lo hi n : Nat) : Fine (c.rowsUp lo hi n) := by
  refine h.cells ?_
  intro i j g e
  split at e
  · split at e
    · exact h.cell _ _ g e
    · exact blankAt_narrow h.pen e
  · exact h.cell i j g e

theorem Fine.rowsDown {c : Canvas} (h : Fine c) (lo hi n : Nat) : Fine (c.rowsDown lo hi n) := by
  refine h.cells ?_
  intro i j g e
  split at e
  · split at e
    · exact h.cell _ _ g e
    · exact blankAt_narrow h.pen e
  · exact h.cell i j g e

/-- Cursor, margins, tab stops and modes do not matter. -/
theorem Fine.same {c d : Canvas} (h : Fine c) (h1 : d.cell = c.cell) (h2 : d.pen = c.pen) (h3 : d.base = c.base)
    (h4 : d.saved.pen = c.saved.pen) (h5 : d.palette = c.palette) (h6 : d.main = c.main) : Fine d :=
  ⟨by rw [h1]; exact h.cell, by rw [h2]; exact h.pen, by rw [h3]; exact h.base, by rw [h4]; exact h.saved,
    by rw [h5]; exact h.palette, by rw [h6]; exact h.main⟩

theorem Fine.at {c : Canvas} (h : Fine c) (x y : Nat) : Fine { c with x := x, y := y } := h.same rfl rfl rfl rfl rfl rfl

theorem Fine.lineFeed {c : Canvas} (h : Fine c) : Fine c.lineFeed := by
  unfold Canvas.lineFeed
  split
  · exact h.rowsUp _ _ _
  · exact h.same rfl rfl rfl rfl rfl rfl

theorem Fine.reverseFeed {c : Canvas} (h : Fine c) : Fine c.reverseFeed := by
  unfold Canvas.reverseFeed
  split
  · exact h.rowsDown _ _ _
  · exact h.same rfl rfl rfl rfl rfl rfl

theorem Fine.wrap {c : Canvas} (h : Fine c) (wd : Nat) : Fine (c.wrap wd) := by
  unfold Canvas.wrap
  split
  · split
    · exact h.lineFeed.same rfl rfl rfl rfl rfl rfl
    · exact h
  · exact h.same rfl rfl rfl rfl rfl rfl

theorem Fine.put {c : Canvas} (h : Fine c) {g : Nat} (hg : g ≤ 0x10ffff) : Fine (c.put g 1) := by
  refine ⟨?_, h.pen, h.base, h.saved, h.palette, h.main⟩
  intro i j d e
  unfold Canvas.put at e
  dsimp only at e
  split at e
  · rename_i hc
    split at e
    · injection e with e
      subst e
      exact ⟨rfl, hg, h.pen⟩
    · rename_i hj
      split at e
      · omega
      · split at e
        · exact h.cell _ _ d e
        · exact h.cell _ _ d e
  · exact h.cell _ _ d e

theorem Fine.insertChars {c : Canvas} (h : Fine c) (m : Nat) : Fine { c with
    x := c.col
    cell := fun i j =>
      if i = c.y ∧ c.col ≤ j ∧ j < c.w then if c.col + m ≤ j then c.cell i (j - m) else c.blankAt i j else c.cell i j } := by
  refine ⟨?_, h.pen, h.base, h.saved, h.palette, h.main⟩
  intro i j d e
  dsimp only at e
  split at e
  · split at e
    · exact h.cell _ _ d e
    · exact blankAt_narrow h.pen e
  · exact h.cell _ _ d e

theorem Fine.deleteChars {c : Canvas} (h : Fine c) (m : Nat) : Fine { c with
    x := c.col
    cell := fun i j =>
      if i = c.y ∧ c.col ≤ j ∧ j < c.w then if j + m < c.w then c.cell i (j + m) else c.blankAt i j else c.cell i j } := by
  refine ⟨?_, h.pen, h.base, h.saved, h.palette, h.main⟩
  intro i j d e
  dsimp only at e
  split at e
  · split at e
    · exact h.cell _ _ d e
    · exact blankAt_narrow h.pen e
  · exact h.cell _ _ d e

theorem fine_ite {p : Prop} [Decidable p] {a b : Canvas} (ha : Fine a) (hb : Fine b) : Fine (if p then a else b) := by
  split
  · exact ha
  · exact hb

theorem Fine.csi {c : Canvas} (h : Fine c) (n : Nat) (k : Char) : Fine (c.csi n k) := by
  unfold Canvas.csi
  dsimp only
  repeat' apply fine_ite
  all_goals first
    | exact h
    | exact h.fill _
    | exact h.rowsUp _ _ _
    | exact h.rowsDown _ _ _
    | exact h.insertChars _
    | exact h.deleteChars _
    | exact (h.rowsDown _ _ _).same rfl rfl rfl rfl rfl rfl
    | exact (h.rowsUp _ _ _).same rfl rfl rfl rfl rfl rfl
    | exact h.same rfl rfl rfl rfl rfl rfl

theorem shown_le {c : Canvas} {g : Nat} (h : g ≤ 0x10ffff) : c.shown g ≤ 0x10ffff := by
  unfold Canvas.shown
  split
  · rename_i hh
    have hc : ∀ n < 94, ∀ k ∈ [Charset.ascii, .lines, .latin], k.char (n + 33) ≤ 0x10ffff := by decide +kernel
    have := hc (g - 33) (by omega) c.sets.current (by cases c.sets.current <;> simp)
    rw [show g - 33 + 33 = g by omega] at this
    exact this
  · exact h

theorem Fine.step {c : Canvas} (h : Fine c) {a : Cmd} {n : Nat} (hv : a.Valid n) (ha : a.Thin) : Fine (c.step a) := by
  have same : ∀ {d : Canvas}, d.cell = c.cell → d.pen = c.pen → d.base = c.base → d.saved.pen = c.saved.pen →
      d.palette = c.palette → d.main = c.main → Fine d := fun h1 h2 h3 h4 h5 h6 => h.same h1 h2 h3 h4 h5 h6
  cases a with
  | text g wd =>
    unfold Canvas.step
    dsimp only
    split
    · exact h
    · have hw : wd = 1 := by
        have : wd ≤ 1 := ha
        omega
      subst hw
      refine (h.wrap 1).put ?_
      have := hv.1
      unfold Spec.Utf8.Encodable at this
      exact shown_le (by omega)
  | carriageReturn => exact same rfl rfl rfl rfl rfl rfl
  | lineFeed =>
    unfold Canvas.step
    dsimp only
    split
    · exact h.lineFeed.same rfl rfl rfl rfl rfl rfl
    · exact h.lineFeed
  | backspace => exact same rfl rfl rfl rfl rfl rfl
  | tab => exact same rfl rfl rfl rfl rfl rfl
  | index => exact h.lineFeed
  | nextLine => exact h.lineFeed.same rfl rfl rfl rfl rfl rfl
  | reverseFeed => exact h.reverseFeed
  | goto r k => exact same rfl rfl rfl rfl rfl rfl
  | csi q k => exact h.csi _ _
  | style ps =>
    exact ⟨h.cell, resolve_coloured h.palette (groups_coloured h.base _ _ h.pen), h.base, h.saved, h.palette, h.main⟩
  | region t b => exact same rfl rfl rfl rfl rfl rfl
  | setTab => exact same rfl rfl rfl rfl rfl rfl
  | insert on => exact same rfl rfl rfl rfl rfl rfl
  | autowrap on => exact same rfl rfl rfl rfl rfl rfl
  | newline on => exact same rfl rfl rfl rfl rfl rfl
  | origin on => exact same rfl rfl rfl rfl rfl rfl
  | save => exact ⟨h.cell, h.pen, h.base, h.pen, h.palette, h.main⟩
  | restore => exact ⟨h.cell, h.saved, h.base, h.saved, h.palette, h.main⟩
  | enter =>
    unfold Canvas.step
    dsimp only
    split
    · refine ⟨fun i j g e => blankAt_narrow h.pen e, h.pen, h.base, h.saved, h.palette, ?_⟩
      intro p e
      injection e with e
      subst e
      exact h.cell
    · exact ⟨fun i j g e => blankAt_narrow h.pen e, h.pen, h.base, h.saved, h.palette, h.main⟩
  | leave =>
    unfold Canvas.step
    dsimp only
    split
    · exact h
    · rename_i cell x y e
      exact ⟨h.main _ e, h.pen, h.base, h.saved, h.palette, fun p e => (nomatch e)⟩
  | charset one lines => exact same rfl rfl rfl rfl rfl rfl
  | shift out => exact same rfl rfl rfl rfl rfl rfl
  | cursor on => exact same rfl rfl rfl rfl rfl rfl
  | reverse on => exact same rfl rfl rfl rfl rfl rfl
  | arrows on => exact same rfl rfl rfl rfl rfl rfl
  | keypad on => exact same rfl rfl rfl rfl rfl rfl
  | echo on => exact same rfl rfl rfl rfl rfl rfl
  | other q on => exact h
  | ask q => exact h

theorem Fine.run : ∀ (l : List Cmd) {c : Canvas} {n : Nat}, Fine c → (∀ a ∈ l, a.Valid n ∧ a.Thin) → Fine (c.run l)
  | [], _, _, h, _ => h
  | a :: l, c, n, h, hl => by
    show Fine ((c.step a).run l)
    exact Fine.run l (h.step (hl a (List.mem_cons_self ..)).1 (hl a (List.mem_cons_self ..)).2)
      (fun b hb => hl b (List.mem_cons_of_mem _ hb))

theorem initial_fine {w h : Nat} {base : Attr} {p : List (Nat × Nat × Nat)} (hb : base.Coloured)
    (hp : ∀ k ∈ p, k.1 < 256 ∧ k.2.1 < 256 ∧ k.2.2 < 256) : Fine (Canvas.initial w h base p) := by
  refine ⟨?_, hb, hb, hb, hp, fun p e => (nomatch e)⟩
  intro i j g e
  unfold Canvas.initial at e
  dsimp only at e
  split at e
  · injection e with e
    subst e
    exact ⟨rfl, (by decide : 0 ≤ 0x10ffff), hb⟩
  · cases e

end Canvas
end Verif
