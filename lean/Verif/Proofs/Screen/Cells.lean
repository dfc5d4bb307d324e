import Verif.Model.ScreenApi
import Verif.Spec.View

/-!
# Where glyphs come from

A predicate on glyphs that holds for blank cells with the default attributes and for everything
written, and that survives a change of the width to 0, holds for all cells at all times. The
operations need not be memory safe for this: it is about the cells after a successful call.
-/

namespace Verif

/-- The result satisfies `P`, if there is one. -/
@[reducible] def R.Post {α : Type} (x : R α) (P : α → Prop) : Prop := R.SatK x (fun _ => True) P

theorem R.Post.bind {α β : Type} {x : R α} {f : α → R β} {P : α → Prop} {Q : β → Prop}
    (h : R.Post x P) (hf : ∀ a, P a → R.Post (f a) Q) : R.Post (x >>= f) Q := R.SatK.bind h hf

theorem R.Post.ok {α : Type} {a : α} {P : α → Prop} (h : P a) : R.Post (.ok a) P := h

theorem R.Post.err {α : Type} {e : UB} {P : α → Prop} : R.Post (.error e : R α) P := trivial

theorem R.Post.ite {α : Type} {q : Prop} [Decidable q] {x y : R α} {P : α → Prop} (hx : R.Post x P)
    (hy : R.Post y P) : R.Post (if q then x else y) P := by
  split
  · exact hx
  · exact hy

theorem R.Post.any {α : Type} {x : R α} : R.Post x (fun _ => True) := by
  cases x <;> trivial

namespace Screen

/-- All cells of a line. -/
@[reducible] def LineG (P : Glyph → Prop) (l : Line) : Prop := ∀ c, c ∈ l.cells → P c.glyph

/-- All cells of some lines. -/
@[reducible] def LinesG (P : Glyph → Prop) (ls : List Line) : Prop := ∀ l, l ∈ ls → LineG P l

/-- All cells of a screen and of its scrollback, and the blank cells. -/
structure AllG (P : Glyph → Prop) (s : Screen) : Prop where
  main : LinesG P s.main
  alt : LinesG P s.alt
  sb : LinesG P s.sb
  da : P ⟨0, 1, s.defAttr⟩
  dm : P ⟨0, 1, s.defAttrMain⟩

variable {P : Glyph → Prop}

theorem AllG.lines {s : Screen} (h : AllG P s) : LinesG P s.lines := by
  unfold Screen.lines
  split
  · exact h.alt
  · exact h.main

theorem AllG.withLines {s : Screen} (h : AllG P s) {ls : List Line} (hl : LinesG P ls) : AllG P (s.withLines ls) := by
  unfold Screen.withLines
  split
  · exact ⟨h.main, hl, h.sb, h.da, h.dm⟩
  · exact ⟨hl, h.alt, h.sb, h.da, h.dm⟩

theorem AllG.incAge {s : Screen} (h : AllG P s) : AllG P s.incAge := by
  unfold Screen.incAge
  dsimp only
  split <;> exact ⟨h.main, h.alt, h.sb, h.da, h.dm⟩

theorem AllG.touch {s : Screen} (h : AllG P s) : AllG P s.touch := ⟨h.main, h.alt, h.sb, h.da, h.dm⟩

theorem LinesG.get {ls : List Line} (h : LinesG P ls) {i : Nat} {l : Line} (e : ls[i]? = some l) : LineG P l :=
  h l (List.mem_of_getElem? e)

theorem LinesG.set {ls : List Line} (h : LinesG P ls) {i : Nat} {l : Line} (hl : LineG P l) :
    LinesG P (ls.set i l) := by
  intro x hx
  rcases List.mem_or_eq_of_mem_set hx with hx | rfl
  · exact h x hx
  · exact hl

theorem LinesG.append {ls ms : List Line} (h : LinesG P ls) (h' : LinesG P ms) : LinesG P (ls ++ ms) := by
  intro x hx
  rcases List.mem_append.mp hx with hx | hx
  · exact h x hx
  · exact h' x hx

theorem LinesG.single {l : Line} (h : LineG P l) : LinesG P [l] := by
  intro x hx
  rw [List.mem_singleton] at hx
  subst hx
  exact h

theorem LinesG.cons {l : Line} {ls : List Line} (h : LineG P l) (h' : LinesG P ls) : LinesG P (l :: ls) :=
  LinesG.append (LinesG.single h) h'

theorem memmove_post {α : Type} {k : UB} {l : List α} {d s n : Nat} {Q : α → Prop} (h : ∀ x, x ∈ l → Q x) :
    R.Post (memmove k l d s n) (fun r => ∀ x, x ∈ r → Q x) := by
  unfold memmove
  split
  · refine R.Post.ok ?_
    intro x hx
    rw [List.mem_append, List.mem_append] at hx
    rcases hx with (hx | hx) | hx
    · exact h x (List.mem_of_mem_take hx)
    · exact h x (List.mem_of_mem_drop (List.mem_of_mem_take hx))
    · exact h x (List.mem_of_mem_drop hx)
  · exact R.Post.err

theorem memcpy_post {α : Type} {k : UB} {l ys : List α} {d : Nat} {Q : α → Prop} (h : ∀ x, x ∈ l → Q x)
    (hy : ∀ x, x ∈ ys → Q x) : R.Post (memcpy k l d ys) (fun r => ∀ x, x ∈ r → Q x) := by
  unfold memcpy
  split
  · refine R.Post.ok ?_
    intro x hx
    rw [List.mem_append, List.mem_append] at hx
    rcases hx with (hx | hx) | hx
    · exact h x (List.mem_of_mem_take hx)
    · exact hy x hx
    · exact h x (List.mem_of_mem_drop hx)
  · exact R.Post.err

theorem mapIdx_mem {α β : Type} {l : List α} {f : Nat → α → β} {Q : β → Prop} (h : ∀ i x, x ∈ l → Q (f i x)) :
    ∀ y, y ∈ l.mapIdx f → Q y := by
  intro y hy
  rw [List.mem_mapIdx] at hy
  obtain ⟨i, hi, rfl⟩ := hy
  exact h i _ (List.getElem_mem hi)

theorem updCells_post {cells : List Cell} {lo hi : Nat} {f : Cell → Cell} (h : ∀ c, c ∈ cells → P c.glyph)
    (hf : ∀ c, P c.glyph → P (f c).glyph) : R.Post (updCells cells lo hi f) (fun r => ∀ c, c ∈ r → P c.glyph) := by
  unfold updCells
  split
  · exact R.Post.err
  · refine R.Post.ok ?_
    apply mapIdx_mem (Q := fun c : Cell => P c.glyph)
    intro i c hc
    split
    · exact hf c (h c hc)
    · exact h c hc

theorem replicate_mem {α : Type} {n : Nat} {x : α} {Q : α → Prop} (h : Q x) : ∀ y, y ∈ List.replicate n x → Q y := by
  intro y hy
  rw [List.eq_of_mem_replicate hy]
  exact h

theorem AllG.alloc {s : Screen} (h : AllG P s) : AllG P s.alloc.2 := ⟨h.main, h.alt, h.sb, h.da, h.dm⟩

theorem lineNew_all {s : Screen} (h : AllG P s) (w : Nat) :
    AllG P (s.lineNew w).2 ∧ ∀ l, (s.lineNew w).1 = some l → LineG P l := by
  unfold lineNew
  split
  · exact ⟨h, fun l hl => by cases hl⟩
  · dsimp only
    split
    · refine ⟨h.alloc, ?_⟩
      intro l hl
      injection hl with hl
      subst hl
      exact replicate_mem h.da
    · exact ⟨h.alloc, fun l hl => by cases hl⟩

theorem lineResize_all {s : Screen} (h : AllG P s) {l : Line} (hl : LineG P l) (w : Nat) :
    AllG P (s.lineResize l w).2 ∧ ∀ m, (s.lineResize l w).1 = some m → LineG P m := by
  unfold lineResize
  split
  · dsimp only
    split
    · refine ⟨h.alloc, ?_⟩
      intro m hm
      injection hm with hm
      subst hm
      intro c hc
      rcases List.mem_append.mp hc with hc | hc
      · exact hl c hc
      · exact replicate_mem (Q := fun c : Cell => P c.glyph) h.da c hc
    · exact ⟨h.alloc, fun m hm => by cases hm⟩
  · refine ⟨h, ?_⟩
    intro m hm
    injection hm with hm
    subst hm
    exact hl

theorem clearLine_all {s : Screen} (h : AllG P s) {l : Line} (hl : LineG P l) :
    R.Post (s.clearLine l) (LineG P) := by
  unfold clearLine
  exact R.Post.bind (updCells_post hl (fun _ _ => h.da)) (fun cells hc => R.Post.ok hc)

theorem markCursor_all {s : Screen} (h : AllG P s) : R.Post s.markCursor (AllG P) := by
  unfold markCursor
  split
  · exact R.Post.err
  · rename_i l e
    split
    · refine R.Post.ok (h.withLines (h.lines.set ?_))
      intro c hc
      obtain ⟨i, hi, hc⟩ := List.getElem_of_mem hc
      rw [List.getElem_modify] at hc
      rw [← hc]
      have hg := h.lines.get e
      split
      · exact hg l.cells[i] (List.getElem_mem _)
      · exact hg _ (List.getElem_mem _)
    · exact R.Post.err

theorem moveCursor_all {s : Screen} (h : AllG P s) (x y : Nat) : R.Post (s.moveCursor x y) (AllG P) := by
  unfold moveCursor
  split
  · exact R.Post.ok ⟨h.main, h.alt, h.sb, h.da, h.dm⟩
  · split
    · exact R.Post.ok h
    · refine R.Post.bind (markCursor_all h) ?_
      intro t ht
      exact markCursor_all ⟨ht.main, ht.alt, ht.sb, ht.da, ht.dm⟩

theorem sbEvict_all {s : Screen} (h : AllG P s) : R.Post s.sbEvict (AllG P) := by
  unfold sbEvict
  split
  · exact R.Post.err
  · rename_i tmp rest e
    refine R.Post.bind R.Post.any ?_
    rintro ⟨pos, num⟩ -
    refine R.Post.ok ⟨h.main, h.alt, ?_, h.da, h.dm⟩
    intro l hl
    apply h.sb
    rw [e]
    exact List.mem_cons_of_mem _ hl

theorem linkToScrollback_all {s : Screen} (h : AllG P s) {l : Line} (hl : LineG P l) :
    R.Post (s.linkToScrollback l) (AllG P) := by
  unfold linkToScrollback
  dsimp only
  split
  · exact R.Post.ok h.touch
  · have hap : ∀ t, AllG P t → R.Post (Except.ok (t.sbAppend l) : R Screen) (AllG P) := by
      intro t ht
      exact R.Post.ok ⟨ht.main, ht.alt, ht.sb.append (LinesG.single hl), ht.da, ht.dm⟩
    split
    · exact R.Post.bind (sbEvict_all h.touch) hap
    · exact hap _ h.touch

theorem scrollUpLoop_all (n : Nat) : ∀ (i : Nat) {s : Screen}, AllG P s →
    R.Post (scrollUpLoop n i s) (fun r => AllG P r.1 ∧ LinesG P r.2) := by
  induction n with
  | zero => intro i s h; exact R.Post.ok ⟨h, fun l hl => by cases hl⟩
  | succ n ih =>
    intro i s h
    unfold scrollUpLoop
    split
    · exact R.Post.err
    · rename_i l e
      have hl := h.lines.get e
      have hnew : AllG P (if s.fAlt then ((none : Option Line), s) else s.lineNew s.sizeX).2 ∧
          ∀ m, (if s.fAlt then ((none : Option Line), s) else s.lineNew s.sizeX).1 = some m → LineG P m := by
        split
        · exact ⟨h, fun m hm => by cases hm⟩
        · exact lineNew_all h _
      generalize (if s.fAlt then ((none : Option Line), s) else s.lineNew s.sizeX) = q at hnew
      obtain ⟨nl, s1⟩ := q
      obtain ⟨h1, h2⟩ := hnew
      dsimp only at h1 h2 ⊢
      cases nl with
      | some nl =>
        dsimp only
        refine R.Post.bind (linkToScrollback_all h1 hl) ?_
        intro t ht
        refine R.Post.bind (ih (i + 1) ht) ?_
        rintro ⟨u, rest⟩ ⟨hu, hr⟩
        exact R.Post.ok ⟨hu, LinesG.cons (h2 nl rfl) hr⟩
      | none =>
        dsimp only
        refine R.Post.bind (clearLine_all h1 hl) ?_
        intro cl hcl
        refine R.Post.bind (ih (i + 1) h1) ?_
        rintro ⟨u, rest⟩ ⟨hu, hr⟩
        exact R.Post.ok ⟨hu, LinesG.cons hcl hr⟩

theorem scrollUpChunk_all {s : Screen} (h : AllG P s) (max num : Nat) : R.Post (s.scrollUpChunk max num) (AllG P) := by
  unfold scrollUpChunk
  refine R.Post.bind (scrollUpLoop_all num 0 h) ?_
  rintro ⟨t, cache⟩ ⟨ht, hc⟩
  dsimp only
  refine R.Post.bind (P := LinesG P) ?_ ?_
  · split
    · exact memmove_post ht.lines
    · exact R.Post.ok ht.lines
  · intro ls hls
    refine R.Post.bind (memcpy_post hls hc) ?_
    intro ls hls
    refine R.Post.ok ?_
    have hw := ht.withLines hls
    split
    · exact ⟨hw.main, hw.alt, hw.sb, hw.da, hw.dm⟩
    · exact hw

theorem scrollUpFuel_all (fuel : Nat) : ∀ {s : Screen}, AllG P s → ∀ num,
    R.Post (scrollUpFuel fuel s num) (AllG P) := by
  induction fuel with
  | zero => intro s h num; exact R.Post.ok h
  | succ fuel ih =>
    intro s h num
    unfold scrollUpFuel
    split
    · exact R.Post.ok h
    · dsimp only
      generalize (if num > sub32 (s.touch.marginBottom + 1) s.touch.marginTop then
        sub32 (s.touch.marginBottom + 1) s.touch.marginTop else num) = k
      split
      · exact R.Post.bind (scrollUpChunk_all h.touch _ _) (fun t ht => ih ht _)
      · exact scrollUpChunk_all h.touch _ _

theorem scrollUpI_all {s : Screen} (h : AllG P s) (num : Nat) : R.Post (s.scrollUpI num) (AllG P) :=
  scrollUpFuel_all num h num

theorem takeRows_all {s : Screen} (h : AllG P s) (idx : Nat → Nat) (n : Nat) : ∀ (i : Nat) {ls : List Line},
    LinesG P ls → R.Post (s.takeRows idx n i ls) (fun r => LinesG P r.1 ∧ LinesG P r.2) := by
  induction n with
  | zero => intro i ls hl; exact R.Post.ok ⟨hl, fun l hl => by cases hl⟩
  | succ n ih =>
    intro i ls hl
    unfold takeRows
    split
    · exact R.Post.err
    · rename_i l e
      refine R.Post.bind (clearLine_all h (hl.get e)) ?_
      intro cl hcl
      refine R.Post.bind (ih (i + 1) (hl.set hcl)) ?_
      rintro ⟨u, rest⟩ ⟨hu, hr⟩
      exact R.Post.ok ⟨hu, LinesG.cons hcl hr⟩

theorem scrollDownChunk_all {s : Screen} (h : AllG P s) (max num : Nat) :
    R.Post (s.scrollDownChunk max num) (AllG P) := by
  unfold scrollDownChunk
  refine R.Post.bind (takeRows_all h _ num 0 h.lines) ?_
  rintro ⟨ls, cache⟩ ⟨hl, hc⟩
  dsimp only
  refine R.Post.bind (P := LinesG P) ?_ ?_
  · split
    · exact memmove_post hl
    · exact R.Post.ok hl
  · intro ls hls
    refine R.Post.bind (memcpy_post hls hc) ?_
    intro ls hls
    refine R.Post.ok ?_
    have hw := h.withLines hls
    split
    · exact ⟨hw.main, hw.alt, hw.sb, hw.da, hw.dm⟩
    · exact hw

theorem scrollDownFuel_all (fuel : Nat) : ∀ {s : Screen}, AllG P s → ∀ num,
    R.Post (scrollDownFuel fuel s num) (AllG P) := by
  induction fuel with
  | zero => intro s h num; exact R.Post.ok h
  | succ fuel ih =>
    intro s h num
    unfold scrollDownFuel
    split
    · exact R.Post.ok h
    · dsimp only
      generalize (if num > sub32 (s.touch.marginBottom + 1) s.touch.marginTop then
        sub32 (s.touch.marginBottom + 1) s.touch.marginTop else num) = k
      split
      · exact R.Post.bind (scrollDownChunk_all h.touch _ _) (fun t ht => ih ht _)
      · exact scrollDownChunk_all h.touch _ _

theorem scrollDownI_all {s : Screen} (h : AllG P s) (num : Nat) : R.Post (s.scrollDownI num) (AllG P) :=
  scrollDownFuel_all num h num

theorem insertShift_all {s : Screen} {l : Line} (hl : LineG P l) (x len : Nat) :
    R.Post (s.insertShift l x len) (LineG P) := by
  unfold insertShift
  split
  · exact R.Post.bind (memmove_post (Q := fun c : Cell => P c.glyph) hl) (fun cells hc => R.Post.ok hc)
  · exact R.Post.ok hl

theorem writeAt_all {s : Screen} (h : AllG P s) (x y : Nat) {ch len : Nat} {attr : Attr} (hw : P ⟨ch, len, attr⟩)
    (hz : ∀ g : Glyph, P g → P { g with width := 0 }) : R.Post (s.writeAt x y ch len attr) (AllG P) := by
  unfold writeAt
  split
  · exact R.Post.ok h
  · split
    · exact R.Post.ok h
    · split
      · exact R.Post.err
      · rename_i l e
        refine R.Post.bind (insertShift_all (h.lines.get e) x len) ?_
        intro l hl
        refine R.Post.bind (updCells_post hl (fun _ _ => hw)) ?_
        intro cells hc
        refine R.Post.bind (updCells_post hc (fun c hc => hz _ hc)) ?_
        intro cells hc
        exact R.Post.ok (h.withLines (h.lines.set hc))

theorem eraseRows_all {s : Screen} (h : AllG P s) (protect : Bool) (xTo yTo n : Nat) : ∀ (yFrom xFrom : Nat)
    {ls : List Line}, LinesG P ls → R.Post (s.eraseRows protect xTo yTo n yFrom xFrom ls) (LinesG P) := by
  induction n with
  | zero => intro _ _ ls hl; exact R.Post.ok hl
  | succ n ih =>
    intro yFrom xFrom ls hl
    unfold eraseRows
    split
    · exact R.Post.err
    · rename_i l e
      dsimp only
      refine R.Post.bind (P := fun r => ∀ c, c ∈ r → P c.glyph) ?_ ?_
      · unfold eraseCells
        refine updCells_post (hl.get e) ?_
        intro c hc
        split
        · exact hc
        · exact h.da
      · intro cells hc
        exact ih _ _ (hl.set hc)

theorem eraseRegion_all {s : Screen} (h : AllG P s) (a b c d : Nat) (p : Bool) :
    R.Post (s.eraseRegion a b c d p) (AllG P) := by
  unfold eraseRegion
  dsimp only
  refine R.Post.bind (eraseRows_all h.touch p _ _ _ _ _ h.touch.lines) ?_
  intro ls hl
  exact R.Post.ok (h.touch.withLines hl)

/-! ### Resizing -/

theorem growLines_all (w n : Nat) : ∀ {s : Screen}, AllG P s → AllG P (growLines w n s).2 := by
  induction n with
  | zero => intro s h; exact h
  | succ n ih =>
    intro s h
    unfold growLines
    obtain ⟨h1, h2⟩ := lineNew_all h w
    cases e : s.lineNew w with
    | mk o t =>
      rw [e] at h1 h2
      cases o with
      | none => exact h1
      | some m =>
        dsimp only at h1 h2 ⊢
        obtain ⟨g1, g2⟩ := lineNew_all h1 w
        cases e' : t.lineNew w with
        | mk o' u =>
          rw [e'] at g1 g2
          cases o' with
          | none => exact g1
          | some a =>
            dsimp only at g1 g2 ⊢
            exact ih ⟨g1.main.append (LinesG.single (h2 m rfl)), g1.alt.append (LinesG.single (g2 a rfl)), g1.sb,
              g1.da, g1.dm⟩

theorem resizeLines_all {s : Screen} (h : AllG P s) (x y : Nat) : AllG P (s.resizeLines x y).2 := by
  unfold resizeLines
  split
  · dsimp only
    split
    · split
      · exact growLines_all _ _ h.alloc.alloc
      · exact h.alloc.alloc
    · exact h.alloc
  · exact h

theorem widenLines_all (x n : Nat) : ∀ (i : Nat) {s : Screen}, AllG P s →
    R.Post (widenLines x n i s) (fun r => AllG P r.2) := by
  induction n with
  | zero => intro i s h; exact R.Post.ok h
  | succ n ih =>
    intro i s h
    unfold widenLines
    split
    · rename_i m a em ea
      obtain ⟨h1, h2⟩ := lineResize_all h (h.main.get em) x
      cases e : s.lineResize m x with
      | mk o t =>
        rw [e] at h1 h2
        cases o with
        | none => exact R.Post.ok h1
        | some m' =>
          dsimp only at h1 h2 ⊢
          have h3 : AllG P { t with main := t.main.set i m' } :=
            ⟨h1.main.set (h2 m' rfl), h1.alt, h1.sb, h1.da, h1.dm⟩
          obtain ⟨g1, g2⟩ := lineResize_all h3 (h.alt.get ea) x
          cases e' : lineResize { t with main := t.main.set i m' } a x with
          | mk o' u =>
            rw [e'] at g1 g2
            cases o' with
            | none => exact R.Post.ok g1
            | some a' =>
              dsimp only at g1 g2 ⊢
              exact ih (i + 1) ⟨g1.main, g1.alt.set (g2 a' rfl), g1.sb, g1.da, g1.dm⟩
    · exact R.Post.err

theorem resizeWidth_all {s : Screen} (h : AllG P s) (x : Nat) : R.Post (s.resizeWidth x) (fun r => AllG P r.2) := by
  unfold resizeWidth
  split
  · dsimp only
    split
    · exact widenLines_all x _ 0 ⟨h.main, h.alt, h.sb, h.da, h.dm⟩
    · exact R.Post.ok h.alloc
  · exact R.Post.ok h

theorem clearAlts_all {s : Screen} (h : AllG P s) (x : Nat) : ∀ (ls : List Line) (j : Nat), LinesG P ls →
    R.Post (s.clearAlts x j ls) (LinesG P) := by
  intro ls
  induction ls with
  | nil => intro j hl; exact R.Post.ok hl
  | cons l ls ih =>
    intro j hl
    unfold clearAlts
    refine R.Post.bind (P := LineG P) ?_ ?_
    · unfold clearAlt
      exact R.Post.bind (updCells_post (hl l List.mem_cons_self) (fun _ _ => h.da)) (fun cells hc => R.Post.ok hc)
    · intro l' hl'
      refine R.Post.bind (ih (j + 1) (fun m hm => hl m (List.mem_cons_of_mem _ hm))) ?_
      intro ls' hls'
      exact R.Post.ok (LinesG.cons hl' hls')

theorem clearMain_all {s : Screen} (h : AllG P s) (start j : Nat) {l : Line} (hl : LineG P l) :
    LineG P (s.clearMain start j l) := by
  unfold clearMain
  dsimp only
  apply mapIdx_mem (Q := fun c : Cell => P c.glyph)
  intro i c hc
  generalize (if j < s.sizeY then start else 0) = k
  split
  · exact h.dm
  · exact hl c hc

theorem resizeClear_all {s : Screen} (h : AllG P s) (x : Nat) : R.Post (s.resizeClear x) (AllG P) := by
  unfold resizeClear
  dsimp only
  refine R.Post.bind (clearAlts_all h.incAge x _ _ h.incAge.alt) ?_
  intro alt halt
  refine R.Post.bind R.Post.any ?_
  intro tab _
  have hm : LinesG P (s.incAge.main.mapIdx fun j l =>
      s.incAge.clearMain (if x > s.incAge.sizeX then s.incAge.sizeX else x) j l) := by
    apply mapIdx_mem (Q := LineG P)
    intro j l hl
    exact clearMain_all h.incAge _ j (h.incAge.main l hl)
  generalize (s.incAge.main.mapIdx fun j l =>
      s.incAge.clearMain (if x > s.incAge.sizeX then s.incAge.sizeX else x) j l) = mm at hm ⊢
  split
  · refine moveCursor_all ?_ _ _
    exact ⟨hm, halt, h.incAge.sb, h.incAge.da, h.incAge.dm⟩
  · exact R.Post.ok ⟨hm, halt, h.incAge.sb, h.incAge.da, h.incAge.dm⟩

theorem resizeHeight_all {s : Screen} (h : AllG P s) (y : Nat) : R.Post (s.resizeHeight y) (AllG P) := by
  unfold resizeHeight
  refine R.Post.bind (P := AllG P) ?_ ?_
  · split
    · dsimp only
      refine R.Post.bind (scrollUpI_all h _) ?_
      intro t ht
      split
      · exact moveCursor_all ht _ _
      · exact moveCursor_all ht _ _
    · exact R.Post.ok h
  · intro t ht
    have ht' : AllG P { t with sizeY := y, marginBottom := pred32 y } := ⟨ht.main, ht.alt, ht.sb, ht.da, ht.dm⟩
    dsimp only
    split
    · exact moveCursor_all ht' _ _
    · exact R.Post.ok ht'

theorem resize_all {s : Screen} (h : AllG P s) (x y : Nat) : R.Post (s.resize x y) (fun r => AllG P r.2) := by
  unfold resize
  split
  · exact R.Post.ok h
  · split
    · exact R.Post.ok h
    · have h1 := resizeLines_all h x y
      generalize s.resizeLines x y = q at h1
      obtain ⟨ok, t⟩ := q
      dsimp only at h1 ⊢
      split
      · refine R.Post.bind (resizeWidth_all h1 x) ?_
        rintro ⟨ok, u⟩ hu
        dsimp only at hu ⊢
        split
        · refine R.Post.bind (resizeClear_all hu x) ?_
          intro v hv
          refine R.Post.bind (resizeHeight_all hv y) ?_
          intro w hw
          exact R.Post.ok hw
        · exact R.Post.ok hu
      · exact R.Post.ok h1

theorem trimSb_all (max n : Nat) : ∀ {s : Screen}, AllG P s → R.Post (trimSb max n s) (AllG P) := by
  induction n with
  | zero => intro s h; exact R.Post.ok h
  | succ n ih =>
    intro s h
    unfold trimSb
    split
    · split
      · exact R.Post.err
      · rename_i l rest e
        refine ih ⟨h.main, h.alt, ?_, h.da, h.dm⟩
        intro m hm
        apply h.sb
        rw [e]
        exact List.mem_cons_of_mem _ hm
    · exact R.Post.ok h

theorem sbUpLoop_all (n : Nat) : ∀ {s : Screen}, AllG P s → R.Post (sbUpLoop n s) (AllG P) := by
  induction n with
  | zero => intro s h; exact R.Post.ok h
  | succ n ih =>
    intro s h
    unfold sbUpLoop
    split
    · split
      · exact R.Post.err
      · exact R.Post.ok h
      · exact ih ⟨h.main, h.alt, h.sb, h.da, h.dm⟩
    · split
      · exact R.Post.ok h
      · exact ih ⟨h.main, h.alt, h.sb, h.da, h.dm⟩

theorem sbDownLoop_all (n : Nat) : ∀ {s : Screen}, AllG P s → R.Post (sbDownLoop n s) (AllG P) := by
  induction n with
  | zero => intro s h; exact R.Post.ok h
  | succ n ih =>
    intro s h
    unfold sbDownLoop
    split
    · split
      · exact R.Post.err
      · exact ih ⟨h.main, h.alt, h.sb, h.da, h.dm⟩
    · exact R.Post.ok h

theorem sbUp_all {s : Screen} (h : AllG P s) (n : Nat) : R.Post (s.sbUp n) (AllG P) := by
  unfold sbUp
  split
  · exact R.Post.ok h
  · exact sbUpLoop_all n h.incAge.touch

theorem sbDown_all {s : Screen} (h : AllG P s) (n : Nat) : R.Post (s.sbDown n) (AllG P) := by
  unfold sbDown
  split
  · exact R.Post.ok h
  · exact sbDownLoop_all n h.incAge.touch

theorem moveDown_all {s : Screen} (h : AllG P s) (n : Nat) (b : Bool) : R.Post (s.moveDown n b) (AllG P) := by
  unfold moveDown
  split
  · exact R.Post.ok h
  · dsimp only
    have key : ∀ k x y, R.Post (if n > k then (if b then s.incAge.scrollUpI (n - k) else .ok s.incAge : R Screen) >>=
        (fun t => t.moveCursor t.cursorX x) else s.incAge.moveCursor s.incAge.cursorX y) (AllG P) := by
      intro k x y
      split
      · refine R.Post.bind (P := AllG P) ?_ (fun t ht => moveCursor_all ht _ _)
        split
        · exact scrollUpI_all h.incAge _
        · exact R.Post.ok h.incAge
      · exact moveCursor_all h.incAge _ _
    exact key _ _ _

theorem moveUp_all {s : Screen} (h : AllG P s) (n : Nat) (b : Bool) : R.Post (s.moveUp n b) (AllG P) := by
  unfold moveUp
  split
  · exact R.Post.ok h
  · dsimp only
    generalize (if s.incAge.cursorY ≥ s.incAge.marginTop then s.incAge.marginTop else 0) = k
    split
    · refine R.Post.bind (P := AllG P) ?_ (fun t ht => moveCursor_all ht _ _)
      split
      · exact scrollDownI_all h.incAge _
      · exact R.Post.ok h.incAge
    · exact moveCursor_all h.incAge _ _

theorem writeW_all {s : Screen} (h : AllG P s) {ch len : Nat} {attr : Attr} (hw : P ⟨ch, len, attr⟩)
    (hz : ∀ g : Glyph, P g → P { g with width := 0 }) : R.Post (s.writeW ch len attr) (AllG P) := by
  unfold writeW
  dsimp only
  generalize (if s.incAge.cursorY ≤ s.incAge.marginBottom ∨ s.incAge.cursorY ≥ s.incAge.sizeY then s.incAge.marginBottom
    else pred32 s.incAge.sizeY) = last
  refine R.Post.bind (P := AllG P) ?_ ?_
  · split
    · split
      · exact moveCursor_all h.incAge _ _
      · exact moveCursor_all h.incAge _ _
    · exact R.Post.ok h.incAge
  · intro t ht
    refine R.Post.bind (P := AllG P) ?_ ?_
    · split
      · exact R.Post.bind (moveCursor_all ht _ _) (fun u hu => scrollUpI_all hu 1)
      · exact R.Post.ok ht
    · intro u hu
      exact R.Post.bind (writeAt_all hu _ _ hw hz) (fun v hv => moveCursor_all hv _ _)

theorem AllG.clamp {s : Screen} (h : AllG P s) : AllG P s.clampCursor := ⟨h.main, h.alt, h.sb, h.da, h.dm⟩

/-- What a call adds must satisfy the predicate. -/
def Call.Adds (P : Glyph → Prop) : Call → Prop
  | .setDefAttr a => P ⟨0, 1, a⟩
  | .write ch a => ∀ len, symWidth ch = .ok len → len ≠ 0 → P ⟨ch, len, a⟩
  | _ => True

/-- All cells satisfy the predicate after a call. -/
theorem step_all {s : Screen} (h : AllG P s) (hz : ∀ g : Glyph, P g → P { g with width := 0 }) {c : Call}
    (hc : c.Adds P) : R.Post (c.run s) (AllG P) := by
  have hi := h.incAge
  have same : ∀ t : Screen, t.main = s.main → t.alt = s.alt → t.sb = s.sb → t.defAttr = s.defAttr →
      t.defAttrMain = s.defAttrMain → AllG P t := by
    intro t h1 h2 h3 h4 h5
    refine ⟨?_, ?_, ?_, ?_, ?_⟩
    · rw [h1]; exact h.main
    · rw [h2]; exact h.alt
    · rw [h3]; exact h.sb
    · rw [h4]; exact h.da
    · rw [h5]; exact h.dm
  cases c with
  | resize x y => exact R.Post.bind (resize_all h x y) (fun r hr => R.Post.ok hr)
  | setMargins t b =>
    show AllG P (s.setMargins t b)
    unfold setMargins
    dsimp only
    generalize (if t = 0 then 1 else t) = k
    split
    · exact same _ rfl rfl rfl rfl rfl
    · split <;> exact same _ rfl rfl rfl rfl rfl
  | setMaxSb m =>
    show R.Post (s.setMaxSb m) _
    unfold setMaxSb
    exact R.Post.bind (trimSb_all m _ hi.touch) (fun t ht => R.Post.ok ⟨ht.main, ht.alt, ht.sb, ht.da, ht.dm⟩)
  | clearSb => exact R.Post.ok ⟨hi.main, hi.alt, (fun l hl => (by cases hl)), hi.da, hi.dm⟩
  | sbUp n => exact sbUp_all h n
  | sbDown n => exact sbDown_all h n
  | sbPageUp n =>
    show R.Post (s.sbPageUp n) _
    unfold sbPageUp
    split
    · exact R.Post.ok h
    · exact sbUp_all hi _
  | sbPageDown n =>
    show R.Post (s.sbPageDown n) _
    unfold sbPageDown
    split
    · exact R.Post.ok h
    · exact sbDown_all hi _
  | sbReset =>
    show AllG P s.sbReset
    unfold sbReset
    split
    · exact h
    · exact ⟨hi.main, hi.alt, hi.sb, hi.da, hi.dm⟩
  | setDefAttr a => exact R.Post.ok ⟨h.main, h.alt, h.sb, hc, h.dm⟩
  | reset =>
    show R.Post s.reset _
    unfold reset
    dsimp only
    exact R.Post.bind R.Post.any (fun tab _ => R.Post.ok ⟨hi.main, hi.alt, hi.sb, hi.da, hi.dm⟩)
  | setFlags f =>
    show R.Post (s.setFlags f) _
    unfold setFlags
    split
    · exact R.Post.ok h
    · dsimp only
      have hq : AllG P (if !s.incAge.flags.getLsbD 6 && f.getLsbD 6 then
          { s.incAge with flags := s.incAge.flags ||| f, age := s.incAge.ageCnt, useAlt := true, defAttrMain := s.incAge.defAttr }
          else { s.incAge with flags := s.incAge.flags ||| f }) := by
        split
        · exact ⟨hi.main, hi.alt, hi.sb, hi.da, hi.da⟩
        · exact ⟨hi.main, hi.alt, hi.sb, hi.da, hi.dm⟩
      refine R.Post.bind (P := AllG P) ?_ ?_
      · split
        · exact markCursor_all hq
        · exact R.Post.ok hq
      · intro t ht
        refine R.Post.ok ?_
        split
        · exact ht.touch
        · exact ht
  | resetFlags f =>
    show R.Post (s.resetFlags f) _
    unfold resetFlags
    split
    · exact R.Post.ok h
    · dsimp only
      have hq : AllG P (if s.incAge.flags.getLsbD 6 && f.getLsbD 6 then
          { s.incAge with flags := s.incAge.flags &&& ~~~f, age := s.incAge.ageCnt, useAlt := false }
          else { s.incAge with flags := s.incAge.flags &&& ~~~f }) := by
        split
        · exact ⟨hi.main, hi.alt, hi.sb, hi.da, hi.dm⟩
        · exact ⟨hi.main, hi.alt, hi.sb, hi.da, hi.dm⟩
      refine R.Post.bind (P := AllG P) ?_ ?_
      · split
        · exact markCursor_all hq
        · exact R.Post.ok hq
      · intro t ht
        refine R.Post.ok ?_
        split
        · exact ht.touch
        · exact ht
  | setTabstop =>
    show R.Post (s.putTab true) _
    unfold putTab
    split
    · exact R.Post.ok h
    · split
      · exact R.Post.ok (same _ rfl rfl rfl rfl rfl)
      · exact R.Post.err
  | resetTabstop =>
    show R.Post (s.putTab false) _
    unfold putTab
    split
    · exact R.Post.ok h
    · split
      · exact R.Post.ok (same _ rfl rfl rfl rfl rfl)
      · exact R.Post.err
  | resetAllTabstops =>
    show R.Post s.resetAllTabstops _
    unfold resetAllTabstops
    split
    · exact R.Post.err
    · exact R.Post.ok (same _ rfl rfl rfl rfl rfl)
  | write ch a =>
    show R.Post (s.write ch a) _
    unfold write
    cases e : symWidth ch with
    | error u => exact R.Post.err
    | ok len =>
      show R.Post (if len = 0 then .ok s else s.writeW ch len a) _
      split
      · exact R.Post.ok h
      · rename_i hlen
        exact writeW_all h (hc len e hlen) hz
  | newline =>
    show R.Post s.newline _
    unfold newline
    generalize (1 : Nat) = n
    have h1 := moveDown_all hi n true
    generalize s.incAge.moveDown n true = m at h1 ⊢
    refine R.Post.bind h1 ?_
    intro t ht
    exact moveCursor_all ht.incAge _ _
  | scrollUp n =>
    show R.Post (s.scrollUp n) _
    unfold scrollUp
    split
    · exact R.Post.ok h
    · exact scrollUpI_all hi n
  | scrollDown n =>
    show R.Post (s.scrollDown n) _
    unfold scrollDown
    split
    · exact R.Post.ok h
    · exact scrollDownI_all hi n
  | moveTo x y =>
    show R.Post (s.moveTo x y) _
    unfold moveTo
    dsimp only
    exact moveCursor_all hi _ _
  | moveUp n b => exact moveUp_all h n b
  | moveDown n b => exact moveDown_all h n b
  | moveLeft n =>
    show R.Post (s.moveLeft n) _
    unfold moveLeft
    split
    · exact R.Post.ok h
    · dsimp only
      have key : ∀ k x, R.Post (if k > x then s.incAge.moveCursor 0 s.incAge.cursorY
          else s.incAge.moveCursor (x - k) s.incAge.cursorY) (AllG P) := by
        intro k x
        split <;> exact moveCursor_all hi _ _
      exact key _ _
  | moveRight n =>
    show R.Post (s.moveRight n) _
    unfold moveRight
    split
    · exact R.Post.ok h
    · dsimp only
      have key : ∀ (q : Prop) [Decidable q] (x y : Nat), R.Post (if q then s.incAge.moveCursor x s.incAge.cursorY
          else s.incAge.moveCursor y s.incAge.cursorY) (AllG P) := by
        intro q _ x y
        split <;> exact moveCursor_all hi _ _
      exact key _ _ _
  | moveLineEnd => exact moveCursor_all hi _ _
  | moveLineHome => exact moveCursor_all hi _ _
  | tabRight n =>
    show R.Post (s.tabRight n) _
    unfold tabRight
    split
    · exact R.Post.ok h
    · dsimp only
      exact R.Post.bind R.Post.any (fun x _ => moveCursor_all hi _ _)
  | tabLeft n =>
    show R.Post (s.tabLeft n) _
    unfold tabLeft
    split
    · exact R.Post.ok h
    · dsimp only
      exact R.Post.bind R.Post.any (fun x _ => moveCursor_all hi _ _)
  | insertLines n =>
    show R.Post (s.insertLines n) _
    unfold insertLines
    split
    · exact R.Post.ok h
    · split
      · exact R.Post.ok h
      · dsimp only
        refine R.Post.bind (takeRows_all hi.touch _ _ 0 hi.touch.lines) ?_
        rintro ⟨ls, cache⟩ ⟨hl, hcc⟩
        refine R.Post.bind (P := LinesG P) (R.Post.ite ?_ (R.Post.ok hl)) ?_
        · exact R.Post.bind (memmove_post hl) (fun ls hl => memcpy_post hl hcc)
        · intro ls hl
          have hw := hi.touch.withLines hl
          exact R.Post.ok ⟨hw.main, hw.alt, hw.sb, hw.da, hw.dm⟩
  | deleteLines n =>
    show R.Post (s.deleteLines n) _
    unfold deleteLines
    split
    · exact R.Post.ok h
    · split
      · exact R.Post.ok h
      · dsimp only
        refine R.Post.bind (takeRows_all hi.touch _ _ 0 hi.touch.lines) ?_
        rintro ⟨ls, cache⟩ ⟨hl, hcc⟩
        refine R.Post.bind (P := LinesG P) (R.Post.ite ?_ (R.Post.ok hl)) ?_
        · exact R.Post.bind (memmove_post hl) (fun ls hl => memcpy_post hl hcc)
        · intro ls hl
          have hw := hi.touch.withLines hl
          exact R.Post.ok ⟨hw.main, hw.alt, hw.sb, hw.da, hw.dm⟩
  | insertChars n =>
    show R.Post (s.insertChars n) _
    unfold insertChars
    split
    · exact R.Post.ok h
    · dsimp only
      have hk := hi.touch.clamp
      split
      · exact R.Post.err
      · rename_i l e
        refine R.Post.bind (P := fun r => ∀ c, c ∈ r → P c.glyph) (R.Post.ite ?_ (R.Post.ok (hk.lines.get e))) ?_
        · exact memmove_post (Q := fun c : Cell => P c.glyph) (hk.lines.get e)
        · intro cells hcs
          refine R.Post.bind (updCells_post hcs (fun _ _ => hk.da)) ?_
          intro cells hcs
          exact R.Post.ok (hk.withLines (hk.lines.set hcs))
  | deleteChars n =>
    show R.Post (s.deleteChars n) _
    unfold deleteChars
    split
    · exact R.Post.ok h
    · dsimp only
      have hk := hi.touch.clamp
      split
      · exact R.Post.err
      · rename_i l e
        refine R.Post.bind (P := fun r => ∀ c, c ∈ r → P c.glyph) (R.Post.ite ?_ (R.Post.ok (hk.lines.get e))) ?_
        · exact memmove_post (Q := fun c : Cell => P c.glyph) (hk.lines.get e)
        · intro cells hcs
          refine R.Post.bind (updCells_post hcs (fun _ _ => hk.da)) ?_
          intro cells hcs
          exact R.Post.ok (hk.withLines (hk.lines.set hcs))
  | eraseCursor => exact eraseRegion_all hi _ _ _ _ _
  | eraseChars n =>
    show R.Post (s.eraseChars n) _
    unfold eraseChars
    split
    · exact R.Post.ok h
    · exact eraseRegion_all hi _ _ _ _ _
  | eraseCursorToEnd b => exact eraseRegion_all hi _ _ _ _ _
  | eraseHomeToCursor b => exact eraseRegion_all hi _ _ _ _ _
  | eraseCurrentLine b => exact eraseRegion_all hi _ _ _ _ _
  | eraseScreenToCursor b => exact eraseRegion_all hi _ _ _ _ _
  | eraseCursorToScreen b => exact eraseRegion_all hi _ _ _ _ _
  | eraseScreen b => exact eraseRegion_all hi _ _ _ _ _
  | selectionReset =>
    show AllG P s.selectionReset
    unfold selectionReset
    first
      | exact ⟨hi.main, hi.alt, hi.sb, hi.da, hi.dm⟩
      | exact same _ rfl rfl rfl rfl rfl
  | selectionStart x y => exact R.Post.ok ⟨hi.main, hi.alt, hi.sb, hi.da, hi.dm⟩
  | selectionTarget x y =>
    show AllG P (s.selectionTarget x y)
    unfold selectionTarget
    split
    · exact ⟨hi.main, hi.alt, hi.sb, hi.da, hi.dm⟩
    · exact h
  | draw =>
    show R.Post (do let r ← s.draw; return r.2.2) _
    unfold draw
    refine R.Post.bind (P := fun r => AllG P r.2.2) ?_ (fun r hr => R.Post.ok hr)
    refine R.Post.bind R.Post.any ?_
    intro cs _
    refine R.Post.ok ?_
    split
    · exact same _ rfl rfl rfl rfl rfl
    · exact h

end Screen
end Verif
