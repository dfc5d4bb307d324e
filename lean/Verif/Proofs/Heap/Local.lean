import Verif.Proofs.Heap.Rel

/-!
# Functions of the screen that only access fields and cells
-/

namespace Verif
namespace PScreen

theorem put_incAge (B : Links) (s : Screen) : (put B s).incAge = put B s.incAge := by
  unfold Screen.incAge put
  dsimp only
  split <;> rfl

theorem put_withLines (B : Links) (s : Screen) (ls : List Line) :
    (put B s).withLines ls = put B (s.withLines ls) := by
  unfold Screen.withLines put
  dsimp only
  split <;> rfl

theorem len_incAge (s : Screen) : s.incAge.main = s.main ∧ s.incAge.alt = s.alt := by
  unfold Screen.incAge
  dsimp only
  split <;> exact ⟨rfl, rfl⟩

theorem len_withLines {s : Screen} {ls : List Line} (h : ls.length = s.lines.length) :
    (s.withLines ls).main.length = s.main.length ∧ (s.withLines ls).alt.length = s.alt.length := by
  unfold Screen.lines at h
  unfold Screen.withLines
  split at h <;> rename_i hh
  · rw [if_pos hh]; exact ⟨rfl, h⟩
  · rw [if_neg hh]; exact ⟨h, rfl⟩

/-- Functions that succeed always. -/
theorem LocalS.pure {g : Screen → Screen} (h1 : ∀ B s, g (PScreen.put B s) = PScreen.put B (g s))
    (h2 : ∀ s, (g s).main.length = s.main.length ∧ (g s).alt.length = s.alt.length) :
    LocalS (fun s => .ok (g s)) where
  put := fun B s => congrArg Except.ok (h1 B s)
  len := fun s s' h => by cases h; exact h2 s

/-- A field update before. -/
theorem LocalS.pre {g : Screen → Screen} {f : Screen → R Screen} (hf : LocalS f)
    (h1 : ∀ B s, g (PScreen.put B s) = PScreen.put B (g s))
    (h2 : ∀ s, (g s).main.length = s.main.length ∧ (g s).alt.length = s.alt.length) :
    LocalS (fun s => f (g s)) where
  put := fun B s => by
    show f (g (PScreen.put B s)) = _
    rw [h1]; exact hf.put B (g s)
  len := fun s s' h => by
    have a := hf.len _ _ h
    exact ⟨a.1.trans (h2 s).1, a.2.trans (h2 s).2⟩

theorem LocalS.incAge {f : Screen → R Screen} (hf : LocalS f) : LocalS (fun s => f s.incAge) :=
  hf.pre put_incAge fun s => by rw [(len_incAge s).1, (len_incAge s).2]; exact ⟨rfl, rfl⟩

/-- A choice that depends on fields. -/
theorem LocalS.ite {c : Screen → Prop} [DecidablePred c] {f g : Screen → R Screen}
    (hc : ∀ B s, c (PScreen.put B s) ↔ c s) (hf : LocalS f) (hg : LocalS g) :
    LocalS (fun s => if c s then f s else g s) where
  put := fun B s => by
    show (if c (PScreen.put B s) then _ else _) = (if c s then _ else _ : R Screen).map _
    by_cases h : c s
    · rw [if_pos h, if_pos ((hc B s).2 h)]; exact hf.put B s
    · rw [if_neg h, if_neg (fun hh => h ((hc B s).1 hh))]; exact hg.put B s
  len := fun s s' h => by
    have h : (if c s then _ else _) = _ := h
    split at h
    · exact hf.len s s' h
    · exact hg.len s s' h

/-- A value computed from fields first. -/
theorem LocalS.val {α : Type} {e : Screen → R α} {f : α → Screen → R Screen}
    (he : ∀ B s, e (PScreen.put B s) = e s) (hf : ∀ a, LocalS (f a)) : LocalS (fun s => e s >>= fun a => f a s) where
  put := fun B s => by
    show (e (PScreen.put B s) >>= fun a => f a (PScreen.put B s)) = _
    rw [he]
    cases e s with
    | error e => rfl
    | ok a => exact (hf a).put B s
  len := fun s s' h => by
    have h : (e s >>= fun a => f a s) = _ := h
    rcases hh : e s with _ | a
    · rw [hh] at h; cases h
    · rw [hh] at h; exact (hf a).len s s' h

theorem LocalS.letVal {α : Type} {e : Screen → α} {f : α → Screen → R Screen}
    (he : ∀ B s, e (PScreen.put B s) = e s) (hf : ∀ a, LocalS (f a)) : LocalS (fun s => f (e s) s) where
  put := fun B s => by
    show f (e (PScreen.put B s)) (PScreen.put B s) = _
    rw [he]
    exact (hf _).put B s
  len := fun s s' h => (hf _).len s s' h

theorem LocalS.id : LocalS (fun s => .ok s) := .pure (fun _ _ => rfl) fun _ => ⟨rfl, rfl⟩

/-- New lines computed from the lines and from fields. -/
theorem LocalS.lines {f : Screen → R (List Line)} (h1 : ∀ B s, f (PScreen.put B s) = f s)
    (h2 : ∀ s ls, f s = .ok ls → ls.length = s.lines.length) :
    LocalS (fun s => f s >>= fun ls => .ok (s.withLines ls)) where
  put := fun B s => by
    show (f (PScreen.put B s) >>= fun ls => Except.ok ((PScreen.put B s).withLines ls)) = _
    rw [h1]
    cases f s with
    | error e => rfl
    | ok ls => exact congrArg Except.ok (put_withLines B s ls)
  len := fun s s' h => by
    have h : (f s >>= fun ls => Except.ok (s.withLines ls)) = _ := h
    rcases hh : f s with _ | a
    · rw [hh] at h; cases h
    · rw [hh] at h; cases h; exact len_withLines (h2 s a hh)

/-! ### Cursor movement -/

theorem LocalS.markCursor : LocalS Screen.markCursor where
  put := by
    intro B s
    unfold Screen.markCursor
    show (match s.lines[s.cursorCell.1]? with | none => _ | some l => _) = _
    cases s.lines[s.cursorCell.1]? with
    | none => rfl
    | some l =>
      dsimp only
      show (if s.cursorCell.2 < l.cells.length then _ else _) = (if _ then _ else _ : R Screen).map _
      split
      · exact congrArg Except.ok (put_withLines B s _)
      · rfl
  len := by
    intro s s' h
    unfold Screen.markCursor at h
    split at h
    · cases h
    · split at h
      · cases h; exact len_withLines (List.length_set ..)
      · cases h

theorem LocalS.moveCursor (x y : Nat) : LocalS (fun s => s.moveCursor x y) := by
  unfold Screen.moveCursor
  refine .ite (c := fun s => s.fHide = true) (fun _ _ => Iff.rfl) (.pure (fun _ _ => rfl) fun _ => ⟨rfl, rfl⟩) ?_
  refine .ite (c := fun s => s.cursorX = x ∧ s.cursorY = y) (fun _ _ => Iff.rfl) .id ?_
  refine .comp .markCursor ?_
  exact LocalS.markCursor.pre (g := fun s => { s with cursorX := x, cursorY := y }) (fun _ _ => rfl)
    fun _ => ⟨rfl, rfl⟩

/-- `move_cursor` to coordinates computed from fields. -/
theorem LocalS.move {x y : Screen → Nat} (hx : ∀ B s, x (PScreen.put B s) = x s)
    (hy : ∀ B s, y (PScreen.put B s) = y s) : LocalS (fun s => s.moveCursor (x s) (y s)) :=
  .letVal (e := x) (f := fun x s => s.moveCursor x (y s)) hx fun x =>
    .letVal (e := y) (f := fun y s => s.moveCursor x y) hy fun y => .moveCursor x y

theorem LocalS.moveTo (x y : Nat) : LocalS (fun s => s.moveTo x y) := by
  unfold Screen.moveTo
  exact LocalS.incAge (.move (x := fun s => if x ≥ s.sizeX then pred32 s.sizeX else x)
    (y := fun s => if s.toAbsY y > (if s.fOrigin then s.marginBottom else pred32 s.sizeY) then
      (if s.fOrigin then s.marginBottom else pred32 s.sizeY) else s.toAbsY y) (fun _ _ => rfl) (fun _ _ => rfl))

theorem LocalS.moveLeft (n : Nat) : LocalS (fun s => s.moveLeft n) := by
  unfold Screen.moveLeft
  refine .ite (c := fun _ => n = 0) (fun _ _ => Iff.rfl) .id ?_
  refine LocalS.incAge (f := fun s => if (if n > s.sizeX then s.sizeX else n) >
    (if s.cursorX ≥ s.sizeX then pred32 s.sizeX else s.cursorX) then s.moveCursor 0 s.cursorY else
    s.moveCursor ((if s.cursorX ≥ s.sizeX then pred32 s.sizeX else s.cursorX) - (if n > s.sizeX then s.sizeX else n))
      s.cursorY) ?_
  exact .ite (fun _ _ => Iff.rfl) (.move (fun _ _ => rfl) (fun _ _ => rfl)) (.move (fun _ _ => rfl) (fun _ _ => rfl))

theorem LocalS.moveRight (n : Nat) : LocalS (fun s => s.moveRight n) := by
  unfold Screen.moveRight
  refine .ite (c := fun _ => n = 0) (fun _ _ => Iff.rfl) .id ?_
  refine LocalS.incAge (f := fun s => if u32 ((if n > s.sizeX then s.sizeX else n) + s.cursorX) ≥ s.sizeX then
    s.moveCursor (pred32 s.sizeX) s.cursorY else
    s.moveCursor (u32 (s.cursorX + (if n > s.sizeX then s.sizeX else n))) s.cursorY) ?_
  exact .ite (fun _ _ => Iff.rfl) (.move (fun _ _ => rfl) (fun _ _ => rfl)) (.move (fun _ _ => rfl) (fun _ _ => rfl))

theorem LocalS.moveLineEnd : LocalS Screen.moveLineEnd :=
  LocalS.incAge (f := fun s => s.moveCursor (pred32 s.sizeX) s.cursorY)
    (.move (fun _ _ => rfl) (fun _ _ => rfl))

theorem LocalS.moveLineHome : LocalS Screen.moveLineHome :=
  LocalS.incAge (f := fun s => s.moveCursor 0 s.cursorY) (.move (fun _ _ => rfl) (fun _ _ => rfl))

theorem LocalS.tabRight (n : Nat) : LocalS (fun s => s.tabRight n) := by
  unfold Screen.tabRight
  refine .ite (c := fun _ => n = 0) (fun _ _ => Iff.rfl) .id ?_
  refine LocalS.incAge (f := fun s => Screen.tabRightLoop s.tabRuler s.sizeX n s.cursorX >>= fun x =>
    s.moveCursor (if x ≥ s.sizeX then pred32 s.sizeX else x) s.cursorY) ?_
  exact .val (fun _ _ => rfl) fun a => .move (fun _ _ => rfl) (fun _ _ => rfl)

theorem LocalS.tabLeft (n : Nat) : LocalS (fun s => s.tabLeft n) := by
  unfold Screen.tabLeft
  refine .ite (c := fun _ => n = 0) (fun _ _ => Iff.rfl) .id ?_
  refine LocalS.incAge (f := fun s => Screen.tabLeftLoop s.tabRuler n s.cursorX >>= fun x =>
    s.moveCursor x s.cursorY) ?_
  exact .val (fun _ _ => rfl) fun a => .move (fun _ _ => rfl) (fun _ _ => rfl)

/-! ### Settings -/

theorem LocalS.setMargins (t b : Nat) : LocalS (fun s => .ok (s.setMargins t b)) := by
  refine .pure ?_ ?_
  · intro B s
    unfold Screen.setMargins
    dsimp only
    generalize (if t = 0 then 1 else t) = t
    show (if b ≤ t then _ else if b > s.sizeY then _ else _) = _
    split
    · rfl
    · split <;> rfl
  · intro s
    unfold Screen.setMargins
    dsimp only
    generalize (if t = 0 then 1 else t) = t
    split
    · exact ⟨rfl, rfl⟩
    · split <;> exact ⟨rfl, rfl⟩

theorem LocalS.setDefAttr (a : Attr) : LocalS (fun s => .ok (s.setDefAttr a)) :=
  .pure (fun _ _ => rfl) fun _ => ⟨rfl, rfl⟩

theorem LocalS.reset : LocalS Screen.reset :=
  LocalS.incAge (f := fun s => Screen.initTabs s.tabRuler s.sizeX >>= fun tab => .ok { s.touch with
    flags := 0#32, marginTop := 0, marginBottom := pred32 s.sizeY, useAlt := false, tabRuler := tab })
    (.val (fun _ _ => rfl) fun _ => .pure (fun _ _ => rfl) fun _ => ⟨rfl, rfl⟩)

theorem LocalS.setFlags (f : BitVec 32) : LocalS (fun s => s.setFlags f) := by
  unfold Screen.setFlags
  refine .ite (c := fun _ => f = 0#32) (fun _ _ => Iff.rfl) .id ?_
  have H := LocalS.letVal (e := fun s => s.flags) (f := fun old s => (if !old.getLsbD 4 && f.getLsbD 4 then
      (if !old.getLsbD 6 && f.getLsbD 6 then
        { s with flags := s.flags ||| f, age := s.ageCnt, useAlt := true, defAttrMain := s.defAttr }
        else { s with flags := s.flags ||| f } : Screen).markCursor else
      .ok (if !old.getLsbD 6 && f.getLsbD 6 then
        { s with flags := s.flags ||| f, age := s.ageCnt, useAlt := true, defAttrMain := s.defAttr }
        else { s with flags := s.flags ||| f })) >>= fun s =>
        .ok (if !old.getLsbD 3 && f.getLsbD 3 then s.touch else s)) (fun _ _ => rfl) (fun old => by
    refine .comp ?_ (.pure ?_ ?_)
    · generalize (!old.getLsbD 6 && f.getLsbD 6) = b
      refine .ite (c := fun _ => (!old.getLsbD 4 && f.getLsbD 4) = true) (fun _ _ => Iff.rfl)
        (LocalS.markCursor.pre ?_ ?_) (.pure ?_ ?_)
      all_goals cases b
      all_goals first | exact fun _ _ => rfl | exact fun _ => ⟨rfl, rfl⟩
    · intro B s; split <;> rfl
    · intro s; split <;> exact ⟨rfl, rfl⟩)
  exact H.incAge

theorem LocalS.resetFlags (f : BitVec 32) : LocalS (fun s => s.resetFlags f) := by
  unfold Screen.resetFlags
  refine .ite (c := fun _ => f = 0#32) (fun _ _ => Iff.rfl) .id ?_
  have H := LocalS.letVal (e := fun s => s.flags) (f := fun old s => (if old.getLsbD 4 && f.getLsbD 4 then
      (if old.getLsbD 6 && f.getLsbD 6 then
        { s with flags := s.flags &&& ~~~f, age := s.ageCnt, useAlt := false }
        else { s with flags := s.flags &&& ~~~f } : Screen).markCursor else
      .ok (if old.getLsbD 6 && f.getLsbD 6 then
        { s with flags := s.flags &&& ~~~f, age := s.ageCnt, useAlt := false }
        else { s with flags := s.flags &&& ~~~f })) >>= fun s =>
        .ok (if old.getLsbD 3 && f.getLsbD 3 then s.touch else s)) (fun _ _ => rfl) (fun old => by
    refine .comp ?_ (.pure ?_ ?_)
    · generalize (old.getLsbD 6 && f.getLsbD 6) = b
      refine .ite (c := fun _ => (old.getLsbD 4 && f.getLsbD 4) = true) (fun _ _ => Iff.rfl)
        (LocalS.markCursor.pre ?_ ?_) (.pure ?_ ?_)
      all_goals cases b
      all_goals first | exact fun _ _ => rfl | exact fun _ => ⟨rfl, rfl⟩
    · intro B s; split <;> rfl
    · intro s; split <;> exact ⟨rfl, rfl⟩)
  exact H.incAge

theorem LocalS.putTab (b : Bool) : LocalS (fun s => s.putTab b) := by
  unfold Screen.putTab
  refine .ite (c := fun s => s.cursorX ≥ s.sizeX) (fun _ _ => Iff.rfl) .id ?_
  refine .ite (c := fun s => s.cursorX < s.tabRuler.length) (fun _ _ => Iff.rfl)
    (.pure (fun _ _ => rfl) fun _ => ⟨rfl, rfl⟩) ?_
  exact ⟨fun _ _ => rfl, fun _ _ h => by cases h⟩

theorem LocalS.resetAllTabstops : LocalS Screen.resetAllTabstops := by
  unfold Screen.resetAllTabstops
  refine .ite (c := fun s => s.tabRuler.length < s.sizeX) (fun _ _ => Iff.rfl) ?_
    (.pure (fun _ _ => rfl) fun _ => ⟨rfl, rfl⟩)
  exact ⟨fun _ _ => rfl, fun _ _ h => by cases h⟩

/-! ### Cells -/

theorem LocalS.of_eq {f g : Screen → R Screen} (hg : LocalS g) (h : ∀ s, f s = g s) : LocalS f := by
  rw [show f = g from funext h]; exact hg

/-- A change of the cells of row `y` by a function that depends on fields. -/
theorem LocalS.row {y : Screen → Nat} {f : Screen → Line → R Line} (hy : ∀ B s, y (PScreen.put B s) = y s)
    (hf : ∀ B s, f (PScreen.put B s) = f s) :
    LocalS (fun s => match s.lines[y s]? with
      | none => .error .oobLine
      | some l => f s l >>= fun l => .ok (s.withLines (s.lines.set (y s) l))) := by
  refine .of_eq (.lines (f := fun s => match s.lines[y s]? with
      | none => .error .oobLine
      | some l => f s l >>= fun l => .ok (s.lines.set (y s) l)) ?_ ?_) ?_
  · intro B s
    show (match s.lines[y (PScreen.put B s)]? with
      | none => .error .oobLine
      | some l => f (PScreen.put B s) l >>= fun l => .ok (s.lines.set (y (PScreen.put B s)) l) : R (List Line)) = _
    rw [hy, hf]
  · intro s ls h
    split at h
    · cases h
    · rename_i l _
      rcases hh : f s l with _ | l'
      · rw [hh] at h; cases h
      · rw [hh] at h; cases h; exact List.length_set ..
  · intro s
    cases s.lines[y s]? with
    | none => rfl
    | some l =>
      dsimp only
      cases f s l <;> rfl

theorem bind_two {α β γ δ : Type} (A : R α) (U : α → R β) (g : β → γ) (W : γ → δ) :
    (A >>= fun c => U c >>= fun d => Except.ok (W (g d))) =
      ((A >>= fun c => U c >>= fun d => Except.ok (g d)) >>= fun l => Except.ok (W l)) := by
  cases A with
  | error e => rfl
  | ok a =>
    simp only [bind, Except.bind]
    cases U a <;> rfl

theorem LocalS.insertChars (n : Nat) : LocalS (fun s => s.insertChars n) := by
  unfold Screen.insertChars
  refine .ite (c := fun s => n = 0 ∨ s.sizeY = 0 ∨ s.sizeX = 0) (fun _ _ => Iff.rfl) .id ?_
  have H := LocalS.row (y := fun s => s.cursorY) (f := fun s l =>
    (if s.sizeX - s.cursorX - (if n > s.sizeX - s.cursorX then s.sizeX - s.cursorX else n) ≠ 0 then
      Screen.memmove .oobCell l.cells (s.cursorX + (if n > s.sizeX - s.cursorX then s.sizeX - s.cursorX else n))
        s.cursorX (s.sizeX - s.cursorX - (if n > s.sizeX - s.cursorX then s.sizeX - s.cursorX else n))
      else .ok l.cells : R (List Cell)) >>= fun cells =>
    Screen.updCells cells s.cursorX (s.cursorX + (if n > s.sizeX - s.cursorX then s.sizeX - s.cursorX else n))
      (fun _ => s.blank) >>= fun cells => .ok { l with cells := cells }) (fun _ _ => rfl) (fun _ _ => rfl)
  refine .of_eq (LocalS.incAge (LocalS.pre H (g := fun s => s.touch.clampCursor) (fun _ _ => rfl)
    (fun _ => ⟨rfl, rfl⟩))) ?_
  intro s
  dsimp only
  cases s.incAge.touch.clampCursor.lines[s.incAge.touch.clampCursor.cursorY]? with
  | none => rfl
  | some l =>
    exact bind_two _ _ (fun cells => { l with cells := cells })
      (fun l => s.incAge.touch.clampCursor.withLines (s.incAge.touch.clampCursor.lines.set
        s.incAge.touch.clampCursor.cursorY l))

theorem LocalS.deleteChars (n : Nat) : LocalS (fun s => s.deleteChars n) := by
  unfold Screen.deleteChars
  refine .ite (c := fun s => n = 0 ∨ s.sizeY = 0 ∨ s.sizeX = 0) (fun _ _ => Iff.rfl) .id ?_
  have H := LocalS.row (y := fun s => s.cursorY) (f := fun s l =>
    (if s.sizeX - s.cursorX - (if n > s.sizeX - s.cursorX then s.sizeX - s.cursorX else n) ≠ 0 then
      Screen.memmove .oobCell l.cells s.cursorX
        (s.cursorX + (if n > s.sizeX - s.cursorX then s.sizeX - s.cursorX else n))
        (s.sizeX - s.cursorX - (if n > s.sizeX - s.cursorX then s.sizeX - s.cursorX else n))
      else .ok l.cells : R (List Cell)) >>= fun cells =>
    Screen.updCells cells
      (s.cursorX + (s.sizeX - s.cursorX - (if n > s.sizeX - s.cursorX then s.sizeX - s.cursorX else n)))
      (s.cursorX + (s.sizeX - s.cursorX - (if n > s.sizeX - s.cursorX then s.sizeX - s.cursorX else n)) +
        (if n > s.sizeX - s.cursorX then s.sizeX - s.cursorX else n))
      (fun _ => s.blank) >>= fun cells => .ok { l with cells := cells }) (fun _ _ => rfl) (fun _ _ => rfl)
  refine .of_eq (LocalS.incAge (LocalS.pre H (g := fun s => s.touch.clampCursor) (fun _ _ => rfl)
    (fun _ => ⟨rfl, rfl⟩))) ?_
  intro s
  dsimp only
  cases s.incAge.touch.clampCursor.lines[s.incAge.touch.clampCursor.cursorY]? with
  | none => rfl
  | some l =>
    exact bind_two _ _ (fun cells => { l with cells := cells })
      (fun l => s.incAge.touch.clampCursor.withLines (s.incAge.touch.clampCursor.lines.set
        s.incAge.touch.clampCursor.cursorY l))

theorem LocalS.writeAt (x y ch len : Nat) (attr : Attr) : LocalS (fun s => s.writeAt x y ch len attr) := by
  unfold Screen.writeAt
  refine .ite (c := fun _ => len = 0) (fun _ _ => Iff.rfl) .id ?_
  refine .ite (c := fun s => x ≥ s.sizeX ∨ y ≥ s.sizeY) (fun _ _ => Iff.rfl) .id ?_
  have H := LocalS.row (y := fun _ => y) (f := fun s l =>
    s.insertShift l x len >>= fun l =>
    Screen.updCells l.cells x (x + 1) (fun _ => { ch := ch, width := len, attr := attr, age := s.ageCnt }) >>=
      fun cells => Screen.updCells cells (x + 1) (min (x + len) s.sizeX)
        (fun c => { c with age := s.ageCnt, width := 0 }) >>= fun cells => .ok { l with cells := cells })
      (fun _ _ => rfl) (fun _ _ => rfl)
  refine .of_eq H ?_
  intro s
  cases s.lines[y]? with
  | none => rfl
  | some l =>
    dsimp only
    cases s.insertShift l x len with
    | error e => rfl
    | ok l =>
      simp only [bind, Except.bind]
      cases Screen.updCells l.cells _ _ _ with
      | error e => rfl
      | ok cells =>
        dsimp only
        cases Screen.updCells cells _ _ _ <;> rfl

theorem eraseRows_put (B : Links) (s : Screen) (pr : Bool) (xTo yTo : Nat) : ∀ (n yFrom xFrom : Nat) (ls : List Line),
    (put B s).eraseRows pr xTo yTo n yFrom xFrom ls = s.eraseRows pr xTo yTo n yFrom xFrom ls
  | 0, _, _, _ => rfl
  | n + 1, yFrom, xFrom, ls => by
    rw [Screen.eraseRows, Screen.eraseRows]
    cases ls[yFrom]? with
    | none => rfl
    | some l =>
      dsimp only
      show (s.eraseCells _ _ _ _ >>= _) = _
      congr 1
      funext cells
      exact eraseRows_put B s pr xTo yTo n _ _ _

theorem eraseRows_len {s : Screen} {pr : Bool} {xTo yTo : Nat} : ∀ {n yFrom xFrom : Nat} {ls ls' : List Line},
    s.eraseRows pr xTo yTo n yFrom xFrom ls = .ok ls' → ls'.length = ls.length
  | 0, _, _, _, _, h => by cases h; rfl
  | n + 1, yFrom, xFrom, ls, ls', h => by
    rw [Screen.eraseRows] at h
    cases hl : ls[yFrom]? with
    | none => rw [hl] at h; cases h
    | some l =>
      rw [hl] at h
      dsimp only at h
      rcases hc : s.eraseCells l.cells xFrom (if yFrom = yTo then xTo else pred32 s.sizeX) pr with e | cells
      · rw [hc] at h; cases h
      · rw [hc] at h
        rw [eraseRows_len (n := n) h, List.length_set]

theorem LocalS.eraseRegion (xFrom yFrom xTo yTo : Nat) (pr : Bool) :
    LocalS (fun s => s.eraseRegion xFrom yFrom xTo yTo pr) := by
  unfold Screen.eraseRegion
  refine LocalS.pre (g := Screen.touch) (f := fun s => s.eraseRows pr
    (if xTo ≥ s.sizeX then pred32 s.sizeX else xTo) (if yTo ≥ s.sizeY then pred32 s.sizeY else yTo)
    ((if yTo ≥ s.sizeY then pred32 s.sizeY else yTo) + 1 - yFrom) yFrom xFrom s.lines >>= fun ls =>
    .ok (s.withLines ls)) ?_ (fun _ _ => rfl) (fun _ => ⟨rfl, rfl⟩)
  exact .lines (fun B s => eraseRows_put B s ..) (fun s ls h => eraseRows_len h)

/-- `screen_erase_region` with bounds computed from fields. -/
theorem LocalS.erase {a b c d : Screen → Nat} (pr : Bool) (ha : ∀ B s, a (PScreen.put B s) = a s)
    (hb : ∀ B s, b (PScreen.put B s) = b s) (hc : ∀ B s, c (PScreen.put B s) = c s)
    (hd : ∀ B s, d (PScreen.put B s) = d s) : LocalS (fun s => s.incAge.eraseRegion (a s) (b s) (c s) (d s) pr) :=
  .letVal (e := a) (f := fun a s => s.incAge.eraseRegion a (b s) (c s) (d s) pr) ha fun a =>
  .letVal (e := b) (f := fun b s => s.incAge.eraseRegion a b (c s) (d s) pr) hb fun b =>
  .letVal (e := c) (f := fun c s => s.incAge.eraseRegion a b c (d s) pr) hc fun c =>
  .letVal (e := d) (f := fun d s => s.incAge.eraseRegion a b c d pr) hd fun d =>
  (LocalS.eraseRegion a b c d pr).incAge

theorem LocalS.eraseCursor : LocalS Screen.eraseCursor :=
  .erase false (fun _ _ => rfl) (fun _ _ => rfl) (fun _ _ => rfl) (fun _ _ => rfl)

theorem LocalS.eraseChars (n : Nat) : LocalS (fun s => s.eraseChars n) := by
  unfold Screen.eraseChars
  exact .ite (c := fun _ => n = 0) (fun _ _ => Iff.rfl) .id
    (.erase false (fun _ _ => rfl) (fun _ _ => rfl) (fun _ _ => rfl) (fun _ _ => rfl))

theorem LocalS.eraseCursorToEnd (b : Bool) : LocalS (fun s => s.eraseCursorToEnd b) :=
  .erase b (fun _ _ => rfl) (fun _ _ => rfl) (fun _ _ => rfl) (fun _ _ => rfl)

theorem LocalS.eraseHomeToCursor (b : Bool) : LocalS (fun s => s.eraseHomeToCursor b) :=
  .erase b (a := fun _ => 0) (fun _ _ => rfl) (fun _ _ => rfl) (fun _ _ => rfl) (fun _ _ => rfl)

theorem LocalS.eraseCurrentLine (b : Bool) : LocalS (fun s => s.eraseCurrentLine b) :=
  .erase b (a := fun _ => 0) (fun _ _ => rfl) (fun _ _ => rfl) (fun _ _ => rfl) (fun _ _ => rfl)

theorem LocalS.eraseScreenToCursor (b : Bool) : LocalS (fun s => s.eraseScreenToCursor b) :=
  .erase b (a := fun _ => 0) (b := fun _ => 0) (fun _ _ => rfl) (fun _ _ => rfl) (fun _ _ => rfl) (fun _ _ => rfl)

theorem LocalS.eraseCursorToScreen (b : Bool) : LocalS (fun s => s.eraseCursorToScreen b) :=
  .erase b (fun _ _ => rfl) (fun _ _ => rfl) (fun _ _ => rfl) (fun _ _ => rfl)

theorem LocalS.eraseScreen (b : Bool) : LocalS (fun s => s.eraseScreen b) :=
  .erase b (a := fun _ => 0) (b := fun _ => 0) (fun _ _ => rfl) (fun _ _ => rfl) (fun _ _ => rfl) (fun _ _ => rfl)

/-! ### Resizing -/

theorem clearAlts_put (B : Links) (s : Screen) (x : Nat) : ∀ (j : Nat) (ls : List Line),
    (put B s).clearAlts x j ls = s.clearAlts x j ls
  | _, [] => rfl
  | j, l :: ls => by
    rw [Screen.clearAlts, Screen.clearAlts]
    show (s.clearAlt x j l >>= _) = _
    congr 1
    funext l'
    rw [clearAlts_put B s x (j + 1) ls]

theorem clearAlts_len {s : Screen} {x : Nat} : ∀ {j : Nat} {ls ls' : List Line},
    s.clearAlts x j ls = .ok ls' → ls'.length = ls.length
  | _, [], _, h => by cases h; rfl
  | j, l :: ls, ls', h => by
    rw [Screen.clearAlts] at h
    rcases h1 : s.clearAlt x j l with _ | l'
    · rw [h1] at h; cases h
    rw [h1] at h
    rcases h2 : s.clearAlts x (j + 1) ls with _ | ls2
    · have h : (Except.bind (s.clearAlts x (j + 1) ls) _) = _ := h
      rw [h2] at h; cases h
    have h : (Except.bind (s.clearAlts x (j + 1) ls) _) = _ := h
    rw [h2] at h
    cases h
    rw [List.length_cons, List.length_cons, clearAlts_len h2]

theorem LocalS.resizeClear (x : Nat) : LocalS (fun s => s.resizeClear x) := by
  have H : LocalS (fun s => s.clearAlts x 0 s.alt >>= fun alt => Screen.initTabs s.tabRuler x >>= fun tab =>
      .ok { s with
        main := s.main.mapIdx (fun j l => s.clearMain (if x > s.sizeX then s.sizeX else x) j l)
        alt := alt, marginTop := 0, marginBottom := pred32 s.sizeY, tabRuler := tab, sizeX := x }) := by
    constructor
    · intro B s
      show ((PScreen.put B s).clearAlts x 0 s.alt >>= fun alt => Screen.initTabs s.tabRuler x >>= fun tab => _) = _
      rw [clearAlts_put]
      cases s.clearAlts x 0 s.alt with
      | error e => rfl
      | ok alt =>
        simp only [bind, Except.bind]
        cases Screen.initTabs s.tabRuler x <;> rfl
    · intro s s' h
      rcases h1 : s.clearAlts x 0 s.alt with _ | alt
      · rw [h1] at h; cases h
      rw [h1] at h
      rcases h2 : Screen.initTabs s.tabRuler x with _ | tab
      · rw [h2] at h; cases h
      rw [h2] at h
      cases h
      exact ⟨List.length_mapIdx .., clearAlts_len h1⟩
  have G : LocalS (fun s => if s.cursorX ≥ s.sizeX then s.moveCursor (pred32 s.sizeX) s.cursorY else .ok s) :=
    .ite (fun _ _ => Iff.rfl) (.move (fun _ _ => rfl) (fun _ _ => rfl)) .id
  refine .of_eq (H.comp G).incAge ?_
  intro s
  unfold Screen.resizeClear
  dsimp only
  cases s.incAge.clearAlts x 0 s.incAge.alt with
  | error e => rfl
  | ok alt =>
    simp only [bind, Except.bind]
    cases Screen.initTabs s.incAge.tabRuler x <;> rfl

theorem widenLines_local (x : Nat) : ∀ (n i : Nat), Local (fun s => Screen.widenLines x n i s)
  | 0, i => ⟨fun _ _ => rfl, fun s r h => by cases h; exact ⟨rfl, rfl⟩⟩
  | n + 1, i => by
    have ih := widenLines_local x n (i + 1)
    have hr : ∀ (B : Links) (s : Screen) (l : Line), (put B s).lineResize l x =
        ((s.lineResize l x).1, put B (s.lineResize l x).2) := by
      intro B s l
      unfold Screen.lineResize
      split
      · dsimp only
        show (if s.alloc.1 = true then _ else _) = _
        split <;> rfl
      · rfl
    have hl : ∀ (s : Screen) (l : Line), (s.lineResize l x).2.main = s.main ∧ (s.lineResize l x).2.alt = s.alt := by
      intro s l
      unfold Screen.lineResize
      split
      · dsimp only
        split <;> exact ⟨rfl, rfl⟩
      · exact ⟨rfl, rfl⟩
    constructor
    · intro B s
      rw [Screen.widenLines, Screen.widenLines]
      show (match s.main[i]?, s.alt[i]? with | some m, some a => _ | _, _ => _) = _
      rcases s.main[i]? with _ | m
      · rfl
      rcases s.alt[i]? with _ | a
      · rfl
      dsimp only
      rw [hr]
      rcases s.lineResize m x with ⟨_ | m', s1⟩
      · rfl
      dsimp only
      show (match (put B { s1 with main := s1.main.set i m' }).lineResize a x with
        | (none, s) => _ | (some a, s) => _) = _
      rw [hr]
      rcases Screen.lineResize { s1 with main := s1.main.set i m' } a x with ⟨_ | a', s2⟩
      · rfl
      exact ih.put B { s2 with alt := s2.alt.set i a' }
    · intro s r h
      rw [Screen.widenLines] at h
      rcases h1 : s.main[i]? with _ | m
      · rw [h1] at h; cases h
      rcases h2 : s.alt[i]? with _ | a
      · rw [h1, h2] at h; cases h
      rw [h1, h2] at h
      dsimp only at h
      have l1 := hl s m
      rcases h3 : s.lineResize m x with ⟨_ | m', s1⟩
      · rw [h3] at h l1; cases h
        exact ⟨by rw [l1.1], by rw [l1.2]⟩
      rw [h3] at h l1
      dsimp only at h l1
      have l2 := hl { s1 with main := s1.main.set i m' } a
      rcases h4 : Screen.lineResize { s1 with main := s1.main.set i m' } a x with ⟨_ | a', s2⟩
      · rw [h4] at h l2; cases h
        dsimp only at l2
        exact ⟨by rw [l2.1, List.length_set, l1.1], by rw [l2.2, l1.2]⟩
      rw [h4] at h l2
      dsimp only at h l2
      have := ih.len _ _ h
      dsimp only at this
      rw [List.length_set] at this
      exact ⟨by rw [this.1, l2.1, List.length_set, l1.1], by rw [this.2, l2.2, l1.2]⟩

theorem resizeWidth_local (x : Nat) : Local (fun s => s.resizeWidth x) := by
  constructor
  · intro B s
    unfold Screen.resizeWidth
    show (if x > s.sizeX then if s.alloc.1 = true then _ else _ else _) = _
    by_cases h1 : x > s.sizeX
    · rw [if_pos h1, if_pos h1]
      dsimp only
      by_cases h2 : s.alloc.1 = true
      · rw [if_pos h2, if_pos h2]
        exact (widenLines_local x _ 0).put B { s.alloc.2 with
          tabRuler := s.alloc.2.tabRuler.take x ++ List.replicate (x - s.alloc.2.tabRuler.length) false }
      · rw [if_neg h2, if_neg h2]; rfl
    · rw [if_neg h1, if_neg h1]; rfl
  · intro s r h
    unfold Screen.resizeWidth at h
    by_cases h1 : x > s.sizeX
    · rw [if_pos h1] at h
      dsimp only at h
      by_cases h2 : s.alloc.1 = true
      · rw [if_pos h2] at h
        have := (widenLines_local x s.main.length 0).len { s.alloc.2 with
          tabRuler := s.alloc.2.tabRuler.take x ++ List.replicate (x - s.alloc.2.tabRuler.length) false } _ h
        exact this
      · rw [if_neg h2] at h; cases h; exact ⟨rfl, rfl⟩
    · rw [if_neg h1] at h; cases h; exact ⟨rfl, rfl⟩

end PScreen
end Verif
