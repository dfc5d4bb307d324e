import Verif.Model.ScreenApi

/-!
# No call changes which allocations succeed
-/

namespace Verif
namespace Screen

/-- The computation leaves `allocOk` as it is in `s`. -/
def SameMem (s : Screen) (x : R Screen) : Prop := R.SatK x (fun _ => True) (fun s' => s'.allocOk = s.allocOk)

theorem SameMem.ok {s t : Screen} (h : t.allocOk = s.allocOk) : SameMem s (.ok t) := h

theorem SameMem.error {s : Screen} {k : UB} : SameMem s (.error k) := trivial

theorem SameMem.of {s t : Screen} {x : R Screen} (h : SameMem t x) (e : t.allocOk = s.allocOk) : SameMem s x :=
  R.SatK.mono h (fun _ h => h) (fun _ h => h.trans e)

theorem SameMem.bind {s : Screen} {x : R Screen} {f : Screen → R Screen} (h : SameMem s x) (hf : ∀ t, SameMem t (f t)) :
    SameMem s (x >>= f) :=
  R.SatK.bind h (fun t ht => (hf t).of ht)

theorem SameMem.pure {α : Type} {s : Screen} {x : R α} {f : α → R Screen} (hf : ∀ a, SameMem s (f a)) :
    SameMem s (x >>= f) := by
  cases x with
  | ok a => exact hf a
  | error e => exact trivial

theorem SameMem.iteR {s : Screen} {p : Prop} [Decidable p] {x y : R Screen} (h : SameMem s x) (h' : SameMem s y) :
    SameMem s (if p then x else y) := by
  split
  · exact h
  · exact h'

theorem incAge_mem (s : Screen) : s.incAge.allocOk = s.allocOk := by unfold incAge; dsimp only; split <;> rfl

theorem withLines_mem (s : Screen) (ls : List Line) : (s.withLines ls).allocOk = s.allocOk := by
  unfold withLines; split <;> rfl

theorem ite_mem {s t u : Screen} {p : Prop} [Decidable p] (h : t.allocOk = s.allocOk) (h' : u.allocOk = s.allocOk) :
    (if p then t else u).allocOk = s.allocOk := by
  split
  · exact h
  · exact h'

theorem markCursor_mem (s : Screen) : SameMem s s.markCursor := by
  unfold markCursor
  split
  · exact .error
  · split
    · exact withLines_mem s _
    · exact .error

theorem moveCursor_mem (s : Screen) (x y : Nat) : SameMem s (s.moveCursor x y) := by
  unfold moveCursor
  split
  · exact .ok rfl
  · split
    · exact .ok rfl
    · exact (markCursor_mem s).bind fun t => (markCursor_mem _).of rfl

theorem sbEvict_mem (s : Screen) : SameMem s s.sbEvict := by
  unfold sbEvict
  split
  · exact .error
  · exact .pure fun _ => .ok rfl

theorem linkToScrollback_mem (s : Screen) (l : Line) : SameMem s (s.linkToScrollback l) := by
  unfold linkToScrollback
  dsimp only
  refine .iteR (.ok rfl) ?_
  refine .iteR ?_ (.ok rfl)
  exact R.SatK.bind (sbEvict_mem s.touch) fun t ht => ht

theorem lineNew_mem (s : Screen) (w : Nat) : (s.lineNew w).2.allocOk = s.allocOk := by
  unfold lineNew alloc
  dsimp only
  split
  · rfl
  · split <;> rfl

theorem lineResize_mem (s : Screen) (l : Line) (w : Nat) : (s.lineResize l w).2.allocOk = s.allocOk := by
  unfold lineResize alloc
  dsimp only
  split
  · split <;> rfl
  · rfl

theorem scrollUpLoop_mem : ∀ (n i : Nat) (s : Screen),
    R.SatK (scrollUpLoop n i s) (fun _ => True) (fun r => r.1.allocOk = s.allocOk)
  | 0, _, _ => rfl
  | n + 1, i, s => by
    unfold scrollUpLoop
    split
    · exact trivial
    · rename_i l _
      have hn : (if s.fAlt then (none, s) else s.lineNew s.sizeX).2.allocOk = s.allocOk := by
        split
        · rfl
        · exact lineNew_mem s _
      revert hn
      generalize (if s.fAlt then (none, s) else s.lineNew s.sizeX) = p
      obtain ⟨nl, t⟩ := p
      intro hn
      dsimp only
      split
      · refine R.SatK.bind (linkToScrollback_mem t l) fun u hu => ?_
        refine R.SatK.bind (scrollUpLoop_mem n (i + 1) u) fun r hr => ?_
        exact hr.trans (hu.trans hn)
      · refine R.SatK.bind (P := fun _ => True) (by cases t.clearLine l <;> exact trivial) fun u _ => ?_
        refine R.SatK.bind (scrollUpLoop_mem n (i + 1) t) fun r hr => ?_
        exact hr.trans hn

theorem scrollUpChunk_mem (s : Screen) (m n : Nat) : SameMem s (s.scrollUpChunk m n) := by
  unfold scrollUpChunk
  refine R.SatK.bind (scrollUpLoop_mem n 0 s) fun r hr => ?_
  refine SameMem.of (t := r.1) ?_ hr
  refine SameMem.pure fun ls => ?_
  refine SameMem.pure fun ls => ?_
  refine SameMem.ok ?_
  split
  · exact withLines_mem r.1 _
  · exact withLines_mem r.1 _

theorem scrollUpFuel_mem : ∀ (f : Nat) (s : Screen) (n : Nat), SameMem s (scrollUpFuel f s n)
  | 0, _, _ => rfl
  | f + 1, s, n => by
    unfold scrollUpFuel
    dsimp only
    refine .iteR (.ok rfl) (.iteR ?_ ?_)
    · exact SameMem.bind (SameMem.of (t := s.touch) (scrollUpChunk_mem _ _ _) rfl) fun t => scrollUpFuel_mem f t _
    · exact SameMem.of (t := s.touch) (scrollUpChunk_mem _ _ _) rfl

theorem scrollUpI_mem (s : Screen) (n : Nat) : SameMem s (s.scrollUpI n) := scrollUpFuel_mem n s n

theorem scrollDownChunk_mem (s : Screen) (m n : Nat) : SameMem s (s.scrollDownChunk m n) := by
  unfold scrollDownChunk
  refine SameMem.pure fun r => ?_
  refine SameMem.pure fun ls => ?_
  refine SameMem.pure fun ls => ?_
  refine SameMem.ok ?_
  split
  · exact withLines_mem s _
  · exact withLines_mem s _

theorem scrollDownFuel_mem : ∀ (f : Nat) (s : Screen) (n : Nat), SameMem s (scrollDownFuel f s n)
  | 0, _, _ => rfl
  | f + 1, s, n => by
    unfold scrollDownFuel
    dsimp only
    refine .iteR (.ok rfl) (.iteR ?_ ?_)
    · exact SameMem.bind (SameMem.of (t := s.touch) (scrollDownChunk_mem _ _ _) rfl) fun t => scrollDownFuel_mem f t _
    · exact SameMem.of (t := s.touch) (scrollDownChunk_mem _ _ _) rfl

theorem scrollDownI_mem (s : Screen) (n : Nat) : SameMem s (s.scrollDownI n) := scrollDownFuel_mem n s n

theorem writeAt_mem (s : Screen) (x y ch len : Nat) (a : Attr) : SameMem s (s.writeAt x y ch len a) := by
  unfold writeAt
  split
  · exact .ok rfl
  · split
    · exact .ok rfl
    · split
      · exact .error
      · exact .pure fun _ => .pure fun _ => .pure fun _ => .ok (withLines_mem s _)

theorem eraseRegion_mem (s : Screen) (a b c d : Nat) (p : Bool) : SameMem s (s.eraseRegion a b c d p) := by
  unfold eraseRegion
  exact .pure fun _ => .ok (withLines_mem _ _)

theorem writeW_mem (s : Screen) (ch len : Nat) (a : Attr) : SameMem s (s.writeW ch len a) := by
  unfold writeW
  refine SameMem.of (t := s.incAge) ?_ (incAge_mem s)
  refine SameMem.bind (.iteR (.iteR (moveCursor_mem _ _ _) (moveCursor_mem _ _ _)) (.ok rfl)) fun t => ?_
  refine SameMem.bind (.iteR ((moveCursor_mem _ _ _).bind fun u => scrollUpI_mem u 1) (.ok rfl)) fun u => ?_
  exact (writeAt_mem _ _ _ _ _ _).bind fun _ => moveCursor_mem _ _ _

theorem write_mem (s : Screen) (ch : Nat) (a : Attr) : SameMem s (s.write ch a) := by
  unfold write
  refine SameMem.pure fun len => ?_
  split
  · exact .ok rfl
  · exact writeW_mem s ch len a

theorem moveUp_mem (s : Screen) (n : Nat) (b : Bool) : SameMem s (s.moveUp n b) := by
  unfold moveUp
  split
  · exact .ok rfl
  · refine SameMem.of (t := s.incAge) ?_ (incAge_mem s)
    dsimp only
    refine .iteR ?_ ?_
    · refine SameMem.bind ?_ fun _ => moveCursor_mem _ _ _
      split
      · exact scrollDownI_mem _ _
      · exact .ok rfl
    · exact moveCursor_mem _ _ _

theorem moveDown_mem (s : Screen) (n : Nat) (b : Bool) : SameMem s (s.moveDown n b) := by
  unfold moveDown
  split
  · exact .ok rfl
  · refine SameMem.of (t := s.incAge) ?_ (incAge_mem s)
    dsimp only
    generalize (if s.incAge.cursorY ≤ s.incAge.marginBottom then u32 (s.incAge.marginBottom + 1) else s.incAge.sizeY) = size
    generalize pred32 (sub32 size s.incAge.cursorY) = diff
    generalize pred32 size = y
    generalize u32 (s.incAge.cursorY + n) = y'
    refine .iteR ?_ (moveCursor_mem _ _ _)
    · refine SameMem.bind ?_ fun _ => moveCursor_mem _ _ _
      split
      · exact scrollUpI_mem _ _
      · exact .ok rfl

theorem moveLineHome_mem (s : Screen) : SameMem s s.moveLineHome := (moveCursor_mem _ _ _).of (incAge_mem s)

theorem growLines_mem (w : Nat) : ∀ (n : Nat) (s : Screen), (growLines w n s).2.allocOk = s.allocOk
  | 0, _ => rfl
  | n + 1, s => by
    unfold growLines
    have h1 := lineNew_mem s w
    revert h1
    generalize s.lineNew w = p
    obtain ⟨o, t⟩ := p
    intro h1
    cases o with
    | none => exact h1
    | some m =>
      dsimp only
      have h2 := lineNew_mem t w
      revert h2
      generalize t.lineNew w = p
      obtain ⟨o, u⟩ := p
      intro h2
      cases o with
      | none => exact h2.trans h1
      | some a => exact (growLines_mem w n _).trans (h2.trans h1)

theorem widenLines_mem (x : Nat) : ∀ (n i : Nat) (s : Screen),
    R.SatK (widenLines x n i s) (fun _ => True) (fun r => r.2.allocOk = s.allocOk)
  | 0, _, _ => rfl
  | n + 1, i, s => by
    unfold widenLines
    split
    · rename_i m a _ _
      have h1 := lineResize_mem s m x
      revert h1
      generalize s.lineResize m x = p
      obtain ⟨o, t⟩ := p
      intro h1
      cases o with
      | none => exact h1
      | some m' =>
        dsimp only
        have h2 := lineResize_mem { t with main := t.main.set i m' } a x
        revert h2
        generalize lineResize { t with main := t.main.set i m' } a x = p
        obtain ⟨o, u⟩ := p
        intro h2
        cases o with
        | none => exact h2.trans h1
        | some a' => exact R.SatK.mono (widenLines_mem x n (i + 1) _) (fun _ h => h) (fun _ h => h.trans (h2.trans h1))
    · exact trivial

theorem resizeLines_mem (s : Screen) (x y : Nat) : (s.resizeLines x y).2.allocOk = s.allocOk := by
  unfold resizeLines alloc
  dsimp only
  split
  · split
    · split
      · exact growLines_mem _ _ _
      · rfl
    · rfl
  · rfl

theorem resizeWidth_mem (s : Screen) (x : Nat) : R.SatK (s.resizeWidth x) (fun _ => True) (fun r => r.2.allocOk = s.allocOk) := by
  unfold resizeWidth alloc
  dsimp only
  split
  · split
    · exact R.SatK.mono (widenLines_mem _ _ _ _) (fun _ h => h) (fun _ h => h)
    · rfl
  · rfl

theorem resizeClear_mem (s : Screen) (x : Nat) : SameMem s (s.resizeClear x) := by
  unfold resizeClear
  refine SameMem.of (t := s.incAge) ?_ (incAge_mem s)
  refine SameMem.pure fun _ => SameMem.pure fun _ => ?_
  dsimp only
  split
  · exact (moveCursor_mem _ _ _).of rfl
  · exact .ok rfl

theorem resizeHeight_mem (s : Screen) (y : Nat) : SameMem s (s.resizeHeight y) := by
  unfold resizeHeight
  refine SameMem.bind ?_ fun t => ?_
  · split
    · refine (scrollUpI_mem _ _).bind fun t => ?_
      exact .iteR (moveCursor_mem _ _ _) (moveCursor_mem _ _ _)
    · exact .ok rfl
  · dsimp only
    split
    · exact (moveCursor_mem _ _ _).of rfl
    · exact .ok rfl

theorem resize_mem (s : Screen) (x y : Nat) : R.SatK (s.resize x y) (fun _ => True) (fun r => r.2.allocOk = s.allocOk) := by
  unfold resize
  split
  · rfl
  · split
    · rfl
    · have h1 := resizeLines_mem s x y
      revert h1
      generalize s.resizeLines x y = p
      obtain ⟨o, t⟩ := p
      intro h1
      dsimp only
      split
      · refine R.SatK.bind (resizeWidth_mem t x) fun r hr => ?_
        obtain ⟨o, u⟩ := r
        dsimp only
        split
        · refine R.SatK.bind (resizeClear_mem u x) fun a ha => ?_
          refine R.SatK.bind (resizeHeight_mem a y) fun b hb => ?_
          exact hb.trans (ha.trans (hr.trans h1))
        · exact hr.trans h1
      · exact h1

theorem trimSb_mem (m : Nat) : ∀ (n : Nat) (s : Screen), SameMem s (trimSb m n s)
  | 0, _ => rfl
  | n + 1, s => by
    unfold trimSb
    split
    · split
      · exact .error
      · exact (trimSb_mem m n _).of rfl
    · exact .ok rfl

theorem sbUpLoop_mem : ∀ (n : Nat) (s : Screen), SameMem s (sbUpLoop n s)
  | 0, _ => rfl
  | n + 1, s => by
    unfold sbUpLoop
    split
    · split
      · exact .error
      · exact .ok rfl
      · exact (sbUpLoop_mem n _).of rfl
    · split
      · exact .ok rfl
      · exact (sbUpLoop_mem n _).of rfl

theorem sbDownLoop_mem : ∀ (n : Nat) (s : Screen), SameMem s (sbDownLoop n s)
  | 0, _ => rfl
  | n + 1, s => by
    unfold sbDownLoop
    split
    · split
      · exact .error
      · exact (sbDownLoop_mem n _).of rfl
    · exact .ok rfl

theorem sbUp_mem (s : Screen) (n : Nat) : SameMem s (s.sbUp n) := by
  unfold sbUp
  exact .iteR (.ok rfl) ((sbUpLoop_mem _ _).of (incAge_mem s))

theorem sbDown_mem (s : Screen) (n : Nat) : SameMem s (s.sbDown n) := by
  unfold sbDown
  exact .iteR (.ok rfl) ((sbDownLoop_mem _ _).of (incAge_mem s))

theorem setFlags_mem (s : Screen) (f : BitVec 32) : SameMem s (s.setFlags f) := by
  unfold setFlags
  split
  · exact .ok rfl
  · refine SameMem.of (t := s.incAge) ?_ (incAge_mem s)
    dsimp only
    refine SameMem.bind (.iteR ((markCursor_mem _).of (ite_mem rfl rfl)) (.ok (ite_mem rfl rfl))) fun t => ?_
    exact .ok (ite_mem rfl rfl)

theorem resetFlags_mem (s : Screen) (f : BitVec 32) : SameMem s (s.resetFlags f) := by
  unfold resetFlags
  split
  · exact .ok rfl
  · refine SameMem.of (t := s.incAge) ?_ (incAge_mem s)
    dsimp only
    refine SameMem.bind (.iteR ((markCursor_mem _).of (ite_mem rfl rfl)) (.ok (ite_mem rfl rfl))) fun t => ?_
    exact .ok (ite_mem rfl rfl)

/-- The same for every call. -/
theorem run_mem (s : Screen) (c : Call) : SameMem s (c.run s) := by
  have hi := incAge_mem s
  cases c with
  | resize x y => exact R.SatK.bind (resize_mem s x y) fun r hr => hr
  | setMargins t b =>
    refine SameMem.ok ?_
    unfold setMargins
    dsimp only
    generalize (if t = 0 then 1 else t) = t
    exact ite_mem rfl (ite_mem rfl rfl)
  | setMaxSb m => exact SameMem.bind ((trimSb_mem m _ s.incAge.touch).of hi) fun t => show SameMem t (.ok { t with sbMax := m }) from rfl
  | clearSb => exact hi
  | sbUp n => exact sbUp_mem s n
  | sbDown n => exact sbDown_mem s n
  | sbPageUp n =>
    show SameMem s (s.sbPageUp n)
    unfold sbPageUp
    exact .iteR (.ok rfl) ((sbUp_mem _ _).of hi)
  | sbPageDown n =>
    show SameMem s (s.sbPageDown n)
    unfold sbPageDown
    exact .iteR (.ok rfl) ((sbDown_mem _ _).of hi)
  | sbReset => exact .ok (ite_mem rfl hi)
  | setDefAttr a => exact .ok rfl
  | reset => exact .pure fun _ => .ok hi
  | setFlags f => exact setFlags_mem s f
  | resetFlags f => exact resetFlags_mem s f
  | setTabstop =>
    show SameMem s (s.putTab true)
    unfold putTab
    exact .iteR (.ok rfl) (.iteR (.ok rfl) .error)
  | resetTabstop =>
    show SameMem s (s.putTab false)
    unfold putTab
    exact .iteR (.ok rfl) (.iteR (.ok rfl) .error)
  | resetAllTabstops => exact .iteR .error (.ok rfl)
  | write ch a => exact write_mem s ch a
  | newline =>
    show SameMem s s.newline
    unfold newline
    generalize 1 = n
    have h := SameMem.of (moveDown_mem s.incAge n true) hi
    exact h.bind fun t => moveLineHome_mem t
  | scrollUp n =>
    show SameMem s (s.scrollUp n)
    unfold scrollUp
    exact .iteR (.ok rfl) ((scrollUpI_mem s.incAge n).of hi)
  | scrollDown n =>
    show SameMem s (s.scrollDown n)
    unfold scrollDown
    exact .iteR (.ok rfl) ((scrollDownI_mem s.incAge n).of hi)
  | moveTo x y => exact (moveCursor_mem _ _ _).of hi
  | moveUp n b => exact moveUp_mem s n b
  | moveDown n b => exact moveDown_mem s n b
  | moveLeft n =>
    show SameMem s (s.moveLeft n)
    unfold moveLeft
    exact .iteR (.ok rfl) (.of (.iteR (moveCursor_mem _ _ _) (moveCursor_mem _ _ _)) hi)
  | moveRight n =>
    show SameMem s (s.moveRight n)
    unfold moveRight
    exact .iteR (.ok rfl) (.of (.iteR (moveCursor_mem _ _ _) (moveCursor_mem _ _ _)) hi)
  | moveLineEnd => exact (moveCursor_mem _ _ _).of hi
  | moveLineHome => exact moveLineHome_mem s
  | tabRight n =>
    show SameMem s (s.tabRight n)
    unfold tabRight
    exact .iteR (.ok rfl) (.pure fun _ => (moveCursor_mem _ _ _).of hi)
  | tabLeft n =>
    show SameMem s (s.tabLeft n)
    unfold tabLeft
    exact .iteR (.ok rfl) (.pure fun _ => (moveCursor_mem _ _ _).of hi)
  | insertLines n =>
    show SameMem s (s.insertLines n)
    unfold insertLines
    exact .iteR (.ok rfl) (.iteR (.ok rfl) (.pure fun _ => .pure fun _ => .ok ((withLines_mem _ _).trans hi)))
  | deleteLines n =>
    show SameMem s (s.deleteLines n)
    unfold deleteLines
    exact .iteR (.ok rfl) (.iteR (.ok rfl) (.pure fun _ => .pure fun _ => .ok ((withLines_mem _ _).trans hi)))
  | insertChars n =>
    show SameMem s (s.insertChars n)
    unfold insertChars
    refine .iteR (.ok rfl) ?_
    dsimp only
    split
    · exact .error
    · exact .pure fun _ => .pure fun _ => .ok ((withLines_mem _ _).trans hi)
  | deleteChars n =>
    show SameMem s (s.deleteChars n)
    unfold deleteChars
    refine .iteR (.ok rfl) ?_
    dsimp only
    split
    · exact .error
    · exact .pure fun _ => .pure fun _ => .ok ((withLines_mem _ _).trans hi)
  | eraseCursor => exact (eraseRegion_mem _ _ _ _ _ _).of hi
  | eraseChars n =>
    show SameMem s (s.eraseChars n)
    unfold eraseChars
    exact .iteR (.ok rfl) ((eraseRegion_mem _ _ _ _ _ _).of hi)
  | eraseCursorToEnd b => exact (eraseRegion_mem _ _ _ _ _ _).of hi
  | eraseHomeToCursor b => exact (eraseRegion_mem _ _ _ _ _ _).of hi
  | eraseCurrentLine b => exact (eraseRegion_mem _ _ _ _ _ _).of hi
  | eraseScreenToCursor b => exact (eraseRegion_mem _ _ _ _ _ _).of hi
  | eraseCursorToScreen b => exact (eraseRegion_mem _ _ _ _ _ _).of hi
  | eraseScreen b => exact (eraseRegion_mem _ _ _ _ _ _).of hi
  | selectionReset => exact hi
  | selectionStart x y => exact hi
  | selectionTarget x y =>
    refine SameMem.ok ?_
    unfold selectionTarget
    exact ite_mem hi rfl
  | draw =>
    show SameMem s (s.draw >>= fun r => .ok r.2.2)
    unfold draw
    cases s.drawRows s.sizeY 0 (sbFrom s.sb s.sbPos) 0 ⟨s.drawInSel, false⟩ with
    | error e => exact trivial
    | ok cs =>
      show SameMem s (Except.ok (if s.ageReset then (cs, 0, { s with ageReset := false }) else (cs, s.ageCnt, s)).2.2)
      split <;> exact SameMem.ok rfl

theorem runAll_mem : ∀ (cs : List Call) {s s' : Screen}, runAll cs s = .ok s' → s'.allocOk = s.allocOk
  | [], s, s', e => by injection e with e; subst e; rfl
  | c :: cs, s, s', e => by
    have e : (c.run s >>= fun s => runAll cs s) = .ok s' := e
    cases h : c.run s with
    | error k => rw [h] at e; cases e
    | ok t =>
      rw [h] at e
      have := run_mem s c
      rw [h] at this
      exact (runAll_mem cs e).trans this

end Screen
end Verif
