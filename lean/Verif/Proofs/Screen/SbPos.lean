import Verif.Proofs.Screen.SbNum
import Verif.Proofs.Screen.Frame
import Verif.Proofs.Screen.Cells

/-!
# How calls change the scrollback and the reported position

Every call that does not administrate the scrollback or move its view changes
the scrollback, the view of it and the reported position only by linking lines:
what linking a line keeps is kept by the call.
-/

namespace Verif
namespace Screen

/-- The scrollback and the position in it. -/
structure Bar where
  sb : List Line
  cnt : Nat
  pos : Option Nat
  num : Nat
  max : Nat
  last : Nat

/-- The scrollback of a screen. -/
@[reducible] def bar (s : Screen) : Bar := ⟨s.sb, s.sbCount, s.sbPos, s.sbPosNum, s.sbMax, s.sbLastId⟩

/-- The scrollback of the screen is as `P` says. -/
@[reducible] def On (P : Bar → Prop) (s : Screen) : Prop := P s.bar

/-- Linking a line keeps `P`. -/
def Links (P : Bar → Prop) : Prop := ∀ (s : Screen) (l : Line), On P s → R.Post (s.linkToScrollback l) (On P)

variable {P : Bar → Prop}

theorem On.withLines {s : Screen} (h : On P s) (ls : List Line) : On P (s.withLines ls) := by
  unfold Screen.withLines
  split <;> exact h

theorem On.incAge {s : Screen} (h : On P s) : On P s.incAge := by
  unfold Screen.incAge
  dsimp only
  split <;> exact h

theorem On.touch {s : Screen} (h : On P s) : On P s.touch := h

theorem On.alloc {s : Screen} (h : On P s) : On P s.alloc.2 := h

theorem lineNew_bar {s : Screen} (h : On P s) (w : Nat) : On P (s.lineNew w).2 := by
  unfold lineNew
  split
  · exact h
  · dsimp only
    split <;> exact h

theorem lineResize_bar {s : Screen} (h : On P s) (l : Line) (w : Nat) : On P (s.lineResize l w).2 := by
  unfold lineResize
  split
  · dsimp only
    split <;> exact h
  · exact h

theorem markCursor_bar {s : Screen} (h : On P s) : R.Post s.markCursor (On P) := by
  unfold markCursor
  split
  · exact R.Post.err
  · split
    · exact R.Post.ok (h.withLines _)
    · exact R.Post.err

theorem moveCursor_bar {s : Screen} (h : On P s) (x y : Nat) : R.Post (s.moveCursor x y) (On P) := by
  unfold moveCursor
  split
  · exact R.Post.ok h
  · split
    · exact R.Post.ok h
    · refine R.Post.bind (markCursor_bar h) ?_
      intro t ht
      exact markCursor_bar ht

theorem scrollUpLoop_bar (hl : Links P) (n : Nat) : ∀ (i : Nat) {s : Screen}, On P s →
    R.Post (scrollUpLoop n i s) (fun r => On P r.1) := by
  induction n with
  | zero => intro i s h; exact R.Post.ok h
  | succ n ih =>
    intro i s h
    unfold scrollUpLoop
    split
    · exact R.Post.err
    · have hnew : On P (if s.fAlt then ((none : Option Line), s) else s.lineNew s.sizeX).2 := by
        split
        · exact h
        · exact lineNew_bar h _
      generalize (if s.fAlt then ((none : Option Line), s) else s.lineNew s.sizeX) = q at hnew
      obtain ⟨nl, s1⟩ := q
      cases nl with
      | some nl =>
        dsimp only at hnew ⊢
        refine R.Post.bind (hl _ _ hnew) ?_
        intro t ht
        refine R.Post.bind (ih (i + 1) ht) ?_
        rintro ⟨u, rest⟩ hu
        exact R.Post.ok hu
      | none =>
        dsimp only at hnew ⊢
        refine R.Post.bind R.Post.any ?_
        intro cl _
        refine R.Post.bind (ih (i + 1) hnew) ?_
        rintro ⟨u, rest⟩ hu
        exact R.Post.ok hu

theorem scrollUpChunk_bar (hl : Links P) {s : Screen} (h : On P s) (max num : Nat) : R.Post (s.scrollUpChunk max num) (On P) := by
  unfold scrollUpChunk
  refine R.Post.bind (scrollUpLoop_bar hl num 0 h) ?_
  rintro ⟨t, cache⟩ ht
  dsimp only at ht ⊢
  refine R.Post.bind R.Post.any ?_
  intro ls _
  refine R.Post.bind R.Post.any ?_
  intro ls _
  refine R.Post.ok ?_
  have hw := ht.withLines ls
  split <;> exact hw

theorem scrollUpFuel_bar (hl : Links P) (fuel : Nat) : ∀ {s : Screen}, On P s → ∀ num, R.Post (scrollUpFuel fuel s num) (On P) := by
  induction fuel with
  | zero => intro s h num; exact R.Post.ok h
  | succ fuel ih =>
    intro s h num
    unfold scrollUpFuel
    split
    · exact R.Post.ok h
    · dsimp only
      generalize (if num > sub32 (s.touch.marginBottom + 1) s.touch.marginTop then
        sub32 (s.touch.marginBottom + 1) s.touch.marginTop else num) = n
      split
      · exact R.Post.bind (scrollUpChunk_bar hl h.touch _ _) (fun t ht => ih ht _)
      · exact scrollUpChunk_bar hl h.touch _ _

theorem scrollUpI_bar (hl : Links P) {s : Screen} (h : On P s) (num : Nat) : R.Post (s.scrollUpI num) (On P) :=
  scrollUpFuel_bar hl num h num

theorem scrollDownChunk_bar {s : Screen} (h : On P s) (max num : Nat) :
    R.Post (s.scrollDownChunk max num) (On P) := by
  unfold scrollDownChunk
  refine R.Post.bind R.Post.any ?_
  rintro ⟨ls, cache⟩ -
  dsimp only
  refine R.Post.bind R.Post.any ?_
  intro ls _
  refine R.Post.bind R.Post.any ?_
  intro ls _
  refine R.Post.ok ?_
  have hw := h.withLines ls
  split <;> exact hw

theorem scrollDownFuel_bar (fuel : Nat) : ∀ {s : Screen}, On P s → ∀ num,
    R.Post (scrollDownFuel fuel s num) (On P) := by
  induction fuel with
  | zero => intro s h num; exact R.Post.ok h
  | succ fuel ih =>
    intro s h num
    unfold scrollDownFuel
    split
    · exact R.Post.ok h
    · dsimp only
      generalize (if num > sub32 (s.touch.marginBottom + 1) s.touch.marginTop then
        sub32 (s.touch.marginBottom + 1) s.touch.marginTop else num) = n
      split
      · exact R.Post.bind (scrollDownChunk_bar h.touch _ _) (fun t ht => ih ht _)
      · exact scrollDownChunk_bar h.touch _ _

theorem scrollDownI_bar {s : Screen} (h : On P s) (num : Nat) : R.Post (s.scrollDownI num) (On P) :=
  scrollDownFuel_bar num h num

theorem writeAt_bar {s : Screen} (h : On P s) (x y ch len : Nat) (attr : Attr) :
    R.Post (s.writeAt x y ch len attr) (On P) := by
  unfold writeAt
  split
  · exact R.Post.ok h
  · split
    · exact R.Post.ok h
    · split
      · exact R.Post.err
      · refine R.Post.bind R.Post.any ?_
        intro l _
        refine R.Post.bind R.Post.any ?_
        intro cells _
        refine R.Post.bind R.Post.any ?_
        intro cells _
        exact R.Post.ok (h.withLines _)

theorem eraseRegion_bar {s : Screen} (h : On P s) (a b c d : Nat) (p : Bool) :
    R.Post (s.eraseRegion a b c d p) (On P) := by
  unfold eraseRegion
  dsimp only
  refine R.Post.bind R.Post.any ?_
  intro ls _
  exact R.Post.ok (h.touch.withLines ls)


theorem growLines_bar (w n : Nat) : ∀ {s : Screen}, On P s → On P (growLines w n s).2 := by
  induction n with
  | zero => intro s h; exact h
  | succ n ih =>
    intro s h
    unfold growLines
    have h1 : On P (s.lineNew w).2 := lineNew_bar h w
    cases e : s.lineNew w with
    | mk o t =>
      rw [e] at h1
      cases o with
      | none => exact h1
      | some m =>
        dsimp only at h1 ⊢
        have g1 : On P (t.lineNew w).2 := lineNew_bar h1 w
        cases e' : t.lineNew w with
        | mk o' u =>
          rw [e'] at g1
          cases o' with
          | none => exact g1
          | some a => exact ih g1

theorem resizeLines_bar {s : Screen} (h : On P s) (x y : Nat) : On P (s.resizeLines x y).2 := by
  unfold resizeLines
  split
  · dsimp only
    split
    · split
      · exact growLines_bar _ _ h
      · exact h
    · exact h
  · exact h

theorem widenLines_bar (x n : Nat) : ∀ (i : Nat) {s : Screen}, On P s →
    R.Post (widenLines x n i s) (fun r => On P r.2) := by
  induction n with
  | zero => intro i s h; exact R.Post.ok h
  | succ n ih =>
    intro i s h
    unfold widenLines
    split
    · rename_i m a em ea
      have h1 : On P (s.lineResize m x).2 := lineResize_bar h m x
      cases e : s.lineResize m x with
      | mk o t =>
        rw [e] at h1
        cases o with
        | none => exact R.Post.ok h1
        | some m' =>
          dsimp only at h1 ⊢
          have g1 : On P (lineResize { t with main := t.main.set i m' } a x).2 :=
            lineResize_bar (s := { t with main := t.main.set i m' }) h1 a x
          cases e' : lineResize { t with main := t.main.set i m' } a x with
          | mk o' u =>
            rw [e'] at g1
            cases o' with
            | none => exact R.Post.ok g1
            | some a' => exact ih (i + 1) g1
    · exact R.Post.err

theorem resizeWidth_bar {s : Screen} (h : On P s) (x : Nat) : R.Post (s.resizeWidth x) (fun r => On P r.2) := by
  unfold resizeWidth
  split
  · dsimp only
    split
    · exact widenLines_bar x _ 0 h
    · exact R.Post.ok h
  · exact R.Post.ok h


theorem resizeClear_bar {s : Screen} (h : On P s) (x : Nat) : R.Post (s.resizeClear x) (On P) := by
  unfold resizeClear
  dsimp only
  have hi := On.incAge h
  refine R.Post.bind R.Post.any ?_
  intro alt _
  refine R.Post.bind R.Post.any ?_
  intro tab _
  split
  · refine moveCursor_bar ?_ _ _
    exact hi
  · exact R.Post.ok hi

theorem resizeHeight_bar (hl : Links P) {s : Screen} (h : On P s) (y : Nat) : R.Post (s.resizeHeight y) (On P) := by
  unfold resizeHeight
  refine R.Post.bind (P := On P) ?_ ?_
  · split
    · dsimp only
      refine R.Post.bind (scrollUpI_bar hl h _) ?_
      intro t ht
      split
      · exact moveCursor_bar ht _ _
      · exact moveCursor_bar ht _ _
    · exact R.Post.ok h
  · intro t ht
    have ht' : On P { t with sizeY := y, marginBottom := pred32 y } := ht
    dsimp only
    split
    · exact moveCursor_bar ht' _ _
    · exact R.Post.ok ht'

theorem resize_bar (hl : Links P) {s : Screen} (h : On P s) (x y : Nat) : R.Post (s.resize x y) (fun r => On P r.2) := by
  unfold resize
  split
  · exact R.Post.ok h
  · split
    · exact R.Post.ok h
    · have h1 := resizeLines_bar h x y
      generalize s.resizeLines x y = p at h1
      obtain ⟨ok, t⟩ := p
      dsimp only at h1 ⊢
      split
      · refine R.Post.bind (resizeWidth_bar h1 x) ?_
        rintro ⟨ok, u⟩ hu
        dsimp only at hu ⊢
        split
        · refine R.Post.bind (resizeClear_bar hu x) ?_
          intro v hv
          refine R.Post.bind (resizeHeight_bar hl hv y) ?_
          intro w hw
          exact R.Post.ok hw
        · exact R.Post.ok hu
      · exact R.Post.ok h1


theorem moveDown_bar (hl : Links P) {s : Screen} (h : On P s) (n : Nat) (b : Bool) : R.Post (s.moveDown n b) (On P) := by
  unfold moveDown
  split
  · exact R.Post.ok h
  · dsimp only
    have key : ∀ m x y, R.Post (if n > m then (if b then s.incAge.scrollUpI (n - m) else .ok s.incAge : R Screen) >>=
        (fun t => t.moveCursor t.cursorX x) else s.incAge.moveCursor s.incAge.cursorX y) (On P) := by
      intro m x y
      split
      · refine R.Post.bind (P := On P) ?_ (fun t ht => moveCursor_bar ht _ _)
        split
        · exact scrollUpI_bar hl h.incAge _
        · exact R.Post.ok h.incAge
      · exact moveCursor_bar h.incAge _ _
    exact key _ _ _

theorem moveUp_bar {s : Screen} (h : On P s) (n : Nat) (b : Bool) : R.Post (s.moveUp n b) (On P) := by
  unfold moveUp
  split
  · exact R.Post.ok h
  · dsimp only
    generalize (if s.incAge.cursorY ≥ s.incAge.marginTop then s.incAge.marginTop else 0) = m
    split
    · refine R.Post.bind (P := On P) ?_ (fun t ht => moveCursor_bar ht _ _)
      split
      · exact scrollDownI_bar h.incAge _
      · exact R.Post.ok h.incAge
    · exact moveCursor_bar h.incAge _ _

theorem writeW_bar (hl : Links P) {s : Screen} (h : On P s) (ch len : Nat) (attr : Attr) : R.Post (s.writeW ch len attr) (On P) := by
  unfold writeW
  dsimp only
  generalize (if s.incAge.cursorY ≤ s.incAge.marginBottom ∨ s.incAge.cursorY ≥ s.incAge.sizeY then s.incAge.marginBottom
    else pred32 s.incAge.sizeY) = last
  refine R.Post.bind (P := On P) ?_ ?_
  · split
    · split
      · exact moveCursor_bar h.incAge _ _
      · exact moveCursor_bar h.incAge _ _
    · exact R.Post.ok h.incAge
  · intro t ht
    refine R.Post.bind (P := On P) ?_ ?_
    · split
      · exact R.Post.bind (moveCursor_bar ht _ _) (fun u hu => scrollUpI_bar hl hu 1)
      · exact R.Post.ok ht
    · intro u hu
      exact R.Post.bind (writeAt_bar hu _ _ _ _ _) (fun v hv => moveCursor_bar hv _ _)

/-- The calls that administrate the scrollback or move its view. -/
def Call.bars : Call → Bool
  | .setMaxSb _ | .clearSb | .sbUp _ | .sbDown _ | .sbPageUp _ | .sbPageDown _ | .sbReset => true
  | _ => false

/-- What linking a line keeps, every other call keeps. -/
theorem step_bar (hl : Links P) {s : Screen} (h : On P s) {c : Call} (hp : c.bars = false) : R.Post (c.run s) (On P) := by
  have hi := h.incAge
  cases c with
  | resize x y => exact R.Post.bind (resize_bar hl h x y) (fun r hr => R.Post.ok hr)
  | setMargins t b =>
    show On P (s.setMargins t b)
    unfold setMargins
    dsimp only
    generalize (if t = 0 then 1 else t) = n
    split
    · exact h
    · split <;> exact h
  | setMaxSb m => cases hp
  | setDefAttr a => exact R.Post.ok h
  | reset =>
    show R.Post s.reset _
    unfold reset
    dsimp only
    exact R.Post.bind R.Post.any (fun tab _ => R.Post.ok hi)
  | setFlags f =>
    show R.Post (s.setFlags f) _
    unfold setFlags
    split
    · exact R.Post.ok h
    · dsimp only
      have hq : On P (if !s.incAge.flags.getLsbD 6 && f.getLsbD 6 then
        { s.incAge with flags := s.incAge.flags ||| f, age := s.incAge.ageCnt, useAlt := true, defAttrMain := s.incAge.defAttr }
        else { s.incAge with flags := s.incAge.flags ||| f }) := by
        split <;> exact hi
      refine R.Post.bind (P := On P) (R.Post.ite (markCursor_bar hq) (R.Post.ok hq)) ?_
      intro t ht
      refine R.Post.ok ?_
      split <;> exact ht
  | resetFlags f =>
    show R.Post (s.resetFlags f) _
    unfold resetFlags
    split
    · exact R.Post.ok h
    · dsimp only
      have hq : On P (if s.incAge.flags.getLsbD 6 && f.getLsbD 6 then
        { s.incAge with flags := s.incAge.flags &&& ~~~f, age := s.incAge.ageCnt, useAlt := false }
        else { s.incAge with flags := s.incAge.flags &&& ~~~f }) := by
        split <;> exact hi
      refine R.Post.bind (P := On P) (R.Post.ite (markCursor_bar hq) (R.Post.ok hq)) ?_
      intro t ht
      refine R.Post.ok ?_
      split <;> exact ht
  | setTabstop =>
    show R.Post (s.putTab true) _
    unfold putTab
    split
    · exact R.Post.ok h
    · split
      · exact R.Post.ok h
      · exact R.Post.err
  | resetTabstop =>
    show R.Post (s.putTab false) _
    unfold putTab
    split
    · exact R.Post.ok h
    · split
      · exact R.Post.ok h
      · exact R.Post.err
  | resetAllTabstops =>
    show R.Post s.resetAllTabstops _
    unfold resetAllTabstops
    split
    · exact R.Post.err
    · exact R.Post.ok h
  | clearSb => cases hp
  | sbUp n => cases hp
  | sbDown n => cases hp
  | sbPageUp n => cases hp
  | sbPageDown n => cases hp
  | sbReset => cases hp
  | write ch a =>
    show R.Post (s.write ch a) _
    unfold write
    cases e : symWidth ch with
    | error u => exact R.Post.err
    | ok len =>
      show R.Post (if len = 0 then .ok s else s.writeW ch len a) _
      split
      · exact R.Post.ok h
      · exact writeW_bar hl h _ _ _
  | newline =>
    show R.Post s.newline _
    unfold newline
    generalize (1 : Nat) = n
    have h1 := moveDown_bar hl hi n true
    generalize s.incAge.moveDown n true = m at h1 ⊢
    refine R.Post.bind h1 ?_
    intro t ht
    exact moveCursor_bar ht.incAge _ _
  | scrollUp n =>
    show R.Post (s.scrollUp n) _
    unfold scrollUp
    split
    · exact R.Post.ok h
    · exact scrollUpI_bar hl hi n
  | scrollDown n =>
    show R.Post (s.scrollDown n) _
    unfold scrollDown
    split
    · exact R.Post.ok h
    · exact scrollDownI_bar hi n
  | moveTo x y =>
    show R.Post (s.moveTo x y) _
    unfold moveTo
    dsimp only
    exact moveCursor_bar hi _ _
  | moveUp n b => exact moveUp_bar h n b
  | moveDown n b => exact moveDown_bar hl h n b
  | moveLeft n =>
    show R.Post (s.moveLeft n) _
    unfold moveLeft
    split
    · exact R.Post.ok h
    · dsimp only
      have key : ∀ m x, R.Post (if m > x then s.incAge.moveCursor 0 s.incAge.cursorY
          else s.incAge.moveCursor (x - m) s.incAge.cursorY) (On P) := by
        intro m x
        split <;> exact moveCursor_bar hi _ _
      exact key _ _
  | moveRight n =>
    show R.Post (s.moveRight n) _
    unfold moveRight
    split
    · exact R.Post.ok h
    · dsimp only
      have key : ∀ (q : Prop) [Decidable q] (x y : Nat), R.Post (if q then s.incAge.moveCursor x s.incAge.cursorY
          else s.incAge.moveCursor y s.incAge.cursorY) (On P) := by
        intro q _ x y
        split <;> exact moveCursor_bar hi _ _
      exact key _ _ _
  | moveLineEnd => exact moveCursor_bar hi _ _
  | moveLineHome => exact moveCursor_bar hi _ _
  | tabRight n =>
    show R.Post (s.tabRight n) _
    unfold tabRight
    split
    · exact R.Post.ok h
    · dsimp only
      exact R.Post.bind R.Post.any (fun x _ => moveCursor_bar hi _ _)
  | tabLeft n =>
    show R.Post (s.tabLeft n) _
    unfold tabLeft
    split
    · exact R.Post.ok h
    · dsimp only
      exact R.Post.bind R.Post.any (fun x _ => moveCursor_bar hi _ _)
  | insertLines n =>
    show R.Post (s.insertLines n) _
    unfold insertLines
    split
    · exact R.Post.ok h
    · split
      · exact R.Post.ok h
      · dsimp only
        refine R.Post.bind R.Post.any ?_
        rintro ⟨ls, cache⟩ -
        refine R.Post.bind R.Post.any ?_
        intro ls _
        exact R.Post.ok (hi.touch.withLines ls)
  | deleteLines n =>
    show R.Post (s.deleteLines n) _
    unfold deleteLines
    split
    · exact R.Post.ok h
    · split
      · exact R.Post.ok h
      · dsimp only
        refine R.Post.bind R.Post.any ?_
        rintro ⟨ls, cache⟩ -
        refine R.Post.bind R.Post.any ?_
        intro ls _
        exact R.Post.ok (hi.touch.withLines ls)
  | insertChars n =>
    show R.Post (s.insertChars n) _
    unfold insertChars
    split
    · exact R.Post.ok h
    · dsimp only
      have hk : On P s.incAge.touch.clampCursor := hi
      split
      · exact R.Post.err
      · refine R.Post.bind R.Post.any ?_
        intro cells _
        refine R.Post.bind R.Post.any ?_
        intro cells _
        exact R.Post.ok (hk.withLines _)
  | deleteChars n =>
    show R.Post (s.deleteChars n) _
    unfold deleteChars
    split
    · exact R.Post.ok h
    · dsimp only
      have hk : On P s.incAge.touch.clampCursor := hi
      split
      · exact R.Post.err
      · refine R.Post.bind R.Post.any ?_
        intro cells _
        refine R.Post.bind R.Post.any ?_
        intro cells _
        exact R.Post.ok (hk.withLines _)
  | eraseCursor => exact eraseRegion_bar hi _ _ _ _ _
  | eraseChars n =>
    show R.Post (s.eraseChars n) _
    unfold eraseChars
    split
    · exact R.Post.ok h
    · exact eraseRegion_bar hi _ _ _ _ _
  | eraseCursorToEnd b => exact eraseRegion_bar hi _ _ _ _ _
  | eraseHomeToCursor b => exact eraseRegion_bar hi _ _ _ _ _
  | eraseCurrentLine b => exact eraseRegion_bar hi _ _ _ _ _
  | eraseScreenToCursor b => exact eraseRegion_bar hi _ _ _ _ _
  | eraseCursorToScreen b => exact eraseRegion_bar hi _ _ _ _ _
  | eraseScreen b => exact eraseRegion_bar hi _ _ _ _ _
  | selectionReset => exact R.Post.ok hi
  | selectionStart x y => exact R.Post.ok hi
  | selectionTarget x y =>
    show On P (s.selectionTarget x y)
    unfold selectionTarget
    split
    · exact hi
    · exact h
  | draw =>
    show R.Post (do let r ← s.draw; return r.2.2) _
    unfold draw
    refine R.Post.bind (P := fun r => On P r.2.2) ?_ (fun r hr => R.Post.ok hr)
    refine R.Post.bind R.Post.any ?_
    intro cs _
    refine R.Post.ok ?_
    split <;> exact h

/-! ### The reported position -/

/-- The count is right and in range. -/
structure Bar.Counted (b : Bar) : Prop where
  cnt : b.cnt = b.sb.length
  le : b.sb.length ≤ b.max
  small : b.max < 4294967296
  sorted : (ids b.sb).Pairwise (· < ·)
  last : ∀ q ∈ ids b.sb, q ≤ b.last

/-- The position in the list of lines; its length for the live screen. -/
def Bar.top (b : Bar) : Nat :=
  match b.pos with
  | none => b.sb.length
  | some p => (ids b.sb).idxOf p

theorem Inv.counted {s : Screen} (h : Inv s) : s.bar.Counted :=
  ⟨h.sb.cnt, h.sb.max, h.sb.maxb, h.sb.ids, fun q hq => by
    obtain ⟨l, hl, e⟩ := mem_ids.mp hq
    rw [← e]; exact h.sb.last l hl⟩

theorem bar_top (s : Screen) : s.bar.top = s.view.topIndex := by
  unfold Bar.top View.topIndex
  show (match s.sbPos with | none => _ | some p => _) = (match s.sbPos with | none => _ | some p => _)
  split
  · show s.sb.length = (s.sb.map _).length
    rw [List.length_map]
  · show (s.sb.map Line.sbId).idxOf _ = ((s.sb.map _).map Prod.fst).idxOf _
    rw [List.map_map]
    rfl

/-- Dropping the oldest line. -/
theorem counted_tail {b : Bar} {l : Line} {rest : List Line} (h : b.Counted) (e : b.sb = l :: rest)
    (pos : Option Nat) (num : Nat) :
    Bar.Counted ⟨rest, pred32 b.cnt, pos, num, b.max, b.last⟩ ∧ rest.length < b.max ∧
      (∀ q ∈ ids rest, l.sbId < q) ∧ l.sbId ≤ b.last := by
  obtain ⟨h1, h2, h3, h4, h5⟩ := h
  rw [e] at h1 h2 h4 h5
  simp only [List.length_cons] at h1 h2
  have h4' : (∀ q ∈ ids rest, l.sbId < q) ∧ (ids rest).Pairwise (· < ·) := List.pairwise_cons.mp h4
  refine ⟨⟨?_, ?_, h3, h4'.2, fun q hq => h5 q (List.mem_cons_of_mem _ hq)⟩, by omega, h4'.1,
    h5 _ (List.mem_cons_self ..)⟩
  · show pred32 b.cnt = rest.length
    rw [h1]; rw [pred32_pos (by omega) (by omega)]; omega
  · show rest.length ≤ b.max
    omega

/-- Appending a line. -/
theorem counted_snoc {b : Bar} (h : b.Counted) (hlt : b.sb.length < b.max) (l : Line) (pos : Option Nat) (num : Nat) :
    Bar.Counted ⟨b.sb ++ [{ l with sbId := b.last + 1 }], u32 (b.cnt + 1), pos, num, b.max, b.last + 1⟩ ∧
      u32 (b.cnt + 1) = b.sb.length + 1 := by
  obtain ⟨h1, h2, h3, h4, h5⟩ := h
  have hu : u32 (b.cnt + 1) = b.sb.length + 1 := by
    rw [h1]; exact Nat.mod_eq_of_lt (by omega)
  have hm : ids (b.sb ++ [{ l with sbId := b.last + 1 }]) = ids b.sb ++ [b.last + 1] := List.map_append
  refine ⟨⟨?_, ?_, h3, ?_, ?_⟩, hu⟩
  · show u32 (b.cnt + 1) = (b.sb ++ _).length
    rw [hu, List.length_append]; rfl
  · show (b.sb ++ _).length ≤ b.max
    rw [List.length_append]; exact hlt
  · show (ids (b.sb ++ _)).Pairwise _
    rw [hm]
    refine List.pairwise_append.mpr ⟨h4, List.pairwise_singleton .., ?_⟩
    intro q hq r hr
    rw [List.mem_singleton] at hr
    have := h5 q hq
    omega
  · show ∀ q ∈ ids (b.sb ++ _), q ≤ b.last + 1
    rw [hm]
    intro q hq
    rcases List.mem_append.mp hq with h | h
    · have := h5 q h; omega
    · rw [List.mem_singleton] at h; omega

/-- Evicting drops the oldest line; the live screen stays live. -/
theorem evict_bar (s : Screen) : R.Post s.sbEvict (fun t => ∃ tmp rest pos num, s.sb = tmp :: rest ∧
    t.bar = ⟨rest, pred32 s.sbCount, pos, num, s.sbMax, s.sbLastId⟩ ∧ (s.sbPos = none ↔ pos = none)) := by
  unfold sbEvict
  split
  · exact R.Post.err
  · rename_i tmp rest hsb
    refine R.Post.bind (P := fun r => s.sbPos = none ↔ r.1 = none) (x := s.evictPos tmp.sbId) ?_ ?_
    · unfold evictPos
      split
      · rename_i hp
        exact R.Post.ok ⟨fun _ => rfl, fun _ => hp⟩
      · rename_i p hp
        have hno : ∀ q : Nat, (s.sbPos = none ↔ some q = none) := by
          intro q; rw [hp]; exact ⟨fun h => (nomatch h), fun h => (nomatch h)⟩
        split
        · split
          · exact R.Post.err
          · exact R.Post.ok (hno _)
          · exact R.Post.ok (hno _)
        · exact R.Post.ok (hno _)
    · rintro ⟨pos, num⟩ hpn
      exact R.Post.ok ⟨tmp, rest, pos, num, hsb, rfl, hpn⟩

/-- What happens to the scrollback when a line is linked: nothing, without a
scrollback; else the oldest line is dropped if there is no room, and the line
is appended. The live screen stays live, and its position is counted anew. -/
theorem link_bar {s : Screen} (h : s.bar.Counted) (l : Line) : R.Post (s.linkToScrollback l) (fun s' =>
    s'.bar.Counted ∧
    ((s.sbMax = 0 ∧ s'.bar = s.bar) ∨
      (s.sbMax ≠ 0 ∧ s'.sbLastId = s.sbLastId + 1 ∧ (s.sbPos = none ↔ s'.sbPos = none) ∧
        (s.sbPos = none → s'.sbPosNum = s'.sb.length) ∧ s'.sb ≠ [] ∧
        ((s'.sb = s.sb ++ [{ l with sbId := s.sbLastId + 1 }] ∧ s'.sbPos = s.sbPos ∧
            (s.sbPos ≠ none → s'.sbPosNum = s.sbPosNum)) ∨
          (s.sb ≠ [] ∧ ∀ q ∈ (s.sb.head?.map Line.sbId), ∀ r ∈ ids s'.sb, q < r))))) := by
  unfold linkToScrollback
  dsimp only
  split
  · rename_i h0
    exact R.Post.ok ⟨h, Or.inl ⟨h0, rfl⟩⟩
  · rename_i h0
    split
    · refine R.Post.bind (evict_bar s.touch) ?_
      rintro u ⟨tmp, rest, pos, num, hsb, hu, hpn⟩
      have hsb : s.bar.sb = tmp :: rest := hsb
      have hpn : s.sbPos = none ↔ pos = none := hpn
      obtain ⟨c1, c2, c3, c4⟩ := counted_tail h hsb pos num
      obtain ⟨d1, d2⟩ := counted_snoc c1 c2 l pos (if pos = none then u32 (pred32 s.sbCount + 1) else num)
      have hu : u.bar = ⟨rest, pred32 s.sbCount, pos, num, s.sbMax, s.sbLastId⟩ := hu
      have hub : (u.sbAppend l).bar = ⟨rest ++ [{ l with sbId := s.sbLastId + 1 }], u32 (pred32 s.sbCount + 1), pos,
          if pos = none then u32 (pred32 s.sbCount + 1) else num, s.sbMax, s.sbLastId + 1⟩ := by
        show Bar.mk (u.bar.sb ++ [{ l with sbId := u.bar.last + 1 }]) (u32 (u.bar.cnt + 1)) u.bar.pos
          (if u.bar.pos = none then u32 (u.bar.cnt + 1) else u.bar.num) u.bar.max (u.bar.last + 1) = _
        rw [hu]
      have e1 : (u.sbAppend l).sb = rest ++ [{ l with sbId := s.sbLastId + 1 }] := congrArg Bar.sb hub
      have e2 : (u.sbAppend l).sbPos = pos := congrArg Bar.pos hub
      have e3 : (u.sbAppend l).sbPosNum = if pos = none then u32 (pred32 s.sbCount + 1) else num := congrArg Bar.num hub
      refine R.Post.ok ⟨by rw [hub]; exact d1, Or.inr ⟨h0, congrArg Bar.last hub, by rw [e2]; exact hpn, ?_, ?_,
        Or.inr ⟨?_, ?_⟩⟩⟩
      · intro hn
        rw [e3, e1, if_pos (hpn.mp hn), List.length_append]
        exact d2
      · rw [e1]; exact List.append_ne_nil_of_right_ne_nil _ (List.cons_ne_nil _ _)
      · show s.bar.sb ≠ []
        rw [hsb]; exact List.cons_ne_nil _ _
      · intro q hq r hr
        have hq : q ∈ (s.bar.sb.head?.map Line.sbId) := hq
        rw [hsb] at hq
        have hq : tmp.sbId = q := Option.some.inj hq
        subst hq
        rw [e1, show ids (rest ++ [{ l with sbId := s.sbLastId + 1 }]) = ids rest ++ [s.sbLastId + 1] from
          List.map_append] at hr
        rcases List.mem_append.mp hr with hr | hr
        · exact c3 r hr
        · rw [List.mem_singleton] at hr
          have : tmp.sbId ≤ s.sbLastId := c4
          omega
    · rename_i hroom
      have hlt : s.bar.sb.length < s.bar.max := by
        have := h.cnt
        have hr : ¬ s.sbCount ≥ s.sbMax := hroom
        show s.sb.length < s.sbMax
        have : s.sbCount = s.sb.length := this
        omega
      obtain ⟨d1, d2⟩ := counted_snoc h hlt l s.sbPos (if s.sbPos = none then u32 (s.sbCount + 1) else s.sbPosNum)
      refine R.Post.ok ⟨d1, Or.inr ⟨h0, rfl, Iff.rfl, ?_, ?_, Or.inl ⟨rfl, rfl, ?_⟩⟩⟩
      · intro hn
        show (if s.sbPos = none then u32 (s.sbCount + 1) else s.sbPosNum) = (s.sb ++ [_]).length
        rw [if_pos hn, List.length_append]
        exact d2
      · exact List.append_ne_nil_of_right_ne_nil _ (List.cons_ne_nil _ _)
      · intro hn
        show (if s.sbPos = none then u32 (s.sbCount + 1) else s.sbPosNum) = s.sbPosNum
        exact if_neg hn

/-- The report is right as long as the line with id `f` is the oldest one, or
the live screen is shown. -/
structure Right (f : Nat) (b : Bar) : Prop where
  counted : b.Counted
  above : ∀ q ∈ ids b.sb, f ≤ q
  early : f ≤ b.last + 1
  filled : b.pos ≠ none → b.sb ≠ []
  right : b.pos = none ∨ b.sb.head?.map Line.sbId = some f →
    (∀ p, b.pos = some p → p ∈ ids b.sb) ∧ b.num = b.top

theorem Right.links (f : Nat) : Links (Right f) := by
  intro s l h
  obtain ⟨hc, ha, hfl, hne0, hr⟩ := h
  have key := link_bar hc l
  revert key
  cases e : s.linkToScrollback l with
  | error u => intro _; trivial
  | ok t =>
    rintro ⟨htc, h0 | ⟨h0, hid, hpn, hlive, hne, hcase⟩⟩
    · show Right f t.bar
      rw [h0.2]
      exact ⟨hc, ha, hfl, hne0, hr⟩
    · have hid : t.bar.last = s.bar.last + 1 := hid
      refine ⟨htc, ?_, by omega, fun _ => hne, ?_⟩
      · rcases hcase with ⟨hsb, _, _⟩ | ⟨hne, hgt⟩
        · intro q hq
          have hq : q ∈ ids t.sb := hq
          rw [hsb, show ids (s.sb ++ [{ l with sbId := s.sbLastId + 1 }]) = ids s.sb ++ [s.sbLastId + 1] from
            List.map_append] at hq
          rcases List.mem_append.mp hq with hq | hq
          · exact ha q hq
          · rw [List.mem_singleton] at hq; rw [hq]; exact hfl
        · intro q hq
          cases hsb : s.sb with
          | nil => exact absurd hsb hne
          | cons m ms =>
            have h1 : m.sbId < q := hgt m.sbId (by rw [hsb]; rfl) q hq
            have h2 : f ≤ m.sbId := ha m.sbId (by show _ ∈ ids s.sb; rw [hsb]; exact List.mem_cons_self ..)
            omega
      · intro hor
        cases hp : s.sbPos with
        | none =>
          have htp : t.bar.pos = none := hpn.mp hp
          refine ⟨fun p e => (by rw [htp] at e; cases e), ?_⟩
          unfold Bar.top
          rw [htp]
          exact hlive hp
        | some p =>
          have hsp : s.sbPos ≠ none := by rw [hp]; exact fun h => nomatch h
          have htp : t.sbPos ≠ none := fun e => hsp (hpn.mpr e)
          have hhead : t.sb.head?.map Line.sbId = some f := hor.resolve_left htp
          have hsne : s.sb ≠ [] := hne0 hsp
          cases hsb0 : s.sb with
          | nil => exact absurd hsb0 hsne
          | cons m ms =>
          rcases hcase with ⟨hsb, hpos, hnum⟩ | ⟨hne, hgt⟩
          · obtain ⟨h1, h2⟩ := hr (Or.inr (by
              show s.sb.head?.map Line.sbId = some f
              rw [hsb, hsb0] at hhead
              rw [hsb0]
              exact hhead))
            have hids : ids t.sb = ids s.sb ++ [s.sbLastId + 1] := by rw [hsb]; exact List.map_append
            have hmem : p ∈ ids s.sb := h1 p hp
            constructor
            · intro q hq
              have hq : t.sbPos = some q := hq
              rw [hpos, hp] at hq
              injection hq with hq
              subst hq
              show p ∈ ids t.sb
              rw [hids]
              exact List.mem_append_left _ hmem
            · have h2 : s.sbPosNum = s.bar.top := h2
              show t.sbPosNum = t.bar.top
              rw [hnum hsp, h2]
              unfold Bar.top
              show (match s.sbPos with | none => s.sb.length | some p => (ids s.sb).idxOf p) =
                (match t.sbPos with | none => t.sb.length | some p => (ids t.sb).idxOf p)
              rw [hpos, hp, hids]
              dsimp only
              rw [List.idxOf_append, if_pos hmem]
          · exfalso
            cases ht : t.sb with
            | nil => rw [ht] at hhead; cases hhead
            | cons u us =>
              rw [ht] at hhead
              have hu : u.sbId = f := Option.some.inj hhead
              have h1 : m.sbId < u.sbId := hgt m.sbId (by rw [hsb0]; rfl) _ (by rw [ht]; exact List.mem_cons_self ..)
              have h2 : f ≤ m.sbId := ha m.sbId (by show _ ∈ ids s.sb; rw [hsb0]; exact List.mem_cons_self ..)
              omega

/-- The live screen is shown, and the report is right once a line was linked
after the line with id `n`. -/
structure Healed (n : Nat) (b : Bar) : Prop where
  counted : b.Counted
  live : b.pos = none
  right : b.last = n ∨ b.num = b.sb.length

theorem Healed.links (n : Nat) : Links (Healed n) := by
  intro s l h
  obtain ⟨hc, hp, hr⟩ := h
  have key := link_bar hc l
  revert key
  cases e : s.linkToScrollback l with
  | error u => intro _; trivial
  | ok t =>
    rintro ⟨htc, h0 | ⟨h0, hid, hpn, hlive, hne, hcase⟩⟩
    · show Healed n t.bar
      rw [h0.2]
      exact ⟨hc, hp, hr⟩
    · exact ⟨htc, hpn.mp hp, Or.inr (hlive hp)⟩

end Screen
end Verif
