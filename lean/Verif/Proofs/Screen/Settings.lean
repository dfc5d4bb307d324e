import Verif.Spec.Settings
import Verif.Proofs.Screen.Cells

/-!
# Settings are changed by their own calls only
-/

namespace Verif
namespace Screen

/-- The settings of a screen. -/
structure Setup where
  flags : BitVec 32
  useAlt : Bool
  defAttrMain : Attr
  sizeX : Nat
  sizeY : Nat
  marginTop : Nat
  marginBottom : Nat
  tabRuler : List Bool
  defAttr : Attr
  sbMax : Nat

/-- The settings of a screen. -/
@[reducible] def setup (s : Screen) : Setup :=
  ⟨s.flags, s.useAlt, s.defAttrMain, s.sizeX, s.sizeY, s.marginTop, s.marginBottom, s.tabRuler, s.defAttr, s.sbMax⟩

/-- The settings that `resize` keeps. -/
structure Core where
  flags : BitVec 32
  useAlt : Bool
  defAttrMain : Attr
  defAttr : Attr
  sbMax : Nat

/-- The settings that `resize` keeps. -/
@[reducible] def Setup.core (k : Setup) : Core := ⟨k.flags, k.useAlt, k.defAttrMain, k.defAttr, k.sbMax⟩

/-- The screen has the settings `k`. -/
@[reducible] def Like (k : Setup) (s : Screen) : Prop := s.setup = k

variable {k : Setup}

theorem Like.of {s t : Screen} (h : Like k s) (h1 : t.flags = s.flags) (h2 : t.useAlt = s.useAlt)
    (h3 : t.defAttrMain = s.defAttrMain) (h4 : t.sizeX = s.sizeX) (h5 : t.sizeY = s.sizeY)
    (h6 : t.marginTop = s.marginTop) (h7 : t.marginBottom = s.marginBottom) (h8 : t.tabRuler = s.tabRuler)
    (h9 : t.defAttr = s.defAttr) (h10 : t.sbMax = s.sbMax) : Like k t := by
  rw [← show s.setup = k from h]
  show Setup.mk _ _ _ _ _ _ _ _ _ _ = Setup.mk _ _ _ _ _ _ _ _ _ _
  rw [h1, h2, h3, h4, h5, h6, h7, h8, h9, h10]

theorem Like.withLines {s : Screen} (h : Like k s) (ls : List Line) : Like k (s.withLines ls) := by
  unfold Screen.withLines
  split <;> exact h

theorem Like.incAge {s : Screen} (h : Like k s) : Like k s.incAge := by
  unfold Screen.incAge
  dsimp only
  split <;> exact h

theorem Like.touch {s : Screen} (h : Like k s) : Like k s.touch := h

theorem Like.alloc {s : Screen} (h : Like k s) : Like k s.alloc.2 := h

theorem lineNew_like {s : Screen} (h : Like k s) (w : Nat) : Like k (s.lineNew w).2 := by
  unfold lineNew
  split
  · exact h
  · dsimp only
    split <;> exact h

theorem lineResize_like {s : Screen} (h : Like k s) (l : Line) (w : Nat) : Like k (s.lineResize l w).2 := by
  unfold lineResize
  split
  · dsimp only
    split <;> exact h
  · exact h

theorem markCursor_like {s : Screen} (h : Like k s) : R.Post s.markCursor (Like k) := by
  unfold markCursor
  split
  · exact R.Post.err
  · split
    · exact R.Post.ok (h.withLines _)
    · exact R.Post.err

theorem moveCursor_like {s : Screen} (h : Like k s) (x y : Nat) : R.Post (s.moveCursor x y) (Like k) := by
  unfold moveCursor
  split
  · exact R.Post.ok h
  · split
    · exact R.Post.ok h
    · refine R.Post.bind (markCursor_like h) ?_
      intro t ht
      exact markCursor_like ht

theorem sbEvict_like {s : Screen} (h : Like k s) : R.Post s.sbEvict (Like k) := by
  unfold sbEvict
  split
  · exact R.Post.err
  · refine R.Post.bind R.Post.any ?_
    rintro ⟨pos, num⟩ -
    exact R.Post.ok (h.of rfl rfl rfl rfl rfl rfl rfl rfl rfl rfl)

theorem linkToScrollback_like {s : Screen} (h : Like k s) (l : Line) : R.Post (s.linkToScrollback l) (Like k) := by
  unfold linkToScrollback
  dsimp only
  split
  · exact R.Post.ok h.touch
  · have hap : ∀ t, Like k t → R.Post (Except.ok (t.sbAppend l) : R Screen) (Like k) := fun t ht => R.Post.ok ht
    split
    · exact R.Post.bind (sbEvict_like h.touch) hap
    · exact hap _ h.touch

theorem scrollUpLoop_like (n : Nat) : ∀ (i : Nat) {s : Screen}, Like k s →
    R.Post (scrollUpLoop n i s) (fun r => Like k r.1) := by
  induction n with
  | zero => intro i s h; exact R.Post.ok h
  | succ n ih =>
    intro i s h
    unfold scrollUpLoop
    split
    · exact R.Post.err
    · have hnew : Like k (if s.fAlt then ((none : Option Line), s) else s.lineNew s.sizeX).2 := by
        split
        · exact h
        · exact lineNew_like h _
      generalize (if s.fAlt then ((none : Option Line), s) else s.lineNew s.sizeX) = q at hnew
      obtain ⟨nl, s1⟩ := q
      cases nl with
      | some nl =>
        dsimp only at hnew ⊢
        refine R.Post.bind (linkToScrollback_like hnew _) ?_
        intro t ht
        refine R.Post.bind (ih (i + 1) ht) ?_
        rintro ⟨u, rest⟩ hu
        exact R.Post.ok hu
      | none =>
        dsimp only at hnew ⊢
        refine R.Post.bind R.Post.any ?_
        intro cl _
        refine R.Post.bind (ih (i + 1) hnew) ?_
        rintro ⟨u, rest⟩ hu
        exact R.Post.ok hu

theorem scrollUpChunk_like {s : Screen} (h : Like k s) (max num : Nat) : R.Post (s.scrollUpChunk max num) (Like k) := by
  unfold scrollUpChunk
  refine R.Post.bind (scrollUpLoop_like num 0 h) ?_
  rintro ⟨t, cache⟩ ht
  dsimp only at ht ⊢
  refine R.Post.bind R.Post.any ?_
  intro ls _
  refine R.Post.bind R.Post.any ?_
  intro ls _
  refine R.Post.ok ?_
  have hw := ht.withLines ls
  split <;> exact hw

theorem scrollUpFuel_like (fuel : Nat) : ∀ {s : Screen}, Like k s → ∀ num, R.Post (scrollUpFuel fuel s num) (Like k) := by
  induction fuel with
  | zero => intro s h num; exact R.Post.ok h
  | succ fuel ih =>
    intro s h num
    unfold scrollUpFuel
    split
    · exact R.Post.ok h
    · dsimp only
      generalize (if num > sub32 (s.touch.marginBottom + 1) s.touch.marginTop then
        sub32 (s.touch.marginBottom + 1) s.touch.marginTop else num) = n
      split
      · exact R.Post.bind (scrollUpChunk_like h.touch _ _) (fun t ht => ih ht _)
      · exact scrollUpChunk_like h.touch _ _

theorem scrollUpI_like {s : Screen} (h : Like k s) (num : Nat) : R.Post (s.scrollUpI num) (Like k) :=
  scrollUpFuel_like num h num

theorem scrollDownChunk_like {s : Screen} (h : Like k s) (max num : Nat) :
    R.Post (s.scrollDownChunk max num) (Like k) := by
  unfold scrollDownChunk
  refine R.Post.bind R.Post.any ?_
  rintro ⟨ls, cache⟩ -
  dsimp only
  refine R.Post.bind R.Post.any ?_
  intro ls _
  refine R.Post.bind R.Post.any ?_
  intro ls _
  refine R.Post.ok ?_
  have hw := h.withLines ls
  split <;> exact hw

theorem scrollDownFuel_like (fuel : Nat) : ∀ {s : Screen}, Like k s → ∀ num,
    R.Post (scrollDownFuel fuel s num) (Like k) := by
  induction fuel with
  | zero => intro s h num; exact R.Post.ok h
  | succ fuel ih =>
    intro s h num
    unfold scrollDownFuel
    split
    · exact R.Post.ok h
    · dsimp only
      generalize (if num > sub32 (s.touch.marginBottom + 1) s.touch.marginTop then
        sub32 (s.touch.marginBottom + 1) s.touch.marginTop else num) = n
      split
      · exact R.Post.bind (scrollDownChunk_like h.touch _ _) (fun t ht => ih ht _)
      · exact scrollDownChunk_like h.touch _ _

theorem scrollDownI_like {s : Screen} (h : Like k s) (num : Nat) : R.Post (s.scrollDownI num) (Like k) :=
  scrollDownFuel_like num h num

theorem writeAt_like {s : Screen} (h : Like k s) (x y ch len : Nat) (attr : Attr) :
    R.Post (s.writeAt x y ch len attr) (Like k) := by
  unfold writeAt
  split
  · exact R.Post.ok h
  · split
    · exact R.Post.ok h
    · split
      · exact R.Post.err
      · refine R.Post.bind R.Post.any ?_
        intro l _
        refine R.Post.bind R.Post.any ?_
        intro cells _
        refine R.Post.bind R.Post.any ?_
        intro cells _
        exact R.Post.ok (h.withLines _)

theorem eraseRegion_like {s : Screen} (h : Like k s) (a b c d : Nat) (p : Bool) :
    R.Post (s.eraseRegion a b c d p) (Like k) := by
  unfold eraseRegion
  dsimp only
  refine R.Post.bind R.Post.any ?_
  intro ls _
  exact R.Post.ok (h.touch.withLines ls)

/-! ### Resizing -/

/-- The screen has the settings `q` that `resize` keeps. -/
@[reducible] def LikeC (q : Core) (s : Screen) : Prop := s.setup.core = q

variable {q : Core}

/-- What keeps all settings. -/
theorem post_core {α : Type} {x : R α} {f : α → Screen} {s : Screen} (h : R.Post x (fun r => Like s.setup (f r)))
    (hq : LikeC q s) : R.Post x (fun r => LikeC q (f r)) := by
  cases x with
  | error e => trivial
  | ok r =>
    have h : (f r).setup = s.setup := h
    show (f r).setup.core = q
    rw [h]
    exact hq

theorem growLines_like (w n : Nat) : ∀ {s : Screen}, LikeC q s → LikeC q (growLines w n s).2 := by
  induction n with
  | zero => intro s h; exact h
  | succ n ih =>
    intro s h
    unfold growLines
    have h1 : LikeC q (s.lineNew w).2 := (congrArg Setup.core (lineNew_like (k := s.setup) rfl w)).trans h
    cases e : s.lineNew w with
    | mk o t =>
      rw [e] at h1
      cases o with
      | none => exact h1
      | some m =>
        dsimp only at h1 ⊢
        have g1 : LikeC q (t.lineNew w).2 := (congrArg Setup.core (lineNew_like (k := t.setup) rfl w)).trans h1
        cases e' : t.lineNew w with
        | mk o' u =>
          rw [e'] at g1
          cases o' with
          | none => exact g1
          | some a => exact ih g1

theorem resizeLines_like {s : Screen} (h : LikeC q s) (x y : Nat) : LikeC q (s.resizeLines x y).2 := by
  unfold resizeLines
  split
  · dsimp only
    split
    · split
      · exact growLines_like _ _ h
      · exact h
    · exact h
  · exact h

theorem widenLines_like (x n : Nat) : ∀ (i : Nat) {s : Screen}, LikeC q s →
    R.Post (widenLines x n i s) (fun r => LikeC q r.2) := by
  induction n with
  | zero => intro i s h; exact R.Post.ok h
  | succ n ih =>
    intro i s h
    unfold widenLines
    split
    · rename_i m a em ea
      have h1 : LikeC q (s.lineResize m x).2 := (congrArg Setup.core (lineResize_like (k := s.setup) rfl m x)).trans h
      cases e : s.lineResize m x with
      | mk o t =>
        rw [e] at h1
        cases o with
        | none => exact R.Post.ok h1
        | some m' =>
          dsimp only at h1 ⊢
          have g1 : LikeC q (lineResize { t with main := t.main.set i m' } a x).2 :=
            (congrArg Setup.core (lineResize_like (k := t.setup) (s := { t with main := t.main.set i m' }) rfl a x)).trans h1
          cases e' : lineResize { t with main := t.main.set i m' } a x with
          | mk o' u =>
            rw [e'] at g1
            cases o' with
            | none => exact R.Post.ok g1
            | some a' => exact ih (i + 1) g1
    · exact R.Post.err

theorem resizeWidth_like {s : Screen} (h : LikeC q s) (x : Nat) : R.Post (s.resizeWidth x) (fun r => LikeC q r.2) := by
  unfold resizeWidth
  split
  · dsimp only
    split
    · exact widenLines_like x _ 0 h
    · exact R.Post.ok h
  · exact R.Post.ok h

theorem incAge_core {s : Screen} (h : LikeC q s) : LikeC q s.incAge :=
  (congrArg Setup.core (Like.incAge (k := s.setup) rfl)).trans h

theorem moveCursor_core {s : Screen} (h : LikeC q s) (x y : Nat) : R.Post (s.moveCursor x y) (LikeC q) :=
  post_core (f := id) (moveCursor_like rfl x y) h

theorem resizeClear_like {s : Screen} (h : LikeC q s) (x : Nat) : R.Post (s.resizeClear x) (LikeC q) := by
  unfold resizeClear
  dsimp only
  have hi := incAge_core h
  refine R.Post.bind R.Post.any ?_
  intro alt _
  refine R.Post.bind R.Post.any ?_
  intro tab _
  split
  · refine moveCursor_core ?_ _ _
    exact hi
  · exact R.Post.ok hi

theorem resizeHeight_like {s : Screen} (h : LikeC q s) (y : Nat) : R.Post (s.resizeHeight y) (LikeC q) := by
  unfold resizeHeight
  refine R.Post.bind (P := LikeC q) ?_ ?_
  · split
    · dsimp only
      refine R.Post.bind (post_core (f := id) (scrollUpI_like rfl _) h) ?_
      intro t ht
      split
      · exact moveCursor_core ht _ _
      · exact moveCursor_core ht _ _
    · exact R.Post.ok h
  · intro t ht
    have ht' : LikeC q { t with sizeY := y, marginBottom := pred32 y } := ht
    dsimp only
    split
    · exact moveCursor_core ht' _ _
    · exact R.Post.ok ht'

theorem resize_like {s : Screen} (h : LikeC q s) (x y : Nat) : R.Post (s.resize x y) (fun r => LikeC q r.2) := by
  unfold resize
  split
  · exact R.Post.ok h
  · split
    · exact R.Post.ok h
    · have h1 := resizeLines_like h x y
      generalize s.resizeLines x y = p at h1
      obtain ⟨ok, t⟩ := p
      dsimp only at h1 ⊢
      split
      · refine R.Post.bind (resizeWidth_like h1 x) ?_
        rintro ⟨ok, u⟩ hu
        dsimp only at hu ⊢
        split
        · refine R.Post.bind (resizeClear_like hu x) ?_
          intro v hv
          refine R.Post.bind (resizeHeight_like hv y) ?_
          intro w hw
          exact R.Post.ok hw
        · exact R.Post.ok hu
      · exact R.Post.ok h1

/-! ### Calls -/

theorem trimSb_like (max n : Nat) : ∀ {s : Screen}, Like k s → R.Post (trimSb max n s) (Like k) := by
  induction n with
  | zero => intro s h; exact R.Post.ok h
  | succ n ih =>
    intro s h
    unfold trimSb
    split
    · split
      · exact R.Post.err
      · exact ih (h.of rfl rfl rfl rfl rfl rfl rfl rfl rfl rfl)
    · exact R.Post.ok h

theorem sbUpLoop_like (n : Nat) : ∀ {s : Screen}, Like k s → R.Post (sbUpLoop n s) (Like k) := by
  induction n with
  | zero => intro s h; exact R.Post.ok h
  | succ n ih =>
    intro s h
    unfold sbUpLoop
    split
    · split
      · exact R.Post.err
      · exact R.Post.ok h
      · exact ih h
    · split
      · exact R.Post.ok h
      · exact ih h

theorem sbDownLoop_like (n : Nat) : ∀ {s : Screen}, Like k s → R.Post (sbDownLoop n s) (Like k) := by
  induction n with
  | zero => intro s h; exact R.Post.ok h
  | succ n ih =>
    intro s h
    unfold sbDownLoop
    split
    · split
      · exact R.Post.err
      · exact ih h
    · exact R.Post.ok h

theorem sbUp_like {s : Screen} (h : Like k s) (n : Nat) : R.Post (s.sbUp n) (Like k) := by
  unfold sbUp
  split
  · exact R.Post.ok h
  · exact sbUpLoop_like n h.incAge.touch

theorem sbDown_like {s : Screen} (h : Like k s) (n : Nat) : R.Post (s.sbDown n) (Like k) := by
  unfold sbDown
  split
  · exact R.Post.ok h
  · exact sbDownLoop_like n h.incAge.touch

theorem moveDown_like {s : Screen} (h : Like k s) (n : Nat) (b : Bool) : R.Post (s.moveDown n b) (Like k) := by
  unfold moveDown
  split
  · exact R.Post.ok h
  · dsimp only
    have key : ∀ m x y, R.Post (if n > m then (if b then s.incAge.scrollUpI (n - m) else .ok s.incAge : R Screen) >>=
        (fun t => t.moveCursor t.cursorX x) else s.incAge.moveCursor s.incAge.cursorX y) (Like k) := by
      intro m x y
      split
      · refine R.Post.bind (P := Like k) ?_ (fun t ht => moveCursor_like ht _ _)
        split
        · exact scrollUpI_like h.incAge _
        · exact R.Post.ok h.incAge
      · exact moveCursor_like h.incAge _ _
    exact key _ _ _

theorem moveUp_like {s : Screen} (h : Like k s) (n : Nat) (b : Bool) : R.Post (s.moveUp n b) (Like k) := by
  unfold moveUp
  split
  · exact R.Post.ok h
  · dsimp only
    generalize (if s.incAge.cursorY ≥ s.incAge.marginTop then s.incAge.marginTop else 0) = m
    split
    · refine R.Post.bind (P := Like k) ?_ (fun t ht => moveCursor_like ht _ _)
      split
      · exact scrollDownI_like h.incAge _
      · exact R.Post.ok h.incAge
    · exact moveCursor_like h.incAge _ _

theorem writeW_like {s : Screen} (h : Like k s) (ch len : Nat) (attr : Attr) : R.Post (s.writeW ch len attr) (Like k) := by
  unfold writeW
  dsimp only
  generalize (if s.incAge.cursorY ≤ s.incAge.marginBottom ∨ s.incAge.cursorY ≥ s.incAge.sizeY then s.incAge.marginBottom
    else pred32 s.incAge.sizeY) = last
  refine R.Post.bind (P := Like k) ?_ ?_
  · split
    · split
      · exact moveCursor_like h.incAge _ _
      · exact moveCursor_like h.incAge _ _
    · exact R.Post.ok h.incAge
  · intro t ht
    refine R.Post.bind (P := Like k) ?_ ?_
    · split
      · exact R.Post.bind (moveCursor_like ht _ _) (fun u hu => scrollUpI_like hu 1)
      · exact R.Post.ok ht
    · intro u hu
      exact R.Post.bind (writeAt_like hu _ _ _ _ _) (fun v hv => moveCursor_like hv _ _)

/-- Calls that set nothing. -/
def Call.unset (c : Call) : Bool :=
  !(c.setsModes || c.setsSize || c.setsMargins || c.setsTabs || c.setsAttr || c.setsMaxSb)

/-- All settings are as before after a call that sets nothing. -/
theorem step_unset {s : Screen} (h : Like k s) {c : Call} (hp : c.unset = true) : R.Post (c.run s) (Like k) := by
  have hi := h.incAge
  cases c with
  | resize x y => cases hp
  | setMargins t b => cases hp
  | setMaxSb m => cases hp
  | setDefAttr a => cases hp
  | reset => cases hp
  | setFlags f => cases hp
  | resetFlags f => cases hp
  | setTabstop => cases hp
  | resetTabstop => cases hp
  | resetAllTabstops => cases hp
  | clearSb => exact R.Post.ok hi
  | sbUp n => exact sbUp_like h n
  | sbDown n => exact sbDown_like h n
  | sbPageUp n =>
    show R.Post (s.sbPageUp n) _
    unfold sbPageUp
    split
    · exact R.Post.ok h
    · exact sbUp_like hi _
  | sbPageDown n =>
    show R.Post (s.sbPageDown n) _
    unfold sbPageDown
    split
    · exact R.Post.ok h
    · exact sbDown_like hi _
  | sbReset =>
    show Like k s.sbReset
    unfold sbReset
    split
    · exact h
    · exact hi
  | write ch a =>
    show R.Post (s.write ch a) _
    unfold write
    cases e : symWidth ch with
    | error u => exact R.Post.err
    | ok len =>
      show R.Post (if len = 0 then .ok s else s.writeW ch len a) _
      split
      · exact R.Post.ok h
      · exact writeW_like h _ _ _
  | newline =>
    show R.Post s.newline _
    unfold newline
    generalize (1 : Nat) = n
    have h1 := moveDown_like hi n true
    generalize s.incAge.moveDown n true = m at h1 ⊢
    refine R.Post.bind h1 ?_
    intro t ht
    exact moveCursor_like ht.incAge _ _
  | scrollUp n =>
    show R.Post (s.scrollUp n) _
    unfold scrollUp
    split
    · exact R.Post.ok h
    · exact scrollUpI_like hi n
  | scrollDown n =>
    show R.Post (s.scrollDown n) _
    unfold scrollDown
    split
    · exact R.Post.ok h
    · exact scrollDownI_like hi n
  | moveTo x y =>
    show R.Post (s.moveTo x y) _
    unfold moveTo
    dsimp only
    exact moveCursor_like hi _ _
  | moveUp n b => exact moveUp_like h n b
  | moveDown n b => exact moveDown_like h n b
  | moveLeft n =>
    show R.Post (s.moveLeft n) _
    unfold moveLeft
    split
    · exact R.Post.ok h
    · dsimp only
      have key : ∀ m x, R.Post (if m > x then s.incAge.moveCursor 0 s.incAge.cursorY
          else s.incAge.moveCursor (x - m) s.incAge.cursorY) (Like k) := by
        intro m x
        split <;> exact moveCursor_like hi _ _
      exact key _ _
  | moveRight n =>
    show R.Post (s.moveRight n) _
    unfold moveRight
    split
    · exact R.Post.ok h
    · dsimp only
      have key : ∀ (q : Prop) [Decidable q] (x y : Nat), R.Post (if q then s.incAge.moveCursor x s.incAge.cursorY
          else s.incAge.moveCursor y s.incAge.cursorY) (Like k) := by
        intro q _ x y
        split <;> exact moveCursor_like hi _ _
      exact key _ _ _
  | moveLineEnd => exact moveCursor_like hi _ _
  | moveLineHome => exact moveCursor_like hi _ _
  | tabRight n =>
    show R.Post (s.tabRight n) _
    unfold tabRight
    split
    · exact R.Post.ok h
    · dsimp only
      exact R.Post.bind R.Post.any (fun x _ => moveCursor_like hi _ _)
  | tabLeft n =>
    show R.Post (s.tabLeft n) _
    unfold tabLeft
    split
    · exact R.Post.ok h
    · dsimp only
      exact R.Post.bind R.Post.any (fun x _ => moveCursor_like hi _ _)
  | insertLines n =>
    show R.Post (s.insertLines n) _
    unfold insertLines
    split
    · exact R.Post.ok h
    · split
      · exact R.Post.ok h
      · dsimp only
        refine R.Post.bind R.Post.any ?_
        rintro ⟨ls, cache⟩ -
        refine R.Post.bind R.Post.any ?_
        intro ls _
        exact R.Post.ok (hi.touch.withLines ls)
  | deleteLines n =>
    show R.Post (s.deleteLines n) _
    unfold deleteLines
    split
    · exact R.Post.ok h
    · split
      · exact R.Post.ok h
      · dsimp only
        refine R.Post.bind R.Post.any ?_
        rintro ⟨ls, cache⟩ -
        refine R.Post.bind R.Post.any ?_
        intro ls _
        exact R.Post.ok (hi.touch.withLines ls)
  | insertChars n =>
    show R.Post (s.insertChars n) _
    unfold insertChars
    split
    · exact R.Post.ok h
    · dsimp only
      have hk : Like k s.incAge.touch.clampCursor := hi
      split
      · exact R.Post.err
      · refine R.Post.bind R.Post.any ?_
        intro cells _
        refine R.Post.bind R.Post.any ?_
        intro cells _
        exact R.Post.ok (hk.withLines _)
  | deleteChars n =>
    show R.Post (s.deleteChars n) _
    unfold deleteChars
    split
    · exact R.Post.ok h
    · dsimp only
      have hk : Like k s.incAge.touch.clampCursor := hi
      split
      · exact R.Post.err
      · refine R.Post.bind R.Post.any ?_
        intro cells _
        refine R.Post.bind R.Post.any ?_
        intro cells _
        exact R.Post.ok (hk.withLines _)
  | eraseCursor => exact eraseRegion_like hi _ _ _ _ _
  | eraseChars n =>
    show R.Post (s.eraseChars n) _
    unfold eraseChars
    split
    · exact R.Post.ok h
    · exact eraseRegion_like hi _ _ _ _ _
  | eraseCursorToEnd b => exact eraseRegion_like hi _ _ _ _ _
  | eraseHomeToCursor b => exact eraseRegion_like hi _ _ _ _ _
  | eraseCurrentLine b => exact eraseRegion_like hi _ _ _ _ _
  | eraseScreenToCursor b => exact eraseRegion_like hi _ _ _ _ _
  | eraseCursorToScreen b => exact eraseRegion_like hi _ _ _ _ _
  | eraseScreen b => exact eraseRegion_like hi _ _ _ _ _
  | selectionReset => exact R.Post.ok hi
  | selectionStart x y => exact R.Post.ok hi
  | selectionTarget x y =>
    show Like k (s.selectionTarget x y)
    unfold selectionTarget
    split
    · exact hi
    · exact h
  | draw =>
    show R.Post (do let r ← s.draw; return r.2.2) _
    unfold draw
    refine R.Post.bind (P := fun r => Like k r.2.2) ?_ (fun r hr => R.Post.ok hr)
    refine R.Post.bind R.Post.any ?_
    intro cs _
    refine R.Post.ok ?_
    split <;> exact h

/-- Settings of two screens that agree give views that agree. -/
theorem Settled.of_like {c : Call} {s s' : Screen} (h : Like s.setup s') : View.Settled c s.view s'.view := by
  have h : s'.setup = s.setup := h
  unfold setup at h
  injection h with h1 h2 h3 h4 h5 h6 h7 h8 h9 h10
  refine ⟨fun _ => ⟨h1, h2, h3⟩, fun _ => ⟨h4, h5⟩, fun _ => ⟨h6, h7⟩, fun _ => ?_, fun _ => h9, fun _ => h10⟩
  show (fun i => if i < s'.sizeX then s'.tabRuler[i]? else none) = fun i => if i < s.sizeX then s.tabRuler[i]? else none
  rw [h4, h8]

theorem Settled.of_core {x y : Nat} {s s' : Screen} (h : LikeC s.setup.core s') :
    View.Settled (.resize x y) s.view s'.view := by
  have h : s'.setup.core = s.setup.core := h
  unfold Setup.core setup at h
  injection h with h1 h2 h3 h4 h5
  exact ⟨fun _ => ⟨h1, h2, h3⟩, fun h => (by cases h), fun h => (by cases h), fun h => (by cases h), fun _ => h4, fun _ => h5⟩

theorem Settled.of_modes {c : Call} {s s' : Screen} {f : BitVec 32} {b : Bool} {a : Attr} (hc : c.setsModes = true)
    (h : s'.setup = { s.setup with flags := f, useAlt := b, defAttrMain := a }) : View.Settled c s.view s'.view := by
  unfold setup at h
  injection h with h1 h2 h3 h4 h5 h6 h7 h8 h9 h10
  refine ⟨fun h => ?_, fun _ => ⟨h4, h5⟩, fun _ => ⟨h6, h7⟩, fun _ => ?_, fun _ => h9, fun _ => h10⟩
  · rw [hc] at h; cases h
  · show (fun i => if i < s'.sizeX then s'.tabRuler[i]? else none) =
      fun i => if i < s.sizeX then s.tabRuler[i]? else none
    dsimp only at h4 h8
    rw [h4, h8]

/-- `set_flags` sets exactly the given flags. -/
theorem setFlags_modes (s : Screen) (f : BitVec 32) : R.Post (s.setFlags f)
    (fun t => ∃ b a, t.setup = { s.setup with flags := s.flags ||| f, useAlt := b, defAttrMain := a }) := by
  unfold setFlags
  split
  · rename_i hf
    refine R.Post.ok ⟨s.useAlt, s.defAttrMain, ?_⟩
    rw [hf, show s.flags ||| 0#32 = s.flags from BitVec.or_zero]
  · dsimp only
    have hi : s.incAge.setup = s.setup := Like.incAge rfl
    have hq : ∃ b a, (if !s.incAge.flags.getLsbD 6 && f.getLsbD 6 then
        { s.incAge with flags := s.incAge.flags ||| f, age := s.incAge.ageCnt, useAlt := true, defAttrMain := s.incAge.defAttr }
        else { s.incAge with flags := s.incAge.flags ||| f }).setup =
        { s.setup with flags := s.flags ||| f, useAlt := b, defAttrMain := a } := by
      rw [← hi, show s.flags = s.incAge.flags from (congrArg Setup.flags hi).symm]
      split <;> exact ⟨_, _, rfl⟩
    obtain ⟨b, a, hq⟩ := hq
    refine R.Post.bind (P := fun t => t.setup = { s.setup with flags := s.flags ||| f, useAlt := b, defAttrMain := a })
      (R.Post.ite (markCursor_like hq) (R.Post.ok hq)) ?_
    intro t ht
    refine R.Post.ok ⟨b, a, ?_⟩
    split
    · exact ht
    · exact ht

/-- `reset_flags` resets exactly the given flags. -/
theorem resetFlags_modes (s : Screen) (f : BitVec 32) : R.Post (s.resetFlags f)
    (fun t => ∃ b a, t.setup = { s.setup with flags := s.flags &&& ~~~f, useAlt := b, defAttrMain := a }) := by
  unfold resetFlags
  split
  · rename_i hf
    refine R.Post.ok ⟨s.useAlt, s.defAttrMain, ?_⟩
    rw [hf, show s.flags &&& ~~~(0#32) = s.flags from by rw [show ~~~(0#32) = BitVec.allOnes 32 from by decide, BitVec.and_allOnes]]
  · dsimp only
    have hi : s.incAge.setup = s.setup := Like.incAge rfl
    have hq : ∃ b a, (if s.incAge.flags.getLsbD 6 && f.getLsbD 6 then
        { s.incAge with flags := s.incAge.flags &&& ~~~f, age := s.incAge.ageCnt, useAlt := false }
        else { s.incAge with flags := s.incAge.flags &&& ~~~f }).setup =
        { s.setup with flags := s.flags &&& ~~~f, useAlt := b, defAttrMain := a } := by
      rw [← hi, show s.flags = s.incAge.flags from (congrArg Setup.flags hi).symm]
      split <;> exact ⟨_, _, rfl⟩
    obtain ⟨b, a, hq⟩ := hq
    refine R.Post.bind (P := fun t => t.setup = { s.setup with flags := s.flags &&& ~~~f, useAlt := b, defAttrMain := a })
      (R.Post.ite (markCursor_like hq) (R.Post.ok hq)) ?_
    intro t ht
    refine R.Post.ok ⟨b, a, ?_⟩
    split
    · exact ht
    · exact ht

/-- Only the calls that set a setting change it. -/
theorem step_settled {s : Screen} (c : Call) : R.Post (c.run s) (fun s' => View.Settled c s.view s'.view) := by
  by_cases hp : c.unset = true
  · have := step_unset (k := s.setup) rfl hp
    cases e : c.run s with
    | error u => trivial
    | ok t => rw [e] at this; exact Settled.of_like this
  have hi : Like s.setup s.incAge := Like.incAge rfl
  have any : ∀ {x : R Screen} {P : Screen → Prop}, (∀ t, P t) → R.Post x P := by
    intro x P h
    cases x with
    | error u => trivial
    | ok t => exact h t
  cases c with
  | resize x y =>
    exact R.Post.bind (resize_like (q := s.setup.core) rfl x y) (fun r hr => R.Post.ok (Settled.of_core hr))
  | setMargins t b =>
    show View.Settled _ s.view (s.setMargins t b).view
    have key : ∀ a d : Nat, View.Settled (.setMargins t b) s.view { s with marginTop := a, marginBottom := d }.view :=
      fun a d => ⟨fun _ => ⟨rfl, rfl, rfl⟩, fun _ => ⟨rfl, rfl⟩, fun h => (by cases h), fun _ => rfl, fun _ => rfl, fun _ => rfl⟩
    unfold setMargins
    dsimp only
    generalize (if t = 0 then 1 else t) = n
    split
    · exact key _ _
    · split
      · exact key _ _
      · exact key _ _
  | setMaxSb m =>
    show R.Post (s.setMaxSb m) _
    unfold setMaxSb
    refine R.Post.bind (trimSb_like (k := s.setup) m _ hi.touch) ?_
    intro t ht
    have := Settled.of_like (c := .setMaxSb m) ht
    exact R.Post.ok ⟨this.modes, this.size, this.margins, this.tabs, this.attr, fun h => (by cases h)⟩
  | setDefAttr a =>
    exact R.Post.ok ⟨fun _ => ⟨rfl, rfl, rfl⟩, fun _ => ⟨rfl, rfl⟩, fun _ => ⟨rfl, rfl⟩, fun _ => rfl, fun h => (by cases h),
      fun _ => rfl⟩
  | reset =>
    show R.Post s.reset _
    unfold reset
    dsimp only
    have h := Settled.of_like (c := .reset) hi
    refine R.Post.bind R.Post.any (fun tab _ => R.Post.ok ?_)
    exact ⟨fun h => (by cases h), h.size, fun h => (by cases h), fun h => (by cases h), h.attr, h.maxSb⟩
  | setFlags f =>
    refine R.SatK.mono (setFlags_modes s f) (fun _ h => h) ?_
    rintro t ⟨b, a, ht⟩
    exact Settled.of_modes rfl ht
  | resetFlags f =>
    refine R.SatK.mono (resetFlags_modes s f) (fun _ h => h) ?_
    rintro t ⟨b, a, ht⟩
    exact Settled.of_modes rfl ht
  | setTabstop =>
    show R.Post (s.putTab true) _
    unfold putTab
    split
    · exact R.Post.ok (Settled.of_like rfl)
    · split
      · exact R.Post.ok ⟨fun _ => ⟨rfl, rfl, rfl⟩, fun _ => ⟨rfl, rfl⟩, fun _ => ⟨rfl, rfl⟩, fun h => (by cases h), fun _ => rfl,
          fun _ => rfl⟩
      · exact R.Post.err
  | resetTabstop =>
    show R.Post (s.putTab false) _
    unfold putTab
    split
    · exact R.Post.ok (Settled.of_like rfl)
    · split
      · exact R.Post.ok ⟨fun _ => ⟨rfl, rfl, rfl⟩, fun _ => ⟨rfl, rfl⟩, fun _ => ⟨rfl, rfl⟩, fun h => (by cases h), fun _ => rfl,
          fun _ => rfl⟩
      · exact R.Post.err
  | resetAllTabstops =>
    show R.Post s.resetAllTabstops _
    unfold resetAllTabstops
    split
    · exact R.Post.err
    · exact R.Post.ok ⟨fun _ => ⟨rfl, rfl, rfl⟩, fun _ => ⟨rfl, rfl⟩, fun _ => ⟨rfl, rfl⟩, fun h => (by cases h), fun _ => rfl,
          fun _ => rfl⟩
  | _ => exact (hp rfl).elim

end Screen
end Verif
