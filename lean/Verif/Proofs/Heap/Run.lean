import Verif.Proofs.Heap.Draw
import Verif.Proofs.Screen.Frame

/-!
# Every call with pointers

Writing, moving with scrolling, and then any call and any history of calls.
-/

namespace Verif
namespace PScreen

theorem incAge_margins {s : Screen} (h : Margins s) : Margins s.incAge := by
  rw [Screen.incAge_eq]; exact h

theorem Inv.margins {s : Screen} (h : Screen.Inv s) : Margins s := by
  have h1 := h.geo.mtb
  have h2 := h.geo.mby
  have h3 := h.geo.yb
  exact ⟨by omega, by omega⟩

/-- The fields of the screen that are not lines. -/
theorem Rel.fields {p : PScreen} {s : Screen} (h : Rel p s) : p.sc.cursorX = s.cursorX ∧ p.sc.cursorY = s.cursorY ∧
    p.sc.sizeX = s.sizeX ∧ p.sc.sizeY = s.sizeY ∧ p.sc.marginTop = s.marginTop ∧ p.sc.marginBottom = s.marginBottom ∧
    p.sc.fWrap = s.fWrap := by
  rw [h.sc]; exact ⟨rfl, rfl, rfl, rfl, rfl, rfl, rfl⟩

theorem Rel.writeW {p : PScreen} {s : Screen} (h : Rel p s) (ch len : Nat) (attr : Attr) :
    Sim (p.writeW ch len attr) (s.writeW ch len attr) := by
  unfold PScreen.writeW Screen.writeW
  have h := h.incAge
  generalize p.onSc Screen.incAge = p at *
  generalize s.incAge = s at *
  obtain ⟨f1, f2, f3, f4, f5, f6, f7⟩ := h.fields
  dsimp only
  rw [f1, f2, f3, f4, f6, f7]
  refine Sim.bind (.ite Iff.rfl (fun _ => .ite Iff.rfl (fun _ => h.moveCursor _ _) (fun _ => h.moveCursor _ _))
    (fun _ => .ok h)) (fun p s h => ?_)
  obtain ⟨f1, f2, -⟩ := h.fields
  rw [f1, f2]
  refine Sim.bind (.ite Iff.rfl (fun _ => Sim.bind (h.moveCursor _ _) (fun p s h => h.upI 1)) (fun _ => .ok h))
    (fun p s h => ?_)
  obtain ⟨f1, f2, -⟩ := h.fields
  rw [f1, f2]
  refine Sim.bind (h.cells (LocalS.writeAt s.cursorX s.cursorY ch len attr)) (fun p s h => ?_)
  obtain ⟨f1, f2, -⟩ := h.fields
  rw [f1, f2]
  exact h.moveCursor _ _

theorem Rel.write {p : PScreen} {s : Screen} (h : Rel p s) (ch : Nat) (attr : Attr) :
    Sim (p.write ch attr) (s.write ch attr) := by
  unfold PScreen.write Screen.write
  cases Screen.symWidth ch with
  | error e => intro s' e; cases e
  | ok len => exact .ite Iff.rfl (fun _ => .ok h) (fun _ => h.writeW ch len attr)

theorem Rel.scrollUp {p : PScreen} {s : Screen} (h : Rel p s) (n : Nat) : Sim (p.scrollUp n) (s.scrollUp n) :=
  .ite Iff.rfl (fun _ => .ok h) (fun _ => h.incAge.upI n)

theorem Rel.scrollDown {p : PScreen} {s : Screen} (h : Rel p s) (hm : Margins s) (n : Nat) :
    Sim (p.scrollDown n) (s.scrollDown n) :=
  .ite Iff.rfl (fun _ => .ok h) (fun _ => h.incAge.downI (incAge_margins hm) n)

theorem Rel.moveUp {p : PScreen} {s : Screen} (h : Rel p s) (hm : Margins s) (n : Nat) (b : Bool) :
    Sim (p.moveUp n b) (s.moveUp n b) := by
  unfold PScreen.moveUp Screen.moveUp
  refine .ite Iff.rfl (fun _ => .ok h) (fun _ => ?_)
  have h := h.incAge
  have hm := incAge_margins hm
  generalize p.onSc Screen.incAge = p at *
  generalize s.incAge = s at *
  obtain ⟨f1, f2, f3, f4, f5, f6, f7⟩ := h.fields
  dsimp only
  rw [f1, f2, f5]
  refine .ite Iff.rfl (fun _ => Sim.bind (.ite Iff.rfl (fun _ => h.downI hm _) (fun _ => .ok h)) (fun p s h => ?_))
    (fun _ => h.moveCursor _ _)
  rw [h.fields.1]
  exact h.moveCursor _ _

theorem Rel.moveDown {p : PScreen} {s : Screen} (h : Rel p s) (n : Nat) (b : Bool) :
    Sim (p.moveDown n b) (s.moveDown n b) := by
  unfold PScreen.moveDown Screen.moveDown
  refine .ite Iff.rfl (fun _ => .ok h) (fun _ => ?_)
  have h := h.incAge
  generalize p.onSc Screen.incAge = p at *
  generalize s.incAge = s at *
  obtain ⟨f1, f2, f3, f4, f5, f6, f7⟩ := h.fields
  dsimp only
  rw [f1, f2, f4, f6]
  refine .ite Iff.rfl (fun _ => Sim.bind (.ite Iff.rfl (fun _ => h.upI _) (fun _ => .ok h)) (fun p s h => ?_))
    (fun _ => h.moveCursor _ _)
  rw [h.fields.1]
  exact h.moveCursor _ _

theorem Rel.newline {p : PScreen} {s : Screen} (h : Rel p s) : Sim p.newline s.newline :=
  Sim.bind (h.incAge.moveDown 1 true) (fun _ _ h => h.cells LocalS.moveLineHome)

/-- Any call. -/
theorem Rel.run {p : PScreen} {s : Screen} (h : Rel p s) (hi : Screen.Inv s) (c : Screen.Call) :
    Sim (p.run c) (c.run s) := by
  have hm := Inv.margins hi
  cases c with
  | resize x y =>
    intro s' e
    rcases hr : s.resize x y with er | ⟨ret, s1⟩
    · simp only [Screen.Call.run, hr, bind, Except.bind] at e; cases e
    · simp only [Screen.Call.run, hr, bind, Except.bind] at e
      cases e
      obtain ⟨p', h1, h2⟩ := h.resize x y hr
      exact ⟨p', by simp only [PScreen.run, h1, bind, Except.bind]; rfl, h2⟩
  | setMaxSb m => exact h.setMaxSb m
  | clearSb =>
    intro s' e
    cases e
    exact Rel.clearSb h
  | sbUp n => exact h.sbUp n
  | sbDown n => exact h.sbDown n
  | sbPageUp n => exact h.sbPageUp n
  | sbPageDown n => exact h.sbPageDown n
  | sbReset => exact .ok h.sbReset
  | write ch a => exact h.write ch a
  | newline => exact h.newline
  | scrollUp n => exact h.scrollUp n
  | scrollDown n => exact h.scrollDown hm n
  | moveUp n b => exact h.moveUp hm n b
  | moveDown n b => exact h.moveDown n b
  | insertLines n => exact h.insertLines hm n
  | deleteLines n => exact h.deleteLines hm n
  | selectionReset => exact .ok h.selectionReset
  | selectionStart x y =>
    intro s' e
    cases e
    exact h.selectionStart x y
  | selectionTarget x y =>
    intro s' e
    cases e
    exact h.selectionTarget x y
  | draw =>
    intro s' e
    rcases hr : s.draw with er | ⟨cs, age, s1⟩
    · simp only [Screen.Call.run, hr, bind, Except.bind] at e; cases e
    · simp only [Screen.Call.run, hr, bind, Except.bind] at e
      cases e
      obtain ⟨p', h1, h2⟩ := h.draw hr
      exact ⟨p', by simp only [PScreen.run, h1, bind, Except.bind]; rfl, h2⟩
  | setMargins t b => exact h.cells (.setMargins t b)
  | setDefAttr a => exact h.cells (.setDefAttr a)
  | reset => exact h.cells .reset
  | setFlags f => exact h.cells (.setFlags f)
  | resetFlags f => exact h.cells (.resetFlags f)
  | setTabstop => exact h.cells (.putTab true)
  | resetTabstop => exact h.cells (.putTab false)
  | resetAllTabstops => exact h.cells .resetAllTabstops
  | moveTo x y => exact h.cells (.moveTo x y)
  | moveLeft n => exact h.cells (.moveLeft n)
  | moveRight n => exact h.cells (.moveRight n)
  | moveLineEnd => exact h.cells .moveLineEnd
  | moveLineHome => exact h.cells .moveLineHome
  | tabRight n => exact h.cells (.tabRight n)
  | tabLeft n => exact h.cells (.tabLeft n)
  | insertChars n => exact h.cells (.insertChars n)
  | deleteChars n => exact h.cells (.deleteChars n)
  | eraseCursor => exact h.cells .eraseCursor
  | eraseChars n => exact h.cells (.eraseChars n)
  | eraseCursorToEnd b => exact h.cells (.eraseCursorToEnd b)
  | eraseHomeToCursor b => exact h.cells (.eraseHomeToCursor b)
  | eraseCurrentLine b => exact h.cells (.eraseCurrentLine b)
  | eraseScreenToCursor b => exact h.cells (.eraseScreenToCursor b)
  | eraseCursorToScreen b => exact h.cells (.eraseCursorToScreen b)
  | eraseScreen b => exact h.cells (.eraseScreen b)

/-- Any history of calls. -/
theorem Rel.runAll : ∀ {cs : List Screen.Call} {p : PScreen} {s : Screen}, Rel p s → Screen.Reachable s →
    (∀ c ∈ cs, c.Valid) → Sim (runAll cs p) (Screen.runAll cs s)
  | [], _, _, h, _, _ => .ok h
  | c :: cs, p, s, h, hr, hv => by
    intro s' e
    have e : (c.run s >>= Screen.runAll cs) = .ok s' := e
    rcases hc : c.run s with er | s1
    · rw [hc] at e; cases e
    rw [hc] at e
    obtain ⟨p1, h1, h2⟩ := h.run hr.inv c s1 hc
    obtain ⟨p', h3, h4⟩ := Rel.runAll h2 (hr.step (hv c (List.mem_cons_self ..)) hc)
      (fun d hd => hv d (List.mem_cons_of_mem _ hd)) s' e
    refine ⟨p', ?_, h4⟩
    show (p.run c >>= PScreen.runAll cs) = _
    rw [h1]
    exact h3

end PScreen
end Verif
