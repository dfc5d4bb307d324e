import Verif.Proofs.Heap.History
import Verif.Props.Screen.Safety

/-!
# Allocation of lines

C81: lines are used only while they are allocated, are freed exactly once, and nothing is left at the end.
-/

namespace Verif.Props.Screen

open Verif Verif.Screen

/-- For the examples: a history on lists gives one with pointers. -/
theorem exists_pscreen {s : Screen} (h : s.Reachable) (al : Allocator) : ∃ p : PScreen, p.Reachable ∧ p.sc = PScreen.bare s := by
  obtain ⟨allocOk, cs, hv, e⟩ := h
  have := PScreen.history_same al allocOk hv
  rw [e] at this
  generalize hp : PScreen.history al allocOk cs = o at this
  cases this with
  | screen h hr => exact ⟨_, ⟨al, allocOk, cs, hv, hp⟩, h.sc⟩

/-- An allocator that always returns the address after the highest one in use, and so uses addresses of freed lines
again. -/
def topAllocator : Allocator where
  choose live _ := live.foldr max 0 + 1
  fresh := by
    intro live _ h
    have : ∀ (l : List Nat) (a : Nat), a ∈ l → a ≤ l.foldr max 0 := by
      intro l
      induction l with
      | nil => intro a h; cases h
      | cons b l ih =>
        intro a h
        show a ≤ max b (l.foldr max 0)
        rcases List.mem_cons.1 h with rfl | h
        · exact Nat.le_max_left ..
        · exact Nat.le_trans (ih a h) (Nat.le_max_right ..)
    have := this live _ h
    omega

/-- **C81.** With any allocator, any pattern of failing allocations and any history of calls, no line is read, written
or freed that is not allocated, and no pointer loop runs forever: the only undefined behaviour that can happen are
the two accesses within arrays of C08. -/
theorem C81_no_dangling (al : Allocator) (allocOk : Nat → Bool) (cs : List Call) (hv : ∀ c ∈ cs, c.Valid) {e : UB}
    (he : PScreen.history al allocOk cs = .error e) : e = .insertMove ∨ e = .oobTab := by
  have := PScreen.history_same al allocOk hv
  rw [he] at this
  generalize hp : Screen.history allocOk cs = o at this
  cases this with
  | error => exact C08_history_partial allocOk cs hv hp

/-- **C81**, for a single call: outside the two situations of C08 it succeeds. -/
theorem C81_step {p : PScreen} (h : p.Reachable) (c : Call) (hv : c.Valid) (h1 : ∀ n, c ≠ .tabLeft n)
    (h2 : ∀ ch a, c = .write ch a → 2 ≤ p.sc.sizeX) : ∃ p', p.run c = .ok p' ∧ p'.Reachable := by
  obtain ⟨s, hr, hrel⟩ := h.rel
  have hz : ¬ c.Hazard s := by
    cases c with
    | write ch a =>
      rintro ⟨_, w, hw, hlt⟩
      have hx : 2 ≤ p.sc.sizeX := h2 ch a rfl
      obtain ⟨w', hw', hle⟩ := symWidth_ok ch
      rw [hw] at hw'
      injection hw' with hw'
      rw [hrel.sc] at hx
      have hx : 2 ≤ s.sizeX := hx
      omega
    | tabLeft n => exact fun _ => h1 n rfl
    | _ => exact id
  obtain ⟨s', e, _⟩ := step_safe hr.inv hv hz
  obtain ⟨p', e', _⟩ := hrel.run hr.inv c s' e
  exact ⟨p', e', h.step hv e'⟩

/-- **C81.** After any history the pointers are in order: following the links visits the scrollback in both
directions, the lines of both buffers and of the scrollback are distinct, they are all the lines that are allocated, and
the view position and the selection refer to lines of the scrollback. -/
theorem C81_owned {p : PScreen} (h : p.Reachable) : ∃ sb, p.Sound sb := by
  obtain ⟨s, hr, hrel⟩ := h.rel
  exact hrel.sound hr.inv

/-- **C81.** The number of allocated lines is that of the two buffers and the scrollback; nothing leaks while the
screen is used. -/
theorem C81_no_leak {p : PScreen} (h : p.Reachable) :
    p.heap.live.length = p.main.length + p.alt.length + p.sc.sbCount := by
  obtain ⟨sb, hs⟩ := C81_owned h
  have hp : p.heap.live.Perm (p.main ++ p.alt ++ sb) := (List.perm_ext_iff_of_nodup hs.nodup hs.once).2 hs.owned
  rw [hp.length_eq, List.length_append, List.length_append, hs.count]

/-- **C81.** Dropping the last reference frees every line exactly once: nothing is freed that is not allocated, and
nothing is left. -/
theorem C81_released {p : PScreen} (h : p.Reachable) : ∃ hp, p.destroy = .ok hp ∧ hp.live = [] := by
  obtain ⟨s, _, hrel⟩ := h.rel
  exact hrel.destroy

/-- **C81.** If a screen cannot be created for lack of memory, nothing is left either. -/
theorem C81_failed_new (al : Allocator) (allocOk : Nat → Bool) (cs : List Call) (hv : ∀ c ∈ cs, c.Valid) {hp : Heap}
    (he : PScreen.history al allocOk cs = .ok (.inl hp)) : hp.live = [] := by
  have := PScreen.history_same al allocOk hv
  rw [he] at this
  generalize Screen.history allocOk cs = o at this
  cases this with
  | failed hl => exact hl

/-- **C81.** Drawing visits allocated lines only, and leaves all pointers as they are. -/
theorem C81_draw {p : PScreen} (h : p.Reachable) : ∃ cs age p', p.draw = .ok (cs, age, p') ∧ p'.Reachable ∧
    p'.heap = p.heap ∧ p'.main = p.main ∧ p'.alt = p.alt ∧ p'.first = p.first ∧ p'.last = p.last := by
  obtain ⟨p', e, hp'⟩ := C81_step h .draw trivial (fun _ h => by cases h) (fun _ _ h => by cases h)
  have e : (p.draw >>= fun r => .ok r.2.2) = .ok p' := e
  rcases hd : p.draw with k | ⟨cs, age, q⟩
  · rw [hd] at e; cases e
  · rw [hd] at e
    cases e
    refine ⟨cs, age, q, rfl, hp', ?_⟩
    unfold PScreen.draw at hd
    simp only [bind, Except.bind] at hd
    split at hd
    · cases hd
    · split at hd
      · cases hd
      · have hd := Except.ok.inj hd
        split at hd <;> cases hd <;> exact ⟨rfl, rfl, rfl, rfl, rfl⟩

/-- **C81.** Copying the selection visits allocated lines only and ends. (It may access rows that do not exist or
write beyond its buffer; these are the findings of C33.) -/
theorem C81_copy {p : PScreen} (h : p.Reachable) {e : UB} (he : p.selectionCopy = .error e) :
    e = .oobLine ∨ e = .copyBuf := by
  obtain ⟨s, hr, hrel⟩ := h.rel
  rw [hrel.selectionCopy] at he
  have hloop : ∀ (a b : SelPos) (n : Nat) (i : Int) (e : UB), s.copyScreenLoop a b n i = .error e → e = .oobLine := by
    intro a b n
    induction n with
    | zero => intro i e h; cases h
    | succ n ih =>
      intro i e h
      unfold Screen.copyScreenLoop at h
      split at h
      · cases h; rfl
      · split at h
        · cases h; rfl
        · rcases hh : s.copyScreenLoop a b n (i + 1) with k | r
          · rw [hh] at h
            cases h
            exact ih _ _ hh
          · rw [hh] at h; cases h
  unfold Screen.selectionCopy at he
  split at he
  · cases he
  · split at he
    · cases he
    · dsimp only at he
      split at he
      · cases he
      · rcases hc : s.copyScreen (Screen.topStart s.sb (Screen.normSel s.sb s.selStart s.selEnd).1)
          (Screen.normSel s.sb s.selStart s.selEnd).2 with k | r
        · rw [hc] at he
          cases he
          unfold Screen.copyScreen at hc
          split at hc
          · cases hc
          · exact Or.inl (hloop _ _ _ _ _ hc)
        · rw [hc] at he
          simp only [bind, Except.bind] at he
          split at he
          · cases he; exact Or.inr rfl
          · cases he

/-- **C81.** The screen with pointers and the one with lists, on which all other properties are stated, cannot be told
apart: after the same history they draw the same picture with the same age, copy the same text, and agree in size,
cursor, flags and all other fields. -/
theorem C81_same (al : Allocator) (allocOk : Nat → Bool) (cs : List Call) (hv : ∀ c ∈ cs, c.Valid) {s : Screen}
    (e : Screen.history allocOk cs = .ok (some s)) :
    ∃ p, PScreen.history al allocOk cs = .ok (.inr p) ∧
      p.draw.map (fun r => (r.1, r.2.1)) = s.draw.map (fun r => (r.1, r.2.1)) ∧
      p.selectionCopy = s.selectionCopy ∧
      (p.sc.sizeX, p.sc.sizeY, p.sc.cursorX, p.sc.cursorY, p.sc.flags, p.sc.marginTop, p.sc.marginBottom) =
        (s.sizeX, s.sizeY, s.cursorX, s.cursorY, s.flags, s.marginTop, s.marginBottom) ∧
      (p.sc.sbCount, p.sc.sbMax, p.sc.sbPosNum, p.sc.defAttr) = (s.sbCount, s.sbMax, s.sbPosNum, s.defAttr) := by
  have := PScreen.history_same al allocOk hv
  rw [e] at this
  generalize PScreen.history al allocOk cs = o at this
  cases this with
  | screen hrel hr =>
    rename_i p
    refine ⟨p, rfl, ?_, hrel.selectionCopy, ?_, ?_⟩
    · have hd := draw_eq hr.inv.geo
      obtain ⟨p', e', _⟩ := hrel.draw hd
      rw [e', hd]
      rfl
    · rw [hrel.sc]; rfl
    · rw [hrel.sc]; rfl

/-- A screen with lines in the scrollback, some of them evicted, a selection in the scrollback and the alternate
screen in use. -/
example : ∃ p : PScreen, p.Reachable ∧ p.sc.sbCount = 2 ∧ p.sc.selActive = true ∧ p.sc.useAlt = true ∧
    p.sc.sbLastId = 3 := by
  obtain ⟨s, hr, h⟩ := exists_of_holds (P := fun s => decide (s.sbCount = 2 ∧ s.selActive = true ∧ s.useAlt = true ∧
    s.sbLastId = 3)) (cs := [.resize 4 3, .setMaxSb 2, .scrollUp 4, .sbUp 2, .selectionStart 1 0, .selectionTarget 1 1,
    .setFlags ALTERNATE]) (by decide +kernel)
  obtain ⟨p, h1, h2⟩ := exists_pscreen hr topAllocator
  refine ⟨p, h1, ?_⟩
  rw [h2]
  exact of_decide_eq_true h

/-- A screen that cannot be created. -/
example : ∃ hp, PScreen.history topAllocator (fun n => decide (n < 7)) [] = .ok (.inl hp) := by
  have h := PScreen.history_same topAllocator (fun n => decide (n < 7)) (cs := []) (by simp)
  have e : (Screen.history (fun n => decide (n < 7)) []).map Option.isNone = .ok true := by decide +kernel
  generalize Screen.history (fun n => decide (n < 7)) [] = o at *
  generalize PScreen.history topAllocator (fun n => decide (n < 7)) [] = q at *
  cases h with
  | error => cases e
  | failed => exact ⟨_, rfl⟩
  | screen => cases e

end Verif.Props.Screen
