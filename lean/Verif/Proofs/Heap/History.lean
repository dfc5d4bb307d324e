import Verif.Spec.Heap
import Verif.Proofs.Heap.Copy

/-!
# Histories with pointers
-/

namespace Verif
namespace PScreen

/-! ### Calls that fail -/

theorem Rel.cells_err {f : Screen → R Screen} (hf : LocalS f) {p : PScreen} {s : Screen} (h : Rel p s) {k : UB}
    (e : f s = .error k) : p.cells f = .error k := by
  obtain ⟨z, zm, za, c, ro⟩ := h
  let B : Links := ⟨[], none, s.selActive, { s.selStart with line := none }, { s.selEnd with line := none }, s.sbLastId⟩
  have e1 : ({ p.sc with main := s.main, alt := s.alt } : Screen) = PScreen.put B s := by rw [c.sc]; rfl
  have e2 : f (PScreen.put B s) = .error k := by rw [hf.put, e]; rfl
  have hm := c.reads (zs := zm) (fun e he => List.mem_append_left _ he)
  have ha := c.reads (zs := za) (fun e he => List.mem_append_right _ he)
  rw [← ro.pmain, ← ro.smain] at hm
  rw [← ro.palt, ← ro.salt] at ha
  unfold PScreen.cells PScreen.access
  simp only [hm, ha, bind, Except.bind, e1, e2]

/-- The first two steps of `tsm_screen_write`, with pointers. -/
def writePos (p : PScreen) : R PScreen := do
  let p := p.onSc Screen.incAge
  let last := if p.sc.cursorY ≤ p.sc.marginBottom ∨ p.sc.cursorY ≥ p.sc.sizeY then p.sc.marginBottom
    else pred32 p.sc.sizeY
  let p ← (if p.sc.cursorX ≥ p.sc.sizeX then
      if p.sc.fWrap then p.moveCursor 0 (u32 (p.sc.cursorY + 1))
      else p.moveCursor (pred32 p.sc.sizeX) p.sc.cursorY
    else .ok p : R PScreen)
  (if p.sc.cursorY > last then do
      let p ← p.moveCursor p.sc.cursorX last
      p.scrollUpI 1
    else .ok p : R PScreen)

theorem writeW_eq (p : PScreen) (ch len : Nat) (attr : Attr) :
    p.writeW ch len attr = (do
      let p ← p.writePos
      let p ← p.cells (fun s => s.writeAt p.sc.cursorX p.sc.cursorY ch len attr)
      p.moveCursor (u32 (p.sc.cursorX + len)) p.sc.cursorY) := by
  unfold writeW writePos
  simp only [bind_assoc]

theorem Rel.writePos {p : PScreen} {s : Screen} (h : Rel p s) : Sim p.writePos s.writePos := by
  unfold PScreen.writePos Screen.writePos
  have h := h.incAge
  generalize p.onSc Screen.incAge = p at *
  generalize s.incAge = s at *
  obtain ⟨f1, f2, f3, f4, f5, f6, f7⟩ := h.fields
  dsimp only
  rw [f1, f2, f3, f4, f6, f7]
  refine Sim.bind (.ite Iff.rfl (fun _ => .ite Iff.rfl (fun _ => h.moveCursor _ _) (fun _ => h.moveCursor _ _))
    (fun _ => .ok h)) (fun p s h => ?_)
  obtain ⟨f1, f2, -⟩ := h.fields
  rw [f1, f2]
  exact .ite Iff.rfl (fun _ => Sim.bind (h.moveCursor _ _) (fun p s h => h.upI 1)) (fun _ => .ok h)

theorem Rel.writeW_err {p : PScreen} {s : Screen} (h : Rel p s) (hi : Screen.Inv s) {ch len : Nat} {attr : Attr}
    {k : UB} (e : s.writeW ch len attr = .error k) : p.writeW ch len attr = .error k := by
  rw [Screen.writeW_eq] at e
  rw [writeW_eq]
  obtain ⟨t, et, _⟩ := Screen.writePos_spec hi
  obtain ⟨p', e1, h'⟩ := h.writePos t et
  rw [et] at e
  rw [e1]
  have e : (t.writeAt t.cursorX t.cursorY ch len attr >>= fun s =>
      s.moveCursor (u32 (s.cursorX + len)) s.cursorY) = .error k := e
  show (p'.cells (fun s => s.writeAt p'.sc.cursorX p'.sc.cursorY ch len attr) >>= fun p =>
      p.moveCursor (u32 (p.sc.cursorX + len)) p.sc.cursorY) = .error k
  obtain ⟨f1, f2, -⟩ := h'.fields
  rw [f1, f2]
  rcases hw : t.writeAt t.cursorX t.cursorY ch len attr with k' | t2
  · rw [hw] at e
    cases e
    rw [h'.cells_err (LocalS.writeAt ..) hw]
    rfl
  · rw [hw] at e
    obtain ⟨p2, e2, h2⟩ := h'.cells (LocalS.writeAt t.cursorX t.cursorY ch len attr) t2 hw
    rw [e2]
    show p2.moveCursor _ _ = _
    obtain ⟨f1, f2, -⟩ := h2.fields
    rw [f1, f2]
    exact h2.cells_err (LocalS.moveCursor _ _) e

/-- A call that fails on lists fails in the same way with pointers. -/
theorem Rel.run_err {p : PScreen} {s : Screen} (h : Rel p s) (hi : Screen.Inv s) {c : Screen.Call} (hv : c.Valid)
    {k : UB} (e : c.run s = .error k) : p.run c = .error k := by
  rcases Screen.step_which hi hv with ⟨s', e', _⟩ | ⟨_, ⟨ch, a, rfl, e'⟩ | ⟨n, rfl, e'⟩⟩
  · rw [e'] at e; cases e
  · have e : (Screen.symWidth ch >>= fun len => if len = 0 then .ok s else s.writeW ch len a) = .error k := e
    show (Screen.symWidth ch >>= fun len => if len = 0 then .ok p else p.writeW ch len a) = .error k
    cases hw : Screen.symWidth ch with
    | error k' => rw [hw] at e; cases e; rfl
    | ok len =>
      rw [hw] at e
      have e : (if len = 0 then .ok s else s.writeW ch len a) = .error k := e
      show (if len = 0 then .ok p else p.writeW ch len a) = .error k
      by_cases hl : len = 0
      · rw [if_pos hl] at e; cases e
      · rw [if_neg hl] at e ⊢
        exact h.writeW_err hi e
  · exact h.cells_err (LocalS.tabLeft n) e

theorem Rel.runAll_err : ∀ {cs : List Screen.Call} {p : PScreen} {s : Screen}, Rel p s → Screen.Reachable s →
    (∀ c ∈ cs, c.Valid) → ∀ {k : UB}, Screen.runAll cs s = .error k → PScreen.runAll cs p = .error k
  | [], _, _, _, _, _, _, e => by cases e
  | c :: cs, p, s, h, hr, hv, k, e => by
    have e : (c.run s >>= Screen.runAll cs) = .error k := e
    show (p.run c >>= PScreen.runAll cs) = .error k
    rcases hc : c.run s with k' | s1
    · rw [hc] at e
      cases e
      rw [h.run_err hr.inv (hv c (List.mem_cons_self ..)) hc]
      rfl
    · rw [hc] at e
      obtain ⟨p1, h1, h2⟩ := h.run hr.inv c s1 hc
      rw [h1]
      exact Rel.runAll_err h2 (hr.step (hv c (List.mem_cons_self ..)) hc)
        (fun d hd => hv d (List.mem_cons_of_mem _ hd)) e

/-- The outcome of a history with pointers, compared with the one on lists. -/
inductive Same : R (Heap ⊕ PScreen) → R (Option Screen) → Prop
  | error (k : UB) : Same (.error k) (.error k)
  | failed {h : Heap} (hl : h.live = []) : Same (.ok (.inl h)) (.ok none)
  | screen {p : PScreen} {s : Screen} (h : Rel p s) (hr : Screen.Reachable s) : Same (.ok (.inr p)) (.ok (some s))

theorem history_same (al : Allocator) (allocOk : Nat → Bool) {cs : List Screen.Call} (hv : ∀ c ∈ cs, c.Valid) :
    Same (history al allocOk cs) (Screen.history allocOk cs) := by
  have hr0 : ∀ s, Screen.history allocOk cs = .ok (some s) → Screen.Reachable s := fun s e => ⟨allocOk, cs, hv, e⟩
  have hr1 : ∀ s, Screen.new allocOk = .ok (some s) → Screen.Reachable s := by
    intro s e
    refine ⟨allocOk, [], by simp, ?_⟩
    unfold Screen.history
    rw [e]
    rfl
  unfold history
  unfold Screen.history at hr0 ⊢
  rcases Screen.new_spec allocOk with ⟨e, _⟩ | ⟨s, e, _⟩
  · rcases new_ok al e with ⟨s, h, _⟩ | ⟨_, h, e1, e2⟩
    · cases h
    · rw [e, e1]
      exact .failed e2
  · rcases new_ok al e with ⟨s', h, p, e1, e2⟩ | ⟨h, _⟩
    · cases h
      rw [e] at hr0
      rw [e, e1]
      have hr := hr1 s e
      show Same (runAll cs p >>= fun p => .ok (.inr p)) (Screen.runAll cs s >>= fun s => .ok (some s))
      rcases hrun : Screen.runAll cs s with k | t
      · rw [Rel.runAll_err e2 hr hv hrun]
        exact .error k
      · obtain ⟨q, h1, h2⟩ := Rel.runAll e2 hr hv t hrun
        rw [h1]
        refine .screen h2 (hr0 t ?_)
        show (Screen.runAll cs s >>= fun s => .ok (some s)) = _
        rw [hrun]
        rfl
    · cases h

theorem Reachable.rel {p : PScreen} (h : p.Reachable) : ∃ s, Screen.Reachable s ∧ Rel p s := by
  obtain ⟨al, allocOk, cs, hv, e⟩ := h
  have := history_same al allocOk hv
  rw [e] at this
  generalize Screen.history allocOk cs = o at this
  cases this with
  | screen h hr => exact ⟨_, hr, h⟩

theorem Reachable.step {p p' : PScreen} (h : p.Reachable) {c : Screen.Call} (hv : c.Valid) (e : p.run c = .ok p') :
    p'.Reachable := by
  obtain ⟨al, allocOk, cs, hcs, eh⟩ := h
  refine ⟨al, allocOk, cs ++ [c], ?_, ?_⟩
  · intro d hd
    rcases List.mem_append.1 hd with hd | hd
    · exact hcs d hd
    · rw [List.mem_singleton.1 hd]; exact hv
  · have happ : ∀ (l : List Screen.Call) (t u : PScreen), runAll l t = .ok u → u.run c = .ok p' →
        runAll (l ++ [c]) t = .ok p' := by
      intro l
      induction l with
      | nil =>
        intro t u h1 h2
        cases h1
        show (t.run c >>= runAll []) = _
        rw [h2]; rfl
      | cons d l ih =>
        intro t u h1 h2
        have h1 : (t.run d >>= runAll l) = .ok u := h1
        show (t.run d >>= runAll (l ++ [c])) = _
        cases hd : t.run d with
        | error k => rw [hd] at h1; cases h1
        | ok t' => rw [hd] at h1; exact ih t' u h1 h2
    unfold history at eh ⊢
    cases hn : new al allocOk with
    | error k => rw [hn] at eh; cases eh
    | ok o =>
      rw [hn] at eh
      cases o with
      | inl hp => cases eh
      | inr q =>
        have eh : (runAll cs q >>= fun p => (.ok (.inr p) : R (Heap ⊕ PScreen))) = .ok (.inr p) := eh
        show (runAll (cs ++ [c]) q >>= fun p => (.ok (.inr p) : R (Heap ⊕ PScreen))) = _
        cases hq : runAll cs q with
        | error k => rw [hq] at eh; cases eh
        | ok u =>
          rw [hq] at eh
          cases eh
          rw [happ cs q p hq e]
          rfl

/-! ### Pointers in order -/

theorem Seg.follow {obj : Nat → LineObj} : ∀ {z : List (Nat × Line)} {q : Option Nat}, Seg obj q z →
    Follow (fun a => (obj a).next) (z.head?.map (·.1)) (z.map (·.1))
  | [], _, _ => trivial
  | e :: z, q, h => by
    refine ⟨rfl, ?_⟩
    dsimp only
    rw [h.1]
    exact Seg.follow h.2

/-- Walking backwards from the last of a non-empty part of the list. -/
theorem follow_back {prev : Nat → Option Nat} : ∀ (z : List Nat), (∀ u a t, z = u ++ a :: t → prev a = u.getLast?) →
    Follow prev z.getLast? z.reverse := by
  intro z
  generalize hn : z.length = n
  induction n generalizing z with
  | zero =>
    intro _
    rw [List.length_eq_zero_iff.1 hn]
    trivial
  | succ n ih =>
    intro h
    have hne : z ≠ [] := by intro h; subst h; cases hn
    obtain ⟨u, a, rfl⟩ : ∃ u a, z = u ++ [a] := ⟨_, _, (List.dropLast_concat_getLast hne).symm⟩
    rw [List.getLast?_append, List.reverse_append]
    show a = a ∧ Follow prev (prev a) u.reverse
    refine ⟨rfl, ?_⟩
    rw [h u a [] rfl]
    refine ih u (by simpa using hn) ?_
    intro v b t hu
    exact h v b (t ++ [a]) (by rw [hu]; simp)

theorem Rel.sound {p : PScreen} {s : Screen} (h : Rel p s) (hi : Screen.Inv s) : ∃ sb, p.Sound sb := by
  obtain ⟨z, zm, za, c, r⟩ := h
  have hnd := c.own.nodup_iff.1 c.nodup
  have hlist : p.main ++ p.alt ++ z.map (·.1) = (zm ++ za ++ z).map (·.1) := by
    rw [r.pmain, r.palt, List.map_append, List.map_append]
  refine ⟨z.map (·.1), ?_, ?_, ?_, ?_, ?_, c.nodup, ?_, ?_, ?_, ?_⟩
  · rw [c.first]; exact c.seg.follow
  · rw [c.last, ← List.getLast?_map]
    refine follow_back _ ?_
    intro u a t hz
    obtain ⟨u', t', rfl, rfl, ht'⟩ := List.map_eq_append_iff.1 hz
    cases t' with
    | nil => cases ht'
    | cons e t' =>
      cases ht'
      rw [c.seg.split, List.getLast?_map]
      simp
  · rw [List.length_map]
    have := hi.sb.cnt
    rw [c.sb, List.length_map] at this
    rw [c.sc]
    exact this.symm
  · rw [hlist]; exact hnd
  · intro a
    rw [hlist]
    exact c.own.mem_iff
  · have := hi.geo.rows
    rw [r.smain, List.length_map] at this
    rw [r.pmain, r.palt, List.length_map, List.length_map, c.sc]
    exact ⟨r.len, this⟩
  · intro a ha
    rw [r.pmain, r.palt, ← List.map_append] at ha
    obtain ⟨e, he, rfl⟩ := List.mem_map.1 ha
    rw [c.obj e he, c.sc]
    rcases List.mem_append.1 he with he | he
    · exact hi.geo.wm _ (by rw [r.smain]; exact List.mem_map_of_mem he)
    · exact hi.geo.wa _ (by rw [r.salt]; exact List.mem_map_of_mem he)
  · intro a ha
    have := c.pos
    rw [List.append_nil, ha] at this
    cases hs : s.sbPos with
    | none => rw [hs] at this; exact absurd this (by simp [Ref])
    | some i =>
      rw [hs] at this
      obtain ⟨e, he, rfl, _⟩ := this
      exact List.mem_map_of_mem he
  · intro hsel a ha
    rw [c.sc] at hsel
    obtain ⟨r1, r2⟩ := c.sel hsel
    rcases ha with ha | ha
    · rw [ha] at r1
      cases hs : s.selStart.line with
      | none => rw [hs] at r1; exact absurd r1 (by simp [Ref])
      | some i =>
        rw [hs] at r1
        obtain ⟨e, he, rfl, _⟩ := r1
        exact List.mem_map_of_mem he
    · rw [ha] at r2
      cases hs : s.selEnd.line with
      | none => rw [hs] at r2; exact absurd r2 (by simp [Ref])
      | some i =>
        rw [hs] at r2
        obtain ⟨e, he, rfl, _⟩ := r2
        exact List.mem_map_of_mem he

end PScreen
end Verif
