import Verif.Proofs.Heap.Local
import Verif.Proofs.Heap.Sb
import Verif.Proofs.Screen.Resize

/-!
# Resizing, creating and destroying a screen with pointers
-/

namespace Verif
namespace PScreen

/-- Appending lines to both arrays. -/
theorem Core.grow {w : Nat} {z : List (Nat × Line)} : ∀ {n : Nat} {p : PScreen} {s : Screen}
    {zm za : List (Nat × Line)}, Core p s z (zm ++ za) [] → Rows p s zm za →
    ∃ p' ok s', growLines w n p = .ok (ok, p') ∧ Screen.growLines w n s = (ok, s') ∧ Rel p' s'
  | 0, p, s, zm, za, c, r => ⟨p, true, s, rfl, rfl, z, zm, za, c, r⟩
  | n + 1, p, s, zm, za, c, r => by
    rw [growLines, Screen.growLines]
    rcases hn : s.lineNew w with ⟨o, s1⟩
    obtain ⟨p1, q, e1, e2, e3, hcase⟩ := c.new hn
    have k1 := lineNew_keep hn
    rw [e1]
    rcases hcase with ⟨rfl, rfl, c1⟩ | ⟨m, rfl, rfl, c1⟩
    · exact ⟨p1, false, s1, rfl, rfl, z, zm, za, c1, ⟨e2.trans r.pmain, k1.main.trans r.smain, e3.trans r.palt,
        k1.alt.trans r.salt, r.len⟩⟩
    · dsimp only
      rcases hn2 : s1.lineNew w with ⟨o2, s2⟩
      obtain ⟨p2, q2, f1, f2, f3, hcase⟩ := c1.new hn2
      have k2 := k1.trans (lineNew_keep hn2)
      rw [f1]
      rcases hcase with ⟨rfl, rfl, c2⟩ | ⟨a, rfl, rfl, c2⟩
      · dsimp only
        obtain ⟨p3, g1, g2, g3, g4⟩ := c2.free
        rw [g1]
        exact ⟨p3, false, s2, rfl, rfl, z, zm, za, g2, ⟨g3.trans (f2.trans (e2.trans r.pmain)), k2.main.trans r.smain,
          g4.trans (f3.trans (e3.trans r.palt)), k2.alt.trans r.salt, r.len⟩⟩
      · dsimp only
        have c3 := c2.perm (Y := (zm ++ [m]) ++ (za ++ [a])) (by
          refine (List.Perm.swap m a _).trans ?_
          refine (List.Perm.cons m (List.perm_append_singleton a (zm ++ za)).symm).trans ?_
          rw [List.append_assoc, List.append_assoc]
          exact List.perm_middle.symm)
        have h2 : p2.main = zm.map (·.1) := f2.trans (e2.trans r.pmain)
        have h3 : p2.alt = za.map (·.1) := f3.trans (e3.trans r.palt)
        have h4 : s2.main = zm.map (·.2) := k2.main.trans r.smain
        have h5 : s2.alt = za.map (·.2) := k2.alt.trans r.salt
        refine Core.grow (z := z) (p := { p2 with main := p2.main ++ [m.1], alt := p2.alt ++ [a.1] })
          (s := { s2 with main := s2.main ++ [m.2], alt := s2.alt ++ [a.2] }) (zm := zm ++ [m]) (za := za ++ [a]) ?_ ?_
        · exact { c3 with sc := c3.sc, own := c3.own, nodup := c3.nodup, pos := c3.pos, sel := c3.sel }
        · refine ⟨?_, ?_, ?_, ?_, ?_⟩
          · show p2.main ++ [m.1] = _; rw [h2]; simp
          · show s2.main ++ [m.2] = _; rw [h4]; simp
          · show p2.alt ++ [a.1] = _; rw [h3]; simp
          · show s2.alt ++ [a.2] = _; rw [h5]; simp
          · simp [r.len]

theorem Rel.resizeLines {p : PScreen} {s : Screen} (h : Rel p s) (x y : Nat) :
    ∃ p' ok s', p.resizeLines x y = .ok (ok, p') ∧ s.resizeLines x y = (ok, s') ∧ Rel p' s' := by
  unfold PScreen.resizeLines Screen.resizeLines
  have hl : p.main.length = s.main.length := by
    obtain ⟨z, zm, za, c, r⟩ := h
    rw [r.pmain, r.smain, List.length_map, List.length_map]
  rw [hl]
  by_cases hy : y > s.main.length
  · rw [if_pos hy, if_pos hy]
    have ha : p.sc.alloc = (s.alloc.1, bare s.alloc.2) := by rw [h.sc]; rfl
    have hb : (bare s.alloc.2).alloc = (s.alloc.2.alloc.1, bare s.alloc.2.alloc.2) := rfl
    have r1 : Rel { p with sc := bare s.alloc.2 } s.alloc.2 := by
      have := h.onSc (fun s => { s with allocN := s.allocN + 1 }) (fun s => { s with allocN := s.allocN + 1 }) rfl rfl rfl
        (fun h => ⟨h, rfl, rfl⟩) rfl rfl rfl
      unfold PScreen.onSc at this
      rw [h.sc] at this
      exact this
    have r2 : Rel { p with sc := bare s.alloc.2.alloc.2 } s.alloc.2.alloc.2 := by
      have := r1.onSc (fun s => { s with allocN := s.allocN + 1 }) (fun s => { s with allocN := s.allocN + 1 }) rfl rfl rfl
        (fun h => ⟨h, rfl, rfl⟩) rfl rfl rfl
      exact this
    rw [ha]
    dsimp only
    by_cases h1 : s.alloc.1 = true
    · rw [if_pos h1, if_pos h1, hb]
      dsimp only
      by_cases h2 : s.alloc.2.alloc.1 = true
      · rw [if_pos h2, if_pos h2]
        have hm : p.main.length = s.alloc.2.alloc.2.main.length := hl
        rw [hm]
        obtain ⟨z, zm, za, c, r⟩ := r2
        exact Core.grow c r
      · rw [if_neg h2, if_neg h2]
        exact ⟨_, _, _, rfl, rfl, r2⟩
    · rw [if_neg h1, if_neg h1]
      exact ⟨_, _, _, rfl, rfl, r1⟩
  · rw [if_neg hy, if_neg hy]
    exact ⟨_, _, _, rfl, rfl, h⟩

theorem Rel.moveCursor {p : PScreen} {s : Screen} (h : Rel p s) (x y : Nat) :
    Sim (p.moveCursor x y) (s.moveCursor x y) := h.cells (LocalS.moveCursor x y)

theorem Rel.resizeHeight {p : PScreen} {s : Screen} (h : Rel p s) (y : Nat) :
    Sim (p.resizeHeight y) (s.resizeHeight y) := by
  unfold PScreen.resizeHeight Screen.resizeHeight
  rw [show p.sc.sizeY = s.sizeY by rw [h.sc]; rfl]
  refine Sim.bind (.ite Iff.rfl (fun _ => Sim.bind (h.upI _) (fun p s h => ?_)) (fun _ => .ok h)) (fun p s h => ?_)
  · rw [show p.sc.cursorX = s.cursorX by rw [h.sc]; rfl, show p.sc.cursorY = s.cursorY by rw [h.sc]; rfl]
    exact .ite Iff.rfl (fun _ => h.moveCursor _ _) (fun _ => h.moveCursor _ _)
  · have h := h.onSc (fun s => { s with sizeY := y, marginBottom := pred32 y })
      (fun s => { s with sizeY := y, marginBottom := pred32 y }) rfl rfl rfl (fun h => ⟨h, rfl, rfl⟩) rfl rfl rfl
    generalize (p.onSc fun s => { s with sizeY := y, marginBottom := pred32 y }) = p at *
    show Sim _ ((fun s : Screen => if s.cursorY ≥ s.sizeY then s.moveCursor s.cursorX (pred32 s.sizeY) else Except.ok s)
      { s with sizeY := y, marginBottom := pred32 y })
    generalize ({ s with sizeY := y, marginBottom := pred32 y } : Screen) = s at *
    dsimp only
    rw [show p.sc.cursorX = s.cursorX by rw [h.sc]; rfl, show p.sc.cursorY = s.cursorY by rw [h.sc]; rfl,
      show p.sc.sizeY = s.sizeY by rw [h.sc]; rfl]
    exact .ite Iff.rfl (fun _ => h.moveCursor _ _) (fun _ => .ok h)

theorem Rel.resize {p : PScreen} {s : Screen} (h : Rel p s) (x y : Nat) {ret : Screen.Ret} {s' : Screen}
    (e : s.resize x y = .ok (ret, s')) : ∃ p', p.resize x y = .ok (ret, p') ∧ Rel p' s' := by
  unfold Screen.resize at e
  unfold PScreen.resize
  by_cases h1 : x = 0 ∨ y = 0
  · rw [if_pos h1] at e ⊢
    cases e
    exact ⟨p, rfl, h⟩
  rw [if_neg h1] at e ⊢
  have h2' : (p.sc.sizeX = x ∧ p.sc.sizeY = y) ↔ (s.sizeX = x ∧ s.sizeY = y) := by rw [h.sc]; exact Iff.rfl
  by_cases h2 : s.sizeX = x ∧ s.sizeY = y
  · rw [if_pos h2] at e
    rw [if_pos (h2'.2 h2)]
    cases e
    exact ⟨p, rfl, h⟩
  rw [if_neg h2] at e
  rw [if_neg (fun hh => h2 (h2'.1 hh))]
  obtain ⟨p1, ok, s1, a1, a2, r1⟩ := h.resizeLines x y
  rw [a2] at e
  rw [a1]
  simp only [bind, Except.bind]
  dsimp only at e
  by_cases h3 : ok = true
  · rw [if_pos h3] at e ⊢
    rcases hw : s1.resizeWidth x with er | ⟨ok2, s2⟩
    · rw [hw] at e; cases e
    rw [hw] at e
    obtain ⟨p2, b1, r2⟩ := r1.access (resizeWidth_local x) hw
    rw [b1]
    simp only [bind, Except.bind] at e ⊢
    by_cases h4 : ok2 = true
    · rw [if_pos h4] at e ⊢
      rcases hc : s2.resizeClear x with er | s3
      · rw [hc] at e; cases e
      rw [hc] at e
      obtain ⟨p3, d1, r3⟩ := r2.cells (LocalS.resizeClear x) s3 hc
      rw [d1]
      dsimp only at e ⊢
      rcases hh : s3.resizeHeight y with er | s4
      · rw [hh] at e; cases e
      rw [hh] at e
      obtain ⟨p4, f1, r4⟩ := r3.resizeHeight y s4 hh
      rw [f1]
      cases e
      exact ⟨p4, rfl, r4⟩
    · rw [if_neg h4] at e ⊢
      cases e
      exact ⟨p2, rfl, r2⟩
  · rw [if_neg h3] at e ⊢
    cases e
    exact ⟨p1, rfl, r1⟩

/-! ### Destruction -/

theorem freeLines_ok {Y : List Nat} : ∀ {zm za : List Nat} {h : Heap}, h.live.Perm (zm ++ za ++ Y) →
    zm.length = za.length → ∃ lv, freeLines zm za h = .ok { h with live := lv } ∧ lv.Perm Y
  | [], [], h, hp, _ => ⟨h.live, rfl, by simpa using hp⟩
  | [], _ :: _, _, _, hl => by simp at hl
  | _ :: _, [], _, _, hl => by simp at hl
  | m :: zm, a :: za, h, hp, hl => by
    have p1 : (m :: zm ++ a :: za ++ Y).Perm (m :: a :: (zm ++ za ++ Y)) := by
      rw [List.append_assoc, List.cons_append, List.append_assoc]
      exact List.Perm.cons _ (List.perm_middle)
    have hp := hp.trans p1
    have l1 : m ∈ h.live := hp.mem_iff.2 (by simp)
    have q1 : (h.live.erase m).Perm (a :: (zm ++ za ++ Y)) := by
      have := hp.erase m
      rwa [List.erase_cons_head] at this
    have l2 : a ∈ h.live.erase m := q1.mem_iff.2 (by simp)
    have q2 : ((h.live.erase m).erase a).Perm (zm ++ za ++ Y) := by
      have := q1.erase a
      rwa [List.erase_cons_head] at this
    rw [freeLines, free_ok l1]
    show ∃ lv, (Heap.free { h with live := h.live.erase m } a >>= _) = _ ∧ _
    rw [free_ok l2]
    exact freeLines_ok (h := { h with live := (h.live.erase m).erase a }) q2 (by simpa using hl)

theorem clearSb_heap {p : PScreen} {h : Heap} (e : freeSb p.heap.live.length p.first p.heap = .ok h) :
    ∃ p', p.clearSb = .ok p' ∧ p'.heap = h := by
  unfold PScreen.clearSb
  show ∃ p', (freeSb p.heap.live.length p.first p.heap >>= _) = _ ∧ _
  rw [e]
  simp only [bind, Except.bind]
  split
  · refine ⟨_, rfl, ?_⟩
    split <;> split <;> rfl
  · exact ⟨_, rfl, rfl⟩

theorem Rel.destroy {p : PScreen} {s : Screen} (h : Rel p s) : ∃ hp, p.destroy = .ok hp ∧ hp.live = [] := by
  obtain ⟨z, zm, za, c, r⟩ := h
  unfold PScreen.destroy
  obtain ⟨lv, e1, e2⟩ := freeLines_ok (h := p.heap) (zm := p.main) (za := p.alt) (Y := z.map (·.1))
    (by rw [r.pmain, r.palt, ← List.map_append, ← List.map_append]; exact c.own)
    (by rw [r.pmain, r.palt, List.length_map, List.length_map]; exact r.len)
  rw [e1]
  show ∃ hp, (PScreen.clearSb { p with heap := { p.heap with live := lv } } >>= fun p => Except.ok p.heap) = _ ∧ _
  obtain ⟨lv2, f1, f2⟩ := freeSb_ok (X := []) (z := z) (h := { p.heap with live := lv }) (n := lv.length) c.seg e2
    (by rw [e2.length_eq, List.length_map]; omega)
  rw [← c.first] at f1
  obtain ⟨p', g1, g2⟩ := clearSb_heap (p := { p with heap := { p.heap with live := lv } }) f1
  rw [g1]
  refine ⟨p'.heap, rfl, ?_⟩
  rw [g2]
  exact f2.eq_nil

/-- The screen without lines and its counterpart with pointers. -/
theorem zero_rel (al : Allocator) (allocOk : Nat → Bool) : Rel
    { sc := Screen.zero allocOk, heap := ⟨[], fun _ => ⟨none, none, default⟩⟩, al := al
      main := [], alt := [], first := none, last := none, pos := none, selS := none, selE := none }
    (Screen.zero allocOk) :=
  ⟨[], [], [],
    { sc := rfl, sb := rfl, own := .nil, nodup := .nil, obj := fun _ hh => (by cases hh), seg := trivial, first := rfl
      last := rfl, pos := trivial, sel := fun _ => ⟨trivial, trivial⟩, ids := .nil, lastId := fun _ hh => by cases hh },
    ⟨rfl, rfl, rfl, rfl, rfl⟩⟩

theorem new_ok (al : Allocator) {allocOk : Nat → Bool} {o : Option Screen} (e : Screen.new allocOk = .ok o) :
    (∃ s, o = some s ∧ ∃ p, PScreen.new al allocOk = .ok (.inr p) ∧ Rel p s) ∨
      (o = none ∧ ∃ h, PScreen.new al allocOk = .ok (.inl h) ∧ h.live = []) := by
  unfold Screen.new at e
  unfold PScreen.new
  rcases hr : (Screen.zero allocOk).resize 80 24 with er | ⟨ret, s⟩
  · rw [hr] at e; cases e
  rw [hr] at e
  obtain ⟨p, e1, r⟩ := (zero_rel al allocOk).resize 80 24 hr
  dsimp only
  rw [e1]
  cases e
  simp only [bind, Except.bind]
  by_cases h : ret = .ok
  · rw [if_pos h, if_pos h]
    exact .inl ⟨s, rfl, p, rfl, r⟩
  · rw [if_neg h, if_neg h]
    refine .inr ⟨rfl, ?_⟩
    have hsb : s.sb = [] := by
      rcases Screen.resize_spec (Screen.zero_dim allocOk) (Screen.zero_sbOk allocOk) (x := 80) (y := 24) (by omega)
        (by omega) (by omega) (by omega) (by simp [Screen.zero]) with ⟨s', e', hp, _⟩ | ⟨s', e', _⟩
      · rw [hr] at e'
        cases e'
        rw [hp.frame]
        rfl
      · rw [hr] at e'
        cases e'
        exact absurd rfl h
    obtain ⟨z, zm, za, c, ro⟩ := r
    have hz : z = [] := by
      have := c.sb
      rw [hsb] at this
      exact List.map_eq_nil_iff.1 this.symm
    subst hz
    obtain ⟨lv, f1, f2⟩ := freeLines_ok (h := p.heap) (zm := p.main) (za := p.alt) (Y := [])
      (by
        have := c.own
        rw [List.map_append, List.map_append] at this
        rw [ro.pmain, ro.palt]
        exact this)
      (by rw [ro.pmain, ro.palt, List.length_map, List.length_map]; exact ro.len)
    rw [f1]
    exact ⟨_, rfl, f2.eq_nil⟩

end PScreen
end Verif
