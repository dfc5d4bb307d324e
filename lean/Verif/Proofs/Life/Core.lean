import Verif.Spec.Lifetime

/-!
# Assertions about the heap of `Lifetime.lean`

`Holds w L`: the allocated objects are exactly those of the list `L` of addresses with their objects.
-/

namespace Verif
namespace Life

structure Holds (w : World) (L : List (Nat × Obj)) : Prop where
  live : w.live.Perm (L.map (·.1))
  nodup : w.live.Nodup
  obj : ∀ x ∈ L, w.obj x.1 = x.2

theorem Holds.perm {w : World} {L L' : List (Nat × Obj)} (h : Holds w L) (p : L.Perm L') : Holds w L' :=
  ⟨h.live.trans (p.map _), h.nodup, fun x hx => h.obj x (p.mem_iff.mpr hx)⟩

theorem Holds.mem {w : World} {L : List (Nat × Obj)} (h : Holds w L) {a : Nat} {o : Obj} (m : (a, o) ∈ L) :
    a ∈ w.live := h.live.mem_iff.mpr (List.mem_map.mpr ⟨_, m, rfl⟩)

theorem Holds.read {w : World} {L : List (Nat × Obj)} (h : Holds w L) {a : Nat} {o : Obj} (m : (a, o) ∈ L) :
    w.read a = .ok o := by
  rw [World.read, if_pos (h.mem m), h.obj _ m]

theorem Holds.notin {w : World} {L : List (Nat × Obj)} {a : Nat} {o : Obj} (h : Holds w ((a, o) :: L)) :
    a ∉ L.map (·.1) := by
  have := h.live.nodup_iff.mp h.nodup
  rw [List.map_cons, List.nodup_cons] at this
  exact this.1

theorem Holds.write {w : World} {L : List (Nat × Obj)} {a : Nat} {o : Obj} (h : Holds w ((a, o) :: L)) (o' : Obj) :
    ∃ w', w.write a o' = .ok w' ∧ Holds w' ((a, o') :: L) := by
  refine ⟨{ w with obj := fun b => if b = a then o' else w.obj b },
    by rw [World.write, if_pos (h.mem (List.mem_cons_self ..))], h.live, h.nodup, ?_⟩
  intro x hx
  rcases List.mem_cons.mp hx with rfl | hx
  · simp
  · have : x.1 ≠ a := fun e => h.notin (e ▸ List.mem_map_of_mem hx)
    simp only [if_neg this]
    exact h.obj x (List.mem_cons_of_mem _ hx)

theorem Holds.free {w : World} {L : List (Nat × Obj)} {a : Nat} {o : Obj} (h : Holds w ((a, o) :: L)) :
    ∃ w', w.free a = .ok w' ∧ Holds w' L := by
  refine ⟨{ w with live := w.live.erase a }, by rw [World.free, if_pos (h.mem (List.mem_cons_self ..))], ?_, h.nodup.erase _, ?_⟩
  · have := h.live.erase a
    simpa using this
  · exact fun x hx => h.obj x (List.mem_cons_of_mem _ hx)

theorem Holds.freeOpt {w : World} {L : List (Nat × Obj)} {q : Option Nat} {o : Obj}
    (h : Holds w ((q.map (·, o)).toList ++ L)) : ∃ w', w.freeOpt q = .ok w' ∧ Holds w' L := by
  cases q with
  | none => exact ⟨w, rfl, h⟩
  | some a => exact Holds.free h

theorem Holds.malloc {w : World} {L : List (Nat × Obj)} (h : Holds w L) (o : Obj) :
    (∃ w', w.malloc o = (none, w') ∧ Holds w' L) ∨
    ∃ a w', w.malloc o = (some a, w') ∧ Holds w' ((a, o) :: L) := by
  cases hk : w.allocOk w.n with
  | false =>
    left
    exact ⟨{ w with n := w.n + 1 }, by simp only [World.malloc, hk]; rfl, h.live, h.nodup, h.obj⟩
  | true =>
    right
    refine ⟨w.al.choose w.live w.n, { w with
        n := w.n + 1, live := w.al.choose w.live w.n :: w.live
        obj := fun b => if b = w.al.choose w.live w.n then o else w.obj b },
      by simp only [World.malloc, hk]; rfl, h.live.cons _,
      List.nodup_cons.mpr ⟨w.al.fresh _ _, h.nodup⟩, ?_⟩
    intro x hx
    rcases List.mem_cons.mp hx with rfl | hx
    · simp
    · have : x.1 ≠ w.al.choose w.live w.n := by
        intro e
        refine w.al.fresh w.live w.n ?_
        rw [← e]
        exact h.mem (o := x.2) hx
      simp only [if_neg this]
      exact h.obj x hx

/-! ### Arrays, symbol tables, screens -/

theorem bind_ok {α β : Type} {x : R α} {a : α} {f : α → R β} (h : x = .ok a) : (x >>= f) = f a := by rw [h]; rfl

theorem Holds.array {w : World} {L : List (Nat × Obj)} (h : Holds w L) :
    (∃ w', arrayNew w = .ok (none, w') ∧ Holds w' L) ∨
    ∃ a d w', arrayNew w = .ok (some a, w') ∧ Holds w' ((a, .arr (some d)) :: (d, .blob) :: L) := by
  rcases h.malloc (.arr none) with ⟨w1, e1, h1⟩ | ⟨a, w1, e1, h1⟩
  · exact .inl ⟨w1, by simp only [arrayNew, e1], h1⟩
  · rcases h1.malloc .blob with ⟨w2, e2, h2⟩ | ⟨d, w2, e2, h2⟩
    · obtain ⟨w3, e3, h3⟩ := h2.free
      exact .inl ⟨w3, by simp only [arrayNew, e1, e2, bind_ok e3]; rfl, h3⟩
    · obtain ⟨w3, e3, h3⟩ := (h2.perm (List.Perm.swap ..)).write (.arr (some d))
      exact .inr ⟨a, d, w3, by simp only [arrayNew, e1, e2, bind_ok e3]; rfl, h3⟩

theorem Holds.arrayFree {w : World} {L : List (Nat × Obj)} {a d : Nat}
    (h : Holds w ((a, .arr (some d)) :: (d, .blob) :: L)) : ∃ w', Life.arrayFree w (some a) = .ok w' ∧ Holds w' L := by
  have r := h.read (List.mem_cons_self ..)
  obtain ⟨w1, e1, h1⟩ := (h.perm (List.Perm.swap ..)).free
  obtain ⟨w2, e2, h2⟩ := h1.free
  refine ⟨w2, ?_, h2⟩
  simp only [Life.arrayFree, World.readArr, bind_ok r]
  exact (bind_ok (show w.freeOpt (some d) = _ from e1)).trans e2

/-- A symbol table with its array. -/
def symCells (t i d ref : Nat) : List (Nat × Obj) := [(t, .sym ref (some i)), (i, .arr (some d)), (d, .blob)]

theorem Holds.sym {w : World} {L : List (Nat × Obj)} (h : Holds w L) :
    (∃ w', symNew w = .ok (none, w') ∧ Holds w' L) ∨
    ∃ t i d w', symNew w = .ok (some t, w') ∧ Holds w' (symCells t i d 1 ++ L) := by
  rcases h.malloc (.sym 1 none) with ⟨w1, e1, h1⟩ | ⟨t, w1, e1, h1⟩
  · exact .inl ⟨w1, by simp only [symNew, e1], h1⟩
  · rcases h1.array with ⟨w2, e2, h2⟩ | ⟨i, d, w2, e2, h2⟩
    · obtain ⟨w3, e3, h3⟩ := h2.free
      exact .inl ⟨w3, by simp only [symNew, e1, bind_ok e2, bind_ok e3]; rfl, h3⟩
    · have p : ((i, Obj.arr (some d)) :: (d, .blob) :: (t, .sym 1 none) :: L).Perm
          ((t, .sym 1 none) :: (i, .arr (some d)) :: (d, .blob) :: L) :=
        ((List.Perm.swap ..).cons _).trans (List.Perm.swap ..)
      obtain ⟨w3, e3, h3⟩ := (h2.perm p).write (.sym 1 (some i))
      exact .inr ⟨t, i, d, w3, by simp only [symNew, e1, bind_ok e2, bind_ok e3]; rfl, h3⟩

theorem Holds.symUnref {w : World} {L : List (Nat × Obj)} {t i d : Nat} (h : Holds w (symCells t i d 1 ++ L)) :
    ∃ w', Life.symUnref w (some t) = .ok w' ∧ Holds w' L := by
  have r := h.read (List.mem_cons_self ..)
  obtain ⟨w1, e1, h1⟩ := Holds.write h (.sym 0 (some i))
  have p : ((t, Obj.sym 0 (some i)) :: (i, .arr (some d)) :: (d, .blob) :: L).Perm
      ((i, .arr (some d)) :: (d, .blob) :: (t, .sym 0 (some i)) :: L) :=
    (List.Perm.swap ..).trans ((List.Perm.swap ..).cons _)
  obtain ⟨w2, e2, h2⟩ := (Holds.perm h1 p).arrayFree
  obtain ⟨w3, e3, h3⟩ := h2.free
  refine ⟨w3, ?_, h3⟩
  have rs : w.readSym t = .ok (1, some i) := by rw [World.readSym, bind_ok r]; rfl
  rw [Life.symUnref, bind_ok rs]
  simp only [Nat.sub_self, bind_ok e1, bind_ok e2]
  exact e3

/-- A screen. -/
structure SRec where
  a : Nat
  t : Nat
  i : Nat
  d : Nat
  ref : Nat

/-- A screen with everything it owns. -/
def SRec.cells (r : SRec) : List (Nat × Obj) := (r.a, .scr r.ref (some r.t)) :: symCells r.t r.i r.d 1

theorem Holds.bump {w : World} {L : List (Nat × Obj)} (h : Holds w L) : Holds { w with n := w.n + 1 } L :=
  ⟨h.live, h.nodup, h.obj⟩

theorem Holds.screen {w : World} {L : List (Nat × Obj)} (h : Holds w L) :
    (∃ w', screenNew w = .ok (none, w') ∧ Holds w' L) ∨
    ∃ (r : SRec) (w' : World), screenNew w = .ok (some r.a, w') ∧ r.ref = 1 ∧ Holds w' (r.cells ++ L) := by
  rcases h.malloc (.scr 1 none) with ⟨w1, e1, h1⟩ | ⟨c, w1, e1, h1⟩
  · exact .inl ⟨w1, by simp only [screenNew, e1], h1⟩
  · rcases h1.sym with ⟨w2, e2, h2⟩ | ⟨t, i, d, w2, e2, h2⟩
    · obtain ⟨w3, e3, h3⟩ := h2.free
      refine .inl ⟨w3, ?_, h3⟩
      simp only [screenNew, e1, bind_ok e2]
      rw [bind_ok (show Life.symUnref w2 none = .ok w2 from rfl), bind_ok e3]
      rfl
    · have p : (symCells t i d 1 ++ (c, Obj.scr 1 none) :: L).Perm ((c, .scr 1 none) :: (symCells t i d 1 ++ L)) :=
        List.perm_middle
      obtain ⟨w3, e3, h3⟩ := (h2.perm p).write (.scr 1 (some t))
      cases hk : w3.allocOk w3.n with
      | true =>
        refine .inr ⟨⟨c, t, i, d, 1⟩, { w3 with n := w3.n + 1 }, ?_, rfl, h3.bump⟩
        simp only [screenNew, e1, bind_ok e2, bind_ok e3, hk]
        rfl
      | false =>
        have p : ((c, Obj.scr 1 (some t)) :: (symCells t i d 1 ++ L)).Perm (symCells t i d 1 ++ (c, .scr 1 (some t)) :: L) :=
          List.perm_middle.symm
        obtain ⟨w4, e4, h4⟩ := (h3.bump.perm p).symUnref
        obtain ⟨w5, e5, h5⟩ := h4.free
        refine .inl ⟨w5, ?_, h5⟩
        simp only [screenNew, e1, bind_ok e2, bind_ok e3, hk, Bool.false_eq_true, if_false, bind_ok e4, bind_ok e5]
        rfl

theorem Holds.readScr {w : World} {L : List (Nat × Obj)} {r : SRec} (h : Holds w (r.cells ++ L)) :
    w.readScr r.a = .ok (r.ref, some r.t) := by
  rw [World.readScr, bind_ok (h.read (List.mem_cons_self ..))]; rfl

theorem Holds.screenRef {w : World} {L : List (Nat × Obj)} {r : SRec} (h : Holds w (r.cells ++ L)) :
    ∃ w', Life.screenRef w (some r.a) = .ok w' ∧ Holds w' ({ r with ref := inc r.ref }.cells ++ L) := by
  obtain ⟨w1, e1, h1⟩ := Holds.write h (.scr (inc r.ref) (some r.t))
  exact ⟨w1, by rw [Life.screenRef, bind_ok h.readScr]; exact e1, h1⟩

theorem Holds.screenUse {w : World} {L : List (Nat × Obj)} {r : SRec} (h : Holds w (r.cells ++ L)) :
    Life.screenUse w (some r.a) = .ok w := by
  have m : ∀ x, x ∈ r.cells → x ∈ r.cells ++ L := fun x hx => List.mem_append_left _ hx
  have r1 := h.read (m (r.t, .sym 1 (some r.i)) (by simp [SRec.cells, symCells]))
  have r2 := h.read (m (r.i, .arr (some r.d)) (by simp [SRec.cells, symCells]))
  have r3 := h.read (m (r.d, .blob) (by simp [SRec.cells, symCells]))
  have e1 : w.readSym r.t = .ok (1, some r.i) := by rw [World.readSym, bind_ok r1]; rfl
  have e2 : w.readArr r.i = .ok (some r.d) := by rw [World.readArr, bind_ok r2]; rfl
  have e3 : w.readBlob (some r.d) = .ok () := by simp only [World.readBlob]; rw [bind_ok r3]; rfl
  rw [Life.screenUse, bind_ok h.readScr]
  simp only [bind_ok e1, bind_ok e2, bind_ok e3]
  rfl

theorem Holds.screenUnref {w : World} {L : List (Nat × Obj)} {r : SRec} (h : Holds w (r.cells ++ L)) {k : Nat}
    (hr : r.ref = k + 1) :
    ∃ w', Life.screenUnref w (some r.a) = .ok w' ∧
      Holds w' ((if k = 0 then [] else { r with ref := k }.cells) ++ L) := by
  obtain ⟨w1, e1, h1⟩ := Holds.write h (.scr k (some r.t))
  have e : r.ref - 1 = k := by omega
  have hb := h.readScr
  by_cases hk : k = 0
  · have p : ((r.a, Obj.scr k (some r.t)) :: (symCells r.t r.i r.d 1 ++ L)).Perm
        (symCells r.t r.i r.d 1 ++ (r.a, .scr k (some r.t)) :: L) := List.perm_middle.symm
    obtain ⟨w2, e2, h2⟩ := (Holds.perm h1 p).symUnref
    obtain ⟨w3, e3, h3⟩ := h2.free
    refine ⟨w3, ?_, by rw [if_pos hk]; exact h3⟩
    rw [Life.screenUnref, bind_ok hb]
    simp only [if_neg (show ¬ r.ref = 0 by omega), e, hk, ne_eq, not_true_eq_false, if_false]
    rw [hk] at e1
    rw [bind_ok e1, bind_ok e2, e3]
  · refine ⟨w1, ?_, by rw [if_neg hk]; exact h1⟩
    rw [Life.screenUnref, bind_ok hb]
    simp only [if_neg (show ¬ r.ref = 0 by omega), e, bind_ok e1, ne_eq, hk, not_false_eq_true, if_true]
    rfl

end Life
end Verif
