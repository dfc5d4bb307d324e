import Verif.Proofs.Life.Core

/-!
# Terminals in the heap of `Lifetime.lean`
-/

namespace Verif
namespace Life

/-- A terminal. -/
structure VRec where
  a : Nat
  con : Nat
  mach : Nat
  name : Option (Nat × Bool)
  custom : Option Nat
  pal : Option Nat
  ref : Nat

def VRec.obj (v : VRec) : Obj := .vte ⟨v.ref, v.con, some v.mach, v.name.map (·.1), v.custom, v.pal⟩

def nameCells (n : Option (Nat × Bool)) : List (Nat × Obj) := (n.map fun x => (x.1, Obj.name x.2)).toList

def customCells (c : Option Nat) : List (Nat × Obj) := (c.map fun x => (x, Obj.blob)).toList

/-- A terminal with everything it owns. -/
def VRec.cells (v : VRec) : List (Nat × Obj) :=
  (v.a, v.obj) :: (v.mach, .blob) :: (nameCells v.name ++ customCells v.custom)

/-- The palette in use is static or the terminal's own. -/
def VRec.Ok (v : VRec) : Prop := ∀ c, v.pal = some c → v.custom = some c

theorem perm_swap3 {α : Type} (A B C : List α) : (A ++ (B ++ C)).Perm (B ++ (A ++ C)) := by
  rw [← List.append_assoc, ← List.append_assoc]; exact List.perm_append_comm.append_right _

theorem Holds.readVte {w : World} {L : List (Nat × Obj)} {v : VRec} (h : Holds w (v.cells ++ L)) :
    w.readVte v.a = .ok ⟨v.ref, v.con, some v.mach, v.name.map (·.1), v.custom, v.pal⟩ := by
  rw [World.readVte, bind_ok (h.read (List.mem_cons_self ..))]; rfl

theorem Holds.vte {w : World} {L : List (Nat × Obj)} {r : SRec} (h : Holds w (r.cells ++ L)) :
    (∃ w', vteNew w (some r.a) = .ok (none, w') ∧ Holds w' (r.cells ++ L)) ∨
    ∃ (v : VRec) (w' : World), vteNew w (some r.a) = .ok (some v.a, w') ∧ v.ref = 1 ∧ v.con = r.a ∧ v.Ok ∧
      Holds w' (v.cells ++ ({ r with ref := inc r.ref }.cells ++ L)) := by
  rcases h.malloc (.vte ⟨1, r.a, none, none, none, none⟩) with ⟨w1, e1, h1⟩ | ⟨a, w1, e1, h1⟩
  · exact .inl ⟨w1, by simp only [vteNew, e1], h1⟩
  · rcases h1.malloc .blob with ⟨w2, e2, h2⟩ | ⟨m, w2, e2, h2⟩
    · obtain ⟨w3, e3, h3⟩ := h2.free
      exact .inl ⟨w3, by simp only [vteNew, e1, e2, bind_ok e3]; rfl, h3⟩
    · obtain ⟨w3, e3, h3⟩ := (h2.perm (List.Perm.swap ..)).write (.vte ⟨1, r.a, some m, none, none, none⟩)
      have p : ((a, Obj.vte ⟨1, r.a, some m, none, none, none⟩) :: (m, .blob) :: (r.cells ++ L)).Perm
          (r.cells ++ (a, Obj.vte ⟨1, r.a, some m, none, none, none⟩) :: (m, .blob) :: L) :=
        ((List.perm_middle.symm).cons _).trans List.perm_middle.symm
      have h3' := h3.perm p
      obtain ⟨w4, e4, h4⟩ := h3'.screenRef
      have p' : ({ r with ref := inc r.ref }.cells ++
            (a, Obj.vte ⟨1, r.a, some m, none, none, none⟩) :: (m, .blob) :: L).Perm
          ((⟨a, r.a, m, none, none, none, 1⟩ : VRec).cells ++ ({ r with ref := inc r.ref }.cells ++ L)) :=
        List.perm_middle.trans ((List.perm_middle).cons _)
      refine .inr ⟨⟨a, r.a, m, none, none, none, 1⟩, w4, ?_, rfl, rfl, fun c hc => (by simp at hc), h4.perm p'⟩
      simp only [vteNew, e1, e2, bind_ok e3, bind_ok h3'.screenUse, bind_ok e4]
      rfl

theorem Holds.vteRef {w : World} {L : List (Nat × Obj)} {v : VRec} (h : Holds w (v.cells ++ L)) :
    ∃ w', Life.vteRef w (some v.a) = .ok w' ∧ Holds w' ({ v with ref := inc v.ref }.cells ++ L) := by
  obtain ⟨w1, e1, h1⟩ := Holds.write h { v with ref := inc v.ref }.obj
  exact ⟨w1, by rw [Life.vteRef, bind_ok h.readVte]; exact e1, h1⟩

theorem Holds.readBlob {w : World} {L : List (Nat × Obj)} (h : Holds w L) {a : Nat} (m : (a, .blob) ∈ L) :
    w.readBlob (some a) = .ok () := by
  simp only [World.readBlob]; rw [bind_ok (h.read m)]; rfl

theorem Holds.vteUse {w : World} {L : List (Nat × Obj)} {v : VRec} {r : SRec}
    (h : Holds w (v.cells ++ (r.cells ++ L))) (hv : v.Ok) (hc : v.con = r.a) :
    Life.vteUse w (some v.a) = .ok w := by
  have hu : Life.screenUse w (some r.a) = .ok w :=
    (h.perm (perm_swap3 ..) :
      Holds w (r.cells ++ (v.cells ++ L))).screenUse
  rw [Life.vteUse, bind_ok h.readVte]
  have hm := h.readBlob (a := v.mach) (by simp [VRec.cells])
  have hp : w.readBlob v.pal = .ok () := by
    cases e : v.pal with
    | none => rfl
    | some c => exact h.readBlob (by simp [VRec.cells, customCells, hv c e])
  simp only [bind_ok hm, bind_ok hp, hc]
  exact hu

theorem Holds.freeName {w : World} {L : List (Nat × Obj)} {q : Option (Nat × Bool)}
    (h : Holds w (nameCells q ++ L)) : ∃ w', w.freeOpt (q.map (·.1)) = .ok w' ∧ Holds w' L := by
  cases q with
  | none => exact ⟨w, rfl, h⟩
  | some a => exact Holds.free h

theorem Holds.freeCustom {w : World} {L : List (Nat × Obj)} {q : Option Nat}
    (h : Holds w (customCells q ++ L)) : ∃ w', w.freeOpt q = .ok w' ∧ Holds w' L := by
  cases q with
  | none => exact ⟨w, rfl, h⟩
  | some a => exact Holds.free h

theorem Holds.vteUnref {w : World} {L : List (Nat × Obj)} {v : VRec} {r : SRec} {k m : Nat}
    (h : Holds w (v.cells ++ (r.cells ++ L))) (hc : v.con = r.a) (hk : v.ref = k + 1) (hm : r.ref = m + 1) :
    ∃ w', Life.vteUnref w (some v.a) = .ok w' ∧
      Holds w' (if k = 0 then (if m = 0 then [] else { r with ref := m }.cells) ++ L
        else { v with ref := k }.cells ++ (r.cells ++ L)) := by
  obtain ⟨w1, e1, h1⟩ := Holds.write h { v with ref := k }.obj
  have e : v.ref - 1 = k := by omega
  by_cases hz : k = 0
  · have p1 : ((v.a, { v with ref := k }.obj) ::
          ((v.mach, .blob) :: (nameCells v.name ++ customCells v.custom) ++ (r.cells ++ L))).Perm
        (nameCells v.name ++ (r.cells ++ ((v.mach, .blob) :: (customCells v.custom ++
          ((v.a, { v with ref := k }.obj) :: L))))) := by
      rw [List.perm_iff_count]
      intro x
      simp only [List.count_append, List.count_cons]
      omega
    obtain ⟨w2, e2, h2⟩ := (Holds.perm h1 p1).freeName
    obtain ⟨w3, e3, h3⟩ := h2.screenUnref hm
    obtain ⟨w4, e4, h4⟩ := (h3.perm List.perm_middle).free
    obtain ⟨w5, e5, h5⟩ := (h4.perm (perm_swap3 ..)).freeCustom
    obtain ⟨w6, e6, h6⟩ := (h5.perm List.perm_middle).free
    refine ⟨w6, ?_, by rw [if_pos hz]; exact h6⟩
    have e4' : w3.freeOpt (some v.mach) = .ok w4 := e4
    rw [Life.vteUnref, bind_ok h.readVte]
    simp only [if_neg (show ¬ v.ref = 0 by omega), e]
    refine (bind_ok e1).trans ?_
    rw [if_neg (by simp [hz]), bind_ok e2, hc, bind_ok e3, bind_ok e4', bind_ok e5, e6]
  · refine ⟨w1, ?_, by rw [if_neg hz]; exact h1⟩
    rw [Life.vteUnref, bind_ok h.readVte]
    simp only [if_neg (show ¬ v.ref = 0 by omega), e]
    refine (bind_ok e1).trans ?_
    rw [if_pos hz]
    rfl

theorem Holds.updatePalette {w : World} {L : List (Nat × Obj)} {v : VRec} {r : SRec}
    (h : Holds w (v.cells ++ (r.cells ++ L))) (hc : v.con = r.a) :
    ∃ (v' : VRec) (w' : World), Life.updatePalette w v.a = .ok w' ∧ v'.a = v.a ∧ v'.con = v.con ∧ v'.ref = v.ref ∧ v'.Ok ∧
      Holds w' (v'.cells ++ (r.cells ++ L)) := by
  have hg : ∃ q, getPalette w ⟨v.ref, v.con, some v.mach, v.name.map (·.1), v.custom, v.pal⟩ = .ok q ∧
      (q = none ∨ q = v.custom) := by
    cases e : v.name with
    | none => exact ⟨none, by simp only [getPalette, Option.map_none], .inl rfl⟩
    | some x =>
      have := h.read (a := x.1) (o := .name x.2) (by simp [VRec.cells, nameCells, e])
      refine ⟨if x.2 then v.custom else none, ?_, by cases x.2 <;> simp⟩
      simp only [getPalette, Option.map_some, World.readName, bind_ok this]
      cases x.2 <;> rfl
  obtain ⟨q, hq, hq'⟩ := hg
  obtain ⟨w1, e1, h1⟩ := Holds.write h { v with pal := q }.obj
  have h1 : Holds w1 ({ v with pal := q }.cells ++ (r.cells ++ L)) := h1
  have hok : { v with pal := q }.Ok := by
    intro c hcc
    have hcc : q = some c := hcc
    show v.custom = some c
    rcases hq' with e | e
    · rw [e] at hcc; cases hcc
    · rw [← e, hcc]
  have hp : w1.readBlob q = .ok () := by
    cases e : q with
    | none => rfl
    | some c =>
      have hcu : v.custom = some c := hok c e
      exact h1.readBlob (by simp [VRec.cells, customCells, hcu])
  have hu : Life.screenUse w1 (some v.con) = .ok w1 := by
    rw [hc]
    exact (h1.perm (perm_swap3 ..) :
      Holds w1 (r.cells ++ ({ v with pal := q }.cells ++ L))).screenUse
  refine ⟨{ v with pal := q }, w1, ?_, rfl, rfl, rfl, hok, h1⟩
  rw [Life.updatePalette, bind_ok h.readVte, bind_ok hq]
  refine (bind_ok e1).trans ?_
  rw [bind_ok hp]
  exact hu

theorem Holds.setPalette {w : World} {L : List (Nat × Obj)} {v : VRec} {r : SRec}
    (h : Holds w (v.cells ++ (r.cells ++ L))) (hv : v.Ok) (hc : v.con = r.a) (name : Option Bool) :
    ∃ (v' : VRec) (w' : World), Life.setPalette w name (some v.a) = .ok w' ∧ v'.a = v.a ∧ v'.con = v.con ∧
      v'.ref = v.ref ∧ v'.Ok ∧ Holds w' (v'.cells ++ (r.cells ++ L)) := by
  have key : ∀ (w : World) (nm : Option (Nat × Bool)),
      Holds w (nameCells nm ++ (v.cells ++ (r.cells ++ L))) →
      ∃ (v' : VRec) (w' : World), (do
          let o ← w.readVte v.a
          let w ← w.freeOpt o.name
          let w ← w.write v.a (.vte { o with name := nm.map fun x : Nat × Bool => x.1 })
          Life.updatePalette w v.a) = .ok w' ∧ v'.a = v.a ∧ v'.con = v.con ∧ v'.ref = v.ref ∧ v'.Ok ∧
        Holds w' (v'.cells ++ (r.cells ++ L)) := by
    intro w nm h
    have hr : w.readVte v.a = _ := (h.perm (perm_swap3 ..) :
        Holds w (v.cells ++ (nameCells nm ++ (r.cells ++ L)))).readVte
    have p1 : (nameCells nm ++ (v.cells ++ (r.cells ++ L))).Perm (nameCells v.name ++ ((v.a, v.obj) ::
        ((v.mach, .blob) :: (nameCells nm ++ customCells v.custom) ++ (r.cells ++ L)))) := by
      rw [List.perm_iff_count]
      intro x
      simp only [VRec.cells, List.count_append, List.count_cons]
      omega
    obtain ⟨w1, e1, h1⟩ := (h.perm p1).freeName
    obtain ⟨w2, e2, h2⟩ := h1.write { v with name := nm }.obj
    obtain ⟨v', w3, e3, a1, a2, a3, a4, h3⟩ :=
      Holds.updatePalette (v := { v with name := nm }) h2 hc
    refine ⟨v', w3, ?_, a1, a2, a3, a4, h3⟩
    rw [bind_ok hr, bind_ok e1]
    exact (bind_ok e2).trans e3
  cases name with
  | none => exact key w none h
  | some b =>
    rcases h.malloc (.name b) with ⟨w1, e1, h1⟩ | ⟨s, w1, e1, h1⟩
    · exact ⟨v, w1, by simp only [Life.setPalette, e1], rfl, rfl, rfl, hv, h1⟩
    · obtain ⟨v', w', e, rest⟩ := key w1 (some (s, b)) h1
      exact ⟨v', w', by simp only [Life.setPalette, e1]; exact e, rest⟩

theorem Holds.setCustomPalette {w : World} {L : List (Nat × Obj)} {v : VRec} {r : SRec}
    (h : Holds w (v.cells ++ (r.cells ++ L))) (hv : v.Ok) (hc : v.con = r.a) (given : Bool) :
    ∃ (v' : VRec) (w' : World), Life.setCustomPalette w given (some v.a) = .ok w' ∧ v'.a = v.a ∧ v'.con = v.con ∧
      v'.ref = v.ref ∧ v'.Ok ∧ Holds w' (v'.cells ++ (r.cells ++ L)) := by
  have key : ∀ (w : World) (nm : Option Nat),
      Holds w (customCells nm ++ (v.cells ++ (r.cells ++ L))) →
      ∃ (v' : VRec) (w' : World), (do
          let o ← w.readVte v.a
          let w ← w.freeOpt o.custom
          let w ← w.write v.a (.vte { o with custom := nm })
          Life.updatePalette w v.a) = .ok w' ∧ v'.a = v.a ∧ v'.con = v.con ∧ v'.ref = v.ref ∧ v'.Ok ∧
        Holds w' (v'.cells ++ (r.cells ++ L)) := by
    intro w nm h
    have hr : w.readVte v.a = _ := (h.perm (perm_swap3 ..) :
        Holds w (v.cells ++ (customCells nm ++ (r.cells ++ L)))).readVte
    have p1 : (customCells nm ++ (v.cells ++ (r.cells ++ L))).Perm (customCells v.custom ++ ((v.a, v.obj) ::
        ((v.mach, .blob) :: (nameCells v.name ++ customCells nm) ++ (r.cells ++ L)))) := by
      rw [List.perm_iff_count]
      intro x
      simp only [VRec.cells, List.count_append, List.count_cons]
      omega
    obtain ⟨w1, e1, h1⟩ := (h.perm p1).freeCustom
    obtain ⟨w2, e2, h2⟩ := h1.write { v with custom := nm }.obj
    obtain ⟨v', w3, e3, a1, a2, a3, a4, h3⟩ :=
      Holds.updatePalette (v := { v with custom := nm }) h2 hc
    refine ⟨v', w3, ?_, a1, a2, a3, a4, h3⟩
    rw [bind_ok hr, bind_ok e1]
    exact (bind_ok e2).trans e3
  cases given with
  | false => exact key w none h
  | true =>
    rcases h.malloc .blob with ⟨w1, e1, h1⟩ | ⟨s, w1, e1, h1⟩
    · exact ⟨v, w1, by simp only [Life.setCustomPalette, e1]; rfl, rfl, rfl, rfl, hv, h1⟩
    · obtain ⟨v', w', e, rest⟩ := key w1 (some s) h1
      exact ⟨v', w', by simp only [Life.setCustomPalette, e1]; exact e, rest⟩

end Life
end Verif
