import Verif.Proofs.Life.Step

/-!
# What exists and who owns it
-/

namespace Verif
namespace Life

theorem Inv.entS {s : State} {b : Book} {k : Nat} {S : List SEnt} {V : List VEnt} (I : Inv s b k S V) {i a : Nat}
    (ha : s.scrs[i]? = some (some a)) : ∃ e, S[i]? = some e ∧ e.addr = some a ∧ b.scr[i]? = some e.held := by
  rw [I.scrs, List.getElem?_map] at ha
  cases he : S[i]? with
  | none => rw [he] at ha; cases ha
  | some e =>
    rw [he] at ha
    exact ⟨e, rfl, Option.some.inj ha, by rw [I.bscr, List.getElem?_map, he]; rfl⟩

theorem Inv.entV {s : State} {b : Book} {k : Nat} {S : List SEnt} {V : List VEnt} (I : Inv s b k S V) {j a : Nat}
    (ha : s.vtes[j]? = some (some a)) : ∃ e, V[j]? = some e ∧ e.addr = some a ∧ b.vte[j]? = some (e.con, e.held) := by
  rw [I.vtes, List.getElem?_map] at ha
  cases he : V[j]? with
  | none => rw [he] at ha; cases ha
  | some e =>
    rw [he] at ha
    exact ⟨e, rfl, Option.some.inj ha, by rw [I.bvte, List.getElem?_map, he]; rfl⟩

theorem Inv.needV {s : State} {b : Book} {k : Nat} {S : List SEnt} {V : List VEnt} (I : Inv s b k S V) {j a i h : Nat}
    (ha : s.vtes[j]? = some (some a)) (hb : b.vte[j]? = some (i, h)) (hh : 0 < h) :
    ∃ e v, V[j]? = some e ∧ e.rc = some v ∧ v.a = a ∧ e.con = i ∧ v.ref = h ∧ v.Ok := by
  obtain ⟨e, he, hea, heb⟩ := I.entV ha
  have := Option.some.inj (heb.symm.trans hb)
  have h1 := (Prod.mk.inj this).1
  have h2 := (Prod.mk.inj this).2
  have hok := (I.vok j e he).1
  cases hr : e.rc with
  | none =>
    rw [VEnt.ok_none hr] at hok
    rcases hok with h | h
    · rw [h] at hea; cases hea
    · omega
  | some v =>
    rw [VEnt.ok_some hr] at hok
    exact ⟨e, v, he, hr, Option.some.inj (hok.1.symm.trans hea), h1, by omega, hok.2.2.2.2⟩

theorem Inv.needS {s : State} {b : Book} {k : Nat} {S : List SEnt} {V : List VEnt} (I : Inv s b k S V) {i a : Nat}
    (ha : s.scrs[i]? = some (some a)) (hn : NeedScr s b i) :
    ∃ e r, S[i]? = some e ∧ e.rc = some r ∧ r.a = a ∧ r.ref = e.held + users V i := by
  obtain ⟨e, he, hea, heb⟩ := I.entS ha
  have hpos : 0 < e.held + users V i := by
    rcases hn with ⟨h, h1, h2⟩ | ⟨j, v, h, h1, h2, h3⟩
    · have := Option.some.inj (heb.symm.trans h1)
      omega
    · obtain ⟨ev, x, hj, hx, _, hc, _⟩ := I.needV h1 h2 h3
      obtain ⟨_, _, n, _, _, _, _, _, _, hu, _⟩ := I.conOf hj hx
      rw [hc] at hu
      omega
  have hok := I.sok i e he
  cases hr : e.rc with
  | none =>
    rw [SEnt.ok_none hr] at hok
    rcases hok with h | h
    · rw [h] at hea; cases hea
    · omega
  | some r =>
    rw [SEnt.ok_some hr] at hok
    exact ⟨e, r, he, hr, Option.some.inj (hok.1.symm.trans hea), hok.2.1⟩

theorem Inv.objS {s : State} {b : Book} {k : Nat} {S : List SEnt} {V : List VEnt} (I : Inv s b k S V) {i : Nat}
    {e : SEnt} {r : SRec} (he : S[i]? = some e) (hr : e.rc = some r) :
    ∀ x ∈ r.cells, x.1 ∈ s.w.live ∧ s.w.obj x.1 = x.2 := by
  intro x hx
  have : x ∈ S.flatMap SEnt.cells ++ V.flatMap VEnt.cells :=
    List.mem_append_left _ (List.mem_flatMap.mpr ⟨e, List.mem_of_getElem? he, by rw [SEnt.cells_some hr]; exact hx⟩)
  exact ⟨I.heap.mem (o := x.2) this, I.heap.obj x this⟩

theorem Inv.objV {s : State} {b : Book} {k : Nat} {S : List SEnt} {V : List VEnt} (I : Inv s b k S V) {j : Nat}
    {e : VEnt} {v : VRec} (he : V[j]? = some e) (hr : e.rc = some v) :
    ∀ x ∈ v.cells, x.1 ∈ s.w.live ∧ s.w.obj x.1 = x.2 := by
  intro x hx
  have : x ∈ S.flatMap SEnt.cells ++ V.flatMap VEnt.cells :=
    List.mem_append_right _ (List.mem_flatMap.mpr ⟨e, List.mem_of_getElem? he, by rw [VEnt.cells_some hr]; exact hx⟩)
  exact ⟨I.heap.mem (o := x.2) this, I.heap.obj x this⟩

theorem Inv.terminals {s : State} {b : Book} {k : Nat} {S : List SEnt} {V : List VEnt} (I : Inv s b k S V) (i : Nat) :
    Life.terminals s b i = users V i := by
  have hz : s.vtes.zip b.vte = V.map (fun e => (e.addr, (e.con, e.held))) := by
    rw [I.vtes, I.bvte]
    generalize V = W
    induction W with
    | nil => rfl
    | cons e W ih => simp only [List.map_cons, List.zip_cons_cons, ih]
  rw [Life.terminals, hz, ← List.countP_eq_length_filter, List.countP_map, users]
  apply List.countP_congr
  intro e he
  obtain ⟨j, hj⟩ := List.getElem?_of_mem he
  have hok := (I.vok j e hj).1
  cases hr : e.rc with
  | none =>
    rw [VEnt.ok_none hr] at hok
    rcases hok with h | h <;> simp [uses, hr, h]
  | some v =>
    rw [VEnt.ok_some hr] at hok
    simp [uses, hr, hok.1, hok.2.2.1]

/-- Everything allocated belongs to a screen or terminal that must exist. -/
theorem Inv.owned {s : State} {b : Book} {k : Nat} {S : List SEnt} {V : List VEnt} (I : Inv s b k S V) {a : Nat}
    (ha : a ∈ s.w.live) : Owned s b a := by
  obtain ⟨x, hx, rfl⟩ := List.mem_map.mp (I.heap.live.mem_iff.mp ha)
  rcases List.mem_append.mp hx with hx | hx
  · obtain ⟨e, he, hxe⟩ := List.mem_flatMap.mp hx
    obtain ⟨i, hi⟩ := List.getElem?_of_mem he
    cases hr : e.rc with
    | none => rw [SEnt.cells_none hr] at hxe; cases hxe
    | some r =>
      rw [SEnt.cells_some hr] at hxe
      have hok := I.sok i e hi
      rw [SEnt.ok_some hr] at hok
      have hadr : s.scrs[i]? = some (some r.a) := by rw [I.scrs, List.getElem?_map, hi, ← hok.1]; rfl
      have hneed : NeedScr s b i := by
        by_cases hh : 0 < e.held
        · exact .inl ⟨e.held, by rw [I.bscr, List.getElem?_map, hi]; rfl, hh⟩
        · have hu : 0 < users V i := by omega
          obtain ⟨v, hv, huse⟩ := List.countP_pos_iff.mp hu
          obtain ⟨j, hj⟩ := List.getElem?_of_mem hv
          simp only [uses, Bool.and_eq_true, decide_eq_true_eq] at huse
          obtain ⟨y, hy⟩ := Option.isSome_iff_exists.mp huse.2
          have hvok := (I.vok j v hj).1
          rw [VEnt.ok_some hy] at hvok
          refine .inr ⟨j, y.a, v.held, ?_, ?_, hvok.2.2.1⟩
          · rw [I.vtes, List.getElem?_map, hj, ← hvok.1]; rfl
          · rw [I.bvte, List.getElem?_map, hj, ← huse.1]; rfl
      have O := I.objS hi hr
      have o1 : Owned s b r.a := .scr hneed hadr
      have o2 : Owned s b r.t := .sym o1 (O (r.a, .scr r.ref (some r.t)) (by simp [SRec.cells])).2
      have o3 : Owned s b r.i := .index o2 (O (r.t, .sym 1 (some r.i)) (by simp [SRec.cells, symCells])).2
      have o4 : Owned s b r.d := .data o3 (O (r.i, .arr (some r.d)) (by simp [SRec.cells, symCells])).2
      simp only [SRec.cells, symCells, List.mem_cons, List.not_mem_nil, or_false] at hxe
      rcases hxe with rfl | rfl | rfl | rfl
      · exact o1
      · exact o2
      · exact o3
      · exact o4
  · obtain ⟨e, he, hxe⟩ := List.mem_flatMap.mp hx
    obtain ⟨j, hj⟩ := List.getElem?_of_mem he
    cases hr : e.rc with
    | none => rw [VEnt.cells_none hr] at hxe; cases hxe
    | some v =>
      rw [VEnt.cells_some hr] at hxe
      have hok := (I.vok j e hj).1
      rw [VEnt.ok_some hr] at hok
      have o1 : Owned s b v.a := .vte (j := j)
        ⟨e.con, e.held, by rw [I.bvte, List.getElem?_map, hj]; rfl, hok.2.2.1⟩
        (by rw [I.vtes, List.getElem?_map, hj, ← hok.1]; rfl)
      have ov := (I.objV hj hr (v.a, v.obj) (by simp [VRec.cells])).2
      simp only [VRec.cells, List.mem_cons, List.mem_append] at hxe
      rcases hxe with rfl | rfl | hxe | hxe
      · exact o1
      · exact .mach o1 ov rfl
      · cases hn : v.name with
        | none => rw [hn] at hxe; simp [nameCells] at hxe
        | some y =>
          rw [hn] at hxe
          simp only [nameCells, Option.map_some, Option.toList_some, List.mem_singleton] at hxe
          subst hxe
          exact .name o1 ov (by rw [hn]; rfl)
      · cases hn : v.custom with
        | none => rw [hn] at hxe; simp [customCells] at hxe
        | some y =>
          rw [hn] at hxe
          simp only [customCells, Option.map_some, Option.toList_some, List.mem_singleton] at hxe
          subst hxe
          exact .custom o1 ov hn

/-- The pointers of an object to memory that it owns. -/
def owns : Obj → List Nat
  | .scr _ t => t.toList
  | .sym _ i => i.toList
  | .arr d => d.toList
  | .vte o => o.mach.toList ++ o.name.toList ++ o.custom.toList
  | _ => []

theorem Inv.closed {s : State} {b : Book} {k : Nat} {S : List SEnt} {V : List VEnt} (I : Inv s b k S V) {a c : Nat}
    (ha : a ∈ s.w.live) (hc : c ∈ owns (s.w.obj a)) : c ∈ s.w.live := by
  obtain ⟨x, hx, rfl⟩ := List.mem_map.mp (I.heap.live.mem_iff.mp ha)
  rw [I.heap.obj x hx] at hc
  rcases List.mem_append.mp hx with hx | hx
  · obtain ⟨e, he, hxe⟩ := List.mem_flatMap.mp hx
    obtain ⟨i, hi⟩ := List.getElem?_of_mem he
    cases hr : e.rc with
    | none => rw [SEnt.cells_none hr] at hxe; cases hxe
    | some r =>
      rw [SEnt.cells_some hr] at hxe
      have O := I.objS hi hr
      simp only [SRec.cells, symCells, List.mem_cons, List.not_mem_nil, or_false] at hxe
      rcases hxe with rfl | rfl | rfl | rfl <;> simp only [owns, Option.toList_some, List.mem_singleton] at hc
      · subst hc; exact (O (r.t, .sym 1 (some r.i)) (by simp [SRec.cells, symCells])).1
      · subst hc; exact (O (r.i, .arr (some r.d)) (by simp [SRec.cells, symCells])).1
      · subst hc; exact (O (r.d, .blob) (by simp [SRec.cells, symCells])).1
      · cases hc
  · obtain ⟨e, he, hxe⟩ := List.mem_flatMap.mp hx
    obtain ⟨j, hj⟩ := List.getElem?_of_mem he
    cases hr : e.rc with
    | none => rw [VEnt.cells_none hr] at hxe; cases hxe
    | some v =>
      rw [VEnt.cells_some hr] at hxe
      have O := I.objV hj hr
      simp only [VRec.cells, List.mem_cons, List.mem_append] at hxe
      rcases hxe with rfl | rfl | hxe | hxe
      · simp only [VRec.obj, owns, Option.toList_some, List.mem_append, List.mem_singleton, Option.mem_toList] at hc
        rcases hc with (hc | hc) | hc
        · subst hc; exact (O (v.mach, .blob) (by simp [VRec.cells])).1
        · cases hn : v.name with
          | none => rw [hn] at hc; cases hc
          | some y =>
            rw [hn] at hc
            have hc := Option.some.inj hc
            subst hc
            exact (O (y.1, .name y.2) (by simp [VRec.cells, nameCells, hn])).1
        · exact (O (c, .blob) (by simp [VRec.cells, customCells, hc])).1
      · cases hc
      · cases hn : v.name with
        | none => rw [hn] at hxe; simp [nameCells] at hxe
        | some y =>
          rw [hn] at hxe
          simp only [nameCells, Option.map_some, Option.toList_some, List.mem_singleton] at hxe
          subst hxe
          cases hc
      · cases hn : v.custom with
        | none => rw [hn] at hxe; simp [customCells] at hxe
        | some y =>
          rw [hn] at hxe
          simp only [customCells, Option.map_some, Option.toList_some, List.mem_singleton] at hxe
          subst hxe
          cases hc

theorem Inv.live {s : State} {b : Book} {k : Nat} {S : List SEnt} {V : List VEnt} (I : Inv s b k S V) {a : Nat}
    (h : Owned s b a) : a ∈ s.w.live := by
  induction h with
  | scr hn ha =>
    obtain ⟨e, r, he, hr, rfl, _⟩ := I.needS ha hn
    exact (I.objS he hr (r.a, .scr r.ref (some r.t)) (by simp [SRec.cells])).1
  | vte hn ha =>
    obtain ⟨i, h, hb, hh⟩ := hn
    obtain ⟨e, v, he, hr, rfl, _⟩ := I.needV ha hb hh
    exact (I.objV he hr (v.a, v.obj) (by simp [VRec.cells])).1
  | sym _ ho ih => exact I.closed ih (by rw [ho]; simp [owns])
  | index _ ho ih => exact I.closed ih (by rw [ho]; simp [owns])
  | data _ ho ih => exact I.closed ih (by rw [ho]; simp [owns])
  | mach _ ho hm ih => exact I.closed ih (by rw [ho]; simp [owns, hm])
  | name _ ho hm ih => exact I.closed ih (by rw [ho]; simp [owns, hm])
  | custom _ ho hm ih => exact I.closed ih (by rw [ho]; simp [owns, hm])

end Life
end Verif
