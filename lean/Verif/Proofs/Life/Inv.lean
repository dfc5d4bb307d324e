import Verif.Proofs.Life.Vte

/-!
# The invariant of programs that follow the rules for references
-/

namespace Verif
namespace Life

/-- What is known about a handle of a screen: its value, the references held, and the screen if it exists. -/
structure SEnt where
  addr : Option Nat
  held : Nat
  rc : Option SRec

/-- What is known about a handle of a terminal; `con` is the handle of its screen. -/
structure VEnt where
  addr : Option Nat
  con : Nat
  held : Nat
  rc : Option VRec

def SEnt.cells (e : SEnt) : List (Nat × Obj) :=
  match e.rc with
  | none => []
  | some r => r.cells

def VEnt.cells (e : VEnt) : List (Nat × Obj) :=
  match e.rc with
  | none => []
  | some r => r.cells

/-- The terminal exists and uses screen `i`. -/
def uses (i : Nat) (e : VEnt) : Bool := decide (e.con = i) && e.rc.isSome

def users (V : List VEnt) (i : Nat) : Nat := V.countP (uses i)

def SEnt.Ok (k u : Nat) (e : SEnt) : Prop :=
  match e.rc with
  | none => e.addr = none ∨ e.held + u = 0
  | some r => e.addr = some r.a ∧ r.ref = e.held + u ∧ 0 < r.ref ∧ r.ref ≤ k

def VEnt.Ok (k : Nat) (e : VEnt) : Prop :=
  match e.rc with
  | none => e.addr = none ∨ e.held = 0
  | some v => e.addr = some v.a ∧ v.ref = e.held ∧ 0 < e.held ∧ e.held ≤ k ∧ v.Ok

structure Inv (s : State) (b : Book) (k : Nat) (S : List SEnt) (V : List VEnt) : Prop where
  scrs : s.scrs = S.map (·.addr)
  vtes : s.vtes = V.map (·.addr)
  bscr : b.scr = S.map (·.held)
  bvte : b.vte = V.map (fun e => (e.con, e.held))
  heap : Holds s.w (S.flatMap SEnt.cells ++ V.flatMap VEnt.cells)
  sok : ∀ (i : Nat) (e : SEnt), S[i]? = some e → e.Ok k (users V i)
  vok : ∀ (j : Nat) (e : VEnt), V[j]? = some e → e.Ok k ∧
    ∃ es, S[e.con]? = some es ∧ ∀ v, e.rc = some v → es.addr = some v.con

theorem SEnt.Ok.mono {k u : Nat} {e : SEnt} (h : e.Ok k u) : e.Ok (k + 1) u := by
  unfold SEnt.Ok at *
  split <;> rename_i hr <;> rw [hr] at h
  · exact h
  · exact ⟨h.1, h.2.1, h.2.2.1, by have := h.2.2.2; omega⟩

theorem VEnt.Ok.mono {k : Nat} {e : VEnt} (h : e.Ok k) : e.Ok (k + 1) := by
  unfold VEnt.Ok at *
  split <;> rename_i hr <;> rw [hr] at h
  · exact h
  · exact ⟨h.1, h.2.1, h.2.2.1, by have := h.2.2.2; omega, h.2.2.2.2⟩

/-! ### Lists -/

theorem split_at {α : Type} {l : List α} {i : Nat} {e : α} (h : l[i]? = some e) :
    ∃ A B, l = A ++ e :: B ∧ A.length = i := by
  obtain ⟨hi, he⟩ := List.getElem?_eq_some_iff.mp h
  exact ⟨l.take i, l.drop (i + 1), by rw [← he, ← List.drop_eq_getElem_cons hi, List.take_append_drop],
    by rw [List.length_take]; omega⟩

theorem set_at {α : Type} {A B : List α} {e e' : α} : (A ++ e :: B).set A.length e' = A ++ e' :: B := by simp

theorem flat_at {α β : Type} (f : α → List β) {l : List α} {i : Nat} {e : α} (h : l[i]? = some e) :
    ∃ R, (l.flatMap f).Perm (f e ++ R) ∧ ∀ e', ((l.set i e').flatMap f).Perm (f e' ++ R) := by
  obtain ⟨A, B, rfl, rfl⟩ := split_at h
  refine ⟨A.flatMap f ++ B.flatMap f, ?_, fun e' => ?_⟩
  · rw [List.flatMap_append, List.flatMap_cons]; exact perm_swap3 ..
  · rw [set_at, List.flatMap_append, List.flatMap_cons]; exact perm_swap3 ..

theorem count_at {α : Type} (p : α → Bool) {l : List α} {i : Nat} {e : α} (h : l[i]? = some e) :
    ∃ n, l.countP p = (if p e then 1 else 0) + n ∧ ∀ e', (l.set i e').countP p = (if p e' then 1 else 0) + n := by
  obtain ⟨A, B, rfl, rfl⟩ := split_at h
  refine ⟨A.countP p + B.countP p, ?_, fun e' => ?_⟩
  · rw [List.countP_append, List.countP_cons]; omega
  · rw [set_at, List.countP_append, List.countP_cons]; omega

theorem map_set' {α β : Type} (f : α → β) (l : List α) (i : Nat) (e : α) :
    (l.set i e).map f = (l.map f).set i (f e) := by rw [List.map_set]

theorem set_same {α : Type} {l : List α} {i : Nat} {e : α} (h : l[i]? = some e) : l.set i e = l := by
  obtain ⟨A, B, rfl, rfl⟩ := split_at h
  exact set_at

theorem get_set {α : Type} {l : List α} {i j : Nat} {e e' x : α} (h : l[i]? = some e)
    (hj : (l.set i e')[j]? = some x) : (j = i ∧ x = e') ∨ (j ≠ i ∧ l[j]? = some x) := by
  rw [List.getElem?_set] at hj
  by_cases hij : i = j
  · rw [if_pos hij] at hj
    have : j < l.length := by
      subst hij
      exact (List.getElem?_eq_some_iff.mp h).1
    rw [if_pos (by omega)] at hj
    exact .inl ⟨hij.symm, (Option.some.inj hj).symm⟩
  · rw [if_neg hij] at hj
    exact .inr ⟨fun e => hij e.symm, hj⟩

theorem set_get {α : Type} {l : List α} {i : Nat} {e e' : α} (h : l[i]? = some e) : (l.set i e')[i]? = some e' := by
  rw [List.getElem?_set_self (List.getElem?_eq_some_iff.mp h).1]

/-! ### Steps -/

theorem Inv.start (al : Allocator) (allocOk : Nat → Bool) : Inv (State.start al allocOk) ⟨[], []⟩ 0 [] [] := by
  refine ⟨rfl, rfl, rfl, rfl, ⟨List.Perm.refl _, List.nodup_nil, ?_⟩, ?_, ?_⟩
  · intro x hx; cases hx
  · intro i e h; simp at h
  · intro j e h; simp at h

theorem Inv.hscr {s : State} {b : Book} {k : Nat} {S : List SEnt} {V : List VEnt} (I : Inv s b k S V) {i h : Nat}
    (hb : b.scr[i]? = some h) : ∃ e, S[i]? = some e ∧ e.held = h ∧ handle s.scrs i = .ok e.addr := by
  rw [I.bscr, List.getElem?_map] at hb
  cases he : S[i]? with
  | none => rw [he] at hb; cases hb
  | some e =>
    rw [he] at hb
    refine ⟨e, rfl, Option.some.inj hb, ?_⟩
    rw [handle, I.scrs, List.getElem?_map, he]; rfl

theorem Inv.hvte {s : State} {b : Book} {k : Nat} {S : List SEnt} {V : List VEnt} (I : Inv s b k S V) {j i h : Nat}
    (hb : b.vte[j]? = some (i, h)) : ∃ e, V[j]? = some e ∧ e.con = i ∧ e.held = h ∧ handle s.vtes j = .ok e.addr := by
  rw [I.bvte, List.getElem?_map] at hb
  cases he : V[j]? with
  | none => rw [he] at hb; cases hb
  | some e =>
    rw [he] at hb
    have := Prod.mk.inj (Option.some.inj hb)
    refine ⟨e, rfl, this.1, this.2, ?_⟩
    rw [handle, I.vtes, List.getElem?_map, he]; rfl

/-- One screen changes. -/
theorem Inv.updS {s : State} {b : Book} {k : Nat} {S : List SEnt} {V : List VEnt} (I : Inv s b k S V) {i : Nat}
    {e e' : SEnt} {w : World} (hi : S[i]? = some e) (ha : e'.addr = e.addr) (hok : e'.Ok (k + 1) (users V i))
    (hw : Holds w ((S.set i e').flatMap SEnt.cells ++ V.flatMap VEnt.cells)) :
    Inv { s with w := w } { b with scr := b.scr.set i e'.held } (k + 1) (S.set i e') V := by
  have hmap : (S.map (·.addr)).set i e'.addr = S.map (·.addr) := by
    apply set_same
    rw [List.getElem?_map, hi, ha]; rfl
  refine ⟨?_, I.vtes, ?_, I.bvte, hw, ?_, ?_⟩
  · show s.scrs = _
    rw [map_set', hmap, I.scrs]
  · show b.scr.set i e'.held = _
    rw [map_set', I.bscr]
  · intro i' x hx
    rcases get_set hi hx with ⟨rfl, rfl⟩ | ⟨_, hx⟩
    · exact hok
    · exact (I.sok i' x hx).mono
  · intro j x hx
    obtain ⟨h1, es, h2, h3⟩ := I.vok j x hx
    refine ⟨h1.mono, ?_⟩
    by_cases hc : x.con = i
    · rw [hc] at h2 ⊢
      have := h2.symm.trans hi
      refine ⟨e', set_get hi, fun v hv => ?_⟩
      rw [ha, ← Option.some.inj this]
      exact h3 v hv
    · exact ⟨es, by rw [List.getElem?_set_ne (fun e => hc e.symm)]; exact h2, h3⟩

/-- One terminal and its screen change. -/
theorem Inv.updV {s : State} {b : Book} {k : Nat} {S : List SEnt} {V : List VEnt} (I : Inv s b k S V) {i j : Nat}
    {e e' : SEnt} {v v' : VEnt} {w : World} (hi : S[i]? = some e) (ha : e'.addr = e.addr) (hh : e'.held = e.held)
    (hj : V[j]? = some v) (hv : v.con = i)
    (hva : v'.addr = v.addr) (hvc : v'.con = v.con)
    (hvr : ∀ x, v'.rc = some x → e.addr = some x.con)
    (hok : e'.Ok (k + 1) (users (V.set j v') i)) (hvok : v'.Ok (k + 1))
    (hw : Holds w ((S.set i e').flatMap SEnt.cells ++ (V.set j v').flatMap VEnt.cells)) :
    Inv { s with w := w } { b with vte := b.vte.set j (i, v'.held) } (k + 1) (S.set i e') (V.set j v') := by
  have hmap : (S.map (·.addr)).set i e'.addr = S.map (·.addr) := by
    apply set_same
    rw [List.getElem?_map, hi, ha]; rfl
  have hmaph : (S.map (·.held)).set i e'.held = S.map (·.held) := by
    apply set_same
    rw [List.getElem?_map, hi, hh]; rfl
  have hmapv : (V.map (·.addr)).set j v'.addr = V.map (·.addr) := by
    apply set_same
    rw [List.getElem?_map, hj, hva]; rfl
  refine ⟨?_, ?_, ?_, ?_, hw, ?_, ?_⟩
  · show s.scrs = _
    rw [map_set', hmap, I.scrs]
  · show s.vtes = _
    rw [map_set', hmapv, I.vtes]
  · show b.scr = _
    rw [map_set', hmaph, I.bscr]
  · show b.vte.set j (i, v'.held) = _
    rw [map_set', I.bvte, hvc, hv]
  · intro i' x hx
    rcases get_set hi hx with ⟨rfl, rfl⟩ | ⟨hne, hx⟩
    · exact hok
    · have : users (V.set j v') i' = users V i' := by
        obtain ⟨n, h1, h2⟩ := count_at (uses i') hj
        have e1 : uses i' v = false := by
          simp only [uses, hv, decide_eq_false (fun h => hne h.symm : ¬ i = i'), Bool.false_and]
        have e2 : uses i' v' = false := by
          simp only [uses, hvc, hv, decide_eq_false (fun h => hne h.symm : ¬ i = i'), Bool.false_and]
        rw [users, users, h1, h2, e1, e2]
      rw [this]
      exact (I.sok i' x hx).mono
  · intro j' x hx
    have key : ∀ (x : VEnt) es, S[x.con]? = some es → (∀ v, x.rc = some v → es.addr = some v.con) →
        ∃ es, (S.set i e')[x.con]? = some es ∧ ∀ v, x.rc = some v → es.addr = some v.con := by
      intro x es h2 h3
      by_cases hc : x.con = i
      · rw [hc] at h2 ⊢
        have := h2.symm.trans hi
        refine ⟨e', set_get hi, fun v hv => ?_⟩
        rw [ha, ← Option.some.inj this]
        exact h3 v hv
      · exact ⟨es, by rw [List.getElem?_set_ne (fun e => hc e.symm)]; exact h2, h3⟩
    rcases get_set hj hx with ⟨rfl, rfl⟩ | ⟨_, hx⟩
    · exact ⟨hvok, key _ e (by rw [hvc, hv]; exact hi) hvr⟩
    · obtain ⟨h1, es, h2, h3⟩ := I.vok j' x hx
      exact ⟨h1.mono, key x es h2 h3⟩

/-- A new screen. -/
theorem Inv.addS {s : State} {b : Book} {k : Nat} {S : List SEnt} {V : List VEnt} (I : Inv s b k S V)
    {e : SEnt} {w : World} (hh : e.held = 1) (hok : e.Ok (k + 1) 0)
    (hw : Holds w (e.cells ++ (S.flatMap SEnt.cells ++ V.flatMap VEnt.cells))) :
    Inv { s with w := w, scrs := s.scrs ++ [e.addr] } { b with scr := b.scr ++ [1] } (k + 1) (S ++ [e]) V := by
  have hlt : ∀ (j : Nat) (x : VEnt), V[j]? = some x → x.con < S.length := by
    intro j x hx
    obtain ⟨_, es, h2, _⟩ := I.vok j x hx
    exact (List.getElem?_eq_some_iff.mp h2).1
  refine ⟨?_, I.vtes, ?_, I.bvte, ?_, ?_, ?_⟩
  · show s.scrs ++ [e.addr] = _
    rw [List.map_append, I.scrs]; rfl
  · show b.scr ++ [1] = _
    rw [List.map_append, I.bscr, ← hh]; rfl
  · refine hw.perm ?_
    rw [List.flatMap_append, List.flatMap_cons, List.flatMap_nil, List.append_nil, List.append_assoc]
    exact perm_swap3 ..
  · intro i x hx
    rcases Nat.lt_trichotomy i S.length with h | h | h
    · rw [List.getElem?_append_left h] at hx
      exact (I.sok i x hx).mono
    · subst h
      rw [List.getElem?_append_right (Nat.le_refl _), Nat.sub_self] at hx
      have hx := Option.some.inj hx
      subst hx
      have : users V S.length = 0 := by
        rw [users, List.countP_eq_zero]
        intro y hy
        obtain ⟨j, hj⟩ := List.getElem?_of_mem hy
        have := hlt j y hj
        simp only [uses, decide_eq_false (show ¬ y.con = S.length by omega), Bool.false_and]
        simp
      rw [this]; exact hok
    · rw [List.getElem?_eq_none (by simp; omega)] at hx
      cases hx
  · intro j x hx
    obtain ⟨h1, es, h2, h3⟩ := I.vok j x hx
    exact ⟨h1.mono, es, by rw [List.getElem?_append_left (hlt j x hx)]; exact h2, h3⟩

/-- A new terminal. -/
theorem Inv.addV {s : State} {b : Book} {k : Nat} {S : List SEnt} {V : List VEnt} (I : Inv s b k S V) {i : Nat}
    {e e' : SEnt} {v : VEnt} {w : World} (hi : S[i]? = some e) (ha : e'.addr = e.addr) (hh : e'.held = e.held)
    (hc : v.con = i) (hvh : v.held = 1) (hvr : ∀ x, v.rc = some x → e.addr = some x.con)
    (hok : e'.Ok (k + 1) (users V i + if uses i v then 1 else 0)) (hvok : v.Ok (k + 1))
    (hw : Holds w (v.cells ++ ((S.set i e').flatMap SEnt.cells ++ V.flatMap VEnt.cells))) :
    Inv { s with w := w, vtes := s.vtes ++ [v.addr] } { b with vte := b.vte ++ [(i, 1)] } (k + 1) (S.set i e')
      (V ++ [v]) := by
  have hmap : (S.map (·.addr)).set i e'.addr = S.map (·.addr) := by
    apply set_same
    rw [List.getElem?_map, hi, ha]; rfl
  have hmaph : (S.map (·.held)).set i e'.held = S.map (·.held) := by
    apply set_same
    rw [List.getElem?_map, hi, hh]; rfl
  refine ⟨?_, ?_, ?_, ?_, ?_, ?_, ?_⟩
  · show s.scrs = _
    rw [map_set', hmap, I.scrs]
  · show s.vtes ++ [v.addr] = _
    rw [List.map_append, I.vtes]; rfl
  · show b.scr = _
    rw [map_set', hmaph, I.bscr]
  · show b.vte ++ [(i, 1)] = _
    rw [List.map_append, I.bvte, ← hc, ← hvh]; rfl
  · refine hw.perm ?_
    rw [List.flatMap_append, List.flatMap_cons, List.flatMap_nil, List.append_nil]
    exact List.perm_append_comm.trans (by rw [List.append_assoc])
  · intro i' x hx
    have hu : users (V ++ [v]) i' = users V i' + if uses i' v then 1 else 0 := by
      rw [users, List.countP_append, List.countP_cons, List.countP_nil, Nat.zero_add]; rfl
    rcases get_set hi hx with ⟨rfl, rfl⟩ | ⟨hne, hx⟩
    · rw [hu]; exact hok
    · have e1 : uses i' v = false := by
        simp only [uses, hc, decide_eq_false (fun h => hne h.symm : ¬ i = i'), Bool.false_and]
      rw [hu, e1]
      exact (I.sok i' x hx).mono
  · intro j' x hx
    have key : ∀ (x : VEnt) es, S[x.con]? = some es → (∀ v, x.rc = some v → es.addr = some v.con) →
        ∃ es, (S.set i e')[x.con]? = some es ∧ ∀ v, x.rc = some v → es.addr = some v.con := by
      intro x es h2 h3
      by_cases hc : x.con = i
      · rw [hc] at h2 ⊢
        have := h2.symm.trans hi
        refine ⟨e', set_get hi, fun v hv => ?_⟩
        rw [ha, ← Option.some.inj this]
        exact h3 v hv
      · exact ⟨es, by rw [List.getElem?_set_ne (fun e => hc e.symm)]; exact h2, h3⟩
    rcases Nat.lt_trichotomy j' V.length with h | h | h
    · rw [List.getElem?_append_left h] at hx
      obtain ⟨h1, es, h2, h3⟩ := I.vok j' x hx
      exact ⟨h1.mono, key x es h2 h3⟩
    · subst h
      rw [List.getElem?_append_right (Nat.le_refl _), Nat.sub_self] at hx
      have hx := Option.some.inj hx
      subst hx
      exact ⟨hvok, key _ e (by rw [hc]; exact hi) hvr⟩
    · rw [List.getElem?_eq_none (by simp; omega)] at hx
      cases hx

end Life
end Verif
