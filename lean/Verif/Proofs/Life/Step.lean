import Verif.Proofs.Life.Inv

/-!
# Every allowed call succeeds and keeps the invariant
-/

namespace Verif
namespace Life

theorem inc_eq {n k : Nat} (h : n ≤ k) (hk : k + 1 < 2 ^ 64) : inc n = n + 1 := by
  rw [inc, Nat.mod_eq_of_lt (by omega)]

theorem SEnt.cells_some {e : SEnt} {r : SRec} (h : e.rc = some r) : e.cells = r.cells := by rw [SEnt.cells, h]
theorem SEnt.cells_none {e : SEnt} (h : e.rc = none) : e.cells = [] := by rw [SEnt.cells, h]
theorem VEnt.cells_some {e : VEnt} {r : VRec} (h : e.rc = some r) : e.cells = r.cells := by rw [VEnt.cells, h]
theorem VEnt.cells_none {e : VEnt} (h : e.rc = none) : e.cells = [] := by rw [VEnt.cells, h]

theorem SEnt.ok_none {k u : Nat} {e : SEnt} (h : e.rc = none) : e.Ok k u ↔ (e.addr = none ∨ e.held + u = 0) := by
  rw [SEnt.Ok, h]
theorem SEnt.ok_some {k u : Nat} {e : SEnt} {r : SRec} (h : e.rc = some r) :
    e.Ok k u ↔ (e.addr = some r.a ∧ r.ref = e.held + u ∧ 0 < r.ref ∧ r.ref ≤ k) := by
  rw [SEnt.Ok, h]
theorem VEnt.ok_none {k : Nat} {e : VEnt} (h : e.rc = none) : e.Ok k ↔ (e.addr = none ∨ e.held = 0) := by
  rw [VEnt.Ok, h]
theorem VEnt.ok_some {k : Nat} {e : VEnt} {v : VRec} (h : e.rc = some v) :
    e.Ok k ↔ (e.addr = some v.a ∧ v.ref = e.held ∧ 0 < e.held ∧ e.held ≤ k ∧ v.Ok) := by
  rw [VEnt.Ok, h]

/-- The screen at handle `i` with a view on the rest of the heap. -/
theorem Inv.atS {s : State} {b : Book} {k : Nat} {S : List SEnt} {V : List VEnt} (I : Inv s b k S V) {i : Nat}
    {e : SEnt} (hi : S[i]? = some e) :
    ∃ R, Holds s.w (e.cells ++ R) ∧
      ∀ (w : World) (e' : SEnt) (X : List (Nat × Obj)), Holds w (X ++ (e'.cells ++ R)) →
        Holds w (X ++ ((S.set i e').flatMap SEnt.cells ++ V.flatMap VEnt.cells)) := by
  obtain ⟨R, h1, h2⟩ := flat_at SEnt.cells hi
  refine ⟨R ++ V.flatMap VEnt.cells, ?_, fun w e' X h => ?_⟩
  · rw [← List.append_assoc]
    exact I.heap.perm (h1.append_right _)
  · refine h.perm (List.Perm.append_left _ ?_)
    rw [← List.append_assoc]
    exact (h2 e').symm.append_right _

/-- A terminal and its screen with a view on the rest of the heap. -/
theorem Inv.atV {s : State} {b : Book} {k : Nat} {S : List SEnt} {V : List VEnt} (I : Inv s b k S V) {i j : Nat}
    {e : SEnt} {v : VEnt} (hi : S[i]? = some e) (hj : V[j]? = some v) :
    ∃ R, Holds s.w (v.cells ++ (e.cells ++ R)) ∧
      ∀ (w : World) (e' : SEnt) (v' : VEnt), Holds w (v'.cells ++ (e'.cells ++ R)) →
        Holds w ((S.set i e').flatMap SEnt.cells ++ (V.set j v').flatMap VEnt.cells) := by
  obtain ⟨R1, h1, h2⟩ := flat_at SEnt.cells hi
  obtain ⟨R2, h3, h4⟩ := flat_at VEnt.cells hj
  have p : ∀ (A B : List (Nat × Obj)), ((A ++ R1) ++ (B ++ R2)).Perm (B ++ (A ++ (R1 ++ R2))) := by
    intro A B
    rw [← List.append_assoc A R1 R2]
    exact perm_swap3 ..
  exact ⟨R1 ++ R2, I.heap.perm ((h1.append h3).trans (p _ _)),
    fun w e' v' h => h.perm ((p _ _).symm.trans ((h2 e').symm.append (h4 v').symm))⟩

/-- The screen of a terminal that exists. -/
theorem Inv.conOf {s : State} {b : Book} {k : Nat} {S : List SEnt} {V : List VEnt} (I : Inv s b k S V) {j : Nat}
    {v : VEnt} {x : VRec} (hj : V[j]? = some v) (hx : v.rc = some x) :
    ∃ e r n, S[v.con]? = some e ∧ e.rc = some r ∧ r.a = x.con ∧ e.addr = some r.a ∧ r.ref = e.held + (n + 1) ∧ r.ref ≤ k ∧
      users V v.con = n + 1 ∧ ∀ v', users (V.set j v') v.con = (if uses v.con v' then 1 else 0) + n := by
  obtain ⟨_, e, he, ha⟩ := I.vok j v hj
  have ha := ha x hx
  obtain ⟨n, h1, h2⟩ := count_at (uses v.con) hj
  have hu : uses v.con v = true := by simp [uses, hx]
  rw [hu, if_pos rfl] at h1
  have hus : users V v.con = n + 1 := by rw [users, h1]; omega
  have hok := I.sok _ _ he
  cases hr : e.rc with
  | none =>
    rw [SEnt.ok_none hr, hus] at hok
    rcases hok with h | h
    · rw [h] at ha; cases ha
    · omega
  | some r =>
    rw [SEnt.ok_some hr, hus] at hok
    refine ⟨e, r, n, he, hr, ?_, hok.1, hok.2.1, hok.2.2.2, hus, h2⟩
    have := hok.1.symm.trans ha
    exact Option.some.inj this

/-- A call that leaves the heap as it is. -/
theorem Inv.more {s : State} {b : Book} {k : Nat} {S : List SEnt} {V : List VEnt} (I : Inv s b k S V) :
    Inv s b (k + 1) S V :=
  ⟨I.scrs, I.vtes, I.bscr, I.bvte, I.heap, fun i e h => (I.sok i e h).mono,
    fun j e h => ⟨(I.vok j e h).1.mono, (I.vok j e h).2⟩⟩

theorem step_screenNew {s : State} {b : Book} {k : Nat} {S : List SEnt} {V : List VEnt} (I : Inv s b k S V) :
    ∃ s' S' V', run s .screenNew = .ok s' ∧ Inv s' { b with scr := b.scr ++ [1] } (k + 1) S' V' := by
  rcases I.heap.screen with ⟨w, e, h⟩ | ⟨r, w, e, hr, h⟩
  · exact ⟨_, _, _, by rw [run, bind_ok e]; rfl, I.addS (e := ⟨none, 1, none⟩) rfl (.inl rfl) h⟩
  · exact ⟨_, _, _, by rw [run, bind_ok e]; rfl,
      I.addS (e := ⟨some r.a, 1, some r⟩) rfl ⟨rfl, hr, by omega, by omega⟩ h⟩

theorem step_screenRef {s : State} {b : Book} {k : Nat} {S : List SEnt} {V : List VEnt} (I : Inv s b k S V)
    (hk : k + 1 < 2 ^ 64) {i h : Nat} (hb : b.scr[i]? = some (h + 1)) :
    ∃ s' S' V', run s (.screenRef i) = .ok s' ∧ Inv s' { b with scr := b.scr.set i (h + 2) } (k + 1) S' V' := by
  obtain ⟨e, hi, hh, hd⟩ := I.hscr hb
  have hok := I.sok _ _ hi
  obtain ⟨R, h1, h2⟩ := I.atS hi
  cases hr : e.rc with
  | none =>
    rw [SEnt.ok_none hr] at hok
    have hn : e.addr = none := by rcases hok with h | h; exact h; omega
    refine ⟨{ s with w := s.w }, _, _, ?_, I.updS (e' := ⟨e.addr, h + 2, none⟩) hi rfl (.inl hn) ?_⟩
    · rw [run, bind_ok hd, hn]; rfl
    · exact h2 _ _ [] (by rw [SEnt.cells_none hr] at h1; exact h1)
  | some r =>
    rw [SEnt.ok_some hr] at hok
    rw [SEnt.cells_some hr] at h1
    obtain ⟨w, e1, h3⟩ := h1.screenRef
    rw [inc_eq hok.2.2.2 hk] at h3
    refine ⟨{ s with w := w }, _, _, ?_, I.updS (e' := ⟨e.addr, h + 2, some { r with ref := r.ref + 1 }⟩) hi rfl
      ⟨hok.1, ?_, ?_, ?_⟩ (h2 _ _ [] h3)⟩
    · rw [run, bind_ok hd, hok.1, bind_ok e1]; rfl
    · show r.ref + 1 = h + 2 + _
      omega
    · show 0 < r.ref + 1; omega
    · show r.ref + 1 ≤ k + 1; omega

theorem step_screenUnref {s : State} {b : Book} {k : Nat} {S : List SEnt} {V : List VEnt} (I : Inv s b k S V)
    {i h : Nat} (hb : b.scr[i]? = some (h + 1)) :
    ∃ s' S' V', run s (.screenUnref i) = .ok s' ∧ Inv s' { b with scr := b.scr.set i h } (k + 1) S' V' := by
  obtain ⟨e, hi, hh, hd⟩ := I.hscr hb
  have hok := I.sok _ _ hi
  obtain ⟨R, h1, h2⟩ := I.atS hi
  cases hr : e.rc with
  | none =>
    rw [SEnt.ok_none hr] at hok
    have hn : e.addr = none := by rcases hok with h | h; exact h; omega
    refine ⟨{ s with w := s.w }, _, _, ?_, I.updS (e' := ⟨e.addr, h, none⟩) hi rfl (.inl hn) ?_⟩
    · rw [run, bind_ok hd, hn]; rfl
    · exact h2 _ _ [] (by rw [SEnt.cells_none hr] at h1; exact h1)
  | some r =>
    rw [SEnt.ok_some hr] at hok
    rw [SEnt.cells_some hr] at h1
    obtain ⟨w, e1, h3⟩ := h1.screenUnref (k := h + users V i) (by omega)
    by_cases hz : h + users V i = 0
    · rw [if_pos hz] at h3
      refine ⟨{ s with w := w }, _, _, ?_, I.updS (e' := ⟨e.addr, h, none⟩) hi rfl (.inr hz) (h2 _ _ [] h3)⟩
      rw [run, bind_ok hd, hok.1, bind_ok e1]; rfl
    · rw [if_neg hz] at h3
      refine ⟨{ s with w := w }, _, _, ?_,
        I.updS (e' := ⟨e.addr, h, some { r with ref := h + users V i }⟩) hi rfl
          ⟨hok.1, rfl, by show 0 < h + users V i; omega, by show h + users V i ≤ k + 1; omega⟩ (h2 _ _ [] h3)⟩
      rw [run, bind_ok hd, hok.1, bind_ok e1]; rfl

theorem step_screenUse {s : State} {b : Book} {k : Nat} {S : List SEnt} {V : List VEnt} (I : Inv s b k S V)
    {i h : Nat} (hb : b.scr[i]? = some (h + 1)) :
    ∃ s' S' V', run s (.screenUse i) = .ok s' ∧ Inv s' b (k + 1) S' V' := by
  obtain ⟨e, hi, hh, hd⟩ := I.hscr hb
  have hok := I.sok _ _ hi
  obtain ⟨R, h1, h2⟩ := I.atS hi
  refine ⟨s, S, V, ?_, I.more⟩
  cases hr : e.rc with
  | none =>
    rw [SEnt.ok_none hr] at hok
    have hn : e.addr = none := by rcases hok with h | h; exact h; omega
    rw [run, bind_ok hd, hn]; rfl
  | some r =>
    rw [SEnt.ok_some hr] at hok
    rw [SEnt.cells_some hr] at h1
    rw [run, bind_ok hd, hok.1, bind_ok h1.screenUse]; rfl

theorem step_vteNew {s : State} {b : Book} {k : Nat} {S : List SEnt} {V : List VEnt} (I : Inv s b k S V)
    (hk : k + 1 < 2 ^ 64) {i h : Nat} (hb : b.scr[i]? = some (h + 1)) :
    ∃ s' S' V', run s (.vteNew i) = .ok s' ∧ Inv s' { b with vte := b.vte ++ [(i, 1)] } (k + 1) S' V' := by
  obtain ⟨e, hi, hh, hd⟩ := I.hscr hb
  have hok := I.sok _ _ hi
  obtain ⟨R, h1, h2⟩ := I.atS hi
  cases hr : e.rc with
  | none =>
    have hok' := hok.mono
    rw [SEnt.ok_none hr] at hok
    have hn : e.addr = none := by rcases hok with h | h; exact h; omega
    refine ⟨{ s with w := s.w, vtes := s.vtes ++ [none] }, _, _, ?_,
      I.addV (e' := e) (v := ⟨none, i, 1, none⟩) hi rfl rfl rfl rfl (fun x hx => by simp at hx) ?_ (.inl rfl) ?_⟩
    · rw [run, bind_ok hd, hn]; rfl
    · simpa [uses] using hok'
    · exact h2 _ _ [] h1
  | some r =>
    have hok' := hok.mono
    rw [SEnt.ok_some hr] at hok
    rw [SEnt.cells_some hr] at h1
    rcases h1.vte with ⟨w, e1, h3⟩ | ⟨v, w, e1, hv1, hv2, hv3, h3⟩
    · refine ⟨{ s with w := w, vtes := s.vtes ++ [none] }, _, _, ?_,
        I.addV (e' := e) (v := ⟨none, i, 1, none⟩) hi rfl rfl rfl rfl (fun x hx => by simp at hx) ?_ (.inl rfl) ?_⟩
      · rw [run, bind_ok hd, hok.1, bind_ok e1]; rfl
      · simpa [uses] using hok'
      · exact h2 _ _ [] (by rw [SEnt.cells_some hr]; exact h3)
    · rw [inc_eq hok.2.2.2 hk] at h3
      refine ⟨{ s with w := w, vtes := s.vtes ++ [some v.a] }, _, _, ?_,
        I.addV (e' := ⟨e.addr, e.held, some { r with ref := r.ref + 1 }⟩) (v := ⟨some v.a, i, 1, some v⟩) hi rfl rfl
          rfl rfl (fun x hx => ?_) ⟨hok.1, ?_, ?_, ?_⟩ ⟨rfl, hv1, Nat.one_pos, by show 1 ≤ k + 1; omega, hv3⟩ ?_⟩
      · rw [run, bind_ok hd, hok.1, bind_ok e1]; rfl
      · have hx : some v = some x := hx
        rw [← Option.some.inj hx, hv2]; exact hok.1
      · show r.ref + 1 = e.held + _
        simp only [uses, Option.isSome_some, Bool.and_true, decide_true, if_true]
        omega
      · show 0 < r.ref + 1; omega
      · show r.ref + 1 ≤ k + 1; omega
      · exact h2 w ⟨e.addr, e.held, some { r with ref := r.ref + 1 }⟩ v.cells h3

/-- A terminal changes but its screen does not. -/
theorem Inv.updV' {s : State} {b : Book} {k : Nat} {S : List SEnt} {V : List VEnt} (I : Inv s b k S V) {j : Nat}
    {v : VEnt} {x x' : VRec} {w : World} {h : Nat} (hj : V[j]? = some v) (hx : v.rc = some x)
    (hc : x'.con = x.con) (ha : x'.a = x.a) (hh : 0 < h) (hr : x'.ref = h) (hk : h ≤ k + 1) (hok : x'.Ok)
    (hw : ∀ (e : SEnt) (R : List (Nat × Obj)), S[v.con]? = some e → Holds s.w (x.cells ++ (e.cells ++ R)) →
      Holds w (x'.cells ++ (e.cells ++ R))) :
    Inv { s with w := w } { b with vte := b.vte.set j (v.con, h) } (k + 1) S (V.set j ⟨v.addr, v.con, h, some x'⟩) := by
  obtain ⟨e, r, n, he, hre, hra, hea, hrr, hrk, hu, hu'⟩ := I.conOf hj hx
  obtain ⟨R, h1, h2⟩ := I.atV he hj
  have hvok := (I.vok j v hj).1
  rw [VEnt.ok_some hx] at hvok
  have hok' := (I.sok _ _ he).mono
  have := I.updV (e' := e) (v' := ⟨v.addr, v.con, h, some x'⟩) (w := w) he rfl rfl hj rfl rfl rfl
    (fun y hy => by
      have hy : some x' = some y := hy
      rw [← Option.some.inj hy, hc, ← hra]; exact hea)
    (by rw [hu']
        have : uses v.con ⟨v.addr, v.con, h, some x'⟩ = true := by simp [uses]
        rw [this, if_pos rfl, Nat.add_comm 1 n, ← hu]; exact hok')
    ⟨by rw [ha]; exact hvok.1, hr, hh, hk, hok⟩
    (h2 _ _ _ (hw e R he (by rw [VEnt.cells_some hx] at h1; exact h1)))
  rw [set_same he] at this
  exact this

/-- The handle of a terminal whose creation failed. -/
theorem Inv.updV0 {s : State} {b : Book} {k : Nat} {S : List SEnt} {V : List VEnt} (I : Inv s b k S V) {j : Nat}
    {v : VEnt} (h : Nat) (hj : V[j]? = some v) (hx : v.rc = none) (hn : v.addr = none) :
    Inv s { b with vte := b.vte.set j (v.con, h) } (k + 1) S (V.set j ⟨v.addr, v.con, h, none⟩) := by
  obtain ⟨hvok, e, he, ha⟩ := I.vok j v hj
  obtain ⟨R, h1, h2⟩ := I.atV he hj
  obtain ⟨n, u1, u2⟩ := count_at (uses v.con) hj
  have e1 : uses v.con v = false := by simp [uses, hx]
  have e2 : uses v.con ⟨v.addr, v.con, h, none⟩ = false := by simp [uses]
  have := I.updV (e' := e) (v' := ⟨v.addr, v.con, h, none⟩) (w := s.w) he rfl rfl hj rfl rfl rfl
    (fun y hy => by simp at hy)
    (by rw [users, u2, e2, ← e1, ← u1]; exact (I.sok _ _ he).mono)
    (.inl hn)
    (h2 _ _ _ (by rw [VEnt.cells_none hx] at h1; exact h1))
  rw [set_same he] at this
  exact this

theorem step_vteRef {s : State} {b : Book} {k : Nat} {S : List SEnt} {V : List VEnt} (I : Inv s b k S V)
    (hk : k + 1 < 2 ^ 64) {j i h : Nat} (hb : b.vte[j]? = some (i, h + 1)) :
    ∃ s' S' V', run s (.vteRef j) = .ok s' ∧ Inv s' { b with vte := b.vte.set j (i, h + 2) } (k + 1) S' V' := by
  obtain ⟨v, hj, hi, hh, hd⟩ := I.hvte hb
  subst hi
  have hvok := (I.vok j v hj).1
  cases hx : v.rc with
  | none =>
    rw [VEnt.ok_none hx] at hvok
    have hn : v.addr = none := by rcases hvok with h | h; exact h; omega
    exact ⟨s, _, _, by rw [run, bind_ok hd, hn]; rfl, I.updV0 (h + 2) hj hx hn⟩
  | some x =>
    rw [VEnt.ok_some hx] at hvok
    obtain ⟨e, r, n, he, _⟩ := I.conOf hj hx
    obtain ⟨R, h1, h2⟩ := I.atV he hj
    rw [VEnt.cells_some hx] at h1
    obtain ⟨w, e1, _⟩ := h1.vteRef
    have hi := inc_eq (show x.ref ≤ k by omega) hk
    refine ⟨{ s with w := w }, _, _, by rw [run, bind_ok hd, hvok.1, bind_ok e1]; rfl,
      I.updV' (x' := { x with ref := x.ref + 1 }) hj hx rfl rfl (by omega) (by show x.ref + 1 = h + 2; omega)
        (by omega) hvok.2.2.2.2 ?_⟩
    intro e' R' _ hR
    obtain ⟨w', e1', h3⟩ := hR.vteRef
    rw [e1] at e1'
    rw [Except.ok.inj e1', ← hi]
    exact h3

theorem step_vteUnref {s : State} {b : Book} {k : Nat} {S : List SEnt} {V : List VEnt} (I : Inv s b k S V)
    {j i h : Nat} (hb : b.vte[j]? = some (i, h + 1)) :
    ∃ s' S' V', run s (.vteUnref j) = .ok s' ∧ Inv s' { b with vte := b.vte.set j (i, h) } (k + 1) S' V' := by
  obtain ⟨v, hj, hi, hh, hd⟩ := I.hvte hb
  subst hi
  have hvok := (I.vok j v hj).1
  cases hx : v.rc with
  | none =>
    rw [VEnt.ok_none hx] at hvok
    have hn : v.addr = none := by rcases hvok with h | h; exact h; omega
    exact ⟨s, _, _, by rw [run, bind_ok hd, hn]; rfl, I.updV0 h hj hx hn⟩
  | some x =>
    rw [VEnt.ok_some hx] at hvok
    obtain ⟨e, r, n, he, hre, hra, hea, hrr, hrk, hu, hu'⟩ := I.conOf hj hx
    obtain ⟨R, h1, h2⟩ := I.atV he hj
    rw [VEnt.cells_some hx, SEnt.cells_some hre] at h1
    obtain ⟨w, e1, h3⟩ := h1.vteUnref (k := h) (m := e.held + n) hra.symm (by omega) (by omega)
    have hrun : run s (.vteUnref j) = .ok { s with w := w } := by
      rw [run, bind_ok hd, hvok.1, bind_ok e1]; rfl
    by_cases hz : h = 0
    · rw [if_pos hz] at h3
      have hno : uses v.con ⟨v.addr, v.con, h, none⟩ = false := by simp [uses]
      by_cases hm : e.held + n = 0
      · rw [if_pos hm] at h3
        refine ⟨_, _, _, hrun, I.updV (e' := ⟨e.addr, e.held, none⟩) (v' := ⟨v.addr, v.con, h, none⟩) he rfl rfl hj
          rfl rfl rfl (fun y hy => by simp at hy) (.inr ?_) (.inr hz) (h2 _ _ _ h3)⟩
        rw [hu', hno]; simpa using hm
      · rw [if_neg hm] at h3
        refine ⟨_, _, _, hrun, I.updV (e' := ⟨e.addr, e.held, some { r with ref := e.held + n }⟩)
          (v' := ⟨v.addr, v.con, h, none⟩) he rfl rfl hj
          rfl rfl rfl (fun y hy => by simp at hy) ⟨hea, ?_, ?_, ?_⟩ (.inr hz) (h2 _ _ _ h3)⟩
        · show e.held + n = e.held + _
          rw [hu', hno]; simp
        · show 0 < e.held + n; omega
        · show e.held + n ≤ k + 1; omega
    · refine ⟨_, _, _, hrun, I.updV' (x' := { x with ref := h }) hj hx rfl rfl (by omega) rfl (by omega)
        hvok.2.2.2.2 ?_⟩
      intro e' R' he' hR
      have : e' = e := Option.some.inj (he'.symm.trans he)
      subst this
      rw [SEnt.cells_some hre] at hR ⊢
      obtain ⟨w', e1', h3'⟩ := hR.vteUnref (k := h) (m := e'.held + n) hra.symm (by omega) (by omega)
      rw [e1] at e1'
      rw [if_neg hz] at h3'
      rw [Except.ok.inj e1']
      exact h3'

theorem step_vteUse {s : State} {b : Book} {k : Nat} {S : List SEnt} {V : List VEnt} (I : Inv s b k S V)
    {j i h : Nat} (hb : b.vte[j]? = some (i, h + 1)) :
    ∃ s' S' V', run s (.vteUse j) = .ok s' ∧ Inv s' b (k + 1) S' V' := by
  obtain ⟨v, hj, hi, hh, hd⟩ := I.hvte hb
  have hvok := (I.vok j v hj).1
  refine ⟨s, S, V, ?_, I.more⟩
  cases hx : v.rc with
  | none =>
    rw [VEnt.ok_none hx] at hvok
    have hn : v.addr = none := by rcases hvok with h | h; exact h; omega
    rw [run, bind_ok hd, hn]; rfl
  | some x =>
    rw [VEnt.ok_some hx] at hvok
    obtain ⟨e, r, n, he, hre, hra, hea, hrr, hrk, hu, hu'⟩ := I.conOf hj hx
    obtain ⟨R, h1, h2⟩ := I.atV he hj
    rw [VEnt.cells_some hx, SEnt.cells_some hre] at h1
    rw [run, bind_ok hd, hvok.1, bind_ok (h1.vteUse hvok.2.2.2.2 hra.symm)]; rfl

/-- A call that changes the palette of a terminal. -/
theorem step_palette {s : State} {b : Book} {k : Nat} {S : List SEnt} {V : List VEnt} (I : Inv s b k S V)
    {j i h : Nat} (hb : b.vte[j]? = some (i, h + 1)) (f : World → Option Nat → Verif.R World)
    (hf0 : ∀ w, f w none = .ok w)
    (hf : ∀ (w : World) (L : List (Nat × Obj)) (v : VRec) (r : SRec), Holds w (v.cells ++ (r.cells ++ L)) → v.Ok →
      v.con = r.a → ∃ (v' : VRec) (w' : World), f w (some v.a) = .ok w' ∧ v'.a = v.a ∧ v'.con = v.con ∧
        v'.ref = v.ref ∧ v'.Ok ∧ Holds w' (v'.cells ++ (r.cells ++ L))) :
    ∃ s' S' V', (do
        let v ← handle s.vtes j
        let w ← f s.w v
        return { s with w := w } : Verif.R State) = .ok s' ∧ Inv s' b (k + 1) S' V' := by
  obtain ⟨v, hj, hi, hh, hd⟩ := I.hvte hb
  have hvok := (I.vok j v hj).1
  have hset : b.vte.set j (v.con, h + 1) = b.vte := by rw [hi]; exact set_same hb
  cases hx : v.rc with
  | none =>
    rw [VEnt.ok_none hx] at hvok
    have hn : v.addr = none := by rcases hvok with h | h; exact h; omega
    refine ⟨s, S, V, ?_, I.more⟩
    rw [bind_ok hd, hn, bind_ok (hf0 _)]; rfl
  | some x =>
    rw [VEnt.ok_some hx] at hvok
    obtain ⟨e, r, n, he, hre, hra, hea, hrr, hrk, hu, hu'⟩ := I.conOf hj hx
    obtain ⟨R, h1, h2⟩ := I.atV he hj
    rw [VEnt.cells_some hx, SEnt.cells_some hre] at h1
    obtain ⟨x', w, e1, a1, a2, a3, a4, h3⟩ := hf _ _ _ _ h1 hvok.2.2.2.2 hra.symm
    have huse : uses v.con ⟨v.addr, v.con, h + 1, some x'⟩ = true := by simp [uses]
    have := I.updV (e' := e) (v' := ⟨v.addr, v.con, h + 1, some x'⟩) (w := w) he rfl rfl hj rfl rfl rfl
      (fun y hy => by
        have hy : some x' = some y := hy
        rw [← Option.some.inj hy, a2, ← hra]; exact hea)
      (by rw [hu', huse, if_pos rfl, Nat.add_comm 1 n, ← hu]; exact (I.sok _ _ he).mono)
      ⟨by rw [a1]; exact hvok.1, by rw [a3, hvok.2.1, hh], by show 0 < h + 1; omega, by show h + 1 ≤ k + 1; omega, a4⟩
      (h2 _ _ _ (by rw [SEnt.cells_some hre]; exact h3))
    rw [hset] at this
    refine ⟨{ s with w := w }, _, _, ?_, this⟩
    rw [bind_ok hd, hvok.1, bind_ok e1]; rfl

theorem Inv.step {s : State} {b b' : Book} {k : Nat} {S : List SEnt} {V : List VEnt} (I : Inv s b k S V)
    (hk : k + 1 < 2 ^ 64) {c : Call} (hc : b.step c = some b') :
    ∃ s' S' V', run s c = .ok s' ∧ Inv s' b' (k + 1) S' V' := by
  cases c <;> simp only [Book.step] at hc
  case screenNew => cases hc; exact step_screenNew I
  case setPalette j name =>
    split at hc <;> cases hc
    rename_i hb
    exact step_palette I hb (fun w v => Life.setPalette w name v) (fun _ => rfl)
      (fun w L v r h hv hcon => h.setPalette hv hcon name)
  case setCustomPalette j given =>
    split at hc <;> cases hc
    rename_i hb
    exact step_palette I hb (fun w v => Life.setCustomPalette w given v) (fun _ => rfl)
      (fun w L v r h hv hcon => h.setCustomPalette hv hcon given)
  all_goals
    split at hc <;> cases hc
    rename_i hb
    first
      | exact step_screenRef I hk hb
      | exact step_screenUnref I hb
      | exact step_screenUse I hb
      | exact step_vteNew I hk hb
      | exact step_vteRef I hk hb
      | exact step_vteUnref I hb
      | exact step_vteUse I hb

theorem Inv.steps {cs : List Call} : ∀ {s : State} {b b' : Book} {k : Nat} {S : List SEnt} {V : List VEnt},
    Inv s b k S V → k + cs.length < 2 ^ 64 → Book.steps cs b = some b' →
    ∃ s' S' V', runAll cs s = .ok s' ∧ Inv s' b' (k + cs.length) S' V' := by
  induction cs with
  | nil =>
    intro s b b' k S V I _ hb
    cases hb
    exact ⟨s, S, V, rfl, I⟩
  | cons c cs ih =>
    intro s b b' k S V I hk hb
    rw [Book.steps] at hb
    rw [List.length_cons] at hk ⊢
    cases h1 : b.step c with
    | none => rw [h1] at hb; cases hb
    | some b1 =>
      rw [h1] at hb
      obtain ⟨s1, S1, V1, e1, I1⟩ := I.step (by omega) h1
      obtain ⟨s2, S2, V2, e2, I2⟩ := ih I1 (by omega) hb
      refine ⟨s2, S2, V2, by rw [runAll, bind_ok e1]; exact e2, ?_⟩
      rw [show k + (cs.length + 1) = k + 1 + cs.length by omega]
      exact I2

end Life
end Verif
