import Verif.Proofs.Heap.Scrollback

/-!
# Screens with pointers and screens with lists: functions that only access fields and cells
-/

namespace Verif
namespace PScreen

/-- The two arrays of pointers, and the lines they refer to. -/
structure Rows (p : PScreen) (s : Screen) (zm za : List (Nat × Line)) : Prop where
  pmain : p.main = zm.map (·.1)
  smain : s.main = zm.map (·.2)
  palt : p.alt = za.map (·.1)
  salt : s.alt = za.map (·.2)
  len : zm.length = za.length

/-- `p` is `s` with pointers. -/
def Rel (p : PScreen) (s : Screen) : Prop := ∃ z zm za, Core p s z (zm ++ za) [] ∧ Rows p s zm za

/-- If the computation on lists succeeds, so does the one on pointers, with the same result. -/
def Sim (x : R PScreen) (y : R Screen) : Prop := ∀ s, y = .ok s → ∃ p, x = .ok p ∧ Rel p s

theorem Sim.bind {x : R PScreen} {y : R Screen} {f : PScreen → R PScreen} {g : Screen → R Screen} (h : Sim x y)
    (hf : ∀ p s, Rel p s → Sim (f p) (g s)) : Sim (x >>= f) (y >>= g) := by
  intro s hs
  cases y with
  | error e => cases hs
  | ok t =>
    obtain ⟨p, rfl, hr⟩ := h t rfl
    exact hf p t hr s hs

theorem Sim.ok {p : PScreen} {s : Screen} (h : Rel p s) : Sim (.ok p) (.ok s) := by
  intro s' hs
  cases hs
  exact ⟨p, rfl, h⟩

theorem Sim.ite {c d : Prop} [Decidable c] [Decidable d] {x x' : R PScreen} {y y' : R Screen} (hcd : c ↔ d)
    (h1 : d → Sim x y) (h2 : ¬ d → Sim x' y') : Sim (if c then x else x') (if d then y else y') := by
  by_cases hd : d
  · rw [if_pos hd, if_pos (hcd.2 hd)]; exact h1 hd
  · rw [if_neg hd, if_neg (fun hh => hd (hcd.1 hh))]; exact h2 hd

theorem Rel.sc {p : PScreen} {s : Screen} (h : Rel p s) : p.sc = bare s := by
  obtain ⟨z, zm, za, h1, _⟩ := h
  exact h1.sc

/-- The same objects with other fields of the screen. -/
theorem Rel.onSc {p : PScreen} {s : Screen} (h : Rel p s)
    (f g : Screen → Screen) (hf : f (bare s) = bare (g s)) (h1 : (g s).sb = s.sb) (h2 : (g s).sbPos = s.sbPos)
    (h3 : (g s).selActive = true → s.selActive = true ∧ (g s).selStart.line = s.selStart.line ∧
      (g s).selEnd.line = s.selEnd.line) (h4 : (g s).sbLastId = s.sbLastId) (h5 : (g s).main = s.main)
    (h6 : (g s).alt = s.alt) : Rel (p.onSc f) (g s) := by
  obtain ⟨z, zm, za, c, r⟩ := h
  refine ⟨z, zm, za, c.onSc f g hf h1 h2 h3 h4, ?_⟩
  exact ⟨r.pmain, h5.trans r.smain, r.palt, h6.trans r.salt, r.len⟩

theorem Rel.incAge {p : PScreen} {s : Screen} (h : Rel p s) : Rel (p.onSc Screen.incAge) s.incAge := by
  have hh : s.incAge.sb = s.sb ∧ s.incAge.sbPos = s.sbPos ∧ s.incAge.selActive = s.selActive ∧
      s.incAge.selStart = s.selStart ∧ s.incAge.selEnd = s.selEnd ∧ s.incAge.sbLastId = s.sbLastId ∧
      s.incAge.main = s.main ∧ s.incAge.alt = s.alt ∧ Screen.incAge (bare s) = bare s.incAge := by
    unfold Screen.incAge bare
    dsimp only
    split <;> exact ⟨rfl, rfl, rfl, rfl, rfl, rfl, rfl, rfl, rfl⟩
  obtain ⟨h1, h2, h3, h4, h5, h6, h7, h8, h9⟩ := hh
  exact h.onSc _ _ h9 h1 h2 (fun hh => ⟨h3 ▸ hh, by rw [h4], by rw [h5]⟩) h6 h7 h8

theorem Rel.touch {p : PScreen} {s : Screen} (h : Rel p s) : Rel (p.onSc Screen.touch) s.touch :=
  h.onSc _ _ rfl rfl rfl (fun hh => ⟨hh, rfl, rfl⟩) rfl rfl rfl

theorem Rel.incTouch {p : PScreen} {s : Screen} (h : Rel p s) :
    Rel (p.onSc fun s => s.incAge.touch) s.incAge.touch := h.incAge.touch

/-! ### Reading and writing through the arrays -/

theorem reads_ok {h : Heap} : ∀ {zs : List (Nat × Line)}, (∀ e ∈ zs, e.1 ∈ h.live ∧ (h.obj e.1).line = e.2) →
    h.reads (zs.map (·.1)) = .ok (zs.map (·.2))
  | [], _ => rfl
  | e :: zs, hz => by
    obtain ⟨h1, h2⟩ := hz e (List.mem_cons_self ..)
    have ih := reads_ok (h := h) (zs := zs) (fun x hx => hz x (List.mem_cons_of_mem _ hx))
    rw [List.map_cons, Heap.reads, read_ok h1]
    simp only [bind, Except.bind, ih]
    rw [h2]; rfl

theorem Core.reads {p : PScreen} {s : Screen} {z X ext zs : List (Nat × Line)} (h : Core p s z X ext)
    (hz : ∀ e ∈ zs, e ∈ X) : p.heap.reads (zs.map (·.1)) = .ok (zs.map (·.2)) :=
  reads_ok fun e he => ⟨h.liveX (hz e he), h.obj e (hz e he)⟩

theorem Core.writes {s : Screen} {z ext : List (Nat × Line)} : ∀ {zs : List (Nat × Line)} {ls : List Line}
    {p : PScreen} {X : List (Nat × Line)}, Core p s z (zs ++ X) ext → ls.length = zs.length →
    ∃ h, p.heap.writes (zs.map (·.1)) ls = .ok h ∧
      Core { p with heap := h } s z ((zs.map (·.1)).zip ls ++ X) ext
  | [], ls, p, X, h, hl => by
    have : ls = [] := List.eq_nil_of_length_eq_zero hl
    subst this
    exact ⟨p.heap, rfl, h⟩
  | e :: zs, [], _, _, _, hl => by simp at hl
  | e :: zs, l :: ls, p, X, h, hl => by
    obtain ⟨hp, r1, r2⟩ := h.put (X := zs ++ X) (a := e.1) (l := e.2) l
    have h' := r2.perm (Y := zs ++ ((e.1, l) :: X)) (List.perm_middle.symm)
    obtain ⟨hq, q1, q2⟩ := Core.writes (ls := ls) h' (by simpa using hl)
    rw [List.map_cons, Heap.writes, r1]
    refine ⟨hq, q1, ?_⟩
    refine q2.perm ?_
    exact List.perm_middle

/-! ### Functions that only access fields and cells -/

/-- The fields that a function accessing only fields and cells leaves alone. -/
structure Links where
  sb : List Line
  pos : Option Nat
  active : Bool
  start : SelPos
  stop : SelPos
  lastId : Nat

/-- Replace these fields. -/
def put (B : Links) (s : Screen) : Screen :=
  { s with sb := B.sb, sbPos := B.pos, selActive := B.active, selStart := B.start, selEnd := B.stop
           sbLastId := B.lastId }

/-- `f` neither uses nor changes those fields, and keeps the number of lines. -/
structure Local {α : Type} (f : Screen → R (α × Screen)) : Prop where
  put : ∀ B s, f (put B s) = (f s).map (fun r => (r.1, put B r.2))
  len : ∀ s r, f s = .ok r → r.2.main.length = s.main.length ∧ r.2.alt.length = s.alt.length

/-- The same for functions without result. -/
structure LocalS (f : Screen → R Screen) : Prop where
  put : ∀ B s, f (PScreen.put B s) = (f s).map (PScreen.put B)
  len : ∀ s s', f s = .ok s' → s'.main.length = s.main.length ∧ s'.alt.length = s.alt.length

theorem LocalS.toLocal {f : Screen → R Screen} (h : LocalS f) :
    Local (fun s => do let s ← f s; return ((), s) : Screen → R (Unit × Screen)) where
  put := by
    intro B s
    show (f (PScreen.put B s) >>= fun s => Except.ok ((), s)) = ((f s) >>= fun s => Except.ok ((), s)).map _
    rw [h.put]
    cases f s <;> rfl
  len := by
    intro s r hr
    have hr : (f s >>= fun s => Except.ok ((), s)) = .ok r := hr
    rcases hf : f s with e | t
    · rw [hf] at hr; cases hr
    · rw [hf] at hr; cases hr
      exact h.len s t hf

theorem LocalS.comp {f g : Screen → R Screen} (hf : LocalS f) (hg : LocalS g) : LocalS (fun s => f s >>= g) where
  put := by
    intro B s
    show (f (PScreen.put B s) >>= g) = _
    rw [hf.put]
    cases f s with
    | error e => rfl
    | ok t => exact hg.put B t
  len := by
    intro s s' h
    have h : (f s >>= g) = _ := h
    rcases hh : f s with e | t
    · rw [hh] at h; cases h
    · rw [hh] at h
      have h1 := hf.len s t hh
      have h2 := hg.len t s' h
      exact ⟨h2.1.trans h1.1, h2.2.trans h1.2⟩

/-- The links of a screen. -/
def links (s : Screen) : Links := ⟨s.sb, s.sbPos, s.selActive, s.selStart, s.selEnd, s.sbLastId⟩

theorem put_links (s : Screen) : put (links s) s = s := rfl

theorem Local.links {α : Type} {f : Screen → R (α × Screen)} (h : Local f) {s : Screen} {r : α × Screen}
    (hs : f s = .ok r) : r.2 = PScreen.put (PScreen.links s) r.2 := by
  have := h.put (PScreen.links s) s
  rw [put_links, hs] at this
  have := Except.ok.inj this
  exact (Prod.ext_iff.1 this).2

theorem zip_fst {zs : List (Nat × Line)} {ls : List Line} (h : ls.length = zs.length) :
    ((zs.map (·.1)).zip ls).map (·.1) = zs.map (·.1) ∧ ((zs.map (·.1)).zip ls).map (·.2) = ls := by
  constructor
  · exact List.map_fst_zip (by simp [h])
  · exact List.map_snd_zip (by simp [h])

/-- A function that accesses only fields and cells does the same on pointers. -/
theorem Rel.access {α : Type} {f : Screen → R (α × Screen)} (hf : Local f) {p : PScreen} {s s' : Screen} {r : α}
    (h : Rel p s) (hs : f s = .ok (r, s')) : ∃ p', p.access f = .ok (r, p') ∧ Rel p' s' := by
  obtain ⟨z, zm, za, c, ro⟩ := h
  obtain ⟨l1, l2⟩ := hf.len _ _ hs
  have hl := hf.links hs
  simp only at l1 l2 hl
  let B : Links := ⟨[], none, s.selActive, { s.selStart with line := none }, { s.selEnd with line := none }, s.sbLastId⟩
  have e1 : ({ p.sc with main := s.main, alt := s.alt } : Screen) = PScreen.put B s := by rw [c.sc]; rfl
  have e2 : f (PScreen.put B s) = .ok (r, PScreen.put B s') := by rw [hf.put, hs]; rfl
  have hm := c.reads (zs := zm) (fun e he => List.mem_append_left _ he)
  have ha := c.reads (zs := za) (fun e he => List.mem_append_right _ he)
  rw [← ro.pmain, ← ro.smain] at hm
  rw [← ro.palt, ← ro.salt] at ha
  have n1 : s'.main.length = zm.length := by rw [l1, ro.smain, List.length_map]
  have n2 : s'.alt.length = za.length := by rw [l2, ro.salt, List.length_map]
  obtain ⟨h1, w1, c1⟩ := c.writes (ls := s'.main) n1
  have c1' := c1.perm (Y := za ++ (zm.map (·.1)).zip s'.main) List.perm_append_comm
  obtain ⟨h2, w2, c2⟩ := c1'.writes (ls := s'.alt) n2
  have c2' := c2.perm (Y := (zm.map (·.1)).zip s'.main ++ (za.map (·.1)).zip s'.alt) List.perm_append_comm
  have w1' : p.heap.writes p.main s'.main = .ok h1 := by rw [ro.pmain]; exact w1
  have w2' : h1.writes p.alt s'.alt = .ok h2 := by rw [ro.palt]; exact w2
  clear w1 w2
  have run : p.access f = .ok (r, { p with
      sc := { PScreen.put B s' with main := [], alt := [] }, heap := h2 }) := by
    unfold PScreen.access
    simp only [hm, ha, bind, Except.bind, e1, e2]
    rw [show (PScreen.put B s').main = s'.main from rfl, show (PScreen.put B s').alt = s'.alt from rfl, w1']
    simp only [w2']
    rfl
  refine ⟨_, run, z, (zm.map (·.1)).zip s'.main, (za.map (·.1)).zip s'.alt, ?_, ?_⟩
  · generalize hS : s' = S at hl c2'
    refine
      { sc := ?_, sb := ?_, own := c2'.own, nodup := c2'.nodup, obj := c2'.obj, seg := c2'.seg, first := c2'.first
        last := c2'.last, pos := ?_, sel := ?_, ids := c2'.ids, lastId := ?_ }
    · dsimp only
      rw [hl]; rfl
    · rw [hl]; exact c2'.sb
    · rw [hl]; exact c2'.pos
    · rw [hl]; exact c2'.sel
    · rw [hl]; exact c2'.lastId
  · have a1 := zip_fst n1
    have a2 := zip_fst n2
    refine ⟨?_, ?_, ?_, ?_, ?_⟩
    · show p.main = _
      rw [a1.1]; exact ro.pmain
    · rw [a1.2]
    · show p.alt = _
      rw [a2.1]; exact ro.palt
    · rw [a2.2]
    · rw [List.length_zip, List.length_zip, n1, n2, List.length_map, List.length_map, ro.len]

theorem Rel.cells {f : Screen → R Screen} (hf : LocalS f) {p : PScreen} {s : Screen} (h : Rel p s) :
    Sim (p.cells f) (f s) := by
  intro s' hs
  obtain ⟨p', r1, r2⟩ := h.access (s' := s') (r := ()) hf.toLocal (by
    show (f s >>= fun s => Except.ok ((), s)) = _
    rw [hs]; rfl)
  refine ⟨p', ?_, r2⟩
  unfold PScreen.cells
  rw [r1]
  rfl

end PScreen
end Verif
