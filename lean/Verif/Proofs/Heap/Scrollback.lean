import Verif.Proofs.Heap.Core

/-!
# Linking lines into the scrollback and removing them
-/

namespace Verif
namespace PScreen

/-- What `unlinkFirst` does. -/
structure Unlinked (p p' : PScreen) (e : Nat × Line) (z X : List (Nat × Line)) : Prop where
  sc : p'.sc = { p.sc with sbCount := p'.sc.sbCount }
  live : p'.heap.live = p.heap.live
  same : ∀ x ∈ e :: X, p'.heap.obj x.1 = p.heap.obj x.1
  next : ∀ a, (p'.heap.obj a).next = (p.heap.obj a).next
  seg : Seg p'.heap.obj none z
  first : p'.first = z.head?.map (·.1)
  last : p'.last = z.getLast?.map (·.1)
  pos : p'.pos = p.pos
  selS : p'.selS = p.selS
  selE : p'.selE = p.selE
  main : p'.main = p.main
  alt : p'.alt = p.alt

theorem Core.unlink {p : PScreen} {s : Screen} {e : Nat × Line} {z X ext : List (Nat × Line)}
    (h : Core p s (e :: z) X ext) :
    ∃ p', p.unlinkFirst = .ok (e.1, p') ∧ Unlinked p p' e z X ∧ p'.sc.sbCount = p.sc.sbCount := by
  have hf := h.first
  have hl := h.last
  have hs := h.seg
  have hlive := h.liveZ (List.mem_cons_self ..)
  unfold unlinkFirst
  change p.first = some e.1 at hf
  rw [hf]
  simp only [read_ok hlive, bind, Except.bind]
  rw [hs.1]
  cases z with
  | nil =>
    refine ⟨_, rfl, ?_, rfl⟩
    refine ⟨rfl, rfl, fun _ _ => rfl, fun _ => rfl, trivial, ?_, ?_, rfl, rfl, rfl, rfl, rfl⟩
    · show (none : Option Nat) = none; rfl
    · show (none : Option Nat) = none; rfl
  | cons f z =>
    have hlive' := h.liveZ (e := f) (List.mem_cons_of_mem _ (List.mem_cons_self ..))
    simp only [List.head?_cons, Option.map_some, modify_ok hlive']
    refine ⟨_, rfl, ?_, rfl⟩
    refine ⟨rfl, rfl, ?_, ?_, ⟨?_, ?_⟩, ?_, ?_, rfl, rfl, rfl, rfl, rfl⟩
    · intro x hx
      refine if_neg ?_
      rcases List.mem_cons.1 hx with rfl | hx
      · intro hh
        have := h.ndz
        rw [List.map_cons, List.nodup_cons] at this
        exact this.1 (hh ▸ List.mem_cons_self ..)
      · exact h.disj hx (List.mem_cons_of_mem _ (List.mem_cons_self ..))
    · intro a
      show (if a = f.1 then _ else _ : LineObj).next = _
      split
      · rename_i hh; rw [hh]
      · rfl
    · show (if f.1 = f.1 then _ else _ : LineObj) = _
      rw [if_pos rfl, hs.2.1]
    · refine Seg.congr ?_ hs.2.2
      intro x hx
      refine if_neg ?_
      intro hh
      have := h.ndz
      rw [List.map_cons, List.map_cons, List.nodup_cons, List.nodup_cons] at this
      exact this.2.1 (hh ▸ List.mem_map.2 ⟨x, hx, rfl⟩)
    · show some f.1 = some f.1; rfl
    · show p.last = _
      rw [hl, List.getLast?_cons_cons]

theorem Unlinked.setCount {p p' : PScreen} {e : Nat × Line} {z X : List (Nat × Line)} (h : Unlinked p p' e z X)
    (c : Nat) : Unlinked p (p'.onSc fun s => { s with sbCount := c }) e z X := by
  obtain ⟨h1, h2, h3, h4, h5, h6, h7, h8, h9, h10, h11, h12⟩ := h
  refine ⟨?_, h2, h3, h4, h5, h6, h7, h8, h9, h10, h11, h12⟩
  show { p'.sc with sbCount := c } = _
  rw [h1]
  rfl

theorem Unlinked.count {p p' : PScreen} {e : Nat × Line} {z X : List (Nat × Line)} (h : Unlinked p p' e z X)
    (hc : p'.sc.sbCount = p.sc.sbCount) :
    ∃ p2, p'.onSc countDown = p2 ∧ Unlinked p p2 e z X ∧ p2.sc.sbCount = pred32 p.sc.sbCount := by
  refine ⟨p'.onSc fun s => { s with sbCount := pred32 p.sc.sbCount }, ?_, h.setCount _, rfl⟩
  unfold onSc countDown
  rw [hc]

/-- The selection after its line `e` has been dropped. -/
theorem dropSel_ref {z : List (Nat × Line)} {e : Nat × Line} {a i : Option Nat} (hr : Ref (e :: z) a i)
    (hn : ((e :: z).map (·.1)).Nodup) (hi : ((e :: z).map (·.2.sbId)).Pairwise (· < ·)) :
    (a = some e.1 ↔ i = some e.2.sbId) ∧ (a ≠ some e.1 → Ref z a i) := by
  cases a with
  | none => cases i with
    | none => exact ⟨by simp, fun _ => trivial⟩
    | some i => exact absurd hr (by simp [Ref])
  | some a => cases i with
    | none => exact absurd hr (by simp [Ref])
    | some i =>
      obtain ⟨x, hx, rfl, rfl⟩ := hr
      constructor
      · constructor
        · intro hh
          rw [nodup_fst hn hx (List.mem_cons_self ..) (Option.some.inj hh)]
        · intro hh
          rw [ids_inj hi hx (List.mem_cons_self ..) (Option.some.inj hh)]
      · intro hh
        rcases List.mem_cons.1 hx with rfl | hx
        · exact absurd rfl hh
        · exact ⟨x, hx, rfl, rfl⟩

/-- The screen after the selection has lost the line with id `i`. -/
def selDropped (s : Screen) (i : Nat) : Screen :=
  { s with
    selStart := if s.selActive then Screen.dropSel s.selStart i else s.selStart
    selEnd := if s.selActive then Screen.dropSel s.selEnd i else s.selEnd }

/-- What `dropSel` does. -/
structure Dropped (p p' : PScreen) (s' : Screen) (z : List (Nat × Line)) : Prop where
  sc : p'.sc = bare s'
  heap : p'.heap = p.heap
  sel : s'.selActive = true → Ref z p'.selS s'.selStart.line ∧ Ref z p'.selE s'.selEnd.line
  first : p'.first = p.first
  last : p'.last = p.last
  pos : p'.pos = p.pos
  main : p'.main = p.main
  alt : p'.alt = p.alt

theorem dropped {p : PScreen} {s : Screen} {e : Nat × Line} {z : List (Nat × Line)} (hsc : p.sc = bare s)
    (hn : ((e :: z).map (·.1)).Nodup) (hi : ((e :: z).map (·.2.sbId)).Pairwise (· < ·))
    (hsel : s.selActive = true → Ref (e :: z) p.selS s.selStart.line ∧ Ref (e :: z) p.selE s.selEnd.line) :
    Dropped p (p.dropSel e.1) (selDropped s e.2.sbId) z := by
  obtain ⟨sc, heap, al, main, alt, first, last, pos, selS, selE⟩ := p
  simp only at hsc
  subst hsc
  unfold dropSel selDropped
  by_cases ha : s.selActive = true
  · have h1 := dropSel_ref (hsel ha).1 hn hi
    have h2 := dropSel_ref (hsel ha).2 hn hi
    simp only at h1 h2
    rw [if_pos (show (bare s).selActive = true from ha), if_pos ha, if_pos ha]
    unfold Screen.dropSel
    by_cases c1 : selS = some e.1 <;> by_cases c2 : selE = some e.1
    · rw [if_pos (h1.1.1 c1), if_pos (h2.1.1 c2)]
      simp only [c1, c2, if_true]
      exact ⟨rfl, rfl, fun _ => ⟨trivial, trivial⟩, rfl, rfl, rfl, rfl, rfl⟩
    · rw [if_pos (h1.1.1 c1), if_neg (fun hh => c2 (h2.1.2 hh))]
      simp only [c1, c2, if_true, if_false]
      exact ⟨rfl, rfl, fun _ => ⟨trivial, h2.2 c2⟩, rfl, rfl, rfl, rfl, rfl⟩
    · rw [if_neg (fun hh => c1 (h1.1.2 hh)), if_pos (h2.1.1 c2)]
      simp only [c1, c2, if_true, if_false]
      exact ⟨rfl, rfl, fun _ => ⟨h1.2 c1, trivial⟩, rfl, rfl, rfl, rfl, rfl⟩
    · rw [if_neg (fun hh => c1 (h1.1.2 hh)), if_neg (fun hh => c2 (h2.1.2 hh))]
      simp only [c1, c2, if_false]
      exact ⟨rfl, rfl, fun _ => ⟨h1.2 c1, h2.2 c2⟩, rfl, rfl, rfl, rfl, rfl⟩
  · rw [if_neg (show ¬ (bare s).selActive = true from ha), if_neg ha, if_neg ha]
    exact ⟨rfl, rfl, fun hh => absurd hh ha, rfl, rfl, rfl, rfl, rfl⟩

/-- The new `sb_pos` when the first line `e` is evicted and the line at `a` linked. -/
theorem evictPos_ok {p : PScreen} {s : Screen} {e : Nat × Line} {z : List (Nat × Line)} {a : Nat} {l : Line}
    (hfix : p.sc.fFixed = s.fFixed) (hnum : p.sc.sbPosNum = s.sbPosNum) (hpos : Ref (e :: z) p.pos s.sbPos)
    (hsb : s.sb = (e :: z).map (·.2)) (hn : ((e :: z).map (·.1)).Nodup)
    (hi : ((e :: z).map (·.2.sbId)).Pairwise (· < ·)) (hl : l.sbId = s.sbLastId + 1)
    (hnext : ∀ u x r, e :: z = u ++ x :: r → x.1 ∈ p.heap.live ∧ (p.heap.obj x.1).next = r.head?.map (·.1))
    {pos : Option Nat} {num : Nat} (h : s.evictPos e.2.sbId = .ok (pos, num)) :
    ∃ q, p.evictPos e.1 a = .ok { p with pos := q, sc := { p.sc with sbPosNum := num } } ∧
      Ref (z ++ [(a, l)]) q pos := by
  unfold Screen.evictPos at h
  unfold evictPos
  cases hp : p.pos with
  | none =>
    rw [hp] at hpos
    have := (hpos.none_iff).1 rfl
    rw [this] at h
    simp only [Except.ok.injEq, Prod.mk.injEq] at h
    obtain ⟨rfl, rfl⟩ := h
    refine ⟨none, ?_, trivial⟩
    rw [← hnum]
    obtain ⟨sc, heap, al, main, alt, first, last, pos, selS, selE⟩ := p
    simp only at hp
    subst hp
    rfl
  | some a' =>
    rw [hp] at hpos
    cases hq : s.sbPos with
    | none => rw [hq] at hpos; exact absurd hpos (by simp [Ref])
    | some i =>
      rw [hq] at hpos h
      obtain ⟨h1, h2⟩ := dropSel_ref hpos hn hi
      obtain ⟨u, x, r, hz, rfl, rfl⟩ := hpos.split
      obtain ⟨n1, n2⟩ := hnext u x r hz
      have hid : Screen.nextId s.sb x.2.sbId = some ((r.map (·.2)).head?.map Line.sbId) := by
        rw [hsb, hz, List.map_append, List.map_cons]
        refine nextId_split ?_
        rw [← List.map_cons, ← List.map_append, ← hz, List.map_map]
        exact hi
      simp only at h ⊢
      rw [hid] at h
      by_cases hc : x.2.sbId = e.2.sbId ∨ s.fFixed = false
      · have hc' : x.1 = e.1 ∨ p.sc.fFixed = false := by
          rcases hc with hc | hc
          · exact .inl (Option.some.inj (h1.2 (congrArg some hc)))
          · exact .inr (hfix.trans hc)
        rw [if_pos hc] at h
        rw [if_pos hc', read_ok n1]
        simp only [bind, Except.bind]
        rw [n2]
        cases r with
        | nil =>
          simp only [List.map_nil, List.head?_nil, Option.map_none, Except.ok.injEq, Prod.mk.injEq] at h
          obtain ⟨rfl, rfl⟩ := h
          exact ⟨some a, rfl, (a, l), by simp, rfl, hl⟩
        | cons y r =>
          simp only [List.map_cons, List.head?_cons, Option.map_some, Except.ok.injEq, Prod.mk.injEq] at h
          obtain ⟨rfl, rfl⟩ := h
          refine ⟨some y.1, ?_, y, ?_, rfl, rfl⟩
          · rw [← hnum]; rfl
          · refine List.mem_append_left _ ?_
            cases u with
            | nil =>
              rw [List.nil_append, List.cons.injEq] at hz
              rw [hz.2]; exact List.mem_cons_self ..
            | cons u0 u =>
              rw [List.cons_append, List.cons.injEq] at hz
              rw [hz.2]
              exact List.mem_append_right _ (List.mem_cons_of_mem _ (List.mem_cons_self ..))
      · have hc' : ¬ (x.1 = e.1 ∨ p.sc.fFixed = false) := by
          rintro (hh | hh)
          · exact hc (.inl (Option.some.inj (h1.1 (congrArg some hh))))
          · exact hc (.inr (hfix.symm.trans hh))
        rw [if_neg hc] at h
        rw [if_neg hc']
        simp only [Except.ok.injEq, Prod.mk.injEq] at h
        obtain ⟨rfl, rfl⟩ := h
        refine ⟨some x.1, ?_, ?_⟩
        · rw [← hnum]
          obtain ⟨sc, heap, al, main, alt, first, last, pos, selS, selE⟩ := p
          simp only at hp
          subst hp
          rfl
        · exact (h2 (fun hh => hc' (.inl (Option.some.inj hh)))).mono (fun _ he => List.mem_append_left _ he)

theorem Seg.next {obj : Nat → LineObj} {z : List (Nat × Line)} {q : Option Nat} (h : Seg obj q z)
    {u r : List (Nat × Line)} {x : Nat × Line} (hz : z = u ++ x :: r) : (obj x.1).next = r.head?.map (·.1) := by
  subst hz
  rw [h.split]

/-- Eviction of the oldest line when `(a, l)` is about to be linked. -/
theorem Core.evict {p : PScreen} {s s' : Screen} {z X : List (Nat × Line)} {a : Nat} {l : Line}
    (h : Core p s z ((a, l) :: X) []) (hs : s.sbEvict = .ok s') :
    ∃ p' z', p.sbEvict a = .ok p' ∧
      Core p' s' z' ((a, l) :: X) [(a, { l with sbId := s.sbLastId + 1 })] ∧ p'.main = p.main ∧ p'.alt = p.alt := by
  unfold Screen.sbEvict at hs
  rw [h.sb] at hs
  cases z with
  | nil => cases hs
  | cons e z =>
    simp only [List.map_cons] at hs
    obtain ⟨p1, e1, U0, hc0⟩ := h.unlink
    obtain ⟨p2, ep, U, hc⟩ := U0.count hc0
    rcases hev : s.evictPos e.2.sbId with er | ⟨pos, num⟩
    · rw [hev] at hs; cases hs
    rw [hev] at hs
    have hc' : p2.sc.sbCount = pred32 s.sbCount := by rw [hc, h.sc]; rfl
    have hs : _ = Except.ok s' := hs
    simp only [bind, Except.bind, pure, Except.pure, Except.ok.injEq] at hs
    rw [← hc'] at hs
    have run : p.sbEvict a = (do
        let p ← p2.evictPos e.1 a
        (p.dropSel e.1).lineFree e.1) := by
      unfold sbEvict
      rw [e1, ← ep]
      rfl
    clear hc hc' e1 U0 hc0 ep
    have hpos := h.pos
    rw [List.append_nil] at hpos
    obtain ⟨q, e2, hq⟩ := evictPos_ok (p := p2) (s := s) (e := e) (z := z) (a := a)
      (l := { l with sbId := s.sbLastId + 1 })
      (by rw [U.sc, h.sc]; rfl) (by rw [U.sc, h.sc]; rfl) (by rw [U.pos]; exact hpos) h.sb h.ndz h.ids rfl
      (by
        intro u x r hz
        refine ⟨?_, ?_⟩
        · rw [U.live]
          exact h.liveZ (by rw [hz]; simp)
        · rw [U.next]
          exact h.seg.next hz) hev
    have hsel : s.selActive = true → Ref (e :: z) p2.selS s.selStart.line ∧ Ref (e :: z) p2.selE s.selEnd.line := by
      rw [U.selS, U.selE]; exact h.sel
    generalize hp3 : { p2 with pos := q, sc := { p2.sc with sbPosNum := num } } = p3 at e2
    have h3 : p3.sc = { p2.sc with sbPosNum := num } ∧ p3.heap = p2.heap ∧ p3.first = p2.first ∧ p3.last = p2.last ∧
        p3.pos = q ∧ p3.selS = p2.selS ∧ p3.selE = p2.selE ∧ p3.main = p2.main ∧ p3.alt = p2.alt := by
      subst hp3; exact ⟨rfl, rfl, rfl, rfl, rfl, rfl, rfl, rfl, rfl⟩
    obtain ⟨a1, a2, a3, a4, a5, a6, a7, a8, a9⟩ := h3
    rw [e2] at run
    have run : p.sbEvict a = (p3.dropSel e.1).lineFree e.1 := run
    clear hp3 e2
    have hU := U.sc
    generalize p2.sc.sbCount = c at hU hs
    have D := dropped (p := p3)
      (s := { s with sb := z.map (·.2), sbCount := c, sbPos := pos, sbPosNum := num })
      (e := e) (z := z) (by rw [a1, hU, h.sc]; rfl) h.ndz h.ids (by rw [a6, a7]; exact hsel)
    have hlive : e.1 ∈ (p3.dropSel e.1).heap.live := by
      rw [D.heap, a2, U.live]
      exact h.liveZ (List.mem_cons_self ..)
    unfold lineFree at run
    rw [free_ok hlive] at run
    have hs' : s' = selDropped { s with
        sb := z.map (·.2), sbCount := c, sbPos := pos, sbPosNum := num } e.2.sbId := hs.symm
    refine ⟨_, z, run, ?_, ?_, ?_⟩
    · refine
        { sc := ?_, sb := ?_, own := ?_, nodup := ?_, obj := ?_, seg := ?_, first := ?_, last := ?_, pos := ?_
          sel := ?_, ids := ?_, lastId := ?_ }
      · rw [hs']; exact D.sc
      · rw [hs']; rfl
      · show ((p3.dropSel e.1).heap.live.erase e.1).Perm _
        rw [D.heap, a2, U.live]
        have h1 := h.own.erase e.1
        refine h1.trans ?_
        have h2 : ((((a, l) :: X) ++ e :: z).map (·.1)).Perm (e.1 :: (((a, l) :: X) ++ z).map (·.1)) := by
          rw [← List.map_cons (f := Prod.fst)]
          exact List.Perm.map _ List.perm_middle
        refine (h2.erase e.1).trans ?_
        rw [List.erase_cons_head]
      · show ((p3.dropSel e.1).heap.live.erase e.1).Nodup
        rw [D.heap, a2, U.live]
        exact h.nodup.erase _
      · intro x hx
        show ((p3.dropSel e.1).heap.obj x.1).line = _
        rw [D.heap, a2, U.same x (List.mem_cons_of_mem _ hx)]
        exact h.obj x hx
      · show Seg (p3.dropSel e.1).heap.obj none z
        rw [D.heap, a2]; exact U.seg
      · show (p3.dropSel e.1).first = _
        rw [D.first, a3]; exact U.first
      · show (p3.dropSel e.1).last = _
        rw [D.last, a4]; exact U.last
      · show Ref _ (p3.dropSel e.1).pos _
        rw [D.pos, hs', a5]; exact hq
      · rw [hs']; exact D.sel
      · exact (List.pairwise_cons.1 h.ids).2
      · rw [hs']; exact fun x hx => h.lastId x (List.mem_cons_of_mem _ hx)
    · show (p3.dropSel e.1).main = _
      rw [D.main, a8]; exact U.main
    · show (p3.dropSel e.1).alt = _
      rw [D.alt, a9]; exact U.alt

/-- Linking a line into the scrollback. -/
theorem Core.append {p : PScreen} {s : Screen} {z X ext : List (Nat × Line)} {a : Nat} {l : Line}
    (h : Core p s z ((a, l) :: X) ext) (hext : ∀ e ∈ ext, e = (a, { l with sbId := s.sbLastId + 1 })) :
    ∃ p', p.sbAppend a = .ok p' ∧
      Core p' (s.sbAppend l) (z ++ [(a, { l with sbId := s.sbLastId + 1 })]) X [] ∧
      p'.main = p.main ∧ p'.alt = p.alt := by
  have ha : a ∈ p.heap.live := h.liveX (List.mem_cons_self ..)
  have hobj : (p.heap.obj a).line = l := h.obj _ (List.mem_cons_self ..)
  have hnz : ∀ e ∈ z, e.1 ≠ a := fun e he hh => h.disj (List.mem_cons_self ..) he hh.symm
  have hnx : ∀ e ∈ X, e.1 ≠ a := by
    intro e he hh
    have := h.ndx
    rw [List.map_cons, List.nodup_cons] at this
    exact this.1 (hh ▸ List.mem_map.2 ⟨e, he, rfl⟩)
  have hid : p.sc.sbLastId = s.sbLastId := by rw [h.sc]; rfl
  -- the object that is linked
  generalize hl' : ({ l with sbId := s.sbLastId + 1 } : Line) = l' at *
  generalize ho : (⟨none, p.last, l'⟩ : LineObj) = o
  have hsc : ∀ q : Option Nat, (q = none ↔ s.sbPos = none) → ({ p.sc with
      sbLastId := p.sc.sbLastId + 1, sbCount := u32 (p.sc.sbCount + 1)
      sbPosNum := if q = none then u32 (p.sc.sbCount + 1) else p.sc.sbPosNum } : Screen) = bare (s.sbAppend l) := by
    intro q hq
    rw [h.sc]
    unfold Screen.sbAppend bare
    by_cases hc : s.sbPos = none
    · rw [if_pos (hq.2 hc), if_pos hc]
    · rw [if_neg (fun hh => hc (hq.1 hh)), if_neg hc]
  have hpn : p.pos = none ↔ s.sbPos = none := h.pos.none_iff
  have hpos : Ref (z ++ [(a, l')] ++ []) p.pos (s.sbAppend l).sbPos := by
    refine h.pos.mono ?_
    intro e he
    rw [List.append_nil]
    rcases List.mem_append.1 he with he | he
    · exact List.mem_append_left _ he
    · rw [hext e he]; simp
  have hsel : (s.sbAppend l).selActive = true → Ref (z ++ [(a, l')]) p.selS (s.sbAppend l).selStart.line ∧
      Ref (z ++ [(a, l')]) p.selE (s.sbAppend l).selEnd.line := fun hh =>
    ⟨(h.sel hh).1.mono fun _ he => List.mem_append_left _ he, (h.sel hh).2.mono fun _ he => List.mem_append_left _ he⟩
  have hids : ((z ++ [(a, l')]).map (·.2.sbId)).Pairwise (· < ·) := by
    rw [List.map_append, List.pairwise_append]
    refine ⟨h.ids, by simp, ?_⟩
    intro i hi j hj
    obtain ⟨e, he, rfl⟩ := List.mem_map.1 hi
    simp only [List.map_cons, List.map_nil, List.mem_singleton] at hj
    subst hj
    rw [← hl']
    exact Nat.lt_succ_of_le (h.lastId e he)
  have hlast : ∀ e ∈ z ++ [(a, l')], e.2.sbId ≤ (s.sbAppend l).sbLastId := by
    intro e he
    show _ ≤ s.sbLastId + 1
    rcases List.mem_append.1 he with he | he
    · exact Nat.le_succ_of_le (h.lastId e he)
    · rw [List.mem_singleton.1 he, ← hl']; exact Nat.le_refl _
  have hsb : (s.sbAppend l).sb = (z ++ [(a, l')]).map (·.2) := by
    rw [List.map_append, ← h.sb, ← hl']; rfl
  have hperm : (((a, l) :: X ++ z).map (·.1)).Perm ((X ++ (z ++ [(a, l')])).map (·.1)) := by
    simp only [List.cons_append, List.map_cons, List.map_append, List.map_nil]
    rw [← List.append_assoc]
    exact (List.perm_append_singleton _ _).symm
  have hnd : ((z ++ [(a, l')]).map (·.1)).Nodup := by
    have := hperm.nodup_iff.1 h.nd
    rw [List.map_append] at this
    exact (List.nodup_append.1 this).2.1
  unfold sbAppend
  simp only [modify_ok ha, bind, Except.bind]
  rw [show ({ (p.heap.obj a).line with sbId := p.sc.sbLastId + 1 } : Line) = l' by rw [hobj, hid, hl'], ho]
  cases hpl : p.last with
  | none =>
    have hz : z = [] := by
      have := h.last
      rw [hpl] at this
      cases z with
      | nil => rfl
      | cons e z => rw [List.getLast?_cons] at this; simp at this
    subst hz
    refine ⟨_, rfl, ?_, rfl, rfl⟩
    refine
      { sc := hsc _ hpn, sb := hsb, own := h.own.trans hperm, nodup := h.nodup, obj := ?_, seg := ?_, first := rfl
        last := rfl, pos := hpos, sel := hsel, ids := hids, lastId := hlast }
    · intro e he
      show (if e.1 = a then o else p.heap.obj e.1).line = _
      rw [if_neg (hnx e he)]
      exact h.obj e (List.mem_cons_of_mem _ he)
    · refine ⟨?_, trivial⟩
      show (if a = a then o else _) = _
      rw [if_pos rfl, ← ho, hpl]; rfl
  | some b =>
    have hl := h.last
    rw [hpl] at hl
    obtain ⟨e, he, rfl⟩ : ∃ e, z.getLast? = some e ∧ e.1 = b := by
      rcases hh : z.getLast? with _ | e
      · rw [hh] at hl; simp at hl
      · rw [hh] at hl; exact ⟨e, rfl, (Option.some.inj hl).symm⟩
    have hez : e ∈ z := List.mem_of_getLast? he
    simp only [modify_ok (h := ⟨p.heap.live, fun b => if b = a then o else p.heap.obj b⟩) (h.liveZ hez)]
    refine ⟨_, rfl, ?_, rfl, rfl⟩
    have hne := hnz e hez
    refine
      { sc := hsc _ hpn, sb := hsb, own := h.own.trans hperm, nodup := h.nodup, obj := ?_, seg := ?_, first := ?_
        last := ?_, pos := hpos, sel := hsel, ids := hids, lastId := hlast }
    · intro f hf
      show (if f.1 = e.1 then _ else if f.1 = a then o else p.heap.obj f.1 : LineObj).line = _
      rw [if_neg (h.disj (List.mem_cons_of_mem _ hf) hez), if_neg (hnx f hf)]
      exact h.obj f (List.mem_cons_of_mem _ hf)
    · refine Seg.snoc h.seg hnd ?_ ?_ ?_
      · intro b hb hbe
        rw [he] at hbe
        show (if b = e.1 then _ else if b = a then o else p.heap.obj b : LineObj) = _
        rw [if_neg (fun hh => hbe (congrArg some hh)), if_neg]
        intro hh
        obtain ⟨f, hf, rfl⟩ := List.mem_map.1 hb
        exact hnz f hf hh
      · intro b hb
        rw [he] at hb
        have := Option.some.inj hb
        subst this
        show (if e.1 = e.1 then { (if e.1 = a then o else p.heap.obj e.1 : LineObj) with next := some a }
          else _ : LineObj) = _
        rw [if_pos rfl, if_neg hne]
      · show (if a = e.1 then _ else if a = a then o else _ : LineObj) = _
        rw [if_neg (fun hh => hne hh.symm), if_pos rfl, ← ho, hpl, he]
        rfl
    · show p.first = _
      rw [h.first]
      cases z with
      | nil => simp at he
      | cons f z => rfl
    · show some a = _
      rw [List.getLast?_append]; rfl

/-- The same objects with other fields of the screen. -/
theorem Core.onSc {p : PScreen} {s : Screen} {z X ext : List (Nat × Line)} (h : Core p s z X ext)
    (f g : Screen → Screen) (hf : f (bare s) = bare (g s)) (h1 : (g s).sb = s.sb) (h2 : (g s).sbPos = s.sbPos)
    (h3 : (g s).selActive = true → s.selActive = true ∧ (g s).selStart.line = s.selStart.line ∧
      (g s).selEnd.line = s.selEnd.line) (h4 : (g s).sbLastId = s.sbLastId) : Core (p.onSc f) (g s) z X ext :=
  { h with
    sc := (congrArg f h.sc).trans hf
    sb := h1.trans h.sb
    pos := by rw [h2]; exact h.pos
    sel := fun hh => by
      obtain ⟨a, b, c⟩ := h3 hh
      rw [b, c]; exact h.sel a
    lastId := by rw [h4]; exact h.lastId }

theorem Core.touch {p : PScreen} {s : Screen} {z X ext : List (Nat × Line)} (h : Core p s z X ext) :
    Core (p.onSc Screen.touch) s.touch z X ext :=
  h.onSc _ _ rfl rfl rfl (fun hh => ⟨hh, rfl, rfl⟩) rfl

/-- Freeing a line that is neither shown nor in the scrollback. -/
theorem Core.free {p : PScreen} {s : Screen} {z X ext : List (Nat × Line)} {e : Nat × Line}
    (h : Core p s z (e :: X) ext) :
    ∃ p', p.lineFree e.1 = .ok p' ∧ Core p' s z X ext ∧ p'.main = p.main ∧ p'.alt = p.alt := by
  unfold lineFree
  rw [free_ok (h.liveX (List.mem_cons_self ..))]
  refine ⟨_, rfl, ?_, rfl, rfl⟩
  refine { h with own := ?_, nodup := h.nodup.erase _, obj := fun x hx => h.obj x (List.mem_cons_of_mem _ hx) }
  have := h.own.erase e.1
  rwa [List.cons_append, List.map_cons, List.erase_cons_head] at this

/-- `link_to_scrollback`. -/
theorem Core.link {p : PScreen} {s s' : Screen} {z X : List (Nat × Line)} {a : Nat} {l : Line}
    (h : Core p s z ((a, l) :: X) []) (hs : s.linkToScrollback l = .ok s') :
    ∃ p' z', p.linkToScrollback a = .ok p' ∧ Core p' s' z' X [] ∧ p'.main = p.main ∧ p'.alt = p.alt := by
  unfold Screen.linkToScrollback at hs
  unfold linkToScrollback
  have h := h.touch
  have e1 : (p.onSc Screen.touch).main = p.main := rfl
  have e2 : (p.onSc Screen.touch).alt = p.alt := rfl
  generalize p.onSc Screen.touch = p1 at *
  generalize s.touch = s1 at *
  rw [← e1, ← e2]
  clear e1 e2
  have hm : p1.sc.sbMax = s1.sbMax := by rw [h.sc]; rfl
  have hc : p1.sc.sbCount = s1.sbCount := by rw [h.sc]; rfl
  dsimp only at hs ⊢
  by_cases h0 : s1.sbMax = 0
  · rw [if_pos h0] at hs
    rw [if_pos (hm.trans h0)]
    cases hs
    have hd : p1.dropSel a = p1 := by
      unfold dropSel
      split
      · rename_i ha
        have ha : s'.selActive = true := by rw [h.sc] at ha; exact ha
        have hn : ∀ {q i : Option Nat}, Ref z q i → q ≠ some a := by
          rintro q i hr rfl
          cases i with
          | none => exact absurd hr (by simp [Ref])
          | some i =>
            obtain ⟨e, he, h1, _⟩ := hr
            exact h.disj (List.mem_cons_self ..) he h1.symm
        rw [if_neg (hn (h.sel ha).1), if_neg (hn (h.sel ha).2)]
      · rfl
    rw [hd]
    obtain ⟨p', r1, r2, r3⟩ := h.free
    exact ⟨p', z, r1, r2, r3⟩
  · rw [if_neg h0] at hs
    rw [if_neg (fun hh => h0 (hm.symm.trans hh))]
    by_cases h1 : s1.sbCount ≥ s1.sbMax
    · rw [if_pos h1] at hs
      rw [if_pos (by rw [hc, hm]; exact h1)]
      rcases he : s1.sbEvict with er | s2
      · rw [he] at hs; cases hs
      rw [he] at hs
      obtain ⟨p2, z2, r1, r2, r3, r4⟩ := h.evict he
      have hl : s2.sbLastId = s1.sbLastId := by
        unfold Screen.sbEvict at he
        split at he
        · cases he
        · rcases hp : s1.evictPos _ with _ | ⟨_, _⟩
          · rw [hp] at he; cases he
          · rw [hp] at he; cases he; rfl
      obtain ⟨p3, q1, q2, q3, q4⟩ := r2.append (by
        intro e he
        rw [List.mem_singleton.1 he, hl])
      rw [r1]
      cases hs
      exact ⟨p3, _, q1, q2, q3.trans r3, q4.trans r4⟩
    · rw [if_neg h1] at hs
      rw [if_neg (by rw [hc, hm]; exact h1)]
      cases hs
      obtain ⟨p3, q1, q2, q3, q4⟩ := h.append (by intro e he; cases he)
      exact ⟨p3, _, q1, q2, q3, q4⟩

/-- `line_new`. -/
theorem Core.new {p : PScreen} {s s' : Screen} {z X ext : List (Nat × Line)} {w : Nat} {o : Option Line}
    (h : Core p s z X ext) (hs : s.lineNew w = (o, s')) :
    ∃ p' q, p.lineNew w = (q, p') ∧ p'.main = p.main ∧ p'.alt = p.alt ∧
      ((q = none ∧ o = none ∧ Core p' s' z X ext) ∨
        ∃ e : Nat × Line, q = some e.1 ∧ o = some e.2 ∧ Core p' s' z (e :: X) ext) := by
  unfold Screen.lineNew at hs
  unfold lineNew
  by_cases hw : w = 0
  · rw [if_pos hw] at hs ⊢
    cases hs
    exact ⟨p, none, rfl, rfl, rfl, .inl ⟨rfl, rfl, h⟩⟩
  rw [if_neg hw] at hs ⊢
  have hf : p.sc.alloc.1 = s.alloc.1 := by rw [h.sc]; rfl
  have ha := h.onSc (fun s => s.alloc.2) (fun s => s.alloc.2) rfl rfl rfl (fun hh => ⟨hh, rfl, rfl⟩) rfl
  have ep : p.onSc (fun s => s.alloc.2) = { p with sc := p.sc.alloc.2 } := rfl
  rw [ep] at ha
  dsimp only at hs ⊢
  rw [hf]
  have hb : p.sc.alloc.2.blank = s.alloc.2.blank := by rw [h.sc]; rfl
  have hg : p.sc.alloc.2.ageCnt = s.alloc.2.ageCnt := by rw [h.sc]; rfl
  rw [hb, hg]
  by_cases hok : s.alloc.1 = true
  · rw [if_pos hok] at hs ⊢
    cases hs
    have hfr := p.al.fresh p.heap.live p.sc.allocN
    generalize p.al.choose p.heap.live p.sc.allocN = a at *
    refine ⟨_, some a, rfl, rfl, rfl, .inr ⟨(a, _), rfl, rfl, ?_⟩⟩
    have hx : ∀ x, x ∈ X ∨ x ∈ z → x.1 ≠ a := by
      intro x hx hh
      refine hfr (h.mem.2 ?_)
      rcases hx with hx | hx
      · exact .inl ⟨x, hx, hh⟩
      · exact .inr ⟨x, hx, hh⟩
    refine { ha with own := ?_, nodup := ?_, obj := ?_, seg := ?_ }
    · exact List.Perm.cons a h.own
    · exact List.nodup_cons.2 ⟨hfr, h.nodup⟩
    · intro e he
      show (if e.1 = a then _ else p.heap.obj e.1 : LineObj).line = _
      rcases List.mem_cons.1 he with rfl | he
      · rw [if_pos rfl]
      · rw [if_neg (hx e (.inl he))]
        exact h.obj e he
    · refine Seg.congr ?_ h.seg
      intro e he
      exact if_neg (hx e (.inr he))
  · rw [if_neg hok] at hs ⊢
    cases hs
    exact ⟨_, none, rfl, rfl, rfl, .inl ⟨rfl, rfl, ha⟩⟩

/-- Storing a line through a pointer that is not in the scrollback. -/
theorem Core.put {p : PScreen} {s : Screen} {z X ext : List (Nat × Line)} {a : Nat} {l : Line} (l' : Line)
    (h : Core p s z ((a, l) :: X) ext) :
    ∃ hp, p.heap.modify a (fun o => { o with line := l' }) = .ok hp ∧
      Core { p with heap := hp } s z ((a, l') :: X) ext := by
  rw [modify_ok (h.liveX (List.mem_cons_self ..))]
  refine ⟨_, rfl, ?_⟩
  refine { h with own := h.own, nodup := h.nodup, obj := ?_, seg := ?_ }
  · intro e he
    show (if e.1 = a then _ else p.heap.obj e.1 : LineObj).line = _
    rcases List.mem_cons.1 he with rfl | he
    · rw [if_pos rfl]
    · rw [if_neg]
      · exact h.obj e (List.mem_cons_of_mem _ he)
      · intro hh
        have := h.ndx
        rw [List.map_cons, List.nodup_cons] at this
        exact this.1 (hh ▸ List.mem_map.2 ⟨e, he, rfl⟩)
  · refine Seg.congr ?_ h.seg
    intro e he
    exact if_neg (fun hh => h.disj (List.mem_cons_self ..) he hh.symm)

/-- Clearing a line. -/
theorem Core.clear {p : PScreen} {s : Screen} {z X ext : List (Nat × Line)} {a : Nat} {l l' : Line}
    (h : Core p s z ((a, l) :: X) ext) (hl : s.clearLine l = .ok l') :
    ∃ p', p.clearLine a = .ok p' ∧ Core p' s z ((a, l') :: X) ext ∧ p'.main = p.main ∧ p'.alt = p.alt := by
  unfold clearLine
  rw [read_ok (h.liveX (List.mem_cons_self ..))]
  have ho : (p.heap.obj a).line = l := h.obj _ (List.mem_cons_self ..)
  have hc : p.sc.clearLine (p.heap.obj a).line = .ok l' := by
    rw [h.sc, ho]; exact hl
  obtain ⟨hp, r1, r2⟩ := h.put l'
  simp only [bind, Except.bind, hc, r1]
  exact ⟨_, rfl, r2, rfl, rfl⟩

end PScreen
end Verif
