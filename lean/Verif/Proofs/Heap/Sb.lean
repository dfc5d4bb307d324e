import Verif.Proofs.Heap.Down

/-!
# The scrollback functions with pointers
-/

namespace Verif
namespace PScreen

/-- One iteration of the loop of `tsm_screen_set_max_sb`. -/
theorem Core.trimOne {p : PScreen} {s : Screen} {e : Nat × Line} {z X : List (Nat × Line)} (h : Core p s (e :: z) X []) :
    ∃ p', (do
        let (a, p) ← p.unlinkFirst
        let p := p.onSc countDown
        let p := if p.pos = some a then { p with pos := p.first } else p
        (p.dropSel a).lineFree a) = .ok p' ∧ p'.main = p.main ∧ p'.alt = p.alt ∧
      Core p' { s with
          sb := z.map (·.2)
          sbCount := pred32 s.sbCount
          sbPos := if s.sbPos = some e.2.sbId then (z.map (·.2)).head?.map Line.sbId else s.sbPos
          selStart := if s.selActive then Screen.dropSel s.selStart e.2.sbId else s.selStart
          selEnd := if s.selActive then Screen.dropSel s.selEnd e.2.sbId else s.selEnd } z X [] := by
  obtain ⟨p1, e1, U0, hc0⟩ := h.unlink
  obtain ⟨p2, ep, U, hc⟩ := U0.count hc0
  have hc' : p2.sc.sbCount = pred32 s.sbCount := by rw [hc, h.sc]; rfl
  rw [← hc']
  have hpos := h.pos
  rw [List.append_nil] at hpos
  obtain ⟨h1, h2⟩ := dropSel_ref hpos h.ndz h.ids
  rw [← U.pos] at h1 h2
  have hsel : s.selActive = true → Ref (e :: z) p2.selS s.selStart.line ∧ Ref (e :: z) p2.selE s.selEnd.line := by
    rw [U.selS, U.selE]; exact h.sel
  have hU := U.sc
  generalize p2.sc.sbCount = c at hU
  generalize hsp : (if s.sbPos = some e.2.sbId then (z.map (·.2)).head?.map Line.sbId else s.sbPos) = pos
  obtain ⟨p3, hp3, h3, hq⟩ : ∃ p3 : PScreen, (if p2.pos = some e.1 then { p2 with pos := p2.first } else p2) = p3 ∧
      (p3.sc = p2.sc ∧ p3.heap = p2.heap ∧ p3.first = p2.first ∧ p3.last = p2.last ∧
        p3.selS = p2.selS ∧ p3.selE = p2.selE ∧ p3.main = p2.main ∧ p3.alt = p2.alt) ∧ Ref z p3.pos pos := by
    by_cases hh : p2.pos = some e.1
    · refine ⟨_, if_pos hh, ⟨rfl, rfl, rfl, rfl, rfl, rfl, rfl, rfl⟩, ?_⟩
      rw [← hsp, if_pos (h1.1 hh)]
      show Ref z p2.first _
      rw [U.first]
      exact Ref.head
    · refine ⟨_, if_neg hh, ⟨rfl, rfl, rfl, rfl, rfl, rfl, rfl, rfl⟩, ?_⟩
      rw [← hsp, if_neg (fun h => hh (h1.2 h))]
      exact h2 hh
  obtain ⟨a1, a2, a3, a4, a6, a7, a8, a9⟩ := h3
  have D := dropped (p := p3)
    (s := { s with sb := z.map (·.2), sbCount := c, sbPos := pos })
    (e := e) (z := z) (by rw [a1, hU, h.sc]; rfl) h.ndz h.ids (by rw [a6, a7]; exact hsel)
  have hlive : e.1 ∈ (p3.dropSel e.1).heap.live := by
    rw [D.heap, a2, U.live]
    exact h.liveZ (List.mem_cons_self ..)
  have run : (do
        let (a, p) ← p.unlinkFirst
        let p := p.onSc countDown
        let p := if p.pos = some a then { p with pos := p.first } else p
        (p.dropSel a).lineFree a) = (p3.dropSel e.1).lineFree e.1 := by
    rw [e1]
    show (fun p : PScreen => ((if p.pos = some e.1 then { p with pos := p.first } else p).dropSel e.1).lineFree e.1)
      (p1.onSc countDown) = _
    rw [ep]
    show ((if p2.pos = some e.1 then { p2 with pos := p2.first } else p2).dropSel e.1).lineFree e.1 = _
    rw [hp3]
  rw [run]
  unfold lineFree
  rw [free_ok hlive]
  refine ⟨_, rfl, ?_, ?_, ?_⟩
  · show (p3.dropSel e.1).main = _
    rw [D.main, a8]; exact U.main
  · show (p3.dropSel e.1).alt = _
    rw [D.alt, a9]; exact U.alt
  · refine
      { sc := D.sc, sb := rfl, own := ?_, nodup := ?_, obj := ?_, seg := ?_, first := ?_, last := ?_, pos := ?_
        sel := D.sel, ids := ?_, lastId := ?_ }
    · show ((p3.dropSel e.1).heap.live.erase e.1).Perm _
      rw [D.heap, a2, U.live]
      refine (h.own.erase e.1).trans ?_
      have h2 : ((X ++ e :: z).map (·.1)).Perm (e.1 :: (X ++ z).map (·.1)) := by
        rw [← List.map_cons (f := Prod.fst)]
        exact List.Perm.map _ List.perm_middle
      refine (h2.erase e.1).trans ?_
      rw [List.erase_cons_head]
    · show ((p3.dropSel e.1).heap.live.erase e.1).Nodup
      rw [D.heap, a2, U.live]
      exact h.nodup.erase _
    · intro x hx
      show ((p3.dropSel e.1).heap.obj x.1).line = _
      rw [D.heap, a2, U.same x (List.mem_cons_of_mem _ hx)]
      exact h.obj x hx
    · show Seg (p3.dropSel e.1).heap.obj none z
      rw [D.heap, a2]; exact U.seg
    · show (p3.dropSel e.1).first = _
      rw [D.first, a3]; exact U.first
    · show (p3.dropSel e.1).last = _
      rw [D.last, a4]; exact U.last
    · rw [List.append_nil]
      show Ref _ (p3.dropSel e.1).pos _
      rw [D.pos]; exact hq
    · exact (List.pairwise_cons.1 h.ids).2
    · exact fun x hx => h.lastId x (List.mem_cons_of_mem _ hx)

theorem Rel.trimSb {max : Nat} : ∀ {n : Nat} {p : PScreen} {s : Screen}, Rel p s →
    Sim (trimSb max n p) (Screen.trimSb max n s)
  | 0, _, _, h => .ok h
  | n + 1, p, s, h => by
    rw [PScreen.trimSb, Screen.trimSb]
    refine .ite (by rw [h.sc]; rfl) (fun _ => ?_) (fun _ => .ok h)
    intro s' hs
    obtain ⟨z, zm, za, c, r⟩ := h
    rw [c.sb] at hs
    cases z with
    | nil => cases hs
    | cons e z =>
      obtain ⟨p', e1, e2, e3, c'⟩ := c.trimOne
      have hr : Rel p' _ := ⟨z, zm, za, c', ⟨e2.trans r.pmain, r.smain, e3.trans r.palt, r.salt, r.len⟩⟩
      have run : ∀ k : PScreen → Verif.R PScreen, (do
        let (a, p) ← p.unlinkFirst
        let p := p.onSc countDown
        let p := if p.pos = some a then { p with pos := p.first } else p
        let p ← (p.dropSel a).lineFree a
        k p) = k p' := by
        intro k
        refine (bind_three _ _ _).symm.trans ?_
        refine (congrArg (· >>= k) e1).trans rfl
      rw [run]
      exact Rel.trimSb hr s' hs

theorem Rel.setMaxSb {p : PScreen} {s : Screen} (h : Rel p s) (max : Nat) : Sim (p.setMaxSb max) (s.setMaxSb max) := by
  unfold PScreen.setMaxSb Screen.setMaxSb
  rw [show p.sc.sbCount = s.sbCount by rw [h.sc]; rfl]
  refine Sim.bind h.incTouch.trimSb (fun p s h => .ok ?_)
  exact h.onSc (fun s => { s with sbMax := max }) (fun s => { s with sbMax := max }) rfl rfl rfl
    (fun h => ⟨h, rfl, rfl⟩) rfl rfl rfl

/-- Another line at the top of the screen. -/
theorem Core.setPos {p : PScreen} {s : Screen} {z X : List (Nat × Line)} (h : Core p s z X []) {q i : Option Nat}
    (hr : Ref z q i) (n : Nat) :
    Core { p with pos := q, sc := { p.sc with sbPosNum := n } } { s with sbPos := i, sbPosNum := n } z X [] := by
  obtain ⟨sc, heap, al, main, alt, first, last, pos, selS, selE⟩ := p
  have hsc := h.sc
  simp only at hsc
  subst hsc
  exact { h with sc := rfl, sb := h.sb, own := h.own, nodup := h.nodup, pos := by rw [List.append_nil]; exact hr,
                 sel := h.sel, lastId := h.lastId }

theorem sbUpLoop_last {n e : Nat} {p : PScreen} (hp : p.pos = none) (hl : p.last = some e) :
    sbUpLoop (n + 1) p = sbUpLoop n { p with pos := some e, sc := { p.sc with sbPosNum := pred32 p.sc.sbCount } } := by
  rw [sbUpLoop]
  generalize pred32 p.sc.sbCount = k
  split
  · rename_i hq; rw [hp] at hq; cases hq
  · split
    · rename_i hq; rw [hl] at hq; cases hq
    · rename_i hq; rw [hl] at hq; cases hq; rfl

theorem Rel.sbUpLoop : ∀ {n : Nat} {p : PScreen} {s : Screen}, Rel p s →
    Sim (sbUpLoop n p) (Screen.sbUpLoop n s)
  | 0, _, _, h => .ok h
  | n + 1, p, s, h => by
    intro s' hs
    rw [Screen.sbUpLoop] at hs
    obtain ⟨z, zm, za, c, r⟩ := h
    have hpos := c.pos
    rw [List.append_nil] at hpos
    have hnum : p.sc.sbPosNum = s.sbPosNum := by rw [c.sc]; rfl
    have hcnt : p.sc.sbCount = s.sbCount := by rw [c.sc]; rfl
    have hrow : ∀ (p' : PScreen) (s' : Screen), p'.main = p.main → p'.alt = p.alt → s'.main = s.main →
        s'.alt = s.alt → Rows p' s' zm za := fun p' s' h1 h2 h3 h4 =>
      ⟨h1.trans r.pmain, h3.trans r.smain, h2.trans r.palt, h4.trans r.salt, r.len⟩
    rcases hp : p.pos with _ | q
    · rw [hp] at hpos
      have hi := hpos.none_iff.1 rfl
      rw [hi] at hs
      dsimp only at hs
      have hl := c.last
      rw [show s.sb.getLast? = z.getLast?.map (·.2) by rw [c.sb, List.getLast?_map]] at hs
      rcases hz : z.getLast? with _ | e
      · rw [hz] at hs hl
        rw [PScreen.sbUpLoop, hp, hl]
        cases hs
        exact ⟨p, rfl, z, zm, za, c, r⟩
      · rw [hz] at hs hl
        rw [sbUpLoop_last hp hl]
        dsimp only [Option.map_some] at hs
        have hk : pred32 p.sc.sbCount = pred32 s.sbCount := by rw [hcnt]
        rw [hk]
        generalize pred32 s.sbCount = k at *
        have hr : Rel { p with pos := some e.1, sc := { p.sc with sbPosNum := k } }
            { s with sbPos := some e.2.sbId, sbPosNum := k } :=
          ⟨z, zm, za, c.setPos (q := some e.1) (i := some e.2.sbId) ⟨e, List.mem_of_getLast? hz, rfl, rfl⟩ k,
            hrow _ _ rfl rfl rfl rfl⟩
        exact Rel.sbUpLoop hr s' hs
    · rw [hp] at hpos
      rw [PScreen.sbUpLoop, hp]
      rcases hi : s.sbPos with _ | i
      · rw [hi] at hpos; exact absurd hpos (by simp [Ref])
      rw [hi] at hpos hs
      dsimp only at hs ⊢
      obtain ⟨u, x, t, hz, rfl, rfl⟩ := hpos.split
      have hx : x ∈ z := by rw [hz]; simp
      have hprev : Screen.prevId none s.sb x.2.sbId = some (((u.map (·.2)).getLast?.map Line.sbId).or none) := by
        rw [c.sb, hz, List.map_append, List.map_cons]
        refine prevId_split none ?_
        rw [← List.map_cons, ← List.map_append, ← hz, ← c.sb]
        exact c.sbIds
      rw [hprev, Option.or_none, List.getLast?_map] at hs
      rw [read_ok (c.liveZ hx)]
      simp only [bind, Except.bind]
      have ho := c.seg
      rw [hz] at ho
      rw [ho.split, Option.or_none]
      rcases hu : u.getLast? with _ | e
      · rw [hu] at hs
        cases hs
        exact ⟨p, rfl, z, zm, za, c, r⟩
      · rw [hu] at hs
        dsimp only [Option.map_some] at hs ⊢
        rw [hnum]
        generalize pred32 s.sbPosNum = k at *
        have hr : Rel { p with pos := some e.1, sc := { p.sc with sbPosNum := k } }
            { s with sbPos := some e.2.sbId, sbPosNum := k } :=
          ⟨z, zm, za, c.setPos (q := some e.1) (i := some e.2.sbId)
            ⟨e, by rw [hz]; exact List.mem_append_left _ (List.mem_of_getLast? hu), rfl, rfl⟩ k,
            hrow _ _ rfl rfl rfl rfl⟩
        exact Rel.sbUpLoop hr s' hs

theorem Rel.sbDownLoop : ∀ {n : Nat} {p : PScreen} {s : Screen}, Rel p s →
    Sim (sbDownLoop n p) (Screen.sbDownLoop n s)
  | 0, _, _, h => .ok h
  | n + 1, p, s, h => by
    intro s' hs
    rw [Screen.sbDownLoop] at hs
    rw [PScreen.sbDownLoop]
    obtain ⟨z, zm, za, c, r⟩ := h
    have hpos := c.pos
    rw [List.append_nil] at hpos
    have hnum : p.sc.sbPosNum = s.sbPosNum := by rw [c.sc]; rfl
    have hrow : ∀ (p' : PScreen) (s' : Screen), p'.main = p.main → p'.alt = p.alt → s'.main = s.main →
        s'.alt = s.alt → Rows p' s' zm za := fun p' s' h1 h2 h3 h4 =>
      ⟨h1.trans r.pmain, h3.trans r.smain, h2.trans r.palt, h4.trans r.salt, r.len⟩
    rcases hp : p.pos with _ | q
    · rw [hp] at hpos
      have hi := hpos.none_iff.1 rfl
      rw [hi] at hs
      cases hs
      exact ⟨p, rfl, z, zm, za, c, r⟩
    · rw [hp] at hpos
      rcases hi : s.sbPos with _ | i
      · rw [hi] at hpos; exact absurd hpos (by simp [Ref])
      rw [hi] at hpos hs
      dsimp only at hs ⊢
      obtain ⟨u, x, t, hz, rfl, rfl⟩ := hpos.split
      have hx : x ∈ z := by rw [hz]; simp
      have hnext : Screen.nextId s.sb x.2.sbId = some ((t.map (·.2)).head?.map Line.sbId) := by
        rw [c.sb, hz, List.map_append, List.map_cons]
        refine nextId_split ?_
        rw [← List.map_cons, ← List.map_append, ← hz, ← c.sb]
        exact c.sbIds
      rw [hnext] at hs
      rw [read_ok (c.liveZ hx)]
      simp only [bind, Except.bind]
      have ho := c.seg
      rw [hz] at ho
      rw [ho.split]
      dsimp only at hs ⊢
      rw [hnum]
      generalize u32 (s.sbPosNum + 1) = k at *
      have hr : Rel { p with pos := t.head?.map (·.1), sc := { p.sc with sbPosNum := k } }
          { s with sbPos := (t.map (·.2)).head?.map Line.sbId, sbPosNum := k } :=
        ⟨z, zm, za, c.setPos (Ref.head.mono fun e he => by
            rw [hz]; exact List.mem_append_right _ (List.mem_cons_of_mem _ he)) k,
          hrow _ _ rfl rfl rfl rfl⟩
      exact Rel.sbDownLoop hr s' hs

theorem Rel.sbUp {p : PScreen} {s : Screen} (h : Rel p s) (n : Nat) : Sim (p.sbUp n) (s.sbUp n) := by
  unfold PScreen.sbUp Screen.sbUp
  exact .ite Iff.rfl (fun _ => .ok h) (fun _ => h.incTouch.sbUpLoop)

theorem Rel.sbDown {p : PScreen} {s : Screen} (h : Rel p s) (n : Nat) : Sim (p.sbDown n) (s.sbDown n) := by
  unfold PScreen.sbDown Screen.sbDown
  exact .ite Iff.rfl (fun _ => .ok h) (fun _ => h.incTouch.sbDownLoop)

theorem Rel.sbPageUp {p : PScreen} {s : Screen} (h : Rel p s) (n : Nat) : Sim (p.sbPageUp n) (s.sbPageUp n) := by
  unfold PScreen.sbPageUp Screen.sbPageUp
  rw [show p.sc.sizeY = s.sizeY by rw [h.sc]; rfl]
  exact .ite Iff.rfl (fun _ => .ok h) (fun _ => h.incAge.sbUp _)

theorem Rel.sbPageDown {p : PScreen} {s : Screen} (h : Rel p s) (n : Nat) : Sim (p.sbPageDown n) (s.sbPageDown n) := by
  unfold PScreen.sbPageDown Screen.sbPageDown
  rw [show p.sc.sizeY = s.sizeY by rw [h.sc]; rfl]
  exact .ite Iff.rfl (fun _ => .ok h) (fun _ => h.incAge.sbDown _)

theorem Rel.sbReset {p : PScreen} {s : Screen} (h : Rel p s) : Rel p.sbReset s.sbReset := by
  unfold PScreen.sbReset Screen.sbReset
  have hn : p.pos = none ↔ s.sbPos = none := by
    obtain ⟨z, zm, za, c, r⟩ := h
    exact c.pos.none_iff
  by_cases hp : s.sbPos = none
  · rw [if_pos hp, if_pos (hn.2 hp)]; exact h
  · rw [if_neg hp, if_neg (fun hh => hp (hn.1 hh))]
    have h := h.incTouch
    obtain ⟨z, zm, za, c, r⟩ := h
    exact ⟨z, zm, za, c.setPos (q := none) (i := none) trivial 0, ⟨r.pmain, r.smain, r.palt, r.salt, r.len⟩⟩

/-- Freeing all lines of the scrollback. -/
theorem freeSb_ok {X : List (Nat × Line)} : ∀ {z : List (Nat × Line)} {q : Option Nat} {h : Heap} {n : Nat},
    Seg h.obj q z → h.live.Perm ((X ++ z).map (·.1)) → z.length ≤ n →
    ∃ lv, freeSb n (z.head?.map (·.1)) h = .ok { h with live := lv } ∧ lv.Perm (X.map (·.1))
  | [], _, h, n, _, hp, _ => by
    refine ⟨h.live, ?_, by simpa using hp⟩
    cases n <;> rfl
  | e :: z, q, h, n, hs, hp, hn => by
    cases n with
    | zero => exact absurd hn (by simp)
    | succ n =>
      have hlive : e.1 ∈ h.live := hp.mem_iff.2 (by simp)
      show ∃ lv, (h.read e.1 >>= fun o => h.free e.1 >>= fun h => freeSb n o.next h) = _ ∧ _
      rw [read_ok hlive, free_ok hlive]
      show ∃ lv, freeSb n (h.obj e.1).next { h with live := h.live.erase e.1 } = _ ∧ _
      rw [hs.1]
      have hp' : (h.live.erase e.1).Perm ((X ++ z).map (·.1)) := by
        have h2 : ((X ++ e :: z).map (·.1)).Perm (e.1 :: (X ++ z).map (·.1)) := by
          rw [← List.map_cons (f := Prod.fst)]
          exact List.Perm.map _ List.perm_middle
        refine ((hp.trans h2).erase e.1).trans ?_
        rw [List.erase_cons_head]
      exact freeSb_ok (z := z) (h := { h with live := h.live.erase e.1 }) hs.2 hp' (by simpa using hn)

theorem Rel.clearSb {p : PScreen} {s : Screen} (h : Rel p s) : ∃ p', p.clearSb = .ok p' ∧ Rel p' s.clearSb := by
  unfold PScreen.clearSb Screen.clearSb
  have h := h.incTouch
  generalize (p.onSc fun s => s.incAge.touch) = p at *
  generalize s.incAge.touch = s at *
  obtain ⟨z, zm, za, c, r⟩ := h
  dsimp only
  obtain ⟨lv, e1, e2⟩ := freeSb_ok (z := z) (n := p.heap.live.length) c.seg c.own (by
    rw [c.own.length_eq, List.length_map, List.length_append]; omega)
  rw [← c.first] at e1
  rw [e1]
  obtain ⟨sc, heap, al, main, alt, first, last, pos, selS, selE⟩ := p
  have hsc := c.sc
  simp only at hsc
  subst hsc
  simp only [bind, Except.bind]
  have hcore : ∀ (a b : Int), Core
      ⟨{ bare s with
          sbCount := 0, sbPosNum := 0, selStart := { (bare s).selStart with y := a }
          selEnd := { (bare s).selEnd with y := b } },
        ⟨lv, heap.obj⟩, al, main, alt, none, none, none, none, none⟩
      { s with
        sb := [], sbCount := 0, sbPos := none, sbPosNum := 0
        selStart := ⟨none, s.selStart.x, a⟩, selEnd := ⟨none, s.selEnd.x, b⟩ } [] (zm ++ za) [] := by
    intro a b
    refine
      { sc := rfl, sb := rfl, own := by simpa using e2, nodup := e2.nodup_iff.2 c.ndx, obj := c.obj, seg := trivial
        first := rfl, last := rfl, pos := trivial, sel := fun _ => ⟨trivial, trivial⟩, ids := .nil
        lastId := fun _ hh => by cases hh }
  have hrows : ∀ (p' : PScreen) (s' : Screen), p'.main = main → p'.alt = alt → s'.main = s.main →
        s'.alt = s.alt → Rows p' s' zm za := fun p' s' h1 h2 h3 h4 =>
      ⟨h1.trans r.pmain, h3.trans r.smain, h2.trans r.palt, h4.trans r.salt, r.len⟩
  by_cases ha : s.selActive = true
  · rw [if_pos (show (bare s).selActive = true from ha), if_pos ha, if_pos ha]
    obtain ⟨w1, w2⟩ := c.sel ha
    have n1 : selS = none ↔ s.selStart.line = none := w1.none_iff
    have n2 : selE = none ↔ s.selEnd.line = none := w2.none_iff
    have hcl : ∀ sp : SelPos, Screen.clearSel sp = ⟨none, sp.x, if sp.line = none then sp.y else -1⟩ := by
      intro sp
      obtain ⟨l, x, y⟩ := sp
      unfold Screen.clearSel
      cases l <;> rfl
    rw [hcl, hcl]
    refine ⟨⟨{ bare s with
          sbCount := 0, sbPosNum := 0
          selStart := { (bare s).selStart with y := if s.selStart.line = none then s.selStart.y else -1 }
          selEnd := { (bare s).selEnd with y := if s.selEnd.line = none then s.selEnd.y else -1 } },
        ⟨lv, heap.obj⟩, al, main, alt, none, none, none, none, none⟩, ?_, [], zm, za, hcore _ _,
        hrows _ _ rfl rfl rfl rfl⟩
    have y1 : (bare s).selStart.y = s.selStart.y := rfl
    have y2 : (bare s).selEnd.y = s.selEnd.y := rfl
    by_cases d1 : s.selStart.line = none <;> by_cases d2 : s.selEnd.line = none
    · cases n1.2 d1; cases n2.2 d2
      rw [if_pos d1, if_pos d2]; rfl
    · cases n1.2 d1
      rw [if_pos d1, if_neg d2]
      rcases selE with _ | b
      · exact absurd (n2.1 rfl) d2
      · rfl
    · cases n2.2 d2
      rw [if_neg d1, if_pos d2]
      rcases selS with _ | b
      · exact absurd (n1.1 rfl) d1
      · rfl
    · rw [if_neg d1, if_neg d2]
      rcases selS with _ | b
      · exact absurd (n1.1 rfl) d1
      rcases selE with _ | b
      · exact absurd (n2.1 rfl) d2
      · rfl
  · rw [if_neg (show ¬ (bare s).selActive = true from ha), if_neg ha, if_neg ha]
    refine ⟨_, rfl, [], zm, za, ?_, hrows _ _ rfl rfl rfl rfl⟩
    refine
      { sc := rfl, sb := rfl, own := by simpa using e2, nodup := e2.nodup_iff.2 c.ndx, obj := c.obj, seg := trivial
        first := rfl, last := rfl, pos := trivial, sel := fun hh => absurd hh ha, ids := .nil
        lastId := fun _ hh => by cases hh }

end PScreen
end Verif
