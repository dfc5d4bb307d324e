import Verif.Proofs.Heap.Resize

/-!
# Selecting and drawing with pointers
-/

namespace Verif
namespace PScreen

/-- The lines from a pointer into the scrollback on. -/
theorem Core.from {p : PScreen} {s : Screen} {z X : List (Nat × Line)} (c : Core p s z X []) :
    ∃ u t, z = u ++ t ∧ p.pos = t.head?.map (·.1) ∧ Screen.sbFrom s.sb s.sbPos = t.map (·.2) := by
  have hpos := c.pos
  rw [List.append_nil] at hpos
  rcases hp : p.pos with _ | q
  · rw [hp] at hpos
    rw [hpos.none_iff.1 rfl]
    exact ⟨z, [], by simp, rfl, rfl⟩
  · rw [hp] at hpos
    rcases hi : s.sbPos with _ | i
    · rw [hi] at hpos; exact absurd hpos (by simp [Ref])
    rw [hi] at hpos
    obtain ⟨u, x, t, hz, rfl, rfl⟩ := hpos.split
    refine ⟨u, x :: t, hz, rfl, ?_⟩
    rw [c.sb, hz, List.map_append, List.map_cons]
    refine sbFrom_split ?_
    rw [← List.map_cons, ← List.map_append, ← hz, ← c.sb]
    exact c.sbIds

theorem selWalk_ok {h : Heap} {z : List (Nat × Line)} (hz : Seg h.obj none z) (hl : ∀ e ∈ z, e.1 ∈ h.live) :
    ∀ (y : Nat) {u t : List (Nat × Line)}, z = u ++ t →
      ∃ v w, z = v ++ w ∧ selWalk h y (t.head?.map (·.1)) = .ok ((Screen.selWalk y (t.map (·.2))).1, w.head?.map (·.1)) ∧
        (Screen.selWalk y (t.map (·.2))).2 = w.map (·.2)
  | 0, u, t, ht => ⟨u, t, ht, rfl, rfl⟩
  | y + 1, u, [], ht => ⟨u, [], ht, rfl, rfl⟩
  | y + 1, u, e :: t, ht => by
    obtain ⟨v, w, h1, h2, h3⟩ := selWalk_ok hz hl y (u := u ++ [e]) (t := t) (by rw [ht]; simp)
    refine ⟨v, w, h1, ?_, h3⟩
    show (h.read e.1 >>= fun o => selWalk h y o.next) = _
    rw [read_ok (hl e (by rw [ht]; simp))]
    show selWalk h y (h.obj e.1).next = _
    rw [hz.next ht]
    exact h2

theorem Core.selSet {p : PScreen} {s : Screen} {z X : List (Nat × Line)} (c : Core p s z X []) (x y : Nat) :
    ∃ q n, selWalk p.heap y p.pos = .ok (n, q) ∧ s.selSet x y = ⟨(s.selSet x y).line, x, Screen.toI32 n⟩ ∧
      Ref z q (s.selSet x y).line := by
  obtain ⟨u, t, h1, h2, h3⟩ := c.from
  obtain ⟨v, w, g1, g2, g3⟩ := selWalk_ok c.seg (fun e he => c.liveZ he) y h1
  rw [← h2, ← h3] at g2
  refine ⟨_, _, g2, rfl, ?_⟩
  unfold Screen.selSet
  dsimp only
  rw [h3, g3]
  refine Ref.head.mono ?_
  intro e he
  rw [g1]
  exact List.mem_append_right _ he

theorem Rel.selectionStart {p : PScreen} {s : Screen} (h : Rel p s) (x y : Nat) :
    ∃ p', p.selectionStart x y = .ok p' ∧ Rel p' (s.selectionStart x y) := by
  unfold PScreen.selectionStart Screen.selectionStart
  have h' := h.incTouch
  obtain ⟨z, zm, za, c, r⟩ := h
  obtain ⟨q, n, e1, e2, e3⟩ := c.selSet x y
  rw [e1]
  refine ⟨_, rfl, ?_⟩
  have hsc := h'.sc
  have hsc : p.sc.incAge.touch = bare s.incAge.touch := hsc
  dsimp only
  rw [hsc]
  have hk : s.incAge.touch.sb = s.sb ∧ s.incAge.touch.sbPos = s.sbPos ∧ s.incAge.touch.sbLastId = s.sbLastId ∧
      s.incAge.touch.main = s.main ∧ s.incAge.touch.alt = s.alt := by
    rw [Screen.incAge_eq]; exact ⟨rfl, rfl, rfl, rfl, rfl⟩
  obtain ⟨k1, k2, k3, k4, k5⟩ := hk
  generalize s.incAge.touch = s1 at *
  generalize s.selSet x y = sp at *
  obtain ⟨l, x', y'⟩ := sp
  cases e2
  refine ⟨z, zm, za, ?_, ⟨r.pmain, k4.trans r.smain, r.palt, k5.trans r.salt, r.len⟩⟩
  exact { c with
    sc := rfl, sb := k1.trans c.sb, own := c.own, nodup := c.nodup, obj := c.obj, seg := c.seg, first := c.first
    last := c.last
    pos := by show Ref _ p.pos s1.sbPos; rw [k2]; exact c.pos
    sel := fun _ => ⟨e3, e3⟩
    lastId := fun e he => by show _ ≤ s1.sbLastId; rw [k3]; exact c.lastId e he }

theorem Rel.selectionTarget {p : PScreen} {s : Screen} (h : Rel p s) (x y : Nat) :
    ∃ p', p.selectionTarget x y = .ok p' ∧ Rel p' (s.selectionTarget x y) := by
  unfold PScreen.selectionTarget Screen.selectionTarget
  have ha : p.sc.selActive = s.selActive := by rw [h.sc]; rfl
  by_cases hs : s.selActive = true
  · rw [if_pos hs, if_pos (ha.trans hs)]
    have h' := h.incTouch
    obtain ⟨z, zm, za, c, r⟩ := h
    obtain ⟨q, n, e1, e2, e3⟩ := c.selSet x y
    rw [e1]
    refine ⟨_, rfl, ?_⟩
    have hsc := h'.sc
    have hsc : p.sc.incAge.touch = bare s.incAge.touch := hsc
    dsimp only
    rw [hsc]
    have hk : s.incAge.touch.sb = s.sb ∧ s.incAge.touch.sbPos = s.sbPos ∧ s.incAge.touch.sbLastId = s.sbLastId ∧
        s.incAge.touch.main = s.main ∧ s.incAge.touch.alt = s.alt ∧ s.incAge.touch.selStart = s.selStart := by
      rw [Screen.incAge_eq]; exact ⟨rfl, rfl, rfl, rfl, rfl, rfl⟩
    obtain ⟨k1, k2, k3, k4, k5, k6⟩ := hk
    generalize s.incAge.touch = s1 at *
    generalize s.selSet x y = sp at *
    obtain ⟨l, x', y'⟩ := sp
    cases e2
    refine ⟨z, zm, za, ?_, ⟨r.pmain, k4.trans r.smain, r.palt, k5.trans r.salt, r.len⟩⟩
    exact { c with
      sc := rfl, sb := k1.trans c.sb, own := c.own, nodup := c.nodup, obj := c.obj, seg := c.seg, first := c.first
      last := c.last
      pos := by show Ref _ p.pos s1.sbPos; rw [k2]; exact c.pos
      sel := fun _ => ⟨by show Ref _ p.selS s1.selStart.line; rw [k6]; exact (c.sel hs).1, e3⟩
      lastId := fun e he => by show _ ≤ s1.sbLastId; rw [k3]; exact c.lastId e he }
  · rw [if_neg hs, if_neg (by rw [ha]; exact hs)]
    exact ⟨p, rfl, h⟩

theorem Rel.selectionReset {p : PScreen} {s : Screen} (h : Rel p s) : Rel (p.onSc Screen.selectionReset) s.selectionReset := by
  have h' := h.incTouch
  exact h'.onSc (fun s => { s with selActive := false }) (fun s => { s with selActive := false }) rfl rfl rfl
    (fun h => by cases h) rfl rfl rfl

/-! ### Drawing -/

theorem Core.above {p : PScreen} {s : Screen} {z X : List (Nat × Line)} (c : Core p s z X []) {q : Option Nat}
    {sp : SelPos} (hr : Ref z q sp.line) : p.selAbove q sp.y = .ok (Screen.selAbove s.sbPos sp) := by
  obtain ⟨l, x, y⟩ := sp
  unfold PScreen.selAbove Screen.selAbove
  have hpos := c.pos
  rw [List.append_nil] at hpos
  dsimp only at hr ⊢
  rcases q with _ | a
  · have := hr.none_iff.1 rfl
    subst this
    rfl
  rcases l with _ | i
  · exact absurd hr (by simp [Ref])
  rcases hp : p.pos with _ | t
  · rw [hp] at hpos
    rw [hpos.none_iff.1 rfl]
  · rw [hp] at hpos
    rcases hi : s.sbPos with _ | j
    · rw [hi] at hpos; exact absurd hpos (by simp [Ref])
    rw [hi] at hpos
    obtain ⟨e, he, rfl, rfl⟩ := hr
    obtain ⟨f, hf, rfl, rfl⟩ := hpos
    dsimp only
    rw [read_ok (c.liveZ he), read_ok (c.liveZ hf)]
    show Except.ok (decide ((p.heap.obj e.1).line.sbId < (p.heap.obj f.1).line.sbId)) = _
    rw [c.seg.line e he, c.seg.line f hf]

/-- The test whether a line of the scrollback holds an endpoint of the selection. -/
theorem Core.selRow_sb {p : PScreen} {s : Screen} {z X : List (Nat × Line)} (c : Core p s z X []) {q : Option Nat}
    {sp : SelPos} (hr : Ref z q sp.line) {e : Nat × Line} (he : e ∈ z) (k : Nat) :
    selRow e.1 k q sp.y = Screen.selRow (some e.2.sbId) k sp := by
  obtain ⟨l, x, y⟩ := sp
  have := c.ref_eq hr he
  unfold selRow Screen.selRow
  dsimp only at hr this ⊢
  rcases q with _ | a
  · have := hr.none_iff.1 rfl
    subst this
    rfl
  rcases l with _ | i
  · exact absurd hr (by simp [Ref])
  dsimp only
  rw [decide_eq_decide]
  constructor
  · intro hh; exact (this.1 (congrArg some hh)).symm
  · intro hh; exact Option.some.inj (this.2 hh.symm)

theorem Core.selRow_live {p : PScreen} {s : Screen} {z X : List (Nat × Line)} (c : Core p s z X []) {q : Option Nat}
    {sp : SelPos} (hr : Ref z q sp.line) {e : Nat × Line} (he : e ∈ X) (k : Nat) :
    selRow e.1 k q sp.y = Screen.selRow none k sp := by
  obtain ⟨l, x, y⟩ := sp
  unfold selRow Screen.selRow
  dsimp only at hr ⊢
  rcases q with _ | a
  · have := hr.none_iff.1 rfl
    subst this
    rfl
  rcases l with _ | i
  · exact absurd hr (by simp [Ref])
  obtain ⟨f, hf, rfl, rfl⟩ := hr
  dsimp only
  rw [decide_eq_decide]
  constructor
  · intro hh; exact absurd hh.symm (c.disj he hf)
  · intro hh; cases hh

theorem drawCols_bare {s : Screen} {l : Line} {k i : Nat} {rs re : Bool} : ∀ (n j : Nat) (q : Screen.SelSt),
    (bare s).drawCols l k i rs re n j q = s.drawCols l k i rs re n j q
  | 0, _, _ => rfl
  | n + 1, j, q => by
    rw [Screen.drawCols, Screen.drawCols]
    have h : (bare s).drawCell l k i j rs re q = s.drawCell l k i j rs re q := rfl
    rw [h]
    dsimp only
    rw [drawCols_bare n]

theorem Core.drawRows {p : PScreen} {s : Screen} {z L W : List (Nat × Line)} (c : Core p s z (L ++ W) [])
    (hp : p.lines = L.map (·.1)) (hs : s.lines = L.map (·.2)) : ∀ (n i : Nat) {u t : List (Nat × Line)} (k : Nat)
    (q : Screen.SelSt), z = u ++ t → p.drawRows n i (t.head?.map (·.1)) k q = s.drawRows n i (t.map (·.2)) k q
  | 0, _, _, _, _, _, _ => rfl
  | n + 1, i, u, t, k, q, ht => by
    have ha : p.sc.selActive = s.selActive := by rw [c.sc]; rfl
    have hx : p.sc.sizeX = s.sizeX := by rw [c.sc]; rfl
    have hy1 : p.sc.selStart.y = s.selStart.y := by rw [c.sc]; rfl
    have hy2 : p.sc.selEnd.y = s.selEnd.y := by rw [c.sc]; rfl
    cases t with
    | cons e t =>
      have he : e ∈ z := by rw [ht]; simp
      show (p.heap.read e.1 >>= fun o => _) = _
      rw [read_ok (c.liveZ he)]
      simp only [Screen.drawRows, bind, Except.bind, List.map_cons, ha, hx, hy1, hy2]
      rw [c.seg.line e he, c.seg.next ht]
      have hsel : (s.selActive && selRow e.1 k p.selS s.selStart.y) =
          (s.selActive && Screen.selRow (some e.2.sbId) k s.selStart) ∧
          (s.selActive && selRow e.1 k p.selE s.selEnd.y) =
          (s.selActive && Screen.selRow (some e.2.sbId) k s.selEnd) := by
        cases hsa : s.selActive with
        | false => exact ⟨rfl, rfl⟩
        | true => rw [c.selRow_sb (c.sel hsa).1 he, c.selRow_sb (c.sel hsa).2 he]; exact ⟨rfl, rfl⟩
      rw [hsel.1, hsel.2, c.sc]
      simp only [drawCols_bare]
      rw [Core.drawRows c hp hs n (i + 1) (u := u ++ [e]) (t := t) k _ (by rw [ht]; simp)]
    | nil =>
      simp only [List.map_nil, Screen.drawRows]
      show (match p.lines[k]? with | none => _ | some a => _) = _
      rw [hp, hs, List.getElem?_map, List.getElem?_map]
      rcases hL : L[k]? with _ | e
      · rfl
      · have he : e ∈ L ++ W := List.mem_append_left _ (List.mem_of_getElem? hL)
        simp only [Option.map_some]
        rw [read_ok (c.liveX he)]
        simp only [bind, Except.bind, ha, hx, hy1, hy2]
        rw [c.obj e he]
        have hsel : (s.selActive && selRow e.1 (k + 1) p.selS s.selStart.y) =
            (s.selActive && Screen.selRow none (k + 1) s.selStart) ∧
            (s.selActive && selRow e.1 (k + 1) p.selE s.selEnd.y) =
            (s.selActive && Screen.selRow none (k + 1) s.selEnd) := by
          cases hsa : s.selActive with
          | false => exact ⟨rfl, rfl⟩
          | true => rw [c.selRow_live (c.sel hsa).1 he, c.selRow_live (c.sel hsa).2 he]; exact ⟨rfl, rfl⟩
        rw [hsel.1, hsel.2, c.sc]
        simp only [drawCols_bare]
        have := Core.drawRows c hp hs n (i + 1) (u := u) (t := []) (k + 1)
        simp only [List.head?_nil, Option.map_none, List.map_nil] at this
        rw [this _ ht]

/-- The picture is the same, and the screens stay related. -/
theorem Rel.draw {p : PScreen} {s s' : Screen} (h : Rel p s) {cs : List Screen.DrawCall} {age : Nat}
    (e : s.draw = .ok (cs, age, s')) : ∃ p', p.draw = .ok (cs, age, p') ∧ Rel p' s' := by
  have h0 := h
  obtain ⟨z, zm, za, c, r⟩ := h
  obtain ⟨L, W, hp, hpl, hsl, _⟩ := r.cur (by rw [c.sc]; rfl)
  have c' := c.perm hp
  unfold Screen.draw at e
  unfold PScreen.draw
  have hin : (if p.sc.selActive then do
      let a ← p.selAbove p.selS p.sc.selStart.y
      let b ← p.selAbove p.selE p.sc.selEnd.y
      return xor a b
    else .ok false : Verif.R Bool) = .ok s.drawInSel := by
    have ha : p.sc.selActive = s.selActive := by rw [c.sc]; rfl
    unfold Screen.drawInSel
    by_cases hs : s.selActive = true
    · rw [if_pos hs, if_pos (ha.trans hs), show p.sc.selStart.y = s.selStart.y by rw [c.sc]; rfl,
        show p.sc.selEnd.y = s.selEnd.y by rw [c.sc]; rfl, c.above (c.sel hs).1, c.above (c.sel hs).2]
      rfl
    · rw [if_neg hs, if_neg (by rw [ha]; exact hs)]
  rw [hin]
  obtain ⟨u, t, h1, h2, h3⟩ := c.from
  have hd := c'.drawRows hpl hsl s.sizeY 0 0 ⟨s.drawInSel, false⟩ h1
  rw [← h2, ← h3] at hd
  show ∃ p', (p.drawRows p.sc.sizeY 0 p.pos 0 ⟨s.drawInSel, false⟩ >>= _) = _ ∧ _
  rw [show p.sc.sizeY = s.sizeY by rw [c.sc]; rfl, hd]
  rcases hr : s.drawRows s.sizeY 0 (Screen.sbFrom s.sb s.sbPos) 0 ⟨s.drawInSel, false⟩ with er | cs'
  · rw [hr] at e; cases e
  rw [hr] at e
  have e : _ = Except.ok (cs, age, s') := e
  have e := Except.ok.inj e
  have hag : p.sc.ageReset = s.ageReset := by rw [c.sc]; rfl
  have hcn : p.sc.ageCnt = s.ageCnt := by rw [c.sc]; rfl
  refine ⟨(if p.sc.ageReset then (cs', 0, p.onSc fun s => { s with ageReset := false })
    else (cs', p.sc.ageCnt, p) : _ × Nat × PScreen).2.2, ?_, ?_⟩
  · show Except.ok _ = _
    by_cases ha : s.ageReset = true
    · rw [if_pos ha] at e
      rw [if_pos (hag.trans ha)]
      cases e
      rfl
    · rw [if_neg ha] at e
      rw [if_neg (by rw [hag]; exact ha), hcn]
      cases e
      rfl
  · by_cases ha : s.ageReset = true
    · rw [if_pos ha] at e
      rw [if_pos (hag.trans ha)]
      cases e
      exact h0.onSc (fun s => { s with ageReset := false }) (fun s => { s with ageReset := false }) rfl rfl rfl
        (fun h => ⟨h, rfl, rfl⟩) rfl rfl rfl
    · rw [if_neg ha] at e
      rw [if_neg (by rw [hag]; exact ha)]
      cases e
      exact h0

end PScreen
end Verif
