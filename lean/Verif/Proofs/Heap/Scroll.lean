import Verif.Proofs.Heap.Local

/-!
# Scrolling with pointers
-/

namespace Verif
namespace PScreen

open Screen (memmove memcpy)

/-! ### Moving entries of an array -/

theorem bind_three {α β γ : Type} (x : R α) (f : α → R β) (g : β → R γ) :
    ((x >>= f) >>= g) = (x >>= fun a => f a >>= g) := by
  cases x <;> rfl

theorem memmove_map {α β : Type} (f : α → β) {k : UB} {l : List α} {d s n : Nat} :
    memmove k (l.map f) d s n = (memmove k l d s n).map (List.map f) := by
  unfold memmove
  rw [List.length_map]
  split
  · show Except.ok _ = Except.ok _
    rw [List.map_append, List.map_append, List.map_take, List.map_take, List.map_drop, List.map_drop]
  · rfl

theorem memcpy_map {α β : Type} (f : α → β) {k : UB} {l ys : List α} {d : Nat} :
    memcpy k (l.map f) d (ys.map f) = (memcpy k l d ys).map (List.map f) := by
  unfold memcpy
  rw [List.length_map, List.length_map]
  split
  · show Except.ok _ = Except.ok _
    rw [List.map_append, List.map_append, List.map_take, List.map_drop]
  · rfl

/-- The entries of `L` from `t` on are moved up by `num`, and `C` is put after them. -/
def shiftUp {α : Type} (L C : List α) (t max num : Nat) : R (List α) := do
  let M ← (if num < max then memmove .oobLine L t (t + num) (max - num) else .ok L : R (List α))
  memcpy .oobLine M (t + (max - num)) C

/-- The entries of `L` from `t` on are moved down by `num`, and `C` is put before them. -/
def shiftDown {α : Type} (L C : List α) (t max num : Nat) : R (List α) := do
  let M ← (if num < max then memmove .oobLine L (t + num) t (max - num) else .ok L : R (List α))
  memcpy .oobLine M t C

theorem shiftUp_map {α β : Type} (f : α → β) {L C : List α} {t max num : Nat} :
    shiftUp (L.map f) (C.map f) t max num = (shiftUp L C t max num).map (List.map f) := by
  unfold shiftUp
  by_cases h : num < max
  · rw [if_pos h, if_pos h, memmove_map]
    cases memmove .oobLine L t (t + num) (max - num) with
    | error e => rfl
    | ok M => exact memcpy_map f
  · rw [if_neg h, if_neg h]
    exact memcpy_map f

theorem shiftDown_map {α β : Type} (f : α → β) {L C : List α} {t max num : Nat} :
    shiftDown (L.map f) (C.map f) t max num = (shiftDown L C t max num).map (List.map f) := by
  unfold shiftDown
  by_cases h : num < max
  · rw [if_pos h, if_pos h, memmove_map]
    cases memmove .oobLine L (t + num) t (max - num) with
    | error e => rfl
    | ok M => exact memcpy_map f
  · rw [if_neg h, if_neg h]
    exact memcpy_map f

theorem drop_add_left {α : Type} {U D : List α} {k n : Nat} (h : U.length = k) : (U ++ D).drop (k + n) = D.drop n := by
  subst h
  rw [← List.drop_drop, List.drop_left]

theorem shiftUp_perm {α : Type} {L C R : List α} {t max num : Nat} (hC : C.length = num) (hle : num ≤ max)
    (h : shiftUp L C t max num = .ok R) :
    R.Perm (C ++ (L.take t ++ L.drop (t + num))) ∧ R.length = L.length := by
  unfold shiftUp at h
  by_cases hlt : num < max
  · rw [if_pos hlt] at h
    unfold memmove at h
    split at h
    · rename_i hb
      obtain ⟨hb1, hb2⟩ := hb
      have h : memcpy .oobLine (L.take t ++ (L.drop (t + num)).take (max - num) ++ L.drop (t + (max - num)))
        (t + (max - num)) C = .ok R := h
      unfold memcpy at h
      split at h
      · have hl1 : (L.take t ++ (L.drop (t + num)).take (max - num)).length = t + (max - num) := by
          rw [List.length_append, List.length_take, List.length_take, List.length_drop]; omega
        rw [List.take_left' hl1, hC] at h
        rw [drop_add_left hl1, List.drop_drop] at h
        rw [show t + (max - num) + num = t + num + (max - num) by omega] at h
        cases h
        have hd : L.drop (t + num) = (L.drop (t + num)).take (max - num) ++ L.drop (t + num + (max - num)) := by
          rw [← List.drop_drop (i := max - num), List.take_append_drop]
        constructor
        · rw [hd, List.take_append_of_le_length (by rw [List.length_take, List.length_drop]; omega), List.take_take,
            Nat.min_self]
          generalize L.take t = A
          generalize (L.drop (t + num)).take (max - num) = B
          generalize L.drop _ = D
          have p1 : (A ++ B ++ C ++ D).Perm (C ++ (A ++ B) ++ D) := List.Perm.append_right _ List.perm_append_comm
          refine p1.trans ?_
          rw [List.append_assoc, List.append_assoc A B D]
        · rw [List.length_append, List.length_append, hl1, hC, List.length_drop]; omega
      · cases h
    · cases h
  · rw [if_neg hlt] at h
    have hm : num = max := by omega
    subst hm
    have h : memcpy .oobLine L (t + (num - num)) C = .ok R := h
    rw [Nat.sub_self, Nat.add_zero] at h
    unfold memcpy at h
    split at h
    · rw [hC] at h
      cases h
      constructor
      · rw [← List.append_assoc]
        exact List.Perm.append_right _ List.perm_append_comm
      · rw [List.length_append, List.length_append, List.length_take, List.length_drop]; omega
    · cases h

theorem shiftDown_perm {α : Type} {L C R : List α} {t max num : Nat} (hC : C.length = num) (hle : num ≤ max)
    (h : shiftDown L C t max num = .ok R) :
    R.Perm (C ++ (L.take (t + (max - num)) ++ L.drop (t + max))) ∧ R.length = L.length ∧ t + num ≤ L.length ∧
      (num < max → t + max ≤ L.length) := by
  unfold shiftDown at h
  by_cases hlt : num < max
  · rw [if_pos hlt] at h
    unfold memmove at h
    split at h
    · rename_i hb
      obtain ⟨hb1, hb2⟩ := hb
      have h : memcpy .oobLine (L.take (t + num) ++ (L.drop t).take (max - num) ++ L.drop (t + num + (max - num)))
        t C = .ok R := h
      unfold memcpy at h
      split at h
      · have hl1 : (L.take (t + num)).length = t + num := by
          rw [List.length_take]; omega
        rw [List.append_assoc (L.take (t + num)), List.take_append_of_le_length (by rw [hl1]; omega), hC,
          List.drop_left' hl1, List.take_take, Nat.min_eq_left (by omega)] at h
        cases h
        rw [show t + num + (max - num) = t + max by omega]
        have hd : L.take (t + (max - num)) = L.take t ++ (L.drop t).take (max - num) := by
          rw [List.take_add]
        constructor
        · rw [hd]
          have p1 : (L.take t ++ C).Perm (C ++ L.take t) := List.perm_append_comm
          refine (p1.append_right _).trans ?_
          rw [List.append_assoc, List.append_assoc]
        · refine ⟨?_, ?_, ?_⟩
          · rw [List.length_append, List.length_append, List.length_append, List.length_take, List.length_take, hC,
              List.length_drop, List.length_drop]
            omega
          · omega
          · omega
      · cases h
    · cases h
  · rw [if_neg hlt] at h
    have hm : num = max := by omega
    subst hm
    have h : memcpy .oobLine L t C = .ok R := h
    unfold memcpy at h
    split at h
    · rw [hC] at h
      cases h
      rw [Nat.sub_self, Nat.add_zero]
      refine ⟨?_, ?_, by omega, by omega⟩
      · rw [← List.append_assoc]
        exact List.Perm.append_right _ List.perm_append_comm
      · rw [List.length_append, List.length_append, List.length_take, List.length_drop]; omega
    · cases h

/-! ### The active buffer -/

/-- The rows of the active buffer, and what replacing them does. -/
theorem Rows.cur {p : PScreen} {s : Screen} {zm za : List (Nat × Line)} (h : Rows p s zm za)
    (hu : p.sc.useAlt = s.useAlt) : ∃ L W, (zm ++ za).Perm (L ++ W) ∧ p.lines = L.map (·.1) ∧ s.lines = L.map (·.2) ∧
      ∀ (p' : PScreen) (s' : Screen) (L' : List (Nat × Line)), p'.main = p.main → p'.alt = p.alt →
        s'.main = s.main → s'.alt = s.alt → p'.sc.useAlt = p.sc.useAlt → s'.useAlt = s.useAlt → L'.length = L.length →
        ∃ zm' za', (L' ++ W).Perm (zm' ++ za') ∧
          Rows (p'.withLines (L'.map (·.1))) (s'.withLines (L'.map (·.2))) zm' za' := by
  by_cases ha : s.useAlt = true
  · refine ⟨za, zm, List.perm_append_comm, ?_, ?_, ?_⟩
    · unfold lines; rw [if_pos (hu.trans ha)]; exact h.palt
    · unfold Screen.lines; rw [if_pos ha]; exact h.salt
    · intro p' s' L' h1 h2 h3 h4 h5 h6 h7
      refine ⟨zm, L', List.perm_append_comm, ?_⟩
      unfold withLines Screen.withLines
      rw [if_pos (h5.trans (hu.trans ha)), if_pos (h6.trans ha)]
      exact ⟨h1.trans h.pmain, h3.trans h.smain, rfl, rfl, h.len.trans h7.symm⟩
  · refine ⟨zm, za, List.Perm.refl _, ?_, ?_, ?_⟩
    · unfold lines; rw [if_neg (by rw [hu]; exact ha)]; exact h.pmain
    · unfold Screen.lines; rw [if_neg ha]; exact h.smain
    · intro p' s' L' h1 h2 h3 h4 h5 h6 h7
      refine ⟨L', za, List.Perm.refl _, ?_⟩
      unfold withLines Screen.withLines
      rw [if_neg (by rw [h5, hu]; exact ha), if_neg (by rw [h6]; exact ha)]
      exact ⟨rfl, rfl, h2.trans h.palt, h4.trans h.salt, h7.trans h.len⟩

theorem Core.withLines {p : PScreen} {s : Screen} {z X ext : List (Nat × Line)} (h : Core p s z X ext)
    (as : List Nat) (ls : List Line) : Core (p.withLines as) (s.withLines ls) z X ext := by
  unfold PScreen.withLines Screen.withLines
  by_cases ha : s.useAlt = true
  · rw [if_pos ha, if_pos (show p.sc.useAlt = true by rw [h.sc]; exact ha)]
    exact { h with sc := h.sc, own := h.own, nodup := h.nodup, pos := h.pos, sel := h.sel }
  · rw [if_neg ha, if_neg (show ¬ p.sc.useAlt = true by rw [h.sc]; exact ha)]
    exact { h with sc := h.sc, own := h.own, nodup := h.nodup, pos := h.pos, sel := h.sel }

/-! ### Scrolling up -/

/-- What moving lines to the scrollback leaves alone. -/
structure Keep (s s' : Screen) : Prop where
  main : s'.main = s.main
  alt : s'.alt = s.alt
  useAlt : s'.useAlt = s.useAlt
  top : s'.marginTop = s.marginTop

theorem Keep.refl (s : Screen) : Keep s s := ⟨rfl, rfl, rfl, rfl⟩

theorem Keep.trans {s t u : Screen} (h : Keep s t) (h' : Keep t u) : Keep s u :=
  ⟨h'.1.trans h.1, h'.2.trans h.2, h'.3.trans h.3, h'.4.trans h.4⟩

theorem link_keep {s s' : Screen} {l : Line} (h : s.linkToScrollback l = .ok s') : Keep s s' := by
  unfold Screen.linkToScrollback at h
  dsimp only at h
  split at h
  · cases h; exact ⟨rfl, rfl, rfl, rfl⟩
  · split at h
    · rcases he : s.touch.sbEvict with e | s2
      · rw [he] at h; cases h
      rw [he] at h
      cases h
      have : Keep s s2 := by
        unfold Screen.sbEvict at he
        split at he
        · cases he
        · rcases hp : s.touch.evictPos _ with _ | ⟨_, _⟩
          · rw [hp] at he; cases he
          · rw [hp] at he; cases he; exact ⟨rfl, rfl, rfl, rfl⟩
      exact this.trans ⟨rfl, rfl, rfl, rfl⟩
    · cases h; exact ⟨rfl, rfl, rfl, rfl⟩

theorem lineNew_keep {s s' : Screen} {w : Nat} {o : Option Line} (h : s.lineNew w = (o, s')) : Keep s s' := by
  unfold Screen.lineNew at h
  split at h
  · cases h; exact .refl _
  · dsimp only at h
    split at h <;> (cases h; exact ⟨rfl, rfl, rfl, rfl⟩)

theorem lines_of {p p' : PScreen} {s s' : Screen} (h : p.sc = bare s) (h' : p'.sc = bare s') (hk : Keep s s')
    (hm : p'.main = p.main) (ha : p'.alt = p.alt) : p'.lines = p.lines := by
  unfold lines
  rw [hm, ha, h, h']
  show (if s'.useAlt = true then _ else _) = (if s.useAlt = true then _ else _)
  rw [hk.useAlt]

/-- The loop of `screen_scroll_up`. -/
theorem Core.upLoop : ∀ {n i : Nat} {p : PScreen} {s s' : Screen} {cl : List Line} {z W L : List (Nat × Line)},
    Core p s z ((L.drop (s.marginTop + i)).take n ++ W) [] → p.lines = L.map (·.1) → s.lines = L.map (·.2) →
    Screen.scrollUpLoop n i s = .ok (s', cl) →
    ∃ p' z' C, scrollUpLoop n i p = .ok (p', C.map (·.1)) ∧ cl = C.map (·.2) ∧ C.length = n ∧
      Core p' s' z' (C ++ W) [] ∧ p'.main = p.main ∧ p'.alt = p.alt ∧ Keep s s'
  | 0, _, p, s, s', cl, z, W, L, h, _, _, hs => by
    cases hs
    exact ⟨p, z, [], rfl, rfl, rfl, h, rfl, rfl, .refl _⟩
  | n + 1, i, p, s, s', cl, z, W, L, h, hp, hl, hs => by
    rw [Screen.scrollUpLoop, hl, List.getElem?_map] at hs
    rcases hL : L[s.marginTop + i]? with _ | e
    · rw [hL] at hs; cases hs
    rw [hL] at hs
    simp only [Option.map_some] at hs
    have hlt : s.marginTop + i < L.length := (List.getElem?_eq_some_iff.1 hL).1
    have hd : (L.drop (s.marginTop + i)).take (n + 1) = e :: (L.drop (s.marginTop + (i + 1))).take n := by
      rw [List.drop_eq_getElem_cons hlt, (List.getElem?_eq_some_iff.1 hL).2]
      rfl
    rw [hd] at h
    have ht : p.sc.marginTop = s.marginTop := by rw [h.sc]; rfl
    have hfa : p.sc.fAlt = s.fAlt := by rw [h.sc]; rfl
    have hsx : p.sc.sizeX = s.sizeX := by rw [h.sc]; rfl
    -- the allocation of a new line
    have hnew : ∃ o s1 q p1, (if s.fAlt then (none, s) else s.lineNew s.sizeX) = (o, s1) ∧
        (if s.fAlt then (none, p) else p.lineNew s.sizeX) = (q, p1) ∧ p1.main = p.main ∧ p1.alt = p.alt ∧ Keep s s1 ∧
        ((q = none ∧ o = none ∧ Core p1 s1 z (e :: (L.drop (s.marginTop + (i + 1))).take n ++ W) []) ∨
          ∃ f : Nat × Line, q = some f.1 ∧ o = some f.2 ∧
            Core p1 s1 z (f :: (e :: (L.drop (s.marginTop + (i + 1))).take n ++ W)) []) := by
      by_cases hf : s.fAlt = true
      · rw [if_pos hf, if_pos hf]
        exact ⟨_, _, _, _, rfl, rfl, rfl, rfl, .refl _, .inl ⟨rfl, rfl, h⟩⟩
      · rw [if_neg hf, if_neg hf]
        rcases hn : s.lineNew s.sizeX with ⟨o, s1⟩
        obtain ⟨p1, q, r1, r2, r3, r4⟩ := h.new hn
        exact ⟨_, _, _, _, rfl, r1, r2, r3, lineNew_keep hn, r4⟩
    obtain ⟨o, s1, q, p1, n1, n2, n3, n4, nk, hcase⟩ := hnew
    rw [n1] at hs
    rw [scrollUpLoop, hp, ht, List.getElem?_map, hL, hfa, hsx]
    simp only [Option.map_some]
    rw [n2]
    rcases hcase with ⟨rfl, rfl, c⟩ | ⟨f, rfl, rfl, c⟩
    · -- the old line is cleared
      dsimp only at hs ⊢
      rcases hcl : s1.clearLine e.2 with er | l'
      · rw [hcl] at hs; cases hs
      rw [hcl] at hs
      obtain ⟨p2, r1, r2, r3, r4⟩ := Core.clear (a := e.1) (l := e.2) c hcl
      rw [r1]
      rcases hrest : Screen.scrollUpLoop n (i + 1) s1 with er | ⟨s2, rest⟩
      · have hs : (Screen.scrollUpLoop n (i + 1) s1 >>= _) = _ := hs
        rw [hrest] at hs; cases hs
      have hs : (Screen.scrollUpLoop n (i + 1) s1 >>= _) = _ := hs
      rw [hrest] at hs
      cases hs
      have c2 := r2.perm (Y := (L.drop (s1.marginTop + (i + 1))).take n ++ ((e.1, l') :: W)) (by
        rw [nk.top]; exact List.perm_middle.symm)
      obtain ⟨p3, z3, C, q1, q2, q3, q4, q5, q6, q7⟩ := Core.upLoop (i := i + 1) c2
        (by rw [lines_of h.sc r2.sc nk (r3.trans n3) (r4.trans n4)]; exact hp)
        (by
          unfold Screen.lines at hl ⊢
          rw [nk.useAlt, nk.main, nk.alt]; exact hl) hrest
      refine ⟨p3, z3, (e.1, l') :: C, ?_, ?_, ?_, ?_, ?_, ?_, ?_⟩
      · show (scrollUpLoop n (i + 1) p2 >>= _) = _
        rw [q1]; rfl
      · rw [q2]; rfl
      · rw [List.length_cons, q3]
      · exact q4.perm List.perm_middle
      · rw [q5, r3, n3]
      · rw [q6, r4, n4]
      · exact nk.trans q7
    · -- the old line is linked into the scrollback
      dsimp only at hs ⊢
      rcases hlk : s1.linkToScrollback e.2 with er | s2
      · rw [hlk] at hs; cases hs
      rw [hlk] at hs
      have c1 := c.perm (Y := (e.1, e.2) :: ((L.drop (s.marginTop + (i + 1))).take n ++ f :: W)) (by
        refine (List.Perm.swap e f _).trans ?_
        exact List.Perm.cons _ List.perm_middle.symm)
      obtain ⟨p2, z2, r1, r2, r3, r4⟩ := c1.link hlk
      have nk2 := nk.trans (link_keep hlk)
      rw [r1]
      rcases hrest : Screen.scrollUpLoop n (i + 1) s2 with er | ⟨s3, rest⟩
      · have hs : (Screen.scrollUpLoop n (i + 1) s2 >>= _) = _ := hs
        rw [hrest] at hs; cases hs
      have hs : (Screen.scrollUpLoop n (i + 1) s2 >>= _) = _ := hs
      rw [hrest] at hs
      cases hs
      rw [← nk2.top] at r2
      obtain ⟨p3, z3, C, q1, q2, q3, q4, q5, q6, q7⟩ := Core.upLoop (i := i + 1) r2
        (by rw [lines_of h.sc r2.sc nk2 (r3.trans n3) (r4.trans n4)]; exact hp)
        (by
          unfold Screen.lines at hl ⊢
          rw [nk2.useAlt, nk2.main, nk2.alt]; exact hl) hrest
      refine ⟨p3, z3, f :: C, ?_, ?_, ?_, ?_, ?_, ?_, ?_⟩
      · show (scrollUpLoop n (i + 1) p2 >>= _) = _
        rw [q1]; rfl
      · rw [q2]; rfl
      · rw [List.length_cons, q3]
      · exact q4.perm List.perm_middle
      · rw [q5, r3, n3]
      · rw [q6, r4, n4]
      · exact nk2.trans q7

/-- The walk to older lines. -/
theorem walkPrev_ok {h : Heap} {z : List (Nat × Line)} (hz : Seg h.obj none z) (hl : ∀ e ∈ z, e.1 ∈ h.live) :
    ∀ (k : Nat) {u r : List (Nat × Line)}, z = u ++ r →
      walkPrev h k (u.getLast?.map (·.1)) = .ok ((u.reverse[k]?).map (·.1))
  | 0, u, r, _ => by
    rw [walkPrev]
    rcases List.eq_nil_or_concat u with rfl | ⟨v, e, rfl⟩
    · rfl
    · simp
  | k + 1, u, r, hu => by
    rcases List.eq_nil_or_concat u with rfl | ⟨v, e, rfl⟩
    · rfl
    · rw [List.concat_eq_append] at *
      have hu' : z = v ++ e :: r := by rw [hu, List.append_assoc]; rfl
      have he : e.1 ∈ h.live := hl e (by rw [hu']; simp)
      have ho := (hu' ▸ hz).split
      rw [List.getLast?_concat]
      simp only [Option.map_some]
      rw [walkPrev, read_ok he]
      show walkPrev h k (h.obj e.1).prev = _
      rw [ho]
      simp only [Option.or_none]
      rw [walkPrev_ok hz hl k hu']
      simp

theorem Core.sel_scroll {p : PScreen} {s : Screen} {z X : List (Nat × Line)} (h : Core p s z X []) (num : Nat)
    {q : Option Nat} {sp : SelPos} (hr : Ref z q sp.line) :
    ∃ q' y', p.scrollSel num q sp.y = .ok (q', y') ∧ ∃ i', Screen.scrollSel s.sb num sp = ⟨i', sp.x, y'⟩ ∧ Ref z q' i' := by
  unfold scrollSel Screen.scrollSel
  have hq := hr.none_iff
  by_cases hc : sp.line = none ∧ sp.y ≥ 0
  · rw [if_pos hc, if_pos (by rw [hq]; exact hc)]
    dsimp only
    by_cases hy : sp.y - num < 0
    · rw [if_pos hy, if_pos hy]
      have hw := walkPrev_ok h.seg (fun e he => h.liveZ he) ((-(sp.y - num)).toNat - 1) (u := z) (r := []) (by simp)
      rw [← h.last] at hw
      refine ⟨(z.reverse[(-(sp.y - num)).toNat - 1]?).map (·.1), _, ?_, _, rfl, ?_⟩
      · show (walkPrev p.heap _ p.last >>= _) = _
        rw [hw]; rfl
      · rw [h.sb, ← List.map_reverse, List.getElem?_map]
        rcases hg : z.reverse[(-(sp.y - num)).toNat - 1]? with _ | e
        · trivial
        · exact ⟨e, List.mem_reverse.1 (List.mem_of_getElem? hg), rfl, rfl⟩
    · rw [if_neg hy, if_neg hy]
      exact ⟨none, _, rfl, none, by rw [hc.1], trivial⟩
  · rw [if_neg hc, if_neg (by rw [hq]; exact hc)]
    exact ⟨q, _, rfl, sp.line, rfl, hr⟩

/-- `screen_scroll_up` for at most 128 lines. -/
theorem Rel.upChunk {p : PScreen} {s : Screen} (h : Rel p s) {max num : Nat} (hle : num ≤ max) :
    Sim (p.scrollUpChunk max num) (s.scrollUpChunk max num) := by
  intro s' hs
  obtain ⟨z, zm, za, c, r⟩ := h
  obtain ⟨L, W, hp, hpl, hsl, hput⟩ := r.cur (by rw [c.sc]; rfl)
  unfold Screen.scrollUpChunk at hs
  rcases hloop : Screen.scrollUpLoop num 0 s with er | ⟨s1, cl⟩
  · rw [hloop] at hs; cases hs
  rw [hloop] at hs
  have hL : (L ++ W).Perm ((L.drop (s.marginTop + 0)).take num ++ (L.take s.marginTop ++ L.drop (s.marginTop + num) ++ W)) := by
    rw [Nat.add_zero, ← List.append_assoc]
    refine List.Perm.append_right _ ?_
    have : L = L.take s.marginTop ++ ((L.drop s.marginTop).take num ++ L.drop (s.marginTop + num)) := by
      rw [← List.drop_drop, List.take_append_drop, List.take_append_drop]
    conv => lhs; rw [this]
    rw [← List.append_assoc, ← List.append_assoc]
    exact List.Perm.append_right _ List.perm_append_comm
  obtain ⟨p1, z1, C, e1, e2, e3, c1, e5, e6, k⟩ := Core.upLoop (c.perm (hp.trans hL)) hpl hsl hloop
  subst e2
  have hpl1 : p1.lines = L.map (·.1) := by rw [lines_of c.sc c1.sc k e5 e6]; exact hpl
  have hsl1 : s1.lines = L.map (·.2) := by
    unfold Screen.lines at hsl ⊢
    rw [k.useAlt, k.main, k.alt]; exact hsl
  have hs : (shiftUp s1.lines (C.map (·.2)) s1.marginTop max num >>= fun ls => Except.ok
      (if (s1.withLines ls).selActive then
        { s1.withLines ls with
          selStart := Screen.scrollSel (s1.withLines ls).sb num (s1.withLines ls).selStart
          selEnd := Screen.scrollSel (s1.withLines ls).sb num (s1.withLines ls).selEnd }
        else s1.withLines ls)) = .ok s' := by
    rw [← hs]
    unfold shiftUp
    exact bind_three _ _ _
  rw [hsl1, shiftUp_map] at hs
  rcases hsh : shiftUp L C s1.marginTop max num with er | R
  · rw [hsh] at hs; cases hs
  rw [hsh] at hs
  obtain ⟨hR, hRl⟩ := shiftUp_perm e3 hle hsh
  have hpt : p1.sc.marginTop = s1.marginTop := by rw [c1.sc]; rfl
  have run : p.scrollUpChunk max num = (fun p : PScreen => (if p.sc.selActive then do
        let (a, y) ← p.scrollSel num p.selS p.sc.selStart.y
        let p := { p with selS := a, sc := { p.sc with selStart := { p.sc.selStart with y := y } } }
        let (a, y) ← p.scrollSel num p.selE p.sc.selEnd.y
        return { p with selE := a, sc := { p.sc with selEnd := { p.sc.selEnd with y := y } } }
      else .ok p : Verif.R PScreen)) (p1.withLines (R.map (·.1))) := by
    have hm := shiftUp_map (·.1) (L := L) (C := C) (t := s1.marginTop) (max := max) (num := num)
    rw [hsh, ← hpl1, ← hpt] at hm
    unfold scrollUpChunk
    rw [e1]
    refine (bind_three _ _ _).symm.trans ?_
    show (shiftUp p1.lines (C.map (·.1)) p1.sc.marginTop max num >>= _) = _
    rw [hm]
    rfl
  rw [run]
  have c2 := (c1.perm (Y := R ++ W) (by
    rw [← List.append_assoc]
    rw [← k.top] 
    exact List.Perm.append_right _ hR.symm)).withLines (R.map (·.1)) (R.map (·.2))
  obtain ⟨zm', za', hperm, hrows⟩ := hput p1 s1 R e5 e6 k.main k.alt
    (by rw [c1.sc, c.sc]; exact k.useAlt) k.useAlt hRl
  have c3 := c2.perm hperm
  have hs := Except.ok.inj hs
  clear run hput c2 hperm
  generalize p1.withLines (R.map (·.1)) = p2 at *
  generalize s1.withLines (R.map (·.2)) = s2 at *
  dsimp only
  have hsa : p2.sc.selActive = s2.selActive := by rw [c3.sc]; rfl
  by_cases ha : s2.selActive = true
  · rw [if_pos ha] at hs
    rw [if_pos (hsa.trans ha)]
    have hy1 : p2.sc.selStart.y = s2.selStart.y := by rw [c3.sc]; rfl
    obtain ⟨q1, y1, w1, i1, w2, w3⟩ := c3.sel_scroll num (c3.sel ha).1
    obtain ⟨q2, y2, v1, i2, v2, v3⟩ := c3.sel_scroll num (c3.sel ha).2
    rw [hy1, w1]
    rw [w2, v2] at hs
    refine ⟨{ p2 with
      selS := q1, selE := q2
      sc := { p2.sc with
        selStart := { p2.sc.selStart with y := y1 }, selEnd := { p2.sc.selEnd with y := y2 } } }, ?_, ?_⟩
    · simp only [bind, Except.bind]
      have hy2 : p2.sc.selEnd.y = s2.selEnd.y := by rw [c3.sc]; rfl
      have v1' : scrollSel { p2 with
          selS := q1, sc := { p2.sc with selStart := { p2.sc.selStart with y := y1 } } } num p2.selE s2.selEnd.y =
          .ok (q2, y2) := v1
      rw [hy2, v1']
      rfl
    · refine ⟨z1, zm', za', ?_, ?_⟩
      · subst hs
        refine { c3 with sc := ?_, sb := c3.sb, own := c3.own, nodup := c3.nodup, pos := c3.pos, sel := ?_, lastId := c3.lastId }
        · show ({ p2.sc with
            selStart := { p2.sc.selStart with y := y1 }, selEnd := { p2.sc.selEnd with y := y2 } } : Screen) = _
          rw [c3.sc]; rfl
        · exact fun _ => ⟨w3, v3⟩
      · subst hs
        exact ⟨hrows.pmain, hrows.smain, hrows.palt, hrows.salt, hrows.len⟩
  · rw [if_neg ha] at hs
    rw [if_neg (by rw [hsa]; exact ha)]
    subst hs
    exact ⟨p2, rfl, z1, zm', za', c3, hrows⟩

theorem Rel.upFuel : ∀ {fuel : Nat} {p : PScreen} {s : Screen} (num : Nat), Rel p s →
    Sim (scrollUpFuel fuel p num) (Screen.scrollUpFuel fuel s num)
  | 0, _, _, _, h => .ok h
  | fuel + 1, p, s, num, h => by
    rw [scrollUpFuel, Screen.scrollUpFuel]
    refine .ite Iff.rfl (fun _ => .ok h) (fun _ => ?_)
    have h := h.touch
    generalize p.onSc Screen.touch = p1 at *
    generalize s.touch = s1 at *
    dsimp only
    rw [show p1.sc.marginBottom = s1.marginBottom by rw [h.sc]; rfl,
      show p1.sc.marginTop = s1.marginTop by rw [h.sc]; rfl]
    generalize sub32 (s1.marginBottom + 1) s1.marginTop = max
    have hm : (if num > max then max else num) ≤ max := by split <;> omega
    generalize (if num > max then max else num) = num' at *
    refine .ite Iff.rfl (fun hc => ?_) (fun _ => h.upChunk hm)
    exact Sim.bind (h.upChunk (by omega)) (fun p s h => Rel.upFuel _ h)

theorem Rel.upI {p : PScreen} {s : Screen} (h : Rel p s) (num : Nat) : Sim (p.scrollUpI num) (s.scrollUpI num) :=
  h.upFuel num

end PScreen
end Verif
