import Verif.Proofs.Heap.Scroll
import Verif.Proofs.Screen.Basic

/-!
# Scrolling down, inserting and deleting lines with pointers
-/

namespace Verif
namespace PScreen

open Screen (memmove memcpy)

/-- Taking out rows and clearing them. -/
theorem Core.take {s : Screen} {z W : List (Nat × Line)} {idx : Nat → Nat} : ∀ {n i : Nat} {p : PScreen}
    {ls cl : List Line} {L : List (Nat × Line)}, Core p s z (L ++ W) [] → p.lines = L.map (·.1) →
    (∀ j k, i ≤ j → j < i + n → i ≤ k → k < i + n → idx j = idx k → j = k) →
    s.takeRows idx n i (L.map (·.2)) = .ok (ls, cl) →
    ∃ (p' : PScreen) (L' C : List (Nat × Line)), takeRows idx n i p = .ok (p', C.map (·.1)) ∧ cl = C.map (·.2) ∧ C.length = n ∧
      Core p' s z (L' ++ W) [] ∧ ls = L'.map (·.2) ∧ L'.map (·.1) = L.map (·.1) ∧ p'.main = p.main ∧ p'.alt = p.alt ∧
      (∀ j, j < n → L'[idx (i + j)]? = C[j]?) ∧
      (∀ k, (∀ j, i ≤ j → j < i + n → idx j ≠ k) → L'[k]? = L[k]?)
  | 0, i, p, ls, cl, L, h, _, _, hs => by
    cases hs
    exact ⟨p, L, [], rfl, rfl, rfl, h, rfl, rfl, rfl, rfl, fun _ hj => absurd hj (Nat.not_lt_zero _), fun _ _ => rfl⟩
  | n + 1, i, p, ls, cl, L, h, hp, hinj, hs => by
    rw [Screen.takeRows, List.getElem?_map] at hs
    rw [takeRows, hp, List.getElem?_map]
    rcases hL : L[idx i]? with _ | e
    · rw [hL] at hs; cases hs
    rw [hL] at hs
    simp only [Option.map_some] at hs ⊢
    obtain ⟨hlt, hLe⟩ := List.getElem?_eq_some_iff.1 hL
    rcases hcl : s.clearLine e.2 with er | l'
    · rw [hcl] at hs; cases hs
    rw [hcl] at hs
    have hset : L.set (idx i) (e.1, l') = L.take (idx i) ++ (e.1, l') :: L.drop (idx i + 1) := by
      rw [List.set_eq_take_append_cons_drop, if_pos hlt]
    have hself : L = L.take (idx i) ++ e :: L.drop (idx i + 1) := by
      rw [← hLe, ← List.drop_eq_getElem_cons hlt, List.take_append_drop]
    have c0 := h.perm (Y := (e.1, e.2) :: (L.take (idx i) ++ L.drop (idx i + 1) ++ W)) (by
      conv => lhs; rw [hself]
      rw [← List.cons_append]
      exact List.Perm.append_right _ List.perm_middle)
    obtain ⟨p1, r1, r2, r3, r4⟩ := c0.clear hcl
    have c1 := r2.perm (Y := L.set (idx i) (e.1, l') ++ W) (by
      rw [hset, ← List.cons_append]
      exact List.Perm.append_right _ List.perm_middle.symm)
    have hm2 : (L.map (·.2)).set (idx i) l' = (L.set (idx i) (e.1, l')).map (·.2) := by
      rw [List.map_set]
    have hm1 : (L.set (idx i) (e.1, l')).map (·.1) = L.map (·.1) := by
      rw [List.map_set]
      refine List.ext_getElem? fun k => ?_
      rw [List.getElem?_set]
      split
      · rename_i hk
        subst hk
        rw [List.getElem?_map, hL]
        simp [hlt]
      · rfl
    have hs : (s.takeRows idx n (i + 1) ((L.map (·.2)).set (idx i) l') >>= fun r => Except.ok (r.1, l' :: r.2)) =
        .ok (ls, cl) := hs
    rw [hm2] at hs
    rcases hrest : s.takeRows idx n (i + 1) ((L.set (idx i) (e.1, l')).map (·.2)) with er | ⟨ls2, rest⟩
    · rw [hrest] at hs; cases hs
    rw [hrest] at hs
    cases hs
    obtain ⟨p2, L2, C, q1, q2, q3, q4, q5, q6, q7, q8, q9, q10⟩ := Core.take (i := i + 1) c1
      (by rw [lines_of h.sc r2.sc (.refl _) r3 r4, hm1]; exact hp)
      (fun j k a b c d e => hinj j k (by omega) (by omega) (by omega) (by omega) e) hrest
    refine ⟨p2, L2, (e.1, l') :: C, ?_, ?_, ?_, q4, q5, q6.trans hm1, q7.trans r3, q8.trans r4, ?_, ?_⟩
    · show (p1 |> fun _ => p.clearLine e.1 >>= _) = _
      rw [r1]
      show (takeRows idx n (i + 1) p1 >>= _) = _
      rw [q1]; rfl
    · rw [q2]; rfl
    · rw [List.length_cons, q3]
    · intro j hj
      cases j with
      | zero =>
        rw [q10 (idx (i + 0)) (fun j h1 h2 hh => by
          have := hinj j i (by omega) (by omega) (by omega) (by omega) hh
          omega)]
        rw [Nat.add_zero, List.getElem?_set_self hlt]; rfl
      | succ j =>
        rw [show i + (j + 1) = i + 1 + j by omega, q9 j (by omega)]; rfl
    · intro k hk
      rw [q10 k (fun j h1 h2 => hk j (by omega) (by omega)), List.getElem?_set_ne]
      exact hk i (by omega) (by omega)

/-- The rows taken out one below the other. -/
theorem taken_up {L C : List (Nat × Line)} {y n : Nat} (hC : C.length = n)
    (h : ∀ j, j < n → L[y + (0 + j)]? = C[j]?) : C = (L.drop y).take n := by
  refine List.ext_getElem? ?_
  intro j
  by_cases hj : j < n
  · rw [← h j hj, List.getElem?_take_of_lt hj, List.getElem?_drop, Nat.zero_add]
  · rw [List.getElem?_eq_none (by omega), List.getElem?_eq_none (by rw [List.length_take]; omega)]

/-- The rows taken out one above the other, the last one being row `b`. -/
theorem taken_down {L C : List (Nat × Line)} {b n : Nat} (hC : C.length = n) (hn : n ≤ b + 1) (hb : b < 4294967296)
    (h : ∀ j, j < n → L[sub32 b (0 + j)]? = C[j]?) : C.reverse = (L.drop (b + 1 - n)).take n := by
  have hs : ∀ j, j < n → sub32 b (0 + j) = b - j := by
    intro j hj
    unfold sub32
    omega
  refine List.ext_getElem? ?_
  intro j
  by_cases hj : j < n
  · rw [List.getElem?_reverse (by omega), List.getElem?_take_of_lt hj, List.getElem?_drop, hC,
      ← h (n - 1 - j) (by omega), hs _ (by omega)]
    congr 1
    omega
  · rw [List.getElem?_eq_none (by rw [List.length_reverse]; omega),
      List.getElem?_eq_none (by rw [List.length_take]; omega)]

theorem slice_perm {α : Type} (L : List α) (a n : Nat) : L.Perm ((L.drop a).take n ++ (L.take a ++ L.drop (a + n))) := by
  have : L = L.take a ++ ((L.drop a).take n ++ L.drop (a + n)) := by
    rw [← List.drop_drop, List.take_append_drop, List.take_append_drop]
  conv => lhs; rw [this]
  rw [← List.append_assoc, ← List.append_assoc]
  exact List.Perm.append_right _ List.perm_append_comm

/-- The margins of a screen, as far as scrolling down needs them. -/
def Margins (s : Screen) : Prop := s.marginTop ≤ s.marginBottom ∧ s.marginBottom + 1 < 4294967296

theorem Margins.max {s : Screen} (h : Margins s) :
    sub32 (s.marginBottom + 1) s.marginTop = s.marginBottom + 1 - s.marginTop := by
  obtain ⟨h1, h2⟩ := h
  unfold sub32
  omega

/-- `screen_scroll_down` for at most 128 lines. -/
theorem Rel.downChunk {p : PScreen} {s : Screen} (h : Rel p s) {max num : Nat} (hle : num ≤ max) (hmar : Margins s)
    (hmax : max = s.marginBottom + 1 - s.marginTop) :
    Sim (p.scrollDownChunk max num) (s.scrollDownChunk max num) := by
  intro s' hs
  obtain ⟨z, zm, za, c, r⟩ := h
  obtain ⟨L, W, hp, hpl, hsl, hput⟩ := r.cur (by rw [c.sc]; rfl)
  obtain ⟨m1, m2⟩ := hmar
  unfold Screen.scrollDownChunk at hs
  rcases htake : s.takeRows (fun i => sub32 s.marginBottom i) num 0 s.lines with er | ⟨ls, cl⟩
  · rw [htake] at hs; cases hs
  rw [htake] at hs
  rw [hsl] at htake
  obtain ⟨p1, L1, C, e1, e2, e3, c1, e4, e5, e6, e7, e8, e9⟩ := Core.take (c.perm hp) hpl (by
    intro j k _ hj _ hk hh
    unfold sub32 at hh
    omega) htake
  subst e2 e4
  have hlen : L1.length = L.length := by
    have := congrArg List.length e5
    simpa using this
  have hpl1 : p1.lines = L1.map (·.1) := by rw [lines_of c.sc c1.sc (.refl _) e6 e7, e5]; exact hpl
  have hCr := taken_down e3 (by omega) (by omega) e8
  have hs : (shiftDown (L1.map (·.2)) (C.map (·.2)) s.marginTop max num >>= fun ls =>
      (fun s : Screen => Except.ok (if s.selActive then
        { s with
          selStart := if s.selStart.line = none ∧ s.selStart.y ≥ 0 then
            { s.selStart with y := s.selStart.y + num } else s.selStart
          selEnd := if s.selEnd.line = none ∧ s.selEnd.y ≥ 0 then
            { s.selEnd with y := s.selEnd.y + num } else s.selEnd } else s)) (s.withLines ls)) = .ok s' := by
    rw [← hs]
    unfold shiftDown
    exact bind_three _ _ _
  rw [shiftDown_map] at hs
  rcases hsh : shiftDown L1 C s.marginTop max num with er | R
  · rw [hsh] at hs; cases hs
  rw [hsh] at hs
  obtain ⟨hR, hRl, _⟩ := shiftDown_perm e3 hle hsh
  have hRL : R.Perm L1 := by
    refine hR.trans ?_
    have e : s.marginTop + (max - num) = s.marginBottom + 1 - num := by omega
    have e' : s.marginTop + max = s.marginBottom + 1 - num + num := by omega
    rw [e, e']
    refine ((List.reverse_perm C).symm.append_right _).trans ?_
    rw [hCr]
    exact (slice_perm L1 _ num).symm
  have hpt : p1.sc.marginTop = s.marginTop := by rw [c1.sc]; rfl
  have hpb : p.sc.marginBottom = s.marginBottom := by rw [c.sc]; rfl
  have run : p.scrollDownChunk max num = (fun p : PScreen => (if p.sc.selActive then
      let y := p.sc.selStart.y
      let p := if p.selS = none ∧ y ≥ 0 then
        p.onSc fun s => { s with selStart := { s.selStart with y := y + num } } else p
      let y := p.sc.selEnd.y
      .ok (if p.selE = none ∧ y ≥ 0 then
        p.onSc fun s => { s with selEnd := { s.selEnd with y := y + num } } else p)
      else .ok p : Verif.R PScreen)) (p1.withLines (R.map (·.1))) := by
    have hm := shiftDown_map (·.1) (L := L1) (C := C) (t := s.marginTop) (max := max) (num := num)
    rw [hsh, ← hpl1, ← hpt] at hm
    unfold scrollDownChunk
    rw [hpb, e1]
    refine (bind_three _ _ _).symm.trans ?_
    show (shiftDown p1.lines (C.map (·.1)) p1.sc.marginTop max num >>= _) = _
    rw [hm]
    rfl
  rw [run]
  have c2 := (c1.perm (Y := R ++ W) (hRL.symm.append_right _)).withLines (R.map (·.1)) (R.map (·.2))
  obtain ⟨zm', za', hperm, hrows⟩ := hput p1 s R e6 e7 rfl rfl (by rw [c1.sc, c.sc]) rfl (hRl.trans hlen)
  have c3 := c2.perm hperm
  have hs : _ = Except.ok s' := hs
  have hs := Except.ok.inj hs
  clear run hput c2 hperm
  generalize p1.withLines (R.map (·.1)) = p2 at *
  generalize s.withLines (R.map (·.2)) = s2 at *
  have hsa : p2.sc.selActive = s2.selActive := by rw [c3.sc]; rfl
  dsimp only
  by_cases ha : s2.selActive = true
  · rw [if_pos ha] at hs
    rw [if_pos (hsa.trans ha)]
    obtain ⟨w1, w2⟩ := c3.sel ha
    refine ⟨_, rfl, z, zm', za', ?_⟩
    obtain ⟨sc, heap, al, main, alt, first, last, pos, selS, selE⟩ := p2
    have hsc : sc = bare s2 := c3.sc
    subst hsc
    have n1 : selS = none ↔ s2.selStart.line = none := w1.none_iff
    have n2 : selE = none ↔ s2.selEnd.line = none := w2.none_iff
    have y1 : (bare s2).selStart.y = s2.selStart.y := rfl
    have y2 : (bare s2).selEnd.y = s2.selEnd.y := rfl
    subst hs
    have hrows' : ∀ (a : Screen) (b c : SelPos), Rows ⟨a, heap, al, main, alt, first, last, pos, selS, selE⟩
        { s2 with selStart := b, selEnd := c } zm' za' := fun _ _ _ =>
      ⟨hrows.pmain, hrows.smain, hrows.palt, hrows.salt, hrows.len⟩
    have hcore : ∀ (u v : Int), Core ⟨{ bare s2 with
          selStart := { (bare s2).selStart with y := u }, selEnd := { (bare s2).selEnd with y := v } },
          heap, al, main, alt, first, last, pos, selS, selE⟩
        { s2 with selStart := { s2.selStart with y := u }, selEnd := { s2.selEnd with y := v } } z (zm' ++ za') [] := by
      intro u v
      exact { c3 with sc := rfl, sb := c3.sb, own := c3.own, nodup := c3.nodup, pos := c3.pos,
                      sel := fun _ => ⟨w1, w2⟩, lastId := c3.lastId }
    by_cases d1 : s2.selStart.line = none ∧ s2.selStart.y ≥ 0 <;> by_cases d2 : s2.selEnd.line = none ∧ s2.selEnd.y ≥ 0
    · rw [if_pos d1, if_pos d2]
      simp only [y1]
      rw [if_pos (show selS = none ∧ s2.selStart.y ≥ 0 from ⟨n1.2 d1.1, d1.2⟩)]
      rw [if_pos]
      · exact ⟨hcore _ _, hrows' _ _ _⟩
      · exact ⟨n2.2 d2.1, d2.2⟩
    · rw [if_pos d1, if_neg d2]
      simp only [y1]
      rw [if_pos (show selS = none ∧ s2.selStart.y ≥ 0 from ⟨n1.2 d1.1, d1.2⟩)]
      rw [if_neg]
      · exact ⟨hcore _ _, hrows' _ _ _⟩
      · exact fun hh => d2 ⟨n2.1 hh.1, hh.2⟩
    · rw [if_neg d1, if_pos d2]
      simp only [y1]
      rw [if_neg (show ¬ (selS = none ∧ s2.selStart.y ≥ 0) from fun hh => d1 ⟨n1.1 hh.1, hh.2⟩)]
      rw [if_pos]
      · exact ⟨hcore _ _, hrows' _ _ _⟩
      · exact ⟨n2.2 d2.1, d2.2⟩
    · rw [if_neg d1, if_neg d2]
      simp only [y1]
      rw [if_neg (show ¬ (selS = none ∧ s2.selStart.y ≥ 0) from fun hh => d1 ⟨n1.1 hh.1, hh.2⟩)]
      rw [if_neg]
      · exact ⟨hcore _ _, hrows' _ _ _⟩
      · exact fun hh => d2 ⟨n2.1 hh.1, hh.2⟩
  · rw [if_neg ha] at hs
    rw [if_neg (by rw [hsa]; exact ha)]
    subst hs
    exact ⟨p2, rfl, z, zm', za', c3, hrows⟩

theorem downChunk_margins {s s' : Screen} {max num : Nat} (h : s.scrollDownChunk max num = .ok s') :
    s'.marginTop = s.marginTop ∧ s'.marginBottom = s.marginBottom := by
  have hw : ∀ ls, (s.withLines ls).marginTop = s.marginTop ∧ (s.withLines ls).marginBottom = s.marginBottom := by
    intro ls
    unfold Screen.withLines
    split <;> exact ⟨rfl, rfl⟩
  unfold Screen.scrollDownChunk at h
  rcases h1 : s.takeRows (fun i => sub32 s.marginBottom i) num 0 s.lines with er | ⟨ls, cl⟩
  · rw [h1] at h; cases h
  rw [h1] at h
  have h : (shiftDown ls cl s.marginTop max num >>= fun ls =>
      (fun s : Screen => Except.ok (if s.selActive then
        { s with
          selStart := if s.selStart.line = none ∧ s.selStart.y ≥ 0 then
            { s.selStart with y := s.selStart.y + num } else s.selStart
          selEnd := if s.selEnd.line = none ∧ s.selEnd.y ≥ 0 then
            { s.selEnd with y := s.selEnd.y + num } else s.selEnd } else s)) (s.withLines ls)) = .ok s' := by
    rw [← h]
    unfold shiftDown
    exact bind_three _ _ _
  rcases h2 : shiftDown ls cl s.marginTop max num with er | R
  · rw [h2] at h; cases h
  rw [h2] at h
  have h : _ = Except.ok s' := h
  have h := Except.ok.inj h
  split at h
  · rw [← h]; exact hw _
  · rw [← h]; exact hw _

theorem Rel.downFuel : ∀ {fuel : Nat} {p : PScreen} {s : Screen} (num : Nat), Rel p s → Margins s →
    Sim (scrollDownFuel fuel p num) (Screen.scrollDownFuel fuel s num)
  | 0, _, _, _, h, _ => .ok h
  | fuel + 1, p, s, num, h, hmar => by
    rw [scrollDownFuel, Screen.scrollDownFuel]
    refine .ite Iff.rfl (fun _ => .ok h) (fun _ => ?_)
    have h := h.touch
    have hmar : Margins s.touch := hmar
    generalize p.onSc Screen.touch = p1 at *
    generalize s.touch = s1 at *
    dsimp only
    rw [show p1.sc.marginBottom = s1.marginBottom by rw [h.sc]; rfl,
      show p1.sc.marginTop = s1.marginTop by rw [h.sc]; rfl]
    have hmax := hmar.max
    generalize sub32 (s1.marginBottom + 1) s1.marginTop = max at *
    have hm : (if num > max then max else num) ≤ max := by split <;> omega
    generalize (if num > max then max else num) = num' at *
    refine .ite Iff.rfl (fun hc => ?_) (fun _ => h.downChunk hm hmar hmax)
    intro s' hs
    rcases hch : s1.scrollDownChunk max 128 with er | s2
    · rw [hch] at hs; cases hs
    rw [hch] at hs
    obtain ⟨p2, r1, r2⟩ := h.downChunk (num := 128) (by omega) hmar hmax s2 hch
    rw [r1]
    obtain ⟨a, b⟩ := downChunk_margins hch
    exact Rel.downFuel (num' - 128) r2 ⟨by rw [a, b]; exact hmar.1, by rw [b]; exact hmar.2⟩ s' hs

theorem Rel.downI {p : PScreen} {s : Screen} (h : Rel p s) (hm : Margins s) (num : Nat) :
    Sim (p.scrollDownI num) (s.scrollDownI num) := h.downFuel num hm

/-- Rows are taken out, cleared, and put back in another order. -/
theorem Rel.rearrange {p : PScreen} {s : Screen} (h : Rel p s) {idx : Nat → Nat} {n : Nat}
    (hinj : ∀ j k, 0 ≤ j → j < 0 + n → 0 ≤ k → k < 0 + n → idx j = idx k → j = k)
    (F : ∀ {α : Type}, Screen → List α → List α → R (List α))
    (hb : ∀ {α : Type} (L C : List α), F (bare s) L C = F s L C)
    (hF : ∀ {α β : Type} (f : α → β) (L C : List α), F s (L.map f) (C.map f) = (F s L C).map (List.map f))
    (hP : ∀ {L C R : List (Nat × Line)}, C.length = n → (∀ j, j < n → L[idx (0 + j)]? = C[j]?) → F s L C = .ok R →
      R.Perm L) :
    Sim (do
        let (p, cache) ← takeRows idx n 0 p
        let as ← F p.sc p.lines cache
        return (p.withLines as).onSc fun s => { s with cursorX := 0 })
      (do
        let (ls, cache) ← s.takeRows idx n 0 s.lines
        let ls ← F s ls cache
        return { s.withLines ls with cursorX := 0 }) := by
  intro s' hs
  obtain ⟨z, zm, za, c, r⟩ := h
  obtain ⟨L, W, hp, hpl, hsl, hput⟩ := r.cur (by rw [c.sc]; rfl)
  rcases htake : s.takeRows idx n 0 s.lines with er | ⟨ls, cl⟩
  · rw [htake] at hs; cases hs
  rw [htake] at hs
  rw [hsl] at htake
  obtain ⟨p1, L1, C, e1, e2, e3, c1, e4, e5, e6, e7, e8, e9⟩ := Core.take (c.perm hp) hpl hinj htake
  subst e2 e4
  have hlen : L1.length = L.length := by
    have := congrArg List.length e5
    simpa using this
  have hpl1 : p1.lines = L1.map (·.1) := by rw [lines_of c.sc c1.sc (.refl _) e6 e7, e5]; exact hpl
  have hs : (F s (L1.map (·.2)) (C.map (·.2)) >>= fun ls => Except.ok { s.withLines ls with cursorX := 0 }) = .ok s' := hs
  rw [hF] at hs
  rcases hsh : F s L1 C with er | R
  · rw [hsh] at hs; cases hs
  rw [hsh] at hs
  cases hs
  have hRL := hP e3 e8 hsh
  have c2 := (c1.perm (Y := R ++ W) (hRL.symm.append_right _)).withLines (R.map (·.1)) (R.map (·.2))
  obtain ⟨zm', za', hperm, hrows⟩ := hput p1 s R e6 e7 rfl rfl (by rw [c1.sc, c.sc]) rfl (hRL.length_eq.trans hlen)
  have hr : Rel (p1.withLines (R.map (·.1))) (s.withLines (R.map (·.2))) := ⟨z, zm', za', c2.perm hperm, hrows⟩
  refine ⟨(p1.withLines (R.map (·.1))).onSc fun s => { s with cursorX := 0 }, ?_, ?_⟩
  · rw [e1]
    show (F p1.sc p1.lines (C.map (·.1)) >>= fun ls => Except.ok
      ((p1.withLines ls).onSc fun s => { s with cursorX := 0 })) = _
    rw [c1.sc, hb, hpl1, hF, hsh]
    rfl
  · exact hr.onSc (fun s => { s with cursorX := 0 }) (fun s => { s with cursorX := 0 }) rfl rfl rfl
      (fun h => ⟨h, rfl, rfl⟩) rfl rfl rfl

theorem incAge_touch (s : Screen) : s.incAge.touch.cursorY = s.cursorY ∧
    s.incAge.touch.marginBottom = s.marginBottom ∧ s.incAge.touch.marginTop = s.marginTop := by
  rw [Screen.incAge_eq]; exact ⟨rfl, rfl, rfl⟩

theorem Rel.insertLines {p : PScreen} {s : Screen} (h : Rel p s) (hm : Margins s) (num : Nat) :
    Sim (p.insertLines num) (s.insertLines num) := by
  unfold PScreen.insertLines Screen.insertLines
  have h1 : p.sc.cursorY = s.cursorY := by rw [h.sc]; rfl
  have h2 : p.sc.marginTop = s.marginTop := by rw [h.sc]; rfl
  have h3 : p.sc.marginBottom = s.marginBottom := by rw [h.sc]; rfl
  refine .ite Iff.rfl (fun _ => .ok h) (fun _ => ?_)
  refine .ite (by rw [h1, h2, h3]) (fun _ => .ok h) (fun hc => ?_)
  obtain ⟨m1, m2⟩ := hm
  have hcur : s.incAge.touch.cursorY ≤ s.incAge.touch.marginBottom ∧ s.incAge.touch.marginBottom + 1 < 4294967296 := by
    obtain ⟨a, b, _⟩ := incAge_touch s
    omega
  have h := h.incTouch
  clear h1 h2 h3 hc m1 m2
  generalize (p.onSc fun s => s.incAge.touch) = p at *
  generalize s.incAge.touch = s at *
  have h1 : p.sc.cursorY = s.cursorY := by rw [h.sc]; rfl
  have h3 : p.sc.marginBottom = s.marginBottom := by rw [h.sc]; rfl
  obtain ⟨k1, k2⟩ := hcur
  dsimp only
  rw [h1, h3]
  have hmx : u32 (sub32 s.marginBottom s.cursorY + 1) = s.marginBottom + 1 - s.cursorY := by
    unfold u32 sub32; omega
  generalize u32 (sub32 s.marginBottom s.cursorY + 1) = max at *
  have hnm : (if num > max then max else num) ≤ max := by split <;> omega
  generalize (if num > max then max else num) = num' at *
  refine h.rearrange (idx := fun i => sub32 s.marginBottom i) (n := num') ?_
    (fun {α} s L C => (if num' < max then do
        let as ← memmove .oobLine L (s.cursorY + num') s.cursorY (max - num')
        memcpy .oobLine as s.cursorY C
      else .ok L : Verif.R (List α))) ?_ ?_ ?_
  · intro j k _ hj _ hk hh
    unfold sub32 at hh
    omega
  · intro α L C; rfl
  · intro α β f L C
    by_cases hn : num' < max
    · have := shiftDown_map f (L := L) (C := C) (t := s.cursorY) (max := max) (num := num')
      unfold shiftDown at this
      rw [if_pos hn, if_pos hn] at this
      rw [if_pos hn, if_pos hn]
      exact this
    · rw [if_neg hn, if_neg hn]; rfl
  · intro L C R hC hidx hR
    by_cases hn : num' < max
    · rw [if_pos hn] at hR
      have hR : shiftDown L C s.cursorY max num' = .ok R := by
        unfold shiftDown
        rw [if_pos hn]
        exact hR
      have hCr := taken_down hC (by omega) (by omega) hidx
      obtain ⟨q, _, _⟩ := shiftDown_perm hC hnm hR
      refine q.trans ?_
      have e : s.cursorY + (max - num') = s.marginBottom + 1 - num' := by omega
      have e' : s.cursorY + max = s.marginBottom + 1 - num' + num' := by omega
      rw [e, e']
      refine ((List.reverse_perm C).symm.append_right _).trans ?_
      rw [hCr]
      exact (slice_perm L _ num').symm
    · rw [if_neg hn] at hR
      cases hR
      exact .refl _

theorem Rel.deleteLines {p : PScreen} {s : Screen} (h : Rel p s) (hm : Margins s) (num : Nat) :
    Sim (p.deleteLines num) (s.deleteLines num) := by
  unfold PScreen.deleteLines Screen.deleteLines
  have h1 : p.sc.cursorY = s.cursorY := by rw [h.sc]; rfl
  have h2 : p.sc.marginTop = s.marginTop := by rw [h.sc]; rfl
  have h3 : p.sc.marginBottom = s.marginBottom := by rw [h.sc]; rfl
  refine .ite Iff.rfl (fun _ => .ok h) (fun _ => ?_)
  refine .ite (by rw [h1, h2, h3]) (fun _ => .ok h) (fun hc => ?_)
  obtain ⟨m1, m2⟩ := hm
  have hcur : s.incAge.touch.cursorY ≤ s.incAge.touch.marginBottom ∧ s.incAge.touch.marginBottom + 1 < 4294967296 := by
    obtain ⟨a, b, _⟩ := incAge_touch s
    omega
  have h := h.incTouch
  clear h1 h2 h3 hc m1 m2
  generalize (p.onSc fun s => s.incAge.touch) = p at *
  generalize s.incAge.touch = s at *
  have h1 : p.sc.cursorY = s.cursorY := by rw [h.sc]; rfl
  have h3 : p.sc.marginBottom = s.marginBottom := by rw [h.sc]; rfl
  obtain ⟨k1, k2⟩ := hcur
  dsimp only
  rw [h1, h3]
  have hmx : u32 (sub32 s.marginBottom s.cursorY + 1) = s.marginBottom + 1 - s.cursorY := by
    unfold u32 sub32; omega
  generalize u32 (sub32 s.marginBottom s.cursorY + 1) = max at *
  have hnm : (if num > max then max else num) ≤ max := by split <;> omega
  generalize (if num > max then max else num) = num' at *
  refine h.rearrange (idx := fun i => s.cursorY + i) (n := num') ?_
    (fun {α} s L C => (if num' < max then do
        let as ← memmove .oobLine L s.cursorY (s.cursorY + num') (max - num')
        memcpy .oobLine as (s.cursorY + (max - num')) C
      else .ok L : Verif.R (List α))) ?_ ?_ ?_
  · intro j k _ hj _ hk hh
    omega
  · intro α L C; rfl
  · intro α β f L C
    by_cases hn : num' < max
    · have := shiftUp_map f (L := L) (C := C) (t := s.cursorY) (max := max) (num := num')
      unfold shiftUp at this
      rw [if_pos hn, if_pos hn] at this
      rw [if_pos hn, if_pos hn]
      exact this
    · rw [if_neg hn, if_neg hn]; rfl
  · intro L C R hC hidx hR
    by_cases hn : num' < max
    · rw [if_pos hn] at hR
      have hR : shiftUp L C s.cursorY max num' = .ok R := by
        unfold shiftUp
        rw [if_pos hn]
        exact hR
      have hCr := taken_up hC hidx
      obtain ⟨q, _⟩ := shiftUp_perm hC hnm hR
      refine q.trans ?_
      rw [hCr]
      exact (slice_perm L _ num').symm
    · rw [if_neg hn] at hR
      cases hR
      exact .refl _

end PScreen
end Verif
