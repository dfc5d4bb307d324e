import Verif.Proofs.Heap.Run

/-!
# Copying the selection with pointers
-/

namespace Verif
namespace PScreen

/-- Two positions of a selection are the same, one with a pointer and one with the id of a line. -/
structure SPos (z : List (Nat × Line)) (a A : SelPos) : Prop where
  line : Ref z a.line A.line
  x : a.x = A.x
  y : a.y = A.y

theorem Core.nodupZ {p : PScreen} {s : Screen} {z X ext : List (Nat × Line)} (c : Core p s z X ext) :
    (z.map (·.1)).Nodup := by
  have := c.own.nodup_iff.1 c.nodup
  rw [List.map_append] at this
  exact (List.nodup_append.1 this).2.1

theorem Core.lenZ {p : PScreen} {s : Screen} {z X ext : List (Nat × Line)} (c : Core p s z X ext) :
    z.length ≤ p.heap.live.length := by
  have := c.own.length_eq
  rw [List.length_map, List.length_append] at this
  omega

/-- Only the last line is the last. -/
theorem Core.isLast {p : PScreen} {s : Screen} {z X ext u t : List (Nat × Line)} {e : Nat × Line}
    (c : Core p s z X ext) (hz : z = u ++ e :: t) : some e.1 = p.last ↔ t = [] := by
  rw [c.last, hz]
  constructor
  · intro h
    cases t with
    | nil => rfl
    | cons f t =>
      exfalso
      have hq : (u ++ e :: f :: t).getLast? = (f :: t).getLast? := by
        rw [List.getLast?_append, List.getLast?_cons_cons]
        rcases hl : (f :: t).getLast? with _ | w
        · simp at hl
        · rfl
      rw [hq] at h
      rcases hl : (f :: t).getLast? with _ | w
      · simp at hl
      rw [hl] at h
      have hw : w ∈ f :: t := List.mem_of_getLast? hl
      have hn := c.nodupZ
      rw [hz, List.map_append, List.map_cons] at hn
      have := (List.nodup_cons.1 (List.nodup_append.1 hn).2.1).1
      exact this (by rw [Option.some.inj h]; exact List.mem_map_of_mem hw)
  · rintro rfl
    simp

/-- A pointer that is not in the rest of the scrollback swaps nothing. -/
theorem Core.normLoop_none {p : PScreen} {s : Screen} {z X : List (Nat × Line)} (c : Core p s z X []) {a b : SelPos} :
    ∀ (n : Nat) {u t : List (Nat × Line)}, z = u ++ t → t.length ≤ n → (∀ e ∈ t, some e.1 ≠ a.line) →
      normLoop p.heap p.last n (t.head?.map (·.1)) (a, b) = .ok (a, b)
  | n, u, [], _, _, _ => by cases n <;> rfl
  | 0, u, e :: t, _, h, _ => by simp at h
  | n + 1, u, e :: t, hz, h, ha => by
    show (if some e.1 = p.last then _ else _) = _
    by_cases hl : some e.1 = p.last
    · rw [if_pos hl]
    · rw [if_neg hl, read_ok (c.liveZ (by rw [hz]; simp))]
      show normLoop _ _ n (p.heap.obj e.1).next (if some e.1 = a.line then (b, a) else (a, b)) = _
      rw [if_neg (ha e (by simp)), c.seg.next hz]
      exact Core.normLoop_none c n (u := u ++ [e]) (by rw [hz]; simp) (by simp at h; omega)
        (fun f hf => ha f (by simp [hf]))

theorem Core.normLoop {p : PScreen} {s : Screen} {z X : List (Nat × Line)} (c : Core p s z X []) {a b : SelPos} :
    ∀ (n : Nat) {u t : List (Nat × Line)}, z = u ++ t → t.length ≤ n → (∀ e ∈ t, some e.1 ≠ b.line) →
      normLoop p.heap p.last n (t.head?.map (·.1)) (a, b) =
        .ok (if ∃ e ∈ t.dropLast, some e.1 = a.line then (b, a) else (a, b))
  | n, u, [], _, _, _ => by cases n <;> rfl
  | 0, u, e :: t, _, h, _ => by simp at h
  | n + 1, u, e :: t, hz, h, ha => by
    show (if some e.1 = p.last then _ else _) = _
    by_cases hl : some e.1 = p.last
    · rw [if_pos hl]
      have := (c.isLast hz).1 hl
      subst this
      rw [if_neg (by simp)]
    · rw [if_neg hl, read_ok (c.liveZ (by rw [hz]; simp))]
      have ht : t ≠ [] := fun h => hl ((c.isLast hz).2 h)
      show PScreen.normLoop _ _ n (p.heap.obj e.1).next (if some e.1 = a.line then (b, a) else (a, b)) = _
      rw [c.seg.next hz, List.dropLast_cons_of_ne_nil ht]
      have hz' : z = (u ++ [e]) ++ t := by rw [hz]; simp
      have hlen : t.length ≤ n := by simp at h; omega
      by_cases hs : some e.1 = a.line
      · rw [if_pos hs, if_pos ⟨e, by simp, hs⟩]
        exact c.normLoop_none n hz' hlen (fun f hf => ha f (by simp [hf]))
      · rw [if_neg hs, Core.normLoop c n hz' hlen (fun f hf => ha f (by simp [hf]))]
        congr 1
        by_cases hx : ∃ f ∈ t.dropLast, some f.1 = a.line
        · rw [if_pos hx, if_pos]
          obtain ⟨f, hf, hfa⟩ := hx
          exact ⟨f, by simp [hf], hfa⟩
        · rw [if_neg hx, if_neg]
          rintro ⟨f, hf, hfa⟩
          rcases List.mem_cons.1 hf with rfl | hf
          · exact hs hfa
          · exact hx ⟨f, hf, hfa⟩

theorem Core.line_eq {p : PScreen} {s : Screen} {z X : List (Nat × Line)} (c : Core p s z X []) {q r i j : Option Nat}
    (h : Ref z q i) (h' : Ref z r j) : q = r ↔ i = j := by
  rcases q with _ | q
  · rw [h.none_iff.1 rfl]
    constructor
    · rintro rfl; rw [h'.none_iff.1 rfl]
    · rintro rfl; rw [h'.none_iff.2 rfl]
  · rcases i with _ | i
    · exact absurd h (by simp [Ref])
    obtain ⟨e, he, rfl, rfl⟩ := h
    constructor
    · rintro rfl; exact ((c.ref_eq h' he).1 rfl).symm
    · rintro rfl; exact ((c.ref_eq h' he).2 rfl).symm

theorem swap_ok {z : List (Nat × Line)} {a b A B : SelPos} {P : Prop} [Decidable P] (ha : SPos z a A)
    (hb : SPos z b B) : ∃ a' b', (.ok (if P then (b, a) else (a, b)) : R (SelPos × SelPos)) = .ok (a', b') ∧
      SPos z a' (if P then (B, A) else (A, B)).1 ∧ SPos z b' (if P then (B, A) else (A, B)).2 := by
  by_cases h : P
  · rw [if_pos h, if_pos h]; exact ⟨_, _, rfl, hb, ha⟩
  · rw [if_neg h, if_neg h]; exact ⟨_, _, rfl, ha, hb⟩

/-- Bringing the endpoints in order. -/
theorem Core.normSel {p : PScreen} {s : Screen} {z X : List (Nat × Line)} (c : Core p s z X []) {a b A B : SelPos}
    (ha : SPos z a A) (hb : SPos z b B) : ∃ a' b', p.normSel a b = .ok (a', b') ∧
      SPos z a' (Screen.normSel s.sb A B).1 ∧ SPos z b' (Screen.normSel s.sb A B).2 := by
  obtain ⟨al, ax, ay⟩ := a
  obtain ⟨bl, bx, bY⟩ := b
  obtain ⟨Al, Ax, Ay⟩ := A
  obtain ⟨Bl, Bx, By⟩ := B
  obtain ⟨ha1, ha2, ha3⟩ := ha
  obtain ⟨hb1, hb2, hb3⟩ := hb
  dsimp only at ha1 ha2 ha3 hb1 hb2 hb3
  subst ha2 ha3 hb2 hb3
  have ha : SPos z ⟨al, ax, ay⟩ ⟨Al, ax, ay⟩ := ⟨ha1, rfl, rfl⟩
  have hb : SPos z ⟨bl, bx, bY⟩ ⟨Bl, bx, bY⟩ := ⟨hb1, rfl, rfl⟩
  unfold PScreen.normSel Screen.normSel
  have na := ha1.none_iff
  have nb := hb1.none_iff
  dsimp only
  by_cases h1 : Bl = none ∧ bY = -1
  · rw [if_pos h1, if_pos ⟨nb.2 h1.1, h1.2⟩]
    exact ⟨_, _, rfl, hb, ha⟩
  rw [if_neg h1, if_neg (fun h => h1 ⟨nb.1 h.1, h.2⟩)]
  rcases Al with _ | i
  · have := na.2 rfl
    subst this
    rw [if_neg (by simp)]
    rcases Bl with _ | j
    · have := nb.2 rfl
      subst this
      rw [if_neg (by simp)]
      dsimp only
      by_cases hy : ay = bY
      · rw [if_pos hy, if_pos hy]
        exact swap_ok ha hb
      · rw [if_neg hy, if_neg hy]
        exact swap_ok ha hb
    · rw [if_pos ⟨rfl, fun h => by cases nb.1 h⟩]
      exact ⟨_, _, rfl, hb, ha⟩
  · rcases Bl with _ | j
    · have := nb.2 rfl
      subst this
      rw [if_neg (by simp), if_neg (by simp)]
      dsimp only
      by_cases hy : ay = bY
      · rw [if_pos hy, if_pos hy]
        exact swap_ok ha hb
      · rw [if_neg hy, if_neg hy]
        exact swap_ok ha hb
    · rw [if_pos ⟨fun h => (by cases na.1 h), fun h => (by cases nb.1 h)⟩]
      dsimp only
      have hab := c.line_eq ha1 hb1
      by_cases hl : i = j
      · rw [if_pos hl, if_pos (hab.2 (by rw [hl]))]
        exact swap_ok ha hb
      · have hl' : al ≠ bl := fun h => hl (Option.some.inj (hab.1 h))
        rw [if_neg hl, if_neg hl']
        rcases bl with _ | bp
        · exact absurd hb1 (by simp [Ref])
        obtain ⟨u, e, t, hz, rfl, rfl⟩ := hb1.split
        have hn := c.nodupZ
        have hsbF : Screen.sbFrom s.sb (some e.2.sbId) = (e :: t).map (·.2) := by
          rw [c.sb, hz, List.map_append, List.map_cons]
          refine sbFrom_split ?_
          rw [← List.map_cons, ← List.map_append, ← hz, ← c.sb]
          exact c.sbIds
        have hloop : PScreen.normLoop p.heap p.last (p.heap.live.length + 1) (some e.1)
            (⟨al, ax, ay⟩, ⟨some e.1, bx, bY⟩) = .ok (if ∃ f ∈ (e :: t).dropLast, some f.1 = al then
              ((⟨some e.1, bx, bY⟩ : SelPos), (⟨al, ax, ay⟩ : SelPos)) else (⟨al, ax, ay⟩, ⟨some e.1, bx, bY⟩)) := by
          show (if some e.1 = p.last then _ else _) = _
          by_cases hlast : some e.1 = p.last
          · rw [if_pos hlast]
            have := (c.isLast hz).1 hlast
            subst this
            rw [if_neg (by simp)]
          · have ht : t ≠ [] := fun h => hlast ((c.isLast hz).2 h)
            rw [if_neg hlast, read_ok (c.liveZ (by rw [hz]; simp))]
            show PScreen.normLoop _ _ _ (p.heap.obj e.1).next
              (if some e.1 = al then ((⟨some e.1, bx, bY⟩ : SelPos), (⟨al, ax, ay⟩ : SelPos)) else _) = _
            rw [if_neg (fun h => hl' h.symm), c.seg.next hz, List.dropLast_cons_of_ne_nil ht]
            rw [hz, List.map_append, List.map_cons] at hn
            have hnt := (List.nodup_cons.1 (List.nodup_append.1 hn).2.1).1
            rw [c.normLoop _ (u := u ++ [e]) (t := t) (by rw [hz]; simp) ?_ ?_]
            · dsimp only
              congr 1
              by_cases hx : ∃ f ∈ t.dropLast, some f.1 = al
              · rw [if_pos hx, if_pos]
                obtain ⟨f, hf, hfa⟩ := hx
                exact ⟨f, by simp [hf], hfa⟩
              · rw [if_neg hx, if_neg]
                rintro ⟨f, hf, hfa⟩
                rcases List.mem_cons.1 hf with rfl | hf
                · exact hl' hfa.symm
                · exact hx ⟨f, hf, hfa⟩
            · have := c.lenZ
              rw [hz] at this
              simp at this
              omega
            · intro f hf h
              exact hnt (by rw [← Option.some.inj h]; exact List.mem_map_of_mem hf)
        rw [hloop]
        have hiff : Screen.normScan s.sb e.2.sbId i = true ↔ ∃ f ∈ (e :: t).dropLast, some f.1 = al := by
          unfold Screen.normScan
          rw [hsbF, ← List.map_dropLast, List.any_eq_true]
          constructor
          · rintro ⟨l, hl, hi⟩
            obtain ⟨f, hf, rfl⟩ := List.mem_map.1 hl
            refine ⟨f, hf, ?_⟩
            have hfz : f ∈ z := by
              rw [hz]; exact List.mem_append_right _ (List.dropLast_subset _ hf)
            exact ((c.ref_eq ha1 hfz).2 (by rw [← of_decide_eq_true hi])).symm
          · rintro ⟨f, hf, hfa⟩
            have hfz : f ∈ z := by
              rw [hz]; exact List.mem_append_right _ (List.dropLast_subset _ hf)
            refine ⟨f.2, List.mem_map_of_mem hf, decide_eq_true ?_⟩
            exact (Option.some.inj ((c.ref_eq ha1 hfz).1 hfa.symm)).symm
        by_cases hsc : Screen.normScan s.sb e.2.sbId i = true
        · rw [if_pos hsc, if_pos (hiff.1 hsc)]
          exact ⟨_, _, rfl, hb, ha⟩
        · rw [if_neg hsc, if_neg (fun h => hsc (hiff.2 h))]
          exact ⟨_, _, rfl, ha, hb⟩

theorem Core.topStart {p : PScreen} {s : Screen} {z X : List (Nat × Line)} (c : Core p s z X []) {a A : SelPos}
    (ha : SPos z a A) : SPos z (p.topStart a) (Screen.topStart s.sb A) := by
  unfold PScreen.topStart Screen.topStart
  have hn := ha.line.none_iff
  by_cases h : A.line = none ∧ A.y = -1
  · rw [if_pos h, if_pos ⟨hn.2 h.1, ha.y.trans h.2⟩, c.sb, c.first]
    cases z with
    | nil => exact ⟨by rw [hn.2 h.1, h.1]; trivial, rfl, rfl⟩
    | cons e z => exact ⟨⟨e, by simp, rfl, rfl⟩, rfl, ha.y⟩
  · rw [if_neg h, if_neg (fun h' => h ⟨hn.1 h'.1, ha.y.symm.trans h'.2⟩)]
    exact ha

theorem Core.countLoop {p : PScreen} {s : Screen} {z X : List (Nat × Line)} (c : Core p s z X []) :
    ∀ (n : Nat) {u t : List (Nat × Line)}, z = u ++ t → t.length ≤ n →
      countLoop p.heap p.last n (t.head?.map (·.1)) = .ok t.length
  | n, u, [], _, _ => by cases n <;> rfl
  | 0, u, e :: t, _, h => by simp at h
  | n + 1, u, e :: t, hz, h => by
    show (if some e.1 = p.last then _ else _) = _
    by_cases hl : some e.1 = p.last
    · rw [if_pos hl, (c.isLast hz).1 hl]; rfl
    · rw [if_neg hl, read_ok (c.liveZ (by rw [hz]; simp))]
      show (PScreen.countLoop _ _ n (p.heap.obj e.1).next >>= fun k => _) = _
      rw [c.seg.next hz, Core.countLoop c n (u := u ++ [e]) (by rw [hz]; simp) (by simp at h; omega)]
      rfl

/-- A pointer into the scrollback and the lines from there on. -/
theorem Core.fromRef {p : PScreen} {s : Screen} {z X : List (Nat × Line)} (c : Core p s z X []) {q i : Option Nat}
    (h : Ref z q i) : ∃ u t, z = u ++ t ∧ q = t.head?.map (·.1) ∧ Screen.sbFrom s.sb i = t.map (·.2) := by
  rcases q with _ | q
  · rw [h.none_iff.1 rfl]
    exact ⟨z, [], by simp, rfl, rfl⟩
  · rcases i with _ | i
    · exact absurd h (by simp [Ref])
    obtain ⟨u, x, t, hz, rfl, rfl⟩ := h.split
    refine ⟨u, x :: t, hz, rfl, ?_⟩
    rw [c.sb, hz, List.map_append, List.map_cons]
    refine sbFrom_split ?_
    rw [← List.map_cons, ← List.map_append, ← hz, ← c.sb]
    exact c.sbIds

theorem Core.countSb {p : PScreen} {s : Screen} {z X : List (Nat × Line)} (c : Core p s z X []) {a b A B : SelPos}
    (ha : SPos z a A) (hb : SPos z b B) : p.countSb a b = .ok (Screen.countSb s.sb A B) := by
  unfold PScreen.countSb Screen.countSb
  have hn := ha.line.none_iff
  have hab := c.line_eq ha.line hb.line
  obtain ⟨u, t, hz, h1, h2⟩ := c.fromRef ha.line
  have hl := c.lenZ
  have hlt : t.length ≤ p.heap.live.length + 1 := by rw [hz, List.length_append] at hl; omega
  rcases hA : A.line with _ | i
  · have h0 := hn.2 hA
    rw [if_neg (fun h => h.1 h0), h0]
    rfl
  · have h0 : a.line ≠ none := fun h => by rw [hn.1 h] at hA; cases hA
    rw [hA] at hab h2
    by_cases he : B.line = some i
    · rw [if_pos ⟨h0, hab.2 he.symm⟩]
      simp only [he, if_true]
    · rw [if_neg (fun h => he (hab.1 h.2).symm), h1, c.countLoop _ hz hlt]
      dsimp only
      rw [if_neg he, h2, List.length_map]

theorem Core.selLenSb {p : PScreen} {s : Screen} {z X : List (Nat × Line)} (c : Core p s z X []) {a b A B : SelPos}
    (ha : SPos z a A) (hb : SPos z b B) {e : Nat × Line} (he : e ∈ z) :
    p.sc.selLenSb a b e.1 = s.selLenSb A B e.2.sbId := by
  unfold Screen.selLenSb
  have hx : p.sc.sizeX = s.sizeX := by rw [c.sc]; rfl
  rw [hx, ha.x, hb.x]
  simp only [c.line_eq ha.line hb.line, c.ref_eq ha.line he, c.ref_eq hb.line he]

theorem Core.copySbLoop {p : PScreen} {s : Screen} {z X : List (Nat × Line)} (c : Core p s z X []) {a b A B : SelPos}
    (ha : SPos z a A) (hb : SPos z b B) : ∀ (n : Nat) {u t : List (Nat × Line)}, z = u ++ t → t.length ≤ n →
      p.copySbLoop a b n (t.head?.map (·.1)) = .ok (s.copySbLoop A B (t.map (·.2)))
  | n, u, [], _, _ => by cases n <;> rfl
  | 0, u, e :: t, _, h => by simp at h
  | n + 1, u, e :: t, hz, h => by
    have he : e ∈ z := by rw [hz]; simp
    show (p.heap.read e.1 >>= fun o => _) = _
    rw [read_ok (c.liveZ he)]
    simp only [bind, Except.bind, List.map_cons, Screen.copySbLoop]
    rw [c.seg.line e he, c.selLenSb ha hb he, ha.x]
    have h1 : (some e.1 = a.line) ↔ A.line = some e.2.sbId := by
      rw [eq_comm]; exact c.ref_eq ha.line he
    have h2 : (some e.1 = b.line) ↔ B.line = some e.2.sbId := by
      rw [eq_comm]; exact c.ref_eq hb.line he
    have h3 := c.isLast hz
    simp only [h1, h2, h3]
    by_cases hB : B.line = some e.2.sbId
    · rw [if_pos (Or.inr hB), if_pos hB, List.append_nil]
    · rw [if_neg hB]
      cases t with
      | nil => rw [if_pos (Or.inl rfl)]; simp [Screen.copySbLoop]
      | cons f t =>
        rw [if_neg (by simp [hB]), c.seg.next hz,
          Core.copySbLoop c ha hb n (u := u ++ [e]) (t := f :: t) (by rw [hz]; simp) (by simp at h ⊢; omega)]
        rfl

theorem Core.copySb {p : PScreen} {s : Screen} {z X : List (Nat × Line)} (c : Core p s z X []) {a b A B : SelPos}
    (ha : SPos z a A) (hb : SPos z b B) : p.copySb a b = .ok (s.copySb A B) := by
  unfold PScreen.copySb Screen.copySb
  obtain ⟨u, t, hz, h1, h2⟩ := c.fromRef ha.line
  have hl := c.lenZ
  have hlt : t.length ≤ p.heap.live.length + 1 := by rw [hz, List.length_append] at hl; omega
  rw [h1, c.copySbLoop ha hb _ hz hlt, ← h2]
  cases hA : A.line with
  | none => rfl
  | some i => rfl

theorem Core.copyScreenLoop {p : PScreen} {s : Screen} {z L W : List (Nat × Line)} (c : Core p s z (L ++ W) [])
    (hp : p.lines = L.map (·.1)) (hs : s.lines = L.map (·.2)) {a b A B : SelPos} (ha : SPos z a A) (hb : SPos z b B) :
    ∀ (n : Nat) (i : Int), p.copyScreenLoop a b n i = s.copyScreenLoop A B n i
  | 0, _ => rfl
  | n + 1, i => by
    unfold PScreen.copyScreenLoop Screen.copyScreenLoop
    by_cases hi : i < 0
    · rw [if_pos hi, if_pos hi]
    rw [if_neg hi, if_neg hi, hp, hs, List.getElem?_map, List.getElem?_map]
    rcases hL : L[i.toNat]? with _ | e
    · rfl
    · have he : e ∈ L ++ W := List.mem_append_left _ (List.mem_of_getElem? hL)
      simp only [Option.map_some]
      rw [read_ok (c.liveX he)]
      simp only [bind, Except.bind]
      rw [c.obj e he, Core.copyScreenLoop c hp hs ha hb n (i + 1)]
      have hlen : p.sc.selLen a b i = s.selLen A B i := by
        unfold Screen.selLen
        have hx : p.sc.sizeX = s.sizeX := by rw [c.sc]; rfl
        rw [hx, ha.x, hb.x, ha.y, hb.y]
        simp only [ha.line.none_iff]
      rw [hlen, ha.x, ha.y]
      simp only [ha.line.none_iff]

theorem Core.copyScreen {p : PScreen} {s : Screen} {z L W : List (Nat × Line)} (c : Core p s z (L ++ W) [])
    (hp : p.lines = L.map (·.1)) (hs : s.lines = L.map (·.2)) {a b A B : SelPos} (ha : SPos z a A) (hb : SPos z b B) :
    p.copyScreen a b = s.copyScreen A B := by
  unfold PScreen.copyScreen Screen.copyScreen
  simp only [ne_eq, hb.line.none_iff]
  rw [ha.y, hb.y, c.copyScreenLoop hp hs ha hb]

/-- Copying gives the same text, or fails in the same way. -/
theorem Rel.selectionCopy {p : PScreen} {s : Screen} (h : Rel p s) : p.selectionCopy = s.selectionCopy := by
  obtain ⟨z, zm, za, c, r⟩ := h
  obtain ⟨L, W, hp, hpl, hsl, _⟩ := r.cur (by rw [c.sc]; rfl)
  have c' := c.perm hp
  unfold PScreen.selectionCopy Screen.selectionCopy
  have ha : p.sc.selActive = s.selActive := by rw [c.sc]; rfl
  have hx : p.sc.sizeX = s.sizeX := by rw [c.sc]; rfl
  have h1 : p.sc.allocOk = s.allocOk := by rw [c.sc]; rfl
  have h2 : p.sc.allocN = s.allocN := by rw [c.sc]; rfl
  have x1 : p.sc.selStart.x = s.selStart.x := by rw [c.sc]; rfl
  have y1 : p.sc.selStart.y = s.selStart.y := by rw [c.sc]; rfl
  have x2 : p.sc.selEnd.x = s.selEnd.x := by rw [c.sc]; rfl
  have y2 : p.sc.selEnd.y = s.selEnd.y := by rw [c.sc]; rfl
  dsimp only
  rw [ha]
  by_cases hs : s.selActive = false
  · rw [if_pos hs, if_pos hs]
  rw [if_neg hs, if_neg hs, y1, y2]
  obtain ⟨r1, r2⟩ := c.sel (by simpa using hs)
  simp only [r1.none_iff, r2.none_iff]
  by_cases ht : s.selStart.y = -1 ∧ s.selStart.line = none ∧ s.selEnd.y = -1 ∧ s.selEnd.line = none
  · rw [if_pos ht, if_pos ht]
  rw [if_neg ht, if_neg ht]
  have sa : SPos z ⟨p.selS, p.sc.selStart.x, s.selStart.y⟩ s.selStart := ⟨r1, x1, rfl⟩
  have sb : SPos z ⟨p.selE, p.sc.selEnd.x, s.selEnd.y⟩ s.selEnd := ⟨r2, x2, rfl⟩
  obtain ⟨a', b', e1, e2, e3⟩ := c.normSel sa sb
  rw [e1]
  simp only [bind, Except.bind]
  generalize Screen.normSel s.sb s.selStart s.selEnd = ab at *
  obtain ⟨A, B⟩ := ab
  dsimp only at e2 e3 ⊢
  have e4 := c.topStart e2
  generalize p.topStart a' = a' at *
  generalize Screen.topStart s.sb A = A at *
  rw [c.countSb e4 e3]
  have hcs : Screen.countScreen a' b' = Screen.countScreen A B := by
    unfold Screen.countScreen
    simp only [ne_eq, e4.line.none_iff, e3.line.none_iff]
    rw [e4.y, e3.y]
  dsimp only
  rw [hcs, hx, h1, h2, c.copySb e4 e3, c'.copyScreen hpl hsl e4 e3]
  rfl

end PScreen
end Verif
