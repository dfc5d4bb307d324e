import Verif.Model.Heap

/-!
# Screens with pointers and screens with lists: the relation, and the scrollback
-/

namespace Verif
namespace PScreen

/-- The fields of a screen that are not lines or pointers to lines. -/
def bare (s : Screen) : Screen :=
  { s with
    main := [], alt := [], sb := [], sbPos := none
    selStart := { s.selStart with line := none }, selEnd := { s.selEnd with line := none } }

/-- The objects of a doubly linked list of lines; `q` is the `prev` pointer of the first. -/
def Seg (obj : Nat → LineObj) : Option Nat → List (Nat × Line) → Prop
  | _, [] => True
  | q, e :: z => obj e.1 = ⟨z.head?.map (·.1), q, e.2⟩ ∧ Seg obj (some e.1) z

/-- A pointer into the scrollback and the id of the same line. -/
def Ref (z : List (Nat × Line)) : Option Nat → Option Nat → Prop
  | none, none => True
  | some a, some i => ∃ e ∈ z, e.1 = a ∧ e.2.sbId = i
  | _, _ => False

/-- `p` is `s` with pointers: `z` is the scrollback, `X` are the other allocated lines, `sb_pos` may also point to
`ext`. -/
structure Core (p : PScreen) (s : Screen) (z X ext : List (Nat × Line)) : Prop where
  sc : p.sc = bare s
  sb : s.sb = z.map (·.2)
  own : p.heap.live.Perm ((X ++ z).map (·.1))
  nodup : p.heap.live.Nodup
  obj : ∀ e ∈ X, (p.heap.obj e.1).line = e.2
  seg : Seg p.heap.obj none z
  first : p.first = z.head?.map (·.1)
  last : p.last = z.getLast?.map (·.1)
  pos : Ref (z ++ ext) p.pos s.sbPos
  sel : s.selActive = true → Ref z p.selS s.selStart.line ∧ Ref z p.selE s.selEnd.line
  ids : (z.map (·.2.sbId)).Pairwise (· < ·)
  lastId : ∀ e ∈ z, e.2.sbId ≤ s.sbLastId

/-! ### Linked lists -/

theorem Seg.congr {obj obj' : Nat → LineObj} : ∀ {z : List (Nat × Line)} {q : Option Nat},
    (∀ e ∈ z, obj' e.1 = obj e.1) → Seg obj q z → Seg obj' q z
  | [], _, _, _ => trivial
  | e :: _, _, h, hs =>
    ⟨(h e (List.mem_cons_self ..)).trans hs.1, Seg.congr (fun x hx => h x (List.mem_cons_of_mem _ hx)) hs.2⟩

theorem Seg.split {obj : Nat → LineObj} : ∀ {l : List (Nat × Line)} {q : Option Nat} {e : Nat × Line}
    {r : List (Nat × Line)}, Seg obj q (l ++ e :: r) →
    obj e.1 = ⟨r.head?.map (·.1), (l.getLast?.map (·.1)).or q, e.2⟩
  | [], q, e, r, h => by simpa using h.1
  | [x], q, e, r, h => by simpa using h.2.1
  | x :: y :: l, q, e, r, h => by
    have := Seg.split (l := y :: l) h.2
    rw [this, List.getLast?_cons_cons]
    rcases hl : (y :: l).getLast? with _ | w
    · simp at hl
    · rfl

theorem Seg.line {obj : Nat → LineObj} : ∀ {z : List (Nat × Line)} {q : Option Nat}, Seg obj q z →
    ∀ e ∈ z, (obj e.1).line = e.2
  | _ :: _, _, h, e, he => by
    rcases List.mem_cons.1 he with rfl | he
    · rw [h.1]
    · exact Seg.line h.2 e he

/-- Appending an element. -/
theorem Seg.snoc {obj obj' : Nat → LineObj} {e : Nat × Line} : ∀ {z : List (Nat × Line)} {q : Option Nat},
    Seg obj q z → ((z ++ [e]).map (·.1)).Nodup →
    (∀ b, b ∈ z.map (·.1) → some b ≠ z.getLast?.map (·.1) → obj' b = obj b) →
    (∀ b, z.getLast?.map (·.1) = some b → obj' b = { obj b with next := some e.1 }) →
    obj' e.1 = ⟨none, (z.getLast?.map (·.1)).or q, e.2⟩ → Seg obj' q (z ++ [e])
  | [], q, _, _, _, _, h3 => ⟨by simpa using h3, trivial⟩
  | [x], q, hs, hn, _, h2, h3 => by
    refine ⟨?_, ?_, trivial⟩
    · rw [h2 x.1 rfl, hs.1]
      rfl
    · rw [h3]
      rfl
  | x :: y :: z, q, hs, hn, h1, h2, h3 => by
    have hn' : (((y :: z) ++ [e]).map (·.1)).Nodup := (List.nodup_cons.1 hn).2
    have hx : x.1 ∉ ((y :: z) ++ [e]).map (·.1) := (List.nodup_cons.1 hn).1
    have hlast : (x :: y :: z).getLast?.map (·.1) = (y :: z).getLast?.map (·.1) := by rw [List.getLast?_cons_cons]
    rw [hlast] at h1 h2 h3
    refine ⟨?_, Seg.snoc hs.2 hn' (fun b hb => h1 b (List.mem_cons_of_mem _ hb)) h2 ?_⟩
    · rw [h1 x.1 (List.mem_cons_self ..) ?_, hs.1]
      · rfl
      · intro hh
        apply hx
        rw [List.map_append]
        refine List.mem_append_left _ ?_
        rcases hl : (y :: z).getLast? with _ | w
        · rw [hl] at hh; exact absurd hh (by simp)
        · rw [hl] at hh
          exact List.mem_map.2 ⟨w, List.mem_of_getLast? hl, (Option.some.inj hh).symm⟩
    · rw [h3]
      rcases hl : (y :: z).getLast? with _ | w
      · simp at hl
      · rfl

/-! ### Ids -/

theorem nextId_split : ∀ {l : List Line} {e : Line} {r : List Line},
    ((l ++ e :: r).map Line.sbId).Pairwise (· < ·) →
    Screen.nextId (l ++ e :: r) e.sbId = some (r.head?.map Line.sbId)
  | [], e, r, _ => by
    show (if e.sbId = e.sbId then _ else _) = _
    rw [if_pos rfl]
  | x :: l, e, r, h => by
    have h' := List.pairwise_cons.1 h
    have hne : x.sbId ≠ e.sbId := Nat.ne_of_lt (h'.1 _ (List.mem_map.2 ⟨e, by simp, rfl⟩))
    show (if x.sbId = e.sbId then _ else _) = _
    rw [if_neg hne]
    exact nextId_split h'.2

theorem prevId_split : ∀ {l : List Line} {e : Line} {r : List Line} (q : Option Nat),
    ((l ++ e :: r).map Line.sbId).Pairwise (· < ·) →
    Screen.prevId q (l ++ e :: r) e.sbId = some ((l.getLast?.map Line.sbId).or q)
  | [], e, r, q, _ => by
    show (if e.sbId = e.sbId then _ else _) = _
    rw [if_pos rfl]
    rfl
  | x :: l, e, r, q, h => by
    have h' := List.pairwise_cons.1 h
    have hne : x.sbId ≠ e.sbId := Nat.ne_of_lt (h'.1 _ (List.mem_map.2 ⟨e, by simp, rfl⟩))
    show (if x.sbId = e.sbId then _ else _) = _
    rw [if_neg hne]
    refine (prevId_split (some x.sbId) h'.2).trans ?_
    congr 1
    cases l with
    | nil => rfl
    | cons y l =>
      rw [List.getLast?_cons_cons]
      rcases hl : (y :: l).getLast? with _ | w
      · simp at hl
      · rfl

theorem sbFrom_split : ∀ {l : List Line} {e : Line} {r : List Line},
    ((l ++ e :: r).map Line.sbId).Pairwise (· < ·) → Screen.sbFrom (l ++ e :: r) (some e.sbId) = e :: r
  | [], e, r, _ => by
    show List.dropWhile (fun l => decide (l.sbId ≠ e.sbId)) (e :: r) = _
    rw [List.dropWhile_cons]
    simp
  | x :: l, e, r, h => by
    have h' := List.pairwise_cons.1 h
    have hne : x.sbId ≠ e.sbId := Nat.ne_of_lt (h'.1 _ (List.mem_map.2 ⟨e, by simp, rfl⟩))
    show List.dropWhile (fun l => decide (l.sbId ≠ e.sbId)) (x :: (l ++ e :: r)) = _
    rw [List.dropWhile_cons]
    simp only [ne_eq, hne, not_false_eq_true, decide_true, if_true]
    exact sbFrom_split h'.2

/-! ### References -/

theorem Ref.none_iff {z : List (Nat × Line)} {a i : Option Nat} (h : Ref z a i) : a = none ↔ i = none := by
  cases a <;> cases i <;> simp_all [Ref]

theorem Ref.mono {z z' : List (Nat × Line)} {a i : Option Nat} (h : Ref z a i) (hs : ∀ e ∈ z, e ∈ z') : Ref z' a i := by
  cases a <;> cases i <;> simp_all [Ref]
  obtain ⟨x, y, h1, h2, h3⟩ := h
  exact ⟨x, y, hs _ _ h1, h2, h3⟩

theorem Ref.split {z : List (Nat × Line)} {a i : Nat} (h : Ref z (some a) (some i)) :
    ∃ l e r, z = l ++ e :: r ∧ e.1 = a ∧ e.2.sbId = i := by
  obtain ⟨e, he, h1, h2⟩ := h
  obtain ⟨l, r, rfl⟩ := List.append_of_mem he
  exact ⟨l, e, r, rfl, h1, h2⟩

theorem Ref.head {z : List (Nat × Line)} : Ref z (z.head?.map (·.1)) ((z.map (·.2)).head?.map Line.sbId) := by
  cases z with
  | nil => trivial
  | cons e z => exact ⟨e, List.mem_cons_self .., rfl, rfl⟩

theorem Ref.last {z : List (Nat × Line)} : Ref z (z.getLast?.map (·.1)) ((z.map (·.2)).getLast?.map Line.sbId) := by
  rw [List.getLast?_map]
  rcases hl : z.getLast? with _ | e
  · trivial
  · exact ⟨e, List.mem_of_getLast? hl, rfl, rfl⟩

theorem nodup_fst {z : List (Nat × Line)} (h : (z.map (·.1)).Nodup) {e f : Nat × Line} (he : e ∈ z) (hf : f ∈ z)
    (h1 : e.1 = f.1) : e = f := by
  induction z with
  | nil => cases he
  | cons x z ih =>
    have hn := List.nodup_cons.1 h
    rcases List.mem_cons.1 he with rfl | he' <;> rcases List.mem_cons.1 hf with rfl | hf'
    · rfl
    · exact absurd (List.mem_map.2 ⟨f, hf', h1.symm⟩) hn.1
    · exact absurd (List.mem_map.2 ⟨e, he', h1⟩) hn.1
    · exact ih hn.2 he' hf'

theorem ids_inj {z : List (Nat × Line)} (h : (z.map (·.2.sbId)).Pairwise (· < ·)) {e f : Nat × Line} (he : e ∈ z)
    (hf : f ∈ z) (h1 : e.2.sbId = f.2.sbId) : e = f := by
  induction z with
  | nil => cases he
  | cons x z ih =>
    have hn := List.pairwise_cons.1 h
    rcases List.mem_cons.1 he with rfl | he' <;> rcases List.mem_cons.1 hf with rfl | hf'
    · rfl
    · exact absurd h1 (Nat.ne_of_lt (hn.1 _ (List.mem_map.2 ⟨f, hf', rfl⟩)))
    · exact absurd h1.symm (Nat.ne_of_lt (hn.1 _ (List.mem_map.2 ⟨e, he', rfl⟩)))
    · exact ih hn.2 he' hf'

/-! ### Consequences of the relation -/

theorem Core.perm {p : PScreen} {s : Screen} {z X Y ext : List (Nat × Line)} (h : Core p s z X ext) (hp : X.Perm Y) :
    Core p s z Y ext :=
  { h with
    own := h.own.trans ((hp.append_right z).map _)
    obj := fun e he => h.obj e (hp.mem_iff.2 he) }

theorem Core.nd {p : PScreen} {s : Screen} {z X ext : List (Nat × Line)} (h : Core p s z X ext) :
    ((X ++ z).map (·.1)).Nodup := h.own.nodup_iff.1 h.nodup

theorem Core.mem {p : PScreen} {s : Screen} {z X ext : List (Nat × Line)} (h : Core p s z X ext) {a : Nat} :
    a ∈ p.heap.live ↔ (∃ e ∈ X, e.1 = a) ∨ ∃ e ∈ z, e.1 = a := by
  rw [h.own.mem_iff, List.map_append, List.mem_append, List.mem_map, List.mem_map]

theorem Core.ndz {p : PScreen} {s : Screen} {z X ext : List (Nat × Line)} (h : Core p s z X ext) :
    (z.map (·.1)).Nodup := by
  have := h.nd
  rw [List.map_append] at this
  exact (List.nodup_append.1 this).2.1

theorem Core.ndx {p : PScreen} {s : Screen} {z X ext : List (Nat × Line)} (h : Core p s z X ext) :
    (X.map (·.1)).Nodup := by
  have := h.nd
  rw [List.map_append] at this
  exact (List.nodup_append.1 this).1

theorem Core.disj {p : PScreen} {s : Screen} {z X ext : List (Nat × Line)} (h : Core p s z X ext) {e f : Nat × Line}
    (he : e ∈ X) (hf : f ∈ z) : e.1 ≠ f.1 := by
  have := h.nd
  rw [List.map_append] at this
  exact (List.nodup_append.1 this).2.2 _ (List.mem_map.2 ⟨e, he, rfl⟩) _ (List.mem_map.2 ⟨f, hf, rfl⟩)

theorem Core.sbIds {p : PScreen} {s : Screen} {z X ext : List (Nat × Line)} (h : Core p s z X ext) :
    (s.sb.map Line.sbId).Pairwise (· < ·) := by
  rw [h.sb, List.map_map]
  exact h.ids

theorem Core.liveX {p : PScreen} {s : Screen} {z X ext : List (Nat × Line)} (h : Core p s z X ext) {e : Nat × Line}
    (he : e ∈ X) : e.1 ∈ p.heap.live := h.mem.2 (.inl ⟨e, he, rfl⟩)

theorem Core.liveZ {p : PScreen} {s : Screen} {z X ext : List (Nat × Line)} (h : Core p s z X ext) {e : Nat × Line}
    (he : e ∈ z) : e.1 ∈ p.heap.live := h.mem.2 (.inr ⟨e, he, rfl⟩)

/-- Two references to the scrollback agree as pointers just if they agree as ids. -/
theorem Core.ref_eq {p : PScreen} {s : Screen} {z X ext : List (Nat × Line)} (h : Core p s z X ext)
    {a i : Option Nat} (hr : Ref z a i) {e : Nat × Line} (he : e ∈ z) : a = some e.1 ↔ i = some e.2.sbId := by
  cases a <;> cases i <;> simp_all [Ref]
  rename_i a i
  obtain ⟨x, y, h1, rfl, rfl⟩ := hr
  constructor
  · intro hh
    have := nodup_fst h.ndz h1 he hh
    rw [← this]
  · intro hh
    have := ids_inj h.ids h1 he hh
    rw [← this]

theorem read_ok {h : Heap} {a : Nat} (ha : a ∈ h.live) : h.read a = .ok (h.obj a) := by
  unfold Heap.read; rw [if_pos ha]

theorem free_ok {h : Heap} {a : Nat} (ha : a ∈ h.live) : h.free a = .ok { h with live := h.live.erase a } := by
  unfold Heap.free; rw [if_pos ha]

theorem modify_ok {h : Heap} {a : Nat} {f : LineObj → LineObj} (ha : a ∈ h.live) :
    h.modify a f = .ok { h with obj := fun b => if b = a then f (h.obj a) else h.obj b } := by
  unfold Heap.modify; rw [if_pos ha]

end PScreen
end Verif
