import Verif.Proofs.Screen.Copy
import Verif.Proofs.Screen.Example

/-!
# Properties of selections

C30 setting the endpoints, C32 the copied text, C33 memory safety of copying, C34
independence of the direction.
-/

namespace Verif.Props.Screen

open Verif Verif.Screen Verif.Spec.Selection

/-! ### C30 -/

theorem selWalk_drop : ∀ (y : Nat) (l : List Line), (selWalk y l).1 = y - l.length ∧
    (selWalk y l).2 = l.drop y
  | 0, l => by cases l <;> simp [selWalk]
  | y + 1, [] => by simp [selWalk]
  | y + 1, _ :: l => by
    have := selWalk_drop y l
    rw [selWalk]
    refine ⟨by rw [this.1, List.length_cons]; omega, by rw [this.2]; rfl⟩

theorem selSet_spec {s : Screen} (hr : Reachable s) {x y : Nat} (hy : y < s.sizeY) :
    (s.selSet x y).x = x ∧ s.view.docRow (s.selSet x y) = s.view.topIndex + y ∧
    (x < s.sizeX → s.view.Anchored (s.selSet x y)) ∧ Placed (s.selSet x y) := by
  have hle := topIndex_le hr.inv.sb
  have hyb := hr.inv.geo.yb
  have hw := selWalk_drop y (sbFrom s.sb s.sbPos)
  have hd : (sbFrom s.sb s.sbPos).drop y = s.sb.drop (s.view.topIndex + y) := by
    rw [sbFrom_eq hr.inv.sb, List.drop_drop]
  have hl : (sbFrom s.sb s.sbPos).length = s.sb.length - s.view.topIndex := by
    rw [sbFrom_eq hr.inv.sb, List.length_drop]
  have hset : s.selSet x y = ⟨(s.sb[s.view.topIndex + y]?).map Line.sbId, x,
      toI32 (y - (s.sb.length - s.view.topIndex))⟩ := by
    unfold selSet
    dsimp only
    rw [hw.1, hw.2, hd, hl, List.head?_drop]
  rw [hset]
  rcases Nat.lt_or_ge (s.view.topIndex + y) s.sb.length with h1 | h1
  · rw [List.getElem?_eq_getElem h1, show y - (s.sb.length - s.view.topIndex) = 0 by omega]
    have hm : (s.sb[s.view.topIndex + y]).sbId ∈ s.sb.map Line.sbId :=
      List.mem_map.mpr ⟨_, List.getElem_mem h1, rfl⟩
    have hdoc := (docRow_sb hr.inv.sb (p := ⟨some (s.sb[s.view.topIndex + y]).sbId, x, 0⟩)
      rfl hm _ h1).mp rfl
    refine ⟨rfl, hdoc.symm, ?_, fun _ => rfl⟩
    intro hx
    refine ⟨hx, ?_⟩
    show _ ∈ s.view.sb.map Prod.fst
    rw [ids_view]
    exact hm
  · rw [List.getElem?_eq_none h1]
    have ht : toI32 (y - (s.sb.length - s.view.topIndex)) =
        ((y - (s.sb.length - s.view.topIndex) : Nat) : Int) := by
      unfold toI32
      rw [if_pos (by omega), Nat.mod_eq_of_lt (by omega)]
    rw [ht]
    refine ⟨rfl, ?_, ?_, fun h => absurd rfl h⟩
    · rw [docRow_none rfl, Int.toNat_natCast]
      omega
    · intro hx
      refine ⟨hx, ?_, ?_⟩
      · exact Int.natCast_nonneg _
      · show ((y - (s.sb.length - s.view.topIndex) : Nat) : Int) < (s.sizeY : Int); omega

theorem touch_view (s : Screen) : s.incAge.touch.view = s.view := by
  rw [incAge_eq]; rfl

/-- **C30.** `selection_start(x, y)` for a row `y` on the screen sets both endpoints
to column `x` of the document line drawn in row `y` (line `topIndex + y`, see
`C26_content`), be it in the scrollback or on the screen, and changes nothing else. -/
theorem C30_start {s : Screen} (hr : Reachable s) {x y : Nat} (hy : y < s.sizeY) :
    ∃ p, (s.selectionStart x y).view =
        { s.view with selActive := true, selStart := p, selEnd := p } ∧
      p.x = x ∧ s.view.docRow p = s.view.topIndex + y ∧ (x < s.sizeX → s.view.Anchored p) := by
  obtain ⟨h1, h2, h3, _⟩ := selSet_spec hr (x := x) hy
  refine ⟨s.selSet x y, ?_, h1, h2, h3⟩
  have h4 := touch_view s
  unfold selectionStart
  show ({ s.incAge.touch.view with selActive := true, selStart := _, selEnd := _ } : View) = _
  rw [h4]

/-- **C30.** `selection_target(x, y)` during a selection does the same for the second
endpoint only; without a selection it does nothing. -/
theorem C30_target {s : Screen} (hr : Reachable s) {x y : Nat} (hy : y < s.sizeY) :
    (s.selActive = true → ∃ p, (s.selectionTarget x y).view = { s.view with selEnd := p } ∧
      p.x = x ∧ s.view.docRow p = s.view.topIndex + y ∧ (x < s.sizeX → s.view.Anchored p)) ∧
    (s.selActive = false → s.selectionTarget x y = s) := by
  obtain ⟨h1, h2, h3, _⟩ := selSet_spec hr (x := x) hy
  constructor
  · intro ha
    refine ⟨s.selSet x y, ?_, h1, h2, h3⟩
    have h4 := touch_view s
    unfold selectionTarget
    rw [if_pos ha]
    show ({ s.incAge.touch.view with selEnd := _ } : View) = _
    rw [h4]
  · intro ha
    unfold selectionTarget
    rw [if_neg (by rw [ha]; simp)]

/-! The screen shows one scrollback line and two rows: row 0 is a line of the
scrollback, row 2 the second row of the screen. -/

example : ∃ s, Reachable s ∧
    (decide (2 < s.sizeY) && decide (s.view.topIndex = 1) && decide (s.sb.length = 2) &&
     decide ((s.selectionStart 1 0).selStart.line ≠ none) &&
     decide ((s.selectionStart 1 0).view.docRow (s.selectionStart 1 0).selStart = 1) &&
     decide ((s.selectionStart 1 2).selStart.line = none) &&
     decide ((s.selectionStart 1 2).selStart.y = 1)) = true :=
  exists_of_holds (cs := [.resize 3 3, .setMaxSb 5, .moveTo 0 2, .newline, .newline, .sbUp 1])
    (by decide +kernel)

/-! ### C32 -/

/-- `P` and `Q` are the endpoints of the selection in reading order, each at an
existing cell and not moved since they were set. -/
structure Ends (s : Screen) (P Q : SelPos) : Prop where
  ends : (s.selStart = P ∧ s.selEnd = Q) ∨ (s.selStart = Q ∧ s.selEnd = P)
  inP : s.view.Anchored P
  inQ : s.view.Anchored Q
  placedP : P.line ≠ none → P.y = 0
  placedQ : Q.line ≠ none → Q.y = 0
  le : View.NotAfter (s.view.docRow P) P.x (s.view.docRow Q) Q.x

/-- Enough memory: the allocation succeeds, and four bytes for each cell of the
document are less than 2 GiB. -/
structure RoomToCopy (s : Screen) : Prop where
  alloc : s.allocOk s.allocN = true
  size : 4 * (s.sizeX * (s.sb.length + s.sizeY)) + 1 < 2147483648

/-- The claim as stated, for selections on the screen. -/
def C32_claim : Prop :=
  ∀ s P Q, Reachable s → s.selActive = true → Ends s P Q → RoomToCopy s →
    P.line = none → Q.line = none →
    let T := text (pieces s.doc s.sizeX (s.view.docRow P) P.x (s.view.docRow Q) Q.x)
    T.length ≤ 4 * (s.sizeX * (s.view.docRow Q + 1 - s.view.docRow P)) →
    ∃ out, s.selectionCopy = .ok (.text out) ∧ out.map UInt8.toNat = T

theorem same_pos {s : Screen} (hr : Reachable s) {P Q : SelPos} (inP : s.view.Anchored P)
    (inQ : s.view.Anchored Q) (pP : Placed P) (pQ : Placed Q)
    (hrow : s.view.docRow P = s.view.docRow Q) (hx : P.x = Q.x) : P = Q := by
  have eP := endpoint hr.inv.sb inP pP
  have eQ := endpoint hr.inv.sb inQ pQ
  have hl : P.line = Q.line ∧ P.y = Q.y := by
    rcases eP.2.2.1 with ⟨a1, a2⟩ | ⟨a1, a2, a3⟩
    · rcases eQ.2.2.1 with ⟨b1, b2⟩ | ⟨b1, b2, b3⟩
      · exact ⟨a1.trans b1.symm, by omega⟩
      · have := eP.2.2.2.1; omega
    · rcases eQ.2.2.1 with ⟨b1, b2⟩ | ⟨b1, b2, b3⟩
      · have := eQ.2.2.2.1; omega
      · refine ⟨?_, by omega⟩
        rw [(eP.2.1 _ a2).mpr rfl, (eQ.2.1 _ a2).mpr hrow]
  obtain ⟨pl, px, py⟩ := P
  obtain ⟨ql, qx, qy⟩ := Q
  simp only at hl hx
  rw [hl.1, hl.2, hx]

theorem norm_ends {s : Screen} (hr : Reachable s) {P Q : SelPos} (he : Ends s P Q)
    (hh : s.Handled s.selStart s.selEnd) : normSel s.sb s.selStart s.selEnd = (P, Q) := by
  rcases he.ends with ⟨h1, h2⟩ | ⟨h1, h2⟩
  · rw [h1, h2] at hh ⊢
    rw [normSel_eq hr.inv.sb he.inP he.inQ he.placedP he.placedQ hh, if_pos he.le]
  · rw [h1, h2] at hh ⊢
    rw [normSel_eq hr.inv.sb he.inQ he.inP he.placedQ he.placedP hh]
    split
    · -- the endpoints coincide
      rename_i hle
      have hle' := he.le
      have hrow : s.view.docRow P = s.view.docRow Q := by omega
      have hx : P.x = Q.x := by omega
      have hPQ := same_pos hr he.inP he.inQ he.placedP he.placedQ hrow hx
      rw [hPQ]
    · rfl

/-- **C32** (partial: the full statement is `C32_claim`, which is false). The copied
text, for selections on the screen and in the scrollback, in either direction: the
selected characters of each row up to its last character, rows separated by
newlines. Differences to the claim: if the selection starts right of the last
character of its first row, that row does not appear at all (`copied` leaves it out
where `pieces` has an empty piece); the orders of endpoints excluded by `Handled` (never on
one screen); texts with more than four bytes per selected cell. -/
theorem C32_copy_partial {s : Screen} (hr : Reachable s) (ha : s.selActive = true) {P Q : SelPos}
    (he : Ends s P Q) (hm : RoomToCopy s) (hh : s.Handled s.selStart s.selEnd)
    (hlen : (text (s.copied (s.view.docRow P) P.x (s.view.docRow Q) Q.x)).length ≤
      4 * (s.sizeX * (s.view.docRow Q + 1 - s.view.docRow P))) :
    ∃ out, s.selectionCopy = .ok (.text out) ∧
      out.map UInt8.toNat = text (s.copied (s.view.docRow P) P.x (s.view.docRow Q) Q.x) := by
  have ho := ordered_of hr.inv.sb he.inP he.inQ he.placedP he.placedQ he.le
  obtain ⟨n, out, h1, h2, h3, _, h4⟩ := selectionCopy_eq hr.inv ho (norm_ends hr he hh) ha hm.alloc hm.size
  refine ⟨out.dropLast, ?_, h3⟩
  rw [h4, if_neg]
  have h5 : out.dropLast.length = (text (s.copied (s.view.docRow P) P.x (s.view.docRow Q) Q.x)).length := by
    rw [← h3, List.length_map]
  rw [List.length_dropLast] at h5
  have hmul : s.sizeX * (s.view.docRow Q + 1 - s.view.docRow P) ≤ s.sizeX * n := Nat.mul_le_mul_left _ h1
  omega

/-- **C32** (partial). The claim holds if the selection does not start right of the
last character of its first row. -/
theorem C32_copy_from_text_partial {s : Screen} (hr : Reachable s) (ha : s.selActive = true)
    {P Q : SelPos} (he : Ends s P Q) (hm : RoomToCopy s) (hP : P.line = none) (hQ : Q.line = none)
    (hcol : P.x ≤ (trim (s.doc[s.view.docRow P]?.getD [])).length)
    (hlen : (text (pieces s.doc s.sizeX (s.view.docRow P) P.x (s.view.docRow Q) Q.x)).length ≤
      4 * (s.sizeX * (s.view.docRow Q + 1 - s.view.docRow P))) :
    ∃ out, s.selectionCopy = .ok (.text out) ∧ out.map UInt8.toNat =
      text (pieces s.doc s.sizeX (s.view.docRow P) P.x (s.view.docRow Q) Q.x) := by
  have hc : s.copied (s.view.docRow P) P.x (s.view.docRow Q) Q.x =
      pieces s.doc s.sizeX (s.view.docRow P) P.x (s.view.docRow Q) Q.x := by
    unfold copied; rw [if_pos hcol]
  rw [← hc] at hlen ⊢
  refine C32_copy_partial hr ha he hm ?_ hlen
  have : s.selStart.line = none := by
    rcases he.ends with ⟨h1, _⟩ | ⟨h1, _⟩ <;> rw [h1] <;> assumption
  unfold Handled
  rw [this]
  trivial

theorem not_C32 {cs : List Call} (h : holds cs (fun s =>
    let r1 := s.view.docRow s.selStart
    let r2 := s.view.docRow s.selEnd
    let T := Spec.Selection.text (pieces s.doc s.sizeX r1 s.selStart.x r2 s.selEnd.x)
    s.selActive && decide (s.view.Anchored s.selStart) && decide (s.view.Anchored s.selEnd) &&
    decide (s.selStart.line = none) && decide (s.selEnd.line = none) &&
    decide (View.NotAfter r1 s.selStart.x r2 s.selEnd.x) && s.allocOk s.allocN &&
    decide (4 * (s.sizeX * (s.sb.length + s.sizeY)) + 1 < 2147483648) &&
    decide (T.length ≤ 4 * (s.sizeX * (r2 + 1 - r1))) &&
    match s.selectionCopy with
    | .ok (.text out) => !decide (out.map UInt8.toNat = T)
    | _ => false) = true) : ¬ C32_claim := by
  intro hc
  obtain ⟨s, hr, he⟩ := exists_of_holds h
  simp only [Bool.and_eq_true, decide_eq_true_iff] at he
  obtain ⟨⟨⟨⟨⟨⟨⟨⟨⟨h1, h2⟩, h3⟩, h4⟩, h5⟩, h6⟩, h7⟩, h8⟩, h9⟩, h10⟩ := he
  obtain ⟨out, ho, ht⟩ := hc s s.selStart s.selEnd hr h1
    ⟨Or.inl ⟨rfl, rfl⟩, h2, h3, fun h => absurd h4 h, fun h => absurd h5 h, h6⟩ ⟨h7, h8⟩ h4 h5 h9
  rw [ho] at h10
  simp only [Bool.not_eq_true', decide_eq_false_iff_not] at h10
  exact h10 ht

/-- **C32 is false**: a selection from the empty right part of a row to the next row
gives the text of that next row without the newline before it. -/
theorem C32_false_newline : ¬ C32_claim :=
  not_C32 (cs := [.resize 4 2] ++ text [65] ++ [.moveTo 0 1] ++ text [66] ++
    [.selectionStart 2 0, .selectionTarget 1 1]) (by decide +kernel)

/-! A part of the newest scrollback line, the first row of the screen and a part of
the second one are selected, from the end to the start. This state meets the hypotheses
of the partial theorems for C33 and C34, too. -/

example : ∃ s, Reachable s ∧
    (s.selActive && decide (s.view.Anchored s.selStart) && decide (s.view.Anchored s.selEnd) &&
     decide (s.selEnd.line ≠ none) && decide (s.selStart.line = none) &&
     decide (s.Handled s.selStart s.selEnd) && decide (s.Handled s.selEnd s.selStart) &&
     s.doc.all (fun row => row.all fun g => decide (g < 65536)) && decide (s.selEnd.y = 0) &&
     decide (View.NotAfter (s.view.docRow s.selEnd) s.selEnd.x (s.view.docRow s.selStart) s.selStart.x) &&
     s.allocOk s.allocN && decide (4 * (s.sizeX * (s.sb.length + s.sizeY)) + 1 < 2147483648) &&
     decide (s.selectionCopy = .ok (.text [66, 10, 67, 10, 0xc3, 0xa4]))) = true :=
  exists_of_holds (cs := [.resize 3 3, .setMaxSb 5] ++ text [65, 66] ++ [.moveTo 0 1] ++ text [67] ++
    [.moveTo 0 2] ++ text [0xe4, 68] ++ [.newline, .sbUp 1, .selectionStart 0 2, .selectionTarget 1 0])
    (by decide +kernel)

/-! ### C33 -/

/-- The claim as stated: copying never accesses invalid memory. -/
def C33_claim : Prop := ∀ s, Reachable s → ∀ e, s.selectionCopy ≠ .error e

theorem not_C33 {cs : List Call} {k : UB}
    (h : holds cs (fun s => decide (s.selectionCopy = .error k)) = true) : ¬ C33_claim := by
  intro hc
  obtain ⟨s, hr, he⟩ := exists_of_holds h
  exact hc s hr k (of_decide_eq_true he)

/-- **C33 is false**: two rows are selected and then the screen scrolls by one line;
copying reads `lines[-1]`. -/
theorem C33_false_scrolled : ¬ C33_claim :=
  not_C33 (cs := [.setMaxSb 5, .selectionStart 0 0, .selectionTarget 0 1, .scrollUp 1]) (k := .oobLine)
    (by decide +kernel)

/-- **C33 is false**: a selected row is scrolled down out of the screen. -/
theorem C33_false_scrolled_down : ¬ C33_claim :=
  not_C33 (cs := [.selectionStart 0 23, .scrollDown 20]) (k := .oobLine) (by decide +kernel)

/-- **C33 is false**: two rows full of characters of four bytes need more than the
allocated buffer. -/
theorem C33_false_buffer : ¬ C33_claim :=
  not_C33 (cs := [.resize 1 2, .setFlags 2#32] ++ text [0x10000, 0x10000] ++
    [.selectionStart 0 0, .selectionTarget 0 1]) (k := .copyBuf) (by decide +kernel)

theorem encode_bmp {g : Nat} (hg : g < 65536) : (Utf8.encode g).length ≤ 3 := by
  have h := Props.Utf8.C02_encode_spec g
  have hl := congrArg List.length h
  rw [List.length_map] at hl
  rw [hl]
  split
  · unfold Spec.Utf8.bytes
    repeat' split
    all_goals first | (simp; done) | omega
  · simp

theorem emit_bmp {lo hi : Nat} {row : List Nat} (hb : ∀ g ∈ row, g < 65536) :
    (emit lo hi row).length ≤ 3 * hi + 1 := by
  unfold emit
  split
  · have hflat : ∀ l : List Nat, (∀ g ∈ l, g < 65536) → (l.flatMap Utf8.encode).length ≤ 3 * l.length := by
      intro l
      induction l with
      | nil => intro _; simp
      | cons a l ih =>
        intro hl
        have h1 := encode_bmp (hl a (List.mem_cons_self ..))
        have h2 := ih (fun g hg => hl g (List.mem_cons_of_mem _ hg))
        rw [List.flatMap_cons, List.length_append, List.length_cons]
        omega
    have htrim : ∀ g ∈ trim row, g < 65536 := by
      intro g hg
      apply hb
      unfold trim at hg
      rw [List.mem_reverse] at hg
      have := (List.dropWhile_sublist _).mem hg
      rwa [List.mem_reverse] at this
    have h1 := hflat (piece lo hi row) (by
      intro g hg
      unfold piece at hg
      exact htrim g (List.mem_of_mem_take (List.mem_of_mem_drop hg)))
    have h2 : (piece lo hi row).length ≤ hi := by
      unfold piece
      rw [List.length_drop, List.length_take]
      omega
    rw [List.length_append]
    simp only [List.length_singleton]
    omega
  · simp

/-- **C33** (partial: the full statement is `C33_claim`, which is false). Copying is
safe as long as the endpoints are at existing cells and did not move into the
scrollback by scrolling, all characters are in the basic plane (three bytes), and
four bytes for each cell are less than 2 GiB. -/
theorem C33_safe_partial {s : Screen} (hr : Reachable s) (h1 : s.view.Anchored s.selStart)
    (h2 : s.view.Anchored s.selEnd) (p1 : s.selStart.line ≠ none → s.selStart.y = 0)
    (p2 : s.selEnd.line ≠ none → s.selEnd.y = 0)
    (hsz : 4 * (s.sizeX * (s.sb.length + s.sizeY)) + 1 < 2147483648)
    (hbmp : ∀ row ∈ s.doc, ∀ g ∈ row, g < 65536) : ∃ r, s.selectionCopy = .ok r := by
  have hx0 := hr.inv.geo.x0
  have hxb := hr.inv.geo.xb
  have hdoc : ∀ r : Nat, ∀ g ∈ s.doc[r]?.getD [], g < 65536 := by
    intro r g hg
    cases hd : s.doc[r]? with
    | none => rw [hd] at hg; cases hg
    | some row =>
      rw [hd] at hg
      exact hbmp row (List.mem_of_getElem? hd) g hg
  rcases Bool.eq_false_or_eq_true s.selActive with ha | ha
  case inr => exact ⟨.enoent, by unfold selectionCopy; rw [if_pos ha]⟩
  rcases Bool.eq_false_or_eq_true (s.allocOk s.allocN) with hm | hm
  case inr =>
    unfold selectionCopy
    rw [if_neg (by rw [ha]; simp)]
    split
    · exact ⟨_, rfl⟩
    · dsimp only
      rw [if_pos (Or.inr hm)]
      exact ⟨_, rfl⟩
  by_cases hh : s.Handled s.selStart s.selEnd
  · -- the endpoints are ordered correctly
    have hno := normSel_eq hr.inv.sb h1 h2 p1 p2 hh
    obtain ⟨a, b, ho, hn⟩ : ∃ a b, s.Ordered a b (s.view.docRow a) (s.view.docRow b) ∧
        normSel s.sb s.selStart s.selEnd = (a, b) := by
      by_cases hle : View.NotAfter (s.view.docRow s.selStart) s.selStart.x
          (s.view.docRow s.selEnd) s.selEnd.x
      · rw [if_pos hle] at hno
        exact ⟨_, _, ordered_of hr.inv.sb h1 h2 p1 p2 hle, hno⟩
      · rw [if_neg hle] at hno
        exact ⟨_, _, ordered_of hr.inv.sb h2 h1 p2 p1 (by unfold View.NotAfter at *; omega), hno⟩
    obtain ⟨n, out, c1, c2, _, ho', hc⟩ := selectionCopy_eq hr.inv ho hn ha hm hsz
    rw [if_neg] at hc
    · exact ⟨_, hc⟩
    · have hto : ∀ r, colTo s.sizeX (s.view.docRow b) b.x r ≤ s.sizeX := by
        intro r; have := ho.bx; unfold colTo; split <;> omega
      have hsum : ∀ L : List Nat, (L.flatMap fun r => emit (colFrom (s.view.docRow a) a.x r)
          (colTo s.sizeX (s.view.docRow b) b.x r) (s.doc[r]?.getD [])).length ≤ 4 * (s.sizeX * L.length) := by
        intro L
        induction L with
        | nil => simp
        | cons r L ih =>
          have h3 := emit_bmp (lo := colFrom (s.view.docRow a) a.x r)
            (hi := colTo s.sizeX (s.view.docRow b) b.x r) (hdoc r)
          have h4 := hto r
          rw [List.flatMap_cons, List.length_append, List.length_cons, Nat.mul_succ]
          omega
      have h3 := hsum (List.range' (s.view.docRow a) (s.view.docRow b + 1 - s.view.docRow a))
      rw [List.length_range', ← ho'] at h3
      have hmul : s.sizeX * (s.view.docRow b + 1 - s.view.docRow a) ≤ s.sizeX * n :=
        Nat.mul_le_mul_left _ c1
      omega
  · -- the two orders in which the wrong text is copied
    have hq0 := (endpoint hr.inv.sb h2 p2).2.2.2.1
    have hntop : ¬ (s.selEnd.line = none ∧ s.selEnd.y = -1) := by rintro ⟨_, h⟩; omega
    have hsz' : ∀ n : Nat, n ≤ 1 → toU32 ((s.sizeX : Int) * n * 4 + 1) = 4 * (s.sizeX * n) + 1 := by
      intro n hn
      have hmul : s.sizeX * n ≤ s.sizeX * 1 := Nat.mul_le_mul_left _ hn
      have : (s.sizeX : Int) * n = ((s.sizeX * n : Nat) : Int) := by rw [Int.natCast_mul]
      rw [this]
      unfold toU32
      omega
    have hsmall : 4 * s.sizeX + 1 < 2147483648 := by
      have hy0 := hr.inv.geo.y0
      have : s.sizeX * 1 ≤ s.sizeX * (s.sb.length + s.sizeY) := Nat.mul_le_mul_left _ (by omega)
      omega
    unfold selectionCopy
    rw [if_neg (by rw [ha]; simp), if_neg (fun h => hntop ⟨h.2.2.2, h.2.2.1⟩)]
    unfold Handled at hh
    cases hl : s.selStart.line with
    | none => rw [hl] at hh; exact absurd trivial hh
    | some i =>
      rw [hl] at hh
      have hy0 := p1 (by rw [hl]; simp)
      cases hl2 : s.selEnd.line with
      | none =>
        rw [hl2] at hh
        simp only [not_or] at hh
        have hye : s.selEnd.y = 0 := by omega
        have hn : normSel s.sb s.selStart s.selEnd = (s.selEnd, s.selStart) := by
          unfold normSel
          rw [if_neg hntop, hl, hl2]
          dsimp only
          rw [if_pos (by omega), if_pos (by omega)]
        rw [hn]
        dsimp only
        have htop : topStart s.sb s.selEnd = s.selEnd := by
          unfold topStart; rw [if_neg hntop]
        have hc1 : countSb s.sb s.selEnd s.selStart = 0 := by unfold countSb; rw [hl2]
        have hc2 : countScreen s.selEnd s.selStart = 1 := by
          unfold countScreen
          rw [if_neg (fun h => h.1 hl2)]
          omega
        have h0 := hsz' 1 (by omega)
        rw [htop, hc1, hc2, show ((0 : Nat) : Int) + 1 = ((1 : Nat) : Int) by omega, h0,
          if_neg (by rw [hm]; simp; omega)]
        have e1 : s.copySb s.selEnd s.selStart = [] := by unfold copySb; rw [hl2]
        have e2 : s.copyScreen s.selEnd s.selStart = .ok [] := by
          unfold copyScreen; rw [if_pos (by rw [hl]; simp)]
        rw [e1, e2]
        refine ⟨.text [], ?_⟩
        show (if ([] ++ [] : List UInt8).length > 4 * (s.sizeX * 1) + 1 then (Except.error UB.copyBuf) else
          (Except.ok (CopyRet.text ([] ++ [] : List UInt8).dropLast) : R CopyRet)) = _
        rw [if_neg (by simp)]
        rfl
      | some j =>
        rw [hl2] at hh
        simp only [not_or, Decidable.not_not] at hh
        have hmi := anchored_some h1 hl
        have hmj := anchored_some h2 hl2
        have hdi : s.view.docRow s.selStart = (s.sb.map Line.sbId).idxOf i := by
          unfold View.docRow; rw [hl, ids_view]
        have hn : normSel s.sb s.selStart s.selEnd = (s.selStart, s.selEnd) := by
          unfold normSel
          rw [if_neg hntop, hl, hl2]
          dsimp only
          rw [if_neg hh.1, if_neg]
          intro hs
          have := (normScan_eq hr.inv.sb hmj hmi).mp hs
          omega
        rw [hn]
        dsimp only
        have htop : topStart s.sb s.selStart = s.selStart := by
          unfold topStart; rw [if_neg (by rw [hl]; simp)]
        have hlast : (s.sb.drop ((s.sb.map Line.sbId).idxOf i)) =
            [s.sb[(s.sb.map Line.sbId).idxOf i]'(by omega)] := by
          rw [List.drop_eq_getElem_cons (by omega), List.drop_of_length_le (by omega)]
        have hc1 : countSb s.sb s.selStart s.selEnd = 1 := by
          unfold countSb
          rw [hl, hl2]
          dsimp only
          rw [if_neg (by intro h; injection h with h; exact hh.1 h.symm), sbFrom_at hr.inv.sb hmi, hlast]
          rfl
        have hc2 : countScreen s.selStart s.selEnd = 0 := by
          unfold countScreen
          rw [if_pos ⟨by rw [hl]; simp, by rw [hl2]; simp⟩]
        have h0 := hsz' 1 (by omega)
        rw [htop, hc1, hc2, show ((1 : Nat) : Int) + 0 = ((1 : Nat) : Int) by omega, h0,
          if_neg (by rw [hm]; simp; omega)]
        have e2 : s.copyScreen s.selStart s.selEnd = .ok [] := by
          unfold copyScreen; rw [if_pos (by rw [hl2]; simp)]
        have hax := h1.1
        change s.selStart.x < s.sizeX at hax
        have e1 : (s.copySb s.selStart s.selEnd).length ≤ 3 * s.sizeX + 1 := by
          unfold copySb
          rw [hl]
          dsimp only
          rw [sbFrom_at hr.inv.sb hmi, hlast]
          have hgi := List.getElem_idxOf (List.idxOf_lt_length_of_mem hmi)
          rw [List.getElem_map] at hgi
          generalize hg : (s.sb[(s.sb.map Line.sbId).idxOf i]'(by omega)) = l at hgi
          have hdl := doc_sb (s := s) (k := (s.sb.map Line.sbId).idxOf i) (by omega)
          rw [hg] at hdl
          rw [copySbLoop, copySbLoop, hl, hl2, hgi, if_pos rfl, ite_self, List.append_nil]
          have hlen : s.selLenSb s.selStart s.selEnd i = s.sizeX - s.selStart.x := by
            unfold selLenSb
            rw [hl, hl2, if_neg (by intro h; injection h with h; exact hh.1 h), if_pos rfl]
            unfold sub32
            omega
          rw [hlen, copyLine_emit _ (by omega), show s.selStart.x + (s.sizeX - s.selStart.x) = s.sizeX by omega]
          have := hdoc ((s.sb.map Line.sbId).idxOf i)
          rw [hdl] at this
          exact emit_bmp this
        rw [e2]
        refine ⟨.text (s.copySb s.selStart s.selEnd ++ []).dropLast, ?_⟩
        show (if (s.copySb s.selStart s.selEnd ++ []).length > _ then _ else _) = _
        rw [if_neg (by rw [List.append_nil]; omega)]
        rfl

/-! ### C34 -/

/-- The claim as stated: exchanging the endpoints does not change the copied text. -/
def C34_claim : Prop :=
  ∀ s, Reachable s → s.view.Anchored s.selStart → s.view.Anchored s.selEnd →
    ({ s with selStart := s.selEnd, selEnd := s.selStart } : Screen).selectionCopy = s.selectionCopy

theorem not_C34 {cs : List Call} (h : holds cs (fun s => decide (s.view.Anchored s.selStart) &&
    decide (s.view.Anchored s.selEnd) &&
    !decide (({ s with selStart := s.selEnd, selEnd := s.selStart } : Screen).selectionCopy =
      s.selectionCopy)) = true) : ¬ C34_claim := by
  intro hc
  obtain ⟨s, hr, he⟩ := exists_of_holds h
  simp only [Bool.and_eq_true, decide_eq_true_iff, Bool.not_eq_true', decide_eq_false_iff_not] at he
  exact he.2 (hc s hr he.1.1 he.1.2)

/-- **C34 is false**: from the newest scrollback line to an older one, only the newest
is copied. Scrollback "A", "B"; the selection covers both. -/
theorem C34_false_newest : ¬ C34_claim :=
  not_C34 (cs := [.resize 2 2, .setMaxSb 5] ++ text [65] ++ [.newline] ++ text [66] ++
    [.newline, .newline, .sbUp 2, .selectionStart 0 0, .selectionTarget 1 1]) (by decide +kernel)

/-- **C34 is false**: from a scrollback line to the first row of the screen, further
left, nothing is copied. -/
theorem C34_false_first_row : ¬ C34_claim :=
  not_C34 (cs := [.resize 2 2, .setMaxSb 5] ++ text [65, 66] ++ [.newline] ++ text [67] ++
    [.newline, .sbUp 1, .selectionStart 1 0, .selectionTarget 0 1]) (by decide +kernel)

theorem copy_congr (s : Screen) (p q a b : SelPos) :
    ({ s with selStart := p, selEnd := q } : Screen).copySb a b = s.copySb a b ∧
    ({ s with selStart := p, selEnd := q } : Screen).copyScreen a b = s.copyScreen a b := by
  constructor
  · have h : ∀ L : List Line, ({ s with selStart := p, selEnd := q } : Screen).copySbLoop a b L =
        s.copySbLoop a b L := by
      intro L
      induction L with
      | nil => rfl
      | cons l L ih => rw [copySbLoop, copySbLoop, ih]; rfl
    unfold copySb
    cases a.line with
    | none => rfl
    | some id => exact h _
  · have h : ∀ (n : Nat) (i : Int), ({ s with selStart := p, selEnd := q } : Screen).copyScreenLoop a b n i =
        s.copyScreenLoop a b n i := by
      intro n
      induction n with
      | zero => intro i; rfl
      | succ n ih => intro i; rw [copyScreenLoop, copyScreenLoop, ih]; rfl
    unfold copyScreen
    rw [h]

/-- **C34** (partial: the full statement is `C34_claim`, which is false). Exchanging
the endpoints does not change the result of copying, if they are at existing cells,
did not move into the scrollback by scrolling, and both orders are handled; this is
always so if both are on the screen. -/
theorem C34_direction_partial {s : Screen} (hr : Reachable s) (h1 : s.view.Anchored s.selStart)
    (h2 : s.view.Anchored s.selEnd) (p1 : s.selStart.line ≠ none → s.selStart.y = 0)
    (p2 : s.selEnd.line ≠ none → s.selEnd.y = 0)
    (hh : (s.selStart.line = none ∧ s.selEnd.line = none) ∨
      (s.Handled s.selStart s.selEnd ∧ s.Handled s.selEnd s.selStart)) :
    ({ s with selStart := s.selEnd, selEnd := s.selStart } : Screen).selectionCopy = s.selectionCopy := by
  have hh' : s.Handled s.selStart s.selEnd ∧ s.Handled s.selEnd s.selStart := by
    rcases hh with ⟨a1, a2⟩ | hh
    · unfold Handled; rw [a1, a2]; exact ⟨trivial, trivial⟩
    · exact hh
  have n1 := normSel_eq hr.inv.sb h1 h2 p1 p2 hh'.1
  have n2 := normSel_eq hr.inv.sb h2 h1 p2 p1 hh'.2
  have hn : normSel s.sb s.selEnd s.selStart = normSel s.sb s.selStart s.selEnd := by
    by_cases hle : View.NotAfter (s.view.docRow s.selStart) s.selStart.x
        (s.view.docRow s.selEnd) s.selEnd.x
    · by_cases hle' : View.NotAfter (s.view.docRow s.selEnd) s.selEnd.x
        (s.view.docRow s.selStart) s.selStart.x
      · rw [if_pos hle] at n1
        rw [if_pos hle'] at n2
        unfold View.NotAfter at hle hle'
        have := same_pos hr h1 h2 p1 p2 (by omega) (by omega)
        rw [n1, n2, this]
      · rw [if_pos hle] at n1
        rw [if_neg hle'] at n2
        rw [n1, n2]
    · rw [if_neg hle] at n1
      rw [if_pos (by unfold View.NotAfter at *; omega)] at n2
      rw [n1, n2]
  unfold selectionCopy
  dsimp only
  rw [hn]
  by_cases ha : s.selActive = false
  · rw [if_pos ha, if_pos ha]
  · rw [if_neg ha, if_neg ha]
    by_cases ht : s.selStart.y = -1 ∧ s.selStart.line = none ∧ s.selEnd.y = -1 ∧ s.selEnd.line = none
    · rw [if_pos ht, if_pos ⟨ht.2.2.1, ht.2.2.2, ht.1, ht.2.1⟩]
    · rw [if_neg ht, if_neg (fun hx => ht ⟨hx.2.2.1, hx.2.2.2, hx.1, hx.2.1⟩)]
      have c := copy_congr s s.selEnd s.selStart
      simp only [(c _ _).1, (c _ _).2]

end Verif.Props.Screen
