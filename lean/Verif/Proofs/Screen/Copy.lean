import Verif.Spec.Selection
import Verif.Model.Selection
import Verif.Proofs.Screen.Shown
import Verif.Props.Utf8

/-!
# Copying a selection
-/

namespace Verif
namespace Screen

open Spec.Selection

theorem trim_cons (a : Nat) (l : List Nat) :
    trim (a :: l) = if trim l = [] then (if a = 0 then [] else [a]) else a :: trim l := by
  unfold trim
  rw [List.reverse_cons, List.dropWhile_append]
  by_cases h : List.dropWhile (fun c => decide (c = 0)) l.reverse = []
  · rw [h]
    by_cases ha : a = 0
    · simp [ha]
    · simp [ha]
  · rw [if_neg (by rw [List.isEmpty_iff]; exact h), if_neg (by rw [List.reverse_eq_nil_iff]; exact h)]
    simp

theorem lineLen_trim (cells : List Cell) :
    lineLen cells = (trim (cells.map Cell.ch)).length ∧
      (cells.map Cell.ch).take (lineLen cells) = trim (cells.map Cell.ch) := by
  induction cells with
  | nil => exact ⟨rfl, rfl⟩
  | cons c cs ih =>
    obtain ⟨h1, h2⟩ := ih
    rw [List.map_cons, trim_cons, lineLen]
    by_cases h : trim (cs.map Cell.ch) = []
    · rw [if_pos h, if_pos (by rw [h1, h]; rfl)]
      by_cases hc : c.ch = 0
      · rw [if_pos hc, if_pos hc]; exact ⟨rfl, rfl⟩
      · rw [if_neg hc, if_neg hc]; exact ⟨rfl, rfl⟩
    · have h0 : lineLen cs ≠ 0 := by
        rw [h1]; intro hh; exact h (List.length_eq_zero_iff.mp hh)
      rw [if_neg h, if_neg h0]
      refine ⟨by rw [h1]; rfl, ?_⟩
      rw [List.take_succ_cons, h2]

/-- What is written for one line. -/
def emit (lo hi : Nat) (row : List Nat) : List UInt8 :=
  if lo ≤ (trim row).length then (piece lo hi row).flatMap Utf8.encode ++ [10] else []

theorem copyLine_emit (l : Line) {lo len : Nat} (h : lo + len < 4294967296) :
    copyLine l lo len = emit lo (lo + len) (l.cells.map Cell.ch) := by
  obtain ⟨h1, h2⟩ := lineLen_trim l.cells
  have h10 : Utf8.encode 10 = [10] := by decide
  unfold copyLine emit
  dsimp only
  by_cases hs : lo ≤ (trim (l.cells.map Cell.ch)).length
  · rw [if_neg (by omega), if_pos hs, h10]
    congr 1
    have hu : u32 (lo + len) = lo + len := by unfold u32; omega
    rw [hu]
    unfold copyCells piece
    have hst : (if lo + len > lineLen l.cells then lineLen l.cells else lo + len) =
        min (lo + len) (lineLen l.cells) := by split <;> omega
    rw [hst, ← h2, List.take_take, ← List.map_take, ← List.map_drop, List.flatMap_map]
  · rw [if_pos (by omega), if_neg hs]

/-! ### Scrollback part -/

theorem sbFrom_at {s : Screen} (h : SbOk s) {id : Nat} (hm : id ∈ s.sb.map Line.sbId) :
    sbFrom s.sb (some id) = s.sb.drop ((s.sb.map Line.sbId).idxOf id) := by
  have hl := List.idxOf_lt_length_of_mem hm
  rw [List.length_map] at hl
  have := dropWhile_id s.sb _ hl (ids_nodup h.ids)
  have he : (s.sb[(s.sb.map Line.sbId).idxOf id]).sbId = id := by
    have := List.getElem_idxOf (xs := s.sb.map Line.sbId) (x := id) (by rw [List.length_map]; exact hl)
    rw [List.getElem_map] at this
    exact this
  rw [he] at this
  exact this

theorem doc_sb {s : Screen} {k : Nat} (hk : k < s.sb.length) :
    s.doc[k]? = some ((s.sb[k]).cells.map Cell.ch) := by
  unfold doc
  rw [List.getElem?_map, List.getElem?_append_left hk, List.getElem?_eq_getElem hk]
  rfl

theorem doc_screen (s : Screen) (k : Nat) :
    s.doc[s.sb.length + k]? = (s.lines[k]?).map (fun l => l.cells.map Cell.ch) := by
  unfold doc
  rw [List.getElem?_map, List.getElem?_append_right (by omega), Nat.add_sub_cancel_left]

/-- The endpoints `a` and `b` of a selection, in this order, in document lines `r1`
and `r2`. -/
structure Ordered (s : Screen) (a b : SelPos) (r1 r2 : Nat) : Prop where
  ax : a.x < s.sizeX
  bx : b.x < s.sizeX
  sa : ∀ k (hk : k < s.sb.length), a.line = some (s.sb[k]).sbId ↔ k = r1
  sb : ∀ k (hk : k < s.sb.length), b.line = some (s.sb[k]).sbId ↔ k = r2
  la : (a.line = none ∧ (r1 : Int) = s.sb.length + a.y) ∨
    (a.line ≠ none ∧ r1 < s.sb.length ∧ a.y = 0)
  lb : (b.line = none ∧ (r2 : Int) = s.sb.length + b.y) ∨
    (b.line ≠ none ∧ r2 < s.sb.length ∧ b.y = 0)
  a0 : 0 ≤ a.y
  b0 : 0 ≤ b.y
  top : r2 < s.sb.length + s.sizeY
  le : r1 < r2 ∨ (r1 = r2 ∧ a.x ≤ b.x)

theorem selLenSb_eq {s : Screen} {a b : SelPos} {r1 r2 : Nat} (h : s.Ordered a b r1 r2)
    (hx : s.sizeX < 4294967296) {k : Nat} (hk : k < s.sb.length) (hk1 : r1 ≤ k) (hk2 : k ≤ r2) :
    colFrom r1 a.x k + s.selLenSb a b (s.sb[k]).sbId = colTo s.sizeX r2 b.x k := by
  have hax := h.ax
  have hbx := h.bx
  have hle := h.le
  have hka := h.sa k hk
  have hkb := h.sb k hk
  unfold selLenSb colFrom colTo
  by_cases hab : a.line = b.line
  · -- both in the same scrollback line, or both on the screen
    rw [if_pos hab]
    by_cases h1 : k = r1
    · have h2 : k = r2 := hkb.mp (by rw [← hab]; exact hka.mpr h1)
      rw [if_pos h1, if_pos h2]
      unfold sub32 u32
      omega
    · exfalso
      rcases h.la with ⟨h3, h4⟩ | ⟨h3, h4, _⟩
      · have := h.a0; omega
      · have h5 := (h.sa r1 h4).mpr rfl
        have h6 := (h.sb r1 h4).mp (hab.symm.trans h5)
        omega
  · rw [if_neg hab]
    by_cases h1 : k = r1
    · rw [if_pos h1, if_pos (hka.mpr h1)]
      have h2 : k ≠ r2 := fun h2 => hab ((hka.mpr h1).trans (hkb.mpr h2).symm)
      rw [if_neg h2]
      unfold sub32
      omega
    · rw [if_neg h1, if_neg (fun hh => h1 (hka.mp hh))]
      by_cases h2 : k = r2
      · rw [if_pos h2, if_pos (hkb.mpr h2)]
        unfold u32
        omega
      · rw [if_neg h2, if_neg (fun hh => h2 (hkb.mp hh))]
        omega

/-- The lines of the scrollback from line `k` on, until the one with the endpoint
`b`, or all. -/
theorem copySbLoop_eq {s : Screen} {a b : SelPos} {r1 r2 : Nat} (h : s.Ordered a b r1 r2)
    (hx : s.sizeX < 4294967295)
    (n : Nat) : ∀ k, r1 ≤ k → k ≤ r2 → k + n = s.sb.length →
    s.copySbLoop a b (s.sb.drop k) =
      (List.range' k (min (r2 + 1) s.sb.length - k)).flatMap fun r =>
        emit (colFrom r1 a.x r) (colTo s.sizeX r2 b.x r) (s.doc[r]?.getD []) := by
  induction n with
  | zero =>
    intro k hk hle hn
    rw [List.drop_of_length_le (by omega), show min (r2 + 1) s.sb.length - k = 0 by omega]
    rfl
  | succ n ih =>
    intro k hk hle hn
    have hkl : k < s.sb.length := by omega
    rw [List.drop_eq_getElem_cons hkl, copySbLoop]
    obtain ⟨m, hm⟩ : ∃ m, min (r2 + 1) s.sb.length - k = m + 1 :=
      ⟨min (r2 + 1) s.sb.length - k - 1, by omega⟩
    rw [hm, List.range'_succ, List.flatMap_cons]
    have hlo : (if a.line = some (s.sb[k]).sbId then a.x else 0) = colFrom r1 a.x k := by
      unfold colFrom
      simp only [h.sa k hkl]
    have hlen := selLenSb_eq h (by omega) hkl hk hle
    have hto : colTo s.sizeX r2 b.x k < 4294967296 := by
      have := h.bx
      unfold colTo; split <;> omega
    rw [hlo, copyLine_emit _ (by omega), hlen, doc_sb hkl]
    congr 1
    by_cases hk2 : k = r2
    · rw [if_pos ((h.sb k hkl).mpr hk2), show m = 0 by omega]
      rfl
    · rw [if_neg (fun hh => hk2 ((h.sb k hkl).mp hh)), ih (k + 1) (by omega) (by omega) (by omega),
        show min (r2 + 1) s.sb.length - (k + 1) = m by omega]

/-! ### Screen part -/

theorem selLen_eq {s : Screen} {a b : SelPos} {r1 r2 : Nat} (h : s.Ordered a b r1 r2)
    (hx : s.sizeX < 4294967295) (hb : b.line = none) {i : Nat} (hi : (i : Int) ≤ b.y)
    (hi1 : r1 ≤ s.sb.length + i) :
    (if a.line = none ∧ (i : Int) = a.y then a.x else 0) = colFrom r1 a.x (s.sb.length + i) ∧
    colFrom r1 a.x (s.sb.length + i) + s.selLen a b i = colTo s.sizeX r2 b.x (s.sb.length + i) := by
  have hax := h.ax
  have hbx := h.bx
  have hle := h.le
  have ha0 := h.a0
  have hb0 := h.b0
  have hb2 : (r2 : Int) = s.sb.length + b.y := by
    rcases h.lb with ⟨_, h1⟩ | ⟨h1, _⟩
    · exact h1
    · exact absurd hb h1
  have h1 : (a.line = none ∧ (i : Int) = a.y) ↔ s.sb.length + i = r1 := by
    rcases h.la with ⟨h1, h2⟩ | ⟨h1, h2, h3⟩
    · constructor
      · intro hh; omega
      · intro hh; exact ⟨h1, by omega⟩
    · constructor
      · intro hh; exact absurd hh.1 h1
      · intro hh; omega
  have h2 : (i : Int) = b.y ↔ s.sb.length + i = r2 := by omega
  have h3 : (a.line = none ∧ a.y = b.y) ↔ r1 = r2 := by
    rcases h.la with ⟨h3, h4⟩ | ⟨h3, h4, h5⟩
    · constructor
      · intro hh; omega
      · intro hh; exact ⟨h3, by omega⟩
    · constructor
      · intro hh; exact absurd hh.1 h3
      · intro hh; omega
  unfold selLen
  simp only [h1, h2, h3]
  refine ⟨trivial, ?_⟩
  unfold colFrom colTo sub32 u32
  repeat' split
  all_goals omega

theorem copyScreenLoop_eq {s : Screen} (hg : Geo s) {a b : SelPos} {r1 r2 : Nat}
    (h : s.Ordered a b r1 r2) (hx : s.sizeX < 4294967295) (hb : b.line = none)
    (n : Nat) : ∀ i : Nat, (i : Int) + n = b.y + 1 → r1 ≤ s.sb.length + i →
    s.copyScreenLoop a b n i = .ok
      ((List.range' (s.sb.length + i) n).flatMap fun r =>
        emit (colFrom r1 a.x r) (colTo s.sizeX r2 b.x r) (s.doc[r]?.getD [])) := by
  induction n with
  | zero => intro i _ _; rfl
  | succ n ih =>
    intro i hi hi1
    have htop := h.top
    have hb2 : (r2 : Int) = s.sb.length + b.y := by
      rcases h.lb with ⟨_, h1⟩ | ⟨h1, _⟩
      · exact h1
      · exact absurd hb h1
    have hiy : i < s.sizeY := by omega
    obtain ⟨l, el, wl⟩ := hg.linesOk.row hg hiy
    rw [copyScreenLoop, if_neg (by omega), Int.toNat_natCast, el]
    dsimp only
    have := ih (i + 1) (by omega) (by omega)
    rw [show ((i + 1 : Nat) : Int) = (i : Int) + 1 by omega] at this
    rw [this, List.range'_succ, List.flatMap_cons]
    obtain ⟨h1, h2⟩ := selLen_eq h hx hb (i := i) (by omega) (by omega)
    have hto : colTo s.sizeX r2 b.x (s.sb.length + i) < 4294967296 := by
      have := h.bx
      unfold colTo; split <;> omega
    rw [h1, copyLine_emit _ (by omega), h2, doc_screen, el]
    rfl

/-! ### Both -/

theorem copy_eq {s : Screen} (hi : Inv s) {a b : SelPos} {r1 r2 : Nat} (h : s.Ordered a b r1 r2) :
    ∃ out2, s.copyScreen a b = .ok out2 ∧ s.copySb a b ++ out2 =
      (List.range' r1 (r2 + 1 - r1)).flatMap fun r =>
        emit (colFrom r1 a.x r) (colTo s.sizeX r2 b.x r) (s.doc[r]?.getD []) := by
  have hx : s.sizeX < 4294967295 := by have := hi.geo.xb; omega
  have hle := h.le
  have hsb : r1 < s.sb.length → s.copySb a b =
      (List.range' r1 (min (r2 + 1) s.sb.length - r1)).flatMap fun r =>
        emit (colFrom r1 a.x r) (colTo s.sizeX r2 b.x r) (s.doc[r]?.getD []) := by
    intro h1
    have ha := (h.sa r1 h1).mpr rfl
    unfold copySb
    rw [ha]
    dsimp only
    have hm : (s.sb[r1]).sbId ∈ s.sb.map Line.sbId := List.mem_map.mpr ⟨_, List.getElem_mem h1, rfl⟩
    have hidx : (s.sb.map Line.sbId).idxOf (s.sb[r1]).sbId = r1 := by
      have h2 := List.idxOf_lt_length_of_mem hm
      have h3 := List.getElem_idxOf h2
      rw [List.length_map] at h2
      rw [List.getElem_map] at h3
      exact (h.sa _ h2).mp (ha.trans (congrArg some h3.symm))
    rw [sbFrom_at hi.sb hm, hidx]
    exact copySbLoop_eq h hx (s.sb.length - r1) r1 (by omega) (by omega) (by omega)
  rcases h.lb with ⟨hb, hr2⟩ | ⟨hb, hr2, _⟩
  · have hb0 := h.b0
    have hs : ∀ i : Nat, a.y = i → r1 ≤ s.sb.length + i → s.copyScreen a b = .ok
        ((List.range' (s.sb.length + i) (r2 + 1 - (s.sb.length + i))).flatMap fun r =>
          emit (colFrom r1 a.x r) (colTo s.sizeX r2 b.x r) (s.doc[r]?.getD [])) := by
      intro i hai hi1
      unfold copyScreen
      rw [if_neg (by rw [hb]; simp), hai]
      have : (b.y - (i : Int) + 1).toNat = r2 + 1 - (s.sb.length + i) := by omega
      rw [this]
      rcases Nat.lt_or_ge r2 (s.sb.length + i) with h1 | h1
      · rw [show r2 + 1 - (s.sb.length + i) = 0 by omega]; rfl
      · exact copyScreenLoop_eq hi.geo h hx hb _ i (by omega) hi1
    rcases h.la with ⟨ha, hr1⟩ | ⟨ha, hr1, hy⟩
    · have ha0 := h.a0
      refine ⟨_, hs a.y.toNat (by omega) (by omega), ?_⟩
      have : s.copySb a b = [] := by unfold copySb; rw [ha]
      rw [this, List.nil_append, show s.sb.length + a.y.toNat = r1 by omega]
    · refine ⟨_, hs 0 (by omega) (by omega), ?_⟩
      rw [hsb hr1, ← List.flatMap_append]
      simp only [Nat.add_zero]
      congr 1
      rw [show min (r2 + 1) s.sb.length - r1 = s.sb.length - r1 by omega]
      have := List.range'_append (s := r1) (m := s.sb.length - r1) (n := r2 + 1 - s.sb.length) (step := 1)
      rw [show r1 + 1 * (s.sb.length - r1) = s.sb.length by omega] at this
      rw [this]
      congr 1
      omega
  · refine ⟨[], ?_, ?_⟩
    · unfold copyScreen; rw [if_pos hb]
    · have hr1 : r1 < s.sb.length := by omega
      rw [hsb hr1, List.append_nil, show min (r2 + 1) s.sb.length = r2 + 1 by omega]

/-! ### The text -/

theorem join_lines {α : Type} (f : α → List UInt8) : ∀ L : List α,
    (L.flatMap (fun r => f r ++ [10])).dropLast = [10].intercalate (L.map f)
  | [] => rfl
  | [a] => by simp [List.intercalate]
  | a :: b :: L => by
    have ih := join_lines f (b :: L)
    have hne : (b :: L).flatMap (fun r => f r ++ [10]) ≠ [] := by
      rw [List.flatMap_cons]
      intro hh
      have := congrArg List.length hh
      simp at this
    rw [List.flatMap_cons, List.dropLast_append_of_ne_nil hne, ih]
    simp [List.intercalate]

theorem encode_utf8 (row : List Nat) :
    (row.flatMap Utf8.encode).map UInt8.toNat = row.flatMap utf8 := by
  rw [List.map_flatMap]
  congr 1
  funext g
  exact Props.Utf8.C02_encode_spec g

theorem intercalate_map {α β : Type} (f : α → β) (sep : List α) : ∀ L : List (List α),
    (sep.intercalate L).map f = (sep.map f).intercalate (L.map (List.map f))
  | [] => rfl
  | [a] => by simp [List.intercalate]
  | a :: b :: L => by
    have ih := intercalate_map f sep (b :: L)
    simp only [List.intercalate] at ih ⊢
    simp only [List.intersperse_cons_cons, List.map_cons, List.flatten_cons, List.map_append, ih]

/-- The parts of the lines that appear in the copied text: a first line in which the
selection starts right of the last character does not appear at all. -/
def copied (s : Screen) (r1 c1 r2 c2 : Nat) : List (List Nat) :=
  if c1 ≤ (trim (s.doc[r1]?.getD [])).length then pieces s.doc s.sizeX r1 c1 r2 c2
  else (pieces s.doc s.sizeX r1 c1 r2 c2).tail

theorem flatMap_congr {α β : Type} {L : List α} {f g : α → List β} (h : ∀ r ∈ L, f r = g r) :
    L.flatMap f = L.flatMap g := by
  rw [List.flatMap_def, List.flatMap_def, List.map_congr_left h]

theorem emit_text (s : Screen) {r1 c1 r2 c2 : Nat} (h : r1 ≤ r2) :
    ((List.range' r1 (r2 + 1 - r1)).flatMap fun r =>
        emit (colFrom r1 c1 r) (colTo s.sizeX r2 c2 r) (s.doc[r]?.getD [])).dropLast.map UInt8.toNat =
      text (s.copied r1 c1 r2 c2) := by
  obtain ⟨m, hm⟩ : ∃ m, r2 + 1 - r1 = m + 1 := ⟨r2 - r1, by omega⟩
  have hrest : ∀ r ∈ List.range' (r1 + 1) m, emit (colFrom r1 c1 r) (colTo s.sizeX r2 c2 r)
      (s.doc[r]?.getD []) = (piece (colFrom r1 c1 r) (colTo s.sizeX r2 c2 r)
        (s.doc[r]?.getD [])).flatMap Utf8.encode ++ [10] := by
    intro r hr
    have hr1 := (List.mem_range'_1.mp hr).1
    unfold emit
    rw [if_pos]
    unfold colFrom
    rw [if_neg (by omega)]
    omega
  have hfin : ∀ L : List Nat,
      (L.flatMap fun r => (piece (colFrom r1 c1 r) (colTo s.sizeX r2 c2 r)
        (s.doc[r]?.getD [])).flatMap Utf8.encode ++ [10]).dropLast.map UInt8.toNat =
      text (L.map fun r => piece (colFrom r1 c1 r) (colTo s.sizeX r2 c2 r) (s.doc[r]?.getD [])) := by
    intro L
    rw [join_lines, intercalate_map]
    unfold text
    rw [List.map_map, List.map_map]
    congr 1
    apply List.map_congr_left
    intro r _
    exact encode_utf8 _
  unfold copied pieces
  rw [hm, List.range'_succ]
  by_cases hc : c1 ≤ (trim (s.doc[r1]?.getD [])).length
  · rw [if_pos hc, ← hfin]
    congr 2
    rw [List.flatMap_cons, List.flatMap_cons]
    congr 1
    · unfold emit
      rw [if_pos]
      unfold colFrom
      rw [if_pos rfl]
      exact hc
    · exact flatMap_congr hrest
  · rw [if_neg hc, List.map_cons, List.tail_cons, ← hfin]
    congr 2
    rw [List.flatMap_cons]
    have h0 : emit (colFrom r1 c1 r1) (colTo s.sizeX r2 c2 r1) (s.doc[r1]?.getD []) = [] := by
      unfold emit
      rw [if_neg]
      unfold colFrom
      rw [if_pos rfl]
      exact hc
    rw [h0, List.nil_append]
    exact flatMap_congr hrest

/-! ### Endpoints -/

/-- An endpoint that was set by the user and did not move into the scrollback since. -/
@[reducible] def Placed (p : SelPos) : Prop := p.line ≠ none → p.y = 0

theorem nodup_getElem_inj {l : List Nat} (h : l.Nodup) {i j : Nat} {hi : i < l.length}
    {hj : j < l.length} (e : l[i] = l[j]) : i = j := by
  have hp := List.pairwise_iff_getElem.mp h
  rcases Nat.lt_trichotomy i j with h1 | h1 | h1
  · exact absurd e (hp i j hi hj h1)
  · exact h1
  · exact absurd e.symm (hp j i hj hi h1)

theorem docRow_sb {s : Screen} (h : SbOk s) {p : SelPos} {id : Nat} (hp : p.line = some id)
    (hm : id ∈ s.sb.map Line.sbId) (k : Nat) (hk : k < s.sb.length) :
    p.line = some (s.sb[k]).sbId ↔ k = s.view.docRow p := by
  have hnd := ids_nodup h.ids
  have hd : s.view.docRow p = (s.sb.map Line.sbId).idxOf id := by
    unfold View.docRow
    rw [hp, ids_view]
  have hl := List.idxOf_lt_length_of_mem hm
  have hg := List.getElem_idxOf hl
  rw [hd, hp]
  constructor
  · intro hh
    injection hh with hh
    have h1 : (s.sb.map Line.sbId)[k]'(by rw [List.length_map]; exact hk) =
        (s.sb.map Line.sbId)[(s.sb.map Line.sbId).idxOf id] := by
      rw [hg, List.getElem_map, hh]
    exact nodup_getElem_inj hnd h1
  · intro hh
    subst hh
    rw [List.getElem_map] at hg
    rw [hg]

theorem docRow_mem {s : Screen} {p : SelPos} {id : Nat} (hp : p.line = some id)
    (hm : id ∈ s.sb.map Line.sbId) : s.view.docRow p < s.sb.length := by
  unfold View.docRow
  rw [hp, ids_view]
  have := List.idxOf_lt_length_of_mem hm
  rwa [List.length_map] at this

theorem docRow_none {s : Screen} {p : SelPos} (hp : p.line = none) :
    s.view.docRow p = s.sb.length + p.y.toNat := by
  unfold View.docRow
  rw [hp, view_sb_length]

theorem anchored_some {s : Screen} {p : SelPos} {id : Nat} (h : s.view.Anchored p)
    (hp : p.line = some id) : id ∈ s.sb.map Line.sbId := by
  have := h.2
  rw [hp, ids_view] at this
  exact this

theorem anchored_none {s : Screen} {p : SelPos} (h : s.view.Anchored p)
    (hp : p.line = none) : 0 ≤ p.y ∧ p.y < s.sizeY := by
  have := h.2
  rw [hp] at this
  exact this

/-- What `Ordered` needs to know about one endpoint. -/
theorem endpoint {s : Screen} (h : SbOk s) {p : SelPos} (ha : s.view.Anchored p) (hp : Placed p) :
    p.x < s.sizeX ∧
    (∀ k (hk : k < s.sb.length), p.line = some (s.sb[k]).sbId ↔ k = s.view.docRow p) ∧
    ((p.line = none ∧ (s.view.docRow p : Int) = s.sb.length + p.y) ∨
      (p.line ≠ none ∧ s.view.docRow p < s.sb.length ∧ p.y = 0)) ∧
    0 ≤ p.y ∧ s.view.docRow p < s.sb.length + s.sizeY := by
  refine ⟨ha.1, ?_⟩
  cases hl : p.line with
  | none =>
    obtain ⟨h1, h2⟩ := anchored_none ha hl
    have h3 := docRow_none (s := s) hl
    refine ⟨?_, Or.inl ⟨rfl, by omega⟩, h1, by omega⟩
    intro k hk
    constructor
    · intro hh; cases hh
    · intro hh; omega
  | some id =>
    have hm := anchored_some ha hl
    have h1 := docRow_mem hl hm
    have h2 := hp (by rw [hl]; simp)
    refine ⟨?_, Or.inr ⟨by simp, h1, h2⟩, by omega, by omega⟩
    intro k hk
    rw [← hl]
    exact docRow_sb h hl hm k hk

theorem ordered_of {s : Screen} (h : SbOk s) {a b : SelPos} (ha : s.view.Anchored a)
    (hb : s.view.Anchored b) (pa : Placed a) (pb : Placed b)
    (hle : View.NotAfter (s.view.docRow a) a.x (s.view.docRow b) b.x) :
    s.Ordered a b (s.view.docRow a) (s.view.docRow b) := by
  obtain ⟨a1, a2, a3, a4, a5⟩ := endpoint h ha pa
  obtain ⟨b1, b2, b3, b4, b5⟩ := endpoint h hb pb
  exact ⟨a1, b1, a2, b2, a3, b3, a4, b4, b5, hle⟩

/-- The pairs of endpoints that `norm_selection` puts in the right order: not those
that start in the newest scrollback line and go up, and not those that start in the
scrollback and end in the first row of the screen, further left. -/
def Handled (s : Screen) (p q : SelPos) : Prop :=
  match p.line, q.line with
  | some i, some j => i = j ∨ s.view.docRow p + 1 ≠ s.sb.length
  | some _, none => 0 < q.y ∨ p.x ≤ q.x
  | none, _ => True

instance (s : Screen) (p q : SelPos) : Decidable (s.Handled p q) := by
  unfold Handled; split <;> exact inferInstance

theorem normScan_eq {s : Screen} (h : SbOk s) {a b : Nat} (ha : a ∈ s.sb.map Line.sbId)
    (hb : b ∈ s.sb.map Line.sbId) :
    normScan s.sb a b = true ↔ (s.sb.map Line.sbId).idxOf a ≤ (s.sb.map Line.sbId).idxOf b ∧
      (s.sb.map Line.sbId).idxOf b + 1 < s.sb.length := by
  have hnd := ids_nodup h.ids
  have hla := List.idxOf_lt_length_of_mem ha
  have hlb := List.idxOf_lt_length_of_mem hb
  have hgb := List.getElem_idxOf hlb
  rw [List.length_map] at hla
  unfold normScan
  rw [sbFrom_at h ha, List.any_eq_true]
  generalize (s.sb.map Line.sbId).idxOf a = i at *
  generalize hj : (s.sb.map Line.sbId).idxOf b = j at *
  have hlb' : j < s.sb.length := by rwa [List.length_map] at hlb
  constructor
  · rintro ⟨l, hl, he⟩
    have he := of_decide_eq_true he
    obtain ⟨k, hk, hkl⟩ := List.getElem_of_mem hl
    rw [List.length_dropLast, List.length_drop] at hk
    rw [List.getElem_dropLast, List.getElem_drop] at hkl
    have h1 : (s.sb.map Line.sbId)[i + k]'(by rw [List.length_map]; omega) = (s.sb.map Line.sbId)[j] := by
      rw [hgb, List.getElem_map, hkl, he]
    have := nodup_getElem_inj hnd h1
    omega
  · rintro ⟨h1, h2⟩
    refine ⟨s.sb[j], ?_, ?_⟩
    · have h3 : (s.sb.drop i).dropLast[j - i]'(by rw [List.length_dropLast, List.length_drop]; omega) =
          s.sb[j] := by
        rw [List.getElem_dropLast, List.getElem_drop]
        congr 1
        omega
      rw [← h3]
      exact List.getElem_mem _
    · rw [List.getElem_map] at hgb
      exact decide_eq_true hgb

theorem normSel_eq {s : Screen} (h : SbOk s) {p q : SelPos} (hp : s.view.Anchored p)
    (hq : s.view.Anchored q) (pp : Placed p) (pq : Placed q) (hh : s.Handled p q) :
    normSel s.sb p q = if View.NotAfter (s.view.docRow p) p.x (s.view.docRow q) q.x then (p, q)
      else (q, p) := by
  have hq0 := (endpoint h hq pq).2.2.2.1
  unfold normSel
  rw [if_neg (by rintro ⟨_, h1⟩; omega)]
  unfold Handled at hh
  unfold View.NotAfter
  cases hl : p.line with
  | none =>
    obtain ⟨h1, h2⟩ := anchored_none hp hl
    have h3 := docRow_none (s := s) hl
    cases hm : q.line with
    | none =>
      obtain ⟨h4, h5⟩ := anchored_none hq hm
      have h6 := docRow_none (s := s) hm
      dsimp only
      rw [h3, h6]
      repeat' split
      all_goals first | rfl | omega
    | some j =>
      have h6 := docRow_mem hm (anchored_some hq hm)
      dsimp only
      rw [if_neg (by omega)]
  | some i =>
    have hmi := anchored_some hp hl
    have h3 := docRow_mem hl hmi
    cases hm : q.line with
    | none =>
      obtain ⟨h4, h5⟩ := anchored_none hq hm
      have h6 := docRow_none (s := s) hm
      have h7 := pp (by rw [hl]; simp)
      rw [hl, hm] at hh
      dsimp only at hh ⊢
      rw [if_pos (show _ ∨ _ from Or.inl (by omega))]
      repeat' split
      all_goals first | rfl | omega
    | some j =>
      have hmj := anchored_some hq hm
      rw [hl, hm] at hh
      dsimp only at hh ⊢
      have e1 : s.view.docRow p = (s.sb.map Line.sbId).idxOf i := by
        unfold View.docRow; rw [hl, ids_view]
      have e2 : s.view.docRow q = (s.sb.map Line.sbId).idxOf j := by
        unfold View.docRow; rw [hm, ids_view]
      by_cases hij : i = j
      · rw [if_pos hij, e1, e2, hij]
        repeat' split
        all_goals first | rfl | omega
      · rw [if_neg hij]
        have hne : (s.sb.map Line.sbId).idxOf i ≠ (s.sb.map Line.sbId).idxOf j := by
          intro hc
          have g1 := List.getElem_idxOf (List.idxOf_lt_length_of_mem hmi)
          have g2 := List.getElem_idxOf (List.idxOf_lt_length_of_mem hmj)
          apply hij
          rw [← g1, ← g2]
          congr 1
        have hlast := hh.resolve_left hij
        by_cases hs : normScan s.sb j i = true
        · obtain ⟨h4, h5⟩ := (normScan_eq h hmj hmi).mp hs
          rw [if_pos hs, if_neg (by omega)]
        · rw [if_neg hs]
          rw [if_pos]
          left
          apply Nat.lt_of_not_le
          intro hc
          exact hs ((normScan_eq h hmj hmi).mpr ⟨by omega, by omega⟩)

/-! ### The whole function -/

theorem count_ge {s : Screen} (h : SbOk s) {a b : SelPos} {r1 r2 : Nat} (ho : s.Ordered a b r1 r2) :
    ((r2 + 1 - r1 : Nat) : Int) ≤ (countSb s.sb a b : Int) + countScreen a b ∧
    (countSb s.sb a b : Int) + countScreen a b ≤ ((s.sb.length + s.sizeY : Nat) : Int) := by
  have hle := ho.le
  have htop := ho.top
  unfold countSb countScreen
  rcases ho.la with ⟨h1, h2⟩ | ⟨h1, h2, h3⟩
  · rw [h1]
    simp only [ne_eq, not_true_eq_false, false_and, if_false]
    rcases ho.lb with ⟨h4, h5⟩ | ⟨h4, h5, h6⟩
    · have := ho.a0; omega
    · have := ho.a0; omega
  · obtain ⟨id, hid⟩ := Option.ne_none_iff_exists'.mp h1
    have ha := (ho.sa r1 h2).mpr rfl
    have hm : (s.sb[r1]).sbId ∈ s.sb.map Line.sbId := List.mem_map.mpr ⟨_, List.getElem_mem h2, rfl⟩
    have hidx : (s.sb.map Line.sbId).idxOf (s.sb[r1]).sbId = r1 := by
      have h2 := List.idxOf_lt_length_of_mem hm
      have h3 := List.getElem_idxOf h2
      rw [List.length_map] at h2
      rw [List.getElem_map] at h3
      exact (ho.sa _ h2).mp (ha.trans (congrArg some h3.symm))
    rw [ha]
    dsimp only
    rcases ho.lb with ⟨h4, h5⟩ | ⟨h4, h5, h6⟩
    · rw [h4]
      simp only [reduceCtorEq, if_false, ne_eq, not_true_eq_false, and_false]
      rw [sbFrom_at h hm, hidx, List.length_drop]
      omega
    · rw [if_pos (show some (s.sb[r1]).sbId ≠ none ∧ b.line ≠ none from ⟨by simp, h4⟩)]
      by_cases hbl : b.line = some (s.sb[r1]).sbId
      · rw [if_pos hbl]
        have := (ho.sb r1 h2).mp hbl
        omega
      · rw [if_neg hbl, sbFrom_at h hm, hidx, List.length_drop]
        omega

theorem selectionCopy_eq {s : Screen} (hi : Inv s) {a b : SelPos} {r1 r2 : Nat}
    (ho : s.Ordered a b r1 r2) (hn : normSel s.sb s.selStart s.selEnd = (a, b))
    (hact : s.selActive = true) (hmem : s.allocOk s.allocN = true)
    (hsz : 4 * (s.sizeX * (s.sb.length + s.sizeY)) + 1 < 2147483648) :
    ∃ n out, r2 + 1 - r1 ≤ n ∧ n ≤ s.sb.length + s.sizeY ∧
      out.dropLast.map UInt8.toNat = text (s.copied r1 a.x r2 b.x) ∧
      out = ((List.range' r1 (r2 + 1 - r1)).flatMap fun r =>
        emit (colFrom r1 a.x r) (colTo s.sizeX r2 b.x r) (s.doc[r]?.getD [])) ∧
      s.selectionCopy = if out.length > 4 * (s.sizeX * n) + 1 then .error .copyBuf
        else .ok (.text out.dropLast) := by
  obtain ⟨c1, c2⟩ := count_ge hi.sb ho
  obtain ⟨out2, e2, e3⟩ := copy_eq hi ho
  have hle := ho.le
  obtain ⟨n, hn'⟩ : ∃ n : Nat, (countSb s.sb a b : Int) + countScreen a b = n :=
    ⟨((countSb s.sb a b : Int) + countScreen a b).toNat, by omega⟩
  rw [hn'] at c1 c2
  refine ⟨n, _, by omega, by omega, emit_text s (by omega), rfl, ?_⟩
  have hmul : s.sizeX * n ≤ s.sizeX * (s.sb.length + s.sizeY) := Nat.mul_le_mul_left _ (by omega)
  have hbuf : toU32 ((s.sizeX : Int) * n * 4 + 1) = 4 * (s.sizeX * n) + 1 := by
    have : (s.sizeX : Int) * n = ((s.sizeX * n : Nat) : Int) := by rw [Int.natCast_mul]
    rw [this]
    unfold toU32
    omega
  have hntop : ¬ (s.selStart.y = -1 ∧ s.selStart.line = none ∧ s.selEnd.y = -1 ∧ s.selEnd.line = none) := by
    rintro ⟨h1, h2, h3, h4⟩
    unfold normSel at hn
    rw [if_pos ⟨h4, h3⟩] at hn
    injection hn with hn1 hn2
    have := ho.a0
    rw [← hn1] at this
    omega
  unfold selectionCopy
  rw [if_neg (by rw [hact]; simp), if_neg hntop, hn]
  dsimp only
  have htop : topStart s.sb a = a := by
    unfold topStart
    rw [if_neg]
    rintro ⟨_, h1⟩
    have := ho.a0
    omega
  rw [htop, hn', hbuf, e2, if_neg (by rw [hmem]; simp; omega)]
  show (if (s.copySb a b ++ out2).length > _ then _ else _) = _
  rw [e3]
  rfl

end Screen
end Verif
