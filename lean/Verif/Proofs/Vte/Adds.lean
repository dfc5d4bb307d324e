import Verif.Spec.Roll
import Verif.Props.Screen.Scroll

/-!
# How the scrollback grows
-/

namespace Verif

/-- The scrollback of `u'` is the one of `u` with `rows` added, as far as the maximum allows; if no allocation fails. -/
structure View.Adds (mem : Prop) (u u' : View) (rows : List (Nat → Option Glyph)) : Prop where
  max : u'.sbMax = u.sbMax
  size : u'.sizeX = u.sizeX
  rows : mem → u'.kept = View.newest u.sbMax (u.kept ++ rows)

theorem View.newest_all {α : Type} {n : Nat} {l : List α} (h : l.length ≤ n) : View.newest n l = l := by
  unfold View.newest
  rw [Nat.sub_eq_zero_of_le h, List.drop_zero]

theorem View.newest_append {α : Type} (n : Nat) (l m : List α) : View.newest n (View.newest n l ++ m) = View.newest n (l ++ m) := by
  unfold View.newest
  rw [List.length_append, List.length_drop, List.length_append]
  by_cases h : l.length ≤ n
  · rw [Nat.sub_eq_zero_of_le h, List.drop_zero, Nat.sub_zero]
  · by_cases hm : m.length ≤ n
    · rw [List.drop_append, List.drop_append, List.length_drop, List.drop_drop,
        show l.length - n + (l.length - (l.length - n) + m.length - n) = l.length + m.length - n by omega,
        show l.length - (l.length - n) + m.length - n - (l.length - (l.length - n)) = l.length + m.length - n - l.length by omega]
    · rw [List.drop_append, List.drop_append, List.length_drop, List.drop_drop,
        List.drop_eq_nil_of_le (as := l) (by omega), List.drop_eq_nil_of_le (as := l) (by omega),
        show l.length - (l.length - n) + m.length - n - (l.length - (l.length - n)) = l.length + m.length - n - l.length by omega]

theorem View.newest_map {α β : Type} (f : α → β) (n : Nat) (l : List α) : (View.newest n l).map f = View.newest n (l.map f) := by
  unfold View.newest
  rw [List.map_drop, List.length_map]

namespace View

theorem kept_eq {u u' : View} (h : u'.sb = u.sb) (hx : u'.sizeX = u.sizeX) : u'.kept = u.kept := by
  unfold kept
  rw [h, hx]

theorem Adds.same {mem : Prop} {u u' : View} (hle : u.sb.length ≤ u.sbMax) (h : u'.sb = u.sb) (hm : u'.sbMax = u.sbMax)
    (hx : u'.sizeX = u.sizeX) : Adds mem u u' [] := by
  refine ⟨hm, hx, fun _ => ?_⟩
  rw [List.append_nil, kept_eq h hx, newest_all]
  unfold kept
  rw [List.length_map]
  exact hle

theorem Adds.upd {mem : Prop} {u u' u'' : View} {rows : List (Nat → Option Glyph)} (ha : Adds mem u u' rows) (h : u''.sb = u'.sb)
    (hm : u''.sbMax = u'.sbMax) (hx : u''.sizeX = u'.sizeX) : Adds mem u u'' rows := by
  refine ⟨hm.trans ha.max, hx.trans ha.size, fun m => ?_⟩
  rw [kept_eq h hx]
  exact ha.rows m

theorem Adds.trans {mem mem' : Prop} {u u' u'' : View} {rows rows' : List (Nat → Option Glyph)} (ha : Adds mem u u' rows)
    (hb : Adds mem' u' u'' rows') (hm : mem → mem') : Adds mem u u'' (rows ++ rows') := by
  refine ⟨hb.max.trans ha.max, hb.size.trans ha.size, fun m => ?_⟩
  rw [hb.rows (hm m), ha.rows m, ha.max, newest_append, List.append_assoc]

theorem setGrid_sizeX (u : View) (g : Grid) : (u.setGrid g).sizeX = u.sizeX ∧ (u.setGrid g).sbMax = u.sbMax ∧
    (u.setGrid g).sb = u.sb := by
  unfold View.setGrid
  split <;> exact ⟨rfl, rfl, rfl⟩

theorem ScrollUp.fits {u u' : View} {n : Nat} {mem : Prop} {rows kept : List (List Glyph)} (h : ScrollUp u u' n mem rows kept) :
    u'.sizeX = u.sizeX ∧ u'.sbMax = u.sbMax := by
  have hg := setGrid_sizeX u (u.rowsUp u.marginTop u.marginBottom n)
  have he := h.eq
  constructor
  · rw [he]; exact hg.1
  · rw [he]; exact hg.2.1

theorem number_kept {w b : Nat} (rows : List (List Glyph)) :
    ((View.number b rows).map fun r j => if j < w then r.2[j]? else none) =
      rows.map fun (r : List Glyph) (j : Nat) => if j < w then r[j]? else none := by
  unfold View.number
  apply List.ext_getElem?
  intro i
  rw [List.getElem?_map, List.getElem?_mapIdx, List.getElem?_map]
  cases rows[i]? <;> rfl

/-- Scrolling the main screen up. -/
theorem Adds.scroll {u u' : View} {n : Nat} {mem : Prop} {rows kept : List (List Glyph)} (h : ScrollUp u u' n mem rows kept)
    (hu : u.useAlt = false) (hn : ∀ i j, u.sizeX ≤ j → u.grid i j = none) :
    Adds mem u u' ((List.range n).map fun k => u.grid (u.marginTop + k)) := by
  obtain ⟨hx, hm⟩ := h.fits
  refine ⟨hm, hx, fun m => ?_⟩
  have hk := h.full hu m
  subst hk
  have : u'.kept = View.newest u.sbMax (u.kept ++ kept.map fun (r : List Glyph) (j : Nat) => if j < u.sizeX then r[j]? else none) := by
    have : u'.kept = u'.sb.map fun r j => if j < u.sizeX then r.2[j]? else none := by
      unfold View.kept
      rw [hx]
    rw [this, h.sb, newest_map, List.map_append, number_kept]
    rfl
  rw [this]
  congr 2
  have hl := h.len
  apply List.ext_getElem?
  intro k
  rw [List.getElem?_map, List.getElem?_map]
  by_cases hk : k < n
  · rw [List.getElem?_range hk, List.getElem?_eq_getElem (by omega)]
    show some _ = some _
    congr 1
    funext j
    show (if j < u.sizeX then kept[k][j]? else none) = u.grid (u.marginTop + k) j
    by_cases hj : j < u.sizeX
    · rw [if_pos hj]
      have := h.row k j hk hj
      rw [List.getElem?_eq_getElem (by omega)] at this
      exact this
    · rw [if_neg hj, hn _ _ (by omega)]
  · rw [List.getElem?_eq_none (by omega), List.getElem?_eq_none (by rw [List.length_range]; omega)]
    rfl

/-- Scrolling the alternate screen up. -/
theorem Adds.scrollAlt {u u' : View} {n : Nat} {mem : Prop} {rows kept : List (List Glyph)} (h : ScrollUp u u' n mem rows kept)
    (hu : u.useAlt = true) (hle : u.sb.length ≤ u.sbMax) : Adds mem u u' [] := by
  obtain ⟨hx, hm⟩ := h.fits
  have hk := h.alt hu
  subst hk
  refine Adds.same hle ?_ hm hx
  rw [h.sb]
  show View.newest _ (u.sb ++ []) = _
  rw [List.append_nil, newest_all hle]

end View

namespace Screen

/-- The calls that cannot add to the scrollback (`moveUp` is left out because of its precondition). -/
def quiet (c : Call) : Bool :=
  !View.scrolls c && !View.sbAdmin c && (match c with | .moveUp _ _ => false | _ => true)

theorem quiet_adds {cs : List Call} : ∀ {s s' : Screen} {mem : Prop}, Reachable s → cs.all quiet = true → runAll cs s = .ok s' →
    View.Adds mem s.view s'.view [] := by
  induction cs with
  | nil =>
    intro s s' mem hr _ e
    injection e with e
    subst e
    exact View.Adds.same hr.inv.sbLe rfl rfl rfl
  | cons c cs ih =>
    intro s s' mem hr hq e
    rw [List.all_cons, Bool.and_eq_true] at hq
    have e : (c.run s >>= fun s => runAll cs s) = .ok s' := e
    cases h : c.run s with
    | error k => rw [h] at e; cases e
    | ok t =>
      rw [h] at e
      have hq1 := hq.1
      unfold quiet at hq1
      rw [Bool.and_eq_true, Bool.and_eq_true, Bool.not_eq_true', Bool.not_eq_true'] at hq1
      have hv : c.Valid := by
        cases c <;> first | exact trivial | (cases hq1.1.1; done) | (cases hq1.1.2; done) | (cases hq1.2; done)
      have hrs : ∀ x y, c ≠ .resize x y := by
        intro x y hc
        subst hc
        cases hq1.1.1
      have hk := step_keeps hr.inv hv hrs h
      have hsb : t.view.sb = s.view.sb := by
        rcases hk.push hq1.1.2 with hp | ⟨hs, _⟩
        · exact hp.1
        · rw [hq1.1.1] at hs; cases hs
      have hm := hk.max (by
        intro m hc
        subst hc
        cases hq1.1.2)
      have h1 : View.Adds mem s.view t.view [] := View.Adds.same hr.inv.sbLe hsb hm hk.sizeX
      exact View.Adds.trans h1 (ih (mem := mem) (hr.step hv h) hq.2 e) id

end Screen
end Verif
