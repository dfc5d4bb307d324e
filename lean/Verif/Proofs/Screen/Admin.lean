import Verif.Proofs.Screen.Write

/-!
# Margins, scrollback administration, flags, tab stops, reset
-/

namespace Verif
namespace Screen

/-! ### Margins -/

theorem setMargins_eq {s : Screen} (h : Inv s) (top bottom : Nat) :
    s.setMargins top bottom =
      if max top 1 < bottom ∧ bottom ≤ s.sizeY then
        { s with marginTop := max top 1 - 1, marginBottom := bottom - 1 }
      else { s with marginTop := 0, marginBottom := s.sizeY - 1 } := by
  have hpy := h.geo.predY
  have e0 : (if top = 0 then 1 else top) = max top 1 := by split <;> omega
  unfold setMargins
  rw [e0, hpy]
  by_cases h1 : bottom ≤ max top 1
  · rw [if_pos h1, if_neg (by omega)]
  · rw [if_neg h1]
    by_cases h2 : bottom > s.sizeY
    · rw [if_pos h2, if_neg (by omega)]
    · rw [if_neg h2, if_pos (by omega)]

theorem setMargins_inv {s : Screen} (h : Inv s) (top bottom : Nat) : Inv (s.setMargins top bottom) := by
  have := h.geo.y0
  rw [setMargins_eq h]
  split
  · exact ⟨{ h.geo with mtb := by simp only; omega, mby := by simp only; omega }, { h.sb with },
      { h.cur with }, h.ageb⟩
  · exact ⟨{ h.geo with mtb := by simp only; omega, mby := by simp only; omega }, { h.sb with },
      { h.cur with }, h.ageb⟩

/-! ### Scrollback limit -/

theorem keepPos_line (sb : List Line) (o : Option Nat) :
    View.keepPos (ids sb) o = match o with
      | none => none
      | some q => if q ∈ ids sb then some q else sb.head?.map Line.sbId := by
  unfold View.keepPos ids
  cases o with
  | none => rfl
  | some q => simp only [List.head?_map]

theorem keepSel_eq (sb : List Line) (p : SelPos) : View.keepSel (ids sb) p = dropStale sb p := rfl

theorem lastN_cons {α : Type} {n : Nat} {a : α} {l : List α} (h : n ≤ l.length) :
    lastN n (a :: l) = lastN n l := by
  unfold lastN
  rw [List.length_cons, show l.length + 1 - n = (l.length - n) + 1 by omega, List.drop_succ_cons]

theorem keepPos_step {l : Line} {rest : List Line} (hn : (ids (l :: rest)).Nodup) {n : Nat}
    (o : Option Nat) :
    View.keepPos (ids (lastN n rest)) (if o = some l.sbId then rest.head?.map Line.sbId else o) =
      View.keepPos (ids (lastN n rest)) o := by
  by_cases ho : o = some l.sbId
  · rw [if_pos ho, ho]
    have hnm : l.sbId ∉ ids (lastN n rest) := by
      intro hm
      obtain ⟨l', hl', e⟩ := mem_ids.mp hm
      simp only [ids, List.map_cons, List.nodup_cons] at hn
      apply hn.1
      rw [← e]
      exact List.mem_map_of_mem (mem_of_mem_lastN hl')
    rw [keepPos_line, keepPos_line]
    simp only [if_neg hnm]
    cases rest with
    | nil => simp [lastN]
    | cons r rs =>
      simp only [List.head?_cons, Option.map_some]
      by_cases hm : r.sbId ∈ ids (lastN n (r :: rs))
      · rw [if_pos hm]
        by_cases hle : n ≤ rs.length
        · exfalso
          rw [lastN_cons hle] at hm
          obtain ⟨l', hl', e⟩ := mem_ids.mp hm
          simp only [ids, List.map_cons, List.nodup_cons] at hn
          apply hn.2.1
          rw [← e]
          exact List.mem_map_of_mem (mem_of_mem_lastN hl')
        · rw [lastN_of_le (by simp only [List.length_cons]; omega)]; rfl
      · rw [if_neg hm]
  · rw [if_neg ho]

theorem dropSel_step {l : Line} {rest : List Line} (hn : (ids (l :: rest)).Nodup) {n : Nat}
    (p : SelPos) :
    dropStale (lastN n rest) (dropSel p l.sbId) = dropStale (lastN n rest) p := by
  unfold dropSel
  by_cases hp : p.line = some l.sbId
  · rw [if_pos hp]
    have hnm : l.sbId ∉ ids (lastN n rest) := by
      intro hm
      obtain ⟨l', hl', e⟩ := mem_ids.mp hm
      simp only [ids, List.map_cons, List.nodup_cons] at hn
      apply hn.1
      rw [← e]
      exact List.mem_map_of_mem (mem_of_mem_lastN hl')
    unfold dropStale
    simp [hp, hnm]
  · rw [if_neg hp]

/-- The screen after lowering the scrollback to `n` lines. -/
def trimmed (s : Screen) (n : Nat) : Screen :=
  { s with
    sb := lastN n s.sb, sbCount := (lastN n s.sb).length
    sbPos := View.keepPos (ids (lastN n s.sb)) s.sbPos
    selStart := if s.selActive then dropStale (lastN n s.sb) s.selStart else s.selStart
    selEnd := if s.selActive then dropStale (lastN n s.sb) s.selEnd else s.selEnd }

theorem trimSb_spec (max n : Nat) : ∀ s : Screen, s.sbCount = s.sb.length → (ids s.sb).Nodup →
    s.sb.length < 4294967296 →
    (∀ p, s.sbPos = some p → p ∈ ids s.sb) →
    (s.selActive = true → ∀ p, s.selStart.line = some p → p ∈ ids s.sb) →
    (s.selActive = true → ∀ p, s.selEnd.line = some p → p ∈ ids s.sb) →
    s.sb.length ≤ n + max →
    trimSb max n s = .ok (s.trimmed max) := by
  induction n with
  | zero =>
    intro s hc hn hb hp hS hE hlen
    have : lastN max s.sb = s.sb := lastN_of_le (by omega)
    unfold trimSb trimmed
    rw [this]
    congr 1
    have e1 : View.keepPos (ids s.sb) s.sbPos = s.sbPos := by
      unfold View.keepPos
      cases hh : s.sbPos with
      | none => rfl
      | some p => simp only; rw [if_pos (hp p hh)]
    have e2 : (if s.selActive then dropStale s.sb s.selStart else s.selStart) = s.selStart := by
      split
      · rename_i ha; exact dropStale_self (fun q hq => mem_ids.mp (hS ha q hq))
      · rfl
    have e3 : (if s.selActive then dropStale s.sb s.selEnd else s.selEnd) = s.selEnd := by
      split
      · rename_i ha; exact dropStale_self (fun q hq => mem_ids.mp (hE ha q hq))
      · rfl
    rw [e1, e2, e3, ← hc]
  | succ n ih =>
    intro s hc hn hb hp hS hE hlen
    unfold trimSb
    by_cases hgt : s.sbCount > max
    · rw [if_pos hgt]
      cases hsb : s.sb with
      | nil => rw [hsb] at hc; simp at hc; omega
      | cons l rest =>
        rw [hsb] at hc hn hb hlen
        simp only [List.length_cons] at hc hlen hb
        simp only
        have hcnt : pred32 s.sbCount = rest.length := by unfold pred32; omega
        have hnr : (ids rest).Nodup := by
          simp only [ids, List.map_cons, List.nodup_cons] at hn; exact hn.2
        have hsel : ∀ p : SelPos, (∀ q, p.line = some q → q ∈ ids s.sb) → ∀ q,
            (dropSel p l.sbId).line = some q → q ∈ ids rest := by
          intro p hp' q hq
          unfold dropSel at hq
          split at hq
          · cases hq
          · rename_i hne
            have := hp' q hq
            rw [hsb] at this
            simp only [ids, List.map_cons, List.mem_cons] at this
            rcases this with h1 | h1
            · rw [h1] at hq; exact absurd hq hne
            · exact h1
        rw [ih]
        · have e1 : lastN max s.sb = lastN max rest := by rw [hsb, lastN_cons (by omega)]
          have e2 := keepPos_step hn (n := max) s.sbPos
          have e3 := dropSel_step hn (n := max) s.selStart
          have e4 := dropSel_step hn (n := max) s.selEnd
          unfold trimmed
          rw [e1]
          dsimp only
          rw [e2]
          cases s.selActive
          · rfl
          · simp only [if_true]; rw [e3, e4]
        · exact hcnt
        · exact hnr
        · simp only; omega
        · intro p
          simp only
          by_cases h1 : s.sbPos = some l.sbId
          · rw [if_pos h1]
            intro h2
            cases rest with
            | nil => cases h2
            | cons r rs => simp only [List.head?_cons, Option.map_some, Option.some.injEq] at h2
                           rw [← h2]; simp [ids]
          · rw [if_neg h1]
            intro h2
            have := hp p h2
            rw [hsb] at this
            simp only [ids, List.map_cons, List.mem_cons] at this
            rcases this with h3 | h3
            · rw [h3] at h2; exact absurd h2 h1
            · exact h3
        · intro ha p
          simp only
          rw [show s.selActive = true from ha, if_pos rfl]
          exact hsel _ (hS ha) p
        · intro ha p
          simp only
          rw [show s.selActive = true from ha, if_pos rfl]
          exact hsel _ (hE ha) p
        · simp only; omega
    · rw [if_neg hgt]
      have : lastN max s.sb = s.sb := lastN_of_le (by omega)
      unfold trimmed
      rw [this]
      congr 1
      have e1 : View.keepPos (ids s.sb) s.sbPos = s.sbPos := by
        unfold View.keepPos
        cases hh : s.sbPos with
        | none => rfl
        | some p => simp only; rw [if_pos (hp p hh)]
      have e2 : (if s.selActive then dropStale s.sb s.selStart else s.selStart) = s.selStart := by
        split
        · rename_i ha; exact dropStale_self (fun q hq => mem_ids.mp (hS ha q hq))
        · rfl
      have e3 : (if s.selActive then dropStale s.sb s.selEnd else s.selEnd) = s.selEnd := by
        split
        · rename_i ha; exact dropStale_self (fun q hq => mem_ids.mp (hE ha q hq))
        · rfl
      rw [e1, e2, e3, ← hc]

theorem keepPos_mem {sb : List Line} {o : Option Nat} {p : Nat}
    (h : View.keepPos (ids sb) o = some p) : p ∈ ids sb := by
  rw [keepPos_line] at h
  cases o with
  | none => cases h
  | some q =>
    simp only at h
    by_cases hq : q ∈ ids sb
    · rw [if_pos hq] at h; cases h; exact hq
    · rw [if_neg hq] at h
      cases sb with
      | nil => cases h
      | cons r rs => simp only [List.head?_cons, Option.map_some, Option.some.injEq] at h
                     rw [← h]; simp [ids]

theorem setMaxSb_eq {s : Screen} (h : Inv s) (max : Nat) :
    s.setMaxSb max = .ok { s.incAge.touch.trimmed max with sbMax := max } := by
  have hs := h.incAge.touch.sb
  have e1 : trimSb max s.sbCount s.incAge.touch = .ok (s.incAge.touch.trimmed max) := by
    apply trimSb_spec max s.sbCount s.incAge.touch hs.cnt (ids_nodup hs.ids)
    · have := hs.max; have := hs.maxb; omega
    · exact fun p hp => hs.pos' hp
    · exact fun ha p hp => mem_ids.mpr (hs.selS ha p hp)
    · exact fun ha p hp => mem_ids.mpr (hs.selE ha p hp)
    · have := hs.cnt
      have e : s.incAge.touch.sbCount = s.sbCount := ia_sbCount s
      omega
  unfold setMaxSb
  rw [e1]
  rfl

theorem setMaxSb_inv {s : Screen} (h : Inv s) {max : Nat} (hm : max < 4294967296) :
    Inv { s.incAge.touch.trimmed max with sbMax := max } := by
  have h' := h.incAge.touch
  refine ⟨{ h'.geo with }, ?_, { h'.cur with }, h'.ageb⟩
  have hsb := h'.sb
  generalize s.incAge.touch = t at *
  constructor
  · rfl
  · show (lastN max t.sb).length ≤ max
    rw [lastN_length]; omega
  · exact hm
  · show ((lastN max t.sb).map Line.sbId).Pairwise (· < ·)
    rw [lastN_map]
    exact List.Pairwise.sublist (List.drop_sublist _ _) hsb.ids
  · intro l hl
    exact hsb.last l (mem_of_mem_lastN hl)
  · intro p hp
    exact mem_ids.mp (keepPos_mem hp)
  · intro ha p hp
    have ha' : t.selActive = true := ha
    have hp' : (if t.selActive then dropStale (lastN max t.sb) t.selStart else t.selStart).line = some p := hp
    rw [if_pos ha'] at hp'
    exact dropStale_line hp'
  · intro ha p hp
    have ha' : t.selActive = true := ha
    have hp' : (if t.selActive then dropStale (lastN max t.sb) t.selEnd else t.selEnd).line = some p := hp
    rw [if_pos ha'] at hp'
    exact dropStale_line hp'

theorem setMaxSb_view (s : Screen) (max : Nat) :
    ({ s.incAge.touch.trimmed max with sbMax := max } : Screen).view =
      { s.view with
        sbMax := max, sb := View.newest max s.view.sb
        sbPos := View.keepPos ((View.newest max s.view.sb).map Prod.fst) s.sbPos
        selStart := if s.selActive then
            View.keepSel ((View.newest max s.view.sb).map Prod.fst) s.selStart else s.selStart
        selEnd := if s.selActive then
            View.keepSel ((View.newest max s.view.sb).map Prod.fst) s.selEnd else s.selEnd } := by
  have e : (View.newest max s.view.sb).map Prod.fst = ids (lastN max s.sb) := by
    show (lastN max (s.sb.map Line.row)).map Prod.fst = _
    rw [← lastN_map, ids_row]
  have e2 : View.newest max s.view.sb = (lastN max s.sb).map Line.row := by
    show lastN max (s.sb.map Line.row) = _
    rw [← lastN_map]
  rw [e, e2]
  rw [incAge_eq]
  rfl

/-! ### Clearing the scrollback -/

theorem clearSb_inv {s : Screen} (h : Inv s) : Inv s.clearSb := by
  have h' := h.incAge.touch
  refine ⟨{ h'.geo with }, ?_, { h'.cur with }, h'.ageb⟩
  have hcs : ∀ p : SelPos, ∀ q, (clearSel p).line = some q → False := by
    intro p q hq
    unfold clearSel at hq
    split at hq
    · rename_i hn; rw [hn] at hq; cases hq
    · cases hq
  unfold clearSb
  generalize s.incAge.touch = t at *
  constructor
  · rfl
  · exact Nat.zero_le _
  · exact h'.sb.maxb
  · exact List.Pairwise.nil
  · intro l hl; cases hl
  · intro p hp; cases hp
  · intro ha p hp
    have ha' : t.selActive = true := ha
    have hp' : (if t.selActive then clearSel t.selStart else t.selStart).line = some p := hp
    rw [if_pos ha'] at hp'
    exact (hcs _ _ hp').elim
  · intro ha p hp
    have ha' : t.selActive = true := ha
    have hp' : (if t.selActive then clearSel t.selEnd else t.selEnd).line = some p := hp
    rw [if_pos ha'] at hp'
    exact (hcs _ _ hp').elim

theorem clearSel_eq (p : SelPos) : clearSel p = View.keepSel [] p := by
  unfold clearSel View.keepSel
  cases h : p.line <;> simp

theorem clearSb_view (s : Screen) :
    s.clearSb.view = { s.view with
      sb := [], sbPos := none, sbPosNum := 0
      selStart := if s.selActive then View.keepSel [] s.selStart else s.selStart
      selEnd := if s.selActive then View.keepSel [] s.selEnd else s.selEnd } := by
  unfold clearSb
  rw [incAge_eq]
  simp only [← clearSel_eq]
  rfl

/-! ### Moving the view -/

/-- The view shows `sb[k]` in its first row; `k = sb.length` is the live
screen. -/
def AtPos (s : Screen) (k : Nat) : Prop := k ≤ s.sb.length ∧ s.sbPos = (s.sb[k]?).map Line.sbId

theorem SbOk.atPos {s : Screen} (h : SbOk s) : ∃ k, AtPos s k := by
  cases hp : s.sbPos with
  | none => exact ⟨s.sb.length, Nat.le_refl _, by rw [hp, List.getElem?_eq_none (Nat.le_refl _)]; rfl⟩
  | some p =>
    obtain ⟨l, hl, e⟩ := h.pos p hp
    obtain ⟨k, hk, rfl⟩ := List.mem_iff_getElem.mp hl
    exact ⟨k, by omega, by rw [hp, List.getElem?_eq_getElem hk, Option.map_some, e]⟩

theorem AtPos.topIndex {s : Screen} (h : SbOk s) {k : Nat} (ha : AtPos s k) :
    s.view.topIndex = k := by
  unfold View.topIndex
  show (match s.sbPos with
    | none => (s.sb.map Line.row).length
    | some p => ((s.sb.map Line.row).map Prod.fst).idxOf p) = k
  rw [ids_row]
  rcases Nat.lt_or_ge k s.sb.length with hlt | hge
  · rw [ha.2, List.getElem?_eq_getElem hlt]
    simp only [Option.map_some]
    have hnd : (s.sb.map Line.sbId).Nodup := ids_nodup h.ids
    have := hnd.idxOf_getElem k (by simpa using hlt)
    simpa using this
  · rw [ha.2, List.getElem?_eq_none hge]
    simp only [Option.map_none, List.length_map]
    have := ha.1; omega

theorem AtPos.ok {s : Screen} (h : SbOk s) {k n : Nat} :
    SbOk { s with sbPos := (s.sb[k]?).map Line.sbId, sbPosNum := n } where
  cnt := h.cnt
  max := h.max
  maxb := h.maxb
  ids := h.ids
  last := h.last
  pos := by
    intro p hp
    simp only at hp
    cases hh : s.sb[k]? with
    | none => rw [hh] at hp; cases hp
    | some l =>
      rw [hh] at hp
      simp only [Option.map_some, Option.some.injEq] at hp
      exact ⟨l, getElem?_mem hh, hp⟩
  selS := h.selS
  selE := h.selE

theorem sbUpLoop_spec (n : Nat) : ∀ (s : Screen) (k : Nat), SbOk s → AtPos s k →
    ∃ m, sbUpLoop n s = .ok { s with sbPos := (s.sb[k - n]?).map Line.sbId, sbPosNum := m } := by
  induction n with
  | zero =>
    intro s k _ ha
    exact ⟨s.sbPosNum, by unfold sbUpLoop; rw [Nat.sub_zero, ← ha.2]⟩
  | succ n ih =>
    intro s k hs ha
    have hnd := ids_nodup hs.ids
    rcases Nat.lt_or_ge k s.sb.length with hlt | hge
    · have hk : s.sb[k]? = some s.sb[k] := List.getElem?_eq_getElem hlt
      have hpos : s.sbPos = some s.sb[k].sbId := by rw [ha.2, hk]; rfl
      unfold sbUpLoop
      rw [hpos]
      simp only
      rw [prevId_spec hnd none hk]
      by_cases h0 : k = 0
      · subst h0
        simp only [if_true]
        refine ⟨s.sbPosNum, ?_⟩
        rw [Nat.zero_sub, ← ha.2]
      · rw [if_neg h0, List.getElem?_eq_getElem (show k - 1 < s.sb.length by omega)]
        simp only [Option.map_some]
        have hat : AtPos { s with
            sbPos := some s.sb[k - 1].sbId, sbPosNum := pred32 s.sbPosNum } (k - 1) :=
          ⟨by show k - 1 ≤ s.sb.length; omega, by
            show some _ = (s.sb[k - 1]?).map Line.sbId
            rw [List.getElem?_eq_getElem (show k - 1 < s.sb.length by omega)]; rfl⟩
        have hok : SbOk { s with
            sbPos := some s.sb[k - 1].sbId, sbPosNum := pred32 s.sbPosNum } := by
          have := AtPos.ok hs (k := k - 1) (n := pred32 s.sbPosNum)
          rw [List.getElem?_eq_getElem (show k - 1 < s.sb.length by omega)] at this
          exact this
        obtain ⟨m, e⟩ := ih _ (k - 1) hok hat
        refine ⟨m, ?_⟩
        rw [e]
        simp only
        rw [show k - 1 - n = k - (n + 1) by omega]
    · have hke : k = s.sb.length := by have := ha.1; omega
      have hpos : s.sbPos = none := by rw [ha.2, List.getElem?_eq_none hge]; rfl
      unfold sbUpLoop
      rw [hpos]
      simp only
      rw [List.getLast?_eq_getElem?]
      cases hl : s.sb[s.sb.length - 1]? with
      | none =>
        have : s.sb.length = 0 := by
          have := List.getElem?_eq_none_iff.mp hl; omega
        refine ⟨s.sbPosNum, ?_⟩
        simp only
        rw [List.getElem?_eq_none (show s.sb.length ≤ k - (n + 1) by omega), Option.map_none, ← hpos]
      | some l =>
        simp only
        have hlt : s.sb.length - 1 < s.sb.length := by
          rcases Nat.lt_or_ge (s.sb.length - 1) s.sb.length with h | h
          · exact h
          · rw [List.getElem?_eq_none h] at hl; cases hl
        have hat : AtPos { s with sbPos := some l.sbId, sbPosNum := pred32 s.sbCount }
            (s.sb.length - 1) :=
          ⟨by show s.sb.length - 1 ≤ s.sb.length; omega, by
            show some _ = (s.sb[s.sb.length - 1]?).map Line.sbId
            rw [hl]; rfl⟩
        have hok : SbOk { s with sbPos := some l.sbId, sbPosNum := pred32 s.sbCount } := by
          have := AtPos.ok hs (k := s.sb.length - 1) (n := pred32 s.sbCount)
          rw [hl] at this
          exact this
        obtain ⟨m, e⟩ := ih _ _ hok hat
        refine ⟨m, ?_⟩
        rw [e]
        simp only
        rw [show s.sb.length - 1 - n = k - (n + 1) by omega]

theorem sbDownLoop_spec (n : Nat) : ∀ (s : Screen) (k : Nat), SbOk s → AtPos s k →
    ∃ m, sbDownLoop n s = .ok { s with sbPos := (s.sb[k + n]?).map Line.sbId, sbPosNum := m } := by
  induction n with
  | zero =>
    intro s k _ ha
    exact ⟨s.sbPosNum, by unfold sbDownLoop; rw [Nat.add_zero, ← ha.2]⟩
  | succ n ih =>
    intro s k hs ha
    have hnd := ids_nodup hs.ids
    rcases Nat.lt_or_ge k s.sb.length with hlt | hge
    · have hk : s.sb[k]? = some s.sb[k] := List.getElem?_eq_getElem hlt
      have hpos : s.sbPos = some s.sb[k].sbId := by rw [ha.2, hk]; rfl
      unfold sbDownLoop
      rw [hpos]
      simp only
      rw [nextId_spec hnd hk]
      simp only
      have hat : AtPos { s with
          sbPos := (s.sb[k + 1]?).map Line.sbId, sbPosNum := u32 (s.sbPosNum + 1) } (k + 1) :=
        ⟨by show k + 1 ≤ s.sb.length; omega, rfl⟩
      obtain ⟨m, e⟩ := ih _ (k + 1) (AtPos.ok hs) hat
      refine ⟨m, ?_⟩
      rw [e]
      simp only
      rw [show k + 1 + n = k + (n + 1) by omega]
    · have hpos : s.sbPos = none := by rw [ha.2, List.getElem?_eq_none hge]; rfl
      unfold sbDownLoop
      rw [hpos]
      refine ⟨s.sbPosNum, ?_⟩
      simp only
      rw [List.getElem?_eq_none (show s.sb.length ≤ k + (n + 1) by omega), Option.map_none, ← hpos]

/-- Common form of the results of `sb_up` and `sb_down`. -/
theorem scrolledTo {s : Screen} {k m : Nat} :
    ∀ t : Screen, Inv t → t.view = s.view →
    Inv { t with sbPos := (t.sb[k]?).map Line.sbId, sbPosNum := m } ∧
    ({ t with sbPos := (t.sb[k]?).map Line.sbId, sbPosNum := m } : Screen).view =
      { s.view with sbPos := (s.view.sb[k]?).map Prod.fst, sbPosNum := m } ∧
    ({ t with sbPos := (t.sb[k]?).map Line.sbId, sbPosNum := m } : Screen).view.topIndex =
      min k s.sb.length := by
  intro t ht htv
  have hrow : (t.sb.map Line.row) = s.sb.map Line.row := congrArg View.sb htv
  have hlen : t.sb.length = s.sb.length := by
    have := congrArg List.length hrow; simpa using this
  have hsbok : SbOk { t with sbPos := (t.sb[k]?).map Line.sbId, sbPosNum := m } :=
    AtPos.ok ht.sb
  refine ⟨⟨{ ht.geo with }, hsbok, { ht.cur with }, ht.ageb⟩, ?_, ?_⟩
  · have e : (t.sb[k]?).map Line.sbId = (s.view.sb[k]?).map Prod.fst := by
      have : s.view.sb = t.sb.map Line.row := hrow.symm
      rw [this, ← List.getElem?_map, ← List.getElem?_map, ids_row]
    rw [e, ← htv]
    rfl
  · rcases Nat.lt_or_ge k t.sb.length with hlt | hge
    · rw [Nat.min_eq_left (by omega)]
      exact AtPos.topIndex hsbok ⟨by show k ≤ t.sb.length; omega, rfl⟩
    · rw [Nat.min_eq_right (by omega), ← hlen]
      refine AtPos.topIndex hsbok ⟨Nat.le_refl _, ?_⟩
      show (t.sb[k]?).map Line.sbId = (t.sb[t.sb.length]?).map Line.sbId
      rw [List.getElem?_eq_none hge, List.getElem?_eq_none (Nat.le_refl _)]

theorem sbUp_spec {s : Screen} (h : Inv s) (num : Nat) :
    ∃ s' q n, s.sbUp num = .ok s' ∧ Inv s' ∧ s'.view = { s.view with sbPos := q, sbPosNum := n } ∧
      s'.view.topIndex = s.view.topIndex - num ∧
      (0 < num → s'.age = s'.ageCnt ∧ s'.ageCnt = s.incAge.ageCnt ∧
        s'.ageReset = s.incAge.ageReset) := by
  obtain ⟨k, hk⟩ := h.sb.atPos
  have hti := hk.topIndex h.sb
  by_cases h0 : num = 0
  · exact ⟨s, s.sbPos, s.sbPosNum, by unfold sbUp; rw [if_pos h0], h, rfl, by omega, by omega⟩
  · obtain ⟨m, e⟩ := sbUpLoop_spec num s.incAge.touch k h.incAge.touch.sb
      ⟨by show k ≤ s.incAge.sb.length; rw [ia_sb]; exact hk.1, by
        show s.incAge.sbPos = (s.incAge.sb[k]?).map Line.sbId; rw [ia_sb, ia_sbPos]; exact hk.2⟩
    obtain ⟨a, b, c⟩ := scrolledTo (s := s) (k := k - num) (m := m) s.incAge.touch h.incAge.touch
      (by rw [touch_view, incAge_view])
    refine ⟨_, _, _, by unfold sbUp; rw [if_neg h0]; exact e, a, b, ?_, ?_⟩
    · rw [c, hti]; have := hk.1; omega
    · exact fun _ => ⟨rfl, rfl, rfl⟩

theorem sbDown_spec {s : Screen} (h : Inv s) (num : Nat) :
    ∃ s' q n, s.sbDown num = .ok s' ∧ Inv s' ∧ s'.view = { s.view with sbPos := q, sbPosNum := n } ∧
      s'.view.topIndex = min (s.view.topIndex + num) s.sb.length ∧
      (0 < num → s'.age = s'.ageCnt ∧ s'.ageCnt = s.incAge.ageCnt ∧
        s'.ageReset = s.incAge.ageReset) := by
  obtain ⟨k, hk⟩ := h.sb.atPos
  have hti := hk.topIndex h.sb
  by_cases h0 : num = 0
  · refine ⟨s, s.sbPos, s.sbPosNum, by unfold sbDown; rw [if_pos h0], h, rfl, ?_, by omega⟩
    have := hk.1; omega
  · obtain ⟨m, e⟩ := sbDownLoop_spec num s.incAge.touch k h.incAge.touch.sb
      ⟨by show k ≤ s.incAge.sb.length; rw [ia_sb]; exact hk.1, by
        show s.incAge.sbPos = (s.incAge.sb[k]?).map Line.sbId; rw [ia_sb, ia_sbPos]; exact hk.2⟩
    obtain ⟨a, b, c⟩ := scrolledTo (s := s) (k := k + num) (m := m) s.incAge.touch h.incAge.touch
      (by rw [touch_view, incAge_view])
    refine ⟨_, _, _, by unfold sbDown; rw [if_neg h0]; exact e, a, b, ?_, ?_⟩
    · rw [c, hti]
    · exact fun _ => ⟨rfl, rfl, rfl⟩

theorem sbReset_spec {s : Screen} (h : Inv s) :
    Inv s.sbReset ∧ s.sbReset.view =
      { s.view with sbPos := none, sbPosNum := if s.sbPos = none then s.sbPosNum else 0 } := by
  unfold sbReset
  by_cases hp : s.sbPos = none
  · rw [if_pos hp, if_pos hp]
    refine ⟨h, ?_⟩
    have : s.view.sbPos = none := hp
    show s.view = { s.view with sbPos := none, sbPosNum := s.sbPosNum }
    rw [← this]; rfl
  · rw [if_neg hp, if_neg hp]
    have h' := h.incAge.touch
    refine ⟨⟨{ h'.geo with }, { h'.sb with pos := by intro p hp; cases hp }, { h'.cur with }, h'.ageb⟩, ?_⟩
    rw [incAge_eq]; rfl

/-! ### Tab stops -/

theorem putTab_spec {s : Screen} (h : Inv s) (b : Bool) :
    ∃ s', s.putTab b = .ok s' ∧ Inv s' ∧
      s'.view = { s.view with
        tabs := fun i => if i = s.cursorX ∧ i < s.sizeX then some b else s.view.tabs i } ∧
      s'.lines = s.lines ∧ s'.age = s.age ∧ s'.ageCnt = s.ageCnt ∧ s'.ageReset = s.ageReset := by
  unfold putTab
  by_cases hc : s.cursorX ≥ s.sizeX
  · rw [if_pos hc]
    refine ⟨s, rfl, h, ?_, rfl, rfl, rfl, rfl⟩
    have : (fun i => if i = s.cursorX ∧ i < s.sizeX then some b else s.view.tabs i) = s.view.tabs := by
      funext i; rw [if_neg (by omega)]
    rw [this]
  · have := h.geo.tab
    rw [if_neg hc, if_pos (by omega)]
    refine ⟨_, rfl, ⟨{ h.geo with tab := by simpa using h.geo.tab }, { h.sb with }, { h.cur with }, h.ageb⟩,
      ?_, rfl, rfl, rfl, rfl⟩
    have : (fun i => if i < s.sizeX then (s.tabRuler.set s.cursorX b)[i]? else none) =
        (fun i => if i = s.cursorX ∧ i < s.sizeX then some b else s.view.tabs i) := by
      funext i
      show _ = if i = s.cursorX ∧ i < s.sizeX then some b
        else if i < s.sizeX then s.tabRuler[i]? else none
      by_cases hi : i < s.sizeX
      · rw [if_pos hi, if_pos hi, List.getElem?_set]
        by_cases hx : s.cursorX = i
        · rw [if_pos hx, if_pos (by omega), if_pos ⟨hx.symm, hi⟩]
        · rw [if_neg hx, if_neg (fun hh => hx hh.1.symm)]
      · rw [if_neg hi, if_neg (fun hh => hi hh.2), if_neg hi]
    rw [← this]
    rfl

theorem resetAllTabstops_spec {s : Screen} (h : Inv s) :
    ∃ s', s.resetAllTabstops = .ok s' ∧ Inv s' ∧
      s'.view = { s.view with tabs := fun i => if i < s.sizeX then some false else none } ∧
      s'.lines = s.lines ∧ s'.age = s.age ∧ s'.ageCnt = s.ageCnt ∧ s'.ageReset = s.ageReset := by
  have := h.geo.tab
  unfold resetAllTabstops
  rw [if_neg (by omega)]
  refine ⟨_, rfl, ⟨{ h.geo with tab := by simpa using h.geo.tab }, { h.sb with }, { h.cur with }, h.ageb⟩,
    ?_, rfl, rfl, rfl, rfl⟩
  have : (fun i => if i < s.sizeX then
      (s.tabRuler.mapIdx fun i b => if i < s.sizeX then false else b)[i]? else none) =
      (fun i => if i < s.sizeX then some false else none) := by
    funext i
    by_cases hi : i < s.sizeX
    · rw [if_pos hi, if_pos hi, List.getElem?_mapIdx,
        List.getElem?_eq_getElem (show i < s.tabRuler.length by omega)]
      simp [hi]
    · rw [if_neg hi, if_neg hi]
  rw [← this]
  rfl

/-! ### Flags -/

theorem Geo.flagged {s : Screen} (h : Geo s) {f : BitVec 32} {b : Bool} (hb : b = f.getLsbD 6)
    {a : Attr} {age : Nat} :
    Geo { s with flags := f, useAlt := b, defAttrMain := a, age := age } := { h with alias := hb }

theorem Cur.withLines {s : Screen} (h : Cur s) (ls : List Line) : Cur (s.withLines ls) :=
  ⟨by simpa using h.cx, by simpa using h.cy⟩

theorem Inv.marked {s : Screen} (h : Inv s) : Inv s.marked :=
  ⟨h.geo.marked, h.sb.marked, h.cur.withLines _, by simpa [Screen.marked] using h.ageb⟩

/-- The flag-dependent part of `tsm_screen_set_flags`/`reset_flags`. -/
theorem flagTail {t : Screen} (h : Inv t) (c1 c2 : Bool) :
    ∃ s', (do
      let s ← (if c1 = true then t.markCursor else .ok t : R Screen)
      return if c2 = true then s.touch else s : R Screen) = .ok s' ∧ Inv s' ∧ s'.view = t.view ∧
      s' = (if c2 = true then (if c1 = true then t.marked else t).touch
        else (if c1 = true then t.marked else t)) := by
  have e : (if c1 = true then t.markCursor else .ok t : R Screen) = .ok (if c1 = true then t.marked else t) := by
    cases c1
    · rfl
    · exact markCursor_ok h.geo
  rw [e]
  refine ⟨_, rfl, ?_, ?_, rfl⟩
  · cases c1 <;> cases c2
    · exact h
    · exact h.touch
    · exact h.marked
    · exact h.marked.touch
  · cases c1 <;> cases c2
    · rfl
    · rfl
    · exact marked_view t
    · exact marked_view t

/-- The screen right after the flag word and the displayed buffer changed. -/
def switched (s : Screen) (f : BitVec 32) (b : Bool) : Screen :=
  { s.incAge with
    flags := f, useAlt := b
    defAttrMain := if !s.useAlt && b then s.defAttr else s.defAttrMain
    age := if s.useAlt = b then s.age else s.incAge.ageCnt }

theorem Inv.switched {s : Screen} (h : Inv s) {f : BitVec 32} {b : Bool} (hb : b = f.getLsbD 6) :
    Inv (s.switched f b) := by
  have h' := h.incAge
  exact ⟨h'.geo.flagged hb, { h'.sb with }, { h'.cur with }, h'.ageb⟩

theorem switched_view (s : Screen) (f : BitVec 32) (b : Bool) :
    (s.switched f b).view = { s.view with
      flags := f, useAlt := b, defAttrMain := if !s.useAlt && b then s.defAttr else s.defAttrMain } := by
  unfold switched
  rw [incAge_eq]; rfl

theorem setFlags_spec {s : Screen} (h : Inv s) {f : BitVec 32} (hf : f ≠ 0#32) :
    ∃ s', s.setFlags f = .ok s' ∧ Inv s' ∧
      s'.view = (s.switched (s.flags ||| f) (s.useAlt || f.getLsbD 6)).view ∧
      s' = (let t := s.switched (s.flags ||| f) (s.useAlt || f.getLsbD 6)
        let u := if (!s.fHide && f.getLsbD 4) = true then t.marked else t
        if (!s.fInverse && f.getLsbD 3) = true then u.touch else u) := by
  have hal := h.geo.alias
  have hb : (s.useAlt || f.getLsbD 6) = (s.flags ||| f).getLsbD 6 := by
    rw [BitVec.getLsbD_or, hal]
  have key : (if !s.incAge.flags.getLsbD 6 && f.getLsbD 6 then
        { s.incAge with
          flags := s.incAge.flags ||| f, age := s.incAge.ageCnt, useAlt := true
          defAttrMain := s.incAge.defAttr }
      else { s.incAge with flags := s.incAge.flags ||| f } : Screen) =
      s.switched (s.flags ||| f) (s.useAlt || f.getLsbD 6) := by
    unfold switched
    rw [ia_flags, ia_defAttr]
    have hal' : s.flags.getLsbD 6 = s.useAlt := hal.symm
    rw [hal']
    have e1 : s.incAge.useAlt = s.useAlt := ia_useAlt s
    have e2 : s.incAge.age = s.age := ia_age s
    have e3 : s.incAge.defAttrMain = s.defAttrMain := ia_defAttrMain s
    cases hu : s.useAlt <;> cases f.getLsbD 6 <;> simp [hu] <;> rw [incAge_eq] <;> simp [hu]
  have hI := h.switched hb
  obtain ⟨s', e, a, b, c⟩ := flagTail hI (!s.fHide && f.getLsbD 4) (!s.fInverse && f.getLsbD 3)
  refine ⟨s', ?_, a, b, c⟩
  unfold setFlags
  rw [if_neg hf, ← e, ← key]
  simp only [ia_flags]

theorem resetFlags_spec {s : Screen} (h : Inv s) {f : BitVec 32} (hf : f ≠ 0#32) :
    ∃ s', s.resetFlags f = .ok s' ∧ Inv s' ∧
      s'.view = (s.switched (s.flags &&& ~~~f) (s.useAlt && !f.getLsbD 6)).view ∧
      s' = (let t := s.switched (s.flags &&& ~~~f) (s.useAlt && !f.getLsbD 6)
        let u := if (s.fHide && f.getLsbD 4) = true then t.marked else t
        if (s.fInverse && f.getLsbD 3) = true then u.touch else u) := by
  have hal := h.geo.alias
  have hb : (s.useAlt && !f.getLsbD 6) = (s.flags &&& ~~~f).getLsbD 6 := by
    rw [BitVec.getLsbD_and, BitVec.getLsbD_not, hal]; simp
  have key : (if s.incAge.flags.getLsbD 6 && f.getLsbD 6 then
        { s.incAge with flags := s.incAge.flags &&& ~~~f, age := s.incAge.ageCnt, useAlt := false }
      else { s.incAge with flags := s.incAge.flags &&& ~~~f } : Screen) =
      s.switched (s.flags &&& ~~~f) (s.useAlt && !f.getLsbD 6) := by
    unfold switched
    rw [ia_flags]
    have hal' : s.flags.getLsbD 6 = s.useAlt := hal.symm
    rw [hal']
    have e1 : s.incAge.useAlt = s.useAlt := ia_useAlt s
    have e2 : s.incAge.age = s.age := ia_age s
    have e3 : s.incAge.defAttrMain = s.defAttrMain := ia_defAttrMain s
    cases hu : s.useAlt <;> cases f.getLsbD 6 <;> simp [hu] <;> rw [incAge_eq] <;> simp [hu]
  have hI := h.switched hb
  obtain ⟨s', e, a, b, c⟩ := flagTail hI (s.fHide && f.getLsbD 4) (s.fInverse && f.getLsbD 3)
  refine ⟨s', ?_, a, b, c⟩
  unfold resetFlags
  rw [if_neg hf, ← e, ← key]
  simp only [ia_flags]

/-! ### Reset and default attributes -/

theorem initTabs_ok {tab : List Bool} {x : Nat} (h : x ≤ tab.length) :
    ∃ tab', initTabs tab x = .ok tab' ∧ tab'.length = tab.length ∧
      ∀ i, i < x → tab'[i]? = some (decide (i % 8 = 0)) := by
  unfold initTabs
  rw [if_neg (by omega)]
  refine ⟨_, rfl, by simp, ?_⟩
  intro i hi
  rw [List.getElem?_mapIdx, List.getElem?_eq_getElem (show i < tab.length by omega)]
  simp [hi]

theorem reset_spec {s : Screen} (h : Inv s) :
    ∃ s', s.reset = .ok s' ∧ Inv s' ∧
      s'.view = { s.view with
        flags := 0#32, marginTop := 0, marginBottom := s.sizeY - 1, useAlt := false
        tabs := fun i => if i < s.sizeX then some (decide (i % 8 = 0)) else none } ∧
      s'.age = s'.ageCnt ∧ s'.ageCnt = s.incAge.ageCnt ∧ s'.ageReset = s.incAge.ageReset := by
  have h' := h.incAge.touch
  have htv : s.incAge.touch.view = s.view := by rw [touch_view, incAge_view]
  have ht1 : s.incAge.touch.ageCnt = s.incAge.ageCnt := rfl
  have ht2 : s.incAge.touch.age = s.incAge.ageCnt := rfl
  have ht3 : s.incAge.touch.ageReset = s.incAge.ageReset := rfl
  have hpy := h.geo.predY
  have htX : s.incAge.touch.sizeX = s.sizeX := congrArg View.sizeX htv
  have htY : s.incAge.touch.sizeY = s.sizeY := congrArg View.sizeY htv
  unfold reset
  generalize s.incAge.touch = t at *
  obtain ⟨tab', e, h1, h2⟩ := initTabs_ok h'.geo.tab
  dsimp only
  rw [e]
  have hy0 := h.geo.y0
  refine ⟨_, rfl, ⟨{ h'.geo with
      tab := by show t.sizeX ≤ tab'.length; have := h'.geo.tab; omega
      mtb := Nat.zero_le _
      mby := by show pred32 t.sizeY < t.sizeY; rw [htY, hpy]; omega
      alias := by simp }, { h'.sb with }, { h'.cur with }, h'.ageb⟩, ?_, ?_, ht1, ht3⟩
  · have et : (fun i => if i < t.sizeX then tab'[i]? else none) =
        fun i => if i < s.sizeX then some (decide (i % 8 = 0)) else none := by
      funext i
      rw [htX]
      by_cases hi : i < s.sizeX
      · rw [if_pos hi, if_pos hi, h2 i (by omega)]
      · rw [if_neg hi, if_neg hi]
    rw [← et, ← htv]
    have : pred32 t.sizeY = s.sizeY - 1 := by rw [htY, hpy]
    rw [← this]
    rfl
  · show t.age = t.ageCnt
    rw [ht1, ht2]

theorem setDefAttr_inv {s : Screen} (h : Inv s) (a : Attr) : Inv (s.setDefAttr a) :=
  ⟨{ h.geo with }, { h.sb with }, { h.cur with }, h.ageb⟩

end Screen
end Verif
