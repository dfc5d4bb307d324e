import Verif.Proofs.Screen.Basic

/-!
# The scrollback list: linking and evicting lines
-/

namespace Verif
namespace Screen

/-- Identifiers of scrollback lines. -/
@[reducible] def ids (sb : List Line) : List Nat := sb.map Line.sbId

/-- The last `n` elements of a list. -/
def lastN {α : Type} (n : Nat) (l : List α) : List α := l.drop (l.length - n)

theorem lastN_length {α : Type} (n : Nat) (l : List α) : (lastN n l).length = min n l.length := by
  unfold lastN; simp; omega

theorem lastN_of_le {α : Type} {n : Nat} {l : List α} (h : l.length ≤ n) : lastN n l = l := by
  unfold lastN
  rw [show l.length - n = 0 by omega]; rfl

theorem lastN_zero {α : Type} (l : List α) : lastN 0 l = [] := by
  unfold lastN; simp

theorem lastN_lastN_append {α : Type} (n : Nat) (a b : List α) :
    lastN n (lastN n a ++ b) = lastN n (a ++ b) := by
  unfold lastN
  apply List.ext_getElem?
  intro i
  simp only [List.length_append, List.length_drop, List.getElem?_drop]
  by_cases h : a.length ≤ n
  · rw [show a.length - n = 0 by omega]; simp
  · by_cases h2 : a.length - (a.length - n) + b.length - n + i < a.length - (a.length - n)
    · rw [List.getElem?_append_left (by simp; omega), List.getElem?_append_left (by omega),
        List.getElem?_drop]
      congr 1; omega
    · rw [List.getElem?_append_right (by simp; omega), List.getElem?_append_right (by omega)]
      congr 1; simp; omega

theorem mem_of_mem_lastN {α : Type} {n : Nat} {l : List α} {a : α} (h : a ∈ lastN n l) : a ∈ l :=
  List.mem_of_mem_drop h

theorem mem_ids {sb : List Line} {p : Nat} : p ∈ ids sb ↔ ∃ l ∈ sb, l.sbId = p := by
  simp [ids]

theorem SbOk.pos' {s : Screen} (h : SbOk s) {p : Nat} (e : s.sbPos = some p) : p ∈ Screen.ids s.sb :=
  mem_ids.mpr (h.pos p e)

theorem ids_nodup {sb : List Line} (h : (ids sb).Pairwise (· < ·)) : (ids sb).Nodup := by
  apply h.imp; intro a b hab; omega

theorem nextId_spec {sb : List Line} (h : (ids sb).Nodup) {k : Nat} {l : Line}
    (e : sb[k]? = some l) : nextId sb l.sbId = some (sb[k + 1]?.map Line.sbId) := by
  induction sb generalizing k with
  | nil => simp at e
  | cons a t ih =>
    simp only [ids, List.map_cons, List.nodup_cons] at h
    cases k with
    | zero =>
      simp only [List.getElem?_cons_zero, Option.some.injEq] at e
      subst e
      unfold nextId
      cases t <;> simp
    | succ k =>
      simp only [List.getElem?_cons_succ] at e ⊢
      have hm : l.sbId ∈ t.map Line.sbId := List.mem_map_of_mem (getElem?_mem e)
      have : a.sbId ≠ l.sbId := by intro hh; rw [hh] at h; exact h.1 hm
      unfold nextId
      rw [if_neg this]
      exact ih h.2 e

theorem prevId_spec {sb : List Line} (h : (ids sb).Nodup) (q : Option Nat) {k : Nat} {l : Line}
    (e : sb[k]? = some l) :
    prevId q sb l.sbId = some (if k = 0 then q else sb[k - 1]?.map Line.sbId) := by
  induction sb generalizing k q with
  | nil => simp at e
  | cons a t ih =>
    simp only [ids, List.map_cons, List.nodup_cons] at h
    cases k with
    | zero =>
      simp only [List.getElem?_cons_zero, Option.some.injEq] at e
      subst e
      simp [prevId]
    | succ k =>
      simp only [List.getElem?_cons_succ] at e
      have hm : l.sbId ∈ t.map Line.sbId := List.mem_map_of_mem (getElem?_mem e)
      have : a.sbId ≠ l.sbId := by intro hh; rw [hh] at h; exact h.1 hm
      unfold prevId
      rw [if_neg this, ih h.2 _ e]
      cases k <;> simp

/-- Effect on a selection endpoint of lines leaving the scrollback: an endpoint
in a line that is gone becomes "top". -/
def dropStale (sb : List Line) (p : SelPos) : SelPos :=
  match p.line with
  | none => p
  | some id => if id ∈ ids sb then p else { p with line := none, y := -1 }

theorem dropStale_self {sb : List Line} {p : SelPos}
    (h : ∀ q, p.line = some q → ∃ l ∈ sb, l.sbId = q) : dropStale sb p = p := by
  unfold dropStale
  split
  · rfl
  · rename_i id e
    rw [if_pos (mem_ids.mpr (h id e))]

theorem dropStale_line {sb : List Line} {p : SelPos} {q : Nat}
    (h : (dropStale sb p).line = some q) : ∃ l ∈ sb, l.sbId = q := by
  unfold dropStale at h
  split at h
  · rename_i e; rw [e] at h; cases h
  · rename_i id e
    split at h
    · rename_i hm; rw [e] at h; cases h; exact mem_ids.mp hm
    · cases h

theorem dropStale_dropStale {sb1 sb2 : List Line} {p : SelPos}
    (h : ∀ q, p.line = some q → q ∈ ids sb2 → q ∈ ids sb1) :
    dropStale sb2 (dropStale sb1 p) = dropStale sb2 p := by
  unfold dropStale
  cases e : p.line with
  | none => simp [e]
  | some q =>
    simp only
    by_cases h1 : q ∈ ids sb1
    · rw [if_pos h1]; simp [e]
    · have h2 : q ∉ ids sb2 := fun hh => h1 (h q e hh)
      simp [h1, h2]

/-- Changes `link_to_scrollback` may make. -/
def SbFrame (s s' : Screen) : Prop :=
  s' = { s with
    age := s.ageCnt, sb := s'.sb, sbCount := s'.sbCount, sbPos := s'.sbPos
    sbPosNum := s'.sbPosNum, sbLastId := s'.sbLastId, selStart := s'.selStart, selEnd := s'.selEnd }

/-- Ids of scrollback lines only grow: what is in the new scrollback is either
old or newer than everything old. -/
theorem lastN_ids {n lastId : Nat} {sb new : List Line} {q : Nat}
    (h : q ∈ ids (lastN n (sb ++ new))) (hq : q ≤ lastId) (hn : ∀ l ∈ new, lastId < l.sbId) :
    q ∈ ids sb := by
  obtain ⟨l, hl, e⟩ := mem_ids.mp h
  rcases List.mem_append.mp (mem_of_mem_lastN hl) with h1 | h1
  · exact mem_ids.mpr ⟨l, h1, e⟩
  · have := hn l h1; omega

theorem link_spec {s : Screen} (h : SbOk s) (l : Line) :
    ∃ s', s.linkToScrollback l = .ok s' ∧ SbOk s' ∧ SbFrame s s' ∧
      s'.sb = lastN s.sbMax (s.sb ++ [{ l with sbId := s.sbLastId + 1 }]) ∧
      s'.sbLastId = (if s.sbMax = 0 then s.sbLastId else s.sbLastId + 1) ∧
      s'.selStart = (if s.selActive then dropStale s'.sb s.selStart else s.selStart) ∧
      s'.selEnd = (if s.selActive then dropStale s'.sb s.selEnd else s.selEnd) ∧
      (s.sbPos = none → s'.sbPos = none) ∧
      (∀ (k p : Nat), s.sbPos = some p → (s.sb[k]?).map Line.sbId = some p → s.fFixed = false →
        s'.sbPos = (s'.sb[k]?).map Line.sbId) ∧
      (∀ p, s.sbPos = some p → s.fFixed = true →
        s'.sbPos = if p ∈ ids s'.sb then some p else s'.sb.head?.map Line.sbId) := by
  obtain ⟨hcnt, hmax, hmaxb, hids, hlast, hpos, hsS, hsE⟩ := h
  unfold linkToScrollback
  dsimp only
  by_cases h0 : s.sbMax = 0
  · rw [if_pos (show s.touch.sbMax = 0 from h0)]
    have hsb : s.sb = [] := by
      have : s.sb.length = 0 := by omega
      exact List.eq_nil_of_length_eq_zero this
    refine ⟨_, rfl, ⟨hcnt, hmax, hmaxb, hids, hlast, hpos, hsS, hsE⟩, rfl, ?_, ?_, ?_, ?_, ?_, ?_, ?_⟩
    · rw [h0, lastN_zero]; exact hsb
    · rw [if_pos h0]; rfl
    · split
      · rename_i ha; exact (dropStale_self (hsS ha)).symm
      · rfl
    · split
      · rename_i ha; exact (dropStale_self (hsE ha)).symm
      · rfl
    · exact id
    · intro k p hp; obtain ⟨l', hl', _⟩ := hpos p hp; rw [hsb] at hl'; cases hl'
    · intro p hp; obtain ⟨l', hl', _⟩ := hpos p hp; rw [hsb] at hl'; cases hl'
  · rw [if_neg (show ¬ s.touch.sbMax = 0 from h0)]
    have hnew : ∀ l' ∈ ([{ l with sbId := s.sbLastId + 1 }] : List Line), s.sbLastId < l'.sbId := by
      intro l' hl'; simp only [List.mem_singleton] at hl'; subst hl'; simp
    by_cases hev : s.sbCount ≥ s.sbMax
    · -- eviction
      rw [if_pos (show s.touch.sbCount ≥ s.touch.sbMax from hev)]
      cases hsb : s.sb with
      | nil => rw [hsb] at hcnt; simp only [List.length_nil] at hcnt; omega
      | cons tmp rest =>
        have hlen : s.sb.length = rest.length + 1 := by rw [hsb]; rfl
        rw [hsb] at hids hlast hpos hsS hsE
        simp only [List.map_cons, List.pairwise_cons] at hids
        have hnd : (ids (tmp :: rest)).Nodup := by
          apply ids_nodup; simpa [ids] using hids
        -- new scrollback
        have hnewsb : lastN s.sbMax (tmp :: rest ++ [{ l with sbId := s.sbLastId + 1 }]) =
            rest ++ [{ l with sbId := s.sbLastId + 1 }] := by
          unfold lastN
          have : (tmp :: rest ++ [({ l with sbId := s.sbLastId + 1 } : Line)]).length - s.sbMax = 1 := by
            simp; omega
          rw [this]
          rfl
        have htmp : tmp.sbId ≤ s.sbLastId := hlast tmp (by simp)
        have htn : tmp.sbId ∉ ids (rest ++ [{ l with sbId := s.sbLastId + 1 }]) := by
          intro hh
          simp only [ids, List.map_append, List.mem_append] at hh
          rcases hh with hh | hh
          · have := hids.1 _ hh; omega
          · simp at hh; omega
        have hsub : ∀ q, q ∈ ids (tmp :: rest) → q ≠ tmp.sbId →
            q ∈ ids (rest ++ [{ l with sbId := s.sbLastId + 1 }]) := by
          intro q hq hne
          simp only [ids, List.map_cons, List.mem_cons] at hq
          rcases hq with hq | hq
          · exact absurd hq hne
          · simp only [ids, List.map_append, List.mem_append]; exact Or.inl hq
        have hdrop : ∀ p : SelPos, (∀ q, p.line = some q → ∃ l ∈ tmp :: rest, l.sbId = q) →
            dropSel p tmp.sbId = dropStale (rest ++ [{ l with sbId := s.sbLastId + 1 }]) p := by
          intro p hp
          unfold dropSel dropStale
          cases e : p.line with
          | none => simp
          | some q =>
            by_cases hq : q = tmp.sbId
            · subst hq; dsimp only; rw [if_pos rfl, if_neg htn]
            · simp only
              rw [if_neg (by simpa using hq), if_pos (hsub q (mem_ids.mpr (hp q e)) hq)]
        -- the new position
        obtain ⟨pos, num, epos, hposok, hpn, hpnf, hpfx⟩ : ∃ pos num,
            s.touch.evictPos tmp.sbId = .ok (pos, num) ∧
            (∀ p, pos = some p → p ∈ ids (rest ++ [{ l with sbId := s.sbLastId + 1 }])) ∧
            (s.sbPos = none → pos = none) ∧
            (∀ (k p : Nat), s.sbPos = some p → ((tmp :: rest)[k]?).map Line.sbId = some p →
              s.flags.getLsbD 5 = false →
              pos = ((rest ++ [{ l with sbId := s.sbLastId + 1 }])[k]?).map Line.sbId) ∧
            (∀ p, s.sbPos = some p → s.flags.getLsbD 5 = true →
              pos = if p ∈ ids (rest ++ [{ l with sbId := s.sbLastId + 1 }]) then some p
                else (rest ++ [{ l with sbId := s.sbLastId + 1 }]).head?.map Line.sbId) := by
          unfold evictPos
          rw [show s.touch.sb = tmp :: rest from hsb]
          cases hp : s.sbPos with
          | none =>
            rw [show s.touch.sbPos = none from hp]
            exact ⟨none, _, rfl, by simp, by simp, by simp, by simp⟩
          | some p =>
            obtain ⟨lp, hlp, rfl⟩ := hpos p hp
            obtain ⟨k, hk, ek⟩ := List.mem_iff_getElem.mp hlp
            have ek' : (tmp :: rest)[k]? = some lp := by rw [List.getElem?_eq_getElem hk, ek]
            have hnext := nextId_spec hnd ek'
            rw [show s.touch.sbPos = some lp.sbId from hp]
            dsimp only
            -- uniqueness of the index
            have huniq : ∀ k', ((tmp :: rest)[k']?).map Line.sbId = some lp.sbId → k' = k := by
              intro k' hk'
              have h1 : (ids (tmp :: rest))[k']? = some lp.sbId := by
                unfold ids; rw [List.getElem?_map]; exact hk'
              have h2 : (ids (tmp :: rest))[k]? = some lp.sbId := by
                unfold ids; rw [List.getElem?_map, ek']; rfl
              have hk'lt : k' < (ids (tmp :: rest)).length := by
                rcases Nat.lt_or_ge k' (ids (tmp :: rest)).length with h | h
                · exact h
                · rw [List.getElem?_eq_none h] at h1; cases h1
              exact (List.getElem?_inj hk'lt hnd).mp (h1.trans h2.symm)
            by_cases hc : lp.sbId = tmp.sbId ∨ s.flags.getLsbD 5 = false
            · rw [if_pos (show lp.sbId = tmp.sbId ∨ s.touch.fFixed = false from hc), hnext]
              have hklt : k < rest.length + 1 := by simpa using hk
              have hsucc : (rest ++ [{ l with sbId := s.sbLastId + 1 }])[k]?.map Line.sbId =
                  some (match (tmp :: rest)[k + 1]?.map Line.sbId with
                    | some q => q | none => s.sbLastId + 1) := by
                simp only [List.getElem?_cons_succ]
                by_cases hlt : k < rest.length
                · rw [List.getElem?_append_left hlt, List.getElem?_eq_getElem hlt]; rfl
                · have : k = rest.length := by omega
                  subst this; simp
              have hmem : ∀ q, (rest ++ [{ l with sbId := s.sbLastId + 1 }])[k]?.map Line.sbId = some q →
                  q ∈ ids (rest ++ [{ l with sbId := s.sbLastId + 1 }]) := by
                intro q hq
                obtain ⟨lq, e1, e2⟩ := Option.map_eq_some_iff.mp hq
                exact mem_ids.mpr ⟨lq, getElem?_mem e1, e2⟩
              have hfx : lp.sbId = tmp.sbId → k = 0 := by
                intro e
                exact (huniq 0 (by simp [e])).symm
              have main : ∀ q : Nat, (rest ++ [{ l with sbId := s.sbLastId + 1 }])[k]?.map Line.sbId = some q →
                  (∀ p, some q = some p → p ∈ ids (rest ++ [{ l with sbId := s.sbLastId + 1 }])) ∧
                  (some lp.sbId = (none : Option Nat) → some q = none) ∧
                  (∀ (k' p' : Nat), some lp.sbId = some p' → ((tmp :: rest)[k']?).map Line.sbId = some p' →
                    s.flags.getLsbD 5 = false →
                    some q = ((rest ++ [{ l with sbId := s.sbLastId + 1 }])[k']?).map Line.sbId) ∧
                  (∀ p', some lp.sbId = some p' → s.flags.getLsbD 5 = true →
                    some q = if p' ∈ ids (rest ++ [{ l with sbId := s.sbLastId + 1 }]) then some p'
                      else (rest ++ [{ l with sbId := s.sbLastId + 1 }]).head?.map Line.sbId) := by
                intro q hq
                refine ⟨?_, by simp, ?_, ?_⟩
                · intro p' hp'; cases hp'; exact hmem _ hq
                · intro k' p' hp' hk' _
                  cases hp'
                  rw [huniq k' hk']; exact hq.symm
                · intro p' hp' hf
                  cases hp'
                  rcases hc with hc | hc
                  · rw [hc, if_neg htn]
                    rw [hfx hc] at hq
                    rw [← hq]
                    cases rest <;> simp
                  · rw [hc] at hf; cases hf
              cases hn : (tmp :: rest)[k + 1]?.map Line.sbId with
              | none => rw [hn] at hsucc; exact ⟨_, _, rfl, main _ hsucc⟩
              | some q => rw [hn] at hsucc; exact ⟨_, _, rfl, main _ hsucc⟩
            · rw [if_neg (show ¬ (lp.sbId = tmp.sbId ∨ s.touch.fFixed = false) from hc)]
              have hc1 : lp.sbId ≠ tmp.sbId := fun e => hc (Or.inl e)
              have hc2 : s.flags.getLsbD 5 = true := by
                cases hh : s.flags.getLsbD 5
                · exact absurd (Or.inr hh) hc
                · rfl
              have hin := hsub lp.sbId (mem_ids.mpr ⟨lp, hlp, rfl⟩) hc1
              refine ⟨_, _, rfl, ?_, by simp, ?_, ?_⟩
              · intro p' hp'; cases hp'; exact hin
              · intro k' p' _ _ hf; rw [hc2] at hf; cases hf
              · intro p' hp' _; cases hp'; rw [if_pos hin]
        have eev : s.touch.sbEvict = .ok
            { s with age := s.ageCnt, sb := rest, sbCount := pred32 s.sbCount, sbPos := pos, sbPosNum := num
                     selStart := if s.selActive then dropSel s.selStart tmp.sbId else s.selStart
                     selEnd := if s.selActive then dropSel s.selEnd tmp.sbId else s.selEnd } := by
          unfold sbEvict
          rw [show s.touch.sb = tmp :: rest from hsb]
          dsimp only
          rw [epos]
          rfl
        rw [eev]
        refine ⟨_, rfl, ?_, rfl, ?_, ?_, ?_, ?_, ?_, ?_, ?_⟩
        · refine ⟨?_, ?_, hmaxb, ?_, ?_, ?_, ?_, ?_⟩
          · simp only [sbAppend, List.length_append, List.length_singleton, u32, pred32]; omega
          · simp only [sbAppend, List.length_append, List.length_singleton]; omega
          · simp only [sbAppend, List.map_append, List.map_cons, List.map_nil]
            rw [List.pairwise_append]
            refine ⟨hids.2, by simp, ?_⟩
            intro a ha b hb
            simp only [List.mem_singleton] at hb
            obtain ⟨la, hla, rfl⟩ := List.mem_map.mp ha
            have := hlast la (by simp [hla])
            omega
          · intro l' hl'
            simp only [sbAppend, List.mem_append, List.mem_singleton] at hl' ⊢
            rcases hl' with hl' | hl'
            · have := hlast l' (by simp [hl']); omega
            · rw [hl']; simp
          · intro p hp; exact mem_ids.mp (hposok p hp)
          · intro ha p hp
            simp only [sbAppend] at ha hp ⊢
            rw [if_pos ha, hdrop _ (hsS ha)] at hp
            exact dropStale_line hp
          · intro ha p hp
            simp only [sbAppend] at ha hp ⊢
            rw [if_pos ha, hdrop _ (hsE ha)] at hp
            exact dropStale_line hp
        · simp only [sbAppend]; rw [hnewsb]
        · simp [sbAppend, h0]
        · simp only [sbAppend]
          split
          · rename_i ha; exact hdrop _ (hsS ha)
          · rfl
        · simp only [sbAppend]
          split
          · rename_i ha; exact hdrop _ (hsE ha)
          · rfl
        · exact hpn
        · exact hpnf
        · exact hpfx
    · -- no eviction
      rw [if_neg (show ¬ s.touch.sbCount ≥ s.touch.sbMax from hev)]
      have hnewsb : lastN s.sbMax (s.sb ++ [{ l with sbId := s.sbLastId + 1 }]) =
          s.sb ++ [{ l with sbId := s.sbLastId + 1 }] := lastN_of_le (by simp; omega)
      have hmono : ∀ q, (∃ l ∈ s.sb, l.sbId = q) →
          ∃ l' ∈ s.sb ++ [{ l with sbId := s.sbLastId + 1 }], l'.sbId = q := by
        intro q ⟨l', h1, h2⟩; exact ⟨l', List.mem_append_left _ h1, h2⟩
      refine ⟨_, rfl, ?_, rfl, ?_, ?_, ?_, ?_, ?_, ?_, ?_⟩
      · refine ⟨?_, ?_, hmaxb, ?_, ?_, ?_, ?_, ?_⟩
        · simp only [sbAppend, Screen.touch, List.length_append, List.length_singleton, u32]; omega
        · simp only [sbAppend, Screen.touch, List.length_append, List.length_singleton]; omega
        · simp only [sbAppend, Screen.touch, List.map_append, List.map_cons, List.map_nil]
          rw [List.pairwise_append]
          refine ⟨hids, by simp, ?_⟩
          intro a ha b hb
          simp only [List.mem_singleton] at hb
          obtain ⟨la, hla, rfl⟩ := List.mem_map.mp ha
          have := hlast la hla
          omega
        · intro l' hl'
          simp only [sbAppend, Screen.touch, List.mem_append, List.mem_singleton] at hl' ⊢
          rcases hl' with hl' | hl'
          · have := hlast l' hl'; omega
          · rw [hl']; simp
        · intro p hp; exact hmono p (hpos p hp)
        · intro ha p hp; exact hmono p (hsS ha p hp)
        · intro ha p hp; exact hmono p (hsE ha p hp)
      · simp only [sbAppend, Screen.touch]; rw [hnewsb]
      · simp [sbAppend, Screen.touch, h0]
      · simp only [sbAppend, Screen.touch]
        split
        · rename_i ha; rw [dropStale_self]; intro q hq; exact hmono q (hsS ha q hq)
        · rfl
      · simp only [sbAppend, Screen.touch]
        split
        · rename_i ha; rw [dropStale_self]; intro q hq; exact hmono q (hsE ha q hq)
        · rfl
      · exact id
      · intro k p hp hk _
        simp only [sbAppend, Screen.touch]
        rw [hp]
        obtain ⟨lk, e1, e2⟩ := Option.map_eq_some_iff.mp hk
        have hlt : k < s.sb.length := by
          rcases Nat.lt_or_ge k s.sb.length with h | h
          · exact h
          · rw [List.getElem?_eq_none h] at e1; cases e1
        rw [List.getElem?_append_left hlt, hk]
      · intro p hp _
        have hm : p ∈ ids (s.touch.sbAppend l).sb := mem_ids.mpr (hmono p (hpos p hp))
        rw [if_pos hm]; exact hp

end Screen
end Verif
