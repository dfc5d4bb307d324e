import Verif.Proofs.Screen.Scrollback

/-!
# Scrolling
-/

namespace Verif
namespace Screen

/-- Lines with the consecutive ids they get when they enter the scrollback. -/
def stamp (base : Nat) (ls : List Line) : List Line :=
  ls.mapIdx (fun k l => { l with sbId := base + k + 1 })

theorem stamp_append (base : Nat) (a b : List Line) :
    stamp base (a ++ b) = stamp base a ++ stamp (base + a.length) b := by
  unfold stamp
  rw [List.mapIdx_append]
  congr 1
  apply List.ext_getElem?
  intro i
  simp only [List.getElem?_mapIdx]
  cases b[i]? with
  | none => rfl
  | some l => simp; omega

theorem stamp_length (base : Nat) (a : List Line) : (stamp base a).length = a.length := by
  simp [stamp]

theorem stamp_ids {base : Nat} {ls : List Line} {l : Line} (h : l ∈ stamp base ls) :
    base < l.sbId := by
  unfold stamp at h
  obtain ⟨i, hi, rfl⟩ := List.mem_mapIdx.mp h
  simp; omega

/-- `kept` was appended to the scrollback, the oldest lines were dropped to
respect the limit, and the view position was adjusted. -/
structure PushedSb (s s' : Screen) (kept : List Line) : Prop where
  ok : SbOk s'
  max : s'.sbMax = s.sbMax
  flags : s'.flags = s.flags
  act : s'.selActive = s.selActive
  sb : s'.sb = lastN s.sbMax (s.sb ++ stamp s.sbLastId kept)
  last : s'.sbLastId = if s.sbMax = 0 then s.sbLastId else s.sbLastId + kept.length
  posN : s.sbPos = none → s'.sbPos = none
  posNF : ∀ (k p : Nat), s.sbPos = some p → (s.sb[k]?).map Line.sbId = some p → s.fFixed = false →
    s'.sbPos = (s'.sb[k]?).map Line.sbId
  posFX : ∀ p, s.sbPos = some p → s.fFixed = true →
    s'.sbPos = if p ∈ ids s'.sb then some p else s'.sb.head?.map Line.sbId

/-- `PushedSb`, and selection endpoints in dropped lines became "top". -/
structure Pushed (s s' : Screen) (kept : List Line) : Prop where
  p : PushedSb s s' kept
  selS : s'.selStart = if s.selActive then dropStale s'.sb s.selStart else s.selStart
  selE : s'.selEnd = if s.selActive then dropStale s'.sb s.selEnd else s.selEnd

theorem PushedSb.refl {s : Screen} (h : SbOk s) : PushedSb s s [] where
  ok := h
  max := rfl
  flags := rfl
  act := rfl
  sb := by simp only [stamp, List.mapIdx_nil, List.append_nil]; rw [lastN_of_le h.max]
  last := by simp
  posN := id
  posNF := by intro k p hp hk _; rw [hp, hk]
  posFX := by intro p hp _; rw [if_pos (h.pos' hp), hp]

theorem Pushed.refl {s : Screen} (h : SbOk s) : Pushed s s [] where
  p := .refl h
  selS := by split
             · rename_i ha; rw [dropStale_self (h.selS ha)]
             · rfl
  selE := by split
             · rename_i ha; rw [dropStale_self (h.selE ha)]
             · rfl

theorem PushedSb.of_eq {s s1 s' : Screen} {kept : List Line} (h : PushedSb s s' kept)
    (e : s1.sb = s.sb ∧ s1.sbMax = s.sbMax ∧ s1.flags = s.flags ∧ s1.selActive = s.selActive ∧
      s1.sbLastId = s.sbLastId ∧ s1.sbPos = s.sbPos) : PushedSb s1 s' kept := by
  obtain ⟨e1, e2, e3, e4, e5, e8⟩ := e
  obtain ⟨h1, h2, h3, h4, h5, h6, h9, h10, h11⟩ := h
  constructor
  · exact h1
  · rw [e2]; exact h2
  · rw [e3]; exact h3
  · rw [e4]; exact h4
  · rw [e1, e2, e5]; exact h5
  · rw [e2, e5]; exact h6
  · rw [e8]; exact h9
  · rw [e8, e1, fFixed, e3]; exact h10
  · rw [e8, fFixed, e3]; exact h11

theorem PushedSb.of_eq' {s s1 s' : Screen} {kept : List Line} (h : PushedSb s s1 kept) (ok : SbOk s')
    (e : s'.sb = s1.sb ∧ s'.sbMax = s1.sbMax ∧ s'.flags = s1.flags ∧ s'.selActive = s1.selActive ∧
      s'.sbLastId = s1.sbLastId ∧ s'.sbPos = s1.sbPos) : PushedSb s s' kept := by
  obtain ⟨e1, e2, e3, e4, e5, e8⟩ := e
  obtain ⟨h1, h2, h3, h4, h5, h6, h9, h10, h11⟩ := h
  constructor
  · exact ok
  · rw [e2]; exact h2
  · rw [e3]; exact h3
  · rw [e4]; exact h4
  · rw [e1]; exact h5
  · rw [e5]; exact h6
  · rw [e8]; exact h9
  · rw [e8, e1]; exact h10
  · rw [e8, e1]; exact h11

theorem Pushed.of_eq {s s1 s' : Screen} {kept : List Line} (h : Pushed s s' kept)
    (e : s1.sb = s.sb ∧ s1.sbMax = s.sbMax ∧ s1.flags = s.flags ∧ s1.selActive = s.selActive ∧
      s1.sbLastId = s.sbLastId ∧ s1.sbPos = s.sbPos)
    (e' : s1.selStart = s.selStart ∧ s1.selEnd = s.selEnd) : Pushed s1 s' kept := by
  refine ⟨h.p.of_eq e, ?_, ?_⟩
  · rw [e.2.2.2.1, e'.1]; exact h.selS
  · rw [e.2.2.2.1, e'.2]; exact h.selE

theorem SbOk.ids_le {s : Screen} (h : SbOk s) {p : Nat} (hp : p ∈ Screen.ids s.sb) :
    p ≤ s.sbLastId := by
  obtain ⟨l, hl, rfl⟩ := mem_ids.mp hp; exact h.last l hl

/-- An old id that is still present after a second step was present after the
first one. -/
theorem PushedSb.old {s s1 s2 : Screen} {k1 k2 : List Line} (h : PushedSb s s1 k1)
    (h' : PushedSb s1 s2 k2) {q : Nat} (hq : q ≤ s.sbLastId) (hm : q ∈ ids s2.sb) :
    q ∈ ids s1.sb := by
  rw [h'.sb, h.max] at hm
  refine lastN_ids (lastId := s.sbLastId) hm hq ?_
  intro l hl
  have := stamp_ids hl
  rw [h.last] at this
  split at this <;> omega

theorem PushedSb.trans {s s1 s2 : Screen} {k1 k2 : List Line} (h0 : SbOk s) (h : PushedSb s s1 k1)
    (h' : PushedSb s1 s2 k2) : PushedSb s s2 (k1 ++ k2) := by
  have hsb : s2.sb = lastN s.sbMax (s.sb ++ stamp s.sbLastId (k1 ++ k2)) := by
    rw [h'.sb, h.max, h.sb, lastN_lastN_append, stamp_append, List.append_assoc, h.last]
    by_cases hz : s.sbMax = 0
    · rw [hz, lastN_zero, lastN_zero]
    · rw [if_neg hz]
  have hold : ∀ q, q ≤ s.sbLastId → q ∈ ids s2.sb → q ∈ ids s1.sb := fun q => h.old h'
  have hle : ∀ p : Nat, p ∈ ids s.sb → p ≤ s.sbLastId := fun p => h0.ids_le
  refine ⟨h'.ok, by rw [h'.max, h.max], by rw [h'.flags, h.flags], by rw [h'.act, h.act], hsb, ?_,
    ?_, ?_, ?_⟩
  · rw [h'.last, h.max, h.last]
    simp only [List.length_append]
    split <;> omega
  · intro hp; exact h'.posN (h.posN hp)
  · intro k p hp hk hf
    have e1 := h.posNF k p hp hk hf
    have hf1 : s1.fFixed = false := by unfold fFixed; rw [h.flags]; exact hf
    cases e : s1.sbPos with
    | none =>
      -- impossible: the index stays valid
      exfalso
      rw [e] at e1
      have hlt : k < s.sb.length := by
        rcases Nat.lt_or_ge k s.sb.length with h | h
        · exact h
        · rw [List.getElem?_eq_none h] at hk; cases hk
      have hlen : s.sb.length ≤ s1.sb.length := by
        rw [h.sb, lastN_length]; simp only [List.length_append]; have := h0.max; omega
      rw [List.getElem?_eq_getElem (show k < s1.sb.length by omega)] at e1
      cases e1
    | some p1 =>
      rw [e] at e1
      exact h'.posNF k p1 e e1.symm hf1
  · intro p hp hf
    have e1 := h.posFX p hp hf
    have hf1 : s1.fFixed = true := by unfold fFixed; rw [h.flags]; exact hf
    have hple : p ≤ s.sbLastId := hle p (h0.pos' hp)
    by_cases hm1 : p ∈ ids s1.sb
    · rw [if_pos hm1] at e1
      exact h'.posFX p e1 hf1
    · rw [if_neg hm1] at e1
      have hm2 : p ∉ ids s2.sb := fun hh => hm1 (hold p hple hh)
      rw [if_neg hm2]
      cases hs1 : s1.sb with
      | nil =>
        have hlen : s.sb.length ≤ s1.sb.length := by
          rw [h.sb, lastN_length]; simp only [List.length_append]; have := h0.max; omega
        rw [hs1] at hlen
        have : s.sb = [] := List.eq_nil_of_length_eq_zero (by simpa using hlen)
        have := h0.pos' hp
        simp_all
      | cons a t =>
        rw [hs1] at e1
        simp only [List.head?_cons, Option.map_some] at e1
        rw [h'.posFX _ e1 hf1]
        split
        · rename_i hm
          -- `a` is the smallest id of `s1`, so it is the first one of `s2`
          cases hs2 : s2.sb with
          | nil => rw [hs2] at hm; cases hm
          | cons b t2 =>
            simp only [List.head?_cons, Option.map_some, Option.some.injEq]
            have hsort2 := h'.ok.ids
            rw [hs2] at hsort2 hm
            simp only [List.map_cons, List.pairwise_cons] at hsort2
            have hb : b ∈ lastN s1.sbMax (s1.sb ++ stamp s1.sbLastId k2) := by
              rw [← h'.sb, hs2]; simp
            have hab : a.sbId ≤ b.sbId := by
              rcases List.mem_append.mp (mem_of_mem_lastN hb) with hb | hb
              · rw [hs1] at hb
                have hsort1 := h.ok.ids
                rw [hs1] at hsort1
                simp only [List.map_cons, List.pairwise_cons] at hsort1
                rcases List.mem_cons.mp hb with hb | hb
                · rw [hb]; exact Nat.le_refl _
                · have := hsort1.1 _ (List.mem_map_of_mem hb); omega
              · have h1 := stamp_ids hb
                have h2 := h.ok.last a (by rw [hs1]; simp)
                omega
            simp only [ids, List.map_cons, List.mem_cons] at hm
            rcases hm with hm | hm
            · exact hm
            · have := hsort2.1 _ hm; omega
        · rfl

theorem Pushed.trans {s s1 s2 : Screen} {k1 k2 : List Line} (h0 : SbOk s) (h : Pushed s s1 k1)
    (h' : Pushed s1 s2 k2) : Pushed s s2 (k1 ++ k2) := by
  refine ⟨PushedSb.trans h0 h.p h'.p, ?_, ?_⟩
  · rw [h'.selS, h.p.act, h.selS]
    by_cases ha : s.selActive
    · rw [if_pos ha, if_pos ha, if_pos ha, dropStale_dropStale]
      intro q hq
      exact h.p.old h'.p (h0.ids_le (mem_ids.mpr (h0.selS ha q hq)))
    · rw [if_neg ha, if_neg ha, if_neg ha]
  · rw [h'.selE, h.p.act, h.selE]
    by_cases ha : s.selActive
    · rw [if_pos ha, if_pos ha, if_pos ha, dropStale_dropStale]
      intro q hq
      exact h.p.old h'.p (h0.ids_le (mem_ids.mpr (h0.selE ha q hq)))
    · rw [if_neg ha, if_neg ha, if_neg ha]

theorem link_pushed {s : Screen} (h : SbOk s) (l : Line) :
    ∃ s', s.linkToScrollback l = .ok s' ∧ SbFrame s s' ∧ Pushed s s' [l] := by
  obtain ⟨s', e, hok, hf, hsb, hl, h1, h2, h3, h4, h5⟩ := link_spec h l
  have hf' := hf
  unfold SbFrame at hf'
  refine ⟨s', e, hf, ⟨hok, by rw [hf'], by rw [hf'], by rw [hf'], ?_, ?_, h3, h4, h5⟩, h1, h2⟩
  · rw [hsb]; rfl
  · rw [hl]; rfl

/-- A line whose visible part is blank. -/
def BlankLine (s : Screen) (l : Line) : Prop :=
  s.sizeX ≤ l.cells.length ∧ ∀ j, j < s.sizeX → l.cells[j]? = some s.blank

theorem clearLine_ok {s : Screen} {l : Line} (h : s.sizeX ≤ l.cells.length) :
    ∃ cl, s.clearLine l = .ok cl ∧ BlankLine s cl ∧ cl.cells.length = l.cells.length ∧
      cl.age = l.age ∧ cl.sbId = l.sbId := by
  obtain ⟨cells, e, hl, hc⟩ := updCells_ok (cells := l.cells) (lo := 0) (hi := s.sizeX)
    (f := fun _ => s.blank) (Or.inr h)
  refine ⟨{ l with cells := cells }, ?_, ⟨by simp only; omega, ?_⟩, hl, rfl, rfl⟩
  · unfold clearLine; rw [e]; rfl
  · intro j hj
    simp only
    rw [hc, List.getElem?_eq_getElem (by omega)]
    simp [hj]

/-- Changes the loop of `screen_scroll_up` may make. -/
def LoopFrame (s s' : Screen) : Prop :=
  s' = { s with
    age := s'.age, allocN := s'.allocN, sb := s'.sb, sbCount := s'.sbCount, sbPos := s'.sbPos
    sbPosNum := s'.sbPosNum, sbLastId := s'.sbLastId, selStart := s'.selStart, selEnd := s'.selEnd }

theorem LoopFrame.trans {s s1 s2 : Screen} (h : LoopFrame s s1) (h' : LoopFrame s1 s2) :
    LoopFrame s s2 := by
  unfold LoopFrame at *
  rw [h] at h'
  exact h'

theorem LoopFrame.of_sbFrame {s s1 : Screen} (h : SbFrame s s1) : LoopFrame s s1 := by
  have h2 := h
  unfold SbFrame at h
  unfold LoopFrame
  have e1 : s1.age = s.ageCnt := by rw [h]
  have e2 : s1.allocN = s.allocN := by rw [h]
  rw [e1, e2]; exact h

section
variable {s s' : Screen} (h : LoopFrame s s')
include h
theorem LoopFrame.main : s'.main = s.main := by rw [LoopFrame] at h; rw [h]
theorem LoopFrame.alt : s'.alt = s.alt := by rw [LoopFrame] at h; rw [h]
theorem LoopFrame.lines : s'.lines = s.lines := by rw [LoopFrame] at h; rw [h]; rfl
theorem LoopFrame.sizeX : s'.sizeX = s.sizeX := by rw [LoopFrame] at h; rw [h]
theorem LoopFrame.sizeY : s'.sizeY = s.sizeY := by rw [LoopFrame] at h; rw [h]
theorem LoopFrame.flags : s'.flags = s.flags := by rw [LoopFrame] at h; rw [h]
theorem LoopFrame.marginTop : s'.marginTop = s.marginTop := by rw [LoopFrame] at h; rw [h]
theorem LoopFrame.ageCnt : s'.ageCnt = s.ageCnt := by rw [LoopFrame] at h; rw [h]
theorem LoopFrame.blank : s'.blank = s.blank := by rw [LoopFrame] at h; rw [h]; rfl
theorem LoopFrame.allocOk : s'.allocOk = s.allocOk := by rw [LoopFrame] at h; rw [h]
theorem LoopFrame.geo (hg : Geo s) : Geo s' := by
  rw [LoopFrame] at h; rw [h]; exact { hg with }
end

theorem lineNew_cases (s : Screen) (hw : 0 < s.sizeX) :
    s.lineNew s.sizeX =
      (if s.allocOk s.allocN then
        some { cells := List.replicate s.sizeX s.blank, age := s.ageCnt, sbId := 0 } else none,
       { s with allocN := s.allocN + 1 }) := by
  unfold lineNew alloc
  rw [if_neg (by omega)]
  simp only
  split <;> rfl

/-- The rows that `n` scroll steps starting at row `marginTop + i` remove. -/
def topRows (s : Screen) (i n : Nat) : List Line := (s.lines.drop (s.marginTop + i)).take n

theorem topRows_succ {s : Screen} {i n : Nat} {l : Line} (e : s.lines[s.marginTop + i]? = some l) :
    topRows s i (n + 1) = l :: topRows s (i + 1) n := by
  unfold topRows
  have hlt : s.marginTop + i < s.lines.length := by
    rcases Nat.lt_or_ge (s.marginTop + i) s.lines.length with h | h
    · exact h
    · rw [List.getElem?_eq_none h] at e; cases e
  rw [List.drop_eq_getElem_cons hlt, List.take_succ_cons]
  rw [List.getElem?_eq_getElem hlt] at e
  cases e
  rfl

theorem scrollUpLoop_spec (n : Nat) : ∀ (i : Nat) (s : Screen), Geo s → SbOk s →
    s.marginTop + i + n ≤ s.sizeY →
    ∃ s' cache kept, scrollUpLoop n i s = .ok (s', cache) ∧ LoopFrame s s' ∧
      (s.age = s.ageCnt → s'.age = s.ageCnt) ∧ Pushed s s' kept ∧
      cache.length = n ∧ (∀ l ∈ cache, BlankLine s l) ∧
      kept.Sublist (topRows s i n) ∧ (s.fAlt = true → kept = []) ∧
      (s.fAlt = false → (∀ k, s.allocOk k = true) → kept = topRows s i n) := by
  induction n with
  | zero =>
    intro i s hg hs _
    exact ⟨s, [], [], rfl, rfl, id, Pushed.refl hs, rfl, by simp, by simp [topRows], by simp,
      by simp [topRows]⟩
  | succ n ih =>
    intro i s hg hs hb
    obtain ⟨l, el, wl⟩ := hg.linesOk.row hg (show s.marginTop + i < s.sizeY by omega)
    have htop := topRows_succ (n := n) el
    have hx := hg.x0
    -- reuse of the old line
    have reuse : ∀ s1 : Screen, LoopFrame s s1 → s1.age = s.age → Pushed s s1 [] →
        (s.fAlt = false → (∀ k, s.allocOk k = true) → False) →
        ∃ s' cache kept,
          (do let cl ← s1.clearLine l
              let p ← scrollUpLoop n (i + 1) s1
              return (p.1, cl :: p.2) : R (Screen × List Line)) = .ok (s', cache) ∧
          LoopFrame s s' ∧ (s.age = s.ageCnt → s'.age = s.ageCnt) ∧ Pushed s s' kept ∧
          cache.length = n + 1 ∧ (∀ l ∈ cache, BlankLine s l) ∧
          kept.Sublist (topRows s i (n + 1)) ∧ (s.fAlt = true → kept = []) ∧
          (s.fAlt = false → (∀ k, s.allocOk k = true) → kept = topRows s i (n + 1)) := by
      intro s1 hf1 ha1 hp1 hno
      obtain ⟨cl, ecl, hcl, _⟩ := clearLine_ok (s := s1) (l := l) (by rw [hf1.sizeX]; exact wl)
      obtain ⟨s', cache, kept, e, hf, ha, hp, hlen, hbl, hsub, halt, _⟩ :=
        ih (i + 1) s1 (hf1.geo hg) hp1.p.ok (by rw [hf1.marginTop, hf1.sizeY]; omega)
      have htr : topRows s1 (i + 1) n = topRows s (i + 1) n := by
        unfold topRows; rw [hf1.lines, hf1.marginTop]
      refine ⟨s', cl :: cache, kept, ?_, hf1.trans hf, ?_, ?_, by simp [hlen], ?_, ?_, ?_, ?_⟩
      · rw [ecl]
        show (do let p ← scrollUpLoop n (i + 1) s1; return (p.1, cl :: p.2) :
          R (Screen × List Line)) = _
        rw [e]; rfl
      · intro h; rw [ha (by rw [ha1, hf1.ageCnt]; exact h), hf1.ageCnt]
      · have := Pushed.trans hs hp1 hp; simpa using this
      · intro l' hl'
        rcases List.mem_cons.mp hl' with h | h
        · subst h; unfold BlankLine at *; rw [hf1.sizeX, hf1.blank] at hcl; exact hcl
        · have := hbl l' h; unfold BlankLine at *; rw [hf1.sizeX, hf1.blank] at this; exact this
      · rw [htop]; rw [htr] at hsub; exact hsub.cons _
      · intro h; exact halt (by unfold fAlt; rw [hf1.flags]; exact h)
      · intro h1 h2; exact absurd (hno h1 h2) (fun x => x)
    unfold scrollUpLoop
    rw [el]
    rcases Bool.eq_false_or_eq_true s.fAlt with hA | hA
    · dsimp only
      rw [if_pos hA]
      dsimp only
      exact reuse s rfl rfl (Pushed.refl hs) (by intro h; rw [hA] at h; cases h)
    · dsimp only
      rw [if_neg (by rw [hA]; simp), lineNew_cases s hx]
      rcases Bool.eq_false_or_eq_true (s.allocOk s.allocN) with hok | hok
      rotate_left
      · rw [if_neg (by rw [hok]; simp)]
        dsimp only
        refine reuse { s with allocN := s.allocN + 1 } rfl rfl ?_ ?_
        · have h2 : SbOk { s with allocN := s.allocN + 1 } := { hs with }
          exact (Pushed.refl h2).of_eq ⟨rfl, rfl, rfl, rfl, rfl, rfl⟩ ⟨rfl, rfl⟩
        · intro _ h; rw [h] at hok; cases hok
      · rw [if_pos hok]
        dsimp only
        have h2 : SbOk { s with allocN := s.allocN + 1 } := { hs with }
        obtain ⟨s1, e1, hsf, hp1⟩ := link_pushed h2 l
        have hf1 : LoopFrame s s1 :=
          LoopFrame.trans (s1 := { s with allocN := s.allocN + 1 }) rfl (.of_sbFrame hsf)
        have hp1' : Pushed s s1 [l] := hp1.of_eq ⟨rfl, rfl, rfl, rfl, rfl, rfl⟩ ⟨rfl, rfl⟩
        have ha1 : s1.age = s.ageCnt := by unfold SbFrame at hsf; rw [hsf]
        obtain ⟨s', cache, kept, e, hf, ha, hp, hlen, hbl, hsub, halt, hall⟩ :=
          ih (i + 1) s1 (hf1.geo hg) hp1.p.ok (by rw [hf1.marginTop, hf1.sizeY]; omega)
        have htr : topRows s1 (i + 1) n = topRows s (i + 1) n := by
          unfold topRows; rw [hf1.lines, hf1.marginTop]
        rw [e1]
        refine ⟨s', { cells := List.replicate s.sizeX s.blank, age := s.ageCnt, sbId := 0 } :: cache,
          l :: kept, ?_, hf1.trans hf, ?_, ?_, by simp [hlen], ?_, ?_, ?_, ?_⟩
        · show (do let p ← scrollUpLoop n (i + 1) s1; return (p.1, _ :: p.2) :
            R (Screen × List Line)) = _
          rw [e]; rfl
        · intro _; rw [ha (by rw [ha1, hf1.ageCnt]), hf1.ageCnt]
        · have := Pushed.trans hs hp1' hp; simpa using this
        · intro l' hl'
          rcases List.mem_cons.mp hl' with h | h
          · subst h
            refine ⟨by simp, ?_⟩
            intro j hj; simp [hj]
          · have := hbl l' h; unfold BlankLine at *; rw [hf1.sizeX, hf1.blank] at this; exact this
        · rw [htop]; rw [htr] at hsub; exact hsub.cons_cons _
        · intro h; rw [hA] at h; cases h
        · intro h1 h3
          rw [htop, hall (by unfold fAlt; rw [hf1.flags]; exact h1) (by rw [hf1.allocOk]; exact h3), htr]

end Screen
end Verif
