import Verif.Proofs.Screen.Scroll

/-!
# `screen_scroll_up` as a whole
-/

namespace Verif
namespace Screen

theorem lastN_reverse {α : Type} (n : Nat) (l : List α) : (lastN n l).reverse = l.reverse.take n := by
  unfold lastN
  rw [List.reverse_drop]
  by_cases h : n ≤ l.length
  · rw [show l.length - (l.length - n) = n by omega]
  · rw [show l.length - (l.length - n) = l.length by omega,
      List.take_of_length_le (by simp), List.take_of_length_le (by simp; omega)]

/-! ### Selection endpoints -/

theorem scrollSel_id {sb : List Line} {n : Nat} {p : SelPos} (h : ¬ (p.line = none ∧ p.y ≥ 0)) :
    scrollSel sb n p = p := by
  unfold scrollSel; rw [if_neg h]

theorem scrollSel_line {sb : List Line} {n : Nat} {p : SelPos} {q : Nat}
    (hp : ∀ q, p.line = some q → ∃ l ∈ sb, l.sbId = q) (h : (scrollSel sb n p).line = some q) :
    ∃ l ∈ sb, l.sbId = q := by
  unfold scrollSel at h
  split at h
  · simp only at h
    split at h
    · simp only at h
      obtain ⟨l, e, rfl⟩ := Option.map_eq_some_iff.mp h
      exact ⟨l, List.mem_reverse.mp (getElem?_mem e), rfl⟩
    · rename_i h1 _; rw [h1.1] at h; cases h
  · exact hp q h

/-- Two scroll steps act on a selection endpoint like one. -/
theorem scrollSel_comp {sb1 new : List Line} {max n1 n2 : Nat} {p : SelPos}
    (hnd : (ids (sb1 ++ new)).Nodup) (hnew : new.length = n2)
    (hp : ∀ q, p.line = some q → q ∈ ids (lastN max (sb1 ++ new)) → q ∈ ids sb1) :
    scrollSel (lastN max (sb1 ++ new)) n2
        (dropStale (lastN max (sb1 ++ new)) (scrollSel sb1 n1 (dropStale sb1 p))) =
      scrollSel (lastN max (sb1 ++ new)) (n1 + n2) (dropStale (lastN max (sb1 ++ new)) p) := by
  generalize hsb2 : lastN max (sb1 ++ new) = sb2 at *
  cases hl : p.line with
  | some q =>
    have hid : ∀ sb n, scrollSel sb n (dropStale sb1 p) = dropStale sb1 p := by
      intro sb n; apply scrollSel_id
      unfold dropStale; rw [hl]; simp only
      split
      · rw [hl]; simp
      · simp
    have hid2 : ∀ sb n, scrollSel sb n (dropStale sb2 p) = dropStale sb2 p := by
      intro sb n; apply scrollSel_id
      unfold dropStale; rw [hl]; simp only
      split
      · rw [hl]; simp
      · simp
    rw [hid, dropStale_dropStale hp, hid2, hid2]
  | none =>
    have hd : ∀ sb, dropStale sb p = p := by intro sb; unfold dropStale; rw [hl]
    rw [hd, hd]
    by_cases hy : p.y ≥ 0
    · by_cases hy1 : p.y - (n1 : Int) < 0
      · -- leaves the screen in the first step
        have e1 : scrollSel sb1 n1 p =
            { p with line := (sb1.reverse[(-(p.y - (n1 : Int))).toNat - 1]?).map Line.sbId, y := -1 } := by
          unfold scrollSel; rw [if_pos ⟨hl, hy⟩]; simp only; rw [if_pos hy1]
        have e2 : scrollSel sb2 (n1 + n2) p =
            { p with line := (sb2.reverse[(-(p.y - ((n1 + n2 : Nat) : Int))).toNat - 1]?).map Line.sbId
                     y := -1 } := by
          unfold scrollSel; rw [if_pos ⟨hl, hy⟩]; simp only; rw [if_pos (by omega)]
        rw [e1, e2]
        generalize hk : (-(p.y - (n1 : Int))).toNat - 1 = k
        have hk2 : (-(p.y - ((n1 + n2 : Nat) : Int))).toNat - 1 = n2 + k := by omega
        rw [hk2]
        have hrev : sb2.reverse = (sb1 ++ new).reverse.take max := by rw [← hsb2, lastN_reverse]
        have hget : ∀ m, (sb1 ++ new).reverse[n2 + m]? = sb1.reverse[m]? := by
          intro m
          rw [List.reverse_append, List.getElem?_append_right (by simp [hnew])]
          congr 1; simp [hnew]
        cases hs : sb1.reverse[k]? with
        | none =>
          have : sb2.reverse[n2 + k]? = none := by
            rw [hrev, List.getElem?_take]
            split
            · rw [hget, hs]
            · rfl
          rw [this]
          simp only [Option.map_none]
          unfold dropStale
          simp only
          apply scrollSel_id; simp
        | some l =>
          simp only [Option.map_some]
          have hlast : ∀ sb n (x : SelPos), x.y = -1 → scrollSel sb n (dropStale sb2 x) = dropStale sb2 x := by
            intro sb n x hx; apply scrollSel_id
            unfold dropStale
            split
            · rw [hx]; simp
            · split
              · rw [hx]; simp
              · simp
          rw [hlast _ _ _ rfl]
          unfold dropStale
          simp only
          by_cases hlt : n2 + k < max
          · have e3 : sb2.reverse[n2 + k]? = some l := by
              rw [hrev, List.getElem?_take, if_pos hlt, hget, hs]
            have hm : l.sbId ∈ ids sb2 :=
              mem_ids.mpr ⟨l, List.mem_reverse.mp (getElem?_mem e3), rfl⟩
            rw [if_pos hm, e3]; rfl
          · have e3 : sb2.reverse[n2 + k]? = none := by
              rw [hrev, List.getElem?_take, if_neg hlt]
            have hm : l.sbId ∉ ids sb2 := by
              intro hm
              obtain ⟨l', h1, h2⟩ := mem_ids.mp hm
              have h1' : l' ∈ sb2.reverse := List.mem_reverse.mpr h1
              rw [hrev] at h1'
              obtain ⟨i, hi, ei⟩ := List.mem_iff_getElem.mp h1'
              have hi' : i < max ∧ i < (sb1 ++ new).reverse.length := by
                simp only [List.length_take] at hi; omega
              have ei' : (sb1 ++ new).reverse[i]? = some l' := by
                have e0 : ((sb1 ++ new).reverse.take max)[i]? = some l' := by
                  rw [List.getElem?_eq_getElem hi, ei]
                rw [List.getElem?_take_of_lt hi'.1] at e0; exact e0
              have ek : (sb1 ++ new).reverse[n2 + k]? = some l := by rw [hget, hs]
              have hndr : (((sb1 ++ new).reverse).map Line.sbId).Nodup := by
                rw [List.map_reverse]; exact (List.reverse_perm _).symm.nodup hnd
              have : i = n2 + k := by
                apply (List.getElem?_inj (l := ((sb1 ++ new).reverse).map Line.sbId)
                  (by simpa using hi'.2) hndr).mp
                rw [List.getElem?_map, List.getElem?_map, ei', ek]; simp [h2]
              omega
            rw [if_neg hm, e3]; rfl
      · have e1 : scrollSel sb1 n1 p = { p with y := p.y - (n1 : Int) } := by
          unfold scrollSel; rw [if_pos ⟨hl, hy⟩]; simp only; rw [if_neg hy1]
        rw [e1]
        have hd2 : dropStale sb2 { p with y := p.y - (n1 : Int) } = { p with y := p.y - (n1 : Int) } := by
          unfold dropStale; simp only [hl]
        rw [hd2]
        unfold scrollSel
        have e4 : p.y - (n1 : Int) - (n2 : Int) = p.y - ((n1 + n2 : Nat) : Int) := by omega
        have hy3 : 0 ≤ p.y - (n1 : Int) := by omega
        have hy4 : 0 ≤ p.y := hy
        simp only [hl, e4, ge_iff_le, hy3, hy4, and_self, if_true]
    · have hi : ∀ sb n, scrollSel sb n p = p := fun sb n => scrollSel_id (fun h => hy h.2)
      rw [hi, hd, hi, hi]

/-! ### Effect of scrolling up -/

/-- Changes `screen_scroll_up` may make. -/
def UpFrame (s s' : Screen) : Prop :=
  s' = { s with
    age := s'.age, allocN := s'.allocN, sb := s'.sb, sbCount := s'.sbCount, sbPos := s'.sbPos
    sbPosNum := s'.sbPosNum, sbLastId := s'.sbLastId, selStart := s'.selStart, selEnd := s'.selEnd
    main := s'.main, alt := s'.alt }

theorem UpFrame.trans {s s1 s2 : Screen} (h : UpFrame s s1) (h' : UpFrame s1 s2) : UpFrame s s2 := by
  unfold UpFrame at *
  rw [h] at h'
  exact h'

/-- Effect of scrolling up by `num ≤ marginBottom + 1 - marginTop` lines, of
which `kept` went to the scrollback. -/
structure ScrolledUp (s s' : Screen) (num : Nat) (kept : List Line) : Prop where
  frame : UpFrame s s'
  age : s'.age = s.ageCnt
  otherM : s.useAlt = true → s'.main = s.main
  otherA : s.useAlt = false → s'.alt = s.alt
  linesOk : LinesOk s s'.lines
  outside : ∀ i, (i < s.marginTop ∨ s.marginBottom < i) → s'.lines[i]? = s.lines[i]?
  shift : ∀ i, s.marginTop ≤ i → i + num ≤ s.marginBottom → s'.lines[i]? = s.lines[i + num]?
  blank : ∀ i, s.marginTop ≤ i → i ≤ s.marginBottom → s.marginBottom < i + num →
    ∃ l, s'.lines[i]? = some l ∧ BlankLine s l
  push : PushedSb s s' kept
  sub : kept.Sublist (topRows s 0 num)
  alt : s.fAlt = true → kept = []
  full : s.fAlt = false → (∀ k, s.allocOk k = true) → kept = topRows s 0 num
  selS : s.fAlt = false → (∀ k, s.allocOk k = true) → s'.selStart =
    if s.selActive then scrollSel s'.sb num (dropStale s'.sb s.selStart) else s.selStart
  selE : s.fAlt = false → (∀ k, s.allocOk k = true) → s'.selEnd =
    if s.selActive then scrollSel s'.sb num (dropStale s'.sb s.selEnd) else s.selEnd

section
variable {s s' : Screen} (h : UpFrame s s')
include h
theorem UpFrame.sizeX : s'.sizeX = s.sizeX := by rw [UpFrame] at h; rw [h]
theorem UpFrame.sizeY : s'.sizeY = s.sizeY := by rw [UpFrame] at h; rw [h]
theorem UpFrame.flags : s'.flags = s.flags := by rw [UpFrame] at h; rw [h]
theorem UpFrame.useAlt : s'.useAlt = s.useAlt := by rw [UpFrame] at h; rw [h]
theorem UpFrame.marginTop : s'.marginTop = s.marginTop := by rw [UpFrame] at h; rw [h]
theorem UpFrame.marginBottom : s'.marginBottom = s.marginBottom := by rw [UpFrame] at h; rw [h]
theorem UpFrame.ageCnt : s'.ageCnt = s.ageCnt := by rw [UpFrame] at h; rw [h]
theorem UpFrame.ageReset : s'.ageReset = s.ageReset := by rw [UpFrame] at h; rw [h]
theorem UpFrame.blank : s'.blank = s.blank := by rw [UpFrame] at h; rw [h]; rfl
theorem UpFrame.allocOk : s'.allocOk = s.allocOk := by rw [UpFrame] at h; rw [h]
theorem UpFrame.cursorX : s'.cursorX = s.cursorX := by rw [UpFrame] at h; rw [h]
theorem UpFrame.cursorY : s'.cursorY = s.cursorY := by rw [UpFrame] at h; rw [h]
theorem UpFrame.selActive : s'.selActive = s.selActive := by rw [UpFrame] at h; rw [h]
theorem UpFrame.defAttr : s'.defAttr = s.defAttr := by rw [UpFrame] at h; rw [h]
end

theorem ScrolledUp.geo {s s' : Screen} {num : Nat} {kept : List Line} (h : ScrolledUp s s' num kept)
    (hg : Geo s) : Geo s' := by
  have hf := h.frame
  have h1 := h.linesOk
  unfold Screen.lines at h1
  rw [hf.useAlt] at h1
  unfold UpFrame at hf
  cases hu : s.useAlt with
  | true =>
    rw [hu] at h1
    simp only [if_true] at h1
    have hm := h.otherM hu
    rw [hf, hm]
    exact { hg with len := h1.len, wa := h1.w }
  | false =>
    rw [hu] at h1
    simp only [Bool.false_eq_true, if_false] at h1
    have hm := h.otherA hu
    rw [hf, hm]
    exact { hg with
      len := hg.len.trans h1.len.symm, rows := by have := hg.rows; have := h1.len; simp only; omega
      wm := h1.w }

theorem scrollUpChunk_spec {s : Screen} (hg : Geo s) (hs : SbOk s) (ha : s.age = s.ageCnt) {num : Nat}
    (hn : num ≤ s.marginBottom + 1 - s.marginTop) :
    ∃ s' kept, scrollUpChunk s (s.marginBottom + 1 - s.marginTop) num = .ok s' ∧
      ScrolledUp s s' num kept := by
  have hm1 := hg.mtb
  have hm2 := hg.mby
  obtain ⟨s1, cache, kept, e, hf, hag, hp, hlen, hbl, hsub, halt, hfull⟩ :=
    scrollUpLoop_spec num 0 s hg hs (by omega)
  have hl1 : s1.lines = s.lines := hf.lines
  have hLlen : s.lines.length = s.main.length := hg.linesOk.len
  have hrows := hg.rows
  -- memmove
  obtain ⟨ls1, e1, hl2, hc1⟩ : ∃ ls1,
      (if num < s.marginBottom + 1 - s.marginTop then
        memmove .oobLine s1.lines s1.marginTop (s1.marginTop + num)
          (s.marginBottom + 1 - s.marginTop - num) else .ok s1.lines : R (List Line)) = .ok ls1 ∧
      ls1.length = s.lines.length ∧
      ∀ i, ls1[i]? = if s.marginTop ≤ i ∧ i + num ≤ s.marginBottom then s.lines[i + num]?
        else s.lines[i]? := by
    rw [hl1, hf.marginTop]
    by_cases hlt : num < s.marginBottom + 1 - s.marginTop
    · rw [if_pos hlt]
      obtain ⟨l', e', h1, h2⟩ := memmove_ok (k := .oobLine) (l := s.lines) (dst := s.marginTop)
        (src := s.marginTop + num) (n := s.marginBottom + 1 - s.marginTop - num)
        (by omega) (by omega)
      refine ⟨l', e', h1, ?_⟩
      intro i
      rw [h2]
      by_cases hc : s.marginTop ≤ i ∧ i + num ≤ s.marginBottom
      · rw [if_pos hc, if_pos (by omega)]; congr 1; omega
      · rw [if_neg hc, if_neg (by omega)]
    · rw [if_neg hlt]
      refine ⟨_, rfl, rfl, ?_⟩
      intro i; rw [if_neg (by omega)]
  obtain ⟨ls2, e2, hl3, hc2⟩ := memcpy_ok (k := .oobLine) (l := ls1) (ys := cache)
    (dst := s.marginTop + (s.marginBottom + 1 - s.marginTop - num)) (by omega)
  have hgeo1 : Geo s1 := hf.geo hg
  -- pointwise description of the new lines
  have hout : ∀ i, (i < s.marginTop ∨ s.marginBottom < i) → ls2[i]? = s.lines[i]? := by
    intro i hi; rw [hc2, if_neg (by omega), hc1, if_neg (by omega)]
  have hshift : ∀ i, s.marginTop ≤ i → i + num ≤ s.marginBottom → ls2[i]? = s.lines[i + num]? := by
    intro i h1 h2; rw [hc2, if_neg (by omega), hc1, if_pos (by omega)]
  have hblank : ∀ i, s.marginTop ≤ i → i ≤ s.marginBottom → s.marginBottom < i + num →
      ∃ l, ls2[i]? = some l ∧ BlankLine s l := by
    intro i h1 h2 h3
    have hlt : i - (s.marginTop + (s.marginBottom + 1 - s.marginTop - num)) < cache.length := by omega
    refine ⟨_, ?_, hbl _ (List.getElem_mem hlt)⟩
    rw [hc2, if_pos (by omega), List.getElem?_eq_getElem hlt]
  have hlok : LinesOk s ls2 := by
    refine ⟨by omega, ?_⟩
    apply mem_of_getElem?_fun
    intro i l hl
    by_cases ho : i < s.marginTop ∨ s.marginBottom < i
    · rw [hout i ho] at hl; exact hg.linesOk.w l (getElem?_mem hl)
    · by_cases hsft : i + num ≤ s.marginBottom
      · rw [hshift i (by omega) hsft] at hl; exact hg.linesOk.w l (getElem?_mem hl)
      · obtain ⟨l', e', hb'⟩ := hblank i (by omega) (by omega) (by omega)
        rw [e'] at hl; cases hl; exact hb'.1
  -- the result
  let s2 := s1.withLines ls2
  let s' : Screen := if s2.selActive then
      { s2 with selStart := scrollSel s2.sb num s2.selStart, selEnd := scrollSel s2.sb num s2.selEnd }
    else s2
  have hs2 : SbOk s2 := hp.p.ok.withLines ls2
  have hsb' : SbOk s' := by
    show SbOk (if s2.selActive then _ else s2)
    split
    · exact { hs2 with
        selS := fun hact q hq => scrollSel_line (hs2.selS hact) hq
        selE := fun hact q hq => scrollSel_line (hs2.selE hact) hq }
    · exact hs2
  have hframe2 : UpFrame s s2 := by
    have h1 : UpFrame s1 s2 := by
      unfold UpFrame
      have := withLines_eq s1 ls2
      have h3 : s2 = { s1 with main := s2.main, alt := s2.alt } := this
      rw [h3]
    have h2 : UpFrame s s1 := by
      unfold LoopFrame at hf; unfold UpFrame; rw [hf]
    exact h2.trans h1
  have hframe : UpFrame s s' := by
    refine hframe2.trans ?_
    show UpFrame s2 (if s2.selActive then _ else s2)
    split <;> rfl
  have hproj : s'.lines = ls2 ∧ s'.sb = s1.sb ∧ s'.sbMax = s1.sbMax ∧ s'.flags = s1.flags ∧
      s'.selActive = s1.selActive ∧ s'.sbLastId = s1.sbLastId ∧ s'.sbPos = s1.sbPos ∧
      s'.age = s1.age ∧ s'.main = s2.main ∧ s'.alt = s2.alt := by
    have hl2' : s2.lines = ls2 := wl_lines s1 ls2
    show (if s2.selActive then _ else s2).lines = _ ∧ _
    by_cases hact : s2.selActive
    · simp only [s', hact, if_true]
      refine ⟨hl2', ?_, ?_, ?_, ?_, ?_, ?_, ?_, ?_, ?_⟩ <;> simp [s2]
      exact wl_selActive s1 ls2 ▸ hact
    · simp only [s', hact]
      refine ⟨hl2', ?_, ?_, ?_, ?_, ?_, ?_, ?_, ?_, ?_⟩ <;> simp [s2]
  obtain ⟨q1, q2, q3, q4, q5, q6, q7, q8, q9, q10⟩ := hproj
  refine ⟨s', kept, ?_, ?_⟩
  · unfold scrollUpChunk
    rw [e]
    show (do
      let ls ← (if num < s.marginBottom + 1 - s.marginTop then
        memmove .oobLine s1.lines s1.marginTop (s1.marginTop + num)
          (s.marginBottom + 1 - s.marginTop - num) else .ok s1.lines : R (List Line))
      let ls ← memcpy .oobLine ls (s1.marginTop + (s.marginBottom + 1 - s.marginTop - num)) cache
      let s := s1.withLines ls
      return if s.selActive then
          { s with selStart := scrollSel s.sb num s.selStart, selEnd := scrollSel s.sb num s.selEnd }
        else s : R Screen) = _
    rw [e1]
    show (do
      let ls ← memcpy .oobLine ls1 (s1.marginTop + (s.marginBottom + 1 - s.marginTop - num)) cache
      let s := s1.withLines ls
      return if s.selActive then
          { s with selStart := scrollSel s.sb num s.selStart, selEnd := scrollSel s.sb num s.selEnd }
        else s : R Screen) = _
    rw [hf.marginTop, e2]
    rfl
  · have hact1 : s2.selActive = s.selActive := by
      rw [show s2.selActive = s1.selActive from wl_selActive s1 ls2, hp.p.act]
    refine ⟨hframe, ?_, ?_, ?_, ?_, ?_, ?_, ?_, ?_, hsub, halt, hfull, ?_, ?_⟩
    · rw [q8]; exact hag ha
    · intro hu
      rw [q9]
      show (s1.withLines ls2).main = s.main
      have : s1.useAlt = true := by unfold LoopFrame at hf; rw [hf]; exact hu
      unfold withLines; rw [this]; simp [hf.main]
    · intro hu
      rw [q10]
      show (s1.withLines ls2).alt = s.alt
      have : s1.useAlt = false := by unfold LoopFrame at hf; rw [hf]; exact hu
      unfold withLines; rw [this]; simp [hf.alt]
    · rw [q1]; exact hlok
    · rw [q1]; exact hout
    · rw [q1]; exact hshift
    · rw [q1]; exact hblank
    · exact hp.p.of_eq' hsb' ⟨q2, q3, q4, q5, q6, q7⟩
    · intro _ _
      rw [q2]
      show (if s2.selActive then _ else s2).selStart = _
      rw [hact1]
      split
      · rename_i hA
        show scrollSel s2.sb num s2.selStart = _
        rw [show s2.sb = s1.sb from wl_sb s1 ls2, show s2.selStart = s1.selStart from wl_selStart s1 ls2,
          hp.selS, if_pos hA]
      · rename_i hA
        rw [show s2.selStart = s1.selStart from wl_selStart s1 ls2, hp.selS, if_neg hA]
    · intro _ _
      rw [q2]
      show (if s2.selActive then _ else s2).selEnd = _
      rw [hact1]
      split
      · rename_i hA
        show scrollSel s2.sb num s2.selEnd = _
        rw [show s2.sb = s1.sb from wl_sb s1 ls2, show s2.selEnd = s1.selEnd from wl_selEnd s1 ls2,
          hp.selE, if_pos hA]
      · rename_i hA
        rw [show s2.selEnd = s1.selEnd from wl_selEnd s1 ls2, hp.selE, if_neg hA]

theorem stamp_pairwise (base : Nat) (ls : List Line) :
    ((stamp base ls).map Line.sbId).Pairwise (· < ·) := by
  unfold stamp
  rw [List.pairwise_iff_getElem]
  intro i j hi hj hij
  simp; omega

theorem SbOk.nodup_stamp {s : Screen} (h : SbOk s) (k : List Line) :
    (Screen.ids (s.sb ++ stamp s.sbLastId k)).Nodup := by
  unfold Screen.ids
  rw [List.map_append]
  apply List.Pairwise.imp (R := (· < ·)) (fun h => Nat.ne_of_lt h)
  rw [List.pairwise_append]
  refine ⟨h.ids, stamp_pairwise _ _, ?_⟩
  intro a ha b hb
  have h1 := h.ids_le ha
  obtain ⟨l, hl, rfl⟩ := List.mem_map.mp hb
  have := stamp_ids hl
  omega

theorem ScrolledUp.topRows {s s1 : Screen} {n1 n2 : Nat} {k1 : List Line}
    (h : ScrolledUp s s1 n1 k1) (hn : s.marginTop + n1 + n2 ≤ s.marginBottom + 1) :
    topRows s 0 (n1 + n2) = topRows s 0 n1 ++ topRows s1 0 n2 := by
  unfold Screen.topRows
  rw [List.take_add, h.frame.marginTop]
  congr 1
  apply List.ext_getElem?
  intro i
  rw [List.getElem?_take, List.getElem?_take]
  split
  · rw [List.getElem?_drop, List.getElem?_drop, List.getElem?_drop,
      h.shift _ (by omega) (by omega)]
    congr 1; omega
  · rfl

theorem ScrolledUp.trans {s s1 s2 : Screen} {n1 n2 : Nat} {k1 k2 : List Line} (hg : Geo s)
    (hs : SbOk s) (h : ScrolledUp s s1 n1 k1) (h' : ScrolledUp s1 s2 n2 k2)
    (hn : s.marginTop + n1 + n2 ≤ s.marginBottom + 1) : ScrolledUp s s2 (n1 + n2) (k1 ++ k2) := by
  have e1 := h.frame.marginTop
  have e2 := h.frame.marginBottom
  have e3 := h.frame.flags
  have e4 := h.frame.useAlt
  have hA1 : s1.fAlt = s.fAlt := by unfold fAlt; rw [e3]
  have hml : s1.main.length = s.main.length := by
    have := h.geo hg
    cases hu : s.useAlt with
    | true => rw [h.otherM hu]
    | false => rw [← this.len, h.otherA hu, hg.len]
  have hsel : ∀ p : SelPos, (∀ q, p.line = some q → q ∈ ids s.sb) → k2.length = n2 →
      scrollSel s2.sb n2 (dropStale s2.sb (scrollSel s1.sb n1 (dropStale s1.sb p))) =
        scrollSel s2.sb (n1 + n2) (dropStale s2.sb p) := by
    intro p hp hk
    have hsb := h'.push.sb
    rw [hsb]
    refine scrollSel_comp (h.push.ok.nodup_stamp k2) (by rw [stamp_length, hk]) ?_
    intro q hq hm
    rw [← hsb] at hm
    exact h.push.old h'.push (hs.ids_le (hp q hq)) hm
  have hk2 : s.fAlt = false → (∀ k, s.allocOk k = true) → k2.length = n2 := by
    intro a b
    rw [h'.full (by rw [hA1]; exact a) (by rw [h.frame.allocOk]; exact b)]
    unfold Screen.topRows
    have := (h.geo hg).linesOk.len
    have := (h.geo hg).rows
    have := (h.geo hg).mby
    simp only [List.length_take, List.length_drop]
    omega
  refine ⟨h.frame.trans h'.frame, ?_, ?_, ?_, ?_, ?_, ?_, ?_, ?_, ?_, ?_, ?_, ?_, ?_⟩
  · rw [h'.age, h.frame.ageCnt]
  · intro hu; rw [h'.otherM (by rw [e4]; exact hu), h.otherM hu]
  · intro hu; rw [h'.otherA (by rw [e4]; exact hu), h.otherA hu]
  · have := h'.linesOk
    exact ⟨by rw [this.len, hml], by have := this.w; rw [h.frame.sizeX] at this; exact this⟩
  · intro i hi; rw [h'.outside i (by rw [e1, e2]; exact hi), h.outside i hi]
  · intro i h1 h2
    rw [h'.shift i (by omega) (by omega), h.shift _ (by omega) (by omega)]
    congr 1; omega
  · intro i h1 h2 h3
    by_cases hc : i + n2 ≤ s.marginBottom
    · rw [h'.shift i (by omega) (by omega)]
      exact h.blank _ (by omega) (by omega) (by omega)
    · obtain ⟨l, el, hb⟩ := h'.blank i (by omega) (by omega) (by omega)
      refine ⟨l, el, ?_⟩
      unfold BlankLine at *
      rw [h.frame.sizeX, h.frame.blank] at hb
      exact hb
  · exact PushedSb.trans hs h.push h'.push
  · rw [h.topRows hn]; exact h.sub.append h'.sub
  · intro a; rw [h.alt a, h'.alt (by rw [hA1]; exact a)]; rfl
  · intro a b
    rw [h.topRows hn, h.full a b, h'.full (by rw [hA1]; exact a) (by rw [h.frame.allocOk]; exact b)]
  · intro a b
    rw [h'.selS (by rw [hA1]; exact a) (by rw [h.frame.allocOk]; exact b), h.selS a b, h.frame.selActive]
    by_cases ha : s.selActive
    · rw [if_pos ha, if_pos ha, if_pos ha,
        hsel _ (fun q hq => mem_ids.mpr (hs.selS ha q hq)) (hk2 a b)]
    · rw [if_neg ha, if_neg ha, if_neg ha]
  · intro a b
    rw [h'.selE (by rw [hA1]; exact a) (by rw [h.frame.allocOk]; exact b), h.selE a b, h.frame.selActive]
    by_cases ha : s.selActive
    · rw [if_pos ha, if_pos ha, if_pos ha,
        hsel _ (fun q hq => mem_ids.mpr (hs.selE ha q hq)) (hk2 a b)]
    · rw [if_neg ha, if_neg ha, if_neg ha]

theorem touch_of_age {s : Screen} (h : s.age = s.ageCnt) : s.touch = s := by
  cases s; unfold touch; simp_all

theorem Geo.regionSize {s : Screen} (hg : Geo s) :
    sub32 (s.marginBottom + 1) s.marginTop = s.marginBottom + 1 - s.marginTop := by
  have := hg.mtb; have := hg.mby; have := hg.yb
  unfold sub32; omega

/-- Clamped number of lines actually scrolled. -/
@[reducible] def clampRegion (s : Screen) (num : Nat) : Nat :=
  min num (s.marginBottom + 1 - s.marginTop)

theorem scrollUpFuel_spec (fuel : Nat) : ∀ (num : Nat) (s : Screen), Geo s → SbOk s →
    num ≤ fuel → 0 < num →
    ∃ s' kept, scrollUpFuel fuel s num = .ok s' ∧ ScrolledUp s.touch s' (s.clampRegion num) kept := by
  induction fuel with
  | zero => intro num s _ _ h1 h2; omega
  | succ fuel ih =>
    intro num s hg hs hf hn
    have hsz := hg.touch.regionSize
    have hm1 := hg.mtb
    unfold scrollUpFuel
    rw [if_neg (by omega)]
    dsimp only
    rw [hsz]
    have ecl : (if num > s.touch.marginBottom + 1 - s.touch.marginTop then
        s.touch.marginBottom + 1 - s.touch.marginTop else num) = s.clampRegion num := by
      show (if num > s.marginBottom + 1 - s.marginTop then s.marginBottom + 1 - s.marginTop else num) =
        min num (s.marginBottom + 1 - s.marginTop)
      split
      · exact (Nat.min_eq_right (by omega)).symm
      · exact (Nat.min_eq_left (by omega)).symm
    rw [ecl]
    have hle : s.clampRegion num ≤ s.marginBottom + 1 - s.marginTop := Nat.min_le_right _ _
    have hle2 : s.clampRegion num ≤ num := Nat.min_le_left _ _
    generalize s.clampRegion num = c at *
    by_cases hc : c > 128
    · rw [if_pos hc]
      obtain ⟨s1, k1, e1, h1⟩ := scrollUpChunk_spec hg.touch hs.touch rfl (num := 128)
        (show 128 ≤ s.marginBottom + 1 - s.marginTop by omega)
      rw [e1]
      have hg1 := h1.geo hg.touch
      obtain ⟨s2, k2, e2, h2⟩ := ih (c - 128) s1 hg1 h1.push.ok (by omega) (by omega)
      rw [touch_of_age (by rw [h1.age, h1.frame.ageCnt])] at h2
      have ec : s1.clampRegion (c - 128) = c - 128 := by
        unfold clampRegion; rw [h1.frame.marginTop, h1.frame.marginBottom]
        exact Nat.min_eq_left (by show c - 128 ≤ s.marginBottom + 1 - s.marginTop; omega)
      rw [ec] at h2
      refine ⟨s2, k1 ++ k2, e2, ?_⟩
      have := ScrolledUp.trans hg.touch hs.touch h1 h2
        (show s.marginTop + 128 + (c - 128) ≤ s.marginBottom + 1 by omega)
      rw [show 128 + (c - 128) = c by omega] at this
      exact this
    · rw [if_neg hc]
      exact scrollUpChunk_spec hg.touch hs.touch rfl hle

theorem scrollUpI_spec {s : Screen} (hg : Geo s) (hs : SbOk s) {num : Nat} (hn : 0 < num) :
    ∃ s' kept, scrollUpI s num = .ok s' ∧ ScrolledUp s.touch s' (s.clampRegion num) kept :=
  scrollUpFuel_spec num num s hg hs (Nat.le_refl _) hn

theorem scrollUpI_zero (s : Screen) : scrollUpI s 0 = .ok s := rfl

end Screen
end Verif
