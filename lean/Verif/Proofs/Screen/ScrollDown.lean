import Verif.Proofs.Screen.ScrollUp

/-!
# `screen_scroll_down`, inserting and deleting lines
-/

namespace Verif
namespace Screen

theorem takeRows_spec {s : Screen} {idx : Nat → Nat} (n : Nat) : ∀ (i : Nat) (ls : List Line),
    LinesOk s ls → (∀ k, i ≤ k → k < i + n → idx k < ls.length) →
    ∃ ls' cache, takeRows s idx n i ls = .ok (ls', cache) ∧ LinesOk s ls' ∧ cache.length = n ∧
      (∀ l ∈ cache, BlankLine s l) ∧
      (∀ r, (∀ k, i ≤ k → k < i + n → idx k ≠ r) → ls'[r]? = ls[r]?) ∧
      (∀ k, i ≤ k → k < i + n → ∃ l, ls'[idx k]? = some l ∧ BlankLine s l) := by
  induction n with
  | zero =>
    intro i ls h _
    exact ⟨ls, [], rfl, h, rfl, by simp, fun _ _ => rfl, by intro k h1 h2; omega⟩
  | succ n ih =>
    intro i ls h hb
    have hlt := hb i (Nat.le_refl _) (by omega)
    have el : ls[idx i]? = some ls[idx i] := List.getElem?_eq_getElem hlt
    obtain ⟨cl, ecl, hcl, hlen, _, _⟩ := clearLine_ok (s := s) (l := ls[idx i])
      (h.w _ (List.getElem_mem hlt))
    obtain ⟨ls', cache, e, h1, h2, h3, h4, h5⟩ := ih (i + 1) (ls.set (idx i) cl)
      (h.set hcl.1) (by intro k a b; simp only [List.length_set]; exact hb k (by omega) (by omega))
    refine ⟨ls', cl :: cache, ?_, h1, by simp [h2], ?_, ?_, ?_⟩
    · unfold takeRows
      rw [el]
      dsimp only
      rw [ecl]
      show (do let p ← takeRows s idx n (i + 1) (ls.set (idx i) cl); return (p.1, cl :: p.2) :
        R (List Line × List Line)) = _
      rw [e]; rfl
    · intro l hl
      rcases List.mem_cons.mp hl with hl | hl
      · rw [hl]; exact hcl
      · exact h3 l hl
    · intro r hr
      rw [h4 r (fun k a b => hr k (by omega) (by omega)), List.getElem?_set, if_neg]
      exact hr i (Nat.le_refl _) (by omega)
    · intro k a b
      by_cases hk : ∃ k', i + 1 ≤ k' ∧ k' < i + 1 + n ∧ idx k' = idx k
      · obtain ⟨k', a', b', e'⟩ := hk
        rw [← e']; exact h5 k' a' b'
      · rw [h4 (idx k) (fun k' a' b' e' => hk ⟨k', a', b', e'⟩)]
        by_cases hki : k = i
        · subst hki
          exact ⟨cl, by rw [List.getElem?_set, if_pos rfl, if_pos hlt], hcl⟩
        · exact absurd ⟨k, by omega, by omega, rfl⟩ hk

/-- Shift rows `lo .. hi` down by `n`, filling with blank lines. -/
structure ShiftDown (s : Screen) (ls ls' : List Line) (lo hi n : Nat) : Prop where
  ok : LinesOk s ls'
  outside : ∀ i, (i < lo ∨ hi < i) → ls'[i]? = ls[i]?
  shift : ∀ i, lo + n ≤ i → i ≤ hi → ls'[i]? = ls[i - n]?
  blank : ∀ i, lo ≤ i → i ≤ hi → i < lo + n → ∃ l, ls'[i]? = some l ∧ BlankLine s l

/-- Shift rows `lo .. hi` up by `n`, filling with blank lines. -/
structure ShiftUp (s : Screen) (ls ls' : List Line) (lo hi n : Nat) : Prop where
  ok : LinesOk s ls'
  outside : ∀ i, (i < lo ∨ hi < i) → ls'[i]? = ls[i]?
  shift : ∀ i, lo ≤ i → i + n ≤ hi → ls'[i]? = ls[i + n]?
  blank : ∀ i, lo ≤ i → i ≤ hi → hi < i + n → ∃ l, ls'[i]? = some l ∧ BlankLine s l

/-- The common code of `screen_scroll_down` and `tsm_screen_insert_lines`. -/
theorem shiftDown_spec {s : Screen} (hg : Geo s) {lo n : Nat} (hlo : lo ≤ s.marginBottom)
    (hn : n ≤ s.marginBottom + 1 - lo) :
    ∃ ls1 cache, takeRows s (fun i => sub32 s.marginBottom i) n 0 s.lines = .ok (ls1, cache) ∧
      ∃ ls2, (if n < s.marginBottom + 1 - lo then
          memmove .oobLine ls1 (lo + n) lo (s.marginBottom + 1 - lo - n)
        else .ok ls1 : R (List Line)) = .ok ls2 ∧
      ∃ ls3, memcpy .oobLine ls2 lo cache = .ok ls3 ∧ ShiftDown s s.lines ls3 lo s.marginBottom n ∧
        (n = s.marginBottom + 1 - lo → ShiftDown s s.lines ls2 lo s.marginBottom n) := by
  have hmb := hg.mby
  have hyb := hg.yb
  have hlen := hg.linesOk.len
  have hrows := hg.rows
  have hsub : ∀ k, k < n → sub32 s.marginBottom k = s.marginBottom - k := by
    intro k hk; unfold sub32; omega
  obtain ⟨ls1, cache, e1, h1, hc, hb, ho, hbl⟩ := takeRows_spec (s := s)
    (idx := fun i => sub32 s.marginBottom i) n 0 s.lines hg.linesOk
    (by intro k _ hk; rw [hsub k (by omega)]; omega)
  have hout1 : ∀ r, r + n ≤ s.marginBottom ∨ s.marginBottom < r → ls1[r]? = s.lines[r]? := by
    intro r hr
    apply ho
    intro k _ hk
    rw [hsub k (by omega)]; omega
  have hbl1 : ∀ r, s.marginBottom < r + n → r ≤ s.marginBottom → ∃ l, ls1[r]? = some l ∧ BlankLine s l := by
    intro r a b
    have := hbl (s.marginBottom - r) (Nat.zero_le _) (by omega)
    rw [hsub _ (by omega), show s.marginBottom - (s.marginBottom - r) = r by omega] at this
    exact this
  refine ⟨ls1, cache, e1, ?_⟩
  have hl1 := h1.len
  obtain ⟨ls2, e2, hl2, hc2⟩ : ∃ ls2,
      (if n < s.marginBottom + 1 - lo then
          memmove .oobLine ls1 (lo + n) lo (s.marginBottom + 1 - lo - n)
        else .ok ls1 : R (List Line)) = .ok ls2 ∧ ls2.length = ls1.length ∧
      ∀ i, ls2[i]? = if lo + n ≤ i ∧ i ≤ s.marginBottom then ls1[i - n]? else ls1[i]? := by
    by_cases hlt : n < s.marginBottom + 1 - lo
    · rw [if_pos hlt]
      obtain ⟨l', e', h1, h2⟩ := memmove_ok (k := .oobLine) (l := ls1) (dst := lo + n)
        (src := lo) (n := s.marginBottom + 1 - lo - n) (by omega) (by omega)
      refine ⟨l', e', h1, ?_⟩
      intro i
      rw [h2]
      by_cases hc : lo + n ≤ i ∧ i ≤ s.marginBottom
      · rw [if_pos hc, if_pos (by omega)]; congr 1; omega
      · rw [if_neg hc, if_neg (by omega)]
    · rw [if_neg hlt]
      refine ⟨_, rfl, rfl, ?_⟩
      intro i; rw [if_neg (by omega)]
  refine ⟨ls2, e2, ?_⟩
  obtain ⟨ls3, e3, hl3, hc3⟩ := memcpy_ok (k := .oobLine) (l := ls2) (ys := cache) (dst := lo)
    (by omega)
  refine ⟨ls3, e3, ?_, ?_⟩
  · have hout : ∀ i, (i < lo ∨ s.marginBottom < i) → ls3[i]? = s.lines[i]? := by
      intro i hi
      rw [hc3, if_neg (by omega), hc2, if_neg (by omega)]
      exact hout1 i (by omega)
    have hshift : ∀ i, lo + n ≤ i → i ≤ s.marginBottom → ls3[i]? = s.lines[i - n]? := by
      intro i a b
      rw [hc3, if_neg (by omega), hc2, if_pos (by omega)]
      exact hout1 _ (by omega)
    have hblank : ∀ i, lo ≤ i → i ≤ s.marginBottom → i < lo + n →
        ∃ l, ls3[i]? = some l ∧ BlankLine s l := by
      intro i a b c
      have hlt : i - lo < cache.length := by omega
      refine ⟨_, ?_, hb _ (List.getElem_mem hlt)⟩
      rw [hc3, if_pos (by omega), List.getElem?_eq_getElem hlt]
    refine ⟨⟨by omega, ?_⟩, hout, hshift, hblank⟩
    apply mem_of_getElem?_fun
    intro i l hl
    by_cases hi : i < lo ∨ s.marginBottom < i
    · rw [hout i hi] at hl; exact hg.linesOk.w l (getElem?_mem hl)
    · by_cases hs : lo + n ≤ i
      · rw [hshift i hs (by omega)] at hl; exact hg.linesOk.w l (getElem?_mem hl)
      · obtain ⟨l', e', hb'⟩ := hblank i (by omega) (by omega) (by omega)
        rw [e'] at hl; cases hl; exact hb'.1
  · intro hn'
    rw [if_neg (by omega)] at e2
    cases e2
    refine ⟨h1, fun i hi => hout1 i (by omega), ?_, ?_⟩
    · intro i a b; omega
    · intro i a b c; exact hbl1 i (by omega) b

/-- The common code of `tsm_screen_delete_lines`. -/
theorem shiftUp_spec {s : Screen} (hg : Geo s) {lo n : Nat} (hlo : lo ≤ s.marginBottom)
    (hn : n ≤ s.marginBottom + 1 - lo) :
    ∃ ls1 cache, takeRows s (fun i => lo + i) n 0 s.lines = .ok (ls1, cache) ∧
      ∃ ls3, (if n < s.marginBottom + 1 - lo then do
          let ls ← memmove .oobLine ls1 lo (lo + n) (s.marginBottom + 1 - lo - n)
          memcpy .oobLine ls (lo + (s.marginBottom + 1 - lo - n)) cache
        else .ok ls1 : R (List Line)) = .ok ls3 ∧ ShiftUp s s.lines ls3 lo s.marginBottom n := by
  have hmb := hg.mby
  have hyb := hg.yb
  have hlen := hg.linesOk.len
  have hrows := hg.rows
  obtain ⟨ls1, cache, e1, h1, hc, hb, ho, hbl⟩ := takeRows_spec (s := s)
    (idx := fun i => lo + i) n 0 s.lines hg.linesOk
    (by intro k _ hk; omega)
  have hout1 : ∀ r, r < lo ∨ lo + n ≤ r → ls1[r]? = s.lines[r]? := by
    intro r hr
    apply ho
    intro k _ hk
    omega
  have hbl1 : ∀ r, lo ≤ r → r < lo + n → ∃ l, ls1[r]? = some l ∧ BlankLine s l := by
    intro r a b
    have := hbl (r - lo) (Nat.zero_le _) (by omega)
    rw [show lo + (r - lo) = r by omega] at this
    exact this
  refine ⟨ls1, cache, e1, ?_⟩
  have hl1 := h1.len
  by_cases hlt : n < s.marginBottom + 1 - lo
  · rw [if_pos hlt]
    obtain ⟨ls2, e2, hl2, hc2⟩ := memmove_ok (k := .oobLine) (l := ls1) (dst := lo)
      (src := lo + n) (n := s.marginBottom + 1 - lo - n) (by omega) (by omega)
    obtain ⟨ls3, e3, hl3, hc3⟩ := memcpy_ok (k := .oobLine) (l := ls2) (ys := cache)
      (dst := lo + (s.marginBottom + 1 - lo - n)) (by omega)
    have hout : ∀ i, (i < lo ∨ s.marginBottom < i) → ls3[i]? = s.lines[i]? := by
      intro i hi
      rw [hc3, if_neg (by omega), hc2, if_neg (by omega)]
      exact hout1 i (by omega)
    have hshift : ∀ i, lo ≤ i → i + n ≤ s.marginBottom → ls3[i]? = s.lines[i + n]? := by
      intro i a b
      rw [hc3, if_neg (by omega), hc2, if_pos (by omega), hout1 _ (by omega)]
      congr 1; omega
    have hblank : ∀ i, lo ≤ i → i ≤ s.marginBottom → s.marginBottom < i + n →
        ∃ l, ls3[i]? = some l ∧ BlankLine s l := by
      intro i a b c
      have hlt : i - (lo + (s.marginBottom + 1 - lo - n)) < cache.length := by omega
      refine ⟨_, ?_, hb _ (List.getElem_mem hlt)⟩
      rw [hc3, if_pos (by omega), List.getElem?_eq_getElem hlt]
    refine ⟨ls3, by rw [e2]; exact e3, ⟨by omega, ?_⟩, hout, hshift, hblank⟩
    apply mem_of_getElem?_fun
    intro i l hl
    by_cases hi : i < lo ∨ s.marginBottom < i
    · rw [hout i hi] at hl; exact hg.linesOk.w l (getElem?_mem hl)
    · by_cases hs : i + n ≤ s.marginBottom
      · rw [hshift i (by omega) hs] at hl; exact hg.linesOk.w l (getElem?_mem hl)
      · obtain ⟨l', e', hb'⟩ := hblank i (by omega) (by omega) (by omega)
        rw [e'] at hl; cases hl; exact hb'.1
  · rw [if_neg hlt]
    refine ⟨ls1, rfl, h1, fun i hi => hout1 i (by omega), ?_, ?_⟩
    · intro i a b; omega
    · intro i a b c; exact hbl1 i (by omega) (by omega)

/-! ### Scrolling down -/

/-- Selection adjustment when scrolling down. -/
def downSel (n : Nat) (p : SelPos) : SelPos :=
  if p.line = none ∧ p.y ≥ 0 then { p with y := p.y + n } else p

theorem downSel_comp (a b : Nat) (p : SelPos) : downSel b (downSel a p) = downSel (a + b) p := by
  unfold downSel
  by_cases h : p.line = none ∧ p.y ≥ 0
  · rw [if_pos h, if_pos h]
    simp only
    rw [if_pos ⟨h.1, by omega⟩]
    congr 1; omega
  · rw [if_neg h, if_neg h, if_neg h]

theorem downSel_line (n : Nat) (p : SelPos) : (downSel n p).line = p.line := by
  unfold downSel; split <;> rfl

/-- Changes `screen_scroll_down` may make. -/
def DownFrame (s s' : Screen) : Prop :=
  s' = { s with age := s'.age, selStart := s'.selStart, selEnd := s'.selEnd
                main := s'.main, alt := s'.alt }

theorem DownFrame.trans {s s1 s2 : Screen} (h : DownFrame s s1) (h' : DownFrame s1 s2) :
    DownFrame s s2 := by
  unfold DownFrame at *
  rw [h] at h'
  exact h'

section
variable {s s' : Screen} (h : DownFrame s s')
include h
theorem DownFrame.sizeX : s'.sizeX = s.sizeX := by rw [DownFrame] at h; rw [h]
theorem DownFrame.sizeY : s'.sizeY = s.sizeY := by rw [DownFrame] at h; rw [h]
theorem DownFrame.flags : s'.flags = s.flags := by rw [DownFrame] at h; rw [h]
theorem DownFrame.useAlt : s'.useAlt = s.useAlt := by rw [DownFrame] at h; rw [h]
theorem DownFrame.marginTop : s'.marginTop = s.marginTop := by rw [DownFrame] at h; rw [h]
theorem DownFrame.marginBottom : s'.marginBottom = s.marginBottom := by rw [DownFrame] at h; rw [h]
theorem DownFrame.ageCnt : s'.ageCnt = s.ageCnt := by rw [DownFrame] at h; rw [h]
theorem DownFrame.ageReset : s'.ageReset = s.ageReset := by rw [DownFrame] at h; rw [h]
theorem DownFrame.blank : s'.blank = s.blank := by rw [DownFrame] at h; rw [h]; rfl
theorem DownFrame.cursorX : s'.cursorX = s.cursorX := by rw [DownFrame] at h; rw [h]
theorem DownFrame.cursorY : s'.cursorY = s.cursorY := by rw [DownFrame] at h; rw [h]
theorem DownFrame.selActive : s'.selActive = s.selActive := by rw [DownFrame] at h; rw [h]
end

/-- Effect of scrolling down by `num`. -/
structure ScrolledDown (s s' : Screen) (num : Nat) : Prop where
  frame : DownFrame s s'
  age : s'.age = s.ageCnt
  otherM : s.useAlt = true → s'.main = s.main
  otherA : s.useAlt = false → s'.alt = s.alt
  lines : ShiftDown s s.lines s'.lines s.marginTop s.marginBottom num
  selS : s'.selStart = if s.selActive then downSel num s.selStart else s.selStart
  selE : s'.selEnd = if s.selActive then downSel num s.selEnd else s.selEnd

theorem DownFrame.geo {s s' : Screen} (hf : DownFrame s s') (hg : Geo s) (h1 : LinesOk s s'.lines)
    (oM : s.useAlt = true → s'.main = s.main) (oA : s.useAlt = false → s'.alt = s.alt) : Geo s' := by
  unfold Screen.lines at h1
  rw [hf.useAlt] at h1
  unfold DownFrame at hf
  cases hu : s.useAlt with
  | true =>
    rw [hu] at h1
    simp only [if_true] at h1
    rw [hf, oM hu]
    exact { hg with len := h1.len, wa := h1.w }
  | false =>
    rw [hu] at h1
    simp only [Bool.false_eq_true, if_false] at h1
    rw [hf, oA hu]
    exact { hg with
      len := hg.len.trans h1.len.symm, rows := by have := hg.rows; have := h1.len; simp only; omega
      wm := h1.w }

theorem ScrolledDown.geo {s s' : Screen} {num : Nat} (h : ScrolledDown s s' num) (hg : Geo s) :
    Geo s' := h.frame.geo hg h.lines.ok h.otherM h.otherA

theorem ScrolledDown.sbOk {s s' : Screen} {num : Nat} (h : ScrolledDown s s' num) (hs : SbOk s) :
    SbOk s' := by
  have hf := h.frame
  have h1 := h.selS
  have h2 := h.selE
  unfold DownFrame at hf
  rw [hf]
  refine { hs with selS := ?_, selE := ?_ }
  · intro ha q hq
    simp only at ha hq
    rw [h1, if_pos ha, downSel_line] at hq
    exact hs.selS ha q hq
  · intro ha q hq
    simp only at ha hq
    rw [h2, if_pos ha, downSel_line] at hq
    exact hs.selE ha q hq

theorem ShiftDown.trans {s s1 : Screen} {a b c : List Line} {lo hi n m : Nat}
    (h : ShiftDown s a b lo hi n) (h' : ShiftDown s1 b c lo hi m) (hx : s1.sizeX = s.sizeX)
    (hm : s1.main.length = s.main.length) (hb : s1.blank = s.blank) (hn : lo + n + m ≤ hi + 1) :
    ShiftDown s a c lo hi (n + m) := by
  refine ⟨⟨by rw [h'.ok.len, hm], by have := h'.ok.w; rw [hx] at this; exact this⟩, ?_, ?_, ?_⟩
  · intro i hi; rw [h'.outside i hi, h.outside i hi]
  · intro i a b
    rw [h'.shift i (by omega) b, h.shift _ (by omega) (by omega)]
    congr 1; omega
  · intro i h1 h2 h3
    by_cases hc : lo + m ≤ i
    · rw [h'.shift i hc h2]; exact h.blank _ (by omega) (by omega) (by omega)
    · obtain ⟨l, e, hl⟩ := h'.blank i h1 h2 (by omega)
      refine ⟨l, e, ?_⟩
      unfold BlankLine at *; rw [hx, hb] at hl; exact hl

theorem ScrolledDown.trans {s s1 s2 : Screen} {n m : Nat} (hg : Geo s) (h : ScrolledDown s s1 n)
    (h' : ScrolledDown s1 s2 m) (hn : s.marginTop + n + m ≤ s.marginBottom + 1) :
    ScrolledDown s s2 (n + m) := by
  have hml : s1.main.length = s.main.length := by
    have := h.geo hg
    cases hu : s.useAlt with
    | true => rw [h.otherM hu]
    | false => rw [← this.len, h.otherA hu, hg.len]
  refine ⟨h.frame.trans h'.frame, by rw [h'.age, h.frame.ageCnt], ?_, ?_, ?_, ?_, ?_⟩
  · intro hu; rw [h'.otherM (by rw [h.frame.useAlt]; exact hu), h.otherM hu]
  · intro hu; rw [h'.otherA (by rw [h.frame.useAlt]; exact hu), h.otherA hu]
  · have h2 := h'.lines
    rw [h.frame.marginTop, h.frame.marginBottom] at h2
    exact h.lines.trans h2 h.frame.sizeX hml h.frame.blank hn
  · rw [h'.selS, h.selS, h.frame.selActive]
    by_cases ha : s.selActive
    · rw [if_pos ha, if_pos ha, if_pos ha, downSel_comp]
    · rw [if_neg ha, if_neg ha, if_neg ha]
  · rw [h'.selE, h.selE, h.frame.selActive]
    by_cases ha : s.selActive
    · rw [if_pos ha, if_pos ha, if_pos ha, downSel_comp]
    · rw [if_neg ha, if_neg ha, if_neg ha]

theorem scrollDownChunk_spec {s : Screen} (hg : Geo s) (ha : s.age = s.ageCnt) {num : Nat}
    (hn : num ≤ s.marginBottom + 1 - s.marginTop) :
    ∃ s', scrollDownChunk s (s.marginBottom + 1 - s.marginTop) num = .ok s' ∧
      ScrolledDown s s' num := by
  obtain ⟨ls1, cache, e1, ls2, e2, ls3, e3, h, _⟩ := shiftDown_spec hg hg.mtb hn
  let s2 := s.withLines ls3
  let s' : Screen := if s2.selActive then
      { s2 with selStart := downSel num s2.selStart, selEnd := downSel num s2.selEnd } else s2
  have hact : s2.selActive = s.selActive := wl_selActive s ls3
  have hproj : s'.lines = ls3 ∧ s'.age = s.age ∧ s'.main = s2.main ∧ s'.alt = s2.alt := by
    have h1 : s2.lines = ls3 := wl_lines s ls3
    have h2 : s2.age = s.age := wl_age s ls3
    by_cases hA : s2.selActive
    · simp only [s', hA, if_true]; exact ⟨h1, h2, trivial, trivial⟩
    · simp only [s', hA]; exact ⟨h1, h2, rfl, rfl⟩
  obtain ⟨p1, p2, p3, p4⟩ := hproj
  refine ⟨s', ?_, ?_, ?_, ?_, ?_, ?_, ?_, ?_⟩
  · unfold scrollDownChunk
    rw [e1]
    show (do
      let ls ← (if num < s.marginBottom + 1 - s.marginTop then
          memmove .oobLine ls1 (s.marginTop + num) s.marginTop (s.marginBottom + 1 - s.marginTop - num)
        else .ok ls1 : R (List Line))
      let ls ← memcpy .oobLine ls s.marginTop cache
      let s := s.withLines ls
      return if s.selActive then
        { s with selStart := downSel num s.selStart, selEnd := downSel num s.selEnd } else s : R Screen) = _
    rw [e2]
    show (do
      let ls ← memcpy .oobLine ls2 s.marginTop cache
      let s := s.withLines ls
      return if s.selActive then
        { s with selStart := downSel num s.selStart, selEnd := downSel num s.selEnd } else s : R Screen) = _
    rw [e3]
    rfl
  · have h1 : DownFrame s s2 := by
      unfold DownFrame
      have h3 : s2 = { s with main := s2.main, alt := s2.alt } := withLines_eq s ls3
      rw [h3]
    refine h1.trans ?_
    show DownFrame s2 (if s2.selActive then _ else s2)
    split <;> rfl
  · rw [p2, ha]
  · intro hu; rw [p3]; show (s.withLines ls3).main = _; unfold withLines; rw [hu]; rfl
  · intro hu; rw [p4]; show (s.withLines ls3).alt = _; unfold withLines; rw [hu]; rfl
  · rw [p1]; exact h
  · show (if s2.selActive then _ else s2).selStart = _
    rw [hact]
    split
    · show downSel num s2.selStart = _; rw [show s2.selStart = s.selStart from wl_selStart s ls3]
    · exact wl_selStart s ls3
  · show (if s2.selActive then _ else s2).selEnd = _
    rw [hact]
    split
    · show downSel num s2.selEnd = _; rw [show s2.selEnd = s.selEnd from wl_selEnd s ls3]
    · exact wl_selEnd s ls3

theorem scrollDownFuel_spec (fuel : Nat) : ∀ (num : Nat) (s : Screen), Geo s →
    num ≤ fuel → 0 < num →
    ∃ s', scrollDownFuel fuel s num = .ok s' ∧ ScrolledDown s.touch s' (s.clampRegion num) := by
  induction fuel with
  | zero => intro num s _ h1 h2; omega
  | succ fuel ih =>
    intro num s hg hf hn
    have hsz := hg.touch.regionSize
    have hm1 := hg.mtb
    unfold scrollDownFuel
    rw [if_neg (by omega)]
    dsimp only
    rw [hsz]
    have ecl : (if num > s.touch.marginBottom + 1 - s.touch.marginTop then
        s.touch.marginBottom + 1 - s.touch.marginTop else num) = s.clampRegion num := by
      show (if num > s.marginBottom + 1 - s.marginTop then s.marginBottom + 1 - s.marginTop else num) =
        min num (s.marginBottom + 1 - s.marginTop)
      split
      · exact (Nat.min_eq_right (by omega)).symm
      · exact (Nat.min_eq_left (by omega)).symm
    rw [ecl]
    have hle : s.clampRegion num ≤ s.marginBottom + 1 - s.marginTop := Nat.min_le_right _ _
    have hle2 : s.clampRegion num ≤ num := Nat.min_le_left _ _
    generalize s.clampRegion num = c at *
    by_cases hc : c > 128
    · rw [if_pos hc]
      obtain ⟨s1, e1, h1⟩ := scrollDownChunk_spec hg.touch rfl (num := 128)
        (show 128 ≤ s.marginBottom + 1 - s.marginTop by omega)
      rw [e1]
      have hg1 := h1.geo hg.touch
      obtain ⟨s2, e2, h2⟩ := ih (c - 128) s1 hg1 (by omega) (by omega)
      rw [touch_of_age (by rw [h1.age, h1.frame.ageCnt])] at h2
      have ec : s1.clampRegion (c - 128) = c - 128 := by
        unfold clampRegion; rw [h1.frame.marginTop, h1.frame.marginBottom]
        exact Nat.min_eq_left (by show c - 128 ≤ s.marginBottom + 1 - s.marginTop; omega)
      rw [ec] at h2
      refine ⟨s2, e2, ?_⟩
      have := ScrolledDown.trans hg.touch h1 h2
        (show s.marginTop + 128 + (c - 128) ≤ s.marginBottom + 1 by omega)
      rw [show 128 + (c - 128) = c by omega] at this
      exact this
    · rw [if_neg hc]
      exact scrollDownChunk_spec hg.touch rfl hle

theorem scrollDownI_spec {s : Screen} (hg : Geo s) {num : Nat} (hn : 0 < num) :
    ∃ s', scrollDownI s num = .ok s' ∧ ScrolledDown s.touch s' (s.clampRegion num) :=
  scrollDownFuel_spec num num s hg (Nat.le_refl _) hn

theorem scrollDownI_zero (s : Screen) : scrollDownI s 0 = .ok s := rfl

end Screen
end Verif
