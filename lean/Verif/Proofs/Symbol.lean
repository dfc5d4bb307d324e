import Verif.Model.Symbol
import Verif.Spec.Symbol
import Verif.Proofs.Shared.HtableInv
import Verif.Proofs.Shared.Array

/-!
# The symbol table implements the list of strings
-/

namespace Verif.HT

open Verif

/-- The invariant only depends on the hash values of the pointers in the table. -/
theorem Inv.congr {U : Word → Prop} {hash hash' : Word → Word} {t : HT} (hi : Inv U hash t)
    (h : ∀ q, q ∈ t.ptrs → hash' q = hash q) : Inv U hash' t := by
  rcases hi with rfl | hi
  · exact Or.inl rfl
  · refine Or.inr ⟨⟨hi.tab.heap, hi.tab.bits, hi.tab.len, hi.tab.perfect, ?_⟩, hi.size, hi.le, hi.led, hi.based⟩
    intro k e hk hv
    have hm : t.raw e ∈ t.ptrs :=
      List.mem_map.mpr ⟨e, List.mem_filter.mpr ⟨List.mem_of_getElem? hk, hv⟩, rfl⟩
    obtain ⟨a, b, d, c1, c2⟩ := hi.tab.entries k e hk hv
    refine ⟨a, b, d, by rw [h _ hm]; exact c1, ?_⟩
    unfold enc at c2 ⊢
    rw [h _ hm]
    exact c2

theorem Inv.elems {U : Word → Prop} {hash : Word → Word} {t : HT} (hi : Inv U hash t) :
    t.ptrs.length = t.elems := by
  rcases hi with rfl | hi
  · rfl
  · exact hi.size.count

theorem Inv.mem {U : Word → Prop} {hash : Word → Word} {t : HT} (hi : Inv U hash t) {q : Word}
    (hq : q ∈ t.ptrs) : U q := by
  rcases hi with rfl | hi
  · cases hq
  · obtain ⟨k, e, h1, h2, h3⟩ := mem_ptrs hq
    rw [← h3]; exact (hi.tab.entries k e h1 h2).ptr

end Verif.HT

namespace Verif.SymTab

open Verif Verif.Strings

theorem chars_term {s : List Nat} (h : ∀ c, c ∈ s → IsChar c) : chars (s ++ [ucs4Max + 1]) = s := by
  unfold chars
  rw [List.takeWhile_append_of_pos]
  · rw [List.takeWhile_cons_of_neg (by decide), List.append_nil]
  · intro c hc
    exact decide_eq_true (h c hc)

theorem cmp_term {w s : List Nat} : (∀ c, c ∈ w → IsChar c) → (∀ c, c ∈ s → IsChar c) →
    cmpUcs4 (w ++ [ucs4Max + 1]) (s ++ [ucs4Max + 1]) = decide (w = s) := by
  induction w generalizing s with
  | nil =>
    intro _ hs
    cases s with
    | nil => rfl
    | cons b s =>
      have hb : b ≤ ucs4Max := hs b List.mem_cons_self
      show (if ucs4Max < ucs4Max + 1 ∧ ucs4Max < b then true else if ucs4Max + 1 ≠ b then false else _) = _
      rw [if_neg (by omega), if_pos (by omega)]
      rfl
  | cons a w ih =>
    intro hw hs
    have ha : a ≤ ucs4Max := hw a List.mem_cons_self
    cases s with
    | nil =>
      show (if ucs4Max < a ∧ ucs4Max < ucs4Max + 1 then true else if a ≠ ucs4Max + 1 then false else _) = _
      rw [if_neg (by omega), if_pos (by omega)]
      rfl
    | cons b s =>
      show (if ucs4Max < a ∧ ucs4Max < b then true else if a ≠ b then false else
        cmpUcs4 (w ++ [ucs4Max + 1]) (s ++ [ucs4Max + 1])) = _
      rw [if_neg (by omega)]
      by_cases hab : a = b
      · rw [if_neg (by simpa using hab),
          ih (fun c hc => hw c (List.mem_cons_of_mem _ hc)) (fun c hc => hs c (List.mem_cons_of_mem _ hc))]
        exact decide_eq_decide.mpr (by rw [hab]; simp)
      · rw [if_pos hab]
        exact (decide_eq_false (by intro h; injection h with h; exact hab h)).symm

/-- The table `t` holds the strings `strs`, at the addresses `ptrs`. -/
structure Rel (U : Word → Prop) (t : SymTab) (strs : List (List Nat)) (ptrs : List Word) : Prop where
  nextId : t.nextId = 0x80000001 + strs.length
  len : ptrs.length = strs.length
  index : Arr.Ok t.index
  esz : t.index.elementSize = 8
  contents : t.index.contents = some 0 :: ptrs.map some
  inv : HT.Inv U t.hash t.ht
  perm : List.Perm t.ht.ptrs ptrs
  nodup : ptrs.Nodup
  blk : ∀ (k : Nat) (p : Word) (s : List Nat), ptrs[k]? = some p → strs[k]? = some s →
    t.block p = some (idOf k, s ++ [ucs4Max + 1])
  good : Good strs

theorem denotes_chars {strs : List (List Nat)} (h : Good strs) (sym : Nat) :
    ∀ c, c ∈ denotes strs sym → IsChar c := by
  intro c hc
  unfold denotes at hc
  split at hc
  · rw [List.mem_singleton] at hc; subst hc; assumption
  · split at hc
    · rw [List.mem_singleton] at hc; subst hc; exact Nat.zero_le _
    · cases hk : strs[sym - 0x80000001]? with
      | none =>
        rw [hk] at hc
        change c ∈ [0] at hc
        rw [List.mem_singleton] at hc; subst hc; exact Nat.zero_le _
      | some s =>
        rw [hk] at hc
        exact h.chars s (List.mem_of_getElem? hk) c hc

theorem denotes_ne {strs : List (List Nat)} (h : Good strs) (sym : Nat) :
    1 ≤ (denotes strs sym).length ∧ (denotes strs sym).length ≤ 10 := by
  unfold denotes
  split
  · exact ⟨by simp, by simp⟩
  · split
    · exact ⟨by simp, by simp⟩
    · cases hk : strs[sym - 0x80000001]? with
      | none => exact ⟨by simp, by simp⟩
      | some s =>
        have := h.long s (List.mem_of_getElem? hk)
        exact ⟨by show 1 ≤ s.length; omega, this.2⟩

theorem getElem?_of_len {α β : Type} {l : List α} {m : List β} (h : l.length = m.length) {k : Nat} {a : α}
    (hk : l[k]? = some a) : ∃ b, m[k]? = some b := by
  have hlt : k < m.length := by
    rw [← h]
    rcases Nat.lt_or_ge k l.length with hl | hl
    · exact hl
    · rw [List.getElem?_eq_none hl] at hk; cases hk
  exact ⟨m[k], List.getElem?_eq_getElem hlt⟩

theorem get_ok {U : Word → Prop} (hU : ∀ p, U p → p ≠ 0) {t : SymTab} {strs : List (List Nat)} {ptrs : List Word}
    (h : Rel U t strs ptrs) (sym : Nat) (hs : sym < 4294967296) :
    t.get sym = .ok (denotes strs sym) := by
  unfold get denotes
  by_cases h1 : sym ≤ ucs4Max
  · rw [if_pos h1, if_pos (show sym ≤ 0x7fffffff from h1)]
  · rw [if_neg h1, if_neg (show ¬ sym ≤ 0x7fffffff from h1)]
    have h1' : ¬ sym ≤ 0x7fffffff := h1
    have hidx : (sym - (ucs4Max + 1)) % 4294967296 = sym - 0x80000000 := by
      unfold ucs4Max; omega
    have hcl := Arr.contents_length h.index
    rw [h.contents, List.length_cons, List.length_map] at hcl
    dsimp only
    rw [hidx]
    unfold Arr.getLength
    rw [← hcl, h.len]
    by_cases h2 : sym = 0x80000000
    · rw [if_neg (by omega), if_pos h2]
      have h0 : t.index.at_ (sym - 0x80000000) = .ok (some 0) := by
        have hc : t.index.contents[sym - 0x80000000]? = some (some 0) := by
          rw [h.contents, show sym - 0x80000000 = 0 by omega]; rfl
        unfold Arr.contents at hc
        rw [List.getElem?_take] at hc
        split at hc
        · unfold Arr.at_; rw [hc]
        · cases hc
      rw [h0]
      rfl
    · rw [if_neg h2]
      by_cases h3 : sym - 0x80000000 ≥ strs.length + 1
      · rw [if_pos h3, List.getElem?_eq_none (by omega)]
        rfl
      · rw [if_neg h3]
        have hlt : sym - 0x80000001 < ptrs.length := by rw [h.len]; omega
        have hc : t.index.contents[sym - 0x80000000]? = some (some ptrs[sym - 0x80000001]) := by
          rw [h.contents, show sym - 0x80000000 = (sym - 0x80000001) + 1 by omega, List.getElem?_cons_succ,
            List.getElem?_map, List.getElem?_eq_getElem hlt]
          rfl
        have h0 : t.index.at_ (sym - 0x80000000) = .ok (some ptrs[sym - 0x80000001]) := by
          unfold Arr.contents at hc
          rw [List.getElem?_take] at hc
          split at hc
          · unfold Arr.at_; rw [hc]
          · cases hc
        have hp : ptrs[sym - 0x80000001] ≠ 0 := by
          apply hU
          exact h.inv.mem (h.perm.mem_iff.mpr (List.getElem_mem hlt))
        rw [h0]
        show (if ptrs[sym - 0x80000001] = 0 then _ else t.string _) = _
        rw [if_neg hp]
        have hlt' : sym - 0x80000001 < strs.length := by omega
        have hb := h.blk _ _ _ (List.getElem?_eq_getElem hlt) (List.getElem?_eq_getElem hlt')
        unfold string
        rw [hb, List.getElem?_eq_getElem hlt']
        show (if _ then _ else _) = Except.ok strs[sym - 0x80000001]
        rw [if_neg ?_, chars_term (h.good.chars _ (List.getElem_mem hlt'))]
        rw [List.all_append]
        simp

theorem words_of {U : Word → Prop} {t : SymTab} {strs : List (List Nat)} {ptrs : List Word}
    (h : Rel U t strs ptrs) {q : Word} (hq : q ∈ t.ht.ptrs) :
    ∃ k s, ptrs[k]? = some q ∧ strs[k]? = some s ∧ t.words q = s ++ [ucs4Max + 1] ∧ s ∈ strs ∧
      t.block q = some (idOf k, s ++ [ucs4Max + 1]) := by
  obtain ⟨k, hk⟩ := List.mem_iff_getElem?.mp (h.perm.mem_iff.mp hq)
  obtain ⟨s, hs⟩ := getElem?_of_len h.len hk
  have hb := h.blk k q s hk hs
  refine ⟨k, s, hk, hs, ?_, List.mem_of_getElem? hs, hb⟩
  unfold words
  rw [hb]

theorem getElem?_inj_of_nodup {l : List (List Nat)} (h : l.Nodup) {k : Nat} {s : List Nat} (hk : l[k]? = some s) :
    l.idxOf s = k := by
  have hlt : k < l.length := by
    rcases Nat.lt_or_ge k l.length with hl | hl
    · exact hl
    · rw [List.getElem?_eq_none hl] at hk; cases hk
  rw [List.getElem?_eq_getElem hlt] at hk
  injection hk with hk
  rw [← hk]
  exact List.Nodup.idxOf_getElem h k hlt

/-- `tsm_symbol_append`, with memory for the hash table and the index. -/
theorem append_ok {U : Word → Prop} (hU : HT.Universe U) {t : SymTab} {strs : List (List Nat)} {ptrs : List Word}
    (h : Rel U t strs ptrs) (sym c : Nat) (hs : sym < 4294967296) (m : Mem) (h1 : m.table = true)
    (h2 : m.index = true) (hp : ∀ p, m.block = some p → U p ∧ p ∉ ptrs) (hn : strs.length + 1 ≤ 3 * 2 ^ 28) :
    ∃ t' ptrs', t.append sym c m = .ok (t', (Strings.append strs sym c m.block.isSome).2) ∧
      Rel U t' (Strings.append strs sym c m.block.isSome).1 ptrs' ∧
      (ptrs' = ptrs ∨ ∃ p, m.block = some p ∧ ptrs' = ptrs ++ [p]) := by
  have hU0 : ∀ p, U p → p ≠ 0 := by
    rintro p hp rfl
    exact absurd (hU.big 0 hp) (by decide)
  unfold append Strings.append
  by_cases hc : c > ucs4Max
  · rw [if_pos hc, if_pos (show 0x7fffffff < c ∨ 10 ≤ (denotes strs sym).length from Or.inl hc)]
    exact ⟨t, ptrs, rfl, h, Or.inl rfl⟩
  · rw [if_neg hc, get_ok hU0 h sym hs]
    show ∃ t' ptrs', (if (denotes strs sym).length ≥ maxLen then _ else _) = _ ∧ _
    have hcc : IsChar c := by unfold IsChar; unfold ucs4Max at hc; omega
    by_cases hl : (denotes strs sym).length ≥ maxLen
    · rw [if_pos hl, if_pos (show 0x7fffffff < c ∨ 10 ≤ (denotes strs sym).length from Or.inr hl)]
      exact ⟨t, ptrs, rfl, h, Or.inl rfl⟩
    · rw [if_neg hl, if_neg (show ¬ (0x7fffffff < c ∨ 10 ≤ (denotes strs sym).length) by
        unfold maxLen at hl; unfold ucs4Max at hc; omega)]
      dsimp only
      have hbuf : denotes strs sym ++ [c, ucs4Max + 1] = (denotes strs sym ++ [c]) ++ [ucs4Max + 1] := by simp
      rw [hbuf]
      have hwc : ∀ x, x ∈ denotes strs sym ++ [c] → IsChar x := by
        intro x hx
        rcases List.mem_append.mp hx with hx | hx
        · exact denotes_chars h.good sym x hx
        · rw [List.mem_singleton] at hx; rw [hx]; exact hcc
      have hwl := denotes_ne h.good sym
      have hwlen : (denotes strs sym ++ [c]).length = (denotes strs sym).length + 1 := by simp
      unfold maxLen at hl
      generalize hw : denotes strs sym ++ [c] = w at *
      rcases HT.lookup_ok h.inv (fun q => cmpUcs4 (w ++ [ucs4Max + 1]) (t.words q)) (hashUcs4 (w ++ [ucs4Max + 1]))
        with ⟨g1, g2⟩ | ⟨q, g1, g2, g3⟩
      · -- not found
        have hnot : w ∉ strs := by
          intro hm
          obtain ⟨k, hk⟩ := List.mem_iff_getElem?.mp hm
          obtain ⟨q, hq⟩ := getElem?_of_len h.len.symm hk
          have hb := h.blk k q w hq hk
          have hww : t.words q = w ++ [ucs4Max + 1] := by unfold words; rw [hb]
          have := g2 q (h.perm.mem_iff.mpr (List.mem_of_getElem? hq)) (by unfold hash; rw [hww])
          rw [hww, cmp_term hwc hwc] at this
          simp at this
        rw [g1, if_neg hnot]
        cases hb : m.block with
        | none =>
          exact ⟨t, ptrs, rfl, h, Or.inl rfl⟩
        | some p =>
          obtain ⟨hp1, hp2⟩ := hp p hb
          have hid : (t.nextId + 1) % 4294967296 = t.nextId + 1 := by
            rw [h.nextId]
            have : (3 * 2 ^ 28 : Nat) = 805306368 := by decide
            omega
          let t1 : SymTab := { t with nextId := t.nextId + 1, blocks := (p, t.nextId + 1, w ++ [ucs4Max + 1]) :: t.blocks }
          have hb1 : ∀ q, q ≠ p → t1.block q = t.block q := by
            intro q hq
            show List.lookup q ((p, _) :: t.blocks) = _
            rw [List.lookup_cons]
            have : (q == p) = false := by simpa using hq
            rw [this]
            rfl
          have hb2 : t1.block p = some (t.nextId + 1, w ++ [ucs4Max + 1]) := by
            show List.lookup p ((p, _) :: t.blocks) = _
            rw [List.lookup_cons]
            simp
          have hne : ∀ q, q ∈ ptrs → q ≠ p := by
            rintro q hq rfl
            exact hp2 hq
          have hinv : HT.Inv U t1.hash t.ht := by
            refine h.inv.congr ?_
            intro q hq
            unfold hash words
            rw [hb1 q (hne q (h.perm.mem_iff.mp hq))]
          have hel : t.ht.elems = strs.length := by
            rw [← h.inv.elems, h.perm.length_eq, h.len]
          rcases HT.insert_ok hU hinv (by rw [hel]; exact hn) hp1 m.table with ⟨u, i1, i2, i3, i4⟩ | ⟨i1, _⟩
          rotate_left
          · rw [h1] at i1; cases i1
          rcases Arr.push_ok h.index p m.index with ⟨a, j1, j2, j3, j4⟩ | ⟨j1, _⟩
          rotate_left
          · exfalso
            rcases j1 with j1 | j1
            · rw [h2] at j1; cases j1
            · have hcl := Arr.contents_length h.index
              rw [h.contents, List.length_cons, List.length_map, h.len] at hcl
              have : (3 * 2 ^ 28 : Nat) = 805306368 := by decide
              rw [h.esz, ← hcl] at j1
              omega
          refine ⟨{ t1 with ht := u, index := a }, ptrs ++ [p], ?_, ?_, Or.inr ⟨p, rfl, rfl⟩⟩
          · show (if (t.nextId + 1) % 4294967296 ≤ t.nextId then _ else _) = _
            rw [hid, if_neg (by omega)]
            show (t.ht.insert t1.hash p m.table >>= _) = _
            rw [i1]
            show (t.index.push p m.index >>= _) = _
            rw [j1]
            have hid' : t.nextId + 1 = idOf strs.length := by
              rw [h.nextId]; unfold idOf; omega
            show Except.ok ({ t1 with ht := u, index := a }, t.nextId + 1) = Except.ok (_, idOf strs.length)
            rw [← hid']
          · show Rel U _ (strs ++ [w]) (ptrs ++ [p])
            refine ⟨?_, ?_, j2, ?_, ?_, i2, ?_, ?_, ?_, ⟨?_, ?_, ?_⟩⟩
            · show t.nextId + 1 = _
              rw [h.nextId, List.length_append]
              rfl
            · rw [List.length_append, List.length_append, h.len]; rfl
            · show a.elementSize = 8
              rw [j4]; exact h.esz
            · show a.contents = _
              rw [j3, h.contents]
              simp
            · refine i3.trans ?_
              refine (List.Perm.cons p h.perm).trans ?_
              exact (List.perm_append_singleton p ptrs).symm
            · rw [List.nodup_append]
              refine ⟨h.nodup, by simp, ?_⟩
              intro a ha b hb'
              rw [List.mem_singleton] at hb'
              rw [hb']
              exact hne a ha
            · intro k q s hk hs'
              show t1.block q = _
              rcases Nat.lt_or_ge k ptrs.length with hlt | hge
              · rw [List.getElem?_append_left hlt] at hk
                rw [List.getElem?_append_left (by rw [← h.len]; exact hlt)] at hs'
                rw [hb1 q (hne q (List.mem_of_getElem? hk))]
                exact h.blk k q s hk hs'
              · rw [List.getElem?_append_right hge] at hk
                rw [List.getElem?_append_right (by rw [← h.len]; exact hge)] at hs'
                have hk0 : k = ptrs.length := by
                  rcases Nat.eq_or_lt_of_le hge with hx | hx
                  · exact hx.symm
                  · rw [List.getElem?_eq_none (by simp; omega)] at hk; cases hk
                subst hk0
                rw [Nat.sub_self] at hk
                rw [h.len, Nat.sub_self] at hs'
                injection hk with hk
                injection hs' with hs'
                rw [← hk, ← hs', hb2, h.nextId, h.len]
                unfold idOf
                rw [show 0x80000001 + strs.length + 1 = 0x80000002 + strs.length by omega]
            · rw [List.nodup_append]
              refine ⟨h.good.nodup, by simp, ?_⟩
              intro a ha b hb'
              rw [List.mem_singleton] at hb'
              rw [hb']
              rintro rfl
              exact hnot ha
            · intro s hs'
              rcases List.mem_append.mp hs' with hs' | hs'
              · exact h.good.chars s hs'
              · rw [List.mem_singleton] at hs'; rw [hs']; exact hwc
            · intro s hs'
              rcases List.mem_append.mp hs' with hs' | hs'
              · exact h.good.long s hs'
              · rw [List.mem_singleton] at hs'
                rw [hs', hwlen]
                omega
      · -- found
        obtain ⟨k, s, e1, e2, e3, e4, e5⟩ := words_of h g2
        have hws : w = s := by
          have g3' : cmpUcs4 (w ++ [ucs4Max + 1]) (t.words q) = true := g3
          rw [e3, cmp_term hwc (h.good.chars s e4)] at g3'
          exact of_decide_eq_true g3'
        rw [g1, if_pos (by rw [hws]; exact e4), hws, getElem?_inj_of_nodup h.good.nodup e2]
        refine ⟨t, ptrs, ?_, h, Or.inl rfl⟩
        show (match t.block q with | some (id, _) => _ | none => _) = _
        rw [e5]
        rfl

theorem new_ok (U : Word → Prop) {mem : Bool} {t : SymTab} (h : new mem = .ok (some t)) : Rel U t [] [] := by
  cases mem with
  | false =>
    have hn : new false = .ok none := rfl
    rw [hn] at h
    injection h with h
    cases h
  | true =>
    have hn : new true = .ok (some { nextId := 0x80000001, ht := HT.init, blocks := [], index :=
        { elementSize := 8, length := 1, size := 4, data := [some 0, none, none, none] } }) := by
      decide +kernel
    rw [hn] at h
    injection h with h
    injection h with h
    subst h
    exact ⟨rfl, rfl, ⟨by decide, by decide, rfl, by decide, by decide⟩, rfl, rfl, Or.inl rfl, List.Perm.refl _,
      List.nodup_nil, (by intro k p s hk; cases hk),
      ⟨List.nodup_nil, (by intro s hs; cases hs), (by intro s hs; cases hs)⟩⟩

end Verif.SymTab
