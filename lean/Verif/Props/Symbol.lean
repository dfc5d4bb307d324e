import Verif.Proofs.Symbol
import Verif.Props.Shared.Htable
import Verif.Props.Wcwidth

/-!
# The symbol table

C06: decomposing combined symbols (false: the index is off by one).
C07: interning.
-/

namespace Verif.Props.Symbol

open Verif Verif.SymTab Verif.Strings

/-- One call of `tsm_symbol_append`, with what the allocator does. -/
structure Call where
  sym : Nat
  ucs4 : Nat
  mem : SymTab.Mem

/-- A history of calls, with the symbols returned. -/
def run (t : SymTab) : List Call → R (SymTab × List Nat)
  | [] => .ok (t, [])
  | c :: cs => do
    let (t, r) ← t.append c.sym c.ucs4 c.mem
    let (t, rs) ← run t cs
    pure (t, r :: rs)

/-- The addresses handed out by `malloc` in a history. -/
def addresses (cs : List Call) : List Word := cs.filterMap fun c => c.mem.block

/-- Histories in which symbols are 32-bit numbers, `malloc` may fail or returns addresses that can be
stored in one hash table, none twice, and growing the hash table and the index succeeds. -/
structure Fits (cs : List Call) : Prop where
  sym : ∀ c, c ∈ cs → c.sym < 2 ^ 32
  table : ∀ c, c ∈ cs → c.mem.table = true
  index : ∀ c, c ∈ cs → c.mem.index = true
  apart : Bag.Storable (fun p => p ∈ addresses cs)
  nodup : (addresses cs).Nodup
  count : cs.length ≤ 3 * 2 ^ 28

/-- The call `c` has a character to append, room for it and memory. -/
def Room (s : List Nat) (c : Call) : Prop :=
  c.ucs4 ≤ 0x7fffffff ∧ s.length < 10 ∧ c.mem.block ≠ none

/-! ### The list of strings behind a table -/

theorem spec_prefix (strs : List (List Nat)) (sym c : Nat) (mem : Bool) :
    strs <+: (Strings.append strs sym c mem).1 ∧
    (Strings.append strs sym c mem).1.length ≤ strs.length + 1 := by
  unfold Strings.append
  split
  · exact ⟨List.prefix_refl _, Nat.le_add_right _ _⟩
  · dsimp only
    split
    · exact ⟨List.prefix_refl _, Nat.le_add_right _ _⟩
    · split
      · exact ⟨List.prefix_append _ _, by rw [List.length_append]; exact Nat.le_refl _⟩
      · exact ⟨List.prefix_refl _, Nat.le_add_right _ _⟩

theorem spec_room {strs : List (List Nat)} {sym c : Nat} (h1 : c ≤ 0x7fffffff) (h2 : (denotes strs sym).length < 10) :
    ∃ k, (Strings.append strs sym c true).2 = idOf k ∧
      (Strings.append strs sym c true).1[k]? = some (denotes strs sym ++ [c]) := by
  unfold Strings.append
  rw [if_neg (by omega)]
  dsimp only
  by_cases h : denotes strs sym ++ [c] ∈ strs
  · rw [if_pos h]
    refine ⟨_, rfl, ?_⟩
    have hlt := List.idxOf_lt_length_of_mem h
    rw [List.getElem?_eq_getElem hlt, List.getElem_idxOf]
  · rw [if_neg h, if_pos rfl]
    refine ⟨_, rfl, ?_⟩
    rw [List.getElem?_append_right (Nat.le_refl _), Nat.sub_self]
    rfl

theorem append_rel {U : Word → Prop} (hU : HT.Universe U) {c : Call} {t : SymTab} {strs : List (List Nat)}
    {ptrs : List Word} (h : Rel U t strs ptrs) (h1 : c.sym < 2 ^ 32) (h2 : c.mem.table = true)
    (h3 : c.mem.index = true) (h4 : ∀ p, p ∈ addresses [c] → U p ∧ p ∉ ptrs) (h5 : strs.length + 1 ≤ 3 * 2 ^ 28) :
    ∃ t' ptrs', t.append c.sym c.ucs4 c.mem = .ok (t', (Strings.append strs c.sym c.ucs4 c.mem.block.isSome).2) ∧
      Rel U t' (Strings.append strs c.sym c.ucs4 c.mem.block.isSome).1 ptrs' ∧
      ∀ p, p ∈ ptrs' → p ∈ ptrs ∨ p ∈ addresses [c] := by
  have hadr : ∀ p, c.mem.block = some p → p ∈ addresses [c] := by
    intro p hp
    unfold addresses
    rw [List.mem_filterMap]
    exact ⟨c, by simp, hp⟩
  obtain ⟨t', ptrs', e1, e2, e3⟩ := append_ok hU h c.sym c.ucs4 h1 c.mem h2 h3 (fun p hp => h4 p (hadr p hp)) h5
  refine ⟨t', ptrs', e1, e2, ?_⟩
  intro p hp
  rcases e3 with e3 | ⟨q, e4, e3⟩
  · left; rw [← e3]; exact hp
  · rw [e3] at hp
    rcases List.mem_append.mp hp with hp | hp
    · exact Or.inl hp
    · rw [List.mem_singleton] at hp
      right; rw [hp]; exact hadr q e4

theorem addresses_cons (c : Call) (cs : List Call) : addresses (c :: cs) = addresses [c] ++ addresses cs := by
  unfold addresses
  rw [← List.filterMap_append]
  rfl

theorem run_rel {U : Word → Prop} (hU : HT.Universe U) (cs : List Call) :
    ∀ {t : SymTab} {strs : List (List Nat)} {ptrs : List Word}, Rel U t strs ptrs →
    (∀ c, c ∈ cs → c.sym < 2 ^ 32) → (∀ c, c ∈ cs → c.mem.table = true) → (∀ c, c ∈ cs → c.mem.index = true) →
    (∀ p, p ∈ addresses cs → U p ∧ p ∉ ptrs) → (addresses cs).Nodup → strs.length + cs.length ≤ 3 * 2 ^ 28 →
    ∃ t' rs strs' ptrs', run t cs = .ok (t', rs) ∧ Rel U t' strs' ptrs' ∧ strs <+: strs' ∧
      strs'.length ≤ strs.length + cs.length ∧ ∀ p, p ∈ ptrs' → p ∈ ptrs ∨ p ∈ addresses cs := by
  induction cs with
  | nil =>
    intro t strs ptrs h _ _ _ _ _ _
    exact ⟨t, [], strs, ptrs, rfl, h, List.prefix_refl _, Nat.le_refl _, fun p hp => Or.inl hp⟩
  | cons c cs ih =>
    intro t strs ptrs h h1 h2 h3 h4 h5 h6
    rw [addresses_cons] at h4 h5
    rw [List.length_cons] at h6
    obtain ⟨t1, ptrs1, e1, e2, e3⟩ := append_rel hU h (h1 c List.mem_cons_self) (h2 c List.mem_cons_self)
      (h3 c List.mem_cons_self) (fun p hp => h4 p (List.mem_append_left _ hp)) (by omega)
    obtain ⟨f1, f2⟩ := spec_prefix strs c.sym c.ucs4 c.mem.block.isSome
    rw [List.nodup_append] at h5
    obtain ⟨t2, rs, strs2, ptrs2, g1, g2, g3, g4, g5⟩ := ih e2
      (fun x hx => h1 x (List.mem_cons_of_mem _ hx)) (fun x hx => h2 x (List.mem_cons_of_mem _ hx))
      (fun x hx => h3 x (List.mem_cons_of_mem _ hx))
      (by
        intro p hp
        refine ⟨(h4 p (List.mem_append_right _ hp)).1, ?_⟩
        intro hp'
        rcases e3 p hp' with hx | hx
        · exact (h4 p (List.mem_append_right _ hp)).2 hx
        · exact h5.2.2 p hx p hp rfl)
      h5.2.1 (by omega)
    refine ⟨t2, (Strings.append strs c.sym c.ucs4 c.mem.block.isSome).2 :: rs, strs2, ptrs2, ?_, g2, f1.trans g3, ?_, ?_⟩
    · show (t.append c.sym c.ucs4 c.mem >>= _) = _
      rw [e1]
      show (run t1 cs >>= _) = _
      rw [g1]
      rfl
    · rw [List.length_cons]; omega
    · intro p hp
      rw [addresses_cons]
      rcases g5 p hp with hx | hx
      · rcases e3 p hx with hy | hy
        · exact Or.inl hy
        · exact Or.inr (List.mem_append_left _ hy)
      · exact Or.inr (List.mem_append_right _ hx)

theorem addresses_append (cs ds : List Call) : addresses (cs ++ ds) = addresses cs ++ addresses ds :=
  List.filterMap_append

/-- A history, then a call, then another history. -/
theorem split_rel {mem : Bool} {t0 : SymTab} (hn : SymTab.new mem = .ok (some t0)) {h1 : List Call} {a : Call}
    {h2 : List Call} (hf : Fits (h1 ++ a :: h2)) :
    ∃ U, HT.Universe U ∧ ∃ ta rs1 strs1 ptrs1, run t0 h1 = .ok (ta, rs1) ∧ Rel U ta strs1 ptrs1 ∧
      ∃ ta' ptrs1', ta.append a.sym a.ucs4 a.mem = .ok (ta', (Strings.append strs1 a.sym a.ucs4 a.mem.block.isSome).2) ∧
        Rel U ta' (Strings.append strs1 a.sym a.ucs4 a.mem.block.isSome).1 ptrs1' ∧
        ∃ tb rs2 strs2 ptrs2, run ta' h2 = .ok (tb, rs2) ∧ Rel U tb strs2 ptrs2 ∧
          (Strings.append strs1 a.sym a.ucs4 a.mem.block.isSome).1 <+: strs2 ∧
          strs2.length ≤ h1.length + 1 + h2.length ∧
          ∀ p, p ∈ ptrs2 → p ∈ addresses (h1 ++ a :: h2) := by
  have hU := Htable.universe_of hf.apart
  have hcount := hf.count
  rw [List.length_append, List.length_cons] at hcount
  have hnd := hf.nodup
  rw [addresses_append, addresses_cons, List.nodup_append, List.nodup_append] at hnd
  obtain ⟨d1, ⟨d2, d3, d4⟩, d5⟩ := hnd
  refine ⟨_, hU, ?_⟩
  obtain ⟨ta, rs1, strs1, ptrs1, e1, e2, e3, e4, e5⟩ := run_rel hU h1 (new_ok _ hn)
    (fun c hc => hf.sym c (List.mem_append_left _ hc)) (fun c hc => hf.table c (List.mem_append_left _ hc))
    (fun c hc => hf.index c (List.mem_append_left _ hc))
    (by
      intro p hp
      refine ⟨?_, by simp⟩
      show p ∈ addresses (h1 ++ a :: h2)
      rw [addresses_append]; exact List.mem_append_left _ hp)
    d1 (by show 0 + _ ≤ _; omega)
  have e4' : strs1.length ≤ h1.length := by simpa using e4
  refine ⟨ta, rs1, strs1, ptrs1, e1, e2, ?_⟩
  have hp1 : ∀ p, p ∈ ptrs1 → p ∈ addresses h1 := by
    intro p hp
    rcases e5 p hp with hx | hx
    · cases hx
    · exact hx
  have ha : a ∈ h1 ++ a :: h2 := List.mem_append_right _ List.mem_cons_self
  obtain ⟨ta', ptrs1', f1, f2, f3⟩ := append_rel hU e2 (hf.sym a ha) (hf.table a ha) (hf.index a ha)
    (by
      intro p hp
      refine ⟨?_, ?_⟩
      · show p ∈ addresses (h1 ++ a :: h2)
        rw [addresses_append, addresses_cons]
        exact List.mem_append_right _ (List.mem_append_left _ hp)
      · intro hx
        exact d5 p (hp1 p hx) p (List.mem_append_left _ hp) rfl)
    (by omega)
  obtain ⟨_, s2⟩ := spec_prefix strs1 a.sym a.ucs4 a.mem.block.isSome
  refine ⟨ta', ptrs1', f1, f2, ?_⟩
  obtain ⟨tb, rs2, strs2, ptrs2, g1, g2, g3, g4, g5⟩ := run_rel hU h2 f2
    (fun c hc => hf.sym c (List.mem_append_right _ (List.mem_cons_of_mem _ hc)))
    (fun c hc => hf.table c (List.mem_append_right _ (List.mem_cons_of_mem _ hc)))
    (fun c hc => hf.index c (List.mem_append_right _ (List.mem_cons_of_mem _ hc)))
    (by
      intro p hp
      refine ⟨?_, ?_⟩
      · show p ∈ addresses (h1 ++ a :: h2)
        rw [addresses_append, addresses_cons]
        exact List.mem_append_right _ (List.mem_append_right _ hp)
      · intro hx
        rcases f3 p hx with hy | hy
        · exact d5 p (hp1 p hy) p (List.mem_append_right _ hp) rfl
        · exact d4 p hy p hp rfl)
    d3 (by omega)
  refine ⟨tb, rs2, strs2, ptrs2, g1, g2, g3, by omega, ?_⟩
  intro p hp
  rw [addresses_append, addresses_cons]
  rcases g5 p hp with hx | hx
  · rcases f3 p hx with hy | hy
    · exact List.mem_append_left _ (hp1 p hy)
    · exact List.mem_append_right _ (List.mem_append_left _ hy)
  · exact List.mem_append_right _ (List.mem_append_right _ hx)

theorem universe_ne {U : Word → Prop} (hU : HT.Universe U) : ∀ p, U p → p ≠ 0 := by
  rintro p hp rfl
  exact absurd (hU.big 0 hp) (by decide)

theorem ok_inj {α : Type} {a b : α} (h : (Except.ok a : R α) = .ok b) : a = b := by
  injection h

/-! ### C06 -/

/-- What C06 claims: a symbol obtained by appending a character decomposes to the original characters
followed by the appended one, then and later. -/
def C06_claim : Prop :=
  ∀ (mem : Bool) (t0 : SymTab) (h1 h2 : List Call) (a : Call) (ta ta' tb : SymTab) (rs1 rs2 : List Nat) (r : Nat)
    (s : List Nat), SymTab.new mem = .ok (some t0) → Fits (h1 ++ a :: h2) → run t0 h1 = .ok (ta, rs1) →
    ta.get a.sym = .ok s → Room s a → ta.append a.sym a.ucs4 a.mem = .ok (ta', r) →
    run ta' h2 = .ok (tb, rs2) → tb.get r = .ok (s ++ [a.ucs4])

/-- What is behind the symbol returned by a successful append. -/
theorem behind {mem : Bool} {t0 : SymTab} {h1 h2 : List Call} {a : Call} {ta ta' tb : SymTab} {rs1 rs2 : List Nat}
    {r : Nat} {s : List Nat} (hn : SymTab.new mem = .ok (some t0)) (hf : Fits (h1 ++ a :: h2))
    (hr1 : run t0 h1 = .ok (ta, rs1)) (hg : ta.get a.sym = .ok s) (hroom : Room s a)
    (ha : ta.append a.sym a.ucs4 a.mem = .ok (ta', r)) (hr2 : run ta' h2 = .ok (tb, rs2)) :
    ∃ U, HT.Universe U ∧ ∃ strs ptrs k, Rel U tb strs ptrs ∧ r = idOf k ∧ strs[k]? = some (s ++ [a.ucs4]) ∧
      strs.length ≤ h1.length + 1 + h2.length ∧ ∀ p, p ∈ ptrs → p ∈ addresses (h1 ++ a :: h2) := by
  obtain ⟨U, hU, ta1, rs1', strs1, ptrs1, e1, e2, ta1', ptrs1', e3, e4, tb1, rs2', strs2, ptrs2, e5, e6, e7, e8, e9⟩ :=
    split_rel hn hf
  rw [hr1] at e1
  obtain ⟨rfl, rfl⟩ := Prod.mk.inj (ok_inj e1)
  rw [ha] at e3
  obtain ⟨rfl, hr⟩ := Prod.mk.inj (ok_inj e3)
  rw [hr2] at e5
  obtain ⟨rfl, rfl⟩ := Prod.mk.inj (ok_inj e5)
  have hsym := hf.sym a (List.mem_append_right _ List.mem_cons_self)
  rw [get_ok (universe_ne hU) e2 a.sym hsym] at hg
  have hs := ok_inj hg
  obtain ⟨c1, c2, c3⟩ := hroom
  have hsome : a.mem.block.isSome = true := by
    cases hb : a.mem.block with
    | none => exact absurd hb c3
    | some p => rfl
  rw [hsome] at hr e7
  rw [← hs] at c2
  obtain ⟨k, f1, f2⟩ := spec_room c1 c2
  rw [hs] at f2
  refine ⟨U, hU, strs2, ptrs2, k, e6, hr.trans f1, ?_, e8, e9⟩
  obtain ⟨rest, hrest⟩ := e7
  rw [← hrest]
  rw [List.getElem?_append_left]
  · exact f2
  · rcases Nat.lt_or_ge k (Strings.append strs1 a.sym a.ucs4 true).1.length with hl | hl
    · exact hl
    · rw [List.getElem?_eq_none hl] at f2; cases f2

theorem lt_of_getElem? {α : Type} {l : List α} {k : Nat} {x : α} (h : l[k]? = some x) : k < l.length := by
  rcases Nat.lt_or_ge k l.length with hl | hl
  · exact hl
  · rw [List.getElem?_eq_none hl] at h; cases h

/-- **C06 is false, always**: whatever happened before and after, the symbol returned by a
successful append never decomposes to the right string. The first index entry is a dummy, but the first
id is that of the second entry. -/
theorem C06_false_always {mem : Bool} {t0 : SymTab} {h1 h2 : List Call} {a : Call} {ta ta' tb : SymTab}
    {rs1 rs2 : List Nat} {r : Nat} {s : List Nat} (hn : SymTab.new mem = .ok (some t0)) (hf : Fits (h1 ++ a :: h2))
    (hr1 : run t0 h1 = .ok (ta, rs1)) (hg : ta.get a.sym = .ok s) (hroom : Room s a)
    (ha : ta.append a.sym a.ucs4 a.mem = .ok (ta', r)) (hr2 : run ta' h2 = .ok (tb, rs2)) :
    ∃ s', tb.get r = .ok s' ∧ s' ≠ s ++ [a.ucs4] := by
  obtain ⟨U, hU, strs, ptrs, k, e1, e2, e3, e4, _⟩ := behind hn hf hr1 hg hroom ha hr2
  have hlt := lt_of_getElem? e3
  have hb : (3 * 2 ^ 28 : Nat) = 805306368 := by decide
  have hcount := hf.count
  rw [List.length_append, List.length_cons] at hcount
  refine ⟨_, get_ok (universe_ne hU) e1 r (by rw [e2]; unfold idOf; omega), ?_⟩
  rw [e2]
  unfold denotes idOf
  rw [if_neg (by omega), if_neg (by omega), show 0x80000002 + k - 0x80000001 = k + 1 by omega]
  cases hk : strs[k + 1]? with
  | none =>
    show [0] ≠ _
    intro hx
    have := (e1.good.long _ (List.mem_of_getElem? e3)).1
    rw [← hx] at this
    exact absurd this (by decide)
  | some s' =>
    show s' ≠ _
    rintro rfl
    have i1 := getElem?_inj_of_nodup e1.good.nodup e3
    have i2 := getElem?_inj_of_nodup e1.good.nodup hk
    omega

/-- C06 (part): the symbol before the returned one decomposes to the original characters followed by the
appended one, then and later. Missing: the returned symbol itself, which does not. -/
theorem C06_before_partial {mem : Bool} {t0 : SymTab} {h1 h2 : List Call} {a : Call} {ta ta' tb : SymTab}
    {rs1 rs2 : List Nat} {r : Nat} {s : List Nat} (hn : SymTab.new mem = .ok (some t0)) (hf : Fits (h1 ++ a :: h2))
    (hr1 : run t0 h1 = .ok (ta, rs1)) (hg : ta.get a.sym = .ok s) (hroom : Room s a)
    (ha : ta.append a.sym a.ucs4 a.mem = .ok (ta', r)) (hr2 : run ta' h2 = .ok (tb, rs2)) :
    0x80000002 ≤ r ∧ tb.get (r - 1) = .ok (s ++ [a.ucs4]) := by
  obtain ⟨U, hU, strs, ptrs, k, e1, e2, e3, e4, _⟩ := behind hn hf hr1 hg hroom ha hr2
  have hlt := lt_of_getElem? e3
  have hb : (3 * 2 ^ 28 : Nat) = 805306368 := by decide
  have hcount := hf.count
  rw [List.length_append, List.length_cons] at hcount
  rw [e2]
  refine ⟨by unfold idOf; omega, ?_⟩
  rw [get_ok (universe_ne hU) e1 _ (by unfold idOf; omega)]
  unfold denotes idOf
  rw [if_neg (by omega), if_neg (by omega), show 0x80000002 + k - 1 - 0x80000001 = k by omega, e3]
  rfl

/-! ### C07 -/

/-- C07 (part): every history runs without memory errors, and later every 32-bit number decomposes to
between one and ten characters. Missing: histories in which growing the hash table or the index
fails (`C07_false_nomem`). -/
theorem C07_length_partial {mem : Bool} {t0 : SymTab} {h : List Call} (hn : SymTab.new mem = .ok (some t0))
    (hf : Fits h) : ∃ t rs, run t0 h = .ok (t, rs) ∧ ∀ sym, sym < 2 ^ 32 → ∃ s, t.get sym = .ok s ∧
      1 ≤ s.length ∧ s.length ≤ 10 ∧ ∀ c, c ∈ s → c ≤ 0x7fffffff := by
  have hU := Htable.universe_of hf.apart
  obtain ⟨t, rs, strs, ptrs, e1, e2, _⟩ := run_rel hU h (new_ok _ hn) hf.sym hf.table hf.index
    (by intro p hp; exact ⟨hp, by simp⟩) hf.nodup (by show 0 + _ ≤ _; have := hf.count; omega)
  refine ⟨t, rs, e1, ?_⟩
  intro sym hs
  obtain ⟨l1, l2⟩ := denotes_ne e2.good sym
  exact ⟨_, get_ok (universe_ne hU) e2 sym hs, l1, l2, denotes_chars e2.good sym⟩

/-- **C05** for symbols: after any history, the width of every symbol is the width of the first of its characters. -/
theorem C05_symbol {mem : Bool} {t0 : SymTab} {h : List Call} (hn : SymTab.new mem = .ok (some t0)) (hf : Fits h) :
    ∃ t rs, run t0 h = .ok (t, rs) ∧ ∀ sym, sym < 2 ^ 32 → ∃ c s, t.get sym = .ok (c :: s) ∧
      t.getWidth sym = .ok (Spec.Wcwidth.width c) := by
  obtain ⟨t, rs, e, H⟩ := C07_length_partial hn hf
  refine ⟨t, rs, e, fun sym hs => ?_⟩
  obtain ⟨s, hg, hl, _, hc⟩ := H sym hs
  cases s with
  | nil => cases hl
  | cons c s =>
    refine ⟨c, s, hg, ?_⟩
    unfold SymTab.getWidth
    rw [hg]
    exact Wcwidth.C05_width_spec c (by have := hc c List.mem_cons_self; omega)

/-- A wide character with an accent is wide. (Because of the wrong index, C06, it is found at the symbol before.) -/
example : (match SymTab.new true with
    | .ok (some t) =>
      (match t.append 0x4e2d 0x301 ⟨some 4096, true, true⟩ with
      | .ok (t, r) => decide (t.getWidth (r - 1) = .ok 2 ∧ t.get (r - 1) = .ok [0x4e2d, 0x301])
      | .error _ => false)
    | _ => false) = true := by decide +kernel

theorem fits_left {h1 : List Call} {a : Call} {h2 : List Call} {b : Call} (hf : Fits (h1 ++ a :: h2 ++ [b])) :
    Fits (h1 ++ a :: h2) := by
  have hsub : ∀ p, p ∈ addresses (h1 ++ a :: h2) → p ∈ addresses (h1 ++ a :: h2 ++ [b]) := by
    intro p hp
    rw [addresses_append]; exact List.mem_append_left _ hp
  have hnd := hf.nodup
  rw [addresses_append, List.nodup_append] at hnd
  have hcount := hf.count
  rw [List.length_append] at hcount
  exact ⟨fun c hc => hf.sym c (List.mem_append_left _ hc), fun c hc => hf.table c (List.mem_append_left _ hc),
    fun c hc => hf.index c (List.mem_append_left _ hc),
    ⟨fun p hp => hf.apart.big p (hsub p hp), fun p q hp hq => hf.apart.apart p q (hsub p hp) (hsub q hq)⟩,
    hnd.1, by omega⟩

/-- Both appends of a history, in the list of strings. -/
theorem two {mem : Bool} {t0 : SymTab} {h1 h2 : List Call} {a b : Call} {ta ta' tb tb' : SymTab}
    {rs1 rs2 : List Nat} {r q : Nat} {s s' : List Nat} (hn : SymTab.new mem = .ok (some t0))
    (hf : Fits (h1 ++ a :: h2 ++ [b])) (hr1 : run t0 h1 = .ok (ta, rs1)) (hg : ta.get a.sym = .ok s)
    (hroom : Room s a) (ha : ta.append a.sym a.ucs4 a.mem = .ok (ta', r)) (hr2 : run ta' h2 = .ok (tb, rs2))
    (hg' : tb.get b.sym = .ok s') (hb : tb.append b.sym b.ucs4 b.mem = .ok (tb', q)) :
    ∃ strs k, Good strs ∧ r = idOf k ∧ strs[k]? = some (s ++ [a.ucs4]) ∧ s' = denotes strs b.sym ∧
      q = (Strings.append strs b.sym b.ucs4 b.mem.block.isSome).2 := by
  obtain ⟨U, hU, strs, ptrs, k, e1, e2, e3, e4, e5⟩ := behind hn (fits_left hf) hr1 hg hroom ha hr2
  have hbm : b ∈ h1 ++ a :: h2 ++ [b] := by simp
  rw [get_ok (universe_ne hU) e1 b.sym (hf.sym b hbm)] at hg'
  refine ⟨strs, k, e1.good, e2, e3, (ok_inj hg').symm, ?_⟩
  have hnd := hf.nodup
  rw [addresses_append, List.nodup_append] at hnd
  -- the second call in the larger set of addresses
  have hU' := Htable.universe_of hf.apart
  have hcount := hf.count
  rw [List.length_append, List.length_append, List.length_cons, List.length_singleton] at hcount
  obtain ⟨t1, rs, strs', ptrs', g1, g2, g3, g4, g5⟩ := run_rel hU' (h1 ++ a :: h2) (new_ok _ hn)
    (fun c hc => hf.sym c (List.mem_append_left _ hc)) (fun c hc => hf.table c (List.mem_append_left _ hc))
    (fun c hc => hf.index c (List.mem_append_left _ hc))
    (by
      intro p hp
      refine ⟨?_, by simp⟩
      show p ∈ addresses _
      rw [addresses_append]; exact List.mem_append_left _ hp)
    hnd.1 (by rw [List.length_append, List.length_cons]; show 0 + _ ≤ _; omega)
  have hrun : ∀ (cs ds : List Call) (t : SymTab), run t (cs ++ ds) = (run t cs >>= fun x => run x.1 ds >>= fun y =>
      pure (y.1, x.2 ++ y.2)) := by
    intro cs
    induction cs with
    | nil =>
      intro ds t
      show run t ds = (run t ds >>= fun y => pure (y.1, [] ++ y.2))
      cases run t ds with
      | error e => rfl
      | ok y => rfl
    | cons c cs ih =>
      intro ds t
      show (t.append c.sym c.ucs4 c.mem >>= fun x => run x.1 (cs ++ ds) >>= fun y => pure (y.1, x.2 :: y.2)) =
        ((t.append c.sym c.ucs4 c.mem >>= fun x => run x.1 cs >>= fun y => pure (y.1, x.2 :: y.2)) >>= _)
      cases t.append c.sym c.ucs4 c.mem with
      | error e => rfl
      | ok x =>
        show (run x.1 (cs ++ ds) >>= _) = ((run x.1 cs >>= _) >>= _)
        rw [ih ds x.1]
        cases run x.1 cs with
        | error e => rfl
        | ok y =>
          show ((run y.1 ds >>= _) >>= _) = (run y.1 ds >>= _)
          cases run y.1 ds with
          | error e => rfl
          | ok z => rfl
  rw [hrun, hr1] at g1
  change (run ta (a :: h2) >>= _) = _ at g1
  have hra : run ta (a :: h2) = .ok (tb, r :: rs2) := by
    show (ta.append a.sym a.ucs4 a.mem >>= _) = _
    rw [ha]
    show (run ta' h2 >>= _) = _
    rw [hr2]
    rfl
  rw [hra] at g1
  obtain ⟨rfl, _⟩ := Prod.mk.inj (ok_inj g1)
  obtain ⟨tb1, ptrs1, i1, i2, _⟩ := append_rel hU' g2 (hf.sym b hbm) (hf.table b hbm) (hf.index b hbm)
    (by
      intro p hp
      refine ⟨?_, ?_⟩
      · show p ∈ addresses _
        rw [addresses_append]; exact List.mem_append_right _ hp
      · intro hx
        rcases g5 p hx with hy | hy
        · cases hy
        · exact hnd.2.2 p hy p hp rfl)
    (by
      have : strs'.length ≤ 0 + (h1 ++ a :: h2).length := g4
      rw [List.length_append, List.length_cons] at this
      omega)
  rw [hb] at i1
  have hq := (Prod.mk.inj (ok_inj i1)).2
  -- both lists of strings are read from the index
  have hse : strs' = strs := by
    have hl : strs'.length = strs.length := by
      have a1 := e1.nextId
      have a2 : tb.nextId = 0x80000001 + strs'.length := g2.nextId
      omega
    apply List.ext_getElem? 
    intro j
    rcases Nat.lt_or_ge j strs.length with hj | hj
    · have hcl := e4
      have hb3 : (3 * 2 ^ 28 : Nat) = 805306368 := by decide
      have b1 := get_ok (universe_ne hU) e1 (0x80000001 + j) (by omega)
      have b2 := get_ok (universe_ne hU') g2 (0x80000001 + j) (by omega)
      rw [b1] at b2
      have b3 := ok_inj b2
      unfold denotes at b3
      rw [if_neg (by omega), if_neg (by omega), if_neg (by omega), if_neg (by omega),
        show 0x80000001 + j - 0x80000001 = j by omega, List.getElem?_eq_getElem hj,
        List.getElem?_eq_getElem (show j < strs'.length by omega)] at b3
      rw [List.getElem?_eq_getElem hj, List.getElem?_eq_getElem (show j < strs'.length by omega)]
      exact congrArg some b3.symm
    · rw [List.getElem?_eq_none hj, List.getElem?_eq_none (by omega)]
  rw [hq, hse]

/-- C07 (part): appending the same character to symbols denoting the same string returns the same
symbol, whatever happens in between, and even without memory the second time. Missing:
histories in which growing the hash table or the index fails. -/
theorem C07_same_partial {mem : Bool} {t0 : SymTab} {h1 h2 : List Call} {a b : Call} {ta ta' tb tb' : SymTab}
    {rs1 rs2 : List Nat} {r q : Nat} {s : List Nat} (hn : SymTab.new mem = .ok (some t0))
    (hf : Fits (h1 ++ a :: h2 ++ [b])) (hr1 : run t0 h1 = .ok (ta, rs1)) (hg : ta.get a.sym = .ok s)
    (hroom : Room s a) (ha : ta.append a.sym a.ucs4 a.mem = .ok (ta', r)) (hr2 : run ta' h2 = .ok (tb, rs2))
    (hg' : tb.get b.sym = .ok s) (hc : b.ucs4 = a.ucs4) (hb : tb.append b.sym b.ucs4 b.mem = .ok (tb', q)) :
    q = r := by
  obtain ⟨strs, k, e1, e2, e3, e4, e5⟩ := two hn hf hr1 hg hroom ha hr2 hg' hb
  rw [e5, e2, hc]
  unfold Strings.append
  obtain ⟨c1, c2, _⟩ := hroom
  rw [← e4, if_neg (by omega)]
  dsimp only
  rw [if_pos (List.mem_of_getElem? e3), getElem?_inj_of_nodup e1.nodup e3]

/-- C07 (part): symbols of different strings differ. Missing: as before. -/
theorem C07_differ_partial {mem : Bool} {t0 : SymTab} {h1 h2 : List Call} {a b : Call} {ta ta' tb tb' : SymTab}
    {rs1 rs2 : List Nat} {r q : Nat} {s s' : List Nat} (hn : SymTab.new mem = .ok (some t0))
    (hf : Fits (h1 ++ a :: h2 ++ [b])) (hr1 : run t0 h1 = .ok (ta, rs1)) (hg : ta.get a.sym = .ok s)
    (hroom : Room s a) (ha : ta.append a.sym a.ucs4 a.mem = .ok (ta', r)) (hr2 : run ta' h2 = .ok (tb, rs2))
    (hg' : tb.get b.sym = .ok s') (hroom' : Room s' b) (hb : tb.append b.sym b.ucs4 b.mem = .ok (tb', q))
    (hd : s ++ [a.ucs4] ≠ s' ++ [b.ucs4]) : q ≠ r := by
  obtain ⟨strs, k, e1, e2, e3, e4, e5⟩ := two hn hf hr1 hg hroom ha hr2 hg' hb
  obtain ⟨c1, c2, c3⟩ := hroom'
  have hsome : b.mem.block.isSome = true := by
    cases hx : b.mem.block with
    | none => exact absurd hx c3
    | some p => rfl
  rw [hsome] at e5
  rw [e4] at c2 hd
  obtain ⟨j, f1, f2⟩ := spec_room c1 c2
  obtain ⟨f3, _⟩ := spec_prefix strs b.sym b.ucs4 true
  rw [e5, f1, e2]
  intro hx
  have hjk : j = k := by unfold idOf at hx; omega
  obtain ⟨rest, hrest⟩ := f3
  rw [← hrest, hjk, List.getElem?_append_left (lt_of_getElem? e3), e3] at f2
  injection f2 with f2
  exact hd f2

/-! ### Examples and negations -/

/-- An accent, with memory. -/
def acute : Call := { sym := 0x61, ucs4 := 0x301, mem := ⟨some 0x5555557a02a4, true, true⟩ }

/-- Another accent, with memory. -/
def grave : Call := { sym := 0x61, ucs4 := 0x300, mem := ⟨some 0x5555557a02c4, true, true⟩ }

/-- The first accent again, without memory. -/
def again : Call := { sym := 0x61, ucs4 := 0x301, mem := ⟨none, true, true⟩ }

theorem fits_example : Fits ([] ++ acute :: [grave] ++ [again]) := by
  have hst := Htable.storable_same_top 46 (by decide)
  have key : ∀ p : Word, p ∈ addresses ([] ++ acute :: [grave] ++ [again]) →
      2 ^ 46 ≤ p.toNat ∧ p.toNat < 2 ^ 47 := by
    have : addresses ([] ++ acute :: [grave] ++ [again]) = [0x5555557a02a4, 0x5555557a02c4] := rfl
    rw [this]
    intro p hp
    simp only [List.mem_cons, List.not_mem_nil, or_false] at hp
    rcases hp with rfl | rfl <;> decide +kernel
  refine ⟨?_, ?_, ?_, ⟨fun p hp => hst.big p (key p hp), fun p q hp hq => hst.apart p q (key p hp) (key q hq)⟩,
    by decide, by decide⟩
  all_goals
    intro c hc
    simp only [List.nil_append, List.cons_append, List.mem_cons, List.not_mem_nil, or_false] at hc
    rcases hc with rfl | rfl | rfl <;> decide

/-- The hypotheses are met: 'a' with an acute, then 'a' with a grave, then 'a' with an acute again. -/
example : ∃ t0 ta' tb tb' rs2 r, SymTab.new true = .ok (some t0) ∧ t0.get acute.sym = .ok [0x61] ∧ Room [0x61] acute ∧
    t0.append acute.sym acute.ucs4 acute.mem = .ok (ta', r) ∧ run ta' [grave] = .ok (tb, rs2) ∧
    tb.get again.sym = .ok [0x61] ∧ tb.append again.sym again.ucs4 again.mem = .ok (tb', r) := by
  have h0 : ∃ t0, SymTab.new true = .ok (some t0) := ⟨_, rfl⟩
  obtain ⟨t0, h0⟩ := h0
  have hroom : Room [0x61] acute := by unfold Room; decide
  obtain ⟨U, hU, ta1, rs1', strs1, ptrs1, e1, e2, ta', ptrs1', e3, e4, tb, rs2, strs2, ptrs2, e5, e6, e7, e8, e9⟩ :=
    split_rel h0 (fits_left fits_example)
  obtain ⟨rfl, rfl⟩ := Prod.mk.inj (ok_inj e1)
  obtain ⟨t, rs, hrun, -⟩ := C07_length_partial h0 fits_example
  have hg : t0.get acute.sym = .ok [0x61] := get_ok (universe_ne hU) e2 _ (by decide)
  have hg' : tb.get again.sym = .ok [0x61] := get_ok (universe_ne hU) e6 _ (by decide)
  have hb : ∃ tb' q, tb.append again.sym again.ucs4 again.mem = .ok (tb', q) := by
    change (t0.append acute.sym acute.ucs4 acute.mem >>= fun x => _) = _ at hrun
    rw [e3] at hrun
    change ((run ta' [grave, again]) >>= _) = _ at hrun
    change ((ta'.append grave.sym grave.ucs4 grave.mem >>= fun x => (x.1.append again.sym again.ucs4 again.mem >>= fun y =>
      .ok (y.1, [y.2])) >>= fun y => pure (y.1, x.2 :: y.2)) >>= _) = _ at hrun
    change (ta'.append grave.sym grave.ucs4 grave.mem >>= fun x => .ok (x.1, [x.2])) = _ at e5
    cases hgr : ta'.append grave.sym grave.ucs4 grave.mem with
    | error e => rw [hgr] at e5; cases e5
    | ok x =>
      rw [hgr] at e5 hrun
      have hx : x.1 = tb := (Prod.mk.inj (ok_inj e5)).1
      change (((x.1.append again.sym again.ucs4 again.mem >>= _) >>= _) >>= _) = _ at hrun
      rw [hx] at hrun
      cases hag : tb.append again.sym again.ucs4 again.mem with
      | error e => rw [hag] at hrun; cases hrun
      | ok y => exact ⟨y.1, y.2, rfl⟩
  obtain ⟨tb', q, hb⟩ := hb
  have hq := C07_same_partial h0 fits_example rfl hg hroom e3 e5 hg' rfl hb
  rw [hq] at hb
  exact ⟨t0, ta', tb, tb', rs2, _, h0, hg, hroom, e3, e5, hg', hb⟩

/-- **C06 is false**: the first combined symbol decomposes to the default character. -/
theorem C06_false : ¬ C06_claim := by
  intro h
  have h0 : ∃ t0, SymTab.new true = .ok (some t0) := ⟨_, rfl⟩
  obtain ⟨t0, h0⟩ := h0
  have hf : Fits ([] ++ acute :: [grave]) := fits_left fits_example
  have hroom : Room [0x61] acute := by unfold Room; decide
  obtain ⟨U, hU, ta1, rs1', strs1, ptrs1, e1, e2, ta', ptrs1', e3, e4, tb, rs2, strs2, ptrs2, e5, e6, e7, e8, e9⟩ :=
    split_rel h0 hf
  obtain ⟨rfl, rfl⟩ := Prod.mk.inj (ok_inj e1)
  have hg : t0.get acute.sym = .ok [0x61] := get_ok (universe_ne hU) e2 _ (by decide)
  obtain ⟨s', f1, f2⟩ := C06_false_always h0 hf rfl hg hroom e3 e5
  have := h true t0 [] [grave] acute t0 ta' tb [] rs2 _ [0x61] h0 hf rfl hg hroom e3 e5
  rw [f1] at this
  exact f2 (ok_inj this)

/-- **C07 is false with failing allocations**: if the hash table cannot grow, the incremented pointer is
passed to `free`. -/
theorem C07_false_nomem : ∃ t0, SymTab.new true = .ok (some t0) ∧
    t0.append 0x61 0x301 ⟨some 0x5555557a02a4, false, true⟩ = .error .badFree := by
  refine ⟨{ nextId := 0x80000001, ht := HT.init, blocks := [], index :=
        { elementSize := 8, length := 1, size := 4, data := [some 0, none, none, none] } }, by decide +kernel, ?_⟩
  decide +kernel

end Verif.Props.Symbol
