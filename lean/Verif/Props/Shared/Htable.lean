import Verif.Proofs.Shared.HtableInv
import Verif.Spec.Table

/-!
# The hash table is a bag of pointers

C64: lookup finds an element iff an equal one was inserted and not removed, for every
history, hash function and set of pointers that can be stored together.
-/

namespace Verif.Props.Htable

open Verif Verif.HT Verif.Bag

/-- One call of the code. -/
def step (hash : Word → Word) (t : HT) : Op → R (HT × Out)
  | .insert p mem => do let (t, b) ← t.insert hash p mem; pure (t, .done b)
  | .lookup cmp h => do let c ← t.lookup cmp h; pure (t, .found c)
  | .remove cmp h => do let (t, c) ← t.remove cmp h; pure (t, .found c)
  | .visit => .ok (t, .all t.visit)
  | .clear => .ok (t.clear, .all t.visit)

/-- A history of calls. -/
def run (hash : Word → Word) (t : HT) : List Op → R (HT × List Out)
  | [] => .ok (t, [])
  | op :: ops => do
    let (t, o) ← step hash t op
    let (t, os) ← run hash t ops
    pure (t, o :: os)

theorem bind_ok {α β : Type} {x : R α} {f : α → R β} {a : α} {r : R β} (h : x = .ok a) (g : f a = r) :
    (x >>= f) = r := by rw [h]; exact g

theorem topBit_above (p : Word) (i : Nat) : ∀ j, topBit p i < j → j ≤ i → p.getLsbD j = false := by
  induction i with
  | zero => intro j h1 h2; omega
  | succ i ih =>
    intro j h1 h2
    unfold topBit at h1
    rcases Bool.eq_false_or_eq_true (p.getLsbD (i + 1)) with h | h
    · rw [if_pos h] at h1; omega
    · rw [if_neg (by rw [h]; simp)] at h1
      rcases Nat.lt_or_ge j (i + 1) with h3 | h3
      · exact ih j h1 (by omega)
      · rw [show j = i + 1 by omega]; exact h

theorem topBit_log2 {p : Word} (h : 1 < p.toNat) : topBit p 63 = p.toNat.log2 := by
  obtain ⟨_, h2⟩ := topBit_set h
  have h3 : 2 ^ topBit p 63 ≤ p.toNat := Nat.ge_two_pow_of_testBit h2
  have h4 : topBit p 63 ≤ p.toNat.log2 := (Nat.le_log2 (by omega)).mpr h3
  have h5 : p.toNat.log2 < 64 := (Nat.log2_lt (by omega)).mpr p.isLt
  rcases Nat.eq_or_lt_of_le h4 with h6 | h6
  · exact h6
  · have h7 := topBit_above p 63 _ h6 (by omega)
    have h8 : p.toNat.testBit p.toNat.log2 = true := Nat.testBit_log2 (by omega)
    rw [show p.getLsbD p.toNat.log2 = p.toNat.testBit p.toNat.log2 from rfl, h8] at h7
    cases h7

theorem universe_of {U : Word → Prop} (h : Storable U) : Universe U := by
  refine ⟨h.big, ?_⟩
  intro p q hp hq
  unfold Apart
  rw [topBit_log2 (h.big p hp)]
  exact h.apart p q hp hq

/-- All pointers between two powers of two can be stored together, as those of the
upper half of a 47-bit address space. -/
theorem storable_same_top (k : Nat) (hk : 1 ≤ k) :
    Storable (fun p => 2 ^ k ≤ p.toNat ∧ p.toNat < 2 ^ (k + 1)) := by
  have h2 : 2 ^ 1 ≤ 2 ^ k := Nat.pow_le_pow_right (by decide) hk
  have key : ∀ n : Nat, 2 ^ k ≤ n → n < 2 ^ (k + 1) → n.log2 = k := by
    intro n h3 h4
    have h5 := (Nat.le_log2 (by omega)).mpr h3
    have h6 := (Nat.log2_lt (n := n) (by omega)).mpr h4
    omega
  refine ⟨fun p hp => by have := hp.1; omega, ?_⟩
  intro p q hp hq
  left
  rw [key _ hp.1 hp.2, ← key _ hq.1 hq.2]
  exact Nat.testBit_log2 (by have := hq.1; omega)

theorem step_bag {U : Word → Prop} (hU : Universe U) {hash : Word → Word} {t : HT} (hi : HT.Inv U hash t)
    (op : Op) (hop : Fits U hash op) (hn : t.elems + inserts [op] ≤ 3 * 2 ^ 28)
    {M : List Word} (hM : List.Perm M t.ptrs) :
    ∃ u o, step hash t op = .ok (u, o) ∧ HT.Inv U hash u ∧ Step M op o u.ptrs ∧
      u.elems ≤ t.elems + inserts [op] := by
  have hUmem : ∀ q, q ∈ t.ptrs → U q := by
    intro q hq
    rcases hi with rfl | hi
    · cases hq
    · obtain ⟨k, e, h1, h2, h3⟩ := mem_ptrs hq
      rw [← h3]; exact (hi.tab.entries k e h1 h2).ptr
  have conv : ∀ {cmp : Word → Bool} {h : Word}, (∀ q, U q → cmp q = true → hash q = h) →
      (∀ q, q ∈ t.ptrs → hash q = h → cmp q = false) → ∀ q, q ∈ M → cmp q = false := by
    intro cmp h h1 h2 q hq
    have hq' := (hM.mem_iff).mp hq
    rcases Bool.eq_false_or_eq_true (cmp q) with hb | hb
    · exact h2 q hq' (h1 q (hUmem q hq') hb)
    · exact hb
  cases op with
  | insert p mem =>
    rcases insert_ok hU hi hn hop mem with ⟨u, h1, h2, h3, h4⟩ | ⟨h1, h2⟩
    · refine ⟨u, .done true, ?_, h2, Or.inl ⟨rfl, h3.trans (List.Perm.cons p hM.symm)⟩, by rw [h4]; exact Nat.le_refl _⟩
      show (t.insert hash p mem >>= _) = _
      rw [h1]; rfl
    · refine ⟨t, .done false, ?_, hi, Or.inr ⟨rfl, h1, hM.symm⟩, Nat.le_add_right _ _⟩
      show (t.insert hash p mem >>= _) = _
      rw [h2]; rfl
  | lookup cmp h =>
    rcases lookup_ok hi cmp h with ⟨h1, h2⟩ | ⟨c, h1, h2, h3⟩
    · refine ⟨t, .found none, ?_, hi, ⟨hM.symm, Or.inl ⟨rfl, conv hop h2⟩⟩, Nat.le_add_right _ _⟩
      show (t.lookup cmp h >>= _) = _
      rw [h1]; rfl
    · refine ⟨t, .found (some c), ?_, hi, ⟨hM.symm, Or.inr ⟨c, rfl, hM.mem_iff.mpr h2, h3⟩⟩, Nat.le_add_right _ _⟩
      show (t.lookup cmp h >>= _) = _
      rw [h1]; rfl
  | remove cmp h =>
    rcases remove_ok hi cmp h with ⟨h1, h2⟩ | ⟨u, c, h1, h2, h3, h4, h5⟩
    · refine ⟨t, .found none, ?_, hi, Or.inl ⟨rfl, hM.symm, conv hop h2⟩, Nat.le_add_right _ _⟩
      show (t.remove cmp h >>= _) = _
      rw [h1]; rfl
    · refine ⟨u, .found (some c), ?_, h2, Or.inr ⟨c, rfl, h4, hM.trans h3⟩, by show _ ≤ t.elems + 0; omega⟩
      show (t.remove cmp h >>= _) = _
      rw [h1]; rfl
  | visit =>
    refine ⟨t, .all t.visit, rfl, hi, ⟨_, rfl, ?_, hM.symm⟩, Nat.le_add_right _ _⟩
    rw [visit_eq hi]; exact hM.symm
  | clear =>
    refine ⟨t.clear, .all t.visit, rfl, Or.inl rfl, ⟨_, rfl, ?_, rfl⟩, Nat.zero_le _⟩
    rw [visit_eq hi]; exact hM.symm

theorem inserts_cons (op : Op) (ops : List Op) : inserts (op :: ops) = inserts [op] + inserts ops := by
  cases op <;> simp [inserts, Nat.add_comm]

theorem run_bag {U : Word → Prop} (hU : Universe U) {hash : Word → Word} (ops : List Op) :
    ∀ (t : HT) (M : List Word), HT.Inv U hash t → (∀ op, op ∈ ops → Fits U hash op) →
    t.elems + inserts ops ≤ 3 * 2 ^ 28 → List.Perm M t.ptrs →
    ∃ u os, run hash t ops = .ok (u, os) ∧ Runs M ops os := by
  induction ops with
  | nil => intro t M _ _ _ _; exact ⟨t, [], rfl, trivial⟩
  | cons op ops ih =>
    intro t M hi hf hn hM
    rw [inserts_cons] at hn
    obtain ⟨u, o, h1, h2, h3, h4⟩ := step_bag hU hi op (hf op List.mem_cons_self) (by omega) hM
    obtain ⟨w, os, g1, g2⟩ := ih u u.ptrs h2 (fun op' h' => hf op' (List.mem_cons_of_mem _ h')) (by omega)
      (List.Perm.refl _)
    refine ⟨w, o :: os, ?_, u.ptrs, h3, g2⟩
    show (step hash t op >>= _) = _
    rw [h1]
    show (run hash u ops >>= _) = _
    rw [g1]
    rfl

/-- C64 (part): for every history with at most 3·2^28 inserts of pointers that can be stored
together, every hash function and every pattern of failing allocations, no memory error and no endless
loop happens, and the answers are those of a bag: a failed insert changes nothing and
happens only without memory; a lookup or remove finds an element that compares equal iff there is one;
visit and clear report every element as often as it is stored.
Missing: pointers that cannot be stored together (`C64_false`), and more elements. -/
theorem C64_bag_partial (U : Word → Prop) (hU : Storable U) (hash : Word → Word) (ops : List Op)
    (hf : ∀ op, op ∈ ops → Fits U hash op) (hn : inserts ops ≤ 3 * 2 ^ 28) :
    ∃ t os, run hash HT.init ops = .ok (t, os) ∧ Runs [] ops os :=
  run_bag (universe_of hU) ops HT.init [] (Or.inl rfl) hf (by show 0 + _ ≤ _; omega) (List.Perm.refl _)

/-- The same for tables of `unsigned long` keys (src/shared/shl-htable.h:118-137), where `key p` is what
`p` points to. -/
theorem C64_ulong_partial (U : Word → Prop) (hU : Storable U) (key : Word → Word)
    (ops : List Op) (hf : ∀ op, op ∈ ops → match op with
      | .insert p _ => U p
      | .lookup cmp h | .remove cmp h => cmp = fun q => decide (h = key q)
      | _ => True) (hn : inserts ops ≤ 3 * 2 ^ 28) :
    ∃ t os, run key HT.init ops = .ok (t, os) ∧ Runs [] ops os := by
  refine C64_bag_partial U hU key ops ?_ hn
  intro op hop
  have h := hf op hop
  cases op with
  | insert p mem => exact h
  | lookup cmp h' =>
    intro q _ hq
    rw [h] at hq
    exact (of_decide_eq_true hq).symm
  | remove cmp h' =>
    intro q _ hq
    rw [h] at hq
    exact (of_decide_eq_true hq).symm
  | visit => trivial
  | clear => trivial

/-- The hypotheses are met by pointers of the heap with colliding hash values, with a removal, a
failing allocation and growth. -/
example : ∃ t os, run (fun _ => 7) HT.init
    [.insert 0x5555557a02a0 true, .insert 0x5555557a02c0 true, .insert 0x7ffff7a01010 true,
     .remove (fun q => q == 0x5555557a02c0) 7, .insert 0x5555557a02f0 true, .insert 0x5555557b02f0 false,
     .lookup (fun q => q == 0x7ffff7a01010) 7, .visit] = .ok (t, os) ∧
    Runs [] [.insert 0x5555557a02a0 true, .insert 0x5555557a02c0 true, .insert 0x7ffff7a01010 true,
     .remove (fun q => q == 0x5555557a02c0) 7, .insert 0x5555557a02f0 true, .insert 0x5555557b02f0 false,
     .lookup (fun q => q == 0x7ffff7a01010) 7, .visit] os := by
  refine C64_bag_partial _ (storable_same_top 46 (by decide)) _ _ ?_ (by decide)
  intro op hop
  simp only [List.mem_cons, List.not_mem_nil, or_false] at hop
  rcases hop with rfl | rfl | rfl | rfl | rfl | rfl | rfl | rfl
  · exact (by decide : (2 ^ 46 ≤ (0x5555557a02a0 : Word).toNat ∧ (0x5555557a02a0 : Word).toNat < 2 ^ 47))
  · exact (by decide : (2 ^ 46 ≤ (0x5555557a02c0 : Word).toNat ∧ (0x5555557a02c0 : Word).toNat < 2 ^ 47))
  · exact (by decide : (2 ^ 46 ≤ (0x7ffff7a01010 : Word).toNat ∧ (0x7ffff7a01010 : Word).toNat < 2 ^ 47))
  · intro q _ _; rfl
  · exact (by decide : (2 ^ 46 ≤ (0x5555557a02f0 : Word).toNat ∧ (0x5555557a02f0 : Word).toNat < 2 ^ 47))
  · exact (by decide : (2 ^ 46 ≤ (0x5555557b02f0 : Word).toNat ∧ (0x5555557b02f0 : Word).toNat < 2 ^ 47))
  · intro q _ _; rfl
  · trivial

/-- C64 is false for arbitrary pointers. After inserting a pointer of a mapping and one of the
data segment whose bits all are bits of the first, with hash value 0, the second is stored as the marker of
an empty slot: it is not found, and `visit` does not report it. -/
theorem C64_false : ∃ (p q : Word) (t : HT), p ≠ q ∧
    run (fun _ => 0) HT.init [.insert p true, .insert q true] = .ok (t, [.done true, .done true]) ∧
    t.lookup (fun c => c == q) 0 = .ok none ∧ t.visit = [p] := by
  refine ⟨0x7f0000601000, 0x601000,
    { bits := 2, elems := 2, deleted := 0, max := 3, maxWithDeleted := 3,
      commonMask := 0xffff80ffffffffff, commonBits := 0x601000, perfectBit := 1, heap := true,
      table := [0x7f0000000001, 0, 0, 0] }, by decide, ?_, by decide +kernel, by decide +kernel⟩
  have h1 : HT.insert (fun _ => 0) HT.init 0x7f0000601000 true = .ok
    ({ bits := 1, elems := 1, deleted := 0, max := 1, maxWithDeleted := 1,
       commonMask := 0xffffbfffffffffff, commonBits := 0x3f0000601000, perfectBit := 1, heap := true,
       table := [0x400000000001, 0] }, true) := by decide +kernel
  have h2 : HT.insert (fun _ => 0)
    ({ bits := 1, elems := 1, deleted := 0, max := 1, maxWithDeleted := 1,
       commonMask := 0xffffbfffffffffff, commonBits := 0x3f0000601000, perfectBit := 1, heap := true,
       table := [0x400000000001, 0] }) 0x601000 true = .ok
    ({ bits := 2, elems := 2, deleted := 0, max := 3, maxWithDeleted := 3,
       commonMask := 0xffff80ffffffffff, commonBits := 0x601000, perfectBit := 1, heap := true,
       table := [0x7f0000000001, 0, 0, 0] }, true) := by decide +kernel
  exact bind_ok (bind_ok h1 rfl) (bind_ok (bind_ok (bind_ok h2 rfl) rfl) rfl)

end Verif.Props.Htable
