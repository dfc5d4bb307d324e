import Verif.Proofs.Shared.HtableOps

/-!
# The calls of the hash table and its multiset of pointers
-/

namespace Verif.HT

open Verif

/-! ### `update_common` -/

theorem upd_enc {t : HT} {hash : Word → Word} {p q : Word} {f : Bool}
    (hp : Within t.perfectBit t.commonMask) (hc : q &&& t.commonMask = t.commonBits) (he : t.elems ≠ 0) :
    (t.enc hash q f &&& ~~~ (t.commonBits ^^^ (p &&& t.commonMask))) |||
      (t.commonBits &&& (t.commonBits ^^^ (p &&& t.commonMask))) = (t.updateCommon p).enc hash q f := by
  unfold updateCommon
  rw [if_neg he]
  unfold enc makeHval hashBits
  apply BitVec.eq_of_getLsbD_eq
  intro i hi
  have h2 := hp i
  have h1 := congrArg (fun w : Word => w.getLsbD i) hc
  simp only [BitVec.getLsbD_and] at h1
  dsimp only
  cases f
  · simp only [BitVec.getLsbD_and, BitVec.getLsbD_or, BitVec.getLsbD_not, BitVec.getLsbD_xor, hi, decide_true,
      Bool.true_and, Bool.false_eq_true, if_false, ← h1]
    generalize ((hash q ^^^ hash q >>> t.bits).getLsbD i) = hb
    simp only [BitVec.getLsbD_ushiftRight]
    cases t.commonMask.getLsbD i <;> cases q.getLsbD i <;> cases p.getLsbD i <;> cases t.perfectBit.getLsbD i <;>
      simp
  · simp only [BitVec.getLsbD_and, BitVec.getLsbD_or, BitVec.getLsbD_not, BitVec.getLsbD_xor, hi, decide_true,
      Bool.true_and, if_true, ← h1]
    cases hm : t.commonMask.getLsbD i <;> cases hpb : t.perfectBit.getLsbD i <;>
      cases q.getLsbD i <;> cases p.getLsbD i <;> simp_all

theorem upd_within {t : HT} {p : Word} (hp : Within t.perfectBit t.commonMask) (he : t.elems ≠ 0) :
    Within (t.updateCommon p).perfectBit (t.updateCommon p).commonMask := by
  unfold updateCommon
  rw [if_neg he]
  intro i hi
  dsimp only at hi ⊢
  rw [BitVec.getLsbD_and, Bool.and_eq_true] at hi ⊢
  exact ⟨hp i hi.1, hi.2⟩

theorem upd_common {t : HT} {p q : Word} (hc : q &&& t.commonMask = t.commonBits) (he : t.elems ≠ 0) :
    q &&& (t.updateCommon p).commonMask = (t.updateCommon p).commonBits := by
  unfold updateCommon
  rw [if_neg he]
  dsimp only
  rw [← BitVec.and_assoc, hc]

theorem upd_new {t : HT} {p q : Word} (hc : q &&& t.commonMask = t.commonBits) (he : t.elems ≠ 0) :
    p &&& (t.updateCommon p).commonMask = (t.updateCommon p).commonBits := by
  unfold updateCommon
  rw [if_neg he]
  dsimp only
  apply BitVec.eq_of_getLsbD_eq
  intro i hi
  have h1 := congrArg (fun w : Word => w.getLsbD i) hc
  simp only [BitVec.getLsbD_and] at h1
  simp only [BitVec.getLsbD_and, BitVec.getLsbD_not, BitVec.getLsbD_xor, hi, decide_true, Bool.true_and, ← h1]
  cases t.commonMask.getLsbD i <;> cases q.getLsbD i <;> cases p.getLsbD i <;> rfl

theorem upd_based {U : Word → Prop} {t : HT} {p : Word} (h : Based U t) (he : t.elems ≠ 0) :
    Based U (t.updateCommon p) := by
  obtain ⟨q, h1, h2, h3⟩ := h
  refine ⟨q, h1, upd_common h2 he, ?_⟩
  unfold updateCommon
  rw [if_neg he]
  dsimp only
  rw [BitVec.getLsbD_and, h3, Bool.false_and]

/-- What `update_common` leaves alone. -/
structure SameCount (t u : HT) : Prop where
  bits : u.bits = t.bits
  elems : u.elems = t.elems
  deleted : u.deleted = t.deleted
  max : u.max = t.max
  maxWithDeleted : u.maxWithDeleted = t.maxWithDeleted
  heap : u.heap = t.heap

theorem upd_count (t : HT) (p : Word) : SameCount t (t.updateCommon p) := by
  unfold updateCommon
  split <;> exact ⟨rfl, rfl, rfl, rfl, rfl, rfl⟩

theorem update_empty {U : Word → Prop} (hU : Universe U) {hash : Word → Word} {t : HT} (h : Tab U hash t)
    (h0 : t.elems = 0) (hn : t.ptrs = []) {p : Word} (hp : U p) :
    Tab U hash (t.updateCommon p) ∧ Based U (t.updateCommon p) ∧
      p &&& (t.updateCommon p).commonMask = (t.updateCommon p).commonBits ∧
      (t.updateCommon p).ptrs = t.ptrs ∧ nz (t.updateCommon p).table = nz t.table := by
  obtain ⟨ht1, ht2⟩ := topBit_set (hU.big p hp)
  have hnv : ∀ e, e ∈ t.table → valid e = false := by
    intro e he
    rcases Bool.eq_false_or_eq_true (valid e) with hv | hv
    · have : t.raw e ∈ t.ptrs := List.mem_map.mpr ⟨e, List.mem_filter.mpr ⟨he, hv⟩, rfl⟩
      rw [hn] at this
      cases this
    · exact hv
  unfold updateCommon
  rw [if_pos h0]
  dsimp only
  refine ⟨⟨h.heap, h.bits, h.len, ?_, ?_⟩, ⟨p, hp, rfl, ?_⟩, rfl, ?_, rfl⟩
  · intro i hi
    show (~~~ BitVec.twoPow 64 (topBit p 63)).getLsbD i = true
    change (1#64).getLsbD i = true at hi
    rw [BitVec.getLsbD_one] at hi
    simp only [Bool.and_eq_true, decide_eq_true_eq] at hi
    have h00 : i = 0 := by omega
    rw [BitVec.getLsbD_not, BitVec.getLsbD_twoPow]
    simp [h00]
    omega
  · intro k e hk hv
    rw [hnv e (List.mem_of_getElem? hk)] at hv; cases hv
  · show (~~~ BitVec.twoPow 64 (topBit p 63)).getLsbD (topBit p 63) = false
    rw [BitVec.getLsbD_not, BitVec.getLsbD_twoPow]
    simp
  · rw [hn]
    unfold ptrs
    show (t.table.filter valid).map _ = []
    rw [List.map_eq_nil_iff, List.filter_eq_nil_iff]
    intro e he
    rw [hnv e he]; simp

theorem update_full {U : Word → Prop} (hU : Universe U) {hash : Word → Word} {t : HT} (h : Tab U hash t)
    (h0 : t.elems ≠ 0) (hb : Based U t) {p : Word} :
    Tab U hash (t.updateCommon p) ∧ Based U (t.updateCommon p) ∧
      p &&& (t.updateCommon p).commonMask = (t.updateCommon p).commonBits ∧
      (t.updateCommon p).ptrs = t.ptrs ∧ nz (t.updateCommon p).table = nz t.table := by
  have hb' := upd_based (p := p) hb h0
  have hseen := based_seen hU hb'
  have hcnt := upd_count t p
  have htab : (t.updateCommon p).table = t.table.map fun e =>
      if valid e then (e &&& ~~~ (t.commonBits ^^^ (p &&& t.commonMask))) |||
        (t.commonBits &&& (t.commonBits ^^^ (p &&& t.commonMask))) else e := by
    unfold updateCommon; rw [if_neg h0]
  -- the new value of an entry
  have key : ∀ (k : Nat) (e : Word), t.table[k]? = some e → valid e = true → ∃ d,
      Chain (2 ^ t.bits) t.table (t.bucket (hash (t.raw e))) k d ∧
      (e &&& ~~~ (t.commonBits ^^^ (p &&& t.commonMask))) ||| (t.commonBits &&& (t.commonBits ^^^ (p &&& t.commonMask)))
        = (t.updateCommon p).enc hash (t.raw e) (decide (d = 0)) := by
    intro k e hk hv
    obtain ⟨_, e2, d, e3, e4⟩ := h.entries k e hk hv
    refine ⟨d, e3, ?_⟩
    rw [← upd_enc h.perfect e2 h0, ← e4]
  have hval : ∀ e, e ∈ t.table → valid (if valid e then (e &&& ~~~ (t.commonBits ^^^ (p &&& t.commonMask))) |||
        (t.commonBits &&& (t.commonBits ^^^ (p &&& t.commonMask))) else e) = valid e := by
    intro e he
    obtain ⟨k, hk⟩ := List.mem_iff_getElem?.mp he
    rcases Bool.eq_false_or_eq_true (valid e) with hv | hv
    · obtain ⟨e1, e2, _⟩ := h.entries k e hk hv
      obtain ⟨d, _, hd⟩ := key k e hk hv
      rw [if_pos hv, hd, hv]
      exact valid_enc' (hseen _ e1 (upd_common e2 h0))
    · rw [if_neg (by rw [hv]; simp)]
  have hraw : ∀ e, e ∈ t.table → valid e = true → (t.updateCommon p).raw
      ((e &&& ~~~ (t.commonBits ^^^ (p &&& t.commonMask))) |||
        (t.commonBits &&& (t.commonBits ^^^ (p &&& t.commonMask)))) = t.raw e := by
    intro e he hv
    obtain ⟨k, hk⟩ := List.mem_iff_getElem?.mp he
    obtain ⟨_, e2, _⟩ := h.entries k e hk hv
    obtain ⟨d, _, hd⟩ := key k e hk hv
    rw [hd]
    exact raw_enc (upd_within h.perfect h0) (upd_common e2 h0)
  obtain ⟨q, hq1, hq2, _⟩ := hb
  refine ⟨⟨?_, ?_, ?_, upd_within h.perfect h0, ?_⟩, hb', upd_new hq2 h0, ?_, ?_⟩
  · rw [hcnt.heap]; exact h.heap
  · rw [hcnt.bits]; exact h.bits
  · rw [hcnt.bits, htab, List.length_map]; exact h.len
  · intro k e hk hv
    rw [htab, List.getElem?_map] at hk
    cases hk' : t.table[k]? with
    | none => rw [hk'] at hk; cases hk
    | some e0 =>
      rw [hk'] at hk
      injection hk with hk
      have hm := List.mem_of_getElem? hk'
      dsimp only at hk
      have hv0 : valid e0 = true := by rw [← hval e0 hm, hk]; exact hv
      rw [if_pos hv0] at hk
      obtain ⟨e1, e2, _⟩ := h.entries k e0 hk' hv0
      obtain ⟨d, hd1, hd2⟩ := key k e0 hk' hv0
      have hr := hraw e0 hm hv0
      rw [hk] at hr hd2
      refine ⟨by rw [hr]; exact e1, by rw [hr]; exact upd_common e2 h0, d, ?_, by rw [hr]; exact hd2⟩
      rw [hr, hcnt.bits]
      refine ⟨hd1.lt, ?_, ?_⟩
      · rw [bucket_eq, hcnt.bits, ← bucket_eq]; exact hd1.at_
      · intro j hj hz
        rw [bucket_eq, hcnt.bits, ← bucket_eq, htab, List.getElem?_map] at hz
        cases hj' : t.table[(t.bucket (hash (t.raw e0)) + j) % 2 ^ t.bits]? with
        | none => rw [hj'] at hz; cases hz
        | some e5 =>
          rw [hj'] at hz
          injection hz with hz
          dsimp only at hz
          have hx := hval e5 (List.mem_of_getElem? hj')
          have hv5 : valid e5 = false := by rw [← hx, hz]; rfl
          rw [if_neg (by rw [hv5]; simp)] at hz
          exact hd1.full j hj (by rw [hj', hz])
  · unfold ptrs
    rw [htab, List.filter_map, List.map_map]
    rw [show t.table.filter (valid ∘ _) = t.table.filter valid from List.filter_congr (fun e he => hval e he)]
    refine List.map_congr_left ?_
    intro e he
    obtain ⟨m1, m2⟩ := List.mem_filter.mp he
    show (t.updateCommon p).raw (if valid e = true then _ else e) = _
    rw [if_pos m2]
    exact hraw e m1 m2
  · unfold nz
    rw [htab, List.countP_map]
    apply List.countP_congr
    intro e he
    have hx := hval e he
    show decide ((if valid e = true then _ else e) ≠ 0) = true ↔ _
    rcases Bool.eq_false_or_eq_true (valid e) with hv | hv
    · have hx' := hx.trans hv
      rw [decide_eq_true_iff, decide_eq_true_iff]
      exact ⟨fun _ => (valid_iff.mp hv).1, fun _ => (valid_iff.mp hx').1⟩
    · rw [if_neg (by rw [hv]; simp)]

/-! ### The invariant -/

/-- Sizes of an allocated table. -/
structure Sized (t : HT) : Prop where
  bits : 1 ≤ t.bits
  max : t.max = 3 * 2 ^ t.bits / 4
  maxWithDeleted : t.maxWithDeleted = 9 * 2 ^ t.bits / 10
  count : t.ptrs.length = t.elems
  used : nz t.table ≤ t.elems + t.deleted

/-- A table with memory. -/
structure Live (U : Word → Prop) (hash : Word → Word) (t : HT) : Prop where
  tab : Tab U hash t
  size : Sized t
  le : t.elems ≤ t.max
  led : t.elems + t.deleted ≤ t.maxWithDeleted
  based : Based U t

/-- The invariant. -/
def Inv (U : Word → Prop) (hash : Word → Word) (t : HT) : Prop := t = init ∨ Live U hash t

theorem two_le {t : HT} (h : Sized t) : 2 ≤ 2 ^ t.bits := by
  have := Nat.pow_le_pow_right (n := 2) (by decide) h.bits
  omega

/-- The bits in common before and after the first pointer. -/
def Based' (U : Word → Prop) (t : HT) : Prop :=
  Based U t ∨ (t.elems = 0 ∧ t.commonMask = BitVec.allOnes 64 ∧ t.commonBits = 0)

theorem based'_seen {U : Word → Prop} (hU : Universe U) {t : HT} (h : Based' U t) :
    ∀ q, U q → q &&& t.commonMask = t.commonBits → Seen t q := by
  rcases h with h | ⟨_, h1, h2⟩
  · exact based_seen hU h
  · intro q hq hc
    rw [h1, h2, BitVec.and_allOnes] at hc
    have := hU.big q hq
    rw [hc] at this
    exact absurd this (by decide)

theorem Based'.same {U : Word → Prop} {t u : HT} (h : Based' U t) (hs : SameHead t u) : Based' U u := by
  unfold Based' Based
  rw [hs.elems, hs.mask, hs.common]
  exact h

theorem Sized.same {t u : HT} (h : Sized t) (hs : SameHead t u) (hp : List.Perm u.ptrs t.ptrs)
    (hn : nz u.table ≤ t.elems + t.deleted) : Sized u := by
  refine ⟨by rw [hs.bits]; exact h.bits, by rw [hs.max, hs.bits]; exact h.max,
    by rw [hs.maxWithDeleted, hs.bits]; exact h.maxWithDeleted, ?_, by rw [hs.elems, hs.deleted]; exact hn⟩
  rw [hp.length_eq, hs.elems]; exact h.count

theorem Tab.deleted {U : Word → Prop} {hash : Word → Word} {t : HT} (h : Tab U hash t) (n : Nat) :
    Tab U hash { t with deleted := n } := by
  refine ⟨h.heap, h.bits, h.len, h.perfect, ?_⟩
  intro k e hk hv
  obtain ⟨a, b, c⟩ := h.entries k e hk hv
  exact ⟨a, b, c⟩

theorem Tab.elems {U : Word → Prop} {hash : Word → Word} {t : HT} (h : Tab U hash t) (n : Nat) :
    Tab U hash { t with elems := n } := by
  refine ⟨h.heap, h.bits, h.len, h.perfect, ?_⟩
  intro k e hk hv
  obtain ⟨a, b, c⟩ := h.entries k e hk hv
  exact ⟨a, b, c⟩

theorem addTail_ok {U : Word → Prop} (hU : Universe U) {hash : Word → Word} {t : HT} (h : Tab U hash t)
    (hs : Sized t) (hb : Based' U t) (hle : t.elems + 1 ≤ t.max) (hled : t.elems + t.deleted ≤ t.maxWithDeleted)
    {p : Word} (hp : U p) :
    ∃ u, addTail hash t p = .ok u ∧ Live U hash u ∧ List.Perm u.ptrs (p :: t.ptrs) ∧ u.elems = t.elems + 1 := by
  have h2 := two_le hs
  have hmax := hs.max
  have hmwd := hs.maxWithDeleted
  have hused := hs.used
  -- after the optional clean-up
  have step1 : ∃ t1, (if t.elems + 1 + t.deleted > t.maxWithDeleted then rehashTable hash t else pure t) = .ok t1 ∧
      Tab U hash t1 ∧ Sized t1 ∧ Based' U t1 ∧ t1.elems = t.elems ∧ t1.bits = t.bits ∧
      t1.elems + 1 + t1.deleted ≤ t1.maxWithDeleted ∧ t1.max = t.max ∧ List.Perm t1.ptrs t.ptrs := by
    by_cases hr : t.elems + 1 + t.deleted > t.maxWithDeleted
    · rw [if_pos hr]
      obtain ⟨u, a1, a2, a3, a4, a5⟩ := rehashTable_ok h (based'_seen hU hb) (by omega)
      refine ⟨_, a1, a2.deleted 0, ?_, (show Based' U u from hb.same a3), a3.elems, a3.bits, ?_, a3.max, a4⟩
      · refine ⟨by rw [show ({ u with deleted := 0 } : HT).bits = t.bits from a3.bits]; exact hs.bits, ?_, ?_, ?_, ?_⟩
        · show u.max = 3 * 2 ^ u.bits / 4
          rw [a3.max, a3.bits]; exact hs.max
        · show u.maxWithDeleted = 9 * 2 ^ u.bits / 10
          rw [a3.maxWithDeleted, a3.bits]; exact hs.maxWithDeleted
        · show u.ptrs.length = u.elems
          rw [a4.length_eq, a3.elems]; exact hs.count
        · show nz u.table ≤ u.elems + 0
          rw [a5, a4.length_eq, a3.elems, hs.count]; exact Nat.le_refl _
      · show u.elems + 1 + 0 ≤ u.maxWithDeleted
        rw [a3.elems, a3.maxWithDeleted]
        omega
    · rw [if_neg hr]
      exact ⟨t, rfl, h, hs, hb, rfl, rfl, by omega, rfl, List.Perm.refl _⟩
  obtain ⟨t1, a1, a2, a3, a4, a5, a6, a7, a8, a9⟩ := step1
  -- after the optional change of the mask
  have step2 : ∃ t2, (if p &&& t1.commonMask ≠ t1.commonBits then t1.updateCommon p else t1) = t2 ∧
      Tab U hash t2 ∧ SameCount t1 t2 ∧ Based U t2 ∧ p &&& t2.commonMask = t2.commonBits ∧
      t2.ptrs = t1.ptrs ∧ nz t2.table = nz t1.table := by
    by_cases hc : p &&& t1.commonMask ≠ t1.commonBits
    · rw [if_pos hc]
      by_cases h0 : t1.elems = 0
      · have hn : t1.ptrs = [] := by
          have := a3.count
          rw [h0] at this
          exact List.length_eq_zero_iff.mp this
        obtain ⟨b1, b2, b3, b4, b5⟩ := update_empty hU a2 h0 hn hp
        exact ⟨_, rfl, b1, upd_count t1 p, b2, b3, b4, b5⟩
      · have hb1 : Based U t1 := by
          rcases a4 with a4 | a4
          · exact a4
          · exact absurd a4.1 h0
        obtain ⟨b1, b2, b3, b4, b5⟩ := update_full hU a2 h0 hb1 (p := p)
        exact ⟨_, rfl, b1, upd_count t1 p, b2, b3, b4, b5⟩
    · rw [if_neg hc]
      have hc' : p &&& t1.commonMask = t1.commonBits := Decidable.not_not.mp hc
      refine ⟨t1, rfl, a2, ⟨rfl, rfl, rfl, rfl, rfl, rfl⟩, ?_, hc', rfl, rfl⟩
      rcases a4 with a4 | ⟨_, c1, c2⟩
      · exact a4
      · rw [c1, c2, BitVec.and_allOnes] at hc'
        have := hU.big p hp
        rw [hc'] at this
        exact absurd this (by decide)
  obtain ⟨t2, b1, b2, b3, b4, b5, b6, b7⟩ := step2
  have hused1 := a3.used
  have hm1 := a3.maxWithDeleted
  have h21 := two_le a3
  obtain ⟨u, c1, c2, c3, c4, c5⟩ := add_ok b2 (based_seen hU b4 p hp b5) hp b5 (by rw [b7, b3.bits]; omega)
  refine ⟨{ u with elems := u.elems + 1 }, ?_, ⟨c2.elems _, ⟨?_, ?_, ?_, ?_, ?_⟩, ?_, ?_, ?_⟩, ?_, ?_⟩
  · unfold addTail
    rw [a1]
    show ((if p &&& t1.commonMask ≠ t1.commonBits then t1.updateCommon p else t1).htAdd p (hash p) >>= _) = _
    rw [b1, c1]
    rfl
  · show 1 ≤ u.bits
    rw [c3.bits, b3.bits]; exact a3.bits
  · show u.max = 3 * 2 ^ u.bits / 4
    rw [c3.max, b3.max, c3.bits, b3.bits]; exact a3.max
  · show u.maxWithDeleted = 9 * 2 ^ u.bits / 10
    rw [c3.maxWithDeleted, b3.maxWithDeleted, c3.bits, b3.bits]; exact a3.maxWithDeleted
  · show u.ptrs.length = u.elems + 1
    rw [c4.length_eq, List.length_cons, b6, a3.count, c3.elems, b3.elems]
  · show nz u.table ≤ u.elems + 1 + u.deleted
    rw [c3.elems, b3.elems, c3.deleted, b3.deleted]
    omega
  · show u.elems + 1 ≤ u.max
    rw [c3.elems, b3.elems, c3.max, b3.max, a5, a8]; exact hle
  · show u.elems + 1 + u.deleted ≤ u.maxWithDeleted
    rw [c3.elems, b3.elems, c3.deleted, b3.deleted, c3.maxWithDeleted, b3.maxWithDeleted]; exact a7
  · obtain ⟨q, d1, d2, d3⟩ := b4
    refine ⟨q, d1, ?_, ?_⟩
    · show q &&& u.commonMask = u.commonBits
      rw [c3.mask, c3.common]; exact d2
    · show u.commonMask.getLsbD _ = false
      rw [c3.mask]; exact d3
  · show List.Perm u.ptrs _
    refine c4.trans ?_
    rw [b6]
    exact List.Perm.cons p a9
  · show u.elems + 1 = t.elems + 1
    rw [c3.elems, b3.elems, a5]

theorem doubleTable_init (hash : Word → Word) :
    doubleTable hash init true = .ok ({ init with
      table := [0, 0], heap := true, bits := 1, max := 1, maxWithDeleted := 1, perfectBit := 1 }, true) := by
  unfold doubleTable
  rw [if_neg (by decide), if_pos rfl]
  rfl

theorem nz_replicate (n : Nat) : nz (List.replicate n 0) = 0 := by
  unfold nz
  rw [List.countP_eq_zero]
  intro e he
  rw [List.eq_of_mem_replicate he]
  decide

theorem doubleTable_ok {U : Word → Prop} (hU : Universe U) {hash : Word → Word} {t : HT} (h : Inv U hash t)
    (hn : t.elems + 1 ≤ 3 * 2 ^ 28) (hfull : t.elems + 1 > t.max) :
    ∃ u, doubleTable hash t true = .ok (u, true) ∧ Tab U hash u ∧ Sized u ∧ Based' U u ∧
      u.elems = t.elems ∧ u.elems + 1 ≤ u.max ∧ u.elems + u.deleted ≤ u.maxWithDeleted ∧ List.Perm u.ptrs t.ptrs := by
  rcases h with rfl | h
  · refine ⟨_, doubleTable_init hash, ⟨rfl, by decide, rfl, ?_, ?_⟩, ⟨by decide, rfl, rfl, rfl, by decide⟩,
      Or.inr ⟨rfl, rfl, rfl⟩, rfl, by decide, by decide, List.Perm.refl _⟩
    · intro i hi
      show (BitVec.allOnes 64).getLsbD i = true
      change (1#64).getLsbD i = true at hi
      rw [BitVec.getLsbD_one] at hi
      simp only [Bool.and_eq_true, decide_eq_true_eq] at hi
      rw [BitVec.getLsbD_allOnes, decide_eq_true_iff]
      omega
    · intro k e hk hv
      have := List.mem_of_getElem? hk
      simp only [List.mem_cons, List.not_mem_nil, or_false, or_self] at this
      rw [this] at hv; cases hv
  · have hmax := h.size.max
    have hmwd := h.size.maxWithDeleted
    have hle := h.le
    have h2 := two_le h.size
    have hbits : ¬ 31 ≤ t.bits + 1 := by
      intro hx
      have : t.bits = 30 := by have := h.tab.bits; omega
      rw [this] at hmax
      have h28 : (3 * 2 ^ 30 / 4 : Nat) = 3 * 2 ^ 28 := by decide
      omega
    let n : HT :=
      { t with
        table := List.replicate (2 ^ (t.bits + 1)) 0
        heap := true
        bits := t.bits + 1
        max := 3 * 2 ^ (t.bits + 1) / 4
        maxWithDeleted := 9 * 2 ^ (t.bits + 1) / 10
        perfectBit := t.findPerfect }
    have hnt : Tab U hash n := by
      refine ⟨rfl, ?_, ?_, findPerfect_within h.tab.perfect, ?_⟩
      · show t.bits + 1 ≤ 30
        omega
      · show (List.replicate _ _).length = _
        rw [List.length_replicate]
      · intro k e hk hv
        change (List.replicate _ _)[k]? = _ at hk
        rw [List.eq_of_mem_replicate (List.mem_of_getElem? hk)] at hv
        cases hv
    have hcount : (t.table.filter valid).length = t.elems := by
      have := h.size.count
      unfold ptrs at this
      rw [List.length_map] at this
      exact this
    have hpow : 2 ^ (t.bits + 1) = 2 * 2 ^ t.bits := by rw [Nat.pow_succ]; omega
    have hnz : nz n.table = 0 := nz_replicate _
    have hseen := based_seen hU h.based
    obtain ⟨u, a1, a2, a3, a4, a5⟩ := addAll_ok t.table n hnt
      (by
        intro e he hv
        obtain ⟨k, hk⟩ := List.mem_iff_getElem?.mp he
        obtain ⟨e1, e2, _⟩ := h.tab.entries k e hk hv
        exact ⟨e1, hseen _ e1 e2, e2⟩)
      (by
        rw [hnz, hcount]
        show _ < 2 ^ (t.bits + 1) + 1
        omega)
    have hpn : n.ptrs = [] := by
      unfold ptrs
      rw [List.map_eq_nil_iff, List.filter_eq_nil_iff]
      intro e he
      change e ∈ List.replicate _ _ at he
      rw [List.eq_of_mem_replicate he]
      decide
    rw [hpn, List.append_nil] at a4
    refine ⟨{ u with deleted := 0 }, ?_, a2.deleted 0, ⟨?_, ?_, ?_, ?_, ?_⟩, ?_, ?_, ?_, ?_, a4⟩
    · unfold doubleTable
      rw [if_neg hbits, if_pos rfl]
      show ((if t.heap = true then addAll hash n t.table else pure n) >>= _) = _
      rw [if_pos h.tab.heap, a1]
      rfl
    · show 1 ≤ u.bits
      rw [a3.bits]
      show 1 ≤ t.bits + 1
      omega
    · show u.max = 3 * 2 ^ u.bits / 4
      rw [a3.max, a3.bits]
    · show u.maxWithDeleted = 9 * 2 ^ u.bits / 10
      rw [a3.maxWithDeleted, a3.bits]
    · show u.ptrs.length = u.elems
      rw [a4.length_eq, List.length_map, hcount, a3.elems]
    · show nz u.table ≤ u.elems + 0
      rw [a3.elems]
      show _ ≤ t.elems + 0
      omega
    · left
      obtain ⟨q, d1, d2, d3⟩ := h.based
      refine ⟨q, d1, ?_, ?_⟩
      · show q &&& u.commonMask = u.commonBits
        rw [a3.mask, a3.common]; exact d2
      · show u.commonMask.getLsbD _ = false
        rw [a3.mask]; exact d3
    · exact a3.elems
    · show u.elems + 1 ≤ u.max
      rw [a3.elems, a3.max]
      show t.elems + 1 ≤ 3 * 2 ^ (t.bits + 1) / 4
      omega
    · show u.elems + 0 ≤ u.maxWithDeleted
      rw [a3.elems, a3.maxWithDeleted]
      show t.elems + 0 ≤ 9 * 2 ^ (t.bits + 1) / 10
      omega

/-- `shl_htable_insert`. -/
theorem insert_ok {U : Word → Prop} (hU : Universe U) {hash : Word → Word} {t : HT} (h : Inv U hash t)
    (hn : t.elems + 1 ≤ 3 * 2 ^ 28) {p : Word} (hp : U p) (mem : Bool) :
    (∃ u, insert hash t p mem = .ok (u, true) ∧ Inv U hash u ∧ List.Perm u.ptrs (p :: t.ptrs) ∧
      u.elems = t.elems + 1) ∨
    (mem = false ∧ insert hash t p mem = .ok (t, false)) := by
  unfold insert
  by_cases hf : t.elems + 1 > t.max
  · rw [if_pos hf]
    cases mem with
    | true =>
      obtain ⟨u, a1, a2, a3, a4, a5, a6, a7, a8⟩ := doubleTable_ok hU h hn hf
      obtain ⟨w, b1, b2, b3, b4⟩ := addTail_ok hU a2 a3 a4 a6 a7 hp
      left
      refine ⟨w, ?_, Or.inr b2, b3.trans (List.Perm.cons p a8), by rw [b4, a5]⟩
      rw [a1]
      show (addTail hash u p >>= _) = _
      rw [b1]
      rfl
    | false =>
      right
      refine ⟨rfl, ?_⟩
      have : doubleTable hash t false = .ok (t, false) := by
        unfold doubleTable
        rw [if_neg ?_, if_neg (by simp)]
        intro hx
        rcases h with rfl | h
        · exact absurd hx (by decide)
        · have hmax := h.size.max
          have : t.bits = 30 := by have := h.tab.bits; omega
          rw [this] at hmax
          have h28 : (3 * 2 ^ 30 / 4 : Nat) = 3 * 2 ^ 28 := by decide
          omega
      rw [this]
      rfl
  · rw [if_neg hf]
    rcases h with rfl | h
    · exact absurd (by decide) hf
    · obtain ⟨w, b1, b2, b3, b4⟩ := addTail_ok hU h.tab h.size (Or.inl h.based) (by omega) h.led hp
      left
      refine ⟨w, ?_, Or.inr b2, b3, b4⟩
      rw [b1]
      rfl

theorem search_init (cmp : Word → Bool) (h : Word) : init.search cmp h = .ok none := by
  unfold search firstval
  have : init.bucket h = 0 := by
    rw [bucket_eq]
    show h.toNat % 1 = 0
    omega
  rw [this]
  rfl

theorem zero_live {U : Word → Prop} {hash : Word → Word} {t : HT} (h : Live U hash t) :
    ∃ k : Nat, t.table[k]? = some 0 := by
  apply exists_zero
  have h1 := h.size.used
  have h2 := h.led
  have h3 := h.size.maxWithDeleted
  have h4 := two_le h.size
  rw [h.tab.len]
  omega

theorem lookup_ok {U : Word → Prop} {hash : Word → Word} {t : HT} (hi : Inv U hash t) (cmp : Word → Bool) (h : Word) :
    (t.lookup cmp h = .ok none ∧ ∀ q, q ∈ t.ptrs → hash q = h → cmp q = false) ∨
    ∃ c, t.lookup cmp h = .ok (some c) ∧ c ∈ t.ptrs ∧ cmp c = true := by
  unfold lookup
  rcases hi with rfl | hi
  · left
    rw [search_init]
    exact ⟨rfl, by intro q hq; cases hq⟩
  · rcases search_ok hi.tab (zero_live hi) cmp h with ⟨h1, h2⟩ | ⟨k, c, hk, h1, h2, h3, h4⟩
    · left
      rw [h1]
      exact ⟨rfl, h2⟩
    · right
      rw [h1]
      refine ⟨c, rfl, ?_, h4⟩
      exact List.mem_map.mpr ⟨_, List.mem_filter.mpr ⟨List.getElem_mem hk, h2⟩, h3⟩

theorem remove_ok {U : Word → Prop} {hash : Word → Word} {t : HT} (hi : Inv U hash t) (cmp : Word → Bool) (h : Word) :
    (t.remove cmp h = .ok (t, none) ∧ ∀ q, q ∈ t.ptrs → hash q = h → cmp q = false) ∨
    ∃ u c, t.remove cmp h = .ok (u, some c) ∧ Inv U hash u ∧ List.Perm t.ptrs (c :: u.ptrs) ∧ cmp c = true ∧
      u.elems + 1 = t.elems := by
  unfold remove
  rcases hi with rfl | hi
  · left
    rw [search_init]
    exact ⟨rfl, by intro q hq; cases hq⟩
  · rcases search_ok hi.tab (zero_live hi) cmp h with ⟨h1, h2⟩ | ⟨k, c, hk, h1, h2, h3, h4⟩
    · left
      rw [h1]
      exact ⟨rfl, h2⟩
    · right
      rw [h1]
      have hperm := filter_set_del (T := t.table) (v := 1) t.raw hk h2 rfl
      rw [h3] at hperm
      have hlen := hperm.length_eq
      have hcount := hi.size.count
      unfold ptrs at hcount
      rw [hcount, List.length_cons] at hlen
      have hle := hi.le
      have hled := hi.led
      have hused := hi.size.used
      have hnz := countP_set' (T := t.table) (v := 1) (fun e => decide (e ≠ 0)) hk
      have hv0 := (valid_iff.mp h2).1
      rw [if_pos (decide_eq_true hv0), if_pos (by decide)] at hnz
      refine ⟨t.delval k, c, rfl, Or.inr ⟨⟨hi.tab.heap, hi.tab.bits, ?_, hi.tab.perfect, ?_⟩,
        ⟨hi.size.bits, hi.size.max, hi.size.maxWithDeleted, ?_, ?_⟩, ?_, ?_, hi.based⟩, hperm, h4, ?_⟩
      · show (t.table.set k 1).length = _
        rw [List.length_set]; exact hi.tab.len
      · intro k' e' hk' hv'
        change (t.table.set k 1)[k']? = some e' at hk'
        rw [List.getElem?_set] at hk'
        split at hk'
        · injection hk' with hk'
          rw [← hk'] at hv'; cases hv'
        · obtain ⟨a, b, d, e3, e4⟩ := hi.tab.entries k' e' hk' hv'
          exact ⟨a, b, d, Chain.set e3 (by decide), e4⟩
      · show (((t.table.set k 1).filter valid).map t.raw).length = t.elems - 1
        omega
      · show nz (t.table.set k 1) ≤ t.elems - 1 + (t.deleted + 1)
        unfold nz at hused ⊢
        omega
      · show t.elems - 1 ≤ t.max
        omega
      · show t.elems - 1 + (t.deleted + 1) ≤ t.maxWithDeleted
        omega
      · show t.elems - 1 + 1 = t.elems
        omega

theorem visit_eq {U : Word → Prop} {hash : Word → Word} {t : HT} (hi : Inv U hash t) : t.visit = t.ptrs := by
  rcases hi with rfl | hi
  · rfl
  · unfold visit ptrs
    rw [if_pos hi.tab.heap]

end Verif.HT
