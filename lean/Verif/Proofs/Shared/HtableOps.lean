import Verif.Proofs.Shared.Htable

/-!
# Searching, growing and cleaning up the hash table
-/

namespace Verif.HT

open Verif

/-! ### Searching -/

/-- The bits a search for hash value `h` compares after `j` steps. -/
def wanted (t : HT) (h : Word) (j : Nat) : Word :=
  t.hashBits h ||| (if j = 0 then t.perfectBit else 0)

theorem hashBits_stable (t : HT) (h : Word) : t.hashBits h &&& ~~~ t.perfectBit = t.hashBits h := by
  unfold hashBits
  apply BitVec.eq_of_getLsbD_eq
  intro i hi
  simp only [BitVec.getLsbD_and, BitVec.getLsbD_not, hi, decide_true, Bool.true_and]
  cases t.perfectBit.getLsbD i <;> simp

theorem wanted_succ (t : HT) (h : Word) (j : Nat) : t.wanted h (j + 1) = t.hashBits h := by
  unfold wanted
  rw [if_neg (Nat.succ_ne_zero j)]; exact BitVec.or_zero

theorem wanted_first (t : HT) (h : Word) (j : Nat) :
    t.wanted h j &&& ~~~ t.perfectBit = t.wanted h (j + 1) := by
  rw [wanted_succ]
  cases j with
  | zero => exact hashBits_perfect t h
  | succ j => rw [wanted_succ]; exact hashBits_stable t h

theorem wanted_next (t : HT) (h : Word) (j : Nat) (hj : 1 ≤ j) :
    t.wanted h j &&& ~~~ 0#64 = t.wanted h (j + 1) := by
  obtain ⟨j, rfl⟩ : ∃ i, j = i + 1 := ⟨j - 1, by omega⟩
  rw [wanted_succ, wanted_succ]
  apply BitVec.eq_of_getLsbD_eq
  intro i hi
  rw [BitVec.getLsbD_and, BitVec.getLsbD_not, BitVec.getLsbD_zero]
  simp [hi]

/-- Slot `j` steps from `b` is in use, and holds no entry with the wanted bits that
satisfies `cmp`. -/
def Miss (t : HT) (cmp : Word → Bool) (h : Word) (b j : Nat) : Prop :=
  ∃ e, t.table[(b + j) % 2 ^ t.bits]? = some e ∧ e ≠ 0 ∧
    (valid e = true → t.extra e = t.wanted h j → cmp (t.raw e) = false)

/-- What a candidate of a search is. -/
def Cand (t : HT) (h : Word) (b d : Nat) (r : Nat × Word) : Prop :=
  ∃ e, t.table[(b + d) % 2 ^ t.bits]? = some e ∧ valid e = true ∧ t.extra e = t.wanted h d ∧
    r = ((b + d) % 2 ^ t.bits, t.raw e)

theorem val_ok {t : HT} (hh : t.heap = true) (hl : t.table.length = 2 ^ t.bits) (cmp : Word → Bool) (h : Word)
    (b : Nat) (w : Word) {z : Nat} (hz : t.table[(b + z) % 2 ^ t.bits]? = some 0) (f : Nat) :
    ∀ d0, (∀ j, d0 ≤ j → t.wanted h j &&& ~~~ w = t.wanted h (j + 1)) → d0 ≤ z → z < d0 + f →
    ∃ d r, t.val w f ((b + d0) % 2 ^ t.bits) (t.wanted h d0) = .ok r ∧ d0 ≤ d ∧ d ≤ z ∧
      (∀ j, d0 ≤ j → j < d → Miss t cmp h b j) ∧
      ((r = none ∧ t.table[(b + d) % 2 ^ t.bits]? = some 0) ∨ ∃ c, r = some c ∧ Cand t h b d c) := by
  induction f with
  | zero => intro d0 _ h1 h2; omega
  | succ f ih =>
    intro d0 hw hd hf
    have hpos := Nat.two_pow_pos t.bits
    obtain ⟨e, he, hg⟩ := get_ok hh hl (Nat.mod_lt (b + d0) hpos)
    unfold val
    rw [hg]
    show ∃ d r, (if e = 0 then _ else _) = _ ∧ _
    by_cases h0 : e = 0
    · rw [if_pos h0]
      refine ⟨d0, none, rfl, Nat.le_refl _, hd, by intro j h1 h2; omega, Or.inl ⟨rfl, ?_⟩⟩
      rw [he, h0]
    · rw [if_neg h0]
      by_cases h1 : e ≠ 1 ∧ t.extra e = t.wanted h d0
      · rw [if_pos h1]
        exact ⟨d0, _, rfl, Nat.le_refl _, hd, by intro j h1 h2; omega,
          Or.inr ⟨_, rfl, e, he, valid_iff.mpr ⟨h0, h1.1⟩, h1.2, rfl⟩⟩
      · rw [if_neg h1]
        have hzd : d0 ≠ z := by
          intro hzd
          rw [hzd] at he
          rw [he] at hz
          injection hz with hz
          exact h0 hz
        obtain ⟨d, r, e1, e2, e3, e4, e5⟩ := ih (d0 + 1) (fun j hj => hw j (by omega)) (by omega) (by omega)
        refine ⟨d, r, ?_, by omega, e3, ?_, e5⟩
        · rw [next_eq, Nat.mod_add_mod, hw d0 (Nat.le_refl _)]
          exact e1
        · intro j hj1 hj2
          rcases Nat.eq_or_lt_of_le hj1 with hj | hj
          · refine ⟨e, by rw [← hj]; exact he, h0, ?_⟩
            intro hv hx
            rw [← hj] at hx
            exact absurd ⟨(valid_iff.mp hv).2, hx⟩ h1
          · exact e4 j hj hj2

/-- Result of a search. -/
def Found (t : HT) (cmp : Word → Bool) (h : Word) (b : Nat) (r : Option (Nat × Word)) : Prop :=
  ∃ d, (∀ j, j < d → Miss t cmp h b j) ∧
    ((r = none ∧ t.table[(b + d) % 2 ^ t.bits]? = some 0) ∨
      ∃ c, r = some c ∧ Cand t h b d c ∧ cmp c.2 = true)

theorem searchFrom_ok {t : HT} (hh : t.heap = true) (hl : t.table.length = 2 ^ t.bits) (cmp : Word → Bool)
    (h : Word) (b : Nat) {z : Nat} (hz : t.table[(b + z) % 2 ^ t.bits]? = some 0) (hzn : z < 2 ^ t.bits) (f : Nat) :
    ∀ d r, d ≤ z → z < d + f → (∀ j, j < d → Miss t cmp h b j) →
      ((r = none ∧ t.table[(b + d) % 2 ^ t.bits]? = some 0) ∨ ∃ c, r = some c ∧ Cand t h b d c) →
    ∃ r', t.searchFrom cmp h f r = .ok r' ∧ Found t cmp h b r' := by
  induction f with
  | zero => intro d r h1 h2; omega
  | succ f ih =>
    intro d r hd hf hm hr
    rcases hr with ⟨hr, h0⟩ | ⟨c, hr, hc⟩
    · subst hr
      exact ⟨none, rfl, d, hm, Or.inl ⟨rfl, h0⟩⟩
    · subst hr
      obtain ⟨e, he, hv, hx, hce⟩ := hc
      subst hce
      unfold searchFrom
      rcases Bool.eq_false_or_eq_true (cmp (t.raw e)) with hb | hb
      · rw [if_pos hb]
        exact ⟨_, rfl, d, hm, Or.inr ⟨_, rfl, ⟨e, he, hv, hx, rfl⟩, hb⟩⟩
      · rw [if_neg (by rw [hb]; simp)]
        have hzd : d ≠ z := by
          intro hzd
          rw [hzd] at he
          rw [he] at hz
          injection hz with hz
          exact (valid_iff.mp hv).1 hz
        obtain ⟨d', r', e1, e2, e3, e4, e5⟩ := val_ok hh hl cmp h b 0 hz (2 ^ t.bits) (d + 1)
          (fun j hj => wanted_next t h j (by omega)) (by omega) (by omega)
        have e1' : t.nextval ((b + d) % 2 ^ t.bits) h = .ok r' := by
          unfold nextval
          rw [next_eq, Nat.mod_add_mod, show t.hashBits h ||| 0 = t.hashBits h from BitVec.or_zero, ← wanted_succ t h d]
          exact e1
        rw [e1']
        refine ih d' r' e3 (by omega) ?_ e5
        intro j hj
        rcases Nat.lt_trichotomy j d with hj' | hj' | hj'
        · exact hm j hj'
        · subst hj'
          exact ⟨e, he, (valid_iff.mp hv).1, fun _ _ => hb⟩
        · exact e4 j hj' hj

theorem mem_ptrs {t : HT} {q : Word} (h : q ∈ t.ptrs) :
    ∃ (k : Nat) (e : Word), t.table[k]? = some e ∧ valid e = true ∧ t.raw e = q := by
  unfold ptrs at h
  obtain ⟨e, h1, h2⟩ := List.mem_map.mp h
  obtain ⟨h3, h4⟩ := List.mem_filter.mp h1
  obtain ⟨k, hk⟩ := List.mem_iff_getElem?.mp h3
  exact ⟨k, e, hk, h4, h2⟩

theorem search_ok {U : Word → Prop} {hash : Word → Word} {t : HT} (ht : Tab U hash t)
    (hzero : ∃ k : Nat, t.table[k]? = some 0) (cmp : Word → Bool) (h : Word) :
    (t.search cmp h = .ok none ∧ ∀ q, q ∈ t.ptrs → hash q = h → cmp q = false) ∨
    ∃ k c, ∃ hk : k < t.table.length, t.search cmp h = .ok (some (k, c)) ∧ valid t.table[k] = true ∧
      t.raw t.table[k] = c ∧ cmp c = true := by
  obtain ⟨k0, hk0⟩ := hzero
  have hk0' : k0 < 2 ^ t.bits := by
    rw [← ht.len]
    rcases Nat.lt_or_ge k0 t.table.length with hl | hl
    · exact hl
    · rw [List.getElem?_eq_none hl] at hk0; cases hk0
  obtain ⟨z, hz, hzk⟩ := reach (bucket_lt t h) hk0'
  rw [← hzk] at hk0
  obtain ⟨d, r, e1, e2, e3, e4, e5⟩ := val_ok ht.heap ht.len cmp h (t.bucket h) t.perfectBit hk0 (2 ^ t.bits) 0
    (fun j _ => wanted_first t h j) (by omega) (by omega)
  have e1' : t.firstval h = .ok r := by
    unfold firstval
    rw [Nat.add_zero, Nat.mod_eq_of_lt (bucket_lt t h)] at e1
    exact e1
  obtain ⟨r', f1, d', f2, f3⟩ := searchFrom_ok ht.heap ht.len cmp h (t.bucket h) hk0 hz (2 ^ t.bits) d r e3
    (by omega) (fun j hj => e4 j (Nat.zero_le _) hj) e5
  have hs : t.search cmp h = .ok r' := by
    unfold search; rw [e1']; exact f1
  rcases f3 with ⟨f3, f4⟩ | ⟨c, f3, ⟨e, g1, g2, g3, g4⟩, f5⟩
  · left
    subst f3
    refine ⟨hs, ?_⟩
    intro q hq hqh
    obtain ⟨k, e, hk, hv, hr⟩ := mem_ptrs hq
    obtain ⟨_, hcm, dd, hch, hen⟩ := ht.entries k e hk hv
    rw [hr, hqh] at hch
    rw [hr] at hen
    have hd1 : dd ≠ d' := by
      intro hd1
      rw [hch.at_, hd1, f4] at hk
      injection hk with hk
      exact (valid_iff.mp hv).1 hk.symm
    have hd2 : ¬ d' < dd := fun hlt => hch.full d' hlt f4
    obtain ⟨e', i1, i2, i3⟩ := f2 dd (by omega)
    rw [← hch.at_, hk] at i1
    injection i1 with i1
    subst i1
    rw [hr] at i3
    refine i3 hv ?_
    have hx := extra_enc (t := t) (hash := hash) (p := q) (f := decide (dd = 0)) ht.perfect
    rw [← hen, hqh] at hx
    rw [hx]
    unfold wanted
    by_cases h0 : dd = 0
    · simp [h0]
    · simp [h0]
  · right
    subst f3
    subst g4
    have hk : (t.bucket h + d') % 2 ^ t.bits < t.table.length := by
      rw [ht.len]; exact Nat.mod_lt _ (Nat.two_pow_pos _)
    have he : t.table[(t.bucket h + d') % 2 ^ t.bits] = e := by
      rw [List.getElem?_eq_getElem hk] at g1; injection g1
    exact ⟨_, _, hk, hs, by rw [he]; exact g2, by rw [he], f5⟩

/-! ### Growing -/

/-- Slots in use, deleted ones included. -/
def nz (T : List Word) : Nat := T.countP (fun e => decide (e ≠ 0))

theorem nz_set {T : List Word} {k : Nat} {v : Word} (hk : k < T.length) : nz (T.set k v) ≤ nz T + 1 := by
  have := countP_set' (T := T) (v := v) (fun e => decide (e ≠ 0)) hk
  unfold nz
  split at this <;> split at this <;> omega

theorem exists_zero {T : List Word} (h : nz T < T.length) : ∃ k : Nat, T[k]? = some 0 := by
  rcases Classical.em (∃ k : Nat, T[k]? = some 0) with hc | hc
  · exact hc
  · exfalso
    have : nz T = T.length := by
      unfold nz
      rw [List.countP_eq_length]
      intro e he
      rw [decide_eq_true_iff]
      rintro rfl
      obtain ⟨k, hk⟩ := List.mem_iff_getElem?.mp he
      exact hc ⟨k, hk⟩
    omega

/-- The fields that adding an entry leaves alone. -/
structure SameHead (t u : HT) : Prop where
  bits : u.bits = t.bits
  elems : u.elems = t.elems
  deleted : u.deleted = t.deleted
  max : u.max = t.max
  maxWithDeleted : u.maxWithDeleted = t.maxWithDeleted
  mask : u.commonMask = t.commonMask
  common : u.commonBits = t.commonBits
  perfect : u.perfectBit = t.perfectBit
  heap : u.heap = t.heap

theorem SameHead.trans {t u v : HT} (h : SameHead t u) (g : SameHead u v) : SameHead t v := by
  constructor
  · rw [g.bits, h.bits]
  · rw [g.elems, h.elems]
  · rw [g.deleted, h.deleted]
  · rw [g.max, h.max]
  · rw [g.maxWithDeleted, h.maxWithDeleted]
  · rw [g.mask, h.mask]
  · rw [g.common, h.common]
  · rw [g.perfect, h.perfect]
  · rw [g.heap, h.heap]

theorem SameHead.raw {t u : HT} (h : SameHead t u) (e : Word) : u.raw e = t.raw e := by
  unfold HT.raw; rw [h.mask, h.common]

theorem add_ok {U : Word → Prop} {hash : Word → Word} {t : HT} (h : Tab U hash t)
    {p : Word} (hm : Seen t p) (hp : U p) (hc : p &&& t.commonMask = t.commonBits)
    (hz : nz t.table < 2 ^ t.bits) :
    ∃ u, t.htAdd p (hash p) = .ok u ∧ Tab U hash u ∧ SameHead t u ∧ List.Perm u.ptrs (p :: t.ptrs) ∧
      nz u.table ≤ nz t.table + 1 := by
  obtain ⟨k0, hk0⟩ := exists_zero (by rw [h.len]; exact hz)
  obtain ⟨k, d, hk, e1, e2, e3, e4, e5⟩ := htAdd_ok (hash := hash) (p := p) h.heap h.len ⟨k0, 0, hk0, rfl⟩
  obtain ⟨f1, f2⟩ := tab_add h hm hp hc hk e2 e3 e4 e5
  exact ⟨_, e1, f1, ⟨rfl, rfl, rfl, rfl, rfl, rfl, rfl, rfl, rfl⟩, f2, nz_set hk⟩

theorem addAll_ok {U : Word → Prop} {hash : Word → Word} (es : List Word) :
    ∀ t : HT, Tab U hash t →
    (∀ e, e ∈ es → valid e = true → U (t.raw e) ∧ Seen t (t.raw e) ∧ t.raw e &&& t.commonMask = t.commonBits) →
    nz t.table + (es.filter valid).length < 2 ^ t.bits + 1 →
    ∃ u, addAll hash t es = .ok u ∧ Tab U hash u ∧ SameHead t u ∧
      List.Perm u.ptrs ((es.filter valid).map t.raw ++ t.ptrs) ∧
      nz u.table ≤ nz t.table + (es.filter valid).length := by
  induction es with
  | nil =>
    intro t ht _ _
    exact ⟨t, rfl, ht, ⟨rfl, rfl, rfl, rfl, rfl, rfl, rfl, rfl, rfl⟩, List.Perm.refl _, Nat.le_refl _⟩
  | cons e es ih =>
    intro t ht he hn
    unfold addAll
    rcases Bool.eq_false_or_eq_true (valid e) with hv | hv
    · rw [if_pos hv]
      rw [List.filter_cons_of_pos hv, List.length_cons] at hn
      obtain ⟨h1, h2, h3⟩ := he e List.mem_cons_self hv
      obtain ⟨u, a1, a2, a3, a4, a5⟩ := add_ok ht h2 h1 h3 (by omega)
      obtain ⟨w, b1, b2, b3, b4, b5⟩ := ih u a2
        (by
          intro e' he' hv'
          obtain ⟨g1, g2, g3⟩ := he e' (List.mem_cons_of_mem _ he') hv'
          rw [a3.raw, a3.mask, a3.common]
          refine ⟨g1, ?_, g3⟩
          unfold Seen
          rw [a3.mask]
          exact g2)
        (by rw [a3.bits]; omega)
      refine ⟨w, by rw [a1]; exact b1, b2, a3.trans b3, ?_, ?_⟩
      · rw [List.filter_cons_of_pos hv, List.map_cons]
        have hr : (es.filter valid).map u.raw = (es.filter valid).map t.raw :=
          List.map_congr_left fun e' _ => a3.raw e'
        rw [hr] at b4
        refine b4.trans ?_
        refine (List.Perm.append_left _ a4).trans ?_
        exact List.perm_middle
      · rw [List.filter_cons_of_pos hv, List.length_cons]; omega
    · rw [if_neg (by rw [hv]; simp)]
      rw [List.filter_cons_of_neg (by rw [hv]; simp)] at hn ⊢
      exact ih t ht (fun e' he' => he e' (List.mem_cons_of_mem _ he')) hn

theorem findPerfect_within {t : HT} (h : Within t.perfectBit t.commonMask) :
    Within t.findPerfect t.commonMask := by
  unfold findPerfect
  split
  · split
    · rename_i i hi
      have := List.find?_some hi
      intro j hj
      rw [BitVec.getLsbD_twoPow] at hj
      simp only [Bool.and_eq_true, decide_eq_true_eq] at hj
      rw [← hj.2]
      exact this
    · exact h
  · exact h

/-! ### Cleaning up -/

/-- Entry `e`, `j` slots after `start`: its bucket is `b` slots after `start`. -/
structure Rot (U : Word → Prop) (hash : Word → Word) (t : HT) (start j : Nat) (e : Word) (b : Nat) : Prop where
  ptr : U (t.raw e)
  common : t.raw e &&& t.commonMask = t.commonBits
  le : b ≤ j
  bucket : t.bucket (hash (t.raw e)) = (start + b) % 2 ^ t.bits
  enc : e = t.enc hash (t.raw e) (decide (b = j))

/-- Invariant of the loop of `rehash_table`: the first `i` slots from `start` on are done. -/
structure Part (U : Word → Prop) (hash : Word → Word) (start : Nat) (t : HT) (i : Nat) : Prop where
  heap : t.heap = true
  bits : t.bits ≤ 30
  len : t.table.length = 2 ^ t.bits
  perfect : Within t.perfectBit t.commonMask
  entries : ∀ j e, j < 2 ^ t.bits → t.table[(start + j) % 2 ^ t.bits]? = some e → valid e = true →
    ∃ b, Rot U hash t start j e b ∧
      (j < i → ∀ m, b ≤ m → m < j → t.table[(start + m) % 2 ^ t.bits]? ≠ some 0)
  done : ∀ j e, j < i → t.table[(start + j) % 2 ^ t.bits]? = some e → e ≠ 0 → valid e = true

theorem mod_inj {n s i j : Nat} (hi : i < n) (hj : j < n) (h : (s + i) % n = (s + j) % n) : i = j := by
  have h1 : (s % n + i) % n = (s % n + j) % n := by rw [Nat.mod_add_mod, Nat.mod_add_mod]; exact h
  have h2 : s % n < n := Nat.mod_lt _ (by omega)
  generalize s % n = r at h1 h2
  rcases Nat.lt_or_ge (r + i) n with a | a <;> rcases Nat.lt_or_ge (r + j) n with b | b
  · rw [Nat.mod_eq_of_lt a, Nat.mod_eq_of_lt b] at h1; omega
  · rw [Nat.mod_eq_of_lt a, Nat.mod_eq_sub_mod b, Nat.mod_eq_of_lt (by omega)] at h1; omega
  · rw [Nat.mod_eq_of_lt b, Nat.mod_eq_sub_mod a, Nat.mod_eq_of_lt (by omega)] at h1; omega
  · rw [Nat.mod_eq_sub_mod a, Nat.mod_eq_sub_mod b, Nat.mod_eq_of_lt (by omega), Nat.mod_eq_of_lt (by omega)] at h1
    omega

theorem getElem?_set_ne' {T : List Word} {i j : Nat} {v : Word} (h : i ≠ j) : (T.set i v)[j]? = T[j]? := by
  rw [List.getElem?_set, if_neg h]

theorem part_zero {U : Word → Prop} {hash : Word → Word} {t : HT} (h : Tab U hash t) {start : Nat}
    (hs : t.table[start]? = some 0) : Part U hash start t 0 := by
  have hsl : start < 2 ^ t.bits := by
    rw [← h.len]
    rcases Nat.lt_or_ge start t.table.length with hl | hl
    · exact hl
    · rw [List.getElem?_eq_none hl] at hs; cases hs
  refine ⟨h.heap, h.bits, h.len, h.perfect, ?_, by intro j e hj; omega⟩
  intro j e hj he hv
  obtain ⟨p1, p2, d, hc, hen⟩ := h.entries _ e he hv
  obtain ⟨b, hb, hbk⟩ := reach hsl (bucket_lt t (hash (t.raw e)))
  have hpos := Nat.two_pow_pos t.bits
  have hat := hc.at_
  rw [← hbk, Nat.mod_add_mod, Nat.add_assoc] at hat
  -- the chain does not pass the empty slot
  have hlt : b + d < 2 ^ t.bits := by
    rcases Nat.lt_or_ge (b + d) (2 ^ t.bits) with hx | hx
    · exact hx
    · exfalso
      rcases Nat.lt_or_ge (2 ^ t.bits - b) d with hy | hy
      · refine hc.full (2 ^ t.bits - b) hy ?_
        rw [← hbk, Nat.mod_add_mod, Nat.add_assoc, show b + (2 ^ t.bits - b) = 2 ^ t.bits by omega,
          Nat.add_mod_right, Nat.mod_eq_of_lt hsl]
        exact hs
      · have hbd : b + d = 2 ^ t.bits := by omega
        rw [hat, hbd, Nat.add_mod_right, Nat.mod_eq_of_lt hsl, hs] at he
        injection he with he
        exact (valid_iff.mp hv).1 he.symm
  have hj' := mod_inj hj hlt hat
  refine ⟨b, ⟨p1, p2, by omega, hbk.symm, ?_⟩, by intro h0; omega⟩
  rw [show decide (b = j) = decide (d = 0) from decide_eq_decide.mpr (by omega)]
  exact hen

theorem part_end {U : Word → Prop} {hash : Word → Word} {t : HT} {start : Nat} (hs : start < 2 ^ t.bits)
    (h : Part U hash start t (2 ^ t.bits)) : Tab U hash t ∧ ∀ e, e ∈ t.table → e ≠ 0 → valid e = true := by
  have key : ∀ (k : Nat) (e : Word), t.table[k]? = some e → ∃ j, j < 2 ^ t.bits ∧ (start + j) % 2 ^ t.bits = k := by
    intro k e hk
    refine reach hs ?_
    rw [← h.len]
    rcases Nat.lt_or_ge k t.table.length with hl | hl
    · exact hl
    · rw [List.getElem?_eq_none hl] at hk; cases hk
  constructor
  · refine ⟨h.heap, h.bits, h.len, h.perfect, ?_⟩
    intro k e hk hv
    obtain ⟨j, hj, hjk⟩ := key k e hk
    rw [← hjk] at hk
    obtain ⟨b, hr, hf⟩ := h.entries j e hj hk hv
    have hle := hr.le
    refine ⟨hr.ptr, hr.common, j - b, ⟨by omega, ?_, ?_⟩, ?_⟩
    · rw [hr.bucket, Nat.mod_add_mod, Nat.add_assoc, show b + (j - b) = j by omega, hjk]
    · intro m hm
      rw [hr.bucket, Nat.mod_add_mod, Nat.add_assoc]
      exact hf hj (b + m) (by omega) (by omega)
    · rw [show decide (j - b = 0) = decide (b = j) from decide_eq_decide.mpr (by omega)]
      exact hr.enc
  · intro e he h0
    obtain ⟨k, hk⟩ := List.mem_iff_getElem?.mp he
    obtain ⟨j, hj, hjk⟩ := key k e hk
    rw [← hjk] at hk
    exact h.done j e hj hk h0

theorem Rot.same {U : Word → Prop} {hash : Word → Word} {t : HT} {start j : Nat} {e : Word} {b : Nat} {T : List Word}
    (h : Rot U hash t start j e b) : Rot U hash { t with table := T } start j e b :=
  ⟨h.ptr, h.common, h.le, h.bucket, h.enc⟩

theorem rehashSlot_ok {U : Word → Prop} {hash : Word → Word} {t : HT} {start i : Nat} (hi : i < 2 ^ t.bits)
    (hseen : ∀ q, U q → q &&& t.commonMask = t.commonBits → Seen t q)
    (h : Part U hash start t i) :
    ∃ u, rehashSlot hash t ((i + start) &&& (2 ^ t.bits - 1)) = .ok u ∧ Part U hash start u (i + 1) ∧
      SameHead t u ∧ List.Perm u.ptrs t.ptrs := by
  have hpos := Nat.two_pow_pos t.bits
  rw [Nat.and_two_pow_sub_one_eq_mod, Nat.add_comm i start]
  have hkl : (start + i) % 2 ^ t.bits < 2 ^ t.bits := Nat.mod_lt _ hpos
  have hkl' : (start + i) % 2 ^ t.bits < t.table.length := by rw [h.len]; exact hkl
  obtain ⟨e, he, hg⟩ := get_ok h.heap h.len hkl
  have heq : t.table[(start + i) % 2 ^ t.bits] = e := by
    rw [List.getElem?_eq_getElem hkl'] at he; injection he
  unfold rehashSlot
  rw [hg]
  show ∃ u, (if e = 0 then _ else _) = _ ∧ _
  by_cases h0 : e = 0
  · rw [if_pos h0]
    refine ⟨t, rfl, ⟨h.heap, h.bits, h.len, h.perfect, ?_, ?_⟩, ⟨rfl, rfl, rfl, rfl, rfl, rfl, rfl, rfl, rfl⟩, List.Perm.refl _⟩
    · intro j e' hj he' hv'
      obtain ⟨b, hr, hf⟩ := h.entries j e' hj he' hv'
      refine ⟨b, hr, ?_⟩
      intro hji
      rcases Nat.lt_or_ge j i with hx | hx
      · exact hf hx
      · have : j = i := by omega
        subst this
        rw [he] at he'
        injection he' with he'
        exact absurd (h0 ▸ he').symm (valid_iff.mp hv').1
    · intro j e' hj he' hne
      rcases Nat.lt_or_ge j i with hx | hx
      · exact h.done j e' hx he' hne
      · have : j = i := by omega
        subst this
        rw [he] at he'
        injection he' with he'
        exact absurd (he' ▸ h0) hne
  · rw [if_neg h0]
    by_cases h1 : e = 1
    · rw [if_pos h1]
      have hv1 : valid t.table[(start + i) % 2 ^ t.bits] = false := by rw [heq, h1]; rfl
      refine ⟨_, rfl, ⟨h.heap, h.bits, by rw [List.length_set]; exact h.len, h.perfect, ?_, ?_⟩,
        ⟨rfl, rfl, rfl, rfl, rfl, rfl, rfl, rfl, rfl⟩, ?_⟩
      · intro j e' hj he' hv'
        change (t.table.set _ _)[_]? = _ at he'
        have hji : j ≠ i := by
          intro hji
          rw [hji, List.getElem?_set, if_pos rfl, if_pos hkl'] at he'
          injection he' with he'
          exact (valid_iff.mp hv').1 he'.symm
        rw [getElem?_set_ne' (fun hx => hji (mod_inj hi hj hx).symm)] at he'
        obtain ⟨b, hr, hf⟩ := h.entries j e' hj he' hv'
        refine ⟨b, hr.same, ?_⟩
        intro hj1 m hm1 hm2
        change (t.table.set _ _)[_]? ≠ _
        rw [getElem?_set_ne' (fun hx => by have := mod_inj hi (by omega) hx; omega)]
        exact hf (by omega) m hm1 hm2
      · intro j e' hj he' hne
        change (t.table.set _ _)[(start + j) % 2 ^ t.bits]? = _ at he'
        have hji : j ≠ i := by
          intro hji
          rw [hji, List.getElem?_set, if_pos rfl, if_pos hkl'] at he'
          injection he' with he'
          exact hne he'.symm
        rw [getElem?_set_ne' (fun hx => hji (mod_inj hi (by omega) hx).symm)] at he'
        exact h.done j e' (by omega) he' hne
      · unfold ptrs
        show List.Perm (((t.table.set _ 0).filter valid).map t.raw) _
        rw [filter_set_same hkl' hv1 rfl]
    · rw [if_neg h1]
      have hv : valid e = true := valid_iff.mpr ⟨h0, h1⟩
      obtain ⟨b, hr, -⟩ := h.entries i e hi he hv
      by_cases hp : e &&& t.perfectBit = 0
      · rw [if_pos hp]
        have hsn := hseen _ hr.ptr hr.common
        -- slot `i` is free now
        have hfree : (t.table.set ((start + i) % 2 ^ t.bits) 0)[(start + i) % 2 ^ t.bits]? = some 0 := by
          rw [List.getElem?_set, if_pos rfl, if_pos hkl']
        obtain ⟨k, d, hk, e1, e2, e3, e4, e5⟩ := htAdd_ok (hash := hash) (p := t.raw e)
          (t := { t with table := t.table.set ((start + i) % 2 ^ t.bits) 0 }) h.heap
          (by rw [List.length_set]; exact h.len) ⟨_, 0, hfree, rfl⟩
        change k = (t.bucket (hash (t.raw e)) + d) % 2 ^ t.bits at e4
        change ∀ j, j < d → ∃ e', (t.table.set _ 0)[(t.bucket (hash (t.raw e)) + j) % 2 ^ t.bits]? = _ ∧ _ at e5
        change d < 2 ^ t.bits at e3
        rw [hr.bucket, Nat.mod_add_mod, Nat.add_assoc] at e4
        have hle := hr.le
        have hdi : b + d ≤ i := by
          rcases Nat.lt_or_ge i (b + d) with hx | hx
          · exfalso
            obtain ⟨e', g1, g2⟩ := e5 (i - b) (by omega)
            rw [hr.bucket, Nat.mod_add_mod, Nat.add_assoc, show b + (i - b) = i by omega, hfree] at g1
            injection g1 with g1
            rw [← g1] at g2; cases g2
          · exact hx
        have hraw := raw_enc (hash := hash) (f := decide (d = 0)) h.perfect hr.common
        have hve : valid (t.enc hash (t.raw e) (decide (d = 0))) = true := valid_enc' hsn
        have hk' : k < t.table.length := by rw [← List.length_set]; exact hk
        -- setting slot `k` makes no slot empty
        have hkeep : ∀ m : Nat, (t.table.set ((start + i) % 2 ^ t.bits) 0)[m]? ≠ some 0 →
            ((t.table.set ((start + i) % 2 ^ t.bits) 0).set k (t.enc hash (t.raw e) (decide (d = 0))))[m]? ≠ some 0 := by
          intro m hm hx
          rw [List.getElem?_set] at hx
          split at hx
          · injection hx with hx; exact (valid_iff.mp hve).1 hx
          · exact hm hx
        refine ⟨_, e1, ⟨h.heap, h.bits, ?_, h.perfect, ?_, ?_⟩, ⟨rfl, rfl, rfl, rfl, rfl, rfl, rfl, rfl, rfl⟩, ?_⟩
        · rw [List.length_set, List.length_set]; exact h.len
        · intro j e' hj he' hv'
          change ((t.table.set _ 0).set k (t.enc hash (t.raw e) (decide (d = 0))))[(start + j) % 2 ^ t.bits]? = some e' at he'
          change j < 2 ^ t.bits at hj
          show ∃ b', Rot U hash _ start j e' b' ∧ (_ → ∀ m, _ → _ →
            ((t.table.set _ 0).set k (t.enc hash (t.raw e) (decide (d = 0))))[(start + m) % 2 ^ t.bits]? ≠ some 0)
          rcases Decidable.em (k = (start + j) % 2 ^ t.bits) with hkj | hkj
          · have hjbd : b + d = j := mod_inj (by omega) hj (e4.symm.trans hkj)
            rw [hkj, List.getElem?_set, if_pos rfl, if_pos (by rw [List.length_set, ← hkj]; exact hk')] at he'
            injection he' with he'
            subst he'
            refine ⟨b, Rot.same (t := t) ⟨?_, ?_, by omega, ?_, ?_⟩, ?_⟩
            · rw [hraw]; exact hr.ptr
            · rw [hraw]; exact hr.common
            · rw [hraw]; exact hr.bucket
            · rw [hraw, show decide (b = j) = decide (d = 0) from decide_eq_decide.mpr (by omega)]
            · intro _ m hm1 hm2
              apply hkeep
              obtain ⟨e'', g1, g2⟩ := e5 (m - b) (by omega)
              rw [hr.bucket, Nat.mod_add_mod, Nat.add_assoc, show b + (m - b) = m by omega] at g1
              rw [g1]
              intro hx
              injection hx with hx
              exact (valid_iff.mp g2).1 hx
          · rw [getElem?_set_ne' hkj] at he'
            have hji : j ≠ i := by
              intro hji
              rw [hji, hfree] at he'
              injection he' with he'
              exact (valid_iff.mp hv').1 he'.symm
            rw [getElem?_set_ne' (fun hx => hji (mod_inj hi hj hx).symm)] at he'
            obtain ⟨b', hr', hf⟩ := h.entries j e' hj he' hv'
            refine ⟨b', hr'.same, ?_⟩
            intro hj1 m hm1 hm2
            apply hkeep
            rw [getElem?_set_ne' (fun hx => by have := mod_inj hi (by omega) hx; omega)]
            exact hf (by omega) m hm1 hm2
        · intro j e' hj he' hne
          change ((t.table.set _ 0).set k (t.enc hash (t.raw e) (decide (d = 0))))[(start + j) % 2 ^ t.bits]? = some e' at he'
          rcases Decidable.em (k = (start + j) % 2 ^ t.bits) with hkj | hkj
          · rw [hkj, List.getElem?_set, if_pos rfl, if_pos (by rw [List.length_set, ← hkj]; exact hk')] at he'
            injection he' with he'
            rw [← he']; exact hve
          · rw [getElem?_set_ne' hkj] at he'
            have hji : j ≠ i := by
              intro hji
              rw [hji, hfree] at he'
              injection he' with he'
              exact hne he'.symm
            rw [getElem?_set_ne' (fun hx => hji (mod_inj hi (by omega) hx).symm)] at he'
            exact h.done j e' (by omega) he' hne
        · have p1 := filter_set_add (T := t.table.set ((start + i) % 2 ^ t.bits) 0) t.raw hk e2 hve
          have p2 := filter_set_del (T := t.table) (v := 0) t.raw hkl' (by rw [heq]; exact hv) rfl
          rw [hraw] at p1
          rw [heq] at p2
          exact p1.trans p2.symm
      · rw [if_neg hp]
        have hbi : b = i := by
          rcases Decidable.em (b = i) with hx | hx
          · exact hx
          · exfalso
            apply hp
            rw [hr.enc, show decide (b = i) = false from decide_eq_false hx]
            exact enc_perfect h.perfect
        refine ⟨t, rfl, ⟨h.heap, h.bits, h.len, h.perfect, ?_, ?_⟩, ⟨rfl, rfl, rfl, rfl, rfl, rfl, rfl, rfl, rfl⟩, List.Perm.refl _⟩
        · intro j e' hj he' hv'
          obtain ⟨b', hr', hf⟩ := h.entries j e' hj he' hv'
          rcases Decidable.em (j = i) with hx | hx
          · subst hx
            rw [he] at he'
            injection he' with he'
            subst he'
            exact ⟨b, hr, by intro _ m h1 h2; omega⟩
          · exact ⟨b', hr', fun hj1 => hf (by omega)⟩
        · intro j e' hj he' hne
          rcases Nat.lt_or_ge j i with hx | hx
          · exact h.done j e' hx he' hne
          · have : j = i := by omega
            subst this
            rw [he] at he'
            injection he' with he'
            exact he' ▸ hv

theorem rehashLoop_ok {U : Word → Prop} {hash : Word → Word} {start : Nat} (n : Nat) :
    ∀ (t : HT) (i : Nat), i + n = 2 ^ t.bits →
    (∀ q, U q → q &&& t.commonMask = t.commonBits → Seen t q) → Part U hash start t i →
    ∃ u, rehashLoop hash start t (List.range' i n) = .ok u ∧ Part U hash start u (2 ^ t.bits) ∧
      SameHead t u ∧ List.Perm u.ptrs t.ptrs := by
  induction n with
  | zero =>
    intro t i hi _ h
    rw [← hi]
    exact ⟨t, rfl, h, ⟨rfl, rfl, rfl, rfl, rfl, rfl, rfl, rfl, rfl⟩, List.Perm.refl _⟩
  | succ n ih =>
    intro t i hi hs h
    obtain ⟨u, a1, a2, a3, a4⟩ := rehashSlot_ok (by omega) hs h
    obtain ⟨w, b1, b2, b3, b4⟩ := ih u (i + 1) (by rw [a3.bits]; omega)
      (by
        intro q h1 h2
        rw [a3.mask, a3.common] at h2
        have := hs q h1 h2
        unfold Seen at this ⊢
        rw [a3.mask]; exact this) a2
    refine ⟨w, ?_, by rw [← a3.bits]; exact b2, a3.trans b3, b4.trans a4⟩
    rw [List.range'_succ]
    unfold rehashLoop
    rw [a1]
    exact b1

theorem nz_valid {T : List Word} (h : ∀ e, e ∈ T → e ≠ 0 → valid e = true) : nz T = (T.filter valid).length := by
  unfold nz
  rw [← List.countP_eq_length_filter]
  apply List.countP_congr
  intro e he
  rw [decide_eq_true_iff]
  exact ⟨h e he, fun hv => (valid_iff.mp hv).1⟩

/-- `rehash_table` keeps the pointers and leaves no deleted slot. -/
theorem rehashTable_ok {U : Word → Prop} {hash : Word → Word} {t : HT} (h : Tab U hash t)
    (hs : ∀ q, U q → q &&& t.commonMask = t.commonBits → Seen t q) (hz : nz t.table < 2 ^ t.bits) :
    ∃ u, rehashTable hash t = .ok { u with deleted := 0 } ∧ Tab U hash u ∧ SameHead t u ∧
      List.Perm u.ptrs t.ptrs ∧ nz u.table = u.ptrs.length := by
  obtain ⟨k, hk⟩ := exists_zero (by rw [h.len]; exact hz)
  unfold rehashTable
  cases hf : t.table.findIdx? (fun e => decide (e = 0)) with
  | none =>
    rw [List.findIdx?_eq_none_iff] at hf
    have := hf 0 (List.mem_of_getElem? hk)
    simp at this
  | some start =>
    have hst : t.table[start]? = some 0 := by
      rw [List.findIdx?_eq_some_iff_getElem] at hf
      obtain ⟨h1, h2, _⟩ := hf
      rw [List.getElem?_eq_getElem h1, of_decide_eq_true h2]
    obtain ⟨u, a1, a2, a3, a4⟩ := rehashLoop_ok (2 ^ t.bits) t 0 (by omega) hs (part_zero h hst)
    have hsl : start < 2 ^ t.bits := by
      rw [← h.len]
      rcases Nat.lt_or_ge start t.table.length with hl | hl
      · exact hl
      · rw [List.getElem?_eq_none hl] at hst; cases hst
    rw [← a3.bits] at a2 hsl
    obtain ⟨b1, b2⟩ := part_end hsl a2
    refine ⟨u, ?_, b1, a3, a4, ?_⟩
    · show (rehashLoop hash start t (List.range (2 ^ t.bits)) >>= _) = _
      rw [List.range_eq_range', a1]
      rfl
    · rw [nz_valid b2]
      unfold ptrs
      rw [List.length_map]

/-! ### The bits all pointers have in common -/

/-- Lets a pointer `q` be stored next to `p`: `q` has the highest bit of `p`, or another one, not bit 0,
that `p` does not have. -/
def Apart (p q : Word) : Prop :=
  q.getLsbD (topBit p 63) = true ∨ ∃ j, 1 ≤ j ∧ q.getLsbD j = true ∧ p.getLsbD j = false

/-- The set of pointers in use. -/
structure Universe (U : Word → Prop) : Prop where
  big : ∀ p, U p → 1 < p.toNat
  apart : ∀ p q, U p → U q → Apart p q

/-- The bits in common are those of some pointer, whose highest bit is not among them. -/
def Based (U : Word → Prop) (t : HT) : Prop :=
  ∃ p, U p ∧ p &&& t.commonMask = t.commonBits ∧ t.commonMask.getLsbD (topBit p 63) = false

theorem topBit_spec (p : Word) (i : Nat) :
    (1 ≤ topBit p i ∧ p.getLsbD (topBit p i) = true) ∨ (topBit p i = 0 ∧ ∀ j, 1 ≤ j → j ≤ i → p.getLsbD j = false) := by
  induction i with
  | zero => right; exact ⟨rfl, by intro j h1 h2; omega⟩
  | succ i ih =>
    unfold topBit
    rcases Bool.eq_false_or_eq_true (p.getLsbD (i + 1)) with h | h
    · rw [if_pos h]; left; exact ⟨by omega, h⟩
    · rw [if_neg (by rw [h]; simp)]
      rcases ih with ih | ih
      · left; exact ih
      · right
        refine ⟨ih.1, ?_⟩
        intro j h1 h2
        rcases Nat.lt_or_ge j (i + 1) with h3 | h3
        · exact ih.2 j h1 (by omega)
        · rw [show j = i + 1 by omega]; exact h

theorem topBit_set {p : Word} (h : 1 < p.toNat) : 1 ≤ topBit p 63 ∧ p.getLsbD (topBit p 63) = true := by
  rcases topBit_spec p 63 with h1 | ⟨_, h1⟩
  · exact h1
  · exfalso
    have : p.toNat ≤ 1 := by
      have hb : p = p &&& 1#64 := by
        apply BitVec.eq_of_getLsbD_eq
        intro i hi
        rw [BitVec.getLsbD_and, BitVec.getLsbD_one]
        rcases Nat.eq_zero_or_pos i with h0 | h0
        · simp [h0]
        · rw [h1 i h0 (by omega)]; rfl
      rw [hb, BitVec.toNat_and]
      exact Nat.and_le_right
    omega

theorem based_seen {U : Word → Prop} (hU : Universe U) {t : HT} (h : Based U t) :
    ∀ q, U q → q &&& t.commonMask = t.commonBits → Seen t q := by
  obtain ⟨p, h1, h2, h3⟩ := h
  intro q hq hc
  rcases hU.apart p q h1 hq with ha | ⟨j, ha, hb, hd⟩
  · exact ⟨_, (topBit_set (hU.big p h1)).1, h3, ha⟩
  · refine ⟨j, ha, ?_, hb⟩
    have := congrArg (fun w : Word => w.getLsbD j) (hc.trans h2.symm)
    simp only [BitVec.getLsbD_and, hb, hd, Bool.true_and, Bool.false_and] at this
    exact this

end Verif.HT
