import Verif.Model.Shared.Htable

/-!
# The hash table holds a multiset of pointers
-/

namespace Verif.HT

open Verif

/-! ### Bits -/

theorem bit_and {a b : Word} {i : Nat} : (a &&& b).getLsbD i = (a.getLsbD i && b.getLsbD i) :=
  BitVec.getLsbD_and

/-- `a` has no bits outside `m`. -/
@[reducible] def Within (a m : Word) : Prop := ∀ i, a.getLsbD i = true → m.getLsbD i = true

/-- The entry stored for `p`; `first` if it is in its own bucket. -/
def enc (t : HT) (hash : Word → Word) (p : Word) (first : Bool) : Word :=
  t.makeHval p (t.hashBits (hash p) ||| (if first then t.perfectBit else 0))

theorem raw_enc {t : HT} {hash : Word → Word} {p : Word} {f : Bool}
    (hp : Within t.perfectBit t.commonMask) (hc : p &&& t.commonMask = t.commonBits) :
    t.raw (t.enc hash p f) = p := by
  unfold raw enc makeHval hashBits
  apply BitVec.eq_of_getLsbD_eq
  intro i hi
  have h1 := congrArg (fun w => w.getLsbD i) hc
  have h2 := hp i
  simp only [BitVec.getLsbD_and, BitVec.getLsbD_or, BitVec.getLsbD_not, hi, decide_true, Bool.true_and] at h1 ⊢
  rw [← h1]
  cases f
  · simp only [Bool.false_eq_true, if_false]
    cases hm : t.commonMask.getLsbD i <;> simp
  · simp only [if_true]
    cases hm : t.commonMask.getLsbD i
    · rw [hm] at h2
      have : t.perfectBit.getLsbD i = false := by
        cases hb : t.perfectBit.getLsbD i
        · rfl
        · exact absurd (h2 hb) (by simp)
      simp [this]
    · simp

theorem extra_enc {t : HT} {hash : Word → Word} {p : Word} {f : Bool}
    (hp : Within t.perfectBit t.commonMask) :
    t.extra (t.enc hash p f) = t.hashBits (hash p) ||| (if f then t.perfectBit else 0) := by
  unfold extra enc makeHval hashBits
  apply BitVec.eq_of_getLsbD_eq
  intro i hi
  have h2 := hp i
  simp only [BitVec.getLsbD_and, BitVec.getLsbD_or, BitVec.getLsbD_not, hi, decide_true, Bool.true_and]
  cases f
  · simp only [Bool.false_eq_true, if_false]
    cases hm : t.commonMask.getLsbD i <;> simp
  · simp only [if_true]
    cases hm : t.commonMask.getLsbD i
    · rw [hm] at h2
      have : t.perfectBit.getLsbD i = false := by
        cases hb : t.perfectBit.getLsbD i
        · rfl
        · exact absurd (h2 hb) (by simp)
      simp [this]
    · simp

theorem hashBits_perfect (t : HT) (h : Word) :
    (t.hashBits h ||| t.perfectBit) &&& ~~~ t.perfectBit = t.hashBits h := by
  unfold hashBits
  apply BitVec.eq_of_getLsbD_eq
  intro i hi
  simp only [BitVec.getLsbD_and, BitVec.getLsbD_or, BitVec.getLsbD_not, hi, decide_true, Bool.true_and]
  cases t.perfectBit.getLsbD i <;> simp

/-- An entry that is not in its own bucket does not have the perfect bit. -/
theorem enc_perfect {t : HT} {hash : Word → Word} {p : Word}
    (hp : Within t.perfectBit t.commonMask) : t.enc hash p false &&& t.perfectBit = 0 := by
  unfold enc makeHval hashBits
  apply BitVec.eq_of_getLsbD_eq
  intro i hi
  have h2 := hp i
  simp only [BitVec.getLsbD_and, BitVec.getLsbD_or, BitVec.getLsbD_not, hi, decide_true, Bool.true_and,
    Bool.false_eq_true, if_false]
  cases hb : t.perfectBit.getLsbD i
  · simp
  · rw [h2 hb]; simp

theorem valid_of_bit {e : Word} {k : Nat} (hk : 1 ≤ k) (h : e.getLsbD k = true) : valid e = true := by
  unfold valid
  rw [decide_eq_true_iff]
  have : e.toNat.testBit k = true := h
  have h1 := Nat.ge_two_pow_of_testBit this
  have h2 : 2 ^ 1 ≤ 2 ^ k := Nat.pow_le_pow_right (by decide) hk
  omega

theorem valid_enc {t : HT} {hash : Word → Word} {p : Word} {f : Bool} {k : Nat} (hk : 1 ≤ k)
    (hm : t.commonMask.getLsbD k = false) (hpk : p.getLsbD k = true) : valid (t.enc hash p f) = true := by
  apply valid_of_bit hk
  have hlt : k < 64 := by
    rcases Nat.lt_or_ge k 64 with h | h
    · exact h
    · rw [BitVec.getLsbD_of_ge _ _ h] at hpk; cases hpk
  unfold enc makeHval
  simp only [BitVec.getLsbD_and, BitVec.getLsbD_or, BitVec.getLsbD_not, hlt, decide_true, Bool.true_and, hm, hpk]
  rfl

theorem valid_iff {e : Word} : valid e = true ↔ e ≠ 0 ∧ e ≠ 1 := by
  unfold valid
  rw [decide_eq_true_iff]
  constructor
  · intro h
    constructor
    · intro he; rw [he] at h; simp at h
    · intro he; rw [he] at h; simp at h
  · rintro ⟨h0, h1⟩
    have a : e.toNat ≠ 0 := fun h => h0 (BitVec.eq_of_toNat_eq (by simpa using h))
    have b : e.toNat ≠ 1 := fun h => h1 (BitVec.eq_of_toNat_eq (by simpa using h))
    omega

theorem bucket_eq (t : HT) (h : Word) : t.bucket h = h.toNat % 2 ^ t.bits :=
  Nat.and_two_pow_sub_one_eq_mod ..

theorem next_eq (t : HT) (i : Nat) : t.next i = (i + 1) % 2 ^ t.bits :=
  Nat.and_two_pow_sub_one_eq_mod ..

/-! ### The table -/

/-- A pointer can be told from the two markers when it is stored. -/
@[reducible] def Seen (t : HT) (p : Word) : Prop :=
  ∃ k, 1 ≤ k ∧ t.commonMask.getLsbD k = false ∧ p.getLsbD k = true

theorem valid_enc' {t : HT} {hash : Word → Word} {p : Word} {f : Bool} (h : Seen t p) :
    valid (t.enc hash p f) = true := by
  obtain ⟨k, h1, h2, h3⟩ := h
  exact valid_enc h1 h2 h3

/-- The slot `k` is where a search for hash value `h` gets after `d` steps. -/
structure Chain (n : Nat) (T : List Word) (b : Nat) (k d : Nat) : Prop where
  lt : d < n
  at_ : k = (b + d) % n
  full : ∀ j, j < d → T[(b + j) % n]? ≠ some 0

/-- The entry `e` in slot `k` is that of a pointer of the user. -/
structure Entry (U : Word → Prop) (hash : Word → Word) (t : HT) (T : List Word) (k : Nat) (e : Word) : Prop where
  ptr : U (t.raw e)
  common : t.raw e &&& t.commonMask = t.commonBits
  chain : ∃ d, Chain (2 ^ t.bits) T (t.bucket (hash (t.raw e))) k d ∧ e = t.enc hash (t.raw e) (decide (d = 0))

/-- Invariant of an allocated table. -/
structure Tab (U : Word → Prop) (hash : Word → Word) (t : HT) : Prop where
  heap : t.heap = true
  bits : t.bits ≤ 30
  len : t.table.length = 2 ^ t.bits
  perfect : Within t.perfectBit t.commonMask
  entries : ∀ k e, t.table[k]? = some e → valid e = true → Entry U hash t t.table k e

/-- The pointers in the table. -/
def ptrs (t : HT) : List Word := (t.table.filter valid).map t.raw

theorem cells_heap {t : HT} (h : t.heap = true) : t.cells = t.table := by
  unfold cells; rw [if_pos h]

theorem get_ok {t : HT} (hh : t.heap = true) (hl : t.table.length = 2 ^ t.bits) {i : Nat}
    (hi : i < 2 ^ t.bits) : ∃ e, t.table[i]? = some e ∧ t.get i = .ok e := by
  have hi' : i < t.table.length := by rw [hl]; exact hi
  refine ⟨t.table[i], List.getElem?_eq_getElem hi', ?_⟩
  unfold get
  rw [cells_heap hh, List.getElem?_eq_getElem hi']

/-! ### Lists -/

theorem set_split {α : Type} {T : List α} {k : Nat} (hk : k < T.length) (v : α) :
    T = T.take k ++ T[k] :: T.drop (k + 1) ∧ T.set k v = T.take k ++ v :: T.drop (k + 1) := by
  constructor
  · rw [← List.drop_eq_getElem_cons hk, List.take_append_drop]
  · exact List.set_eq_take_append_cons_drop ▸ (by rw [if_pos hk])

theorem filter_set_add {T : List Word} {k : Nat} {v : Word} (f : Word → Word) (hk : k < T.length)
    (h0 : valid T[k] = false) (hv : valid v = true) :
    List.Perm (((T.set k v).filter valid).map f) (f v :: (T.filter valid).map f) := by
  obtain ⟨h1, h2⟩ := set_split hk v
  rw [h2]
  conv => rhs; rw [h1]
  rw [List.filter_append, List.filter_append, List.filter_cons_of_pos hv,
    List.filter_cons_of_neg (by rw [h0]; simp), List.map_append, List.map_append, List.map_cons]
  exact List.perm_middle

theorem filter_set_del {T : List Word} {k : Nat} {v : Word} (f : Word → Word) (hk : k < T.length)
    (h0 : valid T[k] = true) (hv : valid v = false) :
    List.Perm ((T.filter valid).map f) (f T[k] :: ((T.set k v).filter valid).map f) := by
  obtain ⟨h1, h2⟩ := set_split hk v
  rw [h2]
  conv => lhs; rw [h1]
  rw [List.filter_append, List.filter_append, List.filter_cons_of_pos h0,
    List.filter_cons_of_neg (by rw [hv]; simp), List.map_append, List.map_append, List.map_cons]
  exact List.perm_middle

theorem filter_set_same {T : List Word} {k : Nat} {v : Word} (hk : k < T.length)
    (h0 : valid T[k] = false) (hv : valid v = false) : (T.set k v).filter valid = T.filter valid := by
  obtain ⟨h1, h2⟩ := set_split hk v
  rw [h2]
  conv => rhs; rw [h1]
  rw [List.filter_append, List.filter_append, List.filter_cons_of_neg (by rw [hv]; simp),
    List.filter_cons_of_neg (by rw [h0]; simp)]

theorem countP_set' {α : Type} {T : List α} {k : Nat} {v : α} (P : α → Bool) (hk : k < T.length) :
    (T.set k v).countP P + (if P T[k] then 1 else 0) = T.countP P + (if P v then 1 else 0) := by
  obtain ⟨h1, h2⟩ := set_split hk v
  have h3 : T.countP P = (T.take k).countP P + ((T.drop (k + 1)).countP P + (if P T[k] then 1 else 0)) := by
    conv => lhs; rw [h1]
    rw [List.countP_append, List.countP_cons]
  rw [h2, h3, List.countP_append, List.countP_cons]
  omega

/-! ### Adding -/

theorem freeSlot_ok {t : HT} (hh : t.heap = true) (hl : t.table.length = 2 ^ t.bits) (f : Nat) :
    ∀ (i : Nat) (w : Word), (∃ z, z < f ∧ ∃ e, t.table[(i + z) % 2 ^ t.bits]? = some e ∧ valid e = false) →
    i < 2 ^ t.bits →
    ∃ d, d < f ∧ t.freeSlot f i w = .ok ((i + d) % 2 ^ t.bits, if d = 0 then w else 0) ∧
      (∃ e, t.table[(i + d) % 2 ^ t.bits]? = some e ∧ valid e = false) ∧
      ∀ j, j < d → ∃ e, t.table[(i + j) % 2 ^ t.bits]? = some e ∧ valid e = true := by
  induction f with
  | zero => rintro i w ⟨z, hz, _⟩; omega
  | succ f ih =>
    rintro i w ⟨z, hz, e0, he0, hv0⟩ hi
    obtain ⟨e, he, hg⟩ := get_ok hh hl hi
    have hpos := Nat.two_pow_pos t.bits
    unfold freeSlot
    rw [hg]
    rcases Bool.eq_false_or_eq_true (valid e) with hv | hv
    · have hz0 : z ≠ 0 := by
        intro hz0
        rw [hz0, Nat.add_zero, Nat.mod_eq_of_lt hi, he] at he0
        injection he0 with he0
        rw [he0, hv0] at hv; cases hv
      have hmod : ∀ d, (t.next i + d) % 2 ^ t.bits = (i + (d + 1)) % 2 ^ t.bits := by
        intro d
        rw [next_eq, Nat.mod_add_mod]
        congr 1; omega
      obtain ⟨d, h1, h2, h3, h4⟩ := ih (t.next i) 0
        ⟨z - 1, by omega, e0, by rw [hmod, show z - 1 + 1 = z by omega]; exact he0, hv0⟩
        (by rw [next_eq]; exact Nat.mod_lt _ hpos)
      refine ⟨d + 1, by omega, ?_, ?_, ?_⟩
      · show (if valid e = true then _ else _) = _
        rw [if_pos hv, h2, hmod, if_neg (show ¬ d + 1 = 0 by omega)]
        split <;> rfl
      · rw [← hmod]; exact h3
      · intro j hj
        rcases Nat.eq_zero_or_pos j with h0 | h0
        · rw [h0, Nat.add_zero, Nat.mod_eq_of_lt hi]; exact ⟨e, he, hv⟩
        · have := h4 (j - 1) (by omega)
          rwa [hmod, show j - 1 + 1 = j by omega] at this
    · refine ⟨0, by omega, ?_, ?_, by intro j hj; omega⟩
      · show (if valid e = true then _ else _) = _
        rw [if_neg (by rw [hv]; simp), Nat.add_zero, Nat.mod_eq_of_lt hi]
        rfl
      · rw [Nat.add_zero, Nat.mod_eq_of_lt hi]; exact ⟨e, he, hv⟩

/-- Adding a slot's worth of distance around the table. -/
theorem reach {n b k : Nat} (hb : b < n) (hk : k < n) : ∃ z, z < n ∧ (b + z) % n = k := by
  rcases Nat.lt_or_ge k b with h | h
  · refine ⟨k + n - b, by omega, ?_⟩
    rw [show b + (k + n - b) = k + n by omega, Nat.add_mod_right, Nat.mod_eq_of_lt hk]
  · refine ⟨k - b, by omega, ?_⟩
    rw [show b + (k - b) = k by omega, Nat.mod_eq_of_lt hk]

theorem bucket_lt (t : HT) (h : Word) : t.bucket h < 2 ^ t.bits := by
  rw [bucket_eq]; exact Nat.mod_lt _ (Nat.two_pow_pos _)

/-- Changing entries to non-zero ones keeps chains. -/
theorem Chain.set {n : Nat} {T : List Word} {b : Nat} {k d : Nat} (hc : Chain n T b k d) {i : Nat} {v : Word}
    (hv : v ≠ 0) : Chain n (T.set i v) b k d := by
  refine ⟨hc.lt, hc.at_, ?_⟩
  intro j hj hz
  rw [List.getElem?_set] at hz
  split at hz
  · split at hz
    · injection hz with hz; exact hv hz
    · cases hz
  · exact hc.full j hj hz

theorem htAdd_ok {hash : Word → Word} {t : HT} (hh : t.heap = true) (hl : t.table.length = 2 ^ t.bits) {p : Word}
    (hfree : ∃ (k : Nat) (e : Word), t.table[k]? = some e ∧ valid e = false) :
    ∃ k d, ∃ hk : k < t.table.length, t.htAdd p (hash p) = .ok { t with
        table := t.table.set k (t.enc hash p (decide (d = 0))) } ∧
      valid t.table[k] = false ∧ d < 2 ^ t.bits ∧ k = (t.bucket (hash p) + d) % 2 ^ t.bits ∧
      (∀ j, j < d → ∃ e, t.table[(t.bucket (hash p) + j) % 2 ^ t.bits]? = some e ∧ valid e = true) := by
  obtain ⟨k0, e0, hk0, hv0⟩ := hfree
  have hk0' : k0 < 2 ^ t.bits := by
    rw [← hl]
    rcases Nat.lt_or_ge k0 t.table.length with hl | hl
    · exact hl
    · rw [List.getElem?_eq_none hl] at hk0; cases hk0
  obtain ⟨z, hz, hzk⟩ := reach (bucket_lt t (hash p)) hk0'
  obtain ⟨d, h1, h2, ⟨e, h3, h3'⟩, h4⟩ := freeSlot_ok hh hl (2 ^ t.bits) (t.bucket (hash p)) t.perfectBit
    ⟨z, hz, e0, by rw [hzk]; exact hk0, hv0⟩ (bucket_lt t (hash p))
  have hk : (t.bucket (hash p) + d) % 2 ^ t.bits < t.table.length := by
    rw [hl]; exact Nat.mod_lt _ (Nat.two_pow_pos _)
  refine ⟨_, d, hk, ?_, ?_, h1, rfl, h4⟩
  · unfold htAdd
    rw [h2]
    show Except.ok _ = _
    unfold enc
    by_cases hd : d = 0
    · simp only [hd, if_true, decide_true]
    · simp only [hd, if_false, decide_false]; rfl
  · rw [List.getElem?_eq_getElem hk] at h3
    injection h3 with h3
    rw [h3]; exact h3'

theorem enc_congr {t u : HT} {hash : Word → Word} (h1 : u.bits = t.bits) (h2 : u.commonMask = t.commonMask)
    (h3 : u.perfectBit = t.perfectBit) (p : Word) (f : Bool) : u.enc hash p f = t.enc hash p f := by
  unfold enc makeHval hashBits; rw [h1, h2, h3]

/-- Properties of the table after storing an entry. -/
theorem tab_add {U : Word → Prop} {hash : Word → Word} {t : HT} (h : Tab U hash t)
    {p : Word} (hm : Seen t p) (hp : U p)
    (hc : p &&& t.commonMask = t.commonBits) {k d : Nat} (hk : k < t.table.length)
    (hv : valid t.table[k] = false) (hd : d < 2 ^ t.bits) (hkd : k = (t.bucket (hash p) + d) % 2 ^ t.bits)
    (hch : ∀ j, j < d → ∃ e, t.table[(t.bucket (hash p) + j) % 2 ^ t.bits]? = some e ∧ valid e = true) :
    Tab U hash { t with table := t.table.set k (t.enc hash p (decide (d = 0))) } ∧
    List.Perm (ptrs { t with table := t.table.set k (t.enc hash p (decide (d = 0))) }) (p :: t.ptrs) := by
  have hve := valid_enc' (hash := hash) (f := decide (d = 0)) hm
  have hraw := raw_enc (hash := hash) (f := decide (d = 0)) h.perfect hc
  constructor
  · refine ⟨h.heap, h.bits, ?_, h.perfect, ?_⟩
    · rw [List.length_set]; exact h.len
    · intro k' e' hk' hv'
      have hne : t.enc hash p (decide (d = 0)) ≠ 0 := (valid_iff.mp hve).1
      change (t.table.set k _)[k']? = some e' at hk'
      rw [List.getElem?_set] at hk'
      split at hk'
      · rename_i heq
        injection hk' with hk'
        subst hk'
        subst heq
        refine ⟨?_, ?_, d, ?_, ?_⟩
        · show U (t.raw _); rw [hraw]; exact hp
        · show t.raw _ &&& _ = _; rw [hraw]; exact hc
        · show Chain (2 ^ t.bits) _ (t.bucket (hash (t.raw _))) k d
          rw [hraw]
          refine Chain.set ⟨hd, hkd, ?_⟩ hne
          intro j hj hz
          obtain ⟨e, h1, h2⟩ := hch j hj
          rw [h1] at hz
          injection hz with hz
          rw [hz] at h2
          exact (valid_iff.mp h2).1 rfl
        · show _ = t.enc hash (t.raw _) _
          rw [hraw]
      · obtain ⟨e1, e2, d', e3, e4⟩ := h.entries k' e' hk' hv'
        exact ⟨e1, e2, d', Chain.set e3 hne, e4⟩
  · have := filter_set_add (T := t.table) t.raw hk hv hve
    rw [hraw] at this
    exact this

end Verif.HT
