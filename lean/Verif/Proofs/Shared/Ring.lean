import Verif.Model.Shared.Ring

/-!
# The ring buffer represents a queue
-/

namespace Verif.Ring

open Verif

theorem load_ok {buf : List (Option UInt8)} {off n : Nat} (h : off + n ≤ buf.length) :
    ∃ L, load buf off n = .ok L ∧ L.length = n ∧ ∀ i, i < n → L[i]? = buf[off + i]? := by
  refine ⟨(buf.drop off).take n, ?_, ?_, ?_⟩
  · unfold load; rw [if_pos h]
  · rw [List.length_take, List.length_drop]; omega
  · intro i hi
    rw [List.getElem?_take, if_pos hi, List.getElem?_drop]

theorem store_ok {buf d : List (Option UInt8)} {off : Nat} (h : off + d.length ≤ buf.length) :
    ∃ L, store buf off d = .ok L ∧ L.length = buf.length ∧
      ∀ i, L[i]? = if off ≤ i ∧ i < off + d.length then d[i - off]? else buf[i]? := by
  refine ⟨buf.take off ++ d ++ buf.drop (off + d.length), ?_, ?_, ?_⟩
  · unfold store; rw [if_pos h]
  · simp only [List.length_append, List.length_take, List.length_drop]; omega
  · intro i
    rw [List.getElem?_append, List.getElem?_append]
    simp only [List.length_append, List.length_take, List.getElem?_take, List.getElem?_drop]
    have hm : min off buf.length = off := by omega
    rw [hm]
    by_cases h1 : i < off
    · rw [if_pos (show i < off + d.length by omega), if_pos h1, if_pos h1,
        if_neg (show ¬ (off ≤ i ∧ i < off + d.length) by omega)]
    · by_cases h2 : i < off + d.length
      · rw [if_pos h2, if_neg h1, if_pos (show off ≤ i ∧ i < off + d.length from ⟨by omega, h2⟩)]
      · rw [if_neg h2, if_neg (show ¬ (off ≤ i ∧ i < off + d.length) by omega)]
        congr 1
        omega

/-- Index of the `i`-th queued byte. -/
@[reducible] def idx (r : Ring) (i : Nat) : Nat :=
  if r.start + i < r.size then r.start + i else r.start + i - r.size

/-- The ring represents the queue `q`. -/
structure Rep (r : Ring) (q : List UInt8) : Prop where
  used : r.used = q.length
  len : r.buf.length = r.size
  shape : (r.size = 0 ∧ r.start = 0) ∨ (∃ k, k ≤ 63 ∧ r.size = 2 ^ k ∧ r.start < r.size)
  le : q.length ≤ r.size
  data : ∀ i, i < q.length → r.buf[r.idx i]? = some q[i]?

theorem Rep.size_le {r : Ring} {q : List UInt8} (h : Rep r q) : r.size ≤ 9223372036854775808 := by
  rcases h.shape with h | ⟨k, hk, hs, _⟩
  · omega
  · rw [hs, show 9223372036854775808 = 2 ^ 63 by decide]
    exact Nat.pow_le_pow_right (by decide) hk

theorem rep_empty : Rep empty [] :=
  ⟨rfl, rfl, Or.inl ⟨rfl, rfl⟩, Nat.le_refl _, by intro i hi; cases hi⟩

theorem mask_eq {r : Ring} {q : List UInt8} (h : Rep r q) {n : Nat} (hn : n ≤ r.size) :
    mask r.size (r.start + n) = if r.size = 0 then 0 else
      if r.start + n < r.size then r.start + n else r.start + n - r.size := by
  have hle := h.size_le
  unfold mask
  rcases h.shape with ⟨h0, h1⟩ | ⟨k, hk, hs, hlt⟩
  · rw [if_pos h0, h1, show n = 0 by omega, h0]; decide
  · have hpos : 0 < r.size := by omega
    rw [if_neg (by omega)]
    have e1 : u64 (r.start + n) = r.start + n := by unfold u64; omega
    have e2 : u64 (r.size + 18446744073709551615) = r.size - 1 := by unfold u64; omega
    rw [e1, e2, hs, Nat.and_two_pow_sub_one_eq_mod, ← hs]
    split
    · rename_i hl; exact Nat.mod_eq_of_lt hl
    · rename_i hl
      rw [Nat.mod_eq_sub_mod (by omega)]
      exact Nat.mod_eq_of_lt (by omega)

/-- Reading the represented bytes. -/
theorem rep_ext {r : Ring} {q : List UInt8} {n : Nat} (h : Rep r q) (hn : n ≤ q.length)
    {L : List (Option UInt8)} (hl : L.length = n) (hd : ∀ i, i < n → L[i]? = r.buf[r.idx i]?) :
    L = (q.take n).map some := by
  apply List.ext_getElem?
  intro i
  by_cases hi : i < n
  · rw [hd i hi, h.data i (by omega), List.getElem?_map, List.getElem?_take, if_pos hi,
      List.getElem?_eq_getElem (by omega)]
    rfl
  · rw [List.getElem?_eq_none (by omega), List.getElem?_eq_none]
    rw [List.length_map, List.length_take]; omega

/-- The first `n` queued bytes lie in one or two pieces. -/
theorem pieces {r : Ring} {q : List UInt8} (h : Rep r q) {n : Nat} (hn : n ≤ q.length) (h0 : 0 < n) :
    (n ≤ r.size - r.start → load r.buf r.start n = .ok ((q.take n).map some)) ∧
    (¬ n ≤ r.size - r.start → ∃ A B, load r.buf r.start (r.size - r.start) = .ok A ∧
      load r.buf 0 (n - (r.size - r.start)) = .ok B ∧ A.length = r.size - r.start ∧
      B.length = n - (r.size - r.start) ∧ A ++ B = (q.take n).map some) := by
  have hlen := h.len
  have hle := h.le
  have hst : r.start < r.size := by
    rcases h.shape with h | ⟨k, _, _, h⟩
    · omega
    · exact h
  constructor
  · intro hc
    obtain ⟨L, h1, h2, h3⟩ := load_ok (buf := r.buf) (off := r.start) (n := n) (by omega)
    rw [h1, rep_ext h hn h2]
    intro i hi
    rw [h3 i hi]; unfold idx; rw [if_pos (by omega)]
  · intro hc
    obtain ⟨A, a1, a2, a3⟩ := load_ok (buf := r.buf) (off := r.start) (n := r.size - r.start) (by omega)
    obtain ⟨B, b1, b2, b3⟩ := load_ok (buf := r.buf) (off := 0) (n := n - (r.size - r.start)) (by omega)
    refine ⟨A, B, a1, b1, a2, b2, ?_⟩
    apply rep_ext h hn (by rw [List.length_append]; omega)
    intro i hi
    rw [List.getElem?_append, a2]
    split
    · rename_i hl
      rw [a3 i hl]; unfold idx; rw [if_pos (by omega)]
    · rename_i hl
      rw [b3 _ (by omega)]; unfold idx; rw [if_neg (by omega)]
      congr 1; omega

theorem copy_rep {r : Ring} {q : List UInt8} (h : Rep r q) (n : Nat) :
    copy r n = .ok ((q.take n).map some) := by
  unfold copy
  have hu := h.used
  have hmin : (if n > r.used then r.used else n) = min n q.length := by split <;> omega
  dsimp only
  rw [hmin]
  by_cases h0 : min n q.length > 0
  · rw [if_pos h0]
    obtain ⟨p1, p2⟩ := pieces h (Nat.min_le_right n q.length) h0
    have ht : q.take (min n q.length) = q.take n := by
      rcases Nat.le_total n q.length with hl | hl
      · rw [Nat.min_eq_left hl]
      · rw [Nat.min_eq_right hl, List.take_length, List.take_of_length_le hl]
    rw [ht] at p1 p2
    by_cases hc : min n q.length ≤ r.size - r.start
    · rw [if_pos hc, p1 hc]
    · rw [if_neg hc]
      obtain ⟨A, B, a1, a2, _, _, a3⟩ := p2 hc
      rw [a1, a2]
      exact congrArg Except.ok a3
  · rw [if_neg h0]
    rcases Nat.eq_zero_or_pos n with hn | hn
    · rw [hn]; rfl
    · have : q = [] := List.eq_nil_of_length_eq_zero (by omega)
      rw [this, List.take_nil]; rfl

theorem gather_rep {r : Ring} {q : List UInt8} (h : Rep r q) :
    gather r (peek r) = .ok (q.map some) := by
  have hu := h.used
  have hle := h.size_le
  have hle' := h.le
  have hst : r.start ≤ r.size := by
    rcases h.shape with h | ⟨k, _, _, h⟩ <;> omega
  unfold peek
  by_cases h0 : r.used = 0
  · rw [if_pos h0, List.eq_nil_of_length_eq_zero (l := q) (by omega)]; rfl
  · obtain ⟨p1, p2⟩ := pieces h (Nat.le_refl q.length) (by omega)
    rw [List.take_length] at p1 p2
    rw [if_neg h0, show u64 (r.start + r.used) = r.start + r.used by
      rcases h.shape with h | ⟨k, _, _, h⟩ <;> unfold u64 <;> omega]
    by_cases hc : q.length ≤ r.size - r.start
    · rw [if_pos (by omega)]
      unfold gather gather
      dsimp only
      rw [hu, p1 hc]
      show Except.ok (_ ++ []) = _
      rw [List.append_nil]
    · rw [if_neg (by omega)]
      obtain ⟨A, B, a1, a2, _, _, a3⟩ := p2 hc
      unfold gather gather gather
      dsimp only
      rw [hu, a1, a2]
      show Except.ok (A ++ (B ++ [])) = _
      rw [List.append_nil, a3]

theorem pull_rep {r : Ring} {q : List UInt8} (h : Rep r q) (n : Nat) : Rep (pull r n) (q.drop n) := by
  have hu := h.used
  have hle := h.le
  unfold pull
  have hmin : (if n > r.used then r.used else n) = min n q.length := by split <;> omega
  dsimp only
  rw [hmin, mask_eq h (by omega)]
  have hdl : (q.drop n).length = q.length - n := List.length_drop
  refine ⟨?_, h.len, ?_, ?_, ?_⟩
  · show r.used - _ = _; omega
  · rcases h.shape with ⟨h0, h1⟩ | ⟨k, hk, hs, hlt⟩
    · exact Or.inl ⟨h0, by rw [if_pos h0]⟩
    · refine Or.inr ⟨k, hk, hs, ?_⟩
      show (if _ then _ else _) < r.size
      rw [if_neg (by omega)]
      split <;> omega
  · show _ ≤ r.size; omega
  · intro i hi
    rw [hdl] at hi
    have := h.data (n + i) (by omega)
    rw [List.getElem?_drop, ← this]
    show r.buf[_]? = r.buf[_]?
    congr 1
    have hst : r.start < r.size := by
      rcases h.shape with h | ⟨k, _, _, h⟩ <;> omega
    unfold idx
    dsimp only
    rw [if_neg (show ¬ r.size = 0 by omega), show min n q.length = n by omega]
    repeat' split
    all_goals omega

theorem alignPower2_ok {u : Nat} (h1 : 4096 ≤ u) (h2 : u ≤ 9223372036854775808) :
    ∃ k, k ≤ 63 ∧ alignPower2 u = .ok (2 ^ k) ∧ u ≤ 2 ^ k := by
  have hv : u64 (u + 18446744073709551615) = u - 1 := by unfold u64; omega
  have hl : Nat.log2 (u - 1) < 63 := (Nat.log2_lt (by omega)).mpr (by
    rw [show 2 ^ 63 = 9223372036854775808 by decide]; omega)
  refine ⟨Nat.log2 (u - 1) + 1, by omega, ?_, ?_⟩
  · unfold alignPower2
    dsimp only
    rw [hv, if_neg (by omega), if_neg (by omega)]
    have : 2 ^ (Nat.log2 (u - 1) + 1) ≤ 2 ^ 63 := Nat.pow_le_pow_right (by decide) (by omega)
    rw [show 2 ^ 63 = 9223372036854775808 by decide] at this
    unfold u64
    rw [Nat.mod_eq_of_lt (by omega)]
  · have := (Nat.log2_lt (n := u - 1) (k := Nat.log2 (u - 1) + 1) (by omega)).mp (by omega)
    omega

theorem resize_rep {r : Ring} {q : List UInt8} (h : Rep r q) {k : Nat} (hk : k ≤ 63)
    (hle : q.length ≤ 2 ^ k) :
    ∃ r', resize r (2 ^ k) true = .ok (r', true) ∧ Rep r' q ∧ r'.size = 2 ^ k := by
  have hu := h.used
  have hle' := h.le
  have key : ∀ new : List (Option UInt8), new.length = 2 ^ k →
      (∀ i, i < q.length → new[i]? = some q[i]?) →
      Rep { r with buf := new, size := 2 ^ k, start := 0 } q := by
    intro new hn hd
    refine ⟨hu, hn, Or.inr ⟨k, hk, rfl, Nat.two_pow_pos k⟩, hle, ?_⟩
    intro i hi
    show new[if 0 + i < 2 ^ k then 0 + i else _]? = _
    rw [if_pos (by omega), Nat.zero_add]
    exact hd i hi
  suffices hnew : ∃ N, moveTo r (List.replicate (2 ^ k) none) = .ok N ∧ N.length = 2 ^ k ∧
      ∀ i, i < q.length → N[i]? = some q[i]? by
    obtain ⟨N, n1, n2, n3⟩ := hnew
    refine ⟨_, ?_, key N n2 n3, rfl⟩
    unfold resize
    rw [if_pos rfl]
    dsimp only
    rw [n1]
    rfl
  unfold moveTo
  by_cases h0 : r.used > 0
  · rw [if_pos h0]
    dsimp only
    obtain ⟨p1, p2⟩ := pieces h (Nat.le_refl q.length) (by omega)
    rw [List.take_length] at p1 p2
    by_cases hc : r.used ≤ r.size - r.start
    · rw [if_pos hc, hu, p1 (by omega)]
      obtain ⟨N, n1, n2, n3⟩ := store_ok (buf := List.replicate (2 ^ k) none) (off := 0)
        (d := q.map some) (by rw [List.length_map, List.length_replicate]; omega)
      rw [List.length_replicate] at n2
      refine ⟨N, n1, n2, ?_⟩
      intro i hi
      rw [n3, if_pos ⟨Nat.zero_le _, by rw [List.length_map]; omega⟩, Nat.sub_zero,
        List.getElem?_map, List.getElem?_eq_getElem hi]
      rfl
    · rw [if_neg hc]
      obtain ⟨A, B, a1, a2, la, lb, a3⟩ := p2 (by omega)
      rw [a1, hu, a2]
      obtain ⟨N, n1, n2, n3⟩ := store_ok (buf := List.replicate (2 ^ k) none) (off := 0)
        (d := A) (by rw [List.length_replicate]; omega)
      rw [List.length_replicate] at n2
      obtain ⟨M, m1, m2, m3⟩ := store_ok (buf := N) (off := r.size - r.start)
        (d := B) (by rw [n2]; omega)
      refine ⟨M, ?_, by omega, ?_⟩
      · show (store _ 0 A >>= fun new => store new _ B) = _
        rw [n1]
        exact m1
      · intro i hi
        have e : (A ++ B)[i]? = some q[i]? := by
          rw [a3, List.getElem?_map, List.getElem?_eq_getElem hi]; rfl
        rw [← e, List.getElem?_append, m3, n3]
        by_cases hi' : i < A.length
        · rw [if_pos hi', if_neg (by omega), if_pos (by omega), Nat.sub_zero]
        · rw [if_neg hi', if_pos (by omega), la]
  · rw [if_neg h0]
    have hq : q = [] := List.eq_nil_of_length_eq_zero (by omega)
    refine ⟨_, rfl, List.length_replicate .., ?_⟩
    intro i hi; rw [hq] at hi; cases hi

theorem grow_rep {r : Ring} {q : List UInt8} (h : Rep r q) {n : Nat} (hn : 0 < n)
    (hb : q.length + n ≤ 9223372036854775808) (ok : Bool) :
    (n ≤ r.size - q.length ∧ grow r n ok = .ok (r, true)) ∨
    (r.size - q.length < n ∧ ok = false ∧ grow r n ok = .ok (r, false)) ∨
    (ok = true ∧ ∃ r', grow r n ok = .ok (r', true) ∧ Rep r' q ∧ q.length + n ≤ r'.size) := by
  have hu := h.used
  unfold grow
  by_cases hc : r.size - r.used ≥ n
  · rw [if_pos hc]
    exact Or.inl ⟨by omega, rfl⟩
  · rw [if_neg hc]
    refine Or.inr ?_
    dsimp only
    have e : u64 (r.used + n) = q.length + n := by unfold u64; omega
    rw [e, if_neg (by omega)]
    obtain ⟨k, k1, k2, k3⟩ := alignPower2_ok (u := if q.length + n < 4096 then 4096 else q.length + n)
      (by split <;> omega) (by split <;> omega)
    rw [k2]
    have hpos : 0 < 2 ^ k := Nat.two_pow_pos k
    have hge : q.length + n ≤ 2 ^ k := by split at k3 <;> omega
    cases ok with
    | false =>
      refine Or.inl ⟨by omega, rfl, ?_⟩
      show (if 2 ^ k = 0 then _ else _) = _
      rw [if_neg (by omega)]
      rfl
    | true =>
      refine Or.inr ⟨rfl, ?_⟩
      obtain ⟨r', r1, r2, r3⟩ := resize_rep h k1 (by omega)
      refine ⟨r', ?_, r2, by omega⟩
      show (if 2 ^ k = 0 then _ else _) = _
      rw [if_neg (by omega), r1]

/-- Storing behind the queued bytes when there is room. -/
theorem append_rep {r : Ring} {q d : List UInt8} (h : Rep r q) (h0 : 0 < d.length)
    (hroom : q.length + d.length ≤ r.size) :
    ∃ buf, append r (d.map some) = .ok buf ∧
      Rep { r with buf := buf, used := u64 (r.used + d.length) } (q ++ d) := by
  have hu := h.used
  have hlen := h.len
  have hsz := h.size_le
  have hst : r.start < r.size := by
    rcases h.shape with h | ⟨k, _, _, h⟩ <;> omega
  have hm := mask_eq h (n := q.length) (by omega)
  rw [if_neg (by omega)] at hm
  unfold append
  dsimp only
  rw [hu, hm, List.length_map]
  generalize hp : (if r.start + q.length < r.size then r.start + q.length else
    r.start + q.length - r.size) = pos
  have hpos : pos < r.size := by rw [← hp]; split <;> omega
  have key : ∀ buf : List (Option UInt8), buf.length = r.size →
      (∀ i, i < q.length → buf[r.idx i]? = r.buf[r.idx i]?) →
      (∀ j, j < d.length → buf[if pos + j < r.size then pos + j else pos + j - r.size]? = some d[j]?) →
      Rep { r with buf := buf, used := u64 (q.length + d.length) } (q ++ d) := by
    intro buf b1 b2 b3
    refine ⟨?_, b1, h.shape, ?_, ?_⟩
    · show u64 _ = _
      rw [List.length_append]; unfold u64; omega
    · rw [List.length_append]; exact hroom
    · intro i hi
      rw [List.length_append] at hi
      show buf[r.idx i]? = _
      rw [List.getElem?_append]
      by_cases hq : i < q.length
      · rw [if_pos hq, b2 i hq, h.data i hq]
      · rw [if_neg hq, ← b3 (i - q.length) (by omega)]
        congr 1
        rw [← hp]
        unfold idx
        repeat' split
        all_goals omega
  by_cases hc : r.size - pos ≥ d.length
  · rw [if_pos hc]
    obtain ⟨L, l1, l2, l3⟩ := store_ok (buf := r.buf) (off := pos) (d := d.map some)
      (by rw [List.length_map]; omega)
    rw [List.length_map] at l3
    refine ⟨L, l1, key L (by omega) ?_ ?_⟩
    · intro i hi
      rw [l3, if_neg]
      rw [← hp]
      unfold idx
      repeat' split
      all_goals omega
    · intro j hj
      rw [if_pos (by omega), l3, if_pos (by omega), show pos + j - pos = j by omega,
        List.getElem?_map, List.getElem?_eq_getElem hj]
      rfl
  · rw [if_neg hc]
    obtain ⟨L, l1, l2, l3⟩ := store_ok (buf := r.buf) (off := pos)
      (d := (d.map some).take (r.size - pos)) (by rw [List.length_take, List.length_map]; omega)
    have ht : ((d.map some).take (r.size - pos)).length = r.size - pos := by
      rw [List.length_take, List.length_map]; omega
    obtain ⟨M, m1, m2, m3⟩ := store_ok (buf := L) (off := 0)
      (d := (d.map some).drop (r.size - pos)) (by rw [List.length_drop, List.length_map]; omega)
    have hd : ((d.map some).drop (r.size - pos)).length = d.length - (r.size - pos) := by
      rw [List.length_drop, List.length_map]
    rw [ht] at l3
    rw [hd] at m3
    refine ⟨M, ?_, key M (by omega) ?_ ?_⟩
    · rw [l1]; exact m1
    · intro i hi
      rw [m3, if_neg, l3, if_neg]
      all_goals
        rw [← hp]
        unfold idx
        rw [← hp] at hc
        split at hc <;> repeat' split
        all_goals omega
    · intro j hj
      by_cases hj' : pos + j < r.size
      · rw [if_pos hj', m3, if_neg (by omega), l3, if_pos (by omega), show pos + j - pos = j by omega,
          List.getElem?_take, if_pos (by omega), List.getElem?_map, List.getElem?_eq_getElem hj]
        rfl
      · rw [if_neg hj', m3, if_pos (by omega), List.getElem?_drop,
          show r.size - pos + (pos + j - r.size - 0) = j by omega,
          List.getElem?_map, List.getElem?_eq_getElem hj]
        rfl

theorem push_rep {r : Ring} {q : List UInt8} (h : Rep r q) (d : List UInt8) (ok : Bool)
    (hb : q.length + d.length ≤ 9223372036854775808) :
    (∃ r', push r d ok = .ok (r', true) ∧ Rep r' (q ++ d)) ∨
    (ok = false ∧ r.size - q.length < d.length ∧ push r d ok = .ok (r, false)) := by
  unfold push
  by_cases h0 : d.length = 0
  · rw [if_pos h0, List.eq_nil_of_length_eq_zero h0, List.append_nil]
    exact Or.inl ⟨r, rfl, h⟩
  · rw [if_neg h0]
    rcases grow_rep h (show 0 < d.length by omega) hb ok with ⟨g1, g2⟩ | ⟨g1, g2, g3⟩ | ⟨_, r', g2, g3, g4⟩
    · have := h.le
      obtain ⟨buf, b1, b2⟩ := append_rep h (show 0 < d.length by omega) (by omega)
      refine Or.inl ⟨_, ?_, b2⟩
      rw [g2]
      show (append r _ >>= _) = _
      rw [b1]; rfl
    · refine Or.inr ⟨g2, g1, ?_⟩
      rw [g3]; rfl
    · obtain ⟨buf, b1, b2⟩ := append_rep g3 (show 0 < d.length by omega) g4
      refine Or.inl ⟨_, ?_, b2⟩
      rw [g2]
      show (append r' _ >>= _) = _
      rw [b1]; rfl

/-- Without a bound on the amount of data, the shift in `SHL_ALIGN_POWER2` can go
wrong. -/
theorem push_total {r : Ring} {q : List UInt8} (h : Rep r q) (d : List UInt8) (ok : Bool)
    (hd : d.length < 18446744073709551616) :
    (∃ r', push r d ok = .ok (r', true) ∧ Rep r' (q ++ d)) ∨ push r d ok = .ok (r, false) ∨
    (push r d ok = .error .badShift ∧ 9223372036854775808 < q.length + d.length) := by
  rcases Nat.lt_or_ge 9223372036854775808 (q.length + d.length) with hb | hb
  · have hu := h.used
    have hle := h.le
    have hsz := h.size_le
    unfold push
    rw [if_neg (by omega)]
    refine Or.inr ?_
    unfold grow
    rw [if_neg (by omega)]
    dsimp only
    by_cases hc : u64 (r.used + d.length) ≤ r.used
    · rw [if_pos hc]; exact Or.inl rfl
    · rw [if_neg hc]
      refine Or.inr ⟨?_, hb⟩
      have e : u64 (r.used + d.length) = q.length + d.length := by unfold u64 at *; omega
      have hlt : q.length + d.length < 18446744073709551616 := by unfold u64 at e; omega
      rw [e, if_neg (by omega)]
      have hv : u64 (q.length + d.length + 18446744073709551615) = q.length + d.length - 1 := by
        unfold u64; omega
      have hl : 63 ≤ Nat.log2 (q.length + d.length - 1) := (Nat.le_log2 (by omega)).mpr (by
        rw [show 2 ^ 63 = 9223372036854775808 by decide]; omega)
      unfold alignPower2
      dsimp only
      rw [hv, if_neg (by omega), if_pos (by omega)]
      rfl
  · rcases push_rep h d ok hb with h1 | ⟨_, _, h1⟩
    · exact Or.inl h1
    · exact Or.inr (Or.inl h1)

end Verif.Ring
