import Verif.Proofs.Vte.Level

/-!
# Control sequences with a private marker and any intermediate characters
-/

namespace Verif
namespace Vte

/-- The flags of some collected characters. -/
def flagsOf (is : List UInt8) : BitVec 32 := is.foldl (fun f i => f ||| collectFlag i.toNat) 0

theorem foldl_or (is : List UInt8) : ∀ f : BitVec 32,
    is.foldl (fun f i => f ||| collectFlag i.toNat) f = f ||| flagsOf is := by
  unfold flagsOf
  induction is with
  | nil => intro f; simp
  | cons i is ih =>
    intro f
    rw [List.foldl_cons, List.foldl_cons, ih, ih (0 ||| _), show (0 : BitVec 32) ||| collectFlag i.toNat = collectFlag i.toNat by simp, BitVec.or_assoc]

theorem flagsOf_cons (i : UInt8) (is : List UInt8) : flagsOf (i :: is) = collectFlag i.toNat ||| flagsOf is := by
  show is.foldl _ (0 ||| collectFlag i.toNat) = _
  rw [foldl_or, show (0 : BitVec 32) ||| collectFlag i.toNat = collectFlag i.toNat by simp]

theorem flagsOf_bit (is : List UInt8) (k : Nat) :
    (flagsOf is).getLsbD k = true ↔ ∃ i ∈ is, (collectFlag i.toNat).getLsbD k = true := by
  induction is with
  | nil => simp [flagsOf]
  | cons i is ih =>
    rw [flagsOf_cons, BitVec.getLsbD_or, Bool.or_eq_true, ih]
    simp

/-- The state in which some bytes leave the parser. -/
def afterInter (st : PState) (is : List UInt8) : PState := if is = [] then st else .csiInt

theorem inter_ok {v : Vte} : ∀ (is : List UInt8), (∀ i ∈ is, 0x20 ≤ i.toNat ∧ i.toNat ≤ 0x2f) →
    ∀ {st : PState}, st = .csiEntry ∨ st = .csiParam ∨ st = .csiInt → ∀ {n : Nat} {l : List Int} {fl : BitVec 32}
    {m : Utf8.Mach}, Btw v.flags m →
    ∃ m', Btw v.flags m' ∧ ∀ bs, (inSeq v st n l fl m).inputLoop (is ++ bs) =
      (inSeq v (afterInter st is) n l (fl ||| flagsOf is) m').inputLoop bs := by
  intro is
  induction is with
  | nil =>
    intro _ st _ n l fl m hm
    refine ⟨m, hm, fun bs => ?_⟩
    show _ = (inSeq v st n l (fl ||| 0) m).inputLoop bs
    rw [show fl ||| (0 : BitVec 32) = fl by simp]; rfl
  | cons i is ih =>
    intro hi st hs n l fl m hm
    obtain ⟨h1, h2⟩ := hi i (List.mem_cons_self ..)
    obtain ⟨m', hm', e⟩ := inputByte_ascii (v := inSeq v st n l fl m) (inSeq_between hm) (b := i) (by omega)
    have hn : ((nextOf st i.toNat).1 = .csiInt ∨ (nextOf st i.toNat).1 = .none ∧ st = .csiInt) ∧
        (nextOf st i.toNat).2 = .collect := by
      rw [nextOf_ascii (by omega) (by omega)]
      rcases hs with hs | hs | hs <;> subst hs <;> unfold stateTrans <;> dsimp only
      · rw [if_neg (by unfold isC0; omega), if_neg (by omega), if_pos (by omega)]
        exact ⟨Or.inl rfl, rfl⟩
      · rw [if_neg (by unfold isC0; omega), if_neg (by omega), if_neg (by omega), if_neg (by omega), if_pos (by omega)]
        exact ⟨Or.inl rfl, rfl⟩
      · rw [if_neg (by unfold isC0; omega), if_pos (by omega)]
        exact ⟨Or.inr ⟨rfl, rfl⟩, rfl⟩
    have e1 : (inSeq v st n l fl m).inputByte i = .ok (inSeq v .csiInt n l (fl ||| collectFlag i.toNat) m') := by
      rw [e]
      unfold Vte.parse Vte.trans
      rw [show ({ inSeq v st n l fl m with mach := m' } : Vte).state = st from rfl, hn.2]
      rcases hn.1 with h3 | ⟨h3, h4⟩
      · rw [h3, if_neg (by decide)]
        rcases hs with hs | hs | hs <;> subst hs <;> rfl
      · rw [h3, if_pos rfl]
        subst h4
        rfl
    obtain ⟨m2, hm2, e2⟩ := ih (fun j hj => hi j (List.mem_cons_of_mem _ hj)) (st := .csiInt) (Or.inr (Or.inr rfl)) (n := n)
      (l := l) (fl := fl ||| collectFlag i.toNat) hm'
    refine ⟨m2, hm2, fun bs => ?_⟩
    have ha : afterInter .csiInt is = .csiInt := by unfold afterInter; split <;> rfl
    have hb : afterInter st (i :: is) = .csiInt := rfl
    rw [List.cons_append, inputLoop_ok e1, e2, ha, hb, flagsOf_cons, BitVec.or_assoc]

/-- A private marker, if there is one. -/
theorem marker_ok {v : Vte} {mk : Option UInt8} (hk : ∀ p ∈ mk, 0x3c ≤ p.toNat ∧ p.toNat ≤ 0x3f) {m : Utf8.Mach}
    (hm : Btw v.flags m) :
    ∃ m' st, Btw v.flags m' ∧ Collecting st ∧ ∀ bs, (inSeq v .csiEntry 0 noArgs 0 m).inputLoop (mk.toList ++ bs) =
      (inSeq v st 0 noArgs (flagsOf mk.toList) m').inputLoop bs := by
  cases mk with
  | none => exact ⟨m, .csiEntry, hm, Or.inl rfl, fun _ => rfl⟩
  | some p =>
    obtain ⟨h1, h2⟩ := hk p rfl
    obtain ⟨m', hm', e⟩ := inputByte_ascii (v := inSeq v .csiEntry 0 noArgs 0 m) (inSeq_between hm) (b := p) (by omega)
    have hn : nextOf .csiEntry p.toNat = (.csiParam, .collect) := by
      rw [nextOf_ascii (by omega) (by omega)]
      unfold stateTrans; dsimp only
      rw [if_neg (by unfold isC0; omega), if_neg (by omega), if_neg (by omega), if_neg (by omega),
        if_neg (by omega), if_pos (by omega)]
    have e1 : (inSeq v .csiEntry 0 noArgs 0 m).inputByte p = .ok (inSeq v .csiParam 0 noArgs (flagsOf [p]) m') := by
      rw [e]
      unfold Vte.parse Vte.trans
      rw [show ({ inSeq v .csiEntry 0 noArgs 0 m with mach := m' } : Vte).state = .csiEntry from rfl, hn,
        if_neg (by decide)]
      rfl
    exact ⟨m', .csiParam, hm', Or.inr rfl, fun bs => by show (inSeq v .csiEntry 0 noArgs 0 m).inputLoop (p :: bs) = _; rw [inputLoop_ok e1]; rfl⟩

/-- Any control sequence: `ESC [`, a private marker, parameters, intermediate characters and a final character. -/
theorem input_csi_full {v : Vte} (h : Ok v) (hb : Between v) {mk : Option UInt8}
    (hk : ∀ p ∈ mk, 0x3c ≤ p.toNat ∧ p.toNat ≤ 0x3f) {qs : List (List UInt8)} (hq : qs ≠ [])
    (hd : ∀ q ∈ qs, ∀ d ∈ q, IsDigit d) {is : List UInt8} (hi : ∀ i ∈ is, 0x20 ≤ i.toNat ∧ i.toNat ≤ 0x2f) {b : UInt8}
    (h1 : 0x40 ≤ b.toNat) (h2 : b.toNat ≤ 0x7e) :
    ∃ (m : Utf8.Mach) (st : PState), Btw v.flags m ∧
      v.input (27 :: 91 :: (mk.toList ++ (joined qs ++ (is ++ [b])))) =
      ((inSeq v.up st (min 16 qs.length) (padded (qs.map value)) (flagsOf mk.toList ||| flagsOf is) m).csiRun
        (csiKind b.toNat) >>= fun v' => pure { v' with state := .ground }.down) := by
  obtain ⟨m1, hm1, e1⟩ := csi_start h.more hb.up
  obtain ⟨m2, st2, hm2, hs2, e2⟩ := marker_ok (v := v.up) hk hm1
  obtain ⟨m3, hm3, e3⟩ := params_ok (v := v.up) qs hq hd hs2 (l := []) (fl := flagsOf mk.toList) hm2
  have hs3 : afterParams st2 (joined qs) = .csiEntry ∨ afterParams st2 (joined qs) = .csiParam ∨
      afterParams st2 (joined qs) = .csiInt := by
    unfold afterParams
    split
    · rcases hs2 with h | h
      · exact Or.inl h
      · exact Or.inr (Or.inl h)
    · exact Or.inr (Or.inl rfl)
  obtain ⟨m4, hm4, e4⟩ := inter_ok (v := v.up) is hi hs3 (n := min 16 (qs.length - 1)) (l := padded (qs.map value))
    (fl := flagsOf mk.toList) hm3
  have hs4 : afterInter (afterParams st2 (joined qs)) is = .csiEntry ∨ afterInter (afterParams st2 (joined qs)) is = .csiParam ∨
      afterInter (afterParams st2 (joined qs)) is = .csiInt := by
    unfold afterInter
    split
    · exact hs3
    · exact Or.inr (Or.inr rfl)
  obtain ⟨m5, hm5, e5⟩ := final_ok (v := v.up) hs4 (n := min 16 (qs.length - 1)) (l := padded (qs.map value))
    (fl := flagsOf mk.toList ||| flagsOf is) hm4 h1 h2
  refine ⟨m5, afterInter (afterParams st2 (joined qs)) is, hm5, ?_⟩
  have e3' := e3 (is ++ [b])
  rw [List.nil_append] at e3'
  rw [input_def, e1, e2,
    show (inSeq v.up st2 0 noArgs (flagsOf mk.toList) m2) =
      inSeq v.up st2 (min 16 ([] : List Int).length) (padded []) (flagsOf mk.toList) m2 from rfl,
    e3', show ([] : List Int).length + (qs.length - 1) = qs.length - 1 from Nat.zero_add _, e4, inputLoop_one, e5]
  unfold Vte.csiDispatch
  rw [counted_inSeq (List.length_pos_iff.2 hq)]
  cases (inSeq v.up (afterInter (afterParams st2 (joined qs)) is) (min 16 qs.length) (padded (qs.map value))
    (flagsOf mk.toList ||| flagsOf is) m5).csiRun (csiKind b.toNat) <;> rfl

end Vte
end Verif
