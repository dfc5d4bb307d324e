import Verif.Proofs.Vte.Seq

/-!
# Sequences without effect
-/

namespace Verif
namespace Vte

/-- The parser is inside a control sequence, possibly one that will be ignored. -/
def WithinCsi (st : PState) : Prop := st = .csiEntry ∨ st = .csiParam ∨ st = .csiInt ∨ st = .csiIgnore

/-- The actions of parameter and intermediate characters. -/
def Gathering (a : Action) : Prop := a = .none ∨ a = .ignore ∨ a = .collect ∨ a = .param

theorem csi_next {st : PState} (hs : WithinCsi st) {n : Nat} (h1 : 0x20 ≤ n) (h2 : n ≤ 0x3f) :
    ((nextOf st n).1 = .none ∨ (nextOf st n).1 = .csiParam ∨ (nextOf st n).1 = .csiInt ∨ (nextOf st n).1 = .csiIgnore) ∧
      Gathering (nextOf st n).2 := by
  rw [nextOf_ascii h1 (by omega)]
  unfold Gathering
  rcases hs with hs | hs | hs | hs <;> subst hs <;> unfold stateTrans <;> dsimp only
  · rw [if_neg (by unfold isC0; omega), if_neg (by omega)]
    split
    · simp
    · split
      · simp
      · split
        · simp
        · rw [if_pos (by omega)]; simp
  · rw [if_neg (by unfold isC0; omega)]
    split
    · simp
    · rw [if_neg (by omega)]
      split
      · simp
      · rw [if_pos (by omega)]; simp
  · rw [if_neg (by unfold isC0; omega)]
    split
    · simp
    · rw [if_neg (by omega), if_pos (by omega)]; simp
  · rw [if_neg (by unfold isC0; omega), if_pos (by omega)]; simp

theorem gather_ok {v : Vte} {st : PState} {n : Nat} {l : List Int} {fl : BitVec 32} {m : Utf8.Mach}
    (hl : l.length = 16) {a : Action} (ha : Gathering a) (d : Nat) :
    ∃ n' l' fl', l'.length = 16 ∧ (inSeq v st n l fl m).action d a = .ok (inSeq v st n' l' fl' m) := by
  rcases ha with ha | ha | ha | ha <;> subst ha
  · exact ⟨n, l, fl, hl, rfl⟩
  · exact ⟨n, l, fl, hl, rfl⟩
  · exact ⟨n, l, fl ||| collectFlag d, hl, rfl⟩
  · show ∃ (n' : Nat) (l' : List Int) (fl' : BitVec 32), l'.length = 16 ∧ (inSeq v st n l fl m).param d = _
    unfold Vte.param
    split
    · split
      · exact ⟨n + 1, l, fl, hl, rfl⟩
      · exact ⟨n, l, fl, hl, rfl⟩
    · split
      · exact ⟨n, l, fl, hl, rfl⟩
      · rename_i hn
        have hn : ¬ 16 ≤ n := hn
        have ha : (inSeq v st n l fl m).arg n = .ok l[n] := by
          unfold Vte.arg
          change (match l[n]? with | some a => _ | none => _) = _
          rw [List.getElem?_eq_getElem (by omega)]
        change ∃ n' l' fl', _ ∧ ((inSeq v st n l fl m).arg n >>= _) = _
        rw [ha]
        change ∃ n' l' fl', _ ∧ (if (0xffff : Int) < l[n] then _ else _) = _
        split
        · exact ⟨n, l, fl, hl, rfl⟩
        · split
          · exact ⟨n, l.set n (digit l[n] d), fl, by rw [List.length_set]; exact hl, rfl⟩
          · exact ⟨n, l, fl, hl, rfl⟩

theorem csi_byte {v : Vte} {st : PState} (hs : WithinCsi st) {n : Nat} {l : List Int} (hl : l.length = 16)
    {fl : BitVec 32} {m : Utf8.Mach} (hm : Btw v.flags m) {b : UInt8} (h1 : 0x20 ≤ b.toNat) (h2 : b.toNat ≤ 0x3f) :
    ∃ st' n' l' fl' m', WithinCsi st' ∧ l'.length = 16 ∧ Btw v.flags m' ∧
      (inSeq v st n l fl m).inputByte b = .ok (inSeq v st' n' l' fl' m') := by
  obtain ⟨m', hm', e⟩ := inputByte_ascii (v := inSeq v st n l fl m) (inSeq_between hm) (b := b) (by omega)
  rw [e]
  change ∃ st' n' l' fl' m'', _ ∧ _ ∧ _ ∧ (inSeq v st n l fl m').parse b.toNat = _
  obtain ⟨k1, k2⟩ := csi_next hs h1 h2
  obtain ⟨n', l', fl', hl', ea⟩ := gather_ok (v := v) (st := st) (n := n) (fl := fl) (m := m') hl k2 b.toNat
  unfold Vte.parse Vte.trans
  rw [show (inSeq v st n l fl m').state = st from rfl]
  rcases k1 with k1 | k1
  · rw [k1, if_pos rfl]
    exact ⟨st, n', l', fl', m', hs, hl', hm', ea⟩
  · have hx : exitAction st = .none := by rcases hs with hs | hs | hs | hs <;> rw [hs] <;> rfl
    have hne : (nextOf st b.toNat).1 ≠ .none := by rcases k1 with k | k | k <;> rw [k] <;> decide
    have hen : entryAction (nextOf st b.toNat).1 = .none := by rcases k1 with k | k | k <;> rw [k] <;> rfl
    rw [if_neg hne, hx, hen]
    refine ⟨(nextOf st b.toNat).1, n', l', fl', m', ?_, hl', hm', ?_⟩
    · rcases k1 with k | k | k <;> rw [k]
      · exact Or.inr (Or.inl rfl)
      · exact Or.inr (Or.inr (Or.inl rfl))
      · exact Or.inr (Or.inr (Or.inr rfl))
    · have e0 : ∀ (w : Vte), w.action b.toNat .none = .ok w := fun _ => rfl
      simp only [e0, ea, bind, Except.bind, pure, Except.pure]
      rfl

theorem csi_bytes {v : Vte} : ∀ (s : List UInt8), (∀ b ∈ s, 0x20 ≤ b.toNat ∧ b.toNat ≤ 0x3f) →
    ∀ {st : PState}, WithinCsi st → ∀ {n : Nat} {l : List Int}, l.length = 16 → ∀ {fl : BitVec 32} {m : Utf8.Mach},
    Btw v.flags m → ∃ st' n' l' fl' m', WithinCsi st' ∧ l'.length = 16 ∧ Btw v.flags m' ∧
      ∀ bs, (inSeq v st n l fl m).inputLoop (s ++ bs) = (inSeq v st' n' l' fl' m').inputLoop bs := by
  intro s
  induction s with
  | nil => intro _ st hs n l hl fl m hm; exact ⟨st, n, l, fl, m, hs, hl, hm, fun _ => rfl⟩
  | cons b s ih =>
    intro hb st hs n l hl fl m hm
    obtain ⟨b1, b2⟩ := hb b (List.mem_cons_self ..)
    obtain ⟨st1, n1, l1, fl1, m1, h1, h2, h3, e1⟩ := csi_byte (v := v) hs (n := n) hl (fl := fl) hm b1 b2
    obtain ⟨st2, n2, l2, fl2, m2, k1, k2, k3, e2⟩ := ih (fun b hbs => hb b (List.mem_cons_of_mem _ hbs)) h1
      (n := n1) h2 (fl := fl1) h3
    exact ⟨st2, n2, l2, fl2, m2, k1, k2, k3, fun bs => by rw [List.cons_append, inputLoop_ok e1, e2]⟩

theorem csi_unknown {v : Vte} {st : PState} (hs : WithinCsi st) {n : Nat} {l : List Int}
    {fl : BitVec 32} {m : Utf8.Mach} (hm : Btw v.flags m) {b : UInt8} (h1 : 0x40 ≤ b.toNat) (h2 : b.toNat ≤ 0x7e)
    (hk : csiKind b.toNat = .unknown) :
    ∃ n' m', Btw v.flags m' ∧ (inSeq v st n l fl m).inputByte b = .ok (inSeq v .ground n' l fl m') := by
  by_cases hi : st = .csiIgnore
  · subst hi
    obtain ⟨m', hm', e⟩ := inputByte_ascii (v := inSeq v .csiIgnore n l fl m) (inSeq_between hm) (b := b) (by omega)
    refine ⟨n, m', hm', ?_⟩
    rw [e]
    change (inSeq v .csiIgnore n l fl m').parse b.toNat = _
    unfold Vte.parse
    have : nextOf .csiIgnore b.toNat = (.ground, .none) := by
      rw [nextOf_ascii (by omega) (by omega)]
      unfold stateTrans; dsimp only
      rw [if_neg (by unfold isC0; omega), if_neg (by omega), if_pos (by omega)]
    rw [show (inSeq v .csiIgnore n l fl m').state = .csiIgnore from rfl, this]
    rfl
  · have hs' : st = .csiEntry ∨ st = .csiParam ∨ st = .csiInt := by
      rcases hs with h | h | h | h
      · exact Or.inl h
      · exact Or.inr (Or.inl h)
      · exact Or.inr (Or.inr h)
      · exact absurd h hi
    obtain ⟨m', hm', e⟩ := final_ok (v := v) hs' (n := n) (l := l) (fl := fl) hm h1 h2
    unfold Vte.csiDispatch at e
    rw [hk] at e
    by_cases hn : n < 16
    · refine ⟨n + 1, m', hm', ?_⟩
      rw [e, if_pos (show (inSeq v st n l fl m').argc < 16 from hn)]
      rfl
    · refine ⟨n, m', hm', ?_⟩
      rw [e, if_neg (show ¬ (inSeq v st n l fl m').argc < 16 from hn)]
      rfl

end Vte
end Verif
