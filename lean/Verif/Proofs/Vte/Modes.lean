import Verif.Proofs.Vte.Controls
import Verif.Spec.Modes

/-!
# Running mode sequences
-/

namespace Verif
namespace Vte

/-- The flags after setting the bit of a mode. -/
def withBit (set : Bool) (k : Option Nat) (v : Vte) : Vte :=
  match k with
  | some k => v.setFlag set k
  | none => v

theorem withBit_flags (set : Bool) (k : Option Nat) (v : Vte) {j : Nat} (hj : j < 32) :
    (withBit set k v).flags.getLsbD j = if k = some j then set else v.flags.getLsbD j := by
  cases k with
  | none => rw [if_neg (by simp)]; rfl
  | some k =>
    show (v.setFlag set k).flags.getLsbD j = _
    rw [flag_setFlag v set hj]
    by_cases h : k = j
    · rw [if_pos h, if_pos (by rw [h])]
    · rw [if_neg h, if_neg (by simpa using h)]

theorem withBit_same (set : Bool) (k : Option Nat) (v : Vte) : withBit set k v = { v with flags := (withBit set k v).flags } := by
  cases k <;> rfl

/-- Running calls on the screen of the emulator. -/
def scrs (v : Vte) (cs : List Screen.Call) : R Vte := Screen.runAll cs v.con >>= fun s => pure { v with con := s }

theorem scrs_nil (v : Vte) : v.scrs [] = .ok v := rfl

theorem scrs_one (v : Vte) (c : Screen.Call) : v.scrs [c] = v.scr c := by
  unfold scrs Vte.scr
  show ((c.run v.con >>= fun s => .ok s) >>= _) = _
  cases c.run v.con <;> rfl

theorem scrs_two (v : Vte) (c c' : Screen.Call) : v.scrs [c, c'] = (v.scr c >>= fun v => v.scr c') := by
  unfold scrs Vte.scr
  show ((c.run v.con >>= fun s => c'.run s >>= fun s => .ok s) >>= _) = _
  cases h : c.run v.con with
  | error e => rfl
  | ok s =>
    show ((c'.run s >>= fun s => Except.ok s) >>= _) = (c'.run s >>= _)
    cases c'.run s <;> rfl

theorem table_none {α} {n : Nat} : ∀ {l : List (Nat × α)}, n ∉ l.map (·.1) → l.lookup n = none := by
  intro l
  induction l with
  | nil => intro _; rfl
  | cons p l ih =>
    intro h
    rw [List.map_cons, List.mem_cons, not_or] at h
    unfold List.lookup
    rw [show (n == p.1) = false from by simpa using h.1]
    exact ih h.2

theorem ansi_one (v : Vte) (set : Bool) (n : Nat) :
    v.ansiMode set n = (withBit set (modeBit false n) v).scrs (modeCalls false set n) := by
  by_cases h : n = 2 ∨ n = 4 ∨ n = 12 ∨ n = 20
  · rcases h with h | h | h | h <;> subst h
    · rfl
    · rw [show modeCalls false set 4 = [if set then .setFlags 1 else .resetFlags 1] from rfl, scrs_one]; rfl
    · rfl
    · rfl
  · have hl : ansiTable.lookup n = none := table_none (by
      show n ∉ [2, 4, 12, 20]
      simpa using h)
    rw [show modeBit false n = none from by unfold modeBit; rw [if_neg (by decide), hl]; rfl,
      show modeCalls false set n = [] from by unfold modeCalls; rw [if_neg (by decide), hl]; rfl, scrs_nil]
    unfold Vte.ansiMode
    split <;> first | (exfalso; omega) | rfl

theorem dec_one {v : Vte} (hi : v.fInhibit = false) (set : Bool) {n : Nat} (hn : n ∉ otherModes) :
    v.decMode set n = (withBit set (modeBit true n) v).scrs (modeCalls true set n) := by
  by_cases h : n = 1 ∨ n = 5 ∨ n = 6 ∨ n = 7 ∨ n = 8 ∨ n = 25 ∨ n = 42 ∨ n = 47 ∨ n = 1047
  · rcases h with h | h | h | h | h | h | h | h | h <;> subst h
    · rfl
    · rw [show modeCalls true set 5 = [if set then .setFlags 8 else .resetFlags 8] from rfl, scrs_one]; rfl
    · rw [show modeCalls true set 6 = [if set then .setFlags 4 else .resetFlags 4] from rfl, scrs_one]; rfl
    · rw [show modeCalls true set 7 = [if set then .setFlags 2 else .resetFlags 2] from rfl, scrs_one]; rfl
    · rfl
    · rw [show modeCalls true set 25 = [if !set then .setFlags 16 else .resetFlags 16] from rfl, scrs_one]
      cases set <;> rfl
    · rfl
    · rw [show modeCalls true set 47 = [if set then .setFlags 64 else .resetFlags 64] from rfl, scrs_one]
      show v.mode47 set = v.scr _
      unfold Vte.mode47
      rw [hi, if_neg (by decide)]
      cases set <;> rfl
    · show v.mode1047 set = _
      unfold Vte.mode1047
      rw [hi, if_neg (by decide)]
      cases set
      · rw [show modeCalls true false 1047 = [.eraseScreen false, .resetFlags 64] from rfl, scrs_two]; rfl
      · rw [show modeCalls true true 1047 = [.setFlags 64] from rfl, scrs_one]; rfl
  · have hl : decTable.lookup n = none := table_none (by
      show n ∉ [1, 5, 6, 7, 8, 25, 42, 47, 1047]
      simpa using h)
    rw [show modeBit true n = none from by unfold modeBit; rw [if_pos rfl, hl]; rfl,
      show modeCalls true set n = [] from by unfold modeCalls; rw [if_pos rfl, hl]; rfl, scrs_nil]
    have hn' : n ≠ 9 ∧ n ≠ 1002 ∧ n ≠ 1003 ∧ n ≠ 1006 ∧ n ≠ 1016 ∧ n ≠ 1048 ∧ n ≠ 1049 := by
      simpa [otherModes] using hn
    unfold Vte.decMode
    split <;> first | (exfalso; omega) | rfl

/-- The number written by a parameter with value `a` is `n`. -/
def WrittenAs (n : Nat) (a : Int) : Prop := (a = -1 ∧ n = 0) ∨ a = n ∨ (65535 < a ∧ 65535 < n)

theorem writtenAs {q : List UInt8} (hq : ∀ d ∈ q, IsDigit d) : WrittenAs (number q) (value q) := by
  by_cases h0 : q = []
  · subst h0; exact Or.inl ⟨rfl, rfl⟩
  · rcases value_number hq h0 with ⟨h, _⟩ | ⟨h, h'⟩
    · exact Or.inr (Or.inl h)
    · exact Or.inr (Or.inr ⟨h, by omega⟩)

theorem mode_far (dec set : Bool) {n : Nat} (h : n = 0 ∨ 65535 < n) :
    modeBit dec n = none ∧ modeCalls dec set n = [] := by
  have h1 : ansiTable.lookup n = none := table_none (by
    show n ∉ [2, 4, 12, 20]
    simp only [List.mem_cons, List.not_mem_nil, or_false]
    omega)
  have h2 : decTable.lookup n = none := table_none (by
    show n ∉ [1, 5, 6, 7, 8, 25, 42, 47, 1047]
    simp only [List.mem_cons, List.not_mem_nil, or_false]
    omega)
  unfold modeBit modeCalls
  cases dec
  · rw [if_neg (by decide), h1]; exact ⟨rfl, rfl⟩
  · rw [if_pos rfl, h2]; exact ⟨rfl, rfl⟩

theorem modeOne_plain {w : Vte} {dec : Bool} (set : Bool) {n i : Nat} {a : Int} (hi : w.fInhibit = false)
    (hw : w.cWhat = dec) (ha : w.arg i = .ok a) (hn : WrittenAs n a) (ho : dec = true → n ∉ otherModes) :
    w.modeOne set i = (withBit set (modeBit dec n) w).scrs (modeCalls dec set n) := by
  have main : 0 ≤ a → (dec = true → a.toNat ∉ otherModes) →
      w.modeOne set i = (withBit set (modeBit dec a.toNat) w).scrs (modeCalls dec set a.toNat) := by
    intro h0 ho
    unfold Vte.modeOne
    rw [ha, hw]
    show (if a < 0 then _ else if dec = true then _ else _) = _
    rw [if_neg (by omega)]
    cases dec
    · rw [if_neg (by decide)]; exact ansi_one w set _
    · rw [if_pos rfl]; exact dec_one hi set (ho rfl)
  rcases hn with ⟨h1, h2⟩ | h1 | ⟨h1, h2⟩
  · have := mode_far dec set (n := n) (Or.inl h2)
    rw [this.1, this.2, scrs_nil]
    unfold Vte.modeOne
    rw [ha]
    show (if a < 0 then _ else _) = _
    rw [if_pos (by omega)]
    rfl
  · have e : a.toNat = n := by omega
    have := main (by omega) (by rw [e]; exact ho)
    rw [e] at this
    exact this
  · have := mode_far dec set (n := n) (Or.inr h2)
    have h' := mode_far dec set (n := a.toNat) (Or.inr (by omega))
    rw [this.1, this.2, ← h'.1, ← h'.2]
    refine main (by omega) (fun _ => ?_)
    have : 65535 < a.toNat := by omega
    unfold otherModes
    simp only [List.mem_cons, List.not_mem_nil, or_false]
    omega

theorem runAll_app : ∀ (a b : List Screen.Call) (s : Screen),
    Screen.runAll (a ++ b) s = (Screen.runAll a s >>= fun s => Screen.runAll b s) := by
  intro a
  induction a with
  | nil => intro b s; rfl
  | cons c a ih =>
    intro b s
    show (c.run s >>= fun s => Screen.runAll (a ++ b) s) = ((c.run s >>= fun s => Screen.runAll a s) >>= _)
    cases c.run s with
    | error e => rfl
    | ok s' => exact ih b s'

theorem inhibit_bit {dec : Bool} {n k : Nat} (h : modeBit dec n = some k) : k < 16 := by
  have key : ∀ l : List (Nat × ModeInfo), (∀ p ∈ l, ∀ j, p.2.bit = some j → j < 16) → ∀ i, l.lookup n = some i →
      ∀ j, i.bit = some j → j < 16 := by
    intro l
    induction l with
    | nil => intro _ i hi; cases hi
    | cons p l ih =>
      intro hl i hi
      unfold List.lookup at hi
      split at hi
      · cases hi; exact hl _ (List.mem_cons_self ..)
      · exact ih (fun q hq => hl q (List.mem_cons_of_mem _ hq)) i hi
  unfold modeBit at h
  cases hl : (if dec = true then decTable else ansiTable).lookup n with
  | none => rw [hl] at h; cases h
  | some i =>
    rw [hl] at h
    refine key _ ?_ i hl k h
    cases dec
    · intro p hp j hj
      simp only [ansiTable, Bool.false_eq_true, if_false, List.mem_cons, List.not_mem_nil, or_false] at hp
      rcases hp with hp | hp | hp | hp <;> subst hp <;> cases hj <;> decide
    · intro p hp j hj
      simp only [decTable, if_true, List.mem_cons, List.not_mem_nil, or_false] at hp
      rcases hp with hp | hp | hp | hp | hp | hp | hp | hp | hp <;> subst hp <;> cases hj <;> decide

/-- All modes of a list. -/
theorem modeLoop_plain (dec set : Bool) (n : Nat → Nat) : ∀ (is : List Nat) (w : Vte), w.fInhibit = false →
    w.cWhat = dec → (∀ i ∈ is, ∃ a, w.arg i = .ok a ∧ WrittenAs (n i) a ∧ (dec = true → n i ∉ otherModes)) →
    ∃ fl : BitVec 32, (∀ j, j < 32 → fl.getLsbD j =
        if ∃ i ∈ is, modeBit dec (n i) = some j then set else w.flags.getLsbD j) ∧
      modeLoop set w is = (Screen.runAll (is.flatMap fun i => modeCalls dec set (n i)) w.con >>=
        fun s => pure { w with con := s, flags := fl }) := by
  intro is
  induction is with
  | nil =>
    intro w _ _ _
    exact ⟨w.flags, fun j _ => by rw [if_neg (by simp)], rfl⟩
  | cons i is ih =>
    intro w hi hw ha
    obtain ⟨a, h1, h2, h3⟩ := ha i (List.mem_cons_self ..)
    have e1 := modeOne_plain set hi hw h1 h2 h3
    have hf := fun j hj => withBit_flags set (modeBit dec (n i)) w (j := j) hj
    have hs := withBit_same set (modeBit dec (n i)) w
    generalize withBit set (modeBit dec (n i)) w = u at e1 hf hs
    -- the flags after the whole list do not depend on the screen
    have hu : ∀ s, ∃ fl : BitVec 32, (∀ j, j < 32 → fl.getLsbD j =
        if ∃ i ∈ is, modeBit dec (n i) = some j then set else u.flags.getLsbD j) ∧
        modeLoop set { u with con := s } is = (Screen.runAll (is.flatMap fun i => modeCalls dec set (n i)) s >>=
          fun s => pure { ({ u with con := s } : Vte) with con := s, flags := fl }) := by
      intro s
      obtain ⟨fl, f1, f2⟩ := ih { u with con := s } (by
          show u.flags.getLsbD 17 = false
          rw [hf 17 (by decide), if_neg]
          · exact hi
          · intro hh; exact absurd (inhibit_bit hh) (by decide)) (by rw [hs]; exact hw) (by
          intro k hk
          obtain ⟨a, h⟩ := ha k (List.mem_cons_of_mem _ hk)
          refine ⟨a, ?_, h.2⟩
          rw [hs]
          exact h.1)
      exact ⟨fl, f1, f2⟩
    obtain ⟨fl, f1, _⟩ := hu u.con
    refine ⟨fl, ?_, ?_⟩
    · intro j hj
      rw [f1 j hj, hf j hj]
      by_cases hx : ∃ i ∈ is, modeBit dec (n i) = some j
      · rw [if_pos hx, if_pos]
        obtain ⟨k, hk, hk'⟩ := hx
        exact ⟨k, List.mem_cons_of_mem _ hk, hk'⟩
      · rw [if_neg hx]
        by_cases hy : modeBit dec (n i) = some j
        · rw [if_pos hy, if_pos ⟨i, List.mem_cons_self .., hy⟩]
        · rw [if_neg hy, if_neg]
          intro ⟨k, hk, hk'⟩
          rcases List.mem_cons.1 hk with hk | hk
          · subst hk; exact hy hk'
          · exact hx ⟨k, hk, hk'⟩
    · unfold modeLoop
      rw [e1, List.flatMap_cons, runAll_app]
      unfold scrs
      rw [show u.con = w.con from by rw [hs]]
      cases hr : Screen.runAll (modeCalls dec set (n i)) w.con with
      | error e => rfl
      | ok s =>
        show modeLoop set { u with con := s } is = (Screen.runAll _ s >>= _)
        obtain ⟨fl', g1, g2⟩ := hu s
        have : fl' = fl := by
          apply BitVec.eq_of_getLsbD_eq
          intro j hj
          rw [g1 j hj, f1 j hj]
        rw [g2, this]
        refine congrArg _ (funext fun s' => ?_)
        rw [hs]

theorem devAttr_asked {w : Vte} {a : Int} (hc : w.argc ≤ 1) (ha : w.arg 0 = .ok a) (h : a ≤ 0) :
    w.devAttr = if w.csiFlags = 0 then w.reply primaryDa
      else if w.cGt then w.reply [27, 91, 62, 49, 59, 49, 59, 48, 99] else .ok w := by
  unfold Vte.devAttr
  rw [ha]
  show (if w.argc ≤ 1 ∧ a ≤ 0 then _ else _) = _
  rw [if_pos (show w.argc ≤ 1 ∧ a ≤ 0 from ⟨hc, h⟩)]
  rfl

theorem devAttr_other {w : Vte} {a : Int} (ha : w.arg 0 = .ok a) (h : ¬ a ≤ 0) : w.devAttr = .ok w := by
  unfold Vte.devAttr
  rw [ha]
  show (if w.argc ≤ 1 ∧ a ≤ 0 then _ else _) = _
  rw [if_neg (show ¬ (w.argc ≤ 1 ∧ a ≤ 0) from fun hh => h hh.2)]
  rfl

theorem lookup_mem {α : Type} {n : Nat} {x : α} : ∀ {l : List (Nat × α)}, l.lookup n = some x → (n, x) ∈ l
  | [], h => by cases h
  | (m, y) :: l, h => by
    rw [List.lookup_cons] at h
    by_cases hm : (n == m) = true
    · rw [hm] at h
      have := eq_of_beq hm
      injection h with h
      subst h this
      exact List.mem_cons_self ..
    · rw [Bool.not_eq_true] at hm
      rw [hm] at h
      exact List.mem_cons_of_mem _ (lookup_mem h)

/-- Which mode owns a bit. -/
theorem modeBit_iff {dec : Bool} {n k : Nat} : modeBit dec n = some k ↔
    (dec, n, k) ∈ [(false, 2, 6), (false, 4, 7), (false, 12, 8), (false, 20, 2), (true, 1, 0), (true, 5, 10), (true, 6, 11),
      (true, 7, 12), (true, 8, 13), (true, 25, 9), (true, 42, 14)] := by
  constructor
  · intro h
    unfold modeBit at h
    obtain ⟨x, h1, h2⟩ := Option.bind_eq_some_iff.1 h
    have h1 := lookup_mem h1
    cases dec with
    | false =>
      simp only [ansiTable, Bool.false_eq_true, if_false, List.mem_cons, Prod.mk.injEq, List.not_mem_nil, or_false] at h1
      rcases h1 with ⟨h1, h3⟩ | ⟨h1, h3⟩ | ⟨h1, h3⟩ | ⟨h1, h3⟩ <;> subst h1 h3 <;>
        (injection h2 with h2; subst h2; decide)
    | true =>
      simp only [decTable, if_true, List.mem_cons, Prod.mk.injEq, List.not_mem_nil, or_false] at h1
      rcases h1 with ⟨h1, h3⟩ | ⟨h1, h3⟩ | ⟨h1, h3⟩ | ⟨h1, h3⟩ | ⟨h1, h3⟩ | ⟨h1, h3⟩ | ⟨h1, h3⟩ | ⟨h1, h3⟩ | ⟨h1, h3⟩ <;>
        subst h1 h3 <;> first | (injection h2 with h2; subst h2; decide) | cases h2
  · intro h
    simp only [List.mem_cons, Prod.mk.injEq, List.not_mem_nil, or_false] at h
    rcases h with h | h | h | h | h | h | h | h | h | h | h <;> (obtain ⟨rfl, rfl, rfl⟩ := h; decide)

end Vte
end Verif
