import Verif.Proofs.Vte.Stream

/-!
# Control sequences as a whole
-/

namespace Verif
namespace Vte

/-- A screen function that succeeds. -/
theorem scr_ok {v : Vte} {c : Screen.Call} {s : Screen} (h : c.run v.con = .ok s) : v.scr c = .ok { v with con := s } := by
  unfold Vte.scr
  rw [h]
  rfl

theorem counted_inSeq {v : Vte} {st : PState} {k : Nat} (hk : 0 < k) {l : List Int} {fl : BitVec 32} {m : Utf8.Mach} :
    (if (inSeq v st (min 16 (k - 1)) l fl m).argc < 16 then
      { inSeq v st (min 16 (k - 1)) l fl m with argc := (inSeq v st (min 16 (k - 1)) l fl m).argc + 1 }
      else inSeq v st (min 16 (k - 1)) l fl m) = inSeq v st (min 16 k) l fl m := by
  change (if min 16 (k - 1) < 16 then _ else _) = _
  by_cases h : k - 1 < 16
  · rw [if_pos (by omega), show min 16 k = min 16 (k - 1) + 1 by omega]
    rfl
  · rw [if_neg (by omega), show min 16 k = min 16 (k - 1) by omega]

/-- `ESC [`, parameters and a final character run the corresponding function. -/
theorem input_csi {v : Vte} (h : Ok v) (hb : Between v) {qs : List (List UInt8)} (hq : qs ≠ [])
    (hd : ∀ q ∈ qs, ∀ d ∈ q, IsDigit d) {b : UInt8} (h1 : 0x40 ≤ b.toNat) (h2 : b.toNat ≤ 0x7e) :
    ∃ (m : Utf8.Mach) (st : PState), Btw v.flags m ∧ v.input (27 :: 91 :: (joined qs ++ [b])) =
      ((inSeq v.up st (min 16 qs.length) (padded (qs.map value)) 0 m).csiRun (csiKind b.toNat) >>=
        fun v' => pure { v' with state := .ground }.down) := by
  obtain ⟨m, st, hm, e⟩ := csi_ok h.more hb.up hq hd h1 h2
  refine ⟨m, st, hm, ?_⟩
  rw [input_def, e]
  unfold Vte.csiDispatch
  rw [counted_inSeq (List.length_pos_iff.2 hq)]
  cases (inSeq v.up st (min 16 qs.length) (padded (qs.map value)) 0 m).csiRun (csiKind b.toNat) <;> rfl

/-- The same with a private marker. -/
theorem input_csi_marked {v : Vte} (h : Ok v) (hb : Between v) {p : UInt8} (hp : 0x3c ≤ p.toNat) (hp' : p.toNat ≤ 0x3f)
    {qs : List (List UInt8)} (hq : qs ≠ [])
    (hd : ∀ q ∈ qs, ∀ d ∈ q, IsDigit d) {b : UInt8} (h1 : 0x40 ≤ b.toNat) (h2 : b.toNat ≤ 0x7e) :
    ∃ (m : Utf8.Mach), Btw v.flags m ∧ v.input (27 :: 91 :: p :: (joined qs ++ [b])) =
      ((inSeq v.up .csiParam (min 16 qs.length) (padded (qs.map value)) (collectFlag p.toNat) m).csiRun
        (csiKind b.toNat) >>= fun v' => pure { v' with state := .ground }.down) := by
  obtain ⟨m, hm, e⟩ := csi_marked_ok h.more hb.up hp hp' hq hd h1 h2
  refine ⟨m, hm, ?_⟩
  rw [input_def, e]
  unfold Vte.csiDispatch
  rw [counted_inSeq (List.length_pos_iff.2 hq)]
  cases (inSeq v.up .csiParam (min 16 qs.length) (padded (qs.map value)) (collectFlag p.toNat) m).csiRun
    (csiKind b.toNat) <;> rfl

theorem padded_getElem {l : List Int} {i : Nat} (hi : i < 16) : (padded l)[i]? = some (l[i]?.getD (-1)) := by
  unfold padded
  rw [List.getElem?_take_of_lt hi]
  by_cases h : i < l.length
  · rw [List.getElem?_append_left h, List.getElem?_eq_getElem h]
    rfl
  · rw [List.getElem?_append_right (by omega), List.getElem?_replicate, if_pos (by omega),
      List.getElem?_eq_none (by omega)]
    rfl

theorem arg_inSeq {v : Vte} {st : PState} {n : Nat} {l : List Int} {fl : BitVec 32} {m : Utf8.Mach} {i : Nat}
    (hi : i < 16) : (inSeq v st n (padded l) fl m).arg i = .ok (l[i]?.getD (-1)) := by
  unfold Vte.arg
  change (match (padded l)[i]? with | some a => _ | none => _) = _
  rw [padded_getElem hi]

/-- A parameter used as a count: at least 1. -/
def count (a : Int) : Nat := if a ≤ 0 then 1 else a.toNat

theorem num1_inSeq {v : Vte} {st : PState} {n : Nat} {l : List Int} {fl : BitVec 32} {m : Utf8.Mach} {i : Nat}
    (hi : i < 16) : (inSeq v st n (padded l) fl m).num1 i = .ok (count (l[i]?.getD (-1))) := by
  unfold Vte.num1
  rw [arg_inSeq hi]
  rfl

/-! ### Numbers -/

theorem number_from (a : Nat) (q : List UInt8) : a ≤ q.foldl (fun a d => 10 * a + (d.toNat - 48)) a := by
  induction q generalizing a with
  | nil => exact Nat.le_refl _
  | cons d q ih =>
    refine Nat.le_trans ?_ (ih (10 * a + (d.toNat - 48)))
    omega

/-- A saturating value is the number, or both are large. -/
theorem value_from : ∀ (q : List UInt8), (∀ d ∈ q, IsDigit d) → ∀ (a : Nat) (b : Int),
    (b = a ∧ a ≤ 655359) ∨ (65535 < b ∧ 655359 < a) →
    (q.foldl (fun a d => if 65535 < a then a else 10 * a + ((d.toNat : Int) - 48)) b =
      (q.foldl (fun a d => 10 * a + (d.toNat - 48)) a : Nat) ∧ q.foldl (fun a d => 10 * a + (d.toNat - 48)) a ≤ 655359) ∨
    (65535 < q.foldl (fun a d => if 65535 < a then a else 10 * a + ((d.toNat : Int) - 48)) b ∧
      655359 < q.foldl (fun a d => 10 * a + (d.toNat - 48)) a) := by
  intro q
  induction q with
  | nil => intro _ a b h; exact h
  | cons d q ih =>
    intro hq a b h
    have hd := hq d (List.mem_cons_self ..)
    unfold IsDigit at hd
    apply ih (fun d hd => hq d (List.mem_cons_of_mem _ hd))
    dsimp only
    split <;> omega

theorem value_number {q : List UInt8} (hq : ∀ d ∈ q, IsDigit d) (h0 : q ≠ []) :
    (value q = number q ∧ number q ≤ 655359) ∨ (65535 < value q ∧ 655359 < number q) := by
  unfold value number
  rw [if_neg h0]
  exact value_from q hq 0 0 (by omega)

/-- A 1-based coordinate in a range of size `k`. -/
theorem count_number {q : List UInt8} (hq : ∀ d ∈ q, IsDigit d) {k : Nat} (hk : number q ≤ 655359 ∨ k ≤ 65536) :
    min (count (value q) - 1) (k - 1) = min (number q - 1) (k - 1) := by
  by_cases h0 : q = []
  · subst h0; rfl
  · unfold count
    rcases value_number hq h0 with ⟨h, h'⟩ | ⟨h, h'⟩
    · split <;> omega
    · split <;> omega

theorem count_number_eq {q : List UInt8} (hq : ∀ d ∈ q, IsDigit d) (hk : number q ≤ 655359) :
    count (value q) - 1 = number q - 1 := by
  by_cases h0 : q = []
  · subst h0; rfl
  · unfold count
    rcases value_number hq h0 with ⟨h, h'⟩ | ⟨h, h'⟩
    · split <;> omega
    · omega

theorem value_bounds {q : List UInt8} (hq : ∀ d ∈ q, IsDigit d) : -1 ≤ value q ∧ value q ≤ 655359 := by
  unfold value
  split
  · decide
  · have : ∀ (q : List UInt8), (∀ d ∈ q, IsDigit d) → ∀ a : Int, 0 ≤ a → a ≤ 655359 →
        0 ≤ q.foldl (fun a d => if 65535 < a then a else 10 * a + ((d.toNat : Int) - 48)) a ∧
        q.foldl (fun a d => if 65535 < a then a else 10 * a + ((d.toNat : Int) - 48)) a ≤ 655359 := by
      intro q
      induction q with
      | nil => intro _ a h0 h1; exact ⟨h0, h1⟩
      | cons d q ih =>
        intro hq a h0 h1
        have hd := hq d (List.mem_cons_self ..)
        unfold IsDigit at hd
        apply ih (fun d hd => hq d (List.mem_cons_of_mem _ hd))
        · dsimp only
          split <;> omega
        · dsimp only
          split <;> omega
    have := this q hq 0 (by decide) (by decide)
    omega

/-! ### Decimal digits -/

theorem number_snoc (q : List UInt8) (d : UInt8) : number (q ++ [d]) = 10 * number q + (d.toNat - 48) := by
  unfold number
  rw [List.foldl_append]
  rfl

theorem digitByte {n : Nat} (h : n < 10) : (UInt8.ofNat (48 + n)).toNat = 48 + n := by
  rw [UInt8.toNat_ofNat']
  exact Nat.mod_eq_of_lt (by omega)

/-- `%u` writes the number in decimal. -/
theorem decF_spec : ∀ (f n : Nat), n < 10 ^ f → 0 < f →
    number (decF f n) = n ∧ (∀ d ∈ decF f n, IsDigit d) ∧ decF f n ≠ [] ∧ (decF f n).length ≤ f ∧
    (0 < n → (decF f n).head? ≠ some 48) := by
  intro f
  induction f with
  | zero => intro n _ h; cases h
  | succ f ih =>
    intro n hn _
    unfold decF
    by_cases h : n < 10
    · rw [if_pos h]
      have hb := digitByte h
      refine ⟨?_, ?_, List.cons_ne_nil _ _, ?_, ?_⟩
      · show 10 * 0 + ((UInt8.ofNat (48 + n)).toNat - 48) = n
        rw [hb]
        omega
      · intro d hd
        rw [List.mem_singleton] at hd
        subst hd
        unfold IsDigit
        rw [hb]
        omega
      · show 1 ≤ f + 1
        omega
      · intro hp he
        have he : UInt8.ofNat (48 + n) = 48 := Option.some.inj he
        have := congrArg UInt8.toNat he
        rw [hb] at this
        change 48 + n = 48 at this
        omega
    · rw [if_neg h]
      have hf : 0 < f := by
        rcases Nat.eq_zero_or_pos f with h0 | h0
        · subst h0; simp at hn; omega
        · exact h0
      have hlt : n / 10 < 10 ^ f := by
        rw [Nat.pow_succ] at hn
        omega
      obtain ⟨i1, i2, i3, i4, i5⟩ := ih (n / 10) hlt hf
      have hb := digitByte (n := n % 10) (by omega)
      refine ⟨?_, ?_, by simp, ?_, ?_⟩
      · rw [number_snoc, i1, hb]
        omega
      · intro d hd
        rcases List.mem_append.1 hd with hd | hd
        · exact i2 d hd
        · rw [List.mem_singleton] at hd
          subst hd
          unfold IsDigit
          rw [hb]
          omega
      · rw [List.length_append, List.length_singleton]
        omega
      · intro _
        have h5 := i5 (by omega)
        cases hdf : decF f (n / 10) with
        | nil => exact absurd hdf i3
        | cons x xs => rw [hdf] at h5; exact h5

theorem dec_spec {n : Nat} (h : n < 2 ^ 32) :
    number (dec n) = n ∧ (∀ d ∈ dec n, IsDigit d) ∧ dec n ≠ [] ∧ (dec n).length ≤ 10 ∧ (0 < n → (dec n).head? ≠ some 48) :=
  decF_spec 10 n (by omega) (by omega)

/-! ### Replies -/

theorem send_ok {v : Vte} (h : v.fPrepend = false) (b : List UInt8) :
    v.send b = { v with log := v.log ++ [.write b] } := by
  have hf : v.flags &&& ~~~ (BitVec.twoPow 32 16) = v.flags := by
    apply BitVec.eq_of_getLsbD_eq
    intro i hi
    rw [BitVec.getLsbD_and, BitVec.getLsbD_not, BitVec.getLsbD_twoPow]
    by_cases hj : i = 16
    · subst hj
      rw [show v.flags.getLsbD 16 = false from h]; rfl
    · have : ¬ (16 = i) := fun h => hj h.symm
      simp [hi, this]
  unfold Vte.send
  rw [if_neg (by rw [h]; decide)]
  show { v with log := v.log ++ [Event.write b], flags := v.flags &&& ~~~ (BitVec.twoPow 32 16) } = _
  rw [hf]

theorem reply_ok {v : Vte} (hp : 0 < v.parseCnt) (h : v.fPrepend = false) (b : List UInt8) :
    v.reply b = .ok { v with log := v.log ++ [.write b] } := by
  unfold Vte.reply
  rw [if_neg (by omega), send_ok h]

/-! ### Escape sequences -/

/-- The second characters that do not finish an escape sequence: `P X [ ] ^ _`. -/
def Introducer (b : UInt8) : Prop := b ∈ ([0x50, 0x58, 0x5b, 0x5d, 0x5e, 0x5f] : List UInt8)

/-- `ESC` and a final character. -/
theorem loop_esc {v : Vte} (h : Ok v) (hb : Between v) {b : UInt8} (h1 : 0x30 ≤ b.toNat) (h2 : b.toNat ≤ 0x7e)
    (hi : ¬ Introducer b) :
    ∃ (m : Utf8.Mach), Btw v.flags m ∧ v.inputLoop [27, b] =
      ((inSeq v .esc 0 noArgs 0 m).escPlain b.toNat >>= fun v' => pure { v' with state := .ground }) := by
  obtain ⟨m1, hm1, e1⟩ := esc_ok h hb
  obtain ⟨m2, hm2, e2⟩ := inputByte_ascii (v := inSeq v .esc 0 noArgs 0 m1) (inSeq_between hm1) (b := b) (by omega)
  refine ⟨m2, hm2, ?_⟩
  rw [inputLoop_ok e1, inputLoop_one, e2]
  change (inSeq v .esc 0 noArgs 0 m2).parse b.toNat = _
  have hn : nextOf .esc b.toNat = (.ground, .escDispatch) := by
    rw [nextOf_ascii (by omega) (by omega)]
    have hne : ∀ k : UInt8, k ∈ ([0x50, 0x58, 0x5b, 0x5d, 0x5e, 0x5f] : List UInt8) → b.toNat ≠ k.toNat := by
      intro k hk e
      exact hi (UInt8.toNat_inj.1 e ▸ hk)
    have n1 : b.toNat ≠ 0x50 := hne 0x50 (by decide)
    have n2 : b.toNat ≠ 0x58 := hne 0x58 (by decide)
    have n3 : b.toNat ≠ 0x5b := hne 0x5b (by decide)
    have n4 : b.toNat ≠ 0x5d := hne 0x5d (by decide)
    have n5 : b.toNat ≠ 0x5e := hne 0x5e (by decide)
    have n6 : b.toNat ≠ 0x5f := hne 0x5f (by decide)
    unfold stateTrans; dsimp only
    rw [if_neg (by unfold isC0; omega), if_neg (by omega), if_neg (by omega), if_pos (by omega)]
  have hd : (inSeq v .esc 0 noArgs 0 m2).escDispatch b.toNat = (inSeq v .esc 0 noArgs 0 m2).escPlain b.toNat := by
    unfold Vte.escDispatch
    have hc : (escCharset b.toNat).bind (inSeq v .esc 0 noArgs 0 m2).setCharset = none := by
      have hs : ∀ c, (inSeq v .esc 0 noArgs 0 m2).setCharset c = none := by
        intro c
        unfold Vte.setCharset
        rw [if_neg (by change ¬ ((0 : BitVec 32).getLsbD 9 = true); decide),
          if_neg (by change ¬ ((0 : BitVec 32).getLsbD 10 = true); decide),
          if_neg (by change ¬ ((0 : BitVec 32).getLsbD 7 = true); decide),
          if_neg (by change ¬ ((0 : BitVec 32).getLsbD 8 = true); decide)]
      cases escCharset b.toNat with
      | none => rfl
      | some c => exact hs c
    rw [hc]
    show (inSeq v .esc 0 noArgs 0 m2).escOther b.toNat = _
    unfold Vte.escOther
    rw [if_neg (by intro hh; exact absurd hh.2 (by change ¬ ((0 : BitVec 32).getLsbD 4 = true); decide)),
      if_neg (by intro hh; exact absurd hh.2 (by change ¬ ((0 : BitVec 32).getLsbD 4 = true); decide)),
      if_neg (by change ¬ ((0 : BitVec 32) ≠ 0); decide)]
  unfold Vte.parse Vte.trans
  rw [show (inSeq v .esc 0 noArgs 0 m2).state = .esc from rfl, hn, if_neg (by decide)]
  simp only [exitAction, entryAction, Vte.action, bind, Except.bind, hd]

/-- `ESC` and a final character, as one input. -/
theorem input_esc {v : Vte} (h : Ok v) (hb : Between v) {b : UInt8} (h1 : 0x30 ≤ b.toNat) (h2 : b.toNat ≤ 0x7e)
    (hi : ¬ Introducer b) :
    ∃ (m : Utf8.Mach), Btw v.flags m ∧ v.input [27, b] =
      ((inSeq v.up .esc 0 noArgs 0 m).escPlain b.toNat >>= fun v' => pure { v' with state := .ground }.down) := by
  obtain ⟨m, hm, e⟩ := loop_esc h.more hb.up h1 h2 hi
  refine ⟨m, hm, ?_⟩
  rw [input_def, e]
  cases (inSeq v.up .esc 0 noArgs 0 m).escPlain b.toNat <;> rfl

/-! ### Effects -/

theorem effect_inSeq {v : Vte} {st : PState} {n : Nat} {l : List Int} {fl : BitVec 32} {m : Utf8.Mach} (s : Screen)
    (evs : List Event) :
    Effect v ({ { inSeq v.up st n l fl m with con := s, log := (v.log ++ v.pendingOsc) ++ evs } with
      state := .ground }.down) s evs := rfl

theorem effect_scr {v : Vte} {st : PState} {n : Nat} {l : List Int} {fl : BitVec 32} {m : Utf8.Mach}
    {x : R Vte} {c : Screen.Call} {s : Screen}
    (e : x = ((inSeq v.up st n l fl m).scr c >>= fun v' => pure { v' with state := .ground }.down))
    (h : c.run v.con = .ok s) : ∃ v', x = .ok v' ∧ v'.state = .ground ∧ Effect v v' s [] := by
  rw [scr_ok (v := inSeq v.up st n l fl m) (s := s) h] at e
  refine ⟨_, e, rfl, ?_⟩
  have := effect_inSeq (v := v) (st := st) (n := n) (l := l) (fl := fl) (m := m) s []
  rw [List.append_nil] at this
  exact this

theorem moveTo_view {s : Screen} (h : Screen.Inv s) (x y : Nat) (hy : y < 2 ^ 31) :
    ∃ s', (Screen.Call.moveTo x y).run s = .ok s' ∧ s'.view = { s.view with
      cursorX := min x (s.sizeX - 1)
      cursorY := if s.flags.getLsbD 2 then min (s.marginTop + y) s.marginBottom
        else min y (s.sizeY - 1) } := by
  refine ⟨_, Screen.moveTo_eq h x y, ?_⟩
  rw [Screen.moved_view, Screen.incAge_view]
  have hg := h.geo
  have h1 := hg.mtb
  have h2 := hg.mby
  have h3 := hg.yb
  have : u32 (s.marginTop + y) = s.marginTop + y := Nat.mod_eq_of_lt (by omega)
  rw [this]

end Vte
end Verif
