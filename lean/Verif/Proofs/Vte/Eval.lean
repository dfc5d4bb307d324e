import Verif.Proofs.Vte.Input

/-!
# Running the parser on control sequences
-/

namespace Verif
namespace Vte

/-! ### Bytes and characters -/

theorem conv_ascii {b : UInt8} (sg : Bool) (h : b.toNat < 128) : Utf8.conv sg b = b.toNat := by
  unfold Utf8.conv
  rw [if_neg (by omega)]

theorem and7f {n : Nat} (h : n < 128) : n &&& 0x7f = n := by
  have : n &&& (2 ^ 7 - 1) = n % 2 ^ 7 := Nat.and_two_pow_sub_one_eq_mod n 7
  rw [show (0x7f : Nat) = 2 ^ 7 - 1 from rfl, this]
  exact Nat.mod_eq_of_lt h

theorem and80 {n : Nat} (h : n < 128) : n &&& 0x80 = 0 := by
  have : ∀ k : Fin 128, k.val &&& 0x80 = 0 := by decide
  exact this ⟨n, h⟩

theorem feed_ascii {m : Utf8.Mach} {b : UInt8} (sg : Bool) (h : b.toNat < 128)
    (hm : m.state = .start ∨ m.state = .accept ∨ m.state = .reject) :
    Utf8.feed sg m b = ⟨.accept, b.toNat⟩ := by
  unfold Utf8.feed
  have hc := conv_ascii sg h
  have ha := and80 h
  dsimp only
  rw [hc]
  rcases hm with hm | hm | hm <;> rw [hm] <;> dsimp only <;>
    rw [if_neg (by omega), if_pos ha]

/-- An ASCII byte between characters is a character. -/
theorem rawOf_ascii {v : Vte} (hb : Between v) {b : UInt8} (h : b.toNat < 128) : v.rawOf b = some b.toNat := by
  unfold Vte.rawOf
  rcases Bool.eq_false_or_eq_true v.f7bit with h7 | h7
  · rw [if_pos h7, and7f h]
  · rw [if_neg (by rw [h7]; decide)]
    rcases Bool.eq_false_or_eq_true v.f8bit with h8 | h8
    · rw [if_pos h8, conv_ascii _ h]
    · rw [if_neg (by rw [h8]; decide)]
      have hm : v.mach.state = .start ∨ v.mach.state = .accept ∨ v.mach.state = .reject := by
        rcases hb with hb | hb | hb
        · rw [hb] at h7; cases h7
        · rw [hb] at h8; cases h8
        · exact hb
      rw [feed_ascii _ h hm]
      rfl

/-- The decoder is between characters, in terms of its state and the flags. -/
def Btw (fl : BitVec 32) (m : Utf8.Mach) : Prop :=
  fl.getLsbD 4 = true ∨ fl.getLsbD 3 = true ∨ m.state = .start ∨ m.state = .accept ∨ m.state = .reject

theorem machOf_btw {v : Vte} (hb : Between v) {b : UInt8} (h : b.toNat < 128) : Btw v.flags (v.machOf b) := by
  unfold Vte.machOf
  split
  · exact hb
  · rename_i h'
    have hm : v.mach.state = .start ∨ v.mach.state = .accept ∨ v.mach.state = .reject := by
      rcases hb with hb | hb | hb
      · exact absurd (Or.inl hb) h'
      · exact absurd (Or.inr hb) h'
      · exact hb
    rw [feed_ascii _ h hm]
    exact Or.inr (Or.inr (Or.inr (Or.inl rfl)))

theorem inputByte_ascii {v : Vte} (hb : Between v) {b : UInt8} (h : b.toNat < 128) :
    ∃ m, Btw v.flags m ∧ v.inputByte b = { v with mach := m }.parse b.toNat := by
  refine ⟨v.machOf b, machOf_btw hb h, ?_⟩
  rw [inputByte_eq, rawOf_ascii hb h]

theorem inputLoop_append (a b : List UInt8) (v : Vte) :
    v.inputLoop (a ++ b) = (v.inputLoop a >>= fun v' => v'.inputLoop b) := by
  induction a generalizing v with
  | nil => rfl
  | cons x a ih =>
    show (v.inputByte x >>= fun v => v.inputLoop (a ++ b)) = ((v.inputByte x >>= fun v => v.inputLoop a) >>= _)
    cases v.inputByte x with
    | ok t => exact ih t
    | error e => rfl

theorem inputLoop_one (b : UInt8) (v : Vte) : v.inputLoop [b] = v.inputByte b := by
  show (v.inputByte b >>= fun v => .ok v) = _
  cases v.inputByte b <;> rfl

theorem inputLoop_cons (b : UInt8) (bs : List UInt8) (v : Vte) :
    v.inputLoop (b :: bs) = (v.inputByte b >>= fun v' => v'.inputLoop bs) := rfl

theorem inputLoop_ok {b : UInt8} {bs : List UInt8} {v v' : Vte} (h : v.inputByte b = .ok v') :
    v.inputLoop (b :: bs) = v'.inputLoop bs := by rw [inputLoop_cons, h]; rfl

/-! ### Leaving a state -/

theorem blit_nul {l : List UInt8} {n : Nat} (hl : l.length = 128) (hn : n ≤ 127) :
    ∃ a, blit l [0] n = .ok a ∧ a.take n = l.take n := by
  refine ⟨l.take n ++ [0] ++ l.drop (n + 1), ?_, ?_⟩
  · unfold blit
    rw [if_pos (by simp only [List.length_cons, List.length_nil, hl]; omega)]
    rfl
  · rw [List.append_assoc, List.take_append_of_le_length (by simp; omega), List.take_take]
    simp

theorem exit_ok {v : Vte} (h : Ok v) (data : Nat) :
    ∃ a, v.action data (exitAction v.state) = .ok { v with oscArg := a, log := v.log ++ v.pendingOsc } := by
  unfold Vte.pendingOsc
  by_cases hs : v.state = .oscString
  · have hx : exitAction v.state = .oscEnd := by rw [hs]; rfl
    rw [hx]
    show ∃ a, v.oscEnd = _
    unfold Vte.oscEnd
    by_cases hc : v.oscCb = true
    · obtain ⟨a, ea, et⟩ := blit_nul h.oscl h.osc
      rw [if_pos hc, if_pos ⟨hs, hc⟩, ea]
      exact ⟨a, by rw [← et]; rfl⟩
    · rw [if_neg hc, if_neg (by intro hh; exact hc hh.2)]
      exact ⟨v.oscArg, by rw [List.append_nil]⟩
  · rw [if_neg (by intro hh; exact hs hh.1)]
    refine ⟨v.oscArg, ?_⟩
    rw [List.append_nil]
    have hx : exitAction v.state = .none ∨ exitAction v.state = .dcsEnd := by
      cases hst : v.state with
      | oscString => exact absurd hst hs
      | dcsPass => exact Or.inr rfl
      | _ => exact Or.inl rfl
    rcases hx with hx | hx <;> rw [hx] <;> rfl

/-- The state of the emulator inside a control sequence that started in `v`. -/
def inSeq (v : Vte) (st : PState) (n : Nat) (l : List Int) (fl : BitVec 32) (m : Utf8.Mach) : Vte :=
  { v with
    state := st, argc := n, argv := l, csiFlags := fl, oscLen := 0, oscArg := List.replicate 128 0
    mach := m, log := v.log ++ v.pendingOsc }

theorem inSeq_between {v : Vte} {st : PState} {n : Nat} {l : List Int} {fl : BitVec 32} {m : Utf8.Mach}
    (hm : Btw v.flags m) : Between (inSeq v st n l fl m) := hm

/-- The parameters at the start of a sequence. -/
@[reducible] def noArgs : List Int := List.replicate 16 (-1)

theorem anywhere_none {n : Nat} (h : 0x20 ≤ n) (h' : n < 0x80) : anywhere n = none := by
  unfold anywhere
  repeat rw [if_neg (by omega)]

theorem nextOf_ascii {st : PState} {n : Nat} (h : 0x20 ≤ n) (h' : n < 0x80) : nextOf st n = stateTrans st n := by
  unfold nextOf; rw [anywhere_none h h']; rfl

theorem esc_ok {v : Vte} (h : Ok v) (hb : Between v) :
    ∃ m, Btw v.flags m ∧ v.inputByte 27 = .ok (inSeq v .esc 0 noArgs 0 m) := by
  obtain ⟨m, hm, e⟩ := inputByte_ascii hb (b := 27) (by decide)
  refine ⟨m, hm, ?_⟩
  rw [e]
  have h1 : Ok { v with mach := m } := h.mach m
  have en : nextOf v.state (27 : UInt8).toNat = (.esc, .none) := rfl
  unfold Vte.parse
  rw [show ({ v with mach := m } : Vte).state = v.state from rfl, en]
  unfold Vte.trans
  rw [if_neg (by decide)]
  obtain ⟨a, ea⟩ := exit_ok h1 (27 : UInt8).toNat
  rw [ea]
  rfl

theorem bracket_ok {v : Vte} {n : Nat} {l : List Int} {fl : BitVec 32} {m : Utf8.Mach} (hm : Btw v.flags m) :
    ∃ m', Btw v.flags m' ∧
      (inSeq v .esc n l fl m).inputByte 91 = .ok (inSeq v .csiEntry 0 noArgs 0 m') := by
  obtain ⟨m', hm', e⟩ := inputByte_ascii (v := inSeq v .esc n l fl m) (inSeq_between hm) (b := 91) (by decide)
  exact ⟨m', hm', e⟩

/-- `ESC [` starts a fresh control sequence from every state. -/
theorem csi_start {v : Vte} (h : Ok v) (hb : Between v) :
    ∃ m, Btw v.flags m ∧ ∀ bs, v.inputLoop (27 :: 91 :: bs) =
      (inSeq v .csiEntry 0 noArgs 0 m).inputLoop bs := by
  obtain ⟨m1, hm1, e1⟩ := esc_ok h hb
  obtain ⟨m2, hm2, e2⟩ := bracket_ok (v := v) (n := 0) (l := noArgs) (fl := 0) hm1
  exact ⟨m2, hm2, fun bs => by rw [inputLoop_ok e1, inputLoop_ok e2]⟩

/-! ### Parameters -/

/-- A parameter is being collected. -/
def Collecting (st : PState) : Prop := st = .csiEntry ∨ st = .csiParam

theorem param_next {st : PState} (hs : Collecting st) {n : Nat} (h : (0x30 ≤ n ∧ n ≤ 0x39) ∨ n = 0x3b) :
    ((nextOf st n).1 = .csiParam ∨ (nextOf st n).1 = .none ∧ st = .csiParam) ∧ (nextOf st n).2 = .param := by
  rw [nextOf_ascii (by omega) (by omega)]
  rcases hs with hs | hs <;> subst hs
  · have : stateTrans .csiEntry n = (.csiParam, .param) := by
      unfold stateTrans
      dsimp only
      rw [if_neg (by unfold isC0; omega), if_neg (by omega), if_neg (by omega), if_neg (by omega), if_pos h]
    rw [this]
    exact ⟨Or.inl rfl, rfl⟩
  · have : stateTrans .csiParam n = (.none, .param) := by
      unfold stateTrans
      dsimp only
      rw [if_neg (by unfold isC0; omega), if_pos h]
    rw [this]
    exact ⟨Or.inr ⟨rfl, rfl⟩, rfl⟩

/-- The effect of a digit on a value. -/
def addDigit (a : Int) (d : UInt8) : Int := if 65535 < a then a else digit a d.toNat

theorem padded_length (l : List Int) : (padded l).length = 16 := by
  unfold padded; simp

theorem padded_get {l : List Int} {a : Int} (h : l.length < 16) : (padded (l ++ [a]))[l.length]? = some a := by
  unfold padded
  rw [List.getElem?_take_of_lt h, List.append_assoc, List.getElem?_append_right (Nat.le_refl _)]
  simp

theorem padded_set {l : List Int} {a b : Int} :
    (padded (l ++ [a])).set l.length b = padded (l ++ [b]) := by
  unfold padded
  rw [← List.take_set]
  congr 1
  rw [List.append_assoc, List.append_assoc, List.set_append_right _ _ (Nat.le_refl _)]
  simp

theorem padded_big {l : List Int} {a : Int} (h : 16 ≤ l.length) : padded (l ++ [a]) = padded l := by
  unfold padded
  rw [List.append_assoc, List.take_append_of_le_length h, List.take_append_of_le_length h]

theorem padded_absent (l : List Int) : padded (l ++ [-1]) = padded l := by
  unfold padded
  rw [List.append_assoc, show ([-1] ++ List.replicate 16 (-1) : List Int) = List.replicate 17 (-1) from rfl,
    List.take_append, List.take_append, List.take_replicate, List.take_replicate]
  congr 2
  omega

theorem digit_ok {v : Vte} {st : PState} (hs : Collecting st) {l : List Int} {a : Int} {fl : BitVec 32}
    {m : Utf8.Mach} (hm : Btw v.flags m) {d : UInt8} (hd : IsDigit d) :
    ∃ m', Btw v.flags m' ∧ (inSeq v st (min 16 l.length) (padded (l ++ [a])) fl m).inputByte d =
      .ok (inSeq v .csiParam (min 16 l.length) (padded (l ++ [addDigit a d])) fl m') := by
  unfold IsDigit at hd
  obtain ⟨m', hm', e⟩ := inputByte_ascii (v := inSeq v st (min 16 l.length) (padded (l ++ [a])) fl m)
    (inSeq_between hm) (b := d) (by omega)
  refine ⟨m', hm', ?_⟩
  rw [e]
  change (inSeq v st (min 16 l.length) (padded (l ++ [a])) fl m').parse d.toNat = _
  have hp : (inSeq v st (min 16 l.length) (padded (l ++ [a])) fl m').param d.toNat =
      .ok (inSeq v st (min 16 l.length) (padded (l ++ [addDigit a d])) fl m') := by
    unfold Vte.param
    rw [if_neg (by omega)]
    change (if 16 ≤ min 16 l.length then _ else _) = _
    by_cases hl : 16 ≤ l.length
    · rw [if_pos (by omega), padded_big hl, padded_big hl]
    · rw [if_neg (by omega)]
      have hmin : min 16 l.length = l.length := by omega
      have ha : (inSeq v st (min 16 l.length) (padded (l ++ [a])) fl m').arg l.length = .ok a := by
        unfold Vte.arg
        change (match (padded (l ++ [a]))[l.length]? with | some a => _ | none => _) = _
        rw [padded_get (by omega)]
      have hc : (inSeq v st (min 16 l.length) (padded (l ++ [a])) fl m').argc = l.length := hmin
      rw [hc, ha]
      change (if 0xffff < a then _ else _) = _
      unfold addDigit
      by_cases hbig : (65535 : Int) < a
      · rw [if_pos hbig, if_pos hbig]; rfl
      · rw [if_neg hbig, if_neg hbig, if_pos hd]
        show Except.ok _ = _
        unfold inSeq
        dsimp only
        rw [padded_set, hmin]
  obtain ⟨h1, h2⟩ := param_next hs (n := d.toNat) (Or.inl hd)
  unfold Vte.parse Vte.trans
  rw [show (inSeq v st (min 16 l.length) (padded (l ++ [a])) fl m').state = st from rfl, h2]
  rcases h1 with h1 | ⟨h1, h3⟩
  · rw [h1, if_neg (by decide)]
    rcases hs with hs | hs <;> subst hs <;>
      simp only [exitAction, Vte.action, bind, Except.bind, entryAction, hp, pure, Except.pure] <;> rfl
  · rw [h1, if_pos rfl]
    subst h3
    exact hp

theorem semicolon_ok {v : Vte} {st : PState} (hs : Collecting st) {l : List Int} {a : Int} {fl : BitVec 32}
    {m : Utf8.Mach} (hm : Btw v.flags m) :
    ∃ m', Btw v.flags m' ∧ (inSeq v st (min 16 l.length) (padded (l ++ [a])) fl m).inputByte 59 =
      .ok (inSeq v .csiParam (min 16 (l ++ [a]).length) (padded ((l ++ [a]) ++ [-1])) fl m') := by
  obtain ⟨m', hm', e⟩ := inputByte_ascii (v := inSeq v st (min 16 l.length) (padded (l ++ [a])) fl m)
    (inSeq_between hm) (b := 59) (by decide)
  refine ⟨m', hm', ?_⟩
  rw [e, padded_absent]
  change (inSeq v st (min 16 l.length) (padded (l ++ [a])) fl m').parse 59 = _
  have hp : (inSeq v st (min 16 l.length) (padded (l ++ [a])) fl m').param 59 =
      .ok (inSeq v st (min 16 (l ++ [a]).length) (padded (l ++ [a])) fl m') := by
    unfold Vte.param
    rw [if_pos rfl]
    change Except.ok (if min 16 l.length < 16 then _ else _) = _
    rw [List.length_append, List.length_singleton]
    by_cases hl : 16 ≤ l.length
    · rw [if_neg (by omega), show min 16 (l.length + 1) = min 16 l.length by omega]
    · rw [if_pos (by omega), show min 16 (l.length + 1) = min 16 l.length + 1 by omega]
      rfl
  obtain ⟨h1, h2⟩ := param_next hs (n := 59) (Or.inr rfl)
  unfold Vte.parse Vte.trans
  rw [show (inSeq v st (min 16 l.length) (padded (l ++ [a])) fl m').state = st from rfl, h2]
  rcases h1 with h1 | ⟨h1, h3⟩
  · rw [h1, if_neg (by decide)]
    rcases hs with hs | hs <;> subst hs <;>
      simp only [exitAction, Vte.action, bind, Except.bind, entryAction, hp, pure, Except.pure] <;> rfl
  · rw [h1, if_pos rfl]
    subst h3
    exact hp

/-- The state after parameter characters. -/
def afterParams (st : PState) (bs : List UInt8) : PState := if bs = [] then st else .csiParam

theorem digits_ok {v : Vte} (q : List UInt8) (hq : ∀ d ∈ q, IsDigit d) : ∀ {st : PState}, Collecting st →
    ∀ {l : List Int} {a : Int} {fl : BitVec 32} {m : Utf8.Mach}, Btw v.flags m →
    ∃ m', Btw v.flags m' ∧ ∀ bs, (inSeq v st (min 16 l.length) (padded (l ++ [a])) fl m).inputLoop (q ++ bs) =
      (inSeq v (afterParams st q) (min 16 l.length) (padded (l ++ [q.foldl addDigit a])) fl m').inputLoop bs := by
  induction q with
  | nil => intro st hs l a fl m hm; exact ⟨m, hm, fun _ => rfl⟩
  | cons d q ih =>
    intro st hs l a fl m hm
    obtain ⟨m1, hm1, e1⟩ := digit_ok (v := v) hs (l := l) (a := a) (fl := fl) hm (hq d (List.mem_cons_self ..))
    obtain ⟨m2, hm2, e2⟩ := ih (fun d hd => hq d (List.mem_cons_of_mem _ hd)) (st := .csiParam) (Or.inr rfl)
      (l := l) (a := addDigit a d) (fl := fl) hm1
    refine ⟨m2, hm2, fun bs => ?_⟩
    rw [List.cons_append, inputLoop_ok e1, e2]
    have : afterParams .csiParam q = afterParams st (d :: q) := by
      unfold afterParams
      rw [if_neg (List.cons_ne_nil _ _)]
      split <;> rfl
    rw [this]
    rfl

theorem addDigit_pos {a : Int} (ha : 0 ≤ a) (d : UInt8) :
    addDigit a d = if 65535 < a then a else 10 * a + ((d.toNat : Int) - 48) := by
  unfold addDigit digit
  split
  · rfl
  · split <;> omega

theorem foldl_addDigit : ∀ (q : List UInt8), (∀ d ∈ q, IsDigit d) → ∀ (a : Int), 0 ≤ a →
    q.foldl addDigit a = q.foldl (fun a d => if 65535 < a then a else 10 * a + ((d.toNat : Int) - 48)) a := by
  intro q
  induction q with
  | nil => intro _ a _; rfl
  | cons d q ih =>
    intro hq a ha
    have hd := hq d (List.mem_cons_self ..)
    unfold IsDigit at hd
    show q.foldl addDigit (addDigit a d) = q.foldl _ (if 65535 < a then a else 10 * a + ((d.toNat : Int) - 48))
    rw [addDigit_pos ha]
    apply ih (fun d hd => hq d (List.mem_cons_of_mem _ hd))
    split <;> omega

theorem foldl_value (q : List UInt8) (hq : ∀ d ∈ q, IsDigit d) : q.foldl addDigit (-1) = value q := by
  unfold value
  cases q with
  | nil => rfl
  | cons d q =>
    have hd := hq d (List.mem_cons_self ..)
    unfold IsDigit at hd
    rw [if_neg (List.cons_ne_nil _ _)]
    show q.foldl addDigit (addDigit (-1) d) = _
    have : addDigit (-1) d = (if (65535 : Int) < 0 then 0 else 10 * 0 + ((d.toNat : Int) - 48)) := by
      unfold addDigit digit
      simp
    rw [this]
    apply foldl_addDigit q (fun d hd => hq d (List.mem_cons_of_mem _ hd))
    rw [if_neg (by decide)]
    omega

/-- Feeding parameters yields their values. -/
theorem params_ok {v : Vte} : ∀ (qs : List (List UInt8)), qs ≠ [] → (∀ q ∈ qs, ∀ d ∈ q, IsDigit d) →
    ∀ {st : PState}, Collecting st → ∀ {l : List Int} {fl : BitVec 32} {m : Utf8.Mach}, Btw v.flags m →
    ∃ m', Btw v.flags m' ∧ ∀ bs, (inSeq v st (min 16 l.length) (padded l) fl m).inputLoop (joined qs ++ bs) =
      (inSeq v (afterParams st (joined qs)) (min 16 (l.length + (qs.length - 1))) (padded (l ++ qs.map value)) fl
        m').inputLoop bs := by
  intro qs
  induction qs with
  | nil => intro h; exact absurd rfl h
  | cons q qs ih =>
    intro _ hq st hs l fl m hm
    have hq0 := hq q (List.mem_cons_self ..)
    obtain ⟨m1, hm1, e1⟩ := digits_ok (v := v) q hq0 hs (l := l) (a := -1) (fl := fl) hm
    rw [padded_absent, foldl_value q hq0] at e1
    cases qs with
    | nil =>
      refine ⟨m1, hm1, fun bs => ?_⟩
      show (inSeq v st (min 16 l.length) (padded l) fl m).inputLoop (q ++ bs) = _
      rw [e1]
      rfl
    | cons q' qs =>
      have hs1 : Collecting (afterParams st q) := by
        unfold afterParams
        split
        · exact hs
        · exact Or.inr rfl
      obtain ⟨m2, hm2, e2⟩ := semicolon_ok (v := v) hs1 (l := l) (a := value q) (fl := fl) hm1
      rw [padded_absent] at e2
      obtain ⟨m3, hm3, e3⟩ := ih (List.cons_ne_nil _ _) (fun q hqq => hq q (List.mem_cons_of_mem _ hqq))
        (st := .csiParam) (Or.inr rfl) (l := l ++ [value q]) (fl := fl) hm2
      refine ⟨m3, hm3, fun bs => ?_⟩
      show (inSeq v st (min 16 l.length) (padded l) fl m).inputLoop ((q ++ 59 :: joined (q' :: qs)) ++ bs) = _
      rw [List.append_assoc, e1]
      show (inSeq v (afterParams st q) (min 16 l.length) (padded (l ++ [value q])) fl m1).inputLoop
        (59 :: (joined (q' :: qs) ++ bs)) = _
      rw [inputLoop_ok e2, e3]
      have ha : afterParams .csiParam (joined (q' :: qs)) = afterParams st (joined (q :: q' :: qs)) := by
        unfold afterParams
        rw [if_neg (show joined (q :: q' :: qs) ≠ [] by
          show q ++ 59 :: joined (q' :: qs) ≠ []
          cases q <;> exact List.cons_ne_nil _ _)]
        split <;> rfl
      rw [ha]
      simp only [List.length_append, List.length_cons, List.length_nil, List.append_assoc, List.map_cons,
        List.singleton_append]
      congr 2
      omega

/-- The final character of a control sequence. -/
theorem final_ok {v : Vte} {st : PState} (hs : st = .csiEntry ∨ st = .csiParam ∨ st = .csiInt) {n : Nat} {l : List Int}
    {fl : BitVec 32} {m : Utf8.Mach} (hm : Btw v.flags m) {b : UInt8} (hb : 0x40 ≤ b.toNat) (hb' : b.toNat ≤ 0x7e) :
    ∃ m', Btw v.flags m' ∧ (inSeq v st n l fl m).inputByte b =
      ((inSeq v st n l fl m').csiDispatch b.toNat >>= fun v' => pure { v' with state := .ground }) := by
  obtain ⟨m', hm', e⟩ := inputByte_ascii (v := inSeq v st n l fl m) (inSeq_between hm) (b := b) (by omega)
  refine ⟨m', hm', ?_⟩
  rw [e]
  change (inSeq v st n l fl m').parse b.toNat = _
  have hn : nextOf st b.toNat = (.ground, .csiDispatch) := by
    rw [nextOf_ascii (by omega) (by omega)]
    rcases hs with hs | hs | hs <;> subst hs <;> unfold stateTrans <;> dsimp only
    · rw [if_neg (by unfold isC0; omega), if_neg (by omega), if_neg (by omega), if_neg (by omega),
        if_neg (by omega), if_neg (by omega), if_pos (by omega)]
    · rw [if_neg (by unfold isC0; omega), if_neg (by omega), if_neg (by omega), if_neg (by omega),
        if_neg (by omega), if_pos (by omega)]
    · rw [if_neg (by unfold isC0; omega), if_neg (by omega), if_neg (by omega), if_neg (by omega),
        if_pos (by omega)]
  unfold Vte.parse Vte.trans
  rw [show (inSeq v st n l fl m').state = st from rfl, hn, if_neg (by decide)]
  rcases hs with hs | hs | hs <;> subst hs <;>
    simp only [exitAction, entryAction, Vte.action, bind, Except.bind] <;>
    cases (inSeq v _ n l fl m').csiDispatch b.toNat <;> rfl

/-- `CSI`, a private marker, parameters and the final character. -/
theorem csi_ok {v : Vte} (h : Ok v) (hb : Between v) {qs : List (List UInt8)} (hq : qs ≠ [])
    (hd : ∀ q ∈ qs, ∀ d ∈ q, IsDigit d) {b : UInt8} (h1 : 0x40 ≤ b.toNat) (h2 : b.toNat ≤ 0x7e) :
    ∃ (m : Utf8.Mach) (st : PState), Btw v.flags m ∧ v.inputLoop (27 :: 91 :: (joined qs ++ [b])) =
      ((inSeq v st (min 16 (qs.length - 1)) (padded (qs.map value)) 0 m).csiDispatch b.toNat >>=
        fun v' => pure { v' with state := .ground }) := by
  obtain ⟨m1, hm1, e1⟩ := csi_start h hb
  obtain ⟨m2, hm2, e2⟩ := params_ok (v := v) qs hq hd (st := .csiEntry) (Or.inl rfl) (l := []) (fl := 0) hm1
  have hs : afterParams .csiEntry (joined qs) = .csiEntry ∨ afterParams .csiEntry (joined qs) = .csiParam ∨
      afterParams .csiEntry (joined qs) = .csiInt := by
    unfold afterParams
    split
    · exact Or.inl rfl
    · exact Or.inr (Or.inl rfl)
  obtain ⟨m3, hm3, e3⟩ := final_ok (v := v) hs (n := min 16 (qs.length - 1)) (l := padded (qs.map value)) (fl := 0) hm2 h1 h2
  refine ⟨m3, afterParams .csiEntry (joined qs), hm3, ?_⟩
  rw [e1]
  have e2' := e2 [b]
  rw [List.nil_append] at e2'
  rw [show (inSeq v .csiEntry 0 noArgs 0 m1) = inSeq v .csiEntry (min 16 ([] : List Int).length) (padded []) 0 m1 from rfl,
    e2', inputLoop_one, show ([] : List Int).length + (qs.length - 1) = qs.length - 1 from Nat.zero_add _, e3]

/-- The same with a private marker (`<`, `=`, `>` or `?`). -/
theorem csi_marked_ok {v : Vte} (h : Ok v) (hb : Between v) {p : UInt8} (hp : 0x3c ≤ p.toNat) (hp' : p.toNat ≤ 0x3f)
    {qs : List (List UInt8)} (hq : qs ≠ [])
    (hd : ∀ q ∈ qs, ∀ d ∈ q, IsDigit d) {b : UInt8} (h1 : 0x40 ≤ b.toNat) (h2 : b.toNat ≤ 0x7e) :
    ∃ (m : Utf8.Mach), Btw v.flags m ∧ v.inputLoop (27 :: 91 :: p :: (joined qs ++ [b])) =
      ((inSeq v .csiParam (min 16 (qs.length - 1)) (padded (qs.map value)) (collectFlag p.toNat) m).csiDispatch b.toNat >>=
        fun v' => pure { v' with state := .ground }) := by
  obtain ⟨m1, hm1, e1⟩ := csi_start h hb
  have hc : ∃ m', Btw v.flags m' ∧ (inSeq v .csiEntry 0 noArgs 0 m1).inputByte p =
      .ok (inSeq v .csiParam 0 noArgs (collectFlag p.toNat) m') := by
    obtain ⟨m', hm', e⟩ := inputByte_ascii (v := inSeq v .csiEntry 0 noArgs 0 m1) (inSeq_between hm1) (b := p) (by omega)
    refine ⟨m', hm', ?_⟩
    rw [e]
    have hn : nextOf .csiEntry p.toNat = (.csiParam, .collect) := by
      rw [nextOf_ascii (by omega) (by omega)]
      unfold stateTrans; dsimp only
      rw [if_neg (by unfold isC0; omega), if_neg (by omega), if_neg (by omega), if_neg (by omega),
        if_neg (by omega), if_pos (by omega)]
    unfold Vte.parse Vte.trans
    rw [show ({ inSeq v .csiEntry 0 noArgs 0 m1 with mach := m' } : Vte).state = .csiEntry from rfl, hn,
      if_neg (by decide)]
    show Except.ok _ = _
    unfold inSeq Vte.collect
    dsimp only
    rw [show (0 : BitVec 32) ||| collectFlag p.toNat = collectFlag p.toNat by simp]
  obtain ⟨m1', hm1', e1'⟩ := hc
  obtain ⟨m2, hm2, e2⟩ := params_ok (v := v) qs hq hd (st := .csiParam) (Or.inr rfl) (l := [])
    (fl := collectFlag p.toNat) hm1'
  have hs : afterParams .csiParam (joined qs) = .csiParam := by
    unfold afterParams
    split <;> rfl
  rw [hs] at e2
  obtain ⟨m3, hm3, e3⟩ := final_ok (v := v) (st := .csiParam) (Or.inr (Or.inl rfl)) (n := min 16 (qs.length - 1))
    (l := padded (qs.map value)) (fl := collectFlag p.toNat) hm2 h1 h2
  refine ⟨m3, hm3, ?_⟩
  rw [e1, inputLoop_ok e1']
  have e2' := e2 [b]
  rw [List.nil_append] at e2'
  rw [show (inSeq v .csiParam 0 noArgs (collectFlag p.toNat) m1') =
      inSeq v .csiParam (min 16 ([] : List Int).length) (padded []) (collectFlag p.toNat) m1' from rfl,
    e2', inputLoop_one, show ([] : List Int).length + (qs.length - 1) = qs.length - 1 from Nat.zero_add _, e3]

end Vte
end Verif
