import Verif.Proofs.Vte.Text
import Verif.Spec.Keys

/-!
# Keyboard and mouse
-/

namespace Verif
namespace Vte

/-! ### The tables -/

theorem lookup_none {α : Type} (l : List (Nat × α)) (k : Nat) (h : ∀ e ∈ l, e.1 ≠ k) : l.lookup k = none := by
  induction l with
  | nil => rfl
  | cons e l ih =>
    obtain ⟨a, b⟩ := e
    have : (k == a) = false := by
      have := h (a, b) (List.mem_cons_self ..)
      simp only [beq_eq_false_iff_ne, ne_eq]
      intro e
      exact this e.symm
    rw [List.lookup_cons, this]
    exact ih (fun e he => h e (List.mem_cons_of_mem _ he))

/-- The bytes of an entry depend on modes and modifiers only. -/
def actBytes (m : Keys.Modes) : KeyAct → List UInt8
  | .plain b => b
  | .backspace del bs => if m.bsDelete then del else bs
  | .keypad app num => if m.keypad then app else num
  | .cursor app num => if m.cursor then app else num
  | .enter nl cr => if m.newline then nl else cr
  | .kpEnter app nl cr => if m.keypad then app else if m.newline then nl else cr
  | .shifted sh norm => if m.shift then sh else norm
  | .arrow ctrl app num => if m.ctrl then ctrl else if m.cursor then app else num

theorem keyBytes_eq (v : Vte) (mods : Nat) (k : KeyAct) : v.keyBytes mods k = actBytes (Keys.modes v mods) k := by
  cases k <;> rfl

theorem control_eq (c : Nat) : ctrlKeys.lookup c = Keys.control c := by
  by_cases h : c < 128
  · have key : ∀ c : Fin 128, ctrlKeys.lookup c.val = Keys.control c.val := by decide +kernel
    exact key ⟨c, h⟩
  · have h1 : ctrlKeys.lookup c = none := by
      apply lookup_none
      have key : ∀ e ∈ ctrlKeys, e.1 < 128 := by decide +kernel
      intro e he
      have := key e he
      omega
    have h2 : Keys.control c = none := by
      unfold Keys.control
      repeat rw [if_neg (by omega)]
    rw [h1, h2]

theorem special_eq (m : Keys.Modes) (k : Nat) : (keyTable.lookup k).map (actBytes m) = Keys.special m k := by
  by_cases h : 0xfe20 ≤ k ∧ k < 0x10000
  · have key : ∀ j : Fin 480, ∀ s c p u n b : Bool, (keyTable.lookup (0xfe20 + j.val)).map (actBytes ⟨s, c, p, u, n, b⟩) =
        Keys.special ⟨s, c, p, u, n, b⟩ (0xfe20 + j.val) := by decide +kernel
    have := key ⟨k - 0xfe20, by omega⟩ m.shift m.ctrl m.keypad m.cursor m.newline m.bsDelete
    dsimp only at this
    rw [show 0xfe20 + (k - 0xfe20) = k by omega] at this
    exact this
  · have h1 : keyTable.lookup k = none := by
      apply lookup_none
      have key : ∀ e ∈ keyTable, 0xfe20 ≤ e.1 ∧ e.1 < 0x10000 := by decide +kernel
      intro e he
      have := key e he
      omega
    have h2 : Keys.special m k = none := by
      unfold Keys.special
      repeat rw [if_neg (by omega)]
    rw [h1, h2]
    rfl

/-- Characters are sent in the active encoding, if in 7-bit mode they are not beyond U+00FF. -/
theorem character_eq {v : Vte} {u : Nat} (h7 : v.f7bit = true → u < 256) (hu : u < 0x80000000) :
    v.charBytes u = Keys.character (Keys.encoding v) u := by
  unfold Vte.charBytes Keys.encoding
  by_cases e7 : v.f7bit = true
  · rw [if_pos e7, if_pos e7]
    unfold Keys.character
    have hu := h7 e7
    have key : ∀ u : Fin 256, (if u.val.testBit 7 then (0x3f : UInt8) else UInt8.ofNat u.val) =
        if u.val < 128 then UInt8.ofNat u.val else 0x3f := by decide +kernel
    rw [key ⟨u, hu⟩]
    dsimp only
    split <;> rfl
  · rw [if_neg e7, if_neg e7]
    by_cases e8 : v.f8bit = true
    · rw [if_pos e8, if_pos e8]
      unfold Keys.character
      dsimp only
      by_cases hu : u < 256
      · rw [if_neg (by omega), if_pos hu]
      · rw [if_pos (by omega), if_neg hu]
    · rw [if_neg e8, if_neg e8]
      unfold Keys.character symbolMake
      dsimp only
      rw [if_neg (by omega), Utf8.encode_eq_bytes]
      rfl

theorem keyString_eq {v : Vte} {k a m u : Nat} (h7 : v.f7bit = true → u < 256 ∨ u = 0xffffffff)
    (hu : u < 0x80000000 ∨ u = 0xffffffff) :
    v.keyString k a m u = Keys.string (Keys.modes v m) (Keys.encoding v) k a u := by
  unfold Vte.keyString Keys.string
  rw [control_eq, show (Keys.modes v m).ctrl = m.testBit 2 from rfl]
  generalize (if m.testBit 2 = true then Keys.control (if a = 0 then k else a) else none) = o
  cases o with
  | some b => rfl
  | none =>
    dsimp only
    rw [← special_eq]
    cases hk : keyTable.lookup k with
    | some x =>
      show some (v.keyBytes m x) = some (actBytes _ x)
      rw [keyBytes_eq]
    | none =>
      show (if u = 0xffffffff then _ else _) = (if u = 0xffffffff then _ else _)
      by_cases hu' : u = 0xffffffff
      · rw [if_pos hu', if_pos hu']
      · rw [if_neg hu', if_neg hu', character_eq (by intro h; have := h7 h; omega) (by omega)]

/-! ### Sending -/

theorem clear_clear {f : BitVec 32} {k : Nat} (h : f.getLsbD k = false) :
    f &&& ~~~ (BitVec.twoPow 32 k) = f := by
  apply BitVec.eq_of_getLsbD_eq
  intro i hi
  rw [BitVec.getLsbD_and, BitVec.getLsbD_not, BitVec.getLsbD_twoPow]
  by_cases hj : i = k
  · subst hj
    rw [h]; rfl
  · have : ¬ (k = i) := fun h => hj h.symm
    simp [hi, this]

theorem clear_set {f : BitVec 32} {k : Nat} (h : f.getLsbD k = false) :
    (f ||| BitVec.twoPow 32 k) &&& ~~~ (BitVec.twoPow 32 k) = f := by
  apply BitVec.eq_of_getLsbD_eq
  intro i hi
  rw [BitVec.getLsbD_and, BitVec.getLsbD_or, BitVec.getLsbD_not, BitVec.getLsbD_twoPow]
  by_cases hj : i = k
  · subst hj
    rw [h]; simp [hi]
  · have : ¬ (k = i) := fun h => hj h.symm
    simp [hi, this]

theorem keyString_flag (v : Vte) (on : Bool) (k a m u : Nat) :
    (v.setFlag on 16).keyString k a m u = v.keyString k a m u := by
  have h0 : (v.setFlag on 16).fCursorKey = v.fCursorKey := by
    show (v.setFlag on 16).flags.getLsbD 0 = _; rw [flag_setFlag _ _ (by decide)]; rfl
  have h1 : (v.setFlag on 16).fKeypad = v.fKeypad := by
    show (v.setFlag on 16).flags.getLsbD 1 = _; rw [flag_setFlag _ _ (by decide)]; rfl
  have h2 : (v.setFlag on 16).fNewline = v.fNewline := by
    show (v.setFlag on 16).flags.getLsbD 2 = _; rw [flag_setFlag _ _ (by decide)]; rfl
  have h3 : (v.setFlag on 16).f8bit = v.f8bit := by
    show (v.setFlag on 16).flags.getLsbD 3 = _; rw [flag_setFlag _ _ (by decide)]; rfl
  have h4 : (v.setFlag on 16).f7bit = v.f7bit := by
    show (v.setFlag on 16).flags.getLsbD 4 = _; rw [flag_setFlag _ _ (by decide)]; rfl
  have hb : ∀ k, (v.setFlag on 16).keyBytes m k = v.keyBytes m k := by
    intro k
    cases k <;> simp only [Vte.keyBytes, h0, h1, h2] <;> rfl
  have hc : (v.setFlag on 16).charBytes u = v.charBytes u := by
    simp only [Vte.charBytes, h3, h4]
  unfold Vte.keyString
  simp only [hb, hc]

theorem write_quiet {v : Vte} (he : v.fNoEcho = true) (b : List UInt8) : v.write b = .ok (v.send b) := by
  unfold Vte.write Vte.echo
  rw [if_neg (by rw [he]; intro hh; cases hh.2)]
  rfl

/-- Key events without local echo. -/
theorem keyboard_quiet {v : Vte} (he : v.fNoEcho = true) (hp : v.fPrepend = false) (k a m u : Nat) :
    v.keyboard k a m u =
      match v.keyString k a m u with
      | some b => .ok ({ v with log := v.log ++ (if m.testBit 3 then [.write [27]] else []) ++ [.write b] }, true)
      | none => .ok (v, false) := by
  unfold Vte.keyboard
  by_cases hm : m.testBit 3 = true
  · simp only [if_pos hm, keyString_flag]
    cases v.keyString k a m u with
    | none =>
      exact (fun (f : BitVec 32) (e : f = v.flags) =>
        (by rw [e] : (Except.ok ({ v with flags := f }, false) : R (Vte × Bool)) = .ok (v, false))) _ (clear_set hp)
    | some b =>
      dsimp only
      rw [write_quiet (by
        show (v.setFlag true 16).flags.getLsbD 8 = true
        rw [flag_setFlag _ _ (by decide)]; exact he)]
      show Except.ok (Vte.send _ b, true) = _
      unfold Vte.send
      rw [if_pos (by
        show (v.setFlag true 16).flags.getLsbD 16 = true
        rw [flag_setFlag _ _ (by decide)]; rfl)]
      exact (fun (f : BitVec 32) (e : f = v.flags) (l : List Event) =>
        (by rw [e] : (Except.ok ({ v with flags := f, log := l }, true) : R (Vte × Bool)) = .ok ({ v with log := l }, true)))
        _ (clear_set hp) _
  · simp only [if_neg hm]
    cases v.keyString k a m u with
    | none =>
      exact (fun (f : BitVec 32) (e : f = v.flags) =>
        (by rw [e] : (Except.ok ({ v with flags := f }, false) : R (Vte × Bool)) = .ok (v, false))) _ (clear_clear hp)
    | some b =>
      dsimp only
      rw [write_quiet he]
      show Except.ok (Vte.send _ b, true) = _
      rw [send_ok hp, List.append_nil]

/-- Key events with local echo, without Alt. -/
theorem keyboard_echo {v : Vte} (h : Ok v) (hc : v.parseCnt = 0) (he : v.fNoEcho = false) (hp : v.fPrepend = false)
    {k a m u : Nat} (hm : m.testBit 3 = false) :
    v.keyboard k a m u =
      match v.keyString k a m u with
      | some b => v.input b >>= fun v' => pure ({ v' with log := v'.log ++ [.write b] }, true)
      | none => .ok (v, false) := by
  unfold Vte.keyboard
  simp only [if_neg (show ¬ (m.testBit 3 = true) by rw [hm]; decide)]
  cases v.keyString k a m u with
  | none =>
    exact (fun (f : BitVec 32) (e : f = v.flags) =>
      (by rw [e] : (Except.ok ({ v with flags := f }, false) : R (Vte × Bool)) = .ok (v, false))) _ (clear_clear hp)
  | some b =>
    dsimp only
    unfold Vte.write Vte.echo Vte.echoEsc
    rw [if_pos ⟨hc, he⟩, if_neg (by rw [hp]; decide)]
    show (v.input b >>= fun v' => pure (v'.send b)) >>= (fun v' => pure (v', true)) = _
    have hi := h.input b
    cases e : v.input b with
    | error x => rfl
    | ok v' =>
      rw [e] at hi
      show Except.ok (v'.send b, true) = Except.ok _
      rw [send_ok (hi.2.esc hp)]

/-! ### Mouse reports -/

theorem dec_length {n k : Nat} (hk : 0 < k) (h : n < 10 ^ k) : (dec n).length ≤ k := by
  have key : ∀ f n k, 0 < k → n < 10 ^ k → (decF f n).length ≤ k := by
    intro f
    induction f with
    | zero => intro n k _ _; exact Nat.zero_le _
    | succ f ih =>
      intro n k hk hn
      unfold decF
      split
      · exact hk
      · rename_i h10
        cases k with
        | zero => omega
        | succ k =>
          have : 0 < k := by
            apply Nat.pos_of_ne_zero
            intro e
            subst e
            omega
          have := ih (n / 10) k this (by rw [Nat.pow_succ] at hn; omega)
          rw [List.length_append]
          show _ + 1 ≤ k + 1
          omega
  exact key 10 n k hk h

theorem digits_dec {n : Nat} (h : n < 2 ^ 32) {c : UInt8} (hc : ¬ IsDigit c) (r : List UInt8) :
    Mouse.digits (dec n ++ c :: r) = (n, c :: r) := by
  obtain ⟨h1, h2, _⟩ := dec_spec h
  have hall : ∀ d ∈ dec n, decide (IsDigit d) = true := fun d hd => decide_eq_true (h2 d hd)
  unfold Mouse.digits
  rw [List.takeWhile_append_of_pos hall, List.dropWhile_append_of_pos hall,
    List.takeWhile_cons_of_neg (by simpa using hc), List.dropWhile_cons_of_neg (by simpa using hc),
    List.append_nil, h1]

theorem dec_ne_zero {n : Nat} (h : n < 2 ^ 32) : ∀ d ∈ dec n, d ≠ 0 := by
  intro d hd e
  have := (dec_spec h).2.1 d hd
  subst e
  revert this
  unfold IsDigit
  decide

/-- The text of a report. -/
def sgrText (b x y : Nat) (p : Bool) : List UInt8 :=
  [27, 91, 60] ++ dec b ++ [59] ++ dec x ++ [59] ++ dec y ++ [if p then 77 else 109]

theorem cString_id {l : List UInt8} (h : l.length ≤ 23) (hz : ∀ d ∈ l, d ≠ 0) : cString l = l := by
  unfold cString
  rw [List.take_of_length_le h]
  have : ∀ l : List UInt8, (∀ d ∈ l, d ≠ 0) → l.takeWhile (fun d => decide (d ≠ 0)) = l := by
    intro l
    induction l with
    | nil => intro _; rfl
    | cons a l ih =>
      intro hz
      rw [List.takeWhile_cons_of_pos (by simpa using hz a (List.mem_cons_self ..)),
        ih (fun d hd => hz d (List.mem_cons_of_mem _ hd))]
  exact this l hz

/-- Reports that fit into the buffer. -/
theorem sgrReport_eq {b x y : Nat} {p : Bool} (hb : b < 256) (hx : x < 2 ^ 31) (hy : y < 2 ^ 31)
    (hl : (dec b).length + (dec x).length + (dec y).length ≤ 17) : sgrReport b x y p = sgrText b x y p := by
  unfold sgrReport decInt
  rw [if_pos (by omega), if_pos hx, if_pos hy]
  apply cString_id
  · simp only [List.length_append, List.length_cons, List.length_nil]
    omega
  · simp only [List.forall_mem_append]
    refine ⟨⟨⟨⟨⟨⟨by decide, dec_ne_zero (by omega)⟩, by decide⟩, dec_ne_zero (by omega)⟩, by decide⟩, dec_ne_zero (by omega)⟩, ?_⟩
    cases p <;> decide

theorem decode_text {b x y : Nat} (p : Bool) (hb : b < 2 ^ 32) (hx : x < 2 ^ 32) (hy : y < 2 ^ 32) :
    Mouse.decodeSgr (sgrText b x y p) = some (b, x, y, p) := by
  have n59 : ¬ IsDigit 59 := by unfold IsDigit; decide
  have n77 : ¬ IsDigit 77 := by unfold IsDigit; decide
  have n109 : ¬ IsDigit 109 := by unfold IsDigit; decide
  have e : sgrText b x y p = 27 :: 91 :: 60 :: (dec b ++ 59 :: (dec x ++ 59 :: (dec y ++ [if p then 77 else 109]))) := by
    simp [sgrText]
  rw [e]
  unfold Mouse.decodeSgr
  simp only [digits_dec hb n59, digits_dec hx n59]
  cases p
  · rw [if_neg (by decide), digits_dec hy n109]; rfl
  · rw [if_pos rfl, digits_dec hy n77]; rfl

/-! ### Writing -/

theorem write_log {v v' : Vte} (h : Ok v) {b : List UInt8} (e : v.write b = .ok v') :
    ∃ evs, v'.log = v.log ++ evs ++ [.write b] := by
  have hs : ∀ w : Vte, ∃ evs, (w.send b).log = w.log ++ evs ++ [.write b] := by
    intro w
    unfold Vte.send
    split
    · exact ⟨[.write [27]], rfl⟩
    · exact ⟨[], by rw [List.append_nil]; rfl⟩
  have hin : ∀ {w w' : Vte} {l : List UInt8}, Ok w → w.input l = .ok w' → Ok w' ∧ ∃ evs, w'.log = w.log ++ evs := by
    intro w w' l hw e
    have := hw.input l
    rw [e] at this
    exact ⟨this.1, this.2.log⟩
  unfold Vte.write Vte.echo Vte.echoEsc at e
  split at e
  · split at e
    · cases e1 : v.input [27] with
      | error x => rw [e1] at e; cases e
      | ok w =>
        rw [e1] at e
        obtain ⟨hw, l1, hl1⟩ := hin h e1
        change (w.input b >>= fun v => pure (v.send b)) = _ at e
        cases e2 : w.input b with
        | error x => rw [e2] at e; cases e
        | ok w2 =>
          rw [e2] at e
          obtain ⟨_, l2, hl2⟩ := hin hw e2
          obtain ⟨l3, hl3⟩ := hs w2
          change Except.ok (w2.send b) = _ at e
          injection e with e
          exact ⟨l1 ++ l2 ++ l3, by rw [← e, hl3, hl2, hl1]; simp⟩
    · change (v.input b >>= fun v => pure (v.send b)) = _ at e
      cases e2 : v.input b with
      | error x => rw [e2] at e; cases e
      | ok w2 =>
        rw [e2] at e
        obtain ⟨_, l2, hl2⟩ := hin h e2
        obtain ⟨l3, hl3⟩ := hs w2
        change Except.ok (w2.send b) = _ at e
        injection e with e
        exact ⟨l2 ++ l3, by rw [← e, hl3, hl2]; simp⟩
  · change Except.ok (v.send b) = _ at e
    injection e with e
    rw [← e]
    exact hs v

theorem write_reports {v : Vte} (h : Ok v) (hp : v.fPrepend = false) (b : List UInt8) :
    Mouse.Reports v b (v.write b >>= fun v' => pure (v', true)) := by
  cases e : v.write b with
  | error x =>
    show v.fNoEcho = false
    rcases Bool.eq_false_or_eq_true v.fNoEcho with hn | hn
    · rw [write_quiet hn] at e
      cases e
    · exact hn
  | ok v' =>
    refine ⟨rfl, write_log h e, fun hn => ?_⟩
    rw [write_quiet hn, send_ok hp] at e
    injection e with e
    exact e.symm

/-! ### Mouse events -/

theorem mouse_sgr {v : Vte} (hm : v.mouseMode = 1006) (he : v.mouseEvent ≠ 0) {cx cy px py button event mods : Nat}
    (ev : event.testBit 2 = false) : v.mouse cx cy px py button event mods =
      (v.write (sgrReport (sgrButton button mods) (u32 (cx + 1)) (u32 (cy + 1)) (event.testBit 0)) >>=
        fun v' => pure (v', true)) := by
  unfold Vte.mouse Vte.mouseSgr
  rw [if_neg (by rw [ev]; intro h; cases h.2), if_neg (by rw [hm]; decide), if_pos ⟨hm, he⟩,
    if_neg (by rw [ev]; decide)]

theorem mouse_motion {v : Vte} (hm : v.mouseMode = 1006) (he : v.mouseEvent = 1003) {cx cy px py button event mods : Nat}
    (ev : event.testBit 2 = true) : v.mouse cx cy px py button event mods =
      if u32 (cx + 1) = v.mouseLastCol ∧ u32 (cy + 1) = v.mouseLastRow then .ok (v, false)
      else ({ v with mouseLastCol := u32 (cx + 1), mouseLastRow := u32 (cy + 1) }.write
        (sgrReport 35 (u32 (cx + 1)) (u32 (cy + 1)) true) >>= fun v' => pure (v', true)) := by
  unfold Vte.mouse Vte.mouseSgr
  rw [if_neg (by intro h; rcases h.1 with h | h; rw [hm] at h; exact absurd h (by decide); exact h he),
    if_neg (by rw [hm]; decide), if_pos ⟨hm, by rw [he]; decide⟩, if_pos ev]

theorem sgrButton_ok {button mods : Nat} (hb : button ∈ Mouse.buttons) (hm : mods ∈ Mouse.modifiers) :
    sgrButton button mods < 128 ∧ Mouse.buttonOf (sgrButton button mods) = (button, mods) := by
  have key : ∀ b ∈ Mouse.buttons, ∀ m ∈ Mouse.modifiers, sgrButton b m < 128 ∧ Mouse.buttonOf (sgrButton b m) = (b, m) := by
    decide +kernel
  exact key button hb mods hm

theorem report_ok {b x y : Nat} {p : Bool} (hb : b < 256) (hx : x < 10000000) (hy : y < 10000000) :
    Mouse.decodeSgr (sgrReport b x y p) = some (b, x, y, p) := by
  have l1 := dec_length (n := b) (k := 3) (by decide) (by omega)
  have l2 := dec_length (n := x) (k := 7) (by decide) hx
  have l3 := dec_length (n := y) (k := 7) (by decide) hy
  rw [sgrReport_eq hb (by omega) (by omega) (by omega)]
  exact decode_text p (by omega) (by omega) (by omega)

end Vte
end Verif
