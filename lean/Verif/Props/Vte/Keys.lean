import Verif.Proofs.Vte.Keys
import Verif.Proofs.Vte.Example

/-!
# Properties of keyboard and mouse

C55 keys, C56 Alt, C57 SGR mouse reports, C58 X10 mouse reports, C59 filtering of mouse events.
-/

namespace Verif
namespace Vte

/-! ### C55 -/

/-- **C55**: every key event is either handled, and then the last thing that happens is that one byte
string is sent, or it is not handled, and then nothing at all happens. -/
theorem C55_one {v v' : Vte} (hr : Reachable v) {k a m u : Nat} {r : Bool} (e : v.keyboard k a m u = .ok (v', r)) :
    (r = true ∧ ∃ b evs, v.keyString k a m u = some b ∧ v'.log = v.log ++ evs ++ [.write b]) ∨ (r = false ∧ v' = v) := by
  obtain ⟨h, hc, hp⟩ := hr.all
  rcases Bool.eq_false_or_eq_true v.fNoEcho with hn | hn
  · rw [keyboard_quiet hn hp] at e
    cases hk : v.keyString k a m u with
    | none => rw [hk] at e; injection e with e; injection e with e1 e2; exact Or.inr ⟨e2.symm, e1.symm⟩
    | some b =>
      rw [hk] at e; injection e with e; injection e with e1 e2
      exact Or.inl ⟨e2.symm, b, _, rfl, by rw [← e1]⟩
  · unfold Vte.keyboard at e
    have key : ∀ w : Vte, Ok w → w.log = v.log → w.keyString k a m u = v.keyString k a m u →
        ({ w with flags := w.flags &&& ~~~ (BitVec.twoPow 32 16) } : Vte) = v →
        (match w.keyString k a m u with
          | some b => w.write b >>= fun v => pure (v, true)
          | none => .ok (w.setFlag false 16, false)) = .ok (v', r) →
        (r = true ∧ ∃ b evs, v.keyString k a m u = some b ∧ v'.log = v.log ++ evs ++ [.write b]) ∨ (r = false ∧ v' = v) := by
      intro w hw hl hs hf e
      rw [hs] at e
      cases hk : v.keyString k a m u with
      | none =>
        rw [hk] at e; injection e with e; injection e with e1 e2
        exact Or.inr ⟨e2.symm, e1.symm.trans hf⟩
      | some b =>
        rw [hk] at e
        change (w.write b >>= fun v => pure (v, true)) = _ at e
        cases e1 : w.write b with
        | error x => rw [e1] at e; cases e
        | ok w1 =>
          rw [e1] at e
          injection e with e; injection e with e2 e3
          obtain ⟨evs, he⟩ := write_log hw e1
          exact Or.inl ⟨e3.symm, b, evs, rfl, by rw [← e2, he, hl]⟩
    by_cases hm : m.testBit 3 = true
    · simp only [if_pos hm] at e
      exact key _ (h.setFlag true 16) rfl (keyString_flag ..)
        ((fun (f : BitVec 32) (e : f = v.flags) => (by rw [e] : ({ v with flags := f } : Vte) = v)) _ (clear_set hp)) e
    · simp only [if_neg hm] at e
      exact key _ h rfl rfl ((fun (f : BitVec 32) (e : f = v.flags) => (by rw [e] : ({ v with flags := f } : Vte) = v)) _
        (clear_clear hp)) e

/-- **C55**, what is sent, without local echo. A key sends exactly the string that `Keys.string` gives for the
keysym, the character, the modifiers and the modes (with an ESC before it if Alt is held), or, if there is none,
is reported as not handled and has no effect. What is missing: in 7-bit mode characters beyond U+00FF whose bit 7 is
clear are sent as another ASCII character (`C55_false_7bit`), and values beyond 0x7fffffff are sent as NUL
(`C55_false_nul`). -/
theorem C55_sent_partial {v : Vte} (hr : Reachable v) (hn : v.fNoEcho = true) {k a m u : Nat}
    (h7 : v.f7bit = true → u < 256 ∨ u = 0xffffffff) (hu : u < 0x80000000 ∨ u = 0xffffffff) :
    v.keyboard k a m u =
      match Keys.string (Keys.modes v m) (Keys.encoding v) k a u with
      | some b => .ok ({ v with log := v.log ++ (if m.testBit 3 then [.write [27]] else []) ++ [.write b] }, true)
      | none => .ok (v, false) := by
  rw [keyboard_quiet hn hr.all.2.2, keyString_eq h7 hu]
  rfl

/-- **C55**, what is sent, with local echo and without Alt: the string is handled as input first. -/
theorem C55_echo_partial {v : Vte} (hr : Reachable v) (hn : v.fNoEcho = false) {k a m u : Nat} (hm : m.testBit 3 = false)
    (h7 : v.f7bit = true → u < 256 ∨ u = 0xffffffff) (hu : u < 0x80000000 ∨ u = 0xffffffff) :
    v.keyboard k a m u =
      match Keys.string (Keys.modes v m) (Keys.encoding v) k a u with
      | some b => v.input b >>= fun v' => pure ({ v' with log := v'.log ++ [.write b] }, true)
      | none => .ok (v, false) := by
  obtain ⟨h, hc, hp⟩ := hr.all
  rw [keyboard_echo h hc hn hp hm, keyString_eq h7 hu]
  rfl

/-- The hypotheses of `C55_sent_partial` and `C55_echo_partial`, in 7-bit mode and with local echo. -/
example : ∃ v, Reachable v ∧ v.fNoEcho = true ∧ v.f7bit = true := by
  obtain ⟨v, h, hp⟩ := exists_of_vholds (cs := []) (sg := true) (vs := [.input [27, 91, 54, 49, 34, 112]])
    (P := fun v => v.fNoEcho && v.f7bit) (by decide +kernel)
  rw [Bool.and_eq_true] at hp
  exact ⟨v, h, hp⟩

example : ∃ v, Reachable v ∧ v.fNoEcho = false := by
  obtain ⟨v, h, hp⟩ := exists_of_vholds (cs := []) (sg := true) (vs := [.input [27, 91, 49, 50, 108]])
    (P := fun v => !v.fNoEcho) (by decide +kernel)
  exact ⟨v, h, by simpa using hp⟩

/-- **C55**: a character key without Control sends the character in the active encoding. -/
theorem C55_character (md : Keys.Modes) (e : Keys.Encoding) {k a u : Nat} (hc : md.ctrl = false)
    (hk : Keys.special md k = none) (hu : u ≠ 0xffffffff) :
    Keys.string md e k a u = some (Keys.character e u) := by
  unfold Keys.string
  rw [hc, if_neg (by decide), hk]
  dsimp only
  rw [if_neg hu]

/-- No keysym below 0xfe20 belongs to a special key; in particular all of ASCII and Latin-1 are
characters. -/
example (md : Keys.Modes) {k : Nat} (h : k < 0xfe20) : Keys.special md k = none := by
  unfold Keys.special
  repeat rw [if_neg (by omega)]

/-- **C55**: Control with a letter sends the number of the letter in the alphabet, whatever the keysym
and the modes. -/
theorem C55_control (md : Keys.Modes) (e : Keys.Encoding) {k a u n : Nat} (hc : md.ctrl = true) (hn : 1 ≤ n ∧ n ≤ 26)
    (ha : a = 64 + n ∨ a = 96 + n) : Keys.string md e k a u = some [UInt8.ofNat n] := by
  unfold Keys.string
  rw [hc, if_pos rfl, if_neg (by omega)]
  unfold Keys.control
  rw [if_pos (by omega), show a % 32 = n by omega]

/-- The claim: keys send the string of `Keys.string`. -/
def C55_claim : Prop :=
  ∀ v k a m u, Reachable v → u < 0x100000000 → v.keyString k a m u = Keys.string (Keys.modes v m) (Keys.encoding v) k a u

/-- **C55** is false: in 7-bit mode the key for `Ł` (U+0141) sends `A` instead of a question mark. -/
theorem C55_false_7bit : ¬ C55_claim := by
  intro hc
  obtain ⟨v, h, hp⟩ := exists_of_vholds (cs := []) (sg := true) (vs := [.input [27, 91, 54, 49, 34, 112]])
    (P := fun v => decide (v.keyString 0x1a3 0 0 0x141 = some [65]) &&
      decide (Keys.string (Keys.modes v 0) (Keys.encoding v) 0x1a3 0 0x141 = some [63])) (by decide +kernel)
  rw [Bool.and_eq_true, decide_eq_true_eq, decide_eq_true_eq] at hp
  have := hc v 0x1a3 0 0 0x141 h (by decide)
  rw [hp.1, hp.2] at this
  exact absurd this (by decide)

/-- **C55** is false: in UTF-8 mode a value beyond 0x7fffffff sends a NUL. -/
theorem C55_false_nul : ¬ C55_claim := by
  intro hc
  obtain ⟨v, h, hp⟩ := exists_of_vholds (cs := []) (sg := true) (vs := [])
    (P := fun v => decide (v.keyString 0x1a3 0 0 0x80000000 = some [0]) &&
      decide (Keys.string (Keys.modes v 0) (Keys.encoding v) 0x1a3 0 0x80000000 = some [])) (by decide +kernel)
  rw [Bool.and_eq_true, decide_eq_true_eq, decide_eq_true_eq] at hp
  have := hc v 0x1a3 0 0 0x80000000 h (by decide)
  rw [hp.1, hp.2] at this
  exact absurd this (by decide)

/-! ### C56 -/

/-- **C56**, what is sent, without local echo: with Alt exactly one ESC is sent before the string that the same
key sends without Alt, and Alt has no influence on whether the key is handled. What is missing: with local echo
this is false (`C56_false`). -/
theorem C56_prefix_partial {v : Vte} (hr : Reachable v) (hn : v.fNoEcho = true) {k a m m' u : Nat}
    (h1 : m.testBit 3 = true) (h0 : m'.testBit 3 = false) (hm : ∀ j, j ≠ 3 → m.testBit j = m'.testBit j) :
    (∃ b, v.keyboard k a m' u = .ok ({ v with log := v.log ++ [.write b] }, true) ∧
      v.keyboard k a m u = .ok ({ v with log := v.log ++ [.write [27], .write b] }, true)) ∨
    (v.keyboard k a m' u = .ok (v, false) ∧ v.keyboard k a m u = .ok (v, false)) := by
  have hp := hr.all.2.2
  have hb : ∀ x, v.keyBytes m x = v.keyBytes m' x := by
    intro x
    rw [keyBytes_eq, keyBytes_eq]
    unfold Keys.modes
    rw [hm 0 (by decide), hm 2 (by decide)]
  have hs : v.keyString k a m u = v.keyString k a m' u := by
    unfold Vte.keyString
    simp only [hb, hm 2 (by decide)]
  rw [keyboard_quiet hn hp, keyboard_quiet hn hp, hs]
  cases v.keyString k a m' u with
  | none => exact Or.inr ⟨rfl, rfl⟩
  | some b =>
    refine Or.inl ⟨b, ?_, ?_⟩
    · dsimp only
      rw [h0, if_neg (by decide), List.append_nil]
    · dsimp only
      rw [h1, if_pos rfl, List.append_assoc]
      rfl

/-- **C56**: after any key event, with or without local echo, no ESC is pending: bytes written next are sent
as they are. -/
theorem C56_no_trace {v v' : Vte} (hr : Reachable v) {k a m u : Nat} {r : Bool} (e : v.keyboard k a m u = .ok (v', r)) :
    v'.fPrepend = false ∧ ∀ b, v'.send b = { v' with log := v'.log ++ [.write b] } := by
  have : (Vte.Call.keyboard k a m u).run v = .ok v' := by
    show (v.keyboard k a m u >>= fun r => pure r.1) = _
    rw [e]
    rfl
  have := (hr.step (c := .keyboard k a m u) trivial this).all.2.2
  exact ⟨this, fun b => send_ok this b⟩

/-- The claim: with Alt, the last two things that are sent are an ESC and the string of the key. -/
def C56_claim : Prop :=
  ∀ v v' k a m u b, Reachable v → m.testBit 3 = true → v.keyboard k a m u = .ok (v', true) →
    v.keyString k a m u = some b → ∃ evs, v'.log = v.log ++ evs ++ [.write [27], .write b]

/-- **C56** is false: with local echo, Alt with `Z` echoes ESC Z, a request for the terminal type, and the
answer takes the ESC; `Z` alone is sent. (Alt with `c` is similar: the echo is a reset.) -/
theorem C56_false : ¬ C56_claim := by
  intro hc
  obtain ⟨v, h, hp⟩ := exists_of_vholds (cs := []) (sg := true) (vs := [.input [27, 91, 49, 50, 108]])
    (P := fun v => decide (v.keyString 90 90 8 90 = some [90]) && gives (v.keyboard 90 90 8 90) (fun r => r.2 &&
      decide (r.1.log.reverse.take 3 = [.write [90], .write primaryDa, .write [27]]))) (by decide +kernel)
  rw [Bool.and_eq_true, decide_eq_true_eq] at hp
  obtain ⟨hk, hp⟩ := hp
  obtain ⟨⟨v', r⟩, e, hp⟩ := of_gives hp
  rw [Bool.and_eq_true, decide_eq_true_eq] at hp
  obtain ⟨hr, hl⟩ := hp
  dsimp only at hr hl
  subst hr
  obtain ⟨evs, he⟩ := hc v v' 90 90 8 90 [90] h (by decide) e hk
  rw [he, List.reverse_append] at hl
  injection hl with h1 h2
  injection h2 with h3 h4
  injection h3 with h5
  exact absurd h5 (by decide)

/-! ### C57 -/

/-- **C57**, pressing and releasing in SGR mode: exactly one report is sent; decoding it gives the position
counted from 1, whether the button is down, the button and the modifiers. What is missing: reports
for coordinates of more than seven digits can be truncated (`C57_false_large`), reports of motions do not
contain the modifiers (`C57_motion_partial`, `C57_false`). -/
theorem C57_button_partial {v : Vte} (hr : Reachable v) (hm : v.mouseMode = 1006) (he : v.mouseEvent ≠ 0)
    {cx cy px py button event mods : Nat} (hx : cx < 9999999) (hy : cy < 9999999) (hb : button ∈ Mouse.buttons)
    (hmo : mods ∈ Mouse.modifiers) (ev : event.testBit 2 = false) :
    ∃ bs c, Mouse.Reports v bs (v.mouse cx cy px py button event mods) ∧
      Mouse.decodeSgr bs = some (c, cx + 1, cy + 1, event.testBit 0) ∧ Mouse.buttonOf c = (button, mods) := by
  obtain ⟨h, _, hp⟩ := hr.all
  obtain ⟨hb1, hb2⟩ := sgrButton_ok hb hmo
  refine ⟨_, sgrButton button mods, ?_, report_ok (x := cx + 1) (y := cy + 1) (by omega) (by omega) (by omega), hb2⟩
  rw [mouse_sgr hm he ev, show u32 (cx + 1) = cx + 1 from Nat.mod_eq_of_lt (by omega),
    show u32 (cy + 1) = cy + 1 from Nat.mod_eq_of_lt (by omega)]
  exact write_reports h hp _

/-- **C57**, motions in SGR mode: a report is sent unless the cell is that of the last report; decoding it
gives the position and code 35, which stands for a motion without a button. -/
theorem C57_motion_partial {v : Vte} (hr : Reachable v) (hm : v.mouseMode = 1006) (he : v.mouseEvent = 1003)
    {cx cy px py button event mods : Nat} (hx : cx < 9999999) (hy : cy < 9999999)
    (hl : ¬ (v.mouseLastCol = cx + 1 ∧ v.mouseLastRow = cy + 1)) (ev : event.testBit 2 = true) :
    ∃ bs, Mouse.Reports { v with mouseLastCol := cx + 1, mouseLastRow := cy + 1 } bs
        (v.mouse cx cy px py button event mods) ∧
      Mouse.decodeSgr bs = some (35, cx + 1, cy + 1, true) := by
  obtain ⟨h, _, hp⟩ := hr.all
  refine ⟨_, ?_, report_ok (x := cx + 1) (y := cy + 1) (by omega) (by omega) (by omega)⟩
  rw [mouse_motion hm he ev, show u32 (cx + 1) = cx + 1 from Nat.mod_eq_of_lt (by omega),
    show u32 (cy + 1) = cy + 1 from Nat.mod_eq_of_lt (by omega), if_neg (fun h => hl ⟨h.1.symm, h.2.symm⟩)]
  have h1 : Ok { v with mouseLastCol := cx + 1, mouseLastRow := cy + 1 } := { h with }
  exact write_reports h1 hp _

/-- **C57**, pressing and releasing in pixel mode: as in SGR mode, with the coordinates of the pixel, which
are counted from 0. -/
theorem C57_pixel_partial {v : Vte} (hr : Reachable v) (hm : v.mouseMode = 1016) (he : v.mouseEvent ≠ 0)
    {cx cy px py button event mods : Nat} (hx : px < 10000000) (hy : py < 10000000) (hb : button ∈ Mouse.buttons)
    (hmo : mods ∈ Mouse.modifiers) (ev : event.testBit 2 = false) :
    ∃ bs c, Mouse.Reports v bs (v.mouse cx cy px py button event mods) ∧
      Mouse.decodeSgr bs = some (c, px, py, event.testBit 0) ∧ Mouse.buttonOf c = (button, mods) := by
  obtain ⟨h, _, hp⟩ := hr.all
  obtain ⟨hb1, hb2⟩ := sgrButton_ok hb hmo
  refine ⟨_, sgrButton button mods, ?_, report_ok (x := px) (y := py) (by omega) hx hy, hb2⟩
  have : v.mouse cx cy px py button event mods =
      (v.write (sgrReport (sgrButton button mods) px py (event.testBit 0)) >>= fun v' => pure (v', true)) := by
    unfold Vte.mouse pixelReport
    rw [if_neg (by rw [ev]; intro h; cases h.2), if_neg (by rw [hm]; decide), if_neg (by rw [hm]; intro h; cases h.1),
      if_pos ⟨hm, he⟩, if_neg (by intro e; rw [e] at ev; exact absurd ev (by decide))]
  rw [this]
  exact write_reports h hp _

/-- **C57**, motions in pixel mode: every motion is reported, with code 35 and the position of the pixel. Missing: numbers with
more than seven digits, as above. -/
theorem C57_pixel_motion_partial {v : Vte} (hr : Reachable v) (hm : v.mouseMode = 1016) (he : v.mouseEvent = 1003)
    {cx cy px py button mods : Nat} (hx : px < 10000000) (hy : py < 10000000) :
    ∃ bs, Mouse.Reports v bs (v.mouse cx cy px py button 4 mods) ∧ Mouse.decodeSgr bs = some (35, px, py, true) := by
  obtain ⟨h, _, hp⟩ := hr.all
  refine ⟨_, ?_, report_ok (x := px) (y := py) (by omega) hx hy⟩
  have : v.mouse cx cy px py button 4 mods = (v.write (sgrReport 35 px py true) >>= fun v' => pure (v', true)) := by
    unfold Vte.mouse pixelReport
    rw [if_neg (by rw [hm, he]; intro h; rcases h.1 with h | h <;> revert h <;> decide), if_neg (by rw [hm]; decide),
      if_neg (by rw [hm]; intro h; cases h.1), if_pos ⟨hm, by rw [he]; decide⟩, if_pos rfl]
  rw [this]
  exact write_reports h hp _

/-- The hypotheses of `C57_pixel_motion_partial`. -/
example : ∃ v, Reachable v ∧ v.mouseMode = 1016 ∧ v.mouseEvent = 1003 := by
  obtain ⟨v, h, hp⟩ := exists_of_vholds (cs := []) (sg := true)
    (vs := [.input [27, 91, 63, 49, 48, 48, 51, 104, 27, 91, 63, 49, 48, 49, 54, 104]])
    (P := fun v => decide (v.mouseMode = 1016) && decide (v.mouseEvent = 1003)) (by decide +kernel)
  rw [Bool.and_eq_true, decide_eq_true_eq, decide_eq_true_eq] at hp
  exact ⟨v, h, hp⟩

/-- The hypotheses of `C57_button_partial` and `C57_motion_partial`: CSI ? 1003 h, CSI ? 1006 h. -/
example : ∃ v, Reachable v ∧ v.mouseMode = 1006 ∧ v.mouseEvent = 1003 := by
  obtain ⟨v, h, hp⟩ := exists_of_vholds (cs := []) (sg := true)
    (vs := [.input [27, 91, 63, 49, 48, 48, 51, 104, 27, 91, 63, 49, 48, 48, 54, 104]])
    (P := fun v => decide (v.mouseMode = 1006) && decide (v.mouseEvent = 1003)) (by decide +kernel)
  rw [Bool.and_eq_true, decide_eq_true_eq, decide_eq_true_eq] at hp
  exact ⟨v, h, hp⟩

/-- The hypotheses of `C57_pixel_partial`. -/
example : ∃ v, Reachable v ∧ v.mouseMode = 1016 ∧ v.mouseEvent ≠ 0 := by
  obtain ⟨v, h, hp⟩ := exists_of_vholds (cs := []) (sg := true)
    (vs := [.input [27, 91, 63, 49, 48, 48, 50, 104, 27, 91, 63, 49, 48, 49, 54, 104]])
    (P := fun v => decide (v.mouseMode = 1016) && decide (v.mouseEvent ≠ 0)) (by decide +kernel)
  rw [Bool.and_eq_true, decide_eq_true_eq, decide_eq_true_eq] at hp
  exact ⟨v, h, hp⟩

/-- The claim: whatever is reported in SGR mode can be decoded, and the modifiers are recovered. -/
def C57_claim : Prop :=
  ∀ v cx cy px py button event mods v' bs, Reachable v → v.mouseMode = 1006 → cx < 2 ^ 31 → cy < 2 ^ 31 →
    button ∈ Mouse.buttons → mods ∈ Mouse.modifiers →
    v.mouse cx cy px py button event mods = .ok (v', true) → v'.log = v.log ++ [.write bs] →
    ∃ c x y p, Mouse.decodeSgr bs = some (c, x, y, p) ∧ (Mouse.buttonOf c).2 = mods

theorem not_C57 {cx cy event mods : Nat} {bs : List UInt8} (hx : cx < 2 ^ 31) (hy : cy < 2 ^ 31) (hm : mods ∈ Mouse.modifiers)
    (hd : ∀ c x y p, Mouse.decodeSgr bs = some (c, x, y, p) → (Mouse.buttonOf c).2 ≠ mods)
    (h : vholds [] true [.input [27, 91, 63, 49, 48, 48, 51, 104, 27, 91, 63, 49, 48, 48, 54, 104]] (fun v =>
      decide (v.mouseMode = 1006) && gives (v.mouse cx cy 0 0 0 event mods) (fun r =>
        r.2 && decide (r.1.log = v.log ++ [.write bs]))) = true) : ¬ C57_claim := by
  intro hc
  obtain ⟨v, h, hp⟩ := exists_of_vholds h
  rw [Bool.and_eq_true, decide_eq_true_eq] at hp
  obtain ⟨h1, hp⟩ := hp
  obtain ⟨⟨v', r⟩, e, hp⟩ := of_gives hp
  rw [Bool.and_eq_true, decide_eq_true_eq] at hp
  obtain ⟨hr, hl⟩ := hp
  dsimp only at hr hl
  subst hr
  obtain ⟨c, x, y, p, hd', hm'⟩ := hc v cx cy 0 0 0 event mods v' bs h h1 hx hy (by decide) hm e hl
  exact hd c x y p hd' hm'

/-- **C57** is false: the report of a motion with Control held is `ESC [ < 35 ; 3 ; 4 M`, without the
modifier. -/
theorem C57_false : ¬ C57_claim :=
  not_C57 (cx := 2) (cy := 3) (event := 4) (mods := 16) (bs := [27, 91, 60, 51, 53, 59, 51, 59, 52, 77])
    (by decide) (by decide) (by decide)
    (by
      intro c x y p h
      have : Mouse.decodeSgr [27, 91, 60, 51, 53, 59, 51, 59, 52, 77] = some (35, 3, 4, true) := by decide
      rw [this] at h
      injection h with h
      injection h with h
      subst h
      decide)
    (by decide +kernel)

/-- **C57** is false: with coordinates of nine digits the report is truncated, its final letter is
missing. -/
theorem C57_false_large : ¬ C57_claim :=
  not_C57 (cx := 99999999) (cy := 99999999) (event := 1) (mods := 0)
    (bs := [27, 91, 60, 48, 59, 49, 48, 48, 48, 48, 48, 48, 48, 48, 59, 49, 48, 48, 48, 48, 48, 48, 48])
    (by decide) (by decide) (by decide)
    (by
      intro c x y p h
      have : Mouse.decodeSgr [27, 91, 60, 48, 59, 49, 48, 48, 48, 48, 48, 48, 48, 48, 59, 49, 48, 48, 48, 48, 48, 48, 48] =
        none := by decide
      rw [this] at h
      cases h)
    (by decide +kernel)

/-! ### C58 -/

/-- **C58**: pressing and releasing in X10 mode: exactly one report is sent, `ESC [ M` and three bytes, with
button 3 for releases. What is missing: for values of button and modifiers from 224 on and for positions
close to 2^32 one of the bytes wraps to NUL, which ends the report (`C58_false`, `C58_false_button`). -/
theorem C58_report_partial {v : Vte} (hr : Reachable v) (hm : v.mouseMode = 9) {cx cy px py button event mods : Nat}
    (hx : cx < 2 ^ 32 - 33) (hy : cy < 2 ^ 32 - 33) (hb : button ||| mods < 224) (hmo : mods < 224)
    (ev : event.testBit 2 = false) :
    Mouse.Reports v (Mouse.x10 ((if event.testBit 1 then 3 else button) ||| mods) cx cy)
      (v.mouse cx cy px py button event mods) := by
  obtain ⟨h, _, hp⟩ := hr.all
  have e1 : v.mouse cx cy px py button event mods =
      (v.write (x10Report cx cy button event mods) >>= fun v' => pure (v', true)) := by
    unfold Vte.mouse
    rw [if_neg (by rw [ev]; intro h; cases h.2), if_pos hm]
  have hc : ∀ c, c < 2 ^ 32 - 33 → x10Coord c = min (c + 33) 255 := by
    intro c hc
    unfold x10Coord
    rw [show u32 (c + 0x21) = c + 33 from Nat.mod_eq_of_lt (by omega)]
    split <;> omega
  have h3 : 3 ||| mods < 224 := by
    by_cases hs : mods < 2
    · have key : ∀ m : Fin 2, 3 ||| m.val < 224 := by decide
      exact key ⟨mods, hs⟩
    · have key : ∀ m : Fin 224, 3 ||| m.val < 224 := by decide +kernel
      exact key ⟨mods, hmo⟩
  have e2 : x10Report cx cy button event mods = Mouse.x10 ((if event.testBit 1 then 3 else button) ||| mods) cx cy := by
    unfold x10Report
    rw [hc cx hx, hc cy hy]
    have hbb : ((if event.testBit 1 then 3 else button) ||| mods) < 224 := by split <;> assumption
    generalize ((if event.testBit 1 then 3 else button) ||| mods) = b at hbb
    have hnz : ∀ n, 0 < n → n < 256 → UInt8.ofNat n ≠ 0 := by
      intro n h0 h1 e
      have := congrArg UInt8.toNat e
      rw [UInt8.toNat_ofNat', Nat.mod_eq_of_lt h1] at this
      change n = 0 at this
      omega
    apply cString_id
    · simp
    · intro d hd
      simp only [List.mem_cons, List.not_mem_nil, or_false] at hd
      rcases hd with hd | hd | hd | hd | hd | hd
      · subst hd; decide
      · subst hd; decide
      · subst hd; decide
      · subst hd; exact hnz _ (by omega) (by omega)
      · subst hd; exact hnz _ (by omega) (by omega)
      · subst hd; exact hnz _ (by omega) (by omega)
  rw [e1, e2]
  exact write_reports h hp _

/-- The hypotheses of `C58_report_partial`: CSI ? 9 h. -/
example : ∃ v, Reachable v ∧ v.mouseMode = 9 := by
  obtain ⟨v, h, hp⟩ := exists_of_vholds (cs := []) (sg := true) (vs := [.input [27, 91, 63, 57, 104]])
    (P := fun v => decide (v.mouseMode = 9)) (by decide +kernel)
  exact ⟨v, h, of_decide_eq_true hp⟩

/-- **C58**: coordinates up to 222 can be read off the report. -/
theorem C58_position {b b' x y x' y' : Nat} (hx : x < 222) (hy : y < 222) (h : Mouse.x10 b x y = Mouse.x10 b' x' y') :
    x' = x ∧ y' = y := by
  unfold Mouse.x10 at h
  injection h with _ h
  injection h with _ h
  injection h with _ h
  injection h with _ h
  injection h with h1 h
  injection h with h2 _
  have key : ∀ a b : Nat, a < 222 → UInt8.ofNat (min (a + 33) 255) = UInt8.ofNat (min (b + 33) 255) → b = a := by
    intro a b ha e
    have := congrArg UInt8.toNat e
    rw [UInt8.toNat_ofNat', UInt8.toNat_ofNat', Nat.mod_eq_of_lt (by omega), Nat.mod_eq_of_lt (by omega)] at this
    omega
  exact ⟨key _ _ hx h1, key _ _ hy h2⟩

/-- The claim: reports in X10 mode consist of six bytes. -/
def C58_claim : Prop :=
  ∀ v cx cy px py button event mods v' bs, Reachable v → v.mouseMode = 9 → cx < 2 ^ 32 → cy < 2 ^ 32 → mods < 256 →
    v.mouse cx cy px py button event mods = .ok (v', true) → v'.log = v.log ++ [.write bs] → bs.length = 6

theorem not_C58 {cx cy button event mods : Nat} {bs : List UInt8} (hx : cx < 2 ^ 32) (hy : cy < 2 ^ 32) (hm : mods < 256)
    (hl : bs.length ≠ 6)
    (h : vholds [] true [.input [27, 91, 63, 57, 104]] (fun v => decide (v.mouseMode = 9) &&
      gives (v.mouse cx cy 0 0 button event mods) (fun r => r.2 && decide (r.1.log = v.log ++ [.write bs]))) = true) :
    ¬ C58_claim := by
  intro hc
  obtain ⟨v, h, hp⟩ := exists_of_vholds h
  rw [Bool.and_eq_true, decide_eq_true_eq] at hp
  obtain ⟨h1, hp⟩ := hp
  obtain ⟨⟨v', r⟩, e, hp⟩ := of_gives hp
  rw [Bool.and_eq_true, decide_eq_true_eq] at hp
  obtain ⟨hr, hg⟩ := hp
  dsimp only at hr hg
  subst hr
  exact hl (hc v cx cy 0 0 button event mods v' bs h h1 hx hy hm e hg)

/-- **C58** is false: for the column 2^32 - 33 the addition wraps to 0, and the report ends before the
column. -/
theorem C58_false : ¬ C58_claim :=
  not_C58 (cx := 4294967263) (cy := 0) (button := 0) (event := 1) (mods := 0) (bs := [27, 91, 77, 32])
    (by decide) (by decide) (by decide) (by decide) (by decide +kernel)

/-- **C58** is false: with all the modifier bits from 32 to 128 set the byte of the button is NUL. -/
theorem C58_false_button : ¬ C58_claim :=
  not_C58 (cx := 0) (cy := 0) (button := 0) (event := 1) (mods := 224) (bs := [27, 91, 77])
    (by decide) (by decide) (by decide) (by decide) (by decide +kernel)

/-! ### C59 -/

/-- **C59**: motions are not reported unless any-event tracking (CSI ? 1003 h) is on and the mode is not X10;
nothing happens at all. -/
theorem C59_motion_filter {v : Vte} {cx cy px py button event mods : Nat} (ev : event.testBit 2 = true)
    (h : v.mouseMode = 9 ∨ v.mouseEvent ≠ 1003) : v.mouse cx cy px py button event mods = .ok (v, false) := by
  unfold Vte.mouse
  rw [if_pos ⟨h, ev⟩]

/-- **C59**: without a mouse mode, or without tracking in the modes SGR and pixel, nothing happens. -/
theorem C59_off {v : Vte} {cx cy px py button event mods : Nat}
    (h : v.mouseMode ∉ [9, 1006, 1016] ∨ v.mouseMode ≠ 9 ∧ v.mouseEvent = 0) :
    v.mouse cx cy px py button event mods = .ok (v, false) := by
  unfold Vte.mouse
  simp only [List.mem_cons, List.not_mem_nil, or_false, not_or] at h
  split
  · rfl
  · rw [if_neg (by rcases h with h | h; exact h.1; exact h.1),
      if_neg (by intro e; rcases h with h | h; exact h.2.1 e.1; exact e.2 h.2),
      if_neg (by intro e; rcases h with h | h; exact h.2.2 e.1; exact e.2 h.2)]

/-- A CSI ? n l for a mouse mode, as bytes. -/
def mouseOff (n : Nat) : List UInt8 := 27 :: 91 :: 63 :: (dec n ++ [108])

/-- **C59**: CSI ? 9 l, CSI ? 1006 l and CSI ? 1016 l end all reports, whichever of the modes was on. -/
theorem C59_disable {v : Vte} (hr : Reachable v) (hb : Between v) {n : Nat} (hn : n = 9 ∨ n = 1006 ∨ n = 1016) :
    ∃ v', v.input (mouseOff n) = .ok v' ∧ v'.con = v.con ∧
      ∀ cx cy px py button event mods, v'.mouse cx cy px py button event mods = .ok (v', false) := by
  have key : ∀ q : List UInt8, (∀ d ∈ q, IsDigit d) → 0 ≤ value q → (∀ w : Vte, ∃ w', w.decMode false (value q).toNat = .ok w' ∧
      w'.mouseMode = 0 ∧ w'.con = w.con) → ∃ v', v.input (27 :: 91 :: 63 :: (q ++ [108])) = .ok v' ∧ v'.con = v.con ∧
      ∀ cx cy px py button event mods, v'.mouse cx cy px py button event mods = .ok (v', false) := by
    intro q hq h0 hw
    obtain ⟨m, _, e⟩ := input_decMode hr.ok.1 hb false hq h0
    obtain ⟨w', e1, h1, h2⟩ := hw (inSeq v.up .csiParam 1 (padded [value q]) 4 m)
    rw [e1] at e
    refine ⟨_, e, h2, fun cx cy px py button event mods => ?_⟩
    exact C59_off (Or.inl (by show w'.mouseMode ∉ _; rw [h1]; decide))
  have hnot : ∀ (w : Vte) (b c : Bool), w.mouseMode = 0 → (w.mouseNotify b c).mouseMode = 0 ∧ (w.mouseNotify b c).con = w.con := by
    intro w b c h
    unfold Vte.mouseNotify
    split <;> exact ⟨h, rfl⟩
  rcases hn with hn | hn | hn <;> subst hn
  · exact key [57] (by unfold IsDigit; decide) (by decide) fun w => ⟨_, rfl, (hnot _ _ _ rfl).1, (hnot _ _ _ rfl).2⟩
  · exact key [49, 48, 48, 54] (by unfold IsDigit; decide) (by decide) fun w => ⟨_, rfl, (hnot _ _ _ rfl).1, (hnot _ _ _ rfl).2⟩
  · exact key [49, 48, 49, 54] (by unfold IsDigit; decide) (by decide) fun w => ⟨_, rfl, (hnot _ _ _ rfl).1, (hnot _ _ _ rfl).2⟩

/-- **C59**: a motion to another cell than that of the last report is always reported in SGR mode with any-event
tracking, and a motion within the cell never is. (Coordinates are those of the last report, counted from 1.) -/
theorem C59_dedup_step {v : Vte} (hr : Reachable v) (hm : v.mouseMode = 1006) (he : v.mouseEvent = 1003)
    (hn : v.fNoEcho = true) {cx cy px py button event mods : Nat} (ev : event.testBit 2 = true) :
    ∃ v' r, v.mouse cx cy px py button event mods = .ok (v', r) ∧
      (r = false ↔ u32 (cx + 1) = v.mouseLastCol ∧ u32 (cy + 1) = v.mouseLastRow) ∧
      (r = false → v' = v) ∧ (r = true → ∃ bs, v'.log = v.log ++ [.write bs]) := by
  obtain ⟨h, _, hp⟩ := hr.all
  rw [mouse_motion hm he ev]
  split
  · rename_i hl
    exact ⟨_, _, rfl, ⟨fun _ => hl, fun _ => rfl⟩, fun _ => rfl, fun h => by cases h⟩
  · rename_i hl
    rw [write_quiet (v := { v with mouseLastCol := u32 (cx + 1), mouseLastRow := u32 (cy + 1) }) hn,
      send_ok (v := { v with mouseLastCol := u32 (cx + 1), mouseLastRow := u32 (cy + 1) }) hp]
    exact ⟨_, _, rfl, ⟨fun h => (by cases h), fun h => absurd h hl⟩, fun h => (by cases h), fun _ => ⟨_, rfl⟩⟩

/-- What a sequence of mouse events keeps, without local echo. -/
theorem events_ok {es : List Mouse.Ev} : ∀ {v : Vte}, v.fNoEcho = true → v.fPrepend = false → v.mouseMode = 1006 →
    (∀ e ∈ es, e.cx < 2 ^ 32 ∧ e.cy < 2 ^ 32) →
    ∃ v' l, Mouse.runEvents v es = .ok (v', l) ∧ Mouse.NoRepeat l ∧
      ∀ x y, l.head? = some (x, y) → x < 2 ^ 32 ∧ y < 2 ^ 32 ∧ ¬ (u32 (x + 1) = v.mouseLastCol ∧ u32 (y + 1) = v.mouseLastRow) := by
  induction es with
  | nil => intro v _ _ _ _; exact ⟨v, [], rfl, trivial, by intro x y h; cases h⟩
  | cons e es ih =>
    intro v hn hp hm hv
    obtain ⟨hx, hy⟩ := hv e (List.mem_cons_self ..)
    have ih := fun {v} h1 h2 h3 => ih (v := v) h1 h2 h3 (fun e he => hv e (List.mem_cons_of_mem _ he))
    -- an event that reports no motion
    have skip : ∀ w r, v.mouse e.cx e.cy e.px e.py e.button e.event e.modifiers = .ok (w, r) → (e.motion && r) = false →
        w.fNoEcho = true → w.fPrepend = false → w.mouseMode = 1006 → w.mouseLastCol = v.mouseLastCol →
        w.mouseLastRow = v.mouseLastRow → ∃ v' l, Mouse.runEvents v (e :: es) = .ok (v', l) ∧ Mouse.NoRepeat l ∧
          ∀ x y, l.head? = some (x, y) → x < 2 ^ 32 ∧ y < 2 ^ 32 ∧
            ¬ (u32 (x + 1) = v.mouseLastCol ∧ u32 (y + 1) = v.mouseLastRow) := by
      intro w r e1 hr h1 h2 h3 h4 h5
      obtain ⟨v', l, e2, h6, h7⟩ := ih h1 h2 h3
      refine ⟨v', l, ?_, h6, by rw [← h4, ← h5]; exact h7⟩
      unfold Mouse.runEvents
      rw [e1]
      show (Mouse.runEvents w es >>= fun p => pure (p.1, if (e.motion && r) = true then _ else p.2)) = _
      rw [e2, hr]
      rfl
    by_cases ev : e.event.testBit 2 = true
    · by_cases he : v.mouseEvent = 1003
      · by_cases hl : u32 (e.cx + 1) = v.mouseLastCol ∧ u32 (e.cy + 1) = v.mouseLastRow
        · exact skip v false (by rw [mouse_motion hm he ev, if_pos hl]) (by rw [Bool.and_false]) hn hp hm rfl rfl
        · have e1 : v.mouse e.cx e.cy e.px e.py e.button e.event e.modifiers = .ok
              ({ v with mouseLastCol := u32 (e.cx + 1), mouseLastRow := u32 (e.cy + 1)
                        log := v.log ++ [.write (sgrReport 35 (u32 (e.cx + 1)) (u32 (e.cy + 1)) true)] }, true) := by
            rw [mouse_motion hm he ev, if_neg hl,
              write_quiet (v := { v with mouseLastCol := u32 (e.cx + 1), mouseLastRow := u32 (e.cy + 1) }) hn,
              send_ok (v := { v with mouseLastCol := u32 (e.cx + 1), mouseLastRow := u32 (e.cy + 1) }) hp]
            rfl
          obtain ⟨v', l, e2, h6, h7⟩ := ih (v := { v with
            mouseLastCol := u32 (e.cx + 1), mouseLastRow := u32 (e.cy + 1)
            log := v.log ++ [.write (sgrReport 35 (u32 (e.cx + 1)) (u32 (e.cy + 1)) true)] }) hn hp hm
          refine ⟨v', (e.cx, e.cy) :: l, ?_, ?_, ?_⟩
          · unfold Mouse.runEvents
            rw [e1]
            show (Mouse.runEvents _ es >>= fun p => pure (p.1, if (e.motion && true) = true then _ else p.2)) = _
            rw [e2]
            show Except.ok (v', if (e.motion && true) = true then _ else l) = _
            rw [if_pos (by rw [Bool.and_true]; exact ev)]
          · cases l with
            | nil => trivial
            | cons p l =>
              obtain ⟨x, y⟩ := p
              refine ⟨?_, h6⟩
              intro h
              injection h with h8 h9
              apply (h7 x y rfl).2.2
              rw [h8, h9]
              exact ⟨rfl, rfl⟩
          · intro x y h
            injection h with h
            injection h with h8 h9
            rw [← h8, ← h9]
            exact ⟨hx, hy, hl⟩
      · exact skip v false (C59_motion_filter ev (Or.inr he)) (by rw [Bool.and_false]) hn hp hm rfl rfl
    · have ev : e.event.testBit 2 = false := by simpa using ev
      have hmo : ∀ r, (e.motion && r) = false := by intro r; unfold Mouse.Ev.motion; rw [ev]; rfl
      by_cases he : v.mouseEvent = 0
      · exact skip v false (C59_off (Or.inr ⟨by rw [hm]; decide, he⟩)) (hmo _) hn hp hm rfl rfl
      · exact skip { v with log := v.log ++ [.write (sgrReport (sgrButton e.button e.modifiers) (u32 (e.cx + 1))
          (u32 (e.cy + 1)) (e.event.testBit 0))] } true (by rw [mouse_sgr hm he ev, write_quiet hn, send_ok hp]; rfl)
          (hmo _) hn hp hm rfl rfl

/-- **C59**: in SGR mode and without local echo, any sequence of mouse events of any kind is handled without undefined
behaviour, and consecutive reports of motions are never for the same cell, whatever happens in
between. (In pixel mode repeated motions are reported again. With local echo every report is handled as input, and the
numbers of the last report are not protected against it.) -/
theorem C59_dedup_partial {v : Vte} (hr : Reachable v) (hm : v.mouseMode = 1006) (hn : v.fNoEcho = true) {es : List Mouse.Ev}
    (hv : ∀ e ∈ es, e.cx < 2 ^ 32 ∧ e.cy < 2 ^ 32) :
    ∃ v' l, Mouse.runEvents v es = .ok (v', l) ∧ Mouse.NoRepeat l := by
  obtain ⟨v', l, e, h, _⟩ := events_ok hn hr.all.2.2 hm hv
  exact ⟨v', l, e, h⟩

/-- The hypotheses of `C59_dedup_partial`, and what happens: of the motions to (1,1), (1,1), (2,1), (1,1) and a press in
between, three motions are reported. -/
example : ∃ v, Reachable v ∧ v.mouseMode = 1006 ∧ v.fNoEcho = true ∧
    ∃ v', Mouse.runEvents v [⟨1, 1, 0, 0, 0, 4, 0⟩, ⟨1, 1, 0, 0, 0, 1, 0⟩, ⟨1, 1, 0, 0, 0, 4, 0⟩, ⟨2, 1, 0, 0, 0, 4, 0⟩,
      ⟨1, 1, 0, 0, 0, 4, 0⟩] = .ok (v', [(1, 1), (2, 1), (1, 1)]) := by
  obtain ⟨v, h, hp⟩ := exists_of_vholds (cs := []) (sg := true)
    (vs := [.input [27, 91, 63, 49, 48, 48, 51, 104, 27, 91, 63, 49, 48, 48, 54, 104]])
    (P := fun v => decide (v.mouseMode = 1006) && (v.fNoEcho && gives (Mouse.runEvents v
      [⟨1, 1, 0, 0, 0, 4, 0⟩, ⟨1, 1, 0, 0, 0, 1, 0⟩, ⟨1, 1, 0, 0, 0, 4, 0⟩, ⟨2, 1, 0, 0, 0, 4, 0⟩, ⟨1, 1, 0, 0, 0, 4, 0⟩])
      (fun r => decide (r.2 = [(1, 1), (2, 1), (1, 1)])))) (by decide +kernel)
  rw [Bool.and_eq_true, Bool.and_eq_true, decide_eq_true_eq] at hp
  obtain ⟨h1, h2, hp⟩ := hp
  obtain ⟨⟨v', l⟩, e, hp⟩ := of_gives hp
  rw [decide_eq_true_eq] at hp
  dsimp only at hp
  subst hp
  exact ⟨v, h, h1, h2, v', e⟩

/-- The claim: if tracking has never been asked for (CSI ? 1002 h or CSI ? 1003 h), no events are reported
in SGR mode. Here for a history without such a sequence. -/
def C59_claim : Prop :=
  ∀ v v' : Vte, Reachable v → v.log = [] → v.mouseMode = 0 → v.mouseEvent = 0 → v.input
    [27, 91, 63, 57, 104, 27, 91, 63, 57, 108, 27, 91, 63, 49, 48, 48, 54, 104] = .ok v' →
    ∀ cx cy px py button event mods, v'.mouse cx cy px py button event mods = .ok (v', false)

/-- **C59** is false: switching the X10 mode on and off again leaves tracking of buttons on, and CSI ? 1006 h
alone then gives reports. -/
theorem C59_false : ¬ C59_claim := by
  intro hc
  obtain ⟨v, h, hp⟩ := exists_of_vholds (cs := []) (sg := true) (vs := [])
    (P := fun v => decide (v.log = []) && (decide (v.mouseMode = 0) && (decide (v.mouseEvent = 0) && gives (v.input
      [27, 91, 63, 57, 104, 27, 91, 63, 57, 108, 27, 91, 63, 49, 48, 48, 54, 104])
      (fun v' => gives (v'.mouse 0 0 0 0 0 1 0) (fun r => r.2))))) (by decide +kernel)
  rw [Bool.and_eq_true, Bool.and_eq_true, Bool.and_eq_true, decide_eq_true_eq, decide_eq_true_eq, decide_eq_true_eq] at hp
  obtain ⟨h1, h2, h3, hp⟩ := hp
  obtain ⟨v', e, hp⟩ := of_gives hp
  obtain ⟨⟨w, r⟩, e2, hp⟩ := of_gives hp
  have := hc v v' h h1 h2 h3 e 0 0 0 0 0 1 0
  rw [e2] at this
  injection this with this
  injection this with _ this
  dsimp only at hp
  rw [this] at hp
  cases hp

end Vte
end Verif
