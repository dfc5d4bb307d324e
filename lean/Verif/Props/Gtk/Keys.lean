import Verif.Proofs.Gtk.LiveExample
import Verif.Proofs.Vte.Driven
import Verif.Props.Screen.Scroll
import Verif.Props.Vte.Keys

/-!
C97: the keyboard of the widget.
-/

namespace Verif.Props.Gtk
open Verif Verif.Gtk Verif.Gtk.Wid

theorem bit_eq {a b : Bool} {i : Nat} (h : (a = true ∧ b = false) ↔ i = 0) : (a && !b) = decide (i = 0) := by
  by_cases hi : i = 0
  · obtain ⟨rfl, rfl⟩ := h.mpr hi
    rw [decide_eq_true hi]; rfl
  · rw [decide_eq_false hi]
    cases a <;> cases b <;> first | rfl | exact absurd (h.mp ⟨rfl, rfl⟩) hi

theorem onlyShift_iff (s c : BitVec 32) : OnlyShift s c ↔ s &&& ~~~c &&& 0x4f#32 = 1#32 := by
  constructor
  · intro h
    apply BitVec.eq_of_getLsbD_eq
    intro i hi
    have h0 := h 0 (by simp)
    have h1 := h 1 (by simp)
    have h2 := h 2 (by simp)
    have h3 := h 3 (by simp)
    have h6 := h 6 (by simp)
    rw [BitVec.getLsbD_and, BitVec.getLsbD_and, BitVec.getLsbD_not]
    have hc : i = 0 ∨ i = 1 ∨ i = 2 ∨ i = 3 ∨ i = 6 ∨
        (BitVec.getLsbD 0x4f#32 i = false ∧ BitVec.getLsbD 1#32 i = false) := by
      have : ∀ i : Fin 32, i.val = 0 ∨ i.val = 1 ∨ i.val = 2 ∨ i.val = 3 ∨ i.val = 6 ∨
        (BitVec.getLsbD 0x4f#32 i = false ∧ BitVec.getLsbD 1#32 i = false) := by decide
      exact this ⟨i, hi⟩
    rcases hc with rfl | rfl | rfl | rfl | rfl | ⟨a, b⟩
    · rw [decide_eq_true hi, Bool.true_and, bit_eq h0]; decide
    · rw [decide_eq_true hi, Bool.true_and, bit_eq h1]; decide
    · rw [decide_eq_true hi, Bool.true_and, bit_eq h2]; decide
    · rw [decide_eq_true hi, Bool.true_and, bit_eq h3]; decide
    · rw [decide_eq_true hi, Bool.true_and, bit_eq h6]; decide
    · rw [a, b, Bool.and_false]
  · intro h i hi
    have := congrArg (fun b => b.getLsbD i) h
    simp only [BitVec.getLsbD_and, BitVec.getLsbD_not] at this
    rcases hi with rfl | rfl | rfl | rfl | rfl <;> simp at this ⊢ <;> exact this

theorem scrollKey_none {v : View} {s : BitVec 32} {t : Option (Nat × BitVec 32)} (h : ¬ Scrolls v s t) : scrollKey s t = none := by
  unfold scrollKey
  cases t with
  | none => rfl
  | some p =>
    obtain ⟨k, c⟩ := p
    dsimp only
    by_cases ho : s &&& ~~~c &&& 0x4f#32 = 1#32
    · rw [if_pos ho]
      have hn : ¬ (scrolled v k).isSome = true := fun hs => h ⟨k, c, rfl, (onlyShift_iff s c).mpr ho, hs⟩
      unfold scrolled at hn
      split at hn
      · exact absurd rfl hn
      · split at hn
        · exact absurd rfl hn
        · split at hn
          · exact absurd rfl hn
          · split at hn
            · exact absurd rfl hn
            · rename_i a b c d
              rw [if_neg a, if_neg b, if_neg c, if_neg d]
    · rw [if_neg ho]

theorem scr_key {w : Wid} {s : BitVec 32} {t : Option (Nat × BitVec 32)} {k u : Nat} {c : Screen.Call} {x : Screen} (h : scrollKey s t = some c)
    (hx : c.run w.vte.con = .ok x) : w.key s t k u = .ok { w with vte := { w.vte with con := x }, queued := true } := by
  unfold key
  rw [h]
  show (lib (w.vte.scr c) >>= _) = _
  unfold Vte.scr
  rw [hx]
  rfl

/-- **C97**: with Shift alone, Up, Down, Page_Up and Page_Down move the view by a line or by the height of the screen, but not
beyond the ends of the scrollback. Nothing is sent, nothing else changes, and a redraw is requested. -/
theorem C97_scroll {ink : Ink} {w : Wid} (h : Live ink w) {state cmod : BitVec 32} (hs : OnlyShift state cmod) {key n : Nat}
    (hk : scrolled w.vte.con.view key = some n) (keyval ucs : Nat) :
    ∃ w' s q m, w.step ink (.key state (some (key, cmod)) keyval ucs) = .ok w' ∧ w' = { w with vte := { w.vte with con := s }, queued := true } ∧
      s.view = { w.vte.con.view with sbPos := q, sbPosNum := m } ∧ s.view.topIndex = n := by
  have hr := Vte.Reachable.con h.alive.sane.vte
  have hi := (onlyShift_iff state cmod).mp hs
  have hy : 1 * w.vte.con.sizeY < 2 ^ 32 := by have := hr.inv.dim.yb; omega
  obtain ⟨pu, pd⟩ := Screen.C37_page_partial hr hy
  have hsk : ∀ c, (if key = 0xff52 then some (.sbUp 1)
      else if key = 0xff54 then some (.sbDown 1)
      else if key = 0xff55 then some (.sbPageUp 1)
      else if key = 0xff56 then some (.sbPageDown 1)
      else none) = some c → scrollKey state (some (key, cmod)) = some c := by
    intro c hc
    unfold scrollKey
    dsimp only
    rw [if_pos hi, hc]
  unfold scrolled at hk
  split at hk
  · rename_i e
    injection hk with hk
    obtain ⟨s, q, m, e1, e2, e3⟩ := Screen.C37_sb_up hr 1
    exact ⟨_, s, q, m, scr_key (hsk (.sbUp 1) (by rw [if_pos e])) e1, rfl, e2, by rw [e3, hk]⟩
  · rename_i n1
    split at hk
    · rename_i e
      injection hk with hk
      obtain ⟨s, q, m, e1, e2, e3⟩ := Screen.C37_sb_down hr 1
      exact ⟨_, s, q, m, scr_key (hsk (.sbDown 1) (by rw [if_neg n1, if_pos e])) e1, rfl, e2, by
        rw [e3, show w.vte.con.sb.length = w.vte.con.view.sb.length by simp [Screen.view]]; exact hk⟩
    · rename_i n2
      split at hk
      · rename_i e
        injection hk with hk
        obtain ⟨s, q, m, e1, e2, e3⟩ := pu
        exact ⟨_, s, q, m, scr_key (hsk (.sbPageUp 1) (by rw [if_neg n1, if_neg n2, if_pos e])) e1, rfl, e2, by
          rw [e3, Nat.one_mul]; exact hk⟩
      · rename_i n3
        split at hk
        · rename_i e
          injection hk with hk
          obtain ⟨s, q, m, e1, e2, e3⟩ := pd
          exact ⟨_, s, q, m, scr_key (hsk (.sbPageDown 1) (by rw [if_neg n1, if_neg n2, if_neg n3, if_pos e])) e1, rfl, e2, by
            rw [e3, Nat.one_mul, show w.vte.con.sb.length = w.vte.con.view.sb.length by simp [Screen.view]]; exact hk⟩
        · cases hk

theorem mods_bits (s : BitVec 32) : (mods s).testBit 0 = s.getLsbD 0 ∧ (mods s).testBit 2 = s.getLsbD 2 ∧ (mods s).testBit 3 = s.getLsbD 3 := by
  unfold mods
  cases s.getLsbD 0 <;> cases s.getLsbD 1 <;> cases s.getLsbD 2 <;> cases s.getLsbD 3 <;> cases s.getLsbD 6 <;> decide

/-- The bytes of a key, where bit 0 of the state is Shift and bit 2 is Control. -/
def keyBytes (v : Vte) (state : BitVec 32) (keyval ucs : Nat) : Option (List UInt8) :=
  Keys.string { Keys.modes v 0 with shift := state.getLsbD 0, ctrl := state.getLsbD 2 } (Keys.encoding v) keyval 0
    (if ucs = 0 then 0xffffffff else ucs)

/-- **C97** (partial): any other key, without local echo, queues for the child exactly its bytes, after an ESC if Alt (bit 3)
is held; the view returns to the live screen, nothing else on the screen changes and a redraw is requested. Keys without
bytes do nothing at all. What is missing: in 7-bit mode characters beyond Latin-1 send something else (C55), and with
local echo Alt does more than this (C56). -/
theorem C97_typed_partial {ink : Ink} {w w' : Wid} (h : Live ink w) {state : BitVec 32} {tr : Option (Nat × BitVec 32)}
    (hs : ¬ Scrolls w.vte.con.view state tr) (hn : w.vte.fNoEcho = true) {keyval ucs : Nat} (hu : ucs < 0x80000000)
    (h7 : w.vte.f7bit = true → ucs < 256) (e : w.step ink (.key state tr keyval ucs) = .ok w') :
    match keyBytes w.vte state keyval ucs with
    | none => w' = w
    | some b =>
      (∃ m, w'.vte.con.view = { w.vte.con.view with sbPos := none, sbPosNum := m }) ∧
      w'.vte = { w.vte with con := w'.vte.con, log := w.vte.log ++ (if state.getLsbD 3 then [.write [27]] else []) ++ [.write b] } ∧
      w'.queued = true ∧
      (∀ t, w.pty = some t → ∃ t', w'.pty = some t' ∧
        t'.io.accepted = t.io.accepted ++ (if state.getLsbD 3 then [27] else []) ++ b) := by
  have ha := h.alive
  have hr := ha.sane.vte
  have e : w.key state tr keyval ucs = .ok w' := e
  unfold key at e
  rw [scrollKey_none hs] at e
  dsimp only at e
  have hk := Vte.C55_sent_partial hr hn (k := keyval) (a := 0) (m := mods state) (u := if ucs = 0 then 0xffffffff else ucs)
    (by intro h; have := h7 h; split <;> omega) (by split <;> omega)
  have hm : Keys.modes w.vte (mods state) = { Keys.modes w.vte 0 with shift := state.getLsbD 0, ctrl := state.getLsbD 2 } := by
    unfold Keys.modes
    rw [(mods_bits state).1, (mods_bits state).2.1]
  rw [hm, (mods_bits state).2.2] at hk
  unfold keyBytes
  generalize Keys.string _ _ _ _ _ = o at hk ⊢
  cases o with
  | none =>
    dsimp only at hk ⊢
    rw [hk] at e
    have e : w.emu w.vte >>= (fun w => if false = true then _ else .ok w) = .ok w' := e
    obtain ⟨w1, e1, e⟩ := bind_ok e
    rw [if_neg (by decide)] at e
    injection e with e
    subst e
    unfold emu at e1
    rw [List.drop_length] at e1
    injection e1 with e1
    exact e1.symm
  | some b =>
    dsimp only at hk ⊢
    rw [hk] at e
    generalize hevs : (if state.getLsbD 3 = true then [Event.write [27]] else []) = evs at e
    have e : w.emu { w.vte with log := w.vte.log ++ evs ++ [.write b] } >>= (fun w => if true = true then lib (w.vte.scr .sbReset) >>= fun v => .ok { w with vte := v, queued := true } else .ok w) = .ok w' := e
    obtain ⟨w1, e1, e⟩ := bind_ok e
    rw [if_pos rfl] at e
    obtain ⟨v2, e2, e⟩ := bind_ok e
    injection e with e
    subst e
    have e2 := lib_ok e2
    obtain ⟨g1, g2⟩ := emu_ok (evs := evs ++ [.write b]) (by rw [List.append_assoc]) e1
    have hv1 : w1.vte = { w.vte with log := w.vte.log ++ evs ++ [.write b] } := by rw [g1]
    have e3 : v2 = { w1.vte with con := w1.vte.con.sbReset } := by
      unfold Vte.scr at e2
      injection e2 with e2
      exact e2.symm
    obtain ⟨m, c1, c2⟩ := Screen.C37_sb_reset (Vte.Reachable.con hr)
    refine ⟨⟨m, ?_⟩, ?_, rfl, ?_⟩
    · show v2.con.view = _
      rw [e3, hv1]
      exact c1
    · show v2 = _
      rw [e3, hv1]
    · intro t ht
      show ∃ t', w1.pty = some t' ∧ _
      rw [ht] at g2
      obtain ⟨io, k1, k2, k3⟩ := g2
      refine ⟨_, k1, ?_⟩
      have hflow := (ha.sane.io t ht).2 (brief_short ha.brief)
      have hb : Short (evs ++ [.write b]) := by
        have hp := Vte.keyboard_sends w.vte keyval 0 (mods state) (if ucs = 0 then 0xffffffff else ucs)
        rw [hk] at hp
        obtain ⟨evs', x1, x2⟩ := hp
        rw [hevs] at x1
        have x1 : w.vte.log ++ evs ++ [.write b] = w.vte.log ++ evs' := x1
        rw [List.append_assoc] at x1
        rw [List.append_cancel_left x1]
        exact brief_short x2
      have := (k3 hflow hb).accepted
      rw [this, sent_append', List.flatten_append, List.append_assoc, ← hevs]
      congr 1
      congr 1
      · cases state.getLsbD 3 <;> rfl
      · simp [Vte.sent]

/-- Four lines on a screen of two, after those that the change of size has moved to the scrollback. -/
def paged : List Wid.Ev := [.fork (some faces10), .configure 50 40 true,
  .child [97, 13, 10, 98, 13, 10, 99, 13, 10, 100], .dispatch (.some 99) .again .again .again]

theorem paged_valid : ∀ e ∈ paged, e.Valid := by
  intro e he
  unfold paged at he
  simp only [List.mem_cons, List.not_mem_nil, or_false] at he
  rcases he with rfl | rfl | rfl | rfl
  · exact fun _ e => by injection e with e; subst e; exact faces10_fresh
  · exact ⟨by decide, by decide⟩
  · trivial
  · trivial

/-- For example, Shift with Page_Up, with Num Lock (bit 4) held, moves up by two lines. -/
example : ∃ w : Wid, Live noInk w ∧ OnlyShift 0x11#32 0#32 ∧ w.vte.con.view.topIndex = 24 ∧ scrolled w.vte.con.view 0xff55 = some 22 := by
  obtain ⟨w, h1, h2⟩ := exists_of_wholds paged_valid
    (P := fun w => decide (w.vte.con.view.topIndex = 24) && decide (scrolled w.vte.con.view 0xff55 = some 22)) (by decide +kernel)
  rw [Bool.and_eq_true, decide_eq_true_eq, decide_eq_true_eq] at h2
  exact ⟨w, h1, (onlyShift_iff _ _).mpr (by decide), h2⟩

/-- For example, Alt with `x`, while the view is in the scrollback: ESC and `x` are queued. -/
example : ∃ w : Wid, Live noInk w ∧ ¬ Scrolls w.vte.con.view 8#32 (some (120, 0#32)) ∧ w.vte.fNoEcho = true ∧ w.vte.f7bit = false ∧
    w.vte.con.view.topIndex = 22 ∧ keyBytes w.vte 8#32 120 120 = some [120] ∧
    (match w.step noInk (.key 8#32 (some (120, 0#32)) 120 120) with
      | .ok w' => decide (w'.pty.map (fun t => t.io.accepted) = some [27, 120]) && decide (w'.vte.con.view.topIndex = 24)
      | .error _ => false) = true := by
  have hv : ∀ e ∈ paged ++ [.key 0x11#32 (some (0xff55, 0#32)) 0xff55 0], e.Valid := by
    intro e he
    rcases List.mem_append.mp he with h | h
    · exact paged_valid e h
    · rw [List.mem_singleton.mp h]; exact ⟨by decide, by decide⟩
  obtain ⟨w, h1, h2⟩ := exists_of_wholds hv
    (P := fun w => w.vte.fNoEcho && !w.vte.f7bit && decide (w.vte.con.view.topIndex = 22) && decide (keyBytes w.vte 8#32 120 120 = some [120]) &&
      (match w.step noInk (.key 8#32 (some (120, 0#32)) 120 120) with
      | .ok w' => decide (w'.pty.map (fun t => t.io.accepted) = some [27, 120]) && decide (w'.vte.con.view.topIndex = 24)
      | .error _ => false)) (by decide +kernel)
  simp only [Bool.and_eq_true, decide_eq_true_eq, Bool.not_eq_true'] at h2
  refine ⟨w, h1, ?_, h2.1.1.1.1, h2.1.1.1.2, h2.1.1.2, h2.1.2, by simpa only [Bool.and_eq_true, decide_eq_true_eq] using h2.2⟩
  rintro ⟨k, c, e, ho, hs⟩
  injection e with e
  injection e with e1 e2
  subst e1
  unfold scrolled at hs
  rw [if_neg (by decide), if_neg (by decide), if_neg (by decide), if_neg (by decide)] at hs
  cases hs

end Verif.Props.Gtk
