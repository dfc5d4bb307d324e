import Verif.Props.Gtk.Flow
import Verif.Props.Vte.Text

/-!
C98: the title of the window.
-/

namespace Verif.Props.Gtk
open Verif Verif.Gtk Verif.Gtk.Wid

/-- **C98**: the titles that were set are those in the OSC strings that the emulator has reported, in order, and no others. -/
theorem C98_only {ink : Ink} {w : Wid} (h : Live ink w) : w.titles = setTitles w.vte.log := h.alive.sane.titles

theorem utf8_nonzero {g : Nat} (h0 : 0 < g) (hg : g < 128 ∨ Spec.Utf8.Encodable g) : ∀ b ∈ Vte.utf8 g, b ≠ 0 := by
  have hm : g < 128 ∨ g ≤ 0x10FFFF := hg.imp id (fun h => h.1)
  intro b hb hz
  unfold Vte.utf8 at hb
  rw [List.mem_map] at hb
  obtain ⟨n, hn, rfl⟩ := hb
  have hn' : 0 < n ∧ n < 256 := by
    unfold Spec.Utf8.bytes at hn
    split at hn
    · rw [List.mem_singleton] at hn; omega
    · split at hn
      · simp only [List.mem_cons, List.not_mem_nil, or_false] at hn; omega
      · split at hn
        · simp only [List.mem_cons, List.not_mem_nil, or_false] at hn; omega
        · simp only [List.mem_cons, List.not_mem_nil, or_false] at hn; omega
  have := congrArg UInt8.toNat hz
  rw [UInt8.toNat_ofNat_of_lt' hn'.2] at this
  exact absurd this (by have : (0 : UInt8).toNat = 0 := rfl; omega)

theorem takeWhile_all {α : Type} {p : α → Bool} : ∀ {l : List α}, (∀ a ∈ l, p a = true) → l.takeWhile p = l := by
  intro l
  induction l with
  | nil => exact fun _ => rfl
  | cons a l ih =>
    intro h
    rw [List.takeWhile_cons, if_pos (h a List.mem_cons_self), ih (fun b hb => h b (List.mem_cons_of_mem _ hb))]

/-- **C98**: the child writes an OSC string `2;` with a title of printable characters, at most 125 bytes of UTF-8, and the pty is
read, with reads of any sizes, until nothing is left. Then exactly this title was set, once, and the screen is as before. -/
theorem C98_title {ink : Ink} {w w2 : Wid} (h : Live ink w) {t : Tty} (hp : w.pty = some t) (hq : t.io.inq = [])
    (hb : Vte.Between w.vte) (hg : w.vte.state = .ground) {gs : List Nat} (hgs : ∀ g ∈ gs, Vte.Typable w.vte g ∧ Vte.Graphic g)
    (hl : (gs.flatMap Vte.utf8).length ≤ 125) {st tm : List UInt8} (hst : Vte.OscStart w.vte st) (htm : Vte.OscStop w.vte tm)
    {es : List Wid.Ev} (hes : ∀ e ∈ es, (∃ a b c d, e = .dispatch a b c d) ∨ (∃ a b c d, e = .idle a b c d))
    (e : Wid.runAll ink (.child (st ++ [0x32, 0x3b] ++ gs.flatMap Vte.utf8 ++ tm) :: es) w = .ok w2)
    (hd : ∀ t2, w2.pty = some t2 → t2.io.inq = []) :
    w2.titles = w.titles ++ [gs.flatMap Vte.utf8] ∧ w2.vte.con = w.vte.con ∧ w2.vte.state = .ground := by
  have ha := h.alive
  have hall : ∀ e' ∈ Wid.Ev.child (st ++ [0x32, 0x3b] ++ gs.flatMap Vte.utf8 ++ tm) :: es,
      (∃ d, e' = .child d) ∨ (∃ a b c d, e' = .dispatch a b c d) ∨ (∃ a b c d, e' = .idle a b c d) := by
    intro e' he
    rcases List.mem_cons.mp he with rfl | he
    · exact Or.inl ⟨_, rfl⟩
    · exact Or.inr (hes e' he)
  have hval : ∀ e' ∈ Wid.Ev.child (st ++ [0x32, 0x3b] ++ gs.flatMap Vte.utf8 ++ tm) :: es, e'.Valid := by
    intro e' he
    rcases hall e' he with ⟨d, rfl⟩ | ⟨_, _, _, _, rfl⟩ | ⟨_, _, _, _, rfl⟩ <;> trivial
  obtain ⟨cs, evs, k1, k2, k3, k4, k5⟩ := run_did ha (by rw [hp]; rfl) hval (by
    intro hx
    rcases hall _ hx with ⟨d, e⟩ | ⟨_, _, _, _, e⟩ | ⟨_, _, _, _, e⟩ <;> cases e) e
  have hch : childBytes (Wid.Ev.child (st ++ [0x32, 0x3b] ++ gs.flatMap Vte.utf8 ++ tm) :: es) =
      st ++ [0x32, 0x3b] ++ gs.flatMap Vte.utf8 ++ tm := by
    have : ∀ es : List Wid.Ev, (∀ e ∈ es, (∃ a b c d, e = .dispatch a b c d) ∨ (∃ a b c d, e = .idle a b c d)) → childBytes es = [] := by
      intro es
      induction es with
      | nil => intro _; rfl
      | cons e es ih =>
        intro hes
        have := ih (fun e h => hes e (List.mem_cons_of_mem _ h))
        rcases hes e List.mem_cons_self with ⟨_, _, _, _, rfl⟩ | ⟨_, _, _, _, rfl⟩ <;> exact this
    show _ ++ childBytes es = _
    rw [this es hes, List.append_nil]
  rw [hch, hp] at k5
  obtain ⟨t2, ht2, f⟩ := k5
  have hin : inputs cs = st ++ [0x32, 0x3b] ++ gs.flatMap Vte.utf8 ++ tm := by
    have h1 := f.all
    rw [hd t2 ht2, hq, f.got, List.append_nil, List.append_nil] at h1
    exact List.append_cancel_left h1
  obtain ⟨ch, c1, c2⟩ := input_chunks cs w.vte (only_inputs hall k1)
  rw [c2, Vte.C39_chunking ha.sane.vte, c1, hin] at k3
  have hg2 : ∀ g ∈ (0x32 :: 0x3b :: gs), Vte.Typable w.vte g ∧ Vte.Graphic g := by
    intro g hg
    rcases List.mem_cons.mp hg with rfl | hg
    · exact ⟨Or.inl (by decide), by decide, by decide⟩
    · rcases List.mem_cons.mp hg with rfl | hg
      · exact ⟨Or.inl (by decide), by decide, by decide⟩
      · exact hgs g hg
  have hfm : (0x32 :: 0x3b :: gs).flatMap Vte.utf8 = [0x32, 0x3b] ++ gs.flatMap Vte.utf8 := rfl
  obtain ⟨v', x1, x2, x3⟩ := Vte.C44_exact_partial ha.sane.vte hb hg2 (by
    rw [hfm, List.length_append]; show 2 + _ ≤ 127; omega) hst htm
  rw [hfm, ← List.append_assoc st, k3] at x1
  injection x1 with x1
  subst x1
  have hlog : w2.vte.log = w.vte.log ++ [.osc ([0x32, 0x3b] ++ gs.flatMap Vte.utf8)] := by
    unfold Vte.Effect Vte.SameButParser at x3
    rw [x3]
    show w.vte.log ++ w.vte.pendingOsc ++ _ = _
    rw [ha.osc, if_pos rfl, hfm]
    have : w.vte.pendingOsc = [] := by
      unfold Vte.pendingOsc
      rw [hg, if_neg (by rintro ⟨h, _⟩; cases h)]
    rw [this, List.append_nil]
  refine ⟨?_, ?_, x2⟩
  · have h2 := (ha.runAll hval e).sane.titles
    rw [h2, hlog, setTitles_append, ha.sane.titles]
    congr 1
    show (title _).toList ++ [] = _
    have hz : ∀ b ∈ gs.flatMap Vte.utf8, decide (b ≠ 0) = true := by
      intro b hb
      obtain ⟨g, hg, hb⟩ := List.mem_flatMap.mp hb
      obtain ⟨y1, y2, _⟩ := hgs g hg
      exact decide_eq_true (utf8_nonzero (by omega) (y1.imp id (fun h => h.2.2)) b hb)
    unfold title
    rw [if_pos (show List.take 2 ([0x32, 0x3b] ++ gs.flatMap Vte.utf8) = [0x32, 0x3b] from rfl)]
    show [List.takeWhile _ (gs.flatMap Vte.utf8)] ++ [] = _
    rw [List.append_nil, takeWhile_all hz]
  · unfold Vte.Effect Vte.SameButParser at x3
    rw [x3]

/-- For example, `hé` in three reads, with a BEL at the end. -/
example : wholds [.fork (some faces10), .configure 50 40 true, .child [27, 93, 50, 59, 104, 0xc3, 0xa9, 7],
    .dispatch (.some 0) (.some 5) .again .again, .idle (.some 3) .again .again .again]
      (fun w => decide (w.titles = [[104, 0xc3, 0xa9]]) && match w.pty with
        | some t => decide (t.io.inq = [])
        | none => false) = true := by decide +kernel

/-- The hypotheses. -/
example : ∃ (w : Wid) (t : Tty), Live noInk w ∧ w.pty = some t ∧ t.io.inq = [] ∧ Vte.Between w.vte ∧ w.vte.state = .ground ∧
    (∀ g ∈ [104, 0xe9], Vte.Typable w.vte g ∧ Vte.Graphic g) := by
  obtain ⟨w, h1, h2⟩ := exists_of_wholds (es := [.fork (some faces10), .child [65], .dispatch (.some 0) .again .again .again])
    (P := fun w => decide (w.pty.map (fun t => t.io.inq) = some []) && decide (Vte.Between w.vte) && decide (w.vte.state = .ground) &&
      decide (w.vte.f7bit = false ∧ w.vte.f8bit = false))
    (by
      intro e he
      simp only [List.mem_cons, List.not_mem_nil, or_false] at he
      rcases he with rfl | rfl | rfl
      · exact fun _ e => by injection e with e; subst e; exact faces10_fresh
      · trivial
      · trivial) (by decide +kernel)
  simp only [Bool.and_eq_true, decide_eq_true_eq] at h2
  obtain ⟨⟨⟨h2, h3⟩, h4⟩, h5, h6⟩ := h2
  cases hp : w.pty with
  | none => rw [hp] at h2; cases h2
  | some t =>
    rw [hp] at h2
    injection h2 with h2
    refine ⟨w, t, h1, hp, h2, h3, h4, ?_⟩
    intro g hg
    simp only [List.mem_cons, List.not_mem_nil, or_false] at hg
    rcases hg with rfl | rfl
    · exact ⟨Or.inl (by decide), by decide, by decide⟩
    · exact ⟨Or.inr ⟨h5, h6, by decide⟩, by decide, by decide⟩

end Verif.Props.Gtk
