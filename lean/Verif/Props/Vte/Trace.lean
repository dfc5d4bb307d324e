import Verif.Proofs.Vte.Trace
import Verif.Proofs.Vte.Example

/-!
# What reading input may send, show and set

C72: what is sent. C73: the modes of emulator and screen agree. C74: where characters come from. C75: what
input cannot change.
-/

namespace Verif.Props.Vte

open Verif Verif.Vte

/-! ### C72 -/

/-- **C72.** Whatever is read, only answers are sent, and for each byte that is read at most one. -/
theorem C72_answers {v v' : Vte} (hr : Reachable v) {bs : List UInt8} (e : v.input bs = .ok v') :
    ∃ evs, v'.log = v.log ++ evs ∧ (∀ b ∈ sent evs, Answer b) ∧ (sent evs).length ≤ bs.length := by
  have h := (input_trd v bs).out
  rw [e] at h
  obtain ⟨evs, h1, h2, h3⟩ := h.log
  refine ⟨evs, h1, fun b hb => ?_, h3 hr.all.2.2⟩
  rcases h2 b hb with h2 | ⟨h2, _⟩
  · exact h2
  · rw [hr.all.2.2] at h2
    cases h2

theorem digits_not {q : List UInt8} (h : Digits q) {b : UInt8} (hb : b ∈ q) : 48 ≤ b.toNat ∧ b.toNat ≤ 57 := h.2.2 b hb

/-- **C72.** An answer is short and has no line feed and no carriage return: it cannot make the program that
reads it, for example a shell, execute a line. -/
theorem C72_harmless {a : List UInt8} (h : Answer a) : a ≠ [] ∧ a.length ≤ 24 ∧ 10 ∉ a ∧ 13 ∉ a := by
  cases h with
  | ack => exact ⟨by decide, by decide, by decide, by decide⟩
  | primary => exact ⟨by decide, by decide, by decide, by decide⟩
  | secondary => exact ⟨by decide, by decide, by decide, by decide⟩
  | ready => exact ⟨by decide, by decide, by decide, by decide⟩
  | position row col hr hc =>
    have hn : ∀ b : UInt8, b ∈ [27, 91] ++ row ++ [59] ++ col ++ [82] → b ≠ 10 ∧ b ≠ 13 := by
      intro b hb
      simp only [List.mem_append, List.mem_cons, List.not_mem_nil, or_false] at hb
      rcases hb with (((hb | hb) | hb) | hb) | hb
      · rcases hb with rfl | rfl <;> decide
      · have := digits_not hr hb
        exact ⟨by rintro rfl; exact absurd this.1 (by decide), by rintro rfl; exact absurd this.1 (by decide)⟩
      · rw [hb]; decide
      · have := digits_not hc hb
        exact ⟨by rintro rfl; exact absurd this.1 (by decide), by rintro rfl; exact absurd this.1 (by decide)⟩
      · rw [hb]; decide
    refine ⟨by simp, ?_, fun h => (hn 10 h).1 rfl, fun h => (hn 13 h).2 rfl⟩
    have h1 := hr.2.1
    have h2 := hc.2.1
    simp only [List.length_append, List.length_cons, List.length_nil]
    omega

/-- Three requests between other input, all of them answered. -/
example : ∃ v, Reachable v ∧ gives (v.input [65, 5, 27, 91, 54, 110, 10, 27, 91, 53, 110, 66]) (fun v' =>
    decide (sent v'.log = [[6], [27, 91, 49, 59, 50, 82], [27, 91, 48, 110]])) = true :=
  exists_of_vholds (cs := [.resize 5 5]) (sg := true) (vs := []) (by decide +kernel)

/-! ### C73 -/

/-- **C73.** As long as nobody sets modes of the screen past the emulator, insert mode, reverse video, origin
mode, auto-wrap and the visibility of the cursor, as kept by the emulator, are those of the screen. -/
theorem C73_modes {s : Screen} {sg : Bool} {v0 v : Vte} (e0 : new s sg = .ok v0) {cs : List Call}
    (hc : ∀ c ∈ cs, c.own = true) (e : v0.runAll cs = .ok v) : Synced v := by
  have h := (runAll_syn cs v0 hc).out
  rw [e] at h
  exact h (new_synced e0)

/-- A history that changes all of these modes, ends on the alternate screen and restores two of the modes
from the saved state. -/
def modesHistory : List Call :=
  [.screen (.moveTo 1 1), .input [27, 91, 52, 104, 27, 91, 63, 53, 104, 27, 91, 63, 50, 53, 108, 27, 55, 27, 91, 63, 54, 104,
    27, 91, 63, 55, 108, 27, 91, 63, 52, 55, 104, 27, 56], .keyboard 0xff52 0 8 0xffffffff]

example : ∃ (s : Screen) (v0 v : Vte), s.Reachable ∧ new s true = .ok v0 ∧ (∀ c ∈ modesHistory, c.own = true) ∧
    v0.runAll modesHistory = .ok v ∧ v.con.flags = 0x5b#32 ∧ v0.con.flags = 2#32 := by
  obtain ⟨s, hs, key⟩ := Screen.exists_of_holds (cs := [.resize 4 3])
    (P := fun s => gives (new s true) fun v0 => gives (v0.runAll modesHistory) fun v =>
      decide (v.con.flags = 0x5b#32) && decide (v0.con.flags = 2#32))
    (by decide +kernel)
  obtain ⟨v0, e0, key⟩ := of_gives key
  obtain ⟨v, e, key⟩ := of_gives key
  rw [Bool.and_eq_true] at key
  refine ⟨s, v0, v, hs, e0, ?_, e, of_decide_eq_true key.1, of_decide_eq_true key.2⟩
  unfold modesHistory
  intro c hc
  simp only [List.mem_cons, List.not_mem_nil, or_false] at hc
  rcases hc with rfl | rfl | rfl <;> rfl

/-! ### C74 -/

/-- Where a glyph that is stored after reading `bs` may come from. -/
@[reducible] def Source (v : Vte) (bs : List UInt8) (g : Glyph) : Prop :=
  g.ch = 0 ∨ (∃ g0, Stores v g0 ∧ g0.ch = g.ch ∧ g0.attr = g.attr) ∨
    ∃ p b q w raw, bs = p ++ b :: q ∧ v.input p = .ok w ∧ w.rawOf b = some raw ∧
      (w.state = .ground ∨ raw = 0x1a) ∧ Shows raw g.ch

/-- **C74.** Each character that is stored after reading `bs` was stored before with the same attributes, or
it is shown for a character of `bs` that the parser gets while it is not inside of a control sequence (or for
SUB, which is shown as an inverted question mark). Nothing that is part of a sequence is ever shown. -/
theorem C74_source {v v' : Vte} {bs : List UInt8} (e : v.input bs = .ok v') {g : Glyph} (hg : Stores v' g) :
    Source v bs g := by
  have ht := (input_trd v bs).out
  rw [e] at ht
  obtain ⟨cs, hc, er⟩ := ht.run
  have h0 : Screen.AllG (Source v bs) v.con := by
    have key : ∀ l, (l ∈ v.con.main ∨ l ∈ v.con.alt ∨ l ∈ v.con.sb) → Screen.LineG (Source v bs) l :=
      fun l hl c hc => Or.inr (Or.inl ⟨c.glyph, ⟨l, hl, c, hc, rfl⟩, rfl, rfl⟩)
    exact ⟨fun l hl => key l (Or.inl hl), fun l hl => key l (Or.inr (Or.inl hl)), fun l hl => key l (Or.inr (Or.inr hl)),
      Or.inl rfl, Or.inl rfl⟩
  have h1 := runAll_all (P := Source v bs) (fun _ h => h) cs h0 ?_ er
  · obtain ⟨l, hl, c, hc, rfl⟩ := hg
    rcases hl with hl | hl | hl
    · exact h1.main l hl c hc
    · exact h1.alt l hl c hc
    · exact h1.sb l hl c hc
  · intro c hcs
    have hp := hc c hcs
    cases c with
    | write ch a =>
      intro len _ _
      rcases hp with hp | ⟨p, b, q, w, raw, g1, g2, g3, g4, g5⟩
      · exact Or.inl hp
      · exact Or.inr (Or.inr ⟨p, b, q, w.down, raw, g1, input_ok g2, g3, g4, g5⟩)
    | setDefAttr a => exact Or.inl rfl
    | _ => trivial

/-- Text with a character of the special graphics in it; the parameters of the sequences are digits, none of
which is stored. -/
example : ∃ v, Reachable v ∧ gives (v.input [65, 27, 91, 51, 49, 109, 27, 40, 48, 113, 27, 93, 50, 59, 120, 7, 26]) (fun v' =>
    decide (((v'.con.main[0]?.map fun l => (l.cells.map fun c => c.glyph.ch).take 4)) = some [65, 0x2500, 0xbf, 0])) = true :=
  exists_of_vholds (cs := [.resize 4 2]) (sg := true) (vs := []) (by decide +kernel)

/-! ### C75 -/

theorem settings_runAll : ∀ (cs : List Screen.Call) {s s' : Screen}, (∀ c ∈ cs, Term c) → Screen.runAll cs s = .ok s' →
    s'.view.sizeX = s.view.sizeX ∧ s'.view.sizeY = s.view.sizeY ∧ s'.view.sbMax = s.view.sbMax := by
  intro cs
  induction cs with
  | nil => intro s s' _ e; injection e with e; subst e; exact ⟨rfl, rfl, rfl⟩
  | cons c cs ih =>
    intro s s' hc e
    have ht := hc c List.mem_cons_self
    have h1 := Screen.step_settled (s := s) c
    change (c.run s >>= fun s => Screen.runAll cs s) = _ at e
    cases hr : c.run s with
    | error u => rw [hr] at e; cases e
    | ok t =>
      rw [hr] at e h1
      have h2 := ih (fun d hd => hc d (List.mem_cons_of_mem _ hd)) e
      have hs : c.setsSize = false ∧ c.setsMaxSb = false := by
        cases c <;> first | exact False.elim ht | exact ⟨rfl, rfl⟩
      exact ⟨h2.1.trans (h1.size hs.1).1, h2.2.1.trans (h1.size hs.1).2, h2.2.2.trans (h1.maxSb hs.2)⟩

/-- **C75.** No input changes the size of the screen, the maximal size of the scrollback, the palette (built
in or custom), the default attributes of the emulator, the backspace setting or the callbacks. -/
theorem C75_kept {v v' : Vte} (hr : Reachable v) {bs : List UInt8} (e : v.input bs = .ok v') :
    v'.con.view.sizeX = v.con.view.sizeX ∧ v'.con.view.sizeY = v.con.view.sizeY ∧
    v'.con.view.sbMax = v.con.view.sbMax ∧ v'.paletteName = v.paletteName ∧ v'.customPalette = v.customPalette ∧
    v'.palette = v.palette ∧ v'.defAttr = v.defAttr ∧ v'.bsDelete = v.bsDelete ∧ v'.oscCb = v.oscCb ∧
    v'.mouseCb = v.mouseCb := by
  have h := SatK.of_ok (hr.ok.1.input bs) e
  obtain ⟨cs, hc, er⟩ := h.2.run
  have h1 := settings_runAll cs (fun c hcs => (hc c hcs).2) er
  exact ⟨h1.1, h1.2.1, h1.2.2, h.2.name, h.2.custom, h.2.pal, h.2.dattr, h.2.bs, h.2.ocb, h.2.mcb⟩

/-- A state with a custom palette, and input that includes a full reset, 132 column mode and a palette
sequence. -/
example : ∃ v, Reachable v ∧ (v.customPalette.isSome && v.bsDelete &&
    gives (v.input [27, 99, 27, 91, 63, 51, 104, 27, 93, 52, 59, 49, 59, 35, 102, 102, 48, 7, 27, 91, 56, 59, 49, 59, 49, 116])
      (fun v' => decide (v'.con.sizeX = 5) && v'.customPalette.isSome)) = true :=
  exists_of_vholds (cs := [.resize 5 5, .setMaxSb 3]) (sg := true)
    (vs := [.setCustomPalette (some (List.replicate 18 (1, 2, 3))) true, .setBsDelete true]) (by decide +kernel)

end Verif.Props.Vte
