import Verif.Props.Gtk.Session
import Verif.Proofs.Shared.Lines

/-!
# C114: typing and correcting a line
-/

namespace Verif.Props.Gtk

open Verif Verif.Gtk Verif.Gtk.Wid Verif.Vte Stroke

/-- **C114**, the terminal of the child: with the attributes set by `pty_setup_child`, whatever the others are, the bytes of any
characters, Backspaces and Returns give the lines that the user meant, where Backspace removes the last character (not the last byte). -/
theorem C114_discipline {t : Termios} (ht : t.Usual) {ss : List Stroke} (hf : Fits ([], []) ss) {cs : List Canvas}
    {keys : List (BitVec 32 × Nat × Nat)} (hc : ∀ c ∈ cs, c.newline = false) (hl : cs.length = ss.length)
    (hl' : keys.length = ss.length) (hk : ∀ p ∈ ss.zip keys, p.1.Key p.2.1 p.2.2.1 p.2.2.2) :
    Ldisc.feedAll t.setup ⟨[], []⟩ ((cs.zip keys).flatMap fun p => p.1.keyed false p.2.1 p.2.2.1 p.2.2.2) =
      some (disc (ss.foldl edit ([], []))) := by
  have h := feed_strokes ht (x := ([], [])) (fun c hc => by cases hc) hf
  have hg := hf.chars
  have e : ((cs.zip keys).flatMap fun p => p.1.keyed false p.2.1 p.2.2.1 p.2.2.2) = ss.flatMap Stroke.bytes := by
    clear h hf
    induction ss generalizing cs keys with
    | nil =>
      rw [List.length_eq_zero_iff.mp hl]
      rfl
    | cons s ss ih =>
      cases cs with
      | nil => cases hl
      | cons c cs =>
        cases keys with
        | nil => cases hl'
        | cons k keys =>
          rw [List.zip_cons_cons, List.flatMap_cons, List.flatMap_cons,
            keyed_stroke (hc c List.mem_cons_self) (hk (s, k) List.mem_cons_self) (hg s List.mem_cons_self),
            ih (fun c h => hc c (List.mem_cons_of_mem _ h)) (by simpa using hl) (by simpa using hl')
              (fun p hp => hk p (List.mem_cons_of_mem _ hp)) (fun s h => hg s (List.mem_cons_of_mem _ h))]
  rw [e]
  exact h

/-- **C114**, as a whole: a program resets the terminal and prints, and then it prints while the user types characters, corrects them
with Backspace, finishes lines with Return and moves through the scrollback, in any order. Then what the widget has sent to the child's
terminal, with what is still queued, is what there was before and some bytes for which the terminal gives the program the lines that the
user meant. Missing: Backspace set to DEL (`C114_false_delete`), the new-line mode (`C114_false_newline`). -/
theorem C114_program_partial {ink : Ink} (hink : ∀ k ch n b, ink k ch n = some b → ∀ o, b o < 256) {w w1 w2 : Wid} (h : w.Tended ink)
    {t t1 : Tty} (ht : w.pty = some t) (h0 : t.io.inq = []) (hb : w.vte.Between) (hd : w.vte.bsDelete = false) {l : List Cmd}
    (hv : ∀ a ∈ l, a.Valid w.vte.con.sizeY ∧ a.Plain ∧ a ≠ .echo true) {es : List Wid.Ev} (ho : w.Watched ink es)
    (hc : childBytes es = 27 :: 99 :: l.flatMap Cmd.bytes) (e1 : Wid.runAll ink es w = .ok w1) (ht1 : w1.pty = some t1)
    (h1 : t1.io.inq = []) {ts : List Turn} (hts : ∀ t ∈ ts, t.Plain w.vte.con.sizeY) (hp : Turn.Played ink w1 ts w2)
    {ss : List Stroke} (hty : Typed ((Canvas.initial w.vte.con.sizeX w.vte.con.sizeY w.vte.defAttr w.vte.palette).run l) ts ss)
    (hf : Fits ([], []) ss) {a : Termios} (ha : a.Usual) :
    ∃ t2 q d, w2.pty = some t2 ∧ t2.io.out.gather t2.io.out.peek = .ok (q.map some) ∧ t2.io.sent ++ q = t1.io.accepted ++ d ∧
      Ldisc.feedAll a.setup ⟨[], []⟩ d = some (disc (ss.foldl edit ([], []))) := by
  obtain ⟨⟨t2, q, k1, k2, k3⟩, _⟩ := C108_program hink h ht h0 hb hv ho hc e1 ht1 h1 hts hp
  rw [hd, answers_typed hty hf.chars] at k3
  exact ⟨t2, q, _, k1, k2, k3, feed_strokes ha (x := ([], [])) (fun c hc => by cases hc) hf⟩

/-- The claim for all modes of the terminal and for both settings of the Backspace key. -/
def C114_claim (del nl : Bool) : Prop :=
  ∀ (t : Termios) (c : Canvas) (ss : List Stroke) (keys : List (BitVec 32 × Nat × Nat)), t.Usual → c.newline = nl → Fits ([], []) ss →
    keys.length = ss.length → (∀ p ∈ ss.zip keys, p.1.Key p.2.1 p.2.2.1 p.2.2.2) →
    Ldisc.feedAll t.setup ⟨[], []⟩ (keys.flatMap fun k => c.keyed del k.1 k.2.1 k.2.2) = some (disc (ss.foldl edit ([], [])))

theorem linux_usual : Termios.linux.Usual := ⟨rfl, by decide⟩

/-- The claim holds for the defaults. -/
theorem C114_default : C114_claim false false := by
  intro t c ss keys ht hn hf hl hk
  have := C114_discipline ht hf (cs := ss.map fun _ => c) (by intro d hd; obtain ⟨_, _, rfl⟩ := List.mem_map.mp hd; exact hn)
    (List.length_map _) hl hk
  rw [← this]
  congr 1
  clear this hk hf
  induction ss generalizing keys with
  | nil => rw [List.length_eq_zero_iff.mp hl]; rfl
  | cons s ss ih =>
    cases keys with
    | nil => cases hl
    | cons k keys =>
      rw [List.map_cons, List.zip_cons_cons, List.flatMap_cons, List.flatMap_cons, ih _ (by simpa using hl)]

/-- **C114** is false of the code if `tsm_vte_set_backspace_sends_delete` is used with a pty of shl-pty.c: the key sends DEL
(src/tsm/tsm-vte.c:2724-2725), but the pty is set up to erase with Backspace (src/shared/shl-pty.c:111-112); DEL becomes part of the
line. -/
theorem C114_false_delete : ¬ C114_claim true false := by
  intro h
  have := h .linux (Canvas.initial 80 24 default []) [.char 97, .back] [(0, 97, 97), (0, 0xff08, 0)] linux_usual rfl
    ⟨⟨by decide, by decide⟩, by decide, trivial, by decide, trivial⟩ rfl (by
      intro p hp
      rcases List.mem_cons.mp hp with rfl | hp
      · exact ⟨rfl, rfl, rfl, fun _ => rfl⟩
      · rw [List.mem_singleton.mp hp]
        exact ⟨rfl, rfl, rfl⟩)
  exact absurd this (by decide +kernel)

/-- **C114** is false in new-line mode: Return sends CR and LF, and the program reads an empty line after each line. -/
theorem C114_false_newline : ¬ C114_claim false true := by
  intro h
  have := h .linux ((Canvas.initial 80 24 default []).step (.newline true)) [.enter] [(0, 0xff0d, 0)] linux_usual rfl
    ⟨trivial, by decide, trivial⟩ rfl (by
      intro p hp
      rw [List.mem_singleton.mp hp]
      exact ⟨rfl, rfl, rfl⟩)
  exact absurd this (by decide +kernel)

/-- Without the attributes set by `pty_setup_child` the key would not erase. -/
example : Ldisc.feedAll .linux ⟨[], []⟩ [97, 8, 13] = some ⟨[], [[97, 8, 10]]⟩ ∧
    Ldisc.feedAll Termios.linux.setup ⟨[], []⟩ [97, 195, 164, 8, 98, 13] = some ⟨[], [[97, 98, 10]]⟩ := by decide

/-- The user types `ä`, sees the program print `A`, moves through the scrollback, corrects the character to `b` and presses Return. -/
def correction : List Turn :=
  [.types 0 none 228 228, .prints [.text 65 1] [.child [65], .dispatch (.some 3) (.some 99) .again .again],
   .pages 1 (some (0xff55, 0)) 0xff55 0, .types 0 none 0xff08 0, .types 0 none 98 98, .types 0 none 0xff0d 0]

theorem correction_typed {c : Canvas} (hc : c.newline = false) : Typed c correction [.char 228, .back, .char 98, .enter] := by
  have h1 : (c.run [.text 65 1]).newline = false := by
    show (if (1 : Nat) = 0 then c else (c.wrap 1).put (c.shown 65) 1).newline = false
    rw [if_neg (by decide)]
    show (c.wrap 1).newline = false
    unfold Canvas.wrap Canvas.lineFeed
    split
    · split
      · split <;> exact hc
      · exact hc
    · exact hc
  refine .types ⟨rfl, rfl, rfl, fun _ => rfl⟩ hc (.prints rfl (.pages ?_))
  exact .types ⟨rfl, rfl, rfl⟩ h1 (.types ⟨rfl, rfl, rfl, fun _ => rfl⟩ h1 (.types ⟨rfl, rfl, rfl⟩ h1 (.done _)))

/-- The strokes fit, and the program reads `b`. -/
example : Fits ([], []) [.char 228, .back, .char 98, .enter] ∧
    disc ([Stroke.char 228, .back, .char 98, .enter].foldl edit ([], [])) = ⟨[], [[98, 10]]⟩ :=
  ⟨⟨⟨by decide, by decide⟩, by decide, trivial, by decide, ⟨by decide, by decide⟩, by decide, trivial, by decide, trivial⟩, by decide⟩

/-- All other hypotheses of `C114_program_partial` hold of a window of 50 by 40 pixels. -/
example : ∃ w w1 w2 : Wid, w.Tended dotInk ∧ w.vte.bsDelete = false ∧ (∃ t, w.pty = some t ∧ t.io.inq = []) ∧ w.vte.Between ∧
    w.Watched dotInk [.child [27, 99], .dispatch (.some 3) (.some 0) .again .again] ∧
    Wid.runAll dotInk [.child [27, 99], .dispatch (.some 3) (.some 0) .again .again] w = .ok w1 ∧
    (∃ t, w1.pty = some t ∧ t.io.inq = []) ∧ Turn.Played dotInk w1 correction w2 := by
  have key : (match wstart with
      | .ok w => after [.fork (some faces10)] (fun w => w.faces.isSome && after [.configure 50 40 true] (fun w =>
          decide (w.vte.bsDelete = false) &&
          (decide w.vte.Between && (match w.pty with | some t => decide (t.io.inq = []) | none => false) &&
          after [.child [27, 99], .dispatch (.some 3) (.some 0) .again .again] (fun w =>
            (match w.pty with | some t => decide (t.io.inq = []) | none => false) && plays correction w) w)) w) w
      | .error _ => false) = true := by decide +kernel
  split at key
  · rename_i w0 hw0
    have hl0 := wstart_live hw0 dotInk
    obtain ⟨wa, ea, key⟩ := exists_of_after key
    rw [Bool.and_eq_true] at key
    obtain ⟨ka, key⟩ := key
    obtain ⟨w, ew, key⟩ := exists_of_after key
    rw [Bool.and_eq_true, decide_eq_true_eq] at key
    obtain ⟨kd, key⟩ := key
    rw [Bool.and_eq_true, Bool.and_eq_true, decide_eq_true_eq] at key
    obtain ⟨⟨k1, k2⟩, key⟩ := key
    obtain ⟨w1, e1, key⟩ := exists_of_after key
    rw [Bool.and_eq_true] at key
    obtain ⟨k3, key⟩ := key
    obtain ⟨w2, hp⟩ := played_of_plays key
    have hla : Live dotInk wa := hl0.runAll (by intro e he; rw [List.mem_singleton.mp he]; exact forks_valid faces10_fresh) ea
    refine ⟨w, w1, w2, .sized hla ka ⟨by decide, by decide⟩ (by show 4 * (max 50 1 * max 40 1) < _; decide) (one_step ew), kd, ?_, k1,
      outputs_watched ?_, e1, ?_, hp⟩
    · split at k2
      · rename_i t ht
        exact ⟨t, ht, of_decide_eq_true k2⟩
      · cases k2
    · intro e he
      simp only [List.mem_cons, List.not_mem_nil, or_false] at he
      rcases he with rfl | rfl <;> trivial
    · split at k3
      · rename_i t ht
        exact ⟨t, ht, of_decide_eq_true k3⟩
      · cases k3
  · cases key

end Verif.Props.Gtk
