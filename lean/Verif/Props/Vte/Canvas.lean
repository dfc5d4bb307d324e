import Verif.Proofs.Vte.Canvas
import Verif.Proofs.Vte.Example
import Verif.Proofs.Screen.Example

/-!
# The emulator refines a reference terminal (C85)

`Canvas` (Spec/Canvas.lean) is a terminal as the manuals describe it. The theorems say that the emulator shows what
the reference terminal shows, for every sequence of commands.
-/

namespace Verif.Props.Vte
open Verif Verif.Vte

/-- The claim for the commands with `P`: whatever commands are sent one after the other, the emulator shows what the
reference terminal shows, and answers what it answers. -/
def C85_claim (P : Cmd → Prop) : Prop :=
  ∀ (v : Vte) (l : List Cmd), Reachable v → Normal v → (∀ a ∈ l, a.Valid v.con.sizeY ∧ P a) →
    ∃ v', v.input (l.flatMap Cmd.bytes) = .ok v' ∧ v'.log = v.log ++ (v.canvas.replies l).map .write ∧
      v'.canvas = v.canvas.run l

/-- **C85** (`_partial`): from any state with the usual modes, a program that sends any number of commands
gets the display the reference terminal has: every cell with its character and attributes, the cursor, the scroll
region, the tab stops, the modes, the pen, the character sets, and what has been put aside for later: the saved cursor and the main screen
behind the alternate one. It gets the answers of the reference terminal, and the emulator is in such a state again. Missing are the cases excluded
by `Canvas.Tame`, see `C85_region_false`, `C85_wide_false`, `C85_tab_false`, `C85_origin_false`, `C85_restore_false`,
`C85_leave_false`, `C85_blank_false`, `C85_latin_false`, `C85_position_false` and, for characters wider than the screen in insert mode, `C24_false`. -/
theorem C85_canvas_partial {v : Vte} (h : Reachable v) (hN : Normal v) {l : List Cmd} (hv : ∀ a ∈ l, a.Valid v.con.sizeY)
    (ht : v.canvas.TameAll l) :
    ∃ v', v.input (l.flatMap Cmd.bytes) = .ok v' ∧ Normal v' ∧ v'.log = v.log ++ (v.canvas.replies l).map .write ∧
      v'.canvas = v.canvas.run l := by
  obtain ⟨v', e, h1, h2, h3, _⟩ := run_shown l h hN hv ht
  exact ⟨v', e, h1, h2, h3⟩

/-- **C85**: `ESC c` brings every emulator into the normal modes, whatever has happened before (unless it comes in
the middle of a UTF-8 character, see C48), and it shows the reference terminal after power-on. -/
theorem C85_after_reset {v : Vte} (h : Reachable v) (hb : Between v) :
    ∃ v', v.input [27, 99] = .ok v' ∧ Reachable v' ∧ Normal v' ∧ v'.log = v.log ++ v.pendingOsc ∧
      v'.canvas = Canvas.initial v.con.sizeX v.con.sizeY v.defAttr v.palette := by
  obtain ⟨v', e, hp, hl⟩ := C48_ris_partial h hb
  obtain ⟨h1, h2⟩ := reset_normal h e hp
  exact ⟨v', e, h.step (c := .input _) trivial e, h1, hl, h2⟩

/-- **C85** for whole sessions: a reset and then any number of commands. -/
theorem C85_session_partial {v : Vte} (h : Reachable v) (hb : Between v) {l : List Cmd} (hv : ∀ a ∈ l, a.Valid v.con.sizeY)
    (ht : (Canvas.initial v.con.sizeX v.con.sizeY v.defAttr v.palette).TameAll l) :
    ∃ v', v.input (27 :: 99 :: l.flatMap Cmd.bytes) = .ok v' ∧
      v'.log = v.log ++ v.pendingOsc ++ ((Canvas.initial v.con.sizeX v.con.sizeY v.defAttr v.palette).replies l).map .write ∧
      v'.canvas = (Canvas.initial v.con.sizeX v.con.sizeY v.defAttr v.palette).run l := by
  obtain ⟨v1, e1, r1, n1, l1, c1⟩ := C85_after_reset h hb
  have hsz : v1.con.sizeY = v.con.sizeY := congrArg Canvas.h c1
  obtain ⟨v2, e2, _, l2, c2⟩ := C85_canvas_partial r1 n1 (by rw [hsz]; exact hv) (by rw [c1]; exact ht)
  refine ⟨v2, ?_, by rw [l2, l1, c1], by rw [c2, c1]⟩
  rw [show 27 :: 99 :: l.flatMap Cmd.bytes = [27, 99] ++ l.flatMap Cmd.bytes from rfl, input_append h.ok.1, e1]
  exact e2

/-- **C85** without exceptions for programs that do not use scroll regions, wide characters, origin mode and the alternate
screen, change no tab stops and no character sets, and return to no saved position: after a reset the emulator shows what the reference
terminal shows, whatever such a program sends. -/
theorem C85_plain {v : Vte} (h : Reachable v) (hb : Between v) {l : List Cmd}
    (hv : ∀ a ∈ l, a.Valid v.con.sizeY ∧ a.Plain) :
    ∃ v', v.input (27 :: 99 :: l.flatMap Cmd.bytes) = .ok v' ∧
      v'.log = v.log ++ v.pendingOsc ++ ((Canvas.initial v.con.sizeX v.con.sizeY v.defAttr v.palette).replies l).map .write ∧
      v'.canvas = (Canvas.initial v.con.sizeX v.con.sizeY v.defAttr v.palette).run l :=
  C85_session_partial h hb (fun a ha => (hv a ha).1)
    (Usual.tameAll l ⟨rfl, rfl, Nat.zero_le _, h.ok.1.con.geo.x0, rfl, rfl⟩ (fun a ha => (hv a ha).2))

/-- The commands of the witnesses: a scroll region of the first two of four rows, `A` in its first row, and a line
feed on the last row of the screen. -/
def belowRegion : List Cmd := [.region [49] [50], .text 65 1, .goto [52] [49], .lineFeed]

/-- A wide character in the last of three columns. -/
def wideLast : List Cmd := [.goto [49] [51], .text 0x4e2d 2]

theorem num_digit {d : UInt8} (h : 48 ≤ d.toNat ∧ d.toNat ≤ 57) : Num [d] := by
  refine ⟨?_, ?_⟩
  · intro x hx; rw [List.mem_singleton] at hx; subst hx; exact h
  · show 10 * 0 + (d.toNat - 48) ≤ 655359
    omega

/-- Refuting the claim: after a reset, the commands `l` make a difference. -/
theorem refuted {α : Type} [DecidableEq α] {P : Cmd → Prop} {l : List Cmd} {h : Nat} {f : Canvas → α} (hv : ∀ a ∈ l, a.Valid h ∧ P a)
    (hx : ∃ v, Reachable v ∧ (decide (Between v) && decide (v.con.sizeY = h) &&
      gives (v.input [27, 99]) (fun v1 => gives (v1.input (l.flatMap Cmd.bytes)) (fun v2 =>
        decide (f v2.canvas ≠ f (v1.canvas.run l))))) = true) : ¬ C85_claim P := by
  intro hcl
  obtain ⟨v, hr, hp⟩ := hx
  simp only [Bool.and_eq_true, decide_eq_true_eq] at hp
  obtain ⟨⟨hb, hy⟩, hg⟩ := hp
  obtain ⟨v1, e1, hg1⟩ := of_gives hg
  obtain ⟨v1', e1', r1, n1, _, c1⟩ := C85_after_reset hr hb
  rw [e1] at e1'
  injection e1' with e1'
  subst e1'
  obtain ⟨v2, e2, hg2⟩ := of_gives hg1
  have hsz : v1.con.sizeY = h := (congrArg Canvas.h c1).trans hy
  obtain ⟨v2', e2', _, c2⟩ := hcl v1 l r1 n1 (by rw [hsz]; exact hv)
  rw [e2] at e2'
  injection e2' with e2'
  subst e2'
  exact of_decide_eq_true hg2 (by rw [c2])

/-- **C85 is false** with scroll regions: a line feed on the last row of the screen below the scroll region scrolls
the region. -/
theorem C85_region_false : ¬ C85_claim (fun a => a.Plain ∨ ∃ t b, a = .region t b) := by
  refine refuted (l := belowRegion) (h := 4) (f := fun c => c.cell 0 0) ?_
    (exists_of_vholds (cs := [.resize 3 4]) (sg := true) (vs := []) (by decide +kernel))
  intro a ha
  simp only [belowRegion, List.mem_cons, List.not_mem_nil, or_false] at ha
  rcases ha with rfl | rfl | rfl | rfl
  · exact ⟨Or.inr ⟨num_digit (by decide), num_digit (by decide), by decide, by decide, by decide⟩, Or.inr ⟨_, _, rfl⟩⟩
  · exact ⟨⟨by decide, by unfold Graphic; decide, by decide +kernel⟩, Or.inl (by show 1 ≤ 1; decide)⟩
  · exact ⟨⟨num_digit (by decide), num_digit (by decide)⟩, Or.inl trivial⟩
  · exact ⟨trivial, Or.inl trivial⟩

/-- **C85 is false** with wide characters: in the last column a wide character is not wrapped, but cut off. -/
theorem C85_wide_false : ¬ C85_claim (fun a => a.Plain ∨ ∃ g wd, a = .text g wd) := by
  refine refuted (l := wideLast) (h := 2) (f := fun c => c.cell 0 2) ?_
    (exists_of_vholds (cs := [.resize 3 2]) (sg := true) (vs := []) (by decide +kernel))
  intro a ha
  simp only [wideLast, List.mem_cons, List.not_mem_nil, or_false] at ha
  rcases ha with rfl | rfl
  · exact ⟨⟨num_digit (by decide), num_digit (by decide)⟩, Or.inl trivial⟩
  · exact ⟨⟨by decide, by unfold Graphic; decide, by decide +kernel⟩, Or.inr ⟨_, _, rfl⟩⟩

/-- The whole first row of a screen with three columns. -/
def row3 : List Cmd := [.text 65 1, .text 66 1, .text 67 1]

theorem row3_valid {h : Nat} {P : Cmd → Prop} (hP : ∀ a : Cmd, a.Plain → P a) {a : Cmd} (ha : a ∈ row3) : a.Valid h ∧ P a := by
  simp only [row3, List.mem_cons, List.not_mem_nil, or_false] at ha
  rcases ha with rfl | rfl | rfl <;>
    exact ⟨⟨by decide, by unfold Graphic; decide, by decide +kernel⟩, hP _ (by show 1 ≤ 1; decide)⟩

/-- **C85 is false** with backward tabs: right after the last column has been written, the cursor counts as being right
of the last column, so that a tab stop there is found. -/
theorem C85_tab_false : ¬ C85_claim (fun a => a.Plain ∨ a = .setTab ∨ a = .csi [] 'Z') := by
  refine refuted (l := [.goto [] [51], .setTab, .carriageReturn] ++ row3 ++ [.csi [] 'Z']) (h := 2) (f := fun c => c.x) ?_
    (exists_of_vholds (cs := [.resize 3 2]) (sg := true) (vs := []) (by decide +kernel))
  intro a ha
  simp only [List.mem_append, List.mem_cons, List.not_mem_nil, or_false] at ha
  rcases ha with ((rfl | rfl | rfl) | ha) | rfl
  · exact ⟨⟨⟨by simp, by decide⟩, num_digit (by decide)⟩, Or.inl trivial⟩
  · exact ⟨trivial, Or.inr (Or.inl rfl)⟩
  · exact ⟨trivial, Or.inl trivial⟩
  · exact row3_valid (fun _ h => Or.inl h) ha
  · exact ⟨⟨⟨by simp, by decide⟩, by decide⟩, Or.inr (Or.inr rfl)⟩

/-- **C85 is false** in origin mode: addressing a column moves the cursor down by the top margin. -/
theorem C85_origin_false : ¬ C85_claim (fun a => a.Plain ∨ (∃ t b, a = .region t b) ∨ a = .origin true) := by
  refine refuted (l := [.region [50] [52], .origin true, .csi [50] 'G']) (h := 4) (f := fun c => c.y) ?_
    (exists_of_vholds (cs := [.resize 3 4]) (sg := true) (vs := []) (by decide +kernel))
  intro a ha
  simp only [List.mem_cons, List.not_mem_nil, or_false] at ha
  rcases ha with rfl | rfl | rfl
  · exact ⟨Or.inr ⟨num_digit (by decide), num_digit (by decide), by decide, by decide, by decide⟩, Or.inr (Or.inl ⟨_, _, rfl⟩)⟩
  · exact ⟨trivial, Or.inr (Or.inr rfl)⟩
  · exact ⟨⟨num_digit (by decide), by decide⟩, Or.inl (by show 'G' ≠ 'Z' ∧ 'G' ≠ 'g'; decide)⟩

/-- **C85 is false** for saved positions: right after the last column has been written, saving and restoring the cursor
makes the next character overwrite the last column. -/
theorem C85_restore_false : ¬ C85_claim (fun a => a.Plain ∨ a = .restore) := by
  refine refuted (l := row3 ++ [.save, .restore, .text 68 1]) (h := 2) (f := fun c => c.cell 0 2) ?_
    (exists_of_vholds (cs := [.resize 3 2]) (sg := true) (vs := []) (by decide +kernel))
  intro a ha
  simp only [List.mem_append, List.mem_cons, List.not_mem_nil, or_false] at ha
  rcases ha with ha | rfl | rfl | rfl
  · exact row3_valid (fun _ h => Or.inl h) ha
  · exact ⟨trivial, Or.inl trivial⟩
  · exact ⟨trivial, Or.inr rfl⟩
  · exact ⟨⟨by decide, by unfold Graphic; decide, by decide +kernel⟩, Or.inl (by show 1 ≤ 1; decide)⟩

/-- **C85 is false** for the alternate screen: likewise when returning from it. -/
theorem C85_leave_false : ¬ C85_claim (fun a => a.Plain ∨ a = .enter ∨ a = .leave) := by
  refine refuted (l := row3 ++ [.enter, .leave, .text 68 1]) (h := 2) (f := fun c => c.cell 0 2) ?_
    (exists_of_vholds (cs := [.resize 3 2]) (sg := true) (vs := []) (by decide +kernel))
  intro a ha
  simp only [List.mem_append, List.mem_cons, List.not_mem_nil, or_false] at ha
  rcases ha with ha | rfl | rfl | rfl
  · exact row3_valid (fun _ h => Or.inl h) ha
  · exact ⟨trivial, Or.inr (Or.inl rfl)⟩
  · exact ⟨trivial, Or.inr (Or.inr rfl)⟩
  · exact ⟨⟨by decide, by unfold Graphic; decide, by decide +kernel⟩, Or.inl (by show 1 ≤ 1; decide)⟩

/-- **C85 is false** for the blank of the line drawing set: it is not shown, and the cursor stays. -/
theorem C85_blank_false : ¬ C85_claim (fun a => a.Plain ∨ a = .charset false true) := by
  refine refuted (l := [.charset false true, .text 95 1]) (h := 2) (f := fun c => c.x) ?_
    (exists_of_vholds (cs := [.resize 3 2]) (sg := true) (vs := []) (by decide +kernel))
  intro a ha
  simp only [List.mem_cons, List.not_mem_nil, or_false] at ha
  rcases ha with rfl | rfl
  · exact ⟨trivial, Or.inr rfl⟩
  · exact ⟨⟨by decide, by unfold Graphic; decide, by decide +kernel⟩, Or.inl (by show 1 ≤ 1; decide)⟩

/-- **C85 is false** when G1 is designated: Latin-1 characters are then shown as characters of G1, also if they were sent
as UTF-8 and G1 is not in use. After `ESC ) 0`, é is shown as a symbol for VT. -/
theorem C85_latin_false : ¬ C85_claim (fun a => a.Plain ∨ a = .charset true true) := by
  refine refuted (l := [.charset true true, .text 0xe9 1]) (h := 2) (f := fun c => c.cell 0 0) ?_
    (exists_of_vholds (cs := [.resize 3 2]) (sg := true) (vs := []) (by decide +kernel))
  intro a ha
  simp only [List.mem_cons, List.not_mem_nil, or_false] at ha
  rcases ha with rfl | rfl
  · exact ⟨trivial, Or.inr rfl⟩
  · exact ⟨⟨by decide, by unfold Graphic; decide, by decide +kernel⟩, Or.inl (by show 1 ≤ 1; decide)⟩

/-- **C85 is false** of the answers: right after the last column has been written, the emulator reports a column
that does not exist, here column 4 of 3. -/
theorem C85_position_false : ¬ C85_claim (fun a => a.Plain ∨ a = .ask .position) := by
  intro hcl
  have hx : ∃ v, Reachable v ∧ (decide (Between v) && decide (v.con.sizeY = 4) &&
      gives (v.input [27, 99]) (fun v1 => gives (v1.input [65, 66, 67, 27, 91, 54, 110]) (fun v2 =>
        decide (v2.log ≠ v1.log ++ (v1.canvas.replies [.text 65 1, .text 66 1, .text 67 1, .ask .position]).map .write)))) = true :=
    exists_of_vholds (cs := [.resize 3 4]) (sg := true) (vs := []) (by decide +kernel)
  obtain ⟨v, hr, hp⟩ := hx
  simp only [Bool.and_eq_true, decide_eq_true_eq] at hp
  obtain ⟨⟨hb, hy⟩, hg⟩ := hp
  obtain ⟨v1, e1, hg1⟩ := of_gives hg
  obtain ⟨v1', e1', r1, n1, _, c1⟩ := C85_after_reset hr hb
  rw [e1] at e1'
  injection e1' with e1'
  subst e1'
  obtain ⟨v2, e2, hg2⟩ := of_gives hg1
  obtain ⟨v2', e2', l2, _⟩ := hcl v1 [.text 65 1, .text 66 1, .text 67 1, .ask .position] r1 n1 (by
    intro a ha
    simp only [List.mem_cons, List.not_mem_nil, or_false] at ha
    rcases ha with rfl | rfl | rfl | rfl
    · exact ⟨⟨by decide, by unfold Graphic; decide, by decide +kernel⟩, Or.inl (by show 1 ≤ 1; decide)⟩
    · exact ⟨⟨by decide, by unfold Graphic; decide, by decide +kernel⟩, Or.inl (by show 1 ≤ 1; decide)⟩
    · exact ⟨⟨by decide, by unfold Graphic; decide, by decide +kernel⟩, Or.inl (by show 1 ≤ 1; decide)⟩
    · exact ⟨trivial, Or.inr rfl⟩)
  have e2' : v1.input [65, 66, 67, 27, 91, 54, 110] = .ok v2' := e2'
  rw [e2] at e2'
  injection e2' with e2'
  subst e2'
  exact of_decide_eq_true hg2 l2

/-- A program that styles, scrolls, inserts and deletes, with a scroll region. -/
def sample : List Cmd :=
  [.style [[49], [51, 49]], .text 65 1, .text 0x4e2d 2, .text 66 1, .lineFeed, .carriageReturn, .text 67 1, .region [49] [50],
    .csi [] 'L', .text 68 1, .goto [51] [51], .text 69 1, .backspace, .csi [50] '@', .goto [] [50], .csi [] 'P', .reverseFeed,
    .text 70 1, .style [[]], .text 71 1, .csi [] 'B', .csi [] 'S', .csi [50] 'D', .csi [] 'K', .text 72 1]

/-- One that uses the modes, tab stops, the saved cursor and the alternate screen. -/
def sample2 : List Cmd :=
  [.text 65 1, .text 66 1, .save, .insert true, .carriageReturn, .text 67 1, .insert false, .style [[52]], .enter, .text 68 1,
    .goto [] [51], .setTab, .carriageReturn, .tab, .text 69 1, .csi [] 'Z', .csi [] 'g', .csi [] 'I', .region [50] [51],
    .origin true, .csi [50] 'd', .text 70 1, .index, .origin false, .autowrap false, .goto [51] [52], .text 71 1, .text 72 1,
    .text 73 1, .newline true, .lineFeed, .text 74 1, .csi [] 'e', .leave, .text 75 1, .restore, .text 76 1]

/-- One that draws a box, once with G0 and once with G1, puts text into it, and restores the cursor while G1 is in use. -/
def sample3 : List Cmd :=
  [.charset false true, .text 108 1, .text 113 1, .text 107 1, .charset false false, .nextLine, .charset true true, .shift true,
    .text 120 1, .save, .shift false, .text 120 1, .text 0x4e2d 2, .goto [50] [51], .restore, .csi [] 'C', .text 120 1, .nextLine,
    .text 109 1, .text 113 1, .text 106 1, .shift false, .text 106 1, .shift true, .charset true false, .text 113 1,
    .cursor false, .reverse true, .arrows true, .keypad true, .other [50, 48, 48, 52] true,
    .echo true, .backspace, .ask .identity, .ask .position]

/-- Decidability of the hypotheses, for the examples. -/
instance (c : Canvas) : (a : Cmd) → Decidable (c.Tame a)
  | .text _ _ => by unfold Canvas.Tame Canvas.Fits Canvas.CanFeed; infer_instance
  | .lineFeed => by unfold Canvas.Tame Canvas.CanFeed; infer_instance
  | .nextLine => by unfold Canvas.Tame Canvas.CanFeed; infer_instance
  | .reverseFeed => by unfold Canvas.Tame; infer_instance
  | .carriageReturn => isTrue trivial
  | .backspace => isTrue trivial
  | .goto _ _ => isTrue trivial
  | .csi _ _ => by unfold Canvas.Tame; infer_instance
  | .index => by unfold Canvas.Tame Canvas.CanFeed; infer_instance
  | .setTab => by unfold Canvas.Tame; infer_instance
  | .restore => by unfold Canvas.Tame; infer_instance
  | .enter => by unfold Canvas.Tame; infer_instance
  | .leave => by
    unfold Canvas.Tame
    cases h : c.main with
    | none => exact isFalse (by simp)
    | some p =>
      exact decidable_of_iff (c.origin = false ∧ p.2.1 < c.w) (by simp)
  | .tab => isTrue trivial
  | .insert _ => isTrue trivial
  | .autowrap _ => isTrue trivial
  | .newline _ => isTrue trivial
  | .origin _ => isTrue trivial
  | .save => isTrue trivial
  | .style _ => isTrue trivial
  | .region _ _ => isTrue trivial
  | .charset _ _ => isTrue trivial
  | .shift _ => isTrue trivial
  | .cursor _ => isTrue trivial
  | .reverse _ => isTrue trivial
  | .arrows _ => isTrue trivial
  | .keypad _ => isTrue trivial
  | .echo _ => isTrue trivial
  | .other _ _ => isTrue trivial
  | .ask _ => inferInstanceAs (Decidable (_ → _ ∧ _))

instance tameAll : (c : Canvas) → (l : List Cmd) → Decidable (c.TameAll l)
  | _, [] => isTrue trivial
  | c, a :: l => by
    unfold Canvas.TameAll
    have := tameAll (c.step a) l
    infer_instance

/-- Its commands are well-formed on a screen with three rows. -/
example : ∀ a ∈ sample, a.Valid 3 := by
  intro a ha
  simp only [sample, List.mem_cons, List.not_mem_nil, or_false] at ha
  rcases ha with rfl | rfl | rfl | rfl | rfl | rfl | rfl | rfl | rfl | rfl | rfl | rfl | rfl | rfl | rfl | rfl | rfl | rfl |
    rfl | rfl | rfl | rfl | rfl | rfl | rfl
  all_goals
    first
      | exact trivial
      | exact ⟨by decide, by unfold Graphic; decide, by decide +kernel⟩
      | exact ⟨by decide, by unfold IsDigit; decide, by intro q hq; cases hq⟩
      | exact ⟨⟨by unfold IsDigit; decide, by decide⟩, by decide⟩
      | exact ⟨⟨by unfold IsDigit; decide, by decide⟩, ⟨by unfold IsDigit; decide, by decide⟩⟩
      | exact Or.inr ⟨num_digit (by decide), num_digit (by decide), by decide, by decide, by decide⟩

/-- So are those of the second. -/
example : ∀ a ∈ sample2, a.Valid 3 := by
  intro a ha
  simp only [sample2, List.mem_cons, List.not_mem_nil, or_false] at ha
  rcases ha with rfl | rfl | rfl | rfl | rfl | rfl | rfl | rfl | rfl | rfl | rfl | rfl | rfl | rfl | rfl | rfl | rfl | rfl |
    rfl | rfl | rfl | rfl | rfl | rfl | rfl | rfl | rfl | rfl | rfl | rfl | rfl | rfl | rfl | rfl | rfl | rfl | rfl
  all_goals
    first
      | exact trivial
      | exact ⟨by decide, by unfold Graphic; decide, by decide +kernel⟩
      | exact ⟨by decide, by unfold IsDigit; decide, by intro q hq; cases hq⟩
      | exact ⟨⟨by unfold IsDigit; decide, by decide⟩, by decide⟩
      | exact ⟨⟨by unfold IsDigit; decide, by decide⟩, ⟨by unfold IsDigit; decide, by decide⟩⟩
      | exact Or.inr ⟨num_digit (by decide), num_digit (by decide), by decide, by decide, by decide⟩

/-- And those of the third. -/
example : ∀ a ∈ sample3, a.Valid 3 := by
  intro a ha
  simp only [sample3, List.mem_cons, List.not_mem_nil, or_false] at ha
  rcases ha with rfl | rfl | rfl | rfl | rfl | rfl | rfl | rfl | rfl | rfl | rfl | rfl | rfl | rfl | rfl | rfl | rfl | rfl |
    rfl | rfl | rfl | rfl | rfl | rfl | rfl | rfl | rfl | rfl | rfl | rfl | rfl | rfl | rfl | rfl | rfl
  all_goals
    first
      | exact trivial
      | exact ⟨by decide, by unfold Graphic; decide, by decide +kernel⟩
      | exact ⟨by unfold IsDigit; decide, by decide⟩
      | exact ⟨⟨by unfold IsDigit; decide, by decide⟩, by decide⟩
      | exact ⟨num_digit (by decide), num_digit (by decide)⟩

/-- Witness of a session: on a screen with text, a scroll region and a pending OSC string, `ESC c` and then the
program; the cases that are missing do not occur. -/
example : ∃ v, Reachable v ∧ (decide (Between v) && decide (v.state = .oscString) && decide (v.con.marginTop = 1) &&
    decide (v.con.sizeX = 5) && decide (v.con.sizeY = 3) &&
    decide ((Canvas.initial v.con.sizeX v.con.sizeY v.defAttr v.palette).TameAll sample) &&
    gives (v.input (27 :: 99 :: sample.flatMap Cmd.bytes)) (fun v' =>
      decide ((v'.con.rowText 0, v'.con.rowText 1, v'.con.rowText 2) = ([68, 0, 0, 0, 0], [0, 72, 0, 0, 0], [0, 0, 0, 0, 69])))) = true :=
  exists_of_vholds (cs := [.resize 5 3]) (sg := true)
    (vs := [.input [65, 66, 27, 91, 50, 59, 51, 114, 27, 93, 65]]) (by decide +kernel)

/-- Likewise for the second program. -/
example : ∃ v, Reachable v ∧ (decide (Between v) && decide (v.con.sizeX = 5) && decide (v.con.sizeY = 3) &&
    decide ((Canvas.initial v.con.sizeX v.con.sizeY v.defAttr v.palette).TameAll sample2) &&
    gives (v.input (27 :: 99 :: sample2.flatMap Cmd.bytes)) (fun v' =>
      decide ((v'.con.rowText 0, v'.con.rowText 1, v'.con.rowText 2) = ([67, 75, 76, 0, 0], [0, 0, 0, 0, 0], [0, 0, 0, 0, 0])))) = true :=
  exists_of_vholds (cs := [.resize 5 3]) (sg := true)
    (vs := [.input [65, 66, 27, 91, 50, 59, 51, 114]]) (by decide +kernel)

/-- And for the third, on an emulator whose character sets have been changed before the reset. -/
example : ∃ v, Reachable v ∧ (decide (Between v) && decide (v.gl = .g2) && decide (v.con.sizeX = 5) && decide (v.con.sizeY = 3) &&
    decide ((Canvas.initial v.con.sizeX v.con.sizeY v.defAttr v.palette).TameAll sample3) &&
    gives (v.input (27 :: 99 :: sample3.flatMap Cmd.bytes)) (fun v' =>
      decide ((v'.con.rowText 0, v'.con.rowText 1, v'.con.rowText 2) =
        ([0x250c, 0x2500, 0x2510, 0, 0], [0x2502, 120, 0x2502, 0, 0], [0x2514, 0x2500, 0x2518, 106, 113])) &&
      decide (v'.canvas.hidden ∧ v'.canvas.reversed ∧ v'.canvas.arrows ∧ v'.canvas.keypad ∧ v'.canvas.echo) &&
      decide (v'.log.getLast? = some (.write [27, 91, 51, 59, 52, 82])))) = true :=
  exists_of_vholds (cs := [.resize 5 3]) (sg := true) (vs := [.input [27, 110, 65]]) (by decide +kernel)

end Verif.Props.Vte
