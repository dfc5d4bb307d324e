import Verif.Proofs.Vte.Controls
import Verif.Proofs.Vte.Example

/-!
# Control characters and the sequences that edit the screen

C76 control characters, C77 control sequences with a number, C78 vertical position relative.
-/

namespace Verif.Props.Vte

open Verif Verif.Vte

/-! ### C76 -/

/-- **C76.** A C0 control character takes effect at once, also in the middle of an escape or control sequence,
and the sequence goes on as if the character had not been there: only the screen, the answers and the decoder
change. If the call on the screen is undefined (see C08), so is the input. -/
theorem C76_c0 {v : Vte} (h : Reachable v) (hb : Between v) (hs : Executes v.state = true) {b : UInt8}
    {cs : List Screen.Call} {evs : List Event} (hc : c0 v.fNewline b.toNat = some (cs, evs)) :
    match Screen.runAll cs v.con with
    | .ok s => ∃ m, v.input [b] = .ok { v with con := s, mach := m, log := v.log ++ evs } ∧
        Between { v with con := s, mach := m, log := v.log ++ evs }
    | .error e => v.input [b] = .error e := by
  have hp : v.up.fPrepend = false := h.all.2.2
  obtain ⟨hg, _⟩ := exec_c0 (w := v.up) (up_pos v) hp hc
  obtain ⟨m, hm, e⟩ := c0_ok hb.up hs hg
  obtain ⟨_, e'⟩ := exec_c0 (w := { v.up with mach := m }) (up_pos v) hp hc
  rw [e'] at e
  change v.up.inputLoop [b] = (Screen.runAll cs v.con >>= _) at e
  cases hr : Screen.runAll cs v.con with
  | error ub =>
    rw [hr] at e
    exact input_error e
  | ok s =>
    rw [hr] at e
    refine ⟨m, ?_, hm⟩
    rw [input_ok e]
    rfl

/-- Witness: a line feed within `ESC [ 2 J`; the cursor goes down at once, and the rest of the sequence erases
the screen. -/
example : ∃ v, Reachable v ∧ (decide (Between v) && Executes v.state && decide (v.state = .csiParam) &&
    decide (v.con.cursorY = 0) && decide ((c0 v.fNewline 10).map (·.2) = some []) &&
    gives (v.input [10]) (fun v' => decide (v'.state = .csiParam) && decide (v'.con.cursorY = 1) &&
      decide (v'.con.rowText 0 = [65, 0, 0, 0, 0]) && gives (v'.input [74]) (fun v'' =>
        decide (v''.con.rowText 0 = [0, 0, 0, 0, 0]) && decide (v''.con.cursorY = 1)))) = true :=
  exists_of_vholds (cs := [.resize 5 3]) (sg := true) (vs := [.input [65, 27, 91, 50]]) (by decide +kernel)

/-- **C76.** The C1 control characters that act on the screen, sent as one character or as `ESC` and a letter,
in every state of the parser. -/
theorem C76_c1 {v : Vte} (h : Reachable v) (hb : Between v) {g : Nat} {c : Screen.Call} (hc : c1 g = some c) :
    (Typable v g → Does v (v.input (utf8 g)) [c] []) ∧ Does v (v.input [27, UInt8.ofNat (g - 0x40)]) [c] [] := by
  obtain ⟨h1, _, _, h2, h3, h4⟩ := exec_c1 (w := v) hc
  constructor
  · intro ht
    obtain ⟨w, hw, e⟩ := input_c1 h.ok.1 hb ht h1
    rw [(exec_c1 hc).2.1] at e
    exact does_one hw e
  · have hn : (UInt8.ofNat (g - 0x40)).toNat = g - 0x40 := Utf8.toNat_ofNat (by omega)
    obtain ⟨m, hm, e⟩ := input_esc h.ok.1 hb (b := UInt8.ofNat (g - 0x40)) (by omega) (by omega) h4
    rw [hn, (exec_c1 hc).2.2.1] at e
    exact does_one Read.inSeq e

/-- Witness: reverse index on the first row scrolls down, as one character and with `ESC`, from within an OSC
string. -/
example : ∃ v, Reachable v ∧ (decide (Between v) && decide (v.state = .oscString) && !v.f7bit && !v.f8bit &&
    decide (utf8 0x8d = [0xc2, 0x8d]) &&
    gives (v.input [0xc2, 0x8d]) (fun v' => decide (v'.con.rowText 1 = [65, 0, 0, 0, 0])) &&
    gives (v.input [27, 77]) (fun v' => decide (v'.con.rowText 1 = [65, 0, 0, 0, 0]))) = true :=
  exists_of_vholds (cs := [.resize 5 3]) (sg := true) (vs := [.input [65, 27, 93, 48]]) (by decide +kernel)

/-- **C76.** Every C1 control character does the same as its form with `ESC`, in every state of the parser. -/
theorem C76_forms {v : Vte} (h : Reachable v) (hb : Between v) {g : Nat} (h1 : 0x80 ≤ g) (h2 : g ≤ 0x9f)
    (ht : Typable v g) : SameOutcome (v.input (utf8 g)) (v.input [27, UInt8.ofNat (g - 0x40)]) := by
  have hn : (UInt8.ofNat (g - 0x40)).toNat = g - 0x40 := Utf8.toNat_ofNat (by omega)
  have hp : v.up.fPrepend = false := h.all.2.2
  cases hc : c1 g with
  | some c => exact ((C76_c1 h hb hc).1 ht).same (C76_c1 h hb hc).2
  | none =>
    have starts : ∀ st, anywhere g = some (st, .none) → nextOf .esc (g - 0x40) = (st, .none) →
        (st = .csiEntry ∨ st = .dcsEntry ∨ st = .oscString ∨ st = .stIgnore) →
        SameOutcome (v.input (utf8 g)) (v.input [27, UInt8.ofNat (g - 0x40)]) := by
      intro st a1 a2 a3
      have hs : st ≠ .none := by rcases a3 with a | a | a | a <;> subst a <;> decide
      obtain ⟨w, hw, e⟩ := input_c1_start h.ok.1 hb ht a1 hs
      obtain ⟨w', hw', _, _, _, _, _, e'⟩ := input_esc_start h.ok.1 hb (b := UInt8.ofNat (g - 0x40)) (by omega)
        (by rw [hn]; exact a2) hs
      rw [e, e']
      exact same_start hw hw' a3
    by_cases hi : g = 0x90 ∨ g = 0x98 ∨ g = 0x9b ∨ g = 0x9d ∨ g = 0x9e ∨ g = 0x9f
    · rcases hi with hi | hi | hi | hi | hi | hi <;> subst hi
      · exact starts .dcsEntry rfl rfl (by decide)
      · exact starts .stIgnore rfl rfl (by decide)
      · exact starts .csiEntry rfl rfl (by decide)
      · exact starts .oscString rfl rfl (by decide)
      · exact starts .stIgnore rfl rfl (by decide)
      · exact starts .stIgnore rfl rfl (by decide)
    · have ha : anywhere g = some (.ground, .execute) := by
        unfold anywhere
        rw [if_pos (by omega)]
      have hI : ¬ Introducer (UInt8.ofNat (g - 0x40)) := by
        unfold Introducer
        intro hm
        have : ∀ k : UInt8, UInt8.ofNat (g - 0x40) = k → k.toNat = g - 0x40 := by
          intro k hk; rw [← hk, hn]
        simp only [List.mem_cons, List.not_mem_nil, or_false] at hm
        rcases hm with hm | hm | hm | hm | hm | hm <;> have := this _ hm <;> revert this
        · show 0x50 = g - 0x40 → _; omega
        · show 0x58 = g - 0x40 → _; omega
        · show 0x5b = g - 0x40 → _; omega
        · show 0x5d = g - 0x40 → _; omega
        · show 0x5e = g - 0x40 → _; omega
        · show 0x5f = g - 0x40 → _; omega
      obtain ⟨w, hw, e⟩ := input_c1 h.ok.1 hb ht ha
      obtain ⟨m, hm, e'⟩ := input_esc h.ok.1 hb (b := UInt8.ofNat (g - 0x40)) (by omega) (by omega) hI
      have hw' : Read v (inSeq v.up .esc 0 noArgs 0 m) := Read.inSeq
      rw [hn] at e'
      generalize inSeq v.up .esc 0 noArgs 0 m = w' at hw' e'
      rw [e, e']
      by_cases h8e : g = 0x8e
      · subst h8e; exact same_shift hw hw' _
      by_cases h8f : g = 0x8f
      · subst h8f; exact same_shift hw hw' _
      by_cases h9a : g = 0x9a
      · subst h9a
        have r : ∀ w, Read v w → w.reply primaryDa = .ok { w with log := w.log ++ [.write primaryDa] } := by
          intro w hw
          refine reply_ok ?_ ?_ _
          · rw [hw]; exact Nat.succ_pos _
          · rw [hw]; exact hp
        refine Does.same (v := v) (cs := []) (evs := [.write primaryDa]) (does_none hw ?_) (does_none hw' ?_)
        · rw [← r w hw]; rfl
        · rw [← r w' hw']; rfl
      · have e1 := execute_none h1 hc h8e h8f h9a w
        have e2 := escPlain_none h1 h2 hc h8e h8f h9a w'
        rw [e1, e2]
        refine Does.same (v := v) (cs := []) (evs := []) (does_none hw ?_) (does_none hw' ?_)
        · rw [log_nil]
        · rw [log_nil]

/-- Witness: the control sequence introducer, and a single shift. -/
example : ∃ v, Reachable v ∧ (decide (Between v) && decide (v.state = .csiParam) && !v.f7bit && !v.f8bit &&
    gives (v.input [0xc2, 0x9b]) (fun v' => decide (v'.state = .csiEntry) && decide (v'.argv[0]? = some (-1))) &&
    gives (v.input [27, 91]) (fun v' => decide (v'.state = .csiEntry) && decide (v'.argv[0]? = some (-1))) &&
    gives (v.input [0xc2, 0x8e]) (fun v' => decide (v'.glt = some .g2)) &&
    gives (v.input [27, 78]) (fun v' => decide (v'.glt = some .g2))) = true :=
  exists_of_vholds (cs := [.resize 5 3]) (sg := true) (vs := [.input [27, 91, 55]]) (by decide +kernel)

/-- **C76.** CAN abandons whatever the parser was reading, and does nothing else. -/
theorem C76_can {v : Vte} (h : Reachable v) (hb : Between v) : Does v (v.input [0x18]) [] [] := by
  obtain ⟨w, hw, e⟩ := input_c1 h.ok.1 hb (g := 0x18) (Or.inl (by decide)) rfl
  refine does_none hw ?_
  rw [log_nil]
  exact e

/-- Witness: in a control sequence. -/
example : ∃ v, Reachable v ∧ (decide (Between v) && decide (v.state = .csiParam) &&
    gives (v.input [0x18, 74]) (fun v' => decide (v'.con.rowText 0 = [65, 74, 0, 0, 0]))) = true :=
  exists_of_vholds (cs := [.resize 5 3]) (sg := true) (vs := [.input [65, 27, 91, 50]]) (by decide +kernel)

/-! ### C77 -/

/-- **C77.** `ESC [`, a number and a letter: the sequences that move the cursor, erase, insert, delete, scroll or
clear tabulators do just what the corresponding calls on the screen do, in every state of the parser, and nothing
else. A number that is left out counts as 1 where a count is meant and as 0 where it selects a variant; unknown
variants are ignored. -/
theorem C77_editing {v : Vte} (h : Reachable v) (hb : Between v) {q : List UInt8} (hq : ∀ d ∈ q, IsDigit d)
    (hn : number q ≤ 655359) {sel : Bool} {c : Char} {cs : List Screen.Call} (hc : editing sel (number q) c = some cs) :
    Does v (v.input (27 :: 91 :: ((if sel then [63] else []) ++ (q ++ [UInt8.ofNat c.toNat])))) cs [] := by
  have hl := editing_letter hc
  have hu : (UInt8.ofNat c.toNat).toNat = c.toNat := Utf8.toNat_ofNat (by omega)
  have hq' : ∀ r ∈ [q], ∀ d ∈ r, IsDigit d := by
    intro r hr; rw [List.mem_singleton] at hr; subst hr; exact hq
  have c1 := count_max hq hn
  have c2 := value_cases hq hn
  cases sel with
  | false =>
    obtain ⟨m, st, hm, e⟩ := input_csi h.ok.1 hb (qs := [q]) (List.cons_ne_nil _ _) hq'
      (b := UInt8.ofNat c.toNat) (by omega) (by omega)
    rw [hu] at e
    have n0 := num1_inSeq (v := v.up) (st := st) (n := min 16 1) (l := [value q]) (fl := 0) (m := m) (i := 0) (by omega)
    have a0 := arg_inSeq (v := v.up) (st := st) (n := min 16 1) (l := [value q]) (fl := 0) (m := m) (i := 0) (by omega)
    change Vte.num1 _ 0 = .ok (count (value q)) at n0
    rw [c1] at n0
    exact editing_does Read.inSeq hc n0 a0 c2 (show (0 : BitVec 32).getLsbD 2 = false by decide) e
  | true =>
    obtain ⟨m, hm, e⟩ := input_csi_marked h.ok.1 hb (p := 63) (by decide) (by decide) (qs := [q])
      (List.cons_ne_nil _ _) hq' (b := UInt8.ofNat c.toNat) (by omega) (by omega)
    rw [hu] at e
    have n0 := num1_inSeq (v := v.up) (st := .csiParam) (n := min 16 1) (l := [value q]) (fl := collectFlag 63) (m := m)
      (i := 0) (by omega)
    have a0 := arg_inSeq (v := v.up) (st := .csiParam) (n := min 16 1) (l := [value q]) (fl := collectFlag 63) (m := m)
      (i := 0) (by omega)
    change Vte.num1 _ 0 = .ok (count (value q)) at n0
    rw [c1] at n0
    exact editing_does Read.inSeq hc n0 a0 c2 (show (collectFlag 63).getLsbD 2 = true by decide) e

/-- Witness: `ESC [ 2 P` deletes two characters, `ESC [ P` one, `ESC [ 1 K` erases up to the cursor, and
`ESC [ ? 1 K` does so except for protected characters. -/
example : ∃ v, Reachable v ∧ (decide (Between v) && decide (v.con.rowText 0 = [65, 66, 67, 68, 69]) &&
    decide (v.con.cursorX = 2) && decide (number [50] = 2) && (editing false 2 'P').isSome && (editing true 1 'K').isSome &&
    gives (v.input [27, 91, 50, 80]) (fun v' => decide (v'.con.rowText 0 = [65, 66, 69, 0, 0])) &&
    gives (v.input [27, 91, 80]) (fun v' => decide (v'.con.rowText 0 = [65, 66, 68, 69, 0])) &&
    gives (v.input [27, 91, 49, 75]) (fun v' => decide (v'.con.rowText 0 = [0, 0, 0, 68, 69])) &&
    gives (v.input [27, 91, 63, 49, 75]) (fun v' => decide (v'.con.rowText 0 = [0, 66, 0, 68, 69]))) = true :=
  exists_of_vholds (cs := [.resize 5 3]) (sg := true)
    (vs := [.screen (.write 65 { Attr.zero with protect := false }), .screen (.write 66 { Attr.zero with protect := true }),
      .input [67, 68, 69, 13, 27, 91, 50, 67]]) (by decide +kernel)

/-- **C77.** `ESC [ t ; b r` sets the margins. -/
theorem C77_margins {v : Vte} (h : Reachable v) (hb : Between v) {t b : List UInt8} (ht : ∀ d ∈ t, IsDigit d)
    (hb' : ∀ d ∈ b, IsDigit d) (lt : number t ≤ 655359) (lb : number b ≤ 655359) :
    Does v (v.input (27 :: 91 :: (t ++ 59 :: (b ++ [114])))) [.setMargins (number t) (number b)] [] := by
  obtain ⟨m, st, hm, e⟩ := input_csi h.ok.1 hb (qs := [t, b]) (List.cons_ne_nil _ _)
    (by
      intro q hq
      rcases List.mem_cons.1 hq with hq | hq
      · subst hq; exact ht
      · rw [List.mem_singleton] at hq; subst hq; exact hb') (b := 114) (by decide) (by decide)
  have ej : joined [t, b] ++ [114] = t ++ 59 :: (b ++ [114]) := by
    show (t ++ 59 :: b) ++ [114] = _
    rw [List.append_assoc, List.cons_append]
  rw [ej] at e
  have a0 := arg_inSeq (v := v.up) (st := st) (n := min 16 2) (l := [value t, value b]) (fl := 0) (m := m) (i := 0) (by omega)
  have a1 := arg_inSeq (v := v.up) (st := st) (n := min 16 2) (l := [value t, value b]) (fl := 0) (m := m) (i := 1) (by omega)
  change Vte.arg _ 0 = .ok (value t) at a0
  change Vte.arg _ 1 = .ok (value b) at a1
  have k : ∀ {q : List UInt8}, (∀ d ∈ q, IsDigit d) → number q ≤ 655359 → (value q).toNat = number q := by
    intro q hq hn
    rcases value_cases hq hn with ⟨h1, h2⟩ | h1
    · rw [h1, h2]; rfl
    · rw [h1]; rfl
  refine does_one (w := inSeq v.up st (min 16 2) (padded [value t, value b]) 0 m) Read.inSeq (e.trans ?_)
  show (((inSeq v.up st (min 16 2) (padded [value t, value b]) 0 m).csiRun .decstbm) >>= _) = _
  simp only [Vte.csiRun, Vte.num0, a0, a1, bind, Except.bind, pure, Except.pure, k ht lt, k hb' lb]

/-- Witness: margins 2 and 3. -/
example : ∃ v, Reachable v ∧ (decide (Between v) && decide (v.con.marginTop = 0) &&
    gives (v.input [27, 91, 50, 59, 51, 114]) (fun v' =>
      decide (v'.con.marginTop = 1) && decide (v'.con.marginBottom = 2))) = true :=
  exists_of_vholds (cs := [.resize 5 5]) (sg := true) (vs := [.input [65]]) (by decide +kernel)

/-! ### C78 -/

/-- The cursor `n` rows further down in its column: in origin mode within the margins, else on the screen. -/
def lower (w : View) (n : Nat) : View :=
  { w with
    cursorX := min w.cursorX (w.sizeX - 1)
    cursorY := min (w.cursorY + n) (if w.flags.getLsbD 2 then w.marginBottom else w.sizeY - 1) }

/-- The claim: `CSI n e` moves the cursor down by `n` rows. -/
def C78_claim : Prop :=
  ∀ (v : Vte), Reachable v → Between v → ∀ (q : List UInt8), (∀ d ∈ q, IsDigit d) → number q ≤ 655359 →
    ∃ v' s, v.input (27 :: 91 :: (q ++ [101])) = .ok v' ∧ v'.state = .ground ∧ Effect v v' s [] ∧
      s.view = lower v.con.view (max 1 (number q))

/-- **C78 is false** in origin mode: the row of the cursor is counted from the top of the screen, but the row
moved to is counted from the top margin. With margins 3 and 6, `CSI 1 e` moves from row 3 to row 6 instead of
row 4. -/
theorem C78_false : ¬ C78_claim := by
  have : ∃ v, Reachable v ∧ (decide (Between v) && decide (v.con.cursorY = 2) && decide (v.con.marginBottom = 5) &&
      v.con.flags.getLsbD 2 &&
      gives (v.input [27, 91, 49, 101]) (fun v' => decide (v'.con.cursorY = 5))) = true :=
    exists_of_vholds (cs := [.resize 5 7]) (sg := true)
      (vs := [.input [27, 91, 51, 59, 54, 114, 27, 91, 63, 54, 104, 27, 91, 72]]) (by decide +kernel)
  obtain ⟨v, hv, hf⟩ := this
  simp only [Bool.and_eq_true, decide_eq_true_eq] at hf
  obtain ⟨⟨⟨⟨h1, h2⟩, h3⟩, h4⟩, h5⟩ := hf
  obtain ⟨v1, e1, h6⟩ := of_gives h5
  intro hcl
  obtain ⟨v2, s, e2, _, ef, h7⟩ := hcl v hv h1 [49]
    (by intro d hd; rw [List.mem_singleton] at hd; subst hd; unfold IsDigit; decide) (by decide)
  change v.input [27, 91, 49, 101] = _ at e2
  rw [e1] at e2
  injection e2 with e2
  subst e2
  have hs : v1.con = s := congrArg Vte.con ef
  have h8 : s.cursorY = min (v.con.cursorY + max 1 (number [49])) (if v.con.flags.getLsbD 2 then v.con.marginBottom else _) :=
    congrArg View.cursorY h7
  rw [← hs, of_decide_eq_true h6, if_pos h4, h2, h3] at h8
  exact absurd h8 (by decide)

/-- **C78**: what `CSI n e` does in any mode. In origin mode the cursor goes down by `n` and once more by the top
margin. -/
theorem C78_vpr_effect {v : Vte} (h : Reachable v) (hb : Between v) {q : List UInt8} (hq : ∀ d ∈ q, IsDigit d)
    (hn : number q ≤ 655359) :
    ∃ v' s, v.input (27 :: 91 :: (q ++ [101])) = .ok v' ∧ v'.state = .ground ∧ Effect v v' s [] ∧
      s.view = lower v.con.view (max 1 (number q) + if v.con.flags.getLsbD 2 then v.con.marginTop else 0) := by
  obtain ⟨m, st, hm, e⟩ := input_csi h.ok.1 hb (qs := [q]) (List.cons_ne_nil _ _)
    (by intro r hr; rw [List.mem_singleton] at hr; subst hr; exact hq) (b := 101) (by decide) (by decide)
  have n0 := num1_inSeq (v := v.up) (st := st) (n := min 16 1) (l := [value q]) (fl := 0) (m := m) (i := 0) (by omega)
  change Vte.num1 _ 0 = .ok (count (value q)) at n0
  rw [count_max hq hn] at n0
  have hg := h.ok.1.con.geo
  have g3 := hg.yb
  have cy := h.ok.1.con.cur.cy
  obtain ⟨s, es, vs⟩ := moveTo_view h.ok.1.con v.con.cursorX (v.con.cursorY + max 1 (number q)) (by omega)
  have e' : v.input (27 :: 91 :: (q ++ [101])) =
      ((inSeq v.up st (min 16 1) (padded [value q]) 0 m).scr (.moveTo v.con.cursorX (v.con.cursorY + max 1 (number q)))
        >>= fun v' => pure { v' with state := .ground }.down) := by
    refine e.trans ?_
    show (((inSeq v.up st (min 16 1) (padded [value q]) 0 m).csiRun .vpr) >>= _) = _
    simp only [Vte.csiRun, n0, bind, Except.bind]
    rfl
  obtain ⟨v', e2, g, ef⟩ := effect_scr e' es
  refine ⟨v', s, e2, g, ef, ?_⟩
  rw [vs]
  unfold lower
  by_cases ho : v.con.flags.getLsbD 2 = true
  · rw [if_pos ho, if_pos ho, if_pos (show v.con.view.flags.getLsbD 2 = true from ho)]
    rw [show v.con.marginTop + (v.con.cursorY + max 1 (number q)) =
      v.con.view.cursorY + (max 1 (number q) + v.con.marginTop) by show _ = v.con.cursorY + _; omega]
    rfl
  · rw [if_neg ho, if_neg ho, if_neg (show ¬ v.con.view.flags.getLsbD 2 = true from ho)]
    rfl

/-- Witness: in origin mode with margins 3 to 6 of 7 rows, from the third row down by 1: to the sixth row. -/
example : ∃ v, Reachable v ∧ (decide (Between v) && v.con.flags.getLsbD 2 && decide (v.con.cursorY = 2) && decide (v.con.marginTop = 2) &&
    gives (v.input [27, 91, 101]) (fun v' => decide (v'.con.cursorY = 5))) = true :=
  exists_of_vholds (cs := [.resize 5 7]) (sg := true)
    (vs := [.input [27, 91, 51, 59, 54, 114, 27, 91, 63, 54, 104, 27, 91, 72]]) (by decide +kernel)

/-- **C78** (`_partial`: not in origin mode). -/
theorem C78_vpr_partial {v : Vte} (h : Reachable v) (hb : Between v) {q : List UInt8} (hq : ∀ d ∈ q, IsDigit d)
    (hn : number q ≤ 655359) (ho : v.con.flags.getLsbD 2 = false) :
    ∃ v' s, v.input (27 :: 91 :: (q ++ [101])) = .ok v' ∧ v'.state = .ground ∧ Effect v v' s [] ∧
      s.view = lower v.con.view (max 1 (number q)) := by
  obtain ⟨v', s, e, g, ef, hv⟩ := C78_vpr_effect h hb hq hn
  rw [ho] at hv
  exact ⟨v', s, e, g, ef, hv⟩

/-- Witness: from row 2 down by 2, clamped from there. -/
example : ∃ v, Reachable v ∧ (decide (Between v) && !v.con.flags.getLsbD 2 && decide (v.con.cursorY = 1) &&
    gives (v.input [27, 91, 50, 101]) (fun v' => decide (v'.con.cursorY = 3) && decide (v'.con.cursorX = 2)) &&
    gives (v.input [27, 91, 57, 101]) (fun v' => decide (v'.con.cursorY = 6) && decide (v'.con.cursorX = 2))) = true :=
  exists_of_vholds (cs := [.resize 5 7]) (sg := true) (vs := [.input [27, 91, 50, 59, 51, 72]]) (by decide +kernel)

end Verif.Props.Vte
