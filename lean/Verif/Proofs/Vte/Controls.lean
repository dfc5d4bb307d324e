import Verif.Proofs.Vte.Text
import Verif.Spec.Controls

/-!
# Running the parser on control characters
-/

namespace Verif
namespace Vte

theorem c0_ok {v : Vte} (hb : Between v) {b : UInt8} (hs : Executes v.state = true) (hg : isC0 b.toNat) :
    ∃ m, Btw v.flags m ∧ v.inputLoop [b] = { v with mach := m }.execute b.toNat := by
  obtain ⟨m, hm, e⟩ := inputByte_ascii hb (b := b) (by unfold isC0 at hg; omega)
  refine ⟨m, hm, ?_⟩
  rw [inputLoop_one, e]
  unfold Vte.parse
  have : nextOf v.state b.toNat = (.none, .execute) := by
    unfold nextOf
    have ha : anywhere b.toNat = none := by
      unfold anywhere
      unfold isC0 at hg
      repeat rw [if_neg (by omega)]
    rw [ha]
    show stateTrans v.state b.toNat = _
    revert hs
    cases v.state <;> intro hs
    all_goals first
      | exact absurd hs (by decide)
      | (unfold stateTrans; dsimp only; rw [if_pos (by first | exact hg | exact Or.inl hg)])
  rw [show ({ v with mach := m } : Vte).state = v.state from rfl, this]
  rfl

/-- A C1 control character that is executed. -/
theorem c1_ok {v : Vte} (h : Ok v) (hb : Between v) {g : Nat} (hg : Typable v g)
    (hn : anywhere g = some (.ground, .execute)) :
    ∃ m a, Btw v.flags m ∧ v.inputLoop (utf8 g) =
      ({ v with mach := m, oscArg := a, log := v.log ++ v.pendingOsc }.execute g >>=
        fun v' => pure { v' with state := .ground }) := by
  obtain ⟨m, hm, e⟩ := char_ok hb hg
  obtain ⟨a, ea⟩ := exit_ok (h.mach m) g
  refine ⟨m, a, hm, ?_⟩
  rw [e]
  unfold Vte.parse
  have : ∀ st, nextOf st g = (.ground, .execute) := by
    intro st
    unfold nextOf
    rw [hn]
    rfl
  rw [this]
  unfold Vte.trans
  rw [if_neg (by decide), ea]
  show (Vte.execute _ g >>= _) = _
  rfl

/-! ### Calls on the screen -/

theorem scr_error {v : Vte} {c : Screen.Call} {e : UB} (h : c.run v.con = .error e) : v.scr c = .error e := by
  unfold Vte.scr
  rw [h]
  rfl

/-- A state that differs from `v` as if a sequence is being read, during a call. -/
def Read (v w : Vte) : Prop :=
  w = { v with
    parseCnt := v.parseCnt + 1, mach := w.mach, state := w.state, argc := w.argc, argv := w.argv
    csiFlags := w.csiFlags, oscLen := w.oscLen, oscArg := w.oscArg, log := v.log ++ v.pendingOsc }

theorem Read.inSeq {v : Vte} {st : PState} {n : Nat} {l : List Int} {fl : BitVec 32} {m : Utf8.Mach} :
    Read v (inSeq v.up st n l fl m) := rfl

theorem Read.con {v w : Vte} (h : Read v w) : w.con = v.con := by rw [h]

/-- Finishing without a call. -/
theorem does_none {v w : Vte} (hw : Read v w) {x : R Vte} {evs : List Event}
    (e : x = (.ok { w with log := w.log ++ evs } >>= fun v' => pure { v' with state := .ground }.down)) :
    Does v x [] evs := by
  subst e
  refine ⟨_, rfl, rfl, ?_⟩
  rw [hw]
  rfl

theorem does_one {v w : Vte} (hw : Read v w) {x : R Vte} {c : Screen.Call}
    (e : x = (w.scr c >>= fun v' => pure { v' with state := .ground }.down)) : Does v x [c] [] := by
  unfold Does
  have hc := hw.con
  cases hr : c.run v.con with
  | error ub =>
    rw [show Screen.runAll [c] v.con = .error ub from by
      show (c.run v.con >>= _) = _
      rw [hr]; rfl]
    rw [e, scr_error (by rw [hc]; exact hr)]
    rfl
  | ok s =>
    rw [show Screen.runAll [c] v.con = .ok s from by
      show (c.run v.con >>= _) = _
      rw [hr]; rfl]
    rw [scr_ok (s := s) (by rw [hc]; exact hr)] at e
    refine ⟨_, e, rfl, ?_⟩
    unfold Effect
    rw [List.append_nil, hw]
    rfl

theorem does_two {v w : Vte} (hw : Read v w) {x : R Vte} {c c' : Screen.Call}
    (e : x = ((w.scr c >>= fun v' => v'.scr c') >>= fun v' => pure { v' with state := .ground }.down)) :
    Does v x [c, c'] [] := by
  unfold Does
  have hc := hw.con
  cases hr : c.run v.con with
  | error ub =>
    rw [show Screen.runAll [c, c'] v.con = .error ub from by
      show (c.run v.con >>= _) = _
      rw [hr]; rfl]
    rw [e, scr_error (by rw [hc]; exact hr)]
    rfl
  | ok s =>
    rw [scr_ok (s := s) (by rw [hc]; exact hr)] at e
    change x = (({ w with con := s } : Vte).scr c' >>= _) at e
    cases hr' : c'.run s with
    | error ub =>
      rw [show Screen.runAll [c, c'] v.con = .error ub from by
        show (c.run v.con >>= _) = _
        rw [hr]
        show (c'.run s >>= _) = _
        rw [hr']; rfl]
      rw [e, scr_error (v := { w with con := s }) hr']
      rfl
    | ok s' =>
      rw [show Screen.runAll [c, c'] v.con = .ok s' from by
        show (c.run v.con >>= _) = _
        rw [hr]
        show (c'.run s >>= _) = _
        rw [hr']; rfl]
      rw [scr_ok (v := { w with con := s }) (s := s') hr'] at e
      refine ⟨_, e, rfl, ?_⟩
      unfold Effect
      rw [List.append_nil, hw]
      rfl

/-! ### Executing control characters -/

theorem exec_c0 {w : Vte} (hp : 0 < w.parseCnt) (hf : w.fPrepend = false) {g : Nat} {cs : List Screen.Call}
    {evs : List Event} (hc : c0 w.fNewline g = some (cs, evs)) :
    isC0 g ∧ w.execute g = (Screen.runAll cs w.con >>= fun s => pure { w with con := s, log := w.log ++ evs }) := by
  have scr1 : ∀ c : Screen.Call, w.scr c =
      (Screen.runAll [c] w.con >>= fun s => pure { w with con := s, log := w.log ++ [] }) := by
    intro c
    unfold Vte.scr
    show _ = ((c.run w.con >>= fun s => Except.ok s) >>= _)
    cases c.run w.con with
    | error e => rfl
    | ok s => show Except.ok _ = Except.ok _; rw [List.append_nil]
  unfold c0 at hc
  split at hc
  · next hg =>
    cases hc; subst hg
    refine ⟨Or.inl (by decide), ?_⟩
    show w.reply [6] = _
    rw [reply_ok hp hf]
    rfl
  split at hc
  · next hg => cases hc; subst hg; exact ⟨Or.inl (by decide), scr1 _⟩
  split at hc
  · next hg => cases hc; subst hg; exact ⟨Or.inl (by decide), scr1 _⟩
  split at hc
  · next hg =>
    cases hc
    have key : ∀ b : Bool, (if b = true then w.scr .newline else w.scr (.moveDown 1 true)) =
        (Screen.runAll [if b = true then .newline else .moveDown 1 true] w.con >>=
          fun s => pure { w with con := s, log := w.log ++ [] }) := by
      intro b
      cases b <;> exact scr1 _
    rcases hg with hg | hg | hg <;> subst hg <;> exact ⟨Or.inl (by decide), key _⟩
  split at hc
  · next hg => cases hc; subst hg; exact ⟨Or.inl (by decide), scr1 _⟩
  split at hc
  · cases hc
  split at hc
  · next h5 h8 h9 ha hd he hg =>
    cases hc
    refine ⟨by unfold isC0; omega, ?_⟩
    show w.execute g = Except.ok _
    rw [List.append_nil]
    unfold Vte.execute
    split <;> first | (exfalso; omega) | rfl
  · cases hc

theorem exec_c1 {w : Vte} {g : Nat} {c : Screen.Call} (hc : c1 g = some c) :
    anywhere g = some (.ground, .execute) ∧ w.execute g = w.scr c ∧ w.escPlain (g - 0x40) = w.scr c ∧
      0x80 ≤ g ∧ g ≤ 0x9f ∧ ¬ Introducer (UInt8.ofNat (g - 0x40)) := by
  unfold c1 at hc
  split at hc
  · next hg => cases hc; subst hg; exact ⟨rfl, rfl, rfl, by decide, by decide, by unfold Introducer; decide⟩
  split at hc
  · next hg => cases hc; subst hg; exact ⟨rfl, rfl, rfl, by decide, by decide, by unfold Introducer; decide⟩
  split at hc
  · next hg => cases hc; subst hg; exact ⟨rfl, rfl, rfl, by decide, by decide, by unfold Introducer; decide⟩
  split at hc
  · next hg => cases hc; subst hg; exact ⟨rfl, rfl, rfl, by decide, by decide, by unfold Introducer; decide⟩
  · cases hc

/-- A C1 control character that is executed, as one input. -/
theorem input_c1 {v : Vte} (h : Ok v) (hb : Between v) {g : Nat} (hg : Typable v g)
    (hn : anywhere g = some (.ground, .execute)) :
    ∃ w, Read v w ∧ v.input (utf8 g) = (w.execute g >>= fun v' => pure { v' with state := .ground }.down) := by
  obtain ⟨m, a, hm, e⟩ := c1_ok h.more hb.up (g := g) hg hn
  refine ⟨{ v.up with mach := m, oscArg := a, log := v.up.log ++ v.up.pendingOsc }, rfl, ?_⟩
  rw [input_def, e]
  generalize Vte.execute _ g = x
  cases x <;> rfl

theorem SameButParser.both {u a b : Vte} (h1 : SameButParser u a) (h2 : SameButParser u b) : SameButParser a b := by
  unfold SameButParser at *
  rw [h1]
  exact h2

/-- Two inputs that do the same have the same outcome. -/
theorem Does.same {v : Vte} {x y : R Vte} {cs : List Screen.Call} {evs : List Event} (hx : Does v x cs evs)
    (hy : Does v y cs evs) : SameOutcome x y := by
  unfold Does at hx hy
  cases hr : Screen.runAll cs v.con with
  | error e =>
    rw [hr] at hx hy
    dsimp only at hx hy
    rw [hx, hy]
    exact rfl
  | ok s =>
    rw [hr] at hx hy
    obtain ⟨a, ea, sa, ha⟩ := hx
    obtain ⟨b, eb, sb, hb⟩ := hy
    rw [ea, eb]
    exact ⟨ha.both hb, sa.trans sb.symm, fun hn => absurd sa hn.1⟩

/-- The C1 control characters that start a string or a control sequence. -/
theorem input_c1_start {v : Vte} (h : Ok v) (hb : Between v) {g : Nat} (hg : Typable v g) {st : PState}
    (hn : anywhere g = some (st, .none)) (hs : st ≠ .none) :
    ∃ w, Read v w ∧ v.input (utf8 g) =
      (w.action g (entryAction st) >>= fun v' => pure { v' with state := st }.down) := by
  obtain ⟨m, hm, e⟩ := char_ok hb.up (g := g) hg
  obtain ⟨a, ea⟩ := exit_ok (h.more.mach m) g
  refine ⟨{ v.up with mach := m, oscArg := a, log := v.up.log ++ v.up.pendingOsc }, rfl, ?_⟩
  rw [input_def, e]
  unfold Vte.parse
  have : ∀ st', nextOf st' g = (st, .none) := by
    intro st'
    unfold nextOf
    rw [hn]
    rfl
  rw [this]
  unfold Vte.trans
  rw [if_neg hs, ea]
  show ((Vte.action _ g (entryAction st) >>= _) >>= _) = _
  generalize hx : Vte.action _ g (entryAction st) = x
  have hx' : Vte.action { v.up with mach := m, oscArg := a, log := v.up.log ++ v.up.pendingOsc } g (entryAction st) = x :=
    hx
  rw [hx']
  cases x <;> rfl

/-- The same with `ESC` and a letter. -/
theorem input_esc_start {v : Vte} (h : Ok v) (hb : Between v) {b : UInt8} (hb' : b.toNat < 128) {st : PState}
    (hn : nextOf .esc b.toNat = (st, .none)) (hs : st ≠ .none) :
    ∃ w, Read v w ∧ w.argc = 0 ∧ w.argv = noArgs ∧ w.csiFlags = 0 ∧ w.oscLen = 0 ∧ w.oscArg = List.replicate 128 0 ∧
      v.input [27, b] = (w.action b.toNat (entryAction st) >>= fun v' => pure { v' with state := st }.down) := by
  obtain ⟨m1, hm1, e1⟩ := esc_ok h.more hb.up
  obtain ⟨m2, hm2, e2⟩ := inputByte_ascii (v := inSeq v.up .esc 0 noArgs 0 m1) (inSeq_between hm1) (b := b) hb'
  refine ⟨inSeq v.up .esc 0 noArgs 0 m2, Read.inSeq, rfl, rfl, rfl, rfl, rfl, ?_⟩
  rw [input_def, inputLoop_ok e1, inputLoop_one, e2]
  change ((inSeq v.up .esc 0 noArgs 0 m2).parse b.toNat >>= _) = _
  unfold Vte.parse
  rw [show (inSeq v.up .esc 0 noArgs 0 m2).state = .esc from rfl, hn]
  unfold Vte.trans
  rw [if_neg hs]
  show ((Vte.action _ b.toNat (entryAction st) >>= _) >>= _) = _
  generalize Vte.action _ b.toNat (entryAction st) = x
  cases x <;> rfl

theorem same_start {v w w' : Vte} (hw : Read v w) (hw' : Read v w') {st : PState} {g g' : Nat}
    (hs : st = .csiEntry ∨ st = .dcsEntry ∨ st = .oscString ∨ st = .stIgnore) :
    SameOutcome (w.action g (entryAction st) >>= fun v' => pure { v' with state := st }.down)
      (w'.action g' (entryAction st) >>= fun v' => pure { v' with state := st }.down) := by
  have key : SameOutcome (.ok { w.clear with state := st }.down) (.ok { w'.clear with state := st }.down) := by
    refine ⟨?_, rfl, fun _ => ⟨rfl, rfl, rfl, rfl, rfl⟩⟩
    rw [hw, hw']
    exact rfl
  rcases hs with hs | hs | hs | hs <;> subst hs
  · exact key
  · exact key
  · exact key
  · refine ⟨?_, rfl, fun hn => absurd rfl hn.2⟩
    rw [hw, hw']
    exact rfl

/-- Setting a single shift. -/
theorem same_shift {v w w' : Vte} (hw : Read v w) (hw' : Read v w') (s : Slot) :
    SameOutcome (.ok { w with glt := some s } >>= fun v' => pure { v' with state := .ground }.down)
      (.ok { w' with glt := some s } >>= fun v' => pure { v' with state := .ground }.down) := by
  refine ⟨?_, rfl, fun hn => absurd rfl hn.1⟩
  rw [hw, hw']
  exact rfl

theorem log_nil (w : Vte) : ({ w with log := w.log ++ [] } : Vte) = w := by rw [List.append_nil]

theorem execute_none {g : Nat} (h : 0x80 ≤ g) (hc : c1 g = none) (h1 : g ≠ 0x8e) (h2 : g ≠ 0x8f) (h3 : g ≠ 0x9a)
    (w : Vte) : w.execute g = .ok w := by
  have n1 : g ≠ 0x84 := by intro hh; subst hh; simp [c1] at hc
  have n2 : g ≠ 0x85 := by intro hh; subst hh; simp [c1] at hc
  have n3 : g ≠ 0x88 := by intro hh; subst hh; simp [c1] at hc
  have n4 : g ≠ 0x8d := by intro hh; subst hh; simp [c1] at hc
  unfold Vte.execute
  split <;> first | (exfalso; omega) | rfl

theorem escPlain_none {g : Nat} (h : 0x80 ≤ g) (h' : g ≤ 0x9f) (hc : c1 g = none) (h1 : g ≠ 0x8e) (h2 : g ≠ 0x8f)
    (h3 : g ≠ 0x9a) (w : Vte) : w.escPlain (g - 0x40) = .ok w := by
  have n1 : g ≠ 0x84 := by intro hh; subst hh; simp [c1] at hc
  have n2 : g ≠ 0x85 := by intro hh; subst hh; simp [c1] at hc
  have n3 : g ≠ 0x88 := by intro hh; subst hh; simp [c1] at hc
  have n4 : g ≠ 0x8d := by intro hh; subst hh; simp [c1] at hc
  clear hc
  generalize hk : g - 0x40 = k
  have k1 : 0x40 ≤ k ∧ k ≤ 0x5f ∧ k ≠ 0x44 ∧ k ≠ 0x45 ∧ k ≠ 0x48 ∧ k ≠ 0x4d ∧ k ≠ 0x4e ∧ k ≠ 0x4f ∧ k ≠ 0x5a := by omega
  clear n1 n2 n3 n4 h1 h2 h3 h h' hk
  unfold Vte.escPlain
  split <;> first | (exfalso; omega) | rfl

/-! ### Control sequences with a number -/

theorem count_max {q : List UInt8} (hq : ∀ d ∈ q, IsDigit d) (hk : number q ≤ 655359) :
    count (value q) = max 1 (number q) := by
  have := count_number_eq hq hk
  have h1 : 1 ≤ count (value q) := by unfold count; split <;> omega
  omega

theorem value_cases {q : List UInt8} (hq : ∀ d ∈ q, IsDigit d) (hk : number q ≤ 655359) :
    (value q = -1 ∧ number q = 0) ∨ value q = number q := by
  by_cases h0 : q = []
  · subst h0; exact Or.inl ⟨rfl, rfl⟩
  · rcases value_number hq h0 with ⟨h, _⟩ | ⟨_, h⟩
    · exact Or.inr h
    · omega

theorem editing_does {v w : Vte} (hw : Read v w) {n : Nat} {sel : Bool} {c : Char} {cs : List Screen.Call} {a : Int}
    (hc : editing sel n c = some cs) (hn : w.num1 0 = .ok (max 1 n)) (ha : w.arg 0 = .ok a)
    (hv : (a = -1 ∧ n = 0) ∨ a = n) (hsel : w.cWhat = sel) {x : R Vte}
    (e : x = (w.csiRun (csiKind c.toNat) >>= fun v' => pure { v' with state := .ground }.down)) : Does v x cs [] := by
  have h0' : n = 0 → a ≤ 0 := by omega
  have h0'' : a ≤ 0 → n = 0 := by omega
  unfold editing at hc
  by_cases hh : c = 'J'
  · rw [if_pos hh] at hc
    cases hc; subst hh
    change x = (w.csiEd >>= _) at e
    unfold Vte.csiEd at e
    rw [ha, hsel] at e
    change x = ((if a ≤ 0 then _ else if a = 1 then _ else if a = 2 then _ else _) >>= _) at e
    by_cases h0 : n = 0
    · rw [if_pos (h0' h0)] at e; rw [if_pos h0]; exact does_one hw e
    rw [if_neg (fun hx => h0 (h0'' hx))] at e; rw [if_neg h0]
    by_cases h1 : n = 1
    · rw [if_pos (show a = 1 by omega)] at e; rw [if_pos h1]; exact does_one hw e
    rw [if_neg (show ¬ a = 1 by omega)] at e; rw [if_neg h1]
    by_cases h2 : n = 2
    · rw [if_pos (show a = 2 by omega)] at e; rw [if_pos h2]; exact does_one hw e
    rw [if_neg (show ¬ a = 2 by omega)] at e; rw [if_neg h2]
    refine does_none hw ?_
    rw [log_nil]
    exact e
  rw [if_neg hh] at hc; clear hh
  by_cases hh : c = 'K'
  · rw [if_pos hh] at hc
    cases hc; subst hh
    change x = (w.csiEl >>= _) at e
    unfold Vte.csiEl at e
    rw [ha, hsel] at e
    change x = ((if a ≤ 0 then _ else if a = 1 then _ else if a = 2 then _ else _) >>= _) at e
    by_cases h0 : n = 0
    · rw [if_pos (h0' h0)] at e; rw [if_pos h0]; exact does_one hw e
    rw [if_neg (fun hx => h0 (h0'' hx))] at e; rw [if_neg h0]
    by_cases h1 : n = 1
    · rw [if_pos (show a = 1 by omega)] at e; rw [if_pos h1]; exact does_one hw e
    rw [if_neg (show ¬ a = 1 by omega)] at e; rw [if_neg h1]
    by_cases h2 : n = 2
    · rw [if_pos (show a = 2 by omega)] at e; rw [if_pos h2]; exact does_one hw e
    rw [if_neg (show ¬ a = 2 by omega)] at e; rw [if_neg h2]
    refine does_none hw ?_
    rw [log_nil]
    exact e
  rw [if_neg hh] at hc; clear hh
  by_cases hh : sel = true
  · rw [if_pos hh] at hc; cases hc
  rw [if_neg hh] at hc; clear hh
  by_cases hh : c = 'A'
  · rw [if_pos hh] at hc
    cases hc; subst hh
    change x = ((w.num1 0 >>= fun n => w.scr (.moveUp n false)) >>= _) at e
    rw [hn] at e
    exact does_one hw e
  rw [if_neg hh] at hc; clear hh
  by_cases hh : c = 'B'
  · rw [if_pos hh] at hc
    cases hc; subst hh
    change x = ((w.num1 0 >>= fun n => w.scr (.moveDown n false)) >>= _) at e
    rw [hn] at e
    exact does_one hw e
  rw [if_neg hh] at hc; clear hh
  by_cases hh : c = 'C'
  · rw [if_pos hh] at hc
    cases hc; subst hh
    change x = ((w.num1 0 >>= fun n => w.scr (.moveRight n)) >>= _) at e
    rw [hn] at e
    exact does_one hw e
  rw [if_neg hh] at hc; clear hh
  by_cases hh : c = 'D'
  · rw [if_pos hh] at hc
    cases hc; subst hh
    change x = ((w.num1 0 >>= fun n => w.scr (.moveLeft n)) >>= _) at e
    rw [hn] at e
    exact does_one hw e
  rw [if_neg hh] at hc; clear hh
  by_cases hh : c = 'E'
  · rw [if_pos hh] at hc
    cases hc; subst hh
    change x = ((w.num1 0 >>= fun n => w.scr (.moveDown n false) >>= fun v => v.scr .moveLineHome) >>= _) at e
    rw [hn] at e
    exact does_two hw e
  rw [if_neg hh] at hc; clear hh
  by_cases hh : c = 'F'
  · rw [if_pos hh] at hc
    cases hc; subst hh
    change x = ((w.num1 0 >>= fun n => w.scr (.moveUp n false) >>= fun v => v.scr .moveLineHome) >>= _) at e
    rw [hn] at e
    exact does_two hw e
  rw [if_neg hh] at hc; clear hh
  by_cases hh : c = 'I'
  · rw [if_pos hh] at hc
    cases hc; subst hh
    change x = ((w.num1 0 >>= fun n => w.scr (.tabRight n)) >>= _) at e
    rw [hn] at e
    exact does_one hw e
  rw [if_neg hh] at hc; clear hh
  by_cases hh : c = 'Z'
  · rw [if_pos hh] at hc
    cases hc; subst hh
    change x = ((w.num1 0 >>= fun n => w.scr (.tabLeft n)) >>= _) at e
    rw [hn] at e
    exact does_one hw e
  rw [if_neg hh] at hc; clear hh
  by_cases hh : c = '@'
  · rw [if_pos hh] at hc
    cases hc; subst hh
    change x = ((w.num1 0 >>= fun n => w.scr (.insertChars n)) >>= _) at e
    rw [hn] at e
    exact does_one hw e
  rw [if_neg hh] at hc; clear hh
  by_cases hh : c = 'P'
  · rw [if_pos hh] at hc
    cases hc; subst hh
    change x = ((w.num1 0 >>= fun n => w.scr (.deleteChars n)) >>= _) at e
    rw [hn] at e
    exact does_one hw e
  rw [if_neg hh] at hc; clear hh
  by_cases hh : c = 'L'
  · rw [if_pos hh] at hc
    cases hc; subst hh
    change x = ((w.num1 0 >>= fun n => w.scr (.insertLines n)) >>= _) at e
    rw [hn] at e
    exact does_one hw e
  rw [if_neg hh] at hc; clear hh
  by_cases hh : c = 'M'
  · rw [if_pos hh] at hc
    cases hc; subst hh
    change x = ((w.num1 0 >>= fun n => w.scr (.deleteLines n)) >>= _) at e
    rw [hn] at e
    exact does_one hw e
  rw [if_neg hh] at hc; clear hh
  by_cases hh : c = 'S'
  · rw [if_pos hh] at hc
    cases hc; subst hh
    change x = ((w.num1 0 >>= fun n => w.scr (.scrollUp n)) >>= _) at e
    rw [hn] at e
    exact does_one hw e
  rw [if_neg hh] at hc; clear hh
  by_cases hh : c = 'T'
  · rw [if_pos hh] at hc
    cases hc; subst hh
    change x = ((w.num1 0 >>= fun n => w.scr (.scrollDown n)) >>= _) at e
    rw [hn] at e
    exact does_one hw e
  rw [if_neg hh] at hc; clear hh
  by_cases hh : c = 'X'
  · rw [if_pos hh] at hc
    cases hc; subst hh
    change x = ((w.num1 0 >>= fun n => w.scr (.eraseChars n)) >>= _) at e
    rw [hn] at e
    exact does_one hw e
  rw [if_neg hh] at hc; clear hh
  by_cases hh : c = 'g'
  · rw [if_pos hh] at hc
    cases hc; subst hh
    change x = (w.csiTbc >>= _) at e
    unfold Vte.csiTbc at e
    rw [ha] at e
    change x = ((if a ≤ 0 then _ else if a = 3 then _ else _) >>= _) at e
    by_cases h0 : n = 0
    · rw [if_pos (h0' h0)] at e; rw [if_pos h0]; exact does_one hw e
    rw [if_neg (fun hx => h0 (h0'' hx))] at e; rw [if_neg h0]
    by_cases h3 : n = 3
    · rw [if_pos (show a = 3 by omega)] at e; rw [if_pos h3]; exact does_one hw e
    rw [if_neg (show ¬ a = 3 by omega)] at e; rw [if_neg h3]
    refine does_none hw ?_
    rw [log_nil]
    exact e
  · rw [if_neg hh] at hc; cases hc

theorem editing_letter {sel : Bool} {n : Nat} {c : Char} {cs : List Screen.Call} (hc : editing sel n c = some cs) :
    0x40 ≤ c.toNat ∧ c.toNat ≤ 0x7e := by
  unfold editing at hc
  by_cases hh : c = 'J'
  · subst hh; decide
  rw [if_neg hh] at hc; clear hh
  by_cases hh : c = 'K'
  · subst hh; decide
  rw [if_neg hh] at hc; clear hh
  by_cases hh : sel = true
  · rw [if_pos hh] at hc; cases hc
  rw [if_neg hh] at hc; clear hh
  by_cases hh : c = 'A'
  · subst hh; decide
  rw [if_neg hh] at hc; clear hh
  by_cases hh : c = 'B'
  · subst hh; decide
  rw [if_neg hh] at hc; clear hh
  by_cases hh : c = 'C'
  · subst hh; decide
  rw [if_neg hh] at hc; clear hh
  by_cases hh : c = 'D'
  · subst hh; decide
  rw [if_neg hh] at hc; clear hh
  by_cases hh : c = 'E'
  · subst hh; decide
  rw [if_neg hh] at hc; clear hh
  by_cases hh : c = 'F'
  · subst hh; decide
  rw [if_neg hh] at hc; clear hh
  by_cases hh : c = 'I'
  · subst hh; decide
  rw [if_neg hh] at hc; clear hh
  by_cases hh : c = 'Z'
  · subst hh; decide
  rw [if_neg hh] at hc; clear hh
  by_cases hh : c = '@'
  · subst hh; decide
  rw [if_neg hh] at hc; clear hh
  by_cases hh : c = 'P'
  · subst hh; decide
  rw [if_neg hh] at hc; clear hh
  by_cases hh : c = 'L'
  · subst hh; decide
  rw [if_neg hh] at hc; clear hh
  by_cases hh : c = 'M'
  · subst hh; decide
  rw [if_neg hh] at hc; clear hh
  by_cases hh : c = 'S'
  · subst hh; decide
  rw [if_neg hh] at hc; clear hh
  by_cases hh : c = 'T'
  · subst hh; decide
  rw [if_neg hh] at hc; clear hh
  by_cases hh : c = 'X'
  · subst hh; decide
  rw [if_neg hh] at hc; clear hh
  by_cases hh : c = 'g'
  · subst hh; decide
  rw [if_neg hh] at hc; clear hh
  cases hc

end Vte
end Verif
