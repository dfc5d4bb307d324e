import Verif.Proofs.Vte.Ignore
import Verif.Proofs.Vte.Example

/-!
# Properties of control sequences

C41 parameters, C42 cursor position, C46 reports, C65 column and row addressing, C66 unknown
sequences.
-/

namespace Verif.Props.Vte

open Verif Verif.Vte

/-! ### C41 -/

/-- **C41.** Whatever the state of the parser, `ESC [` followed by strings of digits separated by
semicolons stores these numbers as parameters: parameter `i` is the number written by the `i`-th
string if it is at most 655359, between 65536 and 655359 if the number is larger, and absent (-1)
if the string is empty or missing. At most 16
are kept (all the theorem says about is the array of 16 entries), and the count of separators
stops at 16. Nothing else happens. -/
theorem C41_parameters {v : Vte} (h : Reachable v) (hb : Between v) {qs : List (List UInt8)} (hq : qs ≠ [])
    (hd : ∀ q ∈ qs, ∀ d ∈ q, IsDigit d) :
    ∃ v', v.input (27 :: 91 :: joined qs) = .ok v' ∧ v'.argv.length = 16 ∧ v'.argc = min 16 (qs.length - 1) ∧
      (∀ i q, i < 16 → qs[i]? = some q → q ≠ [] → number q ≤ 655359 → v'.argv[i]? = some (number q : Int)) ∧
      (∀ i q, i < 16 → qs[i]? = some q → 655359 < number q →
        ∃ a, v'.argv[i]? = some a ∧ 65536 ≤ a ∧ a ≤ 655359) ∧
      (∀ i, i < 16 → qs[i]? = some [] ∨ qs.length ≤ i → v'.argv[i]? = some (-1)) ∧
      Effect v v' v.con [] := by
  obtain ⟨m1, hm1, e1⟩ := csi_start h.ok.1.more hb.up
  obtain ⟨m2, hm2, e2⟩ := params_ok (v := v.up) qs hq hd (st := .csiEntry) (Or.inl rfl) (l := []) (fl := 0) hm1
  have e : v.up.inputLoop (27 :: 91 :: joined qs) = .ok (inSeq v.up (afterParams .csiEntry (joined qs))
      (min 16 (qs.length - 1)) (padded (qs.map value)) 0 m2) := by
    rw [e1]
    have := e2 []
    rw [List.append_nil, List.nil_append] at this
    rw [show (inSeq v.up .csiEntry 0 noArgs 0 m1) =
      inSeq v.up .csiEntry (min 16 ([] : List Int).length) (padded []) 0 m1 from rfl, this,
      show ([] : List Int).length + (qs.length - 1) = qs.length - 1 from Nat.zero_add _]
    rfl
  refine ⟨_, input_ok e, padded_length _, rfl, ?_, ?_, ?_, ?_⟩
  · intro i q hi hget h0 hn
    show (padded (qs.map value))[i]? = _
    rw [padded_getElem hi, List.getElem?_map, hget]
    rcases value_number (hd q (List.mem_of_getElem? hget)) h0 with ⟨hv, _⟩ | ⟨_, hv⟩
    · show some (value q) = _
      rw [hv]
    · omega
  · intro i q hi hget hn
    refine ⟨value q, ?_, ?_⟩
    · show (padded (qs.map value))[i]? = _
      rw [padded_getElem hi, List.getElem?_map, hget]
      rfl
    · have hq := hd q (List.mem_of_getElem? hget)
      have h0 : q ≠ [] := by intro h0; subst h0; exact absurd hn (by decide)
      rcases value_number hq h0 with ⟨_, hv⟩ | ⟨hv, _⟩
      · omega
      · exact ⟨by omega, (value_bounds hq).2⟩
  · intro i hi hget
    show (padded (qs.map value))[i]? = _
    rw [padded_getElem hi, List.getElem?_map]
    rcases hget with hget | hget
    · rw [hget]; rfl
    · rw [List.getElem?_eq_none hget]; rfl
  · unfold Effect
    rw [List.append_nil]
    rfl

/-- **C41.** After every history the parameters are within -1 and 655359, and there are 16. -/
theorem C41_bounded {v : Vte} (h : Reachable v) :
    v.argv.length = 16 ∧ v.argc ≤ 16 ∧ ∀ a ∈ v.argv, -1 ≤ a ∧ a ≤ 655359 :=
  ⟨h.ok.1.argl, h.ok.1.argc, h.ok.1.args⟩

/-- Witness: inside an unfinished sequence, `ESC [ 1 2 ; ; 0 6 5 5 3 5 9 ; 1 2 3 4 5 6 7 8`. -/
example : ∃ v, Reachable v ∧ (decide (Between v) && decide (v.state = .csiParam) && decide (v.argv[0]? = some 7) &&
    gives (v.input (27 :: 91 :: joined [[49, 50], [], [48, 54, 53, 53, 51, 53, 57], [49, 50, 51, 52, 53, 54, 55, 56]]))
      (fun v' => decide (v'.argc = 3) && decide (v'.argv.take 5 = [12, -1, 655359, 123456, -1]))) = true :=
  exists_of_vholds (cs := [.resize 5 3]) (sg := true) (vs := [.input [27, 91, 55]]) (by decide +kernel)

/-! ### C42 -/

/-- Where the cursor is after addressing row `r` and column `c`, both counted from 1: clamped to
the screen, in origin mode relative to the top margin and clamped to the bottom margin. -/
def addressed (w : View) (r c : Nat) : View :=
  { w with
    cursorX := min (c - 1) (w.sizeX - 1)
    cursorY := if w.flags.getLsbD 2 then min (w.marginTop + (r - 1)) w.marginBottom
      else min (r - 1) (w.sizeY - 1) }

/-- The claim for every state, including the middle of a UTF-8 character. -/
def C42_claim : Prop :=
  ∀ (v : Vte), Reachable v → ∀ (r c : List UInt8), (∀ d ∈ r, IsDigit d) → (∀ d ∈ c, IsDigit d) →
    number r ≤ 655359 → number c ≤ 655359 →
    ∃ v', v.input (27 :: 91 :: (r ++ 59 :: (c ++ [72]))) = .ok v' ∧
      v'.con.view = addressed v.con.view (number r) (number c)

/-- **C42 is false** in the middle of a UTF-8 character: the ESC is swallowed, and the rest of
the sequence is printed. -/
theorem C42_false : ¬ C42_claim := by
  have : ∃ v, Reachable v ∧ (decide (v.con.sizeX = 9) && decide (v.con.sizeY = 3) && decide (v.con.cursorY = 0) &&
      decide (v.con.flags.getLsbD 2 = false) &&
      gives (v.input [27, 91, 50, 59, 50, 72]) (fun v' => decide (v'.con.cursorY = 0))) = true :=
    exists_of_vholds (cs := [.resize 9 3]) (sg := true) (vs := [.input [0xc3]]) (by decide +kernel)
  obtain ⟨v, hv, hf⟩ := this
  simp only [Bool.and_eq_true, decide_eq_true_eq] at hf
  obtain ⟨⟨⟨⟨h1, h2⟩, h3⟩, h4⟩, h5⟩ := hf
  obtain ⟨v1, e1, h6⟩ := of_gives h5
  intro hc
  obtain ⟨v2, e2, h7⟩ := hc v hv [50] [50] (by intro d hd; rw [List.mem_singleton] at hd; subst hd; unfold IsDigit; decide)
    (by intro d hd; rw [List.mem_singleton] at hd; subst hd; unfold IsDigit; decide) (by decide) (by decide)
  change v.input [27, 91, 50, 59, 50, 72] = _ at e2
  rw [e1] at e2
  injection e2 with e2
  subst e2
  have h8 : v1.con.cursorY = (if v.con.flags.getLsbD 2 = true then _ else min (number [50] - 1) (v.con.sizeY - 1)) :=
    congrArg View.cursorY h7
  rw [h4, of_decide_eq_true h6, h2, if_neg (by decide)] at h8
  exact absurd h8 (by decide)

/-- **C42** (`_partial`: between characters). `ESC [ r ; c H` puts the cursor into row `r` and
column `c`, and changes nothing else: no cell, no mode, no reply. It holds in every parser state,
for numbers within the parameter limit, and for all numbers if the screen has at most 65536 rows
and columns. Empty strings count as 1, as does 0. -/
theorem C42_cursor_position_partial {v : Vte} (h : Reachable v) (hb : Between v) {r c : List UInt8}
    (hr : ∀ d ∈ r, IsDigit d) (hc : ∀ d ∈ c, IsDigit d)
    (lr : number r ≤ 655359 ∨ v.con.sizeY ≤ 65536) (lc : number c ≤ 655359 ∨ v.con.sizeX ≤ 65536)
    {b : UInt8} (hf : b = 72 ∨ b = 102) :
    ∃ v' s, v.input (27 :: 91 :: (r ++ 59 :: (c ++ [b]))) = .ok v' ∧ v'.state = .ground ∧ Effect v v' s [] ∧
      s.view = addressed v.con.view (number r) (number c) := by
  have hk : csiKind b.toNat = .cup := by rcases hf with hf | hf <;> subst hf <;> rfl
  have hb1 : 0x40 ≤ b.toNat := by rcases hf with hf | hf <;> subst hf <;> decide
  have hb2 : b.toNat ≤ 0x7e := by rcases hf with hf | hf <;> subst hf <;> decide
  obtain ⟨m, st, hm, e⟩ := input_csi h.ok.1 hb (qs := [r, c]) (List.cons_ne_nil _ _)
    (by
      intro q hq
      rcases List.mem_cons.1 hq with hq | hq
      · subst hq; exact hr
      · rw [List.mem_singleton] at hq; subst hq; exact hc) hb1 hb2
  rw [hk] at e
  have ej : joined [r, c] ++ [b] = r ++ 59 :: (c ++ [b]) := by
    show (r ++ 59 :: c) ++ [b] = _
    rw [List.append_assoc, List.cons_append]
  rw [ej] at e
  have n0 := num1_inSeq (v := v.up) (st := st) (n := min 16 2) (l := [value r, value c]) (fl := 0) (m := m) (i := 0) (by omega)
  have n1 := num1_inSeq (v := v.up) (st := st) (n := min 16 2) (l := [value r, value c]) (fl := 0) (m := m) (i := 1) (by omega)
  change Vte.num1 _ 0 = .ok (count (value r)) at n0
  change Vte.num1 _ 1 = .ok (count (value c)) at n1
  have bnd := value_bounds hr
  have hcy : count (value r) - 1 < 2 ^ 31 := by
    unfold count
    split <;> omega
  obtain ⟨s, es, vs⟩ := moveTo_view h.ok.1.con (count (value c) - 1) (count (value r) - 1) hcy
  have e' : v.input (27 :: 91 :: (r ++ 59 :: (c ++ [b]))) =
      ((inSeq v.up st (min 16 2) (padded [value r, value c]) 0 m).scr (.moveTo (count (value c) - 1) (count (value r) - 1))
        >>= fun v' => pure { v' with state := .ground }.down) := by
    rw [e]
    show (((inSeq v.up st (min 16 2) (padded [value r, value c]) 0 m).csiRun .cup) >>= _) = _
    simp only [Vte.csiRun, n0, n1, bind, Except.bind]
  obtain ⟨v', e2, g, ef⟩ := effect_scr e' es
  refine ⟨v', s, e2, g, ef, ?_⟩
  rw [vs]
  unfold addressed
  have hx := count_number hc lc
  have hg := h.ok.1.con.geo
  have g1 := hg.mtb
  have g2 := hg.mby
  have hy : (if v.con.flags.getLsbD 2 = true then min (v.con.marginTop + (count (value r) - 1)) v.con.marginBottom
        else min (count (value r) - 1) (v.con.sizeY - 1)) =
      (if v.con.flags.getLsbD 2 = true then min (v.con.marginTop + (number r - 1)) v.con.marginBottom
        else min (number r - 1) (v.con.sizeY - 1)) := by
    have := count_number hr lr
    split <;> omega
  rw [hx, hy]
  rfl

/-- Witness: from inside an OSC string, in origin mode with margins 2 and 3; row 9 is clamped to
the margin, column 4 is taken as it is. -/
example : ∃ v, Reachable v ∧ (decide (Between v) && decide (v.state = .oscString) && v.con.flags.getLsbD 2 &&
    gives (v.input [27, 91, 57, 59, 52, 72])
      (fun v' => decide (v'.con.cursorX = 3) && decide (v'.con.cursorY = 2))) = true :=
  exists_of_vholds (cs := [.resize 5 5]) (sg := true)
    (vs := [.input [27, 91, 50, 59, 51, 114, 27, 91, 63, 54, 104, 27, 93, 48]]) (by decide +kernel)

/-! ### C46 -/

/-- **C46.** `CSI 5 n` is answered with `ESC [ 0 n`, and nothing else happens. -/
theorem C46_status {v : Vte} (h : Reachable v) (hb : Between v) :
    ∃ v', v.input [27, 91, 53, 110] = .ok v' ∧ v'.state = .ground ∧ Effect v v' v.con [.write [27, 91, 48, 110]] := by
  obtain ⟨m, st, hm, e⟩ := input_csi h.ok.1 hb (qs := [[53]]) (List.cons_ne_nil _ _)
    (by intro q hq d hd; rw [List.mem_singleton] at hq; subst hq; rw [List.mem_singleton] at hd; subst hd
        unfold IsDigit; decide) (b := 110) (by decide) (by decide)
  have ha := arg_inSeq (v := v.up) (st := st) (n := min 16 1) (l := [value [53]]) (fl := 0) (m := m) (i := 0) (by omega)
  have hr := reply_ok (v := inSeq v.up st (min 16 1) (padded [value [53]]) 0 m) (up_pos v) h.all.2.2 [27, 91, 48, 110]
  have e' : v.input [27, 91, 53, 110] = ((inSeq v.up st (min 16 1) (padded [value [53]]) 0 m).reply [27, 91, 48, 110]
      >>= fun v' => pure { v' with state := .ground }.down) := by
    refine e.trans ?_
    show (((inSeq v.up st (min 16 1) (padded [value [53]]) 0 m).dsr) >>= _) = _
    unfold Vte.dsr
    rw [ha]
    rfl
  rw [hr] at e'
  exact ⟨_, e', rfl, rfl⟩

/-- The report of the position, with the digits of the model. -/
theorem report_dec {v : Vte} (h : Reachable v) (hb : Between v) :
    ∃ v', v.input [27, 91, 54, 110] = .ok v' ∧ v'.state = .ground ∧
      Effect v v' v.con [.write ([27, 91] ++ dec (v.con.cursorY + 1) ++ [59] ++ dec (v.con.cursorX + 1) ++ [82])] ∧
      v.con.cursorY + 1 < 2 ^ 32 ∧ v.con.cursorX + 1 < 2 ^ 32 := by
  obtain ⟨m, st, hm, e⟩ := input_csi h.ok.1 hb (qs := [[54]]) (List.cons_ne_nil _ _)
    (by intro q hq d hd; rw [List.mem_singleton] at hq; subst hq; rw [List.mem_singleton] at hd; subst hd
        unfold IsDigit; decide) (b := 110) (by decide) (by decide)
  have ha := arg_inSeq (v := v.up) (st := st) (n := min 16 1) (l := [value [54]]) (fl := 0) (m := m) (i := 0) (by omega)
  have hr := reply_ok (v := inSeq v.up st (min 16 1) (padded [value [54]]) 0 m) (up_pos v) h.all.2.2 (cpr v.con)
  have hg := h.ok.1.con.geo
  have hcur := h.ok.1.con.cur
  have gx := hg.xb
  have gy := hg.yb
  have cx := hcur.cx
  have cy := hcur.cy
  have uy : u32 (v.con.cursorY + 1) = v.con.cursorY + 1 := Nat.mod_eq_of_lt (by omega)
  have ux : u32 (v.con.cursorX + 1) = v.con.cursorX + 1 := Nat.mod_eq_of_lt (by omega)
  obtain ⟨r1, r2, r3, r4, r5⟩ := dec_spec (n := v.con.cursorY + 1) (by omega)
  obtain ⟨c1, c2, c3, c4, c5⟩ := dec_spec (n := v.con.cursorX + 1) (by omega)
  have ecpr : cpr v.con = [27, 91] ++ dec (v.con.cursorY + 1) ++ [59] ++ dec (v.con.cursorX + 1) ++ [82] := by
    unfold cpr
    rw [uy, ux]
  have hlen : ¬ 64 ≤ (cpr v.con).length := by
    rw [ecpr]
    simp only [List.length_append, List.length_cons, List.length_nil]
    omega
  have e' : v.input [27, 91, 54, 110] = ((inSeq v.up st (min 16 1) (padded [value [54]]) 0 m).reply (cpr v.con)
      >>= fun v' => pure { v' with state := .ground }.down) := by
    refine e.trans ?_
    show (((inSeq v.up st (min 16 1) (padded [value [54]]) 0 m).dsr) >>= _) = _
    unfold Vte.dsr
    rw [ha]
    show ((if 64 ≤ (cpr v.con).length then _ else _) >>= _) = _
    rw [if_neg hlen]
    rfl
  rw [hr] at e'
  refine ⟨_, e', rfl, ?_, by omega, by omega⟩
  rw [← ecpr]
  rfl

/-- **C46.** `CSI 6 n` is answered with `ESC [ row ; column R`, where row and column are the
position of the cursor counted from 1, in decimal without leading zeros, and nothing else
happens. -/
theorem C46_report {v : Vte} (h : Reachable v) (hb : Between v) :
    ∃ v' r c, v.input [27, 91, 54, 110] = .ok v' ∧ v'.state = .ground ∧
      Effect v v' v.con [.write ([27, 91] ++ r ++ [59] ++ c ++ [82])] ∧
      (∀ d ∈ r, IsDigit d) ∧ (∀ d ∈ c, IsDigit d) ∧ r.head? ≠ some 48 ∧ c.head? ≠ some 48 ∧
      number r = v.con.cursorY + 1 ∧ number c = v.con.cursorX + 1 := by
  obtain ⟨v', e, hg, he, hy, hx⟩ := report_dec h hb
  obtain ⟨r1, r2, r3, r4, r5⟩ := dec_spec hy
  obtain ⟨c1, c2, c3, c4, c5⟩ := dec_spec hx
  exact ⟨v', _, _, e, hg, he, r2, c2, r5 (by omega), c5 (by omega), r1, c1⟩

/-- The second claim: sending the reported position back leaves the cursor where it was. -/
def C46_return_claim : Prop :=
  ∀ (v : Vte), Reachable v → Between v → ∀ (r c : List UInt8), (∀ d ∈ r, IsDigit d) → (∀ d ∈ c, IsDigit d) →
    number r = v.con.cursorY + 1 → number c = v.con.cursorX + 1 →
    ∃ v', v.input (27 :: 91 :: (r ++ 59 :: (c ++ [72]))) = .ok v' ∧
      v'.con.cursorX = v.con.cursorX ∧ v'.con.cursorY = v.con.cursorY

theorem not_return {r c : UInt8} (hr : IsDigit r) (hc : IsDigit c) (h : ∃ v, Reachable v ∧ (decide (Between v) &&
    decide (number [r] = v.con.cursorY + 1) && decide (number [c] = v.con.cursorX + 1) &&
    gives (v.input [27, 91, r, 59, c, 72])
      (fun v' => !(decide (v'.con.cursorX = v.con.cursorX) && decide (v'.con.cursorY = v.con.cursorY)))) = true) :
    ¬ C46_return_claim := by
  obtain ⟨v, hv, hf⟩ := h
  simp only [Bool.and_eq_true, decide_eq_true_eq] at hf
  obtain ⟨⟨⟨h1, h2⟩, h3⟩, h4⟩ := hf
  obtain ⟨v1, e1, h5⟩ := of_gives h4
  intro hcl
  obtain ⟨v2, e2, h6, h7⟩ := hcl v hv h1 [r] [c]
    (by intro d hd; rw [List.mem_singleton] at hd; subst hd; exact hr)
    (by intro d hd; rw [List.mem_singleton] at hd; subst hd; exact hc) h2 h3
  change v.input [27, 91, r, 59, c, 72] = _ at e2
  rw [e1] at e2
  injection e2 with e2
  subst e2
  simp [h6, h7] at h5

/-- **The second claim is false** after the last column has been written: the reported column is
then one beyond the screen (6 of 5), and sending it back ends the pending wrap. -/
theorem C46_return_false : ¬ C46_return_claim :=
  not_return (r := 49) (c := 54) (by unfold IsDigit; decide) (by unfold IsDigit; decide)
    (exists_of_vholds (cs := [.resize 5 3]) (sg := true) (vs := [.input [65, 66, 67, 68, 69]]) (by decide +kernel))

/-- **The second claim is false** in origin mode: the report is not relative to the margin, but
the sequence is. -/
theorem C46_return_false_origin : ¬ C46_return_claim :=
  not_return (r := 50) (c := 49) (by unfold IsDigit; decide) (by unfold IsDigit; decide)
    (exists_of_vholds (cs := [.resize 5 5]) (sg := true)
      (vs := [.input [27, 91, 50, 59, 52, 114, 27, 91, 63, 54, 104, 27, 91, 72]]) (by decide +kernel))

/-- **C46** (`_partial`: the cursor must be on the screen, origin mode off, and the position
within the limit of parameters). Sending the reported position back changes nothing. -/
theorem C46_return_partial {v : Vte} (h : Reachable v) (hb : Between v) {r c : List UInt8}
    (hr : ∀ d ∈ r, IsDigit d) (hc : ∀ d ∈ c, IsDigit d)
    (er : number r = v.con.cursorY + 1) (ec : number c = v.con.cursorX + 1)
    (lr : v.con.cursorY < 655359) (lc : v.con.cursorX < 655359)
    (hx : v.con.cursorX < v.con.sizeX) (ho : v.con.flags.getLsbD 2 = false) :
    ∃ v' s, v.input (27 :: 91 :: (r ++ 59 :: (c ++ [72]))) = .ok v' ∧ Effect v v' s [] ∧ s.view = v.con.view := by
  obtain ⟨v', s, e, _, ef, hv⟩ := C42_cursor_position_partial h hb hr hc (Or.inl (by omega)) (Or.inl (by omega)) (Or.inl rfl)
  refine ⟨v', s, e, ef, ?_⟩
  rw [hv]
  unfold addressed
  have cy := h.ok.1.con.cur.cy
  rw [er, ec, if_neg (by change ¬ (v.con.flags.getLsbD 2 = true); rw [ho]; decide)]
  have h1 : min (v.con.cursorX + 1 - 1) (v.con.view.sizeX - 1) = v.con.cursorX := by
    change min (v.con.cursorX + 1 - 1) (v.con.sizeX - 1) = _
    omega
  have h2 : min (v.con.cursorY + 1 - 1) (v.con.view.sizeY - 1) = v.con.cursorY := by
    change min (v.con.cursorY + 1 - 1) (v.con.sizeY - 1) = _
    omega
  rw [h1, h2]
  rfl

/-- Witness: the cursor in row 12 and column 34. -/
example : ∃ v, Reachable v ∧ (decide (Between v) && decide (v.con.cursorY = 11) && decide (v.con.cursorX = 33) &&
    decide (v.con.cursorX < v.con.sizeX) && !v.con.flags.getLsbD 2 &&
    gives (v.input [27, 91, 54, 110]) (fun v' => decide (v'.log = [.write [27, 91, 49, 50, 59, 51, 52, 82]]))) = true :=
  exists_of_vholds (cs := []) (sg := true) (vs := [.screen (.moveTo 33 11)]) (by decide +kernel)

/-! ### C65 -/

/-- The claim: `CSI n G` changes the column only, and `CSI n d` the row only. -/
def C65_claim : Prop :=
  ∀ (v : Vte), Reachable v → Between v → ∀ (n : List UInt8), (∀ d ∈ n, IsDigit d) →
    (∀ v', v.input (27 :: 91 :: (n ++ [71])) = .ok v' → v'.con.cursorY = v.con.cursorY) ∧
    (∀ v', v.input (27 :: 91 :: (n ++ [100])) = .ok v' → v'.con.cursorX = v.con.cursorX)

/-- **C65 is false**: in origin mode `CSI 1 G` moves the cursor down by the size of the top
margin. -/
theorem C65_false : ¬ C65_claim := by
  have : ∃ v, Reachable v ∧ (decide (Between v) && decide (v.con.cursorY = 1) &&
      gives (v.input [27, 91, 49, 71]) (fun v' => decide (v'.con.cursorY = 2))) = true :=
    exists_of_vholds (cs := [.resize 5 5]) (sg := true)
      (vs := [.input [27, 91, 50, 59, 52, 114, 27, 91, 63, 54, 104, 27, 91, 72]]) (by decide +kernel)
  obtain ⟨v, hv, hf⟩ := this
  simp only [Bool.and_eq_true, decide_eq_true_eq] at hf
  obtain ⟨⟨h1, h2⟩, h3⟩ := hf
  obtain ⟨v1, e1, h4⟩ := of_gives h3
  intro hc
  have := (hc v hv h1 [49] (by intro d hd; rw [List.mem_singleton] at hd; subst hd; unfold IsDigit; decide)).1 v1 e1
  rw [of_decide_eq_true h4, h2] at this
  cases this

/-- **C65 is false**, second witness: after the last column has been written, `CSI 2 d` moves the
cursor back from the pending wrap position. -/
theorem C65_false_wrap : ¬ C65_claim := by
  have : ∃ v, Reachable v ∧ (decide (Between v) && decide (v.con.cursorX = 5) &&
      gives (v.input [27, 91, 50, 100]) (fun v' => decide (v'.con.cursorX = 4))) = true :=
    exists_of_vholds (cs := [.resize 5 5]) (sg := true) (vs := [.input [65, 66, 67, 68, 69]]) (by decide +kernel)
  obtain ⟨v, hv, hf⟩ := this
  simp only [Bool.and_eq_true, decide_eq_true_eq] at hf
  obtain ⟨⟨h1, h2⟩, h3⟩ := hf
  obtain ⟨v1, e1, h4⟩ := of_gives h3
  intro hc
  have := (hc v hv h1 [50] (by intro d hd; rw [List.mem_singleton] at hd; subst hd; unfold IsDigit; decide)).2 v1 e1
  rw [of_decide_eq_true h4, h2] at this
  cases this

/-- **C65, column**: what `CSI n G` does in any mode. It sets the column to `n`, clamped to the screen; in origin
mode the row moves down by the top margin, but not beyond the bottom margin. -/
theorem C65_column_effect {v : Vte} (h : Reachable v) (hb : Between v)
    {n : List UInt8} (hn : ∀ d ∈ n, IsDigit d) (ln : number n ≤ 655359 ∨ v.con.sizeX ≤ 65536) :
    ∃ v' s, v.input (27 :: 91 :: (n ++ [71])) = .ok v' ∧ v'.state = .ground ∧ Effect v v' s [] ∧
      s.view = { v.con.view with
        cursorX := min (number n - 1) (v.con.sizeX - 1)
        cursorY := if v.con.flags.getLsbD 2 then min (v.con.marginTop + v.con.cursorY) v.con.marginBottom
          else v.con.cursorY } := by
  obtain ⟨m, st, hm, e⟩ := input_csi h.ok.1 hb (qs := [n]) (List.cons_ne_nil _ _)
    (by intro q hq; rw [List.mem_singleton] at hq; subst hq; exact hn) (b := 71) (by decide) (by decide)
  have n0 := num1_inSeq (v := v.up) (st := st) (n := min 16 1) (l := [value n]) (fl := 0) (m := m) (i := 0) (by omega)
  change Vte.num1 _ 0 = .ok (count (value n)) at n0
  have cy := h.ok.1.con.cur.cy
  have gy := h.ok.1.con.geo.yb
  obtain ⟨s, es, vs⟩ := moveTo_view h.ok.1.con (count (value n) - 1) v.con.cursorY (by omega)
  have e' : v.input (27 :: 91 :: (n ++ [71])) =
      ((inSeq v.up st (min 16 1) (padded [value n]) 0 m).scr (.moveTo (count (value n) - 1) v.con.cursorY)
        >>= fun v' => pure { v' with state := .ground }.down) := by
    refine e.trans ?_
    show (((inSeq v.up st (min 16 1) (padded [value n]) 0 m).csiRun .cha) >>= _) = _
    simp only [Vte.csiRun, n0, bind, Except.bind]
    rfl
  obtain ⟨v', e2, g, ef⟩ := effect_scr e' es
  refine ⟨v', s, e2, g, ef, ?_⟩
  rw [vs, count_number hn ln, show min v.con.cursorY (v.con.sizeY - 1) = v.con.cursorY by omega]

/-- **C65, column** (`_partial`: origin mode must be off). `CSI n G` sets the column to `n`,
clamped to the screen, and changes nothing else. -/
theorem C65_column_partial {v : Vte} (h : Reachable v) (hb : Between v) (ho : v.con.flags.getLsbD 2 = false)
    {n : List UInt8} (hn : ∀ d ∈ n, IsDigit d) (ln : number n ≤ 655359 ∨ v.con.sizeX ≤ 65536) :
    ∃ v' s, v.input (27 :: 91 :: (n ++ [71])) = .ok v' ∧ v'.state = .ground ∧ Effect v v' s [] ∧
      s.view = { v.con.view with cursorX := min (number n - 1) (v.con.sizeX - 1) } := by
  obtain ⟨v', s, e, g, ef, hv⟩ := C65_column_effect h hb hn ln
  rw [ho] at hv
  exact ⟨v', s, e, g, ef, hv⟩

/-- **C65, row**: what `CSI n d` does. It sets the row, in origin mode relative to the top margin; the column stays,
except that a pending wrap is lost. -/
theorem C65_row_effect {v : Vte} (h : Reachable v) (hb : Between v)
    {n : List UInt8} (hn : ∀ d ∈ n, IsDigit d) (ln : number n ≤ 655359 ∨ v.con.sizeY ≤ 65536) :
    ∃ v' s, v.input (27 :: 91 :: (n ++ [100])) = .ok v' ∧ v'.state = .ground ∧ Effect v v' s [] ∧
      s.view = { v.con.view with
        cursorX := min v.con.cursorX (v.con.sizeX - 1)
        cursorY := if v.con.flags.getLsbD 2 then min (v.con.marginTop + (number n - 1)) v.con.marginBottom
          else min (number n - 1) (v.con.sizeY - 1) } := by
  obtain ⟨m, st, hm, e⟩ := input_csi h.ok.1 hb (qs := [n]) (List.cons_ne_nil _ _)
    (by intro q hq; rw [List.mem_singleton] at hq; subst hq; exact hn) (b := 100) (by decide) (by decide)
  have n0 := num1_inSeq (v := v.up) (st := st) (n := min 16 1) (l := [value n]) (fl := 0) (m := m) (i := 0) (by omega)
  change Vte.num1 _ 0 = .ok (count (value n)) at n0
  have bnd := value_bounds hn
  have hcy : count (value n) - 1 < 2 ^ 31 := by
    unfold count
    split <;> omega
  obtain ⟨s, es, vs⟩ := moveTo_view h.ok.1.con v.con.cursorX (count (value n) - 1) hcy
  have e' : v.input (27 :: 91 :: (n ++ [100])) =
      ((inSeq v.up st (min 16 1) (padded [value n]) 0 m).scr (.moveTo v.con.cursorX (count (value n) - 1))
        >>= fun v' => pure { v' with state := .ground }.down) := by
    refine e.trans ?_
    show (((inSeq v.up st (min 16 1) (padded [value n]) 0 m).csiRun .vpa) >>= _) = _
    simp only [Vte.csiRun, n0, bind, Except.bind]
    rfl
  obtain ⟨v', e2, g, ef⟩ := effect_scr e' es
  refine ⟨v', s, e2, g, ef, ?_⟩
  have g1 := h.ok.1.con.geo.mtb
  have g2 := h.ok.1.con.geo.mby
  have hy : (if v.con.flags.getLsbD 2 = true then min (v.con.marginTop + (count (value n) - 1)) v.con.marginBottom
        else min (count (value n) - 1) (v.con.sizeY - 1)) =
      (if v.con.flags.getLsbD 2 = true then min (v.con.marginTop + (number n - 1)) v.con.marginBottom
        else min (number n - 1) (v.con.sizeY - 1)) := by
    have := count_number hn ln
    split <;> omega
  rw [vs, hy]

/-- **C65, row** (`_partial`: the cursor must be on the screen). `CSI n d` sets the row, in origin
mode relative to the top margin, and changes nothing else. -/
theorem C65_row_partial {v : Vte} (h : Reachable v) (hb : Between v) (hx : v.con.cursorX < v.con.sizeX)
    {n : List UInt8} (hn : ∀ d ∈ n, IsDigit d) (ln : number n ≤ 655359 ∨ v.con.sizeY ≤ 65536) :
    ∃ v' s, v.input (27 :: 91 :: (n ++ [100])) = .ok v' ∧ v'.state = .ground ∧ Effect v v' s [] ∧
      s.view = { v.con.view with
        cursorY := if v.con.flags.getLsbD 2 then min (v.con.marginTop + (number n - 1)) v.con.marginBottom
          else min (number n - 1) (v.con.sizeY - 1) } := by
  obtain ⟨v', s, e, g, ef, hv⟩ := C65_row_effect h hb hn ln
  rw [show min v.con.cursorX (v.con.sizeX - 1) = v.con.cursorX by omega] at hv
  exact ⟨v', s, e, g, ef, hv⟩

/-- Witness: `CSI 2 G` in origin mode with margins 2 to 4, in the third row: the fourth row; and `CSI 2 d` after the
last column has been written. -/
example : ∃ v, Reachable v ∧ (decide (Between v) && decide (v.con.cursorY = 2) && v.con.flags.getLsbD 2 && decide (v.con.cursorX = 5) &&
    gives (v.input [27, 91, 50, 71]) (fun v' => decide (v'.con.cursorX = 1) && decide (v'.con.cursorY = 3)) &&
    gives (v.input [27, 91, 49, 100]) (fun v' => decide (v'.con.cursorX = 4) && decide (v'.con.cursorY = 1))) = true :=
  exists_of_vholds (cs := [.resize 5 5]) (sg := true)
    (vs := [.input [27, 91, 50, 59, 52, 114, 27, 91, 63, 54, 104, 27, 91, 50, 59, 53, 72, 65]]) (by decide +kernel)

/-- Witness: the cursor in the middle, with margins, in origin mode for the row. -/
example : ∃ v, Reachable v ∧ (decide (Between v) && decide (v.con.cursorX = 2) && v.con.flags.getLsbD 2 &&
    gives (v.input [27, 91, 50, 100]) (fun v' => decide (v'.con.cursorX = 2) && decide (v'.con.cursorY = 2))) = true :=
  exists_of_vholds (cs := [.resize 5 5]) (sg := true)
    (vs := [.input [27, 91, 50, 59, 52, 114, 27, 91, 63, 54, 104, 27, 91, 49, 59, 51, 72]]) (by decide +kernel)

example : ∃ v, Reachable v ∧ (decide (Between v) && decide (v.con.cursorY = 2) && !v.con.flags.getLsbD 2 &&
    gives (v.input [27, 91, 57, 57, 71]) (fun v' => decide (v'.con.cursorX = 4) && decide (v'.con.cursorY = 2))) = true :=
  exists_of_vholds (cs := [.resize 5 5]) (sg := true) (vs := [.input [27, 91, 51, 59, 51, 72]]) (by decide +kernel)

/-! ### C66 -/

/-- The final characters of the control sequences that are implemented:
`@ A B C D E F G H I J K L M P S T X Z c d e f g h l m n p r`. -/
def finals : List UInt8 :=
  [0x40, 0x41, 0x42, 0x43, 0x44, 0x45, 0x46, 0x47, 0x48, 0x49, 0x4a, 0x4b, 0x4c, 0x4d, 0x50, 0x53, 0x54, 0x58, 0x5a,
   0x63, 0x64, 0x65, 0x66, 0x67, 0x68, 0x6c, 0x6d, 0x6e, 0x70, 0x72]

/-- The final characters of the escape sequences that are implemented:
`D E H M N O Z ~ n } o | = > c 7 8`. -/
def escFinals : List UInt8 :=
  [0x44, 0x45, 0x48, 0x4d, 0x4e, 0x4f, 0x5a, 0x7e, 0x6e, 0x7d, 0x6f, 0x7c, 0x3d, 0x3e, 0x63, 0x37, 0x38]

/-- The ANSI modes that are implemented. -/
def ansiModes : List Nat := [2, 4, 12, 20]

/-- The DEC private modes that are implemented. -/
def decModes : List Nat := [1, 5, 6, 7, 8, 9, 25, 42, 47, 1002, 1003, 1006, 1016, 1047, 1048, 1049]

/-- The claim for sequences with intermediate characters: no control sequence with a space
before the final character is implemented, hence none should do anything (`CSI SP A`, for
example, would scroll to the right). Likewise for escape sequences with `#`. -/
def C66_claim : Prop :=
  ∀ (v : Vte), Reachable v → Between v → ∀ (b : UInt8) (v' : Vte),
    (0x40 ≤ b.toNat → b.toNat ≤ 0x7e → v.input [27, 91, 32, b] = .ok v' → v'.con.view = v.con.view) ∧
    (0x30 ≤ b.toNat → b.toNat ≤ 0x7e → v.input [27, 35, b] = .ok v' → v'.con.view = v.con.view)

/-- **C66 is false** for intermediate characters: `CSI SP A` moves the cursor up like `CSI A`. -/
theorem C66_false : ¬ C66_claim := by
  have : ∃ v, Reachable v ∧ (decide (Between v) && decide (v.con.cursorY = 1) &&
      gives (v.input [27, 91, 32, 65]) (fun v' => decide (v'.con.cursorY = 0))) = true :=
    exists_of_vholds (cs := [.resize 5 5]) (sg := true) (vs := [.input [10]]) (by decide +kernel)
  obtain ⟨v, hv, hf⟩ := this
  simp only [Bool.and_eq_true, decide_eq_true_eq] at hf
  obtain ⟨⟨h1, h2⟩, h3⟩ := hf
  obtain ⟨v1, e1, h4⟩ := of_gives h3
  intro hc
  have : v1.con.cursorY = v.con.cursorY := congrArg View.cursorY ((hc v hv h1 65 v1).1 (by decide) (by decide) e1)
  rw [of_decide_eq_true h4, h2] at this
  cases this

/-- **C66 is false** for escape sequences: `ESC # 8` (screen alignment test) is taken for
`ESC 8` and restores the cursor. -/
theorem C66_false_escape : ¬ C66_claim := by
  have : ∃ v, Reachable v ∧ (decide (Between v) && decide (v.con.cursorY = 1) &&
      gives (v.input [27, 35, 56]) (fun v' => decide (v'.con.cursorY = 0))) = true :=
    exists_of_vholds (cs := [.resize 5 5]) (sg := true) (vs := [.input [10]]) (by decide +kernel)
  obtain ⟨v, hv, hf⟩ := this
  simp only [Bool.and_eq_true, decide_eq_true_eq] at hf
  obtain ⟨⟨h1, h2⟩, h3⟩ := hf
  obtain ⟨v1, e1, h4⟩ := of_gives h3
  intro hc
  have : v1.con.cursorY = v.con.cursorY := congrArg View.cursorY ((hc v hv h1 56 v1).2 (by decide) (by decide) e1)
  rw [of_decide_eq_true h4, h2] at this
  cases this

theorem unknown_kind : ∀ b : Fin 256, UInt8.ofNat b.val ∉ finals → csiKind b.val = .unknown := by decide +kernel

/-- **C66, control sequences** (`_partial`: identified by the final character). A control sequence
with any parameter and intermediate characters and a final character that is not implemented has
no effect at all: same screen, modes, attributes, no reply. -/
theorem C66_csi_partial {v : Vte} (h : Reachable v) (hb : Between v) {s : List UInt8}
    (hs : ∀ b ∈ s, 0x20 ≤ b.toNat ∧ b.toNat ≤ 0x3f) {b : UInt8} (h1 : 0x40 ≤ b.toNat) (h2 : b.toNat ≤ 0x7e)
    (hf : b ∉ finals) :
    ∃ v', v.input (27 :: 91 :: (s ++ [b])) = .ok v' ∧ v'.state = .ground ∧ Effect v v' v.con [] := by
  have hk : csiKind b.toNat = .unknown := by
    have := unknown_kind ⟨b.toNat, by omega⟩
    rw [UInt8.ofNat_toNat] at this
    exact this hf
  obtain ⟨m1, hm1, e1⟩ := csi_start h.ok.1.more hb.up
  obtain ⟨st2, n2, l2, fl2, m2, k1, k2, k3, e2⟩ := csi_bytes (v := v.up) s hs (st := .csiEntry) (Or.inl rfl) (n := 0)
    (l := noArgs) rfl (fl := 0) hm1
  obtain ⟨n3, m3, hm3, e3⟩ := csi_unknown (v := v.up) k1 (n := n2) (l := l2) (fl := fl2) k3 h1 h2 hk
  have e : v.up.inputLoop (27 :: 91 :: (s ++ [b])) = .ok (inSeq v.up .ground n3 l2 fl2 m3) := by
    rw [e1, e2, inputLoop_one, e3]
  refine ⟨_, input_ok e, rfl, ?_⟩
  unfold Effect
  rw [List.append_nil]
  rfl

theorem unknown_esc (v : Vte) : ∀ b : Fin 256, UInt8.ofNat b.val ∉ escFinals → v.escPlain b.val = .ok v := by
  intro b hb
  unfold Vte.escPlain
  split <;> first | (rename_i e; exfalso; rw [e] at hb; exact hb (by decide)) | rfl

/-- **C66, escape sequences** (`_partial`: without intermediate characters). `ESC` and a final
character that is not implemented has no effect. -/
theorem C66_esc_partial {v : Vte} (h : Reachable v) (hb : Between v) {b : UInt8} (h1 : 0x30 ≤ b.toNat)
    (h2 : b.toNat ≤ 0x7e) (hi : ¬ Introducer b) (hf : b ∉ escFinals) :
    ∃ v', v.input [27, b] = .ok v' ∧ v'.state = .ground ∧ Effect v v' v.con [] := by
  obtain ⟨m, hm, e⟩ := input_esc h.ok.1 hb h1 h2 hi
  have := unknown_esc (inSeq v.up .esc 0 noArgs 0 m) ⟨b.toNat, by omega⟩ (by rw [UInt8.ofNat_toNat]; exact hf)
  rw [this] at e
  refine ⟨_, e, rfl, ?_⟩
  unfold Effect
  rw [List.append_nil]
  rfl

theorem ansi_unknown (v : Vte) (set : Bool) {n : Nat} (h : n ∉ ansiModes) : v.ansiMode set n = .ok v := by
  unfold Vte.ansiMode
  split <;> first | rfl | exact absurd (by decide) h

theorem dec_unknown (v : Vte) (set : Bool) {n : Nat} (h : n ∉ decModes) : v.decMode set n = .ok v := by
  unfold Vte.decMode
  split <;> first | rfl | exact absurd (by decide) h

theorem value_not_mem {q : List UInt8} (hq : ∀ d ∈ q, IsDigit d) {l : List Nat} (hl : ∀ n ∈ l, n ≤ 65535)
    (h : number q ∉ l) : value q < 0 ∨ (value q).toNat ∉ l := by
  by_cases h0 : q = []
  · subst h0; exact Or.inl (by decide)
  · rcases value_number hq h0 with ⟨h1, h2⟩ | ⟨h1, h2⟩
    · right
      rw [h1]
      exact h
    · right
      intro hm
      have := hl _ hm
      omega

theorem modeLoop_same {v : Vte} {set : Bool} : ∀ (is : List Nat), (∀ i ∈ is, v.modeOne set i = .ok v) →
    modeLoop set v is = .ok v := by
  intro is
  induction is with
  | nil => intro _; rfl
  | cons i is ih =>
    intro h
    unfold modeLoop
    rw [h i (List.mem_cons_self ..)]
    exact ih (fun j hj => h j (List.mem_cons_of_mem _ hj))

/-- **C66, modes** (`_partial`, as above). Setting or resetting any list of ANSI modes or DEC
private modes that are not implemented has no effect. -/
theorem C66_modes_partial {v : Vte} (h : Reachable v) (hb : Between v) {qs : List (List UInt8)} (h0 : qs ≠ [])
    (hd : ∀ q ∈ qs, ∀ d ∈ q, IsDigit d) {b : UInt8} (hf : b = 104 ∨ b = 108) :
    ((∀ q ∈ qs, number q ∉ ansiModes) →
      ∃ v', v.input (27 :: 91 :: (joined qs ++ [b])) = .ok v' ∧ v'.state = .ground ∧ Effect v v' v.con []) ∧
    ((∀ q ∈ qs, number q ∉ decModes) →
      ∃ v', v.input (27 :: 91 :: 63 :: (joined qs ++ [b])) = .ok v' ∧ v'.state = .ground ∧ Effect v v' v.con []) := by
  have hb1 : 0x40 ≤ b.toNat := by rcases hf with hf | hf <;> subst hf <;> decide
  have hb2 : b.toNat ≤ 0x7e := by rcases hf with hf | hf <;> subst hf <;> decide
  have run : ∀ w : Vte, w.csiRun (csiKind b.toNat) = w.mode (b == 104) := by
    intro w
    rcases hf with hf | hf <;> subst hf <;> rfl
  have fin : ∀ (st : PState) (l : List Int) (fl : BitVec 32) (m : Utf8.Mach),
      Effect v { inSeq v.up st (min 16 qs.length) l fl m with state := .ground }.down v.con [] := by
    intro st l fl m
    unfold Effect
    rw [List.append_nil]
    rfl
  have args : ∀ (st : PState) (fl : BitVec 32) (m : Utf8.Mach) (i : Nat), i ∈ List.range (min 16 qs.length) →
      ∃ q ∈ qs, (inSeq v.up st (min 16 qs.length) (padded (qs.map value)) fl m).arg i = .ok (value q) := by
    intro st fl m i hi
    rw [List.mem_range] at hi
    have hlt : i < qs.length := by omega
    refine ⟨qs[i], List.getElem_mem hlt, ?_⟩
    rw [arg_inSeq (by omega), List.getElem?_map, List.getElem?_eq_getElem hlt]
    rfl
  refine ⟨fun hn => ?_, fun hn => ?_⟩
  · obtain ⟨m, st, hm, e⟩ := input_csi h.ok.1 hb h0 hd hb1 hb2
    have : (inSeq v.up st (min 16 qs.length) (padded (qs.map value)) 0 m).mode (b == 104) =
        .ok (inSeq v.up st (min 16 qs.length) (padded (qs.map value)) 0 m) := by
      unfold Vte.mode
      apply modeLoop_same
      intro i hi
      obtain ⟨q, hq, ea⟩ := args st 0 m i hi
      unfold Vte.modeOne
      rw [ea]
      show (if value q < 0 then _ else _) = _
      rcases value_not_mem (hd q hq) (l := ansiModes) (by decide) (hn q hq) with hv | hv
      · rw [if_pos hv]; rfl
      · rw [ansi_unknown _ _ hv, if_neg (show ¬ (inSeq v.up st (min 16 qs.length) (padded (qs.map value)) 0 m).cWhat = true by
          change ¬ ((0 : BitVec 32).getLsbD 2 = true); decide)]
        split <;> rfl
    rw [run, this] at e
    exact ⟨_, e, rfl, fin _ _ _ _⟩
  · obtain ⟨m, hm, e⟩ := input_csi_marked h.ok.1 hb (p := 63) (by decide) (by decide) h0 hd hb1 hb2
    have : (inSeq v.up .csiParam (min 16 qs.length) (padded (qs.map value)) (collectFlag 63) m).mode (b == 104) =
        .ok (inSeq v.up .csiParam (min 16 qs.length) (padded (qs.map value)) (collectFlag 63) m) := by
      unfold Vte.mode
      apply modeLoop_same
      intro i hi
      obtain ⟨q, hq, ea⟩ := args .csiParam (collectFlag 63) m i hi
      unfold Vte.modeOne
      rw [ea]
      show (if value q < 0 then _ else _) = _
      rcases value_not_mem (hd q hq) (l := decModes) (by decide) (hn q hq) with hv | hv
      · rw [if_pos hv]; rfl
      · rw [dec_unknown _ _ hv, if_pos (show (inSeq v.up .csiParam (min 16 qs.length) (padded (qs.map value))
          (collectFlag 63) m).cWhat = true by change (collectFlag 63).getLsbD 2 = true; decide)]
        split <;> rfl
    rw [run] at e
    change _ = ((inSeq v.up .csiParam (min 16 qs.length) (padded (qs.map value)) (collectFlag 63) m).mode (b == 104) >>= _) at e
    rw [this] at e
    exact ⟨_, e, rfl, fin _ _ _ _⟩

/-- Witness: on a screen with text and attributes, in the middle of a control sequence, the
sequences `CSI 1 ; 2 SP q`, `ESC k` and `CSI ? 2004 h`. -/
example : ∃ v, Reachable v ∧ (decide (Between v) && decide (v.state = .csiParam) && decide (v.con.rowText 0 = [65, 0, 0, 0, 0]) &&
    v.cattr.bold && gives (v.input ([27, 91, 49, 59, 50, 32, 113] ++ [27, 107] ++ [27, 91, 63, 50, 48, 48, 52, 104]))
      (fun v' => decide (v'.con.rowText 0 = [65, 0, 0, 0, 0]) && decide (v'.con.cursorX = 1) && decide (v'.log = []) &&
        v'.cattr.bold && decide (v'.flags = v.flags))) = true :=
  exists_of_vholds (cs := [.resize 5 3]) (sg := true) (vs := [.input [27, 91, 49, 109, 65, 27, 91, 51]]) (by decide +kernel)

end Verif.Props.Vte
