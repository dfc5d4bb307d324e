import Verif.Proofs.Vte.State
import Verif.Proofs.Vte.Example
import Verif.Proofs.Screen.Example

/-!
# Resets, saved cursor, alternate screen (C47, C48, C49, C54)
-/

namespace Verif
namespace Vte

/-! ### C48 -/

/-- The emulator `v'` and its screen are as after power-on, except for what belongs to the user: the
size, the limit of the scrollback, the palette, the callbacks, the selection, and the hidden
alternate screen. -/
structure PoweredOn (v v' : Vte) : Prop where
  rest : SameButParser { v.initialModes with con := v'.con, log := v'.log } v'
  state : v'.state = .ground
  view : v'.con.view = { v.con.view with
    flags := 2#32 -- only auto-wrap
    defAttr := v.defAttr
    marginTop := 0, marginBottom := v.con.sizeY - 1
    tabs := View.everyEighth v.con.sizeX
    useAlt := false
    main := blankGrid v.con.sizeX v.con.sizeY v.defAttr
    sb := [], sbPos := none, sbPosNum := 0
    cursorX := 0, cursorY := 0
    selStart := v'.con.selStart, selEnd := v'.con.selEnd }

/-- **C48** for `tsm_vte_hard_reset`: from any state. -/
theorem C48_hard_reset {v : Vte} (hr : Reachable v) :
    ∃ v', v.hardReset = .ok v' ∧ PoweredOn v v' ∧ v'.log = v.log := by
  obtain ⟨s, e, _, hv⟩ := hardReset_eq hr.ok.1 hr.coloured
  exact ⟨_, e, ⟨rfl, rfl, hv⟩, rfl⟩

/-- A terminal showing the alternate screen, with red text, margins, an application mode and a
scrollback. -/
example : ∃ v, Reachable v ∧ (v.con.useAlt && decide (v.con.sb.length = 1) && v.fCursorKey &&
    decide (v.cattr.fccode = 1) && decide (v.con.marginTop = 1) && decide (v.con.cursorX = 3)) = true :=
  exists_of_vholds (cs := [.resize 5 3, .setMaxSb 4]) (sg := true)
    (vs := [.input [65, 10, 10, 10, 27, 91, 51, 49, 109, 66, 27, 91, 50, 59, 51, 114, 27, 91, 63, 49, 104,
      27, 91, 63, 49, 48, 52, 57, 104, 67]]) (by decide +kernel)

/-- The claim for the escape sequence. -/
def C48_claim : Prop :=
  ∀ v, Reachable v → ∃ v', v.input [27, 99] = .ok v' ∧ PoweredOn v v'

/-- **C48** (partial): ESC c resets everything unless it comes in the middle of a UTF-8 character.
What is missing: there it is swallowed, see `C48_false`. -/
theorem C48_ris_partial {v : Vte} (hr : Reachable v) (hb : Between v) :
    ∃ v', v.input [27, 99] = .ok v' ∧ PoweredOn v v' ∧ v'.log = v.log ++ v.pendingOsc := by
  obtain ⟨m, hm, e⟩ := input_esc hr.ok.1 hb (b := 99) (by decide) (by decide) (by unfold Introducer; decide)
  obtain ⟨s, e2, _, hv⟩ := hardReset_eq (ok_inSeq hr.ok.1.more (st := .esc) (by decide) (n := 0) (by decide) (fl := 0) (m := m))
    (coloured_inSeq (v := v.up) ⟨hr.coloured.pal, hr.coloured.dattr⟩)
  have e3 : (inSeq v.up .esc 0 noArgs 0 m).escPlain (99 : UInt8).toNat = _ := e2
  rw [e3] at e
  exact ⟨_, e, ⟨rfl, rfl, hv⟩, rfl⟩

/-- The state of `C48_ris_partial` is not special: here in the middle of an OSC string and with
local echo on. -/
example : ∃ v, Reachable v ∧ (decide (Between v) && decide (v.state = .oscString) && !v.fNoEcho) = true :=
  exists_of_vholds (cs := [.resize 5 3]) (sg := true)
    (vs := [.setOscCb true, .input [27, 91, 49, 50, 108, 27, 93, 65]]) (by decide +kernel)

/-- After the first byte of a two-byte character ESC c leaves the "A" on the screen. -/
theorem C48_false : ¬ C48_claim := by
  intro hc
  obtain ⟨v, hr, hv⟩ : ∃ v, Reachable v ∧ (match v.input [27, 99] with
      | .ok v' => decide (v'.con.cursorX ≠ 0)
      | .error _ => false) = true :=
    exists_of_vholds (cs := [.resize 5 3]) (sg := true) (vs := [.input [65, 0xc3]]) (by decide +kernel)
  obtain ⟨v', e, hp⟩ := hc v hr
  rw [e] at hv
  have hv : v'.con.cursorX ≠ 0 := of_decide_eq_true hv
  have : v'.con.cursorX = 0 := congrArg View.cursorX hp.view
  omega

/-! ### C49 -/

/-- `v'` has the modes and attributes of a terminal after power-on and shows the main screen; its
text, the scrollback and the cursor are as before. -/
structure SoftlyReset (v v' : Vte) : Prop where
  rest : SameButParser { v.initialModes with con := v'.con, log := v'.log } v'
  state : v'.state = .ground
  view : v'.con.view = { v.con.view with
    flags := 2#32 -- only auto-wrap
    defAttr := v.defAttr
    marginTop := 0, marginBottom := v.con.sizeY - 1
    tabs := View.everyEighth v.con.sizeX
    useAlt := false }

/-- What C49 says about text, scrollback and cursor. -/
theorem SoftlyReset.keeps {v v' : Vte} (h : SoftlyReset v v') :
    v'.con.view.grid = v.con.view.main ∧ v'.con.view.sb = v.con.view.sb ∧
      v'.con.view.cursorX = v.con.view.cursorX ∧ v'.con.view.cursorY = v.con.view.cursorY := by
  rw [h.view]
  exact ⟨rfl, rfl, rfl, rfl⟩

/-- **C49** for `tsm_vte_reset`. -/
theorem C49_reset {v : Vte} (hr : Reachable v) :
    ∃ v', v.reset = .ok v' ∧ SoftlyReset v v' ∧ v'.log = v.log := by
  obtain ⟨s, e, _, hv⟩ := reset_eq hr.ok.1 hr.coloured
  exact ⟨_, e, ⟨rfl, rfl, hv⟩, rfl⟩

/-- The claim for DECSTR. -/
def C49_claim : Prop :=
  ∀ v, Reachable v → ∃ v', v.input [27, 91, 33, 112] = .ok v' ∧ SoftlyReset v v'

/-- **C49** (partial): DECSTR, unless it comes in the middle of a UTF-8 character. What is missing:
there its ESC is swallowed and the rest is printed, see `C49_false`. -/
theorem C49_decstr_partial {v : Vte} (hr : Reachable v) (hb : Between v) :
    ∃ v', v.input [27, 91, 33, 112] = .ok v' ∧ SoftlyReset v v' ∧ v'.log = v.log ++ v.pendingOsc := by
  obtain ⟨m, hm, e⟩ := input_bang hr.ok.1 hb
  obtain ⟨s, e2, _, hv⟩ := reset_eq (ok_inSeq hr.ok.1.more (st := .csiInt) (by decide) (n := 1) (by decide) (fl := 1) (m := m))
    (coloured_inSeq (v := v.up) ⟨hr.coloured.pal, hr.coloured.dattr⟩)
  rw [e2] at e
  exact ⟨_, e, ⟨rfl, rfl, hv⟩, rfl⟩

/-- A terminal with text on both screens, showing the alternate one, with underlined text and the
cursor below the margins. -/
example : ∃ v, Reachable v ∧ (decide (Between v) && v.con.useAlt && v.cattr.underline &&
    decide (v.con.marginBottom = 1) && decide (v.con.cursorY = 2)) = true :=
  exists_of_vholds (cs := [.resize 5 3]) (sg := true)
    (vs := [.input [65, 27, 91, 52, 109, 27, 91, 63, 52, 55, 104, 66, 27, 91, 49, 59, 50, 114, 10, 10, 27, 91, 51, 59, 49, 72]])
    (by decide +kernel)

theorem C49_false : ¬ C49_claim := by
  intro hc
  obtain ⟨v, hr, hv⟩ : ∃ v, Reachable v ∧ (match v.input [27, 91, 33, 112] with
      | .ok v' => decide (v'.con.cursorX ≠ v.con.cursorX)
      | .error _ => false) = true :=
    exists_of_vholds (cs := [.resize 5 3]) (sg := true) (vs := [.input [65, 0xc3]]) (by decide +kernel)
  obtain ⟨v', e, hp⟩ := hc v hr
  rw [e] at hv
  have hv : v'.con.cursorX ≠ v.con.cursorX := of_decide_eq_true hv
  exact hv hp.keeps.2.2.1

/-! ### C47 -/

/-- The bits that ESC 8 restores in the modes of the emulator and of the screen. -/
def restored (w o : Bool) (wBit oBit : Nat) (old new : BitVec 32) : Prop :=
  ∀ k < 32, new.getLsbD k = if k = oBit then o else if k = wBit then w else old.getLsbD k

/-- What C47 asks for: `v3` has the cursor position, attributes, shift state, character sets,
auto-wrap and origin mode of `v`. -/
structure Restored (v v3 : Vte) : Prop where
  x : v3.con.cursorX = v.con.cursorX
  y : v3.con.cursorY = v.con.cursorY
  attr : Sgr.Resolved v3.palette v.cattr v3.cattr
  gl : v3.gl = v.gl
  gr : v3.gr = v.gr
  sets : v3.g0 = v.g0 ∧ v3.g1 = v.g1 ∧ v3.g2 = v.g2 ∧ v3.g3 = v.g3
  wrap : v3.fWrap = v.fWrap
  origin : v3.fOrigin = v.fOrigin

/-- `v2` comes after `v1`; neither the size nor the saved slot differs. -/
def Later (v1 v2 : Vte) : Prop :=
  (∃ cs : List Call, (∀ c ∈ cs, c.Valid) ∧ v1.runAll cs = .ok v2) ∧
    v2.saved = v1.saved ∧ v2.con.sizeX = v1.con.sizeX ∧ v2.con.sizeY = v1.con.sizeY

/-- The claim: also in the most favourable case of sequences that do not come in the middle of a
character. -/
def C47_claim : Prop :=
  ∀ v v1 v2, Reachable v → Between v → v.input [27, 55] = .ok v1 → Later v1 v2 → Between v2 →
    ∃ v3, v2.input [27, 56] = .ok v3 ∧ Restored v v3

/-- ESC 7 only stores. -/
theorem C47_save {v : Vte} (hr : Reachable v) (hb : Between v) :
    ∃ v1, v.input [27, 55] = .ok v1 ∧ v1.state = .ground ∧ Effect { v with saved := v1.saved } v1 v.con [] ∧
      v1.saved = ⟨v.con.cursorX, v.con.cursorY, v.cattr, v.gl, v.gr, v.fWrap, v.fOrigin⟩ := by
  obtain ⟨m, hm, e⟩ := input_esc hr.ok.1 hb (b := 55) (by decide) (by decide) (by unfold Introducer; decide)
  have e3 : (inSeq v.up .esc 0 noArgs 0 m).escPlain (55 : UInt8).toNat = .ok ((inSeq v.up .esc 0 noArgs 0 m).saveState) := rfl
  rw [e3] at e
  refine ⟨_, e, rfl, ?_, rfl⟩
  unfold Effect
  rw [List.append_nil]
  rfl

/-- **C47** (partial). ESC 8 restores exactly this, in any later state in which the saved slot still
is that of ESC 7: the cursor, clipped to the screen and, if origin mode is on *then*, moved down by
the margin; attributes (with the colours of the current palette), shift states, auto-wrap and
origin mode. Nothing else changes. What is missing for the claim: the cursor in origin mode and in
the state of a pending wrap, and the designated character sets, see `C47_false`,
`C47_false_wrap` and `C47_false_sets`. -/
theorem C47_restore_partial {v v1 v2 : Vte} (hr : Reachable v) (hb : Between v) (h1 : v.input [27, 55] = .ok v1)
    (hl : Later v1 v2) (hb2 : Between v2) :
    ∃ v3, v2.input [27, 56] = .ok v3 ∧ v3.state = .ground ∧
      Effect { v2 with cattr := v3.cattr, gl := v.gl, gr := v.gr, flags := v3.flags } v3 v3.con [] ∧
      Sgr.Resolved v2.palette v.cattr v3.cattr ∧
      restored v.fWrap v.fOrigin 12 11 v2.flags v3.flags ∧
      restored v.fWrap v.fOrigin 1 2 v2.con.flags v3.con.flags ∧
      v3.con.view = { v2.con.view with
        cursorX := min v.con.cursorX (v.con.sizeX - 1)
        cursorY := if v2.con.flags.getLsbD 2 then min (v2.con.marginTop + v.con.cursorY) v2.con.marginBottom
          else v.con.cursorY
        defAttr := if v2.fBce then v3.cattr else v2.con.defAttr
        flags := v3.con.flags } := by
  obtain ⟨v1', e1, _, _, hs1⟩ := C47_save hr hb
  rw [h1] at e1
  injection e1 with e1
  subst e1
  have hx1 : v1.con.sizeX = v.con.sizeX ∧ v1.con.sizeY = v.con.sizeY := by
    obtain ⟨v1', e1, _, he, _⟩ := C47_save hr hb
    rw [h1] at e1
    injection e1 with e1
    subst e1
    rw [he]
    exact ⟨rfl, rfl⟩
  have hok2 : Ok v2 := by
    obtain ⟨cs, hcs, er⟩ := hl.1
    exact (SatK.of_ok (Ok.runAll cs (hr.step (c := .input [27, 55]) trivial h1).ok.1 hcs) er).1
  have hsv : v2.saved = ⟨v.con.cursorX, v.con.cursorY, v.cattr, v.gl, v.gr, v.fWrap, v.fOrigin⟩ := hl.2.1.trans hs1
  have hcy := hr.ok.1.con.cur.cy
  have hyb := hr.ok.1.con.geo.yb
  obtain ⟨m, hm, e⟩ := input_esc hok2 hb2 (b := 56) (by decide) (by decide) (by unfold Introducer; decide)
  obtain ⟨s, a, e2, ha, _, hv⟩ := restoreState_eq
    (ok_inSeq hok2.more (st := .esc) (by decide) (n := 0) (by decide) (fl := 0) (m := m))
    (fun _ => by show v2.saved.cursorY < 2 ^ 31; rw [hsv]; show v.con.cursorY < 2 ^ 31; omega)
  have e3 : (inSeq v2.up .esc 0 noArgs 0 m).escPlain (56 : UInt8).toNat = _ := e2
  rw [e3] at e
  refine ⟨_, e, rfl, ?_, ?_, ?_, ?_, ?_⟩
  · unfold Effect
    rw [List.append_nil]
    have h1 : v.gl = v2.saved.gl := by rw [hsv]
    have h2 : v.gr = v2.saved.gr := by rw [hsv]
    rw [h1, h2]
    rfl
  · have : v.cattr = v2.saved.cattr := by rw [hsv]
    rw [this]
    exact ha
  · intro k hk
    show (put v2.saved.originMode _ (put v2.saved.wrapMode _ v2.flags)).getLsbD k = _
    rw [getLsbD_put _ (by decide) _ hk, getLsbD_put _ (by decide) _ hk, hsv]
  · intro k hk
    have hf : s.flags = put v2.saved.originMode (BitVec.twoPow 32 2) (put v2.saved.wrapMode (BitVec.twoPow 32 1) v2.con.flags) :=
      congrArg View.flags hv
    show s.flags.getLsbD k = _
    rw [hf, getLsbD_put _ (by decide) _ hk, getLsbD_put _ (by decide) _ hk, hsv]
  · show s.view = { v2.con.view with
      cursorX := min v.con.cursorX (v.con.sizeX - 1)
      cursorY := if v2.con.flags.getLsbD 2 then min (v2.con.marginTop + v.con.cursorY) v2.con.marginBottom
        else v.con.cursorY
      defAttr := if v2.fBce then a else v2.con.defAttr
      flags := s.flags }
    have hf : s.flags = put v2.saved.originMode Screen.REL_ORIGIN (put v2.saved.wrapMode Screen.AUTO_WRAP v2.con.flags) :=
      congrArg View.flags hv
    rw [hv, hf]
    show { v2.con.view with
      cursorX := min v2.saved.cursorX (v2.con.sizeX - 1)
      cursorY := if v2.con.flags.getLsbD 2 then min (v2.con.marginTop + v2.saved.cursorY) v2.con.marginBottom
        else min v2.saved.cursorY (v2.con.sizeY - 1)
      defAttr := if v2.fBce then a else v2.con.defAttr
      flags := put v2.saved.originMode Screen.REL_ORIGIN (put v2.saved.wrapMode Screen.AUTO_WRAP v2.con.flags) } = _
    have h1 : v2.con.sizeX = v.con.sizeX := hl.2.2.1.trans hx1.1
    have h2 : v2.con.sizeY = v.con.sizeY := hl.2.2.2.trans hx1.2
    rw [hsv, h1, h2]
    dsimp only
    rw [show min v.con.cursorY (v.con.sizeY - 1) = v.con.cursorY from by omega]

/-- Where the claim holds: origin mode is off when ESC 8 comes, no wrap was pending at ESC 7, and the
character sets designated are the same. -/
theorem C47_restored {v v1 v2 : Vte} (hr : Reachable v) (hb : Between v) (h1 : v.input [27, 55] = .ok v1)
    (hl : Later v1 v2) (hb2 : Between v2) (ho : v2.con.flags.getLsbD 2 = false) (hw : v.con.cursorX < v.con.sizeX)
    (hs : v2.g0 = v.g0 ∧ v2.g1 = v.g1 ∧ v2.g2 = v.g2 ∧ v2.g3 = v.g3) :
    ∃ v3, v2.input [27, 56] = .ok v3 ∧ Restored v v3 := by
  obtain ⟨v3, e, _, he, ha, hf, _, hv⟩ := C47_restore_partial hr hb h1 hl hb2
  refine ⟨v3, e, ?_⟩
  have hx : v3.con.cursorX = min v.con.cursorX (v.con.sizeX - 1) := congrArg View.cursorX hv
  have hy : v3.con.cursorY = _ := congrArg View.cursorY hv
  rw [ho] at hy
  have hf : restored v.fWrap v.fOrigin 12 11 v2.flags v3.flags := hf
  exact
    { x := by omega
      y := hy
      attr := by
        have : v3.palette = v2.palette := by rw [he]
        rw [this]; exact ha
      gl := by rw [he]
      gr := by rw [he]
      sets := by
        have h0 : v3.g0 = v2.g0 ∧ v3.g1 = v2.g1 ∧ v3.g2 = v2.g2 ∧ v3.g3 = v2.g3 := by
          rw [he]; exact ⟨rfl, rfl, rfl, rfl⟩
        rw [h0.1, h0.2.1, h0.2.2.1, h0.2.2.2]
        exact hs
      wrap := hf 12 (by decide)
      origin := hf 11 (by decide) }

/-- ESC 7, the bytes `mid`, and ESC 8 from `v`, for the three witnesses below. -/
def roundTrip (mid : List UInt8) (bad : Vte → Vte → Bool) (v : Vte) : Bool :=
  decide (Between v) && match v.input [27, 55] with
    | .error _ => false
    | .ok v1 => match v1.input mid with
      | .error _ => false
      | .ok v2 => decide (v2.saved = v1.saved) && decide (v2.con.sizeX = v1.con.sizeX) &&
          decide (v2.con.sizeY = v1.con.sizeY) && decide (Between v2) && match v2.input [27, 56] with
        | .error _ => false
        | .ok v3 => bad v v3

theorem roundTrip_false {mid : List UInt8} {bad : Vte → Vte → Bool} {v : Vte}
    (h : roundTrip mid bad v = true) : ∃ v1 v2 v3, Between v ∧ v.input [27, 55] = .ok v1 ∧ v1.input mid = .ok v2 ∧
      Later v1 v2 ∧ Between v2 ∧ v2.input [27, 56] = .ok v3 ∧ bad v v3 = true := by
  unfold roundTrip at h
  simp only [Bool.and_eq_true, decide_eq_true_eq] at h
  obtain ⟨hb, h⟩ := h
  cases e1 : v.input [27, 55] with
  | error x => rw [e1] at h; cases h
  | ok v1 =>
    rw [e1] at h
    cases e2 : v1.input mid with
    | error x => dsimp only at h; rw [e2] at h; cases h
    | ok v2 =>
      dsimp only at h
      rw [e2] at h
      simp only [Bool.and_eq_true, decide_eq_true_eq] at h
      obtain ⟨⟨⟨⟨h1, h2⟩, h3⟩, h4⟩, h5⟩ := h
      cases e3 : v2.input [27, 56] with
      | error x => rw [e3] at h5; cases h5
      | ok v3 =>
        rw [e3] at h5
        refine ⟨v1, v2, v3, hb, rfl, e2, ⟨⟨[.input mid], ?_, ?_⟩, h1, h2, h3⟩, h4, e3, h5⟩
        · intro c hc; rw [List.mem_singleton.mp hc]; trivial
        · show (v1.input mid >>= fun v => v.runAll []) = _
          rw [e2]
          rfl

/-- An example for `C47_restored`: attributes, cursor, wrap mode and the shift state are changed
between save and restore. -/
example : ∃ v, Reachable v ∧ roundTrip [27, 91, 48, 109, 27, 91, 63, 55, 108, 14, 88, 89, 10]
    (fun v v3 => decide (v3.cattr = v.cattr) && v.cattr.bold && decide (v.con.cursorX = 1) &&
      decide (v3.con.cursorX = 1) && v3.fWrap && decide (v3.gl = .g0)) v = true :=
  exists_of_vholds (cs := [.resize 5 3]) (sg := true) (vs := [.input [27, 91, 49, 109, 65]]) (by decide +kernel)

/-- The claim is false: if origin mode is on at ESC 8, the restored cursor is moved by the margin. -/
theorem C47_false : ¬ C47_claim := by
  intro hc
  obtain ⟨v, hr, hv⟩ : ∃ v, Reachable v ∧ roundTrip [27, 91, 63, 54, 104]
      (fun v v3 => decide (v3.con.cursorY ≠ v.con.cursorY)) v = true :=
    exists_of_vholds (cs := [.resize 5 4]) (sg := true)
      (vs := [.input [27, 91, 50, 59, 52, 114, 27, 91, 49, 59, 49, 72]]) (by decide +kernel)
  obtain ⟨v1, v2, v3, hb, e1, _, hl, hb2, e3, bad⟩ := roundTrip_false hv
  obtain ⟨v3', e, h⟩ := hc v v1 v2 hr hb e1 hl hb2
  rw [e3] at e
  injection e with e
  subst e
  exact of_decide_eq_true bad h.y

/-- A cursor beyond the last column (a pending wrap) comes back on the last column. -/
theorem C47_false_wrap : ¬ C47_claim := by
  intro hc
  obtain ⟨v, hr, hv⟩ : ∃ v, Reachable v ∧ roundTrip [13]
      (fun v v3 => decide (v3.con.cursorX ≠ v.con.cursorX)) v = true :=
    exists_of_vholds (cs := [.resize 3 2]) (sg := true) (vs := [.input [65, 66, 67]]) (by decide +kernel)
  obtain ⟨v1, v2, v3, hb, e1, _, hl, hb2, e3, bad⟩ := roundTrip_false hv
  obtain ⟨v3', e, h⟩ := hc v v1 v2 hr hb e1 hl hb2
  rw [e3] at e
  injection e with e
  subst e
  exact of_decide_eq_true bad h.x

/-- A character set designated after ESC 7 (here line drawing as G0) stays after ESC 8. -/
theorem C47_false_sets : ¬ C47_claim := by
  intro hc
  obtain ⟨v, hr, hv⟩ : ∃ v, Reachable v ∧ roundTrip [27, 40, 48]
      (fun v v3 => decide (v3.g0 ≠ v.g0)) v = true :=
    exists_of_vholds (cs := [.resize 3 2]) (sg := true) (vs := [.input [65]]) (by decide +kernel)
  obtain ⟨v1, v2, v3, hb, e1, _, hl, hb2, e3, bad⟩ := roundTrip_false hv
  obtain ⟨v3', e, h⟩ := hc v v1 v2 hr hb e1 hl hb2
  rw [e3] at e
  injection e with e
  subst e
  exact of_decide_eq_true bad h.sets.1

/-! ### C54 -/

/-- CSI ? 1049 h -/
def enterAlt : List UInt8 := [27, 91, 63, 49, 48, 52, 57, 104]

/-- CSI ? 1049 l -/
def leaveAlt : List UInt8 := [27, 91, 63, 49, 48, 52, 57, 108]

/-- **C54**, first half: from the main screen CSI ? 1049 h shows a blank alternate screen, the
cursor stays where it is, and the main screen is kept. -/
theorem C54_enter {v : Vte} (hr : Reachable v) (hb : Between v) (ha : v.con.useAlt = false) :
    ∃ v1, v.input enterAlt = .ok v1 ∧ v1.state = .ground ∧
      Effect { v with altX := v.con.cursorX, altY := v.con.cursorY } v1 v1.con [] ∧
      v1.con.view = { v.con.view with
        flags := v.con.flags ||| Screen.ALTERNATE, useAlt := true, defAttrMain := v.con.defAttr
        alt := blankGrid v.con.sizeX v.con.sizeY v.con.defAttr } := by
  obtain ⟨m, hm, e⟩ := input_decMode hr.ok.1 hb true (q := [49, 48, 52, 57]) (by unfold IsDigit; decide) (by decide)
  obtain ⟨s1, e1, hi1, v1⟩ := alt_on_scr hr.ok.1.con ha
  obtain ⟨s2, e2, _, v2⟩ := eraseScreen_scr hi1
  have hrun : (inSeq v.up .csiParam 1 (padded [value [49, 48, 52, 57]]) 4 m).decMode true (value [49, 48, 52, 57]).toNat =
      .ok { inSeq v.up .csiParam 1 (padded [value [49, 48, 52, 57]]) 4 m with
        con := s2, altX := v.con.cursorX, altY := v.con.cursorY } := by
    show (inSeq v.up .csiParam 1 (padded [value [49, 48, 52, 57]]) 4 m).mode1049 true = _
    unfold Vte.mode1049
    rw [if_neg (by show ¬ (v.flags.getLsbD 17 = true); rw [hr.ok.1.inh]; decide), if_pos rfl]
    refine (rbind (scr_ok (v := (inSeq v.up .csiParam 1 (padded [value [49, 48, 52, 57]]) 4 m).saveAlt) e1)).trans ?_
    exact scr_ok e2
  rw [hrun] at e
  refine ⟨_, e, rfl, ?_, ?_⟩
  · unfold Effect
    rw [List.append_nil]
    rfl
  · show s2.view = _
    have hu : s1.useAlt = true := congrArg View.useAlt v1
    have hx : s1.sizeX = v.con.sizeX := congrArg View.sizeX v1
    have hy : s1.sizeY = v.con.sizeY := congrArg View.sizeY v1
    have hd : s1.defAttr = v.con.defAttr := congrArg View.defAttr v1
    rw [v2]
    unfold View.setGrid
    rw [if_pos (show s1.view.useAlt = true from hu), v1, hx, hy, hd]

/-- **C54**, second half: CSI ? 1049 l shows the main screen and moves the cursor to the position
stored by CSI ? 1049 h, as a cursor addressing does. -/
theorem C54_leave {v : Vte} (hr : Reachable v) (hb : Between v) (hy : v.con.flags.getLsbD 2 = true → v.altY < 2 ^ 31) :
    ∃ v1, v.input leaveAlt = .ok v1 ∧ v1.state = .ground ∧ Effect v v1 v1.con [] ∧
      v1.con.view = { v.con.view with
        flags := v.con.flags &&& ~~~Screen.ALTERNATE, useAlt := false
        cursorX := min v.altX (v.con.sizeX - 1)
        cursorY := if v.con.flags.getLsbD 2 then min (v.con.marginTop + v.altY) v.con.marginBottom
          else min v.altY (v.con.sizeY - 1) } := by
  obtain ⟨m, hm, e⟩ := input_decMode hr.ok.1 hb false (q := [49, 48, 52, 57]) (by unfold IsDigit; decide) (by decide)
  obtain ⟨s1, e1, hi1, v1⟩ := alt_off_scr hr.ok.1.con
  have h3 : s1.flags.getLsbD 2 = v.con.flags.getLsbD 2 := by
    have : s1.flags = v.con.flags &&& ~~~Screen.ALTERNATE := congrArg View.flags v1
    rw [this, BitVec.getLsbD_and]
    have : (~~~Screen.ALTERNATE).getLsbD 2 = true := by decide
    rw [this, Bool.and_true]
  obtain ⟨s2, e2, _, v2⟩ := moveTo_scr hi1 v.altX v.altY (by rw [h3]; exact hy)
  have hrun : (inSeq v.up .csiParam 1 (padded [value [49, 48, 52, 57]]) 4 m).decMode false (value [49, 48, 52, 57]).toNat =
      .ok { inSeq v.up .csiParam 1 (padded [value [49, 48, 52, 57]]) 4 m with con := s2 } := by
    show (inSeq v.up .csiParam 1 (padded [value [49, 48, 52, 57]]) 4 m).mode1049 false = _
    unfold Vte.mode1049
    rw [if_neg (by show ¬ (v.flags.getLsbD 17 = true); rw [hr.ok.1.inh]; decide), if_neg (by decide)]
    refine (rbind (scr_ok (v := inSeq v.up .csiParam 1 (padded [value [49, 48, 52, 57]]) 4 m) e1)).trans ?_
    exact scr_ok e2
  rw [hrun] at e
  refine ⟨_, e, rfl, ?_, ?_⟩
  · unfold Effect
    rw [List.append_nil]
    rfl
  · show s2.view = _
    have hx : s1.sizeX = v.con.sizeX := congrArg View.sizeX v1
    have hy : s1.sizeY = v.con.sizeY := congrArg View.sizeY v1
    have h1 : s1.marginTop = v.con.marginTop := congrArg View.marginTop v1
    have h2 : s1.marginBottom = v.con.marginBottom := congrArg View.marginBottom v1
    rw [v2, v1, hx, hy, h1, h2, h3]

/-- The claim: any bytes in between, as long as the alternate screen stays. -/
def C54_claim : Prop :=
  ∀ v v1 v2 bs, Reachable v → Between v → v.con.useAlt = false → v.input enterAlt = .ok v1 → OnAlt v1 bs v2 →
    v2.altX = v1.altX → v2.altY = v1.altY → Between v2 →
    ∃ v3, v2.input leaveAlt = .ok v3 ∧ v3.con.view.grid = v.con.view.grid ∧ v3.con.cursorX = v.con.cursorX ∧
      v3.con.cursorY = v.con.cursorY

theorem onAlt_reachable {v v' : Vte} {bs : List UInt8} (h : OnAlt v bs v') : Reachable v → Reachable v' := by
  induction h with
  | nil v => exact id
  | cons e _ _ ih => exact fun hr => ih (hr.step (c := .input [_]) trivial e)

/-- **C54** (partial): for all bytes in between that leave the alternate screen shown (after each of
them) and do not store another cursor position, the main screen comes back with exactly its former
cells. The cursor comes back as by a cursor addressing. What is missing: in origin mode it is moved
down by the margin (`C54_false`), and a pending wrap is lost (`C54_false_wrap`). -/
theorem C54_round_trip_partial {v v1 v2 : Vte} {bs : List UInt8} (hr : Reachable v) (hb : Between v)
    (ha : v.con.useAlt = false) (h1 : v.input enterAlt = .ok v1) (hm : OnAlt v1 bs v2)
    (hx : v2.altX = v1.altX) (hy : v2.altY = v1.altY) (hb2 : Between v2) :
    ∃ v3, v2.input leaveAlt = .ok v3 ∧ v3.con.useAlt = false ∧ v3.con.view.grid = v.con.view.grid ∧
      v3.con.sizeX = v.con.sizeX ∧ v3.con.sizeY = v.con.sizeY ∧
      v3.con.cursorX = min v.con.cursorX (v.con.sizeX - 1) ∧
      v3.con.cursorY = if v2.con.flags.getLsbD 2 then min (v2.con.marginTop + v.con.cursorY) v2.con.marginBottom
        else v.con.cursorY := by
  obtain ⟨v1', e1, _, he, hv1⟩ := C54_enter hr hb ha
  rw [h1] at e1
  injection e1 with e1
  subst e1
  have hr1 := hr.step (c := .input enterAlt) trivial h1
  have hu1 : v1.con.useAlt = true := congrArg View.useAlt hv1
  obtain ⟨_, hu2, hm2, hsx, hsy⟩ := hm.main hr1.ok.1 hu1
  have hax : v1.altX = v.con.cursorX := by rw [he]
  have hay : v1.altY = v.con.cursorY := by rw [he]
  have hcy := hr.ok.1.con.cur.cy
  have hyb := hr.ok.1.con.geo.yb
  have hr2 := onAlt_reachable hm hr1
  obtain ⟨v3, e3, _, _, hv3⟩ := C54_leave hr2 hb2 (fun _ => by rw [hy, hay]; omega)
  have hsx1 : v1.con.sizeX = v.con.sizeX := congrArg View.sizeX hv1
  have hsy1 : v1.con.sizeY = v.con.sizeY := congrArg View.sizeY hv1
  refine ⟨v3, e3, congrArg View.useAlt hv3, ?_, ?_, ?_, ?_, ?_⟩
  · have h2 : v3.con.view.grid = v2.con.view.main := by rw [hv3]; rfl
    have h3 : v.con.view.grid = v.con.view.main := by
      unfold View.grid
      rw [if_neg (by show ¬ (v.con.useAlt = true); rw [ha]; decide)]
    have h4 : v1.con.view.main = v.con.view.main := by rw [hv1]
    rw [h2, h3, hm2, h4]
  · exact (congrArg View.sizeX hv3 : v3.con.sizeX = v2.con.sizeX).trans (hsx.trans hsx1)
  · exact (congrArg View.sizeY hv3 : v3.con.sizeY = v2.con.sizeY).trans (hsy.trans hsy1)
  · have : v3.con.cursorX = min v2.altX (v2.con.sizeX - 1) := congrArg View.cursorX hv3
    rw [this, hx, hax, hsx, hsx1]
  · have : v3.con.cursorY = _ := congrArg View.cursorY hv3
    rw [this, hy, hay]
    show (if v2.con.flags.getLsbD 2 then min (v2.con.marginTop + v.con.cursorY) v2.con.marginBottom
      else min v.con.cursorY (v2.con.sizeY - 1)) = _
    rw [show min v.con.cursorY (v2.con.sizeY - 1) = v.con.cursorY from by omega]

/-- Feeding bytes while the alternate screen is shown. -/
def altFeed : List UInt8 → Vte → Option Vte
  | [], v => some v
  | b :: bs, v => match v.input [b] with
    | .ok w => if w.con.useAlt then altFeed bs w else none
    | .error _ => none

theorem altFeed_on : ∀ {bs : List UInt8} {v v' : Vte}, altFeed bs v = some v' → OnAlt v bs v' := by
  intro bs
  induction bs with
  | nil => intro v v' h; injection h with h; subst h; exact .nil v
  | cons b bs ih =>
    intro v v' h
    unfold altFeed at h
    cases e : v.input [b] with
    | error x => rw [e] at h; cases h
    | ok w =>
      rw [e] at h
      dsimp only at h
      split at h
      · rename_i hu
        exact .cons e hu (ih h)
      · cases h

/-- Entering the alternate screen, the bytes `mid`, and leaving it, for the examples below. -/
def altTrip (mid : List UInt8) (good : Vte → Vte → Bool) (v : Vte) : Bool :=
  decide (Between v) && !v.con.useAlt && match v.input enterAlt with
    | .error _ => false
    | .ok v1 => match altFeed mid v1 with
      | none => false
      | some v2 => decide (v2.altX = v1.altX) && decide (v2.altY = v1.altY) && decide (Between v2) &&
          match v2.input leaveAlt with
        | .error _ => false
        | .ok v3 => good v v3

theorem altTrip_spec {mid : List UInt8} {good : Vte → Vte → Bool} {v : Vte} (h : altTrip mid good v = true) :
    ∃ v1 v2 v3, Between v ∧ v.con.useAlt = false ∧ v.input enterAlt = .ok v1 ∧ OnAlt v1 mid v2 ∧ v2.altX = v1.altX ∧
      v2.altY = v1.altY ∧ Between v2 ∧ v2.input leaveAlt = .ok v3 ∧ good v v3 = true := by
  unfold altTrip at h
  simp only [Bool.and_eq_true, decide_eq_true_eq] at h
  obtain ⟨⟨hb, hu⟩, h⟩ := h
  have hu : v.con.useAlt = false := by cases e : v.con.useAlt with
    | false => rfl
    | true => rw [e] at hu; cases hu
  cases e1 : v.input enterAlt with
  | error x => rw [e1] at h; cases h
  | ok v1 =>
    rw [e1] at h
    dsimp only at h
    cases e2 : altFeed mid v1 with
    | none => rw [e2] at h; cases h
    | some v2 =>
      rw [e2] at h
      simp only [Bool.and_eq_true, decide_eq_true_eq] at h
      obtain ⟨⟨⟨h1, h2⟩, h4⟩, h5⟩ := h
      cases e3 : v2.input leaveAlt with
      | error x => rw [e3] at h5; cases h5
      | ok v3 =>
        rw [e3] at h5
        exact ⟨v1, v2, v3, hb, hu, rfl, altFeed_on e2, h1, h2, h4, e3, h5⟩

/-- An example for `C54_round_trip_partial`: the bytes in between fill, scroll and clear the
alternate screen. -/
example : ∃ v, Reachable v ∧ altTrip [88, 10, 89, 10, 90, 10, 27, 91, 50, 74, 27, 91, 72, 87]
    (fun v v3 => decide (v3.con.rowText 0 = [65, 66, 0]) && decide (v.con.cursorX = 2) &&
      decide (v3.con.cursorX = 2)) v = true :=
  exists_of_vholds (cs := [.resize 3 2]) (sg := true) (vs := [.input [65, 66]]) (by decide +kernel)

/-- The cursor does not come back if the output in between switches origin mode on. -/
theorem C54_false : ¬ C54_claim := by
  intro hc
  obtain ⟨v, hr, hv⟩ : ∃ v, Reachable v ∧ altTrip [27, 91, 63, 54, 104]
      (fun v v3 => decide (v3.con.cursorY ≠ v.con.cursorY)) v = true :=
    exists_of_vholds (cs := [.resize 5 4]) (sg := true)
      (vs := [.input [27, 91, 50, 59, 52, 114, 27, 91, 49, 59, 49, 72]]) (by decide +kernel)
  obtain ⟨v1, v2, v3, hb, hu, e1, ho, hx, hy, hb2, e3, bad⟩ := altTrip_spec hv
  obtain ⟨v3', e, _, _, h⟩ := hc v v1 v2 _ hr hb hu e1 ho hx hy hb2
  rw [e3] at e
  injection e with e
  subst e
  exact of_decide_eq_true bad h

/-- After writing the last column, with the wrap pending, it comes back one column to the left. -/
theorem C54_false_wrap : ¬ C54_claim := by
  intro hc
  obtain ⟨v, hr, hv⟩ : ∃ v, Reachable v ∧ altTrip []
      (fun v v3 => decide (v3.con.cursorX ≠ v.con.cursorX)) v = true :=
    exists_of_vholds (cs := [.resize 3 2]) (sg := true) (vs := [.input [65, 66, 67]]) (by decide +kernel)
  obtain ⟨v1, v2, v3, hb, hu, e1, ho, hx, hy, hb2, e3, bad⟩ := altTrip_spec hv
  obtain ⟨v3', e, _, h, _⟩ := hc v v1 v2 _ hr hb hu e1 ho hx hy hb2
  rw [e3] at e
  injection e with e
  subst e
  exact of_decide_eq_true bad h

end Vte
end Verif
