import Verif.Proofs.Vte.Sgr
import Verif.Proofs.Screen.Edit

/-!
# Resets, the saved cursor, and the alternate screen
-/

namespace Verif
namespace Vte

theorem rbind {α β : Type} {x : R α} {a : α} {f : α → R β} (h : x = .ok a) : (x >>= f) = f a := by
  rw [h]
  rfl

/-! ### Effects of single calls of the screen on the view -/

theorem reset_scr {s : Screen} (h : Screen.Inv s) :
    ∃ s', (Screen.Call.reset).run s = .ok s' ∧ Screen.Inv s' ∧ s'.view = { s.view with
      flags := 0#32, marginTop := 0, marginBottom := s.sizeY - 1, useAlt := false
      tabs := View.everyEighth s.sizeX } := by
  obtain ⟨s', e, hi, hv, _⟩ := Screen.reset_spec h
  exact ⟨s', e, hi, hv⟩

theorem setFlags_scr {s : Screen} (h : Screen.Inv s) {f : BitVec 32} (hf : f ≠ 0#32) (h6 : f.getLsbD 6 = false) :
    ∃ s', (Screen.Call.setFlags f).run s = .ok s' ∧ Screen.Inv s' ∧ s'.view = { s.view with flags := s.flags ||| f } := by
  obtain ⟨s', e, hi, hv, _⟩ := Screen.setFlags_spec h hf
  refine ⟨s', e, hi, ?_⟩
  rw [hv, Screen.switched_view, h6, Bool.or_false]
  have : (!s.useAlt && s.useAlt) = false := by cases s.useAlt <;> rfl
  rw [this]
  rfl

theorem resetFlags_scr {s : Screen} (h : Screen.Inv s) {f : BitVec 32} (hf : f ≠ 0#32) (h6 : f.getLsbD 6 = false) :
    ∃ s', (Screen.Call.resetFlags f).run s = .ok s' ∧ Screen.Inv s' ∧
      s'.view = { s.view with flags := s.flags &&& ~~~f } := by
  obtain ⟨s', e, hi, hv, _⟩ := Screen.resetFlags_spec h hf
  refine ⟨s', e, hi, ?_⟩
  rw [hv, Screen.switched_view, h6]
  have : (s.useAlt && !false) = s.useAlt := by cases s.useAlt <;> rfl
  rw [this]
  have : (!s.useAlt && s.useAlt) = false := by cases s.useAlt <;> rfl
  rw [this]
  rfl

theorem flag_scr {s : Screen} (h : Screen.Inv s) (b : Bool) {f : BitVec 32} (hf : f ≠ 0#32) (h6 : f.getLsbD 6 = false) :
    ∃ s', (if b then Screen.Call.setFlags f else Screen.Call.resetFlags f).run s = .ok s' ∧ Screen.Inv s' ∧
      s'.view = { s.view with flags := if b then s.flags ||| f else s.flags &&& ~~~f } := by
  cases b
  · exact resetFlags_scr h hf h6
  · exact setFlags_scr h hf h6

theorem alt_on_scr {s : Screen} (h : Screen.Inv s) (ha : s.useAlt = false) :
    ∃ s', (Screen.Call.setFlags Screen.ALTERNATE).run s = .ok s' ∧ Screen.Inv s' ∧ s'.view = { s.view with
      flags := s.flags ||| Screen.ALTERNATE, useAlt := true, defAttrMain := s.defAttr } := by
  obtain ⟨s', e, hi, hv, _⟩ := Screen.setFlags_spec h (f := Screen.ALTERNATE) (by decide)
  refine ⟨s', e, hi, ?_⟩
  rw [hv, Screen.switched_view, ha]
  rfl

theorem alt_off_scr {s : Screen} (h : Screen.Inv s) :
    ∃ s', (Screen.Call.resetFlags Screen.ALTERNATE).run s = .ok s' ∧ Screen.Inv s' ∧ s'.view = { s.view with
      flags := s.flags &&& ~~~Screen.ALTERNATE, useAlt := false } := by
  obtain ⟨s', e, hi, hv, _⟩ := Screen.resetFlags_spec h (f := Screen.ALTERNATE) (by decide)
  refine ⟨s', e, hi, ?_⟩
  rw [hv, Screen.switched_view]
  have h6 : Screen.ALTERNATE.getLsbD 6 = true := by decide
  rw [h6]
  have : (s.useAlt && !true) = false := by cases s.useAlt <;> rfl
  rw [this]
  have : (!s.useAlt && false) = false := by cases s.useAlt <;> rfl
  rw [this]
  rfl

theorem eraseScreen_scr {s : Screen} (h : Screen.Inv s) :
    ∃ s', (Screen.Call.eraseScreen false).run s = .ok s' ∧ Screen.Inv s' ∧
      s'.view = s.view.setGrid (blankGrid s.sizeX s.sizeY s.defAttr) := by
  have hx0 := h.geo.x0
  have hy0 := h.geo.y0
  obtain ⟨s', e, hi, hv, _⟩ := Screen.erase_call h 0 0 (s.sizeX - 1) (s.sizeY - 1) false (fun _ _ => True) (by
    intro i j _ _
    constructor
    · intro _; trivial
    · intro _; omega)
  rw [← h.geo.predX, ← h.geo.predY] at e
  refine ⟨s', e, hi, ?_⟩
  rw [hv]
  unfold View.erase
  congr 1
  funext i j
  rw [if_pos trivial]
  unfold blankGrid
  by_cases hb : i < s.sizeY ∧ j < s.sizeX
  · rw [if_pos hb]
    have hg : ∃ g, s.view.grid i j = some g := by
      obtain ⟨l, e1, w⟩ := h.geo.linesOk.row h.geo hb.1
      rw [Screen.grid_apply, if_pos hb]
      unfold Screen.cellAt
      rw [e1]
      refine ⟨(l.cells[j]'(by omega)).glyph, ?_⟩
      show (l.cells[j]?).map Cell.glyph = _
      rw [List.getElem?_eq_getElem (by omega)]
      rfl
    obtain ⟨g, hg⟩ := hg
    rw [hg]
    rfl
  · rw [if_neg hb]
    rw [Screen.grid_out hb]
    rfl

theorem clearSb_scr {s : Screen} (h : Screen.Inv s) :
    ∃ s', (Screen.Call.clearSb).run s = .ok s' ∧ Screen.Inv s' ∧ s'.view = { s.view with
      sb := [], sbPos := none, sbPosNum := 0, selStart := s'.selStart, selEnd := s'.selEnd } := by
  rcases Screen.step_any (c := .clearSb) h trivial with ⟨s', e, hi⟩ | ⟨hz, _⟩
  · refine ⟨s', e, hi, ?_⟩
    have : s' = s.clearSb := by injection e with e; exact e.symm
    rw [this]
    have hv := Screen.clearSb_view s
    have h1 := congrArg View.selStart hv
    have h2 := congrArg View.selEnd hv
    change s.clearSb.selStart = _ at h1
    change s.clearSb.selEnd = _ at h2
    rw [hv, h1, h2]
  · exact False.elim hz

theorem moveTo_scr {s : Screen} (h : Screen.Inv s) (x y : Nat) (hy : s.flags.getLsbD 2 = true → y < 2 ^ 31) :
    ∃ s', (Screen.Call.moveTo x y).run s = .ok s' ∧ Screen.Inv s' ∧ s'.view = { s.view with
      cursorX := min x (s.sizeX - 1)
      cursorY := if s.flags.getLsbD 2 then min (s.marginTop + y) s.marginBottom
        else min y (s.sizeY - 1) } := by
  have key : ∃ s', (Screen.Call.moveTo x y).run s = .ok s' ∧ s'.view = { s.view with
      cursorX := min x (s.sizeX - 1)
      cursorY := if s.flags.getLsbD 2 then min (s.marginTop + y) s.marginBottom
        else min y (s.sizeY - 1) } := by
    by_cases ho : s.flags.getLsbD 2 = true
    · exact moveTo_view h x y (hy ho)
    · refine ⟨_, Screen.moveTo_eq h x y, ?_⟩
      rw [Screen.moved_view, Screen.incAge_view, if_neg (show ¬ s.fOrigin = true from ho), if_neg ho]
  obtain ⟨s', e, hv⟩ := key
  rcases Screen.step_any (c := .moveTo x y) h trivial with ⟨t, et, hi⟩ | ⟨hz, _⟩
  · rw [e] at et; injection et with et; subst et
    exact ⟨s', e, hi, hv⟩
  · exact False.elim hz

/-! ### Inside of sequences -/

theorem ok_inSeq {v : Vte} (h : Ok v) {st : PState} (hs : st ≠ .none) {n : Nat} (hn : n ≤ 16) {fl : BitVec 32}
    {m : Utf8.Mach} : Ok (inSeq v st n noArgs fl m) :=
  { h with
    argl := by show (List.replicate 16 (-1 : Int)).length = 16; simp
    args := by
      intro a ha
      have := List.eq_of_mem_replicate (show a ∈ List.replicate 16 (-1 : Int) from ha)
      omega
    argc := hn
    oscl := by show (List.replicate 128 (0 : UInt8)).length = 128; simp
    osc := Nat.zero_le _
    st := hs }

theorem coloured_inSeq {v : Vte} (h : Coloured v) {st : PState} {n : Nat} {l : List Int} {fl : BitVec 32}
    {m : Utf8.Mach} : Coloured (inSeq v st n l fl m) := ⟨h.pal, h.dattr⟩

/-- CSI with one intermediate `!` and final `p`. -/
theorem input_bang {v : Vte} (h : Ok v) (hb : Between v) :
    ∃ m, Btw v.flags m ∧ v.input [27, 91, 33, 112] =
      ((inSeq v.up .csiInt 1 noArgs 1 m).reset >>= fun v' => pure { v' with state := .ground }.down) := by
  obtain ⟨m1, hm1, e1⟩ := csi_start h.more hb.up
  obtain ⟨m2, hm2, e2⟩ := inputByte_ascii (v := inSeq v.up .csiEntry 0 noArgs 0 m1) (inSeq_between hm1) (b := 33) (by decide)
  have e2' : (inSeq v.up .csiEntry 0 noArgs 0 m1).inputByte 33 = .ok (inSeq v.up .csiInt 0 noArgs 1 m2) := by
    rw [e2]
    change (inSeq v.up .csiEntry 0 noArgs 0 m2).parse 33 = _
    unfold Vte.parse
    rw [show nextOf (inSeq v.up .csiEntry 0 noArgs 0 m2).state 33 = (.csiInt, .collect) from
      (by decide : nextOf .csiEntry 33 = (.csiInt, .collect))]
    unfold Vte.trans
    rw [if_neg (by decide)]
    show Except.ok (inSeq v.up .csiInt 0 noArgs (0 ||| collectFlag 33) m2) = _
    rw [show (0 ||| collectFlag 33 : BitVec 32) = 1 from by decide]
  obtain ⟨m3, hm3, e3⟩ := final_ok (v := v.up) (st := .csiInt) (Or.inr (Or.inr rfl)) (n := 0) (l := noArgs) (fl := 1)
    hm2 (b := 112) (by decide) (by decide)
  refine ⟨m3, hm3, ?_⟩
  rw [input_def, e1, inputLoop_ok e2', inputLoop_one, e3]
  show (((inSeq v.up .csiInt 1 noArgs 1 m3).csiP >>= fun v' => pure { v' with state := .ground }) >>=
    fun v' => pure v'.down) = _
  unfold Vte.csiP
  rw [if_neg (by show ¬ ((1 : BitVec 32).getLsbD 3 = true); decide), if_pos (by show (1 : BitVec 32).getLsbD 0 = true; decide)]
  cases (inSeq v.up .csiInt 1 noArgs 1 m3).reset <;> rfl

theorem mode_one {v : Vte} {st : PState} {a : Int} (ha : 0 ≤ a) {fl : BitVec 32} (hf : fl.getLsbD 2 = true)
    {m : Utf8.Mach} (set : Bool) : (inSeq v st 1 (padded [a]) fl m).mode set =
      (inSeq v st 1 (padded [a]) fl m).decMode set a.toNat := by
  have h1 : (inSeq v st 1 (padded [a]) fl m).modeOne set 0 = (inSeq v st 1 (padded [a]) fl m).decMode set a.toNat := by
    unfold Vte.modeOne
    have : (inSeq v st 1 (padded [a]) fl m).arg 0 = .ok a := rfl
    refine (rbind this).trans ?_
    rw [if_neg (by omega), if_pos (show (inSeq v st 1 (padded [a]) fl m).cWhat = true from hf)]
  show ((inSeq v st 1 (padded [a]) fl m).modeOne set 0 >>= fun v => .ok v) = _
  rw [h1]
  cases (inSeq v st 1 (padded [a]) fl m).decMode set a.toNat <;> rfl

/-- CSI ? n h and CSI ? n l. -/
theorem input_decMode {v : Vte} (h : Ok v) (hb : Between v) (set : Bool) {q : List UInt8} (hd : ∀ d ∈ q, IsDigit d)
    (hq : 0 ≤ value q) :
    ∃ m, Btw v.flags m ∧ v.input (27 :: 91 :: 63 :: (q ++ [if set then 104 else 108])) =
      ((inSeq v.up .csiParam 1 (padded [value q]) 4 m).decMode set (value q).toNat >>=
        fun v' => pure { v' with state := .ground }.down) := by
  obtain ⟨m, hm, e⟩ := input_csi_marked h hb (p := 0x3f) (by decide) (by decide) (qs := [q])
    (by intro h; cases h) (by intro p hp; rw [List.mem_singleton.mp hp]; exact hd) (b := if set then 104 else 108)
    (by cases set <;> decide) (by cases set <;> decide)
  refine ⟨m, hm, ?_⟩
  have e' : v.input (27 :: 91 :: 63 :: (q ++ [if set then 104 else 108])) =
      ((inSeq v.up .csiParam 1 (padded [value q]) 4 m).mode set >>= fun v' => pure { v' with state := .ground }.down) := by
    cases set <;> exact e
  rw [e', mode_one hq (by decide)]

/-! ### Resets -/

theorem resolved_again {p : Palette} {a : Attr} (h : Sgr.Resolved p { Attr.zero with fccode := 16, bccode := 17 } a)
    {b : Attr} (h' : Sgr.Resolved p a b) : b = a := by
  have hf : a.fccode = 16 := congrArg Attr.fccode h.same
  have hb : a.bccode = 17 := congrArg Attr.bccode h.same
  have h1 := h.fore (by decide)
  have h2 := h.back (by decide)
  have h3 := h'.fore (by rw [hf]; decide)
  have h4 := h'.back (by rw [hb]; decide)
  have e1 : Sgr.foreEntry a = 16 := by
    unfold Sgr.foreEntry
    rw [hf]
    simp
  have e2 : Sgr.foreEntry { Attr.zero with fccode := 16, bccode := 17 } = 16 := by decide
  rw [e1] at h3
  rw [e2] at h1
  rw [hb] at h4
  rw [h1] at h3
  change p[(17 : Int).toNat]? = _ at h2
  rw [h2] at h4
  injection h3 with h3
  injection h4 with h4
  injection h3 with h31 h32
  injection h32 with h32 h33
  injection h4 with h41 h42
  injection h42 with h42 h43
  rw [h'.same, ← h31, ← h32, ← h33, ← h41, ← h42, ← h43]

/-- The view after `tsm_vte_reset`. -/
def softView (v : Vte) : View :=
  { v.con.view with
    flags := 2#32, defAttr := v.defAttr, marginTop := 0, marginBottom := v.con.sizeY - 1, useAlt := false
    tabs := View.everyEighth v.con.sizeX }

theorem reset_eq {v : Vte} (h : Ok v) (hc : Coloured v) :
    ∃ s, v.reset = .ok { v.initialModes with con := s, mach := Utf8.reset v.mach, state := .ground } ∧
      Screen.Inv s ∧ s.view = v.softView := by
  obtain ⟨s1, e1, hi1, v1⟩ := reset_scr h.con
  obtain ⟨s2, e2, hi2, v2⟩ := setFlags_scr hi1 (f := Screen.AUTO_WRAP) (by decide) (by decide)
  obtain ⟨a, ea, ha⟩ := toRgb_resolved h.pal h.defCoded
  have hd := resolved_again hc.dattr ha
  subst hd
  refine ⟨s2.setDefAttr v.defAttr, ?_, Screen.setDefAttr_inv hi2 _, ?_⟩
  · have r1 : ({ v with flags := resetFlags } : Vte).scr .reset = .ok { v with flags := resetFlags, con := s1 } := scr_ok e1
    have r2 : ({ v with flags := resetFlags, con := s1 } : Vte).scr (.setFlags Screen.AUTO_WRAP) =
        .ok { v with flags := resetFlags, con := s2 } := scr_ok e2
    have hsv : ({ copyB (copyF v.saved.cattr v.defAttr) v.defAttr with
            bold := false, italic := false, underline := false, inverse := false, protect := false,
            blink := false } : Attr) = v.defAttr := by
      have hs := hc.dattr.same
      rw [hs]
      rfl
    unfold Vte.reset
    rw [r1]
    show (({ v with flags := resetFlags, con := s1 } : Vte).scr (.setFlags Screen.AUTO_WRAP) >>= _) = _
    rw [r2]
    show (toRgb v.palette v.defAttr >>= _) = _
    rw [ea]
    have fin : ∀ x, x = v.defAttr → (Except.ok ({ v.initialModes with
        con := s2.setDefAttr v.defAttr, mach := Utf8.reset v.mach, state := .ground
        saved := { v.initialModes.saved with cattr := x } }) : R Vte) = .ok { v.initialModes with
          con := s2.setDefAttr v.defAttr, mach := Utf8.reset v.mach, state := .ground } := by
      intro x hx
      rw [hx]
      rfl
    exact fin _ hsv
  · show { s2.view with defAttr := v.defAttr } = _
    have hf : s1.flags = 0#32 := congrArg View.flags v1
    rw [v2, hf, v1]
    rfl

/-- The view after `tsm_vte_hard_reset`, except for the selection. -/
def hardView (v : Vte) (a b : SelPos) : View :=
  { v.softView with
    main := blankGrid v.con.sizeX v.con.sizeY v.defAttr
    sb := [], sbPos := none, sbPosNum := 0, cursorX := 0, cursorY := 0, selStart := a, selEnd := b }

theorem hardReset_eq {v : Vte} (h : Ok v) (hc : Coloured v) :
    ∃ s, v.hardReset = .ok { v.initialModes with con := s, mach := Utf8.reset v.mach, state := .ground } ∧
      Screen.Inv s ∧ s.view = v.hardView s.selStart s.selEnd := by
  obtain ⟨s1, e1, hi1, v1⟩ := reset_eq h hc
  obtain ⟨s2, e2, hi2, v2⟩ := eraseScreen_scr hi1
  obtain ⟨s3, e3, hi3, v3⟩ := clearSb_scr hi2
  obtain ⟨s4, e4, hi4, v4⟩ := moveTo_scr hi3 0 0 (fun _ => by decide)
  refine ⟨s4, ?_, hi4, ?_⟩
  · have r2 : ({ v.initialModes with con := s1, mach := Utf8.reset v.mach, state := .ground } : Vte).scr (.eraseScreen false) =
        .ok { v.initialModes with con := s2, mach := Utf8.reset v.mach, state := .ground } := scr_ok e2
    have r3 : ({ v.initialModes with con := s2, mach := Utf8.reset v.mach, state := .ground } : Vte).scr .clearSb =
        .ok { v.initialModes with con := s3, mach := Utf8.reset v.mach, state := .ground } := scr_ok e3
    have r4 : ({ v.initialModes with con := s3, mach := Utf8.reset v.mach, state := .ground } : Vte).scr (.moveTo 0 0) =
        .ok { v.initialModes with con := s4, mach := Utf8.reset v.mach, state := .ground } := scr_ok e4
    exact (rbind e1).trans ((rbind r2).trans ((rbind r3).trans r4))
  · have hu : s1.useAlt = false := congrArg View.useAlt v1
    have hx : s1.sizeX = v.con.sizeX := congrArg View.sizeX v1
    have hy : s1.sizeY = v.con.sizeY := congrArg View.sizeY v1
    have hd : s1.defAttr = v.defAttr := congrArg View.defAttr v1
    have w2 : s2.view = { v.softView with main := blankGrid v.con.sizeX v.con.sizeY v.defAttr } := by
      rw [v2]
      unfold View.setGrid
      rw [if_neg (by show ¬ (s1.useAlt = true); rw [hu]; decide), v1, hx, hy, hd]
    have w3 : s3.view = { v.softView with
        main := blankGrid v.con.sizeX v.con.sizeY v.defAttr
        sb := [], sbPos := none, sbPosNum := 0, selStart := s3.selStart, selEnd := s3.selEnd } := by
      rw [v3, w2]
    have hf : s3.flags = 2#32 := congrArg View.flags w3
    have h5 : s4.selStart = s3.selStart := congrArg View.selStart v4
    have h6 : s4.selEnd = s3.selEnd := congrArg View.selEnd v4
    rw [v4, hf, h5, h6, w3, if_neg (by decide), Nat.zero_min, Nat.zero_min]
    rfl

/-! ### The saved cursor -/

/-- `x` with the flags `f` set or cleared. -/
@[reducible] def put (b : Bool) (f x : BitVec 32) : BitVec 32 := if b then x ||| f else x &&& ~~~f

theorem restoreState_eq {v : Vte} (h : Ok v) (hy : v.con.flags.getLsbD 2 = true → v.saved.cursorY < 2 ^ 31) :
    ∃ s a, v.restoreState = .ok { v with
        con := s, cattr := a, gl := v.saved.gl, gr := v.saved.gr
        flags := put v.saved.originMode (BitVec.twoPow 32 11) (put v.saved.wrapMode (BitVec.twoPow 32 12) v.flags) } ∧
      Sgr.Resolved v.palette v.saved.cattr a ∧ Screen.Inv s ∧
      s.view = { v.con.view with
        cursorX := min v.saved.cursorX (v.con.sizeX - 1)
        cursorY := if v.con.flags.getLsbD 2 then min (v.con.marginTop + v.saved.cursorY) v.con.marginBottom
          else min v.saved.cursorY (v.con.sizeY - 1)
        defAttr := if v.fBce then a else v.con.defAttr
        flags := put v.saved.originMode Screen.REL_ORIGIN (put v.saved.wrapMode Screen.AUTO_WRAP v.con.flags) } := by
  obtain ⟨s1, e1, hi1, v1⟩ := moveTo_scr h.con v.saved.cursorX v.saved.cursorY hy
  obtain ⟨a, ea, ha⟩ := toRgb_resolved h.pal h.sav
  have hbce : ∃ s2, ({ v with con := s1, cattr := a } : Vte).bce = .ok { v with con := s2, cattr := a } ∧ Screen.Inv s2 ∧
      s2.view = { s1.view with defAttr := if v.fBce then a else v.con.defAttr } := by
    unfold Vte.bce
    by_cases hb : v.fBce = true
    · refine ⟨s1.setDefAttr a, ?_, Screen.setDefAttr_inv hi1 _, ?_⟩
      · rw [if_pos hb]; rfl
      · rw [if_pos hb]; rfl
    · refine ⟨s1, ?_, hi1, ?_⟩
      · rw [if_neg hb]
      · rw [if_neg hb, v1]; rfl
  obtain ⟨s2, e2, hi2, v2⟩ := hbce
  obtain ⟨s3, e3, hi3, v3⟩ := flag_scr hi2 v.saved.wrapMode (f := Screen.AUTO_WRAP) (by decide) (by decide)
  obtain ⟨s4, e4, hi4, v4⟩ := flag_scr hi3 v.saved.originMode (f := Screen.REL_ORIGIN) (by decide) (by decide)
  refine ⟨s4, a, ?_, ha, hi4, ?_⟩
  · have r1 : v.scr (.moveTo v.saved.cursorX v.saved.cursorY) = .ok { v with con := s1 } := scr_ok e1
    unfold Vte.restoreState
    rw [r1]
    show (toRgb v.palette v.saved.cattr >>= _) = _
    rw [ea]
    show (({ v with con := s1, cattr := a } : Vte).bce >>= _) = _
    rw [e2]
    have r3 : ({ v with con := s2, cattr := a, gl := v.saved.gl, gr := v.saved.gr } : Vte).modeFlag v.saved.wrapMode 12
        Screen.AUTO_WRAP = .ok { v with
          con := s3, cattr := a, gl := v.saved.gl, gr := v.saved.gr
          flags := put v.saved.wrapMode (BitVec.twoPow 32 12) v.flags } := by
      unfold Vte.modeFlag
      exact scr_ok e3
    show (({ v with con := s2, cattr := a, gl := v.saved.gl, gr := v.saved.gr } : Vte).modeFlag v.saved.wrapMode 12
        Screen.AUTO_WRAP >>= _) = _
    rw [r3]
    show Vte.modeFlag _ _ _ _ = _
    unfold Vte.modeFlag
    exact scr_ok e4
  · have f2 : s2.flags = v.con.flags := (congrArg View.flags v2).trans (congrArg View.flags v1)
    have f3 : s3.flags = put v.saved.wrapMode Screen.AUTO_WRAP v.con.flags := by
      have := congrArg View.flags v3
      rw [f2] at this
      exact this
    rw [v4, f3, v3, v2, v1]

theorem getLsbD_put (b : Bool) {k j : Nat} (hk : k < 32) (x : BitVec 32) (hj : j < 32) :
    (put b (BitVec.twoPow 32 k) x).getLsbD j = if j = k then b else x.getLsbD j := by
  have h' : put b (BitVec.twoPow 32 k) x = if b then x ||| BitVec.twoPow 32 k else x &&& ~~~ (BitVec.twoPow 32 k) := rfl
  rw [h']
  cases b
  · show (x &&& ~~~ (BitVec.twoPow 32 k)).getLsbD j = _
    by_cases h : j = k
    · subst h; simp [hj]
    · simp [hj, h]
  · show (x ||| BitVec.twoPow 32 k).getLsbD j = _
    by_cases h : j = k
    · subst h; simp [hj]
    · simp [BitVec.getLsbD_twoPow, h]; intro _ h'; exact absurd h'.symm h

/-! ### The alternate screen -/

/-- Whether the alternate screen is shown after a call. -/
def nextAlt (c : Screen.Call) (b : Bool) : Bool :=
  match c with
  | .setFlags f => b || f.getLsbD 6
  | .resetFlags f => b && !f.getLsbD 6
  | .reset => false
  | _ => b

theorem useAlt_step {s s' : Screen} (hi : Screen.Inv s) {c : Screen.Call} (hv : c.Valid) (ht : Term c)
    (e : c.run s = .ok s') :
    Screen.Inv s' ∧ s'.useAlt = nextAlt c s.useAlt ∧ (s.useAlt = true → s'.view.main = s.view.main) := by
  have hi' : Screen.Inv s' := by
    rcases Screen.step_any hi hv with ⟨t, et, ht⟩ | ⟨_, et | et⟩
    · rw [et] at e; injection e with e; rw [← e]; exact ht
    · rw [et] at e; cases e
    · rw [et] at e; cases e
  have hk := Screen.step_keeps hi hv (by intro x y h; subst h; exact ht) e
  refine ⟨hi', ?_, hk.main⟩
  by_cases hf : View.flagCall c = false
  · have hfl : s'.flags = s.flags := hk.flags hf
    have hn : nextAlt c s.useAlt = s.useAlt := by
      cases c <;> first | rfl | exact Bool.noConfusion hf
    rw [hn, hi'.geo.alias, hi.geo.alias]
    unfold Screen.fAlt
    rw [hfl]
  · cases c with
    | setFlags f =>
      by_cases h0 : f = 0#32
      · change s.setFlags f = _ at e
        unfold Screen.setFlags at e; rw [if_pos h0] at e; injection e with e; rw [← e, h0]
        show s.useAlt = (s.useAlt || _)
        simp
      · obtain ⟨t, et, _, hview, _⟩ := Screen.setFlags_spec hi h0
        change s.setFlags f = _ at e
        rw [et] at e; injection e with e; subst e
        exact congrArg View.useAlt hview
    | resetFlags f =>
      by_cases h0 : f = 0#32
      · change s.resetFlags f = _ at e
        unfold Screen.resetFlags at e; rw [if_pos h0] at e; injection e with e; rw [← e, h0]
        show s.useAlt = (s.useAlt && _)
        simp
      · obtain ⟨t, et, _, hview, _⟩ := Screen.resetFlags_spec hi h0
        change s.resetFlags f = _ at e
        rw [et] at e; injection e with e; subst e
        exact congrArg View.useAlt hview
    | reset =>
      obtain ⟨t, et, _, hview⟩ := reset_scr hi
      rw [et] at e; injection e with e; subst e
      exact congrArg View.useAlt hview
    | _ => exact absurd rfl hf

theorem alt_left {cs : List Screen.Call} : ∀ {s s' : Screen}, Screen.Inv s → s.useAlt = false →
    (∀ c ∈ cs, c.Valid ∧ NoEnter c) → Screen.runAll cs s = .ok s' → s'.useAlt = false := by
  induction cs with
  | nil => intro s s' _ ha _ e; injection e with e; subst e; exact ha
  | cons c cs ih =>
    intro s s' hi ha hc e
    change (do let s ← c.run s; Screen.runAll cs s : R Screen) = _ at e
    cases hd : c.run s with
    | error k => rw [hd] at e; cases e
    | ok t =>
      rw [hd] at e
      have h0 := hc c (List.mem_cons_self ..)
      obtain ⟨h1, h2, _⟩ := useAlt_step hi h0.1 (noEnter_term h0.2) hd
      refine ih h1 ?_ (fun d hd => hc d (List.mem_cons_of_mem _ hd)) e
      rw [h2, ha]
      have hn := h0.2
      cases c with
      | setFlags f => exact hn
      | _ => rfl

/-- A byte that finds and leaves the alternate screen does not change the main screen. -/
theorem alt_main {b : Bool} {cs : List Screen.Call} : ∀ {s s' : Screen}, Screen.Inv s → s.useAlt = true →
    (∀ c ∈ cs, c.Valid ∧ Way b c) → Screen.runAll cs s = .ok s' → s'.useAlt = true → s'.view.main = s.view.main := by
  induction cs with
  | nil => intro s s' _ _ _ e _; injection e with e; subst e; rfl
  | cons c cs ih =>
    intro s s' hi ha hc e ha'
    change (do let s ← c.run s; Screen.runAll cs s : R Screen) = _ at e
    cases hd : c.run s with
    | error k => rw [hd] at e; cases e
    | ok t =>
      rw [hd] at e
      have h0 := hc c (List.mem_cons_self ..)
      have hrest := fun d hd => hc d (List.mem_cons_of_mem _ hd)
      obtain ⟨h1, h2, h3⟩ := useAlt_step hi h0.1 (way_term h0.2) hd
      have ht : t.useAlt = true := by
        cases b with
        | true =>
          rw [h2, ha]
          have hn : NoLeave c := h0.2
          cases c with
          | resetFlags f =>
            have hn : f.getLsbD 6 = false := hn
            show (true && !f.getLsbD 6) = true
            rw [hn]
            rfl
          | reset => exact False.elim hn
          | _ => rfl
        | false =>
          rcases Bool.eq_false_or_eq_true t.useAlt with h | h
          · exact h
          · have := alt_left h1 h hrest e
            rw [ha'] at this
            cases this
      rw [ih h1 ht hrest e ha', h3 ha]

theorem input_byte_main {v w : Vte} (h : Ok v) {b : UInt8} (e : v.input [b] = .ok w) :
    Ok w ∧ w.con.sizeX = v.con.sizeX ∧ w.con.sizeY = v.con.sizeY ∧
      (v.con.useAlt = true → w.con.useAlt = true → w.con.view.main = v.con.view.main) := by
  obtain ⟨v1, e1, rfl⟩ := of_input e
  rw [inputLoop_one] at e1
  obtain ⟨k, hg⟩ := h.more.inputByte (X := ⟨True, True, True⟩) (up_pos v) b (fun _ _ _ _ => trivial) (fun _ _ _ _ => trivial)
    (fun _ _ _ _ => trivial)
  rw [e1] at hg
  obtain ⟨hk, he⟩ : Ok v1 ∧ Ext (Way k) v.up v1 := hg
  have ht : Ext Term v.up v1 := he.mono (fun _ => way_term)
  have hx := h.more.sizeX_ext ht
  have hy := h.more.sizeY_ext ht
  refine ⟨{ hk with }, hx, hy, ?_⟩
  intro h1 h2
  obtain ⟨cs, hcs, hr⟩ := he.run
  exact alt_main (b := k) h.con h1 hcs hr h2

theorem OnAlt.main {v v' : Vte} {bs : List UInt8} (ha : OnAlt v bs v') :
    Ok v → v.con.useAlt = true → Ok v' ∧ v'.con.useAlt = true ∧ v'.con.view.main = v.con.view.main ∧
      v'.con.sizeX = v.con.sizeX ∧ v'.con.sizeY = v.con.sizeY := by
  induction ha with
  | nil v => intro h hu; exact ⟨h, hu, rfl, rfl, rfl⟩
  | cons e hw _ ih =>
    intro h hu
    obtain ⟨h1, h2, h3, h4⟩ := input_byte_main h e
    obtain ⟨k1, k2, k3, k4, k5⟩ := ih h1 hw
    exact ⟨k1, k2, k3.trans (h4 hu hw), k4.trans h2, k5.trans h3⟩

end Vte
end Verif
