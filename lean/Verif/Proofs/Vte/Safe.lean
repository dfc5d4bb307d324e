import Verif.Model.VteApi
import Verif.Proofs.Screen.Frame

/-!
# Safety of the terminal emulator

An invariant of the emulator, and what every action keeps. Each action is a sequence of valid
calls of the screen; `Q` restricts which calls.
-/

namespace Verif
namespace Vte

/-- Colour codes within the palette, or -1 for an RGB colour. -/
structure Coded (a : Attr) : Prop where
  f0 : -1 ≤ a.fccode
  f1 : a.fccode ≤ 17
  b0 : -1 ≤ a.bccode
  b1 : a.bccode ≤ 17
  pr : a.protect = false

/-- The invariant of the emulator. -/
structure Ok (v : Vte) : Prop where
  con : Screen.Inv v.con
  argl : v.argv.length = 16
  args : ∀ a ∈ v.argv, -1 ≤ a ∧ a ≤ 655359
  argc : v.argc ≤ 16
  oscl : v.oscArg.length = 128
  osc : v.oscLen ≤ 127
  st : v.state ≠ .none
  pal : v.palette.length = 18
  cpal : ∀ p, v.customPalette = some p → p.length = 18
  cat : Coded v.cattr
  deff : v.defAttr.fccode = 16
  defb : v.defAttr.bccode = 17
  defp : v.defAttr.protect = false
  sav : Coded v.saved.cattr
  inh : v.flags.getLsbD 17 = false
  grt : v.grt = none

/-- What no action of the parser changes, and that the screen is only changed by valid calls
that satisfy `Q`. -/
structure Ext (Q : Screen.Call → Prop) (v v' : Vte) : Prop where
  pc : v'.parseCnt = v.parseCnt
  name : v'.paletteName = v.paletteName
  custom : v'.customPalette = v.customPalette
  pal : v'.palette = v.palette
  dattr : v'.defAttr = v.defAttr
  bs : v'.bsDelete = v.bsDelete
  ocb : v'.oscCb = v.oscCb
  mcb : v'.mouseCb = v.mouseCb
  sg : v'.sg = v.sg
  log : ∃ evs, v'.log = v.log ++ evs
  run : ∃ cs, (∀ c ∈ cs, c.Valid ∧ Q c) ∧ Screen.runAll cs v.con = .ok v'.con
  esc : v.fPrepend = false → v'.fPrepend = false

/-- The situations in which an action is not safe: `arg` a parameter is read out of bounds,
`ins` a character is written to a screen of width 1, `tab` a back tab is made from beyond the
last column. -/
structure Risk where
  arg : Prop
  ins : Prop
  tab : Prop

variable {Q : Screen.Call → Prop} {X : Risk}

theorem runAll_append (cs cs' : List Screen.Call) (s : Screen) :
    Screen.runAll (cs ++ cs') s = (Screen.runAll cs s >>= fun s' => Screen.runAll cs' s') := by
  induction cs generalizing s with
  | nil => rfl
  | cons c cs ih =>
    show (c.run s >>= fun s => Screen.runAll (cs ++ cs') s) = ((c.run s >>= fun s => Screen.runAll cs s) >>= _)
    cases c.run s with
    | ok t => exact ih t
    | error e => rfl

theorem Ext.refl (v : Vte) : Ext Q v v :=
  ⟨rfl, rfl, rfl, rfl, rfl, rfl, rfl, rfl, rfl, ⟨[], by simp⟩, ⟨[], by simp, rfl⟩, id⟩

theorem Ext.trans {u v w : Vte} (h : Ext Q u v) (h' : Ext Q v w) : Ext Q u w := by
  obtain ⟨e1, l1⟩ := h.log
  obtain ⟨e2, l2⟩ := h'.log
  obtain ⟨c1, v1, r1⟩ := h.run
  obtain ⟨c2, v2, r2⟩ := h'.run
  refine ⟨h'.pc.trans h.pc, h'.name.trans h.name, h'.custom.trans h.custom, h'.pal.trans h.pal,
    h'.dattr.trans h.dattr, h'.bs.trans h.bs, h'.ocb.trans h.ocb, h'.mcb.trans h.mcb, h'.sg.trans h.sg,
    ⟨e1 ++ e2, by rw [l2, l1, List.append_assoc]⟩, ⟨c1 ++ c2, ?_, ?_⟩, fun h0 => h'.esc (h.esc h0)⟩
  · intro c hc
    rcases List.mem_append.mp hc with hc | hc
    · exact v1 c hc
    · exact v2 c hc
  · rw [runAll_append, r1]; exact r2

theorem Ext.mono {Q' : Screen.Call → Prop} (hq : ∀ c, Q c → Q' c) {v w : Vte} (h : Ext Q v w) : Ext Q' v w := by
  obtain ⟨c1, v1, r1⟩ := h.run
  exact ⟨h.pc, h.name, h.custom, h.pal, h.dattr, h.bs, h.ocb, h.mcb, h.sg, h.log,
    ⟨c1, fun c hc => ⟨(v1 c hc).1, hq c (v1 c hc).2⟩, r1⟩, h.esc⟩

/-- Updating fields that do not matter for `Ext`. -/
theorem Ext.silent {v v' : Vte} (pc : v'.parseCnt = v.parseCnt) (name : v'.paletteName = v.paletteName)
    (custom : v'.customPalette = v.customPalette) (pal : v'.palette = v.palette)
    (dattr : v'.defAttr = v.defAttr) (bs : v'.bsDelete = v.bsDelete) (ocb : v'.oscCb = v.oscCb)
    (mcb : v'.mouseCb = v.mouseCb) (sg : v'.sg = v.sg) (log : v'.log = v.log) (con : v'.con = v.con)
    (fl : v'.flags = v.flags := by rfl) : Ext Q v v' :=
  ⟨pc, name, custom, pal, dattr, bs, ocb, mcb, sg, ⟨[], by simp [log]⟩, ⟨[], by simp, by rw [con]; rfl⟩,
    fun h0 => by unfold Vte.fPrepend; rw [fl]; exact h0⟩

/-- The outcomes that are possible at all. -/
def Kx (X : Risk) (e : UB) : Prop :=
  (e = .insertMove ∧ X.ins) ∨ (e = .oobTab ∧ X.tab) ∨ (e = .csiArg ∧ X.arg)

/-- An action on `v` is safe up to `Kx X` and keeps everything it should. -/
def Good (Q : Screen.Call → Prop) (X : Risk) (v : Vte) (x : R Vte) : Prop :=
  R.SatK x (Kx X) (fun v' => Ok v' ∧ Ext Q v v')

theorem Good.ok {v v' : Vte} (h : Ok v') (he : Ext Q v v') : Good Q X v (.ok v') := ⟨h, he⟩

theorem Good.same {v : Vte} (h : Ok v) : Good Q X v (.ok v) := ⟨h, Ext.refl v⟩

theorem Good.mono {v : Vte} {x : R Vte} {Q' : Screen.Call → Prop} (hq : ∀ c, Q c → Q' c)
    (h : Good Q X v x) : Good Q' X v x :=
  R.SatK.mono h (fun _ he => he) (fun _ hv => ⟨hv.1, hv.2.mono hq⟩)

theorem Good.after {u v : Vte} {x : R Vte} (he : Ext Q u v) (h : Good Q X v x) : Good Q X u x :=
  R.SatK.mono h (fun _ hk => hk) (fun _ hv => ⟨hv.1, he.trans hv.2⟩)

theorem Good.bind {v : Vte} {x : R Vte} {f : Vte → R Vte} (h : Good Q X v x)
    (hf : ∀ v', Ok v' → Ext Q v v' → Good Q X v' (f v')) : Good Q X v (x >>= f) :=
  R.SatK.bind h fun v' hv => Good.after hv.2 (hf v' hv.1 hv.2)

/-- Preceding by a computation that cannot fail. -/
theorem Good.pre {α : Type} {v : Vte} {x : R α} {P : α → Prop} {f : α → R Vte} (h : R.Sat x P)
    (hf : ∀ a, P a → Good Q X v (f a)) : Good Q X v (x >>= f) :=
  R.SatK.bind (h.toK _) hf

theorem Ok.scrAny {v : Vte} (h : Ok v) {c : Screen.Call} (hv : c.Valid) (hq : Q c)
    (hw : ∀ ch a, c = .write ch a → v.con.sizeX = 1 → v.con.fInsert = true → Screen.symWidth ch = .ok 2 → X.ins)
    (ht : ∀ n, c = .tabLeft n → v.con.sizeX < v.con.cursorX → X.tab) : Good Q X v (v.scr c) := by
  unfold Vte.scr
  rcases Screen.step_which h.con hv with ⟨s', e, hi⟩ | ⟨hz, ⟨ch, a, hc, e⟩ | ⟨n, hc, e⟩⟩
  · rw [e]
    refine Good.ok (v' := { v with con := s' }) { h with con := hi } ?_
    exact ⟨rfl, rfl, rfl, rfl, rfl, rfl, rfl, rfl, rfl, ⟨[], by simp⟩, ⟨[c], by simp [hv, hq], by
      show (do let s ← c.run v.con; Screen.runAll [] s : R Screen) = _
      rw [e]; rfl⟩, id⟩
  · subst hc
    obtain ⟨hins, len, el, hlt⟩ := hz
    obtain ⟨len', el', hl⟩ := Screen.symWidth_ok ch
    rw [el] at el'
    injection el' with el'
    have := h.con.geo.x0
    rw [e]
    exact Or.inl ⟨rfl, hw ch a rfl (by omega) hins (by rw [el, show len = 2 by omega])⟩
  · subst hc
    rw [e]
    exact Or.inr (Or.inl ⟨rfl, ht n rfl hz.2⟩)

/-- Calls that are always safe. -/
def harmless : Screen.Call → Bool
  | .write _ _ | .tabLeft _ => false
  | _ => true

/-- For calls other than `write` and `tab_left`. -/
theorem Ok.scr {v : Vte} (h : Ok v) {c : Screen.Call} (hv : c.Valid) (hq : Q c) (hh : harmless c = true := by rfl) :
    Good Q X v (v.scr c) :=
  h.scrAny hv hq (fun _ _ e => by rw [e] at hh; cases hh) (fun _ e => by rw [e] at hh; cases hh)

theorem Ext.emit (v : Vte) (e : Event) : Ext Q v (v.emit e) :=
  ⟨rfl, rfl, rfl, rfl, rfl, rfl, rfl, rfl, rfl, ⟨[e], rfl⟩, ⟨[], by simp, rfl⟩, id⟩

theorem flag_setFlag (v : Vte) (b : Bool) {k j : Nat} (hj : j < 32) :
    (v.setFlag b k).flags.getLsbD j = if k = j then b else v.flags.getLsbD j := by
  unfold Vte.setFlag
  cases b
  · show (v.flags &&& ~~~ (BitVec.twoPow 32 k)).getLsbD j = _
    by_cases h : k = j
    · subst h; simp [hj]
    · simp [hj, h]; exact fun _ h' => h h'.symm
  · show (v.flags ||| BitVec.twoPow 32 k).getLsbD j = _
    by_cases h : k = j
    · subst h; simp [hj]
    · simp [BitVec.getLsbD_twoPow, h]

theorem Ext.setFlag (v : Vte) (b : Bool) (k : Nat) (hk : k ≠ 16 ∨ b = false := by first | decide | exact Or.inl (by decide)) :
    Ext Q v (v.setFlag b k) :=
  ⟨rfl, rfl, rfl, rfl, rfl, rfl, rfl, rfl, rfl, ⟨[], by simp [Vte.setFlag]⟩, ⟨[], by simp, rfl⟩, fun h0 => by
    show (v.setFlag b k).flags.getLsbD 16 = false
    rw [flag_setFlag v b (by decide)]
    split
    · rename_i h1
      rcases hk with hk | hk
      · exact absurd h1 hk
      · exact hk
    · exact h0⟩

theorem Ok.emit {v : Vte} (h : Ok v) (e : Event) : Ok (v.emit e) := { h with }

theorem Ok.setFlag {v : Vte} (h : Ok v) (b : Bool) (k : Nat) (hk : k ≠ 17 := by decide) : Ok (v.setFlag b k) :=
  { h with inh := by rw [flag_setFlag v b (by decide), if_neg hk]; exact h.inh }

theorem Ok.send {v : Vte} (h : Ok v) (b : List UInt8) : Ok (v.send b) ∧ Ext Q v (v.send b) := by
  unfold Vte.send
  split
  · exact ⟨((h.emit _).emit _).setFlag _ _, ((Ext.emit _ _).trans (Ext.emit _ _)).trans (Ext.setFlag _ _ _)⟩
  · exact ⟨(h.emit _).setFlag _ _, (Ext.emit _ _).trans (Ext.setFlag _ _ _)⟩

theorem Ok.reply {v : Vte} (h : Ok v) (hp : 0 < v.parseCnt) (b : List UInt8) : Good Q X v (v.reply b) := by
  unfold Vte.reply
  rw [if_neg (fun hh => by omega)]
  have := h.send (Q := Q) b
  exact Good.ok this.1 this.2

theorem Ok.arg {v : Vte} (h : Ok v) {i : Nat} (hi : i < 16) :
    R.Sat (v.arg i) (fun a => -1 ≤ a ∧ a ≤ 655359 ∧ v.argv[i]? = some a) := by
  unfold Vte.arg
  have hl : i < v.argv.length := by rw [h.argl]; exact hi
  rw [List.getElem?_eq_getElem hl]
  have := h.args _ (List.getElem_mem hl)
  exact ⟨_, rfl, this.1, this.2, rfl⟩

/-! ### Colours -/

theorem lookup_ok {p : Palette} (hp : p.length = 18) {k : Nat} (hk : k < 18) : R.Sat (lookup p k) (fun _ => True) := by
  unfold lookup
  have hl : k < p.length := by rw [hp]; exact hk
  rw [List.getElem?_eq_getElem hl]
  exact ⟨_, rfl, trivial⟩

/-- The fields `to_rgb` does not change. -/
structure SameCodes (a c : Attr) : Prop where
  f : c.fccode = a.fccode
  b : c.bccode = a.bccode
  bold : c.bold = a.bold
  italic : c.italic = a.italic
  underline : c.underline = a.underline
  inverse : c.inverse = a.inverse
  protect : c.protect = a.protect
  blink : c.blink = a.blink

theorem fgIndex_lt (a : Attr) (h : 0 ≤ a.fccode) : fgIndex a < 18 := by
  unfold fgIndex
  dsimp only
  split <;> split <;> omega

theorem bgIndex_lt (a : Attr) (h : 0 ≤ a.bccode) : bgIndex a < 18 := by
  unfold bgIndex
  split <;> omega

theorem toRgb_ok {p : Palette} (hp : p.length = 18) (a : Attr) : R.Sat (toRgb p a) (SameCodes a) := by
  unfold toRgb
  have h1 : R.Sat (fgRgb p a) (SameCodes a) := by
    unfold fgRgb
    split
    · rename_i h
      refine R.Sat.bind (lookup_ok hp (fgIndex_lt a h)) ?_
      intro c _
      exact ⟨_, rfl, rfl, rfl, rfl, rfl, rfl, rfl, rfl, rfl⟩
    · exact ⟨_, rfl, rfl, rfl, rfl, rfl, rfl, rfl, rfl, rfl⟩
  refine R.Sat.bind h1 ?_
  intro b hb
  unfold bgRgb
  split
  · rename_i h
    refine R.Sat.bind (lookup_ok hp (bgIndex_lt b h)) ?_
    intro c _
    exact ⟨_, rfl, hb.f, hb.b, hb.bold, hb.italic, hb.underline, hb.inverse, hb.protect, hb.blink⟩
  · exact ⟨_, rfl, hb⟩

theorem SameCodes.coded {a b : Attr} (h : SameCodes a b) (ha : Coded a) : Coded b :=
  ⟨by rw [h.f]; exact ha.f0, by rw [h.f]; exact ha.f1, by rw [h.b]; exact ha.b0, by rw [h.b]; exact ha.b1, by rw [h.protect]; exact ha.pr⟩

theorem Ok.setCattr {v : Vte} (h : Ok v) {a : Attr} (ha : Coded a) : Ok { v with cattr := a } := { h with cat := ha }

/-- `Ext` for a changed attribute. -/
theorem Ext.cattr (v : Vte) (a : Attr) : Ext Q v { v with cattr := a } :=
  Ext.silent rfl rfl rfl rfl rfl rfl rfl rfl rfl rfl rfl

/-! ### The calls of a terminal -/

/-- Calls that neither change the size, nor a flag of the screen, nor administrate it. -/
def Quiet : Screen.Call → Prop
  | .resize _ _ | .setMaxSb _ | .clearSb | .sbUp _ | .sbDown _ | .sbPageUp _ | .sbPageDown _ | .sbReset
  | .reset | .setFlags _ | .resetFlags _ | .selectionReset | .selectionStart _ _ | .selectionTarget _ _
  | .draw => False
  | _ => True

/-- All calls a terminal makes: no resize, no scrollback size, no scrollback view, no
selection, no drawing. -/
def Term : Screen.Call → Prop
  | .resize _ _ | .setMaxSb _ | .sbUp _ | .sbDown _ | .sbPageUp _ | .sbPageDown _ | .sbReset
  | .selectionReset | .selectionStart _ _ | .selectionTarget _ _ | .draw => False
  | _ => True

/-- As `Quiet`, but flags of the screen other than `ALTERNATE` may change. -/
def Stay : Screen.Call → Prop
  | .setFlags f | .resetFlags f => f.getLsbD 6 = false
  | c => Quiet c

theorem quiet_stay {c : Screen.Call} (h : Quiet c) : Stay c := by
  cases c <;> first | exact h | exact False.elim h

theorem stay_term {c : Screen.Call} (h : Stay c) : Term c := by
  cases c <;> first | exact h | exact trivial | exact False.elim h

theorem quiet_term {c : Screen.Call} (h : Quiet c) : Term c := stay_term (quiet_stay h)

/-- The calls of a terminal that do not enter the alternate screen. -/
def NoEnter : Screen.Call → Prop
  | .setFlags f => f.getLsbD 6 = false
  | c => Term c

/-- The calls of a terminal that do not leave the alternate screen. -/
def NoLeave : Screen.Call → Prop
  | .resetFlags f => f.getLsbD 6 = false
  | .reset | .clearSb => False
  | c => Term c

theorem noEnter_term {c : Screen.Call} (h : NoEnter c) : Term c := by
  cases c <;> first | exact h | exact trivial | exact False.elim h

theorem noLeave_term {c : Screen.Call} (h : NoLeave c) : Term c := by
  cases c <;> first | exact h | exact trivial | exact False.elim h

theorem stay_noEnter {c : Screen.Call} (h : Stay c) : NoEnter c := by
  cases c <;> first | exact h | exact trivial | exact False.elim h

theorem stay_noLeave {c : Screen.Call} (h : Stay c) : NoLeave c := by
  cases c <;> first | exact h | exact trivial | exact False.elim h

/-- Modes are only set by `h` and only reset by `l`. -/
def Way : Bool → Screen.Call → Prop
  | true => NoLeave
  | false => NoEnter

theorem stay_way {b : Bool} {c : Screen.Call} (h : Stay c) : Way b c := by
  cases b
  · exact stay_noEnter h
  · exact stay_noLeave h

theorem way_term {b : Bool} {c : Screen.Call} (h : Way b c) : Term c := by
  cases b
  · exact noEnter_term h
  · exact noLeave_term h

/-! ### Actions -/

theorem Ok.writeConsole {v : Vte} (h : Ok v) {sym : Nat}
    (hw : v.con.sizeX = 1 → v.con.fInsert = true → Screen.symWidth sym = .ok 2 → X.ins) :
    Good Quiet X v (v.writeConsole sym) := by
  unfold Vte.writeConsole
  refine Good.pre (toRgb_ok h.pal v.cattr) ?_
  intro a ha
  exact Good.after (Ext.cattr v a) ((h.setCattr (ha.coded h.cat)).scrAny trivial trivial
    (fun _ _ e => by injection e with e _; rw [← e]; exact hw) (fun _ e => by cases e))

theorem Ok.modeFlag {v : Vte} (h : Ok v) (set : Bool) (k : Nat) (f : BitVec 32)
    (hq : Q (if set then .setFlags f else .resetFlags f)) (hk : k ≠ 16 := by decide) (hk' : k ≠ 17 := by decide) :
    Good Q X v (v.modeFlag set k f) := by
  unfold Vte.modeFlag
  exact Good.after (Ext.setFlag v set k (Or.inl hk)) ((h.setFlag set k hk').scr (by cases set <;> exact trivial) hq (by cases set <;> rfl))

theorem Ok.bce {v : Vte} (h : Ok v) : Good Quiet X v v.bce := by
  unfold Vte.bce
  split
  · exact h.scr trivial trivial
  · exact Good.same h

theorem Ok.saveState {v : Vte} (h : Ok v) : Ok v.saveState := { h with sav := h.cat }

theorem Ok.restoreState {v : Vte} (h : Ok v) : Good Stay X v v.restoreState := by
  unfold Vte.restoreState
  refine Good.bind (h.scr trivial trivial) ?_
  intro v1 h1 _
  refine Good.pre (toRgb_ok h1.pal v1.saved.cattr) ?_
  intro a ha
  refine Good.bind (Good.after (Ext.cattr v1 a)
    (((h1.setCattr (ha.coded h1.sav)).bce).mono (fun _ => quiet_stay))) ?_
  intro v2 h2 _
  have h3 : Ok { v2 with gl := v2.saved.gl, gr := v2.saved.gr } := { h2 with }
  refine Good.after (v := { v2 with gl := v2.saved.gl, gr := v2.saved.gr })
    (Ext.silent rfl rfl rfl rfl rfl rfl rfl rfl rfl rfl rfl) ?_
  refine Good.bind (h3.modeFlag _ _ _ (by split <;> (show BitVec.getLsbD _ _ = _; decide))) ?_
  intro v4 h4 _
  exact h4.modeFlag _ _ _ (by split <;> (show BitVec.getLsbD _ _ = _; decide))

theorem Ok.resetFields {v : Vte} (h : Ok v) : Ok v.resetFields := { h with st := (by intro h; cases h), grt := rfl }

theorem Ok.resetState {v : Vte} (h : Ok v) : Ok v.resetState :=
  { h with
    sav := ⟨by show -1 ≤ v.defAttr.fccode; rw [h.deff]; decide, by show v.defAttr.fccode ≤ 17; rw [h.deff]; decide,
      by show -1 ≤ v.defAttr.bccode; rw [h.defb]; decide, by show v.defAttr.bccode ≤ 17; rw [h.defb]; decide, rfl⟩ }

theorem Ok.defCoded {v : Vte} (h : Ok v) : Coded v.defAttr :=
  ⟨by rw [h.deff]; decide, by rw [h.deff]; decide, by rw [h.defb]; decide, by rw [h.defb]; decide, h.defp⟩

/-- What `reset` needs from the state before (the parser state does not matter). -/
theorem reset_good0 {v : Vte} {st : PState} (h : Ok { v with state := st }) :
    R.SatK v.reset (Kx X) (fun v' => Ok v' ∧ Ext NoEnter v v' ∧ v'.state = .ground) := by
  rcases Screen.step_any (c := .reset) h.con trivial with ⟨s1, e1, hi1⟩ | ⟨hz, _⟩
  rotate_left
  · exact False.elim hz
  rcases Screen.step_any (c := .setFlags Screen.AUTO_WRAP) hi1 trivial with ⟨s2, e2, hi2⟩ | ⟨hz, _⟩
  rotate_left
  · exact False.elim hz
  rcases Screen.step_any (c := .setDefAttr v.defAttr) hi2 trivial with ⟨s3, e3, hi3⟩ | ⟨hz, _⟩
  rotate_left
  · exact False.elim hz
  obtain ⟨a, ea, ha⟩ := toRgb_ok h.pal v.defAttr
  have e1' : Screen.Call.run v.con .reset = .ok s1 := e1
  have ea' : toRgb v.palette v.defAttr = .ok a := ea
  have : v.reset =
      .ok ({ ({ v with flags := resetFlags, con := s2 }).resetFields with cattr := a, con := s3 }).resetState := by
    simp only [Vte.reset, Vte.scr, Vte.resetFields, e1', e2, ea', e3, bind, Except.bind, pure, Except.pure]
  rw [this]
  refine ⟨Ok.resetState ?_, ?_, rfl⟩
  · exact ⟨hi3, h.argl, h.args, h.argc, h.oscl, h.osc, (by intro h; cases h), h.pal, h.cpal,
      ha.coded h.defCoded, h.deff, h.defb, h.defp, h.sav, (by decide : resetFlags.getLsbD 17 = false), rfl⟩
  · refine ⟨rfl, rfl, rfl, rfl, rfl, rfl, rfl, rfl, rfl, ⟨[], by simp [Vte.resetState, Vte.resetFields]⟩,
      ⟨[.reset, .setFlags Screen.AUTO_WRAP, .setDefAttr v.defAttr], ?_, ?_⟩,
      fun _ => (by decide : resetFlags.getLsbD 16 = false)⟩
    · intro c hc
      simp only [List.mem_cons, List.not_mem_nil, or_false] at hc
      rcases hc with rfl | rfl | rfl
      · exact ⟨trivial, trivial⟩
      · exact ⟨trivial, (by decide : Screen.AUTO_WRAP.getLsbD 6 = false)⟩
      · exact ⟨trivial, trivial⟩
    · show (do let s ← Screen.Call.run v.con .reset; Screen.runAll _ s : R Screen) = _
      rw [e1']
      show (do let s ← Screen.Call.run s1 (.setFlags Screen.AUTO_WRAP); Screen.runAll _ s : R Screen) = _
      rw [e2]
      show (do let s ← Screen.Call.run s2 (.setDefAttr v.defAttr); Screen.runAll _ s : R Screen) = _
      rw [e3]; rfl

theorem reset_good' {v : Vte} {st : PState} (h : Ok { v with state := st }) :
    R.SatK v.reset (Kx X) (fun v' => Ok v' ∧ Ext Term v v' ∧ v'.state = .ground) :=
  R.SatK.mono (reset_good0 h) (fun _ hk => hk) (fun _ hv => ⟨hv.1, hv.2.1.mono (fun _ => noEnter_term), hv.2.2⟩)

theorem Ok.resetN {v : Vte} (h : Ok v) : Good NoEnter X v v.reset :=
  R.SatK.mono (reset_good0 (st := v.state) h) (fun _ hk => hk) (fun _ hv => ⟨hv.1, hv.2.1⟩)

theorem Ok.reset {v : Vte} (h : Ok v) : Good Term X v v.reset := h.resetN.mono (fun _ => noEnter_term)

theorem Ok.hardResetN {v : Vte} (h : Ok v) : Good NoEnter X v v.hardReset := by
  unfold Vte.hardReset
  refine Good.bind h.resetN ?_
  intro v1 h1 _
  refine Good.bind (h1.scr trivial trivial) ?_
  intro v2 h2 _
  refine Good.bind (h2.scr trivial trivial) ?_
  intro v3 h3 _
  exact h3.scr trivial trivial

theorem Ok.hardReset {v : Vte} (h : Ok v) : Good Term X v v.hardReset := h.hardResetN.mono (fun _ => noEnter_term)

/-- A single call of the screen with closed arguments. -/
macro "scr_good" h:term : tactic =>
  `(tactic| ((with_reducible refine Ok.scr $h ?_ ?_ ?_) <;>
      first | exact trivial | exact rfl | exact (show (1 : Nat) < 4294967296 by omega)))

/-- Updates of fields that do not matter for the invariant. -/
macro "upd_good" h:term : tactic =>
  `(tactic| ((with_reducible refine Good.ok ?_ ?_) <;>
      first | exact { $h with } | exact Ext.silent rfl rfl rfl rfl rfl rfl rfl rfl rfl rfl rfl))

theorem Ok.execute {v : Vte} (h : Ok v) (hp : 0 < v.parseCnt) (ctrl : Nat) :
    Good Quiet X v (v.execute ctrl) := by
  unfold Vte.execute
  split
  all_goals first
    | with_reducible exact h.reply hp _
    | with_reducible exact h.writeConsole (fun _ _ e => absurd e (by decide))
    | with_reducible exact Good.same h
    | scr_good h
    | (split <;> scr_good h)
    | upd_good h

theorem Ok.clear {v : Vte} (h : Ok v) : Ok v.clear :=
  { h with
    argl := by simp [Vte.clear]
    args := by intro a ha; simp only [Vte.clear, List.mem_replicate] at ha; omega
    argc := by simp [Vte.clear]
    oscl := by simp [Vte.clear]
    osc := by simp [Vte.clear] }

theorem Ok.collect {v : Vte} (h : Ok v) (d : Nat) : Ok (v.collect d) := { h with }

theorem mem_set_of {α : Type} {l : List α} {i : Nat} {x a : α} (h : a ∈ l.set i x) : a = x ∨ a ∈ l := by
  rcases List.mem_or_eq_of_mem_set h with h | h
  · exact Or.inr h
  · exact Or.inl h

theorem Ok.setArg {v : Vte} (h : Ok v) (i : Nat) {x : Int} (h0 : -1 ≤ x) (h1 : x ≤ 655359) :
    Ok { v with argv := v.argv.set i x } :=
  { h with
    argl := by simp [h.argl]
    args := by
      intro a ha
      rcases mem_set_of ha with rfl | ha
      · exact ⟨h0, h1⟩
      · exact h.args a ha }

theorem Ok.param {v : Vte} (h : Ok v) (d : Nat) : Good Quiet X v (v.param d) := by
  unfold Vte.param
  split
  · refine Good.ok ?_ ?_
    · split
      · rename_i hc; exact { h with argc := by show v.argc + 1 ≤ 16; omega }
      · exact h
    · split
      · exact Ext.silent rfl rfl rfl rfl rfl rfl rfl rfl rfl rfl rfl
      · exact Ext.refl v
  · split
    · exact Good.same h
    · rename_i hc
      refine Good.pre (h.arg (Nat.lt_of_not_le hc)) ?_
      intro a ha
      split
      · exact Good.same h
      · split
        · rename_i hd
          refine Good.ok (h.setArg _ ?_ ?_) (Ext.silent rfl rfl rfl rfl rfl rfl rfl rfl rfl rfl rfl)
          · unfold digit; split <;> omega
          · unfold digit; split <;> omega
        · exact Good.same h

theorem Ok.escPlain {v : Vte} (h : Ok v) (hp : 0 < v.parseCnt) (d : Nat) : Good NoEnter X v (v.escPlain d) := by
  have hrest : Good NoEnter X v v.restoreState := h.restoreState.mono (fun _ => stay_noEnter)
  unfold Vte.escPlain
  split
  all_goals first
    | with_reducible exact h.reply hp _
    | with_reducible exact h.hardResetN
    | with_reducible exact hrest
    | with_reducible exact Good.same h
    | with_reducible exact Good.ok (h.setFlag _ _) (Ext.setFlag _ _ _)
    | scr_good h
    | upd_good h
    | skip
  exact Good.ok h.saveState (Ext.silent rfl rfl rfl rfl rfl rfl rfl rfl rfl rfl rfl)

theorem setCharset_ok {v v' : Vte} (h : Ok v) {c : Cset} (e : v.setCharset c = some v') : Ok v' ∧ Ext Q v v' := by
  unfold Vte.setCharset at e
  split at e
  · cases e; exact ⟨{ h with }, Ext.silent rfl rfl rfl rfl rfl rfl rfl rfl rfl rfl rfl⟩
  · split at e
    · cases e; exact ⟨{ h with }, Ext.silent rfl rfl rfl rfl rfl rfl rfl rfl rfl rfl rfl⟩
    · split at e
      · cases e; exact ⟨{ h with }, Ext.silent rfl rfl rfl rfl rfl rfl rfl rfl rfl rfl rfl⟩
      · split at e
        · cases e; exact ⟨{ h with }, Ext.silent rfl rfl rfl rfl rfl rfl rfl rfl rfl rfl rfl⟩
        · cases e

theorem Ok.escDispatch {v : Vte} (h : Ok v) (hp : 0 < v.parseCnt) (d : Nat) : Good NoEnter X v (v.escDispatch d) := by
  unfold Vte.escDispatch
  split
  · rename_i v' e
    cases hc : escCharset d with
    | none => rw [hc] at e; cases e
    | some c =>
      rw [hc] at e
      have := setCharset_ok (Q := NoEnter) h (c := c) e
      exact Good.ok this.1 this.2
  · unfold Vte.escOther
    split
    · exact Good.ok (h.setFlag _ _) (Ext.setFlag _ _ _)
    · split
      · exact Good.ok (h.setFlag _ _) (Ext.setFlag _ _ _)
      · split
        · exact Good.same h
        · exact h.escPlain hp d

/-! ### SGR -/

theorem sgrSimple_coded {a d : Attr} (ha : Coded a) (hd : Coded d) (n : Nat) : Coded (sgrSimple a d n) := by
  unfold sgrSimple
  split
  case h_1 => exact ⟨hd.f0, hd.f1, hd.b0, hd.b1, ha.pr⟩
  case h_12 => exact ⟨hd.f0, hd.f1, ha.b0, ha.b1, ha.pr⟩
  case h_13 => exact ⟨ha.f0, ha.f1, hd.b0, hd.b1, ha.pr⟩
  case h_14 =>
    split
    · exact ⟨by show -1 ≤ (n : Int) - 30; omega, by show (n : Int) - 30 ≤ 17; omega, ha.b0, ha.b1, ha.pr⟩
    · split
      · exact ⟨ha.f0, ha.f1, by show -1 ≤ (n : Int) - 40; omega, by show (n : Int) - 40 ≤ 17; omega, ha.pr⟩
      · split
        · exact ⟨by show -1 ≤ (n : Int) - 82; omega, by show (n : Int) - 82 ≤ 17; omega, ha.b0, ha.b1, ha.pr⟩
        · split
          · exact ⟨ha.f0, ha.f1, by show -1 ≤ (n : Int) - 92; omega, by show (n : Int) - 92 ≤ 17; omega, ha.pr⟩
          · exact ha
  all_goals exact ⟨ha.f0, ha.f1, ha.b0, ha.b1, ha.pr⟩

theorem setColor_coded {a : Attr} (ha : Coded a) (fore : Bool) {c : Int × Nat × Nat × Nat} (h0 : -1 ≤ c.1)
    (h1 : c.1 ≤ 17) : Coded (setColor a fore c) := by
  unfold setColor
  split
  · exact ⟨h0, h1, ha.b0, ha.b1, ha.pr⟩
  · exact ⟨ha.f0, ha.f1, h0, h1, ha.pr⟩

theorem color256_code (n : Nat) : -1 ≤ (color256 n).1 ∧ (color256 n).1 ≤ 17 := by
  unfold color256
  split
  · show -1 ≤ (n : Int) ∧ (n : Int) ≤ 17; omega
  · split <;> exact ⟨(by decide : (-1 : Int) ≤ -1), (by decide : (-1 : Int) ≤ 17)⟩

theorem Ok.sgr256 {v : Vte} (h : Ok v) (i : Nat) :
    R.Sat (v.sgr256 i) (fun c => ∀ x, c = some x → -1 ≤ x.1 ∧ x.1 ≤ 17) := by
  unfold Vte.sgr256
  split
  · exact ⟨_, rfl, by intro x h; cases h⟩
  · have := h.argc
    refine R.Sat.bind (h.arg (i := i + 2) (by omega)) ?_
    intro a _
    split
    · exact ⟨_, rfl, by intro x h; cases h⟩
    · exact ⟨_, rfl, by intro x h; cases h; exact color256_code _⟩

theorem Ok.sgrTrue {v : Vte} (h : Ok v) (i : Nat) :
    R.Sat (v.sgrTrue i) (fun c => ∀ x, c = some x → -1 ≤ x.1 ∧ x.1 ≤ 17) := by
  unfold Vte.sgrTrue
  split
  · exact ⟨_, rfl, by intro x h; cases h⟩
  · have := h.argc
    refine R.Sat.bind (h.arg (i := i + 2) (by omega)) ?_
    intro a _
    refine R.Sat.bind (h.arg (i := i + 3) (by omega)) ?_
    intro b _
    refine R.Sat.bind (h.arg (i := i + 4) (by omega)) ?_
    intro c _
    split
    · exact ⟨_, rfl, by intro x h; cases h⟩
    · exact ⟨_, rfl, by intro x h; cases h; exact ⟨(by decide : (-1 : Int) ≤ -1), (by decide : (-1 : Int) ≤ 17)⟩⟩

/-- The 16th parameter is 38 or 48: SGR then looks at a 17th one. -/
def BadArg (v : Vte) : Prop := v.argc = 16 ∧ (v.argv[15]? = some 38 ∨ v.argv[15]? = some 48)

theorem Ok.sgrExt {v : Vte} (h : Ok v) {a : Attr} (ha : Coded a) {i : Nat} (hi : i < v.argc) (fore : Bool)
    (hx : i = 15 → X.arg) : R.SatK (v.sgrExt a i fore) (Kx X) (fun r => Coded r.1) := by
  unfold Vte.sgrExt
  have hc := h.argc
  by_cases h15 : i = 15
  · have : v.arg (i + 1) = .error .csiArg := by
      unfold Vte.arg
      rw [List.getElem?_eq_none (by rw [h.argl]; omega)]
    rw [this]
    exact Or.inr (Or.inr ⟨rfl, hx h15⟩)
  · refine R.SatK.bind ((h.arg (i := i + 1) (by omega)).toK _) ?_
    intro m _
    split
    · refine R.SatK.bind ((h.sgr256 i).toK _) ?_
      intro c hc
      cases c with
      | none => exact ha
      | some x => exact setColor_coded ha fore (hc x rfl).1 (hc x rfl).2
    · split
      · refine R.SatK.bind ((h.sgrTrue i).toK _) ?_
        intro c hc
        cases c with
        | none => exact ha
        | some x => exact setColor_coded ha fore (hc x rfl).1 (hc x rfl).2
      · exact ha

theorem Ok.sgrOne {v : Vte} (h : Ok v) {a : Attr} (ha : Coded a) {i : Nat} (hi : i < v.argc)
    (hx : BadArg v → X.arg) : R.SatK (v.sgrOne a i) (Kx X) (fun r => Coded r.1) := by
  unfold Vte.sgrOne
  have hc := h.argc
  refine R.SatK.bind ((h.arg (i := i) (by omega)).toK _) ?_
  intro n hn
  split
  · exact ha
  · split
    · rename_i h38
      refine h.sgrExt ha hi true (fun h15 => hx ⟨by omega, Or.inl ?_⟩)
      rw [← h15, ← h38]; exact hn.2.2
    · split
      · rename_i h48
        refine h.sgrExt ha hi false (fun h15 => hx ⟨by omega, Or.inr ?_⟩)
        rw [← h15, ← h48]; exact hn.2.2
      · exact sgrSimple_coded ha h.defCoded _

theorem Ok.sgrLoop {v : Vte} (h : Ok v) (hx : BadArg v → X.arg) : ∀ (fuel i : Nat) {a : Attr}, Coded a →
    R.SatK (v.sgrLoop fuel i a) (Kx X) Coded := by
  intro fuel
  induction fuel with
  | zero => intro i a ha; exact ha
  | succ fuel ih =>
    intro i a ha
    unfold Vte.sgrLoop
    split
    · exact ha
    · refine R.SatK.bind (h.sgrOne ha (by omega) hx) ?_
      intro r hr
      exact ih _ hr

theorem Ok.sgrDefault {v : Vte} (h : Ok v) : R.Sat v.sgrDefault (fun v' => Ok v' ∧ Ext Quiet v v' ∧
    v'.cattr = v.cattr ∧ (BadArg v' → BadArg v)) := by
  unfold Vte.sgrDefault
  refine R.Sat.bind (h.arg (i := 0) (by decide)) ?_
  intro a _
  split
  · refine ⟨_, rfl, ?_, Ext.silent rfl rfl rfl rfl rfl rfl rfl rfl rfl rfl rfl, rfl, ?_⟩
    · have := h.setArg 0 (x := 0) (by decide) (by decide)
      exact { this with argc := (by decide : 1 ≤ 16) }
    · intro hb; exact absurd (show 1 = 16 from hb.1) (by decide)
  · exact ⟨_, rfl, h, Ext.refl v, rfl, id⟩

theorem Ok.sgr {v : Vte} (h : Ok v) (hx : BadArg v → X.arg) : Good Quiet X v v.sgr := by
  unfold Vte.sgr
  refine Good.pre h.sgrDefault ?_
  intro v1 h1
  refine Good.after h1.2.1 ?_
  refine R.SatK.bind (h1.1.sgrLoop (fun hb => hx (h1.2.2.2 hb)) _ _ h1.1.cat) ?_
  intro a ha
  refine Good.pre (toRgb_ok h1.1.pal a) ?_
  intro b hb
  exact Good.after (Ext.cattr v1 b) (h1.1.setCattr (hb.coded ha)).bce

/-! ### Modes -/

theorem Ok.compatMode {v : Vte} (h : Ok v) : Good NoEnter X v v.compatMode := by
  unfold Vte.compatMode
  refine Good.bind h.resetN ?_
  intro v1 h1 _
  refine Good.pre (h1.arg (i := 0) (by decide)) ?_
  intro a _
  refine Good.pre (h1.arg (i := 1) (by decide)) ?_
  intro b _
  split
  · exact Good.ok { h1.setFlag true 4 with } ((Ext.setFlag v1 true 4).trans
      (Ext.silent rfl rfl rfl rfl rfl rfl rfl rfl rfl rfl rfl))
  · split
    · split
      · exact Good.ok { (h1.setFlag true 5).setFlag true 3 with } (((Ext.setFlag v1 true 5).trans (Ext.setFlag _ true 3)).trans
          (Ext.silent rfl rfl rfl rfl rfl rfl rfl rfl rfl rfl rfl))
      · exact Good.ok { h1.setFlag true 3 with } ((Ext.setFlag v1 true 3).trans
          (Ext.silent rfl rfl rfl rfl rfl rfl rfl rfl rfl rfl rfl))
    · exact Good.same h1

theorem Ok.ansiMode {v : Vte} (h : Ok v) (set : Bool) (n : Nat) : Good Stay X v (v.ansiMode set n) := by
  unfold Vte.ansiMode
  split
  all_goals first
    | with_reducible exact Good.same h
    | with_reducible exact Good.ok (h.setFlag _ _) (Ext.setFlag _ _ _)
    | exact h.modeFlag _ _ _ (by cases set <;> (show BitVec.getLsbD _ _ = _; decide))

theorem Ok.mouseNotify {v : Vte} (h : Ok v) (c p : Bool) : Ok (v.mouseNotify c p) ∧ Ext Q v (v.mouseNotify c p) := by
  unfold Vte.mouseNotify
  split
  · exact ⟨h.emit _, Ext.emit _ _⟩
  · exact ⟨h, Ext.refl v⟩

theorem Ok.modeX10 {v : Vte} (h : Ok v) (set : Bool) : Good Q X v (.ok (v.modeX10 set)) := by
  unfold Vte.modeX10
  refine Good.after (v := { v with mouseMode := if set then 9 else 0, mouseEvent := 1002 }) ?_ ?_
  · exact Ext.silent rfl rfl rfl rfl rfl rfl rfl rfl rfl rfl rfl
  · have : Ok { v with mouseMode := if set then 9 else 0, mouseEvent := 1002 } := { h with }
    exact Good.ok (this.mouseNotify (Q := Q) _ _).1 (this.mouseNotify _ _).2

theorem Ok.modeMouseEvent {v : Vte} (h : Ok v) (set : Bool) (n : Nat) :
    Good Q X v (.ok (v.modeMouseEvent set n)) := by
  unfold Vte.modeMouseEvent
  refine Good.after (v := { v with mouseEvent := if v.mouseMode = 9 then 1002 else if set then n else 0 }) ?_ ?_
  · exact Ext.silent rfl rfl rfl rfl rfl rfl rfl rfl rfl rfl rfl
  · have : Ok { v with mouseEvent := if v.mouseMode = 9 then 1002 else if set then n else 0 } := { h with }
    exact Good.ok (this.mouseNotify (Q := Q) _ _).1 (this.mouseNotify _ _).2

theorem Ok.modeMouse {v : Vte} (h : Ok v) (set : Bool) (n : Nat) : Good Q X v (.ok (v.modeMouse set n)) := by
  unfold Vte.modeMouse
  refine Good.after (v := { v with mouseMode := if set then n else 0 }) ?_ ?_
  · exact Ext.silent rfl rfl rfl rfl rfl rfl rfl rfl rfl rfl rfl
  · have : Ok { v with mouseMode := if set then n else 0 } := { h with }
    exact Good.ok (this.mouseNotify (Q := Q) _ _).1 (this.mouseNotify _ _).2

theorem Ok.saveAlt {v : Vte} (h : Ok v) : Ok v.saveAlt := { h with }

/-- The DEC modes that switch screens or move the cursor. -/
def isAltMode (n : Nat) : Prop := n = 47 ∨ n = 1047 ∨ n = 1048 ∨ n = 1049

theorem Ok.decModeAlt {v : Vte} (h : Ok v) (set : Bool) : Good (Way set) X v (v.mode47 set) ∧
    Good (Way set) X v (v.mode1047 set) ∧ Good (Way set) X v (v.mode1048 set) ∧ Good (Way set) X v (v.mode1049 set) := by
  cases set with
  | true =>
    refine ⟨?_, ?_, ?_, ?_⟩
    · unfold Vte.mode47
      split
      · exact Good.same h
      · rw [if_pos rfl]
        scr_good h
    · unfold Vte.mode1047
      split
      · exact Good.same h
      · rw [if_pos rfl]
        scr_good h
    · unfold Vte.mode1048
      split
      · exact Good.same h
      · exact Good.ok h.saveAlt (Ext.silent rfl rfl rfl rfl rfl rfl rfl rfl rfl rfl rfl)
    · unfold Vte.mode1049
      split
      · exact Good.same h
      · refine Good.after (v := v.saveAlt) (Ext.silent rfl rfl rfl rfl rfl rfl rfl rfl rfl rfl rfl) ?_
        refine Good.bind (h.saveAlt.scr trivial trivial) ?_
        intro v1 h1 _
        scr_good h1
  | false =>
    refine ⟨?_, ?_, ?_, ?_⟩
    · unfold Vte.mode47
      split
      · exact Good.same h
      · rw [if_neg (by decide)]
        scr_good h
    · unfold Vte.mode1047
      split
      · exact Good.same h
      · rw [if_neg (by decide)]
        refine Good.bind (h.scr trivial trivial) ?_
        intro v1 h1 _
        scr_good h1
    · unfold Vte.mode1048
      split
      · exact Good.same h
      · rw [if_neg (by decide)]
        scr_good h
    · unfold Vte.mode1049
      split
      · exact Good.same h
      · rw [if_neg (by decide)]
        refine Good.bind (h.scr trivial trivial) ?_
        intro v1 h1 _
        scr_good h1

theorem Ok.decModeStay {v : Vte} (h : Ok v) (set : Bool) {n : Nat} (hn : ¬ isAltMode n) :
    Good Stay X v (v.decMode set n) := by
  unfold Vte.decMode
  split
  case h_2 | h_3 | h_4 => exact h.modeFlag _ _ _ (by cases set <;> (show BitVec.getLsbD _ _ = _; decide))
  case h_6 => exact h.modeX10 set
  case h_7 =>
    refine Good.after (Ext.setFlag v set 9) ?_
    exact (h.setFlag set 9).scr (by cases set <;> exact trivial)
      (by cases set <;> (show BitVec.getLsbD _ _ = _; decide)) (by cases set <;> rfl)
  case h_9 => exact absurd (Or.inl rfl) hn
  case h_10 => exact absurd (Or.inr (Or.inl rfl)) hn
  case h_11 => exact absurd (Or.inr (Or.inr (Or.inl rfl))) hn
  case h_12 => exact absurd (Or.inr (Or.inr (Or.inr rfl))) hn
  case h_13 | h_14 => exact h.modeMouseEvent set _
  case h_15 | h_16 => exact h.modeMouse set _
  case h_17 => exact Good.same h
  all_goals exact Good.ok (h.setFlag _ _) (Ext.setFlag _ _ _)

theorem Ok.decMode {v : Vte} (h : Ok v) (set : Bool) (n : Nat) : Good (Way set) X v (v.decMode set n) := by
  by_cases hn : isAltMode n
  · have := h.decModeAlt (X := X) set
    rcases hn with rfl | rfl | rfl | rfl
    · exact this.1
    · exact this.2.1
    · exact this.2.2.1
    · exact this.2.2.2
  · exact (h.decModeStay set hn).mono (fun _ => stay_way)

theorem Ok.modeOne {v : Vte} (h : Ok v) (set : Bool) {i : Nat} (hi : i < 16) : Good (Way set) X v (v.modeOne set i) := by
  unfold Vte.modeOne
  refine Good.pre (h.arg hi) ?_
  intro a _
  split
  · exact Good.same h
  · split
    · exact h.decMode set _
    · exact (h.ansiMode set _).mono (fun _ => stay_way)

theorem Ok.modeLoop (set : Bool) : ∀ (is : List Nat) {v : Vte}, Ok v → (∀ i ∈ is, i < 16) →
    Good (Way set) X v (modeLoop set v is) := by
  intro is
  induction is with
  | nil => intro v h _; exact Good.same h
  | cons i is ih =>
    intro v h hi
    unfold Vte.modeLoop
    refine Good.bind (h.modeOne set (hi i (List.mem_cons_self ..))) ?_
    intro v1 h1 _
    exact ih h1 (fun j hj => hi j (List.mem_cons_of_mem _ hj))

theorem Ok.mode {v : Vte} (h : Ok v) (set : Bool) : Good (Way set) X v (v.mode set) := by
  unfold Vte.mode
  refine Ok.modeLoop set _ h ?_
  intro i hi
  have := List.mem_range.mp hi
  have := h.argc
  omega

/-! ### CSI -/

theorem Ok.num1 {v : Vte} (h : Ok v) {i : Nat} (hi : i < 16) :
    R.Sat (v.num1 i) (fun n => 1 ≤ n ∧ n ≤ 655359 ∧ ∃ a, v.argv[i]? = some a ∧ n = if a ≤ 0 then 1 else a.toNat) := by
  unfold Vte.num1
  refine R.Sat.bind (h.arg hi) ?_
  intro a ha
  refine ⟨_, rfl, ?_, ?_, a, ha.2.2, rfl⟩
  · split <;> omega
  · split <;> omega

theorem Ok.num0 {v : Vte} (h : Ok v) {i : Nat} (hi : i < 16) :
    R.Sat (v.num0 i) (fun n => n ≤ 655359 ∧ ∃ a, v.argv[i]? = some a ∧ n = a.toNat) := by
  unfold Vte.num0
  refine R.Sat.bind (h.arg hi) ?_
  intro a ha
  exact ⟨_, rfl, by omega, a, ha.2.2, rfl⟩

/-- One call with the first parameter as number. -/
theorem Ok.call1 {v : Vte} (h : Ok v) (f : Nat → Screen.Call) (hv : ∀ n, n ≤ 655359 → (f n).Valid)
    (hq : ∀ n, Q (f n)) (hh : ∀ n, harmless (f n) = true := by intro n; rfl) : Good Q X v (do let n ← v.num1 0; v.scr (f n)) := by
  refine Good.pre (h.num1 (i := 0) (by decide)) ?_
  intro n hn
  exact h.scr (hv n hn.2.1) (hq n) (hh n)

theorem Ok.devAttr {v : Vte} (h : Ok v) (hp : 0 < v.parseCnt) : Good Quiet X v v.devAttr := by
  unfold Vte.devAttr
  refine Good.pre (h.arg (i := 0) (by decide)) ?_
  intro a _
  split
  · split
    · exact h.reply hp _
    · split
      · exact h.reply hp _
      · exact Good.same h
  · exact Good.same h

theorem Ok.dsr {v : Vte} (h : Ok v) (hp : 0 < v.parseCnt) : Good Quiet X v v.dsr := by
  unfold Vte.dsr
  refine Good.pre (h.arg (i := 0) (by decide)) ?_
  intro a _
  split
  · exact h.reply hp _
  · split
    · split <;> exact h.reply hp _
    · exact Good.same h

theorem Ok.csiEd {v : Vte} (h : Ok v) : Good Quiet X v v.csiEd := by
  unfold Vte.csiEd
  refine Good.pre (h.arg (i := 0) (by decide)) ?_
  intro a _
  split
  · scr_good h
  · split
    · scr_good h
    · split
      · scr_good h
      · exact Good.same h

theorem Ok.csiEl {v : Vte} (h : Ok v) : Good Quiet X v v.csiEl := by
  unfold Vte.csiEl
  refine Good.pre (h.arg (i := 0) (by decide)) ?_
  intro a _
  split
  · scr_good h
  · split
    · scr_good h
    · split
      · scr_good h
      · exact Good.same h

theorem Ok.csiTbc {v : Vte} (h : Ok v) : Good Quiet X v v.csiTbc := by
  unfold Vte.csiTbc
  refine Good.pre (h.arg (i := 0) (by decide)) ?_
  intro a _
  split
  · scr_good h
  · split
    · scr_good h
    · exact Good.same h

theorem Ok.csiP {v : Vte} (h : Ok v) : Good NoEnter X v v.csiP := by
  unfold Vte.csiP
  split
  · exact h.resetN
  · split
    · exact h.resetN
    · split
      · exact Good.same h
      · exact h.compatMode

/-- The CSI sequences that neither reset nor change modes. -/
theorem Ok.csiQuiet {v : Vte} (h : Ok v) (hp : 0 < v.parseCnt) {k : Csi} (hx : k = .sgr → BadArg v → X.arg)
    (ht : k = .cbt → v.con.sizeX < v.con.cursorX → X.tab) (hk : k ≠ .p ∧ k ≠ .sm ∧ k ≠ .rm) : Good Quiet X v (v.csiRun k) := by
  have hv1 : ∀ n, n ≤ 655359 → n < 4294967296 := by omega
  cases k with
  | p => exact absurd rfl hk.1
  | sm => exact absurd rfl hk.2.1
  | rm => exact absurd rfl hk.2.2
  | cuu => exact h.call1 (fun n => .moveUp n false) hv1 (fun _ => trivial)
  | cud => exact h.call1 (fun n => .moveDown n false) (fun _ _ => trivial) (fun _ => trivial)
  | cuf => exact h.call1 (fun n => .moveRight n) (fun _ _ => trivial) (fun _ => trivial)
  | cub => exact h.call1 (fun n => .moveLeft n) (fun _ _ => trivial) (fun _ => trivial)
  | vpa => exact h.call1 (fun n => .moveTo v.con.cursorX (n - 1)) (fun _ _ => trivial) (fun _ => trivial)
  | vpr => exact h.call1 (fun n => .moveTo v.con.cursorX (v.con.cursorY + n)) (fun _ _ => trivial) (fun _ => trivial)
  | cha => exact h.call1 (fun n => .moveTo (n - 1) v.con.cursorY) (fun _ _ => trivial) (fun _ => trivial)
  | ech => exact h.call1 (fun n => .eraseChars n) (fun _ _ => trivial) (fun _ => trivial)
  | il => exact h.call1 (fun n => .insertLines n) (fun _ _ => trivial) (fun _ => trivial)
  | dl => exact h.call1 (fun n => .deleteLines n) (fun _ _ => trivial) (fun _ => trivial)
  | ich => exact h.call1 (fun n => .insertChars n) (fun _ _ => trivial) (fun _ => trivial)
  | dch => exact h.call1 (fun n => .deleteChars n) (fun _ _ => trivial) (fun _ => trivial)
  | cbt =>
    refine Good.pre (h.num1 (i := 0) (by decide)) ?_
    intro n _
    exact h.scrAny trivial trivial (fun _ _ e => by cases e) (fun _ _ => ht rfl)
  | cht => exact h.call1 (fun n => .tabRight n) (fun _ _ => trivial) (fun _ => trivial)
  | su => exact h.call1 (fun n => .scrollUp n) (fun _ _ => trivial) (fun _ => trivial)
  | sd => exact h.call1 (fun n => .scrollDown n) (fun _ _ => trivial) (fun _ => trivial)
  | cnl =>
    refine Good.pre (h.num1 (i := 0) (by decide)) ?_
    intro n hn
    refine Good.bind (h.scr trivial trivial) ?_
    intro v1 h1 _
    scr_good h1
  | cpl =>
    refine Good.pre (h.num1 (i := 0) (by decide)) ?_
    intro n hn
    refine Good.bind (h.scr (hv1 n hn.2.1) trivial) ?_
    intro v1 h1 _
    scr_good h1
  | cup =>
    refine Good.pre (h.num1 (i := 0) (by decide)) ?_
    intro x _
    refine Good.pre (h.num1 (i := 1) (by decide)) ?_
    intro y _
    scr_good h
  | decstbm =>
    refine Good.pre (h.num0 (i := 0) (by decide)) ?_
    intro x _
    refine Good.pre (h.num0 (i := 1) (by decide)) ?_
    intro y _
    scr_good h
  | ed => exact h.csiEd
  | el => exact h.csiEl
  | sgr => exact h.sgr (hx rfl)
  | da => exact h.devAttr hp
  | dsr => exact h.dsr hp
  | tbc => exact h.csiTbc
  | unknown => exact Good.same h

theorem Ok.csiRun {v : Vte} (h : Ok v) (hp : 0 < v.parseCnt) {k : Csi} (hx : k = .sgr → BadArg v → X.arg)
    (ht : k = .cbt → v.con.sizeX < v.con.cursorX → X.tab) :
    Good (Way (decide (k = .sm))) X v (v.csiRun k) := by
  by_cases hk : k ≠ .p ∧ k ≠ .sm ∧ k ≠ .rm
  · exact (h.csiQuiet hp hx ht hk).mono (fun _ hq => stay_way (quiet_stay hq))
  · cases k with
    | p => exact h.csiP
    | sm => exact h.mode true
    | rm => exact h.mode false
    | _ => exact absurd ⟨(by intro h; cases h), (by intro h; cases h), (by intro h; cases h)⟩ hk

/-- The state in which the `switch` of `do_csi` is entered. -/
def counted (v : Vte) : Vte := if v.argc < 16 then { v with argc := v.argc + 1 } else v

theorem Ok.counted {v : Vte} (h : Ok v) : Ok v.counted ∧ Ext Q v v.counted ∧ v.counted.parseCnt = v.parseCnt := by
  unfold Vte.counted
  split
  · exact ⟨{ h with argc := by show v.argc + 1 ≤ 16; omega },
      Ext.silent rfl rfl rfl rfl rfl rfl rfl rfl rfl rfl rfl, rfl⟩
  · exact ⟨h, Ext.refl v, rfl⟩

/-- The situation in which the parameter array is read out of bounds: SGR with at least 16
parameters, the 16th of which is 38 or 48. -/
def BadSgr (v : Vte) (data : Nat) : Prop :=
  data = 0x6d ∧ 15 ≤ v.argc ∧ (v.argv[15]? = some 38 ∨ v.argv[15]? = some 48)

theorem csiKind_sgr {d : Nat} (h : csiKind d = .sgr) : d = 0x6d := by
  unfold csiKind at h
  split at h <;> first | rfl | cases h

theorem csiKind_cbt {d : Nat} (h : csiKind d = .cbt) : d = 0x5a := by
  unfold csiKind at h
  split at h <;> first | rfl | cases h

/-- A back tab from beyond the last column. -/
def BadTab (v : Vte) (data : Nat) : Prop := data = 0x5a ∧ v.con.sizeX < v.con.cursorX

theorem Ok.csiDispatch {v : Vte} (h : Ok v) (hp : 0 < v.parseCnt) (d : Nat) (hx : BadSgr v d → X.arg)
    (ht : BadTab v d → X.tab) :
    Good (Way (decide (csiKind d = .sm))) X v (v.csiDispatch d) := by
  show Good (Way (decide (csiKind d = .sm))) X v (v.counted.csiRun (csiKind d))
  have hc := h.counted (Q := Way (decide (csiKind d = .sm)))
  refine Good.after hc.2.1 (hc.1.csiRun (by rw [hc.2.2]; exact hp) ?_ ?_)
  rotate_left
  · intro hk hc
    refine ht ⟨csiKind_cbt hk, ?_⟩
    unfold Vte.counted at hc
    split at hc <;> exact hc
  intro hk hb
  refine hx ⟨csiKind_sgr hk, ?_, ?_⟩
  · have := hb.1
    unfold Vte.counted at this
    split at this
    · have : v.argc + 1 = 16 := this
      omega
    · omega
  · have := hb.2
    unfold Vte.counted at this
    split at this <;> exact this

/-! ### Printing and strings -/

theorem table_length (c : Cset) : (table c).length = 96 := by cases c <;> decide +kernel

theorem entry_ok (c : Cset) {i : Nat} (hi : i < 96) : R.Sat (entry c i) (fun g => (table c)[i]? = some g) := by
  unfold entry
  rw [List.getElem?_eq_getElem (by rw [table_length]; exact hi)]
  exact ⟨_, rfl, rfl⟩

theorem Ok.map {v : Vte} (h : Ok v) (val : Nat) : R.Sat (v.map val) (fun r => Ok r.1 ∧ Ext Q v r.1) := by
  unfold Vte.map
  split
  · split
    · refine R.Sat.bind (entry_ok _ (by omega)) ?_
      intro g _
      exact ⟨_, rfl, { h with }, Ext.silent rfl rfl rfl rfl rfl rfl rfl rfl rfl rfl rfl⟩
    · refine R.Sat.bind (entry_ok _ (by omega)) ?_
      intro g _
      exact ⟨_, rfl, h, Ext.refl v⟩
  · split
    · split
      · refine R.Sat.bind (entry_ok _ (by omega)) ?_
        intro g _
        exact ⟨_, rfl, { h with grt := rfl }, Ext.silent rfl rfl rfl rfl rfl rfl rfl rfl rfl rfl rfl⟩
      · refine R.Sat.bind (entry_ok _ (by omega)) ?_
        intro g _
        exact ⟨_, rfl, h, Ext.refl v⟩
    · exact ⟨_, rfl, h, Ext.refl v⟩

theorem map_con {v : Vte} {val : Nat} {r : Vte × Nat} (e : v.map val = .ok r) : r.1.con = v.con := by
  unfold Vte.map at e
  have hb : ∀ {x : R Nat} {w : Vte}, w.con = v.con → (do let g ← x; pure (w, g) : R (Vte × Nat)) = .ok r →
      r.1.con = v.con := by
    intro x w hw h
    cases x with
    | ok g => injection h with h; rw [← h]; exact hw
    | error k => cases h
  split at e
  · split at e
    · exact hb (w := { v with glt := none }) rfl e
    · exact hb (w := v) rfl e
  · split at e
    · split at e
      · exact hb (w := { v with grt := none }) rfl e
      · exact hb (w := v) rfl e
    · injection e with e; rw [← e]

/-- A character that is shown two columns wide in insert mode on a screen of one column. -/
def BadPrint (v : Vte) (d : Nat) : Prop :=
  v.con.sizeX = 1 ∧ v.con.fInsert = true ∧ Screen.symWidth (symbolMake d) = .ok 2

/-- No character set has a wide character. -/
theorem table_narrow (c : Cset) : ∀ g ∈ table c, Screen.symWidth (symbolMake g) ≠ .ok 2 := by
  cases c <;> decide +kernel

theorem entry_mem {c : Cset} {i g : Nat} (e : entry c i = .ok g) : g ∈ table c := by
  unfold entry at e
  split at e
  · rename_i g' h
    injection e with e
    rw [← e]
    exact List.mem_of_getElem? h
  · cases e

theorem map_wide {v : Vte} {val : Nat} {r : Vte × Nat} (e : v.map val = .ok r)
    (hr : Screen.symWidth (symbolMake r.2) = .ok 2) : Screen.symWidth (symbolMake val) = .ok 2 := by
  unfold Vte.map at e
  have hb : ∀ {c : Cset} {i : Nat} {w : Vte}, (do let g ← entry c i; pure (w, g) : R (Vte × Nat)) = .ok r → False := by
    intro c i w h
    cases hx : entry c i with
    | ok g => rw [hx] at h; injection h with h; rw [← h] at hr; exact table_narrow c g (entry_mem hx) hr
    | error k => rw [hx] at h; cases h
  split at e
  · split at e
    · exact (hb e).elim
    · exact (hb e).elim
  · split at e
    · split at e
      · exact (hb e).elim
      · exact (hb e).elim
    · injection e with e; rw [← e] at hr; exact hr

theorem Ok.print {v : Vte} (h : Ok v) (d : Nat) (hw : BadPrint v d → X.ins) : Good Quiet X v (v.print d) := by
  unfold Vte.print
  obtain ⟨r, e, h1, h2⟩ := h.map (Q := Quiet) d
  rw [e]
  exact Good.after h2 (h1.writeConsole (by rw [map_con e]; exact fun h3 h4 h5 => hw ⟨h3, h4, map_wide e h5⟩))

theorem encode_length (g : Nat) : (Utf8.encode g).length ≤ 4 := by
  unfold Utf8.encode
  repeat' split
  all_goals simp

theorem blit_ok {l b : List UInt8} {n : Nat} (h : n + b.length ≤ l.length) :
    R.Sat (blit l b n) (fun r => r = l.take n ++ b ++ l.drop (n + b.length) ∧ r.length = l.length) := by
  unfold blit
  rw [if_pos h]
  refine ⟨_, rfl, rfl, ?_⟩
  simp only [List.length_append, List.length_take, List.length_drop]
  omega

theorem Ok.oscCollect {v : Vte} (h : Ok v) (d : Nat) : Good Q X v (v.oscCollect d) := by
  unfold Vte.oscCollect
  dsimp only
  split
  · exact Good.same h
  · rename_i hc
    refine Good.pre (blit_ok (by rw [h.oscl]; omega)) ?_
    intro a ha
    refine Good.ok { h with oscl := by rw [← h.oscl]; exact ha.2, osc := ?_ }
      (Ext.silent rfl rfl rfl rfl rfl rfl rfl rfl rfl rfl rfl)
    show v.oscLen + (Utf8.encode d).length ≤ 127
    omega

theorem Ok.oscEnd {v : Vte} (h : Ok v) : Good Q X v v.oscEnd := by
  unfold Vte.oscEnd
  have := h.osc
  split
  · refine Good.pre (blit_ok (b := [0]) (by rw [h.oscl]; simp; omega)) ?_
    intro a ha
    have ha2 := ha.2
    have h' : Ok { v with oscArg := a } := { h with oscl := by rw [← h.oscl]; exact ha2 }
    exact Good.ok (h'.emit _)
      ((Ext.silent rfl rfl rfl rfl rfl rfl rfl rfl rfl rfl rfl : Ext Q v { v with oscArg := a }).trans (Ext.emit _ _))
  · exact Good.same h

/-! ### The parser -/

/-- The kind of calls an action makes: the mode sequence `h` does not leave the alternate screen,
nothing else enters it. -/
def wayOf (a : Action) (d : Nat) : Bool := decide (a = .csiDispatch ∧ csiKind d = .sm)

theorem Ok.actionQuiet {v : Vte} (h : Ok v) (hp : 0 < v.parseCnt) (d : Nat) {a : Action}
    (ha : a ≠ .csiDispatch ∧ a ≠ .escDispatch) (hw : a = .print → BadPrint v d → X.ins) : Good Quiet X v (v.action d a) := by
  cases a with
  | print => exact h.print d (hw rfl)
  | execute => exact h.execute hp d
  | clear => exact Good.ok h.clear (Ext.silent rfl rfl rfl rfl rfl rfl rfl rfl rfl rfl rfl)
  | oscStart => exact Good.ok h.clear (Ext.silent rfl rfl rfl rfl rfl rfl rfl rfl rfl rfl rfl)
  | collect => exact Good.ok (h.collect d) (Ext.silent rfl rfl rfl rfl rfl rfl rfl rfl rfl rfl rfl)
  | param => exact h.param d
  | escDispatch => exact absurd rfl ha.2
  | csiDispatch => exact absurd rfl ha.1
  | oscCollect => exact h.oscCollect d
  | oscEnd => exact h.oscEnd
  | _ => exact Good.same h

theorem Ok.action {v : Vte} (h : Ok v) (hp : 0 < v.parseCnt) (d : Nat) {a : Action}
    (hx : a = .csiDispatch → BadSgr v d → X.arg) (ht : a = .csiDispatch → BadTab v d → X.tab)
    (hw : a = .print → BadPrint v d → X.ins) : Good (Way (wayOf a d)) X v (v.action d a) := by
  by_cases ha : a ≠ .csiDispatch ∧ a ≠ .escDispatch
  · exact (h.actionQuiet hp d ha hw).mono (fun _ hq => stay_way (quiet_stay hq))
  · cases a with
    | escDispatch => exact h.escDispatch hp d
    | csiDispatch =>
      have := h.csiDispatch hp d (hx rfl) (ht rfl)
      have e : wayOf .csiDispatch d = decide (csiKind d = .sm) := by simp [wayOf]
      rw [e]
      exact this
    | _ => exact absurd ⟨(by intro h; cases h), (by intro h; cases h)⟩ ha

theorem size_runAll {cs : List Screen.Call} : ∀ {s s' : Screen}, Screen.Inv s → (∀ c ∈ cs, c.Valid ∧ Term c) →
    Screen.runAll cs s = .ok s' → s'.sizeX = s.sizeX ∧ s'.sizeY = s.sizeY := by
  induction cs with
  | nil => intro s s' _ _ e; injection e with e; rw [← e]; exact ⟨rfl, rfl⟩
  | cons c cs ih =>
    intro s s' hi hv e
    change (do let s ← c.run s; Screen.runAll cs s : R Screen) = _ at e
    have hc := hv c (List.mem_cons_self ..)
    rcases Screen.step_any hi hc.1 with ⟨t, et, hit⟩ | ⟨_, et | et⟩
    · rw [et] at e
      have hk := Screen.step_keeps hi hc.1 (fun x y h => by rw [h] at hc; exact hc.2) et
      have := ih hit (fun d hd => hv d (List.mem_cons_of_mem _ hd)) e
      exact ⟨this.1.trans hk.sizeX, this.2.trans hk.sizeY⟩
    · rw [et] at e; cases e
    · rw [et] at e; cases e

theorem Ok.sizeX_ext {v v' : Vte} (h : Ok v) (e : Ext Term v v') : v'.con.sizeX = v.con.sizeX := by
  obtain ⟨cs, hv, hr⟩ := e.run
  exact (size_runAll h.con hv hr).1

theorem Ok.sizeY_ext {v v' : Vte} (h : Ok v) (e : Ext Term v v') : v'.con.sizeY = v.con.sizeY := by
  obtain ⟨cs, hv, hr⟩ := e.run
  exact (size_runAll h.con hv hr).2

theorem exit_quiet (st : PState) : exitAction st ≠ .csiDispatch ∧ exitAction st ≠ .escDispatch := by
  cases st <;> exact ⟨(by intro h; cases h), (by intro h; cases h)⟩

theorem entry_quiet (st : PState) : entryAction st ≠ .csiDispatch ∧ entryAction st ≠ .escDispatch := by
  cases st <;> exact ⟨(by intro h; cases h), (by intro h; cases h)⟩

theorem exit_print (st : PState) : exitAction st ≠ .print := by
  cases st <;> (intro h; cases h)

theorem entry_print (st : PState) : entryAction st ≠ .print := by
  cases st <;> (intro h; cases h)

/-- Only the ground state prints. -/
theorem print_state {st : PState} {raw : Nat} (h : (nextOf st raw).2 = .print) :
    st = .ground ∧ (nextOf st raw).1 = .none := by
  unfold nextOf at h ⊢
  cases ha : anywhere raw with
  | some r =>
    exfalso
    rw [ha] at h
    unfold anywhere at ha
    repeat' (split at ha)
    all_goals first | cases ha | skip
    all_goals first | cases h | skip
  | none =>
    rw [ha] at h
    have h : (stateTrans st raw).2 = .print := h
    show st = .ground ∧ (stateTrans st raw).1 = .none
    cases st with
    | ground =>
      refine ⟨rfl, ?_⟩
      unfold stateTrans at h ⊢
      dsimp only at h ⊢
      split at h
      · cases h
      · rename_i hc; rw [if_neg hc]
    | _ =>
      exfalso
      unfold stateTrans at h
      dsimp only at h
      repeat' (split at h)
      all_goals cases h

theorem csi_exit {st : PState} {raw : Nat} (h : (nextOf st raw).2 = .csiDispatch) : exitAction st = .none := by
  cases st with
  | oscString =>
    unfold nextOf at h
    revert h
    cases ha : anywhere raw with
    | some p =>
      unfold anywhere at ha
      intro h
      repeat' split at ha
      all_goals cases ha
      all_goals cases h
    | none =>
      intro h
      unfold stateTrans at h
      dsimp [Option.getD] at h
      repeat' split at h
      all_goals cases h
  | dcsPass =>
    unfold nextOf at h
    revert h
    cases ha : anywhere raw with
    | some p =>
      unfold anywhere at ha
      intro h
      repeat' split at ha
      all_goals cases ha
      all_goals cases h
    | none =>
      intro h
      unfold stateTrans at h
      dsimp [Option.getD] at h
      repeat' split at h
      all_goals cases h
  | _ => rfl

theorem Ok.parse {v : Vte} (h : Ok v) (hp : 0 < v.parseCnt) (raw : Nat)
    (hx : (nextOf v.state raw).2 = .csiDispatch → BadSgr v raw → X.arg)
    (ht : (nextOf v.state raw).2 = .csiDispatch → BadTab v raw → X.tab)
    (hw : (nextOf v.state raw).2 = .print → BadPrint v raw → X.ins) :
    Good (Way (wayOf (nextOf v.state raw).2 raw)) X v (v.parse raw) := by
  unfold Vte.parse Vte.trans
  split
  · exact h.action hp raw hx ht hw
  · rename_i hst
    generalize hW : Way (wayOf (nextOf v.state raw).2 raw) = W
    have hquiet : ∀ c, Quiet c → W c := by intro c hc; rw [← hW]; exact stay_way (quiet_stay hc)
    have tail : ∀ v1, Ok v1 → 0 < v1.parseCnt → Ext W v v1 →
        ((nextOf v.state raw).2 = .csiDispatch → v1 = v) →
        Good W X v1 (do
          let v2 ← v1.action raw (nextOf v.state raw).2
          let v3 ← v2.action raw (entryAction (nextOf v.state raw).1)
          pure { v3 with state := (nextOf v.state raw).1 }) := by
      intro v1 h1 hp1 e1 heq
      have ha := h1.action (X := X) hp1 raw (a := (nextOf v.state raw).2) (fun hh => by rw [heq hh]; exact hx hh) (fun hh => by rw [heq hh]; exact ht hh)
        (fun hh => absurd (print_state hh).2 hst)
      rw [hW] at ha
      refine Good.bind ha ?_
      intro v2 h2 e2
      refine Good.bind ((h2.actionQuiet (by rw [e2.pc]; exact hp1) raw (entry_quiet _)
        (fun hh => absurd hh (entry_print _))).mono hquiet) ?_
      intro v3 h3 _
      exact Good.ok { h3 with st := hst } (Ext.silent rfl rfl rfl rfl rfl rfl rfl rfl rfl rfl rfl)
    by_cases hcsi : (nextOf v.state raw).2 = .csiDispatch
    · rw [csi_exit hcsi]
      exact tail v h hp (Ext.refl v) (fun _ => rfl)
    · refine Good.bind ((h.actionQuiet hp raw (exit_quiet _) (fun hh => absurd hh (exit_print _))).mono hquiet) ?_
      intro v1 h1 e1
      exact tail v1 h1 (by rw [e1.pc]; exact hp) e1 (fun hh => absurd hh hcsi)

end Vte
end Verif
