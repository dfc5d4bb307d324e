import Verif.Proofs.Vte.Stream
import Verif.Proofs.Screen.Cells

/-!
# The decoder is between characters after an ASCII byte

Parsing a character leaves the UTF-8 decoder alone, or resets it.
-/

namespace Verif
namespace Vte

/-- The decoder is not in the middle of a character, even if it is not in use. -/
def Whole (m : Utf8.Mach) : Prop := m.state = .start ∨ m.state = .accept ∨ m.state = .reject

theorem Whole.between {v : Vte} (h : Whole v.mach) : Between v := Or.inr (Or.inr h)

/-- The decoder does not get into the middle of a character. -/
structure Kd (v : Vte) (x : R Vte) : Prop where
  out : R.Post x (fun v' => Whole v.mach → Whole v'.mach)

theorem Kd.ok {v v' : Vte} (h : v'.mach = v.mach := by rfl) : Kd v (.ok v') := ⟨R.Post.ok (by rw [h]; exact id)⟩

theorem Kd.start {v v' : Vte} (h : v'.mach.state = .start) : Kd v (.ok v') := ⟨R.Post.ok (fun _ => Or.inl h)⟩

theorem Kd.bind {v : Vte} {x : R Vte} {f : Vte → R Vte} (h : Kd v x) (hf : ∀ v', Kd v' (f v')) : Kd v (x >>= f) :=
  ⟨R.Post.bind h.out (fun v' ht => R.SatK.mono (hf v').out (fun _ h => h) (fun _ h hw => h (ht hw)))⟩

theorem Kd.pre {α : Type} {v : Vte} {x : R α} {f : α → R Vte} (hf : ∀ a, Kd v (f a)) : Kd v (x >>= f) :=
  ⟨R.Post.bind R.Post.any (fun a _ => (hf a).out)⟩

theorem Kd.ite {q : Prop} [Decidable q] {v : Vte} {x y : R Vte} (hx : Kd v x) (hy : Kd v y) :
    Kd v (if q then x else y) := ⟨R.Post.ite hx.out hy.out⟩

theorem Kd.after {u v : Vte} {x : R Vte} (hx : Kd v x) (h : v.mach = u.mach := by rfl) : Kd u x :=
  ⟨by rw [← h]; exact hx.out⟩

theorem scr_kd (v : Vte) (c : Screen.Call) : Kd v (v.scr c) := by
  unfold Vte.scr
  exact Kd.pre (fun s => Kd.ok)

theorem scr_kd' {u v : Vte} (c : Screen.Call) (h : v.mach = u.mach := by rfl) : Kd u (v.scr c) := (scr_kd v c).after h

theorem reply_kd (v : Vte) (b : List UInt8) : Kd v (v.reply b) := by
  unfold Vte.reply
  refine Kd.ite ⟨R.Post.err⟩ (Kd.ok ?_)
  unfold Vte.send
  split <;> rfl

theorem writeConsole_kd (v : Vte) (sym : Nat) : Kd v (v.writeConsole sym) := by
  unfold Vte.writeConsole
  exact Kd.pre (fun a => scr_kd' _)

theorem bce_kd (v : Vte) : Kd v v.bce := by
  unfold Vte.bce
  exact Kd.ite (scr_kd _ _) Kd.ok

theorem restoreState_kd (v : Vte) : Kd v v.restoreState := by
  unfold Vte.restoreState
  refine Kd.bind (scr_kd _ _) (fun v => ?_)
  refine Kd.pre (fun a => ?_)
  refine Kd.bind (Kd.after (bce_kd { v with cattr := a })) (fun v => ?_)
  dsimp only
  exact Kd.bind (scr_kd' _) (fun v => scr_kd' _)

theorem reset_kd (v : Vte) : Kd v v.reset := by
  unfold Vte.reset
  refine Kd.bind (scr_kd' _) (fun v => ?_)
  refine Kd.bind (scr_kd _ _) (fun v => ?_)
  refine Kd.pre (fun a => ?_)
  refine ⟨?_⟩
  have h : R.Post (scr { v.resetFields with cattr := a } (.setDefAttr v.resetFields.defAttr)) (fun w => w.mach.state = .start) := by
    unfold Vte.scr
    exact R.Post.bind R.Post.any (fun s _ => R.Post.ok rfl)
  exact R.Post.bind h (fun w hw => R.Post.ok (fun _ => Or.inl hw))

theorem hardReset_kd (v : Vte) : Kd v v.hardReset := by
  unfold Vte.hardReset
  exact Kd.bind (reset_kd v) (fun v => Kd.bind (scr_kd _ _) (fun v => Kd.bind (scr_kd _ _) (fun v => scr_kd _ _)))

theorem execute_kd (v : Vte) (ctrl : Nat) : Kd v (v.execute ctrl) := by
  unfold Vte.execute
  split
  · exact reply_kd v [6]
  · exact scr_kd _ _
  · exact scr_kd _ _
  · exact Kd.ite (scr_kd _ _) (scr_kd _ _)
  · exact Kd.ite (scr_kd _ _) (scr_kd _ _)
  · exact Kd.ite (scr_kd _ _) (scr_kd _ _)
  · exact scr_kd _ _
  · exact Kd.ok
  · exact Kd.ok
  · exact writeConsole_kd v 0xbf
  · exact scr_kd _ _
  · exact scr_kd _ _
  · exact scr_kd _ _
  · exact scr_kd _ _
  · exact Kd.ok
  · exact Kd.ok
  · exact reply_kd v primaryDa
  · exact Kd.ok

theorem param_kd (v : Vte) (data : Nat) : Kd v (v.param data) := by
  unfold Vte.param
  split
  · refine Kd.ok ?_
    split <;> rfl
  · refine Kd.ite Kd.ok (Kd.pre (fun old => Kd.ite Kd.ok ?_))
    split <;> exact Kd.ok

theorem escPlain_kd (v : Vte) (data : Nat) : Kd v (v.escPlain data) := by
  unfold Vte.escPlain
  split
  all_goals first
    | exact scr_kd _ _
    | exact reply_kd _ _
    | exact hardReset_kd v
    | exact restoreState_kd v
    | exact Kd.ok

theorem escDispatch_kd (v : Vte) (data : Nat) : Kd v (v.escDispatch data) := by
  unfold Vte.escDispatch
  split
  · rename_i v' e
    refine Kd.ok ?_
    cases hc : escCharset data with
    | none => rw [hc] at e; cases e
    | some c =>
      rw [hc] at e
      have e : v.setCharset c = some v' := e
      unfold Vte.setCharset at e
      repeat' split at e
      all_goals first
        | (injection e with e; rw [← e])
        | cases e
  · unfold Vte.escOther
    exact Kd.ite Kd.ok (Kd.ite Kd.ok (Kd.ite Kd.ok (escPlain_kd v data)))

theorem sgr_kd (v : Vte) : Kd v v.sgr := by
  unfold Vte.sgr
  refine Kd.bind ?_ (fun v => ?_)
  · unfold Vte.sgrDefault
    exact Kd.pre (fun a => Kd.ite Kd.ok Kd.ok)
  · exact Kd.pre (fun a => Kd.pre (fun a => Kd.after (bce_kd { v with cattr := a })))

theorem compatMode_kd (v : Vte) : Kd v v.compatMode := by
  unfold Vte.compatMode
  refine Kd.bind (reset_kd v) (fun v => Kd.pre (fun a => Kd.pre (fun b => ?_)))
  refine Kd.ite Kd.ok (Kd.ite (Kd.ok ?_) Kd.ok)
  dsimp only
  split <;> rfl

theorem ansiMode_kd (v : Vte) (set : Bool) (k : Nat) : Kd v (v.ansiMode set k) := by
  unfold Vte.ansiMode
  split
  all_goals first
    | exact scr_kd' _
    | exact Kd.ok

theorem notify_mach (v : Vte) (c p : Bool) : (v.mouseNotify c p).mach = v.mach := by
  unfold Vte.mouseNotify
  split <;> rfl

theorem decMode_kd (v : Vte) (set : Bool) (k : Nat) : Kd v (v.decMode set k) := by
  unfold Vte.decMode
  split
  case h_6 => exact Kd.ok (notify_mach _ _ _)
  case h_9 => exact Kd.ite Kd.ok (Kd.ite (scr_kd _ _) (scr_kd _ _))
  case h_10 => exact Kd.ite Kd.ok (Kd.ite (scr_kd _ _) (Kd.bind (scr_kd _ _) (fun v => scr_kd _ _)))
  case h_11 => exact Kd.ite Kd.ok (Kd.ite Kd.ok (scr_kd _ _))
  case h_12 => exact Kd.ite Kd.ok (Kd.ite (Kd.bind (scr_kd' _) (fun v => scr_kd _ _)) (Kd.bind (scr_kd _ _) (fun v => scr_kd _ _)))
  case h_13 => exact Kd.ok (notify_mach _ _ _)
  case h_14 => exact Kd.ok (notify_mach _ _ _)
  case h_15 => exact Kd.ok (notify_mach _ _ _)
  case h_16 => exact Kd.ok (notify_mach _ _ _)
  all_goals first
    | exact scr_kd' _
    | exact Kd.ok

theorem modeLoop_kd (set : Bool) : ∀ (is : List Nat) (v : Vte), Kd v (modeLoop set v is) := by
  intro is
  induction is with
  | nil => intro v; exact Kd.ok
  | cons i is ih =>
    intro v
    unfold Vte.modeLoop
    refine Kd.bind ?_ ih
    unfold Vte.modeOne
    exact Kd.pre (fun a => Kd.ite Kd.ok (Kd.ite (decMode_kd v set _) (ansiMode_kd v set _)))

theorem devAttr_kd (v : Vte) : Kd v v.devAttr := by
  unfold Vte.devAttr
  exact Kd.pre (fun a => Kd.ite (Kd.ite (reply_kd _ _) (Kd.ite (reply_kd _ _) Kd.ok)) Kd.ok)

theorem dsr_kd (v : Vte) : Kd v v.dsr := by
  unfold Vte.dsr
  refine Kd.pre (fun a => ?_)
  exact Kd.ite (reply_kd _ _) (Kd.ite (Kd.ite (reply_kd _ _) (reply_kd _ _)) Kd.ok)

theorem csiRun_kd (v : Vte) (c : Csi) : Kd v (v.csiRun c) := by
  cases c
  case sgr => exact sgr_kd v
  case p =>
    show Kd v v.csiP
    unfold Vte.csiP
    exact Kd.ite (reset_kd v) (Kd.ite (reset_kd v) (Kd.ite Kd.ok (compatMode_kd v)))
  case sm => exact modeLoop_kd true _ v
  case rm => exact modeLoop_kd false _ v
  case da => exact devAttr_kd v
  case dsr => exact dsr_kd v
  case unknown => exact Kd.ok
  case cnl => exact Kd.pre (fun a => Kd.bind (scr_kd _ _) (fun v => scr_kd _ _))
  case cpl => exact Kd.pre (fun a => Kd.bind (scr_kd _ _) (fun v => scr_kd _ _))
  case cup => exact Kd.pre (fun a => Kd.pre (fun b => scr_kd _ _))
  case decstbm => exact Kd.pre (fun a => Kd.pre (fun b => scr_kd _ _))
  case ed =>
    show Kd v v.csiEd
    unfold Vte.csiEd
    exact Kd.pre (fun a => Kd.ite (scr_kd _ _) (Kd.ite (scr_kd _ _) (Kd.ite (scr_kd _ _) Kd.ok)))
  case el =>
    show Kd v v.csiEl
    unfold Vte.csiEl
    exact Kd.pre (fun a => Kd.ite (scr_kd _ _) (Kd.ite (scr_kd _ _) (Kd.ite (scr_kd _ _) Kd.ok)))
  case tbc =>
    show Kd v v.csiTbc
    unfold Vte.csiTbc
    exact Kd.pre (fun a => Kd.ite (scr_kd _ _) (Kd.ite (scr_kd _ _) Kd.ok))
  all_goals exact Kd.pre (fun a => scr_kd _ _)

theorem csiDispatch_kd (v : Vte) (data : Nat) : Kd v (v.csiDispatch data) := by
  unfold Vte.csiDispatch
  refine Kd.after (csiRun_kd _ _) ?_
  split <;> rfl

theorem print_kd (v : Vte) (raw : Nat) : Kd v (v.print raw) := by
  unfold Vte.print
  have hm : R.Post (v.map raw) (fun r => r.1.mach = v.mach) := by
    unfold Vte.map
    repeat' split
    all_goals first
      | exact R.Post.bind R.Post.any (fun g _ => R.Post.ok rfl)
      | exact R.Post.ok rfl
  exact ⟨R.Post.bind hm (fun r hr => ((writeConsole_kd r.1 _).after hr).out)⟩

theorem action_kd (v : Vte) (raw : Nat) (a : Action) : Kd v (v.action raw a) := by
  cases a
  case print => exact print_kd v raw
  case execute => exact execute_kd v raw
  case param => exact param_kd v raw
  case escDispatch => exact escDispatch_kd v raw
  case csiDispatch => exact csiDispatch_kd v raw
  case oscCollect =>
    show Kd v (v.oscCollect raw)
    unfold Vte.oscCollect
    exact Kd.ite Kd.ok (Kd.pre (fun a => Kd.ok))
  case oscEnd =>
    show Kd v v.oscEnd
    unfold Vte.oscEnd
    exact Kd.ite (Kd.pre (fun a => Kd.ok)) Kd.ok
  all_goals exact Kd.ok

theorem parse_kd (v : Vte) (raw : Nat) : Kd v (v.parse raw) := by
  unfold Vte.parse Vte.trans
  refine Kd.ite (action_kd _ _ _) ?_
  exact Kd.bind (action_kd _ _ _) (fun v => Kd.bind (action_kd _ _ _) (fun v => Kd.bind (action_kd _ _ _) (fun v => Kd.ok)))

/-- An ASCII byte completes a character, or interrupts one. -/
theorem feed_ascii_whole (sg : Bool) (m : Utf8.Mach) {b : UInt8} (h : b.toNat < 128) : Whole (Utf8.feed sg m b) := by
  unfold Utf8.feed Whole
  have hc := conv_ascii sg h
  have ha := and80 h
  have hcc : b.toNat &&& 0xC0 = 0x80 ↔ False := by
    have : ∀ k : Fin 128, (k.val &&& 0xC0 = 0x80) ↔ False := by decide
    exact this ⟨b.toNat, h⟩
  dsimp only
  rw [hc]
  cases hs : m.state <;> dsimp only
  all_goals
    repeat' split
  all_goals first
    | exact Or.inl rfl
    | exact Or.inr (Or.inl rfl)
    | exact Or.inr (Or.inr rfl)
    | contradiction
    | (exfalso; rename_i h'; exact hcc.mp h')

theorem inputByte_whole {v v' : Vte} {b : UInt8} (hw : v.f7bit = true ∨ v.f8bit = true → Whole v.mach) (h : b.toNat < 128)
    (e : v.inputByte b = .ok v') : Whole v'.mach := by
  rw [inputByte_eq] at e
  have hm : Whole (v.machOf b) := by
    unfold Vte.machOf
    split
    · rename_i h'; exact hw h'
    · exact feed_ascii_whole _ _ h
  cases hr : v.rawOf b with
  | some raw =>
    rw [hr] at e
    have := (parse_kd { v with mach := v.machOf b } raw).out
    rw [show ({ v with mach := v.machOf b } : Vte).parse raw = .ok v' from e] at this
    exact this hm
  | none =>
    rw [hr] at e
    injection e with e; rw [← e]; exact hm

/-- The decoder is not in the middle of a character while it is not in use. -/
def Parked (v : Vte) : Prop := v.f7bit = true ∨ v.f8bit = true → Whole v.mach

theorem inputByte_parked {v v' : Vte} {b : UInt8} (hw : Parked v) (e : v.inputByte b = .ok v') : Parked v' := by
  rw [inputByte_eq] at e
  have key : ∀ raw, ({ v with mach := v.machOf b } : Vte).parse raw = .ok v' → Whole (v.machOf b) → Parked v' := by
    intro raw e hm _
    have := (parse_kd { v with mach := v.machOf b } raw).out
    rw [e] at this
    exact this hm
  cases hr : v.rawOf b with
  | some raw =>
    rw [hr] at e
    refine key raw e ?_
    unfold Vte.machOf
    split
    · rename_i h'; exact hw h'
    · rename_i h'
      unfold Vte.rawOf at hr
      rw [if_neg (fun h => h' (Or.inl h)), if_neg (fun h => h' (Or.inr h))] at hr
      split at hr
      · rename_i h2; exact Or.inr h2
      · cases hr
  | none =>
    rw [hr] at e
    injection e with e
    subst e
    intro h'
    show Whole (v.machOf b)
    unfold Vte.machOf
    rw [if_pos h']
    exact hw h'

theorem inputLoop_parked : ∀ {bs : List UInt8} {v v' : Vte}, Parked v → v.inputLoop bs = .ok v' → Parked v' := by
  intro bs
  induction bs with
  | nil => intro v v' h e; injection e with e; rw [← e]; exact h
  | cons b bs ih =>
    intro v v' h e
    rw [inputLoop_cons] at e
    cases e1 : v.inputByte b with
    | error u => rw [e1] at e; cases e
    | ok w => rw [e1] at e; exact ih (inputByte_parked h e1) e

/-- After input that ends with an ASCII byte the decoder is between characters. -/
theorem input_whole {v v' : Vte} {bs : List UInt8} {b : UInt8} (h : Parked v) (hb : b.toNat < 128)
    (e : v.input (bs ++ [b]) = .ok v') : Whole v'.mach := by
  rw [input_def, inputLoop_append] at e
  cases e1 : v.up.inputLoop bs with
  | error u => rw [e1] at e; cases e
  | ok w =>
    rw [e1] at e
    change (w.inputLoop [b] >>= _) = _ at e
    rw [inputLoop_one] at e
    cases e2 : w.inputByte b with
    | error u => rw [e2] at e; cases e
    | ok w' =>
      rw [e2] at e
      injection e with e
      rw [← e]
      have : Whole w'.mach := inputByte_whole (inputLoop_parked (v := v.up) h e1) hb e2
      exact this

/-! ### All calls -/

theorem Parked.of {v v' : Vte} (h : Parked v) (hm : v'.mach = v.mach) (h3 : v'.f8bit = v.f8bit) (h4 : v'.f7bit = v.f7bit) : Parked v' := by
  unfold Parked
  rw [hm, h3, h4]
  exact h

theorem input_parked {v v' : Vte} {bs : List UInt8} (h : Parked v) (e : v.input bs = .ok v') : Parked v' := by
  obtain ⟨w, e1, rfl⟩ := of_input e
  have : Parked w := inputLoop_parked (v := v.up) h e1
  exact this

theorem setFlag_parked {v : Vte} (h : Parked v) (on : Bool) : Parked (v.setFlag on 16) :=
  h.of rfl (by show (v.setFlag on 16).flags.getLsbD 3 = _; rw [flag_setFlag _ _ (by decide)]; rfl)
    (by show (v.setFlag on 16).flags.getLsbD 4 = _; rw [flag_setFlag _ _ (by decide)]; rfl)

theorem send_parked {v : Vte} (h : Parked v) (b : List UInt8) : Parked (v.send b) := by
  unfold Vte.send
  refine setFlag_parked ?_ false
  split <;> exact h.of rfl rfl rfl

theorem scr_parked {v v' : Vte} {c : Screen.Call} (h : Parked v) (e : v.scr c = .ok v') : Parked v' := by
  unfold Vte.scr at e
  cases ec : c.run v.con with
  | error u => rw [ec] at e; cases e
  | ok s => rw [ec] at e; injection e with e; rw [← e]; exact h.of rfl rfl rfl

theorem write_parked {v v' : Vte} {b : List UInt8} (h : Parked v) (e : v.write b = .ok v') : Parked v' := by
  unfold Vte.write at e
  cases h1 : v.echo b with
  | error u => rw [h1] at e; cases e
  | ok w =>
    rw [h1] at e
    injection e with e
    rw [← e]
    refine send_parked ?_ b
    unfold Vte.echo at h1
    split at h1
    · cases h2 : v.echoEsc with
      | error u => rw [h2] at h1; cases h1
      | ok w1 =>
        rw [h2] at h1
        refine input_parked ?_ h1
        unfold Vte.echoEsc at h2
        split at h2
        · exact input_parked h h2
        · injection h2 with h2; rw [← h2]; exact h
    · injection h1 with h1; rw [← h1]; exact h

theorem write_parked2 {v : Vte} {b : List UInt8} {r : Vte × Bool} (h : Parked v)
    (e : (do let v ← v.write b; pure (v, true) : R (Vte × Bool)) = .ok r) : Parked r.1 := by
  cases hw : v.write b with
  | error u => rw [hw] at e; cases e
  | ok w => rw [hw] at e; injection e with e; rw [← e]; exact write_parked h hw

theorem keyboard_parked {v : Vte} {k a m u : Nat} {r : Vte × Bool} (h : Parked v) (e : v.keyboard k a m u = .ok r) : Parked r.1 := by
  unfold Vte.keyboard at e
  have key : ∀ w : Vte, Parked w → (match w.keyString k a m u with
      | some b => do
        let v ← w.write b
        pure (v, true)
      | none => .ok (w.setFlag false 16, false) : R (Vte × Bool)) = .ok r → Parked r.1 := by
    intro w hw e
    cases hk : w.keyString k a m u with
    | some b => rw [hk] at e; exact write_parked2 hw e
    | none => rw [hk] at e; injection e with e; rw [← e]; exact setFlag_parked hw false
  refine key _ ?_ e
  split
  · exact setFlag_parked h true
  · exact h

theorem mouse_parked {v : Vte} {cx cy px py bt ev md : Nat} {r : Vte × Bool} (h : Parked v)
    (e : v.mouse cx cy px py bt ev md = .ok r) : Parked r.1 := by
  unfold Vte.mouse at e
  split at e
  · injection e with e; rw [← e]; exact h
  · split at e
    · exact write_parked2 h e
    · split at e
      · unfold Vte.mouseSgr at e
        split at e
        · split at e
          · injection e with e; rw [← e]; exact h
          · exact write_parked2 (v := { v with mouseLastCol := u32 (cx + 1), mouseLastRow := u32 (cy + 1) }) (h.of rfl rfl rfl) e
        · exact write_parked2 h e
      · split at e
        · exact write_parked2 h e
        · injection e with e; rw [← e]; exact h

theorem scr_post {v : Vte} (c : Screen.Call) (h : Parked v) : R.Post (v.scr c) Parked :=
  R.Post.bind R.Post.any (fun _ _ => R.Post.ok (h.of rfl rfl rfl))

theorem post_of {α : Type} {x : R α} {a : α} {P : α → Prop} (h : R.Post x P) (e : x = .ok a) : P a := by
  rw [e] at h; exact h

theorem updatePalette_parked {v v' : Vte} (h : Parked v) (e : v.updatePalette = .ok v') : Parked v' := by
  refine post_of ?_ e
  unfold Vte.updatePalette
  refine R.Post.bind R.Post.any (fun d _ => R.Post.bind (P := Parked) (scr_post _ ?_) (fun w hw => scr_post _ hw))
  exact h.of rfl rfl rfl

/-- A reset turns the 7-bit and 8-bit modes off. -/
theorem reset_post (v : Vte) : R.Post v.reset Parked := by
  unfold Vte.reset
  refine R.Post.bind (P := Parked) (scr_post _ ?_) (fun w hw => ?_)
  · intro hh
    have h3 : resetFlags.getLsbD 3 = false := by decide
    have h4 : resetFlags.getLsbD 4 = false := by decide
    rcases hh with hh | hh
    · exact absurd (h4.symm.trans hh) (by decide)
    · exact absurd (h3.symm.trans hh) (by decide)
  refine R.Post.bind (P := Parked) (scr_post _ hw) (fun w hw => ?_)
  refine R.Post.bind R.Post.any (fun a _ => ?_)
  refine R.Post.bind (P := Parked) (scr_post _ ?_) (fun w hw => ?_)
  · exact fun _ => Or.inl rfl
  · exact R.Post.ok (hw.of rfl rfl rfl)

theorem reset_parked {v v' : Vte} (e : v.reset = .ok v') : Parked v' := post_of (reset_post v) e

theorem hardReset_parked {v v' : Vte} (e : v.hardReset = .ok v') : Parked v' := by
  refine post_of ?_ e
  unfold Vte.hardReset
  exact R.Post.bind (reset_post v) (fun w hw => R.Post.bind (scr_post _ hw) (fun w hw =>
    R.Post.bind (scr_post _ hw) (fun w hw => scr_post _ hw)))

theorem call_parked {v v' : Vte} {c : Call} (h : Parked v) (e : c.run v = .ok v') : Parked v' := by
  cases c with
  | input b => exact input_parked h e
  | keyboard k a m u =>
    change (v.keyboard k a m u >>= _) = _ at e
    cases e1 : v.keyboard k a m u with
    | error u => rw [e1] at e; cases e
    | ok r => rw [e1] at e; injection e with e; rw [← e]; exact keyboard_parked h e1
  | mouse cx cy px py b ev m =>
    change (v.mouse cx cy px py b ev m >>= _) = _ at e
    cases e1 : v.mouse cx cy px py b ev m with
    | error u => rw [e1] at e; cases e
    | ok r => rw [e1] at e; injection e with e; rw [← e]; exact mouse_parked h e1
  | reset => exact reset_parked e
  | hardReset => exact hardReset_parked e
  | setPalette n mem =>
    change v.setPalette n mem = _ at e
    unfold Vte.setPalette at e
    split at e
    · injection e with e; rw [← e]; exact h
    · exact updatePalette_parked (v := { v with paletteName := n }) (h.of rfl rfl rfl) e
  | setCustomPalette p mem =>
    change v.setCustomPalette p mem = _ at e
    unfold Vte.setCustomPalette at e
    split at e
    · injection e with e; rw [← e]; exact h
    · exact updatePalette_parked (v := { v with customPalette := p }) (h.of rfl rfl rfl) e
  | setBsDelete on => injection e with e; rw [← e]; exact h.of rfl rfl rfl
  | setOscCb on => injection e with e; rw [← e]; exact h.of rfl rfl rfl
  | setMouseCb on => injection e with e; rw [← e]; exact h.of rfl rfl rfl
  | screen c => exact scr_parked h e

theorem new_parked {s : Screen} {sg : Bool} {v : Vte} (e : new s sg = .ok v) : Parked v := by
  refine post_of ?_ e
  unfold Vte.new
  exact R.Post.bind R.Post.any (fun d _ => R.Post.bind (reset_post _) (fun w hw => scr_post _ hw))

theorem Reachable.parked {v : Vte} (h : Reachable v) : Parked v := by
  obtain ⟨s, sg, v0, cs, hs, e0, hv, er⟩ := h
  have h0 := new_parked e0
  clear e0
  induction cs generalizing v0 with
  | nil => injection er with er; subst er; exact h0
  | cons c cs ih =>
    unfold Vte.runAll at er
    cases ec : c.run v0 with
    | error x => rw [ec] at er; cases er
    | ok v1 =>
      rw [ec] at er
      exact ih v1 (fun d hd => hv d (List.mem_cons_of_mem _ hd)) er (call_parked h0 ec)

end Vte
end Verif
