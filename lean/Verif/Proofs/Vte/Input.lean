import Verif.Proofs.Vte.Safe
import Verif.Spec.Vte

/-!
# Safety of whole calls and histories
-/

namespace Verif
namespace Vte

variable {Q : Screen.Call → Prop} {X : Risk}

theorem Ok.mach {v : Vte} (h : Ok v) (m : Utf8.Mach) : Ok { v with mach := m } := { h with }

theorem Ext.mach (v : Vte) (m : Utf8.Mach) : Ext Q v { v with mach := m } :=
  Ext.silent rfl rfl rfl rfl rfl rfl rfl rfl rfl rfl rfl

theorem inputByte_eq (v : Vte) (b : UInt8) : v.inputByte b =
    match v.rawOf b with
    | some raw => { v with mach := v.machOf b }.parse raw
    | none => .ok { v with mach := v.machOf b } := by
  unfold Vte.inputByte Vte.rawOf Vte.machOf
  cases v.f7bit with
  | true => rfl
  | false =>
    cases v.f8bit with
    | true => rfl
    | false =>
      simp only [Bool.false_eq_true, if_false, or_self]
      split <;> rfl

theorem Ok.inputByte {v : Vte} (h : Ok v) (hp : 0 < v.parseCnt) (b : UInt8)
    (hx : ∀ raw, v.rawOf b = some raw → (nextOf v.state raw).2 = .csiDispatch → BadSgr v raw → X.arg)
    (ht : ∀ raw, v.rawOf b = some raw → (nextOf v.state raw).2 = .csiDispatch → BadTab v raw → X.tab)
    (hw : ∀ raw, v.rawOf b = some raw → (nextOf v.state raw).2 = .print → BadPrint v raw → X.ins) :
    ∃ w, Good (Way w) X v (v.inputByte b) := by
  rw [inputByte_eq]
  split
  · rename_i raw e
    have h1 := h.mach (v.machOf b)
    exact ⟨_, Good.after (Ext.mach v (v.machOf b)) (h1.parse hp raw (hx raw e) (ht raw e) (hw raw e))⟩
  · exact ⟨true, Good.ok (h.mach _) (Ext.mach v _)⟩

/-- The risk when only the width of the screen is known. -/
def risk (w : Nat) : Risk := ⟨True, w = 1, True⟩

theorem Ok.inputLoop : ∀ (bs : List UInt8) {v : Vte}, Ok v → 0 < v.parseCnt →
    Good Term (risk v.con.sizeX) v (v.inputLoop bs) := by
  intro bs
  induction bs with
  | nil => intro v h _; exact Good.same h
  | cons b bs ih =>
    intro v h hp
    unfold Vte.inputLoop
    obtain ⟨w, hb⟩ := h.inputByte (X := risk v.con.sizeX) hp b (fun _ _ _ _ => trivial) (fun _ _ _ _ => trivial)
      (fun _ _ _ hb => hb.1)
    refine Good.bind (hb.mono (fun _ => way_term)) ?_
    intro v1 h1 e1
    have := ih h1 (by rw [e1.pc]; exact hp)
    rw [h.sizeX_ext e1] at this
    exact this

theorem Ok.input {v : Vte} (h : Ok v) (bs : List UInt8) : Good Term (risk v.con.sizeX) v (v.input bs) := by
  unfold Vte.input
  have h1 : Ok { v with parseCnt := v.parseCnt + 1 } := { h with }
  refine R.SatK.bind (Ok.inputLoop bs h1 (Nat.succ_pos _)) ?_
  intro v2 hv
  obtain ⟨h2, e2⟩ := hv
  refine Good.ok (v' := { v2 with parseCnt := v2.parseCnt - 1 }) { h2 with } ?_
  exact ⟨by show v2.parseCnt - 1 = _; rw [e2.pc]; rfl, e2.name, e2.custom, e2.pal, e2.dattr, e2.bs, e2.ocb,
    e2.mcb, e2.sg, e2.log, e2.run, e2.esc⟩

theorem Ok.echo {v : Vte} (h : Ok v) (b : List UInt8) : Good Term (risk v.con.sizeX) v (v.echo b) := by
  unfold Vte.echo
  split
  · have h0 : Good Term (risk v.con.sizeX) v v.echoEsc := by
      unfold Vte.echoEsc
      split
      · exact h.input _
      · exact Good.same h
    refine Good.bind h0 ?_
    intro v1 h1 e1
    have := h1.input b
    rw [h.sizeX_ext e1] at this
    exact this
  · exact Good.same h

theorem Ok.write {v : Vte} (h : Ok v) (b : List UInt8) : Good Term (risk v.con.sizeX) v (v.write b) := by
  unfold Vte.write
  refine Good.bind (h.echo b) ?_
  intro v1 h1 _
  have := h1.send (Q := Term) b
  exact Good.ok this.1 this.2

/-- A call that returns a value beside the state. -/
def Good2 (Q : Screen.Call → Prop) (X : Risk) (v : Vte) (x : R (Vte × Bool)) : Prop :=
  R.SatK x (Kx X) (fun r => Ok r.1 ∧ Ext Q v r.1)

theorem Good.toGood2 {v : Vte} {x : R Vte} (h : Good Q X v x) (b : Bool) :
    Good2 Q X v (do let v ← x; pure (v, b)) :=
  R.SatK.bind h fun _ hv => hv

theorem Good2.after {u v : Vte} {x : R (Vte × Bool)} (he : Ext Q u v) (h : Good2 Q X v x) : Good2 Q X u x :=
  R.SatK.mono h (fun _ hk => hk) (fun _ hv => ⟨hv.1, he.trans hv.2⟩)

theorem send_prepend (v : Vte) (b : List UInt8) : (v.send b).fPrepend = false := by
  unfold Vte.send
  show ((Vte.setFlag _ false 16).flags).getLsbD 16 = false
  rw [flag_setFlag _ _ (by decide)]
  rfl

theorem write_prepend {v v' : Vte} {b : List UInt8} (e : v.write b = .ok v') : v'.fPrepend = false := by
  unfold Vte.write at e
  cases h : v.echo b with
  | ok v1 =>
    rw [h] at e
    injection e with e
    rw [← e]
    exact send_prepend v1 b
  | error x => rw [h] at e; cases e

theorem Ext.prepend {v v' : Vte} (h : Ext Q (v.setFlag true 16) v') (hp : v'.fPrepend = false) : Ext Q v v' :=
  ⟨h.pc, h.name, h.custom, h.pal, h.dattr, h.bs, h.ocb, h.mcb, h.sg, h.log, h.run, fun _ => hp⟩

theorem R.SatK.with_eq {α : Type} {x : R α} {K : UB → Prop} {P : α → Prop} (h : R.SatK x K P) :
    R.SatK x K (fun a => P a ∧ x = .ok a) := by
  cases x with
  | ok a => exact ⟨h, rfl⟩
  | error e => exact h

/-- The key has been handled with or without the prefix. -/
theorem Ok.keyed {v : Vte} (h : Ok v) (k a m u : Nat) :
    R.SatK (match v.keyString k a m u with
      | some b => do
        let v ← v.write b
        pure (v, true)
      | none => .ok (v.setFlag false 16, false) : R (Vte × Bool)) (Kx (risk v.con.sizeX))
      (fun r => (Ok r.1 ∧ Ext Term v r.1) ∧ r.1.fPrepend = false) := by
  cases hk : v.keyString k a m u with
  | some b =>
    refine R.SatK.bind (R.SatK.with_eq (h.write b)) ?_
    intro v1 h1
    exact ⟨h1.1, write_prepend h1.2⟩
  | none =>
    refine ⟨⟨h.setFlag _ _, Ext.setFlag _ _ _⟩, ?_⟩
    show (v.setFlag false 16).flags.getLsbD 16 = false
    rw [flag_setFlag _ _ (by decide)]
    rfl

theorem Ok.keyboard {v : Vte} (h : Ok v) (k a m u : Nat) :
    R.SatK (v.keyboard k a m u) (Kx (risk v.con.sizeX))
      (fun r => (Ok r.1 ∧ Ext Term v r.1) ∧ r.1.fPrepend = false) := by
  unfold Vte.keyboard
  dsimp only
  by_cases hm : m.testBit 3 = true
  · simp only [if_pos hm]
    refine R.SatK.mono ((h.setFlag true 16).keyed k a m u) (fun _ hk => hk) ?_
    intro r hr
    exact ⟨⟨hr.1.1, hr.1.2.prepend hr.2⟩, hr.2⟩
  · simp only [if_neg hm]
    exact h.keyed k a m u

theorem Ok.mouse {v : Vte} (h : Ok v) (cx cy px py bt ev md : Nat) :
    Good2 Term (risk v.con.sizeX) v (v.mouse cx cy px py bt ev md) := by
  unfold Vte.mouse
  split
  · exact ⟨h, Ext.refl v⟩
  · split
    · exact (h.write _).toGood2 true
    · split
      · unfold Vte.mouseSgr
        split
        · split
          · exact ⟨h, Ext.refl v⟩
          · have h1 : Ok { v with mouseLastCol := u32 (cx + 1), mouseLastRow := u32 (cy + 1) } := { h with }
            have h2 := (h1.write (sgrReport 35 (u32 (cx + 1)) (u32 (cy + 1)) true)).toGood2 true
            have he : Ext Term v { v with mouseLastCol := u32 (cx + 1), mouseLastRow := u32 (cy + 1) } :=
              Ext.silent rfl rfl rfl rfl rfl rfl rfl rfl rfl rfl rfl
            exact Good2.after he h2
        · exact (h.write _).toGood2 true
      · split
        · exact (h.write _).toGood2 true
        · exact ⟨h, Ext.refl v⟩

/-! ### Histories -/

/-- The nesting counter and the pending escape prefix. -/
structure Balanced (v v' : Vte) : Prop where
  pc : v'.parseCnt = v.parseCnt
  esc : v.fPrepend = false → v'.fPrepend = false

theorem Balanced.refl (v : Vte) : Balanced v v := ⟨rfl, id⟩

theorem Balanced.trans {u v w : Vte} (h : Balanced u v) (h' : Balanced v w) : Balanced u w :=
  ⟨h'.pc.trans h.pc, fun h0 => h'.esc (h.esc h0)⟩

theorem Ext.balanced {v v' : Vte} (h : Ext Q v v') : Balanced v v' := ⟨h.pc, h.esc⟩

theorem getPalette_length (n : Option String) (c : Option Palette) (h : ∀ p, c = some p → p.length = 18) :
    (getPalette n c).length = 18 := by
  unfold getPalette
  split
  · decide +kernel
  · split
    · rename_i p e
      split at e
      · exact h p e
      · cases e
    · repeat' split
      all_goals decide +kernel

theorem Ok.updatePalette {v : Vte} (h : Ok v) :
    R.SatK v.updatePalette (Kx X) (fun v' => Ok v' ∧ Balanced v v') := by
  unfold Vte.updatePalette
  dsimp only
  have hp := getPalette_length v.paletteName v.customPalette h.cpal
  refine R.SatK.bind ((toRgb_ok hp _).toK _) ?_
  intro d hd
  have hdc : Coded d := hd.coded ⟨(by decide : (-1 : Int) ≤ 16), (by decide : (16 : Int) ≤ 17),
    (by decide : (-1 : Int) ≤ 17), (by decide : (17 : Int) ≤ 17), h.defp⟩
  have h1 : Ok { v with palette := getPalette v.paletteName v.customPalette, defAttr := d, cattr := d } :=
    { h with pal := hp, deff := hd.f, defb := hd.b, defp := hd.protect.trans h.defp, cat := hdc }
  refine R.SatK.bind (h1.scr (Q := Term) trivial trivial) ?_
  intro v1 h1
  refine R.SatK.mono (h1.1.scr (Q := Term) trivial trivial) (fun _ hk => hk) ?_
  intro v2 h2
  have hb := (h1.2.trans h2.2).balanced
  exact ⟨h2.1, hb.pc, hb.esc⟩

theorem new_ok {s : Screen} (h : Screen.Inv s) (sg : Bool) : R.Sat (new s sg) (fun v => Ok v ∧ v.parseCnt = 0 ∧ v.fPrepend = false) := by
  rw [R.sat_iff]
  unfold Vte.new
  refine R.SatK.bind ((toRgb_ok (getPalette_length none none (by intro p h; cases h)) _).toK _) ?_
  intro d hd
  have hX : ∀ e, Kx ⟨False, False, False⟩ e → False := by
    intro e he
    rcases he with ⟨_, h⟩ | ⟨_, h⟩ | ⟨_, h⟩ <;> exact h
  have hz : Coded Attr.zero := ⟨by decide, by decide, by decide, by decide, rfl⟩
  have h0 : Ok { blank s sg d with state := .ground } :=
    ⟨h, (by show (List.replicate 16 (0 : Int)).length = 16; simp),
      (by intro a ha; have := List.eq_of_mem_replicate (show a ∈ List.replicate 16 (0 : Int) from ha); omega),
      Nat.zero_le _, (by show (List.replicate 128 (0 : UInt8)).length = 128; simp), Nat.zero_le _,
      (by intro h; cases h), getPalette_length none none (by intro p h; cases h), (by intro p h; cases h),
      hz, hd.f, hd.b, hd.protect, hz, (by show (0 : BitVec 32).getLsbD 17 = false; decide), rfl⟩
  refine R.SatK.bind (R.SatK.mono (reset_good' (X := ⟨False, False, False⟩) h0) hX (fun _ h => h)) ?_
  intro v1 h1
  refine R.SatK.mono (h1.1.scr (Q := Term) (X := ⟨False, False, False⟩) trivial trivial) hX ?_
  intro v2 h2
  exact ⟨h2.1, by rw [h2.2.pc, h1.2.1.pc]; rfl, (h1.2.1.trans h2.2).esc (by show (0 : BitVec 32).getLsbD 16 = false; decide)⟩

/-- The outcomes that calls of the emulator and of its screen can have. -/
def Known (e : UB) : Prop := e = .insertMove ∨ e = .oobTab ∨ e = .csiArg

theorem Kx.known {e : UB} (h : Kx X e) : Known e := by
  rcases h with h | h | h
  · exact Or.inl h.1
  · exact Or.inr (Or.inl h.1)
  · exact Or.inr (Or.inr h.1)

theorem Ok.call {v : Vte} (h : Ok v) {c : Call} (hv : c.Valid) :
    R.SatK (c.run v) Known (fun v' => Ok v' ∧ Balanced v v') := by
  have good : ∀ {x : R Vte} {X : Risk}, Good Term X v x → R.SatK x Known (fun v' => Ok v' ∧ Balanced v v') :=
    fun hx => R.SatK.mono hx (fun _ hk => hk.known) (fun _ hv => ⟨hv.1, hv.2.balanced⟩)
  have good2 : ∀ {x : R (Vte × Bool)} {X : Risk}, Good2 Term X v x →
      R.SatK (do let r ← x; pure r.1 : R Vte) Known (fun v' => Ok v' ∧ Balanced v v') := by
    intro x X hx
    refine R.SatK.bind (R.SatK.mono hx (fun _ hk => hk.known) (fun _ h => h)) ?_
    intro r hr
    exact ⟨hr.1, hr.2.balanced⟩
  cases c with
  | input b => exact good (h.input b)
  | keyboard k a m u => exact good2 (R.SatK.mono (h.keyboard k a m u) (fun _ hk => hk) (fun _ hr => hr.1))
  | mouse cx cy px py b e m => exact good2 (h.mouse cx cy px py b e m)
  | reset => exact good (X := risk 0) h.reset
  | hardReset => exact good (X := risk 0) h.hardReset
  | setPalette n mem =>
    show R.SatK (v.setPalette n mem) _ _
    unfold Vte.setPalette
    split
    · exact ⟨h, Balanced.refl v⟩
    · have h1 : Ok { v with paletteName := n } := { h with }
      exact R.SatK.mono (h1.updatePalette (X := risk 0)) (fun _ hk => hk.known) (fun _ hv => ⟨hv.1, hv.2.pc, hv.2.esc⟩)
  | setCustomPalette p mem =>
    show R.SatK (v.setCustomPalette p mem) _ _
    unfold Vte.setCustomPalette
    split
    · exact ⟨h, Balanced.refl v⟩
    · have h1 : Ok { v with customPalette := p } :=
        { h with
          cpal := by
            intro q hq
            have hq : p = some q := hq
            subst hq
            exact hv }
      exact R.SatK.mono (h1.updatePalette (X := risk 0)) (fun _ hk => hk.known) (fun _ hv => ⟨hv.1, hv.2.pc, hv.2.esc⟩)
  | setBsDelete on => exact ⟨{ h with }, rfl, id⟩
  | setOscCb on => exact ⟨{ h with }, rfl, id⟩
  | setMouseCb on => exact ⟨{ h with }, rfl, id⟩
  | screen c =>
    show R.SatK (v.scr c) _ _
    refine R.SatK.mono (h.scrAny (Q := fun _ => True) (X := ⟨True, True, True⟩) hv trivial (fun _ _ _ _ _ _ => trivial)
      (fun _ _ _ => trivial)) (fun _ hk => hk.known) (fun _ hv => ⟨hv.1, hv.2.balanced⟩)

theorem Ok.runAll : ∀ (cs : List Call) {v : Vte}, Ok v → (∀ c ∈ cs, c.Valid) →
    R.SatK (v.runAll cs) Known (fun v' => Ok v' ∧ Balanced v v') := by
  intro cs
  induction cs with
  | nil => intro v h _; exact ⟨h, Balanced.refl v⟩
  | cons c cs ih =>
    intro v h hv
    unfold Vte.runAll
    refine R.SatK.bind (h.call (hv c (List.mem_cons_self ..))) ?_
    intro v1 h1
    refine R.SatK.mono (ih h1.1 (fun d hd => hv d (List.mem_cons_of_mem _ hd))) (fun _ hk => hk) ?_
    intro v2 h2
    exact ⟨h2.1, h1.2.trans h2.2⟩

theorem SatK.of_ok {α : Type} {x : R α} {K : UB → Prop} {P : α → Prop} {a : α} (h : R.SatK x K P) (e : x = .ok a) :
    P a := by rw [e] at h; exact h

theorem Reachable.all {v : Vte} (h : Reachable v) : Ok v ∧ v.parseCnt = 0 ∧ v.fPrepend = false := by
  obtain ⟨s, sg, v0, cs, hs, e0, hv, er⟩ := h
  obtain ⟨v0', e0', h0, p0⟩ := new_ok hs.inv sg
  rw [e0] at e0'
  injection e0' with e0'
  subst e0'
  have := SatK.of_ok (Ok.runAll cs h0 hv) er
  exact ⟨this.1, this.2.pc.trans p0.1, this.2.esc p0.2⟩

theorem Reachable.ok {v : Vte} (h : Reachable v) : Ok v ∧ v.parseCnt = 0 := ⟨h.all.1, h.all.2.1⟩

theorem vrunAll_append (cs cs' : List Call) (v : Vte) :
    v.runAll (cs ++ cs') = (v.runAll cs >>= fun v' => v'.runAll cs') := by
  induction cs generalizing v with
  | nil => rfl
  | cons c cs ih =>
    show (c.run v >>= fun s => s.runAll (cs ++ cs')) = ((c.run v >>= fun s => s.runAll cs) >>= _)
    cases c.run v with
    | ok t => exact ih t
    | error e => rfl

theorem Reachable.step {v v' : Vte} (h : Reachable v) {c : Call} (hv : c.Valid) (e : c.run v = .ok v') :
    Reachable v' := by
  obtain ⟨s, sg, v0, cs, hs, e0, hcs, er⟩ := h
  refine ⟨s, sg, v0, cs ++ [c], hs, e0, ?_, ?_⟩
  · intro d hd
    rcases List.mem_append.mp hd with hd | hd
    · exact hcs d hd
    · rw [List.mem_singleton.mp hd]; exact hv
  · rw [vrunAll_append, er]
    show (c.run v >>= fun v => v.runAll []) = _
    rw [e]; rfl

end Vte
end Verif
