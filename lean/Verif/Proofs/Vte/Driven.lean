import Verif.Proofs.Vte.Sgr

/-!
# The screen of an emulator is only changed by valid calls of the screen
-/

namespace Verif
namespace Vte

open Screen (Inv)

/-- The screen of `v'` results from that of `v` by valid calls. -/
def Drives (s s' : Screen) : Prop := ∃ cs : List Screen.Call, (∀ c ∈ cs, c.Valid) ∧ Screen.runAll cs s = .ok s'

theorem Drives.refl (s : Screen) : Drives s s := ⟨[], by simp, rfl⟩

theorem Drives.trans {s t u : Screen} (h : Drives s t) (h' : Drives t u) : Drives s u := by
  obtain ⟨c1, v1, r1⟩ := h
  obtain ⟨c2, v2, r2⟩ := h'
  refine ⟨c1 ++ c2, ?_, ?_⟩
  · intro c hc
    rcases List.mem_append.mp hc with hc | hc
    · exact v1 c hc
    · exact v2 c hc
  · rw [runAll_append, r1]; exact r2

theorem Drives.reachable {s s' : Screen} (h : Drives s s') (hs : s.Reachable) : s'.Reachable := by
  obtain ⟨al, cs, hv, e⟩ := hs
  obtain ⟨ds, hd, er⟩ := h
  refine ⟨al, cs ++ ds, ?_, ?_⟩
  · intro c hc
    rcases List.mem_append.mp hc with hc | hc
    · exact hv c hc
    · exact hd c hc
  · unfold Screen.history at e ⊢
    cases en : Screen.new al with
    | error x => rw [en] at e; cases e
    | ok o =>
      rw [en] at e
      cases o with
      | none => cases e
      | some t =>
        have e : (Screen.runAll cs t >>= fun s => pure (some s)) = .ok (some s) := e
        show (Screen.runAll (cs ++ ds) t >>= fun s => pure (some s)) = .ok (some s')
        cases ec : Screen.runAll cs t with
        | error x => rw [ec] at e; cases e
        | ok t' =>
          rw [ec] at e
          have e : Except.ok (ε := UB) (some t') = .ok (some s) := e
          injection e with e
          injection e with e
          subst e
          rw [runAll_append, ec]
          show (Screen.runAll ds t' >>= _) = _
          rw [er]; rfl

theorem Ext.drives {Q : Screen.Call → Prop} {v v' : Vte} (h : Ext Q v v') : Drives v.con v'.con := by
  obtain ⟨cs, hc, e⟩ := h.run
  exact ⟨cs, fun c h => (hc c h).1, e⟩

theorem Ok.updatePalette_con {v : Vte} (h : Ok v) {X : Risk} :
    R.SatK v.updatePalette (Kx X) (fun v' => Drives v.con v'.con) := by
  unfold Vte.updatePalette
  dsimp only
  have hp := getPalette_length v.paletteName v.customPalette h.cpal
  refine R.SatK.bind ((toRgb_ok hp _).toK _) ?_
  intro d hd
  have hdc : Coded d := hd.coded ⟨(by decide : (-1 : Int) ≤ 16), (by decide : (16 : Int) ≤ 17),
    (by decide : (-1 : Int) ≤ 17), (by decide : (17 : Int) ≤ 17), h.defp⟩
  have h1 : Ok { v with palette := getPalette v.paletteName v.customPalette, defAttr := d, cattr := d } :=
    { h with pal := hp, deff := hd.f, defb := hd.b, defp := hd.protect.trans h.defp, cat := hdc }
  refine R.SatK.bind (h1.scr (Q := Term) trivial trivial) ?_
  intro v1 h1
  refine R.SatK.mono (h1.1.scr (Q := Term) trivial trivial) (fun _ hk => hk) ?_
  intro v2 h2
  exact Drives.trans h1.2.drives h2.2.drives

theorem new_con {s : Screen} (h : Screen.Inv s) (sg : Bool) : R.Sat (new s sg) (fun v => Drives s v.con) := by
  rw [R.sat_iff]
  unfold Vte.new
  refine R.SatK.bind ((toRgb_ok (getPalette_length none none (by intro p h; cases h)) _).toK _) ?_
  intro d hd
  have hX : ∀ e, Kx ⟨False, False, False⟩ e → False := by
    intro e he
    rcases he with ⟨_, h⟩ | ⟨_, h⟩ | ⟨_, h⟩ <;> exact h
  have hz : Coded Attr.zero := ⟨by decide, by decide, by decide, by decide, rfl⟩
  have h0 : Ok { blank s sg d with state := .ground } :=
    ⟨h, (by show (List.replicate 16 (0 : Int)).length = 16; simp),
      (by intro a ha; have := List.eq_of_mem_replicate (show a ∈ List.replicate 16 (0 : Int) from ha); omega),
      Nat.zero_le _, (by show (List.replicate 128 (0 : UInt8)).length = 128; simp), Nat.zero_le _,
      (by intro h; cases h), getPalette_length none none (by intro p h; cases h), (by intro p h; cases h),
      hz, hd.f, hd.b, hd.protect, hz, (by show (0 : BitVec 32).getLsbD 17 = false; decide), rfl⟩
  refine R.SatK.bind (R.SatK.mono (reset_good' (X := ⟨False, False, False⟩) h0) hX (fun _ h => h)) ?_
  intro v1 h1
  refine R.SatK.mono (h1.1.scr (Q := Term) (X := ⟨False, False, False⟩) trivial trivial) hX ?_
  intro v2 h2
  exact Drives.trans h1.2.1.drives h2.2.drives

/-- A call of the emulator changes its screen by valid calls of the screen only. -/
theorem Ok.call_con {v : Vte} (h : Ok v) {c : Call} (hv : c.Valid) :
    R.SatK (c.run v) Known (fun v' => Drives v.con v'.con) := by
  have good : ∀ {x : R Vte} {X : Risk} {Q : Screen.Call → Prop}, Good Q X v x →
      R.SatK x Known (fun v' => Drives v.con v'.con) :=
    fun hx => R.SatK.mono hx (fun _ hk => hk.known) (fun _ hv => hv.2.drives)
  have good2 : ∀ {x : R (Vte × Bool)} {X : Risk}, Good2 Term X v x →
      R.SatK (do let r ← x; pure r.1 : R Vte) Known (fun v' => Drives v.con v'.con) := by
    intro x X hx
    refine R.SatK.bind (R.SatK.mono hx (fun _ hk => hk.known) (fun _ h => h)) ?_
    intro r hr
    exact hr.2.drives
  cases c with
  | input b => exact good (h.input b)
  | keyboard k a m u => exact good2 (R.SatK.mono (h.keyboard k a m u) (fun _ hk => hk) (fun _ hr => hr.1))
  | mouse cx cy px py b e m => exact good2 (h.mouse cx cy px py b e m)
  | reset => exact good (X := risk 0) (Q := Term) h.reset
  | hardReset => exact good (X := risk 0) (Q := Term) h.hardReset
  | setPalette n mem =>
    show R.SatK (v.setPalette n mem) _ _
    unfold Vte.setPalette
    split
    · exact Drives.refl _
    · have h1 : Ok { v with paletteName := n } := { h with }
      exact R.SatK.mono (h1.updatePalette_con (X := risk 0)) (fun _ hk => hk.known) (fun _ hv => hv)
  | setCustomPalette p mem =>
    show R.SatK (v.setCustomPalette p mem) _ _
    unfold Vte.setCustomPalette
    split
    · exact Drives.refl _
    · have h1 : Ok { v with customPalette := p } :=
        { h with
          cpal := by
            intro q hq
            have hq : p = some q := hq
            subst hq
            exact hv }
      exact R.SatK.mono (h1.updatePalette_con (X := risk 0)) (fun _ hk => hk.known) (fun _ hv => hv)
  | setBsDelete on => exact Drives.refl _
  | setOscCb on => exact Drives.refl _
  | setMouseCb on => exact Drives.refl _
  | screen c =>
    exact good (h.scrAny (Q := fun _ => True) (X := ⟨True, True, True⟩) hv trivial (fun _ _ _ _ _ _ => trivial)
      (fun _ _ _ => trivial))

theorem Reachable.con {v : Vte} (h : Reachable v) : v.con.Reachable := by
  obtain ⟨s, sg, v0, cs, hs, e0, hv, er⟩ := h
  have h0 : Ok v0 := by
    obtain ⟨v0', e0', h0, _⟩ := new_ok hs.inv sg
    rw [e0] at e0'
    injection e0' with e0'
    subst e0'
    exact h0
  have c0 : v0.con.Reachable := by
    obtain ⟨v0', e0', h0⟩ := new_con hs.inv sg
    rw [e0] at e0'
    injection e0' with e0'
    subst e0'
    exact h0.reachable hs
  clear e0
  induction cs generalizing v0 with
  | nil => injection er with er; subst er; exact c0
  | cons c cs ih =>
    unfold Vte.runAll at er
    cases ec : c.run v0 with
    | error x => rw [ec] at er; cases er
    | ok v1 =>
      rw [ec] at er
      have hvc := hv c (List.mem_cons_self ..)
      exact ih v1 (fun d hd => hv d (List.mem_cons_of_mem _ hd)) er (SatK.of_ok (h0.call hvc) ec).1
        ((SatK.of_ok (h0.call_con hvc) ec).reachable c0)

end Vte
end Verif
