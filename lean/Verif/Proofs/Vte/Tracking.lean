import Verif.Proofs.Vte.Trace
import Verif.Proofs.Vte.State
import Verif.Proofs.Vte.Controls

/-!
# What the embedder is told about the mouse, over all calls
-/

namespace Verif
namespace Vte

variable {n : Nat} {L : Nat → Prop}

/-- The embedder knows about the mouse afterwards if it does before. -/
structure Trk (v : Vte) (x : R Vte) : Prop where
  out : R.Post x (fun v' => Tracked v → Tracked v')

theorem Trd.trk {v : Vte} {x : R Vte} (h : Trd n L v x) : Trk v x := ⟨R.SatK.mono h.out (fun _ h => h) (fun _ h => h.track)⟩

theorem Trk.ok {v v' : Vte} (h : Tracked v → Tracked v') : Trk v (.ok v') := ⟨h⟩

theorem Trk.bind {v : Vte} {x : R Vte} {f : Vte → R Vte} (h : Trk v x) (hf : ∀ v', Trk v' (f v')) : Trk v (x >>= f) :=
  ⟨R.Post.bind h.out (fun v' h' => R.SatK.mono (hf v').out (fun _ h => h) (fun _ h hs => h (h' hs)))⟩

theorem Trk.after {u v : Vte} {x : R Vte} (h : Tracked u → Tracked v) (hx : Trk v x) : Trk u x :=
  ⟨R.SatK.mono hx.out (fun _ h => h) (fun _ hv hu => hv (h hu))⟩

theorem send_trk (v : Vte) (b : List UInt8) : Trk v (pure (v.send b)) := by
  refine Trk.ok (fun h => ?_)
  unfold Vte.send
  split
  · refine h.same rfl ?_
    show Mouse.told (v.log ++ [.write [27]] ++ [.write b]) = _
    rw [told_append _ _ rfl, told_append _ _ rfl]
  · exact h.same rfl (told_append v.log [.write b] rfl)

theorem write_trk (v : Vte) (b : List UInt8) : Trk v (v.write b) := by
  unfold Vte.write
  refine Trk.bind ?_ (fun v => send_trk v b)
  unfold Vte.echo
  split
  · refine Trk.bind ?_ (fun v => (input_trd v b).trk)
    unfold Vte.echoEsc
    split
    · exact (input_trd v _).trk
    · exact Trk.ok id
  · exact Trk.ok id

theorem writePair_trk (v : Vte) (b : List UInt8) :
    Trk v ((v.write b >>= fun v => pure (v, true) : R (Vte × Bool)) >>= fun r => pure r.1) := by
  have : ((v.write b >>= fun v => pure (v, true) : R (Vte × Bool)) >>= fun r => pure r.1 : R Vte) = v.write b := by
    cases v.write b <;> rfl
  rw [this]
  exact write_trk v b

theorem keyboard_trk (v : Vte) (k a m u : Nat) : Trk v (do let r ← v.keyboard k a m u; pure r.1 : R Vte) := by
  unfold Vte.keyboard
  dsimp only
  refine Trk.after (v := if m.testBit 3 then v.setFlag true 16 else v) ?_ ?_
  · intro h
    split
    · exact h.same rfl rfl
    · exact h
  · generalize (if m.testBit 3 then v.setFlag true 16 else v) = w
    split
    · exact writePair_trk w _
    · exact Trk.ok (fun h => h.same rfl rfl)

theorem mouse_trk (v : Vte) (cx cy px py b e m : Nat) :
    Trk v (do let r ← v.mouse cx cy px py b e m; pure r.1 : R Vte) := by
  unfold Vte.mouse
  split
  · exact Trk.ok id
  · split
    · exact writePair_trk v _
    · split
      · unfold Vte.mouseSgr
        split
        · split
          · exact Trk.ok id
          · exact Trk.after (v := { v with mouseLastCol := u32 (cx + 1), mouseLastRow := u32 (cy + 1) })
              (fun h => h.same rfl rfl) (writePair_trk _ _)
        · exact writePair_trk v _
      · split
        · exact writePair_trk v _
        · exact Trk.ok id

/-- A call of the screen does not concern the mouse. -/
theorem scr_trk (v : Vte) (c : Screen.Call) : Trk v (v.scr c) := by
  unfold Vte.scr
  cases c.run v.con with
  | error u => exact ⟨trivial⟩
  | ok s => exact Trk.ok (fun h => h.same rfl rfl)

theorem updatePalette_trk (v : Vte) : Trk v v.updatePalette := by
  unfold Vte.updatePalette
  refine ⟨R.Post.bind R.Post.any (fun d _ => Trk.out ?_)⟩
  refine Trk.after (v := { v with palette := getPalette v.paletteName v.customPalette, defAttr := d, cattr := d })
    (fun h => h.same rfl rfl) ?_
  exact Trk.bind (scr_trk _ _) (fun v => scr_trk _ _)

theorem call_trk (v : Vte) (c : Call) (hc : Mouse.keepsCb c = true) : Trk v (c.run v) := by
  cases c with
  | input b => exact (input_trd v b).trk
  | keyboard k a m u => exact keyboard_trk v k a m u
  | mouse cx cy px py b e m => exact mouse_trk v cx cy px py b e m
  | reset => exact (reset_trd (n := 0) (L := fun _ => True) v).trk
  | hardReset => exact (hardReset_trd (n := 0) (L := fun _ => True) v).trk
  | setPalette n mem =>
    show Trk v (v.setPalette n mem)
    unfold Vte.setPalette
    split
    · exact Trk.ok id
    · exact Trk.after (v := { v with paletteName := n }) (fun h => h.same rfl rfl) (updatePalette_trk _)
  | setCustomPalette p mem =>
    show Trk v (v.setCustomPalette p mem)
    unfold Vte.setCustomPalette
    split
    · exact Trk.ok id
    · exact Trk.after (v := { v with customPalette := p }) (fun h => h.same rfl rfl) (updatePalette_trk _)
  | setBsDelete on => exact Trk.ok (fun h => h.same rfl rfl)
  | setOscCb on => exact Trk.ok (fun h => h.same rfl rfl)
  | setMouseCb on =>
    have hc : on = true := hc
    subst hc
    exact Trk.ok (fun h => ⟨rfl, h.mode, h.event, h.x10, h.told⟩)
  | screen c => exact scr_trk v c

theorem runAll_trk : ∀ (cs : List Call) (v : Vte), (∀ c ∈ cs, Mouse.keepsCb c = true) → Trk v (v.runAll cs) := by
  intro cs
  induction cs with
  | nil => intro v _; exact Trk.ok id
  | cons c cs ih =>
    intro v hc
    exact Trk.bind (call_trk v c (hc c List.mem_cons_self)) (fun v => ih v (fun d hd => hc d (List.mem_cons_of_mem _ hd)))

/-- A new emulator that has been given a callback. -/
theorem new_tracked {s : Screen} {sg : Bool} {v : Vte} (h : new s sg = .ok v) : Tracked { v with mouseCb := true } := by
  have : R.Post (new s sg) (fun v => v.mouseMode = 0 ∧ v.mouseEvent = 0) := by
    unfold Vte.new
    refine R.Post.bind R.Post.any (fun d _ => ?_)
    have scr : ∀ (v : Vte) (c : Screen.Call), R.Post (v.scr c)
        (fun w => w.mouseMode = v.mouseMode ∧ w.mouseEvent = v.mouseEvent) := by
      intro v c
      unfold Vte.scr
      cases c.run v.con with
      | error u => trivial
      | ok s => exact ⟨rfl, rfl⟩
    have h1 : R.Post (blank s sg d).reset (fun v => v.mouseMode = 0 ∧ v.mouseEvent = 0) := by
      unfold Vte.reset
      refine R.Post.bind R.Post.any (fun v _ => R.Post.bind R.Post.any (fun v _ => R.Post.bind R.Post.any (fun a _ => ?_)))
      exact R.Post.bind (scr _ _) (fun v hv => ⟨hv.1, hv.2⟩)
    refine R.Post.bind h1 (fun v hv => ?_)
    exact R.SatK.mono (scr v _) (fun _ h => h) (fun w hw => ⟨hw.1.trans hv.1, hw.2.trans hv.2⟩)
  rw [h] at this
  exact ⟨rfl, Or.inl this.1, Or.inl this.2, (fun h9 => by rw [show v.mouseMode = 0 from this.1] at h9; cases h9),
    fun h0 => absurd this.1 h0⟩

theorem mode_mouse (v : Vte) (set : Bool) {n : Nat} (hn : n ∈ Mouse.modes) :
    v.decMode set n = .ok { v with
      mouseMode := (Mouse.Wish.after ⟨v.mouseMode, v.mouseEvent⟩ set n).encoding
      mouseEvent := (Mouse.Wish.after ⟨v.mouseMode, v.mouseEvent⟩ set n).events
      log := v.log ++ if v.mouseCb then Mouse.Wish.notice ⟨v.mouseMode, v.mouseEvent⟩ set n else [] } := by
  simp only [Mouse.modes, List.mem_cons, List.not_mem_nil, or_false] at hn
  have app : ∀ l : List Event, l ++ [] = l := List.append_nil
  rcases hn with rfl | rfl | rfl | rfl | rfl
  · show Except.ok (v.modeX10 set) = _
    unfold Vte.modeX10 Vte.mouseNotify Mouse.Wish.notice Mouse.Wish.after
    cases hcb : v.mouseCb <;> cases set <;> simp [Vte.emit, app]
  · show Except.ok (v.modeMouseEvent set 1002) = _
    unfold Vte.modeMouseEvent Vte.mouseNotify Mouse.Wish.notice Mouse.Wish.after
    by_cases h9 : v.mouseMode = 9 <;> by_cases h0 : v.mouseMode = 0 <;> cases hcb : v.mouseCb <;> cases set <;>
      simp [Vte.emit, h9, h0]
  · show Except.ok (v.modeMouseEvent set 1003) = _
    unfold Vte.modeMouseEvent Vte.mouseNotify Mouse.Wish.notice Mouse.Wish.after
    by_cases h9 : v.mouseMode = 9 <;> by_cases h0 : v.mouseMode = 0 <;> cases hcb : v.mouseCb <;> cases set <;>
      simp [Vte.emit, h9, h0]
  · show Except.ok (v.modeMouse set 1006) = _
    unfold Vte.modeMouse Vte.mouseNotify Mouse.Wish.notice Mouse.Wish.after
    by_cases h0 : v.mouseEvent = 0 <;> cases hcb : v.mouseCb <;> cases set <;> simp [Vte.emit, h0]
  · show Except.ok (v.modeMouse set 1016) = _
    unfold Vte.modeMouse Vte.mouseNotify Mouse.Wish.notice Mouse.Wish.after
    by_cases h0 : v.mouseEvent = 0 <;> cases hcb : v.mouseCb <;> cases set <;> simp [Vte.emit, h0]

/-- All modes of a list. -/
theorem modeLoop_mouse (set : Bool) (n : Nat → Nat) : ∀ (is : List Nat) (w : Vte), w.cWhat = true →
    (∀ i ∈ is, w.arg i = .ok (n i) ∧ n i ∈ Mouse.modes) →
    modeLoop set w is = .ok { w with
      mouseMode := ((wish w).run set (is.map n)).1.encoding
      mouseEvent := ((wish w).run set (is.map n)).1.events
      log := w.log ++ if w.mouseCb then ((wish w).run set (is.map n)).2 else [] } := by
  intro is
  induction is with
  | nil =>
    intro w _ _
    show Except.ok w = Except.ok { w with log := w.log ++ if w.mouseCb then [] else [] }
    rw [ite_self, List.append_nil]
  | cons i is ih =>
    intro w hw ha
    obtain ⟨h1, h2⟩ := ha i List.mem_cons_self
    have e1 : w.modeOne set i = w.decMode set (n i) := by
      unfold Vte.modeOne
      rw [h1]
      show (if (n i : Int) < 0 then pure w else if w.cWhat then w.decMode set (n i : Int).toNat else _) = _
      rw [if_neg (by omega), hw]
      rfl
    unfold modeLoop
    rw [e1, mode_mouse w set h2]
    refine (ih { w with
      mouseMode := ((wish w).after set (n i)).encoding, mouseEvent := ((wish w).after set (n i)).events
      log := w.log ++ if w.mouseCb then (wish w).notice set (n i) else [] } hw (fun k hk => ha k (List.mem_cons_of_mem _ hk))).trans ?_
    have hl : ∀ a b : List Event, w.log ++ (if w.mouseCb then a else []) ++ (if w.mouseCb then b else []) =
        w.log ++ if w.mouseCb then a ++ b else [] := by
      intro a b
      cases w.mouseCb
      · exact List.append_nil _
      · exact List.append_assoc ..
    show Except.ok { w with
      mouseMode := _, mouseEvent := _
      log := w.log ++ (if w.mouseCb then Mouse.Wish.notice (wish w) set (n i) else []) ++
        if w.mouseCb then (((wish w).after set (n i)).run set (is.map n)).2 else [] } = _
    rw [hl]
    rfl

end Vte
end Verif
