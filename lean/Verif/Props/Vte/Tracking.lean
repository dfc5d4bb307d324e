import Verif.Proofs.Vte.Tracking
import Verif.Proofs.Vte.Example

/-!
# What the embedder is told about the mouse

C83 the callback of the mouse.
-/

namespace Verif.Props.Vte

open Verif Verif.Vte

/-- A history of an emulator whose embedder sets the callback of the mouse at once and keeps it. -/
def Watched (v : Vte) : Prop :=
  ∃ s sg v0 cs, new s sg = .ok v0 ∧ (∀ c ∈ cs, Mouse.keepsCb c = true) ∧ v0.runAll (.setMouseCb true :: cs) = .ok v

theorem Watched.tracked {v : Vte} (h : Watched v) : Tracked v := by
  obtain ⟨s, sg, v0, cs, e0, hc, e⟩ := h
  have h1 := (runAll_trk cs { v0 with mouseCb := true } hc).out
  have e : runAll { v0 with mouseCb := true } cs = .ok v := e
  rw [e] at h1
  exact h1 (new_tracked e0)

/-- Running concrete histories. -/
theorem exists_of_watched {cs : List Screen.Call} {sg : Bool} {vs : List Call} {P : Vte → Bool}
    (hk : vs.all Mouse.keepsCb = true) (h : vholds cs sg (.setMouseCb true :: vs) P = true) :
    ∃ v, Reachable v ∧ Watched v ∧ P v = true := by
  unfold vholds at h
  rw [Bool.and_eq_true] at h
  obtain ⟨hv, h⟩ := h
  obtain ⟨s, hs, h⟩ := Screen.exists_of_holds h
  split at h
  · rename_i v0 e0
    split at h
    · rename_i v e
      exact ⟨v, ⟨s, sg, v0, _, hs, e0, of_decide_eq_true hv, e⟩, ⟨s, sg, v0, vs, e0, List.all_eq_true.mp hk, e⟩, h⟩
    · cases h
  · cases h

/-- **C83.** An embedder that passes on only the events it has last been told to track loses no report: if
`tsm_vte_handle_mouse` reports an event, the embedder was told to track events of this kind. -/
theorem C83_told {v v' : Vte} (h : Watched v) {cx cy px py button event mods : Nat}
    (e : v.mouse cx cy px py button event mods = .ok (v', true)) : Mouse.Passes (Mouse.told v.log) event := by
  have ht := h.tracked
  unfold Vte.mouse at e
  split at e
  · injection e with e; injection e with _ e; cases e
  · rename_i hm
    have key : v.mouseMode ≠ 0 → v.mouseEvent ≠ 0 → Mouse.Passes (Mouse.told v.log) event := by
      intro h1 h2
      rw [ht.told h1 h2]
      show if event.testBit 2 then v.mouseEvent = 1003 else v.mouseEvent = 1002 ∨ v.mouseEvent = 1003
      split
      · rename_i h3
        exact Decidable.byContradiction fun h4 => hm ⟨Or.inr h4, h3⟩
      · rcases ht.event with h3 | h3
        · exact absurd h3 h2
        · exact h3
    by_cases h9 : v.mouseMode = 9
    · exact key (by omega) (by have := ht.x10 h9; omega)
    · rw [if_neg h9] at e
      split at e
      · rename_i h1
        exact key (by omega) h1.2
      · split at e
        · rename_i h1
          exact key (by omega) h1.2
        · injection e with e; injection e with _ e; cases e

/-- Witness: `CSI ? 1003 h CSI ? 1016 h` with a callback, some text, and a motion, which is reported. -/
example : ∃ v, Reachable v ∧ Watched v ∧ (decide (Mouse.told v.log = some (1003, true)) &&
    gives (v.mouse 1 1 10 20 0 4 0) (fun r => r.2)) = true :=
  exists_of_watched (cs := [.resize 5 3]) (sg := true) (vs := [.input [27, 91, 63, 49, 48, 48, 51, 104,
    27, 91, 63, 49, 48, 49, 54, 104, 65], .keyboard 65 65 0 65]) rfl (by decide +kernel)

/-- **C83.** The embedder needs to give only the coordinates it has been asked for: if the last call of the callback
did not ask for pixels, the outcome does not depend on the pixels, otherwise it does not depend on the cell. -/
theorem C83_coordinates {v : Vte} (h : Watched v) {t : Nat} {p : Bool} (ht : Mouse.told v.log = some (t, p))
    {cx cy px py cx' cy' px' py' button event mods : Nat} (hc : p = false → cx = cx' ∧ cy = cy') (hp : p = true → px = px' ∧ py = py') :
    v.mouse cx cy px py button event mods = v.mouse cx' cy' px' py' button event mods := by
  have h := h.tracked
  unfold Vte.mouse
  split
  · rfl
  · by_cases h9 : v.mouseMode = 9
    · have h1 := h.told (by omega) (by have := h.x10 h9; omega)
      rw [ht, h9] at h1
      injection h1 with h1; injection h1 with _ h1
      obtain ⟨rfl, rfl⟩ := hc h1
      rw [if_pos h9, if_pos h9]
    · rw [if_neg h9, if_neg h9]
      by_cases h6 : v.mouseMode = 1006 ∧ v.mouseEvent ≠ 0
      · have h1 := h.told (by omega) h6.2
        rw [ht, h6.1] at h1
        injection h1 with h1; injection h1 with _ h1
        obtain ⟨rfl, rfl⟩ := hc h1
        rw [if_pos h6, if_pos h6]
      · rw [if_neg h6, if_neg h6]
        by_cases h7 : v.mouseMode = 1016 ∧ v.mouseEvent ≠ 0
        · have h1 := h.told (by omega) h7.2
          rw [ht, h7.1] at h1
          injection h1 with h1; injection h1 with _ h1
          obtain ⟨rfl, rfl⟩ := hp h1
          rw [if_pos h7]
        · rw [if_neg h7, if_neg h7]

/-- **C83.** `CSI ? Ps ; … ; Ps h` and `l` with modes of the mouse: what `tsm_vte_get_mouse_mode` and
`tsm_vte_get_mouse_event` return afterwards, and what the callback is told; nothing else changes. -/
theorem C83_modes {v : Vte} (h : Reachable v) (hb : Between v) {qs : List (List UInt8)} (h0 : qs ≠ [])
    (hd : ∀ q ∈ qs, ∀ d ∈ q, IsDigit d) (set : Bool) (hm : ∀ q ∈ qs, number q ∈ Mouse.modes) :
    let r := (wish v).run set ((qs.take 16).map number)
    ∃ v', v.input (27 :: 91 :: 63 :: (joined qs ++ [if set then 104 else 108])) = .ok v' ∧ v'.state = .ground ∧
      SameButParser { v with
        mouseMode := r.1.encoding, mouseEvent := r.1.events
        log := v.log ++ v.pendingOsc ++ if v.mouseCb then r.2 else [] } v' := by
  intro r
  obtain ⟨m, hm', e⟩ := input_csi_marked h.ok.1 hb (p := 63) (by decide) (by decide) h0 hd
    (b := if set then 104 else 108) (by cases set <;> decide) (by cases set <;> decide)
  have e : v.input (27 :: 91 :: 63 :: (joined qs ++ [if set then 104 else 108])) =
      (modeLoop set (inSeq v.up .csiParam (min 16 qs.length) (padded (qs.map value)) 4 m) (List.range (min 16 qs.length)) >>=
        fun v' => pure { v' with state := .ground }.down) := by
    cases set <;> exact e
  have args : ∀ i ∈ List.range (min 16 qs.length),
      (inSeq v.up .csiParam (min 16 qs.length) (padded (qs.map value)) 4 m).arg i = .ok ((number (qs[i]?.getD []) : Nat) : Int) ∧
      number (qs[i]?.getD []) ∈ Mouse.modes := by
    intro i hi
    rw [List.mem_range] at hi
    have hlt : i < qs.length := by omega
    have hmem := List.getElem_mem hlt
    have hmo := hm _ hmem
    rw [List.getElem?_eq_getElem hlt]
    refine ⟨?_, hmo⟩
    rw [arg_inSeq (by omega), List.getElem?_map, List.getElem?_eq_getElem hlt]
    show Except.ok (value qs[i]) = Except.ok (number qs[i] : Int)
    have hb : number qs[i] ≠ 0 ∧ number qs[i] ≤ 655359 := by
      simp only [Mouse.modes, List.mem_cons, List.not_mem_nil, or_false] at hmo
      omega
    rcases value_cases (hd _ hmem) hb.2 with ⟨_, h1⟩ | h1
    · exact absurd h1 hb.1
    · rw [h1]
  rw [modeLoop_mouse set (fun i => number (qs[i]?.getD [])) _ _ (show (4 : BitVec 32).getLsbD 2 = true by decide) args] at e
  have hns : (List.range (min 16 qs.length)).map (fun i => number (qs[i]?.getD [])) = (qs.take 16).map number := by
    apply List.ext_getElem?
    intro i
    rw [List.getElem?_map, List.getElem?_map, List.getElem?_take]
    by_cases hi : i < min 16 qs.length
    · rw [List.getElem?_range hi, if_pos (by omega), Option.map_some, List.getElem?_eq_getElem (by omega)]
      rfl
    · rw [List.getElem?_eq_none (by rw [List.length_range]; omega)]
      by_cases h16 : i < 16
      · rw [if_pos h16, List.getElem?_eq_none (by omega)]
        rfl
      · rw [if_neg h16]
        rfl
  rw [hns] at e
  exact ⟨_, e, rfl, rfl⟩

/-- **C83**, the part about the end of tracking that holds: while one of the encodings SGR and pixel is on,
`CSI ? 1002 l` and `CSI ? 1003 l` tell the embedder that it needs to track nothing. -/
theorem C83_stop_partial {v : Vte} (h : Reachable v) (hw : Watched v) (hb : Between v) (he : v.mouseMode = 1006 ∨ v.mouseMode = 1016)
    {q : List UInt8} (hd : ∀ d ∈ q, IsDigit d) (hq : number q = 1002 ∨ number q = 1003) :
    ∃ v', v.input (27 :: 91 :: 63 :: (q ++ [108])) = .ok v' ∧
      ∀ event, ¬ Mouse.Passes (Mouse.told v'.log) event := by
  obtain ⟨v', e, _, hs⟩ := C83_modes h hb (qs := [q]) (List.cons_ne_nil _ _)
    (fun r hr => by rw [List.mem_singleton.mp hr]; exact hd) false
    (fun r hr => by rw [List.mem_singleton.mp hr]; rcases hq with hq | hq <;> rw [hq] <;> decide)
  refine ⟨v', e, ?_⟩
  have hl : v'.log = v.log ++ v.pendingOsc ++ [.mouse 0 (decide (v.mouseMode = 1016))] := by
    rw [hs, hw.tracked.cb]
    show v.log ++ v.pendingOsc ++ ((wish v).run false [number q]).2 = _
    have : ((wish v).run false [number q]).2 = [.mouse 0 (decide (v.mouseMode = 1016))] := by
      show (wish v).notice false (number q) ++ [] = _
      unfold Mouse.Wish.notice Mouse.Wish.after wish
      rcases hq with hq | hq <;> rcases he with he | he <;> rw [hq, he] <;> rfl
    rw [this]
  intro event hp
  rw [hl, told_mouse] at hp
  unfold Mouse.Passes at hp
  dsimp only at hp
  split at hp
  · cases hp
  · rcases hp with hp | hp <;> cases hp

/-- Witnesses: `CSI ? 1002 h CSI ? 1006 h`, then `CSI ? 1002 l` says that nothing needs to be tracked;
`CSI ? 9 ; 1006 h` for several modes at once. -/
example : ∃ v, Reachable v ∧ Watched v ∧ (decide (Between v) && decide (v.mouseMode = 1006) &&
    decide (number [49, 48, 48, 50] = 1002) && decide (Mouse.Passes (Mouse.told v.log) 1) &&
    gives (v.input [27, 91, 63, 49, 48, 48, 50, 108]) (fun v' => !decide (Mouse.Passes (Mouse.told v'.log) 1)) &&
    decide (number [57] ∈ Mouse.modes ∧ number [49, 48, 48, 54] ∈ Mouse.modes) &&
    gives (v.input (27 :: 91 :: 63 :: (joined [[57], [49, 48, 48, 54]] ++ [104]))) (fun v' =>
      decide (v'.log = v.log ++ [.mouse 1002 false, .mouse 1002 false]))) = true :=
  exists_of_watched (cs := [.resize 5 3]) (sg := true) (vs := [.input [27, 91, 63, 49, 48, 48, 50, 104,
    27, 91, 63, 49, 48, 48, 54, 104]]) rfl (by decide +kernel)

/-- **C83**, the converse: when no event would be reported the embedder is told to track nothing
(src/tsm/libtsm.h:361-363: "whenever the mouse mode changes … or not at all"). -/
def C83_stop : Prop :=
  ∀ v, Reachable v → Watched v →
    (∀ cx cy px py button event mods, v.mouse cx cy px py button event mods = .ok (v, false)) →
    ∀ event, ¬ Mouse.Passes (Mouse.told v.log) event

theorem not_stop {vs : List Call} (hk : vs.all Mouse.keepsCb = true) (h : vholds [.resize 5 3] true (.setMouseCb true :: vs)
      (fun v => decide (v.mouseMode = 0) && decide (Mouse.Passes (Mouse.told v.log) 1)) = true) : ¬ C83_stop := by
  intro hc
  obtain ⟨v, hr, hw, hp⟩ := exists_of_watched hk h
  rw [Bool.and_eq_true] at hp
  have h0 : v.mouseMode = 0 := of_decide_eq_true hp.1
  refine hc v hr hw ?_ 1 (of_decide_eq_true hp.2)
  intro cx cy px py button event mods
  unfold Vte.mouse
  split
  · rfl
  · rw [if_neg (by omega), if_neg (by omega), if_neg (by omega)]

/-- The converse is **false**: `CSI ? 1002 h CSI ? 1006 h CSI ? 1006 l` ends with the callback told to track
buttons, although the last sequence switched all reports off. `CSI ? 1002 l` afterwards does not call the callback
any more. -/
theorem C83_stop_false_encoding : ¬ C83_stop :=
  not_stop (vs := [.input [27, 91, 63, 49, 48, 48, 50, 104, 27, 91, 63, 49, 48, 48, 54, 104, 27, 91, 63, 49, 48, 48, 54, 108,
    27, 91, 63, 49, 48, 48, 50, 108]]) rfl (by decide +kernel)

/-- The same with X10: `CSI ? 9 h CSI ? 9 l`. -/
theorem C83_stop_false_x10 : ¬ C83_stop :=
  not_stop (vs := [.input [27, 91, 63, 57, 104, 27, 91, 63, 57, 108]]) rfl (by decide +kernel)

/-- The same with a reset: the sequence `ESC c` switches the reports off without calling the callback. -/
theorem C83_stop_false_reset : ¬ C83_stop :=
  not_stop (vs := [.input [27, 91, 63, 49, 48, 48, 51, 104, 27, 91, 63, 49, 48, 48, 54, 104, 27, 99]]) rfl (by decide +kernel)

end Verif.Props.Vte
