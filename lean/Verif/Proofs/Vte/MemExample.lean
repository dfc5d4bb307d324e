import Verif.Proofs.Screen.Alloc
import Verif.Proofs.Vte.Driven
import Verif.Proofs.Vte.Example

/-! Concrete histories without allocation failures, for the examples beside the theorems. -/

namespace Verif

theorem Screen.history_mem {f : Nat → Bool} {cs : List Screen.Call} {s : Screen} (e : Screen.history f cs = .ok (some s)) :
    s.allocOk = f := by
  have e : (Screen.new f >>= fun r => match r with
    | none => (.ok none : R (Option Screen))
    | some s => Screen.runAll cs s >>= fun s => .ok (some s)) = .ok (some s) := e
  cases hn : Screen.new f with
  | error k => rw [hn] at e; cases e
  | ok r =>
    rw [hn] at e
    cases r with
    | none => cases e
    | some s0 =>
      have e : (Screen.runAll cs s0 >>= fun s => (.ok (some s) : R (Option Screen))) = .ok (some s) := e
      cases hr : Screen.runAll cs s0 with
      | error k => rw [hr] at e; cases e
      | ok s1 =>
        rw [hr] at e
        injection e with e
        injection e with e
        subst e
        rw [Screen.runAll_mem cs hr]
        have hm := Screen.resize_mem (Screen.zero f) 80 24
        have hn : ((Screen.zero f).resize 80 24 >>= fun r => (.ok (if r.1 = .ok then some r.2 else none) : R (Option Screen))) = .ok (some s0) := hn
        cases hz : (Screen.zero f).resize 80 24 with
        | error k => rw [hz] at hn; cases hn
        | ok r =>
          rw [hz] at hn hm
          injection hn with hn
          split at hn
          · injection hn with hn
            subst hn
            exact hm
          · cases hn

namespace Vte

theorem runAll_memOk {v0 : Vte} (h0 : Ok v0) : ∀ {cs : List Call} {v : Vte}, (∀ c ∈ cs, c.Valid) → v0.runAll cs = .ok v →
    v.con.allocOk = v0.con.allocOk := by
  intro cs
  induction cs generalizing v0 with
  | nil => intro v _ er; injection er with er; subst er; rfl
  | cons c cs ih =>
    intro v hv er
    unfold Vte.runAll at er
    cases ec : c.run v0 with
    | error x => rw [ec] at er; cases er
    | ok v1 =>
      rw [ec] at er
      have hvc := hv c (List.mem_cons_self ..)
      obtain ⟨ds, _, hd⟩ := SatK.of_ok (h0.call_con hvc) ec
      rw [ih (SatK.of_ok (h0.call hvc) ec).1 (fun d hd => hv d (List.mem_cons_of_mem _ hd)) er, Screen.runAll_mem ds hd]

theorem exists_of_vholds_mem {cs : List Screen.Call} {sg : Bool} {vs : List Call} {P : Vte → Bool}
    (h : vholds cs sg vs P = true) : ∃ v, Reachable v ∧ v.con.MemOk ∧ P v = true := by
  unfold vholds Screen.holds at h
  rw [Bool.and_eq_true, Bool.and_eq_true] at h
  obtain ⟨hv, hc, h⟩ := h
  split at h
  · rename_i s e
    have hs : s.Reachable := ⟨fun _ => true, cs, fun c hm => of_decide_eq_true (List.all_eq_true.mp hc c hm), e⟩
    dsimp only at h
    split at h
    · rename_i v0 e0
      split at h
      · rename_i v er
        have hv := of_decide_eq_true hv
        refine ⟨v, ⟨s, sg, v0, vs, hs, e0, hv, er⟩, ?_, h⟩
        obtain ⟨w, e0', k0, _⟩ := new_ok hs.inv sg
        rw [e0] at e0'
        injection e0' with e0'
        subst e0'
        obtain ⟨w, e0', ds, _, hd⟩ := new_con hs.inv sg
        rw [e0] at e0'
        injection e0' with e0'
        subst e0'
        unfold Screen.MemOk
        rw [runAll_memOk k0 hv er, Screen.runAll_mem ds hd, Screen.history_mem e]
        exact fun _ => rfl
      · cases h
    · cases h
  · cases h

end Vte
end Verif
