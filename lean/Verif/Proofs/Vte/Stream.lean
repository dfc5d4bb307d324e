import Verif.Proofs.Vte.Eval

/-!
# Streams of bytes
-/

namespace Verif
namespace Vte

/-- The state in which the bytes of a call are processed. -/
def up (v : Vte) : Vte := { v with parseCnt := v.parseCnt + 1 }

/-- Undoing the change of the nesting counter at the end of a call. -/
def down (v : Vte) : Vte := { v with parseCnt := v.parseCnt - 1 }

theorem input_def (v : Vte) (bs : List UInt8) : v.input bs = (v.up.inputLoop bs >>= fun v' => pure v'.down) := rfl

theorem input_ok {v v' : Vte} {bs : List UInt8} (h : v.up.inputLoop bs = .ok v') : v.input bs = .ok v'.down := by
  rw [input_def, h]; rfl

theorem input_error {v : Vte} {bs : List UInt8} {e : UB} (h : v.up.inputLoop bs = .error e) : v.input bs = .error e := by
  rw [input_def, h]; rfl

theorem of_input {v v' : Vte} {bs : List UInt8} (h : v.input bs = .ok v') :
    ∃ v1, v.up.inputLoop bs = .ok v1 ∧ v' = v1.down := by
  rw [input_def] at h
  cases e : v.up.inputLoop bs with
  | ok v1 => rw [e] at h; injection h with h; exact ⟨v1, rfl, h.symm⟩
  | error x => rw [e] at h; cases h

theorem Ok.more {v : Vte} (h : Ok v) : Ok v.up := { h with }

theorem Between.up {v : Vte} (h : Between v) : Between v.up := h

theorem up_pos (v : Vte) : 0 < v.up.parseCnt := Nat.succ_pos _

theorem down_up (v : Vte) : v.up.down = v := by
  unfold up down
  simp only [Nat.add_sub_cancel]

/-- A successful loop keeps invariant and counter. -/
theorem Ok.loop {v v' : Vte} (h : Ok v) (hp : 0 < v.parseCnt) {bs : List UInt8} (e : v.inputLoop bs = .ok v') :
    Ok v' ∧ Ext Term v v' := by
  have := Ok.inputLoop bs h hp
  rw [e] at this
  exact this

theorem input_append {v : Vte} (h : Ok v) (a b : List UInt8) :
    v.input (a ++ b) = (v.input a >>= fun v' => v'.input b) := by
  rw [input_def, input_def, inputLoop_append]
  cases e : v.up.inputLoop a with
  | error x => rfl
  | ok v1 =>
    have h1 : v1.parseCnt = v.parseCnt + 1 := (h.more.loop (up_pos v) e).2.pc
    have : v1.down.up = v1 := by
      unfold up down
      have h2 : v1.parseCnt - 1 + 1 = v1.parseCnt := by omega
      simp only [h2]
    show (v1.inputLoop b >>= fun v' => pure v'.down) = v1.down.input b
    rw [input_def, this]

/-- The state in which a byte stream fails. -/
theorem loop_cause : ∀ (bs : List UInt8) {v : Vte} {e : UB}, v.inputLoop bs = .error e →
    ∃ p b rest v1, bs = p ++ b :: rest ∧ v.inputLoop p = .ok v1 ∧ v1.inputByte b = .error e := by
  intro bs
  induction bs with
  | nil => intro v e h; cases h
  | cons b bs ih =>
    intro v e h
    rw [inputLoop_cons] at h
    cases hb : v.inputByte b with
    | error e' =>
      rw [hb] at h
      injection h with h
      subst h
      exact ⟨[], b, bs, v, rfl, rfl, hb⟩
    | ok v' =>
      rw [hb] at h
      obtain ⟨p, b', rest, v1, h1, h2, h3⟩ := ih h
      exact ⟨b :: p, b', rest, v1, by rw [h1]; rfl, by rw [inputLoop_ok hb]; exact h2, h3⟩

theorem csiDispatch_state {st : PState} {raw : Nat} (h : (nextOf st raw).2 = .csiDispatch) :
    st = .csiEntry ∨ st = .csiParam ∨ st = .csiInt := by
  unfold nextOf at h
  cases ha : anywhere raw with
  | some r =>
    rw [ha] at h
    unfold anywhere at ha
    repeat' (split at ha)
    all_goals first | cases ha | skip
    all_goals first | cases h | skip
  | none =>
    rw [ha] at h
    have h : (stateTrans st raw).2 = .csiDispatch := h
    cases st with
    | csiEntry => exact Or.inl rfl
    | csiParam => exact Or.inr (Or.inl rfl)
    | csiInt => exact Or.inr (Or.inr rfl)
    | _ =>
      exfalso
      unfold stateTrans at h
      dsimp only at h
      repeat' (split at h)
      all_goals cases h

theorem Ok.byteCause {v : Vte} (h : Ok v) (hp : 0 < v.parseCnt) {b : UInt8} {e : UB} (hb : v.inputByte b = .error e) :
    ∃ raw, v.rawOf b = some raw ∧
      Kx ⟨(nextOf v.state raw).2 = .csiDispatch ∧ BadSgr v raw, (nextOf v.state raw).2 = .print ∧ BadPrint v raw,
        (nextOf v.state raw).2 = .csiDispatch ∧ BadTab v raw⟩ e := by
  cases hr : v.rawOf b with
  | none =>
    rw [inputByte_eq, hr] at hb
    cases hb
  | some raw =>
    refine ⟨raw, rfl, ?_⟩
    obtain ⟨w, hg⟩ := h.inputByte (X := ⟨(nextOf v.state raw).2 = .csiDispatch ∧ BadSgr v raw, (nextOf v.state raw).2 = .print ∧ BadPrint v raw,
        (nextOf v.state raw).2 = .csiDispatch ∧ BadTab v raw⟩) hp b
      (fun raw' e' h1 h2 => by rw [hr] at e'; injection e' with e'; subst e'; exact ⟨h1, h2⟩)
      (fun raw' e' h1 h2 => by rw [hr] at e'; injection e' with e'; subst e'; exact ⟨h1, h2⟩)
      (fun raw' e' h1 h2 => by rw [hr] at e'; injection e' with e'; subst e'; exact ⟨h1, h2⟩)
    rw [hb] at hg
    exact hg

theorem can_ok {v : Vte} (h : Ok v) (hb : Between v) :
    ∃ m a, Btw v.flags m ∧ v.inputByte 0x18 =
      .ok { v with mach := m, oscArg := a, log := v.log ++ v.pendingOsc, state := .ground } := by
  obtain ⟨m, hm, e⟩ := inputByte_ascii hb (b := 0x18) (by decide)
  have h1 : Ok { v with mach := m } := h.mach m
  obtain ⟨a, ea⟩ := exit_ok h1 (0x18 : UInt8).toNat
  refine ⟨m, a, hm, ?_⟩
  rw [e]
  have hn : nextOf v.state (0x18 : UInt8).toNat = (.ground, .execute) := rfl
  unfold Vte.parse
  rw [show ({ v with mach := m } : Vte).state = v.state from rfl, hn]
  unfold Vte.trans
  rw [if_neg (by decide), ea]
  rfl

theorem trans_state {v v' : Vte} {d : Nat} {st : PState} {a : Action} (hst : st ≠ .none)
    (e : v.trans d st a = .ok v') : v'.state = st := by
  unfold Vte.trans at e
  rw [if_neg hst] at e
  cases h1 : v.action d (exitAction v.state) with
  | error x => rw [h1] at e; cases e
  | ok v1 =>
    rw [h1] at e
    cases h2 : v1.action d a with
    | error x => simp only [bind, Except.bind, h2] at e; cases e
    | ok v2 =>
      cases h3 : v2.action d (entryAction st) with
      | error x => simp only [bind, Except.bind, h2, h3] at e; cases e
      | ok v3 =>
        simp only [bind, Except.bind, h2, h3, pure, Except.pure] at e
        injection e with e
        rw [← e]

end Vte
end Verif
