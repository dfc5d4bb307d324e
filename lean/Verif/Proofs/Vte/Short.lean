import Verif.Proofs.Vte.Keys
import Verif.Props.Vte.Trace

/-!
# No string that is sent is long
-/

namespace Verif.Vte
open Verif

/-- The strings of `evs` have at most 24 bytes. -/
def Brief (evs : List Event) : Prop := ∀ b ∈ sent evs, b.length ≤ 24

theorem Brief.append {a b : List Event} (ha : Brief a) (hb : Brief b) : Brief (a ++ b) := by
  intro x hx
  rw [sent_append] at hx
  rcases List.mem_append.mp hx with hx | hx
  · exact ha x hx
  · exact hb x hx

/-- Going from `v` to `v'`, only short strings were sent. -/
def Sends (v v' : Vte) : Prop := ∃ evs, v'.log = v.log ++ evs ∧ Brief evs

theorem Sends.trans {a b c : Vte} (h : Sends a b) (h' : Sends b c) : Sends a c := by
  obtain ⟨e1, l1, b1⟩ := h
  obtain ⟨e2, l2, b2⟩ := h'
  exact ⟨e1 ++ e2, by rw [l2, l1, List.append_assoc], b1.append b2⟩

theorem Sends.same {v v' : Vte} (h : v'.log = v.log) : Sends v v' := ⟨[], by simp [h], fun _ h => (nomatch h)⟩

theorem input_sends (v : Vte) (bs : List UInt8) : R.Post (v.input bs) (Sends v) := by
  refine R.SatK.mono (input_trd v bs).out (fun _ h => h) ?_
  intro v' h
  obtain ⟨evs, h1, h2, _⟩ := h.log
  refine ⟨evs, h1, fun b hb => ?_⟩
  rcases h2 b hb with h2 | ⟨_, h2⟩
  · exact (Props.Vte.C72_harmless h2).2.1
  · rw [h2]; decide

theorem send_sends (v : Vte) {b : List UInt8} (hb : b.length ≤ 24) : Sends v (v.send b) := by
  unfold Vte.send
  split
  · refine ⟨[.write [27], .write b], ?_, ?_⟩
    · show v.log ++ [.write [27]] ++ [.write b] = _
      rw [List.append_assoc]; rfl
    · intro x hx
      change x ∈ [[27], b] at hx
      rcases List.mem_cons.mp hx with rfl | hx
      · decide
      · rw [List.mem_singleton.mp hx]; exact hb
  · refine ⟨[.write b], rfl, ?_⟩
    intro x hx
    rw [List.mem_singleton.mp hx]; exact hb

theorem write_sends (v : Vte) {b : List UInt8} (hb : b.length ≤ 24) : R.Post (v.write b) (Sends v) := by
  unfold Vte.write
  have h1 : R.Post (v.echo b) (Sends v) := by
    unfold Vte.echo
    refine R.Post.ite (R.Post.bind (P := Sends v) ?_ (fun w hw => ?_)) (R.Post.ok (Sends.same rfl))
    · unfold Vte.echoEsc
      exact R.Post.ite (input_sends v _) (R.Post.ok (Sends.same rfl))
    · exact R.SatK.mono (input_sends w b) (fun _ h => h) (fun _ h => hw.trans h)
  exact R.Post.bind h1 (fun w hw => R.Post.ok (hw.trans (send_sends w hb)))

/-- All strings of the table are short. -/
def KeyAct.brief : KeyAct → Bool
  | .plain b => b.length ≤ 24
  | .backspace a b | .keypad a b | .cursor a b | .enter a b | .shifted a b => a.length ≤ 24 && b.length ≤ 24
  | .kpEnter a b c | .arrow a b c => a.length ≤ 24 && b.length ≤ 24 && c.length ≤ 24

theorem keyTable_brief : keyTable.all (fun k => KeyAct.brief k.2) = true := by decide +kernel

theorem key_lookup_mem {α : Type} : ∀ {l : List (Nat × α)} {k : Nat} {a : α}, l.lookup k = some a → (k, a) ∈ l := by
  intro l
  induction l with
  | nil => intro k a h; cases h
  | cons p l ih =>
    intro k a h
    obtain ⟨q, b⟩ := p
    rw [List.lookup_cons] at h
    split at h
    · rename_i hq
      injection h with h
      have := LawfulBEq.eq_of_beq hq
      subst this h
      exact List.mem_cons_self
    · exact List.mem_cons_of_mem _ (ih h)

theorem keyBytes_brief (v : Vte) (m : Nat) {k : KeyAct} (h : KeyAct.brief k = true) : (v.keyBytes m k).length ≤ 24 := by
  cases k <;> simp only [KeyAct.brief, Bool.and_eq_true, decide_eq_true_eq] at h <;> simp only [Vte.keyBytes] <;>
    (repeat' split) <;> omega

theorem keyString_brief {v : Vte} {k a m u : Nat} {b : List UInt8} (h : v.keyString k a m u = some b) : b.length ≤ 24 := by
  unfold Vte.keyString at h
  split at h
  · injection h with h
    rw [← h]
    exact (by decide : 1 ≤ 24)
  · split at h
    · rename_i act ha
      injection h with h
      rw [← h]
      exact keyBytes_brief v m (List.all_eq_true.mp keyTable_brief _ (key_lookup_mem ha))
    · split at h
      · cases h
      · injection h with h
        rw [← h]
        unfold Vte.charBytes
        split
        · exact (by decide : 1 ≤ 24)
        · split
          · exact (by decide : 1 ≤ 24)
          · exact Nat.le_trans (encode_length _) (by decide)

theorem keyboard_sends (v : Vte) (k a m u : Nat) : R.Post (v.keyboard k a m u) (fun r => Sends v r.1) := by
  unfold Vte.keyboard
  dsimp only
  have hv : ((if m.testBit 3 then v.setFlag true 16 else v) : Vte).log = v.log := by split <;> rfl
  generalize (if m.testBit 3 then v.setFlag true 16 else v : Vte) = w at hv
  split
  · rename_i b hb
    refine R.Post.bind (write_sends w (keyString_brief hb)) (fun x hx => R.Post.ok ?_)
    exact (Sends.same hv : Sends v w).trans hx
  · exact R.Post.ok (Sends.same hv)

end Verif.Vte
