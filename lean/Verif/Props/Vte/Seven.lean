import Verif.Proofs.Vte.Seven
import Verif.Proofs.Vte.Example

/-!
# C110: everything but typed text is sent in ASCII
-/

namespace Verif.Props.Vte

open Verif Verif.Vte

/-- The claim: a call that does not type a character beyond ASCII sends nothing beyond ASCII. -/
def C110_claim : Prop :=
  ∀ v c v', Reachable v → c.untyped → Call.run v c = .ok v' → ∃ evs, v'.log = v.log ++ evs ∧ ∀ b ∈ sent evs, Seven b

/-- **C110**, answers: whatever is read, all that is sent is ASCII. -/
theorem C110_input {v v' : Vte} {bs : List UInt8} (e : v.input bs = .ok v') :
    ∃ evs, v'.log = v.log ++ evs ∧ ∀ b ∈ sent evs, Seven b := by
  have h := trd_sevens (input_trd v bs)
  rw [e] at h
  exact h

/-- **C110**, keys: all that is sent because of a key is ASCII, also with Alt, with Control and with local echo,
unless the key has no string of its own and stands for a character beyond ASCII. In 7-bit mode it is ASCII for
each character. -/
theorem C110_key {v v' : Vte} {k a m u : Nat} {r : Bool}
    (hu : v.f7bit = true ∨ u < 128 ∨ u = 0xffffffff ∨ Keys.special (Keys.modes v m) k ≠ none)
    (e : v.keyboard k a m u = .ok (v', r)) : ∃ evs, v'.log = v.log ++ evs ∧ ∀ b ∈ sent evs, Seven b := by
  have h := keyboard_sevens v (k := k) (a := a) (m := m) (u := u) (by
    intro hk
    rcases hu with h | h | h | h
    · exact Or.inl h
    · exact Or.inr (Or.inl h)
    · exact Or.inr (Or.inr h)
    · exact absurd (by rw [← special_eq, hk]; rfl) h)
  rw [e] at h
  exact h

/-- A function key that comes with a character beyond ASCII, and a character beyond ASCII in 7-bit mode. -/
example : ∃ v, Reachable v ∧ v.f7bit = false ∧ Keys.special (Keys.modes v 0) 0xffbe ≠ none := by
  obtain ⟨v, h, hp⟩ := exists_of_vholds (cs := []) (sg := true) (vs := [])
    (P := fun v => !v.f7bit && (Keys.special (Keys.modes v 0) 0xffbe).isSome) (by decide +kernel)
  rw [Bool.and_eq_true] at hp
  exact ⟨v, h, by simpa using hp.1, fun h => by rw [h] at hp; exact absurd hp.2 (by decide)⟩

example : ∃ v, Reachable v ∧ v.f7bit = true ∧ gives (v.keyboard 0xe4 0 0 0xe4) (fun r =>
    decide (r.1.log = v.log ++ [.write [63]])) = true := by
  obtain ⟨v, h, hp⟩ := exists_of_vholds (cs := []) (sg := true) (vs := [.input [27, 91, 54, 49, 34, 112]])
    (P := fun v => v.f7bit && gives (v.keyboard 0xe4 0 0 0xe4) (fun r => decide (r.1.log = v.log ++ [.write [63]])))
    (by decide +kernel)
  rw [Bool.and_eq_true] at hp
  exact ⟨v, h, hp⟩

/-- **C110**, mouse: reports in the modes SGR and pixel are ASCII for all positions and buttons. -/
theorem C110_mouse {v v' : Vte} {cx cy px py button event mods : Nat} {r : Bool} (hm : v.mouseMode ≠ 9)
    (e : v.mouse cx cy px py button event mods = .ok (v', r)) :
    ∃ evs, v'.log = v.log ++ evs ∧ ∀ b ∈ sent evs, Seven b := by
  have h := mouse_sevens v (cx := cx) (cy := cy) (px := px) (py := py) (b := button) (e := event) (m := mods)
    (fun h => absurd h hm)
  rw [e] at h
  exact h

/-- A click far to the right in mode SGR. -/
example : ∃ v, Reachable v ∧ v.mouseMode ≠ 9 ∧ gives (v.mouse 300 200 0 0 0 1 0) (fun r =>
    decide (r.1.log = v.log ++ [.write [27, 91, 60, 48, 59, 51, 48, 49, 59, 50, 48, 49, 77]])) = true := by
  obtain ⟨v, h, hp⟩ := exists_of_vholds (cs := []) (sg := true)
    (vs := [.setMouseCb true, .input [27, 91, 63, 49, 48, 48, 50, 59, 49, 48, 48, 54, 104]])
    (P := fun v => decide (v.mouseMode ≠ 9) && gives (v.mouse 300 200 0 0 0 1 0) (fun r =>
      decide (r.1.log = v.log ++ [.write [27, 91, 60, 48, 59, 51, 48, 49, 59, 50, 48, 49, 77]]))) (by decide +kernel)
  rw [Bool.and_eq_true, decide_eq_true_eq] at hp
  exact ⟨v, h, hp⟩

/-- **C110** for one call, with the restriction to the first 95 columns and rows in mode X10 that `C110_false` shows
to be needed. -/
theorem C110_call_partial {v v' : Vte} {c : Call} (hc : c.ascii) (e : c.run v = .ok v') :
    ∃ evs, v'.log = v.log ++ evs ∧ ∀ b ∈ sent evs, Seven b := by
  have h := call_sevens v (c := c) (by rintro k a m u rfl; exact Or.inr hc) (by rintro cx cy px py b e m rfl _; exact hc)
  rw [e] at h
  exact h

/-- **C110** for histories: as long as only ASCII is typed, and the mouse stays among the first 95 columns and rows,
no byte beyond ASCII is ever sent. -/
theorem C110_history_partial {s : Screen} {sg : Bool} {v0 v : Vte} (e0 : new s sg = .ok v0) {cs : List Call}
    (hc : ∀ c ∈ cs, c.ascii) (e : v0.runAll cs = .ok v) : ∀ b ∈ sent v.log, Seven b := by
  have hall : ∀ (cs : List Call) (w : Vte), (∀ c ∈ cs, c.ascii) → R.Post (w.runAll cs) (Sevens w) := by
    intro cs
    induction cs with
    | nil => exact fun w _ => R.Post.ok (Sevens.same rfl)
    | cons c cs ih =>
      intro w hc
      refine R.Post.bind (P := Sevens w) ?_ (fun x hx => ?_)
      · have hc := hc c List.mem_cons_self
        exact call_sevens w (by rintro k a m u rfl; exact Or.inr hc) (by rintro cx cy px py b e m rfl _; exact hc)
      · exact R.SatK.mono (ih x (fun c h => hc c (List.mem_cons_of_mem _ h))) (fun _ h => h) (fun _ h => hx.trans h)
  have h := hall cs v0 hc
  rw [e] at h
  have h0 : R.Post (new s sg) (fun w => ∀ b ∈ sent w.log, Seven b) := by
    unfold Vte.new
    refine R.Post.bind R.Post.any (fun d _ => ?_)
    refine R.Post.bind (trd_sevens (n := 0) (L := fun _ => True) (reset_trd _)) (fun v1 h1 => ?_)
    refine R.SatK.mono (scr_sevens v1 _) (fun _ h => h) (fun _ h => ?_)
    obtain ⟨evs, g1, g2⟩ := h1.trans h
    rw [g1]
    exact g2
  rw [e0] at h0
  obtain ⟨evs, h1, h2⟩ := h
  rw [h1, sent_append]
  intro b hb
  rcases List.mem_append.mp hb with hb | hb
  · exact h0 b hb
  · exact h2 b hb

/-- A history with requests, keys with Alt and with local echo, and a click in mode X10; five strings are sent. -/
def asciiHistory : List Call :=
  [.input [27, 91, 63, 57, 104, 27, 91, 54, 110], .keyboard 0xff52 0 8 0xffffffff, .mouse 94 94 0 0 5 1 28,
    .input [27, 91, 49, 50, 108], .keyboard 0x61 97 0 97]

example : ∃ (s : Screen) (v0 v : Vte), s.Reachable ∧ new s true = .ok v0 ∧ (∀ c ∈ asciiHistory, c.ascii) ∧
    v0.runAll asciiHistory = .ok v ∧
    sent v.log = [[27, 91, 49, 59, 49, 82], [27], [27, 91, 65], [27, 91, 77, 61, 127, 127], [97]] := by
  obtain ⟨s, hs, key⟩ := Screen.exists_of_holds (cs := [.resize 4 3])
    (P := fun s => gives (new s true) (fun v0 => gives (v0.runAll asciiHistory) (fun v =>
      decide (sent v.log = [[27, 91, 49, 59, 49, 82], [27], [27, 91, 65], [27, 91, 77, 61, 127, 127], [97]])))) (by decide +kernel)
  obtain ⟨v0, e0, key⟩ := of_gives key
  obtain ⟨v, e, key⟩ := of_gives key
  rw [decide_eq_true_eq] at key
  refine ⟨s, v0, v, hs, e0, ?_, e, key⟩
  intro c hc
  simp only [asciiHistory, List.mem_cons, List.not_mem_nil, or_false] at hc
  rcases hc with rfl | rfl | rfl | rfl | rfl
  · trivial
  · exact Or.inr rfl
  · exact ⟨by decide, by decide, by decide, by decide⟩
  · trivial
  · exact Or.inl (by decide)

/-- **C110** is false: in mode X10 a click in the 96th column is reported with the byte 0x80. -/
theorem C110_false : ¬ C110_claim := by
  intro hc
  obtain ⟨v, h, hp⟩ := exists_of_vholds (cs := []) (sg := true) (vs := [.input [27, 91, 63, 57, 104]])
    (P := fun v => gives (Call.run v (.mouse 95 0 0 0 0 1 0))
      (fun v' => decide (v'.log = v.log ++ [.write [27, 91, 77, 32, 128, 33]]))) (by decide +kernel)
  obtain ⟨v', e, hp⟩ := of_gives hp
  rw [decide_eq_true_eq] at hp
  obtain ⟨evs, h1, h2⟩ := hc v (.mouse 95 0 0 0 0 1 0) v' h trivial e
  rw [hp] at h1
  have := List.append_cancel_left h1
  subst this
  exact absurd (h2 _ List.mem_cons_self 128 (by decide)) (by decide)

end Verif.Props.Vte
