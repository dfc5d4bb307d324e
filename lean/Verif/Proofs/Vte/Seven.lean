import Verif.Spec.Seven
import Verif.Proofs.Vte.Short

/-!
# Sending only ASCII
-/

namespace Verif.Vte
open Verif

/-- Going from `v` to `v'`, only strings of ASCII characters were sent. -/
def Sevens (v v' : Vte) : Prop := ∃ evs, v'.log = v.log ++ evs ∧ ∀ b ∈ sent evs, Seven b

theorem Sevens.trans {a b c : Vte} (h : Sevens a b) (h' : Sevens b c) : Sevens a c := by
  obtain ⟨e1, l1, b1⟩ := h
  obtain ⟨e2, l2, b2⟩ := h'
  refine ⟨e1 ++ e2, by rw [l2, l1, List.append_assoc], ?_⟩
  intro x hx
  rw [sent_append] at hx
  rcases List.mem_append.mp hx with hx | hx
  · exact b1 x hx
  · exact b2 x hx

theorem Sevens.same {v v' : Vte} (h : v'.log = v.log) : Sevens v v' := ⟨[], by simp [h], fun _ h => (nomatch h)⟩

theorem Seven.of {b : List UInt8} (h : b.all (fun x => decide (x.toNat < 128)) = true) : Seven b :=
  fun x hx => of_decide_eq_true (List.all_eq_true.mp h x hx)

theorem Seven.append {a b : List UInt8} (ha : Seven a) (hb : Seven b) : Seven (a ++ b) := by
  intro x hx
  rcases List.mem_append.mp hx with hx | hx
  · exact ha x hx
  · exact hb x hx

theorem digits_seven {q : List UInt8} (h : Digits q) : Seven q := by
  intro x hx
  have h1 : x.toNat ≤ 57 := (h.2.2 x hx).2
  omega

theorem answer_seven {b : List UInt8} (h : Answer b) : Seven b := by
  cases h with
  | ack => exact .of (by decide)
  | primary => exact .of (by decide)
  | secondary => exact .of (by decide)
  | ready => exact .of (by decide)
  | position row col hr hc =>
    exact ((((Seven.of (by decide)).append (digits_seven hr)).append (.of (by decide))).append (digits_seven hc)).append
      (.of (by decide))

theorem trd_sevens {n : Nat} {L : Nat → Prop} {v : Vte} {x : R Vte} (h : Trd n L v x) : R.Post x (Sevens v) := by
  refine R.SatK.mono h.out (fun _ h => h) ?_
  intro v' h
  obtain ⟨evs, h1, h2, _⟩ := h.log
  refine ⟨evs, h1, fun b hb => ?_⟩
  rcases h2 b hb with h2 | ⟨_, h2⟩
  · exact answer_seven h2
  · rw [h2]; exact .of (by decide)

theorem send_sevens (v : Vte) {b : List UInt8} (hb : Seven b) : Sevens v (v.send b) := by
  unfold Vte.send
  split
  · refine ⟨[.write [27], .write b], ?_, ?_⟩
    · show v.log ++ [.write [27]] ++ [.write b] = _
      rw [List.append_assoc]; rfl
    · intro x hx
      change x ∈ [[27], b] at hx
      rcases List.mem_cons.mp hx with rfl | hx
      · exact .of (by decide)
      · rw [List.mem_singleton.mp hx]; exact hb
  · refine ⟨[.write b], rfl, ?_⟩
    intro x hx
    rw [List.mem_singleton.mp hx]; exact hb

theorem write_sevens (v : Vte) {b : List UInt8} (hb : Seven b) : R.Post (v.write b) (Sevens v) := by
  unfold Vte.write
  have h1 : R.Post (v.echo b) (Sevens v) := by
    unfold Vte.echo
    refine R.Post.ite (R.Post.bind (P := Sevens v) ?_ (fun w hw => ?_)) (R.Post.ok (Sevens.same rfl))
    · unfold Vte.echoEsc
      exact R.Post.ite (trd_sevens (input_trd v _)) (R.Post.ok (Sevens.same rfl))
    · exact R.SatK.mono (trd_sevens (input_trd w b)) (fun _ h => h) (fun _ h => hw.trans h)
  exact R.Post.bind h1 (fun w hw => R.Post.ok (hw.trans (send_sevens w hb)))

theorem writePair_sevens (v : Vte) {b : List UInt8} (hb : Seven b) :
    R.Post ((v.write b >>= fun v => pure (v, true) : R (Vte × Bool)) >>= fun r => pure r.1) (Sevens v) := by
  have : ((v.write b >>= fun v => pure (v, true) : R (Vte × Bool)) >>= fun r => pure r.1 : R Vte) = v.write b := by
    cases v.write b <;> rfl
  rw [this]
  exact write_sevens v hb

/-! ### Keys -/

/-- All strings of the table are ASCII. -/
def KeyAct.seven : KeyAct → Bool
  | .plain b => b.all (fun x => decide (x.toNat < 128))
  | .backspace a b | .keypad a b | .cursor a b | .enter a b | .shifted a b =>
    a.all (fun x => decide (x.toNat < 128)) && b.all (fun x => decide (x.toNat < 128))
  | .kpEnter a b c | .arrow a b c =>
    a.all (fun x => decide (x.toNat < 128)) && b.all (fun x => decide (x.toNat < 128)) && c.all (fun x => decide (x.toNat < 128))

theorem keyTable_seven : keyTable.all (fun k => KeyAct.seven k.2) = true := by decide +kernel

theorem ctrlKeys_seven : ctrlKeys.all (fun k => decide (k.2.toNat < 128)) = true := by decide +kernel

theorem keyBytes_seven (v : Vte) (m : Nat) {k : KeyAct} (h : KeyAct.seven k = true) : Seven (v.keyBytes m k) := by
  cases k <;> simp only [KeyAct.seven, Bool.and_eq_true] at h <;> simp only [Vte.keyBytes] <;>
    (repeat' split) <;> first | exact .of h | exact .of h.1 | exact .of h.2 | exact .of h.1.1 | exact .of h.1.2

theorem charBytes_7bit {v : Vte} (h7 : v.f7bit = true) (u : Nat) : Seven (v.charBytes u) := by
  unfold Vte.charBytes
  rw [if_pos h7]
  intro x hx
  rw [List.mem_singleton.mp hx]
  split
  · decide
  · rename_i hb
    have hb : u.testBit 7 = false := Bool.eq_false_iff.mpr hb
    rw [Nat.testBit_eq_decide_div_mod_eq, decide_eq_false_iff_not] at hb
    show u % 256 < 128
    omega

theorem charBytes_seven (v : Vte) {u : Nat} (hu : u < 128) : Seven (v.charBytes u) := by
  unfold Vte.charBytes
  have hx : (UInt8.ofNat u).toNat < 128 := by
    show u % 256 < 128
    omega
  split
  · intro x hm
    rw [List.mem_singleton.mp hm]
    split
    · decide
    · exact hx
  · split
    · intro x hm
      rw [List.mem_singleton.mp hm]
      split
      · decide
      · exact hx
    · have hs : symbolMake u = u := by
        unfold symbolMake
        repeat' split
        all_goals omega
      rw [hs]
      intro x hm
      unfold Utf8.encode at hm
      rw [if_neg (by omega)] at hm
      split at hm
      · cases hm
      · rw [if_neg (by omega), if_pos (show u < 1 <<< 7 from hu)] at hm
        rw [List.mem_singleton.mp hm]
        show (u &&& 0x7f) % 256 < 128
        have : u &&& 0x7f ≤ 0x7f := Nat.and_le_right
        omega

theorem keyString_seven {v : Vte} {k a m u : Nat} {b : List UInt8} (h : v.keyString k a m u = some b)
    (hu : keyTable.lookup k = none → v.f7bit = true ∨ u < 128 ∨ u = 0xffffffff) : Seven b := by
  unfold Vte.keyString at h
  split at h
  · rename_i c hc
    injection h with h
    rw [← h]
    intro x hx
    rw [List.mem_singleton.mp hx]
    split at hc
    · exact of_decide_eq_true (List.all_eq_true.mp ctrlKeys_seven _ (key_lookup_mem hc))
    · cases hc
  · split at h
    · rename_i act ha
      injection h with h
      rw [← h]
      exact keyBytes_seven v m (List.all_eq_true.mp keyTable_seven _ (key_lookup_mem ha))
    · rename_i hk
      split at h
      · cases h
      · rename_i hn
        injection h with h
        rw [← h]
        rcases hu hk with h7 | h7 | h7
        · exact charBytes_7bit h7 u
        · exact charBytes_seven v h7
        · exact absurd h7 hn

theorem keyboard_sevens (v : Vte) {k a m u : Nat}
    (hu : keyTable.lookup k = none → v.f7bit = true ∨ u < 128 ∨ u = 0xffffffff) :
    R.Post (v.keyboard k a m u) (fun r => Sevens v r.1) := by
  unfold Vte.keyboard
  dsimp only
  have hv : ((if m.testBit 3 then v.setFlag true 16 else v) : Vte).log = v.log := by split <;> rfl
  have hf : ((if m.testBit 3 then v.setFlag true 16 else v) : Vte).f7bit = v.f7bit := by
    split
    · exact flag_setFlag v true (by decide)
    · rfl
  generalize (if m.testBit 3 then v.setFlag true 16 else v : Vte) = w at hv hf
  split
  · rename_i b hb
    refine R.Post.bind (write_sevens w (keyString_seven hb (by rw [hf]; exact hu))) (fun x hx => R.Post.ok ?_)
    exact (Sevens.same hv : Sevens v w).trans hx
  · exact R.Post.ok (Sevens.same hv)

/-! ### Mouse -/

theorem cString_seven {b : List UInt8} (h : Seven b) : Seven (cString b) := by
  intro x hx
  unfold cString at hx
  exact h x (List.mem_of_mem_take ((List.takeWhile_sublist _).mem hx))

theorem decInt_seven (n : Nat) : Seven (decInt n) := by
  unfold decInt
  split
  · exact digits_seven (dec_digits (by omega))
  · intro x hx
    rcases List.mem_cons.mp hx with rfl | hx
    · decide
    · exact digits_seven (dec_digits (by omega)) x hx

theorem sgrReport_seven (f x y : Nat) (p : Bool) : Seven (sgrReport f x y p) := by
  unfold sgrReport
  refine cString_seven ?_
  refine ((((((Seven.of (by decide)).append (decInt_seven f)).append (.of (by decide))).append (decInt_seven x)).append
    (.of (by decide))).append (decInt_seven y)).append ?_
  cases p <;> exact .of (by decide)

theorem x10Report_seven {cx cy b e m : Nat} (hx : cx < 95) (hy : cy < 95) (hb : b < 64) (hm : m < 64) :
    Seven (x10Report cx cy b e m) := by
  unfold x10Report
  refine cString_seven ?_
  have hc : ∀ c, c < 95 → (uchar (x10Coord c)).toNat < 128 := by
    intro c hc
    have hu : u32 (c + 0x21) = c + 0x21 := Nat.mod_eq_of_lt (by omega)
    unfold x10Coord uchar
    rw [hu, if_neg (by omega)]
    show (c + 0x21) % 256 < 128
    omega
  have ho : ∀ k, k < 64 → (uchar ((k ||| m) + 0x20)).toNat < 128 := by
    intro k hk
    have : k ||| m < 2 ^ 6 := Nat.or_lt_two_pow hk hm
    show ((k ||| m) + 0x20) % 256 < 128
    omega
  intro x h
  simp only [List.mem_cons, List.not_mem_nil, or_false] at h
  rcases h with rfl | rfl | rfl | rfl | rfl | rfl
  · decide
  · decide
  · decide
  · split
    · exact ho 3 (by decide)
    · exact ho b hb
  · exact hc cx hx
  · exact hc cy hy

theorem mouse_sevens (v : Vte) {cx cy px py b e m : Nat} (hx : v.mouseMode = 9 → cx < 95 ∧ cy < 95 ∧ b < 64 ∧ m < 64) :
    R.Post (do let r ← v.mouse cx cy px py b e m; pure r.1 : R Vte) (Sevens v) := by
  unfold Vte.mouse
  split
  · exact R.Post.ok (Sevens.same rfl)
  · split
    · rename_i h9
      obtain ⟨h1, h2, h3, h4⟩ := hx h9
      exact writePair_sevens v (x10Report_seven h1 h2 h3 h4)
    · split
      · unfold Vte.mouseSgr
        split
        · split
          · exact R.Post.ok (Sevens.same rfl)
          · exact R.SatK.mono (writePair_sevens _ (sgrReport_seven _ _ _ _)) (fun _ h => h)
              (fun _ h => (Sevens.same rfl : Sevens v _).trans h)
        · exact writePair_sevens v (sgrReport_seven _ _ _ _)
      · split
        · refine writePair_sevens v ?_
          unfold pixelReport
          split <;> exact sgrReport_seven _ _ _ _
        · exact R.Post.ok (Sevens.same rfl)

/-! ### All calls -/

theorem scr_sevens (v : Vte) (c : Screen.Call) : R.Post (v.scr c) (Sevens v) := by
  unfold Vte.scr
  cases hc : c.run v.con with
  | error e => exact trivial
  | ok s => exact Sevens.same rfl

theorem updatePalette_sevens {v w : Vte} (h : w.log = v.log) : R.Post w.updatePalette (Sevens v) := by
  unfold Vte.updatePalette
  dsimp only
  generalize toRgb _ _ = q
  cases q with
  | error e => exact trivial
  | ok d =>
    refine R.Post.bind (R.Post.ok (P := fun _ => True) trivial) (fun d _ => ?_)
    refine R.Post.bind (scr_sevens _ _) (fun x hx => ?_)
    refine R.SatK.mono (scr_sevens x _) (fun _ h => h) (fun _ hy => ?_)
    exact ((Sevens.same h : Sevens v _).trans hx).trans hy

theorem call_sevens (v : Vte) {c : Call} (hk : ∀ k a m u, c = .keyboard k a m u → v.f7bit = true ∨ u < 128 ∨ u = 0xffffffff)
    (hm : ∀ cx cy px py b e m, c = .mouse cx cy px py b e m → v.mouseMode = 9 → cx < 95 ∧ cy < 95 ∧ b < 64 ∧ m < 64) :
    R.Post (c.run v) (Sevens v) := by
  cases c with
  | input b => exact trd_sevens (input_trd v b)
  | keyboard k a m u =>
    exact R.Post.bind (keyboard_sevens v (fun _ => hk k a m u rfl)) (fun x hx => R.Post.ok hx)
  | mouse cx cy px py b e m => exact mouse_sevens v (hm cx cy px py b e m rfl)
  | reset => exact trd_sevens (n := 0) (L := fun _ => True) (reset_trd v)
  | hardReset => exact trd_sevens (n := 0) (L := fun _ => True) (hardReset_trd v)
  | setPalette n mem =>
    show R.Post (v.setPalette n mem) _
    unfold Vte.setPalette
    exact R.Post.ite (R.Post.ok (Sevens.same rfl)) (updatePalette_sevens rfl)
  | setCustomPalette p mem =>
    show R.Post (v.setCustomPalette p mem) _
    unfold Vte.setCustomPalette
    exact R.Post.ite (R.Post.ok (Sevens.same rfl)) (updatePalette_sevens rfl)
  | setBsDelete on => exact R.Post.ok (Sevens.same rfl)
  | setOscCb on => exact R.Post.ok (Sevens.same rfl)
  | setMouseCb on => exact R.Post.ok (Sevens.same rfl)
  | screen c => exact scr_sevens v c

end Verif.Vte
