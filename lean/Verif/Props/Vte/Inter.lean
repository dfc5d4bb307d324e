import Verif.Proofs.Vte.Inter
import Verif.Proofs.Vte.Example

/-!
# Control sequences with intermediate characters (C66)
-/

namespace Verif.Props.Vte
open Verif Verif.Vte

theorem flag_of_bits (b : UInt8) :
    ((collectFlag b.toNat).getLsbD 0 = true ↔ b = 0x21) ∧ ((collectFlag b.toNat).getLsbD 1 = true ↔ b = 0x24) ∧
      ((collectFlag b.toNat).getLsbD 3 = true ↔ b = 0x3e) := by
  have : ∀ n : Fin 256, ((collectFlag n.val).getLsbD 0 = true ↔ UInt8.ofNat n.val = 0x21) ∧
      ((collectFlag n.val).getLsbD 1 = true ↔ UInt8.ofNat n.val = 0x24) ∧
      ((collectFlag n.val).getLsbD 3 = true ↔ UInt8.ofNat n.val = 0x3e) := by decide +kernel
  have := this ⟨b.toNat, b.toNat_lt⟩
  rw [UInt8.ofNat_toNat] at this
  exact this

/-- **C66, requests for modes** (`_partial`, as `C66_csi_partial`). `CSI Ps $ p` and `CSI ? Ps $ p` (DECRQM) are not
implemented: they have no effect and are not answered. The same holds for other intermediate characters beside the
`$`, unless there is an `!` (soft reset). -/
theorem C66_request_partial {v : Vte} (h : Reachable v) (hb : Between v) {mk : Option UInt8}
    (hk : mk = none ∨ mk = some 0x3c ∨ mk = some 0x3d ∨ mk = some 0x3f) {qs : List (List UInt8)} (hq : qs ≠ [])
    (hd : ∀ q ∈ qs, ∀ d ∈ q, IsDigit d) {is : List UInt8} (hi : ∀ i ∈ is, 0x20 ≤ i.toNat ∧ i.toNat ≤ 0x2f)
    (hc : 0x24 ∈ is) (hx : 0x21 ∉ is) :
    ∃ v', v.input (27 :: 91 :: (mk.toList ++ (joined qs ++ (is ++ [0x70])))) = .ok v' ∧ v'.state = .ground ∧
      Effect v v' v.con [] := by
  obtain ⟨m, st, hm, e⟩ := input_csi_full h.ok.1 hb (mk := mk)
    (by rcases hk with rfl | rfl | rfl | rfl <;> (intro p hp; cases hp; first | done | exact (by decide))) hq hd hi
    (b := 0x70) (by decide) (by decide)
  rw [e]
  generalize hfl : flagsOf mk.toList ||| flagsOf is = fl
  have b3 : fl.getLsbD 3 = false := by
    rw [← hfl, BitVec.getLsbD_or, Bool.or_eq_false_iff]
    refine ⟨by rcases hk with rfl | rfl | rfl | rfl <;> decide, ?_⟩
    rw [Bool.eq_false_iff]
    intro hh
    obtain ⟨i, h1, h2⟩ := (flagsOf_bit is 3).1 hh
    have := (flag_of_bits i).2.2.1 h2
    subst this
    exact absurd (hi _ h1).2 (by decide)
  have b0 : fl.getLsbD 0 = false := by
    rw [← hfl, BitVec.getLsbD_or, Bool.or_eq_false_iff]
    refine ⟨by rcases hk with rfl | rfl | rfl | rfl <;> decide, ?_⟩
    rw [Bool.eq_false_iff]
    intro hh
    obtain ⟨i, h1, h2⟩ := (flagsOf_bit is 0).1 hh
    have := (flag_of_bits i).1.1 h2
    subst this
    exact hx h1
  have b1 : fl.getLsbD 1 = true := by
    rw [← hfl, BitVec.getLsbD_or, Bool.or_eq_true]
    exact Or.inr ((flagsOf_bit is 1).2 ⟨_, hc, by decide⟩)
  generalize hw : inSeq v.up st (min 16 qs.length) (padded (qs.map value)) fl m = w
  have hrun : w.csiRun (csiKind (0x70 : UInt8).toNat) = .ok w := by
    show w.csiP = _
    unfold Vte.csiP
    have c3 : w.cGt = false := by rw [← hw]; exact b3
    have c0 : w.cBang = false := by rw [← hw]; exact b0
    have c1 : w.cCash = true := by rw [← hw]; exact b1
    rw [c3, c0, c1]
    rfl
  rw [hrun]
  refine ⟨_, rfl, rfl, ?_⟩
  rw [← hw]
  unfold Effect
  rw [List.append_nil]
  rfl

/-- Witness: `CSI ? 2 ; 4 SP $ p` in insert mode after text, within an unfinished sequence. -/
example : ∃ v, Reachable v ∧ (decide (Between v) && v.con.fInsert && decide (v.state = .csiParam) &&
    gives (v.input (27 :: 91 :: ([0x3f] ++ (joined [[50], [52]] ++ ([0x20, 0x24] ++ [0x70])))))
      (fun v' => v'.con.fInsert && decide (v'.con.rowText 0 = [65, 0, 0, 0, 0]))) = true :=
  exists_of_vholds (cs := [.resize 5 3]) (sg := true) (vs := [.input [65, 27, 91, 52, 104, 27, 91, 53]]) (by decide +kernel)

end Verif.Props.Vte
