import Verif.Proofs.Vte.Level
import Verif.Proofs.Vte.Modes
import Verif.Props.Vte.State
import Verif.Props.Vte.Text

/-!
# Conformance levels (C84), text in the 7-bit and 8-bit modes (C53)
-/

namespace Verif
namespace Vte

/-! ### C84 -/

/-- **C84.** `CSI l ; c " p` (DECSCL), also without the `"`, does a soft reset and then selects the decoding and the
character sets of level `l`; a number that is no level leaves it at the reset. Further parameters are ignored. -/
theorem C84_level {v : Vte} (hr : Reachable v) (hb : Between v) {qs : List (List UInt8)} (hq : qs ≠ [])
    (hd : ∀ q ∈ qs, ∀ d ∈ q, IsDigit d) (quote : Bool) :
    ∃ w v', v.input (27 :: 91 :: (joined qs ++ (if quote then [34, 112] else [112]))) = .ok v' ∧
      SoftlyReset v w ∧ w.log = v.log ++ v.pendingOsc ∧ v'.state = .ground ∧ Between v' ∧
      SameButParser (w.atLevel (number (qs[1]?.getD []) = 1 ∨ number (qs[1]?.getD []) = 2)
        (.ofNumber (number (qs[0]?.getD [])))) v' := by
  have hc : Coloured v.up := ⟨hr.coloured.pal, hr.coloured.dattr⟩
  have hval : ∀ (i : Nat), (qs.map value)[i]?.getD (-1) = value (qs[i]?.getD []) := by
    intro i
    rw [List.getElem?_map]
    cases qs[i]? <;> rfl
  have hw : ∀ (i : Nat), WrittenAs (number (qs[i]?.getD [])) (value (qs[i]?.getD [])) := by
    intro i
    apply writtenAs
    cases e : qs[i]? with
    | none => intro d hd; exact absurd hd List.not_mem_nil
    | some q => exact hd q (List.mem_of_getElem? e)
  have hk : ∀ (i k : Nat), 0 < k → k ≤ 64 → (value (qs[i]?.getD []) = k ↔ number (qs[i]?.getD []) = k) := by
    intro i k h1 h2
    have := hw i
    unfold WrittenAs at this
    omega
  have fin : ∀ (st : PState) (fl : BitVec 32) (m : Utf8.Mach) (x : R Vte), st ≠ .none →
      fl.getLsbD 0 = false → fl.getLsbD 1 = false → fl.getLsbD 3 = false →
      x = ((inSeq v.up st (min 16 qs.length) (padded (qs.map value)) fl m).csiP >>=
        fun v' => pure { v' with state := .ground }.down) →
      ∃ w v', x = .ok v' ∧ SoftlyReset v w ∧ w.log = v.log ++ v.pendingOsc ∧ v'.state = .ground ∧ Between v' ∧
      SameButParser (w.atLevel (number (qs[1]?.getD []) = 1 ∨ number (qs[1]?.getD []) = 2)
        (.ofNumber (number (qs[0]?.getD [])))) v' := by
    intro st fl m x hst f0 f1 f3 hx
    obtain ⟨s, m', e, hv, hm'⟩ := compatMode_eq
      (compat_ok hr.ok.1.more hst (n := min 16 qs.length) (by omega) (l := qs.map value) (by
        intro a ha
        obtain ⟨q, h1, h2⟩ := List.mem_map.1 ha
        subst h2
        exact value_bounds (hd q h1)) (fl := fl) (m := m))
      (coloured_inSeq hc) (a := number (qs[0]?.getD [])) (b := number (qs[1]?.getD [])) (hval 0) (hval 1) (hk 0) (hk 1)
    have hp : (inSeq v.up st (min 16 qs.length) (padded (qs.map value)) fl m).csiP =
        (inSeq v.up st (min 16 qs.length) (padded (qs.map value)) fl m).compatMode := by
      unfold Vte.csiP
      rw [if_neg (by show ¬ fl.getLsbD 3 = true; rw [f3]; decide), if_neg (by show ¬ fl.getLsbD 0 = true; rw [f0]; decide),
        if_neg (by show ¬ fl.getLsbD 1 = true; rw [f1]; decide)]
    rw [hp, e] at hx
    refine ⟨({ (inSeq v.up st (min 16 qs.length) (padded (qs.map value)) fl m).initialModes with
      con := s, mach := m', state := .ground } : Vte).down, _, hx, ⟨rfl, rfl, hv⟩, rfl, rfl, Or.inr (Or.inr (Or.inl ?_)), ?_⟩
    · cases Level.ofNumber (number (qs[0]?.getD [])) <;> exact hm'
    cases Level.ofNumber (number (qs[0]?.getD [])) <;> rfl
  cases quote with
  | false =>
    obtain ⟨m, st, hst, e⟩ := input_csi_plain hr.ok.1 hb hq hd (b := 112) (by decide) (by decide)
    exact fin st 0 m _ hst (by decide) (by decide) (by decide) e
  | true =>
    obtain ⟨m, hm, e⟩ := input_csi_int hr.ok.1 hb hq hd (i := 34) (by decide) (by decide) (b := 112) (by decide) (by decide)
    exact fin .csiInt (collectFlag 34) m _ (by decide) (by decide) (by decide) (by decide) e

/-- The hypotheses with two screens, underlined text, the margins set and an unfinished OSC string. -/
example : ∃ v, Reachable v ∧ (decide (Between v) && v.con.useAlt && v.cattr.underline &&
    decide (v.con.marginBottom = 1) && decide (v.state = .oscString) &&
    gives (v.input [27, 91, 54, 51, 59, 49, 34, 112, 0xa8]) (fun v' => v'.f8bit && v'.flags.getLsbD 5 &&
      decide (v'.con.rowText 0 = [65, 164, 0, 0, 0]) && !v'.con.useAlt)) = true :=
  exists_of_vholds (cs := [.resize 5 3]) (sg := false)
    (vs := [.input [65, 27, 91, 52, 109, 27, 91, 63, 52, 55, 104, 27, 91, 49, 59, 50, 114, 27, 91, 50, 71, 27, 93, 65]])
    (by decide +kernel)

/-- **C84**: after the sequence, input is decoded as bytes of 7 bits for level 61, as bytes of 8 bits for the levels
62 to 64, and as UTF-8 otherwise; the right half of the character set is the DEC supplemental one for the levels
and Latin-1 otherwise; the left half is ASCII; no single shift is pending; and the parser is between two characters. -/
theorem C84_decoding {v : Vte} (hr : Reachable v) (hb : Between v) {qs : List (List UInt8)} (hq : qs ≠ [])
    (hd : ∀ q ∈ qs, ∀ d ∈ q, IsDigit d) (quote : Bool) :
    ∃ v', v.input (27 :: 91 :: (joined qs ++ (if quote then [34, 112] else [112]))) = .ok v' ∧ Reachable v' ∧
      v'.state = .ground ∧ Between v' ∧ v'.sg = v.sg ∧
      (v'.f7bit = true ↔ number (qs[0]?.getD []) = 61) ∧
      (v'.f8bit = true ↔ 62 ≤ number (qs[0]?.getD []) ∧ number (qs[0]?.getD []) ≤ 64) ∧
      (charsets v').set (charsets v').gl = .unicodeLower ∧
      (charsets v').set (charsets v').gr =
        (if 61 ≤ number (qs[0]?.getD []) ∧ number (qs[0]?.getD []) ≤ 64 then .decSupplemental else .unicodeUpper) ∧
      (charsets v').next = none ∧
      v'.con.view.grid = v.con.view.main ∧ v'.con.view.sb = v.con.view.sb ∧
      v'.con.view.cursorX = v.con.view.cursorX ∧ v'.con.view.cursorY = v.con.view.cursorY := by
  obtain ⟨w, v', e, hs, _, hst, hbt, hp⟩ := C84_level hr hb hq hd quote
  have hreach : Reachable v' := hr.step (c := .input _) trivial e
  have hw := hs.rest
  unfold SameButParser at hp hw
  have hfl : w.flags = 0x0000b300#32 := by rw [hw]; rfl
  have hk := hs.keeps
  have hsg : w.sg = v.sg := by rw [hw]; rfl
  have hgl : w.gl = .g0 ∧ w.gr = .g1 ∧ w.glt = none ∧ w.g0 = .unicodeLower ∧ w.g1 = .unicodeUpper := by
    rw [hw]; exact ⟨rfl, rfl, rfl, rfl, rfl⟩
  obtain ⟨k1, k2, k3, k4, k5⟩ := hgl
  refine ⟨v', e, hreach, hst, hbt, ?_⟩
  generalize number (qs[0]?.getD []) = n at hp ⊢
  generalize decide (number (qs[1]?.getD []) = 1 ∨ number (qs[1]?.getD []) = 2) = c1 at hp
  clear e
  unfold Level.ofNumber at hp
  by_cases h1 : n = 61
  · rw [if_pos h1] at hp
    rw [hp]
    refine ⟨hsg, ⟨fun _ => h1, fun _ => ?_⟩, ⟨fun h => ?_, fun h => by omega⟩, ?_, ?_, k3, hk⟩
    · show (w.flags ||| 0x10).getLsbD 4 = true
      rw [hfl]; decide
    · have h : (w.flags ||| 0x10).getLsbD 3 = true := h
      rw [hfl] at h
      exact absurd h (by decide)
    · show (match w.gl with | .g0 => Cset.unicodeLower | .g1 => Cset.decSupplemental | .g2 => w.g2 | .g3 => w.g3) = _
      rw [k1]
    · rw [if_pos (by omega)]
      show (match w.gr with | .g0 => Cset.unicodeLower | .g1 => Cset.decSupplemental | .g2 => w.g2 | .g3 => w.g3) = _
      rw [k2]
  · rw [if_neg h1] at hp
    by_cases h2 : 62 ≤ n ∧ n ≤ 64
    · rw [if_pos h2] at hp
      rw [hp]
      refine ⟨hsg, ⟨fun h => ?_, fun h => absurd h h1⟩, ⟨fun _ => h2, fun _ => ?_⟩, ?_, ?_, k3, hk⟩
      · have h : (w.flags ||| (if c1 then 0x28 else 0x08)).getLsbD 4 = true := h
        rw [hfl] at h
        cases c1 <;> exact absurd h (by decide)
      · show (w.flags ||| (if c1 then 0x28 else 0x08)).getLsbD 3 = true
        rw [hfl]
        cases c1 <;> decide
      · show (match w.gl with | .g0 => Cset.unicodeLower | .g1 => Cset.decSupplemental | .g2 => w.g2 | .g3 => w.g3) = _
        rw [k1]
      · rw [if_pos (by omega)]
        show (match w.gr with | .g0 => Cset.unicodeLower | .g1 => Cset.decSupplemental | .g2 => w.g2 | .g3 => w.g3) = _
        rw [k2]
    · rw [if_neg h2] at hp
      rw [hp]
      refine ⟨hsg, ⟨fun h => ?_, fun h => absurd h h1⟩, ⟨fun h => ?_, fun h => absurd h h2⟩, ?_, ?_, k3, hk⟩
      · have h : w.flags.getLsbD 4 = true := h
        rw [hfl] at h
        exact absurd h (by decide)
      · have h : w.flags.getLsbD 3 = true := h
        rw [hfl] at h
        exact absurd h (by decide)
      · show (match w.gl with | .g0 => w.g0 | .g1 => w.g1 | .g2 => w.g2 | .g3 => w.g3) = _
        rw [k1]; exact k4
      · rw [if_neg (by omega)]
        show (match w.gr with | .g0 => w.g0 | .g1 => w.g1 | .g2 => w.g2 | .g3 => w.g3) = _
        rw [k2]; exact k5

/-! ### C53 -/

/-- **C53.** In the 7-bit and 8-bit modes every byte that does not stand for a control character is shown as the
character with its code (in 7-bit mode without the top bit), as the character sets have it; nothing else happens. If
plain `char` is signed, bytes from 0x80 on are written as the character 0 in 8-bit mode, see `C53_false`. -/
theorem C53_text {v : Vte} (hr : Reachable v) (hs : v.state = .ground) (hb : v.f7bit = true ∨ v.f8bit = true)
    {bs : List UInt8} (hv : ∀ b ∈ bs, GraphicByte v b) :
    ∃ a, Sgr.Resolved v.palette v.cattr a ∧
      match v.con.runAll (((charsets v).run (bs.map fun b => .text (byteCode v b))).2.map fun k => .write k a) with
      | .ok s => ∃ v', v.input bs = .ok v' ∧ v'.con = s ∧ v'.state = .ground ∧
          charsets v' = ((charsets v).run (bs.map fun b => .text (byteCode v b))).1 ∧
          (v'.cattr = v.cattr ∨ v'.cattr = a) ∧ SameButText v v'
      | .error e => v.input bs = .error e := by
  have h := hr.ok.1
  obtain ⟨a, ea, ha⟩ := toRgb_resolved h.pal h.cat
  refine ⟨a, ha, ?_⟩
  have key := loop_bytes bs h.more (up_pos v) hs hb (a := a) ea (toRgb_again h.pal h.cat ea) (fun i hi => hv i hi)
  unfold Shown at key
  change match v.con.runAll (((charsets v).run (bs.map fun b => .text (byteCode v b))).2.map fun k => .write k a) with
    | .ok s => _ | .error e => _ at key
  cases e : v.con.runAll (((charsets v).run (bs.map fun b => .text (byteCode v b))).2.map fun k => .write k a) with
  | error x => rw [e] at key; exact input_error key
  | ok s =>
    rw [e] at key
    obtain ⟨w, e1, hc, h1, h2, h3, h4, h5⟩ := key
    refine ⟨w.down, input_ok e1, hc, h1, h3, h4, ?_⟩
    unfold SameButText at h5 ⊢
    rw [h5]
    rfl

/-- In 8-bit mode with unsigned `char`: 0xa8 is the currency sign of the DEC supplemental set, the same byte is lost
if `char` is signed (the character 0 has no width); in 7-bit mode it is `(`. -/
example : (∃ v, Reachable v ∧ (decide (v.state = .ground) && v.f8bit && gives (v.input [0xa8, 66])
      (fun v' => decide (v'.con.rowText 0 = [65, 164, 66, 0, 0]))) = true) ∧
    (∃ v, Reachable v ∧ (decide (v.state = .ground) && v.f8bit && gives (v.input [0xa8, 66])
      (fun v' => decide (v'.con.rowText 0 = [65, 66, 0, 0, 0]))) = true) ∧
    (∃ v, Reachable v ∧ (decide (v.state = .ground) && v.f7bit && gives (v.input [0xa8, 66])
      (fun v' => decide (v'.con.rowText 0 = [65, 40, 66, 0, 0]))) = true) :=
  ⟨exists_of_vholds (cs := [.resize 5 3]) (sg := false) (vs := [.input [65, 27, 91, 54, 50, 34, 112]]) (by decide +kernel),
    exists_of_vholds (cs := [.resize 5 3]) (sg := true) (vs := [.input [65, 27, 91, 54, 50, 34, 112]]) (by decide +kernel),
    exists_of_vholds (cs := [.resize 5 3]) (sg := true) (vs := [.input [65, 27, 91, 54, 49, 34, 112]]) (by decide +kernel)⟩

end Vte
end Verif
