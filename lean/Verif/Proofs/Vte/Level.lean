import Verif.Spec.Level
import Verif.Proofs.Vte.State
import Verif.Proofs.Vte.Seq
import Verif.Proofs.Vte.Text
import Verif.Proofs.Vte.Controls

/-!
# Sequences with an intermediate character, and bytes in the 7-bit and 8-bit modes
-/

namespace Verif
namespace Vte

/-- An intermediate character after the parameters. -/
theorem intermediate_ok {v : Vte} {st : PState} (hs : st = .csiEntry ∨ st = .csiParam) {n : Nat} {l : List Int}
    {m : Utf8.Mach} (hm : Btw v.flags m) {i : UInt8} (hi : 0x20 ≤ i.toNat) (hi' : i.toNat ≤ 0x2f) :
    ∃ m', Btw v.flags m' ∧ (inSeq v st n l 0 m).inputByte i = .ok (inSeq v .csiInt n l (collectFlag i.toNat) m') := by
  obtain ⟨m', hm', e⟩ := inputByte_ascii (v := inSeq v st n l 0 m) (inSeq_between hm) (b := i) (by omega)
  refine ⟨m', hm', ?_⟩
  rw [e]
  have hn : nextOf st i.toNat = (.csiInt, .collect) := by
    rw [nextOf_ascii (by omega) (by omega)]
    rcases hs with hs | hs <;> subst hs <;> unfold stateTrans <;> dsimp only
    · rw [if_neg (by unfold isC0; omega), if_neg (by omega), if_pos (by omega)]
    · rw [if_neg (by unfold isC0; omega), if_neg (by omega), if_neg (by omega), if_neg (by omega), if_pos (by omega)]
  unfold Vte.parse Vte.trans
  rw [show ({ inSeq v st n l 0 m with mach := m' } : Vte).state = st from rfl, hn, if_neg (by decide)]
  rcases hs with hs | hs <;> subst hs <;>
  · show Except.ok _ = _
    unfold inSeq Vte.collect
    dsimp only
    rw [show (0 : BitVec 32) ||| collectFlag i.toNat = collectFlag i.toNat by simp]

/-- `ESC [`, parameters, an intermediate character and a final character. -/
theorem input_csi_int {v : Vte} (h : Ok v) (hb : Between v) {qs : List (List UInt8)} (hq : qs ≠ [])
    (hd : ∀ q ∈ qs, ∀ d ∈ q, IsDigit d) {i : UInt8} (hi : 0x20 ≤ i.toNat) (hi' : i.toNat ≤ 0x2f) {b : UInt8}
    (h1 : 0x40 ≤ b.toNat) (h2 : b.toNat ≤ 0x7e) :
    ∃ (m : Utf8.Mach), Btw v.flags m ∧ v.input (27 :: 91 :: (joined qs ++ [i, b])) =
      ((inSeq v.up .csiInt (min 16 qs.length) (padded (qs.map value)) (collectFlag i.toNat) m).csiRun (csiKind b.toNat) >>=
        fun v' => pure { v' with state := .ground }.down) := by
  obtain ⟨m1, hm1, e1⟩ := csi_start h.more hb.up
  obtain ⟨m2, hm2, e2⟩ := params_ok (v := v.up) qs hq hd (st := .csiEntry) (Or.inl rfl) (l := []) (fl := 0) hm1
  have hs : afterParams .csiEntry (joined qs) = .csiEntry ∨ afterParams .csiEntry (joined qs) = .csiParam := by
    unfold afterParams
    split
    · exact Or.inl rfl
    · exact Or.inr rfl
  obtain ⟨m3, hm3, e3⟩ := intermediate_ok (v := v.up) hs (n := min 16 (qs.length - 1)) (l := padded (qs.map value)) hm2 hi hi'
  obtain ⟨m4, hm4, e4⟩ := final_ok (v := v.up) (st := .csiInt) (Or.inr (Or.inr rfl)) (n := min 16 (qs.length - 1))
    (l := padded (qs.map value)) (fl := collectFlag i.toNat) hm3 h1 h2
  refine ⟨m4, hm4, ?_⟩
  have e2' := e2 [i, b]
  rw [List.nil_append] at e2'
  rw [input_def, e1,
    show (inSeq v.up .csiEntry 0 noArgs 0 m1) = inSeq v.up .csiEntry (min 16 ([] : List Int).length) (padded []) 0 m1 from rfl,
    e2', show ([] : List Int).length + (qs.length - 1) = qs.length - 1 from Nat.zero_add _, inputLoop_ok e3, inputLoop_one, e4]
  unfold Vte.csiDispatch
  rw [counted_inSeq (List.length_pos_iff.2 hq)]
  cases (inSeq v.up .csiInt (min 16 qs.length) (padded (qs.map value)) (collectFlag i.toNat) m4).csiRun
    (csiKind b.toNat) <;> rfl

/-- `input_csi`, with what is known about the state. -/
theorem input_csi_plain {v : Vte} (h : Ok v) (hb : Between v) {qs : List (List UInt8)} (hq : qs ≠ [])
    (hd : ∀ q ∈ qs, ∀ d ∈ q, IsDigit d) {b : UInt8} (h1 : 0x40 ≤ b.toNat) (h2 : b.toNat ≤ 0x7e) :
    ∃ (m : Utf8.Mach) (st : PState), st ≠ .none ∧ v.input (27 :: 91 :: (joined qs ++ [b])) =
      ((inSeq v.up st (min 16 qs.length) (padded (qs.map value)) 0 m).csiRun (csiKind b.toNat) >>=
        fun v' => pure { v' with state := .ground }.down) := by
  obtain ⟨m1, hm1, e1⟩ := csi_start h.more hb.up
  obtain ⟨m2, hm2, e2⟩ := params_ok (v := v.up) qs hq hd (st := .csiEntry) (Or.inl rfl) (l := []) (fl := 0) hm1
  have hs : afterParams .csiEntry (joined qs) = .csiEntry ∨ afterParams .csiEntry (joined qs) = .csiParam ∨
      afterParams .csiEntry (joined qs) = .csiInt := by
    unfold afterParams
    split
    · exact Or.inl rfl
    · exact Or.inr (Or.inl rfl)
  obtain ⟨m4, hm4, e4⟩ := final_ok (v := v.up) hs (n := min 16 (qs.length - 1))
    (l := padded (qs.map value)) (fl := 0) hm2 h1 h2
  have hn : afterParams .csiEntry (joined qs) ≠ .none := by
    rcases hs with hs | hs | hs <;> rw [hs] <;> decide
  refine ⟨m4, afterParams .csiEntry (joined qs), hn, ?_⟩
  have e2' := e2 [b]
  rw [List.nil_append] at e2'
  rw [input_def, e1,
    show (inSeq v.up .csiEntry 0 noArgs 0 m1) = inSeq v.up .csiEntry (min 16 ([] : List Int).length) (padded []) 0 m1 from rfl,
    e2', show ([] : List Int).length + (qs.length - 1) = qs.length - 1 from Nat.zero_add _, inputLoop_one, e4]
  unfold Vte.csiDispatch
  rw [counted_inSeq (List.length_pos_iff.2 hq)]
  cases (inSeq v.up (afterParams .csiEntry (joined qs)) (min 16 qs.length) (padded (qs.map value)) 0 m4).csiRun
    (csiKind b.toNat) <;> rfl

/-- `csi_compat_mode`: a soft reset, and the settings of the level. -/
theorem compatMode_eq {v : Vte} {st : PState} {n : Nat} {l : List Int} {fl : BitVec 32} {m : Utf8.Mach}
    (h : Ok (inSeq v st n (padded l) fl m)) (hc : Coloured (inSeq v st n (padded l) fl m)) {a b : Nat} {c d : Int}
    (hl : l[0]?.getD (-1) = c) (hl' : l[1]?.getD (-1) = d)
    (ha : ∀ k : Nat, 0 < k → k ≤ 64 → (c = k ↔ a = k)) (hb : ∀ k : Nat, 0 < k → k ≤ 64 → (d = k ↔ b = k)) :
    ∃ s m', (inSeq v st n (padded l) fl m).compatMode =
      .ok ((({ (inSeq v st n (padded l) fl m).initialModes with con := s, mach := m', state := .ground } : Vte)).atLevel
        (b = 1 ∨ b = 2) (.ofNumber a)) ∧ s.view = v.softView ∧ m'.state = .start := by
  obtain ⟨s, e, _, hv⟩ := reset_eq h hc
  refine ⟨s, Utf8.reset (inSeq v st n (padded l) fl m).mach, ?_, hv, rfl⟩
  unfold Vte.compatMode
  rw [e]
  have a0 := arg_inSeq (v := v) (st := st) (n := n) (l := l) (fl := fl) (m := m) (i := 0) (by decide)
  have a1 := arg_inSeq (v := v) (st := st) (n := n) (l := l) (fl := fl) (m := m) (i := 1) (by decide)
  rw [hl] at a0
  rw [hl'] at a1
  generalize hw : ({ (inSeq v st n (padded l) fl m).initialModes with con := s, mach := Utf8.reset (inSeq v st n (padded l) fl m).mach, state := .ground } : Vte) = w
  have b0 : w.arg 0 = .ok c := by subst hw; exact a0
  have b1 : w.arg 1 = .ok d := by subst hw; exact a1
  show (w.arg 0 >>= fun a => w.arg 1 >>= fun b => _) = _
  rw [b0]
  show (w.arg 1 >>= fun b => _) = _
  rw [b1]
  have k1 := ha 61 (by decide) (by decide)
  have k2 := ha 62 (by decide) (by decide)
  have k3 := ha 63 (by decide) (by decide)
  have k4 := ha 64 (by decide) (by decide)
  have j1 := hb 1 (by decide) (by decide)
  have j2 := hb 2 (by decide) (by decide)
  show (if c = 61 then _ else if c = 62 ∨ c = 63 ∨ c = 64 then _ else _) = _
  unfold Level.ofNumber
  by_cases h1 : a = 61
  · rw [if_pos (by omega), if_pos h1]
    rfl
  · rw [if_neg (by omega), if_neg h1]
    by_cases h2 : 62 ≤ a ∧ a ≤ 64
    · rw [if_pos (by omega), if_pos h2]
      by_cases h3 : b = 1 ∨ b = 2
      · rw [if_pos (by omega)]
        show Except.ok _ = Except.ok _
        congr 1
        unfold atLevel
        simp only [h3, decide_true, if_true]
        unfold setFlag
        simp only [if_true]
        rw [BitVec.or_assoc]
        rfl
      · rw [if_neg (by omega)]
        show Except.ok _ = Except.ok _
        congr 1
        unfold atLevel
        simp only [h3, decide_false]
        rfl
    · rw [if_neg (by omega), if_neg h2]
      rfl

theorem compat_ok {v : Vte} (h : Ok v) {st : PState} (hs : st ≠ .none) {n : Nat} (hn : n ≤ 16) {l : List Int}
    (hl : ∀ a ∈ l, -1 ≤ a ∧ a ≤ 655359) {fl : BitVec 32} {m : Utf8.Mach} : Ok (inSeq v st n (padded l) fl m) := by
  have := ok_inSeq h hs hn (fl := fl) (m := m)
  refine { this with argl := ?_, args := ?_ }
  · show (padded l).length = 16
    unfold padded
    simp
  · intro a ha
    have ha : a ∈ padded l := ha
    unfold padded at ha
    rcases List.mem_append.1 (List.mem_of_mem_take ha) with h1 | h1
    · exact hl a h1
    · have := (List.mem_replicate.1 h1).2
      omega

/-- A byte that does not stand for a control character, in the 7-bit and 8-bit modes. -/
theorem loop_byte {v : Vte} (h : Ok v) (hs : v.state = .ground) (hb : v.f7bit = true ∨ v.f8bit = true) {a : Attr}
    (ha : toRgb v.palette v.cattr = .ok a) {b : UInt8} (hp : GraphicByte v b) :
    Shown v ((charsets v).step (.text (byteCode v b))).1 a [b] ((charsets v).step (.text (byteCode v b))).2 := by
  have key : ∃ t k, ((charsets v).step (.text (byteCode v b))).2 = [k] ∧
      charsets { v with glt := t } = ((charsets v).step (.text (byteCode v b))).1 ∧
      v.inputLoop [b] = ({ v with glt := t } : Vte).writeConsole k := by
    by_cases h7 : v.f7bit = true
    · unfold GraphicByte at hp
      rw [if_pos h7] at hp
      obtain ⟨t, k, em, ek, ec, hk⟩ := map_step h (b.toNat % 128)
      have hc : byteCode v b = b.toNat % 128 := by unfold byteCode; rw [if_pos h7]
      rw [hc]
      refine ⟨t, k, ek, ec, ?_⟩
      have hn : nextOf v.state (b.toNat % 128) = (.none, .print) := by rw [hs]; exact ground_print hp
      rw [inputLoop_one]
      unfold Vte.inputByte
      rw [if_pos h7, show b.toNat &&& 0x7f = b.toNat % 128 from Nat.and_two_pow_sub_one_eq_mod _ 7]
      unfold Vte.parse
      rw [hn]
      show v.print (b.toNat % 128) = _
      unfold Vte.print
      rw [em]
      show ({ v with glt := t } : Vte).writeConsole (symbolMake k) = _
      rw [show symbolMake k = k by unfold symbolMake; rw [if_neg (by omega)]]
    · have h7' : v.f7bit = false := by simpa using h7
      have h8 : v.f8bit = true := by rcases hb with hb | hb; exact absurd hb h7; exact hb
      unfold GraphicByte at hp
      rw [if_neg h7] at hp
      by_cases hx : v.sg = true ∧ 128 ≤ b.toNat
      · have hc : byteCode v b = 0 := by unfold byteCode; rw [if_neg h7, if_pos hx]
        rw [hc]
        refine ⟨v.glt, 0, rfl, rfl, ?_⟩
        have hcv : Utf8.conv v.sg b = b.toNat + 0xffffff00 := by unfold Utf8.conv; rw [if_pos hx]
        have hlt := b.toNat_lt
        obtain ⟨t, k, em, ek, ec, hk⟩ := map_step h (b.toNat + 0xffffff00)
        have hm : v.map (b.toNat + 0xffffff00) = .ok (v, b.toNat + 0xffffff00) := by
          unfold Vte.map
          rw [if_neg (by omega), if_neg (by omega)]
        have hn : nextOf v.state (b.toNat + 0xffffff00) = (.none, .print) := by
          rw [hs]; exact ground_print (by unfold Graphic; omega)
        rw [inputLoop_one]
        unfold Vte.inputByte
        rw [if_neg h7, if_pos h8, hcv]
        unfold Vte.parse
        rw [hn]
        show v.print (b.toNat + 0xffffff00) = _
        unfold Vte.print
        rw [hm]
        show v.writeConsole (symbolMake (b.toNat + 0xffffff00)) = _
        rw [show symbolMake (b.toNat + 0xffffff00) = 0 by unfold symbolMake; rw [if_pos (by omega)]]
      · have hg : Graphic b.toNat := by rcases hp with hp | hp; exact absurd hp hx; exact hp
        have hc : byteCode v b = b.toNat := by unfold byteCode; rw [if_neg h7, if_neg hx]
        rw [hc]
        obtain ⟨t, k, em, ek, ec, hk⟩ := map_step h b.toNat
        have hlt := b.toNat_lt
        refine ⟨t, k, ek, ec, ?_⟩
        have hcv : Utf8.conv v.sg b = b.toNat := by unfold Utf8.conv; rw [if_neg hx]
        have hn : nextOf v.state b.toNat = (.none, .print) := by rw [hs]; exact ground_print hg
        rw [inputLoop_one]
        unfold Vte.inputByte
        rw [if_neg h7, if_pos h8, hcv]
        unfold Vte.parse
        rw [hn]
        show v.print b.toNat = _
        unfold Vte.print
        rw [em]
        show ({ v with glt := t } : Vte).writeConsole (symbolMake k) = _
        rw [show symbolMake k = k by unfold symbolMake; rw [if_neg (by omega)]]
  obtain ⟨t, k, ek, ec, hl⟩ := key
  have hw : ({ v with glt := t } : Vte).writeConsole k =
      ({ v with glt := t, cattr := a } : Vte).scr (.write k a) := by
    unfold Vte.writeConsole
    rw [show toRgb ({ v with glt := t } : Vte).palette ({ v with glt := t } : Vte).cattr = .ok a from ha]
    rfl
  unfold Shown
  rw [hl, hw, ek]
  show match (Screen.Call.run v.con (.write k a) >>= fun s => Screen.runAll [] s) with | .ok s => _ | .error e => _
  cases er : Screen.Call.run v.con (.write k a) with
  | ok s =>
    refine ⟨{ v with glt := t, cattr := a, con := s }, scr_ok er, rfl, hs, ?_, ec, Or.inr rfl, rfl⟩
    rcases hb with hb | hb
    · exact Or.inl hb
    · exact Or.inr (Or.inl hb)
  | error x =>
    show Vte.scr _ _ = _
    unfold Vte.scr
    rw [show ({ v with glt := t, cattr := a } : Vte).con = v.con from rfl, er]
    rfl

/-- Several such bytes. -/
theorem loop_bytes : ∀ (bs : List UInt8) {v : Vte}, Ok v → 0 < v.parseCnt → v.state = .ground →
    v.f7bit = true ∨ v.f8bit = true → ∀ {a : Attr}, toRgb v.palette v.cattr = .ok a → toRgb v.palette a = .ok a →
    (∀ b ∈ bs, GraphicByte v b) →
    Shown v ((charsets v).run (bs.map fun b => .text (byteCode v b))).1 a bs
      ((charsets v).run (bs.map fun b => .text (byteCode v b))).2 := by
  intro bs
  induction bs with
  | nil =>
    intro v h _ hs hb a _ _ _
    refine ⟨v, rfl, rfl, hs, ?_, rfl, Or.inl rfl, rfl⟩
    rcases hb with hb | hb
    · exact Or.inl hb
    · exact Or.inr (Or.inl hb)
  | cons b bs ih =>
    intro v h hp hs hb a ha ha' hv
    have h1 := loop_byte h hs hb ha (hv b (List.mem_cons_self ..))
    rw [List.map_cons]
    generalize hi : Item.text (byteCode v b) = i at h1 ⊢
    generalize hj : (bs.map fun b => Item.text (byteCode v b)) = is
    unfold Shown at h1 ⊢
    show match Screen.runAll (List.map _ (((charsets v).step i).2 ++ ((((charsets v).step i).1).run is).2)) v.con with
      | .ok s => _ | .error e => _
    rw [List.map_append, runAll_append, ← List.singleton_append, inputLoop_append]
    cases e : Screen.runAll (((charsets v).step i).2.map fun k => .write k a) v.con with
    | error x => rw [e] at h1; dsimp only at h1; rw [h1]; rfl
    | ok s =>
      rw [e] at h1
      obtain ⟨v1, e1, hc, hs1, hb1, hch, hca, hsame⟩ := h1
      rw [e1]
      obtain ⟨hok, hext⟩ := h.loop hp e1
      have hfl : v1.flags = v.flags := by unfold SameButText at hsame; rw [hsame]
      have hsg : v1.sg = v.sg := by unfold SameButText at hsame; rw [hsame]
      have h7 : v1.f7bit = v.f7bit := congrArg (BitVec.getLsbD · 4) hfl
      have h8 : v1.f8bit = v.f8bit := congrArg (BitVec.getLsbD · 3) hfl
      have hpal : v1.palette = v.palette := hext.pal
      have hcode : byteCode v1 = byteCode v := by funext c; unfold byteCode; rw [hsg, h7]
      have h2 := ih hok (by rw [hext.pc]; exact hp) hs1 (by rw [h7, h8]; exact hb) (a := a)
        (by rw [hpal]; rcases hca with hca | hca <;> rw [hca]; exact ha; exact ha') (by rw [hpal]; exact ha')
        (fun c hc => by
          have := hv c (List.mem_cons_of_mem _ hc)
          unfold GraphicByte at this ⊢
          rw [hsg, h7]; exact this)
      rw [hch, hcode, hj] at h2
      unfold Shown at h2
      rw [hc] at h2
      show match Screen.runAll (List.map _ _) s with | .ok s => _ | .error e => _
      cases e2 : Screen.runAll (((((charsets v).step i).1).run is).2.map fun k => .write k a) s with
      | error x => rw [e2] at h2; exact h2
      | ok t =>
        rw [e2] at h2
        obtain ⟨v2, e3, hc2, hs2, hb2, hch2, hca2, hsame2⟩ := h2
        refine ⟨v2, e3, hc2, hs2, hb2, hch2, ?_, SameButText.trans hsame hsame2⟩
        rcases hca2 with hh | hh
        · rcases hca with hca | hca
          · exact Or.inl (hh.trans hca)
          · exact Or.inr (hh.trans hca)
        · exact Or.inr hh

end Vte
end Verif
