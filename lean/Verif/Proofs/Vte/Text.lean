import Verif.Proofs.Vte.State
import Verif.Proofs.Utf8
import Verif.Spec.Text

/-!
# Running the parser on text, shifts and OSC strings
-/

namespace Verif
namespace Vte

/-! ### Characters -/

theorem Typable.encodable {v : Vte} {g : Nat} (h : Typable v g) : Spec.Utf8.Encodable g := by
  rcases h with h | h
  · unfold Spec.Utf8.Encodable; omega
  · exact h.2.2

theorem utf8_eq {g : Nat} (h : Spec.Utf8.Encodable g) : utf8 g = Utf8.encode g := by
  rw [Utf8.encode_eq_bytes, if_pos h]; rfl

theorem utf8_ascii {g : Nat} (h : g < 128) : utf8 g = [UInt8.ofNat g] := by
  unfold utf8 Spec.Utf8.bytes
  rw [if_pos h]; rfl

/-- Bytes that do not complete a character only change the decoder. -/
theorem loop_quiet : ∀ (bs : List UInt8) {v : Vte}, v.f7bit = false → v.f8bit = false →
    (Utf8.run v.sg v.mach bs).2 = [] → v.inputLoop bs = .ok { v with mach := (Utf8.run v.sg v.mach bs).1 } := by
  intro bs
  induction bs with
  | nil => intro v _ _ _; rfl
  | cons b bs ih =>
    intro v h7 h8 hr
    have hn : ¬ ((Utf8.feed v.sg v.mach b).state = .accept ∨ (Utf8.feed v.sg v.mach b).state = .reject) := by
      intro h
      simp only [Utf8.run, if_pos h] at hr
      cases hr
    have hr' : Utf8.run v.sg v.mach (b :: bs) = Utf8.run v.sg (Utf8.feed v.sg v.mach b) bs := by
      simp only [Utf8.run, if_neg hn]
    have hb : v.inputByte b = .ok { v with mach := Utf8.feed v.sg v.mach b } := by
      unfold Vte.inputByte
      rw [if_neg (by rw [h7]; decide), if_neg (by rw [h8]; decide)]
      dsimp only
      rw [if_neg hn]
    rw [inputLoop_ok hb, hr']
    rw [hr'] at hr
    exact ih (v := { v with mach := Utf8.feed v.sg v.mach b }) h7 h8 hr

/-- The UTF-8 form of a character is handed to the parser as that character. -/
theorem char_ok {v : Vte} (hb : Between v) {g : Nat} (hg : Typable v g) :
    ∃ m, Btw v.flags m ∧ v.inputLoop (utf8 g) = { v with mach := m }.parse g := by
  by_cases h : g < 128
  · rw [utf8_ascii h, inputLoop_one]
    have e : (UInt8.ofNat g).toNat = g := Utf8.toNat_ofNat (by omega)
    obtain ⟨m, hm, e1⟩ := inputByte_ascii hb (b := UInt8.ofNat g) (by omega)
    rw [e] at e1
    exact ⟨m, hm, e1⟩
  · rcases hg with hg | ⟨h7, h8, hg⟩
    · exact absurd hg h
    have hm : Utf8.Boundary v.mach := by
      rcases hb with hb | hb | hb
      · rw [hb] at h7; cases h7
      · rw [hb] at h8; cases h8
      · exact hb
    obtain ⟨hr, hp⟩ := Utf8.run_encode v.sg v.mach hm g hg
    rw [utf8_eq hg]
    have hne : Utf8.encode g ≠ [] := by
      intro e
      rw [e] at hr
      have := congrArg Prod.snd hr
      cases this
    have hspl := List.dropLast_concat_getLast hne
    have hq := hp (Utf8.encode g).dropLast (List.dropLast_prefix _) (by
      intro e
      have := congrArg List.length e
      rw [List.length_dropLast] at this
      have : 0 < (Utf8.encode g).length := List.length_pos_iff.2 hne
      omega)
    have e1 := loop_quiet _ h7 h8 hq
    generalize (Utf8.encode g).getLast hne = b at hspl
    generalize hd : (Utf8.encode g).dropLast = d at hspl hq e1
    rw [← hspl]
    rw [← hspl, Utf8.run_append] at hr
    have hf : Utf8.feed v.sg (Utf8.run v.sg v.mach d).1 b = ⟨.accept, g⟩ := by
      have h1 := congrArg Prod.fst hr
      simp only [Utf8.run] at h1
      split at h1 <;> exact h1
    refine ⟨⟨.accept, g⟩, Or.inr (Or.inr (Or.inr (Or.inl rfl))), ?_⟩
    rw [inputLoop_append, e1]
    show Vte.inputLoop { v with mach := (Utf8.run v.sg v.mach d).1 } [b] = _
    rw [inputLoop_one]
    unfold Vte.inputByte
    rw [if_neg (by show ¬ (v.f7bit = true); rw [h7]; decide), if_neg (by show ¬ (v.f8bit = true); rw [h8]; decide)]
    dsimp only
    rw [hf, if_pos (Or.inl rfl)]
    rfl

/-! ### OSC strings -/

/-- The emulator inside an OSC string that started in `v`, with the text `s` collected. -/
def inOsc (v : Vte) (s : List UInt8) (m : Utf8.Mach) : Vte :=
  { inSeq v .oscString 0 noArgs 0 m with
    oscLen := s.length, oscArg := s ++ List.replicate (128 - s.length) 0 }

theorem ok_inOsc {v : Vte} (h : Ok v) {s : List UInt8} (hs : s.length ≤ 127) {m : Utf8.Mach} : Ok (inOsc v s m) :=
  { ok_inSeq h (st := .oscString) (by decide) (n := 0) (by decide) (fl := 0) (m := m) with
    oscl := by show (s ++ List.replicate (128 - s.length) (0 : UInt8)).length = 128; simp; omega
    osc := hs }

theorem osc_esc {v : Vte} (h : Ok v) (hb : Between v) :
    ∃ m, Btw v.flags m ∧ ∀ bs, v.inputLoop (27 :: 93 :: bs) = (inOsc v [] m).inputLoop bs := by
  obtain ⟨m1, hm1, e1⟩ := esc_ok h hb
  obtain ⟨m', hm', e⟩ := inputByte_ascii (v := inSeq v .esc 0 noArgs 0 m1) (inSeq_between hm1) (b := 93) (by decide)
  exact ⟨m', hm', fun bs => by rw [inputLoop_ok e1, inputLoop_ok e]; rfl⟩

/-- The C1 control OSC. -/
theorem osc_c1 {v : Vte} (h : Ok v) (hb : Between v) (hg : Typable v 0x9d) :
    ∃ m, Btw v.flags m ∧ v.inputLoop (utf8 0x9d) = .ok (inOsc v [] m) := by
  obtain ⟨m, hm, e⟩ := char_ok hb hg
  refine ⟨m, hm, ?_⟩
  rw [e]
  have en : ∀ st, nextOf st 0x9d = (.oscString, .none) := fun st => rfl
  unfold Vte.parse
  rw [en]
  unfold Vte.trans
  rw [if_neg (by decide)]
  obtain ⟨a, ea⟩ := exit_ok (h.mach m) 0x9d
  rw [ea]
  rfl

theorem oscCollect_inOsc {v : Vte} {s : List UInt8} (hs : s.length ≤ 127) {m : Utf8.Mach} {g : Nat}
    (hg : Spec.Utf8.Encodable g) :
    (inOsc v s m).oscCollect g =
      .ok (inOsc v (if 127 < s.length + (utf8 g).length then s else s ++ utf8 g) m) := by
  unfold Vte.oscCollect
  rw [← utf8_eq hg]
  dsimp only
  change (if 127 < s.length + (utf8 g).length then _ else _) = _
  by_cases hl : 127 < s.length + (utf8 g).length
  · rw [if_pos hl, if_pos hl]
  · rw [if_neg hl, if_neg hl]
    have hbl : blit (inOsc v s m).oscArg (utf8 g) (inOsc v s m).oscLen =
        .ok ((s ++ utf8 g) ++ List.replicate (128 - (s ++ utf8 g).length) 0) := by
      show blit (s ++ List.replicate (128 - s.length) 0) (utf8 g) s.length = _
      unfold blit
      rw [if_pos (by simp; omega)]
      congr 1
      rw [List.take_left', List.append_assoc, List.append_assoc]
      · congr 2
        rw [List.drop_append, List.drop_replicate, List.drop_eq_nil_of_le (by omega), List.nil_append,
          List.length_append]
        congr 1
        omega
      · rfl
    rw [hbl]
    show Except.ok _ = Except.ok _
    unfold inOsc
    simp

/-- Characters inside of an OSC string. -/
theorem osc_char {v : Vte} {s : List UInt8} (hs : s.length ≤ 127) {m : Utf8.Mach} (hm : Btw v.flags m) {g : Nat}
    (hg : Typable v g) (hp : Payload g) :
    ∃ m', Btw v.flags m' ∧ (inOsc v s m).inputLoop (utf8 g) =
      .ok (inOsc v (if g < 0x20 ∨ 127 < s.length + (utf8 g).length then s else s ++ utf8 g) m') := by
  obtain ⟨m', hm', e⟩ := char_ok (v := inOsc v s m) (g := g) hm hg
  refine ⟨m', hm', ?_⟩
  rw [e]
  change (inOsc v s m').parse g = _
  unfold Payload at hp
  have ha : anywhere g = none := by
    unfold anywhere
    repeat rw [if_neg (by omega)]
  have hn : nextOf (inOsc v s m').state g = stateTrans .oscString g := by
    show nextOf .oscString g = _
    unfold nextOf; rw [ha]; rfl
  unfold Vte.parse
  rw [hn]
  by_cases hc : g < 0x20
  · have : stateTrans .oscString g = (.none, .ignore) := by
      unfold stateTrans
      dsimp only
      rw [if_pos (by omega)]
    rw [this, if_pos (Or.inl hc)]
    rfl
  · have : stateTrans .oscString g = (.none, .oscCollect) := by
      unfold stateTrans
      dsimp only
      rw [if_neg (by omega), if_neg (by omega)]
    rw [this]
    show (inOsc v s m').oscCollect g = _
    rw [oscCollect_inOsc hs hg.encodable]
    by_cases hl : 127 < s.length + (utf8 g).length
    · rw [if_pos hl, if_pos (Or.inr hl)]
    · rw [if_neg hl, if_neg (by omega)]

theorem oscText_from (gs : List Nat) : ∀ (s : List UInt8), s.length ≤ 127 →
    (gs.foldl (fun s g => if g < 0x20 ∨ 127 < s.length + (utf8 g).length then s else s ++ utf8 g) s).length ≤ 127 := by
  induction gs with
  | nil => intro s hs; exact hs
  | cons g gs ih =>
    intro s hs
    rw [List.foldl_cons]
    apply ih
    split
    · exact hs
    · rw [List.length_append]; omega

theorem osc_chars {v : Vte} : ∀ (gs : List Nat) {s : List UInt8}, s.length ≤ 127 → ∀ {m : Utf8.Mach}, Btw v.flags m →
    (∀ g ∈ gs, Typable v g ∧ Payload g) →
    ∃ m', Btw v.flags m' ∧ ∀ bs, (inOsc v s m).inputLoop (gs.flatMap utf8 ++ bs) = (inOsc v (gs.foldl
      (fun s g => if g < 0x20 ∨ 127 < s.length + (utf8 g).length then s else s ++ utf8 g) s) m').inputLoop bs := by
  intro gs
  induction gs with
  | nil => intro s _ m hm _; exact ⟨m, hm, fun bs => rfl⟩
  | cons g gs ih =>
    intro s hs m hm hg
    obtain ⟨h1, h2⟩ := hg g (List.mem_cons_self ..)
    obtain ⟨m1, hm1, e1⟩ := osc_char hs hm h1 h2
    have hs1 : (if g < 0x20 ∨ 127 < s.length + (utf8 g).length then s else s ++ utf8 g).length ≤ 127 :=
      oscText_from [g] s hs
    obtain ⟨m2, hm2, e2⟩ := ih hs1 hm1 (fun g' hg' => hg g' (List.mem_cons_of_mem _ hg'))
    refine ⟨m2, hm2, fun bs => ?_⟩
    rw [List.flatMap_cons, List.append_assoc, inputLoop_append, e1]
    exact e2 bs

/-- What the end of an OSC string delivers. -/
def oscEvents (v : Vte) (s : List UInt8) : List Event := if v.oscCb then [.osc s] else []

theorem pendingOsc_inOsc {v : Vte} {s : List UInt8} {m : Utf8.Mach} : (inOsc v s m).pendingOsc = oscEvents v s := by
  unfold Vte.pendingOsc oscEvents
  have : (inOsc v s m).oscArg.take (inOsc v s m).oscLen = s := by
    show (s ++ List.replicate (128 - s.length) 0).take s.length = s
    rw [List.take_left']
    rfl
  rw [this]
  have hst : (inOsc v s m).state = .oscString := rfl
  have hcb : (inOsc v s m).oscCb = v.oscCb := rfl
  by_cases h : v.oscCb = true
  · rw [if_pos ⟨hst, h⟩, if_pos h]
  · rw [if_neg (by rw [hcb]; intro hh; exact h hh.2), if_neg h]

/-- The emulator after the end of an OSC string. -/
theorem osc_effect {v w : Vte} {s : List UInt8} {m : Utf8.Mach}
    (h : SameButParser { inOsc v s m with log := (inOsc v s m).log ++ oscEvents v s } w) :
    SameButParser { v with log := v.log ++ v.pendingOsc ++ oscEvents v s } w := by
  unfold SameButParser at h ⊢
  exact h

/-- An OSC string ends with BEL. -/
theorem osc_bel {v : Vte} (h : Ok v) {s : List UInt8} (hs : s.length ≤ 127) {m : Utf8.Mach} (hm : Btw v.flags m) :
    ∃ w, (inOsc v s m).inputLoop [7] = .ok w ∧ w.state = .ground ∧
      SameButParser { v with log := v.log ++ v.pendingOsc ++ oscEvents v s } w := by
  obtain ⟨m', hm', e⟩ := inputByte_ascii (v := inOsc v s m) hm (b := 7) (by decide)
  rw [inputLoop_one, e]
  change ∃ w, (inOsc v s m').parse 7 = _ ∧ _
  unfold Vte.parse
  rw [show nextOf (inOsc v s m').state 7 = (.ground, .none) from rfl]
  unfold Vte.trans
  rw [if_neg (by decide)]
  obtain ⟨a, ea⟩ := exit_ok (ok_inOsc h hs (m := m')) 7
  rw [ea, pendingOsc_inOsc]
  exact ⟨_, rfl, rfl, rfl⟩

/-- An OSC string ends with the C1 control ST. -/
theorem osc_st {v : Vte} (h : Ok v) {s : List UInt8} (hs : s.length ≤ 127) {m : Utf8.Mach} (hm : Btw v.flags m)
    (hg : Typable v 0x9c) :
    ∃ w, (inOsc v s m).inputLoop (utf8 0x9c) = .ok w ∧ w.state = .ground ∧
      SameButParser { v with log := v.log ++ v.pendingOsc ++ oscEvents v s } w := by
  obtain ⟨m', hm', e⟩ := char_ok (v := inOsc v s m) (g := 0x9c) hm hg
  rw [e]
  change ∃ w, (inOsc v s m').parse 0x9c = _ ∧ _
  unfold Vte.parse
  rw [show nextOf (inOsc v s m').state 0x9c = (.ground, .execute) from rfl]
  unfold Vte.trans
  rw [if_neg (by decide)]
  obtain ⟨a, ea⟩ := exit_ok (ok_inOsc h hs (m := m')) 0x9c
  rw [ea, pendingOsc_inOsc]
  exact ⟨_, rfl, rfl, rfl⟩

/-- An OSC string ends with `ESC \`. -/
theorem osc_escape {v : Vte} (h : Ok v) {s : List UInt8} (hs : s.length ≤ 127) {m : Utf8.Mach} (hm : Btw v.flags m) :
    ∃ w, (inOsc v s m).inputLoop [27, 92] = .ok w ∧ w.state = .ground ∧
      SameButParser { v with log := v.log ++ v.pendingOsc ++ oscEvents v s } w := by
  obtain ⟨m', hm', e⟩ := loop_esc (ok_inOsc h hs (m := m)) hm (b := 92) (by decide) (by decide)
    (by unfold Introducer; decide)
  rw [e]
  change ∃ w, (Except.ok { inSeq (inOsc v s m) .esc 0 noArgs 0 m' with state := .ground } : R Vte) = _ ∧ _
  refine ⟨_, rfl, rfl, ?_⟩
  unfold inSeq
  rw [pendingOsc_inOsc]
  exact rfl

/-! ### Colours -/

theorem Resolved.again {p : Palette} {a b c : Attr} (h : Sgr.Resolved p a b) (h' : Sgr.Resolved p b c) : c = b := by
  have hf : b.fccode = a.fccode := by rw [h.same]
  have hb : b.bccode = a.bccode := by rw [h.same]
  have hd : b.bold = a.bold := by rw [h.same]
  have e1 : Sgr.foreEntry b = Sgr.foreEntry a := by
    unfold Sgr.foreEntry; rw [hf, hd]
  have e2 : (c.fr, c.fg, c.fb) = (b.fr, b.fg, b.fb) := by
    by_cases hn : 0 ≤ a.fccode
    · have h1 := h.fore hn
      have h2 := h'.fore (by rw [hf]; exact hn)
      rw [e1, h1] at h2
      injection h2 with h2
      exact h2.symm
    · obtain ⟨h1, h2, h3⟩ := h'.foreRgb (by omega)
      rw [h1, h2, h3]
  have e3 : (c.br, c.bg, c.bb) = (b.br, b.bg, b.bb) := by
    by_cases hn : 0 ≤ a.bccode
    · have h1 := h.back hn
      have h2 := h'.back (by rw [hb]; exact hn)
      rw [hb, h1] at h2
      injection h2 with h2
      exact h2.symm
    · obtain ⟨h1, h2, h3⟩ := h'.backRgb (by omega)
      rw [h1, h2, h3]
  injection e2 with h31 h32
  injection h32 with h32 h33
  injection e3 with h41 h42
  injection h42 with h42 h43
  rw [h'.same, h31, h32, h33, h41, h42, h43]

/-- The attributes that text gets do not change by writing text. -/
theorem toRgb_again {p : Palette} (hp : p.length = 18) {a b : Attr} (ha : Coded a) (h : toRgb p a = .ok b) :
    toRgb p b = .ok b := by
  obtain ⟨b', e, hr⟩ := toRgb_resolved hp ha
  rw [h] at e
  injection e with e
  subst e
  have hb : Coded b := by
    have h1 : b.fccode = a.fccode := by rw [hr.same]
    have h2 : b.bccode = a.bccode := by rw [hr.same]
    have h3 : b.protect = a.protect := by rw [hr.same]
    obtain ⟨x1, x2, x3, x4, x5⟩ := ha
    exact ⟨by omega, by omega, by omega, by omega, by rw [h3]; exact x5⟩
  obtain ⟨c, e, hr'⟩ := toRgb_resolved hp hb
  rw [e, Resolved.again hr hr']

/-! ### Character sets -/

theorem entry_glyph (c : Cset) {i : Nat} (h1 : 1 ≤ i) (h2 : i ≤ 94) : entry c i = .ok ((glyph c i).getD 0) := by
  have key : ∀ c : Cset, ∀ i : Fin 95, 1 ≤ i.val → (table c)[i.val]? = some ((glyph c i.val).getD 0) := by
    intro c
    cases c <;> decide +kernel
  unfold entry
  rw [key c ⟨i, by omega⟩ h1]

theorem glyph_lt (c : Cset) {i : Nat} (h2 : i ≤ 94) : (glyph c i).getD 0 ≤ 0x10ffff := by
  have key : ∀ c : Cset, ∀ i : Fin 95, (glyph c i.val).getD 0 ≤ 0x10ffff := by
    intro c
    cases c <;> decide +kernel
  exact key c ⟨i, by omega⟩

theorem slot_set (v : Vte) (s : Slot) : v.slot s = (charsets v).set s := by cases s <;> rfl

/-- The table of the code is the one of the specification. -/
theorem map_step {v : Vte} (h : Ok v) (g : Nat) :
    ∃ t k, v.map g = .ok ({ v with glt := t }, k) ∧ ((charsets v).step (.text g)).2 = [k] ∧
      charsets { v with glt := t } = ((charsets v).step (.text g)).1 ∧ (k ≤ 0x10ffff ∨ k = g) := by
  unfold Vte.map
  by_cases h1 : 33 ≤ g ∧ g ≤ 126
  · simp only [if_pos h1, Charsets.step]
    cases e : v.glt with
    | some s =>
      refine ⟨none, (glyph (v.slot s) (g - 32)).getD 0, ?_, ?_, rfl, Or.inl (glyph_lt _ (by omega))⟩
      · dsimp only
        rw [entry_glyph _ (by omega) (by omega)]
        rfl
      · rw [slot_set]
        simp only [charsets, e, Option.getD]
    | none =>
      refine ⟨none, (glyph (v.slot v.gl) (g - 32)).getD 0, ?_, ?_, rfl, Or.inl (glyph_lt _ (by omega))⟩
      · dsimp only
        rw [entry_glyph _ (by omega) (by omega)]
        show Except.ok (v, _) = _
        rw [← e]
      · rw [slot_set]
        simp only [charsets, e, Option.getD]
  · by_cases h2 : 161 ≤ g ∧ g ≤ 254
    · simp only [if_neg h1, if_pos h2, Charsets.step]
      refine ⟨v.glt, (glyph (v.slot v.gr) (g - 160)).getD 0, ?_, ?_, rfl, Or.inl (glyph_lt _ (by omega))⟩
      · split
        · rename_i s e
          rw [h.grt] at e
          cases e
        · rw [entry_glyph _ (by omega) (by omega)]
          rfl
      · rw [slot_set]; rfl
    · simp only [if_neg h1, if_neg h2, Charsets.step]
      exact ⟨v.glt, g, rfl, rfl, rfl, Or.inr rfl⟩

theorem ground_print {g : Nat} (hg : Graphic g) : nextOf .ground g = (.none, .print) := by
  unfold Graphic at hg
  have ha : anywhere g = none := by
    unfold anywhere
    repeat rw [if_neg (by omega)]
  unfold nextOf
  rw [ha]
  unfold stateTrans
  simp only [Option.getD]
  rw [if_neg (by unfold isC0; omega)]

/-- What is left of `SameButText` while the sets change. -/
theorem SameButText.trans {a b c : Vte} (h : SameButText a b) (h' : SameButText b c) : SameButText a c := by
  unfold SameButText at *
  rw [h] at h'
  exact h'

theorem loop_text {v : Vte} (h : Ok v) (hs : v.state = .ground) (hb : Between v) {a : Attr}
    (ha : toRgb v.palette v.cattr = .ok a) {g : Nat} (hg : Typable v g) (hp : Graphic g) :
    ∃ k, ((charsets v).step (.text g)).2 = [k] ∧
      match Screen.Call.run v.con (.write k a) with
      | .ok s => ∃ v', v.inputLoop (utf8 g) = .ok v' ∧ v'.con = s ∧ v'.state = .ground ∧ Between v' ∧
          charsets v' = ((charsets v).step (.text g)).1 ∧ v'.cattr = a ∧ SameButText v v'
      | .error e => v.inputLoop (utf8 g) = .error e := by
  obtain ⟨m, hm, e⟩ := char_ok hb hg
  obtain ⟨t, k, em, ek, ec, hk⟩ := map_step (h.mach m) g
  refine ⟨k, ek, ?_⟩
  have hl : v.inputLoop (utf8 g) = ({ v with mach := m, glt := t } : Vte).writeConsole k := by
    rw [e]
    have hn : nextOf v.state g = (.none, .print) := by rw [hs]; exact ground_print hp
    unfold Vte.parse
    rw [show nextOf ({ v with mach := m } : Vte).state g = _ from hn]
    show ({ v with mach := m } : Vte).print g = _
    unfold Vte.print
    rw [em]
    show ({ v with mach := m, glt := t } : Vte).writeConsole (symbolMake k) = _
    have : symbolMake k = k := by
      unfold symbolMake
      have := hg.encodable
      unfold Spec.Utf8.Encodable at this
      rw [if_neg (by omega)]
    rw [this]
  have hw : ({ v with mach := m, glt := t } : Vte).writeConsole k =
      ({ v with mach := m, glt := t, cattr := a } : Vte).scr (.write k a) := by
    unfold Vte.writeConsole
    rw [show toRgb ({ v with mach := m, glt := t } : Vte).palette ({ v with mach := m, glt := t } : Vte).cattr = .ok a from ha]
    rfl
  rw [hl, hw]
  cases er : Screen.Call.run v.con (.write k a) with
  | ok s =>
    refine ⟨{ v with mach := m, glt := t, cattr := a, con := s }, scr_ok er, rfl, hs, hm, ec, rfl, rfl⟩
  | error x =>
    show Vte.scr _ _ = _
    unfold Vte.scr
    rw [show ({ v with mach := m, glt := t, cattr := a } : Vte).con = v.con from rfl, er]
    rfl

/-- `ESC`, the intermediate character `(`, `)`, `*` or `+`, and a final character. -/
theorem loop_designate {v : Vte} (h : Ok v) (hb : Between v) {i f : UInt8} {c : Cset}
    (hi : 0x20 ≤ i.toNat ∧ i.toNat ≤ 0x2f) (hf : 0x30 ≤ f.toNat ∧ f.toNat ≤ 0x7e) (hc : escCharset f.toNat = some c)
    {w : Utf8.Mach → Vte}
    (hw : ∀ m, (inSeq v .escInt 0 noArgs (collectFlag i.toNat) m).setCharset c = some (w m)) :
    ∃ m, Btw v.flags m ∧ v.inputLoop [27, i, f] = .ok { w m with state := .ground } := by
  obtain ⟨m1, hm1, e1⟩ := esc_ok h hb
  obtain ⟨m2, hm2, e2⟩ := inputByte_ascii (v := inSeq v .esc 0 noArgs 0 m1) (inSeq_between hm1) (b := i) (by omega)
  have e2' : (inSeq v .esc 0 noArgs 0 m1).inputByte i = .ok (inSeq v .escInt 0 noArgs (collectFlag i.toNat) m2) := by
    rw [e2]
    change (inSeq v .esc 0 noArgs 0 m2).parse i.toNat = _
    have hn : nextOf .esc i.toNat = (.escInt, .collect) := by
      rw [nextOf_ascii (by omega) (by omega)]
      unfold stateTrans; dsimp only
      rw [if_neg (by unfold isC0; omega), if_neg (by omega), if_pos (by omega)]
    unfold Vte.parse
    rw [show nextOf (inSeq v .esc 0 noArgs 0 m2).state i.toNat = _ from hn]
    unfold Vte.trans
    rw [if_neg (by decide)]
    show Except.ok ({ inSeq v .esc 0 noArgs (0 ||| collectFlag i.toNat) m2 with state := .escInt } : Vte) = _
    rw [show (0 : BitVec 32) ||| collectFlag i.toNat = collectFlag i.toNat by simp]
    rfl
  obtain ⟨m3, hm3, e3⟩ := inputByte_ascii (v := inSeq v .escInt 0 noArgs (collectFlag i.toNat) m2)
    (inSeq_between hm2) (b := f) (by omega)
  refine ⟨m3, hm3, ?_⟩
  rw [inputLoop_ok e1, inputLoop_ok e2', inputLoop_one, e3]
  change (inSeq v .escInt 0 noArgs (collectFlag i.toNat) m3).parse f.toNat = _
  have hn : nextOf .escInt f.toNat = (.ground, .escDispatch) := by
    rw [nextOf_ascii (by omega) (by omega)]
    unfold stateTrans; dsimp only
    rw [if_neg (by unfold isC0; omega), if_neg (by omega), if_neg (by omega), if_pos (by omega)]
  unfold Vte.parse
  rw [show nextOf (inSeq v .escInt 0 noArgs (collectFlag i.toNat) m3).state f.toNat = _ from hn]
  unfold Vte.trans
  rw [if_neg (by decide)]
  have hd : (inSeq v .escInt 0 noArgs (collectFlag i.toNat) m3).escDispatch f.toNat = .ok (w m3) := by
    unfold Vte.escDispatch
    rw [hc]
    show (match (inSeq v .escInt 0 noArgs (collectFlag i.toNat) m3).setCharset c with | some v' => _ | none => _) = _
    rw [hw]
  show ((inSeq v .escInt 0 noArgs (collectFlag i.toNat) m3).escDispatch f.toNat >>= _) = _
  rw [hd]
  rfl

theorem pendingOsc_ground {v : Vte} (h : v.state = .ground) : v.pendingOsc = [] := by
  unfold Vte.pendingOsc
  rw [if_neg (by rw [h]; intro x; cases x.1)]

/-- A sequence that only changes the character sets, from its result. -/
theorem item_done {v : Vte} {w : Vte} (hs : v.state = .ground) {bs : List UInt8} {c : Charsets}
    (e : v.inputLoop bs = .ok w) (h1 : w.state = .ground) (h2 : Between w) (h3 : charsets w = c)
    (h4 : SameButText { v with log := v.log ++ v.pendingOsc } w) (h5 : w.con = v.con) (h6 : w.cattr = v.cattr) :
    ∃ v', v.inputLoop bs = .ok v' ∧ v'.con = v.con ∧ v'.state = .ground ∧ Between v' ∧ charsets v' = c ∧
      v'.cattr = v.cattr ∧ SameButText v v' := by
  refine ⟨w, e, h5, h1, h2, h3, h6, ?_⟩
  rw [pendingOsc_ground hs, List.append_nil] at h4
  exact h4

theorem finalSet_esc {f : UInt8} {c : Cset} (h : finalSet f = some c) :
    0x30 ≤ f.toNat ∧ f.toNat ≤ 0x7e ∧ escCharset f.toNat = some c := by
  have key : ∀ f : Fin 256, ∀ c, finalSet (UInt8.ofNat f.val) = some c →
      0x30 ≤ f.val ∧ f.val ≤ 0x7e ∧ escCharset f.val = some c := by decide +kernel
  have := key ⟨f.toNat, f.toNat_lt⟩ c (by rw [UInt8.ofNat_toNat]; exact h)
  exact this

/-- Shifts and designations. -/
theorem loop_shift {v : Vte} (h : Ok v) (hs : v.state = .ground) (hb : Between v) {i : Item} (hv : i.Valid v)
    (hi : ∀ g, i ≠ .text g) :
    ((charsets v).step i).2 = [] ∧
    ∃ v', v.inputLoop i.bytes = .ok v' ∧ v'.con = v.con ∧ v'.state = .ground ∧ Between v' ∧
      charsets v' = ((charsets v).step i).1 ∧ v'.cattr = v.cattr ∧ SameButText v v' := by
  have c0 : ∀ (b : UInt8), (b = 14 ∨ b = 15) → ∃ m, Btw v.flags m ∧ v.inputLoop [b] = ({ v with mach := m } : Vte).execute b.toNat := by
    intro b hbb
    obtain ⟨m, hm, e⟩ := inputByte_ascii hb (b := b) (by rcases hbb with e | e <;> subst e <;> decide)
    refine ⟨m, hm, ?_⟩
    rw [inputLoop_one, e]
    unfold Vte.parse
    rw [show ({ v with mach := m } : Vte).state = .ground from hs]
    rcases hbb with e | e <;> subst e <;> rfl
  have esc : ∀ (b : UInt8), b ∈ ([110, 111, 126, 125, 124, 78, 79] : List UInt8) →
      ∃ m, Btw v.flags m ∧ v.inputLoop [27, b] =
        ((inSeq v .esc 0 noArgs 0 m).escPlain b.toNat >>= fun v' => pure { v' with state := .ground }) := by
    intro b hbb
    have key : ∀ b ∈ ([110, 111, 126, 125, 124, 78, 79] : List UInt8), 0x30 ≤ b.toNat ∧ b.toNat ≤ 0x7e ∧
      b ∉ ([0x50, 0x58, 0x5b, 0x5d, 0x5e, 0x5f] : List UInt8) := by decide
    obtain ⟨k1, k2, k3⟩ := key b hbb
    exact loop_esc h hb k1 k2 k3
  cases i with
  | text g => exact absurd rfl (hi g)
  | lockLeft s =>
    refine ⟨rfl, ?_⟩
    cases s with
    | g0 => obtain ⟨m, hm, e⟩ := c0 15 (Or.inr rfl); exact ⟨_, e, rfl, hs, hm, rfl, rfl, rfl⟩
    | g1 => obtain ⟨m, hm, e⟩ := c0 14 (Or.inl rfl); exact ⟨_, e, rfl, hs, hm, rfl, rfl, rfl⟩
    | g2 => obtain ⟨m, hm, e⟩ := esc 110 (by decide); exact item_done hs e rfl hm rfl rfl rfl rfl
    | g3 => obtain ⟨m, hm, e⟩ := esc 111 (by decide); exact item_done hs e rfl hm rfl rfl rfl rfl
  | lockRight s =>
    refine ⟨rfl, ?_⟩
    cases s with
    | g0 => exact absurd rfl hv
    | g1 => obtain ⟨m, hm, e⟩ := esc 126 (by decide); exact item_done hs e rfl hm rfl rfl rfl rfl
    | g2 => obtain ⟨m, hm, e⟩ := esc 125 (by decide); exact item_done hs e rfl hm rfl rfl rfl rfl
    | g3 => obtain ⟨m, hm, e⟩ := esc 124 (by decide); exact item_done hs e rfl hm rfl rfl rfl rfl
  | single s =>
    refine ⟨rfl, ?_⟩
    cases s with
    | g0 => rcases hv with hv | hv <;> cases hv
    | g1 => rcases hv with hv | hv <;> cases hv
    | g2 => obtain ⟨m, hm, e⟩ := esc 78 (by decide); exact item_done hs e rfl hm rfl rfl rfl rfl
    | g3 => obtain ⟨m, hm, e⟩ := esc 79 (by decide); exact item_done hs e rfl hm rfl rfl rfl rfl
  | designate s f =>
    refine ⟨rfl, ?_⟩
    change finalSet f ≠ none at hv
    cases ef : finalSet f with
    | none => exact absurd ef hv
    | some c =>
      obtain ⟨k1, k2, k3⟩ := finalSet_esc ef
      have hset : ∀ (s : Slot) (w : Vte), charsets w = { charsets v with
            set := fun t => if t = s then c else (charsets v).set t } →
          charsets w = ((charsets v).step (.designate s f)).1 := by
        intro s w hw
        rw [hw]
        simp only [Charsets.step, ef, Option.getD]
      cases s with
      | g0 =>
        obtain ⟨m, hm, e⟩ := loop_designate h hb (i := 40) (f := f) (by decide) ⟨k1, k2⟩ k3
          (w := fun m => { inSeq v .escInt 0 noArgs 0x200 m with g0 := c }) (fun m => by
            unfold Vte.setCharset
            rw [if_pos (by change (0x200 : BitVec 32).getLsbD 9 = true; decide)]
            rfl)
        exact item_done hs e rfl hm (hset .g0 _ (by unfold charsets; congr 1; funext t; cases t <;> rfl)) rfl rfl rfl
      | g1 =>
        obtain ⟨m, hm, e⟩ := loop_designate h hb (i := 41) (f := f) (by decide) ⟨k1, k2⟩ k3
          (w := fun m => { inSeq v .escInt 0 noArgs 0x400 m with g1 := c }) (fun m => by
            unfold Vte.setCharset
            rw [if_neg (by change ¬ ((0x400 : BitVec 32).getLsbD 9 = true); decide),
              if_pos (by change (0x400 : BitVec 32).getLsbD 10 = true; decide)]
            rfl)
        exact item_done hs e rfl hm (hset .g1 _ (by unfold charsets; congr 1; funext t; cases t <;> rfl)) rfl rfl rfl
      | g2 =>
        obtain ⟨m, hm, e⟩ := loop_designate h hb (i := 42) (f := f) (by decide) ⟨k1, k2⟩ k3
          (w := fun m => { inSeq v .escInt 0 noArgs 0x80 m with g2 := c }) (fun m => by
            unfold Vte.setCharset
            rw [if_neg (by change ¬ ((0x80 : BitVec 32).getLsbD 9 = true); decide),
              if_neg (by change ¬ ((0x80 : BitVec 32).getLsbD 10 = true); decide),
              if_pos (by change (0x80 : BitVec 32).getLsbD 7 = true; decide)]
            rfl)
        exact item_done hs e rfl hm (hset .g2 _ (by unfold charsets; congr 1; funext t; cases t <;> rfl)) rfl rfl rfl
      | g3 =>
        obtain ⟨m, hm, e⟩ := loop_designate h hb (i := 43) (f := f) (by decide) ⟨k1, k2⟩ k3
          (w := fun m => { inSeq v .escInt 0 noArgs 0x100 m with g3 := c }) (fun m => by
            unfold Vte.setCharset
            rw [if_neg (by change ¬ ((0x100 : BitVec 32).getLsbD 9 = true); decide),
              if_neg (by change ¬ ((0x100 : BitVec 32).getLsbD 10 = true); decide),
              if_neg (by change ¬ ((0x100 : BitVec 32).getLsbD 7 = true); decide),
              if_pos (by change (0x100 : BitVec 32).getLsbD 8 = true; decide)]
            rfl)
        exact item_done hs e rfl hm (hset .g3 _ (by unfold charsets; congr 1; funext t; cases t <;> rfl)) rfl rfl rfl

/-- What happens to text, shifts and designations. -/
def Shown (v : Vte) (c : Charsets) (a : Attr) (bs : List UInt8) (gs : List Nat) : Prop :=
  match Screen.runAll (gs.map fun k => .write k a) v.con with
  | .ok s => ∃ v', v.inputLoop bs = .ok v' ∧ v'.con = s ∧ v'.state = .ground ∧ Between v' ∧ charsets v' = c ∧
      (v'.cattr = v.cattr ∨ v'.cattr = a) ∧ SameButText v v'
  | .error e => v.inputLoop bs = .error e

theorem loop_item {v : Vte} (h : Ok v) (hs : v.state = .ground) (hb : Between v) {a : Attr}
    (ha : toRgb v.palette v.cattr = .ok a) {i : Item} (hv : i.Valid v) :
    Shown v ((charsets v).step i).1 a i.bytes ((charsets v).step i).2 := by
  unfold Shown
  by_cases hi : ∃ g, i = .text g
  · obtain ⟨g, rfl⟩ := hi
    obtain ⟨k, ek, hk⟩ := loop_text h hs hb ha hv.1 hv.2
    rw [ek]
    show match Screen.runAll [.write k a] v.con with | .ok s => _ | .error e => _
    have er : Screen.runAll [.write k a] v.con = Screen.Call.run v.con (.write k a) := by
      show (Screen.Call.run v.con (.write k a) >>= fun s => Except.ok s) = _
      cases Screen.Call.run v.con (.write k a) <;> rfl
    rw [er]
    cases e : Screen.Call.run v.con (.write k a) with
    | ok s =>
      rw [e] at hk
      obtain ⟨v', h1, h2, h3, h4, h5, h6, h7⟩ := hk
      exact ⟨v', h1, h2, h3, h4, h5, Or.inr h6, h7⟩
    | error x => rw [e] at hk; exact hk
  · obtain ⟨e0, v', h1, h2, h3, h4, h5, h6, h7⟩ := loop_shift h hs hb hv (fun g e => hi ⟨g, e⟩)
    rw [e0]
    exact ⟨v', h1, h2, h3, h4, h5, Or.inl h6, h7⟩

theorem Item.Valid.same {v v' : Vte} (h : v'.flags = v.flags) {i : Item} (hi : i.Valid v) : i.Valid v' := by
  cases i with
  | text g =>
    refine ⟨?_, hi.2⟩
    have := hi.1
    unfold Typable Vte.f7bit Vte.f8bit at *
    rw [h]
    exact this
  | _ => exact hi

theorem loop_items : ∀ (is : List Item) {v : Vte}, Ok v → 0 < v.parseCnt → v.state = .ground → Between v → ∀ {a : Attr},
    toRgb v.palette v.cattr = .ok a → toRgb v.palette a = .ok a → (∀ i ∈ is, i.Valid v) →
    Shown v ((charsets v).run is).1 a (is.flatMap Item.bytes) ((charsets v).run is).2 := by
  intro is
  induction is with
  | nil =>
    intro v h _ hs hb a _ _ _
    exact ⟨v, rfl, rfl, hs, hb, rfl, Or.inl rfl, rfl⟩
  | cons i is ih =>
    intro v h hp hs hb a ha ha' hv
    have h1 := loop_item h hs hb ha (hv i (List.mem_cons_self ..))
    unfold Shown at h1 ⊢
    show match Screen.runAll (List.map _ (((charsets v).step i).2 ++ ((((charsets v).step i).1).run is).2)) v.con with
      | .ok s => _ | .error e => _
    rw [List.map_append, runAll_append, List.flatMap_cons, inputLoop_append]
    cases e : Screen.runAll (((charsets v).step i).2.map fun k => .write k a) v.con with
    | error x => rw [e] at h1; dsimp only at h1; rw [h1]; rfl
    | ok s =>
      rw [e] at h1
      obtain ⟨v1, e1, hc, hs1, hb1, hch, hca, hsame⟩ := h1
      rw [e1]
      obtain ⟨hok, hext⟩ := h.loop hp e1
      have hfl : v1.flags = v.flags := by unfold SameButText at hsame; rw [hsame]
      have hpal : v1.palette = v.palette := hext.pal
      have h2 := ih hok (by rw [hext.pc]; exact hp) hs1 hb1 (a := a)
        (by rw [hpal]; rcases hca with hca | hca <;> rw [hca]; exact ha; exact ha') (by rw [hpal]; exact ha')
        (fun j hj => (hv j (List.mem_cons_of_mem _ hj)).same hfl)
      rw [hch] at h2
      unfold Shown at h2
      rw [hc] at h2
      show match Screen.runAll (List.map _ _) s with | .ok s => _ | .error e => _
      cases e2 : Screen.runAll (((((charsets v).step i).1).run is).2.map fun k => .write k a) s with
      | error x => rw [e2] at h2; exact h2
      | ok t =>
        rw [e2] at h2
        obtain ⟨v2, e3, hc2, hs2, hb2, hch2, hca2, hsame2⟩ := h2
        refine ⟨v2, e3, hc2, hs2, hb2, hch2, ?_, SameButText.trans hsame hsame2⟩
        rcases hca2 with hh | hh
        · rcases hca with hca | hca
          · exact Or.inl (hh.trans hca)
          · exact Or.inr (hh.trans hca)
        · exact Or.inr hh

/-! ### Writing always works on a screen with two columns -/

theorem writes_ok (a : Attr) : ∀ (gs : List Nat) {s : Screen}, Screen.Inv s → 2 ≤ s.sizeX →
    ∃ s', Screen.runAll (gs.map fun k => .write k a) s = .ok s' := by
  intro gs
  induction gs with
  | nil => intro s _ _; exact ⟨s, rfl⟩
  | cons g gs ih =>
    intro s h hx
    rcases Screen.step_which h (c := .write g a) trivial with ⟨s1, e1, h1⟩ | ⟨hz, _⟩
    · have hk := Screen.step_keeps h (c := .write g a) trivial (by intro x y e; cases e) e1
      have hsx : s1.sizeX = s.sizeX := hk.sizeX
      obtain ⟨s2, e2⟩ := ih h1 (by omega)
      refine ⟨s2, ?_⟩
      show (Screen.Call.run s (.write g a) >>= fun s => Screen.runAll _ s) = _
      rw [e1]
      exact e2
    · obtain ⟨_, len, e, hlt⟩ := hz
      obtain ⟨len', e', hl⟩ := Screen.symWidth_ok g
      rw [e] at e'
      injection e' with e'
      omega

/-! ### The collected part of an OSC string -/

theorem oscText_exact (gs : List Nat) : ∀ (s : List UInt8), (∀ g ∈ gs, 0x20 ≤ g) →
    s.length + (gs.flatMap utf8).length ≤ 127 →
    gs.foldl (fun s g => if g < 0x20 ∨ 127 < s.length + (utf8 g).length then s else s ++ utf8 g) s =
      s ++ gs.flatMap utf8 := by
  induction gs with
  | nil => intro s _ _; simp
  | cons g gs ih =>
    intro s h1 h2
    have hg := h1 g (List.mem_cons_self ..)
    rw [List.flatMap_cons, List.length_append] at h2
    rw [List.foldl_cons, if_neg (by omega), ih _ (fun g hg => h1 g (List.mem_cons_of_mem _ hg))
      (by rw [List.length_append]; omega), List.flatMap_cons, List.append_assoc]

theorem oscText_sub (gs : List Nat) : ∀ (s : List UInt8),
    ∃ l : List Nat, l.Sublist gs ∧
      gs.foldl (fun s g => if g < 0x20 ∨ 127 < s.length + (utf8 g).length then s else s ++ utf8 g) s =
        s ++ l.flatMap utf8 := by
  induction gs with
  | nil => intro s; exact ⟨[], List.Sublist.refl _, by simp⟩
  | cons g gs ih =>
    intro s
    rw [List.foldl_cons]
    split
    · obtain ⟨l, h1, h2⟩ := ih s
      exact ⟨l, h1.cons _, h2⟩
    · obtain ⟨l, h1, h2⟩ := ih (s ++ utf8 g)
      refine ⟨g :: l, h1.cons_cons _, ?_⟩
      rw [h2, List.flatMap_cons, List.append_assoc]

theorem utf8_length {g : Nat} (h : g < 128) : (utf8 g).length = 1 := by rw [utf8_ascii h]; rfl

theorem oscText_ascii (gs : List Nat) : ∀ (s : List UInt8), s.length ≤ 127 → (∀ g ∈ gs, 0x20 ≤ g ∧ g < 128) →
    gs.foldl (fun s g => if g < 0x20 ∨ 127 < s.length + (utf8 g).length then s else s ++ utf8 g) s =
      (s ++ gs.map UInt8.ofNat).take 127 := by
  induction gs with
  | nil => intro s hs _; simp [List.take_of_length_le hs]
  | cons g gs ih =>
    intro s hs h1
    obtain ⟨hg, hg'⟩ := h1 g (List.mem_cons_self ..)
    rw [List.foldl_cons]
    by_cases hl : s.length = 127
    · rw [if_pos (by rw [utf8_length hg']; omega), ih s hs (fun g hg => h1 g (List.mem_cons_of_mem _ hg)),
        List.take_left' hl, List.take_left' hl]
    · rw [if_neg (by rw [utf8_length hg']; omega), utf8_ascii hg',
        ih _ (by rw [List.length_append]; simp; omega) (fun g hg => h1 g (List.mem_cons_of_mem _ hg))]
      simp

/-! ### The machine of the character sets -/

theorem Charsets.run_append (is js : List Item) : ∀ c : Charsets,
    c.run (is ++ js) = (((c.run is).1.run js).1, (c.run is).2 ++ ((c.run is).1.run js).2) := by
  induction is with
  | nil => intro c; rfl
  | cons i is ih =>
    intro c
    show (((c.step i).1.run (is ++ js)).1, (c.step i).2 ++ ((c.step i).1.run (is ++ js)).2) = _
    rw [ih]
    show (_, _ ++ (_ ++ _)) = (_, (_ ++ _) ++ _)
    rw [List.append_assoc]
    rfl

/-- Characters outside of the lower half neither use nor change a single shift. -/
theorem Charsets.run_upper (is : List Nat) (hi : ∀ k ∈ is, k < 33 ∨ 126 < k) (c : Charsets) (o : Option Slot) :
    ({ c with next := o } : Charsets).run (is.map Item.text) = ({ c with next := o }, (c.run (is.map Item.text)).2) := by
  induction is with
  | nil => rfl
  | cons k is ih =>
    have hk := hi k (List.mem_cons_self ..)
    have ih := ih (fun k hk => hi k (List.mem_cons_of_mem _ hk))
    have st : ∀ c : Charsets, (c.step (.text k)) =
        (c, [if 161 ≤ k ∧ k ≤ 254 then (glyph (c.set c.gr) (k - 160)).getD 0 else k]) := by
      intro c
      unfold Charsets.step
      dsimp only
      rw [if_neg (by omega)]
      split <;> rfl
    rw [List.map_cons]
    unfold Charsets.run
    rw [st, st c]
    dsimp only
    rw [ih]

end Vte
end Verif
