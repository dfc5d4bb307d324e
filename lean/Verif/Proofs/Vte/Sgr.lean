import Verif.Proofs.Vte.Seq
import Verif.Spec.Sgr

/-!
# SGR
-/

namespace Verif
namespace Vte

theorem toRgb_resolved {p : Palette} (hp : p.length = 18) {a : Attr} (ha : Coded a) :
    ∃ b, toRgb p a = .ok b ∧ Sgr.Resolved p a b := by
  have get : ∀ {k : Nat}, k < 18 → ∃ c, lookup p k = .ok c ∧ p[k]? = some c := by
    intro k hk
    refine ⟨p[k]'(by omega), ?_, List.getElem?_eq_getElem (by omega)⟩
    unfold lookup
    rw [List.getElem?_eq_getElem (by omega)]
  have f1 := ha.f1
  have b1 := ha.b1
  have hf : ∃ b, fgRgb p a = .ok b ∧ b = { a with fr := b.fr, fg := b.fg, fb := b.fb } ∧
      (0 ≤ a.fccode → p[(Sgr.foreEntry a).toNat]? = some (b.fr, b.fg, b.fb)) ∧
      (a.fccode < 0 → b.fr = a.fr ∧ b.fg = a.fg ∧ b.fb = a.fb) := by
    unfold fgRgb
    by_cases h : 0 ≤ a.fccode
    · rw [if_pos h]
      obtain ⟨c, e, eg⟩ := get (fgIndex_lt a h)
      rw [e]
      refine ⟨_, rfl, rfl, fun _ => ?_, fun hn => by omega⟩
      have : fgIndex a = (Sgr.foreEntry a).toNat := by
        unfold fgIndex Sgr.foreEntry
        dsimp only
        split
        · rw [if_neg (by omega)]
        · rw [if_neg (by omega)]
      rw [← this]
      exact eg
    · rw [if_neg h]
      exact ⟨a, rfl, rfl, fun hn => absurd hn h, fun _ => ⟨rfl, rfl, rfl⟩⟩
  obtain ⟨b, e1, e2, e3, e4⟩ := hf
  have hb : ∃ c, bgRgb p b = .ok c ∧ c = { b with br := c.br, bg := c.bg, bb := c.bb } ∧
      (0 ≤ b.bccode → p[b.bccode.toNat]? = some (c.br, c.bg, c.bb)) ∧
      (b.bccode < 0 → c.br = b.br ∧ c.bg = b.bg ∧ c.bb = b.bb) := by
    have hbc : b.bccode = a.bccode := by rw [e2]
    unfold bgRgb
    by_cases h : 0 ≤ b.bccode
    · rw [if_pos h]
      obtain ⟨c, e, eg⟩ := get (bgIndex_lt b h)
      rw [e]
      refine ⟨_, rfl, rfl, fun _ => ?_, fun hn => by omega⟩
      have : bgIndex b = b.bccode.toNat := by
        unfold bgIndex
        rw [if_neg (by omega)]
      rw [← this]
      exact eg
    · rw [if_neg h]
      exact ⟨b, rfl, rfl, fun hn => absurd hn h, fun _ => ⟨rfl, rfl, rfl⟩⟩
  obtain ⟨c, g1, g2, g3, g4⟩ := hb
  refine ⟨c, ?_, ?_, ?_, ?_, ?_, ?_⟩
  · unfold toRgb
    rw [e1]
    exact g1
  · rw [g2]
    dsimp only
    rw [e2]
  · intro h
    rw [g2]
    exact e3 h
  · intro h
    rw [g2]
    exact e4 h
  · intro h
    have hbc : b.bccode = a.bccode := by rw [e2]
    rw [← hbc] at h ⊢
    exact g3 h
  · intro h
    have hbc : b.bccode = a.bccode := by rw [e2]
    rw [← hbc] at h
    have := g4 h
    have k1 : b.br = a.br := by rw [e2]
    have k2 : b.bg = a.bg := by rw [e2]
    have k3 : b.bb = a.bb := by rw [e2]
    rw [k1, k2, k3] at this
    exact this

theorem color256_eq (n : Nat) (a : Attr) :
    setColor a true (color256 n) = Sgr.withFore a (Sgr.indexed n) ∧
    setColor a false (color256 n) = Sgr.withBack a (Sgr.indexed n) := by
  unfold color256 Sgr.indexed
  have lv : ∀ k, k < 6 → bval k = Sgr.level k := by decide
  split
  · exact ⟨rfl, rfl⟩
  · split
    · have h1 : (n - 16) / 6 / 6 % 6 = (n - 16) / 36 := by omega
      rw [h1, lv _ (by omega), lv _ (by omega), lv _ (by omega)]
      exact ⟨rfl, rfl⟩
    · dsimp only
      rw [show (n - 232) * 10 + 8 = 8 + 10 * (n - 232) by omega]
      exact ⟨rfl, rfl⟩

theorem sgrSimple_eq (d a : Attr) {p : Int} (hp : 0 ≤ p) (hx : p ≠ 38 ∧ p ≠ 48) :
    sgrSimple a d p.toNat = Sgr.plain d a p := by
  obtain ⟨n, rfl⟩ := Int.eq_ofNat_of_zero_le hp
  rw [Int.toNat_natCast]
  unfold sgrSimple
  split
  all_goals first
    | rfl
    | skip
  rename_i _ h0 h1 h3 h4 h5 h7 h22 h23 h24 h25 h27 h39 h49
  have e0 : (n : Int) ≠ 0 := fun h => h0 (by omega)
  have e1 : (n : Int) ≠ 1 := fun h => h1 (by omega)
  have e3 : (n : Int) ≠ 3 := fun h => h3 (by omega)
  have e4 : (n : Int) ≠ 4 := fun h => h4 (by omega)
  have e5 : (n : Int) ≠ 5 := fun h => h5 (by omega)
  have e7 : (n : Int) ≠ 7 := fun h => h7 (by omega)
  have e22 : (n : Int) ≠ 22 := fun h => h22 (by omega)
  have e23 : (n : Int) ≠ 23 := fun h => h23 (by omega)
  have e24 : (n : Int) ≠ 24 := fun h => h24 (by omega)
  have e25 : (n : Int) ≠ 25 := fun h => h25 (by omega)
  have e27 : (n : Int) ≠ 27 := fun h => h27 (by omega)
  have e39 : (n : Int) ≠ 39 := fun h => h39 (by omega)
  have e49 : (n : Int) ≠ 49 := fun h => h49 (by omega)
  unfold Sgr.plain
  simp only [e0, e1, e3, e4, e5, e7, e22, e23, e24, e25, e27, e39, e49, or_self, if_false]
  by_cases c1 : 30 ≤ n ∧ n ≤ 37
  · rw [if_pos c1, if_pos (by omega), if_neg (by omega), if_neg (by omega)]
  · rw [if_neg c1, if_neg (show ¬ (30 ≤ (n : Int) ∧ (n : Int) ≤ 37) by omega)]
    by_cases c2 : 40 ≤ n ∧ n ≤ 47
    · rw [if_pos c2, if_neg (by omega), if_pos (by omega)]
    · rw [if_neg c2, if_neg (show ¬ (40 ≤ (n : Int) ∧ (n : Int) ≤ 47) by omega)]
      by_cases c3 : 90 ≤ n ∧ n ≤ 97
      · rw [if_pos c3, if_pos (by omega), if_neg (by omega), show (n : Int) - 90 + 8 = (n : Int) - 82 by omega]
      · rw [if_neg c3, if_neg (show ¬ (90 ≤ (n : Int) ∧ (n : Int) ≤ 97) by omega)]
        by_cases c4 : 100 ≤ n ∧ n ≤ 107
        · rw [if_pos c4, if_pos (by omega), show (n : Int) - 100 + 8 = (n : Int) - 92 by omega]
        · rw [if_neg c4, if_neg (by omega)]

theorem plain_neg (d a : Attr) {p : Int} (hp : p < 0) : Sgr.plain d a p = a := by
  unfold Sgr.plain
  have : ∀ k : Int, 0 ≤ k → (p = k) = False := fun k hk => by simp; omega
  simp only [this 0 (by decide), this 1 (by decide), this 3 (by decide), this 4 (by decide), this 5 (by decide),
    this 7 (by decide), this 22 (by decide), this 23 (by decide), this 24 (by decide), this 25 (by decide),
    this 27 (by decide), this 39 (by decide), this 49 (by decide), or_self, if_false]
  rw [if_neg (by omega), if_neg (by omega), if_neg (by omega), if_neg (by omega)]

/-- The loop works on the parameters `ps`. -/
structure Params (v : Vte) (ps : List Int) : Prop where
  argc : v.argc = ps.length
  len : ps.length ≤ 16
  arg : ∀ i, i < 16 → v.arg i = .ok (ps[i]?.getD (-1))

theorem drop_get {ps : List Int} {i j : Nat} : (ps.drop i)[j]? = ps[i + j]? := by
  rw [List.getElem?_drop]

theorem ext_eq {v : Vte} {ps : List Int} (h : Params v ps) (a : Attr) {i : Nat} (hi : i + 1 < 16) (fore : Bool) :
    v.sgrExt a i fore = .ok (match Sgr.extended (ps.drop (i + 1)) with
      | some (c, n) => (if fore then Sgr.withFore a c else Sgr.withBack a c, n)
      | none => (a, 0)) := by
  unfold Vte.sgrExt
  rw [h.arg _ hi]
  have g0 : ps[i + 1]? = (ps.drop (i + 1))[0]? := by rw [drop_get]
  have g1 : ps[i + 2]? = (ps.drop (i + 1))[1]? := by rw [drop_get]
  have g2 : ps[i + 3]? = (ps.drop (i + 1))[2]? := by rw [drop_get]
  have g3 : ps[i + 4]? = (ps.drop (i + 1))[3]? := by rw [drop_get]
  have hl : (ps.drop (i + 1)).length = ps.length - (i + 1) := List.length_drop ..
  have hlen := h.len
  have hac := h.argc
  rw [g0]
  generalize ps.drop (i + 1) = qs at g0 g1 g2 g3 hl
  cases qs with
  | nil => rfl
  | cons m qs =>
    show (if m = 5 then _ else if m = 2 then _ else _) = _
    have hl1 : qs.length = ps.length - (i + 2) := by rw [List.length_cons] at hl; omega
    by_cases h5 : m = 5
    · rw [if_pos h5]
      subst h5
      unfold Vte.sgr256
      cases qs with
      | nil =>
        have hl1 : 0 = ps.length - (i + 2) := hl1
        rw [if_pos (by omega)]
        rfl
      | cons n qs =>
        rw [List.length_cons] at hl1
        rw [if_neg (by omega), h.arg _ (by omega), g1]
        have he : Sgr.extended (5 :: n :: qs) = if 0 ≤ n then some (Sgr.indexed n.toNat, 2) else none := by
          unfold Sgr.extended
          rfl
        rw [he]
        show ((if n < 0 then pure none else _) >>= _) = _
        by_cases hn : n < 0
        · rw [if_pos hn, if_neg (by omega)]
          rfl
        · rw [if_neg hn, if_pos (by omega)]
          show Except.ok (setColor a fore (color256 n.toNat), 2) = _
          cases fore
          · rw [(color256_eq _ _).2]; rfl
          · rw [(color256_eq _ _).1]; rfl
    · rw [if_neg h5]
      by_cases h2 : m = 2
      · rw [if_pos h2]
        subst h2
        unfold Vte.sgrTrue
        have none_case : qs.length ≤ 2 → Sgr.extended (2 :: qs) = none := by
          intro hq
          match qs, hq with
          | [], _ => rfl
          | [n], _ => rfl
          | [n, g], _ => rfl
        by_cases hq : qs.length ≤ 2
        · rw [none_case hq, if_pos (by omega)]
          rfl
        · match qs, hq with
          | [], hq => exact absurd (Nat.zero_le 2) hq
          | [_], hq => exact absurd (show 1 ≤ 2 by omega) hq
          | [_, _], hq => exact absurd (show 2 ≤ 2 by omega) hq
          | n :: g :: b :: qs, _ =>
            rw [List.length_cons, List.length_cons, List.length_cons] at hl1
            rw [if_neg (by omega), h.arg _ (by omega), h.arg _ (by omega), h.arg _ (by omega), g1, g2, g3]
            have he : Sgr.extended (2 :: n :: g :: b :: qs) = if 0 ≤ n ∧ 0 ≤ g ∧ 0 ≤ b then
                some (Sgr.Colour.rgb (n.toNat % 256) (g.toNat % 256) (b.toNat % 256), 4) else none := by
              unfold Sgr.extended
              rfl
            rw [he]
            show ((if n < 0 ∨ g < 0 ∨ b < 0 then pure none else _) >>= _) = _
            by_cases hn : n < 0 ∨ g < 0 ∨ b < 0
            · rw [if_pos hn, if_neg (by omega)]
              rfl
            · rw [if_neg hn, if_pos (by omega)]
              cases fore <;> rfl
      · rw [if_neg h2]
        have he : Sgr.extended (m :: qs) = none := by
          cases qs with
          | nil => rfl
          | cons n qs =>
            unfold Sgr.extended
            dsimp only
            rw [if_neg h5, if_neg h2]
        rw [he]
        rfl

theorem loop_eq {v : Vte} {ps : List Int} (h : Params v ps) (hx : ps[15]? ≠ some 38 ∧ ps[15]? ≠ some 48) :
    ∀ (fuel i : Nat) (a : Attr), v.sgrLoop fuel i a = .ok (Sgr.groups v.defAttr fuel a (ps.drop i)) := by
  intro fuel
  induction fuel with
  | zero => intro i a; rfl
  | succ fuel ih =>
    intro i a
    unfold Vte.sgrLoop
    have hlen := h.len
    have hac := h.argc
    by_cases hi : v.argc ≤ i
    · rw [if_pos hi, List.drop_eq_nil_of_le (by omega)]
      rfl
    · rw [if_neg hi]
      have hlt : i < ps.length := by omega
      rw [List.drop_eq_getElem_cons hlt]
      unfold Vte.sgrOne Sgr.groups
      rw [h.arg _ (by omega), List.getElem?_eq_getElem hlt]
      show ((if ps[i] < 0 then _ else if ps[i] = 38 then _ else if ps[i] = 48 then _ else _) >>= _) = _
      by_cases hn : ps[i] < 0
      · rw [if_pos hn, if_neg (by omega), plain_neg _ _ hn]
        exact ih (i + 0 + 1) a
      · rw [if_neg hn]
        have step : ∀ (fore : Bool), ps[i] = 38 ∨ ps[i] = 48 →
            (v.sgrExt a i fore >>= fun r => v.sgrLoop fuel (i + r.2 + 1) r.1) =
            .ok (match Sgr.extended (ps.drop (i + 1)) with
              | some (c, n) => Sgr.groups v.defAttr fuel (if fore then Sgr.withFore a c else Sgr.withBack a c)
                ((ps.drop (i + 1)).drop n)
              | none => Sgr.groups v.defAttr fuel a (ps.drop (i + 1))) := by
          intro fore hp
          have hi15 : i ≠ 15 := by
            intro h15
            subst h15
            rw [List.getElem?_eq_getElem hlt] at hx
            rcases hp with hp | hp
            · exact hx.1 (by rw [hp])
            · exact hx.2 (by rw [hp])
          rw [ext_eq h a (by omega) fore]
          show (v.sgrLoop fuel _ _) = _
          rw [ih]
          cases Sgr.extended (ps.drop (i + 1)) with
          | none => rfl
          | some r =>
            obtain ⟨c, n⟩ := r
            show Except.ok (Sgr.groups _ _ _ (ps.drop (i + n + 1))) =
              Except.ok (Sgr.groups _ _ _ ((ps.drop (i + 1)).drop n))
            rw [List.drop_drop, show i + n + 1 = i + 1 + n by omega]
        by_cases h38 : ps[i] = 38
        · rw [if_pos h38, if_pos (Or.inl h38)]
          rw [step true (Or.inl h38)]
          simp only [if_pos h38, if_true]
          cases Sgr.extended (ps.drop (i + 1)) <;> rfl
        · rw [if_neg h38]
          by_cases h48 : ps[i] = 48
          · rw [if_pos h48, if_pos (Or.inr h48), step false (Or.inr h48)]
            simp only [if_neg h38, Bool.false_eq_true, if_false]
            cases Sgr.extended (ps.drop (i + 1)) <;> rfl
          · rw [if_neg h48, if_neg (by intro hh; rcases hh with hh | hh; exact h38 hh; exact h48 hh),
              ← sgrSimple_eq _ _ (by omega) ⟨h38, h48⟩]
            exact ih (i + 0 + 1) _

theorem plain_coded {d a : Attr} (hd : Coded d) (ha : Coded a) (p : Int) : Coded (Sgr.plain d a p) := by
  have := hd.f0
  have := hd.f1
  have := hd.b0
  have := hd.b1
  have := ha.f0
  have := ha.f1
  have := ha.b0
  have := ha.b1
  unfold Sgr.plain
  refine ⟨?_, ?_, ?_, ?_, ha.pr⟩ <;> dsimp only <;> split <;> (try split) <;> (try split) <;> omega

theorem indexed_entry {n k : Nat} (h : Sgr.indexed n = .entry k) : k < 16 := by
  unfold Sgr.indexed at h
  split at h
  · injection h with h; omega
  · split at h <;> cases h

theorem extended_entry {ps : List Int} {k n : Nat} (h : Sgr.extended ps = some (.entry k, n)) : k < 16 := by
  unfold Sgr.extended at h
  split at h
  · split at h
    · split at h
      · injection h with h
        exact indexed_entry (congrArg Prod.fst h)
      · cases h
    · split at h
      · split at h
        · split at h
          · injection h with h
            cases congrArg Prod.fst h
          · cases h
        · cases h
      · cases h
  · cases h

theorem groups_coded {d : Attr} (hd : Coded d) : ∀ (k : Nat) {a : Attr} (ps : List Int), Coded a →
    Coded (Sgr.groups d k a ps) := by
  intro k
  induction k with
  | zero => intro a ps ha; exact ha
  | succ k ih =>
    intro a ps ha
    cases ps with
    | nil => exact ha
    | cons p ps =>
      unfold Sgr.groups
      split
      · split
        · rename_i c n he
          apply ih
          have hc : Coded (Sgr.withFore a c) ∧ Coded (Sgr.withBack a c) := by
            cases c with
            | entry k =>
              have := extended_entry he
              exact ⟨⟨(by show (-1 : Int) ≤ (k : Int); omega), (by show (k : Int) ≤ 17; omega), ha.b0, ha.b1, ha.pr⟩,
                ⟨ha.f0, ha.f1, (by show (-1 : Int) ≤ (k : Int); omega), (by show (k : Int) ≤ 17; omega), ha.pr⟩⟩
            | rgb r g b =>
              exact ⟨⟨(by decide : (-1 : Int) ≤ -1), (by decide : (-1 : Int) ≤ 17), ha.b0, ha.b1, ha.pr⟩,
                ⟨ha.f0, ha.f1, (by decide : (-1 : Int) ≤ -1), (by decide : (-1 : Int) ≤ 17), ha.pr⟩⟩
          split
          · exact hc.1
          · exact hc.2
        · exact ih _ ha
      · exact ih _ (plain_coded hd ha p)

theorem value_neg {q : List UInt8} (hq : ∀ d ∈ q, IsDigit d) (h : value q = -1) : q = [] := by
  by_cases h0 : q = []
  · exact h0
  · rcases value_number hq h0 with h1 | h1 <;> omega

/-- Reading the parameters of SGR. -/
theorem sgrDefault_ok {v : Vte} {st : PState} {fl : BitVec 32} {m : Utf8.Mach} {qs : List (List UInt8)} (hq : qs ≠ [])
    (hd : ∀ q ∈ qs, ∀ d ∈ q, IsDigit d) :
    ∃ n l, (inSeq v st (min 16 qs.length) (padded (qs.map value)) fl m).sgrDefault = .ok (inSeq v st n l fl m) ∧
      Params (inSeq v st n l fl m) (sgrParams qs) := by
  unfold Vte.sgrDefault
  rw [arg_inSeq (by decide)]
  obtain ⟨q, qs, rfl⟩ := List.exists_cons_of_ne_nil hq
  show ∃ n l, (if min 16 (q :: qs).length ≤ 1 ∧ value q = -1 then _ else _) = _ ∧ _
  unfold sgrParams
  by_cases h : q :: qs = [[]]
  · injection h with h1 h2
    subst h1; subst h2
    refine ⟨1, (padded [-1]).set 0 0, rfl, rfl, by decide, ?_⟩
    show ∀ i, i < 16 → (match ((padded [-1]).set 0 0)[i]? with | some a => Except.ok a | none => Except.error UB.csiArg) =
      .ok (([0] : List Int)[i]?.getD (-1))
    decide
  · rw [if_neg h]
    have : ¬ (min 16 (q :: qs).length ≤ 1 ∧ value q = -1) := by
      intro hh
      have h1 := value_neg (hd q (List.mem_cons_self ..)) hh.2
      have h2 : qs = [] := by
        cases qs with
        | nil => rfl
        | cons _ _ => have := hh.1; simp only [List.length_cons] at this; omega
      exact h (by rw [h1, h2])
    rw [if_neg this]
    refine ⟨_, _, rfl, ?_, ?_, ?_⟩
    · show min 16 (q :: qs).length = _
      rw [List.length_take, List.length_map]
    · rw [List.length_take]
      omega
    · intro i hi
      rw [arg_inSeq hi, List.getElem?_take_of_lt hi]

/-- SGR with the parameters `qs`. -/
theorem sgr_input {v : Vte} (h : Ok v) (hb : Between v) {qs : List (List UInt8)} (hq : qs ≠ [])
    (hd : ∀ q ∈ qs, ∀ d ∈ q, IsDigit d)
    (hx : ∀ q, qs[15]? = some q → value q ≠ 38 ∧ value q ≠ 48) :
    ∃ v' b, v.input (27 :: 91 :: (joined qs ++ [109])) = .ok v' ∧ v'.state = .ground ∧
      Sgr.Resolved v.palette
        (Sgr.attributes v.defAttr v.cattr (sgrParams qs)) b ∧
      Effect { v with cattr := b } v' { v.con with defAttr := if v.fBce then b else v.con.defAttr } [] := by
  obtain ⟨m, st, hm, e⟩ := input_csi h hb hq hd (b := 109) (by decide) (by decide)
  have hk : csiKind (109 : UInt8).toNat = .sgr := rfl
  rw [hk] at e
  obtain ⟨n, l, e1, hp⟩ := sgrDefault_ok (v := v.up) (st := st) (fl := 0) (m := m) hq hd
  have hx' : ∀ k : Int, k = 38 ∨ k = 48 → (sgrParams qs)[15]? ≠ some k := by
    intro k hk
    unfold sgrParams
    split
    · intro hh; cases hh
    · rw [List.getElem?_take_of_lt (by decide), List.getElem?_map]
      intro hh
      cases hqs : qs[15]? with
      | none => rw [hqs] at hh; cases hh
      | some q =>
        rw [hqs] at hh
        injection hh with hh
        have := hx q hqs
        rcases hk with hk | hk <;> subst hk
        · exact this.1 hh
        · exact this.2 hh
  have e2 : (inSeq v.up st n l 0 m).sgrLoop (inSeq v.up st n l 0 m).argc 0 (inSeq v.up st n l 0 m).cattr =
      .ok (Sgr.groups v.defAttr (sgrParams qs).length v.cattr (sgrParams qs)) := by
    rw [loop_eq hp ⟨hx' 38 (Or.inl rfl), hx' 48 (Or.inr rfl)⟩, List.drop_zero, hp.argc]
    rfl
  have hdc : Coded v.defAttr := h.defCoded
  obtain ⟨b, e3, hr⟩ := toRgb_resolved h.pal (groups_coded hdc
    (sgrParams qs).length
    (sgrParams qs) h.cat)
  change v.input _ = ((inSeq v.up st _ _ 0 m).sgr >>= _) at e
  have e4 : (inSeq v.up st (min 16 qs.length) (padded (qs.map value)) 0 m).sgr =
      Vte.bce { inSeq v.up st n l 0 m with cattr := b } := by
    unfold Vte.sgr
    rw [e1]
    show ((inSeq v.up st n l 0 m).sgrLoop (inSeq v.up st n l 0 m).argc 0 (inSeq v.up st n l 0 m).cattr >>= _) = _
    rw [e2]
    show (toRgb v.palette _ >>= _) = _
    rw [e3]
    rfl
  rw [e4] at e
  have e5 : Vte.bce { inSeq v.up st n l 0 m with cattr := b } = .ok { inSeq v.up st n l 0 m with
      cattr := b, con := { v.con with defAttr := if v.fBce then b else v.con.defAttr } } := by
    unfold Vte.bce
    by_cases hf : v.fBce = true
    · rw [if_pos (show Vte.fBce { inSeq v.up st n l 0 m with cattr := b } = true from hf)]
      simp only [if_pos hf]
      rfl
    · rw [if_neg (show ¬ Vte.fBce { inSeq v.up st n l 0 m with cattr := b } = true from hf)]
      simp only [if_neg hf]
      rfl
  rw [e5] at e
  refine ⟨_, b, e, rfl, hr, ?_⟩
  unfold Effect
  rw [List.append_nil]
  rfl

/-! ### Palettes -/

/-- The palette is the selected one, and the default attributes are its entries 16 and 17. -/
structure Coloured (v : Vte) : Prop where
  pal : v.palette = getPalette v.paletteName v.customPalette
  dattr : Sgr.Resolved v.palette { Attr.zero with fccode := 16, bccode := 17 } v.defAttr

theorem Ext.coloured {Q : Screen.Call → Prop} {v v' : Vte} (he : Ext Q v v') (h : Coloured v) : Coloured v' :=
  ⟨by rw [he.pal, he.name, he.custom]; exact h.pal, by rw [he.pal, he.dattr]; exact h.dattr⟩

theorem toRgb_default {p : Palette} (hp : p.length = 18) {a : Attr}
    (ha : { a with fr := 0, fg := 0, fb := 0, br := 0, bg := 0, bb := 0 } = { Attr.zero with fccode := 16, bccode := 17 }) :
    ∃ b, toRgb p a = .ok b ∧ Sgr.Resolved p { Attr.zero with fccode := 16, bccode := 17 } b := by
  have f : a.fccode = 16 := congrArg Attr.fccode ha
  have g : a.bccode = 17 := congrArg Attr.bccode ha
  obtain ⟨b, e, hr⟩ := toRgb_resolved hp (a := a) ⟨by omega, by omega, by omega, by omega, congrArg Attr.protect ha⟩
  refine ⟨b, e, ?_, ?_, ?_, ?_, ?_⟩
  · rw [← ha]
    exact hr.same
  · intro _
    have := hr.fore (by omega)
    have hf : Sgr.foreEntry a = 16 := by
      unfold Sgr.foreEntry
      rw [f, if_neg (by omega)]
    rw [hf] at this
    exact this
  · intro hn
    exact absurd (show (16 : Int) < 0 from hn) (by decide)
  · intro _
    have := hr.back (by omega)
    rw [g] at this
    exact this
  · intro hn
    exact absurd (show (17 : Int) < 0 from hn) (by decide)

theorem new_coloured {s : Screen} (h : Screen.Inv s) {sg : Bool} {v : Vte} (e : new s sg = .ok v) : Coloured v := by
  unfold Vte.new at e
  obtain ⟨d, e1, hd⟩ := toRgb_default (getPalette_length none none (by intro p h; cases h))
    (a := { Attr.zero with fccode := 16, bccode := 17 }) rfl
  rw [e1] at e
  have hc : Coded d := by
    have h1 : d.fccode = 16 := congrArg Attr.fccode hd.same
    have h2 : d.bccode = 17 := congrArg Attr.bccode hd.same
    exact ⟨by omega, by omega, by omega, by omega, congrArg Attr.protect hd.same⟩
  have hz : Coded Attr.zero := ⟨by decide, by decide, by decide, by decide, rfl⟩
  have h0 : Ok { blank s sg d with state := .ground } :=
    ⟨h, (by show (List.replicate 16 (0 : Int)).length = 16; simp),
      (by intro a ha; have := List.eq_of_mem_replicate (show a ∈ List.replicate 16 (0 : Int) from ha); omega),
      Nat.zero_le _, (by show (List.replicate 128 (0 : UInt8)).length = 128; simp), Nat.zero_le _,
      (by intro h; cases h), getPalette_length none none (by intro p h; cases h), (by intro p h; cases h),
      hz, (congrArg Attr.fccode hd.same : d.fccode = 16), (congrArg Attr.bccode hd.same : d.bccode = 17), congrArg Attr.protect hd.same, hz, (by show (0 : BitVec 32).getLsbD 17 = false; decide), rfl⟩
  change ((blank s sg d).reset >>= fun v => v.scr (.eraseScreen false)) = _ at e
  have hg := reset_good' (X := ⟨False, False, False⟩) h0
  cases er : (blank s sg d).reset with
  | error x => rw [er] at e; cases e
  | ok v1 =>
    have h1 := SatK.of_ok hg er
    rw [er] at e
    change v1.scr (.eraseScreen false) = _ at e
    have h2 := SatK.of_ok (h1.1.scr (c := .eraseScreen false) (Q := Term) (X := ⟨False, False, False⟩) trivial trivial) e
    exact h2.2.coloured (h1.2.1.coloured ⟨rfl, hd⟩)

theorem updatePalette_coloured {v v' : Vte} (h : Ok v) (hc : ∃ p, Sgr.Resolved p { Attr.zero with fccode := 16, bccode := 17 } v.defAttr)
    (e : v.updatePalette = .ok v') : v'.palette = getPalette v.paletteName v.customPalette ∧
      v'.paletteName = v.paletteName ∧ v'.customPalette = v.customPalette ∧ v'.cattr = v'.defAttr ∧
      Sgr.Resolved v'.palette { Attr.zero with fccode := 16, bccode := 17 } v'.defAttr := by
  unfold Vte.updatePalette at e
  dsimp only at e
  have hp := getPalette_length v.paletteName v.customPalette h.cpal
  obtain ⟨p, hr⟩ := hc
  obtain ⟨d, e1, hd⟩ := toRgb_default hp (a := { v.defAttr with fccode := 16, bccode := 17 }) (by rw [hr.same]; rfl)
  rw [e1] at e
  change (Vte.scr { v with palette := getPalette v.paletteName v.customPalette, defAttr := d, cattr := d } (.setDefAttr d)
    >>= fun v => v.scr (.eraseScreen false)) = _ at e
  have hcd : Coded d := by
    have h1 : d.fccode = 16 := congrArg Attr.fccode hd.same
    have h2 : d.bccode = 17 := congrArg Attr.bccode hd.same
    exact ⟨by omega, by omega, by omega, by omega, congrArg Attr.protect hd.same⟩
  have h1 : Ok { v with palette := getPalette v.paletteName v.customPalette, defAttr := d, cattr := d } :=
    { h with pal := hp, deff := (congrArg Attr.fccode hd.same : d.fccode = 16), defb := (congrArg Attr.bccode hd.same : d.bccode = 17), defp := congrArg Attr.protect hd.same, cat := hcd }
  have scr_fields : ∀ {u u' : Vte} {c : Screen.Call}, u.scr c = .ok u' → ∃ s, u' = { u with con := s } := by
    intro u u' c hu
    unfold Vte.scr at hu
    cases hcr : c.run u.con with
    | error x => rw [hcr] at hu; cases hu
    | ok s => rw [hcr] at hu; injection hu with hu; exact ⟨s, hu.symm⟩
  cases er : Vte.scr { v with palette := getPalette v.paletteName v.customPalette, defAttr := d, cattr := d } (.setDefAttr d) with
  | error x => rw [er] at e; cases e
  | ok v1 =>
    rw [er] at e
    obtain ⟨s1, rfl⟩ := scr_fields er
    obtain ⟨s2, rfl⟩ := scr_fields e
    exact ⟨rfl, rfl, rfl, rfl, hd⟩

theorem call_coloured {v v' : Vte} (h : Ok v) (hc : Coloured v) {c : Call} (hv : c.Valid) (e : c.run v = .ok v') :
    Coloured v' := by
  have good : ∀ {x : R Vte} {Q : Screen.Call → Prop} {X : Risk}, Good Q X v x → x = .ok v' → Coloured v' :=
    fun hx ex => (SatK.of_ok hx ex).2.coloured hc
  have good2 : ∀ {x : R (Vte × Bool)} {Q : Screen.Call → Prop} {X : Risk}, Good2 Q X v x →
      (do let r ← x; pure r.1 : R Vte) = .ok v' → Coloured v' := by
    intro x Q X hx ex
    cases hxx : x with
    | error y => rw [hxx] at ex; cases ex
    | ok r =>
      rw [hxx] at ex
      injection ex with ex
      subst ex
      exact (SatK.of_ok hx hxx).2.coloured hc
  cases c with
  | input b => exact good (h.input b) e
  | keyboard k a m u => exact good2 (R.SatK.mono (h.keyboard k a m u) (fun _ hk => hk) (fun _ hr => hr.1)) e
  | mouse cx cy px py b ev m => exact good2 (h.mouse cx cy px py b ev m) e
  | reset => exact good (X := risk 0) h.reset e
  | hardReset => exact good (X := risk 0) h.hardReset e
  | setPalette n mem =>
    change v.setPalette n mem = _ at e
    unfold Vte.setPalette at e
    split at e
    · injection e with e; subst e; exact hc
    · obtain ⟨e1, e2, e3, _, e4⟩ := updatePalette_coloured (v := { v with paletteName := n }) { h with } ⟨_, hc.dattr⟩ e
      exact ⟨by rw [e1, e2, e3], e4⟩
  | setCustomPalette p mem =>
    change v.setCustomPalette p mem = _ at e
    unfold Vte.setCustomPalette at e
    split at e
    · injection e with e; subst e; exact hc
    · have h1 : Ok { v with customPalette := p } :=
        { h with
          cpal := by
            intro q hq
            have hq : p = some q := hq
            subst hq
            exact hv }
      obtain ⟨e1, e2, e3, _, e4⟩ := updatePalette_coloured (v := { v with customPalette := p }) h1 ⟨_, hc.dattr⟩ e
      exact ⟨by rw [e1, e2, e3], e4⟩
  | setBsDelete on => injection e with e; subst e; exact ⟨hc.pal, hc.dattr⟩
  | setOscCb on => injection e with e; subst e; exact ⟨hc.pal, hc.dattr⟩
  | setMouseCb on => injection e with e; subst e; exact ⟨hc.pal, hc.dattr⟩
  | screen c =>
    exact good (h.scrAny (Q := fun _ => True) (X := ⟨True, True, True⟩) hv trivial (fun _ _ _ _ _ _ => trivial)
      (fun _ _ _ => trivial)) e

theorem Reachable.coloured {v : Vte} (h : Reachable v) : Coloured v := by
  obtain ⟨s, sg, v0, cs, hs, e0, hv, er⟩ := h
  have h0 : Ok v0 := by
    obtain ⟨v0', e0', h0, _⟩ := new_ok hs.inv sg
    rw [e0] at e0'
    injection e0' with e0'
    subst e0'
    exact h0
  have c0 := new_coloured hs.inv e0
  clear e0
  induction cs generalizing v0 with
  | nil => injection er with er; subst er; exact c0
  | cons c cs ih =>
    unfold Vte.runAll at er
    cases ec : c.run v0 with
    | error x => rw [ec] at er; cases er
    | ok v1 =>
      rw [ec] at er
      have hvc := hv c (List.mem_cons_self ..)
      exact ih v1 (fun d hd => hv d (List.mem_cons_of_mem _ hd)) er (SatK.of_ok (h0.call hvc) ec).1
        (call_coloured h0 c0 hvc ec)

end Vte
end Verif
