import Verif.Proofs.Vte.Sgr
import Verif.Proofs.Vte.Example
import Verif.Spec.Palettes

/-!
# Properties of attributes and palettes

C45 SGR, C60 palettes.
-/

namespace Verif.Props.Vte

open Verif Verif.Vte

/-! ### C45 -/

/-- The claim with the meaning of parameters given by `Sgr.attributes`, for all lists of
parameters. -/
def C45_claim : Prop :=
  ∀ (v : Vte), Reachable v → Between v → ∀ (qs : List (List UInt8)), qs ≠ [] → (∀ q ∈ qs, ∀ d ∈ q, IsDigit d) →
    ∃ v', v.input (27 :: 91 :: (joined qs ++ [109])) = .ok v' ∧
      Sgr.Resolved v.palette (Sgr.attributes v.defAttr v.cattr (sgrParams qs)) v'.cattr

/-- **C45 is false** for 16 parameters of which the last is 38 (or 48): the following parameter is
read beyond the end of the array. -/
theorem C45_false : ¬ C45_claim := by
  have : ∃ v, Reachable v ∧ (decide (Between v) &&
      fails (v.input (27 :: 91 :: (joined (List.replicate 15 [49] ++ [[51, 56]]) ++ [109]))) .csiArg) = true :=
    exists_of_vholds (cs := [.resize 4 2]) (sg := true) (vs := []) (by decide +kernel)
  obtain ⟨v, hv, hf⟩ := this
  rw [Bool.and_eq_true, decide_eq_true_eq] at hf
  intro hc
  obtain ⟨v', e, _⟩ := hc v hv hf.1 (List.replicate 15 [49] ++ [[51, 56]]) (by decide) (by
    intro q hq d hd
    have hq : q = [49] ∨ q = [51, 56] := by
      rcases List.mem_append.1 hq with hq | hq
      · exact Or.inl (List.eq_of_mem_replicate hq)
      · exact Or.inr (List.mem_singleton.1 hq)
    unfold IsDigit
    rcases hq with hq | hq <;> subst hq
    · rw [List.mem_singleton] at hd; subst hd; decide
    · rcases List.mem_cons.1 hd with hd | hd
      · subst hd; decide
      · rw [List.mem_singleton] at hd; subst hd; decide)
  rw [of_fails hf.2] at e
  cases e

/-- **C45** (`_partial`: the 16th parameter is not 38 or 48, and the sequence starts between
characters). `ESC [ p1 ; … ; pn m` changes the current attributes as the specification
`Sgr.attributes` says, with the RGB values of the palette entries filled in, all of which exist.
In background colour erase mode the attributes are passed to the screen. Nothing else
changes. -/
theorem C45_sgr_partial {v : Vte} (h : Reachable v) (hb : Between v) {qs : List (List UInt8)} (hq : qs ≠ [])
    (hd : ∀ q ∈ qs, ∀ d ∈ q, IsDigit d) (hx : ∀ q, qs[15]? = some q → number q ≠ 38 ∧ number q ≠ 48) :
    ∃ v' b, v.input (27 :: 91 :: (joined qs ++ [109])) = .ok v' ∧ v'.state = .ground ∧
      Sgr.Resolved v.palette (Sgr.attributes v.defAttr v.cattr (sgrParams qs)) b ∧
      Effect { v with cattr := b } v' { v.con with defAttr := if v.fBce then b else v.con.defAttr } [] := by
  refine sgr_input h.ok.1 hb hq hd ?_
  intro q hget
  have hdq := hd q (List.mem_of_getElem? hget)
  have := hx q hget
  by_cases h0 : q = []
  · subst h0
    exact ⟨by decide, by decide⟩
  · rcases value_number hdq h0 with h1 | h1 <;> omega

/-- Witness: `1 ; 38 ; 5 ; 9 ; 48 ; 2 ; 1 ; 2 ; 300 ; 4 ; 97 ; 24` in the middle of another
sequence, on a terminal with blinking text. -/
example : ∃ v, Reachable v ∧ (decide (Between v) && decide (v.cattr.blink = true) &&
    gives (v.input (27 :: 91 :: (joined [[49], [51, 56], [53], [57], [52, 56], [50], [49], [50], [51, 48, 48], [52], [50, 52]] ++ [109])))
      (fun v' => decide (v'.cattr = { Attr.zero with
        fccode := 9, bccode := -1, fr := 255, fg := 0, fb := 0, br := 1, bg := 2, bb := 44, bold := true, blink := true }) &&
        decide (v'.con.defAttr = v'.cattr))) = true :=
  exists_of_vholds (cs := [.resize 5 3]) (sg := true) (vs := [.input [27, 91, 53, 109, 27, 91, 55]]) (by decide +kernel)

/-- **C45.** After every history the colour codes of the current, the saved and the default
attributes are -1 (an RGB colour) or one of the 18 entries of the palette. -/
theorem C45_codes {v : Vte} (h : Reachable v) : v.palette.length = 18 ∧
    ∀ a, a = v.cattr ∨ a = v.saved.cattr ∨ a = v.defAttr →
      -1 ≤ a.fccode ∧ a.fccode ≤ 17 ∧ -1 ≤ a.bccode ∧ a.bccode ≤ 17 := by
  have h := h.ok.1
  refine ⟨h.pal, ?_⟩
  intro a ha
  rcases ha with ha | ha | ha <;> subst ha
  · exact ⟨h.cat.f0, h.cat.f1, h.cat.b0, h.cat.b1⟩
  · exact ⟨h.sav.f0, h.sav.f1, h.sav.b0, h.sav.b1⟩
  · rw [h.deff, h.defb]
    decide

/-- **C45.** `ESC [ m` and `ESC [ 0 m` restore the default attributes. -/
theorem C45_reset {v : Vte} (h : Reachable v) (hb : Between v) {q : List UInt8} (hq : q = [] ∨ q = [48]) :
    ∃ v', v.input (27 :: 91 :: (q ++ [109])) = .ok v' ∧ v'.cattr = v.defAttr := by
  have hd : ∀ d ∈ q, IsDigit d := by
    intro d hd
    rcases hq with hq | hq <;> subst hq
    · cases hd
    · rw [List.mem_singleton] at hd; subst hd; unfold IsDigit; decide
  obtain ⟨v', b, e, _, hr, he⟩ := C45_sgr_partial h hb (qs := [q]) (List.cons_ne_nil _ _)
    (by intro r hr; rw [List.mem_singleton] at hr; subst hr; exact hd) (by intro r hr; cases hr)
  refine ⟨v', e, ?_⟩
  have hp : sgrParams [q] = [0] := by rcases hq with hq | hq <;> subst hq <;> rfl
  rw [hp] at hr
  have hc : v'.cattr = b := congrArg Vte.cattr he
  rw [hc]
  have hdef := h.coloured.dattr
  have f16 : v.defAttr.fccode = 16 := congrArg Attr.fccode hdef.same
  have b17 : v.defAttr.bccode = 17 := congrArg Attr.bccode hdef.same
  have g1 : Sgr.attributes v.defAttr v.cattr [0] = v.defAttr := by
    show Sgr.plain v.defAttr v.cattr 0 = _
    have hpr := h.ok.1.cat.pr
    rw [show v.defAttr = { v.defAttr with bold := false, italic := false, underline := false, inverse := false, blink := false, protect := false } by
      rw [hdef.same]; rfl]
    unfold Sgr.plain
    rw [hpr]
    rfl
  rw [g1] at hr
  have hf := hr.fore (by show (0 : Int) ≤ v.defAttr.fccode; omega)
  have hf' := hdef.fore (by decide)
  have hbk := hr.back (by show (0 : Int) ≤ v.defAttr.bccode; omega)
  have hbk' := hdef.back (by decide)
  have hfe : Sgr.foreEntry v.defAttr = 16 := by
    unfold Sgr.foreEntry
    rw [if_neg (by omega), f16]
  rw [hfe] at hf
  change v.palette[v.defAttr.bccode.toNat]? = _ at hbk
  rw [b17] at hbk
  change v.palette[16]? = _ at hf'
  change v.palette[16]? = _ at hf
  change v.palette[17]? = _ at hbk'
  change v.palette[17]? = _ at hbk
  rw [hf'] at hf
  rw [hbk'] at hbk
  injection hf with hf
  injection hbk with hbk
  injection hf with hf1 hf2
  injection hf2 with hf2 hf3
  injection hbk with hb1 hb2
  injection hb2 with hb2 hb3
  rw [hr.same, ← hf1, ← hf2, ← hf3, ← hb1, ← hb2, ← hb3]

/-- Witness: red, bold and inverse. -/
example : ∃ v, Reachable v ∧ (decide (Between v) && decide (v.cattr.bold = true) && decide (v.cattr.inverse = true) &&
    decide (v.cattr ≠ v.defAttr)) = true :=
  exists_of_vholds (cs := [.resize 5 3]) (sg := true)
    (vs := [.input [27, 91, 49, 59, 55, 59, 51, 49, 109]]) (by decide +kernel)

/-- **C45 disagrees with ECMA-48** for omitted parameters, whose value should be the default 0:
`ESC [ ; m` keeps bold. (Only a sequence without any parameter resets.) -/
theorem C45_false_omitted :
    ∃ v v', Reachable v ∧ Between v ∧ v.cattr.bold = true ∧ v.input [27, 91, 59, 109] = .ok v' ∧ v'.cattr.bold = true := by
  have : ∃ v, Reachable v ∧ (decide (Between v) && decide (v.cattr.bold = true) &&
      gives (v.input [27, 91, 59, 109]) (fun v' => decide (v'.cattr.bold = true))) = true :=
    exists_of_vholds (cs := [.resize 5 3]) (sg := true) (vs := [.input [27, 91, 49, 109]]) (by decide +kernel)
  obtain ⟨v, hv, hf⟩ := this
  simp only [Bool.and_eq_true, decide_eq_true_eq] at hf
  obtain ⟨v', e, h⟩ := of_gives hf.2
  exact ⟨v, v', hv, hf.1.1, hf.1.2, e, of_decide_eq_true h⟩

/-! ### C60 -/

/-- The names and the palettes they select. -/
def palettes : List (String × Palette) :=
  [("solarized", paletteSolarized), ("solarized-black", paletteSolarizedBlack),
    ("solarized-white", paletteSolarizedWhite), ("soft-black", paletteSoftBlack),
    ("base16-dark", paletteBase16Dark), ("base16-light", paletteBase16Light), ("vga", paletteVga),
    ("legacy", paletteLegacy)]

/-- `p` is the palette selected by `name`; `custom` is the custom palette of the user. -/
def Selects (name : Option String) (custom : Option Palette) (p : Palette) : Prop :=
  (∀ n, name = some n → ∀ q, (n, q) ∈ palettes → p = q) ∧
  (name = some "custom" → p = custom.getD paletteLegacy) ∧
  ((∀ n, name = some n → n ≠ "custom" ∧ ∀ q, (n, q) ∉ palettes) → p = paletteLegacy)

theorem getPalette_selects (name : Option String) (custom : Option Palette) :
    Selects name custom (getPalette name custom) := by
  cases name with
  | none =>
    refine ⟨(by intro n h; cases h), (by intro h; cases h), fun _ => rfl⟩
  | some n =>
    refine ⟨?_, ?_, ?_⟩
    · intro n' hn q hq
      injection hn with hn
      subst hn
      unfold palettes at hq
      simp only [List.mem_cons, List.not_mem_nil, or_false, Prod.mk.injEq] at hq
      rcases hq with ⟨h, h'⟩ | ⟨h, h'⟩ | ⟨h, h'⟩ | ⟨h, h'⟩ | ⟨h, h'⟩ | ⟨h, h'⟩ | ⟨h, h'⟩ | ⟨h, h'⟩ <;>
        · subst h; subst h'; rfl
    · intro hn
      injection hn with hn
      subst hn
      unfold getPalette
      cases custom <;> rfl
    · intro h
      obtain ⟨hc, hq⟩ := h n rfl
      unfold getPalette
      simp only [if_neg hc]
      have ne : ∀ {m : String} {q : Palette}, (m, q) ∈ palettes → ¬ n = m := by
        intro m q hm hn
        subst hn
        exact hq q hm
      rw [if_neg (ne (q := paletteSolarized) (by simp [palettes])), if_neg (ne (q := paletteSolarizedBlack) (by simp [palettes])),
        if_neg (ne (q := paletteSolarizedWhite) (by simp [palettes])), if_neg (ne (q := paletteSoftBlack) (by simp [palettes])),
        if_neg (ne (q := paletteBase16Dark) (by simp [palettes])), if_neg (ne (q := paletteBase16Light) (by simp [palettes])),
        if_neg (ne (q := paletteVga) (by simp [palettes])), if_neg (ne (q := paletteLegacy) (by simp [palettes]))]

/-- **C60.** After every history the palette in use is the one selected by name, it has 18
entries, the default attributes are its entries 16 and 17 without any flag, and converting any of
the attributes of the emulator reads existing entries. -/
theorem C60_palette {v : Vte} (h : Reachable v) : Selects v.paletteName v.customPalette v.palette ∧
    v.palette.length = 18 ∧
    Sgr.Resolved v.palette { Attr.zero with fccode := 16, bccode := 17 } v.defAttr ∧
    ∀ a, a = v.cattr ∨ a = v.saved.cattr ∨ a = v.defAttr → ∃ b, toRgb v.palette a = .ok b ∧ Sgr.Resolved v.palette a b := by
  refine ⟨?_, h.ok.1.pal, h.coloured.dattr, ?_⟩
  · rw [h.coloured.pal]
    exact getPalette_selects _ _
  · intro a ha
    have := (C45_codes h).2 a ha
    have hp : a.protect = false := by
      rcases ha with ha | ha | ha <;> subst ha
      · exact h.ok.1.cat.pr
      · exact h.ok.1.sav.pr
      · exact h.ok.1.defp
    exact toRgb_resolved h.ok.1.pal ⟨this.1, this.2.1, this.2.2.1, this.2.2.2, hp⟩

/-- **C60.** Selecting a palette by name succeeds, installs the palette of that name (the default
one if the name is not known) and sets the current attributes to the new default colours. If
memory is short nothing changes. -/
theorem C60_select {v : Vte} (h : Reachable v) (name : Option String) :
    (∃ v', v.setPalette name true = .ok v' ∧ Reachable v' ∧ Selects name v.customPalette v'.palette ∧
      v'.cattr = v'.defAttr) ∧
    (name ≠ none → v.setPalette name false = .ok v) := by
  constructor
  · have h1 : Ok { v with paletteName := name } := { h.ok.1 with }
    have e0 : v.setPalette name true = ({ v with paletteName := name } : Vte).updatePalette := by
      unfold Vte.setPalette
      rw [if_neg (by intro hh; cases hh.2)]
    have hs := h1.updatePalette (X := ⟨False, False, False⟩)
    cases e : ({ v with paletteName := name } : Vte).updatePalette with
    | error x =>
      rw [e] at hs
      rcases hs with ⟨_, hh⟩ | ⟨_, hh⟩ | ⟨_, hh⟩ <;> exact hh.elim
    | ok v' =>
      obtain ⟨e1, _, _, e4, _⟩ := updatePalette_coloured h1 ⟨_, h.coloured.dattr⟩ e
      refine ⟨v', by rw [e0, e], h.step (c := .setPalette name true) trivial (by show v.setPalette name true = _; rw [e0, e]), ?_, e4⟩
      rw [e1]
      exact getPalette_selects _ _
  · intro hn
    unfold Vte.setPalette
    cases name with
    | none => exact absurd rfl hn
    | some n => rfl

/-- Witness: a palette selected before, another one now. -/
example : ∃ v, Reachable v ∧ (decide (v.palette = paletteVga) &&
    gives (v.setPalette (some "soft-black") true) (fun v' => decide (v'.palette = paletteSoftBlack)) &&
    gives (v.setPalette (some "custom") true) (fun v' => decide (v'.palette = List.replicate 18 (1, 2, 3)))) = true :=
  exists_of_vholds (cs := [.resize 2 2]) (sg := true)
    (vs := [.setCustomPalette (some (List.replicate 18 (1, 2, 3))) true, .setPalette (some "vga") true]) (by decide +kernel)

theorem palettes_named : palettes = Spec.Palettes.named := by decide +kernel

/-- **C60**, the colours: under each name there is, after any history, the palette published under that name, and so the colours
shown for SGR 30-37, 90-97 and the default ones are the published ones (with `C60_palette` and C45). -/
theorem C60_colours {v : Vte} (h : Reachable v) {n : String} {p : Palette} (hn : v.paletteName = some n)
    (hp : (n, p) ∈ Spec.Palettes.named) : v.palette = p :=
  (C60_palette h).1.1 n hn p (palettes_named ▸ hp)

/-- The colours of a VGA: light red has all of red and a third of the others; the default background is black. -/
example : ∃ v, Reachable v ∧ v.paletteName = some "vga" ∧ v.palette[9]? = some (255, 85, 85) ∧ v.palette[17]? = some (0, 0, 0) := by
  obtain ⟨v, h, hp⟩ := exists_of_vholds (cs := [.resize 2 2]) (sg := true) (vs := [.setPalette (some "vga") true])
    (P := fun v => decide (v.paletteName = some "vga")) (by decide +kernel)
  have hp := of_decide_eq_true hp
  have hc := C60_colours h (p := Spec.Palettes.with_ ((List.range 16).map Spec.Palettes.vga) 0xaaaaaa 0x000000) hp (by
    simp [Spec.Palettes.named])
  refine ⟨v, h, hp, ?_⟩
  rw [hc]
  decide

/-- **C60.** Setting the custom palette keeps the selection by name, and shows at once if it is "custom"; removing it always
succeeds, and if memory is short nothing changes. -/
theorem C60_custom {v : Vte} (h : Reachable v) (p : Option Palette) (hl : ∀ q, p = some q → q.length = 18) (mem : Bool) :
    if p ≠ none ∧ mem = false then v.setCustomPalette p mem = .ok v
    else ∃ v', v.setCustomPalette p mem = .ok v' ∧ Reachable v' ∧ v'.paletteName = v.paletteName ∧ v'.customPalette = p ∧
      Selects v.paletteName p v'.palette ∧ v'.cattr = v'.defAttr := by
  split
  · rename_i hc
    unfold Vte.setCustomPalette
    rw [if_pos ⟨(by cases p with | none => exact absurd rfl hc.1 | some q => rfl), hc.2⟩]
  · rename_i hc
    have h1 : Ok { v with customPalette := p } := { h.ok.1 with cpal := hl }
    have e0 : v.setCustomPalette p mem = ({ v with customPalette := p } : Vte).updatePalette := by
      unfold Vte.setCustomPalette
      rw [if_neg (by rintro ⟨hh, hm⟩; exact hc ⟨(by rintro rfl; cases hh), hm⟩)]
    have hs := h1.updatePalette (X := ⟨False, False, False⟩)
    cases e : ({ v with customPalette := p } : Vte).updatePalette with
    | error x =>
      rw [e] at hs
      rcases hs with ⟨_, hh⟩ | ⟨_, hh⟩ | ⟨_, hh⟩ <;> exact hh.elim
    | ok v' =>
      obtain ⟨e1, e2, e3, e4, _⟩ := updatePalette_coloured h1 ⟨_, h.coloured.dattr⟩ e
      refine ⟨v', by rw [e0, e], h.step (c := .setCustomPalette p mem) ?_ (by show v.setCustomPalette p mem = _; rw [e0, e]),
        e2, e3, ?_, e4⟩
      · cases p with
        | none => trivial
        | some q => exact hl q rfl
      · rw [e1]
        exact getPalette_selects _ _

end Verif.Props.Vte
