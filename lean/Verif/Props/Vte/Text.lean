import Verif.Proofs.Vte.Text
import Verif.Proofs.Vte.Example

/-!
# Text, character sets, OSC strings (C44, C51, C52)
-/

namespace Verif
namespace Vte

/-! ### C51 -/

/-- **C51**: text, shifts and designations. The emulator behaves like the small machine
`Charsets.run` (Spec/Text.lean): its sets, shifts and pending single shift are those of the machine,
and the characters the machine shows are written to the screen one after the other with the current
attributes (colours looked up in the palette). Nothing else happens. If writing is undefined, the
emulator has the same outcome. -/
theorem C51_charsets {v : Vte} (hr : Reachable v) (hs : v.state = .ground) (hb : Between v) {is : List Item}
    (hv : ∀ i ∈ is, i.Valid v) :
    ∃ a, Sgr.Resolved v.palette v.cattr a ∧
      match v.con.runAll (((charsets v).run is).2.map fun k => .write k a) with
      | .ok s => ∃ v', v.input (is.flatMap Item.bytes) = .ok v' ∧ v'.con = s ∧ v'.state = .ground ∧ Between v' ∧
          charsets v' = ((charsets v).run is).1 ∧ (v'.cattr = v.cattr ∨ v'.cattr = a) ∧ SameButText v v'
      | .error e => v.input (is.flatMap Item.bytes) = .error e := by
  have h := hr.ok.1
  obtain ⟨a, ea, ha⟩ := toRgb_resolved h.pal h.cat
  refine ⟨a, ha, ?_⟩
  have key := loop_items is h.more (up_pos v) hs hb.up (a := a) ea (toRgb_again h.pal h.cat ea) (fun i hi => hv i hi)
  unfold Shown at key
  change match v.con.runAll (((charsets v).run is).2.map fun k => .write k a) with | .ok s => _ | .error e => _ at key
  cases e : v.con.runAll (((charsets v).run is).2.map fun k => .write k a) with
  | error x => rw [e] at key; exact input_error key
  | ok s =>
    rw [e] at key
    obtain ⟨w, e1, hc, h1, h2, h3, h4, h5⟩ := key
    refine ⟨w.down, input_ok e1, hc, h1, h2, h3, h4, ?_⟩
    unfold SameButText at h5 ⊢
    rw [h5]
    rfl

/-- SO, `ESC * 0`, SS2 and text: a state with a pending single shift to the line graphics. Then `x`
is shown as a line (U+2502), the next `x` as Á-like upper half character of G1. -/
example : ∃ v, Reachable v ∧ (decide (v.state = .ground ∧ Between v ∧ v.glt = some .g2 ∧ v.g2 = .decSpecial ∧ v.gl = .g1) &&
    gives (v.input [120, 120]) fun v' => decide (v'.con.rowText 0 = [0x2502, 0xf8] ++ List.replicate 78 0)) = true :=
  exists_of_vholds (cs := []) (sg := true) (vs := [.input [14, 27, 42, 48, 27, 78]]) (by decide +kernel)

/-- **C51**: a single shift affects exactly the next character of the lower half; characters that are
not in the lower half neither use it nor end it. -/
theorem C51_single (c : Charsets) {s : Slot} {g g' : Nat} (h : 33 ≤ g ∧ g ≤ 126) (h' : 33 ≤ g' ∧ g' ≤ 126) {is : List Nat}
    (hi : ∀ k ∈ is, k < 33 ∨ 126 < k) :
    (c.run (.single s :: is.map Item.text ++ [.text g, .text g'])).2 =
      (c.run (is.map Item.text)).2 ++
        [(glyph (c.set s) (g - 32)).getD 0, (glyph (c.set c.gl) (g' - 32)).getD 0] := by
  rw [List.cons_append]
  show ([] ++ (({ c with next := some s } : Charsets).run (is.map Item.text ++ [.text g, .text g'])).2) = _
  rw [Charsets.run_append, Charsets.run_upper is hi]
  dsimp only
  rw [List.nil_append]
  congr 1
  simp only [Charsets.run, Charsets.step, if_pos h, if_pos h']
  rfl

/-- The hypotheses of `C51_single` with a no-break space, which is in the upper half. -/
example : ∃ (c : Charsets) (is : List Nat), (∀ k ∈ is, k < 33 ∨ 126 < k) ∧
    (c.run (.single .g2 :: is.map Item.text ++ [.text 97, .text 98])).2 = [0xe9, 0x2592, 98] :=
  ⟨⟨fun | .g2 => .decSpecial | .g1 => .unicodeUpper | _ => .unicodeLower, .g0, .g1, none⟩, [0xe9], by decide, by decide⟩

/-- **C51**: locking shifts affect only characters of their half, and designating a set affects only
characters of a half into which it is shifted. -/
theorem C51_halves (c : Charsets) (g : Nat) :
    (∀ s, ¬ (33 ≤ g ∧ g ≤ 126) → ((c.step (.lockLeft s)).1.step (.text g)).2 = (c.step (.text g)).2) ∧
    (∀ s, ¬ (161 ≤ g ∧ g ≤ 254) → ((c.step (.lockRight s)).1.step (.text g)).2 = (c.step (.text g)).2) ∧
    (∀ s f, (33 ≤ g ∧ g ≤ 126 → s ≠ c.next.getD c.gl) → (161 ≤ g ∧ g ≤ 254 → s ≠ c.gr) →
      ((c.step (.designate s f)).1.step (.text g)).2 = (c.step (.text g)).2) := by
  refine ⟨fun s h => ?_, fun s h => ?_, fun s f h h' => ?_⟩
  · simp only [Charsets.step, if_neg h]
    split <;> rfl
  · simp only [Charsets.step, if_neg h]
    split <;> rfl
  · simp only [Charsets.step]
    split
    · rename_i hg
      rw [if_neg (fun e => h hg e.symm)]
    · split
      · rename_i hg
        rw [if_neg (fun e => h' hg e.symm)]
      · rfl

/-- **C51**: with ASCII in the lower and Latin-1 in the upper half, every printable character is shown
as itself. -/
theorem C51_default (c : Charsets) (h1 : c.set c.gl = .unicodeLower) (h2 : c.set c.gr = .unicodeUpper)
    (h3 : c.next = none) (gs : List Nat) : c.run (gs.map Item.text) = (c, gs) := by
  induction gs with
  | nil => rfl
  | cons g gs ih =>
    have st : c.step (.text g) = (c, [g]) := by
      unfold Charsets.step
      dsimp only
      split
      · rw [h3]
        show (_, [(glyph (c.set c.gl) (g - 32)).getD 0]) = _
        rw [h1, ← h3]
        show (c, [32 + (g - 32)]) = _
        rw [show 32 + (g - 32) = g by omega]
      · split
        · rw [h2]
          show (c, [160 + (g - 160)]) = _
          rw [show 160 + (g - 160) = g by omega]
        · rfl
    rw [List.map_cons]
    unfold Charsets.run
    rw [st]
    dsimp only
    rw [ih]
    rfl

example : ∃ c : Charsets, c.set c.gl = .unicodeLower ∧ c.set c.gr = .unicodeUpper ∧ c.next = none :=
  ⟨⟨fun | .g1 => .unicodeUpper | _ => .unicodeLower, .g0, .g1, none⟩, rfl, rfl, rfl⟩

/-- **C51**: whatever the state and the character, the lookup stays inside of the tables. -/
theorem C51_index {v : Vte} (hr : Reachable v) (g : Nat) : ∃ r, v.map g = .ok r := by
  obtain ⟨t, k, e, _⟩ := map_step hr.ok.1 g
  exact ⟨_, e⟩

/-! ### C52 -/

/-- The character sets are the default ones: ASCII for codes 33 to 126, Latin-1 for codes 161 to
254, and no pending single shift. -/
def DefaultSets (v : Vte) : Prop :=
  (charsets v).set v.gl = .unicodeLower ∧ (charsets v).set v.gr = .unicodeUpper ∧ v.glt = none

/-- **C52**: in the ground state and with the default character sets, the UTF-8 encoding of
characters that are not control characters has the effect of writing these characters to the
screen, with the current attributes (also if that is undefined, see C08). Nothing else happens. -/
theorem C52_same {v : Vte} (hr : Reachable v) (hs : v.state = .ground) (hb : Between v) (hd : DefaultSets v)
    {gs : List Nat} (hg : ∀ g ∈ gs, Typable v g ∧ Graphic g) :
    ∃ a, Sgr.Resolved v.palette v.cattr a ∧
      match v.con.runAll (gs.map fun g => .write g a) with
      | .ok s => ∃ v', v.input (gs.flatMap utf8) = .ok v' ∧ v'.con = s ∧ v'.state = .ground ∧ Between v' ∧
          charsets v' = charsets v ∧ (v'.cattr = v.cattr ∨ v'.cattr = a) ∧ SameButText v v'
      | .error e => v.input (gs.flatMap utf8) = .error e := by
  obtain ⟨a, ha, key⟩ := C51_charsets hr hs hb (is := gs.map Item.text) (by
    intro i hi
    obtain ⟨g, h1, h2⟩ := List.mem_map.1 hi
    subst h2
    exact hg g h1)
  rw [C51_default _ hd.1 hd.2.1 hd.2.2, List.flatMap_map] at key
  exact ⟨a, ha, key⟩

/-- **C52** on screens with at least two columns, where writing is always safe. -/
theorem C52_text {v : Vte} (hr : Reachable v) (hs : v.state = .ground) (hb : Between v) (hd : DefaultSets v)
    (hx : 2 ≤ v.con.sizeX) {gs : List Nat} (hg : ∀ g ∈ gs, Typable v g ∧ Graphic g) :
    ∃ a s v', Sgr.Resolved v.palette v.cattr a ∧ v.con.runAll (gs.map fun g => .write g a) = .ok s ∧
      v.input (gs.flatMap utf8) = .ok v' ∧ v'.con = s ∧ v'.state = .ground ∧ Between v' ∧ charsets v' = charsets v ∧
      (v'.cattr = v.cattr ∨ v'.cattr = a) ∧ SameButText v v' := by
  obtain ⟨a, ha, key⟩ := C52_same hr hs hb hd hg
  obtain ⟨s, es⟩ := writes_ok a gs hr.ok.1.con hx
  rw [es] at key
  obtain ⟨v', e, h1, h2, h3, h4, h5, h6⟩ := key
  exact ⟨a, s, v', ha, es, e, h1, h2, h3, h4, h5, h6⟩

/-- The hypotheses after some output, with red text; `é` and `世` are put into the first cells. -/
example : ∃ v, Reachable v ∧ (decide (v.state = .ground ∧ Between v ∧ (charsets v).set v.gl = .unicodeLower ∧
    (charsets v).set v.gr = .unicodeUpper ∧ v.glt = none ∧ 2 ≤ v.con.sizeX ∧ v.cattr.fccode = 1 ∧
    v.f7bit = false ∧ v.f8bit = false) &&
    gives (v.input ([0xe9, 0x4e16].flatMap utf8)) fun v' =>
      decide (v'.con.rowText 0 = [104, 105, 0xe9, 0x4e16, 0] ∧ v'.con.cursorX = 5)) = true :=
  exists_of_vholds (cs := [.resize 5 3]) (sg := true)
    (vs := [.input [27, 91, 51, 49, 109, 104, 105]]) (by decide +kernel)

/-! ### C44 -/

/-- The start of an OSC string: `ESC ]`, or the C1 control where it can be sent. -/
def OscStart (v : Vte) (bs : List UInt8) : Prop := bs = [27, 93] ∨ (bs = utf8 0x9d ∧ Typable v 0x9d)

/-- The end of an OSC string: BEL, `ESC \`, or ST where it can be sent. -/
def OscStop (v : Vte) (bs : List UInt8) : Prop := bs = [7] ∨ bs = [27, 92] ∨ (bs = utf8 0x9c ∧ Typable v 0x9c)

/-- **C44**, what happens to an OSC string of any length: it is delivered exactly once (if there is
a callback), with the characters that `oscText` keeps; nothing is printed and nothing else changes. -/
theorem C44_delivered_partial {v : Vte} (hr : Reachable v) (hb : Between v) {gs : List Nat}
    (hg : ∀ g ∈ gs, Typable v g ∧ Payload g) {st tm : List UInt8} (hst : OscStart v st) (htm : OscStop v tm) :
    ∃ v', v.input (st ++ gs.flatMap utf8 ++ tm) = .ok v' ∧ v'.state = .ground ∧
      Effect v v' v.con (if v.oscCb then [.osc (oscText gs)] else []) := by
  have h := hr.ok.1
  obtain ⟨m, hm, e1⟩ : ∃ m, Btw v.flags m ∧ ∀ bs, v.up.inputLoop (st ++ bs) = (inOsc v.up [] m).inputLoop bs := by
    rcases hst with e | ⟨e, ht⟩
    · subst e
      exact osc_esc h.more hb.up
    · subst e
      obtain ⟨m, hm, e⟩ := osc_c1 h.more hb.up ht
      refine ⟨m, hm, fun bs => ?_⟩
      rw [inputLoop_append, e]
      rfl
  obtain ⟨m', hm', e2⟩ := osc_chars (v := v.up) gs (s := []) (by decide) hm hg
  have hl := oscText_from gs [] (by decide)
  have e3 : ∃ w, (inOsc v.up (oscText gs) m').inputLoop tm = .ok w ∧ w.state = .ground ∧
      SameButParser { v.up with log := v.up.log ++ v.up.pendingOsc ++ oscEvents v.up (oscText gs) } w := by
    rcases htm with e | e | ⟨e, ht⟩
    · subst e; exact osc_bel h.more hl hm'
    · subst e; exact osc_escape h.more hl hm'
    · subst e; exact osc_st h.more hl hm' ht
  obtain ⟨w, e3, h1, h2⟩ := e3
  refine ⟨w.down, ?_, h1, ?_⟩
  · apply input_ok
    rw [List.append_assoc, e1, e2]
    exact e3
  · unfold Effect SameButParser at *
    rw [h2]
    rfl

/-- **C44** (partial): a string of printable characters of at most 127 bytes is delivered exactly once,
with exactly its bytes. What is missing: control characters in the string are dropped, see
`C44_false`; and the string has to start between two UTF-8 characters. -/
theorem C44_exact_partial {v : Vte} (hr : Reachable v) (hb : Between v) {gs : List Nat}
    (hg : ∀ g ∈ gs, Typable v g ∧ Graphic g) (hl : (gs.flatMap utf8).length ≤ 127) {st tm : List UInt8}
    (hst : OscStart v st) (htm : OscStop v tm) :
    ∃ v', v.input (st ++ gs.flatMap utf8 ++ tm) = .ok v' ∧ v'.state = .ground ∧
      Effect v v' v.con (if v.oscCb then [.osc (gs.flatMap utf8)] else []) := by
  have := C44_delivered_partial hr hb (gs := gs) (fun g h => ⟨(hg g h).1, by
    have := (hg g h).2
    unfold Graphic at this
    unfold Payload
    omega⟩) hst htm
  have e : oscText gs = gs.flatMap utf8 := by
    unfold oscText
    rw [oscText_exact gs [] (fun g h => (hg g h).2.1) (by simpa using hl)]
    rfl
  rw [e] at this
  exact this

/-- **C44**: what is delivered never has more than 127 bytes, and consists of characters of the
string, each of them complete and in the same order. -/
theorem C44_bounded (gs : List Nat) :
    (oscText gs).length ≤ 127 ∧ ∃ l : List Nat, l.Sublist gs ∧ oscText gs = l.flatMap utf8 := by
  refine ⟨oscText_from gs [] (by decide), ?_⟩
  obtain ⟨l, h1, h2⟩ := oscText_sub gs []
  exact ⟨l, h1, by unfold oscText; rw [h2]; rfl⟩

/-- **C44**: a long ASCII string is cut after 127 bytes. -/
theorem C44_cut (gs : List Nat) (hg : ∀ g ∈ gs, 0x20 ≤ g ∧ g < 128) :
    oscText gs = (gs.map UInt8.ofNat).take 127 := by
  unfold oscText
  rw [oscText_ascii gs [] (by decide) hg]
  rfl

example : ∃ gs : List Nat, (∀ g ∈ gs, 0x20 ≤ g ∧ g < 128) ∧ 127 < gs.length :=
  ⟨List.replicate 200 65, by decide +kernel, by decide +kernel⟩

/-- Other long strings are not simply cut: characters that do not fit are skipped, but later ones
that do are still appended. -/
theorem C44_not_a_prefix : ∃ gs : List Nat, (∀ g ∈ gs, Graphic g ∧ Spec.Utf8.Encodable g) ∧
    ¬ oscText gs <+: gs.flatMap utf8 :=
  ⟨List.replicate 126 65 ++ [0xe9, 66], by unfold Graphic Spec.Utf8.Encodable; decide +kernel, by decide +kernel⟩

/-- A terminal with a callback, in UTF-8 mode and in the middle of a CSI sequence: it gets the title
`é`, with the C1 controls as start and end. -/
example : ∃ v, Reachable v ∧ (decide (v.oscCb = true ∧ v.state = .csiParam ∧ Between v ∧ v.f7bit = false ∧ v.f8bit = false) &&
    gives (v.input (utf8 0x9d ++ ([0x32, 0x3b, 0xe9].flatMap utf8) ++ utf8 0x9c)) fun v' =>
      decide (v'.log = v.log ++ [.osc [0x32, 0x3b, 0xc3, 0xa9]])) = true :=
  exists_of_vholds (cs := []) (sg := true) (vs := [.setOscCb true, .input [27, 91, 51]]) (by decide +kernel)

/-- The claim for all strings that do not contain one of the characters that end a string. -/
def C44_claim : Prop :=
  ∀ v, Reachable v → Between v → ∀ gs : List Nat, (∀ g ∈ gs, Typable v g ∧ Payload g) →
    (gs.flatMap utf8).length ≤ 127 →
    ∃ v', v.input ([27, 93] ++ gs.flatMap utf8 ++ [7]) = .ok v' ∧
      Effect v v' v.con (if v.oscCb then [.osc (gs.flatMap utf8)] else [])

/-- **C44 is false** as stated: a line feed in the string is dropped. -/
theorem C44_false : ¬ C44_claim := by
  intro h
  obtain ⟨v, hr, hv⟩ := exists_of_vholds (cs := []) (sg := true) (vs := [.setOscCb true])
    (P := fun v => decide (Between v) && decide (v.oscCb = true) && decide (v.log = []) && decide (v.state = .ground) &&
      gives (v.input ([27, 93] ++ [65, 10, 66].flatMap utf8 ++ [7])) fun v' => decide (v'.log = [.osc [65, 66]]))
    (by decide +kernel)
  simp only [Bool.and_eq_true, decide_eq_true_eq] at hv
  obtain ⟨⟨⟨⟨hb, hcb⟩, hl⟩, hst⟩, hv⟩ := hv
  obtain ⟨v', e, he⟩ := h v hr hb [65, 10, 66] (by
    intro g hg
    simp only [List.mem_cons, List.not_mem_nil, or_false] at hg
    unfold Typable Payload
    omega) (by decide)
  obtain ⟨w, ew, hw⟩ := of_gives hv
  rw [ew] at e
  injection e with e
  subst e
  have hw := of_decide_eq_true hw
  unfold Effect SameButParser at he
  have hlog : w.log = v.log ++ v.pendingOsc ++ [.osc ([65, 10, 66].flatMap utf8)] := by
    rw [he, hcb]; rfl
  rw [hl, pendingOsc_ground hst, hw] at hlog
  revert hlog
  decide

end Vte
end Verif
