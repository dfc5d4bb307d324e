import Verif.Proofs.Vte.Modes
import Verif.Proofs.Vte.Example

/-!
# Modes and identification

C79 modes, C80 device attributes.
-/

namespace Verif.Props.Vte

open Verif Verif.Vte

/-! ### C79 -/

/-- **C79.** `CSI Ps ; … ; Ps h` and `l`, and the same with `?`, set and reset the listed modes: a bit of the
modes of the emulator has the new value if it belongs to one of the first 16 listed modes and its old value
otherwise, the screen is told about the modes that concern it, in the order of the list, and nothing else
happens. Modes that are not implemented are skipped. The modes of the mouse and those that store the cursor are
treated elsewhere (`C79_cursor`, C54, C59). -/
theorem C79_modes {v : Vte} (h : Reachable v) (hb : Between v) {qs : List (List UInt8)} (h0 : qs ≠ [])
    (hd : ∀ q ∈ qs, ∀ d ∈ q, IsDigit d) (dec set : Bool) (ho : dec = true → ∀ q ∈ qs, number q ∉ otherModes) :
    let bs := 27 :: 91 :: ((if dec then [63] else []) ++ (joined qs ++ [if set then 104 else 108]))
    let ns := (qs.take 16).map number
    match Screen.runAll (ns.flatMap (modeCalls dec set)) v.con with
    | .ok s => ∃ v', v.input bs = .ok v' ∧ v'.state = .ground ∧
        SameButParser { v with con := s, log := v.log ++ v.pendingOsc, flags := v'.flags } v' ∧
        ∀ i, i < 32 → v'.flags.getLsbD i = if ∃ n ∈ ns, modeBit dec n = some i then set else v.flags.getLsbD i
    | .error e => v.input bs = .error e := by
  intro bs ns
  have hb1 : 0x40 ≤ (if set then 104 else 108 : UInt8).toNat := by cases set <;> decide
  have hb2 : (if set then 104 else 108 : UInt8).toNat ≤ 0x7e := by cases set <;> decide
  have run : ∀ w : Vte, w.csiRun (csiKind (if set then 104 else 108 : UInt8).toNat) = w.mode set := by
    intro w
    cases set <;> rfl
  have key : ∃ (m : Utf8.Mach) (st : PState) (fl : BitVec 32), fl.getLsbD 2 = dec ∧
      v.input bs = ((inSeq v.up st (min 16 qs.length) (padded (qs.map value)) fl m).mode set >>=
        fun v' => pure { v' with state := .ground }.down) := by
    cases dec with
    | false =>
      obtain ⟨m, st, hm, e⟩ := input_csi h.ok.1 hb h0 hd hb1 hb2
      exact ⟨m, st, 0, by decide, e.trans (by rw [run])⟩
    | true =>
      obtain ⟨m, hm, e⟩ := input_csi_marked h.ok.1 hb (p := 63) (by decide) (by decide) h0 hd hb1 hb2
      exact ⟨m, .csiParam, collectFlag (63 : UInt8).toNat, by decide, e.trans (by rw [run])⟩
  obtain ⟨m, st, fl, hfl, e⟩ := key
  have args : ∀ i ∈ List.range (min 16 qs.length), ∃ a,
      (inSeq v.up st (min 16 qs.length) (padded (qs.map value)) fl m).arg i = .ok a ∧
      WrittenAs (number (qs[i]?.getD [])) a ∧ (dec = true → number (qs[i]?.getD []) ∉ otherModes) := by
    intro i hi
    rw [List.mem_range] at hi
    have hlt : i < qs.length := by omega
    refine ⟨value qs[i], ?_, ?_, ?_⟩
    · rw [arg_inSeq (by omega), List.getElem?_map, List.getElem?_eq_getElem hlt]
      rfl
    · rw [List.getElem?_eq_getElem hlt]
      exact writtenAs (hd _ (List.getElem_mem hlt))
    · rw [List.getElem?_eq_getElem hlt]
      exact fun hh => ho hh _ (List.getElem_mem hlt)
  obtain ⟨fl', f1, f2⟩ := modeLoop_plain dec set (fun i => number (qs[i]?.getD [])) (List.range (min 16 qs.length))
    (inSeq v.up st (min 16 qs.length) (padded (qs.map value)) fl m) h.ok.1.inh hfl args
  have hns : (List.range (min 16 qs.length)).map (fun i => number (qs[i]?.getD [])) = ns := by
    apply List.ext_getElem?
    intro i
    show _ = ((qs.take 16).map number)[i]?
    rw [List.getElem?_map, List.getElem?_map, List.getElem?_take]
    by_cases hi : i < min 16 qs.length
    · rw [List.getElem?_range hi, if_pos (by omega), Option.map_some, List.getElem?_eq_getElem (by omega)]
      rfl
    · rw [List.getElem?_eq_none (by rw [List.length_range]; omega)]
      by_cases h16 : i < 16
      · rw [if_pos h16, List.getElem?_eq_none (by omega)]
        rfl
      · rw [if_neg h16]
        rfl
  have hc : (List.range (min 16 qs.length)).flatMap (fun i => modeCalls dec set (number (qs[i]?.getD []))) =
      ns.flatMap (modeCalls dec set) := by
    rw [← hns, List.flatMap_map]
  have he : ∀ i, (∃ k ∈ List.range (min 16 qs.length), modeBit dec (number (qs[k]?.getD [])) = some i) ↔
      ∃ n ∈ ns, modeBit dec n = some i := by
    intro i
    rw [← hns]
    constructor
    · intro ⟨k, hk, hk'⟩
      exact ⟨_, List.mem_map.2 ⟨k, hk, rfl⟩, hk'⟩
    · intro ⟨n, hn, hn'⟩
      obtain ⟨k, hk, rfl⟩ := List.mem_map.1 hn
      exact ⟨k, hk, hn'⟩
  rw [hc] at f2
  change modeLoop set _ _ = (Screen.runAll (ns.flatMap (modeCalls dec set)) v.con >>= _) at f2
  have e' : v.input bs = (modeLoop set (inSeq v.up st (min 16 qs.length) (padded (qs.map value)) fl m)
      (List.range (min 16 qs.length)) >>= fun v' => pure { v' with state := .ground }.down) := e
  rw [f2] at e'
  cases hr : Screen.runAll (ns.flatMap (modeCalls dec set)) v.con with
  | error ub =>
    rw [hr] at e'
    exact e'
  | ok s =>
    rw [hr] at e'
    refine ⟨_, e', rfl, rfl, ?_⟩
    intro i hi
    have := f1 i hi
    simp only [he] at this
    exact this

/-- Witness: `CSI ? 6 ; 99 ; 1 h` from within an OSC string switches origin mode and application cursor keys on;
`CSI 4 ; 4 h` switches insert mode on. -/
example : ∃ v, Reachable v ∧ (decide (Between v) && decide (v.state = .oscString) && !v.flags.getLsbD 0 &&
    !v.flags.getLsbD 11 && !v.con.flags.getLsbD 2 && !v.con.flags.getLsbD 0 &&
    decide (modeBit true (number [54]) = some 11 ∧ modeBit true (number [57, 57]) = none) &&
    gives (v.input (27 :: 91 :: 63 :: (joined [[54], [57, 57], [49]] ++ [104])))
      (fun v' => v'.flags.getLsbD 0 && v'.flags.getLsbD 11 && v'.con.flags.getLsbD 2) &&
    gives (v.input (27 :: 91 :: (joined [[52], [52]] ++ [104]))) (fun v' => v'.con.flags.getLsbD 0)) = true :=
  exists_of_vholds (cs := [.resize 5 3]) (sg := true) (vs := [.input [27, 93, 48]]) (by decide +kernel)

/-- **C79.** What the modes mean to keyboard and parser: application cursor keys are private mode 1, origin mode 6,
auto wrap 7; local echo is off if mode 12 is set, and Return and line feed are those of mode 20. The keypad and the
7-bit and 8-bit modes are not modes of this kind. -/
theorem C79_meaning {v : Vte} (h : Reachable v) (hb : Between v) {qs : List (List UInt8)} (h0 : qs ≠ [])
    (hd : ∀ q ∈ qs, ∀ d ∈ q, IsDigit d) {dec set : Bool} (ho : dec = true → ∀ q ∈ qs, number q ∉ otherModes)
    {v' : Vte} (e : v.input (27 :: 91 :: ((if dec then [63] else []) ++ (joined qs ++ [if set then 104 else 108]))) = .ok v') :
    let listed (d : Bool) (n : Nat) (old : Bool) : Bool := if dec = d ∧ n ∈ (qs.take 16).map number then set else old
    v'.fCursorKey = listed true 1 v.fCursorKey ∧ v'.fOrigin = listed true 6 v.fOrigin ∧
      v'.fWrap = listed true 7 v.fWrap ∧ v'.fNoEcho = listed false 12 v.fNoEcho ∧
      v'.fNewline = listed false 20 v.fNewline ∧
      v'.fKeypad = v.fKeypad ∧ v'.f7bit = v.f7bit ∧ v'.f8bit = v.f8bit ∧ v'.fBce = v.fBce := by
  intro listed
  have key := C79_modes h hb h0 hd dec set ho
  dsimp only at key
  split at key
  · obtain ⟨w, e', _, _, hf⟩ := key
    rw [e] at e'
    injection e' with e'
    subst e'
    have bit : ∀ (d : Bool) (n k : Nat), k < 32 → (∀ d' n', modeBit d' n' = some k ↔ d' = d ∧ n' = n) →
        v'.flags.getLsbD k = listed d n (v.flags.getLsbD k) := by
      intro d n k hk hm
      rw [hf k hk]
      show _ = if _ then _ else _
      have : (∃ n ∈ (qs.take 16).map number, modeBit dec n = some k) ↔ dec = d ∧ n ∈ (qs.take 16).map number := by
        constructor
        · intro ⟨n', h1, h2⟩
          have := (hm _ _).1 h2
          exact ⟨this.1, this.2 ▸ h1⟩
        · intro ⟨h1, h2⟩
          exact ⟨n, h2, (hm _ _).2 ⟨h1, rfl⟩⟩
      by_cases hc : dec = d ∧ n ∈ (qs.take 16).map number
      · rw [if_pos hc, if_pos (this.2 hc)]
      · rw [if_neg hc, if_neg (fun hh => hc (this.1 hh))]
    have keep : ∀ (k : Nat), k < 32 → (∀ d' n', modeBit d' n' ≠ some k) → v'.flags.getLsbD k = v.flags.getLsbD k := by
      intro k hk hm
      rw [hf k hk, if_neg]
      intro ⟨n, _, h2⟩
      exact hm _ _ h2
    refine ⟨bit true 1 0 (by decide) ?_, bit true 6 11 (by decide) ?_, bit true 7 12 (by decide) ?_,
      bit false 12 8 (by decide) ?_, bit false 20 2 (by decide) ?_, keep 1 (by decide) ?_, keep 4 (by decide) ?_,
      keep 3 (by decide) ?_, keep 15 (by decide) ?_⟩ <;> intro d' n' <;> simp [modeBit_iff]
  · rename_i x hx
    rw [e] at key
    cases key

/-- Witness: `CSI 12 l` switches local echo on, `CSI 20 h` makes Return send CR LF. -/
example : ∃ v, Reachable v ∧ (decide (Between v) && v.fNoEcho && !v.fNewline &&
    gives (v.input (27 :: 91 :: (joined [[49, 50]] ++ [108]))) (fun v' => !v'.fNoEcho) &&
    gives (v.input (27 :: 91 :: (joined [[50, 48]] ++ [104]))) (fun v' => v'.fNewline)) = true :=
  exists_of_vholds (cs := [.resize 5 3]) (sg := true) (vs := [.input [65]]) (by decide +kernel)

/-- **C79.** Mode 1048: setting it stores the position of the cursor, resetting it moves the cursor to the stored
position. -/
theorem C79_cursor {v : Vte} (h : Reachable v) (hb : Between v) {q : List UInt8} (hq : ∀ d ∈ q, IsDigit d)
    (hn : number q = 1048) :
    (∃ v', v.input (27 :: 91 :: 63 :: (q ++ [104])) = .ok v' ∧ v'.state = .ground ∧
      SameButParser { v with log := v.log ++ v.pendingOsc, altX := v.con.cursorX, altY := v.con.cursorY } v') ∧
    Does v (v.input (27 :: 91 :: 63 :: (q ++ [108]))) [.moveTo v.altX v.altY] [] := by
  have hq' : ∀ r ∈ [q], ∀ d ∈ r, IsDigit d := by
    intro r hr; rw [List.mem_singleton] at hr; subst hr; exact hq
  have hv : value q = 1048 := by
    rcases value_cases hq (by omega) with ⟨_, h1⟩ | h1
    · omega
    · rw [h1, hn]; rfl
  have run : ∀ (set : Bool) (m : Utf8.Mach), (inSeq v.up .csiParam (min 16 1) (padded [value q]) (collectFlag (63 : UInt8).toNat) m).mode set =
      (inSeq v.up .csiParam (min 16 1) (padded [value q]) (collectFlag (63 : UInt8).toNat) m).mode1048 set := by
    intro set m
    have a0 := arg_inSeq (v := v.up) (st := .csiParam) (n := min 16 1) (l := [value q]) (fl := collectFlag (63 : UInt8).toNat) (m := m)
      (i := 0) (by omega)
    change Vte.arg _ 0 = .ok (value q) at a0
    have hw : (inSeq v.up .csiParam (min 16 1) (padded [value q]) (collectFlag (63 : UInt8).toNat) m).cWhat = true :=
      show (collectFlag (63 : UInt8).toNat).getLsbD 2 = true by decide
    show (Vte.modeOne _ set 0 >>= fun v => .ok v) = _
    unfold Vte.modeOne
    rw [a0, hw, hv]
    show ((Vte.mode1048 _ set) >>= fun v => .ok v) = _
    cases Vte.mode1048 _ set <;> rfl
  refine ⟨?_, ?_⟩
  · obtain ⟨m, hm, e⟩ := input_csi_marked h.ok.1 hb (p := 63) (by decide) (by decide) (qs := [q])
      (List.cons_ne_nil _ _) hq' (b := 104) (by decide) (by decide)
    change v.input (27 :: 91 :: 63 :: (q ++ [104])) = (Vte.mode (inSeq v.up .csiParam (min 16 1) (padded [value q])
      (collectFlag (63 : UInt8).toNat) m) true >>= _) at e
    have r := run true m
    unfold Vte.mode1048 at r
    rw [if_neg (by intro hh; exact absurd (hh.symm.trans h.ok.1.inh) (by decide)), if_pos rfl] at r
    rw [r] at e
    exact ⟨_, e, rfl, rfl⟩
  · obtain ⟨m, hm, e⟩ := input_csi_marked h.ok.1 hb (p := 63) (by decide) (by decide) (qs := [q])
      (List.cons_ne_nil _ _) hq' (b := 108) (by decide) (by decide)
    change v.input (27 :: 91 :: 63 :: (q ++ [108])) = (Vte.mode (inSeq v.up .csiParam (min 16 1) (padded [value q])
      (collectFlag (63 : UInt8).toNat) m) false >>= _) at e
    have r := run false m
    unfold Vte.mode1048 at r
    rw [if_neg (by intro hh; exact absurd (hh.symm.trans h.ok.1.inh) (by decide)), if_neg (by decide)] at r
    rw [r] at e
    exact does_one (Read.inSeq (v := v)) e

/-- Witness: the cursor returns to row 2 and column 3. -/
example : ∃ v, Reachable v ∧ (decide (Between v) && decide (v.con.cursorX = 2 ∧ v.con.cursorY = 1) &&
    decide (number [49, 48, 52, 56] = 1048) &&
    gives (v.input [27, 91, 63, 49, 48, 52, 56, 104, 65, 66, 27, 91, 72, 27, 91, 63, 49, 48, 52, 56, 108])
      (fun v' => decide (v'.con.cursorX = 2 ∧ v'.con.cursorY = 1))) = true :=
  exists_of_vholds (cs := [.resize 5 3]) (sg := true) (vs := [.input [27, 91, 50, 59, 51, 72]]) (by decide +kernel)

/-- **C79.** `ESC =` and `ESC >` switch the application keypad on and off and do nothing else. -/
theorem C79_keypad {v : Vte} (h : Reachable v) (hb : Between v) (set : Bool) :
    ∃ v', v.input [27, if set then 61 else 62] = .ok v' ∧ v'.state = .ground ∧
      SameButParser { v with log := v.log ++ v.pendingOsc, flags := v'.flags } v' ∧
      v'.fKeypad = set ∧ ∀ i, i < 32 → v'.flags.getLsbD i = if i = 1 then set else v.flags.getLsbD i := by
  obtain ⟨m, hm, e⟩ := input_esc h.ok.1 hb (b := if set then 61 else 62) (by cases set <;> decide)
    (by cases set <;> decide) (by cases set <;> (unfold Introducer; decide))
  have run : (inSeq v.up .esc 0 noArgs 0 m).escPlain (if set then 61 else 62 : UInt8).toNat =
      .ok ((inSeq v.up .esc 0 noArgs 0 m).setFlag set 1) := by
    cases set <;> rfl
  rw [run] at e
  refine ⟨_, e, rfl, rfl, ?_, ?_⟩
  · exact (flag_setFlag (inSeq v.up .esc 0 noArgs 0 m) set (k := 1) (j := 1) (by decide)).trans (if_pos rfl)
  intro i hi
  refine (flag_setFlag (inSeq v.up .esc 0 noArgs 0 m) set (k := 1) hi).trans ?_
  by_cases h1 : i = 1
  · rw [if_pos h1, if_pos h1.symm]
  · rw [if_neg h1, if_neg (fun hh => h1 hh.symm)]
    rfl

/-- Witness. -/
example : ∃ v, Reachable v ∧ (decide (Between v) && !v.flags.getLsbD 1 && v.flags.getLsbD 12 &&
    gives (v.input [27, 61]) (fun v' => v'.flags.getLsbD 1 && v'.flags.getLsbD 12)) = true :=
  exists_of_vholds (cs := [.resize 5 3]) (sg := true) (vs := [.input [65]]) (by decide +kernel)

/-! ### C80 -/

/-- The answer to a request for the primary device attributes: `ESC [ ? 60 ; 1 ; 6 ; 9 ; 15 c`. -/
def identity : List UInt8 := 27 :: ("[?60;1;6;9;15c".toList.map fun c => UInt8.ofNat c.toNat)

/-- The answer to a request for the secondary device attributes: `ESC [ > 1 ; 1 ; 0 c`. -/
def version : List UInt8 := 27 :: ("[>1;1;0c".toList.map fun c => UInt8.ofNat c.toNat)

/-- **C80.** `CSI c`, `CSI 0 c` and `ESC Z` are answered with the identity of the terminal, `CSI > c` and
`CSI > 0 c` with its version; with any other number, or with the mark `?`, nothing is sent. Nothing else happens in
any case. -/
theorem C80_identity {v : Vte} (h : Reachable v) (hb : Between v) {q : List UInt8} (hq : ∀ d ∈ q, IsDigit d) :
    Does v (v.input [27, 90]) [] [.write identity] ∧
    Does v (v.input (27 :: 91 :: (q ++ [99]))) [] (if number q = 0 then [.write identity] else []) ∧
    Does v (v.input (27 :: 91 :: 62 :: (q ++ [99]))) [] (if number q = 0 then [.write version] else []) ∧
    Does v (v.input (27 :: 91 :: 63 :: (q ++ [99]))) [] [] := by
  have hq' : ∀ r ∈ [q], ∀ d ∈ r, IsDigit d := by
    intro r hr; rw [List.mem_singleton] at hr; subst hr; exact hq
  have hp : v.up.fPrepend = false := h.all.2.2
  have hval : value q ≤ 0 ↔ number q = 0 := by
    rcases writtenAs hq with ⟨h1, h2⟩ | h1 | ⟨h1, h2⟩ <;> omega
  have da : ∀ (st : PState) (fl : BitVec 32) (m : Utf8.Mach) (x : R Vte) (b : List UInt8),
      (fl = 0 ∧ b = identity ∨ fl = 8 ∧ b = version) →
      x = ((inSeq v.up st (min 16 1) (padded [value q]) fl m).devAttr >>= fun v' => pure { v' with state := .ground }.down) →
      Does v x [] (if number q = 0 then [.write b] else []) := by
    intro st fl m x b hfl e
    have a0 := arg_inSeq (v := v.up) (st := st) (n := min 16 1) (l := [value q]) (fl := fl) (m := m) (i := 0) (by omega)
    change Vte.arg _ 0 = .ok (value q) at a0
    by_cases h0 : number q = 0
    · rw [devAttr_asked (Nat.le_refl 1) a0 (hval.2 h0)] at e
      rw [if_pos h0]
      have r := fun b => reply_ok (v := inSeq v.up st (min 16 1) (padded [value q]) fl m) (up_pos v) hp b
      refine does_none (Read.inSeq (st := st) (n := min 16 1) (l := padded [value q]) (fl := fl) (m := m)) ?_
      rw [← r b, e]
      rcases hfl with ⟨h1, h2⟩ | ⟨h1, h2⟩ <;> subst h1 <;> subst h2
      · rfl
      · have n0 : ¬ (inSeq v.up st (min 16 1) (padded [value q]) 8 m).csiFlags = 0 :=
          show ¬ (8 : BitVec 32) = 0 by decide
        have n1 : (inSeq v.up st (min 16 1) (padded [value q]) 8 m).cGt = true :=
          show (8 : BitVec 32).getLsbD 3 = true by decide
        rw [if_neg n0, if_pos n1]
        rfl
    · rw [devAttr_other a0 (fun hh => h0 (hval.1 hh))] at e
      rw [if_neg h0]
      refine does_none (Read.inSeq (st := st) (n := min 16 1) (l := padded [value q]) (fl := fl) (m := m)) ?_
      rw [log_nil]
      exact e
  refine ⟨?_, ?_, ?_, ?_⟩
  · obtain ⟨m, hm, e⟩ := input_esc h.ok.1 hb (b := 90) (by decide) (by decide) (by unfold Introducer; decide)
    refine does_none (Read.inSeq (st := .esc) (n := 0) (l := noArgs) (fl := 0) (m := m)) ?_
    rw [← reply_ok (v := inSeq v.up .esc 0 noArgs 0 m) (up_pos v) hp identity]
    exact e
  · obtain ⟨m, st, hm, e⟩ := input_csi h.ok.1 hb (qs := [q]) (List.cons_ne_nil _ _) hq' (b := 99) (by decide) (by decide)
    exact da st 0 m _ _ (Or.inl ⟨rfl, rfl⟩) e
  · obtain ⟨m, hm, e⟩ := input_csi_marked h.ok.1 hb (p := 62) (by decide) (by decide) (qs := [q])
      (List.cons_ne_nil _ _) hq' (b := 99) (by decide) (by decide)
    exact da .csiParam 8 m _ _ (Or.inr ⟨rfl, rfl⟩) e
  · obtain ⟨m, hm, e⟩ := input_csi_marked h.ok.1 hb (p := 63) (by decide) (by decide) (qs := [q])
      (List.cons_ne_nil _ _) hq' (b := 99) (by decide) (by decide)
    change _ = (Vte.devAttr (inSeq v.up .csiParam (min 16 1) (padded [value q]) 4 m) >>= _) at e
    have a0 := arg_inSeq (v := v.up) (st := .csiParam) (n := min 16 1) (l := [value q]) (fl := 4) (m := m) (i := 0) (by omega)
    change Vte.arg _ 0 = .ok (value q) at a0
    refine does_none (Read.inSeq (st := .csiParam) (n := min 16 1) (l := padded [value q]) (fl := 4) (m := m)) ?_
    rw [log_nil]
    refine Eq.trans e ?_
    by_cases h0 : value q ≤ 0
    · rw [devAttr_asked (Nat.le_refl 1) a0 h0]
      have n0 : ¬ (inSeq v.up .csiParam (min 16 1) (padded [value q]) 4 m).csiFlags = 0 :=
        show ¬ (4 : BitVec 32) = 0 by decide
      have n1 : ¬ (inSeq v.up .csiParam (min 16 1) (padded [value q]) 4 m).cGt = true :=
        show ¬ (4 : BitVec 32).getLsbD 3 = true by decide
      rw [if_neg n0, if_neg n1]
    · rw [devAttr_other a0 h0]

/-- Witness: from within a control sequence; `CSI 0 c` is answered, `CSI 1 c` is not. -/
example : ∃ v, Reachable v ∧ (decide (Between v) && decide (v.state = .csiParam) && decide (number [48] = 0) &&
    gives (v.input [27, 91, 48, 99]) (fun v' => decide (v'.log = [.write identity])) &&
    gives (v.input [27, 91, 62, 99]) (fun v' => decide (v'.log = [.write version])) &&
    gives (v.input [27, 91, 49, 99]) (fun v' => decide (v'.log = []))) = true :=
  exists_of_vholds (cs := [.resize 5 3]) (sg := true) (vs := [.input [27, 91, 55]]) (by decide +kernel)

end Verif.Props.Vte
