import Verif.Proofs.Vte.Stream
import Verif.Proofs.Vte.Example
import Verif.Props.Wcwidth

/-!
# Properties of the input of the terminal emulator

C39 chunking, C40 memory safety, C43 resynchronisation, C50 no recursion, C53 7-bit and 8-bit
modes.
-/

namespace Verif.Props.Vte

open Verif Verif.Vte

/-! ### C39 -/

/-- **C39.** Feeding a byte stream in any chunks has the same outcome as feeding it at once:
the same screen, the same replies and callbacks, the same state of decoder and parser. -/
theorem C39_chunking {v : Vte} (h : Reachable v) (chunks : List (List UInt8)) :
    chunks.foldlM (fun v c => v.input c) v = v.input chunks.flatten := by
  have key : ∀ (chunks : List (List UInt8)) {v : Vte}, Vte.Ok v →
      chunks.foldlM (fun v c => v.input c) v = v.input chunks.flatten := by
    intro chunks
    induction chunks with
    | nil =>
      intro v _
      show Except.ok v = Except.ok v.up.down
      rw [down_up]
    | cons c cs ih =>
      intro v h
      rw [List.foldlM_cons, List.flatten_cons, input_append h]
      have hg := h.input c
      cases hc : v.input c with
      | error e => rfl
      | ok v1 =>
        rw [hc] at hg
        exact ih hg.1
  exact key chunks h.ok.1

/-- Witness: the sequence `ESC [ 2 ; 3 H` followed by `é`, cut inside the control sequence and
inside the character, on a terminal that is already inside a control sequence. -/
example : ∃ v, Reachable v ∧ (decide (v.state = .csiParam) && gives
    ([[27, 91, 50], [59, 51, 72, 0xc3], [0xa9]].foldlM (fun v c => v.input c) v)
    (fun v' => decide (v'.con.cursorX = 3) && decide (v'.con.cursorY = 1) && decide (v'.con.rowText 1 = [0, 0, 0xe9, 0, 0])))
    = true :=
  exists_of_vholds (cs := [.resize 5 3]) (sg := true) (vs := [.input [27, 91, 55]]) (by decide +kernel)

/-! ### C40 -/

/-- The claim as stated: no byte stream makes the emulator access memory out of bounds. -/
def C40_claim : Prop := ∀ (v : Vte), Reachable v → ∀ (bs : List UInt8) (e : UB), v.input bs ≠ .error e

/-- **C40 is false.** If the 16th parameter of an SGR sequence is 38, `csi_argv[16]` is read. -/
theorem C40_false : ¬ C40_claim := by
  have : ∃ v, Reachable v ∧ fails (v.input ([27, 91] ++ List.replicate 15 59 ++ [51, 56, 109])) .csiArg = true :=
    exists_of_vholds (cs := []) (sg := true) (vs := []) (by decide +kernel)
  obtain ⟨v, hv, hf⟩ := this
  exact fun hc => hc v hv _ _ (of_fails hf)

/-- **C40 is false**, second witness: a wide character in the last column, then a back tab. -/
theorem C40_false_tab : ¬ C40_claim := by
  have : ∃ v, Reachable v ∧
      fails (v.input [27, 91, 56, 48, 71, 0xe4, 0xb8, 0xad, 27, 91, 90]) .oobTab = true :=
    exists_of_vholds (cs := []) (sg := true) (vs := []) (by decide +kernel)
  obtain ⟨v, hv, hf⟩ := this
  exact fun hc => hc v hv _ _ (of_fails hf)

/-- **C40 is false**, third witness: a wide character in insert mode on a screen of width 1. -/
theorem C40_false_insert : ¬ C40_claim := by
  have : ∃ v, Reachable v ∧ fails (v.input [27, 91, 52, 104, 0xe4, 0xb8, 0xad]) .insertMove = true :=
    exists_of_vholds (cs := []) (sg := true) (vs := [.screen (.resize 1 5)]) (by decide +kernel)
  obtain ⟨v, hv, hf⟩ := this
  exact fun hc => hc v hv _ _ (of_fails hf)

/-- The parser is inside a control sequence that a final character executes. -/
def InCsi (v : Vte) : Prop := v.state = .csiEntry ∨ v.state = .csiParam ∨ v.state = .csiInt

/-- The three situations in which a character is not safe: a wide character in insert mode on a screen of one
column, a back tab from right of the screen, and a colour at the end of sixteen parameters. -/
def Danger (v : Vte) (raw : Nat) (e : UB) : Prop :=
  (e = .insertMove ∧ v.state = .ground ∧ v.con.sizeX = 1 ∧ v.con.fInsert = true ∧ Spec.Wcwidth.width raw = 2) ∨
  (e = .oobTab ∧ InCsi v ∧ raw = 0x5a ∧ v.con.sizeX < v.con.cursorX) ∨
  (e = .csiArg ∧ InCsi v ∧ raw = 0x6d ∧ 15 ≤ v.argc ∧ (v.argv[15]? = some 38 ∨ v.argv[15]? = some 48))

/-- The indices of the parser are within their arrays. -/
def InBounds (v : Vte) : Prop :=
  v.argc ≤ 16 ∧ v.argv.length = 16 ∧ v.oscLen < 128 ∧ v.oscArg.length = 128 ∧ v.state ≠ .none

theorem wide_raw {raw : Nat} (h : Screen.symWidth (symbolMake raw) = .ok 2) : Spec.Wcwidth.width raw = 2 := by
  unfold symbolMake Screen.symWidth Screen.UCS4_MAX at h
  split at h
  · exact absurd h (by decide +kernel)
  · rw [if_pos (by omega), Props.Wcwidth.C05_width_spec raw (by omega)] at h
    injection h

/-- **C40, as far as it is true** (`_partial`: the claim excludes every invalid access; here the
three that exist are the only ones, and it is stated when they can happen). Every byte
stream in every reachable state is processed completely and leaves a reachable state with all
indices within bounds, or it has a byte that completes a character in one of the three
situations of `Danger`. -/
theorem C40_input_safe_partial {v : Vte} (h : Reachable v) (bs : List UInt8) :
    (∃ v', v.input bs = .ok v' ∧ Reachable v' ∧ InBounds v') ∨
    (∃ p b rest v1 raw e, bs = p ++ b :: rest ∧ v.input p = .ok v1 ∧ v1.rawOf b = some raw ∧ Danger v1 raw e ∧
      v.input bs = .error e) := by
  cases hb : v.up.inputLoop bs with
  | ok v1 =>
    refine Or.inl ⟨_, input_ok hb, ?_, ?_⟩
    · exact h.step (c := .input bs) trivial (input_ok hb)
    · have h1 := (h.ok.1.more.loop (up_pos _) hb).1
      exact ⟨h1.argc, h1.argl, Nat.lt_succ_of_le h1.osc, h1.oscl, h1.st⟩
  | error e =>
    obtain ⟨p, b, rest, v1, e1, e2, e3⟩ := loop_cause bs hb
    have h1 := h.ok.1.more.loop (up_pos _) e2
    have hp : 0 < v1.parseCnt := by rw [h1.2.pc]; exact up_pos v
    obtain ⟨raw, hr, hk⟩ := h1.1.byteCause hp e3
    refine Or.inr ⟨p, b, rest, _, raw, e, e1, input_ok e2, hr, ?_, input_error hb⟩
    rcases hk with ⟨hk, hd, hp1, hp2, hp3⟩ | ⟨hk, hd, ht1, ht2⟩ | ⟨hk, hd, hs1, hs2⟩
    · exact Or.inl ⟨hk, (print_state hd).1, hp1, hp2, wide_raw hp3⟩
    · exact Or.inr (Or.inl ⟨hk, csiDispatch_state hd, ht1, ht2⟩)
    · exact Or.inr (Or.inr ⟨hk, csiDispatch_state hd, hs1, hs2⟩)

/-- **C40, for a simple class of streams** (`_partial`): bytes below 128 other than `Z` and `m`
are safe on every screen, in every state and mode. -/
theorem C40_ascii_partial {v : Vte} (h : Reachable v) {bs : List UInt8}
    (hb : ∀ b ∈ bs, b.toNat < 128 ∧ b.toNat ≠ 0x5a ∧ b.toNat ≠ 0x6d) :
    ∃ v', v.input bs = .ok v' ∧ Reachable v' := by
  rcases C40_input_safe_partial h bs with ⟨v', e, hr, _⟩ | ⟨p, b, rest, v1, raw, e, e1, e2, hr, hd, _⟩
  · exact ⟨v', e, hr⟩
  · exfalso
    have hbb := hb b (by rw [e1]; simp)
    have hraw : raw = b.toNat ∨ raw = 0xfffd := by
      unfold Vte.rawOf at hr
      split at hr
      · injection hr with hr
        rw [and7f hbb.1] at hr
        exact Or.inl hr.symm
      · split at hr
        · injection hr with hr
          rw [conv_ascii _ hbb.1] at hr
          exact Or.inl hr.symm
        · split at hr
          · injection hr with hr
            by_cases hm : v1.mach.state = .start ∨ v1.mach.state = .accept ∨ v1.mach.state = .reject
            · rw [feed_ascii _ hbb.1 hm] at hr
              exact Or.inl hr.symm
            · right
              have hc := conv_ascii v1.sg hbb.1
              have : (Utf8.feed v1.sg v1.mach b).state = .reject := by
                have h7 : ∀ n : Fin 128, n.val &&& 0xC0 ≠ 0x80 := by decide
                have h7' := h7 ⟨b.toNat, hbb.1⟩
                dsimp only at h7'
                unfold Utf8.feed
                dsimp only
                rw [hc]
                cases hst : v1.mach.state with
                | start => exact absurd (Or.inl hst) hm
                | accept => exact absurd (Or.inr (Or.inl hst)) hm
                | reject => exact absurd (Or.inr (Or.inr hst)) hm
                | expect1 => dsimp only; rw [if_neg h7']
                | expect2 => dsimp only; rw [if_neg h7']
                | expect3 => dsimp only; rw [if_neg h7']
              unfold Utf8.get at hr
              rw [this] at hr
              exact hr.symm
          · cases hr
    rcases hd with ⟨_, _, _, _, hd⟩ | ⟨_, _, hd, _⟩ | ⟨_, _, hd, _⟩
    · rcases hraw with hr' | hr'
      · have : ∀ n : Fin 128, Spec.Wcwidth.width n.val ≠ 2 := by decide +kernel
        exact this ⟨b.toNat, hbb.1⟩ (hr' ▸ hd)
      · rw [hr'] at hd
        exact absurd hd (by decide +kernel)
    · omega
    · omega

/-- Witness: `ESC [ 4 h A B` in 8-bit mode, after an unfinished OSC string. -/
example : ∃ v, Reachable v ∧ (v.f8bit && decide (v.state = .oscString) &&
    gives (v.input [27, 91, 52, 104, 65, 66]) (fun v' => decide (v'.con.rowText 0 = [65, 66, 0, 0, 0]))) = true :=
  exists_of_vholds (cs := [.resize 5 3]) (sg := true)
    (vs := [.input [27, 91, 54, 50, 34, 112, 27, 93, 48]]) (by decide +kernel)

/-! ### C43 -/

/-- The claim as stated, for the emulator: from every state CAN and SUB return to the ground
state and print nothing. -/
def C43_claim : Prop :=
  ∀ (v : Vte), Reachable v → ∀ b : UInt8, b = 0x18 ∨ b = 0x1a →
    ∃ v', v.input [b] = .ok v' ∧ v'.state = .ground ∧ v'.con.view = v.con.view

/-- **C43 is false.** SUB prints an inverted question mark. -/
theorem C43_false : ¬ C43_claim := by
  have : ∃ v, Reachable v ∧ gives (v.input [0x1a]) (fun v' => decide (v.con.cursorX ≠ v'.con.cursorX)) = true :=
    exists_of_vholds (cs := [.resize 5 3]) (sg := true) (vs := []) (by decide +kernel)
  obtain ⟨v, hv, hf⟩ := this
  obtain ⟨v1, e1, hx⟩ := of_gives hf
  intro hc
  obtain ⟨v', e, _, hview⟩ := hc v hv 0x1a (Or.inr rfl)
  rw [e1] at e
  injection e with e
  subst e
  exact (of_decide_eq_true hx) (congrArg View.cursorX hview).symm

/-- **C43 is false**, second witness: inside an unfinished UTF-8 character CAN is swallowed as a
part of the malformed character, and the control sequence stays open. -/
theorem C43_false_utf8 : ¬ C43_claim := by
  have : ∃ v, Reachable v ∧ gives (v.input [0x18]) (fun v' => decide (v'.state = .csiIgnore)) = true :=
    exists_of_vholds (cs := [.resize 5 3]) (sg := true) (vs := [.input [27, 91, 0xc3]]) (by decide +kernel)
  obtain ⟨v, hv, hf⟩ := this
  obtain ⟨v1, e1, hx⟩ := of_gives hf
  intro hc
  obtain ⟨v', e, hs, _⟩ := hc v hv 0x18 (Or.inl rfl)
  rw [e1] at e
  injection e with e
  subst e
  rw [of_decide_eq_true hx] at hs
  cases hs

/-- **C43, CAN** (`_partial`: between characters only). From every state of the parser CAN
returns to the ground state. Nothing is printed and no mode is changed; the only effect beyond
decoder and parser is that an OSC string being collected is delivered. -/
theorem C43_can_partial {v : Vte} (h : Reachable v) (hb : Between v) :
    ∃ v', v.input [0x18] = .ok v' ∧ v'.state = .ground ∧
      SameButParser { v with log := v.log ++ v.pendingOsc } v' := by
  obtain ⟨m, a, _, e⟩ := can_ok h.ok.1.more hb.up
  rw [← inputLoop_one] at e
  refine ⟨_, input_ok e, rfl, ?_⟩
  unfold Vte.down Vte.up SameButParser
  dsimp only
  rw [Nat.add_sub_cancel]
  rfl

/-- **C43, SUB** (`_partial`: it prints, see `C43_false`). From every state of the parser SUB
returns to the ground state. -/
theorem C43_sub_partial {v v' : Vte} (hb : Between v) (e : v.input [0x1a] = .ok v') :
    v'.state = .ground := by
  obtain ⟨v1, e1, hd⟩ := of_input e
  rw [inputLoop_one] at e1
  obtain ⟨m, hm, e2⟩ := inputByte_ascii hb.up (b := 0x1a) (by decide)
  rw [e2] at e1
  rw [hd]
  have : v1.state = .ground := trans_state (st := .ground) (a := .execute) (by decide) e1
  exact this

/-- **C43, ESC** (`_partial`: between characters only). From every state of the parser ESC starts
a fresh sequence: all parameters and intermediate characters of the old one are discarded, and
the screen and all modes are as before. -/
theorem C43_esc_partial {v : Vte} (h : Reachable v) (hb : Between v) :
    ∃ v', v.input [0x1b] = .ok v' ∧ v'.state = .esc ∧ v'.argc = 0 ∧ (∀ a ∈ v'.argv, a = -1) ∧ v'.csiFlags = 0 ∧
      v'.oscLen = 0 ∧ SameButParser { v with log := v.log ++ v.pendingOsc } v' := by
  obtain ⟨m, hm, e⟩ := esc_ok h.ok.1.more hb.up
  rw [← inputLoop_one] at e
  refine ⟨_, input_ok e, rfl, rfl, ?_, rfl, rfl, ?_⟩
  · intro a ha
    exact List.eq_of_mem_replicate ha
  · unfold Vte.down inSeq Vte.up SameButParser
    dsimp only
    rw [Nat.add_sub_cancel]
    rfl

/-- **C43, states.** Whatever is fed, the parser is in one of its declared states. -/
theorem C43_state_partial {v v' : Vte} (h : Reachable v) {bs : List UInt8} (e : v.input bs = .ok v') :
    v'.state ≠ .none :=
  (h.step (c := .input bs) trivial e).ok.1.st

/-- Witness: inside an OSC string with parameters collected before; the string is delivered. -/
example : ∃ v, Reachable v ∧ (decide (Between v) && decide (v.state = .oscString) &&
    decide (v.pendingOsc = [.osc [48, 59, 97]])) = true :=
  exists_of_vholds (cs := [.resize 5 3]) (sg := true)
    (vs := [.setOscCb true, .input [27, 93, 48, 59, 97]]) (by decide +kernel)

/-! ### C50 -/

/-- **C50.** No call re-enters input processing: no reply made while parsing takes the branch
of `vte_write` that feeds the bytes to the parser (outcome `reenter`). After every call the
nesting counter is as it was (zero), and no escape prefix is pending. -/
theorem C50_no_recursion {v : Vte} (h : Reachable v) {c : Vte.Call} (hv : c.Valid) :
    c.run v ≠ .error .reenter ∧ ∀ v', c.run v = .ok v' → v'.parseCnt = 0 ∧ v'.fPrepend = false := by
  refine ⟨?_, ?_⟩
  · intro e
    have := h.ok.1.call hv
    rw [e] at this
    rcases this with h | h | h <;> cases h
  · intro v' e
    exact (h.step hv e).all.2

/-- **C50.** With local echo on (SRM reset), bytes written outside of input processing are
handled as if they had been received, once, and then sent, once. -/
theorem C50_echo {v : Vte} (h : Reachable v) (he : v.fNoEcho = false) (b : List UInt8) :
    v.write b = (v.input b >>= fun v' => pure (v'.send b)) := by
  obtain ⟨_, h1, h2⟩ := h.all
  unfold Vte.write Vte.echo Vte.echoEsc
  rw [if_pos ⟨h1, he⟩, if_neg (by rw [h2]; decide)]
  rfl

/-- **C50.** Without local echo, writing bytes changes nothing but what has been sent. -/
theorem C50_no_echo {v : Vte} (h : Reachable v) (he : v.fNoEcho = true) (b : List UInt8) :
    v.write b = .ok { v with log := v.log ++ [.write b] } := by
  obtain ⟨_, h1, h2⟩ := h.all
  unfold Vte.write Vte.echo
  rw [if_neg (by rw [he]; intro hh; cases hh.2)]
  show Except.ok (v.send b) = _
  have hf : v.flags &&& ~~~ (BitVec.twoPow 32 16) = v.flags := by
    apply BitVec.eq_of_getLsbD_eq
    intro i hi
    rw [BitVec.getLsbD_and, BitVec.getLsbD_not, BitVec.getLsbD_twoPow]
    by_cases hj : i = 16
    · subst hj
      rw [show v.flags.getLsbD 16 = false from h2]; rfl
    · have : ¬ (16 = i) := fun h => hj h.symm
      simp [hi, this]
  unfold Vte.send
  rw [if_neg (by rw [h2]; decide)]
  show Except.ok { v with log := v.log ++ [Event.write b], flags := v.flags &&& ~~~ (BitVec.twoPow 32 16) } = _
  rw [hf]

/-- Witness: with local echo, a key whose echo is a device status request; the answer is sent
before the key, and both once. -/
example : ∃ v, Reachable v ∧ (!v.fNoEcho && gives (v.write [27, 91, 53, 110])
    (fun v' => decide (v'.log = [.write [27, 91, 48, 110], .write [27, 91, 53, 110]]))) = true :=
  exists_of_vholds (cs := [.resize 5 3]) (sg := true) (vs := [.input [27, 91, 49, 50, 108]]) (by decide +kernel)

/-! ### C53 -/

/-- The mode bit `k` stays set while the bytes are processed. -/
def Stays (k : Nat) (v : Vte) (bs : List UInt8) : Prop :=
  ∀ p rest v1, bs = p ++ rest → v.inputLoop p = .ok v1 → v1.flags.getLsbD k = true

/-- The characters `rs` handled one by one by the parser, without any decoder. -/
def parseAll (v : Vte) (rs : List Nat) : R Vte := rs.foldlM (fun v r => v.parse r) v

theorem parse_stays {k : Nat} {f : UInt8 → Nat} (hf : ∀ (v : Vte) (b : UInt8), v.flags.getLsbD k = true →
    v.inputByte b = v.parse (f b)) : ∀ (bs : List UInt8) (v : Vte), Stays k v bs →
    v.inputLoop bs = parseAll v (bs.map f) := by
  intro bs
  induction bs with
  | nil => intro v _; rfl
  | cons b bs ih =>
    intro v hs
    have h0 := hs [] (b :: bs) v rfl rfl
    rw [inputLoop_cons]
    unfold parseAll
    rw [List.map_cons, List.foldlM_cons, ← hf v b h0]
    cases hb : v.inputByte b with
    | error e => rfl
    | ok v1 =>
      exact ih v1 fun p rest v2 e1 e2 => hs (b :: p) rest v2 (by rw [e1]; rfl) (by rw [inputLoop_ok hb]; exact e2)

/-- **C53, 7-bit mode.** As long as 7-bit mode is on, every byte is handled as the character
with the code of the byte without its top bit. -/
theorem C53_seven_bit (v : Vte) (bs : List UInt8) (hs : Stays 4 v bs) :
    v.inputLoop bs = parseAll v (bs.map fun b => b.toNat % 128) := by
  apply parse_stays ?_ bs v hs
  intro v b h
  unfold Vte.inputByte
  rw [if_pos h]
  congr 1
  exact Nat.and_two_pow_sub_one_eq_mod _ 7

/-- **C53, 8-bit mode, unsigned `char`.** As long as 8-bit mode is on and 7-bit mode off, every
byte is handled as the character with the same code. -/
theorem C53_eight_bit_partial {v : Vte} {bs : List UInt8} (hs : Stays 3 v bs)
    (h7 : ∀ p rest v1, bs = p ++ rest → v.inputLoop p = .ok v1 → v1.f7bit = false)
    (hu : ∀ p rest v1, bs = p ++ rest → v.inputLoop p = .ok v1 → v1.sg = false) :
    v.inputLoop bs = parseAll v (bs.map UInt8.toNat) := by
  induction bs generalizing v with
  | nil => rfl
  | cons b bs ih =>
    rw [inputLoop_cons]
    unfold parseAll
    have hb : v.inputByte b = v.parse b.toNat := by
      unfold Vte.inputByte
      rw [if_neg (by rw [h7 [] (b :: bs) v rfl rfl]; decide), if_pos (hs [] (b :: bs) v rfl rfl)]
      unfold Utf8.conv
      rw [hu [] (b :: bs) v rfl rfl, if_neg (by intro h; cases h.1)]
    rw [List.map_cons, List.foldlM_cons, ← hb]
    cases hb : v.inputByte b with
    | error e => rfl
    | ok v1 =>
      exact ih (fun p rest v2 e1 e2 => hs (b :: p) rest v2 (by rw [e1]; rfl) (by rw [inputLoop_ok hb]; exact e2))
        (fun p rest v2 e1 e2 => h7 (b :: p) rest v2 (by rw [e1]; rfl) (by rw [inputLoop_ok hb]; exact e2))
        (fun p rest v2 e1 e2 => hu (b :: p) rest v2 (by rw [e1]; rfl) (by rw [inputLoop_ok hb]; exact e2))

/-- The claim for 8-bit mode: a byte is handled as the character with the same code. -/
def C53_claim : Prop :=
  ∀ (v : Vte), Reachable v → v.f8bit = true → v.f7bit = false → ∀ b : UInt8, v.inputByte b = v.parse b.toNat

/-- **C53 is false.** If plain `char` is signed, the C1 control CSI (0x9b) does not start a
control sequence in 8-bit mode, but is printed. -/
theorem C53_false : ¬ C53_claim := by
  have : ∃ v, Reachable v ∧ (v.f8bit && !v.f7bit && gives (v.inputByte 0x9b) (fun v' => decide (v'.state = .ground)) &&
      gives (v.parse 0x9b) (fun v' => decide (v'.state = .csiEntry))) = true :=
    exists_of_vholds (cs := [.resize 5 3]) (sg := true)
      (vs := [.input [27, 91, 54, 50, 34, 112]]) (by decide +kernel)
  obtain ⟨v, hv, hf⟩ := this
  simp only [Bool.and_eq_true, Bool.not_eq_true'] at hf
  obtain ⟨v1, e1, h1⟩ := of_gives hf.1.2
  obtain ⟨v2, e2, h2⟩ := of_gives hf.2
  intro hc
  have := hc v hv hf.1.1.1 hf.1.1.2 0x9b
  rw [e1, show (0x9b : UInt8).toNat = 0x9b from rfl, e2] at this
  injection this with this
  rw [this] at h1
  rw [of_decide_eq_true h2] at h1
  exact absurd h1 (by decide)

/-- Witness for 7-bit mode: `0xc1 0xc2` prints `AB`. -/
example : ∃ v, Reachable v ∧ (v.f7bit && gives (v.input [0xc1, 0xc2])
    (fun v' => v'.f7bit && decide (v'.con.rowText 0 = [65, 66, 0, 0, 0]))) = true :=
  exists_of_vholds (cs := [.resize 5 3]) (sg := true) (vs := [.input [27, 91, 54, 49, 34, 112]]) (by decide +kernel)

/-- Witness for 8-bit mode with unsigned `char`: `0x9b 2 C` moves the cursor. -/
example : ∃ v, Reachable v ∧ (v.f8bit && !v.f7bit && !v.sg && gives (v.input [0x9b, 50, 67])
    (fun v' => v'.f8bit && decide (v'.con.cursorX = 2))) = true :=
  exists_of_vholds (cs := [.resize 5 3]) (sg := false) (vs := [.input [27, 91, 54, 50, 34, 112]]) (by decide +kernel)

end Verif.Props.Vte
