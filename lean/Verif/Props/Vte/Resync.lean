import Verif.Proofs.Vte.Driven
import Verif.Props.Vte.Canvas
import Verif.Props.Vte.Input

/-!
# Recovering from any input (C86), and the screens of emulators (C87)
-/

namespace Verif.Props.Vte
open Verif Verif.Vte

/-! ### C86 -/

/-- **C86**: whatever has been sent before, also if it stopped in the middle of a character, after a byte below 128
the emulator is between two characters. -/
theorem C86_between {v v' : Vte} (h : Reachable v) {bs : List UInt8} {b : UInt8} (hb : b.toNat < 128)
    (e : v.input (bs ++ [b]) = .ok v') : Between v' :=
  (input_whole h.parked hb e).between

/-- **C86**: two CAN characters return every emulator to the ground state of the parser, between two characters. -/
theorem C86_can {v : Vte} (h : Reachable v) :
    ∃ v', v.input [0x18, 0x18] = .ok v' ∧ Reachable v' ∧ v'.state = .ground ∧ Between v' := by
  obtain ⟨v1, e1, r1⟩ := C40_ascii_partial h (bs := [0x18]) (by decide)
  have b1 : Between v1 := C86_between h (bs := []) (b := 0x18) (by decide) e1
  obtain ⟨v2, e2, hg, _⟩ := C43_can_partial r1 b1
  have e : v.input ([0x18] ++ [0x18]) = .ok v2 := by rw [input_append h.ok.1, e1]; exact e2
  exact ⟨v2, e, r1.step (c := .input _) trivial e2, hg, C86_between h (by decide) e⟩

/-- **C86**: CAN and `ESC c` bring every emulator into the state of power-on: the normal modes, an empty screen, the
default attributes. -/
theorem C86_reset {v : Vte} (h : Reachable v) :
    ∃ v', v.input [0x18, 27, 99] = .ok v' ∧ Reachable v' ∧ Normal v' ∧
      v'.canvas = Canvas.initial v.con.sizeX v.con.sizeY v.defAttr v.palette := by
  obtain ⟨v1, e1, r1⟩ := C40_ascii_partial h (bs := [0x18]) (by decide)
  have b1 : Between v1 := C86_between h (bs := []) (b := 0x18) (by decide) e1
  obtain ⟨v2, e2, r2, n2, _, c2⟩ := C85_after_reset r1 b1
  have hg := h.ok.1.input [0x18]
  rw [e1] at hg
  refine ⟨v2, ?_, r2, n2, ?_⟩
  · rw [show ([0x18, 27, 99] : List UInt8) = [0x18] ++ [27, 99] from rfl, input_append h.ok.1, e1]
    exact e2
  · rw [c2, h.ok.1.sizeX_ext hg.2, h.ok.1.sizeY_ext hg.2, hg.2.dattr, hg.2.pal]

/-- **C86** for whole sessions: what a program that starts with CAN and `ESC c` shows does not depend on anything
that happened before. -/
theorem C86_session {v : Vte} (h : Reachable v) {l : List Cmd} (hv : ∀ a ∈ l, a.Valid v.con.sizeY ∧ a.Plain) :
    ∃ v', v.input ([0x18, 27, 99] ++ l.flatMap Cmd.bytes) = .ok v' ∧
      v'.canvas = (Canvas.initial v.con.sizeX v.con.sizeY v.defAttr v.palette).run l := by
  obtain ⟨v1, e1, r1, n1, c1⟩ := C86_reset h
  have hsz : v1.con.sizeY = v.con.sizeY := congrArg Canvas.h c1
  obtain ⟨v2, e2, _, _, c2⟩ := C85_canvas_partial r1 n1 (l := l) (by rw [hsz]; exact fun a ha => (hv a ha).1)
    (by rw [c1]; exact Usual.tameAll l ⟨rfl, rfl, Nat.zero_le _, h.ok.1.con.geo.x0, rfl, rfl⟩ (fun a ha => (hv a ha).2))
  refine ⟨v2, ?_, by rw [c2, c1]⟩
  rw [input_append h.ok.1, e1]
  exact e2

/-- Witness: inside an OSC string, in the middle of a character, in insert and origin mode with a scroll region. -/
example : ∃ v, Reachable v ∧ (!decide (Between v) && decide (v.state = .oscString) && v.con.fInsert && v.fOrigin &&
    decide (v.con.marginTop = 1) &&
    gives (v.input ([0x18, 27, 99, 65])) (fun v' => decide (v'.con.rowText 0 = [65, 0, 0, 0, 0]))) = true :=
  exists_of_vholds (cs := [.resize 5 4]) (sg := true)
    (vs := [.input [66, 27, 91, 52, 104, 27, 91, 50, 59, 51, 114, 27, 91, 63, 54, 104, 27, 93, 48, 0xe4]]) (by decide +kernel)

/-! ### C87 -/

/-- The calls of the screen that are left to the embedder. -/
def Embedder : Screen.Call → Prop
  | .resize _ _ | .setMaxSb _ | .sbUp _ | .sbDown _ | .sbPageUp _ | .sbPageDown _ | .sbReset
  | .selectionReset | .selectionStart _ _ | .selectionTarget _ _ | .draw => True
  | _ => False

/-- **C87**: input changes the screen only through valid calls of its interface, none of which is left to the
embedder (size, scrollback view, selection, drawing). -/
theorem C87_input {v v' : Vte} (h : Reachable v) {bs : List UInt8} (e : v.input bs = .ok v') :
    ∃ cs : List Screen.Call, (∀ c ∈ cs, c.Valid ∧ ¬ Embedder c) ∧ Screen.runAll cs v.con = .ok v'.con := by
  have hg := h.ok.1.input bs
  rw [e] at hg
  obtain ⟨cs, hc, er⟩ := hg.2.run
  refine ⟨cs, fun c h => ⟨(hc c h).1, ?_⟩, er⟩
  have := (hc c h).2
  cases c <;> first | exact False.elim this | exact id

/-- **C87**: the screen of an emulator is always in a state that calls of the screen alone can produce, whatever
bytes, keys and mouse events the emulator has processed. All theorems about screens hold for it. -/
theorem C87_screen {v : Vte} (h : Reachable v) : Screen.Reachable v.con := h.con

/-- Witness: after text, a scroll and an alternate screen. -/
example : ∃ v, Reachable v ∧ gives (v.input [65, 10, 10, 66, 27, 91, 63, 49, 48, 52, 57, 104]) (fun v' =>
    v'.con.useAlt && decide (v'.con.cursorX = 2) && decide (v'.con.sb.length = 1)) = true :=
  exists_of_vholds (cs := [.resize 5 2, .setMaxSb 3]) (sg := true) (vs := []) (by decide +kernel)

end Verif.Props.Vte
