import Verif.Proofs.Screen.Settings
import Verif.Proofs.Screen.Example

/-!
# Settings of the screen

C71: which calls change which setting.
-/

namespace Verif.Props.Screen

open Verif Verif.Screen

/-- **C71.** A call changes the modes, the size, the margins, the tab stops, the default attributes and the
maximal size of the scrollback only if it is one of the few that are there for this. This holds in every
state and with every outcome of the allocations. -/
theorem C71_settings {s s' : Screen} {c : Call} (e : c.run s = .ok s') : View.Settled c s.view s'.view := by
  have h := step_settled (s := s) c
  rw [e] at h
  exact h

/-- After any sequence of calls, a setting that none of them sets is as before. -/
theorem C71_history {s s' : Screen} {cs : List Call} (e : runAll cs s = .ok s') :
    ((∀ c ∈ cs, c.setsModes = false) → s'.view.flags = s.view.flags ∧ s'.view.useAlt = s.view.useAlt) ∧
    ((∀ c ∈ cs, c.setsSize = false) → s'.view.sizeX = s.view.sizeX ∧ s'.view.sizeY = s.view.sizeY) ∧
    ((∀ c ∈ cs, c.setsMargins = false) →
      s'.view.marginTop = s.view.marginTop ∧ s'.view.marginBottom = s.view.marginBottom) ∧
    ((∀ c ∈ cs, c.setsTabs = false) → s'.view.tabs = s.view.tabs) ∧
    ((∀ c ∈ cs, c.setsAttr = false) → s'.view.defAttr = s.view.defAttr) ∧
    ((∀ c ∈ cs, c.setsMaxSb = false) → s'.view.sbMax = s.view.sbMax) := by
  induction cs generalizing s with
  | nil =>
    injection e with e
    subst e
    exact ⟨fun _ => ⟨rfl, rfl⟩, fun _ => ⟨rfl, rfl⟩, fun _ => ⟨rfl, rfl⟩, fun _ => rfl, fun _ => rfl, fun _ => rfl⟩
  | cons c cs ih =>
    change (c.run s >>= fun s => runAll cs s) = _ at e
    cases hr : c.run s with
    | error u => rw [hr] at e; cases e
    | ok t =>
      rw [hr] at e
      have h := C71_settings hr
      obtain ⟨i1, i2, i3, i4, i5, i6⟩ := ih e
      have hd : ∀ {f : Call → Bool}, (∀ d ∈ c :: cs, f d = false) → f c = false ∧ ∀ d ∈ cs, f d = false :=
        fun hf => ⟨hf c List.mem_cons_self, fun d hd => hf d (List.mem_cons_of_mem _ hd)⟩
      refine ⟨fun hf => ?_, fun hf => ?_, fun hf => ?_, fun hf => ?_, fun hf => ?_, fun hf => ?_⟩
      · have h1 := h.modes (hd hf).1
        have h2 := i1 (hd hf).2
        exact ⟨h2.1.trans h1.1, h2.2.trans h1.2.1⟩
      · have h1 := h.size (hd hf).1
        have h2 := i2 (hd hf).2
        exact ⟨h2.1.trans h1.1, h2.2.trans h1.2⟩
      · have h1 := h.margins (hd hf).1
        have h2 := i3 (hd hf).2
        exact ⟨h2.1.trans h1.1, h2.2.trans h1.2⟩
      · exact (i4 (hd hf).2).trans (h.tabs (hd hf).1)
      · exact (i5 (hd hf).2).trans (h.attr (hd hf).1)
      · exact (i6 (hd hf).2).trans (h.maxSb (hd hf).1)

/-- A screen on which all settings differ from the initial ones, and a sequence of calls that sets none of
them: text with wrapping and scrolling, moves, erasing, the scrollback and a selection. -/
example : ∃ s, Reachable s ∧ (decide (s.marginTop = 1) && decide (s.sizeX = 4) && decide (s.sbMax = 7) &&
    decide (s.flags = 2#32) && decide (s.tabRuler[2]? = some true) && decide (s.defAttr.bold = true) &&
    (match runAll [.write 0x61 Attr.zero, .newline, .newline, .newline, .moveTo 9 9, .eraseScreen false, .sbUp 1,
      .selectionStart 0 0, .scrollUp 2] s with
      | .ok t => decide (t.sb.length = 3) && decide (t.marginTop = 1)
      | .error _ => false)) = true :=
  exists_of_holds (cs := [.resize 4 3, .setFlags 2#32, .setMargins 2 3, .setMaxSb 7, .moveTo 2 0, .setTabstop,
    .setDefAttr { Attr.zero with bold := true }])
    (by decide +kernel)

end Verif.Props.Screen
