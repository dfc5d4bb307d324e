import Verif.Proofs.Gtk.Life

/-!
# C107: what a widget of gtktsm owns

A widget allocates objects, registers callbacks with the main loop and starts children. The events are chosen freely:
calls of the application and of GTK, callbacks of registered sources in any order, with any answers of the emulator,
with memory and fonts that may be missing, and the destruction of the widget at any moment, also in the signal that tells that
the child has ended.
-/

namespace Verif.Gtk.Life

/-- What a run gives: `P` at its end. -/
private def ends (es : List Ev) (P : S → Bool) : Bool :=
  match run es init with
  | .ok s => P s
  | .error _ => false

/-- A child is started, with the faces of the first font, another font is set, there is input that asks for two answers, a key, and the
callback that sends them. -/
private def life : List Ev :=
  [.fork true true false true true, .font true false true true, .fire 1 6 [true, true] false, .key [true], .fire 13 6 [true] false]

/-! ## No fault -/

/-- **C107.** Nothing that was released is used or released again, no callback runs for a widget that was destroyed, and no source
is removed that is not registered. The program can only end for want of memory, of a font or of a pty. -/
theorem C107_safe (es : List Ev) (f : Fault) (h : run es init = .error f) : f = .abort := by
  have := run_ok (es := es) (.inl init_rest)
  rw [h] at this
  exact this

/-- The program does end without memory for an answer. -/
example : run [.fork true true true true true, .key [false]] init matches .error .abort := by decide +kernel

theorem sound {es : List Ev} {s : S} (h : run es init = .ok s) : Sound s := by
  have := run_ok (es := es) (.inl init_rest)
  rw [h] at this
  exact this

theorem Sound.rest {s : S} (h : Sound s) (hg : s.gone = false) : Rest s := by
  rcases h with h | h
  · exact h
  · rw [h.gone] at hg
    cases hg

/-! ## While the widget exists -/

/-- **C107.** While the widget exists there is exactly one watch of its bridge, at most one idle source, and a watch of a child
exactly while there is a pty, of which there is at most one, in the set of the bridge. Each pty and each face
that exists is one that a field of the widget refers to. -/
theorem C107_sources {es : List Ev} {s : S} (h : run es init = .ok s) (hg : s.gone = false) :
    (∃ i, ∀ j, s.src j = some .bridge ↔ j = i) ∧
    (∀ i j, s.src i = some .idle → s.src j = some .idle → i = j) ∧
    (∀ i j p q, s.src i = some (.child p) → s.src j = some (.child q) → i = j ∧ p = q) ∧
    ((∃ i p, s.src i = some (.child p)) ↔ ∃ n, s.has (.pty n) = true) ∧
    (∀ n, (s.has (.pty n) = true ↔ s.pty = some n) ∧ (s.epoll n = true ↔ s.pty = some n) ∧ (s.has (.face n) = true ↔ n ∈ s.faces)) := by
  have r := (sound h).rest hg
  have hi : ∀ i, s.src i = some .idle → i = s.idleSrc := by
    intro i hi
    rcases r.only i _ hi with k | ⟨k, _⟩ | ⟨_, k⟩ | ⟨p, k, _⟩
    · cases k
    · cases k
    · exact k
    · cases k
  have hc : ∀ i p, s.src i = some (.child p) → i = s.childSrc := by
    intro i p hi
    rcases r.only i _ hi with k | ⟨k, _⟩ | ⟨k, _⟩ | ⟨_, _, k⟩
    · cases k
    · cases k
    · cases k
    · exact k
  refine ⟨⟨s.bridgeSrc, fun j => ⟨fun hj => ?_, fun e => by rw [e]; exact r.bsrc⟩⟩, fun i j h1 h2 => (hi i h1).trans (hi j h2).symm, ?_, ?_,
    fun n => ⟨r.ptys n, r.ep n, r.face n⟩⟩
  · rcases r.only j _ hj with k | ⟨_, k⟩ | ⟨k, _⟩ | ⟨p, k, _⟩
    · cases k
    · exact k
    · cases k
    · cases k
  · intro i j p q h1 h2
    have e := (hc i p h1).trans (hc j q h2).symm
    subst e
    rw [h1] at h2
    injection h2 with h2
    injection h2 with h2
    exact ⟨rfl, h2⟩
  · constructor
    · intro ⟨i, p, hip⟩
      have := r.lt i (by rw [hip]; simp)
      cases hp : s.pty with
      | none =>
        have e := r.pty.mp hp
        have := hc i p hip
        omega
      | some n => exact ⟨n, (r.ptys n).mpr hp⟩
    · intro ⟨n, hn⟩
      have hp := (r.ptys n).mp hn
      have h0 : s.childSrc ≠ 0 := fun e => by rw [r.pty.mpr e] at hp; cases hp
      obtain ⟨p, hp⟩ := (r.child h0).1
      exact ⟨_, p, hp⟩

example : ends life (fun s => !s.gone && s.src 1 == some .bridge && s.has (.pty 6) && s.src 8 == some (.child 7) && s.faces.length == 3) = true := by
  decide +kernel

/-- **C107.** When the emulator has answered and there is a child, an idle source is registered, from which the main loop sends the
answer: after a key, after input, and after a callback that itself sent answers. -/
theorem C107_answers {es : List Ev} {s s' : S} (h : run es init = .ok s) (hg : s.gone = false) (hp : s.pty.isSome = true)
    {ws : List Bool} (hw : ws ≠ []) :
    (step s (.key ws) = .ok s' → ∃ i, s'.src i = some .idle) ∧
    (∀ i ev d, s.src i = some .idle → step s (.fire i ev ws d) = .ok s' → ∃ j, s'.src j = some .idle) ∧
    (∀ i ev d, s.src i = some .bridge → s.pty = some ev → step s (.fire i ev ws d) = .ok s' → ∃ j, s'.src j = some .idle) := by
  have r := (sound h).rest hg
  have hno : ¬ (s.gone = true) := by rw [hg]; simp
  refine ⟨fun e => ?_, fun i ev d hi e => ?_, fun i ev d hi hev e => ?_⟩
  · have k := (Rest.mid r).emulate (ws := ws)
    change (if s.gone then _ else _) = _ at e
    rw [if_neg hno] at e
    rw [e] at k
    exact ⟨_, (k.1.1.idle (k.2.2.2 hw hp)).1⟩
  · have k := idleFn_ok r hi ws
    simp only [step, hi, if_neg hno] at e
    rw [e] at k
    exact ⟨_, (k.1.idle (k.2 hw hp)).1⟩
  · have k := (Rest.mid r).emulate (ws := ws)
    simp only [step, hi, if_neg hno] at e
    have he : bridgeFn s ev ws = emulate ws s := by
      have h1 : s.has .bridge = true := r.bridge
      have h2 : s.has (.pty ev) = true := (r.ptys ev).mpr hev
      have h3 : s.epoll ev = true := (r.ep ev).mpr hev
      simp [bridgeFn, use, h1, h2, h3, bind, Except.bind]
    rw [he] at e
    rw [e] at k
    exact ⟨_, (k.1.1.idle (k.2.2.2 hw hp)).1⟩

/-- In `life` the idle source 13 is registered by the input, none by the key, and 14 by the callback that sends the answer. -/
example : ends (life.take 3) (fun s => s.src 13 == some .idle) = true ∧ ends (life.take 4) (fun s => s.src 14 == none) = true ∧
    ends life (fun s => s.src 13 == none && s.src 14 == some .idle) = true := by
  decide +kernel

/-! ## Destruction -/

/-- **C107.** Once the widget is destroyed no source of it is registered, no object of it exists and the set of ptys is empty, and
whatever happens later changes nothing. -/
theorem C107_released {es : List Ev} {s : S} (h : run es init = .ok s) (hg : s.gone = true) :
    (∀ i, s.src i = none) ∧ (∀ o, s.has o = false) ∧ (∀ n, s.epoll n = false) ∧ ∀ es', run es' s = .ok s := by
  rcases sound h with r | g
  · rw [r.alive] at hg
    cases hg
  · refine ⟨fun i => ?_, g.has, g.ep, fun es' => ?_⟩
    · cases hs : s.src i with
      | none => rfl
      | some f => exact absurd (g.src i (by rw [hs]; simp)) (by simp)
    · induction es' with
      | nil => rfl
      | cons e es' ih =>
        show (step s e >>= run es') = _
        rw [step_gone g e]
        exact ih

/-- **C107.** The destruction of a widget succeeds. -/
theorem C107_finalize {es : List Ev} {s : S} (h : run es init = .ok s) : ∃ s', step s .finalize = .ok s' ∧ s'.gone = true := by
  rcases sound h with r | g
  · obtain ⟨s', e, k, _⟩ := finalize_ok r
    refine ⟨s', ?_, k.gone⟩
    show (if s.gone then _ else _) = _
    rw [if_neg (by rw [r.alive]; simp)]
    exact e
  · exact ⟨s, step_gone g _, g.gone⟩

/-- A widget that is destroyed with an idle source and a child, and one that is destroyed in the signal. -/
example : ends (life ++ [.finalize]) (fun s => s.gone && s.src 1 == none && s.src 8 == none && !s.has .font) = true ∧
    ends (life ++ [.fire 8 0 [] true]) (fun s => s.gone && s.src 8 == none && !s.has .vte && !s.kids 7) = true := by
  decide +kernel

/-! ## Children -/

/-- **C107, first half of the claim about children.** While the widget exists each child that it started and that has
not been waited for is watched, and a widget that is destroyed when there is no pty, or in the signal that its child has ended,
leaves no child. (Missing: a widget that is destroyed while its child runs.) -/
theorem C107_waited_partial {es : List Ev} {s : S} (h : run es init = .ok s) (hg : s.gone = false) :
    (∀ p, s.kids p = true → ∃ i, s.src i = some (.child p)) ∧
    (s.pty = none → ∀ p, s.kids p = false) ∧
    (s.pty = none → ∀ s', step s .finalize = .ok s' → ∀ p, s'.kids p = false) ∧
    (∀ i ev ws p d s', s.src i = some (.child p) → step s (.fire i ev ws d) = .ok s' → ∀ q, s'.kids q = false) := by
  have r := (sound h).rest hg
  have hno : ¬ (s.gone = true) := by rw [hg]; simp
  have hk : s.pty = none → ∀ p, s.kids p = false := by
    intro hp p
    cases hk : s.kids p with
    | false => rfl
    | true =>
      have h1 := r.kid p hk
      rw [r.pty.mp hp] at h1
      have := r.lt 0 (by rw [h1]; simp)
      omega
  refine ⟨fun p hp => ⟨_, r.kid p hp⟩, hk, fun hp s' e p => ?_, fun i ev ws p d s' hi e q => ?_⟩
  · change (if s.gone then _ else _) = _ at e
    rw [if_neg hno] at e
    obtain ⟨s2, e2, _, k⟩ := finalize_ok r
    rw [e] at e2
    injection e2 with e2
    rw [e2, k]
    exact hk hp p
  · obtain ⟨s2, e2, _, k⟩ := childFn_ok r hi d
    simp only [step, hi, if_neg hno] at e
    rw [e] at e2
    injection e2 with e2
    rw [e2]
    exact k q

example : ends life (fun s => !s.gone && s.kids 7 && s.src 8 == some (.child 7)) = true := by decide +kernel

/-- **C107 is false for children.** A widget that is destroyed while its child runs removes the watch of the child,
so that nothing waits for it when it ends, whatever happens later. -/
theorem C107_waited_false : ∃ es s p, run es init = .ok s ∧ s.kids p = true ∧ (∀ i, s.src i = none) ∧ ∀ es', run es' s = .ok s := by
  have hx : ends [.fork true true true true true, .finalize] (fun s => s.gone && s.kids 7) = true := by decide +kernel
  unfold ends at hx
  cases hr : run [.fork true true true true true, .finalize] init with
  | error f => rw [hr] at hx; cases hx
  | ok s =>
    rw [hr] at hx
    have hx := (Bool.and_eq_true _ _).mp hx
    obtain ⟨h1, _, _, h4⟩ := C107_released hr hx.1
    exact ⟨_, s, 7, hr, hx.2, h1, h4⟩

end Verif.Gtk.Life
