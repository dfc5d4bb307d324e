import Verif.Proofs.Screen.Example

/-!
# Properties of arbitrary histories of screen calls

C08 memory safety, C09 cursor and margins, C10 failed resize, C15 scrollback
bounds, C16 isolation of the alternate screen, C36 no dangling references.
-/

namespace Verif.Props.Screen

open Verif Verif.Screen

/-! ### C08 -/

/-- The claim as stated: no history of calls ends in an invalid access. -/
def C08_claim : Prop :=
  ∀ (allocOk : Nat → Bool) (cs : List Call), (∀ c ∈ cs, c.Valid) →
    ∀ e, history allocOk cs ≠ .error e

/-- **C08 is false.** On a one column wide screen in insert mode, writing a wide
character makes `memmove` run far out of the line. -/
theorem C08_false : ¬ C08_claim := by
  intro h
  apply h (fun _ => true) [.resize 1 5, .setFlags INSERT_MODE, .write 0x4e2d Attr.zero]
    (by decide) .insertMove
  have : (history (fun _ => true)
      [.resize 1 5, .setFlags INSERT_MODE, .write 0x4e2d Attr.zero]).map (fun _ => ()) =
      .error .insertMove := by decide +kernel
  revert this
  cases history (fun _ => true) [.resize 1 5, .setFlags INSERT_MODE, .write 0x4e2d Attr.zero] with
  | ok s => intro h; cases h
  | error e => intro h; injection h with h; rw [h]

/-- **C08 is false**, second witness: a wide character in the last column leaves
the cursor two columns beyond it, and a back tab reads beyond the tab ruler. -/
theorem C08_false_tab : ¬ C08_claim := by
  intro h
  apply h (fun _ => true) [.moveTo 79 0, .write 0x4e2d Attr.zero, .tabLeft 1]
    (by decide) .oobTab
  have : (history (fun _ => true)
      [.moveTo 79 0, .write 0x4e2d Attr.zero, .tabLeft 1]).map (fun _ => ()) =
      .error .oobTab := by decide +kernel
  revert this
  cases history (fun _ => true) [.moveTo 79 0, .write 0x4e2d Attr.zero, .tabLeft 1] with
  | ok s => intro h; cases h
  | error e => intro h; injection h with h; rw [h]

/-- The two situations in which a call is not safe, in terms of the arguments
and of what the getters report: a character wider than the screen is written in
insert mode, or `tab_left` is called with the cursor column beyond the width. -/
def Unsafe (s : Screen) (c : Call) : Prop :=
  (∃ ch a, c = .write ch a ∧ s.flags.getLsbD 0 = true ∧
    ∃ w, Wcwidth.ucs4GetWidth (if ch ≤ 0x7fffffff then ch else 0) = .ok w ∧ s.sizeX < w) ∨
  (∃ n, c = .tabLeft n ∧ 0 < n ∧ s.sizeX < s.cursorX)

theorem hazard_unsafe {s : Screen} {c : Call} (h : c.Hazard s) : Unsafe s c := by
  cases c with
  | write ch a =>
    obtain ⟨h1, w, h2, h3⟩ := h
    refine Or.inl ⟨ch, a, rfl, h1, w, ?_, h3⟩
    unfold symWidth UCS4_MAX at h2
    split
    · rename_i hc; rw [if_pos hc] at h2; exact h2
    · rename_i hc; rw [if_neg hc] at h2; exact h2
  | tabLeft n => exact Or.inr ⟨n, rfl, h.1, h.2⟩
  | _ => exact False.elim h

/-- **C08** (partial: the full statement is `C08_claim`, which is false). Every
call on every reachable screen succeeds without an invalid access and leads to a
reachable screen again, except in the two situations of `Unsafe`. -/
theorem C08_step_safe_partial {s : Screen} (hr : Reachable s) (c : Call) (hv : c.Valid)
    (hu : ¬ Unsafe s c) : ∃ s', c.run s = .ok s' ∧ Reachable s' := by
  obtain ⟨s', e, _⟩ := step_safe hr.inv hv (fun hz => hu (hazard_unsafe hz))
  exact ⟨s', e, hr.step hv e⟩

/-- **C08** (partial), for whole histories: the only invalid accesses that can
ever happen are the insert-mode `memmove` and the tab ruler read. -/
theorem C08_history_partial (allocOk : Nat → Bool) (cs : List Call) (hv : ∀ c ∈ cs, c.Valid)
    {e : UB} (he : history allocOk cs = .error e) : e = .insertMove ∨ e = .oobTab := by
  have key : ∀ (l : List Call) (s : Screen), Inv s → (∀ c ∈ l, c.Valid) →
      runAll l s = .error e → e = .insertMove ∨ e = .oobTab := by
    intro l
    induction l with
    | nil => intro s _ _ h; cases h
    | cons c l ih =>
      intro s hi hl h
      change (do let s ← c.run s; runAll l s : R Screen) = _ at h
      rcases step_any hi (hl c (List.mem_cons_self ..)) with ⟨t, et, ht⟩ | ⟨_, et | et⟩
      · rw [et] at h
        exact ih t ht (fun c hc => hl c (List.mem_cons_of_mem _ hc)) h
      · rw [et] at h; injection h with h; exact Or.inl h.symm
      · rw [et] at h; injection h with h; exact Or.inr h.symm
  unfold history at he
  rcases new_spec allocOk with ⟨e0, _⟩ | ⟨s0, e0, hi, _⟩
  · rw [e0] at he; cases he
  · rw [e0] at he
    change (do let s ← runAll cs s0; return some s : R (Option Screen)) = _ at he
    cases hr : runAll cs s0 with
    | ok t => rw [hr] at he; cases he
    | error k =>
      rw [hr] at he
      injection he with he
      subst he
      exact key cs s0 hi hv hr

/-- A call that is harmless on every screen: no back tab, and no screen narrower
than two columns. -/
def Tame : Call → Prop
  | .tabLeft _ => False
  | .resize x _ => x ≠ 1
  | _ => True

/-- **C08** (partial), a condition on the calls alone: histories without
`tab_left` and without resizing to a single column are safe. -/
theorem C08_tame_partial (allocOk : Nat → Bool) (cs : List Call) (hv : ∀ c ∈ cs, c.Valid)
    (ht : ∀ c ∈ cs, Tame c) : ∃ r, history allocOk cs = .ok r := by
  have key : ∀ (l : List Call) (s : Screen), Inv s → 2 ≤ s.sizeX → (∀ c ∈ l, c.Valid) →
      (∀ c ∈ l, Tame c) → ∃ r, runAll l s = .ok r := by
    intro l
    induction l with
    | nil => intro s _ _ _ _; exact ⟨s, rfl⟩
    | cons c l ih =>
      intro s hi hx hl htl
      have hvc := hl c (List.mem_cons_self ..)
      have htc := htl c (List.mem_cons_self ..)
      have hz : ¬ c.Hazard s := by
        intro hz
        cases c with
        | write ch a =>
          obtain ⟨_, w, h2, h3⟩ := hz
          obtain ⟨w', h2', hle⟩ := symWidth_ok ch
          rw [h2] at h2'
          injection h2' with h2'
          omega
        | tabLeft n => exact htc
        | _ => exact hz
      obtain ⟨t, et, hit⟩ := step_safe hi hvc hz
      have hx' : 2 ≤ t.sizeX := by
        by_cases hr : ∃ x y, c = .resize x y
        · obtain ⟨x, y, rfl⟩ := hr
          have h1 := hit.geo.x0
          change (do let r ← s.resize x y; return r.2 : R Screen) = _ at et
          obtain ⟨r, u, e, _, hview⟩ := hi.resize x y hvc.1 hvc.2
          rw [e] at et
          injection et with et
          change u = t at et
          subst et
          by_cases hro : r = .ok
          · subst hro
            by_cases hsame : s.sizeX = x ∧ s.sizeY = y
            · unfold Screen.resize at e
              by_cases h00 : x = 0 ∨ y = 0
              · rw [if_pos h00] at e; injection e with e; injection e with e1 e2; cases e1
              · rw [if_neg h00, if_pos hsame] at e
                injection e with e; injection e with e1 e2; rw [← e2]; exact hx
            · by_cases h00 : x = 0 ∨ y = 0
              · unfold Screen.resize at e
                rw [if_pos h00] at e; injection e with e; injection e with e1 e2; cases e1
              · rcases resize_spec hi.dim hi.sb (x := x) (y := y) (by omega) (by omega) hvc.1 hvc.2
                  hsame with ⟨w, e', _⟩ | ⟨w, e', _, hw⟩
                · rw [e] at e'; injection e' with e'; injection e' with e1 e2; cases e1
                · rw [e] at e'
                  injection e' with e'
                  injection e' with e1 e2
                  subst e2
                  have hsx : u.sizeX = x := congrArg View.sizeX hw.eq
                  have : x ≠ 1 := htc
                  omega
          · have := congrArg View.sizeX (hview hro)
            change u.sizeX = s.sizeX at this
            omega
        · have hk := step_keeps hi hvc (fun x y h => hr ⟨x, y, h⟩) et
          have : t.sizeX = s.sizeX := hk.sizeX
          omega
      obtain ⟨r, er⟩ := ih t hit hx' (fun c hc => hl c (List.mem_cons_of_mem _ hc))
        (fun c hc => htl c (List.mem_cons_of_mem _ hc))
      refine ⟨r, ?_⟩
      show (do let s ← c.run s; runAll l s : R Screen) = _
      rw [et]
      exact er
  unfold history
  rcases new_spec allocOk with ⟨e0, _⟩ | ⟨s0, e0, hi, hz⟩
  · exact ⟨none, by rw [e0]; rfl⟩
  · have hsx : s0.sizeX = 80 := congrArg View.sizeX hz.eq
    obtain ⟨r, er⟩ := key cs s0 hi (by omega) hv ht
    refine ⟨some r, ?_⟩
    rw [e0]
    show (do let s ← runAll cs s0; return some s : R (Option Screen)) = _
    rw [er]
    rfl

/-- The hypotheses are met: a reachable screen whose cursor is pending a wrap,
and a wide character that is safe to write there. -/
example : ∃ s, Reachable s ∧ (decide (s.cursorX = 5) && decide (s.sizeX = 4)) = true :=
  exists_of_holds (cs := [.resize 4 3, .moveTo 3 0, .write 0x4e2d Attr.zero]) (by decide +kernel)

/-! ### C09 -/

/-- **C09.** After any history of calls, the cursor row is on the screen, the
column is at most two beyond the last one, the margins are ordered and on the
screen, and the size is not zero. -/
theorem C09_cursor_margins {s : Screen} (hr : Reachable s) :
    s.cursorY < s.sizeY ∧ s.cursorX ≤ s.sizeX + 1 ∧ s.marginTop ≤ s.marginBottom ∧
      s.marginBottom < s.sizeY ∧ 0 < s.sizeX :=
  ⟨hr.inv.cur.cy, hr.inv.cur.cx, hr.inv.geo.mtb, hr.inv.geo.mby, hr.inv.geo.x0⟩

/-- The bound on the column is attained, with narrowed margins. -/
example : ∃ s, Reachable s ∧ (decide (s.cursorX = s.sizeX + 1) && decide (s.marginTop = 1) &&
    decide (s.marginBottom = 2) && decide (s.sizeY = 4)) = true :=
  exists_of_holds (cs := [.resize 4 4, .setMargins 2 3, .moveTo 3 0, .write 0x4e2d Attr.zero])
    (by decide +kernel)

/-! ### C10 -/

/-- **C10.** A resize never fails in an uncontrolled way. If it reports an error,
nothing observable has changed and the screen is still a reachable one (so that
every later call is as safe as before); it reports an error only for a zero
dimension or if an allocation failed. -/
theorem C10_failed_resize {s : Screen} (hr : Reachable s) (x y : Nat) (hx : x < 2 ^ 30)
    (hy : y < 2 ^ 30) :
    ∃ ret s', s.resize x y = .ok (ret, s') ∧ Reachable s' ∧
      (ret ≠ .ok → s'.view = s.view) ∧
      (ret = .einval ↔ x = 0 ∨ y = 0) ∧
      (ret = .enomem → ∃ k, s.allocOk k = false) := by
  obtain ⟨ret, s', e, hi, hv⟩ := hr.inv.resize x y hx hy
  have hreach : Reachable s' := by
    refine hr.step (c := .resize x y) ⟨hx, hy⟩ ?_
    show (do let r ← s.resize x y; return r.2 : R Screen) = _
    rw [e]; rfl
  refine ⟨ret, s', e, hreach, hv, ?_⟩
  have inj : ∀ {a b : Ret} {t u : Screen}, (Except.ok (a, t) : R (Ret × Screen)) = .ok (b, u) →
      a = b := by
    intro a b t u h; injection h with h; injection h
  by_cases h0 : x = 0 ∨ y = 0
  · have e' : s.resize x y = .ok (.einval, s) := by unfold Screen.resize; rw [if_pos h0]
    have h1 := inj (e.symm.trans e')
    subst h1
    exact ⟨⟨fun _ => h0, fun _ => rfl⟩, fun h => by cases h⟩
  by_cases h1 : s.sizeX = x ∧ s.sizeY = y
  · have e' : s.resize x y = .ok (.ok, s) := by
      unfold Screen.resize; rw [if_neg h0, if_pos h1]
    have h2 := inj (e.symm.trans e')
    subst h2
    exact ⟨⟨fun h => (by cases h), fun h => absurd h h0⟩, fun h => by cases h⟩
  rcases resize_spec hr.inv.dim hr.inv.sb (x := x) (y := y) (by omega) (by omega) hx hy h1 with
    ⟨w, e', _, hno⟩ | ⟨w, e', _, _⟩
  · have h2 := inj (e.symm.trans e')
    subst h2
    refine ⟨⟨fun h => (by cases h), fun h => absurd h h0⟩, fun _ => ?_⟩
    apply Classical.byContradiction
    intro hall
    apply hno
    intro k
    cases hk : s.allocOk k with
    | true => rfl
    | false => exact absurd ⟨k, hk⟩ hall
  · have h2 := inj (e.symm.trans e')
    subst h2
    exact ⟨⟨fun h => (by cases h), fun h => absurd h h0⟩, fun h => by cases h⟩

/-- A resize that fails after some lines have been reallocated. -/
example : ((history (fun n => decide (n < 90)) [.moveTo 7 3]).map fun o => o.map fun s =>
    ((s.resize 100 30).map fun r => (r.1, r.2.sizeX, r.2.cursorX, r.2.allocN - s.allocN))) =
    .ok (some (.ok (.enomem, 80, 7, 40))) := by decide +kernel

/-! ### C15, bounds -/

/-- **C15**, bounds: after any history the scrollback holds at most the configured
maximum, and the reported count is its length. -/
theorem C15_bounded {s : Screen} (hr : Reachable s) :
    s.sb.length ≤ s.sbMax ∧ s.sbCount = s.sb.length :=
  ⟨hr.inv.sb.max, hr.inv.sb.cnt⟩

/-! ### C36 -/

/-- **C36.** After any history, the view position and the endpoints of an active
selection refer to lines that are in the scrollback, and the lines of the
scrollback have pairwise different identities. -/
theorem C36_no_dangling {s : Screen} (hr : Reachable s) :
    (∀ p, s.sbPos = some p → ∃ l ∈ s.sb, l.sbId = p) ∧
    (s.selActive = true → ∀ p, s.selStart.line = some p ∨ s.selEnd.line = some p →
      ∃ l ∈ s.sb, l.sbId = p) ∧
    (s.sb.map Line.sbId).Pairwise (· < ·) := by
  refine ⟨hr.inv.sb.pos, ?_, hr.inv.sb.ids⟩
  intro ha p hp
  rcases hp with hp | hp
  · exact hr.inv.sb.selS ha p hp
  · exact hr.inv.sb.selE ha p hp

/-- A full scrollback, a scrolled-back view and a selection that started in a
line which has been dropped. -/
example : ∃ s, Reachable s ∧ (decide (s.sb.length = 2) && decide (s.sbMax = 2) &&
    decide (s.sbPos ≠ none) && decide (s.selStart.line = none) && decide (s.selStart.y = -1) &&
    decide (s.selEnd.line = some 3) && s.selActive) = true :=
  exists_of_holds (cs := [.resize 4 3, .setMaxSb 3, .scrollUp 3, .sbUp 3, .selectionStart 0 0,
    .selectionTarget 1 2, .setMaxSb 2]) (by decide +kernel)

/-! ### C16 -/

/-- Calls that are not resizing, not scrollback administration, and do not leave
the alternate screen. -/
def AltCall : Call → Prop
  | .resize .. | .setMaxSb _ | .clearSb | .reset => False
  | .resetFlags f => f.getLsbD 6 = false
  | _ => True

theorem alt_step {s s' : Screen} (hi : Inv s) (ha : s.useAlt = true) {c : Call} (hv : c.Valid)
    (hc : AltCall c) (e : c.run s = .ok s') :
    Inv s' ∧ s'.useAlt = true ∧ s'.view.main = s.view.main ∧ s'.view.sb = s.view.sb := by
  have hi' : Inv s' := by
    rcases step_any hi hv with ⟨t, et, ht⟩ | ⟨_, et | et⟩
    · rw [et] at e; injection e with e; rw [← e]; exact ht
    · rw [et] at e; cases e
    · rw [et] at e; cases e
  have hk := step_keeps hi hv (by intro x y h; subst h; exact hc) e
  have hadm : View.sbAdmin c = false := by
    cases c with
    | setMaxSb m => exact False.elim hc
    | clearSb => exact False.elim hc
    | _ => rfl
  refine ⟨hi', ?_, hk.main ha, (hk.sb ha hadm).1⟩
  by_cases hf : View.flagCall c = false
  · have hfl : s'.flags = s.flags := hk.flags hf
    rw [hi'.geo.alias]
    unfold fAlt
    rw [hfl]
    rw [hi.geo.alias] at ha
    exact ha
  · cases c with
    | setFlags f =>
      change s.setFlags f = _ at e
      by_cases h0 : f = 0#32
      · unfold setFlags at e; rw [if_pos h0] at e; injection e with e; rw [← e]; exact ha
      · obtain ⟨t, et, _, hview, _⟩ := setFlags_spec hi h0
        rw [et] at e; injection e with e; subst e
        have : t.useAlt = (s.useAlt || f.getLsbD 6) := congrArg View.useAlt hview
        rw [this, ha]; rfl
    | resetFlags f =>
      change s.resetFlags f = _ at e
      have h6 : f.getLsbD 6 = false := hc
      by_cases h0 : f = 0#32
      · unfold resetFlags at e; rw [if_pos h0] at e; injection e with e; rw [← e]; exact ha
      · obtain ⟨t, et, _, hview, _⟩ := resetFlags_spec hi h0
        rw [et] at e; injection e with e; subst e
        have : t.useAlt = (s.useAlt && !f.getLsbD 6) := congrArg View.useAlt hview
        rw [this, ha, h6]; rfl
    | reset => exact False.elim hc
    | _ => exact absurd rfl hf

theorem alt_run (cs : List Call) : ∀ {s s' : Screen}, Inv s → s.useAlt = true →
    (∀ c ∈ cs, c.Valid) → (∀ c ∈ cs, AltCall c) → runAll cs s = .ok s' →
    Inv s' ∧ s'.useAlt = true ∧ s'.view.main = s.view.main ∧ s'.view.sb = s.view.sb := by
  induction cs with
  | nil => intro s s' hi ha _ _ e; injection e with e; subst e; exact ⟨hi, ha, rfl, rfl⟩
  | cons c cs ih =>
    intro s s' hi ha hv hc e
    change (do let s ← c.run s; runAll cs s : R Screen) = _ at e
    cases hd : c.run s with
    | error k => rw [hd] at e; cases e
    | ok t =>
      rw [hd] at e
      obtain ⟨h1, h2, h3, h4⟩ := alt_step hi ha (hv c (List.mem_cons_self ..))
        (hc c (List.mem_cons_self ..)) hd
      obtain ⟨k1, k2, k3, k4⟩ := ih h1 h2 (fun c hc => hv c (List.mem_cons_of_mem _ hc))
        (fun d hd => hc d (List.mem_cons_of_mem _ hd)) e
      exact ⟨k1, k2, k3.trans h3, k4.trans h4⟩

/-- **C16.** From the main screen, switch to the alternate one, make any calls
that do not resize, administrate the scrollback or leave the alternate screen,
and switch back: the main screen shows exactly the same glyphs and the
scrollback is the same. -/
theorem C16_alternate_isolated {s t : Screen} (hr : Reachable s) (hm : s.flags.getLsbD 6 = false)
    (f g : BitVec 32) (hf : f.getLsbD 6 = true) (hg : g.getLsbD 6 = true) (cs : List Call)
    (hv : ∀ c ∈ cs, c.Valid) (hc : ∀ c ∈ cs, AltCall c)
    (e : runAll (.setFlags f :: cs ++ [.resetFlags g]) s = .ok t) :
    t.flags.getLsbD 6 = false ∧ t.view.grid = s.view.grid ∧ t.view.sb = s.view.sb := by
  have hi := hr.inv
  have hu : s.useAlt = false := hi.geo.alias.trans hm
  have hf0 : f ≠ 0#32 := by
    intro h; rw [h] at hf; simp at hf
  have hg0 : g ≠ 0#32 := by
    intro h; rw [h] at hg; simp at hg
  obtain ⟨a, ea, hia, hva, _⟩ := setFlags_spec hi hf0
  change (do let s ← s.setFlags f; runAll (cs ++ [.resetFlags g]) s : R Screen) = _ at e
  rw [ea] at e
  change runAll (cs ++ [.resetFlags g]) a = _ at e
  have hua : a.useAlt = true := by
    have : a.useAlt = (s.useAlt || f.getLsbD 6) := congrArg View.useAlt hva
    rw [this, hf]; simp
  rw [switched_view] at hva
  have hsplit : ∀ (l : List Call) (p q : Screen), runAll (l ++ [.resetFlags g]) p = .ok q →
      ∃ m, runAll l p = .ok m ∧ m.resetFlags g = .ok q := by
    intro l
    induction l with
    | nil =>
      intro p q h
      change (do let s ← p.resetFlags g; runAll [] s : R Screen) = _ at h
      refine ⟨p, rfl, ?_⟩
      cases hd : p.resetFlags g with
      | error k => rw [hd] at h; cases h
      | ok m => rw [hd] at h; exact h
    | cons c l ih =>
      intro p q h
      change (do let s ← c.run p; runAll (l ++ [.resetFlags g]) s : R Screen) = _ at h
      cases hd : c.run p with
      | error k => rw [hd] at h; cases h
      | ok m =>
        rw [hd] at h
        obtain ⟨m', h1, h2⟩ := ih m q h
        refine ⟨m', ?_, h2⟩
        show (do let s ← c.run p; runAll l s : R Screen) = _
        rw [hd]; exact h1
  obtain ⟨b, eb, et⟩ := hsplit cs a t e
  obtain ⟨hib, hub, hmb, hsb⟩ := alt_run cs hia hua hv hc eb
  obtain ⟨t', et', hit, hvt, _⟩ := resetFlags_spec hib hg0
  rw [et'] at et
  injection et with et
  subst et
  have hut : t'.useAlt = false := by
    have : t'.useAlt = (b.useAlt && !g.getLsbD 6) := congrArg View.useAlt hvt
    rw [this, hg]; simp
  rw [switched_view] at hvt
  refine ⟨hit.geo.alias.symm.trans hut, ?_, ?_⟩
  · have h1 : t'.view.main = b.view.main := by rw [hvt]
    have h2 : a.view.main = s.view.main := by rw [hva]
    unfold View.grid
    rw [if_neg (show ¬ t'.view.useAlt = true by
        show ¬ t'.useAlt = true; rw [hut]; simp),
      if_neg (show ¬ s.view.useAlt = true by show ¬ s.useAlt = true; rw [hu]; simp),
      h1, hmb, h2]
  · have h1 : t'.view.sb = b.view.sb := by rw [hvt]
    have h2 : a.view.sb = s.view.sb := by rw [hva]
    rw [h1, hsb, h2]

/-- A history to which this applies, scrolling and writing on the alternate
screen: it succeeds from the screen with the text "AB". -/
example : ∃ s, Reachable s ∧ (decide (s.flags.getLsbD 6 = false) && decide (rowText s 0 = [65, 66, 0, 0]) &&
    decide (((runAll (.setFlags 0x40#32 :: [.eraseScreen false, .write 67 Attr.zero, .scrollUp 2] ++
      [.resetFlags 0x40#32]) s).map fun t => (t.rowText 0, t.sb.length)) =
        .ok ([65, 66, 0, 0], 0))) = true :=
  exists_of_holds (cs := [.resize 4 3, .setMaxSb 9] ++ text [65, 66]) (by decide +kernel)

end Verif.Props.Screen
