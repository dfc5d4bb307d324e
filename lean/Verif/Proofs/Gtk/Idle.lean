import Verif.Proofs.Gtk.Live

/-!
# What the emulator sends is scheduled for writing
-/

namespace Verif.Gtk
open Verif Verif.Vte Wid

/-- From `w` to `w'` a scheduled dispatch stays scheduled, and one is scheduled if the emulator has sent anything to a
child. -/
structure Sched (w w' : Wid) : Prop where
  pty : w'.pty.isSome = w.pty.isSome
  keep : w.idle = true → w'.idle = true
  new : ∃ evs, w'.vte.log = w.vte.log ++ evs ∧ (sent evs ≠ [] → w.pty.isSome = true → w'.idle = true)

theorem Sched.refl (w : Wid) : Sched w w := ⟨rfl, id, [], by simp, fun h => absurd rfl h⟩

theorem Sched.trans {a b c : Wid} (h : Sched a b) (h' : Sched b c) : Sched a c := by
  obtain ⟨e1, l1, n1⟩ := h.new
  obtain ⟨e2, l2, n2⟩ := h'.new
  refine ⟨h'.pty.trans h.pty, fun x => h'.keep (h.keep x), e1 ++ e2, by rw [l2, l1, List.append_assoc], ?_⟩
  intro hs hp
  rw [sent_append'] at hs
  by_cases h1 : sent e1 = []
  · rw [h1, List.nil_append] at hs
    exact n2 hs (h.pty.trans hp)
  · exact h'.keep (n1 h1 hp)

/-- The emulator has sent nothing. -/
theorem Sched.frame {w w' : Wid} (h1 : w'.vte.log = w.vte.log) (h2 : w'.pty.isSome = w.pty.isSome)
    (h3 : w'.idle = w.idle) : Sched w w' := ⟨h2, fun h => h3.trans h, [], by rw [h1, List.append_nil], fun h => absurd rfl h⟩

theorem Sched.from_ {w w0 w' : Wid} (h : Sched w0 w') (h1 : w0.vte.log = w.vte.log) (h2 : w0.pty.isSome = w.pty.isSome)
    (h3 : w0.idle = w.idle) : Sched w w' := Sched.trans (.frame h1 h2 h3) h

theorem scr_log {v v' : Vte} {c : Screen.Call} (h : v.scr c = .ok v') : v'.log = v.log := by
  obtain ⟨s, _, e⟩ := bind_ok h
  injection e with e
  rw [← e]

theorem callbacks_sched : ∀ {evs : List Event} {w w' : Wid}, callbacks evs w = .ok w' →
    w'.pty.isSome = w.pty.isSome ∧ (w.idle = true → w'.idle = true) ∧
      (sent evs ≠ [] → w.pty.isSome = true → w'.idle = true) := by
  intro evs
  induction evs with
  | nil =>
    intro w w' e
    injection e with e
    subst e
    exact ⟨rfl, id, fun h => absurd rfl h⟩
  | cons ev evs ih =>
    intro w w' e
    cases ev with
    | mouse a b => exact ih e
    | osc b =>
      have e : callbacks evs (w.oscFn b) = .ok w' := e
      rw [oscFn_eq] at e
      obtain ⟨h1, h2, h3⟩ := ih e
      exact ⟨h1, h2, h3⟩
    | write b =>
      obtain ⟨w1, e1, e2⟩ := bind_ok e
      obtain ⟨h1, h2, _⟩ := ih e2
      unfold writeFn at e1
      split at e1
      · rename_i hp
        injection e1 with e1
        subst e1
        exact ⟨h1, h2, fun _ h => by rw [hp] at h; cases h⟩
      · rename_i t hp
        obtain ⟨r, _, e1⟩ := bind_ok e1
        split at e1
        · injection e1 with e1
          subst e1
          exact ⟨h1.trans (by rw [hp]; rfl), fun _ => h2 rfl, fun _ _ => h2 rfl⟩
        · cases e1

theorem emu_sched {w w' : Wid} {v : Vte} (hl : ∃ evs, v.log = w.vte.log ++ evs) (e : w.emu v = .ok w') : Sched w w' := by
  obtain ⟨evs, hl⟩ := hl
  have hk := (emu_ok hl e).1
  unfold emu at e
  rw [hl, List.drop_left] at e
  obtain ⟨h1, h2, h3⟩ := callbacks_sched e
  refine ⟨h1, h2, evs, ?_, h3⟩
  rw [hk]
  exact hl

theorem selectAt_sched {w w' : Wid} {fs : Faces} {f : Nat → Nat → Screen.Call} {x y : Int}
    (h : w.selectAt fs f x y = .ok w') : Sched w w' := by
  unfold selectAt at h
  obtain ⟨cx, _, h⟩ := bind_ok h
  obtain ⟨cy, _, h⟩ := bind_ok h
  obtain ⟨v, hv, h⟩ := bind_ok h
  injection h with h
  subst h
  exact .frame (scr_log (lib_ok hv)) rfl rfl

theorem key_sched {w w' : Wid} (hr : Vte.Reachable w.vte) {s : BitVec 32} {t : Option (Nat × BitVec 32)} {k u : Nat}
    (e : w.key s t k u = .ok w') : Sched w w' := by
  unfold key at e
  split at e
  · obtain ⟨v, hv, e⟩ := bind_ok e
    injection e with e
    subst e
    exact .frame (scr_log (lib_ok hv)) rfl rfl
  · generalize (if u = 0 then 0xffffffff else u) = u' at e
    obtain ⟨r, er, e⟩ := bind_ok e
    have er := lib_ok er
    have hok := hr.all.1.keyboard k 0 (mods s) u'
    rw [er] at hok
    unfold keyed at e
    obtain ⟨w1, e1, e⟩ := bind_ok e
    have h1 := emu_sched hok.1.2.log e1
    split at e
    · obtain ⟨v, hv, e⟩ := bind_ok e
      injection e with e
      subst e
      exact h1.trans (.frame (scr_log (lib_ok hv)) rfl rfl)
    · injection e with e
      subst e
      exact h1

theorem readLoop_sched : ∀ {ks : List KRes} {w w' : Wid}, Vte.Reachable w.vte → w.readLoop ks = .ok w' → Sched w w' := by
  intro ks
  induction ks with
  | nil =>
    intro w w' _ h
    injection h with h
    subst h
    exact .refl _
  | cons k ks ih =>
    intro w w' hr h
    unfold readLoop at h
    split at h
    · rename_i t n ht
      split at h
      · injection h with h
        subst h
        exact .refl _
      · obtain ⟨w1, h1, h⟩ := bind_ok h
        obtain ⟨evs, d1⟩ := read_did (e := .idle .again .again .again .again) (fun _ => trivial) hr ht h1
        refine Sched.trans ?_ (ih (d1.reachable hr) h)
        unfold readFn at h1
        obtain ⟨v, hv, h1⟩ := bind_ok h1
        obtain ⟨w2, h2, h1⟩ := bind_ok h1
        injection h1 with h1
        subst h1
        have hv := lib_ok hv
        have hok := hr.all.1.input (t.io.inq.take (min (n + 1) 16383))
        rw [show w.vte.input _ = _ from hv] at hok
        have s1 := emu_sched (w := { w with pty := some { t with io := { t.io with
          inq := t.io.inq.drop (min (n + 1) 16383), got := t.io.got ++ t.io.inq.take (min (n + 1) 16383) } } }) hok.2.log h2
        have hq : w.pty.isSome = true := by rw [ht]; rfl
        exact Sched.from_ (w := w) (s1.trans (.frame rfl rfl rfl)) rfl hq.symm rfl
    · injection h with h
      subst h
      exact .refl _

theorem dispatch_sched {w w' : Wid} (hr : Vte.Reachable w.vte) {r1 r2 w1 w2 : KRes}
    (h : w.dispatch r1 r2 w1 w2 = .ok w') : Sched w w' := by
  obtain ⟨wm, h1, h2⟩ := bind_ok h
  refine (readLoop_sched hr h1).trans ?_
  unfold flush at h2
  split at h2
  · injection h2 with h2
    subst h2
    exact .refl _
  · rename_i t ht
    obtain ⟨r, _, h2⟩ := bind_ok h2
    injection h2 with h2
    subst h2
    exact .frame rfl (by rw [ht]; rfl) rfl

/-- Every event but the start and the end of a child and a scheduled dispatch. -/
theorem step_sched {ink : Ink} {e : Ev} {w w' : Wid} (hr : Vte.Reachable w.vte) (hx : e ≠ .exit)
    (hf : ∀ n, e = .fork n → w.pty.isSome = true) (hi : ∀ a b c d, e ≠ .idle a b c d) (h : w.step ink e = .ok w') :
    Sched w w' := by
  cases e with
  | configure x y m =>
    obtain ⟨cs, d⟩ := configure_did h
    have h : w.configure x y m = _ := h
    unfold configure resizeRend resizeScreen at h
    obtain ⟨wa, ha, h⟩ := bind_ok h
    obtain ⟨wb, hb, h⟩ := bind_ok h
    obtain ⟨r, _, ha⟩ := bind_ok ha
    obtain ⟨r2, _, hb⟩ := bind_ok hb
    cases r with
    | none => cases ha
    | some r =>
      injection ha with ha
      subst ha
      split at hb
      · injection hb with hb
        subst hb
        injection h with h
        subst h
        refine .frame rfl ?_ rfl
        show (Option.map _ w.pty).isSome = _
        rw [Option.isSome_map]
      · cases hb
  | draw =>
    have h : w.draw ink = _ := h
    unfold Wid.draw at h
    split at h
    · injection h with h
      subst h
      exact .frame rfl rfl rfl
    · obtain ⟨d, hd, h⟩ := bind_ok h
      obtain ⟨p, _, h⟩ := bind_ok h
      injection h with h
      subst h
      exact .frame rfl rfl rfl
  | font new =>
    change (if w.faces.isSome then w.setFont new else .ok w) = _ at h
    split at h
    · obtain ⟨fs, _, rfl⟩ := setFont_ok h
      exact .frame rfl rfl rfl
    · injection h with h
      subst h
      exact .refl _
  | sbSize n =>
    obtain ⟨v, hv', h⟩ := bind_ok h
    injection h with h
    subst h
    exact .frame (scr_log (lib_ok hv')) rfl rfl
  | showDirty on =>
    injection h with h
    subst h
    exact .frame rfl rfl rfl
  | key s t k u => exact key_sched hr h
  | button k b t x y =>
    have h : w.button k b t x y = _ := h
    unfold Wid.button at h
    split at h
    · injection h with h
      subst h
      exact .refl _
    · split at h
      · injection h with h
        subst h
        exact .refl _
      · cases k with
        | single =>
          injection h with h
          subst h
          exact .frame rfl rfl rfl
        | double => exact (selectAt_sched (w := { w with sel := 2 }) h).from_ rfl rfl rfl
        | triple => exact (selectAt_sched (w := { w with sel := 2 }) h).from_ rfl rfl rfl
        | release =>
          change w.released t = _ at h
          unfold released at h
          split at h
          · obtain ⟨v, hv, h⟩ := bind_ok h
            injection h with h
            subst h
            exact .frame (scr_log (lib_ok hv)) rfl rfl
          · injection h with h
            subst h
            exact .frame rfl rfl rfl
  | motion x y =>
    have h : w.motion x y = _ := h
    unfold Wid.motion at h
    split at h
    · injection h with h
      subst h
      exact .refl _
    · split at h
      · injection h with h
        subst h
        exact .refl _
      · split at h
        · split at h
          · exact (selectAt_sched h).from_ rfl rfl rfl
          · injection h with h
            subst h
            exact .refl _
        · exact selectAt_sched h
  | fork new =>
    change w.fork new = _ at h
    unfold Wid.fork at h
    rw [if_pos (hf new rfl)] at h
    injection h with h
    subst h
    exact .refl _
  | child d =>
    injection h with h
    subst h
    refine .frame rfl ?_ rfl
    show (Option.map _ w.pty).isSome = _
    rw [Option.isSome_map]
  | dispatch r1 r2 w1 w2 => exact dispatch_sched hr h
  | idle r1 r2 w1 w2 => exact absurd rfl (hi _ _ _ _)
  | exit => exact absurd rfl hx

theorem sent_grown {w w' : Wid} (h : Sched w w') (hp : w.pty.isSome = true) :
    w'.idle = true ∨ sent w'.vte.log = sent w.vte.log := by
  obtain ⟨evs, hl, hn⟩ := h.new
  by_cases he : sent evs = []
  · exact .inr (by rw [hl, sent_append', he, List.append_nil])
  · exact .inl (hn he hp)

/-- A run without the end of the child. -/
theorem run_sched {ink : Ink} : ∀ {es : List Ev} {w w' : Wid}, Alive w → w.pty.isSome = true → (∀ e ∈ es, e.Valid) →
    Ev.exit ∉ es → runAll ink es w = .ok w' → w'.pty.isSome = true ∧
    (w'.idle = true ∨ (sent w'.vte.log = sent w.vte.log ∧ w.idle = false) ∨
      ∃ pre a b c d post wm, es = pre ++ .idle a b c d :: post ∧ runAll ink pre w = .ok wm ∧
        sent w'.vte.log = sent wm.vte.log) := by
  intro es
  induction es with
  | nil =>
    intro w w' _ hp _ _ h
    injection h with h
    subst h
    refine ⟨hp, ?_⟩
    cases hi : w.idle with
    | true => exact .inl rfl
    | false => exact .inr (.inl ⟨rfl, rfl⟩)
  | cons e es ih =>
    intro w w' ha hp hv hx h
    obtain ⟨w1, h1, h⟩ := bind_ok h
    have he := hv e List.mem_cons_self
    have hne : e ≠ .exit := by rintro rfl; exact hx List.mem_cons_self
    -- what the first event has done, from the state in which it begins
    have hs : Sched w w1 ∨ ∃ a b c d, e = .idle a b c d ∧ Sched { w with idle := false } w1 := by
      by_cases hi : ∃ a b c d, e = .idle a b c d
      · obtain ⟨a, b, c, d, rfl⟩ := hi
        exact .inr ⟨a, b, c, d, rfl, dispatch_sched (w := { w with idle := false }) ha.sane.vte h1⟩
      · exact .inl (step_sched ha.sane.vte hne (fun _ _ => hp) (fun a b c d hh => hi ⟨a, b, c, d, hh⟩) h1)
    have hp1 : w1.pty.isSome = true := by
      rcases hs with hs | ⟨_, _, _, _, _, hs⟩
      · exact hs.pty.trans hp
      · exact hs.pty.trans hp
    obtain ⟨hp2, hr⟩ := ih (ha.step he h1) hp1 (fun d hd => hv d (List.mem_cons_of_mem _ hd))
      (fun hd => hx (List.mem_cons_of_mem _ hd)) h
    refine ⟨hp2, ?_⟩
    rcases hr with hr | ⟨hr, hi⟩ | ⟨pre, a, b, c, d, post, wm, k1, k2, k3⟩
    · exact .inl hr
    · rcases hs with hs | ⟨a, b, c, d, rfl, hs⟩
      · rcases sent_grown hs hp with hh | hh
        · rw [hh] at hi; cases hi
        · refine .inr (.inl ⟨hr.trans hh, ?_⟩)
          cases h0 : w.idle with
          | false => rfl
          | true => rw [hs.keep h0] at hi; cases hi
      · rcases sent_grown hs hp with hh | hh
        · rw [hh] at hi; cases hi
        · exact .inr (.inr ⟨[], a, b, c, d, es, w, rfl, rfl, hr.trans hh⟩)
    · refine .inr (.inr ⟨e :: pre, a, b, c, d, post, wm, by rw [k1]; rfl, ?_, k3⟩)
      show (w.step ink e >>= runAll ink pre) = _
      rw [h1]
      exact k2

end Verif.Gtk
