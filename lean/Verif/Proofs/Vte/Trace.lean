import Verif.Spec.Trace
import Verif.Spec.Tracking
import Verif.Proofs.Screen.Settings
import Verif.Proofs.Vte.Text

/-!
# What actions send, show and set

These facts hold in all states, no invariant is needed.
-/

namespace Verif
namespace Vte

/-- Only characters with `L` are written. -/
def Prints (L : Nat → Prop) : Screen.Call → Prop
  | .write ch _ => L ch
  | _ => True

/-- The callback of the mouse is set, mode and events of the mouse have one of the known values, and the last call
of the callback told about them if anything can be reported. -/
structure Tracked (v : Vte) : Prop where
  cb : v.mouseCb = true
  mode : v.mouseMode = 0 ∨ v.mouseMode = 9 ∨ v.mouseMode = 1006 ∨ v.mouseMode = 1016
  event : v.mouseEvent = 0 ∨ v.mouseEvent = 1002 ∨ v.mouseEvent = 1003
  x10 : v.mouseMode = 9 → v.mouseEvent = 1002
  told : v.mouseMode ≠ 0 → v.mouseEvent ≠ 0 → Mouse.told v.log = some (v.mouseEvent, decide (v.mouseMode = 1016))

/-- The fields about the mouse. -/
def mice (v : Vte) : Bool × Nat × Nat := (v.mouseCb, v.mouseMode, v.mouseEvent)

theorem Tracked.same {v v' : Vte} (h : Tracked v) (ms : v'.mice = v.mice) (log : Mouse.told v'.log = Mouse.told v.log) : Tracked v' := by
  unfold mice at ms
  injection ms with m1 m2
  injection m2 with m2 m3
  exact ⟨m1.trans h.cb, by rw [m2]; exact h.mode, by rw [m3]; exact h.event, by rw [m2, m3]; exact h.x10,
    by rw [m2, m3, log]; exact h.told⟩

/-- What an action does: only characters with `L` are written to the screen, only answers are sent and at
most `n` of them, apart from an ESC that was to be sent before the next string, and the modes stay in agreement. -/
structure Tr (n : Nat) (L : Nat → Prop) (v v' : Vte) : Prop where
  run : ∃ cs, (∀ c ∈ cs, Prints L c) ∧ Screen.runAll cs v.con = .ok v'.con
  esc : v.fPrepend = false → v'.fPrepend = false
  log : ∃ evs, v'.log = v.log ++ evs ∧ (∀ b ∈ sent evs, Answer b ∨ (v.fPrepend = true ∧ b = [27])) ∧
    (v.fPrepend = false → (sent evs).length ≤ n)
  sync : Synced v → Synced v'
  track : Tracked v → Tracked v'

/-- An action does only that, if it has an outcome. -/
structure Trd (n : Nat) (L : Nat → Prop) (v : Vte) (x : R Vte) : Prop where
  out : R.Post x (Tr n L v)

variable {n m : Nat} {L : Nat → Prop}

theorem sent_append (a b : List Event) : sent (a ++ b) = sent a ++ sent b := by
  induction a with
  | nil => rfl
  | cons e a ih =>
    cases e with
    | write x => show x :: sent (a ++ b) = x :: sent a ++ sent b; rw [ih]; rfl
    | osc x => exact ih
    | mouse t p => exact ih

theorem told_append : ∀ a b : List Event, Mouse.told b = none → Mouse.told (a ++ b) = Mouse.told a := by
  intro a b h
  induction a with
  | nil => exact h
  | cons e a ih =>
    show Mouse.told (e :: (a ++ b)) = _
    unfold Mouse.told
    rw [ih]

theorem told_mouse (a : List Event) (t : Nat) (p : Bool) : Mouse.told (a ++ [.mouse t p]) = some (t, p) := by
  induction a with
  | nil => rfl
  | cons e a ih =>
    show Mouse.told (e :: (a ++ [.mouse t p])) = _
    unfold Mouse.told
    rw [ih]

theorem Tr.refl (v : Vte) : Tr n L v v :=
  ⟨⟨[], by simp, rfl⟩, id, ⟨[], by simp, (fun b hb => by cases hb), fun _ => Nat.zero_le _⟩, id, id⟩

theorem Tr.trans {u v w : Vte} (h : Tr n L u v) (h' : Tr m L v w) : Tr (n + m) L u w := by
  obtain ⟨c1, v1, r1⟩ := h.run
  obtain ⟨c2, v2, r2⟩ := h'.run
  refine ⟨⟨c1 ++ c2, ?_, by rw [runAll_append, r1]; exact r2⟩, fun h0 => h'.esc (h.esc h0), ?_, fun hs => h'.sync (h.sync hs), fun hs => h'.track (h.track hs)⟩
  · intro c hc
    rcases List.mem_append.mp hc with hc | hc
    · exact v1 c hc
    · exact v2 c hc
  · obtain ⟨e1, l1, a1, s1⟩ := h.log
    obtain ⟨e2, l2, a2, s2⟩ := h'.log
    refine ⟨e1 ++ e2, by rw [l2, l1, List.append_assoc], ?_, ?_⟩
    · intro b hb
      rw [sent_append] at hb
      rcases List.mem_append.mp hb with hb | hb
      · exact a1 b hb
      · rcases a2 b hb with hb | ⟨hv, hb⟩
        · exact Or.inl hb
        · refine Or.inr ⟨?_, hb⟩
          cases hu : u.fPrepend with
          | true => rfl
          | false => exact absurd (h.esc hu) (by rw [hv]; decide)
    · intro h0
      rw [sent_append, List.length_append]
      exact Nat.add_le_add (s1 h0) (s2 (h.esc h0))

theorem Tr.mono {v w : Vte} (h : Tr n L v w) (hn : n ≤ m) : Tr m L v w :=
  ⟨h.run, h.esc, by
    obtain ⟨e, h1, h2, h3⟩ := h.log
    exact ⟨e, h1, h2, fun h0 => Nat.le_trans (h3 h0) hn⟩, h.sync, h.track⟩

theorem Tr.weaken {K : Nat → Prop} {v w : Vte} (h : Tr n L v w) (hk : ∀ ch, L ch → K ch) : Tr n K v w := by
  refine ⟨?_, h.esc, h.log, h.sync, h.track⟩
  obtain ⟨cs, h1, h2⟩ := h.run
  refine ⟨cs, ?_, h2⟩
  intro c hc
  have := h1 c hc
  cases c <;> first | exact trivial | exact hk _ this

/-- Nothing but the mouse and fields that do not matter is changed. -/
theorem Tr.tracks {v v' : Vte} (con : v'.con = v.con) (log : v'.log = v.log) (fl : v'.flags = v.flags)
    (tr : Tracked v → Tracked v') : Tr 0 L v v' := by
  refine ⟨⟨[], by simp, by rw [con]; rfl⟩, fun h => ?_, ⟨[], by simp [log], (fun b hb => by cases hb), fun _ => Nat.le_refl _⟩, fun h => ?_, tr⟩
  · unfold fPrepend; rw [fl]; exact h
  · exact ⟨by rw [con, fl]; exact h.insert, by rw [con, fl]; exact h.inverse, by rw [con, fl]; exact h.origin,
      by rw [con, fl]; exact h.wrap, by rw [con, fl]; exact h.cursor⟩

/-- Nothing but fields that do not matter is changed. -/
theorem Tr.silent {v v' : Vte} (con : v'.con = v.con) (log : v'.log = v.log) (fl : v'.flags = v.flags)
    (ms : v'.mice = v.mice := by rfl) : Tr 0 L v v' := Tr.tracks con log fl (fun h => h.same ms (by rw [log]))

theorem Trd.ok {v v' : Vte} (h : Tr n L v v') : Trd n L v (.ok v') := ⟨h⟩

theorem Trd.seq {α : Type} {v : Vte} {x : R α} {f : α → R Vte} {P : α → Prop} (h : R.Post x P)
    (hf : ∀ a, P a → Trd n L v (f a)) : Trd n L v (x >>= f) :=
  ⟨R.Post.bind h (fun a ha => (hf a ha).out)⟩

theorem Trd.mono {v : Vte} {x : R Vte} (h : Trd n L v x) (hn : n ≤ m) : Trd m L v x :=
  ⟨R.SatK.mono h.out (fun _ h => h) (fun _ h => h.mono hn)⟩

theorem Trd.after {u v : Vte} {x : R Vte} (ht : Tr 0 L u v) (h : Trd n L v x) : Trd n L u x :=
  ⟨R.SatK.mono h.out (fun _ h => h) (fun _ h => by have := ht.trans h; rw [Nat.zero_add] at this; exact this)⟩

theorem Trd.bind {v : Vte} {x : R Vte} {f : Vte → R Vte} (h : Trd 0 L v x) (hf : ∀ v', Trd n L v' (f v')) :
    Trd n L v (x >>= f) :=
  ⟨R.Post.bind h.out (fun v' ht => (Trd.after ht (hf v')).out)⟩

/-- Preceding by any computation. -/
theorem Trd.pre {α : Type} {v : Vte} {x : R α} {f : α → R Vte} (hf : ∀ a, Trd n L v (f a)) : Trd n L v (x >>= f) :=
  ⟨R.Post.bind R.Post.any (fun a _ => (hf a).out)⟩

theorem Trd.same (v : Vte) : Trd n L v (.ok v) := .ok (Tr.refl v)

theorem Trd.ite {q : Prop} [Decidable q] {v : Vte} {x y : R Vte} (hx : Trd n L v x) (hy : Trd n L v y) :
    Trd n L v (if q then x else y) := ⟨R.Post.ite hx.out hy.out⟩

theorem Trd.silent {v v' : Vte} (con : v'.con = v.con) (log : v'.log = v.log) (fl : v'.flags = v.flags)
    (ms : v'.mice = v.mice := by rfl) : Trd n L v (.ok v') :=
  .ok ((Tr.silent con log fl ms).mono (Nat.zero_le _))

/-! ### Elementary steps -/

theorem Tr.setFlag (v : Vte) (b : Bool) {k : Nat} (hk : k ≠ 7 ∧ k ≠ 9 ∧ k ≠ 10 ∧ k ≠ 11 ∧ k ≠ 12 ∧ (k ≠ 16 ∨ b = false)) :
    Tr 0 L v (v.setFlag b k) := by
  refine ⟨⟨[], by simp, rfl⟩, fun h => ?_, ⟨[], by simp [Vte.setFlag], (fun b hb => by cases hb), fun _ => Nat.le_refl _⟩, fun h => ?_,
    fun h => h.same rfl rfl⟩
  · show (v.setFlag b k).flags.getLsbD 16 = false
    rw [flag_setFlag v b (by decide)]
    split
    · rcases hk.2.2.2.2.2 with h1 | h1
      · exact absurd (by assumption) h1
      · exact h1
    · exact h
  · refine ⟨?_, ?_, ?_, ?_, ?_⟩
    · rw [flag_setFlag v b (by decide), if_neg hk.1]; exact h.insert
    · rw [flag_setFlag v b (by decide), if_neg hk.2.2.1]; exact h.inverse
    · rw [flag_setFlag v b (by decide), if_neg hk.2.2.2.1]; exact h.origin
    · rw [flag_setFlag v b (by decide), if_neg hk.2.2.2.2.1]; exact h.wrap
    · rw [flag_setFlag v b (by decide), if_neg hk.2.1]; exact h.cursor

theorem Trd.flag (v : Vte) (b : Bool) {k : Nat} (hk : k ≠ 7 ∧ k ≠ 9 ∧ k ≠ 10 ∧ k ≠ 11 ∧ k ≠ 12) (h16 : k ≠ 16 ∨ b = false) :
    Trd n L v (.ok (v.setFlag b k)) :=
  .ok ((Tr.setFlag v b ⟨hk.1, hk.2.1, hk.2.2.1, hk.2.2.2.1, hk.2.2.2.2, h16⟩).mono (Nat.zero_le _))

/-- A call of the screen after changing a flag, if the modes are in agreement afterwards. -/
theorem scr_from {u v : Vte} (con : v.con = u.con) (log : v.log = u.log) (esc : u.fPrepend = false → v.fPrepend = false)
    {c : Screen.Call} (hp : Prints L c) (hs : R.Post (c.run v.con) (fun s => Synced u → Synced { v with con := s }))
    (ms : v.mice = u.mice := by rfl) : Trd n L u (v.scr c) := by
  unfold Vte.scr
  cases e : c.run v.con with
  | error u => exact ⟨trivial⟩
  | ok s =>
    rw [e] at hs
    refine .ok ⟨⟨[c], ?_, ?_⟩, esc, ⟨[], by simp [log], (fun b hb => by cases hb), fun _ => Nat.zero_le _⟩, hs,
      fun h => h.same ms (by rw [← log])⟩
    · intro d hd
      rw [List.mem_singleton.mp hd]
      exact hp
    · rw [← con]
      show (c.run v.con >>= fun s => Screen.runAll [] s) = _
      rw [e]; rfl

/-- A call of the screen, if the modes are in agreement afterwards. -/
theorem scr_trd {v : Vte} {c : Screen.Call} (hp : Prints L c)
    (hs : R.Post (c.run v.con) (fun s => Synced v → Synced { v with con := s })) : Trd n L v (v.scr c) :=
  scr_from rfl rfl id hp hs

/-- A call of the screen that sets no mode. -/
theorem scr_plain {v : Vte} {c : Screen.Call} (hm : c.setsModes = false) (hp : Prints L c) : Trd n L v (v.scr c) := by
  refine scr_trd hp (R.SatK.mono (Screen.step_settled c) (fun _ h => h) ?_)
  intro s h hs
  have e : s.flags = v.con.flags := (h.modes hm).1
  exact ⟨by rw [e]; exact hs.insert, by rw [e]; exact hs.inverse, by rw [e]; exact hs.origin, by rw [e]; exact hs.wrap,
    by rw [e]; exact hs.cursor⟩

/-- A call that sets or resets a flag, if the modes are in agreement afterwards. -/
theorem scr_flags {u v : Vte} (con : v.con = u.con) (log : v.log = u.log) (esc : u.fPrepend = false → v.fPrepend = false)
    (set : Bool) (f : BitVec 32)
    (hs : ∀ s : Screen, s.flags = (if set then u.con.flags ||| f else u.con.flags &&& ~~~f) → Synced u → Synced { v with con := s })
    (ms : v.mice = u.mice := by rfl) : Trd n L u (v.scr (if set then .setFlags f else .resetFlags f)) := by
  rw [← con] at hs
  cases set with
  | true =>
    refine scr_from con log esc trivial (R.SatK.mono (Screen.setFlags_modes v.con f) (fun _ h => h) ?_) ms
    rintro s ⟨b, a, h⟩
    exact hs s (congrArg Screen.Setup.flags h)
  | false =>
    refine scr_from con log esc trivial (R.SatK.mono (Screen.resetFlags_modes v.con f) (fun _ h => h) ?_) ms
    rintro s ⟨b, a, h⟩
    exact hs s (congrArg Screen.Setup.flags h)

/-- One bit after setting or resetting flags. -/
theorem flags_bit {set : Bool} {x f y : BitVec 32} (h : y = if set then x ||| f else x &&& ~~~f) {k : Nat} (hk : k < 32)
    {b : Bool} (hf : f.getLsbD k = b) : y.getLsbD k = if b then set else x.getLsbD k := by
  rw [h]
  cases set
  · show (x &&& ~~~f).getLsbD k = _
    rw [BitVec.getLsbD_and, BitVec.getLsbD_not, hf]
    cases b <;> simp [hk]
  · show (x ||| f).getLsbD k = _
    rw [BitVec.getLsbD_or, hf]
    cases b <;> simp

/-- The alternate screen. -/
theorem alternate_trd (v : Vte) (set : Bool) :
    Trd n L v (v.scr (if set then .setFlags Screen.ALTERNATE else .resetFlags Screen.ALTERNATE)) := by
  refine scr_flags rfl rfl id set _ ?_
  intro s e h
  refine ⟨?_, ?_, ?_, ?_, ?_⟩
  · exact (flags_bit e (k := 0) (by decide) (b := false) (by decide)).trans h.insert
  · exact (flags_bit e (k := 3) (by decide) (b := false) (by decide)).trans h.inverse
  · exact (flags_bit e (k := 2) (by decide) (b := false) (by decide)).trans h.origin
  · exact (flags_bit e (k := 1) (by decide) (b := false) (by decide)).trans h.wrap
  · exact (flags_bit e (k := 4) (by decide) (b := false) (by decide)).trans h.cursor

theorem setFlag_esc (v : Vte) (set : Bool) {k : Nat} (hk : k ≠ 16) (h : v.fPrepend = false) :
    (v.setFlag set k).fPrepend = false := by
  show (v.setFlag set k).flags.getLsbD 16 = false
  rw [flag_setFlag v set (by decide), if_neg hk]
  exact h

theorem mode_trd (v : Vte) (set d : Bool) (k : Nat) (hk : k ≠ 16) (f : BitVec 32)
    (hs : ∀ (s : Screen) (x : BitVec 32), s.flags = (if d then v.con.flags ||| f else v.con.flags &&& ~~~f) → Synced v →
      x = (v.setFlag set k).flags → s.flags.getLsbD 0 = x.getLsbD 7 ∧ s.flags.getLsbD 3 = x.getLsbD 10 ∧
        s.flags.getLsbD 2 = x.getLsbD 11 ∧ s.flags.getLsbD 1 = x.getLsbD 12 ∧ s.flags.getLsbD 4 = !x.getLsbD 9) :
    Trd n L v ((v.setFlag set k).scr (if d then .setFlags f else .resetFlags f)) := by
  refine scr_flags (u := v) (v := v.setFlag set k) rfl rfl (setFlag_esc v set hk) d f ?_
  intro s e h
  obtain ⟨h1, h2, h3, h4, h5⟩ := hs s _ e h rfl
  exact ⟨h1, h2, h3, h4, h5⟩

theorem insert_trd (v : Vte) (set : Bool) : Trd n L v (v.modeFlag set 7 Screen.INSERT_MODE) := by
  refine mode_trd v set set 7 (by decide) Screen.INSERT_MODE ?_
  intro s x e h hx
  refine ⟨?_, ?_, ?_, ?_, ?_⟩
  · rw [flags_bit e (k := 0) (by decide) (b := true) (by decide), hx, flag_setFlag v set (by decide)]; exact rfl
  · rw [flags_bit e (k := 3) (by decide) (b := false) (by decide), hx, flag_setFlag v set (by decide)]; exact h.inverse
  · rw [flags_bit e (k := 2) (by decide) (b := false) (by decide), hx, flag_setFlag v set (by decide)]; exact h.origin
  · rw [flags_bit e (k := 1) (by decide) (b := false) (by decide), hx, flag_setFlag v set (by decide)]; exact h.wrap
  · rw [flags_bit e (k := 4) (by decide) (b := false) (by decide), hx, flag_setFlag v set (by decide)]; exact h.cursor

theorem inverse_trd (v : Vte) (set : Bool) : Trd n L v (v.modeFlag set 10 Screen.INVERSE) := by
  refine mode_trd v set set 10 (by decide) Screen.INVERSE ?_
  intro s x e h hx
  refine ⟨?_, ?_, ?_, ?_, ?_⟩
  · rw [flags_bit e (k := 0) (by decide) (b := false) (by decide), hx, flag_setFlag v set (by decide)]; exact h.insert
  · rw [flags_bit e (k := 3) (by decide) (b := true) (by decide), hx, flag_setFlag v set (by decide)]; exact rfl
  · rw [flags_bit e (k := 2) (by decide) (b := false) (by decide), hx, flag_setFlag v set (by decide)]; exact h.origin
  · rw [flags_bit e (k := 1) (by decide) (b := false) (by decide), hx, flag_setFlag v set (by decide)]; exact h.wrap
  · rw [flags_bit e (k := 4) (by decide) (b := false) (by decide), hx, flag_setFlag v set (by decide)]; exact h.cursor

theorem origin_trd (v : Vte) (set : Bool) : Trd n L v (v.modeFlag set 11 Screen.REL_ORIGIN) := by
  refine mode_trd v set set 11 (by decide) Screen.REL_ORIGIN ?_
  intro s x e h hx
  refine ⟨?_, ?_, ?_, ?_, ?_⟩
  · rw [flags_bit e (k := 0) (by decide) (b := false) (by decide), hx, flag_setFlag v set (by decide)]; exact h.insert
  · rw [flags_bit e (k := 3) (by decide) (b := false) (by decide), hx, flag_setFlag v set (by decide)]; exact h.inverse
  · rw [flags_bit e (k := 2) (by decide) (b := true) (by decide), hx, flag_setFlag v set (by decide)]; exact rfl
  · rw [flags_bit e (k := 1) (by decide) (b := false) (by decide), hx, flag_setFlag v set (by decide)]; exact h.wrap
  · rw [flags_bit e (k := 4) (by decide) (b := false) (by decide), hx, flag_setFlag v set (by decide)]; exact h.cursor

theorem wrap_trd (v : Vte) (set : Bool) : Trd n L v (v.modeFlag set 12 Screen.AUTO_WRAP) := by
  refine mode_trd v set set 12 (by decide) Screen.AUTO_WRAP ?_
  intro s x e h hx
  refine ⟨?_, ?_, ?_, ?_, ?_⟩
  · rw [flags_bit e (k := 0) (by decide) (b := false) (by decide), hx, flag_setFlag v set (by decide)]; exact h.insert
  · rw [flags_bit e (k := 3) (by decide) (b := false) (by decide), hx, flag_setFlag v set (by decide)]; exact h.inverse
  · rw [flags_bit e (k := 2) (by decide) (b := false) (by decide), hx, flag_setFlag v set (by decide)]; exact h.origin
  · rw [flags_bit e (k := 1) (by decide) (b := true) (by decide), hx, flag_setFlag v set (by decide)]; exact rfl
  · rw [flags_bit e (k := 4) (by decide) (b := false) (by decide), hx, flag_setFlag v set (by decide)]; exact h.cursor

/-- The text cursor. -/
theorem cursor_trd (v : Vte) (set : Bool) :
    Trd n L v ((v.setFlag set 9).scr (if set then .resetFlags Screen.HIDE_CURSOR else .setFlags Screen.HIDE_CURSOR)) := by
  rw [show (if set then Screen.Call.resetFlags Screen.HIDE_CURSOR else .setFlags Screen.HIDE_CURSOR) =
    if (!set) = true then .setFlags Screen.HIDE_CURSOR else .resetFlags Screen.HIDE_CURSOR from by cases set <;> rfl]
  refine mode_trd v set (!set) 9 (by decide) Screen.HIDE_CURSOR ?_
  intro s x e h hx
  refine ⟨?_, ?_, ?_, ?_, ?_⟩
  · rw [flags_bit e (k := 0) (by decide) (b := false) (by decide), hx, flag_setFlag v set (by decide)]; exact h.insert
  · rw [flags_bit e (k := 3) (by decide) (b := false) (by decide), hx, flag_setFlag v set (by decide)]; exact h.inverse
  · rw [flags_bit e (k := 2) (by decide) (b := false) (by decide), hx, flag_setFlag v set (by decide)]; exact h.origin
  · rw [flags_bit e (k := 1) (by decide) (b := false) (by decide), hx, flag_setFlag v set (by decide)]; exact h.wrap
  · rw [flags_bit e (k := 4) (by decide) (b := true) (by decide), hx, flag_setFlag v set (by decide)]; exact rfl

/-! ### Sending -/

theorem send_tr (v : Vte) {b : List UInt8} (hb : Answer b) : Tr 1 L v (v.send b) := by
  refine ⟨⟨[], by simp, ?_⟩, fun _ => send_prepend v b, ?_, ?_, fun h => ?_⟩
  · unfold Vte.send; split <;> rfl
  · cases h0 : v.fPrepend with
    | false =>
      refine ⟨[.write b], ?_, ?_, fun _ => Nat.le_refl _⟩
      · unfold Vte.send
        rw [if_neg (by rw [h0]; exact Bool.false_ne_true)]
        rfl
      · intro x hx
        rw [List.mem_singleton.mp hx]
        exact Or.inl hb
    | true =>
      refine ⟨[.write [27], .write b], ?_, ?_, fun h => (nomatch h)⟩
      · unfold Vte.send
        rw [if_pos h0]
        show v.log ++ [.write [27]] ++ [.write b] = _
        rw [List.append_assoc]
        rfl
      · intro x hx
        change x ∈ [[27], b] at hx
        rcases List.mem_cons.mp hx with rfl | hx
        · exact Or.inr ⟨rfl, rfl⟩
        · rw [List.mem_singleton.mp hx]; exact Or.inl hb
  · intro h
    have key : ∀ w : Vte, w.con = v.con → w.flags = v.flags → Synced (w.setFlag false 16) := by
      intro w h1 h2
      have hw : Synced w := ⟨by rw [h1, h2]; exact h.insert, by rw [h1, h2]; exact h.inverse, by rw [h1, h2]; exact h.origin,
        by rw [h1, h2]; exact h.wrap, by rw [h1, h2]; exact h.cursor⟩
      exact (Tr.setFlag (L := fun _ => True) w false (k := 16) (by decide)).sync hw
    unfold Vte.send
    split
    · exact key _ rfl rfl
    · exact key _ rfl rfl
  · unfold Vte.send
    split
    · refine h.same rfl ?_
      show Mouse.told (v.log ++ [.write [27]] ++ [.write b]) = _
      rw [told_append _ _ rfl, told_append _ _ rfl]
    · exact h.same rfl (told_append v.log [.write b] rfl)

theorem reply_trd (v : Vte) {b : List UInt8} (hb : Answer b) : Trd 1 L v (v.reply b) := by
  unfold Vte.reply
  split
  · exact ⟨R.Post.err⟩
  · exact Trd.ok (send_tr v hb)

theorem dec_digits {k : Nat} (h : k < 2 ^ 32) : Digits (dec k) := by
  obtain ⟨_, h1, h2, h3, _⟩ := dec_spec h
  exact ⟨h2, h3, h1⟩

/-! ### Actions -/

theorem writeConsole_trd (v : Vte) {sym : Nat} (h : L sym) : Trd n L v (v.writeConsole sym) := by
  unfold Vte.writeConsole
  refine Trd.pre ?_
  intro a
  exact Trd.after (v := { v with cattr := a }) (Tr.silent rfl rfl rfl) (scr_plain rfl h)

theorem bce_trd (v : Vte) : Trd n L v v.bce := by
  unfold Vte.bce
  split
  · exact scr_plain rfl trivial
  · exact Trd.same v

theorem restoreState_trd (v : Vte) : Trd n L v v.restoreState := by
  unfold Vte.restoreState
  refine Trd.bind (scr_plain rfl trivial) ?_
  intro v
  refine Trd.pre ?_
  intro a
  refine Trd.bind (Trd.after (v := { v with cattr := a }) (Tr.silent rfl rfl rfl) (bce_trd _)) ?_
  intro v
  dsimp only
  refine Trd.bind (Trd.after (v := { v with gl := v.saved.gl, gr := v.saved.gr }) (Tr.silent rfl rfl rfl) (wrap_trd _ _)) ?_
  intro v
  exact origin_trd _ _

/-- What a step that does not end in agreement does: no character is written and nothing is sent. -/
theorem reset_core (v : Vte) : R.Post v.reset (fun v' => Tr n L v v' ∧ Synced v') := by
  unfold Vte.reset
  have h1 : R.Post (scr { v with flags := resetFlags } .reset)
      (fun v1 => Screen.runAll [.reset] v.con = .ok v1.con ∧ v1.log = v.log ∧ v1.flags = resetFlags ∧ v1.con.flags = 0#32 ∧
        v1.mice = v.mice) := by
    unfold Vte.scr
    cases e : Screen.Call.run { v with flags := resetFlags }.con .reset with
    | error u => trivial
    | ok s =>
      have e : Screen.Call.run v.con .reset = .ok s := e
      refine ⟨?_, rfl, rfl, ?_⟩
      · show (Screen.Call.run v.con .reset >>= fun s => Screen.runAll [] s) = _
        rw [e]; rfl
      · have e : v.con.reset = .ok s := e
        unfold Screen.reset at e
        dsimp only at e
        cases et : Screen.initTabs v.con.incAge.touch.tabRuler v.con.incAge.touch.sizeX with
        | error u => rw [et] at e; cases e
        | ok tab => rw [et] at e; injection e with e; rw [← e]; exact ⟨rfl, rfl⟩
  refine R.Post.bind h1 ?_
  rintro v1 ⟨r1, l1, f1, c1, m1⟩
  have h2 : R.Post (scr v1 (.setFlags Screen.AUTO_WRAP)) (fun v' => Tr n L v v' ∧ Synced v') := by
    unfold Vte.scr
    have hm := Screen.setFlags_modes v1.con Screen.AUTO_WRAP
    have hm : R.Post (Screen.Call.run v1.con (.setFlags Screen.AUTO_WRAP)) _ := hm
    cases e : Screen.Call.run v1.con (.setFlags Screen.AUTO_WRAP) with
    | error u => trivial
    | ok s =>
      rw [e] at hm
      obtain ⟨b, a, hm⟩ := hm
      have hf : s.flags = v1.con.flags ||| Screen.AUTO_WRAP := congrArg Screen.Setup.flags hm
      rw [c1] at hf
      have hs : Synced { v1 with con := s } := by
        refine ⟨?_, ?_, ?_, ?_, ?_⟩ <;>
        · show s.flags.getLsbD _ = _
          rw [hf]
          show _ = _
          first
            | (show _ = v1.flags.getLsbD _; rw [f1]; decide)
            | (show _ = !v1.flags.getLsbD _; rw [f1]; decide)
      refine R.Post.ok ⟨⟨⟨[.reset] ++ [.setFlags Screen.AUTO_WRAP], ?_, ?_⟩, ?_, ?_, fun _ => hs, fun h => h.same m1 (by show Mouse.told v1.log = _; rw [l1])⟩, hs⟩
      · intro c hc
        simp only [List.cons_append, List.nil_append, List.mem_cons, List.not_mem_nil, or_false] at hc
        rcases hc with rfl | rfl <;> trivial
      · rw [runAll_append, r1]
        show (Screen.Call.run v1.con (.setFlags Screen.AUTO_WRAP) >>= fun s => Screen.runAll [] s) = _
        rw [e]; rfl
      · intro _
        show v1.flags.getLsbD 16 = false
        rw [f1]; decide
      · exact ⟨[], by show v1.log = _; simp [l1], (fun b hb => by cases hb), fun _ => Nat.zero_le _⟩
  refine R.Post.bind h2 ?_
  rintro v2 ⟨h2, hs2⟩
  refine R.Post.bind R.Post.any ?_
  intro a _
  have h3 : Trd 0 L v2 ((scr { v2.resetFields with cattr := a } (.setDefAttr v2.resetFields.defAttr)) >>= fun v => pure v.resetState) := by
    have h4 : Trd 0 L v2 (scr { v2.resetFields with cattr := a } (.setDefAttr v2.resetFields.defAttr)) :=
      Trd.after (Tr.tracks (v' := { v2.resetFields with cattr := a }) rfl rfl rfl
        (fun h => ⟨h.cb, Or.inl rfl, Or.inl rfl, (fun h => by cases h), fun h => absurd rfl h⟩)) (scr_plain (c := .setDefAttr v2.resetFields.defAttr) rfl trivial)
    refine Trd.seq h4.out ?_
    intro v3 h3
    have := h3.trans (Tr.silent (L := L) (v := v3) (v' := v3.resetState) rfl rfl rfl)
    exact Trd.ok this
  exact R.SatK.mono h3.out (fun _ h => h) (fun _ h => ⟨h2.trans h, h.sync hs2⟩)

theorem reset_trd (v : Vte) : Trd n L v v.reset := ⟨R.SatK.mono (reset_core v) (fun _ h => h) (fun _ h => h.1)⟩

theorem hardReset_trd (v : Vte) : Trd n L v v.hardReset := by
  unfold Vte.hardReset
  refine Trd.bind (reset_trd v) (fun v => ?_)
  refine Trd.bind (scr_plain rfl trivial) (fun v => ?_)
  refine Trd.bind (scr_plain rfl trivial) (fun v => ?_)
  exact scr_plain rfl trivial

theorem execute_trd (v : Vte) {ctrl : Nat} (h : ctrl = 0x1a → L 0xbf) : Trd 1 L v (v.execute ctrl) := by
  unfold Vte.execute
  split
  · exact reply_trd v .ack
  · exact scr_plain rfl trivial
  · exact scr_plain rfl trivial
  · exact Trd.ite (scr_plain rfl trivial) (scr_plain rfl trivial)
  · exact Trd.ite (scr_plain rfl trivial) (scr_plain rfl trivial)
  · exact Trd.ite (scr_plain rfl trivial) (scr_plain rfl trivial)
  · exact scr_plain rfl trivial
  · exact Trd.silent rfl rfl rfl
  · exact Trd.silent rfl rfl rfl
  · exact writeConsole_trd v (h rfl)
  · exact scr_plain rfl trivial
  · exact scr_plain rfl trivial
  · exact scr_plain rfl trivial
  · exact scr_plain rfl trivial
  · exact Trd.silent rfl rfl rfl
  · exact Trd.silent rfl rfl rfl
  · exact reply_trd v .primary
  · exact Trd.same v

theorem param_trd (v : Vte) (data : Nat) : Trd n L v (v.param data) := by
  unfold Vte.param
  split
  · split
    · exact Trd.silent rfl rfl rfl
    · exact Trd.same v
  · split
    · exact Trd.same v
    · refine Trd.pre ?_
      intro old
      split
      · exact Trd.same v
      · split
        · exact Trd.silent rfl rfl rfl
        · exact Trd.same v

theorem escPlain_trd (v : Vte) (data : Nat) : Trd 1 L v (v.escPlain data) := by
  unfold Vte.escPlain
  split
  all_goals first
    | exact scr_plain rfl trivial
    | exact Trd.silent rfl rfl rfl
    | exact Trd.flag v _ (by decide) (Or.inl (by decide))
    | exact reply_trd v .primary
    | exact hardReset_trd v
    | exact restoreState_trd v
    | exact Trd.same v

theorem escDispatch_trd (v : Vte) (data : Nat) : Trd 1 L v (v.escDispatch data) := by
  unfold Vte.escDispatch
  split
  · rename_i v' e
    refine Trd.ok ((?_ : Tr 0 L v v').mono (Nat.zero_le _))
    cases hc : escCharset data with
    | none => rw [hc] at e; cases e
    | some c =>
      rw [hc] at e
      have e : v.setCharset c = some v' := e
      unfold Vte.setCharset at e
      split at e
      · injection e with e; rw [← e]; exact Tr.silent rfl rfl rfl
      · split at e
        · injection e with e; rw [← e]; exact Tr.silent rfl rfl rfl
        · split at e
          · injection e with e; rw [← e]; exact Tr.silent rfl rfl rfl
          · split at e
            · injection e with e; rw [← e]; exact Tr.silent rfl rfl rfl
            · cases e
  · unfold Vte.escOther
    split
    · exact Trd.flag v _ (by decide) (Or.inl (by decide))
    · split
      · exact Trd.flag v _ (by decide) (Or.inl (by decide))
      · split
        · exact Trd.same v
        · exact escPlain_trd v data

theorem sgr_trd (v : Vte) : Trd n L v v.sgr := by
  unfold Vte.sgr
  refine Trd.bind ?_ (fun v => ?_)
  · unfold Vte.sgrDefault
    refine Trd.pre ?_
    intro a
    split
    · exact Trd.silent rfl rfl rfl
    · exact Trd.same v
  · refine Trd.pre (fun a => ?_)
    refine Trd.pre (fun a => ?_)
    exact Trd.after (v := { v with cattr := a }) (Tr.silent rfl rfl rfl) (bce_trd _)

theorem compatMode_trd (v : Vte) : Trd n L v v.compatMode := by
  unfold Vte.compatMode
  refine Trd.bind (reset_trd v) (fun v => ?_)
  refine Trd.pre (fun a => ?_)
  refine Trd.pre (fun b => ?_)
  have key : ∀ (w : Vte) (k : Nat), (k = 3 ∨ k = 4) → Tr n L w { w.setFlag true k with g0 := .unicodeLower, g1 := .decSupplemental } := by
    intro w k hk
    have h1 : Tr 0 L w (w.setFlag true k) := by
      rcases hk with rfl | rfl <;> exact Tr.setFlag w true (by decide)
    have h2 : Tr 0 L (w.setFlag true k) { w.setFlag true k with g0 := .unicodeLower, g1 := .decSupplemental } := Tr.silent rfl rfl rfl
    exact (h1.trans h2).mono (Nat.zero_le _)
  split
  · exact Trd.ok (key v 4 (Or.inr rfl))
  · split
    · refine Trd.after (v := if b = 1 ∨ b = 2 then v.setFlag true 5 else v) ?_ (Trd.ok (key _ 3 (Or.inl rfl)))
      split
      · exact Tr.setFlag v true (by decide)
      · exact Tr.refl v
    · exact Trd.same v

theorem ansiMode_trd (v : Vte) (set : Bool) (k : Nat) : Trd 0 L v (v.ansiMode set k) := by
  unfold Vte.ansiMode
  split
  · exact Trd.flag v _ (by decide) (Or.inl (by decide))
  · exact insert_trd v set
  · exact Trd.flag v _ (by decide) (Or.inl (by decide))
  · exact Trd.flag v _ (by decide) (Or.inl (by decide))
  · exact Trd.same v

theorem emit_tr (v : Vte) {e : Event} (he : sent [e] = []) (ht : Mouse.told [e] = none) : Tr 0 L v (v.emit e) :=
  ⟨⟨[], by simp, rfl⟩, id, ⟨[e], rfl, (fun b hb => by rw [he] at hb; cases hb), fun _ => by rw [he]; exact Nat.le_refl _⟩,
    fun h => ⟨h.insert, h.inverse, h.origin, h.wrap, h.cursor⟩, fun h => h.same rfl (told_append _ _ ht)⟩

theorem notify_tr {v w : Vte} (con : w.con = v.con) (log : w.log = v.log) (fl : w.flags = v.flags) (c p : Bool)
    (tr : Tracked v → Tracked (w.mouseNotify c p)) : Tr 0 L v (w.mouseNotify c p) := by
  unfold Vte.mouseNotify at tr ⊢
  split at tr
  · rename_i hc
    rw [if_pos hc]
    refine ⟨⟨[], by simp, by show _ = Except.ok w.con; rw [con]; rfl⟩, fun h => ?_, ⟨[.mouse w.mouseEvent p], ?_, (fun b hb => by cases hb), fun _ => Nat.le_refl _⟩, fun h => ?_, tr⟩
    · show w.flags.getLsbD 16 = false
      rw [fl]; exact h
    · show w.log ++ _ = _
      rw [log]
    · exact ⟨by show w.con.flags.getLsbD _ = w.flags.getLsbD _; rw [con, fl]; exact h.insert,
        by show w.con.flags.getLsbD _ = w.flags.getLsbD _; rw [con, fl]; exact h.inverse,
        by show w.con.flags.getLsbD _ = w.flags.getLsbD _; rw [con, fl]; exact h.origin,
        by show w.con.flags.getLsbD _ = w.flags.getLsbD _; rw [con, fl]; exact h.wrap,
        by show w.con.flags.getLsbD _ = !w.flags.getLsbD _; rw [con, fl]; exact h.cursor⟩
  · rename_i hc
    rw [if_neg hc]
    exact Tr.tracks con log fl tr

theorem notify_tracked {w : Vte} {c p : Bool} (cb : w.mouseCb = true)
    (mode : w.mouseMode = 0 ∨ w.mouseMode = 9 ∨ w.mouseMode = 1006 ∨ w.mouseMode = 1016)
    (event : w.mouseEvent = 0 ∨ w.mouseEvent = 1002 ∨ w.mouseEvent = 1003)
    (x10 : w.mouseMode = 9 → w.mouseEvent = 1002)
    (hc : c = false → w.mouseMode = 0 ∨ w.mouseEvent = 0) (hp : w.mouseMode ≠ 0 → p = decide (w.mouseMode = 1016)) :
    Tracked (w.mouseNotify c p) := by
  unfold Vte.mouseNotify
  cases c with
  | true =>
    rw [if_pos ⟨cb, rfl⟩]
    refine ⟨cb, mode, event, x10, fun h _ => ?_⟩
    show Mouse.told (w.log ++ [.mouse w.mouseEvent p]) = some (w.mouseEvent, decide (w.mouseMode = 1016))
    rw [told_mouse, hp h]
  | false =>
    rw [if_neg (fun h => by cases h.2)]
    refine ⟨cb, mode, event, x10, fun h1 h2 => ?_⟩
    rcases hc rfl with h | h
    · exact absurd h h1
    · exact absurd h h2

theorem modeX10_tr (v : Vte) (set : Bool) : Tr 0 L v (v.modeX10 set) := by
  unfold Vte.modeX10
  refine notify_tr (v := v) (w := { v with mouseMode := if set then 9 else 0, mouseEvent := 1002 }) rfl rfl rfl _ _ ?_
  intro h
  refine notify_tracked h.cb ?_ (Or.inr (Or.inl rfl)) (fun _ => rfl) (fun h => by cases h) ?_
  · cases set
    · exact Or.inl rfl
    · exact Or.inr (Or.inl rfl)
  · cases set
    · exact fun h => absurd rfl h
    · exact fun _ => rfl

theorem modeMouseEvent_tr (v : Vte) (set : Bool) {k : Nat} (hk : k = 1002 ∨ k = 1003) : Tr 0 L v (v.modeMouseEvent set k) := by
  unfold Vte.modeMouseEvent
  refine notify_tr (v := v) (w := { v with mouseEvent := if v.mouseMode = 9 then 1002 else if set then k else 0 }) rfl rfl rfl _ _ ?_
  intro h
  refine notify_tracked h.cb h.mode ?_ (fun h9 => if_pos h9) (fun hc => Or.inl ?_) (fun _ => rfl)
  · show (if v.mouseMode = 9 then 1002 else if set then k else 0) = 0 ∨ (if v.mouseMode = 9 then 1002 else if set then k else 0) = 1002 ∨
      (if v.mouseMode = 9 then 1002 else if set then k else 0) = 1003
    split
    · exact Or.inr (Or.inl rfl)
    · split
      · exact Or.inr hk
      · exact Or.inl rfl
  · exact Decidable.byContradiction fun hh => by rw [decide_eq_true hh] at hc; cases hc

theorem modeMouse_tr (v : Vte) (set : Bool) {k : Nat} (hk : k = 1006 ∨ k = 1016) : Tr 0 L v (v.modeMouse set k) := by
  unfold Vte.modeMouse
  refine notify_tr (v := v) (w := { v with mouseMode := if set then k else 0 }) rfl rfl rfl _ _ ?_
  intro h
  cases set with
  | false => exact notify_tracked h.cb (Or.inl rfl) h.event (fun h => by cases h) (fun _ => Or.inl rfl) (fun h => absurd rfl h)
  | true =>
    refine notify_tracked h.cb (Or.inr (Or.inr hk)) h.event (fun h9 => ?_) (fun hc => Or.inr ?_) (fun _ => rfl)
    · have h9 : k = 9 := h9
      omega
    · show v.mouseEvent = 0
      exact Decidable.byContradiction fun hh => by
        have hc : decide (v.mouseEvent ≠ 0) = false := hc
        rw [decide_eq_true hh] at hc
        cases hc

theorem decMode_trd (v : Vte) (set : Bool) (k : Nat) : Trd 0 L v (v.decMode set k) := by
  have alt1 := alternate_trd (n := 0) (L := L) v true
  have alt0 := alternate_trd (n := 0) (L := L) v false
  unfold Vte.decMode
  split
  · exact Trd.flag v _ (by decide) (Or.inl (by decide))
  · exact inverse_trd v set
  · exact origin_trd v set
  · exact wrap_trd v set
  · exact Trd.flag v _ (by decide) (Or.inl (by decide))
  · exact Trd.ok (modeX10_tr v set)
  · exact cursor_trd v set
  · exact Trd.flag v _ (by decide) (Or.inl (by decide))
  · unfold Vte.mode47
    split
    · exact Trd.same v
    · split
      · exact alt1
      · exact alt0
  · unfold Vte.mode1047
    split
    · exact Trd.same v
    · split
      · exact alt1
      · exact Trd.bind (scr_plain rfl trivial) (fun v => alternate_trd v false)
  · unfold Vte.mode1048
    split
    · exact Trd.same v
    · split
      · exact Trd.silent rfl rfl rfl
      · exact scr_plain rfl trivial
  · unfold Vte.mode1049
    split
    · exact Trd.same v
    · split
      · exact Trd.bind (Trd.after (v := v.saveAlt) (Tr.silent rfl rfl rfl) (alternate_trd v.saveAlt true)) (fun v => scr_plain rfl trivial)
      · exact Trd.bind alt0 (fun v => scr_plain rfl trivial)
  · exact Trd.ok (modeMouseEvent_tr v set (Or.inl rfl))
  · exact Trd.ok (modeMouseEvent_tr v set (Or.inr rfl))
  · exact Trd.ok (modeMouse_tr v set (Or.inl rfl))
  · exact Trd.ok (modeMouse_tr v set (Or.inr rfl))
  · exact Trd.same v

theorem modeLoop_trd (set : Bool) : ∀ (is : List Nat) (v : Vte), Trd 0 L v (modeLoop set v is) := by
  intro is
  induction is with
  | nil => intro v; exact Trd.same v
  | cons i is ih =>
    intro v
    unfold Vte.modeLoop
    refine Trd.bind ?_ ih
    unfold Vte.modeOne
    refine Trd.pre (fun a => ?_)
    split
    · exact Trd.same v
    · split
      · exact decMode_trd v set _
      · exact ansiMode_trd v set _

theorem devAttr_trd (v : Vte) : Trd 1 L v v.devAttr := by
  unfold Vte.devAttr
  refine Trd.pre (fun a => ?_)
  split
  · split
    · exact reply_trd v .primary
    · split
      · exact reply_trd v .secondary
      · exact Trd.same v
  · exact Trd.same v

theorem u32_lt (k : Nat) : u32 k < 2 ^ 32 := Nat.mod_lt _ (by decide)

theorem dsr_trd (v : Vte) : Trd 1 L v v.dsr := by
  unfold Vte.dsr
  refine Trd.pre (fun a => ?_)
  split
  · exact reply_trd v .ready
  · split
    · split
      · refine reply_trd v (Answer.position [48] [48] ?_ ?_) <;>
        · refine ⟨by decide, by decide, ?_⟩
          intro b hb
          rw [List.mem_singleton.mp hb]
          exact ⟨by decide, by decide⟩
      · exact reply_trd v (Answer.position _ _ (dec_digits (u32_lt _)) (dec_digits (u32_lt _)))
    · exact Trd.same v

theorem csiRun_trd (v : Vte) (c : Csi) : Trd 1 L v (v.csiRun c) := by
  cases c
  case sgr => exact sgr_trd v
  case p =>
    show Trd 1 L v v.csiP
    unfold Vte.csiP
    exact Trd.ite (reset_trd v) (Trd.ite (reset_trd v) (Trd.ite (Trd.same v) (compatMode_trd v)))
  case sm => exact (modeLoop_trd true _ v).mono (Nat.zero_le _)
  case rm => exact (modeLoop_trd false _ v).mono (Nat.zero_le _)
  case da => exact devAttr_trd v
  case dsr => exact dsr_trd v
  case unknown => exact Trd.same v
  case cnl => exact Trd.pre (fun a => Trd.bind (scr_plain rfl trivial) (fun v => scr_plain rfl trivial))
  case cpl => exact Trd.pre (fun a => Trd.bind (scr_plain rfl trivial) (fun v => scr_plain rfl trivial))
  case cup => exact Trd.pre (fun a => Trd.pre (fun b => scr_plain rfl trivial))
  case decstbm => exact Trd.pre (fun a => Trd.pre (fun b => scr_plain rfl trivial))
  case ed =>
    show Trd 1 L v v.csiEd
    unfold Vte.csiEd
    exact Trd.pre (fun a => Trd.ite (scr_plain rfl trivial) (Trd.ite (scr_plain rfl trivial) (Trd.ite (scr_plain rfl trivial) (Trd.same v))))
  case el =>
    show Trd 1 L v v.csiEl
    unfold Vte.csiEl
    exact Trd.pre (fun a => Trd.ite (scr_plain rfl trivial) (Trd.ite (scr_plain rfl trivial) (Trd.ite (scr_plain rfl trivial) (Trd.same v))))
  case tbc =>
    show Trd 1 L v v.csiTbc
    unfold Vte.csiTbc
    exact Trd.pre (fun a => Trd.ite (scr_plain rfl trivial) (Trd.ite (scr_plain rfl trivial) (Trd.same v)))
  all_goals exact Trd.pre (fun a => scr_plain rfl trivial)

theorem csiDispatch_trd (v : Vte) (data : Nat) : Trd 1 L v (v.csiDispatch data) := by
  unfold Vte.csiDispatch
  refine Trd.after (v := if v.argc < 16 then { v with argc := v.argc + 1 } else v) ?_ (csiRun_trd _ _)
  split
  · exact Tr.silent rfl rfl rfl
  · exact Tr.refl v

/-- The characters that may be written for the character `raw`: those that are shown, or none. -/
@[reducible] def Written (raw ch : Nat) : Prop := ch = 0 ∨ Shows raw ch

theorem entry_written {c : Cset} {i g : Nat} (h1 : 1 ≤ i) (h2 : i ≤ 94) (e : entry c i = .ok g) : g = 0 ∨ glyph c i = some g := by
  rw [entry_glyph c h1 h2] at e
  injection e with e
  cases hg : glyph c i with
  | none => rw [hg] at e; exact Or.inl e.symm
  | some x => rw [hg] at e; exact Or.inr (congrArg some e)

theorem print_trd (v : Vte) {raw : Nat} (h : Graphic raw) : Trd n (Written raw) v (v.print raw) := by
  unfold Vte.print
  have hm : R.Post (v.map raw) (fun r => Tr 0 (Written raw) v r.1 ∧ Written raw (symbolMake r.2)) := by
    have sym : ∀ {g : Nat}, (g = 0 ∨ Shows raw g) → Written raw (symbolMake g) := by
      intro g hg
      unfold symbolMake
      split
      · exact Or.inl rfl
      · exact hg
    have low : ∀ {c : Cset} {g : Nat}, 33 ≤ raw ∧ raw ≤ 126 → entry c (raw - 32) = .ok g → Written raw (symbolMake g) := by
      intro c g hr e
      refine sym ?_
      rcases entry_written (by omega) (by omega) e with h0 | h0
      · exact Or.inl h0
      · refine Or.inr (Or.inr ⟨h, ?_⟩)
        rw [if_pos hr]
        exact ⟨c, h0⟩
    have high : ∀ {c : Cset} {g : Nat}, 161 ≤ raw ∧ raw ≤ 254 → entry c (raw - 160) = .ok g → Written raw (symbolMake g) := by
      intro c g hr e
      refine sym ?_
      rcases entry_written (by omega) (by omega) e with h0 | h0
      · exact Or.inl h0
      · refine Or.inr (Or.inr ⟨h, ?_⟩)
        rw [if_neg (by omega), if_pos hr]
        exact ⟨c, h0⟩
    unfold Vte.map
    split
    · rename_i hr
      split
      · rename_i s _
        cases e : entry (v.slot s) (raw - 32) with
        | error u => trivial
        | ok g => exact ⟨Tr.silent rfl rfl rfl, low hr e⟩
      · cases e : entry (v.slot v.gl) (raw - 32) with
        | error u => trivial
        | ok g => exact ⟨Tr.refl v, low hr e⟩
    · rename_i hr1
      split
      · rename_i hr
        split
        · rename_i s _
          cases e : entry (v.slot s) (raw - 160) with
          | error u => trivial
          | ok g => exact ⟨Tr.silent rfl rfl rfl, high hr e⟩
        · cases e : entry (v.slot v.gr) (raw - 160) with
          | error u => trivial
          | ok g => exact ⟨Tr.refl v, high hr e⟩
      · rename_i hr2
        refine ⟨Tr.refl v, sym (Or.inr (Or.inr ⟨h, ?_⟩))⟩
        rw [if_neg hr1, if_neg hr2]
  refine Trd.seq hm ?_
  rintro ⟨v1, g⟩ ⟨h1, h2⟩
  exact Trd.after h1 (writeConsole_trd v1 h2)

theorem oscCollect_trd (v : Vte) (val : Nat) : Trd n L v (v.oscCollect val) := by
  unfold Vte.oscCollect
  dsimp only
  split
  · exact Trd.same v
  · exact Trd.pre (fun a => Trd.silent rfl rfl rfl)

theorem oscEnd_trd (v : Vte) : Trd n L v v.oscEnd := by
  unfold Vte.oscEnd
  split
  · refine Trd.pre (fun a => Trd.ok ?_)
    have h : Tr 0 L v { v with oscArg := a } := Tr.silent rfl rfl rfl
    exact (h.trans (emit_tr _ rfl rfl)).mono (Nat.zero_le _)
  · exact Trd.same v

/-- The number of answers an action sends at most. -/
def answers : Action → Nat
  | .execute | .escDispatch | .csiDispatch => 1
  | _ => 0

theorem Trd.weaken {K : Nat → Prop} {v : Vte} {x : R Vte} (h : Trd n L v x) (hk : ∀ ch, L ch → K ch) : Trd n K v x :=
  ⟨R.SatK.mono h.out (fun _ h => h) (fun _ h => h.weaken hk)⟩

theorem action_trd (v : Vte) (raw : Nat) (a : Action) (hs : raw = 0x1a → L 0xbf)
    (hp : a = .print → Graphic raw ∧ ∀ ch, Written raw ch → L ch) : Trd (answers a) L v (v.action raw a) := by
  cases a
  case print => exact (print_trd v (hp rfl).1).weaken (hp rfl).2
  case execute => exact execute_trd v hs
  case param => exact param_trd v raw
  case escDispatch => exact escDispatch_trd v raw
  case csiDispatch => exact csiDispatch_trd v raw
  case oscCollect => exact oscCollect_trd v raw
  case oscEnd => exact oscEnd_trd v
  case clear => exact Trd.silent rfl rfl rfl
  case oscStart => exact Trd.silent rfl rfl rfl
  case collect => exact Trd.silent rfl rfl rfl
  all_goals exact Trd.same v

theorem stateTrans_print {st : PState} {raw : Nat} (h : (nextOf st raw).2 = .print) : st = .ground ∧ Graphic raw := by
  unfold nextOf at h
  cases ha : anywhere raw with
  | some q =>
    rw [ha] at h
    have h : q.2 = .print := h
    unfold anywhere at ha
    repeat' split at ha
    all_goals first
      | (injection ha with ha; rw [← ha] at h; cases h)
      | cases ha
  | none =>
    rw [ha] at h
    have h : (stateTrans st raw).2 = .print := h
    have hn : ¬ (raw = 0x18 ∨ raw = 0x1a ∨ raw = 0x1b ∨ (0x80 ≤ raw ∧ raw ≤ 0x9f)) := by
      intro hc
      unfold anywhere at ha
      repeat' split at ha
      all_goals first
        | (cases ha; omega)
        | cases ha
    cases st
    case ground =>
      refine ⟨rfl, ?_⟩
      unfold stateTrans at h
      dsimp only at h
      split at h
      · cases h
      · unfold Graphic
        omega
    all_goals
      unfold stateTrans at h
      dsimp only at h
      repeat' split at h
      all_goals cases h

/-- The characters that may be written when `raw` is read in the state `st`. -/
@[reducible] def Writes (st : PState) (raw ch : Nat) : Prop := ch = 0 ∨ (Shows raw ch ∧ (st = .ground ∨ raw = 0x1a))

theorem parse_trd (v : Vte) (raw : Nat) : Trd 1 (Writes v.state raw) v (v.parse raw) := by
  unfold Vte.parse Vte.trans
  have hs : raw = 0x1a → Writes v.state raw 0xbf := fun h => Or.inr ⟨Or.inl ⟨h, rfl⟩, Or.inr h⟩
  have hact : ∀ w : Vte, Trd 1 (Writes v.state raw) w (w.action raw (nextOf v.state raw).2) := by
    intro w
    refine (action_trd w raw _ hs (fun h => ⟨(stateTrans_print h).2, ?_⟩)).mono ?_
    · intro ch hc
      rcases hc with hc | hc
      · exact Or.inl hc
      · exact Or.inr ⟨hc, Or.inl (stateTrans_print h).1⟩
    · cases (nextOf v.state raw).2 <;> decide
  split
  · exact hact v
  · refine Trd.bind ?_ (fun v1 => ?_)
    · have : answers (exitAction v.state) = 0 := by cases v.state <;> rfl
      have h := action_trd v raw (exitAction v.state) hs (fun h => by cases hq : v.state <;> rw [hq] at h <;> cases h)
      rw [this] at h
      exact h
    · have h1 := hact v1
      refine Trd.seq h1.out ?_
      intro v2 h2
      have he : answers (entryAction (nextOf v.state raw).1) = 0 := by cases (nextOf v.state raw).1 <;> rfl
      have h := action_trd v2 raw (entryAction (nextOf v.state raw).1) hs (fun h => by
        cases hs : (nextOf v.state raw).1 <;> rw [hs] at h <;> cases h)
      rw [he] at h
      refine Trd.seq h.out ?_
      intro v3 h3
      have h4 : Tr 0 (Writes v.state raw) v3 { v3 with state := (nextOf v.state raw).1 } := Tr.silent rfl rfl rfl
      exact Trd.ok (h2.trans (h3.trans h4))

/-! ### Input -/

theorem inputByte_trd (v : Vte) (b : UInt8) :
    Trd 1 (fun ch => ch = 0 ∨ ∃ raw, v.rawOf b = some raw ∧ Shows raw ch ∧ (v.state = .ground ∨ raw = 0x1a)) v (v.inputByte b) := by
  rw [inputByte_eq]
  cases hr : v.rawOf b with
  | none => exact Trd.silent rfl rfl rfl
  | some raw =>
    refine Trd.after (v := { v with mach := v.machOf b }) (Tr.silent rfl rfl rfl) ((parse_trd _ raw).weaken ?_)
    intro ch hc
    rcases hc with hc | ⟨h1, h2⟩
    · exact Or.inl hc
    · exact Or.inr ⟨raw, rfl, h1, h2⟩

/-- The characters that may be written when `bs` is read. -/
def Wrote (v : Vte) (bs : List UInt8) (ch : Nat) : Prop :=
  ch = 0 ∨ ∃ p b q w raw, bs = p ++ b :: q ∧ v.inputLoop p = .ok w ∧ w.rawOf b = some raw ∧
    (w.state = .ground ∨ raw = 0x1a) ∧ Shows raw ch

theorem inputLoop_trd : ∀ (bs : List UInt8) (v : Vte), Trd bs.length (Wrote v bs) v (v.inputLoop bs) := by
  intro bs
  induction bs with
  | nil => intro v; exact Trd.same v
  | cons b bs ih =>
    intro v
    rw [inputLoop_cons]
    cases e : v.inputByte b with
    | error u => exact ⟨trivial⟩
    | ok v1 =>
      have h1 := (inputByte_trd v b).out
      rw [e] at h1
      have h1 : Tr 1 (Wrote v (b :: bs)) v v1 := by
        refine Tr.weaken h1 ?_
        intro ch hc
        rcases hc with hc | ⟨raw, g1, g2, g3⟩
        · exact Or.inl hc
        · exact Or.inr ⟨[], b, bs, v, raw, rfl, rfl, g1, g3, g2⟩
      have h2 : Trd bs.length (Wrote v (b :: bs)) v1 (v1.inputLoop bs) := by
        refine (ih v1).weaken ?_
        intro ch hc
        rcases hc with hc | ⟨p, d, q, w, raw, g1, g2, g3, g4, g5⟩
        · exact Or.inl hc
        · refine Or.inr ⟨b :: p, d, q, w, raw, by rw [g1]; rfl, ?_, g3, g4, g5⟩
          rw [inputLoop_cons, e]
          exact g2
      exact ⟨R.SatK.mono h2.out (fun _ h => h) (fun _ h => by
        have := h1.trans h
        rw [Nat.add_comm] at this
        exact this)⟩

theorem input_trd (v : Vte) (bs : List UInt8) : Trd bs.length (Wrote v.up bs) v (v.input bs) := by
  rw [input_def]
  have h := inputLoop_trd bs v.up
  refine Trd.seq h.out ?_
  intro w hw
  have h0 : Tr 0 (Wrote v.up bs) v v.up := Tr.silent rfl rfl rfl
  have h1 : Tr 0 (Wrote v.up bs) w w.down := Tr.silent rfl rfl rfl
  have := (h0.trans hw).trans h1
  rw [Nat.zero_add] at this
  exact Trd.ok this

/-! ### All calls -/

/-- The modes stay in agreement. -/
structure Syn (v : Vte) (x : R Vte) : Prop where
  out : R.Post x (fun v' => Synced v → Synced v')

theorem Trd.syn {v : Vte} {x : R Vte} (h : Trd n L v x) : Syn v x := ⟨R.SatK.mono h.out (fun _ h => h) (fun _ h => h.sync)⟩

theorem Syn.ok {v v' : Vte} (h : Synced v → Synced v') : Syn v (.ok v') := ⟨h⟩

theorem Syn.bind {v : Vte} {x : R Vte} {f : Vte → R Vte} (h : Syn v x) (hf : ∀ v', Syn v' (f v')) : Syn v (x >>= f) :=
  ⟨R.Post.bind h.out (fun v' h' => R.SatK.mono (hf v').out (fun _ h => h) (fun _ h hs => h (h' hs)))⟩

theorem Synced.flag16 {v : Vte} (h : Synced v) (b : Bool) : Synced (v.setFlag b 16) :=
  ⟨by rw [flag_setFlag v b (by decide)]; exact h.insert, by rw [flag_setFlag v b (by decide)]; exact h.inverse,
    by rw [flag_setFlag v b (by decide)]; exact h.origin, by rw [flag_setFlag v b (by decide)]; exact h.wrap,
    by rw [flag_setFlag v b (by decide)]; exact h.cursor⟩

theorem Synced.same {v w : Vte} (h : Synced v) (con : w.con = v.con) (fl : w.flags = v.flags) : Synced w :=
  ⟨by rw [con, fl]; exact h.insert, by rw [con, fl]; exact h.inverse, by rw [con, fl]; exact h.origin,
    by rw [con, fl]; exact h.wrap, by rw [con, fl]; exact h.cursor⟩

theorem send_syn (v : Vte) (b : List UInt8) : Syn v (pure (v.send b)) := by
  refine Syn.ok (fun h => ?_)
  unfold Vte.send
  split
  · exact (h.same (w := (v.emit (.write [27])).emit (.write b)) rfl rfl).flag16 false
  · exact (h.same (w := v.emit (.write b)) rfl rfl).flag16 false

theorem write_syn (v : Vte) (b : List UInt8) : Syn v (v.write b) := by
  unfold Vte.write
  refine Syn.bind ?_ (fun v => send_syn v b)
  unfold Vte.echo
  split
  · refine Syn.bind ?_ (fun v => (input_trd v b).syn)
    unfold Vte.echoEsc
    split
    · exact (input_trd v _).syn
    · exact Syn.ok id
  · exact Syn.ok id

theorem writePair_syn (v : Vte) (b : List UInt8) :
    Syn v ((v.write b >>= fun v => pure (v, true) : R (Vte × Bool)) >>= fun r => pure r.1) := by
  have : ((v.write b >>= fun v => pure (v, true) : R (Vte × Bool)) >>= fun r => pure r.1 : R Vte) = v.write b := by
    cases v.write b <;> rfl
  rw [this]
  exact write_syn v b

/-- Changes of fields that do not matter before a computation. -/
theorem Syn.after {u v : Vte} {x : R Vte} (h : Synced u → Synced v) (hx : Syn v x) : Syn u x :=
  ⟨R.SatK.mono hx.out (fun _ h => h) (fun _ hv hu => hv (h hu))⟩

theorem keyboard_syn (v : Vte) (k a m u : Nat) : Syn v (do let r ← v.keyboard k a m u; pure r.1 : R Vte) := by
  unfold Vte.keyboard
  dsimp only
  refine Syn.after (v := if m.testBit 3 then v.setFlag true 16 else v) ?_ ?_
  · intro h
    split
    · exact h.flag16 true
    · exact h
  · generalize (if m.testBit 3 then v.setFlag true 16 else v) = w
    split
    · exact writePair_syn w _
    · exact Syn.ok (fun h => h.flag16 false)

theorem mouse_syn (v : Vte) (cx cy px py b e m : Nat) :
    Syn v (do let r ← v.mouse cx cy px py b e m; pure r.1 : R Vte) := by
  unfold Vte.mouse
  split
  · exact Syn.ok id
  · split
    · exact writePair_syn v _
    · split
      · unfold Vte.mouseSgr
        split
        · split
          · exact Syn.ok id
          · exact Syn.after (v := { v with mouseLastCol := u32 (cx + 1), mouseLastRow := u32 (cy + 1) })
              (fun h => h.same rfl rfl) (writePair_syn _ _)
        · exact writePair_syn v _
      · split
        · exact writePair_syn v _
        · exact Syn.ok id

theorem updatePalette_syn (v : Vte) : Syn v v.updatePalette := by
  unfold Vte.updatePalette
  refine ⟨R.Post.bind R.Post.any (fun d _ => Syn.out ?_)⟩
  refine Syn.after (v := { v with palette := getPalette v.paletteName v.customPalette, defAttr := d, cattr := d })
    (fun h => h.same rfl rfl) ?_
  refine Syn.bind (scr_plain (n := 0) (L := fun _ => True) (c := .setDefAttr d) rfl trivial).syn (fun v => ?_)
  exact (scr_plain (n := 0) (L := fun _ => True) (c := .eraseScreen false) rfl trivial).syn

theorem call_syn (v : Vte) (c : Call) (hc : c.own = true) : Syn v (c.run v) := by
  cases c with
  | input b => exact (input_trd v b).syn
  | keyboard k a m u => exact keyboard_syn v k a m u
  | mouse cx cy px py b e m => exact mouse_syn v cx cy px py b e m
  | reset => exact (reset_trd (n := 0) (L := fun _ => True) v).syn
  | hardReset => exact (hardReset_trd (n := 0) (L := fun _ => True) v).syn
  | setPalette n mem =>
    show Syn v (v.setPalette n mem)
    unfold Vte.setPalette
    split
    · exact Syn.ok id
    · exact Syn.after (v := { v with paletteName := n }) (fun h => h.same rfl rfl) (updatePalette_syn _)
  | setCustomPalette p mem =>
    show Syn v (v.setCustomPalette p mem)
    unfold Vte.setCustomPalette
    split
    · exact Syn.ok id
    · exact Syn.after (v := { v with customPalette := p }) (fun h => h.same rfl rfl) (updatePalette_syn _)
  | setBsDelete on => exact Syn.ok (fun h => h.same rfl rfl)
  | setOscCb on => exact Syn.ok (fun h => h.same rfl rfl)
  | setMouseCb on => exact Syn.ok (fun h => h.same rfl rfl)
  | screen c =>
    have hm : c.setsModes = false := by
      have : (!c.setsModes) = true := hc
      cases h : c.setsModes with
      | true => rw [h] at this; cases this
      | false => rfl
    have hp : Prints (fun _ => True) c := by cases c <;> trivial
    exact (scr_plain (n := 0) hm hp).syn

theorem runAll_syn : ∀ (cs : List Call) (v : Vte), (∀ c ∈ cs, c.own = true) → Syn v (v.runAll cs) := by
  intro cs
  induction cs with
  | nil => intro v _; exact Syn.ok id
  | cons c cs ih =>
    intro v hc
    exact Syn.bind (call_syn v c (hc c List.mem_cons_self)) (fun v => ih v (fun d hd => hc d (List.mem_cons_of_mem _ hd)))

theorem new_synced {s : Screen} {sg : Bool} {v : Vte} (h : new s sg = .ok v) : Synced v := by
  have : R.Post (new s sg) Synced := by
    unfold Vte.new
    refine R.Post.bind R.Post.any (fun d _ => ?_)
    refine R.Post.bind (reset_core (n := 0) (L := fun _ => True) _) (fun v1 h1 => ?_)
    have h2 := (scr_plain (n := 0) (L := fun _ => True) (v := v1) (c := .eraseScreen false) rfl trivial).out
    exact R.SatK.mono h2 (fun _ h => h) (fun _ h => h.sync h1.2)
  rw [h] at this
  exact this

theorem runAll_all {P : Glyph → Prop} (hz : ∀ g : Glyph, P g → P { g with width := 0 }) :
    ∀ (cs : List Screen.Call) {s s' : Screen}, Screen.AllG P s → (∀ c ∈ cs, c.Adds P) → Screen.runAll cs s = .ok s' →
      Screen.AllG P s' := by
  intro cs
  induction cs with
  | nil => intro s s' h _ e; injection e with e; subst e; exact h
  | cons c cs ih =>
    intro s s' h hc e
    have h1 := Screen.step_all h hz (hc c List.mem_cons_self)
    change (c.run s >>= fun s => Screen.runAll cs s) = _ at e
    cases hr : c.run s with
    | error u => rw [hr] at e; cases e
    | ok t =>
      rw [hr] at e h1
      exact ih h1 (fun d hd => hc d (List.mem_cons_of_mem _ hd)) e

end Vte
end Verif
