import Verif.Proofs.Gtk.Picture
import Verif.Proofs.Shared.Pty
import Verif.Proofs.Vte.Input
import Verif.Proofs.Vte.Keys
import Verif.Spec.Widget

/-!
# What an event does to a widget
-/

namespace Verif.Gtk
open Verif Verif.Vte

theorem lib_ok {α : Type} {x : R α} {a : α} (e : lib x = .ok a) : x = .ok a := by
  cases x with
  | error _ => cases e
  | ok b => injection e with e; rw [e]

theorem own_ok {α : Type} {x : G α} {a : α} (e : own x = .ok a) : x = .ok a := by
  cases x with
  | error _ => cases e
  | ok b => injection e with e; rw [e]

/-- All strings sent are shorter than the address space. -/
def Short (evs : List Event) : Prop := ∀ b ∈ sent evs, b.length < 18446744073709551616

theorem sent_append' (a b : List Event) : sent (a ++ b) = sent a ++ sent b := by
  induction a with
  | nil => rfl
  | cons e a ih => cases e <;> simp [sent, ih]

theorem setTitles_append (a b : List Event) : setTitles (a ++ b) = setTitles a ++ setTitles b := by
  induction a with
  | nil => rfl
  | cons e a ih => cases e <;> simp [setTitles, ih]

theorem Short.left {a b : List Event} (h : Short (a ++ b)) : Short a := fun x hx => h x (by
  rw [sent_append']; exact List.mem_append_left _ hx)

theorem Short.right {a b : List Event} (h : Short (a ++ b)) : Short b := fun x hx => h x (by
  rw [sent_append']; exact List.mem_append_right _ hx)

namespace Wid

/-! ### Callbacks -/

/-- `bs` was queued, and nothing else has happened to the pty. -/
structure Queued (p p' : Pty) (bs : List UInt8) : Prop where
  same : Pty.SameIn p p'
  sent : p'.sent = p.sent
  accepted : p'.accepted = p.accepted ++ bs
  flow : ∀ q, Pty.Flow p q → Pty.Flow p' (q ++ bs)

theorem Queued.refl (p : Pty) : Queued p p [] := ⟨⟨rfl, rfl, rfl⟩, rfl, by simp, fun q h => by simpa using h⟩

theorem Queued.trans {a b c : Pty} {x y : List UInt8} (h : Queued a b x) (h' : Queued b c y) : Queued a c (x ++ y) :=
  ⟨h.same.trans h'.same, h'.sent.trans h.sent, by rw [h'.accepted, h.accepted, List.append_assoc],
    fun q hq => by rw [← List.append_assoc]; exact h'.flow _ (h.flow _ hq)⟩

theorem oscFn_eq (w : Wid) (b : List UInt8) : w.oscFn b = { w with titles := w.titles ++ (title b).toList } := by
  unfold oscFn title
  split
  · rfl
  · rename_i h
    rw [if_neg]
    · simp
    · intro hc
      match b, hc with
      | a :: c :: t, hc =>
        simp only [List.take_succ_cons, List.take_zero, List.cons.injEq, and_true] at hc
        exact h t (by rw [hc.1, hc.2])

/-- The effect of callbacks on the pty. -/
def PtyCb (evs : List Event) : Option Tty → Option Tty → Prop
  | none, p => p = none
  | some t, p => ∃ io, p = some { t with io := io } ∧ Pty.SameIn t.io io ∧
      ((∃ q, Pty.Flow t.io q) → Short evs → Queued t.io io (sent evs).flatten)

theorem callbacks_ok : ∀ {evs : List Event} {w w' : Wid}, callbacks evs w = .ok w' →
    w' = { w with pty := w'.pty, idle := w'.idle, titles := w.titles ++ setTitles evs } ∧ PtyCb evs w.pty w'.pty := by
  intro evs
  induction evs with
  | nil =>
    intro w w' e
    injection e with e
    subst e
    refine ⟨by simp [setTitles], ?_⟩
    cases hp : w.pty with
    | none => exact rfl
    | some t => exact ⟨t.io, rfl, ⟨rfl, rfl, rfl⟩, fun _ _ => Queued.refl _⟩
  | cons ev evs ih =>
    intro w w' e
    cases ev with
    | mouse a b => exact ih e
    | osc b =>
      have e : callbacks evs (w.oscFn b) = .ok w' := e
      rw [oscFn_eq] at e
      obtain ⟨h1, h2⟩ := ih e
      refine ⟨?_, h2⟩
      rw [h1]
      simp [setTitles]
    | write b =>
      obtain ⟨w1, e1, e2⟩ := bind_ok e
      obtain ⟨h1, h2⟩ := ih e2
      unfold writeFn at e1
      cases hp : w.pty with
      | none =>
        rw [hp] at e1
        injection e1 with e1
        subst e1
        refine ⟨h1, ?_⟩
        rw [hp] at h2
        exact h2
      | some t =>
        rw [hp] at e1
        obtain ⟨r, er, e1⟩ := bind_ok e1
        have er := lib_ok er
        split at e1
        · rename_i hr
          injection e1 with e1
          subst e1
          refine ⟨h1, ?_⟩
          obtain ⟨io, k1, k2, k3⟩ := h2
          have ho : Pty.SameIn t.io r.1 := by
            unfold Pty.write at er
            split at er
            · obtain ⟨x, _, ex⟩ := bind_ok er
              cases hx : x.2 <;> simp only [hx] at ex <;> cases ex <;> exact ⟨rfl, rfl, rfl⟩
            · cases er; exact ⟨rfl, rfl, rfl⟩
          refine ⟨io, k1, ho.trans k2, ?_⟩
          intro ⟨q, hq⟩ hs
          have hw := Pty.write_flow (e := ⟨w.mem, fun _ => []⟩) hq b (hs b (List.mem_cons_self ..))
          rw [er] at hw
          obtain ⟨x1, x2, x3⟩ := hw
          rcases x3 with ⟨_, x4, x5⟩ | ⟨x3, _⟩
          · have step : Queued t.io r.1 b := by
              refine ⟨x1, x2, x4, fun q' hq' => ?_⟩
              have hw := Pty.write_flow (e := ⟨w.mem, fun _ => []⟩) hq' b (hs b (List.mem_cons_self ..))
              rw [er] at hw
              rcases hw.2.2 with ⟨_, _, x5⟩ | ⟨x3, _⟩
              · exact x5
              · exact absurd hr x3
            exact step.trans (k3 ⟨_, x5⟩ (fun c hc => hs c (List.mem_cons_of_mem _ hc)))
          · exact absurd hr x3
        · cases e1

/-- The emulator was replaced by `v`, which has reported `evs`. -/
theorem emu_ok {w w' : Wid} {v : Vte} {evs : List Event} (hl : v.log = w.vte.log ++ evs) (e : w.emu v = .ok w') :
    w' = { w with vte := v, pty := w'.pty, idle := w'.idle, titles := w.titles ++ setTitles evs } ∧
      PtyCb evs w.pty w'.pty := by
  unfold emu at e
  rw [hl, List.drop_left] at e
  exact callbacks_ok e

/-! ### The bytes -/

/-- From `t` to `t'` the child has written `bs`, the emulator was given `i` and has reported `evs`. -/
structure Flows (bs i : List UInt8) (evs : List Event) (t t' : Tty) : Prop where
  got : t'.io.got = t.io.got ++ i
  all : t'.io.got ++ t'.io.inq = t.io.got ++ t.io.inq ++ bs
  opn : t'.io.isOpen = t.io.isOpen
  flow : (∃ q, Pty.Flow t.io q) → Short evs →
    (∃ q, Pty.Flow t'.io q) ∧ t'.io.accepted = t.io.accepted ++ (sent evs).flatten ∧ t.io.sent <+: t'.io.sent

theorem Flows.refl (t : Tty) : Flows [] [] [] t t :=
  ⟨by simp, by simp, rfl, fun h _ => ⟨h, by simp [sent], List.prefix_rfl⟩⟩

theorem Flows.trans {b1 b2 i1 i2 : List UInt8} {e1 e2 : List Event} {t t1 t2 : Tty} (h : Flows b1 i1 e1 t t1)
    (h' : Flows b2 i2 e2 t1 t2) : Flows (b1 ++ b2) (i1 ++ i2) (e1 ++ e2) t t2 := by
  refine ⟨by rw [h'.got, h.got, List.append_assoc], by rw [h'.all, h.all, List.append_assoc], h'.opn.trans h.opn, ?_⟩
  intro hq hs
  obtain ⟨q1, a1, s1⟩ := h.flow hq hs.left
  obtain ⟨q2, a2, s2⟩ := h'.flow q1 hs.right
  refine ⟨q2, ?_, s1.trans s2⟩
  rw [a2, a1, sent_append', List.flatten_append, List.append_assoc]

/-- `Flows` for a pty that need not exist. -/
def Passes (bs i : List UInt8) (evs : List Event) : Option Tty → Option Tty → Prop
  | none, p => p = none ∧ i = []
  | some t, p => ∃ t', p = some t' ∧ Flows bs i evs t t'

theorem Passes.refl (p : Option Tty) : Passes [] [] [] p p := by
  cases p with
  | none => exact ⟨rfl, rfl⟩
  | some t => exact ⟨t, rfl, Flows.refl t⟩

theorem Passes.trans {b1 b2 i1 i2 : List UInt8} {e1 e2 : List Event} {p p1 p2 : Option Tty} (h : Passes b1 i1 e1 p p1)
    (h' : Passes b2 i2 e2 p1 p2) : Passes (b1 ++ b2) (i1 ++ i2) (e1 ++ e2) p p2 := by
  cases p with
  | none =>
    obtain ⟨rfl, rfl⟩ := h
    obtain ⟨h1, rfl⟩ := h'
    exact ⟨h1, rfl⟩
  | some t =>
    obtain ⟨t1, rfl, f1⟩ := h
    obtain ⟨t2, rfl, f2⟩ := h'
    exact ⟨t2, rfl, f1.trans f2⟩

theorem PtyCb.passes {evs : List Event} {p p' : Option Tty} (h : PtyCb evs p p') : Passes [] [] evs p p' := by
  cases p with
  | none => exact ⟨h, rfl⟩
  | some t =>
    obtain ⟨io, rfl, ho, hq⟩ := h
    refine ⟨_, rfl, ⟨by simp [ho.got], by simp [ho.got, ho.inq], ho.opn, ?_⟩⟩
    intro hf hs
    obtain ⟨q, hq1⟩ := hf
    have k := hq ⟨q, hq1⟩ hs
    exact ⟨⟨_, k.flow q hq1⟩, k.accepted, by rw [k.sent]; exact List.prefix_rfl⟩

/-! ### Events -/

/-- What an event has done: the calls of the emulator, what it has reported, and the bytes that have passed the
pty. -/
structure Did (e : Ev) (w w' : Wid) (cs : List Vte.Call) (evs : List Event) (bs : List UInt8) : Prop where
  made : ∀ c ∈ cs, Makes e c ∧ c.Valid
  run : w.vte.runAll cs = .ok w'.vte
  log : w'.vte.log = w.vte.log ++ evs
  titles : w'.titles = w.titles ++ setTitles evs
  pty : Passes bs (inputs cs) evs w.pty w'.pty

theorem inputs_append (a b : List Vte.Call) : inputs (a ++ b) = inputs a ++ inputs b := by
  induction a with
  | nil => rfl
  | cons c a ih => cases c <;> simp [inputs, ih]

theorem Did.refl {e : Ev} (w : Wid) : Did e w w [] [] [] :=
  ⟨fun _ h => (nomatch h), rfl, by simp, by simp [setTitles], Passes.refl _⟩

theorem Did.trans {e : Ev} {w w1 w2 : Wid} {c1 c2 : List Vte.Call} {e1 e2 : List Event} {b1 b2 : List UInt8}
    (h : Did e w w1 c1 e1 b1) (h' : Did e w1 w2 c2 e2 b2) : Did e w w2 (c1 ++ c2) (e1 ++ e2) (b1 ++ b2) := by
  refine ⟨?_, ?_, by rw [h'.log, h.log, List.append_assoc], by rw [h'.titles, h.titles, setTitles_append, List.append_assoc], ?_⟩
  · intro c hc
    rcases List.mem_append.mp hc with hc | hc
    · exact h.made c hc
    · exact h'.made c hc
  · rw [vrunAll_append, h.run]
    exact h'.run
  · rw [inputs_append]
    exact h.pty.trans h'.pty

/-- Only fields that do not matter here were changed. -/
theorem Did.frame {e : Ev} {w w' : Wid} (h1 : w'.vte = w.vte) (h2 : w'.titles = w.titles) (h3 : w'.pty = w.pty) :
    Did e w w' [] [] [] :=
  ⟨fun _ h => (nomatch h), by rw [h1]; rfl, by simp [h1], by simp [setTitles, h2], by rw [h3]; exact Passes.refl _⟩

/-- A call of the screen. -/
theorem Did.scr {e : Ev} {w w' : Wid} {c : Screen.Call} {v : Vte} (hm : Makes e (.screen c)) (hv : c.Valid)
    (hc : w.vte.scr c = .ok v) (h1 : w'.vte = v) (h2 : w'.titles = w.titles) (h3 : w'.pty = w.pty) :
    Did e w w' [.screen c] [] [] := by
  refine ⟨?_, ?_, ?_, by simp [setTitles, h2], by rw [h3]; exact Passes.refl _⟩
  · intro c' hc'
    rw [List.mem_singleton.mp hc']
    exact ⟨hm, hv⟩
  · show (w.vte.scr c >>= fun v => v.runAll []) = _
    rw [hc, h1]
    rfl
  · rw [h1, List.append_nil]
    obtain ⟨s, _, e2⟩ := bind_ok hc
    injection e2 with e2
    rw [← e2]

/-- A call of the emulator that is not a call of the screen and gives it the bytes `i`. -/
theorem Did.emu {e : Ev} {w w' : Wid} {c : Vte.Call} {v : Vte} {evs : List Event} (hi : inputs [c] = []) (hm : Makes e c) (hv : c.Valid)
    (hc : c.run w.vte = .ok v) (hl : v.log = w.vte.log ++ evs) (he : w.emu v = .ok w') : Did e w w' [c] evs [] := by
  obtain ⟨h1, h2⟩ := emu_ok hl he
  have hv' : w'.vte = v := by rw [h1]
  refine ⟨?_, ?_, by rw [hv', hl], by rw [h1], ?_⟩
  · intro c' hc'
    rw [List.mem_singleton.mp hc']
    exact ⟨hm, hv⟩
  · show (c.run w.vte >>= fun v => v.runAll []) = _
    rw [hc, hv']
    rfl
  · rw [hi]
    exact h2.passes

theorem realloc_small {m : Bool} {w h : Nat} {r : Rend} (e : realloc m w h = .ok (some r)) : w ≤ 32767 ∧ h ≤ 32767 := by
  unfold realloc at e
  have key : ∀ a b : Nat, (match strideFor 32 a with
      | none => (do let _ ← absInt (sub32 0 b); return none : G (Option Rend))
      | some stride => (do
        let cap ← absInt (u32 (stride * b))
        if m && sizeOk a b then
          return some { width := a, height := b, stride := stride, cap := cap, data := fun _ => none, age := 0 }
        else return none)) = .ok (some r) → a ≤ 32767 ∧ b ≤ 32767 := by
    intro a b e
    split at e
    · obtain ⟨_, _, e⟩ := bind_ok e
      cases e
    · obtain ⟨cap, _, e⟩ := bind_ok e
      split at e
      · rename_i hc
        rw [Bool.and_eq_true] at hc
        have := hc.2
        unfold sizeOk at this
        rw [Bool.and_eq_true, decide_eq_true_eq, decide_eq_true_eq] at this
        exact this
      · cases e
  have := key _ _ e
  constructor
  · have := this.1
    split at this <;> omega
  · have := this.2
    split at this <;> omega

theorem cells_le (n : Nat) (c : Option Nat) : 1 ≤ cells n c ∧ cells n c ≤ max n 1 := by
  unfold cells
  cases c with
  | none => exact ⟨Nat.le_refl _, Nat.le_max_right ..⟩
  | some c =>
    dsimp only
    split
    · exact ⟨Nat.le_refl _, Nat.le_max_right ..⟩
    · rename_i h
      have := Nat.div_le_self n c
      generalize n / c = q at *
      omega

/-- The steps of `configure`. -/
theorem configure_ok {w w' : Wid} {x y : Nat} {m : Bool} (e : w.configure x y m = .ok w') :
    ∃ r s, realloc m x y = .ok (some r) ∧
      w.vte.con.resize (w.recalculate x y).columns (w.recalculate x y).rows = .ok (.ok, s) ∧
      w' = { ({ (w.recalculate x y) with rend := r, vte := { w.vte with con := s } }).resizePty with queued := true } := by
  unfold configure at e
  obtain ⟨w1, e1, e⟩ := bind_ok e
  obtain ⟨w2, e2, e⟩ := bind_ok e
  injection e with e
  unfold resizeRend at e1
  obtain ⟨r, er, e1⟩ := bind_ok e1
  have er := own_ok er
  cases r with
  | none => cases e1
  | some r =>
    injection e1 with e1
    subst e1
    unfold resizeScreen at e2
    obtain ⟨q, eq, e2⟩ := bind_ok e2
    have eq := lib_ok eq
    split at e2
    · rename_i hq
      injection e2 with e2
      subst e2
      obtain ⟨q1, q2⟩ := q
      cases hq
      exact ⟨r, q2, er, eq, e.symm⟩
    · cases e2

theorem configure_did {w w' : Wid} {x y : Nat} {m : Bool} (e : w.configure x y m = .ok w') :
    ∃ cs, Did (.configure x y m) w w' cs [] [] := by
  obtain ⟨r, s, er, es, rfl⟩ := configure_ok e
  have hsm := realloc_small er
  have hc := cells_le x (w.faces.map (·.regular.width))
  have hr := cells_le y (w.faces.map (·.regular.height))
  refine ⟨[.screen (.resize (w.recalculate x y).columns (w.recalculate x y).rows)], ?_, ?_, by simp [resizePty, recalculate],
    by simp [setTitles, resizePty, recalculate], ?_⟩
  · intro c hc
    rw [List.mem_singleton.mp hc]
    refine ⟨trivial, ?_, ?_⟩
    · show cells x _ < _
      omega
    · show cells y _ < _
      omega
  · show (w.vte.scr _ >>= fun v => v.runAll []) = _
    have : w.vte.scr (.resize (w.recalculate x y).columns (w.recalculate x y).rows) = .ok { w.vte with con := s } := by
      show ((w.vte.con.resize _ _ >>= fun r => pure r.2) >>= fun s => pure { w.vte with con := s }) = _
      rw [es]
      rfl
    rw [this]
    rfl
  · show Passes [] [] [] w.pty (w.pty.map _)
    cases w.pty with
    | none => exact ⟨rfl, rfl⟩
    | some t => exact ⟨_, rfl, ⟨by simp, by simp, rfl, fun h _ => ⟨h, by simp [sent], List.prefix_rfl⟩⟩⟩

theorem draw_did {ink : Ink} {w w' : Wid} (e : w.draw ink = .ok w') : ∃ cs, Did .draw w w' cs [] [] := by
  unfold draw at e
  split at e
  · injection e with e
    subst e
    exact ⟨[], Did.frame rfl rfl rfl⟩
  · obtain ⟨d, ed, e⟩ := bind_ok e
    obtain ⟨p, ep, e⟩ := bind_ok e
    injection e with e
    subst e
    refine ⟨_, Did.scr (c := .draw) (v := { w.vte with con := d.2.2 }) trivial trivial ?_ rfl rfl rfl⟩
    show ((w.vte.con.draw >>= fun r => pure r.2.2) >>= fun s => pure { w.vte with con := s }) = _
    rw [lib_ok ed]
    rfl

theorem selectAt_did {e : Ev} {w w' : Wid} {fs : Faces} {f : Nat → Nat → Screen.Call} {x y : Int}
    (hm : ∀ a b, Makes e (.screen (f a b))) (hv : ∀ a b, (f a b).Valid) (h : w.selectAt fs f x y = .ok w') :
    ∃ cs, Did e w w' cs [] [] := by
  unfold selectAt at h
  obtain ⟨cx, _, h⟩ := bind_ok h
  obtain ⟨cy, _, h⟩ := bind_ok h
  obtain ⟨v, hv', h⟩ := bind_ok h
  injection h with h
  subst h
  exact ⟨_, Did.scr (hm cx cy) (hv cx cy) (lib_ok hv') rfl rfl rfl⟩

theorem Did.from_ {e : Ev} {w w0 w' : Wid} {cs : List Vte.Call} {evs : List Event} {bs : List UInt8} (h : Did e w0 w' cs evs bs)
    (h1 : w0.vte = w.vte) (h2 : w0.titles = w.titles) (h3 : w0.pty = w.pty) : Did e w w' cs evs bs :=
  ⟨h.made, by rw [← h1]; exact h.run, by rw [← h1]; exact h.log, by rw [← h2]; exact h.titles, by rw [← h3]; exact h.pty⟩

theorem button_did {w w' : Wid} {k : Press} {b t : Nat} {x y : Int} (e : w.button k b t x y = .ok w') :
    ∃ cs, Did (.button k b t x y) w w' cs [] [] := by
  unfold button at e
  split at e
  · injection e with e
    subst e
    exact ⟨[], Did.refl _⟩
  · split at e
    · injection e with e
      subst e
      exact ⟨[], Did.refl _⟩
    · split at e
      · injection e with e
        subst e
        exact ⟨[], Did.frame rfl rfl rfl⟩
      · obtain ⟨cs, h⟩ := selectAt_did (e := .button .double b t x y) (f := .selectionStart) (fun _ _ => trivial) (fun _ _ => trivial) e
        exact ⟨cs, h.from_ rfl rfl rfl⟩
      · obtain ⟨cs, h⟩ := selectAt_did (e := .button .triple b t x y) (f := .selectionStart) (fun _ _ => trivial) (fun _ _ => trivial) e
        exact ⟨cs, h.from_ rfl rfl rfl⟩
      · unfold released at e
        split at e
        · obtain ⟨v, hv, e⟩ := bind_ok e
          injection e with e
          subst e
          exact ⟨_, Did.scr (c := .selectionReset) trivial trivial (lib_ok hv) rfl rfl rfl⟩
        · injection e with e
          subst e
          exact ⟨[], Did.frame rfl rfl rfl⟩

theorem motion_did {w w' : Wid} {x y : Int} (e : w.motion x y = .ok w') : ∃ cs, Did (.motion x y) w w' cs [] [] := by
  unfold motion at e
  split at e
  · injection e with e
    subst e
    exact ⟨[], Did.refl _⟩
  · split at e
    · injection e with e
      subst e
      exact ⟨[], Did.refl _⟩
    · split at e
      · split at e
        · obtain ⟨cs, h⟩ := selectAt_did (e := .motion x y) (f := .selectionStart) (fun _ _ => trivial) (fun _ _ => trivial) e
          exact ⟨cs, h.from_ rfl rfl rfl⟩
        · injection e with e
          subst e
          exact ⟨[], Did.refl _⟩
      · exact selectAt_did (e := .motion x y) (f := .selectionTarget) (fun _ _ => trivial) (fun _ _ => trivial) e

theorem scrollKey_made {s : BitVec 32} {t : Option (Nat × BitVec 32)} {k u : Nat} {c : Screen.Call} (h : scrollKey s t = some c) :
    Makes (.key s t k u) (.screen c) ∧ c.Valid := by
  unfold scrollKey at h
  split at h
  · cases h
  · split at h
    · split at h
      · injection h with h; subst h; exact ⟨rfl, trivial⟩
      split at h
      · injection h with h; subst h; exact ⟨rfl, trivial⟩
      split at h
      · injection h with h; subst h; exact ⟨rfl, trivial⟩
      split at h
      · injection h with h; subst h; exact ⟨rfl, trivial⟩
      · cases h
    · cases h

theorem key_did {w w' : Wid} (hr : Vte.Reachable w.vte) {s : BitVec 32} {t : Option (Nat × BitVec 32)} {k u : Nat}
    (e : w.key s t k u = .ok w') : ∃ cs evs, Did (.key s t k u) w w' cs evs [] := by
  unfold key at e
  split at e
  · rename_i c hc
    obtain ⟨v, hv, e⟩ := bind_ok e
    injection e with e
    subst e
    have := scrollKey_made (k := k) (u := u) hc
    exact ⟨_, _, Did.scr this.1 this.2 (lib_ok hv) rfl rfl rfl⟩
  · generalize (if u = 0 then 0xffffffff else u) = u' at e
    obtain ⟨r, er, e⟩ := bind_ok e
    have er := lib_ok er
    have hok := hr.all.1.keyboard k 0 (mods s) u'
    rw [er] at hok
    obtain ⟨evs, hl⟩ := hok.1.2.log
    unfold keyed at e
    obtain ⟨w1, e1, e⟩ := bind_ok e
    have h1 : Did (.key s t k u) w w1 [.keyboard k 0 (mods s) u'] evs [] :=
      Did.emu rfl rfl trivial (by show (w.vte.keyboard k 0 (mods s) u' >>= fun r => pure r.1) = _; rw [er]; rfl) hl e1
    split at e
    · obtain ⟨v, hv, e⟩ := bind_ok e
      injection e with e
      subst e
      exact ⟨_, _, h1.trans (Did.scr (c := .sbReset) trivial trivial (lib_ok hv) rfl rfl rfl)⟩
    · injection e with e
      subst e
      exact ⟨_, _, h1⟩

/-! ### Reading -/

/-- One read. -/
theorem read_did {e : Ev} (hm : ∀ d, Makes e (.input d)) {w w' : Wid} (hr : Vte.Reachable w.vte) {t : Tty} (ht : w.pty = some t)
    {len : Nat} (h : { w with pty := some { t with io := { t.io with
        inq := t.io.inq.drop len, got := t.io.got ++ t.io.inq.take len } } }.readFn (t.io.inq.take len) = .ok w') :
    ∃ evs, Did e w w' [.input (t.io.inq.take len)] evs [] := by
  unfold readFn at h
  obtain ⟨v, hv, h⟩ := bind_ok h
  obtain ⟨w1, h1, h⟩ := bind_ok h
  injection h with h
  subst h
  have hv := lib_ok hv
  have hok := hr.all.1.input (t.io.inq.take len)
  rw [show w.vte.input _ = _ from hv] at hok
  obtain ⟨evs, hl⟩ := hok.2.log
  obtain ⟨k1, k2⟩ := emu_ok (w := { w with pty := some { t with io := { t.io with
        inq := t.io.inq.drop len, got := t.io.got ++ t.io.inq.take len } } }) hl h1
  have hv' : w1.vte = v := by rw [k1]
  refine ⟨evs, ?_, ?_, by rw [← hl, ← hv'], by show w1.titles = _; rw [k1], ?_⟩
  · intro c hc
    rw [List.mem_singleton.mp hc]
    exact ⟨hm _, trivial⟩
  · show (w.vte.input _ >>= fun v => v.runAll []) = .ok w1.vte
    rw [show w.vte.input _ = _ from hv, hv']
    rfl
  · rw [ht]
    have p1 : Passes [] (t.io.inq.take len) [] (some t) (some { t with io := { t.io with
        inq := t.io.inq.drop len, got := t.io.got ++ t.io.inq.take len } }) :=
      ⟨_, rfl, ⟨rfl, by simp [List.append_assoc], rfl,
        fun ⟨q, hq⟩ _ => ⟨⟨q, hq.rep, hq.all⟩, by simp [sent], List.prefix_rfl⟩⟩⟩
    have := p1.trans k2.passes
    simpa [inputs] using this

theorem Did.reachable {e : Ev} {w w' : Wid} {cs : List Vte.Call} {evs : List Event} {bs : List UInt8} (h : Did e w w' cs evs bs)
    (hr : Vte.Reachable w.vte) : Vte.Reachable w'.vte := by
  obtain ⟨s, sg, v0, cs0, hs, e0, hv, er⟩ := hr
  refine ⟨s, sg, v0, cs0 ++ cs, hs, e0, ?_, ?_⟩
  · intro c hc
    rcases List.mem_append.mp hc with hc | hc
    · exact hv c hc
    · exact (h.made c hc).2
  · rw [vrunAll_append, er]
    exact h.run

theorem readLoop_did {e : Ev} (hm : ∀ d, Makes e (.input d)) : ∀ {ks : List KRes} {w w' : Wid}, Vte.Reachable w.vte →
    w.readLoop ks = .ok w' → ∃ cs evs, Did e w w' cs evs [] := by
  intro ks
  induction ks with
  | nil =>
    intro w w' _ h
    injection h with h
    subst h
    exact ⟨[], [], Did.refl _⟩
  | cons k ks ih =>
    intro w w' hr h
    unfold readLoop at h
    split at h
    · rename_i t n ht
      split at h
      · injection h with h
        subst h
        exact ⟨[], [], Did.refl _⟩
      · obtain ⟨w1, h1, h⟩ := bind_ok h
        obtain ⟨evs, d1⟩ := read_did hm hr ht h1
        obtain ⟨cs, evs2, d2⟩ := ih (d1.reachable hr) h
        exact ⟨_, _, d1.trans d2⟩
    · injection h with h
      subst h
      exact ⟨[], [], Did.refl _⟩

theorem writeLoop_same : ∀ {ks : List KRes} {p : Pty} {r : Pty × PtyRet}, p.writeLoop ks = .ok r → Pty.SameIn p r.1 := by
  intro ks
  induction ks with
  | nil =>
    intro p r e
    injection e with e
    subst e
    exact ⟨rfl, rfl, rfl⟩
  | cons k ks ih =>
    intro p r e
    unfold Pty.writeLoop at e
    split at e
    · injection e with e
      subst e
      exact ⟨rfl, rfl, rfl⟩
    · cases k with
      | some n =>
        obtain ⟨all, _, e⟩ := bind_ok e
        have := ih e
        exact ⟨this.inq, this.got, this.opn⟩
      | again => injection e with e; subst e; exact ⟨rfl, rfl, rfl⟩
      | intr => injection e with e; subst e; exact ⟨rfl, rfl, rfl⟩
      | fail => injection e with e; subst e; exact ⟨rfl, rfl, rfl⟩
      | zero => injection e with e; subst e; exact ⟨rfl, rfl, rfl⟩

theorem flush_did {e : Ev} {w w' : Wid} {w1 w2 : KRes} (h : w.flush w1 w2 = .ok w') : Did e w w' [] [] [] := by
  unfold flush at h
  split at h
  · injection h with h
    subst h
    exact Did.refl _
  · rename_i t ht
    obtain ⟨r, er, h⟩ := bind_ok h
    have er := lib_ok er
    injection h with h
    subst h
    have hs := writeLoop_same er
    refine ⟨fun _ h => (nomatch h), rfl, by simp, by simp [setTitles], ?_⟩
    rw [ht]
    refine ⟨_, rfl, ⟨by simp [inputs, hs.got], by simp [hs.got, hs.inq], hs.opn, ?_⟩⟩
    intro ⟨q, hq⟩ _
    obtain ⟨x, ex, h1, h2, h3, h4, n, h5, h6, _⟩ := Pty.writeLoop_flow [w1, w2] hq
    rw [er] at ex
    injection ex with ex
    subst ex
    refine ⟨⟨_, h6⟩, by simp [sent, h4], ?_⟩
    show _ <+: r.1.sent
    rw [h5]
    exact List.prefix_append _ _

theorem dispatch_did {e : Ev} (hm : ∀ d, Makes e (.input d)) {w w' : Wid} (hr : Vte.Reachable w.vte) {r1 r2 w1 w2 : KRes}
    (h : w.dispatch r1 r2 w1 w2 = .ok w') : ∃ cs evs, Did e w w' cs evs [] := by
  obtain ⟨wm, h1, h2⟩ := bind_ok h
  obtain ⟨cs, evs, d1⟩ := readLoop_did hm hr h1
  exact ⟨_, _, d1.trans (flush_did h2)⟩

theorem setFont_ok {w w' : Wid} {new : Option Faces} (e : w.setFont new = .ok w') : ∃ fs, new = some fs ∧
    w' = { w with faces := some fs, columns := cells w.width (some fs.regular.width)
                  rows := cells w.height (some fs.regular.height), queued := true } := by
  unfold setFont at e
  split at e
  · cases e
  · rename_i fs
    injection e with e
    exact ⟨fs, rfl, e.symm⟩

/-- Every event but the start and the end of the child. -/
theorem step_did {ink : Ink} {e : Ev} {w w' : Wid} (hr : Vte.Reachable w.vte) (hv : e.Valid) (hx : e ≠ .exit)
    (hf : ∀ n, e = .fork n → w.pty.isSome = true) (h : w.step ink e = .ok w') :
    ∃ cs evs, Did e w w' cs evs (childBytes [e]) := by
  cases e with
  | configure x y m =>
    obtain ⟨cs, d⟩ := configure_did h
    exact ⟨cs, [], d⟩
  | draw =>
    obtain ⟨cs, d⟩ := draw_did h
    exact ⟨cs, [], d⟩
  | font new =>
    change (if w.faces.isSome then w.setFont new else .ok w) = _ at h
    split at h
    · obtain ⟨fs, _, rfl⟩ := setFont_ok h
      exact ⟨[], [], Did.frame rfl rfl rfl⟩
    · injection h with h
      subst h
      exact ⟨[], [], Did.refl _⟩
  | sbSize n =>
    obtain ⟨v, hv', h⟩ := bind_ok h
    injection h with h
    subst h
    exact ⟨_, _, Did.scr (c := .setMaxSb n) rfl hv (lib_ok hv') rfl rfl rfl⟩
  | showDirty on =>
    injection h with h
    subst h
    exact ⟨[], [], Did.frame rfl rfl rfl⟩
  | key s t k u => exact key_did hr h
  | button k b t x y =>
    obtain ⟨cs, d⟩ := button_did h
    exact ⟨cs, [], d⟩
  | motion x y =>
    obtain ⟨cs, d⟩ := motion_did h
    exact ⟨cs, [], d⟩
  | fork new =>
    change w.fork new = _ at h
    unfold Wid.fork at h
    rw [if_pos (hf new rfl)] at h
    injection h with h
    subst h
    exact ⟨[], [], Did.refl _⟩
  | child d =>
    injection h with h
    subst h
    refine ⟨[], [], fun _ h => (nomatch h), rfl, by simp [childWrites], by simp [childWrites, setTitles], ?_⟩
    show Passes _ _ _ w.pty (w.pty.map _)
    cases w.pty with
    | none => exact ⟨rfl, rfl⟩
    | some t =>
      refine ⟨_, rfl, ⟨by simp [inputs], by simp [childBytes], rfl, ?_⟩⟩
      intro ⟨q, hq⟩ _
      exact ⟨⟨q, hq.rep, hq.all⟩, by simp [sent], List.prefix_rfl⟩
  | dispatch r1 r2 w1 w2 => exact dispatch_did (e := .dispatch r1 r2 w1 w2) (fun _ => trivial) hr h
  | idle r1 r2 w1 w2 =>
    obtain ⟨cs, evs, d⟩ := dispatch_did (e := .idle r1 r2 w1 w2) (fun _ => trivial) (w := { w with idle := false }) hr h
    exact ⟨cs, evs, d.from_ rfl rfl rfl⟩
  | exit => exact absurd rfl hx

/-! ### Sessions -/

theorem runAll_append {ink : Ink} (a b : List Ev) (w : Wid) :
    runAll ink (a ++ b) w = (runAll ink a w >>= runAll ink b) := by
  induction a generalizing w with
  | nil => rfl
  | cons e a ih =>
    show (w.step ink e >>= runAll ink (a ++ b)) = ((w.step ink e >>= runAll ink a) >>= _)
    cases w.step ink e with
    | ok t => exact ih t
    | error e => rfl

/-- Replacing the pty does not matter to the emulator. -/
theorem fork_ok {w w' : Wid} {new : Option Faces} (h : w.fork new = .ok w') (hp : w.pty = none) :
    w'.vte = w.vte ∧ w'.titles = w.titles ∧ (∃ t, w'.pty = some t ∧ t.io = Pty.init ∧ t.cols = w'.columns % 65536 ∧
      t.rows = w'.rows % 65536) := by
  unfold Wid.fork at h
  rw [hp, if_neg (by decide)] at h
  obtain ⟨w1, h1, h⟩ := bind_ok h
  injection h with h
  subst h
  split at h1
  · injection h1 with h1
    subst h1
    exact ⟨rfl, rfl, _, rfl, rfl, rfl, rfl⟩
  · obtain ⟨fs, _, rfl⟩ := setFont_ok h1
    exact ⟨rfl, rfl, _, rfl, rfl, rfl, rfl⟩

/-- What holds of every widget. -/
structure Sane (w : Wid) : Prop where
  vte : Vte.Reachable w.vte
  titles : w.titles = setTitles w.vte.log
  io : ∀ t, w.pty = some t → t.io.isOpen = true ∧ (Short w.vte.log → ∃ q, Pty.Flow t.io q)

theorem Sane.step {ink : Ink} {e : Ev} {w w' : Wid} (hs : Sane w) (hv : e.Valid) (h : w.step ink e = .ok w') : Sane w' := by
  by_cases hx : e = .exit
  · subst hx
    injection h with h
    subst h
    exact ⟨hs.vte, hs.titles, fun _ h => (nomatch h)⟩
  by_cases hf : ∃ n, e = .fork n ∧ w.pty = none
  · obtain ⟨n, rfl, hp⟩ := hf
    obtain ⟨h1, h2, t, h3, h4, _⟩ := fork_ok h hp
    refine ⟨by rw [h1]; exact hs.vte, by rw [h1, h2]; exact hs.titles, ?_⟩
    intro t' ht
    rw [h3] at ht
    injection ht with ht
    subst ht
    rw [h4]
    exact ⟨rfl, fun _ => ⟨[], Pty.flow_init⟩⟩
  · obtain ⟨cs, evs, d⟩ := step_did hs.vte hv hx (fun n hn => by
      cases hp : w.pty with
      | some t => rfl
      | none => exact absurd ⟨n, hn, hp⟩ hf) h
    refine ⟨d.reachable hs.vte, by rw [d.titles, d.log, setTitles_append, hs.titles], ?_⟩
    intro t' ht'
    have hp := d.pty
    cases hp0 : w.pty with
    | none =>
      rw [hp0, ht'] at hp
      exact absurd hp.1 (by simp)
    | some t =>
      rw [hp0, ht'] at hp
      obtain ⟨t1, e1, f⟩ := hp
      injection e1 with e1
      subst e1
      have := hs.io t hp0
      refine ⟨f.opn.trans this.1, fun hsh => ?_⟩
      rw [d.log] at hsh
      exact (f.flow (this.2 hsh.left) hsh.right).1

theorem init_ok {s : Screen} {sg : Bool} {mem : Nat → Bool} {w : Wid} (h : init s sg mem = .ok w) :
    ∃ v0 v, Vte.new s sg = .ok v0 ∧ { v0 with oscCb := true }.scr (.setMaxSb 2000) = .ok v ∧ w.vte = v ∧ w.pty = none ∧
      w.titles = [] ∧ w.faces = none ∧ w.sel = 0 ∧ w.width = 0 ∧ w.height = 0 := by
  unfold init at h
  obtain ⟨r, _, h⟩ := bind_ok h
  cases r with
  | none => cases h
  | some r =>
    obtain ⟨v0, h0, h⟩ := bind_ok h
    obtain ⟨v, h1, h⟩ := bind_ok h
    injection h with h
    subst h
    exact ⟨v0, v, lib_ok h0, lib_ok h1, rfl, rfl, rfl, rfl, rfl, rfl, rfl⟩

end Wid
end Verif.Gtk
