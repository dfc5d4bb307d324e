import Verif.Props.Gtk.Select
import Verif.Props.Gtk.Renderer

/-!
C100: the widget itself does nothing undefined.
-/

namespace Verif.Props.Gtk
open Verif Verif.Gtk Verif.Gtk.Wid

/-- The outcome satisfies `P`, or is an error that satisfies `K`. -/
def WS {α : Type} (x : W α) (K : Stop → Prop) (P : α → Prop) : Prop :=
  match x with
  | .ok a => P a
  | .error s => K s

theorem WS.bind {α β : Type} {x : W α} {f : α → W β} {K : Stop → Prop} {P : α → Prop} {Q : β → Prop} (h : WS x K P)
    (hf : ∀ a, x = .ok a → P a → WS (f a) K Q) : WS (x >>= f) K Q := by
  cases x with
  | ok a => exact hf a rfl h
  | error s => exact h

theorem WS.lib {α : Type} {x : R α} {L : UB → Prop} {K : Stop → Prop} {P : α → Prop} (h : R.SatK x L P) (hk : ∀ k, L k → K (.ub k)) :
    WS (lib x) K P := by
  cases x with
  | ok a => exact h
  | error k => exact hk k h

theorem WS.ok {α : Type} {K : Stop → Prop} {P : α → Prop} {a : α} (h : P a) : WS (.ok a) K P := h

/-- The ways in which an event can fail. -/
def Fails (w : Wid) (e : Wid.Ev) : Stop → Prop
  | .abort => e.Allocates = true ∨ e.Feeds = true
  | .ub k => e.Feeds = true ∧ (Vte.Known k ∧ (∀ s t k u, e = .key s t k u → w.vte.fNoEcho = false) ∨ k = .badShift)
  | .fault _ => False

/-- What is needed of the widget. -/
structure Firm (w : Wid) : Prop where
  alive : Alive w
  rend : w.rend.Sound
  x : 0 ≤ w.selX ∧ w.selX < 281474976710656
  y : 0 ≤ w.selY ∧ w.selY < 281474976710656

/-- Calls of the screen that the widget makes itself cannot fail. -/
theorem scr_safe {w : Wid} (ha : Alive w) {c : Screen.Call} (hv : c.Valid) (hh : Vte.harmless c = true) {K : Stop → Prop} :
    WS (lib (w.vte.scr c)) K (fun v => ∃ s, v = { w.vte with con := s }) := by
  have := ha.sane.vte.ok.1.scr (Q := fun _ => True) (X := ⟨False, False, False⟩) hv trivial hh
  cases h : w.vte.scr c with
  | ok v =>
    unfold Vte.scr at h
    obtain ⟨s, _, h⟩ := bind_ok h
    injection h with h
    exact ⟨s, h.symm⟩
  | error k =>
    rw [h] at this
    rcases this with h | h | h <;> exact h.2.elim

theorem selectAt_safe {w : Wid} (ha : Alive w) {fs : Faces} (hf : w.faces = some fs) {f : Nat → Nat → Screen.Call}
    (hc : ∀ a b, (f a b).Valid ∧ Vte.harmless (f a b) = true) {x y : Int} (hx : 0 ≤ x ∧ x < 281474976710656)
    (hy : 0 ≤ y ∧ y < 281474976710656) {K : Stop → Prop} :
    WS (w.selectAt fs f x y) K (fun w' => w'.rend = w.rend ∧ w'.selX = w.selX ∧ w'.selY = w.selY) := by
  have hpos := ha.pos (fs.regular.width, fs.regular.height) (by unfold Wid.cell; rw [hf]; rfl)
  unfold selectAt
  rw [toCell_ok hx.1 hpos.1 hx.2, toCell_ok hy.1 hpos.2 hy.2]
  refine WS.bind (WS.ok (P := fun _ => True) trivial) (fun _ _ _ => WS.bind (WS.ok (P := fun _ => True) trivial) (fun _ _ _ => ?_))
  refine WS.bind (scr_safe ha (hc _ _).1 (hc _ _).2) ?_
  exact fun v _ _ => ⟨rfl, rfl, rfl⟩

theorem writeFn_safe {w : Wid} {b : List UInt8} (hq : ∀ t, w.pty = some t → ∃ q, Pty.Flow t.io q) (hb : b.length ≤ 24) {K : Stop → Prop}
    (h1 : K .abort) (h2 : K (.ub .badShift)) :
    WS (w.writeFn b) K (fun w' => (∀ t, w'.pty = some t → ∃ q, Pty.Flow t.io q) ∧ w'.rend = w.rend ∧ w'.vte = w.vte ∧ w'.selX = w.selX ∧ w'.selY = w.selY) := by
  unfold writeFn
  cases hp : w.pty with
  | none => exact ⟨by rw [hp]; exact fun _ h => (nomatch h), rfl, rfl, rfl, rfl⟩
  | some t =>
    obtain ⟨q, hq⟩ := hq t hp
    refine WS.bind (WS.lib (Pty.write_flow hq b (Nat.lt_of_le_of_lt hb (by decide))) (fun k hk => by rw [show k = .badShift from hk]; exact h2)) ?_
    intro r _ hr
    split
    · refine ⟨?_, rfl, rfl, rfl, rfl⟩
      intro t' ht
      injection ht with ht
      subst ht
      rcases hr.2.2 with ⟨_, _, f⟩ | ⟨_, _, f⟩
      · exact ⟨_, f⟩
      · exact ⟨_, f⟩
    · exact h1

theorem callbacks_safe {K : Stop → Prop} (h1 : K .abort) (h2 : K (.ub .badShift)) : ∀ {evs : List Event} {w : Wid},
    (∀ t, w.pty = some t → ∃ q, Pty.Flow t.io q) → Vte.Brief evs →
    WS (callbacks evs w) K (fun w' => (∀ t, w'.pty = some t → ∃ q, Pty.Flow t.io q) ∧ w'.rend = w.rend ∧ w'.vte = w.vte ∧ w'.selX = w.selX ∧ w'.selY = w.selY) := by
  intro evs
  induction evs with
  | nil => exact fun hq _ => ⟨hq, rfl, rfl, rfl, rfl⟩
  | cons ev evs ih =>
    intro w hq hb
    cases ev with
    | mouse a b => exact ih hq hb
    | osc b =>
      have hb' : Vte.Brief evs := hb
      have := ih (w := w.oscFn b) (by rw [oscFn_eq]; exact hq) hb'
      rw [oscFn_eq] at this
      show WS (callbacks evs (w.oscFn b)) _ _
      rw [oscFn_eq]
      exact this
    | write b =>
      have hb1 : b.length ≤ 24 := hb b (List.mem_cons_self ..)
      have hb2 : Vte.Brief evs := fun c hc => hb c (List.mem_cons_of_mem _ hc)
      refine WS.bind (writeFn_safe hq hb1 h1 h2) ?_
      intro w1 _ ⟨k1, k2, k3, k4, k5⟩
      have := ih k1 hb2
      unfold WS at *
      split at this
      · exact ⟨this.1, this.2.1.trans k2, this.2.2.1.trans k3, this.2.2.2.1.trans k4, this.2.2.2.2.trans k5⟩
      · exact this

/-- Callbacks during a call of the emulator. -/
theorem emu_safe {K : Stop → Prop} (h1 : K .abort) (h2 : K (.ub .badShift)) {w : Wid} {v : Vte} (hs : Vte.Sends w.vte v)
    (hq : ∀ t, w.pty = some t → ∃ q, Pty.Flow t.io q) :
    WS (w.emu v) K (fun w' => (∀ t, w'.pty = some t → ∃ q, Pty.Flow t.io q) ∧ w'.rend = w.rend ∧ w'.vte = v ∧ w'.selX = w.selX ∧ w'.selY = w.selY) := by
  obtain ⟨evs, l, b⟩ := hs
  unfold emu
  rw [l, List.drop_left]
  exact callbacks_safe h1 h2 (w := { w with vte := v }) hq b

theorem readLoop_safe {K : Stop → Prop} (h1 : K .abort) (h2 : K (.ub .badShift)) (h3 : ∀ k, Vte.Known k → K (.ub k)) :
    ∀ {ks : List KRes} {w : Wid}, Vte.Reachable w.vte → (∀ t, w.pty = some t → ∃ q, Pty.Flow t.io q) →
    WS (w.readLoop ks) K (fun w' => (∀ t, w'.pty = some t → ∃ q, Pty.Flow t.io q) ∧ w'.rend = w.rend ∧ w'.selX = w.selX ∧ w'.selY = w.selY) := by
  intro ks
  induction ks with
  | nil => exact fun _ hq => ⟨hq, rfl, rfl, rfl⟩
  | cons k ks ih =>
    intro w hr hq
    unfold readLoop
    split
    · rename_i t n ht
      split
      · exact ⟨hq, rfl, rfl, rfl⟩
      · obtain ⟨q, hf⟩ := hq t ht
        refine WS.bind (P := fun w' => Vte.Reachable w'.vte ∧ (∀ t, w'.pty = some t → ∃ q, Pty.Flow t.io q) ∧ w'.rend = w.rend ∧ w'.selX = w.selX ∧ w'.selY = w.selY) ?_ ?_
        · unfold readFn
          have hc := (hr.ok.1.call (c := .input (t.io.inq.take (min (n + 1) 16383))) trivial)
          refine WS.bind (WS.lib hc h3) ?_
          intro v hv _
          have hv := lib_ok hv
          have hsd := Vte.input_sends w.vte (t.io.inq.take (min (n + 1) 16383))
          rw [hv] at hsd
          refine WS.bind (emu_safe h1 h2 (w := { w with pty := some { t with io := { t.io with
            inq := t.io.inq.drop (min (n + 1) 16383), got := t.io.got ++ t.io.inq.take (min (n + 1) 16383) } } }) hsd ?_) ?_
          · intro t' ht'
            injection ht' with ht'
            subst ht'
            exact ⟨q, hf.rep, hf.all⟩
          · intro w1 _ ⟨k1, k2, k3, k4, k5⟩
            exact ⟨by rw [show ({ w1 with queued := true } : Wid).vte = v from k3]; exact hr.step (c := .input _) trivial hv, k1, k2, k4, k5⟩
        · intro w1 _ ⟨k1, k2, k3, k4, k5⟩
          have := ih k1 k2
          unfold WS at *
          split at this
          · exact ⟨this.1, this.2.1.trans k3, this.2.2.1.trans k4, this.2.2.2.trans k5⟩
          · exact this
    · exact ⟨hq, rfl, rfl, rfl⟩

theorem dispatch_safe {K : Stop → Prop} (h1 : K .abort) (h2 : K (.ub .badShift)) (h3 : ∀ k, Vte.Known k → K (.ub k)) {w : Wid}
    (hr : Vte.Reachable w.vte) (hq : ∀ t, w.pty = some t → ∃ q, Pty.Flow t.io q) {r1 r2 v1 w2 : KRes} :
    WS (w.dispatch r1 r2 v1 w2) K (fun w' => w'.rend = w.rend ∧ w'.selX = w.selX ∧ w'.selY = w.selY) := by
  unfold dispatch
  refine WS.bind (readLoop_safe h1 h2 h3 hr hq) ?_
  intro w1 _ ⟨k1, k2, k3, k4⟩
  unfold flush
  cases hp : w1.pty with
  | none => exact ⟨k2, k3, k4⟩
  | some t =>
    obtain ⟨q, hf⟩ := k1 t hp
    refine WS.bind (WS.lib (L := fun _ => False) (P := fun _ => True) ?_ (fun _ h => h.elim)) (fun r _ _ => ⟨k2, k3, k4⟩)
    obtain ⟨r, e, _⟩ := Pty.writeLoop_flow [v1, w2] hf
    rw [e]
    trivial

theorem key_safe {w : Wid} (ha : Alive w) {s : BitVec 32} {t : Option (Nat × BitVec 32)} {k u : Nat} :
    WS (w.key s t k u) (Fails w (.key s t k u)) (fun w' => w'.rend = w.rend ∧ w'.selX = w.selX ∧ w'.selY = w.selY) := by
  have hq : ∀ t, w.pty = some t → ∃ q, Pty.Flow t.io q := fun t ht => (ha.sane.io t ht).2 (brief_short ha.brief)
  unfold key
  cases hs : scrollKey s t with
  | some c =>
    have hc : c.Valid ∧ Vte.harmless c = true := by
      unfold scrollKey at hs
      split at hs
      · cases hs
      · repeat' split at hs
        all_goals first
          | cases hs; done
          | (injection hs with hs; subst hs; exact ⟨by unfold Screen.Call.Valid; decide, rfl⟩)
    exact WS.bind (scr_safe ha hc.1 hc.2) (fun _ _ _ => ⟨rfl, rfl, rfl⟩)
  | none =>
    dsimp only
    generalize (if u = 0 then 4294967295 else u) = u' at *
    have hsend := Vte.keyboard_sends w.vte k 0 (mods s) u'
    have hc := ha.sane.vte.ok.1.call (c := .keyboard k 0 (mods s) u') trivial
    cases hkb : w.vte.keyboard k 0 (mods s) u' with
    | error b =>
      have hr : (Vte.Call.keyboard k 0 (mods s) u').run w.vte = .error b := by
        show (w.vte.keyboard _ _ _ _ >>= _) = _
        rw [hkb]
        rfl
      rw [hr] at hc
      refine ⟨rfl, Or.inl ⟨hc, ?_⟩⟩
      intro _ _ _ _ _
      cases hn : w.vte.fNoEcho with
      | false => rfl
      | true =>
        rw [Vte.keyboard_quiet hn ha.sane.vte.all.2.2] at hkb
        split at hkb <;> cases hkb
    | ok r =>
      rw [hkb] at hsend
      have hr : (Vte.Call.keyboard k 0 (mods s) u').run w.vte = .ok r.1 := by
        show (w.vte.keyboard _ _ _ _ >>= _) = _
        rw [hkb]
        rfl
      have hre := ha.sane.vte.step (c := .keyboard k 0 (mods s) u') trivial hr
      refine WS.bind (WS.ok (P := fun a => a = r) rfl) ?_
      intro a _ ea
      subst ea
      unfold keyed
      refine WS.bind (emu_safe (Or.inr rfl) ⟨rfl, Or.inr rfl⟩ hsend hq) ?_
      intro w1 _ ⟨k1, k2, k3, k4, k5⟩
      split
      · have h0 := hre.ok.1.scr (Q := fun _ => True) (X := ⟨False, False, False⟩) (c := .sbReset) trivial trivial rfl
        rw [← k3] at h0
        refine WS.bind (WS.lib (P := fun _ => True) (L := fun _ => False) ?_ (fun _ h => h.elim)) (fun v _ _ => ⟨k2, k4, k5⟩)
        cases h : w1.vte.scr .sbReset with
        | ok v => trivial
        | error k =>
          rw [h] at h0
          rcases h0 with h | h | h <;> exact h.2.elim
      · exact ⟨k2, k4, k5⟩

/-- Sizes in cells are not larger than those in pixels. -/
theorem cells_le (size : Nat) (c : Option Nat) : cells size c ≤ max size 1 := by
  unfold cells
  cases c with
  | none => show 1 ≤ _; omega
  | some c =>
    show (if _ then _ else _) ≤ _
    have := Nat.div_le_self size c
    generalize size / c = q at *
    split <;> omega

theorem configure_safe {w : Wid} (ha : Alive w) {x y : Nat} {m : Bool} (hf : 4 * (max x 1 * max y 1) < 2147483648) :
    WS (w.configure x y m) (Fails w (.configure x y m)) (fun w' => w'.rend.Sound ∧ w'.selX = w.selX ∧ w'.selY = w.selY) := by
  unfold configure
  refine WS.bind (P := fun w' => w'.rend.Sound ∧ w'.selX = w.selX ∧ w'.selY = w.selY ∧ w'.vte = w.vte ∧ w'.columns < 1073741824 ∧ w'.rows < 1073741824) ?_ ?_
  · unfold resizeRend
    obtain ⟨o, e, ho⟩ := realloc_sound (ok := m) hf
    have e' : realloc m (w.recalculate x y).width (w.recalculate x y).height = .ok o := e
    rw [e']
    cases o with
    | none => exact Or.inl rfl
    | some r =>
      obtain ⟨hx, hy⟩ := realloc_small e
      refine ⟨ho r rfl, rfl, rfl, rfl, Nat.lt_of_le_of_lt (cells_le _ _) ?_, Nat.lt_of_le_of_lt (cells_le _ _) ?_⟩
      · show max x 1 < _; omega
      · show max y 1 < _; omega
  · intro w1 _ ⟨h1, h2, h3, h4, h5, h6⟩
    refine WS.bind (P := fun w' => w'.rend = w1.rend ∧ w'.selX = w1.selX ∧ w'.selY = w1.selY) ?_ ?_
    · unfold resizeScreen
      have := scr_safe ha (c := .resize w1.columns w1.rows) ⟨h5, h6⟩ rfl (K := fun _ => False)
      rw [← h4] at this
      cases hr : w1.vte.con.resize w1.columns w1.rows with
      | error k =>
        have hs : w1.vte.scr (.resize w1.columns w1.rows) = .error k := by
          show ((w1.vte.con.resize _ _ >>= _) >>= _) = _
          rw [hr]
          rfl
        rw [hs] at this
        exact this.elim
      | ok r =>
        show WS (if r.1 = .ok then _ else _) _ _
        split
        · exact ⟨rfl, rfl, rfl⟩
        · exact Or.inl rfl
    · intro w2 _ ⟨k1, k2, k3⟩
      exact ⟨by show w2.rend.Sound; rw [k1]; exact h1, k2.trans h2, k3.trans h3⟩

theorem draw_safe {ink : Ink} {w : Wid} (ha : Alive w) (hr : w.rend.Sound) {K : Stop → Prop} :
    WS (w.draw ink) K (fun w' => w'.rend.Sound ∧ w'.selX = w.selX ∧ w'.selY = w.selY) := by
  unfold draw
  cases hf : w.faces with
  | none => exact ⟨hr, rfl, rfl⟩
  | some fs =>
    have := scr_safe ha (c := .draw) trivial rfl (K := fun _ => False)
    cases hd : w.vte.con.draw with
    | error k =>
      have hs : w.vte.scr .draw = .error k := by
        show ((w.vte.con.draw >>= _) >>= _) = _
        rw [hd]
        rfl
      rw [hs] at this
      exact this.elim
    | ok d =>
      obtain ⟨fs', r', e, h1, _, h3⟩ := drawCells_ok (ink := ink) (debug := w.showDirty) d.1 (ha.sound fs hf) hr
      have h4 := h3.sound hr
      refine WS.bind (WS.ok (P := fun a => a = d) rfl) ?_
      intro a _ ea
      subst ea
      unfold rendererDraw
      rw [e]
      exact ⟨⟨h4.stride, h4.cap, h4.small, h4.w32, h4.h32⟩, rfl, rfl⟩

/-- One event. -/
theorem step_safe {ink : Ink} {w : Wid} (h : Firm w) {e : Wid.Ev} (hv : e.Valid) (hf : e.Fits) :
    WS (w.step ink e) (Fails w e) Firm := by
  have ha := h.alive
  have hq : ∀ t, w.pty = some t → ∃ q, Pty.Flow t.io q := fun t ht => (ha.sane.io t ht).2 (brief_short ha.brief)
  suffices hh : WS (w.step ink e) (Fails w e) (fun w' => w'.rend.Sound ∧ (0 ≤ w'.selX ∧ w'.selX < 281474976710656) ∧
      0 ≤ w'.selY ∧ w'.selY < 281474976710656) by
    cases he : w.step ink e with
    | ok w' =>
      rw [he] at hh
      exact ⟨ha.step hv he, hh.1, hh.2.1, hh.2.2⟩
    | error s =>
      rw [he] at hh
      exact hh
  have same : ∀ {x : W Wid} {K : Stop → Prop}, WS x K (fun w' => w'.rend = w.rend ∧ w'.selX = w.selX ∧ w'.selY = w.selY) →
      WS x K (fun w' => w'.rend.Sound ∧ (0 ≤ w'.selX ∧ w'.selX < 281474976710656) ∧ 0 ≤ w'.selY ∧ w'.selY < 281474976710656) := by
    intro x K hx
    unfold WS at *
    split at hx
    · rw [hx.1, hx.2.1, hx.2.2]
      exact ⟨h.rend, h.x, h.y⟩
    · exact hx
  have same2 : ∀ {x : W Wid} {K : Stop → Prop}, WS x K (fun w' => w'.rend.Sound ∧ w'.selX = w.selX ∧ w'.selY = w.selY) →
      WS x K (fun w' => w'.rend.Sound ∧ (0 ≤ w'.selX ∧ w'.selX < 281474976710656) ∧ 0 ≤ w'.selY ∧ w'.selY < 281474976710656) := by
    intro x K hx
    unfold WS at *
    split at hx
    · rw [hx.2.1, hx.2.2]
      exact ⟨hx.1, h.x, h.y⟩
    · exact hx
  have font : ∀ {K : Stop → Prop} (new : Option Faces), K .abort →
      WS (w.setFont new) K (fun w' => w'.rend = w.rend ∧ w'.selX = w.selX ∧ w'.selY = w.selY) := by
    intro K new hK
    cases new with
    | none => exact hK
    | some fs => exact ⟨rfl, rfl, rfl⟩
  have sel : ∀ a b : Nat, (Screen.Call.selectionStart a b).Valid ∧ Vte.harmless (.selectionStart a b) = true := fun _ _ => ⟨trivial, rfl⟩
  have tgt : ∀ a b : Nat, (Screen.Call.selectionTarget a b).Valid ∧ Vte.harmless (.selectionTarget a b) = true := fun _ _ => ⟨trivial, rfl⟩
  cases e with
  | configure x y m => exact same2 (configure_safe ha hf)
  | draw => exact same2 (draw_safe ha h.rend)
  | font new =>
    refine same ?_
    show WS (if _ then _ else _) _ _
    split
    · exact font new (Or.inl rfl)
    · exact ⟨rfl, rfl, rfl⟩
  | sbSize n => exact same (WS.bind (scr_safe ha (c := .setMaxSb n) hv rfl) (fun _ _ _ => ⟨rfl, rfl, rfl⟩))
  | showDirty on => exact same ⟨rfl, rfl, rfl⟩
  | key s t k u => exact same (key_safe ha)
  | button k b t x y =>
    show WS (if _ then _ else _) _ _
    split
    · exact same ⟨rfl, rfl, rfl⟩
    · cases hw : w.faces with
      | none => exact same ⟨rfl, rfl, rfl⟩
      | some fs =>
        cases k with
        | single => exact ⟨h.rend, hf.1, hf.2⟩
        | double =>
          have := selectAt_safe (w := { w with sel := 2 }) (K := Fails w (.button .double b t x y)) ⟨⟨ha.sane.vte, ha.sane.titles, ha.sane.io⟩, ha.osc, ha.mouse, ha.brief, ha.sound, ha.pos⟩ hw sel hf.1 hf.2
          have := same this
          rw [hw] at this
          exact this
        | triple =>
          have := selectAt_safe (w := { w with sel := 2 }) (K := Fails w (.button .triple b t x y)) ⟨⟨ha.sane.vte, ha.sane.titles, ha.sane.io⟩, ha.osc, ha.mouse, ha.brief, ha.sound, ha.pos⟩ hw sel hf.1 hf.2
          have := same this
          rw [hw] at this
          exact this
        | release =>
          refine same ?_
          show WS (if _ then _ else _) _ _
          split
          · exact WS.bind (scr_safe ha (c := .selectionReset) trivial rfl) (fun _ _ _ => ⟨rfl, rfl, rfl⟩)
          · exact ⟨rfl, rfl, rfl⟩
  | motion x y =>
    show WS (if _ then _ else _) _ _
    split
    · exact same ⟨rfl, rfl, rfl⟩
    · cases hw : w.faces with
      | none => exact same ⟨rfl, rfl, rfl⟩
      | some fs =>
        dsimp only
        split
        · split
          · have := selectAt_safe (w := { w with sel := 2 }) (K := Fails w (.motion x y)) ⟨⟨ha.sane.vte, ha.sane.titles, ha.sane.io⟩, ha.osc, ha.mouse, ha.brief, ha.sound, ha.pos⟩ hw sel h.x h.y
            have := same this
            rw [hw] at this
            exact this
          · exact same ⟨rfl, rfl, rfl⟩
        · exact same (selectAt_safe ha hw tgt hf.1 hf.2)
  | fork new =>
    refine same ?_
    show WS (if _ then _ else _) _ _
    split
    · exact ⟨rfl, rfl, rfl⟩
    · refine WS.bind (P := fun w' => w'.rend = w.rend ∧ w'.selX = w.selX ∧ w'.selY = w.selY) ?_ ?_
      · split
        · exact ⟨rfl, rfl, rfl⟩
        · exact font new (Or.inl rfl)
      · exact fun _ _ h => h
  | child d => exact same ⟨rfl, rfl, rfl⟩
  | dispatch r1 r2 w1 w2 =>
    exact same (dispatch_safe (Or.inr rfl) ⟨rfl, Or.inr rfl⟩ (fun k hk => ⟨rfl, Or.inl ⟨hk, fun _ _ _ _ e => (nomatch e)⟩⟩) ha.sane.vte hq)
  | idle r1 r2 w1 w2 =>
    exact same (dispatch_safe (w := { w with idle := false }) (Or.inr rfl) ⟨rfl, Or.inr rfl⟩ (fun k hk => ⟨rfl, Or.inl ⟨hk, fun _ _ _ _ e => (nomatch e)⟩⟩) ha.sane.vte hq)
  | exit => exact same ⟨rfl, rfl, rfl⟩

theorem init_firm {allocOk : Nat → Bool} {s : Screen} {sg : Bool} {mem : Nat → Bool} {w : Wid}
    (hs : Screen.new allocOk = .ok (some s)) (h : Wid.init s sg mem = .ok w) : Firm w := by
  have ha := init_alive hs h
  unfold Wid.init at h
  obtain ⟨r, hr, h⟩ := bind_ok h
  have hr := own_ok hr
  cases r with
  | none => cases h
  | some r =>
    obtain ⟨v0, _, h⟩ := bind_ok h
    obtain ⟨v, _, h⟩ := bind_ok h
    injection h with h
    subst h
    obtain ⟨o, e, ho⟩ := realloc_sound (ok := true) (w := 0) (h := 0) (by decide)
    rw [hr] at e
    injection e with e
    have hz : (0 : Int) ≤ 0 ∧ (0 : Int) < 281474976710656 := by decide
    exact ⟨ha, ho r e.symm, hz, hz⟩

theorem runAll_firm {ink : Ink} : ∀ {es : List Wid.Ev} {w w' : Wid}, Firm w → (∀ e ∈ es, e.Valid) → (∀ e ∈ es, e.Fits) →
    Wid.runAll ink es w = .ok w' → Firm w' := by
  intro es
  induction es with
  | nil =>
    intro w w' hw _ _ h
    injection h with h
    subst h
    exact hw
  | cons e es ih =>
    intro w w' hw hv hf h
    obtain ⟨w1, h1, h2⟩ := bind_ok h
    have := step_safe (ink := ink) hw (hv e (List.mem_cons_self ..)) (hf e (List.mem_cons_self ..))
    rw [h1] at this
    exact ih this (fun d hd => hv d (List.mem_cons_of_mem _ hd)) (fun d hd => hf d (List.mem_cons_of_mem _ hd)) h2

/-! ### C100 -/

/-- **C100.** On every screen that was made, creating the widget succeeds. -/
theorem C100_created {allocOk : Nat → Bool} {s : Screen} (hs : Screen.new allocOk = .ok (some s)) (sg : Bool) (mem : Nat → Bool) :
    ∃ w, Wid.init s sg mem = .ok w := by
  have hsr : s.Reachable := ⟨allocOk, [], fun _ h => (nomatch h), by
    show (Screen.new allocOk >>= _) = _
    rw [hs]
    rfl⟩
  obtain ⟨v, e, hv, _⟩ := Vte.new_ok hsr.inv sg
  have hv' : Vte.Ok { v with oscCb := true } := by
    have := hv.call (c := .setOscCb true) trivial
    exact this.1
  have h0 := hv'.scr (Q := fun _ => True) (X := ⟨False, False, False⟩) (c := .setMaxSb 2000) (by unfold Screen.Call.Valid; decide) trivial rfl
  cases h1 : Vte.scr { v with oscCb := true } (.setMaxSb 2000) with
  | error k =>
    rw [h1] at h0
    rcases h0 with h | h | h <;> exact h.2.elim
  | ok v' =>
    unfold Wid.init
    obtain ⟨o, er, _⟩ := realloc_sound (ok := true) (w := 0) (h := 0) (by decide)
    have hsome : (match realloc true 0 0 with | .ok (some _) => true | _ => false) = true := by decide +kernel
    rw [er] at hsome
    cases o with
    | none => cases hsome
    | some r =>
      rw [er, e]
      show ∃ w, (lib (Vte.scr { v with oscCb := true } (.setMaxSb 2000)) >>= _) = _
      rw [h1]
      exact ⟨_, rfl⟩

/-- The full claim: no event makes the code of the widget do anything undefined. -/
def C100_claim : Prop := ∀ (ink : Ink) (w : Wid) (e : Wid.Ev) (f : Fault), Live ink w → e.Valid → w.step ink e ≠ .error (.fault f)

/-- **C100** (partial: the full statement is `C100_claim`, which is false; missing are windows with 2^31 bytes of pixels or
more, and mouse positions left of or above the window). After any events, the next one either succeeds; or needs memory, a
font or room in the queue of the pty and there is none, for which the program ends with a message; or feeds the emulator,
which then does one of the undefined things of C40 (for keys only if they are echoed locally), or the queue of
the pty passes 2^63 bytes (C61). The code of the widget itself does nothing undefined. -/
theorem C100_partial {ink : Ink} {allocOk : Nat → Bool} {s : Screen} {sg : Bool} {mem : Nat → Bool} {w0 w : Wid} {es : List Wid.Ev}
    (hs : Screen.new allocOk = .ok (some s)) (h0 : Wid.init s sg mem = .ok w0) (hv : ∀ e ∈ es, e.Valid) (hf : ∀ e ∈ es, e.Fits)
    (hr : Wid.runAll ink es w0 = .ok w) {e : Wid.Ev} (he : e.Valid) (hl : e.Fits) :
    (∃ w', w.step ink e = .ok w') ∨
    (w.step ink e = .error .abort ∧ (e.Allocates = true ∨ e.Feeds = true)) ∨
    (∃ k, w.step ink e = .error (.ub k) ∧ e.Feeds = true ∧
      (Vte.Known k ∧ (∀ s t k u, e = .key s t k u → w.vte.fNoEcho = false) ∨ k = .badShift)) := by
  have h := step_safe (ink := ink) (runAll_firm (init_firm hs h0) hv hf hr) he hl
  cases hx : w.step ink e with
  | ok w' => exact Or.inl ⟨w', rfl⟩
  | error st =>
    rw [hx] at h
    cases st with
    | abort => exact Or.inr (Or.inl ⟨rfl, h⟩)
    | ub k => exact Or.inr (Or.inr ⟨k, rfl, h.1, h.2⟩)
    | fault f => exact h.elim

/-- For example, a child that is started, writes, and has its output selected with the mouse. -/
example : ∃ (s : Screen) (w0 w : Wid), Screen.new (fun _ => true) = .ok (some s) ∧ Wid.init s true (fun _ => true) = .ok w0 ∧
    Wid.runAll noInk (typed ++ [.button .single 1 7 (px 4) (px 5), .draw]) w0 = .ok w ∧
    (∀ e ∈ typed ++ [.button .single 1 7 (px 4) (px 5), .draw], e.Valid ∧ e.Fits) ∧
    (Wid.Ev.motion (px 44) (px 5)).Fits ∧ ∃ w', w.step noInk (.motion (px 44) (px 5)) = .ok w' := by
  have h : wholds (typed ++ [.button .single 1 7 (px 4) (px 5), .draw]) (fun w =>
      match w.step noInk (.motion (px 44) (px 5)) with | .ok _ => true | .error _ => false) = true := by decide +kernel
  unfold wholds wstart at h
  cases hs : Screen.new (fun _ => true) with
  | error k => rw [hs] at h; cases h
  | ok o =>
    cases o with
    | none => rw [hs] at h; cases h
    | some s =>
      rw [hs] at h
      cases h0 : Wid.init s true (fun _ => true) with
      | error k => simp only [h0] at h; cases h
      | ok w0 =>
        simp only [h0] at h
        cases hr : Wid.runAll noInk (typed ++ [.button .single 1 7 (px 4) (px 5), .draw]) w0 with
        | error k => rw [hr] at h; cases h
        | ok w =>
          rw [hr] at h
          refine ⟨s, w0, w, rfl, h0, hr, ?_, ⟨⟨by decide, by decide⟩, by decide, by decide⟩, ?_⟩
          · intro e he
            rcases List.mem_append.mp he with he | he
            · refine ⟨typed_valid e he, ?_⟩
              unfold typed at he
              simp only [List.mem_cons, List.not_mem_nil, or_false] at he
              rcases he with rfl | rfl | rfl | rfl
              · trivial
              · show 4 * _ < _; decide
              · trivial
              · trivial
            · simp only [List.mem_cons, List.not_mem_nil, or_false] at he
              rcases he with rfl | rfl
              · exact ⟨by show 7 < _; decide, ⟨by decide, by decide⟩, by decide, by decide⟩
              · exact ⟨trivial, trivial⟩
          · dsimp only at h
            split at h
            · rename_i w' hw'
              exact ⟨w', hw'⟩
            · cases h

theorem refuted100 {es : List Wid.Ev} {e : Wid.Ev} {f : Fault} (hv : ∀ e ∈ es, e.Valid) (he : e.Valid)
    (h : wholds es (fun w => match w.step noInk e with | .ok _ => false | .error s => decide (s = .fault f)) = true) : ¬ C100_claim := by
  intro hc
  obtain ⟨w, h1, h2⟩ := exists_of_wholds hv h
  split at h2
  · cases h2
  · rename_i s hs
    have h2 : s = .fault f := of_decide_eq_true h2
    subst h2
    exact hc noInk w e f h1 he hs

/-- **C100** is false: the second click of a double click one cell left of the window, which the window system delivers
while it grabs the pointer, converts a negative number to `unsigned int`. -/
theorem C100_false_mouse : ¬ C100_claim :=
  refuted100 (es := typed) (e := .button .double 1 7 (px (-10)) (px 5)) (f := .cast) typed_valid (by show 7 < _; decide)
    (by decide +kernel)

/-- **C100** is false: for a window of 65536 by 8192 pixels the size of the shadow buffer is `INT_MIN`, of which `abs` is
taken. -/
theorem C100_false_window : ¬ C100_claim :=
  refuted100 (es := []) (e := .configure 65536 8192 true) (f := .abs) (fun _ h => (nomatch h)) ⟨by decide, by decide⟩
    (by decide +kernel)

end Verif.Props.Gtk
