import Verif.Props.Gtk.Window
import Verif.Props.Gtk.Keys
import Verif.Props.Gtk.Flow
import Verif.Props.Vte.Trace
import Verif.Spec.Session

/-!
# C108: typing into a program
-/

namespace Verif.Props.Gtk

open Verif Verif.Gtk Verif.Gtk.Wid Verif.Vte

/-- The reading back of the position does not matter. -/
theorem canvas_rewound {v v' : Vte} {q : Option Nat} {m : Nat} (hv : v'.con.view = { v.con.view with sbPos := q, sbPosNum := m })
    (he : v' = { v with con := v'.con, log := v'.log }) : v'.canvas = v.canvas := by
  have h1 : v'.con.view.canvas v' = v.con.view.canvas v := by
    rw [hv]
    refine (canvas_congr _ ?_ ?_ ?_ ?_ ?_ ?_ ?_ ?_ ?_ ?_).trans rfl
    all_goals rw [he]
  exact h1

theorem normal_rewound {v v' : Vte} {q : Option Nat} {m : Nat} (hv : v'.con.view = { v.con.view with sbPos := q, sbPosNum := m })
    (he : v' = { v with con := v'.con, log := v'.log }) (hN : v.Normal) : v'.Normal := by
  have hf : v'.con.flags = v.con.flags := (congrArg View.flags hv :)
  have hd : v'.con.defAttr = v.con.defAttr := (congrArg View.defAttr hv :)
  rw [he]
  obtain ⟨a1, a2, a3, a4, a5, a6, a7, a8, a9, a10, a11, a12, a13, a14, a15, a16, a17⟩ := hN
  exact ⟨a1, a2, a3, a4, a5, a6, a7, a8, a9, a10, by rw [← a11, ← hf], by rw [← a12, ← hf], by rw [← a13, ← hd], a14, a15, a16, a17⟩

theorem inputs_none : ∀ {cs : List Vte.Call}, (∀ c ∈ cs, ∀ b, c ≠ .input b) → inputs cs = []
  | [], _ => rfl
  | c :: cs, h => by
    have ih := inputs_none (cs := cs) fun d hd => h d (List.mem_cons_of_mem _ hd)
    have hc := h c List.mem_cons_self
    cases c <;> first | exact absurd rfl (hc _) | exact ih

/-- A key leaves unread what the child has written. -/
theorem key_unread {ink : Ink} {w w' : Wid} (h : Live ink w) {t : Tty} (ht : w.pty = some t) {state : BitVec 32}
    {tr : Option (Nat × BitVec 32)} {keyval ucs : Nat} (hv : (Wid.Ev.key state tr keyval ucs).Valid)
    (e : w.step ink (.key state tr keyval ucs) = .ok w') : ∃ t', w'.pty = some t' ∧ t'.io.inq = t.io.inq := by
  obtain ⟨cs, evs, k1, _, _, _, k5⟩ := run_did h.alive (by rw [ht]; rfl) (es := [.key state tr keyval ucs]) (w' := w')
    (by intro e he; rw [List.mem_singleton.mp he]; exact hv) (by intro hx; cases List.mem_singleton.mp hx)
    (by unfold Wid.runAll; rw [e]; rfl)
  rw [ht] at k5
  obtain ⟨t', f1, f⟩ := k5
  have hin : inputs cs = [] := inputs_none fun c hc b hb => by
    subst hb
    obtain ⟨e, he, hm⟩ := k1 _ hc
    rw [List.mem_singleton.mp he] at hm
    exact hm
  refine ⟨t', f1, ?_⟩
  have h2 := f.all
  rw [f.got, hin, List.append_nil, show childBytes [.key state tr keyval ucs] = [] from rfl, List.append_nil] at h2
  exact List.append_cancel_left h2

theorem ready_key {ink : Ink} {w w' : Wid} (h : w.Ready ink) {state : BitVec 32}
    {tr : Option (Nat × BitVec 32)} {keyval ucs : Nat} (hv : (Wid.Ev.key state tr keyval ucs).Valid)
    (e : w.step ink (.key state tr keyval ucs) = .ok w') {q : Option Nat} {m : Nat}
    (hw : w'.vte.con.view = { w.vte.con.view with sbPos := q, sbPosNum := m })
    (he : w'.vte = { w.vte with con := w'.vte.con, log := w'.vte.log }) : w'.Ready ink ∧ w'.vte.canvas = w.vte.canvas := by
  obtain ⟨t, ht, h0⟩ := h.child
  obtain ⟨t', ht', h0'⟩ := key_unread (tended_live h.tended) ht hv e
  have hc := canvas_rewound hw he
  exact ⟨⟨.event h.tended hv (fun _ _ _ => by simp) (fun _ => by simp) (by simp) e, ⟨t', ht', h0'.trans h0⟩, normal_rewound hw he h.normal,
    by rw [hc]; exact h.fine⟩, hc⟩

/-- **C108**, one key: with the modes of the reference terminal, the child is sent exactly the bytes of the key, and the reference
terminal is still shown. -/
theorem C108_typed {ink : Ink} {w w' : Wid} (h : w.Ready ink) {t : Tty} (ht : w.pty = some t) {state : BitVec 32}
    {tr : Option (Nat × BitVec 32)} {keyval ucs : Nat} (hv : (Wid.Ev.key state tr keyval ucs).Valid)
    (hs : ¬ Scrolls w.vte.con.view state tr) (hu : ucs < 0x80000000) (hec : w.vte.canvas.echo = false)
    (e : w.step ink (.key state tr keyval ucs) = .ok w') :
    w'.Ready ink ∧ w'.vte.canvas = w.vte.canvas ∧ w'.vte.bsDelete = w.vte.bsDelete ∧
      ∃ t', w'.pty = some t' ∧ t'.io.accepted = t.io.accepted ++ w.vte.canvas.keyed w.vte.bsDelete state keyval ucs := by
  have hn : w.vte.fNoEcho = true := by
    have : (!w.vte.fNoEcho) = false := hec
    simpa using this
  have key := C97_typed_partial (tended_live h.tended) hs hn hu (by rw [h.normal.f7]; exact fun hh => (nomatch hh)) e
  have hk : w.vte.canvas.keyed w.vte.bsDelete state keyval ucs =
      match keyBytes w.vte state keyval ucs with
      | some b => (if state.getLsbD 3 then [27] else []) ++ b
      | none => [] := by
    unfold Canvas.keyed keyBytes Keys.encoding
    rw [h.normal.f7, h.normal.f8]
    rfl
  rw [hk]
  cases hb : keyBytes w.vte state keyval ucs with
  | none =>
    rw [hb] at key
    dsimp only at key
    subst key
    exact ⟨h, rfl, rfl, t, ht, by rw [List.append_nil]⟩
  | some b =>
    rw [hb] at key
    obtain ⟨⟨m, k1⟩, k2, _, k4⟩ := key
    obtain ⟨t', a1, a2⟩ := k4 t ht
    have he : w'.vte = { w.vte with con := w'.vte.con, log := w'.vte.log } := by
      have := (congrArg Vte.log k2 :)
      rw [this]
      exact k2
    obtain ⟨r1, r2⟩ := ready_key h hv e k1 he
    exact ⟨r1, r2, (congrArg Vte.bsDelete k2 :), t', a1, by rw [a2, List.append_assoc]⟩

/-- A key that moves through the scrollback sends nothing. -/
theorem C108_paged {ink : Ink} {w w' : Wid} (h : w.Ready ink) {t : Tty} (ht : w.pty = some t) {state : BitVec 32}
    {tr : Option (Nat × BitVec 32)} {keyval ucs : Nat} (hv : (Wid.Ev.key state tr keyval ucs).Valid)
    (hs : Scrolls w.vte.con.view state tr) (e : w.step ink (.key state tr keyval ucs) = .ok w') :
    w'.Ready ink ∧ w'.vte.canvas = w.vte.canvas ∧ w'.vte.bsDelete = w.vte.bsDelete ∧ w'.pty = some t := by
  obtain ⟨key, cmod, rfl, h1, h2⟩ := hs
  obtain ⟨n, hn⟩ := Option.isSome_iff_exists.mp h2
  obtain ⟨w2, s, q, m, e2, k1, k2, _⟩ := C97_scroll (tended_live h.tended) h1 hn keyval ucs
  rw [e] at e2
  injection e2 with e2
  subst e2
  have hs : w'.vte = { w.vte with con := s } := by rw [k1]
  have hcon : w'.vte.con = s := by rw [hs]
  have he : w'.vte = { w.vte with con := w'.vte.con, log := w'.vte.log } := by rw [hs]
  obtain ⟨r1, r2⟩ := ready_key h hv e (by rw [hcon]; exact k2) he
  exact ⟨r1, r2, by rw [hs], by rw [k1]; exact ht⟩

theorem watched_valid {ink : Ink} : ∀ {es : List Wid.Ev} {w w' : Wid}, w.Watched ink es → Wid.runAll ink es w = .ok w' →
    ∀ e ∈ es, e.Valid ∧ e ≠ .exit := by
  intro es
  induction es with
  | nil => intro w w' _ _ e he; exact (nomatch he)
  | cons a es ih =>
    intro w w' ho e b hb
    unfold Wid.runAll at e
    obtain ⟨w1, e1, e2⟩ := bind_ok e
    rcases List.mem_cons.mp hb with rfl | hb
    · rcases ho.1 with ho | ⟨rfl, _⟩
      · cases b <;> first | exact ho.elim | exact ⟨trivial, by simp⟩
      · exact ⟨trivial, by simp⟩
    · exact ih (ho.2 _ e1) e2 b hb

theorem sent_writes : ∀ (l : List (List UInt8)), Vte.sent (l.map .write) = l
  | [] => rfl
  | a :: l => by
    show a :: Vte.sent (l.map .write) = _
    rw [sent_writes l]

/-- **C108**, output: the program is sent the answers to its questions, and nothing else. -/
theorem C108_printed {ink : Ink} {w w' : Wid} (h : w.Ready ink) {t : Tty} (ht : w.pty = some t) {l : List Cmd}
    (hv : ∀ a ∈ l, a.Valid w.vte.canvas.h ∧ a.Thin) (htame : w.vte.canvas.TameAll l) {es : List Wid.Ev} (ho : w.Watched ink es)
    (hc : childBytes es = l.flatMap Cmd.bytes) (e : Wid.runAll ink es w = .ok w') (h0' : ∀ t, w'.pty = some t → t.io.inq = []) :
    w'.Ready ink ∧ w'.vte.canvas = w.vte.canvas.run l ∧ w'.vte.bsDelete = w.vte.bsDelete ∧
      ∃ t', w'.pty = some t' ∧ t'.io.accepted = t.io.accepted ++ (w.vte.canvas.replies l).flatten := by
  have hl := tended_live h.tended
  have hval := watched_valid ho e
  obtain ⟨cs, evs, _, _, _, k4, k5⟩ := run_did hl.alive (by rw [ht]; rfl) (fun e he => (hval e he).1) (fun hx => (hval _ hx).2 rfl) e
  rw [ht] at k5
  obtain ⟨t', f1, f⟩ := k5
  obtain ⟨r1, r2⟩ := C102_next h hv htame ho hc e f1 (h0' t' f1)
  obtain ⟨tt, htt, h0⟩ := h.child
  have hi := output_heard h.tended htt h0 ho e f1 (h0' t' f1)
  obtain ⟨v2, e2, _, l2, _⟩ := Vte.C85_canvas_partial hl.alive.sane.vte h.normal (l := l) (fun a ha => (hv a ha).1) htame
  have hlog : w'.vte.log = w.vte.log ++ (w.vte.canvas.replies l).map .write := by
    rw [hc, e2] at hi
    injection hi with hi
    rw [← hi, l2]
  have hevs : evs = (w.vte.canvas.replies l).map .write := by
    rw [hlog] at k4
    exact (List.append_cancel_left k4).symm
  have hb := (hl.alive.runAll (fun e he => (hval e he).1) e).brief
  rw [k4] at hb
  refine ⟨r1, r2, (Vte.C75_kept hl.alive.sane.vte hi).2.2.2.2.2.2.2.1, t', f1, ?_⟩
  have := (f.flow ((hl.alive.sane.io t ht).2 (brief_short hl.alive.brief)) (brief_short hb).right).2.1
  rw [this, hevs, sent_writes]

/-- **C108**: in any session in which a program prints and a user types, in any order, what the program gets to read are exactly the
answers to its questions and the keys, in order, each as the reference terminal sends it at that moment; and the emulator shows the reference terminal. -/
theorem C108_session {ink : Ink} {ts : List Turn} : ∀ {w w' : Wid}, w.Ready ink → ∀ {t : Tty}, w.pty = some t →
    Turn.Fit w.vte.canvas ts → Turn.Played ink w ts w' →
    w'.Ready ink ∧ w'.vte.canvas = Turn.shown w.vte.canvas ts ∧
      ∃ t', w'.pty = some t' ∧ t'.io.accepted = t.io.accepted ++ Turn.answers w.vte.bsDelete w.vte.canvas ts := by
  induction ts with
  | nil =>
    intro w w' h t ht _ hp
    cases hp
    exact ⟨h, rfl, t, ht, by rw [show Turn.answers w.vte.bsDelete w.vte.canvas [] = [] from rfl, List.append_nil]⟩
  | cons a ts ih =>
    intro w w' h t ht hf hp
    cases hp with
    | prints ho hc e h0 hp =>
      obtain ⟨f1, f2, f3⟩ := hf
      obtain ⟨r1, r2, r3, t1, r4, r5⟩ := C108_printed h ht f1 f2 ho hc e h0
      obtain ⟨s1, s2, t2, s3, s4⟩ := ih r1 r4 (by rw [r2]; exact f3) hp
      exact ⟨s1, by rw [s2, r2]; rfl, t2, s3, by rw [s4, r5, r2, r3, List.append_assoc]; rfl⟩
    | types hv hs e hp =>
      obtain ⟨f1, f2, f3⟩ := hf
      obtain ⟨r1, r2, r3, t1, r4, r5⟩ := C108_typed h ht hv hs f2 f1 e
      obtain ⟨s1, s2, t2, s3, s4⟩ := ih r1 r4 (by rw [r2]; exact f3) hp
      exact ⟨s1, by rw [s2, r2]; rfl, t2, s3, by rw [s4, r5, r2, r3, List.append_assoc]; rfl⟩
    | pages hv hs e hp =>
      obtain ⟨r1, r2, r3, r4⟩ := C108_paged h ht hv hs e
      obtain ⟨s1, s2, t2, s3, s4⟩ := ih r1 r4 (by rw [r2]; exact hf) hp
      exact ⟨s1, by rw [s2, r2]; rfl, t2, s3, by rw [s4, r2, r3]; rfl⟩

theorem step_echo (c : Canvas) {a : Cmd} (ha : a ≠ .echo true) (h : c.echo = false) : (c.step a).echo = false := by
  have lf : c.lineFeed.echo = c.echo := by
    unfold Canvas.lineFeed
    split <;> rfl
  have rf : c.reverseFeed.echo = c.echo := by
    unfold Canvas.reverseFeed
    split <;> rfl
  cases a with
  | echo on =>
    cases on with
    | true => exact absurd rfl ha
    | false => rfl
  | text g wd =>
    show (if wd = 0 then c else (c.wrap wd).put (c.shown g) wd).echo = false
    split
    · exact h
    · show (c.wrap wd).echo = false
      unfold Canvas.wrap
      split
      · split
        · exact lf.trans h
        · exact h
      · exact h
  | lineFeed =>
    show (if c.newline = true then { c.lineFeed with x := 0 } else c.lineFeed).echo = false
    split <;> exact lf.trans h
  | index => exact lf.trans h
  | nextLine => exact lf.trans h
  | reverseFeed => exact rf.trans h
  | csi n k =>
    show (c.csi (number n) k).echo = false
    simp only [Canvas.csi, apply_ite Canvas.echo, Canvas.fill, Canvas.rowsUp, Canvas.rowsDown, Canvas.putTab, ite_self, h]
  | enter =>
    unfold Canvas.step
    dsimp only
    split <;> exact h
  | leave =>
    unfold Canvas.step
    dsimp only
    split <;> exact h
  | _ => exact h

theorem run_usual : ∀ {l : List Cmd} {c : Canvas}, Usual c → c.echo = false → (∀ a ∈ l, a.Plain ∧ a ≠ .echo true) →
    Usual (c.run l) ∧ (c.run l).echo = false ∧ (c.run l).h = c.h
  | [], _, h, he, _ => ⟨h, he, rfl⟩
  | a :: l, c, h, he, ha => by
    obtain ⟨h1, h2⟩ := ha a List.mem_cons_self
    obtain ⟨k1, k2, k3⟩ := run_usual (l := l) (h.step h1) (step_echo c h2 he) fun b hb => ha b (List.mem_cons_of_mem _ hb)
    exact ⟨k1, k2, k3.trans (Canvas.step_size c a).2⟩

theorem plain_thin {a : Cmd} (h : a.Plain) : a.Thin := by
  cases a <;> first | exact h | trivial

/-- Plain turns fit. -/
theorem fit_plain : ∀ {ts : List Turn} {c : Canvas}, Usual c → c.echo = false → (∀ t ∈ ts, t.Plain c.h) → Turn.Fit c ts
  | [], _, _, _, _ => trivial
  | .prints l es :: ts, c, h, he, hp => by
    have h1 : ∀ a ∈ l, a.Valid c.h ∧ a.Plain ∧ a ≠ .echo true := hp (.prints l es) List.mem_cons_self
    obtain ⟨k1, k2, k3⟩ := run_usual h he (fun a ha => (h1 a ha).2)
    exact ⟨fun a ha => ⟨(h1 a ha).1, plain_thin (h1 a ha).2.1⟩, h.tameAll l (fun a ha => (h1 a ha).2.1),
      fit_plain k1 k2 (by rw [k3]; exact fun t ht => hp t (List.mem_cons_of_mem _ ht))⟩
  | .types .. :: ts, c, h, he, hp => ⟨he, hp _ List.mem_cons_self, fit_plain h he fun t ht => hp t (List.mem_cons_of_mem _ ht)⟩
  | .pages .. :: ts, c, h, he, hp => fit_plain (ts := ts) h he fun t ht => hp t (List.mem_cons_of_mem _ ht)

/-- **C108**, as a whole: a program resets the terminal and prints, and then it prints and the user types, in any order. What the
program has read from its terminal, with what is still queued for it, is what there was before and exactly the answers to its questions and
the keys, in order, each as the reference terminal sends it at that moment. When the window is drawn, it shows the reference terminal. -/
theorem C108_program {ink : Ink} (hink : ∀ k ch n b, ink k ch n = some b → ∀ o, b o < 256) {w w1 w2 : Wid} (h : w.Tended ink)
    {t t1 : Tty} (ht : w.pty = some t) (h0 : t.io.inq = []) (hb : w.vte.Between) {l : List Cmd}
    (hv : ∀ a ∈ l, a.Valid w.vte.con.sizeY ∧ a.Plain ∧ a ≠ .echo true) {es : List Wid.Ev} (ho : w.Watched ink es)
    (hc : childBytes es = 27 :: 99 :: l.flatMap Cmd.bytes) (e1 : Wid.runAll ink es w = .ok w1) (ht1 : w1.pty = some t1)
    (h1 : t1.io.inq = []) {ts : List Turn} (hts : ∀ t ∈ ts, t.Plain w.vte.con.sizeY) (hp : Turn.Played ink w1 ts w2) :
    let c := (Canvas.initial w.vte.con.sizeX w.vte.con.sizeY w.vte.defAttr w.vte.palette).run l
    (∃ t2 q, w2.pty = some t2 ∧ t2.io.out.gather t2.io.out.peek = .ok (q.map some) ∧
      t2.io.sent ++ q = t1.io.accepted ++ Turn.answers w.vte.bsDelete c ts) ∧
    ∀ w3, w2.Plainly → w2.step ink .draw = .ok w3 → w3.Displays ink (Turn.shown c ts) := by
  intro c
  have hl := tended_live h
  have hU : Usual (Canvas.initial w.vte.con.sizeX w.vte.con.sizeY w.vte.defAttr w.vte.palette) :=
    ⟨rfl, rfl, Nat.zero_le _, hl.alive.sane.vte.ok.1.con.geo.x0, rfl, rfl⟩
  obtain ⟨u1, u2, u3⟩ := run_usual (l := l) hU rfl (fun a ha => (hv a ha).2)
  obtain ⟨k1, k2⟩ := C102_start h ht h0 hb (fun a ha => ⟨(hv a ha).1, plain_thin (hv a ha).2.1⟩)
    (hU.tameAll l (fun a ha => (hv a ha).2.1)) ho hc e1 ht1 h1
  have hbs : w1.vte.bsDelete = w.vte.bsDelete :=
    (Vte.C75_kept hl.alive.sane.vte (output_heard h ht h0 ho e1 ht1 h1)).2.2.2.2.2.2.2.1
  obtain ⟨s1, s2, t2, s3, s4⟩ := C108_session k1 ht1 (by rw [k2]; exact fit_plain u1 u2 (by rw [u3]; exact hts)) hp
  have hl2 := tended_live s1.tended
  obtain ⟨q, hq⟩ := (hl2.alive.sane.io t2 s3).2 (brief_short hl2.alive.brief)
  rw [k2, hbs] at s4
  rw [k2] at s2
  refine ⟨⟨t2, q, s3, Ring.gather_rep hq.rep, by rw [hq.all, s4]⟩, fun w3 hpl e3 => ?_⟩
  rw [← s2]
  exact (C102_draw hink s1 hpl e3).2.2

/-! ### Example -/

/-- The program asks for the codes of the application cursor keys, later for the usual ones, and for the status of the terminal. The user types Up before and after,
`x` with Alt, and Page_Up with Shift, which the program does not see. -/
def arrowsTurns : List Turn :=
  [.types 0 none 0xff52 0, .prints [.arrows true, .text 65 1] [.child [27, 91, 63, 49, 104, 65], .dispatch (.some 3) (.some 99) .again .again],
   .types 0 none 0xff52 0, .types 8 none 120 120, .pages 1 (some (0xff55, 0)) 0xff55 0,
   .prints [.arrows false, .ask .status] [.child [27, 91, 63, 49, 108, 27, 91, 53, 110], .idle (.some 99) .again .again .again], .types 0 none 0xff52 0]

theorem arrows_plain (h : Nat) : ∀ t ∈ arrowsTurns, t.Plain h := by
  intro t ht
  simp only [arrowsTurns, List.mem_cons, List.not_mem_nil, or_false] at ht
  rcases ht with rfl | rfl | rfl | rfl | rfl | rfl | rfl
  · exact (by decide : (0 : Nat) < 0x80000000)
  · intro a ha
    simp only [List.mem_cons, List.not_mem_nil, or_false] at ha
    rcases ha with rfl | rfl
    · exact ⟨trivial, trivial, by simp⟩
    · exact ⟨⟨by decide, by unfold Graphic; decide, by decide +kernel⟩, by show 1 ≤ 1; decide, by simp⟩
  · exact (by decide : (0 : Nat) < 0x80000000)
  · exact (by decide : (120 : Nat) < 0x80000000)
  · trivial
  · intro a ha
    simp only [List.mem_cons, List.not_mem_nil, or_false] at ha
    rcases ha with rfl | rfl
    · exact ⟨trivial, trivial, by simp⟩
    · exact ⟨trivial, by show Query.status ≠ .position; decide, by simp⟩
  · exact (by decide : (0 : Nat) < 0x80000000)

/-- The program gets to read ESC [ A, ESC O A, ESC x, ESC [ 0 n, ESC [ A. -/
example : Turn.answers false (Canvas.initial 5 2 default []) arrowsTurns = [27, 91, 65, 27, 79, 65, 27, 120, 27, 91, 48, 110, 27, 91, 65] := by
  decide +kernel

/-- A check for `Turn.Played`, for turns without drawings. -/
def plays : List Turn → Wid → Bool
  | [], _ => true
  | .prints l es :: ts, w =>
    es.all (fun e => match e with | .child _ | .dispatch .. | .idle .. => true | _ => false) && decide (childBytes es = l.flatMap Cmd.bytes) &&
      after es (fun w => (match w.pty with | some t => decide (t.io.inq = []) | none => true) && plays ts w) w
  | .types state tr keyval ucs :: ts, w => tr.isNone && decide (keyval < 2 ^ 32 ∧ ucs < 2 ^ 32) && after [.key state tr keyval ucs] (plays ts) w
  | .pages state tr keyval ucs :: ts, w => decide (state = 1 ∧ tr = some (0xff55, 0)) && decide (keyval < 2 ^ 32 ∧ ucs < 2 ^ 32) &&
      after [.key state tr keyval ucs] (plays ts) w

theorem one_step {e : Wid.Ev} {w w' : Wid} (h : Wid.runAll dotInk [e] w = .ok w') : w.step dotInk e = .ok w' := by
  obtain ⟨wb, eb, h⟩ := bind_ok h
  injection h with h
  subst h
  exact eb

theorem played_of_plays : ∀ {ts : List Turn} {w : Wid}, plays ts w = true → ∃ w', Turn.Played dotInk w ts w'
  | [], w, _ => ⟨w, .done⟩
  | .prints l es :: ts, w, h => by
    unfold plays at h
    simp only [Bool.and_eq_true, List.all_eq_true, decide_eq_true_eq] at h
    obtain ⟨⟨h1, h2⟩, h3⟩ := h
    obtain ⟨w1, e1, h3⟩ := exists_of_after h3
    rw [Bool.and_eq_true] at h3
    obtain ⟨w', hp⟩ := played_of_plays h3.2
    refine ⟨w', .prints (outputs_watched fun e he => ?_) h2 e1 (fun t ht => ?_) hp⟩
    · have := h1 e he
      cases e <;> first | trivial | cases this
    · rw [ht] at h3
      exact of_decide_eq_true h3.1
  | .types state tr keyval ucs :: ts, w, h => by
    unfold plays at h
    simp only [Bool.and_eq_true, decide_eq_true_eq] at h
    obtain ⟨⟨h1, h2⟩, h3⟩ := h
    obtain ⟨w1, e1, h3⟩ := exists_of_after h3
    obtain ⟨w', hp⟩ := played_of_plays h3
    refine ⟨w', .types h2 ?_ (one_step e1) hp⟩
    rintro ⟨k, c, rfl, _⟩
    cases h1
  | .pages state tr keyval ucs :: ts, w, h => by
    unfold plays at h
    simp only [Bool.and_eq_true, decide_eq_true_eq] at h
    obtain ⟨⟨⟨rfl, rfl⟩, h2⟩, h3⟩ := h
    obtain ⟨w1, e1, h3⟩ := exists_of_after h3
    obtain ⟨w', hp⟩ := played_of_plays h3
    refine ⟨w', .pages h2 ⟨_, _, rfl, ?_, ?_⟩ (one_step e1) hp⟩
    · exact (onlyShift_iff _ _).mpr (by decide)
    · rfl

/-- All hypotheses hold of a window of 50 by 40 pixels, after a reset. -/
example : ∃ w w1 w2 : Wid, w.Tended dotInk ∧ (∃ t, w.pty = some t ∧ t.io.inq = []) ∧ w.vte.Between ∧
    w.Watched dotInk [.child [27, 99], .dispatch (.some 3) (.some 0) .again .again] ∧
    Wid.runAll dotInk [.child [27, 99], .dispatch (.some 3) (.some 0) .again .again] w = .ok w1 ∧
    (∃ t, w1.pty = some t ∧ t.io.inq = []) ∧ Turn.Played dotInk w1 arrowsTurns w2 := by
  have key : (match wstart with
      | .ok w => after [.fork (some faces10)] (fun w => w.faces.isSome && after [.configure 50 40 true] (fun w =>
          decide w.vte.Between && (match w.pty with | some t => decide (t.io.inq = []) | none => false) &&
          after [.child [27, 99], .dispatch (.some 3) (.some 0) .again .again] (fun w =>
            (match w.pty with | some t => decide (t.io.inq = []) | none => false) && plays arrowsTurns w) w) w) w
      | .error _ => false) = true := by decide +kernel
  split at key
  · rename_i w0 hw0
    have hl0 := wstart_live hw0 dotInk
    obtain ⟨wa, ea, key⟩ := exists_of_after key
    rw [Bool.and_eq_true] at key
    obtain ⟨ka, key⟩ := key
    obtain ⟨w, ew, key⟩ := exists_of_after key
    rw [Bool.and_eq_true, Bool.and_eq_true, decide_eq_true_eq] at key
    obtain ⟨⟨k1, k2⟩, key⟩ := key
    obtain ⟨w1, e1, key⟩ := exists_of_after key
    rw [Bool.and_eq_true] at key
    obtain ⟨k3, key⟩ := key
    obtain ⟨w2, hp⟩ := played_of_plays key
    have hla : Live dotInk wa := hl0.runAll (by intro e he; rw [List.mem_singleton.mp he]; exact forks_valid faces10_fresh) ea
    refine ⟨w, w1, w2, .sized hla ka ⟨by decide, by decide⟩ (by show 4 * (max 50 1 * max 40 1) < _; decide) (one_step ew), ?_, k1,
      outputs_watched ?_, e1, ?_, hp⟩
    · split at k2
      · rename_i t ht
        exact ⟨t, ht, of_decide_eq_true k2⟩
      · cases k2
    · intro e he
      simp only [List.mem_cons, List.not_mem_nil, or_false] at he
      rcases he with rfl | rfl <;> trivial
    · split at k3
      · rename_i t ht
        exact ⟨t, ht, of_decide_eq_true k3⟩
      · cases k3
  · cases key

end Verif.Props.Gtk
