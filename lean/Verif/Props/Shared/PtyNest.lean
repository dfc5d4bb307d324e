import Verif.Proofs.Shared.PtyNest

/-!
# C113: using a pty from its own input callback
-/

namespace Verif.Props.PtyNest

open Verif Verif.PtyNest

/-- **C113**, order: whatever the program and its callbacks call, nested in any way and with any outcome of the system
calls, the bytes given to the callbacks are, in the order of the reads, those the other side wrote, as far as they were
read; what was sent and what is still queued is what was accepted. (No rule about references: a freed pty may be used,
`dangling`. The outcome `badShift` needs more than `2^63` queued bytes.) -/
theorem C113_order {e : PtyEnv} {a : Prog} (hs : Sized a) :
    R.SatK (run e a [] St.init) (fun k => k = .badShift ∨ k = .dangling) fun s =>
      s.p.got ++ s.p.inq = s.wrote ∧ ∃ q, s.p.sent ++ q = s.p.accepted ∧ s.p.out.gather s.p.out.peek = .ok (q.map some) := by
  have h := run_kept (strict := False) (e := e) a (below := false) (own := 0) (f := 0) (b := 0) hs (fun t => t.elim)
    (fun x => by cases x) (cur := []) ⟨sound_init, fun t => t.elim, fun t => t.elim, fun t => t.elim⟩
  refine h.mono (fun k hk => hk.elim Or.inl (fun x => Or.inr x.2)) ?_
  intro s hs
  obtain ⟨q, hq⟩ := hs.sound.flow
  exact ⟨hs.sound.ins, q, hq.all, Ring.gather_rep hq.rep⟩

/-- **C113**, closing: if the pty was closed, by the program, by a callback or in a nested dispatch, nothing was given to
a callback, sent or accepted after that, not even by the dispatches that were running. -/
theorem C113_closed {e : PtyEnv} {a : Prog} (hs : Sized a) {s : St} (h : run e a [] St.init = .ok s)
    (ho : s.p.isOpen = false) : s.last = some (s.p.got, s.p.sent, s.p.accepted) := by
  have hk := run_kept (strict := False) (e := e) a (below := false) (own := 0) (f := 0) (b := 0) hs (fun t => t.elim)
    (fun x => by cases x) (cur := []) ⟨sound_init, fun t => t.elim, fun t => t.elim, fun t => t.elim⟩
  rw [h] at hk
  have hl : s.last = if s.p.isOpen = true then none else some (s.p.got, s.p.sent, s.p.accepted) := hk.sound.last
  rw [hl, if_neg (by rw [ho]; exact Bool.false_ne_true)]

/-- **C113**, memory: if the program uses the pty only while it has a reference, and its callbacks give back no
reference they did not take, the pty is never used after it was freed. Missing: callbacks that drop the last reference
(`C113_dropped`). -/
theorem C113_safe_partial {e : PtyEnv} {a : Prog} (hs : Sized a) (hf : Fair false 1 a) (hr : refs a + 1 < 2 ^ 64) :
    R.SatK (run e a [] St.init) (fun k => k = .badShift) fun _ => True := by
  have h := run_kept (strict := True) (e := e) a (below := false) (own := 1) (f := 0) (b := 0) hs (fun _ => hf)
    (fun x => by cases x) (cur := []) (s := St.init) ⟨sound_init, fun _ _ => rfl, fun _ => Nat.le_refl _, fun _ => by
      show 1 + (refs a + 0) < 2 ^ 64; omega⟩
  exact h.mono (fun k hk => hk.elim id (fun x => absurd trivial x.1)) (fun _ _ => trivial)

/-- **C113**: a callback that has freed the pty always makes the dispatch use it after that, whatever the system calls
do: for every callback that returns with the pty freed. -/
theorem C113_dropped {s : St} (hl : s.live = true) (ho : s.p.isOpen = true) (hi : s.p.inq ≠ []) {n : Nat}
    {cb1 cb2 : List UInt8 → St → R St} (h : ∀ d s, ∃ s', cb1 d s = .ok s' ∧ s'.live = false) (r2 w1 w2 : KRes) :
    s.dispatch (.some n) cb1 r2 cb2 w1 w2 = .error .dangling := by
  have hd : s.p.inq.take (min (n + 1) 16383) ≠ [] := by
    intro hx
    have := congrArg List.length hx
    rw [List.length_take, List.length_nil] at this
    have : 0 < s.p.inq.length := List.length_pos_iff.mpr hi
    omega
  unfold St.dispatch St.readTwice
  have h1 : ∃ s', s.readOnce (.some n) cb1 = .ok (s', none) ∧ s'.live = false := by
    obtain ⟨s', e1, e2⟩ := h (s.p.inq.take (min (n + 1) 16383)) { s with
          p := { s.p with inq := s.p.inq.drop (min (n + 1) 16383), got := s.p.got ++ s.p.inq.take (min (n + 1) 16383) }
          buf := s.p.inq.take (min (n + 1) 16383) ++ 0 :: s.buf.drop ((s.p.inq.take (min (n + 1) 16383)).length + 1) }
    refine ⟨s', ?_, e2⟩
    unfold St.readOnce St.alive
    rw [if_pos hl]
    show (if s.p.isOpen = true then _ else _) = _
    rw [if_pos ho]
    dsimp only
    rw [if_neg hd, e1]
    rfl
  obtain ⟨s', e1, e2⟩ := h1
  have e3 : s'.readOnce r2 cb2 = .error .dangling := by
    unfold St.readOnce St.alive
    rw [if_neg (by rw [e2]; exact Bool.false_ne_true)]
    rfl
  rw [e1]
  unfold St.alive
  rw [if_pos hl]
  show (if s.p.isOpen = true then _ else _) = _
  rw [if_pos ho]
  show ((do let (s, r) ← s'.readOnce r2 cb2; pure (s, r.getD .eagain)) >>= _) = _
  rw [e3]
  rfl

/-- What a user of a reference counter relies on: a callback may drop the last reference, if nothing is called after
that. -/
def C113_claim : Prop := ∀ (e : PtyEnv) (d : List UInt8) (r1 r2 w1 w2 : KRes),
  run e (.child d (.dispatch r1 (.unref .done) r2 .done w1 w2 .done)) [] St.init ≠ .error .dangling

/-- **C113** is false of the code for callbacks that drop the last reference: `pty_read` goes on to read `pty->fd`
(src/shared/shl-pty.c:370, 399-400). -/
theorem C113_false : ¬ C113_claim := by
  intro h
  refine h ⟨fun _ => true, fun _ => []⟩ [65] (.some 0) .again .again .again ?_
  have key : (match run ⟨fun _ => true, fun _ => []⟩
      (.child [65] (.dispatch (.some 0) (.unref .done) .again .done .again .again .done)) [] St.init with
    | .error k => decide (k = .dangling)
    | .ok _ => false) = true := by decide +kernel
  split at key
  · rename_i k hk
    rw [hk, of_decide_eq_true key]
  · cases key

/-- **C113**, buffer: a callback finds the bytes it was given at the address it was given, as long as it has not
dispatched the pty again. Missing: after a nested dispatch (`C113_buffer_false`). -/
theorem C113_buffer_partial {e : PtyEnv} {a : Prog} (ha : Early true a) :
    R.SatK (run e a [] St.init) (fun _ => True) fun s => ∀ x ∈ s.seen, x.2 = x.1 :=
  run_saw a ha (fun x hx => by cases hx) (fun _ => rfl)

/-- The claim without this condition. -/
def C113_buffer_claim : Prop := ∀ (e : PtyEnv) (a : Prog) (s : St), Sized a → Fair false 1 a →
  run e a [] St.init = .ok s → ∀ x ∈ s.seen, x.2 = x.1

/-- A callback called with `A` that dispatches again, and then reads its argument. -/
def nested : Prog :=
  .child [65, 66] (.dispatch (.some 0) (.dispatch (.some 0) .done .again .done .again .again (.look .done)) .again .done .again .again
    .done)

/-- **C113** is false of the code for callbacks that dispatch again: there is one `in_buf` for both
(src/shared/shl-pty.c:64, 370), and the callback called with `A` finds `B`. -/
theorem C113_buffer_false : ¬ C113_buffer_claim := by
  intro h
  have key : (match run ⟨fun _ => true, fun _ => []⟩ nested [] St.init with
    | .error _ => false
    | .ok s => decide (s.seen = [([65], [66])])) = true := by decide +kernel
  split at key
  · cases key
  · rename_i s hs
    have := h _ _ s (by simp [nested, Sized]) (by simp [nested, Fair]) hs ([65], [66])
      (by rw [of_decide_eq_true key]; exact List.mem_singleton.mpr rfl)
    cases this

/-- A program meeting the rules: the callback answers, dispatches again, looks at its bytes before that, takes and drops
a reference, and closes the pty; the second byte is not given to anyone after that, the rest of the answers is not sent. -/
def lively : Prog :=
  .child [65, 66, 67] (.dispatch (.some 0)
    (.look (.write [1] (.ref (.dispatch (.some 0) (.look (.write [2] .done)) .again .done (.some 0) .again (.write [3] (.close (.unref .done)))))))
    (.some 5) (.look .done) (.some 5) (.some 5) (.unref .done))

example : Sized lively ∧ Fair false 1 lively ∧ refs lively + 1 < 2 ^ 64 ∧ Early true lively ∧
    (match run ⟨fun _ => true, fun _ => []⟩ lively [] St.init with
    | .ok s => decide (s.p.isOpen = false ∧ s.p.got = [65, 66] ∧ s.p.inq = [67] ∧ s.p.sent = [1] ∧ s.p.accepted = [1, 2, 3] ∧
        s.live = false ∧ s.seen = [([65], [65]), ([66], [66])])
    | .error _ => false) = true :=
  ⟨by simp [lively, Sized], by simp [lively, Fair], by simp [lively, refs], by simp [lively, Early], by decide +kernel⟩

theorem of_bind {α β : Type} {x : R α} {f : α → R β} {b : β} (h : (x >>= f) = .ok b) : ∃ a, x = .ok a ∧ f a = .ok b := by
  cases x with
  | error u => cases h
  | ok a => exact ⟨a, rfl, h⟩

theorem readOnce_told {s s' : St} {k : KRes} {cb : List UInt8 → St → R St} {r : Option PtyRet} (h : s.readOnce k cb = .ok (s', r)) :
    (s.p.isOpen = false → r = some .errno) ∧ (s.p.isOpen = true → (∀ x, told k = some x → r = some x) ∧
      ∀ n, k = .some n → (s.p.inq = [] → r = some .ok) ∧
        (s.p.inq ≠ [] → r = none ∧ ∃ d s1, d ≠ [] ∧ s1.p.got = s.p.got ++ d ∧ cb d s1 = .ok s')) := by
  unfold St.readOnce at h
  obtain ⟨_, _, h⟩ := of_bind h
  by_cases ho : s.p.isOpen = true
  · rw [if_pos ho] at h
    refine ⟨fun hc => absurd ho (by rw [hc]; decide), fun _ => ?_⟩
    cases k with
    | some n =>
      refine ⟨fun x hx => (nomatch hx), fun m hm => ?_⟩
      dsimp only at h
      split at h
      · rename_i hd
        injection h with h
        injection h with _ h
        refine ⟨fun _ => h.symm, fun hi => absurd hd ?_⟩
        intro e
        rcases List.take_eq_nil_iff.mp e with e | e
        · omega
        · exact hi e
      · rename_i hd
        obtain ⟨t, h1, h⟩ := of_bind h
        obtain ⟨h2, h3⟩ := Prod.mk.inj (Except.ok.inj h)
        subst h2
        refine ⟨fun hi => absurd ?_ hd, fun _ => ⟨h3.symm, _, _, hd, ?_, h1⟩⟩
        · rw [hi, List.take_nil]
        · rfl
    | _ =>
      injection h with h
      injection h with _ h
      subst h
      exact ⟨fun x hx => hx, fun n hn => (nomatch hn)⟩
  · rw [if_neg ho] at h
    injection h with h
    injection h with _ h
    exact ⟨fun _ => h.symm, fun hc => absurd hc ho⟩

/-- **C113**: what a dispatch returns, whatever its callbacks do. An error or the end of the other side is always
returned, also if it is met after the first callback. 0 means that nothing was left to read, and that the dispatch is to be
repeated is returned if both reads have delivered data. If the first callback closes the pty, an error is returned. -/
theorem C113_returned {s s' : St} {r1 r2 w1 w2 : KRes} {cb1 cb2 : List UInt8 → St → R St} {r : PtyRet}
    (h : s.dispatch r1 cb1 r2 cb2 w1 w2 = .ok (s', r)) :
    (s.p.isOpen = false → r = .enodev ∧ s' = s) ∧ (s.p.isOpen = true → (∀ x, told r1 = some x → r = x) ∧
      ∀ n, r1 = .some n → (s.p.inq = [] → r = .ok) ∧
        (s.p.inq ≠ [] → ∃ d s1 s2, d ≠ [] ∧ s1.p.got = s.p.got ++ d ∧ cb1 d s1 = .ok s2 ∧
          (s2.p.isOpen = false → r = .errno) ∧ (s2.p.isOpen = true → (∀ x, told r2 = some x → r = x) ∧
            ∀ m, r2 = .some m → r = if s2.p.inq = [] then .ok else .eagain))) := by
  unfold St.dispatch at h
  obtain ⟨_, _, h⟩ := of_bind h
  by_cases ho : s.p.isOpen = true
  · rw [if_pos ho] at h
    refine ⟨fun hc => absurd ho (by rw [hc]; decide), fun _ => ?_⟩
    obtain ⟨⟨t, q⟩, h1, h⟩ := of_bind h
    obtain ⟨t', _, h⟩ := of_bind h
    injection h with h
    injection h with _ h
    have h : q = r := h
    subst h
    unfold St.readTwice at h1
    obtain ⟨⟨s2, o⟩, h2, h1⟩ := of_bind h1
    obtain ⟨_, k⟩ := readOnce_told h2
    obtain ⟨k1, k2⟩ := k ho
    cases o with
    | some x =>
      injection h1 with h1
      injection h1 with _ h1
      have h1 : x = q := h1
      subst h1
      refine ⟨fun y hy => Option.some.inj (k1 y hy), fun n hn => ⟨fun hi => Option.some.inj ((k2 n hn).1 hi), fun hi => ?_⟩⟩
      exact absurd ((k2 n hn).2 hi).1 (by intro e; cases e)
    | none =>
      obtain ⟨⟨s3, o2⟩, h3, h1⟩ := of_bind h1
      injection h1 with h1
      injection h1 with _ h1
      have h1 : o2.getD .eagain = q := h1
      subst h1
      obtain ⟨j, j'⟩ := readOnce_told h3
      refine ⟨fun y hy => (nomatch k1 y hy), fun n hn => ⟨fun hi => (nomatch (k2 n hn).1 hi), fun hi => ?_⟩⟩
      obtain ⟨_, d, s1, a, b, c⟩ := (k2 n hn).2 hi
      refine ⟨d, s1, s2, a, b, c, fun hc => by rw [j hc]; rfl, fun hc => ⟨fun y hy => by rw [(j' hc).1 y hy]; rfl, fun m hm => ?_⟩⟩
      by_cases he : s2.p.inq = []
      · rw [if_pos he, ((j' hc).2 m hm).1 he]; rfl
      · rw [if_neg he, (((j' hc).2 m hm).2 he).1]; rfl
  · rw [if_neg ho] at h
    injection h with h
    injection h with h0 h
    exact ⟨fun _ => ⟨h.symm, h0.symm⟩, fun hc => absurd hc ho⟩

/-- For example the end of the other side after one callback. -/
example : ∃ s', ({ St.init with p := { St.init.p with inq := [65] } } : St).dispatch (.some 9) (fun _ s => .ok s) .zero
    (fun _ s => .ok s) .again .again = .ok (s', .epipe) := ⟨_, rfl⟩

end Verif.Props.PtyNest
