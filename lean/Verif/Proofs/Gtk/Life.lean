import Verif.Model.Gtk.Life

/-!
The invariant behind C107.
-/

namespace Verif.Gtk.Life

theorem upd_same {α β : Type} [DecidableEq α] (f : α → β) (i : α) (v : β) : upd f i v i = v := if_pos rfl

theorem upd_other {α β : Type} [DecidableEq α] (f : α → β) {i j : α} (v : β) (h : j ≠ i) : upd f i v j = f j := if_neg h

/-- A widget that exists. `cur` is the source whose callback is running, `l` are the faces that exist. -/
structure Inv (cur : Option Nat) (l : List Nat) (s : S) : Prop where
  alive : s.gone = false
  bsrc : s.src s.bridgeSrc = some .bridge
  bcur : cur ≠ some s.bridgeSrc
  only : ∀ i f, s.src i = some f → cur = some i ∨ (f = .bridge ∧ i = s.bridgeSrc) ∨ (f = .idle ∧ i = s.idleSrc) ∨
    (∃ p, f = .child p ∧ i = s.childSrc)
  lt : ∀ i, s.src i ≠ none → 0 < i ∧ i < s.next
  idle : s.idleSrc ≠ 0 → s.src s.idleSrc = some .idle ∧ cur ≠ some s.idleSrc
  child : s.childSrc ≠ 0 → (∃ p, s.src s.childSrc = some (.child p)) ∧ cur ≠ some s.childSrc
  pty : s.pty = none ↔ s.childSrc = 0
  kid : ∀ p, s.kids p = true → s.src s.childSrc = some (.child p)
  ptys : ∀ n, s.has (.pty n) = true ↔ s.pty = some n
  ep : ∀ n, s.epoll n = true ↔ s.pty = some n
  ptylt : ∀ n, s.pty = some n → n < s.next
  face : ∀ n, s.has (.face n) = true ↔ n ∈ l
  nodup : l.Nodup
  facelt : ∀ n, n ∈ l → n < s.next
  font : s.fontRef = 1 + l.length
  rend : s.has .rend = true
  fnt : s.has .font = true
  screen : s.has .screen = true
  vte : s.has .vte = true
  bridge : s.has .bridge = true
  chan : s.has .chan = true

/-- Done, or the program has ended. -/
def Good (P : S → Prop) : Except Fault S → Prop
  | .ok s => P s
  | .error f => f = .abort

theorem Good.bind {P Q : S → Prop} {x : Except Fault S} {f : S → Except Fault S} (h : Good P x) (g : ∀ s, P s → Good Q (f s)) :
    Good Q (x >>= f) := by
  cases x with
  | ok s => exact g s h
  | error e => exact h

theorem Inv.perm {cur : Option Nat} {l l' : List Nat} {s : S} (h : Inv cur l s) (p : l.Perm l') : Inv cur l' s :=
  { h with
    face := fun n => (h.face n).trans p.mem_iff
    nodup := p.nodup_iff.mp h.nodup
    facelt := fun n hn => h.facelt n (p.mem_iff.mpr hn)
    font := by rw [h.font, p.length_eq] }

theorem Inv.setFaces {cur : Option Nat} {l : List Nat} {s : S} (h : Inv cur l s) (fs : List Nat) : Inv cur l { s with faces := fs } :=
  { h with }

theorem use_ok {s : S} {o : Obj} (h : s.has o = true) : use s o = .ok s := if_pos h

theorem free_ok {s : S} {o : Obj} (h : s.has o = true) : free s o = .ok { s with has := upd s.has o false } := if_pos h

theorem sourceRemove_ok {s : S} {i : Nat} {f : Fn} (h : s.src i = some f) :
    sourceRemove s i = .ok { s with src := upd s.src i none } := by
  unfold sourceRemove
  rw [h]
  rfl

theorem Inv.faceFree {cur : Option Nat} {n : Nat} {l : List Nat} {s : S} (h : Inv cur (n :: l) s) :
    ∃ s', faceFree s n = .ok s' ∧ Inv cur l s' ∧ s' = { s with has := s'.has, fontRef := s'.fontRef } := by
  unfold Life.faceFree
  rw [free_ok ((h.face n).mpr List.mem_cons_self)]
  show ∃ s', fontUnref _ = _ ∧ _
  unfold fontUnref
  rw [use_ok (s := { s with has := upd s.has (.face n) false }) ((upd_other s.has (i := .face n) false (by simp)).trans h.fnt)]
  have hf := h.font
  rw [List.length_cons] at hf
  show ∃ s', (if s.fontRef = 0 then _ else if s.fontRef - 1 = 0 then _ else _) = _ ∧ _
  rw [if_neg (by omega), if_neg (by omega)]
  refine ⟨_, rfl, ?_, rfl⟩
  have hu : ∀ o, o ≠ Obj.face n → upd s.has (.face n) false o = s.has o := fun o ho => upd_other _ _ ho
  exact
    { h with
      ptys := fun m => Iff.trans (Iff.of_eq (congrArg (· = true) (hu (.pty m) (by simp)))) (h.ptys m)
      face := fun m => by
        show upd s.has (.face n) false (.face m) = true ↔ _
        by_cases hm : m = n
        · subst hm
          rw [upd_same]
          simp [(List.nodup_cons.mp h.nodup).1]
        · rw [hu _ (by simpa using hm), h.face m]
          simp [hm]
      nodup := (List.nodup_cons.mp h.nodup).2
      facelt := fun m hm => h.facelt m (List.mem_cons_of_mem _ hm)
      font := by show s.fontRef - 1 = _; omega
      rend := (hu _ (by simp)).trans h.rend
      fnt := (hu _ (by simp)).trans h.fnt
      screen := (hu _ (by simp)).trans h.screen
      vte := (hu _ (by simp)).trans h.vte
      bridge := (hu _ (by simp)).trans h.bridge
      chan := (hu _ (by simp)).trans h.chan }

theorem Inv.facesFree {cur : Option Nat} {l : List Nat} : ∀ {ns : List Nat} {s : S}, Inv cur (ns ++ l) s →
    ∃ s', facesFree ns s = .ok s' ∧ Inv cur l s' ∧ s' = { s with has := s'.has, fontRef := s'.fontRef } := by
  intro ns
  induction ns with
  | nil => exact fun h => ⟨_, rfl, h, rfl⟩
  | cons n ns ih =>
    intro s h
    obtain ⟨s1, e1, h1, q1⟩ := h.faceFree
    obtain ⟨s2, e2, h2, q2⟩ := ih h1
    refine ⟨s2, ?_, h2, ?_⟩
    · show (Life.faceFree s n >>= Life.facesFree ns) = _
      rw [e1]
      exact e2
    · rw [q1] at q2
      exact q2

/-- A face is added. -/
theorem Inv.faceAdd {cur : Option Nat} {l : List Nat} {s : S} (h : Inv cur l s) :
    Inv cur (s.next :: l) { s with fontRef := s.fontRef + 1, has := upd s.has (.face s.next) true, next := s.next + 1 } := by
  have hu : ∀ o, o ≠ Obj.face s.next → upd s.has (.face s.next) true o = s.has o := fun o ho => upd_other _ _ ho
  exact
    { h with
      lt := fun i hi => ⟨(h.lt i hi).1, Nat.lt_succ_of_lt (h.lt i hi).2⟩
      ptylt := fun n hn => Nat.lt_succ_of_lt (h.ptylt n hn)
      ptys := fun m => Iff.trans (Iff.of_eq (congrArg (· = true) (hu (.pty m) (by simp)))) (h.ptys m)
      face := fun m => by
        show upd s.has (.face s.next) true (.face m) = true ↔ _
        by_cases hm : m = s.next
        · subst hm
          rw [upd_same]
          simp
        · rw [hu _ (by simpa using hm), h.face m]
          simp [hm]
      nodup := List.nodup_cons.mpr ⟨fun hm => absurd (h.facelt _ hm) (Nat.lt_irrefl _), h.nodup⟩
      facelt := fun m hm => by
        rcases List.mem_cons.mp hm with rfl | hm
        · exact Nat.lt_succ_self _
        · exact Nat.lt_succ_of_lt (h.facelt m hm)
      font := by show s.fontRef + 1 = _; rw [h.font, List.length_cons]; omega
      rend := (hu _ (by simp)).trans h.rend
      fnt := (hu _ (by simp)).trans h.fnt
      screen := (hu _ (by simp)).trans h.screen
      vte := (hu _ (by simp)).trans h.vte
      bridge := (hu _ (by simp)).trans h.bridge
      chan := (hu _ (by simp)).trans h.chan }

theorem Inv.faceNew {cur : Option Nat} {l : List Nat} {s : S} (h : Inv cur l s) (good : Bool) :
    ∃ r, faceNew s good = .ok r ∧ Inv cur (r.2.toList ++ l) r.1 ∧ r.1.faces = s.faces ∧ r.1.pty = s.pty ∧ (good = true → r.2.isSome = true) ∧
      (good = false → r.2 = none) := by
  unfold Life.faceNew
  rw [use_ok h.fnt]
  have ha := h.faceAdd
  show ∃ r, (if good then _ else _) = _ ∧ _
  cases good with
  | true => exact ⟨_, rfl, ha, rfl, rfl, fun _ => rfl, fun e => (nomatch e)⟩
  | false =>
    obtain ⟨s1, e1, h1, q1⟩ := ha.faceFree
    refine ⟨(s1, none), ?_, h1, by rw [q1], by rw [q1], fun e => (nomatch e), fun _ => rfl⟩
    show (Life.faceFree _ _ >>= fun s => _) = _
    rw [e1]
    rfl

theorem Inv.facesNew {cur : Option Nat} : ∀ {gs : List Bool} {s : S}, Inv cur s.faces s →
    ∃ s', facesNew gs s = .ok s' ∧ Inv cur s'.faces s' ∧ s'.pty = s.pty ∧ (s.faces ≠ [] → s'.faces ≠ []) := by
  intro gs
  induction gs with
  | nil => exact fun h => ⟨_, rfl, h, rfl, id⟩
  | cons g gs ih =>
    intro s h
    obtain ⟨r, e, h1, q1, q2, _⟩ := h.faceNew g
    obtain ⟨s', e', h', q3, q4⟩ := ih (s := { r.1 with faces := r.1.faces ++ r.2.toList }) (by
      have := (h1.setFaces (r.1.faces ++ r.2.toList)).perm (l' := r.1.faces ++ r.2.toList) (by
        rw [q1]; exact List.perm_append_comm)
      exact this)
    refine ⟨s', ?_, h', q3.trans q2, fun hf => q4 ?_⟩
    · show (Life.faceNew s g >>= fun r => Life.facesNew gs _) = _
      rw [e]
      exact e'
    · show r.1.faces ++ r.2.toList ≠ []
      rw [q1]
      intro e
      exact hf (List.append_eq_nil_iff.mp e).1

/-- At rest. -/
def Rest (s : S) : Prop := Inv none s.faces s

theorem Inv.setFont {cur : Option Nat} {s : S} (h : Inv cur s.faces s) (g0 g1 g2 g3 : Bool) :
    Good (fun s' => Inv cur s'.faces s' ∧ s'.pty = s.pty ∧ s'.faces ≠ []) (setFont s g0 g1 g2 g3) := by
  unfold Life.setFont
  obtain ⟨r, e, h1, q1, q2, q3, q4⟩ := h.faceNew g0
  rw [e]
  obtain ⟨s1, o⟩ := r
  cases o with
  | none => exact rfl
  | some n =>
    obtain ⟨s2, e2, h2, p2⟩ := Inv.facesFree (ns := s1.faces) (l := [n]) (h1.perm (by
      show (n :: s.faces).Perm (s1.faces ++ [n])
      rw [show s1.faces = s.faces from q1]
      exact (List.perm_append_comm (l₁ := [n]))))
    obtain ⟨s3, e3, h3, q5, q6⟩ := Inv.facesNew (gs := [g1, g2, g3]) (s := { s2 with faces := [n] }) (h2.setFaces [n])
    show Good _ (Life.facesFree s1.faces s1 >>= _)
    rw [e2]
    show Good _ (Life.facesNew _ _)
    rw [e3]
    refine ⟨h3, ?_, q6 (by simp)⟩
    rw [q5]
    show s2.pty = _
    rw [p2]
    exact q2

/-- A source is added. -/
theorem Inv.attachIdle {cur : Option Nat} {l : List Nat} {s : S} (h : Inv cur l s) (h0 : s.idleSrc = 0) (hc : ∀ i, cur = some i → i < s.next) :
    Inv cur l { attach s .idle with idleSrc := s.next } := by
  have hb := h.lt s.bridgeSrc (by rw [h.bsrc]; simp)
  have hu : ∀ i, i ≠ s.next → upd s.src s.next (some Fn.idle) i = s.src i := fun i hi => upd_other _ _ hi
  have hch : s.childSrc ≠ s.next := by
    intro e
    by_cases hz : s.childSrc = 0
    · omega
    · obtain ⟨⟨p, hp⟩, _⟩ := h.child hz
      have := h.lt s.childSrc (by rw [hp]; simp)
      omega
  exact
    { h with
      bsrc := (hu s.bridgeSrc (by omega)).trans h.bsrc
      only := fun i f hi => by
        change upd s.src s.next (some Fn.idle) i = some f at hi
        by_cases hn : i = s.next
        · subst hn
          rw [upd_same] at hi
          injection hi with hi
          exact .inr (.inr (.inl ⟨hi.symm, rfl⟩))
        · rw [hu i hn] at hi
          rcases h.only i f hi with k | k | ⟨_, k⟩ | k
          · exact .inl k
          · exact .inr (.inl k)
          · rw [h0] at k
            have := h.lt i (by rw [hi]; simp)
            omega
          · exact .inr (.inr (.inr k))
      lt := fun i hi => by
        change upd s.src s.next (some Fn.idle) i ≠ none at hi
        show 0 < i ∧ i < s.next + 1
        by_cases hn : i = s.next
        · omega
        · rw [hu i hn] at hi
          have := h.lt i hi
          omega
      idle := fun _ => ⟨upd_same _ _ _, fun e => by have := hc _ e; exact absurd this (Nat.lt_irrefl _)⟩
      child := fun hz => by
        show (∃ p, upd s.src s.next (some Fn.idle) s.childSrc = some (.child p)) ∧ _
        rw [hu _ hch]
        exact h.child hz
      kid := fun p hp => by
        show upd s.src s.next (some Fn.idle) s.childSrc = some (.child p)
        rw [hu _ hch]
        exact h.kid p hp
      ptylt := fun n hn => Nat.lt_succ_of_lt (h.ptylt n hn)
      facelt := fun n hn => Nat.lt_succ_of_lt (h.facelt n hn) }

/-- What is kept by callbacks that answer. -/
def Mid (cur : Option Nat) (s : S) : Prop := Inv cur s.faces s ∧ ∀ i, cur = some i → i < s.next

theorem Mid.writeFn {cur : Option Nat} {s : S} (h : Mid cur s) (mem : Bool) :
    Good (fun s' => Mid cur s' ∧ s'.pty = s.pty ∧ s'.src = (if s.pty.isSome ∧ s.idleSrc = 0 then upd s.src s.next (some .idle) else s.src) ∧
      (s.pty.isSome = true → s'.idleSrc ≠ 0) ∧ (s.idleSrc ≠ 0 → s'.idleSrc ≠ 0)) (writeFn s mem) := by
  unfold Life.writeFn
  cases hp : s.pty with
  | none => exact ⟨h, hp, by simp, fun e => (nomatch e), id⟩
  | some n =>
    show Good _ (use s (.pty n) >>= _)
    rw [use_ok ((h.1.ptys n).mpr hp)]
    show Good _ (if mem then _ else _)
    cases mem with
    | false => exact rfl
    | true =>
      rw [if_pos rfl]
      by_cases h0 : s.idleSrc = 0
      · rw [if_pos h0]
        have hb := h.1.lt s.bridgeSrc (by rw [h.1.bsrc]; simp)
        exact ⟨⟨h.1.attachIdle h0 h.2, fun i hi => Nat.lt_succ_of_lt (h.2 i hi)⟩, hp, by simp [attach, h0],
          fun _ => by show s.next ≠ 0; omega, fun k => absurd h0 k⟩
      · rw [if_neg h0]
        exact ⟨h, hp, by simp [h0], fun _ => h0, id⟩

theorem Mid.emulate {cur : Option Nat} : ∀ {ws : List Bool} {s : S}, Mid cur s →
    Good (fun s' => Mid cur s' ∧ s'.pty = s.pty ∧ (s.idleSrc ≠ 0 → s'.idleSrc ≠ 0) ∧
      (ws ≠ [] → s.pty.isSome = true → s'.idleSrc ≠ 0)) (emulate ws s) := by
  intro ws
  induction ws with
  | nil =>
    intro s h
    unfold Life.emulate
    rw [use_ok h.1.vte]
    show Good _ (use s .screen >>= _)
    rw [use_ok h.1.screen]
    exact ⟨h, rfl, id, fun e => absurd rfl e⟩
  | cons w ws ih =>
    intro s h
    unfold Life.emulate
    rw [use_ok h.1.vte]
    show Good _ (use s .screen >>= _)
    rw [use_ok h.1.screen]
    show Good _ (Life.writeFn s w >>= Life.emulate ws)
    refine Good.bind (h.writeFn w) ?_
    intro s1 ⟨h1, q1, _, q2, q3⟩
    have := ih h1
    revert this
    cases Life.emulate ws s1 with
    | error f => exact id
    | ok s2 =>
      intro ⟨k1, k2, k3, _⟩
      exact ⟨k1, k2.trans q1, fun h0 => k3 (q3 h0), fun _ hp => k3 (q2 hp)⟩

/-- The source of the callback is removed. -/
theorem Inv.drop {i : Nat} {l : List Nat} {s : S} (h : Inv (some i) l s) : Inv none l { s with src := upd s.src i none } := by
  have hu : ∀ j, j ≠ i → upd s.src i none j = s.src j := fun j hj => upd_other _ _ hj
  have hn : ∀ j f, upd s.src i none j = some f → j ≠ i ∧ s.src j = some f := by
    intro j f hj
    by_cases e : j = i
    · subst e
      rw [upd_same] at hj
      cases hj
    · exact ⟨e, by rw [← hu j e]; exact hj⟩
  exact
    { h with
      bcur := fun e => (nomatch e)
      bsrc := (hu s.bridgeSrc (fun e => h.bcur (by rw [e]))).trans h.bsrc
      only := fun j f hj => by
        obtain ⟨e1, e2⟩ := hn j f hj
        rcases h.only j f e2 with k | k
        · exact absurd (Option.some.inj k).symm e1
        · exact .inr k
      lt := fun j hj => by
        change upd s.src i none j ≠ none at hj
        cases hf : upd s.src i none j with
        | none => exact absurd hf hj
        | some f => exact h.lt j (by rw [(hn j f hf).2]; simp)
      idle := fun h0 => ⟨(hu s.idleSrc (fun e => (h.idle h0).2 (by rw [e]))).trans (h.idle h0).1, fun e => (nomatch e)⟩
      child := fun h0 => ⟨by
        obtain ⟨p, hp⟩ := (h.child h0).1
        exact ⟨p, (hu s.childSrc (fun e => (h.child h0).2 (by rw [e]))).trans hp⟩, fun e => (nomatch e)⟩
      kid := fun p hp => by
        have h0 : s.childSrc ≠ 0 := by
          intro e
          have := h.lt s.childSrc (by rw [h.kid p hp]; simp)
          omega
        exact (hu s.childSrc (fun e => (h.child h0).2 (by rw [e]))).trans (h.kid p hp) }

theorem idleFn_ok {s : S} (h : Rest s) {i : Nat} (hi : s.src i = some .idle) (ws : List Bool) :
    Good (fun s' => Rest s' ∧ (ws ≠ [] → s.pty.isSome = true → s'.idleSrc ≠ 0))
      (idleFn s ws >>= fun s => .ok { s with src := upd s.src i none }) := by
  have hid : i = s.idleSrc := by
    rcases h.only i _ hi with k | ⟨k, _⟩ | ⟨_, k⟩ | ⟨p, k, _⟩
    · cases k
    · cases k
    · exact k
    · cases k
  have h0 : Mid (some i) { s with idleSrc := 0 } := by
    refine ⟨{ h with
      bcur := ?_, only := ?_, idle := fun e => absurd rfl e, child := ?_ }, ?_⟩
    · intro e
      injection e with e
      have := h.bsrc
      rw [show s.bridgeSrc = i from e.symm, hi] at this
      cases this
    · intro j f hj
      rcases h.only j f hj with k | k | ⟨_, k⟩ | k
      · cases k
      · exact .inr (.inl k)
      · exact .inl (by rw [hid, k])
      · exact .inr (.inr (.inr k))
    · intro hc
      refine ⟨(h.child hc).1, fun e => ?_⟩
      injection e with e
      obtain ⟨p, hp⟩ := (h.child hc).1
      rw [show s.childSrc = i from e.symm, hi] at hp
      cases hp
    · intro j e
      injection e with e
      subst e
      exact (h.lt i (by rw [hi]; simp)).2
  have key : Good (fun s' => Mid (some i) s' ∧ (ws ≠ [] → s.pty.isSome = true → s'.idleSrc ≠ 0)) (idleFn s ws) := by
    have hm : ∀ o, s.pty = o → Good (fun s' => Mid (some i) s' ∧ (ws ≠ [] → o.isSome = true → s'.idleSrc ≠ 0))
        (match o with
          | none => .ok { s with idleSrc := 0 }
          | some n => use { s with idleSrc := 0 } .bridge >>= fun s => use s (.pty n) >>= emulate ws) := by
      intro o hp
      cases o with
      | none => exact ⟨h0, fun _ e => (nomatch e)⟩
      | some n =>
        show Good _ (use _ .bridge >>= fun s => use s (.pty n) >>= emulate ws)
        rw [use_ok h0.1.bridge]
        show Good _ (use _ (.pty n) >>= emulate ws)
        rw [use_ok ((h0.1.ptys n).mpr hp)]
        show Good _ (emulate ws _)
        have := h0.emulate (ws := ws)
        revert this
        cases emulate ws { s with idleSrc := 0 } with
        | error f => exact id
        | ok s1 => exact fun k => ⟨k.1, fun hw _ => k.2.2.2 hw (by show s.pty.isSome = true; rw [hp]; rfl)⟩
    exact hm _ rfl
  exact key.bind fun s' k => ⟨k.1.1.drop, k.2⟩

theorem Rest.mid {s : S} (h : Rest s) : Mid none s := ⟨h, fun _ e => (nomatch e)⟩

theorem bridgeFn_ok {s : S} (h : Rest s) (ev : Nat) (ws : List Bool) : Good Rest (bridgeFn s ev ws) := by
  unfold bridgeFn
  rw [use_ok h.bridge]
  show Good _ (if s.epoll ev = true then _ else _)
  by_cases he : s.epoll ev = true
  · rw [if_pos he]
    have hp := (h.ep ev).mp he
    rw [use_ok ((h.ptys ev).mpr hp)]
    show Good _ (emulate ws s)
    have := h.mid.emulate (ws := ws)
    revert this
    cases emulate ws s with
    | error f => exact id
    | ok s1 => exact fun k => k.1.1
  · rw [if_neg he]
    exact h

/-- The faces are freed at the end. -/
theorem facesFree_all : ∀ {ns : List Nat} {s : S}, (∀ n, s.has (.face n) = true ↔ n ∈ ns) → ns.Nodup → s.fontRef = 1 + ns.length →
    s.has .font = true → ∃ s', facesFree ns s = .ok s' ∧ s' = { s with has := s'.has, fontRef := 1 } ∧
      (∀ n, s'.has (.face n) = false) ∧ ∀ o, (∀ n, o ≠ .face n) → s'.has o = s.has o := by
  intro ns
  induction ns with
  | nil =>
    intro s h1 _ h3 _
    refine ⟨s, rfl, ?_, ?_, fun _ _ => rfl⟩
    · cases s
      cases h3
      rfl
    · intro n
      cases hn : s.has (.face n) with
      | false => rfl
      | true => exact absurd ((h1 n).mp hn) (by simp)
  | cons n ns ih =>
    intro s h1 h2 h3 h4
    rw [List.length_cons] at h3
    have hfree : faceFree s n = .ok { s with has := upd s.has (.face n) false, fontRef := s.fontRef - 1 } := by
      unfold faceFree
      rw [free_ok ((h1 n).mpr List.mem_cons_self)]
      show fontUnref _ = _
      unfold fontUnref
      rw [use_ok (s := { s with has := upd s.has (.face n) false }) ((upd_other s.has (i := .face n) false (by simp)).trans h4)]
      show (if s.fontRef = 0 then _ else if s.fontRef - 1 = 0 then _ else _) = _
      rw [if_neg (by omega), if_neg (by omega)]
    obtain ⟨s', e1, e2, e3, e4⟩ := ih (s := { s with has := upd s.has (.face n) false, fontRef := s.fontRef - 1 }) (by
        intro m
        show upd s.has (.face n) false (.face m) = true ↔ _
        by_cases hm : m = n
        · subst hm
          rw [upd_same]
          simp [(List.nodup_cons.mp h2).1]
        · rw [upd_other _ _ (by simpa using hm), h1 m]
          simp [hm]) (List.nodup_cons.mp h2).2 (by show s.fontRef - 1 = _; omega)
      ((upd_other s.has (i := .face n) false (by simp)).trans h4)
    refine ⟨s', ?_, e2, e3, ?_⟩
    · show (faceFree s n >>= facesFree ns) = _
      rw [hfree]
      exact e1
    · intro o ho
      rw [e4 o ho]
      exact upd_other _ _ (ho n)

/-- After `terminal_finalize`. -/
structure Gone (cur : Option Nat) (s : S) : Prop where
  gone : s.gone = true
  src : ∀ i, s.src i ≠ none → cur = some i
  has : ∀ o, s.has o = false
  ep : ∀ n, s.epoll n = false

theorem finalizePty_ok {cur : Option Nat} {s : S} (h : Inv cur s.faces s) :
    ∃ s1, finalizePty s = .ok s1 ∧
      s1.faces = s.faces ∧ s1.fontRef = s.fontRef ∧ s1.bridgeSrc = s.bridgeSrc ∧ s1.idleSrc = s.idleSrc ∧ s1.kids = s.kids ∧
      s1.src s.bridgeSrc = some .bridge ∧ (s.idleSrc ≠ 0 → s1.src s.idleSrc = some .idle) ∧
      (∀ i, s1.src i ≠ none → cur = some i ∨ i = s.bridgeSrc ∨ (i = s.idleSrc ∧ 0 < i)) ∧
      (∀ n, s1.has (.pty n) = false) ∧ (∀ o, (∀ n, o ≠ .pty n) → s1.has o = s.has o) ∧ (∀ n, s1.epoll n = false) := by
  have hbc : s.childSrc ≠ 0 → s.bridgeSrc ≠ s.childSrc := by
    intro h0 e
    obtain ⟨p, hp⟩ := (h.child h0).1
    rw [← e, h.bsrc] at hp
    cases hp
  unfold finalizePty
  cases hp : s.pty with
  | none =>
    have hc := h.pty.mp hp
    refine ⟨s, rfl, rfl, rfl, rfl, rfl, rfl, h.bsrc, fun h0 => (h.idle h0).1, ?_, ?_, fun _ _ => rfl, ?_⟩
    · intro i hi
      cases hf : s.src i with
      | none => exact absurd hf hi
      | some f =>
        rcases h.only i f hf with k | ⟨_, k⟩ | ⟨_, k⟩ | ⟨p, _, k⟩
        · exact .inl k
        · exact .inr (.inl k)
        · exact .inr (.inr ⟨k, (h.lt i hi).1⟩)
        · rw [hc] at k
          have := h.lt i hi
          omega
    · intro n
      cases hn : s.has (.pty n) with
      | false => rfl
      | true => rw [(h.ptys n).mp hn] at hp; cases hp
    · intro n
      cases hn : s.epoll n with
      | false => rfl
      | true => rw [(h.ep n).mp hn] at hp; cases hp
  | some n =>
    have hc : s.childSrc ≠ 0 := fun e => by rw [h.pty.mpr e] at hp; cases hp
    obtain ⟨p, hcp⟩ := (h.child hc).1
    show ∃ s1, ((if s.childSrc ≠ 0 then sourceRemove s s.childSrc else .ok s) >>= fun s => ptyEnd s n) = _ ∧ _
    rw [if_pos hc, sourceRemove_ok hcp]
    show ∃ s1, ptyEnd _ n = _ ∧ _
    unfold ptyEnd
    rw [use_ok (by exact h.bridge)]
    show ∃ s1, free _ (.pty n) = _ ∧ _
    rw [free_ok (by exact (h.ptys n).mpr hp)]
    refine ⟨_, rfl, rfl, rfl, rfl, rfl, rfl, ?_, ?_, ?_, ?_, ?_, ?_⟩
    · exact (upd_other s.src (i := s.childSrc) none (hbc hc)).trans h.bsrc
    · intro h0
      refine (upd_other s.src (i := s.childSrc) none ?_).trans (h.idle h0).1
      intro e
      have := (h.idle h0).1
      rw [e, hcp] at this
      cases this
    · intro i hi
      change upd s.src s.childSrc none i ≠ none at hi
      by_cases hic : i = s.childSrc
      · subst hic
        rw [upd_same] at hi
        exact absurd rfl hi
      · rw [upd_other _ _ hic] at hi
        cases hf : s.src i with
        | none => exact absurd hf hi
        | some f =>
          rcases h.only i f hf with k | ⟨_, k⟩ | ⟨_, k⟩ | ⟨p, _, k⟩
          · exact .inl k
          · exact .inr (.inl k)
          · exact .inr (.inr ⟨k, (h.lt i hi).1⟩)
          · exact absurd k hic
    · intro m
      show upd s.has (.pty n) false (.pty m) = false
      by_cases hm : m = n
      · subst hm
        exact upd_same _ _ _
      · rw [upd_other _ _ (by simpa using hm)]
        cases hk : s.has (.pty m) with
        | false => rfl
        | true =>
          have := (h.ptys m).mp hk
          rw [hp] at this
          exact absurd (Option.some.inj this).symm hm
    · intro o ho
      exact upd_other _ _ (ho n)
    · intro m
      show upd s.epoll n false m = false
      by_cases hm : m = n
      · subst hm
        exact upd_same _ _ _
      · rw [upd_other _ _ hm]
        cases hk : s.epoll m with
        | false => rfl
        | true =>
          have := (h.ep m).mp hk
          rw [hp] at this
          exact absurd (Option.some.inj this).symm hm

theorem finalizeIdle_ok {cur : Option Nat} {s : S} (h : Inv cur s.faces s) :
    ∃ s', (finalizePty s >>= finalizeIdle) = .ok s' ∧ s'.faces = s.faces ∧ s'.fontRef = s.fontRef ∧ s'.bridgeSrc = s.bridgeSrc ∧
      s'.kids = s.kids ∧
      s'.src s.bridgeSrc = some .bridge ∧ (∀ i, s'.src i ≠ none → cur = some i ∨ i = s.bridgeSrc) ∧
      (∀ n, s'.has (.pty n) = false) ∧ (∀ o, (∀ n, o ≠ .pty n) → s'.has o = s.has o) ∧ (∀ n, s'.epoll n = false) := by
  have hbi : s.idleSrc ≠ 0 → s.bridgeSrc ≠ s.idleSrc := by
    intro h0 e
    have := (h.idle h0).1
    rw [← e, h.bsrc] at this
    cases this
  obtain ⟨s1, e1, a1, a2, a3, a4, a5, a6, a7, a8, a9, a10, a11⟩ := finalizePty_ok h
  rw [e1]
  show ∃ s', (if s1.idleSrc ≠ 0 then sourceRemove s1 s1.idleSrc else .ok s1) = _ ∧ _
  by_cases h0 : s.idleSrc ≠ 0
  · rw [if_pos (by rw [a4]; exact h0), sourceRemove_ok (by rw [a4]; exact a7 h0)]
    refine ⟨_, rfl, a1, a2, a3, a5, ?_, ?_, a9, a10, a11⟩
    · show upd s1.src s1.idleSrc none s.bridgeSrc = _
      rw [a4, upd_other _ _ (hbi h0)]
      exact a6
    · intro i hi
      change upd s1.src s1.idleSrc none i ≠ none at hi
      rw [a4] at hi
      by_cases hii : i = s.idleSrc
      · subst hii
        rw [upd_same] at hi
        exact absurd rfl hi
      · rw [upd_other _ _ hii] at hi
        rcases a8 i hi with k | k | k
        · exact .inl k
        · exact .inr k
        · exact absurd k.1 hii
  · rw [if_neg (by rw [a4]; exact h0)]
    refine ⟨s1, rfl, a1, a2, a3, a5, a6, ?_, a9, a10, a11⟩
    intro i hi
    rcases a8 i hi with k | k | k
    · exact .inl k
    · exact .inr k
    · omega

theorem finalize_ok {cur : Option Nat} {s : S} (h : Inv cur s.faces s) :
    ∃ s', finalize s = .ok s' ∧ Gone cur s' ∧ s'.kids = s.kids := by
  obtain ⟨s1, e1, a1, a2, a3, a4, a5, a6, a7, a8, a9⟩ := finalizeIdle_ok h
  obtain ⟨s2, e2, b1, b2, b3⟩ := facesFree_all (ns := s1.faces) (s := s1) (by
      intro n
      rw [a8 _ (by simp), a1]
      exact h.face n) (by rw [a1]; exact h.nodup) (by rw [a2, a1]; exact h.font) (by rw [a8 _ (by simp)]; exact h.fnt)
  have hs : ∀ o, (∀ n, o ≠ .pty n) → (∀ n, o ≠ .face n) → s2.has o = s.has o := fun o h1 h2 => (b3 o h2).trans (a8 o h1)
  have hsrc : s2.src = s1.src := by rw [b1]
  have hbs : s2.bridgeSrc = s.bridgeSrc := by rw [b1]; exact a3
  have hfr : s2.fontRef = 1 := by rw [b1]
  have hkids : s2.kids = s.kids := by rw [b1]; exact a4
  have hep : s2.epoll = s1.epoll := by rw [b1]
  have p1 := (hs .chan (by simp) (by simp)).trans h.chan
  have p2 := (hs .bridge (by simp) (by simp)).trans h.bridge
  have p3 := (hs .vte (by simp) (by simp)).trans h.vte
  have p4 := (hs .screen (by simp) (by simp)).trans h.screen
  have p5 := (hs .font (by simp) (by simp)).trans h.fnt
  have p6 := (hs .rend (by simp) (by simp)).trans h.rend
  have e3 : sourceRemove s2 s2.bridgeSrc = .ok { s2 with src := upd s2.src s2.bridgeSrc none } :=
    sourceRemove_ok (f := .bridge) (by rw [hsrc, hbs]; exact a5)
  have hfin : finalize s = .ok { s2 with
      src := upd s2.src s2.bridgeSrc none, fontRef := 0, gone := true
      has := upd (upd (upd (upd (upd (upd s2.has .chan false) .bridge false) .vte false) .screen false) .font false) .rend false } := by
    have e4 : finalize s = ((finalizePty s >>= finalizeIdle) >>= fun s => facesFree s.faces s >>= fun s => sourceRemove s s.bridgeSrc >>= fun s =>
        free s .chan >>= fun s => free s .bridge >>= fun s => free s .vte >>= fun s => free s .screen >>= fun s =>
        fontUnref s >>= fun s => free s .rend >>= fun s => .ok { s with gone := true }) := by
      unfold finalize
      cases finalizePty s <;> rfl
    rw [e4, e1]
    show (facesFree s1.faces s1 >>= _) = _
    rw [e2]
    show (sourceRemove s2 s2.bridgeSrc >>= _) = _
    rw [e3]
    simp [free, fontUnref, use, upd, p1, p2, p3, p4, p5, p6, hfr, bind, Except.bind]
  refine ⟨_, hfin, ⟨rfl, ?_, ?_, ?_⟩, hkids⟩
  · intro i hi
    change upd s2.src s2.bridgeSrc none i ≠ none at hi
    rw [hbs, hsrc] at hi
    by_cases hib : i = s.bridgeSrc
    · subst hib
      rw [upd_same] at hi
      exact absurd rfl hi
    · rw [upd_other _ _ hib] at hi
      rcases a6 i hi with k | k
      · exact k
      · exact absurd k hib
  · intro o
    cases o with
    | pty n => exact ((b3 _ (by simp)).trans (a7 n))
    | face n => exact b2 n
    | _ => simp [upd]
  · intro n
    show s2.epoll n = false
    rw [hep]
    exact a9 n

theorem childFn_ok {s : S} (h : Rest s) {i pid : Nat} (hi : s.src i = some (.child pid)) (destroy : Bool) :
    ∃ s', (childFn { s with kids := upd s.kids pid false } destroy >>= fun s => .ok { s with src := upd s.src i none }) = .ok s' ∧
      (if destroy = true then Gone none s' else Rest s' ∧ s'.pty = none) ∧ ∀ p, s'.kids p = false := by
  have hic : i = s.childSrc := by
    rcases h.only i _ hi with k | ⟨k, _⟩ | ⟨k, _⟩ | ⟨p, _, k⟩
    · cases k
    · cases k
    · cases k
    · exact k
  have hc0 : s.childSrc ≠ 0 := by
    have := h.lt i (by rw [hi]; simp)
    omega
  obtain ⟨n, hp⟩ : ∃ n, s.pty = some n := by
    cases hp : s.pty with
    | none => exact absurd (h.pty.mp hp) hc0
    | some n => exact ⟨n, rfl⟩
  have hk : ∀ p, upd s.kids pid false p = false := by
    intro p
    by_cases e : p = pid
    · subst e
      exact upd_same _ _ _
    · rw [upd_other _ _ e]
      cases hk : s.kids p with
      | false => rfl
      | true =>
        have := h.kid p hk
        rw [← hic, hi] at this
        injection this with this
        injection this with this
        exact absurd this.symm e
  have hmid : Inv (some i) s.faces
      { s with kids := upd s.kids pid false, childSrc := 0, epoll := upd s.epoll n false, has := upd s.has (.pty n) false, pty := none } := by
    have hu : ∀ o, o ≠ Obj.pty n → upd s.has (.pty n) false o = s.has o := fun o ho => upd_other _ _ ho
    exact
      { h with
        bcur := by
          intro e
          injection e with e
          have := h.bsrc
          rw [show s.bridgeSrc = i from e.symm, hi] at this
          cases this
        only := fun j f hj => by
          rcases h.only j f hj with k | k | k | ⟨p, _, k⟩
          · cases k
          · exact .inr (.inl k)
          · exact .inr (.inr (.inl k))
          · exact .inl (by rw [hic, k])
        idle := fun h0 => ⟨(h.idle h0).1, by
          intro e
          injection e with e
          have := (h.idle h0).1
          rw [show s.idleSrc = i from e.symm, hi] at this
          cases this⟩
        child := fun e => absurd rfl e
        pty := ⟨fun _ => rfl, fun _ => rfl⟩
        kid := fun p e => by
          change upd s.kids pid false p = true at e
          rw [hk p] at e
          cases e
        ptys := fun m => by
          show upd s.has (.pty n) false (.pty m) = true ↔ none = some m
          by_cases hm : m = n
          · subst hm
            rw [upd_same]
            simp
          · rw [hu _ (by simpa using hm), h.ptys m, hp]
            simp [Ne.symm hm]
        ep := fun m => by
          show upd s.epoll n false m = true ↔ none = some m
          by_cases hm : m = n
          · subst hm
            rw [upd_same]
            simp
          · rw [upd_other _ _ hm, h.ep m, hp]
            simp [Ne.symm hm]
        ptylt := fun m e => (nomatch e)
        face := fun m => Iff.trans (Iff.of_eq (congrArg (· = true) (hu (.face m) (by simp)))) (h.face m)
        rend := (hu _ (by simp)).trans h.rend
        fnt := (hu _ (by simp)).trans h.fnt
        screen := (hu _ (by simp)).trans h.screen
        vte := (hu _ (by simp)).trans h.vte
        bridge := (hu _ (by simp)).trans h.bridge
        chan := (hu _ (by simp)).trans h.chan }
  have he : childFn { s with kids := upd s.kids pid false } destroy =
      if destroy then finalize { s with kids := upd s.kids pid false, childSrc := 0, epoll := upd s.epoll n false, has := upd s.has (.pty n) false, pty := none }
      else .ok { s with kids := upd s.kids pid false, childSrc := 0, epoll := upd s.epoll n false, has := upd s.has (.pty n) false, pty := none } := by
    have h1 : s.has .bridge = true := h.bridge
    have h2 : s.has (.pty n) = true := (h.ptys n).mpr hp
    simp [childFn, ptyEnd, use, free, hp, h1, h2, bind, Except.bind]
  rw [he]
  cases destroy with
  | false => exact ⟨_, rfl, ⟨hmid.drop, rfl⟩, hk⟩
  | true =>
    obtain ⟨s', e1, g, k⟩ := finalize_ok (s := { s with kids := upd s.kids pid false, childSrc := 0, epoll := upd s.epoll n false, has := upd s.has (.pty n) false, pty := none }) hmid
    rw [if_pos rfl, e1]
    refine ⟨_, rfl, ?_, ?_⟩
    · rw [if_pos rfl]
      refine ⟨g.gone, ?_, g.has, g.ep⟩
      intro j hj
      change upd s'.src i none j ≠ none at hj
      by_cases e : j = i
      · subst e
        rw [upd_same] at hj
        exact absurd rfl hj
      · rw [upd_other _ _ e] at hj
        exact absurd (Option.some.inj (g.src j hj)).symm e
    · intro p
      show s'.kids p = false
      rw [k]
      exact hk p

/-- The pty and the child of `gtktsm_terminal_fork`. -/
theorem Inv.addPty {s : S} (h : Rest s) (hp : s.pty = none) :
    Rest { attach { s with has := upd s.has (.pty s.next) true, epoll := upd s.epoll s.next true, pty := some s.next
                           kids := upd s.kids (s.next + 1) true, next := s.next + 2 } (.child (s.next + 1)) with childSrc := s.next + 2 } := by
  have hc0 := h.pty.mp hp
  have hb := h.lt s.bridgeSrc (by rw [h.bsrc]; simp)
  have hu : ∀ o, o ≠ Obj.pty s.next → upd s.has (.pty s.next) true o = s.has o := fun o ho => upd_other _ _ ho
  have hv : ∀ i, i ≠ s.next + 2 → upd s.src (s.next + 2) (some (Fn.child (s.next + 1))) i = s.src i := fun i hi => upd_other _ _ hi
  have h00 : s.src 0 = none := by
    cases hf : s.src 0 with
    | none => rfl
    | some f =>
      have := h.lt 0 (by rw [hf]; simp)
      omega
  have hk : ∀ p, s.kids p = false := by
    intro p
    cases hk : s.kids p with
    | false => rfl
    | true =>
      have := h.kid p hk
      rw [hc0, h00] at this
      cases this
  exact
    { h with
      bcur := fun e => (nomatch e)
      bsrc := (hv s.bridgeSrc (by omega)).trans h.bsrc
      only := fun j f hj => by
        change upd s.src (s.next + 2) (some (Fn.child (s.next + 1))) j = some f at hj
        by_cases e : j = s.next + 2
        · subst e
          rw [upd_same] at hj
          injection hj with hj
          exact .inr (.inr (.inr ⟨_, hj.symm, rfl⟩))
        · rw [hv j e] at hj
          rcases h.only j f hj with k | k | k | ⟨p, _, k⟩
          · cases k
          · exact .inr (.inl k)
          · exact .inr (.inr (.inl k))
          · rw [k, hc0, h00] at hj
            cases hj
      lt := fun j hj => by
        change upd s.src (s.next + 2) (some (Fn.child (s.next + 1))) j ≠ none at hj
        show 0 < j ∧ j < s.next + 2 + 1
        by_cases e : j = s.next + 2
        · omega
        · rw [hv j e] at hj
          have := h.lt j hj
          omega
      idle := fun h0 => by
        change s.idleSrc ≠ 0 at h0
        have hl := h.lt s.idleSrc (by rw [(h.idle h0).1]; simp)
        exact ⟨(hv s.idleSrc (by omega)).trans (h.idle h0).1, fun e => (nomatch e)⟩
      child := fun _ => ⟨⟨_, upd_same _ _ _⟩, fun e => (nomatch e)⟩
      pty := ⟨fun e => (nomatch e), fun e => by
        change s.next + 2 = 0 at e
        omega⟩
      kid := fun p e => by
        change upd s.kids (s.next + 1) true p = true at e
        show upd s.src (s.next + 2) (some (Fn.child (s.next + 1))) (s.next + 2) = some (.child p)
        rw [upd_same]
        by_cases ep : p = s.next + 1
        · rw [ep]
        · rw [upd_other _ _ ep, hk p] at e
          cases e
      ptys := fun m => by
        show upd s.has (.pty s.next) true (.pty m) = true ↔ some s.next = some m
        by_cases hm : m = s.next
        · subst hm
          rw [upd_same]
          simp
        · rw [hu _ (by simpa using hm), h.ptys m, hp]
          simp [Ne.symm hm]
      ep := fun m => by
        show upd s.epoll s.next true m = true ↔ some s.next = some m
        by_cases hm : m = s.next
        · subst hm
          rw [upd_same]
          simp
        · rw [upd_other _ _ hm, h.ep m, hp]
          simp [Ne.symm hm]
      ptylt := fun m e => by
        change some s.next = some m at e
        injection e with e
        show m < s.next + 2 + 1
        omega
      face := fun m => Iff.trans (Iff.of_eq (congrArg (· = true) (hu (.face m) (by simp)))) (h.face m)
      facelt := fun m hm => by
        have := h.facelt m hm
        show m < s.next + 2 + 1
        omega
      rend := (hu _ (by simp)).trans h.rend
      fnt := (hu _ (by simp)).trans h.fnt
      screen := (hu _ (by simp)).trans h.screen
      vte := (hu _ (by simp)).trans h.vte
      bridge := (hu _ (by simp)).trans h.bridge
      chan := (hu _ (by simp)).trans h.chan }

theorem fork_ok {s : S} (h : Rest s) (g0 g1 g2 g3 good : Bool) :
    Good (fun s' => Rest s' ∧ s'.pty.isSome = true ∧ (s.pty = none → ∃ p, s'.kids p = true)) (fork s g0 g1 g2 g3 good) := by
  unfold fork
  by_cases hp : s.pty.isSome = true
  · rw [if_pos hp]
    exact ⟨h, hp, fun e => by rw [e] at hp; cases hp⟩
  · rw [if_neg hp]
    have hpn : s.pty = none := by
      cases hs : s.pty with
      | none => rfl
      | some n => rw [hs] at hp; exact absurd rfl hp
    have h1 : Good (fun s' => Rest s' ∧ s'.pty = none) (if s.faces = [] then setFont s g0 g1 g2 g3 else .ok s) := by
      by_cases hf : s.faces = []
      · rw [if_pos hf]
        have := Inv.setFont h g0 g1 g2 g3
        revert this
        cases setFont s g0 g1 g2 g3 with
        | error f => exact id
        | ok s1 => exact fun k => ⟨k.1, k.2.1.trans hpn⟩
      · rw [if_neg hf]
        exact ⟨h, hpn⟩
    refine h1.bind ?_
    intro s1 ⟨k1, k2⟩
    cases good with
    | false => exact rfl
    | true =>
      rw [if_pos rfl, use_ok k1.bridge]
      exact ⟨Inv.addPty k1 k2, rfl, fun _ => ⟨s1.next + 1, upd_same _ _ _⟩⟩

/-- Either it exists, or nothing of it does. -/
def Sound (s : S) : Prop := Rest s ∨ Gone none s

theorem Good.mono {P Q : S → Prop} {x : Except Fault S} (h : Good P x) (g : ∀ s, P s → Q s) : Good Q x := by
  cases x with
  | ok s => exact g s h
  | error e => exact h

theorem step_gone {s : S} (h : Gone none s) (e : Ev) : step s e = .ok s := by
  have h1 := h.gone
  cases e with
  | fire i ev ws d =>
    have : s.src i = none := by
      cases hs : s.src i with
      | none => rfl
      | some f => exact absurd (h.src i (by rw [hs]; simp)) (by simp)
    simp only [step, this]
  | _ => simp only [step, h1, if_true]

theorem step_ok {s : S} (h : Sound s) (e : Ev) : Good Sound (step s e) := by
  rcases h with h | h
  · have hg := h.alive
    have hno : ¬ (s.gone = true) := by rw [hg]; simp
    cases e with
    | font g0 g1 g2 g3 =>
      show Good _ (if s.gone then _ else if s.faces = [] then _ else _)
      rw [if_neg hno]
      by_cases hf : s.faces = []
      · rw [if_pos hf]
        exact .inl h
      · rw [if_neg hf]
        exact (Inv.setFont h g0 g1 g2 g3).mono fun _ k => .inl k.1
    | fork g0 g1 g2 g3 good =>
      show Good _ (if s.gone then _ else _)
      rw [if_neg hno]
      exact (fork_ok h g0 g1 g2 g3 good).mono fun _ k => .inl k.1
    | key ws =>
      show Good _ (if s.gone then _ else _)
      rw [if_neg hno]
      exact ((Rest.mid h).emulate (ws := ws)).mono fun _ k => .inl k.1.1
    | finalize =>
      show Good _ (if s.gone then _ else _)
      rw [if_neg hno]
      obtain ⟨s', e1, g, _⟩ := finalize_ok h
      rw [e1]
      exact .inr g
    | fire i ev ws d =>
      cases hs : s.src i with
      | none =>
        simp only [step, hs]
        exact .inl h
      | some f =>
        simp only [step, hs, if_neg hno]
        cases f with
        | bridge => exact (bridgeFn_ok h ev ws).mono fun _ k => .inl k
        | idle => exact (idleFn_ok h hs ws).mono fun _ k => .inl k.1
        | child pid =>
          obtain ⟨s', e1, k, _⟩ := childFn_ok h hs d
          show Good _ (childFn _ _ >>= _)
          rw [e1]
          cases d with
          | false => exact .inl k.1
          | true => exact .inr k
  · rw [step_gone h e]
    exact .inr h

theorem run_ok : ∀ {es : List Ev} {s : S}, Sound s → Good Sound (run es s) := by
  intro es
  induction es with
  | nil => exact fun h => h
  | cons e es ih => exact fun h => (step_ok h e).bind fun _ k => ih k

theorem init_rest : Rest init where
  alive := rfl
  bsrc := rfl
  bcur := fun e => (nomatch e)
  only := fun i f hi => by
    change upd (fun _ => none) 1 (some Fn.bridge) i = some f at hi
    by_cases e : i = 1
    · subst e
      rw [upd_same] at hi
      injection hi with hi
      exact .inr (.inl ⟨hi.symm, rfl⟩)
    · rw [upd_other _ _ e] at hi
      cases hi
  lt := fun i hi => by
    change upd (fun _ => none) 1 (some Fn.bridge) i ≠ none at hi
    show 0 < i ∧ i < 2
    by_cases e : i = 1
    · omega
    · rw [upd_other _ _ e] at hi
      exact absurd rfl hi
  idle := fun e => absurd rfl e
  child := fun e => absurd rfl e
  pty := ⟨fun _ => rfl, fun _ => rfl⟩
  kid := fun _ e => (nomatch e)
  ptys := fun _ => ⟨fun e => (nomatch e), fun e => (nomatch e)⟩
  ep := fun _ => ⟨fun e => (nomatch e), fun e => (nomatch e)⟩
  ptylt := fun _ e => (nomatch e)
  face := fun _ => ⟨fun e => (nomatch e), fun e => (nomatch e)⟩
  nodup := List.nodup_nil
  facelt := fun _ e => (nomatch e)
  font := rfl
  rend := rfl
  fnt := rfl
  screen := rfl
  vte := rfl
  bridge := rfl
  chan := rfl

end Verif.Gtk.Life
