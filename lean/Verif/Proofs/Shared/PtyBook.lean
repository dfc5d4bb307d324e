import Verif.Spec.PtyLife
import Verif.Proofs.Shared.PtyLife

/-! # The invariant of programs that use ptys -/

namespace Verif
namespace PtyLife

open Fds

/-- An object agrees with the book-keeping. -/
def ObjOk (w : World) (b : Book) (h : Nat) : Option Obj → Prop
  | none => b.refs h = 0
  | some o => o.ref = b.refs h ∧ 1 ≤ o.ref ∧ b.isOpen h = o.fd.isSome ∧
      ∀ f, o.fd = some f → w.fds.get f = some ⟨.master h, true⟩

/-- The objects and descriptors of a program agree with its book-keeping. -/
structure Inv (w : World) (b : Book) (n : Nat) : Prop where
  len : w.objs.length = b.next
  obj : ∀ h (hl : h < w.objs.length), ObjOk w b h w.objs[h]
  out : ∀ h, w.objs.length ≤ h → b.refs h = 0
  le : ∀ h, b.refs h ≤ n
  fds : ∀ f x, w.fds.get f = some x → (∃ m, x.file = .other m) ∨
    ∃ k o, x = ⟨.master k, true⟩ ∧ w.objs[k]? = some (some o) ∧ o.fd = some f

theorem Inv.held {w : World} {b : Book} {n h : Nat} (i : Inv w b n) (hr : 1 ≤ b.refs h) :
    ∃ o, w.objs[h]? = some (some o) ∧ o.ref = b.refs h ∧ b.isOpen h = o.fd.isSome ∧
      ∀ f, o.fd = some f → w.fds.get f = some ⟨.master h, true⟩ := by
  rcases Nat.lt_or_ge h w.objs.length with hl | hl
  · have := i.obj h hl
    cases ho : w.objs[h] with
    | none => rw [ho] at this; have : b.refs h = 0 := this; omega
    | some o =>
      rw [ho] at this
      exact ⟨o, by rw [List.getElem?_eq_getElem hl, ho], this.1, this.2.2⟩
  · have := i.out h hl
    omega

theorem Inv.mk' {w : World} {b : Book} {n : Nat} (len : w.objs.length = b.next)
    (obj : ∀ h v, w.objs[h]? = some v → ObjOk w b h v)
    (out : ∀ h, w.objs.length ≤ h → b.refs h = 0)
    (le : ∀ h, b.refs h ≤ n)
    (fds : ∀ f x, w.fds.get f = some x → (∃ m, x.file = .other m) ∨
      ∃ k o, x = ⟨.master k, true⟩ ∧ w.objs[k]? = some (some o) ∧ o.fd = some f) : Inv w b n :=
  ⟨len, fun h hl => obj h _ (List.getElem?_eq_getElem hl), out, le, fds⟩

theorem Inv.at {w : World} {b : Book} {n : Nat} (i : Inv w b n) {h : Nat} {v : Option Obj} (e : w.objs[h]? = some v) :
    ObjOk w b h v := by
  obtain ⟨hl, hv⟩ := List.getElem?_eq_some_iff.1 e
  exact hv ▸ i.obj h hl

theorem obj_ok {w : World} {h : Nat} {o : Obj} (e : w.objs[h]? = some (some o)) : w.obj h = .ok o := by
  unfold World.obj
  rw [e]

/-- One allowed call succeeds and keeps the invariant. -/
theorem Inv.step {w : World} {b : Book} {n : Nat} {c : Call} (i : Inv w b n) (hn : n + 1 < 2 ^ 64)
    (ha : allowed w b c = true) :
    ∃ w', PtyLife.step w c = .ok w' ∧ Inv w' (b.after c w'.got) (n + 1) := by
  cases c with
  | openPty s =>
    obtain ⟨w', e, h1, -⟩ := openPty_ok w s
    refine ⟨w', e, ?_⟩
    split at h1
    · obtain ⟨fd, hf, -, ho, hg⟩ := h1
      have got : w'.got = true := by unfold World.got; rw [ho]; simp
      rw [got]
      refine .mk' (by rw [ho]; simp [Book.after, i.len]) (fun h v hv => ?_) (fun h hl => ?_) (fun h => ?_)
        (fun f x hx => ?_)
      · rw [ho] at hv
        rcases Nat.lt_or_ge h w.objs.length with hl | hl
        · rw [List.getElem?_append_left hl] at hv
          have := i.at hv
          have ne : ¬ h = b.next := by have := i.len; omega
          cases v with
          | none => simpa only [ObjOk, Book.after, if_neg ne] using this
          | some o =>
            simp only [ObjOk, Book.after, if_neg ne]
            refine ⟨this.1, this.2.1, this.2.2.1, fun f e => ?_⟩
            have := this.2.2.2 f e
            rw [hg, if_neg (fun e => by rw [e, hf] at this; cases this), this]
        · rw [List.getElem?_append_right hl] at hv
          have : h - w.objs.length = 0 := by
            apply Classical.byContradiction
            intro c
            rw [List.getElem?_eq_none (by simp; omega)] at hv
            cases hv
          rw [this] at hv
          cases hv
          have eh : h = w.objs.length := by omega
          have en : h = b.next := by rw [eh, i.len]
          simp only [ObjOk, Book.after, if_pos en, if_true, Option.isSome]
          refine ⟨trivial, Nat.le_refl _, trivial, fun f e => ?_⟩
          cases e
          rw [hg, if_pos rfl, eh]
      · rw [ho] at hl
        simp only [List.length_append, List.length_cons, List.length_nil] at hl
        simp only [Book.after]
        rw [if_neg (by have := i.len; omega)]
        exact i.out h (by omega)
      · simp only [Book.after]
        have := i.le h
        split
        · simp
        · omega
      · rw [hg] at hx
        split at hx
        · rename_i ef
          cases hx
          exact .inr ⟨w.objs.length, _, rfl, by rw [ho]; simp; rfl, by rw [ef]⟩
        · rcases i.fds f x hx with h | ⟨k, o, e1, e2, e3⟩
          · exact .inl h
          · refine .inr ⟨k, o, e1, ?_, e3⟩
            rw [ho, List.getElem?_append_left (List.getElem?_eq_some_iff.1 e2).1]
            exact e2
    · obtain ⟨ho, hg⟩ := h1
      have got : w'.got = false := by unfold World.got; rw [ho]; simp
      rw [got]
      refine .mk' (by rw [ho]; simp [Book.after, i.len]) (fun h v hv => ?_) (fun h hl => ?_) (fun h => ?_)
        (fun f x hx => ?_)
      · rw [ho] at hv
        rcases Nat.lt_or_ge h w.objs.length with hl | hl
        · rw [List.getElem?_append_left hl] at hv
          have := i.at hv
          have ne : ¬ h = b.next := by have := i.len; omega
          cases v with
          | none => simpa only [ObjOk, Book.after, if_neg ne] using this
          | some o =>
            simp only [ObjOk, Book.after, if_neg ne, hg]
            exact this
        · rw [List.getElem?_append_right hl] at hv
          have : h - w.objs.length = 0 := by
            apply Classical.byContradiction
            intro c
            rw [List.getElem?_eq_none (by simp; omega)] at hv
            cases hv
          rw [this] at hv
          cases hv
          have en : h = b.next := by have := i.len; omega
          simp [ObjOk, Book.after, en]
      · rw [ho] at hl
        simp only [List.length_append, List.length_cons, List.length_nil] at hl
        simp only [Book.after]
        rw [if_neg (by have := i.len; omega)]
        exact i.out h (by omega)
      · simp only [Book.after]
        have := i.le h
        split
        · simp
        · omega
      · rw [hg] at hx
        rcases i.fds f x hx with h | ⟨k, o, e1, e2, e3⟩
        · exact .inl h
        · refine .inr ⟨k, o, e1, ?_, e3⟩
          rw [ho, List.getElem?_append_left (List.getElem?_eq_some_iff.1 e2).1]
          exact e2
  | ref k =>
    have hr : 1 ≤ b.refs k := by simpa [allowed] using ha
    obtain ⟨o, ho, hor, hop, hfd⟩ := i.held hr
    have hl := (List.getElem?_eq_some_iff.1 ho).1
    have lk := i.le k
    have hm : (o.ref + 1) % 2 ^ 64 = b.refs k + 1 := by rw [hor]; exact Nat.mod_eq_of_lt (by omega)
    refine ⟨{ w with objs := w.objs.set k (some { o with ref := b.refs k + 1 }) }, ?_, ?_⟩
    · simp only [PtyLife.step, obj_ok ho, bind, Except.bind, pure, Except.pure]
      rw [if_neg (by omega), hm]
    · refine .mk' (by simp [Book.after, i.len]) (fun h v hv => ?_) (fun h hl' => ?_) (fun h => ?_) (fun f x hx => ?_)
      · simp only [List.getElem?_set, hl, if_true] at hv
        by_cases e : k = h
        · rw [if_pos e] at hv
          cases hv
          subst e
          simp only [ObjOk, Book.after, if_true]
          exact ⟨trivial, by omega, hop, hfd⟩
        · rw [if_neg e] at hv
          have := i.at hv
          have e' : ¬ h = k := fun c => e c.symm
          cases v with
          | none => simpa only [ObjOk, Book.after, if_neg e'] using this
          | some o => simpa only [ObjOk, Book.after, if_neg e'] using this
      · simp only [List.length_set] at hl'
        simp only [Book.after]
        rw [if_neg (by omega)]
        exact i.out h hl'
      · simp only [Book.after]
        have := i.le h
        split <;> omega
      · rcases i.fds f x hx with h | ⟨j, p, e1, e2, e3⟩
        · exact .inl h
        · by_cases e : k = j
          · subst e
            rw [ho] at e2
            cases e2
            exact .inr ⟨k, { o with ref := b.refs k + 1 }, e1, by simp [hl], e3⟩
          · exact .inr ⟨j, p, e1, by simpa [List.getElem?_set, e] using e2, e3⟩
  | unref k =>
    have hr : 1 ≤ b.refs k := by simpa [allowed] using ha
    obtain ⟨o, ho, hor, hop, hfd⟩ := i.held hr
    have hl := (List.getElem?_eq_some_iff.1 ho).1
    by_cases last : b.refs k = 1
    · -- the last reference: the object is freed and its descriptor closed
      have : ∃ t : Fds, unrefObj w.fds o = .ok (t, none) ∧
          ∀ m, t.get m = if o.fd = some m then none else w.fds.get m := by
        unfold unrefObj
        rw [if_neg (by omega), if_pos (by omega)]
        unfold closeObj
        cases hf : o.fd with
        | none => exact ⟨w.fds, by simp [bind, Except.bind, pure, Except.pure], fun m => by simp⟩
        | some f =>
          obtain ⟨t, e, g⟩ := w.fds.close_ok f (by rw [hfd f hf]; simp)
          refine ⟨t, by simp [e, bind, Except.bind, pure, Except.pure], fun m => ?_⟩
          rw [g]
          simp only [Option.some.injEq]
          by_cases c : m = f
          · rw [if_pos c, if_pos c.symm]
          · rw [if_neg c, if_neg (fun e => c e.symm)]
      obtain ⟨t, e, g⟩ := this
      refine ⟨{ w with fds := t, objs := w.objs.set k none }, ?_, ?_⟩
      · simp only [PtyLife.step, obj_ok ho, e, bind, Except.bind, pure, Except.pure]
      · refine .mk' (by simp [Book.after, i.len]) (fun h v hv => ?_) (fun h hl' => ?_) (fun h => ?_)
          (fun f x hx => ?_)
        · simp only [List.getElem?_set, hl, if_true] at hv
          by_cases e : k = h
          · rw [if_pos e] at hv
            cases hv
            subst e
            simp only [ObjOk, Book.after, if_true]
            omega
          · rw [if_neg e] at hv
            have := i.at hv
            have e' : ¬ h = k := fun c => e c.symm
            cases v with
            | none => simpa only [ObjOk, Book.after, if_neg e'] using this
            | some p =>
              simp only [ObjOk, Book.after, if_neg e']
              refine ⟨this.1, this.2.1, this.2.2.1, fun f hf => ?_⟩
              have := this.2.2.2 f hf
              show t.get f = _
              rw [g, if_neg (fun c => ?_), this]
              rw [hfd f c] at this
              cases this
              exact e rfl
        · simp only [List.length_set] at hl'
          simp only [Book.after]
          rw [if_neg (by omega)]
          exact i.out h hl'
        · simp only [Book.after]
          have := i.le h
          split <;> omega
        · replace hx : t.get f = some x := hx
          rw [g] at hx
          split at hx
          · cases hx
          · rename_i hne
            rcases i.fds f x hx with h | ⟨j, p, e1, e2, e3⟩
            · exact .inl h
            · by_cases e : k = j
              · subst e
                rw [ho] at e2
                cases e2
                exact absurd e3 hne
              · exact .inr ⟨j, p, e1, by simpa [List.getElem?_set, e] using e2, e3⟩
    · have e : unrefObj w.fds o = .ok (w.fds, some { o with ref := b.refs k - 1 }) := by
        unfold unrefObj
        rw [if_neg (by omega), if_neg (by omega), hor]
      refine ⟨{ w with fds := w.fds, objs := w.objs.set k (some { o with ref := b.refs k - 1 }) }, ?_, ?_⟩
      · simp only [PtyLife.step, obj_ok ho, e, bind, Except.bind, pure, Except.pure]
      · refine .mk' (by simp [Book.after, i.len]) (fun h v hv => ?_) (fun h hl' => ?_) (fun h => ?_)
          (fun f x hx => ?_)
        · simp only [List.getElem?_set, hl, if_true] at hv
          by_cases e : k = h
          · rw [if_pos e] at hv
            cases hv
            subst e
            simp only [ObjOk, Book.after, if_true]
            exact ⟨trivial, by omega, hop, hfd⟩
          · rw [if_neg e] at hv
            have := i.at hv
            have e' : ¬ h = k := fun c => e c.symm
            cases v with
            | none => simpa only [ObjOk, Book.after, if_neg e'] using this
            | some p => simpa only [ObjOk, Book.after, if_neg e'] using this
        · simp only [List.length_set] at hl'
          simp only [Book.after]
          rw [if_neg (by omega)]
          exact i.out h hl'
        · simp only [Book.after]
          have := i.le h
          split <;> omega
        · rcases i.fds f x hx with h | ⟨j, p, e1, e2, e3⟩
          · exact .inl h
          · by_cases e : k = j
            · subst e
              rw [ho] at e2
              cases e2
              exact .inr ⟨k, { o with ref := b.refs k - 1 }, e1, by simp [hl], e3⟩
            · exact .inr ⟨j, p, e1, by simpa [List.getElem?_set, e] using e2, e3⟩
  | close k =>
    have hr : 1 ≤ b.refs k := by simpa [allowed] using ha
    obtain ⟨o, ho, hor, hop, hfd⟩ := i.held hr
    have hl := (List.getElem?_eq_some_iff.1 ho).1
    have : ∃ t : Fds, closeObj w.fds o = .ok (t, { o with fd := none }) ∧
        ∀ m, t.get m = if o.fd = some m then none else w.fds.get m := by
      unfold closeObj
      cases hf : o.fd with
      | none =>
        refine ⟨w.fds, ?_, fun m => by simp⟩
        simp only
        rw [← hf]
      | some f =>
        obtain ⟨t, e, g⟩ := w.fds.close_ok f (by rw [hfd f hf]; simp)
        refine ⟨t, by simp [e, bind, Except.bind, pure, Except.pure], fun m => ?_⟩
        rw [g]
        simp only [Option.some.injEq]
        by_cases c : m = f
        · rw [if_pos c, if_pos c.symm]
        · rw [if_neg c, if_neg (fun e => c e.symm)]
    obtain ⟨t, e, g⟩ := this
    refine ⟨{ w with fds := t, objs := w.objs.set k (some { o with fd := none }) }, ?_, ?_⟩
    · simp only [PtyLife.step, obj_ok ho, e, bind, Except.bind, pure, Except.pure]
    · refine .mk' (by simp [Book.after, i.len]) (fun h v hv => ?_) (fun h hl' => ?_) (fun h => ?_)
        (fun f x hx => ?_)
      · simp only [List.getElem?_set, hl, if_true] at hv
        by_cases e : k = h
        · rw [if_pos e] at hv
          cases hv
          subst e
          simp only [ObjOk, Book.after, if_true]
          exact ⟨hor, by omega, rfl, fun f c => by cases c⟩
        · rw [if_neg e] at hv
          have := i.at hv
          have e' : ¬ h = k := fun c => e c.symm
          cases v with
          | none => simpa only [ObjOk, Book.after] using this
          | some p =>
            simp only [ObjOk, Book.after, if_neg e']
            refine ⟨this.1, this.2.1, this.2.2.1, fun f hf => ?_⟩
            have := this.2.2.2 f hf
            show t.get f = _
            rw [g, if_neg (fun c => ?_), this]
            rw [hfd f c] at this
            cases this
            exact e rfl
      · simp only [List.length_set] at hl'
        exact i.out h hl'
      · exact Nat.le_succ_of_le (i.le h)
      · replace hx : t.get f = some x := hx
        rw [g] at hx
        split at hx
        · cases hx
        · rename_i hne
          rcases i.fds f x hx with h | ⟨j, p, e1, e2, e3⟩
          · exact .inl h
          · by_cases e : k = j
            · subst e
              rw [ho] at e2
              cases e2
              exact absurd e3 hne
            · exact .inr ⟨j, p, e1, by simpa [List.getElem?_set, e] using e2, e3⟩
  | use k =>
    have hr : 1 ≤ b.refs k := by simpa [allowed] using ha
    obtain ⟨o, ho, hor, hop, hfd⟩ := i.held hr
    refine ⟨w, ?_, ⟨i.len, i.obj, i.out, fun h => Nat.le_succ_of_le (i.le h), i.fds⟩⟩
    simp only [PtyLife.step, obj_ok ho, bind, Except.bind, pure, Except.pure]
    cases hf : o.fd with
    | none => rfl
    | some f => simp [hfd f hf]
  | openOther m cl =>
    refine ⟨_, rfl, ?_⟩
    have hfree := w.fds.lowest_free
    refine .mk' i.len (fun h v hv => ?_) i.out (fun h => Nat.le_succ_of_le (i.le h)) (fun f x hx => ?_)
    · have := i.at hv
      cases v with
      | none => exact this
      | some o =>
        refine ⟨this.1, this.2.1, this.2.2.1, fun f hf => ?_⟩
        have := this.2.2.2 f hf
        show (if f = w.fds.lowest then _ else w.fds.get f) = _
        rw [if_neg (fun e => by rw [e, hfree] at this; cases this), this]
    · replace hx : (if f = w.fds.lowest then some ⟨.other m, cl⟩ else w.fds.get f) = some x := hx
      split at hx
      · cases hx; exact .inl ⟨m, rfl⟩
      · exact i.fds f x hx
  | closeOther f =>
    have hf : ∃ m cl, w.fds.get f = some ⟨.other m, cl⟩ := by
      unfold allowed at ha
      simp only at ha
      split at ha
      · rename_i m cl e; exact ⟨m, cl, e⟩
      · cases ha
    obtain ⟨m, cl, hf⟩ := hf
    obtain ⟨t, e, g⟩ := w.fds.close_ok f (by rw [hf]; simp)
    refine ⟨{ w with fds := t }, by simp [PtyLife.step, e, bind, Except.bind, pure, Except.pure], ?_⟩
    refine .mk' i.len (fun h v hv => ?_) i.out (fun h => Nat.le_succ_of_le (i.le h)) (fun f' x hx => ?_)
    · have := i.at hv
      cases v with
      | none => exact this
      | some o =>
        refine ⟨this.1, this.2.1, this.2.2.1, fun f' hf' => ?_⟩
        have := this.2.2.2 f' hf'
        show t.get f' = _
        rw [g]
        simp only
        rw [if_neg (fun e => by rw [e, hf] at this; cases this), this]
    · replace hx : t.get f' = some x := hx
      rw [g] at hx
      simp only at hx
      split at hx
      · cases hx
      · exact i.fds f' x hx

theorem Session.inv {w : World} {b : Book} {n : Nat} (s : Session w b n) (hn : n < 2 ^ 64) : Inv w b n := by
  induction s with
  | start t h =>
    exact .mk' rfl (fun h v hv => by cases hv) (fun _ _ => rfl) (fun _ => Nat.le_refl _) (fun f x hx => .inl (h f x hx))
  | step s ha e ih =>
    obtain ⟨w', e', i⟩ := (ih (by omega)).step hn ha
    rw [e] at e'
    cases e'
    exact i

end PtyLife
end Verif
