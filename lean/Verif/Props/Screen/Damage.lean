import Verif.Proofs.Screen.Damage
import Verif.Proofs.Screen.Example

/-!
# Damage tracking

C28: a renderer may skip the cells whose age is not above the age of its last
drawing.
-/

namespace Verif.Props.Screen

open Verif Verif.Screen

/-- What a drawing shows at a position, that is, everything but the age. -/
def sameLook (a b : DrawCall) : Prop :=
  a.ch = b.ch ∧ a.len = b.len ∧ a.width = b.width ∧ a.attr = b.attr ∧ a.id = b.id

instance (a b : DrawCall) : Decidable (sameLook a b) := by unfold sameLook; exact inferInstance

/-- The claim for one history: between two drawings only the calls `cs` are made. -/
def Tracks (s : Screen) (cs : List Call) : Prop :=
  ∀ calls a s1 s2 calls' a' s3, s.draw = .ok (calls, a, s1) → runAll cs s1 = .ok s2 →
    s2.draw = .ok (calls', a', s3) →
    ∀ c ∈ calls, ∀ c' ∈ calls', c'.x = c.x → c'.y = c.y → ¬ sameLook c c' →
      c'.age = 0 ∨ a < c'.age

/-- The claim as stated: for all histories between two successive drawings. -/
def C28_claim : Prop :=
  ∀ s, Reachable s → ∀ cs : List Call, (∀ c ∈ cs, c.Valid) → (∀ c ∈ cs, c ≠ .draw) → Tracks s cs

/-- The two calls after which damage tracking is incomplete. -/
def untracked : Call → Bool
  | .resize .. | .setDefAttr .. => true
  | _ => false

/-- The rows of the live screen are full. -/
theorem live_full {s : Screen} (h : Geo s) (hp : s.sbPos = none) {i j : Nat} (hi : i < s.sizeY) (hj : j < s.sizeX) :
    ¬ s.Beyond i j := by
  have hlen : i < s.lines.length := by rw [h.linesOk.len]; exact Nat.lt_of_lt_of_le hi h.rows
  have e : s.rowL i = s.lines[i] := by
    show ((sbFrom s.sb s.sbPos ++ s.lines)[i]?).getD default = _
    rw [hp]
    show (([] ++ s.lines)[i]?).getD default = _
    rw [List.nil_append, List.getElem?_eq_getElem hlen]
    rfl
  intro hb
  have hb : (s.rowL i).cells[j]? = none := hb
  rw [e, List.getElem?_eq_none_iff] at hb
  have := h.linesOk.w _ (List.getElem_mem hlen)
  omega

/-- Both cases in one: `d` says whether `set_def_attr` may be among the calls. -/
theorem tracks_core {d : Bool} {s : Screen} (hr : Reachable s) {cs : List Call} (hv : ∀ c ∈ cs, c.Valid)
    (ht : ∀ c ∈ cs, c.tracked d = true) {calls : List DrawCall} {a : Nat} {s1 s2 : Screen}
    {calls' : List DrawCall} {a' : Nat} {s3 : Screen} (e1 : s.draw = .ok (calls, a, s1))
    (e2 : runAll cs s1 = .ok s2) (e3 : s2.draw = .ok (calls', a', s3)) (hd : d = true → a' ≠ a ∨ s2.sbPos = none) :
    ∀ c ∈ calls, ∀ c' ∈ calls', c'.x = c.x → c'.y = c.y → ¬ sameLook c c' → c'.age = 0 ∨ a < c'.age := by
  intro c hc c' hc' hx hy hne
  rw [draw_eq hr.inv.geo] at e1
  injection e1 with e1
  injection e1 with h1 e1
  injection e1 with h2 h3
  have hr1 : Reachable s1 := by
    refine hr.step (c := .draw) trivial ?_
    show (do let r ← s.draw; return r.2.2 : R Screen) = _
    rw [draw_eq hr.inv.geo, ← h3]
    rfl
  have hr2 := hr1.runAll hv e2
  have hm : Mono d s1 s2 := runAll_mono hr1 hv ht e2
  rw [draw_eq hr2.inv.geo] at e3
  injection e3 with e3
  injection e3 with h4 e3
  injection e3 with h5 _
  rw [← h1] at hc
  rw [← h4] at hc'
  obtain ⟨i, hi, hc⟩ := List.mem_flatMap.mp hc
  obtain ⟨j, hj, rfl⟩ := List.mem_map.mp hc
  obtain ⟨i', hi', hc'⟩ := List.mem_flatMap.mp hc'
  obtain ⟨j', hj', rfl⟩ := List.mem_map.mp hc'
  change j' = j at hx
  change i' = i at hy
  subst hx hy
  rcases Bool.eq_false_or_eq_true s2.ageReset with hre | hre
  · left
    show s2.drawAge _ _ = 0
    unfold drawAge
    rw [if_pos hre]
  · right
    obtain ⟨hg, hs⟩ := hm.grow hre
    have hage : (s2.cellCall i' j').age = s2.rawAge i' j' := by
      show s2.drawAge (s2.cellD i' j') (s2.rowL i') = _
      unfold drawAge
      rw [if_neg (by rw [hre]; simp)]
      show (if _ then _ else _) = max _ _
      repeat' split
      all_goals omega
    have hcnt : a ≤ s1.ageCnt := by
      rw [← h2, ← h3]
      show (if s.ageReset = true then 0 else s.ageCnt) ≤ s.ageCnt
      split <;> omega
    rw [hage]
    rcases hs i' j' (List.mem_range.mp hi') (List.mem_range.mp hj') with h6 | ⟨_, _, _, ⟨hdt, hb⟩ | h6, _⟩
    · omega
    · have hne' : a' ≠ a := by
        rcases hd hdt with h | h
        · exact h
        · exact absurd hb (live_full hr2.inv.geo h (List.mem_range.mp hi') (List.mem_range.mp hj'))
      have e4 : a' = s2.ageCnt := by
        rw [← h5]
        exact if_neg (by rw [hre]; simp)
      have e5 : (s2.cellD i' j').age = s2.ageCnt := by
        unfold cellD
        rw [show (s2.rowL i').cells[j']? = none from hb]
        rfl
      unfold rawAge
      omega
    · exfalso
      apply hne
      have h7 : s1.look i' j' = s.look i' j' := by
        rw [← h3]
        have hh : ∀ p i, ({ s with ageReset := false } : Screen).passed p i = s.passed p i := by
          intro p i
          induction i with
          | zero => rfl
          | succ i ih => rw [passed, passed, ih]
        have h8 : ({ s with ageReset := false } : Screen).highlight i' j' = s.highlight i' j' := by
          unfold highlight
          rw [hh, hh]
        unfold look cellCall
        rw [h8]
        rfl
      rw [h7] at h6
      refine ⟨?_, ?_, ?_, ?_, ?_⟩
      · exact (congrArg DrawCall.ch h6).symm
      · exact (congrArg DrawCall.len h6).symm
      · exact (congrArg DrawCall.width h6).symm
      · exact (congrArg DrawCall.attr h6).symm
      · exact (congrArg DrawCall.id h6).symm

/-- **C28** (partial: the full statement is `C28_claim`, which is false; missing
are `resize` and `set_def_attr`). If what is drawn at a position differs between
two successive drawings, the second one passes age 0 for it, or an age above the
one returned by the first. This includes overflows of the age counter. -/
theorem C28_tracks_partial {s : Screen} (hr : Reachable s) {cs : List Call} (hv : ∀ c ∈ cs, c.Valid)
    (hd : ∀ c ∈ cs, c ≠ .draw) (hu : ∀ c ∈ cs, untracked c = false) : Tracks s cs := by
  intro calls a s1 s2 calls' a' s3 e1 e2 e3
  refine tracks_core (d := false) hr hv ?_ e1 e2 e3 (fun h => by cases h)
  intro c hc
  have h4 := hd c hc
  have h5 := hu c hc
  cases c with
  | draw => exact absurd rfl h4
  | resize x y => exact Bool.noConfusion h5
  | setDefAttr a => exact Bool.noConfusion h5
  | _ => rfl

/-- **C28** (partial: missing are `resize`, and `set_def_attr` if no other call between
the drawings marks anything). With `set_def_attr` the claim holds if the second drawing
returns another age than the first. -/
theorem C28_def_attr_partial {s : Screen} (hr : Reachable s) {cs : List Call} (hv : ∀ c ∈ cs, c.Valid)
    (hd : ∀ c ∈ cs, c ≠ .draw) (hu : ∀ c ∈ cs, ∀ x y, c ≠ .resize x y) {calls : List DrawCall} {a : Nat}
    {s1 s2 : Screen} {calls' : List DrawCall} {a' : Nat} {s3 : Screen} (e1 : s.draw = .ok (calls, a, s1))
    (e2 : runAll cs s1 = .ok s2) (e3 : s2.draw = .ok (calls', a', s3)) (ha : a' ≠ a) :
    ∀ c ∈ calls, ∀ c' ∈ calls', c'.x = c.x → c'.y = c.y → ¬ sameLook c c' → c'.age = 0 ∨ a < c'.age := by
  refine tracks_core (d := true) hr hv ?_ e1 e2 e3 (fun _ => Or.inl ha)
  intro c hc
  have h4 := hd c hc
  have h5 := hu c hc
  cases c with
  | draw => exact absurd rfl h4
  | resize x y => exact absurd rfl (h5 x y)
  | _ => rfl

/-- **C28** (partial: missing is `resize`, and `set_def_attr` while the scrollback is looked at). The claim holds for all
other calls if the second drawing shows the live screen. -/
theorem C28_live_partial {s : Screen} (hr : Reachable s) {cs : List Call} (hv : ∀ c ∈ cs, c.Valid)
    (hd : ∀ c ∈ cs, c ≠ .draw) (hu : ∀ c ∈ cs, ∀ x y, c ≠ .resize x y) {calls : List DrawCall} {a : Nat}
    {s1 s2 : Screen} {calls' : List DrawCall} {a' : Nat} {s3 : Screen} (e1 : s.draw = .ok (calls, a, s1))
    (e2 : runAll cs s1 = .ok s2) (e3 : s2.draw = .ok (calls', a', s3)) (hp : s2.view.sbPos = none) :
    ∀ c ∈ calls, ∀ c' ∈ calls', c'.x = c.x → c'.y = c.y → ¬ sameLook c c' → c'.age = 0 ∨ a < c'.age := by
  refine tracks_core (d := true) hr hv ?_ e1 e2 e3 (fun _ => Or.inr hp)
  intro c hc
  have h4 := hd c hc
  have h5 := hu c hc
  cases c with
  | draw => exact absurd rfl h4
  | resize x y => exact absurd rfl (h5 x y)
  | _ => rfl

/-! ### Witnesses -/

/-- A position where the claim fails for a given history. -/
def missed (s : Screen) (cs : List Call) : Bool :=
  match s.draw with
  | .ok (calls, a, s1) =>
    match runAll cs s1 with
    | .ok s2 =>
      match s2.draw with
      | .ok (calls', _, _) => calls.any fun c => calls'.any fun c' =>
          decide (c'.x = c.x) && decide (c'.y = c.y) && !decide (sameLook c c') &&
            !decide (c'.age = 0) && !decide (a < c'.age)
      | _ => false
    | _ => false
  | _ => false

theorem not_tracks {s : Screen} {cs : List Call} (h : missed s cs = true) : ¬ Tracks s cs := by
  intro ht
  unfold missed at h
  split at h
  · rename_i calls a s1 e1
    split at h
    · rename_i s2 e2
      split at h
      · rename_i calls' a' s3 e3
        rw [List.any_eq_true] at h
        obtain ⟨c, hc, h⟩ := h
        rw [List.any_eq_true] at h
        obtain ⟨c', hc', h⟩ := h
        simp only [Bool.and_eq_true, Bool.not_eq_true', decide_eq_true_iff, decide_eq_false_iff_not] at h
        obtain ⟨⟨⟨⟨h1, h2⟩, h3⟩, h4⟩, h5⟩ := h
        rcases ht calls a s1 s2 calls' a' s3 e1 e2 e3 c hc c' hc' h1 h2 h3 with h6 | h6
        · exact h4 h6
        · exact h5 h6
      · cases h
    · cases h
  · cases h

/-- **C28 is false** for `set_def_attr`: the part of the view beyond the end of a
scrollback line is drawn with the default attributes, and changing these marks
nothing. -/
theorem C28_false_def_attr : ¬ C28_claim := by
  intro h
  obtain ⟨s, hr, hm⟩ := exists_of_holds (P := fun s => missed s [.setDefAttr { Attr.zero with bold := true }])
    (cs := [.resize 80 1, .setMaxSb 5, .write 65 Attr.zero, .newline, .resize 81 1, .sbUp 1])
    (by decide +kernel)
  exact not_tracks hm (h s hr _ (by decide) (by decide))

/-- **C28 is false** for `resize`: after a character in the last column the cursor
is shown there; on a wider screen it is shown one column further right, and the
column it leaves is not marked. -/
theorem C28_false_resize : ¬ C28_claim := by
  intro h
  obtain ⟨s, hr, hm⟩ := exists_of_holds (P := fun s => missed s [.resize 4 2])
    (cs := [.resize 3 2] ++ text [65, 66, 67]) (by decide +kernel)
  exact not_tracks hm (h s hr _ (by decide) (by decide))

/-! ### Example

A write and a cursor movement between two drawings: of the six cells two change,
and these have an age above that of the first drawing. -/

example : ∃ s, Reachable s ∧
    (let cs : List Call := [.write 65 Attr.zero, .moveTo 0 1]
     cs.all (fun c => decide c.Valid) && cs.all (fun c => decide (c ≠ .draw)) &&
     cs.all (fun c => !untracked c) &&
     match s.draw, runAll cs s with
     | .ok (calls, a, _), .ok s2 =>
       match s2.draw with
       | .ok (calls', _, _) =>
         decide (((calls.zip calls').map fun p => decide (sameLook p.1 p.2)) =
           [false, true, true, false, true, true]) &&
         decide ((calls'.map fun c => decide (a < c.age)) = [true, true, false, true, false, false])
       | _ => false
     | _, _ => false) = true :=
  exists_of_holds (cs := [.resize 3 2, .draw]) (by decide +kernel)

/-! The scrollback line shown is narrower than the screen; after changing the default
attributes and moving the cursor, the cell beyond its end has an age above that of the first
drawing. -/

example : ∃ s, Reachable s ∧
    (let cs : List Call := [.setDefAttr { Attr.zero with bold := true }, .moveTo 5 0]
     cs.all (fun c => decide c.Valid) && cs.all (fun c => decide (c ≠ .draw)) &&
     match s.draw, runAll cs s with
     | .ok (calls, a, _), .ok s2 =>
       match s2.draw with
       | .ok (calls', a', _) =>
         decide (a' ≠ a) && (calls.zip calls').any fun p =>
           decide (p.1.x = 80) && !decide (sameLook p.1 p.2) && decide (a < p.2.age)
       | _ => false
     | _, _ => false) = true :=
  exists_of_holds
    (cs := [.resize 80 1, .setMaxSb 5, .write 65 Attr.zero, .newline, .resize 81 1, .sbUp 1, .draw]) (by decide +kernel)

/-! With the live screen shown: the default attributes are changed and a row is erased with them. -/

example : ∃ s, Reachable s ∧
    (let cs : List Call := [.setDefAttr { Attr.zero with bold := true }, .eraseCurrentLine false]
     cs.all (fun c => decide c.Valid) && cs.all (fun c => decide (c ≠ .draw)) &&
     match s.draw, runAll cs s with
     | .ok (calls, a, _), .ok s2 =>
       match s2.draw with
       | .ok (calls', _, _) =>
         decide (s2.view.sbPos = none) && decide (((calls.zip calls').map fun p => decide (sameLook p.1 p.2)) =
           [false, false, false, true, true, true]) &&
         decide ((calls'.map fun c => decide (a < c.age)) = [true, true, true, true, true, true])
       | _ => false
     | _, _ => false) = true :=
  exists_of_holds (cs := [.resize 3 2, .draw]) (by decide +kernel)

end Verif.Props.Screen
