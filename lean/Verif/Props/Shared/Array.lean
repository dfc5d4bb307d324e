import Verif.Proofs.Shared.Array

/-!
# The dynamic array

C63: the array behaves like a list.
-/

namespace Verif.Props.Arr

open Verif Verif.Arr

/-- Operations; `mem` tells whether memory is available. -/
inductive Op (α : Type) where
  | push (x : α) (mem : Bool)
  | pop
  | zresize (n : Nat) (mem : Bool)

variable {α : Type}

/-- One operation of the code; the result is `false` iff it reports -ENOMEM. -/
def step (zero : α) (a : Arr α) : Op α → R (Arr α × Bool)
  | .push x mem => a.push x mem
  | .pop => .ok (a.pop, true)
  | .zresize n mem => a.zresize zero n mem

/-- What a user can see of the array: its length, and the elements up to there. `none`
stands for an element that was never written. -/
def Observed (a : Arr α) (xs : List (Option α)) : Prop :=
  a.getLength = xs.length ∧ a.getBsize = (xs.length * a.elementSize) % 2 ^ 64 ∧
  ∀ i x, xs[i]? = some x → a.at_ i = .ok x

/-- What an operation with result `b` may do to the list. With `strict`, elements added by
`zresize` must be zero. A failure needs a lack of memory or an array of `2^63` bytes. -/
def Allowed (strict : Prop) (zero : α) (esz : Nat) (xs : List (Option α)) :
    Op α → Bool → List (Option α) → Prop
  | .push x _, true, ys => ys = xs ++ [some x]
  | .push _ mem, false, ys => ys = xs ∧ (mem = true → 2 ^ 63 ≤ 2 * (esz * xs.length))
  | .pop, b, ys => b = true ∧ ys = xs.dropLast
  | .zresize n _, true, ys => ys.length = n ∧ ys.take xs.length = xs.take n ∧
      (strict → ∀ i, xs.length ≤ i → i < n → ys[i]? = some (some zero))
  | .zresize n mem, false, ys => ys = xs ∧ (mem = true → 2 ^ 63 ≤ 2 * (esz * n))

/-- The array behaves like the list `xs`, now and during the history. -/
def Behaves (strict : Prop) (zero : α) (a : Arr α) (xs : List (Option α)) : List (Op α) → Prop
  | [] => Observed a xs
  | o :: os => Observed a xs ∧ ∃ a' b ys, step zero a o = .ok (a', b) ∧
      Allowed strict zero a.elementSize xs o b ys ∧ Behaves strict zero a' ys os

/-- Resizes for which `2 * element_size * n` does not overflow. -/
def Valid (esz : Nat) : Op α → Prop
  | .zresize n _ => 2 * (esz * n) < 2 ^ 64
  | _ => True

theorem observed {a : Arr α} (h : Ok a) : Observed a a.contents := by
  refine ⟨(contents_length h).symm, ?_, ?_⟩
  · rw [contents_length h]; rfl
  · intro i x hx
    unfold at_
    unfold contents at hx
    rw [List.getElem?_take] at hx
    split at hx
    · rw [hx]
    · cases hx

theorem behaves {zero : α} (os : List (Op α)) : ∀ {a : Arr α}, Ok a →
    (∀ o ∈ os, Valid a.elementSize o) → Behaves False zero a a.contents os := by
  induction os with
  | nil => intro a h _; exact observed h
  | cons o os ih =>
    intro a h hv
    have hv1 := hv o (List.mem_cons_self ..)
    have hv2 : ∀ o ∈ os, Valid a.elementSize o := fun o ho => hv o (List.mem_cons_of_mem _ ho)
    have hcl := contents_length h
    refine ⟨observed h, ?_⟩
    cases o with
    | push x mem =>
      rcases push_ok h x mem with ⟨a', h1, h2, h3, h4⟩ | ⟨h1, h2⟩
      · exact ⟨a', true, a'.contents, h1, h3, ih h2 (by rw [h4]; exact hv2)⟩
      · refine ⟨a, false, a.contents, h2, ⟨rfl, ?_⟩, ih h hv2⟩
        intro hm
        rcases h1 with h1 | h1
        · rw [hm] at h1; cases h1
        · rw [hcl]; simpa using h1
    | pop =>
      obtain ⟨h1, h2, h3⟩ := pop_ok h
      exact ⟨a.pop, true, a.pop.contents, rfl, ⟨rfl, h2⟩, ih h1 (by rw [h3]; exact hv2)⟩
    | zresize n mem =>
      rcases zresize_ok (zero := zero) h (n := n) mem (by simpa [Valid] using hv1) with
        ⟨a', h1, h2, h3, h4, h5, h6, h7⟩ | ⟨h1, h2⟩
      · refine ⟨a', true, a'.contents, h1, ⟨?_, ?_, False.elim⟩, ih h2 (by rw [h4]; exact hv2)⟩
        · rw [contents_length h2, h3]
        · rw [hcl]
          rcases Nat.le_total n a.length with hn | hn
          · rw [h5 hn, List.take_take, Nat.min_eq_right hn]
          · rw [h7 hn, List.take_of_length_le (by omega)]
      · refine ⟨a, false, a.contents, h2, ⟨rfl, ?_⟩, ih h hv2⟩
        intro hm
        rcases h1 with h1 | h1
        · rw [hm] at h1; cases h1
        · simpa using h1

/-- The claim as stated, including that elements added by `zresize` are zero. -/
def C63_claim : Prop :=
  ∀ (esz initial : Nat) (mem : Bool) (a : Arr Nat) (os : List (Op Nat)), 0 < esz →
    esz * (initial + 4) < 2 ^ 64 → Arr.new esz initial mem = some a → (∀ o ∈ os, Valid esz o) →
    Behaves True 0 a [] os

/-- **C63** (partial: the full statement is `C63_claim`, which is false; missing is that
elements added by `zresize` are zero if the capacity suffices). The array behaves like
a list, for every history without overflow of sizes: all accesses are in bounds, a failed
operation changes nothing, and failure needs a lack of memory. -/
theorem C63_list_partial {zero : α} {esz initial : Nat} {mem : Bool} {a : Arr α} {os : List (Op α)}
    (he : 0 < esz) (hb : esz * (initial + 4) < 2 ^ 64) (hn : Arr.new esz initial mem = some a)
    (hv : ∀ o ∈ os, Valid esz o) : Behaves False zero a [] os := by
  obtain ⟨h1, h2, h3⟩ := new_ok he (by simpa using hb) hn
  rw [← h2]
  exact behaves os h1 (by rw [h3]; exact hv)

/-- **C63** (partial). Elements added by `zresize` are zero if the new length is larger than
every earlier length and capacity, in particular larger than the current capacity. -/
theorem C63_zeroed_partial {zero : α} {a : Arr α} (h : Ok a) {n : Nat} {mem : Bool} {a' : Arr α}
    (hv : 2 * (a.elementSize * n) < 2 ^ 64) (hn : a.size < n)
    (hz : a.zresize zero n mem = .ok (a', true)) :
    ∃ xs, Observed a xs ∧ Observed a' (xs ++ List.replicate (n - xs.length) (some zero)) := by
  refine ⟨a.contents, observed h, ?_⟩
  rcases zresize_ok (zero := zero) h (n := n) mem (by simpa using hv) with
    ⟨b, h1, h2, _, _, _, h6, _⟩ | ⟨_, h2⟩
  · rw [h1] at hz
    injection hz with hz
    injection hz with hz _
    subst hz
    rw [contents_length h, ← h6 hn]
    exact observed h2
  · rw [h2] at hz
    injection hz with hz
    injection hz with _ hz
    cases hz

/-- **C63 is false**: an element that was popped is back after `zresize`. -/
theorem C63_false_zresize : ¬ C63_claim := by
  intro h
  have := h 4 0 true _ [.push 7 true, .pop, .zresize 1 true] (by decide) (by decide) rfl
    (by intro o ho; simp at ho; rcases ho with rfl | rfl | rfl <;> simp [Valid])
  obtain ⟨_, a1, b1, y1, e1, l1, _, a2, b2, y2, e2, l2, _, a3, b3, y3, e3, l3, ob⟩ := this
  injection e1 with e1
  injection e1 with e1 e1'
  subst e1 e1'
  injection e2 with e2
  injection e2 with e2 e2'
  subst e2 e2'
  injection e3 with e3
  injection e3 with e3 e3'
  subst e3 e3'
  have hy1 : y1 = [some 7] := l1
  subst hy1
  have hy2 : y2 = [] := l2.2
  subst hy2
  have := ob.2.2 0 (some 0) (l3.2.2 trivial 0 (by decide) (by decide))
  exact absurd this (by decide)

/-! A history with growth by `push` and by `zresize`, and a failed `push`. -/

example : ∃ a : Arr Nat, Arr.new 8 1 true = some a ∧
    (match step 0 a (.push 1 true) with
     | .ok (a, true) => (match step 0 a (.push 2 false) with
       | .ok (a, false) => (match step 0 a (.push 2 true) with
         | .ok (a, true) => (match step 0 a (.zresize 5 true) with
           | .ok (a, true) => decide (a.size = 8 ∧ a.getLength = 5 ∧ a.getBsize = 40 ∧
             (List.range 6).map a.at_ = [.ok (some 1), .ok (some 2), .ok (some 0), .ok (some 0),
               .ok (some 0), .ok none])
           | _ => false)
         | _ => false)
       | _ => false)
     | _ => false) = true := ⟨_, rfl, by decide⟩

end Verif.Props.Arr
