import Verif.Proofs.Shared.Ring

/-!
# The ring buffer is a queue

C61: any interleaving of `push`, `pull`, `flush`, `clear` with the observers `peek`,
`copy` and `get_size` behaves like a queue of bytes.
-/

namespace Verif.Props.Ring

open Verif Verif.Ring

/-- Operations on a ring; `mem` tells whether memory is available if `push` needs it. -/
inductive Op where
  | push (d : List UInt8) (mem : Bool)
  | pull (n : Nat)
  | flush
  | clear
  deriving DecidableEq

/-- One operation of the code; the result is `false` iff it reports -ENOMEM. -/
def step (r : Ring) : Op → R (Ring × Bool)
  | .push d mem => r.push d mem
  | .pull n => .ok (r.pull n, true)
  | .flush => .ok (r.flush, true)
  | .clear => .ok (r.clear, true)

/-- A history, with the results of all operations. -/
def run (r : Ring) : List Op → R (Ring × List Bool)
  | [] => .ok (r, [])
  | o :: os => do
    let (r, b) ← step r o
    let (r, bs) ← run r os
    pure (r, b :: bs)

/-- What an operation does to the queue, given its result. -/
def queueStep (q : List UInt8) : Op → Bool → List UInt8
  | .push d _, true => q ++ d
  | .push _ _, false => q
  | .pull n, _ => q.drop n
  | .flush, _ => []
  | .clear, _ => []

/-- What a history does to the queue, given the results of its operations. -/
def queueRun (q : List UInt8) : List Op → List Bool → List UInt8
  | o :: os, b :: bs => queueRun (queueStep q o b) os bs
  | _, _ => q

/-- Number of bytes pushed in a history. -/
def pushed : List Op → Nat
  | [] => 0
  | .push d _ :: os => d.length + pushed os
  | _ :: os => pushed os

/-- A result of an operation is allowed: only a push without memory fails. -/
def Fair : Op → Bool → Prop
  | .push _ mem, b => mem = true → b = true
  | _, b => b = true

theorem step_rep {r : Ring} {q : List UInt8} (h : Rep r q) (o : Op)
    (hb : q.length + pushed [o] ≤ 2 ^ 63) :
    ∃ r' b, step r o = .ok (r', b) ∧ Rep r' (queueStep q o b) ∧ Fair o b := by
  cases o with
  | push d mem =>
    rcases push_rep h d mem (by
      rw [show 9223372036854775808 = 2 ^ 63 by decide]; simpa [pushed] using hb) with
      ⟨r', h1, h2⟩ | ⟨h1, h2, h3⟩
    · exact ⟨r', true, h1, h2, fun _ => rfl⟩
    · exact ⟨r, false, h3, h, fun hm => by rw [h1] at hm; cases hm⟩
  | pull n => exact ⟨_, true, rfl, pull_rep h n, rfl⟩
  | flush =>
    refine ⟨_, true, rfl, ⟨rfl, h.len, ?_, Nat.zero_le _, fun i hi => by cases hi⟩, rfl⟩
    rcases h.shape with ⟨h1, _⟩ | ⟨k, h1, h2, h3⟩
    · exact Or.inl ⟨h1, rfl⟩
    · exact Or.inr ⟨k, h1, h2, Nat.lt_of_le_of_lt (Nat.zero_le _) h3⟩
  | clear => exact ⟨_, true, rfl, rep_empty, rfl⟩

theorem queueStep_length (q : List UInt8) (o : Op) (b : Bool) :
    (queueStep q o b).length ≤ q.length + pushed [o] := by
  cases o with
  | push d mem => cases b <;> simp [queueStep, pushed]
  | pull n => simp [queueStep, pushed]
  | flush => simp [queueStep]
  | clear => simp [queueStep]

theorem pushed_cons (o : Op) (os : List Op) : pushed (o :: os) = pushed [o] + pushed os := by
  cases o <;> simp [pushed]

theorem run_rep (os : List Op) : ∀ {r : Ring} {q : List UInt8}, Rep r q →
    q.length + pushed os ≤ 2 ^ 63 →
    ∃ r' bs, run r os = .ok (r', bs) ∧ Rep r' (queueRun q os bs) ∧
      bs.length = os.length ∧ ∀ p ∈ os.zip bs, Fair p.1 p.2 := by
  induction os with
  | nil => intro r q h _; exact ⟨r, [], rfl, h, rfl, by simp⟩
  | cons o os ih =>
    intro r q h hb
    rw [pushed_cons] at hb
    obtain ⟨r1, b, h1, h2, h3⟩ := step_rep h o (by omega)
    have hl := queueStep_length q o b
    obtain ⟨r2, bs, h4, h5, h6, h7⟩ := ih h2 (by omega)
    refine ⟨r2, b :: bs, ?_, h5, by simp [h6], ?_⟩
    · unfold run
      rw [h1]
      show (run r1 os >>= _) = _
      rw [h4]
      rfl
    · intro p hp
      rw [List.zip_cons_cons] at hp
      rcases List.mem_cons.mp hp with rfl | hp
      · exact h3
      · exact h7 p hp

/-- **C61.** For every history on a new ring in which at most `2^63` bytes are pushed
(more cannot exist): no memory error happens, a push fails only without memory, and
the ring holds exactly the queue that results from the successful operations. This
is what the vectors of `peek` give (no byte is uninitialised), of which `copy`
returns the first bytes, and whose length `get_size` reports. -/
theorem C61_queue (os : List Op) (hb : pushed os ≤ 2 ^ 63) :
    ∃ r bs, run empty os = .ok (r, bs) ∧ bs.length = os.length ∧ (∀ p ∈ os.zip bs, Fair p.1 p.2) ∧
      let q := queueRun [] os bs
      gather r (peek r) = .ok (q.map some) ∧ (∀ n, copy r n = .ok ((q.take n).map some)) ∧
      getSize r = q.length ∧ (peek r).length ≤ 2 := by
  obtain ⟨r, bs, h1, h2, h3, h4⟩ := run_rep os rep_empty (by simpa using hb)
  refine ⟨r, bs, h1, h3, h4, gather_rep h2, copy_rep h2, h2.used, ?_⟩
  unfold peek
  repeat' split
  all_goals simp

/-- **C61.** A push that reports failure changes nothing at all. -/
theorem C61_failed_push {os : List Op} (hb : pushed os ≤ 2 ^ 63) {r r' : Ring} {bs : List Bool}
    (hr : run empty os = .ok (r, bs)) {d : List UInt8} (hd : pushed os + d.length ≤ 2 ^ 63)
    {mem : Bool} (hf : r.push d mem = .ok (r', false)) : r' = r := by
  obtain ⟨r1, bs1, h1, h2, _, _⟩ := run_rep os rep_empty (by simpa using hb)
  rw [hr] at h1
  injection h1 with h1
  injection h1 with h1 h1'
  subst h1 h1'
  have hq : (queueRun [] os bs).length ≤ pushed os := by
    have : ∀ (os : List Op) (q : List UInt8) (bs : List Bool),
        (queueRun q os bs).length ≤ q.length + pushed os := by
      intro os
      induction os with
      | nil => intro q bs; simp [queueRun, pushed]
      | cons o os ih =>
        intro q bs
        cases bs with
        | nil => simp [queueRun]
        | cons b bs =>
          have := ih (queueStep q o b) bs
          have := queueStep_length q o b
          rw [pushed_cons]
          simp only [queueRun]
          omega
    simpa using this os [] bs
  rcases push_rep h2 d mem (by
      rw [show 9223372036854775808 = 2 ^ 63 by decide]; omega) with ⟨r2, h3, _⟩ | ⟨_, _, h3⟩
  · rw [h3] at hf; injection hf with hf; injection hf with _ hf; cases hf
  · rw [h3] at hf; injection hf with hf; injection hf with hf _; exact hf.symm

/-! A history with a failed push and a pull of more than there is. (Wrap-around needs
thousands of bytes; it is covered by the theorem, and too large for an example
evaluated by the kernel; the next one shows it on a ring of eight bytes.) -/

example : (match run empty [.push [1, 2] false, .push [1, 2, 3] true, .pull 1, .push [4] false,
      .push [] false, .pull 2, .push [5] true] with
    | .ok (r, bs) => decide (bs = [false, true, true, true, true, true, true] ∧
        gather r (peek r) = .ok [some 4, some 5])
    | .error _ => false) = true := by decide +kernel

example : let r : Ring := ⟨(List.range 8).map (fun i => some (UInt8.ofNat i)), 8, 6, 1⟩
    Rep r [6] ∧ ∃ r', push r [10, 11, 12] false = .ok (r', true) ∧
      r'.buf = [some 11, some 12, some 2, some 3, some 4, some 5, some 6, some 10] ∧
      peek r' = [(6, 2), (0, 2)] := by
  refine ⟨⟨rfl, rfl, Or.inr ⟨3, by decide, rfl, by decide⟩, by decide, ?_⟩, _, rfl, rfl, rfl⟩
  intro i hi
  have : i = 0 := by simpa using hi
  subst this; rfl

end Verif.Props.Ring
