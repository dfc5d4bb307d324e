import Verif.Props.Shared.Htable
import Verif.Model.Shared.Strtab
import Verif.Spec.Strings

/-!
# Tables of strings

C105: a table of strings finds elements by their text, whatever the hash values and however the caller keeps them.
-/

namespace Verif.Props.Strtab

open Verif Verif.Strtab Verif.StrBag

/-- One call of the code. -/
def step (sg : Bool) (text : Word → List UInt8) (s : State) : Op → R (State × Out)
  | .insert p v mem => do let (s, b) ← insertStr sg text s p v mem; pure (s, .done b)
  | .lookup str v => do let (s, c) ← lookupStr sg text s str v; pure (s, .found c)
  | .remove str v => do let (s, c) ← removeStr sg text s str v; pure (s, .found c)
  | .visit => .ok (s, .all s.tab.visit)
  | .clear => .ok ({ s with tab := s.tab.clear }, .all s.tab.visit)
  | .forget v => .ok ({ s with vars := fun i => if i = v then 0 else s.vars i }, .done true)

/-- A history of calls. -/
def run (sg : Bool) (text : Word → List UInt8) (s : State) : List Op → R (State × List Out)
  | [] => .ok (s, [])
  | op :: ops => do
    let (s, o) ← step sg text s op
    let (s, os) ← run sg text s ops
    pure (s, o :: os)

/-- Each variable is zero or has the hash value of the string it was used for. -/
def Cached (sg : Bool) (cur : Nat → Option (List UInt8)) (vars : Nat → Word) : Prop :=
  ∀ v, vars v = 0 ∨ ∃ str, cur v = some str ∧ vars v = djb sg str

theorem insert_eq (hash : Word → Word) (t : HT) (p : Word) (mem : Bool) :
    Strtab.insert hash t p (hash p) mem = t.insert hash p mem := rfl

theorem hashStr_ok {sg : Bool} {cur : Nat → Option (List UInt8)} {vars : Nat → Word} (h : Cached sg cur vars) {str : List UInt8}
    {var : Option Nat} (hv : ∀ v, var = some v → cur v = none ∨ cur v = some str) :
    (hashStr sg vars str var).1 = djb sg str ∧
      Cached sg (fun i => if var = some i then some str else cur i) (hashStr sg vars str var).2 := by
  cases var with
  | none => exact ⟨rfl, fun v => by simpa [hashStr] using h v⟩
  | some v =>
    have key : vars v ≠ 0 → vars v = djb sg str := by
      intro h0
      rcases h v with h1 | ⟨s', h1, h2⟩
      · exact absurd h1 h0
      · rcases hv v rfl with h3 | h3
        · rw [h3] at h1; cases h1
        · rw [h3] at h1; injection h1 with h1; rw [h2, h1]
    by_cases h0 : vars v ≠ 0
    · simp only [hashStr, if_pos h0]
      refine ⟨key h0, fun i => ?_⟩
      by_cases hi : v = i
      · subst hi
        exact .inr ⟨str, if_pos rfl, key h0⟩
      · have : ¬ (some v = some i) := fun e => hi (Option.some.inj e)
        simpa [this] using h i
    · simp only [hashStr, if_neg h0]
      refine ⟨trivial, fun i => ?_⟩
      by_cases hi : v = i
      · subst hi
        exact .inr ⟨str, if_pos rfl, if_pos rfl⟩
      · have h1 : ¬ (some v = some i) := fun e => hi (Option.some.inj e)
        have h2 : ¬ (i = v) := fun e => hi e.symm
        simpa [h1, h2] using h i

/-- The call of the table below. -/
def lower (sg : Bool) (text : Word → List UInt8) : Op → Option Bag.Op
  | .insert p _ mem => some (.insert p mem)
  | .lookup str _ => some (.lookup (fun q => decide (str = text q)) (djb sg str))
  | .remove str _ => some (.remove (fun q => decide (str = text q)) (djb sg str))
  | .visit => some .visit
  | .clear => some .clear
  | .forget _ => none

/-- Its answer. -/
def raise : Bag.Out → Out
  | .done b => .done b
  | .found c => .found c
  | .all l => .all l

theorem lower_fits {U : Word → Prop} {sg : Bool} {text : Word → List UInt8} {op : Op} (hU : ∀ p v m, op = .insert p v m → U p)
    {b : Bag.Op} (h : lower sg text op = some b) : Bag.Fits U (fun q => djb sg (text q)) b := by
  cases op <;> simp only [lower] at h <;> first | (injection h with h; subst h) | cases h
  · exact hU _ _ _ rfl
  · intro q _ hq
    rw [of_decide_eq_true hq]
  · intro q _ hq
    rw [of_decide_eq_true hq]
  · trivial
  · trivial

theorem lower_step {sg : Bool} {text : Word → List UInt8} {op : Op} {b : Bag.Op} (h : lower sg text op = some b) {M M' : List Word}
    {o : Bag.Out} (hs : Bag.Step M b o M') : Step text M op (raise o) M' := by
  cases op <;> simp only [lower] at h <;> first | (injection h with h; subst h) | cases h
  · rcases hs with ⟨rfl, h⟩ | ⟨rfl, h⟩
    · exact .inl ⟨rfl, h⟩
    · exact .inr ⟨rfl, h⟩
  · obtain ⟨h1, h2⟩ := hs
    refine ⟨h1, ?_⟩
    rcases h2 with ⟨rfl, h2⟩ | ⟨c, rfl, h2, h3⟩
    · exact .inl ⟨rfl, fun q hq e => absurd (h2 q hq) (by simp [e])⟩
    · exact .inr ⟨c, rfl, h2, (of_decide_eq_true h3).symm⟩
  · rcases hs with ⟨rfl, h1, h2⟩ | ⟨c, rfl, h2, h3⟩
    · exact .inl ⟨rfl, h1, fun q hq e => absurd (h2 q hq) (by simp [e])⟩
    · exact .inr ⟨c, rfl, (of_decide_eq_true h2).symm, h3⟩
  · obtain ⟨l, rfl, h⟩ := hs
    exact ⟨l, rfl, h⟩
  · obtain ⟨l, rfl, h⟩ := hs
    exact ⟨l, rfl, h⟩

/-- The variables after a call. -/
def after (text : Word → List UInt8) (cur : Nat → Option (List UInt8)) (op : Op) : Nat → Option (List UInt8) :=
  match op with
  | .forget v => fun i => if i = v then none else cur i
  | op =>
    match use text op with
    | none => cur
    | some (v, str) => fun i => if i = v then some str else cur i

theorem oneString_cons {text : Word → List UInt8} {cur : Nat → Option (List UInt8)} {op : Op} {ops : List Op}
    (h : OneString text cur (op :: ops)) :
    (∀ v str, use text op = some (v, str) → cur v = none ∨ cur v = some str) ∧ OneString text (after text cur op) ops := by
  have key : ∀ (op : Op), (∀ v, op ≠ .forget v) → (match use text op with
    | none => OneString text cur ops
    | some (v, str) => (cur v = none ∨ cur v = some str) ∧ OneString text (fun i => if i = v then some str else cur i) ops) →
      (∀ v str, use text op = some (v, str) → cur v = none ∨ cur v = some str) ∧ OneString text (match use text op with
    | none => cur
    | some (v, str) => fun i => if i = v then some str else cur i) ops := by
    intro op _ h
    cases hu : use text op with
    | none =>
      rw [hu] at h
      exact ⟨fun _ _ e => (nomatch e), h⟩
    | some r =>
      rw [hu] at h
      refine ⟨fun v str e => ?_, h.2⟩
      injection e with e
      subst e
      exact h.1
  cases op with
  | forget v => exact ⟨fun _ _ e => (nomatch e), h⟩
  | insert p v m => exact key _ (fun _ e => (nomatch e)) h
  | lookup str v => exact key _ (fun _ e => (nomatch e)) h
  | remove str v => exact key _ (fun _ e => (nomatch e)) h
  | visit => exact key _ (fun _ e => (nomatch e)) h
  | clear => exact key _ (fun _ e => (nomatch e)) h

theorem after_var {text : Word → List UInt8} {cur : Nat → Option (List UInt8)} {op : Op} {var : Option Nat} {str : List UInt8}
    (hf : ∀ v, op ≠ .forget v) (h : use text op = var.map fun v => (v, str)) :
    after text cur op = fun i => if var = some i then some str else cur i := by
  have h1 : after text cur op = match use text op with
    | none => cur
    | some (v, str) => fun i => if i = v then some str else cur i := by
    cases op <;> first | rfl | exact absurd rfl (hf _)
  rw [h1, h]
  cases var with
  | none => simp
  | some v =>
    funext i
    by_cases hi : i = v
    · subst hi; simp
    · have : ¬ (v = i) := fun e => hi e.symm
      simp [hi, this]

theorem step_lower {sg : Bool} {text : Word → List UInt8} {cur : Nat → Option (List UInt8)} {s : State} {op : Op}
    (hc : Cached sg cur s.vars) (ho : ∀ v str, use text op = some (v, str) → cur v = none ∨ cur v = some str) {b : Bag.Op}
    (hb : lower sg text op = some b) {u : HT} {o : Bag.Out} (h : Htable.step (fun q => djb sg (text q)) s.tab b = .ok (u, o)) :
    ∃ vars, step sg text s op = .ok (⟨u, vars⟩, raise o) ∧ Cached sg (after text cur op) vars := by
  cases op with
  | insert p v m =>
    injection hb with hb
    subst hb
    obtain ⟨e1, e2⟩ := hashStr_ok (str := text p) (var := v) hc (fun v' e => ho v' _ (by rw [e]; rfl))
    refine ⟨_, ?_, by rw [after_var (op := .insert p v m) (var := v) (str := text p) (fun _ e => (nomatch e)) (by cases v <;> rfl)]; exact e2⟩
    show (insertStr sg text s p v m >>= _) = _
    unfold insertStr
    rw [e1, insert_eq (fun q => djb sg (text q))]
    change (s.tab.insert (fun q => djb sg (text q)) p m >>= _) = _ at h
    cases hi : s.tab.insert (fun q => djb sg (text q)) p m with
    | error x => rw [hi] at h; cases h
    | ok r =>
      rw [hi] at h
      injection h with h
      injection h with h1 h2
      subst h1 h2
      rfl
  | lookup str v =>
    injection hb with hb
    subst hb
    obtain ⟨e1, e2⟩ := hashStr_ok (str := str) (var := v) hc (fun v' e => ho v' _ (by rw [e]; rfl))
    refine ⟨_, ?_, by rw [after_var (op := .lookup str v) (var := v) (str := str) (fun _ e => (nomatch e)) (by cases v <;> rfl)]; exact e2⟩
    show (lookupStr sg text s str v >>= _) = _
    unfold lookupStr
    rw [e1]
    change (s.tab.lookup _ _ >>= _) = _ at h
    cases hi : s.tab.lookup (fun q => decide (str = text q)) (djb sg str) with
    | error x => rw [hi] at h; cases h
    | ok r =>
      rw [hi] at h
      injection h with h
      injection h with h1 h2
      subst h1 h2
      rfl
  | remove str v =>
    injection hb with hb
    subst hb
    obtain ⟨e1, e2⟩ := hashStr_ok (str := str) (var := v) hc (fun v' e => ho v' _ (by rw [e]; rfl))
    refine ⟨_, ?_, by rw [after_var (op := .remove str v) (var := v) (str := str) (fun _ e => (nomatch e)) (by cases v <;> rfl)]; exact e2⟩
    show (removeStr sg text s str v >>= _) = _
    unfold removeStr
    rw [e1]
    change (s.tab.remove _ _ >>= _) = _ at h
    cases hi : s.tab.remove (fun q => decide (str = text q)) (djb sg str) with
    | error x => rw [hi] at h; cases h
    | ok r =>
      rw [hi] at h
      injection h with h
      injection h with h1 h2
      subst h1 h2
      rfl
  | visit =>
    injection hb with hb
    subst hb
    injection h with h
    injection h with h1 h2
    subst h1 h2
    exact ⟨s.vars, rfl, hc⟩
  | clear =>
    injection hb with hb
    subst hb
    injection h with h
    injection h with h1 h2
    subst h1 h2
    exact ⟨s.vars, rfl, hc⟩
  | forget v => cases hb

theorem inserts_lower {sg : Bool} {text : Word → List UInt8} {op : Op} {b : Bag.Op} (h : lower sg text op = some b) (ops : List Op) :
    inserts (op :: ops) = Bag.inserts [b] + inserts ops := by
  cases op <;> simp only [lower] at h <;> first
    | (injection h with h; subst h; simp [inserts, Bag.inserts, Nat.add_comm])
    | cases h

theorem run_strings {U : Word → Prop} (hU : HT.Universe U) {sg : Bool} {text : Word → List UInt8} (ops : List Op) :
    ∀ (s : State) (M : List Word) (cur : Nat → Option (List UInt8)), HT.Inv U (fun q => djb sg (text q)) s.tab →
    Cached sg cur s.vars → (∀ p v m, .insert p v m ∈ ops → U p) → OneString text cur ops →
    s.tab.elems + inserts ops ≤ 3 * 2 ^ 28 → M.Perm s.tab.ptrs →
    ∃ s' os, run sg text s ops = .ok (s', os) ∧ Runs text M ops os := by
  induction ops with
  | nil => intro s M cur _ _ _ _ _ _; exact ⟨s, [], rfl, trivial⟩
  | cons op ops ih =>
    intro s M cur hi hc hf ho hn hM
    obtain ⟨o1, o2⟩ := oneString_cons ho
    have hf' : ∀ p v m, .insert p v m ∈ ops → U p := fun p v m h => hf p v m (List.mem_cons_of_mem _ h)
    cases hb : lower sg text op with
    | none =>
      cases op with
      | forget v =>
        obtain ⟨s', os, g1, g2⟩ := ih { s with vars := fun i => if i = v then 0 else s.vars i } M _ hi (by
          intro i
          by_cases h : i = v
          · exact .inl (if_pos h)
          · have := hc i
            simpa [after, h] using this) hf' o2 hn hM
        refine ⟨s', .done true :: os, ?_, M, ⟨rfl, rfl⟩, g2⟩
        show (run sg text _ ops >>= _) = _
        rw [g1]
        rfl
      | _ => cases hb
    | some b =>
      rw [inserts_lower hb] at hn
      obtain ⟨u, o, h1, h2, h3, h4⟩ := Htable.step_bag hU hi b
        (lower_fits (fun p v m e => hf p v m (by rw [e]; exact List.mem_cons_self)) hb) (by omega) hM
      obtain ⟨vars, k1, k2⟩ := step_lower hc o1 hb h1
      obtain ⟨s', os, g1, g2⟩ := ih ⟨u, vars⟩ u.ptrs _ h2 k2 hf' o2 (by show u.elems + _ ≤ _; omega) (List.Perm.refl _)
      refine ⟨s', raise o :: os, ?_, u.ptrs, lower_step hb h3, g2⟩
      show (step sg text s op >>= _) = _
      rw [k1]
      show (run sg text _ ops >>= _) = _
      rw [g1]
      rfl

/-- **C105.** For every history of at most 3·2^28 inserts, of elements that can be stored together (C64), every text of the
elements, every pattern of failing allocations and every use of variables for hash values in which a variable is used for one
string only: no memory error and no endless loop happens, and the answers are those of a bag that is searched by text. Nothing
depends on whether texts collide, whether variables are used, and whether `char` is signed. -/
theorem C105_strings (U : Word → Prop) (hU : Bag.Storable U) (sg : Bool) (text : Word → List UInt8) (ops : List Op)
    (hf : ∀ p v m, .insert p v m ∈ ops → U p) (ho : OneString text (fun _ => none) ops) (hn : inserts ops ≤ 3 * 2 ^ 28) :
    ∃ s os, run sg text Strtab.init ops = .ok (s, os) ∧ Runs text [] ops os :=
  run_strings (Htable.universe_of hU) ops Strtab.init [] _ (Or.inl rfl) (fun _ => .inl rfl) hf ho (by show 0 + _ ≤ _; omega)
    (List.Perm.refl _)

/-- Two elements with the same text, one with another; the texts `Ab` and `BA` collide; variables 1 and 2 are used for
them, and 1 again for another one after it was set to zero. -/
def text1 : Word → List UInt8 := fun p =>
  if p = 0x5555557a02a0 then [65, 98] else if p = 0x5555557a02c0 then [66, 65] else [65, 98]

def ops1 : List Op := [.insert 0x5555557a02a0 (some 1) true, .lookup [66, 65] (some 2), .insert 0x5555557a02c0 (some 2) true,
  .lookup [66, 65] none, .insert 0x5555557a02e0 (some 1) false, .remove [65, 98] (some 1), .forget 1, .lookup [65, 98] none,
  .lookup [0xc3, 0xa4] (some 1), .visit]

example : djb true [65, 98] = djb true [66, 65] ∧ djb true [0xc3, 0xa4] ≠ djb false [0xc3, 0xa4] := by decide +kernel

example : ∃ s os, run true text1 Strtab.init ops1 = .ok (s, os) ∧ Runs text1 [] ops1 os := by
  refine C105_strings _ (Htable.storable_same_top 46 (by decide)) _ _ _ ?_ ?_ (by decide)
  · intro p v m h
    simp [ops1] at h
    rcases h with ⟨rfl, _⟩ | ⟨rfl, _⟩ | ⟨rfl, _⟩ <;> exact by decide
  · simp [ops1, OneString, use, text1]

/-- A variable that was used for another string must be set to zero first: otherwise a string that is in the table is not
found. -/
theorem C105_reuse : (run true (fun _ => [65]) Strtab.init
    [.insert 0x5555557a02a0 none true, .lookup [66] (some 1), .lookup [65] (some 1), .lookup [65] none]).map Prod.snd =
      .ok [.done true, .found none, .found none, .found (some 0x5555557a02a0)] := by decide +kernel

end Verif.Props.Strtab
