import Verif.Proofs.Life.Owned
import Verif.Props.Screen.Memory

/-!
# Lifetimes of screens and terminals

C82: a program that uses an object only while it holds a reference never touches freed memory, and leaves no memory
behind when it has dropped all references.
-/

namespace Verif.Props.Vte

open Verif Verif.Life

/-- **C82.** Whatever the allocator does and whichever allocations fail: a program that references, releases and uses
screens and terminals only while it holds a reference to them never uses freed memory and frees nothing twice. In
particular it may drop its references to a screen before those to its terminals, in any order. -/
theorem C82_safe (al : Allocator) (allocOk : Nat → Bool) {cs : List Life.Call} {b : Book} (hb : book cs = some b)
    (hn : cs.length < 2 ^ 64) : ∃ s, Life.history al allocOk cs = .ok s := by
  obtain ⟨s, _, _, e, _⟩ := (Inv.start al allocOk).steps (by omega) hb
  exact ⟨s, e⟩

/-- **C82.** While the program holds a reference to a terminal, the terminal exists, its counter is the number of
references held, and so does its screen, even if the program has dropped all references to the screen itself. -/
theorem C82_vte (al : Allocator) (allocOk : Nat → Bool) {cs : List Life.Call} {b : Book} (hb : book cs = some b)
    (hn : cs.length < 2 ^ 64) {s : State} (hs : Life.history al allocOk cs = .ok s) {i j h v : Nat}
    (hj : s.vtes[j]? = some (some v)) (hh : b.vte[j]? = some (i, h)) (h0 : 0 < h) :
    ∃ c r t m nm cu pal, s.scrs[i]? = some (some c) ∧ v ∈ s.w.live ∧ s.w.obj v = .vte ⟨h, c, m, nm, cu, pal⟩ ∧
      c ∈ s.w.live ∧ s.w.obj c = .scr r (some t) ∧ (pal = none ∨ pal = cu) := by
  obtain ⟨s', S, V, e, I⟩ := (Inv.start al allocOk).steps (cs := cs) (by omega) hb
  cases hs.symm.trans e
  obtain ⟨ev, x, hV, hx, rfl, hc, hr, hok⟩ := I.needV hj hh h0
  obtain ⟨es, r, n, hS, hre, hra, hea, _⟩ := I.conOf hV hx
  have o1 := I.objV hV hx (x.a, x.obj) (by simp [VRec.cells])
  have o2 := I.objS hS hre (r.a, .scr r.ref (some r.t)) (by simp [SRec.cells])
  refine ⟨x.con, r.ref, r.t, some x.mach, x.name.map (·.1), x.custom, x.pal, ?_, o1.1, ?_, by rw [← hra]; exact o2.1, by rw [← hra]; exact o2.2, ?_⟩
  · rw [hc] at hS
    rw [I.scrs, List.getElem?_map, hS, ← hra, ← hea]; rfl
  · rw [o1.2, VRec.obj, hr]
  · show x.pal = none ∨ x.pal = x.custom
    cases hp : x.pal with
    | none => exact .inl rfl
    | some c => exact .inr (hok c hp).symm

/-- **C82.** A screen exists as long as the program holds a reference to it or a terminal uses it, and its counter is
the number of these references and terminals. -/
theorem C82_screen (al : Allocator) (allocOk : Nat → Bool) {cs : List Life.Call} {b : Book} (hb : book cs = some b)
    (hn : cs.length < 2 ^ 64) {s : State} (hs : Life.history al allocOk cs = .ok s) {i a : Nat}
    (hi : s.scrs[i]? = some (some a)) (hneed : NeedScr s b i) :
    ∃ h t, b.scr[i]? = some h ∧ a ∈ s.w.live ∧ s.w.obj a = .scr (h + terminals s b i) (some t) := by
  obtain ⟨s', S, V, e, I⟩ := (Inv.start al allocOk).steps (cs := cs) (by omega) hb
  cases hs.symm.trans e
  obtain ⟨es, r, hS, hre, rfl, hrr⟩ := I.needS hi hneed
  have o := I.objS hS hre (r.a, .scr r.ref (some r.t)) (by simp [SRec.cells])
  exact ⟨es.held, r.t, by rw [I.bscr, List.getElem?_map, hS]; rfl, o.1, by rw [o.2, hrr, I.terminals]⟩

/-- **C82.** At every moment exactly the memory of the objects that must exist is allocated: nothing is freed too
early, and nothing leaks, not even when an allocation fails half-way through a creation. -/
theorem C82_no_leak (al : Allocator) (allocOk : Nat → Bool) {cs : List Life.Call} {b : Book} (hb : book cs = some b)
    (hn : cs.length < 2 ^ 64) {s : State} (hs : Life.history al allocOk cs = .ok s) (a : Nat) :
    a ∈ s.w.live ↔ Owned s b a := by
  obtain ⟨s', S, V, e, I⟩ := (Inv.start al allocOk).steps (cs := cs) (by omega) hb
  cases hs.symm.trans e
  exact ⟨I.owned, I.live⟩

/-- **C82.** When the program has dropped all its references, everything has been freed. -/
theorem C82_released (al : Allocator) (allocOk : Nat → Bool) {cs : List Life.Call} {b : Book} (hb : book cs = some b)
    (hn : cs.length < 2 ^ 64) {s : State} (hs : Life.history al allocOk cs = .ok s)
    (h1 : ∀ h ∈ b.scr, h = 0) (h2 : ∀ x ∈ b.vte, x.2 = 0) : s.w.live = [] := by
  have no : ∀ a, ¬ Owned s b a := by
    intro a h
    induction h with
    | scr hneed _ =>
      rcases hneed with ⟨h, e, hp⟩ | ⟨j, v, h, _, e, hp⟩
      · have := h1 h (List.mem_of_getElem? e); omega
      · have : h = 0 := h2 _ (List.mem_of_getElem? e); omega
    | vte hneed _ =>
      obtain ⟨i, h, e, hp⟩ := hneed
      have : h = 0 := h2 _ (List.mem_of_getElem? e); omega
    | _ => assumption
  cases hl : s.w.live with
  | nil => rfl
  | cons a l => exact absurd ((C82_no_leak al allocOk hb hn hs a).mp (by rw [hl]; exact List.mem_cons_self ..)) (no a)

/-- A program that releases its screen first and goes on using two terminals on it, one with a custom palette. -/
def exLife : List Life.Call :=
  [.screenNew, .vteNew 0, .vteNew 0, .screenUnref 0, .vteUse 0, .setCustomPalette 1 true, .setPalette 1 (some true),
    .vteUse 1, .vteRef 1, .vteUnref 0, .setCustomPalette 1 true, .vteUnref 1, .screenNew, .vteUse 1]

example : book exLife = some ⟨[0, 1], [(0, 0), (0, 1)]⟩ := by decide

/-- At its end two screens, a terminal, its decoder, its palette and the palette's name are allocated. -/
example : (Life.history Screen.topAllocator (fun _ => true) exLife).map (fun s => (s.w.live.length, s.scrs, s.vtes)) =
    .ok (12, [some 1, some 12], [some 5, some 7]) := by decide +kernel

/-- The same with the fifth allocation failing: the first terminal cannot be created. -/
example : (Life.history Screen.topAllocator (fun n => decide (n ≠ 5)) exLife).map (fun s => (s.w.live.length, s.vtes)) =
    .ok (12, [none, some 5]) := by decide +kernel

/-- The rules are needed: releasing a screen twice, or using it afterwards, is undefined behaviour. -/
example : (Life.history Screen.topAllocator (fun _ => true) [.screenNew, .screenUnref 0, .screenUnref 0]).map
    (fun s => s.scrs) = .error .dangling := by decide +kernel

example : (Life.history Screen.topAllocator (fun _ => true) [.screenNew, .vteNew 0, .vteUnref 0, .vteUse 0]).map
    (fun s => s.scrs) = .error .dangling := by decide +kernel

end Verif.Props.Vte
