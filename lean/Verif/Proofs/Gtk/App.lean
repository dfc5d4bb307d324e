import Verif.Spec.App
import Verif.Props.Gtk.Settings

/-!
# Lemmas about the command line of gtktsm
-/

namespace Verif.Props.Gtk

open Verif Verif.Gtk

section
variable {mk : Maker} {ink : Ink}

/-- The value of a property after one was set, or not. -/
def optGet (x : Option Setting) (t : Term) (p : Property) : Setting :=
  match x with
  | none => t.get p
  | some s => if p = s.name then s else t.get p

/-- Setting a property, or not: every property afterwards. -/
theorem opt_get {t t' : Term} {x : Option Setting} (hx : ∀ s, x = some s → s.Known) (h : t.opt mk ink x = .ok t') (p : Property) :
    t'.get p = optGet x t p := by
  cases x with
  | none => injection h with h; rw [h]; rfl
  | some s =>
    show _ = if p = s.name then s else t.get p
    split
    · rename_i hp
      subst hp
      exact C111_set_partial (hx s rfl) h
    · rename_i hp
      exact C111_others h hp

theorem opt_live {t t' : Term} {x : Option Setting} (hx : ∀ s, x = some s → s.Typed) (ht : t.Live mk ink)
    (h : t.opt mk ink x = .ok t') : t'.Live mk ink := by
  cases x with
  | none => injection h with h; exact h ▸ ht
  | some s => exact Term.Live.step ht (e := .set s) (hx s rfl) h

theorem opt_works (hk : mk.Fresh) (hm : ∀ d a o, (mk d a o).isSome = true) {t : Term} {x : Option Setting}
    (hx : ∀ s, x = some s → s.Typed ∧ s.Given) (ht : t.Live mk ink) : ∃ t', t.opt mk ink x = .ok t' := by
  cases x with
  | none => exact ⟨t, rfl⟩
  | some s => exact C111_works_partial hk hm ht (hx s rfl).1 (hx s rfl).2

theorem opt_font {t t' : Term} {x : Option Setting} (hx : ∀ s, x = some s → s.Given) (ht : t.font ≠ none)
    (h : t.opt mk ink x = .ok t') : t'.font ≠ none := by
  cases x with
  | none => injection h with h; exact h ▸ ht
  | some s =>
    by_cases hp : Property.font = s.name
    · cases s with
      | font f =>
        have := C111_set_partial (s := .font f) trivial h
        injection this with this
        rw [this]
        exact hx _ rfl
      | _ => cases hp
    · have := C111_others h hp
      injection this with this
      rw [this]
      exact ht

theorem of_map {α : Type} {P : Setting → Prop} {f : α → Setting} {o : Option α} (h : ∀ a, o = some a → P (f a)) :
    ∀ s, o.map f = some s → P s := by
  intro s hs
  cases o with
  | none => cases hs
  | some a => injection hs with hs; exact hs ▸ h a rfl

theorem of_if {P : Setting → Prop} {b : Bool} {x : Setting} (h : P x) : ∀ s, (if b then some x else none) = some s → P s := by
  intro s hs
  cases b with
  | false => cases hs
  | true => injection hs with hs; exact hs ▸ h

theorem badAa_iff {s : String} : badAa s = false ↔ s = "none" ∨ s = "gray" ∨ s = "subpixel" ∨ s = "default" := by
  unfold badAa
  simp only [Bool.and_eq_false_iff, decide_eq_false_iff_not, Decidable.not_not, or_assoc, ne_eq]

theorem badOrder_iff {s : String} :
    badOrder s = false ↔ s = "rgb" ∨ s = "bgr" ∨ s = "vrgb" ∨ s = "vbgr" ∨ s = "default" := by
  unfold badOrder
  simp only [Bool.and_eq_false_iff, decide_eq_false_iff_not, Decidable.not_not, or_assoc, ne_eq]

theorem filter_none {P : String → Bool} {o : Option String} : o.filter P = none ↔ ∀ s, o = some s → P s = false := by
  cases o with
  | none => exact ⟨fun _ _ h => (nomatch h), fun _ => rfl⟩
  | some a =>
    constructor
    · intro h s hs
      injection hs with hs
      subst hs
      cases e : P a with
      | false => rfl
      | true => rw [Option.filter_some, e] at h; cases h
    · intro h
      rw [Option.filter_some, h a rfl]
      rfl

theorem filter_some {P : String → Bool} {o : Option String} {s : String} (h : o.filter P = some s) : o = some s ∧ P s = true := by
  cases o with
  | none => cases h
  | some a =>
    rw [Option.filter_some] at h
    split at h
    · rename_i hp
      injection h with h
      subst h
      exact ⟨rfl, hp⟩
    · cases h

theorem accepted_iff {o : Options} :
    o.Accepted ↔ o.antiAliasing.filter badAa = none ∧ o.subpixelOrder.filter badOrder = none := by
  unfold Options.Accepted
  rw [filter_none, filter_none]
  constructor
  · exact fun h => ⟨fun s hs => badAa_iff.mpr (h.1 s hs), fun s hs => badOrder_iff.mpr (h.2 s hs)⟩
  · exact fun h => ⟨fun s hs => badAa_iff.mp (h.1 s hs), fun s hs => badOrder_iff.mp (h.2 s hs)⟩

theorem fits_typed {o : Options} (h : o.Fits) : ∀ s, (o.sbSize.map fun n => Setting.sbSize (max n 0).toNat) = some s → s.Typed := by
  refine of_map (fun n hn => ?_)
  have := h n hn
  show (max n 0).toNat < 4294967296
  omega

theorem prog_for (a : App) : a.prog.For a.env a.dir := by
  refine ⟨?_, rfl, ?_, rfl, ?_, rfl⟩
  · show (a.env "SHELL").getD "/bin/sh" = _
    cases a.env "SHELL" <;> rfl
  · show (a.env.set "TERM" "xterm-256color").set "COLORTERM" "gtktsm" "TERM" = _
    unfold Env.set
    rw [if_neg (by decide), if_pos rfl]
  · intro k h1 h2
    show (a.env.set "TERM" "xterm-256color").set "COLORTERM" "gtktsm" k = _
    unfold Env.set
    rw [if_neg h2, if_neg h1]

/-- The two outcomes of a command line that is handled. -/
theorem commandLine_ok {forkOk : Bool} {o : Options} {a a' : App} {t : Term} {n : Nat} {m : String} (hf : o.Fits) (ht : t.Live mk ink)
    (h : a.commandLine mk ink forkOk o t = .ok (n, m, a')) :
    (o.Accepted ∧ n = 0 ∧ m = "" ∧ forkOk = true ∧ ∃ u : Term, u.Live mk ink ∧ u.w.pty.isSome = true ∧
      (∀ p, u.get p = match p with
        | .font => (match o.font with | none => t.get p | some d => .font (some d))
        | .sbSize => (match o.sbSize with | none => t.get p | some n => .sbSize (max n 0).toNat)
        | .antiAliasing => (match o.antiAliasing with | none => t.get p | some d => .antiAliasing (some d))
        | .subpixelOrder => (match o.subpixelOrder with | none => t.get p | some d => .subpixelOrder (some d))
        | .showDirty => if o.showDirty then .showDirty true else t.get p
        | .debug => if o.debug then .debug true else t.get p) ∧
      a' = { a with windows := a.windows ++ [{ term := u, prog := a.prog }] }) ∨
    (¬ o.Accepted ∧ n = 1 ∧ a' = a ∧ ((∃ s, o.antiAliasing = some s ∧ badAa s = true ∧ m = "invalid anti-aliasing argument: " ++ s ++ "\n") ∨
      (∀ s, o.antiAliasing = some s → badAa s = false) ∧
        ∃ s, o.subpixelOrder = some s ∧ badOrder s = true ∧ m = "invalid subpixel-order argument: " ++ s ++ "\n")) := by
  unfold App.commandLine at h
  obtain ⟨t1, h1, h⟩ := bind_ok h
  obtain ⟨t2, h2, h⟩ := bind_ok h
  split at h
  · rename_i s hs
    injection h with h
    injection h with e1 e2
    injection e2 with e2 e3
    refine Or.inr ⟨fun ha => ?_, e1.symm, e3.symm, Or.inl ⟨s, (filter_some hs).1, (filter_some hs).2, e2.symm⟩⟩
    rw [(accepted_iff.mp ha).1] at hs
    cases hs
  · rename_i haa
    obtain ⟨t3, h3, h⟩ := bind_ok h
    unfold App.ordered at h
    split at h
    · rename_i s hs
      injection h with h
      injection h with e1 e2
      injection e2 with e2 e3
      refine Or.inr ⟨fun ha => ?_, e1.symm, e3.symm, Or.inr ⟨filter_none.mp haa, s, (filter_some hs).1, (filter_some hs).2, e2.symm⟩⟩
      rw [(accepted_iff.mp ha).2] at hs
      cases hs
    · rename_i hor
      have hacc : o.Accepted := accepted_iff.mpr ⟨haa, hor⟩
      obtain ⟨t4, h4, h⟩ := bind_ok h
      obtain ⟨t5, h5, h⟩ := bind_ok h
      obtain ⟨t6, h6, h⟩ := bind_ok h
      obtain ⟨a2, h7, h⟩ := bind_ok h
      injection h with h
      injection h with e1 e2
      injection e2 with e2 e3
      subst e3
      unfold App.run at h7
      obtain ⟨u, hu, h7⟩ := bind_ok h7
      split at h7
      · rename_i hfk
        injection h7 with h7
        have k2 := fits_typed hf
        have l1 := opt_live (by exact of_map (P := Setting.Typed) (fun _ _ => trivial)) ht h1
        have l2 := opt_live k2 l1 h2
        have l3 := opt_live (by exact of_map (P := Setting.Typed) (fun _ _ => trivial)) l2 h3
        have l4 := opt_live (by exact of_map (P := Setting.Typed) (fun _ _ => trivial)) l3 h4
        have l5 := opt_live (by exact of_if (P := Setting.Typed) trivial) l4 h5
        have l6 := opt_live (by exact of_if (P := Setting.Typed) trivial) l5 h6
        have l7 := Term.Live.step l6 (e := .fork) trivial hu
        refine Or.inl ⟨hacc, e1.symm, e2.symm, hfk, u, l7, ?_, ?_, h7.symm⟩
        · obtain ⟨w, hw, rfl⟩ := Term.via_ok hu
          have hw : t6.w.fork (t6.made mk) = .ok w := hw
          unfold Wid.fork at hw
          split at hw
          · rename_i hp
            injection hw with hw
            exact hw ▸ hp
          · obtain ⟨w1, _, hw⟩ := bind_ok hw
            injection hw with hw
            subst hw
            rfl
        · intro p
          rw [C111_kept (e := .fork) trivial (by intro s hs; cases hs) hu p]
          have g6 := opt_get (by exact of_if (P := Setting.Known) trivial) h6 p
          have g5 := opt_get (by exact of_if (P := Setting.Known) trivial) h5 p
          have g4 := opt_get (by exact of_map (P := Setting.Known) (fun s hs => by
            rcases hacc.2 s hs with rfl | rfl | rfl | rfl | rfl
            · exact Or.inr (Or.inl rfl)
            · exact Or.inr (Or.inr (Or.inl rfl))
            · exact Or.inr (Or.inr (Or.inr (Or.inl rfl)))
            · exact Or.inr (Or.inr (Or.inr (Or.inr rfl)))
            · exact Or.inl rfl)) h4 p
          have g3 := opt_get (by exact of_map (P := Setting.Known) (fun s hs => by
            rcases hacc.1 s hs with rfl | rfl | rfl | rfl
            · exact Or.inr (Or.inl rfl)
            · exact Or.inr (Or.inr (Or.inl rfl))
            · exact Or.inr (Or.inr (Or.inr rfl))
            · exact Or.inl rfl)) h3 p
          have g2 := opt_get (by exact of_map (P := Setting.Known) (fun _ _ => trivial)) h2 p
          have g1 := opt_get (by exact of_map (P := Setting.Known) (fun _ _ => trivial)) h1 p
          unfold optGet at g1 g2 g3 g4 g5 g6
          rw [g6, g5, g4, g3, g2, g1]
          cases p <;> cases o.font <;> cases o.sbSize <;> cases o.antiAliasing <;> cases o.subpixelOrder <;>
            cases o.showDirty <;> cases o.debug <;> rfl
      · cases h7

theorem init_live {c : Launch} (hc : c.Valid) {t : Term} (h : Term.init mk ink c.screen c.sg c.mem = .ok t) : t.Live mk ink := by
  obtain ⟨al, ha⟩ := hc.2
  exact ⟨al, c.screen, c.sg, c.mem, t, [], ha, h, (by intro e he; cases he), rfl⟩

theorem open_settle (a : App) : open_ a.settle = a.windows := by
  unfold App.settle
  cases h : a.windows with
  | nil => rfl
  | cons w ws => exact h

end

end Verif.Props.Gtk
