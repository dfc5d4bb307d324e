import Verif.Spec.Reachable
import Verif.Proofs.Screen.History

/-!
# Histories; what calls leave alone
-/

namespace Verif
namespace Screen

theorem runAll_inv (cs : List Call) : ∀ {s s' : Screen}, Inv s → (∀ c ∈ cs, c.Valid) →
    runAll cs s = .ok s' → Inv s' := by
  induction cs with
  | nil => intro s s' h _ e; injection e with e; rw [← e]; exact h
  | cons c cs ih =>
    intro s s' h hv e
    unfold runAll at e
    rcases step_any h (hv c (List.mem_cons_self ..)) with ⟨t, et, ht⟩ | ⟨_, et⟩
    · rw [et] at e
      exact ih ht (fun c hc => hv c (List.mem_cons_of_mem _ hc)) e
    · rcases et with et | et
      · rw [et] at e; exact absurd e (by intro h; cases h)
      · rw [et] at e; exact absurd e (by intro h; cases h)

theorem Reachable.inv {s : Screen} (h : Reachable s) : Inv s := by
  obtain ⟨f, cs, hv, e⟩ := h
  unfold history at e
  rcases new_spec f with ⟨e0, _⟩ | ⟨s0, e0, hi, _⟩
  · rw [e0] at e; exact absurd e (by intro h; cases h)
  · rw [e0] at e
    change (do let s ← runAll cs s0; return some s : R (Option Screen)) = _ at e
    cases hr : runAll cs s0 with
    | error k => rw [hr] at e; exact absurd e (by intro h; cases h)
    | ok t =>
      rw [hr] at e
      injection e with e
      injection e with e
      rw [← e]
      exact runAll_inv cs hi hv hr

theorem Keeps.same {c : Call} {v v' : View} (h : v' = v) : View.Keeps c v v' := by
  subst h
  exact ⟨rfl, rfl, fun _ => rfl, fun _ => rfl, fun _ _ => ⟨rfl, rfl⟩, fun _ => rfl,
      fun _ => Or.inl ⟨rfl, rfl⟩, fun _ => rfl⟩

theorem Keeps.upd {c : Call} {v v' : View} (h1 : v'.sizeX = v.sizeX) (h2 : v'.sizeY = v.sizeY)
    (h3 : v'.main = v.main) (h4 : v'.alt = v.alt) (h5 : v'.sb = v.sb) (h6 : v'.sbLastId = v.sbLastId)
    (h7 : v'.sbMax = v.sbMax) (h8 : View.flagCall c = false → v'.flags = v.flags) :
    View.Keeps c v v' :=
  ⟨h1, h2, fun _ => h3, fun _ => h4, fun _ _ => ⟨h5, h6⟩, h8, fun _ => Or.inl ⟨h5, h6⟩, fun _ => h7⟩

theorem number_append (b : Nat) (p q : List (List Glyph)) :
    View.number b (p ++ q) = View.number b p ++ View.number (b + p.length) q := by
  unfold View.number
  rw [List.mapIdx_append]
  congr 1
  apply List.ext_getElem?
  intro i
  simp only [List.getElem?_mapIdx]
  cases q[i]? with
  | none => rfl
  | some r => simp only [Option.map_some]; congr 2; omega

theorem Fed.trans {u v w : View} {p q : List (List Glyph)} (h : View.Fed u v p)
    (h' : View.Fed v w q) (hm : v.sbMax = u.sbMax) : View.Fed u w (p ++ q) := by
  rcases Nat.eq_zero_or_pos u.sbMax with h0 | hp
  · refine ⟨?_, ?_⟩
    · rw [h'.sb, hm, h0]
      exact (lastN_zero _).trans (lastN_zero _).symm
    · rw [h'.last, hm, if_pos h0, h.last, if_pos h0, if_pos h0]
  · refine ⟨?_, ?_⟩
    · rw [h'.sb, hm, h.sb, h.last, if_neg (by omega), number_append, ← List.append_assoc]
      exact lastN_lastN_append _ _ _
    · rw [h'.last, hm, if_neg (by omega), h.last, if_neg (by omega), if_neg (by omega),
        List.length_append, Nat.add_assoc]

theorem Keeps.trans {c : Call} {u v w : View} (h : View.Keeps c u v) (h' : View.Keeps c v w)
    (ha : v.useAlt = u.useAlt) : View.Keeps c u w :=
  ⟨h'.sizeX.trans h.sizeX, h'.sizeY.trans h.sizeY,
    fun e => (h'.main (ha.trans e)).trans (h.main e),
    fun e => (h'.alt (ha.trans e)).trans (h.alt e),
    fun e f => ⟨((h'.sb (ha.trans e) f).1).trans (h.sb e f).1,
      ((h'.sb (ha.trans e) f).2).trans (h.sb e f).2⟩,
    fun e => (h'.flags e).trans (h.flags e),
    (by
      intro ha
      have hm : v.sbMax = u.sbMax := h.max (by intro m hc; subst hc; exact Bool.noConfusion ha)
      rcases h.push ha with ⟨a1, a2⟩ | ⟨hs, p, hp⟩
      · rcases h'.push ha with ⟨b1, b2⟩ | ⟨hs, q, hq⟩
        · exact Or.inl ⟨b1.trans a1, b2.trans a2⟩
        · exact Or.inr ⟨hs, q, ⟨by rw [hq.sb, hm, a1, a2], by rw [hq.last, hm, a2]⟩⟩
      · rcases h'.push ha with ⟨b1, b2⟩ | ⟨_, q, hq⟩
        · exact Or.inr ⟨hs, p, ⟨by rw [b1, hp.sb], by rw [b2, hp.last]⟩⟩
        · exact Or.inr ⟨hs, p ++ q, Fed.trans hp hq hm⟩),
    fun e => (h'.max e).trans (h.max e)⟩

theorem Keeps.grid {c : Call} (v : View) (g : Grid) : View.Keeps c v (v.setGrid g) := by
  unfold View.setGrid
  split
  · rename_i ha
    exact ⟨rfl, rfl, fun _ => rfl, (fun e => absurd ha (by rw [e]; simp)),
      fun _ _ => ⟨rfl, rfl⟩, fun _ => rfl,
      fun _ => Or.inl ⟨rfl, rfl⟩, fun _ => rfl⟩
  · rename_i ha
    exact ⟨rfl, rfl, (fun e => absurd e ha), fun _ => rfl, fun _ _ => ⟨rfl, rfl⟩, fun _ => rfl,
      fun _ => Or.inl ⟨rfl, rfl⟩, fun _ => rfl⟩

theorem setGrid_useAlt (v : View) (g : Grid) : (v.setGrid g).useAlt = v.useAlt := by
  unfold View.setGrid; split <;> rfl

theorem Keeps.gridUpd {c : Call} {v v' : View} (g : Grid) (h1 : v'.sizeX = (v.setGrid g).sizeX)
    (h2 : v'.sizeY = (v.setGrid g).sizeY)
    (h3 : v'.main = (v.setGrid g).main) (h4 : v'.alt = (v.setGrid g).alt)
    (h5 : v'.sb = (v.setGrid g).sb) (h6 : v'.sbLastId = (v.setGrid g).sbLastId)
    (h7 : v'.sbMax = (v.setGrid g).sbMax) (h8 : v'.flags = (v.setGrid g).flags) :
    View.Keeps c v v' :=
  Keeps.trans (Keeps.grid v g) (Keeps.upd h1 h2 h3 h4 h5 h6 h7 (fun _ => h8)) (setGrid_useAlt v g)

theorem Keeps.scroll {c : Call} {v v' : View} {n : Nat} {mem : Prop} {rows kept : List (List Glyph)}
    (h : View.ScrollUp v v' n mem rows kept) (hsb : v.sb.length ≤ v.sbMax)
    (hs : View.scrolls c = true) : View.Keeps c v v' := by
  have e := h.eq
  have k := Keeps.grid (c := c) v (v.rowsUp v.marginTop v.marginBottom n)
  refine ⟨?_, ?_, ?_, ?_, ?_, ?_, ?_, ?_⟩
  · rw [e]; exact k.sizeX
  · rw [e]; exact k.sizeY
  · rw [e]; exact k.main
  · rw [e]; exact k.alt
  · intro ha _
    have hk := h.alt ha
    rw [h.sb, h.last, hk]
    refine ⟨?_, ?_⟩
    · unfold View.newest View.number
      rw [List.mapIdx_nil, List.append_nil]
      rw [show v.sb.length - v.sbMax = 0 by omega, List.drop_zero]
    · split <;> simp
  · rw [e]; exact k.flags
  · intro _; exact Or.inr ⟨hs, kept, h.sb, h.last⟩
  · rw [e]; exact k.max

theorem ScrollUp.useAlt {v v' : View} {n : Nat} {mem : Prop} {rows kept : List (List Glyph)}
    (h : View.ScrollUp v v' n mem rows kept) : v'.useAlt = v.useAlt := by
  rw [h.eq]; exact setGrid_useAlt v _

theorem Inv.sbLe {s : Screen} (h : Inv s) : s.view.sb.length ≤ s.view.sbMax := by
  show (s.sb.map Line.row).length ≤ s.sbMax
  rw [List.length_map]; exact h.sb.max

theorem moved_keeps {c : Call} (s : Screen) (x y : Nat) :
    View.Keeps c s.view (s.incAge.moved x y).view := by
  rw [moved_view, incAge_view]
  exact Keeps.upd rfl rfl rfl rfl rfl rfl rfl (fun _ => rfl)

theorem moveDown_keeps {c : Call} {s s' : Screen} (h : Inv s) {num : Nat} {scroll : Bool}
    (hs : scroll = true → View.scrolls c = true) (e : s.moveDown num scroll = .ok s') :
    View.Keeps c s.view s'.view ∧ s'.view.useAlt = s.view.useAlt := by
  rcases Nat.eq_zero_or_pos num with h0 | hn
  · unfold moveDown at e
    rw [if_pos h0] at e
    injection e with e
    rw [e]
    exact ⟨Keeps.same rfl, rfl⟩
  by_cases hc : scroll = false ∨ num ≤ s.view.lastRow - s.cursorY
  · obtain ⟨e', _⟩ := moveDown_plain h hn hc
    rw [e'] at e
    injection e with e
    rw [← e]
    refine ⟨moved_keeps s _ _, ?_⟩
    rw [moved_view, incAge_view]
  · have h1 : scroll = true := by
      cases scroll
      · exact absurd (Or.inl rfl) hc
      · rfl
    subst h1
    obtain ⟨t, u, rows, kept, e', hi, _, hu, hv⟩ := moveDown_scroll h hn (by
      apply Nat.lt_of_not_le; intro hle; exact hc (Or.inr hle))
    rw [e'] at e
    injection e with e
    subst e
    rw [hv]
    have ha := ScrollUp.useAlt hu
    exact ⟨Keeps.trans (Keeps.scroll hu h.sbLe (hs rfl)) (Keeps.upd rfl rfl rfl rfl rfl rfl rfl (fun _ => rfl)) ha, ha⟩

theorem erase_keeps {c : Call} {s s' : Screen} (h : Inv s) {xF yF xT yT : Nat} {p : Bool}
    (e : s.incAge.eraseRegion xF yF xT yT p = .ok s') : View.Keeps c s.view s'.view := by
  obtain ⟨t, e', hi, hv, _⟩ := erase_call h xF yF xT yT p _ (fun i j _ _ => Iff.rfl)
  rw [e'] at e
  injection e with e
  subst e
  rw [hv]
  exact Keeps.grid _ _

theorem switched_keeps {c : Call} (s : Screen) (f : BitVec 32) (b : Bool)
    (hc : View.flagCall c = true) :
    View.Keeps c s.view (s.switched f b).view := by
  rw [switched_view]
  exact Keeps.upd rfl rfl rfl rfl rfl rfl rfl (fun h => Bool.noConfusion (hc.symm.trans h))

theorem Positioned.keeps {c : Call} {s t : Screen} (h : Inv s) (hp : Positioned s t)
    (hc : View.scrolls c = true) :
    View.Keeps c s.view t.view ∧ t.view.useAlt = s.view.useAlt := by
  by_cases hs : s.view.writeScrolls
  · obtain ⟨_, u, kept, hu, hg, _, hsu⟩ := hp.scroll hs
    have hk := hsu.spec hg (by have := hg.mtb; omega)
    have hl : u.view.sb.length ≤ u.view.sbMax := by rw [hu]; exact h.sbLe
    have k1 : View.Keeps c s.view u.view := by
      rw [hu]; exact Keeps.upd rfl rfl rfl rfl rfl rfl rfl (fun _ => rfl)
    have a1 : u.view.useAlt = s.view.useAlt := by rw [hu]
    exact ⟨Keeps.trans k1 (Keeps.scroll hk hl hc) a1, (ScrollUp.useAlt hk).trans a1⟩
  · rw [hp.stillView hs]
    exact ⟨Keeps.upd rfl rfl rfl rfl rfl rfl rfl (fun _ => rfl), rfl⟩

theorem write_keeps {c : Call} {s s' : Screen} (h : Inv s) {ch : Nat} {a : Attr}
    (hc : View.scrolls c = true) (e : s.write ch a = .ok s') : View.Keeps c s.view s'.view := by
  obtain ⟨len, ew, hl⟩ := symWidth_ok ch
  unfold write at e
  rw [ew] at e
  change (if len = 0 then .ok s else s.writeW ch len a) = .ok s' at e
  have key : ∀ (t : Screen) (ls : List Line) (x y : Nat), Positioned s t →
      View.Keeps c s.view ((t.withLines ls).moved x y).view := by
    intro t ls x y hp
    obtain ⟨k, ha⟩ := Positioned.keeps (c := c) h hp hc
    rw [moved_view, view_withLines]
    exact Keeps.trans k (Keeps.gridUpd _ rfl rfl rfl rfl rfl rfl rfl rfl) ha
  rcases Nat.eq_zero_or_pos len with h0 | hn
  · rw [if_pos h0] at e; injection e with e; rw [e]; exact Keeps.same rfl
  · rw [if_neg (by omega)] at e
    by_cases hh : s.fInsert = true ∧ s.sizeX < len
    · rcases writeW_unsafe h (ch := ch) (attr := a) hn hl hh.1 hh.2 with h1 | ⟨u, h1, _, t, _, _, _, hp, _, _, _, h2⟩
      · rw [h1] at e; exact absurd e (by intro h; cases h)
      · rw [h1] at e
        injection e with e
        rw [← e, h2]
        exact key t _ _ _ hp
    · obtain ⟨t, l, l', hp, _, _, _, h2⟩ := writeW_steps h (ch := ch) (attr := a) hn hl (by
        intro hins
        apply Nat.le_of_not_lt
        intro hlt
        exact hh ⟨hins, hlt⟩)
      rw [h2] at e
      injection e with e
      rw [← e]
      exact key t _ _ _ hp

theorem tabLeft_any {s s' : Screen} (h : Inv s) {n : Nat} (hn : 0 < n) (e : s.tabLeft n = .ok s') :
    ∃ x, s' = s.incAge.moved x s.cursorY := by
  unfold tabLeft at e
  rw [if_neg (by omega)] at e
  simp only [ia_tabRuler, ia_cursorX, ia_cursorY] at e
  cases hx : tabLeftLoop s.tabRuler n s.cursorX with
  | error k => rw [hx] at e; exact absurd e (by intro h; cases h)
  | ok x =>
    rw [hx] at e
    change s.incAge.moveCursor x s.cursorY = _ at e
    rw [moveCursor_ok h.incAge.geo] at e
    injection e with e
    exact ⟨x, e.symm⟩

/-- Every call except `resize` leaves the size and the buffer that is not
displayed alone. -/
theorem step_keeps {s s' : Screen} (h : Inv s) {c : Call} (hv : c.Valid)
    (hr : ∀ x y, c ≠ .resize x y) (e : c.run s = .ok s') :
    View.Keeps c s.view s'.view := by
  have hok : ∀ {t u : Screen}, (Except.ok t : R Screen) = .ok u → t = u := by
    intro t u h; injection h
  cases c with
  | resize x y => exact absurd rfl (hr x y)
  | setMargins t b =>
    have := hok e; subst this
    rw [setMargins_eq h]
    split <;> exact Keeps.upd rfl rfl rfl rfl rfl rfl rfl (fun _ => rfl)
  | setMaxSb m =>
    have := hok ((setMaxSb_eq h m).symm.trans e); subst this
    rw [setMaxSb_view]
    exact ⟨rfl, rfl, fun _ => rfl, fun _ => rfl, fun _ hc => Bool.noConfusion hc, fun _ => rfl,
      fun hc => Bool.noConfusion hc, fun hm => absurd rfl (hm m)⟩
  | clearSb =>
    have := hok e; subst this
    rw [clearSb_view]
    exact ⟨rfl, rfl, fun _ => rfl, fun _ => rfl, fun _ hc => Bool.noConfusion hc,
      fun _ => rfl, fun hc => Bool.noConfusion hc, fun _ => rfl⟩
  | sbUp n =>
    obtain ⟨t, q, m, e', _, hv, _⟩ := sbUp_spec h n
    have := hok (e'.symm.trans e); subst this
    rw [hv]; exact Keeps.upd rfl rfl rfl rfl rfl rfl rfl (fun _ => rfl)
  | sbDown n =>
    obtain ⟨t, q, m, e', _, hv, _⟩ := sbDown_spec h n
    have := hok (e'.symm.trans e); subst this
    rw [hv]; exact Keeps.upd rfl rfl rfl rfl rfl rfl rfl (fun _ => rfl)
  | sbPageUp n =>
    change s.sbPageUp n = _ at e
    unfold sbPageUp at e
    split at e
    · have := hok e; subst this; exact Keeps.same rfl
    · obtain ⟨t, q, m, e', _, hv, _⟩ := sbUp_spec h.incAge (u32 (n * s.sizeY))
      have := hok (e'.symm.trans e); subst this
      rw [hv, incAge_view]; exact Keeps.upd rfl rfl rfl rfl rfl rfl rfl (fun _ => rfl)
  | sbPageDown n =>
    change s.sbPageDown n = _ at e
    unfold sbPageDown at e
    split at e
    · have := hok e; subst this; exact Keeps.same rfl
    · obtain ⟨t, q, m, e', _, hv, _⟩ := sbDown_spec h.incAge (u32 (n * s.sizeY))
      have := hok (e'.symm.trans e); subst this
      rw [hv, incAge_view]; exact Keeps.upd rfl rfl rfl rfl rfl rfl rfl (fun _ => rfl)
  | sbReset =>
    have := hok e; subst this
    rw [(sbReset_spec h).2]; exact Keeps.upd rfl rfl rfl rfl rfl rfl rfl (fun _ => rfl)
  | setDefAttr a => have := hok e; subst this; exact Keeps.upd rfl rfl rfl rfl rfl rfl rfl (fun _ => rfl)
  | reset =>
    obtain ⟨t, e', _, hv, _⟩ := reset_spec h
    have := hok (e'.symm.trans e); subst this
    rw [hv]; exact Keeps.upd rfl rfl rfl rfl rfl rfl rfl (fun h => Bool.noConfusion h)
  | setFlags f =>
    change s.setFlags f = _ at e
    by_cases hf : f = 0#32
    · unfold setFlags at e; rw [if_pos hf] at e
      have := hok e; subst this; exact Keeps.same rfl
    · obtain ⟨t, e', _, hv, _⟩ := setFlags_spec h hf
      have := hok (e'.symm.trans e); subst this
      rw [hv]; exact switched_keeps s _ _ rfl
  | resetFlags f =>
    change s.resetFlags f = _ at e
    by_cases hf : f = 0#32
    · unfold resetFlags at e; rw [if_pos hf] at e
      have := hok e; subst this; exact Keeps.same rfl
    · obtain ⟨t, e', _, hv, _⟩ := resetFlags_spec h hf
      have := hok (e'.symm.trans e); subst this
      rw [hv]; exact switched_keeps s _ _ rfl
  | setTabstop =>
    obtain ⟨t, e', _, hv, _⟩ := putTab_spec h true
    have := hok (e'.symm.trans e); subst this
    rw [hv]; exact Keeps.upd rfl rfl rfl rfl rfl rfl rfl (fun _ => rfl)
  | resetTabstop =>
    obtain ⟨t, e', _, hv, _⟩ := putTab_spec h false
    have := hok (e'.symm.trans e); subst this
    rw [hv]; exact Keeps.upd rfl rfl rfl rfl rfl rfl rfl (fun _ => rfl)
  | resetAllTabstops =>
    obtain ⟨t, e', _, hv, _⟩ := resetAllTabstops_spec h
    have := hok (e'.symm.trans e); subst this
    rw [hv]; exact Keeps.upd rfl rfl rfl rfl rfl rfl rfl (fun _ => rfl)
  | write ch a => exact write_keeps h rfl e
  | newline =>
    obtain ⟨t, e1, hi, _⟩ := moveDown_step h.incAge 1 true
    have h1 := moveDown_keeps (c := .newline) h.incAge (fun _ => rfl) e1
    rw [incAge_view] at h1
    change s.newline = _ at e
    unfold newline at e
    rw [e1] at e
    have := hok ((moveLineHome_eq hi).symm.trans e); subst this
    exact Keeps.trans h1.1 (moved_keeps t _ _) h1.2
  | scrollUp n =>
    rcases Nat.eq_zero_or_pos n with h0 | hn
    · subst h0
      have := hok e; subst this; exact Keeps.same rfl
    · obtain ⟨t, rows, kept, e', _, _, hu⟩ := scrollUp_spec h hn
      have := hok (e'.symm.trans e); subst this
      exact Keeps.scroll hu h.sbLe rfl
  | scrollDown n =>
    rcases Nat.eq_zero_or_pos n with h0 | hn
    · subst h0
      have := hok e; subst this; exact Keeps.same rfl
    · obtain ⟨t, e', _, _, hv⟩ := scrollDown_spec h hn
      have := hok (e'.symm.trans e); subst this
      rw [hv]
      exact Keeps.gridUpd _ rfl rfl rfl rfl rfl rfl rfl rfl
  | moveTo x y => have := hok ((moveTo_eq h x y).symm.trans e); subst this; exact moved_keeps s _ _
  | moveUp n b =>
    rcases Nat.eq_zero_or_pos n with h0 | hn
    · subst h0
      have := hok e; subst this; exact Keeps.same rfl
    by_cases hc : b = false ∨ n ≤ s.cursorY - s.view.firstRow
    · obtain ⟨e', _⟩ := moveUp_plain h hn hv hc
      have := hok (e'.symm.trans e); subst this
      exact moved_keeps s _ _
    · have h1 : b = true := by
        cases b
        · exact absurd (Or.inl rfl) hc
        · rfl
      subst h1
      obtain ⟨t, e', hi, _, p, q, hv⟩ := moveUp_scroll h hn hv (by
        apply Nat.lt_of_not_le; intro hle; exact hc (Or.inr hle))
      have := hok (e'.symm.trans e); subst this
      rw [hv]
      exact Keeps.gridUpd _ rfl rfl rfl rfl rfl rfl rfl rfl
  | moveDown n b => exact (moveDown_keeps h (fun hb => by rw [hb]; rfl) e).1
  | moveLeft n =>
    rcases Nat.eq_zero_or_pos n with h0 | hn
    · subst h0
      have := hok e; subst this; exact Keeps.same rfl
    · have := hok ((moveLeft_eq h hn).symm.trans e); subst this; exact moved_keeps s _ _
  | moveRight n =>
    rcases Nat.eq_zero_or_pos n with h0 | hn
    · subst h0
      have := hok e; subst this; exact Keeps.same rfl
    · have := hok ((moveRight_eq h hn).symm.trans e); subst this; exact moved_keeps s _ _
  | moveLineEnd => have := hok ((moveLineEnd_eq h).symm.trans e); subst this; exact moved_keeps s _ _
  | moveLineHome => have := hok ((moveLineHome_eq h).symm.trans e); subst this; exact moved_keeps s _ _
  | tabRight n =>
    rcases Nat.eq_zero_or_pos n with h0 | hn
    · subst h0
      have := hok e; subst this; exact Keeps.same rfl
    · have := hok ((tabRight_eq h hn).symm.trans e); subst this; exact moved_keeps s _ _
  | tabLeft n =>
    rcases Nat.eq_zero_or_pos n with h0 | hn
    · subst h0
      have := hok e; subst this; exact Keeps.same rfl
    · obtain ⟨x, e'⟩ := tabLeft_any h hn e
      subst e'; exact moved_keeps s _ _
  | insertLines n =>
    by_cases hc : n = 0 ∨ s.cursorY < s.marginTop ∨ s.cursorY > s.marginBottom
    · change s.insertLines n = _ at e
      unfold insertLines at e
      by_cases h0 : n = 0
      · rw [if_pos h0] at e
        have := hok e; subst this; exact Keeps.same rfl
      · rw [if_neg h0, if_pos (by rcases hc with hc | hc; exact absurd hc h0; exact hc)] at e
        have := hok e; subst this; exact Keeps.same rfl
    · obtain ⟨t, e', _, hv, _⟩ := insertLines_in h (num := n) (by omega) (by omega)
      have := hok (e'.symm.trans e); subst this
      rw [hv]; exact Keeps.gridUpd _ rfl rfl rfl rfl rfl rfl rfl rfl
  | deleteLines n =>
    by_cases hc : n = 0 ∨ s.cursorY < s.marginTop ∨ s.cursorY > s.marginBottom
    · change s.deleteLines n = _ at e
      unfold deleteLines at e
      by_cases h0 : n = 0
      · rw [if_pos h0] at e
        have := hok e; subst this; exact Keeps.same rfl
      · rw [if_neg h0, if_pos (by rcases hc with hc | hc; exact absurd hc h0; exact hc)] at e
        have := hok e; subst this; exact Keeps.same rfl
    · obtain ⟨t, e', _, hv, _⟩ := deleteLines_in h (num := n) (by omega) (by omega)
      have := hok (e'.symm.trans e); subst this
      rw [hv]; exact Keeps.gridUpd _ rfl rfl rfl rfl rfl rfl rfl rfl
  | insertChars n =>
    rcases Nat.eq_zero_or_pos n with h0 | hn
    · change s.insertChars n = _ at e
      unfold insertChars at e; rw [if_pos (Or.inl h0)] at e
      have := hok e; subst this; exact Keeps.same rfl
    · obtain ⟨t, e', _, hv, _⟩ := insertChars_spec h hn
      have := hok (e'.symm.trans e); subst this
      rw [hv]; exact Keeps.gridUpd _ rfl rfl rfl rfl rfl rfl rfl rfl
  | deleteChars n =>
    rcases Nat.eq_zero_or_pos n with h0 | hn
    · change s.deleteChars n = _ at e
      unfold deleteChars at e; rw [if_pos (Or.inl h0)] at e
      have := hok e; subst this; exact Keeps.same rfl
    · obtain ⟨t, e', _, hv, _⟩ := deleteChars_spec h hn
      have := hok (e'.symm.trans e); subst this
      rw [hv]; exact Keeps.gridUpd _ rfl rfl rfl rfl rfl rfl rfl rfl
  | eraseCursor => exact erase_keeps h e
  | eraseChars n =>
    change s.eraseChars n = _ at e
    unfold eraseChars at e
    split at e
    · have := hok e; subst this; exact Keeps.same rfl
    · exact erase_keeps h e
  | eraseCursorToEnd p => exact erase_keeps h e
  | eraseHomeToCursor p => exact erase_keeps h e
  | eraseCurrentLine p => exact erase_keeps h e
  | eraseScreenToCursor p => exact erase_keeps h e
  | eraseCursorToScreen p => exact erase_keeps h e
  | eraseScreen p => exact erase_keeps h e
  | selectionReset =>
    have := hok e; subst this
    have hv : s.selectionReset.view = { s.view with selActive := false } := by
      have := incAge_view s
      show ({ s.incAge.touch.view with selActive := false } : View) = _
      rw [touch_view, this]
    rw [hv]; exact Keeps.upd rfl rfl rfl rfl rfl rfl rfl (fun _ => rfl)
  | selectionStart x y =>
    have := hok e; subst this
    have hv : (s.selectionStart x y).view = { s.view with
        selActive := true, selStart := s.selSet x y, selEnd := s.selSet x y } := by
      have := incAge_view s
      show ({ s.incAge.touch.view with
        selActive := true, selStart := s.selSet x y, selEnd := s.selSet x y } : View) = _
      rw [touch_view, this]
    rw [hv]; exact Keeps.upd rfl rfl rfl rfl rfl rfl rfl (fun _ => rfl)
  | selectionTarget x y =>
    have := hok e; subst this
    unfold selectionTarget
    split
    · have hv : ({ s.incAge.touch with selEnd := s.selSet x y } : Screen).view =
          { s.view with selEnd := s.selSet x y } := by
        have := incAge_view s
        show ({ s.incAge.touch.view with selEnd := s.selSet x y } : View) = _
        rw [touch_view, this]
      rw [hv]; exact Keeps.upd rfl rfl rfl rfl rfl rfl rfl (fun _ => rfl)
    · exact Keeps.same rfl
  | draw =>
    change (do let r ← s.draw; return r.2.2 : R Screen) = _ at e
    rw [draw_eq h.geo] at e
    have := hok e; subst this
    exact Keeps.same rfl

theorem Reachable.step {s s' : Screen} (h : Reachable s) {c : Call} (hv : c.Valid)
    (e : c.run s = .ok s') : Reachable s' := by
  obtain ⟨f, cs, hcs, eh⟩ := h
  refine ⟨f, cs ++ [c], ?_, ?_⟩
  · intro d hd
    rcases List.mem_append.mp hd with h1 | h1
    · exact hcs d h1
    · rw [List.mem_singleton.mp h1]; exact hv
  · have happ : ∀ (l : List Call) (t u w : Screen), runAll l t = .ok u → c.run u = .ok w →
        runAll (l ++ [c]) t = .ok w := by
      intro l
      induction l with
      | nil =>
        intro t u w h1 h2
        injection h1 with h1
        subst h1
        show (do let s ← c.run t; runAll [] s : R Screen) = _
        rw [h2]
        rfl
      | cons d l ih =>
        intro t u w h1 h2
        change (do let s ← d.run t; runAll l s : R Screen) = _ at h1
        show (do let s ← d.run t; runAll (l ++ [c]) s : R Screen) = _
        cases hd : d.run t with
        | error k => rw [hd] at h1; exact absurd h1 (by intro h; cases h)
        | ok t' =>
          rw [hd] at h1
          exact ih t' u w h1 h2
    unfold history at eh ⊢
    rcases new_spec f with ⟨e0, _⟩ | ⟨s0, e0, _, _⟩
    · rw [e0] at eh; exact absurd eh (by intro h; cases h)
    · rw [e0] at eh ⊢
      change (do let s ← runAll cs s0; return some s : R (Option Screen)) = _ at eh
      show (do let s ← runAll (cs ++ [c]) s0; return some s : R (Option Screen)) = _
      cases hr : runAll cs s0 with
      | error k => rw [hr] at eh; exact absurd eh (by intro h; cases h)
      | ok t =>
        rw [hr] at eh
        injection eh with eh
        injection eh with eh
        subst eh
        rw [happ cs s0 t s' hr e]
        rfl

theorem Reachable.runAll {cs : List Call} : ∀ {s s' : Screen}, Reachable s → (∀ c ∈ cs, c.Valid) →
    Screen.runAll cs s = .ok s' → Reachable s' := by
  induction cs with
  | nil => intro s s' h _ e; injection e with e; rw [← e]; exact h
  | cons c cs ih =>
    intro s s' h hv e
    change (do let s ← c.run s; Screen.runAll cs s : R Screen) = _ at e
    cases hd : c.run s with
    | error k => rw [hd] at e; exact absurd e (by intro h; cases h)
    | ok t =>
      rw [hd] at e
      exact ih (h.step (hv c (List.mem_cons_self ..)) hd)
        (fun c hc => hv c (List.mem_cons_of_mem _ hc)) e

end Screen
end Verif
