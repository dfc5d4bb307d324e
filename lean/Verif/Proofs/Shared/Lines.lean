import Verif.Spec.Lines

/-!
# Typing lines: lemmas
-/

namespace Verif

open Ldisc Stroke

/-- The bytes of a stroke. -/
def Stroke.bytes : Stroke → List UInt8
  | .char c => Vte.utf8 c
  | .back => [8]
  | .enter => [13]

/-- The UTF-8 form of a graphic character: one byte that is no continuation, then continuation bytes; no control characters. -/
theorem utf8_shape {c : Nat} (h : 32 ≤ c) (he : Spec.Utf8.Encodable c) :
    ∃ a cs, Vte.utf8 c = a :: cs ∧ isCont a = false ∧ (∀ b ∈ cs, isCont b = true) ∧ 32 ≤ a.toNat := by
  have hc := he.1
  have tn : ∀ n : Nat, n < 256 → (UInt8.ofNat n).toNat = n := fun n hn => UInt8.toNat_ofNat_of_lt' (by simpa using hn)
  have cont : ∀ n : Nat, n < 64 → isCont (UInt8.ofNat (128 + n)) = true := by
    intro n hn
    unfold isCont
    rw [tn _ (by omega)]
    exact decide_eq_true ⟨by omega, by omega⟩
  have lead : ∀ n : Nat, n < 256 → (n < 128 ∨ 192 ≤ n) → isCont (UInt8.ofNat n) = false := by
    intro n hn hl
    unfold isCont
    rw [tn _ hn]
    exact decide_eq_false (by omega)
  unfold Vte.utf8 Spec.Utf8.bytes
  split
  · exact ⟨_, [], rfl, lead _ (by omega) (by omega), (by intro b hb; cases hb), by rw [tn _ (by omega)]; exact h⟩
  · split
    · refine ⟨_, _, rfl, lead _ (by omega) (by omega), ?_, by rw [tn _ (by omega)]; omega⟩
      intro b hb
      simp only [List.map_cons, List.map_nil, List.mem_cons, List.not_mem_nil, or_false] at hb
      subst hb
      exact cont _ (by omega)
    · split
      · refine ⟨_, _, rfl, lead _ (by omega) (by omega), ?_, by rw [tn _ (by omega)]; omega⟩
        intro b hb
        simp only [List.map_cons, List.map_nil, List.mem_cons, List.not_mem_nil, or_false] at hb
        rcases hb with rfl | rfl <;> exact cont _ (by omega)
      · refine ⟨_, _, rfl, lead _ (by omega) (by omega), ?_, by rw [tn _ (by omega)]; omega⟩
        intro b hb
        simp only [List.map_cons, List.map_nil, List.mem_cons, List.not_mem_nil, or_false] at hb
        rcases hb with rfl | rfl | rfl <;> exact cont _ (by omega)

theorem eraseRev_cont : ∀ {cs : List UInt8}, (∀ b ∈ cs, isCont b = true) → ∀ r, eraseRev (cs ++ r) = eraseRev r
  | [], _, _ => rfl
  | b :: cs, h, r => by
    show (if isCont b = true then eraseRev (cs ++ r) else _) = _
    rw [if_pos (h b List.mem_cons_self)]
    exact eraseRev_cont (fun b hb => h b (List.mem_cons_of_mem _ hb)) r

/-- Erasing a character that has just been typed. -/
theorem erase_char {c : Nat} (h : 32 ≤ c) (he : Spec.Utf8.Encodable c) (l : List UInt8) : erase true (l ++ Vte.utf8 c) = l := by
  obtain ⟨a, cs, e, h1, h2, _⟩ := utf8_shape h he
  unfold erase
  rw [if_pos rfl, e, List.reverse_append, List.reverse_cons, List.append_assoc,
    eraseRev_cont (fun b hb => h2 b (List.mem_reverse.mp hb))]
  show (match (if isCont a = true then eraseRev l.reverse else some l.reverse) with | some r => r.reverse | none => _) = l
  rw [h1, if_neg Bool.false_ne_true]
  exact List.reverse_reverse l

theorem feed_plain {t : Termios} (ht : t.Usual) {b : UInt8} (hb : 32 ≤ b.toNat) {s : Ldisc} (hs : s.line.length < 4095) :
    s.feed t.setup b = some { s with line := s.line ++ [b] } := by
  have n : ∀ k : UInt8, k.toNat < 32 → b ≠ k := by intro k hk e; subst e; omega
  unfold feed
  rw [if_neg (show ¬ (b = 13 ∧ _) from fun h => n 13 (by decide) h.1)]
  unfold put
  rw [if_neg, if_neg (show ¬ b = t.setup.verase from n 8 (by decide)), if_neg (n 10 (by decide)), if_pos hs]
  intro hm
  have := (ht.2 b hm).1
  omega

theorem feed_text {t : Termios} (ht : t.Usual) : ∀ {bs : List UInt8} {s : Ldisc}, (∀ b ∈ bs, 32 ≤ b.toNat) →
    s.line.length + bs.length ≤ 4095 → ∀ rest, feedAll t.setup s (bs ++ rest) = feedAll t.setup { s with line := s.line ++ bs } rest
  | [], s, _, _, rest => by rw [List.append_nil]; rfl
  | b :: bs, s, h, hl, rest => by
    rw [List.length_cons] at hl
    show (s.feed t.setup b).bind _ = _
    rw [feed_plain ht (h b List.mem_cons_self) (by omega)]
    show feedAll t.setup _ (bs ++ rest) = _
    rw [feed_text ht (fun b hb => h b (List.mem_cons_of_mem _ hb)) (by
      show (s.line ++ [b]).length + bs.length ≤ 4095
      rw [List.length_append, List.length_cons, List.length_nil]; omega)]
    show feedAll t.setup { s with line := s.line ++ [b] ++ bs } rest = _
    rw [List.append_assoc]
    rfl

theorem text_snoc (l : List Nat) (c : Nat) : text (l ++ [c]) = text l ++ Vte.utf8 c := by
  unfold text
  rw [List.flatMap_append, List.flatMap_cons, List.flatMap_nil, List.append_nil]

/-- The lines a program reads are those the user meant. -/
theorem feed_strokes {t : Termios} (ht : t.Usual) : ∀ {ss : List Stroke} {x : List Nat × List (List Nat)},
    (∀ c ∈ x.1, 32 ≤ c ∧ Spec.Utf8.Encodable c) → Fits x ss →
    feedAll t.setup (disc x) (ss.flatMap Stroke.bytes) = some (disc (ss.foldl edit x))
  | [], _, _, _ => rfl
  | .char c :: ss, (cur, ls), hx, ⟨hc, hl, hf⟩ => by
    obtain ⟨a, cs, e, h1, h2, h3⟩ := utf8_shape hc.1 hc.2
    have hb : ∀ b ∈ Vte.utf8 c, 32 ≤ b.toNat := by
      rw [e]
      intro b hb
      rcases List.mem_cons.mp hb with rfl | hb
      · exact h3
      · have := h2 b hb
        unfold isCont at this
        have := of_decide_eq_true this
        omega
    have hl' : (text (cur ++ [c])).length ≤ 4095 := hl
    rw [text_snoc, List.length_append] at hl'
    rw [List.flatMap_cons]
    show feedAll t.setup (disc (cur, ls)) (Vte.utf8 c ++ _) = _
    rw [feed_text ht hb hl']
    have := feed_strokes ht (ss := ss) (x := (cur ++ [c], ls)) (by
      intro d hd
      rcases List.mem_append.mp hd with hd | hd
      · exact hx d hd
      · rw [List.mem_singleton.mp hd]; exact hc) hf
    rw [show (disc (cur ++ [c], ls)) = { disc (cur, ls) with line := (disc (cur, ls)).line ++ Vte.utf8 c } by
      unfold disc; rw [text_snoc]] at this
    exact this
  | .back :: ss, (cur, ls), hx, ⟨_, _, hf⟩ => by
    have hd : ∀ d ∈ cur.dropLast, 32 ≤ d ∧ Spec.Utf8.Encodable d := fun d hd => hx d (List.dropLast_subset cur hd)
    have := feed_strokes ht (ss := ss) (x := (cur.dropLast, ls)) hd hf
    show ((disc (cur, ls)).feed t.setup 8).bind _ = _
    have e : (disc (cur, ls)).feed t.setup 8 = some (disc (cur.dropLast, ls)) := by
      unfold feed
      have h8 : (if (8 : UInt8) = 13 ∧ t.setup.icrnl = true then (10 : UInt8) else 8) = 8 := if_neg (by rintro ⟨h, _⟩; cases h)
      rw [h8]
      unfold put
      rw [if_neg (show ¬ (8 : UInt8) ∈ t.setup.others from fun hm => (ht.2 8 hm).2.1 rfl), if_pos (show (8 : UInt8) = t.setup.verase from rfl)]
      show some (Ldisc.mk (erase true (text cur)) _) = _
      rcases List.eq_nil_or_concat cur with rfl | ⟨l, c, rfl⟩
      · rfl
      · rw [List.concat_eq_append] at hx ⊢
        have hc := hx c (List.mem_append_right _ (List.mem_singleton.mpr rfl))
        rw [text_snoc, erase_char hc.1 hc.2, List.dropLast_concat]
        rfl
    rw [e]
    exact this
  | .enter :: ss, (cur, ls), hx, ⟨_, _, hf⟩ => by
    have := feed_strokes ht (ss := ss) (x := ([], ls ++ [cur])) (fun d hd => by cases hd) hf
    show ((disc (cur, ls)).feed t.setup 13).bind _ = _
    have e : (disc (cur, ls)).feed t.setup 13 = some (disc ([], ls ++ [cur])) := by
      unfold feed
      have h10 : (if (13 : UInt8) = 13 ∧ t.setup.icrnl = true then (10 : UInt8) else 13) = 10 := if_pos ⟨rfl, ht.1⟩
      rw [h10]
      unfold put
      rw [if_neg (show ¬ (10 : UInt8) ∈ t.setup.others from fun hm => (ht.2 10 hm).2.2 rfl),
        if_neg (show ¬ (10 : UInt8) = t.setup.verase from (by decide : ¬ (10 : UInt8) = 8)), if_pos rfl]
      unfold disc
      rw [List.map_append]
      rfl
    rw [e]
    exact this

/-- What the terminal sends for a stroke. -/
theorem keyed_stroke {c : Canvas} (hn : c.newline = false) {s : Stroke} {state : BitVec 32} {keyval ucs : Nat}
    (hk : s.Key state keyval ucs) (hs : s.Graphic) :
    c.keyed false state keyval ucs = s.bytes := by
  obtain ⟨h2, h3, hk⟩ := hk
  unfold Canvas.keyed Keys.string
  rw [h2, h3, if_neg Bool.false_ne_true, if_neg Bool.false_ne_true]
  cases s with
  | char g =>
    obtain ⟨rfl, hk⟩ := hk
    have hu := hs.2.1
    have h0 := hs.1
    dsimp only
    rw [hk, if_neg (show ucs ≠ 0 by omega)]
    dsimp only
    rw [if_neg (by omega)]
    show [] ++ Keys.character .utf8 ucs = _
    unfold Keys.character
    dsimp only
    rw [if_pos hs.2]
    rfl
  | back =>
    change keyval = 0xff08 at hk
    subst hk
    rfl
  | enter =>
    change keyval = 0xff0d at hk
    subst hk
    show (if c.newline = true then [13, 10] else [13]) = [13]
    rw [hn, if_neg Bool.false_ne_true]

/-- What a program gets to read while a user types. -/
theorem answers_typed {c : Canvas} {ts : List Gtk.Turn} {ss : List Stroke} (h : Typed c ts ss)
    (hs : ∀ s ∈ ss, s.Graphic) :
    Gtk.Turn.answers false c ts = ss.flatMap Stroke.bytes := by
  induction h with
  | done => rfl
  | prints h1 _ ih =>
    unfold Gtk.Turn.answers
    rw [h1]
    exact ih hs
  | @types _ s _ _ _ _ _ _ h1 h2 _ ih =>
    unfold Gtk.Turn.answers
    rw [keyed_stroke h2 h1 (hs s List.mem_cons_self), ih (fun s h => hs s (List.mem_cons_of_mem _ h)), List.flatMap_cons]
  | pages _ ih => exact ih hs

theorem Stroke.Fits.chars : ∀ {ss : List Stroke} {x : List Nat × List (List Nat)}, Fits x ss →
    ∀ s ∈ ss, s.Graphic
  | s :: ss, x, ⟨h1, _, h3⟩, r, hr => by
    rcases List.mem_cons.mp hr with rfl | hr
    · exact h1
    · exact Stroke.Fits.chars h3 r hr

end Verif
