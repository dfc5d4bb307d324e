import Verif.Props.Vte.Keys

/-!
# C57: positions outside of the window

While a button is held the pointer can leave the window; a toolkit then gives positions with a negative sign, which
`tsm_vte_handle_mouse` takes as `unsigned int` and prints with `%d` (src/tsm/tsm-vte.c:3188, 3198).
-/

namespace Verif
namespace Mouse

/-- Reading a decimal number with an optional sign from the front. -/
def signed (bs : List UInt8) : Int × List UInt8 :=
  match bs with
  | 45 :: r => (-((digits r).1 : Int), (digits r).2)
  | r => (((digits r).1 : Int), (digits r).2)

/-- Decoding `ESC [ < b ; x ; y M` or `m` with signed coordinates. -/
def decodeSigned (bs : List UInt8) : Option (Nat × Int × Int × Bool) :=
  match bs with
  | 27 :: 91 :: 60 :: r =>
    match (digits r).2 with
    | 59 :: r1 =>
      match (signed r1).2 with
      | 59 :: r2 =>
        match (signed r2).2 with
        | [77] => some ((digits r).1, (signed r1).1, (signed r2).1, true)
        | [109] => some ((digits r).1, (signed r1).1, (signed r2).1, false)
        | _ => none
      | _ => none
    | _ => none
  | _ => none

/-- An `int` passed as `unsigned int`. -/
def asUnsigned (x : Int) : Nat := (x % 4294967296).toNat

end Mouse

namespace Vte

/-- What is printed for a number of at most seven characters. -/
theorem decInt_text {x : Int} (h1 : -1000000 < x) (h2 : x < 10000000) :
    (decInt (Mouse.asUnsigned x)).length ≤ 7 ∧ (∀ d ∈ decInt (Mouse.asUnsigned x), d ≠ 0) ∧
      ∀ {c : UInt8}, ¬ IsDigit c → ∀ r, Mouse.signed (decInt (Mouse.asUnsigned x) ++ c :: r) = (x, c :: r) := by
  unfold decInt Mouse.asUnsigned
  rcases Int.lt_or_le x 0 with h | h
  · have e : (x % 4294967296).toNat = 4294967296 - (-x).toNat := by omega
    rw [e, if_neg (by omega), show 2 ^ 32 - (4294967296 - (-x).toNat) = (-x).toNat by omega]
    have hl := dec_length (n := (-x).toNat) (k := 6) (by decide) (by omega)
    refine ⟨by simp only [List.length_cons]; omega, ?_, ?_⟩
    · intro d hd
      rcases List.mem_cons.mp hd with hd | hd
      · subst hd; decide
      · exact dec_ne_zero (by omega) d hd
    · intro c hc r
      show (-((Mouse.digits (dec (-x).toNat ++ c :: r)).1 : Int), (Mouse.digits (dec (-x).toNat ++ c :: r)).2) = _
      rw [digits_dec (by omega) hc]
      show (-(((-x).toNat : Nat) : Int), c :: r) = (x, c :: r)
      rw [show (-(((-x).toNat : Nat) : Int)) = x by omega]
  · have e : (x % 4294967296).toNat = x.toNat := by omega
    rw [e, if_pos (by omega)]
    have hl := dec_length (n := x.toNat) (k := 7) (by decide) (by omega)
    refine ⟨hl, dec_ne_zero (by omega), ?_⟩
    intro c hc r
    have hd := dec_spec (n := x.toNat) (by omega)
    have hs : Mouse.signed (dec x.toNat ++ c :: r) =
        (((Mouse.digits (dec x.toNat ++ c :: r)).1 : Int), (Mouse.digits (dec x.toNat ++ c :: r)).2) := by
      cases hx : dec x.toNat ++ c :: r with
      | nil => rfl
      | cons a l =>
        unfold Mouse.signed
        split
        · rename_i heq
          exfalso
          injection heq with ha _
          cases hn : dec x.toNat with
          | nil => exact hd.2.2.1 hn
          | cons b m =>
            have := hd.2.1 b (by rw [hn]; exact List.mem_cons_self ..)
            rw [hn] at hx
            injection hx with hb _
            rw [hb, ha] at this
            revert this
            unfold IsDigit
            decide
        · rfl
    rw [hs, digits_dec (by omega) hc]
    show (((x.toNat : Nat) : Int), c :: r) = (x, c :: r)
    rw [show ((x.toNat : Nat) : Int) = x by omega]

/-- A report with signed coordinates can be read. -/
theorem report_signed {b : Nat} {x y : Int} {p : Bool} (hb : b < 256) (hx1 : -1000000 < x) (hx2 : x < 10000000)
    (hy1 : -1000000 < y) (hy2 : y < 10000000) :
    Mouse.decodeSigned (sgrReport b (Mouse.asUnsigned x) (Mouse.asUnsigned y) p) = some (b, x, y, p) := by
  obtain ⟨lx, zx, dx⟩ := decInt_text hx1 hx2
  obtain ⟨ly, zy, dy⟩ := decInt_text hy1 hy2
  have l1 := dec_length (n := b) (k := 3) (by decide) (by omega)
  have hbd : decInt b = dec b := if_pos (by omega)
  have e : sgrReport b (Mouse.asUnsigned x) (Mouse.asUnsigned y) p = 27 :: 91 :: 60 :: (dec b ++ 59 ::
      (decInt (Mouse.asUnsigned x) ++ 59 :: (decInt (Mouse.asUnsigned y) ++ [if p then 77 else 109]))) := by
    unfold sgrReport
    rw [hbd, cString_id]
    · simp
    · simp only [List.length_append, List.length_cons, List.length_nil]
      omega
    · simp only [List.forall_mem_append]
      refine ⟨⟨⟨⟨⟨⟨by decide, dec_ne_zero (by omega)⟩, by decide⟩, zx⟩, by decide⟩, zy⟩, ?_⟩
      cases p <;> decide
  have n59 : ¬ IsDigit 59 := by unfold IsDigit; decide
  have n77 : ¬ IsDigit 77 := by unfold IsDigit; decide
  have n109 : ¬ IsDigit 109 := by unfold IsDigit; decide
  rw [e]
  unfold Mouse.decodeSigned
  simp only [digits_dec (show b < 2 ^ 32 by omega) n59, dx n59]
  cases p
  · rw [if_neg (by decide), dy n109]; rfl
  · rw [if_pos rfl, dy n77]; rfl

/-- **C57**, pressing and releasing in pixel mode, also left of the window or above it: decoding the report gives the
position with its sign. Missing: positions that need more than seven characters (`C57_false_large`). -/
theorem C57_pixel_outside_partial {v : Vte} (hr : Reachable v) (hm : v.mouseMode = 1016) (he : v.mouseEvent ≠ 0)
    {cx cy button event mods : Nat} {x y : Int} (hx1 : -1000000 < x) (hx2 : x < 10000000) (hy1 : -1000000 < y) (hy2 : y < 10000000)
    (hb : button ∈ Mouse.buttons) (hmo : mods ∈ Mouse.modifiers) (ev : event.testBit 2 = false) :
    ∃ bs c, Mouse.Reports v bs (v.mouse cx cy (Mouse.asUnsigned x) (Mouse.asUnsigned y) button event mods) ∧
      Mouse.decodeSigned bs = some (c, x, y, event.testBit 0) ∧ Mouse.buttonOf c = (button, mods) := by
  obtain ⟨h, _, hp⟩ := hr.all
  obtain ⟨hb1, hb2⟩ := sgrButton_ok hb hmo
  refine ⟨_, sgrButton button mods, ?_, report_signed (by omega) hx1 hx2 hy1 hy2, hb2⟩
  have : v.mouse cx cy (Mouse.asUnsigned x) (Mouse.asUnsigned y) button event mods =
      (v.write (sgrReport (sgrButton button mods) (Mouse.asUnsigned x) (Mouse.asUnsigned y) (event.testBit 0)) >>=
        fun v' => pure (v', true)) := by
    unfold Vte.mouse pixelReport
    rw [if_neg (by rw [ev]; intro h; cases h.2), if_neg (by rw [hm]; decide), if_neg (by rw [hm]; intro h; cases h.1),
      if_pos ⟨hm, he⟩, if_neg (by intro e; rw [e] at ev; exact absurd ev (by decide))]
  rw [this]
  exact write_reports h hp _

/-- **C57**, pressing and releasing in SGR mode, also left of the window or above it: decoding the report gives the
position counted from 1, that is 0 for the column left of the first. -/
theorem C57_outside_partial {v : Vte} (hr : Reachable v) (hm : v.mouseMode = 1006) (he : v.mouseEvent ≠ 0)
    {px py button event mods : Nat} {x y : Int} (hx1 : -1000001 < x) (hx2 : x < 9999999) (hy1 : -1000001 < y) (hy2 : y < 9999999)
    (hb : button ∈ Mouse.buttons) (hmo : mods ∈ Mouse.modifiers) (ev : event.testBit 2 = false) :
    ∃ bs c, Mouse.Reports v bs (v.mouse (Mouse.asUnsigned x) (Mouse.asUnsigned y) px py button event mods) ∧
      Mouse.decodeSigned bs = some (c, x + 1, y + 1, event.testBit 0) ∧ Mouse.buttonOf c = (button, mods) := by
  obtain ⟨h, _, hp⟩ := hr.all
  obtain ⟨hb1, hb2⟩ := sgrButton_ok hb hmo
  have hu : ∀ {x : Int}, u32 (Mouse.asUnsigned x + 1) = Mouse.asUnsigned (x + 1) := by
    intro x
    show ((x % 4294967296).toNat + 1) % 4294967296 = ((x + 1) % 4294967296).toNat
    omega
  refine ⟨_, sgrButton button mods, ?_, report_signed (x := x + 1) (y := y + 1) (by omega) (by omega) (by omega) (by omega) (by omega), hb2⟩
  rw [mouse_sgr hm he ev, hu, hu]
  exact write_reports h hp _

/-- The hypotheses are met, and a press five pixels left of the window gives `ESC [ < 0 ; - 5 ; 7 M`. -/
example : ∃ v, Reachable v ∧ v.mouseMode = 1016 ∧ v.mouseEvent ≠ 0 ∧
    ∃ v', v.mouse 0 0 (Mouse.asUnsigned (-5)) 7 0 1 0 = .ok (v', true) ∧
      v'.log = v.log ++ [.write [27, 91, 60, 48, 59, 45, 53, 59, 55, 77]] := by
  obtain ⟨v, h, hp⟩ := exists_of_vholds (cs := []) (sg := true)
    (vs := [.input [27, 91, 63, 49, 48, 48, 51, 104, 27, 91, 63, 49, 48, 49, 54, 104]])
    (P := fun v => decide (v.mouseMode = 1016) && (decide (v.mouseEvent ≠ 0) && gives (v.mouse 0 0 (Mouse.asUnsigned (-5)) 7 0 1 0)
      (fun r => r.2 && decide (r.1.log = v.log ++ [.write [27, 91, 60, 48, 59, 45, 53, 59, 55, 77]])))) (by decide +kernel)
  rw [Bool.and_eq_true, Bool.and_eq_true, decide_eq_true_eq, decide_eq_true_eq] at hp
  obtain ⟨h1, h2, hp⟩ := hp
  obtain ⟨⟨w, r⟩, e, hp⟩ := of_gives hp
  rw [Bool.and_eq_true, decide_eq_true_eq] at hp
  obtain ⟨h3, h4⟩ := hp
  dsimp only at h3 h4
  subst h3
  exact ⟨v, h, h1, h2, w, e, h4⟩

end Vte
end Verif
