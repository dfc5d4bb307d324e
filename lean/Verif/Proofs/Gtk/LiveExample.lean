import Verif.Proofs.Gtk.Live

/-!
# Examples of widgets
-/

namespace Verif.Gtk
open Verif

/-- Nothing can be drawn. -/
def noInk : Ink := fun _ _ _ => none

/-- A face with cells of 10 by 20 pixels, or of 5 by 10. -/
def face10 : Face := { key := 0, format := .a8, width := 10, height := 20, underlinePos := 16, lineThickness := 1, glyphs := fun _ => none }
def face5 : Face := { key := 1, format := .a8, width := 5, height := 10, underlinePos := 9, lineThickness := 1, glyphs := fun _ => none }

def faces10 : Faces := ⟨face10, none, none⟩
def faces5 : Faces := ⟨face5, none, none⟩

theorem faces10_fresh : faces10.Fresh :=
  ⟨⟨0, .a8, 880, 20, 15, by decide, by decide, by decide, rfl⟩, fun _ e => (nomatch e), fun _ e => (nomatch e)⟩

theorem faces5_fresh : faces5.Fresh :=
  ⟨⟨1, .a8, 440, 10, 8, by decide, by decide, by decide, rfl⟩, fun _ e => (nomatch e), fun _ e => (nomatch e)⟩

/-- A new widget. -/
def wstart : W Wid :=
  match Screen.new (fun _ => true) with
  | .ok (some s) => Wid.init s true (fun _ => true)
  | _ => .error .abort

def wholds (es : List Wid.Ev) (P : Wid → Bool) : Bool :=
  match wstart with
  | .ok w =>
    match Wid.runAll noInk es w with
    | .ok w => P w
    | .error _ => false
  | .error _ => false

theorem wstart_live {w : Wid} (h : wstart = .ok w) (ink : Ink) : Live ink w := by
  unfold wstart at h
  split at h
  · rename_i s hs
    exact ⟨_, s, true, _, w, [], hs, h, fun _ h => (nomatch h), rfl⟩
  · cases h

theorem exists_of_wholds {es : List Wid.Ev} {P : Wid → Bool} (hv : ∀ e ∈ es, e.Valid) (h : wholds es P = true) :
    ∃ w, Live noInk w ∧ P w = true := by
  unfold wholds at h
  split at h
  · rename_i w0 h0
    split at h
    · rename_i w hw
      exact ⟨w, (wstart_live h0 noInk).runAll hv hw, h⟩
    · cases h
  · cases h

end Verif.Gtk
