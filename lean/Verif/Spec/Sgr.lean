import Verif.Model.Screen

/-!
# What SGR sequences mean

Written independently of the implementation: each attribute on its own, and the extended
colours as a grammar on the list of parameters.
-/

namespace Verif
namespace Sgr

/-- A colour: an entry of the palette, or red, green and blue. -/
inductive Colour where
  | entry (k : Nat)
  | rgb (r g b : Nat)

/-- The six levels of the colour cube: 0, 95, 135, 175, 215, 255. -/
def level (k : Nat) : Nat := if k = 0 then 0 else 55 + 40 * k

/-- Colour `n` of the 256 colours: 16 entries of the palette, a cube of 6×6×6 colours, 24 greys.
Larger numbers continue the greys modulo 256. -/
def indexed (n : Nat) : Colour :=
  if n < 16 then .entry n
  else if n < 232 then .rgb (level ((n - 16) / 36)) (level ((n - 16) / 6 % 6)) (level ((n - 16) % 6))
  else .rgb ((8 + 10 * (n - 232)) % 256) ((8 + 10 * (n - 232)) % 256) ((8 + 10 * (n - 232)) % 256)

/-- Setting the foreground. The code of an RGB colour is -1; the RGB values of an entry of the
palette are filled in later (`Resolved`). -/
def withFore (a : Attr) : Colour → Attr
  | .entry k => { a with fccode := k, fr := 0, fg := 0, fb := 0 }
  | .rgb r g b => { a with fccode := -1, fr := r, fg := g, fb := b }

/-- Setting the background. -/
def withBack (a : Attr) : Colour → Attr
  | .entry k => { a with bccode := k, br := 0, bg := 0, bb := 0 }
  | .rgb r g b => { a with bccode := -1, br := r, bg := g, bb := b }

/-- What follows 38 or 48: `5 ; n` or `2 ; r ; g ; b`, with the number of parameters used. -/
def extended : List Int → Option (Colour × Nat)
  | m :: n :: rest =>
    if m = 5 then if 0 ≤ n then some (indexed n.toNat, 2) else none
    else if m = 2 then
      match rest with
      | g :: b :: _ =>
        if 0 ≤ n ∧ 0 ≤ g ∧ 0 ≤ b then some (.rgb (n.toNat % 256) (g.toNat % 256) (b.toNat % 256), 4) else none
      | _ => none
    else none
  | _ => none

/-- The effect of a parameter other than 38 and 48 on the attributes `a`; `d` are the default
attributes. -/
def plain (d a : Attr) (p : Int) : Attr :=
  { fccode :=
      if 30 ≤ p ∧ p ≤ 37 then p - 30 else if 90 ≤ p ∧ p ≤ 97 then p - 90 + 8
      else if p = 0 ∨ p = 39 then d.fccode else a.fccode
    fr := if p = 0 ∨ p = 39 then d.fr else a.fr
    fg := if p = 0 ∨ p = 39 then d.fg else a.fg
    fb := if p = 0 ∨ p = 39 then d.fb else a.fb
    bccode :=
      if 40 ≤ p ∧ p ≤ 47 then p - 40 else if 100 ≤ p ∧ p ≤ 107 then p - 100 + 8
      else if p = 0 ∨ p = 49 then d.bccode else a.bccode
    br := if p = 0 ∨ p = 49 then d.br else a.br
    bg := if p = 0 ∨ p = 49 then d.bg else a.bg
    bb := if p = 0 ∨ p = 49 then d.bb else a.bb
    bold := if p = 1 then true else if p = 0 ∨ p = 22 then false else a.bold
    italic := if p = 3 then true else if p = 0 ∨ p = 23 then false else a.italic
    underline := if p = 4 then true else if p = 0 ∨ p = 24 then false else a.underline
    blink := if p = 5 then true else if p = 0 ∨ p = 25 then false else a.blink
    inverse := if p = 7 then true else if p = 0 ∨ p = 27 then false else a.inverse
    protect := a.protect }

/-- The effect of at most `k` groups of parameters. 38 and 48 that are not followed by a colour
are skipped. -/
def groups (d : Attr) : Nat → Attr → List Int → Attr
  | 0, a, _ => a
  | _ + 1, a, [] => a
  | k + 1, a, p :: ps =>
    if p = 38 ∨ p = 48 then
      match extended ps with
      | some (c, n) => groups d k (if p = 38 then withFore a c else withBack a c) (ps.drop n)
      | none => groups d k a ps
    else groups d k (plain d a p) ps

/-- The effect of a list of parameters. -/
def attributes (d a : Attr) (ps : List Int) : Attr := groups d ps.length a ps

/-- The entry of the palette for the foreground: bold text uses the bright colours. -/
def foreEntry (a : Attr) : Int := if a.bold = true ∧ a.fccode < 8 then a.fccode + 8 else a.fccode

/-- `b` is `a` with the RGB values of the entries of the palette `p` filled in; all entries
exist. -/
structure Resolved (p : List (Nat × Nat × Nat)) (a b : Attr) : Prop where
  same : b = { a with fr := b.fr, fg := b.fg, fb := b.fb, br := b.br, bg := b.bg, bb := b.bb }
  fore : 0 ≤ a.fccode → p[(foreEntry a).toNat]? = some (b.fr, b.fg, b.fb)
  foreRgb : a.fccode < 0 → b.fr = a.fr ∧ b.fg = a.fg ∧ b.fb = a.fb
  back : 0 ≤ a.bccode → p[a.bccode.toNat]? = some (b.br, b.bg, b.bb)
  backRgb : a.bccode < 0 → b.br = a.br ∧ b.bg = a.bg ∧ b.bb = a.bb

end Sgr
end Verif
