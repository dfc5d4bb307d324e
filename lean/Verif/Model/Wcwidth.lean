import Verif.Model.Base
import Verif.Model.WcwidthTables

/-!
# Character widths (external/wcwidth/wcwidth.c, src/tsm/tsm-unicode.c:331-340)
-/

namespace Verif.Wcwidth

/-- The `while (top >= bot)` loop of `intable`
(external/wcwidth/wcwidth.c:424-435). `bot`, `top` and `mid` are C `int`s. The
first argument bounds the number of iterations; `top - bot + 1` is enough, see
`bisect_spec`. Reading `table[mid]` outside the table is undefined behaviour. -/
def bisect (t : List (Nat × Nat)) (c : Int) : Nat → Int → Int → R Bool
  | 0, _, _ => .ok false
  | n + 1, bot, top =>
    if top ≥ bot then
      let mid := (bot + top) / 2
      if mid < 0 then .error .oobTable
      else match t[mid.toNat]? with
        | none => .error .oobTable
        | some iv =>
          if (iv.2 : Int) < c then bisect t c n (mid + 1) top
          else if (iv.1 : Int) > c then bisect t c n bot (mid - 1)
          else .ok true
    else .ok false

/-- `intable` (external/wcwidth/wcwidth.c:419-437). -/
def intable (t : List (Nat × Nat)) (c : Int) : R Bool :=
  match t[0]? with
  | none => .error .oobTable
  | some iv =>
    if c < (iv.1 : Int) then .ok false
    else bisect t c t.length 0 ((t.length : Int) - 1)

/-- `wcwidth` (external/wcwidth/wcwidth.c:439-460); `ucs` is the signed
`wchar_t` argument. -/
def wcwidth (ucs : Int) : R Int :=
  if ucs = 0 ∨ ucs = 0x034F ∨ (0x200B ≤ ucs ∧ ucs ≤ 0x200F) ∨ ucs = 0x2028 ∨ ucs = 0x2029 ∨
      (0x202A ≤ ucs ∧ ucs ≤ 0x202E) ∨ (0x2060 ≤ ucs ∧ ucs ≤ 0x2063) then .ok 0
  else if ucs < 32 ∨ (0x07F ≤ ucs ∧ ucs < 0x0A0) then .ok (-1)
  else do
    if ← intable zeroWidth ucs then return 0
    if ← intable wideEastAsian ucs then return 2
    return 1

/-- Conversion of the `uint32_t` argument to a 32-bit signed `wchar_t` at the
call `wcwidth(ucs4)` (src/tsm/tsm-unicode.c:335). -/
def toWchar (ucs4 : Nat) : Int := if ucs4 < 2147483648 then ucs4 else (ucs4 : Int) - 4294967296

/-- `tsm_ucs4_get_width` (src/tsm/tsm-unicode.c:331-340). -/
def ucs4GetWidth (ucs4 : Nat) : R Nat := do
  let ret ← wcwidth (toWchar ucs4)
  if ret ≤ 0 then return 0
  return ret.toNat

end Verif.Wcwidth
