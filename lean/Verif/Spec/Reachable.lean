import Verif.Model.ScreenApi
import Verif.Spec.Screen

/-!
# Reachable screens

The screens a user of the library can ever see between two calls.
-/

namespace Verif
namespace Screen

/-- `s` is the result of creating a screen and making any number of calls with
arguments of their C types, with any pattern of failing allocations. -/
def Reachable (s : Screen) : Prop :=
  ∃ (allocOk : Nat → Bool) (cs : List Call), (∀ c ∈ cs, c.Valid) ∧
    history allocOk cs = .ok (some s)

/-- No allocation fails on this screen. -/
def MemOk (s : Screen) : Prop := ∀ k, s.allocOk k = true

end Screen

namespace View

/-- The calls that administrate the scrollback itself. -/
def sbAdmin : Screen.Call → Bool
  | .setMaxSb _ | .clearSb => true
  | _ => false

/-- The calls that can change a flag. -/
def flagCall : Screen.Call → Bool
  | .setFlags _ | .resetFlags _ | .reset => true
  | _ => false

/-- The calls that can scroll the screen up and so feed the scrollback. -/
def scrolls : Screen.Call → Bool
  | .write _ _ | .newline | .scrollUp _ | .moveDown _ true | .resize _ _ => true
  | _ => false

/-- The scrollback of `v'` is that of `v` with the rows `pushed` appended, as far
as the maximum allows. -/
structure Fed (v v' : View) (pushed : List (List Glyph)) : Prop where
  sb : v'.sb = newest v.sbMax (v.sb ++ number v.sbLastId pushed)
  last : v'.sbLastId = if v.sbMax = 0 then v.sbLastId else v.sbLastId + pushed.length

/-- What no call but `resize` ever changes: the size, and the buffer that is not
displayed; on the alternate screen also the scrollback, unless it is
administrated explicitly. On the main screen it is only appended to, and only by
calls that scroll. -/
structure Keeps (c : Screen.Call) (v v' : View) : Prop where
  sizeX : v'.sizeX = v.sizeX
  sizeY : v'.sizeY = v.sizeY
  main : v.useAlt = true → v'.main = v.main
  alt : v.useAlt = false → v'.alt = v.alt
  sb : v.useAlt = true → sbAdmin c = false → v'.sb = v.sb ∧ v'.sbLastId = v.sbLastId
  flags : flagCall c = false → v'.flags = v.flags
  push : sbAdmin c = false → (v'.sb = v.sb ∧ v'.sbLastId = v.sbLastId) ∨
    (scrolls c = true ∧ ∃ pushed, Fed v v' pushed)
  max : (∀ m, c ≠ .setMaxSb m) → v'.sbMax = v.sbMax

end View
end Verif
