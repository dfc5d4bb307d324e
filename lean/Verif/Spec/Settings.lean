import Verif.Spec.View
import Verif.Model.ScreenApi

/-!
# Which calls may change a setting of the screen
-/

namespace Verif

open Screen (Call)

/-- The calls that change a mode, or which of the two screens is shown. -/
def Screen.Call.setsModes : Call → Bool
  | .setFlags _ | .resetFlags _ | .reset => true
  | _ => false

/-- The calls that change the size. -/
def Screen.Call.setsSize : Call → Bool
  | .resize _ _ => true
  | _ => false

/-- The calls that change the margins. -/
def Screen.Call.setsMargins : Call → Bool
  | .setMargins _ _ | .reset | .resize _ _ => true
  | _ => false

/-- The calls that change a tab stop. -/
def Screen.Call.setsTabs : Call → Bool
  | .setTabstop | .resetTabstop | .resetAllTabstops | .reset | .resize _ _ => true
  | _ => false

/-- The calls that change the default attributes. -/
def Screen.Call.setsAttr : Call → Bool
  | .setDefAttr _ => true
  | _ => false

/-- The calls that change the maximal size of the scrollback. -/
def Screen.Call.setsMaxSb : Call → Bool
  | .setMaxSb _ => true
  | _ => false

/-- Every setting is as before, unless the call is one of those that set it. -/
structure View.Settled (c : Call) (v v' : View) : Prop where
  modes : c.setsModes = false → v'.flags = v.flags ∧ v'.useAlt = v.useAlt ∧ v'.defAttrMain = v.defAttrMain
  size : c.setsSize = false → v'.sizeX = v.sizeX ∧ v'.sizeY = v.sizeY
  margins : c.setsMargins = false → v'.marginTop = v.marginTop ∧ v'.marginBottom = v.marginBottom
  tabs : c.setsTabs = false → v'.tabs = v.tabs
  attr : c.setsAttr = false → v'.defAttr = v.defAttr
  maxSb : c.setsMaxSb = false → v'.sbMax = v.sbMax

end Verif
