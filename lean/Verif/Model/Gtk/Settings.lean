import Verif.Model.Gtk.Widget

/-!
# The properties of the widget (src/gtktsm/gtktsm-terminal.c:1103-1107, 1138-1147, 1613-1743, 1850-1904)
-/

namespace Verif.Gtk

/-- The values of `cairo_antialias_t` that are used (src/gtktsm/gtktsm-terminal.c:1630-1642). -/
inductive Aa where
  | default | none | gray | subpixel
  deriving DecidableEq, Repr

/-- `cairo_subpixel_order_t` (src/gtktsm/gtktsm-terminal.c:1648-1663). -/
inductive Order where
  | default | rgb | bgr | vrgb | vbgr
  deriving DecidableEq, Repr

/-- The faces that `gtktsm_face_new` makes for a description, an anti-aliasing mode and an order of subpixels
(src/gtktsm/gtktsm-terminal.c:280-323); `none` if it fails for the regular one. A parameter of the model. -/
abbrev Maker := String → Aa → Order → Option Faces

/-- `GtkTsmTerminalPrivate` with the fields of the properties (src/gtktsm/gtktsm-terminal.c:1104-1107,
1135); `show_dirty` is part of `Wid`. The font is `none` if the pointer is NULL. -/
structure Term where
  w : Wid
  font : Option String
  aa : Aa
  order : Order
  sbSize : Nat
  debug : Bool

/-- The widget stopped, or NULL was given to `strcmp`. -/
inductive Halt where
  | stop (s : Stop)
  | null
  deriving DecidableEq, Repr

/-- A property with the value it is set to; the types are checked by GObject
(src/gtktsm/gtktsm-terminal.c:1138-1147, 1861-1900). A string may be NULL. -/
inductive Setting where
  | font (s : Option String)
  | sbSize (n : Nat)
  | antiAliasing (s : Option String)
  | subpixelOrder (s : Option String)
  | showDirty (on : Bool)
  | debug (on : Bool)
  deriving DecidableEq, Repr

/-- The name of a property (src/gtktsm/gtktsm-terminal.c:1138-1147). -/
inductive Property where
  | font | sbSize | antiAliasing | subpixelOrder | showDirty | debug
  deriving DecidableEq, Repr

/-- The strings for anti-aliasing (src/gtktsm/gtktsm-terminal.c:1703-1710). -/
def Aa.parse (s : String) : Aa :=
  if s = "none" then .none
  else if s = "gray" then .gray
  else if s = "subpixel" then .subpixel
  else .default

/-- The string for a mode (src/gtktsm/gtktsm-terminal.c:1630-1643). -/
def Aa.text : Aa → String
  | .none => "none"
  | .gray => "gray"
  | .subpixel => "subpixel"
  | .default => "default"

/-- The strings for orders of subpixels (src/gtktsm/gtktsm-terminal.c:1715-1724). -/
def Order.parse (s : String) : Order :=
  if s = "rgb" then .rgb
  else if s = "bgr" then .bgr
  else if s = "vrgb" then .vrgb
  else if s = "vbgr" then .vbgr
  else .default

/-- The string for an order (src/gtktsm/gtktsm-terminal.c:1648-1664). -/
def Order.text : Order → String
  | .rgb => "rgb"
  | .bgr => "bgr"
  | .vrgb => "vrgb"
  | .vbgr => "vbgr"
  | .default => "default"

namespace Term

/-- `terminal_get_property` (src/gtktsm/gtktsm-terminal.c:1613-1678), with the name of the property. -/
def get (t : Term) : Property → Setting
  | .font => .font t.font
  | .sbSize => .sbSize t.sbSize
  | .antiAliasing => .antiAliasing (some t.aa.text)
  | .subpixelOrder => .subpixelOrder (some t.order.text)
  | .showDirty => .showDirty t.w.showDirty
  | .debug => .debug t.debug

/-- The faces for the properties (src/gtktsm/gtktsm-terminal.c:1189-1242); without a description there are none
(289-290). -/
def made (mk : Maker) (t : Term) : Option Faces :=
  match t.font with
  | none => none
  | some d => mk d t.aa t.order

/-- Continue with another widget, unless it has stopped. -/
def via (t : Term) : W Wid → Except Halt Term
  | .ok w => .ok { t with w := w }
  | .error s => .error (.stop s)

/-- New faces if there are some already (src/gtktsm/gtktsm-terminal.c:1739-1742). -/
def refont (mk : Maker) (ink : Ink) (t : Term) : Except Halt Term := t.via (t.w.step ink (.font (t.made mk)))

/-- `terminal_set_property` (src/gtktsm/gtktsm-terminal.c:1680-1743). -/
def set (mk : Maker) (ink : Ink) (t : Term) : Setting → Except Halt Term
  | .font s => { t with font := s }.refont mk ink
  | .sbSize n => { t with sbSize := n }.via (t.w.step ink (.sbSize n))
  | .antiAliasing none => .error .null
  | .antiAliasing (some s) => { t with aa := Aa.parse s }.refont mk ink
  | .subpixelOrder none => .error .null
  | .subpixelOrder (some s) => { t with order := Order.parse s }.refont mk ink
  | .showDirty on => t.via (t.w.step ink (.showDirty on))
  | .debug on => .ok { t with debug := on, w := { t.w with queued := true } }

/-- What happens to a widget: a property is set, `gtktsm_terminal_fork` is called
(src/gtktsm/gtktsm-terminal.c:1976-2009), or another event. -/
inductive Ev where
  | set (s : Setting)
  | fork
  | other (e : Wid.Ev)

/-- One event (src/gtktsm/gtktsm-terminal.c:1163-2009). -/
def step (mk : Maker) (ink : Ink) (t : Term) : Ev → Except Halt Term
  | .set s => t.set mk ink s
  | .fork => t.via (t.w.step ink (.fork (t.made mk)))
  | .other e => t.via (t.w.step ink e)

/-- Events one after the other. -/
def runAll (mk : Maker) (ink : Ink) : List Ev → Term → Except Halt Term
  | [], t => .ok t
  | e :: es, t => t.step mk ink e >>= runAll mk ink es

/-- `gtktsm_terminal_new` (src/gtktsm/gtktsm-terminal.c:1938-1942): `gtktsm_terminal_init`, then the four properties
that are set on construction (1860-1888). `Wid.init` already contains the effect of `sb-size`; the others have none
on a widget without faces, so their order is irrelevant. -/
def init (mk : Maker) (ink : Ink) (s : Screen) (sg : Bool) (mem : Nat → Bool) : Except Halt Term :=
  match Wid.init s sg mem with
  | .error e => .error (.stop e)
  | .ok w =>
    runAll mk ink [.set (.font (some "Monospace")), .set (.antiAliasing (some "default")), .set (.subpixelOrder (some "default"))]
      { w := w, font := none, aa := .default, order := .default, sbSize := 2000, debug := false }

end Term
end Verif.Gtk
