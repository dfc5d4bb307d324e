import Verif.Model.Base
import Verif.Props.Utf8
import Verif.Props.Wcwidth
import Verif.Proofs.Screen.Render
import Verif.Props.Screen.Safety
import Verif.Props.Screen.Edit
import Verif.Props.Screen.Scroll
import Verif.Props.Screen.Move
import Verif.Props.Screen.Admin
import Verif.Props.Screen.Text
import Verif.Props.Screen.Render
import Verif.Props.Screen.Damage
import Verif.Props.Screen.Selection
import Verif.Props.Screen.Origin
import Verif.Props.Screen.Settings
import Verif.Props.Screen.Memory
import Verif.Props.Vte.Lifetime
import Verif.Props.Vte.Tracking
import Verif.Props.Shared.Ring
import Verif.Props.Shared.Pty
import Verif.Props.Shared.PtyLife
import Verif.Props.Shared.Bridge
import Verif.Props.Shared.Array
import Verif.Props.Shared.Htable
import Verif.Props.Symbol
import Verif.Props.Vte.Input
import Verif.Props.Vte.Csi
import Verif.Props.Vte.Sgr
import Verif.Props.Vte.State
import Verif.Props.Vte.Text
import Verif.Props.Vte.Keys
import Verif.Props.Vte.Outside
import Verif.Props.Vte.Trace
import Verif.Props.Vte.Controls
import Verif.Props.Vte.Modes
import Verif.Props.Vte.Level
import Verif.Props.Vte.Inter
import Verif.Props.Vte.Canvas
import Verif.Props.Vte.Resync
import Verif.Props.Gtk.Renderer
import Verif.Props.Gtk.Picture
import Verif.Props.Gtk.Sizes
import Verif.Props.Gtk.Flow
import Verif.Props.Gtk.Select
import Verif.Props.Gtk.Keys
import Verif.Props.Gtk.Title
import Verif.Props.Gtk.Redraw
import Verif.Props.Gtk.Safe
import Verif.Props.Vte.History
import Verif.Props.Gtk.Window
import Verif.Props.Unicode
import Verif.Props.Gtk.End
import Verif.Props.Shared.Strtab
import Verif.Props.Shared.Macro
import Verif.Props.Gtk.Life
import Verif.Props.Gtk.Session
import Verif.Props.Gtk.Frames
import Verif.Props.Vte.Seven
import Verif.Props.Gtk.Settings
import Verif.Props.Gtk.Paint
import Verif.Props.Shared.PtyNest
import Verif.Props.Gtk.Lines
import Verif.Props.Gtk.App
import Verif.Props.Gtk.Drag
