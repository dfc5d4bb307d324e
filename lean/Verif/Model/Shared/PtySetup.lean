/-!
# The terminal attributes of the child (src/shared/shl-pty.c)
-/

namespace Verif

/-- `struct termios` as far as it matters for lines that are typed: the characters for erasing and for other purposes,
IUTF8 and ICRNL; ICANON is set (src/shared/shl-pty.c:104). -/
structure Termios where
  verase : UInt8
  iutf8 : Bool
  icrnl : Bool
  /-- VINTR, VQUIT, VKILL, VEOF, VSTART, VSTOP, VSUSP, VREPRINT, VDISCARD, VWERASE, VLNEXT -/
  others : List UInt8
deriving DecidableEq, Repr

namespace Termios

/-- The attributes of a new pty under Linux, read by `tcgetattr` (src/shared/shl-pty.c:107-109). -/
def linux : Termios :=
  { verase := 127, iutf8 := false, icrnl := true, others := [3, 28, 21, 4, 17, 19, 26, 18, 15, 23, 22] }

/-- What `pty_setup_child` makes of them (src/shared/shl-pty.c:111-118). -/
def setup (t : Termios) : Termios := { t with verase := 8, iutf8 := true }

end Termios
end Verif
