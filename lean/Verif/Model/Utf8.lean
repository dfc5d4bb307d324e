/-!
# UTF-8 encoder and decoder (src/tsm/tsm-unicode.c:342-580)
-/

namespace Verif.Utf8

/-- `TSM_UCS4_REPLACEMENT` (src/tsm/libtsm.h:116). -/
def replacement : Nat := 0xfffd

/-- `tsm_ucs4_to_utf8` (src/tsm/tsm-unicode.c:362-392). The bytes written to
`txt` are returned as a list, its length is the C return value. `g` is the
`uint32_t` argument. -/
def encode (g : Nat) : List UInt8 :=
  if 0xd800 ≤ g ∧ g ≤ 0xdfff then []
  else if g > 0x10ffff ∨ g &&& 0xffff = 0xffff ∨ g &&& 0xffff = 0xfffe then []
  else if 0xfdd0 ≤ g ∧ g ≤ 0xfdef then []
  else if g < 1 <<< 7 then
    [UInt8.ofNat (g &&& 0x7f)]
  else if g < 1 <<< (5 + 6) then
    [UInt8.ofNat (0xc0 ||| ((g >>> 6) &&& 0x1f)),
     UInt8.ofNat (0x80 ||| (g &&& 0x3f))]
  else if g < 1 <<< (4 + 6 + 6) then
    [UInt8.ofNat (0xe0 ||| ((g >>> 12) &&& 0x0f)),
     UInt8.ofNat (0x80 ||| ((g >>> 6) &&& 0x3f)),
     UInt8.ofNat (0x80 ||| (g &&& 0x3f))]
  else if g < 1 <<< (3 + 6 + 6 + 6) then
    [UInt8.ofNat (0xf0 ||| ((g >>> 18) &&& 0x07)),
     UInt8.ofNat (0x80 ||| ((g >>> 12) &&& 0x3f)),
     UInt8.ofNat (0x80 ||| ((g >>> 6) &&& 0x3f)),
     UInt8.ofNat (0x80 ||| (g &&& 0x3f))]
  else []

/-- `tsm_ucs4_to_utf8_alloc` (src/tsm/tsm-unicode.c:395-416), with a successful
`malloc(4 * len)`: the concatenation, or NULL (`none`) if nothing was written.
The destination has `4 * len` bytes; `encode` writes at most 4 per element. -/
def encodeAlloc (l : List Nat) : Option (List UInt8) :=
  let out := l.flatMap encode
  if out.length = 0 then none else some out

/-- `enum tsm_utf8_mach_state` (src/tsm/libtsm-int.h:64-71). -/
inductive St where
  | start | accept | reject | expect1 | expect2 | expect3
  deriving DecidableEq, Repr

/-- `struct tsm_utf8_mach` (src/tsm/tsm-unicode.c:466-469). -/
structure Mach where
  state : St
  ch : Nat
  deriving DecidableEq, Repr

/-- `tsm_utf8_mach_new` (src/tsm/tsm-unicode.c:471-487). -/
def new : Mach := { state := .start, ch := 0 }

/-- `tsm_utf8_mach_reset` (src/tsm/tsm-unicode.c:574-580). -/
def reset (m : Mach) : Mach := { m with state := .start }

/-- The implicit conversion `c = ci` from plain `char` to `uint32_t`
(src/tsm/tsm-unicode.c:504): if plain `char` is signed (x86), bytes above 0x7f
are sign extended to 0xffffffXX. -/
def conv (sg : Bool) (b : UInt8) : Nat :=
  if sg ∧ 128 ≤ b.toNat then b.toNat + 0xffffff00 else b.toNat

/-- `tsm_utf8_mach_feed` (src/tsm/tsm-unicode.c:497-564); `sg` says whether
plain `char` is signed. The C return value is the new `state`. The `default`
case of the switch is unreachable as `state` only takes the enum values. -/
def feed (sg : Bool) (m : Mach) (ci : UInt8) : Mach :=
  let c := conv sg ci
  match m.state with
  | .start | .accept | .reject =>
    if c = 0xC0 ∨ c = 0xC1 then { m with state := .reject }
    else if c &&& 0x80 = 0 then { state := .accept, ch := c }
    else if c &&& 0xC0 = 0x80 then { m with state := .start }
    else if c &&& 0xE0 = 0xC0 then { state := .expect1, ch := (c &&& 0x1F) <<< 6 }
    else if c &&& 0xF0 = 0xE0 then { state := .expect2, ch := (c &&& 0x0F) <<< 12 }
    else if c &&& 0xF8 = 0xF0 then { state := .expect3, ch := (c &&& 0x07) <<< 18 }
    else { m with state := .reject }
  | .expect3 =>
    { ch := m.ch ||| ((c &&& 0x3F) <<< 12),
      state := if c &&& 0xC0 = 0x80 then .expect2 else .reject }
  | .expect2 =>
    { ch := m.ch ||| ((c &&& 0x3F) <<< 6),
      state := if c &&& 0xC0 = 0x80 then .expect1 else .reject }
  | .expect1 =>
    { ch := m.ch ||| (c &&& 0x3F),
      state := if c &&& 0xC0 = 0x80 then .accept else .reject }

/-- `tsm_utf8_mach_get` (src/tsm/tsm-unicode.c:566-572). -/
def get (m : Mach) : Nat :=
  if m.state = .accept then m.ch else replacement

/-- How every caller drives the machine (src/tsm/tsm-vte.c:2524-2530): feed one
byte, and if the new state is ACCEPT or REJECT consume the character. Returns
the machine after all bytes and the characters delivered. -/
def run (sg : Bool) (m : Mach) : List UInt8 → Mach × List Nat
  | [] => (m, [])
  | b :: bs =>
    let m' := feed sg m b
    let r := run sg m' bs
    if m'.state = .accept ∨ m'.state = .reject then (r.1, get m' :: r.2) else r

end Verif.Utf8
