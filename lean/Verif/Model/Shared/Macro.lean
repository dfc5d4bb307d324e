import Verif.Model.Shared.Ring

/-!
# Arithmetic helpers (src/shared/shl-macro.h)

Types are given by their number of bits; values are below the corresponding power of two. The result of a multiplication
is the variable afterwards and whether 0 (and not `-ERANGE`) is returned.
-/

namespace Verif.Macro

/-- `SHL__REAL_MULT` (src/shared/shl-macro.h:185-190) with the largest value of a type of `w` bits. -/
def realMult (w val factor : Nat) : Nat × Bool :=
  if factor = 0 ∨ val ≤ (2 ^ w - 1) / factor then (val * factor % 2 ^ w, true) else (val, false)

/-- `SHL__UPCAST_MULT` (src/shared/shl-macro.h:192-198) with a variable of `w` bits and a multiplication in a type of
`wide` bits (a smaller type is promoted to `int`, in which the product of two values of 8 bits is exact). The last
assignment converts to the type of the variable. -/
def upcastMult (wide w val factor : Nat) : Nat × Bool :=
  if val * factor % 2 ^ wide ≤ 2 ^ w - 1 then (val * factor % 2 ^ wide % 2 ^ w, true) else (val, false)

/-- `shl_mult_ull`, `shl_mult_u64` (src/shared/shl-macro.h:200-204, 228-231), and `shl_mult_ul` where `unsigned long` has
64 bits (206-214). -/
def multU64 (val factor : Nat) : Nat × Bool := realMult 64 val factor

/-- `shl_mult_u32` (src/shared/shl-macro.h:233-236), `shl_mult_u` (216-226), and `shl_mult_ul` where `unsigned long` has 32
bits (206-214). -/
def multU32 (val factor : Nat) : Nat × Bool := upcastMult 64 32 val factor

/-- `shl_mult_u16` (src/shared/shl-macro.h:238-241); `fast` are the bits of `uint_fast32_t`. -/
def multU16 (fast val factor : Nat) : Nat × Bool := upcastMult fast 16 val factor

/-- `shl_mult_u8` (src/shared/shl-macro.h:243-246); `fast` are the bits of `uint_fast16_t`. -/
def multU8 (fast val factor : Nat) : Nat × Bool := upcastMult fast 8 val factor

end Verif.Macro
