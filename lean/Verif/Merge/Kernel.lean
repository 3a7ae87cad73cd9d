import Verif.Base.C

/-!
# Kernels of the merge filters

One sample of each of the plain C kernels for integer samples, src/core/kernel/merge.cpp. The arguments are samples as read
from memory; what is written is truncated by the store. Unsigned arithmetic wraps around at 32 or 64 bits as in C; where
the arithmetic is on `int` and cannot overflow for any sample it is on integers.
-/

namespace VS.Merge

/-- Subtraction of type `unsigned`. -/
def sub32 (a b : Nat) : Nat := (a + 2 ^ 32 - b % 2 ^ 32) % 2 ^ 32

/-- Subtraction of type `uint16_t`. -/
def sub16 (a b : Nat) : Nat := (a + 2 ^ 16 - b % 2 ^ 16) % 2 ^ 16

/-- `VSMIN(VSMAX(x, 0), maxval)`. -/
def clamp (x maxval : Int) : Nat := (min (max x 0) maxval).toNat

/-- A number stored in an unsigned type of `n` bits. -/
def store (n : Nat) (x : Int) : Nat := (x % 2 ^ n).toNat

/-- `vs_merge_byte_c` and `vs_merge_word_c`, merge.cpp:126-154. -/
def mergePx (w v1 v2 : Nat) : Nat :=
  (v1 + ((sub32 v2 v1 * w % 2 ^ 32 + 2 ^ 14) % 2 ^ 32) / 2 ^ 15) % 2 ^ 32

/-- `vs_mask_merge_byte_c`, merge.cpp:198-205. -/
def maskByte (m v1 v2 : Nat) : Nat := ((255 - m) * v1 + m * v2 + 127) % 2 ^ 16 / 255

/-- `div_table`, merge.h:149. -/
def divTable : List Nat :=
  [0x80402011, 0x80200803, 0x80100201, 0x80080081, 0x80040021, 0x80020009, 0x80010003, 0x80008001]

/-- `shift_table`, merge.h:150. -/
def shiftTable : List Nat := [8, 9, 10, 11, 12, 13, 14, 15]

/-- `vs_mask_merge_word_c`, merge.cpp:216-229; reading past the tables would be undefined. -/
def maskWord (depth m v1 v2 : Nat) : Nat :=
  let maxval := (2 ^ depth - 1) % 2 ^ 16
  let div := divTable.getD (depth - 9) 0
  let shift := shiftTable.getD (depth - 9) 0
  let invmask := sub16 maxval m
  let tmp := (invmask * v1 % 2 ^ 32 + m * v2 % 2 ^ 32 + maxval / 2) % 2 ^ 32
  (tmp * div % 2 ^ 64) / 2 ^ (32 + shift)

/-- `premul_u8`, merge.cpp:33-42: the result is a number of type `uint16_t`. -/
def premulU8 (offset x a : Nat) : Nat :=
  let tmp := sub16 x offset
  let sign := decide (tmp ≥ 2 ^ 15)
  let tmp := if sign then sub16 0 tmp else tmp
  let tmp := ((tmp * a + 127) / 255) % 2 ^ 16
  if sign then sub16 0 tmp else tmp

/-- `premul_u16`, merge.cpp:44-57: the result is a number of type `uint32_t`. -/
def premulU16 (depth offset x a : Nat) : Nat :=
  let maxval := 2 ^ depth - 1
  let div := divTable.getD (depth - 9) 0
  let shift := shiftTable.getD (depth - 9) 0
  let tmp := sub32 x offset
  let sign := decide (tmp ≥ 2 ^ 31)
  let tmp := if sign then sub32 0 tmp else tmp
  let tmp := (((tmp * a + maxval / 2) * div) % 2 ^ 64 / 2 ^ (32 + shift)) % 2 ^ 32
  if sign then sub32 0 tmp else tmp

/-- `vs_premultiply_byte_c`, merge.cpp:71-75. -/
def premulByte (offset x a : Nat) : Nat := premulU8 offset x a % 2 ^ 8 + offset

/-- `vs_premultiply_word_c`, merge.cpp:85-89. -/
def premulWord (depth offset x a : Nat) : Nat := premulU16 depth offset x a % 2 ^ 16 + offset

/-- A number of type `uint16_t` as `int16_t`. -/
def toI16 (x : Nat) : Int := if x < 2 ^ 15 then x else (x : Int) - 2 ^ 16

/-- A number of type `uint32_t` as `int32_t`. -/
def toI32 (x : Nat) : Int := if x < 2 ^ 31 then x else (x : Int) - 2 ^ 32

/-- `vs_mask_merge_premul_byte_c`, merge.cpp:288-295. -/
def maskPreByte (offset m v1 v2 : Nat) : Nat :=
  clamp (toI16 (store 16 (toI16 (premulU8 offset v1 (255 - m)) + v2))) 255

/-- `vs_mask_merge_premul_word_c`, merge.cpp:306-315. The sum has type `int` and cannot overflow. -/
def maskPreWord (depth offset m v1 v2 : Nat) : Nat :=
  let maxval := (2 ^ depth - 1) % 2 ^ 16
  clamp (toI32 (premulU16 depth offset v1 (sub16 maxval m)) + v2) maxval

/-- `vs_makediff_byte_c`, merge.cpp:373-377. -/
def makeDiffByte (v1 v2 : Nat) : Nat := clamp ((v1 : Int) - v2 + 128) 255

/-- `vs_makediff_word_c`, merge.cpp:387-395. -/
def makeDiffWord (depth v1 v2 : Nat) : Nat := clamp ((v1 : Int) - v2 + (2 ^ (depth - 1) : Nat)) (2 ^ depth - 1 : Nat)

/-- `vs_makefulldiff_byte_word_c`, merge.cpp:434-438. -/
def makeFullByte (v1 v2 : Nat) : Nat := store 16 ((v1 : Int) - v2 + 256)

/-- `vs_makefulldiff_word_word_c`, merge.cpp:447-453. -/
def makeFullWord (depth v1 v2 : Nat) : Nat := store 16 ((v1 : Int) - v2 + store 16 (2 ^ depth))

/-- `vs_makefulldiff_word_dword_c`, merge.cpp:462-468. -/
def makeFullDword (depth v1 v2 : Nat) : Nat := store 32 ((v1 : Int) - v2 + (2 ^ depth : Nat))

/-- `vs_mergediff_byte_c`, merge.cpp:480-484. -/
def mergeDiffByte (v1 v2 : Nat) : Nat := clamp ((v1 : Int) + v2 - 128) 255

/-- `vs_mergediff_word_c`, merge.cpp:494-502. -/
def mergeDiffWord (depth v1 v2 : Nat) : Nat := clamp ((v1 : Int) + v2 - (2 ^ (depth - 1) : Nat)) (2 ^ depth - 1 : Nat)

/-- `vs_mergefulldiff_word_byte_c`, merge.cpp:541-545. -/
def mergeFullByte (v1 v2 : Nat) : Nat := clamp ((v1 : Int) + v2 - 256) 255

/-- `vs_mergefulldiff_word_word_c`, merge.cpp:554-562. -/
def mergeFullWord (depth v1 v2 : Nat) : Nat := clamp ((v1 : Int) + v2 - (2 ^ depth : Nat)) (2 ^ depth - 1 : Nat)

/-- `vs_mergefulldiff_dword_word_c`, merge.cpp:571-579. The sum has type `int`: it overflows if the sample is far larger
than the 17 bits it may have. -/
def mergeFullDword (depth v1 v2 : Nat) : Res Nat := do
  let t ← i32 ((v1 : Int) + toI32 v2)
  let t ← i32 (t - (2 ^ depth : Nat))
  .ok (clamp t (2 ^ depth - 1 : Nat))

end VS.Merge
