/-
Model of the integer bit tricks of MathGeoLib.
`u32`/`u64` are `BitVec 32`/`BitVec 64`, exactly.
-/
namespace MGL

/-- src/Math/MathFunc.cpp:327-330 `bool IsPow2(u32)`. -/
def isPow2_u32 (number : BitVec 32) : Bool := (number &&& (number - 1#32)) == 0#32

/-- src/Math/MathFunc.cpp:332-335 `bool IsPow2(u64)`. -/
def isPow2_u64 (number : BitVec 64) : Bool := (number &&& (number - 1#64)) == 0#64

/-- The five `x |= x >> k` lines shared by src/Math/MathFunc.cpp:341-345 and 369-373. -/
def smear_u32 (x : BitVec 32) : BitVec 32 :=
  let x := x ||| (x >>> 1)
  let x := x ||| (x >>> 2)
  let x := x ||| (x >>> 4)
  let x := x ||| (x >>> 8)
  let x := x ||| (x >>> 16)
  x

/-- The six `x |= x >> k` lines shared by src/Math/MathFunc.cpp:355-360 and 380-385. -/
def smear_u64 (x : BitVec 64) : BitVec 64 :=
  let x := x ||| (x >>> 1)
  let x := x ||| (x >>> 2)
  let x := x ||| (x >>> 4)
  let x := x ||| (x >>> 8)
  let x := x ||| (x >>> 16)
  let x := x ||| (x >>> 32)
  x

/-- src/Math/MathFunc.cpp:337-349 `u32 RoundUpPow2(u32)`. -/
def roundUpPow2_u32 (x : BitVec 32) : BitVec 32 := smear_u32 (x - 1#32) + 1#32

/-- src/Math/MathFunc.cpp:351-364 `u64 RoundUpPow2(u64)`. -/
def roundUpPow2_u64 (x : BitVec 64) : BitVec 64 := smear_u64 (x - 1#64) + 1#64

/-- src/Math/MathFunc.cpp:366-375 `u32 RoundDownPow2(u32)`. -/
def roundDownPow2_u32 (x : BitVec 32) : BitVec 32 :=
  let x := smear_u32 x
  x - (x >>> 1)

/-- src/Math/MathFunc.cpp:377-387 `u64 RoundDownPow2(u64)`. -/
def roundDownPow2_u64 (x : BitVec 64) : BitVec 64 :=
  let x := smear_u64 x
  x - (x >>> 1)

/-- Outcome of a signed C++ computation: signed overflow is undefined behaviour. -/
inductive CInt (w : Nat) where
  | val (v : BitVec w)
  | ub
deriving DecidableEq, Repr

/-- Signed `a + b` of width `w`: undefined when the exact sum is not representable. -/
def CInt.add {w : Nat} (a b : CInt w) : CInt w :=
  match a, b with
  | .val x, .val y => if BitVec.saddOverflow x y then .ub else .val (x + y)
  | _, _ => .ub

/-- Signed `a - b` of width `w`: undefined when the exact difference is not representable. -/
def CInt.sub {w : Nat} (a b : CInt w) : CInt w :=
  match a, b with
  | .val x, .val y => if BitVec.ssubOverflow x y then .ub else .val (x - y)
  | _, _ => .ub

/-- Bitwise `a & b`. -/
def CInt.and {w : Nat} (a b : CInt w) : CInt w :=
  match a, b with
  | .val x, .val y => .val (x &&& y)
  | _, _ => .ub

/-- Bitwise `~a`. -/
def CInt.not {w : Nat} (a : CInt w) : CInt w :=
  match a with
  | .val x => .val (~~~x)
  | .ub => .ub

/-- src/Math/MathFunc.cpp:389-393 `int RoundIntUpToMultipleOfPow2(int x, int n)` (w = 32) and
395-399 (`s64`, w = 64): `(x + n-1) & ~(n-1)`; the C++ expression parses as `((x + n) - 1)`,
which is where the overflow can happen. -/
def roundIntUpToMultipleOfPow2 {w : Nat} (x n : BitVec w) : CInt w :=
  CInt.and (CInt.sub (CInt.add (.val x) (.val n)) (.val 1)) (CInt.not (CInt.sub (.val n) (.val 1)))

/-- `x & (x-1)` is smaller than `x`, so the loop of `CountBitsSet` terminates. -/
theorem and_pred_toNat_lt (v : BitVec 32) (h : v ≠ 0#32) :
    (v &&& (v - 1#32)).toNat < v.toNat := by
  have hv : 0 < v.toNat := by
    rcases Nat.eq_zero_or_pos v.toNat with h0 | h0
    · exact absurd (BitVec.eq_of_toNat_eq (by simpa using h0)) h
    · exact h0
  have h1 : (v - 1#32).toNat = v.toNat - 1 := by
    have := v.isLt
    simp only [BitVec.toNat_sub, BitVec.toNat_ofNat]
    omega
  have h2 : (v &&& (v - 1#32)).toNat ≤ (v - 1#32).toNat := by
    rw [BitVec.toNat_and]; exact Nat.and_le_right
  omega

/-- src/Math/BitOps.h:30-39 `int CountBitsSet(u32 value)`: the `while(value)` loop. -/
def countBitsSet (value : BitVec 32) : Nat :=
  if h : value = 0#32 then 0
  else countBitsSet (value &&& (value - 1#32)) + 1
termination_by value.toNat
decreasing_by exact and_pred_toNat_lt value h

/-- src/Math/BitOps.h:89-95 `u32 LSB(u32 bits)`. -/
def LSB (bits : BitVec 32) : BitVec 32 :=
  if bits.toNat ≥ 32 then 0xFFFFFFFF#32 else (1#32 <<< bits.toNat) - 1#32

/-- src/Math/BitOps.h:97-103 `u64 LSB64(u64 bits)`. -/
def LSB64 (bits : BitVec 64) : BitVec 64 :=
  if bits.toNat ≥ 64 then 0xFFFFFFFFFFFFFFFF#64 else (1#64 <<< bits.toNat) - 1#64

/-- src/Math/BitOps.h:61-82 `LSBT<Bits>::val` including the two specialisations. The primary
template computes `(1 << Bits) - 1` in `int`, which is defined for `Bits <= 30`; bits above 32 are
documented as undefined and are not modelled (the model returns `none`). -/
def LSBT (bits : Nat) : Option (BitVec 32) :=
  if bits = 32 then some 0xFFFFFFFF#32
  else if bits = 31 then some 0x7FFFFFFF#32
  else if bits ≤ 30 then some ((1#32 <<< bits) - 1#32)
  else none

/-- src/Math/BitOps.h:123-126 `u32 BitMask(u32 pos, u32 bits)`. -/
def bitMask (pos bits : BitVec 32) : BitVec 32 := LSB (pos + bits) &&& ~~~(LSB pos)

/-- src/Math/BitOps.h:128-131 `u64 BitMask64(u64 pos, u64 bits)`. -/
def bitMask64 (pos bits : BitVec 64) : BitVec 64 := LSB64 (pos + bits) &&& ~~~(LSB64 pos)

/-- src/Math/BitOps.h:112-118 `BitMaskT<Pos, Bits>::val`. -/
def bitMaskT (pos bits : Nat) : Option (BitVec 32) :=
  match LSBT (pos + bits), LSBT pos with
  | some a, some b => some (a &&& ~~~b)
  | _, _ => none

/-- One field of src/Math/BitOps.h:153-157: `((ResultType)a << APos & BitMask(APos, ABits))` for
`ResultType = InputType = u32`. A shift by 32 or more is undefined in C++; the model is only used
with positions below 32. -/
def packField (pos bits : Nat) (v : BitVec 32) : BitVec 32 :=
  (v <<< pos) &&& bitMask (BitVec.ofNat 32 pos) (BitVec.ofNat 32 bits)

/-- src/Math/BitOps.h:148-158 `PackBits` (run-time version), `ResultType = InputType = u32`. -/
def packBits (aPos aBits rPos rBits gPos gBits bPos bBits : Nat) (a r g b : BitVec 32) :
    BitVec 32 :=
  packField aPos aBits a ||| packField rPos rBits r ||| packField gPos gBits g |||
    packField bPos bBits b

/-- src/Math/BitOps.h:172-176 `ExtractBits` (run-time version), `ResultType = InputType = u32`. -/
def extractBits (pos bits : Nat) (v : BitVec 32) : BitVec 32 :=
  (v >>> pos) &&& bitMask 0#32 (BitVec.ofNat 32 bits)

/-- The loop body of src/Math/BitOps.cpp:28-30 run for `i = i0 .. min(strl,32)-1`. `str[strl-i-1]`
is the i-th character counted from the end, i.e. the i-th character of the reversed string.
Simplification: the string is a `List Char`, and `1 << 31` (implementation defined before C++20)
is the bit pattern 0x80000000. -/
def binaryLoop (rev : List Char) (i : Nat) (val : BitVec 32) : BitVec 32 :=
  match rev with
  | [] => val
  | c :: cs =>
    if i < 32 then binaryLoop cs (i + 1) (if c ≠ '0' then val ||| (1#32 <<< i) else val)
    else val

/-- src/Math/BitOps.cpp:24-32 `u32 BinaryStringToValue(const char *str)`. -/
def binaryStringToValue (str : List Char) : BitVec 32 := binaryLoop str.reverse 0 0#32

/-- src/Math/BitOps.h:42-51 `int ExtractLSB(unsigned long *value)` on an LP64 platform, where
`unsigned long` has 64 bits. `(1 << i)` is an `int`, converted to `unsigned long` by sign extension
in `*value & (1 << i)` and in `*value &= ~(1 << i)`. Returns the index and the new value.
`left` counts the remaining iterations of `for(int i = 0; i < 32; ++i)`, so `i = 32 - left`. -/
def extractLSBLoop (value : BitVec 64) : (left : Nat) → Int × BitVec 64
  | 0 => (-1, value)
  | left + 1 =>
    let i := 31 - left
    let m : BitVec 64 := (1#32 <<< i).signExtend 64
    if (value &&& m) ≠ 0#64 then
      ((i : Int), value &&& (~~~(1#32 <<< i)).signExtend 64)
    else extractLSBLoop value left

/-- src/Math/BitOps.h:42-51: the loop starts at `i = 0` with 32 iterations left. -/
def extractLSB (value : BitVec 64) : Int × BitVec 64 := extractLSBLoop value 32

end MGL
