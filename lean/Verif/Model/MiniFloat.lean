/-! Model of the float classification and the small-float conversions. A `float` is its bit
pattern (`ReinterpretAsU32` / `ReinterpretAsFloat`, src/Math/Reinterpret.h, are the identity). -/

namespace MGL

/-- src/Math/MathFunc.h:471 `IsFinite<float>`. -/
def isFinite32 (f : BitVec 32) : Bool := (f <<< 1) < 0xFF000000#32
/-- src/Math/MathFunc.h:475 `IsNan(float)`. -/
def isNan32 (f : BitVec 32) : Bool := (f <<< 1) > 0xFF000000#32
/-- src/Math/MathFunc.h:479 `IsInf(float)`. -/
def isInf32 (f : BitVec 32) : Bool := (f <<< 1) == 0xFF000000#32
/-- src/Math/MathFunc.h:472 `IsFinite<double>`. -/
def isFinite64 (d : BitVec 64) : Bool := (d <<< 1) < 0xFFE0000000000000#64
/-- src/Math/MathFunc.h:476 `IsNan(double)`. -/
def isNan64 (d : BitVec 64) : Bool := (d <<< 1) > 0xFFE0000000000000#64
/-- src/Math/MathFunc.h:480 `IsInf(double)`. -/
def isInf64 (d : BitVec 64) : Bool := (d <<< 1) == 0xFFE0000000000000#64

/-- src/Math/MiniFloat.cpp:5-24 `float Float16ToFloat32(uint16_t)`. The `uint16_t` is promoted to
`int` before the shift by 16; `(float16 & 0x8000) << 16` is the pattern 0x80000000 after the
conversion to `uint32_t`. -/
def float16ToFloat32 (float16 : BitVec 16) : BitVec 32 :=
  let f := float16.setWidth 32
  let sign := (f &&& 0x8000#32) <<< 16
  let exponent := f &&& 0x7C00#32
  let mantissa := (f &&& 0x03FF#32) <<< 13
  let exponent :=
    if exponent = 0x7C00#32 then 0xFF#32
    else if exponent ≠ 0#32 then (exponent >>> 10) - 15#32 + 127#32
    else exponent
  sign ||| (exponent <<< 23) ||| mantissa

/-- The new biased exponent and the possibly cleared mantissa, src/Math/MiniFloat.cpp:65-86 (half)
and 120-141 (mini-float): `trueExponent` and `newBiasedExponent` are `int`s. -/
def rebias (biasedExponent mantissa : BitVec 32) (maxBiasedExponent exponentBias : Int) :
    Int × BitVec 32 :=
  let trueExponent : Int := biasedExponent.toNat - 127
  if biasedExponent ≠ 0xFF#32 ∧ biasedExponent ≠ 0#32 then
    let newBiasedExponent := trueExponent + exponentBias
    let (newBiasedExponent, mantissa) :=
      if newBiasedExponent ≥ maxBiasedExponent then (maxBiasedExponent, 0#32)
      else (newBiasedExponent, mantissa)
    if newBiasedExponent ≤ 0 then (0, 0#32) else (newBiasedExponent, mantissa)
  else (biasedExponent.toNat, mantissa)

/-- src/Math/MiniFloat.cpp:89-93 and 144-148: drop mantissa bits, keeping a NaN a NaN. -/
def scrapMantissa (biasedExponent mantissa : BitVec 32) (mantissaBits : Nat) : BitVec 32 :=
  let newMantissa := mantissa >>> (23 - mantissaBits)
  if biasedExponent = 0xFF#32 ∧ mantissa ≠ 0#32 ∧ newMantissa = 0#32 then 1#32 else newMantissa

/-- src/Math/MiniFloat.cpp:26-96 `uint16_t Float32ToFloat16(float)`. -/
def float32ToFloat16 (v : BitVec 32) : BitVec 16 :=
  let biasedExponent := (v &&& 0x7F800000#32) >>> 23
  let mantissa := v &&& 0x7FFFFF#32
  let sign := (v &&& 0x80000000#32) >>> 16
  let r := rebias biasedExponent mantissa 31 15
  let newMantissa := scrapMantissa biasedExponent r.2 10
  (sign ||| (BitVec.ofInt 32 r.1 <<< 10) ||| newMantissa).setWidth 16

/-- src/Math/MiniFloat.cpp:98-151 `uint32_t Float32ToMiniFloat(bool signBit, int exponentBits,
int mantissaBits, int exponentBias, float value)`. `exponentBias` is an exact integer here: the
overflow of `trueExponent + exponentBias` for biases near the end of the `int` range is not
modelled. -/
def float32ToMiniFloat (signBit : Bool) (exponentBits mantissaBits : Nat) (exponentBias : Int)
    (v : BitVec 32) : BitVec 32 :=
  let biasedExponent := (v &&& 0x7F800000#32) >>> 23
  let mantissa := v &&& 0x7FFFFF#32
  let sign : Bool := (v &&& 0x80000000#32) ≠ 0#32
  let miniFloat := if signBit && sign then 1#32 <<< (exponentBits + mantissaBits) else 0#32
  let clamp : Bool := !(signBit && sign) && (sign && biasedExponent ≠ 0#32)
  let biasedExponent := if clamp then 0#32 else biasedExponent
  let mantissa := if clamp then 0#32 else mantissa
  let r := rebias biasedExponent mantissa (2 ^ exponentBits - 1) exponentBias
  let newMantissa := scrapMantissa biasedExponent r.2 mantissaBits
  miniFloat ||| (BitVec.ofInt 32 r.1 <<< mantissaBits) ||| newMantissa

/-- src/Math/MiniFloat.cpp:153-178 `float MiniFloatToFloat32(bool signBit, int exponentBits,
int mantissaBits, int exponentBias, uint32_t miniFloat)`; the exponent arithmetic is unsigned. -/
def miniFloatToFloat32 (signBit : Bool) (exponentBits mantissaBits : Nat) (exponentBias : Int)
    (miniFloat : BitVec 32) : BitVec 32 :=
  let sign := if signBit then miniFloat &&& (1#32 <<< (exponentBits + mantissaBits)) else 0#32
  let exponent := (miniFloat >>> mantissaBits) &&& ((1#32 <<< exponentBits) - 1#32)
  let mantissa := miniFloat &&& ((1#32 <<< mantissaBits) - 1#32)
  let mantissa := mantissa <<< (23 - mantissaBits)
  let exponent :=
    if exponent = (1#32 <<< exponentBits) - 1#32 then 0xFF#32
    else if exponent ≠ 0#32 then exponent - BitVec.ofInt 32 exponentBias + 127#32
    else exponent
  (if sign ≠ 0#32 then 0x80000000#32 else 0#32) ||| (exponent <<< 23) ||| mantissa

end MGL
