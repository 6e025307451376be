import Verif.Model.MiniFloat
import Mathlib.Data.Nat.Notation

/-! Model of the text serialisation of floats (src/Math/MathFunc.cpp:625-754) and of float2, float3
and float4. A C string is the list of its characters before the terminating NUL (so the lists never
contain NUL); a read pointer is the remaining list. A float is its bit pattern. What libc does for
non-NaN numbers (`sprintf("%.17g")`, `strtod`) is a parameter `Libc`. -/

namespace MGL

/-- The two libc functions used for numbers (no source line: they are outside the repository). -/
structure Libc where
  /-- `sprintf("%.17g", f)`, called for non-NaN `f` (src/Math/MathFunc.cpp:633) -/
  print : BitVec 32 → List Char
  /-- `(float)strtod(str, &str)`: the value and the rest of the text (src/Math/MathFunc.cpp:676) -/
  strtod : List Char → BitVec 32 × List Char

/-- `FLOAT_NAN`, the quiet NaN of `std::numeric_limits<float>` (src/Math/MathConstants.h). -/
def floatNan : BitVec 32 := 0x7FC00000
/-- `FLOAT_INF` (src/Math/MathConstants.h). -/
def floatInf : BitVec 32 := 0x7F800000

/-- One upper case hexadecimal digit of C's `%X`. -/
def hexChar (d : ℕ) : Char := if d < 10 then Char.ofNat (48 + d) else Char.ofNat (55 + d)

/-- The digits C's `%X` prints for `n < 16^fuel`, without leading zeros. -/
def hexUpper : (fuel : ℕ) → ℕ → List Char
  | 0, _ => []
  | fuel + 1, n => (if n / 16 = 0 then [] else hexUpper fuel (n / 16)) ++ [hexChar (n % 16)]

/-- C's `%wX`: padded with spaces on the left to width `w`. -/
def printfX (w : ℕ) (n : ℕ) : List Char :=
  let d := hexUpper 16 n
  List.replicate (w - d.length) ' ' ++ d

/-- Value of a hexadecimal digit of either case. -/
def hexVal (c : Char) : Option ℕ :=
  if '0' ≤ c ∧ c ≤ '9' then some (c.toNat - 48)
  else if 'a' ≤ c ∧ c ≤ 'f' then some (10 + c.toNat - 97)
  else if 'A' ≤ c ∧ c ≤ 'F' then some (10 + c.toNat - 65)
  else none

/-- src/Math/MathFunc.cpp:648-649 and others: skip characters with code 1..32. -/
def skipWs : List Char → List Char
  | [] => []
  | c :: cs => if c.toNat ≤ 32 then skipWs cs else c :: cs

/-- Does the text start with the given word? src/Math/MathFunc.h:512 `MATH_NEXT_WORD_IS`. -/
def nextWordIs (str word : List Char) : Bool := word.isPrefixOf str

/-- src/Math/MathFunc.h:511 `MATH_SKIP_WORD`. -/
def skipWord (str word : List Char) : List Char :=
  if nextWordIs str word then str.drop word.length else str

/-- Greedy reading of hexadecimal digits, as `%X` of `sscanf` does. -/
def takeHex (acc : ℕ) : List Char → ℕ × List Char
  | [] => (acc, [])
  | c :: cs => match hexVal c with
    | some d => takeHex (16 * acc + d) cs
    | none => (acc, c :: cs)

/-- `sscanf(str, "%X", &x)` (src/Math/MathFunc.cpp:656): outer `none` is undefined behaviour (the
value does not fit), inner `none` means nothing was matched. Not modelled: a sign or `0x` prefix,
which `SerializeFloat` never writes. -/
def sscanfX (str : List Char) : Option (Option (BitVec 32)) :=
  let s := skipWs str
  let (v, rest) := takeHex 0 s
  if rest.length = s.length then some none
  else if v < 2 ^ 32 then some (some (BitVec.ofNat 32 v)) else none

/-- src/Math/MathFunc.cpp:659-667 and 726-734: advance at least one character, until just behind the
next `)` or to the end. -/
def skipParen : List Char → List Char
  | [] => []
  | _ :: ')' :: r => r
  | _ :: cs => skipParen cs

/-- src/Math/MathFunc.cpp:625-642 `SerializeFloat`: the characters written. -/
def serializeFloat (L : Libc) (f : BitVec 32) : List Char :=
  if !isNan32 f then L.print f
  else ['N', 'a', 'N', '('] ++ printfX 8 f.toNat ++ [')']

/-- src/Math/MathFunc.cpp:678-683: skip blanks, one separator, blanks. -/
def skipSep (str : List Char) : List Char :=
  let s := skipWs str
  let s := match s with
    | ',' :: r => r
    | ';' :: r => r
    | s => s
  skipWs s

/-- src/Math/MathFunc.cpp:644-687 `DeserializeFloat`: the value and the new read position (the old
one where the code does not set `*outEndStr`). `none` is undefined behaviour inside `sscanf`. -/
def deserializeFloat (L : Libc) (str0 : List Char) : Option (BitVec 32 × List Char) :=
  let str := skipWs str0
  if str = [] then some (floatNan, str0)
  else if nextWordIs str ['N', 'a', 'N', '('] then
    let str := str.drop 4
    match sscanfX str with
    | none => none
    | some none => some (floatNan, str0)
    | some (some x) => some (x, skipParen str)
  else
    let (f, str) :=
      if nextWordIs str ['-', 'i', 'n', 'f'] then (floatInf ||| 0x80000000, str.drop 4)
      else if nextWordIs str ['i', 'n', 'f'] then (floatInf, str.drop 3)
      else L.strtod str
    some (f, skipSep str)

/-- src/Math/MathFunc.cpp:689-708 `hexstr_to_u64` with `left` iterations remaining: the value and the
text behind the digits. The accumulator is a `uint64_t` and wraps. -/
def hexstrToU64 (u : BitVec 64) : (left : ℕ) → List Char → BitVec 64 × List Char
  | 0, s => (u, s)
  | _ + 1, [] => (u, [])
  | left + 1, c :: cs => match hexVal c with
    | some d => hexstrToU64 (16 * u + BitVec.ofNat 64 d) left cs
    | none => (u, c :: cs)

/-- src/Math/MathFunc.cpp:718-738: the NaN branch of `DeserializeDouble`, `str` behind any blanks;
`none` if the text does not start with `NaN(`. The number branch is not modelled. -/
def deserializeDoubleNan (str : List Char) : Option (BitVec 64 × List Char) :=
  if nextWordIs str ['N', 'a', 'N', '('] then
    let (u, str) := hexstrToU64 0 17 (str.drop 4)
    some (u, skipParen str)
  else none

/-- src/Math/float2.cpp:223-231, src/Math/float3.cpp:220-229 and src/Math/float4.cpp:512-522
`SerializeToString`: the elements separated by commas. -/
def serializeVec (L : Libc) : List (BitVec 32) → List Char
  | [] => []
  | [x] => serializeFloat L x
  | x :: xs => serializeFloat L x ++ ',' :: serializeVec L xs

/-- `n` successive calls of `DeserializeFloat`. -/
def deserializeN (L : Libc) : (n : ℕ) → List Char → Option (List (BitVec 32) × List Char)
  | 0, s => some ([], s)
  | n + 1, s => do
    let (x, s) ← deserializeFloat L s
    let (xs, s) ← deserializeN L n s
    return (x :: xs, s)

/-- src/Math/float2.cpp:239-257, src/Math/float3.cpp:237-256 and src/Math/float4.cpp:530-550
`FromString`, for the type name `name` and `n` elements. -/
def vecFromString (L : Libc) (name : List Char) (n : ℕ) (str : List Char) :
    Option (List (BitVec 32) × List Char) := do
  let str := skipWord str name
  let str := skipWord str ['(']
  let (v, str) ← deserializeN L n str
  let str := skipWord str [')']
  let str := skipWord str [',']
  return (v, str)

end MGL
