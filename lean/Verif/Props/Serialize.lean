import Verif.Proofs.Serialize

/-! Properties C11 and C53: text serialisation. -/

namespace MGL

private theorem printfX_nan {u : BitVec 32} (h : isNan32 u = true) :
    printfX 8 u.toNat = hexUpper 16 u.toNat := by
  unfold printfX
  have := hexUpper_length_ge 16 u.toNat 7 (by norm_num) (isNan_toNat h)
  simp only
  rw [Nat.sub_eq_zero_of_le (by omega)]
  rfl

private theorem hexUpper_ne_nil (n : ℕ) : hexUpper 16 n ≠ [] := by
  unfold hexUpper; simp

private theorem hexUpper_cons (n : ℕ) :
    ∃ c cs, hexUpper 16 n = c :: cs ∧ 32 < c.toNat := by
  cases h : hexUpper 16 n with
  | nil => exact absurd h (hexUpper_ne_nil n)
  | cons c cs => exact ⟨c, cs, rfl, (hexUpper_all 16 n c (by rw [h]; simp)).1⟩

private theorem sscanf_hex (n : ℕ) (hn : n < 2 ^ 32) (rest : List Char) :
    sscanfX (hexUpper 16 n ++ ')' :: rest) = some (some (BitVec.ofNat 32 n)) := by
  obtain ⟨c, cs, hc, hw⟩ := hexUpper_cons n
  have e : skipWs (hexUpper 16 n ++ ')' :: rest) = hexUpper 16 n ++ ')' :: rest := by
    rw [hc, List.cons_append, skipWs_cons _ hw]
  have t : takeHex 0 (hexUpper 16 n ++ ')' :: rest) = (n, ')' :: rest) := by
    rw [takeHex_hexUpper 16 n _ (by norm_num at hn ⊢; omega) (by norm_num)]
    rfl
  unfold sscanfX
  simp only [e, t]
  rw [if_neg, if_pos hn]
  rw [List.length_append, hc]
  simp only [List.length_cons]
  omega

/-- Reading back what `SerializeFloat` wrote for a NaN yields the bit-identical NaN and the position
just behind the text: for every NaN, every following text, every libc. -/
theorem C11_float_nan_roundtrip (L : Libc) (u : BitVec 32) (h : isNan32 u = true)
    (rest : List Char) :
    deserializeFloat L (serializeFloat L u ++ rest) = some (u, rest) := by
  have hs : serializeFloat L u ++ rest =
      'N' :: 'a' :: 'N' :: '(' :: (hexUpper 16 u.toNat ++ ')' :: rest) := by
    unfold serializeFloat
    rw [h, printfX_nan h]
    simp
  rw [hs]
  unfold deserializeFloat
  rw [skipWs_cons _ (by decide)]
  have hn : nextWordIs ('N' :: 'a' :: 'N' :: '(' :: (hexUpper 16 u.toNat ++ ')' :: rest))
      ['N', 'a', 'N', '('] = true := by
    simp [nextWordIs, List.isPrefixOf]
  simp only [hn, List.drop_succ_cons, List.drop_zero, sscanf_hex _ u.isLt, reduceCtorEq, if_false,
    if_true]
  rw [skipParen_append _ _ (hexUpper_ne_nil _) (fun c hc => (hexUpper_all 16 _ c hc).2)]
  simp

example := fun L => C11_float_nan_roundtrip L 0x7FC01234#32 (by decide)

/-- The double reader recovers the payload of `NaN(` hex digits `)` for all 2^64 patterns. Missing
from the full claim: the read position, see `C11_double_position_wrong`. -/
theorem C11_double_nan_value_partial (u : BitVec 64) (rest : List Char) :
    ∃ r, deserializeDoubleNan (['N', 'a', 'N', '('] ++ hexUpper 16 u.toNat ++ ')' :: rest) =
      some (u, r) := by
  have hlen := hexUpper_length_le 16 u.toNat 16 (by have := u.isLt; norm_num at this ⊢; omega)
    (by norm_num)
  have hx := hexstr_hexUpper 16 u.toNat 17 (')' :: rest) (by have := u.isLt; norm_num at this ⊢; omega)
    (by norm_num) (by norm_num) (by omega)
  obtain ⟨k, hk⟩ : ∃ k, 17 - (hexUpper 16 u.toNat).length = k + 1 :=
    ⟨17 - (hexUpper 16 u.toNat).length - 1, by omega⟩
  have hp : hexstrToU64 (BitVec.ofNat 64 u.toNat) (k + 1) (')' :: rest) =
      (BitVec.ofNat 64 u.toNat, ')' :: rest) := rfl
  rw [hk, hp] at hx
  refine ⟨skipParen (')' :: rest), ?_⟩
  unfold deserializeDoubleNan
  have hn : nextWordIs (['N', 'a', 'N', '('] ++ hexUpper 16 u.toNat ++ ')' :: rest)
      ['N', 'a', 'N', '('] = true := by
    simp [nextWordIs, List.isPrefixOf]
  have hd : (['N', 'a', 'N', '('] ++ hexUpper 16 u.toNat ++ ')' :: rest).drop 4 =
      hexUpper 16 u.toNat ++ ')' :: rest := by simp
  simp only [hn, if_true, hd, hx]
  simp

/-- The defect of the double reader: after the closing parenthesis it goes on to the next one, so it
swallows the following element (or all the rest of the text). -/
theorem C11_double_position_wrong :
    deserializeDoubleNan "NaN(7FF8000000000000),NaN(7FF8000000000001),5".toList =
      some (0x7FF8000000000000#64, ",5".toList) ∧
    deserializeDoubleNan "NaN(7FF8000000000000),1,2".toList =
      some (0x7FF8000000000000#64, []) := by
  constructor <;> decide +kernel

/-! ### C53: vectors -/

/-- What the C standard promises about `sprintf("%.17g")` and `strtod` for binary32 values, as far as
the vector serialisation needs it. -/
structure LibcOk (L : Libc) : Prop where
  /-- 17 digits identify a float, and `strtod` stops at a comma or parenthesis -/
  roundtrip : ∀ f rest, isFinite32 f = true →
    (rest = [] ∨ ∃ r, rest = ',' :: r ∨ rest = ')' :: r) →
    L.strtod (L.print f ++ rest) = (f, rest)
  posInf : L.print 0x7F800000 = ['i', 'n', 'f']
  negInf : L.print 0xFF800000 = ['-', 'i', 'n', 'f']
  /-- a finite number starts with a digit, or with a minus sign and a digit -/
  head : ∀ f, isFinite32 f = true → ∃ c cs, L.print f = c :: cs ∧
    (c.isDigit = true ∨ (c = '-' ∧ ∃ d ds, cs = d :: ds ∧ d.isDigit = true))
  /-- no conversion: zero, and the pointer stays -/
  noParse : ∀ cs, L.strtod (',' :: cs) = (0, ',' :: cs)

private def Sep (rest : List Char) : Prop := rest = [] ∨ ∃ r, rest = ',' :: r ∨ rest = ')' :: r

private theorem digit_gt {c : Char} (h : c.isDigit = true) :
    48 ≤ c.toNat ∧ c.toNat ≤ 57 := by
  unfold Char.isDigit at h
  simp only [ge_iff_le, Bool.and_eq_true, decide_eq_true_eq] at h
  exact ⟨h.1, h.2⟩

private theorem char_ne {c d : Char} (h : c.toNat ≠ d.toNat) : c ≠ d := fun e => h (by rw [e])

private theorem isInf_cases {f : BitVec 32} (h : isInf32 f = true) :
    f = 0x7F800000 ∨ f = 0xFF800000 := by
  unfold isInf32 at h
  rw [beq_iff_eq] at h
  have h' := congrArg BitVec.toNat h
  rw [BitVec.toNat_shiftLeft, Nat.shiftLeft_eq] at h'
  simp only [BitVec.toNat_ofNat] at h'
  have hlt := f.isLt
  have : f.toNat = 0x7F800000 ∨ f.toNat = 0xFF800000 := by omega
  rcases this with e | e
  · left; exact BitVec.eq_of_toNat_eq (by rw [e]; decide)
  · right; exact BitVec.eq_of_toNat_eq (by rw [e]; decide)

private theorem not_nan_cases {f : BitVec 32} (h : isNan32 f = false) :
    isFinite32 f = true ∨ f = 0x7F800000 ∨ f = 0xFF800000 := by
  by_cases h1 : isFinite32 f = true
  · exact .inl h1
  · right
    apply isInf_cases
    unfold isNan32 at h
    unfold isFinite32 at h1
    unfold isInf32
    simp only [gt_iff_lt, decide_eq_false_iff_not, decide_eq_true_eq, BitVec.not_lt] at h h1
    rw [beq_iff_eq]
    exact BitVec.le_antisymm h h1

/-- The first character written for a non-NaN. -/
private theorem print_head {L : Libc} (hL : LibcOk L) {f : BitVec 32} (h : isNan32 f = false) :
    ∃ c cs, L.print f = c :: cs ∧ 32 < c.toNat ∧ c ≠ 'N' ∧ c ≠ 'f' ∧ c ≠ '(' ∧ c ≠ ',' ∧ c ≠ ';' := by
  rcases not_nan_cases h with hf | rfl | rfl
  · obtain ⟨c, cs, e, hc⟩ := hL.head f hf
    refine ⟨c, cs, e, ?_⟩
    rcases hc with hc | ⟨rfl, -⟩
    · have := digit_gt hc
      refine ⟨by omega, ?_, ?_, ?_, ?_, ?_⟩ <;> apply char_ne
      · have : 'N'.toNat = 78 := by decide
        omega
      · have : 'f'.toNat = 102 := by decide
        omega
      · have : '('.toNat = 40 := by decide
        omega
      · have : ','.toNat = 44 := by decide
        omega
      · have : ';'.toNat = 59 := by decide
        omega
    · decide
  · exact ⟨'i', ['n', 'f'], hL.posInf, by decide⟩
  · exact ⟨'-', ['i', 'n', 'f'], hL.negInf, by decide⟩

private theorem deser_number {L : Libc} (hL : LibcOk L) {f : BitVec 32} (h : isNan32 f = false)
    {rest : List Char} (hr : Sep rest) :
    deserializeFloat L (L.print f ++ rest) = some (f, skipSep rest) := by
  obtain ⟨c, cs, e, hw, hN, -⟩ := print_head hL h
  unfold deserializeFloat
  have e1 : skipWs (L.print f ++ rest) = L.print f ++ rest := by
    rw [e, List.cons_append, skipWs_cons _ hw]
  have e2 : nextWordIs (L.print f ++ rest) ['N', 'a', 'N', '('] = false := by
    rw [e]
    simp only [nextWordIs, List.cons_append, List.isPrefixOf, Bool.and_eq_false_imp, beq_iff_eq]
    intro hc; exact absurd hc.symm hN
  have e3 : L.print f ++ rest ≠ [] := by rw [e]; simp
  simp only [e1, e2, e3, if_false, Bool.false_eq_true]
  rcases not_nan_cases h with hf | rfl | rfl
  · obtain ⟨c', cs', e', hc⟩ := hL.head f hf
    rw [e'] at e
    obtain ⟨rfl, rfl⟩ : c' = c ∧ cs' = cs := by simpa using e
    have n1 : nextWordIs (L.print f ++ rest) ['-', 'i', 'n', 'f'] = false := by
      rw [e']
      simp only [nextWordIs, List.cons_append, List.isPrefixOf, Bool.and_eq_false_imp, beq_iff_eq]
      intro h1
      rcases hc with hc | ⟨-, d, ds, rfl, hd⟩
      · rw [← h1] at hc; exact absurd hc (by decide)
      · simp only [List.cons_append, List.isPrefixOf, Bool.and_eq_false_imp, beq_iff_eq]
        intro h2
        rw [← h2] at hd; exact absurd hd (by decide)
    have n2 : nextWordIs (L.print f ++ rest) ['i', 'n', 'f'] = false := by
      rw [e']
      simp only [nextWordIs, List.cons_append, List.isPrefixOf, Bool.and_eq_false_imp, beq_iff_eq]
      intro h1
      rcases hc with hc | ⟨h2, -⟩
      · rw [← h1] at hc; exact absurd hc (by decide)
      · rw [← h1] at h2; exact absurd h2 (by decide)
    simp only [n1, n2, Bool.false_eq_true, if_false, hL.roundtrip f rest hf hr]
  · rw [hL.posInf]
    rfl
  · rw [hL.negInf]
    rfl

private theorem ser_head {L : Libc} (hL : LibcOk L) (f : BitVec 32) :
    ∃ c cs, serializeFloat L f = c :: cs ∧ 32 < c.toNat ∧ c ≠ 'f' ∧ c ≠ '(' ∧ c ≠ ',' ∧ c ≠ ';' := by
  cases h : isNan32 f
  · obtain ⟨c, cs, e, h1, h2, h3⟩ := print_head hL h
    exact ⟨c, cs, by unfold serializeFloat; rw [h]; simpa using e, h1, h3⟩
  · exact ⟨'N', _, by unfold serializeFloat; rw [h]; rfl, by decide⟩

private theorem vec_head {L : Libc} (hL : LibcOk L) (x : BitVec 32) (xs : List (BitVec 32)) :
    ∃ c cs, serializeVec L (x :: xs) = c :: cs ∧ 32 < c.toNat ∧ c ≠ 'f' ∧ c ≠ '(' ∧ c ≠ ',' ∧
      c ≠ ';' := by
  obtain ⟨c, cs, e, h⟩ := ser_head hL x
  cases xs with
  | nil => exact ⟨c, cs, by simp [serializeVec, e], h⟩
  | cons y ys => exact ⟨c, cs ++ ',' :: serializeVec L (y :: ys), by simp [serializeVec, e], h⟩

/-- Reading `n` elements back, followed by the end of the text or a parenthesis. -/
private theorem deserN {L : Libc} (hL : LibcOk L) (rest : List Char)
    (hrest : rest = [] ∨ ∃ r, rest = ')' :: r) : ∀ (xs : List (BitVec 32)) (l : BitVec 32),
    (∀ x ∈ xs, isNan32 x = false) →
    deserializeN L (xs.length + 1) (serializeVec L (xs ++ [l]) ++ rest) =
      some (xs ++ [l], rest) := by
  have hsep : Sep rest := by
    rcases hrest with h | ⟨r, h⟩
    · exact .inl h
    · exact .inr ⟨r, .inr h⟩
  have hss : skipSep rest = rest := by
    rcases hrest with rfl | ⟨r, rfl⟩
    · rfl
    · unfold skipSep
      rw [skipWs_cons _ (by decide)]
      exact skipWs_cons _ (by decide)
  intro xs
  induction xs with
  | nil =>
    intro l _
    have : deserializeFloat L (serializeFloat L l ++ rest) = some (l, rest) := by
      cases h : isNan32 l
      · have := deser_number hL h hsep
        rw [hss] at this
        unfold serializeFloat
        rw [h]
        simpa using this
      · exact C11_float_nan_roundtrip L l h rest
    simp [deserializeN, serializeVec, this]
  | cons x xs ih =>
    intro l hx
    have hxn := hx x (by simp)
    obtain ⟨y, ys, hy⟩ : ∃ y ys, xs ++ [l] = y :: ys := by
      cases xs with
      | nil => exact ⟨l, [], rfl⟩
      | cons y ys => exact ⟨y, ys ++ [l], rfl⟩
    have e1 : serializeVec L (x :: xs ++ [l]) ++ rest =
        L.print x ++ ',' :: (serializeVec L (xs ++ [l]) ++ rest) := by
      rw [List.cons_append, hy]
      simp [serializeVec, serializeFloat, hxn]
    obtain ⟨c, cs, e2, hw, -, -, hcomma, hsemi⟩ := vec_head hL y ys
    have e3 : skipSep (',' :: (serializeVec L (xs ++ [l]) ++ rest)) =
        serializeVec L (xs ++ [l]) ++ rest := by
      unfold skipSep
      rw [skipWs_cons _ (by decide)]
      simp only
      rw [hy, e2, List.cons_append, skipWs_cons _ hw]
    rw [e1, List.length_cons]
    unfold deserializeN
    rw [deser_number hL hxn (.inr ⟨_, .inl rfl⟩), e3]
    simp only [Option.bind_eq_bind, Option.bind_some]
    rw [ih l (fun z hz => hx z (by simp [hz]))]
    simp

private theorem skipWord_no {c : Char} {cs w : List Char} {d : Char} (h : c ≠ d) :
    skipWord (c :: cs) (d :: w) = c :: cs := by
  unfold skipWord nextWordIs
  simp only [List.isPrefixOf, Bool.and_eq_true, beq_iff_eq]
  rw [if_neg]
  rintro ⟨h1, -⟩
  exact h h1.symm

/-- Text round trip of float2/float3/float4: `FromString(v.SerializeToString())` is bit-identical to
`v` when no element but the last is a NaN, and so is `FromString(v.SerializeToCodeString())`, which
also consumes exactly its text and one following comma. `xs ++ [l]` are the elements; `name` is the
type name. Full claim (any element NaN) is false: `C53_nan_corrupts`. -/
theorem C53_vector_roundtrip_partial (L : Libc) (hL : LibcOk L) (name : List Char)
    (xs : List (BitVec 32)) (l : BitVec 32) (hx : ∀ x ∈ xs, isNan32 x = false) :
    vecFromString L ('f' :: name) (xs.length + 1) (serializeVec L (xs ++ [l])) =
      some (xs ++ [l], []) ∧
    ∀ rest, vecFromString L ('f' :: name) (xs.length + 1)
        ('f' :: name ++ '(' :: serializeVec L (xs ++ [l]) ++ ')' :: rest) =
      some (xs ++ [l], skipWord rest [',']) := by
  obtain ⟨y, ys, hy⟩ : ∃ y ys, xs ++ [l] = y :: ys := by
    cases xs with
    | nil => exact ⟨l, [], rfl⟩
    | cons y ys => exact ⟨y, ys ++ [l], rfl⟩
  obtain ⟨c, cs, e2, -, hf, hp, -⟩ := vec_head hL y ys
  constructor
  · have h := deserN hL [] (.inl rfl) xs l hx
    rw [List.append_nil] at h
    unfold vecFromString
    have s1 : skipWord (serializeVec L (xs ++ [l])) ('f' :: name) = serializeVec L (xs ++ [l]) := by
      rw [hy, e2, skipWord_no hf]
    have s2 : skipWord (serializeVec L (xs ++ [l])) ['('] = serializeVec L (xs ++ [l]) := by
      rw [hy, e2, skipWord_no hp]
    simp only [s1, s2, h, Option.bind_eq_bind, Option.bind_some]
    rfl
  · intro rest
    have h := deserN hL (')' :: rest) (.inr ⟨rest, rfl⟩) xs l hx
    unfold vecFromString
    have s1 : skipWord ('f' :: name ++ '(' :: serializeVec L (xs ++ [l]) ++ ')' :: rest)
        ('f' :: name) = '(' :: (serializeVec L (xs ++ [l]) ++ ')' :: rest) := by
      have e : 'f' :: name ++ '(' :: serializeVec L (xs ++ [l]) ++ ')' :: rest =
          ('f' :: name) ++ ('(' :: (serializeVec L (xs ++ [l]) ++ ')' :: rest)) := by simp
      unfold skipWord nextWordIs
      rw [e, if_pos (List.isPrefixOf_iff_prefix.2 (List.prefix_append _ _)), List.drop_left]
    have s2 : skipWord ('(' :: (serializeVec L (xs ++ [l]) ++ ')' :: rest)) ['('] =
        serializeVec L (xs ++ [l]) ++ ')' :: rest := by
      simp [skipWord, nextWordIs, List.isPrefixOf]
    have s3 : skipWord (')' :: rest) [')'] = rest := by
      simp [skipWord, nextWordIs, List.isPrefixOf]
    simp only [s1, s2, h, s3, Option.bind_eq_bind, Option.bind_some, Option.pure_def]

example := fun L hL => C53_vector_roundtrip_partial L hL "loat3".toList [0x3F800000#32, 0x40000000#32] 0x40400000#32 (fun x hx => by
  simp at hx; rcases hx with rfl | rfl <;> decide)

/-- The defect: `DeserializeFloat` does not skip the comma behind a NaN, so for every vector starting
with a NaN the next element is read as 0 and the others move up by one. -/
theorem C53_nan_corrupts (L : Libc) (hL : LibcOk L) (x y z : BitVec 32) (hx : isNan32 x = true)
    (hy : isNan32 y = false) (hz : isNan32 z = false) :
    ∃ rest, vecFromString L "float3".toList 3 (serializeVec L [x, y, z]) =
      some ([x, 0, y], rest) := by
  have e0 : serializeVec L [x, y, z] =
      serializeFloat L x ++ ',' :: (L.print y ++ ',' :: L.print z) := by
    simp [serializeVec, serializeFloat, hy, hz]
  have s1 : skipWord (serializeVec L [x, y, z]) "float3".toList = serializeVec L [x, y, z] := by
    rw [show "float3".toList = 'f' :: "loat3".toList by decide]
    obtain ⟨c, cs, e, -, h, -⟩ := vec_head hL x [y, z]
    rw [e, skipWord_no h]
  have s2 : skipWord (serializeVec L [x, y, z]) ['('] = serializeVec L [x, y, z] := by
    obtain ⟨c, cs, e, -, -, h, -⟩ := vec_head hL x [y, z]
    rw [e, skipWord_no h]
  have d1 := C11_float_nan_roundtrip L x hx (',' :: (L.print y ++ ',' :: L.print z))
  obtain ⟨c, cs, e, hw, -⟩ := print_head hL hy
  have d2 : deserializeFloat L (',' :: (L.print y ++ ',' :: L.print z)) =
      some (0, L.print y ++ ',' :: L.print z) := by
    unfold deserializeFloat
    rw [skipWs_cons _ (by decide)]
    have n1 : nextWordIs (',' :: (L.print y ++ ',' :: L.print z)) ['N', 'a', 'N', '('] = false := by
      simp [nextWordIs, List.isPrefixOf]
    have n2 : nextWordIs (',' :: (L.print y ++ ',' :: L.print z)) ['-', 'i', 'n', 'f'] = false := by
      simp [nextWordIs, List.isPrefixOf]
    have n3 : nextWordIs (',' :: (L.print y ++ ',' :: L.print z)) ['i', 'n', 'f'] = false := by
      simp [nextWordIs, List.isPrefixOf]
    simp only [n1, n2, n3, reduceCtorEq, if_false, Bool.false_eq_true, hL.noParse]
    unfold skipSep
    rw [skipWs_cons _ (by decide)]
    simp only
    rw [e, List.cons_append, skipWs_cons _ hw]
  have d3 := deser_number hL hy (rest := ',' :: L.print z) (.inr ⟨_, .inl rfl⟩)
  refine ⟨skipWord (skipWord (skipSep (',' :: L.print z)) [')']) [','], ?_⟩
  unfold vecFromString
  simp only [s1, s2]
  rw [e0]
  simp only [deserializeN, Option.bind_eq_bind, d1, d2, d3, Option.bind_some, Option.pure_def]

/-- Blanks before a number, and behind the comma that follows it, are skipped: the number is read back bit for bit and the read
position is the next character that is no blank. -/
theorem C53_blanks (L : Libc) (hL : LibcOk L) (f : BitVec 32) (hf : isNan32 f = false) (b1 b2 : List Char)
    (h1 : ∀ c ∈ b1, c.toNat ≤ 32) (h2 : ∀ c ∈ b2, c.toNat ≤ 32) (c : Char) (cs : List Char) (hc : 32 < c.toNat) :
    deserializeFloat L (b1 ++ (L.print f ++ ',' :: (b2 ++ c :: cs))) = some (f, c :: cs) := by
  have hskip : ∀ (b : List Char) (s : List Char), (∀ c ∈ b, c.toNat ≤ 32) → skipWs (b ++ s) = skipWs s := by
    intro b s hb
    induction b with
    | nil => rfl
    | cons d t ih =>
      rw [List.cons_append, skipWs, if_pos (hb d (by simp)), ih fun x hx => hb x (List.mem_cons_of_mem _ hx)]
  have hd := deser_number hL hf (rest := ',' :: (b2 ++ c :: cs)) (.inr ⟨_, .inl rfl⟩)
  have hs : skipSep (',' :: (b2 ++ c :: cs)) = c :: cs := by
    unfold skipSep
    rw [skipWs_cons _ (by decide)]
    simp only
    rw [hskip b2 _ h2, skipWs_cons _ hc]
  rw [hs] at hd
  obtain ⟨d, ds, e, hw, -⟩ := print_head hL hf
  have hne : skipWs (L.print f ++ ',' :: (b2 ++ c :: cs)) ≠ [] := by
    rw [e, List.cons_append, skipWs_cons _ hw]; simp
  rw [← hd]
  unfold deserializeFloat
  have e2 : L.print f ++ ',' :: (b2 ++ c :: cs) ≠ [] := by rw [e]; simp
  simp only [hskip b1 _ h1, if_neg hne]
  have hfix : nextWordIs (skipWs (L.print f ++ ',' :: (b2 ++ c :: cs))) ['N', 'a', 'N', '('] = false := by
    obtain ⟨d, ds, e, hw, hN, -⟩ := print_head hL hf
    rw [e, List.cons_append, skipWs_cons _ hw]
    simp only [nextWordIs, List.isPrefixOf, Bool.and_eq_false_imp, beq_iff_eq]
    intro hc; exact absurd hc.symm hN
  rw [hfix]
  rfl

/-- A toy libc that meets the contract, so that the theorems above are not vacuous. -/
def toyLibc : Libc where
  print f :=
    if f = 0x7F800000 then ['i', 'n', 'f'] else if f = 0xFF800000 then ['-', 'i', 'n', 'f']
    else '0' :: hexUpper 16 f.toNat
  strtod str := match str with
    | '0' :: cs => let (v, r) := takeHex 0 cs; (BitVec.ofNat 32 v, r)
    | s => (0, s)

theorem toyLibc_ok : LibcOk toyLibc where
  roundtrip f rest hf hr := by
    have h1 : f ≠ 0x7F800000 := by rintro rfl; exact absurd hf (by decide)
    have h2 : f ≠ 0xFF800000 := by rintro rfl; exact absurd hf (by decide)
    have hlt := f.isLt
    simp only [toyLibc, if_neg h1, if_neg h2, List.cons_append]
    rw [takeHex_hexUpper 16 _ _ (by norm_num at hlt ⊢; omega) (by norm_num)]
    have : takeHex f.toNat rest = (f.toNat, rest) := by
      rcases hr with rfl | ⟨r, rfl | rfl⟩ <;> rfl
    rw [this]
    simp
  posInf := by decide
  negInf := by decide
  head f hf := by
    have h1 : f ≠ 0x7F800000 := by rintro rfl; exact absurd hf (by decide)
    have h2 : f ≠ 0xFF800000 := by rintro rfl; exact absurd hf (by decide)
    exact ⟨'0', hexUpper 16 f.toNat, by simp only [toyLibc, if_neg h1, if_neg h2], .inl (by decide)⟩
  noParse cs := rfl

example : isNan32 0x7FC00001 = true ∧ isNan32 0x40490FDB = false := by decide
example : serializeFloat toyLibc 0x7FC00001 = "NaN(7FC00001)".toList := by decide

example : deserializeFloat toyLibc ("  \t040490FDB,\n  x".toList) = some (0x40490FDB, ['x']) := by decide

end MGL
