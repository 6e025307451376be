import Verif.Model.Serialize
import Verif.Props.MiniFloat
import Mathlib.Data.Nat.Notation

/-! Lemmas about the text serialisation. -/

namespace MGL

theorem hexVal_hexChar (d : ℕ) (h : d < 16) : hexVal (hexChar d) = some d := by
  have : ∀ d : Fin 16, hexVal (hexChar d) = some d.val := by decide
  exact this ⟨d, h⟩

theorem hexChar_facts (d : ℕ) (h : d < 16) :
    32 < (hexChar d).toNat ∧ hexChar d ≠ ')' := by
  have : ∀ d : Fin 16, 32 < (hexChar d).toNat ∧ hexChar d ≠ ')' := by decide
  exact this ⟨d, h⟩

theorem takeHex_hexUpper (fuel : ℕ) : ∀ (n : ℕ) (rest : List Char), n < 16 ^ fuel → 0 < fuel →
    takeHex 0 (hexUpper fuel n ++ rest) = takeHex n rest := by
  induction fuel with
  | zero => intro n rest _ h; omega
  | succ f ih =>
    intro n rest hn _
    unfold hexUpper
    split
    · rename_i h0
      simp only [List.nil_append, List.singleton_append, takeHex,
        hexVal_hexChar _ (Nat.mod_lt n (by norm_num))]
      congr 1
      omega
    · rename_i h0
      have hf : 0 < f := by
        rcases Nat.eq_zero_or_pos f with rfl | h
        · simp at hn; omega
        · exact h
      rw [List.append_assoc, ih (n / 16) _ (by rw [pow_succ] at hn; omega) hf]
      simp only [List.singleton_append, takeHex, hexVal_hexChar _ (Nat.mod_lt n (by norm_num))]
      congr 1
      omega

theorem hexUpper_all (fuel : ℕ) : ∀ (n : ℕ), ∀ c ∈ hexUpper fuel n, 32 < c.toNat ∧ c ≠ ')' := by
  induction fuel with
  | zero => intro n c h; simp [hexUpper] at h
  | succ f ih =>
    intro n c h
    unfold hexUpper at h
    rw [List.mem_append] at h
    rcases h with h | h
    · split at h
      · simp at h
      · exact ih _ c h
    · rw [List.mem_singleton] at h
      subst h
      exact hexChar_facts _ (Nat.mod_lt n (by norm_num))

theorem hexUpper_length_ge (fuel : ℕ) : ∀ (n k : ℕ), k < fuel → 16 ^ k ≤ n →
    k + 1 ≤ (hexUpper fuel n).length := by
  induction fuel with
  | zero => intro n k h; omega
  | succ f ih =>
    intro n k hk hn
    unfold hexUpper
    rw [List.length_append, List.length_singleton]
    rcases k with _ | k
    · omega
    · have h1 : 16 ^ k ≤ n / 16 := by rw [pow_succ] at hn; omega
      have h0 : n / 16 ≠ 0 := by
        have : 0 < 16 ^ k := by positivity
        omega
      rw [if_neg h0]
      have := ih (n / 16) k (by omega) h1
      omega

theorem hexUpper_length_le (fuel : ℕ) : ∀ (n k : ℕ), n < 16 ^ k → 0 < k →
    (hexUpper fuel n).length ≤ k := by
  induction fuel with
  | zero => intro n k _ _; simp [hexUpper]
  | succ f ih =>
    intro n k hn hk
    unfold hexUpper
    rw [List.length_append, List.length_singleton]
    split
    · simp; omega
    · rename_i h0
      have hk1 : 1 < k := by
        by_contra hc
        have : k = 1 := by omega
        subst this
        simp at hn
        omega
      have := ih (n / 16) (k - 1) (by
        have : 16 ^ k = 16 ^ (k - 1) * 16 := by rw [← pow_succ]; congr 1; omega
        omega) (by omega)
      omega

theorem skipWs_cons {c : Char} (cs : List Char) (h : 32 < c.toNat) : skipWs (c :: cs) = c :: cs := by
  unfold skipWs
  rw [if_neg (by omega)]

theorem skipParen_append : ∀ (ds rest : List Char), ds ≠ [] → (∀ c ∈ ds, c ≠ ')') →
    skipParen (ds ++ ')' :: rest) = rest := by
  intro ds
  induction ds with
  | nil => intro rest h; exact absurd rfl h
  | cons d ds ih =>
    intro rest _ hall
    cases ds with
    | nil => rfl
    | cons e es =>
      have he : e ≠ ')' := hall e (by simp)
      have := ih rest (by simp) (fun c hc => hall c (by simp [hc]))
      rw [List.cons_append, List.cons_append]
      rw [skipParen]
      · exact this
      · intro r heq
        simp only [List.cons.injEq] at heq
        exact he heq.1

theorem isNan_toNat {u : BitVec 32} (h : isNan32 u = true) : 16 ^ 7 ≤ u.toNat := by
  unfold isNan32 at h
  have h' := of_decide_eq_true h
  rw [gt_iff_lt, BitVec.lt_def, BitVec.toNat_shiftLeft] at h'
  have := u.isLt
  rw [Nat.shiftLeft_eq] at h'
  simp only [BitVec.toNat_ofNat] at h'
  omega

theorem hexstr_hexUpper (fuel : ℕ) : ∀ (n left : ℕ) (rest : List Char), n < 16 ^ fuel →
    fuel ≤ 16 → 0 < fuel → (hexUpper fuel n).length ≤ left →
    hexstrToU64 0 left (hexUpper fuel n ++ rest) =
      hexstrToU64 (BitVec.ofNat 64 n) (left - (hexUpper fuel n).length) rest := by
  induction fuel with
  | zero => intro n left rest _ _ h; omega
  | succ f ih =>
    intro n left rest hn h16 _ hlen
    unfold hexUpper at hlen ⊢
    rw [List.length_append, List.length_singleton] at hlen ⊢
    obtain ⟨l', rfl⟩ : ∃ l', left = l' + 1 := ⟨left - 1, by omega⟩
    split
    · rename_i h0
      simp only [List.nil_append, List.singleton_append, hexstrToU64,
        hexVal_hexChar _ (Nat.mod_lt n (by norm_num)), List.length_nil]
      have : n % 16 = n := by omega
      rw [this]
      simp
    · rename_i h0
      rw [if_neg h0] at hlen
      have hf : 0 < f := by
        rcases Nat.eq_zero_or_pos f with rfl | h
        · simp at hn; omega
        · exact h
      rw [List.append_assoc, ih (n / 16) _ _ (by rw [pow_succ] at hn; omega) (by omega) hf
        (by omega)]
      have e : l' + 1 - (hexUpper f (n / 16)).length =
          (l' - (hexUpper f (n / 16)).length) + 1 := by omega
      rw [e]
      simp only [List.singleton_append, hexstrToU64,
        hexVal_hexChar _ (Nat.mod_lt n (by norm_num))]
      have e2 : l' + 1 - ((hexUpper f (n / 16)).length + 1) =
          l' - (hexUpper f (n / 16)).length := by omega
      rw [e2]
      congr 1
      apply BitVec.eq_of_toNat_eq
      simp only [BitVec.toNat_add, BitVec.toNat_mul, BitVec.toNat_ofNat,
        show (16 : BitVec 64).toNat = 16 by decide]
      omega

end MGL
