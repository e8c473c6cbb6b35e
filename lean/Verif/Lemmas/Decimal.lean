import Verif.Spec.Decimal
import Verif.Lemmas.BinaryFormat
import Mathlib.Data.Nat.Digits.Lemmas
import Mathlib.Algebra.Order.Archimedean.Basic
import Mathlib.Tactic.FieldSimp
import Mathlib.Tactic.Linarith

/-! Every float has a decimal number of few digits that reads as it (C130). -/

set_option autoImplicit false

namespace Interpn

theorem natOf_nil : natOf [] = 0 := rfl

theorem natOf_concat (l : List Nat) (d : Nat) : natOf (l ++ [d]) = 10 * natOf l + d := by
  unfold natOf; rw [List.foldl_append]; rfl

theorem natOf_append (a b : List Nat) : natOf (a ++ b) = natOf a * 10 ^ b.length + natOf b := by
  induction b using List.reverseRecOn with
  | nil => simp [natOf]
  | append_singleton l d ih =>
    rw [← List.append_assoc, natOf_concat, natOf_concat, ih, List.length_append, List.length_singleton,
      pow_succ]
    ring

theorem natOf_zeros (n : Nat) : natOf (List.replicate n 0) = 0 := by
  induction n with
  | zero => rfl
  | succ n ih => rw [List.replicate_succ', natOf_concat, ih]

theorem natOf_digits (m : Nat) : natOf (Nat.digits 10 m).reverse = m := by
  unfold natOf
  rw [List.foldl_reverse]
  conv_rhs => rw [← Nat.ofDigits_digits 10 m, Nat.ofDigits_eq_foldr]
  congr 1
  funext a b
  simp [Nat.add_comm]

theorem roundHalfEven_nearest (x : ℚ) (n : Int) : |(roundHalfEven x : ℚ) - x| ≤ |(n : ℚ) - x| := by
  by_contra h
  have h1 := roundHalfEven_err x
  have h2 : |(n : ℚ) - roundHalfEven x| < 1 := by
    have := abs_sub_le (n : ℚ) x (roundHalfEven x)
    rw [abs_sub_comm x] at this
    linarith [not_le.1 h]
  have h3 : n = roundHalfEven x := by
    have : |n - roundHalfEven x| < 1 := by exact_mod_cast h2
    have := abs_lt.1 this
    omega
  rw [h3] at h
  exact h le_rfl

namespace Format
variable (f : Format)

/-- Rounding gives a nearest float. -/
theorem roundQ_nearest (d : ℚ) {c : ℚ} (hc : f.Representable c) : |f.roundQ d - d| ≤ |c - d| := by
  rcases eq_or_ne d 0 with rfl | hd
  · rw [f.roundQ_zero, sub_self, abs_zero]; exact abs_nonneg _
  have h0 := f.quantum_pos d
  have key : ∀ n : Int, |f.roundQ d - d| ≤ |n * f.quantum d - d| := fun n => by
    have h := mul_le_mul_of_nonneg_right (roundHalfEven_nearest (d / f.quantum d) n) h0.le
    rw [← abs_of_pos h0, ← abs_mul, ← abs_mul, abs_of_pos h0, sub_mul, sub_mul,
      div_mul_cancel₀ _ h0.ne'] at h
    exact h
  rcases f.multiple_or_small hd hc with ⟨n, rfl⟩ | ⟨n, h1, h2⟩
  · exact key n
  · have h3 : |d| - n * f.quantum d ≤ |c - d| := by
      have := abs_sub_abs_le_abs_sub d c
      rw [abs_sub_comm] at this
      linarith
    refine le_trans ?_ h3
    rcases lt_or_gt_of_ne hd with hn | hp
    · refine (key (-n)).trans (le_of_eq ?_)
      rw [abs_of_neg hn] at h2 ⊢
      rw [abs_of_nonneg (by push_cast; linarith)]
      push_cast; ring
    · refine (key n).trans (le_of_eq ?_)
      rw [abs_of_pos hp] at h2 ⊢
      rw [abs_of_nonpos (by linarith)]
      ring

/-- Two different numbers of at most `p` digits are a unit roundoff apart. -/
theorem spacing {m e m' e' : Int} (hm : |m| < 2 ^ f.p) (hm' : |m'| < 2 ^ f.p)
    (h : (m' : ℚ) * 2 ^ e' ≠ m * 2 ^ e) :
    f.unitRoundoff * |(m : ℚ) * 2 ^ e| ≤ |(m' : ℚ) * 2 ^ e' - m * 2 ^ e| := by
  have hp : (0 : ℚ) < 2 ^ f.p := by positivity
  have he : (0 : ℚ) < 2 ^ e := zpow_pos (by norm_num) _
  have he' : (0 : ℚ) < 2 ^ e' := zpow_pos (by norm_num) _
  have hmq : |(m : ℚ)| < 2 ^ f.p := by exact_mod_cast hm
  have hmq' : |(m' : ℚ)| ≤ 2 ^ f.p - 1 := by
    have : |m'| ≤ 2 ^ f.p - 1 := by omega
    exact_mod_cast this
  unfold unitRoundoff
  rw [abs_mul, abs_of_pos he, one_div, inv_mul_le_iff₀ hp]
  rcases le_total e e' with hle | hle
  · obtain ⟨d, rfl⟩ : ∃ d : Nat, e' = e + d := ⟨(e' - e).toNat, by omega⟩
    have e1 : (m' : ℚ) * 2 ^ (e + (d : Int)) - m * 2 ^ e = ((m' * 2 ^ d - m : Int) : ℚ) * 2 ^ e := by
      rw [zpow_add₀ (by norm_num), zpow_natCast]; push_cast; ring
    have hne : m' * 2 ^ d - m ≠ 0 := by
      intro h0
      rw [h0] at e1
      rw [Int.cast_zero, zero_mul, sub_eq_zero] at e1
      exact h e1
    have h1 : (1 : ℚ) ≤ |((m' * 2 ^ d - m : Int) : ℚ)| := by exact_mod_cast Int.one_le_abs hne
    rw [e1, abs_mul, abs_of_pos he, ← mul_assoc]
    refine mul_le_mul_of_nonneg_right (hmq.le.trans ?_) he.le
    exact le_mul_of_one_le_right hp.le h1
  · obtain ⟨d, rfl⟩ : ∃ d : Nat, e = e' + d := ⟨(e - e').toNat, by omega⟩
    have e1 : (m' : ℚ) * 2 ^ e' - m * 2 ^ (e' + (d : Int)) = ((m' - m * 2 ^ d : Int) : ℚ) * 2 ^ e' := by
      rw [zpow_add₀ (by norm_num), zpow_natCast]; push_cast; ring
    have hne : m' - m * 2 ^ d ≠ 0 := by
      intro h0
      rw [h0] at e1
      rw [Int.cast_zero, zero_mul, sub_eq_zero] at e1
      exact h e1
    have h1 : (1 : ℚ) ≤ |((m' - m * 2 ^ d : Int) : ℚ)| := by exact_mod_cast Int.one_le_abs hne
    have h2 : (2 : ℚ) ^ e' ≤ |(m' : ℚ) * 2 ^ e' - m * 2 ^ (e' + (d : Int))| := by
      rw [e1, abs_mul, abs_of_pos he']; nlinarith
    have h3 : |(m : ℚ)| * 2 ^ (e' + (d : Int)) - |(m' : ℚ)| * 2 ^ e' ≤
        |(m' : ℚ) * 2 ^ e' - m * 2 ^ (e' + (d : Int))| := by
      have := abs_sub_abs_le_abs_sub ((m : ℚ) * 2 ^ (e' + (d : Int))) (m' * 2 ^ e')
      rw [abs_mul, abs_mul, abs_of_pos he, abs_of_pos he', abs_sub_comm] at this
      exact this
    have h4 : |(m' : ℚ)| * 2 ^ e' ≤ (2 ^ f.p - 1) * 2 ^ e' := mul_le_mul_of_nonneg_right hmq' he'.le
    have hp1 : (1 : ℚ) ≤ 2 ^ f.p := one_le_pow₀ (by norm_num)
    set D := |(m' : ℚ) * 2 ^ e' - m * 2 ^ (e' + (d : Int))|
    nlinarith

/-- A number closer to a float than half a unit roundoff reads as this float. -/
theorem roundQ_of_close {d q : ℚ} (hq : f.Representable q)
    (h : |d - q| < f.unitRoundoff / 2 * |q|) : f.roundQ d = q := by
  by_contra hne
  have h1 := f.roundQ_nearest d hq
  rw [abs_sub_comm q] at h1
  have h2 : |f.roundQ d - q| < f.unitRoundoff * |q| := by
    have := abs_sub_le (f.roundQ d) d q
    linarith
  obtain ⟨m, e, hm, -, -, rfl⟩ := hq
  obtain ⟨m', e', hr, hm', -⟩ := f.roundQ_multiple d
  rw [hr] at h2 hne
  rcases lt_or_eq_of_le hm' with hlt | heq
  · exact absurd (f.spacing hm hlt hne) (not_le.2 h2)
  · -- one digit more: shift
    obtain ⟨k, hk⟩ : ∃ k, f.p = k + 1 := ⟨f.p - 1, by have := f.two_le_p; omega⟩
    obtain ⟨n, hn, hn'⟩ : ∃ n : Int, m' = n * 2 ∧ |n| < 2 ^ f.p := by
      rcases abs_cases m' with ⟨h3, -⟩ | ⟨h3, -⟩
      · refine ⟨2 ^ k, ?_, ?_⟩
        · rw [← h3, heq, hk, pow_succ]
        · rw [abs_of_pos (by positivity), hk, pow_succ]
          have : (0 : Int) < 2 ^ k := by positivity
          omega
      · refine ⟨-2 ^ k, ?_, ?_⟩
        · have : m' = -2 ^ f.p := by rw [← heq, h3]; ring
          rw [this, hk, pow_succ]; ring
        · rw [abs_neg, abs_of_pos (by positivity), hk, pow_succ]
          have : (0 : Int) < 2 ^ k := by positivity
          omega
    have e1 : (m' : ℚ) * 2 ^ e' = (n : ℚ) * 2 ^ (e' + 1) := by
      rw [hn, zpow_add₀ (by norm_num), zpow_one]; push_cast; ring
    rw [e1] at h2 hne
    exact absurd (f.spacing hm hn' hne) (not_le.2 h2)

end Format

/-- Printing a positive number of the format with `D` digits, if `2^p < 10^(D-1)`. -/
theorem exists_decimal (f : Format) {D : Nat} (hD : 2 ^ f.p < 10 ^ (D - 1)) {q : ℚ}
    (hq : f.Representable q) (h0 : 0 < q) : ∃ ds decpt, IsDecimal f q ds decpt ∧ ds.length ≤ D := by
  have hD1 : 1 ≤ D := by
    by_contra h
    have : D = 0 := by omega
    subst this
    have := Nat.one_le_two_pow (n := f.p)
    omega
  obtain ⟨k, hk1, hk2⟩ := exists_mem_Ico_zpow (y := (10 : ℚ)) h0 (by norm_num)
  -- `10^k ≤ q < 10^(k+1)`; round `q * 10^(D-1-k)` to a whole number
  set e : Int := k - (D - 1 : Nat) with he
  have h10 : (0 : ℚ) < 10 ^ e := zpow_pos (by norm_num) _
  set z : Int := roundHalfEven (q / 10 ^ e) with hz
  have hlo : (10 ^ (D - 1) : ℚ) ≤ q / 10 ^ e := by
    rw [le_div_iff₀ h10, ← zpow_natCast, ← zpow_add₀ (by norm_num)]
    rw [he]; convert hk1 using 2; ring
  have hhi : q / 10 ^ e ≤ (10 ^ D : ℚ) := by
    rw [div_le_iff₀ h10, ← zpow_natCast, ← zpow_add₀ (by norm_num)]
    rw [he]; refine hk2.le.trans (le_of_eq ?_); congr 1; omega
  have hz1 : (10 : Int) ^ (D - 1) ≤ z := le_roundHalfEven (by push_cast; exact hlo)
  have hz2 : z ≤ (10 : Int) ^ D := roundHalfEven_le (by push_cast; exact hhi)
  have hclose : f.roundQ ((z : ℚ) * 10 ^ e) = q := by
    apply f.roundQ_of_close hq
    have h1 := roundHalfEven_err (q / 10 ^ e)
    rw [← hz] at h1
    have h2 : |(z : ℚ) * 10 ^ e - q| ≤ 1 / 2 * 10 ^ e := by
      have : (z : ℚ) * 10 ^ e - q = (z - q / 10 ^ e) * 10 ^ e := by
        rw [sub_mul, div_mul_cancel₀ _ h10.ne']
      rw [this, abs_mul, abs_of_pos h10]
      exact mul_le_mul_of_nonneg_right h1 h10.le
    refine lt_of_le_of_lt h2 ?_
    rw [abs_of_pos h0]
    unfold Format.unitRoundoff
    have h3 : (10 ^ (D - 1) : ℚ) * 10 ^ e ≤ q := by rwa [le_div_iff₀ h10] at hlo
    have h4 : (2 ^ f.p : ℚ) < 10 ^ (D - 1) := by exact_mod_cast hD
    have h5 : (0 : ℚ) < 2 ^ f.p := by positivity
    have h6 : (2 ^ f.p : ℚ) * 10 ^ e < q := lt_of_lt_of_le (mul_lt_mul_of_pos_right h4 h10) h3
    have h7 : (10 : ℚ) ^ e < 1 / 2 ^ f.p * q := by
      rw [one_div, inv_mul_eq_div, lt_div_iff₀ h5]; linarith
    linarith
  obtain ⟨n, hn⟩ : ∃ n : Nat, z = n := ⟨z.toNat, by
    have : (0 : Int) < 10 ^ (D - 1) := by positivity
    omega⟩
  have hn1 : 10 ^ (D - 1) ≤ n := by rw [hn] at hz1; exact_mod_cast hz1
  have hn2 : n ≤ 10 ^ D := by rw [hn] at hz2; exact_mod_cast hz2
  rcases Nat.lt_or_eq_of_le hn2 with hlt | heq
  · refine ⟨(Nat.digits 10 n).reverse, e + (Nat.digits 10 n).length, ⟨?_, ?_, ?_⟩, ?_⟩
    · intro d hd
      exact Nat.digits_lt_base (by norm_num) (List.mem_reverse.1 hd)
    · have hn0 : n ≠ 0 := by
        have : 0 < 10 ^ (D - 1) := by positivity
        omega
      have hne : Nat.digits 10 n ≠ [] := Nat.digits_ne_nil_iff_ne_zero.2 hn0
      have := Nat.getLast_digit_ne_zero 10 hn0
      refine ⟨(Nat.digits 10 n).getLast hne, (Nat.digits 10 n).dropLast.reverse, ?_, this⟩
      conv_lhs => rw [← List.dropLast_append_getLast hne]
      rw [List.reverse_append]; rfl
    · unfold decValue
      rw [natOf_digits, List.length_reverse, ← hclose, hn]
      congr 2
      · congr 1; ring
    · rw [List.length_reverse]
      exact (Nat.digits_length_le_iff (by norm_num) _).2 hlt
  · refine ⟨[1], e + D + 1, ⟨?_, ⟨1, [], rfl, by norm_num⟩, ?_⟩, hD1⟩
    · intro d hd
      rw [List.mem_singleton] at hd; omega
    · unfold decValue
      rw [← hclose, hn, heq]
      congr 1
      have : natOf [1] = 1 := rfl
      rw [this, List.length_singleton]
      push_cast
      rw [one_mul, ← zpow_natCast, ← zpow_add₀ (by norm_num)]
      congr 1; ring

end Interpn
