import Verif.Spec.BinaryFormat
import Mathlib.Data.Rat.Floor
import Mathlib.Data.Int.Log
import Mathlib.Tactic.Linarith
import Mathlib.Tactic.Positivity
import Mathlib.Tactic.FieldSimp
import Mathlib.Tactic.Ring
import Mathlib.Tactic.NormNum
import Mathlib.Algebra.Order.Ring.Abs

/-! Facts about rounding to a binary format. -/

set_option autoImplicit false

namespace Interpn

/-! #### Rounding to a whole number -/

theorem roundHalfEven_cases (x : ℚ) :
    (roundHalfEven x = ⌊x⌋ ∧ x - ⌊x⌋ ≤ 1 / 2) ∨ (roundHalfEven x = ⌊x⌋ + 1 ∧ 1 / 2 ≤ x - ⌊x⌋) := by
  unfold roundHalfEven
  split
  · next h => exact .inl ⟨rfl, h.le⟩
  · next h =>
    split
    · next h' => exact .inr ⟨rfl, h'.le⟩
    · next h' =>
      split
      · exact .inl ⟨rfl, by linarith⟩
      · exact .inr ⟨rfl, by linarith⟩

theorem roundHalfEven_err (x : ℚ) : |(roundHalfEven x : ℚ) - x| ≤ 1 / 2 := by
  have h1 := Int.floor_le x
  have h2 := Int.lt_floor_add_one x
  rcases roundHalfEven_cases x with ⟨e, h⟩ | ⟨e, h⟩ <;> rw [e, abs_le] <;> push_cast <;>
    constructor <;> linarith

theorem roundHalfEven_le {x : ℚ} {c : Int} (h : x ≤ c) : roundHalfEven x ≤ c := by
  rcases roundHalfEven_cases x with ⟨e, h'⟩ | ⟨e, h'⟩ <;> rw [e]
  · have := Int.floor_le x
    have : ((⌊x⌋ : Int) : ℚ) ≤ c := by linarith
    exact_mod_cast this
  · by_contra hc
    have h3 : c ≤ ⌊x⌋ := by omega
    have h4 : (c : ℚ) ≤ ⌊x⌋ := by exact_mod_cast h3
    linarith

theorem le_roundHalfEven {x : ℚ} {c : Int} (h : (c : ℚ) ≤ x) : c ≤ roundHalfEven x := by
  have := Int.le_floor.2 h
  rcases roundHalfEven_cases x with ⟨e, _⟩ | ⟨e, _⟩ <;> rw [e] <;> omega

theorem roundHalfEven_int (c : Int) : roundHalfEven (c : ℚ) = c :=
  le_antisymm (roundHalfEven_le le_rfl) (le_roundHalfEven le_rfl)

theorem roundHalfEven_mono {x y : ℚ} (h : x ≤ y) : roundHalfEven x ≤ roundHalfEven y := by
  have hfl := Int.floor_le_floor h
  rcases lt_or_eq_of_le hfl with hlt | heq
  · have h1 : roundHalfEven x ≤ ⌊x⌋ + 1 := by
      rcases roundHalfEven_cases x with ⟨e, _⟩ | ⟨e, _⟩ <;> omega
    have h2 : ⌊y⌋ ≤ roundHalfEven y := le_roundHalfEven (Int.floor_le y)
    omega
  · unfold roundHalfEven
    rw [heq]
    split_ifs <;> first | omega | (exfalso; linarith)

namespace Format
variable (f : Format)

theorem quantum_pos (q : ℚ) : 0 < f.quantum q := zpow_pos (by norm_num) _

theorem underflow_pos : 0 < f.underflow := zpow_pos (by norm_num) _

theorem two_pow_p_pos : (0 : ℚ) < 2 ^ f.p := by positivity

/-- Rounding to a multiple of the quantum. -/
theorem roundQ_div (q : ℚ) : f.roundQ q / f.quantum q = (roundHalfEven (q / f.quantum q) : ℚ) := by
  unfold roundQ
  rw [mul_div_assoc, div_self (f.quantum_pos q).ne', mul_one]

theorem roundQ_err_quantum (q : ℚ) : |f.roundQ q - q| ≤ f.quantum q / 2 := by
  have h0 := f.quantum_pos q
  have h := roundHalfEven_err (q / f.quantum q)
  have e : f.roundQ q - q = ((roundHalfEven (q / f.quantum q) : ℚ) - q / f.quantum q) * f.quantum q := by
    unfold roundQ
    field_simp
  rw [e, abs_mul, abs_of_pos h0]
  nlinarith

/-- The quantum is small compared with the number, or is the least one. -/
theorem quantum_cases (q : ℚ) (hq : q ≠ 0) :
    (f.quantum q * 2 ^ f.p ≤ 2 * |q| ∧ |q| < f.quantum q * 2 ^ f.p ∧
        f.quantum q = 2 ^ (Int.log 2 |q| - (f.p - 1 : Int)) ∧ f.emin ≤ Int.log 2 |q|) ∨
      (f.quantum q = 2 ^ (f.emin - (f.p - 1 : Int)) ∧ Int.log 2 |q| < f.emin ∧
        |q| < 2 ^ f.emin) := by
  have hpos := abs_pos.2 hq
  have h1 := Int.zpow_log_le_self (b := 2) (R := ℚ) (r := |q|) (by norm_num) hpos
  have h2 := Int.lt_zpow_succ_log_self (b := 2) (R := ℚ) (by norm_num) |q|
  push_cast at h1 h2
  rcases le_or_gt f.emin (Int.log 2 |q|) with h | h
  · left
    have e : f.quantum q = 2 ^ (Int.log 2 |q| - (f.p - 1 : Int)) := by
      unfold quantum; rw [max_eq_left h]
    have e2 : f.quantum q * 2 ^ f.p = 2 ^ (Int.log 2 |q| + 1) := by
      rw [e, ← zpow_natCast, ← zpow_add₀ (by norm_num)]
      congr 1
      ring
    refine ⟨?_, ?_, e, h⟩
    · rw [e2, zpow_add₀ (by norm_num), zpow_one]; linarith
    · rw [e2]; exact h2
  · right
    refine ⟨by unfold quantum; rw [max_eq_right h.le], h, lt_of_lt_of_le h2 ?_⟩
    exact zpow_le_zpow_right₀ (by norm_num) (by omega)

/-- Rounding error: relative, or half the least quantum. -/
theorem roundQ_err (q : ℚ) : |f.roundQ q - q| ≤ f.unitRoundoff * |q| + f.underflow := by
  rcases eq_or_ne q 0 with rfl | hq
  · have : f.roundQ 0 = 0 := by
      unfold roundQ
      rw [zero_div, show (0 : ℚ) = ((0 : Int) : ℚ) by simp, roundHalfEven_int]; simp
    rw [this]
    simp only [sub_self, abs_zero, mul_zero, zero_add]
    exact f.underflow_pos.le
  have h := f.roundQ_err_quantum q
  have hu := f.underflow_pos.le
  rcases f.quantum_cases q hq with ⟨h1, _⟩ | ⟨h1, _⟩
  · have h2 : f.quantum q / 2 ≤ f.unitRoundoff * |q| := by
      unfold unitRoundoff
      rw [div_mul_eq_mul_div, one_mul, le_div_iff₀ (by positivity)]
      linarith
    linarith
  · have h2 : f.quantum q / 2 = f.underflow := by
      rw [h1]
      unfold underflow
      rw [div_eq_mul_inv, ← zpow_neg_one, ← zpow_add₀ (by norm_num)]
      congr 1
      ring
    have : 0 ≤ f.unitRoundoff * |q| := by unfold unitRoundoff; positivity
    linarith

/-- A multiple of a power of 2 that is at least the quantum is not changed. -/
theorem roundQ_of_multiple {q : ℚ} {m e : Int} (hq : q = m * 2 ^ e) (he : f.quantum q ≤ 2 ^ e) :
    f.roundQ q = q := by
  have h0 := f.quantum_pos q
  unfold quantum at he
  rw [zpow_le_zpow_iff_right₀ (by norm_num)] at he
  obtain ⟨d, hd⟩ : ∃ d : Nat, e = max (Int.log 2 |q|) f.emin - (f.p - 1 : Int) + d :=
    ⟨(e - (max (Int.log 2 |q|) f.emin - (f.p - 1 : Int))).toNat, by omega⟩
  have h1 : q / f.quantum q = ((m * 2 ^ d : Int) : ℚ) := by
    rw [div_eq_iff h0.ne']
    push_cast
    rw [mul_assoc, show (2 : ℚ) ^ d * f.quantum q = 2 ^ e by
      unfold quantum
      rw [← zpow_natCast, ← zpow_add₀ (by norm_num)]
      congr 1
      rw [hd]; ring]
    exact hq
  unfold roundQ
  rw [h1, roundHalfEven_int, ← h1, div_mul_cancel₀ _ h0.ne']

/-- A number of at most `p` digits has a quantum at most that of its last digit. -/
theorem quantum_le {q : ℚ} {m e : Int} (hq : q = m * 2 ^ e) (hm : |m| < 2 ^ f.p)
    (he : f.emin - (f.p - 1 : Int) ≤ e) (h0 : q ≠ 0) : f.quantum q ≤ 2 ^ e := by
  unfold quantum
  rw [zpow_le_zpow_iff_right₀ (by norm_num)]
  have hlt : |q| < 2 ^ ((f.p : Int) + e) := by
    rw [hq, abs_mul, abs_of_pos (zpow_pos (by norm_num : (0 : ℚ) < 2) e), zpow_add₀ (by norm_num),
      zpow_natCast]
    have : (|m| : ℚ) < 2 ^ f.p := by exact_mod_cast hm
    have h2 : (0 : ℚ) < 2 ^ e := zpow_pos (by norm_num) _
    gcongr
  have hlog : Int.log 2 |q| < f.p + e :=
    (Int.lt_zpow_iff_log_lt (by norm_num) (abs_pos.2 h0)).1 (by exact_mod_cast hlt)
  omega

/-- Floats are not changed by rounding. -/
theorem roundQ_repr {q : ℚ} (h : f.Representable q) : f.roundQ q = q := by
  obtain ⟨m, e, hm, he, _, hq⟩ := h
  rcases eq_or_ne q 0 with rfl | h0
  · exact f.roundQ_of_multiple (m := 0) (e := max (Int.log 2 |0|) f.emin - (f.p - 1 : Int))
      (by simp) le_rfl
  · exact f.roundQ_of_multiple hq (f.quantum_le hq hm he h0)

theorem omega_pos : 0 < f.omega := by
  unfold omega
  have h1 : (1 : ℚ) < 2 ^ f.p := one_lt_pow₀ (by norm_num) (by have := f.two_le_p; omega)
  have h2 : (0 : ℚ) < 2 ^ ((f.emax : Int) - (f.p - 1)) := zpow_pos (by norm_num) _
  nlinarith

theorem omega_lt : f.omega < 2 ^ ((f.emax : Int) + 1) := by
  unfold omega
  have h2 : (0 : ℚ) < 2 ^ ((f.emax : Int) - (f.p - 1)) := zpow_pos (by norm_num) _
  have e : (2 : ℚ) ^ ((f.emax : Int) + 1) = 2 ^ f.p * 2 ^ ((f.emax : Int) - (f.p - 1)) := by
    rw [← zpow_natCast, ← zpow_add₀ (by norm_num)]
    congr 1
    ring
  rw [e]
  nlinarith

/-- A number of at most `p` digits, in range, is a float. -/
theorem repr_of_multiple {q : ℚ} {m e : Int} (hq : q = m * 2 ^ e) (hm : |m| ≤ 2 ^ f.p)
    (he : f.emin - (f.p - 1 : Int) ≤ e) (hΩ : |q| ≤ f.omega) : f.Representable q := by
  have hp := f.two_le_p
  have hp2 : (2 : Int) ^ f.p = 2 * 2 ^ (f.p - 1) := by
    rw [← pow_succ']; congr 1; omega
  have hpp : (0 : Int) < 2 ^ (f.p - 1) := by positivity
  -- normalise to digits with `|m| < 2^p` and `2^(p-1) ≤ |m|` or least exponent
  have main : ∀ (n : Nat) (m e : Int), e = f.emin - (f.p - 1 : Int) + n → q = m * 2 ^ e →
      |m| ≤ 2 ^ f.p → f.Representable q := by
    intro n
    induction n with
    | zero =>
      intro m e he hq hm
      rcases lt_or_eq_of_le hm with h | h
      · refine ⟨m, e, h, by omega, ?_, hq⟩
        unfold emin at he
        have := f.p_le_emax
        push_cast at he ⊢
        omega
      · obtain ⟨k, hk⟩ : ∃ k, m = k * 2 := by
          rcases (abs_eq (by positivity)).1 h with h | h
          · exact ⟨2 ^ (f.p - 1), by rw [h, hp2]; ring⟩
          · exact ⟨-2 ^ (f.p - 1), by rw [h, hp2]; ring⟩
        refine ⟨k, e + 1, ?_, by omega, ?_, ?_⟩
        · have h2 : |m| = |k| * 2 := by rw [hk, abs_mul]; rfl
          omega
        · unfold emin at he
          have := f.p_le_emax
          push_cast at he ⊢
          omega
        · rw [hq, hk, zpow_add₀ (by norm_num), zpow_one]; push_cast; ring
    | succ n ih =>
      intro m e he hq hm
      by_cases hsmall : e ≤ f.emax - (f.p - 1 : Int) ∧ |m| < 2 ^ f.p
      · exact ⟨m, e, hsmall.2, by omega, hsmall.1, hq⟩
      · by_cases hbig : e ≤ f.emax - (f.p - 1 : Int)
        · -- `|m| = 2^p`
          have h : |m| = 2 ^ f.p := le_antisymm hm (by
            by_contra hc
            exact hsmall ⟨hbig, by omega⟩)
          obtain ⟨k, hk⟩ : ∃ k, m = k * 2 := by
            rcases (abs_eq (by positivity)).1 h with h | h
            · exact ⟨2 ^ (f.p - 1), by rw [h, hp2]; ring⟩
            · exact ⟨-2 ^ (f.p - 1), by rw [h, hp2]; ring⟩
          have hk2 : |m| = |k| * 2 := by rw [hk, abs_mul]; rfl
          refine ⟨k, e + 1, by omega, by omega, ?_, ?_⟩
          · -- otherwise out of range
            by_contra hc
            have he' : e = f.emax - (f.p - 1 : Int) := by omega
            have : |q| = 2 ^ ((f.emax : Int) + 1) := by
              rw [hq, abs_mul, abs_of_pos (zpow_pos (by norm_num : (0 : ℚ) < 2) e)]
              have h2 : (|m| : ℚ) = 2 ^ f.p := by exact_mod_cast h
              rw [h2, he', ← zpow_natCast, ← zpow_add₀ (by norm_num)]
              congr 1
              ring
            have := f.omega_lt
            linarith
          · rw [hq, hk, zpow_add₀ (by norm_num), zpow_one]; push_cast; ring
        · -- exponent too large: move digits
          refine ih (m * 2) (e - 1) (by push_cast at he ⊢; omega) ?_ ?_
          · rw [hq, zpow_sub₀ (by norm_num), zpow_one]; push_cast; ring
          · by_contra hc
            push Not at hc
            have h2 : |m * 2| = |m| * 2 := by rw [abs_mul]; rfl
            rw [h2, hp2] at hc
            have h3 : 2 ^ (f.p - 1) + 1 ≤ |m| := by omega
            have h4 : (2 : ℚ) ^ (f.p - 1) ≤ |(m : ℚ)| := by
              have : (2 : Int) ^ (f.p - 1) ≤ |m| := by omega
              exact_mod_cast this
            have h5 : (2 : ℚ) ^ ((f.emax : Int) + 1) ≤ |q| := by
              rw [hq, abs_mul, abs_of_pos (zpow_pos (by norm_num : (0 : ℚ) < 2) e)]
              calc (2 : ℚ) ^ ((f.emax : Int) + 1) ≤ 2 ^ ((f.p - 1 : Nat) + e : Int) := by
                    refine zpow_le_zpow_right₀ (by norm_num) ?_
                    omega
                _ = 2 ^ (f.p - 1) * 2 ^ e := by
                    rw [zpow_add₀ (by norm_num), zpow_natCast]
                _ ≤ |(m : ℚ)| * 2 ^ e :=
                    mul_le_mul_of_nonneg_right h4 (zpow_pos (by norm_num) _).le
            have := f.omega_lt
            linarith
  exact main (e - (f.emin - (f.p - 1 : Int))).toNat m e (by omega) hq hm

theorem Representable.le_omega {f : Format} {q : ℚ} (h : f.Representable q) : |q| ≤ f.omega := by
  obtain ⟨m, e, hm, _, he, hq⟩ := h
  rw [hq, abs_mul, abs_of_pos (zpow_pos (by norm_num : (0 : ℚ) < 2) e)]
  unfold omega
  have h1 : |m| ≤ 2 ^ f.p - 1 := by omega
  have h2 : (|m| : ℚ) ≤ 2 ^ f.p - 1 := by exact_mod_cast h1
  have h3 : (2 : ℚ) ^ e ≤ 2 ^ ((f.emax : Int) - (f.p - 1)) :=
    zpow_le_zpow_right₀ (by norm_num) he
  have h4 : (0 : ℚ) ≤ |(m : ℚ)| := abs_nonneg _
  have h5 : (0 : ℚ) < 2 ^ e := zpow_pos (by norm_num) _
  calc |(m : ℚ)| * 2 ^ e ≤ (2 ^ f.p - 1) * 2 ^ e := by gcongr
    _ ≤ _ := by
      refine mul_le_mul_of_nonneg_left h3 ?_
      linarith

theorem omega_repr : f.Representable f.omega :=
  ⟨2 ^ f.p - 1, (f.emax : Int) - (f.p - 1), by
    rw [abs_of_nonneg]
    · omega
    · have : (1 : Int) ≤ 2 ^ f.p := one_le_pow₀ (by norm_num)
      omega, by
    unfold emin
    have := f.p_le_emax
    have := f.two_le_p
    omega, le_rfl, by unfold omega; push_cast; rfl⟩

theorem Representable.neg {f : Format} {q : ℚ} (h : f.Representable q) : f.Representable (-q) := by
  obtain ⟨m, e, hm, he, he', hq⟩ := h
  exact ⟨-m, e, by rwa [abs_neg], he, he', by rw [hq]; push_cast; ring⟩

theorem zero_repr : f.Representable 0 :=
  ⟨0, 0, by simp, by
    unfold emin
    have := f.p_le_emax
    have := f.two_le_p
    omega, by have := f.p_le_emax; omega, by simp⟩

/-- Rounding gives a number with at most `p` digits. -/
theorem roundQ_multiple (q : ℚ) : ∃ m e : Int, f.roundQ q = m * 2 ^ e ∧ |m| ≤ 2 ^ f.p ∧
    f.emin - (f.p - 1 : Int) ≤ e := by
  refine ⟨roundHalfEven (q / f.quantum q), max (Int.log 2 |q|) f.emin - (f.p - 1 : Int), rfl, ?_, ?_⟩
  · have h0 := f.quantum_pos q
    have hb : |q / f.quantum q| ≤ ((2 ^ f.p : Int) : ℚ) := by
      rw [abs_div, abs_of_pos h0, div_le_iff₀ h0]
      push_cast
      rcases eq_or_ne q 0 with rfl | hq
      · rw [abs_zero]; positivity
      rcases f.quantum_cases q hq with ⟨_, h, _⟩ | ⟨h, _, h2⟩
      · rw [mul_comm]; exact h.le
      · rw [h, ← zpow_natCast, ← zpow_add₀ (by norm_num)]
        refine h2.le.trans (zpow_le_zpow_right₀ (by norm_num) ?_)
        omega
    rw [abs_le] at hb ⊢
    refine ⟨le_roundHalfEven ?_, roundHalfEven_le hb.2⟩
    push_cast at hb ⊢
    exact hb.1
  · omega

theorem roundQ_isRepr {q : ℚ} (h : |f.roundQ q| ≤ f.omega) : f.Representable (f.roundQ q) := by
  obtain ⟨m, e, h1, h2, h3⟩ := f.roundQ_multiple q
  exact f.repr_of_multiple h1 h2 h3 h

/-- A float that is not a multiple of the quantum of `q` is smaller than `q` in size, by more than
rounding can change. -/
theorem multiple_or_small {q c : ℚ} (hq : q ≠ 0) (hc : f.Representable c) :
    (∃ n : Int, c = n * f.quantum q) ∨
      (∃ n : Int, |c| < n * f.quantum q ∧ n * f.quantum q ≤ |q|) := by
  obtain ⟨m, e, hm, he, _, hcq⟩ := hc
  rcases le_or_gt (max (Int.log 2 |q|) f.emin - (f.p - 1 : Int)) e with h | h
  · left
    obtain ⟨d, hd⟩ : ∃ d : Nat, e = max (Int.log 2 |q|) f.emin - (f.p - 1 : Int) + d :=
      ⟨(e - (max (Int.log 2 |q|) f.emin - (f.p - 1 : Int))).toNat, by omega⟩
    refine ⟨m * 2 ^ d, ?_⟩
    rw [hcq, hd]
    unfold quantum
    rw [zpow_add₀ (by norm_num), zpow_natCast]
    push_cast
    ring
  · right
    have hlog : f.emin < Int.log 2 |q| := by
      by_contra hc
      rw [max_eq_right (by omega)] at h
      omega
    refine ⟨2 ^ (f.p - 1), ?_⟩
    have e1 : ((2 ^ (f.p - 1) : Int) : ℚ) * f.quantum q = 2 ^ Int.log 2 |q| := by
      unfold quantum
      push_cast
      rw [max_eq_left hlog.le, ← zpow_natCast, ← zpow_add₀ (by norm_num)]
      congr 1
      have := f.two_le_p
      omega
    rw [e1]
    constructor
    · rw [hcq, abs_mul, abs_of_pos (zpow_pos (by norm_num : (0 : ℚ) < 2) e)]
      have h1 : (|m| : ℚ) < 2 ^ f.p := by exact_mod_cast hm
      have h2 : (0 : ℚ) < 2 ^ e := zpow_pos (by norm_num) _
      calc |(m : ℚ)| * 2 ^ e < 2 ^ f.p * 2 ^ e := by gcongr
        _ = 2 ^ ((f.p : Int) + e) := by rw [zpow_add₀ (by norm_num), zpow_natCast]
        _ ≤ _ := zpow_le_zpow_right₀ (by norm_num) (by
          rw [max_eq_left hlog.le] at h
          omega)
    · have := Int.zpow_log_le_self (b := 2) (R := ℚ) (r := |q|) (by norm_num) (abs_pos.2 hq)
      push_cast at this
      exact this

theorem roundQ_zero : f.roundQ 0 = 0 := f.roundQ_repr f.zero_repr

/-- Rounding does not cross a float, from below. -/
theorem roundQ_le {q c : ℚ} (hc : f.Representable c) (h : q ≤ c) : f.roundQ q ≤ c := by
  rcases eq_or_ne q 0 with rfl | hq
  · rw [roundQ_zero]; exact h
  have h0 := f.quantum_pos q
  rcases f.multiple_or_small hq hc with ⟨n, hn⟩ | ⟨n, hn1, hn2⟩
  · rw [hn] at h ⊢
    unfold roundQ
    have : roundHalfEven (q / f.quantum q) ≤ n := roundHalfEven_le (by rwa [div_le_iff₀ h0])
    have h2 : ((roundHalfEven (q / f.quantum q) : Int) : ℚ) ≤ n := by exact_mod_cast this
    nlinarith
  · have hneg : q < 0 := by
      rcases lt_or_ge q 0 with h' | h'
      · exact h'
      · exfalso
        rw [abs_of_nonneg h'] at hn2
        have := le_abs_self c
        linarith
    rw [abs_of_neg hneg] at hn2
    have h1 : roundHalfEven (q / f.quantum q) ≤ -n := roundHalfEven_le (by
      rw [div_le_iff₀ h0]; push_cast; linarith)
    have h2 : ((roundHalfEven (q / f.quantum q) : Int) : ℚ) ≤ -n := by exact_mod_cast h1
    have h3 := neg_abs_le c
    unfold roundQ
    nlinarith

/-- Rounding does not cross a float, from above. -/
theorem le_roundQ {q c : ℚ} (hc : f.Representable c) (h : c ≤ q) : c ≤ f.roundQ q := by
  rcases eq_or_ne q 0 with rfl | hq
  · rw [roundQ_zero]; exact h
  have h0 := f.quantum_pos q
  rcases f.multiple_or_small hq hc with ⟨n, hn⟩ | ⟨n, hn1, hn2⟩
  · rw [hn] at h ⊢
    unfold roundQ
    have : n ≤ roundHalfEven (q / f.quantum q) := le_roundHalfEven (by rwa [le_div_iff₀ h0])
    have h2 : (n : ℚ) ≤ ((roundHalfEven (q / f.quantum q) : Int) : ℚ) := by exact_mod_cast this
    nlinarith
  · have hpos : 0 < q := by
      rcases lt_or_ge 0 q with h' | h'
      · exact h'
      · exfalso
        rw [abs_of_nonpos h'] at hn2
        have := neg_abs_le c
        linarith
    rw [abs_of_pos hpos] at hn2
    have h1 : n ≤ roundHalfEven (q / f.quantum q) := le_roundHalfEven (by
      rw [le_div_iff₀ h0]; exact hn2)
    have h2 : (n : ℚ) ≤ ((roundHalfEven (q / f.quantum q) : Int) : ℚ) := by exact_mod_cast h1
    have h3 := le_abs_self c
    unfold roundQ
    nlinarith

theorem roundQ_nonneg {q : ℚ} (h : 0 ≤ q) : 0 ≤ f.roundQ q := f.le_roundQ f.zero_repr h
theorem roundQ_nonpos {q : ℚ} (h : q ≤ 0) : f.roundQ q ≤ 0 := f.roundQ_le f.zero_repr h

theorem roundQ_le_multiple {q : ℚ} {s n : Int} (hn : max (Int.log 2 |q|) f.emin - (f.p - 1 : Int) ≤ n)
    (h : q ≤ s * 2 ^ n) : f.roundQ q ≤ s * 2 ^ n := by
  have h0 := f.quantum_pos q
  obtain ⟨d, hd⟩ := Int.eq_ofNat_of_zero_le (sub_nonneg.2 hn)
  have e : (s : ℚ) * 2 ^ n = ((s * 2 ^ d : Int) : ℚ) * f.quantum q := by
    unfold quantum
    push_cast
    rw [mul_assoc, ← zpow_natCast, ← zpow_add₀ (by norm_num)]
    congr 2
    omega
  unfold roundQ
  rw [e] at h ⊢
  refine mul_le_mul_of_nonneg_right ?_ h0.le
  exact_mod_cast roundHalfEven_le ((div_le_iff₀ h0).2 h)

theorem multiple_le_roundQ {q : ℚ} {s n : Int} (hn : max (Int.log 2 |q|) f.emin - (f.p - 1 : Int) ≤ n)
    (h : s * 2 ^ n ≤ q) : s * 2 ^ n ≤ f.roundQ q := by
  have h0 := f.quantum_pos q
  obtain ⟨d, hd⟩ := Int.eq_ofNat_of_zero_le (sub_nonneg.2 hn)
  have e : (s : ℚ) * 2 ^ n = ((s * 2 ^ d : Int) : ℚ) * f.quantum q := by
    unfold quantum
    push_cast
    rw [mul_assoc, ← zpow_natCast, ← zpow_add₀ (by norm_num)]
    congr 2
    omega
  unfold roundQ
  rw [e] at h ⊢
  refine mul_le_mul_of_nonneg_right ?_ h0.le
  exact_mod_cast le_roundHalfEven ((le_div_iff₀ h0).2 h)

/-- Equal or separated by a power of two. -/
theorem exponent_cases {a b : ℚ} (ha : 0 < a) (h : a ≤ b) :
    max (Int.log 2 a) f.emin = max (Int.log 2 b) f.emin ∨
      (max (Int.log 2 a) f.emin < Int.log 2 b ∧ max (Int.log 2 b) f.emin = Int.log 2 b ∧
        a < 2 ^ Int.log 2 b ∧ 2 ^ Int.log 2 b ≤ b) := by
  have hb := ha.trans_le h
  have hm := Int.log_mono_right (b := 2) ha h
  by_cases hc : max (Int.log 2 a) f.emin < Int.log 2 b
  · right
    refine ⟨hc, by omega, ?_, Int.zpow_log_le_self (by norm_num) hb⟩
    have := (Int.lt_zpow_iff_log_lt (b := 2) (x := Int.log 2 b) (by norm_num) ha).2 (by omega)
    exact_mod_cast this
  · left; omega

/-- Rounding is monotone. -/
theorem roundQ_mono {q q' : ℚ} (h : q ≤ q') : f.roundQ q ≤ f.roundQ q' := by
  have hp := f.two_le_p
  have same : max (Int.log 2 |q|) f.emin = max (Int.log 2 |q'|) f.emin → f.roundQ q ≤ f.roundQ q' := by
    intro hc
    unfold roundQ
    have : f.quantum q = f.quantum q' := by unfold quantum; rw [hc]
    rw [this]
    have h0 := f.quantum_pos q'
    refine mul_le_mul_of_nonneg_right ?_ h0.le
    exact_mod_cast roundHalfEven_mono (by gcongr)
  rcases le_or_gt q 0 with h1 | h1
  · rcases le_or_gt 0 q' with h2 | h2
    · exact (f.roundQ_nonpos h1).trans (f.roundQ_nonneg h2)
    · rcases f.exponent_cases (abs_pos.2 h2.ne) (b := |q|)
        (by rw [abs_of_neg h2, abs_of_nonpos h1]; linarith) with hc | ⟨hc, he, h3, h4⟩
      · exact same hc.symm
      · rw [abs_of_neg h2] at h3
        rw [abs_of_nonpos h1] at h4
        have e1 := f.roundQ_le_multiple (q := q) (s := -1) (n := Int.log 2 |q|) (by omega)
          (by rw [abs_of_nonpos h1]; push_cast; linarith)
        have e2 := f.multiple_le_roundQ (q := q') (s := -1) (n := Int.log 2 |q|) (by omega)
          (by push_cast; linarith)
        exact e1.trans e2
  · have h2 := h1.trans_le h
    rcases f.exponent_cases (abs_pos.2 h1.ne') (b := |q'|)
      (by rw [abs_of_pos h2, abs_of_pos h1]; linarith) with hc | ⟨hc, he, h3, h4⟩
    · exact same hc
    · have e1 := f.roundQ_le_multiple (q := q) (s := 1) (n := Int.log 2 |q'|) (by omega)
        (by push_cast; rw [abs_of_pos h1] at h3; linarith)
      have e2 := f.multiple_le_roundQ (q := q') (s := 1) (n := Int.log 2 |q'|) (by omega)
        (by push_cast; nth_rewrite 2 [← abs_of_pos h2]; linarith)
      exact e1.trans e2

/-- No overflow if the exact result is in range. -/
theorem roundQ_in_range {q : ℚ} (h : |q| ≤ f.omega) : |f.roundQ q| ≤ f.omega := by
  rw [abs_le] at h ⊢
  exact ⟨f.le_roundQ f.omega_repr.neg h.1, f.roundQ_le f.omega_repr h.2⟩

/-- Sums of floats suffer no underflow. -/
theorem roundQ_err_add {a b : ℚ} (ha : f.Representable a) (hb : f.Representable b) :
    |f.roundQ (a + b) - (a + b)| ≤ f.unitRoundoff * |a + b| := by
  rcases eq_or_ne (a + b) 0 with h0 | h0
  · rw [h0, roundQ_zero]; simp
  have h := f.roundQ_err_quantum (a + b)
  rcases f.quantum_cases (a + b) h0 with ⟨h1, _⟩ | ⟨h1, _, _⟩
  · have h2 : f.quantum (a + b) / 2 ≤ f.unitRoundoff * |a + b| := by
      unfold unitRoundoff
      rw [div_mul_eq_mul_div, one_mul, le_div_iff₀ (by positivity)]
      linarith
    linarith
  · have mult : ∀ c, f.Representable c → ∃ n : Int, c = n * 2 ^ (f.emin - (f.p - 1 : Int)) := by
      rintro c ⟨m, e, _, he, _, hc⟩
      obtain ⟨d, hd⟩ : ∃ d : Nat, e = f.emin - (f.p - 1 : Int) + d :=
        ⟨(e - (f.emin - (f.p - 1 : Int))).toNat, by omega⟩
      refine ⟨m * 2 ^ d, ?_⟩
      rw [hc, hd, zpow_add₀ (by norm_num), zpow_natCast]
      push_cast
      ring
    obtain ⟨n, hn⟩ := mult a ha
    obtain ⟨k, hk⟩ := mult b hb
    have : f.roundQ (a + b) = a + b :=
      f.roundQ_of_multiple (m := n + k) (e := f.emin - (f.p - 1 : Int))
        (by rw [hn, hk]; push_cast; ring) h1.le
    rw [this, sub_self, abs_zero]
    unfold unitRoundoff
    positivity

/-- A sum of floats that is not zero does not round to zero. -/
theorem roundQ_add_ne_zero {a b : ℚ} (ha : f.Representable a) (hb : f.Representable b)
    (h : a + b ≠ 0) : f.roundQ (a + b) ≠ 0 := by
  intro h0
  have h1 := f.roundQ_err_add ha hb
  rw [h0, zero_sub, abs_neg] at h1
  have h2 := abs_pos.2 h
  have h3 : f.unitRoundoff < 1 := by
    unfold unitRoundoff
    rw [div_lt_one (by positivity)]
    exact one_lt_pow₀ (by norm_num) (by have := f.two_le_p; omega)
  nlinarith

/-- Small whole numbers are floats. -/
theorem intCast_repr {z : Int} (h : |z| ≤ 2 ^ f.p) : f.Representable (z : ℚ) := by
  refine f.repr_of_multiple (m := z) (e := 0) (by simp) h ?_ ?_
  · unfold emin
    have := f.p_le_emax
    have := f.two_le_p
    omega
  · have hb : |(z : ℚ)| ≤ 2 ^ f.p := by exact_mod_cast h
    refine le_trans hb ?_
    unfold omega
    have h1 : (2 : ℚ) ≤ 2 ^ ((f.emax : Int) - (f.p - 1)) := by
      have := zpow_le_zpow_right₀ (by norm_num : (1 : ℚ) ≤ 2)
        (by have := f.p_le_emax; omega : (1 : Int) ≤ (f.emax : Int) - (f.p - 1))
      simpa using this
    have h2 : (2 : ℚ) ≤ 2 ^ f.p := by
      calc (2 : ℚ) = 2 ^ 1 := by norm_num
        _ ≤ 2 ^ f.p := pow_le_pow_right₀ (by norm_num) (by have := f.two_le_p; omega)
    nlinarith

theorem one_repr : f.Representable 1 := by
  have := f.intCast_repr (z := 1) (by
    rw [abs_one]; exact one_le_pow₀ (by norm_num))
  simpa using this

/-- `floor` needs no rounding. -/
theorem floor_repr {q : ℚ} (h : f.Representable q) : f.Representable ((⌊q⌋ : Int) : ℚ) := by
  have h' := h
  obtain ⟨m, e, hm, he, _, hq⟩ := h'
  rcases le_or_gt 0 e with h0 | h0
  · obtain ⟨d, rfl⟩ := Int.eq_ofNat_of_zero_le h0
    have : q = ((m * 2 ^ d : Int) : ℚ) := by rw [hq]; push_cast; rfl
    rw [this, Int.floor_intCast, ← this]
    exact h
  · have h1 : (|m| : ℚ) < 2 ^ f.p := by exact_mod_cast hm
    have h2 : (2 : ℚ) ^ e ≤ 1 := by
      have := zpow_le_zpow_right₀ (by norm_num : (1 : ℚ) ≤ 2) h0.le
      simpa using this
    have h3 : (0 : ℚ) < 2 ^ e := zpow_pos (by norm_num) _
    have h4 : |q| ≤ ((2 ^ f.p : Int) : ℚ) := by
      rw [hq, abs_mul, abs_of_pos h3]
      push_cast
      have : (0 : ℚ) ≤ |(m : ℚ)| := abs_nonneg _
      nlinarith
    refine f.intCast_repr ?_
    rw [abs_le] at h4 ⊢
    constructor
    · rw [Int.le_floor]; push_cast at h4 ⊢; exact h4.1
    · have h5 := Int.floor_le q
      have : ((⌊q⌋ : Int) : ℚ) ≤ ((2 ^ f.p : Int) : ℚ) := by linarith [h4.2]
      exact_mod_cast this

end Format
end Interpn
