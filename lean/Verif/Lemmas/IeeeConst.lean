import Verif.Lemmas.Ieee
import Verif.Spec.Grid
import Mathlib.Data.List.GetD
import Mathlib.Algebra.Order.BigOperators.Ring.Finset

/-! The constants of `f32` and `f64`, and preparations for the corollaries of the rounding theorems
for IEEE 754 arithmetic. -/

set_option autoImplicit false
set_option exponentiation.threshold 1100

namespace Interpn
open FloatOps Ieee

theorem binary64_u : Format.binary64.unitRoundoff = 1 / 2 ^ 53 := rfl
theorem binary32_u : Format.binary32.unitRoundoff = 1 / 2 ^ 24 := rfl
theorem binary64_η : Format.binary64.underflow = 1 / 2 ^ 1075 := by
  show (2 : ℚ) ^ (1 - (1023 : Int) - 53) = _
  norm_num [zpow_neg]
theorem binary32_η : Format.binary32.underflow = 1 / 2 ^ 150 := by
  show (2 : ℚ) ^ (1 - (127 : Int) - 24) = _
  norm_num [zpow_neg]
theorem binary64_Ω : (2 : ℚ) ^ 1023 ≤ Format.binary64.omega := by
  show (2 : ℚ) ^ 1023 ≤ (2 ^ 53 - 1) * 2 ^ ((1023 : Int) - (53 - 1))
  norm_num
theorem binary32_Ω : (2 : ℚ) ^ 127 ≤ Format.binary32.omega := by
  show (2 : ℚ) ^ 127 ≤ (2 ^ 24 - 1) * 2 ^ ((127 : Int) - (24 - 1))
  norm_num

section
variable {f : Format} {N : Nat}

theorem two_float : ∃ a : Ieee f, Finite a ∧ val a = 2 := by
  have h : f.Representable 2 := by
    have := f.intCast_repr (z := 2) (by
      have := f.two_le_p
      calc |(2 : Int)| ≤ 2 ^ 1 := by norm_num
        _ ≤ 2 ^ f.p := pow_le_pow_right₀ (by norm_num) (by omega))
    simpa using this
  exact ⟨rnd f false 2, rnd_of_repr false h⟩

theorem half_float : ∃ a : Ieee f, Finite a ∧ val a = 1 / 2 := by
  have h : f.Representable (1 / 2) := by
    refine ⟨1, -1, ?_, ?_, ?_, by norm_num⟩
    · rw [abs_one]; exact one_lt_pow₀ (by norm_num) (by have := f.two_le_p; omega)
    · unfold Format.emin; have := f.p_le_emax; have := f.two_le_p; omega
    · have := f.p_le_emax; omega
  exact ⟨rnd f false (1 / 2), rnd_of_repr false h⟩

/-- A bound on the values is not negative. -/
theorem bound_nonneg {m : Nat} {G : Axes ℚ N} {vals : List (Ieee f)} (hG : G.Valid m (vals.map val))
    (hm : 0 < m) {M : ℚ} (hvals : ∀ v ∈ vals, Finite v ∧ |val v| ≤ M) : 0 ≤ M := by
  have hl := hG.len
  have : 0 < vals.length := by
    rw [List.length_map] at hl
    rw [hl]
    exact Finset.prod_pos fun k _ => by have := hG.big k; omega
  obtain ⟨v, hv⟩ := List.exists_mem_of_length_pos this
  exact (abs_nonneg _).trans (hvals v hv).2

/-- An observation in the range of a grid is not larger than the nodes. -/
theorem inRange_small {grid : List (Ieee f)} {Ω x : ℚ} (hlen : 2 ≤ grid.length)
    (hgrid : ∀ a ∈ grid, 2 * |val a| ≤ Ω)
    (hin : InRange grid.length (fun i => (grid.map val).getD i 0) x) : 2 * |x| ≤ Ω := by
  have h1 : ∀ i, i < grid.length → 2 * |(grid.map val).getD i 0| ≤ Ω := by
    intro i hi
    rw [List.getD_eq_getElem _ _ (by simpa using hi), List.getElem_map]
    exact hgrid _ (List.getElem_mem hi)
  have a := h1 0 (by omega)
  have b := h1 (grid.length - 1) (by omega)
  have ⟨c, d⟩ := hin
  rw [← abs_two, ← abs_mul, abs_le] at a b ⊢
  constructor <;> linarith [a.1, b.2]

/-- If `κ` is small compared with the precision, indices up to `2 κ` are floats. -/
theorem regular_setup {κ : ℚ} (hp : f.p ≤ 53) (hκ : 0 ≤ κ)
    (h : 100 * ((1 + κ) * f.unitRoundoff) ≤ 1) :
    f.unitRoundoff ≤ 1 / 100 ∧ f.unitRoundoff * κ ≤ 1 / 100 ∧ κ ≤ 2 ^ 53 ∧
      ∀ d : Nat, ((d - 1 : Nat) : ℚ) ≤ 2 * κ → d ≤ 2 ^ f.p + 1 := by
  have hu : 0 < f.unitRoundoff := by unfold Format.unitRoundoff; positivity
  have huκ : 0 ≤ f.unitRoundoff * κ := by positivity
  have hp2 : (2 : ℚ) ^ f.p * f.unitRoundoff = 1 := by
    unfold Format.unitRoundoff; field_simp
  have hp3 : (2 : ℚ) ^ f.p ≤ 2 ^ 53 := pow_le_pow_right₀ (by norm_num) hp
  have h1 : 100 * κ ≤ 2 ^ f.p := by
    refine le_of_mul_le_mul_right ?_ hu
    rw [hp2]; linarith
  refine ⟨by linarith, by linarith, by linarith, fun d hd => ?_⟩
  have h2 : ((d - 1 : Nat) : ℚ) ≤ ((2 ^ f.p : Nat) : ℚ) := by push_cast; linarith
  have h3 : d - 1 ≤ 2 ^ f.p := by exact_mod_cast h2
  omega

end
end Interpn
