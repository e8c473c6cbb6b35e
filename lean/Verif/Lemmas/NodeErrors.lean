import Verif.Lemmas.RoundingRegular

/-! Sensitivity of the piecewise linear interpolant to errors of the node coordinates. -/

set_option autoImplicit false
set_option linter.unusedSectionVars false

namespace Interpn

section
variable {K : Type} [Field K] [LinearOrder K] [IsStrictOrderedRing K] [FloorRing K]

/-- A blend with a weight in `[0, 1]`. -/
theorem linPiece_le {n : Nat} {p f : Nat → K} (hi : Incr n p) {x B : K} {c : Nat}
    (hc : InCell n p x c) (hin : InRange n p x) (hf : ∀ i < n, |f i| ≤ B) :
    |linPiece p f c x| ≤ B := by
  obtain ⟨ht0, ht1⟩ := weight_mem hi hc hin
  have a := abs_le.1 (hf c (by have := hc.1; omega))
  have b := abs_le.1 (hf (c + 1) hc.1)
  unfold linPiece
  rw [abs_le]
  constructor <;> nlinarith

/-- The interpolants of the same data on nodes `p` and on nodes `q` that differ by at most `ε` cells,
at a point in the range of `p`. -/
theorem moved_rule_close {n : Nat} {p q f : Nat → K} (hp : Incr n p) (hq : Incr n q) {w ε B x : K}
    (hw : 0 < w) (hcell : ∀ i, i + 1 < n → w ≤ q (i + 1) - q i)
    (hclose : ∀ i < n, |q i - p i| ≤ ε * w) (hf : ∀ i < n, |f i| ≤ B) {c d : Nat}
    (hc : InCell n p x c) (hin : InRange n p x) (hd : InCell n q x d) :
    |linPiece q f d x - linPiece p f c x| ≤ 2 * ε * B := by
  have hc1 := hc.1
  have hB : 0 ≤ B := (abs_nonneg _).trans (hf c (by omega))
  obtain ⟨ht0, ht1⟩ := weight_mem hp hc hin
  have hwp : 0 < p (c + 1) - p c := sub_pos.2 (hp c hc1)
  have hwq : 0 < q (c + 1) - q c := sub_pos.2 (hq c hc1)
  set t := (x - p c) / (p (c + 1) - p c) with ht
  have hx : x = p c + t * (p (c + 1) - p c) := by rw [ht, div_mul_cancel₀ _ hwp.ne']; ring
  set z := q c + t * (q (c + 1) - q c) with hz
  have hzc : InCell n q z c := by
    refine ⟨hc1, .inr ?_, .inr ?_⟩
    · rw [hz]; nlinarith
    · rw [hz]; nlinarith
  have heq : linPiece q f c z = linPiece p f c x := by
    unfold linPiece
    rw [← ht, hz, add_sub_cancel_left, mul_div_cancel_right₀ _ hwq.ne']
  have hxz : |z - x| ≤ ε * w := by
    have a := abs_le.1 (hclose c (by omega))
    have b := abs_le.1 (hclose (c + 1) hc1)
    rw [hx, hz, abs_le]
    constructor <;> nlinarith
  have hS : ∀ i, i + 1 < n → |f (i + 1) - f i| ≤ 2 * B / w * (q (i + 1) - q i) := fun i hi => by
    have a := abs_sub (f (i + 1)) (f i)
    have b := hf i (by omega)
    have b' := hf (i + 1) hi
    have : 2 * B / w * w ≤ 2 * B / w * (q (i + 1) - q i) := by gcongr; exact hcell i hi
    rw [div_mul_cancel₀ _ hw.ne'] at this
    linarith
  have key : |linPiece q f d x - linPiece q f c z| ≤ 2 * B / w * |z - x| := by
    rcases le_total x z with h | h
    · rw [abs_sub_comm, abs_of_nonneg (sub_nonneg.2 h)]
      exact linPiece_lipschitz hq hS hd hzc h
    · rw [abs_sub_comm z, abs_of_nonneg (sub_nonneg.2 h)]
      exact linPiece_lipschitz hq hS hzc hd h
  rw [heq] at key
  refine key.trans ?_
  have : 2 * B / w * |z - x| ≤ 2 * B / w * (ε * w) := by gcongr
  refine this.trans (le_of_eq ?_)
  field_simp

end
end Interpn
