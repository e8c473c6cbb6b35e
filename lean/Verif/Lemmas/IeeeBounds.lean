import Verif.Lemmas.IeeeSign

/-! Comparisons with rounded differences in IEEE 754 arithmetic. -/

set_option autoImplicit false

namespace Interpn
namespace Ieee
open FloatOps
variable {f : Format}

/-- Comparing a rounded number (which may have overflowed) with a float. -/
theorem rnd_le_iff (s : Bool) (q : ℚ) {b : Ieee f} (hb : Finite b) :
    (rnd f s q <=. b) = true ↔ f.roundQ q ≤ val b := by
  have ho := hb.repr.le_omega
  obtain ⟨sb, qb, rb, wb, rfl⟩ := hb.cases
  change |qb| ≤ f.omega at ho
  rw [abs_le] at ho
  rcases rnd_cases (f := f) s q with ⟨h1, h2⟩ | ⟨h1, h2⟩
  · obtain ⟨sa, qa, ra, wa, e⟩ := h1.cases
    rw [e] at h2 ⊢
    rw [← h2]
    exact decide_eq_true_iff
  · rw [h1]
    by_cases hq : q < 0
    · have := f.roundQ_nonpos hq.le
      rw [abs_of_nonpos this] at h2
      rw [decide_eq_true hq]
      change true = true ↔ f.roundQ q ≤ qb
      simp only [true_iff]; linarith
    · have := f.roundQ_nonneg (not_lt.1 hq)
      rw [abs_of_nonneg this] at h2
      rw [decide_eq_false hq]
      change false = true ↔ f.roundQ q ≤ qb
      simp only [Bool.false_eq_true, false_iff]; linarith

theorem le_rnd_iff (s : Bool) (q : ℚ) {a : Ieee f} (ha : Finite a) :
    (a <=. rnd f s q) = true ↔ val a ≤ f.roundQ q := by
  have ho := ha.repr.le_omega
  obtain ⟨sb, qb, rb, wb, rfl⟩ := ha.cases
  change |qb| ≤ f.omega at ho
  rw [abs_le] at ho
  rcases rnd_cases (f := f) s q with ⟨h1, h2⟩ | ⟨h1, h2⟩
  · obtain ⟨sa, qa, ra, wa, e⟩ := h1.cases
    rw [e] at h2 ⊢
    rw [← h2]
    exact decide_eq_true_iff
  · rw [h1]
    by_cases hq : q < 0
    · have := f.roundQ_nonpos hq.le
      rw [abs_of_nonpos this] at h2
      rw [decide_eq_true hq]
      change false = true ↔ qb ≤ f.roundQ q
      simp only [Bool.false_eq_true, false_iff]; linarith
    · have := f.roundQ_nonneg (not_lt.1 hq)
      rw [abs_of_nonneg this] at h2
      rw [decide_eq_false hq]
      change true = true ↔ qb ≤ f.roundQ q
      simp only [true_iff]; linarith

theorem unitRoundoff_pos : 0 < f.unitRoundoff := by unfold Format.unitRoundoff; positivity

/-- A computed difference is at most `-t` if the exact one is; and only if the exact one is at most
`-t / (1 + u)`. -/
theorem sub_le_iff {x a t : Ieee f} (hx : Finite x) (ha : Finite a) (ht : Finite t) (h0 : 0 ≤ val t) :
    (val x - val a ≤ -val t → ((x -. a) <=. (-. t)) = true) ∧
    (((x -. a) <=. (-. t)) = true → val x - val a ≤ -(val t / (1 + f.unitRoundoff))) := by
  obtain ⟨s, e⟩ := sub_fin hx ha
  obtain ⟨n1, n2⟩ := neg_eq ht
  have hu := unitRoundoff_pos (f := f)
  rw [e, rnd_le_iff _ _ n1, n2]
  refine ⟨fun h => f.roundQ_le ht.repr.neg h, fun h => ?_⟩
  have herr := f.roundQ_err_add hx.repr ha.repr.neg
  rw [← sub_eq_add_neg] at herr
  have h2 : val x - val a ≤ 0 := by
    by_contra hc
    have h3 := f.roundQ_nonneg (not_le.1 hc).le
    have h4 : f.roundQ (val x - val a) ≠ 0 := by
      have := f.roundQ_add_ne_zero hx.repr ha.repr.neg (by rw [← sub_eq_add_neg]; intro h0; rw [h0] at hc; exact hc le_rfl)
      rwa [← sub_eq_add_neg] at this
    exact h4 (le_antisymm (by linarith) h3)
  rw [abs_of_nonpos h2, abs_le] at herr
  rw [le_neg, div_le_iff₀ (by linarith)]
  linarith [herr.1]

/-- The same for the other end. -/
theorem le_sub_iff {x a t : Ieee f} (hx : Finite x) (ha : Finite a) (ht : Finite t) (h0 : 0 ≤ val t) :
    (val t ≤ val x - val a → (t <=. (x -. a)) = true) ∧
    ((t <=. (x -. a)) = true → val t / (1 + f.unitRoundoff) ≤ val x - val a) := by
  obtain ⟨s, e⟩ := sub_fin hx ha
  have hu := unitRoundoff_pos (f := f)
  rw [e, le_rnd_iff _ _ ht]
  refine ⟨fun h => f.le_roundQ ht.repr h, fun h => ?_⟩
  have herr := f.roundQ_err_add hx.repr ha.repr.neg
  rw [← sub_eq_add_neg] at herr
  have h2 : 0 ≤ val x - val a := by
    by_contra hc
    have h3 := f.roundQ_nonpos (not_le.1 hc).le
    have h4 : f.roundQ (val x - val a) ≠ 0 := by
      have := f.roundQ_add_ne_zero hx.repr ha.repr.neg (by rw [← sub_eq_add_neg]; intro h0; rw [h0] at hc; exact hc le_rfl)
      rwa [← sub_eq_add_neg] at this
    exact h4 (le_antisymm h3 (by linarith))
  rw [abs_of_nonneg h2, abs_le] at herr
  rw [div_le_iff₀ (by linarith)]
  linarith [herr.2]

end Ieee
end Interpn
