import Verif.Lemmas.SimpleBounds
import Verif.Lemmas.IeeeConst
import Verif.Spec.Python

/-! Grids that pass the Python regularity check, and the error of regular interpolation slightly
outside the range of the regular grid (C92). -/

set_option autoImplicit false

namespace Interpn
open FloatOps Ieee

section
variable {f : Format} {N : Nat}

/-- Equal comparison of finite floats means equal values. -/
theorem feq_val {a b : Ieee f} (ha : Finite a) (hb : Finite b) (h : feq a b = true) :
    val a = val b := by
  unfold feq at h
  rw [Bool.and_eq_true] at h
  exact le_antisymm ((exactCompareLe f a b ha hb).1 h.1) ((exactCompareLe f b a hb ha).1 h.2)

theorem sub_small {a b : Ieee f} (ha : Finite a ∧ 2 * |val a| ≤ f.omega)
    (hb : Finite b ∧ 2 * |val b| ≤ f.omega) :
    Finite (a -. b) ∧
      |val (a -. b) - (val a - val b)| ≤ f.unitRoundoff * |val a - val b| := by
  refine (rounds f).sub a b ha.1 hb.1 ?_
  have := abs_sub (val a) (val b)
  linarith [ha.2, hb.2]

/-- The spacings of a grid that passes the check, compared with the computed first one. -/
theorem uniform_spacing {g : List (Ieee f)} (hu : f.unitRoundoff ≤ 1 / 2)
    (hg : ∀ a ∈ g, Finite a ∧ 2 * |val a| ≤ f.omega) (h2 : 2 ≤ g.length) (h : UniformSpacing g) :
    Finite (g.getD 1 zero -. g.getD 0 zero) ∧ ∀ i, i + 1 < g.length →
      |(g.map val).getD (i + 1) 0 - (g.map val).getD i 0 -
          val (g.getD 1 zero -. g.getD 0 zero)| ≤
        2 * f.unitRoundoff * |val (g.getD 1 zero -. g.getD 0 zero)| := by
  have hm : ∀ i (hi : i < g.length), (g.map val).getD i 0 = val g[i] := fun i hi => by
    rw [List.getD_eq_getElem _ _ (by simpa using hi), List.getElem_map]
  have hg' : ∀ i (hi : i < g.length), Finite g[i] ∧ 2 * |val g[i]| ≤ f.omega := fun i hi =>
    hg _ (List.getElem_mem hi)
  have e0 : g.getD 0 zero = g[0] := List.getD_eq_getElem _ _ (by omega)
  have e1 : g.getD 1 zero = g[1] := List.getD_eq_getElem _ _ (by omega)
  rw [e0, e1]
  have hd := sub_small (hg' 1 (by omega)) (hg' 0 (by omega))
  refine ⟨hd.1, fun i hi => ?_⟩
  rw [hm _ hi, hm _ (by omega : i < g.length)]
  have hi' := sub_small (hg' (i + 1) hi) (hg' i (by omega))
  rw [feq_val hi'.1 hd.1 (by simpa [feq] using h i hi (by omega))] at hi'
  set D := val (g[1] -. g[0])
  set Δ := val g[i + 1] - val g[i]
  have h0 := (rounds f).u_nonneg
  have hΔ : |Δ| ≤ 2 * |D| := by
    have := abs_sub_abs_le_abs_sub Δ D
    rw [abs_sub_comm Δ D] at this
    have h3 := hi'.2
    have : f.unitRoundoff * |Δ| ≤ 1 / 2 * |Δ| := by gcongr
    linarith
  rw [abs_sub_comm]
  calc |D - Δ| ≤ f.unitRoundoff * |Δ| := hi'.2
    _ ≤ f.unitRoundoff * (2 * |D|) := by gcongr
    _ = _ := by ring

/-- Node `i` of a grid that passes the check. -/
theorem uniform_node {g : List (Ieee f)} (hu : f.unitRoundoff ≤ 1 / 2)
    (hg : ∀ a ∈ g, Finite a ∧ 2 * |val a| ≤ f.omega) (h2 : 2 ≤ g.length) (h : UniformSpacing g)
    (i : Nat) (hi : i < g.length) :
    |(g.map val).getD i 0 - (val (g.getD 0 zero) +
        val (g.getD 1 zero -. g.getD 0 zero) * (i : ℚ))| ≤
      2 * f.unitRoundoff * i * |val (g.getD 1 zero -. g.getD 0 zero)| := by
  have hs := (uniform_spacing hu hg h2 h).2
  set D := val (g.getD 1 zero -. g.getD 0 zero)
  induction i with
  | zero =>
    have e0 : g.getD 0 zero = g[0] := List.getD_eq_getElem _ _ (by omega)
    rw [List.getD_eq_getElem _ _ (by simpa using hi), List.getElem_map, e0]
    simp
  | succ i ih =>
    have h1 := ih (by omega)
    have h3 := hs i hi
    have h4 := abs_add_le ((g.map val).getD i 0 - (val (g.getD 0 zero) + D * (i : ℚ)))
      ((g.map val).getD (i + 1) 0 - (g.map val).getD i 0 - D)
    have e : (g.map val).getD i 0 - (val (g.getD 0 zero) + D * (i : ℚ)) +
        ((g.map val).getD (i + 1) 0 - (g.map val).getD i 0 - D) =
        (g.map val).getD (i + 1) 0 - (val (g.getD 0 zero) + D * ((i + 1 : Nat) : ℚ)) := by
      push_cast; ring
    rw [e] at h4
    push_cast at h4 ⊢
    linarith

end

section
variable {u η κ A s lam : ℚ} {d : Nat}

/-- The factor of one axis of a regular grid, at observations slightly outside the range. -/
theorem regular_factor_near (hu : 0 ≤ u) (hη : 0 ≤ η) (hηu : η ≤ u / 100)
    (hs : 0 < s) (hκ : 0 ≤ κ) (hd : ((d - 1 : Nat) : ℚ) ≤ 2 * κ)
    (hηs : η ≤ u * s) (huκ : 100 * ((1 + κ) * u) ≤ 1) (hlam : 0 ≤ lam) (hlam1 : lam ≤ 1 / 20) :
    axisDeviation u η (κ * s) lam s d ≤ 9 * u + 25 * (u * κ) := by
  have huκ0 : 0 ≤ u * κ := by positivity
  have hu1 : u ≤ 1 / 100 := by linarith
  have huκ1 : u * κ ≤ 1 / 100 := by linarith
  have huu : u * u ≤ u / 100 := by
    have := mul_le_mul_of_nonneg_left hu1 hu; linarith
  have hn0 : (0 : ℚ) ≤ ((d - 1 : Nat) : ℚ) := Nat.cast_nonneg _
  have hpe : positionError u η (((d - 1 : Nat) : ℚ) + lam) ≤ 402 / 100 * (u * κ) + u / 8 := by
    unfold positionError
    have h1 : 2 * u + u ^ 2 ≤ 201 / 100 * u := by nlinarith
    have h2 : (2 * u + u ^ 2) * (((d - 1 : Nat) : ℚ) + lam) ≤ 201 / 100 * u * (2 * κ + 1 / 20) := by
      gcongr
    linarith
  have hpe0 := positionError_nonneg hu hη (add_nonneg hn0 hlam)
  have hR : 0 ≤ 1 + lam + positionError u η (((d - 1 : Nat) : ℚ) + lam) := by positivity
  have hw := regularWeightError_simple hu hηu hκ hs hu1 hηs hR
  unfold axisDeviation
  have h3 : 201 / 100 * u * (1 + lam + positionError u η (((d - 1 : Nat) : ℚ) + lam)) ≤
      201 / 100 * u * (1 + 1 / 20 + 1 / 20) := by
    have : positionError u η (((d - 1 : Nat) : ℚ) + lam) ≤ 1 / 20 := by linarith
    gcongr
  linarith

end

section
variable {f : Format} {N : Nat}

/-- `multilinear_regular_ieee` for observations that may be outside the regular grid by a few
roundings. -/
theorem multilinear_regular_ieee_near (hη : f.underflow ≤ f.unitRoundoff / 100)
    (hΩ1 : 2 ^ 70 ≤ f.omega) (hp : f.p ≤ 53)
    (e : Evaluator) (he : e.Fits N) (fma : Bool) (κ : ℚ) (hκ : 0 ≤ κ)
    (hN : 100 * N * (1 + κ) * f.unitRoundoff ≤ 1)
    (dims : Fin N → Nat) (starts steps : Fin N → Ieee f) (vals : List (Ieee f))
    (hG : (Axes.regular dims (fun k => val (starts k)) fun k => val (steps k)).Valid 2
      (vals.map val))
    (hfin : ∀ k, Finite (starts k) ∧ Finite (steps k))
    (hnormal : ∀ k, f.underflow ≤ f.unitRoundoff * val (steps k))
    (hnodes : ∀ k, |val (starts k)| ≤ κ * val (steps k) ∧
      |val (starts k) + val (steps k) * ((dims k - 1 : Nat) : ℚ)| ≤ κ * val (steps k))
    (hlarge : ∀ k, 4 * (κ * val (steps k)) + 1 ≤ f.omega) (M : ℚ)
    (hM : 5 * M + 1 ≤ f.omega) (hvals : ∀ v ∈ vals, Finite v ∧ |val v| ≤ M)
    (lam : ℚ) (hlam : 0 ≤ lam) (hlam1 : lam ≤ 5 * ((1 + κ) * f.unitRoundoff))
    (x : Fin N → Ieee f) (hx : ∀ k, Finite (x k) ∧ |val (x k)| ≤ κ * val (steps k))
    (hin : ∀ k, NearRange (dims k) (fun i => val (starts k) + val (steps k) * (i : ℚ)) lam
      (val (x k))) :
    ∃ r y, multilinearRegularAt e fma dims starts steps vals x = .ok r ∧ Finite r ∧
      multilinearAt e fma (.regular dims (fun k => val (starts k)) fun k => val (steps k))
        (vals.map val) (fun k => val (x k)) = .ok y ∧
      |val r - y| ≤ 80 * N * (1 + κ) * f.unitRoundoff * M + 3 * N * f.underflow := by
  have h := rounds f
  have hu0 := h.u_nonneg
  have hη0 := h.η_nonneg
  have hN0 : 0 < N := by cases e <;> first | exact he | exact he.1
  have hN1 : (1 : ℚ) ≤ N := by exact_mod_cast hN0
  have hpos : ∀ k, 0 < val (steps k) := fun k => hG.step_pos (by omega) k
  have hM0 := bound_nonneg hG (by norm_num) hvals
  set u := f.unitRoundoff with hudef
  set η := f.underflow with hηdef
  have hκu0 : 0 ≤ (1 + κ) * u := by positivity
  have huκ : 100 * ((1 + κ) * u) ≤ 1 := by nlinarith
  obtain ⟨hu1, huκ', hκ53, hdim⟩ := regular_setup hp hκ huκ
  have hd : ∀ k, ((dims k - 1 : Nat) : ℚ) ≤ 2 * κ := fun k => by
    have h1 := abs_le.1 (hnodes k).1
    have h2 := abs_le.1 (hnodes k).2
    have : val (steps k) * ((dims k - 1 : Nat) : ℚ) ≤ val (steps k) * (2 * κ) := by linarith
    exact le_of_mul_le_mul_left this (hpos k)
  have hdims : ∀ k, dims k ≤ 2 ^ f.p + 1 := fun k => hdim _ (hd k)
  have hlam20 : lam ≤ 1 / 20 := by linarith
  have hβ0 : 0 ≤ 40 * ((1 + κ) * u) := by positivity
  have hβN : 2 * (N : ℚ) * (40 * ((1 + κ) * u)) ≤ 1 := by
    have : 0 ≤ (N : ℚ) * ((1 + κ) * u) := by positivity
    linarith
  have hα : blendCost u ≤ 51 / 10 * u := by
    unfold blendCost
    nlinarith [mul_nonneg hu0 hu0]
  have hα0 := blendCost_nonneg hu0
  set L := 1 + 2 * lam + (9 * u + 25 * (u * κ)) with hL
  have hL0 : 0 ≤ L := by positivity
  have hfac : L * (1 + blendCost u) ≤ 1 + 40 * ((1 + κ) * u) := by
    have h1 : L * blendCost u ≤ (1 + 1 / 2) * (51 / 10 * u) := by
      have : L ≤ 1 + 1 / 2 := by linarith
      gcongr
    have := mul_nonneg hu0 hκ
    have e1 : L * (1 + blendCost u) = L + L * blendCost u := by ring
    rw [e1]
    linarith
  have hsize := blendSize_simple hu0 (by linarith) hη0 hM0 hL0 hβ0 hfac hβN hN0
  have hNη : 6 * (N : ℚ) * η ≤ 1 := by
    have h1 : (N : ℚ) * η ≤ N * (u / 100) := by gcongr
    have h2 : (N : ℚ) * u ≤ N * ((1 + κ) * u) := by
      gcongr; nlinarith
    nlinarith
  obtain ⟨r, y, h1, h2, h3, h4⟩ := C66_regular h (exactCompare f)
    (exactWhole f (n := 2 ^ f.p + 1) le_rfl) e he fma dims starts steps vals hG hdims hfin
    (fun k => κ * val (steps k)) hnodes M hvals x (fun k => (hx k).1) lam hlam hin
    (fun k => axisInBounds_simple hu0 hη0 hη hκ (hpos k) hu1 huκ' (hnormal k) hlam (by linarith)
      (hd k) (hx k).2 (hlarge k) hκ53 hΩ1)
    (1 + 2 * lam) L rfl
    (fun k => by
      have := regular_factor_near (d := dims k) hu0 hη0 hη (hpos k) hκ
        (hd k) (hnormal k) huκ hlam hlam20
      linarith)
    (by linarith)
  refine ⟨r, y, h1, h2, h3, h4.trans ?_⟩
  have := blendError_simple (N := N) hu0 (by linarith) hη0 hM0 hL0 hβ0 hfac hβN
  have h5 : (1 : ℚ) ^ N * M ≤ (1 + 2 * lam) ^ N * M := by gcongr; linarith
  linarith

end
end Interpn
