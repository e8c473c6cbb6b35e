import Verif.Lemmas.PythonCall
import Verif.Props.IeeeNearest

/-! C95: the Python function `interpn(..., method="nearest")` in IEEE 754 arithmetic, from the
decision whether a grid is regular to the entries of the returned array. -/

set_option autoImplicit false
set_option exponentiation.threshold 1100

namespace Interpn
open FloatOps Ieee

section
variable {f : Format} {N : Nat}

/-- `nearest_regular_ieee` for observations that may be outside the regular grid by a few
roundings. -/
theorem nearest_regular_ieee_near (hη : f.underflow ≤ f.unitRoundoff / 100)
    (hΩ1 : 2 ^ 70 ≤ f.omega) (hp : f.p ≤ 53) (fma : Bool) (κ : ℚ) (hκ : 0 ≤ κ)
    (hN : 100 * ((1 + κ) * f.unitRoundoff) ≤ 1)
    (dims : Fin N → Nat) (starts steps : Fin N → Ieee f) (vals : List (Ieee f))
    (hG : (Axes.regular dims (fun k => val (starts k)) fun k => val (steps k)).Valid 2
      (vals.map val))
    (g : (Fin N → Nat) → Ieee f) (hg : Samples dims vals g)
    (hfin : ∀ k, Finite (starts k) ∧ Finite (steps k))
    (hnormal : ∀ k, f.underflow ≤ f.unitRoundoff * val (steps k))
    (hnodes : ∀ k, |val (starts k)| ≤ κ * val (steps k) ∧
      |val (starts k) + val (steps k) * ((dims k - 1 : Nat) : ℚ)| ≤ κ * val (steps k))
    (hlarge : ∀ k, 4 * (κ * val (steps k)) + 1 ≤ f.omega)
    (lam : ℚ) (hlam : 0 ≤ lam) (hlam1 : lam ≤ 5 * ((1 + κ) * f.unitRoundoff))
    (x : Fin N → Ieee f) (hx : ∀ k, Finite (x k) ∧ |val (x k)| ≤ κ * val (steps k))
    (hin : ∀ k, NearRange (dims k) (fun i => val (starts k) + val (steps k) * (i : ℚ)) lam
      (val (x k))) :
    ∃ loc, nearestRegularAt fma dims starts steps vals x = .ok (g loc) ∧
      ∀ k, NearestWithin (dims k) (fun i => val (starts k) + val (steps k) * (i : ℚ)) (val (x k))
        (7 * (1 + κ) * f.unitRoundoff * val (steps k)) (loc k) := by
  have h := rounds f
  have hu0 := h.u_nonneg
  have hη0 := h.η_nonneg
  have hpos : ∀ k, 0 < val (steps k) := fun k => hG.step_pos (by omega) k
  obtain ⟨hu1, huκ', hκ53, hdim⟩ := regular_setup hp hκ hN
  have hd : ∀ k, ((dims k - 1 : Nat) : ℚ) ≤ 2 * κ := fun k => by
    have h1 := abs_le.1 (hnodes k).1
    have h2 := abs_le.1 (hnodes k).2
    have : val (steps k) * ((dims k - 1 : Nat) : ℚ) ≤ val (steps k) * (2 * κ) := by linarith
    exact le_of_mul_le_mul_left this (hpos k)
  have hlam20 : lam ≤ 1 / 20 := by linarith
  have hpe := fun k => positionError_simple (lam := lam) hu0 hη hlam (by linarith)
    (Nat.cast_nonneg (α := ℚ) (dims k - 1)) (hd k) hu1 huκ'
  have hpe0 : ∀ k, 0 ≤ positionError f.unitRoundoff f.underflow (((dims k - 1 : Nat) : ℚ) + lam) :=
    fun k => positionError_nonneg hu0 hη0 (by positivity)
  obtain ⟨loc, h1, h2⟩ := C77_regular h (exactCompare f) (exactCompareLe f) (exactIfFloat f)
    two_float half_float (exactWhole f (n := 2 ^ f.p + 1) le_rfl) fma dims starts steps vals hG g hg
    (fun k => hdim _ (hd k)) hfin (fun k => κ * val (steps k)) hnodes x (fun k => (hx k).1) lam hlam
    hin
    (fun k => axisInBounds_simple hu0 hη0 hη hκ (hpos k) hu1 huκ' (hnormal k) hlam (by linarith)
      (hd k) (hx k).2 (hlarge k) hκ53 hΩ1)
    (fun k => by have := hpe k; linarith)
  refine ⟨loc, h1, fun k => ⟨(h2 k).1, fun j hj => ((h2 k).2 j hj).trans ?_⟩⟩
  have hw := regularWeightError_simple hu0 hη hκ (hpos k) hu1 (hnormal k)
    (R := 1 + lam + positionError f.unitRoundoff f.underflow (((dims k - 1 : Nat) : ℚ) + lam))
    (by have := hpe0 k; linarith)
  have hR : 201 / 100 * f.unitRoundoff *
      (1 + lam + positionError f.unitRoundoff f.underflow (((dims k - 1 : Nat) : ℚ) + lam)) ≤
      201 / 100 * f.unitRoundoff * (1 + 1 / 20 + 1 / 10) := by
    have := hpe k
    gcongr
  have huκ0 : 0 ≤ f.unitRoundoff * κ := by positivity
  have : 2 * regularWeightError f.unitRoundoff f.underflow (κ * val (steps k)) (val (steps k))
      (1 + lam + positionError f.unitRoundoff f.underflow (((dims k - 1 : Nat) : ℚ) + lam)) ≤
      7 * (1 + κ) * f.unitRoundoff := by
    have hz := hw.trans (add_le_add_left (add_le_add_left hR _) _)
    generalize regularWeightError f.unitRoundoff f.underflow _ _ _ = W at hz ⊢
    clear * - hz hu0 huκ0
    nlinarith
  have := mul_le_mul_of_nonneg_right this (hpos k).le
  linarith

/-- The regular routine on grids that pass the regularity check, with the nearest node judged on the
grids as given. -/
theorem nearest_detected_ieee (hη : f.underflow ≤ f.unitRoundoff / 100)
    (hΩ1 : 2 ^ 70 ≤ f.omega) (hp : f.p ≤ 53) (fma : Bool)
    (κ : ℚ) (hκ : 0 ≤ κ) (hN : 110 * ((1 + κ) * f.unitRoundoff) ≤ 1)
    (grids : Fin N → List (Ieee f)) (vals : List (Ieee f))
    (hG : (Axes.rectilinear fun k => (grids k).map val).Valid 2 (vals.map val))
    (g : (Fin N → Nat) → Ieee f) (hg : Samples (fun k => (grids k).length) vals g)
    (hdet : ∀ k, DetectedAxis κ (grids k) (val ((grids k).getD 1 zero -. (grids k).getD 0 zero)))
    (hnormal : ∀ k, 2 * f.underflow ≤
      f.unitRoundoff * (((grids k).map val).getD 1 0 - ((grids k).map val).getD 0 0))
    (hlarge : ∀ k, 5 * (κ * (((grids k).map val).getD 1 0 - ((grids k).map val).getD 0 0)) + 1 ≤
      f.omega)
    (x : Fin N → Ieee f) (hx : ∀ k, Finite (x k))
    (hin : ∀ k, InRange (grids k).length (fun i => ((grids k).map val).getD i 0) (val (x k))) :
    ∃ loc, nearestRegularAt fma (fun k => (grids k).length) (fun k => (grids k).getD 0 zero)
        (fun k => (grids k).getD 1 zero -. (grids k).getD 0 zero) vals x = .ok (g loc) ∧
      ∀ k, NearestWithin (grids k).length (fun i => ((grids k).map val).getD i 0) (val (x k))
        (20 * (1 + κ) * f.unitRoundoff *
          (((grids k).map val).getD 1 0 - ((grids k).map val).getD 0 0)) (loc k) := by
  have hu0 := (rounds f).u_nonneg
  have huκ0 : 0 ≤ f.unitRoundoff * κ := by positivity
  obtain ⟨loc, h1, h2⟩ := nearest_regular_ieee_near hη hΩ1 hp fma (107 / 100 * κ) (by positivity)
    (by linarith) (fun k => (grids k).length) (fun k => (grids k).getD 0 zero)
    (fun k => (grids k).getD 1 zero -. (grids k).getD 0 zero) vals (detected_valid grids vals hG hdet)
    g hg (fun k => (hdet k).finite) (fun k => (hdet k).normal (hnormal k)) (fun k => (hdet k).ends)
    (fun k => (hdet k).large hκ (hlarge k)) (42 / 10 * (f.unitRoundoff * κ)) (by positivity)
    (by linarith) x (fun k => ⟨hx k, ((hdet k).obs _ (hin k)).1⟩)
    (fun k => ((hdet k).obs _ (hin k)).2.1)
  refine ⟨loc, h1, fun k => ⟨(h2 k).1, fun j hj => ?_⟩⟩
  have a := (h2 k).2 j hj
  have b := (hdet k).close (loc k) (h2 k).1
  have c := (hdet k).close j hj
  have d := (hdet k).spacing.1
  have hpos := (hdet k).pos
  set s := val ((grids k).getD 1 zero -. (grids k).getD 0 zero)
  set a0 := val ((grids k).getD 0 zero)
  have e1 := abs_add_le (val (x k) - (a0 + s * (loc k : ℚ)))
    ((a0 + s * (loc k : ℚ)) - ((grids k).map val).getD (loc k) 0)
  have e2 := abs_add_le (val (x k) - ((grids k).map val).getD j 0)
    (((grids k).map val).getD j 0 - (a0 + s * (j : ℚ)))
  rw [sub_add_sub_cancel] at e1 e2
  rw [abs_sub_comm (((grids k).map val).getD j 0)] at e2
  have f1 : 0 ≤ f.unitRoundoff * s := mul_nonneg hu0 hpos.le
  have f2 : 0 ≤ f.unitRoundoff * κ * s := mul_nonneg huκ0 hpos.le
  have f3 : 20 * (1 + κ) * f.unitRoundoff * (98 / 100 * s) ≤ 20 * (1 + κ) * f.unitRoundoff *
      (((grids k).map val).getD 1 0 - ((grids k).map val).getD 0 0) := by gcongr
  linarith

theorem interpn_nearest_ieee (hη : f.underflow ≤ f.unitRoundoff / 100)
    (hΩ1 : 2 ^ 70 ≤ f.omega) (hp : f.p ≤ 53) (hu : f.unitRoundoff ≤ 1 / 1000)
    (fma : Bool) (dt : Dtype) (hdt : dt ≠ .other)
    (lin : Bool) (atol : Ieee f) (h1 : 1 ≤ N) (h6 : N ≤ 6)
    (κ : ℚ) (hκ : 0 ≤ κ) (hN : 110 * ((1 + κ) * f.unitRoundoff) ≤ 1)
    (grids : Fin N → List (Ieee f)) (vals : List (Ieee f))
    (hG : (Axes.rectilinear fun k => (grids k).map val).Valid 2 (vals.map val))
    (hgrid : ∀ k, ∀ a ∈ grids k, Finite a ∧
      |val a| ≤ κ * (((grids k).map val).getD 1 0 - ((grids k).map val).getD 0 0))
    (hnormal : ∀ k, 2 * f.underflow ≤
      f.unitRoundoff * (((grids k).map val).getD 1 0 - ((grids k).map val).getD 0 0))
    (hlarge : ∀ k, 5 * (κ * (((grids k).map val).getD 1 0 - ((grids k).map val).getD 0 0)) + 1 ≤
      f.omega)
    (g : (Fin N → Nat) → Ieee f) (hg : Samples (fun k => (grids k).length) vals g)
    (obs : Fin N → List (Ieee f)) (m : Nat)
    (hobs : ∀ k, (obs k).length = m ∧ ∀ a ∈ obs k, Finite a ∧
      InRange (grids k).length (fun i => ((grids k).map val).getD i 0) (val a)) :
    ∃ reg res, pyInterpn fma dt (List.ofFn obs) (List.ofFn grids) vals "nearest" none lin false
        false atol = .ok (⟨"nearest", reg, dt⟩, res) ∧
      (reg = true ↔ ∀ k, UniformSpacing (grids k)) ∧ res.length = m ∧
      ∀ i pt, PointAt obs i pt → ∃ loc, res[i]? = some (g loc) ∧
        ∀ k, NearestWithin (grids k).length (fun i => ((grids k).map val).getD i 0) (val (pt k))
          (20 * (1 + κ) * f.unitRoundoff *
            (((grids k).map val).getD 1 0 - ((grids k).map val).getD 0 0)) (loc k) := by
  have hu0 := (rounds f).u_nonneg
  have hlen : ∀ k, 2 ≤ (grids k).length := fun k => by
    have := hG.big k; simpa [Axes.size] using this
  have hpos : ∀ k, 0 < ((grids k).map val).getD 1 0 - ((grids k).map val).getD 0 0 := fun k => by
    have := hG.increasing k 0 (hG.big k)
    simp only [Axes.node] at this
    linarith
  have key : ∀ one : (Fin N → Ieee f) → Res (Ieee f), _ → _ → _ → _ := fun one =>
    interpn_of_points fma dt hdt .nearest lin atol h1 (by omega) grids hlen vals obs m
      (fun k => (hobs k).1)
      (fun pt r => ∃ loc, r = g loc ∧
        ∀ k, NearestWithin (grids k).length (fun i => ((grids k).map val).getD i 0) (val (pt k))
          (20 * (1 + κ) * f.unitRoundoff *
            (((grids k).map val).getD 1 0 - ((grids k).map val).getD 0 0)) (loc k)) one
  suffices hs : ∃ reg res, pyInterpn fma dt (List.ofFn obs) (List.ofFn grids) vals
        PyMethod.nearest.name none lin false
        false atol = .ok (⟨PyMethod.nearest.name, reg, dt⟩, res) ∧
      (reg = true ↔ ∀ k, UniformSpacing (grids k)) ∧ res.length = m ∧
      ∀ i pt, PointAt obs i pt → ∃ r, res[i]? = some r ∧ ∃ loc, r = g loc ∧
        ∀ k, NearestWithin (grids k).length (fun i => ((grids k).map val).getD i 0) (val (pt k))
          (20 * (1 + κ) * f.unitRoundoff *
            (((grids k).map val).getD 1 0 - ((grids k).map val).getD 0 0)) (loc k) by
    obtain ⟨reg, res, a, b, c, d⟩ := hs
    refine ⟨reg, res, a, b, c, fun i pt hi => ?_⟩
    obtain ⟨r, e1, loc, rfl, e2⟩ := d i pt hi
    exact ⟨loc, e1, e2⟩
  by_cases hreg : ∀ k, UniformSpacing (grids k)
  · have hdet := fun k => detectedAxis hκ hN (grids k) (hlen k) (hpos k) (hgrid k) (hlarge k) (hreg k)
    refine key (nearestRegularAt fma (fun k => (grids k).length) (fun k => (grids k).getD 0 zero)
      (fun k => (grids k).getD 1 zero -. (grids k).getD 0 zero) vals)
      (fun _ => C10_C11_nearest_regular_entry fma h1 h6 _ _ _ vals
        (detected_accepted grids vals hG hdet)) (fun h => absurd hreg h) fun pt hpt => ?_
    obtain ⟨loc, a, b⟩ := nearest_detected_ieee hη hΩ1 hp fma κ hκ hN grids vals hG g hg hdet hnormal
      hlarge pt (fun k => ((hobs k).2 _ (hpt k)).1) (fun k => ((hobs k).2 _ (hpt k)).2)
    exact ⟨_, a, loc, rfl, b⟩
  · refine key (nearestRectilinearAt grids vals) (fun h => absurd h hreg)
      (fun _ => C10_C11_nearest_rectilinear_entry h1 h6 grids vals
        (given_accepted le_rfl grids vals hG fun k a ha => (hgrid k a ha).1)) fun pt hpt => ?_
    have hg2 : ∀ k, ∀ a ∈ grids k, Finite a ∧ 2 * |val a| ≤ f.omega := fun k a ha => by
      have a1 := (hgrid k a ha).2
      have a2 := hlarge k
      have a3 := mul_nonneg hκ (hpos k).le
      exact ⟨(hgrid k a ha).1, by linarith⟩
    obtain ⟨loc, a, b⟩ := nearest_rectilinear_ieee (by linarith) hη (le_trans (by norm_num) hΩ1) grids
      vals hG g hg hg2 pt (fun k => ((hobs k).2 _ (hpt k)).1) (fun k => ((hobs k).2 _ (hpt k)).2)
    refine ⟨_, a, loc, rfl, fun k => ?_⟩
    obtain ⟨c, hc, -, hn⟩ := b k
    refine ⟨hn.1, fun j hj => (hn.2 j hj).trans ?_⟩
    have hnode : ∀ i < (grids k).length, |((grids k).map val).getD i 0| ≤
        κ * (((grids k).map val).getD 1 0 - ((grids k).map val).getD 0 0) := fun i hi => by
      rw [List.getD_eq_getElem _ _ (by simpa using hi), List.getElem_map]
      exact (hgrid k _ (List.getElem_mem hi)).2
    have hc1 := hc.1
    have w1 := abs_le.1 (hnode (c + 1) (by omega))
    have w0 := abs_le.1 (hnode c (by omega))
    have hp := hpos k
    set D := ((grids k).map val).getD 1 0 - ((grids k).map val).getD 0 0
    have hw : ((grids k).map val).getD (c + 1) 0 - ((grids k).map val).getD c 0 ≤ 2 * (κ * D) := by
      linarith [w1.2, w0.1]
    have := mul_le_mul_of_nonneg_left hw (by positivity : 0 ≤ 7 * f.unitRoundoff)
    have f1 : 0 ≤ f.unitRoundoff * D := mul_nonneg hu0 hp.le
    have f2 : 0 ≤ f.unitRoundoff * (κ * D) := mul_nonneg hu0 (mul_nonneg hκ hp.le)
    linarith

end

section
variable {N : Nat}

/-- C95, `f64`: `interpn(obs, grids, vals, method="nearest")` with 1 to 6 increasing grids whose nodes
are at most `κ` times their first spacing in size, and observations in range. The call succeeds; it
uses the regular routine exactly if every grid has uniform spacing, as computed; and every entry of
the returned array is, bit for bit, the value stored at a node such that on every axis no node of the
grid as given is closer to the observation by more than `20 (1 + κ) 2^-53` times the first spacing.
The stored values may be anything, NaN included. -/
theorem C95_interpn_nearest_f64 (fma lin : Bool) (atol : F64) (h1 : 1 ≤ N) (h6 : N ≤ 6)
    (κ : ℚ) (hκ : 0 ≤ κ) (hN : 110 * (1 + κ) ≤ 2 ^ 53)
    (grids : Fin N → List F64) (vals : List F64)
    (hG : (Axes.rectilinear fun k => (grids k).map val).Valid 2 (vals.map val))
    (hgrid : ∀ k, ∀ a ∈ grids k, Finite a ∧
      |val a| ≤ κ * (((grids k).map val).getD 1 0 - ((grids k).map val).getD 0 0))
    (hnormal : ∀ k, 1 / 2 ^ 1021 ≤ ((grids k).map val).getD 1 0 - ((grids k).map val).getD 0 0)
    (hlarge : ∀ k, κ * (((grids k).map val).getD 1 0 - ((grids k).map val).getD 0 0) ≤ 2 ^ 1020)
    (g : (Fin N → Nat) → F64) (hg : Samples (fun k => (grids k).length) vals g)
    (obs : Fin N → List F64) (m : Nat)
    (hobs : ∀ k, (obs k).length = m ∧ ∀ a ∈ obs k, Finite a ∧
      InRange (grids k).length (fun i => ((grids k).map val).getD i 0) (val a)) :
    ∃ reg res, pyInterpn fma .float64 (List.ofFn obs) (List.ofFn grids) vals "nearest" none lin
        false false atol = .ok (⟨"nearest", reg, .float64⟩, res) ∧
      (reg = true ↔ ∀ k, UniformSpacing (grids k)) ∧ res.length = m ∧
      ∀ i pt, PointAt obs i pt → ∃ loc, res[i]? = some (g loc) ∧
        ∀ k, NearestWithin (grids k).length (fun i => ((grids k).map val).getD i 0) (val (pt k))
          (20 * (1 + κ) * (1 / 2 ^ 53) *
            (((grids k).map val).getD 1 0 - ((grids k).map val).getD 0 0)) (loc k) := by
  have hΩ := binary64_Ω
  have := interpn_nearest_ieee (f := Format.binary64)
    (by rw [binary64_u, binary64_η]; norm_num) (le_trans (by norm_num) hΩ) le_rfl
    (by rw [binary64_u]; norm_num) fma .float64 (by decide) lin atol h1 h6 κ hκ
    (by rw [binary64_u]; linarith) grids vals hG hgrid
    (fun k => by
      rw [binary64_u, binary64_η]
      have := hnormal k
      have e : 2 * ((1 : ℚ) / 2 ^ 1075) = 1 / 2 ^ 53 * (1 / 2 ^ 1021) := by norm_num
      rw [e]; gcongr)
    (fun k => le_trans (by have := hlarge k; linarith) hΩ) g hg obs m hobs
  rwa [binary64_u] at this

/-- C95, `f32`. -/
theorem C95_interpn_nearest_f32 (fma lin : Bool) (atol : F32) (h1 : 1 ≤ N) (h6 : N ≤ 6)
    (κ : ℚ) (hκ : 0 ≤ κ) (hN : 110 * (1 + κ) ≤ 2 ^ 24)
    (grids : Fin N → List F32) (vals : List F32)
    (hG : (Axes.rectilinear fun k => (grids k).map val).Valid 2 (vals.map val))
    (hgrid : ∀ k, ∀ a ∈ grids k, Finite a ∧
      |val a| ≤ κ * (((grids k).map val).getD 1 0 - ((grids k).map val).getD 0 0))
    (hnormal : ∀ k, 1 / 2 ^ 125 ≤ ((grids k).map val).getD 1 0 - ((grids k).map val).getD 0 0)
    (hlarge : ∀ k, κ * (((grids k).map val).getD 1 0 - ((grids k).map val).getD 0 0) ≤ 2 ^ 124)
    (g : (Fin N → Nat) → F32) (hg : Samples (fun k => (grids k).length) vals g)
    (obs : Fin N → List F32) (m : Nat)
    (hobs : ∀ k, (obs k).length = m ∧ ∀ a ∈ obs k, Finite a ∧
      InRange (grids k).length (fun i => ((grids k).map val).getD i 0) (val a)) :
    ∃ reg res, pyInterpn fma .float32 (List.ofFn obs) (List.ofFn grids) vals "nearest" none lin
        false false atol = .ok (⟨"nearest", reg, .float32⟩, res) ∧
      (reg = true ↔ ∀ k, UniformSpacing (grids k)) ∧ res.length = m ∧
      ∀ i pt, PointAt obs i pt → ∃ loc, res[i]? = some (g loc) ∧
        ∀ k, NearestWithin (grids k).length (fun i => ((grids k).map val).getD i 0) (val (pt k))
          (20 * (1 + κ) * (1 / 2 ^ 24) *
            (((grids k).map val).getD 1 0 - ((grids k).map val).getD 0 0)) (loc k) := by
  have hΩ := binary32_Ω
  have := interpn_nearest_ieee (f := Format.binary32)
    (by rw [binary32_u, binary32_η]; norm_num) (le_trans (by norm_num) hΩ) (by decide)
    (by rw [binary32_u]; norm_num) fma .float32 (by decide) lin atol h1 h6 κ hκ
    (by rw [binary32_u]; linarith) grids vals hG hgrid
    (fun k => by
      rw [binary32_u, binary32_η]
      have := hnormal k
      have e : 2 * ((1 : ℚ) / 2 ^ 150) = 1 / 2 ^ 24 * (1 / 2 ^ 125) := by norm_num
      rw [e]; gcongr)
    (fun k => le_trans (by have := hlarge k; linarith) hΩ) g hg obs m hobs
  rwa [binary32_u] at this

end

/-! ### Concrete cases -/

/-- Hypotheses of `C95_interpn_nearest_f64` are satisfied by two grids that pass the check; one of the
values is a NaN. -/
example : ∃ res, pyInterpn true .float64 [[q64 (1 / 3), q64 (1 / 2 ^ 60)], [q64 (5 / 3), q64 1]]
      [almostUniform, [q64 1, q64 3]] (.nan :: exVals64.tail) "nearest" none false false false
        (q64 0) = .ok (⟨"nearest", true, .float64⟩, res) ∧ res.length = 2 := by
  obtain ⟨reg, res, h1, h2, h3, -⟩ := C95_interpn_nearest_f64 (N := 2) true false (q64 0) (by decide)
    (by decide) 2 (by norm_num) (by norm_num) ![almostUniform, [q64 1, q64 3]]
    (.nan :: exVals64.tail) (valid_of_check (by decide +kernel)) (by decide +kernel)
    (by decide +kernel) (by decide +kernel) (valAt .nan _ (.nan :: exVals64.tail))
    (samples_valAt _ _ _ (by decide +kernel))
    ![[q64 (1 / 3), q64 (1 / 2 ^ 60)], [q64 (5 / 3), q64 1]] 2 (by unfold InRange; decide +kernel)
  have hreg : reg = true := h2.2 fun k => by
    match k with
    | 0 => exact almostUniform_passes
    | 1 => exact uniform_of_check (by decide +kernel)
  subst hreg
  exact ⟨res, h1, h3⟩

/-- On `linspace(0, 1, 11)` the rectilinear routine is used, and at 0.33 it returns the value stored
at node 3: every other node is farther away by much more than the slack. -/
example : ∃ res, pyInterpn false .float64 [[q64 (33 / 100)]] [linspace01]
      ((List.range 11).map fun i => q64 (i * i)) "nearest" none false false false (q64 0) =
        .ok (⟨"nearest", false, .float64⟩, res) ∧ res[0]? = some (q64 9) := by
  obtain ⟨reg, res, h1, h2, h3, h4⟩ := C95_interpn_nearest_f64 (N := 1) false false (q64 0)
    (by decide) (by decide) 11 (by norm_num) (by norm_num) ![linspace01]
    ((List.range 11).map fun i => q64 (i * i)) (valid_of_check (by decide +kernel))
    (by decide +kernel) (by decide +kernel) (by decide +kernel) (fun idx => q64 (idx 0 * idx 0))
    (fun loc hl => by
      have : ∀ i : Fin 11, ((List.range 11).map fun i => q64 (i * i))[i.val]? =
        some (q64 (i.val * i.val)) := by decide +kernel
      have h0 : loc 0 < 11 := hl 0
      have e : cIndex (fun k => (![linspace01] k).length) loc = loc 0 := by
        simp [cIndex]
      rw [e]
      exact this ⟨loc 0, h0⟩) ![[q64 (33 / 100)]] 1 (by unfold InRange; decide +kernel)
  have hreg : reg = false := by
    cases reg
    · rfl
    · exact absurd (h2.1 rfl 0) C92_linspace_not_detected
  subst hreg
  obtain ⟨loc, a, b⟩ := h4 0 ![q64 (33 / 100)] (fun k => by
    match k with
    | 0 => rfl)
  refine ⟨res, h1, ?_⟩
  have hb := b 0
  have : loc 0 = 3 := by
    refine hb.eq_of_margin le_rfl (by decide +kernel) ?_
    have : ∀ j < 11, j ≠ 3 → |val (q64 (33 / 100)) - (linspace01.map val).getD 3 0| +
        20 * (1 + 11) * (1 / 2 ^ 53) * ((linspace01.map val).getD 1 0 -
          (linspace01.map val).getD 0 0) < |val (q64 (33 / 100)) - (linspace01.map val).getD j 0| := by
      decide +kernel
    exact this
  rw [a, this]
  norm_num

/-- Hypotheses of `C95_interpn_nearest_f32` are satisfied. -/
example : ∃ reg res, pyInterpn false .float32 [[q32 (1 / 3)], [q32 (5 / 3)]]
      [[q32 0, q32 1, q32 2], [q32 1, q32 3]] exVals32 "nearest" none false false false (q32 0) =
        .ok (⟨"nearest", reg, .float32⟩, res) ∧ res.length = 1 := by
  obtain ⟨reg, res, h1, -, h3, -⟩ := C95_interpn_nearest_f32 (N := 2) false false (q32 0) (by decide)
    (by decide) 3 (by norm_num) (by norm_num) ![[q32 0, q32 1, q32 2], [q32 1, q32 3]] exVals32
    (valid_of_check (by decide +kernel)) (by decide +kernel) (by decide +kernel) (by decide +kernel)
    (valAt .nan _ exVals32) (samples_valAt _ _ _ (by decide +kernel)) ![[q32 (1 / 3)], [q32 (5 / 3)]] 1 (by unfold InRange; decide +kernel)
  exact ⟨reg, res, h1, h3⟩

end Interpn
