import Verif.Props.IeeeAccuracy
import Verif.Props.IeeeCubicOut
import Verif.Props.MultilinearExact
import Verif.Props.Accuracy

/-! C100: stability of multilinear extrapolation, and its accuracy in IEEE 754 arithmetic (`f32`,
`f64`) with explicit constants. Extends C22 and C81 from the grid range to observations outside it. -/

set_option autoImplicit false
set_option exponentiation.threshold 1100

namespace Interpn
open FloatOps Ieee

section
attribute [local instance] exactOps
variable {K : Type} [Field K] [LinearOrder K] [IsStrictOrderedRing K] [FloorRing K] {N : Nat}

/-- C100, exact arithmetic: at observations outside the grid by at most `lam` end cells on each axis,
changing every value by at most `ε` changes the result by at most `(1 + 2 lam)^N ε`. -/
theorem C100_stability (e : Evaluator) (he : e.Fits N) (fma : Bool) (G : Axes K N)
    (vals vals' : List K) (hG : G.Valid 2 vals) (hG' : G.Valid 2 vals') (ε : K)
    (hv : ∀ i (h : i < vals.length) (h' : i < vals'.length), |vals[i] - vals'[i]| ≤ ε)
    (x : Fin N → K) (hx : G.Representable x) (lam : K) (hlam : 0 ≤ lam)
    (hin : ∀ k, NearRange (G.size k) (G.node k) lam (x k)) :
    ∃ y y', multilinearAt e fma G vals x = .ok y ∧ multilinearAt e fma G vals' x = .ok y' ∧
      |y - y'| ≤ (1 + 2 * lam) ^ N * ε := by
  obtain ⟨c, hc⟩ := hG.cells le_rfl x
  refine ⟨_, _, multilinearAt_eq e he fma G vals hG _ (samples_valAt 0 _ _ hG.len) x hx c hc,
    multilinearAt_eq e he fma G vals' hG' _ (samples_valAt 0 _ _ hG'.len) x hx c hc, ?_⟩
  have key : ∀ loc : Fin N → Nat, (∀ k, loc k < G.size k) →
      |valAt 0 G.size vals loc - valAt 0 G.size vals' loc| ≤ ε := by
    intro loc hl
    have h1 := cIndex_lt G.size loc hl
    rw [← hG.len] at h1
    have h2 : cIndex G.size loc < vals'.length := by rw [hG'.len, ← hG.len]; exact h1
    have := hv _ h1 h2
    simp only [valAt]
    rwa [List.getD_eq_getElem _ _ h1, List.getD_eq_getElem _ _ h2]
  have hε : 0 ≤ ε := (abs_nonneg _).trans
    (key c fun k => by have := (hc k).1; omega)
  have hsub := axisByAxis_lincomb (n := G.size)
    (fun k f => linPiece (G.node k) f (c k) (x k)) (fun k => linPiece_linear (hc k).1)
    (valAt 0 G.size vals) (valAt 0 G.size vals') 1 (-1)
  rw [one_mul, neg_one_mul, ← sub_eq_add_neg] at hsub
  rw [← hsub]
  have := axisByAxis_dev (m := (0 : K)) (Λ := 1 + 2 * lam) (by positivity)
    (fun k i => i < G.size k) (fun k f => linPiece (G.node k) f (c k) (x k))
    (fun loc => 1 * valAt 0 G.size vals loc + -1 * valAt 0 G.size vals' loc) ε
    (fun k f B hB hf => by
      have h0 := hf (c k) (by have := (hc k).1; omega)
      have h1 := hf (c k + 1) (hc k).1
      have hw := (abs_weight_nearRange hlam
        (weight_nearRange (hG.incr k) hlam (hc k) (hin k))).1
      rw [sub_zero] at *
      rw [linPiece_weights]
      refine (abs_add_le _ _).trans ?_
      rw [abs_mul, abs_mul]
      calc _ ≤ |1 - (x k - G.node k (c k)) / (G.node k (c k + 1) - G.node k (c k))| * B +
            |(x k - G.node k (c k)) / (G.node k (c k + 1) - G.node k (c k))| * B := by gcongr
        _ ≤ _ := by rw [← add_mul]; gcongr) hε (fun loc hl => by
      rw [sub_zero, one_mul, neg_one_mul, ← sub_eq_add_neg]
      exact key loc hl)
  rwa [sub_zero] at this

/-- C100: the factor `(1 + 2 lam)^N` cannot be improved. With the values 1 and -1 alternating on the
corners of the unit cube, the result at distance `lam` from the corner `(1, …, 1)` is
`(1 + 2 lam)^N`, while the table of zeros gives 0. -/
theorem C100_sharp (e : Evaluator) (he : e.Fits N) (fma : Bool) (vals : List K)
    (hG : (Axes.rectilinear fun _ : Fin N => [(0 : K), 1]).Valid 2 vals)
    (hg : Samples (fun _ : Fin N => 2) vals fun loc => ∏ k, if loc k = 0 then (-1 : K) else 1) (lam : K) :
    multilinearAt e fma (.rectilinear fun _ : Fin N => [0, 1]) vals (fun _ => 1 + lam) =
      .ok ((1 + 2 * lam) ^ N) := by
  have h := C21_reproduces e he fma _ vals hG (fun z => ∏ k, (2 * z k - 1)) (fun j z => by
      refine ⟨-∏ k ∈ Finset.univ.erase j, (2 * z k - 1),
        2 * ∏ k ∈ Finset.univ.erase j, (2 * z k - 1), fun t => ?_⟩
      beta_reduce
      rw [← Finset.mul_prod_erase Finset.univ _ (Finset.mem_univ j), Function.update_self]
      have : ∏ k ∈ Finset.univ.erase j, (2 * Function.update z j t k - 1) =
          ∏ k ∈ Finset.univ.erase j, (2 * z k - 1) :=
        Finset.prod_congr rfl fun k hk => by
          rw [Function.update_of_ne (Finset.ne_of_mem_erase hk)]
      rw [this]; ring) (fun loc hl => by
      refine (hg loc hl).trans (congrArg some ?_)
      refine Finset.prod_congr rfl fun k _ => ?_
      have h2 : loc k < 2 := hl k
      have : loc k = 0 ∨ loc k = 1 := by omega
      rcases this with h | h <;> simp only [h, Axes.node] <;> norm_num) (fun _ => 1 + lam) trivial
  rw [h]
  congr 1
  rw [Finset.prod_const, Finset.card_univ, Fintype.card_fin]
  ring

end

section
variable {u η L L0 L1 M : ℚ} {N : Nat}

theorem blendPow_scale (hu : 0 ≤ u) (hL : 0 ≤ L) (h : L ≤ L0 * L1) (n : Nat) :
    (L * (1 + blendCost u)) ^ n ≤ L0 ^ n * (L1 * (1 + blendCost u)) ^ n := by
  have hc := blendCost_nonneg hu
  rw [← mul_pow]
  have : L * (1 + blendCost u) ≤ L0 * (L1 * (1 + blendCost u)) := by
    rw [← mul_assoc]; gcongr
  exact pow_le_pow_left₀ (mul_nonneg hL (by linarith)) this n

/-- A larger bound `L` on the weights amplifies the size of intermediate results. -/
theorem blendSize_scale (hu : 0 ≤ u) (hη : 0 ≤ η) (hM : 0 ≤ M) (hL : 0 ≤ L) (h : L ≤ L0 * L1)
    (n : Nat) :
    L * blendSize u η L M n ≤ L0 ^ (n + 1) * (L1 * blendSize u η L1 M n) := by
  have hp := blendPow_scale hu hL h n
  have h0 : 0 ≤ (L * (1 + blendCost u)) ^ n :=
    pow_nonneg (mul_nonneg hL (by have := blendCost_nonneg hu; linarith)) n
  have h1 : blendSize u η L M n ≤ L0 ^ n * blendSize u η L1 M n := by
    unfold blendSize
    have e1 : (L * (1 + blendCost u)) ^ n * M ≤ L0 ^ n * (L1 * (1 + blendCost u)) ^ n * M := by
      gcongr
    have e2 : n * (L * (1 + blendCost u)) ^ n * ((1 + u) * η) ≤
        n * (L0 ^ n * (L1 * (1 + blendCost u)) ^ n) * ((1 + u) * η) := by gcongr
    linarith
  have h2 : 0 ≤ blendSize u η L M n := by
    unfold blendSize; positivity
  calc L * blendSize u η L M n ≤ L0 * L1 * (L0 ^ n * blendSize u η L1 M n) :=
        mul_le_mul h h1 h2 (hL.trans h)
    _ = _ := by ring

/-- The same for the error. -/
theorem blendError_scale (hu : 0 ≤ u) (hη : 0 ≤ η) (hM : 0 ≤ M) (hL : 0 ≤ L) (h : L ≤ L0 * L1) :
    blendError u η L M N + (L ^ N - L0 ^ N) * M ≤
      L0 ^ N * (blendError u η L1 M N + (L1 ^ N - 1 ^ N) * M) := by
  have hp := blendPow_scale hu hL h N
  unfold blendError
  have e1 : (L * (1 + blendCost u)) ^ N * M ≤ L0 ^ N * (L1 * (1 + blendCost u)) ^ N * M := by
    gcongr
  have e2 : N * (L * (1 + blendCost u)) ^ N * ((1 + u) * η) ≤
      N * (L0 ^ N * (L1 * (1 + blendCost u)) ^ N) * ((1 + u) * η) := by gcongr
  rw [one_pow]
  linarith

/-- `AxisInBounds` for a smaller distance from the grid. -/
theorem AxisInBounds.mono {Ω A lam lam' s x : ℚ} {d : Nat} (hu : 0 ≤ u) (hlam : lam ≤ lam')
    (h : AxisInBounds u η Ω A lam' s x d) : AxisInBounds u η Ω A lam s x d := by
  have hp : positionError u η (((d - 1 : Nat) : ℚ) + lam) ≤
      positionError u η (((d - 1 : Nat) : ℚ) + lam') := by
    unfold positionError; gcongr
  refine ⟨h.node, h.obs, le_trans ?_ h.position, le_trans ?_ h.weight, le_trans ?_ h.index⟩
  · gcongr
  · gcongr
  · linarith

/-- The factor of one axis of a regular grid, observations outside by up to `lam` steps. -/
theorem regular_factor_out {κ lam s : ℚ} {d : Nat} (hu : 0 ≤ u) (hη : 0 ≤ η) (hηu : η ≤ u / 100)
    (hs : 0 < s) (hlam : 0 ≤ lam) (hlamκ : lam ≤ κ) (hd : ((d - 1 : Nat) : ℚ) ≤ 2 * κ)
    (hηs : η ≤ u * s) (huκ : 100 * ((1 + κ) * u) ≤ 1) :
    1 + 2 * lam + axisDeviation u η (κ * s) lam s d ≤
      (1 + 2 * lam) * (1 + (9 * u + 25 * (u * κ))) := by
  have hκ : 0 ≤ κ := hlam.trans hlamκ
  have huκ0 : 0 ≤ u * κ := by positivity
  have hul : 0 ≤ u * lam := by positivity
  have hulκ : 0 ≤ u * κ * lam := by positivity
  have hu1 : u ≤ 1 / 100 := by linarith
  have hn0 : (0 : ℚ) ≤ ((d - 1 : Nat) : ℚ) := Nat.cast_nonneg _
  have hpe : positionError u η (((d - 1 : Nat) : ℚ) + lam) ≤
      201 / 100 * (u * (2 * κ + lam)) + u / 100 := by
    unfold positionError
    have h1 : 2 * u + u ^ 2 ≤ 201 / 100 * u := by nlinarith
    have h2 : (2 * u + u ^ 2) * (((d - 1 : Nat) : ℚ) + lam) ≤ 201 / 100 * u * (2 * κ + lam) := by
      gcongr
    linarith
  have hpe0 : 0 ≤ positionError u η (((d - 1 : Nat) : ℚ) + lam) :=
    positionError_nonneg hu hη (by positivity)
  have hw := regularWeightError_simple hu hηu hκ hs hu1 hηs
    (by linarith : 0 ≤ 1 + lam + positionError u η (((d - 1 : Nat) : ℚ) + lam))
  have hpe1 : positionError u η (((d - 1 : Nat) : ℚ) + lam) ≤ 1 / 10 := by
    have : u * lam ≤ u * κ := by gcongr
    linarith
  have h3 : u * positionError u η (((d - 1 : Nat) : ℚ) + lam) ≤ u * (1 / 10) := by gcongr
  unfold axisDeviation
  linarith

end

section
variable {f : Format} {N : Nat}

/-- Multilinear interpolation on a rectilinear grid, observations outside by up to `lam` cells. -/
theorem multilinear_rectilinear_out_ieee (hu : f.unitRoundoff ≤ 1 / 1000)
    (hη : f.underflow ≤ f.unitRoundoff / 100)
    (e : Evaluator) (he : e.Fits N) (fma : Bool) (hN : 26 * N * f.unitRoundoff ≤ 1)
    (grids : Fin N → List (Ieee f)) (vals : List (Ieee f))
    (hG : (Axes.rectilinear fun k => (grids k).map val).Valid 2 (vals.map val))
    (hgrid : ∀ k, ∀ a ∈ grids k, Finite a ∧ 2 * |val a| ≤ f.omega) (M lam : ℚ) (hlam : 0 ≤ lam)
    (hlam2 : 2 * (1 + 2 * lam) ^ N ≤ f.omega)
    (hM : (1 + 2 * lam) ^ N * (5 * M + 1) ≤ f.omega)
    (hvals : ∀ v ∈ vals, Finite v ∧ |val v| ≤ M)
    (x : Fin N → Ieee f) (hx : ∀ k, Finite (x k) ∧ 2 * |val (x k)| ≤ f.omega)
    (hin : ∀ k, NearRange (grids k).length (fun i => ((grids k).map val).getD i 0) lam (val (x k))) :
    ∃ r y, multilinearRectilinearAt e fma grids vals x = .ok r ∧ Finite r ∧
      multilinearAt e fma (.rectilinear fun k => (grids k).map val) (vals.map val)
        (fun k => val (x k)) = .ok y ∧
      |val r - y| ≤ (1 + 2 * lam) ^ N * (26 * N * f.unitRoundoff * M + 3 * N * f.underflow) := by
  have h := rounds f
  have hu0 := h.u_nonneg
  have hη0 := h.η_nonneg
  have hN0 : 0 < N := by cases e <;> first | exact he | exact he.1
  have hM0 := bound_nonneg hG (by norm_num) hvals
  obtain ⟨hτ0, hτ1, hfac⟩ := rectilinear_factor hu0 (by linarith) hη
  set u := f.unitRoundoff with hudef
  set η := f.underflow with hηdef
  set L0 := 1 + 2 * lam with hL0def
  have hL01 : 1 ≤ L0 := by rw [hL0def]; linarith
  have hpow1 : 1 ≤ L0 ^ N := one_le_pow₀ hL01
  have hL0N : L0 ≤ L0 ^ N := le_self_pow₀ hL01 (by omega)
  have hβN : 2 * (N : ℚ) * (13 * u) ≤ 1 := by linarith
  set L1 := 1 + 2 * (weightCost u * 1 + η) with hL1def
  have hL1 : 0 ≤ L1 := by rw [hL1def]; linarith
  have hL : 0 ≤ L0 + 2 * (weightCost u * L0 + η) := by positivity
  have hscale : L0 + 2 * (weightCost u * L0 + η) ≤ L0 * L1 := by
    rw [hL1def]; nlinarith
  have hsize := blendSize_simple hu0 (by linarith) hη0 hM0 hL1 (by linarith) hfac hβN hN0
  have hNη : 6 * (N : ℚ) * η ≤ 1 := by
    have : (N : ℚ) * η ≤ N * (u / 100) := by gcongr
    linarith
  have hs2 := blendSize_scale hu0 hη0 hM0 hL hscale (N - 1)
  rw [Nat.sub_add_cancel hN0] at hs2
  obtain ⟨r, y, h1, h2, h3, h4⟩ := C57_rectilinear h (exactCompare f) (by linarith) e he fma grids
    vals hG hgrid M hvals x hx lam hlam hin L0 _ hL0def rfl
    (by
      have : L0 * (1 + weightCost u) ≤ L0 * 2 := by gcongr; linarith
      linarith)
    (by
      have a : 2 * (1 + u) ^ 2 * ((L0 + 2 * (weightCost u * L0 + η)) *
          blendSize u η (L0 + 2 * (weightCost u * L0 + η)) M (N - 1)) ≤
          2 * (1 + u) ^ 2 * (L0 ^ N * (L1 * blendSize u η L1 M (N - 1))) := by gcongr
      have b : η ≤ L0 ^ N * η := le_mul_of_one_le_left hη0 hpow1
      have c : L0 ^ N * (2 * (1 + u) ^ 2 * (L1 * blendSize u η L1 M (N - 1)) + η) ≤
          L0 ^ N * (5 * M + 1) := mul_le_mul_of_nonneg_left (by linarith) (by linarith)
      linarith)
  refine ⟨r, y, h1, h2, h3, h4.trans ((blendError_scale hu0 hη0 hM0 hL hscale).trans ?_)⟩
  have := blendError_simple hu0 (by linarith) hη0 hM0 hL1 (by linarith) hfac hβN
  exact mul_le_mul_of_nonneg_left (by linarith) (by linarith)

/-- Multilinear interpolation on a regular grid, observations outside by up to `lam ≤ κ` steps. -/
theorem multilinear_regular_out_ieee (hη : f.underflow ≤ f.unitRoundoff / 100)
    (hΩ1 : 2 ^ 70 ≤ f.omega) (hp : f.p ≤ 53)
    (e : Evaluator) (he : e.Fits N) (fma : Bool) (κ lam : ℚ) (hlam : 0 ≤ lam) (hlamκ : lam ≤ κ)
    (hN : 100 * N * (1 + κ) * f.unitRoundoff ≤ 1)
    (dims : Fin N → Nat) (starts steps : Fin N → Ieee f) (vals : List (Ieee f))
    (hG : (Axes.regular dims (fun k => val (starts k)) fun k => val (steps k)).Valid 2
      (vals.map val))
    (hfin : ∀ k, Finite (starts k) ∧ Finite (steps k))
    (hnormal : ∀ k, f.underflow ≤ f.unitRoundoff * val (steps k))
    (hnodes : ∀ k, |val (starts k)| ≤ κ * val (steps k) ∧
      |val (starts k) + val (steps k) * ((dims k - 1 : Nat) : ℚ)| ≤ κ * val (steps k))
    (hlarge : ∀ k, 4 * (κ * val (steps k)) + 1 ≤ f.omega) (M : ℚ)
    (hM : (1 + 2 * lam) ^ N * (5 * M + 1) ≤ f.omega)
    (hvals : ∀ v ∈ vals, Finite v ∧ |val v| ≤ M)
    (x : Fin N → Ieee f) (hx : ∀ k, Finite (x k) ∧ |val (x k)| ≤ κ * val (steps k))
    (hin : ∀ k, NearRange (dims k) (fun i => val (starts k) + val (steps k) * (i : ℚ)) lam
      (val (x k))) :
    ∃ r y, multilinearRegularAt e fma dims starts steps vals x = .ok r ∧ Finite r ∧
      multilinearAt e fma (.regular dims (fun k => val (starts k)) fun k => val (steps k))
        (vals.map val) (fun k => val (x k)) = .ok y ∧
      |val r - y| ≤ (1 + 2 * lam) ^ N *
        (60 * N * (1 + κ) * f.unitRoundoff * M + 3 * N * f.underflow) := by
  have h := rounds f
  have hu0 := h.u_nonneg
  have hη0 := h.η_nonneg
  have hκ : 0 ≤ κ := hlam.trans hlamκ
  have hN0 : 0 < N := by cases e <;> first | exact he | exact he.1
  have hN1 : (1 : ℚ) ≤ N := by exact_mod_cast hN0
  have hpos : ∀ k, 0 < val (steps k) := fun k => hG.step_pos (by omega) k
  have hM0 := bound_nonneg hG (by norm_num) hvals
  set u := f.unitRoundoff with hudef
  set η := f.underflow with hηdef
  have hκu0 : 0 ≤ (1 + κ) * u := by positivity
  have huκ : 100 * ((1 + κ) * u) ≤ 1 := by nlinarith
  obtain ⟨hu1, huκ', hκ53, hdim⟩ := regular_setup hp hκ huκ
  have hd : ∀ k, ((dims k - 1 : Nat) : ℚ) ≤ 2 * κ := fun k => by
    have h1 := abs_le.1 (hnodes k).1
    have h2 := abs_le.1 (hnodes k).2
    have : val (steps k) * ((dims k - 1 : Nat) : ℚ) ≤ val (steps k) * (2 * κ) := by linarith
    exact le_of_mul_le_mul_left this (hpos k)
  have hβ0 : 0 ≤ 30 * ((1 + κ) * u) := by positivity
  have hβN : 2 * (N : ℚ) * (30 * ((1 + κ) * u)) ≤ 1 := by nlinarith
  have hα : blendCost u ≤ 51 / 10 * u := by
    unfold blendCost
    nlinarith [mul_nonneg hu0 hu0]
  have hα0 := blendCost_nonneg hu0
  have hfac : (1 + (9 * u + 25 * (u * κ))) * (1 + blendCost u) ≤ 1 + 30 * ((1 + κ) * u) := by
    have h1 : (9 * u + 25 * (u * κ)) * blendCost u ≤ (9 * u + 25 * (u * κ)) * (51 / 10 * (1 / 100)) := by
      have : blendCost u ≤ 51 / 10 * (1 / 100) := by linarith
      gcongr
    nlinarith [mul_nonneg hu0 hκ]
  set L0 := 1 + 2 * lam with hL0def
  set L1 := 1 + (9 * u + 25 * (u * κ)) with hL1def
  have hL01 : 1 ≤ L0 := by rw [hL0def]; linarith
  have hL1 : 0 ≤ L1 := by rw [hL1def]; positivity
  have hL : 0 ≤ L0 * L1 := by positivity
  have hpow1 : 1 ≤ L0 ^ N := one_le_pow₀ hL01
  have hsize := blendSize_simple hu0 (by linarith) hη0 hM0 hL1 hβ0 hfac hβN hN0
  have hNη : 6 * (N : ℚ) * η ≤ 1 := by
    have h1 : (N : ℚ) * η ≤ N * (u / 100) := by gcongr
    have h2 : (N : ℚ) * u ≤ N * ((1 + κ) * u) := by
      gcongr; nlinarith
    nlinarith
  have hs2 := blendSize_scale hu0 hη0 hM0 hL le_rfl (N - 1)
  rw [Nat.sub_add_cancel hN0] at hs2
  obtain ⟨r, y, h1, h2, h3, h4⟩ := C66_regular h (exactCompare f)
    (exactWhole f (n := 2 ^ f.p + 1) le_rfl) e he fma dims starts steps vals hG
    (fun k => hdim _ (hd k)) hfin
    (fun k => κ * val (steps k)) hnodes M hvals x (fun k => (hx k).1) lam hlam hin
    (fun k => (axisInBounds_out hu0 hη0 hη hκ (hpos k) hu1 huκ' (hnormal k) hlam hlamκ
      (hd k) (hx k).2 (hlarge k) hκ53 hΩ1).mono hu0 (by linarith))
    L0 (L0 * L1) hL0def
    (fun k => regular_factor_out hu0 hη0 hη (hpos k) hlam hlamκ (hd k) (hnormal k) huκ)
    (by
      have a : 2 * (1 + u) ^ 2 * (L0 * L1 * blendSize u η (L0 * L1) M (N - 1)) ≤
          2 * (1 + u) ^ 2 * (L0 ^ N * (L1 * blendSize u η L1 M (N - 1))) := by gcongr
      have b : η ≤ L0 ^ N * η := le_mul_of_one_le_left hη0 hpow1
      have c : L0 ^ N * (2 * (1 + u) ^ 2 * (L1 * blendSize u η L1 M (N - 1)) + η) ≤
          L0 ^ N * (5 * M + 1) := mul_le_mul_of_nonneg_left (by linarith) (by linarith)
      linarith)
  refine ⟨r, y, h1, h2, h3, h4.trans ((blendError_scale hu0 hη0 hM0 hL le_rfl).trans ?_)⟩
  have := blendError_simple (N := N) hu0 (by linarith) hη0 hM0 hL1 hβ0 hfac hβN
  exact mul_le_mul_of_nonneg_left (by linarith) (by linarith)

end

section
variable {N : Nat}

/-- C100, `f64`, rectilinear grids, observations outside by at most `lam` end cells on each axis:
the computed result is finite and differs from the exact one by at most
`(1 + 2 lam)^N (26 N 2^-53 M + 3 N 2^-1075)`, where `M` bounds the values. -/
theorem C100_rectilinear_f64 (e : Evaluator) (he : e.Fits N) (hN : N ≤ 1000) (fma : Bool)
    (grids : Fin N → List F64) (vals : List F64)
    (hG : (Axes.rectilinear fun k => (grids k).map val).Valid 2 (vals.map val))
    (hgrid : ∀ k, ∀ a ∈ grids k, Finite a ∧ |val a| ≤ 2 ^ 1022) (M lam : ℚ) (hlam : 0 ≤ lam)
    (hlam2 : (1 + 2 * lam) ^ N ≤ 2 ^ 1020) (hM : (1 + 2 * lam) ^ N * M ≤ 2 ^ 1020)
    (hvals : ∀ v ∈ vals, Finite v ∧ |val v| ≤ M)
    (x : Fin N → F64) (hx : ∀ k, Finite (x k) ∧ |val (x k)| ≤ 2 ^ 1022)
    (hin : ∀ k, NearRange (grids k).length (fun i => ((grids k).map val).getD i 0) lam (val (x k))) :
    ∃ r y, multilinearRectilinearAt e fma grids vals x = .ok r ∧ Finite r ∧
      multilinearAt e fma (.rectilinear fun k => (grids k).map val) (vals.map val)
        (fun k => val (x k)) = .ok y ∧
      |val r - y| ≤ (1 + 2 * lam) ^ N * (26 * N * (1 / 2 ^ 53) * M + 3 * N * (1 / 2 ^ 1075)) := by
  have hΩ := binary64_Ω
  have hN' : (N : ℚ) ≤ 1000 := by exact_mod_cast hN
  have := multilinear_rectilinear_out_ieee (f := Format.binary64) (by rw [binary64_u]; norm_num)
    (by rw [binary64_u, binary64_η]; norm_num) e he fma
    (by rw [binary64_u]; linarith) grids vals hG
    (fun k a ha => ⟨(hgrid k a ha).1, le_trans (by have := (hgrid k a ha).2; linarith) hΩ⟩) M lam hlam
    (le_trans (by linarith) hΩ) (le_trans (by linarith) hΩ) hvals x
    (fun k => ⟨(hx k).1, le_trans (by have := (hx k).2; linarith) hΩ⟩) hin
  rwa [binary64_u, binary64_η] at this

/-- C100, `f64`, regular grids with steps that are normal numbers, nodes and observations of size up
to `κ` steps, observations outside by at most `lam ≤ κ` steps on each axis: at most
`(1 + 2 lam)^N (60 N (1 + κ) 2^-53 M + 3 N 2^-1075)`. -/
theorem C100_regular_f64 (e : Evaluator) (he : e.Fits N) (fma : Bool) (κ lam : ℚ) (hlam : 0 ≤ lam)
    (hlamκ : lam ≤ κ) (hN : 100 * N * (1 + κ) ≤ 2 ^ 53)
    (dims : Fin N → Nat) (starts steps : Fin N → F64) (vals : List F64)
    (hG : (Axes.regular dims (fun k => val (starts k)) fun k => val (steps k)).Valid 2
      (vals.map val))
    (hfin : ∀ k, Finite (starts k) ∧ Finite (steps k)) (hnormal : ∀ k, 1 / 2 ^ 1022 ≤ val (steps k))
    (hnodes : ∀ k, |val (starts k)| ≤ κ * val (steps k) ∧
      |val (starts k) + val (steps k) * ((dims k - 1 : Nat) : ℚ)| ≤ κ * val (steps k))
    (hlarge : ∀ k, κ * val (steps k) ≤ 2 ^ 1020) (M : ℚ)
    (hlam2 : (1 + 2 * lam) ^ N ≤ 2 ^ 1020) (hM : (1 + 2 * lam) ^ N * M ≤ 2 ^ 1020)
    (hvals : ∀ v ∈ vals, Finite v ∧ |val v| ≤ M) (x : Fin N → F64)
    (hx : ∀ k, Finite (x k) ∧ |val (x k)| ≤ κ * val (steps k))
    (hin : ∀ k, NearRange (dims k) (fun i => val (starts k) + val (steps k) * (i : ℚ)) lam
      (val (x k))) :
    ∃ r y, multilinearRegularAt e fma dims starts steps vals x = .ok r ∧ Finite r ∧
      multilinearAt e fma (.regular dims (fun k => val (starts k)) fun k => val (steps k))
        (vals.map val) (fun k => val (x k)) = .ok y ∧
      |val r - y| ≤ (1 + 2 * lam) ^ N *
        (60 * N * (1 + κ) * (1 / 2 ^ 53) * M + 3 * N * (1 / 2 ^ 1075)) := by
  have hΩ := binary64_Ω
  have := multilinear_regular_out_ieee (f := Format.binary64)
    (by rw [binary64_u, binary64_η]; norm_num) (le_trans (by norm_num) hΩ) (by decide) e he fma κ lam
    hlam hlamκ (by rw [binary64_u]; linarith) dims starts steps vals hG hfin
    (fun k => by
      rw [binary64_u, binary64_η]
      have := hnormal k
      have e : (1 : ℚ) / 2 ^ 1075 = 1 / 2 ^ 53 * (1 / 2 ^ 1022) := by norm_num
      rw [e]; gcongr) hnodes
    (fun k => le_trans (by have := hlarge k; linarith) hΩ) M
    (le_trans (by linarith) hΩ) hvals x hx hin
  rwa [binary64_u, binary64_η] at this

/-- C100, `f32`, rectilinear grids, observations outside by at most `lam` end cells on each axis:
the computed result is finite and differs from the exact one by at most
`(1 + 2 lam)^N (26 N 2^-24 M + 3 N 2^-150)`, where `M` bounds the values. -/
theorem C100_rectilinear_f32 (e : Evaluator) (he : e.Fits N) (hN : N ≤ 1000) (fma : Bool)
    (grids : Fin N → List F32) (vals : List F32)
    (hG : (Axes.rectilinear fun k => (grids k).map val).Valid 2 (vals.map val))
    (hgrid : ∀ k, ∀ a ∈ grids k, Finite a ∧ |val a| ≤ 2 ^ 126) (M lam : ℚ) (hlam : 0 ≤ lam)
    (hlam2 : (1 + 2 * lam) ^ N ≤ 2 ^ 124) (hM : (1 + 2 * lam) ^ N * M ≤ 2 ^ 124)
    (hvals : ∀ v ∈ vals, Finite v ∧ |val v| ≤ M)
    (x : Fin N → F32) (hx : ∀ k, Finite (x k) ∧ |val (x k)| ≤ 2 ^ 126)
    (hin : ∀ k, NearRange (grids k).length (fun i => ((grids k).map val).getD i 0) lam (val (x k))) :
    ∃ r y, multilinearRectilinearAt e fma grids vals x = .ok r ∧ Finite r ∧
      multilinearAt e fma (.rectilinear fun k => (grids k).map val) (vals.map val)
        (fun k => val (x k)) = .ok y ∧
      |val r - y| ≤ (1 + 2 * lam) ^ N * (26 * N * (1 / 2 ^ 24) * M + 3 * N * (1 / 2 ^ 150)) := by
  have hΩ := binary32_Ω
  have hN' : (N : ℚ) ≤ 1000 := by exact_mod_cast hN
  have := multilinear_rectilinear_out_ieee (f := Format.binary32) (by rw [binary32_u]; norm_num)
    (by rw [binary32_u, binary32_η]; norm_num) e he fma
    (by rw [binary32_u]; linarith) grids vals hG
    (fun k a ha => ⟨(hgrid k a ha).1, le_trans (by have := (hgrid k a ha).2; linarith) hΩ⟩) M lam hlam
    (le_trans (by linarith) hΩ) (le_trans (by linarith) hΩ) hvals x
    (fun k => ⟨(hx k).1, le_trans (by have := (hx k).2; linarith) hΩ⟩) hin
  rwa [binary32_u, binary32_η] at this

/-- C100, `f32`, regular grids with steps that are normal numbers, nodes and observations of size up
to `κ` steps, observations outside by at most `lam ≤ κ` steps on each axis: at most
`(1 + 2 lam)^N (60 N (1 + κ) 2^-24 M + 3 N 2^-150)`. -/
theorem C100_regular_f32 (e : Evaluator) (he : e.Fits N) (fma : Bool) (κ lam : ℚ) (hlam : 0 ≤ lam)
    (hlamκ : lam ≤ κ) (hN : 100 * N * (1 + κ) ≤ 2 ^ 24)
    (dims : Fin N → Nat) (starts steps : Fin N → F32) (vals : List F32)
    (hG : (Axes.regular dims (fun k => val (starts k)) fun k => val (steps k)).Valid 2
      (vals.map val))
    (hfin : ∀ k, Finite (starts k) ∧ Finite (steps k)) (hnormal : ∀ k, 1 / 2 ^ 126 ≤ val (steps k))
    (hnodes : ∀ k, |val (starts k)| ≤ κ * val (steps k) ∧
      |val (starts k) + val (steps k) * ((dims k - 1 : Nat) : ℚ)| ≤ κ * val (steps k))
    (hlarge : ∀ k, κ * val (steps k) ≤ 2 ^ 124) (M : ℚ)
    (hlam2 : (1 + 2 * lam) ^ N ≤ 2 ^ 124) (hM : (1 + 2 * lam) ^ N * M ≤ 2 ^ 124)
    (hvals : ∀ v ∈ vals, Finite v ∧ |val v| ≤ M) (x : Fin N → F32)
    (hx : ∀ k, Finite (x k) ∧ |val (x k)| ≤ κ * val (steps k))
    (hin : ∀ k, NearRange (dims k) (fun i => val (starts k) + val (steps k) * (i : ℚ)) lam
      (val (x k))) :
    ∃ r y, multilinearRegularAt e fma dims starts steps vals x = .ok r ∧ Finite r ∧
      multilinearAt e fma (.regular dims (fun k => val (starts k)) fun k => val (steps k))
        (vals.map val) (fun k => val (x k)) = .ok y ∧
      |val r - y| ≤ (1 + 2 * lam) ^ N *
        (60 * N * (1 + κ) * (1 / 2 ^ 24) * M + 3 * N * (1 / 2 ^ 150)) := by
  have hΩ := binary32_Ω
  have := multilinear_regular_out_ieee (f := Format.binary32)
    (by rw [binary32_u, binary32_η]; norm_num) (le_trans (by norm_num) hΩ) (by decide) e he fma κ lam
    hlam hlamκ (by rw [binary32_u]; linarith) dims starts steps vals hG hfin
    (fun k => by
      rw [binary32_u, binary32_η]
      have := hnormal k
      have e : (1 : ℚ) / 2 ^ 150 = 1 / 2 ^ 24 * (1 / 2 ^ 126) := by norm_num
      rw [e]; gcongr) hnodes
    (fun k => le_trans (by have := hlarge k; linarith) hΩ) M
    (le_trans (by linarith) hΩ) hvals x hx hin
  rwa [binary32_u, binary32_η] at this

end

/-! ### Concrete cases: observations outside the grid on both axes -/

section
attribute [local instance] exactOps

/-- Hypotheses of `C100_stability` are satisfied, outside the grid by a whole cell on both axes. -/
example : ∃ y y', multilinearAt .flat false (.rectilinear ![[0, 1, 3], [0, 2]])
      ([2, 6, -7, 16, 10, 3] : List ℚ) ![-1, 4] = .ok y ∧
    multilinearAt .flat false (.rectilinear ![[0, 1, 3], [0, 2]])
      ([2, 6, -7, 17, 10, 3] : List ℚ) ![-1, 4] = .ok y' ∧ |y - y'| ≤ (1 + 2 * 1) ^ 2 * 1 :=
  C100_stability .flat (show 0 < 2 by decide) false (.rectilinear ![[0, 1, 3], [0, 2]])
    [2, 6, -7, 16, 10, 3] [2, 6, -7, 17, 10, 3]
    (valid_of_check (by decide +kernel)) (valid_of_check (by decide +kernel)) 1
    (by decide +kernel) ![-1, 4] trivial 1 (by norm_num) (by unfold NearRange; decide +kernel)

/-- Hypotheses of `C100_sharp` are satisfied in two dimensions. -/
example : multilinearAt .flat true (.rectilinear fun _ : Fin 2 => [(0 : ℚ), 1]) [1, -1, -1, 1]
      (fun _ => 1 + 3) = .ok ((1 + 2 * 3) ^ 2) :=
  C100_sharp .flat (show 0 < 2 by decide) true [1, -1, -1, 1] (valid_of_check (by decide +kernel))
    (fun loc hl => by
      have h0 : loc 0 = 0 ∨ loc 0 = 1 := by have : loc 0 < 2 := hl 0; omega
      have h1 : loc 1 = 0 ∨ loc 1 = 1 := by have : loc 1 < 2 := hl 1; omega
      have e : loc = ![loc 0, loc 1] := by funext k; fin_cases k <;> rfl
      rw [e]
      rcases h0 with h0 | h0 <;> rcases h1 with h1 | h1 <;> rw [h0, h1] <;> decide +kernel) 3

end

/-- Hypotheses of `C100_rectilinear_f64` are satisfied. -/
example : ∃ r y, multilinearRectilinearAt .flat false exGrids64 exVals64
      ![q64 (-1 / 11), q64 (11 / 3)] = .ok r ∧
    multilinearAt .flat false (.rectilinear fun k => (exGrids64 k).map val) (exVals64.map val)
      (fun k => val (![q64 (-1 / 11), q64 (11 / 3)] k)) = .ok y ∧ |val r - y| ≤ 1 / 10 ^ 11 := by
  obtain ⟨r, y, h1, -, h3, h4⟩ := C100_rectilinear_f64 .flat (show 0 < 2 by decide) (by norm_num) false
    exGrids64 exVals64 (valid_of_check (by decide +kernel)) (by decide +kernel) 16 1 (by norm_num)
    (by norm_num) (by norm_num)
    (by decide +kernel) ![q64 (-1 / 11), q64 (11 / 3)] (by decide +kernel)
    (by unfold NearRange; decide +kernel)
  exact ⟨r, y, h1, h3, h4.trans (by norm_num)⟩

/-- Hypotheses of `C100_regular_f64` are satisfied, with nodes 0.1, 0.2, 0.3 on the first axis. -/
example : ∃ r y, multilinearRegularAt (.recursive 8) true ![3, 2] ![q64 (1 / 10), q64 1]
      ![q64 (1 / 10), q64 2] exVals64 ![q64 (3 / 8), q64 (-1 / 3)] = .ok r ∧
    multilinearAt (.recursive 8) true (.regular ![3, 2] (fun k => val (![q64 (1 / 10), q64 1] k))
        fun k => val (![q64 (1 / 10), q64 2] k)) (exVals64.map val)
      (fun k => val (![q64 (3 / 8), q64 (-1 / 3)] k)) = .ok y ∧ |val r - y| ≤ 1 / 10 ^ 10 := by
  obtain ⟨r, y, h1, -, h3, h4⟩ := C100_regular_f64 (.recursive 8) (show 0 < 2 ∧ 2 ≤ 8 by decide) true
    4 1 (by norm_num) (by norm_num) (by norm_num) ![3, 2] ![q64 (1 / 10), q64 1]
    ![q64 (1 / 10), q64 2] exVals64
    (valid_of_check (by decide +kernel)) (by decide +kernel) (by decide +kernel) (by decide +kernel)
    (by decide +kernel) 16 (by norm_num) (by norm_num) (by decide +kernel) ![q64 (3 / 8), q64 (-1 / 3)]
    (by decide +kernel) (by unfold NearRange; decide +kernel)
  exact ⟨r, y, h1, h3, h4.trans (by norm_num)⟩

/-- Hypotheses of `C100_rectilinear_f32` are satisfied. -/
example : ∃ r y, multilinearRectilinearAt .flat false exGrids32 exVals32
      ![q32 (-1 / 11), q32 (11 / 3)] = .ok r ∧
    multilinearAt .flat false (.rectilinear fun k => (exGrids32 k).map val) (exVals32.map val)
      (fun k => val (![q32 (-1 / 11), q32 (11 / 3)] k)) = .ok y ∧ |val r - y| ≤ 1 / 10 ^ 3 := by
  obtain ⟨r, y, h1, -, h3, h4⟩ := C100_rectilinear_f32 .flat (show 0 < 2 by decide) (by norm_num) false
    exGrids32 exVals32 (valid_of_check (by decide +kernel)) (by decide +kernel) 16 1 (by norm_num)
    (by norm_num) (by norm_num)
    (by decide +kernel) ![q32 (-1 / 11), q32 (11 / 3)] (by decide +kernel)
    (by unfold NearRange; decide +kernel)
  exact ⟨r, y, h1, h3, h4.trans (by norm_num)⟩

/-- Hypotheses of `C100_regular_f32` are satisfied. -/
example : ∃ r y, multilinearRegularAt (.recursive 8) true ![3, 2] ![q32 (1 / 10), q32 1]
      ![q32 (1 / 10), q32 2] exVals32 ![q32 (3 / 8), q32 (-1 / 3)] = .ok r ∧
    multilinearAt (.recursive 8) true (.regular ![3, 2] (fun k => val (![q32 (1 / 10), q32 1] k))
        fun k => val (![q32 (1 / 10), q32 2] k)) (exVals32.map val)
      (fun k => val (![q32 (3 / 8), q32 (-1 / 3)] k)) = .ok y ∧ |val r - y| ≤ 1 / 10 := by
  obtain ⟨r, y, h1, -, h3, h4⟩ := C100_regular_f32 (.recursive 8) (show 0 < 2 ∧ 2 ≤ 8 by decide) true
    4 1 (by norm_num) (by norm_num) (by norm_num) ![3, 2] ![q32 (1 / 10), q32 1]
    ![q32 (1 / 10), q32 2] exVals32
    (valid_of_check (by decide +kernel)) (by decide +kernel) (by decide +kernel) (by decide +kernel)
    (by decide +kernel) 16 (by norm_num) (by norm_num) (by decide +kernel) ![q32 (3 / 8), q32 (-1 / 3)]
    (by decide +kernel) (by unfold NearRange; decide +kernel)
  exact ⟨r, y, h1, h3, h4.trans (by norm_num)⟩

end Interpn
