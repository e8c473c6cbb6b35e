import Verif.Props.CubicExtrapolation

/-! C93 in IEEE 754 arithmetic: accuracy of multicubic interpolation at observations outside the
grid, with explicit constants. -/

set_option autoImplicit false
set_option exponentiation.threshold 1100

namespace Interpn
open FloatOps Ieee

section
variable {f : Format} {N : Nat}

/-- Nothing overflows when an observation outside the grid is located. -/
theorem axisInBounds_out {u η κ s lam x Ω : ℚ} {d : Nat} (hu : 0 ≤ u) (hη : 0 ≤ η)
    (hηu : η ≤ u / 100) (hκ : 0 ≤ κ) (hs : 0 < s) (hu1 : u ≤ 1 / 100) (huκ : u * κ ≤ 1 / 100)
    (hηs : η ≤ u * s) (hlam : 0 ≤ lam) (hlamκ : lam ≤ κ) (hd : ((d - 1 : Nat) : ℚ) ≤ 2 * κ)
    (hx : |x| ≤ κ * s) (hlarge : 4 * (κ * s) + 1 ≤ Ω) (hκ2 : κ ≤ 2 ^ 53) (hΩ : 2 ^ 70 ≤ Ω) :
    AxisInBounds u η Ω (κ * s) (2 + lam) s x d := by
  have hn0 : (0 : ℚ) ≤ ((d - 1 : Nat) : ℚ) := Nat.cast_nonneg _
  have h2 := axisInBounds_simple hu hη hηu hκ hs hu1 huκ hηs zero_le_two le_rfl hd hx hlarge hκ2 hΩ
  have hpe : positionError u η (((d - 1 : Nat) : ℚ) + (2 + lam)) ≤ 1 / 5 := by
    unfold positionError
    have h1 : 2 * u + u ^ 2 ≤ 201 / 100 * u := by nlinarith
    have h2 : (2 * u + u ^ 2) * (((d - 1 : Nat) : ℚ) + (2 + lam)) ≤
        201 / 100 * u * (2 * κ + (2 + κ)) := by gcongr
    linarith
  have hpe0 : 0 ≤ positionError u η (((d - 1 : Nat) : ℚ) + (2 + lam)) :=
    positionError_nonneg hu hη (by positivity)
  have hne := nodeError_simple hu hκ hs hu1 huκ hηs
  have hne0 : 0 ≤ nodeError u η (κ * s) / s :=
    div_nonneg (nodeError_nonneg hu hη (by positivity)) hs.le
  have hbig : (2 : ℚ) ^ 53 * 4 + 100 ≤ 2 ^ 63 := by norm_num
  have hbig2 : (2 : ℚ) ^ 63 ≤ 2 ^ 70 := by norm_num
  refine ⟨h2.node, h2.obs, ?_, ?_, ?_⟩
  · have : (1 + u) * (((d - 1 : Nat) : ℚ) + (2 + lam)) ≤ (1 + 1 / 100) * (2 * κ + (2 + κ)) := by
      gcongr
    linarith
  · have : (1 + u) * (1 + (2 + lam) + positionError u η (((d - 1 : Nat) : ℚ) + (2 + lam)) +
        nodeError u η (κ * s) / s) ≤ (1 + 1 / 100) * (1 + (2 + κ) + 1 / 5 + 1 / 10) := by gcongr
    linarith
  · linarith

/-- Multicubic interpolation on a rectilinear grid, observations outside by up to `lam` cells. `B`
bounds the amplification of one axis. -/
theorem multicubic_rectilinear_out_ieee (hu : f.unitRoundoff ≤ 1 / 1000)
    (e : Evaluator) (he : e.Fits N) (hN8 : N ≤ 8) (fma : Bool)
    (grids : Fin N → List (Ieee f)) (vals : List (Ieee f)) (lin : Bool)
    (hG : (Axes.rectilinear fun k => (grids k).map val).Valid 4 (vals.map val))
    (hgrid : ∀ k, ∀ a ∈ grids k, Finite a ∧ 2 * |val a| ≤ f.omega) (M : ℚ)
    (hvals : ∀ v ∈ vals, Finite v ∧ |val v| ≤ M)
    (x : Fin N → Ieee f) (hx : ∀ k, Finite (x k) ∧ 2 * |val (x k)| ≤ f.omega) (lam : ℚ)
    (hlam : 0 ≤ lam)
    (hin : ∀ k, NearRange (grids k).length (fun i => ((grids k).map val).getD i 0) lam (val (x k)))
    (ρ : ℚ) (hρ : 1 ≤ ρ)
    (hmesh : ∀ k, MeshRatio (grids k).length (fun i => ((grids k).map val).getD i 0) ρ)
    (hN : 3200 * N * (ρ * (1 + lam) ^ 3) * f.unitRoundoff ≤ 1)
    (hunder : f.underflow * (1 + ρ) ≤ f.unitRoundoff) (hunderM : f.underflow ≤ f.unitRoundoff * M)
    (B : ℚ) (hB : 2 + 8 * (ρ * (1 + lam) ^ 2) ≤ B)
    (hover : 64 * ((1 + lam) ^ 3 * (B ^ 7 * M * ρ)) ≤ f.omega)
    (hover1 : 64 * ρ ≤ f.omega) (hover2 : 64 * (1 + lam) ≤ f.omega) :
    ∃ r y, multicubicRectilinearAt e fma grids vals lin x = .ok r ∧ Finite r ∧
      multicubicAt e fma (.rectilinear fun k => (grids k).map val) (vals.map val) lin
        (fun k => val (x k)) = .ok y ∧
      |val r - y| ≤ 3200 * N * (ρ * (1 + lam) ^ 3) * f.unitRoundoff *
        (1 + ρ ^ 2 / (2 * (1 + ρ)) + 8 * ρ * (lam * (1 + lam))) ^ N * M := by
  have h := rounds f
  have hu0 := h.u_nonneg
  have hN0 : 0 < N := by cases e <;> first | exact he | exact he.1
  have hN1 : (1 : ℚ) ≤ N := by exact_mod_cast hN0
  have hM0 := bound_nonneg hG (by norm_num) hvals
  have hκ0 : 0 ≤ 1600 * ρ * (1 + lam) ^ 3 * f.unitRoundoff := by positivity
  have hκ1 : 1600 * ρ * (1 + lam) ^ 3 * f.unitRoundoff ≤ 1 := by
    have : 0 ≤ ρ * (1 + lam) ^ 3 * f.unitRoundoff := by positivity
    nlinarith
  have hl0 : 0 ≤ 8 * ρ * (lam * (1 + lam)) := by positivity
  have hΛ1 : 1 ≤ 1 + ρ ^ 2 / (2 * (1 + ρ)) + 8 * ρ * (lam * (1 + lam)) := by
    have : 0 ≤ ρ ^ 2 / (2 * (1 + ρ)) := by positivity
    linarith
  have hΛ2 : 1 + ρ ^ 2 / (2 * (1 + ρ)) + 8 * ρ * (lam * (1 + lam)) ≤
      1 + 8 * (ρ * (1 + lam) ^ 2) := by
    have : ρ ^ 2 / (2 * (1 + ρ)) ≤ ρ / 2 := by
      rw [div_le_div_iff₀ (by positivity) (by norm_num)]; nlinarith
    have : 0 ≤ ρ * lam := by positivity
    nlinarith
  have hpow : (1 + ρ ^ 2 / (2 * (1 + ρ)) + 8 * ρ * (lam * (1 + lam)) +
      1600 * ρ * (1 + lam) ^ 3 * f.unitRoundoff) ^ (N - 1) ≤ B ^ 7 :=
    calc _ ≤ B ^ (N - 1) := by gcongr; linarith
      _ ≤ B ^ 7 := pow_le_pow_right₀ (by linarith) (by omega)
  obtain ⟨r, y, h1, h2, h3, h4⟩ := C93_rectilinear h (exactCompare f) (exactSign f) hu e he fma grids
    vals lin hG hgrid M hvals x hx lam hlam hin ρ hρ hmesh _ _ rfl rfl hunder hunderM
    hover1 hover2 (le_trans (by gcongr) hover)
  refine ⟨r, y, h1, h2, h3, h4.trans ?_⟩
  have := C69_simple_bound (N := N) _ _ M hΛ1 hκ0 hM0 (by linarith)
  linarith

/-- Multicubic interpolation on a regular grid, observations outside by up to `lam ≤ κ` steps. -/
theorem multicubic_regular_out_ieee (hu : f.unitRoundoff ≤ 1 / 1000)
    (hη : f.underflow ≤ f.unitRoundoff / 100)
    (hΩ1 : 2 ^ 70 ≤ f.omega) (hp : f.p ≤ 53)
    (e : Evaluator) (he : e.Fits N) (hN8 : N ≤ 8) (fma : Bool) (κ lam : ℚ) (hlam : 0 ≤ lam)
    (hlamκ : lam ≤ κ) (hN : 4200 * N * ((1 + κ) * (1 + lam) ^ 3) * f.unitRoundoff ≤ 1)
    (dims : Fin N → Nat) (starts steps : Fin N → Ieee f) (vals : List (Ieee f)) (lin : Bool)
    (hG : (Axes.regular dims (fun k => val (starts k)) fun k => val (steps k)).Valid 4
      (vals.map val))
    (hfin : ∀ k, Finite (starts k) ∧ Finite (steps k))
    (hnormal : ∀ k, f.underflow ≤ f.unitRoundoff * val (steps k))
    (hnodes : ∀ k, |val (starts k)| ≤ κ * val (steps k) ∧
      |val (starts k) + val (steps k) * ((dims k - 1 : Nat) : ℚ)| ≤ κ * val (steps k))
    (hlarge : ∀ k, 4 * (κ * val (steps k)) + 1 ≤ f.omega) (M : ℚ)
    (B : ℚ) (hB : 3 + 8 * (lam * (1 + lam)) ≤ B)
    (hover : 128 * ((1 + lam) ^ 3 * (B ^ 7 * M)) ≤ f.omega)
    (hover1 : 128 * (1 + lam) ≤ f.omega)
    (hunderM : f.underflow ≤ f.unitRoundoff * M)
    (hvals : ∀ v ∈ vals, Finite v ∧ |val v| ≤ M)
    (x : Fin N → Ieee f) (hx : ∀ k, Finite (x k) ∧ |val (x k)| ≤ κ * val (steps k))
    (hin : ∀ k, NearRange (dims k) (fun i => val (starts k) + val (steps k) * (i : ℚ)) lam
      (val (x k))) :
    ∃ r y, multicubicRegularAt e fma dims starts steps vals lin x = .ok r ∧ Finite r ∧
      multicubicAt e fma (.regular dims (fun k => val (starts k)) fun k => val (steps k))
        (vals.map val) lin (fun k => val (x k)) = .ok y ∧
      |val r - y| ≤ 4200 * N * ((1 + κ) * (1 + lam) ^ 3) * f.unitRoundoff *
        (5 / 4 + 8 * (lam * (1 + lam))) ^ N * M := by
  have h := rounds f
  have hu0 := h.u_nonneg
  have hη0 := h.η_nonneg
  have hκ : 0 ≤ κ := hlam.trans hlamκ
  have hN0 : 0 < N := by cases e <;> first | exact he | exact he.1
  have hN1 : (1 : ℚ) ≤ N := by exact_mod_cast hN0
  have hpos : ∀ k, 0 < val (steps k) := fun k => hG.step_pos (by omega) k
  have hM0 := bound_nonneg hG (by norm_num) hvals
  have hl3 : (1 : ℚ) ≤ (1 + lam) ^ 3 := one_le_pow₀ (by linarith)
  set u := f.unitRoundoff with hudef
  set η := f.underflow with hηdef
  have hκu0 : 0 ≤ (1 + κ) * u := by positivity
  have hκl : (1 + κ) * u ≤ (1 + κ) * u * (1 + lam) ^ 3 := le_mul_of_one_le_right hκu0 hl3
  have hκu : 4200 * ((1 + κ) * u * (1 + lam) ^ 3) ≤ 1 := by nlinarith
  obtain ⟨hu1, huκ', hκ53, hdim⟩ := regular_setup hp hκ (by linarith)
  have hd : ∀ k, ((dims k - 1 : Nat) : ℚ) ≤ 2 * κ := fun k => by
    have h1 := abs_le.1 (hnodes k).1
    have h2 := abs_le.1 (hnodes k).2
    have : val (steps k) * ((dims k - 1 : Nat) : ℚ) ≤ val (steps k) * (2 * κ) := by linarith
    exact le_of_mul_le_mul_left this (hpos k)
  have hulam : u * lam ≤ u * κ := by gcongr
  have hw := fun k => regularWeightError_simple hu0 hη hκ (hpos k) hu1 (hnormal k)
    (by linarith : (0 : ℚ) ≤ 3 + lam)
  have hpe : ∀ k, positionError u η (((dims k - 1 : Nat) : ℚ) + lam) ≤
      603 / 100 * (u * κ) + u / 100 := by
    intro k
    unfold positionError
    have h1 : 2 * u + u ^ 2 ≤ 201 / 100 * u := by nlinarith
    have h2 : (2 * u + u ^ 2) * (((dims k - 1 : Nat) : ℚ) + lam) ≤
        201 / 100 * u * (2 * κ + κ) := by
      have := hd k
      gcongr
    linarith
  have hκ' : 0 ≤ 2100 * ((1 + κ) * u * (1 + lam) ^ 3) := by positivity
  have huκ0 : 0 ≤ u * κ := by positivity
  have hl0 : 0 ≤ 8 * (lam * (1 + lam)) := by positivity
  obtain ⟨r, y, h1, h2, h3, h4⟩ := C93_regular h (exactCompare f) (exactSign f) (totalOfUsize f)
    (exactWhole f (n := 2 ^ f.p + 1) le_rfl) hu e he fma dims starts steps vals lin hG
    (fun k => hdim _ (hd k)) hfin (fun k => κ * val (steps k)) hnodes M hvals x (fun k => (hx k).1)
    lam hlam hin
    (fun k => axisInBounds_out hu0 hη0 hη hκ (hpos k) hu1 huκ' (hnormal k) hlam hlamκ
      (hd k) (hx k).2 (hlarge k) hκ53 hΩ1)
    (fun k => by have := hw k; have := hpe k; linarith)
    _ (2100 * ((1 + κ) * u * (1 + lam) ^ 3)) rfl
    (fun k => by
      have a := hw k
      have b := hpe k
      unfold cubicAxisDeviationOut
      have c : regularWeightError u η (κ * val (steps k)) (val (steps k)) (3 + lam) +
          2 * positionError u η (((dims k - 1 : Nat) : ℚ) + lam) ≤ 36 / 5 * ((1 + κ) * u) +
            12 * (u * κ) := by linarith
      have d : (1 + lam) ^ 2 ≤ (1 + lam) ^ 3 := pow_le_pow_right₀ (by linarith) (by norm_num)
      have e : 59 * (1 + lam) ^ 2 * (regularWeightError u η (κ * val (steps k)) (val (steps k))
          (3 + lam) + 2 * positionError u η (((dims k - 1 : Nat) : ℚ) + lam)) ≤
          59 * (1 + lam) ^ 3 * (36 / 5 * ((1 + κ) * u) + 12 * (u * κ)) := by
        refine (mul_le_mul_of_nonneg_left c (by positivity)).trans ?_
        gcongr
      have g : 1650 * (1 + lam) ^ 3 * u + 59 * (1 + lam) ^ 3 * (36 / 5 * ((1 + κ) * u) +
          12 * (u * κ)) ≤ 2100 * ((1 + κ) * u * (1 + lam) ^ 3) := by
        have p1 : 0 ≤ u * (1 + lam) ^ 3 := by positivity
        have p2 : 0 ≤ u * κ * (1 + lam) ^ 3 := by positivity
        nlinarith
      linarith)
    (by linarith) hunderM hover1
    (by
      have h5 : (5 / 4 + 8 * (lam * (1 + lam)) + 2100 * ((1 + κ) * u * (1 + lam) ^ 3)) ^ (N - 1) ≤
          B ^ 7 :=
        calc _ ≤ B ^ (N - 1) := by gcongr; linarith
          _ ≤ B ^ 7 := pow_le_pow_right₀ (by linarith) (by omega)
      refine le_trans ?_ hover
      gcongr)
  refine ⟨r, y, h1, h2, h3, h4.trans ?_⟩
  have := C69_simple_bound (N := N) (5 / 4 + 8 * (lam * (1 + lam))) _ M (by linarith) hκ' hM0
    (by linarith)
  linarith

/-- C93, `f64`, rectilinear grids whose adjacent cells differ in width by at most a factor `ρ`,
observations outside by at most `lam` end cells on each axis: the computed result is finite and
differs from the exact one by at most `3200 N ρ (1 + lam)³ 2^-53 Λ^N M`, where `M` bounds the values
and `Λ = 1 + ρ²/(2(1+ρ)) + 8 ρ lam (1 + lam)`. -/
theorem C93_rectilinear_f64 (e : Evaluator) (he : e.Fits N) (hN8 : N ≤ 8) (fma : Bool)
    (grids : Fin N → List F64) (vals : List F64) (lin : Bool)
    (hG : (Axes.rectilinear fun k => (grids k).map val).Valid 4 (vals.map val))
    (hgrid : ∀ k, ∀ a ∈ grids k, Finite a ∧ |val a| ≤ 2 ^ 1022)
    (M : ℚ) (hM : M ≤ 2 ^ 500) (hM1 : 1 / 2 ^ 1022 ≤ M)
    (hvals : ∀ v ∈ vals, Finite v ∧ |val v| ≤ M) (x : Fin N → F64)
    (hx : ∀ k, Finite (x k) ∧ |val (x k)| ≤ 2 ^ 1022) (lam : ℚ) (hlam : 0 ≤ lam)
    (hin : ∀ k, NearRange (grids k).length (fun i => ((grids k).map val).getD i 0) lam (val (x k)))
    (ρ : ℚ) (hρ : 1 ≤ ρ) (hN : 3200 * N * (ρ * (1 + lam) ^ 3) ≤ 2 ^ 53)
    (hmesh : ∀ k, MeshRatio (grids k).length (fun i => ((grids k).map val).getD i 0) ρ) :
    ∃ r y, multicubicRectilinearAt e fma grids vals lin x = .ok r ∧ Finite r ∧
      multicubicAt e fma (.rectilinear fun k => (grids k).map val) (vals.map val) lin
        (fun k => val (x k)) = .ok y ∧
      |val r - y| ≤ 3200 * N * (ρ * (1 + lam) ^ 3) * (1 / 2 ^ 53) *
        (1 + ρ ^ 2 / (2 * (1 + ρ)) + 8 * ρ * (lam * (1 + lam))) ^ N * M := by
  have hΩ := binary64_Ω
  have hN0 : 0 < N := by cases e <;> first | exact he | exact he.1
  have hN1 : (1 : ℚ) ≤ N := by exact_mod_cast hN0
  have hM0 := bound_nonneg hG (by norm_num) hvals
  have hl1 : (1 : ℚ) ≤ 1 + lam := by linarith
  have q3 : ρ * (1 + lam) ^ 3 ≤ 2 ^ 42 := by
    have : 0 ≤ ρ * (1 + lam) ^ 3 := by positivity
    nlinarith
  have q2 : ρ * (1 + lam) ^ 2 ≤ 2 ^ 42 := le_trans (by gcongr; norm_num) q3
  have q1 : 1 + lam ≤ 2 ^ 42 := by
    refine le_trans ?_ q3
    calc 1 + lam = 1 * (1 + lam) ^ 1 := by ring
      _ ≤ ρ * (1 + lam) ^ 3 := by gcongr; norm_num
  have q0 : ρ ≤ 2 ^ 42 := le_trans (le_mul_of_one_le_right (by linarith) (one_le_pow₀ hl1)) q3
  have := multicubic_rectilinear_out_ieee (f := Format.binary64) (by rw [binary64_u]; norm_num)
    e he hN8 fma grids vals lin hG
    (fun k a ha => ⟨(hgrid k a ha).1, le_trans (by have := (hgrid k a ha).2; linarith) hΩ⟩) M
    hvals x (fun k => ⟨(hx k).1, le_trans (by have := (hx k).2; linarith) hΩ⟩) lam hlam hin ρ hρ
    hmesh (by rw [binary64_u]; linarith)
    (by rw [binary64_u, binary64_η]; linarith)
    (by
      rw [binary64_u, binary64_η]
      have e : (1 : ℚ) / 2 ^ 1075 = 1 / 2 ^ 53 * (1 / 2 ^ 1022) := by norm_num
      rw [e]; gcongr) (2 ^ 46) (by linarith)
    (by
      have : (2 ^ 46) ^ 7 * M * (ρ * (1 + lam) ^ 3) ≤ (2 ^ 46) ^ 7 * 2 ^ 500 * 2 ^ 42 := by gcongr
      refine le_trans ?_ hΩ
      linarith)
    (le_trans (by linarith) hΩ) (le_trans (by linarith) hΩ)
  rwa [binary64_u] at this

/-- C93, `f32`, rectilinear grids, observations outside by at most one end cell. -/
theorem C93_rectilinear_f32 (e : Evaluator) (he : e.Fits N) (hN8 : N ≤ 8) (fma : Bool)
    (grids : Fin N → List F32) (vals : List F32) (lin : Bool)
    (hG : (Axes.rectilinear fun k => (grids k).map val).Valid 4 (vals.map val))
    (hgrid : ∀ k, ∀ a ∈ grids k, Finite a ∧ |val a| ≤ 2 ^ 126)
    (M : ℚ) (hM : M ≤ 2 ^ 40) (hM1 : 1 / 2 ^ 126 ≤ M)
    (hvals : ∀ v ∈ vals, Finite v ∧ |val v| ≤ M) (x : Fin N → F32)
    (hx : ∀ k, Finite (x k) ∧ |val (x k)| ≤ 2 ^ 126) (lam : ℚ) (hlam : 0 ≤ lam) (hlam1 : lam ≤ 1)
    (hin : ∀ k, NearRange (grids k).length (fun i => ((grids k).map val).getD i 0) lam (val (x k)))
    (ρ : ℚ) (hρ : 1 ≤ ρ) (hρ2 : ρ ≤ 2 ^ 4) (hN : 3200 * N * (ρ * (1 + lam) ^ 3) ≤ 2 ^ 24)
    (hmesh : ∀ k, MeshRatio (grids k).length (fun i => ((grids k).map val).getD i 0) ρ) :
    ∃ r y, multicubicRectilinearAt e fma grids vals lin x = .ok r ∧ Finite r ∧
      multicubicAt e fma (.rectilinear fun k => (grids k).map val) (vals.map val) lin
        (fun k => val (x k)) = .ok y ∧
      |val r - y| ≤ 3200 * N * (ρ * (1 + lam) ^ 3) * (1 / 2 ^ 24) *
        (1 + ρ ^ 2 / (2 * (1 + ρ)) + 8 * ρ * (lam * (1 + lam))) ^ N * M := by
  have hΩ := binary32_Ω
  have hM0 := bound_nonneg hG (by norm_num) hvals
  have hl2 : 1 + lam ≤ 2 := by linarith
  have q2 : ρ * (1 + lam) ^ 2 ≤ 2 ^ 4 * 2 ^ 2 := by gcongr
  have := multicubic_rectilinear_out_ieee (f := Format.binary32) (by rw [binary32_u]; norm_num)
    e he hN8 fma grids vals lin hG
    (fun k a ha => ⟨(hgrid k a ha).1, le_trans (by have := (hgrid k a ha).2; linarith) hΩ⟩) M
    hvals x (fun k => ⟨(hx k).1, le_trans (by have := (hx k).2; linarith) hΩ⟩) lam hlam hin ρ hρ
    hmesh (by rw [binary32_u]; linarith)
    (by rw [binary32_u, binary32_η]; linarith)
    (by
      rw [binary32_u, binary32_η]
      have e : (1 : ℚ) / 2 ^ 150 = 1 / 2 ^ 24 * (1 / 2 ^ 126) := by norm_num
      rw [e]; gcongr) (2 ^ 10) (by linarith)
    (by
      have : (1 + lam) ^ 3 * ((2 ^ 10) ^ 7 * M * ρ) ≤ 2 ^ 3 * ((2 ^ 10) ^ 7 * 2 ^ 40 * 2 ^ 4) := by
        gcongr
      refine le_trans ?_ hΩ
      linarith)
    (le_trans (by linarith) hΩ) (le_trans (by linarith) hΩ)
  rwa [binary32_u] at this

/-- C93, `f64`, regular grids with steps that are normal numbers, nodes and observations of size up to
`κ` steps, observations outside by at most `lam ≤ κ` steps on each axis: at most
`4200 N (1 + κ) (1 + lam)³ 2^-53 Λ^N M`, where `Λ = 5/4 + 8 lam (1 + lam)`. -/
theorem C93_regular_f64 (e : Evaluator) (he : e.Fits N) (hN8 : N ≤ 8) (fma : Bool) (κ lam : ℚ)
    (hlam : 0 ≤ lam) (hlamκ : lam ≤ κ) (hN : 4200 * N * ((1 + κ) * (1 + lam) ^ 3) ≤ 2 ^ 53)
    (dims : Fin N → Nat) (starts steps : Fin N → F64) (vals : List F64) (lin : Bool)
    (hG : (Axes.regular dims (fun k => val (starts k)) fun k => val (steps k)).Valid 4
      (vals.map val))
    (hfin : ∀ k, Finite (starts k) ∧ Finite (steps k)) (hnormal : ∀ k, 1 / 2 ^ 1022 ≤ val (steps k))
    (hnodes : ∀ k, |val (starts k)| ≤ κ * val (steps k) ∧
      |val (starts k) + val (steps k) * ((dims k - 1 : Nat) : ℚ)| ≤ κ * val (steps k))
    (hlarge : ∀ k, κ * val (steps k) ≤ 2 ^ 1020)
    (M : ℚ) (hM : M ≤ 2 ^ 500) (hM1 : 1 / 2 ^ 1022 ≤ M)
    (hvals : ∀ v ∈ vals, Finite v ∧ |val v| ≤ M) (x : Fin N → F64)
    (hx : ∀ k, Finite (x k) ∧ |val (x k)| ≤ κ * val (steps k))
    (hin : ∀ k, NearRange (dims k) (fun i => val (starts k) + val (steps k) * (i : ℚ)) lam
      (val (x k))) :
    ∃ r y, multicubicRegularAt e fma dims starts steps vals lin x = .ok r ∧ Finite r ∧
      multicubicAt e fma (.regular dims (fun k => val (starts k)) fun k => val (steps k))
        (vals.map val) lin (fun k => val (x k)) = .ok y ∧
      |val r - y| ≤ 4200 * N * ((1 + κ) * (1 + lam) ^ 3) * (1 / 2 ^ 53) *
        (5 / 4 + 8 * (lam * (1 + lam))) ^ N * M := by
  have hΩ := binary64_Ω
  have hN0 : 0 < N := by cases e <;> first | exact he | exact he.1
  have hN1 : (1 : ℚ) ≤ N := by exact_mod_cast hN0
  have hM0 := bound_nonneg hG (by norm_num) hvals
  have hl1 : (1 : ℚ) ≤ 1 + lam := by linarith
  have hκ1 : 1 ≤ 1 + κ := by linarith
  have q3' : (1 + κ) * (1 + lam) ^ 3 ≤ 2 ^ 42 := by
    have : 0 ≤ (1 + κ) * (1 + lam) ^ 3 := by positivity
    nlinarith
  have q3 : (1 + lam) ^ 3 ≤ 2 ^ 42 := le_trans (le_mul_of_one_le_left (by positivity) hκ1) q3'
  have q2 : (1 + lam) ^ 2 ≤ 2 ^ 42 := le_trans (pow_le_pow_right₀ hl1 (by norm_num)) q3
  have q1 : 1 + lam ≤ 2 ^ 42 := le_trans (le_self_pow₀ hl1 (by norm_num)) q3
  have e1 : (1 : ℚ) / 2 ^ 1075 = 1 / 2 ^ 53 * (1 / 2 ^ 1022) := by norm_num
  have := multicubic_regular_out_ieee (f := Format.binary64) (by rw [binary64_u]; norm_num)
    (by rw [binary64_u, binary64_η]; norm_num) (le_trans (by norm_num) hΩ) le_rfl e he hN8 fma κ lam
    hlam hlamκ
    (by rw [binary64_u]; linarith) dims starts steps vals lin hG hfin
    (fun k => by
      rw [binary64_u, binary64_η]
      have := hnormal k
      rw [e1]; gcongr) hnodes
    (fun k => le_trans (by have := hlarge k; linarith) hΩ) M (2 ^ 46) (by nlinarith)
    (by
      have : (1 + lam) ^ 3 * ((2 ^ 46) ^ 7 * M) ≤ 2 ^ 42 * ((2 ^ 46) ^ 7 * 2 ^ 500) := by gcongr
      refine le_trans ?_ hΩ
      linarith)
    (le_trans (by linarith) hΩ) (by rw [binary64_u, binary64_η, e1]; gcongr) hvals x hx hin
  rwa [binary64_u] at this

/-- C93, `f32`, regular grids. -/
theorem C93_regular_f32 (e : Evaluator) (he : e.Fits N) (hN8 : N ≤ 8) (fma : Bool) (κ lam : ℚ)
    (hlam : 0 ≤ lam) (hlamκ : lam ≤ κ) (hN : 4200 * N * ((1 + κ) * (1 + lam) ^ 3) ≤ 2 ^ 24)
    (dims : Fin N → Nat) (starts steps : Fin N → F32) (vals : List F32) (lin : Bool)
    (hG : (Axes.regular dims (fun k => val (starts k)) fun k => val (steps k)).Valid 4
      (vals.map val))
    (hfin : ∀ k, Finite (starts k) ∧ Finite (steps k)) (hnormal : ∀ k, 1 / 2 ^ 126 ≤ val (steps k))
    (hnodes : ∀ k, |val (starts k)| ≤ κ * val (steps k) ∧
      |val (starts k) + val (steps k) * ((dims k - 1 : Nat) : ℚ)| ≤ κ * val (steps k))
    (hlarge : ∀ k, κ * val (steps k) ≤ 2 ^ 124)
    (M : ℚ) (hM : M ≤ 2 ^ 30) (hM1 : 1 / 2 ^ 126 ≤ M)
    (hvals : ∀ v ∈ vals, Finite v ∧ |val v| ≤ M) (x : Fin N → F32)
    (hx : ∀ k, Finite (x k) ∧ |val (x k)| ≤ κ * val (steps k))
    (hin : ∀ k, NearRange (dims k) (fun i => val (starts k) + val (steps k) * (i : ℚ)) lam
      (val (x k))) :
    ∃ r y, multicubicRegularAt e fma dims starts steps vals lin x = .ok r ∧ Finite r ∧
      multicubicAt e fma (.regular dims (fun k => val (starts k)) fun k => val (steps k))
        (vals.map val) lin (fun k => val (x k)) = .ok y ∧
      |val r - y| ≤ 4200 * N * ((1 + κ) * (1 + lam) ^ 3) * (1 / 2 ^ 24) *
        (5 / 4 + 8 * (lam * (1 + lam))) ^ N * M := by
  have hΩ := binary32_Ω
  have hN0 : 0 < N := by cases e <;> first | exact he | exact he.1
  have hN1 : (1 : ℚ) ≤ N := by exact_mod_cast hN0
  have hM0 := bound_nonneg hG (by norm_num) hvals
  have hl1 : (1 : ℚ) ≤ 1 + lam := by linarith
  have hκ1 : 1 ≤ 1 + κ := by linarith
  have q3' : (1 + κ) * (1 + lam) ^ 3 ≤ 2 ^ 12 := by
    have : 0 ≤ (1 + κ) * (1 + lam) ^ 3 := by positivity
    nlinarith
  have q3 : (1 + lam) ^ 3 ≤ 2 ^ 12 := le_trans (le_mul_of_one_le_left (by positivity) hκ1) q3'
  have q1 : 1 + lam ≤ 2 ^ 4 :=
    le_of_pow_le_pow_left₀ (n := 3) (by norm_num) (by norm_num) (q3.trans (by norm_num))
  have q2 : lam * (1 + lam) ≤ 15 * 2 ^ 4 := by
    have : lam ≤ 15 := by linarith
    gcongr
  have e1 : (1 : ℚ) / 2 ^ 150 = 1 / 2 ^ 24 * (1 / 2 ^ 126) := by norm_num
  have := multicubic_regular_out_ieee (f := Format.binary32) (by rw [binary32_u]; norm_num)
    (by rw [binary32_u, binary32_η]; norm_num) (le_trans (by norm_num) hΩ) (by decide) e he hN8 fma κ
    lam hlam hlamκ
    (by rw [binary32_u]; linarith) dims starts steps vals lin hG hfin
    (fun k => by
      rw [binary32_u, binary32_η]
      have := hnormal k
      rw [e1]; gcongr) hnodes
    (fun k => le_trans (by have := hlarge k; linarith) hΩ) M (2 ^ 11) (by linarith)
    (by
      have : (1 + lam) ^ 3 * ((2 ^ 11) ^ 7 * M) ≤ 2 ^ 12 * ((2 ^ 11) ^ 7 * 2 ^ 30) := by gcongr
      refine le_trans ?_ hΩ
      linarith)
    (le_trans (by linarith) hΩ) (by rw [binary32_u, binary32_η, e1]; gcongr) hvals x hx hin
  rwa [binary32_u] at this

end

/-! ### Concrete cases: observations outside the grid on both axes -/

section
attribute [local instance] exactOps

/-- Hypotheses of `C93_stability` are satisfied, outside the grid by a whole cell on both axes. -/
example : ∃ y y', multicubicAt .flat false (.rectilinear ![[0, 1, 3, 4], [0, 1, 2, 4]])
      ([2, 6, -7, 16, 10, 3, 5, 1, -2, 8, 0, 7, 1, 4, -9, 6] : List ℚ) false ![-1, 6] = .ok y ∧
    multicubicAt .flat false (.rectilinear ![[0, 1, 3, 4], [0, 1, 2, 4]])
      ([2, 6, -7, 16, 10, 3, 5, 1, -2, 9, 0, 7, 1, 4, -9, 6] : List ℚ) false ![-1, 6] = .ok y' ∧
    |y - y'| ≤ (1 + 2 ^ 2 / (2 * (1 + 2)) + 8 * 2 * (1 * (1 + 1))) ^ 2 * 1 :=
  C93_stability .flat (show 0 < 2 by decide) false (.rectilinear ![[0, 1, 3, 4], [0, 1, 2, 4]])
    [2, 6, -7, 16, 10, 3, 5, 1, -2, 8, 0, 7, 1, 4, -9, 6]
    [2, 6, -7, 16, 10, 3, 5, 1, -2, 9, 0, 7, 1, 4, -9, 6] false
    (valid_of_check (by decide +kernel)) (valid_of_check (by decide +kernel)) 1
    (by decide +kernel) 2 (by norm_num)
    (fun k i hi => by
      fin_cases k
      · have : i < 2 := by have : i + 2 < 4 := hi; omega
        interval_cases i <;> decide +kernel
      · have : i < 2 := by have : i + 2 < 4 := hi; omega
        interval_cases i <;> decide +kernel)
    ![-1, 6] trivial 1 (by norm_num) (by unfold NearRange; decide +kernel)

end

/-- Hypotheses of `C93_rectilinear_f64` are satisfied. -/
example : ∃ r y, multicubicRectilinearAt .flat false exGrids64c exVals64c false
      ![q64 (-1 / 3), q64 (11 / 3)] = .ok r ∧
    multicubicAt .flat false (.rectilinear fun k => (exGrids64c k).map val) (exVals64c.map val) false
      (fun k => val (![q64 (-1 / 3), q64 (11 / 3)] k)) = .ok y ∧ |val r - y| ≤ 1 / 10 ^ 6 := by
  obtain ⟨r, y, h1, -, h3, h4⟩ := C93_rectilinear_f64 .flat (show 0 < 2 by decide) (by norm_num) false
    exGrids64c exVals64c false (valid_of_check (by decide +kernel)) (by decide +kernel) 16
    (by norm_num) (by norm_num) (by decide +kernel) ![q64 (-1 / 3), q64 (11 / 3)] (by decide +kernel)
    1 (by norm_num) (by unfold NearRange; decide +kernel) 2 (by norm_num) (by norm_num)
    (fun k i hi => (show ∀ k, ∀ i < (exGrids64c k).length, i + 2 < (exGrids64c k).length →
      ((exGrids64c k).map val).getD (i + 1) 0 - ((exGrids64c k).map val).getD i 0 ≤
        2 * (((exGrids64c k).map val).getD (i + 2) 0 - ((exGrids64c k).map val).getD (i + 1) 0) ∧
      ((exGrids64c k).map val).getD (i + 2) 0 - ((exGrids64c k).map val).getD (i + 1) 0 ≤
        2 * (((exGrids64c k).map val).getD (i + 1) 0 - ((exGrids64c k).map val).getD i 0) by
      decide +kernel) k i (by omega) hi)
  exact ⟨r, y, h1, h3, h4.trans (by norm_num)⟩

/-- Hypotheses of `C93_regular_f64` are satisfied, with nodes 0.1, …, 0.4 on the first axis. -/
example : ∃ r y, multicubicRegularAt .flat true ![4, 5] ![q64 (1 / 10), q64 1]
      ![q64 (1 / 10), q64 2] exVals64c false ![q64 (3 / 7), q64 (-1)] = .ok r ∧
    multicubicAt .flat true (.regular ![4, 5] (fun k => val (![q64 (1 / 10), q64 1] k))
        fun k => val (![q64 (1 / 10), q64 2] k)) (exVals64c.map val) false
      (fun k => val (![q64 (3 / 7), q64 (-1)] k)) = .ok y ∧ |val r - y| ≤ 1 / 10 ^ 6 := by
  obtain ⟨r, y, h1, -, h3, h4⟩ := C93_regular_f64 .flat (show 0 < 2 by decide) (by norm_num) true 5 1
    (by norm_num) (by norm_num) (by norm_num) ![4, 5] ![q64 (1 / 10), q64 1] ![q64 (1 / 10), q64 2]
    exVals64c false
    (valid_of_check (by decide +kernel)) (by decide +kernel) (by decide +kernel) (by decide +kernel)
    (by decide +kernel) 16 (by norm_num) (by norm_num) (by decide +kernel)
    ![q64 (3 / 7), q64 (-1)] (by decide +kernel) (by unfold NearRange; decide +kernel)
  exact ⟨r, y, h1, h3, h4.trans (by norm_num)⟩

/-- Hypotheses of `C93_rectilinear_f32` are satisfied. -/
example : ∃ r y, multicubicRectilinearAt .flat false exGrids32c exVals32c true
      ![q32 (-1 / 3), q32 (10 / 3)] = .ok r ∧ Finite r ∧
    multicubicAt .flat false (.rectilinear fun k => (exGrids32c k).map val) (exVals32c.map val) true
      (fun k => val (![q32 (-1 / 3), q32 (10 / 3)] k)) = .ok y ∧
      |val r - y| ≤ 3200 * (2 : Nat) * (2 * (1 + 1 / 2) ^ 3) * (1 / 2 ^ 24) *
        (1 + 2 ^ 2 / (2 * (1 + 2)) + 8 * 2 * (1 / 2 * (1 + 1 / 2))) ^ 2 * 16 :=
  C93_rectilinear_f32 .flat (show 0 < 2 by decide) (by norm_num) false
    exGrids32c exVals32c true (valid_of_check (by decide +kernel)) (by decide +kernel) 16 (by norm_num)
    (by norm_num) (by decide +kernel) ![q32 (-1 / 3), q32 (10 / 3)] (by decide +kernel)
    (1 / 2) (by norm_num) (by norm_num) (by unfold NearRange; decide +kernel) 2 (by norm_num)
    (by norm_num) (by norm_num)
    (fun k i hi => (show ∀ k, ∀ i < (exGrids32c k).length, i + 2 < (exGrids32c k).length →
      ((exGrids32c k).map val).getD (i + 1) 0 - ((exGrids32c k).map val).getD i 0 ≤
        2 * (((exGrids32c k).map val).getD (i + 2) 0 - ((exGrids32c k).map val).getD (i + 1) 0) ∧
      ((exGrids32c k).map val).getD (i + 2) 0 - ((exGrids32c k).map val).getD (i + 1) 0 ≤
        2 * (((exGrids32c k).map val).getD (i + 1) 0 - ((exGrids32c k).map val).getD i 0) by
      decide +kernel) k i (by omega) hi)

/-- Hypotheses of `C93_regular_f32` are satisfied. -/
example : ∃ r y, multicubicRegularAt .flat true ![4, 5] ![q32 (1 / 10), q32 1]
      ![q32 (1 / 10), q32 2] exVals32c false ![q32 (3 / 7), q32 (-1)] = .ok r ∧ Finite r ∧
    multicubicAt .flat true (.regular ![4, 5] (fun k => val (![q32 (1 / 10), q32 1] k))
        fun k => val (![q32 (1 / 10), q32 2] k)) (exVals32c.map val) false
      (fun k => val (![q32 (3 / 7), q32 (-1)] k)) = .ok y ∧
      |val r - y| ≤ 4200 * (2 : Nat) * ((1 + 5) * (1 + 1) ^ 3) * (1 / 2 ^ 24) *
        (5 / 4 + 8 * (1 * (1 + 1))) ^ 2 * 16 :=
  C93_regular_f32 .flat (show 0 < 2 by decide) (by norm_num) true 5 1
    (by norm_num) (by norm_num) (by norm_num) ![4, 5] ![q32 (1 / 10), q32 1] ![q32 (1 / 10), q32 2]
    exVals32c false
    (valid_of_check (by decide +kernel)) (by decide +kernel) (by decide +kernel) (by decide +kernel)
    (by decide +kernel) 16 (by norm_num) (by norm_num) (by decide +kernel)
    ![q32 (3 / 7), q32 (-1)] (by decide +kernel) (by unfold NearRange; decide +kernel)

end Interpn
