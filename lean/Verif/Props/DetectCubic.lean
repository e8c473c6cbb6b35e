import Verif.Lemmas.PythonCall
import Verif.Props.IeeeCubic
import Verif.Props.IeeeCubicOut
import Verif.Props.CubicNodeErrors

/-! C98: the Python function `interpn(..., method="cubic")` in IEEE 754 arithmetic, from the decision
whether a grid is regular to the entries of the returned array. -/

set_option autoImplicit false
set_option exponentiation.threshold 1100

namespace Interpn
open FloatOps Ieee

section
variable {f : Format} {N : Nat}

/-- In exact arithmetic the implementations agree. -/
theorem multicubicAt_impl {K : Type} [Field K] [LinearOrder K] [IsStrictOrderedRing K]
    [FloorRing K] (e e' : Evaluator) (he : e.Fits N) (he' : e'.Fits N) (fma fma' : Bool)
    (G : Axes K N) (vals : List K) (lin : Bool) (hG : G.Valid 4 vals) (x : Fin N → K)
    (hx : G.RepresentableCubic x) :
    multicubicAt e fma G vals lin x = multicubicAt e' fma' G vals lin x := by
  have : Inhabited K := ⟨0⟩
  obtain ⟨g, hg⟩ := exists_samples hG.len
  obtain ⟨c, hc⟩ := hG.cells (by omega) x
  rw [multicubicAt_eq e he fma G vals lin hG g hg x hx c hc,
    multicubicAt_eq e' he' fma' G vals lin hG g hg x hx c hc]

theorem quarter_le_ratio {ρ : ℚ} (hρ : 1 ≤ ρ) : 1 / 4 ≤ ρ ^ 2 / (2 * (1 + ρ)) := by
  rw [div_le_div_iff₀ (by norm_num) (by positivity)]
  nlinarith

/-- The constants of the regular routine and of the displaced nodes together. -/
theorem cubic_detected_bound {u κ ρ M a b : ℚ} (hu : 0 ≤ u) (hκ : 0 ≤ κ) (hρ : 1 ≤ ρ) (hM : 0 ≤ M)
    (hN0 : 1 ≤ N) (hN : 4700 * N * ρ * (1 + κ) * u ≤ 1)
    (ha : |a| ≤ 4200 * N * ((1 + 107 / 100 * κ) * (1 + 42 / 10 * (u * κ)) ^ 3) * u *
      (5 / 4 + 8 * (42 / 10 * (u * κ) * (1 + 42 / 10 * (u * κ)))) ^ N * M)
    (hb : |b| ≤ ((1 + ρ ^ 2 / (2 * (1 + ρ)) +
        42 / 10 * (u * κ) * (7 + ρ + 8 * (42 / 10 * (u * κ)))) ^ N -
      (1 + ρ ^ 2 / (2 * (1 + ρ))) ^ N) * M) :
    |a + b| ≤ 4700 * N * ρ * (1 + κ) * u * (1 + ρ ^ 2 / (2 * (1 + ρ))) ^ N * M := by
  have hN1 : (1 : ℚ) ≤ N := by exact_mod_cast hN0
  have hr := quarter_le_ratio hρ
  set Λ := 1 + ρ ^ 2 / (2 * (1 + ρ)) with hΛ
  set lam := 42 / 10 * (u * κ) with hlam
  have huκ : 0 ≤ u * κ := by positivity
  have hlam0 : 0 ≤ lam := by positivity
  have hNu : 0 ≤ N * ((1 + κ) * u) := by positivity
  have hNρ : 4700 * (N * ((1 + κ) * u)) ≤ 1 := by
    have : N * ((1 + κ) * u) * 1 ≤ N * ((1 + κ) * u) * ρ := by gcongr
    linarith
  have hκ1 : u * κ ≤ (1 + κ) * u := by linarith
  have hNκ : N * (u * κ) ≤ N * ((1 + κ) * u) := mul_le_mul_of_nonneg_left hκ1 (by positivity)
  have hκN : u * κ ≤ N * (u * κ) := le_mul_of_one_le_left huκ hN1
  have hlam1 : lam ≤ 1 / 1000 := by rw [hlam]; linarith
  have hcube : (1 + lam) ^ 3 ≤ 1004 / 1000 :=
    calc (1 + lam) ^ 3 ≤ (1 + 1 / 1000) ^ 3 := by gcongr
      _ ≤ _ := by norm_num
  -- the regular routine
  have hpow : (5 / 4 + 8 * (lam * (1 + lam))) ^ N ≤ 1017 / 1000 * Λ ^ N := by
    have h1 : 8 * (lam * (1 + lam)) ≤ 85 / 10 * lam := by nlinarith
    have h2 := C69_simple_bound (N := N) (5 / 4 : ℚ) (85 / 10 * lam) 1 (by norm_num) (by positivity)
      zero_le_one (by rw [hlam]; linarith)
    have h3 : 2 * N * (85 / 10 * lam) ≤ 17 / 1000 := by rw [hlam]; linarith
    have h4 : (5 / 4 : ℚ) ^ N ≤ Λ ^ N := by gcongr; rw [hΛ]; linarith
    calc (5 / 4 + 8 * (lam * (1 + lam))) ^ N ≤ (5 / 4 + 85 / 10 * lam) ^ N := by gcongr
      _ ≤ (5 / 4) ^ N + 2 * N * (85 / 10 * lam) * (5 / 4) ^ N := by linarith
      _ ≤ (5 / 4) ^ N + 17 / 1000 * (5 / 4) ^ N := by gcongr
      _ = 1017 / 1000 * (5 / 4) ^ N := by ring
      _ ≤ _ := by gcongr
  have ha' : |a| ≤ 4600 * (N * ((1 + κ) * u)) * Λ ^ N * M := by
    refine ha.trans ?_
    calc _ ≤ 4200 * N * ((107 / 100 * (1 + κ)) * (1004 / 1000)) * u * (1017 / 1000 * Λ ^ N) * M := by
          gcongr
          linarith
      _ = 4200 * (107 / 100) * (1004 / 1000) * (1017 / 1000) * (N * ((1 + κ) * u) * Λ ^ N * M) := by
          ring
      _ ≤ 4600 * (N * ((1 + κ) * u) * Λ ^ N * M) := by gcongr; norm_num
      _ = _ := by ring
  -- the displaced nodes
  have hd : lam * (7 + ρ + 8 * lam) ≤ 34 * (ρ * (u * κ)) := by
    have : 7 + ρ + 8 * lam ≤ 805 / 100 * ρ := by linarith
    calc lam * (7 + ρ + 8 * lam) ≤ lam * (805 / 100 * ρ) := by gcongr
      _ = 42 * 805 / 1000 * (ρ * (u * κ)) := by rw [hlam]; ring
      _ ≤ _ := by gcongr; norm_num
  have hNN : N * (ρ * (u * κ)) ≤ N * (ρ * ((1 + κ) * u)) :=
    mul_le_mul_of_nonneg_left (mul_le_mul_of_nonneg_left hκ1 (by positivity)) (by positivity)
  have h5 := C69_simple_bound (N := N) Λ (34 * (ρ * (u * κ))) M (by rw [hΛ]; linarith)
    (by positivity) hM (by linarith)
  have hb' : |b| ≤ 68 * (N * (ρ * ((1 + κ) * u))) * Λ ^ N * M :=
    calc |b| ≤ ((Λ + lam * (7 + ρ + 8 * lam)) ^ N - Λ ^ N) * M := hb
      _ ≤ ((Λ + 34 * (ρ * (u * κ))) ^ N - Λ ^ N) * M := by gcongr
      _ ≤ _ := h5
      _ = N * (ρ * (u * κ)) * (68 * Λ ^ N * M) := by ring
      _ ≤ N * (ρ * ((1 + κ) * u)) * (68 * Λ ^ N * M) :=
        mul_le_mul_of_nonneg_right hNN (by positivity)
      _ = _ := by ring
  have h6 : 4600 * (N * ((1 + κ) * u)) ≤ 4600 * (N * (ρ * ((1 + κ) * u))) := by
    have := mul_le_mul_of_nonneg_right hρ hNu
    linarith
  calc |a + b| ≤ |a| + |b| := abs_add_le _ _
    _ ≤ 4600 * (N * ((1 + κ) * u)) * Λ ^ N * M + 68 * (N * (ρ * ((1 + κ) * u))) * Λ ^ N * M :=
      add_le_add ha' hb'
    _ ≤ 4600 * (N * (ρ * ((1 + κ) * u))) * Λ ^ N * M +
        68 * (N * (ρ * ((1 + κ) * u))) * Λ ^ N * M := by gcongr
    _ = 4668 * (N * (ρ * ((1 + κ) * u)) * Λ ^ N * M) := by ring
    _ ≤ 4700 * (N * (ρ * ((1 + κ) * u)) * Λ ^ N * M) := by gcongr; norm_num
    _ = _ := by ring

/-- The regular routine on grids that pass the regularity check, compared with exact interpolation on
the grids as given. -/
theorem multicubic_detected_ieee (hu : f.unitRoundoff ≤ 1 / 1000)
    (hη : f.underflow ≤ f.unitRoundoff / 100)
    (hΩ1 : 2 ^ 70 ≤ f.omega) (hp : f.p ≤ 53) (e : Evaluator) (he : e.Fits N) (hN8 : N ≤ 8)
    (fma : Bool) (κ : ℚ) (hκ : 0 ≤ κ) (ρ : ℚ) (hρ : 1 ≤ ρ)
    (hN : 4700 * N * ρ * (1 + κ) * f.unitRoundoff ≤ 1)
    (grids : Fin N → List (Ieee f)) (vals : List (Ieee f)) (lin : Bool)
    (hG : (Axes.rectilinear fun k => (grids k).map val).Valid 4 (vals.map val))
    (hdet : ∀ k, DetectedAxis κ (grids k) (val ((grids k).getD 1 zero -. (grids k).getD 0 zero)))
    (hnormal : ∀ k, 2 * f.underflow ≤
      f.unitRoundoff * (((grids k).map val).getD 1 0 - ((grids k).map val).getD 0 0))
    (hlarge : ∀ k, 5 * (κ * (((grids k).map val).getD 1 0 - ((grids k).map val).getD 0 0)) + 1 ≤
      f.omega)
    (hmesh : ∀ k, MeshRatio (grids k).length (fun i => ((grids k).map val).getD i 0) ρ) (M : ℚ)
    (hvals : ∀ v ∈ vals, Finite v ∧ |val v| ≤ M) (hunderM : f.underflow ≤ f.unitRoundoff * M)
    (hover : 256 * (4 ^ 7 * M) ≤ f.omega)
    (x : Fin N → Ieee f) (hx : ∀ k, Finite (x k))
    (hin : ∀ k, InRange (grids k).length (fun i => ((grids k).map val).getD i 0) (val (x k))) :
    ∃ r y, multicubicRegularAt e fma (fun k => (grids k).length)
        (fun k => (grids k).getD 0 zero)
        (fun k => (grids k).getD 1 zero -. (grids k).getD 0 zero) vals lin x = .ok r ∧ Finite r ∧
      multicubicAt e fma (.rectilinear fun k => (grids k).map val) (vals.map val) lin
        (fun k => val (x k)) = .ok y ∧
      |val r - y| ≤ 4700 * N * ρ * (1 + κ) * f.unitRoundoff *
        (1 + ρ ^ 2 / (2 * (1 + ρ))) ^ N * M := by
  have hu0 := (rounds f).u_nonneg
  have hN0 : 0 < N := by cases e <;> first | exact he | exact he.1
  have hN1 : (1 : ℚ) ≤ N := by exact_mod_cast hN0
  have hM0 := bound_nonneg hG (by norm_num) hvals
  have hG' := detected_valid grids vals hG hdet
  set u := f.unitRoundoff with hudef
  set s : Fin N → ℚ := fun k => val ((grids k).getD 1 zero -. (grids k).getD 0 zero) with hs
  have huκ0 : 0 ≤ u * κ := by positivity
  have hNu : 0 ≤ N * ((1 + κ) * u) := by positivity
  have hNρ : 4700 * (N * ((1 + κ) * u)) ≤ 1 := by
    have : N * ((1 + κ) * u) * 1 ≤ N * ((1 + κ) * u) * ρ := by gcongr
    linarith
  have hκu : (1 + κ) * u ≤ N * ((1 + κ) * u) := le_mul_of_one_le_left (by positivity) hN1
  set lam := 42 / 10 * (u * κ) with hlam
  have hlam0 : 0 ≤ lam := by positivity
  have hlam1 : lam ≤ 1 / 1000 := by rw [hlam]; linarith
  have hcube : (1 + lam) ^ 3 ≤ 1004 / 1000 :=
    calc (1 + lam) ^ 3 ≤ (1 + 1 / 1000) ^ 3 := by gcongr
      _ ≤ _ := by norm_num
  obtain ⟨r, y', h1, h2, h3, h4⟩ := multicubic_regular_out_ieee hu hη hΩ1 hp e he hN8 fma
    (107 / 100 * κ) lam hlam0
    (by
      have : u * κ ≤ 1 / 1000 * κ := by gcongr
      rw [hlam]; linarith)
    (calc _ ≤ 4200 * N * ((107 / 100 * (1 + κ)) * (1004 / 1000)) * u := by gcongr; linarith
      _ = 4200 * (107 / 100) * (1004 / 1000) * (N * ((1 + κ) * u)) := by ring
      _ ≤ 4700 * (N * ((1 + κ) * u)) := by gcongr; norm_num
      _ ≤ 1 := hNρ)
    (fun k => (grids k).length) (fun k => (grids k).getD 0 zero)
    (fun k => (grids k).getD 1 zero -. (grids k).getD 0 zero) vals lin hG'
    (fun k => (hdet k).finite) (fun k => (hdet k).normal (hnormal k)) (fun k => (hdet k).ends)
    (fun k => (hdet k).large hκ (hlarge k)) M 4
    (by nlinarith)
    (le_trans (calc
      128 * ((1 + lam) ^ 3 * (4 ^ 7 * M)) ≤ 128 * (2 * (4 ^ 7 * M)) := by gcongr; linarith
      _ = 256 * (4 ^ 7 * M) := by ring) hover)
    (le_trans (by linarith) hΩ1) hunderM hvals x
    (fun k => ⟨hx k, ((hdet k).obs _ (hin k)).1⟩) (fun k => ((hdet k).obs _ (hin k)).2.1)
  have hκ53 := (regular_setup hp hκ (by linarith : 100 * ((1 + κ) * f.unitRoundoff) ≤ 1)).2.2.1
  have hrep : (Axes.regular (fun k => (grids k).length) (fun k => val ((grids k).getD 0 zero)) s
      ).RepresentableCubic fun k => val (x k) := by
    intro k
    obtain ⟨-, -, hq0, hq⟩ := (hdet k).obs _ (hin k)
    constructor
    · exact le_trans (by norm_num) (Int.floor_nonneg.2 hq0)
    · rw [← Int.lt_add_one_iff, Int.floor_lt]
      refine lt_of_le_of_lt hq ?_
      have : 21 / 10 * κ + 1 < 2 ^ 56 := by linarith
      refine this.trans ?_
      norm_num [isizeMax]
  obtain ⟨y, y'', h5, h6, h7⟩ := C97_nodes_moved e e he he fma fma
    (.rectilinear fun k => (grids k).map val)
    (.regular (fun k => (grids k).length) (fun k => val ((grids k).getD 0 zero)) s) (vals.map val) lin
    hG hG' (fun k => by simp [Axes.size]) s (fun k => (hdet k).pos)
    (fun k i _ => by simp only [Axes.node]; push_cast; linarith) lam
    (fun k i hi => (hdet k).close i hi) ρ hρ
    (fun k => by have := hmesh k; rwa [← List.length_map (as := grids k) val] at this) M
    (fun v hv => by
      obtain ⟨w, hw, rfl⟩ := List.mem_map.1 hv
      exact (hvals w hw).2)
    (fun k => val (x k)) (fun k => by
      have := hin k
      rwa [← List.length_map (as := grids k) val] at this) hrep
  have e1 : y'' = y' := by
    have := h6.symm.trans h3
    exact (Res.ok.injEq _ _).mp this
  subst e1
  refine ⟨r, y, h1, h2, h5, ?_⟩
  have := cubic_detected_bound hu0 hκ hρ hM0 hN0 hN h4 h7
  rwa [sub_add_sub_cancel] at this

theorem interpn_cubic_ieee (hη : f.underflow ≤ f.unitRoundoff / 100)
    (hΩ1 : 2 ^ 70 ≤ f.omega) (hp : f.p ≤ 53) (hu : f.unitRoundoff ≤ 1 / 1000)
    (fma : Bool) (dt : Dtype) (hdt : dt ≠ .other)
    (lin : Bool) (atol : Ieee f) (h1 : 1 ≤ N) (h8 : N ≤ 8)
    (κ : ℚ) (hκ : 0 ≤ κ) (ρ : ℚ) (hρ : 1 ≤ ρ) (hN : 4700 * N * ρ * (1 + κ) * f.unitRoundoff ≤ 1)
    (grids : Fin N → List (Ieee f)) (vals : List (Ieee f))
    (hG : (Axes.rectilinear fun k => (grids k).map val).Valid 4 (vals.map val))
    (hgrid : ∀ k, ∀ a ∈ grids k, Finite a ∧
      |val a| ≤ κ * (((grids k).map val).getD 1 0 - ((grids k).map val).getD 0 0))
    (hnormal : ∀ k, 2 * f.underflow ≤
      f.unitRoundoff * (((grids k).map val).getD 1 0 - ((grids k).map val).getD 0 0))
    (hlarge : ∀ k, 5 * (κ * (((grids k).map val).getD 1 0 - ((grids k).map val).getD 0 0)) + 1 ≤
      f.omega)
    (hmesh : ∀ k, MeshRatio (grids k).length (fun i => ((grids k).map val).getD i 0) ρ) (M : ℚ)
    (hvals : ∀ v ∈ vals, Finite v ∧ |val v| ≤ M) (hunderM : f.underflow ≤ f.unitRoundoff * M)
    (hunder : f.underflow * (1 + ρ) ≤ f.unitRoundoff)
    (B : ℚ) (hB : 4 + ρ / 2 ≤ B) (hover : 256 * (B ^ 7 * M * ρ) ≤ f.omega)
    (hover1 : 64 * ρ ≤ f.omega)
    (obs : Fin N → List (Ieee f)) (m : Nat)
    (hobs : ∀ k, (obs k).length = m ∧ ∀ a ∈ obs k, Finite a ∧
      InRange (grids k).length (fun i => ((grids k).map val).getD i 0) (val a)) :
    ∃ reg res, pyInterpn fma dt (List.ofFn obs) (List.ofFn grids) vals "cubic" none lin false
        false atol = .ok (⟨"cubic", reg, dt⟩, res) ∧
      (reg = true ↔ ∀ k, UniformSpacing (grids k)) ∧ res.length = m ∧
      ∀ i pt, PointAt obs i pt → ∃ r y, res[i]? = some r ∧ Finite r ∧
        multicubicAt .flat false (.rectilinear fun k => (grids k).map val) (vals.map val) lin
          (fun k => val (pt k)) = .ok y ∧
        |val r - y| ≤ 4700 * N * ρ * (1 + κ) * f.unitRoundoff *
          (1 + ρ ^ 2 / (2 * (1 + ρ))) ^ N * M := by
  have hu0 := (rounds f).u_nonneg
  have hN1 : (1 : ℚ) ≤ N := by exact_mod_cast h1
  have hM0 := bound_nonneg hG (by norm_num) hvals
  have hlen : ∀ k, 4 ≤ (grids k).length := fun k => by
    have := hG.big k; simpa [Axes.size] using this
  have hlen2 : ∀ k, 2 ≤ (grids k).length := fun k => le_trans (by omega) (hlen k)
  have hpos : ∀ k, 0 < ((grids k).map val).getD 1 0 - ((grids k).map val).getD 0 0 := fun k => by
    have := hG.increasing k 0 (by have := hG.big k; omega)
    simp only [Axes.node] at this
    linarith
  have hfits := cubicImpl_fits (N := N) h1
  have hκu : 0 ≤ (1 + κ) * f.unitRoundoff := by positivity
  have hNρ : (1 + κ) * f.unitRoundoff ≤ N * ρ * ((1 + κ) * f.unitRoundoff) :=
    le_mul_of_one_le_left hκu (by nlinarith)
  have himpl : ∀ x : Fin N → ℚ, multicubicAt (cubicImpl N) fma
      (.rectilinear fun k => (grids k).map val) (vals.map val) lin x =
      multicubicAt .flat false (.rectilinear fun k => (grids k).map val) (vals.map val) lin x :=
    fun x => multicubicAt_impl _ .flat hfits h1 _ _ _ _ _ hG x trivial
  have key : ∀ one : (Fin N → Ieee f) → Res (Ieee f), _ → _ → _ → _ := fun one =>
    interpn_of_points fma dt hdt .cubic lin atol h1 h8 grids hlen2 vals obs m
      (fun k => (hobs k).1)
      (fun pt r => ∃ y, Finite r ∧
        multicubicAt .flat false (.rectilinear fun k => (grids k).map val) (vals.map val) lin
          (fun k => val (pt k)) = .ok y ∧
        |val r - y| ≤ 4700 * N * ρ * (1 + κ) * f.unitRoundoff *
          (1 + ρ ^ 2 / (2 * (1 + ρ))) ^ N * M) one
  suffices hs : ∃ reg res, pyInterpn fma dt (List.ofFn obs) (List.ofFn grids) vals
        PyMethod.cubic.name none lin false
        false atol = .ok (⟨PyMethod.cubic.name, reg, dt⟩, res) ∧
      (reg = true ↔ ∀ k, UniformSpacing (grids k)) ∧ res.length = m ∧
      ∀ i pt, PointAt obs i pt → ∃ r, res[i]? = some r ∧ ∃ y, Finite r ∧
        multicubicAt .flat false (.rectilinear fun k => (grids k).map val) (vals.map val) lin
          (fun k => val (pt k)) = .ok y ∧
        |val r - y| ≤ 4700 * N * ρ * (1 + κ) * f.unitRoundoff *
          (1 + ρ ^ 2 / (2 * (1 + ρ))) ^ N * M by
    obtain ⟨reg, res, a, b, c, d⟩ := hs
    refine ⟨reg, res, a, b, c, fun i pt hi => ?_⟩
    obtain ⟨r, e1, y, e2⟩ := d i pt hi
    exact ⟨r, y, e1, e2⟩
  by_cases hreg : ∀ k, UniformSpacing (grids k)
  · have hdet := fun k => detectedAxis hκ (by linarith) (grids k) (hlen2 k) (hpos k) (hgrid k)
      (hlarge k) (hreg k)
    refine key (multicubicRegularAt (cubicImpl N) fma (fun k => (grids k).length)
      (fun k => (grids k).getD 0 zero)
      (fun k => (grids k).getD 1 zero -. (grids k).getD 0 zero) vals lin)
      (fun _ => C10_C12_multicubic_regular_entry fma h1 h8 _ _ _ vals lin
        (detected_accepted grids vals hG hdet)) (fun h => absurd hreg h) fun pt hpt => ?_
    obtain ⟨r, y, a, b, c, d⟩ := multicubic_detected_ieee hu hη hΩ1 hp (cubicImpl N) hfits h8 fma κ hκ
      ρ hρ hN grids vals lin hG hdet hnormal hlarge hmesh M hvals hunderM
      (le_trans (by
        have h4 : (4 : ℚ) ^ 7 ≤ B ^ 7 := by gcongr; linarith
        have h5 : 4 ^ 7 * M * 1 ≤ B ^ 7 * M * ρ := by gcongr
        linarith) hover) pt
      (fun k => ((hobs k).2 _ (hpt k)).1) (fun k => ((hobs k).2 _ (hpt k)).2)
    exact ⟨r, a, y, b, by rw [← himpl]; exact c, d⟩
  · refine key (multicubicRectilinearAt (cubicImpl N) fma grids vals lin) (fun h => absurd h hreg)
      (fun _ => C10_C12_multicubic_rectilinear_entry fma h1 h8 grids vals lin
        (given_accepted (by omega) grids vals hG fun k a ha => (hgrid k a ha).1)) fun pt hpt => ?_
    have hg2 : ∀ k, ∀ a ∈ grids k, Finite a ∧ 2 * |val a| ≤ f.omega := fun k a ha => by
      have a1 := (hgrid k a ha).2
      have a2 := hlarge k
      have a3 := mul_nonneg hκ (hpos k).le
      exact ⟨(hgrid k a ha).1, by linarith⟩
    have hNρκ : 0 ≤ N * ρ * κ * f.unitRoundoff := by positivity
    have hNρ0 : 0 ≤ N * ρ * f.unitRoundoff := by positivity
    obtain ⟨r, y, a, b, c, d⟩ := multicubic_rectilinear_ieee hu (cubicImpl N) hfits h8 fma grids vals
      lin hG hg2 M hvals pt (fun k => ((hobs k).2 _ (hpt k)).1)
      (fun k => ((hobs k).2 _ (hpt k)).2) ρ hρ hmesh (by linarith) hunder hunderM B (by linarith)
      (le_trans (by
        have : 0 ≤ B ^ 7 * M * ρ := by have : 0 ≤ B := by linarith
                                       positivity
        linarith) hover) hover1
    refine ⟨r, a, y, b, by rw [← himpl]; exact c, d.trans ?_⟩
    gcongr ?_ * _ * _
    linarith

end

section
variable {N : Nat}

/-- C98, `f64`: `interpn(obs, grids, vals, method="cubic")` with 1 to 8 increasing grids of at least 4
nodes, at most `κ` times their first spacing in size, adjacent cells differing in width by a factor of
at most `ρ`, values at most `M` in size and observations in range. The call succeeds; it uses the
regular routine exactly if every grid has uniform spacing, as computed; and every entry of the
returned array is finite and differs from exact multicubic interpolation on the grids as given by at
most `4700 N ρ (1 + κ) 2^-53 Λ^N M` where `Λ = 1 + ρ²/(2 (1 + ρ))`. -/
theorem C98_interpn_cubic_f64 (fma lin : Bool) (atol : F64) (h1 : 1 ≤ N) (h8 : N ≤ 8)
    (κ : ℚ) (hκ : 0 ≤ κ) (ρ : ℚ) (hρ : 1 ≤ ρ) (hN : 4700 * N * ρ * (1 + κ) ≤ 2 ^ 53)
    (grids : Fin N → List F64) (vals : List F64)
    (hG : (Axes.rectilinear fun k => (grids k).map val).Valid 4 (vals.map val))
    (hgrid : ∀ k, ∀ a ∈ grids k, Finite a ∧
      |val a| ≤ κ * (((grids k).map val).getD 1 0 - ((grids k).map val).getD 0 0))
    (hnormal : ∀ k, 1 / 2 ^ 1021 ≤ ((grids k).map val).getD 1 0 - ((grids k).map val).getD 0 0)
    (hlarge : ∀ k, κ * (((grids k).map val).getD 1 0 - ((grids k).map val).getD 0 0) ≤ 2 ^ 1020)
    (hmesh : ∀ k, MeshRatio (grids k).length (fun i => ((grids k).map val).getD i 0) ρ)
    (M : ℚ) (hM : M ≤ 2 ^ 600) (hM1 : 1 / 2 ^ 1022 ≤ M)
    (hvals : ∀ v ∈ vals, Finite v ∧ |val v| ≤ M)
    (obs : Fin N → List F64) (m : Nat)
    (hobs : ∀ k, (obs k).length = m ∧ ∀ a ∈ obs k, Finite a ∧
      InRange (grids k).length (fun i => ((grids k).map val).getD i 0) (val a)) :
    ∃ reg res, pyInterpn fma .float64 (List.ofFn obs) (List.ofFn grids) vals "cubic" none lin
        false false atol = .ok (⟨"cubic", reg, .float64⟩, res) ∧
      (reg = true ↔ ∀ k, UniformSpacing (grids k)) ∧ res.length = m ∧
      ∀ i pt, PointAt obs i pt → ∃ r y, res[i]? = some r ∧ Finite r ∧
        multicubicAt .flat false (.rectilinear fun k => (grids k).map val) (vals.map val) lin
          (fun k => val (pt k)) = .ok y ∧
        |val r - y| ≤ 4700 * N * ρ * (1 + κ) * (1 / 2 ^ 53) *
          (1 + ρ ^ 2 / (2 * (1 + ρ))) ^ N * M := by
  have hΩ := binary64_Ω
  have hN1 : (1 : ℚ) ≤ N := by exact_mod_cast h1
  have hM0 := bound_nonneg hG (by norm_num) hvals
  have hρ2 : ρ ≤ 2 ^ 41 := by
    have h2 : 1 * ρ * 1 ≤ N * ρ * (1 + κ) := by gcongr; linarith
    linarith
  have := interpn_cubic_ieee (f := Format.binary64)
    (by rw [binary64_u, binary64_η]; norm_num) (le_trans (by norm_num) hΩ) le_rfl
    (by rw [binary64_u]; norm_num) fma .float64 (by decide) lin atol h1 h8 κ hκ ρ hρ
    (by rw [binary64_u]; linarith) grids vals hG hgrid
    (fun k => by
      rw [binary64_u, binary64_η]
      have := hnormal k
      have e : 2 * ((1 : ℚ) / 2 ^ 1075) = 1 / 2 ^ 53 * (1 / 2 ^ 1021) := by norm_num
      rw [e]; gcongr)
    (fun k => le_trans (by have := hlarge k; linarith) hΩ) hmesh M hvals
    (by
      rw [binary64_u, binary64_η]
      have e : (1 : ℚ) / 2 ^ 1075 = 1 / 2 ^ 53 * (1 / 2 ^ 1022) := by norm_num
      rw [e]; gcongr)
    (by rw [binary64_u, binary64_η]; linarith) (2 ^ 41) (by linarith)
    (by
      have : (2 ^ 41) ^ 7 * M * ρ ≤ (2 ^ 41) ^ 7 * 2 ^ 600 * 2 ^ 41 := by gcongr
      refine le_trans ?_ hΩ
      linarith)
    (le_trans (by linarith) hΩ) obs m hobs
  rwa [binary64_u] at this

/-- C98, `f32`. -/
theorem C98_interpn_cubic_f32 (fma lin : Bool) (atol : F32) (h1 : 1 ≤ N) (h8 : N ≤ 8)
    (κ : ℚ) (hκ : 0 ≤ κ) (ρ : ℚ) (hρ : 1 ≤ ρ) (hN : 4700 * N * ρ * (1 + κ) ≤ 2 ^ 24)
    (grids : Fin N → List F32) (vals : List F32)
    (hG : (Axes.rectilinear fun k => (grids k).map val).Valid 4 (vals.map val))
    (hgrid : ∀ k, ∀ a ∈ grids k, Finite a ∧
      |val a| ≤ κ * (((grids k).map val).getD 1 0 - ((grids k).map val).getD 0 0))
    (hnormal : ∀ k, 1 / 2 ^ 125 ≤ ((grids k).map val).getD 1 0 - ((grids k).map val).getD 0 0)
    (hlarge : ∀ k, κ * (((grids k).map val).getD 1 0 - ((grids k).map val).getD 0 0) ≤ 2 ^ 124)
    (hmesh : ∀ k, MeshRatio (grids k).length (fun i => ((grids k).map val).getD i 0) ρ)
    (M : ℚ) (hM : M ≤ 2 ^ 20) (hM1 : 1 / 2 ^ 126 ≤ M)
    (hvals : ∀ v ∈ vals, Finite v ∧ |val v| ≤ M)
    (obs : Fin N → List F32) (m : Nat)
    (hobs : ∀ k, (obs k).length = m ∧ ∀ a ∈ obs k, Finite a ∧
      InRange (grids k).length (fun i => ((grids k).map val).getD i 0) (val a)) :
    ∃ reg res, pyInterpn fma .float32 (List.ofFn obs) (List.ofFn grids) vals "cubic" none lin
        false false atol = .ok (⟨"cubic", reg, .float32⟩, res) ∧
      (reg = true ↔ ∀ k, UniformSpacing (grids k)) ∧ res.length = m ∧
      ∀ i pt, PointAt obs i pt → ∃ r y, res[i]? = some r ∧ Finite r ∧
        multicubicAt .flat false (.rectilinear fun k => (grids k).map val) (vals.map val) lin
          (fun k => val (pt k)) = .ok y ∧
        |val r - y| ≤ 4700 * N * ρ * (1 + κ) * (1 / 2 ^ 24) *
          (1 + ρ ^ 2 / (2 * (1 + ρ))) ^ N * M := by
  have hΩ := binary32_Ω
  have hN1 : (1 : ℚ) ≤ N := by exact_mod_cast h1
  have hM0 := bound_nonneg hG (by norm_num) hvals
  have hρ2 : ρ ≤ 3570 := by
    have h2 : 1 * ρ * 1 ≤ N * ρ * (1 + κ) := by gcongr; linarith
    linarith
  have := interpn_cubic_ieee (f := Format.binary32)
    (by rw [binary32_u, binary32_η]; norm_num) (le_trans (by norm_num) hΩ) (by decide)
    (by rw [binary32_u]; norm_num) fma .float32 (by decide) lin atol h1 h8 κ hκ ρ hρ
    (by rw [binary32_u]; linarith) grids vals hG hgrid
    (fun k => by
      rw [binary32_u, binary32_η]
      have := hnormal k
      have e : 2 * ((1 : ℚ) / 2 ^ 150) = 1 / 2 ^ 24 * (1 / 2 ^ 125) := by norm_num
      rw [e]; gcongr)
    (fun k => le_trans (by have := hlarge k; linarith) hΩ) hmesh M hvals
    (by
      rw [binary32_u, binary32_η]
      have e : (1 : ℚ) / 2 ^ 150 = 1 / 2 ^ 24 * (1 / 2 ^ 126) := by norm_num
      rw [e]; gcongr)
    (by rw [binary32_u, binary32_η]; linarith) (2 ^ 11) (by linarith)
    (by
      have : (2 ^ 11) ^ 7 * M * ρ ≤ (2 ^ 11) ^ 7 * 2 ^ 20 * 3570 := by gcongr
      refine le_trans ?_ hΩ
      linarith)
    (le_trans (by linarith) hΩ) obs m hobs
  rwa [binary32_u] at this

end

/-! ### Concrete cases -/

/-- Four nodes near 0, 1, 2, 3 whose computed spacings agree although the nodes are not exactly
evenly spaced. -/
def almostUniform4 : List F64 := [q64 (1 / 2 ^ 60), q64 1, q64 2, q64 3]

theorem almostUniform4_passes : UniformSpacing almostUniform4 := uniform_of_check (by decide +kernel)

/-- Hypotheses of `C98_interpn_cubic_f64` are satisfied by two grids that pass the check. -/
example : ∃ res, pyInterpn true .float64 [[q64 (1 / 3), q64 (1 / 2 ^ 60)], [q64 (5 / 3), q64 1]]
      [almostUniform4, [q64 1, q64 3, q64 5, q64 7, q64 9]] exVals64c "cubic" none true false false
        (q64 0) = .ok (⟨"cubic", true, .float64⟩, res) ∧ res.length = 2 := by
  obtain ⟨reg, res, h1, h2, h3, -⟩ := C98_interpn_cubic_f64 (N := 2) true true (q64 0) (by decide)
    (by decide) 5 (by norm_num) 2 (by norm_num) (by norm_num)
    ![almostUniform4, [q64 1, q64 3, q64 5, q64 7, q64 9]]
    exVals64c (valid_of_check (by decide +kernel)) (by decide +kernel) (by decide +kernel)
    (by decide +kernel) (fun k => meshRatio_of_check (by revert k; decide +kernel)) 16
    (by norm_num) (by norm_num) (by decide +kernel)
    ![[q64 (1 / 3), q64 (1 / 2 ^ 60)], [q64 (5 / 3), q64 1]] 2 (by unfold InRange; decide +kernel)
  have hreg : reg = true := h2.2 fun k => by
    match k with
    | 0 => exact almostUniform4_passes
    | 1 => exact uniform_of_check (by decide +kernel)
  subst hreg
  exact ⟨res, h1, h3⟩

/-- On `linspace(0, 1, 11)` the rectilinear routine is used; the entry for 0.33 is within 10⁻⁸ of the
exact interpolant of the stored values. -/
example : ∃ res r y, pyInterpn false .float64 [[q64 (33 / 100)]] [linspace01]
      ((List.range 11).map fun i => q64 (i * i)) "cubic" none false false false (q64 0) =
        .ok (⟨"cubic", false, .float64⟩, res) ∧ res[0]? = some r ∧
      multicubicAt .flat false (.rectilinear fun k : Fin 1 => (![linspace01] k).map val)
        (((List.range 11).map fun i => q64 (i * i)).map val) false
        (fun k => val (![q64 (33 / 100)] k)) = .ok y ∧ |val r - y| ≤ 1 / 10 ^ 8 := by
  obtain ⟨reg, res, h1, h2, h3, h4⟩ := C98_interpn_cubic_f64 (N := 1) false false (q64 0)
    (by decide) (by decide) 11 (by norm_num) 2 (by norm_num) (by norm_num) ![linspace01]
    ((List.range 11).map fun i => q64 (i * i)) (valid_of_check (by decide +kernel))
    (by decide +kernel) (by decide +kernel) (by decide +kernel)
    (fun k => meshRatio_of_check (by revert k; decide +kernel)) 100 (by norm_num) (by norm_num)
    (by decide +kernel) ![[q64 (33 / 100)]] 1 (by unfold InRange; decide +kernel)
  have hreg : reg = false := by
    cases reg
    · rfl
    · exact absurd (h2.1 rfl 0) C92_linspace_not_detected
  subst hreg
  obtain ⟨r, y, a, -, b, c⟩ := h4 0 ![q64 (33 / 100)] (fun k => by
    match k with
    | 0 => rfl)
  exact ⟨res, r, y, h1, a, b, c.trans (by norm_num)⟩

/-- Hypotheses of `C98_interpn_cubic_f32` are satisfied. -/
example : ∃ reg res, pyInterpn false .float32 [[q32 (1 / 3)], [q32 (5 / 3)]]
      (List.ofFn exGrids32c) exVals32c "cubic" none false false false (q32 0) =
        .ok (⟨"cubic", reg, .float32⟩, res) ∧ res.length = 1 := by
  obtain ⟨reg, res, h1, -, h3, -⟩ := C98_interpn_cubic_f32 (N := 2) false false (q32 0) (by decide)
    (by decide) 6 (by norm_num) 2 (by norm_num) (by norm_num) exGrids32c exVals32c
    (valid_of_check (by decide +kernel)) (by decide +kernel) (by decide +kernel) (by decide +kernel)
    (fun k => meshRatio_of_check (by revert k; decide +kernel)) 16 (by norm_num) (by norm_num)
    (by decide +kernel) ![[q32 (1 / 3)], [q32 (5 / 3)]] 1 (by unfold InRange; decide +kernel)
  exact ⟨reg, res, h1, h3⟩

end Interpn
