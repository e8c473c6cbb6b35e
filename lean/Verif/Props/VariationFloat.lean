import Verif.Props.Variation
import Verif.Props.IeeeAccuracy
import Verif.Props.IeeeCubic

/-! C136 for multilinear and multicubic interpolation in `f64` and `f32`: the bound of exact arithmetic and the
rounding error of each result. -/

set_option autoImplicit false
set_option linter.unusedSectionVars false

namespace Interpn
open Ieee

/-- A sequence within `E` of another varies by at most `2 m E` more. -/
theorem near_variation {m : Nat} (a b : Nat → ℚ) (E : ℚ) (h : ∀ i ≤ m, |a i - b i| ≤ E) :
    ∑ i ∈ Finset.range m, |a (i + 1) - a i| ≤
      ∑ i ∈ Finset.range m, |b (i + 1) - b i| + 2 * m * E := by
  have h1 : ∀ i ∈ Finset.range m, |a (i + 1) - a i| ≤ |b (i + 1) - b i| + 2 * E := by
    intro i hi
    rw [Finset.mem_range] at hi
    have e1 := abs_le.1 (h i hi.le)
    have e2 := abs_le.1 (h (i + 1) hi)
    have e3 := abs_le.1 (le_refl |b (i + 1) - b i|)
    rw [abs_le]
    constructor <;> linarith
  refine (Finset.sum_le_sum h1).trans (le_of_eq ?_)
  rw [Finset.sum_add_distrib, Finset.sum_const, Finset.card_range, nsmul_eq_mul]
  ring

section
variable {N : Nat}

/-- Values of a point moved along axis `j`. -/
theorem val_update {f : Format} (x : Fin N → Ieee f) (j : Fin N) (z : Ieee f) :
    (fun k => val (Function.update x j z k)) = Function.update (fun k => val (x k)) j (val z) := by
  funext k
  by_cases h : k = j
  · subst h; simp
  · simp [h]

theorem finite_update {f : Format} {x : Fin N → Ieee f} (hx : ∀ k, Finite (x k)) (j : Fin N)
    {z : Ieee f} (hz : Finite z) (k : Fin N) : Finite (Function.update x j z k) := by
  by_cases h : k = j
  · subst h; simpa using hz
  · simpa [h] using hx k

/-- A sweep through results that vary by at most `W` in exact arithmetic, each with a rounding error of
at most `E`. -/
theorem variation_float {f : Format} (n : Fin N → Nat) (node : Fin N → Nat → ℚ)
    (A : (Fin N → ℚ) → Res ℚ) (E W : ℚ) (F : (Fin N → Ieee f) → Res (Ieee f))
    (hF : ∀ x : Fin N → Ieee f, (∀ k, Finite (x k)) → (∀ k, InRange (n k) (node k) (val (x k))) →
      ∃ r y, F x = .ok r ∧ Finite r ∧ A (fun k => val (x k)) = .ok y ∧ |val r - y| ≤ E)
    (x : Fin N → Ieee f) (j : Fin N) (hfx : ∀ k, Finite (x k))
    (hx : ∀ k, InRange (n k) (node k) (val (x k))) (m : Nat) (z : Nat → Ieee f)
    (hfz : ∀ i ≤ m, Finite (z i)) (hin : ∀ i ≤ m, InRange (n j) (node j) (val (z i)))
    (hA : ∃ y : Nat → ℚ, (∀ i ≤ m, A (Function.update (fun k => val (x k)) j (val (z i))) = .ok (y i)) ∧
      ∑ i ∈ Finset.range m, |y (i + 1) - y i| ≤ W) :
    ∃ r : Nat → Ieee f, (∀ i ≤ m, F (Function.update x j (z i)) = .ok (r i) ∧ Finite (r i)) ∧
      ∑ i ∈ Finset.range m, |val (r (i + 1)) - val (r i)| ≤ W + 2 * m * E := by
  obtain ⟨y, hy, hyV⟩ := hA
  have h : ∀ i : Nat, ∃ r : Ieee f, i ≤ m → F (Function.update x j (z i)) = .ok r ∧ Finite r ∧
      |val r - y i| ≤ E := by
    intro i
    by_cases hi : i ≤ m
    · obtain ⟨r, w, h1, h2, h3, h4⟩ := hF (Function.update x j (z i)) (finite_update hfx j (hfz i hi))
        (fun k => by
          by_cases h : k = j
          · subst h; simpa using hin i hi
          · simpa [h] using hx k)
      rw [val_update, hy i hi] at h3
      cases h3
      exact ⟨r, fun _ => ⟨h1, h2, h4⟩⟩
    · exact ⟨z i, fun h => absurd h hi⟩
  choose r hr using h
  exact ⟨r, fun i hi => ⟨(hr i hi).1, (hr i hi).2.1⟩,
    (near_variation _ y E fun i hi => (hr i hi).2.2).trans (by linarith)⟩

/-- C136, `f64` on a rectilinear grid. -/
theorem C136_rectilinear_f64 (e : Evaluator) (he : e.Fits N) (hN : N ≤ 1000) (fma : Bool)
    (grids : Fin N → List F64) (vals : List F64)
    (hG : (Axes.rectilinear fun k => (grids k).map val).Valid 2 (vals.map val))
    (hgrid : ∀ k, ∀ a ∈ grids k, Finite a ∧ |val a| ≤ 2 ^ 1022) (M : ℚ) (hM : M ≤ 2 ^ 1020)
    (hvals : ∀ v ∈ vals, Finite v ∧ |val v| ≤ M) (g : (Fin N → Nat) → ℚ)
    (hg : Samples (fun k => (grids k).length) (vals.map val) g) (j : Fin N) (V : ℚ)
    (hV : ∀ loc : Fin N → Nat, (∀ k, loc k < (grids k).length) →
      ∑ i ∈ Finset.range ((grids j).length - 1),
        |g (Function.update loc j (i + 1)) - g (Function.update loc j i)| ≤ V)
    (x : Fin N → F64) (hfx : ∀ k, Finite (x k))
    (hx : ∀ k, InRange (grids k).length (fun i => ((grids k).map val).getD i 0) (val (x k)))
    (m : Nat) (z : Nat → F64) (hfz : ∀ i ≤ m, Finite (z i)) (hz : ∀ i < m, val (z i) ≤ val (z (i + 1)))
    (hin : ∀ i ≤ m, InRange (grids j).length (fun i => ((grids j).map val).getD i 0) (val (z i))) :
    ∃ r : Nat → F64, (∀ i ≤ m, multilinearRectilinearAt e fma grids vals (Function.update x j (z i)) =
      .ok (r i) ∧ Finite (r i)) ∧ ∑ i ∈ Finset.range m, |val (r (i + 1)) - val (r i)| ≤
        V + 2 * m * (26 * N * (1 / 2 ^ 53) * M + 3 * N * (1 / 2 ^ 1075)) := by
  have hsz : (Axes.rectilinear fun k => (grids k).map val : Axes ℚ N).size =
      fun k => (grids k).length := by funext k; simp [Axes.size]
  refine variation_float _ (fun k i => ((grids k).map val).getD i 0) _ _ V _ (fun x hfx hx =>
    C81_rectilinear_f64 e he hN fma grids vals hG hgrid M hM hvals x hfx hx) x j hfx hx m z hfz hin ?_
  exact C136_multilinear e he fma _ _ hG g (by rwa [hsz]) j V (by simpa only [hsz] using hV) _
    (by simp only [hsz]; exact hx) m _ hz (by simp only [hsz]; exact hin)

/-- C136, `f32` on a rectilinear grid. -/
theorem C136_rectilinear_f32 (e : Evaluator) (he : e.Fits N) (hN : N ≤ 1000) (fma : Bool)
    (grids : Fin N → List F32) (vals : List F32)
    (hG : (Axes.rectilinear fun k => (grids k).map val).Valid 2 (vals.map val))
    (hgrid : ∀ k, ∀ a ∈ grids k, Finite a ∧ |val a| ≤ 2 ^ 126) (M : ℚ) (hM : M ≤ 2 ^ 124)
    (hvals : ∀ v ∈ vals, Finite v ∧ |val v| ≤ M) (g : (Fin N → Nat) → ℚ)
    (hg : Samples (fun k => (grids k).length) (vals.map val) g) (j : Fin N) (V : ℚ)
    (hV : ∀ loc : Fin N → Nat, (∀ k, loc k < (grids k).length) →
      ∑ i ∈ Finset.range ((grids j).length - 1),
        |g (Function.update loc j (i + 1)) - g (Function.update loc j i)| ≤ V)
    (x : Fin N → F32) (hfx : ∀ k, Finite (x k))
    (hx : ∀ k, InRange (grids k).length (fun i => ((grids k).map val).getD i 0) (val (x k)))
    (m : Nat) (z : Nat → F32) (hfz : ∀ i ≤ m, Finite (z i)) (hz : ∀ i < m, val (z i) ≤ val (z (i + 1)))
    (hin : ∀ i ≤ m, InRange (grids j).length (fun i => ((grids j).map val).getD i 0) (val (z i))) :
    ∃ r : Nat → F32, (∀ i ≤ m, multilinearRectilinearAt e fma grids vals (Function.update x j (z i)) =
      .ok (r i) ∧ Finite (r i)) ∧ ∑ i ∈ Finset.range m, |val (r (i + 1)) - val (r i)| ≤
        V + 2 * m * (26 * N * (1 / 2 ^ 24) * M + 3 * N * (1 / 2 ^ 150)) := by
  have hsz : (Axes.rectilinear fun k => (grids k).map val : Axes ℚ N).size =
      fun k => (grids k).length := by funext k; simp [Axes.size]
  refine variation_float _ (fun k i => ((grids k).map val).getD i 0) _ _ V _ (fun x hfx hx =>
    C81_rectilinear_f32 e he hN fma grids vals hG hgrid M hM hvals x hfx hx) x j hfx hx m z hfz hin ?_
  exact C136_multilinear e he fma _ _ hG g (by rwa [hsz]) j V (by simpa only [hsz] using hV) _
    (by simp only [hsz]; exact hx) m _ hz (by simp only [hsz]; exact hin)

/-- C136, `f64` on a regular grid. `κ` bounds the nodes in units of the step. -/
theorem C136_regular_f64 (e : Evaluator) (he : e.Fits N) (fma : Bool) (κ : ℚ) (hκ : 0 ≤ κ)
    (hN : 100 * N * (1 + κ) ≤ 2 ^ 53) (dims : Fin N → Nat) (starts steps : Fin N → F64)
    (vals : List F64)
    (hG : (Axes.regular dims (fun k => val (starts k)) fun k => val (steps k)).Valid 2 (vals.map val))
    (hfin : ∀ k, Finite (starts k) ∧ Finite (steps k)) (hnormal : ∀ k, 1 / 2 ^ 1022 ≤ val (steps k))
    (hnodes : ∀ k, |val (starts k)| ≤ κ * val (steps k) ∧
      |val (starts k) + val (steps k) * ((dims k - 1 : Nat) : ℚ)| ≤ κ * val (steps k))
    (hlarge : ∀ k, κ * val (steps k) ≤ 2 ^ 1020) (M : ℚ) (hM : M ≤ 2 ^ 1020)
    (hvals : ∀ v ∈ vals, Finite v ∧ |val v| ≤ M) (g : (Fin N → Nat) → ℚ)
    (hg : Samples dims (vals.map val) g) (j : Fin N) (V : ℚ)
    (hV : ∀ loc : Fin N → Nat, (∀ k, loc k < dims k) → ∑ i ∈ Finset.range (dims j - 1),
      |g (Function.update loc j (i + 1)) - g (Function.update loc j i)| ≤ V)
    (x : Fin N → F64) (hfx : ∀ k, Finite (x k))
    (hx : ∀ k, InRange (dims k) (fun i => val (starts k) + val (steps k) * (i : ℚ)) (val (x k)))
    (m : Nat) (z : Nat → F64) (hfz : ∀ i ≤ m, Finite (z i)) (hz : ∀ i < m, val (z i) ≤ val (z (i + 1)))
    (hin : ∀ i ≤ m, InRange (dims j) (fun i => val (starts j) + val (steps j) * (i : ℚ)) (val (z i))) :
    ∃ r : Nat → F64, (∀ i ≤ m, multilinearRegularAt e fma dims starts steps vals
      (Function.update x j (z i)) = .ok (r i) ∧ Finite (r i)) ∧
      ∑ i ∈ Finset.range m, |val (r (i + 1)) - val (r i)| ≤
        V + 2 * m * (60 * N * (1 + κ) * (1 / 2 ^ 53) * M + 3 * N * (1 / 2 ^ 1075)) :=
  variation_float _ (fun k i => val (starts k) + val (steps k) * (i : ℚ)) _ _ V _ (fun x hfx hx =>
    C81_regular_f64 e he fma κ hκ hN dims starts steps vals hG hfin hnormal hnodes
      hlarge M hM hvals x hfx hx) x j hfx hx m z hfz hin
    (C136_multilinear e he fma _ _ hG g hg j V hV _ hx m _ hz hin)

/-- C136, `f32` on a regular grid. `κ` bounds the nodes in units of the step. -/
theorem C136_regular_f32 (e : Evaluator) (he : e.Fits N) (fma : Bool) (κ : ℚ) (hκ : 0 ≤ κ)
    (hN : 100 * N * (1 + κ) ≤ 2 ^ 24) (dims : Fin N → Nat) (starts steps : Fin N → F32)
    (vals : List F32)
    (hG : (Axes.regular dims (fun k => val (starts k)) fun k => val (steps k)).Valid 2 (vals.map val))
    (hfin : ∀ k, Finite (starts k) ∧ Finite (steps k)) (hnormal : ∀ k, 1 / 2 ^ 126 ≤ val (steps k))
    (hnodes : ∀ k, |val (starts k)| ≤ κ * val (steps k) ∧
      |val (starts k) + val (steps k) * ((dims k - 1 : Nat) : ℚ)| ≤ κ * val (steps k))
    (hlarge : ∀ k, κ * val (steps k) ≤ 2 ^ 124) (M : ℚ) (hM : M ≤ 2 ^ 124)
    (hvals : ∀ v ∈ vals, Finite v ∧ |val v| ≤ M) (g : (Fin N → Nat) → ℚ)
    (hg : Samples dims (vals.map val) g) (j : Fin N) (V : ℚ)
    (hV : ∀ loc : Fin N → Nat, (∀ k, loc k < dims k) → ∑ i ∈ Finset.range (dims j - 1),
      |g (Function.update loc j (i + 1)) - g (Function.update loc j i)| ≤ V)
    (x : Fin N → F32) (hfx : ∀ k, Finite (x k))
    (hx : ∀ k, InRange (dims k) (fun i => val (starts k) + val (steps k) * (i : ℚ)) (val (x k)))
    (m : Nat) (z : Nat → F32) (hfz : ∀ i ≤ m, Finite (z i)) (hz : ∀ i < m, val (z i) ≤ val (z (i + 1)))
    (hin : ∀ i ≤ m, InRange (dims j) (fun i => val (starts j) + val (steps j) * (i : ℚ)) (val (z i))) :
    ∃ r : Nat → F32, (∀ i ≤ m, multilinearRegularAt e fma dims starts steps vals
      (Function.update x j (z i)) = .ok (r i) ∧ Finite (r i)) ∧
      ∑ i ∈ Finset.range m, |val (r (i + 1)) - val (r i)| ≤
        V + 2 * m * (60 * N * (1 + κ) * (1 / 2 ^ 24) * M + 3 * N * (1 / 2 ^ 150)) :=
  variation_float _ (fun k i => val (starts k) + val (steps k) * (i : ℚ)) _ _ V _ (fun x hfx hx =>
    C81_regular_f32 e he fma κ hκ hN dims starts steps vals hG hfin hnormal hnodes
      hlarge M hM hvals x hfx hx) x j hfx hx m z hfz hin
    (C136_multilinear e he fma _ _ hG g hg j V hV _ hx m _ hz hin)

/-- C136, multicubic in `f64` on a rectilinear grid. -/
theorem C136_cubic_rectilinear_f64 (e : Evaluator) (he : e.Fits N) (hN8 : N ≤ 8) (fma : Bool)
    (grids : Fin N → List F64) (vals : List F64) (lin : Bool)
    (hG : (Axes.rectilinear fun k => (grids k).map val).Valid 4 (vals.map val))
    (hgrid : ∀ k, ∀ a ∈ grids k, Finite a ∧ |val a| ≤ 2 ^ 1022)
    (M : ℚ) (hM : M ≤ 2 ^ 700) (hM1 : 1 / 2 ^ 1022 ≤ M)
    (hvals : ∀ v ∈ vals, Finite v ∧ |val v| ≤ M) (ρ : ℚ) (hρ : 1 ≤ ρ) (hρ2 : ρ ≤ 2 ^ 30)
    (hmesh : ∀ k, MeshRatio (grids k).length (fun i => ((grids k).map val).getD i 0) ρ)
    (g : (Fin N → Nat) → ℚ) (hg : Samples (fun k => (grids k).length) (vals.map val) g) (j : Fin N)
    (V : ℚ) (hV : ∀ loc : Fin N → Nat, (∀ k, loc k < (grids k).length) →
      ∑ i ∈ Finset.range ((grids j).length - 1),
        |g (Function.update loc j (i + 1)) - g (Function.update loc j i)| ≤ V)
    (x : Fin N → F64) (hfx : ∀ k, Finite (x k))
    (hx : ∀ k, InRange (grids k).length (fun i => ((grids k).map val).getD i 0) (val (x k)))
    (m : Nat) (z : Nat → F64) (hfz : ∀ i ≤ m, Finite (z i)) (hz : ∀ i < m, val (z i) ≤ val (z (i + 1)))
    (hin : ∀ i ≤ m, InRange (grids j).length (fun i => ((grids j).map val).getD i 0) (val (z i))) :
    ∃ r : Nat → F64, (∀ i ≤ m, multicubicRectilinearAt e fma grids vals lin
      (Function.update x j (z i)) = .ok (r i) ∧ Finite (r i)) ∧
      ∑ i ∈ Finset.range m, |val (r (i + 1)) - val (r i)| ≤
        (1 + 6 * ρ ^ 2 / (1 + ρ)) * (1 + ρ ^ 2 / (2 * (1 + ρ))) ^ (N - 1) * V +
          2 * m * (3200 * N * ρ * (1 / 2 ^ 53) * (1 + ρ ^ 2 / (2 * (1 + ρ))) ^ N * M) := by
  have hsz : (Axes.rectilinear fun k => (grids k).map val : Axes ℚ N).size =
      fun k => (grids k).length := by funext k; simp [Axes.size]
  refine variation_float _ (fun k i => ((grids k).map val).getD i 0) _ _ _ _ (fun x hfx hx =>
    C82_rectilinear_f64 e he hN8 fma grids vals lin hG hgrid M hM hM1 hvals x hfx hx ρ hρ hρ2 hmesh)
    x j hfx hx m z hfz hin ?_
  exact C136_multicubic e he fma _ _ lin hG g (by rwa [hsz]) ρ (by simp only [hsz]; exact hmesh) j V
    (by simpa only [hsz] using hV) _ (by simp only [hsz]; exact hx) m _ hz (by simp only [hsz]; exact hin)

/-- C136, multicubic in `f32` on a rectilinear grid. -/
theorem C136_cubic_rectilinear_f32 (e : Evaluator) (he : e.Fits N) (hN8 : N ≤ 8) (fma : Bool)
    (grids : Fin N → List F32) (vals : List F32) (lin : Bool)
    (hG : (Axes.rectilinear fun k => (grids k).map val).Valid 4 (vals.map val))
    (hgrid : ∀ k, ∀ a ∈ grids k, Finite a ∧ |val a| ≤ 2 ^ 126)
    (M : ℚ) (hM : M ≤ 2 ^ 40) (hM1 : 1 / 2 ^ 126 ≤ M)
    (hvals : ∀ v ∈ vals, Finite v ∧ |val v| ≤ M) (ρ : ℚ) (hρ : 1 ≤ ρ) (hρ2 : ρ ≤ 2 ^ 9)
    (hmesh : ∀ k, MeshRatio (grids k).length (fun i => ((grids k).map val).getD i 0) ρ)
    (g : (Fin N → Nat) → ℚ) (hg : Samples (fun k => (grids k).length) (vals.map val) g) (j : Fin N)
    (V : ℚ) (hV : ∀ loc : Fin N → Nat, (∀ k, loc k < (grids k).length) →
      ∑ i ∈ Finset.range ((grids j).length - 1),
        |g (Function.update loc j (i + 1)) - g (Function.update loc j i)| ≤ V)
    (x : Fin N → F32) (hfx : ∀ k, Finite (x k))
    (hx : ∀ k, InRange (grids k).length (fun i => ((grids k).map val).getD i 0) (val (x k)))
    (m : Nat) (z : Nat → F32) (hfz : ∀ i ≤ m, Finite (z i)) (hz : ∀ i < m, val (z i) ≤ val (z (i + 1)))
    (hin : ∀ i ≤ m, InRange (grids j).length (fun i => ((grids j).map val).getD i 0) (val (z i))) :
    ∃ r : Nat → F32, (∀ i ≤ m, multicubicRectilinearAt e fma grids vals lin
      (Function.update x j (z i)) = .ok (r i) ∧ Finite (r i)) ∧
      ∑ i ∈ Finset.range m, |val (r (i + 1)) - val (r i)| ≤
        (1 + 6 * ρ ^ 2 / (1 + ρ)) * (1 + ρ ^ 2 / (2 * (1 + ρ))) ^ (N - 1) * V +
          2 * m * (3200 * N * ρ * (1 / 2 ^ 24) * (1 + ρ ^ 2 / (2 * (1 + ρ))) ^ N * M) := by
  have hsz : (Axes.rectilinear fun k => (grids k).map val : Axes ℚ N).size =
      fun k => (grids k).length := by funext k; simp [Axes.size]
  refine variation_float _ (fun k i => ((grids k).map val).getD i 0) _ _ _ _ (fun x hfx hx =>
    C82_rectilinear_f32 e he hN8 fma grids vals lin hG hgrid M hM hM1 hvals x hfx hx ρ hρ hρ2 hmesh)
    x j hfx hx m z hfz hin ?_
  exact C136_multicubic e he fma _ _ lin hG g (by rwa [hsz]) ρ (by simp only [hsz]; exact hmesh) j V
    (by simpa only [hsz] using hV) _ (by simp only [hsz]; exact hx) m _ hz (by simp only [hsz]; exact hin)

/-- C136, multicubic in `f64` on a regular grid. -/
theorem C136_cubic_regular_f64 (e : Evaluator) (he : e.Fits N) (hN8 : N ≤ 8) (fma : Bool) (κ : ℚ)
    (hκ : 0 ≤ κ) (hN : 4200 * N * (1 + κ) ≤ 2 ^ 53)
    (dims : Fin N → Nat) (starts steps : Fin N → F64) (vals : List F64) (lin : Bool)
    (hG : (Axes.regular dims (fun k => val (starts k)) fun k => val (steps k)).Valid 4
      (vals.map val))
    (hfin : ∀ k, Finite (starts k) ∧ Finite (steps k)) (hnormal : ∀ k, 1 / 2 ^ 1022 ≤ val (steps k))
    (hnodes : ∀ k, |val (starts k)| ≤ κ * val (steps k) ∧
      |val (starts k) + val (steps k) * ((dims k - 1 : Nat) : ℚ)| ≤ κ * val (steps k))
    (hlarge : ∀ k, κ * val (steps k) ≤ 2 ^ 1020)
    (M : ℚ) (hM : M ≤ 2 ^ 1000) (hM1 : 1 / 2 ^ 1022 ≤ M)
    (hvals : ∀ v ∈ vals, Finite v ∧ |val v| ≤ M) (g : (Fin N → Nat) → ℚ)
    (hg : Samples dims (vals.map val) g) (j : Fin N) (V : ℚ)
    (hV : ∀ loc : Fin N → Nat, (∀ k, loc k < dims k) → ∑ i ∈ Finset.range (dims j - 1),
      |g (Function.update loc j (i + 1)) - g (Function.update loc j i)| ≤ V)
    (x : Fin N → F64) (hfx : ∀ k, Finite (x k))
    (hx : ∀ k, InRange (dims k) (fun i => val (starts k) + val (steps k) * (i : ℚ)) (val (x k)))
    (m : Nat) (z : Nat → F64) (hfz : ∀ i ≤ m, Finite (z i)) (hz : ∀ i < m, val (z i) ≤ val (z (i + 1)))
    (hin : ∀ i ≤ m, InRange (dims j) (fun i => val (starts j) + val (steps j) * (i : ℚ)) (val (z i))) :
    ∃ r : Nat → F64, (∀ i ≤ m, multicubicRegularAt e fma dims starts steps vals lin
      (Function.update x j (z i)) = .ok (r i) ∧ Finite (r i)) ∧
      ∑ i ∈ Finset.range m, |val (r (i + 1)) - val (r i)| ≤ 4 * (5 / 4) ^ (N - 1) * V +
        2 * m * (4200 * N * (1 + κ) * (1 / 2 ^ 53) * (5 / 4) ^ N * M) :=
  variation_float _ (fun k i => val (starts k) + val (steps k) * (i : ℚ)) _ _ _ _ (fun x hfx hx =>
    C82_regular_f64 e he hN8 fma κ hκ hN dims starts steps vals lin hG hfin hnormal hnodes
      hlarge M hM hM1 hvals x hfx hx) x j hfx hx m z hfz hin
    (C136_multicubic_regular e he fma _ _ _ _ lin hG g hg j V hV _ hx m _ hz hin)

/-- C136, multicubic in `f32` on a regular grid. -/
theorem C136_cubic_regular_f32 (e : Evaluator) (he : e.Fits N) (hN8 : N ≤ 8) (fma : Bool) (κ : ℚ)
    (hκ : 0 ≤ κ) (hN : 4200 * N * (1 + κ) ≤ 2 ^ 24)
    (dims : Fin N → Nat) (starts steps : Fin N → F32) (vals : List F32) (lin : Bool)
    (hG : (Axes.regular dims (fun k => val (starts k)) fun k => val (steps k)).Valid 4
      (vals.map val))
    (hfin : ∀ k, Finite (starts k) ∧ Finite (steps k)) (hnormal : ∀ k, 1 / 2 ^ 126 ≤ val (steps k))
    (hnodes : ∀ k, |val (starts k)| ≤ κ * val (steps k) ∧
      |val (starts k) + val (steps k) * ((dims k - 1 : Nat) : ℚ)| ≤ κ * val (steps k))
    (hlarge : ∀ k, κ * val (steps k) ≤ 2 ^ 124)
    (M : ℚ) (hM : M ≤ 2 ^ 110) (hM1 : 1 / 2 ^ 126 ≤ M)
    (hvals : ∀ v ∈ vals, Finite v ∧ |val v| ≤ M) (g : (Fin N → Nat) → ℚ)
    (hg : Samples dims (vals.map val) g) (j : Fin N) (V : ℚ)
    (hV : ∀ loc : Fin N → Nat, (∀ k, loc k < dims k) → ∑ i ∈ Finset.range (dims j - 1),
      |g (Function.update loc j (i + 1)) - g (Function.update loc j i)| ≤ V)
    (x : Fin N → F32) (hfx : ∀ k, Finite (x k))
    (hx : ∀ k, InRange (dims k) (fun i => val (starts k) + val (steps k) * (i : ℚ)) (val (x k)))
    (m : Nat) (z : Nat → F32) (hfz : ∀ i ≤ m, Finite (z i)) (hz : ∀ i < m, val (z i) ≤ val (z (i + 1)))
    (hin : ∀ i ≤ m, InRange (dims j) (fun i => val (starts j) + val (steps j) * (i : ℚ)) (val (z i))) :
    ∃ r : Nat → F32, (∀ i ≤ m, multicubicRegularAt e fma dims starts steps vals lin
      (Function.update x j (z i)) = .ok (r i) ∧ Finite (r i)) ∧
      ∑ i ∈ Finset.range m, |val (r (i + 1)) - val (r i)| ≤ 4 * (5 / 4) ^ (N - 1) * V +
        2 * m * (4200 * N * (1 + κ) * (1 / 2 ^ 24) * (5 / 4) ^ N * M) :=
  variation_float _ (fun k i => val (starts k) + val (steps k) * (i : ℚ)) _ _ _ _ (fun x hfx hx =>
    C82_regular_f32 e he hN8 fma κ hκ hN dims starts steps vals lin hG hfin hnormal hnodes
      hlarge M hM hM1 hvals x hfx hx) x j hfx hx m z hfz hin
    (C136_multicubic_regular e he fma _ _ _ _ lin hG g hg j V hV _ hx m _ hz hin)

end

section Examples

set_option exponentiation.threshold 1100

/-- A hundred steps through a table of variation 5: at most 5.0000000001. -/
example (x : Fin 1 → F64) (hfx : ∀ k, Finite (x k))
    (hx : ∀ k : Fin 1, InRange 3 (fun i => ([q64 0, q64 (1 / 10), q64 4].map val).getD i 0) (val (x k)))
    (z : Nat → F64) (hfz : ∀ i ≤ 100, Finite (z i)) (hz : ∀ i < 100, val (z i) ≤ val (z (i + 1)))
    (hin : ∀ i ≤ 100, InRange 3 (fun i => ([q64 0, q64 (1 / 10), q64 4].map val).getD i 0)
      (val (z i))) :
    ∃ r : Nat → F64, (∀ i ≤ 100, multilinearRectilinearAt .flat true
      (fun _ : Fin 1 => [q64 0, q64 (1 / 10), q64 4]) [q64 2, q64 6, q64 5] (Function.update x 0 (z i)) =
      .ok (r i) ∧ Finite (r i)) ∧
      ∑ i ∈ Finset.range 100, |val (r (i + 1)) - val (r i)| ≤ 5 + 1 / 10 ^ 10 := by
  have hG : (Axes.rectilinear fun _ : Fin 1 => [q64 0, q64 (1 / 10), q64 4].map val).Valid 2
      ([q64 2, q64 6, q64 5].map val) := valid_of_check (by decide +kernel)
  obtain ⟨r, h1, h2⟩ := C136_rectilinear_f64 (N := 1) .flat Nat.one_pos (by decide) true
    (fun _ => [q64 0, q64 (1 / 10), q64 4]) [q64 2, q64 6, q64 5] hG (by decide +kernel) 6 (by norm_num)
    (by decide +kernel) _ (samples_valAt 0 _ _ hG.len) 0 5 (by
      intro loc hl
      obtain ⟨a, rfl⟩ : ∃ a, loc = ![a] := ⟨loc 0, by funext k; fin_cases k; rfl⟩
      have ha : a < 3 := hl 0
      clear hl hin hz hfz z hx hfx x hG
      interval_cases a <;> decide +kernel) x hfx hx 100 z hfz hz hin
  refine ⟨r, h1, h2.trans ?_⟩
  norm_num

/-- The same in `f32`, and on a regular grid of step 1/2 in both types. -/
example (x : Fin 1 → F32) (hfx : ∀ k, Finite (x k))
    (hx : ∀ k : Fin 1, InRange 3 (fun i => ([q32 0, q32 (1 / 10), q32 4].map val).getD i 0) (val (x k)))
    (z : Nat → F32) (hfz : ∀ i ≤ 100, Finite (z i)) (hz : ∀ i < 100, val (z i) ≤ val (z (i + 1)))
    (hin : ∀ i ≤ 100, InRange 3 (fun i => ([q32 0, q32 (1 / 10), q32 4].map val).getD i 0)
      (val (z i))) :
    ∃ r : Nat → F32, (∀ i ≤ 100, multilinearRectilinearAt .flat true
      (fun _ : Fin 1 => [q32 0, q32 (1 / 10), q32 4]) [q32 2, q32 6, q32 5] (Function.update x 0 (z i)) =
      .ok (r i) ∧ Finite (r i)) ∧
      ∑ i ∈ Finset.range 100, |val (r (i + 1)) - val (r i)| ≤ 5 + 1 / 10 ^ 2 := by
  have hG : (Axes.rectilinear fun _ : Fin 1 => [q32 0, q32 (1 / 10), q32 4].map val).Valid 2
      ([q32 2, q32 6, q32 5].map val) := valid_of_check (by decide +kernel)
  obtain ⟨r, h1, h2⟩ := C136_rectilinear_f32 (N := 1) .flat Nat.one_pos (by decide) true
    (fun _ => [q32 0, q32 (1 / 10), q32 4]) [q32 2, q32 6, q32 5] hG (by decide +kernel) 6 (by norm_num)
    (by decide +kernel) _ (samples_valAt 0 _ _ hG.len) 0 5 (by
      intro loc hl
      obtain ⟨a, rfl⟩ : ∃ a, loc = ![a] := ⟨loc 0, by funext k; fin_cases k; rfl⟩
      have ha : a < 3 := hl 0
      clear hl hin hz hfz z hx hfx x hG
      interval_cases a <;> decide +kernel) x hfx hx 100 z hfz hz hin
  refine ⟨r, h1, h2.trans ?_⟩
  norm_num

example (x : Fin 1 → F64) (hfx : ∀ k, Finite (x k))
    (hx : ∀ k : Fin 1, InRange 3 (fun i => val (q64 (-1)) + val (q64 (1 / 2)) * (i : ℚ)) (val (x k)))
    (z : Nat → F64) (hfz : ∀ i ≤ 100, Finite (z i)) (hz : ∀ i < 100, val (z i) ≤ val (z (i + 1)))
    (hin : ∀ i ≤ 100, InRange 3 (fun i => val (q64 (-1)) + val (q64 (1 / 2)) * (i : ℚ)) (val (z i))) :
    ∃ r : Nat → F64, (∀ i ≤ 100, multilinearRegularAt .flat false (fun _ : Fin 1 => 3)
      (fun _ => q64 (-1)) (fun _ => q64 (1 / 2)) [q64 2, q64 6, q64 5] (Function.update x 0 (z i)) =
      .ok (r i) ∧ Finite (r i)) ∧
      ∑ i ∈ Finset.range 100, |val (r (i + 1)) - val (r i)| ≤ 5 + 1 / 10 ^ 10 := by
  have hG : (Axes.regular (fun _ : Fin 1 => 3) (fun _ => val (q64 (-1))) fun _ => val (q64 (1 / 2))).Valid 2
      ([q64 2, q64 6, q64 5].map val) := valid_of_check (by decide +kernel)
  obtain ⟨r, h1, h2⟩ := C136_regular_f64 (N := 1) .flat Nat.one_pos false 2 (by norm_num)
    (by norm_num) (fun _ => 3) (fun _ => q64 (-1)) (fun _ => q64 (1 / 2)) [q64 2, q64 6, q64 5] hG
    (by decide +kernel) (by decide +kernel) (by decide +kernel) (by decide +kernel) 6 (by norm_num)
    (by decide +kernel) _ (samples_valAt 0 _ _ hG.len) 0 5 (by
      intro loc hl
      obtain ⟨a, rfl⟩ : ∃ a, loc = ![a] := ⟨loc 0, by funext k; fin_cases k; rfl⟩
      have ha : a < 3 := hl 0
      clear hl hin hz hfz z hx hfx x hG
      interval_cases a <;> decide +kernel) x hfx hx 100 z hfz hz hin
  refine ⟨r, h1, h2.trans ?_⟩
  norm_num

example (x : Fin 1 → F32) (hfx : ∀ k, Finite (x k))
    (hx : ∀ k : Fin 1, InRange 3 (fun i => val (q32 (-1)) + val (q32 (1 / 2)) * (i : ℚ)) (val (x k)))
    (z : Nat → F32) (hfz : ∀ i ≤ 100, Finite (z i)) (hz : ∀ i < 100, val (z i) ≤ val (z (i + 1)))
    (hin : ∀ i ≤ 100, InRange 3 (fun i => val (q32 (-1)) + val (q32 (1 / 2)) * (i : ℚ)) (val (z i))) :
    ∃ r : Nat → F32, (∀ i ≤ 100, multilinearRegularAt .flat false (fun _ : Fin 1 => 3)
      (fun _ => q32 (-1)) (fun _ => q32 (1 / 2)) [q32 2, q32 6, q32 5] (Function.update x 0 (z i)) =
      .ok (r i) ∧ Finite (r i)) ∧
      ∑ i ∈ Finset.range 100, |val (r (i + 1)) - val (r i)| ≤ 5 + 1 / 10 := by
  have hG : (Axes.regular (fun _ : Fin 1 => 3) (fun _ => val (q32 (-1))) fun _ => val (q32 (1 / 2))).Valid 2
      ([q32 2, q32 6, q32 5].map val) := valid_of_check (by decide +kernel)
  obtain ⟨r, h1, h2⟩ := C136_regular_f32 (N := 1) .flat Nat.one_pos false 2 (by norm_num)
    (by norm_num) (fun _ => 3) (fun _ => q32 (-1)) (fun _ => q32 (1 / 2)) [q32 2, q32 6, q32 5] hG
    (by decide +kernel) (by decide +kernel) (by decide +kernel) (by decide +kernel) 6 (by norm_num)
    (by decide +kernel) _ (samples_valAt 0 _ _ hG.len) 0 5 (by
      intro loc hl
      obtain ⟨a, rfl⟩ : ∃ a, loc = ![a] := ⟨loc 0, by funext k; fin_cases k; rfl⟩
      have ha : a < 3 := hl 0
      clear hl hin hz hfz z hx hfx x hG
      interval_cases a <;> decide +kernel) x hfx hx 100 z hfz hz hin
  refine ⟨r, h1, h2.trans ?_⟩
  norm_num

/-- A zigzag of variation 3, multicubic, rectilinear grid, `f64`. -/
example (x : Fin 1 → F64) (hfx : ∀ k, Finite (x k))
    (hx : ∀ k : Fin 1, InRange 4 (fun i => ([q64 0, q64 1, q64 3, q64 4].map val).getD i 0) (val (x k)))
    (z : Nat → F64) (hfz : ∀ i ≤ 100, Finite (z i)) (hz : ∀ i < 100, val (z i) ≤ val (z (i + 1)))
    (hin : ∀ i ≤ 100, InRange 4 (fun i => ([q64 0, q64 1, q64 3, q64 4].map val).getD i 0) (val (z i))) :
    ∃ r : Nat → F64, (∀ i ≤ 100, multicubicRectilinearAt .flat true
      (fun _ : Fin 1 => [q64 0, q64 1, q64 3, q64 4]) [q64 0, q64 1, q64 0, q64 1] true
      (Function.update x 0 (z i)) = .ok (r i) ∧ Finite (r i)) ∧
      ∑ i ∈ Finset.range 100, |val (r (i + 1)) - val (r i)| ≤ 27 + 1 / 10 ^ 5 := by
  have hG : (Axes.rectilinear fun _ : Fin 1 => [q64 0, q64 1, q64 3, q64 4].map val).Valid 4
      ([q64 0, q64 1, q64 0, q64 1].map val) := valid_of_check (by decide +kernel)
  obtain ⟨r, h1, h2⟩ := C136_cubic_rectilinear_f64 (N := 1) .flat Nat.one_pos (by decide) true
    (fun _ => [q64 0, q64 1, q64 3, q64 4]) [q64 0, q64 1, q64 0, q64 1] true hG (by decide +kernel) 1
    (by norm_num) (by norm_num) (by decide +kernel) 2 (by norm_num) (by norm_num) (by
      intro k i hi
      replace hi : i + 2 < 4 := hi
      have : i < 2 := by omega
      clear hin hz hfz z hx hfx x hG
      interval_cases i <;> constructor <;> decide +kernel)
    _ (samples_valAt 0 _ _ hG.len) 0 3 (by
      intro loc hl
      obtain ⟨a, rfl⟩ : ∃ a, loc = ![a] := ⟨loc 0, by funext k; fin_cases k; rfl⟩
      have ha : a < 4 := hl 0
      clear hl hin hz hfz z hx hfx x hG
      interval_cases a <;> decide +kernel) x hfx hx 100 z hfz hz hin
  refine ⟨r, h1, h2.trans ?_⟩
  norm_num

/-- A zigzag of variation 3, multicubic, rectilinear grid, `f32`. -/
example (x : Fin 1 → F32) (hfx : ∀ k, Finite (x k))
    (hx : ∀ k : Fin 1, InRange 4 (fun i => ([q32 0, q32 1, q32 3, q32 4].map val).getD i 0) (val (x k)))
    (z : Nat → F32) (hfz : ∀ i ≤ 100, Finite (z i)) (hz : ∀ i < 100, val (z i) ≤ val (z (i + 1)))
    (hin : ∀ i ≤ 100, InRange 4 (fun i => ([q32 0, q32 1, q32 3, q32 4].map val).getD i 0) (val (z i))) :
    ∃ r : Nat → F32, (∀ i ≤ 100, multicubicRectilinearAt .flat true
      (fun _ : Fin 1 => [q32 0, q32 1, q32 3, q32 4]) [q32 0, q32 1, q32 0, q32 1] true
      (Function.update x 0 (z i)) = .ok (r i) ∧ Finite (r i)) ∧
      ∑ i ∈ Finset.range 100, |val (r (i + 1)) - val (r i)| ≤ 27 + 10 := by
  have hG : (Axes.rectilinear fun _ : Fin 1 => [q32 0, q32 1, q32 3, q32 4].map val).Valid 4
      ([q32 0, q32 1, q32 0, q32 1].map val) := valid_of_check (by decide +kernel)
  obtain ⟨r, h1, h2⟩ := C136_cubic_rectilinear_f32 (N := 1) .flat Nat.one_pos (by decide) true
    (fun _ => [q32 0, q32 1, q32 3, q32 4]) [q32 0, q32 1, q32 0, q32 1] true hG (by decide +kernel) 1
    (by norm_num) (by norm_num) (by decide +kernel) 2 (by norm_num) (by norm_num) (by
      intro k i hi
      replace hi : i + 2 < 4 := hi
      have : i < 2 := by omega
      clear hin hz hfz z hx hfx x hG
      interval_cases i <;> constructor <;> decide +kernel)
    _ (samples_valAt 0 _ _ hG.len) 0 3 (by
      intro loc hl
      obtain ⟨a, rfl⟩ : ∃ a, loc = ![a] := ⟨loc 0, by funext k; fin_cases k; rfl⟩
      have ha : a < 4 := hl 0
      clear hl hin hz hfz z hx hfx x hG
      interval_cases a <;> decide +kernel) x hfx hx 100 z hfz hz hin
  refine ⟨r, h1, h2.trans ?_⟩
  norm_num

/-- A zigzag of variation 3, multicubic, regular grid, `f64`. -/
example (x : Fin 1 → F64) (hfx : ∀ k, Finite (x k))
    (hx : ∀ k : Fin 1, InRange 4 (fun i => val (q64 0) + val (q64 (1 / 2)) * (i : ℚ)) (val (x k)))
    (z : Nat → F64) (hfz : ∀ i ≤ 100, Finite (z i)) (hz : ∀ i < 100, val (z i) ≤ val (z (i + 1)))
    (hin : ∀ i ≤ 100, InRange 4 (fun i => val (q64 0) + val (q64 (1 / 2)) * (i : ℚ)) (val (z i))) :
    ∃ r : Nat → F64, (∀ i ≤ 100, multicubicRegularAt .flat false
      (fun _ : Fin 1 => 4) (fun _ => q64 0) (fun _ => q64 (1 / 2)) [q64 0, q64 1, q64 0, q64 1] false
      (Function.update x 0 (z i)) = .ok (r i) ∧ Finite (r i)) ∧
      ∑ i ∈ Finset.range 100, |val (r (i + 1)) - val (r i)| ≤ 12 + 1 / 10 ^ 5 := by
  have hG : (Axes.regular (fun _ : Fin 1 => 4) (fun _ => val (q64 0)) fun _ => val (q64 (1 / 2))).Valid 4
      ([q64 0, q64 1, q64 0, q64 1].map val) := valid_of_check (by decide +kernel)
  obtain ⟨r, h1, h2⟩ := C136_cubic_regular_f64 (N := 1) .flat Nat.one_pos (by decide) false 3 (by norm_num)
    (by norm_num) (fun _ => 4) (fun _ => q64 0) (fun _ => q64 (1 / 2)) [q64 0, q64 1, q64 0, q64 1] false
    hG (by decide +kernel) (by decide +kernel) (by decide +kernel) (by decide +kernel) 1 (by norm_num)
    (by norm_num) (by decide +kernel)
    _ (samples_valAt 0 _ _ hG.len) 0 3 (by
      intro loc hl
      obtain ⟨a, rfl⟩ : ∃ a, loc = ![a] := ⟨loc 0, by funext k; fin_cases k; rfl⟩
      have ha : a < 4 := hl 0
      clear hl hin hz hfz z hx hfx x hG
      interval_cases a <;> decide +kernel) x hfx hx 100 z hfz hz hin
  refine ⟨r, h1, h2.trans ?_⟩
  norm_num

/-- A zigzag of variation 3, multicubic, regular grid, `f32`. -/
example (x : Fin 1 → F32) (hfx : ∀ k, Finite (x k))
    (hx : ∀ k : Fin 1, InRange 4 (fun i => val (q32 0) + val (q32 (1 / 2)) * (i : ℚ)) (val (x k)))
    (z : Nat → F32) (hfz : ∀ i ≤ 100, Finite (z i)) (hz : ∀ i < 100, val (z i) ≤ val (z (i + 1)))
    (hin : ∀ i ≤ 100, InRange 4 (fun i => val (q32 0) + val (q32 (1 / 2)) * (i : ℚ)) (val (z i))) :
    ∃ r : Nat → F32, (∀ i ≤ 100, multicubicRegularAt .flat false
      (fun _ : Fin 1 => 4) (fun _ => q32 0) (fun _ => q32 (1 / 2)) [q32 0, q32 1, q32 0, q32 1] false
      (Function.update x 0 (z i)) = .ok (r i) ∧ Finite (r i)) ∧
      ∑ i ∈ Finset.range 100, |val (r (i + 1)) - val (r i)| ≤ 12 + 10 := by
  have hG : (Axes.regular (fun _ : Fin 1 => 4) (fun _ => val (q32 0)) fun _ => val (q32 (1 / 2))).Valid 4
      ([q32 0, q32 1, q32 0, q32 1].map val) := valid_of_check (by decide +kernel)
  obtain ⟨r, h1, h2⟩ := C136_cubic_regular_f32 (N := 1) .flat Nat.one_pos (by decide) false 3 (by norm_num)
    (by norm_num) (fun _ => 4) (fun _ => q32 0) (fun _ => q32 (1 / 2)) [q32 0, q32 1, q32 0, q32 1] false
    hG (by decide +kernel) (by decide +kernel) (by decide +kernel) (by decide +kernel) 1 (by norm_num)
    (by norm_num) (by decide +kernel)
    _ (samples_valAt 0 _ _ hG.len) 0 3 (by
      intro loc hl
      obtain ⟨a, rfl⟩ : ∃ a, loc = ![a] := ⟨loc 0, by funext k; fin_cases k; rfl⟩
      have ha : a < 4 := hl 0
      clear hl hin hz hfz z hx hfx x hG
      interval_cases a <;> decide +kernel) x hfx hx 100 z hfz hz hin
  refine ⟨r, h1, h2.trans ?_⟩
  norm_num

end Examples

end Interpn
