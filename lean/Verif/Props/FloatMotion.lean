import Verif.Props.Convex
import Verif.Props.Lipschitz
import Verif.Props.CubicLipschitz
import Verif.Props.IeeeCubic
import Verif.Props.Accuracy

/-! C107: how results in IEEE 754 arithmetic change when the observation moves: no jumps other than
by rounding error, across cell boundaries as well, and monotone data give results that are monotone
up to rounding error. -/

set_option autoImplicit false
set_option exponentiation.threshold 1100

namespace Interpn
open Ieee

section
variable {N : Nat}

private theorem near_zero {n : Nat} {p : Nat → ℚ} {x : ℚ} (h : InRange n p x) : NearRange n p 0 x := by
  unfold NearRange
  simpa [InRange] using h

private theorem moved {a b y z A B : ℚ} (h1 : |a - y| ≤ B) (h2 : |b - z| ≤ B) (h : |z - y| ≤ A) :
    |b - a| ≤ A + 2 * B := by
  rw [abs_le] at *
  constructor <;> linarith [h1.1, h1.2, h2.1, h2.2, h.1, h.2]

private theorem move_one {f : Format} {x x' : Fin N → Ieee f} {j : Fin N}
    (h : ∀ k, k ≠ j → x' k = x k) :
    (fun k => val (x' k)) = Function.update (fun k => val (x k)) j (val (x' j)) := by
  funext k
  by_cases hk : k = j
  · subst hk; simp
  · simp [hk, h k hk]

/-- C107, multilinear interpolation on rectilinear grids in `f64`: moving the observation changes the
result by at most the slopes of the data times the distances moved, plus rounding error. -/
theorem C107_linear_rectilinear_f64 (e : Evaluator) (he : e.Fits N) (hN : N ≤ 1000) (fma : Bool)
    (grids : Fin N → List F64) (vals : List F64)
    (hG : (Axes.rectilinear fun k => (grids k).map val).Valid 2 (vals.map val))
    (hgrid : ∀ k, ∀ a ∈ grids k, Finite a ∧ |val a| ≤ 2 ^ 1022) (M : ℚ) (hM : M ≤ 2 ^ 1020)
    (hvals : ∀ v ∈ vals, Finite v ∧ |val v| ≤ M)
    (g : (Fin N → Nat) → ℚ)
    (hg : Samples (Axes.rectilinear fun k => (grids k).map val).size (vals.map val) g)
    (S : Fin N → ℚ)
    (hS : ∀ j, SlopesBounded (Axes.rectilinear fun k => (grids k).map val) g j (S j))
    (x x' : Fin N → F64) (hx : ∀ k, Finite (x k)) (hx' : ∀ k, Finite (x' k))
    (hin : ∀ k, InRange (grids k).length (fun i => ((grids k).map val).getD i 0) (val (x k)))
    (hin' : ∀ k, InRange (grids k).length (fun i => ((grids k).map val).getD i 0) (val (x' k))) :
    ∃ r r', multilinearRectilinearAt e fma grids vals x = .ok r ∧ Finite r ∧
      multilinearRectilinearAt e fma grids vals x' = .ok r' ∧ Finite r' ∧
      |val r' - val r| ≤ ∑ k, S k * |val (x' k) - val (x k)| +
        2 * (26 * N * (1 / 2 ^ 53) * M + 3 * N * (1 / 2 ^ 1075)) := by
  obtain ⟨r, y, h1, h2, h3, h4⟩ := C81_rectilinear_f64 e he hN fma grids vals hG hgrid M hM hvals x hx hin
  obtain ⟨r', y', h1', h2', h3', h4'⟩ := C81_rectilinear_f64 e he hN fma grids vals hG hgrid M hM hvals x' hx' hin'
  obtain ⟨z, z', e1, e2, hz⟩ := C75_all_axes e he fma _ _ hG g hg S hS (fun k => val (x k))
    (fun k => val (x' k)) (inRange_of_map hin) (inRange_of_map hin')
  rw [h3] at e1; cases e1
  rw [h3'] at e2; cases e2
  exact ⟨r, r', h1, h2, h1', h2', moved h4 h4' hz⟩

/-- C107, multilinear interpolation on rectilinear grids in `f64`: if the data do not decrease along an
axis, moving the observation up that axis does not lower the result by more than rounding error. -/
theorem C107_monotone_rectilinear_f64 (e : Evaluator) (he : e.Fits N) (hN : N ≤ 1000) (fma : Bool)
    (grids : Fin N → List F64) (vals : List F64)
    (hG : (Axes.rectilinear fun k => (grids k).map val).Valid 2 (vals.map val))
    (hgrid : ∀ k, ∀ a ∈ grids k, Finite a ∧ |val a| ≤ 2 ^ 1022) (M : ℚ) (hM : M ≤ 2 ^ 1020)
    (hvals : ∀ v ∈ vals, Finite v ∧ |val v| ≤ M)
    (g : (Fin N → Nat) → ℚ)
    (hg : Samples (Axes.rectilinear fun k => (grids k).map val).size (vals.map val) g)
    (j : Fin N)
    (hmono : ∀ loc : Fin N → Nat, (∀ k, loc k < (grids k).length) → loc j + 1 < (grids j).length →
      g loc ≤ g (Function.update loc j (loc j + 1)))
    (x x' : Fin N → F64) (hx : ∀ k, Finite (x k)) (hx' : Finite (x' j))
    (hsame : ∀ k, k ≠ j → x' k = x k) (hle : val (x j) ≤ val (x' j))
    (hin : ∀ k, InRange (grids k).length (fun i => ((grids k).map val).getD i 0) (val (x k)))
    (hin' : ∀ k, InRange (grids k).length (fun i => ((grids k).map val).getD i 0) (val (x' k))) :
    ∃ r r', multilinearRectilinearAt e fma grids vals x = .ok r ∧ Finite r ∧
      multilinearRectilinearAt e fma grids vals x' = .ok r' ∧ Finite r' ∧
      val r ≤ val r' + 2 * (26 * N * (1 / 2 ^ 53) * M + 3 * N * (1 / 2 ^ 1075)) := by
  have hx'' : ∀ k, Finite (x' k) := fun k => by
    by_cases hk : k = j
    · subst hk; exact hx'
    · rw [hsame k hk]; exact hx k
  obtain ⟨r, y, h1, h2, h3, h4⟩ := C81_rectilinear_f64 e he hN fma grids vals hG hgrid M hM hvals x hx hin
  obtain ⟨r', y', h1', h2', h3', h4'⟩ := C81_rectilinear_f64 e he hN fma grids vals hG hgrid M hM hvals x' hx'' hin'
  have hin1 := (inRange_of_map hin)
  have hin2 := (inRange_of_map hin')
  have hsz : (Axes.rectilinear fun k => (grids k).map val).size = fun k => (grids k).length :=
    funext fun k => List.length_map ..
  obtain ⟨z, z', e1, e2, hz⟩ := C51_monotone e he fma _ _ hG g hg j
    (by rw [hsz]; exact hmono) (fun k => val (x k)) (val (x' j)) hle
    (fun k _ => hin1 k) (hG.inRange_fits le_rfl hin1 _ (by decide))
    (by rw [← move_one hsame]; exact hG.inRange_fits le_rfl hin2 _ (by decide))
  rw [h3] at e1; cases e1
  rw [← move_one hsame, h3'] at e2; cases e2
  refine ⟨r, r', h1, h2, h1', h2', ?_⟩
  have := abs_le.1 h4
  have := abs_le.1 h4'
  linarith

/-- C107, multicubic interpolation on rectilinear grids in `f64`. -/
theorem C107_cubic_rectilinear_f64 (e : Evaluator) (he : e.Fits N) (hN8 : N ≤ 8) (fma : Bool)
    (grids : Fin N → List F64) (vals : List F64) (lin : Bool)
    (hG : (Axes.rectilinear fun k => (grids k).map val).Valid 4 (vals.map val))
    (hgrid : ∀ k, ∀ a ∈ grids k, Finite a ∧ |val a| ≤ 2 ^ 1022)
    (M : ℚ) (hM : M ≤ 2 ^ 700) (hM1 : 1 / 2 ^ 1022 ≤ M)
    (hvals : ∀ v ∈ vals, Finite v ∧ |val v| ≤ M)
    (ρ : ℚ) (hρ : 1 ≤ ρ) (hρ2 : ρ ≤ 2 ^ 30)
    (hmesh : ∀ k, MeshRatio (grids k).length (fun i => ((grids k).map val).getD i 0) ρ)
    (g : (Fin N → Nat) → ℚ)
    (hg : Samples (Axes.rectilinear fun k => (grids k).map val).size (vals.map val) g)
    (S : Fin N → ℚ)
    (hS : ∀ j, SlopesBounded (Axes.rectilinear fun k => (grids k).map val) g j (S j))
    (x x' : Fin N → F64) (hx : ∀ k, Finite (x k)) (hx' : ∀ k, Finite (x' k))
    (hin : ∀ k, InRange (grids k).length (fun i => ((grids k).map val).getD i 0) (val (x k)))
    (hin' : ∀ k, InRange (grids k).length (fun i => ((grids k).map val).getD i 0) (val (x' k))) :
    ∃ r r', multicubicRectilinearAt e fma grids vals lin x = .ok r ∧ Finite r ∧
      multicubicRectilinearAt e fma grids vals lin x' = .ok r' ∧ Finite r' ∧
      |val r' - val r| ≤ 3 * (1 + ρ ^ 2 / (2 * (1 + ρ))) ^ (N - 1) * ∑ k, S k * |val (x' k) - val (x k)| +
        2 * (3200 * N * ρ * (1 / 2 ^ 53) * (1 + ρ ^ 2 / (2 * (1 + ρ))) ^ N * M) := by
  obtain ⟨r, y, h1, h2, h3, h4⟩ := C82_rectilinear_f64 e he hN8 fma grids vals lin hG hgrid M hM hM1 hvals
    x hx hin ρ hρ hρ2 hmesh
  obtain ⟨r', y', h1', h2', h3', h4'⟩ := C82_rectilinear_f64 e he hN8 fma grids vals lin hG hgrid M hM hM1 hvals
    x' hx' hin' ρ hρ hρ2 hmesh
  have hin1 := (inRange_of_map hin)
  have hin2 := (inRange_of_map hin')
  obtain ⟨z, z', e1, e2, hz⟩ := C96_all_axes e he fma _ _ lin hG g hg S hS ρ hρ
    (fun k => by
      have := hmesh k
      rw [← List.length_map (f := val)] at this
      exact this) 0 le_rfl (fun k => val (x k)) (fun k => val (x' k))
    (fun k => near_zero (hin1 k)) (fun k => near_zero (hin2 k))
    (hG.inRange_fits (by omega) hin1 _ (by decide)) (hG.inRange_fits (by omega) hin2 _ (by decide))
  rw [h3] at e1; cases e1
  rw [h3'] at e2; cases e2
  refine ⟨r, r', h1, h2, h1', h2', moved h4 h4' (hz.trans (le_of_eq ?_))⟩
  simp

/-- C107, multilinear interpolation on regular grids in `f64`: moving the observation changes the
result by at most the slopes of the data times the distances moved, plus rounding error. -/
theorem C107_linear_regular_f64 (e : Evaluator) (he : e.Fits N) (fma : Bool) (κ : ℚ) (hκ : 0 ≤ κ)
    (hN : 100 * N * (1 + κ) ≤ 2 ^ 53)
    (dims : Fin N → Nat) (starts steps : Fin N → F64) (vals : List F64)
    (hG : (Axes.regular dims (fun k => val (starts k)) fun k => val (steps k)).Valid 2
      (vals.map val))
    (hfin : ∀ k, Finite (starts k) ∧ Finite (steps k))
    (hnormal : ∀ k, 1 / 2 ^ 1022 ≤ val (steps k))
    (hnodes : ∀ k, |val (starts k)| ≤ κ * val (steps k) ∧
      |val (starts k) + val (steps k) * ((dims k - 1 : Nat) : ℚ)| ≤ κ * val (steps k))
    (hlarge : ∀ k, κ * val (steps k) ≤ 2 ^ 1020) (M : ℚ) (hM : M ≤ 2 ^ 1020)
    (hvals : ∀ v ∈ vals, Finite v ∧ |val v| ≤ M)
    (g : (Fin N → Nat) → ℚ)
    (hg : Samples (Axes.regular dims (fun k => val (starts k)) fun k => val (steps k)).size (vals.map val) g)
    (S : Fin N → ℚ)
    (hS : ∀ j, SlopesBounded (Axes.regular dims (fun k => val (starts k)) fun k => val (steps k)) g j (S j))
    (x x' : Fin N → F64) (hx : ∀ k, Finite (x k)) (hx' : ∀ k, Finite (x' k))
    (hin : ∀ k, InRange (dims k) (fun i => val (starts k) + val (steps k) * (i : ℚ)) (val (x k)))
    (hin' : ∀ k, InRange (dims k) (fun i => val (starts k) + val (steps k) * (i : ℚ)) (val (x' k))) :
    ∃ r r', multilinearRegularAt e fma dims starts steps vals x = .ok r ∧ Finite r ∧
      multilinearRegularAt e fma dims starts steps vals x' = .ok r' ∧ Finite r' ∧
      |val r' - val r| ≤ ∑ k, S k * |val (x' k) - val (x k)| +
        2 * (60 * N * (1 + κ) * (1 / 2 ^ 53) * M + 3 * N * (1 / 2 ^ 1075)) := by
  obtain ⟨r, y, h1, h2, h3, h4⟩ := C81_regular_f64 e he fma κ hκ hN dims starts steps vals hG hfin
    hnormal hnodes hlarge M hM hvals x hx hin
  obtain ⟨r', y', h1', h2', h3', h4'⟩ := C81_regular_f64 e he fma κ hκ hN dims starts steps vals hG hfin
    hnormal hnodes hlarge M hM hvals x' hx' hin'
  obtain ⟨z, z', e1, e2, hz⟩ := C75_all_axes e he fma _ _ hG g hg S hS (fun k => val (x k))
    (fun k => val (x' k)) hin hin'
  rw [h3] at e1; cases e1
  rw [h3'] at e2; cases e2
  exact ⟨r, r', h1, h2, h1', h2', moved h4 h4' hz⟩

/-- C107, multilinear interpolation on regular grids in `f64`: if the data do not decrease along an
axis, moving the observation up that axis does not lower the result by more than rounding error. -/
theorem C107_monotone_regular_f64 (e : Evaluator) (he : e.Fits N) (fma : Bool) (κ : ℚ) (hκ : 0 ≤ κ)
    (hN : 100 * N * (1 + κ) ≤ 2 ^ 53)
    (dims : Fin N → Nat) (starts steps : Fin N → F64) (vals : List F64)
    (hG : (Axes.regular dims (fun k => val (starts k)) fun k => val (steps k)).Valid 2
      (vals.map val))
    (hfin : ∀ k, Finite (starts k) ∧ Finite (steps k))
    (hnormal : ∀ k, 1 / 2 ^ 1022 ≤ val (steps k))
    (hnodes : ∀ k, |val (starts k)| ≤ κ * val (steps k) ∧
      |val (starts k) + val (steps k) * ((dims k - 1 : Nat) : ℚ)| ≤ κ * val (steps k))
    (hlarge : ∀ k, κ * val (steps k) ≤ 2 ^ 1020) (M : ℚ) (hM : M ≤ 2 ^ 1020)
    (hvals : ∀ v ∈ vals, Finite v ∧ |val v| ≤ M)
    (g : (Fin N → Nat) → ℚ)
    (hg : Samples (Axes.regular dims (fun k => val (starts k)) fun k => val (steps k)).size (vals.map val) g)
    (j : Fin N)
    (hmono : ∀ loc : Fin N → Nat, (∀ k, loc k < dims k) → loc j + 1 < dims j →
      g loc ≤ g (Function.update loc j (loc j + 1)))
    (x x' : Fin N → F64) (hx : ∀ k, Finite (x k)) (hx' : Finite (x' j))
    (hsame : ∀ k, k ≠ j → x' k = x k) (hle : val (x j) ≤ val (x' j))
    (hin : ∀ k, InRange (dims k) (fun i => val (starts k) + val (steps k) * (i : ℚ)) (val (x k)))
    (hin' : ∀ k, InRange (dims k) (fun i => val (starts k) + val (steps k) * (i : ℚ)) (val (x' k))) :
    ∃ r r', multilinearRegularAt e fma dims starts steps vals x = .ok r ∧ Finite r ∧
      multilinearRegularAt e fma dims starts steps vals x' = .ok r' ∧ Finite r' ∧
      val r ≤ val r' + 2 * (60 * N * (1 + κ) * (1 / 2 ^ 53) * M + 3 * N * (1 / 2 ^ 1075)) := by
  have hx'' : ∀ k, Finite (x' k) := fun k => by
    by_cases hk : k = j
    · subst hk; exact hx'
    · rw [hsame k hk]; exact hx k
  obtain ⟨r, y, h1, h2, h3, h4⟩ := C81_regular_f64 e he fma κ hκ hN dims starts steps vals hG hfin
    hnormal hnodes hlarge M hM hvals x hx hin
  obtain ⟨r', y', h1', h2', h3', h4'⟩ := C81_regular_f64 e he fma κ hκ hN dims starts steps vals hG hfin
    hnormal hnodes hlarge M hM hvals x' hx'' hin'
  have hin1 := hin
  have hin2 := hin'
  obtain ⟨z, z', e1, e2, hz⟩ := C51_monotone e he fma _ _ hG g hg j
    hmono (fun k => val (x k)) (val (x' j)) hle
    (fun k _ => hin1 k) (hG.inRange_fits le_rfl hin1 _ (by decide))
    (by rw [← move_one hsame]; exact hG.inRange_fits le_rfl hin2 _ (by decide))
  rw [h3] at e1; cases e1
  rw [← move_one hsame, h3'] at e2; cases e2
  refine ⟨r, r', h1, h2, h1', h2', ?_⟩
  have := abs_le.1 h4
  have := abs_le.1 h4'
  linarith

/-- C107, multicubic interpolation on regular grids in `f64`. -/
theorem C107_cubic_regular_f64 (e : Evaluator) (he : e.Fits N) (hN8 : N ≤ 8) (fma : Bool) (κ : ℚ)
    (hκ : 0 ≤ κ) (hN : 4200 * N * (1 + κ) ≤ 2 ^ 53)
    (dims : Fin N → Nat) (starts steps : Fin N → F64) (vals : List F64) (lin : Bool)
    (hG : (Axes.regular dims (fun k => val (starts k)) fun k => val (steps k)).Valid 4
      (vals.map val))
    (hfin : ∀ k, Finite (starts k) ∧ Finite (steps k))
    (hnormal : ∀ k, 1 / 2 ^ 1022 ≤ val (steps k))
    (hnodes : ∀ k, |val (starts k)| ≤ κ * val (steps k) ∧
      |val (starts k) + val (steps k) * ((dims k - 1 : Nat) : ℚ)| ≤ κ * val (steps k))
    (hlarge : ∀ k, κ * val (steps k) ≤ 2 ^ 1020)
    (M : ℚ) (hM : M ≤ 2 ^ 1000) (hM1 : 1 / 2 ^ 1022 ≤ M)
    (hvals : ∀ v ∈ vals, Finite v ∧ |val v| ≤ M)
    (g : (Fin N → Nat) → ℚ)
    (hg : Samples (Axes.regular dims (fun k => val (starts k)) fun k => val (steps k)).size (vals.map val) g)
    (S : Fin N → ℚ)
    (hS : ∀ j, SlopesBounded (Axes.regular dims (fun k => val (starts k)) fun k => val (steps k)) g j (S j))
    (x x' : Fin N → F64) (hx : ∀ k, Finite (x k)) (hx' : ∀ k, Finite (x' k))
    (hin : ∀ k, InRange (dims k) (fun i => val (starts k) + val (steps k) * (i : ℚ)) (val (x k)))
    (hin' : ∀ k, InRange (dims k) (fun i => val (starts k) + val (steps k) * (i : ℚ)) (val (x' k))) :
    ∃ r r', multicubicRegularAt e fma dims starts steps vals lin x = .ok r ∧ Finite r ∧
      multicubicRegularAt e fma dims starts steps vals lin x' = .ok r' ∧ Finite r' ∧
      |val r' - val r| ≤ 3 * (5 / 4) ^ (N - 1) * ∑ k, S k * |val (x' k) - val (x k)| +
        2 * (4200 * N * (1 + κ) * (1 / 2 ^ 53) * (5 / 4) ^ N * M) := by
  obtain ⟨r, y, h1, h2, h3, h4⟩ := C82_regular_f64 e he hN8 fma κ hκ hN dims starts steps vals lin hG hfin
    hnormal hnodes hlarge M hM hM1 hvals x hx hin
  obtain ⟨r', y', h1', h2', h3', h4'⟩ := C82_regular_f64 e he hN8 fma κ hκ hN dims starts steps vals lin hG hfin
    hnormal hnodes hlarge M hM hM1 hvals x' hx' hin'
  have hin1 := hin
  have hin2 := hin'
  obtain ⟨z, z', e1, e2, hz⟩ := C96_all_axes e he fma _ _ lin hG g hg S hS 1 le_rfl
    (meshRatio_regular _ _ _) 0 le_rfl (fun k => val (x k)) (fun k => val (x' k))
    (fun k => near_zero (hin1 k)) (fun k => near_zero (hin2 k))
    (hG.inRange_fits (by omega) hin1 _ (by decide)) (hG.inRange_fits (by omega) hin2 _ (by decide))
  rw [h3] at e1; cases e1
  rw [h3'] at e2; cases e2
  refine ⟨r, r', h1, h2, h1', h2', moved h4 h4' (hz.trans (le_of_eq ?_))⟩
  norm_num

/-- C107, multilinear interpolation on rectilinear grids in `f32`: moving the observation changes the
result by at most the slopes of the data times the distances moved, plus rounding error. -/
theorem C107_linear_rectilinear_f32 (e : Evaluator) (he : e.Fits N) (hN : N ≤ 1000) (fma : Bool)
    (grids : Fin N → List F32) (vals : List F32)
    (hG : (Axes.rectilinear fun k => (grids k).map val).Valid 2 (vals.map val))
    (hgrid : ∀ k, ∀ a ∈ grids k, Finite a ∧ |val a| ≤ 2 ^ 126) (M : ℚ) (hM : M ≤ 2 ^ 124)
    (hvals : ∀ v ∈ vals, Finite v ∧ |val v| ≤ M)
    (g : (Fin N → Nat) → ℚ)
    (hg : Samples (Axes.rectilinear fun k => (grids k).map val).size (vals.map val) g)
    (S : Fin N → ℚ)
    (hS : ∀ j, SlopesBounded (Axes.rectilinear fun k => (grids k).map val) g j (S j))
    (x x' : Fin N → F32) (hx : ∀ k, Finite (x k)) (hx' : ∀ k, Finite (x' k))
    (hin : ∀ k, InRange (grids k).length (fun i => ((grids k).map val).getD i 0) (val (x k)))
    (hin' : ∀ k, InRange (grids k).length (fun i => ((grids k).map val).getD i 0) (val (x' k))) :
    ∃ r r', multilinearRectilinearAt e fma grids vals x = .ok r ∧ Finite r ∧
      multilinearRectilinearAt e fma grids vals x' = .ok r' ∧ Finite r' ∧
      |val r' - val r| ≤ ∑ k, S k * |val (x' k) - val (x k)| +
        2 * (26 * N * (1 / 2 ^ 24) * M + 3 * N * (1 / 2 ^ 150)) := by
  obtain ⟨r, y, h1, h2, h3, h4⟩ := C81_rectilinear_f32 e he hN fma grids vals hG hgrid M hM hvals x hx hin
  obtain ⟨r', y', h1', h2', h3', h4'⟩ := C81_rectilinear_f32 e he hN fma grids vals hG hgrid M hM hvals x' hx' hin'
  obtain ⟨z, z', e1, e2, hz⟩ := C75_all_axes e he fma _ _ hG g hg S hS (fun k => val (x k))
    (fun k => val (x' k)) (inRange_of_map hin) (inRange_of_map hin')
  rw [h3] at e1; cases e1
  rw [h3'] at e2; cases e2
  exact ⟨r, r', h1, h2, h1', h2', moved h4 h4' hz⟩

/-- C107, multilinear interpolation on rectilinear grids in `f32`: if the data do not decrease along an
axis, moving the observation up that axis does not lower the result by more than rounding error. -/
theorem C107_monotone_rectilinear_f32 (e : Evaluator) (he : e.Fits N) (hN : N ≤ 1000) (fma : Bool)
    (grids : Fin N → List F32) (vals : List F32)
    (hG : (Axes.rectilinear fun k => (grids k).map val).Valid 2 (vals.map val))
    (hgrid : ∀ k, ∀ a ∈ grids k, Finite a ∧ |val a| ≤ 2 ^ 126) (M : ℚ) (hM : M ≤ 2 ^ 124)
    (hvals : ∀ v ∈ vals, Finite v ∧ |val v| ≤ M)
    (g : (Fin N → Nat) → ℚ)
    (hg : Samples (Axes.rectilinear fun k => (grids k).map val).size (vals.map val) g)
    (j : Fin N)
    (hmono : ∀ loc : Fin N → Nat, (∀ k, loc k < (grids k).length) → loc j + 1 < (grids j).length →
      g loc ≤ g (Function.update loc j (loc j + 1)))
    (x x' : Fin N → F32) (hx : ∀ k, Finite (x k)) (hx' : Finite (x' j))
    (hsame : ∀ k, k ≠ j → x' k = x k) (hle : val (x j) ≤ val (x' j))
    (hin : ∀ k, InRange (grids k).length (fun i => ((grids k).map val).getD i 0) (val (x k)))
    (hin' : ∀ k, InRange (grids k).length (fun i => ((grids k).map val).getD i 0) (val (x' k))) :
    ∃ r r', multilinearRectilinearAt e fma grids vals x = .ok r ∧ Finite r ∧
      multilinearRectilinearAt e fma grids vals x' = .ok r' ∧ Finite r' ∧
      val r ≤ val r' + 2 * (26 * N * (1 / 2 ^ 24) * M + 3 * N * (1 / 2 ^ 150)) := by
  have hx'' : ∀ k, Finite (x' k) := fun k => by
    by_cases hk : k = j
    · subst hk; exact hx'
    · rw [hsame k hk]; exact hx k
  obtain ⟨r, y, h1, h2, h3, h4⟩ := C81_rectilinear_f32 e he hN fma grids vals hG hgrid M hM hvals x hx hin
  obtain ⟨r', y', h1', h2', h3', h4'⟩ := C81_rectilinear_f32 e he hN fma grids vals hG hgrid M hM hvals x' hx'' hin'
  have hin1 := (inRange_of_map hin)
  have hin2 := (inRange_of_map hin')
  have hsz : (Axes.rectilinear fun k => (grids k).map val).size = fun k => (grids k).length :=
    funext fun k => List.length_map ..
  obtain ⟨z, z', e1, e2, hz⟩ := C51_monotone e he fma _ _ hG g hg j
    (by rw [hsz]; exact hmono) (fun k => val (x k)) (val (x' j)) hle
    (fun k _ => hin1 k) (hG.inRange_fits le_rfl hin1 _ (by decide))
    (by rw [← move_one hsame]; exact hG.inRange_fits le_rfl hin2 _ (by decide))
  rw [h3] at e1; cases e1
  rw [← move_one hsame, h3'] at e2; cases e2
  refine ⟨r, r', h1, h2, h1', h2', ?_⟩
  have := abs_le.1 h4
  have := abs_le.1 h4'
  linarith

/-- C107, multicubic interpolation on rectilinear grids in `f32`. -/
theorem C107_cubic_rectilinear_f32 (e : Evaluator) (he : e.Fits N) (hN8 : N ≤ 8) (fma : Bool)
    (grids : Fin N → List F32) (vals : List F32) (lin : Bool)
    (hG : (Axes.rectilinear fun k => (grids k).map val).Valid 4 (vals.map val))
    (hgrid : ∀ k, ∀ a ∈ grids k, Finite a ∧ |val a| ≤ 2 ^ 126)
    (M : ℚ) (hM : M ≤ 2 ^ 40) (hM1 : 1 / 2 ^ 126 ≤ M)
    (hvals : ∀ v ∈ vals, Finite v ∧ |val v| ≤ M)
    (ρ : ℚ) (hρ : 1 ≤ ρ) (hρ2 : ρ ≤ 2 ^ 9)
    (hmesh : ∀ k, MeshRatio (grids k).length (fun i => ((grids k).map val).getD i 0) ρ)
    (g : (Fin N → Nat) → ℚ)
    (hg : Samples (Axes.rectilinear fun k => (grids k).map val).size (vals.map val) g)
    (S : Fin N → ℚ)
    (hS : ∀ j, SlopesBounded (Axes.rectilinear fun k => (grids k).map val) g j (S j))
    (x x' : Fin N → F32) (hx : ∀ k, Finite (x k)) (hx' : ∀ k, Finite (x' k))
    (hin : ∀ k, InRange (grids k).length (fun i => ((grids k).map val).getD i 0) (val (x k)))
    (hin' : ∀ k, InRange (grids k).length (fun i => ((grids k).map val).getD i 0) (val (x' k))) :
    ∃ r r', multicubicRectilinearAt e fma grids vals lin x = .ok r ∧ Finite r ∧
      multicubicRectilinearAt e fma grids vals lin x' = .ok r' ∧ Finite r' ∧
      |val r' - val r| ≤ 3 * (1 + ρ ^ 2 / (2 * (1 + ρ))) ^ (N - 1) * ∑ k, S k * |val (x' k) - val (x k)| +
        2 * (3200 * N * ρ * (1 / 2 ^ 24) * (1 + ρ ^ 2 / (2 * (1 + ρ))) ^ N * M) := by
  obtain ⟨r, y, h1, h2, h3, h4⟩ := C82_rectilinear_f32 e he hN8 fma grids vals lin hG hgrid M hM hM1 hvals
    x hx hin ρ hρ hρ2 hmesh
  obtain ⟨r', y', h1', h2', h3', h4'⟩ := C82_rectilinear_f32 e he hN8 fma grids vals lin hG hgrid M hM hM1 hvals
    x' hx' hin' ρ hρ hρ2 hmesh
  have hin1 := (inRange_of_map hin)
  have hin2 := (inRange_of_map hin')
  obtain ⟨z, z', e1, e2, hz⟩ := C96_all_axes e he fma _ _ lin hG g hg S hS ρ hρ
    (fun k => by
      have := hmesh k
      rw [← List.length_map (f := val)] at this
      exact this) 0 le_rfl (fun k => val (x k)) (fun k => val (x' k))
    (fun k => near_zero (hin1 k)) (fun k => near_zero (hin2 k))
    (hG.inRange_fits (by omega) hin1 _ (by decide)) (hG.inRange_fits (by omega) hin2 _ (by decide))
  rw [h3] at e1; cases e1
  rw [h3'] at e2; cases e2
  refine ⟨r, r', h1, h2, h1', h2', moved h4 h4' (hz.trans (le_of_eq ?_))⟩
  simp

/-- C107, multilinear interpolation on regular grids in `f32`: moving the observation changes the
result by at most the slopes of the data times the distances moved, plus rounding error. -/
theorem C107_linear_regular_f32 (e : Evaluator) (he : e.Fits N) (fma : Bool) (κ : ℚ) (hκ : 0 ≤ κ)
    (hN : 100 * N * (1 + κ) ≤ 2 ^ 24)
    (dims : Fin N → Nat) (starts steps : Fin N → F32) (vals : List F32)
    (hG : (Axes.regular dims (fun k => val (starts k)) fun k => val (steps k)).Valid 2
      (vals.map val))
    (hfin : ∀ k, Finite (starts k) ∧ Finite (steps k))
    (hnormal : ∀ k, 1 / 2 ^ 126 ≤ val (steps k))
    (hnodes : ∀ k, |val (starts k)| ≤ κ * val (steps k) ∧
      |val (starts k) + val (steps k) * ((dims k - 1 : Nat) : ℚ)| ≤ κ * val (steps k))
    (hlarge : ∀ k, κ * val (steps k) ≤ 2 ^ 124) (M : ℚ) (hM : M ≤ 2 ^ 124)
    (hvals : ∀ v ∈ vals, Finite v ∧ |val v| ≤ M)
    (g : (Fin N → Nat) → ℚ)
    (hg : Samples (Axes.regular dims (fun k => val (starts k)) fun k => val (steps k)).size (vals.map val) g)
    (S : Fin N → ℚ)
    (hS : ∀ j, SlopesBounded (Axes.regular dims (fun k => val (starts k)) fun k => val (steps k)) g j (S j))
    (x x' : Fin N → F32) (hx : ∀ k, Finite (x k)) (hx' : ∀ k, Finite (x' k))
    (hin : ∀ k, InRange (dims k) (fun i => val (starts k) + val (steps k) * (i : ℚ)) (val (x k)))
    (hin' : ∀ k, InRange (dims k) (fun i => val (starts k) + val (steps k) * (i : ℚ)) (val (x' k))) :
    ∃ r r', multilinearRegularAt e fma dims starts steps vals x = .ok r ∧ Finite r ∧
      multilinearRegularAt e fma dims starts steps vals x' = .ok r' ∧ Finite r' ∧
      |val r' - val r| ≤ ∑ k, S k * |val (x' k) - val (x k)| +
        2 * (60 * N * (1 + κ) * (1 / 2 ^ 24) * M + 3 * N * (1 / 2 ^ 150)) := by
  obtain ⟨r, y, h1, h2, h3, h4⟩ := C81_regular_f32 e he fma κ hκ hN dims starts steps vals hG hfin
    hnormal hnodes hlarge M hM hvals x hx hin
  obtain ⟨r', y', h1', h2', h3', h4'⟩ := C81_regular_f32 e he fma κ hκ hN dims starts steps vals hG hfin
    hnormal hnodes hlarge M hM hvals x' hx' hin'
  obtain ⟨z, z', e1, e2, hz⟩ := C75_all_axes e he fma _ _ hG g hg S hS (fun k => val (x k))
    (fun k => val (x' k)) hin hin'
  rw [h3] at e1; cases e1
  rw [h3'] at e2; cases e2
  exact ⟨r, r', h1, h2, h1', h2', moved h4 h4' hz⟩

/-- C107, multilinear interpolation on regular grids in `f32`: if the data do not decrease along an
axis, moving the observation up that axis does not lower the result by more than rounding error. -/
theorem C107_monotone_regular_f32 (e : Evaluator) (he : e.Fits N) (fma : Bool) (κ : ℚ) (hκ : 0 ≤ κ)
    (hN : 100 * N * (1 + κ) ≤ 2 ^ 24)
    (dims : Fin N → Nat) (starts steps : Fin N → F32) (vals : List F32)
    (hG : (Axes.regular dims (fun k => val (starts k)) fun k => val (steps k)).Valid 2
      (vals.map val))
    (hfin : ∀ k, Finite (starts k) ∧ Finite (steps k))
    (hnormal : ∀ k, 1 / 2 ^ 126 ≤ val (steps k))
    (hnodes : ∀ k, |val (starts k)| ≤ κ * val (steps k) ∧
      |val (starts k) + val (steps k) * ((dims k - 1 : Nat) : ℚ)| ≤ κ * val (steps k))
    (hlarge : ∀ k, κ * val (steps k) ≤ 2 ^ 124) (M : ℚ) (hM : M ≤ 2 ^ 124)
    (hvals : ∀ v ∈ vals, Finite v ∧ |val v| ≤ M)
    (g : (Fin N → Nat) → ℚ)
    (hg : Samples (Axes.regular dims (fun k => val (starts k)) fun k => val (steps k)).size (vals.map val) g)
    (j : Fin N)
    (hmono : ∀ loc : Fin N → Nat, (∀ k, loc k < dims k) → loc j + 1 < dims j →
      g loc ≤ g (Function.update loc j (loc j + 1)))
    (x x' : Fin N → F32) (hx : ∀ k, Finite (x k)) (hx' : Finite (x' j))
    (hsame : ∀ k, k ≠ j → x' k = x k) (hle : val (x j) ≤ val (x' j))
    (hin : ∀ k, InRange (dims k) (fun i => val (starts k) + val (steps k) * (i : ℚ)) (val (x k)))
    (hin' : ∀ k, InRange (dims k) (fun i => val (starts k) + val (steps k) * (i : ℚ)) (val (x' k))) :
    ∃ r r', multilinearRegularAt e fma dims starts steps vals x = .ok r ∧ Finite r ∧
      multilinearRegularAt e fma dims starts steps vals x' = .ok r' ∧ Finite r' ∧
      val r ≤ val r' + 2 * (60 * N * (1 + κ) * (1 / 2 ^ 24) * M + 3 * N * (1 / 2 ^ 150)) := by
  have hx'' : ∀ k, Finite (x' k) := fun k => by
    by_cases hk : k = j
    · subst hk; exact hx'
    · rw [hsame k hk]; exact hx k
  obtain ⟨r, y, h1, h2, h3, h4⟩ := C81_regular_f32 e he fma κ hκ hN dims starts steps vals hG hfin
    hnormal hnodes hlarge M hM hvals x hx hin
  obtain ⟨r', y', h1', h2', h3', h4'⟩ := C81_regular_f32 e he fma κ hκ hN dims starts steps vals hG hfin
    hnormal hnodes hlarge M hM hvals x' hx'' hin'
  have hin1 := hin
  have hin2 := hin'
  obtain ⟨z, z', e1, e2, hz⟩ := C51_monotone e he fma _ _ hG g hg j
    hmono (fun k => val (x k)) (val (x' j)) hle
    (fun k _ => hin1 k) (hG.inRange_fits le_rfl hin1 _ (by decide))
    (by rw [← move_one hsame]; exact hG.inRange_fits le_rfl hin2 _ (by decide))
  rw [h3] at e1; cases e1
  rw [← move_one hsame, h3'] at e2; cases e2
  refine ⟨r, r', h1, h2, h1', h2', ?_⟩
  have := abs_le.1 h4
  have := abs_le.1 h4'
  linarith

/-- C107, multicubic interpolation on regular grids in `f32`. -/
theorem C107_cubic_regular_f32 (e : Evaluator) (he : e.Fits N) (hN8 : N ≤ 8) (fma : Bool) (κ : ℚ)
    (hκ : 0 ≤ κ) (hN : 4200 * N * (1 + κ) ≤ 2 ^ 24)
    (dims : Fin N → Nat) (starts steps : Fin N → F32) (vals : List F32) (lin : Bool)
    (hG : (Axes.regular dims (fun k => val (starts k)) fun k => val (steps k)).Valid 4
      (vals.map val))
    (hfin : ∀ k, Finite (starts k) ∧ Finite (steps k))
    (hnormal : ∀ k, 1 / 2 ^ 126 ≤ val (steps k))
    (hnodes : ∀ k, |val (starts k)| ≤ κ * val (steps k) ∧
      |val (starts k) + val (steps k) * ((dims k - 1 : Nat) : ℚ)| ≤ κ * val (steps k))
    (hlarge : ∀ k, κ * val (steps k) ≤ 2 ^ 124)
    (M : ℚ) (hM : M ≤ 2 ^ 110) (hM1 : 1 / 2 ^ 126 ≤ M)
    (hvals : ∀ v ∈ vals, Finite v ∧ |val v| ≤ M)
    (g : (Fin N → Nat) → ℚ)
    (hg : Samples (Axes.regular dims (fun k => val (starts k)) fun k => val (steps k)).size (vals.map val) g)
    (S : Fin N → ℚ)
    (hS : ∀ j, SlopesBounded (Axes.regular dims (fun k => val (starts k)) fun k => val (steps k)) g j (S j))
    (x x' : Fin N → F32) (hx : ∀ k, Finite (x k)) (hx' : ∀ k, Finite (x' k))
    (hin : ∀ k, InRange (dims k) (fun i => val (starts k) + val (steps k) * (i : ℚ)) (val (x k)))
    (hin' : ∀ k, InRange (dims k) (fun i => val (starts k) + val (steps k) * (i : ℚ)) (val (x' k))) :
    ∃ r r', multicubicRegularAt e fma dims starts steps vals lin x = .ok r ∧ Finite r ∧
      multicubicRegularAt e fma dims starts steps vals lin x' = .ok r' ∧ Finite r' ∧
      |val r' - val r| ≤ 3 * (5 / 4) ^ (N - 1) * ∑ k, S k * |val (x' k) - val (x k)| +
        2 * (4200 * N * (1 + κ) * (1 / 2 ^ 24) * (5 / 4) ^ N * M) := by
  obtain ⟨r, y, h1, h2, h3, h4⟩ := C82_regular_f32 e he hN8 fma κ hκ hN dims starts steps vals lin hG hfin
    hnormal hnodes hlarge M hM hM1 hvals x hx hin
  obtain ⟨r', y', h1', h2', h3', h4'⟩ := C82_regular_f32 e he hN8 fma κ hκ hN dims starts steps vals lin hG hfin
    hnormal hnodes hlarge M hM hM1 hvals x' hx' hin'
  have hin1 := hin
  have hin2 := hin'
  obtain ⟨z, z', e1, e2, hz⟩ := C96_all_axes e he fma _ _ lin hG g hg S hS 1 le_rfl
    (meshRatio_regular _ _ _) 0 le_rfl (fun k => val (x k)) (fun k => val (x' k))
    (fun k => near_zero (hin1 k)) (fun k => near_zero (hin2 k))
    (hG.inRange_fits (by omega) hin1 _ (by decide)) (hG.inRange_fits (by omega) hin2 _ (by decide))
  rw [h3] at e1; cases e1
  rw [h3'] at e2; cases e2
  refine ⟨r, r', h1, h2, h1', h2', moved h4 h4' (hz.trans (le_of_eq ?_))⟩
  norm_num

end

/-! ### The hypotheses can be met -/

/-- The slope bound in a form that can be computed. -/
theorem slopes_of_check {N : Nat} {G : Axes ℚ N} {g : (Fin N → Nat) → ℚ} {S : Fin N → ℚ}
    (h : ∀ j, ∀ loc : (k : Fin N) → Fin (G.size k), (loc j).val + 1 < G.size j →
      |g (Function.update (fun k => (loc k).val) j ((loc j).val + 1)) - g fun k => (loc k).val| ≤
        S j * (G.node j ((loc j).val + 1) - G.node j (loc j).val)) :
    ∀ j, SlopesBounded G g j (S j) := fun j loc hl hj => h j (fun k => ⟨loc k, hl k⟩) hj

/-- Values on a 3×2 grid that increase along both axes. -/
def exIncr64 : List F64 := ([1, 2, 3, 5, 8, 13] : List ℚ).map q64
/-- The same in `f32`. -/
def exIncr32 : List F32 := ([1, 2, 3, 5, 8, 13] : List ℚ).map q32

/-- `C107_linear_rectilinear_f64`: the observation crosses a node. -/
example : ∃ r r', multilinearRectilinearAt .flat false exGrids64 exVals64 ![q64 (1 / 11), q64 (5 / 3)] = .ok r ∧
    multilinearRectilinearAt .flat false exGrids64 exVals64 ![q64 (1 / 9), q64 (5 / 3)] = .ok r' ∧
    |val r' - val r| ≤ (∑ k, ![101, 12] k * |val (![q64 (1 / 9), q64 (5 / 3)] k) - val (![q64 (1 / 11), q64 (5 / 3)] k)|) + 1 / 10 ^ 12 := by
  obtain ⟨r, r', h1, -, h3, -, h4⟩ := C107_linear_rectilinear_f64 .flat (show 0 < 2 by decide)
    (by norm_num) false exGrids64 exVals64 (valid_of_check (by decide +kernel)) (by decide +kernel) 16
    (by norm_num) (by decide +kernel) (valAt 0 (Axes.rectilinear fun k => (exGrids64 k).map val).size (exVals64.map val))
    (samples_valAt _ _ _ (by decide +kernel)) ![101, 12] (slopes_of_check (by decide +kernel))
    ![q64 (1 / 11), q64 (5 / 3)] ![q64 (1 / 9), q64 (5 / 3)] (by decide +kernel) (by decide +kernel)
    (by unfold InRange; decide +kernel) (by unfold InRange; decide +kernel)
  exact ⟨r, r', h1, h3, h4.trans (by gcongr; norm_num)⟩

/-- `C107_monotone_rectilinear_f64`. -/
example : ∃ r r', multilinearRectilinearAt .flat false exGrids64 exIncr64 ![q64 (1 / 11), q64 (5 / 3)] = .ok r ∧
    multilinearRectilinearAt .flat false exGrids64 exIncr64 ![q64 (1 / 9), q64 (5 / 3)] = .ok r' ∧
    val r ≤ val r' + 1 / 10 ^ 12 := by
  obtain ⟨r, r', h1, -, h3, -, h4⟩ := C107_monotone_rectilinear_f64 .flat (show 0 < 2 by decide)
    (by norm_num) false exGrids64 exIncr64 (valid_of_check (by decide +kernel)) (by decide +kernel) 13
    (by norm_num) (by decide +kernel) (valAt 0 (Axes.rectilinear fun k => (exGrids64 k).map val).size (exIncr64.map val))
    (samples_valAt _ _ _ (by decide +kernel)) 0
    (fun loc hl hj => (by decide +kernel : ∀ loc : (k : Fin 2) → Fin (exGrids64 k).length,
      (loc 0).val + 1 < (exGrids64 0).length → (valAt 0 (Axes.rectilinear fun k => (exGrids64 k).map val).size (exIncr64.map val)) (fun k => (loc k).val) ≤
      (valAt 0 (Axes.rectilinear fun k => (exGrids64 k).map val).size (exIncr64.map val)) (Function.update (fun k => (loc k).val) 0 ((loc 0).val + 1)))
      (fun k => ⟨loc k, hl k⟩) hj)
    ![q64 (1 / 11), q64 (5 / 3)] ![q64 (1 / 9), q64 (5 / 3)] (by decide +kernel) (by decide +kernel) (by decide +kernel) (by decide +kernel)
    (by unfold InRange; decide +kernel) (by unfold InRange; decide +kernel)
  exact ⟨r, r', h1, h3, h4.trans (by gcongr; norm_num)⟩

/-- `C107_linear_regular_f64`: the observation crosses a node. -/
example : ∃ r r', multilinearRegularAt (.recursive 8) true ![3, 2] ![q64 (1 / 10), q64 1] ![q64 (1 / 10), q64 2] exVals64 ![q64 (1 / 6), q64 (5 / 3)] = .ok r ∧
    multilinearRegularAt (.recursive 8) true ![3, 2] ![q64 (1 / 10), q64 1] ![q64 (1 / 10), q64 2] exVals64 ![q64 (2 / 7), q64 (5 / 3)] = .ok r' ∧
    |val r' - val r| ≤ (∑ k, ![171, 12] k * |val (![q64 (2 / 7), q64 (5 / 3)] k) - val (![q64 (1 / 6), q64 (5 / 3)] k)|) + 1 / 10 ^ 10 := by
  obtain ⟨r, r', h1, -, h3, -, h4⟩ := C107_linear_regular_f64 (.recursive 8)
    (show 0 < 2 ∧ 2 ≤ 8 by decide) true 4 (by norm_num) (by norm_num) ![3, 2] ![q64 (1 / 10), q64 1] ![q64 (1 / 10), q64 2] exVals64
    (valid_of_check (by decide +kernel)) (by decide +kernel) (by decide +kernel) (by decide +kernel)
    (by decide +kernel) 16 (by norm_num) (by decide +kernel)
    (valAt 0 (Axes.regular ![3, 2] (fun k => val (![q64 (1 / 10), q64 1] k)) fun k => val (![q64 (1 / 10), q64 2] k)).size (exVals64.map val))
    (samples_valAt _ _ _ (by decide +kernel)) ![171, 12] (slopes_of_check (by decide +kernel))
    ![q64 (1 / 6), q64 (5 / 3)] ![q64 (2 / 7), q64 (5 / 3)] (by decide +kernel) (by decide +kernel)
    (by unfold InRange; decide +kernel) (by unfold InRange; decide +kernel)
  exact ⟨r, r', h1, h3, h4.trans (by gcongr; norm_num)⟩

/-- `C107_monotone_regular_f64`. -/
example : ∃ r r', multilinearRegularAt (.recursive 8) true ![3, 2] ![q64 (1 / 10), q64 1] ![q64 (1 / 10), q64 2] exIncr64 ![q64 (1 / 6), q64 (5 / 3)] = .ok r ∧
    multilinearRegularAt (.recursive 8) true ![3, 2] ![q64 (1 / 10), q64 1] ![q64 (1 / 10), q64 2] exIncr64 ![q64 (2 / 7), q64 (5 / 3)] = .ok r' ∧
    val r ≤ val r' + 1 / 10 ^ 10 := by
  obtain ⟨r, r', h1, -, h3, -, h4⟩ := C107_monotone_regular_f64 (.recursive 8)
    (show 0 < 2 ∧ 2 ≤ 8 by decide) true 4 (by norm_num) (by norm_num) ![3, 2] ![q64 (1 / 10), q64 1] ![q64 (1 / 10), q64 2] exIncr64
    (valid_of_check (by decide +kernel)) (by decide +kernel) (by decide +kernel) (by decide +kernel)
    (by decide +kernel) 13 (by norm_num) (by decide +kernel)
    (valAt 0 (Axes.regular ![3, 2] (fun k => val (![q64 (1 / 10), q64 1] k)) fun k => val (![q64 (1 / 10), q64 2] k)).size (exIncr64.map val))
    (samples_valAt _ _ _ (by decide +kernel)) 0
    (fun loc hl hj => (by decide +kernel : ∀ loc : (k : Fin 2) → Fin (![3, 2] k),
      (loc 0).val + 1 < 3 → (valAt 0 (Axes.regular ![3, 2] (fun k => val (![q64 (1 / 10), q64 1] k)) fun k => val (![q64 (1 / 10), q64 2] k)).size (exIncr64.map val)) (fun k => (loc k).val) ≤
      (valAt 0 (Axes.regular ![3, 2] (fun k => val (![q64 (1 / 10), q64 1] k)) fun k => val (![q64 (1 / 10), q64 2] k)).size (exIncr64.map val)) (Function.update (fun k => (loc k).val) 0 ((loc 0).val + 1)))
      (fun k => ⟨loc k, hl k⟩) hj)
    ![q64 (1 / 6), q64 (5 / 3)] ![q64 (2 / 7), q64 (5 / 3)] (by decide +kernel) (by decide +kernel) (by decide +kernel) (by decide +kernel)
    (by unfold InRange; decide +kernel) (by unfold InRange; decide +kernel)
  exact ⟨r, r', h1, h3, h4.trans (by gcongr; norm_num)⟩

/-- `C107_cubic_rectilinear_f64`: the observation crosses a node on both axes. -/
example : ∃ r r', multicubicRectilinearAt .flat false exGrids64c exVals64c true ![q64 (1 / 3), q64 (5 / 3)] = .ok r ∧
    multicubicRectilinearAt .flat false exGrids64c exVals64c true ![q64 (4 / 3), q64 (9 / 4)] = .ok r' ∧
    |val r' - val r| ≤ 3 * (1 + 2 ^ 2 / (2 * (1 + 2))) ^ (2 - 1) *
      (∑ k, ![21, 46] k * |val (![q64 (4 / 3), q64 (9 / 4)] k) - val (![q64 (1 / 3), q64 (5 / 3)] k)|) + 1 / 10 ^ 8 := by
  obtain ⟨r, r', h1, -, h3, -, h4⟩ := C107_cubic_rectilinear_f64 .flat (show 0 < 2 by decide)
    (by norm_num) false exGrids64c exVals64c true (valid_of_check (by decide +kernel))
    (by decide +kernel) 16 (by norm_num) (by norm_num) (by decide +kernel) 2 (by norm_num) (by norm_num)
    (fun k i hi => (show ∀ k, ∀ i < (exGrids64c k).length, i + 2 < (exGrids64c k).length →
      ((exGrids64c k).map val).getD (i + 1) 0 - ((exGrids64c k).map val).getD i 0 ≤
        2 * (((exGrids64c k).map val).getD (i + 2) 0 - ((exGrids64c k).map val).getD (i + 1) 0) ∧
      ((exGrids64c k).map val).getD (i + 2) 0 - ((exGrids64c k).map val).getD (i + 1) 0 ≤
        2 * (((exGrids64c k).map val).getD (i + 1) 0 - ((exGrids64c k).map val).getD i 0) by
      decide +kernel) k i (by omega) hi)
    (valAt 0 (Axes.rectilinear fun k => (exGrids64c k).map val).size (exVals64c.map val))
    (samples_valAt _ _ _ (by decide +kernel)) ![21, 46] (slopes_of_check (by decide +kernel))
    ![q64 (1 / 3), q64 (5 / 3)] ![q64 (4 / 3), q64 (9 / 4)] (by decide +kernel) (by decide +kernel)
    (by unfold InRange; decide +kernel) (by unfold InRange; decide +kernel)
  exact ⟨r, r', h1, h3, h4.trans (by gcongr; norm_num)⟩

/-- `C107_cubic_regular_f64`. -/
example : ∃ r r', multicubicRegularAt .flat true ![4, 5] ![q64 (1 / 10), q64 1] ![q64 (1 / 10), q64 2] exVals64c false ![q64 (1 / 6), q64 (5 / 3)] = .ok r ∧
    multicubicRegularAt .flat true ![4, 5] ![q64 (1 / 10), q64 1] ![q64 (1 / 10), q64 2] exVals64c false ![q64 (2 / 7), q64 (5 / 3)] = .ok r' ∧
    |val r' - val r| ≤ 3 * (5 / 4) ^ (2 - 1) *
      (∑ k, ![211, 12] k * |val (![q64 (2 / 7), q64 (5 / 3)] k) - val (![q64 (1 / 6), q64 (5 / 3)] k)|) + 1 / 10 ^ 8 := by
  obtain ⟨r, r', h1, -, h3, -, h4⟩ := C107_cubic_regular_f64 .flat (show 0 < 2 by decide)
    (by norm_num) true 5 (by norm_num) (by norm_num) ![4, 5] ![q64 (1 / 10), q64 1] ![q64 (1 / 10), q64 2] exVals64c false
    (valid_of_check (by decide +kernel)) (by decide +kernel) (by decide +kernel) (by decide +kernel)
    (by decide +kernel) 16 (by norm_num) (by norm_num) (by decide +kernel)
    (valAt 0 (Axes.regular ![4, 5] (fun k => val (![q64 (1 / 10), q64 1] k)) fun k => val (![q64 (1 / 10), q64 2] k)).size (exVals64c.map val))
    (samples_valAt _ _ _ (by decide +kernel)) ![211, 12] (slopes_of_check (by decide +kernel))
    ![q64 (1 / 6), q64 (5 / 3)] ![q64 (2 / 7), q64 (5 / 3)] (by decide +kernel) (by decide +kernel)
    (by unfold InRange; decide +kernel) (by unfold InRange; decide +kernel)
  exact ⟨r, r', h1, h3, h4.trans (by gcongr; norm_num)⟩

/-- `C107_linear_rectilinear_f32`: the observation crosses a node. -/
example : ∃ r r', multilinearRectilinearAt .flat false exGrids32 exVals32 ![q32 (1 / 11), q32 (5 / 3)] = .ok r ∧
    multilinearRectilinearAt .flat false exGrids32 exVals32 ![q32 (1 / 9), q32 (5 / 3)] = .ok r' ∧
    |val r' - val r| ≤ (∑ k, ![101, 12] k * |val (![q32 (1 / 9), q32 (5 / 3)] k) - val (![q32 (1 / 11), q32 (5 / 3)] k)|) + 1 / 10 ^ 3 := by
  obtain ⟨r, r', h1, -, h3, -, h4⟩ := C107_linear_rectilinear_f32 .flat (show 0 < 2 by decide)
    (by norm_num) false exGrids32 exVals32 (valid_of_check (by decide +kernel)) (by decide +kernel) 16
    (by norm_num) (by decide +kernel) (valAt 0 (Axes.rectilinear fun k => (exGrids32 k).map val).size (exVals32.map val))
    (samples_valAt _ _ _ (by decide +kernel)) ![101, 12] (slopes_of_check (by decide +kernel))
    ![q32 (1 / 11), q32 (5 / 3)] ![q32 (1 / 9), q32 (5 / 3)] (by decide +kernel) (by decide +kernel)
    (by unfold InRange; decide +kernel) (by unfold InRange; decide +kernel)
  exact ⟨r, r', h1, h3, h4.trans (by gcongr; norm_num)⟩

/-- `C107_monotone_rectilinear_f32`. -/
example : ∃ r r', multilinearRectilinearAt .flat false exGrids32 exIncr32 ![q32 (1 / 11), q32 (5 / 3)] = .ok r ∧
    multilinearRectilinearAt .flat false exGrids32 exIncr32 ![q32 (1 / 9), q32 (5 / 3)] = .ok r' ∧
    val r ≤ val r' + 1 / 10 ^ 3 := by
  obtain ⟨r, r', h1, -, h3, -, h4⟩ := C107_monotone_rectilinear_f32 .flat (show 0 < 2 by decide)
    (by norm_num) false exGrids32 exIncr32 (valid_of_check (by decide +kernel)) (by decide +kernel) 13
    (by norm_num) (by decide +kernel) (valAt 0 (Axes.rectilinear fun k => (exGrids32 k).map val).size (exIncr32.map val))
    (samples_valAt _ _ _ (by decide +kernel)) 0
    (fun loc hl hj => (by decide +kernel : ∀ loc : (k : Fin 2) → Fin (exGrids32 k).length,
      (loc 0).val + 1 < (exGrids32 0).length → (valAt 0 (Axes.rectilinear fun k => (exGrids32 k).map val).size (exIncr32.map val)) (fun k => (loc k).val) ≤
      (valAt 0 (Axes.rectilinear fun k => (exGrids32 k).map val).size (exIncr32.map val)) (Function.update (fun k => (loc k).val) 0 ((loc 0).val + 1)))
      (fun k => ⟨loc k, hl k⟩) hj)
    ![q32 (1 / 11), q32 (5 / 3)] ![q32 (1 / 9), q32 (5 / 3)] (by decide +kernel) (by decide +kernel) (by decide +kernel) (by decide +kernel)
    (by unfold InRange; decide +kernel) (by unfold InRange; decide +kernel)
  exact ⟨r, r', h1, h3, h4.trans (by gcongr; norm_num)⟩

/-- `C107_linear_regular_f32`: the observation crosses a node. -/
example : ∃ r r', multilinearRegularAt (.recursive 8) true ![3, 2] ![q32 (1 / 10), q32 1] ![q32 (1 / 10), q32 2] exVals32 ![q32 (1 / 6), q32 (5 / 3)] = .ok r ∧
    multilinearRegularAt (.recursive 8) true ![3, 2] ![q32 (1 / 10), q32 1] ![q32 (1 / 10), q32 2] exVals32 ![q32 (2 / 7), q32 (5 / 3)] = .ok r' ∧
    |val r' - val r| ≤ (∑ k, ![171, 12] k * |val (![q32 (2 / 7), q32 (5 / 3)] k) - val (![q32 (1 / 6), q32 (5 / 3)] k)|) + 1 / 10 := by
  obtain ⟨r, r', h1, -, h3, -, h4⟩ := C107_linear_regular_f32 (.recursive 8)
    (show 0 < 2 ∧ 2 ≤ 8 by decide) true 4 (by norm_num) (by norm_num) ![3, 2] ![q32 (1 / 10), q32 1] ![q32 (1 / 10), q32 2] exVals32
    (valid_of_check (by decide +kernel)) (by decide +kernel) (by decide +kernel) (by decide +kernel)
    (by decide +kernel) 16 (by norm_num) (by decide +kernel)
    (valAt 0 (Axes.regular ![3, 2] (fun k => val (![q32 (1 / 10), q32 1] k)) fun k => val (![q32 (1 / 10), q32 2] k)).size (exVals32.map val))
    (samples_valAt _ _ _ (by decide +kernel)) ![171, 12] (slopes_of_check (by decide +kernel))
    ![q32 (1 / 6), q32 (5 / 3)] ![q32 (2 / 7), q32 (5 / 3)] (by decide +kernel) (by decide +kernel)
    (by unfold InRange; decide +kernel) (by unfold InRange; decide +kernel)
  exact ⟨r, r', h1, h3, h4.trans (by gcongr; norm_num)⟩

/-- `C107_monotone_regular_f32`. -/
example : ∃ r r', multilinearRegularAt (.recursive 8) true ![3, 2] ![q32 (1 / 10), q32 1] ![q32 (1 / 10), q32 2] exIncr32 ![q32 (1 / 6), q32 (5 / 3)] = .ok r ∧
    multilinearRegularAt (.recursive 8) true ![3, 2] ![q32 (1 / 10), q32 1] ![q32 (1 / 10), q32 2] exIncr32 ![q32 (2 / 7), q32 (5 / 3)] = .ok r' ∧
    val r ≤ val r' + 1 / 10 := by
  obtain ⟨r, r', h1, -, h3, -, h4⟩ := C107_monotone_regular_f32 (.recursive 8)
    (show 0 < 2 ∧ 2 ≤ 8 by decide) true 4 (by norm_num) (by norm_num) ![3, 2] ![q32 (1 / 10), q32 1] ![q32 (1 / 10), q32 2] exIncr32
    (valid_of_check (by decide +kernel)) (by decide +kernel) (by decide +kernel) (by decide +kernel)
    (by decide +kernel) 13 (by norm_num) (by decide +kernel)
    (valAt 0 (Axes.regular ![3, 2] (fun k => val (![q32 (1 / 10), q32 1] k)) fun k => val (![q32 (1 / 10), q32 2] k)).size (exIncr32.map val))
    (samples_valAt _ _ _ (by decide +kernel)) 0
    (fun loc hl hj => (by decide +kernel : ∀ loc : (k : Fin 2) → Fin (![3, 2] k),
      (loc 0).val + 1 < 3 → (valAt 0 (Axes.regular ![3, 2] (fun k => val (![q32 (1 / 10), q32 1] k)) fun k => val (![q32 (1 / 10), q32 2] k)).size (exIncr32.map val)) (fun k => (loc k).val) ≤
      (valAt 0 (Axes.regular ![3, 2] (fun k => val (![q32 (1 / 10), q32 1] k)) fun k => val (![q32 (1 / 10), q32 2] k)).size (exIncr32.map val)) (Function.update (fun k => (loc k).val) 0 ((loc 0).val + 1)))
      (fun k => ⟨loc k, hl k⟩) hj)
    ![q32 (1 / 6), q32 (5 / 3)] ![q32 (2 / 7), q32 (5 / 3)] (by decide +kernel) (by decide +kernel) (by decide +kernel) (by decide +kernel)
    (by unfold InRange; decide +kernel) (by unfold InRange; decide +kernel)
  exact ⟨r, r', h1, h3, h4.trans (by gcongr; norm_num)⟩

/-- `C107_cubic_rectilinear_f32`: the observation crosses a node on both axes. -/
example : ∃ r r', multicubicRectilinearAt .flat false exGrids32c exVals32c true ![q32 (1 / 3), q32 (5 / 3)] = .ok r ∧
    multicubicRectilinearAt .flat false exGrids32c exVals32c true ![q32 (4 / 3), q32 (9 / 4)] = .ok r' ∧
    |val r' - val r| ≤ 3 * (1 + 2 ^ 2 / (2 * (1 + 2))) ^ (2 - 1) *
      (∑ k, ![21, 46] k * |val (![q32 (4 / 3), q32 (9 / 4)] k) - val (![q32 (1 / 3), q32 (5 / 3)] k)|) + 1 := by
  obtain ⟨r, r', h1, -, h3, -, h4⟩ := C107_cubic_rectilinear_f32 .flat (show 0 < 2 by decide)
    (by norm_num) false exGrids32c exVals32c true (valid_of_check (by decide +kernel))
    (by decide +kernel) 16 (by norm_num) (by norm_num) (by decide +kernel) 2 (by norm_num) (by norm_num)
    (fun k i hi => (show ∀ k, ∀ i < (exGrids32c k).length, i + 2 < (exGrids32c k).length →
      ((exGrids32c k).map val).getD (i + 1) 0 - ((exGrids32c k).map val).getD i 0 ≤
        2 * (((exGrids32c k).map val).getD (i + 2) 0 - ((exGrids32c k).map val).getD (i + 1) 0) ∧
      ((exGrids32c k).map val).getD (i + 2) 0 - ((exGrids32c k).map val).getD (i + 1) 0 ≤
        2 * (((exGrids32c k).map val).getD (i + 1) 0 - ((exGrids32c k).map val).getD i 0) by
      decide +kernel) k i (by omega) hi)
    (valAt 0 (Axes.rectilinear fun k => (exGrids32c k).map val).size (exVals32c.map val))
    (samples_valAt _ _ _ (by decide +kernel)) ![21, 46] (slopes_of_check (by decide +kernel))
    ![q32 (1 / 3), q32 (5 / 3)] ![q32 (4 / 3), q32 (9 / 4)] (by decide +kernel) (by decide +kernel)
    (by unfold InRange; decide +kernel) (by unfold InRange; decide +kernel)
  exact ⟨r, r', h1, h3, h4.trans (by gcongr; norm_num)⟩

/-- `C107_cubic_regular_f32`. -/
example : ∃ r r', multicubicRegularAt .flat true ![4, 5] ![q32 (1 / 10), q32 1] ![q32 (1 / 10), q32 2] exVals32c false ![q32 (1 / 6), q32 (5 / 3)] = .ok r ∧
    multicubicRegularAt .flat true ![4, 5] ![q32 (1 / 10), q32 1] ![q32 (1 / 10), q32 2] exVals32c false ![q32 (2 / 7), q32 (5 / 3)] = .ok r' ∧
    |val r' - val r| ≤ 3 * (5 / 4) ^ (2 - 1) *
      (∑ k, ![211, 12] k * |val (![q32 (2 / 7), q32 (5 / 3)] k) - val (![q32 (1 / 6), q32 (5 / 3)] k)|) + 1 := by
  obtain ⟨r, r', h1, -, h3, -, h4⟩ := C107_cubic_regular_f32 .flat (show 0 < 2 by decide)
    (by norm_num) true 5 (by norm_num) (by norm_num) ![4, 5] ![q32 (1 / 10), q32 1] ![q32 (1 / 10), q32 2] exVals32c false
    (valid_of_check (by decide +kernel)) (by decide +kernel) (by decide +kernel) (by decide +kernel)
    (by decide +kernel) 16 (by norm_num) (by norm_num) (by decide +kernel)
    (valAt 0 (Axes.regular ![4, 5] (fun k => val (![q32 (1 / 10), q32 1] k)) fun k => val (![q32 (1 / 10), q32 2] k)).size (exVals32c.map val))
    (samples_valAt _ _ _ (by decide +kernel)) ![211, 12] (slopes_of_check (by decide +kernel))
    ![q32 (1 / 6), q32 (5 / 3)] ![q32 (2 / 7), q32 (5 / 3)] (by decide +kernel) (by decide +kernel)
    (by unfold InRange; decide +kernel) (by unfold InRange; decide +kernel)
  exact ⟨r, r', h1, h3, h4.trans (by gcongr; norm_num)⟩

end Interpn
