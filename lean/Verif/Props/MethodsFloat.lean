import Verif.Props.Methods
import Verif.Props.Smooth
import Verif.Props.IeeeAccuracy
import Verif.Props.IeeeCubic

/-! C135 in `f64` and `f32`: the distance of linear and cubic results, with their rounding errors. -/

set_option autoImplicit false
set_option linter.unusedSectionVars false
set_option exponentiation.threshold 1100

namespace Interpn
open Ieee

section
variable {N : Nat}

/-- Two computed results whose exact counterparts are within `W`. -/
theorem methods_float {f : Format} {a b : Res (Ieee f)} {A B : Res ℚ} {E E' W : ℚ}
    (ha : ∃ r y, a = .ok r ∧ Finite r ∧ A = .ok y ∧ |val r - y| ≤ E)
    (hb : ∃ r y, b = .ok r ∧ Finite r ∧ B = .ok y ∧ |val r - y| ≤ E')
    (h : ∃ y z, A = .ok y ∧ B = .ok z ∧ |z - y| ≤ W) :
    ∃ r s, a = .ok r ∧ b = .ok s ∧ Finite r ∧ Finite s ∧ |val s - val r| ≤ W + E + E' := by
  obtain ⟨r, y, h1, h2, h3, h4⟩ := ha
  obtain ⟨s, z, k1, k2, k3, k4⟩ := hb
  obtain ⟨y', z', e1, e2, e3⟩ := h
  rw [h3] at e1
  rw [k3] at e2
  cases e1
  cases e2
  refine ⟨r, s, h1, k1, h2, k2, ?_⟩
  rw [abs_le] at *
  constructor <;> linarith [h4.1, h4.2, k4.1, k4.2, e3.1, e3.2]

theorem methods_size {κ B : ℚ} (hκ : 0 ≤ κ) (h : 4200 * N * (1 + κ) ≤ B) : 100 * N * (1 + κ) ≤ B := by
  have : 0 ≤ (N : ℚ) * (1 + κ) := by positivity
  linarith

/-- C135, `f64` on a regular grid. -/
theorem C135_regular_f64 (e e' : Evaluator) (he : e.Fits N) (he' : e'.Fits N) (hN8 : N ≤ 8)
    (fma fma' lin : Bool) (κ : ℚ) (hκ : 0 ≤ κ) (hN : 4200 * N * (1 + κ) ≤ 2 ^ 53)
    (dims : Fin N → Nat) (starts steps : Fin N → F64) (vals : List F64)
    (hG : (Axes.regular dims (fun k => val (starts k)) fun k => val (steps k)).Valid 4 (vals.map val))
    (hfin : ∀ k, Finite (starts k) ∧ Finite (steps k)) (hnormal : ∀ k, 1 / 2 ^ 1022 ≤ val (steps k))
    (hnodes : ∀ k, |val (starts k)| ≤ κ * val (steps k) ∧
      |val (starts k) + val (steps k) * ((dims k - 1 : Nat) : ℚ)| ≤ κ * val (steps k))
    (hlarge : ∀ k, κ * val (steps k) ≤ 2 ^ 1020) (M : ℚ) (hM : M ≤ 2 ^ 1000) (hM1 : 1 / 2 ^ 1022 ≤ M)
    (hvals : ∀ v ∈ vals, Finite v ∧ |val v| ≤ M) (g : (Fin N → Nat) → ℚ)
    (hg : Samples dims (vals.map val) g) (S : Fin N → ℚ)
    (hS : ∀ k, ∀ loc : Fin N → Nat, (∀ k, loc k < dims k) → loc k + 2 < dims k →
      |g (Function.update loc k (loc k + 2)) - 2 * g (Function.update loc k (loc k + 1)) + g loc| ≤
        S k)
    (x : Fin N → F64) (hx : ∀ k, Finite (x k))
    (hin : ∀ k, InRange (dims k) (fun i => val (starts k) + val (steps k) * (i : ℚ)) (val (x k))) :
    ∃ r s, multilinearRegularAt e fma dims starts steps vals x = .ok r ∧
      multicubicRegularAt e' fma' dims starts steps vals lin x = .ok s ∧ Finite r ∧ Finite s ∧
      |val s - val r| ≤ (5 / 4) ^ (N - 1) * ∑ k, S k / 8 +
        (60 * N * (1 + κ) * (1 / 2 ^ 53) * M + 3 * N * (1 / 2 ^ 1075)) +
        4200 * N * (1 + κ) * (1 / 2 ^ 53) * (5 / 4) ^ N * M := by
  exact methods_float
    (C81_regular_f64 e he fma κ hκ (methods_size hκ hN) dims starts steps vals (hG.mono (by decide)) hfin hnormal
      hnodes hlarge M (hM.trans (by norm_num)) hvals x hx hin)
    (C82_regular_f64 e' he' hN8 fma' κ hκ hN dims starts steps vals lin hG hfin hnormal hnodes hlarge M hM
      hM1 hvals x hx hin)
    (C135_multicubic_multilinear_regular e e' he he' fma fma' lin _ _ _ _ hG g hg S hS _ hin)

/-- C135, `f64` on a rectilinear grid. -/
theorem C135_rectilinear_f64 (e e' : Evaluator) (he : e.Fits N) (he' : e'.Fits N) (hN8 : N ≤ 8)
    (fma fma' lin : Bool) (grids : Fin N → List F64) (vals : List F64)
    (hG : (Axes.rectilinear fun k => (grids k).map val).Valid 4 (vals.map val))
    (hgrid : ∀ k, ∀ a ∈ grids k, Finite a ∧ |val a| ≤ 2 ^ 1022)
    (M : ℚ) (hM : M ≤ 2 ^ 700) (hM1 : 1 / 2 ^ 1022 ≤ M)
    (hvals : ∀ v ∈ vals, Finite v ∧ |val v| ≤ M) (ρ : ℚ) (hρ : 1 ≤ ρ) (hρ2 : ρ ≤ 2 ^ 30)
    (hmesh : ∀ k, MeshRatio (grids k).length (fun i => ((grids k).map val).getD i 0) ρ)
    (g : (Fin N → Nat) → ℚ) (hg : Samples (fun k => (grids k).length) (vals.map val) g)
    (w J : Fin N → ℚ)
    (hw : ∀ k i, i + 1 < (grids k).length →
      ((grids k).map val).getD (i + 1) 0 - ((grids k).map val).getD i 0 ≤ w k)
    (hJ : ∀ k, ∀ loc : Fin N → Nat, (∀ k, loc k < (grids k).length) → loc k + 2 < (grids k).length →
      |(g (Function.update loc k (loc k + 2)) - g (Function.update loc k (loc k + 1))) /
          (((grids k).map val).getD (loc k + 2) 0 - ((grids k).map val).getD (loc k + 1) 0) -
        (g (Function.update loc k (loc k + 1)) - g loc) /
          (((grids k).map val).getD (loc k + 1) 0 - ((grids k).map val).getD (loc k) 0)| ≤ J k)
    (x : Fin N → F64) (hx : ∀ k, Finite (x k))
    (hin : ∀ k, InRange (grids k).length (fun i => ((grids k).map val).getD i 0) (val (x k))) :
    ∃ r s, multilinearRectilinearAt e fma grids vals x = .ok r ∧
      multicubicRectilinearAt e' fma' grids vals lin x = .ok s ∧ Finite r ∧ Finite s ∧
      |val s - val r| ≤
        (1 + ρ ^ 2 / (2 * (1 + ρ))) ^ (N - 1) * ∑ k, ρ / (4 * (1 + ρ)) * w k * J k +
        (26 * N * (1 / 2 ^ 53) * M + 3 * N * (1 / 2 ^ 1075)) +
        3200 * N * ρ * (1 / 2 ^ 53) * (1 + ρ ^ 2 / (2 * (1 + ρ))) ^ N * M := by
  have hsz : (Axes.rectilinear fun k => (grids k).map val : Axes ℚ N).size =
      fun k => (grids k).length := by funext k; simp [Axes.size]
  exact methods_float
    (C81_rectilinear_f64 e he (by omega) fma grids vals (hG.mono (by decide)) hgrid M
      (hM.trans (by norm_num)) hvals x hx hin)
    (C82_rectilinear_f64 e' he' hN8 fma' grids vals lin hG hgrid M hM hM1 hvals x hx hin ρ hρ hρ2 hmesh)
    (C135_multicubic_multilinear e e' he he' fma fma' lin _ _ hG g (by rwa [hsz]) ρ
      (by simp only [hsz]; exact hmesh) w J (by simp only [hsz]; exact hw) (by simp only [hsz]; exact hJ)
      _ (by simp only [hsz]; exact hin))

/-- C135, `f32` on a regular grid. -/
theorem C135_regular_f32 (e e' : Evaluator) (he : e.Fits N) (he' : e'.Fits N) (hN8 : N ≤ 8)
    (fma fma' lin : Bool) (κ : ℚ) (hκ : 0 ≤ κ) (hN : 4200 * N * (1 + κ) ≤ 2 ^ 24)
    (dims : Fin N → Nat) (starts steps : Fin N → F32) (vals : List F32)
    (hG : (Axes.regular dims (fun k => val (starts k)) fun k => val (steps k)).Valid 4 (vals.map val))
    (hfin : ∀ k, Finite (starts k) ∧ Finite (steps k)) (hnormal : ∀ k, 1 / 2 ^ 126 ≤ val (steps k))
    (hnodes : ∀ k, |val (starts k)| ≤ κ * val (steps k) ∧
      |val (starts k) + val (steps k) * ((dims k - 1 : Nat) : ℚ)| ≤ κ * val (steps k))
    (hlarge : ∀ k, κ * val (steps k) ≤ 2 ^ 124) (M : ℚ) (hM : M ≤ 2 ^ 110) (hM1 : 1 / 2 ^ 126 ≤ M)
    (hvals : ∀ v ∈ vals, Finite v ∧ |val v| ≤ M) (g : (Fin N → Nat) → ℚ)
    (hg : Samples dims (vals.map val) g) (S : Fin N → ℚ)
    (hS : ∀ k, ∀ loc : Fin N → Nat, (∀ k, loc k < dims k) → loc k + 2 < dims k →
      |g (Function.update loc k (loc k + 2)) - 2 * g (Function.update loc k (loc k + 1)) + g loc| ≤
        S k)
    (x : Fin N → F32) (hx : ∀ k, Finite (x k))
    (hin : ∀ k, InRange (dims k) (fun i => val (starts k) + val (steps k) * (i : ℚ)) (val (x k))) :
    ∃ r s, multilinearRegularAt e fma dims starts steps vals x = .ok r ∧
      multicubicRegularAt e' fma' dims starts steps vals lin x = .ok s ∧ Finite r ∧ Finite s ∧
      |val s - val r| ≤ (5 / 4) ^ (N - 1) * ∑ k, S k / 8 +
        (60 * N * (1 + κ) * (1 / 2 ^ 24) * M + 3 * N * (1 / 2 ^ 150)) +
        4200 * N * (1 + κ) * (1 / 2 ^ 24) * (5 / 4) ^ N * M := by
  exact methods_float
    (C81_regular_f32 e he fma κ hκ (methods_size hκ hN) dims starts steps vals (hG.mono (by decide)) hfin hnormal
      hnodes hlarge M (hM.trans (by norm_num)) hvals x hx hin)
    (C82_regular_f32 e' he' hN8 fma' κ hκ hN dims starts steps vals lin hG hfin hnormal hnodes hlarge M hM
      hM1 hvals x hx hin)
    (C135_multicubic_multilinear_regular e e' he he' fma fma' lin _ _ _ _ hG g hg S hS _ hin)

/-- C135, `f32` on a rectilinear grid. -/
theorem C135_rectilinear_f32 (e e' : Evaluator) (he : e.Fits N) (he' : e'.Fits N) (hN8 : N ≤ 8)
    (fma fma' lin : Bool) (grids : Fin N → List F32) (vals : List F32)
    (hG : (Axes.rectilinear fun k => (grids k).map val).Valid 4 (vals.map val))
    (hgrid : ∀ k, ∀ a ∈ grids k, Finite a ∧ |val a| ≤ 2 ^ 126)
    (M : ℚ) (hM : M ≤ 2 ^ 40) (hM1 : 1 / 2 ^ 126 ≤ M)
    (hvals : ∀ v ∈ vals, Finite v ∧ |val v| ≤ M) (ρ : ℚ) (hρ : 1 ≤ ρ) (hρ2 : ρ ≤ 2 ^ 9)
    (hmesh : ∀ k, MeshRatio (grids k).length (fun i => ((grids k).map val).getD i 0) ρ)
    (g : (Fin N → Nat) → ℚ) (hg : Samples (fun k => (grids k).length) (vals.map val) g)
    (w J : Fin N → ℚ)
    (hw : ∀ k i, i + 1 < (grids k).length →
      ((grids k).map val).getD (i + 1) 0 - ((grids k).map val).getD i 0 ≤ w k)
    (hJ : ∀ k, ∀ loc : Fin N → Nat, (∀ k, loc k < (grids k).length) → loc k + 2 < (grids k).length →
      |(g (Function.update loc k (loc k + 2)) - g (Function.update loc k (loc k + 1))) /
          (((grids k).map val).getD (loc k + 2) 0 - ((grids k).map val).getD (loc k + 1) 0) -
        (g (Function.update loc k (loc k + 1)) - g loc) /
          (((grids k).map val).getD (loc k + 1) 0 - ((grids k).map val).getD (loc k) 0)| ≤ J k)
    (x : Fin N → F32) (hx : ∀ k, Finite (x k))
    (hin : ∀ k, InRange (grids k).length (fun i => ((grids k).map val).getD i 0) (val (x k))) :
    ∃ r s, multilinearRectilinearAt e fma grids vals x = .ok r ∧
      multicubicRectilinearAt e' fma' grids vals lin x = .ok s ∧ Finite r ∧ Finite s ∧
      |val s - val r| ≤
        (1 + ρ ^ 2 / (2 * (1 + ρ))) ^ (N - 1) * ∑ k, ρ / (4 * (1 + ρ)) * w k * J k +
        (26 * N * (1 / 2 ^ 24) * M + 3 * N * (1 / 2 ^ 150)) +
        3200 * N * ρ * (1 / 2 ^ 24) * (1 + ρ ^ 2 / (2 * (1 + ρ))) ^ N * M := by
  have hsz : (Axes.rectilinear fun k => (grids k).map val : Axes ℚ N).size =
      fun k => (grids k).length := by funext k; simp [Axes.size]
  exact methods_float
    (C81_rectilinear_f32 e he (by omega) fma grids vals (hG.mono (by decide)) hgrid M
      (hM.trans (by norm_num)) hvals x hx hin)
    (C82_rectilinear_f32 e' he' hN8 fma' grids vals lin hG hgrid M hM hM1 hvals x hx hin ρ hρ hρ2 hmesh)
    (C135_multicubic_multilinear e e' he he' fma fma' lin _ _ hG g (by rwa [hsz]) ρ
      (by simp only [hsz]; exact hmesh) w J (by simp only [hsz]; exact hw) (by simp only [hsz]; exact hJ)
      _ (by simp only [hsz]; exact hin))

end

section Examples

/-- Second differences of `0 1 4 9` are 2, in `f64`. -/
example (x : Fin 1 → F64) (hx : ∀ k, Finite (x k))
    (hin : ∀ k : Fin 1, InRange 4 (fun i => val (q64 0) + val (q64 (1 / 2)) * (i : ℚ)) (val (x k))) :
    ∃ r s, multilinearRegularAt .flat true (fun _ : Fin 1 => 4) (fun _ => q64 0) (fun _ => q64 (1 / 2))
      [q64 0, q64 1, q64 4, q64 9] x = .ok r ∧
      multicubicRegularAt .flat false (fun _ : Fin 1 => 4) (fun _ => q64 0) (fun _ => q64 (1 / 2))
        [q64 0, q64 1, q64 4, q64 9] false x = .ok s ∧ Finite r ∧ Finite s ∧
      |val s - val r| ≤ 1 / 4 + 1 / 10 ^ 10 := by
  have hG : (Axes.regular (fun _ : Fin 1 => 4) (fun _ => val (q64 0)) fun _ => val (q64 (1 / 2))).Valid 4
      ([q64 0, q64 1, q64 4, q64 9].map val) := valid_of_check (by decide +kernel)
  obtain ⟨r, s, h1, h2, h3, h4, h5⟩ := C135_regular_f64 (N := 1) .flat .flat Nat.one_pos Nat.one_pos
    (by decide) true false false 3 (by norm_num) (by norm_num) (fun _ => 4) (fun _ => q64 0)
    (fun _ => q64 (1 / 2)) [q64 0, q64 1, q64 4, q64 9] hG (by decide +kernel) (by decide +kernel)
    (by decide +kernel) (by decide +kernel) 9 (by norm_num) (by norm_num) (by decide +kernel) _
    (samples_valAt 0 _ _ hG.len) (fun _ => 2) (by
      intro k loc hl hk
      obtain ⟨a, rfl⟩ : ∃ a, loc = ![a] := ⟨loc 0, by funext k; fin_cases k; rfl⟩
      clear hl hin hx x hG
      fin_cases k
      replace hk : a + 2 < 4 := hk
      have : a < 2 := by omega
      interval_cases a <;> decide +kernel) x hx hin
  refine ⟨r, s, h1, h2, h3, h4, h5.trans ?_⟩
  rw [Fin.sum_univ_one]
  norm_num

/-- Slopes `1, 1, 2` on an axis with ratio 2, in `f64`. -/
example (x : Fin 1 → F64) (hx : ∀ k, Finite (x k))
    (hin : ∀ k : Fin 1, InRange 4 (fun i => ([q64 0, q64 1, q64 3, q64 4].map val).getD i 0) (val (x k))) :
    ∃ r s, multilinearRectilinearAt .flat true (fun _ : Fin 1 => [q64 0, q64 1, q64 3, q64 4])
      [q64 0, q64 1, q64 3, q64 5] x = .ok r ∧
      multicubicRectilinearAt .flat false (fun _ : Fin 1 => [q64 0, q64 1, q64 3, q64 4])
        [q64 0, q64 1, q64 3, q64 5] true x = .ok s ∧ Finite r ∧ Finite s ∧
      |val s - val r| ≤ 1 / 3 + 1 / 10 ^ 10 := by
  have hG : (Axes.rectilinear fun _ : Fin 1 => [q64 0, q64 1, q64 3, q64 4].map val).Valid 4
      ([q64 0, q64 1, q64 3, q64 5].map val) := valid_of_check (by decide +kernel)
  obtain ⟨r, s, h1, h2, h3, h4, h5⟩ := C135_rectilinear_f64 (N := 1) .flat .flat Nat.one_pos Nat.one_pos
    (by decide) true false true (fun _ => [q64 0, q64 1, q64 3, q64 4]) [q64 0, q64 1, q64 3, q64 5] hG
    (by decide +kernel) 5 (by norm_num) (by norm_num) (by decide +kernel) 2 (by norm_num) (by norm_num)
    (by
      intro k i hi
      replace hi : i + 2 < 4 := hi
      have : i < 2 := by omega
      clear hin hx x hG
      interval_cases i <;> constructor <;> decide +kernel) _ (samples_valAt 0 _ _ hG.len)
    (fun _ => 2) (fun _ => 1) (by
      intro k i hi
      replace hi : i + 1 < 4 := hi
      have : i < 3 := by omega
      clear hin hx x hG
      interval_cases i <;> decide +kernel) (by
      intro k loc hl hk
      obtain ⟨a, rfl⟩ : ∃ a, loc = ![a] := ⟨loc 0, by funext k; fin_cases k; rfl⟩
      clear hl hin hx x hG
      fin_cases k
      replace hk : a + 2 < 4 := hk
      have : a < 2 := by omega
      interval_cases a <;> decide +kernel) x hx hin
  refine ⟨r, s, h1, h2, h3, h4, h5.trans ?_⟩
  rw [Fin.sum_univ_one]
  norm_num

/-- Second differences of `0 1 4 9` are 2, in `f32`. -/
example (x : Fin 1 → F32) (hx : ∀ k, Finite (x k))
    (hin : ∀ k : Fin 1, InRange 4 (fun i => val (q32 0) + val (q32 (1 / 2)) * (i : ℚ)) (val (x k))) :
    ∃ r s, multilinearRegularAt .flat true (fun _ : Fin 1 => 4) (fun _ => q32 0) (fun _ => q32 (1 / 2))
      [q32 0, q32 1, q32 4, q32 9] x = .ok r ∧
      multicubicRegularAt .flat false (fun _ : Fin 1 => 4) (fun _ => q32 0) (fun _ => q32 (1 / 2))
        [q32 0, q32 1, q32 4, q32 9] false x = .ok s ∧ Finite r ∧ Finite s ∧
      |val s - val r| ≤ 1 / 4 + 1 / 10 := by
  have hG : (Axes.regular (fun _ : Fin 1 => 4) (fun _ => val (q32 0)) fun _ => val (q32 (1 / 2))).Valid 4
      ([q32 0, q32 1, q32 4, q32 9].map val) := valid_of_check (by decide +kernel)
  obtain ⟨r, s, h1, h2, h3, h4, h5⟩ := C135_regular_f32 (N := 1) .flat .flat Nat.one_pos Nat.one_pos
    (by decide) true false false 3 (by norm_num) (by norm_num) (fun _ => 4) (fun _ => q32 0)
    (fun _ => q32 (1 / 2)) [q32 0, q32 1, q32 4, q32 9] hG (by decide +kernel) (by decide +kernel)
    (by decide +kernel) (by decide +kernel) 9 (by norm_num) (by norm_num) (by decide +kernel) _
    (samples_valAt 0 _ _ hG.len) (fun _ => 2) (by
      intro k loc hl hk
      obtain ⟨a, rfl⟩ : ∃ a, loc = ![a] := ⟨loc 0, by funext k; fin_cases k; rfl⟩
      clear hl hin hx x hG
      fin_cases k
      replace hk : a + 2 < 4 := hk
      have : a < 2 := by omega
      interval_cases a <;> decide +kernel) x hx hin
  refine ⟨r, s, h1, h2, h3, h4, h5.trans ?_⟩
  rw [Fin.sum_univ_one]
  norm_num

/-- Slopes `1, 1, 2` on an axis with ratio 2, in `f32`. -/
example (x : Fin 1 → F32) (hx : ∀ k, Finite (x k))
    (hin : ∀ k : Fin 1, InRange 4 (fun i => ([q32 0, q32 1, q32 3, q32 4].map val).getD i 0) (val (x k))) :
    ∃ r s, multilinearRectilinearAt .flat true (fun _ : Fin 1 => [q32 0, q32 1, q32 3, q32 4])
      [q32 0, q32 1, q32 3, q32 5] x = .ok r ∧
      multicubicRectilinearAt .flat false (fun _ : Fin 1 => [q32 0, q32 1, q32 3, q32 4])
        [q32 0, q32 1, q32 3, q32 5] true x = .ok s ∧ Finite r ∧ Finite s ∧
      |val s - val r| ≤ 1 / 3 + 1 / 10 := by
  have hG : (Axes.rectilinear fun _ : Fin 1 => [q32 0, q32 1, q32 3, q32 4].map val).Valid 4
      ([q32 0, q32 1, q32 3, q32 5].map val) := valid_of_check (by decide +kernel)
  obtain ⟨r, s, h1, h2, h3, h4, h5⟩ := C135_rectilinear_f32 (N := 1) .flat .flat Nat.one_pos Nat.one_pos
    (by decide) true false true (fun _ => [q32 0, q32 1, q32 3, q32 4]) [q32 0, q32 1, q32 3, q32 5] hG
    (by decide +kernel) 5 (by norm_num) (by norm_num) (by decide +kernel) 2 (by norm_num) (by norm_num)
    (by
      intro k i hi
      replace hi : i + 2 < 4 := hi
      have : i < 2 := by omega
      clear hin hx x hG
      interval_cases i <;> constructor <;> decide +kernel) _ (samples_valAt 0 _ _ hG.len)
    (fun _ => 2) (fun _ => 1) (by
      intro k i hi
      replace hi : i + 1 < 4 := hi
      have : i < 3 := by omega
      clear hin hx x hG
      interval_cases i <;> decide +kernel) (by
      intro k loc hl hk
      obtain ⟨a, rfl⟩ : ∃ a, loc = ![a] := ⟨loc 0, by funext k; fin_cases k; rfl⟩
      clear hl hin hx x hG
      fin_cases k
      replace hk : a + 2 < 4 := hk
      have : a < 2 := by omega
      interval_cases a <;> decide +kernel) x hx hin
  refine ⟨r, s, h1, h2, h3, h4, h5.trans ?_⟩
  rw [Fin.sum_univ_one]
  norm_num

end Examples

end Interpn
