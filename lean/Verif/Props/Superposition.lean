import Verif.Lemmas.Superposition
import Verif.Props.IeeeAccuracy
import Verif.Props.IeeeCubic
import Verif.Lemmas.IeeeExamples

/-! C126: superposition in `f64` and `f32`. A table that is the sum (or another linear combination) of
several tables, up to an error in each entry, gives the same combination of their results, up to this
error and the rounding errors of the results. -/

set_option autoImplicit false
set_option exponentiation.threshold 1100

namespace Interpn
open FloatOps Ieee

section
variable {N m : Nat}

private theorem combines {f : Format} {c : Fin m → ℚ} {tabs : Fin m → List (Ieee f)} {vals : List (Ieee f)} {D : ℚ}
    (hl : ∀ t, (tabs t).length = vals.length)
    (h : ∀ i (hi : i < vals.length),
      |val vals[i] - ∑ t, c t * val ((tabs t)[i]'(by rw [hl]; exact hi))| ≤ D) :
    CombinesTo c (fun t => (tabs t).map val) (vals.map val) D := by
  intro i hi
  rw [List.length_map] at hi
  rw [List.getElem_map]
  refine le_of_eq_of_le ?_ (h i hi)
  congr 2
  refine Finset.sum_congr rfl fun t _ => ?_
  rw [List.getD_eq_getElem _ _ (by rw [List.length_map, hl]; exact hi), List.getElem_map]

private theorem lengths {f : Format} {tabs : Fin m → List (Ieee f)} {vals : List (Ieee f)}
    (hl : ∀ t, (tabs t).length = vals.length) (t : Fin m) :
    ((tabs t).map val).length = (vals.map val).length := by
  rw [List.length_map, List.length_map, hl]

private theorem rect_inRange {f : Format} {grids : Fin N → List (Ieee f)}
    {x : Fin N → Ieee f}
    (hin : ∀ k, InRange (grids k).length (fun i => ((grids k).map val).getD i 0) (val (x k))) :
    ∀ k, InRange ((Axes.rectilinear fun k => (grids k).map val).size k)
      ((Axes.rectilinear fun k => (grids k).map val).node k) (val (x k)) := by
  intro k
  have := hin k
  rw [← List.length_map (f := val)] at this
  exact this

/-- C126, multilinear interpolation on rectilinear grids, `f64`. `vals` is the linear combination of the tables
`tabs t` with coefficients `c t`, up to `D` in each entry; `B t` bounds the entries of `tabs t`. -/
theorem C126_multilinear_rectilinear_f64 (e : Evaluator) (he : e.Fits N) (hN : N ≤ 1000) (fma : Bool)
    (grids : Fin N → List F64)
    (vals : List F64) (hG : (Axes.rectilinear fun k => (grids k).map val).Valid 2 (vals.map val))
    (hgrid : ∀ k, ∀ a ∈ grids k, Finite a ∧ |val a| ≤ 2 ^ 1022)
    (M : ℚ) (hM : M ≤ 2 ^ 1020) (hvals : ∀ v ∈ vals, Finite v ∧ |val v| ≤ M)
    (tabs : Fin m → List F64) (hl : ∀ t, (tabs t).length = vals.length) (B : Fin m → ℚ)
    (hB : ∀ t, B t ≤ 2 ^ 1020) (htabs : ∀ t, ∀ v ∈ tabs t, Finite v ∧ |val v| ≤ B t)
    (c : Fin m → ℚ) (D : ℚ) (hD : ∀ i (hi : i < vals.length),
      |val vals[i] - ∑ t, c t * val ((tabs t)[i]'(by rw [hl]; exact hi))| ≤ D)
    (x : Fin N → F64) (hx : ∀ k, Finite (x k))
    (hin : ∀ k, InRange (grids k).length (fun i => ((grids k).map val).getD i 0) (val (x k))) :
    ∃ (r : F64) (rs : Fin m → F64), multilinearRectilinearAt e fma grids vals x = .ok r ∧
      (∀ t, multilinearRectilinearAt e fma grids (tabs t) x = .ok (rs t)) ∧ Finite r ∧ (∀ t, Finite (rs t)) ∧
      |val r - ∑ t, c t * val (rs t)| ≤ D + (26 * N * (1 / 2 ^ 53) * M + 3 * N * (1 / 2 ^ 1075)) +
        ∑ t, |c t| * (26 * N * (1 / 2 ^ 53) * B t + 3 * N * (1 / 2 ^ 1075)) := by
  obtain ⟨r, y, h1, h2, h3, h4⟩ := C81_rectilinear_f64 e he hN fma grids vals hG hgrid M hM hvals x hx hin
  have ht := fun t => C81_rectilinear_f64 e he hN fma grids (tabs t) (valid_of_length hG (lengths hl t)) hgrid (B t)
    (hB t) (htabs t) x hx hin
  choose rs ys g1 g2 g3 g4 using ht
  exact ⟨r, rs, h1, g1, h2, g2, sum_close h4 (multilinear_sum e he fma _ hG (lengths hl) (combines hl hD)
    _ (rect_inRange hin) h3 g3) g4⟩

/-- C126, multilinear interpolation on regular grids, `f64`. `vals` is the linear combination of the tables
`tabs t` with coefficients `c t`, up to `D` in each entry; `B t` bounds the entries of `tabs t`. -/
theorem C126_multilinear_regular_f64 (e : Evaluator) (he : e.Fits N) (fma : Bool) (κ : ℚ) (hκ : 0 ≤ κ)
    (hN : 100 * N * (1 + κ) ≤ 2 ^ 53) (dims : Fin N → Nat) (starts steps : Fin N → F64)
    (vals : List F64) (hG : (Axes.regular dims (fun k => val (starts k)) fun k => val (steps k)).Valid 2 (vals.map val))
    (hfin : ∀ k, Finite (starts k) ∧ Finite (steps k)) (hnormal : ∀ k, 1 / 2 ^ 1022 ≤ val (steps k))
    (hnodes : ∀ k, |val (starts k)| ≤ κ * val (steps k) ∧
      |val (starts k) + val (steps k) * ((dims k - 1 : Nat) : ℚ)| ≤ κ * val (steps k))
    (hlarge : ∀ k, κ * val (steps k) ≤ 2 ^ 1020)
    (M : ℚ) (hM : M ≤ 2 ^ 1020) (hvals : ∀ v ∈ vals, Finite v ∧ |val v| ≤ M)
    (tabs : Fin m → List F64) (hl : ∀ t, (tabs t).length = vals.length) (B : Fin m → ℚ)
    (hB : ∀ t, B t ≤ 2 ^ 1020) (htabs : ∀ t, ∀ v ∈ tabs t, Finite v ∧ |val v| ≤ B t)
    (c : Fin m → ℚ) (D : ℚ) (hD : ∀ i (hi : i < vals.length),
      |val vals[i] - ∑ t, c t * val ((tabs t)[i]'(by rw [hl]; exact hi))| ≤ D)
    (x : Fin N → F64) (hx : ∀ k, Finite (x k))
    (hin : ∀ k, InRange (dims k) (fun i => val (starts k) + val (steps k) * (i : ℚ)) (val (x k))) :
    ∃ (r : F64) (rs : Fin m → F64), multilinearRegularAt e fma dims starts steps vals x = .ok r ∧
      (∀ t, multilinearRegularAt e fma dims starts steps (tabs t) x = .ok (rs t)) ∧ Finite r ∧ (∀ t, Finite (rs t)) ∧
      |val r - ∑ t, c t * val (rs t)| ≤ D + (60 * N * (1 + κ) * (1 / 2 ^ 53) * M + 3 * N * (1 / 2 ^ 1075)) +
        ∑ t, |c t| * (60 * N * (1 + κ) * (1 / 2 ^ 53) * B t + 3 * N * (1 / 2 ^ 1075)) := by
  obtain ⟨r, y, h1, h2, h3, h4⟩ := C81_regular_f64 e he fma κ hκ hN dims starts steps vals hG hfin hnormal hnodes hlarge M hM hvals x hx hin
  have ht := fun t => C81_regular_f64 e he fma κ hκ hN dims starts steps (tabs t) (valid_of_length hG (lengths hl t)) hfin hnormal hnodes hlarge (B t)
    (hB t) (htabs t) x hx hin
  choose rs ys g1 g2 g3 g4 using ht
  exact ⟨r, rs, h1, g1, h2, g2, sum_close h4 (multilinear_sum e he fma _ hG (lengths hl) (combines hl hD)
    _ hin h3 g3) g4⟩

/-- C126, multicubic interpolation on rectilinear grids, `f64`. `vals` is the linear combination of the tables
`tabs t` with coefficients `c t`, up to `D` in each entry; `B t` bounds the entries of `tabs t`. -/
theorem C126_multicubic_rectilinear_f64 (e : Evaluator) (he : e.Fits N) (hN8 : N ≤ 8) (fma : Bool)
    (grids : Fin N → List F64)
    (vals : List F64) (lin : Bool) (hG : (Axes.rectilinear fun k => (grids k).map val).Valid 4 (vals.map val))
    (hgrid : ∀ k, ∀ a ∈ grids k, Finite a ∧ |val a| ≤ 2 ^ 1022)
    (M : ℚ) (hM : M ≤ 2 ^ 700) (hM1 : 1 / 2 ^ 1022 ≤ M) (hvals : ∀ v ∈ vals, Finite v ∧ |val v| ≤ M)
    (tabs : Fin m → List F64) (hl : ∀ t, (tabs t).length = vals.length) (B : Fin m → ℚ)
    (hB : ∀ t, B t ≤ 2 ^ 700) (hB1 : ∀ t, 1 / 2 ^ 1022 ≤ B t) (htabs : ∀ t, ∀ v ∈ tabs t, Finite v ∧ |val v| ≤ B t)
    (c : Fin m → ℚ) (D : ℚ) (hD : ∀ i (hi : i < vals.length),
      |val vals[i] - ∑ t, c t * val ((tabs t)[i]'(by rw [hl]; exact hi))| ≤ D)
    (x : Fin N → F64) (hx : ∀ k, Finite (x k))
    (hin : ∀ k, InRange (grids k).length (fun i => ((grids k).map val).getD i 0) (val (x k)))
    (ρ : ℚ) (hρ : 1 ≤ ρ) (hρ2 : ρ ≤ 2 ^ 30)
    (hmesh : ∀ k, MeshRatio (grids k).length (fun i => ((grids k).map val).getD i 0) ρ) :
    ∃ (r : F64) (rs : Fin m → F64), multicubicRectilinearAt e fma grids vals lin x = .ok r ∧
      (∀ t, multicubicRectilinearAt e fma grids (tabs t) lin x = .ok (rs t)) ∧ Finite r ∧ (∀ t, Finite (rs t)) ∧
      |val r - ∑ t, c t * val (rs t)| ≤ (1 + ρ ^ 2 / (2 * (1 + ρ))) ^ N * D + (3200 * N * ρ * (1 / 2 ^ 53) * (1 + ρ ^ 2 / (2 * (1 + ρ))) ^ N * M) +
        ∑ t, |c t| * (3200 * N * ρ * (1 / 2 ^ 53) * (1 + ρ ^ 2 / (2 * (1 + ρ))) ^ N * B t) := by
  obtain ⟨r, y, h1, h2, h3, h4⟩ := C82_rectilinear_f64 e he hN8 fma grids vals lin hG hgrid M hM hM1 hvals x hx hin ρ hρ hρ2 hmesh
  have ht := fun t => C82_rectilinear_f64 e he hN8 fma grids (tabs t) lin (valid_of_length hG (lengths hl t)) hgrid (B t)
    (hB t) (hB1 t) (htabs t) x hx hin ρ hρ hρ2 hmesh
  choose rs ys g1 g2 g3 g4 using ht
  exact ⟨r, rs, h1, g1, h2, g2, sum_close h4 (multicubic_sum e he fma lin _ hG (lengths hl) (combines hl hD)
    ρ (fun k => by have := hmesh k; rw [← List.length_map (f := val)] at this; exact this) _ (rect_inRange hin) h3 g3) g4⟩

/-- C126, multicubic interpolation on regular grids, `f64`. `vals` is the linear combination of the tables
`tabs t` with coefficients `c t`, up to `D` in each entry; `B t` bounds the entries of `tabs t`. -/
theorem C126_multicubic_regular_f64 (e : Evaluator) (he : e.Fits N) (hN8 : N ≤ 8) (fma : Bool) (κ : ℚ)
    (hκ : 0 ≤ κ) (hN : 4200 * N * (1 + κ) ≤ 2 ^ 53) (dims : Fin N → Nat) (starts steps : Fin N → F64)
    (vals : List F64) (lin : Bool) (hG : (Axes.regular dims (fun k => val (starts k)) fun k => val (steps k)).Valid 4 (vals.map val))
    (hfin : ∀ k, Finite (starts k) ∧ Finite (steps k)) (hnormal : ∀ k, 1 / 2 ^ 1022 ≤ val (steps k))
    (hnodes : ∀ k, |val (starts k)| ≤ κ * val (steps k) ∧
      |val (starts k) + val (steps k) * ((dims k - 1 : Nat) : ℚ)| ≤ κ * val (steps k))
    (hlarge : ∀ k, κ * val (steps k) ≤ 2 ^ 1020)
    (M : ℚ) (hM : M ≤ 2 ^ 1000) (hM1 : 1 / 2 ^ 1022 ≤ M) (hvals : ∀ v ∈ vals, Finite v ∧ |val v| ≤ M)
    (tabs : Fin m → List F64) (hl : ∀ t, (tabs t).length = vals.length) (B : Fin m → ℚ)
    (hB : ∀ t, B t ≤ 2 ^ 1000) (hB1 : ∀ t, 1 / 2 ^ 1022 ≤ B t) (htabs : ∀ t, ∀ v ∈ tabs t, Finite v ∧ |val v| ≤ B t)
    (c : Fin m → ℚ) (D : ℚ) (hD : ∀ i (hi : i < vals.length),
      |val vals[i] - ∑ t, c t * val ((tabs t)[i]'(by rw [hl]; exact hi))| ≤ D)
    (x : Fin N → F64) (hx : ∀ k, Finite (x k))
    (hin : ∀ k, InRange (dims k) (fun i => val (starts k) + val (steps k) * (i : ℚ)) (val (x k))) :
    ∃ (r : F64) (rs : Fin m → F64), multicubicRegularAt e fma dims starts steps vals lin x = .ok r ∧
      (∀ t, multicubicRegularAt e fma dims starts steps (tabs t) lin x = .ok (rs t)) ∧ Finite r ∧ (∀ t, Finite (rs t)) ∧
      |val r - ∑ t, c t * val (rs t)| ≤ (5 / 4) ^ N * D + (4200 * N * (1 + κ) * (1 / 2 ^ 53) * (5 / 4) ^ N * M) +
        ∑ t, |c t| * (4200 * N * (1 + κ) * (1 / 2 ^ 53) * (5 / 4) ^ N * B t) := by
  obtain ⟨r, y, h1, h2, h3, h4⟩ := C82_regular_f64 e he hN8 fma κ hκ hN dims starts steps vals lin hG hfin hnormal hnodes hlarge M hM hM1 hvals x hx hin
  have ht := fun t => C82_regular_f64 e he hN8 fma κ hκ hN dims starts steps (tabs t) lin (valid_of_length hG (lengths hl t)) hfin hnormal hnodes hlarge (B t)
    (hB t) (hB1 t) (htabs t) x hx hin
  choose rs ys g1 g2 g3 g4 using ht
  have h5 := multicubic_sum e he fma lin _ hG (lengths hl) (combines hl hD) 1
    (meshRatio_regular dims _ _) _ hin h3 g3
  rw [show (1 : ℚ) + 1 ^ 2 / (2 * (1 + 1)) = 5 / 4 by norm_num] at h5
  exact ⟨r, rs, h1, g1, h2, g2, sum_close h4 h5 g4⟩

/-- C126, multilinear interpolation on rectilinear grids, `f32`. `vals` is the linear combination of the tables
`tabs t` with coefficients `c t`, up to `D` in each entry; `B t` bounds the entries of `tabs t`. -/
theorem C126_multilinear_rectilinear_f32 (e : Evaluator) (he : e.Fits N) (hN : N ≤ 1000) (fma : Bool)
    (grids : Fin N → List F32)
    (vals : List F32) (hG : (Axes.rectilinear fun k => (grids k).map val).Valid 2 (vals.map val))
    (hgrid : ∀ k, ∀ a ∈ grids k, Finite a ∧ |val a| ≤ 2 ^ 126)
    (M : ℚ) (hM : M ≤ 2 ^ 124) (hvals : ∀ v ∈ vals, Finite v ∧ |val v| ≤ M)
    (tabs : Fin m → List F32) (hl : ∀ t, (tabs t).length = vals.length) (B : Fin m → ℚ)
    (hB : ∀ t, B t ≤ 2 ^ 124) (htabs : ∀ t, ∀ v ∈ tabs t, Finite v ∧ |val v| ≤ B t)
    (c : Fin m → ℚ) (D : ℚ) (hD : ∀ i (hi : i < vals.length),
      |val vals[i] - ∑ t, c t * val ((tabs t)[i]'(by rw [hl]; exact hi))| ≤ D)
    (x : Fin N → F32) (hx : ∀ k, Finite (x k))
    (hin : ∀ k, InRange (grids k).length (fun i => ((grids k).map val).getD i 0) (val (x k))) :
    ∃ (r : F32) (rs : Fin m → F32), multilinearRectilinearAt e fma grids vals x = .ok r ∧
      (∀ t, multilinearRectilinearAt e fma grids (tabs t) x = .ok (rs t)) ∧ Finite r ∧ (∀ t, Finite (rs t)) ∧
      |val r - ∑ t, c t * val (rs t)| ≤ D + (26 * N * (1 / 2 ^ 24) * M + 3 * N * (1 / 2 ^ 150)) +
        ∑ t, |c t| * (26 * N * (1 / 2 ^ 24) * B t + 3 * N * (1 / 2 ^ 150)) := by
  obtain ⟨r, y, h1, h2, h3, h4⟩ := C81_rectilinear_f32 e he hN fma grids vals hG hgrid M hM hvals x hx hin
  have ht := fun t => C81_rectilinear_f32 e he hN fma grids (tabs t) (valid_of_length hG (lengths hl t)) hgrid (B t)
    (hB t) (htabs t) x hx hin
  choose rs ys g1 g2 g3 g4 using ht
  exact ⟨r, rs, h1, g1, h2, g2, sum_close h4 (multilinear_sum e he fma _ hG (lengths hl) (combines hl hD)
    _ (rect_inRange hin) h3 g3) g4⟩

/-- C126, multilinear interpolation on regular grids, `f32`. `vals` is the linear combination of the tables
`tabs t` with coefficients `c t`, up to `D` in each entry; `B t` bounds the entries of `tabs t`. -/
theorem C126_multilinear_regular_f32 (e : Evaluator) (he : e.Fits N) (fma : Bool) (κ : ℚ) (hκ : 0 ≤ κ)
    (hN : 100 * N * (1 + κ) ≤ 2 ^ 24) (dims : Fin N → Nat) (starts steps : Fin N → F32)
    (vals : List F32) (hG : (Axes.regular dims (fun k => val (starts k)) fun k => val (steps k)).Valid 2 (vals.map val))
    (hfin : ∀ k, Finite (starts k) ∧ Finite (steps k)) (hnormal : ∀ k, 1 / 2 ^ 126 ≤ val (steps k))
    (hnodes : ∀ k, |val (starts k)| ≤ κ * val (steps k) ∧
      |val (starts k) + val (steps k) * ((dims k - 1 : Nat) : ℚ)| ≤ κ * val (steps k))
    (hlarge : ∀ k, κ * val (steps k) ≤ 2 ^ 124)
    (M : ℚ) (hM : M ≤ 2 ^ 124) (hvals : ∀ v ∈ vals, Finite v ∧ |val v| ≤ M)
    (tabs : Fin m → List F32) (hl : ∀ t, (tabs t).length = vals.length) (B : Fin m → ℚ)
    (hB : ∀ t, B t ≤ 2 ^ 124) (htabs : ∀ t, ∀ v ∈ tabs t, Finite v ∧ |val v| ≤ B t)
    (c : Fin m → ℚ) (D : ℚ) (hD : ∀ i (hi : i < vals.length),
      |val vals[i] - ∑ t, c t * val ((tabs t)[i]'(by rw [hl]; exact hi))| ≤ D)
    (x : Fin N → F32) (hx : ∀ k, Finite (x k))
    (hin : ∀ k, InRange (dims k) (fun i => val (starts k) + val (steps k) * (i : ℚ)) (val (x k))) :
    ∃ (r : F32) (rs : Fin m → F32), multilinearRegularAt e fma dims starts steps vals x = .ok r ∧
      (∀ t, multilinearRegularAt e fma dims starts steps (tabs t) x = .ok (rs t)) ∧ Finite r ∧ (∀ t, Finite (rs t)) ∧
      |val r - ∑ t, c t * val (rs t)| ≤ D + (60 * N * (1 + κ) * (1 / 2 ^ 24) * M + 3 * N * (1 / 2 ^ 150)) +
        ∑ t, |c t| * (60 * N * (1 + κ) * (1 / 2 ^ 24) * B t + 3 * N * (1 / 2 ^ 150)) := by
  obtain ⟨r, y, h1, h2, h3, h4⟩ := C81_regular_f32 e he fma κ hκ hN dims starts steps vals hG hfin hnormal hnodes hlarge M hM hvals x hx hin
  have ht := fun t => C81_regular_f32 e he fma κ hκ hN dims starts steps (tabs t) (valid_of_length hG (lengths hl t)) hfin hnormal hnodes hlarge (B t)
    (hB t) (htabs t) x hx hin
  choose rs ys g1 g2 g3 g4 using ht
  exact ⟨r, rs, h1, g1, h2, g2, sum_close h4 (multilinear_sum e he fma _ hG (lengths hl) (combines hl hD)
    _ hin h3 g3) g4⟩

/-- C126, multicubic interpolation on rectilinear grids, `f32`. `vals` is the linear combination of the tables
`tabs t` with coefficients `c t`, up to `D` in each entry; `B t` bounds the entries of `tabs t`. -/
theorem C126_multicubic_rectilinear_f32 (e : Evaluator) (he : e.Fits N) (hN8 : N ≤ 8) (fma : Bool)
    (grids : Fin N → List F32)
    (vals : List F32) (lin : Bool) (hG : (Axes.rectilinear fun k => (grids k).map val).Valid 4 (vals.map val))
    (hgrid : ∀ k, ∀ a ∈ grids k, Finite a ∧ |val a| ≤ 2 ^ 126)
    (M : ℚ) (hM : M ≤ 2 ^ 40) (hM1 : 1 / 2 ^ 126 ≤ M) (hvals : ∀ v ∈ vals, Finite v ∧ |val v| ≤ M)
    (tabs : Fin m → List F32) (hl : ∀ t, (tabs t).length = vals.length) (B : Fin m → ℚ)
    (hB : ∀ t, B t ≤ 2 ^ 40) (hB1 : ∀ t, 1 / 2 ^ 126 ≤ B t) (htabs : ∀ t, ∀ v ∈ tabs t, Finite v ∧ |val v| ≤ B t)
    (c : Fin m → ℚ) (D : ℚ) (hD : ∀ i (hi : i < vals.length),
      |val vals[i] - ∑ t, c t * val ((tabs t)[i]'(by rw [hl]; exact hi))| ≤ D)
    (x : Fin N → F32) (hx : ∀ k, Finite (x k))
    (hin : ∀ k, InRange (grids k).length (fun i => ((grids k).map val).getD i 0) (val (x k)))
    (ρ : ℚ) (hρ : 1 ≤ ρ) (hρ2 : ρ ≤ 2 ^ 9)
    (hmesh : ∀ k, MeshRatio (grids k).length (fun i => ((grids k).map val).getD i 0) ρ) :
    ∃ (r : F32) (rs : Fin m → F32), multicubicRectilinearAt e fma grids vals lin x = .ok r ∧
      (∀ t, multicubicRectilinearAt e fma grids (tabs t) lin x = .ok (rs t)) ∧ Finite r ∧ (∀ t, Finite (rs t)) ∧
      |val r - ∑ t, c t * val (rs t)| ≤ (1 + ρ ^ 2 / (2 * (1 + ρ))) ^ N * D + (3200 * N * ρ * (1 / 2 ^ 24) * (1 + ρ ^ 2 / (2 * (1 + ρ))) ^ N * M) +
        ∑ t, |c t| * (3200 * N * ρ * (1 / 2 ^ 24) * (1 + ρ ^ 2 / (2 * (1 + ρ))) ^ N * B t) := by
  obtain ⟨r, y, h1, h2, h3, h4⟩ := C82_rectilinear_f32 e he hN8 fma grids vals lin hG hgrid M hM hM1 hvals x hx hin ρ hρ hρ2 hmesh
  have ht := fun t => C82_rectilinear_f32 e he hN8 fma grids (tabs t) lin (valid_of_length hG (lengths hl t)) hgrid (B t)
    (hB t) (hB1 t) (htabs t) x hx hin ρ hρ hρ2 hmesh
  choose rs ys g1 g2 g3 g4 using ht
  exact ⟨r, rs, h1, g1, h2, g2, sum_close h4 (multicubic_sum e he fma lin _ hG (lengths hl) (combines hl hD)
    ρ (fun k => by have := hmesh k; rw [← List.length_map (f := val)] at this; exact this) _ (rect_inRange hin) h3 g3) g4⟩

/-- C126, multicubic interpolation on regular grids, `f32`. `vals` is the linear combination of the tables
`tabs t` with coefficients `c t`, up to `D` in each entry; `B t` bounds the entries of `tabs t`. -/
theorem C126_multicubic_regular_f32 (e : Evaluator) (he : e.Fits N) (hN8 : N ≤ 8) (fma : Bool) (κ : ℚ)
    (hκ : 0 ≤ κ) (hN : 4200 * N * (1 + κ) ≤ 2 ^ 24) (dims : Fin N → Nat) (starts steps : Fin N → F32)
    (vals : List F32) (lin : Bool) (hG : (Axes.regular dims (fun k => val (starts k)) fun k => val (steps k)).Valid 4 (vals.map val))
    (hfin : ∀ k, Finite (starts k) ∧ Finite (steps k)) (hnormal : ∀ k, 1 / 2 ^ 126 ≤ val (steps k))
    (hnodes : ∀ k, |val (starts k)| ≤ κ * val (steps k) ∧
      |val (starts k) + val (steps k) * ((dims k - 1 : Nat) : ℚ)| ≤ κ * val (steps k))
    (hlarge : ∀ k, κ * val (steps k) ≤ 2 ^ 124)
    (M : ℚ) (hM : M ≤ 2 ^ 110) (hM1 : 1 / 2 ^ 126 ≤ M) (hvals : ∀ v ∈ vals, Finite v ∧ |val v| ≤ M)
    (tabs : Fin m → List F32) (hl : ∀ t, (tabs t).length = vals.length) (B : Fin m → ℚ)
    (hB : ∀ t, B t ≤ 2 ^ 110) (hB1 : ∀ t, 1 / 2 ^ 126 ≤ B t) (htabs : ∀ t, ∀ v ∈ tabs t, Finite v ∧ |val v| ≤ B t)
    (c : Fin m → ℚ) (D : ℚ) (hD : ∀ i (hi : i < vals.length),
      |val vals[i] - ∑ t, c t * val ((tabs t)[i]'(by rw [hl]; exact hi))| ≤ D)
    (x : Fin N → F32) (hx : ∀ k, Finite (x k))
    (hin : ∀ k, InRange (dims k) (fun i => val (starts k) + val (steps k) * (i : ℚ)) (val (x k))) :
    ∃ (r : F32) (rs : Fin m → F32), multicubicRegularAt e fma dims starts steps vals lin x = .ok r ∧
      (∀ t, multicubicRegularAt e fma dims starts steps (tabs t) lin x = .ok (rs t)) ∧ Finite r ∧ (∀ t, Finite (rs t)) ∧
      |val r - ∑ t, c t * val (rs t)| ≤ (5 / 4) ^ N * D + (4200 * N * (1 + κ) * (1 / 2 ^ 24) * (5 / 4) ^ N * M) +
        ∑ t, |c t| * (4200 * N * (1 + κ) * (1 / 2 ^ 24) * (5 / 4) ^ N * B t) := by
  obtain ⟨r, y, h1, h2, h3, h4⟩ := C82_regular_f32 e he hN8 fma κ hκ hN dims starts steps vals lin hG hfin hnormal hnodes hlarge M hM hM1 hvals x hx hin
  have ht := fun t => C82_regular_f32 e he hN8 fma κ hκ hN dims starts steps (tabs t) lin (valid_of_length hG (lengths hl t)) hfin hnormal hnodes hlarge (B t)
    (hB t) (hB1 t) (htabs t) x hx hin
  choose rs ys g1 g2 g3 g4 using ht
  have h5 := multicubic_sum e he fma lin _ hG (lengths hl) (combines hl hD) 1
    (meshRatio_regular dims _ _) _ hin h3 g3
  rw [show (1 : ℚ) + 1 ^ 2 / (2 * (1 + 1)) = 5 / 4 by norm_num] at h5
  exact ⟨r, rs, h1, g1, h2, g2, sum_close h4 h5 g4⟩

end

/-- C126: superposition is not bit for bit. Here the sum of the tables gives another float than the sum
of the results, although no entry of the sum is rounded by more than half a unit. -/
theorem C126_counterexample :
    let grids : Fin 1 → List F64 := ![[q64 0, q64 1]]
    let x : Fin 1 → F64 := ![q64 (3 / 4)]
    let v := [q64 (1 / 3), q64 (7 / 2)]
    let w := [q64 (1 / 3), q64 0]
    ∃ r y z, multilinearRectilinearAt .flat false grids (List.zipWith (fun a b => a +. b) v w) x = .ok r ∧
      multilinearRectilinearAt .flat false grids v x = .ok y ∧
      multilinearRectilinearAt .flat false grids w x = .ok z ∧ r ≠ y +. z := by
  intro grids x v w
  refine ⟨q64 (6286274479871317 / 2 ^ 51), q64 (6098624495397547 / 2 ^ 51),
    q64 (1501199875790165 / 2 ^ 54), ?_, ?_, ?_, ?_⟩ <;> decide +kernel

section Examples

/-- A second 3×2 table, and the sums with `exVals64` as computed in `f64`. -/
private def other64 : List F64 := ([1 / 10, 3, -5 / 7, 2, 1 / 9, -4] : List ℚ).map q64

private def sum64 : List F64 := List.zipWith (fun a b => a +. b) exVals64 other64

private theorem exMesh64 : ∀ k, MeshRatio (exGrids64c k).length
    (fun i => ((exGrids64c k).map val).getD i 0) 2 :=
  fun k i hi => (show ∀ k, ∀ i < (exGrids64c k).length, i + 2 < (exGrids64c k).length →
    ((exGrids64c k).map val).getD (i + 1) 0 - ((exGrids64c k).map val).getD i 0 ≤
      2 * (((exGrids64c k).map val).getD (i + 2) 0 - ((exGrids64c k).map val).getD (i + 1) 0) ∧
    ((exGrids64c k).map val).getD (i + 2) 0 - ((exGrids64c k).map val).getD (i + 1) 0 ≤
      2 * (((exGrids64c k).map val).getD (i + 1) 0 - ((exGrids64c k).map val).getD i 0) by
    decide +kernel) k i (by omega) hi

private theorem exMesh32 : ∀ k, MeshRatio (exGrids32c k).length
    (fun i => ((exGrids32c k).map val).getD i 0) 2 :=
  fun k i hi => (show ∀ k, ∀ i < (exGrids32c k).length, i + 2 < (exGrids32c k).length →
    ((exGrids32c k).map val).getD (i + 1) 0 - ((exGrids32c k).map val).getD i 0 ≤
      2 * (((exGrids32c k).map val).getD (i + 2) 0 - ((exGrids32c k).map val).getD (i + 1) 0) ∧
    ((exGrids32c k).map val).getD (i + 2) 0 - ((exGrids32c k).map val).getD (i + 1) 0 ≤
      2 * (((exGrids32c k).map val).getD (i + 1) 0 - ((exGrids32c k).map val).getD i 0) by
    decide +kernel) k i (by omega) hi

/-- Hypotheses of `C126_multilinear_rectilinear_f64` are satisfied: the sum of two tables. -/
example : ∃ (r : F64) (rs : Fin 2 → F64),
    multilinearRectilinearAt .flat true exGrids64 sum64 ![q64 (1 / 3), q64 (5 / 3)] = .ok r ∧
    (∀ t, multilinearRectilinearAt .flat true exGrids64 (![exVals64, other64] t) ![q64 (1 / 3), q64 (5 / 3)] =
      .ok (rs t)) ∧ |val r - ∑ t, val (rs t)| ≤ 1 / 10 ^ 12 := by
  obtain ⟨r, rs, h1, h2, -, -, h3⟩ := C126_multilinear_rectilinear_f64 .flat (show 0 < 2 by decide)
    (by norm_num) true exGrids64 sum64 (valid_of_check (by decide +kernel)) (by decide +kernel) 32
    (by norm_num) (by decide +kernel) ![exVals64, other64] (by decide +kernel) (fun _ => 16)
    (fun _ => by norm_num) (by decide +kernel) (fun _ => 1) (1 / 10 ^ 14) (by decide +kernel)
    ![q64 (1 / 3), q64 (5 / 3)] (by decide +kernel) (by unfold InRange; decide +kernel)
  simp only [one_mul] at h3
  exact ⟨r, rs, h1, h2, h3.trans (by norm_num)⟩

/-- Hypotheses of `C126_multilinear_regular_f64` are satisfied: a difference of tables. -/
example : ∃ (r : F64) (rs : Fin 2 → F64),
    multilinearRegularAt .flat true ![3, 2] ![q64 (1 / 10), q64 1] ![q64 (1 / 10), q64 2]
      (List.zipWith (fun a b => a -. b) exVals64 other64) ![q64 (2 / 7), q64 (5 / 3)] = .ok r ∧
    (∀ t, multilinearRegularAt .flat true ![3, 2] ![q64 (1 / 10), q64 1] ![q64 (1 / 10), q64 2]
      (![exVals64, other64] t) ![q64 (2 / 7), q64 (5 / 3)] = .ok (rs t)) ∧
    |val r - (val (rs 0) - val (rs 1))| ≤ 1 / 10 ^ 11 := by
  obtain ⟨r, rs, h1, h2, -, -, h3⟩ := C126_multilinear_regular_f64 .flat (show 0 < 2 by decide) true 4
    (by norm_num) (by norm_num) ![3, 2] ![q64 (1 / 10), q64 1] ![q64 (1 / 10), q64 2]
    (List.zipWith (fun a b => a -. b) exVals64 other64)
    (valid_of_check (by decide +kernel)) (by decide +kernel) (by decide +kernel) (by decide +kernel)
    (by decide +kernel) 32 (by norm_num) (by decide +kernel) ![exVals64, other64] (by decide +kernel)
    (fun _ => 16) (fun _ => by norm_num) (by decide +kernel) ![1, -1] (1 / 10 ^ 14) (by decide +kernel)
    ![q64 (2 / 7), q64 (5 / 3)] (by decide +kernel) (by unfold InRange; decide +kernel)
  simp only [Fin.sum_univ_two, Matrix.cons_val_zero, Matrix.cons_val_one, one_mul, neg_mul, ← sub_eq_add_neg]
    at h3
  exact ⟨r, rs, h1, h2, h3.trans (by norm_num)⟩

/-- Hypotheses of `C126_multicubic_rectilinear_f64` are satisfied: three times a table. -/
example : ∃ (r : F64) (rs : Fin 1 → F64),
    multicubicRectilinearAt .flat true exGrids64c (exVals64c.map (q64 3 *. ·)) true
      ![q64 (1 / 3), q64 (5 / 3)] = .ok r ∧
    (∀ t, multicubicRectilinearAt .flat true exGrids64c (![exVals64c] t) true
      ![q64 (1 / 3), q64 (5 / 3)] = .ok (rs t)) ∧ |val r - 3 * val (rs 0)| ≤ 1 / 10 ^ 8 := by
  obtain ⟨r, rs, h1, h2, -, -, h3⟩ := C126_multicubic_rectilinear_f64 .flat (show 0 < 2 by decide)
    (by norm_num) true exGrids64c (exVals64c.map (q64 3 *. ·)) true (valid_of_check (by decide +kernel))
    (by decide +kernel) 64 (by norm_num) (by norm_num) (by decide +kernel) ![exVals64c] (by decide +kernel)
    (fun _ => 16) (fun _ => by norm_num) (fun _ => by norm_num) (by decide +kernel) (fun _ => 3)
    (1 / 10 ^ 14) (by decide +kernel) ![q64 (1 / 3), q64 (5 / 3)] (by decide +kernel)
    (by unfold InRange; decide +kernel) 2 (by norm_num) (by norm_num) exMesh64
  simp only [Finset.univ_unique, Fin.default_eq_zero, Finset.sum_singleton] at h3
  exact ⟨r, rs, h1, h2, h3.trans (by norm_num)⟩

/-- Hypotheses of `C126_multicubic_regular_f64` are satisfied. -/
example : ∃ (r : F64) (rs : Fin 1 → F64),
    multicubicRegularAt .flat true ![4, 5] ![q64 (1 / 10), q64 1] ![q64 (1 / 10), q64 2]
      (exVals64c.map (q64 3 *. ·)) false ![q64 (2 / 7), q64 (5 / 3)] = .ok r ∧
    (∀ t, multicubicRegularAt .flat true ![4, 5] ![q64 (1 / 10), q64 1] ![q64 (1 / 10), q64 2]
      (![exVals64c] t) false ![q64 (2 / 7), q64 (5 / 3)] = .ok (rs t)) ∧
    |val r - 3 * val (rs 0)| ≤ 1 / 10 ^ 8 := by
  obtain ⟨r, rs, h1, h2, -, -, h3⟩ := C126_multicubic_regular_f64 .flat (show 0 < 2 by decide)
    (by norm_num) true 5 (by norm_num) (by norm_num) ![4, 5] ![q64 (1 / 10), q64 1] ![q64 (1 / 10), q64 2]
    (exVals64c.map (q64 3 *. ·)) false (valid_of_check (by decide +kernel)) (by decide +kernel)
    (by decide +kernel) (by decide +kernel) (by decide +kernel) 64 (by norm_num) (by norm_num)
    (by decide +kernel) ![exVals64c] (by decide +kernel)
    (fun _ => 16) (fun _ => by norm_num) (fun _ => by norm_num) (by decide +kernel) (fun _ => 3)
    (1 / 10 ^ 14) (by decide +kernel) ![q64 (2 / 7), q64 (5 / 3)] (by decide +kernel)
    (by unfold InRange; decide +kernel)
  simp only [Finset.univ_unique, Fin.default_eq_zero, Finset.sum_singleton] at h3
  exact ⟨r, rs, h1, h2, h3.trans (by norm_num)⟩

/-- Hypotheses of `C126_multilinear_rectilinear_f32` are satisfied. -/
example : ∃ (r : F32) (rs : Fin 1 → F32),
    multilinearRectilinearAt .flat true exGrids32 (exVals32.map (q32 3 *. ·)) ![q32 (1 / 3), q32 (5 / 3)] =
      .ok r ∧
    (∀ t, multilinearRectilinearAt .flat true exGrids32 (![exVals32] t) ![q32 (1 / 3), q32 (5 / 3)] =
      .ok (rs t)) ∧ |val r - 3 * val (rs 0)| ≤ 1 / 10 ^ 2 := by
  obtain ⟨r, rs, h1, h2, -, -, h3⟩ := C126_multilinear_rectilinear_f32 .flat (show 0 < 2 by decide)
    (by norm_num) true exGrids32 (exVals32.map (q32 3 *. ·)) (valid_of_check (by decide +kernel))
    (by decide +kernel) 64 (by norm_num) (by decide +kernel) ![exVals32] (by decide +kernel)
    (fun _ => 16) (fun _ => by norm_num) (by decide +kernel) (fun _ => 3) (1 / 10 ^ 4)
    (by decide +kernel) ![q32 (1 / 3), q32 (5 / 3)] (by decide +kernel)
    (by unfold InRange; decide +kernel)
  simp only [Finset.univ_unique, Fin.default_eq_zero, Finset.sum_singleton] at h3
  exact ⟨r, rs, h1, h2, h3.trans (by norm_num)⟩

/-- Hypotheses of `C126_multilinear_regular_f32` are satisfied: a difference of tables. -/
example : ∃ (r : F32) (rs : Fin 2 → F32),
    multilinearRegularAt .flat true ![3, 2] ![q32 (1 / 10), q32 1] ![q32 (1 / 10), q32 2]
      (List.zipWith (fun a b => a -. b) exVals32 (exVals32.map (-. ·))) ![q32 (2 / 7), q32 (5 / 3)] = .ok r ∧
    (∀ t, multilinearRegularAt .flat true ![3, 2] ![q32 (1 / 10), q32 1] ![q32 (1 / 10), q32 2]
      (![exVals32, (exVals32.map (-. ·))] t) ![q32 (2 / 7), q32 (5 / 3)] = .ok (rs t)) ∧
    |val r - (val (rs 0) - val (rs 1))| ≤ 1 := by
  obtain ⟨r, rs, h1, h2, -, -, h3⟩ := C126_multilinear_regular_f32 .flat (show 0 < 2 by decide) true 4
    (by norm_num) (by norm_num) ![3, 2] ![q32 (1 / 10), q32 1] ![q32 (1 / 10), q32 2]
    (List.zipWith (fun a b => a -. b) exVals32 (exVals32.map (-. ·)))
    (valid_of_check (by decide +kernel)) (by decide +kernel) (by decide +kernel) (by decide +kernel)
    (by decide +kernel) 32 (by norm_num) (by decide +kernel) ![exVals32, (exVals32.map (-. ·))] (by decide +kernel)
    (fun _ => 16) (fun _ => by norm_num) (by decide +kernel) ![1, -1] (1 / 10 ^ 4) (by decide +kernel)
    ![q32 (2 / 7), q32 (5 / 3)] (by decide +kernel) (by unfold InRange; decide +kernel)
  simp only [Fin.sum_univ_two, Matrix.cons_val_zero, Matrix.cons_val_one, one_mul, neg_mul, ← sub_eq_add_neg]
    at h3
  exact ⟨r, rs, h1, h2, h3.trans (by norm_num)⟩

/-- Hypotheses of `C126_multicubic_rectilinear_f32` are satisfied: three times a table. -/
example : ∃ (r : F32) (rs : Fin 1 → F32),
    multicubicRectilinearAt .flat true exGrids32c (exVals32c.map (q32 3 *. ·)) true
      ![q32 (1 / 3), q32 (5 / 3)] = .ok r ∧
    (∀ t, multicubicRectilinearAt .flat true exGrids32c (![exVals32c] t) true
      ![q32 (1 / 3), q32 (5 / 3)] = .ok (rs t)) ∧ |val r - 3 * val (rs 0)| ≤ 1 := by
  obtain ⟨r, rs, h1, h2, -, -, h3⟩ := C126_multicubic_rectilinear_f32 .flat (show 0 < 2 by decide)
    (by norm_num) true exGrids32c (exVals32c.map (q32 3 *. ·)) true (valid_of_check (by decide +kernel))
    (by decide +kernel) 64 (by norm_num) (by norm_num) (by decide +kernel) ![exVals32c] (by decide +kernel)
    (fun _ => 16) (fun _ => by norm_num) (fun _ => by norm_num) (by decide +kernel) (fun _ => 3)
    (1 / 10 ^ 4) (by decide +kernel) ![q32 (1 / 3), q32 (5 / 3)] (by decide +kernel)
    (by unfold InRange; decide +kernel) 2 (by norm_num) (by norm_num) exMesh32
  simp only [Finset.univ_unique, Fin.default_eq_zero, Finset.sum_singleton] at h3
  exact ⟨r, rs, h1, h2, h3.trans (by norm_num)⟩

/-- Hypotheses of `C126_multicubic_regular_f32` are satisfied. -/
example : ∃ (r : F32) (rs : Fin 1 → F32),
    multicubicRegularAt .flat true ![4, 5] ![q32 (1 / 10), q32 1] ![q32 (1 / 10), q32 2]
      (exVals32c.map (q32 3 *. ·)) false ![q32 (2 / 7), q32 (5 / 3)] = .ok r ∧
    (∀ t, multicubicRegularAt .flat true ![4, 5] ![q32 (1 / 10), q32 1] ![q32 (1 / 10), q32 2]
      (![exVals32c] t) false ![q32 (2 / 7), q32 (5 / 3)] = .ok (rs t)) ∧
    |val r - 3 * val (rs 0)| ≤ 1 := by
  obtain ⟨r, rs, h1, h2, -, -, h3⟩ := C126_multicubic_regular_f32 .flat (show 0 < 2 by decide)
    (by norm_num) true 5 (by norm_num) (by norm_num) ![4, 5] ![q32 (1 / 10), q32 1] ![q32 (1 / 10), q32 2]
    (exVals32c.map (q32 3 *. ·)) false (valid_of_check (by decide +kernel)) (by decide +kernel)
    (by decide +kernel) (by decide +kernel) (by decide +kernel) 64 (by norm_num) (by norm_num)
    (by decide +kernel) ![exVals32c] (by decide +kernel)
    (fun _ => 16) (fun _ => by norm_num) (fun _ => by norm_num) (by decide +kernel) (fun _ => 3)
    (1 / 10 ^ 4) (by decide +kernel) ![q32 (2 / 7), q32 (5 / 3)] (by decide +kernel)
    (by unfold InRange; decide +kernel)
  simp only [Finset.univ_unique, Fin.default_eq_zero, Finset.sum_singleton] at h3
  exact ⟨r, rs, h1, h2, h3.trans (by norm_num)⟩

end Examples

end Interpn
