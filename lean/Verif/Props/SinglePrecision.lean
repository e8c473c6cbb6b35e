import Verif.Lemmas.SinglePrecision
import Verif.Lemmas.RoundingRegular
import Verif.Props.InputErrors
import Verif.Props.IeeeAccuracy
import Verif.Props.IeeeCubic
import Verif.Props.IeeeCubicOut
import Verif.Props.IeeeNearest
import Verif.Props.IeeeNearestOut

/-! C117: what is lost when everything is converted from `f64` to `f32`. -/

set_option autoImplicit false
set_option exponentiation.threshold 1100

namespace Interpn
open FloatOps Ieee

section
variable {N : Nat}

/-- A rectilinear grid after conversion. -/
private theorem single_grid {m : Nat} (grids : Fin N → List F64) (vals : List F64)
    (hG : (Axes.rectilinear fun k => (grids k).map val).Valid m (vals.map val)) (hm : 1 ≤ m)
    (w : Fin N → ℚ) (κ : ℚ) (hκ : 8 * ((1 + κ) * (1 / 2 ^ 24)) ≤ 1)
    (hw : ∀ k, 1 / 2 ^ 126 ≤ w k) (hlarge : ∀ k, κ * w k ≤ 2 ^ 125)
    (hcell : ∀ k i, i + 1 < (grids k).length →
      w k ≤ ((grids k).map val).getD (i + 1) 0 - ((grids k).map val).getD i 0)
    (hgrid : ∀ k, ∀ a ∈ grids k, Finite a ∧ |val a| ≤ κ * w k) (x : Fin N → F64)
    (hx : ∀ k, Finite (x k))
    (hin : ∀ k, InRange (grids k).length (fun i => ((grids k).map val).getD i 0) (val (x k))) :
    (Axes.rectilinear fun k => ((grids k).map single).map val).Valid m
      ((vals.map single).map val) ∧
    (∀ k i, i + 1 < (grids k).length → w k / 2 ≤ (((grids k).map single).map val).getD (i + 1) 0 -
      (((grids k).map single).map val).getD i 0) ∧
    (∀ k i, i < (grids k).length → |(((grids k).map single).map val).getD i 0 -
      ((grids k).map val).getD i 0| ≤ 2 * ((1 + κ) * (1 / 2 ^ 24)) * (w k / 2)) ∧
    (∀ k, |val (single (x k)) - val (x k)| ≤ 2 * ((1 + κ) * (1 / 2 ^ 24)) * (w k / 2)) ∧
    (∀ k, ∀ a ∈ (grids k).map single, Finite a ∧ |val a| ≤ 2 ^ 126) ∧
    (∀ k, Finite (single (x k))) ∧
    (∀ k, InRange ((grids k).map single).length
      (fun i => (((grids k).map single).map val).getD i 0) (val (single (x k)))) := by
  have hw0 : ∀ k, 0 < w k := fun k => lt_of_lt_of_le (by norm_num) (hw k)
  have hlen : ∀ k, 1 ≤ (grids k).length := fun k => by
    have := hG.big k
    simp only [Axes.size, List.length_map] at this
    omega
  have hmem : ∀ k i (hi : i < (grids k).length),
      Finite (grids k)[i] ∧ |val (grids k)[i]| ≤ κ * w k := fun k i hi =>
    hgrid k _ (List.getElem_mem hi)
  have hl127 : ∀ k, κ * w k ≤ 2 ^ 127 := fun k => (hlarge k).trans (by norm_num)
  have hmove : ∀ k i, i < (grids k).length → |(((grids k).map single).map val).getD i 0 -
      ((grids k).map val).getD i 0| ≤ 2 * ((1 + κ) * (1 / 2 ^ 24)) * (w k / 2) := fun k i hi => by
    obtain ⟨e1, e2⟩ := getD_map_single (grids k) hi
    rw [e1, e2]
    refine (single_moves (hmem k i hi).1 (hmem k i hi).2 (hl127 k) (hw k)).trans_eq (by ring)
  have hwide : ∀ k i, i + 1 < (grids k).length →
      w k / 2 ≤ (((grids k).map single).map val).getD (i + 1) 0 -
        (((grids k).map single).map val).getD i 0 := fun k i hi => by
    have a := hmove k i (by omega)
    have b := hmove k (i + 1) hi
    have c := hcell k i hi
    have d : 8 * ((1 + κ) * (1 / 2 ^ 24)) * w k ≤ 1 * w k := by
      have := (hw0 k).le
      gcongr
    rw [abs_le] at a b
    linarith [a.1, a.2, b.1, b.2]
  have hxb : ∀ k, |val (x k)| ≤ κ * w k := fun k => by
    obtain ⟨h1, h2⟩ := hin k
    have hl := hlen k
    dsimp only at h1 h2
    rw [(getD_map_single (grids k) (show 0 < (grids k).length by omega)).2] at h1
    rw [(getD_map_single (grids k) (show (grids k).length - 1 < (grids k).length by omega)).2] at h2
    have a := abs_le.1 (hmem k 0 (by omega)).2
    have b := abs_le.1 (hmem k ((grids k).length - 1) (by omega)).2
    rw [abs_le]
    constructor <;> linarith [a.1, b.2]
  refine ⟨⟨?_, ?_, ?_, ?_⟩, hwide, hmove, fun k => ?_, fun k a ha => ?_, fun k => ?_, fun k => ⟨?_, ?_⟩⟩
  · have := hG.slice
    unfold IsSlice at this ⊢
    simpa using this
  · have := hG.len
    simp only [Axes.size, List.length_map] at this ⊢
    exact this
  · intro k
    have := hG.big k
    simp only [Axes.size, List.length_map] at this ⊢
    exact this
  · intro k i hi
    simp only [Axes.size, List.length_map] at hi
    have := hwide k i hi
    have := hw0 k
    simp only [Axes.node]
    linarith
  · exact (single_moves (hx k) (hxb k) (hl127 k) (hw k)).trans_eq (by ring)
  · obtain ⟨b, hb, rfl⟩ := List.mem_map.1 ha
    obtain ⟨h1, h2⟩ := hgrid k b hb
    refine ⟨(single_val h1 (h2.trans (hl127 k))).1, ?_⟩
    have e := single_err h1 (h2.trans (hl127 k))
    have t := abs_sub_abs_le_abs_sub (val (single b)) (val b)
    have := h2.trans (hlarge k)
    have : (1 : ℚ) / 2 ^ 24 * |val b| ≤ 1 / 2 ^ 24 * 2 ^ 125 := by gcongr
    norm_num at *
    linarith
  · exact (single_val (hx k) ((hxb k).trans (hl127 k))).1
  · have h0 : 0 < (grids k).length := hlen k
    have h1 := (hin k).1
    simp only [(getD_map_single (grids k) h0).1, (getD_map_single (grids k) h0).2] at h1 ⊢
    exact single_mono (hmem k 0 h0).1 (hx k) ((hmem k 0 h0).2.trans (hl127 k))
      ((hxb k).trans (hl127 k)) h1
  · have h0 : (grids k).length - 1 < (grids k).length := by have := hlen k; omega
    have h1 := (hin k).2
    simp only [List.length_map, (getD_map_single (grids k) h0).1,
      (getD_map_single (grids k) h0).2] at h1 ⊢
    exact single_mono (hx k) (hmem k _ h0).1 ((hxb k).trans (hl127 k))
      ((hmem k _ h0).2.trans (hl127 k)) h1

/-- Values after conversion. -/
private theorem single_vals {vals : List F64} {M : ℚ} (hM : M ≤ 2 ^ 123)
    (hvals : ∀ v ∈ vals, Finite v ∧ |val v| ≤ M) :
    (∀ v ∈ vals.map single, Finite v ∧ |val v| ≤ (1 + 1 / 2 ^ 24) * M + 1 / 2 ^ 150) ∧
    ∀ i (h : i < (vals.map val).length) (h' : i < ((vals.map single).map val).length),
      |(vals.map val)[i] - ((vals.map single).map val)[i]| ≤ 1 / 2 ^ 24 * M + 1 / 2 ^ 150 := by
  have key : ∀ v ∈ vals, Finite (single v) ∧
      |val (single v) - val v| ≤ 1 / 2 ^ 24 * M + 1 / 2 ^ 150 := fun v hv => by
    obtain ⟨h1, h2⟩ := hvals v hv
    have h3 : |val v| ≤ 2 ^ 127 := (h2.trans hM).trans (by norm_num)
    refine ⟨(single_val h1 h3).1, (single_err h1 h3).trans ?_⟩
    gcongr
  constructor
  · intro v hv
    obtain ⟨b, hb, rfl⟩ := List.mem_map.1 hv
    obtain ⟨h1, h2⟩ := key b hb
    have h3 := (hvals b hb).2
    have := abs_sub_abs_le_abs_sub (val (single b)) (val b)
    exact ⟨h1, by linarith⟩
  · intro i h h'
    simp only [List.getElem_map]
    rw [abs_sub_comm]
    exact (key _ (List.getElem_mem _)).2

/-- C117, multilinear interpolation on rectilinear grids: nodes, values and observation in `f64`, and
the same rounded to `f32`. If cells are at least `w k` wide and nodes at most `κ w k` in size, the
result in `f32` differs from the one in `f64` by at most `44 N (1 + κ) 2^-24 M`, plus underflow, where
`M` bounds the values. -/
theorem C117_multilinear (e e' : Evaluator) (he : e.Fits N) (he' : e'.Fits N) (hN : N ≤ 1000)
    (fma fma' : Bool) (grids : Fin N → List F64) (vals : List F64)
    (hG : (Axes.rectilinear fun k => (grids k).map val).Valid 2 (vals.map val))
    (w : Fin N → ℚ) (hw : ∀ k, 1 / 2 ^ 126 ≤ w k)
    (hcell : ∀ k i, i + 1 < (grids k).length →
      w k ≤ ((grids k).map val).getD (i + 1) 0 - ((grids k).map val).getD i 0)
    (κ : ℚ) (hκ0 : 0 ≤ κ) (hκ : 64 * N * (1 + κ) ≤ 2 ^ 24) (hlarge : ∀ k, κ * w k ≤ 2 ^ 125)
    (hgrid : ∀ k, ∀ a ∈ grids k, Finite a ∧ |val a| ≤ κ * w k)
    (M : ℚ) (hM : M ≤ 2 ^ 123) (hvals : ∀ v ∈ vals, Finite v ∧ |val v| ≤ M)
    (x : Fin N → F64) (hx : ∀ k, Finite (x k))
    (hin : ∀ k, InRange (grids k).length (fun i => ((grids k).map val).getD i 0) (val (x k))) :
    ∃ r r', multilinearRectilinearAt e fma grids vals x = .ok r ∧ Finite r ∧
      multilinearRectilinearAt e' fma' (fun k => (grids k).map single) (vals.map single)
        (fun k => single (x k)) = .ok r' ∧ Finite r' ∧
      |val r' - val r| ≤ 44 * N * (1 + κ) * (1 / 2 ^ 24) * M + 5 * N * (1 / 2 ^ 150) := by
  have hN0 : 0 < N := by cases e <;> first | exact he | exact he.1
  have hN1 : (1 : ℚ) ≤ N := by exact_mod_cast hN0
  have hM0 := bound_nonneg hG (by norm_num) hvals
  set ε := (1 + κ) * (1 / 2 ^ 24 : ℚ) with hε
  have hε0 : 0 ≤ ε := by positivity
  have hNε : 64 * (N * ε) ≤ 1 := by
    have : 64 * (N * ε) = 64 * N * (1 + κ) * (1 / 2 ^ 24) := by rw [hε]; ring
    rw [this]
    calc 64 * N * (1 + κ) * (1 / 2 ^ 24 : ℚ) ≤ 2 ^ 24 * (1 / 2 ^ 24) := by gcongr
      _ = 1 := by norm_num
  have hε1 : 8 * ε ≤ 1 := by nlinarith
  obtain ⟨hG', hcell', hclose, hxm, hfin', hx', hin'⟩ :=
    single_grid grids vals hG (by decide) w κ hε1 hw hlarge hcell hgrid x hx hin
  obtain ⟨hv1, hv2⟩ := single_vals hM hvals
  have hw0 : ∀ k, 0 < w k := fun k => lt_of_lt_of_le (by norm_num) (hw k)
  obtain ⟨r, y, h1, h2, h3, h4⟩ := C81_rectilinear_f64 e he hN fma grids vals hG
    (fun k a ha => ⟨(hgrid k a ha).1, ((hgrid k a ha).2.trans (hlarge k)).trans (by
      norm_num)⟩) M (hM.trans (by norm_num)) hvals x hx hin
  obtain ⟨r', y', h1', h2', h3', h4'⟩ := C81_rectilinear_f32 e' he' hN fma'
    (fun k => (grids k).map single) (vals.map single) hG' hfin' _
    (by
      have : (1 + 1 / 2 ^ 24) * M ≤ (1 + 1 / 2 ^ 24) * 2 ^ 123 := by gcongr
      norm_num at this ⊢; linarith) hv1 (fun k => single (x k)) hx' hin'
  obtain ⟨z, z', h5, h6, h7⟩ := C116_multilinear e e' he he' fma fma'
    (.rectilinear fun k => (grids k).map val)
    (.rectilinear fun k => ((grids k).map single).map val) (vals.map val)
    ((vals.map single).map val) hG hG' (fun k => by simp [Axes.size]) (fun k => w k / 2)
    (fun k => half_pos (hw0 k))
    (fun k i hi => hcell' k i (by simpa [Axes.size] using hi)) (2 * ε)
    (fun k i hi => hclose k i (by simpa [Axes.size] using hi))
    ((1 + 1 / 2 ^ 24) * M + 1 / 2 ^ 150)
    (fun v hv => by
      obtain ⟨b, hb, rfl⟩ := List.mem_map.1 hv
      exact (hv1 b hb).2)
    (1 / 2 ^ 24 * M + 1 / 2 ^ 150) hv2 (fun k => val (x k)) (fun k => val (single (x k))) hxm
    (fun k => by
      have := hin k
      rwa [show (grids k).length = ((grids k).map val).length by simp] at this) trivial
  rw [h3] at h5
  rw [h3'] at h6
  cases h5
  cases h6
  refine ⟨r, r', h1, h2, h1', h2', ?_⟩
  have hp : (1 + 4 * (2 * ε)) ^ N - 1 ≤ 16 * (N * ε) := by
    have := one_add_pow_le (β := 4 * (2 * ε)) (by positivity) N (by linarith)
    linarith
  have hM' : 0 ≤ (1 + 1 / 2 ^ 24) * M + 1 / 2 ^ 150 := by positivity
  have h8 : ((1 + 4 * (2 * ε)) ^ N - 1) * ((1 + 1 / 2 ^ 24) * M + 1 / 2 ^ 150) ≤
      16 * (N * ε) * ((1 + 1 / 2 ^ 24) * M + 1 / 2 ^ 150) := by gcongr
  have t1 := abs_sub_le (val r') y' (val r)
  have t2 := abs_sub_le y' y (val r)
  rw [abs_sub_comm y (val r)] at t2
  have hNκ : (N : ℚ) * (1 / 2 ^ 24) ≤ N * ε := by
    have : (1 / 2 ^ 24 : ℚ) ≤ ε := by rw [hε]; nlinarith
    gcongr
  have hNM : (N : ℚ) * (1 / 2 ^ 24) * M ≤ N * ε * M := by gcongr
  have hNM0 : 0 ≤ N * ε * M := by positivity
  have h1M : 1 * (1 / 2 ^ 24) * M ≤ N * (1 / 2 ^ 24) * M := by gcongr
  rw [show 44 * N * (1 + κ) * (1 / 2 ^ 24 : ℚ) * M = 44 * (N * ε * M) by rw [hε]; ring]
  have ex1 : 16 * (N * ε) * ((1 + 1 / 2 ^ 24) * M + 1 / 2 ^ 150) =
      (16 + 16 / 2 ^ 24) * (N * ε * M) + 16 * (N * ε) * (1 / 2 ^ 150) := by ring
  have ex2 : 26 * N * (1 / 2 ^ 24) * ((1 + 1 / 2 ^ 24) * M + 1 / 2 ^ 150) =
      (26 + 26 / 2 ^ 24) * (N * (1 / 2 ^ 24) * M) + 26 * (N * (1 / 2 ^ 24)) * (1 / 2 ^ 150 : ℚ) := by
    ring
  have ex3 : 26 * N * (1 / 2 ^ 53) * M = 26 / 2 ^ 29 * (N * (1 / 2 ^ 24) * M) := by ring
  have ex4 : 16 * (N * ε) * (1 / 2 ^ 150 : ℚ) ≤ 1 / 4 * (1 / 2 ^ 150) :=
    mul_le_mul_of_nonneg_right (by linarith) (by norm_num)
  have ex5 : 26 * (N * (1 / 2 ^ 24)) * (1 / 2 ^ 150 : ℚ) ≤ 1 / 2 * (1 / 2 ^ 150) :=
    mul_le_mul_of_nonneg_right (by linarith) (by norm_num)
  have ex6 : 3 * N * (1 / 2 ^ 1075 : ℚ) ≤ N * (1 / 8 * (1 / 2 ^ 150)) := by
    rw [mul_comm 3 (N : ℚ), mul_assoc]
    exact mul_le_mul_of_nonneg_left (by norm_num) (by positivity)
  have ex7 : 1 * (1 / 2 ^ 150 : ℚ) ≤ N * (1 / 2 ^ 150) :=
    mul_le_mul_of_nonneg_right hN1 (by norm_num)
  rw [ex1] at h8
  rw [ex2] at h4'
  rw [ex3] at h4
  linarith

/-- A regular grid after conversion. -/
private theorem single_regular {m : Nat} (dims : Fin N → Nat) (starts steps : Fin N → F64)
    (vals : List F64)
    (hG : (Axes.regular dims (fun k => val (starts k)) fun k => val (steps k)).Valid m (vals.map val))
    (hm : 2 ≤ m) (hfin : ∀ k, Finite (starts k) ∧ Finite (steps k))
    (hnormal : ∀ k, 1 / 2 ^ 125 ≤ val (steps k)) (κ : ℚ) (hκ0 : 0 ≤ κ)
    (hκ : 200 * ((1 + κ) * (1 / 2 ^ 24)) ≤ 1) (hlarge : ∀ k, (1 + κ) * val (steps k) ≤ 2 ^ 123)
    (hnodes : ∀ k, |val (starts k)| ≤ κ * val (steps k) ∧
      |val (starts k) + val (steps k) * ((dims k - 1 : Nat) : ℚ)| ≤ κ * val (steps k))
    (x : Fin N → F64) (hx : ∀ k, Finite (x k))
    (hin : ∀ k, InRange (dims k) (fun i => val (starts k) + val (steps k) * (i : ℚ)) (val (x k))) :
    (Axes.regular dims (fun k => val (single (starts k))) fun k => val (single (steps k))).Valid m
      ((vals.map single).map val) ∧
    (∀ k, Finite (single (starts k)) ∧ Finite (single (steps k))) ∧
    (∀ k, 1 / 2 ^ 126 ≤ val (single (steps k))) ∧
    (∀ k i, i < dims k → |(val (single (starts k)) + val (single (steps k)) * (i : ℚ)) -
      (val (starts k) + val (steps k) * (i : ℚ))| ≤
        6 * ((1 + κ) * (1 / 2 ^ 24)) * val (single (steps k))) ∧
    (∀ k, |val (single (x k)) - val (x k)| ≤
      6 * ((1 + κ) * (1 / 2 ^ 24)) * val (single (steps k))) ∧
    (∀ k, |val (single (starts k))| ≤ (κ + 1) * val (single (steps k)) ∧
      |val (single (starts k)) + val (single (steps k)) * ((dims k - 1 : Nat) : ℚ)| ≤
        (κ + 1) * val (single (steps k))) ∧
    (∀ k, (κ + 1) * val (single (steps k)) ≤ 2 ^ 124) ∧
    (∀ k, Finite (single (x k)) ∧ |val (single (x k))| ≤ (κ + 1) * val (single (steps k))) ∧
    (∀ k, NearRange (dims k) (fun i => val (single (starts k)) + val (single (steps k)) * (i : ℚ))
      (12 * ((1 + κ) * (1 / 2 ^ 24))) (val (single (x k)))) := by
  have hdim : ∀ k, 2 ≤ dims k := fun k => by
    have := hG.big k
    simp only [Axes.size] at this
    omega
  set ε := (1 + κ) * (1 / 2 ^ 24 : ℚ) with hε
  have hε0 : 0 ≤ ε := by positivity
  have hu : (1 / 2 ^ 24 : ℚ) ≤ ε := by rw [hε]; nlinarith
  have hh0 : ∀ k, 0 < val (steps k) := fun k => lt_of_lt_of_le (by norm_num) (hnormal k)
  have hn126 : ∀ k, 1 / 2 ^ 126 ≤ val (steps k) := fun k => le_trans (by norm_num) (hnormal k)
  have hκh : ∀ k, κ * val (steps k) ≤ 2 ^ 123 := fun k => by
    have := hlarge k; have := hh0 k; linarith
  have hh123 : ∀ k, val (steps k) ≤ 2 ^ 123 := fun k => by
    have := hlarge k; have := mul_nonneg hκ0 (hh0 k).le; linarith
  have hκ127 : ∀ k, κ * val (steps k) ≤ 2 ^ 127 := fun k => (hκh k).trans (by norm_num)
  have habs : ∀ k, |val (steps k)| ≤ 1 * val (steps k) := fun k => by
    rw [abs_of_pos (hh0 k), one_mul]
  have h1h127 : ∀ k, 1 * val (steps k) ≤ 2 ^ 127 := fun k => by
    rw [one_mul]; exact (hh123 k).trans (by norm_num)
  have hs : ∀ k, |val (single (starts k)) - val (starts k)| ≤ ε * val (steps k) := fun k =>
    single_moves (hfin k).1 (hnodes k).1 (hκ127 k) (hn126 k)
  have hh : ∀ k, |val (single (steps k)) - val (steps k)| ≤ 2 / 2 ^ 24 * val (steps k) := fun k =>
    (single_moves (hfin k).2 (habs k) (h1h127 k) (hn126 k)).trans_eq (by ring)
  have hxb : ∀ k, |val (x k)| ≤ κ * val (steps k) := fun k => by
    obtain ⟨h1, h2⟩ := hin k
    have a := abs_le.1 (hnodes k).1
    have b := abs_le.1 (hnodes k).2
    dsimp only at h1 h2
    simp only [Nat.cast_zero, mul_zero, add_zero] at h1
    rw [abs_le]
    constructor <;> linarith [a.1, b.2]
  have hxm : ∀ k, |val (single (x k)) - val (x k)| ≤ ε * val (steps k) := fun k =>
    single_moves (hx k) (hxb k) (hκ127 k) (hn126 k)
  have hlo : ∀ k, (1 - 2 / 2 ^ 24) * val (steps k) ≤ val (single (steps k)) := fun k => by
    have := (abs_le.1 (hh k)).1; linarith
  have hhi : ∀ k, val (single (steps k)) ≤ (1 + 2 / 2 ^ 24) * val (steps k) := fun k => by
    have := (abs_le.1 (hh k)).2; linarith
  have hstep : ∀ k, val (steps k) ≤ (1 + 4 / 2 ^ 24) * val (single (steps k)) := fun k => by
    have := hlo k; have := hh0 k
    norm_num at *
    linarith
  have hn0 : ∀ k, 0 < val (single (steps k)) := fun k => by
    have := hlo k; have := hh0 k
    norm_num at *
    linarith
  have hnum : ∀ k i, i < dims k → (i : ℚ) ≤ 2 * κ := fun k i hi => by
    have a := abs_le.1 (hnodes k).1
    have b := abs_le.1 (hnodes k).2
    have c : (i : ℚ) ≤ ((dims k - 1 : Nat) : ℚ) := by exact_mod_cast (show i ≤ dims k - 1 by omega)
    have d : val (steps k) * ((dims k - 1 : Nat) : ℚ) ≤ val (steps k) * (2 * κ) := by
      linarith [a.1, b.2]
    exact c.trans (le_of_mul_le_mul_left d (hh0 k))
  have hnode : ∀ k i, i < dims k → |(val (single (starts k)) + val (single (steps k)) * (i : ℚ)) -
      (val (starts k) + val (steps k) * (i : ℚ))| ≤ 5 * ε * val (steps k) := fun k i hi => by
    have a := hs k
    have b : |val (single (steps k)) - val (steps k)| * (i : ℚ) ≤
        2 / 2 ^ 24 * val (steps k) * (2 * κ) := by
      have := hh0 k
      gcongr
      · exact hh k
      · exact hnum k i hi
    rw [show (val (single (starts k)) + val (single (steps k)) * (i : ℚ)) -
      (val (starts k) + val (steps k) * (i : ℚ)) = (val (single (starts k)) - val (starts k)) +
        (val (single (steps k)) - val (steps k)) * (i : ℚ) by ring]
    refine (abs_add_le _ _).trans ?_
    rw [abs_mul, abs_of_nonneg (show (0 : ℚ) ≤ i by positivity)]
    have c : 4 * ε * val (steps k) = 2 / 2 ^ 24 * val (steps k) * (2 * κ) +
        4 / 2 ^ 24 * val (steps k) := by rw [hε]; ring
    have := hh0 k
    linarith
  have hconv : ∀ k (c : ℚ), 0 ≤ c → c * val (steps k) ≤ (c + 4 / 2 ^ 24 * c) * val (single (steps k)) :=
    fun k c hc => (mul_le_mul_of_nonneg_left (hstep k) hc).trans_eq (by ring)
  have hκu : 4 / 2 ^ 24 * κ ≤ 4 * ε := by rw [hε]; nlinarith
  have h5 : ∀ k, 5 * ε * val (steps k) ≤ 6 * ε * val (single (steps k)) := fun k => by
    refine (hconv k _ (by positivity)).trans ?_
    have := hn0 k
    gcongr
    norm_num; linarith
  have hκ1 : ∀ k, (κ + 5 * ε) * val (steps k) ≤ (κ + 1) * val (single (steps k)) := fun k => by
    refine (hconv k _ (by positivity)).trans ?_
    exact mul_le_mul_of_nonneg_right (by linarith) (hn0 k).le
  have hεh : ∀ k, 0 ≤ ε * val (steps k) := fun k => mul_nonneg hε0 (hh0 k).le
  refine ⟨⟨?_, ?_, ?_, ?_⟩, fun k => ⟨?_, ?_⟩, fun k => ?_, fun k i hi => (hnode k i hi).trans (h5 k),
    fun k => ((hxm k).trans ?_).trans (h5 k), fun k => ⟨?_, ?_⟩, fun k => ?_, fun k => ⟨?_, ?_⟩,
    fun k => ⟨?_, ?_⟩⟩
  · have := hG.slice
    unfold IsSlice at this ⊢
    simpa using this
  · have := hG.len
    simp only [Axes.size, List.length_map] at this ⊢
    exact this
  · intro k
    exact hG.big k
  · intro k i _
    simp only [Axes.node]
    have := hn0 k
    push_cast
    nlinarith
  · exact (single_val (hfin k).1 ((hnodes k).1.trans (hκ127 k))).1
  · exact (single_val (hfin k).2 ((habs k).trans (h1h127 k))).1
  · have := hlo k; have := hnormal k
    norm_num at *
    linarith
  · have := hεh k; linarith
  · have a := abs_sub_abs_le_abs_sub (val (single (starts k))) (val (starts k))
    have := (hnodes k).1
    have := hs k
    have := hεh k
    have := hκ1 k
    linarith
  · have a := abs_sub_abs_le_abs_sub
      (val (single (starts k)) + val (single (steps k)) * ((dims k - 1 : Nat) : ℚ))
      (val (starts k) + val (steps k) * ((dims k - 1 : Nat) : ℚ))
    have := (hnodes k).2
    have := hnode k (dims k - 1) (by have := hdim k; omega)
    have := hκ1 k
    linarith
  · have a : (κ + 1) * val (single (steps k)) ≤ (κ + 1) * ((1 + 2 / 2 ^ 24) * val (steps k)) := by
      gcongr; exact hhi k
    have b := hlarge k
    have : (κ + 1) * ((1 + 2 / 2 ^ 24) * val (steps k)) =
      (1 + 2 / 2 ^ 24) * ((1 + κ) * val (steps k)) := by ring
    norm_num at *
    linarith
  · exact (single_val (hx k) ((hxb k).trans (hκ127 k))).1
  · have a := abs_sub_abs_le_abs_sub (val (single (x k))) (val (x k))
    have := hxb k
    have := hxm k
    have := hεh k
    have := hκ1 k
    linarith
  · have a := (abs_le.1 (hs k)).2
    have b := (abs_le.1 (hxm k)).1
    have c := (hin k).1
    have := hεh k
    have := h5 k
    have := mul_nonneg hε0 (hn0 k).le
    dsimp only at c ⊢
    simp only [Nat.cast_zero, mul_zero, add_zero, Nat.cast_one, mul_one] at c ⊢
    linarith
  · have a := (abs_le.1 (hnode k (dims k - 1) (by have := hdim k; omega))).1
    have b := (abs_le.1 (hxm k)).2
    have c := (hin k).2
    have := hεh k
    have := h5 k
    have := mul_nonneg hε0 (hn0 k).le
    have e : ((dims k - 1 : Nat) : ℚ) = ((dims k - 2 : Nat) : ℚ) + 1 := by
      have := hdim k
      rw [show dims k - 1 = (dims k - 2) + 1 by omega]
      push_cast; ring
    dsimp only at c ⊢
    rw [show ∀ a b : ℚ, a + b * ((dims k - 1 : Nat) : ℚ) - (a + b * ((dims k - 2 : Nat) : ℚ)) = b by
      intro a b; rw [e]; ring]
    linarith

/-- C117, multilinear interpolation on regular grids with steps above the smallest normal number of
`f32`, nodes at most `κ` steps in size: at most `200 N (1 + κ) 2^-24 M`, plus underflow. -/
theorem C117_multilinear_regular (e e' : Evaluator) (he : e.Fits N) (he' : e'.Fits N)
    (fma fma' : Bool) (dims : Fin N → Nat) (starts steps : Fin N → F64) (vals : List F64)
    (hG : (Axes.regular dims (fun k => val (starts k)) fun k => val (steps k)).Valid 2 (vals.map val))
    (hfin : ∀ k, Finite (starts k) ∧ Finite (steps k))
    (hnormal : ∀ k, 1 / 2 ^ 125 ≤ val (steps k)) (κ : ℚ) (hκ0 : 0 ≤ κ)
    (hκ : 200 * N * (1 + κ) ≤ 2 ^ 24) (hlarge : ∀ k, (1 + κ) * val (steps k) ≤ 2 ^ 123)
    (hnodes : ∀ k, |val (starts k)| ≤ κ * val (steps k) ∧
      |val (starts k) + val (steps k) * ((dims k - 1 : Nat) : ℚ)| ≤ κ * val (steps k))
    (M : ℚ) (hM : M ≤ 2 ^ 123) (hvals : ∀ v ∈ vals, Finite v ∧ |val v| ≤ M)
    (x : Fin N → F64) (hx : ∀ k, Finite (x k))
    (hin : ∀ k, InRange (dims k) (fun i => val (starts k) + val (steps k) * (i : ℚ)) (val (x k))) :
    ∃ r r', multilinearRegularAt e fma dims starts steps vals x = .ok r ∧ Finite r ∧
      multilinearRegularAt e' fma' dims (fun k => single (starts k)) (fun k => single (steps k))
        (vals.map single) (fun k => single (x k)) = .ok r' ∧ Finite r' ∧
      |val r' - val r| ≤ 200 * N * (1 + κ) * (1 / 2 ^ 24) * M + 6 * N * (1 / 2 ^ 150) := by
  have hN0 : 0 < N := by cases e <;> first | exact he | exact he.1
  have hN1 : (1 : ℚ) ≤ N := by exact_mod_cast hN0
  have hM0 := bound_nonneg hG (by norm_num) hvals
  set ε := (1 + κ) * (1 / 2 ^ 24 : ℚ) with hε
  have hε0 : 0 ≤ ε := by positivity
  have hNε : 200 * (N * ε) ≤ 1 := by
    have : 200 * (N * ε) = 200 * N * (1 + κ) * (1 / 2 ^ 24) := by rw [hε]; ring
    rw [this]
    calc 200 * N * (1 + κ) * (1 / 2 ^ 24 : ℚ) ≤ 2 ^ 24 * (1 / 2 ^ 24) := by gcongr
      _ = 1 := by norm_num
  have hε1 : 200 * ε ≤ 1 := by nlinarith
  have hu : (1 / 2 ^ 24 : ℚ) ≤ ε := by rw [hε]; nlinarith
  obtain ⟨hG', hfin', hnormal', hclose, hxm, hnodes', hlarge', hx', hin'⟩ :=
    single_regular dims starts steps vals hG le_rfl hfin hnormal κ hκ0 hε1 hlarge hnodes x hx hin
  obtain ⟨hv1, hv2⟩ := single_vals hM hvals
  have hpow : (1 + 2 * (12 * ε)) ^ N ≤ 5 / 4 := by
    have := one_add_pow_le (β := 2 * (12 * ε)) (by positivity) N (by linarith)
    linarith
  have hM' : (1 + 1 / 2 ^ 24) * M + 1 / 2 ^ 150 ≤ 3 / 2 * 2 ^ 123 := by
    have : (1 + 1 / 2 ^ 24) * M ≤ (1 + 1 / 2 ^ 24) * 2 ^ 123 := by gcongr
    norm_num at this ⊢; linarith
  have hM'0 : 0 ≤ (1 + 1 / 2 ^ 24) * M + 1 / 2 ^ 150 := by positivity
  obtain ⟨r, y, h1, h2, h3, h4⟩ := C81_regular_f64 e he fma κ hκ0 (hκ.trans' (by
      have : 0 ≤ N * (1 + κ) := by positivity
      linarith) |>.trans (by norm_num)) dims starts steps vals hG
    hfin (fun k => le_trans (by norm_num) (hnormal k)) hnodes
    (fun k => by
      have a := hlarge k
      have b : 0 ≤ val (steps k) := le_trans (by norm_num) (hnormal k)
      have : (2 : ℚ) ^ 123 ≤ 2 ^ 1020 := by norm_num
      linarith) M (hM.trans (by norm_num)) hvals x hx hin
  obtain ⟨r', y', h1', h2', h3', h4'⟩ := C100_regular_f32 e' he' fma' (κ + 1) (12 * ε) (by positivity)
    (by linarith)
    (le_trans (by
      have : (0 : ℚ) ≤ N * κ := by positivity
      linarith) hκ) dims (fun k => single (starts k)) (fun k => single (steps k))
    (vals.map single) hG' hfin' hnormal' hnodes' hlarge' ((1 + 1 / 2 ^ 24) * M + 1 / 2 ^ 150)
    (hpow.trans (by norm_num))
    (by
      calc (1 + 2 * (12 * ε)) ^ N * ((1 + 1 / 2 ^ 24) * M + 1 / 2 ^ 150) ≤
          5 / 4 * (3 / 2 * 2 ^ 123) := by gcongr
        _ ≤ _ := by norm_num) hv1 (fun k => single (x k)) hx' hin'
  obtain ⟨z, z', h5, h6, h7⟩ := C116_multilinear e e' he he' fma fma'
    (.regular dims (fun k => val (starts k)) fun k => val (steps k))
    (.regular dims (fun k => val (single (starts k))) fun k => val (single (steps k)))
    (vals.map val) ((vals.map single).map val) hG hG' (fun k => rfl)
    (fun k => val (single (steps k))) (fun k => lt_of_lt_of_le (by norm_num) (hnormal' k))
    (fun k i _ => by simp only [Axes.node]; push_cast; linarith) (6 * ε)
    (fun k i hi => by simpa only [Axes.node] using hclose k i hi)
    ((1 + 1 / 2 ^ 24) * M + 1 / 2 ^ 150)
    (fun v hv => by
      obtain ⟨b, hb, rfl⟩ := List.mem_map.1 hv
      exact (hv1 b hb).2)
    (1 / 2 ^ 24 * M + 1 / 2 ^ 150) hv2 (fun k => val (x k)) (fun k => val (single (x k))) hxm
    hin
    (fun k => by
      have a := abs_le.1 (hx' k).2
      have b := abs_le.1 (hnodes' k).1
      have c : 0 < val (single (steps k)) := lt_of_lt_of_le (by norm_num) (hnormal' k)
      have d : (κ : ℚ) + 1 ≤ 2 ^ 24 := by nlinarith
      constructor
      · rw [Int.le_floor, le_div_iff₀ c]
        push_cast
        nlinarith [a.1, b.2]
      · refine Int.floor_le_iff.2 ?_
        rw [div_lt_iff₀ c]
        push_cast
        nlinarith [a.2, b.1])
  rw [h3] at h5
  rw [h3'] at h6
  cases h5
  cases h6
  refine ⟨r, r', h1, h2, h1', h2', ?_⟩
  have hp : (1 + 4 * (6 * ε)) ^ N - 1 ≤ 48 * (N * ε) := by
    have := one_add_pow_le (β := 4 * (6 * ε)) (by positivity) N (by linarith)
    linarith
  have h8 : ((1 + 4 * (6 * ε)) ^ N - 1) * ((1 + 1 / 2 ^ 24) * M + 1 / 2 ^ 150) ≤
      48 * (N * ε) * ((1 + 1 / 2 ^ 24) * M + 1 / 2 ^ 150) := by gcongr
  have h9 : (1 + 2 * (12 * ε)) ^ N * (60 * N * (1 + (κ + 1)) * (1 / 2 ^ 24) *
      ((1 + 1 / 2 ^ 24) * M + 1 / 2 ^ 150) + 3 * N * (1 / 2 ^ 150)) ≤
      5 / 4 * (120 * (N * ε) * ((1 + 1 / 2 ^ 24) * M + 1 / 2 ^ 150) + 3 * N * (1 / 2 ^ 150)) := by
    have : 60 * N * (1 + (κ + 1)) * (1 / 2 ^ 24 : ℚ) ≤ 120 * (N * ε) := by
      have : (0 : ℚ) ≤ N * κ := by positivity
      rw [hε]
      linarith
    gcongr
  have t1 := abs_sub_le (val r') y' (val r)
  have t2 := abs_sub_le y' y (val r)
  rw [abs_sub_comm y (val r)] at t2
  have hNM0 : 0 ≤ N * ε * M := by positivity
  have hNM1 : 1 / 2 ^ 24 * M ≤ N * ε * M := by
    gcongr
    nlinarith
  rw [show 200 * N * (1 + κ) * (1 / 2 ^ 24 : ℚ) * M = 200 * (N * ε * M) by rw [hε]; ring]
  have ex1 : 48 * (N * ε) * ((1 + 1 / 2 ^ 24) * M + 1 / 2 ^ 150) =
      (48 + 48 / 2 ^ 24) * (N * ε * M) + 48 * (N * ε) * (1 / 2 ^ 150) := by ring
  have ex2 : 5 / 4 * (120 * (N * ε) * ((1 + 1 / 2 ^ 24) * M + 1 / 2 ^ 150) + 3 * N * (1 / 2 ^ 150)) =
      (150 + 150 / 2 ^ 24) * (N * ε * M) + 150 * (N * ε) * (1 / 2 ^ 150) +
        15 / 4 * (N * (1 / 2 ^ 150)) := by ring
  have ex3 : 60 * N * (1 + κ) * (1 / 2 ^ 53) * M = 60 / 2 ^ 29 * (N * ε * M) := by rw [hε]; ring
  have ex4 : (N * ε) * (1 / 2 ^ 150 : ℚ) ≤ 1 / 200 * (1 / 2 ^ 150) :=
    mul_le_mul_of_nonneg_right (by linarith) (by norm_num)
  have ex6 : 3 * N * (1 / 2 ^ 1075 : ℚ) ≤ N * (1 / 8 * (1 / 2 ^ 150)) := by
    rw [mul_comm 3 (N : ℚ), mul_assoc]
    exact mul_le_mul_of_nonneg_left (by norm_num) (by positivity)
  have ex7 : 1 * (1 / 2 ^ 150 : ℚ) ≤ N * (1 / 2 ^ 150) :=
    mul_le_mul_of_nonneg_right hN1 (by norm_num)
  rw [ex1] at h8
  rw [ex2] at h9
  rw [ex3] at h4
  linarith

/-- C117, multicubic interpolation on rectilinear grids whose spacing, before and after the conversion,
changes by at most the factor `ρ` between neighbours: at most `3300 N ρ (1 + κ) 2^-24 L M`, where `L` is
the bound of C63 on the size of the result. -/
theorem C117_multicubic (e e' : Evaluator) (he : e.Fits N) (he' : e'.Fits N) (hN : N ≤ 8)
    (fma fma' : Bool) (grids : Fin N → List F64) (vals : List F64) (lin : Bool)
    (hG : (Axes.rectilinear fun k => (grids k).map val).Valid 4 (vals.map val))
    (w : Fin N → ℚ) (hw : ∀ k, 1 / 2 ^ 126 ≤ w k)
    (hcell : ∀ k i, i + 1 < (grids k).length →
      w k ≤ ((grids k).map val).getD (i + 1) 0 - ((grids k).map val).getD i 0)
    (κ : ℚ) (hκ0 : 0 ≤ κ) (ρ : ℚ) (hρ : 1 ≤ ρ) (hρ2 : ρ ≤ 2 ^ 9)
    (hκ : 68 * N * ρ * (1 + κ) ≤ 2 ^ 24) (hlarge : ∀ k, κ * w k ≤ 2 ^ 125)
    (hgrid : ∀ k, ∀ a ∈ grids k, Finite a ∧ |val a| ≤ κ * w k)
    (hmesh : ∀ k, MeshRatio (grids k).length (fun i => ((grids k).map val).getD i 0) ρ)
    (hmesh' : ∀ k, MeshRatio (grids k).length
      (fun i => (((grids k).map single).map val).getD i 0) ρ)
    (M : ℚ) (hM : M ≤ 2 ^ 39) (hM1 : 1 / 2 ^ 126 ≤ M)
    (hvals : ∀ v ∈ vals, Finite v ∧ |val v| ≤ M) (x : Fin N → F64) (hx : ∀ k, Finite (x k))
    (hin : ∀ k, InRange (grids k).length (fun i => ((grids k).map val).getD i 0) (val (x k))) :
    ∃ r r', multicubicRectilinearAt e fma grids vals lin x = .ok r ∧ Finite r ∧
      multicubicRectilinearAt e' fma' (fun k => (grids k).map single) (vals.map single) lin
        (fun k => single (x k)) = .ok r' ∧ Finite r' ∧
      |val r' - val r| ≤ 3300 * N * ρ * (1 + κ) * (1 / 2 ^ 24) *
        (1 + ρ ^ 2 / (2 * (1 + ρ))) ^ N * M := by
  have hN0 : 0 < N := by cases e <;> first | exact he | exact he.1
  have hN1 : (1 : ℚ) ≤ N := by exact_mod_cast hN0
  have hM0 : 0 ≤ M := le_trans (by norm_num) hM1
  set ε := (1 + κ) * (1 / 2 ^ 24 : ℚ) with hε
  have hε0 : 0 ≤ ε := by positivity
  have hNε : 68 * (N * ρ * ε) ≤ 1 := by
    have : 68 * (N * ρ * ε) = 68 * N * ρ * (1 + κ) * (1 / 2 ^ 24) := by rw [hε]; ring
    rw [this]
    calc 68 * N * ρ * (1 + κ) * (1 / 2 ^ 24 : ℚ) ≤ 2 ^ 24 * (1 / 2 ^ 24) := by gcongr
      _ = 1 := by norm_num
  have hNρ : (1 : ℚ) ≤ N * ρ := by nlinarith
  have hε2 : ε ≤ N * ρ * ε := by nlinarith
  have hε1 : 8 * ε ≤ 1 := by linarith
  obtain ⟨hG', hcell', hclose, hxm, hfin', hx', hin'⟩ :=
    single_grid grids vals hG (by decide) w κ hε1 hw hlarge hcell hgrid x hx hin
  obtain ⟨hv1, hv2⟩ := single_vals (hM.trans (by norm_num)) hvals
  have hw0 : ∀ k, 0 < w k := fun k => lt_of_lt_of_le (by norm_num) (hw k)
  have hη : (1 : ℚ) / 2 ^ 150 ≤ 1 / 2 ^ 24 * M := by
    calc (1 : ℚ) / 2 ^ 150 = 1 / 2 ^ 24 * (1 / 2 ^ 126) := by norm_num
      _ ≤ _ := by gcongr
  have hM2 : (1 + 1 / 2 ^ 24) * M + 1 / 2 ^ 150 ≤ (1 + 2 / 2 ^ 24) * M := by linarith
  obtain ⟨r, y, h1, h2, h3, h4⟩ := C82_rectilinear_f64 e he hN fma grids vals lin hG
    (fun k a ha => ⟨(hgrid k a ha).1, ((hgrid k a ha).2.trans (hlarge k)).trans (by
      norm_num)⟩) M (hM.trans (by norm_num)) (le_trans (by norm_num) hM1) hvals x hx hin ρ hρ
    (hρ2.trans (by norm_num)) hmesh
  obtain ⟨r', y', h1', h2', h3', h4'⟩ := C82_rectilinear_f32 e' he' hN fma'
    (fun k => (grids k).map single) (vals.map single) lin hG' hfin' ((1 + 2 / 2 ^ 24) * M)
    (by
      have : (1 + 2 / 2 ^ 24) * M ≤ (1 + 2 / 2 ^ 24) * 2 ^ 39 := by gcongr
      norm_num at this ⊢; linarith) (by linarith)
    (fun v hv => ⟨(hv1 v hv).1, (hv1 v hv).2.trans hM2⟩) (fun k => single (x k)) hx' hin' ρ hρ hρ2
    (fun k => by have := hmesh' k; rwa [show (grids k).length = ((grids k).map single).length by simp]
      at this)
  obtain ⟨z, z', h5, h6, h7⟩ := C116_multicubic e e' he he' fma fma'
    (.rectilinear fun k => (grids k).map val)
    (.rectilinear fun k => ((grids k).map single).map val) (vals.map val)
    ((vals.map single).map val) lin hG hG' (fun k => by simp [Axes.size]) (fun k => w k / 2)
    (fun k => half_pos (hw0 k))
    (fun k i hi => hcell' k i (by simpa [Axes.size] using hi)) (2 * ε)
    (fun k i hi => hclose k i (by simpa [Axes.size] using hi)) ρ hρ
    (fun k => by
      have := hmesh k
      rwa [show (grids k).length = ((grids k).map val).length by simp] at this)
    ((1 + 2 / 2 ^ 24) * M)
    (fun v hv => by
      obtain ⟨b, hb, rfl⟩ := List.mem_map.1 hv
      exact (hv1 b hb).2.trans hM2)
    (2 / 2 ^ 24 * M) (fun i h h' => (hv2 i h h').trans (by linarith)) (fun k => val (x k))
    (fun k => val (single (x k))) hxm
    (fun k => by
      have := hin k
      rwa [show (grids k).length = ((grids k).map val).length by simp] at this) trivial
  rw [h3] at h5
  rw [h3'] at h6
  cases h5
  cases h6
  refine ⟨r, r', h1, h2, h1', h2', ?_⟩
  set Λ := 1 + ρ ^ 2 / (2 * (1 + ρ)) with hΛ
  have hΛ1 : 1 ≤ Λ := by rw [hΛ]; have : 0 ≤ ρ ^ 2 / (2 * (1 + ρ)) := by positivity
                         linarith
  set δ := 2 * (2 * ε) * (7 + ρ + 16 * (2 * ε)) with hδ
  have hδ0 : 0 ≤ δ := by rw [hδ]; positivity
  have hδ1 : δ ≤ 34 * (ρ * ε) := by
    rw [hδ]
    have : 7 + ρ + 16 * (2 * ε) ≤ 17 / 2 * ρ := by linarith
    calc 2 * (2 * ε) * (7 + ρ + 16 * (2 * ε)) ≤ 2 * (2 * ε) * (17 / 2 * ρ) := by gcongr
      _ = _ := by ring
  have hp : (1 + δ) ^ N - 1 ≤ 68 * (N * ρ * ε) := by
    have a : (N : ℚ) * δ ≤ N * (34 * (ρ * ε)) := by gcongr
    have := one_add_pow_le (β := δ) hδ0 N (by linarith)
    linarith
  have hL0 : 0 ≤ Λ ^ N := by positivity
  have h8 : (Λ + δ) ^ N - Λ ^ N ≤ Λ ^ N * (68 * (N * ρ * ε)) := by
    have a : (Λ + δ) ^ N ≤ (Λ * (1 + δ)) ^ N := by
      have : Λ + δ ≤ Λ * (1 + δ) := by nlinarith
      gcongr
    rw [mul_pow] at a
    have := mul_le_mul_of_nonneg_left hp hL0
    linarith
  have h9 : ((Λ + δ) ^ N - Λ ^ N) * ((1 + 2 / 2 ^ 24) * M) ≤
      Λ ^ N * (68 * (N * ρ * ε)) * ((1 + 2 / 2 ^ 24) * M) := by gcongr
  have t1 := abs_sub_le (val r') y' (val r)
  have t2 := abs_sub_le y' y (val r)
  rw [abs_sub_comm y (val r)] at t2
  set B := Λ ^ N * M with hB
  have hB0 : 0 ≤ B := by positivity
  have hu : (1 / 2 ^ 24 : ℚ) ≤ ε := by rw [hε]; nlinarith
  have b1 : N * ρ * (1 / 2 ^ 24) * B ≤ N * ρ * ε * B := by gcongr
  have b2 : 1 / 2 ^ 24 * B ≤ N * ρ * ε * B := by gcongr; exact hu.trans hε2
  have b3 : 0 ≤ N * ρ * ε * B := by positivity
  rw [show 3300 * N * ρ * (1 + κ) * (1 / 2 ^ 24 : ℚ) * Λ ^ N * M = 3300 * (N * ρ * ε * B) by
    rw [hε, hB]; ring]
  rw [show Λ ^ N * (68 * (N * ρ * ε)) * ((1 + 2 / 2 ^ 24) * M) =
    68 * (1 + 2 / 2 ^ 24) * (N * ρ * ε * B) by rw [hB]; ring] at h9
  rw [show 3200 * N * ρ * (1 / 2 ^ 24) * Λ ^ N * ((1 + 2 / 2 ^ 24) * M) =
    3200 * (1 + 2 / 2 ^ 24) * (N * ρ * (1 / 2 ^ 24) * B) by rw [hB]; ring] at h4'
  rw [show 3200 * N * ρ * (1 / 2 ^ 53) * Λ ^ N * M =
    3200 / 2 ^ 29 * (N * ρ * (1 / 2 ^ 24) * B) by rw [hB]; ring] at h4
  rw [show Λ ^ N * (2 / 2 ^ 24 * M) = 2 * (1 / 2 ^ 24 * B) by rw [hB]; ring] at h7
  linarith

/-- C117, multicubic interpolation on regular grids: at most `9000 N (1 + κ) 2^-24 (5/4)^N M`. -/
theorem C117_multicubic_regular (e e' : Evaluator) (he : e.Fits N) (he' : e'.Fits N) (hN : N ≤ 8)
    (fma fma' : Bool) (dims : Fin N → Nat) (starts steps : Fin N → F64) (vals : List F64) (lin : Bool)
    (hG : (Axes.regular dims (fun k => val (starts k)) fun k => val (steps k)).Valid 4 (vals.map val))
    (hfin : ∀ k, Finite (starts k) ∧ Finite (steps k))
    (hnormal : ∀ k, 1 / 2 ^ 125 ≤ val (steps k)) (κ : ℚ) (hκ0 : 0 ≤ κ)
    (hκ : 10000 * N * (1 + κ) ≤ 2 ^ 24) (hlarge : ∀ k, (1 + κ) * val (steps k) ≤ 2 ^ 123)
    (hnodes : ∀ k, |val (starts k)| ≤ κ * val (steps k) ∧
      |val (starts k) + val (steps k) * ((dims k - 1 : Nat) : ℚ)| ≤ κ * val (steps k))
    (M : ℚ) (hM : M ≤ 2 ^ 29) (hM1 : 1 / 2 ^ 126 ≤ M)
    (hvals : ∀ v ∈ vals, Finite v ∧ |val v| ≤ M) (x : Fin N → F64) (hx : ∀ k, Finite (x k))
    (hin : ∀ k, InRange (dims k) (fun i => val (starts k) + val (steps k) * (i : ℚ)) (val (x k))) :
    ∃ r r', multicubicRegularAt e fma dims starts steps vals lin x = .ok r ∧ Finite r ∧
      multicubicRegularAt e' fma' dims (fun k => single (starts k)) (fun k => single (steps k))
        (vals.map single) lin (fun k => single (x k)) = .ok r' ∧ Finite r' ∧
      |val r' - val r| ≤ 9000 * N * (1 + κ) * (1 / 2 ^ 24) * (5 / 4) ^ N * M := by
  have hN0 : 0 < N := by cases e <;> first | exact he | exact he.1
  have hN1 : (1 : ℚ) ≤ N := by exact_mod_cast hN0
  have hM0 : 0 ≤ M := le_trans (by norm_num) hM1
  set ε := (1 + κ) * (1 / 2 ^ 24 : ℚ) with hε
  have hε0 : 0 ≤ ε := by positivity
  have hNε : 10000 * (N * ε) ≤ 1 := by
    have : 10000 * (N * ε) = 10000 * N * (1 + κ) * (1 / 2 ^ 24) := by rw [hε]; ring
    rw [this]
    calc 10000 * N * (1 + κ) * (1 / 2 ^ 24 : ℚ) ≤ 2 ^ 24 * (1 / 2 ^ 24) := by gcongr
      _ = 1 := by norm_num
  have hεN : ε ≤ N * ε := by nlinarith
  have hε1 : 10000 * ε ≤ 1 := by linarith
  have hu : (1 / 2 ^ 24 : ℚ) ≤ ε := by rw [hε]; nlinarith
  obtain ⟨hG', hfin', hnormal', hclose, hxm, hnodes', hlarge', hx', hin'⟩ :=
    single_regular dims starts steps vals hG (by decide) hfin hnormal κ hκ0 (by linarith) hlarge hnodes
      x hx hin
  obtain ⟨hv1, hv2⟩ := single_vals (hM.trans (by norm_num)) hvals
  have hη : (1 : ℚ) / 2 ^ 150 ≤ 1 / 2 ^ 24 * M := by
    calc (1 : ℚ) / 2 ^ 150 = 1 / 2 ^ 24 * (1 / 2 ^ 126) := by norm_num
      _ ≤ _ := by gcongr
  have hM2 : (1 + 1 / 2 ^ 24) * M + 1 / 2 ^ 150 ≤ (1 + 2 / 2 ^ 24) * M := by linarith
  -- the loss outside the grid
  have hl3 : (1 + 12 * ε) ^ 3 ≤ 1004 / 1000 := by
    have : 1 + 12 * ε ≤ 1 + 12 / 10000 := by linarith
    calc (1 + 12 * ε) ^ 3 ≤ (1 + 12 / 10000) ^ 3 := by gcongr
      _ ≤ _ := by norm_num
  have hcost : 4200 * N * ((1 + (κ + 1)) * (1 + 12 * ε) ^ 3) ≤ 4200 * N * (2 * (1 + κ) * (1004 / 1000)) := by
    have : 1 + (κ + 1) ≤ 2 * (1 + κ) := by linarith
    gcongr
  obtain ⟨r, y, h1, h2, h3, h4⟩ := C82_regular_f64 e he hN fma κ hκ0 (hκ.trans' (by
      have : 0 ≤ N * (1 + κ) := by positivity
      linarith) |>.trans (by norm_num)) dims starts steps vals lin hG
    hfin (fun k => le_trans (by norm_num) (hnormal k)) hnodes
    (fun k => by
      have a := hlarge k
      have b : 0 ≤ val (steps k) := le_trans (by norm_num) (hnormal k)
      have : (2 : ℚ) ^ 123 ≤ 2 ^ 1020 := by norm_num
      linarith) M (hM.trans (by norm_num)) (le_trans (by norm_num) hM1) hvals x hx hin
  obtain ⟨r', y', h1', h2', h3', h4'⟩ := C93_regular_f32 e' he' hN fma' (κ + 1) (12 * ε)
    (by positivity) (by linarith)
    (hcost.trans (by
      have : (0 : ℚ) ≤ N * (1 + κ) := by positivity
      linarith)) dims (fun k => single (starts k)) (fun k => single (steps k))
    (vals.map single) lin hG' hfin' hnormal' hnodes' hlarge' ((1 + 2 / 2 ^ 24) * M)
    (by
      have : (1 + 2 / 2 ^ 24) * M ≤ (1 + 2 / 2 ^ 24) * 2 ^ 29 := by gcongr
      norm_num at this ⊢; linarith) (by linarith)
    (fun v hv => ⟨(hv1 v hv).1, (hv1 v hv).2.trans hM2⟩) (fun k => single (x k)) hx' hin'
  obtain ⟨z, z', h5, h6, h7⟩ := C116_multicubic e e' he he' fma fma'
    (.regular dims (fun k => val (starts k)) fun k => val (steps k))
    (.regular dims (fun k => val (single (starts k))) fun k => val (single (steps k)))
    (vals.map val) ((vals.map single).map val) lin hG hG' (fun k => rfl)
    (fun k => val (single (steps k))) (fun k => lt_of_lt_of_le (by norm_num) (hnormal' k))
    (fun k i _ => by simp only [Axes.node]; push_cast; linarith) (6 * ε)
    (fun k i hi => by simpa only [Axes.node] using hclose k i hi) 1 le_rfl
    (fun k => meshRatio_regular _ _ _ k) ((1 + 2 / 2 ^ 24) * M)
    (fun v hv => by
      obtain ⟨b, hb, rfl⟩ := List.mem_map.1 hv
      exact (hv1 b hb).2.trans hM2)
    (2 / 2 ^ 24 * M) (fun i h h' => (hv2 i h h').trans (by linarith)) (fun k => val (x k))
    (fun k => val (single (x k))) hxm hin
    (fun k => by
      have a := abs_le.1 (hx' k).2
      have b := abs_le.1 (hnodes' k).1
      have c : 0 < val (single (steps k)) := lt_of_lt_of_le (by norm_num) (hnormal' k)
      have d : (κ : ℚ) + 1 ≤ 2 ^ 24 := by nlinarith
      constructor
      · rw [Int.le_floor, le_div_iff₀ c]
        push_cast
        nlinarith [a.1, b.2]
      · refine Int.floor_le_iff.2 ?_
        rw [div_lt_iff₀ c]
        push_cast
        nlinarith [a.2, b.1])
  rw [h3] at h5
  rw [h3'] at h6
  cases h5
  cases h6
  refine ⟨r, r', h1, h2, h1', h2', ?_⟩
  rw [show (1 : ℚ) + 1 ^ 2 / (2 * (1 + 1)) = 5 / 4 by norm_num] at h7
  set L := (5 / 4 : ℚ) ^ N with hL
  have hL0 : 0 ≤ L := by positivity
  -- powers close to `(5/4)^N`
  have hpow : ∀ δ b : ℚ, 0 ≤ δ → δ ≤ b * ε → b ≤ 200 → (5 / 4 + δ) ^ N ≤ L * (1 + 2 * b * (N * ε)) :=
    fun δ b h0 h1 h2 => by
    have a : (5 / 4 + δ) ^ N ≤ (5 / 4 * (1 + δ)) ^ N := by
      have : 5 / 4 + δ ≤ 5 / 4 * (1 + δ) := by linarith
      gcongr
    rw [mul_pow] at a
    refine a.trans (mul_le_mul_of_nonneg_left ?_ hL0)
    have c : (N : ℚ) * δ ≤ N * (b * ε) := by gcongr
    have d : N * (b * ε) ≤ 200 * (N * ε) := by
      rw [mul_left_comm]
      exact mul_le_mul_of_nonneg_right h2 (by positivity)
    have := one_add_pow_le (β := δ) h0 N (by linarith)
    linarith
  have p1 := hpow (8 * (12 * ε * (1 + 12 * ε))) 98 (by positivity) (by nlinarith) (by norm_num)
  have p2 := hpow (2 * (6 * ε) * (7 + 1 + 16 * (6 * ε))) 98 (by positivity) (by nlinarith) (by norm_num)
  set B := L * M with hB
  have hB0 : 0 ≤ B := by positivity
  have h8 : 4200 * N * ((1 + (κ + 1)) * (1 + 12 * ε) ^ 3) * (1 / 2 ^ 24) *
      (5 / 4 + 8 * (12 * ε * (1 + 12 * ε))) ^ N * ((1 + 2 / 2 ^ 24) * M) ≤
      4200 * N * (2 * (1 + κ) * (1004 / 1000)) * (1 / 2 ^ 24) * (L * (1 + 196 / 10000)) *
        ((1 + 2 / 2 ^ 24) * M) := by
    have : (5 / 4 + 8 * (12 * ε * (1 + 12 * ε))) ^ N ≤ L * (1 + 196 / 10000) :=
      p1.trans (mul_le_mul_of_nonneg_left (by linarith) hL0)
    gcongr
  have h9 : ((5 / 4 + 2 * (6 * ε) * (7 + 1 + 16 * (6 * ε))) ^ N - L) * ((1 + 2 / 2 ^ 24) * M) ≤
      L * (196 * (N * ε)) * ((1 + 2 / 2 ^ 24) * M) := by
    have : (5 / 4 + 2 * (6 * ε) * (7 + 1 + 16 * (6 * ε))) ^ N - L ≤ L * (196 * (N * ε)) := by linarith
    gcongr
  have t1 := abs_sub_le (val r') y' (val r)
  have t2 := abs_sub_le y' y (val r)
  rw [abs_sub_comm y (val r)] at t2
  have b2 : 1 / 2 ^ 24 * B ≤ N * ε * B := by gcongr; exact hu.trans hεN
  have b3 : 0 ≤ N * ε * B := by positivity
  rw [show 9000 * N * (1 + κ) * (1 / 2 ^ 24 : ℚ) * L * M = 9000 * (N * ε * B) by rw [hε, hB]; ring]
  rw [show 4200 * N * (2 * (1 + κ) * (1004 / 1000)) * (1 / 2 ^ 24) * (L * (1 + 196 / 10000)) *
        ((1 + 2 / 2 ^ 24) * M) =
    4200 * 2 * (1004 / 1000) * (1 + 196 / 10000) * (1 + 2 / 2 ^ 24) * (N * ε * B) by
      rw [hε, hB]; ring] at h8
  rw [show L * (196 * (N * ε)) * ((1 + 2 / 2 ^ 24) * M) = 196 * (1 + 2 / 2 ^ 24) * (N * ε * B) by
    rw [hB]; ring] at h9
  rw [show 4200 * N * (1 + κ) * (1 / 2 ^ 53) * L * M = 4200 / 2 ^ 29 * (N * ε * B) by
    rw [hε, hB]; ring] at h4
  rw [show L * (2 / 2 ^ 24 * M) = 2 * (1 / 2 ^ 24 * B) by rw [hB]; ring] at h7
  have h10 := h4'.trans h8
  clear * - h10 h9 h7 h4 t1 t2 b2 b3
  generalize N * ε * B = b at *
  generalize 1 / 2 ^ 24 * B = b' at *
  generalize ((5 / 4 + 2 * (6 * ε) * (7 + 1 + 16 * (6 * ε))) ^ N - L) * ((1 + 2 / 2 ^ 24) * M) = b'' at *
  linarith

/-- C117, nearest neighbour on rectilinear grids: the result in `f32` is the conversion of the value at
a node that no other node of the `f64` grid beats by more than `12 (1 + κ) 2^-24` times the width of the
cell that holds the converted observation. -/
theorem C117_nearest (grids : Fin N → List F64) (vals : List F64)
    (hG : (Axes.rectilinear fun k => (grids k).map val).Valid 2 (vals.map val))
    (g : (Fin N → Nat) → F64) (hg : Samples (fun k => (grids k).length) vals g)
    (w : Fin N → ℚ) (hw : ∀ k, 1 / 2 ^ 126 ≤ w k)
    (hcell : ∀ k i, i + 1 < (grids k).length →
      w k ≤ ((grids k).map val).getD (i + 1) 0 - ((grids k).map val).getD i 0)
    (κ : ℚ) (hκ0 : 0 ≤ κ) (hκ : 64 * (1 + κ) ≤ 2 ^ 24) (hlarge : ∀ k, κ * w k ≤ 2 ^ 125)
    (hgrid : ∀ k, ∀ a ∈ grids k, Finite a ∧ |val a| ≤ κ * w k)
    (x : Fin N → F64) (hx : ∀ k, Finite (x k))
    (hin : ∀ k, InRange (grids k).length (fun i => ((grids k).map val).getD i 0) (val (x k))) :
    ∃ loc, nearestRectilinearAt (fun k => (grids k).map single) (vals.map single)
        (fun k => single (x k)) = .ok (single (g loc)) ∧
      ∀ k, ∃ c, InCell (grids k).length (fun i => (((grids k).map single).map val).getD i 0)
          (val (single (x k))) c ∧ (loc k = c ∨ loc k = c + 1) ∧
        NearestWithin (grids k).length (fun i => ((grids k).map val).getD i 0) (val (x k))
          (12 * ((1 + κ) * (1 / 2 ^ 24)) *
            (((grids k).map val).getD (c + 1) 0 - ((grids k).map val).getD c 0)) (loc k) := by
  set ε := (1 + κ) * (1 / 2 ^ 24 : ℚ) with hε
  have hε0 : 0 ≤ ε := by positivity
  have hε1 : 64 * ε ≤ 1 := by
    have : 64 * ε = 64 * (1 + κ) * (1 / 2 ^ 24) := by rw [hε]; ring
    rw [this]
    calc 64 * (1 + κ) * (1 / 2 ^ 24 : ℚ) ≤ 2 ^ 24 * (1 / 2 ^ 24) := by gcongr
      _ = 1 := by norm_num
  have hu : (1 / 2 ^ 24 : ℚ) ≤ ε := by rw [hε]; nlinarith
  obtain ⟨hG', hcell', hclose, hxm, hfin', hx', hin'⟩ :=
    single_grid grids vals hG (by decide) w κ (by linarith) hw hlarge hcell hgrid x hx hin
  obtain ⟨loc, h1, h2⟩ := C83_rectilinear_f32 (fun k => (grids k).map single) (vals.map single) hG'
    (fun i => single (g i)) (by
      intro i hi
      simp only [List.length_map] at hi ⊢
      rw [List.getElem?_map, hg i hi]
      rfl) hfin' (fun k => single (x k)) hx' hin'
  refine ⟨loc, h1, fun k => ?_⟩
  obtain ⟨c, hc, hcl, hl, hn⟩ := h2 k
  simp only [List.length_map] at hc hl hn
  refine ⟨c, hc, hcl, hl, fun j hj => ?_⟩
  have a := hn j hj
  have b1 := hclose k (loc k) hl
  have b2 := hclose k j hj
  have b3 := hclose k c (by have := hc.1; omega)
  have b4 := hclose k (c + 1) hc.1
  have b5 := hxm k
  have d := hcell k c hc.1
  have hw0 : 0 ≤ w k := le_trans (by norm_num) (hw k)
  rw [← hε] at b1 b2 b3 b4 b5
  dsimp only at a ⊢
  generalize ((grids k).map val).getD (c + 1) 0 = p1 at *
  generalize ((grids k).map val).getD c 0 = p0 at *
  generalize (((grids k).map single).map val).getD (c + 1) 0 = q1 at *
  generalize (((grids k).map single).map val).getD c 0 = q0 at *
  generalize ((grids k).map val).getD (loc k) 0 = pl at *
  generalize (((grids k).map single).map val).getD (loc k) 0 = ql at *
  generalize ((grids k).map val).getD j 0 = pj at *
  generalize (((grids k).map single).map val).getD j 0 = qj at *
  generalize val (single (x k)) = x' at *
  have e1 : |val (x k) - pl| ≤ |x' - ql| + 2 * (ε * w k) := by
    have := abs_sub_le (val (x k)) x' pl
    have := abs_sub_le x' ql pl
    rw [abs_sub_comm (val (x k)) x'] at *
    linarith
  have e2 : |x' - qj| ≤ |val (x k) - pj| + 2 * (ε * w k) := by
    have := abs_sub_le x' (val (x k)) qj
    have := abs_sub_le (val (x k)) pj qj
    rw [abs_sub_comm pj qj] at *
    linarith
  have e3 : q1 - q0 ≤ (1 + 2 * ε) * (p1 - p0) := by
    have := mul_le_mul_of_nonneg_left d hε0
    rw [abs_le] at b3 b4
    linarith [b3.1, b4.2]
  have hW : 0 ≤ p1 - p0 := hw0.trans d
  have e4 : 7 * (1 / 2 ^ 24) * (q1 - q0) ≤ 7 * ε * ((1 + 2 * ε) * (p1 - p0)) := by
    have : 0 ≤ (1 + 2 * ε) * (p1 - p0) := by positivity
    calc 7 * (1 / 2 ^ 24) * (q1 - q0) ≤ 7 * (1 / 2 ^ 24) * ((1 + 2 * ε) * (p1 - p0)) := by gcongr
      _ ≤ _ := by gcongr
  have e5 : ε * w k ≤ ε * (p1 - p0) := by gcongr
  have e6 : 64 * ε * (ε * (p1 - p0)) ≤ 1 * (ε * (p1 - p0)) := by gcongr
  have e7 : 0 ≤ ε * (p1 - p0) := by positivity
  have e8 : 7 * ε * ((1 + 2 * ε) * (p1 - p0)) =
    7 * (ε * (p1 - p0)) + 14 / 64 * (64 * ε * (ε * (p1 - p0))) := by ring
  linarith

/-- C117, nearest neighbour on regular grids: the result in `f32` is the conversion of the value at a
node that no other node of the `f64` grid beats by more than `41 (1 + κ) 2^-24` steps. -/
theorem C117_nearest_regular (fma : Bool) (dims : Fin N → Nat) (starts steps : Fin N → F64)
    (vals : List F64)
    (hG : (Axes.regular dims (fun k => val (starts k)) fun k => val (steps k)).Valid 2 (vals.map val))
    (g : (Fin N → Nat) → F64) (hg : Samples dims vals g)
    (hfin : ∀ k, Finite (starts k) ∧ Finite (steps k))
    (hnormal : ∀ k, 1 / 2 ^ 125 ≤ val (steps k)) (κ : ℚ) (hκ0 : 0 ≤ κ)
    (hκ : 200 * (1 + κ) ≤ 2 ^ 24) (hlarge : ∀ k, (1 + κ) * val (steps k) ≤ 2 ^ 123)
    (hnodes : ∀ k, |val (starts k)| ≤ κ * val (steps k) ∧
      |val (starts k) + val (steps k) * ((dims k - 1 : Nat) : ℚ)| ≤ κ * val (steps k))
    (x : Fin N → F64) (hx : ∀ k, Finite (x k))
    (hin : ∀ k, InRange (dims k) (fun i => val (starts k) + val (steps k) * (i : ℚ)) (val (x k))) :
    ∃ loc, nearestRegularAt fma dims (fun k => single (starts k)) (fun k => single (steps k))
        (vals.map single) (fun k => single (x k)) = .ok (single (g loc)) ∧
      ∀ k, NearestWithin (dims k) (fun i => val (starts k) + val (steps k) * (i : ℚ)) (val (x k))
          (41 * ((1 + κ) * (1 / 2 ^ 24)) * val (steps k)) (loc k) := by
  set ε := (1 + κ) * (1 / 2 ^ 24 : ℚ) with hε
  have hε0 : 0 ≤ ε := by positivity
  have hε1 : 200 * ε ≤ 1 := by
    have : 200 * ε = 200 * (1 + κ) * (1 / 2 ^ 24) := by rw [hε]; ring
    rw [this]
    calc 200 * (1 + κ) * (1 / 2 ^ 24 : ℚ) ≤ 2 ^ 24 * (1 / 2 ^ 24) := by gcongr
      _ = 1 := by norm_num
  obtain ⟨hG', hfin', hnormal', hclose, hxm, hnodes', hlarge', hx', -⟩ :=
    single_regular dims starts steps vals hG le_rfl hfin hnormal κ hκ0 hε1 hlarge hnodes x hx hin
  have hs0 : ∀ k, 0 < val (single (steps k)) := fun k => lt_of_lt_of_le (by norm_num) (hnormal' k)
  obtain ⟨loc, h1, h2⟩ := C119_regular_f32 fma (κ + 1) (by positivity) (by linarith) dims
    (fun k => single (starts k)) (fun k => single (steps k)) (vals.map single) hG'
    (fun i => single (g i)) (by
      intro i hi
      rw [List.getElem?_map, hg i hi]
      rfl) hfin' hnormal' hnodes' hlarge' (fun k => single (x k))
    (fun k => ⟨(hx' k).1, (hx' k).2.trans (by
      have := hs0 k
      have : κ + 1 ≤ 2 ^ 61 := by linarith
      gcongr), (hx' k).2.trans (hlarge' k)⟩)
  refine ⟨loc, h1, fun k => ?_⟩
  obtain ⟨-, -, hl, hn⟩ := h2 k
  refine ⟨hl, fun j hj => ?_⟩
  have a := hn j hj
  have b1 := hclose k (loc k) hl
  have b2 := hclose k j hj
  have b5 := hxm k
  have b3 := hclose k 0 (by omega)
  have b4 := hclose k 1 (by have := hG.big k; simp only [Axes.size] at this; omega)
  have hst : (1 - 12 * ε) * val (single (steps k)) ≤ val (steps k) := by
    rw [abs_le, ← hε] at b3 b4
    simp only [Nat.cast_zero, mul_zero, add_zero, Nat.cast_one, mul_one] at b3 b4
    linarith [b3.1, b4.2]
  have hs := hs0 k
  have hslack : 7 * (1 + (κ + 1)) * (1 / 2 ^ 24) * val (single (steps k)) ≤
      14 * ε * val (single (steps k)) := by
    have : 7 * (1 + (κ + 1)) * (1 / 2 ^ 24) ≤ 14 * ε := by rw [hε]; linarith
    gcongr
  dsimp only at a ⊢
  rw [← hε] at b1 b2 b5
  generalize val (single (starts k)) + val (single (steps k)) * (loc k : ℚ) = ql at *
  generalize val (single (starts k)) + val (single (steps k)) * (j : ℚ) = qj at *
  generalize val (starts k) + val (steps k) * (loc k : ℚ) = pl at *
  generalize val (starts k) + val (steps k) * (j : ℚ) = pj at *
  generalize val (single (x k)) = x' at *
  have e1 : |val (x k) - pl| ≤ |x' - ql| + 12 * ε * val (single (steps k)) := by
    have := abs_sub_le (val (x k)) x' pl
    have := abs_sub_le x' ql pl
    rw [abs_sub_comm (val (x k)) x'] at *
    linarith
  have e2 : |x' - qj| ≤ |val (x k) - pj| + 12 * ε * val (single (steps k)) := by
    have := abs_sub_le x' (val (x k)) qj
    have := abs_sub_le (val (x k)) pj qj
    rw [abs_sub_comm pj qj] at *
    linarith
  have e3 : 38 * ε * val (single (steps k)) ≤ 41 * ε * val (steps k) := by
    have h3 : 38 * ε * val (single (steps k)) ≤ 41 * ε * ((1 - 12 * ε) * val (single (steps k))) := by
      have : 38 * ε ≤ 41 * ε * (1 - 12 * ε) := by nlinarith
      calc 38 * ε * val (single (steps k)) ≤ 41 * ε * (1 - 12 * ε) * val (single (steps k)) := by gcongr
        _ = _ := by ring
    exact h3.trans (by gcongr)
  linarith

end

/-- Hypotheses of `C117_multilinear` are satisfied. -/
example : ∃ r r', multilinearRectilinearAt .flat false exGrids64 exVals64 ![q64 (1 / 3), q64 (5 / 3)] =
      .ok r ∧
    multilinearRectilinearAt (.recursive 8) true (fun k => (exGrids64 k).map single)
      (exVals64.map single) (fun k => single (![q64 (1 / 3), q64 (5 / 3)] k)) = .ok r' ∧
    |val r' - val r| ≤ 1 / 200 := by
  obtain ⟨r, r', h1, -, h3, -, h4⟩ := C117_multilinear .flat (.recursive 8) (show 0 < 2 by decide)
    (show 0 < 2 ∧ 2 ≤ 8 by decide) (by norm_num) false true exGrids64 exVals64
    (valid_of_check (by decide +kernel)) ![1 / 10, 2] (by decide +kernel)
    (all_cells_of (by decide +kernel)) 41 (by norm_num) (by norm_num) (by decide +kernel)
    (by decide +kernel) 16 (by norm_num) (by decide +kernel) ![q64 (1 / 3), q64 (5 / 3)]
    (by decide +kernel) (by unfold InRange; decide +kernel)
  exact ⟨r, r', h1, h3, h4.trans (by norm_num)⟩

/-- The two results differ. -/
example : (multilinearRectilinearAt .flat false exGrids64 exVals64 ![q64 (1 / 3), q64 (5 / 3)] >>=
      fun r => .ok (val r)) ≠
    (multilinearRectilinearAt .flat false (fun k => (exGrids64 k).map single) (exVals64.map single)
      (fun k => single (![q64 (1 / 3), q64 (5 / 3)] k)) >>= fun r => .ok (val r)) := by
  decide +kernel

/-- Hypotheses of `C117_multilinear_regular` are satisfied, with nodes 0.1, 0.2, 0.3 on the first
axis. -/
example : ∃ r r', multilinearRegularAt .flat false ![3, 2] ![q64 (1 / 10), q64 1]
      ![q64 (1 / 10), q64 2] exVals64 ![q64 (2 / 7), q64 (5 / 3)] = .ok r ∧
    multilinearRegularAt (.recursive 8) true ![3, 2] (fun k => single (![q64 (1 / 10), q64 1] k))
      (fun k => single (![q64 (1 / 10), q64 2] k)) (exVals64.map single)
      (fun k => single (![q64 (2 / 7), q64 (5 / 3)] k)) = .ok r' ∧ |val r' - val r| ≤ 1 / 100 := by
  obtain ⟨r, r', h1, -, h3, -, h4⟩ := C117_multilinear_regular .flat (.recursive 8)
    (show 0 < 2 by decide) (show 0 < 2 ∧ 2 ≤ 8 by decide) false true ![3, 2] ![q64 (1 / 10), q64 1]
    ![q64 (1 / 10), q64 2] exVals64 (valid_of_check (by decide +kernel)) (by decide +kernel)
    (by decide +kernel) 4 (by norm_num) (by norm_num) (by decide +kernel) (by decide +kernel) 16
    (by norm_num) (by decide +kernel) ![q64 (2 / 7), q64 (5 / 3)] (by decide +kernel)
    (by unfold InRange; decide +kernel)
  exact ⟨r, r', h1, h3, h4.trans (by norm_num)⟩

/-- Hypotheses of `C117_multicubic` are satisfied. -/
example : ∃ r r', multicubicRectilinearAt .flat false exGrids64c exVals64c true
      ![q64 (1 / 3), q64 (5 / 3)] = .ok r ∧
    multicubicRectilinearAt .flat true (fun k => (exGrids64c k).map single) (exVals64c.map single) true
      (fun k => single (![q64 (1 / 3), q64 (5 / 3)] k)) = .ok r' ∧ |val r' - val r| ≤ 1 := by
  obtain ⟨r, r', h1, -, h3, -, h4⟩ := C117_multicubic .flat .flat (show 0 < 2 by decide)
    (show 0 < 2 by decide) (by norm_num) false true exGrids64c exVals64c true
    (valid_of_check (by decide +kernel)) ![1, 1 / 2] (by decide +kernel)
    (all_cells_of (by decide +kernel)) 6 (by norm_num) 2 (by norm_num) (by norm_num) (by norm_num)
    (by decide +kernel) (by decide +kernel)
    (fun k => meshRatio_of_check (by revert k; decide +kernel))
    (fun k => meshRatio_of_check (by revert k; decide +kernel))
    16 (by norm_num) (by norm_num) (by decide +kernel) ![q64 (1 / 3), q64 (5 / 3)]
    (by decide +kernel) (by unfold InRange; decide +kernel)
  exact ⟨r, r', h1, h3, h4.trans (by norm_num)⟩

/-- Hypotheses of `C117_nearest` are satisfied, with a NaN among the values. -/
example : ∃ loc, nearestRectilinearAt (fun k => (exGrids64 k).map single)
      ((.nan :: exVals64.tail : List F64).map single) (fun k => single (![q64 (1 / 3), q64 (5 / 3)] k)) =
    .ok (single (valAt .nan ![3, 2] (.nan :: exVals64.tail) loc)) :=
  (C117_nearest exGrids64 (.nan :: exVals64.tail) (valid_of_check (by decide +kernel))
    (valAt .nan ![3, 2] (.nan :: exVals64.tail)) (samples_valAt _ _ _ (by decide)) ![1 / 10, 2]
    (by decide +kernel) (all_cells_of (by decide +kernel)) 41 (by norm_num) (by norm_num)
    (by decide +kernel) (by decide +kernel)
    ![q64 (1 / 3), q64 (5 / 3)] (by decide +kernel)
    (by unfold InRange; decide +kernel)).imp fun _ h => h.1

/-- Hypotheses of `C117_multicubic_regular` are satisfied, with nodes 0.1, 0.2, ..., 0.5 on the
first axis. -/
example : ∃ r r', multicubicRegularAt .flat false ![5, 4] ![q64 (1 / 10), q64 1]
      ![q64 (1 / 10), q64 2] exVals64c true ![q64 (2 / 7), q64 (5 / 3)] = .ok r ∧
    multicubicRegularAt (.recursive 8) true ![5, 4] (fun k => single (![q64 (1 / 10), q64 1] k))
      (fun k => single (![q64 (1 / 10), q64 2] k)) (exVals64c.map single) true
      (fun k => single (![q64 (2 / 7), q64 (5 / 3)] k)) = .ok r' ∧ |val r' - val r| ≤ 1 / 5 := by
  obtain ⟨r, r', h1, -, h3, -, h4⟩ := C117_multicubic_regular .flat (.recursive 8)
    (show 0 < 2 by decide) (show 0 < 2 ∧ 2 ≤ 8 by decide) (by norm_num) false true ![5, 4]
    ![q64 (1 / 10), q64 1] ![q64 (1 / 10), q64 2] exVals64c true (valid_of_check (by decide +kernel))
    (by decide +kernel) (by decide +kernel) 6 (by norm_num) (by norm_num) (by decide +kernel)
    (by decide +kernel) 16 (by norm_num) (by norm_num) (by decide +kernel)
    ![q64 (2 / 7), q64 (5 / 3)] (by decide +kernel) (by unfold InRange; decide +kernel)
  exact ⟨r, r', h1, h3, h4.trans (by norm_num)⟩

/-- Hypotheses of `C117_nearest_regular` are satisfied, with a NaN among the values, at the last node
0.3 of the first axis. -/
example : ∃ loc, nearestRegularAt true ![3, 2] (fun k => single (![q64 (1 / 10), q64 1] k))
      (fun k => single (![q64 (1 / 10), q64 2] k)) ((.nan :: exVals64.tail : List F64).map single)
      (fun k => single (![q64 (3 / 10), q64 (5 / 3)] k)) =
    .ok (single (valAt .nan ![3, 2] (.nan :: exVals64.tail) loc)) :=
  (C117_nearest_regular true ![3, 2] ![q64 (1 / 10), q64 1] ![q64 (1 / 10), q64 2]
    (.nan :: exVals64.tail) (valid_of_check (by decide +kernel))
    (valAt .nan ![3, 2] (.nan :: exVals64.tail)) (samples_valAt _ _ _ (by decide)) (by decide +kernel)
    (by decide +kernel) 4 (by norm_num) (by norm_num) (by decide +kernel) (by decide +kernel)
    ![q64 (3 / 10), q64 (5 / 3)] (by decide +kernel)
    (by unfold InRange; decide +kernel)).imp fun _ h => h.1

end Interpn
