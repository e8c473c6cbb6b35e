import Verif.Props.Inverse
import Verif.Props.Lipschitz
import Verif.Props.IeeeLinearOut
import Verif.Props.IeeeAccuracy

/-! C129 in `f64` and `f32`: looking up a result in the exchanged table gives back the observation up to
rounding. -/

set_option autoImplicit false
set_option linter.unusedSectionVars false
set_option exponentiation.threshold 1100

namespace Interpn
open Ieee

section
variable {K : Type} [Field K] [LinearOrder K] [IsStrictOrderedRing K] [FloorRing K]

theorem nodeList_rectilinear (grid : List K) :
    (Axes.rectilinear fun _ : Fin 1 => grid).nodeList = grid := by
  apply List.ext_getElem
  · unfold Axes.nodeList; rw [List.length_ofFn]; rfl
  · intro i h1 h2
    rw [← List.getD_eq_getElem _ 0 h1, Axes.nodeList_getD _ h2]
    exact List.getD_eq_getElem _ _ h2

/-- The exchanged table at an approximation `r` of the result, in exact arithmetic. -/
theorem inverse_near (e e' : Evaluator) (he : e.Fits 1) (he' : e'.Fits 1) (fma fma' : Bool)
    {grid vals : List K} (hG : (Axes.rectilinear fun _ : Fin 1 => grid).Valid 2 vals)
    (hv : vals.Pairwise (· < ·)) (L E : K) (hL0 : 0 ≤ L)
    (hL : ∀ i, i + 1 < grid.length →
      grid.getD (i + 1) 0 - grid.getD i 0 ≤ L * (vals.getD (i + 1) 0 - vals.getD i 0))
    (hfirst : E ≤ vals.getD 1 0 - vals.getD 0 0)
    (hlast : E ≤ vals.getD (vals.length - 1) 0 - vals.getD (vals.length - 2) 0)
    (x : K) (hx : InRange grid.length (fun i => grid.getD i 0) x) (y r : K)
    (hy : multilinearAt (N := 1) e fma (.rectilinear fun _ => grid) vals (fun _ => x) = .ok y)
    (hr : |r - y| ≤ E) :
    NearRange vals.length (fun i => vals.getD i 0) 1 r ∧
    ∃ w, multilinearAt (N := 1) e' fma' (.rectilinear fun _ => vals) grid (fun _ => r) = .ok w ∧
      |w - x| ≤ L * E := by
  have hS := swap_valid hG hv
  rw [nodeList_rectilinear] at hS
  have hlen : vals.length = grid.length := valid_length hG
  have h2 : 2 ≤ grid.length := hG.big 0
  obtain ⟨y', e1, e2⟩ := C129_multilinear e e' he he' fma fma' hG hv x trivial
  rw [nodeList_rectilinear] at e2
  rw [hy] at e1
  cases e1
  have hmono : ∀ i j, i ≤ j → j < vals.length → vals.getD i 0 ≤ vals.getD j 0 := by
    intro i j hij hj
    rcases hij.lt_or_eq with h | rfl
    · rw [List.getD_eq_getElem _ _ (by omega), List.getD_eq_getElem _ _ hj]
      exact (List.pairwise_iff_getElem.1 hv i j (by omega) hj h).le
    · exact le_rfl
  obtain ⟨c, hc⟩ := hG.cells le_rfl fun _ => x
  obtain ⟨y', f1, f2, f3⟩ := C22_range e he fma _ vals hG _ (getD_samples hG) (fun _ => x) trivial
    (fun _ => hx) c hc (vals.getD 0 0) (vals.getD (vals.length - 1) 0) (fun loc hl => by
      have h1 : c 0 + 1 < grid.length := (hc 0).1
      have h3 : loc 0 < vals.length := by
        have := hl 0
        omega
      exact ⟨hmono _ _ (Nat.zero_le _) h3, hmono _ _ (by omega) (by omega)⟩)
  rw [hy] at f1
  cases f1
  rw [abs_le] at hr
  refine ⟨⟨?_, ?_⟩, ?_⟩
  · linarith [hr.1]
  · linarith [hr.2]
  · obtain ⟨a, b, g1, g2, g3⟩ := C75_axis e' he' fma' _ grid hS _ (getD_samples hS) 0 L
      (fun loc hl hj => by
        have hj' : loc 0 + 1 < grid.length := by rw [← hlen]; exact hj
        rw [Function.update_self]
        have hp := (hG.incr 0) (loc 0) hj'
        replace hp : grid.getD (loc 0) 0 < grid.getD (loc 0 + 1) 0 := hp
        rw [abs_of_nonneg (by linarith)]
        exact hL _ hj')
      (fun _ => y) r (fun k hk => absurd (Subsingleton.elim k 0) hk) trivial trivial
    rw [e2] at g1
    cases g1
    refine ⟨b, ?_, g3.trans (mul_le_mul_of_nonneg_left (abs_le.2 hr) hL0)⟩
    rw [← g2]
    congr 1
    funext k
    rw [Subsingleton.elim k 0, Function.update_self]

end

section

theorem size_bound {r y E M B C : ℚ} (hr : |r - y| ≤ E) (hE : E ≤ 2 * M) (hlo : -M ≤ y) (hhi : y ≤ M)
    (hM : M ≤ B) (hB : 3 * B ≤ C) : |r| ≤ C := by
  rw [abs_le] at *
  constructor <;> linarith [hr.1, hr.2]

theorem small_error {u M η : ℚ} (hu : 26 * u ≤ 1) (hM : 0 ≤ M) (hη : 3 * η ≤ M) :
    26 * u * M + 3 * η ≤ 2 * M := by
  nlinarith

/-- C129 in `f64`: the observation comes back up to the rounding error of the second lookup and `L`
times that of the first. -/
theorem C129_f64 (e e' : Evaluator) (he : e.Fits 1) (he' : e'.Fits 1) (fma fma' : Bool)
    (grid vals : List F64)
    (hG : (Axes.rectilinear fun _ : Fin 1 => grid.map val).Valid 2 (vals.map val))
    (hv : (vals.map val).Pairwise (· < ·)) (A M : ℚ) (hA : A ≤ 2 ^ 1018) (hM : M ≤ 2 ^ 1018)
    (hM1 : 1 / 2 ^ 1022 ≤ M)
    (hgrid : ∀ a ∈ grid, Finite a ∧ |val a| ≤ A) (hvals : ∀ v ∈ vals, Finite v ∧ |val v| ≤ M)
    (L : ℚ) (hL0 : 0 ≤ L)
    (hL : ∀ i, i + 1 < grid.length → (grid.map val).getD (i + 1) 0 - (grid.map val).getD i 0 ≤
      L * ((vals.map val).getD (i + 1) 0 - (vals.map val).getD i 0))
    (hfirst : 26 * (1 / 2 ^ 53) * M + 3 * (1 / 2 ^ 1075) ≤
      (vals.map val).getD 1 0 - (vals.map val).getD 0 0)
    (hlast : 26 * (1 / 2 ^ 53) * M + 3 * (1 / 2 ^ 1075) ≤
      (vals.map val).getD (vals.length - 1) 0 - (vals.map val).getD (vals.length - 2) 0)
    (x : F64) (hfx : Finite x) (hx : InRange grid.length (fun i => (grid.map val).getD i 0) (val x)) :
    ∃ r s, multilinearRectilinearAt (N := 1) e fma (fun _ => grid) vals (fun _ => x) = .ok r ∧
      multilinearRectilinearAt (N := 1) e' fma' (fun _ => vals) grid (fun _ => r) = .ok s ∧
      Finite r ∧ Finite s ∧
      |val s - val x| ≤ 3 * (26 * (1 / 2 ^ 53) * A + 3 * (1 / 2 ^ 1075)) +
        L * (26 * (1 / 2 ^ 53) * M + 3 * (1 / 2 ^ 1075)) := by
  have hS := swap_valid hG hv
  rw [nodeList_rectilinear] at hS
  have hlen : vals.length = grid.length := by
    have := valid_length hG
    simpa [Axes.size] using this
  obtain ⟨r, y, h1, h2, h3, h4⟩ := C81_rectilinear_f64 (N := 1) e he (by decide) fma (fun _ => grid) vals
    hG (fun _ a ha => ⟨(hgrid a ha).1, (hgrid a ha).2.trans (hA.trans (by norm_num))⟩) M
    (hM.trans (by norm_num)) hvals (fun _ => x) (fun _ => hfx) (fun _ => hx)
  rw [Nat.cast_one, mul_one, mul_one] at h4
  obtain ⟨hnear, w, h5, h6⟩ := inverse_near e e' he he' fma fma' hG hv L _ hL0
    (by rw [List.length_map]; exact hL) hfirst (by rw [List.length_map]; exact hlast) (val x)
    (by rw [List.length_map]; exact hx) y (val r) h3 h4
  rw [List.length_map] at hnear
  have hyM : -M ≤ y ∧ y ≤ M := by
    obtain ⟨c, hc⟩ := hG.cells le_rfl fun _ => val x
    obtain ⟨y', f1, f2⟩ := C22_range e he fma _ _ hG _ (getD_samples hG) (fun _ => val x) trivial
      (fun _ => by
        show InRange (grid.map val).length _ _
        rw [List.length_map]; exact hx) c hc (-M) M (fun loc hl => by
        have h1 : c 0 + 1 < (grid.map val).length := (hc 0).1
        rw [List.length_map] at h1
        have h3 : loc 0 < (vals.map val).length := by
          have := hl 0
          rw [List.length_map]
          omega
        rw [List.getD_eq_getElem _ _ h3, List.getElem_map]
        exact abs_le.1 (hvals _ (List.getElem_mem _)).2)
    rw [h3] at f1
    cases f1
    exact f2
  have hM0 : 0 ≤ M := le_trans (by norm_num) hM1
  have hr : |val r| ≤ 2 ^ 1022 :=
    size_bound h4 (small_error (by norm_num) hM0 (le_trans (by norm_num) hM1)) hyM.1 hyM.2 hM
      (by norm_num)
  have hA3 : (1 + 2 * (1 : ℚ)) ^ 1 * A ≤ 2 ^ 1020 := by
    have : (3 : ℚ) * 2 ^ 1018 ≤ 2 ^ 1020 := by norm_num
    calc (1 + 2 * (1 : ℚ)) ^ 1 * A = 3 * A := by ring
      _ ≤ 3 * 2 ^ 1018 := mul_le_mul_of_nonneg_left hA (by norm_num)
      _ ≤ 2 ^ 1020 := this
  obtain ⟨s, w', k1, k2, k3, k4⟩ := C100_rectilinear_f64 (N := 1) e' he' (by decide) fma' (fun _ => vals)
    grid hS (fun _ a ha => ⟨(hvals a ha).1, (hvals a ha).2.trans (hM.trans (by norm_num))⟩) A 1 zero_le_one
    (by norm_num) hA3 hgrid (fun _ => r) (fun _ => ⟨h2, hr⟩) (fun _ => hnear)
  rw [h5] at k3
  cases k3
  refine ⟨r, s, h1, k1, h2, k2, ?_⟩
  have e3 : (1 + 2 * (1 : ℚ)) ^ 1 = 3 := by norm_num
  rw [e3, Nat.cast_one, mul_one, mul_one] at k4
  calc |val s - val x| = |(val s - w) + (w - val x)| := by rw [sub_add_sub_cancel]
    _ ≤ |val s - w| + |w - val x| := abs_add_le _ _
    _ ≤ _ := add_le_add k4 h6

/-- C129 in `f32`: the observation comes back up to the rounding error of the second lookup and `L`
times that of the first. -/
theorem C129_f32 (e e' : Evaluator) (he : e.Fits 1) (he' : e'.Fits 1) (fma fma' : Bool)
    (grid vals : List F32)
    (hG : (Axes.rectilinear fun _ : Fin 1 => grid.map val).Valid 2 (vals.map val))
    (hv : (vals.map val).Pairwise (· < ·)) (A M : ℚ) (hA : A ≤ 2 ^ 122) (hM : M ≤ 2 ^ 122)
    (hM1 : 1 / 2 ^ 126 ≤ M)
    (hgrid : ∀ a ∈ grid, Finite a ∧ |val a| ≤ A) (hvals : ∀ v ∈ vals, Finite v ∧ |val v| ≤ M)
    (L : ℚ) (hL0 : 0 ≤ L)
    (hL : ∀ i, i + 1 < grid.length → (grid.map val).getD (i + 1) 0 - (grid.map val).getD i 0 ≤
      L * ((vals.map val).getD (i + 1) 0 - (vals.map val).getD i 0))
    (hfirst : 26 * (1 / 2 ^ 24) * M + 3 * (1 / 2 ^ 150) ≤
      (vals.map val).getD 1 0 - (vals.map val).getD 0 0)
    (hlast : 26 * (1 / 2 ^ 24) * M + 3 * (1 / 2 ^ 150) ≤
      (vals.map val).getD (vals.length - 1) 0 - (vals.map val).getD (vals.length - 2) 0)
    (x : F32) (hfx : Finite x) (hx : InRange grid.length (fun i => (grid.map val).getD i 0) (val x)) :
    ∃ r s, multilinearRectilinearAt (N := 1) e fma (fun _ => grid) vals (fun _ => x) = .ok r ∧
      multilinearRectilinearAt (N := 1) e' fma' (fun _ => vals) grid (fun _ => r) = .ok s ∧
      Finite r ∧ Finite s ∧
      |val s - val x| ≤ 3 * (26 * (1 / 2 ^ 24) * A + 3 * (1 / 2 ^ 150)) +
        L * (26 * (1 / 2 ^ 24) * M + 3 * (1 / 2 ^ 150)) := by
  have hS := swap_valid hG hv
  rw [nodeList_rectilinear] at hS
  have hlen : vals.length = grid.length := by
    have := valid_length hG
    simpa [Axes.size] using this
  obtain ⟨r, y, h1, h2, h3, h4⟩ := C81_rectilinear_f32 (N := 1) e he (by decide) fma (fun _ => grid) vals
    hG (fun _ a ha => ⟨(hgrid a ha).1, (hgrid a ha).2.trans (hA.trans (by norm_num))⟩) M
    (hM.trans (by norm_num)) hvals (fun _ => x) (fun _ => hfx) (fun _ => hx)
  rw [Nat.cast_one, mul_one, mul_one] at h4
  obtain ⟨hnear, w, h5, h6⟩ := inverse_near e e' he he' fma fma' hG hv L _ hL0
    (by rw [List.length_map]; exact hL) hfirst (by rw [List.length_map]; exact hlast) (val x)
    (by rw [List.length_map]; exact hx) y (val r) h3 h4
  rw [List.length_map] at hnear
  have hyM : -M ≤ y ∧ y ≤ M := by
    obtain ⟨c, hc⟩ := hG.cells le_rfl fun _ => val x
    obtain ⟨y', f1, f2⟩ := C22_range e he fma _ _ hG _ (getD_samples hG) (fun _ => val x) trivial
      (fun _ => by
        show InRange (grid.map val).length _ _
        rw [List.length_map]; exact hx) c hc (-M) M (fun loc hl => by
        have h1 : c 0 + 1 < (grid.map val).length := (hc 0).1
        rw [List.length_map] at h1
        have h3 : loc 0 < (vals.map val).length := by
          have := hl 0
          rw [List.length_map]
          omega
        rw [List.getD_eq_getElem _ _ h3, List.getElem_map]
        exact abs_le.1 (hvals _ (List.getElem_mem _)).2)
    rw [h3] at f1
    cases f1
    exact f2
  have hM0 : 0 ≤ M := le_trans (by norm_num) hM1
  have hr : |val r| ≤ 2 ^ 126 :=
    size_bound h4 (small_error (by norm_num) hM0 (le_trans (by norm_num) hM1)) hyM.1 hyM.2 hM
      (by norm_num)
  have hA3 : (1 + 2 * (1 : ℚ)) ^ 1 * A ≤ 2 ^ 124 := by
    have : (3 : ℚ) * 2 ^ 122 ≤ 2 ^ 124 := by norm_num
    calc (1 + 2 * (1 : ℚ)) ^ 1 * A = 3 * A := by ring
      _ ≤ 3 * 2 ^ 122 := mul_le_mul_of_nonneg_left hA (by norm_num)
      _ ≤ 2 ^ 124 := this
  obtain ⟨s, w', k1, k2, k3, k4⟩ := C100_rectilinear_f32 (N := 1) e' he' (by decide) fma' (fun _ => vals)
    grid hS (fun _ a ha => ⟨(hvals a ha).1, (hvals a ha).2.trans (hM.trans (by norm_num))⟩) A 1 zero_le_one
    (by norm_num) hA3 hgrid (fun _ => r) (fun _ => ⟨h2, hr⟩) (fun _ => hnear)
  rw [h5] at k3
  cases k3
  refine ⟨r, s, h1, k1, h2, k2, ?_⟩
  have e3 : (1 + 2 * (1 : ℚ)) ^ 1 = 3 := by norm_num
  rw [e3, Nat.cast_one, mul_one, mul_one] at k4
  calc |val s - val x| = |(val s - w) + (w - val x)| := by rw [sub_add_sub_cancel]
    _ ≤ |val s - w| + |w - val x| := abs_add_le _ _
    _ ≤ _ := add_le_add k4 h6

end

section Examples

/-- Increments of the values at least half of those of the grid, `f64`. -/
example (x : F64) (hfx : Finite x)
    (hx : InRange 4 (fun i => ([q64 0, q64 1, q64 3, q64 4].map val).getD i 0) (val x)) :
    ∃ r s, multilinearRectilinearAt (N := 1) .flat true (fun _ => [q64 0, q64 1, q64 3, q64 4])
        [q64 2, q64 3, q64 4, q64 8] (fun _ => x) = .ok r ∧
      multilinearRectilinearAt (N := 1) .flat false (fun _ => [q64 2, q64 3, q64 4, q64 8])
        [q64 0, q64 1, q64 3, q64 4] (fun _ => r) = .ok s ∧ Finite r ∧ Finite s ∧
      |val s - val x| ≤ 1 / 10 ^ 12 := by
  obtain ⟨r, s, h1, h2, h3, h4, h5⟩ := C129_f64 .flat .flat Nat.one_pos Nat.one_pos true false
    [q64 0, q64 1, q64 3, q64 4] [q64 2, q64 3, q64 4, q64 8] (valid_of_check (by decide +kernel))
    (by decide +kernel) 4 8 (by norm_num) (by norm_num) (by norm_num) (by decide +kernel)
    (by decide +kernel) 2 (by norm_num)
    (by
      intro i hi
      replace hi : i + 1 < 4 := hi
      have : i < 3 := by omega
      clear hx hfx
      interval_cases i <;> decide +kernel)
    (by decide +kernel) (by decide +kernel) x hfx hx
  refine ⟨r, s, h1, h2, h3, h4, h5.trans ?_⟩
  norm_num

/-- Increments of the values at least half of those of the grid, `f32`. -/
example (x : F32) (hfx : Finite x)
    (hx : InRange 4 (fun i => ([q32 0, q32 1, q32 3, q32 4].map val).getD i 0) (val x)) :
    ∃ r s, multilinearRectilinearAt (N := 1) .flat true (fun _ => [q32 0, q32 1, q32 3, q32 4])
        [q32 2, q32 3, q32 4, q32 8] (fun _ => x) = .ok r ∧
      multilinearRectilinearAt (N := 1) .flat false (fun _ => [q32 2, q32 3, q32 4, q32 8])
        [q32 0, q32 1, q32 3, q32 4] (fun _ => r) = .ok s ∧ Finite r ∧ Finite s ∧
      |val s - val x| ≤ 1 / 10 ^ 4 := by
  obtain ⟨r, s, h1, h2, h3, h4, h5⟩ := C129_f32 .flat .flat Nat.one_pos Nat.one_pos true false
    [q32 0, q32 1, q32 3, q32 4] [q32 2, q32 3, q32 4, q32 8] (valid_of_check (by decide +kernel))
    (by decide +kernel) 4 8 (by norm_num) (by norm_num) (by norm_num) (by decide +kernel)
    (by decide +kernel) 2 (by norm_num)
    (by
      intro i hi
      replace hi : i + 1 < 4 := hi
      have : i < 3 := by omega
      clear hx hfx
      interval_cases i <;> decide +kernel)
    (by decide +kernel) (by decide +kernel) x hfx hx
  refine ⟨r, s, h1, h2, h3, h4, h5.trans ?_⟩
  norm_num

end Examples

end Interpn
