import Verif.Props.IeeeAccuracy
import Verif.Props.InRange

/-! C87: how far multilinear results in `f32` and `f64` can leave the range of the data. -/

set_option autoImplicit false
set_option exponentiation.threshold 1100

namespace Interpn
open FloatOps Ieee

section
variable {N : Nat}

attribute [local instance] exactOps in
/-- In exact arithmetic the result is in the range of the data. -/
theorem multilinearAt_range (e : Evaluator) (he : e.Fits N) (fma : Bool) (G : Axes ℚ N)
    (vals : List ℚ) (hG : G.Valid 2 vals) (x : Fin N → ℚ)
    (hin : ∀ k, InRange (G.size k) (G.node k) (x k)) (lo hi : ℚ)
    (hv : ∀ v ∈ vals, lo ≤ v ∧ v ≤ hi) (y : ℚ) (hy : multilinearAt e fma G vals x = .ok y) :
    lo ≤ y ∧ y ≤ hi := by
  obtain ⟨c, hc⟩ := hG.cells le_rfl x
  have hs := samples_valAt 0 _ _ hG.len
  obtain ⟨y', h1, h2⟩ := C22_range e he fma G vals hG _ hs x (hG.inRange_fits le_rfl hin _ (by decide))
    hin c hc lo hi (fun loc hl => hv _ (List.mem_of_getElem? (hs loc fun k => by
      have := (hc k).1
      rcases hl k with h | h <;> omega)))
  rw [hy] at h1
  cases h1
  exact h2

theorem range_bound {lo hi v : ℚ} (h : lo ≤ v ∧ v ≤ hi) : |v| ≤ max |lo| |hi| :=
  abs_le_max_abs_abs h.1 h.2

/-- C87, `f64`, rectilinear grids: values between `lo` and `hi` give a result between `lo` and `hi`, up
to `26 N 2^-53` times the larger of `|lo|` and `|hi|` (and underflow). -/
theorem C87_rectilinear_f64 (e : Evaluator) (he : e.Fits N) (hN : N ≤ 1000) (fma : Bool)
    (grids : Fin N → List F64) (vals : List F64)
    (hG : (Axes.rectilinear fun k => (grids k).map val).Valid 2 (vals.map val))
    (hgrid : ∀ k, ∀ a ∈ grids k, Finite a ∧ |val a| ≤ 2 ^ 1022) (lo hi : ℚ)
    (hM : max |lo| |hi| ≤ 2 ^ 1020)
    (hvals : ∀ v ∈ vals, Finite v ∧ lo ≤ val v ∧ val v ≤ hi) (x : Fin N → F64)
    (hx : ∀ k, Finite (x k))
    (hin : ∀ k, InRange (grids k).length (fun i => ((grids k).map val).getD i 0) (val (x k))) :
    ∃ r, multilinearRectilinearAt e fma grids vals x = .ok r ∧ Finite r ∧
      lo - (26 * N * (1 / 2 ^ 53) * max |lo| |hi| + 3 * N * (1 / 2 ^ 1075)) ≤ val r ∧
      val r ≤ hi + (26 * N * (1 / 2 ^ 53) * max |lo| |hi| + 3 * N * (1 / 2 ^ 1075)) := by
  obtain ⟨r, y, h1, h2, h3, h4⟩ := C81_rectilinear_f64 e he hN fma grids vals hG hgrid _ hM
    (fun v hv => ⟨(hvals v hv).1, range_bound (hvals v hv).2⟩) x hx hin
  have h5 := multilinearAt_range e he fma _ _ hG _ (fun k => by
    show InRange ((grids k).map val).length _ _
    rw [List.length_map]; exact hin k) lo hi (by
      intro v hv
      obtain ⟨w, hw, rfl⟩ := List.mem_map.1 hv
      exact (hvals w hw).2) y h3
  rw [abs_le] at h4
  exact ⟨r, h1, h2, by linarith [h4.1, h5.1], by linarith [h4.2, h5.2]⟩

/-- C87, `f64`, regular grids. -/
theorem C87_regular_f64 (e : Evaluator) (he : e.Fits N) (fma : Bool) (κ : ℚ) (hκ : 0 ≤ κ)
    (hN : 100 * N * (1 + κ) ≤ 2 ^ 53)
    (dims : Fin N → Nat) (starts steps : Fin N → F64) (vals : List F64)
    (hG : (Axes.regular dims (fun k => val (starts k)) fun k => val (steps k)).Valid 2
      (vals.map val))
    (hfin : ∀ k, Finite (starts k) ∧ Finite (steps k)) (hnormal : ∀ k, 1 / 2 ^ 1022 ≤ val (steps k))
    (hnodes : ∀ k, |val (starts k)| ≤ κ * val (steps k) ∧
      |val (starts k) + val (steps k) * ((dims k - 1 : Nat) : ℚ)| ≤ κ * val (steps k))
    (hlarge : ∀ k, κ * val (steps k) ≤ 2 ^ 1020) (lo hi : ℚ) (hM : max |lo| |hi| ≤ 2 ^ 1020)
    (hvals : ∀ v ∈ vals, Finite v ∧ lo ≤ val v ∧ val v ≤ hi) (x : Fin N → F64)
    (hx : ∀ k, Finite (x k))
    (hin : ∀ k, InRange (dims k) (fun i => val (starts k) + val (steps k) * (i : ℚ)) (val (x k))) :
    ∃ r, multilinearRegularAt e fma dims starts steps vals x = .ok r ∧ Finite r ∧
      lo - (60 * N * (1 + κ) * (1 / 2 ^ 53) * max |lo| |hi| + 3 * N * (1 / 2 ^ 1075)) ≤ val r ∧
      val r ≤ hi + (60 * N * (1 + κ) * (1 / 2 ^ 53) * max |lo| |hi| + 3 * N * (1 / 2 ^ 1075)) := by
  obtain ⟨r, y, h1, h2, h3, h4⟩ := C81_regular_f64 e he fma κ hκ hN dims starts steps vals hG hfin
    hnormal hnodes hlarge _ hM
    (fun v hv => ⟨(hvals v hv).1, range_bound (hvals v hv).2⟩) x hx hin
  have h5 := multilinearAt_range e he fma _ _ hG _ hin lo hi (by
      intro v hv
      obtain ⟨w, hw, rfl⟩ := List.mem_map.1 hv
      exact (hvals w hw).2) y h3
  rw [abs_le] at h4
  exact ⟨r, h1, h2, by linarith [h4.1, h5.1], by linarith [h4.2, h5.2]⟩

/-- C87, `f32`, rectilinear grids: values between `lo` and `hi` give a result between `lo` and `hi`, up
to `26 N 2^-24` times the larger of `|lo|` and `|hi|` (and underflow). -/
theorem C87_rectilinear_f32 (e : Evaluator) (he : e.Fits N) (hN : N ≤ 1000) (fma : Bool)
    (grids : Fin N → List F32) (vals : List F32)
    (hG : (Axes.rectilinear fun k => (grids k).map val).Valid 2 (vals.map val))
    (hgrid : ∀ k, ∀ a ∈ grids k, Finite a ∧ |val a| ≤ 2 ^ 126) (lo hi : ℚ)
    (hM : max |lo| |hi| ≤ 2 ^ 124)
    (hvals : ∀ v ∈ vals, Finite v ∧ lo ≤ val v ∧ val v ≤ hi) (x : Fin N → F32)
    (hx : ∀ k, Finite (x k))
    (hin : ∀ k, InRange (grids k).length (fun i => ((grids k).map val).getD i 0) (val (x k))) :
    ∃ r, multilinearRectilinearAt e fma grids vals x = .ok r ∧ Finite r ∧
      lo - (26 * N * (1 / 2 ^ 24) * max |lo| |hi| + 3 * N * (1 / 2 ^ 150)) ≤ val r ∧
      val r ≤ hi + (26 * N * (1 / 2 ^ 24) * max |lo| |hi| + 3 * N * (1 / 2 ^ 150)) := by
  obtain ⟨r, y, h1, h2, h3, h4⟩ := C81_rectilinear_f32 e he hN fma grids vals hG hgrid _ hM
    (fun v hv => ⟨(hvals v hv).1, range_bound (hvals v hv).2⟩) x hx hin
  have h5 := multilinearAt_range e he fma _ _ hG _ (fun k => by
    show InRange ((grids k).map val).length _ _
    rw [List.length_map]; exact hin k) lo hi (by
      intro v hv
      obtain ⟨w, hw, rfl⟩ := List.mem_map.1 hv
      exact (hvals w hw).2) y h3
  rw [abs_le] at h4
  exact ⟨r, h1, h2, by linarith [h4.1, h5.1], by linarith [h4.2, h5.2]⟩

/-- C87, `f32`, regular grids. -/
theorem C87_regular_f32 (e : Evaluator) (he : e.Fits N) (fma : Bool) (κ : ℚ) (hκ : 0 ≤ κ)
    (hN : 100 * N * (1 + κ) ≤ 2 ^ 24)
    (dims : Fin N → Nat) (starts steps : Fin N → F32) (vals : List F32)
    (hG : (Axes.regular dims (fun k => val (starts k)) fun k => val (steps k)).Valid 2
      (vals.map val))
    (hfin : ∀ k, Finite (starts k) ∧ Finite (steps k)) (hnormal : ∀ k, 1 / 2 ^ 126 ≤ val (steps k))
    (hnodes : ∀ k, |val (starts k)| ≤ κ * val (steps k) ∧
      |val (starts k) + val (steps k) * ((dims k - 1 : Nat) : ℚ)| ≤ κ * val (steps k))
    (hlarge : ∀ k, κ * val (steps k) ≤ 2 ^ 124) (lo hi : ℚ) (hM : max |lo| |hi| ≤ 2 ^ 124)
    (hvals : ∀ v ∈ vals, Finite v ∧ lo ≤ val v ∧ val v ≤ hi) (x : Fin N → F32)
    (hx : ∀ k, Finite (x k))
    (hin : ∀ k, InRange (dims k) (fun i => val (starts k) + val (steps k) * (i : ℚ)) (val (x k))) :
    ∃ r, multilinearRegularAt e fma dims starts steps vals x = .ok r ∧ Finite r ∧
      lo - (60 * N * (1 + κ) * (1 / 2 ^ 24) * max |lo| |hi| + 3 * N * (1 / 2 ^ 150)) ≤ val r ∧
      val r ≤ hi + (60 * N * (1 + κ) * (1 / 2 ^ 24) * max |lo| |hi| + 3 * N * (1 / 2 ^ 150)) := by
  obtain ⟨r, y, h1, h2, h3, h4⟩ := C81_regular_f32 e he fma κ hκ hN dims starts steps vals hG hfin
    hnormal hnodes hlarge _ hM
    (fun v hv => ⟨(hvals v hv).1, range_bound (hvals v hv).2⟩) x hx hin
  have h5 := multilinearAt_range e he fma _ _ hG _ hin lo hi (by
      intro v hv
      obtain ⟨w, hw, rfl⟩ := List.mem_map.1 hv
      exact (hvals w hw).2) y h3
  rw [abs_le] at h4
  exact ⟨r, h1, h2, by linarith [h4.1, h5.1], by linarith [h4.2, h5.2]⟩

end

/-- Hypotheses of `C87_rectilinear_f64` are satisfied. -/
example : ∃ r, multilinearRectilinearAt .flat false exGrids64 exVals64 ![q64 (1 / 3), q64 (5 / 3)] =
      .ok r ∧ -7 - 1 / 10 ^ 12 ≤ val r ∧ val r ≤ 16 + 1 / 10 ^ 12 := by
  obtain ⟨r, h1, -, h3, h4⟩ := C87_rectilinear_f64 .flat (show 0 < 2 by decide) (by norm_num) false
    exGrids64 exVals64 (valid_of_check (by decide +kernel)) (by decide +kernel) (-7) 16 (by norm_num)
    (by decide +kernel) ![q64 (1 / 3), q64 (5 / 3)] (by decide +kernel)
    (by unfold InRange; decide +kernel)
  norm_num at h3 h4
  exact ⟨r, h1, by linarith, by linarith⟩

/-- Hypotheses of `C87_rectilinear_f32` are satisfied. -/
example : ∃ r, multilinearRectilinearAt .flat false exGrids32 exVals32 ![q32 (1 / 3), q32 (5 / 3)] =
      .ok r ∧ -7 - 1 / 10 ^ 3 ≤ val r ∧ val r ≤ 16 + 1 / 10 ^ 3 := by
  obtain ⟨r, h1, -, h3, h4⟩ := C87_rectilinear_f32 .flat (show 0 < 2 by decide) (by norm_num) false
    exGrids32 exVals32 (valid_of_check (by decide +kernel)) (by decide +kernel) (-7) (16 + 1/10^4)
    (by norm_num)
    (by decide +kernel) ![q32 (1 / 3), q32 (5 / 3)] (by decide +kernel)
    (by unfold InRange; decide +kernel)
  norm_num at h3 h4
  exact ⟨r, h1, by linarith, by linarith⟩

/-- Hypotheses of `C87_regular_f64` are satisfied, with nodes 0.1, 0.2, 0.3 on the first axis. -/
example : ∃ r, multilinearRegularAt (.recursive 8) true ![3, 2] ![q64 (1 / 10), q64 1]
      ![q64 (1 / 10), q64 2] exVals64 ![q64 (2 / 7), q64 (5 / 3)] = .ok r ∧
      -7 - 1 / 10 ^ 11 ≤ val r ∧ val r ≤ 16 + 1 / 10 ^ 11 := by
  obtain ⟨r, h1, -, h3, h4⟩ := C87_regular_f64 (.recursive 8) (show 0 < 2 ∧ 2 ≤ 8 by decide) true 4
    (by norm_num) (by norm_num) ![3, 2] ![q64 (1 / 10), q64 1] ![q64 (1 / 10), q64 2] exVals64
    (valid_of_check (by decide +kernel)) (by decide +kernel) (by decide +kernel) (by decide +kernel)
    (by decide +kernel) (-7) 16 (by norm_num) (by decide +kernel) ![q64 (2 / 7), q64 (5 / 3)]
    (by decide +kernel) (by unfold InRange; decide +kernel)
  norm_num at h3 h4
  exact ⟨r, h1, by linarith, by linarith⟩

/-- Hypotheses of `C87_regular_f32` are satisfied. -/
example : ∃ r, multilinearRegularAt (.recursive 8) true ![3, 2] ![q32 (1 / 10), q32 1]
      ![q32 (1 / 10), q32 2] exVals32 ![q32 (2 / 7), q32 (5 / 3)] = .ok r ∧
      -7 - 1 / 10 ^ 2 ≤ val r ∧ val r ≤ 16 + 1 / 10 ^ 2 := by
  obtain ⟨r, h1, -, h3, h4⟩ := C87_regular_f32 (.recursive 8) (show 0 < 2 ∧ 2 ≤ 8 by decide) true 4
    (by norm_num) (by norm_num) ![3, 2] ![q32 (1 / 10), q32 1] ![q32 (1 / 10), q32 2] exVals32
    (valid_of_check (by decide +kernel)) (by decide +kernel) (by decide +kernel) (by decide +kernel)
    (by decide +kernel) (-7) 16 (by norm_num) (by decide +kernel) ![q32 (2 / 7), q32 (5 / 3)]
    (by decide +kernel) (by unfold InRange; decide +kernel)
  norm_num at h3 h4
  exact ⟨r, h1, by linarith, by linarith⟩

/-- The widening in C87 is needed, with or without fused multiply-add: values `-2^-53` and
`1 + 2^-52` at 0 and 1 give `1 + 2^-51` at the node 1. -/
theorem C87_overshoot (fma : Bool) :
    multilinearRectilinearAt .flat fma ![[q64 0, q64 1]]
        [q64 (-1 / 2 ^ 53), q64 (1 + 1 / 2 ^ 52)] ![q64 1] = .ok (q64 (1 + 1 / 2 ^ 51)) ∧
      val (q64 (1 + 1 / 2 ^ 52)) < val (q64 (1 + 1 / 2 ^ 51)) := by
  cases fma <;> decide +kernel

/-- Near the largest float the bounds `2^1020` of C87 matter: on nodes 0, 1 with values `-ω`, `ω` (the
largest finite float) the result half way is infinite, because the difference of the values overflows. -/
theorem C87_overflow_opposite (fma : Bool) :
    multilinearRectilinearAt .flat fma ![[q64 0, q64 1]]
      [q64 (-(2 ^ 1024 - 2 ^ 971)), q64 (2 ^ 1024 - 2 ^ 971)] ![q64 (1 / 2)] = .ok (.inf false) := by
  cases fma <;> decide +kernel

/-- Even values of the same sign can overflow: at node 1, whose stored value is the largest finite float. -/
theorem C87_overflow_same_sign (fma : Bool) :
    multilinearRectilinearAt .flat fma ![[q64 0, q64 1]]
      [q64 (3 * 2 ^ 970), q64 (2 ^ 1024 - 2 ^ 971)] ![q64 1] = .ok (.inf false) ∧
    Ieee.Finite (q64 (3 * 2 ^ 970)) ∧ Ieee.Finite (q64 (2 ^ 1024 - 2 ^ 971)) := by
  cases fma <;> decide +kernel

end Interpn
