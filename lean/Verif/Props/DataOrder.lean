import Verif.Props.Convex
import Verif.Props.Locality

/-! C105: results and the order of the data. If one set of values is nowhere below another, the
multilinear results are ordered the same way inside the grid; nearest-neighbor and hold results
always. -/

set_option autoImplicit false
set_option linter.unusedSectionVars false
set_option exponentiation.threshold 1100

namespace Interpn
open Ieee

/-! ### Lookups of stored values: any arithmetic, any relation -/

section
variable {T : Type} [FloatOps T] {N : Nat}

/-- Two evaluations succeed with related results, or fail in the same way. -/
def RelatedOutcome {T : Type} (R : T → T → Prop) : Res T → Res T → Prop
  | .ok a, .ok b => R a b
  | a, b => a = b

theorem ReturnsStored.related {n : Nat} {eval : List T → Res T} (h : ReturnsStored n eval)
    (R : T → T → Prop) {vals vals' : List T} (hn : vals.length = n)
    (hR : List.Forall₂ R vals vals') : RelatedOutcome R (eval vals) (eval vals') := by
  have hn' : vals'.length = n := by rw [← hR.length_eq, hn]
  rcases h with ⟨i, hi, h⟩ | h
  · obtain ⟨v, hv, e⟩ := h vals hn
    obtain ⟨v', hv', e'⟩ := h vals' hn'
    rw [e, e']
    rw [List.getElem?_eq_some_iff] at hv hv'
    obtain ⟨h1, rfl⟩ := hv
    obtain ⟨h2, rfl⟩ := hv'
    exact (List.forall₂_iff_get.1 hR).2 i h1 h2
  · obtain ⟨e, hne⟩ := h vals vals' hn hn'
    rw [← e]
    cases hv : eval vals with
    | ok v => exact absurd hv (hne v)
    | err _ => rfl
    | panic => rfl

/-- C105: nearest-neighbor interpolation on regular grids preserves every relation between stored
values, in any arithmetic, at every observation. -/
theorem C105_nearest_regular (R : T → T → Prop) (fma : Bool) (dims : Fin N → Nat)
    (starts steps x : Fin N → T) (vals vals' : List T) (hs : IsSlice vals)
    (hR : List.Forall₂ R vals vals') :
    RelatedOutcome R (nearestRegularAt fma dims starts steps vals x)
      (nearestRegularAt fma dims starts steps vals' x) :=
  (C16_nearest_regular fma dims starts steps x vals.length ((isSlice_iff _).1 hs)).related R rfl hR

/-- C105: the same on rectilinear grids. -/
theorem C105_nearest_rectilinear (R : T → T → Prop) (grids : Fin N → List T) (x : Fin N → T)
    (vals vals' : List T) (hs : IsSlice vals) (hR : List.Forall₂ R vals vals') :
    RelatedOutcome R (nearestRectilinearAt grids vals x) (nearestRectilinearAt grids vals' x) :=
  (C16_nearest_rectilinear grids x vals.length ((isSlice_iff _).1 hs)).related R rfl hR

/-- C105: the same for the 1-D hold and nearest interpolators on regular grids. -/
theorem C105_hold_regular (R : T → T → Prop) (start step loc : T) (vals vals' : List T)
    (hs : IsSlice vals) (hR : List.Forall₂ R vals vals') :
    RelatedOutcome R (regular1DAt Left1D.evalOne start step vals loc)
      (regular1DAt Left1D.evalOne start step vals' loc) ∧
    RelatedOutcome R (regular1DAt Right1D.evalOne start step vals loc)
      (regular1DAt Right1D.evalOne start step vals' loc) ∧
    RelatedOutcome R (regular1DAt Nearest1D.evalOne start step vals loc)
      (regular1DAt Nearest1D.evalOne start step vals' loc) := by
  obtain ⟨h1, h2, h3⟩ := C16_hold_regular start step loc vals.length ((isSlice_iff _).1 hs)
  exact ⟨h1.related R rfl hR, h2.related R rfl hR, h3.related R rfl hR⟩

/-- C105: the same for the 1-D hold and nearest interpolators on rectilinear grids. -/
theorem C105_hold_rectilinear (R : T → T → Prop) (grid : List T) (loc : T) (vals vals' : List T)
    (hs : IsSlice vals) (hR : List.Forall₂ R vals vals') :
    RelatedOutcome R (rectilinear1DAt Left1D.evalOne grid vals loc)
      (rectilinear1DAt Left1D.evalOne grid vals' loc) ∧
    RelatedOutcome R (rectilinear1DAt Right1D.evalOne grid vals loc)
      (rectilinear1DAt Right1D.evalOne grid vals' loc) ∧
    RelatedOutcome R (rectilinear1DAt Nearest1D.evalOne grid vals loc)
      (rectilinear1DAt Nearest1D.evalOne grid vals' loc) := by
  obtain ⟨h1, h2, h3⟩ := C16_hold_rectilinear grid loc vals.length ((isSlice_iff _).1 hs)
  exact ⟨h1.related R rfl hR, h2.related R rfl hR, h3.related R rfl hR⟩

end

/-! ### Multilinear interpolation, exact -/

section
variable {K : Type} [Field K] [LinearOrder K] [IsStrictOrderedRing K] [FloorRing K] {N : Nat}

theorem Axes.Valid.of_length {G : Axes K N} {m : Nat} {vals vals' : List K} (hG : G.Valid m vals)
    (h : vals'.length = vals.length) : G.Valid m vals' :=
  ⟨by rw [isSlice_iff, h]; exact (isSlice_iff _).1 hG.slice, by rw [h, hG.len], hG.big,
    hG.increasing⟩

/-- C105: inside the grid the multilinear result is a non-decreasing function of the values. -/
theorem C105_order (e : Evaluator) (he : e.Fits N) (fma : Bool) (G : Axes K N)
    (vals vals' : List K) (hG : G.Valid 2 vals) (hv : List.Forall₂ (· ≤ ·) vals vals')
    (x : Fin N → K) (hin : ∀ k, InRange (G.size k) (G.node k) (x k)) :
    ∃ y y', multilinearAt e fma G vals x = .ok y ∧ multilinearAt e fma G vals' x = .ok y' ∧
      y ≤ y' := by
  have hG' := hG.of_length hv.length_eq.symm
  obtain ⟨c, hc⟩ := hG.cells le_rfl x
  have hx : G.Representable x := hG.inRange_fits le_rfl hin _ (by decide)
  refine ⟨_, _, multilinearAt_eq e he fma G vals hG _ (samples_valAt 0 _ _ hG.len) x hx c hc,
    multilinearAt_eq e he fma G vals' hG' _ (samples_valAt 0 _ _ hG'.len) x hx c hc, ?_⟩
  refine axisByAxis_rel (· ≤ ·) (fun k i => i < G.size k) _ _ _ _
    (fun k f f' hf => linPiece_monotone (hG.incr k) (hc k) (hin k) hf) fun loc hl => ?_
  have h1 : cIndex G.size loc < vals.length := hG.len ▸ cIndex_lt G.size loc hl
  have h2 : cIndex G.size loc < vals'.length := hG'.len ▸ cIndex_lt G.size loc hl
  have := (List.forall₂_iff_get.1 hv).2 _ h1 h2
  simpa [valAt, List.getD, h1, h2] using this

end

/-! ### IEEE 754 -/

section
variable {N : Nat}

/-- C105 in `f64`, rectilinear grids: up to twice the rounding bound of C81. -/
theorem C105_rectilinear_f64 (e : Evaluator) (he : e.Fits N) (hN : N ≤ 1000) (fma : Bool)
    (grids : Fin N → List F64) (vals vals' : List F64)
    (hG : (Axes.rectilinear fun k => (grids k).map val).Valid 2 (vals.map val))
    (hgrid : ∀ k, ∀ a ∈ grids k, Finite a ∧ |val a| ≤ 2 ^ 1022) (M : ℚ) (hM : M ≤ 2 ^ 1020)
    (hvals : ∀ v ∈ vals, Finite v ∧ |val v| ≤ M) (hvals' : ∀ v ∈ vals', Finite v ∧ |val v| ≤ M)
    (hle : List.Forall₂ (fun v v' => val v ≤ val v') vals vals')
    (x : Fin N → F64) (hx : ∀ k, Finite (x k))
    (hin : ∀ k, InRange (grids k).length (fun i => ((grids k).map val).getD i 0) (val (x k))) :
    ∃ r r', multilinearRectilinearAt e fma grids vals x = .ok r ∧ Finite r ∧
      multilinearRectilinearAt e fma grids vals' x = .ok r' ∧ Finite r' ∧
      val r ≤ val r' + 2 * (26 * N * (1 / 2 ^ 53) * M + 3 * N * (1 / 2 ^ 1075)) := by
  have hle' : List.Forall₂ (· ≤ ·) (vals.map val) (vals'.map val) := by
    rw [List.forall₂_map_left_iff, List.forall₂_map_right_iff]; exact hle
  have hG' := hG.of_length hle'.length_eq.symm
  obtain ⟨r, y, h1, h2, h3, h4⟩ := C81_rectilinear_f64 e he hN fma grids vals hG hgrid M hM hvals x hx hin
  obtain ⟨r', y', h1', h2', h3', h4'⟩ :=
    C81_rectilinear_f64 e he hN fma grids vals' hG' hgrid M hM hvals' x hx hin
  obtain ⟨z, z', e1, e2, hz⟩ := C105_order e he fma _ _ _ hG hle' (fun k => val (x k))
    (inRange_of_map hin)
  rw [h3] at e1; cases e1
  rw [h3'] at e2; cases e2
  refine ⟨r, r', h1, h2, h1', h2', ?_⟩
  have := (abs_le.1 h4).2
  have := (abs_le.1 h4').1
  linarith

/-- C105 in `f64`, regular grids: up to twice the rounding bound of C81. -/
theorem C105_regular_f64 (e : Evaluator) (he : e.Fits N) (fma : Bool) (κ : ℚ) (hκ : 0 ≤ κ)
    (hN : 100 * N * (1 + κ) ≤ 2 ^ 53)
    (dims : Fin N → Nat) (starts steps : Fin N → F64) (vals vals' : List F64)
    (hG : (Axes.regular dims (fun k => val (starts k)) fun k => val (steps k)).Valid 2
      (vals.map val))
    (hfin : ∀ k, Finite (starts k) ∧ Finite (steps k))
    (hnormal : ∀ k, 1 / 2 ^ 1022 ≤ val (steps k))
    (hnodes : ∀ k, |val (starts k)| ≤ κ * val (steps k) ∧
      |val (starts k) + val (steps k) * ((dims k - 1 : Nat) : ℚ)| ≤ κ * val (steps k))
    (hlarge : ∀ k, κ * val (steps k) ≤ 2 ^ 1020) (M : ℚ) (hM : M ≤ 2 ^ 1020)
    (hvals : ∀ v ∈ vals, Finite v ∧ |val v| ≤ M) (hvals' : ∀ v ∈ vals', Finite v ∧ |val v| ≤ M)
    (hle : List.Forall₂ (fun v v' => val v ≤ val v') vals vals')
    (x : Fin N → F64) (hx : ∀ k, Finite (x k))
    (hin : ∀ k, InRange (dims k) (fun i => val (starts k) + val (steps k) * (i : ℚ)) (val (x k))) :
    ∃ r r', multilinearRegularAt e fma dims starts steps vals x = .ok r ∧ Finite r ∧
      multilinearRegularAt e fma dims starts steps vals' x = .ok r' ∧ Finite r' ∧
      val r ≤ val r' + 2 * (60 * N * (1 + κ) * (1 / 2 ^ 53) * M + 3 * N * (1 / 2 ^ 1075)) := by
  have hle' : List.Forall₂ (· ≤ ·) (vals.map val) (vals'.map val) := by
    rw [List.forall₂_map_left_iff, List.forall₂_map_right_iff]; exact hle
  have hG' := hG.of_length hle'.length_eq.symm
  obtain ⟨r, y, h1, h2, h3, h4⟩ := C81_regular_f64 e he fma κ hκ hN dims starts steps vals hG hfin
    hnormal hnodes hlarge M hM hvals x hx hin
  obtain ⟨r', y', h1', h2', h3', h4'⟩ := C81_regular_f64 e he fma κ hκ hN dims starts steps vals'
    hG' hfin hnormal hnodes hlarge M hM hvals' x hx hin
  obtain ⟨z, z', e1, e2, hz⟩ := C105_order e he fma _ _ _ hG hle' (fun k => val (x k))
    hin
  rw [h3] at e1; cases e1
  rw [h3'] at e2; cases e2
  refine ⟨r, r', h1, h2, h1', h2', ?_⟩
  have := (abs_le.1 h4).2
  have := (abs_le.1 h4').1
  linarith

/-- C105 in `f32`, rectilinear grids: up to twice the rounding bound of C81. -/
theorem C105_rectilinear_f32 (e : Evaluator) (he : e.Fits N) (hN : N ≤ 1000) (fma : Bool)
    (grids : Fin N → List F32) (vals vals' : List F32)
    (hG : (Axes.rectilinear fun k => (grids k).map val).Valid 2 (vals.map val))
    (hgrid : ∀ k, ∀ a ∈ grids k, Finite a ∧ |val a| ≤ 2 ^ 126) (M : ℚ) (hM : M ≤ 2 ^ 124)
    (hvals : ∀ v ∈ vals, Finite v ∧ |val v| ≤ M) (hvals' : ∀ v ∈ vals', Finite v ∧ |val v| ≤ M)
    (hle : List.Forall₂ (fun v v' => val v ≤ val v') vals vals')
    (x : Fin N → F32) (hx : ∀ k, Finite (x k))
    (hin : ∀ k, InRange (grids k).length (fun i => ((grids k).map val).getD i 0) (val (x k))) :
    ∃ r r', multilinearRectilinearAt e fma grids vals x = .ok r ∧ Finite r ∧
      multilinearRectilinearAt e fma grids vals' x = .ok r' ∧ Finite r' ∧
      val r ≤ val r' + 2 * (26 * N * (1 / 2 ^ 24) * M + 3 * N * (1 / 2 ^ 150)) := by
  have hle' : List.Forall₂ (· ≤ ·) (vals.map val) (vals'.map val) := by
    rw [List.forall₂_map_left_iff, List.forall₂_map_right_iff]; exact hle
  have hG' := hG.of_length hle'.length_eq.symm
  obtain ⟨r, y, h1, h2, h3, h4⟩ := C81_rectilinear_f32 e he hN fma grids vals hG hgrid M hM hvals x hx hin
  obtain ⟨r', y', h1', h2', h3', h4'⟩ :=
    C81_rectilinear_f32 e he hN fma grids vals' hG' hgrid M hM hvals' x hx hin
  obtain ⟨z, z', e1, e2, hz⟩ := C105_order e he fma _ _ _ hG hle' (fun k => val (x k))
    (inRange_of_map hin)
  rw [h3] at e1; cases e1
  rw [h3'] at e2; cases e2
  refine ⟨r, r', h1, h2, h1', h2', ?_⟩
  have := (abs_le.1 h4).2
  have := (abs_le.1 h4').1
  linarith

/-- C105 in `f32`, regular grids: up to twice the rounding bound of C81. -/
theorem C105_regular_f32 (e : Evaluator) (he : e.Fits N) (fma : Bool) (κ : ℚ) (hκ : 0 ≤ κ)
    (hN : 100 * N * (1 + κ) ≤ 2 ^ 24)
    (dims : Fin N → Nat) (starts steps : Fin N → F32) (vals vals' : List F32)
    (hG : (Axes.regular dims (fun k => val (starts k)) fun k => val (steps k)).Valid 2
      (vals.map val))
    (hfin : ∀ k, Finite (starts k) ∧ Finite (steps k))
    (hnormal : ∀ k, 1 / 2 ^ 126 ≤ val (steps k))
    (hnodes : ∀ k, |val (starts k)| ≤ κ * val (steps k) ∧
      |val (starts k) + val (steps k) * ((dims k - 1 : Nat) : ℚ)| ≤ κ * val (steps k))
    (hlarge : ∀ k, κ * val (steps k) ≤ 2 ^ 124) (M : ℚ) (hM : M ≤ 2 ^ 124)
    (hvals : ∀ v ∈ vals, Finite v ∧ |val v| ≤ M) (hvals' : ∀ v ∈ vals', Finite v ∧ |val v| ≤ M)
    (hle : List.Forall₂ (fun v v' => val v ≤ val v') vals vals')
    (x : Fin N → F32) (hx : ∀ k, Finite (x k))
    (hin : ∀ k, InRange (dims k) (fun i => val (starts k) + val (steps k) * (i : ℚ)) (val (x k))) :
    ∃ r r', multilinearRegularAt e fma dims starts steps vals x = .ok r ∧ Finite r ∧
      multilinearRegularAt e fma dims starts steps vals' x = .ok r' ∧ Finite r' ∧
      val r ≤ val r' + 2 * (60 * N * (1 + κ) * (1 / 2 ^ 24) * M + 3 * N * (1 / 2 ^ 150)) := by
  have hle' : List.Forall₂ (· ≤ ·) (vals.map val) (vals'.map val) := by
    rw [List.forall₂_map_left_iff, List.forall₂_map_right_iff]; exact hle
  have hG' := hG.of_length hle'.length_eq.symm
  obtain ⟨r, y, h1, h2, h3, h4⟩ := C81_regular_f32 e he fma κ hκ hN dims starts steps vals hG hfin
    hnormal hnodes hlarge M hM hvals x hx hin
  obtain ⟨r', y', h1', h2', h3', h4'⟩ := C81_regular_f32 e he fma κ hκ hN dims starts steps vals'
    hG' hfin hnormal hnodes hlarge M hM hvals' x hx hin
  obtain ⟨z, z', e1, e2, hz⟩ := C105_order e he fma _ _ _ hG hle' (fun k => val (x k))
    hin
  rw [h3] at e1; cases e1
  rw [h3'] at e2; cases e2
  refine ⟨r, r', h1, h2, h1', h2', ?_⟩
  have := (abs_le.1 h4).2
  have := (abs_le.1 h4').1
  linarith

end

/-! ### What does not hold -/

section
attribute [local instance] exactOps

/-- In `f64` rounding can reverse the order. Raising the value at node 0 from `1` to `2^60` lowers the result at node 1 from `1` to `0`.
The bound of `C105_rectilinear_f64` allows this, since it is relative to the largest value. -/
theorem C105_rounding_counterexample :
    (val (q64 1) ≤ val (q64 (2 ^ 60))) ∧
    multilinearRectilinearAt .flat false (fun _ : Fin 1 => [q64 0, q64 1]) [q64 1, q64 1]
      (fun _ => q64 1) = .ok (q64 1) ∧
    multilinearRectilinearAt .flat false (fun _ : Fin 1 => [q64 0, q64 1]) [q64 (2 ^ 60), q64 1]
      (fun _ => q64 1) = .ok (q64 0) := by
  decide +kernel

/-- The order is not preserved by extrapolation, nor by cubic interpolation inside the grid. -/
theorem C105_counterexample :
    let G : Axes ℚ 1 := .rectilinear fun _ => [0, 1, 2, 3]
    G.Valid 4 [0, 0, 0, 0] ∧ List.Forall₂ (fun a b : ℚ => a ≤ b) [0, 0, 0, 0] [0, 0, 1, 0] ∧
    List.Forall₂ (fun a b : ℚ => a ≤ b) [0, 0, 0, 0] [0, 0, 0, 1] ∧
    multilinearAt .flat false G [0, 0, 0, 0] ![4] = .ok 0 ∧
    multilinearAt .flat false G [0, 0, 1, 0] ![4] = .ok (-1) ∧
    InRange (G.size 0) (G.node 0) (3 / 2) ∧
    multicubicAt .flat false G [0, 0, 0, 0] false ![3 / 2] = .ok 0 ∧
    multicubicAt .flat false G [0, 0, 0, 1] false ![3 / 2] = .ok (-1 / 16) := by
  refine ⟨valid_of_check ?_, ?_⟩ <;> (try unfold InRange) <;> decide +kernel

/-! ### The hypotheses can be met -/

/-- `C105_order`: two sets of values on a 3×2 regular grid with different results. -/
example :
    let vals : List ℚ := [2, 1, 6, 1, 10, 3]
    let vals' : List ℚ := [2, 5, 6, 2, 10, 4]
    exRegular.Valid 2 vals ∧ List.Forall₂ (fun a b : ℚ => a ≤ b) vals vals' ∧
      (∀ k, InRange (exRegular.size k) (exRegular.node k) (![1 / 2, 2] k)) ∧
      multilinearAt .flat false exRegular vals ![1 / 2, 2] = .ok (5 / 2) ∧
      multilinearAt .flat false exRegular vals' ![1 / 2, 2] = .ok (15 / 4) := by
  refine ⟨valid_of_check ?_, ?_⟩ <;> (try unfold InRange) <;> decide +kernel

end

/-- Values above `exVals64`. -/
def exAbove64 : List F64 := [q64 2, q64 7, q64 (-7), q64 16, q64 11, q64 (1 / 2)]
/-- Values above `exVals32`. -/
def exAbove32 : List F32 := [q32 2, q32 7, q32 (-7), q32 16, q32 11, q32 (1 / 2)]

/-- Hypotheses of `C105_rectilinear_f64` are satisfied. -/
example : ∃ r r', multilinearRectilinearAt .flat false exGrids64 exVals64
      ![q64 (1 / 3), q64 (5 / 3)] = .ok r ∧
    multilinearRectilinearAt .flat false exGrids64 exAbove64 ![q64 (1 / 3), q64 (5 / 3)] = .ok r' ∧
    val r ≤ val r' + 1 / 10 ^ 12 := by
  obtain ⟨r, r', h1, -, h3, -, h4⟩ := C105_rectilinear_f64 .flat (show 0 < 2 by decide) (by norm_num)
    false exGrids64 exVals64 exAbove64 (valid_of_check (by decide +kernel)) (by decide +kernel) 16
    (by norm_num) (by decide +kernel) (by decide +kernel) (by decide +kernel)
    ![q64 (1 / 3), q64 (5 / 3)] (by decide +kernel) (by unfold InRange; decide +kernel)
  exact ⟨r, r', h1, h3, h4.trans (by norm_num)⟩

/-- Hypotheses of `C105_rectilinear_f32` are satisfied. -/
example : ∃ r r', multilinearRectilinearAt .flat false exGrids32 exVals32
      ![q32 (1 / 3), q32 (5 / 3)] = .ok r ∧
    multilinearRectilinearAt .flat false exGrids32 exAbove32 ![q32 (1 / 3), q32 (5 / 3)] = .ok r' ∧
    val r ≤ val r' + 1 / 10 ^ 3 := by
  obtain ⟨r, r', h1, -, h3, -, h4⟩ := C105_rectilinear_f32 .flat (show 0 < 2 by decide) (by norm_num)
    false exGrids32 exVals32 exAbove32 (valid_of_check (by decide +kernel)) (by decide +kernel) 16
    (by norm_num) (by decide +kernel) (by decide +kernel) (by decide +kernel)
    ![q32 (1 / 3), q32 (5 / 3)] (by decide +kernel) (by unfold InRange; decide +kernel)
  exact ⟨r, r', h1, h3, h4.trans (by norm_num)⟩

/-- Hypotheses of `C105_regular_f64` are satisfied. -/
example : ∃ r r', multilinearRegularAt (.recursive 8) true ![3, 2] ![q64 (1 / 10), q64 1]
      ![q64 (1 / 10), q64 2] exVals64 ![q64 (2 / 7), q64 (5 / 3)] = .ok r ∧
    multilinearRegularAt (.recursive 8) true ![3, 2] ![q64 (1 / 10), q64 1]
      ![q64 (1 / 10), q64 2] exAbove64 ![q64 (2 / 7), q64 (5 / 3)] = .ok r' ∧
    val r ≤ val r' + 1 / 10 ^ 10 := by
  obtain ⟨r, r', h1, -, h3, -, h4⟩ := C105_regular_f64 (.recursive 8) (show 0 < 2 ∧ 2 ≤ 8 by decide)
    true 4 (by norm_num) (by norm_num) ![3, 2] ![q64 (1 / 10), q64 1] ![q64 (1 / 10), q64 2]
    exVals64 exAbove64 (valid_of_check (by decide +kernel)) (by decide +kernel) (by decide +kernel)
    (by decide +kernel) (by decide +kernel) 16 (by norm_num) (by decide +kernel) (by decide +kernel)
    (by decide +kernel) ![q64 (2 / 7), q64 (5 / 3)] (by decide +kernel)
    (by unfold InRange; decide +kernel)
  exact ⟨r, r', h1, h3, h4.trans (by norm_num)⟩

/-- Hypotheses of `C105_regular_f32` are satisfied. -/
example : ∃ r r', multilinearRegularAt (.recursive 8) true ![3, 2] ![q32 (1 / 10), q32 1]
      ![q32 (1 / 10), q32 2] exVals32 ![q32 (2 / 7), q32 (5 / 3)] = .ok r ∧
    multilinearRegularAt (.recursive 8) true ![3, 2] ![q32 (1 / 10), q32 1]
      ![q32 (1 / 10), q32 2] exAbove32 ![q32 (2 / 7), q32 (5 / 3)] = .ok r' ∧
    val r ≤ val r' + 1 / 10 := by
  obtain ⟨r, r', h1, -, h3, -, h4⟩ := C105_regular_f32 (.recursive 8) (show 0 < 2 ∧ 2 ≤ 8 by decide)
    true 4 (by norm_num) (by norm_num) ![3, 2] ![q32 (1 / 10), q32 1] ![q32 (1 / 10), q32 2]
    exVals32 exAbove32 (valid_of_check (by decide +kernel)) (by decide +kernel) (by decide +kernel)
    (by decide +kernel) (by decide +kernel) 16 (by norm_num) (by decide +kernel) (by decide +kernel)
    (by decide +kernel) ![q32 (2 / 7), q32 (5 / 3)] (by decide +kernel)
    (by unfold InRange; decide +kernel)
  exact ⟨r, r', h1, h3, h4.trans (by norm_num)⟩

/-- `C105_nearest_*` and `C105_hold_*` in `f64` with the relation "less or equal"; the results are
stored values of the two arrays. -/
example :
    IsSlice exVals64 ∧ List.Forall₂ (fun v v' => val v ≤ val v') exVals64 exAbove64 ∧
    nearestRectilinearAt exGrids64 exVals64 ![q64 (1 / 50), q64 (5 / 2)] = .ok (q64 6) ∧
    nearestRectilinearAt exGrids64 exAbove64 ![q64 (1 / 50), q64 (5 / 2)] = .ok (q64 7) ∧
    nearestRegularAt false ![3, 2] ![q64 0, q64 0] ![q64 1, q64 1] exVals64 ![q64 3, q64 0] =
      .ok (q64 10) ∧
    nearestRegularAt false ![3, 2] ![q64 0, q64 0] ![q64 1, q64 1] exAbove64 ![q64 3, q64 0] =
      .ok (q64 11) ∧
    regular1DAt Left1D.evalOne (q64 0) (q64 1) exVals64 (q64 (3 / 2)) = .ok (q64 6) ∧
    regular1DAt Left1D.evalOne (q64 0) (q64 1) exAbove64 (q64 (3 / 2)) = .ok (q64 7) := by
  unfold IsSlice
  decide +kernel

end Interpn
