import Verif.Props.MulticubicExact

/-! C24: linearity in the values and preservation of constants. C37: N-dimensional interpolation
is one-dimensional interpolation along one axis after the other. Exact arithmetic, both grid
kinds (`Axes`) and both implementations (`Evaluator`). -/

set_option autoImplicit false
set_option linter.unusedSectionVars false

namespace Interpn

section
variable {K : Type} [Field K] [LinearOrder K] [IsStrictOrderedRing K] [FloorRing K] {N : Nat}

/-- The array `a * v + b * w`, entry by entry. -/
def combine (a b : K) (v w : List K) : List K := List.zipWith (fun s t => a * s + b * t) v w

theorem combine_valid {G : Axes K N} {m : Nat} {v w : List K} (hv : G.Valid m v)
    (hw : G.Valid m w) (a b : K) : G.Valid m (combine a b v w) where
  slice := by
    have := hv.slice
    unfold IsSlice combine at *
    rw [List.length_zipWith]; omega
  len := by
    unfold combine
    rw [List.length_zipWith, hv.len, hw.len, Nat.min_self]
  big := hv.big
  increasing := hv.increasing

theorem combine_samples {dims : Fin N → Nat} {v w : List K} {g h : (Fin N → Nat) → K}
    (hv : Samples dims v g) (hw : Samples dims w h) (a b : K) :
    Samples dims (combine a b v w) (fun loc => a * g loc + b * h loc) := by
  intro loc hl
  unfold combine
  rw [List.getElem?_zipWith, hv loc hl, hw loc hl]

/-- C24: multilinear interpolation is linear in the values. -/
theorem C24_multilinear_linear (e : Evaluator) (he : e.Fits N) (fma : Bool) (G : Axes K N)
    (v w : List K) (hv : G.Valid 2 v) (hw : G.Valid 2 w) (a b : K) (x : Fin N → K)
    (hx : G.Representable x) :
    ∃ y z, multilinearAt e fma G v x = .ok y ∧ multilinearAt e fma G w x = .ok z ∧
      multilinearAt e fma G (combine a b v w) x = .ok (a * y + b * z) := by
  obtain ⟨c, hc⟩ := hv.cells le_rfl x
  have hg := samples_valAt (0 : K) _ _ hv.len
  have hh := samples_valAt (0 : K) _ _ hw.len
  refine ⟨_, _, multilinearAt_eq e he fma G v hv _ hg x hx c hc,
    multilinearAt_eq e he fma G w hw _ hh x hx c hc, ?_⟩
  rw [multilinearAt_eq e he fma G _ (combine_valid hv hw a b) _ (combine_samples hg hh a b) x hx c
    hc, axisByAxis_lincomb _ fun k => linPiece_linear (hc k).1]

/-- C24: multicubic interpolation is linear in the values. -/
theorem C24_multicubic_linear (e : Evaluator) (he : e.Fits N) (fma : Bool) (G : Axes K N)
    (v w : List K) (lin : Bool) (hv : G.Valid 4 v) (hw : G.Valid 4 w) (a b : K) (x : Fin N → K)
    (hx : G.RepresentableCubic x) :
    ∃ y z, multicubicAt e fma G v lin x = .ok y ∧ multicubicAt e fma G w lin x = .ok z ∧
      multicubicAt e fma G (combine a b v w) lin x = .ok (a * y + b * z) := by
  obtain ⟨c, hc⟩ := hv.cells (by omega) x
  have hg := samples_valAt (0 : K) _ _ hv.len
  have hh := samples_valAt (0 : K) _ _ hw.len
  refine ⟨_, _, multicubicAt_eq e he fma G v lin hv _ hg x hx c hc,
    multicubicAt_eq e he fma G w lin hw _ hh x hx c hc, ?_⟩
  rw [multicubicAt_eq e he fma G _ lin (combine_valid hv hw a b) _ (combine_samples hg hh a b) x hx
    c hc, axisByAxis_lincomb _ fun k => cubicPiece_linear (hv.big k) lin (hc k).1]

/-- C24: constants are preserved everywhere by multilinear interpolation. -/
theorem C24_multilinear_constant (e : Evaluator) (he : e.Fits N) (fma : Bool) (G : Axes K N)
    (vals : List K) (hG : G.Valid 2 vals) (a : K) (hv : ∀ y ∈ vals, y = a) (x : Fin N → K)
    (hx : G.Representable x) : multilinearAt e fma G vals x = .ok a := by
  refine C21_reproduces e he fma G vals hG (fun _ => a) (fun k y => ⟨a, 0, fun z => by simp⟩) ?_ x hx
  intro loc hl
  have := samples_valAt (0 : K) _ _ hG.len loc hl
  rw [this, hv _ (List.mem_of_getElem? this)]

/-- C24: constants are preserved everywhere by multicubic interpolation. -/
theorem C24_multicubic_constant (e : Evaluator) (he : e.Fits N) (fma : Bool) (G : Axes K N)
    (vals : List K) (lin : Bool) (hG : G.Valid 4 vals) (a : K) (hv : ∀ y ∈ vals, y = a)
    (x : Fin N → K) (hx : G.RepresentableCubic x) : multicubicAt e fma G vals lin x = .ok a := by
  refine C32_reproduces e he fma G vals lin hG (fun _ => a) (fun k y => ⟨a, 0, fun z => by simp⟩)
    ?_ x hx
  intro loc hl
  have := samples_valAt (0 : K) _ _ hG.len loc hl
  rw [this, hv _ (List.mem_of_getElem? this)]

/-! ### Tensor product -/

/-- Axis `k` of a grid, as a one-dimensional grid. -/
def Axes.axis (k : Fin N) : Axes K N → Axes K 1
  | .regular dims starts steps => .regular (fun _ => dims k) (fun _ => starts k) (fun _ => steps k)
  | .rectilinear grids => .rectilinear fun _ => grids k

theorem Axes.axis_size (G : Axes K N) (k : Fin N) : (G.axis k).size = fun _ => G.size k := by
  cases G <;> rfl

theorem Axes.axis_node (G : Axes K N) (k : Fin N) (j : Fin 1) : (G.axis k).node j = G.node k := by
  cases G <;> rfl

/-- Values along axis `k`, as an array. -/
def lineVals (n : Nat) (f : Nat → K) : List K := List.ofFn fun i : Fin n => f i

theorem lineVals_samples (n : Nat) (f : Nat → K) :
    Samples (fun _ : Fin 1 => n) (lineVals n f) (fun loc => f (loc 0)) := by
  intro loc hl
  have h0 := hl 0
  have : cIndex (fun _ : Fin 1 => n) loc = loc 0 := by simp [cIndex]
  rw [this]
  simp [lineVals, h0]

theorem axis_valid {G : Axes K N} {m : Nat} {vals : List K} (hG : G.Valid m vals) (hm : 1 ≤ m)
    (k : Fin N) (f : Nat → K) : (G.axis k).Valid m (lineVals (G.size k) f) where
  slice := by
    have hv : GoodVals m G.size vals := ⟨hG.len, hG.big, by
      have := hG.slice
      rw [isSlice_iff] at this
      simp only [isizeMax, usizeMax] at *; omega⟩
    have := hv.dim_le hm hG.slice k
    rw [isSlice_iff]
    unfold lineVals
    rw [List.length_ofFn]
    exact this
  len := by rw [Axes.axis_size]; simp [lineVals]
  big := by rw [Axes.axis_size]; exact fun _ => hG.big k
  increasing := by
    intro j i hi
    rw [Axes.axis_size] at hi
    rw [Axes.axis_node]
    exact hG.increasing k i hi

theorem axis_fits {G : Axes K N} {lo : Int} {x : Fin N → K} (h : G.StepsFit lo x) (k : Fin N) :
    (G.axis k).StepsFit lo fun _ => x k := by
  cases G with
  | regular => exact fun _ => h k
  | rectilinear => exact trivial

theorem Evaluator.Fits.one {e : Evaluator} (he : e.Fits N) : e.Fits 1 := by
  cases e with
  | flat => exact Nat.one_pos
  | recursive M => exact ⟨Nat.one_pos, by have := he.1; have := he.2; omega⟩

theorem axisByAxis_one (op : Fin 1 → (Nat → K) → K) (f : Nat → K) :
    axisByAxis op (fun loc => f (loc 0)) = op 0 f := by
  simp only [axisByAxis]
  rfl

theorem line_multilinear (e : Evaluator) (he : e.Fits N) (fma : Bool) (G : Axes K N)
    (vals : List K) (hG : G.Valid 2 vals) (x : Fin N → K) (hx : G.Representable x)
    (c : Fin N → Nat) (hc : ∀ k, InCell (G.size k) (G.node k) (x k) (c k)) (k : Fin N)
    (f : Nat → K) : multilinearAt e fma (G.axis k) (lineVals (G.size k) f) (fun _ => x k) =
      .ok (linPiece (G.node k) f (c k) (x k)) := by
  rw [multilinearAt_eq e he.one fma _ _ (axis_valid hG (by omega) k f) (fun loc => f (loc 0))
    (by rw [Axes.axis_size]; exact lineVals_samples _ _) _ (axis_fits hx k) (fun _ => c k)
    (fun j => by rw [Axes.axis_size, Axes.axis_node]; exact hc k), axisByAxis_one,
    Axes.axis_node]

theorem line_multicubic (e : Evaluator) (he : e.Fits N) (fma : Bool) (G : Axes K N)
    (vals : List K) (lin : Bool) (hG : G.Valid 4 vals) (x : Fin N → K)
    (hx : G.RepresentableCubic x)
    (c : Fin N → Nat) (hc : ∀ k, InCell (G.size k) (G.node k) (x k) (c k)) (k : Fin N)
    (f : Nat → K) : multicubicAt e fma (G.axis k) (lineVals (G.size k) f) lin (fun _ => x k) =
      .ok (cubicPiece (G.size k) (G.node k) f lin (c k) (x k)) := by
  rw [multicubicAt_eq e he.one fma _ _ lin (axis_valid hG (by omega) k f) (fun loc => f (loc 0))
    (by rw [Axes.axis_size]; exact lineVals_samples _ _) _ (axis_fits hx k) (fun _ => c k)
    (fun j => by rw [Axes.axis_size, Axes.axis_node]; exact hc k), axisByAxis_one,
    Axes.axis_node, Axes.axis_size]

/-- C37: with `op k` the one-dimensional multilinear interpolation along axis `k` at `x k`, the
N-dimensional result is `op` applied axis by axis (`axisByAxis`, `Spec/Tensor.lean`). -/
theorem C37_multilinear (e : Evaluator) (he : e.Fits N) (fma : Bool) (G : Axes K N)
    (vals : List K) (hG : G.Valid 2 vals) (g : (Fin N → Nat) → K) (hg : Samples G.size vals g)
    (x : Fin N → K) (hx : G.Representable x) :
    ∃ op : Fin N → (Nat → K) → K,
      (∀ k f, multilinearAt e fma (G.axis k) (lineVals (G.size k) f) (fun _ => x k) =
        .ok (op k f)) ∧
      multilinearAt e fma G vals x = .ok (axisByAxis op g) := by
  obtain ⟨c, hc⟩ := hG.cells le_rfl x
  exact ⟨_, line_multilinear e he fma G vals hG x hx c hc,
    multilinearAt_eq e he fma G vals hG g hg x hx c hc⟩

/-- C37: the same for multicubic interpolation. -/
theorem C37_multicubic (e : Evaluator) (he : e.Fits N) (fma : Bool) (G : Axes K N)
    (vals : List K) (lin : Bool) (hG : G.Valid 4 vals) (g : (Fin N → Nat) → K)
    (hg : Samples G.size vals g) (x : Fin N → K) (hx : G.RepresentableCubic x) :
    ∃ op : Fin N → (Nat → K) → K,
      (∀ k f, multicubicAt e fma (G.axis k) (lineVals (G.size k) f) lin (fun _ => x k) =
        .ok (op k f)) ∧
      multicubicAt e fma G vals lin x = .ok (axisByAxis op g) := by
  obtain ⟨c, hc⟩ := hG.cells (by omega) x
  exact ⟨_, line_multicubic e he fma G vals lin hG x hx c hc,
    multicubicAt_eq e he fma G vals lin hG g hg x hx c hc⟩

/-- C37: separable data gives the product of the one-dimensional results. -/
theorem C37_multilinear_separable (e : Evaluator) (he : e.Fits N) (fma : Bool) (G : Axes K N)
    (vals : List K) (hG : G.Valid 2 vals) (v : Fin N → Nat → K)
    (hg : Samples G.size vals fun loc => ∏ k, v k (loc k)) (x : Fin N → K)
    (hx : G.Representable x) :
    ∃ y : Fin N → K,
      (∀ k, multilinearAt e fma (G.axis k) (lineVals (G.size k) (v k)) (fun _ => x k) =
        .ok (y k)) ∧
      multilinearAt e fma G vals x = .ok (∏ k, y k) := by
  obtain ⟨c, hc⟩ := hG.cells le_rfl x
  refine ⟨_, fun k => line_multilinear e he fma G vals hG x hx c hc k (v k), ?_⟩
  rw [multilinearAt_eq e he fma G vals hG _ hg x hx c hc,
    axisByAxis_separable _ fun k => linPiece_linear (hc k).1]

/-- C37: separable data gives the product of the one-dimensional results. -/
theorem C37_multicubic_separable (e : Evaluator) (he : e.Fits N) (fma : Bool) (G : Axes K N)
    (vals : List K) (lin : Bool) (hG : G.Valid 4 vals) (v : Fin N → Nat → K)
    (hg : Samples G.size vals fun loc => ∏ k, v k (loc k)) (x : Fin N → K)
    (hx : G.RepresentableCubic x) :
    ∃ y : Fin N → K,
      (∀ k, multicubicAt e fma (G.axis k) (lineVals (G.size k) (v k)) lin (fun _ => x k) =
        .ok (y k)) ∧
      multicubicAt e fma G vals lin x = .ok (∏ k, y k) := by
  obtain ⟨c, hc⟩ := hG.cells (by omega) x
  refine ⟨_, fun k => line_multicubic e he fma G vals lin hG x hx c hc k (v k), ?_⟩
  rw [multicubicAt_eq e he fma G vals lin hG _ hg x hx c hc,
    axisByAxis_separable _ fun k => cubicPiece_linear (hG.big k) lin (hc k).1]

end

section Examples

/-- C24 on two arrays over the same grid. -/
example :
    let w : List ℚ := [1, 0, -1, 4, 2, 2]
    exRegular.Valid 2 exVals ∧ exRegular.Valid 2 w ∧ exRegular.Representable ![5/2, 2] ∧
      combine 2 (-3) exVals w = [1, 12, 15, 20, 14, 46] ∧
      multilinearAt .flat false exRegular (combine 2 (-3) exVals w) ![5/2, 2] = .ok (145/4) := by
  refine ⟨valid_of_check ?_, valid_of_check ?_, ?_⟩ <;> decide +kernel

/-- C24 on a constant array, extrapolated. -/
example :
    let vals := exSample exRegular4 fun _ => 7
    exRegular4.Valid 4 vals ∧ (∀ y ∈ vals, y = 7) ∧ exRegular4.RepresentableCubic ![-9, 100] ∧
      multicubicAt .flat false exRegular4 vals true ![-9, 100] = .ok 7 := by
  refine ⟨valid_of_check ?_, ?_⟩ <;> decide +kernel

/-- C37 on separable data. -/
example :
    let v : Fin 2 → Nat → ℚ := fun k i => if k = 0 then (i : ℚ) ^ 3 else 1 / (1 + i)
    let vals := (List.range 5).flatMap fun i => (List.range 4).map fun j => v 0 i * v 1 j
    exRectilinear4.Valid 4 vals ∧
      Samples exRectilinear4.size vals (fun loc => ∏ k, v k (loc k)) ∧
      multicubicAt .flat false (exRectilinear4.axis 0) (lineVals 5 (v 0)) true (fun _ => 2) ≠
        .ok 0 := by
  intro v vals
  refine ⟨valid_of_check ?_, samples_of_check ?_, ?_⟩ <;> decide +kernel

end Examples

end Interpn
