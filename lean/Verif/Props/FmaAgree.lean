import Verif.Lemmas.FmaCubic
import Verif.Lemmas.IeeeExamples
import Verif.Props.Linearize

/-! C133: with the `fma` feature the flattened and the recursive evaluators still agree bit for bit,
but for a few exceptions. (Without it they always do, C01–C04.) -/

set_option autoImplicit false
set_option exponentiation.threshold 1100

namespace Interpn
open FloatOps Ieee

section
variable {T : Type} [FloatOps T] {N : Nat}

/-- C133, multicubic interpolation on regular grids, in any arithmetic: the two evaluators give the
same result where the computed cell number `floor((x - start) / step)` is not negative on any
axis. -/
theorem C133_multicubic_regular_inside (hT : TotalOfUsize T) (e e' : Evaluator) (he : e.Fits N)
    (he' : e'.Fits N) (fma : Bool) (dims : Fin N → Nat) (starts steps : Fin N → T) (vals : List T)
    (hs : IsSlice vals) (lin : Bool) (x : Fin N → T)
    (hx : ∀ k z, FloatOps.toIsize (FloatOps.floor ((x k -. starts k) /. steps k)) = some z → 0 ≤ z) :
    multicubicRegularAt e fma dims starts steps vals lin x =
      multicubicRegularAt e' fma dims starts steps vals lin x := by
  rw [multicubicRegularAt_eq e he fma hT dims starts steps vals lin hs x,
    multicubicRegularAt_eq e' he' fma hT dims starts steps vals lin hs x]
  congr 1; funext _
  rcases axisLoop_cases N ((0, .none, zero) : Nat × Saturation × T) (fun i => do
      cubRegAxis (← aget dims i) (← aget starts i) (← aget steps i) (← aget x i)) with
    ⟨a, ha, hl⟩ | ⟨i, m, _, _, hl⟩ | ⟨i, _, _, hl⟩
  · rw [hl, Res.ok_bind, Res.ok_bind]
    congr 2; funext k f
    have ha' : cubRegAxis (dims k) (starts k) (steps k) (x k) = .ok (a k) := by
      have := ha k; simpa using this
    unfold cubRegAxis at ha'
    split at ha'
    · cases ha'
    · next z hz =>
      have h0 := hx k z hz
      split at ha'
      · cases ha'
      · split at ha'
        · cases ha'
        · have hsat : (a k).2.1 = satRegular (dims k) z := by rw [← Res.ok.inj ha']
          unfold cubRegRule
          rw [hsat]
          have : satRegular (dims k) z ≠ .outsideLow := by
            unfold satRegular
            rw [if_neg (by omega)]
            split
            · decide
            · split
              · decide
              · split <;> decide
          revert this
          cases satRegular (dims k) z <;> intro h <;> first | rfl | exact absurd rfl h
  · rw [hl]; rfl
  · rw [hl]; rfl

end

section
variable {f : Format} {N : Nat}

/-- C133, multicubic interpolation on regular grids: if the result of the recursive evaluator is
finite, every evaluator has it, bit for bit, inside and outside the grid. -/
theorem C133_multicubic_regular (e : Evaluator) (he : e.Fits N) (M : Nat) (hN : 0 < N) (hM : N ≤ M)
    (fma : Bool) (dims : Fin N → Nat) (starts steps : Fin N → Ieee f) (vals : List (Ieee f))
    (hs : IsSlice vals) (lin : Bool) (x : Fin N → Ieee f) (y : Ieee f) (hy : Ieee.Finite y)
    (h : multicubicRegularAt (.recursive M) fma dims starts steps vals lin x = .ok y) :
    multicubicRegularAt e fma dims starts steps vals lin x = .ok y := by
  rw [multicubicRegularAt_eq (.recursive M) (show 0 < N ∧ N ≤ M from ⟨hN, hM⟩) fma
      (Ieee.totalOfUsize f) dims starts steps vals lin hs x]
    at h
  rw [multicubicRegularAt_eq e he fma (Ieee.totalOfUsize f) dims starts steps vals lin hs x]
  cases hc : checkRegular 4 "All grids must have at least four entries" (List.ofFn dims)
      (List.ofFn steps) vals with
  | err m => rw [hc] at h; cases h
  | panic => rw [hc] at h; cases h
  | ok u =>
    rw [hc] at h
    simp only [Res.ok_bind] at h ⊢
    cases ha : axisLoop N (0, .none, zero) (fun i => do
        cubRegAxis (← aget dims i) (← aget starts i) (← aget steps i) (← aget x i)) with
    | err m => rw [ha] at h; cases h
    | panic => rw [ha] at h; cases h
    | ok a =>
      rw [ha] at h
      simp only [Res.ok_bind] at h ⊢
      have key := axisByAxis_rel (SameIfFinite (f := f)) (fun _ _ => True)
        (fun k => cubRegRule fma false lin (a k)) (fun k => cubRegRule fma (e.fmaLow fma) lin (a k))
        (valAt zero dims vals) (valAt zero dims vals)
        (fun k g g' hg => SameIfFinite.cubicInnerRegular fma _ (fun p => hg _ trivial) _ _ _)
        (fun _ _ => SameIfFinite.rfl')
      cases h
      exact congrArg Res.ok (key hy)

/-- C133, multicubic interpolation on rectilinear grids: if the result of the flattened evaluator is
finite, every evaluator has it, bit for bit, inside the grid, and also outside if the extrapolation
is not linearized. -/
theorem C133_multicubic_rectilinear (e : Evaluator) (he : e.Fits N) (fma : Bool)
    (grids : Fin N → List (Ieee f)) (vals : List (Ieee f)) (hs : IsSlice vals) (lin : Bool)
    (x : Fin N → Ieee f) (y : Ieee f) (hy : Ieee.Finite y)
    (hx : lin = false ∨ ∀ k, (∃ a, (grids k).head? = some a ∧ (a <. x k) = true) ∧
      ∃ b, (grids k).getLast? = some b ∧ (b <. x k) = false)
    (h : multicubicRectilinearAt .flat fma grids vals lin x = .ok y) :
    multicubicRectilinearAt e fma grids vals lin x = .ok y := by
  have hflat : Evaluator.Fits .flat N := he.pos
  have hlin : ∀ e : Evaluator, e.Fits N → multicubicRectilinearAt e fma grids vals lin x =
      multicubicRectilinearAt e fma grids vals false x := by
    intro e he
    rcases hx with rfl | hx
    · rfl
    · exact C103_rectilinear e he fma grids vals hs _ _ x (fun k => (hx k).1) fun k => (hx k).2
  rw [hlin _ hflat, multicubicRectilinearAt_eq _ hflat fma grids vals false hs x] at h
  rw [hlin e he, multicubicRectilinearAt_eq e he fma grids vals false hs x]
  cases hc : checkRectilinear 4 "All grids must have at least 4 entries" (List.ofFn grids) vals with
  | err m => rw [hc] at h; cases h
  | panic => rw [hc] at h; cases h
  | ok u =>
    rw [hc] at h
    simp only [Res.ok_bind] at h ⊢
    have key := axisByAxis_rel (SameIfFinite (f := f)) (fun _ _ => True)
      (fun k => cubRectRule fma false false false (grids k) (x k))
      (fun k => cubRectRule fma (e.fmaBdry fma) (e.fmaBdry fma) false (grids k) (x k))
      (valAt zero (fun k => (grids k).length) vals) (valAt zero (fun k => (grids k).length) vals)
      (fun k g g' hg => SameIfFinite.cubicInnerRectilinear fma _ _ _ (fun p => hg _ trivial) _ _ _)
      (fun _ _ => SameIfFinite.rfl')
    cases h
    exact congrArg Res.ok (key hy)

/-- C133, multilinear interpolation on regular grids: if the products of the steps with the node
numbers are floats, the two evaluators agree bit for bit, errors included, at every observation. -/
theorem C133_multilinear_regular (e e' : Evaluator) (he : e.Fits N) (he' : e'.Fits N) (fma : Bool)
    (dims : Fin N → Nat) (starts steps : Fin N → Ieee f) (vals : List (Ieee f)) (hs : IsSlice vals)
    (hp : ∀ k, ∀ i < dims k, f.Representable i ∧ f.Representable (val (steps k) * i))
    (x : Fin N → Ieee f) :
    multilinearRegularAt e fma dims starts steps vals x =
      multilinearRegularAt e' fma dims starts steps vals x := by
  have key : ∀ b b' k, linRegAxis b (dims k) (starts k) (steps k) (x k) =
      linRegAxis b' (dims k) (starts k) (steps k) (x k) := by
    intro b b' k
    unfold linRegAxis
    cases rawCell (starts k) (steps k) (x k) with
    | none => rfl
    | some z =>
      have hi : f.Representable (clampIdx z (dims k - 2) : ℚ) ∧
          f.Representable (val (steps k) * (clampIdx z (dims k - 2) : ℚ)) := by
        by_cases h : clampIdx z (dims k - 2) < dims k
        · exact hp k _ h
        · have := clampIdx_le z (dims k - 2)
          rw [show clampIdx z (dims k - 2) = 0 by omega, Nat.cast_zero, mul_zero]
          exact ⟨f.zero_repr, f.zero_repr⟩
      have he := exact_product_fused (start := starts k) hi.1 hi.2
      change some (_, _) = some (_, _)
      cases b <;> cases b' <;> simp [he]
  obtain ⟨h1, h2⟩ := multilinearRegularAt_eq e he fma dims starts steps vals hs x
  obtain ⟨h1', h2'⟩ := multilinearRegularAt_eq e' he' fma dims starts steps vals hs x
  by_cases h : ∃ k, linRegAxis (e.fmaLoc fma) (dims k) (starts k) (steps k) (x k) = none
  · rw [h2 h, h2' (h.imp fun k hk => by rw [← hk]; exact key _ _ k)]
  · have : ∀ k, ∃ a, linRegAxis (e.fmaLoc fma) (dims k) (starts k) (steps k) (x k) = some a :=
      fun k => Option.ne_none_iff_exists'.1 fun hk => h ⟨k, hk⟩
    choose a ha using this
    rw [h1 a ha, h1' a fun k => by rw [← ha k]; exact key _ _ k]

end

section Examples

private theorem finite_ok {r : Res F64} (h : (match r with
    | .ok (.fin ..) => true
    | _ => false) = true) : ∃ y, Ieee.Finite y ∧ r = .ok y := by
  match r, h with
  | .ok (.fin s q h1 h2), _ => exact ⟨fin s q h1 h2, trivial, rfl⟩

private theorem small_repr {m : Int} {e : Int} (hm : |m| < 100) (h1 : -100 ≤ e) (h2 : e ≤ 100) :
    Format.binary64.Representable (m * 2 ^ e) :=
  ⟨m, e, lt_trans hm (by decide), le_trans (by decide) h1, le_trans h2 (by decide), rfl⟩

/-- A cubic table on a regular grid with fused multiply-adds: one point in the grid on both axes, one
below it on the first axis and above it on the second. -/
example (lin : Bool) :
    multicubicRegularAt .flat true ![4, 5] ![q64 0, q64 (1 / 10)] ![q64 (1 / 10), q64 1] exVals64c
        lin ![q64 (1 / 7), q64 3] =
      multicubicRegularAt (.recursive 8) true ![4, 5] ![q64 0, q64 (1 / 10)] ![q64 (1 / 10), q64 1]
        exVals64c lin ![q64 (1 / 7), q64 3] ∧
    ∃ y, Ieee.Finite y ∧
      multicubicRegularAt (.recursive 2) true ![4, 5] ![q64 0, q64 (1 / 10)] ![q64 (1 / 10), q64 1]
        exVals64c lin ![q64 (-1 / 3), q64 9] = .ok y ∧
      multicubicRegularAt .flat true ![4, 5] ![q64 0, q64 (1 / 10)] ![q64 (1 / 10), q64 1]
        exVals64c lin ![q64 (-1 / 3), q64 9] = .ok y := by
  have hs : IsSlice exVals64c := by unfold IsSlice; decide
  refine ⟨C133_multicubic_regular_inside (Ieee.totalOfUsize _) .flat (.recursive 8)
    Nat.two_pos (show 0 < 2 ∧ 2 ≤ 8 by decide) true _ _ _ _ hs lin _ ?_, ?_⟩
  · have : ∀ k : Fin 2, ∃ z : Int, FloatOps.toIsize (FloatOps.floor (((![q64 (1 / 7), q64 3] : Fin 2 → F64) k -.
        (![q64 0, q64 (1 / 10)] : Fin 2 → F64) k) /. (![q64 (1 / 10), q64 1] : Fin 2 → F64) k)) =
        some z ∧ 0 ≤ z := by
      intro k
      fin_cases k
      · exact ⟨1, by decide +kernel, by decide⟩
      · exact ⟨2, by decide +kernel, by decide⟩
    intro k z hz
    obtain ⟨z', h1, h2⟩ := this k
    cases h1.symm.trans hz
    exact h2
  · obtain ⟨y, hy, h⟩ := finite_ok (r := multicubicRegularAt (.recursive 2) true ![4, 5]
      ![q64 0, q64 (1 / 10)] ![q64 (1 / 10), q64 1] exVals64c lin ![q64 (-1 / 3), q64 9])
      (by revert lin; decide +kernel)
    exact ⟨y, hy, h, C133_multicubic_regular .flat Nat.two_pos 2 (by decide) (by decide) true _ _ _ _
      hs lin _ y hy h⟩

/-- On a rectilinear grid, inside with linearized extrapolation, and outside without. -/
example (lin : Bool) (x : Fin 2 → F64)
    (hx : x = ![q64 (1 / 3), q64 (5 / 2)] ∨ lin = false ∧ x = ![q64 (-1 / 3), q64 7]) :
    ∃ y, Ieee.Finite y ∧ multicubicRectilinearAt .flat true exGrids64c exVals64c lin x = .ok y ∧
      multicubicRectilinearAt (.recursive 8) true exGrids64c exVals64c lin x = .ok y := by
  have hs : IsSlice exVals64c := by unfold IsSlice; decide
  obtain ⟨y, hy, h⟩ := finite_ok (r := multicubicRectilinearAt .flat true exGrids64c exVals64c lin x)
    (by
      rcases hx with rfl | ⟨rfl, rfl⟩
      · revert lin; decide +kernel
      · decide +kernel)
  refine ⟨y, hy, h, C133_multicubic_rectilinear (.recursive 8) (show 0 < 2 ∧ 2 ≤ 8 by decide) true _ _ hs lin x y
    hy ?_ h⟩
  rcases hx with rfl | ⟨rfl, _⟩
  · right
    intro k
    fin_cases k
    · exact ⟨⟨q64 0, rfl, by decide +kernel⟩, ⟨q64 4, rfl, by decide +kernel⟩⟩
    · exact ⟨⟨q64 0, rfl, by decide +kernel⟩, ⟨q64 3, rfl, by decide +kernel⟩⟩
  · exact .inl rfl

/-- Multilinear interpolation with steps `1/4` and `3`. -/
example (x : Fin 2 → F64) :
    multilinearRegularAt .flat true ![4, 5] ![q64 (1 / 10), q64 (1 / 3)] ![q64 (1 / 4), q64 3]
        exVals64c x =
      multilinearRegularAt (.recursive 8) true ![4, 5] ![q64 (1 / 10), q64 (1 / 3)]
        ![q64 (1 / 4), q64 3] exVals64c x := by
  refine C133_multilinear_regular .flat (.recursive 8) Nat.two_pos (show 0 < 2 ∧ 2 ≤ 8 by decide) true _ _ _ _
    (by unfold IsSlice; decide) ?_ x
  intro k i hi
  have hi5 : |(i : Int)| < 100 ∧ |3 * (i : Int)| < 100 := by
    have : i < 5 := by
      refine lt_of_lt_of_le hi ?_
      fin_cases k <;> decide
    rw [abs_of_nonneg (by positivity), abs_of_nonneg (by positivity)]
    omega
  have e1 : val (q64 (1 / 4)) = 1 / 4 := by decide +kernel
  have e2 : val (q64 3) = 3 := by decide +kernel
  refine ⟨by simpa using small_repr (e := 0) hi5.1 (by decide) (by decide), ?_⟩
  fin_cases k
  · have := small_repr (e := -2) hi5.1 (by decide) (by decide)
    rw [show ((i : Int) : ℚ) * 2 ^ (-2 : Int) = 1 / 4 * i by push_cast; norm_num; ring, ← e1] at this
    exact this
  · have := small_repr (e := 0) hi5.2 (by decide) (by decide)
    rw [show ((3 * (i : Int) : Int) : ℚ) * 2 ^ (0 : Int) = 3 * i by push_cast; norm_num, ← e2] at this
    exact this

/-- C133: the exceptions are real. The recursive evaluator computes `2 dy` by itself below a regular
grid, the flattened one next to both ends of a rectilinear grid, which can overflow; beyond a rectilinear grid the linearized extrapolation is fused by the
recursive evaluator only; and the node from which a position is measured on a regular grid is fused
by the flattened multilinear evaluator only. -/
theorem C133_counterexample :
    (multicubicRegularAt .flat true ![4] ![q64 0] ![q64 1] [q64 (2 ^ 1023), q64 0, q64 0, q64 0] true
        ![q64 (-1 / 8)] = .ok (q64 (19 * 2 ^ 1019)) ∧
      multicubicRegularAt (.recursive 1) true ![4] ![q64 0] ![q64 1]
        [q64 (2 ^ 1023), q64 0, q64 0, q64 0] true ![q64 (-1 / 8)] = .ok (inf false)) ∧
    (multicubicRectilinearAt .flat true ![[q64 0, q64 1, q64 2, q64 3]]
        [q64 (2 ^ 1023), q64 0, q64 0, q64 0] false ![q64 (1 / 2)] = .ok nan ∧
      multicubicRectilinearAt (.recursive 1) true ![[q64 0, q64 1, q64 2, q64 3]]
        [q64 (2 ^ 1023), q64 0, q64 0, q64 0] false ![q64 (1 / 2)] = .ok (q64 (3 * 2 ^ 1020))) ∧
    multicubicRectilinearAt .flat true ![[q64 0, q64 1, q64 2, q64 3]]
        [q64 (1 / 3), q64 1, q64 2, q64 4] true ![q64 (-8 / 7)] ≠
      multicubicRectilinearAt (.recursive 1) true ![[q64 0, q64 1, q64 2, q64 3]]
        [q64 (1 / 3), q64 1, q64 2, q64 4] true ![q64 (-8 / 7)] ∧
    multilinearRegularAt .flat true ![5] ![q64 (1 / 7)] ![q64 (1 / 10)]
        [q64 0, q64 1, q64 2, q64 4, q64 8] ![q64 (1 / 7 + 1 / 3)] ≠
      multilinearRegularAt (.recursive 1) true ![5] ![q64 (1 / 7)] ![q64 (1 / 10)]
        [q64 0, q64 1, q64 2, q64 4, q64 8] ![q64 (1 / 7 + 1 / 3)] := by
  refine ⟨⟨?_, ?_⟩, ⟨?_, ?_⟩, ?_, ?_⟩ <;> decide +kernel

end Examples

end Interpn
