import Verif.Lemmas.IeeeDropAxis
import Verif.Lemmas.IeeeExamples
import Verif.Spec.Subgrid
import Verif.Props.Crop

/-! C121: in floating point, an axis on which the data do not depend can be left out. C67 for
multicubic interpolation. -/

set_option autoImplicit false
set_option linter.unusedSectionVars false
set_option exponentiation.threshold 1100

namespace Interpn
open FloatOps

section
variable {T K : Type} [FloatOps T] [Field K] {val : T → K} {fin : T → Prop} {N : Nat}

/-! ### C67: constant tables, multicubic interpolation -/

/-- Rectilinear grids: if all stored values are the number `z` and neither the positions nor the
ratios of the widths of adjacent cells overflow or vanish, the result is exactly `z`, inside and
outside the grid. -/
theorem C67_multicubic_rectilinear (h : ExactIfFloat val fin)
    (h2 : fin ((one : T) +. one) ∧ val ((one : T) +. one) ≠ 0) (e : Evaluator) (he : e.Fits N)
    (fma : Bool) (grids : Fin N → List T) (vals : List T) (lin : Bool)
    (hG : RectilinearAccepted 4 grids vals) (z : K) (hz : ∀ v ∈ vals, fin v ∧ val v = z)
    (x : Fin N → T) (hp : ∀ k, PositionsFinite fin (grids k) (x k))
    (hr : ∀ k, RatiosUsable val fin (grids k)) :
    ∃ r, multicubicRectilinearAt e fma grids vals lin x = .ok r ∧ fin r ∧ val r = z := by
  have hs := samples_valAt zero (fun k => (grids k).length) vals hG.len
  refine ⟨_, by rw [multicubicRectilinearAt_eq e he fma grids vals lin hG.slice x,
    hG.check (by omega), Res.ok_bind], ?_⟩
  exact axisByAxis_mem (fun a => fin a ∧ val a = z) (fun k i => i < (grids k).length) _ _
    (fun k f hf => cubRectRule_const h fma _ _ lin (hG.big k) h2.1 (hp k) (hr k) hf)
    fun loc hl => hz _ (List.mem_of_getElem? (hs loc hl))

/-- Regular grids. -/
theorem C67_multicubic_regular (h : ExactIfFloat val fin) (hT : TotalOfUsize T)
    (h2 : fin ((one : T) +. one) ∧ val ((one : T) +. one) ≠ 0) (e : Evaluator) (he : e.Fits N)
    (fma : Bool) (dims : Fin N → Nat) (starts steps : Fin N → T) (vals : List T) (lin : Bool)
    (hG : RegularAccepted 4 dims steps vals) (z : K) (hz : ∀ v ∈ vals, fin v ∧ val v = z)
    (x : Fin N → T) (hp : ∀ k, RegularPositionsFinite fin (dims k) (starts k) (steps k) (x k))
    (r : T) (hr : multicubicRegularAt e fma dims starts steps vals lin x = .ok r) :
    fin r ∧ val r = z := by
  have hs := samples_valAt zero dims vals hG.len
  rw [multicubicRegularAt_eq e he fma hT dims starts steps vals lin hG.slice x,
    hG.check (by omega), Res.ok_bind] at hr
  rcases axisLoop_cases N ((0, .none, zero) : Nat × Saturation × T) (fun i => do
      cubRegAxis (← aget dims i) (← aget starts i) (← aget steps i) (← aget x i)) with
    ⟨a, ha, hl⟩ | ⟨_, _, _, _, hl⟩ | ⟨_, _, _, hl⟩
  · rw [hl, Res.ok_bind, Res.ok.injEq] at hr
    rw [← hr]
    refine axisByAxis_mem (fun a => fin a ∧ val a = z) (fun k i => i < dims k) _ _
      (fun k f hf => ?_) fun loc hl => hz _ (List.mem_of_getElem? (hs loc hl))
    have hk := ha k
    simp only [aget_fin, Res.ok_bind] at hk
    exact cubReg_const h fma _ lin (hG.big k) h2 (hp k) hk hf
  · rw [hl] at hr; cases hr
  · rw [hl] at hr; cases hr

end

/-! ### C121: leaving out an axis -/

section
variable {T : Type} [FloatOps T] {N : Nat} {dims : Fin (N + 1) → Nat} {vals vals' : List T}
  {g : (Fin N → Nat) → T} {j : Fin (N + 1)}

/-- The stored values of the larger and of the smaller table. -/
theorem valAt_drop (hl : vals.length = ∏ k, dims k)
    (hl' : vals'.length = ∏ k : Fin N, dims (j.succAbove k))
    (hg : Samples dims vals fun loc => g fun k => loc (j.succAbove k))
    (hg' : Samples (fun k => dims (j.succAbove k)) vals' g) (loc : Fin (N + 1) → Nat)
    (hb : ∀ k, loc k < dims k) :
    valAt zero dims vals loc =
      valAt zero (fun k => dims (j.succAbove k)) vals' fun k => loc (j.succAbove k) := by
  have h1 := samples_valAt zero dims vals hl loc hb
  have h2 := samples_valAt zero _ vals' hl' (fun k => loc (j.succAbove k)) fun k => hb _
  rw [hg loc hb, Option.some.injEq] at h1
  rw [hg' _ fun k => hb _, Option.some.injEq] at h2
  rw [← h1, ← h2]

/-- C121, nearest-neighbour interpolation on rectilinear grids, for every number type. The table `vals`
over the axes `grids` holds the same values for every index of axis `j`, and `vals'` holds them once,
over the other axes. The results are the same, bit for bit. -/
theorem C121_nearest_rectilinear (grids : Fin (N + 1) → List T) (j : Fin (N + 1))
    (hG : RectilinearAccepted 2 grids vals)
    (hG' : RectilinearAccepted 2 (fun k => grids (j.succAbove k)) vals')
    (hg : Samples (fun k => (grids k).length) vals fun loc => g fun k => loc (j.succAbove k))
    (hg' : Samples (fun k => (grids (j.succAbove k)).length) vals' g) (x : Fin (N + 1) → T) :
    ∃ y, nearestRectilinearAt grids vals x = .ok y ∧
      nearestRectilinearAt (fun k => grids (j.succAbove k)) vals' (fun k => x (j.succAbove k)) =
        .ok y := by
  refine ⟨_, by rw [nearestRectilinearAt_eq grids vals hG.slice, hG.check le_rfl, Res.ok_bind], ?_⟩
  rw [nearestRectilinearAt_eq _ vals' hG'.slice, hG'.check le_rfl, Res.ok_bind,
    valAt_drop hG.len hG'.len hg hg' _ fun k => nearRectAxis_bound (hG.big k) _]

/-- C121, nearest-neighbour interpolation on regular grids, for every number type. -/
theorem C121_nearest_regular (fma : Bool) (starts steps : Fin (N + 1) → T) (j : Fin (N + 1))
    (hG : RegularAccepted 2 dims steps vals)
    (hG' : RegularAccepted 2 (fun k => dims (j.succAbove k)) (fun k => steps (j.succAbove k)) vals')
    (hg : Samples dims vals fun loc => g fun k => loc (j.succAbove k))
    (hg' : Samples (fun k => dims (j.succAbove k)) vals' g) (x : Fin (N + 1) → T)
    (y : T) (hy : nearestRegularAt fma dims starts steps vals x = .ok y) :
    nearestRegularAt fma (fun k => dims (j.succAbove k)) (fun k => starts (j.succAbove k))
      (fun k => steps (j.succAbove k)) vals' (fun k => x (j.succAbove k)) = .ok y := by
  have h1 := nearestRegularAt_eq fma dims starts steps vals hG.slice x
  have h2 := nearestRegularAt_eq fma (fun k => dims (j.succAbove k)) (fun k => starts (j.succAbove k))
    (fun k => steps (j.succAbove k)) vals' hG'.slice (fun k => x (j.succAbove k))
  rw [hG.check (by omega)] at h1
  rw [hG'.check (by omega)] at h2
  by_cases hn : ∃ k, nearRegAxis fma (dims k) (starts k) (steps k) (x k) = none
  · rw [h1.2 hn] at hy; cases hy
  · have : ∀ k, ∃ a, nearRegAxis fma (dims k) (starts k) (steps k) (x k) = some a :=
      fun k => Option.ne_none_iff_exists'.1 fun hk => hn ⟨k, hk⟩
    choose a ha using this
    rw [h1.1 a ha, Res.ok_bind] at hy
    rw [h2.1 (fun k => a (j.succAbove k)) fun k => ha _, Res.ok_bind, ← hy,
      valAt_drop hG.len hG'.len hg hg' _ fun k => nearRegAxis_bound (hG.big k) (ha k)]

end

section
open Ieee
variable {f : Format} {N : Nat}

/-- The same evaluation strategy, for two numbers of axes. Without fused multiplications and additions
the strategies compute the same. -/
def SameKind (fma : Bool) (e e' : Evaluator) : Prop := fma = true → (e = .flat ↔ e' = .flat)

theorem SameKind.flags {fma : Bool} {e e' : Evaluator} (h : SameKind fma e e') :
    e.fmaLoc fma = e'.fmaLoc fma ∧ e.fmaLow fma = e'.fmaLow fma ∧
      e.fmaBdry fma = e'.fmaBdry fma := by
  cases fma
  · cases e <;> cases e' <;> exact ⟨rfl, rfl, rfl⟩
  · have := h rfl
    cases e <;> cases e' <;> simp at this <;> exact ⟨rfl, rfl, rfl⟩

variable {dims : Fin (N + 1) → Nat} {vals vals' : List (Ieee f)} {g : (Fin N → Nat) → Ieee f}
  {j : Fin (N + 1)}

/-- Reduction of the two calls to one axis. -/
theorem sameIfFinite_drop (S : Fin (N + 1) → Nat → Prop)
    (op : Fin (N + 1) → (Nat → Ieee f) → Ieee f) (g₁ : (Fin (N + 1) → Nat) → Ieee f)
    (g₂ : (Fin N → Nat) → Ieee f)
    (hop : ∀ k (u u' : Nat → Ieee f), (∀ i, S (j.succAbove k) i → SameIfFinite (u i) (u' i)) →
      SameIfFinite (op (j.succAbove k) u) (op (j.succAbove k) u'))
    (hj : ∀ (u : Nat → Ieee f) (z : ℚ), (∀ i, S j i → (u i).Finite ∧ val (u i) = z) →
      (op j u).Finite ∧ val (op j u) = z)
    (hg : ∀ loc, (∀ k, S k (loc k)) → g₁ loc = g₂ fun k => loc (j.succAbove k)) :
    SameIfFinite (axisByAxis op g₁) (axisByAxis (fun k => op (j.succAbove k)) g₂) := by
  refine axisByAxis_drop SameIfFinite j S op _ g₁ g₂ hop ?_ ?_
  · intro u c hu hc
    exact (sameValue_finite hc).2 (hj u (val c) fun i hi => (sameValue_finite hc).1 (hu i hi hc))
  · intro loc hl h
    rw [hg loc hl]
    exact (sameValue_finite h).2 ⟨h, rfl⟩

/-- C121, multilinear interpolation on rectilinear grids. The table `vals` over the axes `grids` holds
the same values for every index of axis `j`, and `vals'` holds them once, over the other axes. If the
result of the smaller table is finite, that of the larger one is the same number, at whatever
coordinate `x j`, as long as the position of `x j` between nodes of axis `j` does not overflow. -/
theorem C121_multilinear_rectilinear (e e' : Evaluator) (he : e.Fits (N + 1)) (he' : e'.Fits N)
    (fma : Bool) (grids : Fin (N + 1) → List (Ieee f)) (j : Fin (N + 1))
    (hG : RectilinearAccepted 2 grids vals)
    (hG' : RectilinearAccepted 2 (fun k => grids (j.succAbove k)) vals')
    (hg : Samples (fun k => (grids k).length) vals fun loc => g fun k => loc (j.succAbove k))
    (hg' : Samples (fun k => (grids (j.succAbove k)).length) vals' g) (x : Fin (N + 1) → Ieee f)
    (hp : PositionsFinite Ieee.Finite (grids j) (x j)) :
    ∃ y y', multilinearRectilinearAt e fma grids vals x = .ok y ∧
      multilinearRectilinearAt e' fma (fun k => grids (j.succAbove k)) vals'
        (fun k => x (j.succAbove k)) = .ok y' ∧
      (Finite y' → SameValue y y') := by
  refine ⟨_, _, by rw [multilinearRectilinearAt_eq e he fma grids vals hG.slice x, hG.check le_rfl,
    Res.ok_bind], by rw [multilinearRectilinearAt_eq e' he' fma _ vals' hG'.slice _,
    hG'.check le_rfl, Res.ok_bind], ?_⟩
  refine sameIfFinite_drop (j := j) (fun k i => i < (grids k).length)
    (fun k => linRule fma (grids k) (x k)) _ _ ?_ ?_ ?_
  · intro k u u' hu
    have := linCell_bound (hG.big (j.succAbove k)) (x (j.succAbove k))
    exact dataRel_sameIfFinite.lerp fma _ fun p => hu _ (by have := p.isLt; omega)
  · intro u z hu
    exact linRule_const (exactIfFloat f) fma (hG.big j) hp hu
  · exact fun loc hl => valAt_drop hG.len hG'.len hg hg' loc hl

/-- C121, multicubic interpolation on rectilinear grids. The widths of adjacent cells of axis `j` must
have positive and finite ratios. -/
theorem C121_multicubic_rectilinear (e e' : Evaluator) (he : e.Fits (N + 1)) (he' : e'.Fits N)
    (fma : Bool) (hk : SameKind fma e e') (grids : Fin (N + 1) → List (Ieee f)) (j : Fin (N + 1))
    (lin : Bool) (hG : RectilinearAccepted 4 grids vals)
    (hG' : RectilinearAccepted 4 (fun k => grids (j.succAbove k)) vals')
    (hg : Samples (fun k => (grids k).length) vals fun loc => g fun k => loc (j.succAbove k))
    (hg' : Samples (fun k => (grids (j.succAbove k)).length) vals' g) (x : Fin (N + 1) → Ieee f)
    (hp : PositionsFinite Ieee.Finite (grids j) (x j))
    (hr : ∀ i a b c, (grids j)[i]? = some a → (grids j)[i + 1]? = some b →
      (grids j)[i + 2]? = some c →
      (Finite ((b -. a) /. (c -. b)) ∧ 0 < val ((b -. a) /. (c -. b))) ∧
      Finite ((c -. b) /. (b -. a)) ∧ 0 < val ((c -. b) /. (b -. a))) :
    ∃ y y', multicubicRectilinearAt e fma grids vals lin x = .ok y ∧
      multicubicRectilinearAt e' fma (fun k => grids (j.succAbove k)) vals' lin
        (fun k => x (j.succAbove k)) = .ok y' ∧
      (Finite y' → SameValue y y') := by
  refine ⟨_, _, by rw [multicubicRectilinearAt_eq e he fma grids vals lin hG.slice x,
    hG.check (by omega), Res.ok_bind], by rw [multicubicRectilinearAt_eq e' he' fma _ vals' lin
    hG'.slice _, hG'.check (by omega), Res.ok_bind], ?_⟩
  rw [hk.flags.2.2]
  refine sameIfFinite_drop (j := j) (fun k i => i < (grids k).length)
    (fun k => cubRectRule fma _ _ lin (grids k) (x k)) _ _ ?_ ?_ ?_
  · intro k u u' hu
    have := cubCell_bound (hG.big (j.succAbove k)) (x (j.succAbove k))
    exact dataRel_sameIfFinite.cubicInnerRectilinear _ _ _ _ _ _ _ fun p =>
      hu _ (by have := p.isLt; omega)
  · intro u z hu
    refine cubRectRule_const (exactIfFloat f) fma _ _ lin (hG.big j) two_exact.1 hp ?_ hu
    intro i a b c ha hb hc
    have := hr i a b c ha hb hc
    exact ⟨usableRatio this.1.1 this.1.2, usableRatio this.2.1 this.2.2⟩
  · exact fun loc hl => valAt_drop hG.len hG'.len hg hg' loc hl

/-- C121, multilinear interpolation on regular grids. -/
theorem C121_multilinear_regular (e e' : Evaluator) (he : e.Fits (N + 1)) (he' : e'.Fits N)
    (fma : Bool) (hk : SameKind fma e e') (starts steps : Fin (N + 1) → Ieee f)
    (j : Fin (N + 1)) (hG : RegularAccepted 2 dims steps vals)
    (hG' : RegularAccepted 2 (fun k => dims (j.succAbove k)) (fun k => steps (j.succAbove k)) vals')
    (hg : Samples dims vals fun loc => g fun k => loc (j.succAbove k))
    (hg' : Samples (fun k => dims (j.succAbove k)) vals' g) (x : Fin (N + 1) → Ieee f)
    (hp : RegularPositionsFinite Ieee.Finite (dims j) (starts j) (steps j) (x j))
    (y : Ieee f) (hy : multilinearRegularAt e fma dims starts steps vals x = .ok y) :
    ∃ y', multilinearRegularAt e' fma (fun k => dims (j.succAbove k)) (fun k => starts (j.succAbove k))
        (fun k => steps (j.succAbove k)) vals' (fun k => x (j.succAbove k)) = .ok y' ∧
      (Finite y' → SameValue y y') := by
  have heq := multilinearRegularAt_eq e he fma dims starts steps vals hG.slice x
  have heq' := multilinearRegularAt_eq e' he' fma (fun k => dims (j.succAbove k))
    (fun k => starts (j.succAbove k)) (fun k => steps (j.succAbove k)) vals' hG'.slice
    (fun k => x (j.succAbove k))
  simp only [hG.check (by omega), hG'.check (by omega), Res.ok_bind] at heq heq'
  by_cases hn : ∃ k, linRegAxis (e.fmaLoc fma) (dims k) (starts k) (steps k) (x k) = none
  · rw [heq.2 hn] at hy; cases hy
  push Not at hn
  have ha := fun k => Option.ne_none_iff_exists'.1 (hn k)
  choose a ha using ha
  rw [heq.1 a ha, Res.ok.injEq] at hy
  refine ⟨_, heq'.1 (fun k => a (j.succAbove k)) fun k => by rw [← hk.flags.1]; exact ha _, ?_⟩
  rw [← hy]
  refine sameIfFinite_drop (j := j) (fun k i => i < dims k)
    (fun k u => lerp fma (a k).2 fun p => u ((a k).1 + p.val)) _ _ ?_ ?_ ?_
  · intro k u u' hu
    have := linRegAxis_bound (hG.big (j.succAbove k)) (ha (j.succAbove k))
    exact dataRel_sameIfFinite.lerp fma _ fun p => hu _ (by have := p.isLt; omega)
  · intro u z hu
    exact linReg_const (exactIfFloat f) fma _ (hG.big j) hp (ha j) hu
  · exact fun loc hl => valAt_drop hG.len hG'.len hg hg' loc hl

/-- C121, multicubic interpolation on regular grids. -/
theorem C121_multicubic_regular (e e' : Evaluator) (he : e.Fits (N + 1)) (he' : e'.Fits N)
    (fma : Bool) (hk : SameKind fma e e') (starts steps : Fin (N + 1) → Ieee f)
    (j : Fin (N + 1)) (lin : Bool) (hG : RegularAccepted 4 dims steps vals)
    (hG' : RegularAccepted 4 (fun k => dims (j.succAbove k)) (fun k => steps (j.succAbove k)) vals')
    (hg : Samples dims vals fun loc => g fun k => loc (j.succAbove k))
    (hg' : Samples (fun k => dims (j.succAbove k)) vals' g) (x : Fin (N + 1) → Ieee f)
    (hp : RegularPositionsFinite Ieee.Finite (dims j) (starts j) (steps j) (x j))
    (y : Ieee f) (hy : multicubicRegularAt e fma dims starts steps vals lin x = .ok y) :
    ∃ y', multicubicRegularAt e' fma (fun k => dims (j.succAbove k)) (fun k => starts (j.succAbove k))
        (fun k => steps (j.succAbove k)) vals' lin (fun k => x (j.succAbove k)) = .ok y' ∧
      (Finite y' → SameValue y y') := by
  rw [multicubicRegularAt_eq e he fma (totalOfUsize f) dims starts steps vals lin hG.slice x,
    hG.check (by omega), Res.ok_bind] at hy
  rcases axisLoop_cases (N + 1) ((0, .none, zero) : Nat × Saturation × Ieee f) (fun i => do
      cubRegAxis (← aget dims i) (← aget starts i) (← aget steps i) (← aget x i)) with
    ⟨a, ha, hl⟩ | ⟨_, _, _, _, hl⟩ | ⟨_, _, _, hl⟩
  · rw [hl, Res.ok_bind, Res.ok.injEq] at hy
    have ha : ∀ k, cubRegAxis (dims k) (starts k) (steps k) (x k) = .ok (a k) := fun k => by
      have := ha k
      simpa only [aget_fin, Res.ok_bind] using this
    refine ⟨_, by
      rw [multicubicRegularAt_eq e' he' fma (totalOfUsize f) _ _ _ vals' lin hG'.slice _,
        hG'.check (by omega), Res.ok_bind,
        axisLoop_ok N _ _ (fun k => a (j.succAbove k)) (fun k => by
          simp only [aget_fin, Res.ok_bind]; exact ha _), Res.ok_bind], ?_⟩
    rw [← hy, hk.flags.2.1]
    refine sameIfFinite_drop (j := j) (fun k i => i < dims k)
      (fun k => cubRegRule fma _ lin (a k)) _ _ ?_ ?_ ?_
    · intro k u u' hu
      have := cubRegAxis_bound (hG.big (j.succAbove k)) (ha (j.succAbove k))
      exact dataRel_sameIfFinite.cubicInnerRegular _ _ _ _ _ fun p =>
        hu _ (by have := p.isLt; omega)
    · intro u z hu
      exact cubReg_const (exactIfFloat f) fma _ lin (hG.big j) two_exact hp (ha j) hu
    · exact fun loc hl => valAt_drop hG.len hG'.len hg hg' loc hl
  · rw [hl] at hy; cases hy
  · rw [hl] at hy; cases hy

end

section Examples
open Ieee

theorem positions_check {f : Format} {grid : List (Ieee f)} {x : Ieee f}
    (h : ∀ p ∈ grid.zip grid.tail, UsablePosition Ieee.Finite ((x -. p.1) /. (p.2 -. p.1)) ∧
      UsablePosition Ieee.Finite ((-. (x -. p.2)) /. (p.2 -. p.1))) :
    PositionsFinite Ieee.Finite grid x := by
  intro i a b ha hb
  refine h (a, b) (List.mem_of_getElem? (i := i) ?_)
  rw [List.getElem?_zip_eq_some]
  exact ⟨ha, by rw [List.getElem?_tail]; exact hb⟩

instance {f : Format} (t : Ieee f) : Decidable (UsablePosition Ieee.Finite t) := by
  unfold UsablePosition; infer_instance

/-- A 3×2 table whose values do not depend on the second index. The value `1/10` is rounded, as is the
weight along the first axis; `7` is outside the second axis. -/
example (e e' : Evaluator) (he : e.Fits 2) (he' : e'.Fits 1) (fma : Bool) :
    let vals := ([2, 2, 1 / 10, 1 / 10, 7, 7] : List ℚ).map q64
    let vals' := ([2, 1 / 10, 7] : List ℚ).map q64
    let x : Fin 2 → F64 := ![q64 (1 / 3), q64 7]
    ∃ y y', multilinearRectilinearAt e fma exGrids64 vals x = .ok y ∧
      multilinearRectilinearAt e' fma (fun k : Fin 1 => exGrids64 ((1 : Fin 2).succAbove k)) vals'
        (fun k => x ((1 : Fin 2).succAbove k)) = .ok y' ∧ (y'.Finite → SameValue y y') := by
  intro vals vals' x
  refine C121_multilinear_rectilinear (g := valAt (q64 0) ![3] vals') e e' he he' fma exGrids64 1
    ⟨by unfold IsSlice; decide, by decide, by decide, ?_⟩
    ⟨by unfold IsSlice; decide, by decide, by decide, ?_⟩ (samples_check ?_) (samples_check ?_) x
    (positions_check ?_)
  · intro k; fin_cases k <;> exact ⟨_, _, _, rfl, by decide +kernel⟩
  · intro k; fin_cases k; exact ⟨_, _, _, rfl, by decide +kernel⟩
  · decide +kernel
  · decide +kernel
  · decide +kernel

/-- The results of this case with nested evaluation are finite and equal. -/
example : multilinearRectilinearAt (.recursive 8) true exGrids64
      (([2, 2, 1 / 10, 1 / 10, 7, 7] : List ℚ).map q64) ![q64 (1 / 3), q64 7] =
    multilinearRectilinearAt (.recursive 8) true ![[q64 0, q64 (1 / 10), q64 4]]
      (([2, 1 / 10, 7] : List ℚ).map q64) ![q64 (1 / 3)] ∧
    ∃ y : F64, multilinearRectilinearAt (.recursive 8) true ![[q64 0, q64 (1 / 10), q64 4]]
      (([2, 1 / 10, 7] : List ℚ).map q64) ![q64 (1 / 3)] = .ok y ∧ y.Finite :=
  ⟨by decide +kernel, q64 (288692283805801 / 562949953421312), by decide +kernel, by decide +kernel⟩

/-- The condition on the result cannot be dropped: values of `3 · 2^1022` extrapolated overflow, and the
blend of two equal infinities is NaN. -/
theorem C121_counterexample :
    let v := q64 (3 * 2 ^ 1022)
    let grids : Fin 2 → List F64 := ![[q64 0, q64 1], [q64 0, q64 1]]
    multilinearRectilinearAt .flat false ![grids 0] [q64 0, v] ![q64 2] = .ok (Ieee.inf false) ∧
      multilinearRectilinearAt .flat false grids [q64 0, q64 0, v, v] ![q64 2, q64 (1 / 2)] =
        .ok Ieee.nan := by
  decide +kernel

theorem ratios_check {f : Format} {grid : List (Ieee f)}
    (h : ∀ p ∈ grid.zip (grid.tail.zip grid.tail.tail),
      (((p.2.1 -. p.1) /. (p.2.2 -. p.2.1)).Finite ∧
        0 < val ((p.2.1 -. p.1) /. (p.2.2 -. p.2.1))) ∧
      ((p.2.2 -. p.2.1) /. (p.2.1 -. p.1)).Finite ∧
        0 < val ((p.2.2 -. p.2.1) /. (p.2.1 -. p.1))) :
    ∀ i a b c, grid[i]? = some a → grid[i + 1]? = some b → grid[i + 2]? = some c →
      (((b -. a) /. (c -. b)).Finite ∧ 0 < val ((b -. a) /. (c -. b))) ∧
      ((c -. b) /. (b -. a)).Finite ∧ 0 < val ((c -. b) /. (b -. a)) := by
  intro i a b c ha hb hc
  refine h (a, b, c) (List.mem_of_getElem? (i := i) ?_)
  rw [List.getElem?_zip_eq_some]
  refine ⟨ha, ?_⟩
  rw [List.getElem?_zip_eq_some]
  exact ⟨by rw [List.getElem?_tail]; exact hb, by rw [List.getElem?_tail, List.getElem?_tail]; exact hc⟩

/-- Values on the second axis of a 4×5 table, repeated for every index of the first. -/
def exRow : List F64 := ([2, 1 / 10, -7, 16, 1 / 3] : List ℚ).map q64

/-- A 4×5 table whose values do not depend on the first index, multicubic interpolation. -/
example (e e' : Evaluator) (he : e.Fits 2) (he' : e'.Fits 1) (hk : SameKind true e e') (lin : Bool) :
    let x : Fin 2 → F64 := ![q64 (1 / 3), q64 (7 / 3)]
    ∃ y y', multicubicRectilinearAt e true exGrids64c (exRow ++ exRow ++ exRow ++ exRow) lin x = .ok y ∧
      multicubicRectilinearAt e' true (fun k : Fin 1 => exGrids64c ((0 : Fin 2).succAbove k)) exRow lin
        (fun k => x ((0 : Fin 2).succAbove k)) = .ok y' ∧ (y'.Finite → SameValue y y') := by
  intro x
  refine C121_multicubic_rectilinear (g := valAt (q64 0) ![5] exRow) e e' he he' true hk exGrids64c 0 lin
    ⟨by unfold IsSlice; decide, by decide, by decide, ?_⟩
    ⟨by unfold IsSlice; decide, by decide, by decide, ?_⟩ (samples_check ?_) (samples_check ?_) x
    (positions_check ?_) (ratios_check ?_)
  · intro k; fin_cases k <;> exact ⟨_, _, _, rfl, by decide +kernel⟩
  · intro k; fin_cases k; exact ⟨_, _, _, rfl, by decide +kernel⟩
  · decide +kernel
  · decide +kernel
  · decide +kernel
  · decide +kernel

/-- The constant table `1/10` on this grid. -/
example (e : Evaluator) (he : e.Fits 2) (fma lin : Bool) :
    ∃ r, multicubicRectilinearAt e fma exGrids64c (List.replicate 20 (q64 (1 / 10))) lin
      ![q64 (1 / 3), q64 (-7 / 3)] = .ok r ∧ r.Finite ∧ val r = val (q64 (1 / 10)) := by
  have hr : ∀ k, ∀ p ∈ (exGrids64c k).zip ((exGrids64c k).tail.zip (exGrids64c k).tail.tail),
      (((p.2.1 -. p.1) /. (p.2.2 -. p.2.1)).Finite ∧
        0 < val ((p.2.1 -. p.1) /. (p.2.2 -. p.2.1))) ∧
      ((p.2.2 -. p.2.1) /. (p.2.1 -. p.1)).Finite ∧
        0 < val ((p.2.2 -. p.2.1) /. (p.2.1 -. p.1)) := by decide +kernel
  refine C67_multicubic_rectilinear (exactIfFloat _) two_exact e he fma exGrids64c _ lin
    ⟨by unfold IsSlice; decide, by decide, by decide, ?_⟩ _ ?_ _ (fun k => positions_check ?_) ?_
  · intro k; fin_cases k <;> exact ⟨_, _, _, rfl, by decide +kernel⟩
  · intro v hv; rw [List.eq_of_mem_replicate hv]; exact ⟨by decide +kernel, rfl⟩
  · revert k; decide +kernel
  · intro k i a b c ha hb hc
    have := ratios_check (hr k) i a b c ha hb hc
    exact ⟨usableRatio this.1.1 this.1.2, usableRatio this.2.1 this.2.2⟩

theorem regularPositions_check {f : Format} {dim : Nat} {start step x : Ieee f}
    (h : ∀ i : Fin dim, ∀ g ∈ (ofUsize i.val : Option (Ieee f)),
      ∀ p ∈ [start +. step *. g, FloatOps.mulAdd step g start],
      UsablePosition Ieee.Finite ((x -. p) /. step) ∧
      UsablePosition Ieee.Finite ((x -. p) /. step -. one) ∧
      UsablePosition Ieee.Finite (-. ((x -. p) /. step))) :
    RegularPositionsFinite Ieee.Finite dim start step x := by
  intro i g p hi hg hp
  refine h ⟨i, hi⟩ g hg p ?_
  rcases hp with rfl | rfl <;> simp

/-- Regular grids: step `1/10` on the axis that is left out. -/
example (e e' : Evaluator) (he : e.Fits 2) (he' : e'.Fits 1) (fma : Bool) (hk : SameKind fma e e')
    (lin : Bool) :
    let dims : Fin 2 → Nat := ![4, 5]
    let starts : Fin 2 → F64 := ![q64 0, q64 (-1)]
    let steps : Fin 2 → F64 := ![q64 (1 / 10), q64 2]
    let vals := exRow ++ exRow ++ exRow ++ exRow
    let x : Fin 2 → F64 := ![q64 (1 / 3), q64 (14 / 10)]
    let dims' := fun k : Fin 1 => dims ((0 : Fin 2).succAbove k)
    let starts' := fun k : Fin 1 => starts ((0 : Fin 2).succAbove k)
    let steps' := fun k : Fin 1 => steps ((0 : Fin 2).succAbove k)
    let x' := fun k : Fin 1 => x ((0 : Fin 2).succAbove k)
    (∀ y, multilinearRegularAt e fma dims starts steps vals x = .ok y →
      ∃ y', multilinearRegularAt e' fma dims' starts' steps' exRow x' = .ok y' ∧
        (y'.Finite → SameValue y y')) ∧
    (∀ y, multicubicRegularAt e fma dims starts steps vals lin x = .ok y →
      ∃ y', multicubicRegularAt e' fma dims' starts' steps' exRow lin x' = .ok y' ∧
        (y'.Finite → SameValue y y')) ∧
    (∀ y, nearestRegularAt fma dims starts steps vals x = .ok y →
      nearestRegularAt fma dims' starts' steps' exRow x' = .ok y) := by
  intro dims starts steps vals x dims' starts' steps' x'
  have hG : ∀ m ≤ 4, RegularAccepted m dims steps vals := fun m hm =>
    ⟨by unfold IsSlice; decide, by decide, fun k => hm.trans (by revert k; decide),
      by decide +kernel⟩
  have hG' : ∀ m ≤ 4, RegularAccepted m dims' steps' exRow := fun m hm =>
    ⟨by unfold IsSlice; decide, by decide, fun k => hm.trans (by revert k; decide),
      by decide +kernel⟩
  have hs : Samples dims vals fun loc => valAt (q64 0) ![5] exRow fun k : Fin 1 =>
      loc ((0 : Fin 2).succAbove k) := samples_check (by decide +kernel)
  have hs' : Samples dims' exRow (valAt (q64 0) ![5] exRow) := samples_check (by decide +kernel)
  have hp : RegularPositionsFinite Ieee.Finite (dims 0) (starts 0) (steps 0) (x 0) :=
    regularPositions_check (by decide +kernel)
  exact ⟨C121_multilinear_regular e e' he he' fma hk starts steps 0 (hG 2 (by omega))
      (hG' 2 (by omega)) hs hs' x hp,
    C121_multicubic_regular e e' he he' fma hk starts steps 0 lin (hG 4 le_rfl) (hG' 4 le_rfl) hs hs'
      x hp,
    C121_nearest_regular fma starts steps 0 (hG 2 (by omega)) (hG' 2 (by omega)) hs hs' x⟩

/-- Both calls succeed in this case, and the results are finite. -/
example : ∃ y y' : F64, y.Finite ∧ SameValue y y' ∧
    multicubicRegularAt .flat true ![4, 5] ![q64 0, q64 (-1)] ![q64 (1 / 10), q64 2]
      (exRow ++ exRow ++ exRow ++ exRow) true ![q64 (1 / 3), q64 (14 / 10)] = .ok y ∧
    multicubicRegularAt .flat true ![5] ![q64 (-1)] ![q64 2] exRow true ![q64 (14 / 10)] = .ok y' :=
  ⟨q64 (-3307443566340891 / 2251799813685248), q64 (-3307443566340891 / 2251799813685248),
    by decide +kernel, by decide +kernel, by decide +kernel, by decide +kernel⟩

/-- The constant table `1/10` on a regular 4×5 grid, below its first axis and above its second. -/
example (e : Evaluator) (he : e.Fits 2) (fma lin : Bool) (r : F64)
    (hr : multicubicRegularAt e fma ![4, 5] ![q64 0, q64 (-1)] ![q64 (1 / 10), q64 2]
      (List.replicate 20 (q64 (1 / 10))) lin ![q64 (-1 / 3), q64 12] = .ok r) :
    r.Finite ∧ val r = val (q64 (1 / 10)) := by
  refine C67_multicubic_regular (exactIfFloat _) (totalOfUsize _) two_exact e he fma _ _ _ _ lin
    ⟨by unfold IsSlice; decide, by decide, by decide, by decide +kernel⟩ _ ?_ _
    (fun k => regularPositions_check ?_) r hr
  · intro v hv; rw [List.eq_of_mem_replicate hv]; exact ⟨by decide +kernel, rfl⟩
  · revert k; decide +kernel

example : multicubicRegularAt .flat false ![4, 5] ![q64 0, q64 (-1)] ![q64 (1 / 10), q64 2]
    (List.replicate 20 (q64 (1 / 10))) false ![q64 (-1 / 3), q64 12] = .ok (q64 (1 / 10)) := by
  decide +kernel

end Examples
end Interpn
