import Verif.Lemmas.ValueScale
import Verif.Props.DropAxis
import Verif.Props.Contract

/-! C124: measuring the stored values in a unit that differs by a power of two changes the result by
exactly this factor. -/

set_option autoImplicit false
set_option exponentiation.threshold 1100

namespace Interpn
open FloatOps Ieee

section
variable {f : Format} {N : Nat} (k s : Nat) (m : Int) {vals vals' : List (Ieee f)}

/-- C124, multilinear interpolation on rectilinear grids. `vals'` is `vals` multiplied by `2^k`; the
values are multiples of `2^m`, and the positions of the coordinates in the cells have at most `s` binary
places. If `2^(m - N * s)` is not below the smallest subnormal number, the two calls end in the same way,
and the results, unless the second one has overflowed, differ by exactly the factor `2^k`. -/
theorem C124_multilinear_rectilinear (e : Evaluator) (he : e.Fits N) (fma : Bool)
    (grids : Fin N → List (Ieee f)) (hs : IsSlice vals)
    (hv : List.Forall₂ (ScaledBy k) vals vals') (hm : ∀ v ∈ vals, Multiple m (val v))
    (x : Fin N → Ieee f) (hp : ∀ j, PlacesAtMost s (grids j) (x j))
    (hl : f.emin - (f.p - 1 : Int) ≤ m - N * s) :
    SameOutcome (fun y y' => Ieee.Finite y' → ScaledBy k y y')
      (multilinearRectilinearAt e fma grids vals x) (multilinearRectilinearAt e fma grids vals' x) := by
  rw [multilinearRectilinearAt_eq e he fma grids vals hs,
    multilinearRectilinearAt_eq e he fma grids vals' (forall₂_slice hv hs),
    checkRectilinear_vals hv.length_eq.symm]
  refine sameOutcome_bind _ fun _ hc => .ok fun hfin => ?_
  obtain ⟨h1, h2, h3, h4⟩ := (checkRectilinear_eq_ok le_rfl).1 hc
  have hg : GoodVals 2 (fun k => (grids k).length) vals := goodVals_grids h1 h2 h3
  refine ((up_axisByAxis (k := k) (m := m) (L := s) hl (fun j i => i < (grids j).length) _ _ _ ?_
    fun loc hl => up_valAt hv hm hg.len loc hl) hfin).1
  intro j m' v v' hm' hvv
  have hb := linCell_bound (hg.min j) (x j)
  refine Up.lerp ?_ fma hm' fun p => hvv _ (by have := p.isLt; omega)
  refine (hp j (linCell (grids j) (x j)) _ _ ?_ ?_).1
  · dsimp only; rw [List.getElem?_eq_getElem (by omega), List.getD_eq_getElem _ _ (by omega)]
  · dsimp only; rw [List.getElem?_eq_getElem (by omega), List.getD_eq_getElem _ _ (by omega)]

/-- C124, multilinear interpolation on regular grids. -/
theorem C124_multilinear_regular (e : Evaluator) (he : e.Fits N) (fma : Bool)
    (dims : Fin N → Nat) (starts steps : Fin N → Ieee f) (hs : IsSlice vals)
    (hv : List.Forall₂ (ScaledBy k) vals vals') (hm : ∀ v ∈ vals, Multiple m (val v))
    (x : Fin N → Ieee f) (hp : ∀ j, RegularPlacesAtMost s (dims j) (starts j) (steps j) (x j))
    (hl : f.emin - (f.p - 1 : Int) ≤ m - N * s) :
    SameOutcome (fun y y' => Ieee.Finite y' → ScaledBy k y y')
      (multilinearRegularAt e fma dims starts steps vals x)
      (multilinearRegularAt e fma dims starts steps vals' x) := by
  have ha := multilinearRegularAt_eq e he fma dims starts steps vals hs x
  have hb := multilinearRegularAt_eq e he fma dims starts steps vals' (forall₂_slice hv hs) x
  rw [checkRegular_vals hv.length_eq.symm] at hb
  by_cases hn : ∃ k, linRegAxis (e.fmaLoc fma) (dims k) (starts k) (steps k) (x k) = none
  · rw [ha.2 hn, hb.2 hn]
    exact sameOutcome_bind _ fun _ _ => .err _
  · have : ∀ k, ∃ a, linRegAxis (e.fmaLoc fma) (dims k) (starts k) (steps k) (x k) = some a :=
      fun k => Option.ne_none_iff_exists'.1 fun hk => hn ⟨k, hk⟩
    choose a hax using this
    rw [ha.1 a hax, hb.1 a hax]
    refine sameOutcome_bind _ fun _ hc => .ok fun hfin => ?_
    obtain ⟨h1, h2, h3, h4⟩ := checkRegular_eq_ok.1 hc
    have hg : GoodVals 2 dims vals := goodVals_of h1 h2 h3
    refine ((up_axisByAxis (k := k) (m := m) (L := s) hl (fun j i => i < dims j) _ _ _ ?_
      fun loc hl => up_valAt hv hm hg.len loc hl) hfin).1
    intro j m' v v' hm' hvv
    have hbd := linRegAxis_bound (hg.min j) (hax j)
    refine Up.lerp ?_ fma hm' fun p => hvv _ (by have := p.isLt; omega)
    have haj := hax j
    generalize e.fmaLoc fma = fl at haj
    revert hbd haj
    generalize a j = aj
    intro hbd haj
    unfold linRegAxis at haj
    split at haj
    · cases haj
    · split at haj
      · cases haj
      · next fI hI =>
        rw [Option.some.injEq] at haj
        subst haj
        refine hp j _ fI _ (by simp only at hbd; omega) hI ?_
        cases fl
        · exact .inl rfl
        · exact .inr rfl

/-- C124, multicubic interpolation on regular grids. Every axis can cost `3 * s + 1` binary places. -/
theorem C124_multicubic_regular (e : Evaluator) (he : e.Fits N) (fma : Bool)
    (dims : Fin N → Nat) (starts steps : Fin N → Ieee f) (lin : Bool) (hs : IsSlice vals)
    (hv : List.Forall₂ (ScaledBy k) vals vals') (hm : ∀ v ∈ vals, Multiple m (val v))
    (x : Fin N → Ieee f) (hp : ∀ j, RegularPlacesAtMost s (dims j) (starts j) (steps j) (x j))
    (hl : f.emin - (f.p - 1 : Int) ≤ m - N * (3 * s + 1 : Nat)) :
    SameOutcome (fun y y' => Ieee.Finite y' → ScaledBy k y y')
      (multicubicRegularAt e fma dims starts steps vals lin x)
      (multicubicRegularAt e fma dims starts steps vals' lin x) := by
  rw [multicubicRegularAt_eq e he fma (totalOfUsize f) dims starts steps vals lin hs,
    multicubicRegularAt_eq e he fma (totalOfUsize f) dims starts steps vals' lin (forall₂_slice hv hs),
    checkRegular_vals hv.length_eq.symm]
  refine sameOutcome_bind _ fun _ hc => ?_
  obtain ⟨h1, h2, h3, h4⟩ := checkRegular_eq_ok.1 hc
  have hg : GoodVals 4 dims vals := goodVals_of h1 h2 h3
  refine sameOutcome_bind _ fun a ha => .ok fun hfin => ?_
  have hax : ∀ k, cubRegAxis (dims k) (starts k) (steps k) (x k) = .ok (a k) := by
    rcases axisLoop_cases N (0, Saturation.none, (zero : Ieee f)) (fun i => do
        cubRegAxis (← aget dims i) (← aget starts i) (← aget steps i) (← aget x i)) with
      ⟨b, hb, e⟩ | ⟨_, _, _, _, e⟩ | ⟨_, _, _, e⟩
    · rw [e] at ha
      cases ha
      intro k
      have := hb k
      simpa only [aget_fin, Res.ok_bind] using this
    · rw [e] at ha; cases ha
    · rw [e] at ha; cases ha
  refine ((up_axisByAxis (k := k) (m := m) (L := 3 * s + 1) hl (fun j i => i < dims j) _ _ _ ?_
    fun loc hl => up_valAt hv hm hg.len loc hl) hfin).1
  intro j m' v v' hm' hvv
  have hbd := cubRegAxis_bound (hg.min j) (hax j)
  have ht : Multiple (-s) (val (a j).2.2) := by
    have haj := hax j
    revert hbd haj
    generalize a j = aj
    intro hbd haj
    unfold cubRegAxis at haj
    split at haj
    · cases haj
    · split at haj
      · cases haj
      · split at haj
        · cases haj
        · next fI hI =>
          rw [Res.ok.injEq] at haj
          subst haj
          exact hp j _ fI _ (by simp only at hbd; omega) hI (.inl rfl)
  have := Up.cubicInnerRegular ht fma (e.fmaLow fma) (a j).2.1 lin (by push_cast at hm'; exact hm')
    (v := fun p => v ((a j).1 + p.val)) (v' := fun p => v' ((a j).1 + p.val)) (k := k)
    fun p => hvv _ (by have := p.isLt; omega)
  push_cast
  exact this

/-- C124, multicubic interpolation on rectilinear grids. The widths of adjacent cells have ratios between
`2^-r` and `2^r`; every axis can cost `3 * s + 2 * (r + p)` binary places. -/
theorem C124_multicubic_rectilinear (r : Nat) (e : Evaluator) (he : e.Fits N) (fma : Bool)
    (grids : Fin N → List (Ieee f)) (lin : Bool) (hs : IsSlice vals)
    (hv : List.Forall₂ (ScaledBy k) vals vals') (hm : ∀ v ∈ vals, Multiple m (val v))
    (x : Fin N → Ieee f) (hp : ∀ j, PlacesAtMost s (grids j) (x j))
    (hr : ∀ j, RatiosWithin r (grids j))
    (hl : f.emin - (f.p - 1 : Int) ≤ m - N * (3 * s + 2 * (r + f.p) : Nat)) :
    SameOutcome (fun y y' => Ieee.Finite y' → ScaledBy k y y')
      (multicubicRectilinearAt e fma grids vals lin x)
      (multicubicRectilinearAt e fma grids vals' lin x) := by
  rw [multicubicRectilinearAt_eq e he fma grids vals lin hs,
    multicubicRectilinearAt_eq e he fma grids vals' lin (forall₂_slice hv hs),
    checkRectilinear_vals hv.length_eq.symm]
  refine sameOutcome_bind _ fun _ hc => .ok fun hfin => ?_
  obtain ⟨h1, h2, h3, h4⟩ := (checkRectilinear_eq_ok (by omega)).1 hc
  have hg : GoodVals 4 (fun k => (grids k).length) vals := goodVals_grids h1 h2 h3
  refine ((up_axisByAxis (k := k) (m := m) (L := 3 * s + 2 * (r + f.p)) hl
    (fun j i => i < (grids j).length) _ _ _ ?_
    fun loc hl => up_valAt hv hm hg.len loc hl) hfin).1
  intro j m' v v' hm' hvv
  have hb := cubCell_bound (hg.min j) (x j)
  have hget : ∀ p : Fin 4, (grids j)[cubCell (grids j) (x j) + p.val]? =
      some ((grids j).getD (cubCell (grids j) (x j) + p.val) zero) := fun p => by
    have := p.isLt
    rw [List.getElem?_eq_getElem (by omega), List.getD_eq_getElem _ _ (by omega)]
  have := Up.cubicInnerRectilinear (k := k) (m := m') (s := s) (R := r) fma (e.fmaBdry fma)
    (e.fmaBdry fma)
    (g := fun p => (grids j).getD (cubCell (grids j) (x j) + p.val) zero) (x := x j)
    (satRectilinear (grids j).length (cellsBelow (grids j) (x j))) lin
    (v := fun p => v (cubCell (grids j) (x j) + p.val))
    (v' := fun p => v' (cubCell (grids j) (x j) + p.val))
    (fun p => hvv _ (by have := p.isLt; omega)) (by push_cast at hm'; exact hm') ?_ ?_
  · push_cast
    exact this
  · intro a b hab
    exact hp j (cubCell (grids j) (x j) + a.val) _ _ (hget a)
      (by rw [Nat.add_assoc, ← hab]; exact hget b)
  · intro a b c hab hbc
    have := hr j (cubCell (grids j) (x j) + a.val) _ _ _ (hget a)
      (by rw [Nat.add_assoc, ← hab]; exact hget b)
      (by rw [show cubCell (grids j) (x j) + a.val + 2 = cubCell (grids j) (x j) + c.val by omega]
          exact hget c)
    exact ⟨⟨this.1, this.2.2.1⟩, this.2.1, this.2.2.2⟩

/-- C124, nearest-neighbour interpolation on rectilinear grids: no condition is needed. -/
theorem C124_nearest_rectilinear (grids : Fin N → List (Ieee f)) (hs : IsSlice vals)
    (hv : List.Forall₂ (ScaledBy k) vals vals') (x : Fin N → Ieee f) :
    SameOutcome (ScaledBy k) (nearestRectilinearAt grids vals x) (nearestRectilinearAt grids vals' x) :=
  DataRel.nearestRectilinearAt grids hv hs x

/-- C124, nearest-neighbour interpolation on regular grids. -/
theorem C124_nearest_regular (fma : Bool) (dims : Fin N → Nat) (starts steps : Fin N → Ieee f)
    (hs : IsSlice vals) (hv : List.Forall₂ (ScaledBy k) vals vals') (x : Fin N → Ieee f) :
    SameOutcome (ScaledBy k) (nearestRegularAt fma dims starts steps vals x)
      (nearestRegularAt fma dims starts steps vals' x) :=
  DataRel.nearestRegularAt fma dims starts steps hv hs x

end

section Examples

theorem multiple_check {n : Nat} {q : ℚ} (h : (q * 2 ^ n).den = 1) : Multiple (-(n : Int)) q := by
  refine ⟨(q * 2 ^ n).num, ?_⟩
  have := Rat.coe_int_num_of_den_eq_one h
  rw [this, zpow_neg, zpow_natCast]
  field_simp

theorem places_check {f : Format} {s : Nat} {grid : List (Ieee f)} {x : Ieee f}
    (h : ∀ p ∈ grid.zip grid.tail, (val ((x -. p.1) /. (p.2 -. p.1)) * 2 ^ s).den = 1 ∧
      (val ((-. (x -. p.2)) /. (p.2 -. p.1)) * 2 ^ s).den = 1) : PlacesAtMost s grid x := by
  intro i a b ha hb
  have := h (a, b) (List.mem_of_getElem? (i := i) (by
    rw [List.getElem?_zip_eq_some]
    exact ⟨ha, by rw [List.getElem?_tail]; exact hb⟩))
  exact ⟨multiple_check this.1, multiple_check this.2⟩

theorem regularPlaces_check {f : Format} {s dim : Nat} {start step x : Ieee f}
    (h : ∀ i : Fin dim, ∀ g ∈ (ofUsize i.val : Option (Ieee f)),
      ∀ p ∈ [start +. step *. g, FloatOps.mulAdd step g start],
      (val ((x -. p) /. step) * 2 ^ s).den = 1) : RegularPlacesAtMost s dim start step x := by
  intro i g p hi hg hp
  refine multiple_check (h ⟨i, hi⟩ g hg p ?_)
  rcases hp with rfl | rfl <;> simp

theorem ratiosWithin_check {f : Format} {r : Nat} {grid : List (Ieee f)}
    (h : ∀ p ∈ grid.zip (grid.tail.zip grid.tail.tail),
      ((p.2.1 -. p.1) /. (p.2.2 -. p.2.1)).Finite ∧ ((p.2.2 -. p.2.1) /. (p.2.1 -. p.1)).Finite ∧
      (1 / 2 ^ r ≤ val ((p.2.1 -. p.1) /. (p.2.2 -. p.2.1)) ∧
        val ((p.2.1 -. p.1) /. (p.2.2 -. p.2.1)) ≤ 2 ^ r) ∧
      1 / 2 ^ r ≤ val ((p.2.2 -. p.2.1) /. (p.2.1 -. p.1)) ∧
        val ((p.2.2 -. p.2.1) /. (p.2.1 -. p.1)) ≤ 2 ^ r) : RatiosWithin r grid := by
  intro i a b c ha hb hc
  refine h (a, b, c) (List.mem_of_getElem? (i := i) ?_)
  rw [List.getElem?_zip_eq_some]
  refine ⟨ha, ?_⟩
  rw [List.getElem?_zip_eq_some]
  exact ⟨by rw [List.getElem?_tail]; exact hb, by rw [List.getElem?_tail, List.getElem?_tail]; exact hc⟩

/-- Values, and the same values in a unit smaller by the factor 1024. -/
def exUnits (q : List ℚ) : List F64 × List F64 := (q.map q64, q.map fun q => q64 (1024 * q))

/-- Values of any size on a 3×2 grid; `7` is outside the second axis. -/
example (e : Evaluator) (he : e.Fits 2) (fma : Bool) :
    let v := exUnits [2, 1 / 3, 1 / 10, -7, 7, 1]
    let x : Fin 2 → F64 := ![q64 (1 / 3), q64 7]
    SameOutcome (fun y y' => Ieee.Finite y' → ScaledBy 10 y y')
      (multilinearRectilinearAt e fma exGrids64 v.1 x)
      (multilinearRectilinearAt e fma exGrids64 v.2 x) := by
  intro v x
  have hp : ∀ j : Fin 2, ∀ p ∈ (exGrids64 j).zip (exGrids64 j).tail,
      (val ((x j -. p.1) /. (p.2 -. p.1)) * 2 ^ 60).den = 1 ∧
      (val ((-. (x j -. p.2)) /. (p.2 -. p.1)) * 2 ^ 60).den = 1 := by
    decide +kernel
  have hm : ∀ u ∈ v.1, (val u * 2 ^ 60).den = 1 := by decide +kernel
  have hv : List.Forall₂ (ScaledBy 10) v.1 v.2 := by decide +kernel
  exact C124_multilinear_rectilinear 10 60 (-(60 : Nat)) e he fma exGrids64 (by unfold IsSlice; decide)
    hv (fun u hu => multiple_check (hm u hu)) x (fun j => places_check (hp j)) (by decide)

/-- The results of this case with nested evaluation; they have been rounded. -/
example : let v := exUnits [2, 1 / 3, 1 / 10, -7, 7, 1]
    ∃ y y' : F64, y'.Finite ∧ ScaledBy 10 y y' ∧
      multilinearRectilinearAt (.recursive 8) true exGrids64 v.1 ![q64 (1 / 3), q64 7] = .ok y ∧
      multilinearRectilinearAt (.recursive 8) true exGrids64 v.2 ![q64 (1 / 3), q64 7] = .ok y' := by
  intro v
  exact ⟨Res.getOr zero
      (multilinearRectilinearAt (.recursive 8) true exGrids64 v.1 ![q64 (1 / 3), q64 7]),
    Res.getOr zero
      (multilinearRectilinearAt (.recursive 8) true exGrids64 v.2 ![q64 (1 / 3), q64 7]),
    by decide +kernel, by decide +kernel, by decide +kernel, by decide +kernel⟩

/-- The first condition cannot be dropped: half of the smallest subnormal number is rounded to 0. -/
theorem C124_counterexample :
    let g : Fin 1 → List F64 := ![[q64 0, q64 1]]
    let u := q64 (1 / 2 ^ 1074)
    let u' := q64 (1 / 2 ^ 1073)
    ScaledBy 1 u u' ∧
      multilinearRectilinearAt .flat false g [q64 0, u] ![q64 (1 / 2)] = .ok (q64 0) ∧
      multilinearRectilinearAt .flat false g [q64 0, u'] ![q64 (1 / 2)] = .ok u ∧
      ¬ ScaledBy 1 (q64 0) u := by
  decide +kernel

/-- Multicubic interpolation on a rectilinear 4×5 grid. -/
example (e : Evaluator) (he : e.Fits 2) (fma lin : Bool) :
    let v := exUnits [2, 1 / 3, 1 / 10, -7, 7, 1, 0, 5, 1 / 7, 2, 3, 3, 9, -1 / 9, 4, 0, 1, 6, 8, -2]
    let x : Fin 2 → F64 := ![q64 (1 / 3), q64 (-7 / 3)]
    SameOutcome (fun y y' => Ieee.Finite y' → ScaledBy 10 y y')
      (multicubicRectilinearAt e fma exGrids64c v.1 lin x)
      (multicubicRectilinearAt e fma exGrids64c v.2 lin x) := by
  intro v x
  have hp : ∀ j : Fin 2, ∀ p ∈ (exGrids64c j).zip (exGrids64c j).tail,
      (val ((x j -. p.1) /. (p.2 -. p.1)) * 2 ^ 60).den = 1 ∧
      (val ((-. (x j -. p.2)) /. (p.2 -. p.1)) * 2 ^ 60).den = 1 := by
    decide +kernel
  have hr : ∀ j : Fin 2, ∀ p ∈ (exGrids64c j).zip ((exGrids64c j).tail.zip (exGrids64c j).tail.tail),
      ((p.2.1 -. p.1) /. (p.2.2 -. p.2.1)).Finite ∧ ((p.2.2 -. p.2.1) /. (p.2.1 -. p.1)).Finite ∧
      (1 / 2 ^ 8 ≤ val ((p.2.1 -. p.1) /. (p.2.2 -. p.2.1)) ∧
        val ((p.2.1 -. p.1) /. (p.2.2 -. p.2.1)) ≤ 2 ^ 8) ∧
      1 / 2 ^ 8 ≤ val ((p.2.2 -. p.2.1) /. (p.2.1 -. p.1)) ∧
        val ((p.2.2 -. p.2.1) /. (p.2.1 -. p.1)) ≤ 2 ^ 8 := by
    decide +kernel
  have hm : ∀ u ∈ v.1, (val u * 2 ^ 60).den = 1 := by decide +kernel
  have hv : List.Forall₂ (ScaledBy 10) v.1 v.2 := by decide +kernel
  exact C124_multicubic_rectilinear 10 60 (-(60 : Nat)) 8 e he fma exGrids64c lin
    (by unfold IsSlice; decide) hv (fun u hu => multiple_check (hm u hu)) x
    (fun j => places_check (hp j)) (fun j => ratiosWithin_check (hr j)) (by decide)

/-- Regular 4×5 grids, steps `1/10` and `2`. -/
example (e : Evaluator) (he : e.Fits 2) (fma lin : Bool) :
    let v := exUnits [2, 1 / 3, 1 / 10, -7, 7, 1, 0, 5, 1 / 7, 2, 3, 3, 9, -1 / 9, 4, 0, 1, 6, 8, -2]
    let dims : Fin 2 → Nat := ![4, 5]
    let starts : Fin 2 → F64 := ![q64 0, q64 (-1)]
    let steps : Fin 2 → F64 := ![q64 (1 / 10), q64 2]
    let x : Fin 2 → F64 := ![q64 (1 / 3), q64 (-14 / 10)]
    SameOutcome (fun y y' => Ieee.Finite y' → ScaledBy 10 y y')
      (multilinearRegularAt e fma dims starts steps v.1 x)
      (multilinearRegularAt e fma dims starts steps v.2 x) ∧
    SameOutcome (fun y y' => Ieee.Finite y' → ScaledBy 10 y y')
      (multicubicRegularAt e fma dims starts steps v.1 lin x)
      (multicubicRegularAt e fma dims starts steps v.2 lin x) ∧
    SameOutcome (ScaledBy 10) (nearestRegularAt fma dims starts steps v.1 x)
      (nearestRegularAt fma dims starts steps v.2 x) := by
  intro v dims starts steps x
  have hp : ∀ j, RegularPlacesAtMost 60 (dims j) (starts j) (steps j) (x j) := by
    intro j
    refine regularPlaces_check ?_
    revert j
    decide +kernel
  have hm : ∀ u ∈ v.1, (val u * 2 ^ 60).den = 1 := by decide +kernel
  have hm := fun u hu => multiple_check (hm u hu)
  have hv : List.Forall₂ (ScaledBy 10) v.1 v.2 := by decide +kernel
  have hs : IsSlice v.1 := by unfold IsSlice; decide
  exact ⟨C124_multilinear_regular 10 60 (-(60 : Nat)) e he fma dims starts steps hs hv hm x hp (by decide),
    C124_multicubic_regular 10 60 (-(60 : Nat)) e he fma dims starts steps lin hs hv hm x hp (by decide),
    C124_nearest_regular 10 fma dims starts steps hs hv x⟩

/-- The two calls to multicubic interpolation succeed in this case. -/
example :
    let v := exUnits [2, 1 / 3, 1 / 10, -7, 7, 1, 0, 5, 1 / 7, 2, 3, 3, 9, -1 / 9, 4, 0, 1, 6, 8, -2]
    let r := fun w => multicubicRegularAt (N := 2) .flat true ![4, 5] ![q64 0, q64 (-1)]
      ![q64 (1 / 10), q64 2] w false ![q64 (1 / 3), q64 (-14 / 10)]
    ∃ y y' : F64, y'.Finite ∧ val y ≠ 0 ∧ r v.1 = .ok y ∧ r v.2 = .ok y' := by
  intro v r
  exact ⟨Res.getOr zero (r v.1), Res.getOr zero (r v.2),
    by decide +kernel, by decide +kernel, by decide +kernel, by decide +kernel⟩

end Examples

end Interpn
