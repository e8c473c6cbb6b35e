import Verif.Lemmas.Api
import Verif.Lemmas.RatOps
import Verif.Spec.Locality
import Verif.Lemmas.OneDim

/-! C15: evaluation reads only the values of one cell. C16: nearest-neighbor and hold
interpolation return stored values. Both for every arithmetic. -/

set_option autoImplicit false

namespace Interpn
open FloatOps

variable {T : Type} [FloatOps T] {N : Nat}

omit [FloatOps T] in
theorem valAt_congr {d : T} {dims loc : Fin N → Nat} {vals vals' : List T}
    (h : vals[cIndex dims loc]? = vals'[cIndex dims loc]?) :
    valAt d dims vals loc = valAt d dims vals' loc := by
  unfold valAt
  rw [List.getD_eq_getElem?_getD, List.getD_eq_getElem?_getD, h]

omit [FloatOps T] in
theorem isSlice_of_length {vals vals' : List T} (hs : IsSlice vals)
    (h : vals.length = vals'.length) : IsSlice vals' := by
  unfold IsSlice at *; rw [← h]; exact hs

/-- Multilinear on regular grids: the result depends on 2 nodes per axis. -/
theorem C15_multilinear_regular (e : Evaluator) (he : e.Fits N) (fma : Bool) (dims : Fin N → Nat)
    (hd : ∀ k, 2 ≤ dims k) (starts steps x : Fin N → T) :
    ReadsBlock 2 dims fun vals => multilinearRegularAt e fma dims starts steps vals x := by
  by_cases h : ∀ k, ∃ a, linRegAxis (e.fmaLoc fma) (dims k) (starts k) (steps k) (x k) = some a
  · choose a ha using h
    refine ⟨fun k => (a k).1, fun k => linRegAxis_bound (hd k) (ha k), ?_⟩
    intro vals vals' hs hl hv
    simp only
    rw [(multilinearRegularAt_eq e he fma dims starts steps vals hs x).1 a ha,
      (multilinearRegularAt_eq e he fma dims starts steps vals' (isSlice_of_length hs hl) x).1 a ha,
      checkRegular_vals hl]
    congr 1; funext _; congr 1
    apply axisByAxis_congr (fun k i => (a k).1 ≤ i ∧ i < (a k).1 + 2)
    · intro k f f' hf; congr 1; funext p; exact hf _ ⟨by omega, by omega⟩
    · intro loc hloc; exact valAt_congr (hv loc hloc)
  · push Not at h
    obtain ⟨k, hk⟩ := h
    have hk : ∃ k, linRegAxis (e.fmaLoc fma) (dims k) (starts k) (steps k) (x k) = none :=
      ⟨k, by cases h : linRegAxis (e.fmaLoc fma) (dims k) (starts k) (steps k) (x k) with
        | none => rfl
        | some a => exact absurd h (hk a)⟩
    refine ⟨fun _ => 0, fun k => by have := hd k; omega, ?_⟩
    intro vals vals' hs hl _
    simp only
    rw [(multilinearRegularAt_eq e he fma dims starts steps vals hs x).2 hk,
      (multilinearRegularAt_eq e he fma dims starts steps vals' (isSlice_of_length hs hl) x).2 hk,
      checkRegular_vals hl]

/-- Multilinear on rectilinear grids. -/
theorem C15_multilinear_rectilinear (e : Evaluator) (he : e.Fits N) (fma : Bool)
    (grids : Fin N → List T) (hd : ∀ k, 2 ≤ (grids k).length) (x : Fin N → T) :
    ReadsBlock 2 (fun k => (grids k).length)
      fun vals => multilinearRectilinearAt e fma grids vals x := by
  refine ⟨fun k => linCell (grids k) (x k), fun k => linCell_bound (hd k) _, ?_⟩
  intro vals vals' hs hl hv
  simp only
  rw [multilinearRectilinearAt_eq e he fma grids vals hs x,
    multilinearRectilinearAt_eq e he fma grids vals' (isSlice_of_length hs hl) x,
    checkRectilinear_vals hl]
  congr 1; funext _; congr 1
  apply axisByAxis_congr
    (fun k i => linCell (grids k) (x k) ≤ i ∧ i < linCell (grids k) (x k) + 2)
  · intro k f f' hf; unfold linRule; congr 1; funext p; exact hf _ ⟨by omega, by omega⟩
  · intro loc hloc; exact valAt_congr (hv loc hloc)

/-- Multicubic on regular grids: 4 nodes per axis. -/
theorem C15_multicubic_regular (hT : TotalOfUsize T) (e : Evaluator) (he : e.Fits N) (fma : Bool)
    (dims : Fin N → Nat) (hd : ∀ k, 4 ≤ dims k) (starts steps x : Fin N → T) (lin : Bool) :
    ReadsBlock 4 dims fun vals => multicubicRegularAt e fma dims starts steps vals lin x := by
  have other : (∀ a, axisLoop N (0, .none, zero) (fun i => do
      cubRegAxis (← aget dims i) (← aget starts i) (← aget steps i) (← aget x i)) ≠ .ok a) →
      ReadsBlock 4 dims fun vals => multicubicRegularAt e fma dims starts steps vals lin x := by
    intro hno
    refine ⟨fun _ => 0, fun k => by have := hd k; omega, ?_⟩
    intro vals vals' hs hl _
    simp only
    rw [multicubicRegularAt_eq e he fma hT dims starts steps vals lin hs x,
      multicubicRegularAt_eq e he fma hT dims starts steps vals' lin (isSlice_of_length hs hl) x,
      checkRegular_vals hl]
    congr 1; funext _
    cases hr : axisLoop N (0, .none, zero) (fun i => do
      cubRegAxis (← aget dims i) (← aget starts i) (← aget steps i) (← aget x i)) with
    | ok a => exact absurd hr (hno a)
    | err m => rfl
    | panic => rfl
  rcases axisLoop_cases N (0, Saturation.none, zero) (fun i => do
      cubRegAxis (← aget dims i) (← aget starts i) (← aget steps i) (← aget x i)) with
    ⟨a, ha, hl⟩ | ⟨i, e, _, _, hl⟩ | ⟨i, _, _, hl⟩
  · have ha' : ∀ k, cubRegAxis (dims k) (starts k) (steps k) (x k) = .ok (a k) := by
      intro k; have := ha k; simpa using this
    refine ⟨fun k => (a k).1, fun k => cubRegAxis_bound (hd k) (ha' k), ?_⟩
    intro vals vals' hs hlen hv
    simp only
    rw [multicubicRegularAt_eq e he fma hT dims starts steps vals lin hs x,
      multicubicRegularAt_eq e he fma hT dims starts steps vals' lin (isSlice_of_length hs hlen) x,
      checkRegular_vals hlen, hl]
    congr 1; funext _
    rw [Res.ok_bind, Res.ok_bind]
    congr 1
    apply axisByAxis_congr (fun k i => (a k).1 ≤ i ∧ i < (a k).1 + 4)
    · intro k f f' hf; unfold cubRegRule; congr 1; funext p; exact hf _ ⟨by omega, by omega⟩
    · intro loc hloc; exact valAt_congr (hv loc hloc)
  · exact other (by intro a; rw [hl]; simp)
  · exact other (by intro a; rw [hl]; simp)

/-- Multicubic on rectilinear grids. -/
theorem C15_multicubic_rectilinear (e : Evaluator) (he : e.Fits N) (fma : Bool)
    (grids : Fin N → List T) (hd : ∀ k, 4 ≤ (grids k).length) (lin : Bool) (x : Fin N → T) :
    ReadsBlock 4 (fun k => (grids k).length)
      fun vals => multicubicRectilinearAt e fma grids vals lin x := by
  refine ⟨fun k => cubCell (grids k) (x k), fun k => cubCell_bound (hd k) _, ?_⟩
  intro vals vals' hs hl hv
  simp only
  rw [multicubicRectilinearAt_eq e he fma grids vals lin hs x,
    multicubicRectilinearAt_eq e he fma grids vals' lin (isSlice_of_length hs hl) x,
    checkRectilinear_vals hl]
  congr 1; funext _; congr 1
  apply axisByAxis_congr
    (fun k i => cubCell (grids k) (x k) ≤ i ∧ i < cubCell (grids k) (x k) + 4)
  · intro k f f' hf; unfold cubRectRule; congr 1; funext p; exact hf _ ⟨by omega, by omega⟩
  · intro loc hloc; exact valAt_congr (hv loc hloc)

/-- Nearest neighbor on regular grids: a single node. -/
theorem C15_nearest_regular (fma : Bool) (dims : Fin N → Nat)
    (hd : ∀ k, 2 ≤ dims k) (starts steps x : Fin N → T) :
    ReadsBlock 1 dims fun vals => nearestRegularAt fma dims starts steps vals x := by
  by_cases h : ∀ k, ∃ a, nearRegAxis fma (dims k) (starts k) (steps k) (x k) = some a
  · choose a ha using h
    refine ⟨a, fun k => nearRegAxis_bound (hd k) (ha k), ?_⟩
    intro vals vals' hs hl hv
    simp only
    rw [(nearestRegularAt_eq fma dims starts steps vals hs x).1 a ha,
      (nearestRegularAt_eq fma dims starts steps vals' (isSlice_of_length hs hl) x).1 a ha,
      checkRegular_vals hl, valAt_congr (hv a fun k => ⟨le_rfl, by omega⟩)]
  · push Not at h
    obtain ⟨k, hk⟩ := h
    have hk : ∃ k, nearRegAxis fma (dims k) (starts k) (steps k) (x k) = none :=
      ⟨k, by cases h : nearRegAxis fma (dims k) (starts k) (steps k) (x k) with
        | none => rfl
        | some a => exact absurd h (hk a)⟩
    refine ⟨fun _ => 0, fun k => by have := hd k; simp only; omega, ?_⟩
    intro vals vals' hs hl _
    simp only
    rw [(nearestRegularAt_eq fma dims starts steps vals hs x).2 hk,
      (nearestRegularAt_eq fma dims starts steps vals' (isSlice_of_length hs hl) x).2 hk,
      checkRegular_vals hl]

/-- Nearest neighbor on rectilinear grids. -/
theorem C15_nearest_rectilinear (grids : Fin N → List T) (hd : ∀ k, 2 ≤ (grids k).length)
    (x : Fin N → T) :
    ReadsBlock 1 (fun k => (grids k).length) fun vals => nearestRectilinearAt grids vals x := by
  refine ⟨fun k => nearRectAxis (grids k) (x k), fun k => nearRectAxis_bound (hd k) _, ?_⟩
  intro vals vals' hs hl hv
  simp only
  rw [nearestRectilinearAt_eq grids vals hs x,
    nearestRectilinearAt_eq grids vals' (isSlice_of_length hs hl) x,
    checkRectilinear_vals hl, valAt_congr (hv _ fun k => ⟨le_rfl, by simp only; omega⟩)]

/-! ### C16 -/

/-- Nearest neighbor on regular grids returns a stored value. -/
theorem C16_nearest_regular (fma : Bool) (dims : Fin N → Nat) (starts steps x : Fin N → T)
    (n : Nat) (hn : (n : Int) ≤ isizeMax) :
    ReturnsStored n fun vals => nearestRegularAt fma dims starts steps vals x := by
  have hsl : ∀ vals : List T, vals.length = n → IsSlice vals := by
    intro v h; rw [isSlice_iff, h]; exact hn
  have hchk : ∀ vals : List T, vals.length = n →
      checkRegular 2 "All grids must have at least two entries" (List.ofFn dims)
        (List.ofFn steps) vals =
      checkRegular 2 "All grids must have at least two entries" (List.ofFn dims)
        (List.ofFn steps) (List.replicate n zero) :=
    fun v h => checkRegular_vals (by simp [h])
  by_cases h : ∀ k, ∃ a, nearRegAxis fma (dims k) (starts k) (steps k) (x k) = some a
  · choose a ha using h
    cases hc : checkRegular 2 "All grids must have at least two entries" (List.ofFn dims)
        (List.ofFn steps) (List.replicate n (zero : T)) with
    | ok u =>
      left
      obtain ⟨h1, h2, h3, h4⟩ := checkRegular_eq_ok.1 hc
      have hv := goodVals_of h1 h2 h3
      have hi : cIndex dims a < n := by
        have := cIndex_lt dims a fun k => nearRegAxis_bound (hv.min k) (ha k)
        rw [← hv.len] at this
        simpa using this
      refine ⟨cIndex dims a, hi, fun vals hl => ⟨vals[cIndex dims a], by simp, ?_⟩⟩
      simp only
      rw [(nearestRegularAt_eq fma dims starts steps vals (hsl _ hl) x).1 a ha, hchk _ hl, hc,
        Res.ok_bind]
      unfold valAt
      rw [List.getD_eq_getElem _ _ (by omega)]
    | err m =>
      right
      intro v v' hl hl'
      simp only
      rw [(nearestRegularAt_eq fma dims starts steps v (hsl _ hl) x).1 a ha,
        (nearestRegularAt_eq fma dims starts steps v' (hsl _ hl') x).1 a ha, hchk _ hl, hchk _ hl', hc]
      simp
    | panic =>
      right
      intro v v' hl hl'
      simp only
      rw [(nearestRegularAt_eq fma dims starts steps v (hsl _ hl) x).1 a ha,
        (nearestRegularAt_eq fma dims starts steps v' (hsl _ hl') x).1 a ha, hchk _ hl, hchk _ hl', hc]
      simp
  · push Not at h
    obtain ⟨k, hk⟩ := h
    have hk : ∃ k, nearRegAxis fma (dims k) (starts k) (steps k) (x k) = none :=
      ⟨k, by cases h : nearRegAxis fma (dims k) (starts k) (steps k) (x k) with
        | none => rfl
        | some a => exact absurd h (hk a)⟩
    right
    intro v v' hl hl'
    simp only
    rw [(nearestRegularAt_eq fma dims starts steps v (hsl _ hl) x).2 hk,
      (nearestRegularAt_eq fma dims starts steps v' (hsl _ hl') x).2 hk, hchk _ hl, hchk _ hl']
    refine ⟨rfl, fun w hw => ?_⟩
    rw [Res.bind_eq_ok] at hw
    obtain ⟨_, _, h⟩ := hw
    cases h

/-- Nearest neighbor on rectilinear grids returns a stored value. -/
theorem C16_nearest_rectilinear (grids : Fin N → List T) (x : Fin N → T)
    (n : Nat) (hn : (n : Int) ≤ isizeMax) :
    ReturnsStored n fun vals => nearestRectilinearAt grids vals x := by
  have hsl : ∀ vals : List T, vals.length = n → IsSlice vals := by
    intro v h; rw [isSlice_iff, h]; exact hn
  have hchk : ∀ vals : List T, vals.length = n →
      checkRectilinear 2 "All grids must have at least 2 entries" (List.ofFn grids) vals =
      checkRectilinear 2 "All grids must have at least 2 entries" (List.ofFn grids)
        (List.replicate n zero) :=
    fun v h => checkRectilinear_vals (by simp [h])
  cases hc : checkRectilinear 2 "All grids must have at least 2 entries" (List.ofFn grids)
      (List.replicate n (zero : T)) with
  | ok u =>
    left
    obtain ⟨h1, h2, h3, h4⟩ := (checkRectilinear_eq_ok le_rfl).1 hc
    have hv := goodVals_grids h1 h2 h3
    have hi : cIndex (fun k => (grids k).length) (fun k => nearRectAxis (grids k) (x k)) < n := by
      have := cIndex_lt (fun k => (grids k).length) (fun k => nearRectAxis (grids k) (x k))
        fun k => nearRectAxis_bound (hv.min k) _
      rw [← hv.len] at this
      simpa using this
    refine ⟨_, hi, fun vals hl => ⟨vals[_]'(by omega), List.getElem?_eq_getElem _, ?_⟩⟩
    simp only
    rw [nearestRectilinearAt_eq grids vals (hsl _ hl) x, hchk _ hl, hc, Res.ok_bind]
    unfold valAt
    rw [List.getD_eq_getElem _ _ (by omega)]
  | err m =>
    right
    intro v v' hl hl'
    simp only
    rw [nearestRectilinearAt_eq grids v (hsl _ hl) x, nearestRectilinearAt_eq grids v' (hsl _ hl') x,
      hchk _ hl, hchk _ hl', hc]
    simp
  | panic =>
    right
    intro v v' hl hl'
    simp only
    rw [nearestRectilinearAt_eq grids v (hsl _ hl) x, nearestRectilinearAt_eq grids v' (hsl _ hl') x,
      hchk _ hl, hchk _ hl', hc]
    simp

omit [FloatOps T] in
/-- Any 1-D interpolator that only selects one of the two sampled values returns stored
values. -/
theorem SamplesPair.select {n : Nat} {sample : List T → Res (GridSample T)}
    (h : SamplesPair n sample) (pick : T → T → Extrap → Bool) :
    ReturnsStored n fun vals => sample vals >>= fun g =>
      .ok (if pick g.x0 g.x1 g.extrap then g.y1 else g.y0) := by
  rcases h with ⟨i, x0, x1, ex, hi, h⟩ | h
  · left
    refine ⟨if pick x0 x1 ex then i + 1 else i, by split <;> omega, fun vals hl => ?_⟩
    obtain ⟨y0, y1, h0, h1, hs⟩ := h vals hl
    refine ⟨if pick x0 x1 ex then y1 else y0, ?_, by simp only [hs, Res.ok_bind]⟩
    split
    · exact h1
    · exact h0
  · right
    intro v v' hl hl'
    obtain ⟨h1, h2⟩ := h v v' hl hl'
    refine ⟨by simp only [h1], fun w hw => ?_⟩
    obtain ⟨a, ha, _⟩ := Res.bind_eq_ok.1 hw
    exact h2 a ha

omit [FloatOps T] in
theorem left_eq_select (at' : T → Res (GridSample T)) (loc : T) :
    Left1D.evalOne at' loc = (at' loc >>= fun g =>
      .ok (if (fun _ _ e => e == Extrap.outsideHigh : T → T → Extrap → Bool) g.x0 g.x1 g.extrap
        then g.y1 else g.y0)) := by
  unfold Left1D.evalOne
  congr 1; funext g
  cases h : g.extrap <;> rfl

omit [FloatOps T] in
theorem right_eq_select (at' : T → Res (GridSample T)) (loc : T) :
    Right1D.evalOne at' loc = (at' loc >>= fun g =>
      .ok (if (fun _ _ e => e != Extrap.outsideLow : T → T → Extrap → Bool) g.x0 g.x1 g.extrap
        then g.y1 else g.y0)) := by
  unfold Right1D.evalOne
  congr 1; funext g
  cases h : g.extrap <;> rfl

theorem nearest_eq_select (at' : T → Res (GridSample T)) (loc : T) :
    Nearest1D.evalOne at' loc = (at' loc >>= fun g =>
      .ok (if (fun x0 x1 _ => !(abs (loc -. x0) <=. abs (loc -. x1)) : T → T → Extrap → Bool)
        g.x0 g.x1 g.extrap then g.y1 else g.y0)) := by
  unfold Nearest1D.evalOne
  congr 1; funext g
  simp only [Res.pure_eq]
  by_cases h : (FloatOps.abs (loc -. g.x0) <=. FloatOps.abs (loc -. g.x1)) = true
  · simp [h]
  · simp [h]

/-- The 1-D hold and nearest interpolators on regular grids return stored values. -/
theorem C16_hold_regular (start step loc : T) (n : Nat) (hn : (n : Int) ≤ isizeMax) :
    ReturnsStored n (fun vals => regular1DAt Left1D.evalOne start step vals loc) ∧
    ReturnsStored n (fun vals => regular1DAt Right1D.evalOne start step vals loc) ∧
    ReturnsStored n (fun vals => regular1DAt Nearest1D.evalOne start step vals loc) := by
  have h := regular_samplesPair start step loc n hn
  refine ⟨?_, ?_, ?_⟩
  · have := h.select (fun _ _ e => e == Extrap.outsideHigh)
    simpa only [regular1DAt, left_eq_select, bind_assoc] using this
  · have := h.select (fun _ _ e => e != Extrap.outsideLow)
    simpa only [regular1DAt, right_eq_select, bind_assoc] using this
  · have := h.select (fun x0 x1 _ => !(abs (loc -. x0) <=. abs (loc -. x1)))
    simpa only [regular1DAt, nearest_eq_select, bind_assoc] using this

/-- The 1-D hold and nearest interpolators on rectilinear grids return stored values. -/
theorem C16_hold_rectilinear (grid : List T) (loc : T) (n : Nat) (hn : (n : Int) ≤ isizeMax) :
    ReturnsStored n (fun vals => rectilinear1DAt Left1D.evalOne grid vals loc) ∧
    ReturnsStored n (fun vals => rectilinear1DAt Right1D.evalOne grid vals loc) ∧
    ReturnsStored n (fun vals => rectilinear1DAt Nearest1D.evalOne grid vals loc) := by
  have h := rectilinear_samplesPair grid loc n hn
  refine ⟨?_, ?_, ?_⟩
  · have := h.select (fun _ _ e => e == Extrap.outsideHigh)
    simpa only [rectilinear1DAt, left_eq_select, bind_assoc] using this
  · have := h.select (fun _ _ e => e != Extrap.outsideLow)
    simpa only [rectilinear1DAt, right_eq_select, bind_assoc] using this
  · have := h.select (fun x0 x1 _ => !(abs (loc -. x0) <=. abs (loc -. x1)))
    simpa only [rectilinear1DAt, nearest_eq_select, bind_assoc] using this

/-! Concrete cases: a 3×2 grid evaluated in its second cell of axis 0; changing the values of
nodes (0, ·) does not change the result, changing a node of the cell does. -/
section Examples
attribute [local instance] ratOps

example : (∀ k, 2 ≤ (![3, 2] : Fin 2 → Nat) k) ∧ Evaluator.flat.Fits 2 ∧
    multilinearRegularAt .flat false ![3, 2] ![0, 0] ![1, 1] [0, 0, 1, 2, 3, 5] ![3/2, 1/2]
      = .ok (11/4 : ℚ) ∧
    multilinearRegularAt .flat false ![3, 2] ![0, 0] ![1, 1] [7, -8, 1, 2, 3, 5] ![3/2, 1/2]
      = .ok (11/4 : ℚ) ∧
    multilinearRegularAt .flat false ![3, 2] ![0, 0] ![1, 1] [0, 0, 2, 2, 3, 5] ![3/2, 1/2]
      ≠ .ok (11/4 : ℚ) := by
  unfold Evaluator.Fits; decide +kernel

example : regular1DAt Left1D.evalOne 0 1 [10, 20, 30] (3/2) = .ok (20 : ℚ) ∧
    regular1DAt Right1D.evalOne 0 1 [10, 20, 30] (3/2) = .ok (30 : ℚ) ∧
    rectilinear1DAt Nearest1D.evalOne [0, 1, 5] [10, 20, 30] 2 = .ok (20 : ℚ) ∧
    nearestRegularAt false ![3] ![0] ![1] [10, 20, 30] ![8/5] = .ok (30 : ℚ) := by
  decide +kernel

end Examples

end Interpn
