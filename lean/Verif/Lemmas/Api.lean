import Verif.Lemmas.Outcome
import Verif.Spec.Api

/-! Closed forms of the evaluations of `Spec/Api.lean`. -/

set_option autoImplicit false

namespace Interpn
open FloatOps

variable {T : Type} [FloatOps T] {N : Nat}

/-- Does the evaluator use `mul_add` for the node location on regular grids? -/
def Evaluator.fmaLoc (e : Evaluator) (fma : Bool) : Bool :=
  match e with
  | .flat => fma
  | .recursive _ => false

theorem Evaluator.Fits.pos {e : Evaluator} (h : e.Fits N) : 0 < N := by
  cases e
  · exact h
  · exact h.1

/-- Linear regular: result of the evaluation after the constructor's checks. -/
theorem multilinearRegularAt_eq (e : Evaluator) (he : e.Fits N) (fma : Bool) (dims : Fin N → Nat)
    (starts steps : Fin N → T) (vals : List T) (hs : IsSlice vals) (x : Fin N → T) :
    (∀ a : Fin N → Nat × T,
      (∀ k, linRegAxis (e.fmaLoc fma) (dims k) (starts k) (steps k) (x k) = some (a k)) →
      multilinearRegularAt e fma dims starts steps vals x =
        (checkRegular 2 "All grids must have at least two entries" (List.ofFn dims)
          (List.ofFn steps) vals >>= fun _ =>
        .ok (axisByAxis (fun k f => lerp fma (a k).2 fun p => f ((a k).1 + p.val))
          (valAt zero dims vals)))) ∧
    ((∃ k, linRegAxis (e.fmaLoc fma) (dims k) (starts k) (steps k) (x k) = none) →
      multilinearRegularAt e fma dims starts steps vals x =
        (checkRegular 2 "All grids must have at least two entries" (List.ofFn dims)
          (List.ofFn steps) vals >>= fun _ => .err errRepr)) := by
  have key : ∀ r : Res T,
      (checkRegular 2 "All grids must have at least two entries" (List.ofFn dims)
        (List.ofFn steps) vals = .ok () → multilinearRegularAt e fma dims starts steps vals x = r) →
      multilinearRegularAt e fma dims starts steps vals x =
        (checkRegular 2 "All grids must have at least two entries" (List.ofFn dims)
          (List.ofFn steps) vals >>= fun _ => r) := by
    intro r h
    cases hc : checkRegular 2 "All grids must have at least two entries" (List.ofFn dims)
        (List.ofFn steps) vals with
    | ok u => rw [h hc]; rfl
    | err m =>
      cases e with
      | flat => unfold multilinearRegularAt; rw [MultilinearRegular.new_form]; simp only [hc]; rfl
      | recursive M =>
        unfold multilinearRegularAt
        simp only [MultilinearRegularRecursive.new_ofFn he.1 he.2, hc]; rfl
    | panic =>
      cases e with
      | flat => unfold multilinearRegularAt; rw [MultilinearRegular.new_form]; simp only [hc]; rfl
      | recursive M =>
        unfold multilinearRegularAt
        simp only [MultilinearRegularRecursive.new_ofFn he.1 he.2, hc]; rfl
  constructor
  · intro a ha
    apply key
    intro hc
    obtain ⟨h1, h2, h3, h4⟩ := checkRegular_eq_ok.1 hc
    have hv : GoodVals 2 dims vals := goodVals_of h1 h2 h3
    cases e with
    | flat =>
      unfold multilinearRegularAt; rw [MultilinearRegular.new_form]
      simp only [hc, Res.ok_bind, Res.pure_eq]
      exact MultilinearRegular.interpOne_ok (s := ⟨dims, starts, steps, vals⟩) fma he hv hs
        (samples_valAt zero _ _ hv.len) a ha
    | recursive M =>
      unfold multilinearRegularAt
      have hn := MultilinearRegularRecursive.new_ofFn he.1 he.2 dims starts steps vals
      rw [hc] at hn
      simp only
      rw [hn]
      exact ((MultilinearRegularRecursive.outcome fma hn).2.2.2.2.2 hs _
        (samples_valAt zero _ _ hv.len) x).1 a ha
  · intro ha
    apply key
    intro hc
    obtain ⟨h1, h2, h3, h4⟩ := checkRegular_eq_ok.1 hc
    have hv : GoodVals 2 dims vals := goodVals_of h1 h2 h3
    cases e with
    | flat =>
      unfold multilinearRegularAt; rw [MultilinearRegular.new_form]
      simp only [hc, Res.ok_bind, Res.pure_eq]
      exact MultilinearRegular.interpOne_err (s := ⟨dims, starts, steps, vals⟩) fma he hv hs ha
    | recursive M =>
      unfold multilinearRegularAt
      have hn := MultilinearRegularRecursive.new_ofFn he.1 he.2 dims starts steps vals
      rw [hc] at hn
      simp only
      rw [hn]
      exact ((MultilinearRegularRecursive.outcome fma hn).2.2.2.2.2 hs _
        (samples_valAt zero _ _ hv.len) x).2 ha

/-- Linear rectilinear. -/
theorem multilinearRectilinearAt_eq (e : Evaluator) (he : e.Fits N) (fma : Bool)
    (grids : Fin N → List T) (vals : List T) (hs : IsSlice vals) (x : Fin N → T) :
    multilinearRectilinearAt e fma grids vals x =
      (checkRectilinear 2 "All grids must have at least 2 entries" (List.ofFn grids) vals >>=
        fun _ => .ok (axisByAxis (fun k => linRule fma (grids k) (x k))
          (valAt zero (fun k => (grids k).length) vals))) := by
  cases e with
  | flat =>
    unfold multilinearRectilinearAt; rw [MultilinearRectilinear.new_form]
    cases hc : checkRectilinear 2 "All grids must have at least 2 entries" (List.ofFn grids) vals with
    | ok u =>
      obtain ⟨h1, h2, h3, h4⟩ := (checkRectilinear_eq_ok le_rfl).1 hc
      have hv : GoodVals 2 (fun k => (grids k).length) vals := goodVals_grids h1 h2 h3
      simp only [Res.ok_bind, Res.pure_eq]
      exact MultilinearRectilinear.interpOne_ok (s := ⟨grids, fun k => (grids k).length, vals⟩)
        fma he (fun _ => rfl) hv hs (samples_valAt zero _ _ hv.len)
    | err m => rfl
    | panic => rfl
  | recursive M =>
    unfold multilinearRectilinearAt
    have hn := MultilinearRectilinearRecursive.new_eq (M := M) (grids := List.ofFn grids)
      (vals := vals) (by simpa using he.1) (by simpa using he.2)
    simp only
    cases hc : checkRectilinear 2 "All grids must have at least 2 entries" (List.ofFn grids) vals with
    | ok u =>
      rw [hc] at hn
      obtain ⟨_, _, _, hv, _, ho⟩ := MultilinearRectilinearRecursive.outcome fma hn
      rw [hn]
      exact ho hs _ (samples_valAt zero _ _ hv.len) x
    | err m => rw [hn, hc]; rfl
    | panic => rw [hn, hc]; rfl

/-- Does the evaluator use `mul_add` for the low boundary slope on regular grids? -/
def Evaluator.fmaLow (e : Evaluator) (fma : Bool) : Bool :=
  match e with
  | .flat => fma
  | .recursive _ => false

/-- Cubic regular. -/
theorem multicubicRegularAt_eq (e : Evaluator) (he : e.Fits N) (fma : Bool)
    (hT : TotalOfUsize T) (dims : Fin N → Nat)
    (starts steps : Fin N → T) (vals : List T) (lin : Bool) (hs : IsSlice vals) (x : Fin N → T) :
    multicubicRegularAt e fma dims starts steps vals lin x =
      (checkRegular 4 "All grids must have at least four entries" (List.ofFn dims)
        (List.ofFn steps) vals >>= fun _ =>
      (axisLoop N (0, .none, zero) (fun i => do
        cubRegAxis (← aget dims i) (← aget starts i) (← aget steps i) (← aget x i)) >>=
      fun a => .ok (axisByAxis (fun k => cubRegRule fma (e.fmaLow fma) lin (a k))
        (valAt zero dims vals)))) := by
  cases e with
  | flat =>
    unfold multicubicRegularAt; rw [MulticubicRegular.new_form]
    cases hc : checkRegular 4 "All grids must have at least four entries" (List.ofFn dims)
        (List.ofFn steps) vals with
    | ok u =>
      obtain ⟨h1, h2, h3, h4⟩ := checkRegular_eq_ok.1 hc
      have hv : GoodVals 4 dims vals := goodVals_of h1 h2 h3
      simp only [Res.ok_bind, Res.pure_eq]
      exact MulticubicRegular.interpOne_eq (s := ⟨dims, starts, steps, vals, lin⟩) fma he hv hs
        (samples_valAt zero _ _ hv.len)
    | err m => rfl
    | panic => rfl
  | recursive M =>
    unfold multicubicRegularAt
    have hn := MulticubicRegularRecursive.new_ofFn he.1 he.2 dims starts steps vals lin
    simp only
    cases hc : checkRegular 4 "All grids must have at least four entries" (List.ofFn dims)
        (List.ofFn steps) vals with
    | ok u =>
      rw [hc] at hn
      obtain ⟨_, _, _, hv, _, ho⟩ := MulticubicRegularRecursive.outcome fma hn
      rw [hn]
      exact ho hs hT _ (samples_valAt zero _ _ hv.len) x
    | err m => rw [hn, hc]; rfl
    | panic => rw [hn, hc]; rfl

/-- Does the evaluator use `mul_add` in the boundary branches on rectilinear grids? -/
def Evaluator.fmaBdry (e : Evaluator) (fma : Bool) : Bool :=
  match e with
  | .flat => false
  | .recursive _ => fma

/-- Cubic rectilinear. -/
theorem multicubicRectilinearAt_eq (e : Evaluator) (he : e.Fits N) (fma : Bool)
    (grids : Fin N → List T) (vals : List T) (lin : Bool) (hs : IsSlice vals) (x : Fin N → T) :
    multicubicRectilinearAt e fma grids vals lin x =
      (checkRectilinear 4 "All grids must have at least 4 entries" (List.ofFn grids) vals >>=
        fun _ => .ok (axisByAxis (fun k => cubRectRule fma (e.fmaBdry fma) (e.fmaBdry fma) lin
          (grids k) (x k)) (valAt zero (fun k => (grids k).length) vals))) := by
  cases e with
  | flat =>
    unfold multicubicRectilinearAt; rw [MulticubicRectilinear.new_form]
    cases hc : checkRectilinear 4 "All grids must have at least 4 entries" (List.ofFn grids) vals with
    | ok u =>
      obtain ⟨h1, h2, h3, h4⟩ := (checkRectilinear_eq_ok (by omega)).1 hc
      have hv : GoodVals 4 (fun k => (grids k).length) vals := goodVals_grids h1 h2 h3
      simp only [Res.ok_bind, Res.pure_eq]
      exact MulticubicRectilinear.interpOne_ok (s := ⟨grids, fun k => (grids k).length, vals, lin⟩)
        fma he (fun _ => rfl) hv hs (samples_valAt zero _ _ hv.len)
    | err m => rfl
    | panic => rfl
  | recursive M =>
    unfold multicubicRectilinearAt
    have hn := MulticubicRectilinearRecursive.new_eq (M := M) (grids := List.ofFn grids)
      (vals := vals) (lin := lin) (by simpa using he.1) (by simpa using he.2)
    simp only
    cases hc : checkRectilinear 4 "All grids must have at least 4 entries" (List.ofFn grids) vals with
    | ok u =>
      rw [hc] at hn
      obtain ⟨_, _, _, hv, _, ho⟩ := MulticubicRectilinearRecursive.outcome fma hn
      rw [hn]
      exact ho hs _ (samples_valAt zero _ _ hv.len) x
    | err m => rw [hn, hc]; rfl
    | panic => rw [hn, hc]; rfl

/-- Nearest regular. -/
theorem nearestRegularAt_eq (fma : Bool) (dims : Fin N → Nat)
    (starts steps : Fin N → T) (vals : List T) (hs : IsSlice vals) (x : Fin N → T) :
    (∀ a : Fin N → Nat,
      (∀ k, nearRegAxis fma (dims k) (starts k) (steps k) (x k) = some (a k)) →
      nearestRegularAt fma dims starts steps vals x =
        (checkRegular 2 "All grids must have at least two entries" (List.ofFn dims)
          (List.ofFn steps) vals >>= fun _ => .ok (valAt zero dims vals a))) ∧
    ((∃ k, nearRegAxis fma (dims k) (starts k) (steps k) (x k) = none) →
      nearestRegularAt fma dims starts steps vals x =
        (checkRegular 2 "All grids must have at least two entries" (List.ofFn dims)
          (List.ofFn steps) vals >>= fun _ => .err errRepr)) := by
  unfold nearestRegularAt; rw [NearestRegular.new_form]
  cases hc : checkRegular 2 "All grids must have at least two entries" (List.ofFn dims)
      (List.ofFn steps) vals with
  | ok u =>
    obtain ⟨h1, h2, h3, h4⟩ := checkRegular_eq_ok.1 hc
    have hv : GoodVals 2 dims vals := goodVals_of h1 h2 h3
    simp only [Res.ok_bind, Res.pure_eq]
    exact ⟨fun a ha => NearestRegular.interpOne_ok (s := ⟨dims, starts, steps, vals⟩) fma hv hs
        (samples_valAt zero _ _ hv.len) a ha,
      fun ha => NearestRegular.interpOne_err (s := ⟨dims, starts, steps, vals⟩) fma hv hs ha⟩
  | err m => exact ⟨fun _ _ => rfl, fun _ => rfl⟩
  | panic => exact ⟨fun _ _ => rfl, fun _ => rfl⟩

/-- Nearest rectilinear. -/
theorem nearestRectilinearAt_eq (grids : Fin N → List T) (vals : List T) (hs : IsSlice vals)
    (x : Fin N → T) :
    nearestRectilinearAt grids vals x =
      (checkRectilinear 2 "All grids must have at least 2 entries" (List.ofFn grids) vals >>=
        fun _ => .ok (valAt zero (fun k => (grids k).length) vals
          fun k => nearRectAxis (grids k) (x k))) := by
  unfold nearestRectilinearAt; rw [NearestRectilinear.new_form]
  cases hc : checkRectilinear 2 "All grids must have at least 2 entries" (List.ofFn grids) vals with
  | ok u =>
    obtain ⟨h1, h2, h3, h4⟩ := (checkRectilinear_eq_ok le_rfl).1 hc
    have hv : GoodVals 2 (fun k => (grids k).length) vals := goodVals_grids h1 h2 h3
    simp only [Res.ok_bind, Res.pure_eq]
    exact NearestRectilinear.interpOne_ok (s := ⟨grids, fun k => (grids k).length, vals⟩)
      (fun _ => rfl) hv hs (samples_valAt zero _ _ hv.len)
  | err m => rfl
  | panic => rfl

/-- The constructors look at the values only through their number. -/
theorem checkRegular_vals {m : Nat} {msg : String} {dims : List Nat} {steps vals vals' : List T}
    (h : vals.length = vals'.length) :
    checkRegular m msg dims steps vals = checkRegular m msg dims steps vals' := by
  unfold checkRegular; rw [h]

theorem checkRectilinear_vals {m : Nat} {msg : String} {grids : List (List T)}
    {vals vals' : List T} (h : vals.length = vals'.length) :
    checkRectilinear m msg grids vals = checkRectilinear m msg grids vals' := by
  unfold checkRectilinear; rw [h]

end Interpn
