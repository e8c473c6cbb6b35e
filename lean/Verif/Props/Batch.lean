import Verif.Lemmas.Batch
import Verif.Lemmas.New
import Verif.Model.OneDim
import Verif.Lemmas.ExactRules
import Verif.Lemmas.RatOps

/-! C09, C10: batch evaluation (`interp`) of the ten N-d interpolators, and C44: batch
evaluation of the 1-D interpolators. The specification is `BatchSpec` / `BatchSpecL` of
`Spec/Batch.lean`: it determines outcome and final buffer of `interp` completely in terms of
`interp_one`. -/

set_option autoImplicit false

namespace Interpn
open FloatOps

section
variable {T : Type} [FloatOps T] {N M : Nat}

/-- C09, C10 for `MultilinearRegular`. -/
theorem C09_C10_multilinear_regular (fma : Bool) (s : MultilinearRegular T N) :
    BatchSpec (s.interpOne fma) (s.interp fma) :=
  s.interp_spec fma

/-- C09, C10 for `MultilinearRectilinear`. -/
theorem C09_C10_multilinear_rectilinear (fma : Bool) (s : MultilinearRectilinear T N) :
    BatchSpec (s.interpOne fma) (s.interp fma) :=
  s.interp_spec fma

/-- C09, C10 for `NearestRegular`. -/
theorem C09_C10_nearest_regular (fma : Bool) (s : NearestRegular T N) :
    BatchSpec (s.interpOne fma) (s.interp fma) :=
  s.interp_spec fma

/-- C09, C10 for `NearestRectilinear`. -/
theorem C09_C10_nearest_rectilinear (s : NearestRectilinear T N) :
    BatchSpec s.interpOne s.interp :=
  s.interp_spec

/-- C09, C10 for `MulticubicRegular`. -/
theorem C09_C10_multicubic_regular (fma : Bool) (s : MulticubicRegular T N) :
    BatchSpec (s.interpOne fma) (s.interp fma) :=
  s.interp_spec fma

/-- C09, C10 for `MulticubicRectilinear`. -/
theorem C09_C10_multicubic_rectilinear (fma : Bool) (s : MulticubicRectilinear T N) :
    BatchSpec (s.interpOne fma) (s.interp fma) :=
  s.interp_spec fma

/-- C09, C10 for `MultilinearRegularRecursive`. -/
theorem C09_C10_multilinear_regular_recursive (fma : Bool) {dims : List Nat}
    {starts steps vals : List T} {s : MultilinearRegularRecursive T M}
    (h : MultilinearRegularRecursive.new M dims starts steps vals = .ok s) :
    BatchSpecL dims.length (s.interpOne fma) (s.interp fma) := by
  obtain ⟨⟨_, _, _, hM⟩, _, hs⟩ := MultilinearRegularRecursive.new_ok h
  have hn : s.ndims = dims.length := by rw [hs]
  rw [← hn]
  exact s.interp_spec fma (by omega)

/-- C09, C10 for `MultilinearRectilinearRecursive`. -/
theorem C09_C10_multilinear_rectilinear_recursive (fma : Bool) {grids : List (List T)}
    {vals : List T} {s : MultilinearRectilinearRecursive T M}
    (h : MultilinearRectilinearRecursive.new M grids vals = .ok s) :
    BatchSpecL grids.length (s.interpOne fma) (s.interp fma) := by
  rw [MultilinearRectilinearRecursive.new_form] at h
  rw [Res.bind_eq_ok] at h
  obtain ⟨d, h1, h2⟩ := h
  have hg : s.grids = grids := by rw [← Res.ok.inj h2]
  have hM := (checkRectilinearRec_ok h1).2
  rw [← hg] at hM ⊢
  exact s.interp_spec fma hM

/-- C09, C10 for `MulticubicRegularRecursive`. -/
theorem C09_C10_multicubic_regular_recursive (fma : Bool) {dims : List Nat}
    {starts steps vals : List T} {lin : Bool} {s : MulticubicRegularRecursive T M}
    (h : MulticubicRegularRecursive.new M dims starts steps vals lin = .ok s) :
    BatchSpecL dims.length (s.interpOne fma) (s.interp fma) := by
  obtain ⟨⟨_, _, _, hM⟩, _, hs⟩ := MulticubicRegularRecursive.new_ok h
  have hn : s.ndims = dims.length := by rw [hs]
  rw [← hn]
  exact s.interp_spec fma (by omega)

/-- C09, C10 for `MulticubicRectilinearRecursive`. -/
theorem C09_C10_multicubic_rectilinear_recursive (fma : Bool) {grids : List (List T)}
    {vals : List T} {lin : Bool} {s : MulticubicRectilinearRecursive T M}
    (h : MulticubicRectilinearRecursive.new M grids vals lin = .ok s) :
    BatchSpecL grids.length (s.interpOne fma) (s.interp fma) := by
  rw [MulticubicRectilinearRecursive.new_form] at h
  rw [Res.bind_eq_ok] at h
  obtain ⟨d, h1, h2⟩ := h
  have hg : s.grids = grids := by rw [← Res.ok.inj h2]
  have hM := (checkRectilinearRec_ok h1).2
  rw [← hg] at hM ⊢
  exact s.interp_spec fma hM

omit [FloatOps T] in
/-- Consequence of the specification: evaluation does not depend on the order or grouping of
the observations. If every observation of a second batch occurs in the first, at position
`r i`, then the second batch succeeds too and has the corresponding results. (Permutation,
repetition, splitting of batches.) -/
theorem C09_reorder {one : (Fin N → T) → Res T}
    {interp : (Fin N → List T) → List T → Res Unit × List T} (hS : BatchSpec one interp)
    {x x₂ : Fin N → List T} {out out' out₂ out₂' : List T} (r : Nat → Nat)
    (h : interp x out = (.ok (), out'))
    (hlen : ∀ k, (x₂ k).length = out₂.length) (hlen' : out₂'.length = out₂.length)
    (hx : ∀ k i, i < out₂.length → (x₂ k)[i]? = (x k)[r i]?)
    (ho : ∀ i, i < out₂.length → out₂'[i]? = out'[r i]?) :
    interp x₂ out₂ = (.ok (), out₂') := by
  obtain ⟨_, _, h3⟩ := (hS.ok_iff x out out').1 h
  refine (hS.ok_iff x₂ out₂ out₂').2 ⟨hlen, hlen', ?_⟩
  intro i v hv
  have hi : i < out₂.length := by rw [← hlen']; exact (List.getElem?_eq_some_iff.1 hv).1
  obtain ⟨pt, hp, hv'⟩ := h3 (r i) v (by rw [← ho i hi]; exact hv)
  exact ⟨pt, fun k => by rw [hx k i hi]; exact hp k, hv'⟩

omit [FloatOps T] in
/-- Consequence of the specification: the previous contents of the buffer do not matter. -/
theorem C09_contents {one : (Fin N → T) → Res T}
    {interp : (Fin N → List T) → List T → Res Unit × List T} (hS : BatchSpec one interp)
    {x : Fin N → List T} {out out' out₂ : List T} (hlen : out₂.length = out.length)
    (h : interp x out = (.ok (), out')) : interp x out₂ = (.ok (), out') := by
  obtain ⟨h1, h2, h3⟩ := (hS.ok_iff x out out').1 h
  exact (hS.ok_iff x out₂ out').2 ⟨fun k => by rw [h1, hlen], by rw [h2, hlen], h3⟩

/-! #### C44: 1-D batch evaluation -/

omit [FloatOps T] in
theorem point1_eq {one : T → Res T} {locs vs : List T} (hn : vs.length ≤ locs.length) :
    (∀ (i : Nat) v, vs[i]? = some v → ∃ p, locs[i]? = some p ∧ one p = .ok v) ↔
    ∀ j (hj : j < vs.length), (do one (← lget locs j)) = .ok vs[j] := by
  constructor
  · intro h j hj
    obtain ⟨p, hp, ho⟩ := h j vs[j] (List.getElem?_eq_getElem hj)
    rw [lget_of_some hp, Res.ok_bind, ho]
  · intro h i v hv
    obtain ⟨hi, rfl⟩ := List.getElem?_eq_some_iff.1 hv
    refine ⟨locs[i]'(by omega), List.getElem?_eq_getElem _, ?_⟩
    have := h i hi
    rwa [lget_lt _ (by omega), Res.ok_bind] at this

omit [FloatOps T] in
/-- C44, lengths differ. -/
theorem C44_eval_mismatch (one : T → Res T) (locs out : List T) (h : locs.length ≠ out.length) :
    eval1D one locs out = (.err "Length mismatch", out) := by
  unfold eval1D; rw [if_pos h]

omit [FloatOps T] in
/-- C44, success: exactly when the buffer ends up with the values at all locations. -/
theorem C44_eval_ok (one : T → Res T) (locs out out' : List T) :
    eval1D one locs out = (.ok (), out') ↔
      locs.length = out.length ∧ out'.length = out.length ∧
      ∀ (i : Nat) v, out'[i]? = some v → ∃ p, locs[i]? = some p ∧ one p = .ok v := by
  unfold eval1D
  by_cases h : locs.length = out.length
  · rw [if_neg (not_not.2 h), h, batchLoop_eq_ok_iff]
    constructor
    · rintro ⟨h1, h2⟩; exact ⟨rfl, h1, (point1_eq (by omega)).2 h2⟩
    · rintro ⟨_, h1, h2⟩; exact ⟨h1, (point1_eq (by omega)).1 h2⟩
  · rw [if_pos h]
    constructor
    · intro h'; cases h'
    · rintro ⟨h', _⟩; exact absurd h' h

omit [FloatOps T] in
/-- C44, first failing location. -/
theorem C44_eval_first_failure (one : T → Res T) (locs out vs : List T) (p : T)
    (hl : locs.length = out.length) (hlt : vs.length < out.length)
    (hv : ∀ (i : Nat) v, vs[i]? = some v → ∃ p, locs[i]? = some p ∧ one p = .ok v)
    (hp : locs[vs.length]? = some p) :
    (∀ e, one p = .err e → eval1D one locs out = (.err e, vs ++ out.drop vs.length)) ∧
    (one p = .panic → eval1D one locs out = (.panic, vs ++ out.drop vs.length)) := by
  unfold eval1D
  rw [if_neg (not_not.2 hl), hl]
  have := batchLoop_fail (fun i => do one (← lget locs i)) out vs hlt ((point1_eq (by omega)).1 hv)
  simp only [lget_of_some hp, Res.ok_bind] at this
  exact this

/-- C44, `eval_alloc`: success exactly when every location succeeds, with those values; it
fails exactly as `eval` into a fresh buffer. -/
theorem C44_eval_alloc (one : T → Res T) (locs vs : List T) :
    evalAlloc1D one locs = .ok vs ↔
      vs.length = locs.length ∧ ∀ (i : Nat) v, vs[i]? = some v → ∃ p, locs[i]? = some p ∧ one p = .ok v := by
  have key := C44_eval_ok one locs (List.replicate locs.length zero)
  unfold evalAlloc1D
  simp only
  constructor
  · intro h
    rw [Res.bind_eq_ok] at h
    obtain ⟨u, h1, h2⟩ := h
    have h3 := (key vs).1 (by
      rw [← Res.ok.inj h2]; exact Prod.ext h1 rfl)
    simpa using h3.2
  · rintro ⟨h1, h2⟩
    rw [(key vs).2 ⟨by simp, by simpa using h1, h2⟩]
    rfl

/-- C44, `eval_alloc` passes failures through. -/
theorem C44_eval_alloc_fail (one : T → Res T) (locs : List T) :
    (∀ e, evalAlloc1D one locs = .err e ↔
      (eval1D one locs (List.replicate locs.length zero)).1 = .err e) ∧
    (evalAlloc1D one locs = .panic ↔
      (eval1D one locs (List.replicate locs.length zero)).1 = .panic) := by
  unfold evalAlloc1D
  simp only
  generalize eval1D one locs (List.replicate locs.length zero) = r
  obtain ⟨r1, r2⟩ := r
  cases r1 <;> simp [Bind.bind, Res.bind]

end

/-! #### Concrete cases -/

section
attribute [local instance] ratOps

/-- A batch of three observations on a 2x3 grid. -/
example : (do
    let s ← MultilinearRegular.new (T := ℚ) (N := 2) ![2, 3] ![0, 1] ![1, 2] [1, 2, 3, 4, 5, 6]
    let r := s.interp false ![[0, 1/2, 1], [1, 7/2, 5]] [7, 7, 7]
    let _ ← r.1
    return r.2) = .ok [1, 15 / 4, 6] := by decide +kernel

/-- A batch whose second observation is not representable. -/
example : (do
    let s ← MultilinearRegular.new (T := ℚ) (N := 1) ![2] ![0] ![1] [1, 2]
    return s.interp false ![[1/2, 2 ^ 64, 1]] [7, 7, 7]) =
    .ok (.err "Unrepresentable coordinate value", [3/2, 7, 7]) := by decide +kernel

/-- The recursive evaluator. -/
example : (do
    let s ← MultilinearRectilinearRecursive.new (T := ℚ) 3 [[0, 1], [1, 3, 5]] [1, 2, 3, 4, 5, 6]
    return s.interp false [[0, 1/2, 1], [1, 7/2, 5]] [7, 7, 7]) =
    .ok (.ok (), [1, 15 / 4, 6]) := by decide +kernel

/-- A 1-D batch. -/
example : evalAlloc1D (fun x : ℚ => if x = 0 then .err "zero" else .ok (1 / x)) [1, 2, 4] =
    .ok [1, 1 / 2, 1 / 4] := by decide +kernel

end

end Interpn
